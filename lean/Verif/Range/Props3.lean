import Verif.Range.Props2
import Verif.Proto.Dist

/-! # Properties C56, C57: crashes, leaks, and what range proofs reveal -/

namespace Zk.Proto

open Zk

variable {cp : Params} {E : Type} [AddCommGroup E]

/-! ## C56 -/

/-- C56 as a user needs it: `Verify` never crashes the process, and when it has returned, its
goroutines can come to an end.  See rangeproof.go:262-322. -/
def RangeVerifySafe (cp : Params) : Prop :=
  ∀ (hash : Bytes → Bytes) (pr : RangeProof) (comm : ECPoint) (s : VState),
    VState.Reach hash cp pr comm s →
      s.main ≠ .ret .panic ∧
      ((∃ r, s.main = .ret r) → (∀ s', ¬ VState.Step hash cp pr comm s s') →
        ∀ i p, s.workers i ≠ .sending p)

/-- C56: every proof with more than 64 tuples crashes the process under every schedule. -/
theorem C56_too_many_tuples_crash (L : Lawful cp E) (hash : Bytes → Bytes) (pr : RangeProof)
    (comm : ECPoint) (hlen : 64 < pr.ProofTuples.length)
    (hn : ∀ t ∈ pr.ProofTuples, t.C.X ≠ none ∧ t.S ≠ none) (s : VState)
    (hs : VState.Reach hash cp pr comm s) (r : Go (Bool × Option Err)) (hr : s.main = .ret r) :
    r = .panic := by
  rw [(C54_schedules_partial cp hash pr comm hn).1 s r hs hr]
  have hn' : ∀ t ∈ pr.ProofTuples, tupleNil t = false := by
    intro t ht
    have := hn t ht
    simp only [tupleNil, Bool.or_eq_false_iff, Option.isNone_eq_false_iff, Option.isSome_iff_ne_none]
    exact this
  refine VState.rangeVerify_gen_panic hn' hlen ?_
  rw [gen, List.getElem?_eq_getElem hlen]
  simp only [verifyGen, L.hpoint_panic (le_refl 64), Go.bind_panic]
  cases mult cp cp.H pr.ProofTuples[64].S <;> rfl

example : 64 < (List.replicate 65 (⟨pt 1 1, some 0⟩ : RangeProofTuple)).length ∧
    ∀ t ∈ List.replicate 65 (⟨pt 1 1, some 0⟩ : RangeProofTuple), t.C.X ≠ none ∧ t.S ≠ none := by
  refine ⟨by simp, ?_⟩
  intro t ht
  rw [List.eq_of_mem_replicate ht]
  simp [pt]

/-- The workers of a proof whose first 11 tuples are good, at three stages. -/
theorem leak_reach (L : Lawful cp E) (hash : Bytes → Bytes) (comm : ECPoint) (c : E) :
    let pr : RangeProof := ⟨Zero, some 1, List.replicate 11 ⟨L.pe c, some 0⟩ ++ [⟨nilPoint, none⟩]⟩
    ∃ (s : VState) (r : Bool × Option Err) (p : ECPoint), VState.Reach hash cp pr comm s ∧
      s.main = .ret (.ok r) ∧ s.workers 10 = .sending p ∧
      ∀ s', ¬ VState.Step hash cp pr comm s s' := by
  intro pr
  have hget : ∀ i < 11, pr.ProofTuples[i]? = some ⟨L.pe c, some 0⟩ := by
    intro i hi
    simp only [pr]
    rw [List.getElem?_append_left (by simpa using hi), List.getElem?_replicate]
    simp [hi]
  have hnil : tupleNil (⟨L.pe c, some 0⟩ : RangeProofTuple) = false := rfl
  obtain ⟨r, hr⟩ : ∃ r : Nat → ECPoint, ∀ i < 11,
      verifyGen hash cp i (some 1) ⟨L.pe c, some 0⟩ = .ok (r i) :=
    ⟨_, fun i hi => L.verifyGen_pe hash (by omega) 1 0 c⟩
  have hA : ∀ k ≤ 11, VState.Reach hash cp pr comm
      ⟨.spawn k, fun i => if i < k then .running else .idle, [], fun _ => nilPoint⟩ := by
    intro k
    induction k with
    | zero => intro _; exact .start
    | succ k ih =>
      intro hk
      have h1 := VState.Reach.step _ _ (ih (by omega)) (.spawn _ k _ rfl (hget k (by omega)) hnil)
      convert h1 using 2
      funext i
      by_cases hi : i = k
      · subst hi; simp
      · simp only [Function.update_of_ne hi]
        by_cases h2 : i < k
        · rw [if_pos h2, if_pos (by omega)]
        · rw [if_neg h2, if_neg (by omega)]
  have hB : ∀ k ≤ 11, VState.Reach hash cp pr comm
      ⟨.spawn 11, fun i => if i < k then .sending (r i) else if i < 11 then .running else .idle, [],
        fun _ => nilPoint⟩ := by
    intro k
    induction k with
    | zero => intro _; simpa using hA 11 le_rfl
    | succ k ih =>
      intro hk
      have h1 := VState.Reach.step _ _ (ih (by omega))
        (.compute _ k _ (r k) (by simp; omega) (hget k (by omega)) (hr k (by omega)))
      convert h1 using 2
      funext i
      by_cases hi : i = k
      · subst hi; simp
      · simp only [Function.update_of_ne hi]
        by_cases h2 : i < k
        · rw [if_pos h2, if_pos (by omega)]
        · rw [if_neg h2, if_neg (by omega)]
  have hC : ∀ k ≤ 10, VState.Reach hash cp pr comm
      ⟨.spawn 11, fun i => if i < k then .finished else if i < 11 then .sending (r i) else .idle,
        (List.range k).map fun i => (i, r i), fun _ => nilPoint⟩ := by
    intro k
    induction k with
    | zero =>
      intro _
      convert hB 11 le_rfl using 2
      · funext i
        by_cases h2 : i < 11 <;> simp [h2]
      · rfl
    | succ k ih =>
      intro hk
      have h1 := VState.Reach.step _ _ (ih (by omega))
        (.send _ k (r k) (by simp; omega) (by simp [chanCap]; omega))
      convert h1 using 2
      · funext i
        by_cases hi : i = k
        · subst hi; simp
        · simp only [Function.update_of_ne hi]
          by_cases h2 : i < k
          · rw [if_pos h2, if_pos (by omega)]
          · rw [if_neg h2, if_neg (by omega)]
      · rw [List.range_succ, List.map_append]; rfl
  have hD := VState.Reach.step _ _ (hC 10 le_rfl)
    (.spawnNil _ 11 ⟨nilPoint, none⟩ rfl (by simp [pr]) rfl)
  refine ⟨_, _, r 10, hD, rfl, rfl, ?_⟩
  intro s' hs
  change VState.Step hash cp pr comm (VState.mk (.ret (.ok (reject "entry has nil point or scalar")))
      (fun i => if i < 10 then Worker.finished else
        if i < 11 then Worker.sending (r i) else Worker.idle)
      ((List.range 10).map fun i => (i, r i)) (fun _ => nilPoint)) s' at hs
  generalize hg : VState.mk _ _ _ _ = s0 at hs
  cases hs with
  | spawnNil i t hm => rw [← hg] at hm; cases hm
  | spawn i t hm => rw [← hg] at hm; cases hm
  | spawned hm => rw [← hg] at hm; cases hm
  | recv i total t m ms hm => rw [← hg] at hm; cases hm
  | finish total hm => rw [← hg] at hm; cases hm
  | compute i t p hw => rw [← hg] at hw; simp only at hw; split_ifs at hw
  | crash i t hw => rw [← hg] at hw; simp only at hw; split_ifs at hw
  | send i p hw hc => rw [← hg] at hc; simp [chanCap] at hc

/-- C56: a proof with eleven good tuples and a nil one leaves a goroutine blocked for ever. -/
theorem C56_leak (L : Lawful cp E) (hash : Bytes → Bytes) (comm : ECPoint) :
    ∃ (pr : RangeProof) (s : VState) (r : Bool × Option Err) (p : ECPoint),
      VState.Reach hash cp pr comm s ∧ s.main = .ret (.ok r) ∧ s.workers 10 = .sending p ∧
      ∀ s', ¬ VState.Step hash cp pr comm s s' :=
  ⟨_, leak_reach L hash comm L.g⟩

/-- C56 is false on every lawful curve. -/
theorem C56_refuted (L : Lawful cp E) : ¬ RangeVerifySafe cp := by
  intro h
  obtain ⟨pr, s, r, p, h1, h2, h3, h4⟩ := C56_leak L (fun _ => []) Zero
  exact (h _ pr Zero s h1).2 ⟨_, h2⟩ h4 10 p h3

/-- C56, what holds: a proof with at most 64 tuples, whose points are curve points (or zero) and
whose numbers are not nil, never crashes `Verify`; and when `Verify` has returned, all its goroutines
have come to an end and the channel is empty.  Missing: other proofs. -/
theorem C56_safe_partial (L : Lawful cp E) (hash : Bytes → Bytes) (n : Nat) (hn : n ≤ 64) (e : Int)
    (c : Nat → E) (s : Nat → Int) (agg comm : E) (st : VState)
    (hs : VState.Reach hash cp ⟨L.pe agg, some e,
      (List.range n).map fun i => ⟨L.pe (c i), some (s i)⟩⟩ (L.pe comm) st)
    (r : Go (Bool × Option Err)) (hr : st.main = .ret r) :
    (∃ b, r = .ok b) ∧ st.chan = [] ∧ ∀ i, st.workers i = .finished ∨ st.workers i = .idle := by
  have hnil : ∀ t ∈ (⟨L.pe agg, some e, (List.range n).map fun i => ⟨L.pe (c i), some (s i)⟩⟩ :
      RangeProof).ProofTuples, tupleNil t = false := by
    intro t ht
    simp only [List.mem_map] at ht
    obtain ⟨i, _, rfl⟩ := ht
    rfl
  obtain ⟨h1, h2⟩ := VState.ret_eq hnil hs hr
  have h3 : ∃ b, r = .ok b := by
    rw [h1, rangeVerify_pe L hash n hn]
    split_ifs <;> exact ⟨_, rfl⟩
  obtain ⟨b, hb⟩ := h3
  exact ⟨⟨b, hb⟩, h2 (by rw [hb]; simp)⟩

/-! ## C57 -/

/-- How an observer of a range proof finds bit `i` (not code of /repo): divide the response by the
challenge, and see whether the quotient, or the number before it, is the blinding factor of a
commitment to 2^i.  See rangeproof.go:154-231. -/
def guessBit (cp : Params) (e s : Int) (C : ECPoint) (i : Nat) : Go Bool := do
  let hp ← hpoint cp i
  let d ← sub cp C hp
  let a ← mult cp cp.H (some (s / e))
  let b ← mult cp cp.H (some (s / e - 1))
  pure (decide (d = a) || decide (d = b))

theorem quotient {e x j N : Int} (he : N < 2 * e) (h0 : 0 ≤ j) (hj : j < N) :
    (j + e * x) / e = x ∨ (j + e * x) / e - 1 = x := by
  have hpos : 0 < e := by omega
  rw [Int.add_mul_ediv_left _ _ (by omega)]
  have h1 : 0 ≤ j / e := Int.ediv_nonneg h0 hpos.le
  have h2 : j / e < 2 := Int.ediv_lt_of_lt_mul hpos (by omega)
  omega

/-- C57 is false in the worst way: from the proof alone, with public operations, every bit of the
value is found, whenever the challenge is above N/2 (about half of all proofs).  Premises: the draws
are in range, 2^i*G is not plus or minus the base of the H table, and the inner challenges are not 0
and the drawn points not -G, H, -H (otherwise there is no proof, or not a good one). -/
theorem C57_value_leak (L : Lawful cp E) (hash : Bytes → Bytes) (n : Nat) (hn : n ≤ 64) (value : Int)
    (rnd : Nat → BitRand)
    (hinv : ∀ i < n, bitOf value i = false → ¬ (cp.C.N : Int) ∣ L.eiOf hash n value rnd i)
    (hk : ∀ i < n, bitOf value i = false → L.MultOk ((rnd i).k • L.hb))
    (hrange : ∀ i < n, 0 ≤ (rnd i).k ∧ (rnd i).k < cp.C.N ∧ 0 ≤ (rnd i).j ∧ (rnd i).j < cp.C.N)
    (hne : ∀ i < n, (2 ^ i : Int) • L.g ≠ L.hb ∧ (2 ^ i : Int) • L.g ≠ -L.hb)
    (proof : RangeProof) (vTotal : Int)
    (hrun : proveRange hash cp n value rnd = .ok (some proof, some vTotal, none))
    (e : Int) (he : proof.ProofE = some e) (hbig : (cp.C.N : Int) < 2 * e) :
    proof.ProofTuples.length = n ∧
    ∀ i t s, proof.ProofTuples[i]? = some t → t.S = some s →
      guessBit cp e s t.C i = .ok (bitOf value i) := by
  obtain ⟨w, hw, hp⟩ := L.proveRange_honest hash n hn value rnd hinv hk
  rw [hp, Go.ok.injEq, Prod.mk.injEq, Option.some.injEq] at hrun
  obtain ⟨hrun, _⟩ := hrun
  subst hrun
  simp only [Option.some.injEq] at he
  refine ⟨by simp, ?_⟩
  intro i t s hi hs
  have hin : i < n := by
    have := (List.getElem?_eq_some_iff.1 hi).1
    simpa using this
  rw [List.getElem?_map, List.getElem?_range hin] at hi
  simp only [Option.map_some, Option.some.injEq] at hi
  subst hi
  simp only [Option.some.injEq] at hs
  subst hs
  simp only [guessBit, L.hpoint_pe (show i < 64 by omega), Go.bind_ok, L.sub_pe, L.multH, Go.pure_eq,
    L.pe_inj]
  obtain ⟨k0, k1, j0, j1⟩ := hrange i hin
  obtain ⟨g1, g2⟩ := hne i hin
  cases hb : bitOf value i with
  | true =>
    have hc : L.cOf value rnd w i - (2 ^ i : Int) • L.g = (rnd i).v • L.hb := by
      simp only [Lawful.cOf, Lawful.vOf, hb, if_true]; module
    have hq : L.sOf hash n value rnd w i = (rnd i).k + e * (rnd i).v := by
      simp only [Lawful.sOf, hb, if_true, he]
    rw [hc, hq]
    rcases quotient (x := (rnd i).v) hbig k0 k1 with h | h
    · simp [h]
    · simp [h]
  | false =>
    have hc : L.cOf value rnd w i = (w i * (rnd i).k) • L.hb := by
      simp only [Lawful.cOf, Lawful.vOf, hb, Bool.false_eq_true, if_false]; module
    have hq : L.sOf hash n value rnd w i = (rnd i).j + e * (w i * (rnd i).k) := by
      simp only [Lawful.sOf, hb, Bool.false_eq_true, if_false, he]; ring
    have g0 : (2 ^ i : Int) • L.g ≠ 0 := by
      intro h
      have := (L.smul_eq_zero L.g_ne).1 h
      have h2 : cp.C.N ∣ 2 ^ i := by
        have : (cp.C.N : Int) ∣ ((2 ^ i : Nat) : Int) := by push_cast; exact this
        exact_mod_cast this
      have h3 := (L.prime).dvd_of_dvd_pow h2
      have := Nat.le_of_dvd (by norm_num) h3
      have := L.five_lt
      omega
    rw [hc, hq]
    generalize w i * (rnd i).k = x at *
    rw [Go.ok.injEq, Bool.or_eq_false_iff, decide_eq_false_iff_not, decide_eq_false_iff_not]
    rcases quotient (x := x) hbig j0 j1 with h | h
    · constructor
      · intro h'
        rw [h] at h'
        have h' := L.pe_inj.1 h'
        exact g0 (by linear_combination (norm := module) -h')
      · intro h'
        rw [h] at h'
        have h' := L.pe_inj.1 h'
        exact g1 (by linear_combination (norm := module) -h')
    · have h2 : ((rnd i).j + e * x) / e = x + 1 := by omega
      constructor
      · intro h'
        rw [h2] at h'
        have h' := L.pe_inj.1 h'
        exact g2 (by linear_combination (norm := module) -h')
      · intro h'
        rw [h] at h'
        have h' := L.pe_inj.1 h'
        exact g0 (by linear_combination (norm := module) -h')

/-- C57 as a user needs it: every proof that can be made for one value can be made for every other
value in range.  See rangeproof.go:154-231. -/
def RangeProofsHide (cp : Params) : Prop :=
  ∀ (hash : Bytes → Bytes) (v v' : Int), 0 ≤ v → v < 2 ^ 40 → 0 ≤ v' → v' < 2 ^ 40 →
    ∀ (rnd : Nat → BitRand),
    (∀ i, 0 ≤ (rnd i).k ∧ (rnd i).k < cp.C.N ∧ 0 ≤ (rnd i).v ∧ (rnd i).v < cp.C.N ∧
      0 ≤ (rnd i).j ∧ (rnd i).j < cp.C.N) → ∀ proof r,
    NewRangeProofRuns hash cp v rnd (.ok (some proof, some r, none)) →
    ∃ (rnd' : Nat → BitRand) (r' : Int),
      (∀ i, 0 ≤ (rnd' i).k ∧ (rnd' i).k < cp.C.N ∧ 0 ≤ (rnd' i).v ∧ (rnd' i).v < cp.C.N ∧
        0 ≤ (rnd' i).j ∧ (rnd' i).j < cp.C.N) ∧
      NewRangeProofRuns hash cp v' rnd' (.ok (some proof, some r', none))

/-- C57: the proof for 0 that is made with draws that are all 0 is not a proof for 1, for every hash
whose inner challenges can be inverted and whose outer challenge is not 0. -/
theorem C57_zero_draws (L : Lawful cp E) (hash : Bytes → Bytes)
    (hinv : ∀ i < 40, ¬ (cp.C.N : Int) ∣ L.eiOf hash 40 0 (fun _ => ⟨0, 0, 0⟩) i)
    (hpos : 0 < L.e0Of hash 40 0 (fun _ => ⟨0, 0, 0⟩)) :
    ∃ proof r, NewRangeProofRuns hash cp 0 (fun _ => ⟨0, 0, 0⟩) (.ok (some proof, some r, none)) ∧
      ∀ (rnd' : Nat → BitRand) (r' : Int), (∀ i, 0 ≤ (rnd' i).k ∧ 0 ≤ (rnd' i).v) →
        ¬ NewRangeProofRuns hash cp 1 rnd' (.ok (some proof, some r', none)) := by
  obtain ⟨w, hw, hp⟩ := L.proveRange_honest hash 40 (by norm_num) 0 (fun _ => ⟨0, 0, 0⟩)
    (fun i hi _ => hinv i hi) (by intro i _ _; rw [L.multOk_iff_eff]; simp [L.eff_zero])
  have hrun : ∀ (v : Int) rnd r, 0 ≤ v → v < 2 ^ 40 → (NewRangeProofRuns hash cp v rnd r ↔
      r = proveRange hash cp 40 v rnd) := by
    intro v rnd r h1 h2
    norm_num at h2
    rw [NewRangeProofRuns, if_neg (by omega), if_neg (by omega), proveRuns_iff, proofSize]
  refine ⟨_, _, (hrun 0 _ _ le_rfl (by norm_num)).2 hp.symm, fun rnd' r' hr h => ?_⟩
  rw [hrun 1 _ _ (by norm_num) (by norm_num)] at h
  have hA : ∀ i < 40, runW (progA hash cp i (bitOf 1 i) (rnd' i)) emptySlot = .ok _ :=
    fun i hi => L.runA hash (by omega) 1 rnd'
  rw [proveRange_eq _ _ _ _ _ _ hA] at h
  obtain ⟨e, _, h⟩ := Go.bind_eq_ok.1 h.symm
  obtain ⟨slots, h2, h⟩ := Go.bind_eq_ok.1 h
  obtain ⟨acc, _, h⟩ := Go.bind_eq_ok.1 h
  simp only [Go.pure_eq, Go.ok.injEq, Prod.mk.injEq, Option.some.injEq, RangeProof.mk.injEq] at h
  obtain ⟨⟨_, he, ht⟩, _⟩ := h
  -- the first slot
  have hb1 : bitOf 1 0 = true := by decide
  have hs0 : runW (progB hash cp 0 (bitOf 1 0) (e % (cp.C.N : Int)) (rnd' 0))
      ⟨L.pe (L.rOf hash 1 rnd' 0), L.pe ((2 ^ 0 : Int) • L.g + (rnd' 0).v • L.hb),
        some (rnd' 0).k, some (rnd' 0).v⟩ =
      .ok ⟨L.pe (L.rOf hash 1 rnd' 0), L.pe ((2 ^ 0 : Int) • L.g + (rnd' 0).v • L.hb),
        some ((rnd' 0).k + (e % (cp.C.N : Int)) * (rnd' 0).v), some (rnd' 0).v⟩ := by
    rw [hb1]; simp [progB, runW]
  have hrange : List.range 40 = 0 :: (List.range 39).map Nat.succ := List.range_succ_eq_map
  rw [hrange, List.mapM_cons] at h2
  obtain ⟨s0, h3, h2⟩ := Go.bind_eq_ok.1 h2
  obtain ⟨ss, h4, h2⟩ := Go.bind_eq_ok.1 h2
  simp only [Go.pure_eq, Go.ok.injEq] at h2
  subst h2
  simp only [hb1, if_true] at h3
  rw [hb1] at hs0
  rw [hs0, Go.ok.injEq] at h3
  subst h3
  rw [hrange] at ht
  simp only [List.map_cons, List.cons.injEq, RangeProofTuple.mk.injEq, L.pe_inj,
    Option.some.injEq] at ht
  obtain ⟨⟨h5, h6⟩, _⟩ := ht
  have hb0 : bitOf 0 0 = false := by decide
  simp only [Lawful.cOf, Lawful.vOf, Lawful.sOf, hb0, Bool.false_eq_true, if_false, mul_zero,
    zero_mul, add_zero, zero_smul, pow_zero, one_smul] at h5 h6
  have hv : (rnd' 0).v = 0 := by
    obtain ⟨hk, hv⟩ := hr 0
    have hm := mul_nonneg hpos.le hv
    rw [he] at h6
    have h7 : L.e0Of hash 40 0 (fun _ => ⟨0, 0, 0⟩) * (rnd' 0).v = 0 := by omega
    exact (mul_eq_zero.1 h7).resolve_left hpos.ne'
  rw [hv, zero_smul, add_zero] at h5
  exact L.g_ne h5

/-- C57 is false on every lawful curve. -/
theorem C57_refuted (L : Lawful cp E) : ¬ RangeProofsHide cp := by
  intro hc
  have hN' : (5 : Int) < cp.C.N := by exact_mod_cast L.five_lt
  obtain ⟨proof, r, h1, h2⟩ := C57_zero_draws L (fun _ => [1]) (by
      intro i _ hd
      have hd : (cp.C.N : Int) ∣ 1 := hd
      have := Int.le_of_dvd (by norm_num) hd
      omega) (by
      rw [Lawful.e0Of]
      have : (1 : Int) % cp.C.N = 1 := Int.emod_eq_of_lt (by norm_num) (by omega)
      exact this.symm ▸ one_pos)
  obtain ⟨rnd', r', hr, h⟩ := hc (fun _ => [1]) 0 1 le_rfl (by norm_num) (by norm_num) (by norm_num)
    (fun _ => ⟨0, 0, 0⟩) (by intro i; simp; omega) _ _ h1
  exact h2 rnd' r' (fun i => ⟨(hr i).1, (hr i).2.2.1⟩) h

/-- The part of a range proof that belongs to bit `i`, for a given outer challenge: the point R that
is hashed, the commitment, and the response reduced modulo N (rangeproof.go:80-148; the code does not
reduce the response). -/
def bitTranscript (hash : Bytes → Bytes) (cp : Params) (i : Nat) (bit : Bool) (e : Int)
    (rnd : BitRand) : Go (ECPoint × ECPoint × Int) := do
  let s ← runW (progA hash cp i bit rnd) emptySlot
  let t ← runW (progB hash cp i bit e rnd) s
  let k ← deref t.k
  pure (s.R, t.B, k % (cp.C.N : Int))

/-- All transcripts of a bit, with multiplicity, over uniform draws, without those whose point R is
one of -G, H, -H.  See rangeproof.go:154-231. -/
noncomputable def bitTranscripts (L : Lawful cp E) (hash : Bytes → Bytes) (i : Nat) (bit : Bool)
    (e : Int) : Multiset (Go (ECPoint × ECPoint × Int)) := by
  classical
  exact ((Multiset.range cp.C.N ×ˢ (Multiset.range cp.C.N ×ˢ Multiset.range cp.C.N)).map
    fun z => bitTranscript hash cp i bit e ⟨z.1, z.2.1, z.2.2⟩).filter
      fun o => ∃ a c s, o = .ok (L.pe a, c, s) ∧ L.MultOk a

/-- C57, what holds: if the responses were reduced, the transcripts of a 0 bit and of a 1 bit would
be the same, with the same multiplicities, for every outer challenge and every hash that is never 0
modulo N.  Missing: the code does not reduce the responses. -/
theorem C57_bits_hidden_partial (L : Lawful cp E) (hash : Bytes → Bytes)
    (hh : ∀ a, ¬ (cp.C.N : Int) ∣ L.hp hash a) (i : Nat) (hi : i < 64) (e : Int) :
    bitTranscripts L hash i true e = bitTranscripts L hash i false e := by
  classical
  have hN : NeZero cp.C.N := ⟨L.prime.ne_zero⟩
  have hF : Fact cp.C.N.Prime := ⟨L.prime⟩
  have : Fact (Nat.card E).Prime := ⟨by rw [L.card]; exact L.prime⟩
  have hmem : L.g ∈ AddSubgroup.zmultiples L.hb :=
    mem_zmultiples_of_prime_card (p := Nat.card E) rfl L.hb_ne
  obtain ⟨d, hd⟩ := AddSubgroup.mem_zmultiples_iff.1 hmem
  -- the inverse that the prover computes
  have hw : ∀ a : E, ∃ w : Int, modInverse (L.hp hash a % (cp.C.N : Int)) cp.C.N = some w ∧
      (w : ZMod cp.C.N) = (L.hp hash a : ZMod cp.C.N)⁻¹ := by
    intro a
    have hh' : ¬ (cp.C.N : Int) ∣ L.hp hash a % (cp.C.N : Int) := by
      rw [Lawful.dvd_emod_self]; exact hh a
    obtain ⟨w, h1, h2⟩ := modInverse_some L.prime hh'
    refine ⟨w, h1, ?_⟩
    have h0 : (L.hp hash a : ZMod cp.C.N) ≠ 0 := by
      rw [Ne, ZMod.intCast_zmod_eq_zero_iff_dvd]; exact hh a
    have h3 := (ZMod.intCast_eq_intCast_iff' _ _ cp.C.N).2 h2
    rw [Int.cast_mul, Int.cast_one, ZMod.intCast_mod] at h3
    exact eq_inv_of_mul_eq_one_left h3
  choose w hw1 hw2 using hw
  have h1 : ∀ rnd, bitTranscript hash cp i true e rnd =
      .ok (L.pe (L.hp hash (rnd.k • L.hb) • ((2 ^ i : Int) • L.g + rnd.v • L.hb)),
        L.pe ((2 ^ i : Int) • L.g + rnd.v • L.hb), (rnd.k + e * rnd.v) % (cp.C.N : Int)) := by
    intro rnd
    simp [bitTranscript, L.runA_one hash hi, progB, runW]
  let W : BitRand → Int := fun rnd => w (rnd.j • L.hb + (e * 2 ^ i) • L.g)
  have h0 : ∀ rnd, L.MultOk (rnd.k • L.hb) → bitTranscript hash cp i false e rnd =
      .ok (L.pe (rnd.k • L.hb), L.pe ((W rnd * rnd.k) • L.hb),
        (rnd.j + rnd.k * (e * W rnd)) % (cp.C.N : Int)) := by
    intro rnd hm
    simp [bitTranscript, L.runA_zero hash, progB, runW, L.inverseEI_pe, hw1, L.mult_pe, W,
      (L.multOk_iff_eff _).1 hm, mul_smul]
  have h0' : ∀ rnd, ∃ c s, bitTranscript hash cp i false e rnd = .ok (L.pe (rnd.k • L.hb), c, s) := by
    intro rnd
    simp [bitTranscript, L.runA_zero hash, progB, runW, L.inverseEI_pe, hw1, L.mult_pe]
  let ideal : BitRand → Go (ECPoint × ECPoint × Int) := fun rnd =>
      .ok (L.pe (rnd.k • L.hb), L.pe ((W rnd * rnd.k) • L.hb),
        (rnd.j + rnd.k * (e * W rnd)) % (cp.C.N : Int))
  have hstep : bitTranscripts L hash i false e =
      ((Multiset.range cp.C.N ×ˢ (Multiset.range cp.C.N ×ˢ Multiset.range cp.C.N)).map
        fun z => ideal ⟨z.1, z.2.1, z.2.2⟩).filter
          fun o => ∃ a c s, o = .ok (L.pe a, c, s) ∧ L.MultOk a := by
    rw [bitTranscripts, Multiset.filter_map, Multiset.filter_map]
    have hf : ∀ z : Nat × Nat × Nat,
        ((∃ a c s, bitTranscript hash cp i false e ⟨z.1, z.2.1, z.2.2⟩ = .ok (L.pe a, c, s) ∧
          L.MultOk a) ↔ L.MultOk ((z.1 : Int) • L.hb)) ∧
        ((∃ a c s, ideal ⟨z.1, z.2.1, z.2.2⟩ = .ok (L.pe a, c, s) ∧
          L.MultOk a) ↔ L.MultOk ((z.1 : Int) • L.hb)) := by
      intro z
      obtain ⟨c, s, h⟩ := h0' ⟨z.1, z.2.1, z.2.2⟩
      constructor
      · rw [h]
        constructor
        · rintro ⟨a, c', s', h1, h2⟩
          simp only [Go.ok.injEq, Prod.mk.injEq, L.pe_inj] at h1
          rw [h1.1]; exact h2
        · intro h2; exact ⟨_, _, _, rfl, h2⟩
      · constructor
        · rintro ⟨a, c', s', h1, h2⟩
          simp only [ideal, Go.ok.injEq, Prod.mk.injEq, L.pe_inj] at h1
          rw [h1.1]; exact h2
        · intro h2; exact ⟨_, _, _, rfl, h2⟩
    refine Multiset.map_congr (Multiset.filter_congr fun z _ => (hf z).1.trans (hf z).2.symm)
      fun z hz => ?_
    rw [Multiset.mem_filter] at hz
    exact h0 _ ((hf z).2.1 hz.2)
  rw [hstep, bitTranscripts]
  congr 1
  -- the bijection of the draws
  have key : ∀ z : ZMod cp.C.N, L.hp hash ((z.val : Int) • L.hb) % (cp.C.N : Int) ≠ 0 := by
    intro z h; exact hh _ (Int.dvd_of_emod_eq_zero h)
  let c : ZMod cp.C.N := 2 ^ i * d
  let hv : ZMod cp.C.N → ZMod cp.C.N := fun k => (L.hp hash ((k.val : Int) • L.hb) : ZMod cp.C.N)
  have hvne : ∀ k, hv k ≠ 0 := by
    intro k; simp only [hv]; rw [Ne, ZMod.intCast_zmod_eq_zero_iff_dvd]; exact hh _
  refine dist_eq₃ cp.C.N _ _
    { toFun := fun z => (hv z.1 * (c + z.2.1), z.2.2, z.1 - e * c)
      invFun := fun z => (z.2.2 + e * c, z.1 / hv (z.2.2 + e * c) - c, z.2.1)
      left_inv := ?_
      right_inv := ?_ } ?_
  · rintro ⟨k, v, j⟩
    simp only [sub_add_cancel, Prod.mk.injEq, and_true, true_and]
    rw [mul_div_cancel_left₀ _ (hvne k)]; ring
  · rintro ⟨k, v, j⟩
    simp only [add_sub_cancel_right, Prod.mk.injEq, and_true]
    rw [add_sub_cancel, mul_div_cancel₀ _ (hvne _)]
  · rintro ⟨k, v, j⟩
    have hs : ∀ (x y : Int), (x : ZMod cp.C.N) = y → x • L.hb = y • L.hb := fun x y hxy =>
      L.smul_congr ((ZMod.intCast_eq_intCast_iff' _ _ _).1 hxy) _
    have hT : (((k - e * c : ZMod cp.C.N).val : Nat) : Int) • L.hb + (e * 2 ^ i) • L.g =
        (k.val : Int) • L.hb := by
      rw [← hd, ← mul_smul, ← add_smul]
      apply hs
      push_cast
      rw [ZMod.natCast_zmod_val, ZMod.natCast_zmod_val]
      simp only [c]; ring
    simp only [Equiv.coe_fn_mk, h1, ideal, W, hT, Go.ok.injEq, Prod.mk.injEq, L.pe_inj]
    refine ⟨?_, ?_, ?_⟩
    · rw [← hd, ← mul_smul, ← add_smul, ← mul_smul]
      apply hs
      push_cast
      rw [ZMod.natCast_zmod_val, ZMod.natCast_zmod_val]
    · rw [← hd, ← mul_smul, ← add_smul]
      apply hs
      push_cast
      rw [ZMod.natCast_zmod_val, ZMod.natCast_zmod_val, hw2, ← mul_assoc, inv_mul_cancel₀ (hvne k),
        one_mul]
    · apply (ZMod.intCast_eq_intCast_iff' _ _ _).1
      push_cast
      simp only [ZMod.natCast_zmod_val, hw2]
      have := hvne k
      simp only [hv] at this ⊢
      field_simp
      ring

/-- A hash that is never 0 modulo 11. -/
example : ∀ a, ¬ (Toy11.params.C.N : Int) ∣ Toy11.lawful.hp (fun _ => [1]) a := by
  intro a; change ¬ (11 : Int) ∣ 1; decide

set_option maxRecDepth 4000 in
/-- The premises of `C57_value_leak`: a one bit, hash 9, challenge 9 > 11/2. -/
example : ∃ proof vTotal, proveRange (fun _ => [9]) Toy11.params 1 1 (fun _ => ⟨4, 7, 0⟩) =
      .ok (some proof, some vTotal, none) ∧ proof.ProofE = some 9 ∧ (11 : Int) < 2 * 9 ∧
    ∀ i < 1, (2 ^ i : Int) • Toy11.lawful.g ≠ Toy11.lawful.hb ∧
      (2 ^ i : Int) • Toy11.lawful.g ≠ -Toy11.lawful.hb := by
  have hb : ∀ i < 1, bitOf 1 i = true := by decide
  obtain ⟨w, _, hp⟩ := Toy11.lawful.proveRange_honest (fun _ => [9]) 1 (by norm_num) 1
    (fun _ => ⟨4, 7, 0⟩) (by intro i hi h; rw [hb i hi] at h; cases h)
    (by intro i hi h; rw [hb i hi] at h; cases h)
  refine ⟨_, _, hp, rfl, by norm_num, ?_⟩
  intro i hi
  obtain rfl : i = 0 := by omega
  change (2 ^ 0 : Int) • (1 : ZMod 11) ≠ 3 ∧ (2 ^ 0 : Int) • (1 : ZMod 11) ≠ -3
  decide

end Zk.Proto
