import Verif.Range.Props

/-! # Properties C53-C57, C85, C88: range proofs, the rest -/

namespace Zk.Proto

open Zk

variable {cp : Params} {E : Type} [AddCommGroup E]

/-! ## C53: the range of the prover -/

/-- C53 as a user needs it: every value outside [0, 2^40) is refused, under every schedule.
See rangeproof.go:154-231. -/
def ProverRefusesOutOfRange (cp : Params) : Prop :=
  ∀ (hash : Bytes → Bytes) (value : Int) (rnd : Nat → BitRand),
    ¬ (0 ≤ value ∧ value < 2 ^ 40) →
    ∀ r, NewRangeProofRuns hash cp value rnd r → ∃ e, r = .ok (none, none, some e)

/-- C53, what holds: values below 0 and above 2^40 are refused, and values in [0, 2^40) never are.
Missing: 2^40 itself, see `C53_refuted`. -/
theorem C53_range_partial (cp : Params) (hash : Bytes → Bytes) (value : Int) (rnd : Nat → BitRand)
    (r : Go (Option RangeProof × Option Int × Option Err))
    (hr : NewRangeProofRuns hash cp value rnd r) :
    ((value < 0 ∨ 2 ^ 40 < value) → ∃ e, r = .ok (none, none, some e)) ∧
    (0 ≤ value ∧ value ≤ 2 ^ 40 → r = .panic ∨ ∃ p v, r = .ok (some p, some v, none)) := by
  rw [NewRangeProofRuns] at hr
  constructor
  · rintro (h | h)
    · rw [if_neg (by omega), if_pos h] at hr
      exact ⟨_, hr⟩
    · norm_num at h
      rw [if_pos h] at hr
      exact ⟨_, hr⟩
  · rintro ⟨h1, h2⟩
    norm_num at h2
    rw [if_neg (by omega), if_neg (by omega), proveRuns_iff] at hr
    subst hr
    cases h : proveRange hash cp proofSize value rnd with
    | panic => exact .inl rfl
    | ok x =>
      right
      unfold proveRange at h
      obtain ⟨a, _, h⟩ := Go.bind_eq_ok.1 h
      obtain ⟨b, _, h⟩ := Go.bind_eq_ok.1 h
      obtain ⟨c, _, h⟩ := Go.bind_eq_ok.1 h
      obtain ⟨d, _, h⟩ := Go.bind_eq_ok.1 h
      simp at h
      exact ⟨_, _, by rw [← h]⟩

/-- C53: 2^40 gets a proof (one for the value 0, since only the bits 0 to 39 are used), for every hash
and all draws for which 0 gets one. -/
theorem C53_two_pow_40 (L : Lawful cp E) (hash : Bytes → Bytes) (rnd : Nat → BitRand)
    (hinv : ∀ i < 40, ¬ (cp.C.N : Int) ∣ L.eiOf hash 40 (2 ^ 40) rnd i)
    (hk : ∀ i < 40, L.MultOk ((rnd i).k • L.hb)) :
    ∃ proof r, ∀ x, NewRangeProofRuns hash cp (2 ^ 40) rnd x ↔ x = .ok (some proof, some r, none) := by
  obtain ⟨w, hw, hp⟩ := L.proveRange_honest hash 40 (by norm_num) (2 ^ 40) rnd
    (fun i hi _ => hinv i hi) (fun i hi _ => hk i hi)
  have : ∀ x, NewRangeProofRuns hash cp (2 ^ 40) rnd x ↔ x = proveRange hash cp 40 (2 ^ 40) rnd := by
    intro x
    rw [NewRangeProofRuns, if_neg (by norm_num), if_neg (by norm_num), proveRuns_iff, proofSize]
  rw [hp] at this
  exact ⟨_, _, this⟩

/-- C53 is false on every lawful curve. -/
theorem C53_refuted (L : Lawful cp E) : ¬ ProverRefusesOutOfRange cp := by
  intro hc
  have hN' : (5 : Int) < cp.C.N := by exact_mod_cast L.five_lt
  obtain ⟨proof, r, h⟩ := C53_two_pow_40 L (fun _ => [1]) (fun _ => ⟨0, 0, 0⟩) (by
      intro i _ hd
      have hd : (cp.C.N : Int) ∣ 1 := hd
      have := Int.le_of_dvd (by norm_num) hd
      omega) (by intro i _; rw [L.multOk_iff_eff]; simp [L.eff_zero])
  obtain ⟨e, he⟩ := hc (fun _ => [1]) (2 ^ 40) (fun _ => ⟨0, 0, 0⟩) (by norm_num) _ ((h _).2 rfl)
  simp at he

/-! ## C54: schedules of the verifier -/

/-- C54 as a user needs it: all schedules that come to an end give the same result.
See rangeproof.go:262-322. -/
def VerifyScheduleIndependent (cp : Params) : Prop :=
  ∀ (hash : Bytes → Bytes) (pr : RangeProof) (comm : ECPoint), pr.ProofTuples.length ≤ 64 →
    ∀ s s' r r', VState.Reach hash cp pr comm s → VState.Reach hash cp pr comm s' →
      s.main = .ret r → s'.main = .ret r' → r = r'

/-- C54, what holds: for proofs without nil entries (in particular all that `RangeProofFromBytes`
reads completely), with any number of tuples, every schedule gives the result of the sequential
verifier, a state in which `Verify` has not returned can always make a step, and the number of steps
is bounded, so `Verify` does not deadlock or run for ever.  Missing: proofs with nil entries. -/
theorem C54_schedules_partial (cp : Params) (hash : Bytes → Bytes) (pr : RangeProof) (comm : ECPoint)
    (hn : ∀ t ∈ pr.ProofTuples, t.C.X ≠ none ∧ t.S ≠ none) :
    (∀ s r, VState.Reach hash cp pr comm s → s.main = .ret r →
      r = rangeVerify hash cp (some pr) comm) ∧
    (∀ s, VState.Reach hash cp pr comm s →
      (∃ r, s.main = .ret r) ∨ ∃ s', VState.Step hash cp pr comm s s') ∧
    (∃ measure : VState → Nat, ∀ s s', VState.Reach hash cp pr comm s → (∀ r, s.main ≠ .ret r) →
      VState.Step hash cp pr comm s s' → measure s' < measure s) := by
  have hn' : ∀ t ∈ pr.ProofTuples, tupleNil t = false := by
    intro t ht
    have := hn t ht
    simp only [tupleNil, Bool.or_eq_false_iff, Option.isNone_eq_false_iff, Option.isSome_iff_ne_none]
    exact this
  exact ⟨fun s r hs hr => (VState.ret_eq hn' hs hr).1, fun s hs => VState.progress hn' hs,
    VState.fuel pr.ProofTuples.length, fun s s' hs hm hst => VState.fuel_step hn' hs hm hst⟩

example : ∀ t ∈ [(⟨pt 1 1, some 5⟩ : RangeProofTuple), ⟨pt 2 1, some 0⟩], t.C.X ≠ none ∧ t.S ≠ none := by
  decide

/-- C54: for every hash, a proof with a nil challenge, a good tuple and a nil tuple can be rejected or
crash the process. -/
theorem C54_nil_race (L : Lawful cp E) (hash : Bytes → Bytes) :
    ∃ (pr : RangeProof) (s s' : VState) (e : Err), pr.ProofTuples.length = 2 ∧
      VState.Reach hash cp pr Zero s ∧ VState.Reach hash cp pr Zero s' ∧
      s.main = .ret (.ok (reject e)) ∧ s'.main = .ret .panic := by
  let pr : RangeProof := ⟨Zero, none, [⟨L.pe L.g, some 1⟩, ⟨nilPoint, none⟩]⟩
  have r1 : VState.Reach hash cp pr Zero _ :=
    .step _ _ .start (.spawn VState.start 0 ⟨L.pe L.g, some 1⟩ rfl rfl rfl)
  have r2 := VState.Reach.step _ _ r1 (.spawnNil _ 1 ⟨nilPoint, none⟩ rfl rfl rfl)
  have hgen : verifyGen hash cp 0 none ⟨L.pe L.g, some 1⟩ = .panic := by
    have : ∀ a, mult cp (L.pe a) none = .panic := by
      intro a; rw [mult, if_neg (L.pe_ne_nil a)]; rfl
    simp only [verifyGen, L.multH, Go.bind_ok, L.hpoint_pe (by norm_num : (0 : Nat) < 64), L.neg_pe,
      L.add_pe, this, Go.bind_panic]
  have r3 := VState.Reach.step _ _ r1 (.crash _ 0 ⟨L.pe L.g, some 1⟩ (by simp) rfl hgen)
  exact ⟨pr, _, _, _, rfl, r2, r3, rfl, rfl⟩

/-- C54 is false for proofs with nil entries, on every lawful curve. -/
theorem C54_refuted (L : Lawful cp E) : ¬ VerifyScheduleIndependent cp := by
  intro hc
  obtain ⟨pr, s, s', e, h1, h2, h3, h4, h5⟩ := C54_nil_race L (fun _ => [1])
  have := hc _ pr Zero (by omega) s s' _ _ h2 h3 h4 h5
  simp at this

/-! ## C55, C85, C88: what an accepted proof shows -/

/-- The verifier on a proof whose points are group elements. -/
theorem rangeVerify_pe (L : Lawful cp E) (hash : Bytes → Bytes) (n : Nat) (hn : n ≤ 64) (e : Int)
    (c : Nat → E) (s : Nat → Int) (agg comm : E) :
    rangeVerify hash cp (some ⟨L.pe agg, some e,
      (List.range n).map fun i => ⟨L.pe (c i), some (s i)⟩⟩) (L.pe comm) =
    if e ≠ L.hps hash ((List.range n).map fun i =>
        L.hp hash (s i • L.hb - e • L.eff (c i - (2 ^ i : Int) • L.g)) • L.eff (c i)) then
      .ok (reject "calculatedE0 does not match")
    else if L.same ((List.range n).map c).sum agg = false then
      .ok (reject "ProofAggregate does not match totalPoint")
    else if L.same comm ((List.range n).map c).sum = false then
      .ok (reject "ProofAggregate does not match commitment")
    else .ok accept := by
  have hany : ((List.range n).map fun i => (⟨L.pe (c i), some (s i)⟩ : RangeProofTuple)).any tupleNil
      = false := by simp [tupleNil, Lawful.pe, pt]
  have hRs : (((List.range n).map fun i => (⟨L.pe (c i), some (s i)⟩ : RangeProofTuple)).zipIdx.mapM
      fun t => verifyGen hash cp t.2 (some e) t.1)
      = .ok (((List.range n).map fun i =>
        L.hp hash (s i • L.hb - e • L.eff (c i - (2 ^ i : Int) • L.g)) • L.eff (c i)).map L.pe) := by
    rw [zipIdx_map_range, List.mapM_map, List.map_map]
    refine mapM_ok_iff _ _ _ fun i hi => ?_
    have hi' : i < 64 := by have := List.mem_range.1 hi; omega
    exact L.verifyGen_pe hash hi' e (s i) (c i)
  simp only [rangeVerify, hany, Bool.false_eq_true, if_false, hRs, Go.bind_ok, L.foldTotal_pe,
    finishVerify, L.hashAll_pe, cmpEq, L.equal_pe, Go.pure_eq]
  split_ifs <;> simp_all

/-- The point that the verifier hashes for a tuple (`tot`, rangeproof.go:249). -/
def hashedPoint (L : Lawful cp E) (i : Nat) (e : Int) (c : E) (s : Int) : E :=
  s • L.hb - e • (c - (2 ^ i : Int) • L.g)

/-- C88. The verifier multiplies the tuple's point with the hash of `hashedPoint`. -/
theorem C88_hashed_point (L : Lawful cp E) (hash : Bytes → Bytes) (i : Nat) (hi : i < 64) (e s : Int)
    (c : E) (o1 : L.MultOk c) (o2 : L.MultOk (c - (2 ^ i : Int) • L.g)) :
    verifyGen hash cp i (some e) ⟨L.pe c, some s⟩ =
      .ok (L.pe (L.hp hash (hashedPoint L i e c s) • c)) := by
  rw [L.verifyGen_pe hash hi, (L.multOk_iff_eff _).1 o1, (L.multOk_iff_eff _).1 o2]
  rfl

/-- C88. A 1 bit: a point that is accepted with the same hashed point for two different outer
challenges is a commitment to 2^i; the blinding factor is an explicit quotient. -/
theorem C88_one_bit (L : Lawful cp E) (i : Nat) (c : E) (e e' s s' : Int)
    (he : ¬ (cp.C.N : Int) ∣ e - e') (hT : hashedPoint L i e c s = hashedPoint L i e' c s') :
    c = (2 ^ i : Int) • L.g + (L.inv (e - e') * (s - s')) • L.hb := by
  unfold hashedPoint at hT
  have h3 : (e - e') • (c - (2 ^ i : Int) • L.g) = (s - s') • L.hb := by
    linear_combination (norm := module) -hT
  have h4 := L.inv_smul he (c - (2 ^ i : Int) • L.g)
  rw [h3] at h4
  rw [mul_smul, h4]
  abel

example : ¬ (Toy11.params.C.N : Int) ∣ 3 - 1 ∧
    hashedPoint Toy11.lawful 3 3 (8 + 5 * 3) 17 = hashedPoint Toy11.lawful 3 1 (8 + 5 * 3) 7 := by
  constructor
  · decide
  · change (17 : Int) • (3 : ZMod 11) - (3 : Int) • ((8 + 5 * 3 : ZMod 11) - (2 ^ 3 : Int) • 1) =
      (7 : Int) • (3 : ZMod 11) - (1 : Int) • ((8 + 5 * 3 : ZMod 11) - (2 ^ 3 : Int) • 1)
    decide

/-- C88. A 0 bit: two tuples for which the verifier computes the same point R and the same hashed
point, with the same outer challenge, under two hash functions that differ at this point (the hash is
asked after R and the outer challenge are fixed), are commitments to 0; the blinding factor is an
explicit quotient. -/
theorem C88_zero_bit (L : Lawful cp E) (hash hash' : Bytes → Bytes) (i : Nat) (hi : i < 64)
    (c c' R : E) (e s s' : Int)
    (o1 : L.MultOk c) (o2 : L.MultOk (c - (2 ^ i : Int) • L.g))
    (o1' : L.MultOk c') (o2' : L.MultOk (c' - (2 ^ i : Int) • L.g))
    (hT : hashedPoint L i e c s = hashedPoint L i e c' s')
    (hR : verifyGen hash cp i (some e) ⟨L.pe c, some s⟩ = .ok (L.pe R))
    (hR' : verifyGen hash' cp i (some e) ⟨L.pe c', some s'⟩ = .ok (L.pe R))
    (he : ¬ (cp.C.N : Int) ∣ e)
    (hd : ¬ (cp.C.N : Int) ∣
      L.hp hash' (hashedPoint L i e c s) - L.hp hash (hashedPoint L i e c s)) :
    c = (L.inv e * L.inv (L.hp hash' (hashedPoint L i e c s) - L.hp hash (hashedPoint L i e c s)) *
      L.hp hash' (hashedPoint L i e c s) * (s - s')) • L.hb := by
  rw [C88_hashed_point L hash i hi e s c o1 o2, Go.ok.injEq, L.pe_inj] at hR
  rw [C88_hashed_point L hash' i hi e s' c' o1' o2', Go.ok.injEq, L.pe_inj, ← hT] at hR'
  generalize L.hp hash' (hashedPoint L i e c s) = e1' at *
  generalize L.hp hash (hashedPoint L i e c s) = e1 at *
  unfold hashedPoint at hT
  have h3 : e • (c - c') = (s - s') • L.hb := by
    linear_combination (norm := module) -hT
  have h4 : e1 • c = e1' • c' := hR.trans hR'.symm
  have h5 : (e1' - e1) • c = e1' • (c - c') := by
    linear_combination (norm := module) -h4
  calc c = L.inv (e1' - e1) • (e1' - e1) • c := (L.inv_smul hd c).symm
    _ = (L.inv (e1' - e1) * e1') • (c - c') := by rw [h5, mul_smul]
    _ = (L.inv (e1' - e1) * e1') • (L.inv e • e • (c - c')) := by rw [L.inv_smul he]
    _ = _ := by rw [h3]; module

/-- A 0 bit opened for two inner challenges: R = 8, C = 8 and C' = 4, hashes 1 and 2. -/
example : Toy11.lawful.MultOk 8 ∧ Toy11.lawful.MultOk ((8 : ZMod 11) - (2 ^ 3 : Int) • Toy11.lawful.g) ∧
    Toy11.lawful.MultOk 4 ∧ Toy11.lawful.MultOk ((4 : ZMod 11) - (2 ^ 3 : Int) • Toy11.lawful.g) ∧
    hashedPoint Toy11.lawful 3 1 8 6 = hashedPoint Toy11.lawful 3 1 4 1 ∧
    Toy11.lawful.hp (fun _ => [1]) 8 • (8 : ZMod 11) = 8 ∧
    Toy11.lawful.hp (fun _ => [2]) 8 • (4 : ZMod 11) = 8 := by
  refine ⟨Toy11.multOk_plain _ (by decide), Toy11.multOk_plain _ (by decide),
    Toy11.multOk_plain _ (by decide), Toy11.multOk_plain _ (by decide), ?_, by decide, by decide⟩
  change (6 : Int) • (3 : ZMod 11) - (1 : Int) • ((8 : ZMod 11) - (2 ^ 3 : Int) • 1) =
      (1 : Int) • (3 : ZMod 11) - (1 : Int) • ((4 : ZMod 11) - (2 ^ 3 : Int) • 1)
  decide

/-- C88, the sum: an accepted proof whose tuples are commitments to 0 or 2^i opens the commitment,
up to its sign, with the number that has these bits, which is below 2^n, n the number of tuples, and
with the sum of their randomness. -/
theorem C88_sum (L : Lawful cp E) (hash : Bytes → Bytes) (n : Nat) (hn : n ≤ 64) (e : Int)
    (c : Nat → E) (s : Nat → Int) (agg comm : E) (b : Nat → Bool) (x : Nat → Int)
    (hc : ∀ i < n, c i = (if b i then (2 ^ i : Int) else 0) • L.g + x i • L.hb)
    (acc : rangeVerify hash cp (some ⟨L.pe agg, some e,
      (List.range n).map fun i => ⟨L.pe (c i), some (s i)⟩⟩) (L.pe comm) = .ok accept) :
    ∃ v r : Int, v = ((List.range n).map fun i => if b i then (2 ^ i : Int) else 0).sum ∧
      r = ((List.range n).map x).sum ∧ 0 ≤ v ∧ v < 2 ^ n ∧
      (comm = v • L.g + r • L.hb ∨ comm = -(v • L.g + r • L.hb)) := by
  rw [rangeVerify_pe L hash n hn] at acc
  have hs : L.same comm ((List.range n).map c).sum = true := by
    by_contra h
    rw [Bool.not_eq_true] at h
    rw [h] at acc
    split_ifs at acc <;> simp_all [reject, accept]
  have hb : ∀ m, 0 ≤ ((List.range m).map fun i => if b i then (2 ^ i : Int) else 0).sum ∧
      ((List.range m).map fun i => if b i then (2 ^ i : Int) else 0).sum < 2 ^ m := by
    intro m
    induction m with
    | zero => simp
    | succ m ih =>
      rw [List.range_succ, List.map_append, List.sum_append, pow_succ]
      simp only [List.map_cons, List.map_nil, List.sum_cons, List.sum_nil, add_zero]
      have : (0 : Int) < 2 ^ m := by positivity
      split <;> constructor <;> omega
  have hsum : ((List.range n).map c).sum =
      ((List.range n).map fun i => if b i then (2 ^ i : Int) else 0).sum • L.g
        + ((List.range n).map x).sum • L.hb := by
    have : ∀ l : List Nat, (∀ i ∈ l, i < n) → (l.map c).sum =
      (l.map fun i => if b i then (2 ^ i : Int) else 0).sum • L.g + (l.map x).sum • L.hb := by
      intro l
      induction l with
      | nil => intro _; simp
      | cons i l ih =>
        intro hl
        simp only [List.map_cons, List.sum_cons, add_smul]
        rw [hc i (hl i (by simp)), ih fun j hj => hl j (by simp [hj])]
        module
    exact this _ fun i hi => List.mem_range.1 hi
  refine ⟨((List.range n).map fun i => if b i then (2 ^ i : Int) else 0).sum,
    ((List.range n).map x).sum, rfl, rfl, (hb n).1, (hb n).2, ?_⟩
  rw [← hsum]
  exact L.same_iff.1 hs

/-- C85 as a user needs it.  See rangeproof.go:262-322. -/
def RangeProofFitsOneCommitment (L : Lawful cp E) : Prop :=
  ∀ (hash : Bytes → Bytes) (proof : RangeProof) (a b : E),
    rangeVerify hash cp (some proof) (L.pe a) = .ok accept →
    rangeVerify hash cp (some proof) (L.pe b) = .ok accept → a = b

/-- C85, what happens: every proof, however made, gets the same answer for a commitment and for its
negative. -/
theorem C85_negated_commitment (L : Lawful cp E) (hash : Bytes → Bytes) (proof : Option RangeProof)
    (a : E) : rangeVerify hash cp proof (L.pe (-a)) = rangeVerify hash cp proof (L.pe a) := by
  have he : ∀ p, equal (L.pe (-a)) p = equal (L.pe a) p := by
    intro p
    have : (L.pe (-a)).X = (L.pe a).X := by simp [Lawful.pe, pt, L.enc_neg]
    simp only [equal, this]
  cases proof with
  | none => rfl
  | some pr => simp only [rangeVerify, finishVerify, he]

/-- C85, what holds: a proof is accepted for at most one commitment and its negative.  Missing: the
negative is a commitment to another value. -/
theorem C85_up_to_sign_partial (L : Lawful cp E) (hash : Bytes → Bytes) (proof : RangeProof) (a b : E)
    (ha : rangeVerify hash cp (some proof) (L.pe a) = .ok accept)
    (hb : rangeVerify hash cp (some proof) (L.pe b) = .ok accept) : a = b ∨ a = -b := by
  have key : ∀ a, rangeVerify hash cp (some proof) (L.pe a) = .ok accept →
      ∃ total, proof.ProofTuples.foldlM (fun acc t => add cp acc t.C) Zero = .ok total ∧
        total.X = some (L.enc a).1 := by
    intro a h
    unfold rangeVerify at h
    simp only at h
    split at h
    · simp [reject, accept] at h
    · obtain ⟨Rs, _, h⟩ := Go.bind_eq_ok.1 h
      obtain ⟨total, ht, h⟩ := Go.bind_eq_ok.1 h
      refine ⟨total, ht, ?_⟩
      unfold finishVerify at h
      obtain ⟨e, _, h⟩ := Go.bind_eq_ok.1 h
      obtain ⟨q, _, h⟩ := Go.bind_eq_ok.1 h
      cases q with
      | false => simp [reject, accept] at h
      | true =>
        simp only [Bool.not_true, Bool.false_eq_true, if_false] at h
        obtain ⟨q, _, h⟩ := Go.bind_eq_ok.1 h
        cases q with
        | false => simp [reject, accept] at h
        | true =>
          simp only [Bool.not_true, Bool.false_eq_true, if_false] at h
          obtain ⟨q, hq, h⟩ := Go.bind_eq_ok.1 h
          cases q with
          | false => simp [reject, accept] at h
          | true =>
            unfold equal at hq
            obtain ⟨x, hx, _⟩ := Go.bind_eq_ok.1 hq
            cases htx : total.X with
            | none => simp [Lawful.pe, pt, cmpEq, htx] at hx
            | some z =>
              simp [Lawful.pe, pt, cmpEq, htx] at hx
              subst hx
              by_cases hz : (L.enc a).1 = z
              · rw [hz]
              · simp [cmpEq, Lawful.pe, pt, htx, hz] at hq
  obtain ⟨t1, h1, h2⟩ := key a ha
  obtain ⟨t2, h3, h4⟩ := key b hb
  rw [h1, Go.ok.injEq] at h3
  subst h3
  rw [h2, Option.some.injEq] at h4
  exact (L.enc_x a b).1 h4

/-- An accepted one-tuple proof, for the constant hash. -/
theorem one_tuple_accepted (L : Lawful cp E) (a : E) :
    rangeVerify (fun _ => [1]) cp (some ⟨L.pe a, some 1, [⟨L.pe a, some 0⟩]⟩) (L.pe a) = .ok accept := by
  have := rangeVerify_pe L (fun _ => [1]) 1 (by norm_num) 1 (fun _ => a) (fun _ => 0) a a
  simp only [List.range_one, List.map_cons, List.map_nil, List.sum_cons, List.sum_nil, add_zero,
    L.same_self] at this
  rw [this, if_neg, if_neg (by simp), if_neg (by simp)]
  simp [Lawful.hps, setBytes]

/-- C85 is false on every lawful curve. -/
theorem C85_refuted (L : Lawful cp E) : ¬ RangeProofFitsOneCommitment L := by
  intro hc
  have h1 := one_tuple_accepted L L.g
  have h2 := h1
  rw [← C85_negated_commitment L] at h2
  exact L.g_ne (L.neg_eq_self (hc _ _ _ _ h1 h2))

/-- C55, a necessary part of it: an accepted proof consists of 40 tuples, one per bit.
See rangeproof.go:262-322. -/
def RangeProofCovers40Bits (cp : Params) : Prop :=
  ∀ (hash : Bytes → Bytes) (proof : RangeProof) (comm : ECPoint),
    rangeVerify hash cp (some proof) comm = .ok accept → proof.ProofTuples.length = 40

/-- C55 is false on every lawful curve, because the number of tuples is not checked. -/
theorem C55_refuted (L : Lawful cp E) : ¬ RangeProofCovers40Bits cp := by
  intro hc
  have := hc _ _ _ (one_tuple_accepted L L.g)
  simp at this

/-- C55: the prover's own algorithm run with up to 64 bits makes accepted proofs for values far above
2^40, for every hash function and all draws that are not unlucky.  The proof and the blinding factor are
the ones that the prover returns.  (That there are some blinding factor and some accepted proof would say
nothing: every commitment can be opened to every value by someone who knows the logarithm of H.) -/
theorem C55_wide_values_accepted (L : Lawful cp E) (hash : Bytes → Bytes) (n : Nat) (hn : n ≤ 64)
    (value : Int) (h0 : 0 ≤ value) (h : value < 2 ^ n) (rnd : Nat → BitRand)
    (lucky : LuckyDraws L hash n value rnd) :
    ∃ (proof : RangeProof) (r : Int) (comm : ECPoint),
      proveRange hash cp n value rnd = .ok (some proof, some r, none) ∧
      pedCommitR cp (some value) (some r) = .ok comm ∧
      rangeVerify hash cp (some proof) comm = .ok accept := by
  obtain ⟨proof, vTotal, h1, _, h3⟩ := honest_accepted L hash n hn value h0 h rnd lucky
  exact ⟨proof, vTotal, _, h1, L.pedCommitR_pe _ _, h3⟩

/-- C55: the honest proof for a value is also accepted for a commitment to minus this value, which is
N - value, far out of range. -/
theorem C55_negative_values_accepted (L : Lawful cp E) (hash : Bytes → Bytes) (value : Int)
    (h0 : 0 ≤ value) (h : value < 2 ^ 40) (rnd : Nat → BitRand)
    (lucky : LuckyDraws L hash 40 value rnd) :
    ∃ (proof : RangeProof) (vTotal : Int) (comm : ECPoint),
      NewRangeProofRuns hash cp value rnd (.ok (some proof, some vTotal, none)) ∧
      pedCommitR cp (some (-value)) (some (-vTotal)) = .ok comm ∧
      rangeVerify hash cp (some proof) comm = .ok accept := by
  obtain ⟨proof, vTotal, comm, h1, h2, h3, _⟩ := C52_completeness_partial L hash value h0 h rnd lucky
  refine ⟨proof, vTotal, L.pe (-(value • L.g + vTotal • L.hb)), (h1 _).2 rfl, ?_, ?_⟩
  · rw [L.pedCommitR_pe]
    congr 2
    module
  · rw [L.pedCommitR_pe, Go.ok.injEq] at h2
    rw [C85_negated_commitment, h2, h3]

/-- C55, what holds: the commitment is, up to its sign, the sum of the points of the tuples (with
C88: of commitments to 0 or 2^i).  Missing: the sign, and a bound on the number of tuples. -/
theorem C55_sum_partial (L : Lawful cp E) (hash : Bytes → Bytes) (n : Nat) (hn : n ≤ 64) (e : Int)
    (c : Nat → E) (s : Nat → Int) (agg comm : E)
    (acc : rangeVerify hash cp (some ⟨L.pe agg, some e,
      (List.range n).map fun i => ⟨L.pe (c i), some (s i)⟩⟩) (L.pe comm) = .ok accept) :
    comm = ((List.range n).map c).sum ∨ comm = -((List.range n).map c).sum := by
  rw [rangeVerify_pe L hash n hn] at acc
  apply L.same_iff.1
  by_contra h
  rw [Bool.not_eq_true] at h
  rw [h] at acc
  split_ifs at acc <;> simp_all [reject, accept]

example : rangeVerify (fun _ => [1]) Toy11.params (some ⟨Toy11.lawful.pe 4, some 1,
    (List.range 1).map fun _ => ⟨Toy11.lawful.pe 4, some 0⟩⟩) (Toy11.lawful.pe 4) = .ok accept :=
  one_tuple_accepted Toy11.lawful 4

end Zk.Proto
