import Verif.Range.Rand
import Verif.Range.Toy

/-! # Property C124: a failing random source is reported as an error -/

namespace Zk.Proto

open Zk

variable {cp : Params} {E : Type} [AddCommGroup E]

/-! ### Without failures the models are those used elsewhere -/

theorem newGSPFSProofBaseD_some (hash : Bytes → Bytes) (cp : Params) (base A : ECPoint) (x u : Int) :
    newGSPFSProofBaseD hash cp base A x (some u) = newGSPFSProofBase hash cp base A x u := rfl

theorem newEquivalenceProofD_some (hash : Bytes → Bytes) (cp : Params) (b1 r1 b2 r2 : ECPoint)
    (x u : Int) : newEquivalenceProofD hash cp b1 r1 b2 r2 x (some u)
      = newEquivalenceProof hash cp b1 r1 b2 r2 x u := rfl

theorem newConsistencyProofD_some (hash : Bytes → Bytes) (cp : Params) (cm tok pk : ECPoint)
    (v r u1 u2 : Int) : newConsistencyProofD hash cp cm tok pk v r (some u1) (some u2)
      = newConsistencyProof hash cp cm tok pk v r u1 u2 := rfl

theorem newDisjunctiveProofD_some (hash : Bytes → Bytes) (cp : Params) (b1 r1 b2 r2 : ECPoint)
    (x : Int) (side : Side) (u1 u2 u3 : Int) :
    newDisjunctiveProofD hash cp b1 r1 b2 r2 x side (some u1) (some u2) (some u3)
      = newDisjunctiveProof hash cp b1 r1 b2 r2 x side u1 u2 u3 := rfl

theorem newABCProofD_some (hash : Bytes → Bytes) (cp : Params) (cm tok : ECPoint) (v sk : Int)
    (side : Side) (r : ABCRand) :
    newABCProofD hash cp cm tok v sk side
      ⟨some r.u1, some r.u2, some r.u3, some r.ub, some r.uc, some r.d1, some r.d2, some r.d3⟩
      = newABCProof hash cp cm tok v sk side r := rfl

theorem newInequalityProofD_some (hash : Bytes → Bytes) (cp : Params) (A B tA tB : ECPoint)
    (a b sk : Int) (r : ABCRand) :
    newInequalityProofD hash cp A B tA tB a b sk
      ⟨some r.u1, some r.u2, some r.u3, some r.ub, some r.uc, some r.d1, some r.d2, some r.d3⟩
      = newInequalityProof hash cp A B tA tB a b sk r := rfl

theorem progAD_some (hash : Bytes → Bytes) (cp : Params) (i : Nat) (bit : Bool) (r : BitRand) :
    progAD hash cp i bit ⟨some r.k, some r.v, some r.j⟩ = progA hash cp i bit r := by
  cases bit <;> rfl

theorem progBD_some (hash : Bytes → Bytes) (cp : Params) (i : Nat) (bit : Bool) (e0 : Int)
    (r : BitRand) :
    progBD hash cp i bit e0 ⟨some r.k, some r.v, some r.j⟩ = progB hash cp i bit e0 r := by
  cases bit <;> rfl

theorem newRangeProofRunsD_some (hash : Bytes → Bytes) (cp : Params) (value : Int)
    (rnd : Nat → BitRand) (r : Go (Option RangeProof × Option Int × Option Err)) :
    NewRangeProofRunsD hash cp value (fun i => ⟨some (rnd i).k, some (rnd i).v, some (rnd i).j⟩) r ↔
      NewRangeProofRuns hash cp value rnd r := by
  unfold NewRangeProofRunsD NewRangeProofRuns
  split
  · rfl
  split
  · rfl
  constructor
  · intro h
    cases h with
    | crashA h => simp only [progAD_some] at h; exact .crashA h
    | crashHash a h => simp only [progAD_some] at h; exact .crashHash a h ‹_› ‹_›
    | crashB a x h1 h2 h3 h4 =>
      simp only [progAD_some, progBD_some] at h1 h4; exact .crashB a x h1 h2 h3 h4
    | finish a b x h1 h2 h3 h4 h5 =>
      simp only [progAD_some, progBD_some] at h1 h4; exact .finish a b x h1 h2 h3 h4 h5
  · intro h
    cases h with
    | crashA h => exact .crashA (by simpa only [progAD_some] using h)
    | crashHash a h => exact .crashHash a (by simpa only [progAD_some] using h) ‹_› ‹_›
    | crashB a x h1 h2 h3 h4 =>
      exact .crashB a x (by simpa only [progAD_some] using h1) h2 h3
        (by simpa only [progBD_some] using h4)
    | finish a b x h1 h2 h3 h4 h5 =>
      exact .finish a b x (by simpa only [progAD_some] using h1) h2 h3
        (by simpa only [progBD_some] using h4) h5

/-! ### The provers that report the failure -/

/-- The outcome is an error together with a nil proof or an empty one; nothing panics.
See rangeproof.go:154-231. -/
def Reports {P : Type} (empty : P) (run : Go (Option P × Option Err)) : Prop :=
  ∃ r e, run = .ok (r, some e) ∧ (r = none ∨ r = some empty)

/-- C124, what holds: if a draw fails, `PedCommit` and the provers of the Schnorr, equivalence,
consistency and disjunctive proofs return an error, for all points on the curve and all numbers.
Missing: `KeyGen` and `NewRangeProof`, see `C124_refuted`. -/
theorem C124_reported_partial (L : Lawful cp E) (hash : Bytes → Bytes) :
    (∀ v, ∃ c e, pedCommitD cp v none = .ok (c, none, some e)) ∧
    (∀ (b a : E) x, ∃ e, newGSPFSProofBaseD hash cp (L.pe b) (L.pe a) x none = .ok (none, some e)) ∧
    (∀ (b1 r1 b2 r2 : E) x, ∃ e,
      newEquivalenceProofD hash cp (L.pe b1) (L.pe r1) (L.pe b2) (L.pe r2) x none
        = .ok (none, some e)) ∧
    (∀ (cm tok pk : E) v r (u1 u2 : Draw), u1 = none ∨ u2 = none →
      Reports emptyConsistency
        (newConsistencyProofD hash cp (L.pe cm) (L.pe tok) (L.pe pk) v r u1 u2)) ∧
    (∀ (b1 r1 b2 r2 : E) x side (u1 u2 u3 : Draw), u1 = none ∨ u2 = none ∨ u3 = none →
      Reports emptyDisjunctive
        (newDisjunctiveProofD hash cp (L.pe b1) (L.pe r1) (L.pe b2) (L.pe r2) x side u1 u2 u3)) := by
  refine ⟨fun v => ⟨_, _, rfl⟩, ?_, ?_, ?_, ?_⟩
  · intro b a x
    simp only [newGSPFSProofBaseD, L.coords_pe, L.scalarMult_pe, L.mk_enc, L.equal_pe, Go.bind_ok,
      Go.pure_eq]
    split <;> exact ⟨_, rfl⟩
  · intro b1 r1 b2 r2 x
    simp only [newEquivalenceProofD, L.mult_pe, L.equal_pe, Go.bind_ok, Go.pure_eq]
    split
    · exact ⟨_, rfl⟩
    · split <;> exact ⟨_, rfl⟩
  · intro cm tok pk v r u1 u2 hu
    simp only [newConsistencyProofD, L.mult_pe, L.pedCommitR_pe, L.equal_pe, Go.bind_ok, Go.pure_eq]
    split
    · exact ⟨_, _, rfl, .inr rfl⟩
    · split
      · exact ⟨_, _, rfl, .inr rfl⟩
      · rcases u1 with _ | u1
        · exact ⟨_, _, rfl, .inl rfl⟩
        · rcases u2 with _ | u2
          · exact ⟨_, _, rfl, .inl rfl⟩
          · simp at hu
  · intro b1 r1 b2 r2 x side u1 u2 u3 hu
    have key : ∀ a1 c1 a2 c2 sw, Reports emptyDisjunctive
        (proveDisjunctiveD hash cp (L.pe b1) (L.pe r1) (L.pe b2) (L.pe r2)
          (L.pe a1) (L.pe c1) (L.pe a2) (L.pe c2) x u1 u2 u3 sw) := by
      intro a1 c1 a2 c2 sw
      simp only [proveDisjunctiveD, L.mult_pe, L.equal_pe, Go.bind_ok, Go.pure_eq]
      split
      · exact ⟨_, _, rfl, .inr rfl⟩
      · rcases u1 with _ | u1
        · exact ⟨_, _, rfl, .inl rfl⟩
        · rcases u2 with _ | u2
          · exact ⟨_, _, rfl, .inl rfl⟩
          · rcases u3 with _ | u3
            · exact ⟨_, _, rfl, .inl rfl⟩
            · simp at hu
    unfold newDisjunctiveProofD
    split
    · exact key _ _ _ _ _
    · split
      · exact key _ _ _ _ _
      · exact ⟨_, _, rfl, .inr rfl⟩

/-- C124 for ABC proofs: also if one of the draws of the nested proof fails.  The value, if it is not
zero, must be invertible; otherwise the prover panics before those draws. -/
theorem C124_abc_partial (L : Lawful cp E) (hash : Bytes → Bytes) (cm tok : E) (v sk : Int)
    (side : Side) (d : ABCDraws)
    (h : d.u1 = none ∨ d.u2 = none ∨ d.u3 = none ∨ d.ub = none ∨ d.uc = none ∨
      ((d.d1 = none ∨ d.d2 = none ∨ d.d3 = none) ∧ (v = 0 ∨ ¬ (cp.C.N : Int) ∣ v))) :
    Reports emptyABC (newABCProofD hash cp (L.pe cm) (L.pe tok) v sk side d) := by
  obtain ⟨u1, u2, u3, ub, uc, d1, d2, d3⟩ := d
  rcases u1 with _ | u1
  · exact ⟨_, _, rfl, .inl rfl⟩
  rcases u2 with _ | u2
  · exact ⟨_, _, rfl, .inl rfl⟩
  rcases u3 with _ | u3
  · exact ⟨_, _, rfl, .inl rfl⟩
  rcases ub with _ | ub
  · exact ⟨_, _, rfl, .inl rfl⟩
  rcases uc with _ | uc
  · exact ⟨_, _, rfl, .inl rfl⟩
  simp only [reduceCtorEq, false_or] at h
  have hd := (C124_reported_partial L hash).2.2.2.2
  have hw : v ≠ 0 → ∃ w, modInverse v cp.C.N = some w := by
    intro hv
    obtain ⟨w, hw, -⟩ := modInverse_some L.prime (h.2.resolve_left hv)
    exact ⟨w, hw⟩
  simp only [newABCProofD, abcBodyD, L.H_pe, L.G_pe, L.mult_pe, Go.bind_ok, L.pedCommitR_pe, L.sub_pe]
  split
  · obtain ⟨r, e, he, -⟩ := hd cm tok L.h ((0 : Int) • L.g + uc • L.hb - L.g) sk Left d1 d2 d3 h.1
    rw [he]
    exact ⟨_, _, rfl, .inr rfl⟩
  · split
    · rename_i hv
      obtain ⟨w, hw⟩ := hw hv.2
      simp only [hw, L.pedCommitR_pe, Go.bind_ok]
      obtain ⟨r, e, he, -⟩ := hd cm tok L.h ((1 : Int) • L.g + uc • L.hb - L.g) uc Right d1 d2 d3 h.1
      rw [he]
      exact ⟨_, _, rfl, .inr rfl⟩
    · exact ⟨_, _, rfl, .inr rfl⟩

/-- C124 for inequality proofs. -/
theorem C124_inequality_partial (L : Lawful cp E) (hash : Bytes → Bytes) (A B tA tB : E)
    (a b sk : Int) (d : ABCDraws)
    (h : d.u1 = none ∨ d.u2 = none ∨ d.u3 = none ∨ d.ub = none ∨ d.uc = none ∨
      ((d.d1 = none ∨ d.d2 = none ∨ d.d3 = none) ∧ ¬ (cp.C.N : Int) ∣ a - b)) :
    ∃ e, newInequalityProofD hash cp (L.pe A) (L.pe B) (L.pe tA) (L.pe tB) a b sk d
      = .ok (none, some e) := by
  unfold newInequalityProofD
  split
  · exact ⟨_, rfl⟩
  · obtain ⟨r, e, he, -⟩ := C124_abc_partial L hash (A - B) (tA - tB) (a - b) sk Right d
      (by tauto)
    simp only [L.sub_pe, Go.bind_ok, he, Option.isSome_some, if_true, Go.pure_eq]
    exact ⟨_, rfl⟩

/-! ### The range prover -/

/-- One of the draws that the prover makes for a bit fails: two for a one (rangeproof.go:71, 84), two
for a zero (63, 112). -/
def FailsAt (value : Int) (rnd : Nat → BitDraws) (i : Nat) : Prop :=
  if bitOf value i then (rnd i).v = none ∨ (rnd i).k = none else (rnd i).k = none ∨ (rnd i).j = none

theorem foldlM_panic {α β : Type} (f : β → α → Go β) (l : List α) (a : α) (ha : a ∈ l)
    (h : ∀ b, f b a = .panic) (b : β) : l.foldlM f b = .panic := by
  induction l generalizing b with
  | nil => simp at ha
  | cons x l ih =>
    rw [List.foldlM_cons]
    cases hx : f b x with
    | panic => rfl
    | ok y =>
      rcases List.mem_cons.1 ha with rfl | ha
      · rw [h] at hx; cases hx
      · exact ih ha y

theorem hashAll_nil {hash : Bytes → Bytes} {n i : Nat} (hi : i < n) (R : Nat → ECPoint)
    (h : R i = nilPoint) : hashAll hash ((List.range n).map R) = .panic := by
  unfold hashAll
  rw [mapM_panic _ _ (List.mem_map.2 ⟨i, List.mem_range.2 hi, h⟩) rfl]
  rfl

/-- A failed draw makes every schedule of the prover panic. -/
theorem proveRunsD_fails {hash : Bytes → Bytes} {n i : Nat} {value : Int} {rnd : Nat → BitDraws}
    (hi : i < n) (hf : FailsAt value rnd i) {r : Go (Option RangeProof × Option Int × Option Err)}
    (h : ProveRunsD hash cp n value rnd r) : r = .panic := by
  cases h with
  | crashA h => rfl
  | crashHash a h1 h2 h3 => rfl
  | crashB a x h1 h2 h3 h4 => rfl
  | finish a b x h1 h2 h3 h4 h5 =>
    have ha := Pool.finished h1 h2 i hi
    have hb := Pool.finished h4 h5 i hi
    unfold FailsAt at hf
    cases hbit : bitOf value i with
    | true =>
      simp only [hbit, if_true] at hf
      simp only [progAD, hbit, Bool.not_true, Bool.false_eq_true, if_false] at ha
      cases hv : (rnd i).v with
      | none =>
        simp only [hv, runW, Go.bind_ok, Go.ok.injEq] at ha
        have := hashAll_nil (hash := hash) hi (fun i => (a.data i).R) (by simp only [← ha]; rfl)
        rw [this] at h3
        cases h3
      | some v =>
        have hk : (rnd i).k = none := by simpa [hv] using hf
        have hk' : (a.data i).k = none := by
          simp only [hv, hk, runW, Go.bind_ok, Go.bind_eq_ok] at ha
          obtain ⟨s1, -, s2, -, h3⟩ := ha
          rw [Go.ok.injEq] at h3
          rw [← h3]
        simp [progBD, hbit, runW, hk'] at hb
    | false =>
      simp only [hbit, Bool.false_eq_true, if_false] at hf
      simp only [progAD, hbit, Bool.not_false, if_true] at ha
      cases hk : (rnd i).k with
      | none =>
        simp only [hk, runW, Go.bind_ok, Go.ok.injEq] at ha
        have := hashAll_nil (hash := hash) hi (fun i => (a.data i).R) (by simp only [← ha]; rfl)
        rw [this] at h3
        cases h3
      | some k =>
        have hj : (rnd i).j = none := by simpa [hk] using hf
        have hv : (a.data i).v = none := by
          simp only [hk, runW, Go.bind_ok, Go.bind_eq_ok, Go.pure_eq, Go.ok.injEq] at ha
          obtain ⟨s1, ⟨R, -, h5⟩, h6⟩ := ha
          rw [← h6, ← h5]
          rfl
        simp only [progBD, hbit, hj, Bool.not_false, if_true, runW, Go.ok.injEq] at hb
        unfold finishRange
        rw [foldlM_panic _ _ (b.data i) (List.mem_map.2 ⟨i, List.mem_range.2 hi, rfl⟩)]
        · rfl
        · intro acc
          rw [← hb, hv]
          rfl

theorem proveRunsD_exists (hash : Bytes → Bytes) (cp : Params) (n : Nat) (value : Int)
    (rnd : Nat → BitDraws) : ∃ r, ProveRunsD hash cp n value rnd r := by
  rcases Pool.exists_end n (fun _ => emptySlot)
      (fun i => progAD hash cp i (bitOf value i) (rnd i)) with h | ⟨a, ha, hwa⟩
  · exact ⟨_, .crashA h⟩
  cases hh : hashAll hash ((List.range n).map fun i => (a.data i).R) with
  | panic => exact ⟨_, .crashHash a ha hwa hh⟩
  | ok h =>
    rcases Pool.exists_end n a.data
        (fun i => progBD hash cp i (bitOf value i) (h % (cp.C.N : Int)) (rnd i)) with h' | ⟨b, hb, hwb⟩
    · exact ⟨_, .crashB a h ha hwa hh h'⟩
    · exact ⟨_, .finish a b h ha hwa hh hb hwb⟩

/-- C124 is false: `NewRangeProof` drops the errors of its goroutines, and a single failed draw makes
it panic, for every curve, every value in range and every schedule, whatever the other draws are.
`KeyGen` panics as well. -/
theorem C124_refuted (hash : Bytes → Bytes) (cp : Params) (value : Int) (h0 : 0 ≤ value)
    (h : value ≤ 2 ^ 40) (rnd : Nat → BitDraws) (i : Nat) (hi : i < 40)
    (hf : FailsAt value rnd i) :
    (∀ r, NewRangeProofRunsD hash cp value rnd r ↔ r = .panic) ∧
    ∀ base, keyGenD cp.C base none = .panic := by
  refine ⟨fun r => ?_, fun _ => rfl⟩
  rw [NewRangeProofRunsD, if_neg (by norm_num at h; omega), if_neg (by omega)]
  constructor
  · exact proveRunsD_fails hi hf
  · rintro rfl
    obtain ⟨r, hr⟩ := proveRunsD_exists hash cp proofSize value rnd
    rwa [proveRunsD_fails hi hf hr] at hr

/-- C124, the other provers and the draws: a value of 5, where the second draw for bit 2 fails. -/
example : FailsAt 5 (fun i => if i = 2 then ⟨none, some 1, some 1⟩ else ⟨some 1, some 1, some 1⟩) 2 := by
  have : bitOf 5 2 = true := by decide
  simp [FailsAt, this]

/-- The conditions of the theorem on ABC proofs hold for a nested draw. -/
example : (none : Draw) = none ∧ ((6 : Int) = 0 ∨ ¬ (Toy11.params.C.N : Int) ∣ 6) := by decide

end Zk.Proto
