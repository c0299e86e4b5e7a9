import Verif.Range.Toy

/-! # Properties C52-C57, C85, C88: range proofs -/

namespace Zk.Proto

open Zk

variable {cp : Params} {E : Type} [AddCommGroup E]

/-! ## C52: completeness -/

/-- The number by which the honest prover blinds bit `i`.  See rangeproof.go:154-231. -/
noncomputable def blinding (L : Lawful cp E) (hash : Bytes → Bytes) (n : Nat) (value : Int)
    (rnd : Nat → BitRand) (i : Nat) : Int :=
  L.vOf value rnd (fun i => L.inv (L.eiOf hash n value rnd i)) i

/-- The honest prover's commitment to bit `i`.  See rangeproof.go:154-231. -/
noncomputable def bitCommitment (L : Lawful cp E) (hash : Bytes → Bytes) (n : Nat) (value : Int)
    (rnd : Nat → BitRand) (i : Nat) : E :=
  (if bitOf value i then (2 ^ i : Int) else 0) • L.g + blinding L hash n value rnd i • L.hb

/-- The draws are not among the unlucky ones: the inner challenges of the 0 bits can be inverted,
the hash of the R points is below N, and no point that the prover or verifier passes to `Mult` is
-G, H or -H.  See rangeproof.go:154-231. -/
structure LuckyDraws (L : Lawful cp E) (hash : Bytes → Bytes) (n : Nat) (value : Int)
    (rnd : Nat → BitRand) : Prop where
  inner : ∀ i < n, bitOf value i = false → ¬ (cp.C.N : Int) ∣ L.eiOf hash n value rnd i
  outer : L.hps hash ((List.range n).map (L.rOf hash value rnd)) < cp.C.N
  rand : ∀ i < n, bitOf value i = false → L.MultOk ((rnd i).k • L.hb)
  comm : ∀ i < n, L.MultOk (bitCommitment L hash n value rnd i)
  diff : ∀ i < n, L.MultOk (bitCommitment L hash n value rnd i - (2 ^ i : Int) • L.g)

theorem smul_of_inverse (L : Lawful cp E) {w z : Int}
    (h : (w * z) % (cp.C.N : Int) = 1 % (cp.C.N : Int)) (hz : ¬ (cp.C.N : Int) ∣ z) (a : E) :
    w • a = L.inv z • a := by
  have h1 : (w * z) • a = a := by rw [L.smul_congr h, one_smul]
  calc w • a = w • L.inv z • z • a := by rw [L.inv_smul hz]
    _ = L.inv z • (w * z) • a := by module
    _ = _ := by rw [h1]

/-- The honest proof with `n` bits is accepted. -/
theorem honest_accepted (L : Lawful cp E) (hash : Bytes → Bytes) (n : Nat) (hn : n ≤ 64) (value : Int)
    (h0 : 0 ≤ value) (h : value < 2 ^ n) (rnd : Nat → BitRand)
    (lucky : LuckyDraws L hash n value rnd) :
    ∃ (proof : RangeProof) (vTotal : Int),
      proveRange hash cp n value rnd = .ok (some proof, some vTotal, none) ∧
      (∀ t ∈ proof.ProofTuples, tupleNil t = false) ∧
      rangeVerify hash cp (some proof) (L.pe (value • L.g + vTotal • L.hb)) = .ok accept := by
  obtain ⟨w, hw, hp⟩ := L.proveRange_honest hash n hn value rnd lucky.inner lucky.rand
  refine ⟨_, _, hp, ?_, ?_⟩
  · intro t ht
    simp only [List.mem_map] at ht
    obtain ⟨i, _, rfl⟩ := ht
    rfl
  have hc : ∀ i < n, L.cOf value rnd w i = bitCommitment L hash n value rnd i := by
    intro i hi
    unfold Lawful.cOf bitCommitment blinding Lawful.vOf
    cases hb : bitOf value i with
    | true => simp
    | false =>
      have := smul_of_inverse L (hw i hi hb) (lucky.inner i hi hb) ((rnd i).k • L.hb)
      simp [mul_smul, this]
  have hgen : ∀ i < n, verifyGen hash cp i (some (L.e0Of hash n value rnd))
      ⟨L.pe (L.cOf value rnd w i), some (L.sOf hash n value rnd w i)⟩
        = .ok (L.pe (L.rOf hash value rnd i)) := by
    intro i hi
    have o1 := (L.multOk_iff_eff _).1 (lucky.comm i hi)
    have o2 := (L.multOk_iff_eff _).1 (lucky.diff i hi)
    rw [← hc i hi] at o1 o2
    rw [L.verifyGen_pe hash (by omega), o1, o2, Go.ok.injEq, L.pe_inj]
    cases hb : bitOf value i with
    | true =>
      have e : L.sOf hash n value rnd w i • L.hb -
          L.e0Of hash n value rnd • (L.cOf value rnd w i - (2 ^ i : Int) • L.g)
          = (rnd i).k • L.hb := by
        simp only [Lawful.sOf, Lawful.cOf, Lawful.vOf, hb, if_true]
        module
      rw [e]
      simp [Lawful.rOf, Lawful.cOf, Lawful.vOf, hb]
    | false =>
      have e : L.sOf hash n value rnd w i • L.hb -
          L.e0Of hash n value rnd • (L.cOf value rnd w i - (2 ^ i : Int) • L.g)
          = (rnd i).j • L.hb + (L.e0Of hash n value rnd * 2 ^ i) • L.g := by
        simp only [Lawful.sOf, Lawful.cOf, Lawful.vOf, hb, Bool.false_eq_true, if_false]
        module
      rw [e]
      change L.eiOf hash n value rnd i • _ = _
      simp only [Lawful.rOf, Lawful.cOf, Lawful.vOf, hb, Bool.false_eq_true, if_false, zero_smul,
        zero_add]
      have h1 : (w i * L.eiOf hash n value rnd i) • ((rnd i).k • L.hb) = (rnd i).k • L.hb := by
        rw [L.smul_congr (hw i hi hb), one_smul]
      conv_rhs => rw [← h1]
      module
  have hany : ((List.range n).map fun i => (⟨L.pe (L.cOf value rnd w i),
      some (L.sOf hash n value rnd w i)⟩ : RangeProofTuple)).any tupleNil = false := by
    simp [tupleNil, Lawful.pe, pt]
  have hRs : (((List.range n).map fun i => (⟨L.pe (L.cOf value rnd w i),
      some (L.sOf hash n value rnd w i)⟩ : RangeProofTuple)).zipIdx.mapM fun t =>
        verifyGen hash cp t.2 (some (L.e0Of hash n value rnd)) t.1)
      = .ok (((List.range n).map (L.rOf hash value rnd)).map L.pe) := by
    rw [zipIdx_map_range, List.mapM_map, List.map_map]
    exact mapM_ok_iff _ _ _ fun i hi => hgen i (List.mem_range.1 hi)
  have he0 : L.e0Of hash n value rnd = L.hps hash ((List.range n).map (L.rOf hash value rnd)) :=
    Int.emod_eq_of_lt (by simp [Lawful.hps]) lucky.outer
  simp only [rangeVerify, hany, Bool.false_eq_true, if_false, hRs, Go.bind_ok, L.foldTotal_pe,
    finishVerify, L.hashAll_pe]
  simp only [he0, cmpEq, decide_true, Go.bind_ok, Bool.not_true, L.equal_pe, L.same_self,
    L.sum_cOf value rnd w n h0 h]
  rfl

/-- C52 as a user needs it.  See rangeproof.go:154-231. -/
def RangeComplete (cp : Params) : Prop :=
  ∀ (hash : Bytes → Bytes) (value : Int), 0 ≤ value → value < 2 ^ 40 → ∀ rnd : Nat → BitRand,
    (∀ i, 0 ≤ (rnd i).k ∧ (rnd i).k < cp.C.N ∧ 0 ≤ (rnd i).v ∧ (rnd i).v < cp.C.N ∧
      0 ≤ (rnd i).j ∧ (rnd i).j < cp.C.N) →
    ∃ (proof : RangeProof) (vTotal : Int) (comm : ECPoint),
      NewRangeProofRuns hash cp value rnd (.ok (some proof, some vTotal, none)) ∧
      pedCommitR cp (some value) (some vTotal) = .ok comm ∧
      rangeVerify hash cp (some proof) comm = .ok accept

/-- C52, what holds: for every value in [0, 2^40) and all draws that are not unlucky, every schedule
of the prover's goroutines ends with the same proof and blinding factor, and every schedule of the
verifier's goroutines accepts this proof for the commitment to the value with that blinding factor.
Missing: the unlucky draws. -/
theorem C52_completeness_partial (L : Lawful cp E) (hash : Bytes → Bytes) (value : Int)
    (h0 : 0 ≤ value) (h : value < 2 ^ 40) (rnd : Nat → BitRand)
    (lucky : LuckyDraws L hash 40 value rnd) :
    ∃ (proof : RangeProof) (vTotal : Int) (comm : ECPoint),
      (∀ r, NewRangeProofRuns hash cp value rnd r ↔ r = .ok (some proof, some vTotal, none)) ∧
      pedCommitR cp (some value) (some vTotal) = .ok comm ∧
      rangeVerify hash cp (some proof) comm = .ok accept ∧
      (∀ s, VState.Reach hash cp proof comm s → ∀ r, s.main = .ret r → r = .ok accept) := by
  obtain ⟨proof, vTotal, h1, h2, h3⟩ := honest_accepted L hash 40 (by norm_num) value h0 h rnd lucky
  refine ⟨proof, vTotal, _, ?_, L.pedCommitR_pe _ _, h3, ?_⟩
  · intro r
    have e1 : ¬ value > 1099511627776 := by norm_num at h; omega
    have e2 : ¬ value < 0 := by omega
    rw [NewRangeProofRuns, if_neg e1, if_neg e2, proveRuns_iff, ← h1, proofSize]
  · intro s hs r hr
    rw [(VState.ret_eq h2 hs hr).1, h3]

/-- C52 is false: for a hash value of at least N the proof is not accepted (it compares a reduced
number with one that is not), on every lawful curve. -/
theorem C52_refuted (L : Lawful cp E) : ¬ RangeComplete cp := by
  intro hc
  have hN := L.five_lt
  have hN' : (5 : Int) < cp.C.N := by exact_mod_cast hN
  obtain ⟨proof, vTotal, comm, h1, h2, h3⟩ := hc (fun _ => natBytes (cp.C.N + 1)) 0 le_rfl (by norm_num)
    (fun _ => ⟨0, 0, 0⟩) (by intro i; simp; omega)
  have hh : ∀ as, L.hps (fun _ => natBytes (cp.C.N + 1)) as = cp.C.N + 1 := by
    intro as; simp [Lawful.hps, setBytes_natBytes]
  have hh1 : ∀ a, L.hp (fun _ => natBytes (cp.C.N + 1)) a = cp.C.N + 1 := by
    intro as; simp [Lawful.hp, setBytes_natBytes]
  have hb : ∀ i, bitOf 0 i = false := by intro i; simp [bitOf]
  obtain ⟨w, hw, hp⟩ := L.proveRange_honest (fun _ => natBytes (cp.C.N + 1)) 40 (by norm_num) 0
    (fun _ => ⟨0, 0, 0⟩) (by
      intro i _ _ hd
      rw [Lawful.eiOf, hh1] at hd
      have : (cp.C.N : Int) ∣ 1 := by simpa using hd
      have := Int.le_of_dvd (by norm_num) this
      omega) (by intro i _ _; rw [L.multOk_iff_eff]; simp [L.eff_zero])
  rw [NewRangeProofRuns, if_neg (by norm_num), if_neg (by norm_num), proveRuns_iff, proofSize, hp,
    Go.ok.injEq, Prod.mk.injEq, Option.some.injEq] at h1
  rw [h1.1] at h3
  rw [L.pedCommitR_pe, Go.ok.injEq] at h2
  have he : L.e0Of (fun _ => natBytes (cp.C.N + 1)) 40 0 (fun _ => ⟨0, 0, 0⟩) = 1 := by
    rw [Lawful.e0Of, hh, Int.add_emod_left]
    exact Int.emod_eq_of_lt (by norm_num) (by omega)
  have hany : ((List.range 40).map fun i => (⟨L.pe (L.cOf 0 (fun _ => ⟨0, 0, 0⟩) w i),
      some (L.sOf (fun _ => natBytes (cp.C.N + 1)) 40 0 (fun _ => ⟨0, 0, 0⟩) w i)⟩ :
        RangeProofTuple)).any tupleNil = false := by
    simp [tupleNil, Lawful.pe, pt]
  simp only [rangeVerify, hany, Bool.false_eq_true, if_false] at h3
  obtain ⟨Rs, h4, h5⟩ := Go.bind_eq_ok.1 h3
  obtain ⟨tot, h6, h7⟩ := Go.bind_eq_ok.1 h5
  obtain ⟨e, h8, h9⟩ := Go.bind_eq_ok.1 h7
  have hev : e = cp.C.N + 1 := by
    obtain ⟨bs, _, hb2⟩ := Go.bind_eq_ok.1 h8
    simp [setBytes_natBytes] at hb2
    exact hb2.symm
  subst hev
  have hne : ¬ ((1 : Int) = (cp.C.N : Int) + 1) := by omega
  simp [he, cmpEq, hne, reject, accept] at h9

/-- Draws for the example below.  See rangeproof.go:154-231. -/
def exampleDraws (i : Nat) : BitRand :=
  ⟨[2, 2, 5, 1, 9, 1, 1, 1, 1, 1].getD (i % 10) 0,
    [1, 1, 1, 1, 1, 2, 2, 5, 1, 9].getD (i % 10) 0, 1⟩

set_option maxRecDepth 4000 in
/-- There are lucky draws. -/
example : LuckyDraws Toy11.lawful (fun _ => [1]) 40 5 exampleDraws := by
  have hp : ∀ a, Toy11.lawful.hp (fun _ => [1]) a = 1 := fun _ => rfl
  have hps : ∀ a, Toy11.lawful.hps (fun _ => [1]) a = 1 := fun _ => rfl
  have hN : (Toy11.params.C.N : Int) = 11 := rfl
  have hi : ∀ i, Toy11.lawful.eiOf (fun _ => [1]) 40 5 exampleDraws i = 1 := fun _ => rfl
  have hinv : ∀ a : ZMod 11, Toy11.lawful.inv 1 • a = a := by
    intro a
    have := Toy11.lawful.inv_smul (z := 1) (by decide) a
    rwa [one_smul] at this
  have hc : ∀ i, bitCommitment Toy11.lawful (fun _ => [1]) 40 5 exampleDraws i
      = if bitOf 5 i then ((2 ^ i : Int) : ZMod 11) + ((exampleDraws i).v : ZMod 11) * 3
        else ((exampleDraws i).k : ZMod 11) * 3 := by
    intro i
    simp only [bitCommitment, blinding, Lawful.vOf, hi]
    split
    · rw [zsmul_eq_mul, zsmul_eq_mul]; congr 1; exact mul_one _
    · rw [mul_smul, hinv, zero_smul, zero_add, zsmul_eq_mul]; rfl
  have hk : ∀ i, (exampleDraws i).k • Toy11.lawful.hb = ((exampleDraws i).k : ZMod 11) * 3 := by
    intro i; rw [zsmul_eq_mul]; rfl
  refine ⟨?_, ?_, ?_, ?_, ?_⟩
  · intro i _ _; rw [hi]; decide
  · rw [hps]; decide
  · intro i h _; rw [hk]; apply Toy11.multOk_plain; revert i; decide
  · intro i h; rw [hc]; apply Toy11.multOk_plain; revert i; decide
  · intro i h; rw [hc]; apply Toy11.multOk_plain
    have : (2 ^ i : Int) • Toy11.lawful.g = ((2 ^ i : Int) : ZMod 11) := by
      rw [zsmul_eq_mul]; exact mul_one _
    rw [this]; clear this; revert i; decide

end Zk.Proto
