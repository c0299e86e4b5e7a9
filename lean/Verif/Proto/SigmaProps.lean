import Verif.Proto.SigmaLemmas
import Mathlib.Data.Set.Card

/-! # Properties C27-C30, C32-C40, C84, C86: GSPFS, equivalence and consistency proofs -/

namespace Zk.Proto

open Zk

variable {cp : Params} {E : Type} [AddCommGroup E]

/-- The prover returns a proof without an error and the verifier accepts this proof.
See gspfs.go:43-69. -/
def Succeeds {P : Type} (run : Go (Option P × Option Err))
    (verify : Option P → Go (Bool × Option Err)) : Prop :=
  ∃ pr, run = .ok (some pr, none) ∧ verify (some pr) = .ok accept

/-- The prover returns an error (and does not panic).  See gspfs.go:43-69. -/
def Refuses {P : Type} (run : Go (Option P × Option Err)) : Prop :=
  ∃ r e, run = .ok (r, some e)

/-! ## GSPFS -/

/-- C27 as a user needs it.  See gspfs.go:43-69. -/
def GSPFSComplete (L : Lawful cp E) : Prop :=
  ∀ (hash : Bytes → Bytes) (b : E) (x u : Int),
    Succeeds (newGSPFSProofBase hash cp (L.pe b) (L.pe (x • b)) x u)
      fun p => gspfsVerify hash cp p (L.pe (x • b))

theorem newGSPFSProofBase_ok (L : Lawful cp E) (hash : Bytes → Bytes) (b : E) (x u : Int) :
    newGSPFSProofBase hash cp (L.pe b) (L.pe (x • b)) x u =
      .ok (some ⟨L.pe b, L.pe (u • L.eff b),
        some ((u - L.chal hash [x • b, u • L.eff b] * (x % (cp.C.N : Int))) % (cp.C.N : Int)),
        some (L.chal hash [x • b, u • L.eff b])⟩, none) := by
  simp [newGSPFSProofBase, L.coords_pe, L.scalarMult_pe, L.mk_enc, L.equal_pe, L.same_self,
    L.mult_pe, L.challengeOf₂]

/-- C27, what holds: the proof verifies if `Mult` is scalar multiplication at the base and at the
point, that is (C19) if neither of them is one of -G, H, -H.  Missing: those points. -/
theorem C27_completeness_partial (L : Lawful cp E) (hash : Bytes → Bytes) (b : E) (x u : Int)
    (hb : L.MultOk b) (hx : L.MultOk (x • b)) :
    Succeeds (newGSPFSProofBase hash cp (L.pe b) (L.pe (x • b)) x u)
      fun p => gspfsVerify hash cp p (L.pe (x • b)) := by
  refine ⟨_, newGSPFSProofBase_ok L hash b x u, ?_⟩
  rw [L.multOk_iff_eff] at hb hx
  refine (L.gspfsVerify_pe_iff ..).2 ⟨rfl, L.same_iff.2 (Or.inl ?_)⟩
  rw [L.smul_mod, hx, hb, sub_smul, mul_smul, L.smul_mod]
  module

/-- C27 with `NewGSPFSProof`, whose base is G. -/
theorem C27_completeness_G_partial (L : Lawful cp E) (hash : Bytes → Bytes) (x u : Int)
    (hx : L.MultOk (x • L.g)) :
    Succeeds (newGSPFSProof hash cp (L.pe (x • L.g)) x u)
      fun p => gspfsVerify hash cp p (L.pe (x • L.g)) := by
  rw [newGSPFSProof, L.G_pe]
  exact C27_completeness_partial L hash L.g x u ((L.multOk_iff_eff _).2 L.eff_g) hx

example : Toy.lawful.MultOk (3 : ZMod 7) ∧ Toy.lawful.MultOk ((2 : Int) • (5 : ZMod 7)) := by
  constructor <;> rw [Toy.lawful.multOk_iff_eff] <;> simp only [Lawful.eff] <;>
    rw [if_neg (by decide), if_neg (by decide)]

theorem chal_const (L : Lawful cp E) (as : List E) : L.chal (fun _ => [1]) as = 1 := by
  have := L.five_lt
  rw [Lawful.chal, generateChallenge]
  simp only [setBytes, List.foldl_cons, List.foldl_nil]
  exact Int.emod_eq_of_lt (by decide) (by simp; omega)

/-- C27 is false on every lawful curve: the honest proof for -G is rejected. -/
theorem C27_refuted (L : Lawful cp E) : ¬ GSPFSComplete L := by
  intro h
  obtain ⟨pr, h1, h2⟩ := h (fun _ => [1]) L.g (-1) 0
  rw [newGSPFSProofBase_ok, chal_const, Go.ok.injEq, Prod.mk.injEq, Option.some.injEq] at h1
  rw [← h1.1, L.gspfsVerify_pe_iff, L.same_iff] at h2
  have h3 := h2.2
  rw [show (-1 : Int) • L.g = -L.g by module, L.eff_neg_g, L.eff_g, L.smul_mod, sub_smul, mul_smul,
    L.smul_mod] at h3
  have h4 : (2 : Int) • L.g = 0 := by
    rcases h3 with h3 | h3
    · linear_combination (norm := module) -h3
    · linear_combination (norm := module) h3
  have := Int.le_of_dvd (by norm_num) ((L.smul_eq_zero L.g_ne).1 h4)
  have := L.five_lt
  omega

/-- C28. A wrong witness is refused, and no proof is returned. -/
theorem C28_refuses (L : Lawful cp E) (hash : Bytes → Bytes) (b a : E) (x u : Int)
    (h1 : a ≠ x • b) (h2 : a ≠ -(x • b)) :
    ∃ e, newGSPFSProofBase hash cp (L.pe b) (L.pe a) x u = .ok (none, some e) := by
  have h : L.same (x • b) a = false := by
    rw [Bool.eq_false_iff, Ne, L.same_iff]
    rintro (h | h)
    · exact h1 h.symm
    · exact h2 (by rw [h, neg_neg])
  simp [newGSPFSProofBase, L.coords_pe, L.scalarMult_pe, L.mk_enc, L.equal_pe, h]

example : (5 : ZMod 7) ≠ (2 : Int) • (3 : ZMod 7) ∧ (5 : ZMod 7) ≠ -((2 : Int) • (3 : ZMod 7)) := by
  decide

/-- C29. Two accepted proofs with the same base and random commitment for the same point, under
any two hash functions (that is, after programming the challenge), give the discrete logarithm by one
of two explicit formulas.  It is the discrete logarithm between the points that `Mult` multiplies,
that is of `A` to the base unless one of them is -G, H or -H.  The random commitment is arbitrary,
it need not be on the curve. -/
theorem C29_special_soundness (L : Lawful cp E) (hash hash' : Bytes → Bytes) (b a : E)
    (tx ty s c s' c' : Int)
    (h : gspfsVerify hash cp (some ⟨L.pe b, pt tx ty, some s, some c⟩) (L.pe a) = .ok accept)
    (h' : gspfsVerify hash' cp (some ⟨L.pe b, pt tx ty, some s', some c'⟩) (L.pe a) = .ok accept)
    (hc : ¬ c ≡ c' [ZMOD cp.C.N]) (hc' : ¬ c ≡ -c' [ZMOD cp.C.N]) :
    ∃ w ∈ [L.inv (c - c') * (s' - s), L.inv (c + c') * (-s - s')],
      mult cp (L.pe a) (some 1) = mult cp (L.pe b) (some w) ∧
      (L.MultOk a → L.MultOk b → a = w • b) := by
  have key : ∃ w ∈ [L.inv (c - c') * (s' - s), L.inv (c + c') * (-s - s')],
      L.eff a = w • L.eff b := by
    have h1 := ((L.gspfsVerify_iff ..).1 h).2
    have h2 := ((L.gspfsVerify_iff ..).1 h').2
    rw [h1, L.enc_x] at h2
    rcases h2 with h2 | h2
    · refine ⟨_, List.mem_cons_self, ?_⟩
      have hd : ¬ (cp.C.N : Int) ∣ c - c' := fun hd => hc (Int.modEq_iff_dvd.2 hd).symm
      have h3 : (c - c') • L.eff a = (s' - s) • L.eff b := by
        linear_combination (norm := module) h2
      rw [mul_smul, ← h3, L.inv_smul hd]
    · refine ⟨_, List.mem_cons_of_mem _ List.mem_cons_self, ?_⟩
      have hd : ¬ (cp.C.N : Int) ∣ c + c' := fun hd =>
        hc' (Int.modEq_iff_dvd.2 (by rwa [sub_neg_eq_add])).symm
      have h3 : (c + c') • L.eff a = (-s - s') • L.eff b := by
        linear_combination (norm := module) h2
      rw [mul_smul (L.inv _), ← h3, L.inv_smul hd]
  obtain ⟨w, hw, he⟩ := key
  refine ⟨w, hw, ?_, fun ha hb => ?_⟩
  · rw [L.mult_pe, L.mult_pe, one_smul, he]
  · rw [L.multOk_iff_eff] at ha hb
    rwa [ha, hb] at he

/-- The hypotheses of C29 are met: two proofs by the honest prover with the same `u`. -/
example : ∃ (b a : ZMod 7) (tx ty s c s' c' : Int) (hash hash' : Bytes → Bytes),
    gspfsVerify hash Toy.params (some ⟨Toy.lawful.pe b, pt tx ty, some s, some c⟩)
      (Toy.lawful.pe a) = .ok accept ∧
    gspfsVerify hash' Toy.params (some ⟨Toy.lawful.pe b, pt tx ty, some s', some c'⟩)
      (Toy.lawful.pe a) = .ok accept ∧
    ¬ c ≡ c' [ZMOD Toy.params.C.N] ∧ ¬ c ≡ -c' [ZMOD Toy.params.C.N] := by
  have hg : Toy.lawful.eff 1 = 1 := Toy.lawful.eff_g
  have h3 : Toy.lawful.eff 3 = 3 := by
    simp only [Lawful.eff]; rw [if_neg (by decide), if_neg (by decide)]
  refine ⟨1, 3, (Toy.lawful.enc 5).1, (Toy.lawful.enc 5).2, 2, 1, -1, 2, fun _ => [1],
    fun _ => [2], ?_, ?_, by decide, by decide⟩
  · exact (Toy.lawful.gspfsVerify_iff ..).2 ⟨by decide, by rw [hg, h3]; decide⟩
  · exact (Toy.lawful.gspfsVerify_iff ..).2 ⟨by decide, by rw [hg, h3]; decide⟩

/-- A simulator of GSPFS proofs: from the statement, a challenge and a response, without `x`.
See gspfs.go:43-69. -/
def simGSPFS (cp : Params) (base A : ECPoint) (c s : Int) : Go (Option GSPFSProof × Option Err) := do
  let sB ← mult cp base (some s)
  let cA ← commitR cp A c
  let T ← add cp sB cA
  pure (some ⟨base, T, some s, some c⟩, none)

/-- C30. With any challenge value in place of the hash, the proofs over all draws of `u` are, with
multiplicity, those that the simulator makes from uniform responses without knowing `x`.  This for
every base that `Mult` multiplies correctly, in particular G. -/
theorem C30_simulatable (L : Lawful cp E) (hash : Bytes → Bytes) (c : Int)
    (hc : ∀ arr, generateChallenge hash cp arr = c) (b : E) (x : Int) (hb : L.MultOk b) :
    (Multiset.range cp.C.N).map (fun u : Nat =>
        newGSPFSProofBase hash cp (L.pe b) (L.pe (x • b)) x u) =
    (Multiset.range cp.C.N).map (fun s : Nat => simGSPFS cp (L.pe b) (L.pe (x • b)) c s) := by
  have : NeZero cp.C.N := ⟨L.prime.ne_zero⟩
  rw [L.multOk_iff_eff] at hb
  refine dist_eq₁ cp.C.N _ _ (Equiv.addRight (-((c * x : Int) : ZMod cp.C.N))) fun z => ?_
  have hv : ((((Equiv.addRight (-((c * x : Int) : ZMod cp.C.N))) z).val : Nat) : Int) =
      ((z.val : Int) - c * (x % (cp.C.N : Int))) % (cp.C.N : Int) := by
    have : (Equiv.addRight (-((c * x : Int) : ZMod cp.C.N))) z =
        (((z.val : Int) - c * x : Int) : ZMod cp.C.N) := by
      rw [Equiv.coe_addRight]; push_cast; rw [ZMod.natCast_zmod_val]; ring
    rw [this, val_intCast]
    rw [Int.sub_emod, Int.sub_emod (z.val : Int) (c * (x % (cp.C.N : Int)))]
    rw [Int.mul_emod c (x % _), Int.emod_emod, ← Int.mul_emod]
  have hch : ∀ as, L.chal hash as = c := fun as => hc _
  rw [newGSPFSProofBase_ok, simGSPFS, hv]
  simp only [hch, L.mult_pe, L.commitR_pe, L.add_pe, Go.bind_ok, Go.pure_eq, hb]
  have e1 : (z.val : Int) • b = ((↑z.val - c * (x % (cp.C.N : Int))) % (cp.C.N : Int)) • b +
      c • x • b := by
    rw [L.smul_mod, sub_smul, mul_smul, L.smul_mod]; module
  rw [← e1]

example : (∀ arr, generateChallenge (fun _ => [4]) Toy.params arr = 4) ∧
    Toy.lawful.MultOk (Toy.lawful.g) :=
  ⟨fun _ => by rfl, (Toy.lawful.multOk_iff_eff _).2 Toy.lawful.eff_g⟩

/-- What a user wants from an accepted GSPFS proof of `A`: whoever made it knows the discrete
logarithm of `A` to the base G, that is an accepted proof can only be made by a procedure from which
the logarithm can be had.  This procedure makes proofs from `A` alone.  See gspfs.go:72-98. -/
def forgeGSPFS (hash : Bytes → Bytes) (cp : Params) (A : ECPoint) (u : Int) : Go (Option GSPFSProof) := do
  let T ← mult cp A (some u)
  let c ← challengeOf hash cp [A, T]
  pure (some ⟨A, T, some (u - c), some c⟩)

/-- C84 is false: for every curve point, `forgeGSPFS` makes accepted proofs out of the point alone,
because the base is taken from the proof and neither checked nor hashed. -/
theorem C84_refuted (L : Lawful cp E) (hash : Bytes → Bytes) (a : E) (u : Int) :
    ∃ pr, forgeGSPFS hash cp (L.pe a) u = .ok pr ∧
      gspfsVerify hash cp pr (L.pe a) = .ok accept := by
  refine ⟨_, by simp [forgeGSPFS, L.mult_pe, L.challengeOf₂]; rfl, ?_⟩
  refine (L.gspfsVerify_pe_iff ..).2 ⟨rfl, L.same_iff.2 (Or.inl ?_)⟩
  module

/-- C84, what holds: if the caller checks that the base of the proof is G, two accepted proofs give
the logarithm to the base G.  Missing: `Verify` does not make this check. -/
theorem C84_checked_base_partial (L : Lawful cp E) (hash hash' : Bytes → Bytes) (a : E)
    (p p' : GSPFSProof) (tx ty s c s' c' : Int)
    (hp : p = ⟨cp.G, pt tx ty, some s, some c⟩) (hp' : p' = ⟨cp.G, pt tx ty, some s', some c'⟩)
    (h : gspfsVerify hash cp (some p) (L.pe a) = .ok accept)
    (h' : gspfsVerify hash' cp (some p') (L.pe a) = .ok accept)
    (hc : ¬ c ≡ c' [ZMOD cp.C.N]) (hc' : ¬ c ≡ -c' [ZMOD cp.C.N]) (ha : L.MultOk a) :
    ∃ w ∈ [L.inv (c - c') * (s' - s), L.inv (c + c') * (-s - s')], a = w • L.g := by
  subst hp hp'
  rw [L.G_pe] at h h'
  obtain ⟨w, hw, _, h2⟩ := C29_special_soundness L hash hash' L.g a tx ty s c s' c' h h' hc hc'
  exact ⟨w, hw, h2 ha ((L.multOk_iff_eff _).2 L.eff_g)⟩

/-- C86 as a user needs it: an accepted proof consists of curve points.  See gspfs.go:72-98. -/
def GSPFSOnCurve (L : Lawful cp E) : Prop :=
  ∀ (hash : Bytes → Bytes) (p : GSPFSProof) (a : E),
    gspfsVerify hash cp (some p) (L.pe a) = .ok accept → ∃ t : E, p.RandCommit = L.pe t

/-- C86 is false: any second coordinate in the random commitment will do. -/
theorem C86_refuted (L : Lawful cp E) (hash : Bytes → Bytes) (a t : E) (y x : Int)
    (ha : L.eff a = x • L.g) (k : Int) (ht : t = k • L.g) :
    (∃ s c, gspfsVerify hash cp (some ⟨cp.G, pt (L.enc t).1 y, some s, some c⟩) (L.pe a) =
      .ok accept) ∧ ¬ GSPFSOnCurve L := by
  have key : ∀ (hash : Bytes → Bytes) (a t : E) (y x : Int), L.eff a = x • L.g → ∀ k : Int,
      t = k • L.g → ∃ s c, gspfsVerify hash cp
        (some ⟨cp.G, pt (L.enc t).1 y, some s, some c⟩) (L.pe a) = .ok accept := by
    intro hash a t y x ha k ht
    let c := generateChallenge hash cp [L.bytes a, intBytes (L.enc t).1 ++ intBytes y]
    refine ⟨k - c * x, c, ?_⟩
    rw [L.G_pe, L.gspfsVerify_iff]
    refine ⟨rfl, ?_⟩
    rw [L.eff_g, ha, ht]
    congr 2
    module
  refine ⟨key hash a t y x ha k ht, fun h => ?_⟩
  obtain ⟨s, c, h1⟩ := key hash L.g L.g (-1) 1 (by rw [L.eff_g, one_smul]) 1 (by rw [one_smul])
  obtain ⟨t, ht⟩ := h hash _ _ h1
  simp only [Lawful.pe, pt, ECPoint.mk.injEq, Option.some.injEq] at ht
  have := (L.enc_nonneg t).2
  omega

example : Toy.lawful.eff Toy.lawful.g = (1 : Int) • Toy.lawful.g := by
  rw [Toy.lawful.eff_g, one_smul]

/-! ## Equivalence -/

/-- C32 as a user needs it.  See equivalence.go:38-79. -/
def EquivalenceComplete (L : Lawful cp E) : Prop :=
  ∀ (hash : Bytes → Bytes) (b1 b2 r1 r2 : E) (x u : Int),
    mult cp (L.pe b1) (some x) = .ok (L.pe r1) → mult cp (L.pe b2) (some x) = .ok (L.pe r2) →
    Succeeds (newEquivalenceProof hash cp (L.pe b1) (L.pe r1) (L.pe b2) (L.pe r2) x u)
      fun p => equivalenceVerify hash cp p (L.pe b1) (L.pe r1) (L.pe b2) (L.pe r2)

theorem newEquivalenceProof_ok (L : Lawful cp E) (hash : Bytes → Bytes) (b1 r1 b2 r2 : E)
    (x u : Int) (h1 : r1 = x • L.eff b1) (h2 : r2 = x • L.eff b2) :
    newEquivalenceProof hash cp (L.pe b1) (L.pe r1) (L.pe b2) (L.pe r2) x u =
      .ok (some ⟨L.pe (u • L.eff b1), L.pe (u • L.eff b2),
        some (L.chal hash [b1, r1, b2, r2, u • L.eff b1, u • L.eff b2]),
        some ((u + L.chal hash [b1, r1, b2, r2, u • L.eff b1, u • L.eff b2] *
          (x % (cp.C.N : Int))) % (cp.C.N : Int))⟩, none) := by
  simp [newEquivalenceProof, L.equal_pe, L.same_self, L.mult_pe, L.challengeOf₆, L.smul_mod, h1, h2]

/-- C32, what holds: the proof verifies if `Mult` is scalar multiplication at the two results.
Missing: results equal to -G, H or -H. -/
theorem C32_completeness_partial (L : Lawful cp E) (hash : Bytes → Bytes) (b1 b2 r1 r2 : E)
    (x u : Int) (h1 : mult cp (L.pe b1) (some x) = .ok (L.pe r1))
    (h2 : mult cp (L.pe b2) (some x) = .ok (L.pe r2)) (o1 : L.MultOk r1) (o2 : L.MultOk r2) :
    Succeeds (newEquivalenceProof hash cp (L.pe b1) (L.pe r1) (L.pe b2) (L.pe r2) x u)
      fun p => equivalenceVerify hash cp p (L.pe b1) (L.pe r1) (L.pe b2) (L.pe r2) := by
  rw [L.mult_pe, Go.ok.injEq, L.pe_inj] at h1 h2
  refine ⟨_, newEquivalenceProof_ok L hash b1 r1 b2 r2 x u h1.symm h2.symm, ?_⟩
  rw [L.multOk_iff_eff] at o1 o2
  refine (L.equivalenceVerify_iff ..).2 ⟨rfl, L.same_iff.2 (Or.inl ?_), L.same_iff.2 (Or.inl ?_)⟩
  · rw [o1, L.smul_mod, add_smul, mul_smul, L.smul_mod, h1]
  · rw [o2, L.smul_mod, add_smul, mul_smul, L.smul_mod, h2]

example : mult Toy.params (Toy.lawful.pe 3) (some 6) = .ok (Toy.lawful.pe 4) ∧
    mult Toy.params (Toy.lawful.pe 4) (some 6) = .ok (Toy.lawful.pe 3) ∧
    Toy.lawful.MultOk 4 ∧ Toy.lawful.MultOk 3 := by
  rw [Toy.lawful.mult_pe, Toy.lawful.mult_pe, Toy.lawful.multOk_iff_eff, Toy.lawful.multOk_iff_eff,
    Toy.eff_plain 3 (by decide), Toy.eff_plain 4 (by decide)]
  decide

/-- C32 is false on every lawful curve: with G as both bases and -G as both results. -/
theorem C32_refuted (L : Lawful cp E) : ¬ EquivalenceComplete L := by
  intro h
  have hm : mult cp (L.pe L.g) (some (-1)) = .ok (L.pe (-L.g)) := by
    rw [L.mult_pe, L.eff_g, neg_smul, one_smul]
  obtain ⟨pr, h1, h2⟩ := h (fun _ => [1]) L.g L.g (-L.g) (-L.g) (-1) 1 hm hm
  have hr : -L.g = (-1 : Int) • L.eff L.g := by rw [L.eff_g, neg_smul, one_smul]
  rw [newEquivalenceProof_ok L _ _ _ _ _ _ _ hr hr, chal_const, Go.ok.injEq, Prod.mk.injEq,
    Option.some.injEq] at h1
  rw [← h1.1, L.equivalenceVerify_iff, L.same_iff] at h2
  have h3 := h2.2.1
  rw [L.eff_neg_g, L.eff_g, L.smul_mod, add_smul, mul_smul, L.smul_mod] at h3
  have h4 : (2 : Int) • L.g = 0 := by
    rcases h3 with h3 | h3
    · linear_combination (norm := module) -h3
    · linear_combination (norm := module) h3
  have := Int.le_of_dvd (by norm_num) ((L.smul_eq_zero L.g_ne).1 h4)
  have := L.five_lt
  omega

/-- C33. A wrong witness for either pair is refused, and no proof is returned. -/
theorem C33_refuses (L : Lawful cp E) (hash : Bytes → Bytes) (b1 r1 b2 r2 q1 q2 : E) (x u : Int)
    (m1 : mult cp (L.pe b1) (some x) = .ok (L.pe q1))
    (m2 : mult cp (L.pe b2) (some x) = .ok (L.pe q2))
    (h : (r1 ≠ q1 ∧ r1 ≠ -q1) ∨ (r2 ≠ q2 ∧ r2 ≠ -q2)) :
    ∃ e, newEquivalenceProof hash cp (L.pe b1) (L.pe r1) (L.pe b2) (L.pe r2) x u =
      .ok (none, some e) := by
  rw [L.mult_pe, Go.ok.injEq, L.pe_inj] at m1 m2
  simp only [newEquivalenceProof, L.mult_pe, L.equal_pe, L.smul_mod, m1, m2, Go.bind_ok]
  by_cases e1 : L.same q1 r1 = true
  · have e2 : L.same q2 r2 = false := by
      rw [Bool.eq_false_iff, Ne, L.same_iff]
      rw [L.same_iff] at e1
      rintro (h2 | h2) <;> rcases e1 with e1 | e1 <;> rcases h with ⟨p, q⟩ | ⟨p, q⟩ <;> subst_vars <;>
        simp_all
    simp [e1, e2]
  · simp [Bool.eq_false_iff.2 e1]

example : mult Toy.params (Toy.lawful.pe 3) (some 6) = .ok (Toy.lawful.pe 4) ∧
    (1 : ZMod 7) ≠ 4 ∧ (1 : ZMod 7) ≠ -4 := by
  rw [Toy.lawful.mult_pe, Toy.eff_plain 3 (by decide)]; decide

/-- Existence of a common logarithm up to sign, between the points that `Mult` multiplies.
See equivalence.go:84-122. -/
def RelatedUpToSign (L : Lawful cp E) (b1 r1 b2 r2 : E) (x : Int) : Prop :=
  L.eff r1 = x • L.eff b1 ∧ (L.eff r2 = x • L.eff b2 ∨ L.eff r2 = -(x • L.eff b2))

/-- C34. Three accepted proofs for one statement and one pair of random commitments, with different
challenges, under any hash functions: one of the explicit quotients of two of them relates both
pairs, up to a sign in the second.  Where `Mult` is scalar multiplication at the four points, this
is about the points themselves. -/
theorem C34_soundness (L : Lawful cp E) (hash : Fin 3 → Bytes → Bytes) (b1 r1 b2 r2 t1 t2 : E)
    (c s : Fin 3 → Int) (hc : Function.Injective c)
    (h : ∀ i, equivalenceVerify (hash i) cp (some ⟨L.pe t1, L.pe t2, some (c i), some (s i)⟩)
      (L.pe b1) (L.pe r1) (L.pe b2) (L.pe r2) = .ok accept) :
    ∃ i j, i ≠ j ∧ ∃ x ∈ L.extract (s i) (c i) (s j) (c j),
      RelatedUpToSign L b1 r1 b2 r2 x ∧
      (L.MultOk b1 → L.MultOk r1 → L.MultOk b2 → L.MultOk r2 →
        r1 = x • b1 ∧ (r2 = x • b2 ∨ r2 = -(x • b2))) := by
  simp only [L.equivalenceVerify_iff] at h
  have hr : ∀ i, 0 ≤ c i ∧ c i < cp.C.N := fun i => (h i).1 ▸ L.chal_range _ _
  have h1 := fun i => L.same_sign (h i).2.1
  have h2 := fun i => L.same_sign (h i).2.2
  choose e he e1 using h1
  choose f hf f1 using h2
  obtain ⟨i, j, hij, hs⟩ := sign_pigeonhole (fun i => e i * f i) fun i => (he i).mul (hf i)
  have hd := Lawful.not_dvd_of_ne (hr i) (hr j) fun h => hij (hc h)
  have k1 : L.eff r1 = (L.inv (c i - c j) * (e i * s i - e j * s j)) • L.eff b1 :=
    L.extract_eq (t := t1) hd (by rw [e1 i, mul_smul]) (by rw [e1 j, mul_smul])
  have k2 : L.eff r2 = (L.inv (c i - c j) * (f i * s i - f j * s j)) • L.eff b2 :=
    L.extract_eq (t := t2) hd (by rw [f1 i, mul_smul]) (by rw [f1 j, mul_smul])
  have hrel : RelatedUpToSign L b1 r1 b2 r2 (L.inv (c i - c j) * (e i * s i - e j * s j)) := by
    refine ⟨k1, ?_⟩
    have hsg := sign_products (he i) (hf i) (he j) (hf j) hs
    rcases hsg with ⟨p, q⟩ | ⟨p, q⟩
    · left; rw [k2, p, q]
    · right; rw [k2, p, q, ← neg_smul]; congr 1; ring
  refine ⟨i, j, hij, _, L.mem_extract (he i) (he j), hrel, fun o1 o2 o3 o4 => ?_⟩
  rw [L.multOk_iff_eff] at o1 o2 o3 o4
  simpa only [RelatedUpToSign, o1, o2, o3, o4] using hrel

/-- Hypotheses of C34: honest proofs with one `u` and three challenges. -/
example : ∀ i : Fin 3, equivalenceVerify (fun _ => [UInt8.ofNat i]) Toy.params
    (some ⟨Toy.lawful.pe 3, Toy.lawful.pe 4, some ((i : Nat) : Int), some (1 + 6 * ((i : Nat) : Int))⟩)
    (Toy.lawful.pe 3) (Toy.lawful.pe 4) (Toy.lawful.pe 4) (Toy.lawful.pe 3) = .ok accept := by
  intro i
  refine (Toy.lawful.equivalenceVerify_iff ..).2 ?_
  rw [Toy.eff_plain 3 (by decide), Toy.eff_plain 4 (by decide)]
  fin_cases i <;> exact ⟨by rfl, by decide, by decide⟩

theorem two_lt_encard {α : Type} {s : Set α} :
    2 < s.encard ↔ ∃ a b c, a ∈ s ∧ b ∈ s ∧ c ∈ s ∧ a ≠ b ∧ a ≠ c ∧ b ≠ c := by
  constructor
  · intro h
    have h3 : (3 : ℕ∞) ≤ s.encard := by
      have := Order.add_one_le_of_lt h
      rwa [show (2 : ℕ∞) + 1 = 3 by norm_num] at this
    obtain ⟨t, hts, ht⟩ := Set.exists_subset_encard_eq h3
    obtain ⟨x, y, z, hxy, hyz, hxz, rfl⟩ := Set.encard_eq_three.1 ht
    exact ⟨x, y, z, hts (by simp), hts (by simp), hts (by simp), by assumption, by assumption,
      by assumption⟩
  · rintro ⟨a, b, c, ha, hb, hc, hab, hac, hbc⟩
    have h3 : ({a, b, c} : Set α).encard = 3 := Set.encard_eq_three.2 ⟨a, b, c, hab, by assumption,
      by assumption, rfl⟩
    have hsub : ({a, b, c} : Set α) ⊆ s := by
      intro x hx
      simp only [Set.mem_insert_iff, Set.mem_singleton_iff] at hx
      rcases hx with rfl | rfl | rfl <;> assumption
    have := Set.encard_le_encard hsub
    rw [h3] at this
    exact lt_of_lt_of_le (by norm_num) this

/-- C34, as a bound: a statement that is false even up to sign is accepted for at most two values
of the challenge, for every pair of random commitments. -/
theorem C34_at_most_two_challenges (L : Lawful cp E) (b1 r1 b2 r2 t1 t2 : E)
    (hfalse : ¬ ∃ x, RelatedUpToSign L b1 r1 b2 r2 x) :
    {c : Int | ∃ (hash : Bytes → Bytes) (s : Int),
      equivalenceVerify hash cp (some ⟨L.pe t1, L.pe t2, some c, some s⟩)
        (L.pe b1) (L.pe r1) (L.pe b2) (L.pe r2) = .ok accept}.encard ≤ 2 := by
  by_contra hcon
  obtain ⟨a, b, d, ha, hb, hd, hab, had, hbd⟩ := two_lt_encard.1 (not_le.1 hcon)
  obtain ⟨ha', sa, ha⟩ := ha
  obtain ⟨hb', sb, hb⟩ := hb
  obtain ⟨hd', sd, hd⟩ := hd
  obtain ⟨i, j, _, x, _, hx, _⟩ := C34_soundness L ![ha', hb', hd'] b1 r1 b2 r2 t1 t2 ![a, b, d]
    ![sa, sb, sd] (by
      intro i j hij
      fin_cases i <;> fin_cases j <;> simp_all)
    (by intro i; fin_cases i <;> assumption)
  exact hfalse ⟨x, hx⟩

/-- A statement false even up to sign. -/
example : ¬ ∃ x, RelatedUpToSign Toy.lawful 3 3 3 1 x := by
  rintro ⟨x, h1, h2⟩
  rw [Toy.eff_plain 3 (by decide), show Toy.lawful.eff 1 = 1 from Toy.lawful.eff_g] at *
  rw [← h1] at h2
  revert h2
  decide

/-- C35 as a user needs it: for a statement with different logarithms, every pair of random
commitments is accepted for at most two challenges.  See equivalence.go:84-122. -/
def EquivalenceSound (L : Lawful cp E) : Prop :=
  ∀ (b1 r1 b2 r2 t1 t2 : E), (¬ ∃ x : Int, r1 = x • b1 ∧ r2 = x • b2) →
    {c : Int | ∃ (hash : Bytes → Bytes) (s : Int),
      equivalenceVerify hash cp (some ⟨L.pe t1, L.pe t2, some c, some s⟩)
        (L.pe b1) (L.pe r1) (L.pe b2) (L.pe r2) = .ok accept}.encard ≤ 2

/-- A cheating prover for `Result1 = x*Base1`, `Result2 = -x*Base2`: it answers every challenge.
See equivalence.go:84-122. -/
def forgeEquivalence (hash : Bytes → Bytes) (cp : Params) (B1 R1 B2 R2 : ECPoint) (x u : Int) :
    Go (Option EquivalenceProof) := do
  let T1 ← mult cp B1 (some u)
  let T2 ← mult cp B2 (some (-u))
  let c ← challengeOf hash cp [B1, R1, B2, R2, T1, T2]
  pure (some ⟨T1, T2, some c, some (u + c * x)⟩)

/-- The cheating prover is accepted, always. -/
theorem C35_forgery (L : Lawful cp E) (hash : Bytes → Bytes) (b1 b2 : E) (x u : Int)
    (o1 : L.MultOk b1) (o2 : L.MultOk b2) (o3 : L.MultOk (x • b1)) (o4 : L.MultOk (-(x • b2))) :
    ∃ pr, forgeEquivalence hash cp (L.pe b1) (L.pe (x • b1)) (L.pe b2) (L.pe (-(x • b2))) x u =
        .ok pr ∧
      equivalenceVerify hash cp pr (L.pe b1) (L.pe (x • b1)) (L.pe b2) (L.pe (-(x • b2))) =
        .ok accept := by
  rw [L.multOk_iff_eff] at o1 o2 o3 o4
  refine ⟨_, by simp [forgeEquivalence, L.mult_pe, L.challengeOf₆]; rfl, ?_⟩
  refine (L.equivalenceVerify_iff ..).2 ⟨rfl, L.same_iff.2 (Or.inl ?_), L.same_iff.2 (Or.inr ?_)⟩
  · rw [o1, o3, o2]; module
  · rw [o4, o2, o1]; module

example : Toy.lawful.MultOk 3 ∧ Toy.lawful.MultOk ((1 : Int) • (3 : ZMod 7)) ∧
    Toy.lawful.MultOk (-((1 : Int) • (3 : ZMod 7))) := by
  simp only [Toy.lawful.multOk_iff_eff]
  exact ⟨Toy.eff_plain 3 (by decide), Toy.eff_plain _ (by decide), Toy.eff_plain _ (by decide)⟩

/-- C35 is false on every lawful curve: every challenge is answered for a statement whose
logarithms are 1 and -1. -/
theorem C35_refuted (L : Lawful cp E) : ¬ EquivalenceSound L := by
  intro h
  obtain ⟨b, hb, h1, h2⟩ := L.exists_plain
  have hno : ¬ ∃ x : Int, b = x • b ∧ -b = x • b := by
    rintro ⟨x, hx, hx'⟩
    exact hb (L.neg_eq_self (hx.trans hx'.symm))
  have hle := h b b b (-b) b (-b) hno
  have hN := L.five_lt
  have hall : ∀ n : Nat, n < 3 → ((n : Int)) ∈ {c : Int | ∃ (hash : Bytes → Bytes) (s : Int),
      equivalenceVerify hash cp (some ⟨L.pe b, L.pe (-b), some c, some s⟩)
        (L.pe b) (L.pe b) (L.pe b) (L.pe (-b)) = .ok accept} := by
    intro n hn
    refine ⟨fun _ => [UInt8.ofNat n], 1 + n, ?_⟩
    have hch : ∀ as, L.chal (fun _ => [UInt8.ofNat n]) as = n := by
      intro as
      rw [Lawful.chal, generateChallenge]
      have : setBytes [UInt8.ofNat n] = n := by
        simp [setBytes, UInt8.toNat_ofNat']; omega
      rw [this]
      exact Int.emod_eq_of_lt (by omega) (by omega)
    refine (L.equivalenceVerify_iff ..).2 ⟨hch _, L.same_iff.2 (Or.inl ?_), L.same_iff.2 (Or.inr ?_)⟩
    · rw [h1]; module
    · rw [h1, h2]; module
  exact absurd hle (not_le.2 (two_lt_encard.2 ⟨0, 1, 2, hall 0 (by omega), hall 1 (by omega),
    hall 2 (by omega), by decide, by decide, by decide⟩))

/-- A simulator of equivalence proofs, without `x`.  See equivalence.go:38-79. -/
def simEquivalence (cp : Params) (B1 R1 B2 R2 : ECPoint) (c s : Int) :
    Go (Option EquivalenceProof × Option Err) := do
  let a ← mult cp B1 (some s)
  let b ← commitR cp R1 c
  let T1 ← sub cp a b
  let a ← mult cp B2 (some s)
  let b ← commitR cp R2 c
  let T2 ← sub cp a b
  pure (some ⟨T1, T2, some c, some s⟩, none)

theorem val_shift (N : Nat) [NeZero N] (z : ZMod N) (k : Int) :
    ((((Equiv.addRight ((k : Int) : ZMod N)) z).val : Nat) : Int) = ((z.val : Int) + k) % (N : Int) := by
  have : (Equiv.addRight ((k : Int) : ZMod N)) z = (((z.val : Int) + k : Int) : ZMod N) := by
    rw [Equiv.coe_addRight]; push_cast; rw [ZMod.natCast_zmod_val]
  rw [this, val_intCast]

theorem add_mul_mod_emod (a c x n : Int) : (a + c * (x % n)) % n = (a + c * x) % n := by
  rw [Int.add_emod, Int.mul_emod, Int.emod_emod, ← Int.mul_emod, ← Int.add_emod]

theorem add_mod_mul_emod (a c x n : Int) : (a + x % n * c) % n = (a + x * c) % n := by
  rw [mul_comm, add_mul_mod_emod, mul_comm]

/-- C36. With any challenge value in place of the hash, the proofs over all draws are those that the
simulator makes from uniform responses without knowing `x`. -/
theorem C36_simulatable (L : Lawful cp E) (hash : Bytes → Bytes) (c : Int)
    (hc : ∀ arr, generateChallenge hash cp arr = c) (b1 r1 b2 r2 : E) (x : Int)
    (h1 : mult cp (L.pe b1) (some x) = .ok (L.pe r1))
    (h2 : mult cp (L.pe b2) (some x) = .ok (L.pe r2)) :
    (Multiset.range cp.C.N).map (fun u : Nat =>
        newEquivalenceProof hash cp (L.pe b1) (L.pe r1) (L.pe b2) (L.pe r2) x u) =
    (Multiset.range cp.C.N).map (fun s : Nat =>
        simEquivalence cp (L.pe b1) (L.pe r1) (L.pe b2) (L.pe r2) c s) := by
  have : NeZero cp.C.N := ⟨L.prime.ne_zero⟩
  rw [L.mult_pe, Go.ok.injEq, L.pe_inj] at h1 h2
  refine dist_eq₁ cp.C.N _ _ (Equiv.addRight ((c * x : Int) : ZMod cp.C.N)) fun z => ?_
  have hch : ∀ as, L.chal hash as = c := fun as => hc _
  rw [newEquivalenceProof_ok L hash b1 r1 b2 r2 x _ h1.symm h2.symm, simEquivalence, val_shift]
  simp only [hch, L.mult_pe, L.commitR_pe, L.sub_pe, Go.bind_ok, Go.pure_eq, add_mul_mod_emod,
    L.smul_mod]
  rw [← h1, ← h2]
  congr 4
  · congr 1; module
  · congr 1; module

/-! ## Consistency -/

/-- C37 as a user needs it.  See consistency.go:45-88. -/
def ConsistencyComplete (L : Lawful cp E) : Prop :=
  ∀ (hash : Bytes → Bytes) (pk cm tok : E) (v r u1 u2 : Int),
    pedCommitR cp (some v) (some r) = .ok (L.pe cm) → mult cp (L.pe pk) (some r) = .ok (L.pe tok) →
    Succeeds (newConsistencyProof hash cp (L.pe cm) (L.pe tok) (L.pe pk) v r u1 u2)
      fun p => consistencyVerify hash cp p (L.pe cm) (L.pe tok) (L.pe pk)

theorem newConsistencyProof_ok (L : Lawful cp E) (hash : Bytes → Bytes) (cm tok pk : E)
    (v r u1 u2 : Int) (h1 : cm = v • L.g + r • L.hb) (h2 : tok = r • L.eff pk) :
    newConsistencyProof hash cp (L.pe cm) (L.pe tok) (L.pe pk) v r u1 u2 =
      .ok (some ⟨L.pe (u1 • L.g + u2 • L.hb), L.pe (u2 • L.eff pk),
        some (L.chal hash [L.g, L.h, cm, tok, pk, u1 • L.g + u2 • L.hb, u2 • L.eff pk]),
        some ((u1 + v * L.chal hash
          [L.g, L.h, cm, tok, pk, u1 • L.g + u2 • L.hb, u2 • L.eff pk]) % (cp.C.N : Int)),
        some ((u2 + r * L.chal hash
          [L.g, L.h, cm, tok, pk, u1 • L.g + u2 • L.hb, u2 • L.eff pk]) % (cp.C.N : Int))⟩, none) := by
  simp [newConsistencyProof, L.equal_pe, L.same_self, L.mult_pe, L.G_pe, L.H_pe, L.challengeOf₇,
    L.pedCommitR_pe, ← h1, ← h2, add_mod_mul_emod]

/-- C37, what holds: the proof verifies if `Mult` is scalar multiplication at the commitment and at
the token.  Missing: commitments and tokens equal to -G, H or -H. -/
theorem C37_completeness_partial (L : Lawful cp E) (hash : Bytes → Bytes) (pk cm tok : E)
    (v r u1 u2 : Int) (h1 : pedCommitR cp (some v) (some r) = .ok (L.pe cm))
    (h2 : mult cp (L.pe pk) (some r) = .ok (L.pe tok)) (o1 : L.MultOk cm) (o2 : L.MultOk tok) :
    Succeeds (newConsistencyProof hash cp (L.pe cm) (L.pe tok) (L.pe pk) v r u1 u2)
      fun p => consistencyVerify hash cp p (L.pe cm) (L.pe tok) (L.pe pk) := by
  rw [L.pedCommitR_pe, Go.ok.injEq, L.pe_inj] at h1
  rw [L.mult_pe, Go.ok.injEq, L.pe_inj] at h2
  refine ⟨_, newConsistencyProof_ok L hash cm tok pk v r u1 u2 h1.symm h2.symm, ?_⟩
  rw [L.multOk_iff_eff] at o1 o2
  refine (L.consistencyVerify_iff ..).2 ⟨rfl, L.same_iff.2 (Or.inl ?_), L.same_iff.2 (Or.inl ?_)⟩
  · rw [o1, L.smul_mod, L.smul_mod, ← h1]; module
  · rw [o2, L.smul_mod, ← h2]; module

example : pedCommitR Toy.params (some 6) (some 6) = .ok (Toy.lawful.pe 3) ∧
    mult Toy.params (Toy.lawful.pe 3) (some 6) = .ok (Toy.lawful.pe 4) ∧
    Toy.lawful.MultOk 3 ∧ Toy.lawful.MultOk 4 := by
  rw [Toy.lawful.mult_pe, Toy.lawful.pedCommitR_pe, Toy.lawful.multOk_iff_eff,
    Toy.lawful.multOk_iff_eff, Toy.eff_plain 3 (by decide), Toy.eff_plain 4 (by decide)]
  decide

/-- C37 is false on every lawful curve: the value -1 with blinding factor 0. -/
theorem C37_refuted (L : Lawful cp E) : ¬ ConsistencyComplete L := by
  intro h
  have hm : mult cp (L.pe L.g) (some 0) = .ok (L.pe 0) := by rw [L.mult_pe, zero_smul]
  have hp : pedCommitR cp (some (-1)) (some 0) = .ok (L.pe (-L.g)) := by
    rw [L.pedCommitR_pe]; congr 2; module
  obtain ⟨pr, h1, h2⟩ := h (fun _ => [1]) L.g (-L.g) 0 (-1) 0 1 0 hp hm
  rw [newConsistencyProof_ok L _ _ _ _ _ _ _ _ (by module) (by module), chal_const, Go.ok.injEq,
    Prod.mk.injEq, Option.some.injEq] at h1
  rw [← h1.1, L.consistencyVerify_iff, L.same_iff] at h2
  have h3 := h2.2.1
  rw [L.eff_neg_g, L.smul_mod, L.smul_mod] at h3
  have h4 : (2 : Int) • L.g = 0 := by
    rcases h3 with h3 | h3
    · linear_combination (norm := module) -h3
    · linear_combination (norm := module) h3
  have := Int.le_of_dvd (by norm_num) ((L.smul_eq_zero L.g_ne).1 h4)
  have := L.five_lt
  omega

/-- C38. A wrong opening of the commitment or a wrong token is refused. -/
theorem C38_refuses (L : Lawful cp E) (hash : Bytes → Bytes) (cm tok pk q1 q2 : E)
    (v r u1 u2 : Int) (m1 : pedCommitR cp (some v) (some r) = .ok (L.pe q1))
    (m2 : mult cp (L.pe pk) (some r) = .ok (L.pe q2))
    (h : (cm ≠ q1 ∧ cm ≠ -q1) ∨ (tok ≠ q2 ∧ tok ≠ -q2)) :
    Refuses (newConsistencyProof hash cp (L.pe cm) (L.pe tok) (L.pe pk) v r u1 u2) := by
  rw [L.pedCommitR_pe, Go.ok.injEq, L.pe_inj] at m1
  rw [L.mult_pe, Go.ok.injEq, L.pe_inj] at m2
  simp only [newConsistencyProof, L.pedCommitR_pe, L.mult_pe, L.equal_pe, m1, m2, Go.bind_ok]
  by_cases e1 : L.same cm q1 = true
  · have e2 : L.same tok q2 = false := by
      rw [Bool.eq_false_iff, Ne, L.same_iff]
      rw [L.same_iff] at e1
      tauto
    simp [e1, e2, Refuses]
  · simp [Bool.eq_false_iff.2 e1, Refuses]

/-- C39. Three accepted proofs for one statement and one pair of random commitments, with different
challenges, give `v` and `r` by explicit formulas from two of them: the commitment opens to `(v, r)`
and the token is `r` times the key up to sign.  As in C34, the points are the ones `Mult`
multiplies. -/
theorem C39_soundness (L : Lawful cp E) (hash : Fin 3 → Bytes → Bytes) (cm tok pk t1 t2 : E)
    (c s1 s2 : Fin 3 → Int) (hc : Function.Injective c)
    (h : ∀ i, consistencyVerify (hash i) cp
      (some ⟨L.pe t1, L.pe t2, some (c i), some (s1 i), some (s2 i)⟩)
      (L.pe cm) (L.pe tok) (L.pe pk) = .ok accept) :
    ∃ i j, i ≠ j ∧ ∃ v ∈ L.extract (s1 i) (c i) (s1 j) (c j),
      ∃ r ∈ L.extract (s2 i) (c i) (s2 j) (c j),
        (L.eff cm = v • L.g + r • L.hb ∧
          (L.eff tok = r • L.eff pk ∨ L.eff tok = -(r • L.eff pk))) ∧
        (L.MultOk cm → L.MultOk tok → L.MultOk pk →
          pedCommitR cp (some v) (some r) = .ok (L.pe cm) ∧ (tok = r • pk ∨ tok = -(r • pk))) := by
  simp only [L.consistencyVerify_iff] at h
  have hr : ∀ i, 0 ≤ c i ∧ c i < cp.C.N := fun i => (h i).1 ▸ L.chal_range _ _
  have h1 := fun i => L.same_sign (h i).2.1
  have h2 := fun i => L.same_sign (h i).2.2
  choose e he e1 using h1
  choose f hf f1 using h2
  obtain ⟨i, j, hij, hs⟩ := sign_pigeonhole (fun i => e i * f i) fun i => (he i).mul (hf i)
  have hd := Lawful.not_dvd_of_ne (hr i) (hr j) fun h => hij (hc h)
  have k1 : L.eff cm = (L.inv (c i - c j) * (e i * s1 i - e j * s1 j)) • L.g +
      (L.inv (c i - c j) * (e i * s2 i - e j * s2 j)) • L.hb := by
    have h3 : (c i - c j) • L.eff cm = (e i * s1 i - e j * s1 j) • L.g +
        (e i * s2 i - e j * s2 j) • L.hb := by
      linear_combination (norm := module) e1 i - e1 j
    rw [mul_smul, mul_smul, ← smul_add, ← h3, L.inv_smul hd]
  have k2 : L.eff tok = (L.inv (c i - c j) * (f i * s2 i - f j * s2 j)) • L.eff pk :=
    L.extract_eq (t := t2) hd (by rw [f1 i, mul_smul]) (by rw [f1 j, mul_smul])
  have k3 : L.eff tok = (L.inv (c i - c j) * (e i * s2 i - e j * s2 j)) • L.eff pk ∨
      L.eff tok = -((L.inv (c i - c j) * (e i * s2 i - e j * s2 j)) • L.eff pk) := by
    have hsg := sign_products (he i) (hf i) (he j) (hf j) hs
    rcases hsg with ⟨p, q⟩ | ⟨p, q⟩
    · left; rw [k2, p, q]
    · right; rw [k2, p, q, ← neg_smul]; congr 1; ring
  refine ⟨i, j, hij, _, L.mem_extract (he i) (he j), _, L.mem_extract (he i) (he j), ⟨k1, k3⟩,
    fun o1 o2 o3 => ?_⟩
  rw [L.multOk_iff_eff] at o1 o2 o3
  rw [o1] at k1
  rw [o2, o3] at k3
  exact ⟨by rw [L.pedCommitR_pe, ← k1], k3⟩

/-- Hypotheses of C39: honest proofs with one `u1`, `u2` and three challenges. -/
example : ∀ i : Fin 3, consistencyVerify (fun _ => [UInt8.ofNat i]) Toy.params
    (some ⟨Toy.lawful.pe 3, Toy.lawful.pe 3, some ((i : Nat) : Int), some (6 * ((i : Nat) : Int)),
      some (1 + 6 * ((i : Nat) : Int))⟩)
    (Toy.lawful.pe 3) (Toy.lawful.pe 4) (Toy.lawful.pe 3) = .ok accept := by
  intro i
  refine (Toy.lawful.consistencyVerify_iff ..).2 ?_
  rw [Toy.eff_plain 3 (by decide), Toy.eff_plain 4 (by decide)]
  fin_cases i <;> exact ⟨by rfl, by decide, by decide⟩

/-- A simulator of consistency proofs, without `v` and `r`.  See consistency.go:45-88. -/
def simConsistency (cp : Params) (CM CMTok PubKey : ECPoint) (c s1 s2 : Int) :
    Go (Option ConsistencyProof × Option Err) := do
  let a ← pedCommitR cp (some s1) (some s2)
  let b ← commitR cp CM c
  let T1 ← sub cp a b
  let a ← mult cp PubKey (some s2)
  let b ← commitR cp CMTok c
  let T2 ← sub cp a b
  pure (some ⟨T1, T2, some c, some s1, some s2⟩, none)

/-- C40. With any challenge value in place of the hash, the proofs over all draws are those that the
simulator makes from uniform responses without knowing `v` and `r`. -/
theorem C40_simulatable (L : Lawful cp E) (hash : Bytes → Bytes) (c : Int)
    (hc : ∀ arr, generateChallenge hash cp arr = c) (cm tok pk : E) (v r : Int)
    (h1 : pedCommitR cp (some v) (some r) = .ok (L.pe cm))
    (h2 : mult cp (L.pe pk) (some r) = .ok (L.pe tok)) :
    (Multiset.range cp.C.N ×ˢ Multiset.range cp.C.N).map (fun u : Nat × Nat =>
        newConsistencyProof hash cp (L.pe cm) (L.pe tok) (L.pe pk) v r u.1 u.2) =
    (Multiset.range cp.C.N ×ˢ Multiset.range cp.C.N).map (fun s : Nat × Nat =>
        simConsistency cp (L.pe cm) (L.pe tok) (L.pe pk) c s.1 s.2) := by
  have : NeZero cp.C.N := ⟨L.prime.ne_zero⟩
  rw [L.pedCommitR_pe, Go.ok.injEq, L.pe_inj] at h1
  rw [L.mult_pe, Go.ok.injEq, L.pe_inj] at h2
  refine dist_eq₂ cp.C.N _ _ ((Equiv.addRight ((v * c : Int) : ZMod cp.C.N)).prodCongr
    (Equiv.addRight ((r * c : Int) : ZMod cp.C.N))) fun z => ?_
  have hch : ∀ as, L.chal hash as = c := fun as => hc _
  rw [newConsistencyProof_ok L hash cm tok pk v r _ _ h1.symm h2.symm, simConsistency]
  simp only [Equiv.prodCongr_apply, Prod.map_fst, Prod.map_snd, val_shift]
  simp only [hch, L.mult_pe, L.pedCommitR_pe, L.commitR_pe, L.sub_pe, Go.bind_ok, Go.pure_eq,
    L.smul_mod]
  rw [← h1, ← h2]
  congr 4
  · congr 1; module
  · congr 1; module

end Zk.Proto
