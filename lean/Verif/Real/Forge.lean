import Verif.Range.Props2
import Verif.Proto.SigmaProps
import Verif.Curve.Props

/-!
# Properties C142, C143: proofs of false statements and the two bases for H

`Mult` treats H as another point (C62), also in the verifiers of range proofs and of equivalence proofs.
-/

namespace Zk.Real

open Zk Zk.Field Zk.Curve Zk.Proto

/-- A program of an attacker, which uses what the library offers: the points of the tuples are those of a proof for
2^40 - 1 without randomness, but for H in the first one (specification; for the verifier of
rangeproof.go:239-322). -/
def forgeRange (hash : Bytes → Bytes) (cp : Params) : Go RangeProof := do
  let c ← (List.range 40).mapM fun i => do
    let p ← hpoint cp i
    if i = 0 then add cp p cp.H else pure p
  let d ← hashPoint hash Zero
  let Rs ← c.mapM fun p => mult cp p (some d)
  let e ← hashAll hash Rs
  let total ← c.foldlM (fun acc p => add cp acc p) Zero
  pure ⟨total, some e, c.zipIdx.map fun p => ⟨p.1, some (if p.2 = 0 then e else 0)⟩⟩

variable {cp : Params} {E : Type} [AddCommGroup E]

/-- The points of the forged proof (specification; rangeproof.go:22-36). -/
def forgedPoint (L : Lawful cp E) (i : Nat) : E := (2 ^ i : Int) • L.g + if i = 0 then L.h else 0

theorem foldlM_add_pe (L : Lawful cp E) (as : List E) (b : E) :
    (as.map L.pe).foldlM (fun acc p => add cp acc p) (L.pe b) = .ok (L.pe (b + as.sum)) := by
  induction as generalizing b with
  | nil => simp
  | cons a as ih =>
    simp only [List.map_cons, List.foldlM_cons, L.add_pe, Go.bind_ok, ih, List.sum_cons, add_assoc]

/-- On every curve the forged proof is accepted for (2^40 - 1) G + H. -/
theorem C142_forged (L : Lawful cp E) (hash : Bytes → Bytes) : ∃ pr : RangeProof,
    forgeRange hash cp = .ok pr ∧ pr.ProofTuples.length = 40 ∧
    rangeVerify hash cp (some pr) (L.pe ((2 ^ 40 - 1 : Int) • L.g + L.h)) = .ok accept := by
  have h1 : ((List.range 40).mapM fun i => do
      let p ← hpoint cp i
      if i = 0 then add cp p cp.H else pure p) = .ok (((List.range 40).map (forgedPoint L)).map L.pe) := by
    rw [List.map_map]
    refine mapM_ok_iff _ _ _ fun i hi => ?_
    rw [L.hpoint_pe (by have := List.mem_range.1 hi; omega), Go.bind_ok]
    by_cases h : i = 0
    · subst h
      rw [if_pos rfl, L.H_pe, L.add_pe]
      simp [forgedPoint]
    · rw [if_neg h]
      simp [forgedPoint, h]
  have h2 : (((List.range 40).map (forgedPoint L)).map L.pe).mapM (fun p => mult cp p (some (L.hp hash 0))) =
      .ok (((List.range 40).map fun i => L.hp hash 0 • L.eff (forgedPoint L i)).map L.pe) := by
    rw [List.map_map, List.mapM_map, List.map_map]
    refine mapM_ok_iff _ _ _ fun i _ => ?_
    exact L.mult_pe _ _
  set e := L.hps hash ((List.range 40).map fun i => L.hp hash 0 • L.eff (forgedPoint L i)) with he
  have hsum : ((List.range 40).map (forgedPoint L)).sum = (2 ^ 40 - 1 : Int) • L.g + L.h := by
    simp [forgedPoint, List.range_succ]
    module
  have h3 : forgeRange hash cp = .ok ⟨L.pe ((List.range 40).map (forgedPoint L)).sum, some e,
      (List.range 40).map fun i => ⟨L.pe (forgedPoint L i), some (if i = 0 then e else 0)⟩⟩ := by
    unfold forgeRange
    rw [h1, Go.bind_ok, ← L.pe_zero, L.hashPoint_pe, Go.bind_ok, h2, Go.bind_ok, L.hashAll_pe, Go.bind_ok,
      foldlM_add_pe, Go.bind_ok, zero_add, List.map_map, zipIdx_map_range, List.map_map]
    rfl
  refine ⟨_, h3, by simp, ?_⟩
  rw [rangeVerify_pe L hash 40 (by norm_num)]
  have hT : ∀ i, ((if i = 0 then e else 0) : Int) • L.hb -
      e • L.eff (forgedPoint L i - (2 ^ i : Int) • L.g) = 0 := by
    intro i
    by_cases h : i = 0
    · simp [forgedPoint, h, L.eff_h]
    · simp [forgedPoint, h, L.eff_zero]
  have hs : ∀ a : E, L.same a a = true := fun a => L.same_iff.2 (.inl rfl)
  simp only [hT, ← he, ne_eq, not_true_eq_false, if_false, hsum, hs, Bool.true_eq_false]

/-- The logarithm of `TestCurve.H` (C61), plus 2^40 - 1 (specification; zksigma.go:49-59). -/
def forgedValue : Int := 0x94e35037c3705ca047e88b2bd1f3207987dba1fb4c817b9ebc943566dd637134 + (2 ^ 40 - 1)

theorem h_eq_smul : lawful.h =
    (0x94e35037c3705ca047e88b2bd1f3207987dba1fb4c817b9ebc943566dd637134 : Int) • lawful.g := by
  have := (C61_logarithms_partial
    0x94e35037c3705ca047e88b2bd1f3207987dba1fb4c817b9ebc943566dd637134).2 (Int.ModEq.refl _)
  rw [lawful.G_pe, lawful.H_pe, lawful.mult_pe, Go.ok.injEq, lawful.pe_inj, lawful.eff_g] at this
  exact this.symm

/-- C142, false on `TestCurve`: a short program, which knows nothing secret and works for every hash function, makes
accepted range proofs of the usual 40 tuples for a commitment that it can open.  Its value is not in the range,
not even up to its sign and modulo N. -/
theorem C142_refuted : ∃ cp, testCurve = .ok cp ∧ ∃ comm : ECPoint,
    pedCommitR cp (some forgedValue) (some 0) = .ok comm ∧
    (∀ w : Int, 0 ≤ w → w < 2 ^ 40 →
      ¬ w ≡ forgedValue [ZMOD cp.C.N] ∧ ¬ w ≡ -forgedValue [ZMOD cp.C.N]) ∧
    ∀ hash, ∃ pr : RangeProof, forgeRange hash cp = .ok pr ∧ pr.ProofTuples.length = 40 ∧
      rangeVerify hash cp (some pr) comm = .ok accept := by
  refine ⟨tc, testCurve_eq, _, lawful.pedCommitR_pe _ _, fun w h0 h1 => ⟨?_, ?_⟩, fun hash => ?_⟩
  · have hN : (tc.C.N : Int) = (curveN : Int) := rfl
    rw [hN, curveN, forgedValue, Int.ModEq]
    omega
  · have hN : (tc.C.N : Int) = (curveN : Int) := rfl
    rw [hN, curveN, forgedValue, Int.ModEq]
    omega
  · obtain ⟨pr, h1, h2, h3⟩ := C142_forged lawful hash
    refine ⟨pr, h1, h2, ?_⟩
    have hv : forgedValue • lawful.g + (0 : Int) • lawful.hb = (2 ^ 40 - 1 : Int) • lawful.g + lawful.h := by
      rw [h_eq_smul, forgedValue, zero_zsmul, add_zero, add_zsmul, add_comm]
    rw [hv]
    exact h3

/-! ## C143 -/

/-- On every curve the library makes an accepted proof that Mult(H, 1) has the same logarithm to the base H as G to
the base G. -/
theorem C143_made (L : Lawful cp E) (hash : Bytes → Bytes) (u : Int) (o : L.hb ≠ L.g ∧ L.hb ≠ -L.g)
    (o' : L.hb ≠ L.h ∧ L.hb ≠ -L.h) : mult cp cp.H (some 1) = .ok (L.pe L.hb) ∧
    Succeeds (newEquivalenceProof hash cp cp.H (L.pe L.hb) cp.G cp.G 1 u)
      fun p => equivalenceVerify hash cp p cp.H (L.pe L.hb) cp.G cp.G := by
  rw [L.G_pe, L.H_pe]
  have h1 : mult cp (L.pe L.h) (some 1) = .ok (L.pe L.hb) := by
    rw [L.mult_pe, L.eff_h, one_smul]
  refine ⟨h1, C32_completeness_partial L hash _ _ _ _ 1 u h1 ?_ ?_ ?_⟩
  · rw [L.mult_pe, L.eff_g, one_smul]
  · rw [L.multOk_iff_eff, Lawful.eff, if_neg (by tauto), if_neg (by tauto)]
  · rw [L.multOk_iff_eff, L.eff_g]

/-- The two logarithms differ, also up to signs. -/
theorem C143_false (L : Lawful cp E) (k : Int) (hk : L.h = k • L.g) (o' : L.hb ≠ L.h ∧ L.hb ≠ -L.h) :
    ¬ ∃ x : Int, (L.hb = x • L.h ∨ L.hb = -(x • L.h)) ∧ (L.g = x • L.g ∨ L.g = -(x • L.g)) := by
  rintro ⟨x, h1, h2⟩
  have h3 : x • L.h = L.h ∨ x • L.h = -L.h := by
    rw [hk, smul_comm]
    rcases h2 with h2 | h2
    · exact .inl (by rw [← h2])
    · exact .inr (by rw [← neg_eq_iff_eq_neg.2 h2, smul_neg])
  rcases h3 with h3 | h3 <;> rw [h3] at h1
  · tauto
  · rw [neg_neg] at h1; tauto

theorem Hb_ne_G : Hb ≠ G ∧ Hb ≠ -G := x_ne (by rw [enc_G, enc_Hb]; decide +kernel)

/-- C143, false on `TestCurve`: for every hash function and every random number, `NewEquivalenceProof` makes an
accepted proof that log_H(R) = log_G(G), though no number is both logarithms, not even up to signs. -/
theorem C143_refuted : ∃ cp, testCurve = .ok cp ∧ cp.G = mkPt (enc G) ∧ cp.H = mkPt (enc H) ∧ ∃ R : Curve.E,
    mult cp cp.H (some 1) = .ok (mkPt (enc R)) ∧
    (¬ ∃ x : Int, (R = x • H ∨ R = -(x • H)) ∧ (G = x • G ∨ G = -(x • G))) ∧
    ∀ hash u, Succeeds (newEquivalenceProof hash cp cp.H (mkPt (enc R)) cp.G cp.G 1 u)
      fun p => equivalenceVerify hash cp p cp.H (mkPt (enc R)) cp.G cp.G :=
  ⟨tc, testCurve_eq, lawful.G_pe, lawful.H_pe, Hb, (C143_made lawful (fun _ => []) 0 Hb_ne_G Hb_ne_H).1,
    C143_false lawful _ h_eq_smul Hb_ne_H, fun hash u => (C143_made lawful hash u Hb_ne_G Hb_ne_H).2⟩

/-- C143, what holds: if `Mult` is scalar multiplication at the two bases, a proof is made only if the witness is the
logarithm of both results, up to signs.  Missing: the bases -G, H and -H. -/
theorem C143_witness_partial (L : Lawful cp E) (hash : Bytes → Bytes) (b1 r1 b2 r2 : E) (x u : Int)
    (o1 : L.MultOk b1) (o2 : L.MultOk b2) (pr : EquivalenceProof)
    (h : newEquivalenceProof hash cp (L.pe b1) (L.pe r1) (L.pe b2) (L.pe r2) x u = .ok (some pr, none)) :
    (r1 = x • b1 ∨ r1 = -(x • b1)) ∧ (r2 = x • b2 ∨ r2 = -(x • b2)) := by
  rw [L.multOk_iff_eff] at o1 o2
  by_contra hc
  obtain ⟨e, he⟩ := C33_refuses L hash b1 r1 b2 r2 (x • b1) (x • b2) x u (by rw [L.mult_pe, o1])
    (by rw [L.mult_pe, o2]) (by tauto)
  rw [h] at he
  simp at he

example : Toy.lawful.MultOk 3 ∧ ∃ pr,
    newEquivalenceProof (fun _ => []) Toy.params (Toy.lawful.pe 3) (Toy.lawful.pe 4) (Toy.lawful.pe 3)
      (Toy.lawful.pe 4) 6 1 = .ok (some pr, none) := by
  have h3 : Toy.lawful.MultOk 3 := (Toy.lawful.multOk_iff_eff _).2 (Toy.eff_plain _ (by decide))
  have h4 : Toy.lawful.MultOk 4 := (Toy.lawful.multOk_iff_eff _).2 (Toy.eff_plain _ (by decide))
  have hm : mult Toy.params (Toy.lawful.pe 3) (some 6) = .ok (Toy.lawful.pe 4) := by
    rw [Toy.lawful.mult_pe, Toy.eff_plain 3 (by decide)]; decide
  obtain ⟨pr, h, _⟩ := C32_completeness_partial Toy.lawful (fun _ => []) 3 3 4 4 6 1 hm hm h4 h4
  exact ⟨h3, pr, h⟩

end Zk.Real
