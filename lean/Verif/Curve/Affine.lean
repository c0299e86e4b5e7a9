import Verif.Curve.JacLemmas

/-!
# Affine coordinates: conversions, `IsOnCurve`, `Add`, `Double`
-/

namespace Zk.Curve

open Zk Zk.Field

/-- The coordinates the library uses for a group element: the least non-negative residues of x and
y, and (0, 0) for the point at infinity (the conventional representation, btcec/btcec.go:456-458,
606-608). -/
def enc : E → Int × Int
  | .zero => (0, 0)
  | .some x y _ => ((x.val : Int), (y.val : Int))

theorem enc_zero : enc 0 = (0, 0) := rfl

theorem enc_mk {x y : F} (h : y ^ 2 = x ^ 3 + 7) : enc (mk h) = ((x.val : Int), (y.val : Int)) := rfl

theorem enc_inj (A B : E) (h : enc A = enc B) : A = B := by
  rcases point_cases A with rfl | ⟨x, y, hA, rfl⟩ <;> rcases point_cases B with rfl | ⟨x', y', hB, rfl⟩
  · rfl
  · rw [enc_zero, enc_mk, Prod.mk.injEq] at h
    exact absurd ((ZMod.val_eq_zero _).1 (by exact_mod_cast h.1.symm)) (no_x_zero hB)
  · rw [enc_zero, enc_mk, Prod.mk.injEq] at h
    exact absurd ((ZMod.val_eq_zero _).1 (by exact_mod_cast h.1)) (no_x_zero hA)
  · rw [enc_mk, enc_mk, Prod.mk.injEq] at h
    exact mk_inj.2 ⟨ZMod.val_injective _ (by exact_mod_cast h.1), ZMod.val_injective _ (by exact_mod_cast h.2)⟩

theorem enc_nonneg (A : E) : 0 ≤ (enc A).1 ∧ 0 ≤ (enc A).2 := by
  rcases point_cases A with rfl | ⟨x, y, hA, rfl⟩
  · rw [enc_zero]; exact ⟨le_rfl, le_rfl⟩
  · rw [enc_mk]; exact ⟨Int.natCast_nonneg _, Int.natCast_nonneg _⟩

theorem enc_lt (A : E) : (enc A).1 < curveP ∧ (enc A).2 < curveP := by
  rw [curveP_eq]
  rcases point_cases A with rfl | ⟨x, y, hA, rfl⟩
  · rw [enc_zero]; exact ⟨by decide, by decide⟩
  · rw [enc_mk]; exact ⟨Int.ofNat_lt.2 x.val_lt, Int.ofNat_lt.2 y.val_lt⟩

theorem enc_x (A B : E) : (enc A).1 = (enc B).1 ↔ A = B ∨ A = -B := by
  rcases point_cases A with rfl | ⟨x, y, hA, rfl⟩ <;> rcases point_cases B with rfl | ⟨x', y', hB, rfl⟩
  · simp
  · rw [enc_zero, enc_mk, neg_mk]
    constructor
    · intro h
      exact absurd ((ZMod.val_eq_zero _).1 (Int.ofNat_inj.1 h.symm)) (no_x_zero hB)
    · rintro (h | h)
      · exact absurd h.symm (mk_ne_zero _)
      · exact absurd h.symm (mk_ne_zero _)
  · rw [enc_zero, enc_mk, neg_zero, or_self]
    constructor
    · intro h
      exact absurd ((ZMod.val_eq_zero _).1 (Int.ofNat_inj.1 h)) (no_x_zero hA)
    · intro h; exact absurd h (mk_ne_zero _)
  · rw [enc_mk, enc_mk, neg_mk, mk_inj, mk_inj]
    constructor
    · intro h
      have hx : x = x' := ZMod.val_injective _ (Int.ofNat_inj.1 h)
      subst hx
      rcases eq_or_neg hB hA with h | h
      · exact .inl ⟨rfl, h⟩
      · exact .inr ⟨rfl, h⟩
    · rintro (⟨rfl, _⟩ | ⟨rfl, _⟩) <;> rfl

theorem enc_neg (A : E) : enc (-A) = ((enc A).1, (-(enc A).2) % (curveP : Int)) := by
  rw [curveP_eq]
  rcases point_cases A with rfl | ⟨x, y, hA, rfl⟩
  · rw [neg_zero, enc_zero]; rfl
  · rw [neg_mk, enc_mk, enc_mk, neg_val (no_y_zero hA)]
    have h1 : y.val < P := y.val_lt
    have h2 : 0 < y.val := Nat.pos_of_ne_zero (mt (ZMod.val_eq_zero _).1 (no_y_zero hA))
    refine Prod.ext rfl ?_
    show ((P - y.val : ℕ) : Int) = (-(y.val : Int)) % (P : Int)
    rw [← Int.add_emod_right, Int.emod_eq_of_lt] <;> omega

/-! ### Conversions -/

theorem isZero_R {f : FieldVal} (h : isZero f = true) : R f 1 0 := by
  have : f = zero := by
    rw [← equals_iff]
    simp only [isZero, decide_eq_true_eq, or_eq_zero] at h
    simp only [equals, decide_eq_true_eq, or_eq_zero, xor_eq_zero, zero]
    exact h
  rw [this]; exact Nm_zero.R

/-- Conversion to affine coordinates, for any coordinates. -/
theorem toAffine {p : Jac} {X Y Z : F} {m n k : ℕ} (hx : R p.x m X) (hy : R p.y n Y) (hz : R p.z k Z)
    (hm : m ≤ 8) (hn : n ≤ 8) (hk : k ≤ 8) :
    fieldJacobianToBigAffine p =
      (((X * (Z⁻¹) ^ 2).val : Int), ((Y * (Z⁻¹) ^ 3).val : Int)) := by
  have hi := hz.inverse hk
  have ht := hi.squareVal (by decide)
  have h1 := (hx.mul ht hm (by decide)).normalize (by decide)
  have h2 := (hy.mul (ht.mul hi (by decide) (by decide)) hn (by decide)).normalize (by decide)
  refine Prod.ext ?_ ?_
  · exact congrArg Nat.cast h1.bytes
  · refine (congrArg Nat.cast h2.bytes).trans ?_
    rw [show Y * (Z⁻¹ ^ 2 * Z⁻¹) = Y * Z⁻¹ ^ 3 by ring]

theorem JR.affine {p : Jac} {A : E} (h : JR p A) : fieldJacobianToBigAffine p = enc A := by
  rcases h with ⟨rfl, hx, hy, Z, hz⟩ | ⟨X, Y, Z, hx, hy, hz, a, b, hab, rfl, hZ, rfl, rfl⟩
  · rw [toAffine (isZero_R hx) (isZero_R hy) hz (by decide) (by decide) (by decide), zero_mul,
      zero_mul, enc_zero, ZMod.val_zero]
    rfl
  · rw [toAffine hx hy hz (by decide) (by decide) (by decide), enc_mk]
    have e1 : a * Z ^ 2 * Z⁻¹ ^ 2 = a := by field_simp
    have e2 : b * Z ^ 3 * Z⁻¹ ^ 3 = b := by field_simp
    rw [e1, e2]

/-- Conversion from integer coordinates of at most 32 bytes. -/
theorem bigAffine_ok {x y : Int} (hx : x.natAbs < 2 ^ 256) (hy : y.natAbs < 2 ^ 256) :
    ∃ f g, bigAffineToField x y = .ok (f, g) ∧ (Canon f ∧ val f = x.natAbs) ∧
      (Canon g ∧ val g = y.natAbs) := by
  obtain ⟨f, hf, hf'⟩ := setByteSlice_ok (b := intBytes x) (natBytes_length_le (k := 32) (by
    rw [show (256 : ℕ) ^ 32 = 2 ^ 256 by norm_num]; exact hx))
  obtain ⟨g, hg, hg'⟩ := setByteSlice_ok (b := intBytes y) (natBytes_length_le (k := 32) (by
    rw [show (256 : ℕ) ^ 32 = 2 ^ 256 by norm_num]; exact hy))
  rw [setBytes_intBytes] at hf' hg'
  refine ⟨f, g, ?_, hf', hg'⟩
  rw [bigAffineToField, hf, hg]; rfl

theorem canon_R {f : FieldVal} {n : ℕ} (h : Canon f ∧ val f = n) : R f 1 (n : F) :=
  ⟨h.1.mag, by rw [fz, h.2]⟩

/-- Conversion of the coordinates of a finite point. -/
theorem bigAffine_mk {x y : F} :
    ∃ f g, bigAffineToField (x.val : Int) (y.val : Int) = .ok (f, g) ∧ R f 1 x ∧ R g 1 y := by
  have hP : P < 2 ^ 256 := by decide
  obtain ⟨f, g, h, hf, hg⟩ := bigAffine_ok (x := (x.val : Int)) (y := (y.val : Int))
    (by have := x.val_lt; omega) (by have := y.val_lt; omega)
  refine ⟨f, g, h, (canon_R hf).congr ?_, (canon_R hg).congr ?_⟩
  · rw [Int.natAbs_natCast, ZMod.natCast_zmod_val]
  · rw [Int.natAbs_natCast, ZMod.natCast_zmod_val]

theorem JR_of_mk {f g z : FieldVal} {x y : F} (hf : R f 1 x) (hg : R g 1 y) (hz : R z 1 1)
    (h : y ^ 2 = x ^ 3 + 7) : JR ⟨f, g, z⟩ (mk h) :=
  .inr ⟨x, y, 1, hf, hg.mono (by decide), hz, RepF.of_mk h⟩

/-! ### The exported operations -/

theorem isOnCurve_spec {x y : Int} (hx : x.natAbs < 2 ^ 256) (hy : y.natAbs < 2 ^ 256) :
    isOnCurve x y = .ok (decide ((y.natAbs : F) ^ 2 = (x.natAbs : F) ^ 3 + 7)) := by
  obtain ⟨f, g, h, hf, hg⟩ := bigAffine_ok hx hy
  have rf := canon_R hf
  have rg := canon_R hg
  rw [isOnCurve, h]
  have h1 := (rg.squareVal (by decide)).normalize (by decide)
  have h2 := (((rf.squareVal (by decide)).mul rf (by decide) (by decide)).addInt (u := 7)
    (by decide) (by decide)).normalize (by decide)
  show Go.ok _ = _
  rw [h1.equals h2]
  have : ((x.natAbs : F) ^ 2 * (x.natAbs : F) + ((7 : UInt64).toNat : F)) = (x.natAbs : F) ^ 3 + 7 := by
    rw [show (7 : UInt64).toNat = 7 from rfl]; push_cast; ring
  rw [this]

theorem isOnCurve_enc (A : E) (hA : A ≠ 0) : isOnCurve (enc A).1 (enc A).2 = .ok true := by
  rcases point_cases A with rfl | ⟨x, y, h, rfl⟩
  · exact absurd rfl hA
  · have hP : P < 2 ^ 256 := by decide
    rw [enc_mk, isOnCurve_spec (by have := x.val_lt; simp only [Int.natAbs_natCast]; omega)
      (by have := y.val_lt; simp only [Int.natAbs_natCast]; omega), Int.natAbs_natCast,
      Int.natAbs_natCast, ZMod.natCast_zmod_val, ZMod.natCast_zmod_val]
    simpa using h

theorem isOnCurve_zero : isOnCurve 0 0 = .ok false := by
  rw [isOnCurve_spec (by decide) (by decide)]
  simpa using seven_ne.symm

theorem add_enc (A B : E) :
    Curve.add (enc A).1 (enc A).2 (enc B).1 (enc B).2 = .ok (enc (A + B)) := by
  rcases point_cases A with rfl | ⟨x, y, hA, rfl⟩
  · rw [zero_add, enc_zero, add, if_pos ⟨rfl, rfl⟩]
  · have hA0 : ¬((enc (mk hA)).1 = 0 ∧ (enc (mk hA)).2 = 0) := fun h =>
      mk_ne_zero hA (enc_inj _ _ (Prod.ext h.1 h.2))
    rcases point_cases B with rfl | ⟨x', y', hB, rfl⟩
    · rw [add_zero, add, if_neg hA0, enc_zero, if_pos ⟨rfl, rfl⟩]
    · have hB0 : ¬((enc (mk hB)).1 = 0 ∧ (enc (mk hB)).2 = 0) := fun h =>
        mk_ne_zero hB (enc_inj _ _ (Prod.ext h.1 h.2))
      rw [add, if_neg hA0, if_neg hB0]
      obtain ⟨f, g, e1, hf, hg⟩ := bigAffine_mk (x := x) (y := y)
      obtain ⟨f', g', e2, hf', hg'⟩ := bigAffine_mk (x := x') (y := y')
      rw [enc_mk, enc_mk, e1, e2]
      exact congrArg Go.ok (addJacobian_spec (JR_of_mk hf hg Nm_one.R hA)
        (JR_of_mk hf' hg' Nm_one.R hB)).1.affine

theorem double_enc (A : E) : double (enc A).1 (enc A).2 = .ok (enc (A + A)) := by
  rcases point_cases A with rfl | ⟨x, y, hA, rfl⟩
  · rw [zero_add, enc_zero, double, if_pos rfl]
  · have h0 : (enc (mk hA)).2 ≠ 0 := by
      rw [enc_mk]; intro h
      exact no_y_zero hA ((ZMod.val_eq_zero _).1 (Int.ofNat_inj.1 h))
    rw [double, if_neg h0]
    obtain ⟨f, g, e1, hf, hg⟩ := bigAffine_mk (x := x) (y := y)
    rw [enc_mk, e1]
    exact congrArg Go.ok (doubleJacobian_spec (JR_of_mk hf hg Nm_one.R hA)).affine

end Zk.Curve
