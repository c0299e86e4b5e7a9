import Verif.Field.ZLemmas
import Verif.Curve.Model
import Mathlib.AlgebraicGeometry.EllipticCurve.Affine.Point
import Mathlib.Tactic.FieldSimp

/-!
# The curve y² = x³ + 7 over the field with p elements
-/

namespace Zk.Curve

open Zk Zk.Field WeierstrassCurve.Affine

/-- The curve y² = x³ + 7, btcec/btcec.go:118 and 937. -/
def W : WeierstrassCurve.Affine F := ⟨0, 0, 0, 0, 7⟩

/-- The group of points, btcec/btcec.go:15-20. -/
abbrev E := W.Point

theorem W_eq {x y : F} : W.Equation x y ↔ y ^ 2 = x ^ 3 + 7 := by
  rw [equation_iff]
  simp [W]

theorem two_ne : (2 : F) ≠ 0 := by decide +kernel
theorem three_ne : (3 : F) ≠ 0 := by decide +kernel
theorem seven_ne : (7 : F) ≠ 0 := by decide +kernel

theorem W_ns {x y : F} (h : y ^ 2 = x ^ 3 + 7) : W.Nonsingular x y := by
  rw [nonsingular_iff, W_eq]
  refine ⟨h, ?_⟩
  simp only [W]
  by_contra hc
  push Not at hc
  obtain ⟨h1, h2⟩ := hc
  have hy : y = 0 := by
    have : (2 : F) * y = 0 := by linear_combination h2
    exact (mul_eq_zero.1 this).resolve_left two_ne
  have hx : x = 0 := by
    have : (3 : F) * x ^ 2 = 0 := by linear_combination -h1
    exact pow_eq_zero_iff (two_ne_zero) |>.1 ((mul_eq_zero.1 this).resolve_left three_ne)
  rw [hx, hy] at h
  apply seven_ne
  linear_combination -h

/-- The point with affine coordinates (x, y), btcec/btcec.go:15-20. -/
def mk {x y : F} (h : y ^ 2 = x ^ 3 + 7) : E := .some x y (W_ns h)

theorem negY_eq (x y : F) : W.negY x y = -y := by simp [negY, W]

theorem ns_eq {x y : F} (h : W.Nonsingular x y) : y ^ 2 = x ^ 3 + 7 := W_eq.1 h.1

theorem point_cases (A : E) : A = 0 ∨ ∃ x y, ∃ h : y ^ 2 = x ^ 3 + 7, A = mk h := by
  cases A with
  | zero => left; rfl
  | some x y h => right; exact ⟨x, y, ns_eq h, rfl⟩

theorem mk_ne_zero {x y : F} (h : y ^ 2 = x ^ 3 + 7) : mk h ≠ 0 := Point.some_ne_zero _

theorem mk_inj {x y x' y' : F} {h : y ^ 2 = x ^ 3 + 7} {h' : y' ^ 2 = x' ^ 3 + 7} :
    mk h = mk h' ↔ x = x' ∧ y = y' := by
  rw [mk, mk, Point.some.injEq]

theorem neg_mk {x y : F} (h : y ^ 2 = x ^ 3 + 7) :
    -mk h = mk (x := x) (y := -y) (by rw [neg_pow_two, h]) := by
  rw [mk, Point.neg_some, mk, Point.some.injEq]
  exact ⟨rfl, negY_eq _ _⟩

theorem mk_add_neg {x y y' : F} (h : y ^ 2 = x ^ 3 + 7) (h' : y' ^ 2 = x ^ 3 + 7) (hy : y ≠ y') :
    mk h + mk h' = 0 := by
  have : y' = -y := by
    have : (y - y') * (y + y') = 0 := by linear_combination h - h'
    rcases mul_eq_zero.1 this with h0 | h0
    · exact absurd (sub_eq_zero.1 h0) hy
    · linear_combination h0
  subst this
  rw [← neg_mk h, add_neg_cancel]

theorem chord_eq {a b c d : F} (h1 : b ^ 2 = a ^ 3 + 7) (h2 : d ^ 2 = c ^ 3 + 7) (hx : a ≠ c) :
    ∃ x y, ∃ h3 : y ^ 2 = x ^ 3 + 7, mk h1 + mk h2 = mk h3 ∧
      x = ((d - b) / (c - a)) ^ 2 - a - c ∧ y = (d - b) / (c - a) * (a - x) - b := by
  have hs : W.slope a c b d = (d - b) / (c - a) := by
    rw [slope_of_X_ne hx, ← neg_sub d b, ← neg_sub c a, neg_div_neg_eq]
  have h := Point.add_of_X_ne (h₁ := W_ns h1) (h₂ := W_ns h2) hx
  refine ⟨_, _, ns_eq (nonsingular_add (W_ns h1) (W_ns h2) fun h => hx h.1), h, ?_, ?_⟩
  · rw [hs]; simp [addX, W]
  · rw [hs]; simp [addX, addY, negAddY, negY, W]; ring

theorem tangent_eq {a b : F} (h1 : b ^ 2 = a ^ 3 + 7) (hb : b ≠ 0) :
    ∃ x y, ∃ h3 : y ^ 2 = x ^ 3 + 7, mk h1 + mk h1 = mk h3 ∧
      x = (3 * a ^ 2 / (2 * b)) ^ 2 - 2 * a ∧ y = 3 * a ^ 2 / (2 * b) * (a - x) - b := by
  have hne : b ≠ W.negY a b := by
    rw [negY_eq]
    intro h
    apply hb
    have : (2 : F) * b = 0 := by linear_combination h
    exact (mul_eq_zero.1 this).resolve_left two_ne
  have hs : W.slope a a b b = 3 * a ^ 2 / (2 * b) := by
    rw [slope_of_Y_ne rfl hne]; simp [negY, W]; ring
  have h := Point.add_of_Y_ne (h₁ := W_ns h1) (h₂ := W_ns h1) hne
  refine ⟨_, _, ns_eq (nonsingular_add (W_ns h1) (W_ns h1) fun h => hne h.2), h, ?_, ?_⟩
  · rw [hs]; simp [addX, W]; ring
  · rw [hs]; simp [addX, addY, negAddY, negY, W]; ring

end Zk.Curve
