import Verif.Curve.Rep
import Mathlib.GroupTheory.Perm.Cycle.Type
import Mathlib.GroupTheory.OrderOfElement
import Mathlib.Data.Set.Card
import Mathlib.SetTheory.Cardinal.Finite

/-!
# The group of curve points has prime order N
-/

namespace Zk.Curve

open Zk Zk.Field

theorem curveP_eq : curveP = P := by decide

theorem prime_curveN : Nat.Prime curveN := prime_N

instance : Fact (Nat.Prime curveN) := ⟨prime_curveN⟩

/-- −7 is not a cube: no point has y = 0. -/
theorem no_y_zero {x y : F} (h : y ^ 2 = x ^ 3 + 7) : y ≠ 0 := by
  rintro rfl
  have h7 : x ^ 3 = ((P - 7 : ℕ) : F) := by
    rw [cast_sub (by decide)]
    push_cast
    linear_combination -h
  have hx : x ≠ 0 := by
    rintro rfl
    apply seven_ne
    linear_combination -h
  have h1 : (((powMod (P - 7) ((P - 1) / 3) P : ℕ)) : F) = 1 := by
    rw [powMod_cast (lt_of_le_of_lt (Nat.div_le_self _ _) (by decide +kernel)), ← h7, ← pow_mul,
      show 3 * ((P - 1) / 3) = P - 1 by decide +kernel]
    exact ZMod.pow_card_sub_one_eq_one hx
  rw [show (1 : F) = ((1 : ℕ) : F) from Nat.cast_one.symm, cast_eq] at h1
  revert h1
  decide +kernel

/-- 7 is not a square: no point has x = 0. -/
theorem no_x_zero {x y : F} (h : y ^ 2 = x ^ 3 + 7) : x ≠ 0 := by
  rintro rfl
  have h7 : y ^ 2 = ((7 : ℕ) : F) := by
    push_cast
    linear_combination h
  have hy := no_y_zero h
  have h1 : (((powMod 7 ((P - 1) / 2) P : ℕ)) : F) = 1 := by
    rw [powMod_cast (lt_of_le_of_lt (Nat.div_le_self _ _) (by decide +kernel)), ← h7, ← pow_mul,
      show 2 * ((P - 1) / 2) = P - 1 by decide +kernel]
    exact ZMod.pow_card_sub_one_eq_one hy
  rw [show (1 : F) = ((1 : ℕ) : F) from Nat.cast_one.symm, cast_eq] at h1
  revert h1
  decide +kernel

theorem RepF.y_ne {x y z : F} {A : E} (h : RepF x y z A) : y ≠ 0 := by
  obtain ⟨a, b, h, _, hz, _, rfl⟩ := h
  exact mul_ne_zero (no_y_zero h) (pow_ne_zero _ hz)

theorem RepF.x_ne {x y z : F} {A : E} (h : RepF x y z A) : x ≠ 0 := by
  obtain ⟨a, b, h, _, hz, rfl, _⟩ := h
  exact mul_ne_zero (no_x_zero h) (pow_ne_zero _ hz)

theorem G_on_curve : ((curveGy : ℕ) : F) ^ 2 = ((curveGx : ℕ) : F) ^ 3 + 7 := by
  have : ((curveGy ^ 2 : ℕ) : F) = ((curveGx ^ 3 + 7 : ℕ) : F) := by
    rw [cast_eq]; decide +kernel
  push_cast at this
  exact this

/-- The base point, btcec/btcec.go:938-939. -/
def G : E := mk G_on_curve

/-- The base point as numbers, btcec/btcec.go:938-939. -/
def Gn : ℕ × ℕ × ℕ := (curveGx, curveGy, 1)

theorem Gn_rep : RepN Gn G := by
  refine (RepF.of_mk G_on_curve).congr rfl rfl ?_
  show (1 : F) = ((1 : ℕ) : F)
  rw [Nat.cast_one]

theorem G_ne : G ≠ 0 := mk_ne_zero _

/-- The bits of a number, most significant first, without the leading one (used only to check
data).  See btcec/btcec.go:932-981. -/
def bitsOf (fuel n : ℕ) (acc : List Bool) : List Bool :=
  match fuel with
  | 0 => acc
  | f + 1 => if n ≤ 1 then acc else bitsOf f (n / 2) ((n % 2 == 1) :: acc)

/-- `n • G` computed (used only to check data).  See btcec/btcec.go:932-981. -/
def nmulG (n : ℕ) : Option (ℕ × ℕ × ℕ) := nladder Gn (bitsOf 256 n []) Gn

theorem bitsVal_bitsOf : ∀ (fuel n : ℕ) (acc : List Bool), 1 ≤ n → n < 2 ^ fuel →
    bitsVal (bitsOf fuel n acc) 1 = bitsVal acc n
  | 0, n, acc, h1, h2 => by omega
  | f + 1, n, acc, h1, h2 => by
    rw [bitsOf]
    split_ifs with h
    · rw [show n = 1 by omega]
    · rw [bitsVal_bitsOf f (n / 2) _ (by omega) (by rw [pow_succ] at h2; omega), bitsVal]
      congr 1
      rcases Nat.mod_two_eq_zero_or_one n with h0 | h0
      · simp only [h0]; simp; omega
      · simp only [h0]; simp; omega

theorem nmulG_rep {n : ℕ} (h1 : 1 ≤ n) (h2 : n < 2 ^ 256) {r : ℕ × ℕ × ℕ} (h : nmulG n = some r) :
    RepN r (n • G) := by
  have := nladder_rep Gn_rep _ Gn r 1 (by rw [one_smul]; exact Gn_rep) h
  rwa [bitsVal_bitsOf _ _ _ h1 h2, bitsVal] at this

/-- The test that `n • G` has the given affine coordinates (used only to check data).
See btcec/btcec.go:932-981. -/
def checkMulG (n x y : ℕ) : Bool :=
  match nmulG n with
  | none => false
  | some r => neq r (x, y, 1)

theorem checkMulG_rep {n x y : ℕ} (h1 : 1 ≤ n) (h2 : n < 2 ^ 256) (h : checkMulG n x y = true) :
    RepN (x, y, 1) (n • G) := by
  rw [checkMulG] at h
  cases hr : nmulG n with
  | none => rw [hr] at h; simp at h
  | some r =>
    rw [hr] at h
    exact neq_rep (nmulG_rep h1 h2 hr) (show 1 % P ≠ 0 by decide) h

theorem N_smul_G : curveN • G = 0 := by
  have h1 : RepN (curveGx, P - curveGy, 1) ((curveN - 1) • G) :=
    checkMulG_rep (by decide) (by decide) (by decide +kernel)
  have h2 : RepN (curveGx, P - curveGy, 1) (-G) := by
    refine Gn_rep.neg.congr rfl ?_ rfl
    exact (cast_sub (by decide)).symm
  have h3 : (curveN - 1) • G = -G := h1.unique h2 rfl rfl
  have : curveN • G = (curveN - 1) • G + G := by
    rw [← succ_nsmul]; rfl
  rw [this, h3, neg_add_cancel]

/-- A finite point is determined by x and the parity of y (btcec/pubkey.go:26-47). -/
def code : E → Option (F × Bool)
  | .zero => none
  | .some x y _ => some (x, decide (y.val % 2 = 1))

theorem neg_val {y : F} (hy : y ≠ 0) : (-y).val = P - y.val := by
  have : NeZero y := ⟨hy⟩
  exact ZMod.val_neg_of_ne_zero y

theorem neg_parity {y : F} (hy : y ≠ 0) : (-y).val % 2 ≠ y.val % 2 := by
  rw [neg_val hy]
  have h1 : y.val < P := y.val_lt
  have h2 : P % 2 = 1 := by decide +kernel
  omega

theorem eq_or_neg {x y y' : F} (h : y ^ 2 = x ^ 3 + 7) (h' : y' ^ 2 = x ^ 3 + 7) :
    y' = y ∨ y' = -y := by
  have : (y' - y) * (y' + y) = 0 := by linear_combination h' - h
  rcases mul_eq_zero.1 this with h0 | h0
  · exact .inl (sub_eq_zero.1 h0)
  · exact .inr (by linear_combination h0)

theorem code_inj : Function.Injective code := by
  intro A B h
  rcases point_cases A with rfl | ⟨x, y, hA, rfl⟩ <;> rcases point_cases B with rfl | ⟨x', y', hB, rfl⟩
  · rfl
  · exact absurd h (by simp [code, mk])
  · exact absurd h (by simp [code, mk])
  · simp only [code, mk, Option.some.injEq, Prod.mk.injEq] at h
    obtain ⟨rfl, h⟩ := h
    rw [mk_inj]
    refine ⟨rfl, ?_⟩
    rcases eq_or_neg hA hB with h0 | h0
    · exact h0.symm
    · exfalso
      subst h0
      rw [decide_eq_decide] at h
      have := neg_parity (no_y_zero hA)
      omega

instance : Finite E := Finite.of_injective code code_inj

theorem card_le : Nat.card E ≤ 2 * P + 1 := by
  have h := Nat.card_le_card_of_injective code code_inj
  rwa [Finite.card_option, Nat.card_prod, Nat.card_zmod, show Nat.card Bool = 2 by simp, mul_comm] at h

theorem no_two_torsion {A : E} (h : A + A = 0) : A = 0 := by
  rcases point_cases A with rfl | ⟨x, y, hA, rfl⟩
  · rfl
  · exfalso
    have h1 := eq_neg_of_add_eq_zero_left h
    rw [neg_mk, mk_inj] at h1
    apply no_y_zero hA
    have : (2 : F) * y = 0 := by linear_combination h1.2
    exact (mul_eq_zero.1 this).resolve_left two_ne

theorem order_G : addOrderOf G = curveN := addOrderOf_eq_prime N_smul_G G_ne

theorem card_E : Nat.card E = curveN := by
  have h1 : curveN ∣ Nat.card E := order_G ▸ addOrderOf_dvd_natCard G
  obtain ⟨k, hk⟩ := h1
  have h2 := card_le
  have hpos : 0 < Nat.card E := Nat.card_pos
  have hk3 : k < 3 := by
    by_contra hc
    have : curveN * 3 ≤ 2 * P + 1 := (Nat.mul_le_mul_left _ (not_lt.1 hc)).trans (hk ▸ h2)
    revert this
    decide +kernel
  have hk0 : k ≠ 0 := by rintro rfl; omega
  have hk2 : k ≠ 2 := by
    rintro rfl
    obtain ⟨A, hA⟩ := exists_prime_addOrderOf_dvd_card' (G := E) 2 (hk ▸ Dvd.intro_left _ rfl)
    have h3 : A + A = 0 := by
      rw [← two_nsmul, ← hA]; exact addOrderOf_nsmul_eq_zero A
    rw [no_two_torsion h3, addOrderOf_zero] at hA
    omega
  rw [hk, show k = 1 by omega, mul_one]

theorem N_smul (A : E) : curveN • A = 0 := by
  rw [← card_E]; exact card_nsmul_eq_zero'

theorem mod_N_smul (n : ℕ) (A : E) : (n % curveN) • A = n • A := by
  conv_rhs => rw [← Nat.mod_add_div n curveN, add_nsmul, mul_nsmul, N_smul, nsmul_zero, add_zero]

theorem G_generates (A : E) : ∃ n : ℕ, A = n • G := by
  have h : AddSubgroup.zmultiples G = ⊤ := by
    apply AddSubgroup.eq_top_of_card_eq
    rw [Nat.card_zmultiples, order_G, card_E]
  have hA : A ∈ AddSubgroup.zmultiples G := h ▸ AddSubgroup.mem_top A
  obtain ⟨n, hn⟩ := (mem_multiples_iff_mem_zmultiples).2 hA
  exact ⟨n, hn.symm⟩

end Zk.Curve
