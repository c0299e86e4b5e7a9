import Verif.Field.MulLemmas
import Mathlib.Algebra.Order.Ring.Nat
import Mathlib.Tactic.Linarith
import Mathlib.Tactic.IntervalCases

/-!
# Addition, negation, normalisation of field values
-/

set_option linter.unusedSimpArgs false

namespace Zk.Field

theorem add_toNat {x y : UInt32} {c m n : ℕ} (hx : x.toNat ≤ m * c) (hy : y.toNat ≤ n * c)
    (h : (m + n) * c < 2 ^ 32) :
    (x + y).toNat = x.toNat + y.toNat ∧ (x + y).toNat ≤ (m + n) * c := by
  have e : (m + n) * c = m * c + n * c := by ring
  rw [UInt32.toNat_add, Nat.mod_eq_of_lt (by omega)]
  omega

theorem add2_spec {f g : FieldVal} {m n : ℕ} (hf : Mag f m) (hg : Mag g n) (h : m + n ≤ 63) :
    val (add2 f g) = val f + val g ∧ Mag (add2 f g) (m + n) := by
  have k1 : (m + n) * (2 ^ 26 + 2 ^ 20) < 2 ^ 32 := by omega
  have k2 : (m + n) * 2 ^ 22 < 2 ^ 32 := (Nat.mul_le_mul_right _ h).trans_lt (by norm_num)
  obtain ⟨e0, b0⟩ := add_toNat hf.h0 hg.h0 k1
  obtain ⟨e1, b1⟩ := add_toNat hf.h1 hg.h1 k1
  obtain ⟨e2, b2⟩ := add_toNat hf.h2 hg.h2 k1
  obtain ⟨e3, b3⟩ := add_toNat hf.h3 hg.h3 k1
  obtain ⟨e4, b4⟩ := add_toNat hf.h4 hg.h4 k1
  obtain ⟨e5, b5⟩ := add_toNat hf.h5 hg.h5 k1
  obtain ⟨e6, b6⟩ := add_toNat hf.h6 hg.h6 k1
  obtain ⟨e7, b7⟩ := add_toNat hf.h7 hg.h7 k1
  obtain ⟨e8, b8⟩ := add_toNat hf.h8 hg.h8 k1
  obtain ⟨e9, b9⟩ := add_toNat hf.h9 hg.h9 k2
  refine ⟨?_, ⟨b0, b1, b2, b3, b4, b5, b6, b7, b8, b9⟩⟩
  simp only [val, add2, e0, e1, e2, e3, e4, e5, e6, e7, e8, e9]
  ring

theorem add_spec {f g : FieldVal} {m n : ℕ} (hf : Mag f m) (hg : Mag g n) (h : m + n ≤ 63) :
    val (add f g) = val f + val g ∧ Mag (add f g) (m + n) := add2_spec hf hg h

theorem addInt_spec {f : FieldVal} {m : ℕ} {u : UInt64} (hf : Mag f m) (hu : u.toNat ≤ 2 ^ 26)
    (h : m + 1 ≤ 63) :
    val (addInt f u) = val f + u.toNat ∧ Mag (addInt f u) (m + 1) := by
  have k1 : (m + 1) * (2 ^ 26 + 2 ^ 20) < 2 ^ 32 := by omega
  have hu' : u.toUInt32.toNat = u.toNat := by
    rw [UInt64.toNat_toUInt32]; omega
  obtain ⟨e0, b0⟩ := add_toNat (y := u.toUInt32) (n := 1) hf.h0 (by omega) k1
  have hf' := hf.mono (n := m + 1) (by omega)
  refine ⟨?_, ⟨b0, hf'.h1, hf'.h2, hf'.h3, hf'.h4, hf'.h5, hf'.h6, hf'.h7, hf'.h8, hf'.h9⟩⟩
  simp only [val, addInt, e0, hu']
  ring

theorem mul32_toNat {x u : UInt32} {c k m : ℕ} (hx : x.toNat ≤ m * c) (hu : u.toNat = k)
    (h : k * m * c < 2 ^ 32) :
    (x * u).toNat = k * x.toNat ∧ (x * u).toNat ≤ k * m * c := by
  have : x.toNat * k ≤ k * m * c := by
    calc x.toNat * k ≤ m * c * k := Nat.mul_le_mul_right _ hx
      _ = k * m * c := by ring
  rw [UInt32.toNat_mul, hu, Nat.mod_eq_of_lt (by omega)]
  exact ⟨Nat.mul_comm _ _, this⟩

theorem mulInt_spec {f : FieldVal} {m : ℕ} {k : UInt64} (hf : Mag f m) (hk : k.toNat < 2 ^ 32)
    (h : k.toNat * m ≤ 63) :
    val (mulInt f k) = k.toNat * val f ∧ Mag (mulInt f k) (k.toNat * m) := by
  have k1 : k.toNat * m * (2 ^ 26 + 2 ^ 20) < 2 ^ 32 := by omega
  have k2 : k.toNat * m * 2 ^ 22 < 2 ^ 32 := (Nat.mul_le_mul_right _ h).trans_lt (by norm_num)
  have hu : k.toUInt32.toNat = k.toNat := by
    rw [UInt64.toNat_toUInt32]; omega
  obtain ⟨e0, b0⟩ := mul32_toNat hf.h0 hu k1
  obtain ⟨e1, b1⟩ := mul32_toNat hf.h1 hu k1
  obtain ⟨e2, b2⟩ := mul32_toNat hf.h2 hu k1
  obtain ⟨e3, b3⟩ := mul32_toNat hf.h3 hu k1
  obtain ⟨e4, b4⟩ := mul32_toNat hf.h4 hu k1
  obtain ⟨e5, b5⟩ := mul32_toNat hf.h5 hu k1
  obtain ⟨e6, b6⟩ := mul32_toNat hf.h6 hu k1
  obtain ⟨e7, b7⟩ := mul32_toNat hf.h7 hu k1
  obtain ⟨e8, b8⟩ := mul32_toNat hf.h8 hu k1
  obtain ⟨e9, b9⟩ := mul32_toNat hf.h9 hu k2
  refine ⟨?_, ⟨b0, b1, b2, b3, b4, b5, b6, b7, b8, b9⟩⟩
  simp only [val, mulInt, e0, e1, e2, e3, e4, e5, e6, e7, e8, e9]
  ring

theorem neg_toNat {k w x : UInt32} {c : ℕ} (hk : k.toNat ≤ 62) (hw : w.toNat ≤ c)
    (hx : x.toNat ≤ (k.toNat + 1) * w.toNat) (h : (k.toNat + 1) * c < 2 ^ 32) :
    ((k + 1) * w - x).toNat + x.toNat = (k.toNat + 1) * w.toNat ∧
    ((k + 1) * w - x).toNat ≤ (k.toNat + 1) * c := by
  have e1 : (k + 1).toNat = k.toNat + 1 := by
    rw [UInt32.toNat_add]; exact Nat.mod_eq_of_lt (by show _ + 1 < _; omega)
  have le : (k.toNat + 1) * w.toNat ≤ (k.toNat + 1) * c := Nat.mul_le_mul_left _ hw
  have e2 : ((k + 1) * w).toNat = (k.toNat + 1) * w.toNat := by
    rw [UInt32.toNat_mul, e1]; exact Nat.mod_eq_of_lt (by omega)
  have e3 : ((k + 1) * w - x).toNat = ((k + 1) * w).toNat - x.toNat :=
    UInt32.toNat_sub_of_le _ _ (by rw [UInt32.le_iff_toNat_le, e2]; exact hx)
  rw [e3, e2]
  omega

theorem negateVal_spec {f : FieldVal} {m : ℕ} {k : UInt32} (hf : Mag f m) (hm : m ≤ k.toNat)
    (hk : k.toNat ≤ 62) :
    val (negateVal f k) + val f = (k.toNat + 1) * P ∧ Mag (negateVal f k) (k.toNat + 1) := by
  have hf := hf.mono hm
  have k1 : (k.toNat + 1) * (2 ^ 26 + 2 ^ 20) < 2 ^ 32 := by omega
  have k2 : (k.toNat + 1) * 2 ^ 22 < 2 ^ 32 :=
    (Nat.mul_le_mul_right _ (Nat.succ_le_succ hk)).trans_lt (by norm_num)
  have w0 : fieldPrimeWordZero.toNat = 2 ^ 26 - 977 := rfl
  have w1 : fieldPrimeWordOne.toNat = 2 ^ 26 - 65 := rfl
  have w2 : fieldBaseMask.toNat = 2 ^ 26 - 1 := rfl
  have w9 : fieldMSBMask.toNat = 2 ^ 22 - 1 := rfl
  obtain ⟨e0, b0⟩ := neg_toNat (w := fieldPrimeWordZero) (x := f.n0) hk (by rw [w0]; omega)
    (by rw [w0]; have := hf.h0; clear * - this hk; norm_num at this ⊢; linarith) k1
  obtain ⟨e1, b1⟩ := neg_toNat (w := fieldPrimeWordOne) (x := f.n1) hk (by rw [w1]; omega)
    (by rw [w1]; have := hf.h1; clear * - this hk; norm_num at this ⊢; linarith) k1
  obtain ⟨e2, b2⟩ := neg_toNat (w := fieldBaseMask) (x := f.n2) hk (by rw [w2]; omega)
    (by rw [w2]; have := hf.h2; clear * - this hk; norm_num at this ⊢; linarith) k1
  obtain ⟨e3, b3⟩ := neg_toNat (w := fieldBaseMask) (x := f.n3) hk (by rw [w2]; omega)
    (by rw [w2]; have := hf.h3; clear * - this hk; norm_num at this ⊢; linarith) k1
  obtain ⟨e4, b4⟩ := neg_toNat (w := fieldBaseMask) (x := f.n4) hk (by rw [w2]; omega)
    (by rw [w2]; have := hf.h4; clear * - this hk; norm_num at this ⊢; linarith) k1
  obtain ⟨e5, b5⟩ := neg_toNat (w := fieldBaseMask) (x := f.n5) hk (by rw [w2]; omega)
    (by rw [w2]; have := hf.h5; clear * - this hk; norm_num at this ⊢; linarith) k1
  obtain ⟨e6, b6⟩ := neg_toNat (w := fieldBaseMask) (x := f.n6) hk (by rw [w2]; omega)
    (by rw [w2]; have := hf.h6; clear * - this hk; norm_num at this ⊢; linarith) k1
  obtain ⟨e7, b7⟩ := neg_toNat (w := fieldBaseMask) (x := f.n7) hk (by rw [w2]; omega)
    (by rw [w2]; have := hf.h7; clear * - this hk; norm_num at this ⊢; linarith) k1
  obtain ⟨e8, b8⟩ := neg_toNat (w := fieldBaseMask) (x := f.n8) hk (by rw [w2]; omega)
    (by rw [w2]; have := hf.h8; clear * - this hk; norm_num at this ⊢; linarith) k1
  obtain ⟨e9, b9⟩ := neg_toNat (w := fieldMSBMask) (x := f.n9) hk (by rw [w9]; omega)
    (by rw [w9]; have := hf.h9; clear * - this hk; norm_num at this ⊢; linarith) k2
  refine ⟨?_, ⟨b0, b1, b2, b3, b4, b5, b6, b7, b8, b9⟩⟩
  rw [w0] at e0
  rw [w1] at e1
  rw [w2] at e2 e3 e4 e5 e6 e7 e8
  rw [w9] at e9
  have hP : P = (2 ^ 26 - 977) + (2 ^ 26 - 65) * 2 ^ 26 + (2 ^ 26 - 1) * 2 ^ 52 +
      (2 ^ 26 - 1) * 2 ^ 78 + (2 ^ 26 - 1) * 2 ^ 104 + (2 ^ 26 - 1) * 2 ^ 130 +
      (2 ^ 26 - 1) * 2 ^ 156 + (2 ^ 26 - 1) * 2 ^ 182 + (2 ^ 26 - 1) * 2 ^ 208 +
      (2 ^ 22 - 1) * 2 ^ 234 := by decide
  rw [hP]
  simp only [val, negateVal]
  linear_combination e0 + 2 ^ 26 * e1 + 2 ^ 52 * e2 + 2 ^ 78 * e3 + 2 ^ 104 * e4 + 2 ^ 130 * e5 +
    2 ^ 156 * e6 + 2 ^ 182 * e7 + 2 ^ 208 * e8 + 2 ^ 234 * e9

theorem setInt_spec {u : UInt64} (hu : u.toNat ≤ 2 ^ 26) :
    val (setInt u) = u.toNat ∧ Mag (setInt u) 1 := by
  have hu' : u.toUInt32.toNat = u.toNat := by
    rw [UInt64.toNat_toUInt32]; omega
  constructor
  · simp [val, setInt, zero, hu']
  · constructor <;> (simp [setInt, zero, hu']; try omega)

end Zk.Field
