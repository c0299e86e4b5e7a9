import Verif.Field.Mag

/-!
# Multiplication and squaring of field values
-/

set_option linter.unusedSimpArgs false

namespace Zk.Field

set_option exponentiation.threshold 600 in
theorem mul_red {a b : FieldVal} (ha : Mag a 8) (hb : Mag b 8) :
    Mag (mul2 a b) 1 ∧ Red (mul2 a b) (val a * val b) := by
  unfold mul2
  extract_lets m0 t0 m1 t1 m2 t2 m3 t3 m4 t4 m5 t5 m6 t6 m7 t7 m8 t8 m9 t9 m10 t10 m11 t11 m12 t12 m13 t13 m14 t14 m15 t15 m16 t16 m17 t17 m18 t18 t19
  have em0 : m0.toNat = a.n0.toNat * b.n0.toNat ∧ m0.toNat < 2 ^ 62 := by
    have p0 := mag_mul_le (x := a.n0) (y := b.n0) ha.h0 hb.h0 le_rfl le_rfl
    simp only [m0, UInt64.toNat_add, toNat_shr26, mul_toNat, Nat.mod_add_mod, true_and]
    clear * - p0
    generalize a.n0.toNat * b.n0.toNat = x0 at *
    omega
  obtain ⟨em0, bm0⟩ := em0
  have es0 : t0.toNat = m0.toNat % 2 ^ 26 := toNat_mask64 _
  have bs0 : t0.toNat < 2 ^ 26 := es0 ▸ mod26_lt _
  have dm0 := Nat.div_add_mod m0.toNat (2 ^ 26)
  rw [← es0] at dm0
  clear_value m0 t0
  have em1 : m1.toNat = m0.toNat / 2 ^ 26 + a.n0.toNat * b.n1.toNat + a.n1.toNat * b.n0.toNat ∧ m1.toNat < 2 ^ 62 := by
    have p0 := mag_mul_le (x := a.n0) (y := b.n1) ha.h0 hb.h1 le_rfl le_rfl
    have p1 := mag_mul_le (x := a.n1) (y := b.n0) ha.h1 hb.h0 le_rfl le_rfl
    simp only [m1, UInt64.toNat_add, toNat_shr26, mul_toNat, Nat.mod_add_mod, true_and]
    clear * - p0 p1 bm0
    generalize a.n0.toNat * b.n1.toNat = x0 at *
    generalize a.n1.toNat * b.n0.toNat = x1 at *
    rw [Nat.mod_eq_of_lt (by omega)]
    omega
  obtain ⟨em1, bm1⟩ := em1
  have es1 : t1.toNat = m1.toNat % 2 ^ 26 := toNat_mask64 _
  have bs1 : t1.toNat < 2 ^ 26 := es1 ▸ mod26_lt _
  have dm1 := Nat.div_add_mod m1.toNat (2 ^ 26)
  rw [← es1] at dm1
  clear_value m1 t1
  have em2 : m2.toNat = m1.toNat / 2 ^ 26 + a.n0.toNat * b.n2.toNat + a.n1.toNat * b.n1.toNat + a.n2.toNat * b.n0.toNat ∧ m2.toNat < 2 ^ 62 := by
    have p0 := mag_mul_le (x := a.n0) (y := b.n2) ha.h0 hb.h2 le_rfl le_rfl
    have p1 := mag_mul_le (x := a.n1) (y := b.n1) ha.h1 hb.h1 le_rfl le_rfl
    have p2 := mag_mul_le (x := a.n2) (y := b.n0) ha.h2 hb.h0 le_rfl le_rfl
    simp only [m2, UInt64.toNat_add, toNat_shr26, mul_toNat, Nat.mod_add_mod, true_and]
    clear * - p0 p1 p2 bm1
    generalize a.n0.toNat * b.n2.toNat = x0 at *
    generalize a.n1.toNat * b.n1.toNat = x1 at *
    generalize a.n2.toNat * b.n0.toNat = x2 at *
    rw [Nat.mod_eq_of_lt (by omega)]
    omega
  obtain ⟨em2, bm2⟩ := em2
  have es2 : t2.toNat = m2.toNat % 2 ^ 26 := toNat_mask64 _
  have bs2 : t2.toNat < 2 ^ 26 := es2 ▸ mod26_lt _
  have dm2 := Nat.div_add_mod m2.toNat (2 ^ 26)
  rw [← es2] at dm2
  clear_value m2 t2
  have em3 : m3.toNat = m2.toNat / 2 ^ 26 + a.n0.toNat * b.n3.toNat + a.n1.toNat * b.n2.toNat + a.n2.toNat * b.n1.toNat + a.n3.toNat * b.n0.toNat ∧ m3.toNat < 2 ^ 62 := by
    have p0 := mag_mul_le (x := a.n0) (y := b.n3) ha.h0 hb.h3 le_rfl le_rfl
    have p1 := mag_mul_le (x := a.n1) (y := b.n2) ha.h1 hb.h2 le_rfl le_rfl
    have p2 := mag_mul_le (x := a.n2) (y := b.n1) ha.h2 hb.h1 le_rfl le_rfl
    have p3 := mag_mul_le (x := a.n3) (y := b.n0) ha.h3 hb.h0 le_rfl le_rfl
    simp only [m3, UInt64.toNat_add, toNat_shr26, mul_toNat, Nat.mod_add_mod, true_and]
    clear * - p0 p1 p2 p3 bm2
    generalize a.n0.toNat * b.n3.toNat = x0 at *
    generalize a.n1.toNat * b.n2.toNat = x1 at *
    generalize a.n2.toNat * b.n1.toNat = x2 at *
    generalize a.n3.toNat * b.n0.toNat = x3 at *
    rw [Nat.mod_eq_of_lt (by omega)]
    omega
  obtain ⟨em3, bm3⟩ := em3
  have es3 : t3.toNat = m3.toNat % 2 ^ 26 := toNat_mask64 _
  have bs3 : t3.toNat < 2 ^ 26 := es3 ▸ mod26_lt _
  have dm3 := Nat.div_add_mod m3.toNat (2 ^ 26)
  rw [← es3] at dm3
  clear_value m3 t3
  have em4 : m4.toNat = m3.toNat / 2 ^ 26 + a.n0.toNat * b.n4.toNat + a.n1.toNat * b.n3.toNat + a.n2.toNat * b.n2.toNat + a.n3.toNat * b.n1.toNat + a.n4.toNat * b.n0.toNat ∧ m4.toNat < 2 ^ 62 := by
    have p0 := mag_mul_le (x := a.n0) (y := b.n4) ha.h0 hb.h4 le_rfl le_rfl
    have p1 := mag_mul_le (x := a.n1) (y := b.n3) ha.h1 hb.h3 le_rfl le_rfl
    have p2 := mag_mul_le (x := a.n2) (y := b.n2) ha.h2 hb.h2 le_rfl le_rfl
    have p3 := mag_mul_le (x := a.n3) (y := b.n1) ha.h3 hb.h1 le_rfl le_rfl
    have p4 := mag_mul_le (x := a.n4) (y := b.n0) ha.h4 hb.h0 le_rfl le_rfl
    simp only [m4, UInt64.toNat_add, toNat_shr26, mul_toNat, Nat.mod_add_mod, true_and]
    clear * - p0 p1 p2 p3 p4 bm3
    generalize a.n0.toNat * b.n4.toNat = x0 at *
    generalize a.n1.toNat * b.n3.toNat = x1 at *
    generalize a.n2.toNat * b.n2.toNat = x2 at *
    generalize a.n3.toNat * b.n1.toNat = x3 at *
    generalize a.n4.toNat * b.n0.toNat = x4 at *
    rw [Nat.mod_eq_of_lt (by omega)]
    omega
  obtain ⟨em4, bm4⟩ := em4
  have es4 : t4.toNat = m4.toNat % 2 ^ 26 := toNat_mask64 _
  have bs4 : t4.toNat < 2 ^ 26 := es4 ▸ mod26_lt _
  have dm4 := Nat.div_add_mod m4.toNat (2 ^ 26)
  rw [← es4] at dm4
  clear_value m4 t4
  have em5 : m5.toNat = m4.toNat / 2 ^ 26 + a.n0.toNat * b.n5.toNat + a.n1.toNat * b.n4.toNat + a.n2.toNat * b.n3.toNat + a.n3.toNat * b.n2.toNat + a.n4.toNat * b.n1.toNat + a.n5.toNat * b.n0.toNat ∧ m5.toNat < 2 ^ 62 := by
    have p0 := mag_mul_le (x := a.n0) (y := b.n5) ha.h0 hb.h5 le_rfl le_rfl
    have p1 := mag_mul_le (x := a.n1) (y := b.n4) ha.h1 hb.h4 le_rfl le_rfl
    have p2 := mag_mul_le (x := a.n2) (y := b.n3) ha.h2 hb.h3 le_rfl le_rfl
    have p3 := mag_mul_le (x := a.n3) (y := b.n2) ha.h3 hb.h2 le_rfl le_rfl
    have p4 := mag_mul_le (x := a.n4) (y := b.n1) ha.h4 hb.h1 le_rfl le_rfl
    have p5 := mag_mul_le (x := a.n5) (y := b.n0) ha.h5 hb.h0 le_rfl le_rfl
    simp only [m5, UInt64.toNat_add, toNat_shr26, mul_toNat, Nat.mod_add_mod, true_and]
    clear * - p0 p1 p2 p3 p4 p5 bm4
    generalize a.n0.toNat * b.n5.toNat = x0 at *
    generalize a.n1.toNat * b.n4.toNat = x1 at *
    generalize a.n2.toNat * b.n3.toNat = x2 at *
    generalize a.n3.toNat * b.n2.toNat = x3 at *
    generalize a.n4.toNat * b.n1.toNat = x4 at *
    generalize a.n5.toNat * b.n0.toNat = x5 at *
    rw [Nat.mod_eq_of_lt (by omega)]
    omega
  obtain ⟨em5, bm5⟩ := em5
  have es5 : t5.toNat = m5.toNat % 2 ^ 26 := toNat_mask64 _
  have bs5 : t5.toNat < 2 ^ 26 := es5 ▸ mod26_lt _
  have dm5 := Nat.div_add_mod m5.toNat (2 ^ 26)
  rw [← es5] at dm5
  clear_value m5 t5
  have em6 : m6.toNat = m5.toNat / 2 ^ 26 + a.n0.toNat * b.n6.toNat + a.n1.toNat * b.n5.toNat + a.n2.toNat * b.n4.toNat + a.n3.toNat * b.n3.toNat + a.n4.toNat * b.n2.toNat + a.n5.toNat * b.n1.toNat + a.n6.toNat * b.n0.toNat ∧ m6.toNat < 2 ^ 62 := by
    have p0 := mag_mul_le (x := a.n0) (y := b.n6) ha.h0 hb.h6 le_rfl le_rfl
    have p1 := mag_mul_le (x := a.n1) (y := b.n5) ha.h1 hb.h5 le_rfl le_rfl
    have p2 := mag_mul_le (x := a.n2) (y := b.n4) ha.h2 hb.h4 le_rfl le_rfl
    have p3 := mag_mul_le (x := a.n3) (y := b.n3) ha.h3 hb.h3 le_rfl le_rfl
    have p4 := mag_mul_le (x := a.n4) (y := b.n2) ha.h4 hb.h2 le_rfl le_rfl
    have p5 := mag_mul_le (x := a.n5) (y := b.n1) ha.h5 hb.h1 le_rfl le_rfl
    have p6 := mag_mul_le (x := a.n6) (y := b.n0) ha.h6 hb.h0 le_rfl le_rfl
    simp only [m6, UInt64.toNat_add, toNat_shr26, mul_toNat, Nat.mod_add_mod, true_and]
    clear * - p0 p1 p2 p3 p4 p5 p6 bm5
    generalize a.n0.toNat * b.n6.toNat = x0 at *
    generalize a.n1.toNat * b.n5.toNat = x1 at *
    generalize a.n2.toNat * b.n4.toNat = x2 at *
    generalize a.n3.toNat * b.n3.toNat = x3 at *
    generalize a.n4.toNat * b.n2.toNat = x4 at *
    generalize a.n5.toNat * b.n1.toNat = x5 at *
    generalize a.n6.toNat * b.n0.toNat = x6 at *
    rw [Nat.mod_eq_of_lt (by omega)]
    omega
  obtain ⟨em6, bm6⟩ := em6
  have es6 : t6.toNat = m6.toNat % 2 ^ 26 := toNat_mask64 _
  have bs6 : t6.toNat < 2 ^ 26 := es6 ▸ mod26_lt _
  have dm6 := Nat.div_add_mod m6.toNat (2 ^ 26)
  rw [← es6] at dm6
  clear_value m6 t6
  have em7 : m7.toNat = m6.toNat / 2 ^ 26 + a.n0.toNat * b.n7.toNat + a.n1.toNat * b.n6.toNat + a.n2.toNat * b.n5.toNat + a.n3.toNat * b.n4.toNat + a.n4.toNat * b.n3.toNat + a.n5.toNat * b.n2.toNat + a.n6.toNat * b.n1.toNat + a.n7.toNat * b.n0.toNat ∧ m7.toNat < 2 ^ 62 := by
    have p0 := mag_mul_le (x := a.n0) (y := b.n7) ha.h0 hb.h7 le_rfl le_rfl
    have p1 := mag_mul_le (x := a.n1) (y := b.n6) ha.h1 hb.h6 le_rfl le_rfl
    have p2 := mag_mul_le (x := a.n2) (y := b.n5) ha.h2 hb.h5 le_rfl le_rfl
    have p3 := mag_mul_le (x := a.n3) (y := b.n4) ha.h3 hb.h4 le_rfl le_rfl
    have p4 := mag_mul_le (x := a.n4) (y := b.n3) ha.h4 hb.h3 le_rfl le_rfl
    have p5 := mag_mul_le (x := a.n5) (y := b.n2) ha.h5 hb.h2 le_rfl le_rfl
    have p6 := mag_mul_le (x := a.n6) (y := b.n1) ha.h6 hb.h1 le_rfl le_rfl
    have p7 := mag_mul_le (x := a.n7) (y := b.n0) ha.h7 hb.h0 le_rfl le_rfl
    simp only [m7, UInt64.toNat_add, toNat_shr26, mul_toNat, Nat.mod_add_mod, true_and]
    clear * - p0 p1 p2 p3 p4 p5 p6 p7 bm6
    generalize a.n0.toNat * b.n7.toNat = x0 at *
    generalize a.n1.toNat * b.n6.toNat = x1 at *
    generalize a.n2.toNat * b.n5.toNat = x2 at *
    generalize a.n3.toNat * b.n4.toNat = x3 at *
    generalize a.n4.toNat * b.n3.toNat = x4 at *
    generalize a.n5.toNat * b.n2.toNat = x5 at *
    generalize a.n6.toNat * b.n1.toNat = x6 at *
    generalize a.n7.toNat * b.n0.toNat = x7 at *
    rw [Nat.mod_eq_of_lt (by omega)]
    omega
  obtain ⟨em7, bm7⟩ := em7
  have es7 : t7.toNat = m7.toNat % 2 ^ 26 := toNat_mask64 _
  have bs7 : t7.toNat < 2 ^ 26 := es7 ▸ mod26_lt _
  have dm7 := Nat.div_add_mod m7.toNat (2 ^ 26)
  rw [← es7] at dm7
  clear_value m7 t7
  have em8 : m8.toNat = m7.toNat / 2 ^ 26 + a.n0.toNat * b.n8.toNat + a.n1.toNat * b.n7.toNat + a.n2.toNat * b.n6.toNat + a.n3.toNat * b.n5.toNat + a.n4.toNat * b.n4.toNat + a.n5.toNat * b.n3.toNat + a.n6.toNat * b.n2.toNat + a.n7.toNat * b.n1.toNat + a.n8.toNat * b.n0.toNat ∧ m8.toNat < 2 ^ 62 := by
    have p0 := mag_mul_le (x := a.n0) (y := b.n8) ha.h0 hb.h8 le_rfl le_rfl
    have p1 := mag_mul_le (x := a.n1) (y := b.n7) ha.h1 hb.h7 le_rfl le_rfl
    have p2 := mag_mul_le (x := a.n2) (y := b.n6) ha.h2 hb.h6 le_rfl le_rfl
    have p3 := mag_mul_le (x := a.n3) (y := b.n5) ha.h3 hb.h5 le_rfl le_rfl
    have p4 := mag_mul_le (x := a.n4) (y := b.n4) ha.h4 hb.h4 le_rfl le_rfl
    have p5 := mag_mul_le (x := a.n5) (y := b.n3) ha.h5 hb.h3 le_rfl le_rfl
    have p6 := mag_mul_le (x := a.n6) (y := b.n2) ha.h6 hb.h2 le_rfl le_rfl
    have p7 := mag_mul_le (x := a.n7) (y := b.n1) ha.h7 hb.h1 le_rfl le_rfl
    have p8 := mag_mul_le (x := a.n8) (y := b.n0) ha.h8 hb.h0 le_rfl le_rfl
    simp only [m8, UInt64.toNat_add, toNat_shr26, mul_toNat, Nat.mod_add_mod, true_and]
    clear * - p0 p1 p2 p3 p4 p5 p6 p7 p8 bm7
    generalize a.n0.toNat * b.n8.toNat = x0 at *
    generalize a.n1.toNat * b.n7.toNat = x1 at *
    generalize a.n2.toNat * b.n6.toNat = x2 at *
    generalize a.n3.toNat * b.n5.toNat = x3 at *
    generalize a.n4.toNat * b.n4.toNat = x4 at *
    generalize a.n5.toNat * b.n3.toNat = x5 at *
    generalize a.n6.toNat * b.n2.toNat = x6 at *
    generalize a.n7.toNat * b.n1.toNat = x7 at *
    generalize a.n8.toNat * b.n0.toNat = x8 at *
    rw [Nat.mod_eq_of_lt (by omega)]
    omega
  obtain ⟨em8, bm8⟩ := em8
  have es8 : t8.toNat = m8.toNat % 2 ^ 26 := toNat_mask64 _
  have bs8 : t8.toNat < 2 ^ 26 := es8 ▸ mod26_lt _
  have dm8 := Nat.div_add_mod m8.toNat (2 ^ 26)
  rw [← es8] at dm8
  clear_value m8 t8
  have em9 : m9.toNat = m8.toNat / 2 ^ 26 + a.n0.toNat * b.n9.toNat + a.n1.toNat * b.n8.toNat + a.n2.toNat * b.n7.toNat + a.n3.toNat * b.n6.toNat + a.n4.toNat * b.n5.toNat + a.n5.toNat * b.n4.toNat + a.n6.toNat * b.n3.toNat + a.n7.toNat * b.n2.toNat + a.n8.toNat * b.n1.toNat + a.n9.toNat * b.n0.toNat ∧ m9.toNat < 2 ^ 62 := by
    have p0 := mag_mul_le (x := a.n0) (y := b.n9) ha.h0 (by have := hb.h9; omega) le_rfl le_rfl
    have p1 := mag_mul_le (x := a.n1) (y := b.n8) ha.h1 hb.h8 le_rfl le_rfl
    have p2 := mag_mul_le (x := a.n2) (y := b.n7) ha.h2 hb.h7 le_rfl le_rfl
    have p3 := mag_mul_le (x := a.n3) (y := b.n6) ha.h3 hb.h6 le_rfl le_rfl
    have p4 := mag_mul_le (x := a.n4) (y := b.n5) ha.h4 hb.h5 le_rfl le_rfl
    have p5 := mag_mul_le (x := a.n5) (y := b.n4) ha.h5 hb.h4 le_rfl le_rfl
    have p6 := mag_mul_le (x := a.n6) (y := b.n3) ha.h6 hb.h3 le_rfl le_rfl
    have p7 := mag_mul_le (x := a.n7) (y := b.n2) ha.h7 hb.h2 le_rfl le_rfl
    have p8 := mag_mul_le (x := a.n8) (y := b.n1) ha.h8 hb.h1 le_rfl le_rfl
    have p9 := mag_mul_le (x := a.n9) (y := b.n0) (by have := ha.h9; omega) hb.h0 le_rfl le_rfl
    simp only [m9, UInt64.toNat_add, toNat_shr26, mul_toNat, Nat.mod_add_mod, true_and]
    clear * - p0 p1 p2 p3 p4 p5 p6 p7 p8 p9 bm8
    generalize a.n0.toNat * b.n9.toNat = x0 at *
    generalize a.n1.toNat * b.n8.toNat = x1 at *
    generalize a.n2.toNat * b.n7.toNat = x2 at *
    generalize a.n3.toNat * b.n6.toNat = x3 at *
    generalize a.n4.toNat * b.n5.toNat = x4 at *
    generalize a.n5.toNat * b.n4.toNat = x5 at *
    generalize a.n6.toNat * b.n3.toNat = x6 at *
    generalize a.n7.toNat * b.n2.toNat = x7 at *
    generalize a.n8.toNat * b.n1.toNat = x8 at *
    generalize a.n9.toNat * b.n0.toNat = x9 at *
    rw [Nat.mod_eq_of_lt (by omega)]
    omega
  obtain ⟨em9, bm9⟩ := em9
  have es9 : t9.toNat = m9.toNat % 2 ^ 26 := toNat_mask64 _
  have bs9 : t9.toNat < 2 ^ 26 := es9 ▸ mod26_lt _
  have dm9 := Nat.div_add_mod m9.toNat (2 ^ 26)
  rw [← es9] at dm9
  clear_value m9 t9
  have em10 : m10.toNat = m9.toNat / 2 ^ 26 + a.n1.toNat * b.n9.toNat + a.n2.toNat * b.n8.toNat + a.n3.toNat * b.n7.toNat + a.n4.toNat * b.n6.toNat + a.n5.toNat * b.n5.toNat + a.n6.toNat * b.n4.toNat + a.n7.toNat * b.n3.toNat + a.n8.toNat * b.n2.toNat + a.n9.toNat * b.n1.toNat ∧ m10.toNat < 2 ^ 62 := by
    have p0 := mag_mul_le (x := a.n1) (y := b.n9) ha.h1 (by have := hb.h9; omega) le_rfl le_rfl
    have p1 := mag_mul_le (x := a.n2) (y := b.n8) ha.h2 hb.h8 le_rfl le_rfl
    have p2 := mag_mul_le (x := a.n3) (y := b.n7) ha.h3 hb.h7 le_rfl le_rfl
    have p3 := mag_mul_le (x := a.n4) (y := b.n6) ha.h4 hb.h6 le_rfl le_rfl
    have p4 := mag_mul_le (x := a.n5) (y := b.n5) ha.h5 hb.h5 le_rfl le_rfl
    have p5 := mag_mul_le (x := a.n6) (y := b.n4) ha.h6 hb.h4 le_rfl le_rfl
    have p6 := mag_mul_le (x := a.n7) (y := b.n3) ha.h7 hb.h3 le_rfl le_rfl
    have p7 := mag_mul_le (x := a.n8) (y := b.n2) ha.h8 hb.h2 le_rfl le_rfl
    have p8 := mag_mul_le (x := a.n9) (y := b.n1) (by have := ha.h9; omega) hb.h1 le_rfl le_rfl
    simp only [m10, UInt64.toNat_add, toNat_shr26, mul_toNat, Nat.mod_add_mod, true_and]
    clear * - p0 p1 p2 p3 p4 p5 p6 p7 p8 bm9
    generalize a.n1.toNat * b.n9.toNat = x0 at *
    generalize a.n2.toNat * b.n8.toNat = x1 at *
    generalize a.n3.toNat * b.n7.toNat = x2 at *
    generalize a.n4.toNat * b.n6.toNat = x3 at *
    generalize a.n5.toNat * b.n5.toNat = x4 at *
    generalize a.n6.toNat * b.n4.toNat = x5 at *
    generalize a.n7.toNat * b.n3.toNat = x6 at *
    generalize a.n8.toNat * b.n2.toNat = x7 at *
    generalize a.n9.toNat * b.n1.toNat = x8 at *
    rw [Nat.mod_eq_of_lt (by omega)]
    omega
  obtain ⟨em10, bm10⟩ := em10
  have es10 : t10.toNat = m10.toNat % 2 ^ 26 := toNat_mask64 _
  have bs10 : t10.toNat < 2 ^ 26 := es10 ▸ mod26_lt _
  have dm10 := Nat.div_add_mod m10.toNat (2 ^ 26)
  rw [← es10] at dm10
  clear_value m10 t10
  have em11 : m11.toNat = m10.toNat / 2 ^ 26 + a.n2.toNat * b.n9.toNat + a.n3.toNat * b.n8.toNat + a.n4.toNat * b.n7.toNat + a.n5.toNat * b.n6.toNat + a.n6.toNat * b.n5.toNat + a.n7.toNat * b.n4.toNat + a.n8.toNat * b.n3.toNat + a.n9.toNat * b.n2.toNat ∧ m11.toNat < 2 ^ 62 := by
    have p0 := mag_mul_le (x := a.n2) (y := b.n9) ha.h2 (by have := hb.h9; omega) le_rfl le_rfl
    have p1 := mag_mul_le (x := a.n3) (y := b.n8) ha.h3 hb.h8 le_rfl le_rfl
    have p2 := mag_mul_le (x := a.n4) (y := b.n7) ha.h4 hb.h7 le_rfl le_rfl
    have p3 := mag_mul_le (x := a.n5) (y := b.n6) ha.h5 hb.h6 le_rfl le_rfl
    have p4 := mag_mul_le (x := a.n6) (y := b.n5) ha.h6 hb.h5 le_rfl le_rfl
    have p5 := mag_mul_le (x := a.n7) (y := b.n4) ha.h7 hb.h4 le_rfl le_rfl
    have p6 := mag_mul_le (x := a.n8) (y := b.n3) ha.h8 hb.h3 le_rfl le_rfl
    have p7 := mag_mul_le (x := a.n9) (y := b.n2) (by have := ha.h9; omega) hb.h2 le_rfl le_rfl
    simp only [m11, UInt64.toNat_add, toNat_shr26, mul_toNat, Nat.mod_add_mod, true_and]
    clear * - p0 p1 p2 p3 p4 p5 p6 p7 bm10
    generalize a.n2.toNat * b.n9.toNat = x0 at *
    generalize a.n3.toNat * b.n8.toNat = x1 at *
    generalize a.n4.toNat * b.n7.toNat = x2 at *
    generalize a.n5.toNat * b.n6.toNat = x3 at *
    generalize a.n6.toNat * b.n5.toNat = x4 at *
    generalize a.n7.toNat * b.n4.toNat = x5 at *
    generalize a.n8.toNat * b.n3.toNat = x6 at *
    generalize a.n9.toNat * b.n2.toNat = x7 at *
    rw [Nat.mod_eq_of_lt (by omega)]
    omega
  obtain ⟨em11, bm11⟩ := em11
  have es11 : t11.toNat = m11.toNat % 2 ^ 26 := toNat_mask64 _
  have bs11 : t11.toNat < 2 ^ 26 := es11 ▸ mod26_lt _
  have dm11 := Nat.div_add_mod m11.toNat (2 ^ 26)
  rw [← es11] at dm11
  clear_value m11 t11
  have em12 : m12.toNat = m11.toNat / 2 ^ 26 + a.n3.toNat * b.n9.toNat + a.n4.toNat * b.n8.toNat + a.n5.toNat * b.n7.toNat + a.n6.toNat * b.n6.toNat + a.n7.toNat * b.n5.toNat + a.n8.toNat * b.n4.toNat + a.n9.toNat * b.n3.toNat ∧ m12.toNat < 2 ^ 62 := by
    have p0 := mag_mul_le (x := a.n3) (y := b.n9) ha.h3 (by have := hb.h9; omega) le_rfl le_rfl
    have p1 := mag_mul_le (x := a.n4) (y := b.n8) ha.h4 hb.h8 le_rfl le_rfl
    have p2 := mag_mul_le (x := a.n5) (y := b.n7) ha.h5 hb.h7 le_rfl le_rfl
    have p3 := mag_mul_le (x := a.n6) (y := b.n6) ha.h6 hb.h6 le_rfl le_rfl
    have p4 := mag_mul_le (x := a.n7) (y := b.n5) ha.h7 hb.h5 le_rfl le_rfl
    have p5 := mag_mul_le (x := a.n8) (y := b.n4) ha.h8 hb.h4 le_rfl le_rfl
    have p6 := mag_mul_le (x := a.n9) (y := b.n3) (by have := ha.h9; omega) hb.h3 le_rfl le_rfl
    simp only [m12, UInt64.toNat_add, toNat_shr26, mul_toNat, Nat.mod_add_mod, true_and]
    clear * - p0 p1 p2 p3 p4 p5 p6 bm11
    generalize a.n3.toNat * b.n9.toNat = x0 at *
    generalize a.n4.toNat * b.n8.toNat = x1 at *
    generalize a.n5.toNat * b.n7.toNat = x2 at *
    generalize a.n6.toNat * b.n6.toNat = x3 at *
    generalize a.n7.toNat * b.n5.toNat = x4 at *
    generalize a.n8.toNat * b.n4.toNat = x5 at *
    generalize a.n9.toNat * b.n3.toNat = x6 at *
    rw [Nat.mod_eq_of_lt (by omega)]
    omega
  obtain ⟨em12, bm12⟩ := em12
  have es12 : t12.toNat = m12.toNat % 2 ^ 26 := toNat_mask64 _
  have bs12 : t12.toNat < 2 ^ 26 := es12 ▸ mod26_lt _
  have dm12 := Nat.div_add_mod m12.toNat (2 ^ 26)
  rw [← es12] at dm12
  clear_value m12 t12
  have em13 : m13.toNat = m12.toNat / 2 ^ 26 + a.n4.toNat * b.n9.toNat + a.n5.toNat * b.n8.toNat + a.n6.toNat * b.n7.toNat + a.n7.toNat * b.n6.toNat + a.n8.toNat * b.n5.toNat + a.n9.toNat * b.n4.toNat ∧ m13.toNat < 2 ^ 62 := by
    have p0 := mag_mul_le (x := a.n4) (y := b.n9) ha.h4 (by have := hb.h9; omega) le_rfl le_rfl
    have p1 := mag_mul_le (x := a.n5) (y := b.n8) ha.h5 hb.h8 le_rfl le_rfl
    have p2 := mag_mul_le (x := a.n6) (y := b.n7) ha.h6 hb.h7 le_rfl le_rfl
    have p3 := mag_mul_le (x := a.n7) (y := b.n6) ha.h7 hb.h6 le_rfl le_rfl
    have p4 := mag_mul_le (x := a.n8) (y := b.n5) ha.h8 hb.h5 le_rfl le_rfl
    have p5 := mag_mul_le (x := a.n9) (y := b.n4) (by have := ha.h9; omega) hb.h4 le_rfl le_rfl
    simp only [m13, UInt64.toNat_add, toNat_shr26, mul_toNat, Nat.mod_add_mod, true_and]
    clear * - p0 p1 p2 p3 p4 p5 bm12
    generalize a.n4.toNat * b.n9.toNat = x0 at *
    generalize a.n5.toNat * b.n8.toNat = x1 at *
    generalize a.n6.toNat * b.n7.toNat = x2 at *
    generalize a.n7.toNat * b.n6.toNat = x3 at *
    generalize a.n8.toNat * b.n5.toNat = x4 at *
    generalize a.n9.toNat * b.n4.toNat = x5 at *
    rw [Nat.mod_eq_of_lt (by omega)]
    omega
  obtain ⟨em13, bm13⟩ := em13
  have es13 : t13.toNat = m13.toNat % 2 ^ 26 := toNat_mask64 _
  have bs13 : t13.toNat < 2 ^ 26 := es13 ▸ mod26_lt _
  have dm13 := Nat.div_add_mod m13.toNat (2 ^ 26)
  rw [← es13] at dm13
  clear_value m13 t13
  have em14 : m14.toNat = m13.toNat / 2 ^ 26 + a.n5.toNat * b.n9.toNat + a.n6.toNat * b.n8.toNat + a.n7.toNat * b.n7.toNat + a.n8.toNat * b.n6.toNat + a.n9.toNat * b.n5.toNat ∧ m14.toNat < 2 ^ 62 := by
    have p0 := mag_mul_le (x := a.n5) (y := b.n9) ha.h5 (by have := hb.h9; omega) le_rfl le_rfl
    have p1 := mag_mul_le (x := a.n6) (y := b.n8) ha.h6 hb.h8 le_rfl le_rfl
    have p2 := mag_mul_le (x := a.n7) (y := b.n7) ha.h7 hb.h7 le_rfl le_rfl
    have p3 := mag_mul_le (x := a.n8) (y := b.n6) ha.h8 hb.h6 le_rfl le_rfl
    have p4 := mag_mul_le (x := a.n9) (y := b.n5) (by have := ha.h9; omega) hb.h5 le_rfl le_rfl
    simp only [m14, UInt64.toNat_add, toNat_shr26, mul_toNat, Nat.mod_add_mod, true_and]
    clear * - p0 p1 p2 p3 p4 bm13
    generalize a.n5.toNat * b.n9.toNat = x0 at *
    generalize a.n6.toNat * b.n8.toNat = x1 at *
    generalize a.n7.toNat * b.n7.toNat = x2 at *
    generalize a.n8.toNat * b.n6.toNat = x3 at *
    generalize a.n9.toNat * b.n5.toNat = x4 at *
    rw [Nat.mod_eq_of_lt (by omega)]
    omega
  obtain ⟨em14, bm14⟩ := em14
  have es14 : t14.toNat = m14.toNat % 2 ^ 26 := toNat_mask64 _
  have bs14 : t14.toNat < 2 ^ 26 := es14 ▸ mod26_lt _
  have dm14 := Nat.div_add_mod m14.toNat (2 ^ 26)
  rw [← es14] at dm14
  clear_value m14 t14
  have em15 : m15.toNat = m14.toNat / 2 ^ 26 + a.n6.toNat * b.n9.toNat + a.n7.toNat * b.n8.toNat + a.n8.toNat * b.n7.toNat + a.n9.toNat * b.n6.toNat ∧ m15.toNat < 2 ^ 62 := by
    have p0 := mag_mul_le (x := a.n6) (y := b.n9) ha.h6 (by have := hb.h9; omega) le_rfl le_rfl
    have p1 := mag_mul_le (x := a.n7) (y := b.n8) ha.h7 hb.h8 le_rfl le_rfl
    have p2 := mag_mul_le (x := a.n8) (y := b.n7) ha.h8 hb.h7 le_rfl le_rfl
    have p3 := mag_mul_le (x := a.n9) (y := b.n6) (by have := ha.h9; omega) hb.h6 le_rfl le_rfl
    simp only [m15, UInt64.toNat_add, toNat_shr26, mul_toNat, Nat.mod_add_mod, true_and]
    clear * - p0 p1 p2 p3 bm14
    generalize a.n6.toNat * b.n9.toNat = x0 at *
    generalize a.n7.toNat * b.n8.toNat = x1 at *
    generalize a.n8.toNat * b.n7.toNat = x2 at *
    generalize a.n9.toNat * b.n6.toNat = x3 at *
    rw [Nat.mod_eq_of_lt (by omega)]
    omega
  obtain ⟨em15, bm15⟩ := em15
  have es15 : t15.toNat = m15.toNat % 2 ^ 26 := toNat_mask64 _
  have bs15 : t15.toNat < 2 ^ 26 := es15 ▸ mod26_lt _
  have dm15 := Nat.div_add_mod m15.toNat (2 ^ 26)
  rw [← es15] at dm15
  clear_value m15 t15
  have em16 : m16.toNat = m15.toNat / 2 ^ 26 + a.n7.toNat * b.n9.toNat + a.n8.toNat * b.n8.toNat + a.n9.toNat * b.n7.toNat ∧ m16.toNat < 2 ^ 62 := by
    have p0 := mag_mul_le (x := a.n7) (y := b.n9) ha.h7 (by have := hb.h9; omega) le_rfl le_rfl
    have p1 := mag_mul_le (x := a.n8) (y := b.n8) ha.h8 hb.h8 le_rfl le_rfl
    have p2 := mag_mul_le (x := a.n9) (y := b.n7) (by have := ha.h9; omega) hb.h7 le_rfl le_rfl
    simp only [m16, UInt64.toNat_add, toNat_shr26, mul_toNat, Nat.mod_add_mod, true_and]
    clear * - p0 p1 p2 bm15
    generalize a.n7.toNat * b.n9.toNat = x0 at *
    generalize a.n8.toNat * b.n8.toNat = x1 at *
    generalize a.n9.toNat * b.n7.toNat = x2 at *
    rw [Nat.mod_eq_of_lt (by omega)]
    omega
  obtain ⟨em16, bm16⟩ := em16
  have es16 : t16.toNat = m16.toNat % 2 ^ 26 := toNat_mask64 _
  have bs16 : t16.toNat < 2 ^ 26 := es16 ▸ mod26_lt _
  have dm16 := Nat.div_add_mod m16.toNat (2 ^ 26)
  rw [← es16] at dm16
  clear_value m16 t16
  have em17 : m17.toNat = m16.toNat / 2 ^ 26 + a.n8.toNat * b.n9.toNat + a.n9.toNat * b.n8.toNat ∧ m17.toNat < 2 ^ 62 := by
    have p0 := mag_mul_le (x := a.n8) (y := b.n9) ha.h8 (by have := hb.h9; omega) le_rfl le_rfl
    have p1 := mag_mul_le (x := a.n9) (y := b.n8) (by have := ha.h9; omega) hb.h8 le_rfl le_rfl
    simp only [m17, UInt64.toNat_add, toNat_shr26, mul_toNat, Nat.mod_add_mod, true_and]
    clear * - p0 p1 bm16
    generalize a.n8.toNat * b.n9.toNat = x0 at *
    generalize a.n9.toNat * b.n8.toNat = x1 at *
    rw [Nat.mod_eq_of_lt (by omega)]
    omega
  obtain ⟨em17, bm17⟩ := em17
  have es17 : t17.toNat = m17.toNat % 2 ^ 26 := toNat_mask64 _
  have bs17 : t17.toNat < 2 ^ 26 := es17 ▸ mod26_lt _
  have dm17 := Nat.div_add_mod m17.toNat (2 ^ 26)
  rw [← es17] at dm17
  clear_value m17 t17
  have em18 : m18.toNat = m17.toNat / 2 ^ 26 + a.n9.toNat * b.n9.toNat ∧ m18.toNat < 2 ^ 51 := by
    have p0 := Nat.mul_le_mul ha.h9 hb.h9
    simp only [m18, UInt64.toNat_add, toNat_shr26, mul_toNat, Nat.mod_add_mod, true_and]
    clear * - p0 bm17
    generalize a.n9.toNat * b.n9.toNat = x0 at *
    rw [Nat.mod_eq_of_lt (by omega)]
    omega
  obtain ⟨em18, bm18⟩ := em18
  have es18 : t18.toNat = m18.toNat % 2 ^ 26 := toNat_mask64 _
  have bs18 : t18.toNat < 2 ^ 26 := es18 ▸ mod26_lt _
  have dm18 := Nat.div_add_mod m18.toNat (2 ^ 26)
  rw [← es18] at dm18
  clear_value m18 t18
  have et19 : t19.toNat = m18.toNat / 2 ^ 26 := toNat_shr26 _
  have bt19 : t19.toNat < 2 ^ 25 := by clear * - et19 bm18; omega
  rw [← et19] at dm18
  clear_value t19
  obtain ⟨hm, hq⟩ := reduce_spec t0 t1 t2 t3 t4 t5 t6 t7 t8 t9 t10 t11 t12 t13 t14 t15 t16 t17 t18 t19 bs0 bs1 bs2 bs3 bs4 bs5 bs6 bs7 bs8 bs9 bs10 bs11 bs12 bs13 bs14 bs15 bs16 bs17 bs18 bt19
  refine ⟨hm, ?_⟩
  convert hq using 1
  clear hm hq
  clear * - dm0 em0 dm1 em1 dm2 em2 dm3 em3 dm4 em4 dm5 em5 dm6 em6 dm7 em7 dm8 em8 dm9 em9 dm10 em10 dm11 em11 dm12 em12 dm13 em13 dm14 em14 dm15 em15 dm16 em16 dm17 em17 dm18 em18
  simp only [val]
  zify at *
  linear_combination (-1) * (2 ^ 0 * dm0 + 2 ^ 0 * em0 + 2 ^ 26 * dm1 + 2 ^ 26 * em1 + 2 ^ 52 * dm2 + 2 ^ 52 * em2 + 2 ^ 78 * dm3 + 2 ^ 78 * em3 + 2 ^ 104 * dm4 + 2 ^ 104 * em4 + 2 ^ 130 * dm5 + 2 ^ 130 * em5 + 2 ^ 156 * dm6 + 2 ^ 156 * em6 + 2 ^ 182 * dm7 + 2 ^ 182 * em7 + 2 ^ 208 * dm8 + 2 ^ 208 * em8 + 2 ^ 234 * dm9 + 2 ^ 234 * em9 + 2 ^ 260 * dm10 + 2 ^ 260 * em10 + 2 ^ 286 * dm11 + 2 ^ 286 * em11 + 2 ^ 312 * dm12 + 2 ^ 312 * em12 + 2 ^ 338 * dm13 + 2 ^ 338 * em13 + 2 ^ 364 * dm14 + 2 ^ 364 * em14 + 2 ^ 390 * dm15 + 2 ^ 390 * em15 + 2 ^ 416 * dm16 + 2 ^ 416 * em16 + 2 ^ 442 * dm17 + 2 ^ 442 * em17 + 2 ^ 468 * dm18 + 2 ^ 468 * em18)

set_option exponentiation.threshold 600 in
theorem square_red {a : FieldVal} (ha : Mag a 8) :
    Mag (squareVal a) 1 ∧ Red (squareVal a) (val a * val a) := by
  unfold squareVal
  extract_lets m0 t0 m1 t1 m2 t2 m3 t3 m4 t4 m5 t5 m6 t6 m7 t7 m8 t8 m9 t9 m10 t10 m11 t11 m12 t12 m13 t13 m14 t14 m15 t15 m16 t16 m17 t17 m18 t18 t19
  have em0 : m0.toNat = a.n0.toNat * a.n0.toNat ∧ m0.toNat < 2 ^ 62 := by
    have p0 := mag_mul_le (x := a.n0) (y := a.n0) ha.h0 ha.h0 le_rfl le_rfl
    simp only [m0, UInt64.toNat_add, toNat_shr26, mul_toNat, Nat.mod_add_mod, true_and]
    clear * - p0
    generalize a.n0.toNat * a.n0.toNat = x0 at *
    omega
  obtain ⟨em0, bm0⟩ := em0
  have es0 : t0.toNat = m0.toNat % 2 ^ 26 := toNat_mask64 _
  have bs0 : t0.toNat < 2 ^ 26 := es0 ▸ mod26_lt _
  have dm0 := Nat.div_add_mod m0.toNat (2 ^ 26)
  rw [← es0] at dm0
  clear_value m0 t0
  have em1 : m1.toNat = m0.toNat / 2 ^ 26 + 2 * (a.n0.toNat * a.n1.toNat) ∧ m1.toNat < 2 ^ 62 := by
    have p0 := mag_mul_le (x := a.n0) (y := a.n1) ha.h0 ha.h1 le_rfl le_rfl
    simp only [m1, UInt64.toNat_add, toNat_shr26, mul_toNat, Nat.mod_add_mod, true_and, two_mul_toNat a.n0 a.n1 (by omega)]
    clear * - p0 bm0
    generalize a.n0.toNat * a.n1.toNat = x0 at *
    rw [Nat.mod_eq_of_lt (by omega)]
    omega
  obtain ⟨em1, bm1⟩ := em1
  have es1 : t1.toNat = m1.toNat % 2 ^ 26 := toNat_mask64 _
  have bs1 : t1.toNat < 2 ^ 26 := es1 ▸ mod26_lt _
  have dm1 := Nat.div_add_mod m1.toNat (2 ^ 26)
  rw [← es1] at dm1
  clear_value m1 t1
  have em2 : m2.toNat = m1.toNat / 2 ^ 26 + 2 * (a.n0.toNat * a.n2.toNat) + a.n1.toNat * a.n1.toNat ∧ m2.toNat < 2 ^ 62 := by
    have p0 := mag_mul_le (x := a.n0) (y := a.n2) ha.h0 ha.h2 le_rfl le_rfl
    have p1 := mag_mul_le (x := a.n1) (y := a.n1) ha.h1 ha.h1 le_rfl le_rfl
    simp only [m2, UInt64.toNat_add, toNat_shr26, mul_toNat, Nat.mod_add_mod, true_and, two_mul_toNat a.n0 a.n2 (by omega)]
    clear * - p0 p1 bm1
    generalize a.n0.toNat * a.n2.toNat = x0 at *
    generalize a.n1.toNat * a.n1.toNat = x1 at *
    rw [Nat.mod_eq_of_lt (by omega)]
    omega
  obtain ⟨em2, bm2⟩ := em2
  have es2 : t2.toNat = m2.toNat % 2 ^ 26 := toNat_mask64 _
  have bs2 : t2.toNat < 2 ^ 26 := es2 ▸ mod26_lt _
  have dm2 := Nat.div_add_mod m2.toNat (2 ^ 26)
  rw [← es2] at dm2
  clear_value m2 t2
  have em3 : m3.toNat = m2.toNat / 2 ^ 26 + 2 * (a.n0.toNat * a.n3.toNat) + 2 * (a.n1.toNat * a.n2.toNat) ∧ m3.toNat < 2 ^ 62 := by
    have p0 := mag_mul_le (x := a.n0) (y := a.n3) ha.h0 ha.h3 le_rfl le_rfl
    have p1 := mag_mul_le (x := a.n1) (y := a.n2) ha.h1 ha.h2 le_rfl le_rfl
    simp only [m3, UInt64.toNat_add, toNat_shr26, mul_toNat, Nat.mod_add_mod, true_and, two_mul_toNat a.n0 a.n3 (by omega), two_mul_toNat a.n1 a.n2 (by omega)]
    clear * - p0 p1 bm2
    generalize a.n0.toNat * a.n3.toNat = x0 at *
    generalize a.n1.toNat * a.n2.toNat = x1 at *
    rw [Nat.mod_eq_of_lt (by omega)]
    omega
  obtain ⟨em3, bm3⟩ := em3
  have es3 : t3.toNat = m3.toNat % 2 ^ 26 := toNat_mask64 _
  have bs3 : t3.toNat < 2 ^ 26 := es3 ▸ mod26_lt _
  have dm3 := Nat.div_add_mod m3.toNat (2 ^ 26)
  rw [← es3] at dm3
  clear_value m3 t3
  have em4 : m4.toNat = m3.toNat / 2 ^ 26 + 2 * (a.n0.toNat * a.n4.toNat) + 2 * (a.n1.toNat * a.n3.toNat) + a.n2.toNat * a.n2.toNat ∧ m4.toNat < 2 ^ 62 := by
    have p0 := mag_mul_le (x := a.n0) (y := a.n4) ha.h0 ha.h4 le_rfl le_rfl
    have p1 := mag_mul_le (x := a.n1) (y := a.n3) ha.h1 ha.h3 le_rfl le_rfl
    have p2 := mag_mul_le (x := a.n2) (y := a.n2) ha.h2 ha.h2 le_rfl le_rfl
    simp only [m4, UInt64.toNat_add, toNat_shr26, mul_toNat, Nat.mod_add_mod, true_and, two_mul_toNat a.n0 a.n4 (by omega), two_mul_toNat a.n1 a.n3 (by omega)]
    clear * - p0 p1 p2 bm3
    generalize a.n0.toNat * a.n4.toNat = x0 at *
    generalize a.n1.toNat * a.n3.toNat = x1 at *
    generalize a.n2.toNat * a.n2.toNat = x2 at *
    rw [Nat.mod_eq_of_lt (by omega)]
    omega
  obtain ⟨em4, bm4⟩ := em4
  have es4 : t4.toNat = m4.toNat % 2 ^ 26 := toNat_mask64 _
  have bs4 : t4.toNat < 2 ^ 26 := es4 ▸ mod26_lt _
  have dm4 := Nat.div_add_mod m4.toNat (2 ^ 26)
  rw [← es4] at dm4
  clear_value m4 t4
  have em5 : m5.toNat = m4.toNat / 2 ^ 26 + 2 * (a.n0.toNat * a.n5.toNat) + 2 * (a.n1.toNat * a.n4.toNat) + 2 * (a.n2.toNat * a.n3.toNat) ∧ m5.toNat < 2 ^ 62 := by
    have p0 := mag_mul_le (x := a.n0) (y := a.n5) ha.h0 ha.h5 le_rfl le_rfl
    have p1 := mag_mul_le (x := a.n1) (y := a.n4) ha.h1 ha.h4 le_rfl le_rfl
    have p2 := mag_mul_le (x := a.n2) (y := a.n3) ha.h2 ha.h3 le_rfl le_rfl
    simp only [m5, UInt64.toNat_add, toNat_shr26, mul_toNat, Nat.mod_add_mod, true_and, two_mul_toNat a.n0 a.n5 (by omega), two_mul_toNat a.n1 a.n4 (by omega), two_mul_toNat a.n2 a.n3 (by omega)]
    clear * - p0 p1 p2 bm4
    generalize a.n0.toNat * a.n5.toNat = x0 at *
    generalize a.n1.toNat * a.n4.toNat = x1 at *
    generalize a.n2.toNat * a.n3.toNat = x2 at *
    rw [Nat.mod_eq_of_lt (by omega)]
    omega
  obtain ⟨em5, bm5⟩ := em5
  have es5 : t5.toNat = m5.toNat % 2 ^ 26 := toNat_mask64 _
  have bs5 : t5.toNat < 2 ^ 26 := es5 ▸ mod26_lt _
  have dm5 := Nat.div_add_mod m5.toNat (2 ^ 26)
  rw [← es5] at dm5
  clear_value m5 t5
  have em6 : m6.toNat = m5.toNat / 2 ^ 26 + 2 * (a.n0.toNat * a.n6.toNat) + 2 * (a.n1.toNat * a.n5.toNat) + 2 * (a.n2.toNat * a.n4.toNat) + a.n3.toNat * a.n3.toNat ∧ m6.toNat < 2 ^ 62 := by
    have p0 := mag_mul_le (x := a.n0) (y := a.n6) ha.h0 ha.h6 le_rfl le_rfl
    have p1 := mag_mul_le (x := a.n1) (y := a.n5) ha.h1 ha.h5 le_rfl le_rfl
    have p2 := mag_mul_le (x := a.n2) (y := a.n4) ha.h2 ha.h4 le_rfl le_rfl
    have p3 := mag_mul_le (x := a.n3) (y := a.n3) ha.h3 ha.h3 le_rfl le_rfl
    simp only [m6, UInt64.toNat_add, toNat_shr26, mul_toNat, Nat.mod_add_mod, true_and, two_mul_toNat a.n0 a.n6 (by omega), two_mul_toNat a.n1 a.n5 (by omega), two_mul_toNat a.n2 a.n4 (by omega)]
    clear * - p0 p1 p2 p3 bm5
    generalize a.n0.toNat * a.n6.toNat = x0 at *
    generalize a.n1.toNat * a.n5.toNat = x1 at *
    generalize a.n2.toNat * a.n4.toNat = x2 at *
    generalize a.n3.toNat * a.n3.toNat = x3 at *
    rw [Nat.mod_eq_of_lt (by omega)]
    omega
  obtain ⟨em6, bm6⟩ := em6
  have es6 : t6.toNat = m6.toNat % 2 ^ 26 := toNat_mask64 _
  have bs6 : t6.toNat < 2 ^ 26 := es6 ▸ mod26_lt _
  have dm6 := Nat.div_add_mod m6.toNat (2 ^ 26)
  rw [← es6] at dm6
  clear_value m6 t6
  have em7 : m7.toNat = m6.toNat / 2 ^ 26 + 2 * (a.n0.toNat * a.n7.toNat) + 2 * (a.n1.toNat * a.n6.toNat) + 2 * (a.n2.toNat * a.n5.toNat) + 2 * (a.n3.toNat * a.n4.toNat) ∧ m7.toNat < 2 ^ 62 := by
    have p0 := mag_mul_le (x := a.n0) (y := a.n7) ha.h0 ha.h7 le_rfl le_rfl
    have p1 := mag_mul_le (x := a.n1) (y := a.n6) ha.h1 ha.h6 le_rfl le_rfl
    have p2 := mag_mul_le (x := a.n2) (y := a.n5) ha.h2 ha.h5 le_rfl le_rfl
    have p3 := mag_mul_le (x := a.n3) (y := a.n4) ha.h3 ha.h4 le_rfl le_rfl
    simp only [m7, UInt64.toNat_add, toNat_shr26, mul_toNat, Nat.mod_add_mod, true_and, two_mul_toNat a.n0 a.n7 (by omega), two_mul_toNat a.n1 a.n6 (by omega), two_mul_toNat a.n2 a.n5 (by omega), two_mul_toNat a.n3 a.n4 (by omega)]
    clear * - p0 p1 p2 p3 bm6
    generalize a.n0.toNat * a.n7.toNat = x0 at *
    generalize a.n1.toNat * a.n6.toNat = x1 at *
    generalize a.n2.toNat * a.n5.toNat = x2 at *
    generalize a.n3.toNat * a.n4.toNat = x3 at *
    rw [Nat.mod_eq_of_lt (by omega)]
    omega
  obtain ⟨em7, bm7⟩ := em7
  have es7 : t7.toNat = m7.toNat % 2 ^ 26 := toNat_mask64 _
  have bs7 : t7.toNat < 2 ^ 26 := es7 ▸ mod26_lt _
  have dm7 := Nat.div_add_mod m7.toNat (2 ^ 26)
  rw [← es7] at dm7
  clear_value m7 t7
  have em8 : m8.toNat = m7.toNat / 2 ^ 26 + 2 * (a.n0.toNat * a.n8.toNat) + 2 * (a.n1.toNat * a.n7.toNat) + 2 * (a.n2.toNat * a.n6.toNat) + 2 * (a.n3.toNat * a.n5.toNat) + a.n4.toNat * a.n4.toNat ∧ m8.toNat < 2 ^ 62 := by
    have p0 := mag_mul_le (x := a.n0) (y := a.n8) ha.h0 ha.h8 le_rfl le_rfl
    have p1 := mag_mul_le (x := a.n1) (y := a.n7) ha.h1 ha.h7 le_rfl le_rfl
    have p2 := mag_mul_le (x := a.n2) (y := a.n6) ha.h2 ha.h6 le_rfl le_rfl
    have p3 := mag_mul_le (x := a.n3) (y := a.n5) ha.h3 ha.h5 le_rfl le_rfl
    have p4 := mag_mul_le (x := a.n4) (y := a.n4) ha.h4 ha.h4 le_rfl le_rfl
    simp only [m8, UInt64.toNat_add, toNat_shr26, mul_toNat, Nat.mod_add_mod, true_and, two_mul_toNat a.n0 a.n8 (by omega), two_mul_toNat a.n1 a.n7 (by omega), two_mul_toNat a.n2 a.n6 (by omega), two_mul_toNat a.n3 a.n5 (by omega)]
    clear * - p0 p1 p2 p3 p4 bm7
    generalize a.n0.toNat * a.n8.toNat = x0 at *
    generalize a.n1.toNat * a.n7.toNat = x1 at *
    generalize a.n2.toNat * a.n6.toNat = x2 at *
    generalize a.n3.toNat * a.n5.toNat = x3 at *
    generalize a.n4.toNat * a.n4.toNat = x4 at *
    rw [Nat.mod_eq_of_lt (by omega)]
    omega
  obtain ⟨em8, bm8⟩ := em8
  have es8 : t8.toNat = m8.toNat % 2 ^ 26 := toNat_mask64 _
  have bs8 : t8.toNat < 2 ^ 26 := es8 ▸ mod26_lt _
  have dm8 := Nat.div_add_mod m8.toNat (2 ^ 26)
  rw [← es8] at dm8
  clear_value m8 t8
  have em9 : m9.toNat = m8.toNat / 2 ^ 26 + 2 * (a.n0.toNat * a.n9.toNat) + 2 * (a.n1.toNat * a.n8.toNat) + 2 * (a.n2.toNat * a.n7.toNat) + 2 * (a.n3.toNat * a.n6.toNat) + 2 * (a.n4.toNat * a.n5.toNat) ∧ m9.toNat < 2 ^ 62 := by
    have p0 := mag_mul_le (x := a.n0) (y := a.n9) ha.h0 (by have := ha.h9; omega) le_rfl le_rfl
    have p1 := mag_mul_le (x := a.n1) (y := a.n8) ha.h1 ha.h8 le_rfl le_rfl
    have p2 := mag_mul_le (x := a.n2) (y := a.n7) ha.h2 ha.h7 le_rfl le_rfl
    have p3 := mag_mul_le (x := a.n3) (y := a.n6) ha.h3 ha.h6 le_rfl le_rfl
    have p4 := mag_mul_le (x := a.n4) (y := a.n5) ha.h4 ha.h5 le_rfl le_rfl
    simp only [m9, UInt64.toNat_add, toNat_shr26, mul_toNat, Nat.mod_add_mod, true_and, two_mul_toNat a.n0 a.n9 (by omega), two_mul_toNat a.n1 a.n8 (by omega), two_mul_toNat a.n2 a.n7 (by omega), two_mul_toNat a.n3 a.n6 (by omega), two_mul_toNat a.n4 a.n5 (by omega)]
    clear * - p0 p1 p2 p3 p4 bm8
    generalize a.n0.toNat * a.n9.toNat = x0 at *
    generalize a.n1.toNat * a.n8.toNat = x1 at *
    generalize a.n2.toNat * a.n7.toNat = x2 at *
    generalize a.n3.toNat * a.n6.toNat = x3 at *
    generalize a.n4.toNat * a.n5.toNat = x4 at *
    rw [Nat.mod_eq_of_lt (by omega)]
    omega
  obtain ⟨em9, bm9⟩ := em9
  have es9 : t9.toNat = m9.toNat % 2 ^ 26 := toNat_mask64 _
  have bs9 : t9.toNat < 2 ^ 26 := es9 ▸ mod26_lt _
  have dm9 := Nat.div_add_mod m9.toNat (2 ^ 26)
  rw [← es9] at dm9
  clear_value m9 t9
  have em10 : m10.toNat = m9.toNat / 2 ^ 26 + 2 * (a.n1.toNat * a.n9.toNat) + 2 * (a.n2.toNat * a.n8.toNat) + 2 * (a.n3.toNat * a.n7.toNat) + 2 * (a.n4.toNat * a.n6.toNat) + a.n5.toNat * a.n5.toNat ∧ m10.toNat < 2 ^ 62 := by
    have p0 := mag_mul_le (x := a.n1) (y := a.n9) ha.h1 (by have := ha.h9; omega) le_rfl le_rfl
    have p1 := mag_mul_le (x := a.n2) (y := a.n8) ha.h2 ha.h8 le_rfl le_rfl
    have p2 := mag_mul_le (x := a.n3) (y := a.n7) ha.h3 ha.h7 le_rfl le_rfl
    have p3 := mag_mul_le (x := a.n4) (y := a.n6) ha.h4 ha.h6 le_rfl le_rfl
    have p4 := mag_mul_le (x := a.n5) (y := a.n5) ha.h5 ha.h5 le_rfl le_rfl
    simp only [m10, UInt64.toNat_add, toNat_shr26, mul_toNat, Nat.mod_add_mod, true_and, two_mul_toNat a.n1 a.n9 (by omega), two_mul_toNat a.n2 a.n8 (by omega), two_mul_toNat a.n3 a.n7 (by omega), two_mul_toNat a.n4 a.n6 (by omega)]
    clear * - p0 p1 p2 p3 p4 bm9
    generalize a.n1.toNat * a.n9.toNat = x0 at *
    generalize a.n2.toNat * a.n8.toNat = x1 at *
    generalize a.n3.toNat * a.n7.toNat = x2 at *
    generalize a.n4.toNat * a.n6.toNat = x3 at *
    generalize a.n5.toNat * a.n5.toNat = x4 at *
    rw [Nat.mod_eq_of_lt (by omega)]
    omega
  obtain ⟨em10, bm10⟩ := em10
  have es10 : t10.toNat = m10.toNat % 2 ^ 26 := toNat_mask64 _
  have bs10 : t10.toNat < 2 ^ 26 := es10 ▸ mod26_lt _
  have dm10 := Nat.div_add_mod m10.toNat (2 ^ 26)
  rw [← es10] at dm10
  clear_value m10 t10
  have em11 : m11.toNat = m10.toNat / 2 ^ 26 + 2 * (a.n2.toNat * a.n9.toNat) + 2 * (a.n3.toNat * a.n8.toNat) + 2 * (a.n4.toNat * a.n7.toNat) + 2 * (a.n5.toNat * a.n6.toNat) ∧ m11.toNat < 2 ^ 62 := by
    have p0 := mag_mul_le (x := a.n2) (y := a.n9) ha.h2 (by have := ha.h9; omega) le_rfl le_rfl
    have p1 := mag_mul_le (x := a.n3) (y := a.n8) ha.h3 ha.h8 le_rfl le_rfl
    have p2 := mag_mul_le (x := a.n4) (y := a.n7) ha.h4 ha.h7 le_rfl le_rfl
    have p3 := mag_mul_le (x := a.n5) (y := a.n6) ha.h5 ha.h6 le_rfl le_rfl
    simp only [m11, UInt64.toNat_add, toNat_shr26, mul_toNat, Nat.mod_add_mod, true_and, two_mul_toNat a.n2 a.n9 (by omega), two_mul_toNat a.n3 a.n8 (by omega), two_mul_toNat a.n4 a.n7 (by omega), two_mul_toNat a.n5 a.n6 (by omega)]
    clear * - p0 p1 p2 p3 bm10
    generalize a.n2.toNat * a.n9.toNat = x0 at *
    generalize a.n3.toNat * a.n8.toNat = x1 at *
    generalize a.n4.toNat * a.n7.toNat = x2 at *
    generalize a.n5.toNat * a.n6.toNat = x3 at *
    rw [Nat.mod_eq_of_lt (by omega)]
    omega
  obtain ⟨em11, bm11⟩ := em11
  have es11 : t11.toNat = m11.toNat % 2 ^ 26 := toNat_mask64 _
  have bs11 : t11.toNat < 2 ^ 26 := es11 ▸ mod26_lt _
  have dm11 := Nat.div_add_mod m11.toNat (2 ^ 26)
  rw [← es11] at dm11
  clear_value m11 t11
  have em12 : m12.toNat = m11.toNat / 2 ^ 26 + 2 * (a.n3.toNat * a.n9.toNat) + 2 * (a.n4.toNat * a.n8.toNat) + 2 * (a.n5.toNat * a.n7.toNat) + a.n6.toNat * a.n6.toNat ∧ m12.toNat < 2 ^ 62 := by
    have p0 := mag_mul_le (x := a.n3) (y := a.n9) ha.h3 (by have := ha.h9; omega) le_rfl le_rfl
    have p1 := mag_mul_le (x := a.n4) (y := a.n8) ha.h4 ha.h8 le_rfl le_rfl
    have p2 := mag_mul_le (x := a.n5) (y := a.n7) ha.h5 ha.h7 le_rfl le_rfl
    have p3 := mag_mul_le (x := a.n6) (y := a.n6) ha.h6 ha.h6 le_rfl le_rfl
    simp only [m12, UInt64.toNat_add, toNat_shr26, mul_toNat, Nat.mod_add_mod, true_and, two_mul_toNat a.n3 a.n9 (by omega), two_mul_toNat a.n4 a.n8 (by omega), two_mul_toNat a.n5 a.n7 (by omega)]
    clear * - p0 p1 p2 p3 bm11
    generalize a.n3.toNat * a.n9.toNat = x0 at *
    generalize a.n4.toNat * a.n8.toNat = x1 at *
    generalize a.n5.toNat * a.n7.toNat = x2 at *
    generalize a.n6.toNat * a.n6.toNat = x3 at *
    rw [Nat.mod_eq_of_lt (by omega)]
    omega
  obtain ⟨em12, bm12⟩ := em12
  have es12 : t12.toNat = m12.toNat % 2 ^ 26 := toNat_mask64 _
  have bs12 : t12.toNat < 2 ^ 26 := es12 ▸ mod26_lt _
  have dm12 := Nat.div_add_mod m12.toNat (2 ^ 26)
  rw [← es12] at dm12
  clear_value m12 t12
  have em13 : m13.toNat = m12.toNat / 2 ^ 26 + 2 * (a.n4.toNat * a.n9.toNat) + 2 * (a.n5.toNat * a.n8.toNat) + 2 * (a.n6.toNat * a.n7.toNat) ∧ m13.toNat < 2 ^ 62 := by
    have p0 := mag_mul_le (x := a.n4) (y := a.n9) ha.h4 (by have := ha.h9; omega) le_rfl le_rfl
    have p1 := mag_mul_le (x := a.n5) (y := a.n8) ha.h5 ha.h8 le_rfl le_rfl
    have p2 := mag_mul_le (x := a.n6) (y := a.n7) ha.h6 ha.h7 le_rfl le_rfl
    simp only [m13, UInt64.toNat_add, toNat_shr26, mul_toNat, Nat.mod_add_mod, true_and, two_mul_toNat a.n4 a.n9 (by omega), two_mul_toNat a.n5 a.n8 (by omega), two_mul_toNat a.n6 a.n7 (by omega)]
    clear * - p0 p1 p2 bm12
    generalize a.n4.toNat * a.n9.toNat = x0 at *
    generalize a.n5.toNat * a.n8.toNat = x1 at *
    generalize a.n6.toNat * a.n7.toNat = x2 at *
    rw [Nat.mod_eq_of_lt (by omega)]
    omega
  obtain ⟨em13, bm13⟩ := em13
  have es13 : t13.toNat = m13.toNat % 2 ^ 26 := toNat_mask64 _
  have bs13 : t13.toNat < 2 ^ 26 := es13 ▸ mod26_lt _
  have dm13 := Nat.div_add_mod m13.toNat (2 ^ 26)
  rw [← es13] at dm13
  clear_value m13 t13
  have em14 : m14.toNat = m13.toNat / 2 ^ 26 + 2 * (a.n5.toNat * a.n9.toNat) + 2 * (a.n6.toNat * a.n8.toNat) + a.n7.toNat * a.n7.toNat ∧ m14.toNat < 2 ^ 62 := by
    have p0 := mag_mul_le (x := a.n5) (y := a.n9) ha.h5 (by have := ha.h9; omega) le_rfl le_rfl
    have p1 := mag_mul_le (x := a.n6) (y := a.n8) ha.h6 ha.h8 le_rfl le_rfl
    have p2 := mag_mul_le (x := a.n7) (y := a.n7) ha.h7 ha.h7 le_rfl le_rfl
    simp only [m14, UInt64.toNat_add, toNat_shr26, mul_toNat, Nat.mod_add_mod, true_and, two_mul_toNat a.n5 a.n9 (by omega), two_mul_toNat a.n6 a.n8 (by omega)]
    clear * - p0 p1 p2 bm13
    generalize a.n5.toNat * a.n9.toNat = x0 at *
    generalize a.n6.toNat * a.n8.toNat = x1 at *
    generalize a.n7.toNat * a.n7.toNat = x2 at *
    rw [Nat.mod_eq_of_lt (by omega)]
    omega
  obtain ⟨em14, bm14⟩ := em14
  have es14 : t14.toNat = m14.toNat % 2 ^ 26 := toNat_mask64 _
  have bs14 : t14.toNat < 2 ^ 26 := es14 ▸ mod26_lt _
  have dm14 := Nat.div_add_mod m14.toNat (2 ^ 26)
  rw [← es14] at dm14
  clear_value m14 t14
  have em15 : m15.toNat = m14.toNat / 2 ^ 26 + 2 * (a.n6.toNat * a.n9.toNat) + 2 * (a.n7.toNat * a.n8.toNat) ∧ m15.toNat < 2 ^ 62 := by
    have p0 := mag_mul_le (x := a.n6) (y := a.n9) ha.h6 (by have := ha.h9; omega) le_rfl le_rfl
    have p1 := mag_mul_le (x := a.n7) (y := a.n8) ha.h7 ha.h8 le_rfl le_rfl
    simp only [m15, UInt64.toNat_add, toNat_shr26, mul_toNat, Nat.mod_add_mod, true_and, two_mul_toNat a.n6 a.n9 (by omega), two_mul_toNat a.n7 a.n8 (by omega)]
    clear * - p0 p1 bm14
    generalize a.n6.toNat * a.n9.toNat = x0 at *
    generalize a.n7.toNat * a.n8.toNat = x1 at *
    rw [Nat.mod_eq_of_lt (by omega)]
    omega
  obtain ⟨em15, bm15⟩ := em15
  have es15 : t15.toNat = m15.toNat % 2 ^ 26 := toNat_mask64 _
  have bs15 : t15.toNat < 2 ^ 26 := es15 ▸ mod26_lt _
  have dm15 := Nat.div_add_mod m15.toNat (2 ^ 26)
  rw [← es15] at dm15
  clear_value m15 t15
  have em16 : m16.toNat = m15.toNat / 2 ^ 26 + 2 * (a.n7.toNat * a.n9.toNat) + a.n8.toNat * a.n8.toNat ∧ m16.toNat < 2 ^ 62 := by
    have p0 := mag_mul_le (x := a.n7) (y := a.n9) ha.h7 (by have := ha.h9; omega) le_rfl le_rfl
    have p1 := mag_mul_le (x := a.n8) (y := a.n8) ha.h8 ha.h8 le_rfl le_rfl
    simp only [m16, UInt64.toNat_add, toNat_shr26, mul_toNat, Nat.mod_add_mod, true_and, two_mul_toNat a.n7 a.n9 (by omega)]
    clear * - p0 p1 bm15
    generalize a.n7.toNat * a.n9.toNat = x0 at *
    generalize a.n8.toNat * a.n8.toNat = x1 at *
    rw [Nat.mod_eq_of_lt (by omega)]
    omega
  obtain ⟨em16, bm16⟩ := em16
  have es16 : t16.toNat = m16.toNat % 2 ^ 26 := toNat_mask64 _
  have bs16 : t16.toNat < 2 ^ 26 := es16 ▸ mod26_lt _
  have dm16 := Nat.div_add_mod m16.toNat (2 ^ 26)
  rw [← es16] at dm16
  clear_value m16 t16
  have em17 : m17.toNat = m16.toNat / 2 ^ 26 + 2 * (a.n8.toNat * a.n9.toNat) ∧ m17.toNat < 2 ^ 62 := by
    have p0 := mag_mul_le (x := a.n8) (y := a.n9) ha.h8 (by have := ha.h9; omega) le_rfl le_rfl
    simp only [m17, UInt64.toNat_add, toNat_shr26, mul_toNat, Nat.mod_add_mod, true_and, two_mul_toNat a.n8 a.n9 (by omega)]
    clear * - p0 bm16
    generalize a.n8.toNat * a.n9.toNat = x0 at *
    rw [Nat.mod_eq_of_lt (by omega)]
    omega
  obtain ⟨em17, bm17⟩ := em17
  have es17 : t17.toNat = m17.toNat % 2 ^ 26 := toNat_mask64 _
  have bs17 : t17.toNat < 2 ^ 26 := es17 ▸ mod26_lt _
  have dm17 := Nat.div_add_mod m17.toNat (2 ^ 26)
  rw [← es17] at dm17
  clear_value m17 t17
  have em18 : m18.toNat = m17.toNat / 2 ^ 26 + a.n9.toNat * a.n9.toNat ∧ m18.toNat < 2 ^ 51 := by
    have p0 := Nat.mul_le_mul ha.h9 ha.h9
    simp only [m18, UInt64.toNat_add, toNat_shr26, mul_toNat, Nat.mod_add_mod, true_and]
    clear * - p0 bm17
    generalize a.n9.toNat * a.n9.toNat = x0 at *
    rw [Nat.mod_eq_of_lt (by omega)]
    omega
  obtain ⟨em18, bm18⟩ := em18
  have es18 : t18.toNat = m18.toNat % 2 ^ 26 := toNat_mask64 _
  have bs18 : t18.toNat < 2 ^ 26 := es18 ▸ mod26_lt _
  have dm18 := Nat.div_add_mod m18.toNat (2 ^ 26)
  rw [← es18] at dm18
  clear_value m18 t18
  have et19 : t19.toNat = m18.toNat / 2 ^ 26 := toNat_shr26 _
  have bt19 : t19.toNat < 2 ^ 25 := by clear * - et19 bm18; omega
  rw [← et19] at dm18
  clear_value t19
  obtain ⟨hm, hq⟩ := reduce_spec t0 t1 t2 t3 t4 t5 t6 t7 t8 t9 t10 t11 t12 t13 t14 t15 t16 t17 t18 t19 bs0 bs1 bs2 bs3 bs4 bs5 bs6 bs7 bs8 bs9 bs10 bs11 bs12 bs13 bs14 bs15 bs16 bs17 bs18 bt19
  refine ⟨hm, ?_⟩
  convert hq using 1
  clear hm hq
  clear * - dm0 em0 dm1 em1 dm2 em2 dm3 em3 dm4 em4 dm5 em5 dm6 em6 dm7 em7 dm8 em8 dm9 em9 dm10 em10 dm11 em11 dm12 em12 dm13 em13 dm14 em14 dm15 em15 dm16 em16 dm17 em17 dm18 em18
  simp only [val]
  zify at *
  linear_combination (-1) * (2 ^ 0 * dm0 + 2 ^ 0 * em0 + 2 ^ 26 * dm1 + 2 ^ 26 * em1 + 2 ^ 52 * dm2 + 2 ^ 52 * em2 + 2 ^ 78 * dm3 + 2 ^ 78 * em3 + 2 ^ 104 * dm4 + 2 ^ 104 * em4 + 2 ^ 130 * dm5 + 2 ^ 130 * em5 + 2 ^ 156 * dm6 + 2 ^ 156 * em6 + 2 ^ 182 * dm7 + 2 ^ 182 * em7 + 2 ^ 208 * dm8 + 2 ^ 208 * em8 + 2 ^ 234 * dm9 + 2 ^ 234 * em9 + 2 ^ 260 * dm10 + 2 ^ 260 * em10 + 2 ^ 286 * dm11 + 2 ^ 286 * em11 + 2 ^ 312 * dm12 + 2 ^ 312 * em12 + 2 ^ 338 * dm13 + 2 ^ 338 * em13 + 2 ^ 364 * dm14 + 2 ^ 364 * em14 + 2 ^ 390 * dm15 + 2 ^ 390 * em15 + 2 ^ 416 * dm16 + 2 ^ 416 * em16 + 2 ^ 442 * dm17 + 2 ^ 442 * em17 + 2 ^ 468 * dm18 + 2 ^ 468 * em18)

theorem mul_spec {a b : FieldVal} (ha : Mag a 8) (hb : Mag b 8) :
    Mag (mul2 a b) 1 ∧ ∃ q : ℕ, val (mul2 a b) + q * P = val a * val b :=
  ⟨(mul_red ha hb).1, (mul_red ha hb).2.mod⟩

theorem square_spec {a : FieldVal} (ha : Mag a 8) :
    Mag (squareVal a) 1 ∧ ∃ q : ℕ, val (squareVal a) + q * P = val a * val a :=
  ⟨(square_red ha).1, (square_red ha).2.mod⟩

end Zk.Field
