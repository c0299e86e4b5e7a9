import Verif.Field.Model
import Verif.Field.Modulus
import Mathlib.Data.ZMod.Basic
import Mathlib.Tactic.LinearCombination
import Mathlib.Tactic.Ring

/-!
# Multiplication of field values

`reduceTerms`, `mul2` and `squareVal` compute modulo p within the documented magnitudes.
-/

namespace Zk.Field

/-- The number a field value stands for: ten words in base 2^26, btcec/field.go:105-137. -/
def val (f : FieldVal) : ℕ :=
  f.n0.toNat + f.n1.toNat * 2 ^ 26 + f.n2.toNat * 2 ^ 52 + f.n3.toNat * 2 ^ 78 +
    f.n4.toNat * 2 ^ 104 + f.n5.toNat * 2 ^ 130 + f.n6.toNat * 2 ^ 156 + f.n7.toNat * 2 ^ 182 +
    f.n8.toNat * 2 ^ 208 + f.n9.toNat * 2 ^ 234

/-- A magnitude bound: every word is at most `m` times the largest word of a product.  The
argument of `NegateVal`, btcec/field.go:463-468, is such a bound; "bits overflow" in
btcec/field.go:113-119 is the room it leaves. -/
structure Mag (f : FieldVal) (m : ℕ) : Prop where
  h0 : f.n0.toNat ≤ m * (2 ^ 26 + 2 ^ 20)
  h1 : f.n1.toNat ≤ m * (2 ^ 26 + 2 ^ 20)
  h2 : f.n2.toNat ≤ m * (2 ^ 26 + 2 ^ 20)
  h3 : f.n3.toNat ≤ m * (2 ^ 26 + 2 ^ 20)
  h4 : f.n4.toNat ≤ m * (2 ^ 26 + 2 ^ 20)
  h5 : f.n5.toNat ≤ m * (2 ^ 26 + 2 ^ 20)
  h6 : f.n6.toNat ≤ m * (2 ^ 26 + 2 ^ 20)
  h7 : f.n7.toNat ≤ m * (2 ^ 26 + 2 ^ 20)
  h8 : f.n8.toNat ≤ m * (2 ^ 26 + 2 ^ 20)
  h9 : f.n9.toNat ≤ m * 2 ^ 22

theorem Mag.mono {f : FieldVal} {m n : ℕ} (h : Mag f m) (hmn : m ≤ n) : Mag f n where
  h0 := h.h0.trans (Nat.mul_le_mul_right _ hmn)
  h1 := h.h1.trans (Nat.mul_le_mul_right _ hmn)
  h2 := h.h2.trans (Nat.mul_le_mul_right _ hmn)
  h3 := h.h3.trans (Nat.mul_le_mul_right _ hmn)
  h4 := h.h4.trans (Nat.mul_le_mul_right _ hmn)
  h5 := h.h5.trans (Nat.mul_le_mul_right _ hmn)
  h6 := h.h6.trans (Nat.mul_le_mul_right _ hmn)
  h7 := h.h7.trans (Nat.mul_le_mul_right _ hmn)
  h8 := h.h8.trans (Nat.mul_le_mul_right _ hmn)
  h9 := h.h9.trans (Nat.mul_le_mul_right _ hmn)

theorem toNat_mask64 (x : UInt64) : (x &&& fieldBaseMask64).toNat = x.toNat % 2 ^ 26 := by
  rw [UInt64.toNat_and]; exact Nat.and_two_pow_sub_one_eq_mod _ 26

theorem toNat_msb64 (x : UInt64) : (x &&& fieldMSBMask64).toNat = x.toNat % 2 ^ 22 := by
  rw [UInt64.toNat_and]; exact Nat.and_two_pow_sub_one_eq_mod _ 22

theorem toNat_shr26 (x : UInt64) : (x >>> 26).toNat = x.toNat / 2 ^ 26 := by
  rw [UInt64.toNat_shiftRight]; exact Nat.shiftRight_eq_div_pow _ 26

theorem toNat_shr22 (x : UInt64) : (x >>> 22).toNat = x.toNat / 2 ^ 22 := by
  rw [UInt64.toNat_shiftRight]; exact Nat.shiftRight_eq_div_pow _ 22

theorem mag_mul_le {m n : ℕ} {x y : UInt32} (hx : x.toNat ≤ m * (2 ^ 26 + 2 ^ 20))
    (hy : y.toNat ≤ n * (2 ^ 26 + 2 ^ 20)) (hm : m ≤ 8) (hn : n ≤ 8) :
    x.toNat * y.toNat ≤ 8 * (2 ^ 26 + 2 ^ 20) * (8 * (2 ^ 26 + 2 ^ 20)) :=
  Nat.mul_le_mul (hx.trans (Nat.mul_le_mul_right _ hm)) (hy.trans (Nat.mul_le_mul_right _ hn))

theorem mul_toNat (x y : UInt32) : (x.toUInt64 * y.toUInt64).toNat = x.toNat * y.toNat := by
  rw [UInt64.toNat_mul, UInt32.toNat_toUInt64, UInt32.toNat_toUInt64]
  refine Nat.mod_eq_of_lt ?_
  have := Nat.mul_lt_mul'' x.toNat_lt y.toNat_lt
  omega

theorem two_mul_toNat (x y : UInt32) (h : x.toNat * y.toNat < 2 ^ 63) :
    (2 * x.toUInt64 * y.toUInt64).toNat = 2 * (x.toNat * y.toNat) := by
  rw [UInt64.mul_assoc, UInt64.toNat_mul, mul_toNat]
  exact Nat.mod_eq_of_lt (by show 2 * _ < _; omega)

theorem red_first {t a : UInt64} (ht : t.toNat < 2 ^ 26) (ha : a.toNat < 2 ^ 26) :
    (t + a * 15632).toNat = t.toNat + a.toNat * 15632 ∧ (t + a * 15632).toNat < 2 ^ 41 := by
  simp only [UInt64.toNat_add, UInt64.toNat_mul, UInt64.toNat_ofNat, Nat.mod_add_mod,
    Nat.add_mod_mod, Nat.reduceMod, Nat.reducePow]
  rw [Nat.mod_eq_of_lt (by omega)]
  omega

theorem red_step {m t a b : UInt64} (hm : m.toNat < 2 ^ 41) (ht : t.toNat < 2 ^ 26)
    (ha : a.toNat < 2 ^ 26) (hb : b.toNat < 2 ^ 26) :
    ((m >>> 26) + t + a * 1024 + b * 15632).toNat =
      m.toNat / 2 ^ 26 + t.toNat + a.toNat * 1024 + b.toNat * 15632 ∧
    ((m >>> 26) + t + a * 1024 + b * 15632).toNat < 2 ^ 41 := by
  simp only [UInt64.toNat_add, UInt64.toNat_mul, toNat_shr26, UInt64.toNat_ofNat,
    Nat.mod_add_mod, Nat.add_mod_mod, Nat.reduceMod, Nat.reducePow]
  rw [Nat.mod_eq_of_lt (by omega)]
  omega

theorem red_last {m t a b : UInt64} (hm : m.toNat < 2 ^ 41) (ht : t.toNat < 2 ^ 26)
    (ha : a.toNat < 2 ^ 26) (hb : b.toNat < 2 ^ 25) :
    ((m >>> 26) + t + a * 1024 + b * 68719492368).toNat =
      m.toNat / 2 ^ 26 + t.toNat + a.toNat * 1024 + b.toNat * 68719492368 ∧
    ((m >>> 26) + t + a * 1024 + b * 68719492368).toNat < 2 ^ 61 + 2 ^ 40 := by
  simp only [UInt64.toNat_add, UInt64.toNat_mul, toNat_shr26, UInt64.toNat_ofNat,
    Nat.mod_add_mod, Nat.add_mod_mod, Nat.reduceMod, Nat.reducePow]
  rw [Nat.mod_eq_of_lt (by omega)]
  omega

theorem red_d0 {s m : UInt64} (hs : s.toNat < 2 ^ 26) (hm : m.toNat ≤ 2 ^ 39 + 2 ^ 18) :
    (s + m * 977).toNat = s.toNat + m.toNat * 977 ∧ (s + m * 977).toNat < 2 ^ 50 := by
  simp only [UInt64.toNat_add, UInt64.toNat_mul, UInt64.toNat_ofNat, Nat.mod_add_mod,
    Nat.add_mod_mod, Nat.reduceMod, Nat.reducePow]
  rw [Nat.mod_eq_of_lt (by omega)]
  omega

theorem red_d1 {d s m : UInt64} (hd : d.toNat < 2 ^ 50) (hs : s.toNat < 2 ^ 26)
    (hm : m.toNat ≤ 2 ^ 39 + 2 ^ 18) :
    ((d >>> 26) + s + m * 64).toNat = d.toNat / 2 ^ 26 + s.toNat + m.toNat * 64 ∧
    ((d >>> 26) + s + m * 64).toNat < 2 ^ 45 + 2 ^ 28 := by
  simp only [UInt64.toNat_add, UInt64.toNat_mul, toNat_shr26, UInt64.toNat_ofNat,
    Nat.mod_add_mod, Nat.add_mod_mod, Nat.reduceMod, Nat.reducePow]
  rw [Nat.mod_eq_of_lt (by omega)]
  omega

theorem red_r2 {d s : UInt64} (hd : d.toNat < 2 ^ 45 + 2 ^ 28) (hs : s.toNat < 2 ^ 26) :
    ((d >>> 26) + s).toUInt32.toNat = d.toNat / 2 ^ 26 + s.toNat ∧
    ((d >>> 26) + s).toUInt32.toNat ≤ 2 ^ 26 + 2 ^ 20 := by
  simp only [UInt64.toNat_toUInt32, UInt64.toNat_add, toNat_shr26]
  omega

theorem toUInt32_mask (d : UInt64) :
    (d &&& fieldBaseMask64).toUInt32.toNat = d.toNat % 2 ^ 26 := by
  rw [UInt64.toNat_toUInt32, toNat_mask64]; omega

theorem toUInt32_small {d : UInt64} (h : d.toNat < 2 ^ 26) : d.toUInt32.toNat = d.toNat := by
  rw [UInt64.toNat_toUInt32]; omega

theorem mod26_lt (x : ℕ) : x % 2 ^ 26 < 2 ^ 26 := Nat.mod_lt _ (by decide)

theorem mod22_lt (x : ℕ) : x % 2 ^ 22 < 2 ^ 22 := Nat.mod_lt _ (by decide)

/-- The words of a product are a function of the number `n` that is reduced: first the part above
2^260 is folded, then (giving `W`, `M`) the part above 2^256, and the last carry stops in the third
word.  Reference for btcec/field.go:741-880. -/
structure Red (r : FieldVal) (n : ℕ) : Prop where
  h0 : r.n0.toNat < 2 ^ 26
  h1 : r.n1.toNat < 2 ^ 26
  h3 : r.n3.toNat < 2 ^ 26
  h4 : r.n4.toNat < 2 ^ 26
  h5 : r.n5.toNat < 2 ^ 26
  h6 : r.n6.toNat < 2 ^ 26
  h7 : r.n7.toNat < 2 ^ 26
  h8 : r.n8.toNat < 2 ^ 26
  h9 : r.n9.toNat < 2 ^ 22
  ex : ∃ W M : ℕ, W < 2 ^ 256 ∧ W + M * 2 ^ 256 = n % 2 ^ 260 + n / 2 ^ 260 * 68719492368 ∧
    val r = W + M * 4294968273 ∧
    r.n3.toNat + r.n4.toNat * 2 ^ 26 + r.n5.toNat * 2 ^ 52 + r.n6.toNat * 2 ^ 78 +
      r.n7.toNat * 2 ^ 104 + r.n8.toNat * 2 ^ 130 + r.n9.toNat * 2 ^ 156 = W / 2 ^ 78

theorem Red.mod {r : FieldVal} {n : ℕ} (h : Red r n) : ∃ q : ℕ, val r + q * P = n := by
  obtain ⟨W, M, _, h1, h2, _⟩ := h.ex
  refine ⟨n / 2 ^ 260 * 16 + M, ?_⟩
  have hP : P = 2 ^ 256 - 4294968273 := by decide
  have h3 := Nat.div_add_mod n (2 ^ 260)
  rw [h2, hP]
  clear * - h1 h3
  generalize n / 2 ^ 260 = x at *
  generalize n % 2 ^ 260 = y at *
  omega

set_option exponentiation.threshold 600 in
theorem reduce_spec (t0 t1 t2 t3 t4 t5 t6 t7 t8 t9 t10 t11 t12 t13 t14 t15 t16 t17 t18 t19 : UInt64)
    (h0 : t0.toNat < 2 ^ 26)    (h1 : t1.toNat < 2 ^ 26)    (h2 : t2.toNat < 2 ^ 26)
    (h3 : t3.toNat < 2 ^ 26)    (h4 : t4.toNat < 2 ^ 26)    (h5 : t5.toNat < 2 ^ 26)
    (h6 : t6.toNat < 2 ^ 26)    (h7 : t7.toNat < 2 ^ 26)    (h8 : t8.toNat < 2 ^ 26)
    (h9 : t9.toNat < 2 ^ 26)    (h10 : t10.toNat < 2 ^ 26)    (h11 : t11.toNat < 2 ^ 26)
    (h12 : t12.toNat < 2 ^ 26)    (h13 : t13.toNat < 2 ^ 26)    (h14 : t14.toNat < 2 ^ 26)
    (h15 : t15.toNat < 2 ^ 26)    (h16 : t16.toNat < 2 ^ 26)    (h17 : t17.toNat < 2 ^ 26)
    (h18 : t18.toNat < 2 ^ 26)
    (h19 : t19.toNat < 2 ^ 25) :
    Mag (reduceTerms t0 t1 t2 t3 t4 t5 t6 t7 t8 t9 t10 t11 t12 t13 t14 t15 t16 t17 t18 t19) 1 ∧
    Red (reduceTerms t0 t1 t2 t3 t4 t5 t6 t7 t8 t9 t10 t11 t12 t13 t14 t15 t16 t17 t18 t19)
      (t0.toNat * 2 ^ 0 + t1.toNat * 2 ^ 26 + t2.toNat * 2 ^ 52 + t3.toNat * 2 ^ 78 + t4.toNat * 2 ^ 104 + t5.toNat * 2 ^ 130 + t6.toNat * 2 ^ 156 + t7.toNat * 2 ^ 182 + t8.toNat * 2 ^ 208 + t9.toNat * 2 ^ 234 + t10.toNat * 2 ^ 260 + t11.toNat * 2 ^ 286 + t12.toNat * 2 ^ 312 + t13.toNat * 2 ^ 338 + t14.toNat * 2 ^ 364 + t15.toNat * 2 ^ 390 + t16.toNat * 2 ^ 416 + t17.toNat * 2 ^ 442 + t18.toNat * 2 ^ 468 + t19.toNat * 2 ^ 494) := by
  unfold reduceTerms
  extract_lets m0 s0 m1 s1 m2 s2 m3 s3 m4 s4 m5 s5 m6 s6 m7 s7 m8 s8 m9 s9 mm d0 r0 d1 r1 r2
  obtain ⟨em0, bm0⟩ := red_first h0 h10
  change m0.toNat = _ at em0
  change m0.toNat < _ at bm0
  have es0 : s0.toNat = m0.toNat % 2 ^ 26 := toNat_mask64 _
  have bs0 : s0.toNat < 2 ^ 26 := es0 ▸ mod26_lt _
  have dm0 := Nat.div_add_mod m0.toNat (2 ^ 26)
  rw [← es0] at dm0
  clear_value m0 s0
  obtain ⟨em1, bm1⟩ := red_step bm0 h1 h10 h11
  change m1.toNat = _ at em1
  change m1.toNat < _ at bm1
  have es1 : s1.toNat = m1.toNat % 2 ^ 26 := toNat_mask64 _
  have bs1 : s1.toNat < 2 ^ 26 := es1 ▸ mod26_lt _
  have dm1 := Nat.div_add_mod m1.toNat (2 ^ 26)
  rw [← es1] at dm1
  clear_value m1 s1
  obtain ⟨em2, bm2⟩ := red_step bm1 h2 h11 h12
  change m2.toNat = _ at em2
  change m2.toNat < _ at bm2
  have es2 : s2.toNat = m2.toNat % 2 ^ 26 := toNat_mask64 _
  have bs2 : s2.toNat < 2 ^ 26 := es2 ▸ mod26_lt _
  have dm2 := Nat.div_add_mod m2.toNat (2 ^ 26)
  rw [← es2] at dm2
  clear_value m2 s2
  obtain ⟨em3, bm3⟩ := red_step bm2 h3 h12 h13
  change m3.toNat = _ at em3
  change m3.toNat < _ at bm3
  have es3 : s3.toNat = m3.toNat % 2 ^ 26 := toNat_mask64 _
  have bs3 : s3.toNat < 2 ^ 26 := es3 ▸ mod26_lt _
  have dm3 := Nat.div_add_mod m3.toNat (2 ^ 26)
  rw [← es3] at dm3
  clear_value m3 s3
  obtain ⟨em4, bm4⟩ := red_step bm3 h4 h13 h14
  change m4.toNat = _ at em4
  change m4.toNat < _ at bm4
  have es4 : s4.toNat = m4.toNat % 2 ^ 26 := toNat_mask64 _
  have bs4 : s4.toNat < 2 ^ 26 := es4 ▸ mod26_lt _
  have dm4 := Nat.div_add_mod m4.toNat (2 ^ 26)
  rw [← es4] at dm4
  clear_value m4 s4
  obtain ⟨em5, bm5⟩ := red_step bm4 h5 h14 h15
  change m5.toNat = _ at em5
  change m5.toNat < _ at bm5
  have es5 : s5.toNat = m5.toNat % 2 ^ 26 := toNat_mask64 _
  have bs5 : s5.toNat < 2 ^ 26 := es5 ▸ mod26_lt _
  have dm5 := Nat.div_add_mod m5.toNat (2 ^ 26)
  rw [← es5] at dm5
  clear_value m5 s5
  obtain ⟨em6, bm6⟩ := red_step bm5 h6 h15 h16
  change m6.toNat = _ at em6
  change m6.toNat < _ at bm6
  have es6 : s6.toNat = m6.toNat % 2 ^ 26 := toNat_mask64 _
  have bs6 : s6.toNat < 2 ^ 26 := es6 ▸ mod26_lt _
  have dm6 := Nat.div_add_mod m6.toNat (2 ^ 26)
  rw [← es6] at dm6
  clear_value m6 s6
  obtain ⟨em7, bm7⟩ := red_step bm6 h7 h16 h17
  change m7.toNat = _ at em7
  change m7.toNat < _ at bm7
  have es7 : s7.toNat = m7.toNat % 2 ^ 26 := toNat_mask64 _
  have bs7 : s7.toNat < 2 ^ 26 := es7 ▸ mod26_lt _
  have dm7 := Nat.div_add_mod m7.toNat (2 ^ 26)
  rw [← es7] at dm7
  clear_value m7 s7
  obtain ⟨em8, bm8⟩ := red_step bm7 h8 h17 h18
  change m8.toNat = _ at em8
  change m8.toNat < _ at bm8
  have es8 : s8.toNat = m8.toNat % 2 ^ 26 := toNat_mask64 _
  have bs8 : s8.toNat < 2 ^ 26 := es8 ▸ mod26_lt _
  have dm8 := Nat.div_add_mod m8.toNat (2 ^ 26)
  rw [← es8] at dm8
  clear_value m8 s8
  obtain ⟨em9, bm9⟩ := red_last bm8 h9 h18 h19
  change m9.toNat = _ at em9
  change m9.toNat < _ at bm9
  have es9 : s9.toNat = m9.toNat % 2 ^ 22 := toNat_msb64 _
  have bs9 : s9.toNat < 2 ^ 22 := es9 ▸ mod22_lt _
  have dm9 := Nat.div_add_mod m9.toNat (2 ^ 22)
  rw [← es9] at dm9
  clear_value m9 s9
  have emm : mm.toNat = m9.toNat / 2 ^ 22 := toNat_shr22 _
  have bmm : mm.toNat ≤ 2 ^ 39 + 2 ^ 18 := by clear * - emm bm9; omega
  rw [← emm] at dm9
  clear_value mm
  obtain ⟨ed0, bd0⟩ := red_d0 bs0 bmm
  change d0.toNat = _ at ed0
  change d0.toNat < _ at bd0
  have er0 : r0.toNat = d0.toNat % 2 ^ 26 := toUInt32_mask _
  have br0 : r0.toNat < 2 ^ 26 := er0 ▸ mod26_lt _
  have dd0 := Nat.div_add_mod d0.toNat (2 ^ 26)
  rw [← er0] at dd0
  clear_value d0 r0
  obtain ⟨ed1, bd1⟩ := red_d1 bd0 bs1 bmm
  change d1.toNat = _ at ed1
  change d1.toNat < _ at bd1
  have er1 : r1.toNat = d1.toNat % 2 ^ 26 := toUInt32_mask _
  have br1 : r1.toNat < 2 ^ 26 := er1 ▸ mod26_lt _
  have dd1 := Nat.div_add_mod d1.toNat (2 ^ 26)
  rw [← er1] at dd1
  obtain ⟨er2, br2⟩ := red_r2 bd1 bs2
  change r2.toNat = _ at er2
  change r2.toNat ≤ _ at br2
  clear_value d1 r1 r2
  have er3 := toUInt32_small bs3
  have er4 := toUInt32_small bs4
  have er5 := toUInt32_small bs5
  have er6 := toUInt32_small bs6
  have er7 := toUInt32_small bs7
  have er8 := toUInt32_small bs8
  have er9 := toUInt32_small (bs9.trans (by decide))
  constructor
  · exact ⟨by show r0.toNat ≤ _; clear * - br0; omega, by show r1.toNat ≤ _; clear * - br1; omega,
      by show r2.toNat ≤ _; clear * - br2; omega,
      by show s3.toUInt32.toNat ≤ _; clear * - er3 bs3; omega,
      by show s4.toUInt32.toNat ≤ _; clear * - er4 bs4; omega,
      by show s5.toUInt32.toNat ≤ _; clear * - er5 bs5; omega,
      by show s6.toUInt32.toNat ≤ _; clear * - er6 bs6; omega,
      by show s7.toUInt32.toNat ≤ _; clear * - er7 bs7; omega,
      by show s8.toUInt32.toNat ≤ _; clear * - er8 bs8; omega,
      by show s9.toUInt32.toNat ≤ _; clear * - er9 bs9; omega⟩
  have hn : (t0.toNat * 2 ^ 0 + t1.toNat * 2 ^ 26 + t2.toNat * 2 ^ 52 + t3.toNat * 2 ^ 78 + t4.toNat * 2 ^ 104 + t5.toNat * 2 ^ 130 + t6.toNat * 2 ^ 156 + t7.toNat * 2 ^ 182 + t8.toNat * 2 ^ 208 + t9.toNat * 2 ^ 234 + t10.toNat * 2 ^ 260 + t11.toNat * 2 ^ 286 + t12.toNat * 2 ^ 312 + t13.toNat * 2 ^ 338 + t14.toNat * 2 ^ 364 + t15.toNat * 2 ^ 390 + t16.toNat * 2 ^ 416 + t17.toNat * 2 ^ 442 + t18.toNat * 2 ^ 468 + t19.toNat * 2 ^ 494) % 2 ^ 260 = t0.toNat * 2 ^ 0 + t1.toNat * 2 ^ 26 + t2.toNat * 2 ^ 52 + t3.toNat * 2 ^ 78 + t4.toNat * 2 ^ 104 + t5.toNat * 2 ^ 130 + t6.toNat * 2 ^ 156 + t7.toNat * 2 ^ 182 + t8.toNat * 2 ^ 208 + t9.toNat * 2 ^ 234 ∧
      (t0.toNat * 2 ^ 0 + t1.toNat * 2 ^ 26 + t2.toNat * 2 ^ 52 + t3.toNat * 2 ^ 78 + t4.toNat * 2 ^ 104 + t5.toNat * 2 ^ 130 + t6.toNat * 2 ^ 156 + t7.toNat * 2 ^ 182 + t8.toNat * 2 ^ 208 + t9.toNat * 2 ^ 234 + t10.toNat * 2 ^ 260 + t11.toNat * 2 ^ 286 + t12.toNat * 2 ^ 312 + t13.toNat * 2 ^ 338 + t14.toNat * 2 ^ 364 + t15.toNat * 2 ^ 390 + t16.toNat * 2 ^ 416 + t17.toNat * 2 ^ 442 + t18.toNat * 2 ^ 468 + t19.toNat * 2 ^ 494) / 2 ^ 260 = t10.toNat * 2 ^ 0 + t11.toNat * 2 ^ 26 + t12.toNat * 2 ^ 52 + t13.toNat * 2 ^ 78 + t14.toNat * 2 ^ 104 + t15.toNat * 2 ^ 130 + t16.toNat * 2 ^ 156 + t17.toNat * 2 ^ 182 + t18.toNat * 2 ^ 208 + t19.toNat * 2 ^ 234 := by
    clear * - h0 h1 h2 h3 h4 h5 h6 h7 h8 h9
    omega
  refine ⟨br0, br1, er3.trans_lt bs3, er4.trans_lt bs4, er5.trans_lt bs5, er6.trans_lt bs6,
    er7.trans_lt bs7, er8.trans_lt bs8, er9.trans_lt bs9,
    s0.toNat * 2 ^ 0 + s1.toNat * 2 ^ 26 + s2.toNat * 2 ^ 52 + s3.toNat * 2 ^ 78 + s4.toNat * 2 ^ 104 + s5.toNat * 2 ^ 130 + s6.toNat * 2 ^ 156 + s7.toNat * 2 ^ 182 + s8.toNat * 2 ^ 208 + s9.toNat * 2 ^ 234,
    mm.toNat, ?_, ?_, ?_, ?_⟩
  · clear * - bs0 bs1 bs2 bs3 bs4 bs5 bs6 bs7 bs8 bs9
    omega
  · rw [hn.1, hn.2]
    clear * - dm0 em0 dm1 em1 dm2 em2 dm3 em3 dm4 em4 dm5 em5 dm6 em6 dm7 em7 dm8 em8 dm9 em9
    zify at *
    linear_combination 2 ^ 0 * dm0 + 2 ^ 0 * em0 + 2 ^ 26 * dm1 + 2 ^ 26 * em1 + 2 ^ 52 * dm2 + 2 ^ 52 * em2 + 2 ^ 78 * dm3 + 2 ^ 78 * em3 + 2 ^ 104 * dm4 + 2 ^ 104 * em4 + 2 ^ 130 * dm5 + 2 ^ 130 * em5 + 2 ^ 156 * dm6 + 2 ^ 156 * em6 + 2 ^ 182 * dm7 + 2 ^ 182 * em7 + 2 ^ 208 * dm8 + 2 ^ 208 * em8 + 2 ^ 234 * dm9 + 2 ^ 234 * em9
  · simp only [val, er3, er4, er5, er6, er7, er8, er9]
    clear * - er2 dd1 ed1 dd0 ed0
    zify at *
    linear_combination 2 ^ 52 * er2 + 2 ^ 26 * dd1 + 2 ^ 26 * ed1 + dd0 + ed0
  · simp only [er3, er4, er5, er6, er7, er8, er9]
    clear * - bs0 bs1 bs2
    omega

end Zk.Field
