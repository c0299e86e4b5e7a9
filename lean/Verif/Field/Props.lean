import Verif.Field.ZLemmas

/-!
# Properties of the field arithmetic of btcec/field.go
-/

namespace Zk.Field

/-- Words all at 8 times the largest product word: a field value of magnitude 8, btcec/field.go:105-137. -/
def big8 : FieldVal := ⟨545259520, 545259520, 545259520, 545259520, 545259520, 545259520, 545259520,
  545259520, 545259520, 33554432⟩

theorem big8_mag : Mag big8 8 := by constructor <;> decide

/-! ## C63 -/

/-- C63: `Mul2` of operands of magnitude 8 is the product modulo p, of magnitude 1. -/
theorem C63_mul {a b : FieldVal} (ha : Mag a 8) (hb : Mag b 8) :
    Mag (mul2 a b) 1 ∧ val (mul2 a b) % P = val a * val b % P := by
  obtain ⟨h1, q, h2⟩ := mul_spec ha hb
  exact ⟨h1, by rw [← h2, Nat.add_mul_mod_self_right]⟩

/-- C63: `SquareVal` of an operand of magnitude 8 is the square modulo p, of magnitude 1. -/
theorem C63_square {a : FieldVal} (ha : Mag a 8) :
    Mag (squareVal a) 1 ∧ val (squareVal a) % P = val a ^ 2 % P := by
  obtain ⟨h1, q, h2⟩ := square_spec ha
  exact ⟨h1, by rw [pow_two, ← h2, Nat.add_mul_mod_self_right]⟩

example : Mag big8 8 ∧ val big8 > 8 * P := ⟨big8_mag, by decide⟩

/-! ## C64 -/

/-- C64: `Add2` (and `Add`) is exact. -/
theorem C64_add {a b : FieldVal} {m n : ℕ} (ha : Mag a m) (hb : Mag b n) (h : m + n ≤ 63) :
    val (add2 a b) = val a + val b ∧ Mag (add2 a b) (m + n) ∧ add a b = add2 a b := by
  obtain ⟨h1, h2⟩ := add2_spec ha hb h
  exact ⟨h1, h2, rfl⟩

/-- C64: `AddInt` is exact. -/
theorem C64_addInt {a : FieldVal} {m : ℕ} {u : UInt64} (ha : Mag a m) (hu : u.toNat ≤ 2 ^ 26)
    (h : m + 1 ≤ 63) : val (addInt a u) = val a + u.toNat ∧ Mag (addInt a u) (m + 1) :=
  addInt_spec ha hu h

/-- C64: `MulInt` is exact. -/
theorem C64_mulInt {a : FieldVal} {m : ℕ} {k : UInt64} (ha : Mag a m) (hk : k.toNat < 2 ^ 32)
    (h : k.toNat * m ≤ 63) :
    val (mulInt a k) = k.toNat * val a ∧ Mag (mulInt a k) (k.toNat * m) :=
  mulInt_spec ha hk h

/-- C64: `NegateVal` (and `Negate`) gives the additive inverse modulo p when the magnitude passed
is at least that of the operand. -/
theorem C64_negate {a : FieldVal} {m : ℕ} {k : UInt32} (ha : Mag a m) (hm : m ≤ k.toNat)
    (hk : k.toNat ≤ 62) :
    (val (negateVal a k) + val a) % P = 0 ∧ Mag (negateVal a k) (k.toNat + 1) ∧
      negate a k = negateVal a k := by
  obtain ⟨h1, h2⟩ := negateVal_spec ha hm hk
  exact ⟨by rw [h1, Nat.mul_mod_left], h2, rfl⟩

/-- C64: the magnitude passed to `Negate` matters: with 7 for an operand of magnitude 8 the result
is wrong. -/
theorem C64_negate_sharp : Mag big8 8 ∧ (val (negateVal big8 7) + val big8) % P ≠ 0 :=
  ⟨big8_mag, by decide⟩

example : Mag big8 8 ∧ 8 + 8 ≤ 63 ∧ (7 : UInt64).toNat * 8 ≤ 63 ∧ 8 ≤ (8 : UInt32).toNat :=
  ⟨big8_mag, by decide, by decide, by decide⟩

/-! ## C65 -/

/-- C65: `Normalize` reduces the value to [0, p), with all words within their bits. -/
theorem C65_normalize {f : FieldVal} {m : ℕ} (hf : Mag f m) (hm : m ≤ 63) :
    val (normalize f) = val f % P ∧ (normalize f).n0.toNat < 2 ^ 26 ∧
      (normalize f).n1.toNat < 2 ^ 26 ∧ (normalize f).n2.toNat < 2 ^ 26 ∧
      (normalize f).n3.toNat < 2 ^ 26 ∧ (normalize f).n4.toNat < 2 ^ 26 ∧
      (normalize f).n5.toNat < 2 ^ 26 ∧ (normalize f).n6.toNat < 2 ^ 26 ∧
      (normalize f).n7.toNat < 2 ^ 26 ∧ (normalize f).n8.toNat < 2 ^ 26 ∧
      (normalize f).n9.toNat < 2 ^ 22 := by
  obtain ⟨h1, h2⟩ := normalize_spec (hf.loose hm)
  obtain ⟨a0, a1, a2, a3, a4, a5, a6, a7, a8, a9⟩ := h2
  exact ⟨h1, a0, a1, a2, a3, a4, a5, a6, a7, a8, a9⟩

/-- C65: two values normalise to the same words exactly when they are equal modulo p. -/
theorem C65_unique {f g : FieldVal} {m n : ℕ} (hf : Mag f m) (hm : m ≤ 63) (hg : Mag g n)
    (hn : n ≤ 63) : normalize f = normalize g ↔ val f % P = val g % P := by
  obtain ⟨h1, h2⟩ := normalize_spec (hf.loose hm)
  obtain ⟨h3, h4⟩ := normalize_spec (hg.loose hn)
  rw [← h1, ← h3]
  exact ⟨fun h => by rw [h], fun h => h2.val_inj h4 h⟩

/-- C65: after `Normalize`, `Equals` decides equality modulo p. -/
theorem C65_equals {f g : FieldVal} {m n : ℕ} (hf : Mag f m) (hm : m ≤ 63) (hg : Mag g n)
    (hn : n ≤ 63) : equals (normalize f) (normalize g) = true ↔ val f % P = val g % P := by
  rw [equals_iff, C65_unique hf hm hg hn]

/-- C65: after `Normalize`, `IsZero` decides whether the value is zero modulo p. -/
theorem C65_isZero {f : FieldVal} {m : ℕ} (hf : Mag f m) (hm : m ≤ 63) :
    isZero (normalize f) = true ↔ val f % P = 0 := by
  rw [isZero_iff, (C65_normalize hf hm).1]

/-- C65: after `Normalize`, `IsOdd` is the parity of the representative. -/
theorem C65_isOdd {f : FieldVal} {m : ℕ} (hf : Mag f m) (hm : m ≤ 63) :
    isOdd (normalize f) = true ↔ val f % P % 2 = 1 := by
  have h : R f m (fz f) := ⟨hf, rfl⟩
  rw [(h.normalize hm).isOdd, decide_eq_true_eq, fz, ZMod.val_natCast]

/-- C65: without `Normalize` the answer of `IsZero` may be wrong: the words of p are not zero. -/
theorem C65_needs_normalize : ∃ f : FieldVal, Mag f 1 ∧ val f % P = 0 ∧ isZero f = false :=
  ⟨⟨fieldPrimeWordZero, fieldPrimeWordOne, fieldBaseMask, fieldBaseMask, fieldBaseMask,
    fieldBaseMask, fieldBaseMask, fieldBaseMask, fieldBaseMask, fieldMSBMask⟩,
    by constructor <;> decide, by decide, by decide⟩

example : Mag big8 8 ∧ P ≤ val big8 := ⟨big8_mag, by decide⟩

/-! ## C66 -/

/-- C66: `SetBytes` then `PutBytes` is the identity on 32-byte strings. -/
theorem C66_roundtrip (b : Vector UInt8 32) : fieldBytes (setBytes32 b) = b := fieldBytes_setBytes b

/-- C66: the value after `SetBytes` is the big-endian number. -/
theorem C66_value (b : Vector UInt8 32) : val (setBytes32 b) = Zk.setBytes b.toList := by
  rw [setBytes_val, beVal_eq]

/-- C66: `PutBytes` of a normalised value is its big-endian encoding. -/
theorem C66_putBytes {f : FieldVal} {m : ℕ} (hf : Mag f m) (hm : m ≤ 63) :
    Zk.setBytes (fieldBytes (normalize f)).toList = val f % P := by
  have h : R f m (fz f) := ⟨hf, rfl⟩
  rw [(h.normalize hm).bytes, fz, ZMod.val_natCast]

/-- C66: `SetByteSlice` reads slices of up to 32 bytes as big-endian numbers and panics on longer
ones. -/
theorem C66_setByteSlice (b : Bytes) :
    (b.length ≤ 32 → ∃ f, setByteSlice b = .ok f ∧ val f = Zk.setBytes b) ∧
      (32 < b.length → setByteSlice b = .panic) := by
  refine ⟨fun h => ?_, setByteSlice_panic⟩
  obtain ⟨f, h1, _, h2⟩ := setByteSlice_ok h
  exact ⟨f, h1, h2⟩

example : ([1, 2, 3] : Bytes).length ≤ 32 ∧ 32 < (List.replicate 33 0 : Bytes).length := by decide

/-! ## C67 -/

/-- C67: `Inverse` is the multiplicative inverse modulo p, and 0 for 0. -/
theorem C67_inverse {f : FieldVal} {m : ℕ} (hf : Mag f m) (hm : m ≤ 8) :
    Mag (inverse f) 1 ∧
      (val f % P ≠ 0 → val (inverse f) * val f % P = 1) ∧
      (val f % P = 0 → val (inverse f) % P = 0) := by
  have h : R f m (fz f) := ⟨hf, rfl⟩
  have h1 := h.inverse hm
  have z : fz f = 0 ↔ val f % P = 0 := by
    rw [fz, ZMod.natCast_eq_zero_iff, Nat.dvd_iff_mod_eq_zero]
  refine ⟨h1.mag, fun hz => ?_, fun hz => ?_⟩
  · have h2 : ((val (inverse f) * val f : ℕ) : F) = (1 : ℕ) := by
      rw [Nat.cast_mul, Nat.cast_one]
      change fz (inverse f) * fz f = 1
      rw [h1.eq, inv_mul_cancel₀ (mt z.1 hz)]
    rw [ZMod.natCast_eq_natCast_iff] at h2
    exact h2
  · have h2 : fz (inverse f) = 0 := by rw [h1.eq, z.2 hz, inv_zero]
    rwa [fz, ZMod.natCast_eq_zero_iff, Nat.dvd_iff_mod_eq_zero] at h2

example : Mag big8 8 ∧ val big8 % P ≠ 0 := ⟨big8_mag, by decide⟩

end Zk.Field
