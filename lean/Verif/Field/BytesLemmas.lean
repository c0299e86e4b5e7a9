import Verif.Field.NormLemmas

/-!
# Byte strings and field values
-/

set_option linter.unusedSimpArgs false

namespace Zk.Field

theorem or_shl {x y s : UInt32} {k : ℕ} (hs : s.toNat = k) (hk : k < 32) (hx : x.toNat < 2 ^ k)
    (hy : y.toNat * 2 ^ k < 2 ^ 32) :
    (x ||| y <<< s).toNat = x.toNat + y.toNat * 2 ^ k := by
  rw [UInt32.toNat_or, UInt32.toNat_shiftLeft, hs, Nat.mod_eq_of_lt hk, Nat.shiftLeft_eq,
    Nat.mod_eq_of_lt hy, Nat.or_comm, ← Nat.shiftLeft_eq, ← Nat.shiftLeft_add_eq_or_of_lt hx,
    Nat.add_comm]

theorem and_pow {x w : UInt32} {k : ℕ} (hw : w.toNat = 2 ^ k - 1) :
    (x &&& w).toNat = x.toNat % 2 ^ k := by
  rw [UInt32.toNat_and, hw, Nat.and_two_pow_sub_one_eq_mod]

theorem shr_pow {x s : UInt32} {k : ℕ} (hs : s.toNat = k) (hk : k < 32) :
    (x >>> s).toNat = x.toNat / 2 ^ k := by
  rw [UInt32.toNat_shiftRight, hs, Nat.mod_eq_of_lt hk, Nat.shiftRight_eq_div_pow]

/-- The big-endian number of a 32-byte string, btcec/field.go:183-188. -/
def beVal (b : Vector UInt8 32) : ℕ :=
  b[31].toNat * 256 ^ 0 + b[30].toNat * 256 ^ 1 + b[29].toNat * 256 ^ 2 + b[28].toNat * 256 ^ 3 +
      b[27].toNat * 256 ^ 4 + b[26].toNat * 256 ^ 5 + b[25].toNat * 256 ^ 6 + b[24].toNat * 256 ^ 7 +
      b[23].toNat * 256 ^ 8 + b[22].toNat * 256 ^ 9 + b[21].toNat * 256 ^ 10 + b[20].toNat * 256 ^ 11 +
      b[19].toNat * 256 ^ 12 + b[18].toNat * 256 ^ 13 + b[17].toNat * 256 ^ 14 + b[16].toNat * 256 ^ 15
      + b[15].toNat * 256 ^ 16 + b[14].toNat * 256 ^ 17 + b[13].toNat * 256 ^ 18 + b[12].toNat * 256 ^
      19 + b[11].toNat * 256 ^ 20 + b[10].toNat * 256 ^ 21 + b[9].toNat * 256 ^ 22 + b[8].toNat * 256 ^
      23 + b[7].toNat * 256 ^ 24 + b[6].toNat * 256 ^ 25 + b[5].toNat * 256 ^ 26 + b[4].toNat * 256 ^ 27
      + b[3].toNat * 256 ^ 28 + b[2].toNat * 256 ^ 29 + b[1].toNat * 256 ^ 30 + b[0].toNat * 256 ^ 31

theorem setBytes_n0 (b : Vector UInt8 32) :
    (setBytes32 b).n0.toNat = b[31].toNat + b[30].toNat * 2 ^ 8 + b[29].toNat * 2 ^ 16 +
      b[28].toNat % 2 ^ 2 * 2 ^ 24 := by
  have q31 := b[31].toNat_lt
  have q30 := b[30].toNat_lt
  have q29 := b[29].toNat_lt
  have q28 := b[28].toNat_lt
  simp only [setBytes32]
  have e0 : (b[31].toUInt32).toNat = b[31].toNat := UInt8.toNat_toUInt32 _
  have y1 : (b[30].toUInt32).toNat = b[30].toNat := UInt8.toNat_toUInt32 _
  have e1 := or_shl (x := b[31].toUInt32) (y := b[30].toUInt32) (s := 8) (k := 8) rfl (by decide)
    (by rw [e0]; omega) (by rw [y1]; omega)
  rw [e0, y1] at e1
  have y2 : (b[29].toUInt32).toNat = b[29].toNat := UInt8.toNat_toUInt32 _
  have e2 := or_shl (x := (b[31].toUInt32 ||| b[30].toUInt32 <<< 8)) (y := b[29].toUInt32) (s :=
      16) (k := 16) rfl (by decide)
    (by rw [e1]; omega) (by rw [y2]; omega)
  rw [e1, y2] at e2
  have y3 : ((b[28].toUInt32 &&& 0x3)).toNat = b[28].toNat % 2 ^ 2 := by
    rw [and_pow (k := 2) rfl, UInt8.toNat_toUInt32]
  have e3 := or_shl (x := ((b[31].toUInt32 ||| b[30].toUInt32 <<< 8) ||| b[29].toUInt32 <<< 16))
      (y := (b[28].toUInt32 &&& 0x3)) (s := 24) (k := 24) rfl (by decide)
    (by rw [e2]; omega) (by rw [y3]; omega)
  rw [e2, y3] at e3
  exact e3

theorem setBytes_n1 (b : Vector UInt8 32) :
    (setBytes32 b).n1.toNat = b[28].toNat / 2 ^ 2 + b[27].toNat * 2 ^ 6 + b[26].toNat * 2 ^ 14 +
      b[25].toNat % 2 ^ 4 * 2 ^ 22 := by
  have q28 := b[28].toNat_lt
  have q27 := b[27].toNat_lt
  have q26 := b[26].toNat_lt
  have q25 := b[25].toNat_lt
  simp only [setBytes32]
  have e0 : ((b[28].toUInt32 >>> 2)).toNat = b[28].toNat / 2 ^ 2 := by
    rw [shr_pow (k := 2) rfl (by decide), UInt8.toNat_toUInt32]
  have y1 : (b[27].toUInt32).toNat = b[27].toNat := UInt8.toNat_toUInt32 _
  have e1 := or_shl (x := (b[28].toUInt32 >>> 2)) (y := b[27].toUInt32) (s := 6) (k := 6) rfl (by
      decide)
    (by rw [e0]; omega) (by rw [y1]; omega)
  rw [e0, y1] at e1
  have y2 : (b[26].toUInt32).toNat = b[26].toNat := UInt8.toNat_toUInt32 _
  have e2 := or_shl (x := ((b[28].toUInt32 >>> 2) ||| b[27].toUInt32 <<< 6)) (y := b[26].toUInt32)
      (s := 14) (k := 14) rfl (by decide)
    (by rw [e1]; omega) (by rw [y2]; omega)
  rw [e1, y2] at e2
  have y3 : ((b[25].toUInt32 &&& 0xf)).toNat = b[25].toNat % 2 ^ 4 := by
    rw [and_pow (k := 4) rfl, UInt8.toNat_toUInt32]
  have e3 := or_shl (x := (((b[28].toUInt32 >>> 2) ||| b[27].toUInt32 <<< 6) ||| b[26].toUInt32
      <<< 14)) (y := (b[25].toUInt32 &&& 0xf)) (s := 22) (k := 22) rfl (by decide)
    (by rw [e2]; omega) (by rw [y3]; omega)
  rw [e2, y3] at e3
  exact e3

theorem setBytes_n2 (b : Vector UInt8 32) :
    (setBytes32 b).n2.toNat = b[25].toNat / 2 ^ 4 + b[24].toNat * 2 ^ 4 + b[23].toNat * 2 ^ 12 +
      b[22].toNat % 2 ^ 6 * 2 ^ 20 := by
  have q25 := b[25].toNat_lt
  have q24 := b[24].toNat_lt
  have q23 := b[23].toNat_lt
  have q22 := b[22].toNat_lt
  simp only [setBytes32]
  have e0 : ((b[25].toUInt32 >>> 4)).toNat = b[25].toNat / 2 ^ 4 := by
    rw [shr_pow (k := 4) rfl (by decide), UInt8.toNat_toUInt32]
  have y1 : (b[24].toUInt32).toNat = b[24].toNat := UInt8.toNat_toUInt32 _
  have e1 := or_shl (x := (b[25].toUInt32 >>> 4)) (y := b[24].toUInt32) (s := 4) (k := 4) rfl (by
      decide)
    (by rw [e0]; omega) (by rw [y1]; omega)
  rw [e0, y1] at e1
  have y2 : (b[23].toUInt32).toNat = b[23].toNat := UInt8.toNat_toUInt32 _
  have e2 := or_shl (x := ((b[25].toUInt32 >>> 4) ||| b[24].toUInt32 <<< 4)) (y := b[23].toUInt32)
      (s := 12) (k := 12) rfl (by decide)
    (by rw [e1]; omega) (by rw [y2]; omega)
  rw [e1, y2] at e2
  have y3 : ((b[22].toUInt32 &&& 0x3f)).toNat = b[22].toNat % 2 ^ 6 := by
    rw [and_pow (k := 6) rfl, UInt8.toNat_toUInt32]
  have e3 := or_shl (x := (((b[25].toUInt32 >>> 4) ||| b[24].toUInt32 <<< 4) ||| b[23].toUInt32
      <<< 12)) (y := (b[22].toUInt32 &&& 0x3f)) (s := 20) (k := 20) rfl (by decide)
    (by rw [e2]; omega) (by rw [y3]; omega)
  rw [e2, y3] at e3
  exact e3

theorem setBytes_n3 (b : Vector UInt8 32) :
    (setBytes32 b).n3.toNat = b[22].toNat / 2 ^ 6 + b[21].toNat * 2 ^ 2 + b[20].toNat * 2 ^ 10 +
      b[19].toNat * 2 ^ 18 := by
  have q22 := b[22].toNat_lt
  have q21 := b[21].toNat_lt
  have q20 := b[20].toNat_lt
  have q19 := b[19].toNat_lt
  simp only [setBytes32]
  have e0 : ((b[22].toUInt32 >>> 6)).toNat = b[22].toNat / 2 ^ 6 := by
    rw [shr_pow (k := 6) rfl (by decide), UInt8.toNat_toUInt32]
  have y1 : (b[21].toUInt32).toNat = b[21].toNat := UInt8.toNat_toUInt32 _
  have e1 := or_shl (x := (b[22].toUInt32 >>> 6)) (y := b[21].toUInt32) (s := 2) (k := 2) rfl (by
      decide)
    (by rw [e0]; omega) (by rw [y1]; omega)
  rw [e0, y1] at e1
  have y2 : (b[20].toUInt32).toNat = b[20].toNat := UInt8.toNat_toUInt32 _
  have e2 := or_shl (x := ((b[22].toUInt32 >>> 6) ||| b[21].toUInt32 <<< 2)) (y := b[20].toUInt32)
      (s := 10) (k := 10) rfl (by decide)
    (by rw [e1]; omega) (by rw [y2]; omega)
  rw [e1, y2] at e2
  have y3 : (b[19].toUInt32).toNat = b[19].toNat := UInt8.toNat_toUInt32 _
  have e3 := or_shl (x := (((b[22].toUInt32 >>> 6) ||| b[21].toUInt32 <<< 2) ||| b[20].toUInt32
      <<< 10)) (y := b[19].toUInt32) (s := 18) (k := 18) rfl (by decide)
    (by rw [e2]; omega) (by rw [y3]; omega)
  rw [e2, y3] at e3
  exact e3

theorem setBytes_n4 (b : Vector UInt8 32) :
    (setBytes32 b).n4.toNat = b[18].toNat + b[17].toNat * 2 ^ 8 + b[16].toNat * 2 ^ 16 +
      b[15].toNat % 2 ^ 2 * 2 ^ 24 := by
  have q18 := b[18].toNat_lt
  have q17 := b[17].toNat_lt
  have q16 := b[16].toNat_lt
  have q15 := b[15].toNat_lt
  simp only [setBytes32]
  have e0 : (b[18].toUInt32).toNat = b[18].toNat := UInt8.toNat_toUInt32 _
  have y1 : (b[17].toUInt32).toNat = b[17].toNat := UInt8.toNat_toUInt32 _
  have e1 := or_shl (x := b[18].toUInt32) (y := b[17].toUInt32) (s := 8) (k := 8) rfl (by decide)
    (by rw [e0]; omega) (by rw [y1]; omega)
  rw [e0, y1] at e1
  have y2 : (b[16].toUInt32).toNat = b[16].toNat := UInt8.toNat_toUInt32 _
  have e2 := or_shl (x := (b[18].toUInt32 ||| b[17].toUInt32 <<< 8)) (y := b[16].toUInt32) (s :=
      16) (k := 16) rfl (by decide)
    (by rw [e1]; omega) (by rw [y2]; omega)
  rw [e1, y2] at e2
  have y3 : ((b[15].toUInt32 &&& 0x3)).toNat = b[15].toNat % 2 ^ 2 := by
    rw [and_pow (k := 2) rfl, UInt8.toNat_toUInt32]
  have e3 := or_shl (x := ((b[18].toUInt32 ||| b[17].toUInt32 <<< 8) ||| b[16].toUInt32 <<< 16))
      (y := (b[15].toUInt32 &&& 0x3)) (s := 24) (k := 24) rfl (by decide)
    (by rw [e2]; omega) (by rw [y3]; omega)
  rw [e2, y3] at e3
  exact e3

theorem setBytes_n5 (b : Vector UInt8 32) :
    (setBytes32 b).n5.toNat = b[15].toNat / 2 ^ 2 + b[14].toNat * 2 ^ 6 + b[13].toNat * 2 ^ 14 +
      b[12].toNat % 2 ^ 4 * 2 ^ 22 := by
  have q15 := b[15].toNat_lt
  have q14 := b[14].toNat_lt
  have q13 := b[13].toNat_lt
  have q12 := b[12].toNat_lt
  simp only [setBytes32]
  have e0 : ((b[15].toUInt32 >>> 2)).toNat = b[15].toNat / 2 ^ 2 := by
    rw [shr_pow (k := 2) rfl (by decide), UInt8.toNat_toUInt32]
  have y1 : (b[14].toUInt32).toNat = b[14].toNat := UInt8.toNat_toUInt32 _
  have e1 := or_shl (x := (b[15].toUInt32 >>> 2)) (y := b[14].toUInt32) (s := 6) (k := 6) rfl (by
      decide)
    (by rw [e0]; omega) (by rw [y1]; omega)
  rw [e0, y1] at e1
  have y2 : (b[13].toUInt32).toNat = b[13].toNat := UInt8.toNat_toUInt32 _
  have e2 := or_shl (x := ((b[15].toUInt32 >>> 2) ||| b[14].toUInt32 <<< 6)) (y := b[13].toUInt32)
      (s := 14) (k := 14) rfl (by decide)
    (by rw [e1]; omega) (by rw [y2]; omega)
  rw [e1, y2] at e2
  have y3 : ((b[12].toUInt32 &&& 0xf)).toNat = b[12].toNat % 2 ^ 4 := by
    rw [and_pow (k := 4) rfl, UInt8.toNat_toUInt32]
  have e3 := or_shl (x := (((b[15].toUInt32 >>> 2) ||| b[14].toUInt32 <<< 6) ||| b[13].toUInt32
      <<< 14)) (y := (b[12].toUInt32 &&& 0xf)) (s := 22) (k := 22) rfl (by decide)
    (by rw [e2]; omega) (by rw [y3]; omega)
  rw [e2, y3] at e3
  exact e3

theorem setBytes_n6 (b : Vector UInt8 32) :
    (setBytes32 b).n6.toNat = b[12].toNat / 2 ^ 4 + b[11].toNat * 2 ^ 4 + b[10].toNat * 2 ^ 12 +
      b[9].toNat % 2 ^ 6 * 2 ^ 20 := by
  have q12 := b[12].toNat_lt
  have q11 := b[11].toNat_lt
  have q10 := b[10].toNat_lt
  have q9 := b[9].toNat_lt
  simp only [setBytes32]
  have e0 : ((b[12].toUInt32 >>> 4)).toNat = b[12].toNat / 2 ^ 4 := by
    rw [shr_pow (k := 4) rfl (by decide), UInt8.toNat_toUInt32]
  have y1 : (b[11].toUInt32).toNat = b[11].toNat := UInt8.toNat_toUInt32 _
  have e1 := or_shl (x := (b[12].toUInt32 >>> 4)) (y := b[11].toUInt32) (s := 4) (k := 4) rfl (by
      decide)
    (by rw [e0]; omega) (by rw [y1]; omega)
  rw [e0, y1] at e1
  have y2 : (b[10].toUInt32).toNat = b[10].toNat := UInt8.toNat_toUInt32 _
  have e2 := or_shl (x := ((b[12].toUInt32 >>> 4) ||| b[11].toUInt32 <<< 4)) (y := b[10].toUInt32)
      (s := 12) (k := 12) rfl (by decide)
    (by rw [e1]; omega) (by rw [y2]; omega)
  rw [e1, y2] at e2
  have y3 : ((b[9].toUInt32 &&& 0x3f)).toNat = b[9].toNat % 2 ^ 6 := by
    rw [and_pow (k := 6) rfl, UInt8.toNat_toUInt32]
  have e3 := or_shl (x := (((b[12].toUInt32 >>> 4) ||| b[11].toUInt32 <<< 4) ||| b[10].toUInt32
      <<< 12)) (y := (b[9].toUInt32 &&& 0x3f)) (s := 20) (k := 20) rfl (by decide)
    (by rw [e2]; omega) (by rw [y3]; omega)
  rw [e2, y3] at e3
  exact e3

theorem setBytes_n7 (b : Vector UInt8 32) :
    (setBytes32 b).n7.toNat = b[9].toNat / 2 ^ 6 + b[8].toNat * 2 ^ 2 + b[7].toNat * 2 ^ 10 +
      b[6].toNat * 2 ^ 18 := by
  have q9 := b[9].toNat_lt
  have q8 := b[8].toNat_lt
  have q7 := b[7].toNat_lt
  have q6 := b[6].toNat_lt
  simp only [setBytes32]
  have e0 : ((b[9].toUInt32 >>> 6)).toNat = b[9].toNat / 2 ^ 6 := by
    rw [shr_pow (k := 6) rfl (by decide), UInt8.toNat_toUInt32]
  have y1 : (b[8].toUInt32).toNat = b[8].toNat := UInt8.toNat_toUInt32 _
  have e1 := or_shl (x := (b[9].toUInt32 >>> 6)) (y := b[8].toUInt32) (s := 2) (k := 2) rfl (by
      decide)
    (by rw [e0]; omega) (by rw [y1]; omega)
  rw [e0, y1] at e1
  have y2 : (b[7].toUInt32).toNat = b[7].toNat := UInt8.toNat_toUInt32 _
  have e2 := or_shl (x := ((b[9].toUInt32 >>> 6) ||| b[8].toUInt32 <<< 2)) (y := b[7].toUInt32) (s
      := 10) (k := 10) rfl (by decide)
    (by rw [e1]; omega) (by rw [y2]; omega)
  rw [e1, y2] at e2
  have y3 : (b[6].toUInt32).toNat = b[6].toNat := UInt8.toNat_toUInt32 _
  have e3 := or_shl (x := (((b[9].toUInt32 >>> 6) ||| b[8].toUInt32 <<< 2) ||| b[7].toUInt32 <<<
      10)) (y := b[6].toUInt32) (s := 18) (k := 18) rfl (by decide)
    (by rw [e2]; omega) (by rw [y3]; omega)
  rw [e2, y3] at e3
  exact e3

theorem setBytes_n8 (b : Vector UInt8 32) :
    (setBytes32 b).n8.toNat = b[5].toNat + b[4].toNat * 2 ^ 8 + b[3].toNat * 2 ^ 16 + b[2].toNat %
      2 ^ 2 * 2 ^ 24 := by
  have q5 := b[5].toNat_lt
  have q4 := b[4].toNat_lt
  have q3 := b[3].toNat_lt
  have q2 := b[2].toNat_lt
  simp only [setBytes32]
  have e0 : (b[5].toUInt32).toNat = b[5].toNat := UInt8.toNat_toUInt32 _
  have y1 : (b[4].toUInt32).toNat = b[4].toNat := UInt8.toNat_toUInt32 _
  have e1 := or_shl (x := b[5].toUInt32) (y := b[4].toUInt32) (s := 8) (k := 8) rfl (by decide)
    (by rw [e0]; omega) (by rw [y1]; omega)
  rw [e0, y1] at e1
  have y2 : (b[3].toUInt32).toNat = b[3].toNat := UInt8.toNat_toUInt32 _
  have e2 := or_shl (x := (b[5].toUInt32 ||| b[4].toUInt32 <<< 8)) (y := b[3].toUInt32) (s := 16)
      (k := 16) rfl (by decide)
    (by rw [e1]; omega) (by rw [y2]; omega)
  rw [e1, y2] at e2
  have y3 : ((b[2].toUInt32 &&& 0x3)).toNat = b[2].toNat % 2 ^ 2 := by
    rw [and_pow (k := 2) rfl, UInt8.toNat_toUInt32]
  have e3 := or_shl (x := ((b[5].toUInt32 ||| b[4].toUInt32 <<< 8) ||| b[3].toUInt32 <<< 16)) (y
      := (b[2].toUInt32 &&& 0x3)) (s := 24) (k := 24) rfl (by decide)
    (by rw [e2]; omega) (by rw [y3]; omega)
  rw [e2, y3] at e3
  exact e3

theorem setBytes_n9 (b : Vector UInt8 32) :
    (setBytes32 b).n9.toNat = b[2].toNat / 2 ^ 2 + b[1].toNat * 2 ^ 6 + b[0].toNat * 2 ^ 14 := by
  have q2 := b[2].toNat_lt
  have q1 := b[1].toNat_lt
  have q0 := b[0].toNat_lt
  simp only [setBytes32]
  have e0 : ((b[2].toUInt32 >>> 2)).toNat = b[2].toNat / 2 ^ 2 := by
    rw [shr_pow (k := 2) rfl (by decide), UInt8.toNat_toUInt32]
  have y1 : (b[1].toUInt32).toNat = b[1].toNat := UInt8.toNat_toUInt32 _
  have e1 := or_shl (x := (b[2].toUInt32 >>> 2)) (y := b[1].toUInt32) (s := 6) (k := 6) rfl (by
      decide)
    (by rw [e0]; omega) (by rw [y1]; omega)
  rw [e0, y1] at e1
  have y2 : (b[0].toUInt32).toNat = b[0].toNat := UInt8.toNat_toUInt32 _
  have e2 := or_shl (x := ((b[2].toUInt32 >>> 2) ||| b[1].toUInt32 <<< 6)) (y := b[0].toUInt32) (s
      := 14) (k := 14) rfl (by decide)
    (by rw [e1]; omega) (by rw [y2]; omega)
  rw [e1, y2] at e2
  exact e2

theorem setBytes_canon (b : Vector UInt8 32) : Canon (setBytes32 b) := by
  have q0 := b[0].toNat_lt
  have q1 := b[1].toNat_lt
  have q2 := b[2].toNat_lt
  have q3 := b[3].toNat_lt
  have q4 := b[4].toNat_lt
  have q5 := b[5].toNat_lt
  have q6 := b[6].toNat_lt
  have q7 := b[7].toNat_lt
  have q8 := b[8].toNat_lt
  have q9 := b[9].toNat_lt
  have q10 := b[10].toNat_lt
  have q11 := b[11].toNat_lt
  have q12 := b[12].toNat_lt
  have q13 := b[13].toNat_lt
  have q14 := b[14].toNat_lt
  have q15 := b[15].toNat_lt
  have q16 := b[16].toNat_lt
  have q17 := b[17].toNat_lt
  have q18 := b[18].toNat_lt
  have q19 := b[19].toNat_lt
  have q20 := b[20].toNat_lt
  have q21 := b[21].toNat_lt
  have q22 := b[22].toNat_lt
  have q23 := b[23].toNat_lt
  have q24 := b[24].toNat_lt
  have q25 := b[25].toNat_lt
  have q26 := b[26].toNat_lt
  have q27 := b[27].toNat_lt
  have q28 := b[28].toNat_lt
  have q29 := b[29].toNat_lt
  have q30 := b[30].toNat_lt
  have q31 := b[31].toNat_lt
  constructor
  · rw [setBytes_n0]; clear * - q31 q30 q29 q28; omega
  · rw [setBytes_n1]; clear * - q28 q27 q26 q25; omega
  · rw [setBytes_n2]; clear * - q25 q24 q23 q22; omega
  · rw [setBytes_n3]; clear * - q22 q21 q20 q19; omega
  · rw [setBytes_n4]; clear * - q18 q17 q16 q15; omega
  · rw [setBytes_n5]; clear * - q15 q14 q13 q12; omega
  · rw [setBytes_n6]; clear * - q12 q11 q10 q9; omega
  · rw [setBytes_n7]; clear * - q9 q8 q7 q6; omega
  · rw [setBytes_n8]; clear * - q5 q4 q3 q2; omega
  · rw [setBytes_n9]; clear * - q2 q1 q0; omega

theorem setBytes_val (b : Vector UInt8 32) : val (setBytes32 b) = beVal b := by
  simp only [val, beVal, setBytes_n0, setBytes_n1, setBytes_n2, setBytes_n3, setBytes_n4, setBytes_n5, setBytes_n6, setBytes_n7, setBytes_n8, setBytes_n9]
  have d28 := Nat.div_add_mod b[28].toNat (2 ^ 2)
  have d25 := Nat.div_add_mod b[25].toNat (2 ^ 4)
  have d22 := Nat.div_add_mod b[22].toNat (2 ^ 6)
  have d15 := Nat.div_add_mod b[15].toNat (2 ^ 2)
  have d12 := Nat.div_add_mod b[12].toNat (2 ^ 4)
  have d9 := Nat.div_add_mod b[9].toNat (2 ^ 6)
  have d2 := Nat.div_add_mod b[2].toNat (2 ^ 2)
  linear_combination 256 ^ 3 * d28 + 256 ^ 6 * d25 + 256 ^ 9 * d22 + 256 ^ 16 * d15 + 256 ^ 19 * d12 + 256 ^ 22 * d9 + 256 ^ 29 * d2

theorem toUInt8_byte {x : UInt32} {n : ℕ} (h : x.toNat = n) (hn : n < 256) :
    x.toUInt8.toNat = n := by
  rw [UInt32.toNat_toUInt8, h]; exact Nat.mod_eq_of_lt hn

theorem fieldBytes_0 (f : FieldVal) :
    ((fieldBytes f)[0]).toNat = f.n9.toNat / 2 ^ 14 % 2 ^ 8 := 
  toUInt8_byte (by rw [and_pow (k := 8) rfl, shr_pow (k := 14) rfl (by decide)]) (by omega)

theorem fieldBytes_1 (f : FieldVal) :
    ((fieldBytes f)[1]).toNat = f.n9.toNat / 2 ^ 6 % 2 ^ 8 := 
  toUInt8_byte (by rw [and_pow (k := 8) rfl, shr_pow (k := 6) rfl (by decide)]) (by omega)

theorem fieldBytes_2 (f : FieldVal) :
    ((fieldBytes f)[2]).toNat = f.n8.toNat / 2 ^ 24 % 2 ^ 2 + f.n9.toNat % 2 ^ 6 * 2 ^ 2 := by
  have e1 : ((f.n8 >>> 24) &&& (0x3 : UInt32)).toNat = f.n8.toNat / 2 ^ 24 % 2 ^ 2 := by
    rw [and_pow (k := 2) rfl, shr_pow (k := 24) rfl (by decide)]
  have e2 : (f.n9 &&& (0x3f : UInt32)).toNat = f.n9.toNat % 2 ^ 6 :=
    and_pow (k := 6) rfl
  refine toUInt8_byte ?_ (by omega)
  rw [or_shl (k := 2) rfl (by decide) (by rw [e1]; omega) (by rw [e2]; omega), e1, e2]

theorem fieldBytes_3 (f : FieldVal) :
    ((fieldBytes f)[3]).toNat = f.n8.toNat / 2 ^ 16 % 2 ^ 8 := 
  toUInt8_byte (by rw [and_pow (k := 8) rfl, shr_pow (k := 16) rfl (by decide)]) (by omega)

theorem fieldBytes_4 (f : FieldVal) :
    ((fieldBytes f)[4]).toNat = f.n8.toNat / 2 ^ 8 % 2 ^ 8 := 
  toUInt8_byte (by rw [and_pow (k := 8) rfl, shr_pow (k := 8) rfl (by decide)]) (by omega)

theorem fieldBytes_5 (f : FieldVal) :
    ((fieldBytes f)[5]).toNat = f.n8.toNat % 2 ^ 8 := 
  toUInt8_byte (and_pow (k := 8) rfl) (by omega)

theorem fieldBytes_6 (f : FieldVal) :
    ((fieldBytes f)[6]).toNat = f.n7.toNat / 2 ^ 18 % 2 ^ 8 := 
  toUInt8_byte (by rw [and_pow (k := 8) rfl, shr_pow (k := 18) rfl (by decide)]) (by omega)

theorem fieldBytes_7 (f : FieldVal) :
    ((fieldBytes f)[7]).toNat = f.n7.toNat / 2 ^ 10 % 2 ^ 8 := 
  toUInt8_byte (by rw [and_pow (k := 8) rfl, shr_pow (k := 10) rfl (by decide)]) (by omega)

theorem fieldBytes_8 (f : FieldVal) :
    ((fieldBytes f)[8]).toNat = f.n7.toNat / 2 ^ 2 % 2 ^ 8 := 
  toUInt8_byte (by rw [and_pow (k := 8) rfl, shr_pow (k := 2) rfl (by decide)]) (by omega)

theorem fieldBytes_9 (f : FieldVal) :
    ((fieldBytes f)[9]).toNat = f.n6.toNat / 2 ^ 20 % 2 ^ 6 + f.n7.toNat % 2 ^ 2 * 2 ^ 6 := by
  have e1 : ((f.n6 >>> 20) &&& (0x3f : UInt32)).toNat = f.n6.toNat / 2 ^ 20 % 2 ^ 6 := by
    rw [and_pow (k := 6) rfl, shr_pow (k := 20) rfl (by decide)]
  have e2 : (f.n7 &&& (0x3 : UInt32)).toNat = f.n7.toNat % 2 ^ 2 :=
    and_pow (k := 2) rfl
  refine toUInt8_byte ?_ (by omega)
  rw [or_shl (k := 6) rfl (by decide) (by rw [e1]; omega) (by rw [e2]; omega), e1, e2]

theorem fieldBytes_10 (f : FieldVal) :
    ((fieldBytes f)[10]).toNat = f.n6.toNat / 2 ^ 12 % 2 ^ 8 := 
  toUInt8_byte (by rw [and_pow (k := 8) rfl, shr_pow (k := 12) rfl (by decide)]) (by omega)

theorem fieldBytes_11 (f : FieldVal) :
    ((fieldBytes f)[11]).toNat = f.n6.toNat / 2 ^ 4 % 2 ^ 8 := 
  toUInt8_byte (by rw [and_pow (k := 8) rfl, shr_pow (k := 4) rfl (by decide)]) (by omega)

theorem fieldBytes_12 (f : FieldVal) :
    ((fieldBytes f)[12]).toNat = f.n5.toNat / 2 ^ 22 % 2 ^ 4 + f.n6.toNat % 2 ^ 4 * 2 ^ 4 := by
  have e1 : ((f.n5 >>> 22) &&& (0xf : UInt32)).toNat = f.n5.toNat / 2 ^ 22 % 2 ^ 4 := by
    rw [and_pow (k := 4) rfl, shr_pow (k := 22) rfl (by decide)]
  have e2 : (f.n6 &&& (0xf : UInt32)).toNat = f.n6.toNat % 2 ^ 4 :=
    and_pow (k := 4) rfl
  refine toUInt8_byte ?_ (by omega)
  rw [or_shl (k := 4) rfl (by decide) (by rw [e1]; omega) (by rw [e2]; omega), e1, e2]

theorem fieldBytes_13 (f : FieldVal) :
    ((fieldBytes f)[13]).toNat = f.n5.toNat / 2 ^ 14 % 2 ^ 8 := 
  toUInt8_byte (by rw [and_pow (k := 8) rfl, shr_pow (k := 14) rfl (by decide)]) (by omega)

theorem fieldBytes_14 (f : FieldVal) :
    ((fieldBytes f)[14]).toNat = f.n5.toNat / 2 ^ 6 % 2 ^ 8 := 
  toUInt8_byte (by rw [and_pow (k := 8) rfl, shr_pow (k := 6) rfl (by decide)]) (by omega)

theorem fieldBytes_15 (f : FieldVal) :
    ((fieldBytes f)[15]).toNat = f.n4.toNat / 2 ^ 24 % 2 ^ 2 + f.n5.toNat % 2 ^ 6 * 2 ^ 2 := by
  have e1 : ((f.n4 >>> 24) &&& (0x3 : UInt32)).toNat = f.n4.toNat / 2 ^ 24 % 2 ^ 2 := by
    rw [and_pow (k := 2) rfl, shr_pow (k := 24) rfl (by decide)]
  have e2 : (f.n5 &&& (0x3f : UInt32)).toNat = f.n5.toNat % 2 ^ 6 :=
    and_pow (k := 6) rfl
  refine toUInt8_byte ?_ (by omega)
  rw [or_shl (k := 2) rfl (by decide) (by rw [e1]; omega) (by rw [e2]; omega), e1, e2]

theorem fieldBytes_16 (f : FieldVal) :
    ((fieldBytes f)[16]).toNat = f.n4.toNat / 2 ^ 16 % 2 ^ 8 := 
  toUInt8_byte (by rw [and_pow (k := 8) rfl, shr_pow (k := 16) rfl (by decide)]) (by omega)

theorem fieldBytes_17 (f : FieldVal) :
    ((fieldBytes f)[17]).toNat = f.n4.toNat / 2 ^ 8 % 2 ^ 8 := 
  toUInt8_byte (by rw [and_pow (k := 8) rfl, shr_pow (k := 8) rfl (by decide)]) (by omega)

theorem fieldBytes_18 (f : FieldVal) :
    ((fieldBytes f)[18]).toNat = f.n4.toNat % 2 ^ 8 := 
  toUInt8_byte (and_pow (k := 8) rfl) (by omega)

theorem fieldBytes_19 (f : FieldVal) :
    ((fieldBytes f)[19]).toNat = f.n3.toNat / 2 ^ 18 % 2 ^ 8 := 
  toUInt8_byte (by rw [and_pow (k := 8) rfl, shr_pow (k := 18) rfl (by decide)]) (by omega)

theorem fieldBytes_20 (f : FieldVal) :
    ((fieldBytes f)[20]).toNat = f.n3.toNat / 2 ^ 10 % 2 ^ 8 := 
  toUInt8_byte (by rw [and_pow (k := 8) rfl, shr_pow (k := 10) rfl (by decide)]) (by omega)

theorem fieldBytes_21 (f : FieldVal) :
    ((fieldBytes f)[21]).toNat = f.n3.toNat / 2 ^ 2 % 2 ^ 8 := 
  toUInt8_byte (by rw [and_pow (k := 8) rfl, shr_pow (k := 2) rfl (by decide)]) (by omega)

theorem fieldBytes_22 (f : FieldVal) :
    ((fieldBytes f)[22]).toNat = f.n2.toNat / 2 ^ 20 % 2 ^ 6 + f.n3.toNat % 2 ^ 2 * 2 ^ 6 := by
  have e1 : ((f.n2 >>> 20) &&& (0x3f : UInt32)).toNat = f.n2.toNat / 2 ^ 20 % 2 ^ 6 := by
    rw [and_pow (k := 6) rfl, shr_pow (k := 20) rfl (by decide)]
  have e2 : (f.n3 &&& (0x3 : UInt32)).toNat = f.n3.toNat % 2 ^ 2 :=
    and_pow (k := 2) rfl
  refine toUInt8_byte ?_ (by omega)
  rw [or_shl (k := 6) rfl (by decide) (by rw [e1]; omega) (by rw [e2]; omega), e1, e2]

theorem fieldBytes_23 (f : FieldVal) :
    ((fieldBytes f)[23]).toNat = f.n2.toNat / 2 ^ 12 % 2 ^ 8 := 
  toUInt8_byte (by rw [and_pow (k := 8) rfl, shr_pow (k := 12) rfl (by decide)]) (by omega)

theorem fieldBytes_24 (f : FieldVal) :
    ((fieldBytes f)[24]).toNat = f.n2.toNat / 2 ^ 4 % 2 ^ 8 := 
  toUInt8_byte (by rw [and_pow (k := 8) rfl, shr_pow (k := 4) rfl (by decide)]) (by omega)

theorem fieldBytes_25 (f : FieldVal) :
    ((fieldBytes f)[25]).toNat = f.n1.toNat / 2 ^ 22 % 2 ^ 4 + f.n2.toNat % 2 ^ 4 * 2 ^ 4 := by
  have e1 : ((f.n1 >>> 22) &&& (0xf : UInt32)).toNat = f.n1.toNat / 2 ^ 22 % 2 ^ 4 := by
    rw [and_pow (k := 4) rfl, shr_pow (k := 22) rfl (by decide)]
  have e2 : (f.n2 &&& (0xf : UInt32)).toNat = f.n2.toNat % 2 ^ 4 :=
    and_pow (k := 4) rfl
  refine toUInt8_byte ?_ (by omega)
  rw [or_shl (k := 4) rfl (by decide) (by rw [e1]; omega) (by rw [e2]; omega), e1, e2]

theorem fieldBytes_26 (f : FieldVal) :
    ((fieldBytes f)[26]).toNat = f.n1.toNat / 2 ^ 14 % 2 ^ 8 := 
  toUInt8_byte (by rw [and_pow (k := 8) rfl, shr_pow (k := 14) rfl (by decide)]) (by omega)

theorem fieldBytes_27 (f : FieldVal) :
    ((fieldBytes f)[27]).toNat = f.n1.toNat / 2 ^ 6 % 2 ^ 8 := 
  toUInt8_byte (by rw [and_pow (k := 8) rfl, shr_pow (k := 6) rfl (by decide)]) (by omega)

theorem fieldBytes_28 (f : FieldVal) :
    ((fieldBytes f)[28]).toNat = f.n0.toNat / 2 ^ 24 % 2 ^ 2 + f.n1.toNat % 2 ^ 6 * 2 ^ 2 := by
  have e1 : ((f.n0 >>> 24) &&& (0x3 : UInt32)).toNat = f.n0.toNat / 2 ^ 24 % 2 ^ 2 := by
    rw [and_pow (k := 2) rfl, shr_pow (k := 24) rfl (by decide)]
  have e2 : (f.n1 &&& (0x3f : UInt32)).toNat = f.n1.toNat % 2 ^ 6 :=
    and_pow (k := 6) rfl
  refine toUInt8_byte ?_ (by omega)
  rw [or_shl (k := 2) rfl (by decide) (by rw [e1]; omega) (by rw [e2]; omega), e1, e2]

theorem fieldBytes_29 (f : FieldVal) :
    ((fieldBytes f)[29]).toNat = f.n0.toNat / 2 ^ 16 % 2 ^ 8 := 
  toUInt8_byte (by rw [and_pow (k := 8) rfl, shr_pow (k := 16) rfl (by decide)]) (by omega)

theorem fieldBytes_30 (f : FieldVal) :
    ((fieldBytes f)[30]).toNat = f.n0.toNat / 2 ^ 8 % 2 ^ 8 := 
  toUInt8_byte (by rw [and_pow (k := 8) rfl, shr_pow (k := 8) rfl (by decide)]) (by omega)

theorem fieldBytes_31 (f : FieldVal) :
    ((fieldBytes f)[31]).toNat = f.n0.toNat % 2 ^ 8 := 
  toUInt8_byte (and_pow (k := 8) rfl) (by omega)

theorem fieldBytes_val {f : FieldVal} (h : Canon f) : beVal (fieldBytes f) = val f := by
  obtain ⟨h0, h1, h2, h3, h4, h5, h6, h7, h8, h9⟩ := h
  simp only [val, beVal, fieldBytes_0, fieldBytes_1, fieldBytes_2, fieldBytes_3, fieldBytes_4, fieldBytes_5, fieldBytes_6, fieldBytes_7, fieldBytes_8, fieldBytes_9, fieldBytes_10, fieldBytes_11, fieldBytes_12, fieldBytes_13, fieldBytes_14, fieldBytes_15, fieldBytes_16, fieldBytes_17, fieldBytes_18, fieldBytes_19, fieldBytes_20, fieldBytes_21, fieldBytes_22, fieldBytes_23, fieldBytes_24, fieldBytes_25, fieldBytes_26, fieldBytes_27, fieldBytes_28, fieldBytes_29, fieldBytes_30, fieldBytes_31]
  have c0 : f.n0.toNat = f.n0.toNat % 2 ^ 8 + f.n0.toNat / 2 ^ 8 % 2 ^ 8 * 2 ^ 8 +
    f.n0.toNat / 2 ^ 16 % 2 ^ 8 * 2 ^ 16 + f.n0.toNat / 2 ^ 24 % 2 ^ 2 * 2 ^ 24 := by omega
  have c1 : f.n1.toNat = f.n1.toNat % 2 ^ 6 + f.n1.toNat / 2 ^ 6 % 2 ^ 8 * 2 ^ 6 +
    f.n1.toNat / 2 ^ 14 % 2 ^ 8 * 2 ^ 14 + f.n1.toNat / 2 ^ 22 % 2 ^ 4 * 2 ^ 22 := by omega
  have c2 : f.n2.toNat = f.n2.toNat % 2 ^ 4 + f.n2.toNat / 2 ^ 4 % 2 ^ 8 * 2 ^ 4 +
    f.n2.toNat / 2 ^ 12 % 2 ^ 8 * 2 ^ 12 + f.n2.toNat / 2 ^ 20 % 2 ^ 6 * 2 ^ 20 := by omega
  have c3 : f.n3.toNat = f.n3.toNat % 2 ^ 2 + f.n3.toNat / 2 ^ 2 % 2 ^ 8 * 2 ^ 2 +
    f.n3.toNat / 2 ^ 10 % 2 ^ 8 * 2 ^ 10 + f.n3.toNat / 2 ^ 18 % 2 ^ 8 * 2 ^ 18 := by omega
  have c4 : f.n4.toNat = f.n4.toNat % 2 ^ 8 + f.n4.toNat / 2 ^ 8 % 2 ^ 8 * 2 ^ 8 +
    f.n4.toNat / 2 ^ 16 % 2 ^ 8 * 2 ^ 16 + f.n4.toNat / 2 ^ 24 % 2 ^ 2 * 2 ^ 24 := by omega
  have c5 : f.n5.toNat = f.n5.toNat % 2 ^ 6 + f.n5.toNat / 2 ^ 6 % 2 ^ 8 * 2 ^ 6 +
    f.n5.toNat / 2 ^ 14 % 2 ^ 8 * 2 ^ 14 + f.n5.toNat / 2 ^ 22 % 2 ^ 4 * 2 ^ 22 := by omega
  have c6 : f.n6.toNat = f.n6.toNat % 2 ^ 4 + f.n6.toNat / 2 ^ 4 % 2 ^ 8 * 2 ^ 4 +
    f.n6.toNat / 2 ^ 12 % 2 ^ 8 * 2 ^ 12 + f.n6.toNat / 2 ^ 20 % 2 ^ 6 * 2 ^ 20 := by omega
  have c7 : f.n7.toNat = f.n7.toNat % 2 ^ 2 + f.n7.toNat / 2 ^ 2 % 2 ^ 8 * 2 ^ 2 +
    f.n7.toNat / 2 ^ 10 % 2 ^ 8 * 2 ^ 10 + f.n7.toNat / 2 ^ 18 % 2 ^ 8 * 2 ^ 18 := by omega
  have c8 : f.n8.toNat = f.n8.toNat % 2 ^ 8 + f.n8.toNat / 2 ^ 8 % 2 ^ 8 * 2 ^ 8 +
    f.n8.toNat / 2 ^ 16 % 2 ^ 8 * 2 ^ 16 + f.n8.toNat / 2 ^ 24 % 2 ^ 2 * 2 ^ 24 := by omega
  have c9 : f.n9.toNat = f.n9.toNat % 2 ^ 6 + f.n9.toNat / 2 ^ 6 % 2 ^ 8 * 2 ^ 6 +
    f.n9.toNat / 2 ^ 14 % 2 ^ 8 * 2 ^ 14 := by omega
  zify at *
  linear_combination -(2 ^ 0 * c0 + 2 ^ 26 * c1 + 2 ^ 52 * c2 + 2 ^ 78 * c3 + 2 ^ 104 * c4 + 2 ^ 130 * c5 + 2 ^ 156 * c6 + 2 ^ 182 * c7 + 2 ^ 208 * c8 + 2 ^ 234 * c9)

theorem roundtrip_0 (b : Vector UInt8 32) : (fieldBytes (setBytes32 b))[0] = b[0] := by
    have q0 := b[0].toNat_lt
    have q1 := b[1].toNat_lt
    have q2 := b[2].toNat_lt
    rw [← UInt8.toNat_inj, fieldBytes_0, setBytes_n9]
    omega

theorem roundtrip_1 (b : Vector UInt8 32) : (fieldBytes (setBytes32 b))[1] = b[1] := by
    have q0 := b[0].toNat_lt
    have q1 := b[1].toNat_lt
    have q2 := b[2].toNat_lt
    rw [← UInt8.toNat_inj, fieldBytes_1, setBytes_n9]
    omega

theorem roundtrip_2 (b : Vector UInt8 32) : (fieldBytes (setBytes32 b))[2] = b[2] := by
    have q0 := b[0].toNat_lt
    have q1 := b[1].toNat_lt
    have q2 := b[2].toNat_lt
    have q3 := b[3].toNat_lt
    have q4 := b[4].toNat_lt
    have q5 := b[5].toNat_lt
    rw [← UInt8.toNat_inj, fieldBytes_2, setBytes_n8, setBytes_n9]
    omega

theorem roundtrip_3 (b : Vector UInt8 32) : (fieldBytes (setBytes32 b))[3] = b[3] := by
    have q2 := b[2].toNat_lt
    have q3 := b[3].toNat_lt
    have q4 := b[4].toNat_lt
    have q5 := b[5].toNat_lt
    rw [← UInt8.toNat_inj, fieldBytes_3, setBytes_n8]
    omega

theorem roundtrip_4 (b : Vector UInt8 32) : (fieldBytes (setBytes32 b))[4] = b[4] := by
    have q2 := b[2].toNat_lt
    have q3 := b[3].toNat_lt
    have q4 := b[4].toNat_lt
    have q5 := b[5].toNat_lt
    rw [← UInt8.toNat_inj, fieldBytes_4, setBytes_n8]
    omega

theorem roundtrip_5 (b : Vector UInt8 32) : (fieldBytes (setBytes32 b))[5] = b[5] := by
    have q2 := b[2].toNat_lt
    have q3 := b[3].toNat_lt
    have q4 := b[4].toNat_lt
    have q5 := b[5].toNat_lt
    rw [← UInt8.toNat_inj, fieldBytes_5, setBytes_n8]
    omega

theorem roundtrip_6 (b : Vector UInt8 32) : (fieldBytes (setBytes32 b))[6] = b[6] := by
    have q6 := b[6].toNat_lt
    have q7 := b[7].toNat_lt
    have q8 := b[8].toNat_lt
    have q9 := b[9].toNat_lt
    rw [← UInt8.toNat_inj, fieldBytes_6, setBytes_n7]
    omega

theorem roundtrip_7 (b : Vector UInt8 32) : (fieldBytes (setBytes32 b))[7] = b[7] := by
    have q6 := b[6].toNat_lt
    have q7 := b[7].toNat_lt
    have q8 := b[8].toNat_lt
    have q9 := b[9].toNat_lt
    rw [← UInt8.toNat_inj, fieldBytes_7, setBytes_n7]
    omega

theorem roundtrip_8 (b : Vector UInt8 32) : (fieldBytes (setBytes32 b))[8] = b[8] := by
    have q6 := b[6].toNat_lt
    have q7 := b[7].toNat_lt
    have q8 := b[8].toNat_lt
    have q9 := b[9].toNat_lt
    rw [← UInt8.toNat_inj, fieldBytes_8, setBytes_n7]
    omega

theorem roundtrip_9 (b : Vector UInt8 32) : (fieldBytes (setBytes32 b))[9] = b[9] := by
    have q6 := b[6].toNat_lt
    have q7 := b[7].toNat_lt
    have q8 := b[8].toNat_lt
    have q9 := b[9].toNat_lt
    have q10 := b[10].toNat_lt
    have q11 := b[11].toNat_lt
    have q12 := b[12].toNat_lt
    rw [← UInt8.toNat_inj, fieldBytes_9, setBytes_n6, setBytes_n7]
    omega

theorem roundtrip_10 (b : Vector UInt8 32) : (fieldBytes (setBytes32 b))[10] = b[10] := by
    have q9 := b[9].toNat_lt
    have q10 := b[10].toNat_lt
    have q11 := b[11].toNat_lt
    have q12 := b[12].toNat_lt
    rw [← UInt8.toNat_inj, fieldBytes_10, setBytes_n6]
    omega

theorem roundtrip_11 (b : Vector UInt8 32) : (fieldBytes (setBytes32 b))[11] = b[11] := by
    have q9 := b[9].toNat_lt
    have q10 := b[10].toNat_lt
    have q11 := b[11].toNat_lt
    have q12 := b[12].toNat_lt
    rw [← UInt8.toNat_inj, fieldBytes_11, setBytes_n6]
    omega

theorem roundtrip_12 (b : Vector UInt8 32) : (fieldBytes (setBytes32 b))[12] = b[12] := by
    have q9 := b[9].toNat_lt
    have q10 := b[10].toNat_lt
    have q11 := b[11].toNat_lt
    have q12 := b[12].toNat_lt
    have q13 := b[13].toNat_lt
    have q14 := b[14].toNat_lt
    have q15 := b[15].toNat_lt
    rw [← UInt8.toNat_inj, fieldBytes_12, setBytes_n5, setBytes_n6]
    omega

theorem roundtrip_13 (b : Vector UInt8 32) : (fieldBytes (setBytes32 b))[13] = b[13] := by
    have q12 := b[12].toNat_lt
    have q13 := b[13].toNat_lt
    have q14 := b[14].toNat_lt
    have q15 := b[15].toNat_lt
    rw [← UInt8.toNat_inj, fieldBytes_13, setBytes_n5]
    omega

theorem roundtrip_14 (b : Vector UInt8 32) : (fieldBytes (setBytes32 b))[14] = b[14] := by
    have q12 := b[12].toNat_lt
    have q13 := b[13].toNat_lt
    have q14 := b[14].toNat_lt
    have q15 := b[15].toNat_lt
    rw [← UInt8.toNat_inj, fieldBytes_14, setBytes_n5]
    omega

theorem roundtrip_15 (b : Vector UInt8 32) : (fieldBytes (setBytes32 b))[15] = b[15] := by
    have q12 := b[12].toNat_lt
    have q13 := b[13].toNat_lt
    have q14 := b[14].toNat_lt
    have q15 := b[15].toNat_lt
    have q16 := b[16].toNat_lt
    have q17 := b[17].toNat_lt
    have q18 := b[18].toNat_lt
    rw [← UInt8.toNat_inj, fieldBytes_15, setBytes_n4, setBytes_n5]
    omega

theorem roundtrip_16 (b : Vector UInt8 32) : (fieldBytes (setBytes32 b))[16] = b[16] := by
    have q15 := b[15].toNat_lt
    have q16 := b[16].toNat_lt
    have q17 := b[17].toNat_lt
    have q18 := b[18].toNat_lt
    rw [← UInt8.toNat_inj, fieldBytes_16, setBytes_n4]
    omega

theorem roundtrip_17 (b : Vector UInt8 32) : (fieldBytes (setBytes32 b))[17] = b[17] := by
    have q15 := b[15].toNat_lt
    have q16 := b[16].toNat_lt
    have q17 := b[17].toNat_lt
    have q18 := b[18].toNat_lt
    rw [← UInt8.toNat_inj, fieldBytes_17, setBytes_n4]
    omega

theorem roundtrip_18 (b : Vector UInt8 32) : (fieldBytes (setBytes32 b))[18] = b[18] := by
    have q15 := b[15].toNat_lt
    have q16 := b[16].toNat_lt
    have q17 := b[17].toNat_lt
    have q18 := b[18].toNat_lt
    rw [← UInt8.toNat_inj, fieldBytes_18, setBytes_n4]
    omega

theorem roundtrip_19 (b : Vector UInt8 32) : (fieldBytes (setBytes32 b))[19] = b[19] := by
    have q19 := b[19].toNat_lt
    have q20 := b[20].toNat_lt
    have q21 := b[21].toNat_lt
    have q22 := b[22].toNat_lt
    rw [← UInt8.toNat_inj, fieldBytes_19, setBytes_n3]
    omega

theorem roundtrip_20 (b : Vector UInt8 32) : (fieldBytes (setBytes32 b))[20] = b[20] := by
    have q19 := b[19].toNat_lt
    have q20 := b[20].toNat_lt
    have q21 := b[21].toNat_lt
    have q22 := b[22].toNat_lt
    rw [← UInt8.toNat_inj, fieldBytes_20, setBytes_n3]
    omega

theorem roundtrip_21 (b : Vector UInt8 32) : (fieldBytes (setBytes32 b))[21] = b[21] := by
    have q19 := b[19].toNat_lt
    have q20 := b[20].toNat_lt
    have q21 := b[21].toNat_lt
    have q22 := b[22].toNat_lt
    rw [← UInt8.toNat_inj, fieldBytes_21, setBytes_n3]
    omega

theorem roundtrip_22 (b : Vector UInt8 32) : (fieldBytes (setBytes32 b))[22] = b[22] := by
    have q19 := b[19].toNat_lt
    have q20 := b[20].toNat_lt
    have q21 := b[21].toNat_lt
    have q22 := b[22].toNat_lt
    have q23 := b[23].toNat_lt
    have q24 := b[24].toNat_lt
    have q25 := b[25].toNat_lt
    rw [← UInt8.toNat_inj, fieldBytes_22, setBytes_n2, setBytes_n3]
    omega

theorem roundtrip_23 (b : Vector UInt8 32) : (fieldBytes (setBytes32 b))[23] = b[23] := by
    have q22 := b[22].toNat_lt
    have q23 := b[23].toNat_lt
    have q24 := b[24].toNat_lt
    have q25 := b[25].toNat_lt
    rw [← UInt8.toNat_inj, fieldBytes_23, setBytes_n2]
    omega

theorem roundtrip_24 (b : Vector UInt8 32) : (fieldBytes (setBytes32 b))[24] = b[24] := by
    have q22 := b[22].toNat_lt
    have q23 := b[23].toNat_lt
    have q24 := b[24].toNat_lt
    have q25 := b[25].toNat_lt
    rw [← UInt8.toNat_inj, fieldBytes_24, setBytes_n2]
    omega

theorem roundtrip_25 (b : Vector UInt8 32) : (fieldBytes (setBytes32 b))[25] = b[25] := by
    have q22 := b[22].toNat_lt
    have q23 := b[23].toNat_lt
    have q24 := b[24].toNat_lt
    have q25 := b[25].toNat_lt
    have q26 := b[26].toNat_lt
    have q27 := b[27].toNat_lt
    have q28 := b[28].toNat_lt
    rw [← UInt8.toNat_inj, fieldBytes_25, setBytes_n1, setBytes_n2]
    omega

theorem roundtrip_26 (b : Vector UInt8 32) : (fieldBytes (setBytes32 b))[26] = b[26] := by
    have q25 := b[25].toNat_lt
    have q26 := b[26].toNat_lt
    have q27 := b[27].toNat_lt
    have q28 := b[28].toNat_lt
    rw [← UInt8.toNat_inj, fieldBytes_26, setBytes_n1]
    omega

theorem roundtrip_27 (b : Vector UInt8 32) : (fieldBytes (setBytes32 b))[27] = b[27] := by
    have q25 := b[25].toNat_lt
    have q26 := b[26].toNat_lt
    have q27 := b[27].toNat_lt
    have q28 := b[28].toNat_lt
    rw [← UInt8.toNat_inj, fieldBytes_27, setBytes_n1]
    omega

theorem roundtrip_28 (b : Vector UInt8 32) : (fieldBytes (setBytes32 b))[28] = b[28] := by
    have q25 := b[25].toNat_lt
    have q26 := b[26].toNat_lt
    have q27 := b[27].toNat_lt
    have q28 := b[28].toNat_lt
    have q29 := b[29].toNat_lt
    have q30 := b[30].toNat_lt
    have q31 := b[31].toNat_lt
    rw [← UInt8.toNat_inj, fieldBytes_28, setBytes_n0, setBytes_n1]
    omega

theorem roundtrip_29 (b : Vector UInt8 32) : (fieldBytes (setBytes32 b))[29] = b[29] := by
    have q28 := b[28].toNat_lt
    have q29 := b[29].toNat_lt
    have q30 := b[30].toNat_lt
    have q31 := b[31].toNat_lt
    rw [← UInt8.toNat_inj, fieldBytes_29, setBytes_n0]
    omega

theorem roundtrip_30 (b : Vector UInt8 32) : (fieldBytes (setBytes32 b))[30] = b[30] := by
    have q28 := b[28].toNat_lt
    have q29 := b[29].toNat_lt
    have q30 := b[30].toNat_lt
    have q31 := b[31].toNat_lt
    rw [← UInt8.toNat_inj, fieldBytes_30, setBytes_n0]
    omega

theorem roundtrip_31 (b : Vector UInt8 32) : (fieldBytes (setBytes32 b))[31] = b[31] := by
    have q28 := b[28].toNat_lt
    have q29 := b[29].toNat_lt
    have q30 := b[30].toNat_lt
    have q31 := b[31].toNat_lt
    rw [← UInt8.toNat_inj, fieldBytes_31, setBytes_n0]
    omega

theorem fieldBytes_setBytes (b : Vector UInt8 32) : fieldBytes (setBytes32 b) = b := by
  refine Vector.ext fun i hi => ?_
  interval_cases i
  · exact roundtrip_0 b
  · exact roundtrip_1 b
  · exact roundtrip_2 b
  · exact roundtrip_3 b
  · exact roundtrip_4 b
  · exact roundtrip_5 b
  · exact roundtrip_6 b
  · exact roundtrip_7 b
  · exact roundtrip_8 b
  · exact roundtrip_9 b
  · exact roundtrip_10 b
  · exact roundtrip_11 b
  · exact roundtrip_12 b
  · exact roundtrip_13 b
  · exact roundtrip_14 b
  · exact roundtrip_15 b
  · exact roundtrip_16 b
  · exact roundtrip_17 b
  · exact roundtrip_18 b
  · exact roundtrip_19 b
  · exact roundtrip_20 b
  · exact roundtrip_21 b
  · exact roundtrip_22 b
  · exact roundtrip_23 b
  · exact roundtrip_24 b
  · exact roundtrip_25 b
  · exact roundtrip_26 b
  · exact roundtrip_27 b
  · exact roundtrip_28 b
  · exact roundtrip_29 b
  · exact roundtrip_30 b
  · exact roundtrip_31 b

end Zk.Field
