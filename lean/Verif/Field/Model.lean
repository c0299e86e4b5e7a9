import Verif.Go
import Mathlib.Data.Nat.Notation

/-!
# Model of btcec/field.go

A field value is ten 32-bit words in base 2^26.  All arithmetic is that of `uint32` and `uint64`, so
it wraps around where the Go code wraps around.  Methods that modify their receiver are functions
that return its new value.
-/

namespace Zk.Field

open Zk

/-- `fieldVal`, btcec/field.go:135-137. -/
@[ext] structure FieldVal where
  n0 : UInt32
  n1 : UInt32
  n2 : UInt32
  n3 : UInt32
  n4 : UInt32
  n5 : UInt32
  n6 : UInt32
  n7 : UInt32
  n8 : UInt32
  n9 : UInt32
deriving DecidableEq

/-- `fieldBaseMask`, btcec/field.go:86, as a `uint32`. -/
def fieldBaseMask : UInt32 := 0x3ffffff

/-- `fieldBaseMask`, btcec/field.go:86, as a `uint64`. -/
def fieldBaseMask64 : UInt64 := 0x3ffffff

/-- `fieldMSBMask`, btcec/field.go:94, as a `uint32`. -/
def fieldMSBMask : UInt32 := 0x3fffff

/-- `fieldMSBMask`, btcec/field.go:94, as a `uint64`. -/
def fieldMSBMask64 : UInt64 := 0x3fffff

/-- `fieldPrimeWordZero`, btcec/field.go:98. -/
def fieldPrimeWordZero : UInt32 := 0x3fffc2f

/-- `fieldPrimeWordOne`, btcec/field.go:102. -/
def fieldPrimeWordOne : UInt32 := 0x3ffffbf

/-- `Zero`, btcec/field.go:148-159. -/
def zero : FieldVal := ⟨0, 0, 0, 0, 0, 0, 0, 0, 0, 0⟩

/-- `SetInt`, btcec/field.go:177-181.  `uint` has 64 bits. -/
def setInt (ui : UInt64) : FieldVal := { zero with n0 := ui.toUInt32 }

/-- `SetBytes`, btcec/field.go:188-213. -/
def setBytes32 (b : Vector UInt8 32) : FieldVal where
  n0 := b[31].toUInt32 ||| (b[30].toUInt32 <<< 8) |||
    (b[29].toUInt32 <<< 16) ||| ((b[28].toUInt32 &&& 0x3) <<< 24)
  n1 := (b[28].toUInt32 >>> 2) ||| (b[27].toUInt32 <<< 6) |||
    (b[26].toUInt32 <<< 14) ||| ((b[25].toUInt32 &&& 0xf) <<< 22)
  n2 := (b[25].toUInt32 >>> 4) ||| (b[24].toUInt32 <<< 4) |||
    (b[23].toUInt32 <<< 12) ||| ((b[22].toUInt32 &&& 0x3f) <<< 20)
  n3 := (b[22].toUInt32 >>> 6) ||| (b[21].toUInt32 <<< 2) |||
    (b[20].toUInt32 <<< 10) ||| (b[19].toUInt32 <<< 18)
  n4 := b[18].toUInt32 ||| (b[17].toUInt32 <<< 8) |||
    (b[16].toUInt32 <<< 16) ||| ((b[15].toUInt32 &&& 0x3) <<< 24)
  n5 := (b[15].toUInt32 >>> 2) ||| (b[14].toUInt32 <<< 6) |||
    (b[13].toUInt32 <<< 14) ||| ((b[12].toUInt32 &&& 0xf) <<< 22)
  n6 := (b[12].toUInt32 >>> 4) ||| (b[11].toUInt32 <<< 4) |||
    (b[10].toUInt32 <<< 12) ||| ((b[9].toUInt32 &&& 0x3f) <<< 20)
  n7 := (b[9].toUInt32 >>> 6) ||| (b[8].toUInt32 <<< 2) |||
    (b[7].toUInt32 <<< 10) ||| (b[6].toUInt32 <<< 18)
  n8 := b[5].toUInt32 ||| (b[4].toUInt32 <<< 8) |||
    (b[3].toUInt32 <<< 16) ||| ((b[2].toUInt32 &&& 0x3) <<< 24)
  n9 := (b[2].toUInt32 >>> 2) ||| (b[1].toUInt32 <<< 6) ||| (b[0].toUInt32 <<< 14)

/-- The loop of `SetByteSlice`, btcec/field.go:224-228: byte `i` goes to index `i + (32 - len(b))`,
which is negative, and panics, for the first byte of a slice of more than 32 bytes. -/
def packBytes (b : Bytes) : Go (Vector UInt8 32) :=
  if b.length ≤ 32 then
    .ok (Vector.ofFn fun j => if 32 - b.length ≤ j.val then b.getD (j.val - (32 - b.length)) 0 else 0)
  else .panic

/-- `SetByteSlice`, btcec/field.go:222-230. -/
def setByteSlice (b : Bytes) : Go FieldVal := do
  let b32 ← packBytes b
  pure (setBytes32 b32)

/-- The first pass of `Normalize`, btcec/field.go:278-299: the words t0 to t9. -/
def normPass1 (f : FieldVal) : FieldVal :=
  let t9 := f.n9
  let m := t9 >>> 22
  let t9 := t9 &&& fieldMSBMask
  let t0 := f.n0 + m * 977
  let t1 := (t0 >>> 26) + f.n1 + (m <<< 6)
  let t0 := t0 &&& fieldBaseMask
  let t2 := (t1 >>> 26) + f.n2
  let t1 := t1 &&& fieldBaseMask
  let t3 := (t2 >>> 26) + f.n3
  let t2 := t2 &&& fieldBaseMask
  let t4 := (t3 >>> 26) + f.n4
  let t3 := t3 &&& fieldBaseMask
  let t5 := (t4 >>> 26) + f.n5
  let t4 := t4 &&& fieldBaseMask
  let t6 := (t5 >>> 26) + f.n6
  let t5 := t5 &&& fieldBaseMask
  let t7 := (t6 >>> 26) + f.n7
  let t6 := t6 &&& fieldBaseMask
  let t8 := (t7 >>> 26) + f.n8
  let t7 := t7 &&& fieldBaseMask
  let t9 := (t8 >>> 26) + t9
  let t8 := t8 &&& fieldBaseMask
  ⟨t0, t1, t2, t3, t4, t5, t6, t7, t8, t9⟩

/-- The decision `m` of `Normalize`, btcec/field.go:313-333, on the words after the first pass. -/
def normM (t : FieldVal) : UInt32 :=
  let m : UInt32 := 1
  let m := if t.n9 = fieldMSBMask then m &&& 1 else m &&& 0
  let m := if t.n2 &&& t.n3 &&& t.n4 &&& t.n5 &&& t.n6 &&& t.n7 &&& t.n8 = fieldBaseMask then
    m &&& 1 else m &&& 0
  let m := if ((t.n0 + 977) >>> 26) + t.n1 + 64 > fieldBaseMask then m &&& 1 else m &&& 0
  if t.n9 >>> 22 ≠ 0 then m ||| 1 else m ||| 0

/-- The second pass of `Normalize`, btcec/field.go:334-353. -/
def normPass2 (t : FieldVal) (m : UInt32) : FieldVal :=
  let t0 := t.n0
  let t1 := t.n1
  let t2 := t.n2
  let t3 := t.n3
  let t4 := t.n4
  let t5 := t.n5
  let t6 := t.n6
  let t7 := t.n7
  let t8 := t.n8
  let t9 := t.n9
  let t0 := t0 + m * 977
  let t1 := (t0 >>> 26) + t1 + (m <<< 6)
  let t0 := t0 &&& fieldBaseMask
  let t2 := (t1 >>> 26) + t2
  let t1 := t1 &&& fieldBaseMask
  let t3 := (t2 >>> 26) + t3
  let t2 := t2 &&& fieldBaseMask
  let t4 := (t3 >>> 26) + t4
  let t3 := t3 &&& fieldBaseMask
  let t5 := (t4 >>> 26) + t5
  let t4 := t4 &&& fieldBaseMask
  let t6 := (t5 >>> 26) + t6
  let t5 := t5 &&& fieldBaseMask
  let t7 := (t6 >>> 26) + t7
  let t6 := t6 &&& fieldBaseMask
  let t8 := (t7 >>> 26) + t8
  let t7 := t7 &&& fieldBaseMask
  let t9 := (t8 >>> 26) + t9
  let t8 := t8 &&& fieldBaseMask
  let t9 := t9 &&& fieldMSBMask
  ⟨t0, t1, t2, t3, t4, t5, t6, t7, t8, t9⟩

/-- `Normalize`, btcec/field.go:248-368. -/
def normalize (f : FieldVal) : FieldVal :=
  let t := normPass1 f
  normPass2 t (normM t)

/-- `PutBytes`, btcec/field.go:377-414, and `Bytes`, btcec/field.go:423-427. -/
def fieldBytes (f : FieldVal) : Vector UInt8 32 := #v[
  ((f.n9 >>> 14) &&& (0xff : UInt32)).toUInt8,
  ((f.n9 >>> 6) &&& (0xff : UInt32)).toUInt8,
  (((f.n8 >>> 24) &&& (0x3 : UInt32)) ||| ((f.n9 &&& (0x3f : UInt32)) <<< 2)).toUInt8,
  ((f.n8 >>> 16) &&& (0xff : UInt32)).toUInt8,
  ((f.n8 >>> 8) &&& (0xff : UInt32)).toUInt8,
  (f.n8 &&& 0xff).toUInt8,
  ((f.n7 >>> 18) &&& (0xff : UInt32)).toUInt8,
  ((f.n7 >>> 10) &&& (0xff : UInt32)).toUInt8,
  ((f.n7 >>> 2) &&& (0xff : UInt32)).toUInt8,
  (((f.n6 >>> 20) &&& (0x3f : UInt32)) ||| ((f.n7 &&& (0x3 : UInt32)) <<< 6)).toUInt8,
  ((f.n6 >>> 12) &&& (0xff : UInt32)).toUInt8,
  ((f.n6 >>> 4) &&& (0xff : UInt32)).toUInt8,
  (((f.n5 >>> 22) &&& (0xf : UInt32)) ||| ((f.n6 &&& (0xf : UInt32)) <<< 4)).toUInt8,
  ((f.n5 >>> 14) &&& (0xff : UInt32)).toUInt8,
  ((f.n5 >>> 6) &&& (0xff : UInt32)).toUInt8,
  (((f.n4 >>> 24) &&& (0x3 : UInt32)) ||| ((f.n5 &&& (0x3f : UInt32)) <<< 2)).toUInt8,
  ((f.n4 >>> 16) &&& (0xff : UInt32)).toUInt8,
  ((f.n4 >>> 8) &&& (0xff : UInt32)).toUInt8,
  (f.n4 &&& 0xff).toUInt8,
  ((f.n3 >>> 18) &&& (0xff : UInt32)).toUInt8,
  ((f.n3 >>> 10) &&& (0xff : UInt32)).toUInt8,
  ((f.n3 >>> 2) &&& (0xff : UInt32)).toUInt8,
  (((f.n2 >>> 20) &&& (0x3f : UInt32)) ||| ((f.n3 &&& (0x3 : UInt32)) <<< 6)).toUInt8,
  ((f.n2 >>> 12) &&& (0xff : UInt32)).toUInt8,
  ((f.n2 >>> 4) &&& (0xff : UInt32)).toUInt8,
  (((f.n1 >>> 22) &&& (0xf : UInt32)) ||| ((f.n2 &&& (0xf : UInt32)) <<< 4)).toUInt8,
  ((f.n1 >>> 14) &&& (0xff : UInt32)).toUInt8,
  ((f.n1 >>> 6) &&& (0xff : UInt32)).toUInt8,
  (((f.n0 >>> 24) &&& (0x3 : UInt32)) ||| ((f.n1 &&& (0x3f : UInt32)) <<< 2)).toUInt8,
  ((f.n0 >>> 16) &&& (0xff : UInt32)).toUInt8,
  ((f.n0 >>> 8) &&& (0xff : UInt32)).toUInt8,
  (f.n0 &&& 0xff).toUInt8]

/-- `IsZero`, btcec/field.go:430-437. -/
def isZero (f : FieldVal) : Bool :=
  decide (f.n0 ||| f.n1 ||| f.n2 ||| f.n3 ||| f.n4 ||| f.n5 ||| f.n6 ||| f.n7 ||| f.n8 ||| f.n9 = 0)

/-- `IsOdd`, btcec/field.go:443-446. -/
def isOdd (f : FieldVal) : Bool := decide (f.n0 &&& 1 = 1)

/-- `Equals`, btcec/field.go:451-461. -/
def equals (f val : FieldVal) : Bool :=
  decide ((f.n0 ^^^ val.n0) ||| (f.n1 ^^^ val.n1) ||| (f.n2 ^^^ val.n2) ||| (f.n3 ^^^ val.n3) |||
    (f.n4 ^^^ val.n4) ||| (f.n5 ^^^ val.n5) ||| (f.n6 ^^^ val.n6) ||| (f.n7 ^^^ val.n7) |||
    (f.n8 ^^^ val.n8) ||| (f.n9 ^^^ val.n9) = 0)

/-- `NegateVal`, btcec/field.go:468-499. -/
def negateVal (val : FieldVal) (magnitude : UInt32) : FieldVal where
  n0 := (magnitude + 1) * fieldPrimeWordZero - val.n0
  n1 := (magnitude + 1) * fieldPrimeWordOne - val.n1
  n2 := (magnitude + 1) * fieldBaseMask - val.n2
  n3 := (magnitude + 1) * fieldBaseMask - val.n3
  n4 := (magnitude + 1) * fieldBaseMask - val.n4
  n5 := (magnitude + 1) * fieldBaseMask - val.n5
  n6 := (magnitude + 1) * fieldBaseMask - val.n6
  n7 := (magnitude + 1) * fieldBaseMask - val.n7
  n8 := (magnitude + 1) * fieldBaseMask - val.n8
  n9 := (magnitude + 1) * fieldMSBMask - val.n9

/-- `Negate`, btcec/field.go:506-508. -/
def negate (f : FieldVal) (magnitude : UInt32) : FieldVal := negateVal f magnitude

/-- `AddInt`, btcec/field.go:516-523. -/
def addInt (f : FieldVal) (ui : UInt64) : FieldVal := { f with n0 := f.n0 + ui.toUInt32 }

/-- `Add`, btcec/field.go:530-547. -/
def add (f val : FieldVal) : FieldVal where
  n0 := f.n0 + val.n0
  n1 := f.n1 + val.n1
  n2 := f.n2 + val.n2
  n3 := f.n3 + val.n3
  n4 := f.n4 + val.n4
  n5 := f.n5 + val.n5
  n6 := f.n6 + val.n6
  n7 := f.n7 + val.n7
  n8 := f.n8 + val.n8
  n9 := f.n9 + val.n9

/-- `Add2`, btcec/field.go:553-570. -/
def add2 (val val2 : FieldVal) : FieldVal where
  n0 := val.n0 + val2.n0
  n1 := val.n1 + val2.n1
  n2 := val.n2 + val2.n2
  n3 := val.n3 + val2.n3
  n4 := val.n4 + val2.n4
  n5 := val.n5 + val2.n5
  n6 := val.n6 + val2.n6
  n7 := val.n7 + val2.n7
  n8 := val.n8 + val2.n8
  n9 := val.n9 + val2.n9

/-- `MulInt`, btcec/field.go:579-599. -/
def mulInt (f : FieldVal) (val : UInt64) : FieldVal :=
  let ui := val.toUInt32
  ⟨f.n0 * ui, f.n1 * ui, f.n2 * ui, f.n3 * ui, f.n4 * ui,
   f.n5 * ui, f.n6 * ui, f.n7 * ui, f.n8 * ui, f.n9 * ui⟩

/-- The reduction at the end of `Mul2`, btcec/field.go:831-878, and, with the same statements, of
`SquareVal`, btcec/field.go:1064-1111. -/
def reduceTerms (t0 t1 t2 t3 t4 t5 t6 t7 t8 t9 t10 t11 t12 t13 t14 t15 t16 t17 t18 t19 : UInt64) :
    FieldVal :=
  let m := t0 + t10 * 15632
  let t0 := m &&& fieldBaseMask64
  let m := (m >>> 26) + t1 + t10 * 1024 + t11 * 15632
  let t1 := m &&& fieldBaseMask64
  let m := (m >>> 26) + t2 + t11 * 1024 + t12 * 15632
  let t2 := m &&& fieldBaseMask64
  let m := (m >>> 26) + t3 + t12 * 1024 + t13 * 15632
  let t3 := m &&& fieldBaseMask64
  let m := (m >>> 26) + t4 + t13 * 1024 + t14 * 15632
  let t4 := m &&& fieldBaseMask64
  let m := (m >>> 26) + t5 + t14 * 1024 + t15 * 15632
  let t5 := m &&& fieldBaseMask64
  let m := (m >>> 26) + t6 + t15 * 1024 + t16 * 15632
  let t6 := m &&& fieldBaseMask64
  let m := (m >>> 26) + t7 + t16 * 1024 + t17 * 15632
  let t7 := m &&& fieldBaseMask64
  let m := (m >>> 26) + t8 + t17 * 1024 + t18 * 15632
  let t8 := m &&& fieldBaseMask64
  let m := (m >>> 26) + t9 + t18 * 1024 + t19 * 68719492368
  let t9 := m &&& fieldMSBMask64
  let m := m >>> 22
  let d := t0 + m * 977
  let r0 := (d &&& fieldBaseMask64).toUInt32
  let d := (d >>> 26) + t1 + m * 64
  let r1 := (d &&& fieldBaseMask64).toUInt32
  let r2 := ((d >>> 26) + t2).toUInt32
  ⟨r0, r1, r2, t3.toUInt32, t4.toUInt32, t5.toUInt32, t6.toUInt32, t7.toUInt32, t8.toUInt32,
    t9.toUInt32⟩

/-- `Mul2`, btcec/field.go:621-881. -/
def mul2 (val val2 : FieldVal) : FieldVal :=
  let m := val.n0.toUInt64 * val2.n0.toUInt64
  let t0 := m &&& fieldBaseMask64
  let m := (m >>> 26) + val.n0.toUInt64 * val2.n1.toUInt64 + val.n1.toUInt64 * val2.n0.toUInt64
  let t1 := m &&& fieldBaseMask64
  let m := (m >>> 26) + val.n0.toUInt64 * val2.n2.toUInt64 + val.n1.toUInt64 * val2.n1.toUInt64 +
    val.n2.toUInt64 * val2.n0.toUInt64
  let t2 := m &&& fieldBaseMask64
  let m := (m >>> 26) + val.n0.toUInt64 * val2.n3.toUInt64 + val.n1.toUInt64 * val2.n2.toUInt64 +
    val.n2.toUInt64 * val2.n1.toUInt64 + val.n3.toUInt64 * val2.n0.toUInt64
  let t3 := m &&& fieldBaseMask64
  let m := (m >>> 26) + val.n0.toUInt64 * val2.n4.toUInt64 + val.n1.toUInt64 * val2.n3.toUInt64 +
    val.n2.toUInt64 * val2.n2.toUInt64 + val.n3.toUInt64 * val2.n1.toUInt64 +
    val.n4.toUInt64 * val2.n0.toUInt64
  let t4 := m &&& fieldBaseMask64
  let m := (m >>> 26) + val.n0.toUInt64 * val2.n5.toUInt64 + val.n1.toUInt64 * val2.n4.toUInt64 +
    val.n2.toUInt64 * val2.n3.toUInt64 + val.n3.toUInt64 * val2.n2.toUInt64 +
    val.n4.toUInt64 * val2.n1.toUInt64 + val.n5.toUInt64 * val2.n0.toUInt64
  let t5 := m &&& fieldBaseMask64
  let m := (m >>> 26) + val.n0.toUInt64 * val2.n6.toUInt64 + val.n1.toUInt64 * val2.n5.toUInt64 +
    val.n2.toUInt64 * val2.n4.toUInt64 + val.n3.toUInt64 * val2.n3.toUInt64 +
    val.n4.toUInt64 * val2.n2.toUInt64 + val.n5.toUInt64 * val2.n1.toUInt64 +
    val.n6.toUInt64 * val2.n0.toUInt64
  let t6 := m &&& fieldBaseMask64
  let m := (m >>> 26) + val.n0.toUInt64 * val2.n7.toUInt64 + val.n1.toUInt64 * val2.n6.toUInt64 +
    val.n2.toUInt64 * val2.n5.toUInt64 + val.n3.toUInt64 * val2.n4.toUInt64 +
    val.n4.toUInt64 * val2.n3.toUInt64 + val.n5.toUInt64 * val2.n2.toUInt64 +
    val.n6.toUInt64 * val2.n1.toUInt64 + val.n7.toUInt64 * val2.n0.toUInt64
  let t7 := m &&& fieldBaseMask64
  let m := (m >>> 26) + val.n0.toUInt64 * val2.n8.toUInt64 + val.n1.toUInt64 * val2.n7.toUInt64 +
    val.n2.toUInt64 * val2.n6.toUInt64 + val.n3.toUInt64 * val2.n5.toUInt64 +
    val.n4.toUInt64 * val2.n4.toUInt64 + val.n5.toUInt64 * val2.n3.toUInt64 +
    val.n6.toUInt64 * val2.n2.toUInt64 + val.n7.toUInt64 * val2.n1.toUInt64 +
    val.n8.toUInt64 * val2.n0.toUInt64
  let t8 := m &&& fieldBaseMask64
  let m := (m >>> 26) + val.n0.toUInt64 * val2.n9.toUInt64 + val.n1.toUInt64 * val2.n8.toUInt64 +
    val.n2.toUInt64 * val2.n7.toUInt64 + val.n3.toUInt64 * val2.n6.toUInt64 +
    val.n4.toUInt64 * val2.n5.toUInt64 + val.n5.toUInt64 * val2.n4.toUInt64 +
    val.n6.toUInt64 * val2.n3.toUInt64 + val.n7.toUInt64 * val2.n2.toUInt64 +
    val.n8.toUInt64 * val2.n1.toUInt64 + val.n9.toUInt64 * val2.n0.toUInt64
  let t9 := m &&& fieldBaseMask64
  let m := (m >>> 26) + val.n1.toUInt64 * val2.n9.toUInt64 + val.n2.toUInt64 * val2.n8.toUInt64 +
    val.n3.toUInt64 * val2.n7.toUInt64 + val.n4.toUInt64 * val2.n6.toUInt64 +
    val.n5.toUInt64 * val2.n5.toUInt64 + val.n6.toUInt64 * val2.n4.toUInt64 +
    val.n7.toUInt64 * val2.n3.toUInt64 + val.n8.toUInt64 * val2.n2.toUInt64 +
    val.n9.toUInt64 * val2.n1.toUInt64
  let t10 := m &&& fieldBaseMask64
  let m := (m >>> 26) + val.n2.toUInt64 * val2.n9.toUInt64 + val.n3.toUInt64 * val2.n8.toUInt64 +
    val.n4.toUInt64 * val2.n7.toUInt64 + val.n5.toUInt64 * val2.n6.toUInt64 +
    val.n6.toUInt64 * val2.n5.toUInt64 + val.n7.toUInt64 * val2.n4.toUInt64 +
    val.n8.toUInt64 * val2.n3.toUInt64 + val.n9.toUInt64 * val2.n2.toUInt64
  let t11 := m &&& fieldBaseMask64
  let m := (m >>> 26) + val.n3.toUInt64 * val2.n9.toUInt64 + val.n4.toUInt64 * val2.n8.toUInt64 +
    val.n5.toUInt64 * val2.n7.toUInt64 + val.n6.toUInt64 * val2.n6.toUInt64 +
    val.n7.toUInt64 * val2.n5.toUInt64 + val.n8.toUInt64 * val2.n4.toUInt64 +
    val.n9.toUInt64 * val2.n3.toUInt64
  let t12 := m &&& fieldBaseMask64
  let m := (m >>> 26) + val.n4.toUInt64 * val2.n9.toUInt64 + val.n5.toUInt64 * val2.n8.toUInt64 +
    val.n6.toUInt64 * val2.n7.toUInt64 + val.n7.toUInt64 * val2.n6.toUInt64 +
    val.n8.toUInt64 * val2.n5.toUInt64 + val.n9.toUInt64 * val2.n4.toUInt64
  let t13 := m &&& fieldBaseMask64
  let m := (m >>> 26) + val.n5.toUInt64 * val2.n9.toUInt64 + val.n6.toUInt64 * val2.n8.toUInt64 +
    val.n7.toUInt64 * val2.n7.toUInt64 + val.n8.toUInt64 * val2.n6.toUInt64 +
    val.n9.toUInt64 * val2.n5.toUInt64
  let t14 := m &&& fieldBaseMask64
  let m := (m >>> 26) + val.n6.toUInt64 * val2.n9.toUInt64 + val.n7.toUInt64 * val2.n8.toUInt64 +
    val.n8.toUInt64 * val2.n7.toUInt64 + val.n9.toUInt64 * val2.n6.toUInt64
  let t15 := m &&& fieldBaseMask64
  let m := (m >>> 26) + val.n7.toUInt64 * val2.n9.toUInt64 + val.n8.toUInt64 * val2.n8.toUInt64 +
    val.n9.toUInt64 * val2.n7.toUInt64
  let t16 := m &&& fieldBaseMask64
  let m := (m >>> 26) + val.n8.toUInt64 * val2.n9.toUInt64 + val.n9.toUInt64 * val2.n8.toUInt64
  let t17 := m &&& fieldBaseMask64
  let m := (m >>> 26) + val.n9.toUInt64 * val2.n9.toUInt64
  let t18 := m &&& fieldBaseMask64
  let t19 := m >>> 26
  reduceTerms t0 t1 t2 t3 t4 t5 t6 t7 t8 t9 t10 t11 t12 t13 t14 t15 t16 t17 t18 t19

/-- `Mul`, btcec/field.go:609-611. -/
def mul (f val : FieldVal) : FieldVal := mul2 f val

/-- `SquareVal`, btcec/field.go:901-1114. -/
def squareVal (val : FieldVal) : FieldVal :=
  let m := val.n0.toUInt64 * val.n0.toUInt64
  let t0 := m &&& fieldBaseMask64
  let m := (m >>> 26) + 2 * val.n0.toUInt64 * val.n1.toUInt64
  let t1 := m &&& fieldBaseMask64
  let m := (m >>> 26) + 2 * val.n0.toUInt64 * val.n2.toUInt64 + val.n1.toUInt64 * val.n1.toUInt64
  let t2 := m &&& fieldBaseMask64
  let m := (m >>> 26) + 2 * val.n0.toUInt64 * val.n3.toUInt64 +
    2 * val.n1.toUInt64 * val.n2.toUInt64
  let t3 := m &&& fieldBaseMask64
  let m := (m >>> 26) + 2 * val.n0.toUInt64 * val.n4.toUInt64 +
    2 * val.n1.toUInt64 * val.n3.toUInt64 + val.n2.toUInt64 * val.n2.toUInt64
  let t4 := m &&& fieldBaseMask64
  let m := (m >>> 26) + 2 * val.n0.toUInt64 * val.n5.toUInt64 +
    2 * val.n1.toUInt64 * val.n4.toUInt64 + 2 * val.n2.toUInt64 * val.n3.toUInt64
  let t5 := m &&& fieldBaseMask64
  let m := (m >>> 26) + 2 * val.n0.toUInt64 * val.n6.toUInt64 +
    2 * val.n1.toUInt64 * val.n5.toUInt64 + 2 * val.n2.toUInt64 * val.n4.toUInt64 +
    val.n3.toUInt64 * val.n3.toUInt64
  let t6 := m &&& fieldBaseMask64
  let m := (m >>> 26) + 2 * val.n0.toUInt64 * val.n7.toUInt64 +
    2 * val.n1.toUInt64 * val.n6.toUInt64 + 2 * val.n2.toUInt64 * val.n5.toUInt64 +
    2 * val.n3.toUInt64 * val.n4.toUInt64
  let t7 := m &&& fieldBaseMask64
  let m := (m >>> 26) + 2 * val.n0.toUInt64 * val.n8.toUInt64 +
    2 * val.n1.toUInt64 * val.n7.toUInt64 + 2 * val.n2.toUInt64 * val.n6.toUInt64 +
    2 * val.n3.toUInt64 * val.n5.toUInt64 + val.n4.toUInt64 * val.n4.toUInt64
  let t8 := m &&& fieldBaseMask64
  let m := (m >>> 26) + 2 * val.n0.toUInt64 * val.n9.toUInt64 +
    2 * val.n1.toUInt64 * val.n8.toUInt64 + 2 * val.n2.toUInt64 * val.n7.toUInt64 +
    2 * val.n3.toUInt64 * val.n6.toUInt64 + 2 * val.n4.toUInt64 * val.n5.toUInt64
  let t9 := m &&& fieldBaseMask64
  let m := (m >>> 26) + 2 * val.n1.toUInt64 * val.n9.toUInt64 +
    2 * val.n2.toUInt64 * val.n8.toUInt64 + 2 * val.n3.toUInt64 * val.n7.toUInt64 +
    2 * val.n4.toUInt64 * val.n6.toUInt64 + val.n5.toUInt64 * val.n5.toUInt64
  let t10 := m &&& fieldBaseMask64
  let m := (m >>> 26) + 2 * val.n2.toUInt64 * val.n9.toUInt64 +
    2 * val.n3.toUInt64 * val.n8.toUInt64 + 2 * val.n4.toUInt64 * val.n7.toUInt64 +
    2 * val.n5.toUInt64 * val.n6.toUInt64
  let t11 := m &&& fieldBaseMask64
  let m := (m >>> 26) + 2 * val.n3.toUInt64 * val.n9.toUInt64 +
    2 * val.n4.toUInt64 * val.n8.toUInt64 + 2 * val.n5.toUInt64 * val.n7.toUInt64 +
    val.n6.toUInt64 * val.n6.toUInt64
  let t12 := m &&& fieldBaseMask64
  let m := (m >>> 26) + 2 * val.n4.toUInt64 * val.n9.toUInt64 +
    2 * val.n5.toUInt64 * val.n8.toUInt64 + 2 * val.n6.toUInt64 * val.n7.toUInt64
  let t13 := m &&& fieldBaseMask64
  let m := (m >>> 26) + 2 * val.n5.toUInt64 * val.n9.toUInt64 +
    2 * val.n6.toUInt64 * val.n8.toUInt64 + val.n7.toUInt64 * val.n7.toUInt64
  let t14 := m &&& fieldBaseMask64
  let m := (m >>> 26) + 2 * val.n6.toUInt64 * val.n9.toUInt64 +
    2 * val.n7.toUInt64 * val.n8.toUInt64
  let t15 := m &&& fieldBaseMask64
  let m := (m >>> 26) + 2 * val.n7.toUInt64 * val.n9.toUInt64 + val.n8.toUInt64 * val.n8.toUInt64
  let t16 := m &&& fieldBaseMask64
  let m := (m >>> 26) + 2 * val.n8.toUInt64 * val.n9.toUInt64
  let t17 := m &&& fieldBaseMask64
  let m := (m >>> 26) + val.n9.toUInt64 * val.n9.toUInt64
  let t18 := m &&& fieldBaseMask64
  let t19 := m >>> 26
  reduceTerms t0 t1 t2 t3 t4 t5 t6 t7 t8 t9 t10 t11 t12 t13 t14 t15 t16 t17 t18 t19

/-- `Square`, btcec/field.go:890-892. -/
def square (f : FieldVal) : FieldVal := squareVal f

/-- `f.Square().Square().Square().Square().Square()`, twice, as in the lines of btcec/field.go:1148
to 1221. -/
def square10 (f : FieldVal) : FieldVal :=
  let f := square (square (square (square (square f))))
  square (square (square (square (square f))))

/-- `Inverse`, btcec/field.go:1121-1223. -/
def inverse (f : FieldVal) : FieldVal :=
  let a2 := squareVal f
  let a3 := mul2 a2 f
  let a4 := squareVal a2
  let a10 := mul (squareVal a4) a2
  let a11 := mul2 a10 f
  let a21 := mul2 a10 a11
  let a42 := squareVal a21
  let a45 := mul2 a42 a3
  let a63 := mul2 a42 a21
  let a1019 := mul (square (square (square (squareVal a63)))) a11
  let a1023 := mul2 a1019 a4
  let f := a63
  let f := mul (square10 f) a1023
  let f := mul (square10 f) a1023
  let f := mul (square10 f) a1023
  let f := mul (square10 f) a1023
  let f := mul (square10 f) a1023
  let f := mul (square10 f) a1023
  let f := mul (square10 f) a1023
  let f := mul (square10 f) a1023
  let f := mul (square10 f) a1023
  let f := mul (square10 f) a1023
  let f := mul (square10 f) a1023
  let f := mul (square10 f) a1023
  let f := mul (square10 f) a1023
  let f := mul (square10 f) a1023
  let f := mul (square10 f) a1023
  let f := mul (square10 f) a1023
  let f := mul (square10 f) a1023
  let f := mul (square10 f) a1023
  let f := mul (square10 f) a1023
  let f := mul (square10 f) a1023
  let f := mul (square10 f) a1023
  let f := mul (square10 f) a1019
  let f := mul (square10 f) a1023
  let f := mul (square10 f) a1023
  mul (square10 f) a45

end Zk.Field
