import Verif.Field.Model

/-!
# Model of btcec/btcec.go

Jacobian points are triples of field values, as in the Go code.  Go passes pointers, and results
may be stored over the first operand; every routine reads a coordinate of its operands for the
last time before it stores the result coordinate that may share its address, so results are modelled
as return values.  Normalisation of operands in place is kept where the operand is used again: the
second operand of `addJacobian` is returned together with the sum.  The first operand is
overwritten or not used again at every call.

Integer coordinates come as `Int`; `big.Int.Bytes` drops the sign.  Conversions panic on
coordinates of more than 32 bytes.
-/

namespace Zk.Curve

open Zk Zk.Field

/-- Jacobian coordinates (x, y, z), btcec/btcec.go:15-20. -/
@[ext] structure Jac where
  x : FieldVal
  y : FieldVal
  z : FieldVal
deriving DecidableEq

/-- `fieldOne`, btcec/btcec.go:28-33. -/
def fieldOne : FieldVal := setInt 1

/-- `curve.P`, btcec/btcec.go:935. -/
def curveP : Nat := 0xFFFFFFFFFFFFFFFFFFFFFFFFFFFFFFFFFFFFFFFFFFFFFFFFFFFFFFFEFFFFFC2F

/-- `curve.N`, btcec/btcec.go:936. -/
def curveN : Nat := 0xFFFFFFFFFFFFFFFFFFFFFFFFFFFFFFFEBAAEDCE6AF48A03BBFD25E8CD0364141

/-- `curve.Gx`, btcec/btcec.go:938. -/
def curveGx : Nat := 0x79BE667EF9DCBBAC55A06295CE870B07029BFCDB2DCE28D959F2815B16F81798

/-- `curve.Gy`, btcec/btcec.go:939. -/
def curveGy : Nat := 0x483ADA7726A3C4655DA4FBFC0E1108A8FD17B448A68554199C47D08FFB10D4B8

/-- `curve.byteSize`, btcec/btcec.go:940, 947. -/
def byteSize : Nat := 256 / 8

/-- `curve.lambda`, btcec/btcec.go:966 (not used by any routine, only by the proof). -/
def curveLambda : Nat := 0x5363AD4CC05C30E0A5261C028812645A122E22EA20816678DF02967C1B23BD72

/-- `curve.beta`, btcec/btcec.go:967: the 32 bytes of the hex string. -/
def betaBytes : Bytes := [
  0x7A, 0xE9, 0x6A, 0x2B, 0x65, 0x7C, 0x07, 0x10, 0x6E, 0x64, 0x47, 0x9E, 0xAC, 0x34, 0x34, 0xE9,
  0x9C, 0xF0, 0x49, 0x75, 0x12, 0xF5, 0x89, 0x95, 0xC1, 0x39, 0x6C, 0x28, 0x71, 0x95, 0x01, 0xEE]

/-- `curve.beta`, btcec/btcec.go:967, through `SetHex`, btcec/field.go:237-243.  The string has an
even number of valid digits, so the padding and the error of `DecodeString` do not occur. -/
def beta : Go FieldVal := setByteSlice betaBytes

/-- `curve.a1`, btcec/btcec.go:968. -/
def curveA1 : Int := 0x3086D221A7D46BCDE86C90E49284EB15

/-- `curve.b1`, btcec/btcec.go:969. -/
def curveB1 : Int := -0xE4437ED6010E88286F547FA90ABFE4C3

/-- `curve.a2`, btcec/btcec.go:970. -/
def curveA2 : Int := 0x114CA50F7A8E2F3F657C1108D9D44CFD8

/-- `curve.b2`, btcec/btcec.go:971. -/
def curveB2 : Int := 0x3086D221A7D46BCDE86C90E49284EB15

/-- `bigAffineToField`, btcec/btcec.go:78-84. -/
def bigAffineToField (x y : Int) : Go (FieldVal × FieldVal) := do
  let x3 ← setByteSlice (intBytes x)
  let y3 ← setByteSlice (intBytes y)
  pure (x3, y3)

/-- `fieldJacobianToBigAffine`, btcec/btcec.go:88-109. -/
def fieldJacobianToBigAffine (p : Jac) : Int × Int :=
  let zInv := inverse p.z
  let tempZ := squareVal zInv
  let x := mul p.x tempZ
  let y := mul p.y (mul tempZ zInv)
  let x := normalize x
  let y := normalize y
  ((Zk.setBytes (fieldBytes x).toList : Nat), (Zk.setBytes (fieldBytes y).toList : Nat))

/-- `IsOnCurve`, btcec/btcec.go:114-122. -/
def isOnCurve (x y : Int) : Go Bool := do
  let f ← bigAffineToField x y
  let fx := f.1
  let fy := f.2
  let y2 := normalize (squareVal fy)
  let result := normalize (addInt (mul (squareVal fx) fx) 7)
  pure (equals y2 result)

/-- The point stored for infinity, btcec/btcec.go:161-163 and its copies. -/
def infJac : Jac := ⟨setInt 0, setInt 0, setInt 0⟩

/-- `doubleZ1EqualsOne`, btcec/btcec.go:480-529. -/
def doubleZ1EqualsOne (x1 y1 : FieldVal) : Jac :=
  let z3 := mulInt y1 2
  let a := squareVal x1
  let b := squareVal y1
  let c := squareVal b
  let b := square (add b x1)
  let d := negate (add a c) 2
  let d := mulInt (add d b) 2
  let e := mulInt a 3
  let f := squareVal e
  let x3 := negate (mulInt d 2) 16
  let x3 := add x3 f
  let f := normalize (add (negate x3 18) d)
  let y3 := negate (mulInt c 8) 8
  let y3 := add y3 (mul f e)
  ⟨normalize x3, normalize y3, normalize z3⟩

/-- `doubleGeneric`, btcec/btcec.go:531-578. -/
def doubleGeneric (x1 y1 z1 : FieldVal) : Jac :=
  let z3 := mulInt (mul2 y1 z1) 2
  let a := squareVal x1
  let b := squareVal y1
  let c := squareVal b
  let b := square (add b x1)
  let d := negate (add a c) 2
  let d := mulInt (add d b) 2
  let e := mulInt a 3
  let f := squareVal e
  let x3 := negate (mulInt d 2) 16
  let x3 := add x3 f
  let f := normalize (add (negate x3 18) d)
  let y3 := negate (mulInt c 8) 8
  let y3 := add y3 (mul f e)
  ⟨normalize x3, normalize y3, normalize z3⟩

/-- `doubleJacobian`, btcec/btcec.go:580-603. -/
def doubleJacobian (p : Jac) : Jac :=
  if isZero p.y || isZero p.z then infJac
  else
    let z1 := normalize p.z
    if equals z1 fieldOne then doubleZ1EqualsOne p.x p.y
    else doubleGeneric p.x p.y z1

/-- `addZ1AndZ2EqualsOne`, btcec/btcec.go:124-188.  Also returns the normalised x2, y2. -/
def addZ1AndZ2EqualsOne (x1 y1 z1 x2 y2 : FieldVal) : Jac × FieldVal × FieldVal :=
  let x1 := normalize x1
  let y1 := normalize y1
  let x2 := normalize x2
  let y2 := normalize y2
  if equals x1 x2 then
    if equals y1 y2 then (doubleJacobian ⟨x1, y1, z1⟩, x2, y2)
    else (infJac, x2, y2)
  else
    let h := add (negate x1 1) x2
    let i := mulInt (squareVal h) 4
    let j := mul2 h i
    let r := mulInt (add (negate y1 1) y2) 2
    let v := mul2 x1 i
    let negJ := negate j 1
    let neg2V := negate (mulInt v 2) 2
    let x3 := add (add (square r) negJ) neg2V
    let negX3 := negate x3 6
    let j := negate (mulInt (mul j y1) 2) 2
    let y3 := add (mul (add v negX3) r) j
    let z3 := mulInt h 2
    (⟨normalize x3, normalize y3, normalize z3⟩, x2, y2)

/-- `addZ1EqualsZ2`, btcec/btcec.go:190-256.  Also returns the normalised x2, y2. -/
def addZ1EqualsZ2 (x1 y1 z1 x2 y2 : FieldVal) : Jac × FieldVal × FieldVal :=
  let x1 := normalize x1
  let y1 := normalize y1
  let x2 := normalize x2
  let y2 := normalize y2
  if equals x1 x2 then
    if equals y1 y2 then (doubleJacobian ⟨x1, y1, z1⟩, x2, y2)
    else (infJac, x2, y2)
  else
    let negX1 := negate x1 1
    let negY1 := negate y1 1
    let a := add negX1 x2
    let b := squareVal a
    let c := add negY1 y2
    let d := squareVal c
    let e := mul2 x1 b
    let negE := negate e 1
    let f := mul2 x2 b
    let x3 := add (negate (add2 e f) 3) d
    let negX3 := normalize (negate x3 5)
    let y3 := negate (mul y1 (add f negE)) 3
    let y3 := add y3 (mul (add e negX3) c)
    let z3 := mul2 z1 a
    (⟨normalize x3, normalize y3, z3⟩, x2, y2)

/-- `addZ2EqualsOne`, btcec/btcec.go:258-334. -/
def addZ2EqualsOne (x1 y1 z1 x2 y2 : FieldVal) : Jac :=
  let x1 := normalize x1
  let y1 := normalize y1
  let z1z1 := squareVal z1
  let u2 := normalize (mul x2 z1z1)
  let s2 := normalize (mul (mul y2 z1z1) z1)
  if equals x1 u2 then
    if equals y1 s2 then doubleJacobian ⟨x1, y1, z1⟩
    else infJac
  else
    let negX1 := negate x1 1
    let h := add2 u2 negX1
    let hh := squareVal h
    let i := mulInt hh 4
    let j := mul2 h i
    let negY1 := negate y1 1
    let r := mulInt (add s2 negY1) 2
    let rr := squareVal r
    let v := mul2 x1 i
    let x3 := negate (add (mulInt v 2) j) 3
    let x3 := add x3 rr
    let negX3 := negate x3 5
    let y3 := negate (mulInt (mul y1 j) 2) 2
    let y3 := add y3 (mul (add v negX3) r)
    let z3 := square (add2 z1 h)
    let z3 := add z3 (negate (add z1z1 hh) 2)
    ⟨normalize x3, normalize y3, normalize z3⟩

/-- `addGeneric`, btcec/btcec.go:336-409. -/
def addGeneric (x1 y1 z1 x2 y2 z2 : FieldVal) : Jac :=
  let z1z1 := squareVal z1
  let z2z2 := squareVal z2
  let u1 := normalize (mul x1 z2z2)
  let u2 := normalize (mul x2 z1z1)
  let s1 := normalize (mul (mul y1 z2z2) z2)
  let s2 := normalize (mul (mul y2 z1z1) z1)
  if equals u1 u2 then
    if equals s1 s2 then doubleJacobian ⟨x1, y1, z1⟩
    else infJac
  else
    let negU1 := negate u1 1
    let h := add2 u2 negU1
    let i := square (mulInt h 2)
    let j := mul2 h i
    let negS1 := negate s1 1
    let r := mulInt (add s2 negS1) 2
    let rr := squareVal r
    let v := mul2 u1 i
    let x3 := negate (add (mulInt v 2) j) 3
    let x3 := add x3 rr
    let negX3 := negate x3 5
    let y3 := negate (mulInt (mul2 s1 j) 2) 2
    let y3 := add y3 (mul (add v negX3) r)
    let z3 := square (add2 z1 z2)
    let z3 := add z3 (negate (add z1z1 z2z2) 2)
    let z3 := mul z3 h
    ⟨normalize x3, normalize y3, z3⟩

/-- `addJacobian`, btcec/btcec.go:411-453: the sum, and the second operand after the call. -/
def addJacobian (p q : Jac) : Jac × Jac :=
  if (isZero p.x && isZero p.y) || isZero p.z then (q, q)
  else if (isZero q.x && isZero q.y) || isZero q.z then (p, q)
  else
    let z1 := normalize p.z
    let z2 := normalize q.z
    let isZ1One := equals z1 fieldOne
    let isZ2One := equals z2 fieldOne
    if isZ1One && isZ2One then
      let r := addZ1AndZ2EqualsOne p.x p.y z1 q.x q.y
      (r.1, ⟨r.2.1, r.2.2, z2⟩)
    else if equals z1 z2 then
      let r := addZ1EqualsZ2 p.x p.y z1 q.x q.y
      (r.1, ⟨r.2.1, r.2.2, z2⟩)
    else if isZ2One then
      (addZ2EqualsOne p.x p.y z1 q.x q.y, ⟨q.x, q.y, z2⟩)
    else
      (addGeneric p.x p.y z1 q.x q.y z2, ⟨q.x, q.y, z2⟩)

/-- `Add`, btcec/btcec.go:455-478. -/
def add (x1 y1 x2 y2 : Int) : Go (Int × Int) :=
  if x1 = 0 ∧ y1 = 0 then .ok (x2, y2)
  else if x2 = 0 ∧ y2 = 0 then .ok (x1, y1)
  else do
    let f1 ← bigAffineToField x1 y1
    let f2 ← bigAffineToField x2 y2
    let fOne := setInt 1
    let f3 := (addJacobian ⟨f1.1, f1.2, fOne⟩ ⟨f2.1, f2.2, fOne⟩).1
    pure (fieldJacobianToBigAffine f3)

/-- `Double`, btcec/btcec.go:605-621. -/
def double (x1 y1 : Int) : Go (Int × Int) :=
  if y1 = 0 then .ok (0, 0)
  else do
    let f1 ← bigAffineToField x1 y1
    let fOne := setInt 1
    pure (fieldJacobianToBigAffine (doubleJacobian ⟨f1.1, f1.2, fOne⟩))

/-- `splitK`, btcec/btcec.go:623-664.  `big.Int.Div` is Euclidean division. -/
def splitK (k : Bytes) : Bytes × Bytes × Int × Int :=
  let bigIntK : Int := Zk.setBytes k
  let c1 := curveB2 * bigIntK
  let c1 := c1 / (curveN : Int)
  let c2 := curveB1 * bigIntK
  let c2 := c2 / (curveN : Int)
  let tmp1 := c1 * curveA1
  let tmp2 := c2 * curveA2
  let k1 := bigIntK - tmp1
  let k1 := k1 + tmp2
  let tmp1 := c1 * curveB1
  let tmp2 := c2 * curveB2
  let k2 := tmp2 - tmp1
  (intBytes k1, intBytes k2, k1.sign, k2.sign)

/-- `moduloReduce`, btcec/btcec.go:666-680. -/
def moduloReduce (k : Bytes) : Bytes :=
  if k.length > byteSize then
    let tmpK : Int := Zk.setBytes k
    let tmpK := tmpK % (curveN : Int)
    intBytes tmpK
  else k

/-- The variables of `NAF` that live across iterations, btcec/btcec.go:700-703, and `curByte`. -/
structure NafState where
  carry : Bool
  retPos : Bytes
  retNeg : Bytes
  curByte : UInt8
deriving DecidableEq

/-- `s[i] += v` on a byte slice, btcec/btcec.go:728, 733, 741, 746; the index stays within the bounds. -/
def addAt (s : Bytes) (i : Nat) (v : UInt8) : Bytes := s.modify i (· + v)

/-- Body of the inner loop of `NAF`, btcec/btcec.go:706-749. -/
def nafBit (k : Bytes) (i : Nat) (s : NafState) (j : Nat) : NafState :=
  let curIsOne := decide (s.curByte &&& 1 = 1)
  let nextIsOne :=
    if j = 7 then
      if i = 0 then false
      else decide ((k.getD (i - 1) 0) &&& 1 = 1)
    else decide (s.curByte &&& 2 = 2)
  let bit : UInt8 := 1 <<< UInt8.ofNat j
  let s :=
    if s.carry then
      if curIsOne then s
      else if nextIsOne then { s with retNeg := addAt s.retNeg (i + 1) bit }
      else { s with carry := false, retPos := addAt s.retPos (i + 1) bit }
    else if curIsOne then
      if nextIsOne then { s with retNeg := addAt s.retNeg (i + 1) bit, carry := true }
      else { s with retPos := addAt s.retPos (i + 1) bit }
    else s
  { s with curByte := s.curByte >>> 1 }

/-- Body of the outer loop of `NAF`, btcec/btcec.go:704-751. -/
def nafByte (k : Bytes) (s : NafState) (i : Nat) : NafState :=
  (List.range 8).foldl (nafBit k i) { s with curByte := k.getD i 0 }

/-- `NAF`, btcec/btcec.go:682-757.  The outer loop runs from the last byte to the first. -/
def naf (k : Bytes) : Bytes × Bytes :=
  let s0 : NafState :=
    ⟨false, List.replicate (k.length + 1) 0, List.replicate (k.length + 1) 0, 0⟩
  let s := (List.range k.length).reverse.foldl (nafByte k) s0
  if s.carry then (s.retPos.set 0 1, s.retNeg)
  else (s.retPos.drop 1, s.retNeg.drop 1)

/-- Variables of the loop of `ScalarMult`, btcec/btcec.go:763-797. -/
structure SmState where
  q : Jac
  p1x : FieldVal
  p1y : FieldVal
  p1yNeg : FieldVal
  p1z : FieldVal
  p2x : FieldVal
  p2y : FieldVal
  p2yNeg : FieldVal
  p2z : FieldVal

/-- Adding the first operand, btcec/btcec.go:836-842. -/
def smAdd1 (s : SmState) (k1BytePos k1ByteNeg : UInt8) : SmState :=
  if k1BytePos &&& 0x80 = 0x80 then
    let r := addJacobian s.q ⟨s.p1x, s.p1y, s.p1z⟩
    { s with q := r.1, p1x := r.2.x, p1y := r.2.y, p1z := r.2.z }
  else if k1ByteNeg &&& 0x80 = 0x80 then
    let r := addJacobian s.q ⟨s.p1x, s.p1yNeg, s.p1z⟩
    { s with q := r.1, p1x := r.2.x, p1yNeg := r.2.y, p1z := r.2.z }
  else s

/-- Adding the second operand, btcec/btcec.go:844-850. -/
def smAdd2 (s : SmState) (k2BytePos k2ByteNeg : UInt8) : SmState :=
  if k2BytePos &&& 0x80 = 0x80 then
    let r := addJacobian s.q ⟨s.p2x, s.p2y, s.p2z⟩
    { s with q := r.1, p2x := r.2.x, p2y := r.2.y, p2z := r.2.z }
  else if k2ByteNeg &&& 0x80 = 0x80 then
    let r := addJacobian s.q ⟨s.p2x, s.p2yNeg, s.p2z⟩
    { s with q := r.1, p2x := r.2.x, p2yNeg := r.2.y, p2z := r.2.z }
  else s

/-- One iteration of the inner loop of `ScalarMult`, btcec/btcec.go:833-850, on the four bytes. -/
def smBit (s : SmState) (k1BytePos k1ByteNeg k2BytePos k2ByteNeg : UInt8) : SmState :=
  smAdd2 (smAdd1 { s with q := doubleJacobian s.q } k1BytePos k1ByteNeg) k2BytePos k2ByteNeg

/-- The inner loop of `ScalarMult`, btcec/btcec.go:832-855, with `n` iterations left; the bytes are
shifted at the end of each. -/
def smByte : Nat → SmState → UInt8 → UInt8 → UInt8 → UInt8 → SmState
  | 0, s, _, _, _, _ => s
  | n + 1, s, a, b, c, d => smByte n (smBit s a b c d) (a <<< 1) (b <<< 1) (c <<< 1) (d <<< 1)

/-- `s[i]` on a byte slice, btcec/btcec.go:822-830: panics out of range. -/
def index (s : Bytes) (i : Nat) : Go UInt8 :=
  match s[i]? with
  | some b => .ok b
  | none => .panic

/-- Choosing a byte of a slice that is `len` bytes long and aligned to the right of `m` bytes,
btcec/btcec.go:817-830. -/
def byteAt (len m i : Nat) (b : Bytes) : Go UInt8 :=
  if i < m - len then .ok 0 else index b (i - (m - len))

/-- Body of the outer loop of `ScalarMult`, btcec/btcec.go:815-856.  The length of the positive part
decides for both parts. -/
def smLoop (k1Pos k1Neg k2Pos k2Neg : Bytes) (m : Nat) (s : SmState) (i : Nat) : Go SmState := do
  let k1Len := k1Pos.length
  let k2Len := k2Pos.length
  let k1BytePos ← byteAt k1Len m i k1Pos
  let k1ByteNeg ← byteAt k1Len m i k1Neg
  let k2BytePos ← byteAt k2Len m i k2Pos
  let k2ByteNeg ← byteAt k2Len m i k2Neg
  pure (smByte 8 s k1BytePos k1ByteNeg k2BytePos k2ByteNeg)

/-- The part of `ScalarMult` from the choice of signs to the end of the loop,
btcec/btcec.go:763-857, on the parts of k, the operand as field values and `curve.beta`. -/
def smRun (k1 k2 : Bytes) (signK1 signK2 : Int) (p1x p1y b : FieldVal) : Go Jac := do
  let p1yNeg := negateVal p1y 1
  let p1z := setInt 1
  let p2x := mul2 p1x b
  let p2y := p1y
  let p2yNeg := negateVal p2y 1
  let p2z := setInt 1
  let y1 := if signK1 = -1 then (p1yNeg, p1y) else (p1y, p1yNeg)
  let y2 := if signK2 = -1 then (p2yNeg, p2y) else (p2y, p2yNeg)
  let n1 := naf k1
  let n2 := naf k2
  let m := if n1.1.length < n2.1.length then n2.1.length else n1.1.length
  let s0 : SmState :=
    ⟨⟨zero, zero, zero⟩, p1x, y1.1, y1.2, p1z, p2x, y2.1, y2.2, p2z⟩
  let s ← (List.range m).foldlM (smLoop n1.1 n1.2 n2.1 n2.2 m) s0
  pure s.q

/-- `ScalarMult`, btcec/btcec.go:759-861. -/
def scalarMult (bx by' : Int) (k : Bytes) : Go (Int × Int) := do
  let sp := splitK (moduloReduce k)
  let p1 ← bigAffineToField bx by'
  let b ← beta
  let q ← smRun sp.1 sp.2.1 sp.2.2.1 sp.2.2.2 p1.1 p1.2 b
  pure (fieldJacobianToBigAffine q)

/-- Word `k` of the 30 words of a table entry: ten words for each of x, y, z, in the order in which
btcec/precompute.go:45-61 reads them.  The tables in Verif/Curve/Data hold each word in 28 bits. -/
def tabWord (e k : Nat) : UInt32 := UInt32.ofNat (e / 2 ^ (28 * k) % 2 ^ 28)

/-- Coordinate `c` of a table entry, btcec/precompute.go:49-60. -/
def tabField (e c : Nat) : FieldVal :=
  ⟨tabWord e (10 * c), tabWord e (10 * c + 1), tabWord e (10 * c + 2), tabWord e (10 * c + 3),
    tabWord e (10 * c + 4), tabWord e (10 * c + 5), tabWord e (10 * c + 6), tabWord e (10 * c + 7),
    tabWord e (10 * c + 8), tabWord e (10 * c + 9)⟩

/-- The words of entry `i` of a row, btcec/precompute.go:45. -/
def tabEntry (row i : Nat) : Nat := row / 2 ^ (840 * i) % 2 ^ 840

/-- The point `bytePoints[b][i]`, btcec/precompute.go:42-63, of a table given by its rows. -/
def tabPoint (rows : List Nat) (b : Nat) (i : UInt8) : Jac :=
  let e := tabEntry (rows.getD b 0) i.toNat
  ⟨tabField e 0, tabField e 1, tabField e 2⟩

/-- The loop of `ScalarBaseMult` and `ScalarBaseMultH`, btcec/btcec.go:878-881 and 900-903, on the
remaining bytes from index `i`.  `tab` is the table of precomputed points; the model's table is
total, the row index stays below 32 because `diff + i < 32`.  Entries are copied, so the table does not change. -/
def baseLoop (tab : Nat → UInt8 → Jac) (diff : Nat) : Nat → Jac → Bytes → Jac
  | _, q, [] => q
  | i, q, byteVal :: rest =>
    baseLoop tab diff (i + 1) (addJacobian q (tab (diff + i) byteVal)).1 rest

/-- `ScalarBaseMult`, btcec/btcec.go:863-883, and `ScalarBaseMultH`, btcec/btcec.go:885-905, which
differ only in the table. -/
def scalarBaseMult (tab : Nat → UInt8 → Jac) (k : Bytes) : Go (Int × Int) :=
  let newK := moduloReduce k
  if 32 < newK.length then .panic
  else
    let diff := 32 - newK.length
    pure (fieldJacobianToBigAffine (baseLoop tab diff 0 ⟨zero, zero, zero⟩ newK))

end Zk.Curve
