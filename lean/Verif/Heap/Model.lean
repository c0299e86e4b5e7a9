import Verif.Curve.TestCurve

/-!
# The curve routines on memory

btcec/btcec.go works on pointers to field values, and its callers pass the same pointers as operand and
as result.  Here the routines are written on a memory, so that such calls can be studied.  Local
variables of type `fieldVal`, whose addresses do not leave the routine, stay values.  A chain of methods
on one pointer, whose later arguments are numbers or local variables, is one write.
-/

namespace Zk.Heap

open Zk Zk.Field
open Zk.Curve hiding add double

/-- Addresses of field values (btcec/field.go:135-137). -/
abbrev Ptr := Nat

/-- Contents of the memory (btcec/field.go:135-137).  Two field values are at the same address or do not
overlap. -/
abbrev Mem := Ptr → FieldVal

/-- A write through a pointer, as by `Set`, btcec/field.go:163-169. -/
def Mem.set (m : Mem) (p : Ptr) (v : FieldVal) : Mem := fun q => if q = p then v else m q

/-- `Normalize` through a pointer, btcec/field.go:245-371. -/
def Mem.norm (m : Mem) (p : Ptr) : Mem := m.set p (normalize (m p))

/-- Pointers to the coordinates of a point, as in the parameter lists of btcec/btcec.go:417. -/
structure Pt where
  x : Ptr
  y : Ptr
  z : Ptr
deriving DecidableEq

/-- Setting a point to infinity, btcec/btcec.go:161-163 and its copies. -/
def setInf (m : Mem) (p : Pt) : Mem :=
  let m := m.set p.x (setInt 0)
  let m := m.set p.y (setInt 0)
  m.set p.z (setInt 0)

/-- `doubleZ1EqualsOne`, btcec/btcec.go:480-529. -/
def doubleZ1EqualsOne (m : Mem) (x1 y1 x3 y3 z3 : Ptr) : Mem :=
  let m := m.set z3 (mulInt (m y1) 2)
  let a := squareVal (m x1)
  let b := squareVal (m y1)
  let c := squareVal b
  let b := square (add b (m x1))
  let d := negate (add a c) 2
  let d := mulInt (add d b) 2
  let e := mulInt a 3
  let f := squareVal e
  let m := m.set x3 (negate (mulInt d 2) 16)
  let m := m.set x3 (add (m x3) f)
  let f := normalize (add (negate (m x3) 18) d)
  let m := m.set y3 (negate (mulInt c 8) 8)
  let m := m.set y3 (add (m y3) (mul f e))
  let m := m.norm x3
  let m := m.norm y3
  m.norm z3

/-- `doubleGeneric`, btcec/btcec.go:531-578. -/
def doubleGeneric (m : Mem) (x1 y1 z1 x3 y3 z3 : Ptr) : Mem :=
  let m := m.set z3 (mulInt (mul2 (m y1) (m z1)) 2)
  let a := squareVal (m x1)
  let b := squareVal (m y1)
  let c := squareVal b
  let b := square (add b (m x1))
  let d := negate (add a c) 2
  let d := mulInt (add d b) 2
  let e := mulInt a 3
  let f := squareVal e
  let m := m.set x3 (negate (mulInt d 2) 16)
  let m := m.set x3 (add (m x3) f)
  let f := normalize (add (negate (m x3) 18) d)
  let m := m.set y3 (negate (mulInt c 8) 8)
  let m := m.set y3 (add (m y3) (mul f e))
  let m := m.norm x3
  let m := m.norm y3
  m.norm z3

/-- `doubleJacobian`, btcec/btcec.go:580-603. -/
def doubleJacobian (m : Mem) (p1 p3 : Pt) : Mem :=
  if isZero (m p1.y) || isZero (m p1.z) then setInf m p3
  else
    let m := m.norm p1.z
    if equals (m p1.z) fieldOne then doubleZ1EqualsOne m p1.x p1.y p3.x p3.y p3.z
    else doubleGeneric m p1.x p1.y p1.z p3.x p3.y p3.z

/-- `addZ1AndZ2EqualsOne`, btcec/btcec.go:124-188. -/
def addZ1AndZ2EqualsOne (m : Mem) (x1 y1 z1 x2 y2 x3 y3 z3 : Ptr) : Mem :=
  let m := m.norm x1
  let m := m.norm y1
  let m := m.norm x2
  let m := m.norm y2
  if equals (m x1) (m x2) then
    if equals (m y1) (m y2) then doubleJacobian m ⟨x1, y1, z1⟩ ⟨x3, y3, z3⟩
    else setInf m ⟨x3, y3, z3⟩
  else
    let h := add (negate (m x1) 1) (m x2)
    let i := mulInt (squareVal h) 4
    let j := mul2 h i
    let r := mulInt (add (negate (m y1) 1) (m y2)) 2
    let v := mul2 (m x1) i
    let negJ := negate j 1
    let neg2V := negate (mulInt v 2) 2
    let m := m.set x3 (add (add (square r) negJ) neg2V)
    let negX3 := negate (m x3) 6
    let j := negate (mulInt (mul j (m y1)) 2) 2
    let m := m.set y3 (add (mul (add v negX3) r) j)
    let m := m.set z3 (mulInt h 2)
    let m := m.norm x3
    let m := m.norm y3
    m.norm z3

/-- `addZ1EqualsZ2`, btcec/btcec.go:190-256. -/
def addZ1EqualsZ2 (m : Mem) (x1 y1 z1 x2 y2 x3 y3 z3 : Ptr) : Mem :=
  let m := m.norm x1
  let m := m.norm y1
  let m := m.norm x2
  let m := m.norm y2
  if equals (m x1) (m x2) then
    if equals (m y1) (m y2) then doubleJacobian m ⟨x1, y1, z1⟩ ⟨x3, y3, z3⟩
    else setInf m ⟨x3, y3, z3⟩
  else
    let negX1 := negate (m x1) 1
    let negY1 := negate (m y1) 1
    let a := add negX1 (m x2)
    let b := squareVal a
    let c := add negY1 (m y2)
    let d := squareVal c
    let e := mul2 (m x1) b
    let negE := negate e 1
    let f := mul2 (m x2) b
    let m := m.set x3 (add (negate (add2 e f) 3) d)
    let negX3 := normalize (negate (m x3) 5)
    let m := m.set y3 (negate (mul (m y1) (add f negE)) 3)
    let m := m.set y3 (add (m y3) (mul (add e negX3) c))
    let m := m.set z3 (mul2 (m z1) a)
    let m := m.norm x3
    m.norm y3

/-- `addZ2EqualsOne`, btcec/btcec.go:258-334. -/
def addZ2EqualsOne (m : Mem) (x1 y1 z1 x2 y2 x3 y3 z3 : Ptr) : Mem :=
  let m := m.norm x1
  let m := m.norm y1
  let z1z1 := squareVal (m z1)
  let u2 := normalize (mul (m x2) z1z1)
  let s2 := normalize (mul (mul (m y2) z1z1) (m z1))
  if equals (m x1) u2 then
    if equals (m y1) s2 then doubleJacobian m ⟨x1, y1, z1⟩ ⟨x3, y3, z3⟩
    else setInf m ⟨x3, y3, z3⟩
  else
    let negX1 := negate (m x1) 1
    let h := add2 u2 negX1
    let hh := squareVal h
    let i := mulInt hh 4
    let j := mul2 h i
    let negY1 := negate (m y1) 1
    let r := mulInt (add s2 negY1) 2
    let rr := squareVal r
    let v := mul2 (m x1) i
    let m := m.set x3 (negate (add (mulInt v 2) j) 3)
    let m := m.set x3 (add (m x3) rr)
    let negX3 := negate (m x3) 5
    let m := m.set y3 (negate (mulInt (mul (m y1) j) 2) 2)
    let m := m.set y3 (add (m y3) (mul (add v negX3) r))
    let m := m.set z3 (square (add2 (m z1) h))
    let m := m.set z3 (add (m z3) (negate (add z1z1 hh) 2))
    let m := m.norm x3
    let m := m.norm y3
    m.norm z3

/-- `addGeneric`, btcec/btcec.go:336-409. -/
def addGeneric (m : Mem) (x1 y1 z1 x2 y2 z2 x3 y3 z3 : Ptr) : Mem :=
  let z1z1 := squareVal (m z1)
  let z2z2 := squareVal (m z2)
  let u1 := normalize (mul (m x1) z2z2)
  let u2 := normalize (mul (m x2) z1z1)
  let s1 := normalize (mul (mul (m y1) z2z2) (m z2))
  let s2 := normalize (mul (mul (m y2) z1z1) (m z1))
  if equals u1 u2 then
    if equals s1 s2 then doubleJacobian m ⟨x1, y1, z1⟩ ⟨x3, y3, z3⟩
    else setInf m ⟨x3, y3, z3⟩
  else
    let negU1 := negate u1 1
    let h := add2 u2 negU1
    let i := square (mulInt h 2)
    let j := mul2 h i
    let negS1 := negate s1 1
    let r := mulInt (add s2 negS1) 2
    let rr := squareVal r
    let v := mul2 u1 i
    let m := m.set x3 (negate (add (mulInt v 2) j) 3)
    let m := m.set x3 (add (m x3) rr)
    let negX3 := negate (m x3) 5
    let m := m.set y3 (negate (mulInt (mul2 s1 j) 2) 2)
    let m := m.set y3 (add (m y3) (mul (add v negX3) r))
    let m := m.set z3 (square (add2 (m z1) (m z2)))
    let m := m.set z3 (add (m z3) (negate (add z1z1 z2z2) 2))
    let m := m.set z3 (mul (m z3) h)
    let m := m.norm x3
    m.norm y3

/-- `addJacobian`, btcec/btcec.go:411-453. -/
def addJacobian (m : Mem) (p1 p2 p3 : Pt) : Mem :=
  if (isZero (m p1.x) && isZero (m p1.y)) || isZero (m p1.z) then
    let m := m.set p3.x (m p2.x)
    let m := m.set p3.y (m p2.y)
    m.set p3.z (m p2.z)
  else if (isZero (m p2.x) && isZero (m p2.y)) || isZero (m p2.z) then
    let m := m.set p3.x (m p1.x)
    let m := m.set p3.y (m p1.y)
    m.set p3.z (m p1.z)
  else
    let m := m.norm p1.z
    let m := m.norm p2.z
    let isZ1One := equals (m p1.z) fieldOne
    let isZ2One := equals (m p2.z) fieldOne
    if isZ1One && isZ2One then
      addZ1AndZ2EqualsOne m p1.x p1.y p1.z p2.x p2.y p3.x p3.y p3.z
    else if equals (m p1.z) (m p2.z) then
      addZ1EqualsZ2 m p1.x p1.y p1.z p2.x p2.y p3.x p3.y p3.z
    else if isZ2One then
      addZ2EqualsOne m p1.x p1.y p1.z p2.x p2.y p3.x p3.y p3.z
    else
      addGeneric m p1.x p1.y p1.z p2.x p2.y p2.z p3.x p3.y p3.z

/-- `fieldJacobianToBigAffine`, btcec/btcec.go:88-109: the two numbers, and the memory, in which the
point has been made affine. -/
def fieldJacobianToBigAffine (m : Mem) (p : Pt) : (Int × Int) × Mem :=
  let zInv := inverse (m p.z)
  let tempZ := squareVal zInv
  let m := m.set p.x (mul (m p.x) tempZ)
  let m := m.set p.y (mul (m p.y) (mul tempZ zInv))
  let m := m.set p.z (setInt 1)
  let m := m.norm p.x
  let m := m.norm p.y
  (((Zk.setBytes (fieldBytes (m p.x)).toList : Nat), (Zk.setBytes (fieldBytes (m p.y)).toList : Nat)), m)

/-- `Add`, btcec/btcec.go:455-478: the result, and the memory afterwards.  The values it allocates, fx1,
fy1, fx2, fy2, fx3, fy3, fz3 and fOne, are at `base` and the following addresses; fOne is the z coordinate
of both operands. -/
def add (m : Mem) (base : Ptr) (x1 y1 x2 y2 : Int) : Go ((Int × Int) × Mem) :=
  if x1 = 0 ∧ y1 = 0 then .ok ((x2, y2), m)
  else if x2 = 0 ∧ y2 = 0 then .ok ((x1, y1), m)
  else do
    let f1 ← bigAffineToField x1 y1
    let f2 ← bigAffineToField x2 y2
    let m := m.set base f1.1
    let m := m.set (base + 1) f1.2
    let m := m.set (base + 2) f2.1
    let m := m.set (base + 3) f2.2
    let m := m.set (base + 4) zero
    let m := m.set (base + 5) zero
    let m := m.set (base + 6) zero
    let m := m.set (base + 7) (setInt 1)
    let m := addJacobian m ⟨base, base + 1, base + 7⟩ ⟨base + 2, base + 3, base + 7⟩
      ⟨base + 4, base + 5, base + 6⟩
    pure (fieldJacobianToBigAffine m ⟨base + 4, base + 5, base + 6⟩)

/-- `Double`, btcec/btcec.go:605-621: the result, and the memory afterwards.  The values it allocates, fx1,
fy1, fx3, fy3, fz3 and fOne, are at `base` and the following addresses. -/
def double (m : Mem) (base : Ptr) (x1 y1 : Int) : Go ((Int × Int) × Mem) :=
  if y1 = 0 then .ok ((0, 0), m)
  else do
    let f1 ← bigAffineToField x1 y1
    let m := m.set base f1.1
    let m := m.set (base + 1) f1.2
    let m := m.set (base + 2) zero
    let m := m.set (base + 3) zero
    let m := m.set (base + 4) zero
    let m := m.set (base + 5) (setInt 1)
    let m := doubleJacobian m ⟨base, base + 1, base + 5⟩ ⟨base + 2, base + 3, base + 4⟩
    pure (fieldJacobianToBigAffine m ⟨base + 2, base + 3, base + 4⟩)

/-- The pointers of `ScalarMult`, btcec/btcec.go:763-797. -/
structure SmPtrs where
  q : Pt
  p1x : Ptr
  p1y : Ptr
  p1yNeg : Ptr
  p1z : Ptr
  p2x : Ptr
  p2y : Ptr
  p2yNeg : Ptr
  p2z : Ptr

/-- One iteration of the inner loop of `ScalarMult`, btcec/btcec.go:833-850. -/
def smBit (s : SmPtrs) (m : Mem) (k1BytePos k1ByteNeg k2BytePos k2ByteNeg : UInt8) : Mem :=
  let m := doubleJacobian m s.q s.q
  let m :=
    if k1BytePos &&& 0x80 = 0x80 then addJacobian m s.q ⟨s.p1x, s.p1y, s.p1z⟩ s.q
    else if k1ByteNeg &&& 0x80 = 0x80 then addJacobian m s.q ⟨s.p1x, s.p1yNeg, s.p1z⟩ s.q
    else m
  if k2BytePos &&& 0x80 = 0x80 then addJacobian m s.q ⟨s.p2x, s.p2y, s.p2z⟩ s.q
  else if k2ByteNeg &&& 0x80 = 0x80 then addJacobian m s.q ⟨s.p2x, s.p2yNeg, s.p2z⟩ s.q
  else m

/-- The inner loop of `ScalarMult`, btcec/btcec.go:832-855, with `n` iterations left. -/
def smByte (s : SmPtrs) : Nat → Mem → UInt8 → UInt8 → UInt8 → UInt8 → Mem
  | 0, m, _, _, _, _ => m
  | n + 1, m, a, b, c, d => smByte s n (smBit s m a b c d) (a <<< 1) (b <<< 1) (c <<< 1) (d <<< 1)

/-- Body of the outer loop of `ScalarMult`, btcec/btcec.go:815-856. -/
def smLoop (s : SmPtrs) (k1Pos k1Neg k2Pos k2Neg : Bytes) (n : Nat) (m : Mem) (i : Nat) : Go Mem := do
  let k1Len := k1Pos.length
  let k2Len := k2Pos.length
  let k1BytePos ← byteAt k1Len n i k1Pos
  let k1ByteNeg ← byteAt k1Len n i k1Neg
  let k2BytePos ← byteAt k2Len n i k2Pos
  let k2ByteNeg ← byteAt k2Len n i k2Neg
  pure (smByte s 8 m k1BytePos k1ByteNeg k2BytePos k2ByteNeg)

/-- The values `ScalarMult` allocates, btcec/btcec.go:763-784, at `base` and the following addresses: qx,
qy, qz, p1x, p1y, p1yNeg, p1z, p2x, p2y, p2yNeg, p2z.  `curve.beta` is at `betaPtr`, and `x`, `y` are the
results of `bigAffineToField`. -/
def smInit (m : Mem) (base betaPtr : Ptr) (x y : FieldVal) : Mem :=
  let m := m.set base zero
  let m := m.set (base + 1) zero
  let m := m.set (base + 2) zero
  let m := m.set (base + 3) x
  let m := m.set (base + 4) y
  let m := m.set (base + 5) (negateVal (m (base + 4)) 1)
  let m := m.set (base + 6) (setInt 1)
  let m := m.set (base + 7) (mul2 (m (base + 3)) (m betaPtr))
  let m := m.set (base + 8) (m (base + 4))
  let m := m.set (base + 9) (negateVal (m (base + 8)) 1)
  m.set (base + 10) (setInt 1)

/-- The pointers of `ScalarMult` after the exchange for negative signs, btcec/btcec.go:786-797. -/
def smPtrs (base : Ptr) (signK1 signK2 : Int) : SmPtrs :=
  let y1 := if signK1 = -1 then (base + 5, base + 4) else (base + 4, base + 5)
  let y2 := if signK2 = -1 then (base + 9, base + 8) else (base + 8, base + 9)
  ⟨⟨base, base + 1, base + 2⟩, base + 3, y1.1, y1.2, base + 6, base + 7, y2.1, y2.2, base + 10⟩

/-- `ScalarMult`, btcec/btcec.go:759-861: the result, and the memory afterwards. -/
def scalarMult (m : Mem) (base betaPtr : Ptr) (bx by' : Int) (k : Bytes) : Go ((Int × Int) × Mem) := do
  let sp := splitK (moduloReduce k)
  let p1 ← bigAffineToField bx by'
  let s := smPtrs base sp.2.2.1 sp.2.2.2
  let n1 := naf sp.1
  let n2 := naf sp.2.1
  let n := if n1.1.length < n2.1.length then n2.1.length else n1.1.length
  let m ← (List.range n).foldlM (smLoop s n1.1 n1.2 n2.1 n2.2 n) (smInit m base betaPtr p1.1 p1.2)
  pure (fieldJacobianToBigAffine m s.q)

/-- The address of coordinate `c` of `curve.bytePoints[b][i]`, btcec/btcec.go:879, 901: the table is an
array of arrays at `tab`. -/
def tabPtr (tab : Ptr) (b : Nat) (i : UInt8) (c : Nat) : Ptr := tab + 3 * (256 * b + i.toNat) + c

/-- The loop of `ScalarBaseMult`, btcec/btcec.go:878-881, and of `ScalarBaseMultH`,
btcec/btcec.go:900-903, from index `i` on, on the rest of the bytes.  The variable `p` is a copy of the
entry. -/
def baseLoop (tab : Ptr) (q p : Pt) (diff : Nat) : Nat → Mem → Bytes → Mem
  | _, m, [] => m
  | i, m, byteVal :: rest =>
    let v0 := m (tabPtr tab (diff + i) byteVal 0)
    let v1 := m (tabPtr tab (diff + i) byteVal 1)
    let v2 := m (tabPtr tab (diff + i) byteVal 2)
    let m := m.set p.x v0
    let m := m.set p.y v1
    let m := m.set p.z v2
    baseLoop tab q p diff (i + 1) (addJacobian m q p q) rest

/-- `ScalarBaseMult`, btcec/btcec.go:863-883, and `ScalarBaseMultH`, btcec/btcec.go:885-905: the result,
and the memory afterwards.  `q` and `p` are at `base` and the following addresses.  If `newK` were longer
than the table the index would be negative. -/
def scalarBaseMult (m : Mem) (base tab : Ptr) (k : Bytes) : Go ((Int × Int) × Mem) :=
  let newK := moduloReduce k
  if newK.length > 32 then .panic
  else
    let diff := 32 - newK.length
    let q : Pt := ⟨base, base + 1, base + 2⟩
    let m := m.set q.x zero
    let m := m.set q.y zero
    let m := m.set q.z zero
    let p : Pt := ⟨base + 3, base + 4, base + 5⟩
    .ok (fieldJacobianToBigAffine (baseLoop tab q p diff 0 m newK) q)

end Zk.Heap
