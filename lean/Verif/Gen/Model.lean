import Verif.Ec.Model
import Verif.Wire.Model

/-!
# Generation of the precomputed values

btcec/gensecp256k1.go, and the loading of the tables in btcec/precompute.go.

Loops whose number of iterations is not fixed get a bound on it as an argument; `none` means that
the loop has not ended within the bound.
-/

namespace Zk.Gen

open Zk Zk.Field Zk.Curve

/-! ## Square roots -/

/-- `BitLen` of `big.Int` (math/big), used in btcec/gensecp256k1.go:165. -/
def bitLen (n : Int) : Nat := if n = 0 then 0 else n.natAbs.log2 + 1

/-- The loop of `sqrt`, btcec/gensecp256k1.go:168-178.  `Div` of `big.Int` is Euclidean division and
panics for divisor 0. -/
def sqrtLoop (n : Int) : Nat → Int → Option (Go Int)
  | 0, _ => none
  | fuel + 1, guess =>
    let prevGuess := guess
    if guess = 0 then some .panic
    else
      let guess := guess + n / guess
      let guess := guess / 2
      if guess = prevGuess then some (.ok guess)
      else sqrtLoop n fuel guess

/-- `sqrt`, btcec/gensecp256k1.go:162-179. -/
def sqrt (fuel : Nat) (n : Int) : Option (Go Int) :=
  let guess := 2 ^ (bitLen n / 2)
  sqrtLoop n fuel guess

/-! ## Vectors for the endomorphism -/

/-- The variables of `EndomorphismVectors`, btcec/gensecp256k1.go:195-203; those that are set anew in
each iteration are left out. -/
structure EvState where
  u : Int
  v : Int
  x1 : Int
  y1 : Int
  x2 : Int
  y2 : Int
  ri : Int
  ti : Int
  a1 : Int
  b1 : Int
  a2 : Int
  b2 : Int
  found : Bool
  oneMore : Bool
deriving DecidableEq

/-- The loop of `EndomorphismVectors`, btcec/gensecp256k1.go:204-278. -/
def evLoop (nSqrt : Int) : Nat → EvState → Option (Int × Int × Int × Int)
  | 0, _ => none
  | fuel + 1, c =>
    if c.u.sign ≠ 0 then
      let q := c.v / c.u
      let r := c.v - q * c.u
      let s := c.x2 - q * c.x1
      let t := c.y2 - q * c.y1
      let c := { c with v := c.u, u := r, x2 := c.x1, x1 := s, y2 := c.y1, y1 := t }
      if !c.found && decide (r < nSqrt) then
        evLoop nSqrt fuel { c with a1 := r, b1 := t * -1, found := true, oneMore := true }
      else if c.oneMore then
        let sum1 := c.ri * c.ri + c.ti * c.ti
        let sum2 := r * r + t * t
        let c :=
          if sum1 ≤ sum2 then { c with a2 := c.ri, b2 := c.ti * -1 }
          else { c with a2 := r, b2 := t * -1 }
        some (c.a1, c.b1, c.a2, c.b2)
      else evLoop nSqrt fuel { c with ri := r, ti := t }
    else some (c.a1, c.b1, c.a2, c.b2)

/-- `EndomorphismVectors`, btcec/gensecp256k1.go:187-281, of a curve with the given `N` and `lambda`. -/
def endomorphismVectors (fuel : Nat) (N lambda : Int) : Option (Go (Int × Int × Int × Int)) :=
  match sqrt fuel N with
  | none => none
  | some .panic => some .panic
  | some (.ok nSqrt) =>
    (evLoop nSqrt fuel ⟨N, lambda, 1, 0, 0, 1, 0, 0, 0, 0, 0, 0, false, false⟩).map Go.ok

/-! ## Tables -/

/-- The loops of `getDoublingPoints` and `getDoublingPointsH`, btcec/gensecp256k1.go:35-39 and 69-73,
with `n` points left. -/
def doublingLoop : Nat → Jac → List Jac
  | 0, _ => []
  | n + 1, p => p :: doublingLoop n (doubleJacobian p)

/-- `getDoublingPoints`, btcec/gensecp256k1.go:29-41, of a curve with base point (`gx`, `gy`); also
btcec/gensecp256k1.go:64-74, with `gen2` as base point. -/
def getDoublingPoints (gx gy : Int) : Go (List Jac) := do
  let p ← bigAffineToField gx gy
  pure (doublingLoop 256 ⟨p.1, p.2, setInt 1⟩)

/-- One iteration of the loop over the bits of `i`, btcec/gensecp256k1.go:94-99: the sum and
`computingPoints`, of which `addJacobian` may normalise the element it adds. -/
def bitStep (i : Nat) (s : Jac × List Jac) (j : Nat) : Jac × List Jac :=
  if i >>> j &&& 1 = 1 then
    let r := addJacobian s.1 (s.2.getD j ⟨zero, zero, zero⟩)
    (r.1, s.2.set j r.2)
  else s

/-- The point of index `i`, btcec/gensecp256k1.go:93-99, and `computingPoints` afterwards. -/
def windowPoint (computingPoints : List Jac) (i : Nat) : Jac × List Jac :=
  (List.range 8).foldl (bitStep i) (⟨zero, zero, zero⟩, computingPoints)

/-- The points of a window from index `i` on, `n` of them, btcec/gensecp256k1.go:92-112. -/
def windowFrom : Nat → Nat → List Jac → List Jac
  | 0, _, _ => []
  | n + 1, i, computingPoints =>
    let r := windowPoint computingPoints i
    r.1 :: windowFrom n (i + 1) r.2

/-- All points of the window of byte `byteNum`, btcec/gensecp256k1.go:88-112.  The windows of different
bytes do not overlap. -/
def window (doublingPoints : List Jac) (byteNum : Nat) : List Jac :=
  let startingBit := 8 * (byteSize - byteNum - 1)
  windowFrom 256 0 ((doublingPoints.drop startingBit).take 8)

/-- The words of a coordinate, btcec/gensecp256k1.go:100-103. -/
def serField (f : FieldVal) : Bytes :=
  Wire.putUint32 f.n0 ++ Wire.putUint32 f.n1 ++ Wire.putUint32 f.n2 ++ Wire.putUint32 f.n3 ++
    Wire.putUint32 f.n4 ++ Wire.putUint32 f.n5 ++ Wire.putUint32 f.n6 ++ Wire.putUint32 f.n7 ++
    Wire.putUint32 f.n8 ++ Wire.putUint32 f.n9

/-- The words of a point, btcec/gensecp256k1.go:100-111. -/
def serPoint (p : Jac) : Bytes := serField p.x ++ serField p.y ++ serField p.z

/-- `SerializedBytePoints`, btcec/gensecp256k1.go:80-116, of a curve with base point (`gx`, `gy`).  The
bytes fill the slice that is allocated for them. -/
def serializedBytePoints (gx gy : Int) : Go Bytes := do
  let doublingPoints ← getDoublingPoints gx gy
  pure ((List.range byteSize).flatMap fun byteNum =>
    (window doublingPoints byteNum).flatMap serPoint)

/-- `potentialXValue`, btcec/gensecp256k1.go:49-57.  The bytes of the digest overwrite all but the first
of the bytes that `PutUint32` writes. -/
def potentialXValue : Bytes :=
  (Wire.putUint32 2).take 1 ++ sha256 (intBytes ((curveGx : Int) + 2))

/-- `SerializedBytePointsH`, btcec/gensecp256k1.go:121-157, with `getDoublingPointsH`,
btcec/gensecp256k1.go:48-75.  `log.Fatalf` ends the program and is modelled as a panic. -/
def serializedBytePointsH : Go Bytes := do
  let r ← Ec.parsePubKey potentialXValue
  match r with
  | .error _ => .panic
  | .ok gen2 => serializedBytePoints gen2.X gen2.Y

/-- One word, btcec/precompute.go:52-53: `Uint32` of what is left, and the rest.  `Uint32` panics for less
than 4 bytes. -/
def loadWord (s : Bytes) : Go (UInt32 × Bytes) := do
  let w ← Wire.leUint32 s
  pure (w, s.drop 4)

/-- One coordinate, btcec/precompute.go:51-54. -/
def loadField (s : Bytes) : Go (FieldVal × Bytes) := do
  let (n0, s) ← loadWord s
  let (n1, s) ← loadWord s
  let (n2, s) ← loadWord s
  let (n3, s) ← loadWord s
  let (n4, s) ← loadWord s
  let (n5, s) ← loadWord s
  let (n6, s) ← loadWord s
  let (n7, s) ← loadWord s
  let (n8, s) ← loadWord s
  let (n9, s) ← loadWord s
  pure (⟨n0, n1, n2, n3, n4, n5, n6, n7, n8, n9⟩, s)

/-- One point, btcec/precompute.go:48-62. -/
def loadPoint (s : Bytes) : Go (Jac × Bytes) := do
  let (x, s) ← loadField s
  let (y, s) ← loadField s
  let (z, s) ← loadField s
  pure (⟨x, y, z⟩, s)

/-- `n` points, btcec/precompute.go:45-64: the two loops, the inner one of 256 iterations, as one. -/
def loadPoints : Nat → Bytes → Go (List Jac)
  | 0, _ => pure []
  | n + 1, s => do
    let (p, s) ← loadPoint s
    let rest ← loadPoints n s
    pure (p :: rest)

/-- `loadS256BytePoints`, btcec/precompute.go:42-66, and `loadS256BytePointsH`,
btcec/precompute.go:88-112, on the bytes left after base64 and zlib decoding: the table
`bytePoints[b][i]`. -/
def loadBytePoints (serialized : Bytes) : Go (Nat → UInt8 → Jac) := do
  let l ← loadPoints (32 * 256) serialized
  pure fun b i => l.getD (256 * b + i.toNat) ⟨zero, zero, zero⟩

end Zk.Gen
