import Verif.Curve.Model
import Verif.Proto.Model
import Verif.Curve.Data.TabG0
import Verif.Curve.Data.TabG1
import Verif.Curve.Data.TabG2
import Verif.Curve.Data.TabG3
import Verif.Curve.Data.TabH0
import Verif.Curve.Data.TabH1
import Verif.Curve.Data.TabH2
import Verif.Curve.Data.TabH3

/-!
# The curve parameters set up by `init`

zksigma.go:35-59.  The standard library's `sha256` is written out after FIPS 180-4.
-/

namespace Zk.Curve

open Zk Zk.Field Zk.Proto

/-- The table `bytePoints`, btcec/precompute.go:43-66. -/
def rowsG : List Nat :=
  [rowG0, rowG1, rowG2, rowG3, rowG4, rowG5, rowG6, rowG7, rowG8, rowG9, rowG10, rowG11, rowG12,
    rowG13, rowG14, rowG15, rowG16, rowG17, rowG18, rowG19, rowG20, rowG21, rowG22, rowG23,
    rowG24, rowG25, rowG26, rowG27, rowG28, rowG29, rowG30, rowG31]

/-- The table `bytePointsH`, btcec/precompute.go:89-112. -/
def rowsH : List Nat :=
  [rowH0, rowH1, rowH2, rowH3, rowH4, rowH5, rowH6, rowH7, rowH8, rowH9, rowH10, rowH11, rowH12,
    rowH13, rowH14, rowH15, rowH16, rowH17, rowH18, rowH19, rowH20, rowH21, rowH22, rowH23,
    rowH24, rowH25, rowH26, rowH27, rowH28, rowH29, rowH30, rowH31]

/-- The round constants of `sha256` (crypto/sha256, used in zksigma.go:50-51). -/
def shaK : List UInt32 :=
  [0x428a2f98, 0x71374491, 0xb5c0fbcf, 0xe9b5dba5, 0x3956c25b, 0x59f111f1, 0x923f82a4,
    0xab1c5ed5, 0xd807aa98, 0x12835b01, 0x243185be, 0x550c7dc3, 0x72be5d74, 0x80deb1fe,
    0x9bdc06a7, 0xc19bf174, 0xe49b69c1, 0xefbe4786, 0x0fc19dc6, 0x240ca1cc, 0x2de92c6f,
    0x4a7484aa, 0x5cb0a9dc, 0x76f988da, 0x983e5152, 0xa831c66d, 0xb00327c8, 0xbf597fc7,
    0xc6e00bf3, 0xd5a79147, 0x06ca6351, 0x14292967, 0x27b70a85, 0x2e1b2138, 0x4d2c6dfc,
    0x53380d13, 0x650a7354, 0x766a0abb, 0x81c2c92e, 0x92722c85, 0xa2bfe8a1, 0xa81a664b,
    0xc24b8b70, 0xc76c51a3, 0xd192e819, 0xd6990624, 0xf40e3585, 0x106aa070, 0x19a4c116,
    0x1e376c08, 0x2748774c, 0x34b0bcb5, 0x391c0cb3, 0x4ed8aa4a, 0x5b9cca4f, 0x682e6ff3,
    0x748f82ee, 0x78a5636f, 0x84c87814, 0x8cc70208, 0x90befffa, 0xa4506ceb, 0xbef9a3f7,
    0xc67178f2]

/-- The initial state of `sha256` (crypto/sha256, used in zksigma.go:50-51). -/
def shaInit : List UInt32 :=
  [0x6a09e667, 0xbb67ae85, 0x3c6ef372, 0xa54ff53a, 0x510e527f, 0x9b05688c, 0x1f83d9ab, 0x5be0cd19]

/-- Rotation to the right by `r`, `0 < r < 32` (crypto/sha256, used in zksigma.go:50-51). -/
def rotr (x : UInt32) (r : UInt32) : UInt32 := (x >>> r) ||| (x <<< (32 - r))

/-- The padded message (crypto/sha256, used in zksigma.go:50-51). -/
def shaPad (m : Bytes) : Bytes :=
  m ++ [0x80] ++ List.replicate ((119 - m.length % 64) % 64) 0 ++
    (List.range 8).map fun i => UInt8.ofNat (8 * m.length / 256 ^ (7 - i))

/-- Big-endian words (crypto/sha256, used in zksigma.go:50-51). -/
def shaWords : Bytes → List UInt32
  | a :: b :: c :: d :: rest =>
    (a.toUInt32 <<< 24 ||| b.toUInt32 <<< 16 ||| c.toUInt32 <<< 8 ||| d.toUInt32) :: shaWords rest
  | _ => []

/-- The message schedule, newest word first (crypto/sha256, used in zksigma.go:50-51). -/
def shaSchedule : Nat → List UInt32 → List UInt32
  | 0, w => w
  | n + 1, w =>
    let w15 := w.getD 14 0
    let w2 := w.getD 1 0
    let s0 := rotr w15 7 ^^^ rotr w15 18 ^^^ (w15 >>> 3)
    let s1 := rotr w2 17 ^^^ rotr w2 19 ^^^ (w2 >>> 10)
    shaSchedule n ((w.getD 15 0 + s0 + w.getD 6 0 + s1) :: w)

/-- One round (crypto/sha256, used in zksigma.go:50-51). -/
def shaRound (st : List UInt32) (kw : UInt32 × UInt32) : List UInt32 :=
  match st with
  | [a, b, c, d, e, f, g, h] =>
    let t1 := h + (rotr e 6 ^^^ rotr e 11 ^^^ rotr e 25) + ((e &&& f) ^^^ (~~~e &&& g)) + kw.1 + kw.2
    let t2 := (rotr a 2 ^^^ rotr a 13 ^^^ rotr a 22) + ((a &&& b) ^^^ (a &&& c) ^^^ (b &&& c))
    [t1 + t2, a, b, c, d + t1, e, f, g]
  | _ => st

/-- One block of 16 words (crypto/sha256, used in zksigma.go:50-51). -/
def shaBlock (st : List UInt32) (blk : List UInt32) : List UInt32 :=
  List.zipWith (· + ·) st
    ((shaK.zip (shaSchedule 48 blk.reverse).reverse).foldl shaRound st)

/-- All blocks (crypto/sha256, used in zksigma.go:50-51); the first argument bounds their number. -/
def shaBlocks : Nat → List UInt32 → List UInt32 → List UInt32
  | 0, st, _ => st
  | n + 1, st, w => if w = [] then st else shaBlocks n (shaBlock st (w.take 16)) (w.drop 16)

/-- `sha256.Sum256` (crypto/sha256; zksigma.go:51, crypto.go:255). -/
def sha256 (m : Bytes) : Bytes :=
  let w := shaWords (shaPad m)
  (shaBlocks w.length shaInit w).flatMap fun (x : UInt32) =>
    [(x >>> 24).toUInt8, (x >>> 16).toUInt8, (x >>> 8).toUInt8, x.toUInt8]

/-- The literal in zksigma.go:51. -/
def randomPointText : Bytes := "This is the new random point in zksigma".toUTF8.toList

/-- `hashedString`, zksigma.go:50-51: `Sum(b)` appends the digest of what was written, here nothing,
to `b`. -/
def hashedString : Bytes := randomPointText ++ sha256 []

/-- `1 << uint(i)` as the `int64` argument of `big.NewInt`, zksigma.go:43. -/
def shift64 (i : Nat) : Int := (BitVec.ofNat 64 (1 <<< i)).toInt

/-- `generateH2tothe`, zksigma.go:40-47. -/
def generateH2tothe : Go (List ECPoint) :=
  (List.range 64).mapM fun i => do
    let q ← scalarBaseMult (tabPoint rowsG) (intBytes (shift64 i))
    pure (mkPt q)

/-- `btcec.S256()`, set up by `initS256`, btcec/btcec.go:932-987, as the curve of the protocols. -/
def s256 : Proto.Curve where
  P := curveP
  N := curveN
  isOnCurve := isOnCurve
  add := add
  scalarMult := scalarMult
  scalarBaseMult := scalarBaseMult (tabPoint rowsG)
  scalarBaseMultH := scalarBaseMult (tabPoint rowsH)

/-- `init`, zksigma.go:49-59: the value of `TestCurve`. -/
def testCurve : Go Params := do
  let h ← scalarMult curveGx curveGy hashedString
  let hp ← generateH2tothe
  pure { C := s256, G := pt curveGx curveGy, H := mkPt h, HPoints := hp }

end Zk.Curve
