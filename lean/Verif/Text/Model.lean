import Verif.Gen.Model

/-!
# Text forms

Hexadecimal text of field values and constants, the generator of the files with the tables, and the
part of the initialisation of the curve that reads them.  A Go string is its list of bytes.
-/

namespace Zk.Text

open Zk Zk.Field Zk.Curve Zk.Gen

/-- A Go string literal of ASCII characters, for example btcec/btcec.go:935. -/
def ascii (s : String) : Bytes := s.toList.map fun c => UInt8.ofNat c.toNat

/-! ## Hexadecimal -/

/-- A digit of `hex.EncodeToString` (encoding/hex), used in btcec/field.go:142. -/
def hexDigit (n : UInt8) : UInt8 := if n < 10 then 0x30 + n else 0x61 + (n - 10)

/-- `hex.EncodeToString` (encoding/hex), used in btcec/field.go:142: the digit of the high half of each
byte and the one of the low half. -/
def hexEncode (b : Bytes) : Bytes := b.flatMap fun (x : UInt8) => [hexDigit (x >>> 4), hexDigit (x &&& 0xf)]

/-- `fromHexChar` (encoding/hex), used in btcec/field.go:241. -/
def fromHexChar (c : UInt8) : Option UInt8 :=
  if 0x30 ≤ c ∧ c ≤ 0x39 then some (c - 0x30)
  else if 0x61 ≤ c ∧ c ≤ 0x66 then some (c - 0x61 + 10)
  else if 0x41 ≤ c ∧ c ≤ 0x46 then some (c - 0x41 + 10)
  else none

/-- `hex.DecodeString` (encoding/hex), used in btcec/field.go:241: the bytes of the pairs of digits
before the first pair that is not one, without the error. -/
def hexDecode : Bytes → Bytes
  | a :: b :: s =>
    match fromHexChar a, fromHexChar b with
    | some x, some y => ((x <<< 4) ||| y) :: hexDecode s
    | _, _ => []
  | _ => []

/-- `String` of a field value, btcec/field.go:140-143. -/
def fieldString (f : FieldVal) : Bytes := hexEncode (fieldBytes (normalize f)).toList

/-- `SetHex`, btcec/field.go:237-243. -/
def setHex (hexString : Bytes) : Go FieldVal :=
  let hexString := if hexString.length % 2 ≠ 0 then 0x30 :: hexString else hexString
  setByteSlice (hexDecode hexString)

/-- The digits of `SetString` of `big.Int` for base 16 (math/big), used in btcec/btcec.go:925: none when
a character is not a digit. -/
def hexNumber : Bytes → Nat → Option Nat
  | [], acc => some acc
  | c :: s, acc =>
    match fromHexChar c with
    | some d => hexNumber s (acc * 16 + d.toNat)
    | none => none

/-- `SetString` of `big.Int` for base 16 (math/big), used in btcec/btcec.go:925: a sign may come first,
at least one digit must follow and nothing else. -/
def setString16 (s : Bytes) : Option Int :=
  let r := match s with
    | c :: t => if c = 0x2b ∨ c = 0x2d then t else s
    | [] => s
  if r = [] then none
  else match hexNumber r 0 with
    | some n => some (if s.head? = some 0x2d then -(n : Int) else (n : Int))
    | none => none

/-- `fromHex`, btcec/btcec.go:924-930. -/
def fromHex (s : Bytes) : Go Int :=
  match setString16 s with
  | some r => .ok r
  | none => .panic

/-! ## Base 64 -/

/-- A character of `base64.StdEncoding` (encoding/base64), used in btcec/genprecomps.go:57. -/
def b64Char (n : UInt8) : UInt8 :=
  if n < 26 then 0x41 + n else if n < 52 then 0x61 + (n - 26) else if n < 62 then 0x30 + (n - 52)
  else if n = 62 then 0x2b else 0x2f

/-- `Encode` of `base64.StdEncoding` (encoding/base64), used in btcec/genprecomps.go:57, 60: four
characters for three bytes; the rest is filled up with `=`. -/
def b64Encode : Bytes → Bytes
  | [] => []
  | [a] => [b64Char (a >>> 2), b64Char ((a &&& 3) <<< 4), 0x3d, 0x3d]
  | [a, b] => [b64Char (a >>> 2), b64Char (((a &&& 3) <<< 4) ||| (b >>> 4)), b64Char ((b &&& 0xf) <<< 2),
      0x3d]
  | a :: b :: c :: s => b64Char (a >>> 2) :: b64Char (((a &&& 3) <<< 4) ||| (b >>> 4)) ::
      b64Char (((b &&& 0xf) <<< 2) ||| (c >>> 6)) :: b64Char (c &&& 0x3f) :: b64Encode s

/-- The value of a character of `base64.StdEncoding` (encoding/base64), used in
btcec/precompute.go:32. -/
def b64Value (c : UInt8) : Option UInt8 :=
  if 0x41 ≤ c ∧ c ≤ 0x5a then some (c - 0x41)
  else if 0x61 ≤ c ∧ c ≤ 0x7a then some (c - 0x61 + 26)
  else if 0x30 ≤ c ∧ c ≤ 0x39 then some (c - 0x30 + 52)
  else if c = 0x2b then some 62
  else if c = 0x2f then some 63
  else none

/-- The groups of four characters of `NewDecoder` of `base64.StdEncoding` (encoding/base64), used in
btcec/precompute.go:32, without line breaks; none is an error. -/
def b64Groups : Bytes → Option Bytes
  | [] => some []
  | a :: b :: c :: d :: s =>
    match b64Value a, b64Value b with
    | some w, some x =>
      if c = 0x3d then
        if d = 0x3d ∧ s = [] then some [(w <<< 2) ||| (x >>> 4)] else none
      else match b64Value c with
        | none => none
        | some y =>
          if d = 0x3d then
            if s = [] then some [(w <<< 2) ||| (x >>> 4), (x <<< 4) ||| (y >>> 2)] else none
          else match b64Value d with
            | none => none
            | some z => (b64Groups s).map fun r =>
                ((w <<< 2) ||| (x >>> 4)) :: ((x <<< 4) ||| (y >>> 2)) :: ((y <<< 6) ||| z) :: r
    | _, _ => none
  | _ => none

/-- What can be read from `NewDecoder` of `base64.StdEncoding` (encoding/base64), used in
btcec/precompute.go:32: line breaks are dropped.  Simplification: an error anywhere in the text is an
error of the whole, also behind the end of the compressed data. -/
def b64Decode (s : Bytes) : Option Bytes := b64Groups (s.filter fun c => !(c == 0x0a || c == 0x0d))

/-! ## The files with the tables -/

/-- The package compress/zlib, used in btcec/genprecomps.go:38-53 and btcec/precompute.go:33-40: what
`Write` and `Close` put out, and what `ReadAll` of `NewReader` returns, none being an error.  The
package is not modelled; theorems assume that reading what was written gives it back. -/
structure Zlib where
  deflate : Bytes → Bytes
  inflate : Bytes → Option Bytes

/-- `%q` of `Fprintf` (fmt), used in btcec/genprecomps.go:71, 92.  Only printable ASCII characters other
than quote and backslash are modelled, for which nothing is escaped; none for all others. -/
def quote (s : Bytes) : Option Bytes :=
  if s.all fun c => 0x20 ≤ c && c ≤ 0x7e && c != 0x22 && c != 0x5c then some (0x22 :: s ++ [0x22])
  else none

/-- The lines before the variable, btcec/genprecomps.go:62-70 and 83-91. -/
def fileHeader : Bytes :=
  ascii "// Copyright (c) 2015 The btcsuite developers\n" ++
  ascii "// Use of this source code is governed by an ISC\n" ++
  ascii "// license that can be found in the LICENSE file.\n" ++
  ascii "\n" ++
  ascii "package btcec\n" ++
  ascii "\n" ++
  ascii "// Auto-generated file (see genprecomps.go)\n" ++
  ascii "// DO NOT EDIT\n" ++
  ascii "\n"

/-- One of the files that `main` writes, btcec/genprecomps.go:37-44, 56-57, 62-71 for the first and
46-53, 59-60, 83-92 for the second.  Simplification: writing does not fail. -/
def genFile (z : Zlib) (name : Bytes) (serialized : Bytes) : Option Bytes :=
  (quote (b64Encode (z.deflate serialized))).map fun q =>
    fileHeader ++ ascii "var " ++ name ++ ascii " = " ++ q ++ ascii "\n"

/-- The two files that `main` of btcec/genprecomps.go:23-93 writes.  What it prints to the terminal is
left out. -/
def genMain (z : Zlib) : Go (Option (Bytes × Bytes)) := do
  let serialized ← serializedBytePoints curveGx curveGy
  let serializedH ← serializedBytePointsH
  pure (do
    let f ← genFile z (ascii "secp256k1BytePoints") serialized
    let f2 ← genFile z (ascii "secp256k1BytePointsH") serializedH
    pure (f, f2))

/-- The value of the string variable that a file such as btcec/secp256k1.go:10 declares: the characters
between the first quote and the next one, up to which there must be no backslash. -/
def literalOf (file : Bytes) : Option Bytes :=
  let s := ((file.dropWhile fun c => c != 0x22).drop 1).takeWhile fun c => c != 0x22
  if s.contains 0x5c then none else some s

/-- `loadS256BytePoints`, btcec/precompute.go:23-67, and `loadS256BytePointsH`,
btcec/precompute.go:69-113: an error, or the new table; none when it stays nil. -/
def loadS256BytePoints (z : Zlib) (bp : Bytes) : Go (Except Err (Option (Nat → UInt8 → Jac))) :=
  if bp.length = 0 then .ok (.ok none)
  else match b64Decode bp with
    | none => .ok (.error "base64")
    | some d => match z.inflate d with
      | none => .ok (.error "zlib")
      | some serialized => do
        let tab ← loadBytePoints serialized
        pure (.ok (some tab))

/-- What `initS256` sets, btcec/btcec.go:932-981. -/
structure Params where
  P : Int
  N : Int
  B : Int
  Gx : Int
  Gy : Int
  bitSize : Nat
  q : Int
  cofactor : Nat
  halfOrder : Int
  byteSize : Nat
  bytePoints : Option (Nat → UInt8 → Jac)
  bytePointsH : Option (Nat → UInt8 → Jac)
  lambda : Int
  beta : FieldVal
  a1 : Int
  b1 : Int
  a2 : Int
  b2 : Int

/-- `panic(err)` when there is one, btcec/btcec.go:952-954. -/
def orPanic {α : Type} : Except Err α → Go α
  | .ok a => .ok a
  | .error _ => .panic

/-- `initS256`, btcec/btcec.go:932-981, with the values of the two string variables.  `Div` of positive
numbers and `Rsh` are quotients. -/
def initS256 (z : Zlib) (bp bpH : Bytes) : Go Params := do
  let P ← fromHex (ascii "FFFFFFFFFFFFFFFFFFFFFFFFFFFFFFFFFFFFFFFFFFFFFFFFFFFFFFFEFFFFFC2F")
  let N ← fromHex (ascii "FFFFFFFFFFFFFFFFFFFFFFFFFFFFFFFEBAAEDCE6AF48A03BBFD25E8CD0364141")
  let B ← fromHex (ascii "0000000000000000000000000000000000000000000000000000000000000007")
  let Gx ← fromHex (ascii "79BE667EF9DCBBAC55A06295CE870B07029BFCDB2DCE28D959F2815B16F81798")
  let Gy ← fromHex (ascii "483ADA7726A3C4655DA4FBFC0E1108A8FD17B448A68554199C47D08FFB10D4B8")
  let bitSize := 256
  let q := (P + 1) / 4
  let halfOrder := N / 2
  let t ← loadS256BytePoints z bp
  let bytePoints ← orPanic t
  let t ← loadS256BytePoints z bpH
  let bytePointsH ← orPanic t
  let lambda ← fromHex (ascii "5363AD4CC05C30E0A5261C028812645A122E22EA20816678DF02967C1B23BD72")
  let beta ← setHex (ascii "7AE96A2B657C07106E64479EAC3434E99CF0497512F58995C1396C28719501EE")
  let a1 ← fromHex (ascii "3086D221A7D46BCDE86C90E49284EB15")
  let b1 ← fromHex (ascii "-E4437ED6010E88286F547FA90ABFE4C3")
  let a2 ← fromHex (ascii "114CA50F7A8E2F3F657C1108D9D44CFD8")
  let b2 ← fromHex (ascii "3086D221A7D46BCDE86C90E49284EB15")
  pure ⟨P, N, B, Gx, Gy, bitSize, q, 1, halfOrder, bitSize / 8, bytePoints, bytePointsH, lambda, beta,
    a1, b1, a2, b2⟩

end Zk.Text
