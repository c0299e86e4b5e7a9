import Verif.Curve.TestCurve
import Verif.Field.Prime
import Mathlib.Data.Int.GCD

/-!
# Keys, signatures and encryption

btcec/pubkey.go, btcec/privkey.go, btcec/signature.go and btcec/ciphering.go.  The curve is always
`S256()`, as modelled in Verif/Curve.  A function that returns a value and an error returns an
`Except`; the message is kept only to tell errors apart.

Simplifications: pointers to keys, signatures and their integers are not nil; slicing is checked
against the length, not the capacity (the code never slices beyond the length).
-/

namespace Zk.Ec

open Zk Zk.Field Zk.Curve

/-- `b[i]`, for example btcec/signature.go:108. -/
def idx (b : Bytes) (i : Nat) : Go UInt8 :=
  match b[i]? with
  | some c => .ok c
  | none => .panic

/-- `b[i:j]`, for example btcec/signature.go:138. -/
def slice (b : Bytes) (i j : Nat) : Go Bytes :=
  if i ≤ j ∧ j ≤ b.length then .ok ((b.drop i).take (j - i)) else .panic

/-! ## Public keys -/

/-- `PublicKey`, btcec/pubkey.go:126, without the curve, which is `S256()`. -/
structure PubKey where
  X : Int
  Y : Int
deriving DecidableEq

/-- `isOdd`, btcec/pubkey.go:21-23. -/
def isOddInt (a : Int) : Bool := decide (a % 2 = 1)

/-- `Exp` of `big.Int` (math/big) with a positive modulus and an exponent of at most 256 bits, used
in btcec/pubkey.go:40. -/
def bigExp (x : Int) (e m : Nat) : Int := (powMod (x % (m : Int)).toNat e m % m : Nat)

/-- `QPlus1Div4`, btcec/btcec.go:907-911 and 941-942. -/
def qPlus1Div4 : Nat := (curveP + 1) / 4

/-- `decompressPoint`, btcec/pubkey.go:25-49. -/
def decompressPoint (x : Int) (ybit : Bool) : Except Err Int :=
  let x3 := x * x
  let x3 := x3 * x
  let x3 := x3 + 7
  let y := bigExp x3 qPlus1Div4 curveP
  let y := if ybit ≠ isOddInt y then (curveP : Int) - y else y
  if ybit ≠ isOddInt y then .error "ybit doesn't match oddness"
  else .ok y

/-- `IsCompressedPubKey`, btcec/pubkey.go:57-64. -/
def isCompressedPubKey (pubKey : Bytes) : Go Bool :=
  if pubKey.length = 33 then do
    let c ← idx pubKey 0
    pure (decide (c &&& 0xfe = 0x2))
  else pure false

/-- The checks at the end of `ParsePubKey`, btcec/pubkey.go:112-121. -/
def checkPubKey (x y : Int) : Go (Except Err PubKey) :=
  if x ≥ (curveP : Int) then pure (.error "pubkey X parameter is >= to P")
  else if y ≥ (curveP : Int) then pure (.error "pubkey Y parameter is >= to P")
  else do
    let on ← isOnCurve x y
    if on then pure (.ok ⟨x, y⟩)
    else pure (.error "pubkey isn't on secp256k1 curve")

/-- `ParsePubKey`, btcec/pubkey.go:66-122. -/
def parsePubKey (s : Bytes) : Go (Except Err PubKey) :=
  if s.length = 0 then pure (.error "pubkey string is empty")
  else do
    let f0 ← idx s 0
    let ybit := decide (f0 &&& 0x1 = 0x1)
    let format := f0 &&& 0xfe
    if s.length = 65 then
      if format ≠ 0x4 ∧ format ≠ 0x6 then pure (.error "invalid magic in pubkey str")
      else do
        let xb ← slice s 1 33
        let yb ← slice s 33 s.length
        let x : Int := setBytes xb
        let y : Int := setBytes yb
        if format = 0x6 ∧ ybit ≠ isOddInt y then pure (.error "ybit doesn't match oddness")
        else checkPubKey x y
    else if s.length = 33 then
      if format ≠ 0x2 then pure (.error "invalid magic in compressed pubkey string")
      else do
        let xb ← slice s 1 33
        let x : Int := setBytes xb
        match decompressPoint x ybit with
        | .error e => pure (.error e)
        | .ok y => checkPubKey x y
    else pure (.error "invalid pub key length")

/-- `paddedAppend`, btcec/pubkey.go:173-181. -/
def paddedAppend (size : Nat) (dst src : Bytes) : Bytes :=
  dst ++ List.replicate (size - src.length) 0 ++ src

/-- `SerializeUncompressed`, btcec/pubkey.go:133-140. -/
def serializeUncompressed (p : PubKey) : Bytes :=
  paddedAppend 32 (paddedAppend 32 [0x4] (intBytes p.X)) (intBytes p.Y)

/-- `SerializeCompressed`, btcec/pubkey.go:142-151. -/
def serializeCompressed (p : PubKey) : Bytes :=
  let format : UInt8 := if isOddInt p.Y then 0x2 ||| 0x1 else 0x2
  paddedAppend 32 [format] (intBytes p.X)

/-- `SerializeHybrid`, btcec/pubkey.go:153-163. -/
def serializeHybrid (p : PubKey) : Bytes :=
  let format : UInt8 := if isOddInt p.Y then 0x6 ||| 0x1 else 0x6
  paddedAppend 32 (paddedAppend 32 [format] (intBytes p.X)) (intBytes p.Y)

/-- `PublicKey.IsEqual`, btcec/pubkey.go:165-171. -/
def pubKeyIsEqual (p q : PubKey) : Bool := decide (p.X = q.X) && decide (p.Y = q.Y)

/-! ## Private keys -/

/-- `PrivateKey`, btcec/privkey.go:14-17. -/
structure PrivKey where
  pub : PubKey
  D : Int
deriving DecidableEq

/-- `ScalarBaseMult` of `S256()`, btcec/btcec.go:863-883, as a public key. -/
def basePub (k : Bytes) : Go PubKey := do
  let q ← scalarBaseMult (tabPoint rowsG) k
  pure ⟨q.1, q.2⟩

/-- `PrivKeyFromBytes`, btcec/privkey.go:19-35. -/
def privKeyFromBytes (pk : Bytes) : Go PrivKey := do
  let p ← basePub pk
  pure ⟨p, setBytes pk⟩

/-- `NewPrivateKey`, btcec/privkey.go:37-45: `ecdsa.GenerateKey` (crypto/ecdsa) draws `d` from
1, …, N-1.  The draw is an argument. -/
def newPrivateKey (d : Nat) : Go PrivKey := do
  let p ← basePub (natBytes d)
  pure ⟨p, d⟩

/-- `PrivateKey.Serialize`, btcec/privkey.go:68-73. -/
def privSerialize (p : PrivKey) : Bytes := paddedAppend 32 [] (intBytes p.D)

/-! ## Signatures -/

/-- `Signature`, btcec/signature.go:25-29. -/
structure Sig where
  R : Int
  S : Int
deriving DecidableEq

/-- `halfOrder`, btcec/btcec.go:944. -/
def halfOrder : Int := (curveN / 2 : Nat)

/-- `canonicalizeInt`, btcec/signature.go:216-233. -/
def canonicalizeInt (v : Int) : Bytes :=
  let b := intBytes v
  let b := if b.length = 0 then [0x00] else b
  if b.headD 0 &&& 0x80 ≠ 0 then 0 :: b else b

/-- `Signature.Serialize`, btcec/signature.go:40-72. -/
def sigSerialize (sig : Sig) : Bytes :=
  let sigS := if sig.S > halfOrder then (curveN : Int) - sig.S else sig.S
  let rb := canonicalizeInt sig.R
  let sb := canonicalizeInt sigS
  let length := 6 + rb.length + sb.length
  [0x30, UInt8.ofNat (length - 2), 0x02, UInt8.ofNat rb.length] ++ rb ++
    [0x02, UInt8.ofNat sb.length] ++ sb

/-- `Signature.IsEqual`, btcec/signature.go:80-86. -/
def sigIsEqual (p q : Sig) : Bool := decide (p.R = q.R) && decide (p.S = q.S)

/-- `canonicalPadding`, btcec/signature.go:235-248. -/
def canonicalPadding (b : Bytes) : Go (Option Err) := do
  let b0 ← idx b 0
  if b0 &&& 0x80 = 0x80 then pure (some "value may be interpreted as negative")
  else if b.length > 1 ∧ b0 = 0x00 then do
    let b1 ← idx b 1
    if b1 &&& 0x80 ≠ 0x80 then pure (some "value is excessively padded")
    else pure none
  else pure none

/-- The padding test of `parseSig`, btcec/signature.go:139-146 and 165-172. -/
def derCheck (der : Bool) (b : Bytes) : Go (Option Err) :=
  if der then canonicalPadding b else pure none

/-- The range checks of `parseSig`, btcec/signature.go:182-199. -/
def sigRange (r s : Int) : Except Err Sig :=
  if r.sign ≠ 1 then .error "signature R isn't 1 or more"
  else if s.sign ≠ 1 then .error "signature S isn't 1 or more"
  else if r ≥ (curveN : Int) then .error "signature R is >= curve.N"
  else if s ≥ (curveN : Int) then .error "signature S is >= curve.N"
  else .ok ⟨r, s⟩

/-- `parseSig` from the length of S on, btcec/signature.go:149-199. -/
def parseSigS (der : Bool) (sigStr : Bytes) (index : Nat) (r : Int) : Go (Except Err Sig) := do
  let m2 ← idx sigStr index
  if m2 ≠ 0x02 then pure (.error "malformed signature: no 2nd int marker")
  else
    let index := index + 1
    let sl ← idx sigStr index
    let sLen := sl.toNat
    let index := index + 1
    if sLen = 0 ∨ (sLen : Int) > (sigStr.length : Int) - index then
      pure (.error "malformed signature: bogus S length")
    else
      let sBytes ← slice sigStr index (index + sLen)
      let e ← derCheck der sBytes
      match e with
      | some e => pure (.error ("signature S: " ++ e))
      | none =>
        let index := index + sLen
        if index ≠ sigStr.length then pure (.error "malformed signature: bad final length")
        else pure (sigRange r (setBytes sBytes))

/-- `parseSig` from the trimmed string on, btcec/signature.go:121-199. -/
def parseSigR (der : Bool) (sigStr : Bytes) : Go (Except Err Sig) := do
  let m1 ← idx sigStr 2
  if m1 ≠ 0x02 then pure (.error "malformed signature: no 1st int marker")
  else
    let rl ← idx sigStr 3
    let rLen := rl.toNat
    if rLen = 0 ∨ (rLen : Int) > (sigStr.length : Int) - 4 - 3 then
      pure (.error "malformed signature: bogus R length")
    else
      let rBytes ← slice sigStr 4 (4 + rLen)
      let e ← derCheck der rBytes
      match e with
      | some e => pure (.error ("signature R: " ++ e))
      | none => parseSigS der sigStr (4 + rLen) (setBytes rBytes)

/-- `parseSig`, btcec/signature.go:88-200.  The sum `siglen+2` is of bytes and wraps around.
`ParseSignature`, btcec/signature.go:202-207, is `der = false`, and `ParseDERSignature`,
btcec/signature.go:209-214, is `der = true`. -/
def parseSig (der : Bool) (sigStr : Bytes) : Go (Except Err Sig) :=
  if sigStr.length < 8 then pure (.error "malformed signature: too short")
  else do
    let m0 ← idx sigStr 0
    if m0 ≠ 0x30 then pure (.error "malformed signature: no header magic")
    else do
      let siglen ← idx sigStr 1
      if (siglen + 2).toNat > sigStr.length then
        pure (.error "malformed signature: bad length")
      else do
        let sigStr ← slice sigStr 0 (siglen + 2).toNat
        parseSigR der sigStr

/-- `hashToInt`, btcec/signature.go:250-270: N has 256 bits, so that there is never an excess. -/
def hashToInt (hash : Bytes) : Int :=
  let orderBits := 256
  let orderBytes := (orderBits + 7) / 8
  let hash := if hash.length > orderBytes then hash.take orderBytes else hash
  let ret := setBytes hash
  let excess : Int := (hash.length * 8 : Nat) - (orderBits : Nat)
  if excess > 0 then (ret >>> excess.toNat : Nat) else (ret : Nat)

/-- `ModInverse` of `big.Int` (math/big) with a positive modulus, used in btcec/signature.go:313 and
422: nil if there is no inverse. -/
def modInverse (a : Int) (n : Nat) : Option Int :=
  if Int.gcd a n = 1 then some (Int.gcdA a n % (n : Int)) else none

/-- `ecdsa.Verify` (crypto/ecdsa) for a curve without an optimised implementation, as called in
btcec/signature.go:74-78. -/
def verify (sig : Sig) (hash : Bytes) (pub : PubKey) : Go Bool :=
  let n : Int := curveN
  if sig.R.sign ≤ 0 ∨ sig.S.sign ≤ 0 then pure false
  else if sig.R ≥ n ∨ sig.S ≥ n then pure false
  else
    let e := hashToInt hash
    match modInverse sig.S curveN with
    | none => .panic
    | some w => do
      let u1 := e * w % n
      let u2 := w * sig.R % n
      let p1 ← scalarBaseMult (tabPoint rowsG) (intBytes u1)
      let p2 ← scalarMult pub.X pub.Y (intBytes u2)
      let q ← Curve.add p1.1 p1.2 p2.1 p2.2
      if q.1.sign = 0 ∧ q.2.sign = 0 then pure false
      else pure (decide (q.1 % n = sig.R))

/-- `signRFC6979` after the nonce `k` has been computed, btcec/signature.go:416-445. -/
def signWith (k : Int) (D : Int) (hash : Bytes) : Go (Except Err Sig) :=
  let n : Int := curveN
  let inv := modInverse k curveN
  do
    let q ← scalarBaseMult (tabPoint rowsG) (intBytes k)
    let r := q.1
    let r := if r > n then r - n else r
    if r.sign = 0 then pure (.error "calculated R is zero")
    else
      let e := hashToInt hash
      let s := D * r
      let s := s + e
      let inv ← deref inv
      let s := s * inv
      let s := s % n
      let s := if s > halfOrder then n - s else s
      if s.sign = 0 then pure (.error "calculated S is zero")
      else pure (.ok ⟨r, s⟩)

/-- `int2octets`, btcec/signature.go:507-526. -/
def int2octets (v : Int) (rolen : Nat) : Bytes :=
  let out := intBytes v
  if out.length < rolen then List.replicate (rolen - out.length) 0 ++ out
  else if out.length > rolen then out.drop (out.length - rolen)
  else out

/-- `bits2octets`, btcec/signature.go:528-536. -/
def bits2octets (b : Bytes) (rolen : Nat) : Bytes :=
  let z1 := hashToInt b
  let z2 := z1 - (curveN : Int)
  if z2.sign < 0 then int2octets z1 rolen else int2octets z2 rolen

/-- `mac`, btcec/signature.go:500-505: HMAC (crypto/hmac, RFC 2104) with SHA-256. -/
def mac (k m : Bytes) : Bytes :=
  let k := if k.length > 64 then sha256 k else k
  let k := k ++ List.replicate (64 - k.length) 0
  sha256 (k.map (· ^^^ 0x5c) ++ sha256 (k.map (· ^^^ 0x36) ++ m))

/-- The inner loop of step H2, btcec/signature.go:482-488, which appends to `t` until it has 256
bits; every round appends 32 bytes, so that one round is enough.  The first argument bounds the
number of rounds. -/
def stepH2 : Nat → Bytes → Bytes → Bytes → Bytes × Bytes
  | 0, _, v, t => (v, t)
  | n + 1, k, v, t =>
    if t.length * 8 < 256 then
      let v := mac k v
      stepH2 n k v (t ++ v)
    else (v, t)

/-- The loop of step H, btcec/signature.go:479-497; `none` if it has not returned after `fuel`
rounds. -/
def stepH : Nat → Bytes → Bytes → Option Int
  | 0, _, _ => none
  | fuel + 1, k, v =>
    let (v, t) := stepH2 2 k v []
    let secret := hashToInt t
    if secret ≥ 1 ∧ secret < (curveN : Int) then some secret
    else
      let k := mac k (v ++ [0x00])
      let v := mac k v
      stepH fuel k v

/-- `nonceRFC6979`, btcec/signature.go:447-498; `none` if the loop of step H has not returned after
`fuel` rounds. -/
def nonceRFC6979 (fuel : Nat) (privkey : Int) (hash : Bytes) : Option Int :=
  let bx := int2octets privkey 32 ++ bits2octets hash 32
  let v : Bytes := List.replicate 32 0x01
  let k : Bytes := List.replicate 32 0x00
  let k := mac k (v ++ [0x00] ++ bx)
  let v := mac k v
  let k := mac k (v ++ [0x01] ++ bx)
  let v := mac k v
  stepH fuel k v

/-- `Sign` and `signRFC6979`, btcec/privkey.go:57-63 and btcec/signature.go:415-445; `none` if the
computation of the nonce has not returned after `fuel` rounds. -/
def sign (fuel : Nat) (priv : PrivKey) (hash : Bytes) : Option (Go (Except Err Sig)) :=
  match nonceRFC6979 fuel priv.D hash with
  | none => none
  | some k => some (signWith k priv.D hash)

/-- Step 1.5 and 1.6.1 of `recoverKeyFromSignature`, btcec/signature.go:305-336. -/
def recoverQ (sig : Sig) (msg : Bytes) (Rx Ry : Int) : Go (Except Err PubKey) := do
  let n : Int := curveN
  let e := hashToInt msg
  let invr ← deref (modInverse sig.R curveN)
  let invrS := invr * sig.S
  let invrS := invrS % n
  let sR ← scalarMult Rx Ry (intBytes invrS)
  let e := -e
  let e := e % n
  let e := e * invr
  let e := e % n
  let minuseG ← scalarBaseMult (tabPoint rowsG) (intBytes e)
  let q ← Curve.add sR.1 sR.2 minuseG.1 minuseG.2
  pure (.ok ⟨q.1, q.2⟩)

/-- The check of step 1.4 of `recoverKeyFromSignature`, btcec/signature.go:297-303. -/
def orderCheck (doChecks : Bool) (Rx Ry : Int) : Go Bool :=
  if doChecks then do
    let nR ← scalarMult Rx Ry (natBytes curveN)
    pure (decide (nR.1.sign = 0 ∧ nR.2.sign = 0))
  else pure true

/-- `recoverKeyFromSignature`, btcec/signature.go:272-336.  `iter` is not negative. -/
def recoverKeyFromSignature (sig : Sig) (msg : Bytes) (iter : Nat) (doChecks : Bool) :
    Go (Except Err PubKey) :=
  let Rx : Int := (curveN : Int) * (iter / 2 : Nat)
  let Rx := Rx + sig.R
  if ¬Rx < (curveP : Int) then pure (.error "calculated Rx is larger than curve P")
  else
    match decompressPoint Rx (decide (iter % 2 = 1)) with
    | .error e => pure (.error e)
    | .ok Ry => do
      let ok ← orderCheck doChecks Rx Ry
      if ok then recoverQ sig msg Rx Ry
      else pure (.error "n*R does not equal the point at infinity")

/-- The padding in `SignCompact`, btcec/signature.go:366-372 and 374-379. -/
def padTo32 (v : Int) : Bytes :=
  List.replicate (32 - (intBytes v).length) 0 ++ intBytes v

/-- The loop of `SignCompact`, btcec/signature.go:355-385, from `i` on with `n` rounds left. -/
def compactLoop (key : PrivKey) (sig : Sig) (hash : Bytes) (isCompressedKey : Bool) :
    Nat → Nat → Go (Except Err Bytes)
  | 0, _ => pure (.error "no valid solution for pubkey found")
  | n + 1, i => do
    let r ← recoverKeyFromSignature sig hash i true
    let next := compactLoop key sig hash isCompressedKey n (i + 1)
    match r with
    | .error _ => next
    | .ok pk =>
      if pk.X = key.pub.X ∧ pk.Y = key.pub.Y then
        let b0 : UInt8 := 27 + UInt8.ofNat i
        let b0 := if isCompressedKey then b0 + 4 else b0
        pure (.ok ([b0] ++ padTo32 sig.R ++ padTo32 sig.S))
      else next

/-- `SignCompact`, btcec/signature.go:338-386, after the signature has been made; the cofactor
`curve.H` is 1 (btcec/btcec.go:943), so that there are 4 rounds. -/
def signCompactWith (key : PrivKey) (sg : Go (Except Err Sig)) (hash : Bytes)
    (isCompressedKey : Bool) : Go (Except Err Bytes) := do
  let r ← sg
  match r with
  | .error e => pure (.error e)
  | .ok sig => compactLoop key sig hash isCompressedKey 4 0

/-- `SignCompact`, btcec/signature.go:338-386; `none` if the computation of the nonce has not
returned after `fuel` rounds. -/
def signCompact (fuel : Nat) (key : PrivKey) (hash : Bytes) (isCompressedKey : Bool) :
    Option (Go (Except Err Bytes)) :=
  match sign fuel key hash with
  | none => none
  | some sg => some (signCompactWith key sg hash isCompressedKey)

/-- `RecoverCompact`, btcec/signature.go:388-413. -/
def recoverCompact (signature hash : Bytes) : Go (Except Err (PubKey × Bool)) :=
  if signature.length ≠ 65 then pure (.error "invalid compact signature size")
  else do
    let b0 ← idx signature 0
    let iteration := ((b0 - 27) &&& 0xfb).toNat
    let rb ← slice signature 1 33
    let sb ← slice signature 33 65
    let r ← recoverKeyFromSignature ⟨setBytes rb, setBytes sb⟩ hash iteration false
    match r with
    | .error e => pure (.error e)
    | .ok key => pure (.ok (key, decide ((b0 - 27) &&& 4 = 4)))

/-! ## Encryption -/

/-- `GenerateSharedSecret`, btcec/ciphering.go:43-49. -/
def generateSharedSecret (priv : PrivKey) (pub : PubKey) : Go Bytes := do
  let q ← scalarMult pub.X pub.Y (intBytes priv.D)
  pure (intBytes q.1)

/-- `addPKCSPadding`, btcec/ciphering.go:200-205, as a value; see `addPKCSPaddingMem` for the effect
on the memory of the argument. -/
def addPKCSPadding (src : Bytes) : Bytes :=
  let padding := 16 - src.length % 16
  src ++ List.replicate padding (UInt8.ofNat padding)

/-- `addPKCSPadding`, btcec/ciphering.go:200-205, on the first `len` bytes of the array `mem` that
backs the slice up to its capacity: the array afterwards, and the result.  `append` writes into the
array if the capacity is sufficient. -/
def addPKCSPaddingMem (mem : Bytes) (len : Nat) : Bytes × Bytes :=
  let src := mem.take len
  let padding := 16 - src.length % 16
  let padtext := List.replicate padding (UInt8.ofNat padding)
  if src.length + padding ≤ mem.length then
    let mem := src ++ padtext ++ mem.drop (src.length + padding)
    (mem, mem.take (src.length + padding))
  else (mem, src ++ padtext)

/-- `removePKCSPadding`, btcec/ciphering.go:207-216. -/
def removePKCSPadding (src : Bytes) : Go (Except Err Bytes) :=
  if src.length = 0 then .panic
  else do
    let c ← idx src (src.length - 1)
    let padLength := c.toNat
    if padLength > 16 ∨ src.length < 16 then pure (.error "invalid PKCS#7 padding")
    else do
      let p ← slice src 0 (src.length - padLength)
      pure (.ok p)

/-- The parts of the standard library that `Encrypt` and `Decrypt` use as black boxes
(btcec/ciphering.go:76, 105-110, 173, 186-193): SHA-512 and the AES block functions for a key of 32
bytes. -/
structure Lib where
  sha512 : Bytes → Bytes
  encBlock : Bytes → Bytes → Bytes
  decBlock : Bytes → Bytes → Bytes

/-- CBC encryption (crypto/cipher `NewCBCEncrypter`), btcec/ciphering.go:109-110; the first argument
after the key is the number of blocks. -/
def cbcEncrypt (L : Lib) (key : Bytes) : Nat → Bytes → Bytes → Bytes
  | 0, _, _ => []
  | n + 1, iv, src =>
    let c := L.encBlock key (List.zipWith (· ^^^ ·) (src.take 16) iv)
    c ++ cbcEncrypt L key n c (src.drop 16)

/-- CBC decryption (crypto/cipher `NewCBCDecrypter`), btcec/ciphering.go:190-193. -/
def cbcDecrypt (L : Lib) (key : Bytes) : Nat → Bytes → Bytes → Bytes
  | 0, _, _ => []
  | n + 1, iv, src =>
    List.zipWith (· ^^^ ·) (L.decBlock key (src.take 16)) iv ++
      cbcDecrypt L key n (src.take 16) (src.drop 16)

/-- `CryptBlocks` (crypto/cipher), btcec/ciphering.go:110 and 193: panics unless the input consists
of full blocks. -/
def cryptBlocks (f : Nat → Bytes → Bytes → Bytes) (iv src : Bytes) : Go Bytes :=
  if src.length % 16 ≠ 0 then .panic else .ok (f (src.length / 16) iv src)

/-- `Encrypt`, btcec/ciphering.go:51-118.  The randomness is explicit: `d` is the draw for the
ephemeral key and `iv` the 16 random bytes. -/
def encrypt (L : Lib) (d : Nat) (iv : Bytes) (pubkey : PubKey) (msg : Bytes) :
    Go (Except Err Bytes) := do
  let ephemeral ← newPrivateKey d
  let ecdhKey ← generateSharedSecret ephemeral pubkey
  let derivedKey := L.sha512 ecdhKey
  let keyE ← slice derivedKey 0 32
  let keyM ← slice derivedKey 32 64
  let paddedIn := addPKCSPadding msg
  let pb := serializeUncompressed ephemeral.pub
  let xb ← slice pb 1 33
  let yb ← slice pb 33 65
  let c ← cryptBlocks (cbcEncrypt L keyE) iv paddedIn
  let out := iv ++ [0x02, 0xCA, 0x00, 0x20] ++ xb ++ [0x00, 0x20] ++ yb ++ c
  pure (.ok (out ++ mac keyM out))

/-- `Decrypt` after the public key has been read, btcec/ciphering.go:163-195. -/
def decryptBody (L : Lib) (priv : PrivKey) (b : Bytes) (pubkey : PubKey) :
    Go (Except Err Bytes) :=
  if (b.length - 16 - 86 - 32) % 16 ≠ 0 then pure (.error "invalid PKCS#7 padding")
  else do
    let messageMAC ← slice b (b.length - 32) b.length
    let ecdhKey ← generateSharedSecret priv pubkey
    let derivedKey := L.sha512 ecdhKey
    let keyE ← slice derivedKey 0 32
    let keyM ← slice derivedKey 32 64
    let body ← slice b 0 (b.length - 32)
    let expectedMAC := mac keyM body
    if messageMAC ≠ expectedMAC then pure (.error "invalid mac hash")
    else do
      let iv ← slice b 0 16
      let c ← slice b 86 (b.length - 32)
      let plaintext ← cryptBlocks (cbcDecrypt L keyE) iv c
      removePKCSPadding plaintext

/-- `Decrypt`, btcec/ciphering.go:120-196. -/
def decrypt (L : Lib) (priv : PrivKey) (b : Bytes) : Go (Except Err Bytes) :=
  if b.length < 16 + 70 + 16 + 32 then pure (.error "ciphertext too short")
  else do
    let c ← slice b 16 18
    if c ≠ [0x02, 0xCA] then pure (.error "unsupported curve")
    else do
      let lx ← slice b 18 20
      if lx ≠ [0x00, 0x20] then pure (.error "invalid X length, must be 32")
      else do
        let xBytes ← slice b 20 52
        let ly ← slice b 52 54
        if ly ≠ [0x00, 0x20] then pure (.error "invalid Y length, must be 32")
        else do
          let yBytes ← slice b 54 86
          let r ← parsePubKey ([0x04] ++ xBytes ++ yBytes)
          match r with
          | .error e => pure (.error e)
          | .ok pubkey => decryptBody L priv b pubkey

end Zk.Ec
