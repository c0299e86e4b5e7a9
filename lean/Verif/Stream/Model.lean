import Verif.Ser.Model

/-!
# Readers that deliver their bytes in pieces, writers that fail

The exported functions of `wire/common.go` and `crypto.go` that read and write take any
`io.Reader` and `io.Writer`, not only the `bytes.Buffer` of `Verif.Wire.Model` and
`Verif.Ser.Model`.  Here a reader delivers its bytes in pieces of its own choosing, some of them
with an error, and a writer takes as many bytes as it likes and may fail at any call.

Simplification: a reader is the list of what it will deliver, so a `Read` does not depend on what
was written elsewhere, and a reader that returns `0, nil` for ever (which makes `io.ReadFull` loop)
is left out.  Every run of a reader that comes to an end is a run of such a list.
-/

namespace Zk.Stream

open Zk Zk.Wire Zk.Ser

/-- `io.EOF` (Go standard library), the error of a reader at its end; returned by the reads at
wire/common.go:73, 87, 101, 115, 298. -/
def eof : Err := "EOF"

/-- `io.ErrUnexpectedEOF` (Go standard library); returned by the reads at wire/common.go:73, 87,
101, 115, 298. -/
def unexpectedEOF : Err := "unexpected EOF"

/-- What an `io.Reader` (wire/common.go:71, 172, 289) will deliver: pieces, each perhaps with an
error that is returned together with the last bytes of the piece.  A piece may be empty. -/
abbrev Script := List (Bytes × Option Err)

/-- `r.Read(buf)` with `len(buf) = n` (interface `io.Reader` of the Go standard library; called
through wire/common.go:73): the next piece, or its first `n` bytes when it is longer.  At the end
`io.EOF`. -/
def read (n : Nat) : Script → Bytes × Option Err × Script
  | [] => ([], some eof, [])
  | (b, e) :: s =>
    if b.length ≤ n then (b, e, s) else (b.take n, none, (b.drop n, e) :: s)

/-- The loop of `io.ReadAtLeast` (Go standard library; called through wire/common.go:73):
`for n < min && err == nil { nn, err = r.Read(buf[n:]); n += nn }`, where `got` is `buf[:n]`.
Simplification: `read` is written out so that Lean sees that the script gets shorter;
`loop_unfold` in `Verif.Stream.Lemmas` shows that it is the loop of the Go code. -/
def loop (min : Nat) : Bytes → Script → Bytes × Option Err × Script
  | got, [] => if min ≤ got.length then (got, none, []) else (got, some eof, [])
  | got, (b, e) :: s =>
    if min ≤ got.length then (got, none, (b, e) :: s)
    else if b.length ≤ min - got.length then
      match e with
      | some e => (got ++ b, some e, s)
      | none => loop min (got ++ b) s
    else (got ++ b.take (min - got.length), none, (b.drop (min - got.length), e) :: s)

/-- `io.ReadFull(r, buf)` with `len(buf) = n` (Go standard library), wire/common.go:73, 87, 101,
115, 298: an error that comes with the last byte needed is dropped, and an `io.EOF` after the first
byte becomes `io.ErrUnexpectedEOF`. -/
def readFull (n : Nat) (s : Script) : Bytes × Option Err × Script :=
  match loop n [] s with
  | (got, err, s) =>
    if n ≤ got.length then (got, none, s)
    else if 0 < got.length ∧ err = some eof then (got, some unexpectedEOF, s)
    else (got, err, s)

/-- `binaryFreeList.Uint8`, wire/common.go:71-80. -/
def uint8 (s : Script) : Go (UInt8 × Option Err × Script) :=
  match readFull 1 s with
  | (_, some e, rest) => .ok (0, some e, rest)
  | (buf, none, rest) => do
    let b0 ← idx buf 0
    pure (b0, none, rest)

/-- `binaryFreeList.Uint16` with `littleEndian`, wire/common.go:85-94. -/
def uint16 (s : Script) : Go (UInt16 × Option Err × Script) :=
  match readFull 2 s with
  | (_, some e, rest) => .ok (0, some e, rest)
  | (buf, none, rest) => do
    let v ← leUint16 buf
    pure (v, none, rest)

/-- `binaryFreeList.Uint32` with `littleEndian`, wire/common.go:99-108. -/
def uint32 (s : Script) : Go (UInt32 × Option Err × Script) :=
  match readFull 4 s with
  | (_, some e, rest) => .ok (0, some e, rest)
  | (buf, none, rest) => do
    let v ← leUint32 buf
    pure (v, none, rest)

/-- `binaryFreeList.Uint64` with `littleEndian`, wire/common.go:113-122. -/
def uint64 (s : Script) : Go (UInt64 × Option Err × Script) :=
  match readFull 8 s with
  | (_, some e, rest) => .ok (0, some e, rest)
  | (buf, none, rest) => do
    let v ← leUint64 buf
    pure (v, none, rest)

/-- `ReadVarInt`, wire/common.go:172-227. -/
def readVarInt (s : Script) : Go (UInt64 × Option Err × Script) := do
  let (discriminant, err, s) ← uint8 s
  if err.isSome then
    return (0, err, s)
  if discriminant = 0xff then
    let (sv, err, s) ← uint64 s
    if err.isSome then
      return (0, err, s)
    if sv < 0x100000000 then
      return (0, some "errNonCanonicalVarInt", s)
    return (sv, none, s)
  else if discriminant = 0xfe then
    let (sv, err, s) ← uint32 s
    if err.isSome then
      return (0, err, s)
    if sv.toUInt64 < 0x10000 then
      return (0, some "errNonCanonicalVarInt", s)
    return (sv.toUInt64, none, s)
  else if discriminant = 0xfd then
    let (sv, err, s) ← uint16 s
    if err.isSome then
      return (0, err, s)
    if sv.toUInt64 < 0xfd then
      return (0, some "errNonCanonicalVarInt", s)
    return (sv.toUInt64, none, s)
  else
    return (discriminant.toUInt64, none, s)

/-- `ReadVarBytes`, wire/common.go:289-303, with `maxAlloc` as in `Verif.Wire.Model`; the limit
`maxAllowed` is not used by the Go code and left out. -/
def readVarBytes (maxAlloc : Nat) (s : Script) : Go (Option Bytes × Option Err × Script) := do
  let (count, err, s) ← readVarInt s
  if err.isSome then
    return (none, err, s)
  if maxAlloc < count.toNat then
    Go.panic
  else
    match readFull count.toNat s with
    | (_, some e, rest) => return (none, some e, rest)
    | (b, none, rest) => return (some b, none, rest)

/-- `ReadECPoint`, crypto.go:166-176. -/
def readECPoint (maxAlloc : Nat) (s : Script) : Go (ECPoint × Option Err × Script) := do
  let (xBytes, err, s) ← readVarBytes maxAlloc s
  if err.isSome then
    return (Zero, err, s)
  let (yBytes, err, s) ← readVarBytes maxAlloc s
  if err.isSome then
    return (Zero, err, s)
  let xb ← deref xBytes
  let yb ← deref yBytes
  return (pt (setBytes xb) (setBytes yb), none, s)

/-- `ReadBigInt`, crypto.go:189-199. -/
def readBigInt (maxAlloc : Nat) (s : Script) : Go (Option Int × Option Err × Script) := do
  let (bBytes, err, s) ← readVarBytes maxAlloc s
  if err.isSome then
    return (none, err, s)
  let bs ← deref bBytes
  match bs with
  | [] => Go.panic
  | b0 :: tl =>
    let newInt : Int := setBytes tl
    if b0 = 0x01 then
      return (some (-newInt), none, s)
    else
      return (some newInt, none, s)

/-- An `io.Writer` (wire/common.go:126, 231, 307) with states `σ`: how many bytes of the argument
it takes, the error it returns, and its next state. -/
abbrev Writer (σ : Type) := σ → Bytes → Nat × Option Err × σ

/-- The writer together with what it has taken and the errors its calls have returned so far.
The bytes and errors are not visible to the Go code (which drops the count, wire/common.go:129);
they are recorded to state what was written. -/
structure WState (σ : Type) where
  /-- the writer's own state, wire/common.go:126 -/
  st : σ
  /-- the bytes taken, wire/common.go:129 -/
  out : Bytes
  /-- the error values returned, wire/common.go:129 -/
  errs : List (Option Err)
deriving DecidableEq

/-- `_, err := w.Write(buf)`, wire/common.go:129, 140, 151, 162, 314. -/
def write {σ : Type} (w : Writer σ) (b : Bytes) (s : WState σ) : Option Err × WState σ :=
  match w s.st b with
  | (n, e, st) => (e, ⟨st, s.out ++ b.take n, s.errs ++ [e]⟩)

/-- `WriteVarInt`, wire/common.go:231-257.  The buffers filled by `PutUint8` … `PutUint64`
(wire/common.go:126-165) are those of `Verif.Wire.Model`. -/
def writeVarInt {σ : Type} (w : Writer σ) (val : UInt64) (s : WState σ) :
    Option Err × WState σ :=
  if val < 0xfd then write w (putUint8 val.toUInt8) s
  else if val ≤ 65535 then
    match write w (putUint8 0xfd) s with
    | (some e, s) => (some e, s)
    | (none, s) => write w (putUint16 val.toUInt16) s
  else if val ≤ 4294967295 then
    match write w (putUint8 0xfe) s with
    | (some e, s) => (some e, s)
    | (none, s) => write w (putUint32 val.toUInt32) s
  else
    match write w (putUint8 0xff) s with
    | (some e, s) => (some e, s)
    | (none, s) => write w (putUint64 val) s

/-- `WriteVarBytes`, wire/common.go:307-319. -/
def writeVarBytes {σ : Type} (w : Writer σ) (b : Bytes) (s : WState σ) : Option Err × WState σ :=
  match writeVarInt w (UInt64.ofNat b.length) s with
  | (some e, s) => (some e, s)
  | (none, s) =>
    match write w b s with
    | (some e, s) => (some e, s)
    | (none, s) => (none, s)

/-- `WriteECPoint`, crypto.go:156-163.  A nil coordinate panics when its bytes are taken: `Y` only
after `X` has been written. -/
def writeECPoint {σ : Type} (w : Writer σ) (p : ECPoint) (s : WState σ) :
    Go (Option Err × WState σ) := do
  let x ← ptrBytes p.X
  match writeVarBytes w x s with
  | (some e, s) => return (some e, s)
  | (none, s) =>
    let y ← ptrBytes p.Y
    return writeVarBytes w y s

/-- `WriteBigInt`, crypto.go:179-186. -/
def writeBigInt {σ : Type} (w : Writer σ) (b : Option Int) (s : WState σ) :
    Go (Option Err × WState σ) := do
  let v ← deref b
  let neg : UInt8 := if v < 0 then 0x01 else 0x00
  return writeVarBytes w (neg :: intBytes v) s

end Zk.Stream
