import Verif.Go

/-!
# Model of `wire/common.go`

Readers consume a byte list and return the rest; writers return the bytes they append.
Simplification: the writer is a `bytes.Buffer`, whose `Write` never fails (this is the only
writer the library itself uses).  The free list of scratch buffers is modelled separately in
`Verif.Wire.FreeListModel`; here a primitive reads into a fresh buffer.
-/

namespace Zk.Wire

open Zk

/-- Slice indexing `b[i]`, for example wire/common.go:77: panics when out of range. -/
def idx (b : Bytes) (i : Nat) : Go UInt8 := deref b[i]?

/-- `io.ReadFull(r, buf)` with `len(buf) = n` on a `bytes.Buffer` (Go standard library): on a
short read everything that was left is consumed and an error is returned. The first component
is the filled buffer.  Used at wire/common.go:73, 87, 101, 115, 298. -/
def readFull (n : Nat) (s : Bytes) : Bytes × Option Err × Bytes :=
  if n ≤ s.length then (s.take n, none, s.drop n) else (s, some "EOF", [])

/-- `binaryFreeList.Uint8`, wire/common.go:71-80. -/
def uint8 (s : Bytes) : Go (UInt8 × Option Err × Bytes) :=
  match readFull 1 s with
  | (_, some e, rest) => .ok (0, some e, rest)
  | (buf, none, rest) => do
    let b0 ← idx buf 0
    pure (b0, none, rest)

/-- `littleEndian.Uint16` (encoding/binary), wire/common.go:209. -/
def leUint16 (b : Bytes) : Go UInt16 := do
  let b1 ← idx b 1
  let b0 ← idx b 0
  pure (b0.toUInt16 ||| (b1.toUInt16 <<< 8))

/-- `binaryFreeList.Uint16` with `littleEndian`, wire/common.go:85-94. -/
def uint16 (s : Bytes) : Go (UInt16 × Option Err × Bytes) :=
  match readFull 2 s with
  | (_, some e, rest) => .ok (0, some e, rest)
  | (buf, none, rest) => do
    let v ← leUint16 buf
    pure (v, none, rest)

/-- `littleEndian.Uint32` (encoding/binary), wire/common.go:195. -/
def leUint32 (b : Bytes) : Go UInt32 := do
  let b3 ← idx b 3
  let b0 ← idx b 0
  let b1 ← idx b 1
  let b2 ← idx b 2
  pure (b0.toUInt32 ||| (b1.toUInt32 <<< 8) ||| (b2.toUInt32 <<< 16) ||| (b3.toUInt32 <<< 24))

/-- `binaryFreeList.Uint32` with `littleEndian`, wire/common.go:99-108. -/
def uint32 (s : Bytes) : Go (UInt32 × Option Err × Bytes) :=
  match readFull 4 s with
  | (_, some e, rest) => .ok (0, some e, rest)
  | (buf, none, rest) => do
    let v ← leUint32 buf
    pure (v, none, rest)

/-- `littleEndian.Uint64` (encoding/binary), wire/common.go:181. -/
def leUint64 (b : Bytes) : Go UInt64 := do
  let b7 ← idx b 7
  let b0 ← idx b 0
  let b1 ← idx b 1
  let b2 ← idx b 2
  let b3 ← idx b 3
  let b4 ← idx b 4
  let b5 ← idx b 5
  let b6 ← idx b 6
  pure (b0.toUInt64 ||| (b1.toUInt64 <<< 8) ||| (b2.toUInt64 <<< 16) ||| (b3.toUInt64 <<< 24)
    ||| (b4.toUInt64 <<< 32) ||| (b5.toUInt64 <<< 40) ||| (b6.toUInt64 <<< 48)
    ||| (b7.toUInt64 <<< 56))

/-- `binaryFreeList.Uint64` with `littleEndian`, wire/common.go:113-122. -/
def uint64 (s : Bytes) : Go (UInt64 × Option Err × Bytes) :=
  match readFull 8 s with
  | (_, some e, rest) => .ok (0, some e, rest)
  | (buf, none, rest) => do
    let v ← leUint64 buf
    pure (v, none, rest)

/-- `binaryFreeList.PutUint8`, wire/common.go:126-132: the bytes written. -/
def putUint8 (v : UInt8) : Bytes := [v]

/-- `binaryFreeList.PutUint16` with `littleEndian`, wire/common.go:137-143. -/
def putUint16 (v : UInt16) : Bytes := [v.toUInt8, (v >>> 8).toUInt8]

/-- `binaryFreeList.PutUint32` with `littleEndian`, wire/common.go:148-154. -/
def putUint32 (v : UInt32) : Bytes :=
  [v.toUInt8, (v >>> 8).toUInt8, (v >>> 16).toUInt8, (v >>> 24).toUInt8]

/-- `binaryFreeList.PutUint64` with `littleEndian`, wire/common.go:159-165. -/
def putUint64 (v : UInt64) : Bytes :=
  [v.toUInt8, (v >>> 8).toUInt8, (v >>> 16).toUInt8, (v >>> 24).toUInt8,
   (v >>> 32).toUInt8, (v >>> 40).toUInt8, (v >>> 48).toUInt8, (v >>> 56).toUInt8]

/-- `MaxVarIntPayload`, wire/common.go:17. -/
def maxVarIntPayload : Nat := 9

/-- `ReadVarInt`, wire/common.go:172-227. -/
def readVarInt (s : Bytes) : Go (UInt64 × Option Err × Bytes) := do
  let (discriminant, err, s) ← uint8 s
  if err.isSome then
    return (0, err, s)
  if discriminant = 0xff then
    let (sv, err, s) ← uint64 s
    if err.isSome then
      return (0, err, s)
    if sv < 0x100000000 then
      return (0, some "errNonCanonicalVarInt", s)
    return (sv, none, s)
  else if discriminant = 0xfe then
    let (sv, err, s) ← uint32 s
    if err.isSome then
      return (0, err, s)
    if sv.toUInt64 < 0x10000 then
      return (0, some "errNonCanonicalVarInt", s)
    return (sv.toUInt64, none, s)
  else if discriminant = 0xfd then
    let (sv, err, s) ← uint16 s
    if err.isSome then
      return (0, err, s)
    if sv.toUInt64 < 0xfd then
      return (0, some "errNonCanonicalVarInt", s)
    return (sv.toUInt64, none, s)
  else
    return (discriminant.toUInt64, none, s)

/-- `WriteVarInt`, wire/common.go:231-257: the bytes written. -/
def writeVarInt (val : UInt64) : Bytes :=
  if val < 0xfd then putUint8 val.toUInt8
  else if val ≤ 65535 then putUint8 0xfd ++ putUint16 val.toUInt16
  else if val ≤ 4294967295 then putUint8 0xfe ++ putUint32 val.toUInt32
  else putUint8 0xff ++ putUint64 val

/-- `VarIntSerializeSize`, wire/common.go:261-280. -/
def varIntSerializeSize (val : UInt64) : Nat :=
  if val < 0xfd then 1
  else if val ≤ 65535 then 3
  else if val ≤ 4294967295 then 5
  else 9

/-- `ReadVarBytes`, wire/common.go:289-303. `maxAlloc` is the largest `make([]byte, n)` that the
run time grants; a larger one panics (or kills the process). `maxAllowed` is, as in the Go code,
not used. -/
def readVarBytes (maxAlloc : Nat) (s : Bytes) (_maxAllowed : UInt32) :
    Go (Option Bytes × Option Err × Bytes) := do
  let (count, err, s) ← readVarInt s
  if err.isSome then
    return (none, err, s)
  if maxAlloc < count.toNat then
    Go.panic
  else
    match readFull count.toNat s with
    | (_, some e, rest) => return (none, some e, rest)
    | (b, none, rest) => return (some b, none, rest)

/-- `WriteVarBytes`, wire/common.go:307-319: the bytes written. -/
def writeVarBytes (b : Bytes) : Bytes := writeVarInt (UInt64.ofNat b.length) ++ b

end Zk.Wire
