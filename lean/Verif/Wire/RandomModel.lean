import Verif.Wire.Model

/-!
# Model of `RandomUint64`, wire/common.go:321-335
-/

namespace Zk.Wire

open Zk

/-- `bigEndian.Uint64` (encoding/binary), wire/common.go:31, 119. -/
def beUint64 (b : Bytes) : Go UInt64 := do
  let b7 ← idx b 7
  let b0 ← idx b 0
  let b1 ← idx b 1
  let b2 ← idx b 2
  let b3 ← idx b 3
  let b4 ← idx b 4
  let b5 ← idx b 5
  let b6 ← idx b 6
  pure (b7.toUInt64 ||| (b6.toUInt64 <<< 8) ||| (b5.toUInt64 <<< 16) ||| (b4.toUInt64 <<< 24)
    ||| (b3.toUInt64 <<< 32) ||| (b2.toUInt64 <<< 40) ||| (b1.toUInt64 <<< 48)
    ||| (b0.toUInt64 <<< 56))

/-- `binaryFreeList.Uint64` with `bigEndian`, wire/common.go:113-122. -/
def uint64BE (s : Bytes) : Go (UInt64 × Option Err × Bytes) :=
  match readFull 8 s with
  | (_, some e, rest) => .ok (0, some e, rest)
  | (buf, none, rest) => do
    let v ← beUint64 buf
    pure (v, none, rest)

/-- `randomUint64`, wire/common.go:324-330, and `RandomUint64`, wire/common.go:333-335, which passes the
reader of crypto/rand.  `s` is what the reader delivers before it fails. -/
def randomUint64 (s : Bytes) : Go (UInt64 × Option Err × Bytes) := do
  let (rv, err, rest) ← uint64BE s
  match err with
  | some e => pure (0, some e, rest)
  | none => pure (rv, none, rest)

end Zk.Wire
