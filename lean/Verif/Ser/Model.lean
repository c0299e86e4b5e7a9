import Verif.Types
import Verif.Wire.Model

/-!
# Serialization of points, integers and proofs

Models `WriteECPoint`, `ReadECPoint`, `WriteBigInt`, `ReadBigInt` of crypto.go and the `Bytes` and
`New...FromBytes` functions of every proof type.  `maxAlloc` is the largest slice the run time can
allocate.  A method called on a nil receiver or a nil `*big.Int` panics.
-/

namespace Zk.Ser

open Zk Zk.Wire

/-- `x.Bytes()` for a `*big.Int`, crypto.go:157, 161, 184. -/
def ptrBytes (x : Option Int) : Go Bytes := do
  let v ← deref x
  pure (intBytes v)

/-- `WriteECPoint`, crypto.go:156-163: the bytes written. -/
def writeECPoint (p : ECPoint) : Go Bytes := do
  let x ← ptrBytes p.X
  let y ← ptrBytes p.Y
  pure (writeVarBytes x ++ writeVarBytes y)

/-- `ReadECPoint`, crypto.go:166-176. -/
def readECPoint (maxAlloc : Nat) (s : Bytes) : Go (ECPoint × Option Err × Bytes) := do
  let (xBytes, err, s) ← readVarBytes maxAlloc s 32
  if err.isSome then
    return (Zero, err, s)
  let (yBytes, err, s) ← readVarBytes maxAlloc s 32
  if err.isSome then
    return (Zero, err, s)
  let xb ← deref xBytes
  let yb ← deref yBytes
  return (pt (setBytes xb) (setBytes yb), none, s)

/-- `WriteBigInt`, crypto.go:179-186: the bytes written. -/
def writeBigInt (b : Option Int) : Go Bytes := do
  let v ← deref b
  let neg : UInt8 := if v < 0 then 0x01 else 0x00
  pure (writeVarBytes (neg :: intBytes v))

/-- `ReadBigInt`, crypto.go:189-199. `bBytes[1:]` and `bBytes[0]` panic on an empty slice. -/
def readBigInt (maxAlloc : Nat) (s : Bytes) : Go (Option Int × Option Err × Bytes) := do
  let (bBytes, err, s) ← readVarBytes maxAlloc s 32
  if err.isSome then
    return (none, err, s)
  let bs ← deref bBytes
  match bs with
  | [] => Go.panic
  | b0 :: tl =>
    let newInt : Int := setBytes tl
    if b0 = 0x01 then
      return (some (-newInt), none, s)
    else
      return (some newInt, none, s)

/-- `(*GSPFSProof).Bytes`, gspfs.go:101-110. -/
def gspfsBytes (p : GSPFSProof) : Go Bytes := do
  let a ← writeECPoint p.Base
  let b ← writeECPoint p.RandCommit
  let c ← writeBigInt p.HiddenValue
  let d ← writeBigInt p.Challenge
  pure (a ++ b ++ c ++ d)

/-- `NewGSPFSProofFromBytes`, gspfs.go:114-122: all read errors are discarded. -/
def gspfsFromBytes (maxAlloc : Nat) (s : Bytes) : Go (Option GSPFSProof × Option Err) := do
  let (base, _, s) ← readECPoint maxAlloc s
  let (rc, _, s) ← readECPoint maxAlloc s
  let (hv, _, s) ← readBigInt maxAlloc s
  let (ch, _, _) ← readBigInt maxAlloc s
  return (some ⟨base, rc, hv, ch⟩, none)

/-- `(*EquivalenceProof).Bytes`, equivalence.go:125-134. -/
def equivalenceBytes (p : EquivalenceProof) : Go Bytes := do
  let a ← writeECPoint p.UG
  let b ← writeECPoint p.UH
  let c ← writeBigInt p.Challenge
  let d ← writeBigInt p.HiddenValue
  pure (a ++ b ++ c ++ d)

/-- `NewEquivalenceProofFromBytes`, equivalence.go:138-146. -/
def equivalenceFromBytes (maxAlloc : Nat) (s : Bytes) :
    Go (Option EquivalenceProof × Option Err) := do
  let (ug, _, s) ← readECPoint maxAlloc s
  let (uh, _, s) ← readECPoint maxAlloc s
  let (ch, _, s) ← readBigInt maxAlloc s
  let (hv, _, _) ← readBigInt maxAlloc s
  return (some ⟨ug, uh, ch, hv⟩, none)

/-- `(*ConsistencyProof).Bytes`, consistency.go:136-146. -/
def consistencyBytes (p : ConsistencyProof) : Go Bytes := do
  let a ← writeECPoint p.T1
  let b ← writeECPoint p.T2
  let c ← writeBigInt p.Challenge
  let d ← writeBigInt p.S1
  let e ← writeBigInt p.S2
  pure (a ++ b ++ c ++ d ++ e)

/-- `NewConsistencyProofFromBytes`, consistency.go:150-159. -/
def consistencyFromBytes (maxAlloc : Nat) (s : Bytes) :
    Go (Option ConsistencyProof × Option Err) := do
  let (t1, _, s) ← readECPoint maxAlloc s
  let (t2, _, s) ← readECPoint maxAlloc s
  let (ch, _, s) ← readBigInt maxAlloc s
  let (s1, _, s) ← readBigInt maxAlloc s
  let (s2, _, _) ← readBigInt maxAlloc s
  return (some ⟨t1, t2, ch, s1, s2⟩, none)

/-- `(*DisjunctiveProof).Bytes`, disjunctive.go:207-219. -/
def disjunctiveBytes (p : DisjunctiveProof) : Go Bytes := do
  let a ← writeECPoint p.T1
  let b ← writeECPoint p.T2
  let c ← writeBigInt p.C
  let d ← writeBigInt p.C1
  let e ← writeBigInt p.C2
  let f ← writeBigInt p.S1
  let g ← writeBigInt p.S2
  pure (a ++ b ++ c ++ d ++ e ++ f ++ g)

/-- `NewDisjunctiveProofFromBytes`, disjunctive.go:223-234. -/
def disjunctiveFromBytes (maxAlloc : Nat) (s : Bytes) :
    Go (Option DisjunctiveProof × Option Err) := do
  let (t1, _, s) ← readECPoint maxAlloc s
  let (t2, _, s) ← readECPoint maxAlloc s
  let (c, _, s) ← readBigInt maxAlloc s
  let (c1, _, s) ← readBigInt maxAlloc s
  let (c2, _, s) ← readBigInt maxAlloc s
  let (s1, _, s) ← readBigInt maxAlloc s
  let (s2, _, _) ← readBigInt maxAlloc s
  return (some ⟨t1, t2, c, c1, c2, s1, s2⟩, none)

/-- `(*ABCProof).Bytes`, abc.go:225-240. `proof.disjuncAC.Bytes()` on a nil pointer panics. -/
def abcBytes (p : ABCProof) : Go Bytes := do
  let a ← writeECPoint p.B
  let b ← writeECPoint p.C
  let c ← writeECPoint p.T1
  let d ← writeECPoint p.T2
  let e ← writeBigInt p.Challenge
  let f ← writeBigInt p.j
  let g ← writeBigInt p.k
  let h ← writeBigInt p.l
  let i ← writeECPoint p.CToken
  let dj ← deref p.disjuncAC
  let k ← disjunctiveBytes dj
  pure (a ++ b ++ c ++ d ++ e ++ f ++ g ++ h ++ i ++ writeVarBytes k)

/-- `NewABCProofFromBytes`, abc.go:244-293: every error is returned. -/
def abcFromBytes (maxAlloc : Nat) (s : Bytes) : Go (Option ABCProof × Option Err) := do
  let (b, err, s) ← readECPoint maxAlloc s
  if err.isSome then
    return (none, err)
  let (c, err, s) ← readECPoint maxAlloc s
  if err.isSome then
    return (none, err)
  let (t1, err, s) ← readECPoint maxAlloc s
  if err.isSome then
    return (none, err)
  let (t2, err, s) ← readECPoint maxAlloc s
  if err.isSome then
    return (none, err)
  let (ch, err, s) ← readBigInt maxAlloc s
  if err.isSome then
    return (none, err)
  let (j, err, s) ← readBigInt maxAlloc s
  if err.isSome then
    return (none, err)
  let (k, err, s) ← readBigInt maxAlloc s
  if err.isSome then
    return (none, err)
  let (l, err, s) ← readBigInt maxAlloc s
  if err.isSome then
    return (none, err)
  let (ctok, err, s) ← readECPoint maxAlloc s
  if err.isSome then
    return (none, err)
  let (djBytes, err, _) ← readVarBytes maxAlloc s 100000
  if err.isSome then
    return (none, err)
  let djb ← deref djBytes
  let (dj, err) ← disjunctiveFromBytes maxAlloc djb
  if err.isSome then
    return (none, err)
  return (some ⟨b, c, t1, t2, ch, j, k, l, ctok, dj⟩, none)

/-- The tuple loop of `(*RangeProof).Bytes`, rangeproof.go:331-334. -/
def tuplesBytes : List RangeProofTuple → Go Bytes
  | [] => pure []
  | t :: ts => do
    let a ← writeECPoint t.C
    let b ← writeBigInt t.S
    let r ← tuplesBytes ts
    pure (a ++ b ++ r)

/-- `(*RangeProof).Bytes`, rangeproof.go:325-337. -/
def rangeBytes (p : RangeProof) : Go Bytes := do
  let a ← writeECPoint p.ProofAggregate
  let b ← writeBigInt p.ProofE
  let r ← tuplesBytes p.ProofTuples
  pure (a ++ b ++ writeVarInt (UInt64.ofNat p.ProofTuples.length) ++ r)

/-- The tuple loop of `NewRangeProofFromBytes`, rangeproof.go:349-353. -/
def readTuples (maxAlloc : Nat) : Nat → Bytes → Go (List RangeProofTuple)
  | 0, _ => pure []
  | n + 1, s => do
    let (c, _, s) ← readECPoint maxAlloc s
    let (sv, _, s) ← readBigInt maxAlloc s
    let r ← readTuples maxAlloc n s
    pure (⟨c, sv⟩ :: r)

/-- `NewRangeProofFromBytes`, rangeproof.go:341-356. `make([]rangeProofTuple, numTuples)` panics
when it is too large; `maxTuples` is the largest count that can be allocated. -/
def rangeFromBytes (maxAlloc maxTuples : Nat) (s : Bytes) :
    Go (Option RangeProof × Option Err) := do
  let (agg, _, s) ← readECPoint maxAlloc s
  let (e, _, s) ← readBigInt maxAlloc s
  let (numTuples, _, s) ← readVarInt s
  if maxTuples < numTuples.toNat then
    Go.panic
  else
    let ts ← readTuples maxAlloc numTuples.toNat s
    return (some ⟨agg, e, ts⟩, none)

end Zk.Ser
