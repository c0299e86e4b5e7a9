import Verif.Proto.AbcProps

/-!
# Model of rangeproof.go

The bodies of the goroutines are lists of atomic steps.  `Pool` runs workers that each own one slot
under an arbitrary schedule (proofGenA, proofGenB); `VState` is the verifier with its goroutines and
its channel.  The functions `newRangeProof` and `rangeVerify` do the same work sequentially.
-/

namespace Zk.Proto

open Zk

/-! ## The prover -/

/-- The numbers drawn for one bit: `k` (rangeproof.go:63 or 84), `v` (71), `j` (112). -/
structure BitRand where
  k : Int
  v : Int
  j : Int

/-- `proverInternalData` at one index, rangeproof.go:42-47.  Simplification: the four slices of equal
length are one array of records; every access in proofGenA and proofGenB is at the own index `idx`. -/
structure Slot where
  R : ECPoint
  B : ECPoint
  k : Option Int
  v : Option Int
deriving DecidableEq, Repr

/-- Slices of zero values, rangeproof.go:172-177. -/
def emptySlot : Slot := ⟨nilPoint, nilPoint, none, none⟩

/-- `new(big.Int).SetBytes(sha256(append(p.X.Bytes(), p.Y.Bytes()...)))`, rangeproof.go:93-94,
128-129, 251-253. -/
def hashPoint (hash : Bytes → Bytes) (p : ECPoint) : Go Int := do
  let b ← pointBytes p
  pure (setBytes (hash b) : Int)

/-- `zkpcp.HPoints[idx]`, rangeproof.go:80, 244: out of range panics. -/
def hpoint (cp : Params) (idx : Nat) : Go ECPoint := deref cp.HPoints[idx]?

/-- The statements of `proofGenA` that access shared data, in order, rangeproof.go:62-98. -/
def progA (hash : Bytes → Bytes) (cp : Params) (idx : Nat) (bit : Bool) (rnd : BitRand) :
    List (Slot → Go Slot) :=
  if !bit then
    [ fun s => .ok { s with k := some rnd.k },
      fun s => do
        let R ← mult cp cp.H s.k
        pure { s with R := R } ]
  else
    [ fun s => .ok { s with v := some rnd.v },
      fun s => do
        let R ← mult cp cp.H s.v
        pure { s with R := R },
      fun s => do
        let hp ← hpoint cp idx
        let B ← curveAdd cp hp s.R
        pure { s with B := B },
      fun s => .ok { s with k := some rnd.k },
      fun s => do
        let temp ← mult cp cp.H s.k
        let h ← hashPoint hash temp
        let ei := h % (cp.C.N : Int)
        let b ← coords s.B
        let q ← cp.C.scalarMult b.1 b.2 (intBytes ei)
        pure { s with R := mkPt q } ]

/-- The local variable `inverseEI` of `proofGenB`, rangeproof.go:117-132. -/
def inverseEI (hash : Bytes → Bytes) (cp : Params) (idx : Nat) (e0 : Int) (j : Int) :
    Go (Option Int) := do
  let m2 : Int := 2 ^ idx % (cp.C.N : Int)
  let em2 := (e0 * m2) % (cp.C.N : Int)
  let rhs ← cp.C.scalarBaseMult (intBytes em2)
  let lhs ← mult cp cp.H (some j)
  let tot ← curveAdd cp lhs (mkPt rhs)
  let h ← hashPoint hash tot
  let ei := h % (cp.C.N : Int)
  pure (modInverse ei cp.C.N)

/-- The statements of `proofGenB` that access shared data, in order, rangeproof.go:110-148.
Local variables are computed again where they are used. -/
def progB (hash : Bytes → Bytes) (cp : Params) (idx : Nat) (bit : Bool) (e0 : Int) (rnd : BitRand) :
    List (Slot → Go Slot) :=
  if !bit then
    [ fun s => do
        let inv ← inverseEI hash cp idx e0 rnd.j
        let inv ← deref inv
        let k ← deref s.k
        pure { s with v := some (inv * k) },
      fun s => do
        let inv ← inverseEI hash cp idx e0 rnd.j
        let B ← mult cp s.R inv
        pure { s with B := B },
      fun s => do
        let inv ← inverseEI hash cp idx e0 rnd.j
        let inv ← deref inv
        let k ← deref s.k
        pure { s with k := some (rnd.j + k * (e0 * inv)) } ]
  else
    [ fun s => do
        let k ← deref s.k
        let v ← deref s.v
        pure { s with k := some (k + e0 * v) } ]

/-- A worker (rangeproof.go:51-102, 105-151) run to its end. -/
def runW {τ : Type} : List (τ → Go τ) → τ → Go τ
  | [], s => .ok s
  | f :: fs, s => f s >>= runW fs

/-- `proofSize`, rangeproof.go:165. -/
def proofSize : Nat := 40

/-- `value.Bit(i)`, rangeproof.go:187, 211, for a value that is not negative. -/
def bitOf (value : Int) (i : Nat) : Bool := value.toNat.testBit i

/-- rangeproof.go:191-200: the hash of all R points, reduced. -/
def hashAll (hash : Bytes → Bytes) (ps : List ECPoint) : Go Int := do
  let bs ← ps.mapM pointBytes
  pure (setBytes (hash bs.flatten) : Int)

/-- rangeproof.go:215-230. -/
def finishRange (cp : Params) (e0 : Int) (slots : List Slot) :
    Go (Option RangeProof × Option Int × Option Err) := do
  let acc ← slots.foldlM (fun (acc : Int × ECPoint) s => do
    let v ← deref s.v
    let agg ← add cp acc.2 s.B
    pure (acc.1 + v, agg)) ((0 : Int), Zero)
  pure (some ⟨acc.2, some e0, slots.map fun s => ⟨s.B, s.k⟩⟩, some acc.1, none)

/-- rangeproof.go:172-230 for `n` bits, run sequentially. -/
def proveRange (hash : Bytes → Bytes) (cp : Params) (n : Nat) (value : Int) (rnd : Nat → BitRand) :
    Go (Option RangeProof × Option Int × Option Err) := do
  let slotsA ← (List.range n).mapM fun i => runW (progA hash cp i (bitOf value i) (rnd i)) emptySlot
  let h ← hashAll hash (slotsA.map Slot.R)
  let e0 := h % (cp.C.N : Int)
  let slotsB ← slotsA.zipIdx.mapM fun s => runW (progB hash cp s.2 (bitOf value s.2) e0 (rnd s.2)) s.1
  finishRange cp e0 slotsB

/-- `NewRangeProof`, rangeproof.go:154-231, with its goroutines run one after the other. -/
def newRangeProof (hash : Bytes → Bytes) (cp : Params) (value : Int) (rnd : Nat → BitRand) :
    Go (Option RangeProof × Option Int × Option Err) :=
  if value > 1099511627776 then .ok (none, none, some "val too big")
  else if value < 0 then .ok (none, none, some "out of range")
  else proveRange hash cp proofSize value rnd

/-! ### Goroutines of the prover -/

/-- Goroutines that own one slot each, and a wait group (rangeproof.go:183-189, 207-213).  `rest i` is what goroutine `i` still has to
do, `none` after `wg.Done()`. -/
structure Pool (τ : Type) where
  data : Nat → τ
  rest : Nat → Option (List (τ → Go τ))
  wg : Nat

/-- `wg.Add(n)` and the `go` statements, rangeproof.go:183-188, 207-212. -/
def Pool.start {τ : Type} (n : Nat) (data : Nat → τ) (prog : Nat → List (τ → Go τ)) : Pool τ :=
  ⟨data, fun i => if i < n then some (prog i) else none, n⟩

/-- One step of one goroutine.  A panic in a goroutine is the end of the process.
rangeproof.go:51-102, 105-151. -/
inductive Pool.Step {τ : Type} : Pool τ → Go (Pool τ) → Prop
  | run (s : Pool τ) (i : Nat) (f : τ → Go τ) (fs : List (τ → Go τ)) (h : s.rest i = some (f :: fs)) :
      Pool.Step s (do
        let t ← f (s.data i)
        pure ⟨Function.update s.data i t, Function.update s.rest i (some fs), s.wg⟩)
  | done (s : Pool τ) (i : Nat) (h : s.rest i = some []) :
      Pool.Step s (.ok ⟨s.data, Function.update s.rest i none, s.wg - 1⟩)

/-- What an arbitrary schedule of rangeproof.go:183-189 or 207-213 can reach. -/
inductive Pool.Reach {τ : Type} (init : Pool τ) : Go (Pool τ) → Prop
  | refl : Pool.Reach init (.ok init)
  | step (s : Pool τ) (r : Go (Pool τ)) : Pool.Reach init (.ok s) → Pool.Step s r → Pool.Reach init r

/-- `NewRangeProof` after its checks, under any schedule: the main goroutine continues when the wait
group is at zero (rangeproof.go:189, 213). -/
inductive ProveRuns (hash : Bytes → Bytes) (cp : Params) (n : Nat) (value : Int)
    (rnd : Nat → BitRand) : Go (Option RangeProof × Option Int × Option Err) → Prop
  | crashA :
      Pool.Reach (Pool.start n (fun _ => emptySlot)
        fun i => progA hash cp i (bitOf value i) (rnd i)) .panic →
      ProveRuns hash cp n value rnd .panic
  | crashHash (a : Pool Slot) :
      Pool.Reach (Pool.start n (fun _ => emptySlot)
        fun i => progA hash cp i (bitOf value i) (rnd i)) (.ok a) → a.wg = 0 →
      hashAll hash ((List.range n).map fun i => (a.data i).R) = .panic →
      ProveRuns hash cp n value rnd .panic
  | crashB (a : Pool Slot) (h : Int) :
      Pool.Reach (Pool.start n (fun _ => emptySlot)
        fun i => progA hash cp i (bitOf value i) (rnd i)) (.ok a) → a.wg = 0 →
      hashAll hash ((List.range n).map fun i => (a.data i).R) = .ok h →
      Pool.Reach (Pool.start n a.data
        fun i => progB hash cp i (bitOf value i) (h % (cp.C.N : Int)) (rnd i)) .panic →
      ProveRuns hash cp n value rnd .panic
  | finish (a b : Pool Slot) (h : Int) :
      Pool.Reach (Pool.start n (fun _ => emptySlot)
        fun i => progA hash cp i (bitOf value i) (rnd i)) (.ok a) → a.wg = 0 →
      hashAll hash ((List.range n).map fun i => (a.data i).R) = .ok h →
      Pool.Reach (Pool.start n a.data
        fun i => progB hash cp i (bitOf value i) (h % (cp.C.N : Int)) (rnd i)) (.ok b) → b.wg = 0 →
      ProveRuns hash cp n value rnd
        (finishRange cp (h % (cp.C.N : Int)) ((List.range n).map b.data))

/-- `NewRangeProof`, rangeproof.go:154-231, under any schedule of its goroutines. -/
def NewRangeProofRuns (hash : Bytes → Bytes) (cp : Params) (value : Int) (rnd : Nat → BitRand)
    (r : Go (Option RangeProof × Option Int × Option Err)) : Prop :=
  if value > 1099511627776 then r = .ok (none, none, some "val too big")
  else if value < 0 then r = .ok (none, none, some "out of range")
  else ProveRuns hash cp proofSize value rnd r

/-! ## The verifier -/

/-- `verifyGen` up to the send, rangeproof.go:242-257. -/
def verifyGen (hash : Bytes → Bytes) (cp : Params) (idx : Nat) (proofE : Option Int)
    (rpt : RangeProofTuple) : Go ECPoint := do
  let lhs ← mult cp cp.H rpt.S
  let hp ← hpoint cp idx
  let nhp ← neg cp hp
  let rhs2 ← add cp rpt.C nhp
  let m ← mult cp rhs2 proofE
  let rhsXYNeg ← neg cp m
  let tot ← add cp lhs rhsXYNeg
  let e1 ← hashPoint hash tot
  mult cp rpt.C (some e1)

/-- The nil checks of rangeproof.go:279-285 for one tuple.  Simplification: the two error texts are
one. -/
def tupleNil (t : RangeProofTuple) : Bool := t.C.X.isNone || t.S.isNone

/-- rangeproof.go:302-321, given the R points and the sum. -/
def finishVerify (hash : Bytes → Bytes) (pr : RangeProof) (comm : ECPoint) (Rs : List ECPoint)
    (total : ECPoint) : Go (Bool × Option Err) := do
  let e ← hashAll hash Rs
  let eq ← cmpEq pr.ProofE (some e)
  if !eq then pure (reject "calculatedE0 does not match")
  else do
    let ok ← equal total pr.ProofAggregate
    if !ok then pure (reject "ProofAggregate does not match totalPoint")
    else do
      let ok ← equal comm total
      if !ok then pure (reject "ProofAggregate does not match commitment")
      else pure accept

/-- `RangeProof.Verify`, rangeproof.go:262-322, with the goroutines run one after the other. -/
def rangeVerify (hash : Bytes → Bytes) (cp : Params) (proof : Option RangeProof) (comm : ECPoint) :
    Go (Bool × Option Err) :=
  match proof with
  | none => .ok (reject "passed proof is nil")
  | some pr =>
    if pr.ProofTuples.any tupleNil then .ok (reject "entry has nil point or scalar")
    else do
      let Rs ← pr.ProofTuples.zipIdx.mapM fun t => verifyGen hash cp t.2 pr.ProofE t.1
      let total ← pr.ProofTuples.foldlM (fun acc t => add cp acc t.C) Zero
      finishVerify hash pr comm Rs total

/-- State of one verifyGen goroutine, rangeproof.go:239-260. -/
inductive Worker where
  /-- not started yet -/
  | idle
  /-- computing, rangeproof.go:242-257 -/
  | running
  /-- at the send, rangeproof.go:259 -/
  | sending (p : ECPoint)
  | finished
deriving DecidableEq

/-- Where the main goroutine of `Verify` (rangeproof.go:262-322) is. -/
inductive Main where
  /-- the loop of rangeproof.go:277-289, at index i -/
  | spawn (i : Nat)
  /-- the loop of rangeproof.go:291-300, at index i, with the sum so far -/
  | recv (i : Nat) (total : ECPoint)
  /-- returned, or the process has crashed -/
  | ret (r : Go (Bool × Option Err))

/-- The state of `Verify` with its goroutines: the channel holds at most 10 results
(rangeproof.go:275); `Rp` is the slice `Rpoints`. -/
structure VState where
  main : Main
  workers : Nat → Worker
  chan : List (Nat × ECPoint)
  Rp : Nat → ECPoint

/-- `resultBox := make(chan verifyTuple, 10)`, rangeproof.go:275. -/
def chanCap : Nat := 10

/-- The start, rangeproof.go:267-277. -/
def VState.start : VState := ⟨.spawn 0, fun _ => .idle, [], fun _ => nilPoint⟩

/-- One step of the main goroutine or of a worker.  Any panic ends the process.
rangeproof.go:239-322. -/
inductive VState.Step (hash : Bytes → Bytes) (cp : Params) (pr : RangeProof) (comm : ECPoint) :
    VState → VState → Prop
  /-- rangeproof.go:279-285 -/
  | spawnNil (s : VState) (i : Nat) (t : RangeProofTuple) (hm : s.main = .spawn i)
      (ht : pr.ProofTuples[i]? = some t) (hn : tupleNil t = true) :
      Step hash cp pr comm s { s with main := .ret (.ok (reject "entry has nil point or scalar")) }
  /-- rangeproof.go:288 -/
  | spawn (s : VState) (i : Nat) (t : RangeProofTuple) (hm : s.main = .spawn i)
      (ht : pr.ProofTuples[i]? = some t) (hn : tupleNil t = false) :
      Step hash cp pr comm s
        { s with main := .spawn (i + 1), workers := Function.update s.workers i .running }
  /-- the end of the first loop -/
  | spawned (s : VState) (hm : s.main = .spawn pr.ProofTuples.length) :
      Step hash cp pr comm s { s with main := .recv 0 Zero }
  /-- rangeproof.go:292-299 -/
  | recv (s : VState) (i : Nat) (total : ECPoint) (t : RangeProofTuple) (m : Nat × ECPoint)
      (ms : List (Nat × ECPoint)) (hm : s.main = .recv i total)
      (ht : pr.ProofTuples[i]? = some t) (hc : s.chan = m :: ms) :
      Step hash cp pr comm s
        { s with
          main := (match add cp total t.C with
            | .ok q => .recv (i + 1) q
            | .panic => .ret .panic)
          chan := ms
          Rp := Function.update s.Rp m.1 m.2 }
  /-- rangeproof.go:302-321 -/
  | finish (s : VState) (total : ECPoint) (hm : s.main = .recv pr.ProofTuples.length total) :
      Step hash cp pr comm s
        { s with main := .ret (finishVerify hash pr comm
          ((List.range pr.ProofTuples.length).map s.Rp) total) }
  /-- rangeproof.go:242-257 -/
  | compute (s : VState) (i : Nat) (t : RangeProofTuple) (p : ECPoint)
      (hw : s.workers i = .running) (ht : pr.ProofTuples[i]? = some t)
      (hp : verifyGen hash cp i pr.ProofE t = .ok p) :
      Step hash cp pr comm s { s with workers := Function.update s.workers i (.sending p) }
  /-- a panic in a goroutine -/
  | crash (s : VState) (i : Nat) (t : RangeProofTuple)
      (hw : s.workers i = .running) (ht : pr.ProofTuples[i]? = some t)
      (hp : verifyGen hash cp i pr.ProofE t = .panic) :
      Step hash cp pr comm s { s with main := .ret .panic }
  /-- rangeproof.go:259: the channel has room -/
  | send (s : VState) (i : Nat) (p : ECPoint) (hw : s.workers i = .sending p)
      (hc : s.chan.length < chanCap) :
      Step hash cp pr comm s
        { s with workers := Function.update s.workers i .finished, chan := s.chan ++ [(i, p)] }

/-- What an arbitrary schedule can reach from the start of `Verify` (rangeproof.go:262-322) on a proof
that is not nil. -/
inductive VState.Reach (hash : Bytes → Bytes) (cp : Params) (pr : RangeProof) (comm : ECPoint) :
    VState → Prop
  | start : Reach hash cp pr comm VState.start
  | step (s s' : VState) : Reach hash cp pr comm s → VState.Step hash cp pr comm s s' →
      Reach hash cp pr comm s'

end Zk.Proto
