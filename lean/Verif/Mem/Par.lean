import Verif.Mem.CallLemmas

/-!
# Goroutines on memory

`Verif.Mem.Model` runs every function on its own, and the range functions with their goroutines one
after the other.  Here any number of goroutines of a client call the exported functions at the same
time, and `NewRangeProof` and `RangeProof.Verify` start their own goroutines (rangeproof.go:187, 210,
288).  Every single access to a number or to a field of `proverInternalData` is a step, and steps of
different goroutines may be taken in any order.
-/

namespace Zk.Mem

open Zk Zk.Proto

/-- The variables of `proverInternalData` at one index, rangeproof.go:42-47: a point is two variables
(rangeproof.go:79, 96 assign them one by one). -/
inductive Field where
  | RX
  | RY
  | BX
  | BY
  | k
  | v
deriving DecidableEq

/-- Reading a variable, rangeproof.go:42-47. -/
def Slot.get (s : Slot) : Field → Ptr
  | .RX => s.R.X
  | .RY => s.R.Y
  | .BX => s.B.X
  | .BY => s.B.Y
  | .k => s.k
  | .v => s.v

/-- Assigning to a variable, rangeproof.go:42-47. -/
def Slot.set (s : Slot) (p : Ptr) : Field → Slot
  | .RX => { s with R := ⟨p, s.R.Y⟩ }
  | .RY => { s with R := ⟨s.R.X, p⟩ }
  | .BX => { s with B := ⟨p, s.B.Y⟩ }
  | .BY => { s with B := ⟨s.B.X, p⟩ }
  | .k => { s with k := p }
  | .v => { s with v := p }

/-- Zero values, rangeproof.go:174-177. -/
def noSlot : Slot := ⟨nilP, nilP, none, none⟩

/-- The `go` statements (rangeproof.go:187, 210, 288), with the arguments of the call.  `a` is
the place of the variables of index `idx`. -/
inductive Job where
  /-- rangeproof.go:187 -/
  | genA (wg a idx : Nat) (bit : Bool) (rnd : BitRand)
  /-- rangeproof.go:210-211 -/
  | genB (wg a idx : Nat) (bit : Bool) (e0 : Ptr) (rnd : BitRand)
  /-- rangeproof.go:288 -/
  | verify (box idx : Nat) (proofE : Ptr) (rpt : RangeTuple)

/-- What a goroutine does, as the sequence of its accesses to what it may share with others.  A Go
semantics definition used for all of the code, for example rangeproof.go:154-231. -/
inductive T (α : Type) where
  /-- The end, with the result. -/
  | ret (a : α)
  /-- A panic. -/
  | fail
  /-- Reads the number `a`. -/
  | load (a : Nat) (k : Int → T α)
  /-- Writes `v` to the number `a`. -/
  | store (a : Nat) (v : Int) (k : T α)
  /-- Makes a new number with the value `v`. -/
  | alloc (v : Int) (k : Nat → T α)
  /-- Makes the variables of one index, rangeproof.go:174-177. -/
  | mkSlot (k : Nat → T α)
  /-- Reads a variable. -/
  | get (a : Nat) (f : Field) (k : Ptr → T α)
  /-- Writes to a variable. -/
  | set (a : Nat) (f : Field) (p : Ptr) (k : T α)
  /-- `var wg sync.WaitGroup`, rangeproof.go:183. -/
  | mkWg (k : Nat → T α)
  /-- `wg.Add(n)`, rangeproof.go:184, 207. -/
  | add (w n : Nat) (k : T α)
  /-- `wg.Wait()`, rangeproof.go:189, 213. -/
  | wait (w : Nat) (k : T α)
  /-- `make(chan verifyTuple, 10)`, rangeproof.go:275. -/
  | mkChan (k : Nat → T α)
  /-- `<-resultBox`, rangeproof.go:292. -/
  | recv (c : Nat) (k : Nat × Point → T α)
  /-- A `go` statement. -/
  | go (j : Job) (k : T α)

/-- One computation after another, a Go semantics definition; for example rangeproof.go:183-189. -/
def T.bind {α β : Type} : T α → (α → T β) → T β
  | .ret a, f => f a
  | .fail, _ => .fail
  | .load a k, f => .load a fun v => (k v).bind f
  | .store a v k, f => .store a v (k.bind f)
  | .alloc v k, f => .alloc v fun a => (k a).bind f
  | .mkSlot k, f => .mkSlot fun a => (k a).bind f
  | .get a g k, f => .get a g fun p => (k p).bind f
  | .set a g p k, f => .set a g p (k.bind f)
  | .mkWg k, f => .mkWg fun w => (k w).bind f
  | .add w n k, f => .add w n (k.bind f)
  | .wait w k, f => .wait w (k.bind f)
  | .mkChan k, f => .mkChan fun c => (k c).bind f
  | .recv c k, f => .recv c fun m => (k m).bind f
  | .go j k, f => .go j (k.bind f)

/-- A Go semantics definition; for example rangeproof.go:183-189. -/
instance : Monad T where
  pure := .ret
  bind := .bind

/-- The functions of `Verif.Mem.Model` as part of a goroutine, for example rangeproof.go:67. -/
def M.lift {α : Type} : M α → T α
  | .ret a => .ret a
  | .fail => .fail
  | .load a k => .load a fun v => (k v).lift
  | .store a v k => .store a v k.lift
  | .alloc v k => .alloc v fun a => (k a).lift

/-- For example rangeproof.go:67. -/
instance : MonadLift M T where
  monadLift := M.lift

/-- Reads a variable, for example `s.kScalars[idx]`, rangeproof.go:67. -/
def getF (a : Nat) (f : Field) : T Ptr := .get a f .ret

/-- Writes to a variable, for example rangeproof.go:63. -/
def setF (a : Nat) (f : Field) (p : Ptr) : T Unit := .set a f p (.ret ())

/-- `s.Rpoints[idx]`, for example rangeproof.go:81: the two variables are read one after the other. -/
def getR (a : Nat) : T Point := do
  let x ← getF a .RX
  let y ← getF a .RY
  pure ⟨x, y⟩

/-- Assigns to `s.Rpoints[idx]`, rangeproof.go:67, 76, 96. -/
def setR (a : Nat) (p : Point) : T Unit := do
  setF a .RX p.X
  setF a .RY p.Y

/-- `s.Bpoints[idx]`, rangeproof.go:97, 220, 223. -/
def getB (a : Nat) : T Point := do
  let x ← getF a .BX
  let y ← getF a .BY
  pure ⟨x, y⟩

/-- Assigns to `s.Bpoints[idx]`, rangeproof.go:79, 137. -/
def setB (a : Nat) (p : Point) : T Unit := do
  setF a .BX p.X
  setF a .BY p.Y

/-- `proofGenA`, rangeproof.go:51-102. -/
def proofGenA (hash : Bytes → Bytes) (e : Env) (a idx : Nat) (bit : Bool) (rnd : BitRand) :
    T Unit :=
  if !bit then do
    let k ← draw rnd.k
    setF a .k k
    let k ← getF a .k
    let R ← mult e e.H k
    setR a R
  else do
    let v ← draw rnd.v
    setF a .v v
    let v ← getF a .v
    let R ← mult e e.H v
    setR a R
    let hp ← hpoint e idx
    let R ← getR a
    let B ← curveAdd e hp R
    setB a B
    let k ← draw rnd.k
    setF a .k k
    let k ← getF a .k
    let temp ← mult e e.H k
    let ei ← hashMod hash e temp
    let ei ← bytesOf ei
    let B ← getB a
    let R ← scalarMult e B ei
    setR a R

/-- `proofGenB`, rangeproof.go:105-151. -/
def proofGenB (hash : Bytes → Bytes) (e : Env) (a idx : Nat) (bit : Bool) (e0 : Ptr)
    (rnd : BitRand) : T Unit :=
  if !bit then do
    let j ← draw rnd.j
    let inv ← genInverse hash e idx e0 j
    let k ← getF a .k
    let v ← fresh mulF inv k
    setF a .v v
    let R ← getR a
    let B ← mult e R inv
    setB a B
    let k ← getF a .k
    let t ← fresh mulF e0 inv
    let t ← fresh mulF k t
    let k ← into addF j j t
    setF a .k k
  else do
    let k ← getF a .k
    let v ← getF a .v
    let t ← fresh mulF e0 v
    let k ← fresh addF k t
    setF a .k k

/-- What the goroutine of a `go` statement does, rangeproof.go:51-102, 105-151, 239-257.  The result is
what `verifyGen` sends (rangeproof.go:256-259); the others have none. -/
def Job.body (hash : Bytes → Bytes) (e : Env) : Job → T Point
  | .genA _ a idx bit rnd => do
    proofGenA hash e a idx bit rnd
    pure nilP
  | .genB _ a idx bit e0 rnd => do
    proofGenB hash e a idx bit e0 rnd
    pure nilP
  | .verify _ idx proofE rpt => verifyGen hash e idx proofE rpt

/-- The slices of `proverInternalData`, rangeproof.go:172-177. -/
def mkSlots : Nat → T (List Nat)
  | 0 => pure []
  | n + 1 => do
    let a ← (.mkSlot .ret : T Nat)
    let as ← mkSlots n
    pure (a :: as)

/-- rangeproof.go:185-188: the bit is read from `value` each time. -/
def goA (w : Nat) (value : Ptr) (rnd : Nat → BitRand) : List (Nat × Nat) → T Unit
  | [] => pure ()
  | (a, i) :: l => do
    let v ← load value
    .go (.genA w a i (bitOf v i) (rnd i)) (goA w value rnd l)

/-- rangeproof.go:208-212. -/
def goB (w : Nat) (value e0 : Ptr) (rnd : Nat → BitRand) : List (Nat × Nat) → T Unit
  | [] => pure ()
  | (a, i) :: l => do
    let v ← load value
    .go (.genB w a i (bitOf v i) e0 (rnd i)) (goB w value e0 rnd l)

/-- rangeproof.go:193-196. -/
def writeRs : List Nat → T (List Bytes)
  | [] => pure []
  | a :: as => do
    let R ← getR a
    let b ← pointBytes R
    let bs ← writeRs as
    pure (b :: bs)

/-- rangeproof.go:215-225: the tuples and the aggregate. -/
def collect (e : Env) (vTotal : Ptr) : List Nat → Point → T (Point × List RangeTuple)
  | [], agg => pure (agg, [])
  | a :: as, agg => do
    let v ← getF a .v
    let _ ← into addF vTotal vTotal v
    let B ← getB a
    let agg ← add e agg B
    let C ← getB a
    let S ← getF a .k
    let r ← collect e vTotal as agg
    pure (r.1, ⟨C, S⟩ :: r.2)

/-- rangeproof.go:172-230 for `n` bits, with goroutines. -/
def proveRangePar (hash : Bytes → Bytes) (e : Env) (n : Nat) (value : Ptr) (rnd : Nat → BitRand) :
    T (Option Range × Ptr × Option Err) := do
  let as ← mkSlots n
  let vTotal ← alloc 0
  let w ← (.mkWg .ret : T Nat)
  (.add w n (.ret ()) : T Unit)
  goA w value rnd as.zipIdx
  (.wait w (.ret ()) : T Unit)
  let bs ← writeRs as
  let e0 ← alloc (setBytes (hash bs.flatten))
  let e0 ← into modF e0 e0 e.N
  let x ← alloc 0
  let y ← alloc 0
  (.add w n (.ret ()) : T Unit)
  goB w value e0 rnd as.zipIdx
  (.wait w (.ret ()) : T Unit)
  let r ← collect e vTotal as ⟨x, y⟩
  pure (some ⟨r.1, e0, r.2⟩, vTotal, none)

/-- `NewRangeProof`, rangeproof.go:154-231, with goroutines. -/
def newRangeProofPar (hash : Bytes → Bytes) (e : Env) (value : Ptr) (rnd : Nat → BitRand) :
    T (Option Range × Ptr × Option Err) := do
  let v ← load value
  let z ← load e.BigZero
  if v > 1099511627776 then pure (none, none, some "val too big")
  else if v < z then pure (none, none, some "out of range")
  else proveRangePar hash e proofSize value rnd

/-- rangeproof.go:277-289: `none` after the last tuple, otherwise the answer at a nil entry.
Simplification: the two texts for nil entries are one. -/
def goVerify (c : Nat) (proofE : Ptr) : List (RangeTuple × Nat) → T (Option (Bool × Option Err))
  | [] => pure none
  | (t, i) :: l =>
    if t.C.X.isNone || t.S.isNone then pure (some (reject "entry has nil point or scalar"))
    else .go (.verify c i proofE t) (goVerify c proofE l)

/-- rangeproof.go:291-300.  `Rpoints` is a local variable. -/
def receive (e : Env) (c : Nat) : List RangeTuple → Point → List Point → T (Point × List Point)
  | [], total, Rs => pure (total, Rs)
  | t :: ts, total, Rs => do
    let m ← (.recv c .ret : T (Nat × Point))
    let total ← add e total t.C
    receive e c ts total (Rs.set m.1 m.2)

/-- rangeproof.go:302-321. -/
def answer (hash : Bytes → Bytes) (pr : Range) (comm : Point) (Rs : List Point) (total : Point) :
    M (Bool × Option Err) := do
  let bs ← Rs.mapM pointBytes
  let e0 ← alloc (setBytes (hash bs.flatten))
  let eq ← cmpEq pr.ProofE e0
  if !eq then pure (reject "calculatedE0 does not match")
  else do
    let ok ← equal total pr.ProofAggregate
    if !ok then pure (reject "ProofAggregate does not match totalPoint")
    else do
      let ok ← equal comm total
      if !ok then pure (reject "ProofAggregate does not match commitment")
      else pure accept

/-- `RangeProof.Verify`, rangeproof.go:262-322, with goroutines. -/
def rangeVerifyPar (hash : Bytes → Bytes) (e : Env) (proof : Option Range) (comm : Point) :
    T (Bool × Option Err) :=
  match proof with
  | none => pure (reject "passed proof is nil")
  | some pr => do
    let x ← alloc 0
    let y ← alloc 0
    let c ← (.mkChan .ret : T Nat)
    let r ← goVerify c pr.ProofE pr.ProofTuples.zipIdx
    match r with
    | some b => pure b
    | none => do
      let r ← receive e c pr.ProofTuples ⟨x, y⟩ (pr.ProofTuples.map fun _ => nilP)
      answer hash pr comm r.2 r.1

/-- A call of an exported function by a goroutine; each constructor of `Call` cites its function, for
example rangeproof.go:154-231. -/
def callPar (hash : Bytes → Bytes) (e : Env) : Call → T Res
  | .newRange value rnd => do
    let r ← newRangeProofPar hash e value rnd
    pure (.range r)
  | .verifyRange pr comm => do
    let r ← rangeVerifyPar hash e pr comm
    pure (.verdict r)
  | c => (runCall hash e c).lift

/-! ## The machine -/

/-- What a goroutine of a client does: it makes numbers, looks at them and calls exported functions, for
example crypto.go:86-110; what it does next may depend on all it has seen. -/
inductive Prog where
  | stop
  | make (x : Int) (k : Ptr → Prog)
  | look (p : Ptr) (k : Int → Prog)
  | call (c : Call) (k : Res → Prog)

/-- A wait group with its counter (rangeproof.go:183), or a channel with its buffer
(rangeproof.go:275). -/
inductive Sync where
  | wg (n : Nat)
  | chan (buf : List (Nat × Point))

/-- Where a goroutine signals its end: `wg.Done()` (rangeproof.go:54, 108) or a send
(rangeproof.go:259). -/
inductive Dest where
  | wg (w : Nat)
  | chan (c idx : Nat)

/-- rangeproof.go:54, 108, 259. -/
def Job.dest : Job → Dest
  | .genA w _ _ _ _ => .wg w
  | .genB w _ _ _ _ _ => .wg w
  | .verify c idx _ _ => .chan c idx

/-- A goroutine, rangeproof.go:187, 210, 288, or one of the client. -/
inductive Thread where
  /-- not started -/
  | unused
  /-- of the client, outside the library; the calls that have returned, with their results -/
  | client (log : List (Call × Res)) (p : Prog)
  /-- of the client, inside a call -/
  | call (log : List (Call × Res)) (c : Call) (x : T Res) (k : Res → Prog)
  /-- started by a `go` statement -/
  | worker (j : Job) (x : T Point)
  /-- after `wg.Done()` or the send -/
  | ended (j : Job) (p : Point)
  /-- a panic -/
  | panicked

/-- All goroutines share the numbers, the variables, the wait groups and the channels (a Go semantics
definition; for example rangeproof.go:172-189). -/
structure Shared where
  mem : Cells
  slots : Nat → Option Slot
  sync : Nat → Option Sync

/-- The state of the process: what is shared, the goroutines, and the calls made so far (a Go semantics
definition; for example rangeproof.go:172-189). -/
structure State extends Shared where
  thr : Nat → Thread
  made : List Call

/-- One access of a goroutine; the job of a `go` statement is returned.  A new thing may be anywhere
where nothing is.  A Go semantics definition; for example rangeproof.go:172-230. -/
inductive T.Step {α : Type} : T α → Shared → T α → Shared → Option Job → Prop
  | load {a v} {k : Int → T α} {s : Shared} (h : s.mem a = some v) : Step (.load a k) s (k v) s none
  | store {a v} {k : T α} {s : Shared} (h : s.mem a ≠ none) :
      Step (.store a v k) s k { s with mem := put s.mem a v } none
  | alloc {v a} {k : Nat → T α} {s : Shared} (h : s.mem a = none) :
      Step (.alloc v k) s (k a) { s with mem := put s.mem a v } none
  | mkSlot {a} {k : Nat → T α} {s : Shared} (h : s.slots a = none) :
      Step (.mkSlot k) s (k a) { s with slots := Function.update s.slots a (some noSlot) } none
  | get {a f x} {k : Ptr → T α} {s : Shared} (h : s.slots a = some x) :
      Step (.get a f k) s (k (x.get f)) s none
  | set {a f p x} {k : T α} {s : Shared} (h : s.slots a = some x) :
      Step (.set a f p k) s k { s with slots := Function.update s.slots a (some (x.set p f)) } none
  | mkWg {w} {k : Nat → T α} {s : Shared} (h : s.sync w = none) :
      Step (.mkWg k) s (k w) { s with sync := Function.update s.sync w (some (.wg 0)) } none
  | add {w n m} {k : T α} {s : Shared} (h : s.sync w = some (.wg m)) :
      Step (.add w n k) s k { s with sync := Function.update s.sync w (some (.wg (m + n))) } none
  | wait {w} {k : T α} {s : Shared} (h : s.sync w = some (.wg 0)) : Step (.wait w k) s k s none
  | mkChan {c} {k : Nat → T α} {s : Shared} (h : s.sync c = none) :
      Step (.mkChan k) s (k c) { s with sync := Function.update s.sync c (some (.chan [])) } none
  | recv {c m buf} {k : Nat × Point → T α} {s : Shared} (h : s.sync c = some (.chan (m :: buf))) :
      Step (.recv c k) s (k m) { s with sync := Function.update s.sync c (some (.chan buf)) } none
  | go {j} {k : T α} {s : Shared} : Step (.go j k) s k s (some j)

/-- The signal at the end of a goroutine: `wg.Done()` (rangeproof.go:54, 108), or the send
(rangeproof.go:259), which needs room in the buffer. -/
inductive Signal : Dest → Point → Shared → Shared → Prop
  | done {w n p} {s : Shared} (h : s.sync w = some (.wg (n + 1))) :
      Signal (.wg w) p s { s with sync := Function.update s.sync w (some (.wg n)) }
  | send {c idx p buf} {s : Shared} (h : s.sync c = some (.chan buf)) (hl : buf.length < chanCap) :
      Signal (.chan c idx) p s { s with sync := Function.update s.sync c (some (.chan (buf ++ [(idx, p)]))) }

/-- One step of one goroutine, a Go semantics definition; for example rangeproof.go:172-230. -/
inductive State.Step (hash : Bytes → Bytes) (e : Env) : State → State → Prop
  | make {s : State} {i log x k a} (hi : s.thr i = .client log (.make x k)) (h : s.mem a = none) :
      Step hash e s { s with
        mem := put s.mem a x, thr := Function.update s.thr i (.client log (k (some a))) }
  | look {s : State} {i log a k v} (hi : s.thr i = .client log (.look (some a) k))
      (h : s.mem a = some v) :
      Step hash e s { s with thr := Function.update s.thr i (.client log (k v)) }
  | call {s : State} {i log c k} (hi : s.thr i = .client log (.call c k)) :
      Step hash e s { s with
        thr := Function.update s.thr i (.call log c (callPar hash e c) k), made := c :: s.made }
  | inside {s : State} {i log c x k x' sh} (hi : s.thr i = .call log c x k)
      (h : x.Step s.toShared x' sh none) :
      Step hash e s ⟨sh, Function.update s.thr i (.call log c x' k), s.made⟩
  | go {s : State} {i log c x k x' sh j t} (hi : s.thr i = .call log c x k)
      (h : x.Step s.toShared x' sh (some j)) (ht : s.thr t = .unused) :
      Step hash e s ⟨sh, Function.update (Function.update s.thr i (.call log c x' k)) t
        (.worker j (j.body hash e)), s.made⟩
  | returns {s : State} {i log c r k} (hi : s.thr i = .call log c (.ret r) k) :
      Step hash e s { s with thr := Function.update s.thr i (.client (log ++ [(c, r)]) (k r)) }
  | panics {s : State} {i log c k} (hi : s.thr i = .call log c .fail k) :
      Step hash e s { s with thr := Function.update s.thr i .panicked }
  | work {s : State} {i j x x' sh} (hi : s.thr i = .worker j x)
      (h : x.Step s.toShared x' sh none) :
      Step hash e s ⟨sh, Function.update s.thr i (.worker j x'), s.made⟩
  | signal {s : State} {i j p sh} (hi : s.thr i = .worker j (.ret p))
      (h : Signal j.dest p s.toShared sh) :
      Step hash e s ⟨sh, Function.update s.thr i (.ended j p), s.made⟩
  | workPanics {s : State} {i j} (hi : s.thr i = .worker j .fail) :
      Step hash e s { s with thr := Function.update s.thr i .panicked }

/-- A panic in any goroutine is the end of the process (a Go semantics definition; for example
rangeproof.go:80 panics if there are too few points). -/
def State.Crashed (s : State) : Prop := ∃ i, s.thr i = .panicked

/-- The start: `n` goroutines of the client, and memory `m` (a Go semantics definition; for example
zksigma.go:49-59 has set up the parameters). -/
def State.start (m : Cells) (n : Nat) (p : Nat → Prog) : State where
  mem := m
  slots := fun _ => none
  sync := fun _ => none
  thr := fun i => if i < n then .client [] (p i) else .unused
  made := []

/-- What any schedule can reach, a Go semantics definition; for example rangeproof.go:172-230. -/
inductive State.Reach (hash : Bytes → Bytes) (e : Env) (s₀ : State) : State → Prop
  | start : Reach hash e s₀ s₀
  | step {s s' : State} (h : Reach hash e s₀ s) (hc : ¬ s.Crashed) (hs : s.Step hash e s') :
      Reach hash e s₀ s'

/-- A place in memory that goroutines may access: a number, or a variable of `proverInternalData`
(rangeproof.go:42-47). -/
inductive Place where
  | num (a : Nat)
  | var (a : Nat) (f : Field)

/-- The access that comes next, and whether it is a write (specification; rangeproof.go:63 writes, 67
reads). -/
def T.access {α : Type} : T α → Option (Place × Bool)
  | .load a _ => some (.num a, false)
  | .store a _ _ => some (.num a, true)
  | .get a f _ => some (.var a f, false)
  | .set a f _ _ => some (.var a f, true)
  | _ => none

/-- The access that comes next, and whether it is a write (specification; rangeproof.go:63). -/
def Thread.access : Thread → Option (Place × Bool)
  | .client _ (.look (some a) _) => some (.num a, false)
  | .call _ _ x _ => x.access
  | .worker _ x => x.access
  | _ => none

/-- A data race: two goroutines are about to access the same place and one of them writes
(specification; rangeproof.go:63 and 67 in different goroutines would be one for the same index). -/
def State.Racy (s : State) : Prop :=
  ∃ i j l w w', i ≠ j ∧ (s.thr i).access = some (l, w) ∧ (s.thr j).access = some (l, w') ∧
    (w = true ∨ w' = true)

end Zk.Mem
