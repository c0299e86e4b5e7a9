import Verif.Range.Pool

/-!
# The provers with a random source that can fail

`rand.Int(rand.Reader, N)` returns `(nil, err)` if the source cannot be read.  The models in
`Verif.Proto.Model` and `Verif.Range.Model` take the numbers drawn; here a draw is an `Option`, `none`
for a failure.
-/

namespace Zk.Proto

open Zk

/-- Result of `rand.Int(rand.Reader, zkpcp.C.Params().N)`: a number, or nil and an error
(e.g. gspfs.go:53-56). -/
abbrev Draw := Option Int

/-- The error of the random source, returned as it is (e.g. gspfs.go:55). -/
def randErr : Err := "rand"

/-- `KeyGen`, crypto.go:54-63: a failed draw is a panic (line 58). -/
def keyGenD (C : Curve) (base : ECPoint) (sk : Draw) : Go (ECPoint × Int) :=
  match sk with
  | none => .panic
  | some sk => do
    let c ← coords base
    let q ← C.scalarMult c.1 c.2 (intBytes sk)
    pure (mkPt q, sk)

/-- `PedCommit`, crypto.go:220-227. -/
def pedCommitD (cp : Params) (value : Int) (r : Draw) : Go (ECPoint × Option Int × Option Err) :=
  match r with
  | none => .ok (Zero, none, some randErr)
  | some r => do
    let c ← pedCommitR cp (some value) (some r)
    pure (c, some r, none)

/-- `NewGSPFSProofBase`, gspfs.go:43-69. -/
def newGSPFSProofBaseD (hash : Bytes → Bytes) (cp : Params) (base A : ECPoint) (x : Int) (u : Draw) :
    Go (Option GSPFSProof × Option Err) := do
  let modValue := x % (cp.C.N : Int)
  let b ← coords base
  let q ← cp.C.scalarMult b.1 b.2 (intBytes modValue)
  let ok ← equal (mkPt q) A
  if !ok then pure (none, some "the point given is not xG")
  else match u with
  | none => pure (none, some randErr)
  | some u => do
    let uG ← mult cp base (some u)
    let c ← challengeOf hash cp [A, uG]
    let v := (u - c * modValue) % (cp.C.N : Int)
    pure (some ⟨base, uG, some v, some c⟩, none)

/-- `NewEquivalenceProof`, equivalence.go:38-79. -/
def newEquivalenceProofD (hash : Bytes → Bytes) (cp : Params)
    (Base1 Result1 Base2 Result2 : ECPoint) (x : Int) (u : Draw) :
    Go (Option EquivalenceProof × Option Err) := do
  let modValue := x % (cp.C.N : Int)
  let check1 ← mult cp Base1 (some modValue)
  let ok1 ← equal check1 Result1
  if !ok1 then pure (none, some "Base1 and Result1 are not related by x")
  else do
    let check2 ← mult cp Base2 (some modValue)
    let ok2 ← equal check2 Result2
    if !ok2 then pure (none, some "Base2 and Result2 are not related by x")
    else match u with
    | none => pure (none, some randErr)
    | some u => do
      let uBase1 ← mult cp Base1 (some u)
      let uBase2 ← mult cp Base2 (some u)
      let ch ← challengeOf hash cp [Base1, Result1, Base2, Result2, uBase1, uBase2]
      let hv := (u + ch * modValue) % (cp.C.N : Int)
      pure (some ⟨uBase1, uBase2, some ch, some hv⟩, none)

/-- `NewConsistencyProof`, consistency.go:45-88. -/
def newConsistencyProofD (hash : Bytes → Bytes) (cp : Params) (CM CMTok PubKey : ECPoint)
    (value randomness : Int) (u1 u2 : Draw) : Go (Option ConsistencyProof × Option Err) := do
  let modValue := value % (cp.C.N : Int)
  let cm ← pedCommitR cp (some value) (some randomness)
  let ok1 ← equal CM cm
  if !ok1 then pure (some emptyConsistency, some "value and randomVal does not produce CM")
  else do
    let tok ← mult cp PubKey (some randomness)
    let ok2 ← equal CMTok tok
    if !ok2 then pure (some emptyConsistency, some "Pubkey and randomVal does not produce CMTok")
    else match u1 with
    | none => pure (none, some randErr)
    | some u1 => match u2 with
      | none => pure (none, some randErr)
      | some u2 => do
        let T1 ← pedCommitR cp (some u1) (some u2)
        let T2 ← mult cp PubKey (some u2)
        let ch ← challengeOf hash cp [cp.G, cp.H, CM, CMTok, PubKey, T1, T2]
        let s1 := (u1 + modValue * ch) % (cp.C.N : Int)
        let s2 := (u2 + randomness * ch) % (cp.C.N : Int)
        pure (some ⟨T1, T2, some ch, some s1, some s2⟩, none)

/-- `NewDisjunctiveProof` from line 82 on, disjunctive.go:82-152, as in `proveDisjunctive`. -/
def proveDisjunctiveD (hash : Bytes → Bytes) (cp : Params)
    (Base1 Result1 Base2 Result2 : ECPoint)
    (ProveBase ProveResult OtherBase OtherResult : ECPoint) (x : Int) (u1 u2 u3 : Draw)
    (swap : Bool) : Go (Option DisjunctiveProof × Option Err) := do
  let modValue := x % (cp.C.N : Int)
  let q ← mult cp ProveBase (some x)
  let ok ← equal q ProveResult
  if !ok then
    pure (some emptyDisjunctive, some "Base and Result to be proved not related by x")
  else match u1 with
  | none => pure (none, some randErr)
  | some u1 => match u2 with
    | none => pure (none, some randErr)
    | some u2 => match u3 with
      | none => pure (none, some randErr)
      | some u3 => do
        let u3Neg := (-u3) % (cp.C.N : Int)
        let T1 ← mult cp ProveBase (some u1)
        let temp ← mult cp OtherBase (some u2)
        let temp2 ← mult cp OtherResult (some u3Neg)
        let T2 ← add cp temp temp2
        if !swap then do
          let ch ← challengeOf hash cp [Base1, Result1, Base2, Result2, T1, T2]
          let deltaC := (ch - u3) % (cp.C.N : Int)
          let s := u1 + deltaC * modValue
          pure (some ⟨T1, T2, some ch, some deltaC, some u3, some s, some u2⟩, none)
        else do
          let ch ← challengeOf hash cp [Base1, Result1, Base2, Result2, T2, T1]
          let deltaC := (ch - u3) % (cp.C.N : Int)
          let s := u1 + deltaC * modValue
          pure (some ⟨T2, T1, some ch, some u3, some deltaC, some u2, some s⟩, none)

/-- `NewDisjunctiveProof`, disjunctive.go:59-152. -/
def newDisjunctiveProofD (hash : Bytes → Bytes) (cp : Params)
    (Base1 Result1 Base2 Result2 : ECPoint) (x : Int) (option : Side) (u1 u2 u3 : Draw) :
    Go (Option DisjunctiveProof × Option Err) :=
  if option = Left then
    proveDisjunctiveD hash cp Base1 Result1 Base2 Result2 Base1 Result1 Base2 Result2 x u1 u2 u3 false
  else if option = Right then
    proveDisjunctiveD hash cp Base1 Result1 Base2 Result2 Base2 Result2 Base1 Result1 x u1 u2 u3 true
  else
    .ok (some emptyDisjunctive, some "invalid side provided")

/-- The eight draws of `NewABCProof`, abc.go:65-86 and disjunctive.go:85-96, in this order. -/
structure ABCDraws where
  u1 : Draw
  u2 : Draw
  u3 : Draw
  ub : Draw
  uc : Draw
  d1 : Draw
  d2 : Draw
  d3 : Draw
deriving DecidableEq, Repr

/-- `NewABCProof` after the draws of lines 65-86, abc.go:88-170. -/
def abcBodyD (hash : Bytes → Bytes) (cp : Params) (CM CMTok : ECPoint) (value sk : Int)
    (option : Side) (u1 u2 u3 ub uc : Int) (d1 d2 d3 : Draw) : Go (Option ABCProof × Option Err) := do
  let skH ← mult cp cp.H (some sk)
  let CToken ← mult cp skH (some uc)
  if option = Left ∧ value = 0 then do
    let B ← pedCommitR cp (some 0) (some ub)
    let C ← pedCommitR cp (some 0) (some uc)
    let D ← sub cp C cp.G
    let r ← newDisjunctiveProofD hash cp CM CMTok cp.H D sk Left d1 d2 d3
    if r.2.isSome then
      pure (some emptyABC, some "disjunctiveProve within ABCProve failed to generate")
    else finishABC hash cp CM CMTok value sk ⟨u1, u2, u3, ub, uc, 0, 0, 0⟩ B C CToken r.1
  else if option = Right ∧ value ≠ 0 then do
    let B ← pedCommitR cp (modInverse value cp.C.N) (some ub)
    let C ← pedCommitR cp (some 1) (some uc)
    let D ← sub cp C cp.G
    let r ← newDisjunctiveProofD hash cp CM CMTok cp.H D uc Right d1 d2 d3
    if r.2.isSome then
      pure (some emptyABC, some "disjunctiveProve within ABCProve failed to generate")
    else finishABC hash cp CM CMTok value sk ⟨u1, u2, u3, ub, uc, 0, 0, 0⟩ B C CToken r.1
  else pure (some emptyABC, some "invalid side-value pair passed")

/-- `NewABCProof`, abc.go:61-170. -/
def newABCProofD (hash : Bytes → Bytes) (cp : Params) (CM CMTok : ECPoint) (value sk : Int)
    (option : Side) (rnd : ABCDraws) : Go (Option ABCProof × Option Err) :=
  match rnd.u1 with
  | none => .ok (none, some randErr)
  | some u1 => match rnd.u2 with
    | none => .ok (none, some randErr)
    | some u2 => match rnd.u3 with
      | none => .ok (none, some randErr)
      | some u3 => match rnd.ub with
        | none => .ok (none, some randErr)
        | some ub => match rnd.uc with
          | none => .ok (none, some randErr)
          | some uc =>
            abcBodyD hash cp CM CMTok value sk option u1 u2 u3 ub uc rnd.d1 rnd.d2 rnd.d3

/-- `NewInequalityProof`, inequality.go:17-33. -/
def newInequalityProofD (hash : Bytes → Bytes) (cp : Params) (A B CMTokA CMTokB : ECPoint)
    (a b sk : Int) (rnd : ABCDraws) : Go (Option ABCProof × Option Err) :=
  if a = b then .ok (none, some "a and b should not be equal...")
  else do
    let CM ← sub cp A B
    let CMTok ← sub cp CMTokA CMTokB
    let r ← newABCProofD hash cp CM CMTok (a - b) sk Right rnd
    if r.2.isSome then pure (none, r.2)
    else pure (r.1, none)

/-! ## The range prover -/

/-- The draws for one bit, rangeproof.go:63, 71, 84, 112. -/
structure BitDraws where
  k : Draw
  v : Draw
  j : Draw
deriving DecidableEq, Repr

/-- `proofGenA`, rangeproof.go:51-103.  `rand.Int` stores nil into the slice before the error is looked
at (lines 63, 71, 84); then the goroutine ends and its result is dropped (rangeproof.go:186-187). -/
def progAD (hash : Bytes → Bytes) (cp : Params) (idx : Nat) (bit : Bool) (rnd : BitDraws) :
    List (Slot → Go Slot) :=
  if !bit then
    (fun s => .ok { s with k := rnd.k }) ::
    match rnd.k with
    | none => []
    | some _ =>
      [ fun s => do
          let R ← mult cp cp.H s.k
          pure { s with R := R } ]
  else
    (fun s => .ok { s with v := rnd.v }) ::
    match rnd.v with
    | none => []
    | some _ =>
      (fun s => do
        let R ← mult cp cp.H s.v
        pure { s with R := R }) ::
      (fun s => do
        let hp ← hpoint cp idx
        let B ← curveAdd cp hp s.R
        pure { s with B := B }) ::
      (fun s => .ok { s with k := rnd.k }) ::
      match rnd.k with
      | none => []
      | some _ =>
        [ fun s => do
            let temp ← mult cp cp.H s.k
            let h ← hashPoint hash temp
            let ei := h % (cp.C.N : Int)
            let b ← coords s.B
            let q ← cp.C.scalarMult b.1 b.2 (intBytes ei)
            pure { s with R := mkPt q } ]

/-- `proofGenB`, rangeproof.go:105-151.  If the draw at line 112 fails, the goroutine ends without
touching the data, and its result is dropped (rangeproof.go:209-211). -/
def progBD (hash : Bytes → Bytes) (cp : Params) (idx : Nat) (bit : Bool) (e0 : Int) (rnd : BitDraws) :
    List (Slot → Go Slot) :=
  if !bit then
    match rnd.j with
    | none => []
    | some j =>
      [ fun s => do
          let inv ← inverseEI hash cp idx e0 j
          let inv ← deref inv
          let k ← deref s.k
          pure { s with v := some (inv * k) },
        fun s => do
          let inv ← inverseEI hash cp idx e0 j
          let B ← mult cp s.R inv
          pure { s with B := B },
        fun s => do
          let inv ← inverseEI hash cp idx e0 j
          let inv ← deref inv
          let k ← deref s.k
          pure { s with k := some (j + k * (e0 * inv)) } ]
  else
    [ fun s => do
        let k ← deref s.k
        let v ← deref s.v
        pure { s with k := some (k + e0 * v) } ]

/-- `NewRangeProof` after its checks, rangeproof.go:169-231, under any schedule, as `ProveRuns`. -/
inductive ProveRunsD (hash : Bytes → Bytes) (cp : Params) (n : Nat) (value : Int)
    (rnd : Nat → BitDraws) : Go (Option RangeProof × Option Int × Option Err) → Prop
  | crashA :
      Pool.Reach (Pool.start n (fun _ => emptySlot)
        fun i => progAD hash cp i (bitOf value i) (rnd i)) .panic →
      ProveRunsD hash cp n value rnd .panic
  | crashHash (a : Pool Slot) :
      Pool.Reach (Pool.start n (fun _ => emptySlot)
        fun i => progAD hash cp i (bitOf value i) (rnd i)) (.ok a) → a.wg = 0 →
      hashAll hash ((List.range n).map fun i => (a.data i).R) = .panic →
      ProveRunsD hash cp n value rnd .panic
  | crashB (a : Pool Slot) (h : Int) :
      Pool.Reach (Pool.start n (fun _ => emptySlot)
        fun i => progAD hash cp i (bitOf value i) (rnd i)) (.ok a) → a.wg = 0 →
      hashAll hash ((List.range n).map fun i => (a.data i).R) = .ok h →
      Pool.Reach (Pool.start n a.data
        fun i => progBD hash cp i (bitOf value i) (h % (cp.C.N : Int)) (rnd i)) .panic →
      ProveRunsD hash cp n value rnd .panic
  | finish (a b : Pool Slot) (h : Int) :
      Pool.Reach (Pool.start n (fun _ => emptySlot)
        fun i => progAD hash cp i (bitOf value i) (rnd i)) (.ok a) → a.wg = 0 →
      hashAll hash ((List.range n).map fun i => (a.data i).R) = .ok h →
      Pool.Reach (Pool.start n a.data
        fun i => progBD hash cp i (bitOf value i) (h % (cp.C.N : Int)) (rnd i)) (.ok b) → b.wg = 0 →
      ProveRunsD hash cp n value rnd
        (finishRange cp (h % (cp.C.N : Int)) ((List.range n).map b.data))

/-- `NewRangeProof`, rangeproof.go:154-231, under any schedule of its goroutines. -/
def NewRangeProofRunsD (hash : Bytes → Bytes) (cp : Params) (value : Int) (rnd : Nat → BitDraws)
    (r : Go (Option RangeProof × Option Int × Option Err)) : Prop :=
  if value > 1099511627776 then r = .ok (none, none, some "val too big")
  else if value < 0 then r = .ok (none, none, some "out of range")
  else ProveRunsD hash cp proofSize value rnd r

end Zk.Proto
