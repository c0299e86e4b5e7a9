import Verif.Range.Model

/-!
# crypto.go and the provers and verifiers, on memory

In Go a `*big.Int` is a pointer, a point is a pair of pointers, and a method such as
`z.Mod(x, y)` writes to its receiver.  Here every `big.Int` is a cell of a store and the functions of
`Verif.Proto.Model` and `Verif.Range.Model` are written again with pointers: `new(big.Int)` makes a
cell, a method of `big.Int` writes to its receiver, points and proofs are copied by copying pointers.
Arguments may share cells with each other and with the parameters in any way.
-/

namespace Zk.Mem

open Zk Zk.Proto

/-- A `*big.Int`, for example crypto.go:71: nil or the number of a cell. -/
abbrev Ptr := Option Nat

/-- A computation that reads, makes and writes `big.Int`s, as the sequence of its accesses to memory; a
Go semantics definition used for all of the code, for example crypto.go:86-110. -/
inductive M (α : Type) where
  /-- The end, with the result. -/
  | ret (a : α)
  /-- A panic. -/
  | fail
  /-- Reads the number `a`. -/
  | load (a : Nat) (k : Int → M α)
  /-- Writes `v` to the number `a`. -/
  | store (a : Nat) (v : Int) (k : M α)
  /-- Makes a new number with the value `v`. -/
  | alloc (v : Int) (k : Nat → M α)

/-- One computation after another, a Go semantics definition; for example crypto.go:230-242. -/
def M.bind {α β : Type} : M α → (α → M β) → M β
  | .ret a, f => f a
  | .fail, _ => .fail
  | .load a k, f => .load a fun v => (k v).bind f
  | .store a v k, f => .store a v (k.bind f)
  | .alloc v k, f => .alloc v fun a => (k a).bind f

/-- A Go semantics definition; for example crypto.go:230-242. -/
instance : Monad M where
  pure := .ret
  bind := .bind

/-- What makes no access to memory: a value or a panic; for example crypto.go:99. -/
instance : MonadLift Go M where
  monadLift
    | .ok a => .ret a
    | .panic => .fail

/-- The `big.Int`s there are, in the order in which they were made; for example crypto.go:92. -/
abbrev Store := List Int

/-- A computation run without interruption, a Go semantics definition; for example crypto.go:86-110. -/
def run {α : Type} : M α → Store → Go (α × Store)
  | .ret a, s => .ok (a, s)
  | .fail, _ => .panic
  | .load a k, s => do
    let v ← deref s[a]?
    run (k v) s
  | .store a v k, s => if a < s.length then run k (s.set a v) else .panic
  | .alloc v k, s => run (k s.length) (s ++ [v])

/-- Reading a number through a pointer; nil panics.  For example crypto.go:152. -/
def load : Ptr → M Int
  | none => .fail
  | some a => .load a .ret

/-- `new(big.Int)` or `big.NewInt(v)`, for example crypto.go:92, 267. -/
def alloc (v : Int) : M Ptr := .alloc v fun a => .ret (some a)

/-- Writing to the receiver, for example consistency.go:81. -/
def store : Ptr → Int → M Unit
  | none, _ => .fail
  | some a, v => .store a v (.ret ())

/-- `z.Op(a, b)`: reads `a` and `b`, writes to `z` and returns `z`; for example consistency.go:81.
Simplification: `Mod` by 0 does not panic (the modulus is N or P). -/
def into (f : Int → Int → Int) (z a b : Ptr) : M Ptr := do
  let x ← load a
  let y ← load b
  store z (f x y)
  pure z

/-- `new(big.Int).Op(a, b)`, for example crypto.go:92. -/
def fresh (f : Int → Int → Int) (a b : Ptr) : M Ptr := do
  let z ← alloc 0
  into f z a b

/-- `big.Int.Mod`, the Euclidean remainder, crypto.go:92. -/
def modF (x y : Int) : Int := x % y
/-- `big.Int.Add`, abc.go:148. -/
def addF (x y : Int) : Int := x + y
/-- `big.Int.Sub`, gspfs.go:65. -/
def subF (x y : Int) : Int := x - y
/-- `big.Int.Mul`, gspfs.go:65. -/
def mulF (x y : Int) : Int := x * y

/-- `new(big.Int).Neg(a)`, crypto.go:146, disjunctive.go:99. -/
def freshNeg (a : Ptr) : M Ptr := do
  let z ← alloc 0
  let x ← load a
  store z (-x)
  pure z

/-- `new(big.Int).ModInverse(g, n)`, abc.go:109, 153, rangeproof.go:132: nil if there is none. -/
def freshInverse (g n : Ptr) : M Ptr := do
  let z ← alloc 0
  let x ← load g
  let m ← load n
  match Proto.modInverse x m.toNat with
  | some v => do
    store z v
    pure z
  | none => pure none

/-- `ECPoint`, crypto.go:70-72. -/
structure Point where
  X : Ptr
  Y : Ptr
deriving DecidableEq

/-- `ECPoint{nil, nil}`, crypto.go:89. -/
def nilP : Point := ⟨none, none⟩

/-- `ZKPCurveParams`, crypto.go:18-23, with the package variables `Zero` and `BigZero`
(crypto.go:66, 75, 266-271).  `ops` are the curve operations on values; the numbers N and P of the
curve parameters (btcec/btcec.go:37-38) are cells too. -/
structure Env where
  ops : Proto.Curve
  N : Ptr
  P : Ptr
  G : Point
  H : Point
  HPoints : List Point
  Zero : Point
  BigZero : Ptr

/-- `a.Cmp(b) == 0` (math/big): equal pointers are not dereferenced; crypto.go:79. -/
def cmpEq (a b : Ptr) : M Bool :=
  if a = b then pure true
  else do
    let x ← load a
    let y ← load b
    pure (decide (x = y))

/-- `ECPoint.Equal`, crypto.go:78-83. -/
def equal (p p2 : Point) : M Bool := do
  let a ← cmpEq p.X p2.X
  if a then do
    let b ← cmpEq p2.Y p2.Y
    if b then pure true else pure false
  else pure false

/-- Reading the coordinates of a point, btcec/btcec.go:78-84, 460-463. -/
def coords (p : Point) : M (Int × Int) := do
  let x ← load p.X
  let y ← load p.Y
  pure (x, y)

/-- The coordinates a curve operation returns are new numbers, btcec/btcec.go:105-108. -/
def newPoint (q : Int × Int) : M Point := do
  let x ← alloc q.1
  let y ← alloc q.2
  pure ⟨x, y⟩

/-- `x.Bytes()` of a number, crypto.go:99. -/
def bytesOf (p : Ptr) : M Bytes := do
  let x ← load p
  pure (intBytes x)

/-- `C.ScalarMult`, btcec/btcec.go:761-861, called at crypto.go:108.  Its results are made by
`fieldJacobianToBigAffine`. -/
def scalarMult (e : Env) (p : Point) (k : Bytes) : M Point := do
  let c ← coords p
  let q ← (e.ops.scalarMult c.1 c.2 k : Go _)
  newPoint q

/-- `C.ScalarBaseMult`, btcec/btcec.go:866-883, called at crypto.go:99. -/
def scalarBaseMult (e : Env) (k : Bytes) : M Point := do
  let q ← (e.ops.scalarBaseMult k : Go _)
  newPoint q

/-- `ScalarBaseMultH`, btcec/btcec.go:888-905, called at crypto.go:104. -/
def scalarBaseMultH (e : Env) (k : Bytes) : M Point := do
  let q ← (e.ops.scalarBaseMultH k : Go _)
  newPoint q

/-- `C.Add`, btcec/btcec.go:457-478: if one point is (0, 0), the pointers of the other are returned. -/
def curveAdd (e : Env) (p p2 : Point) : M Point := do
  let a ← coords p
  let b ← coords p2
  if a.1.sign = 0 ∧ a.2.sign = 0 then pure p2
  else if b.1.sign = 0 ∧ b.2.sign = 0 then pure p
  else do
    let q ← (e.ops.add a.1 a.2 b.1 b.2 : Go _)
    newPoint q

/-- `C.IsOnCurve`, btcec/btcec.go:114-122, called at crypto.go:117. -/
def isOnCurve (e : Env) (p : Point) : M Bool := do
  let c ← coords p
  (e.ops.isOnCurve c.1 c.2 : Go _)

/-- `Mult`, crypto.go:86-110. -/
def mult (e : Env) (p : Point) (s : Ptr) : M Point :=
  if p.X = none ∧ p.Y = none then pure nilP
  else do
    let modS ← fresh modF s e.N
    let isG ← equal p e.G
    if isG then do
      let k ← bytesOf modS
      scalarBaseMult e k
    else do
      let isH ← equal p e.H
      if isH then do
        let k ← bytesOf modS
        scalarBaseMultH e k
      else do
        let k ← bytesOf modS
        scalarMult e p k

/-- `a.Equal(Zero) && C.IsOnCurve(b.X, b.Y)`, crypto.go:117-119, 132-134. -/
def zeroAndOnCurve (e : Env) (a b : Point) : M Bool := do
  let z ← equal a e.Zero
  if z then isOnCurve e b else pure false

/-- `Add`, crypto.go:113-126. -/
def add (e : Env) (p p2 : Point) : M Point := do
  let c1 ← zeroAndOnCurve e p p2
  if c1 then pure p2
  else do
    let c2 ← zeroAndOnCurve e p2 p
    if c2 then pure p
    else curveAdd e p p2

/-- `Neg`, crypto.go:145-149. -/
def neg (e : Env) (p : Point) : M Point := do
  let negY ← freshNeg p.Y
  let modValue ← fresh modF negY e.P
  pure ⟨p.X, modValue⟩

/-- `Sub`, crypto.go:128-142. -/
def sub (e : Env) (p p2 : Point) : M Point := do
  let c1 ← zeroAndOnCurve e p p2
  if c1 then neg e p2
  else do
    let c2 ← zeroAndOnCurve e p2 p
    if c2 then pure p
    else do
      let temp ← neg e p2
      curveAdd e p temp

/-- `ECPoint.Bytes`, crypto.go:151-153. -/
def pointBytes (p : Point) : M Bytes := do
  let x ← bytesOf p.X
  let y ← bytesOf p.Y
  pure (x ++ y)

/-- `rand.Int(rand.Reader, N)` returns a new number; `u` is its value.  crypto.go:56. -/
def draw (u : Int) : M Ptr := alloc u

/-- `KeyGen`, crypto.go:54-63. -/
def keyGen (e : Env) (base : Point) (u : Int) : M (Point × Ptr) := do
  let sk ← draw u
  let k ← bytesOf sk
  let q ← scalarMult e base k
  pure (q, sk)

/-- `CommitR`, crypto.go:203-207. -/
def commitR (e : Env) (pk : Point) (r : Ptr) : M Point := do
  let newR ← fresh modF r e.N
  let k ← bytesOf newR
  scalarMult e pk k

/-- `VerifyR`, crypto.go:211-214. -/
def verifyR (e : Env) (rt pk : Point) (r : Ptr) : M Bool := do
  let p ← commitR e pk r
  equal p rt

/-- `PedCommitR`, crypto.go:230-242. -/
def pedCommitR (e : Env) (value randomValue : Ptr) : M Point := do
  let modValue ← fresh modF value e.N
  let modRandom ← fresh modF randomValue e.N
  let lhs ← mult e e.G modValue
  let rhs ← mult e e.H modRandom
  add e lhs rhs

/-- `PedCommit`, crypto.go:220-227. -/
def pedCommit (e : Env) (value : Ptr) (u : Int) : M (Point × Ptr) := do
  let r ← draw u
  let c ← pedCommitR e value r
  pure (c, r)

/-- `Open`, crypto.go:245-248. -/
def open' (e : Env) (value randomValue : Ptr) (pcomm : Point) : M Bool := do
  let c ← pedCommitR e value randomValue
  equal c pcomm

/-- `GenerateChallenge`, crypto.go:254-262. -/
def generateChallenge (hash : Bytes → Bytes) (e : Env) (arr : List Bytes) : M Ptr := do
  let c ← alloc (setBytes (hash arr.flatten))
  fresh modF c e.N

/-- `GenerateChallenge(zkpcp, p1.Bytes(), p2.Bytes(), ...)`, for example gspfs.go:62. -/
def challengeOf (hash : Bytes → Bytes) (e : Env) (ps : List Point) : M Ptr := do
  let bs ← ps.mapM pointBytes
  generateChallenge hash e bs

/-! ## GSPFS -/

/-- `GSPFSProof`, gspfs.go:27-32. -/
structure GSPFS where
  Base : Point
  RandCommit : Point
  HiddenValue : Ptr
  Challenge : Ptr

/-- `NewGSPFSProofBase`, gspfs.go:43-69. -/
def newGSPFSProofBase (hash : Bytes → Bytes) (e : Env) (base A : Point) (x : Ptr) (u : Int) :
    M (Option GSPFS × Option Err) := do
  let modValue ← fresh modF x e.N
  let k ← bytesOf modValue
  let C ← scalarMult e base k
  let ok ← equal C A
  if !ok then pure (none, some "the point given is not xG")
  else do
    let u ← draw u
    let uG ← mult e base u
    let c ← challengeOf hash e [A, uG]
    let t ← fresh mulF c modValue
    let v ← fresh subF u t
    let v ← into modF v v e.N
    pure (some ⟨base, uG, v, c⟩, none)

/-- `NewGSPFSProof`, gspfs.go:37-39. -/
def newGSPFSProof (hash : Bytes → Bytes) (e : Env) (A : Point) (x : Ptr) (u : Int) :
    M (Option GSPFS × Option Err) :=
  newGSPFSProofBase hash e e.G A x u

/-- `GSPFSProof.Verify`, gspfs.go:72-98. -/
def gspfsVerify (hash : Bytes → Bytes) (e : Env) (proof : Option GSPFS) (A : Point) :
    M (Bool × Option Err) :=
  match proof with
  | none => pure (reject "passed proof is nil")
  | some pr => do
    let testC ← challengeOf hash e [A, pr.RandCommit]
    let eq ← cmpEq testC pr.Challenge
    if !eq then pure (reject "challenge")
    else do
      let s ← mult e pr.Base pr.HiddenValue
      let c ← mult e A pr.Challenge
      let tot ← add e s c
      let ok ← equal pr.RandCommit tot
      if !ok then pure (reject "final value")
      else pure accept

/-! ## Equivalence -/

/-- `EquivalenceProof`, equivalence.go:29-34. -/
structure Equivalence where
  UG : Point
  UH : Point
  Challenge : Ptr
  HiddenValue : Ptr

/-- `NewEquivalenceProof`, equivalence.go:38-79. -/
def newEquivalenceProof (hash : Bytes → Bytes) (e : Env) (Base1 Result1 Base2 Result2 : Point)
    (x : Ptr) (u : Int) : M (Option Equivalence × Option Err) := do
  let modValue ← fresh modF x e.N
  let check1 ← mult e Base1 modValue
  let ok1 ← equal check1 Result1
  if !ok1 then pure (none, some "Base1 and Result1 are not related by x")
  else do
    let check2 ← mult e Base2 modValue
    let ok2 ← equal check2 Result2
    if !ok2 then pure (none, some "Base2 and Result2 are not related by x")
    else do
      let u ← draw u
      let uBase1 ← mult e Base1 u
      let uBase2 ← mult e Base2 u
      let ch ← challengeOf hash e [Base1, Result1, Base2, Result2, uBase1, uBase2]
      let t ← fresh mulF ch modValue
      let hv ← fresh addF u t
      let hv ← into modF hv hv e.N
      pure (some ⟨uBase1, uBase2, ch, hv⟩, none)

/-- `EquivalenceProof.Verify`, equivalence.go:84-122. -/
def equivalenceVerify (hash : Bytes → Bytes) (e : Env) (proof : Option Equivalence)
    (Base1 Result1 Base2 Result2 : Point) : M (Bool × Option Err) :=
  match proof with
  | none => pure (reject "passed proof is nil")
  | some pr => do
    let c ← challengeOf hash e [Base1, Result1, Base2, Result2, pr.UG, pr.UH]
    let eq ← cmpEq c pr.Challenge
    if !eq then pure (reject "challenge comparison failed")
    else do
      let sG ← mult e Base1 pr.HiddenValue
      let cG ← mult e Result1 pr.Challenge
      let test ← add e pr.UG cG
      let ok ← equal sG test
      if !ok then pure (reject "sG comparison did not pass")
      else do
        let sH ← mult e Base2 pr.HiddenValue
        let cH ← mult e Result2 pr.Challenge
        let test ← add e pr.UH cH
        let ok ← equal sH test
        if !ok then pure (reject "sH comparison did not pass")
        else pure accept

/-! ## Consistency -/

/-- `ConsistencyProof`, consistency.go:35-41. -/
structure Consistency where
  T1 : Point
  T2 : Point
  Challenge : Ptr
  S1 : Ptr
  S2 : Ptr

/-- `&ConsistencyProof{}`, consistency.go:54, 58. -/
def emptyConsistency : Consistency := ⟨nilP, nilP, none, none, none⟩

/-- `NewConsistencyProof`, consistency.go:45-88. -/
def newConsistencyProof (hash : Bytes → Bytes) (e : Env) (CM CMTok PubKey : Point)
    (value randomness : Ptr) (u1 u2 : Int) : M (Option Consistency × Option Err) := do
  let modValue ← fresh modF value e.N
  let cm ← pedCommitR e value randomness
  let ok1 ← equal CM cm
  if !ok1 then pure (some emptyConsistency, some "value and randomVal does not produce CM")
  else do
    let tok ← mult e PubKey randomness
    let ok2 ← equal CMTok tok
    if !ok2 then pure (some emptyConsistency, some "Pubkey and randomVal does not produce CMTok")
    else do
      let u1 ← draw u1
      let u2 ← draw u2
      let T1 ← pedCommitR e u1 u2
      let T2 ← mult e PubKey u2
      let ch ← challengeOf hash e [e.G, e.H, CM, CMTok, PubKey, T1, T2]
      let t1 ← fresh mulF modValue ch
      let s1 ← fresh addF u1 t1
      let t2 ← fresh mulF randomness ch
      let s2 ← fresh addF u2 t2
      let _ ← into modF s1 s1 e.N
      let _ ← into modF s2 s2 e.N
      pure (some ⟨T1, T2, ch, s1, s2⟩, none)

/-- `ConsistencyProof.Verify`, consistency.go:91-133. -/
def consistencyVerify (hash : Bytes → Bytes) (e : Env) (proof : Option Consistency)
    (CM CMTok PubKey : Point) : M (Bool × Option Err) :=
  match proof with
  | none => pure (reject "passed proof is nil")
  | some pr => do
    let ch ← challengeOf hash e [e.G, e.H, CM, CMTok, PubKey, pr.T1, pr.T2]
    let eq ← cmpEq ch pr.Challenge
    if !eq then pure (reject "c comparison failed")
    else do
      let lhs ← pedCommitR e pr.S1 pr.S2
      let temp1 ← mult e CM ch
      let rhs ← add e pr.T1 temp1
      let ok ← equal lhs rhs
      if !ok then pure (reject "CM check is failing")
      else do
        let lhs ← mult e PubKey pr.S2
        let temp1 ← mult e CMTok ch
        let rhs ← add e pr.T2 temp1
        let ok ← equal lhs rhs
        if !ok then pure (reject "CMTok check is failing")
        else pure accept

/-! ## Disjunctive -/

/-- `DisjunctiveProof`, disjunctive.go:45-53. -/
structure Disjunctive where
  T1 : Point
  T2 : Point
  C : Ptr
  C1 : Ptr
  C2 : Ptr
  S1 : Ptr
  S2 : Ptr

/-- `&DisjunctiveProof{}`, disjunctive.go:79, 83. -/
def emptyDisjunctive : Disjunctive := ⟨nilP, nilP, none, none, none, none, none⟩

/-- disjunctive.go:82-152, after the choice of side. -/
def proveDisjunctive (hash : Bytes → Bytes) (e : Env) (Base1 Result1 Base2 Result2 : Point)
    (ProveBase ProveResult OtherBase OtherResult : Point) (x modValue : Ptr) (u1 u2 u3 : Int)
    (swap : Bool) : M (Option Disjunctive × Option Err) := do
  let q ← mult e ProveBase x
  let ok ← equal q ProveResult
  if !ok then
    pure (some emptyDisjunctive, some "Base and Result to be proved not related by x")
  else do
    let u1 ← draw u1
    let u2 ← draw u2
    let u3 ← draw u3
    let u3Neg ← freshNeg u3
    let _ ← into modF u3Neg u3Neg e.N
    let T1 ← mult e ProveBase u1
    let temp ← mult e OtherBase u2
    let temp2 ← mult e OtherResult u3Neg
    let T2 ← add e temp temp2
    if !swap then do
      let ch ← challengeOf hash e [Base1, Result1, Base2, Result2, T1, T2]
      let deltaC ← fresh subF ch u3
      let _ ← into modF deltaC deltaC e.N
      let t ← fresh mulF deltaC modValue
      let s ← fresh addF u1 t
      pure (some ⟨T1, T2, ch, deltaC, u3, s, u2⟩, none)
    else do
      let ch ← challengeOf hash e [Base1, Result1, Base2, Result2, T2, T1]
      let deltaC ← fresh subF ch u3
      let _ ← into modF deltaC deltaC e.N
      let t ← fresh mulF deltaC modValue
      let s ← fresh addF u1 t
      pure (some ⟨T2, T1, ch, u3, deltaC, u2, s⟩, none)

/-- `NewDisjunctiveProof`, disjunctive.go:59-152. -/
def newDisjunctiveProof (hash : Bytes → Bytes) (e : Env) (Base1 Result1 Base2 Result2 : Point)
    (x : Ptr) (option : Side) (u1 u2 u3 : Int) : M (Option Disjunctive × Option Err) := do
  let modValue ← fresh modF x e.N
  if option = Left then
    proveDisjunctive hash e Base1 Result1 Base2 Result2 Base1 Result1 Base2 Result2 x modValue
      u1 u2 u3 false
  else if option = Right then
    proveDisjunctive hash e Base1 Result1 Base2 Result2 Base2 Result2 Base1 Result1 x modValue
      u1 u2 u3 true
  else pure (some emptyDisjunctive, some "invalid side provided")

/-- `DisjunctiveProof.Verify`, disjunctive.go:155-204. -/
def disjunctiveVerify (hash : Bytes → Bytes) (e : Env) (proof : Option Disjunctive)
    (Base1 Result1 Base2 Result2 : Point) : M (Bool × Option Err) :=
  match proof with
  | none => pure (reject "passed proof is nil")
  | some pr => do
    let checkC ← challengeOf hash e [Base1, Result1, Base2, Result2, pr.T1, pr.T2]
    let eq ← cmpEq checkC pr.C
    if !eq then pure (reject "checkC does not agree with proofC")
    else do
      let totalC ← fresh addF pr.C1 pr.C2
      let _ ← into modF totalC totalC e.N
      let eq2 ← cmpEq totalC pr.C
      if !eq2 then pure (reject "totalC does not agree with proofC")
      else do
        let c1A ← mult e Result1 pr.C1
        let checks1G ← add e pr.T1 c1A
        let s1G ← mult e Base1 pr.S1
        let ok ← equal checks1G s1G
        if !ok then pure (reject "s1G not equal to T1 + c1A")
        else do
          let c2A ← mult e Result2 pr.C2
          let checks2G ← add e c2A pr.T2
          let s2G ← mult e Base2 pr.S2
          let ok ← equal checks2G s2G
          if !ok then pure (reject "s2G not equal to T2 + c2B")
          else pure accept

/-! ## ABC and inequality -/

/-- `ABCProof`, abc.go:44-55. -/
structure ABC where
  B : Point
  C : Point
  T1 : Point
  T2 : Point
  Challenge : Ptr
  j : Ptr
  k : Ptr
  l : Ptr
  CToken : Point
  disjuncAC : Option Disjunctive

/-- `&ABCProof{}`, abc.go:117, 121. -/
def emptyABC : ABC := ⟨nilP, nilP, nilP, nilP, none, none, none, none, nilP, none⟩

/-- The cells of the numbers drawn by `NewABCProof`, abc.go:65-86. -/
structure ABCDraws where
  u1 : Ptr
  u2 : Ptr
  u3 : Ptr
  ub : Ptr
  uc : Ptr

/-- abc.go:124-169, after the nested proof has been made. -/
def finishABC (hash : Bytes → Bytes) (e : Env) (CM CMTok : Point) (value sk : Ptr)
    (d : ABCDraws) (B C CToken : Point) (dj : Option Disjunctive) : M (Option ABC × Option Err) := do
  let u1G ← mult e e.G d.u1
  let u2Ta ← mult e CMTok d.u2
  let T1 ← add e u1G u2Ta
  let u1B ← mult e B d.u1
  let u3H ← mult e e.H d.u3
  let T2 ← add e u1B u3H
  let ch ← challengeOf hash e [e.G, e.H, CM, CMTok, B, C, T1, T2]
  let t ← fresh mulF value ch
  let j ← fresh addF d.u1 t
  let j ← fresh modF j e.N
  let isk ← freshInverse sk e.N
  let t ← fresh mulF isk ch
  let k ← fresh addF d.u2 t
  let k ← fresh modF k e.N
  let t ← fresh mulF value d.ub
  let temp1 ← fresh subF d.uc t
  let t ← fresh mulF temp1 ch
  let l ← fresh addF d.u3 t
  pure (some ⟨B, C, T1, T2, ch, j, k, l, CToken, dj⟩, none)

/-- `NewABCProof`, abc.go:61-170.  Simplification: `value` is read whatever the side. -/
def newABCProof (hash : Bytes → Bytes) (e : Env) (CM CMTok : Point) (value sk : Ptr)
    (option : Side) (rnd : ABCRand) : M (Option ABC × Option Err) := do
  let u1 ← draw rnd.u1
  let u2 ← draw rnd.u2
  let u3 ← draw rnd.u3
  let ub ← draw rnd.ub
  let uc ← draw rnd.uc
  let skH ← mult e e.H sk
  let CToken ← mult e skH uc
  let v ← load value
  let z ← load e.BigZero
  if option = Left ∧ v = z then do
    let zero ← alloc 0
    let B ← pedCommitR e zero ub
    let zero' ← alloc 0
    let C ← pedCommitR e zero' uc
    let D ← sub e C e.G
    let r ← newDisjunctiveProof hash e CM CMTok e.H D sk Left rnd.d1 rnd.d2 rnd.d3
    if r.2.isSome then
      pure (some emptyABC, some "disjunctiveProve within ABCProve failed to generate")
    else finishABC hash e CM CMTok value sk ⟨u1, u2, u3, ub, uc⟩ B C CToken r.1
  else if option = Right ∧ v ≠ z then do
    let inv ← freshInverse value e.N
    let B ← pedCommitR e inv ub
    let one ← alloc 1
    let C ← pedCommitR e one uc
    let D ← sub e C e.G
    let r ← newDisjunctiveProof hash e CM CMTok e.H D uc Right rnd.d1 rnd.d2 rnd.d3
    if r.2.isSome then
      pure (some emptyABC, some "disjunctiveProve within ABCProve failed to generate")
    else finishABC hash e CM CMTok value sk ⟨u1, u2, u3, ub, uc⟩ B C CToken r.1
  else pure (some emptyABC, some "invalid side-value pair passed")

/-- `ABCProof.Verify`, abc.go:173-222. -/
def abcVerify (hash : Bytes → Bytes) (e : Env) (proof : Option ABC) (CM CMTok : Point) :
    M (Bool × Option Err) := do
  let pr ← (deref proof : Go _)
  let D ← sub e pr.C e.G
  let st ← disjunctiveVerify hash e pr.disjuncAC CM CMTok e.H D
  if st.2.isSome then pure (reject "ABCProof for disjuncAC is false or not generated properly")
  else do
    let ch ← challengeOf hash e [e.G, e.H, CM, CMTok, pr.B, pr.C, pr.T1, pr.T2]
    let eq ← cmpEq ch pr.Challenge
    if !eq then pure (reject "proof contains incorrect challenge")
    else do
      let chalA ← mult e CM ch
      let lhs1 ← add e chalA pr.T1
      let jG ← mult e e.G pr.j
      let kCMTok ← mult e CMTok pr.k
      let rhs1 ← add e jG kCMTok
      let ok ← equal lhs1 rhs1
      if !ok then pure (reject "cCM + T1 != jG + kCMTok")
      else do
        let chalC ← mult e pr.C ch
        let lhs2 ← add e chalC pr.T2
        let jB ← mult e pr.B pr.j
        let lH ← mult e e.H pr.l
        let rhs2 ← add e jB lH
        let ok ← equal lhs2 rhs2
        if !ok then pure (reject "cC + T2 != jB + lH")
        else pure accept

/-- `NewInequalityProof`, inequality.go:14-34. -/
def newInequalityProof (hash : Bytes → Bytes) (e : Env) (A B CMTokA CMTokB : Point)
    (a b sk : Ptr) (rnd : ABCRand) : M (Option ABC × Option Err) := do
  let same ← cmpEq a b
  if same then pure (none, some "a and b should not be equal...")
  else do
    let value ← fresh subF a b
    let CM ← sub e A B
    let CMTok ← sub e CMTokA CMTokB
    let r ← newABCProof hash e CM CMTok value sk Right rnd
    if r.2.isSome then pure (none, r.2)
    else pure (r.1, none)

/-- `InequalityProof.Verify`, inequality.go:37-43. -/
def inequalityVerify (hash : Bytes → Bytes) (e : Env) (proof : Option ABC) (CM CMTok : Point) :
    M (Bool × Option Err) :=
  match proof with
  | none => pure (reject "passed proof is nil")
  | some pr => abcVerify hash e (some pr) CM CMTok

/-! ## Range -/

/-- `rangeProofTuple`, rangeproof.go:20-23. -/
structure RangeTuple where
  C : Point
  S : Ptr

/-- `RangeProof`, rangeproof.go:36-40. -/
structure Range where
  ProofAggregate : Point
  ProofE : Ptr
  ProofTuples : List RangeTuple

/-- `proverInternalData` at one index, rangeproof.go:42-47. -/
structure Slot where
  R : Point
  B : Point
  k : Ptr
  v : Ptr

/-- `new(big.Int).Exp(big.NewInt(2), i, n)`, rangeproof.go:117. -/
def expF (i n : Int) : Int := 2 ^ i.toNat % n

/-- `new(big.Int).SetBytes(sha256(...))` and `ei.Mod(ei, N)`, rangeproof.go:93-95, 128-130. -/
def hashMod (hash : Bytes → Bytes) (e : Env) (p : Point) : M Ptr := do
  let b ← pointBytes p
  let ei ← alloc (setBytes (hash b))
  into modF ei ei e.N

/-- `zkpcp.HPoints[idx]`, rangeproof.go:80, 244. -/
def hpoint (e : Env) (idx : Nat) : M Point := (deref e.HPoints[idx]? : Go _)

/-- `proofGenA`, rangeproof.go:51-102: the slot is empty before. -/
def genA (hash : Bytes → Bytes) (e : Env) (idx : Nat) (bit : Bool) (rnd : BitRand) : M Slot :=
  if !bit then do
    let k ← draw rnd.k
    let R ← mult e e.H k
    pure ⟨R, nilP, k, none⟩
  else do
    let v ← draw rnd.v
    let R ← mult e e.H v
    let hp ← hpoint e idx
    let B ← curveAdd e hp R
    let k ← draw rnd.k
    let temp ← mult e e.H k
    let ei ← hashMod hash e temp
    let ei ← bytesOf ei
    let R ← scalarMult e B ei
    pure ⟨R, B, k, v⟩

/-- `inverseEI` of `proofGenB`, rangeproof.go:117-132; `j` is the number drawn at line 112. -/
def genInverse (hash : Bytes → Bytes) (e : Env) (idx : Nat) (e0 j : Ptr) : M Ptr := do
  let i ← alloc idx
  let m2 ← fresh expF i e.N
  let em2 ← fresh mulF e0 m2
  let em2 ← into modF em2 em2 e.N
  let em2 ← bytesOf em2
  let rhs ← scalarBaseMult e em2
  let lhs ← mult e e.H j
  let tot ← curveAdd e lhs rhs
  let ei ← hashMod hash e tot
  freshInverse ei e.N

/-- `proofGenB`, rangeproof.go:105-151, up to the last product of line 141.  The results are the new
slot, with `k` still the old number, and the number to be added to `j`. -/
def genBody (hash : Bytes → Bytes) (e : Env) (idx : Nat) (e0 j : Ptr) (s : Slot) :
    M (Slot × Ptr) := do
  let inv ← genInverse hash e idx e0 j
  let v ← fresh mulF inv s.k
  let B ← mult e s.R inv
  let t ← fresh mulF e0 inv
  let t ← fresh mulF s.k t
  pure (⟨s.R, B, s.k, v⟩, t)

/-- `proofGenB`, rangeproof.go:105-151: for a bit 0 the response is written to `j` itself
(lines 140-141). -/
def genB (hash : Bytes → Bytes) (e : Env) (idx : Nat) (bit : Bool) (e0 : Ptr) (rnd : BitRand)
    (s : Slot) : M Slot :=
  if !bit then do
    let j ← draw rnd.j
    let r ← genBody hash e idx e0 j s
    let k ← into addF j j r.2
    pure { r.1 with k := k }
  else do
    let t ← fresh mulF e0 s.v
    let k ← fresh addF s.k t
    pure { s with k := k }

/-- rangeproof.go:215-221: the total is added up in place, the aggregate is not. -/
def sumUp (e : Env) (vTotal : Ptr) : List Slot → Point → M Point
  | [], agg => pure agg
  | s :: ss, agg => do
    let _ ← into addF vTotal vTotal s.v
    let agg ← add e agg s.B
    sumUp e vTotal ss agg

/-- rangeproof.go:172-230 for `n` bits.  Simplification: the goroutines run one after the other (each
writes only to numbers it has made itself). -/
def proveRange (hash : Bytes → Bytes) (e : Env) (n : Nat) (value : Int) (rnd : Nat → BitRand) :
    M (Option Range × Ptr × Option Err) := do
  let vTotal ← alloc 0
  let slotsA ← (List.range n).mapM fun i => genA hash e i (bitOf value i) (rnd i)
  let bs ← slotsA.mapM fun s => pointBytes s.R
  let e0 ← alloc (setBytes (hash bs.flatten))
  let e0 ← into modF e0 e0 e.N
  let x ← alloc 0
  let y ← alloc 0
  let slotsB ← slotsA.zipIdx.mapM fun s => genB hash e s.2 (bitOf value s.2) e0 (rnd s.2) s.1
  let agg ← sumUp e vTotal slotsB ⟨x, y⟩
  pure (some ⟨agg, e0, slotsB.map fun s => ⟨s.B, s.k⟩⟩, vTotal, none)

/-- `NewRangeProof`, rangeproof.go:154-231. -/
def newRangeProof (hash : Bytes → Bytes) (e : Env) (value : Ptr) (rnd : Nat → BitRand) :
    M (Option Range × Ptr × Option Err) := do
  let v ← load value
  let z ← load e.BigZero
  if v > 1099511627776 then pure (none, none, some "val too big")
  else if v < z then pure (none, none, some "out of range")
  else proveRange hash e proofSize v rnd

/-- `verifyGen` up to the send, rangeproof.go:242-257. -/
def verifyGen (hash : Bytes → Bytes) (e : Env) (idx : Nat) (proofE : Ptr) (rpt : RangeTuple) :
    M Point := do
  let lhs ← mult e e.H rpt.S
  let hp ← hpoint e idx
  let nhp ← neg e hp
  let rhs2 ← add e rpt.C nhp
  let m ← mult e rhs2 proofE
  let rhsXYNeg ← neg e m
  let tot ← add e lhs rhsXYNeg
  let b ← pointBytes tot
  let e1 ← alloc (setBytes (hash b))
  mult e rpt.C e1

/-- The sum of the points of a proof, rangeproof.go:291-300. -/
def sumPoints (e : Env) : List RangeTuple → Point → M Point
  | [], total => pure total
  | t :: ts, total => do
    let total ← add e total t.C
    sumPoints e ts total

/-- `RangeProof.Verify`, rangeproof.go:262-322.  Simplifications: the goroutines run one after the
other; the two texts for nil entries are one. -/
def rangeVerify (hash : Bytes → Bytes) (e : Env) (proof : Option Range) (comm : Point) :
    M (Bool × Option Err) :=
  match proof with
  | none => pure (reject "passed proof is nil")
  | some pr =>
    if pr.ProofTuples.any (fun t => t.C.X.isNone || t.S.isNone) then
      pure (reject "entry has nil point or scalar")
    else do
      let x ← alloc 0
      let y ← alloc 0
      let Rs ← pr.ProofTuples.zipIdx.mapM fun t => verifyGen hash e t.2 pr.ProofE t.1
      let total ← sumPoints e pr.ProofTuples ⟨x, y⟩
      let bs ← Rs.mapM pointBytes
      let e0 ← alloc (setBytes (hash bs.flatten))
      let eq ← cmpEq pr.ProofE e0
      if !eq then pure (reject "calculatedE0 does not match")
      else do
        let ok ← equal total pr.ProofAggregate
        if !ok then pure (reject "ProofAggregate does not match totalPoint")
        else do
          let ok ← equal comm total
          if !ok then pure (reject "ProofAggregate does not match commitment")
          else pure accept

end Zk.Mem
