import Verif.Types

/-!
# Model of crypto.go and of the sigma protocols

The elliptic curve is a record of operations (`Curve`) on integer pairs, the way Go code sees
`elliptic.Curve`.  SHA-256 is a parameter `hash`.  Random numbers are arguments.
Witness scalars (`x`, `value`, `sk`, ...) are integers: provers with a nil witness are in
`NilWitness.lean`.  Fields of proofs and coordinates of points may be nil.
-/

namespace Zk.Proto

open Zk

/-- The operations of `elliptic.Curve` that zksigma uses (crypto.go:60, 99-139, 205,
gspfs.go:47, rangeproof.go:79-97, 124-128) and `ScalarBaseMultH` (crypto.go:104).  `P`, `N` are `Params().P`, `Params().N`.
Every operation may panic.  Simplification: the curve is always a `*btcec.KoblitzCurve`, so that the
type assertion in crypto.go:104 succeeds. -/
structure Curve where
  P : Nat
  N : Nat
  isOnCurve : Int → Int → Go Bool
  add : Int → Int → Int → Int → Go (Int × Int)
  scalarMult : Int → Int → Bytes → Go (Int × Int)
  scalarBaseMult : Bytes → Go (Int × Int)
  scalarBaseMultH : Bytes → Go (Int × Int)

/-- `ZKPCurveParams`, crypto.go:18-23. -/
structure Params where
  C : Curve
  G : ECPoint
  H : ECPoint
  HPoints : List ECPoint

/-- `a.Cmp(b) == 0` (math/big `Int.Cmp`): two identical pointers, nil included, compare as equal
without being dereferenced; otherwise a nil operand panics.  Used at crypto.go:79, gspfs.go:81,
equivalence.go:96, consistency.go:105, disjunctive.go:174, 181, abc.go:189. -/
def cmpEq : Option Int → Option Int → Go Bool
  | some a, some b => .ok (decide (a = b))
  | none, none => .ok true
  | _, _ => .panic

/-- `ECPoint.Equal`, crypto.go:78-83.  The second comparison is of `p2.Y` with itself, as in the
source. -/
def equal (p p2 : ECPoint) : Go Bool := do
  let a ← cmpEq p.X p2.X
  if a then do
    let b ← cmpEq p2.Y p2.Y
    if b then pure true else pure false
  else pure false

/-- Passing the coordinates of a point to a curve operation; each of them reads both integers first
(btcec/btcec.go:78-84 `bigAffineToField`, 457-466 `Sign`), so nil panics. -/
def coords (p : ECPoint) : Go (Int × Int) := do
  let x ← deref p.X
  let y ← deref p.Y
  pure (x, y)

/-- The pair returned by a curve operation as a point, for example crypto.go:99-100. -/
def mkPt (q : Int × Int) : ECPoint := pt q.1 q.2

/-- `Mult`, crypto.go:86-110.  `big.Int.Mod` is the Euclidean remainder. -/
def mult (cp : Params) (p : ECPoint) (s : Option Int) : Go ECPoint :=
  if p.X = none ∧ p.Y = none then .ok nilPoint
  else do
    let s ← deref s
    let modS := s % (cp.C.N : Int)
    let isG ← equal p cp.G
    if isG then do
      let q ← cp.C.scalarBaseMult (intBytes modS)
      pure (mkPt q)
    else do
      let isH ← equal p cp.H
      if isH then do
        let q ← cp.C.scalarBaseMultH (intBytes modS)
        pure (mkPt q)
      else do
        let c ← coords p
        let q ← cp.C.scalarMult c.1 c.2 (intBytes modS)
        pure (mkPt q)

/-- `a.Equal(Zero) && C.IsOnCurve(b.X, b.Y)`, crypto.go:117-119, 132-134. -/
def zeroAndOnCurve (cp : Params) (a b : ECPoint) : Go Bool := do
  let z ← equal a Zero
  if z then do
    let c ← coords b
    cp.C.isOnCurve c.1 c.2
  else pure false

/-- `C.Add` on points, crypto.go:123, 139, rangeproof.go:79-81. -/
def curveAdd (cp : Params) (p p2 : ECPoint) : Go ECPoint := do
  let a ← coords p
  let b ← coords p2
  let q ← cp.C.add a.1 a.2 b.1 b.2
  pure (mkPt q)

/-- `Add`, crypto.go:113-126. -/
def add (cp : Params) (p p2 : ECPoint) : Go ECPoint := do
  let c1 ← zeroAndOnCurve cp p p2
  if c1 then pure p2
  else do
    let c2 ← zeroAndOnCurve cp p2 p
    if c2 then pure p
    else curveAdd cp p p2

/-- `Neg`, crypto.go:145-149. -/
def neg (cp : Params) (p : ECPoint) : Go ECPoint := do
  let y ← deref p.Y
  pure ⟨p.X, some ((-y) % (cp.C.P : Int))⟩

/-- `Sub`, crypto.go:128-142. -/
def sub (cp : Params) (p p2 : ECPoint) : Go ECPoint := do
  let c1 ← zeroAndOnCurve cp p p2
  if c1 then neg cp p2
  else do
    let c2 ← zeroAndOnCurve cp p2 p
    if c2 then pure p
    else do
      let t ← neg cp p2
      curveAdd cp p t

/-- `ECPoint.Bytes`, crypto.go:151-153. -/
def pointBytes (p : ECPoint) : Go Bytes := do
  let x ← deref p.X
  let y ← deref p.Y
  pure (intBytes x ++ intBytes y)

/-- `KeyGen`, crypto.go:54-63, with `sk` the number drawn from [0, N). -/
def keyGen (C : Curve) (base : ECPoint) (sk : Int) : Go (ECPoint × Int) := do
  let c ← coords base
  let q ← C.scalarMult c.1 c.2 (intBytes sk)
  pure (mkPt q, sk)

/-- `CommitR`, crypto.go:203-207. -/
def commitR (cp : Params) (pk : ECPoint) (r : Int) : Go ECPoint := do
  let c ← coords pk
  let q ← cp.C.scalarMult c.1 c.2 (intBytes (r % (cp.C.N : Int)))
  pure (mkPt q)

/-- `VerifyR`, crypto.go:211-214. -/
def verifyR (cp : Params) (rt pk : ECPoint) (r : Int) : Go Bool := do
  let p ← commitR cp pk r
  equal p rt

/-- `PedCommitR`, crypto.go:230-242. -/
def pedCommitR (cp : Params) (value randomValue : Option Int) : Go ECPoint := do
  let v ← deref value
  let r ← deref randomValue
  let lhs ← mult cp cp.G (some (v % (cp.C.N : Int)))
  let rhs ← mult cp cp.H (some (r % (cp.C.N : Int)))
  add cp lhs rhs

/-- `PedCommit`, crypto.go:220-227, with `r` the number drawn from [0, N). -/
def pedCommit (cp : Params) (value : Int) (r : Int) : Go (ECPoint × Int) := do
  let c ← pedCommitR cp (some value) (some r)
  pure (c, r)

/-- `Open`, crypto.go:245-248. -/
def open' (cp : Params) (value randomValue : Int) (pcomm : ECPoint) : Go Bool := do
  let c ← pedCommitR cp (some value) (some randomValue)
  equal c pcomm

/-- `GenerateChallenge`, crypto.go:254-262.  Writing several slices to the hasher hashes their
concatenation. -/
def generateChallenge (hash : Bytes → Bytes) (cp : Params) (arr : List Bytes) : Int :=
  (setBytes (hash arr.flatten) : Int) % (cp.C.N : Int)

/-- `GenerateChallenge(zkpcp, p1.Bytes(), p2.Bytes(), ...)` as every prover and verifier calls it
(gspfs.go:62,79, equivalence.go:65,92, consistency.go:73,99, disjunctive.go:115,122,170,
abc.go:142,183). -/
def challengeOf (hash : Bytes → Bytes) (cp : Params) (ps : List ECPoint) : Go Int := do
  let bs ← ps.mapM pointBytes
  pure (generateChallenge hash cp bs)

/-- The `(false, &errorProof{...})` results of the verifiers, for example abc.go:180, 190, 206. -/
def reject (e : Err) : Bool × Option Err := (false, some e)

/-- The `(true, nil)` result of the verifiers, gspfs.go:97, equivalence.go:120, consistency.go:132,
disjunctive.go:203, abc.go:221, rangeproof.go:321. -/
def accept : Bool × Option Err := (true, none)

/-! ## GSPFS -/

/-- `NewGSPFSProofBase`, gspfs.go:43-69; `u` is the number drawn at gspfs.go:53. -/
def newGSPFSProofBase (hash : Bytes → Bytes) (cp : Params) (base A : ECPoint) (x u : Int) :
    Go (Option GSPFSProof × Option Err) := do
  let modValue := x % (cp.C.N : Int)
  let b ← coords base
  let q ← cp.C.scalarMult b.1 b.2 (intBytes modValue)
  let ok ← equal (mkPt q) A
  if !ok then pure (none, some "the point given is not xG")
  else do
    let uG ← mult cp base (some u)
    let c ← challengeOf hash cp [A, uG]
    let v := (u - c * modValue) % (cp.C.N : Int)
    pure (some ⟨base, uG, some v, some c⟩, none)

/-- `NewGSPFSProof`, gspfs.go:37-39. -/
def newGSPFSProof (hash : Bytes → Bytes) (cp : Params) (A : ECPoint) (x u : Int) :
    Go (Option GSPFSProof × Option Err) :=
  newGSPFSProofBase hash cp cp.G A x u

/-- `GSPFSProof.Verify`, gspfs.go:72-98. -/
def gspfsVerify (hash : Bytes → Bytes) (cp : Params) (proof : Option GSPFSProof) (A : ECPoint) :
    Go (Bool × Option Err) :=
  match proof with
  | none => .ok (reject "passed proof is nil")
  | some pr => do
    let testC ← challengeOf hash cp [A, pr.RandCommit]
    let eq ← cmpEq (some testC) pr.Challenge
    if !eq then pure (reject "challenge")
    else do
      let s ← mult cp pr.Base pr.HiddenValue
      let c ← mult cp A pr.Challenge
      let tot ← add cp s c
      let ok ← equal pr.RandCommit tot
      if !ok then pure (reject "final value")
      else pure accept

/-! ## Equivalence -/

/-- `NewEquivalenceProof`, equivalence.go:38-79; `u` is drawn at equivalence.go:54. -/
def newEquivalenceProof (hash : Bytes → Bytes) (cp : Params)
    (Base1 Result1 Base2 Result2 : ECPoint) (x u : Int) :
    Go (Option EquivalenceProof × Option Err) := do
  let modValue := x % (cp.C.N : Int)
  let check1 ← mult cp Base1 (some modValue)
  let ok1 ← equal check1 Result1
  if !ok1 then pure (none, some "Base1 and Result1 are not related by x")
  else do
    let check2 ← mult cp Base2 (some modValue)
    let ok2 ← equal check2 Result2
    if !ok2 then pure (none, some "Base2 and Result2 are not related by x")
    else do
      let uBase1 ← mult cp Base1 (some u)
      let uBase2 ← mult cp Base2 (some u)
      let ch ← challengeOf hash cp [Base1, Result1, Base2, Result2, uBase1, uBase2]
      let hv := (u + ch * modValue) % (cp.C.N : Int)
      pure (some ⟨uBase1, uBase2, some ch, some hv⟩, none)

/-- `EquivalenceProof.Verify`, equivalence.go:84-122. -/
def equivalenceVerify (hash : Bytes → Bytes) (cp : Params) (proof : Option EquivalenceProof)
    (Base1 Result1 Base2 Result2 : ECPoint) : Go (Bool × Option Err) :=
  match proof with
  | none => .ok (reject "passed proof is nil")
  | some pr => do
    let c ← challengeOf hash cp [Base1, Result1, Base2, Result2, pr.UG, pr.UH]
    let eq ← cmpEq (some c) pr.Challenge
    if !eq then pure (reject "challenge comparison failed")
    else do
      let sG ← mult cp Base1 pr.HiddenValue
      let cG ← mult cp Result1 pr.Challenge
      let test ← add cp pr.UG cG
      let ok ← equal sG test
      if !ok then pure (reject "sG comparison did not pass")
      else do
        let sH ← mult cp Base2 pr.HiddenValue
        let cH ← mult cp Result2 pr.Challenge
        let test ← add cp pr.UH cH
        let ok ← equal sH test
        if !ok then pure (reject "sH comparison did not pass")
        else pure accept

/-! ## Consistency -/

/-- The zero value `&ConsistencyProof{}`, consistency.go:54,58. -/
def emptyConsistency : ConsistencyProof := ⟨nilPoint, nilPoint, none, none, none⟩

/-- `NewConsistencyProof`, consistency.go:45-88; `u1`, `u2` are drawn at lines 61 and 65. -/
def newConsistencyProof (hash : Bytes → Bytes) (cp : Params) (CM CMTok PubKey : ECPoint)
    (value randomness u1 u2 : Int) : Go (Option ConsistencyProof × Option Err) := do
  let modValue := value % (cp.C.N : Int)
  let cm ← pedCommitR cp (some value) (some randomness)
  let ok1 ← equal CM cm
  if !ok1 then pure (some emptyConsistency, some "value and randomVal does not produce CM")
  else do
    let tok ← mult cp PubKey (some randomness)
    let ok2 ← equal CMTok tok
    if !ok2 then pure (some emptyConsistency, some "Pubkey and randomVal does not produce CMTok")
    else do
      let T1 ← pedCommitR cp (some u1) (some u2)
      let T2 ← mult cp PubKey (some u2)
      let ch ← challengeOf hash cp [cp.G, cp.H, CM, CMTok, PubKey, T1, T2]
      let s1 := (u1 + modValue * ch) % (cp.C.N : Int)
      let s2 := (u2 + randomness * ch) % (cp.C.N : Int)
      pure (some ⟨T1, T2, some ch, some s1, some s2⟩, none)

/-- `ConsistencyProof.Verify`, consistency.go:91-133. -/
def consistencyVerify (hash : Bytes → Bytes) (cp : Params) (proof : Option ConsistencyProof)
    (CM CMTok PubKey : ECPoint) : Go (Bool × Option Err) :=
  match proof with
  | none => .ok (reject "passed proof is nil")
  | some pr => do
    let ch ← challengeOf hash cp [cp.G, cp.H, CM, CMTok, PubKey, pr.T1, pr.T2]
    let eq ← cmpEq (some ch) pr.Challenge
    if !eq then pure (reject "c comparison failed")
    else do
      let lhs ← pedCommitR cp pr.S1 pr.S2
      let temp1 ← mult cp CM (some ch)
      let rhs ← add cp pr.T1 temp1
      let ok ← equal lhs rhs
      if !ok then pure (reject "CM check is failing")
      else do
        let lhs ← mult cp PubKey pr.S2
        let temp1 ← mult cp CMTok (some ch)
        let rhs ← add cp pr.T2 temp1
        let ok ← equal lhs rhs
        if !ok then pure (reject "CMTok check is failing")
        else pure accept

/-! ## Disjunctive -/

/-- The zero value `&DisjunctiveProof{}`, disjunctive.go:79,83. -/
def emptyDisjunctive : DisjunctiveProof := ⟨nilPoint, nilPoint, none, none, none, none, none⟩

/-- disjunctive.go:62, 82-152, after the choice of side.  `swap` is true for the right side; then the
roles of the two commitments are exchanged in the hash (lines 122-124) and in the result (144-151). -/
def proveDisjunctive (hash : Bytes → Bytes) (cp : Params)
    (Base1 Result1 Base2 Result2 : ECPoint)
    (ProveBase ProveResult OtherBase OtherResult : ECPoint) (x u1 u2 u3 : Int) (swap : Bool) :
    Go (Option DisjunctiveProof × Option Err) := do
  let modValue := x % (cp.C.N : Int)
  let q ← mult cp ProveBase (some x)
  let ok ← equal q ProveResult
  if !ok then
    pure (some emptyDisjunctive, some "Base and Result to be proved not related by x")
  else do
    let u3Neg := (-u3) % (cp.C.N : Int)
    let T1 ← mult cp ProveBase (some u1)
    let temp ← mult cp OtherBase (some u2)
    let temp2 ← mult cp OtherResult (some u3Neg)
    let T2 ← add cp temp temp2
    if !swap then do
      let ch ← challengeOf hash cp [Base1, Result1, Base2, Result2, T1, T2]
      let deltaC := (ch - u3) % (cp.C.N : Int)
      let s := u1 + deltaC * modValue
      pure (some ⟨T1, T2, some ch, some deltaC, some u3, some s, some u2⟩, none)
    else do
      let ch ← challengeOf hash cp [Base1, Result1, Base2, Result2, T2, T1]
      let deltaC := (ch - u3) % (cp.C.N : Int)
      let s := u1 + deltaC * modValue
      pure (some ⟨T2, T1, some ch, some u3, some deltaC, some u2, some s⟩, none)

/-- `NewDisjunctiveProof`, disjunctive.go:59-152; `u1 u2 u3` are drawn at lines 85-96. -/
def newDisjunctiveProof (hash : Bytes → Bytes) (cp : Params)
    (Base1 Result1 Base2 Result2 : ECPoint) (x : Int) (option : Side) (u1 u2 u3 : Int) :
    Go (Option DisjunctiveProof × Option Err) :=
  if option = Left then
    proveDisjunctive hash cp Base1 Result1 Base2 Result2 Base1 Result1 Base2 Result2 x u1 u2 u3 false
  else if option = Right then
    proveDisjunctive hash cp Base1 Result1 Base2 Result2 Base2 Result2 Base1 Result1 x u1 u2 u3 true
  else
    .ok (some emptyDisjunctive, some "invalid side provided")

/-- `DisjunctiveProof.Verify`, disjunctive.go:155-204. -/
def disjunctiveVerify (hash : Bytes → Bytes) (cp : Params) (proof : Option DisjunctiveProof)
    (Base1 Result1 Base2 Result2 : ECPoint) : Go (Bool × Option Err) :=
  match proof with
  | none => .ok (reject "passed proof is nil")
  | some pr => do
    let checkC ← challengeOf hash cp [Base1, Result1, Base2, Result2, pr.T1, pr.T2]
    let eq ← cmpEq (some checkC) pr.C
    if !eq then pure (reject "checkC does not agree with proofC")
    else do
      let C1 ← deref pr.C1
      let C2 ← deref pr.C2
      let eq2 ← cmpEq (some ((C1 + C2) % (cp.C.N : Int))) pr.C
      if !eq2 then pure (reject "totalC does not agree with proofC")
      else do
        let c1A ← mult cp Result1 pr.C1
        let checks1G ← add cp pr.T1 c1A
        let s1G ← mult cp Base1 pr.S1
        let ok ← equal checks1G s1G
        if !ok then pure (reject "s1G not equal to T1 + c1A")
        else do
          let c2A ← mult cp Result2 pr.C2
          let checks2G ← add cp c2A pr.T2
          let s2G ← mult cp Base2 pr.S2
          let ok ← equal checks2G s2G
          if !ok then pure (reject "s2G not equal to T2 + c2B")
          else pure accept

/-! ## ABC -/

/-- `(*big.Int).ModInverse(g, n)` (math/big) for n > 1: the inverse of g modulo n in [0, n), or nil
if g and n are not coprime.  Used at abc.go:109, 153, rangeproof.go:132. -/
def modInverse (g : Int) (n : Nat) : Option Int :=
  if Int.gcd g n = 1 then some (Int.gcdA (g % n) n % n) else none

/-- The random numbers NewABCProof draws, abc.go:65-86, and those of the nested proof,
disjunctive.go:85-96. -/
structure ABCRand where
  u1 : Int
  u2 : Int
  u3 : Int
  ub : Int
  uc : Int
  d1 : Int
  d2 : Int
  d3 : Int

/-- The zero value `&ABCProof{}`, abc.go:117,121. -/
def emptyABC : ABCProof :=
  ⟨nilPoint, nilPoint, nilPoint, nilPoint, none, none, none, none, nilPoint, none⟩

/-- abc.go:124-169, after the nested proof has been made. -/
def finishABC (hash : Bytes → Bytes) (cp : Params) (CM CMTok : ECPoint) (value sk : Int)
    (rnd : ABCRand) (B C CToken : ECPoint) (dj : Option DisjunctiveProof) :
    Go (Option ABCProof × Option Err) := do
  let u1G ← mult cp cp.G (some rnd.u1)
  let u2Ta ← mult cp CMTok (some rnd.u2)
  let T1 ← add cp u1G u2Ta
  let u1B ← mult cp B (some rnd.u1)
  let u3H ← mult cp cp.H (some rnd.u3)
  let T2 ← add cp u1B u3H
  let ch ← challengeOf hash cp [cp.G, cp.H, CM, CMTok, B, C, T1, T2]
  let j := (rnd.u1 + value * ch) % (cp.C.N : Int)
  let isk ← deref (modInverse sk cp.C.N)
  let k := (rnd.u2 + isk * ch) % (cp.C.N : Int)
  let l := rnd.u3 + (rnd.uc - value * rnd.ub) * ch
  pure (some ⟨B, C, T1, T2, some ch, some j, some k, some l, CToken, dj⟩, none)

/-- `NewABCProof`, abc.go:61-170. -/
def newABCProof (hash : Bytes → Bytes) (cp : Params) (CM CMTok : ECPoint) (value sk : Int)
    (option : Side) (rnd : ABCRand) : Go (Option ABCProof × Option Err) := do
  let skH ← mult cp cp.H (some sk)
  let CToken ← mult cp skH (some rnd.uc)
  if option = Left ∧ value = 0 then do
    let B ← pedCommitR cp (some 0) (some rnd.ub)
    let C ← pedCommitR cp (some 0) (some rnd.uc)
    let D ← sub cp C cp.G
    let r ← newDisjunctiveProof hash cp CM CMTok cp.H D sk Left rnd.d1 rnd.d2 rnd.d3
    if r.2.isSome then
      pure (some emptyABC, some "disjunctiveProve within ABCProve failed to generate")
    else finishABC hash cp CM CMTok value sk rnd B C CToken r.1
  else if option = Right ∧ value ≠ 0 then do
    let B ← pedCommitR cp (modInverse value cp.C.N) (some rnd.ub)
    let C ← pedCommitR cp (some 1) (some rnd.uc)
    let D ← sub cp C cp.G
    let r ← newDisjunctiveProof hash cp CM CMTok cp.H D rnd.uc Right rnd.d1 rnd.d2 rnd.d3
    if r.2.isSome then
      pure (some emptyABC, some "disjunctiveProve within ABCProve failed to generate")
    else finishABC hash cp CM CMTok value sk rnd B C CToken r.1
  else pure (some emptyABC, some "invalid side-value pair passed")

/-- `ABCProof.Verify`, abc.go:173-222.  A nil receiver is dereferenced at line 176 and panics. -/
def abcVerify (hash : Bytes → Bytes) (cp : Params) (proof : Option ABCProof) (CM CMTok : ECPoint) :
    Go (Bool × Option Err) := do
  let pr ← deref proof
  let D ← sub cp pr.C cp.G
  let st ← disjunctiveVerify hash cp pr.disjuncAC CM CMTok cp.H D
  if st.2.isSome then pure (reject "ABCProof for disjuncAC is false or not generated properly")
  else do
    let ch ← challengeOf hash cp [cp.G, cp.H, CM, CMTok, pr.B, pr.C, pr.T1, pr.T2]
    let eq ← cmpEq (some ch) pr.Challenge
    if !eq then pure (reject "proof contains incorrect challenge")
    else do
      let chalA ← mult cp CM (some ch)
      let lhs1 ← add cp chalA pr.T1
      let jG ← mult cp cp.G pr.j
      let kCMTok ← mult cp CMTok pr.k
      let rhs1 ← add cp jG kCMTok
      let ok ← equal lhs1 rhs1
      if !ok then pure (reject "cCM + T1 != jG + kCMTok")
      else do
        let chalC ← mult cp pr.C (some ch)
        let lhs2 ← add cp chalC pr.T2
        let jB ← mult cp pr.B pr.j
        let lH ← mult cp cp.H pr.l
        let rhs2 ← add cp jB lH
        let ok ← equal lhs2 rhs2
        if !ok then pure (reject "cC + T2 != jB + lH")
        else pure accept

/-! ## Inequality -/

/-- `NewInequalityProof`, inequality.go:14-34. -/
def newInequalityProof (hash : Bytes → Bytes) (cp : Params) (A B CMTokA CMTokB : ECPoint)
    (a b sk : Int) (rnd : ABCRand) : Go (Option ABCProof × Option Err) :=
  if a = b then .ok (none, some "a and b should not be equal...")
  else do
    let CM ← sub cp A B
    let CMTok ← sub cp CMTokA CMTokB
    let r ← newABCProof hash cp CM CMTok (a - b) sk Right rnd
    if r.2.isSome then pure (none, r.2)
    else pure (r.1, none)

/-- `InequalityProof.Verify`, inequality.go:37-43. -/
def inequalityVerify (hash : Bytes → Bytes) (cp : Params) (proof : Option ABCProof)
    (CM CMTok : ECPoint) : Go (Bool × Option Err) :=
  match proof with
  | none => .ok (reject "passed proof is nil")
  | some pr => abcVerify hash cp (some pr) CM CMTok

end Zk.Proto
