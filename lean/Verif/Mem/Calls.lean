import Verif.Mem.RangeLemmas

/-!
# Calls of the exported functions

One type for all calls, so that statements can be made about any call and about sequences of calls.
-/

namespace Zk.Mem

open Zk Zk.Proto

/-- A call of an exported function with arguments in memory; each constructor cites its function, for
example crypto.go:86-110.  The numbers drawn and the sides are values. -/
inductive Call where
  /-- `Equal`, crypto.go:78-83. -/
  | equal (p : Point) (p2 : Point)
  /-- `Mult`, crypto.go:86-110. -/
  | mult (p : Point) (k : Ptr)
  /-- `Add`, crypto.go:113-126. -/
  | add (p : Point) (p2 : Point)
  /-- `Neg`, crypto.go:145-149. -/
  | neg (p : Point)
  /-- `Sub`, crypto.go:128-142. -/
  | sub (p : Point) (p2 : Point)
  /-- `Bytes`, crypto.go:151-153. -/
  | bytes (p : Point)
  /-- `KeyGen`, crypto.go:54-63. -/
  | keyGen (base : Point) (u : Int)
  /-- `CommitR`, crypto.go:203-207. -/
  | commitR (pk : Point) (r : Ptr)
  /-- `VerifyR`, crypto.go:211-214. -/
  | verifyR (rt : Point) (pk : Point) (r : Ptr)
  /-- `PedCommitR`, crypto.go:230-242. -/
  | pedCommitR (value : Ptr) (r : Ptr)
  /-- `PedCommit`, crypto.go:220-227. -/
  | pedCommit (value : Ptr) (u : Int)
  /-- `Open`, crypto.go:245-248. -/
  | opens (value : Ptr) (r : Ptr) (c : Point)
  /-- `NewGSPFSProof`, gspfs.go:37-39. -/
  | newGSPFS (A : Point) (x : Ptr) (u : Int)
  /-- `NewGSPFSProofBase`, gspfs.go:43-69. -/
  | newGSPFSBase (base : Point) (A : Point) (x : Ptr) (u : Int)
  /-- `GSPFSProof.Verify`, gspfs.go:72-98. -/
  | verifyGSPFS (pr : Option GSPFS) (A : Point)
  /-- `NewEquivalenceProof`, equivalence.go:38-79. -/
  | newEquivalence (B1 : Point) (R1 : Point) (B2 : Point) (R2 : Point) (x : Ptr) (u : Int)
  /-- `EquivalenceProof.Verify`, equivalence.go:84-122. -/
  | verifyEquivalence (pr : Option Equivalence) (B1 : Point) (R1 : Point) (B2 : Point) (R2 : Point)
  /-- `NewConsistencyProof`, consistency.go:45-88. -/
  | newConsistency (CM : Point) (CT : Point) (PK : Point) (x : Ptr) (r : Ptr) (u1 : Int) (u2 : Int)
  /-- `ConsistencyProof.Verify`, consistency.go:91-133. -/
  | verifyConsistency (pr : Option Consistency) (CM : Point) (CT : Point) (PK : Point)
  /-- `NewDisjunctiveProof`, disjunctive.go:59-152. -/
  | newDisjunctive (B1 : Point) (R1 : Point) (B2 : Point) (R2 : Point) (x : Ptr) (o : Side) (u1 : Int) (u2 : Int) (u3 : Int)
  /-- `DisjunctiveProof.Verify`, disjunctive.go:155-204. -/
  | verifyDisjunctive (pr : Option Disjunctive) (B1 : Point) (R1 : Point) (B2 : Point) (R2 : Point)
  /-- `NewABCProof`, abc.go:61-170. -/
  | newABC (CM : Point) (CT : Point) (value : Ptr) (sk : Ptr) (o : Side) (rnd : ABCRand)
  /-- `ABCProof.Verify`, abc.go:173-222. -/
  | verifyABC (pr : Option ABC) (CM : Point) (CT : Point)
  /-- `NewInequalityProof`, inequality.go:14-34. -/
  | newInequality (A : Point) (B : Point) (TA : Point) (TB : Point) (a : Ptr) (b : Ptr) (sk : Ptr) (rnd : ABCRand)
  /-- `InequalityProof.Verify`, inequality.go:37-43. -/
  | verifyInequality (pr : Option ABC) (CM : Point) (CT : Point)
  /-- `NewRangeProof`, rangeproof.go:154-231. -/
  | newRange (value : Ptr) (rnd : Nat → BitRand)
  /-- `RangeProof.Verify`, rangeproof.go:262-322. -/
  | verifyRange (pr : Option Range) (comm : Point)

/-- The same call with the arguments as values; for example crypto.go:86-110.  Simplification: where
`Verif.Proto.Model` has a number instead of a pointer, nil is left out. -/
inductive VCall where
  /-- `Equal`, crypto.go:78-83. -/
  | equal (p : ECPoint) (p2 : ECPoint)
  /-- `Mult`, crypto.go:86-110. -/
  | mult (p : ECPoint) (k : Option Int)
  /-- `Add`, crypto.go:113-126. -/
  | add (p : ECPoint) (p2 : ECPoint)
  /-- `Neg`, crypto.go:145-149. -/
  | neg (p : ECPoint)
  /-- `Sub`, crypto.go:128-142. -/
  | sub (p : ECPoint) (p2 : ECPoint)
  /-- `Bytes`, crypto.go:151-153. -/
  | bytes (p : ECPoint)
  /-- `KeyGen`, crypto.go:54-63. -/
  | keyGen (base : ECPoint) (u : Int)
  /-- `CommitR`, crypto.go:203-207. -/
  | commitR (pk : ECPoint) (r : Int)
  /-- `VerifyR`, crypto.go:211-214. -/
  | verifyR (rt : ECPoint) (pk : ECPoint) (r : Int)
  /-- `PedCommitR`, crypto.go:230-242. -/
  | pedCommitR (value : Option Int) (r : Option Int)
  /-- `PedCommit`, crypto.go:220-227. -/
  | pedCommit (value : Int) (u : Int)
  /-- `Open`, crypto.go:245-248. -/
  | opens (value : Int) (r : Int) (c : ECPoint)
  /-- `NewGSPFSProof`, gspfs.go:37-39. -/
  | newGSPFS (A : ECPoint) (x : Int) (u : Int)
  /-- `NewGSPFSProofBase`, gspfs.go:43-69. -/
  | newGSPFSBase (base : ECPoint) (A : ECPoint) (x : Int) (u : Int)
  /-- `GSPFSProof.Verify`, gspfs.go:72-98. -/
  | verifyGSPFS (pr : Option GSPFSProof) (A : ECPoint)
  /-- `NewEquivalenceProof`, equivalence.go:38-79. -/
  | newEquivalence (B1 : ECPoint) (R1 : ECPoint) (B2 : ECPoint) (R2 : ECPoint) (x : Int) (u : Int)
  /-- `EquivalenceProof.Verify`, equivalence.go:84-122. -/
  | verifyEquivalence (pr : Option EquivalenceProof) (B1 : ECPoint) (R1 : ECPoint) (B2 : ECPoint) (R2 : ECPoint)
  /-- `NewConsistencyProof`, consistency.go:45-88. -/
  | newConsistency (CM : ECPoint) (CT : ECPoint) (PK : ECPoint) (x : Int) (r : Int) (u1 : Int) (u2 : Int)
  /-- `ConsistencyProof.Verify`, consistency.go:91-133. -/
  | verifyConsistency (pr : Option ConsistencyProof) (CM : ECPoint) (CT : ECPoint) (PK : ECPoint)
  /-- `NewDisjunctiveProof`, disjunctive.go:59-152. -/
  | newDisjunctive (B1 : ECPoint) (R1 : ECPoint) (B2 : ECPoint) (R2 : ECPoint) (x : Int) (o : Side) (u1 : Int) (u2 : Int) (u3 : Int)
  /-- `DisjunctiveProof.Verify`, disjunctive.go:155-204. -/
  | verifyDisjunctive (pr : Option DisjunctiveProof) (B1 : ECPoint) (R1 : ECPoint) (B2 : ECPoint) (R2 : ECPoint)
  /-- `NewABCProof`, abc.go:61-170. -/
  | newABC (CM : ECPoint) (CT : ECPoint) (value : Int) (sk : Int) (o : Side) (rnd : ABCRand)
  /-- `ABCProof.Verify`, abc.go:173-222. -/
  | verifyABC (pr : Option ABCProof) (CM : ECPoint) (CT : ECPoint)
  /-- `NewInequalityProof`, inequality.go:14-34. -/
  | newInequality (A : ECPoint) (B : ECPoint) (TA : ECPoint) (TB : ECPoint) (a : Int) (b : Int) (sk : Int) (rnd : ABCRand)
  /-- `InequalityProof.Verify`, inequality.go:37-43. -/
  | verifyInequality (pr : Option ABCProof) (CM : ECPoint) (CT : ECPoint)
  /-- `NewRangeProof`, rangeproof.go:154-231. -/
  | newRange (value : Int) (rnd : Nat → BitRand)
  /-- `RangeProof.Verify`, rangeproof.go:262-322. -/
  | verifyRange (pr : Option RangeProof) (comm : ECPoint)

/-- What a call returns, in memory; for example crypto.go:86. -/
inductive Res where
  | bool (b : Bool)
  | point (p : Point)
  | bytes (b : Bytes)
  | pointNum (r : Point × Ptr)
  | verdict (r : Bool × Option Err)
  | gspfs (r : Option GSPFS × Option Err)
  | equivalence (r : Option Equivalence × Option Err)
  | consistency (r : Option Consistency × Option Err)
  | disjunctive (r : Option Disjunctive × Option Err)
  | abc (r : Option ABC × Option Err)
  | range (r : Option Range × Ptr × Option Err)

/-- What a call returns, as values; for example crypto.go:86. -/
inductive VRes where
  | bool (b : Bool)
  | point (p : ECPoint)
  | bytes (b : Bytes)
  | pointNum (r : ECPoint × Int)
  | verdict (r : Bool × Option Err)
  | gspfs (r : Option GSPFSProof × Option Err)
  | equivalence (r : Option EquivalenceProof × Option Err)
  | consistency (r : Option ConsistencyProof × Option Err)
  | disjunctive (r : Option DisjunctiveProof × Option Err)
  | abc (r : Option ABCProof × Option Err)
  | range (r : Option RangeProof × Option Int × Option Err)

/-- Runs the call; crypto.go:86-110 and the functions cited at the constructors of `Call`. -/
def runCall (hash : Bytes → Bytes) (e : Env) : Call → M Res
  | .equal p p2 => do
    let x ← equal p p2
    pure (.bool x)
  | .mult p k => do
    let x ← mult e p k
    pure (.point x)
  | .add p p2 => do
    let x ← add e p p2
    pure (.point x)
  | .neg p => do
    let x ← neg e p
    pure (.point x)
  | .sub p p2 => do
    let x ← sub e p p2
    pure (.point x)
  | .bytes p => do
    let x ← pointBytes p
    pure (.bytes x)
  | .keyGen base u => do
    let x ← keyGen e base u
    pure (.pointNum x)
  | .commitR pk r => do
    let x ← commitR e pk r
    pure (.point x)
  | .verifyR rt pk r => do
    let x ← verifyR e rt pk r
    pure (.bool x)
  | .pedCommitR value r => do
    let x ← pedCommitR e value r
    pure (.point x)
  | .pedCommit value u => do
    let x ← pedCommit e value u
    pure (.pointNum x)
  | .opens value r c => do
    let x ← open' e value r c
    pure (.bool x)
  | .newGSPFS A x u => do
    let x ← newGSPFSProof hash e A x u
    pure (.gspfs x)
  | .newGSPFSBase base A x u => do
    let x ← newGSPFSProofBase hash e base A x u
    pure (.gspfs x)
  | .verifyGSPFS pr A => do
    let x ← gspfsVerify hash e pr A
    pure (.verdict x)
  | .newEquivalence B1 R1 B2 R2 x u => do
    let x ← newEquivalenceProof hash e B1 R1 B2 R2 x u
    pure (.equivalence x)
  | .verifyEquivalence pr B1 R1 B2 R2 => do
    let x ← equivalenceVerify hash e pr B1 R1 B2 R2
    pure (.verdict x)
  | .newConsistency CM CT PK x r u1 u2 => do
    let x ← newConsistencyProof hash e CM CT PK x r u1 u2
    pure (.consistency x)
  | .verifyConsistency pr CM CT PK => do
    let x ← consistencyVerify hash e pr CM CT PK
    pure (.verdict x)
  | .newDisjunctive B1 R1 B2 R2 x o u1 u2 u3 => do
    let x ← newDisjunctiveProof hash e B1 R1 B2 R2 x o u1 u2 u3
    pure (.disjunctive x)
  | .verifyDisjunctive pr B1 R1 B2 R2 => do
    let x ← disjunctiveVerify hash e pr B1 R1 B2 R2
    pure (.verdict x)
  | .newABC CM CT value sk o rnd => do
    let x ← newABCProof hash e CM CT value sk o rnd
    pure (.abc x)
  | .verifyABC pr CM CT => do
    let x ← abcVerify hash e pr CM CT
    pure (.verdict x)
  | .newInequality A B TA TB a b sk rnd => do
    let x ← newInequalityProof hash e A B TA TB a b sk rnd
    pure (.abc x)
  | .verifyInequality pr CM CT => do
    let x ← inequalityVerify hash e pr CM CT
    pure (.verdict x)
  | .newRange value rnd => do
    let x ← newRangeProof hash e value rnd
    pure (.range x)
  | .verifyRange pr comm => do
    let x ← rangeVerify hash e pr comm
    pure (.verdict x)

/-- The call of the functions on values; crypto.go:86-110 and the functions cited at the constructors
of `VCall`. -/
def runValues (hash : Bytes → Bytes) (cp : Params) : VCall → Go VRes
  | .equal p p2 => do
    let x ← Proto.equal p p2
    pure (.bool x)
  | .mult p k => do
    let x ← Proto.mult cp p k
    pure (.point x)
  | .add p p2 => do
    let x ← Proto.add cp p p2
    pure (.point x)
  | .neg p => do
    let x ← Proto.neg cp p
    pure (.point x)
  | .sub p p2 => do
    let x ← Proto.sub cp p p2
    pure (.point x)
  | .bytes p => do
    let x ← Proto.pointBytes p
    pure (.bytes x)
  | .keyGen base u => do
    let x ← Proto.keyGen cp.C base u
    pure (.pointNum x)
  | .commitR pk r => do
    let x ← Proto.commitR cp pk r
    pure (.point x)
  | .verifyR rt pk r => do
    let x ← Proto.verifyR cp rt pk r
    pure (.bool x)
  | .pedCommitR value r => do
    let x ← Proto.pedCommitR cp value r
    pure (.point x)
  | .pedCommit value u => do
    let x ← Proto.pedCommit cp value u
    pure (.pointNum x)
  | .opens value r c => do
    let x ← Proto.open' cp value r c
    pure (.bool x)
  | .newGSPFS A x u => do
    let x ← Proto.newGSPFSProof hash cp A x u
    pure (.gspfs x)
  | .newGSPFSBase base A x u => do
    let x ← Proto.newGSPFSProofBase hash cp base A x u
    pure (.gspfs x)
  | .verifyGSPFS pr A => do
    let x ← Proto.gspfsVerify hash cp pr A
    pure (.verdict x)
  | .newEquivalence B1 R1 B2 R2 x u => do
    let x ← Proto.newEquivalenceProof hash cp B1 R1 B2 R2 x u
    pure (.equivalence x)
  | .verifyEquivalence pr B1 R1 B2 R2 => do
    let x ← Proto.equivalenceVerify hash cp pr B1 R1 B2 R2
    pure (.verdict x)
  | .newConsistency CM CT PK x r u1 u2 => do
    let x ← Proto.newConsistencyProof hash cp CM CT PK x r u1 u2
    pure (.consistency x)
  | .verifyConsistency pr CM CT PK => do
    let x ← Proto.consistencyVerify hash cp pr CM CT PK
    pure (.verdict x)
  | .newDisjunctive B1 R1 B2 R2 x o u1 u2 u3 => do
    let x ← Proto.newDisjunctiveProof hash cp B1 R1 B2 R2 x o u1 u2 u3
    pure (.disjunctive x)
  | .verifyDisjunctive pr B1 R1 B2 R2 => do
    let x ← Proto.disjunctiveVerify hash cp pr B1 R1 B2 R2
    pure (.verdict x)
  | .newABC CM CT value sk o rnd => do
    let x ← Proto.newABCProof hash cp CM CT value sk o rnd
    pure (.abc x)
  | .verifyABC pr CM CT => do
    let x ← Proto.abcVerify hash cp pr CM CT
    pure (.verdict x)
  | .newInequality A B TA TB a b sk rnd => do
    let x ← Proto.newInequalityProof hash cp A B TA TB a b sk rnd
    pure (.abc x)
  | .verifyInequality pr CM CT => do
    let x ← Proto.inequalityVerify hash cp pr CM CT
    pure (.verdict x)
  | .newRange value rnd => do
    let x ← Proto.newRangeProof hash cp value rnd
    pure (.range x)
  | .verifyRange pr comm => do
    let x ← Proto.rangeVerify hash cp pr comm
    pure (.verdict x)

/-- The call `c` has arguments whose values are those of `v` (specification; crypto.go:86-110).  Nothing
is said about which pointers are equal. -/
inductive CallIs (s : Cells) : Call → VCall → Prop
| equal {p : Point} {p' : ECPoint} {p2 : Point} {p2' : ECPoint}  (h1 : PIs s p p') (h2 : PIs s p2
      p2') :
      CallIs s (.equal p p2) (.equal p' p2')
| mult {p : Point} {p' : ECPoint} {k : Ptr} {k' : Option Int}  (h1 : PIs s p p') (h2 : Is s k k')
      :
      CallIs s (.mult p k) (.mult p' k')
| add {p : Point} {p' : ECPoint} {p2 : Point} {p2' : ECPoint}  (h1 : PIs s p p') (h2 : PIs s p2
      p2') :
      CallIs s (.add p p2) (.add p' p2')
| neg {p : Point} {p' : ECPoint}  (h1 : PIs s p p') :
      CallIs s (.neg p) (.neg p')
| sub {p : Point} {p' : ECPoint} {p2 : Point} {p2' : ECPoint}  (h1 : PIs s p p') (h2 : PIs s p2
      p2') :
      CallIs s (.sub p p2) (.sub p' p2')
| bytes {p : Point} {p' : ECPoint}  (h1 : PIs s p p') :
      CallIs s (.bytes p) (.bytes p')
| keyGen {base : Point} {base' : ECPoint} (u : Int) (h1 : PIs s base base') :
      CallIs s (.keyGen base u) (.keyGen base' u)
| commitR {pk : Point} {pk' : ECPoint} {r : Ptr} {r' : Int}  (h1 : PIs s pk pk') (h2 : Is s r
      (some r')) :
      CallIs s (.commitR pk r) (.commitR pk' r')
| verifyR {rt : Point} {rt' : ECPoint} {pk : Point} {pk' : ECPoint} {r : Ptr} {r' : Int}  (h1 :
      PIs s rt rt') (h2 : PIs s pk pk') (h3 : Is s r (some r')) :
      CallIs s (.verifyR rt pk r) (.verifyR rt' pk' r')
| pedCommitR {value : Ptr} {value' : Option Int} {r : Ptr} {r' : Option Int}  (h1 : Is s value
      value') (h2 : Is s r r') :
      CallIs s (.pedCommitR value r) (.pedCommitR value' r')
| pedCommit {value : Ptr} {value' : Int} (u : Int) (h1 : Is s value (some value')) :
      CallIs s (.pedCommit value u) (.pedCommit value' u)
| opens {value : Ptr} {value' : Int} {r : Ptr} {r' : Int} {c : Point} {c' : ECPoint}  (h1 : Is s
      value (some value')) (h2 : Is s r (some r')) (h3 : PIs s c c') :
      CallIs s (.opens value r c) (.opens value' r' c')
| newGSPFS {A : Point} {A' : ECPoint} {x : Ptr} {x' : Int} (u : Int) (h1 : PIs s A A') (h2 : Is s
      x (some x')) :
      CallIs s (.newGSPFS A x u) (.newGSPFS A' x' u)
| newGSPFSBase {base : Point} {base' : ECPoint} {A : Point} {A' : ECPoint} {x : Ptr} {x' : Int} (u
      : Int) (h1 : PIs s base base') (h2 : PIs s A A') (h3 : Is s x (some x')) :
      CallIs s (.newGSPFSBase base A x u) (.newGSPFSBase base' A' x' u)
| verifyGSPFS {pr : Option GSPFS} {pr' : Option GSPFSProof} {A : Point} {A' : ECPoint}  (h1 :
      Option.Rel (GSPFSIs s) pr pr') (h2 : PIs s A A') :
      CallIs s (.verifyGSPFS pr A) (.verifyGSPFS pr' A')
| newEquivalence {B1 : Point} {B1' : ECPoint} {R1 : Point} {R1' : ECPoint} {B2 : Point} {B2' :
      ECPoint} {R2 : Point} {R2' : ECPoint} {x : Ptr} {x' : Int} (u : Int) (h1 : PIs s B1 B1') (h2
      : PIs s R1 R1') (h3 : PIs s B2 B2') (h4 : PIs s R2 R2') (h5 : Is s x (some x')) :
      CallIs s (.newEquivalence B1 R1 B2 R2 x u) (.newEquivalence B1' R1' B2' R2' x' u)
| verifyEquivalence {pr : Option Equivalence} {pr' : Option EquivalenceProof} {B1 : Point} {B1' :
      ECPoint} {R1 : Point} {R1' : ECPoint} {B2 : Point} {B2' : ECPoint} {R2 : Point} {R2' :
      ECPoint}  (h1 : Option.Rel (EquivalenceIs s) pr pr') (h2 : PIs s B1 B1') (h3 : PIs s R1 R1')
      (h4 : PIs s B2 B2') (h5 : PIs s R2 R2') :
      CallIs s (.verifyEquivalence pr B1 R1 B2 R2) (.verifyEquivalence pr' B1' R1' B2' R2')
| newConsistency {CM : Point} {CM' : ECPoint} {CT : Point} {CT' : ECPoint} {PK : Point} {PK' :
      ECPoint} {x : Ptr} {x' : Int} {r : Ptr} {r' : Int} (u1 : Int) (u2 : Int) (h1 : PIs s CM CM')
      (h2 : PIs s CT CT') (h3 : PIs s PK PK') (h4 : Is s x (some x')) (h5 : Is s r (some r')) :
      CallIs s (.newConsistency CM CT PK x r u1 u2) (.newConsistency CM' CT' PK' x' r' u1 u2)
| verifyConsistency {pr : Option Consistency} {pr' : Option ConsistencyProof} {CM : Point} {CM' :
      ECPoint} {CT : Point} {CT' : ECPoint} {PK : Point} {PK' : ECPoint}  (h1 : Option.Rel
      (ConsistencyIs s) pr pr') (h2 : PIs s CM CM') (h3 : PIs s CT CT') (h4 : PIs s PK PK') :
      CallIs s (.verifyConsistency pr CM CT PK) (.verifyConsistency pr' CM' CT' PK')
| newDisjunctive {B1 : Point} {B1' : ECPoint} {R1 : Point} {R1' : ECPoint} {B2 : Point} {B2' :
      ECPoint} {R2 : Point} {R2' : ECPoint} {x : Ptr} {x' : Int} (o : Side) (u1 : Int) (u2 : Int)
      (u3 : Int) (h1 : PIs s B1 B1') (h2 : PIs s R1 R1') (h3 : PIs s B2 B2') (h4 : PIs s R2 R2')
      (h5 : Is s x (some x')) :
      CallIs s (.newDisjunctive B1 R1 B2 R2 x o u1 u2 u3) (.newDisjunctive B1' R1' B2' R2' x' o u1 u2 u3)
| verifyDisjunctive {pr : Option Disjunctive} {pr' : Option DisjunctiveProof} {B1 : Point} {B1' :
      ECPoint} {R1 : Point} {R1' : ECPoint} {B2 : Point} {B2' : ECPoint} {R2 : Point} {R2' :
      ECPoint}  (h1 : Option.Rel (DisjunctiveIs s) pr pr') (h2 : PIs s B1 B1') (h3 : PIs s R1 R1')
      (h4 : PIs s B2 B2') (h5 : PIs s R2 R2') :
      CallIs s (.verifyDisjunctive pr B1 R1 B2 R2) (.verifyDisjunctive pr' B1' R1' B2' R2')
| newABC {CM : Point} {CM' : ECPoint} {CT : Point} {CT' : ECPoint} {value : Ptr} {value' : Int}
      {sk : Ptr} {sk' : Int} (o : Side) (rnd : ABCRand) (h1 : PIs s CM CM') (h2 : PIs s CT CT')
      (h3 : Is s value (some value')) (h4 : Is s sk (some sk')) :
      CallIs s (.newABC CM CT value sk o rnd) (.newABC CM' CT' value' sk' o rnd)
| verifyABC {pr : Option ABC} {pr' : Option ABCProof} {CM : Point} {CM' : ECPoint} {CT : Point}
      {CT' : ECPoint}  (h1 : Option.Rel (ABCIs s) pr pr') (h2 : PIs s CM CM') (h3 : PIs s CT CT')
      :
      CallIs s (.verifyABC pr CM CT) (.verifyABC pr' CM' CT')
| newInequality {A : Point} {A' : ECPoint} {B : Point} {B' : ECPoint} {TA : Point} {TA' : ECPoint}
      {TB : Point} {TB' : ECPoint} {a : Ptr} {a' : Int} {b : Ptr} {b' : Int} {sk : Ptr} {sk' :
      Int} (rnd : ABCRand) (h1 : PIs s A A') (h2 : PIs s B B') (h3 : PIs s TA TA') (h4 : PIs s TB
      TB') (h5 : Is s a (some a')) (h6 : Is s b (some b')) (h7 : Is s sk (some sk')) :
      CallIs s (.newInequality A B TA TB a b sk rnd) (.newInequality A' B' TA' TB' a' b' sk' rnd)
| verifyInequality {pr : Option ABC} {pr' : Option ABCProof} {CM : Point} {CM' : ECPoint} {CT :
      Point} {CT' : ECPoint}  (h1 : Option.Rel (ABCIs s) pr pr') (h2 : PIs s CM CM') (h3 : PIs s
      CT CT') :
      CallIs s (.verifyInequality pr CM CT) (.verifyInequality pr' CM' CT')
| newRange {value : Ptr} {value' : Int} (rnd : Nat → BitRand) (h1 : Is s value (some value')) :
      CallIs s (.newRange value rnd) (.newRange value' rnd)
| verifyRange {pr : Option Range} {pr' : Option RangeProof} {comm : Point} {comm' : ECPoint}  (h1
      : Option.Rel (RangeIs s) pr pr') (h2 : PIs s comm comm') :
      CallIs s (.verifyRange pr comm) (.verifyRange pr' comm')

/-- The results have the same value (specification; crypto.go:86). -/
inductive ResIs (s : Cells) : Res → VRes → Prop
  | bool (b : Bool) : ResIs s (.bool b) (.bool b)
  | point {p : Point} {p' : ECPoint} (h : PIs s p p') : ResIs s (.point p) (.point p')
  | bytes (b : Bytes) : ResIs s (.bytes b) (.bytes b)
  | pointNum {r : Point × Ptr} {r' : ECPoint × Int} (h : PIs s r.1 r'.1) (h' : Is s r.2 (some r'.2)) :
      ResIs s (.pointNum r) (.pointNum r')
  | verdict (r : Bool × Option Err) : ResIs s (.verdict r) (.verdict r)
  | gspfs {r : Option GSPFS × Option Err} {r' : Option GSPFSProof × Option Err}
      (h : Option.Rel (GSPFSIs s) r.1 r'.1) (h' : r.2 = r'.2) : ResIs s (.gspfs r) (.gspfs r')
  | equivalence {r : Option Equivalence × Option Err} {r' : Option EquivalenceProof × Option Err}
      (h : Option.Rel (EquivalenceIs s) r.1 r'.1) (h' : r.2 = r'.2) : ResIs s (.equivalence r) (.equivalence r')
  | consistency {r : Option Consistency × Option Err} {r' : Option ConsistencyProof × Option Err}
      (h : Option.Rel (ConsistencyIs s) r.1 r'.1) (h' : r.2 = r'.2) : ResIs s (.consistency r) (.consistency r')
  | disjunctive {r : Option Disjunctive × Option Err} {r' : Option DisjunctiveProof × Option Err}
      (h : Option.Rel (DisjunctiveIs s) r.1 r'.1) (h' : r.2 = r'.2) : ResIs s (.disjunctive r) (.disjunctive r')
  | abc {r : Option ABC × Option Err} {r' : Option ABCProof × Option Err}
      (h : Option.Rel (ABCIs s) r.1 r'.1) (h' : r.2 = r'.2) : ResIs s (.abc r) (.abc r')
  | range {r : Option Range × Ptr × Option Err} {r' : Option RangeProof × Option Int × Option Err}
      (h : Option.Rel (RangeIs s) r.1 r'.1) (h1 : Is s r.2.1 r'.2.1) (h2 : r.2.2 = r'.2.2) :
      ResIs s (.range r) (.range r')

theorem relOf {α β : Type} {R : α → β → Prop} {Q : α → Prop} {a : Option α} {b : Option β}
    (h : Option.Rel (fun x y => R x y ∧ Q x) a b) : Option.Rel R a b := by
  cases h with
  | none => exact .none
  | some h => exact .some h.1

theorem Returns.rel {α β : Type} {R : Cells → α → β → Prop} {Q : α → Prop} {t : Cells}
    {r : Option α × Option Err} {r' : Option β × Option Err} (h : Returns R Q t r r') :
    Option.Rel (R t) r.1 r'.1 ∧ r.2 = r'.2 := by
  obtain ⟨h, h'⟩ := h
  refine ⟨?_, h'⟩
  revert h
  generalize r.1 = a, r'.1 = b
  intro h
  cases h with
  | none => exact .none
  | some h => exact .some h.1

theorem run_does (hash : Bytes → Bytes) {s : Cells} {e : Env} {cp : Params} (hz : ZeroAdd cp.C)
    (he : EnvIs s e cp) {c : Call} {v : VCall} (hc : CallIs s c v) :
    Does (runCall hash e c) s (runValues hash cp v) ResIs := by
  cases hc with
  | equal h1 h2 =>
    refine Does.bind (equal_does h1 h2) ?_
    rintro a _ t - ⟨-, rfl⟩
    exact .pure (.bool a)
  | mult h1 h2 =>
    refine Does.bind (mult_does he h1 h2) ?_
    intro a b t _ h
    exact .pure (.point h.1)
  | add h1 h2 =>
    refine Does.bind (add_does hz he h1 h2) ?_
    intro a b t _ h
    exact .pure (.point h.1)
  | neg h1 =>
    refine Does.bind (neg_does he h1) ?_
    intro a b t _ h
    exact .pure (.point h.1)
  | sub h1 h2 =>
    refine Does.bind (sub_does hz he h1 h2) ?_
    intro a b t _ h
    exact .pure (.point h.1)
  | bytes h1 =>
    refine Does.bind (pointBytes_does h1) ?_
    rintro a _ t - ⟨-, rfl⟩
    exact .pure (.bytes a)
  | keyGen u h1 =>
    refine Does.bind (keyGen_does he h1 _) ?_
    intro a b t _ h
    exact .pure (.pointNum h.1.1 h.2.1)
  | commitR h1 h2 =>
    refine Does.bind (commitR_does he h1 h2) ?_
    intro a b t _ h
    exact .pure (.point h.1)
  | verifyR h1 h2 h3 =>
    refine Does.bind (verifyR_does he h1 h2 h3) ?_
    rintro a _ t - rfl
    exact .pure (.bool a)
  | pedCommitR h1 h2 =>
    refine Does.bind (pedCommitR_does hz he h1 h2) ?_
    intro a b t _ h
    exact .pure (.point h.1)
  | pedCommit u h1 =>
    refine Does.bind (pedCommit_does hz he h1 _) ?_
    intro a b t _ h
    exact .pure (.pointNum h.1.1 h.2.1)
  | opens h1 h2 h3 =>
    refine Does.bind (open_does hz he h1 h2 h3) ?_
    rintro a _ t - rfl
    exact .pure (.bool a)
  | newGSPFS u h1 h2 =>
    refine Does.bind (newGSPFSProofBase_does hash he he.G h1 h2 _) ?_
    intro a b t _ h
    exact .pure (.gspfs h.rel.1 h.rel.2)
  | newGSPFSBase u h1 h2 h3 =>
    refine Does.bind (newGSPFSProofBase_does hash he h1 h2 h3 _) ?_
    intro a b t _ h
    exact .pure (.gspfs h.rel.1 h.rel.2)
  | verifyGSPFS h1 h2 =>
    refine Does.bind (gspfsVerify_does hash hz he h1 h2) ?_
    rintro a _ t - rfl
    exact .pure (.verdict a)
  | newEquivalence u h1 h2 h3 h4 h5 =>
    refine Does.bind (newEquivalenceProof_does hash he h1 h2 h3 h4 h5 _) ?_
    intro a b t _ h
    exact .pure (.equivalence h.rel.1 h.rel.2)
  | verifyEquivalence h1 h2 h3 h4 h5 =>
    refine Does.bind (equivalenceVerify_does hash hz he h1 h2 h3 h4 h5) ?_
    rintro a _ t - rfl
    exact .pure (.verdict a)
  | newConsistency u1 u2 h1 h2 h3 h4 h5 =>
    refine Does.bind (newConsistencyProof_does hash hz he h1 h2 h3 h4 h5 _ _) ?_
    intro a b t _ h
    exact .pure (.consistency h.rel.1 h.rel.2)
  | verifyConsistency h1 h2 h3 h4 =>
    refine Does.bind (consistencyVerify_does hash hz he h1 h2 h3 h4) ?_
    rintro a _ t - rfl
    exact .pure (.verdict a)
  | newDisjunctive o u1 u2 u3 h1 h2 h3 h4 h5 =>
    refine Does.bind (newDisjunctiveProof_does hash hz he h1 h2 h3 h4 h5 _ _ _ _) ?_
    intro a b t _ h
    exact .pure (.disjunctive h.rel.1 h.rel.2)
  | verifyDisjunctive h1 h2 h3 h4 h5 =>
    refine Does.bind (disjunctiveVerify_does hash hz he h1 h2 h3 h4 h5) ?_
    rintro a _ t - rfl
    exact .pure (.verdict a)
  | newABC o rnd h1 h2 h3 h4 =>
    refine Does.bind (newABCProof_does hash hz he h1 h2 h3 h4 _ _) ?_
    intro a b t _ h
    exact .pure (.abc h.rel.1 h.rel.2)
  | verifyABC h1 h2 h3 =>
    refine Does.bind (abcVerify_does hash hz he h1 h2 h3) ?_
    rintro a _ t - rfl
    exact .pure (.verdict a)
  | newInequality rnd h1 h2 h3 h4 h5 h6 h7 =>
    refine Does.bind (newInequalityProof_does hash hz he h1 h2 h3 h4 h5 h6 h7 _) ?_
    intro a b t _ h
    exact .pure (.abc h.rel.1 h.rel.2)
  | verifyInequality h1 h2 h3 =>
    refine Does.bind (inequalityVerify_does hash hz he h1 h2 h3) ?_
    rintro a _ t - rfl
    exact .pure (.verdict a)
  | newRange rnd h1 =>
    refine Does.bind (newRangeProof_does hash hz he h1 _) ?_
    intro a b t _ h
    exact .pure (.range (relOf h.1) h.2.1 h.2.2.2)
  | verifyRange h1 h2 =>
    refine Does.bind (rangeVerify_does hash hz he h1 h2) ?_
    rintro a _ t - rfl
    exact .pure (.verdict a)

end Zk.Mem
