import Verif.Go

/-!
# Points and proof records

Pointers that Go code may leave nil are `Option`.
-/

namespace Zk

/-- `ECPoint`, crypto.go:70-72. -/
structure ECPoint where
  X : Option Int
  Y : Option Int
deriving DecidableEq, Repr

/-- A point with both coordinates present, as at crypto.go:100. -/
def pt (x y : Int) : ECPoint := ⟨some x, some y⟩

/-- The zero value of `ECPoint`: both pointers nil, crypto.go:88-89. -/
def nilPoint : ECPoint := ⟨none, none⟩

/-- `Zero`, crypto.go:75,268-269. -/
def Zero : ECPoint := pt 0 0

/-- `GSPFSProof`, gspfs.go:27-32. -/
structure GSPFSProof where
  Base : ECPoint
  RandCommit : ECPoint
  HiddenValue : Option Int
  Challenge : Option Int
deriving DecidableEq, Repr

/-- `EquivalenceProof`, equivalence.go:29-34. -/
structure EquivalenceProof where
  UG : ECPoint
  UH : ECPoint
  Challenge : Option Int
  HiddenValue : Option Int
deriving DecidableEq, Repr

/-- `ConsistencyProof`, consistency.go:35-41. -/
structure ConsistencyProof where
  T1 : ECPoint
  T2 : ECPoint
  Challenge : Option Int
  S1 : Option Int
  S2 : Option Int
deriving DecidableEq, Repr

/-- `DisjunctiveProof`, disjunctive.go:45-53. -/
structure DisjunctiveProof where
  T1 : ECPoint
  T2 : ECPoint
  C : Option Int
  C1 : Option Int
  C2 : Option Int
  S1 : Option Int
  S2 : Option Int
deriving DecidableEq, Repr

/-- `ABCProof`, abc.go:44-55. -/
structure ABCProof where
  B : ECPoint
  C : ECPoint
  T1 : ECPoint
  T2 : ECPoint
  Challenge : Option Int
  j : Option Int
  k : Option Int
  l : Option Int
  CToken : ECPoint
  disjuncAC : Option DisjunctiveProof
deriving DecidableEq, Repr

/-- `rangeProofTuple`, rangeproof.go:20-23. -/
structure RangeProofTuple where
  C : ECPoint
  S : Option Int
deriving DecidableEq, Repr

/-- `RangeProof`, rangeproof.go:36-40. -/
structure RangeProof where
  ProofAggregate : ECPoint
  ProofE : Option Int
  ProofTuples : List RangeProofTuple
deriving DecidableEq, Repr

/-- `Side`, zksigma.go:26: a Go `int`. -/
abbrev Side := Int

/-- `Left`, zksigma.go:30. -/
def Left : Side := 0

/-- `Right`, zksigma.go:32. -/
def Right : Side := 1

end Zk
