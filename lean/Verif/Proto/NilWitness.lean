import Verif.Range.Model
import Verif.Proto.Lawful
import Verif.Proto.SigmaProps
import Verif.Proto.Toy

/-!
# C164: provers that are given nil for a secret

The functions of `Proto/Model.lean` take the secrets as integers.  Here they are pointers, as in the code, and
may be nil.
-/

namespace Zk.Proto.Nil

open Zk Zk.Proto

variable {cp : Params} {E : Type} [AddCommGroup E]

/-- `NewGSPFSProofBase`, gspfs.go:43-69: line 44 reads `x` before anything else. -/
def newGSPFSProofBase (hash : Bytes → Bytes) (cp : Params) (base A : ECPoint) (x : Option Int) (u : Int) :
    Go (Option GSPFSProof × Option Err) := do
  let x ← deref x
  Proto.newGSPFSProofBase hash cp base A x u

/-- `NewEquivalenceProof`, equivalence.go:38-79: line 41 reads `x` before anything else. -/
def newEquivalenceProof (hash : Bytes → Bytes) (cp : Params) (Base1 Result1 Base2 Result2 : ECPoint)
    (x : Option Int) (u : Int) : Go (Option EquivalenceProof × Option Err) := do
  let x ← deref x
  Proto.newEquivalenceProof hash cp Base1 Result1 Base2 Result2 x u

/-- `NewConsistencyProof`, consistency.go:45-88: line 48 reads `value`, and `PedCommitR`, called in line 53,
reads `value` and `randomness` (crypto.go:233-234) before anything else. -/
def newConsistencyProof (hash : Bytes → Bytes) (cp : Params) (CM CMTok PubKey : ECPoint)
    (value randomness : Option Int) (u1 u2 : Int) : Go (Option ConsistencyProof × Option Err) := do
  let value ← deref value
  let randomness ← deref randomness
  Proto.newConsistencyProof hash cp CM CMTok PubKey value randomness u1 u2

/-- `NewDisjunctiveProof`, disjunctive.go:59-152: line 62 reads `x` before the side is looked at. -/
def newDisjunctiveProof (hash : Bytes → Bytes) (cp : Params) (Base1 Result1 Base2 Result2 : ECPoint)
    (x : Option Int) (option : Side) (u1 u2 u3 : Int) : Go (Option DisjunctiveProof × Option Err) := do
  let x ← deref x
  Proto.newDisjunctiveProof hash cp Base1 Result1 Base2 Result2 x option u1 u2 u3

/-- `NewRangeProof`, rangeproof.go:154-231, with the goroutines one after the other: line 161 reads `value`
before anything else. -/
def newRangeProof (hash : Bytes → Bytes) (cp : Params) (value : Option Int) (rnd : Nat → BitRand) :
    Go (Option RangeProof × Option Int × Option Err) := do
  let value ← deref value
  Proto.newRangeProof hash cp value rnd

/-- The part of `NewABCProof` behind the nested proof, abc.go:124-169.  Simplification: the two pointers are
read at its beginning; nothing but a panic can come of a nil one in lines 148-160. -/
def finishABC (hash : Bytes → Bytes) (cp : Params) (CM CMTok : ECPoint) (value sk : Option Int)
    (rnd : ABCRand) (B C CToken : ECPoint) (dj : Option DisjunctiveProof) :
    Go (Option ABCProof × Option Err) := do
  let value ← deref value
  let sk ← deref sk
  Proto.finishABC hash cp CM CMTok value sk rnd B C CToken dj

/-- `option == side && test(value.Cmp(BigZero))`, abc.go:95, 107: `value` is read only if the side is the
right one. -/
def sideAnd (option side : Side) (value : Option Int) (test : Int → Bool) : Go Bool :=
  if option = side then do
    let v ← deref value
    pure (test v)
  else pure false

/-- `NewABCProof`, abc.go:61-170. -/
def newABCProof (hash : Bytes → Bytes) (cp : Params) (CM CMTok : ECPoint) (value sk : Option Int)
    (option : Side) (rnd : ABCRand) : Go (Option ABCProof × Option Err) := do
  let skH ← mult cp cp.H sk
  let CToken ← mult cp skH (some rnd.uc)
  let isLeft ← sideAnd option Left value fun v => decide (v = 0)
  if isLeft then do
    let B ← pedCommitR cp (some 0) (some rnd.ub)
    let C ← pedCommitR cp (some 0) (some rnd.uc)
    let D ← sub cp C cp.G
    let r ← newDisjunctiveProof hash cp CM CMTok cp.H D sk Left rnd.d1 rnd.d2 rnd.d3
    if r.2.isSome then
      pure (some emptyABC, some "disjunctiveProve within ABCProve failed to generate")
    else finishABC hash cp CM CMTok value sk rnd B C CToken r.1
  else do
    let isRight ← sideAnd option Right value fun v => decide (v ≠ 0)
    if isRight then do
      let v ← deref value
      let B ← pedCommitR cp (modInverse v cp.C.N) (some rnd.ub)
      let C ← pedCommitR cp (some 1) (some rnd.uc)
      let D ← sub cp C cp.G
      let r ← newDisjunctiveProof hash cp CM CMTok cp.H D (some rnd.uc) Right rnd.d1 rnd.d2 rnd.d3
      if r.2.isSome then
        pure (some emptyABC, some "disjunctiveProve within ABCProve failed to generate")
      else finishABC hash cp CM CMTok value sk rnd B C CToken r.1
    else pure (some emptyABC, some "invalid side-value pair passed")

/-- `NewInequalityProof`, inequality.go:14-34. -/
def newInequalityProof (hash : Bytes → Bytes) (cp : Params) (A B CMTokA CMTokB : ECPoint)
    (a b sk : Option Int) (rnd : ABCRand) : Go (Option ABCProof × Option Err) := do
  let same ← cmpEq a b
  if same then pure (none, some "a and b should not be equal...")
  else do
    let a ← deref a
    let b ← deref b
    let CM ← sub cp A B
    let CMTok ← sub cp CMTokA CMTokB
    let r ← newABCProof hash cp CM CMTok (some (a - b)) sk Right rnd
    if r.2.isSome then pure (none, r.2)
    else pure (r.1, none)

/-- C164, first part.  On secrets that are there these are the functions of the model, so that everything
proved of those holds of these. -/
theorem C164_present (hash : Bytes → Bytes) (cp : Params) :
    (∀ base A x u, newGSPFSProofBase hash cp base A (some x) u =
      Proto.newGSPFSProofBase hash cp base A x u) ∧
    (∀ b1 r1 b2 r2 x u, newEquivalenceProof hash cp b1 r1 b2 r2 (some x) u =
      Proto.newEquivalenceProof hash cp b1 r1 b2 r2 x u) ∧
    (∀ cm tok pk v r u1 u2, newConsistencyProof hash cp cm tok pk (some v) (some r) u1 u2 =
      Proto.newConsistencyProof hash cp cm tok pk v r u1 u2) ∧
    (∀ b1 r1 b2 r2 x side u1 u2 u3, newDisjunctiveProof hash cp b1 r1 b2 r2 (some x) side u1 u2 u3 =
      Proto.newDisjunctiveProof hash cp b1 r1 b2 r2 x side u1 u2 u3) ∧
    (∀ v rnd, newRangeProof hash cp (some v) rnd = Proto.newRangeProof hash cp v rnd) ∧
    (∀ cm tok v sk side rnd, newABCProof hash cp cm tok (some v) (some sk) side rnd =
      Proto.newABCProof hash cp cm tok v sk side rnd) ∧
    (∀ A B tA tB a b sk rnd, newInequalityProof hash cp A B tA tB (some a) (some b) (some sk) rnd =
      Proto.newInequalityProof hash cp A B tA tB a b sk rnd) := by
  have habc : ∀ cm tok v sk side rnd, newABCProof hash cp cm tok (some v) (some sk) side rnd =
      Proto.newABCProof hash cp cm tok v sk side rnd := by
    intro cm tok v sk side rnd
    rw [newABCProof, Proto.newABCProof]
    have hne : Left ≠ Right := by decide
    by_cases hl : side = Left
    · subst hl
      by_cases hv : v = 0
      · simp only [sideAnd, deref_some, Go.bind_ok, if_pos, hv, and_self, decide_true, pure,
          newDisjunctiveProof, finishABC]
      · simp only [sideAnd, deref_some, Go.bind_ok, if_pos, hv, and_false, decide_false, pure, hne,
          false_and, if_false, Bool.false_eq_true]
    · by_cases hr : side = Right
      · subst hr
        by_cases hv : v = 0
        · simp only [sideAnd, deref_some, Go.bind_ok, if_pos, hv, pure, hl, false_and, if_false,
            Bool.false_eq_true, ne_eq, not_true_eq_false, and_false, decide_false]
        · simp only [sideAnd, deref_some, Go.bind_ok, if_pos, hv, pure, hl, if_false,
            Bool.false_eq_true, ne_eq, not_false_eq_true, and_self, decide_true, newDisjunctiveProof,
            finishABC]
      · simp only [sideAnd, hl, hr, false_and, if_false, Go.bind_ok, pure, Bool.false_eq_true]
  refine ⟨fun _ _ _ _ => rfl, fun _ _ _ _ _ _ => rfl, fun _ _ _ _ _ _ _ => rfl,
    fun _ _ _ _ _ _ _ _ _ => rfl, fun _ _ => rfl, habc, fun A B tA tB a b sk rnd => ?_⟩
  rw [newInequalityProof, Proto.newInequalityProof, cmpEq]
  by_cases hab : a = b
  · simp only [Go.bind_ok, hab, decide_true, if_true, pure]
  · simp only [Go.bind_ok, hab, decide_false, if_false, deref_some, habc, Bool.false_eq_true]

/-- C164, second part.  A prover that is given nil for a secret panics; the exceptions are `NewABCProof`
with nil for the value and a side that is neither `Left` nor `Right`, and `NewInequalityProof` with nil for
both values, which return an error.  No proof is made of a missing secret. -/
theorem C164_missing (L : Lawful cp E) (hash : Bytes → Bytes) :
    (∀ base A u, newGSPFSProofBase hash cp base A none u = .panic) ∧
    (∀ b1 r1 b2 r2 u, newEquivalenceProof hash cp b1 r1 b2 r2 none u = .panic) ∧
    (∀ cm tok pk v r u1 u2, v = none ∨ r = none →
      newConsistencyProof hash cp cm tok pk v r u1 u2 = .panic) ∧
    (∀ b1 r1 b2 r2 side u1 u2 u3,
      newDisjunctiveProof hash cp b1 r1 b2 r2 none side u1 u2 u3 = .panic) ∧
    (∀ rnd, newRangeProof hash cp none rnd = .panic) ∧
    (∀ cm tok v side rnd, newABCProof hash cp cm tok v none side rnd = .panic) ∧
    (∀ cm tok sk side rnd, side = Left ∨ side = Right →
      newABCProof hash cp cm tok none (some sk) side rnd = .panic) ∧
    (∀ cm tok sk side rnd, side ≠ Left → side ≠ Right →
      Refuses (newABCProof hash cp cm tok none (some sk) side rnd)) ∧
    (∀ A B tA tB sk rnd, Refuses (newInequalityProof hash cp A B tA tB none none sk rnd)) ∧
    (∀ A B tA tB v sk rnd, newInequalityProof hash cp A B tA tB none (some v) sk rnd = .panic ∧
      newInequalityProof hash cp A B tA tB (some v) none sk rnd = .panic) ∧
    (∀ A B tA tB a b rnd, a ≠ b →
      newInequalityProof hash cp A B tA tB (some a) (some b) none rnd = .panic) := by
  have hH : mult cp cp.H none = .panic := by
    rw [L.H_pe, mult, if_neg (L.pe_ne_nil _)]; rfl
  have habc : ∀ cm tok v side rnd, newABCProof hash cp cm tok v none side rnd = .panic := by
    intro cm tok v side rnd
    rw [newABCProof, hH]; rfl
  have hm : ∀ (sk : Int) (uc : Int), ∃ p q, mult cp cp.H (some sk) = .ok p ∧
      mult cp p (some uc) = .ok q := by
    intro sk uc
    rw [L.H_pe, L.mult_pe]
    exact ⟨_, _, rfl, L.mult_pe _ _⟩
  refine ⟨fun _ _ _ => rfl, fun _ _ _ _ _ => rfl, ?_, fun _ _ _ _ _ _ _ _ => rfl, fun _ => rfl, habc, ?_, ?_,
    fun A B tA tB sk rnd => ⟨none, _, rfl⟩, fun A B tA tB v sk rnd => ⟨rfl, rfl⟩, ?_⟩
  · rintro cm tok pk v r u1 u2 (rfl | rfl)
    · rfl
    · cases v <;> rfl
  · intro cm tok sk side rnd hs
    obtain ⟨p, q, h1, h2⟩ := hm sk rnd.uc
    rw [newABCProof, h1, Go.bind_ok, h2, Go.bind_ok]
    rcases hs with rfl | rfl <;> rfl
  · intro cm tok sk side rnd h3 h4
    obtain ⟨p, q, h1, h2⟩ := hm sk rnd.uc
    rw [newABCProof, h1, Go.bind_ok, h2, Go.bind_ok]
    simp only [sideAnd, h3, h4, if_false, Go.bind_ok, pure, Bool.false_eq_true]
    exact ⟨_, _, rfl⟩
  · intro A B tA tB a b rnd hab
    rw [newInequalityProof, cmpEq]
    simp only [Go.bind_ok, hab, decide_false, if_false, deref_some, habc, Go.bind_panic, Bool.false_eq_true]
    cases sub cp A B with
    | panic => rfl
    | ok CM => cases sub cp tA tB <;> rfl

/-- A run of a prover that ends without an error.  See gspfs.go:43-69. -/
def Makes {P : Type} (run : Go (Option P × Option Err)) : Prop := ∃ r, run = .ok (r, none)

/-- C164, third part, for any parameters, also with an `H` that is nil.  If a secret is nil then no prover
returns without an error. -/
theorem C164_no_proof (hash : Bytes → Bytes) (cp : Params) :
    (∀ base A x u, Makes (newGSPFSProofBase hash cp base A x u) → x ≠ none) ∧
    (∀ b1 r1 b2 r2 x u, Makes (newEquivalenceProof hash cp b1 r1 b2 r2 x u) → x ≠ none) ∧
    (∀ cm tok pk v r u1 u2, Makes (newConsistencyProof hash cp cm tok pk v r u1 u2) →
      v ≠ none ∧ r ≠ none) ∧
    (∀ b1 r1 b2 r2 x side u1 u2 u3,
      Makes (newDisjunctiveProof hash cp b1 r1 b2 r2 x side u1 u2 u3) → x ≠ none) ∧
    (∀ v rnd p t, newRangeProof hash cp v rnd = .ok (p, t, none) → v ≠ none) ∧
    (∀ cm tok v sk side rnd, Makes (newABCProof hash cp cm tok v sk side rnd) → v ≠ none ∧ sk ≠ none) ∧
    (∀ A B tA tB a b sk rnd, Makes (newInequalityProof hash cp A B tA tB a b sk rnd) →
      a ≠ none ∧ b ≠ none ∧ sk ≠ none) := by
  have hfin : ∀ cm tok v sk rnd B C T dj r,
      finishABC hash cp cm tok v sk rnd B C T dj = .ok r → v ≠ none ∧ sk ≠ none := by
    intro cm tok v sk rnd B C T dj r h
    cases v with
    | none => cases h
    | some v => cases sk with
      | none => cases h
      | some s => exact ⟨nofun, nofun⟩
  have habc : ∀ cm tok v sk side rnd, Makes (newABCProof hash cp cm tok v sk side rnd) →
      v ≠ none ∧ sk ≠ none := by
    rintro cm tok v sk side rnd ⟨r, h⟩
    rw [newABCProof] at h
    obtain ⟨_, _, h⟩ := Go.bind_eq_ok.mp h
    obtain ⟨_, _, h⟩ := Go.bind_eq_ok.mp h
    obtain ⟨l, _, h⟩ := Go.bind_eq_ok.mp h
    split at h
    · obtain ⟨_, _, h⟩ := Go.bind_eq_ok.mp h
      obtain ⟨_, _, h⟩ := Go.bind_eq_ok.mp h
      obtain ⟨_, _, h⟩ := Go.bind_eq_ok.mp h
      obtain ⟨_, _, h⟩ := Go.bind_eq_ok.mp h
      split at h
      · cases h
      · exact hfin _ _ _ _ _ _ _ _ _ _ h
    · obtain ⟨_, _, h⟩ := Go.bind_eq_ok.mp h
      split at h
      · obtain ⟨_, _, h⟩ := Go.bind_eq_ok.mp h
        obtain ⟨_, _, h⟩ := Go.bind_eq_ok.mp h
        obtain ⟨_, _, h⟩ := Go.bind_eq_ok.mp h
        obtain ⟨_, _, h⟩ := Go.bind_eq_ok.mp h
        obtain ⟨_, _, h⟩ := Go.bind_eq_ok.mp h
        split at h
        · cases h
        · exact hfin _ _ _ _ _ _ _ _ _ _ h
      · cases h
  refine ⟨?_, ?_, ?_, ?_, ?_, habc, ?_⟩
  · rintro base A x u ⟨r, h⟩ rfl
    cases h
  · rintro b1 r1 b2 r2 x u ⟨r, h⟩ rfl
    cases h
  · rintro cm tok pk v r u1 u2 ⟨p, h⟩
    cases v with
    | none => cases h
    | some v => cases r with
      | none => cases h
      | some r => exact ⟨nofun, nofun⟩
  · rintro b1 r1 b2 r2 x side u1 u2 u3 ⟨r, h⟩ rfl
    cases h
  · rintro v rnd p t h rfl
    cases h
  · rintro A B tA tB a b sk rnd ⟨r, h⟩
    rw [newInequalityProof] at h
    obtain ⟨same, _, h⟩ := Go.bind_eq_ok.mp h
    split at h
    · cases h
    · cases a with
      | none => cases h
      | some a => cases b with
        | none => cases h
        | some b =>
          refine ⟨nofun, nofun, ?_⟩
          simp only [deref_some, Go.bind_ok] at h
          obtain ⟨CM, _, h⟩ := Go.bind_eq_ok.mp h
          obtain ⟨CMTok, _, h⟩ := Go.bind_eq_ok.mp h
          obtain ⟨⟨p, e⟩, hp, h⟩ := Go.bind_eq_ok.mp h
          cases e with
          | some e => cases h
          | none => exact (habc _ _ _ _ _ _ ⟨p, hp⟩).2

/-- Non-vacuity: with the secret there, the same call makes a proof (3 = 3 * 1). -/
example : ∃ p, newGSPFSProofBase (fun _ => [1]) Toy.params (Toy.lawful.pe 1) (Toy.lawful.pe 3) (some 3) 2 =
    .ok (some p, none) := ⟨_, rfl⟩

/-- Non-vacuity: an ABC proof is made of a value and a key that are there, on the right side. -/
example : (match newABCProof (fun _ => [1]) Toy.params (Toy.lawful.pe 3) (Toy.lawful.pe 4) (some 3) (some 2)
    Right ⟨1, 2, 3, 4, 5, 1, 2, 3⟩ with
    | .ok (some _, none) => true
    | _ => false) = true := by decide +kernel

/-- Non-vacuity: a side that is neither `Left` nor `Right`. -/
example : (2 : Side) ≠ Left ∧ (2 : Side) ≠ Right := by decide

/-- Non-vacuity: without the key the inequality prover panics, with it it makes a proof. -/
example : newInequalityProof (fun _ => [1]) Toy.params (Toy.lawful.pe 3) (Toy.lawful.pe 1) (Toy.lawful.pe 4)
      (Toy.lawful.pe 1) (some 5) (some 3) none ⟨1, 2, 3, 4, 5, 1, 2, 3⟩ = .panic ∧
    (match newInequalityProof (fun _ => [1]) Toy.params (Toy.lawful.pe 3) (Toy.lawful.pe 1)
      (Toy.lawful.pe 4) (Toy.lawful.pe 1) (some 5) (some 3) (some 2) ⟨1, 2, 3, 4, 5, 1, 2, 3⟩ with
    | .ok (some _, none) => true
    | _ => false) = true := by
  constructor <;> decide +kernel

end Zk.Proto.Nil
