import Verif.Ser.Props
import Verif.Proto.AbcProps
import Verif.Range.Props

/-! # Property C123: what a prover returns survives serialization

The prover writes its proof with `Bytes`, somebody else reads it with `New…ProofFromBytes` and calls
`Verify` (README of /repo, and gspfs_test.go:45-59).  The theorems join the models of the provers with the
models of the serialization. -/

namespace Zk.Proto

open Zk

variable {cp : Params} {E : Type} [AddCommGroup E]

/-- Writing `p` gives some bytes (no panic), and reading them back gives `p` without an error, even if
more bytes follow, as long as the run time can allocate that many bytes.  See gspfs.go:101-110. -/
def Travels {P : Type} (bytes : P → Go Bytes) (fromBytes : Nat → Bytes → Go (Option P × Option Err))
    (p : P) : Prop :=
  ∃ enc, bytes p = .ok enc ∧ ∀ maxAlloc rest, enc.length ≤ maxAlloc → maxAlloc < 2 ^ 63 →
    fromBytes maxAlloc (enc ++ rest) = .ok (some p, none)

/-- The prover succeeds, its proof can be written, and whoever reads it back accepts it.
See gspfs.go:101-110. -/
def Delivered {P : Type} (run : Go (Option P × Option Err)) (bytes : P → Go Bytes)
    (fromBytes : Nat → Bytes → Go (Option P × Option Err))
    (verify : Option P → Go (Bool × Option Err)) : Prop :=
  ∃ p enc, run = .ok (some p, none) ∧ bytes p = .ok enc ∧
    ∀ maxAlloc, enc.length ≤ maxAlloc → maxAlloc < 2 ^ 63 →
      (do let r ← fromBytes maxAlloc enc; verify r.1) = .ok accept

theorem delivered_of {P : Type} {run : Go (Option P × Option Err)} {bytes : P → Go Bytes}
    {fromBytes : Nat → Bytes → Go (Option P × Option Err)}
    {verify : Option P → Go (Bool × Option Err)} (h : Succeeds run verify)
    (ht : ∀ p, run = .ok (some p, none) → Travels bytes fromBytes p) :
    Delivered run bytes fromBytes verify := by
  obtain ⟨p, h1, h2⟩ := h
  obtain ⟨enc, h3, h4⟩ := ht p h1
  refine ⟨p, enc, h1, h3, fun m a b => ?_⟩
  have := h4 m [] a b
  rw [List.append_nil] at this
  rw [this, Go.bind_ok, h2]

theorem pe_filled (L : Lawful cp E) (a : E) : (L.pe a).Filled :=
  ⟨_, _, (L.enc_nonneg a).1, (L.enc_nonneg a).2, rfl⟩

/-! ### What the provers return has all its fields -/

theorem gspfs_filled (L : Lawful cp E) (hash : Bytes → Bytes) (b a : E) (x u : Int) (p : GSPFSProof)
    (h : newGSPFSProofBase hash cp (L.pe b) (L.pe a) x u = .ok (some p, none)) : p.Filled := by
  simp only [newGSPFSProofBase, L.coords_pe, L.scalarMult_pe, L.mk_enc, L.equal_pe, L.mult_pe,
    L.challengeOf₂, Go.bind_ok, Go.pure_eq] at h
  split at h
  · simp at h
  · simp only [Go.ok.injEq, Prod.mk.injEq, Option.some.injEq, and_true] at h
    subst h
    exact ⟨pe_filled L _, pe_filled L _, by simp, by simp⟩

theorem equivalence_filled (L : Lawful cp E) (hash : Bytes → Bytes) (b1 r1 b2 r2 : E) (x u : Int)
    (p : EquivalenceProof)
    (h : newEquivalenceProof hash cp (L.pe b1) (L.pe r1) (L.pe b2) (L.pe r2) x u
      = .ok (some p, none)) : p.Filled := by
  simp only [newEquivalenceProof, L.equal_pe, L.mult_pe,
    L.challengeOf₆, Go.bind_ok, Go.pure_eq] at h
  split at h
  · simp at h
  · split at h
    · simp at h
    · simp only [Go.ok.injEq, Prod.mk.injEq, Option.some.injEq, and_true] at h
      subst h
      exact ⟨pe_filled L _, pe_filled L _, by simp, by simp⟩

theorem consistency_filled (L : Lawful cp E) (hash : Bytes → Bytes) (cm tok pk : E)
    (v r u1 u2 : Int) (p : ConsistencyProof)
    (h : newConsistencyProof hash cp (L.pe cm) (L.pe tok) (L.pe pk) v r u1 u2
      = .ok (some p, none)) : p.Filled := by
  simp only [newConsistencyProof, L.equal_pe, L.mult_pe, L.pedCommitR_pe, L.G_pe, L.H_pe,
    L.challengeOf₇, Go.bind_ok, Go.pure_eq] at h
  split at h
  · simp at h
  · split at h
    · simp at h
    · simp only [Go.ok.injEq, Prod.mk.injEq, Option.some.injEq, and_true] at h
      subst h
      exact ⟨pe_filled L _, pe_filled L _, by simp, by simp, by simp⟩

theorem disjunctive_filled (L : Lawful cp E) (hash : Bytes → Bytes) (b1 r1 b2 r2 : E) (x : Int)
    (side : Side) (u1 u2 u3 : Int) (p : DisjunctiveProof)
    (h : newDisjunctiveProof hash cp (L.pe b1) (L.pe r1) (L.pe b2) (L.pe r2) x side u1 u2 u3
      = .ok (some p, none)) : p.Filled := by
  have key : ∀ a1 c1 a2 c2 sw, proveDisjunctive hash cp (L.pe b1) (L.pe r1) (L.pe b2) (L.pe r2)
      (L.pe a1) (L.pe c1) (L.pe a2) (L.pe c2) x u1 u2 u3 sw = .ok (some p, none) → p.Filled := by
    intro a1 c1 a2 c2 sw h
    simp only [proveDisjunctive, L.equal_pe, L.mult_pe, L.add_pe,
      L.challengeOf₆, Go.bind_ok, Go.pure_eq] at h
    split at h
    · simp at h
    · split at h <;>
      · simp only [Go.ok.injEq, Prod.mk.injEq, Option.some.injEq, and_true] at h
        subst h
        exact ⟨pe_filled L _, pe_filled L _, by simp, by simp, by simp, by simp, by simp⟩
  unfold newDisjunctiveProof at h
  split at h
  · exact key _ _ _ _ _ h
  · split at h
    · exact key _ _ _ _ _ h
    · simp at h

theorem abc_filled (L : Lawful cp E) (hash : Bytes → Bytes) (cm tok : E) (v sk : Int) (side : Side)
    (rnd : ABCRand) (p : ABCProof)
    (h : newABCProof hash cp (L.pe cm) (L.pe tok) v sk side rnd = .ok (some p, none)) :
    p.Filled := by
  have fin : ∀ B C ct dj, (∃ d : DisjunctiveProof, d.Filled ∧ dj = some d) →
      finishABC hash cp (L.pe cm) (L.pe tok) v sk rnd (L.pe B) (L.pe C) (L.pe ct) dj
        = .ok (some p, none) → p.Filled := by
    intro B C ct dj hd h
    cases hs : modInverse sk cp.C.N with
    | none =>
      simp [finishABC, L.G_pe, L.H_pe, L.mult_pe, L.add_pe, L.challengeOf₈, hs] at h
    | some isk =>
      rw [L.finishABC_pe _ _ _ _ _ _ _ _ _ _ _ hs] at h
      simp only [Go.ok.injEq, Prod.mk.injEq, Option.some.injEq, and_true] at h
      subst h
      exact ⟨pe_filled L _, pe_filled L _, pe_filled L _, pe_filled L _, by simp, by simp, by simp,
        by simp, pe_filled L _, hd⟩
  have dj : ∀ (b2 r2 : E) x s (r : Option DisjunctiveProof × Option Err),
      newDisjunctiveProof hash cp (L.pe cm) (L.pe tok) (L.pe b2) (L.pe r2) x s rnd.d1 rnd.d2 rnd.d3
        = .ok r → r.2.isSome = false → r.1 ≠ none → ∃ d : DisjunctiveProof, d.Filled ∧ r.1 = some d := by
    rintro b2 r2 x s ⟨r, e⟩ h h2 h3
    obtain ⟨d, rfl⟩ := Option.ne_none_iff_exists'.1 h3
    simp only [Option.isSome_eq_false_iff, Option.isNone_iff_eq_none] at h2
    subst h2
    exact ⟨d, disjunctive_filled L hash _ _ _ _ _ _ _ _ _ _ h, rfl⟩
  have nn : ∀ (b2 r2 : E) x s (r : Option DisjunctiveProof × Option Err),
      newDisjunctiveProof hash cp (L.pe cm) (L.pe tok) (L.pe b2) (L.pe r2) x s rnd.d1 rnd.d2 rnd.d3
        = .ok r → r.1 ≠ none := by
    intro b2 r2 x s r h
    have key : ∀ a1 c1 a2 c2 sw, proveDisjunctive hash cp (L.pe cm) (L.pe tok) (L.pe b2) (L.pe r2)
        (L.pe a1) (L.pe c1) (L.pe a2) (L.pe c2) x rnd.d1 rnd.d2 rnd.d3 sw = .ok r → r.1 ≠ none := by
      intro a1 c1 a2 c2 sw h
      simp only [proveDisjunctive, L.equal_pe, L.mult_pe, L.add_pe,
        L.challengeOf₆, Go.bind_ok, Go.pure_eq] at h
      split at h
      · rw [Go.ok.injEq] at h; subst h; simp
      · split at h <;> (rw [Go.ok.injEq] at h; subst h; simp)
    unfold newDisjunctiveProof at h
    split at h
    · exact key _ _ _ _ _ h
    · split at h
      · exact key _ _ _ _ _ h
      · rw [Go.ok.injEq] at h; subst h; simp
  simp only [newABCProof, L.H_pe, L.G_pe, L.mult_pe, Go.bind_ok, L.pedCommitR_pe, L.sub_pe,
    Go.pure_eq] at h
  split at h
  · rw [Go.bind_eq_ok] at h
    obtain ⟨r, h1, h2⟩ := h
    split at h2
    · simp at h2
    · rename_i hr
      exact fin _ _ _ _ (dj _ _ _ _ r h1 (by simpa using hr) (nn _ _ _ _ r h1)) h2
  · split at h
    · cases hv : modInverse v cp.C.N with
      | none => rw [hv] at h; simp [pedCommitR] at h
      | some w =>
        simp only [hv, L.pedCommitR_pe, Go.bind_ok] at h
        rw [Go.bind_eq_ok] at h
        obtain ⟨r, h1, h2⟩ := h
        split at h2
        · simp at h2
        · rename_i hr
          exact fin _ _ _ _ (dj _ _ _ _ r h1 (by simpa using hr) (nn _ _ _ _ r h1)) h2
    · simp at h

theorem range_filled (L : Lawful cp E) (hash : Bytes → Bytes) (n : Nat) (hn : n ≤ 64) (value : Int)
    (rnd : Nat → BitRand) (p : RangeProof) (vt : Option Int) (e : Option Err)
    (h : proveRange hash cp n value rnd = .ok (some p, vt, e)) :
    p.Filled ∧ p.ProofTuples.length = n := by
  have hA : ∀ i < n, runW (progA hash cp i (bitOf value i) (rnd i)) emptySlot = .ok _ :=
    fun i hi => L.runA hash (by omega) value rnd
  have hh := L.hashAll_pe hash ((List.range n).map (L.rOf hash value rnd))
  rw [List.map_map] at hh
  have hB : ∀ i, ∃ (c : E) (s v : Int) (rp : ECPoint), i < n →
      runW (progB hash cp i (bitOf value i)
        ((L.hps hash ((List.range n).map (L.rOf hash value rnd)) : Int) % (cp.C.N : Int)) (rnd i))
        ⟨L.pe (L.rOf hash value rnd i),
          if bitOf value i then L.pe ((2 ^ i : Int) • L.g + (rnd i).v • L.hb) else nilPoint,
          some (rnd i).k, if bitOf value i then some (rnd i).v else none⟩
        = .ok ⟨rp, L.pe c, some s, some v⟩ := by
    intro i
    by_cases hi : i < n
    · cases hb : bitOf value i with
      | true =>
        refine ⟨(2 ^ i : Int) • L.g + (rnd i).v • L.hb, (rnd i).k + L.e0Of hash n value rnd * (rnd i).v,
          (rnd i).v, L.pe (L.rOf hash value rnd i), fun _ => ?_⟩
        simp only [if_true, progB, runW, Bool.not_true, Bool.false_eq_true, if_false,
          deref_some, Go.bind_ok, Go.pure_eq, Lawful.e0Of]
      | false =>
        cases hm : modInverse (L.hp hash ((rnd i).j • L.hb +
            ((L.hps hash ((List.range n).map (L.rOf hash value rnd)) : Int) % (cp.C.N : Int)
              * 2 ^ i) • L.g) % (cp.C.N : Int)) cp.C.N with
        | none =>
          exfalso
          rw [proveRange_eq _ _ _ _ _ _ hA, show (List.map (fun i => _) (List.range n)) = _ from rfl] at h
          erw [hh] at h
          simp only [Go.bind_ok] at h
          rw [mapM_panic _ _ (List.mem_range.2 hi)] at h
          · simp at h
          · simp only [hb, progB, runW, Bool.not_false, if_true, L.inverseEI_pe, hm, Go.bind_ok,
              deref_none, Go.bind_panic]
        | some w =>
          refine ⟨w • L.eff (L.rOf hash value rnd i),
            (rnd i).j + (rnd i).k * (L.e0Of hash n value rnd * w), w * (rnd i).k,
            L.pe (L.rOf hash value rnd i), fun _ => ?_⟩
          simp only [Bool.false_eq_true, if_false, progB, runW, Bool.not_false, if_true, L.inverseEI_pe,
            hm, Go.bind_ok, deref_some, Go.pure_eq, L.mult_pe, Lawful.e0Of]
    · exact ⟨0, 0, 0, nilPoint, fun h => absurd h hi⟩
  choose c s v rp hB using hB
  rw [proveRange_eq₂ hash cp n value rnd _ (fun i => ⟨rp i, L.pe (c i), some (s i), some (v i)⟩) _ hA hh
    hB, L.finishRange_pe, Go.ok.injEq, Prod.mk.injEq, Option.some.injEq] at h
  obtain ⟨rfl, -⟩ := h
  refine ⟨⟨pe_filled L _, by simp, ?_⟩, by simp⟩
  intro t ht
  simp only [List.mem_map] at ht
  obtain ⟨i, _, rfl⟩ := ht
  exact ⟨pe_filled L _, by simp⟩

/-! ### C123 -/

/-- C123 for generalized Schnorr proofs: for all points on the curve, secrets and draws. -/
theorem C123_gspfs (L : Lawful cp E) (hash : Bytes → Bytes) (b a : E) (x u : Int) (p : GSPFSProof)
    (h : newGSPFSProofBase hash cp (L.pe b) (L.pe a) x u = .ok (some p, none)) :
    Travels Ser.gspfsBytes Ser.gspfsFromBytes p :=
  Ser.C11_gspfs_roundtrip p (gspfs_filled L hash b a x u p h)

/-- C123 for equivalence proofs. -/
theorem C123_equivalence (L : Lawful cp E) (hash : Bytes → Bytes) (b1 r1 b2 r2 : E) (x u : Int)
    (p : EquivalenceProof)
    (h : newEquivalenceProof hash cp (L.pe b1) (L.pe r1) (L.pe b2) (L.pe r2) x u
      = .ok (some p, none)) : Travels Ser.equivalenceBytes Ser.equivalenceFromBytes p :=
  Ser.C11_equivalence_roundtrip p (equivalence_filled L hash _ _ _ _ _ _ p h)

/-- C123 for consistency proofs. -/
theorem C123_consistency (L : Lawful cp E) (hash : Bytes → Bytes) (cm tok pk : E)
    (v r u1 u2 : Int) (p : ConsistencyProof)
    (h : newConsistencyProof hash cp (L.pe cm) (L.pe tok) (L.pe pk) v r u1 u2
      = .ok (some p, none)) : Travels Ser.consistencyBytes Ser.consistencyFromBytes p :=
  Ser.C11_consistency_roundtrip p (consistency_filled L hash _ _ _ _ _ _ _ p h)

/-- C123 for disjunctive proofs, both sides. -/
theorem C123_disjunctive (L : Lawful cp E) (hash : Bytes → Bytes) (b1 r1 b2 r2 : E) (x : Int)
    (side : Side) (u1 u2 u3 : Int) (p : DisjunctiveProof)
    (h : newDisjunctiveProof hash cp (L.pe b1) (L.pe r1) (L.pe b2) (L.pe r2) x side u1 u2 u3
      = .ok (some p, none)) : Travels Ser.disjunctiveBytes Ser.disjunctiveFromBytes p :=
  Ser.C11_disjunctive_roundtrip p (disjunctive_filled L hash _ _ _ _ _ _ _ _ _ p h)

/-- C123 for ABC proofs, both sides. -/
theorem C123_abc (L : Lawful cp E) (hash : Bytes → Bytes) (cm tok : E) (v sk : Int) (side : Side)
    (rnd : ABCRand) (p : ABCProof)
    (h : newABCProof hash cp (L.pe cm) (L.pe tok) v sk side rnd = .ok (some p, none)) :
    Travels Ser.abcBytes Ser.abcFromBytes p :=
  Ser.C12_abc_roundtrip p (abc_filled L hash _ _ _ _ _ _ p h)

/-- C123 for inequality proofs, which are ABC proofs. -/
theorem C123_inequality (L : Lawful cp E) (hash : Bytes → Bytes) (A B tA tB : E) (a b sk : Int)
    (rnd : ABCRand) (p : ABCProof)
    (h : newInequalityProof hash cp (L.pe A) (L.pe B) (L.pe tA) (L.pe tB) a b sk rnd
      = .ok (some p, none)) : Travels Ser.abcBytes Ser.abcFromBytes p := by
  unfold newInequalityProof at h
  split at h
  · simp at h
  · simp only [L.sub_pe, Go.bind_ok] at h
    rw [Go.bind_eq_ok] at h
    obtain ⟨⟨r, e⟩, h1, h2⟩ := h
    split at h2
    · simp at h2
    · rename_i he
      simp only [Go.pure_eq, Go.ok.injEq, Prod.mk.injEq, and_true] at h2
      subst h2
      simp only [Option.isSome_iff_ne_none, ne_eq, not_not] at he
      subst he
      exact C123_abc L hash _ _ _ _ _ _ p h1

/-- C123 for range proofs, under every schedule of the goroutines.  The reader must be able to make a
slice of 40 tuples. -/
theorem C123_range (L : Lawful cp E) (hash : Bytes → Bytes) (value : Int) (rnd : Nat → BitRand)
    (p : RangeProof) (vTotal : Option Int)
    (h : NewRangeProofRuns hash cp value rnd (.ok (some p, vTotal, none))) (maxTuples : Nat)
    (hm : 40 ≤ maxTuples) :
    Travels Ser.rangeBytes (fun maxAlloc => Ser.rangeFromBytes maxAlloc maxTuples) p := by
  unfold NewRangeProofRuns at h
  split at h
  · simp at h
  · split at h
    · simp at h
    · rw [proveRuns_iff] at h
      obtain ⟨h1, h2⟩ := range_filled L hash _ (by decide) value rnd p vTotal none h.symm
      have h3 : p.ProofTuples.length = 40 := h2
      obtain ⟨enc, h4, h5⟩ := Ser.C13_range_roundtrip p h1 (by rw [h3]; norm_num)
      exact ⟨enc, h4, fun m rest a b => h5 m maxTuples rest a b (by omega)⟩

/-- An honest run, end to end: the prover's proof is written, read by somebody else and accepted.  The
conditions are those of C27, C32, C37 and C41. -/
theorem C123_delivered (L : Lawful cp E) (hash : Bytes → Bytes) :
    (∀ (b : E) (x u : Int), L.MultOk b → L.MultOk (x • b) →
      Delivered (newGSPFSProofBase hash cp (L.pe b) (L.pe (x • b)) x u) Ser.gspfsBytes
        Ser.gspfsFromBytes fun p => gspfsVerify hash cp p (L.pe (x • b))) ∧
    (∀ (b1 b2 r1 r2 : E) (x u : Int), mult cp (L.pe b1) (some x) = .ok (L.pe r1) →
      mult cp (L.pe b2) (some x) = .ok (L.pe r2) → L.MultOk r1 → L.MultOk r2 →
      Delivered (newEquivalenceProof hash cp (L.pe b1) (L.pe r1) (L.pe b2) (L.pe r2) x u)
        Ser.equivalenceBytes Ser.equivalenceFromBytes
        fun p => equivalenceVerify hash cp p (L.pe b1) (L.pe r1) (L.pe b2) (L.pe r2)) ∧
    (∀ (pk cm tok : E) (v r u1 u2 : Int), pedCommitR cp (some v) (some r) = .ok (L.pe cm) →
      mult cp (L.pe pk) (some r) = .ok (L.pe tok) → L.MultOk cm → L.MultOk tok →
      Delivered (newConsistencyProof hash cp (L.pe cm) (L.pe tok) (L.pe pk) v r u1 u2)
        Ser.consistencyBytes Ser.consistencyFromBytes
        fun p => consistencyVerify hash cp p (L.pe cm) (L.pe tok) (L.pe pk)) ∧
    (∀ (b1 r1 b2 r2 : E) (x u1 u2 u3 : Int), mult cp (L.pe b1) (some x) = .ok (L.pe r1) →
      L.MultOk r1 →
      Delivered (newDisjunctiveProof hash cp (L.pe b1) (L.pe r1) (L.pe b2) (L.pe r2) x Left u1 u2 u3)
        Ser.disjunctiveBytes Ser.disjunctiveFromBytes
        fun p => disjunctiveVerify hash cp p (L.pe b1) (L.pe r1) (L.pe b2) (L.pe r2)) ∧
    (∀ (b1 r1 b2 r2 : E) (x u1 u2 u3 : Int), mult cp (L.pe b2) (some x) = .ok (L.pe r2) →
      L.MultOk r2 →
      Delivered (newDisjunctiveProof hash cp (L.pe b1) (L.pe r1) (L.pe b2) (L.pe r2) x Right u1 u2 u3)
        Ser.disjunctiveBytes Ser.disjunctiveFromBytes
        fun p => disjunctiveVerify hash cp p (L.pe b1) (L.pe r1) (L.pe b2) (L.pe r2)) :=
  ⟨fun b x u o1 o2 => delivered_of (C27_completeness_partial L hash b x u o1 o2)
      (C123_gspfs L hash _ _ _ _),
    fun b1 b2 r1 r2 x u h1 h2 o1 o2 =>
      delivered_of (C32_completeness_partial L hash b1 b2 r1 r2 x u h1 h2 o1 o2)
        (C123_equivalence L hash _ _ _ _ _ _),
    fun pk cm tok v r u1 u2 h1 h2 o1 o2 =>
      delivered_of (C37_completeness_partial L hash pk cm tok v r u1 u2 h1 h2 o1 o2)
        (C123_consistency L hash _ _ _ _ _ _ _),
    fun b1 r1 b2 r2 x u1 u2 u3 h o =>
      delivered_of ((C41_completeness_partial L hash b1 r1 b2 r2 x u1 u2 u3).1 h o)
        (C123_disjunctive L hash _ _ _ _ _ _ _ _ _),
    fun b1 r1 b2 r2 x u1 u2 u3 h o =>
      delivered_of ((C41_completeness_partial L hash b1 r1 b2 r2 x u1 u2 u3).2 h o)
        (C123_disjunctive L hash _ _ _ _ _ _ _ _ _)⟩

/-- The same for ABC proofs, under the conditions of C45, and for inequality proofs, under those of
C49. -/
theorem C123_delivered_abc (L : Lawful cp E) (hash : Bytes → Bytes) (rnd : ABCRand) :
    (∀ (cm tok : E) (ua sk : Int), pedCommitR cp (some 0) (some ua) = .ok (L.pe cm) →
      tok = (ua * sk) • L.hb → ¬ (cp.C.N : Int) ∣ sk → L.MultOk cm → L.MultOk tok →
      L.MultOk (rnd.uc • L.hb) →
      Delivered (newABCProof hash cp (L.pe cm) (L.pe tok) 0 sk Left rnd) Ser.abcBytes
        Ser.abcFromBytes fun p => abcVerify hash cp p (L.pe cm) (L.pe tok)) ∧
    (∀ (cm tok : E) (v w ua sk : Int), pedCommitR cp (some v) (some ua) = .ok (L.pe cm) →
      tok = (ua * sk) • L.hb → ¬ (cp.C.N : Int) ∣ sk → w * v ≡ 1 [ZMOD cp.C.N] →
      L.MultOk cm → L.MultOk tok → L.MultOk (rnd.uc • L.hb) →
      L.MultOk (w • L.g + rnd.ub • L.hb) → L.MultOk (L.g + rnd.uc • L.hb) →
      Delivered (newABCProof hash cp (L.pe cm) (L.pe tok) v sk Right rnd) Ser.abcBytes
        Ser.abcFromBytes fun p => abcVerify hash cp p (L.pe cm) (L.pe tok)) ∧
    (∀ (A B tA tB : E) (a b ra rb sk w : Int), Committed L A B tA tB a b ra rb sk →
      ¬ (cp.C.N : Int) ∣ sk → w * (a - b) ≡ 1 [ZMOD cp.C.N] →
      L.MultOk (A - B) → L.MultOk (tA - tB) → L.MultOk (rnd.uc • L.hb) →
      L.MultOk (w • L.g + rnd.ub • L.hb) → L.MultOk (L.g + rnd.uc • L.hb) →
      Delivered (newInequalityProof hash cp (L.pe A) (L.pe B) (L.pe tA) (L.pe tB) a b sk rnd)
        Ser.abcBytes Ser.abcFromBytes
        fun p => inequalityVerify hash cp p (L.pe (A - B)) (L.pe (tA - tB))) :=
  ⟨fun cm tok ua sk h1 h2 h3 o1 o2 o3 =>
      delivered_of (C45_completeness_left_partial L hash cm tok ua sk rnd h1 h2 h3 o1 o2 o3)
        (C123_abc L hash _ _ _ _ _ _),
    fun cm tok v w ua sk h1 h2 h3 h4 o1 o2 o3 o4 o5 =>
      delivered_of (C45_completeness_right_partial L hash cm tok v w ua sk rnd h1 h2 h3 h4 o1 o2 o3 o4 o5)
        (C123_abc L hash _ _ _ _ _ _),
    fun A B tA tB a b ra rb sk w h1 h2 h3 o1 o2 o3 o4 o5 =>
      delivered_of (C49_completeness_partial L hash A B tA tB a b ra rb sk w rnd h1 h2 h3 o1 o2 o3 o4 o5)
        (C123_inequality L hash _ _ _ _ _ _ _ _)⟩

/-- The same for range proofs, under the conditions of C52 and under every schedule of the prover's
goroutines. -/
theorem C123_delivered_range (L : Lawful cp E) (hash : Bytes → Bytes) (value : Int)
    (h0 : 0 ≤ value) (h : value < 2 ^ 40) (rnd : Nat → BitRand)
    (lucky : LuckyDraws L hash 40 value rnd) :
    ∃ (proof : RangeProof) (vTotal : Int) (comm : ECPoint) (enc : Bytes),
      (∀ r, NewRangeProofRuns hash cp value rnd r ↔ r = .ok (some proof, some vTotal, none)) ∧
      pedCommitR cp (some value) (some vTotal) = .ok comm ∧ Ser.rangeBytes proof = .ok enc ∧
      ∀ maxAlloc maxTuples, enc.length ≤ maxAlloc → maxAlloc < 2 ^ 63 → 40 ≤ maxTuples →
        (do let r ← Ser.rangeFromBytes maxAlloc maxTuples enc
            rangeVerify hash cp r.1 comm) = .ok accept := by
  obtain ⟨proof, vTotal, comm, h1, h2, h3, -⟩ :=
    C52_completeness_partial L hash value h0 h rnd lucky
  obtain ⟨enc, h4, -⟩ := C123_range L hash value rnd proof _ ((h1 _).2 rfl) 40 le_rfl
  refine ⟨proof, vTotal, comm, enc, h1, h2, h4, fun m mt a b c => ?_⟩
  obtain ⟨enc', h4', h5⟩ := C123_range L hash value rnd proof _ ((h1 _).2 rfl) mt c
  rw [h4, Go.ok.injEq] at h4'
  subst h4'
  have : Ser.rangeFromBytes m mt enc = .ok (some proof, none) := by
    have := h5 m [] a b
    rwa [List.append_nil] at this
  rw [this, Go.bind_ok, h3]

/-- Provers that return a proof, and points where the conditions hold. -/
example : ∃ p, newGSPFSProofBase (fun _ => [5]) Toy.params (Toy.lawful.pe 3)
    (Toy.lawful.pe ((6 : Int) • 3)) 6 2 = .ok (some p, none) :=
  ⟨_, newGSPFSProofBase_ok Toy.lawful _ 3 6 2⟩

example : ∃ p, newDisjunctiveProof (fun _ => [5]) Toy.params (Toy.lawful.pe 3) (Toy.lawful.pe 4)
    (Toy.lawful.pe 1) (Toy.lawful.pe 5) 6 Left 1 2 3 = .ok (some p, none) :=
  ⟨_, newDisjunctiveProof_left Toy.lawful _ 3 4 1 5 6 1 2 3
    (by rw [Toy.eff_plain 3 (by decide)]; exact Toy.lawful.same_iff.2 (Or.inl (by decide)))⟩

example : ∃ p, newABCProof (fun _ => [5]) Toy.params (Toy.lawful.pe 3) (Toy.lawful.pe 4) 6 1 Right
    ⟨1, 1, 1, 6, 1, 0, 0, 0⟩ = .ok (some p, none) := by
  obtain ⟨isk, hi, _⟩ := modInverse_some Toy.lawful.prime (z := 1) (by decide)
  obtain ⟨w, hw1, _⟩ := modInverse_some Toy.lawful.prime (z := 6) (by decide)
  obtain ⟨ct, hrun⟩ := newABCProof_right Toy.lawful (fun _ => [5]) 3 4 6 w 1 ⟨1, 1, 1, 6, 1, 0, 0, 0⟩
    (by decide) hw1
  rw [Toy.lawful.finishABC_pe _ _ _ _ _ _ _ _ _ _ _ hi] at hrun
  exact ⟨_, hrun⟩

end Zk.Proto
