import Verif.Hostile.Lemmas

/-!
# Property C154: verifying a received proof does not crash

The parameters are those of `TestCurve`.  A proof is received by deserializing bytes.
-/

namespace Zk.Hostile

open Zk Zk.Proto Zk.Curve Zk.Ser

variable {cp : Params}

theorem eq_tc (hcp : testCurve = .ok cp) : cp = tc := by
  rw [testCurve_eq] at hcp
  exact (Go.ok.inj hcp).symm

theorem challenge_ok {hash : Bytes → Bytes} {ps : List ECPoint} (h : ∀ p ∈ ps, p.Filled) :
    ∃ c, challengeOf hash tc ps = .ok c := by
  obtain ⟨c, hc, -⟩ := challengeOf_gives (hash := hash) h
  exact ⟨c, hc⟩

/-- C154 is false for GSPFS proofs: for every statement and every base whose first coordinate takes more
than 32 bytes, there is a proof with all fields that survives serialization and crashes `Verify`. -/
theorem C154_gspfs_refuted (hcp : testCurve = .ok cp) (hash : Bytes → Bytes) (A X : ECPoint) (hA : A.Filled)
    (hX : Big X) : ∃ (p : GSPFSProof) (b : Bytes), p.Filled ∧ p.Base = X ∧ gspfsBytes p = .ok b ∧
      (∀ maxAlloc rest, b.length ≤ maxAlloc → maxAlloc < 2 ^ 63 →
        gspfsFromBytes maxAlloc (b ++ rest) = .ok (some p, none)) ∧
      gspfsVerify hash cp (some p) A = .panic := by
  obtain rfl := eq_tc hcp
  obtain ⟨c, hc⟩ := challenge_ok (hash := hash) (ps := [A, Zero]) (by simpa using ⟨hA, small_Zero.filled⟩)
  have hp : (⟨X, Zero, some 0, some c⟩ : GSPFSProof).Filled := ⟨hX.filled, small_Zero.filled, by simp, by simp⟩
  obtain ⟨b, h1, h2⟩ := C11_gspfs_roundtrip _ hp
  refine ⟨_, b, hp, rfl, h1, h2, ?_⟩
  simp only [gspfsVerify, hc, Go.bind_ok, cmpEq, decide_true, Bool.not_true, Bool.false_eq_true, if_false, mult_big hX,
    Go.bind_panic]

/-- C154 is false for equivalence proofs, with a first commitment of this kind. -/
theorem C154_equivalence_refuted (hcp : testCurve = .ok cp) (hash : Bytes → Bytes) (B1 R1 B2 R2 X : ECPoint)
    (h1 : Small B1) (h2 : Small R1) (h3 : B2.Filled) (h4 : R2.Filled) (hX : Big X) :
    ∃ (p : EquivalenceProof) (b : Bytes), p.Filled ∧ p.UG = X ∧ equivalenceBytes p = .ok b ∧
      (∀ maxAlloc rest, b.length ≤ maxAlloc → maxAlloc < 2 ^ 63 →
        equivalenceFromBytes maxAlloc (b ++ rest) = .ok (some p, none)) ∧
      equivalenceVerify hash cp (some p) B1 R1 B2 R2 = .panic := by
  obtain rfl := eq_tc hcp
  obtain ⟨c, hc⟩ := challenge_ok (hash := hash) (ps := [B1, R1, B2, R2, X, Zero]) (by
    simpa using ⟨h1.filled, h2.filled, h3, h4, hX.filled, small_Zero.filled⟩)
  have hp : (⟨X, Zero, some c, some 0⟩ : EquivalenceProof).Filled :=
    ⟨hX.filled, small_Zero.filled, by simp, by simp⟩
  obtain ⟨b, g1, g2⟩ := C11_equivalence_roundtrip _ hp
  refine ⟨_, b, hp, rfl, g1, g2, ?_⟩
  obtain ⟨u, hu, -⟩ := mult_small h1 0
  obtain ⟨v, hv, sv⟩ := mult_small h2 c
  simp only [equivalenceVerify, hc, Go.bind_ok, cmpEq, decide_true, Bool.not_true, Bool.false_eq_true, if_false, hu, hv,
    add_big hX sv, Go.bind_panic]

/-- C154 is false for consistency proofs, with a first commitment of this kind. -/
theorem C154_consistency_refuted (hcp : testCurve = .ok cp) (hash : Bytes → Bytes) (CM CMTok PubKey X : ECPoint)
    (h1 : Small CM) (h2 : CMTok.Filled) (h3 : PubKey.Filled) (hX : Big X) :
    ∃ (p : ConsistencyProof) (b : Bytes), p.Filled ∧ p.T1 = X ∧ consistencyBytes p = .ok b ∧
      (∀ maxAlloc rest, b.length ≤ maxAlloc → maxAlloc < 2 ^ 63 →
        consistencyFromBytes maxAlloc (b ++ rest) = .ok (some p, none)) ∧
      consistencyVerify hash cp (some p) CM CMTok PubKey = .panic := by
  obtain rfl := eq_tc hcp
  obtain ⟨c, hc⟩ := challenge_ok (hash := hash) (ps := [tc.G, tc.H, CM, CMTok, PubKey, X, Zero]) (by
    simpa using ⟨small_G.filled, small_H.filled, h1.filled, h2, h3, hX.filled, small_Zero.filled⟩)
  have hp : (⟨X, Zero, some c, some 0, some 0⟩ : ConsistencyProof).Filled :=
    ⟨hX.filled, small_Zero.filled, by simp, by simp, by simp⟩
  obtain ⟨b, g1, g2⟩ := C11_consistency_roundtrip _ hp
  refine ⟨_, b, hp, rfl, g1, g2, ?_⟩
  obtain ⟨u, hu, -⟩ := pedCommitR_small 0 0
  obtain ⟨v, hv, sv⟩ := mult_small h1 c
  simp only [consistencyVerify, hc, Go.bind_ok, cmpEq, decide_true, Bool.not_true, Bool.false_eq_true, if_false, hu, hv,
    add_big hX sv, Go.bind_panic]

/-- C154 is false for disjunctive proofs, with a first commitment of this kind. -/
theorem C154_disjunctive_refuted (hcp : testCurve = .ok cp) (hash : Bytes → Bytes) (B1 R1 B2 R2 X : ECPoint)
    (h1 : B1.Filled) (h2 : Small R1) (h3 : B2.Filled) (h4 : R2.Filled) (hX : Big X) :
    ∃ (p : DisjunctiveProof) (b : Bytes), p.Filled ∧ p.T1 = X ∧ disjunctiveBytes p = .ok b ∧
      (∀ maxAlloc rest, b.length ≤ maxAlloc → maxAlloc < 2 ^ 63 →
        disjunctiveFromBytes maxAlloc (b ++ rest) = .ok (some p, none)) ∧
      disjunctiveVerify hash cp (some p) B1 R1 B2 R2 = .panic := by
  obtain rfl := eq_tc hcp
  obtain ⟨bs, hbs, -⟩ := mapM_gives (l := [B1, R1, B2, R2, X, Zero]) (f := pointBytes) (P := fun _ => True)
    fun q hq => pointBytes_gives (by
      simp only [List.mem_cons, List.not_mem_nil, or_false] at hq
      rcases hq with rfl | rfl | rfl | rfl | rfl | rfl
      exacts [h1, h2.filled, h3, h4, hX.filled, small_Zero.filled])
  have hc : challengeOf hash tc [B1, R1, B2, R2, X, Zero] = .ok (generateChallenge hash tc bs) := by
    rw [challengeOf, hbs]; rfl
  have hm : generateChallenge hash tc bs % (tc.C.N : Int) = generateChallenge hash tc bs := by
    rw [generateChallenge, Int.emod_emod_of_dvd _ dvd_rfl]
  generalize generateChallenge hash tc bs = c at *
  have hp : (⟨X, Zero, some c, some c, some 0, some 0, some 0⟩ : DisjunctiveProof).Filled :=
    ⟨hX.filled, small_Zero.filled, by simp, by simp, by simp, by simp, by simp⟩
  obtain ⟨b, g1, g2⟩ := C11_disjunctive_roundtrip _ hp
  refine ⟨_, b, hp, rfl, g1, g2, ?_⟩
  obtain ⟨v, hv, sv⟩ := mult_small h2 c
  simp only [disjunctiveVerify, hc, Go.bind_ok, cmpEq, decide_true, Bool.not_true, Bool.false_eq_true, if_false,
    deref_some, add_zero, hm, hv, add_big hX sv, Go.bind_panic]

/-- C154 is false for ABC proofs: whenever the commitment C has such a coordinate, whatever the rest of the
proof is and without any hashing, `Verify` crashes. -/
theorem C154_abc_refuted (hcp : testCurve = .ok cp) (p : ABCProof) (hp : p.Filled) (hX : Big p.C) :
    (∃ b, abcBytes p = .ok b ∧ ∀ maxAlloc rest, b.length ≤ maxAlloc → maxAlloc < 2 ^ 63 →
      abcFromBytes maxAlloc (b ++ rest) = .ok (some p, none)) ∧
    ∀ hash CM CMTok, abcVerify hash cp (some p) CM CMTok = .panic ∧
      inequalityVerify hash cp (some p) CM CMTok = .panic := by
  obtain rfl := eq_tc hcp
  refine ⟨C12_abc_roundtrip p hp, fun hash CM CMTok => ?_⟩
  have : abcVerify hash tc (some p) CM CMTok = .panic := by
    rw [abcVerify, deref_some, Go.bind_ok, sub_big hX small_G, Go.bind_panic]
  exact ⟨this, this⟩

/-- C154 is false for range proofs: with one such tuple, every schedule of `Verify` that ends, ends in a
crash, whatever the rest of the proof is. -/
theorem C154_range_refuted (hcp : testCurve = .ok cp) (p : RangeProof) (hp : p.Filled)
    (hl : p.ProofTuples.length < 2 ^ 64) (hX : ∃ t ∈ p.ProofTuples, Big t.C) :
    (∃ b, rangeBytes p = .ok b ∧ ∀ maxAlloc maxTuples rest, b.length ≤ maxAlloc → maxAlloc < 2 ^ 63 →
      p.ProofTuples.length ≤ maxTuples → rangeFromBytes maxAlloc maxTuples (b ++ rest) = .ok (some p, none)) ∧
    ∀ hash comm s r, VState.Reach hash cp p comm s → s.main = .ret r → r = .panic := by
  obtain rfl := eq_tc hcp
  refine ⟨C13_range_roundtrip p hp hl, fun hash comm s r hs hr => ?_⟩
  have hn : ∀ t ∈ p.ProofTuples, t.C.X ≠ none ∧ t.S ≠ none := fun t ht => by
    obtain ⟨⟨x, y, -, -, e⟩, h2⟩ := hp.2.2 t ht
    exact ⟨by rw [e]; simp [pt], h2⟩
  have hn' : ∀ t ∈ p.ProofTuples, tupleNil t = false := fun t ht => by
    have := hn t ht
    simp only [tupleNil, Bool.or_eq_false_iff, Option.isNone_eq_false_iff, Option.isSome_iff_ne_none]
    exact this
  by_cases h64 : 64 < p.ProofTuples.length
  · exact C56_too_many_tuples_crash lawful hash p comm h64 hn s hs r hr
  obtain ⟨t, ht, hb⟩ := hX
  obtain ⟨i, hi, e⟩ := List.getElem_of_mem ht
  rw [(C54_schedules_partial tc hash p comm hn).1 s r hs hr]
  refine VState.rangeVerify_gen_panic hn' hi ?_
  rw [gen, List.getElem?_eq_getElem hi, e]
  obtain ⟨S, hS⟩ := Option.ne_none_iff_exists'.1 (hn t ht).2
  obtain ⟨q, hq, sq⟩ := mult_small small_H S
  obtain ⟨hpt, hh, sh⟩ := hpoint_small (show i < 64 by omega)
  obtain ⟨nh, hnh, snh⟩ := neg_small sh
  simp only [verifyGen, hS, hq, Go.bind_ok, hh, hnh, add_big hb snh, Go.bind_panic]

/-! ## What holds -/

/-- C154 for GSPFS proofs, what holds: if no field is nil and no coordinate, of the proof and of the
statement, takes more than 32 bytes, `Verify` returns; the points need not be curve points.  Missing:
larger coordinates, and the nil fields that truncated bytes give. -/
theorem C154_gspfs_partial (hcp : testCurve = .ok cp) (hash : Bytes → Bytes) (p : GSPFSProof) (A : ECPoint)
    (hA : Small A) (h1 : Small p.Base) (h2 : Small p.RandCommit) (h3 : p.HiddenValue ≠ none) (h4 : p.Challenge ≠ none) :
    ∃ r, gspfsVerify hash cp (some p) A = .ok r := by
  obtain rfl := eq_tc hcp
  obtain ⟨b, rc, hv, ch⟩ := p
  obtain ⟨v, rfl⟩ := Option.ne_none_iff_exists'.1 h3
  obtain ⟨c, rfl⟩ := Option.ne_none_iff_exists'.1 h4
  suffices h : Gives (gspfsVerify hash tc (some ⟨b, rc, some v, some c⟩) A) fun _ => True from
    ⟨_, h.choose_spec.1⟩
  refine (challengeOf_gives (by simpa using ⟨hA.filled, h2.filled⟩)).bind fun _ _ => ?_
  refine (cmpEq_gives _ _).bind fun _ _ => .ite (.ret trivial) ?_
  refine (mult_small h1 v).bind fun s hs => (mult_small hA c).bind fun a ha => ?_
  refine (add_small hs ha).bind fun t ht => (equal_small h2 ht).bind fun _ _ => ?_
  exact .ite (.ret trivial) (.ret trivial)

/-- C154 for equivalence proofs, what holds.  Missing: as above. -/
theorem C154_equivalence_partial (hcp : testCurve = .ok cp) (hash : Bytes → Bytes) (p : EquivalenceProof)
    (B1 R1 B2 R2 : ECPoint) (a1 : Small B1) (a2 : Small R1) (a3 : Small B2) (a4 : Small R2) (h1 : Small p.UG)
    (h2 : Small p.UH) (h3 : p.Challenge ≠ none) (h4 : p.HiddenValue ≠ none) :
    ∃ r, equivalenceVerify hash cp (some p) B1 R1 B2 R2 = .ok r := by
  obtain rfl := eq_tc hcp
  obtain ⟨ug, uh, ch, hv⟩ := p
  obtain ⟨c, rfl⟩ := Option.ne_none_iff_exists'.1 h3
  obtain ⟨v, rfl⟩ := Option.ne_none_iff_exists'.1 h4
  suffices h : Gives (equivalenceVerify hash tc (some ⟨ug, uh, some c, some v⟩) B1 R1 B2 R2) fun _ => True from
    ⟨_, h.choose_spec.1⟩
  refine (challengeOf_gives (by
    simpa using ⟨a1.filled, a2.filled, a3.filled, a4.filled, h1.filled, h2.filled⟩)).bind fun _ _ => ?_
  refine (cmpEq_gives _ _).bind fun _ _ => .ite (.ret trivial) ?_
  refine (mult_small a1 v).bind fun s hs => (mult_small a2 c).bind fun a ha => ?_
  refine (add_small h1 ha).bind fun t ht => (equal_small hs ht).bind fun _ _ => .ite (.ret trivial) ?_
  refine (mult_small a3 v).bind fun s hs => (mult_small a4 c).bind fun a ha => ?_
  refine (add_small h2 ha).bind fun t ht => (equal_small hs ht).bind fun _ _ => ?_
  exact .ite (.ret trivial) (.ret trivial)

/-- C154 for consistency proofs, what holds.  Missing: as above. -/
theorem C154_consistency_partial (hcp : testCurve = .ok cp) (hash : Bytes → Bytes) (p : ConsistencyProof)
    (CM CMTok PubKey : ECPoint) (a1 : Small CM) (a2 : Small CMTok) (a3 : Small PubKey) (h1 : Small p.T1)
    (h2 : Small p.T2) (h3 : p.Challenge ≠ none) (h4 : p.S1 ≠ none) (h5 : p.S2 ≠ none) :
    ∃ r, consistencyVerify hash cp (some p) CM CMTok PubKey = .ok r := by
  obtain rfl := eq_tc hcp
  obtain ⟨t1, t2, ch, s1, s2⟩ := p
  obtain ⟨c, rfl⟩ := Option.ne_none_iff_exists'.1 h3
  obtain ⟨v, rfl⟩ := Option.ne_none_iff_exists'.1 h4
  obtain ⟨w, rfl⟩ := Option.ne_none_iff_exists'.1 h5
  suffices h : Gives (consistencyVerify hash tc (some ⟨t1, t2, some c, some v, some w⟩) CM CMTok PubKey)
    fun _ => True from ⟨_, h.choose_spec.1⟩
  refine (challengeOf_gives (by simpa using
    ⟨small_G.filled, small_H.filled, a1.filled, a2.filled, a3.filled, h1.filled, h2.filled⟩)).bind fun e _ => ?_
  refine (cmpEq_gives _ _).bind fun _ _ => .ite (.ret trivial) ?_
  refine (pedCommitR_small v w).bind fun s hs => (mult_small a1 e).bind fun a ha => ?_
  refine (add_small h1 ha).bind fun t ht => (equal_small hs ht).bind fun _ _ => .ite (.ret trivial) ?_
  refine (mult_small a3 w).bind fun s hs => (mult_small a2 e).bind fun a ha => ?_
  refine (add_small h2 ha).bind fun t ht => (equal_small hs ht).bind fun _ _ => ?_
  exact .ite (.ret trivial) (.ret trivial)

/-- No field nil, no large coordinate.  See disjunctive.go:45-53. -/
def SmallDisjunctive (p : DisjunctiveProof) : Prop :=
  Small p.T1 ∧ Small p.T2 ∧ p.C ≠ none ∧ p.C1 ≠ none ∧ p.C2 ≠ none ∧ p.S1 ≠ none ∧ p.S2 ≠ none

theorem disjunctive_gives (hash : Bytes → Bytes) {p : DisjunctiveProof} {B1 R1 B2 R2 : ECPoint} (a1 : Small B1)
    (a2 : Small R1) (a3 : Small B2) (a4 : Small R2) (hp : SmallDisjunctive p) :
    Gives (disjunctiveVerify hash tc (some p) B1 R1 B2 R2) fun _ => True := by
  obtain ⟨t1, t2, ch, c1, c2, s1, s2⟩ := p
  obtain ⟨h1, h2, h3, h4, h5, h6, h7⟩ := hp
  obtain ⟨c, rfl⟩ := Option.ne_none_iff_exists'.1 h3
  obtain ⟨c1, rfl⟩ := Option.ne_none_iff_exists'.1 h4
  obtain ⟨c2, rfl⟩ := Option.ne_none_iff_exists'.1 h5
  obtain ⟨s1, rfl⟩ := Option.ne_none_iff_exists'.1 h6
  obtain ⟨s2, rfl⟩ := Option.ne_none_iff_exists'.1 h7
  refine (challengeOf_gives (by
    simpa using ⟨a1.filled, a2.filled, a3.filled, a4.filled, h1.filled, h2.filled⟩)).bind fun _ _ => ?_
  refine (cmpEq_gives _ _).bind fun _ _ => .ite (.ret trivial) ?_
  refine Gives.bind (P := fun _ => True) ⟨c1, rfl, trivial⟩ fun d1 _ => ?_
  refine Gives.bind (P := fun _ => True) ⟨c2, rfl, trivial⟩ fun d2 _ => ?_
  refine (cmpEq_gives _ _).bind fun _ _ => .ite (.ret trivial) ?_
  refine (mult_small a2 c1).bind fun a ha => (add_small h1 ha).bind fun t ht => ?_
  refine (mult_small a1 s1).bind fun s hs => (equal_small ht hs).bind fun _ _ => .ite (.ret trivial) ?_
  refine (mult_small a4 c2).bind fun a ha => (add_small ha h2).bind fun t ht => ?_
  refine (mult_small a3 s2).bind fun s hs => (equal_small ht hs).bind fun _ _ => ?_
  exact .ite (.ret trivial) (.ret trivial)

/-- C154 for disjunctive proofs, what holds.  Missing: as above. -/
theorem C154_disjunctive_partial (hcp : testCurve = .ok cp) (hash : Bytes → Bytes) (p : DisjunctiveProof)
    (B1 R1 B2 R2 : ECPoint) (a1 : Small B1) (a2 : Small R1) (a3 : Small B2) (a4 : Small R2)
    (hp : SmallDisjunctive p) : ∃ r, disjunctiveVerify hash cp (some p) B1 R1 B2 R2 = .ok r := by
  obtain rfl := eq_tc hcp
  exact ⟨_, (disjunctive_gives hash a1 a2 a3 a4 hp).choose_spec.1⟩

/-- C154 for ABC proofs and inequality proofs, what holds; the nested proof may be missing.  Missing: as
above. -/
theorem C154_abc_partial (hcp : testCurve = .ok cp) (hash : Bytes → Bytes) (p : ABCProof) (CM CMTok : ECPoint)
    (a1 : Small CM) (a2 : Small CMTok) (h1 : Small p.B) (h2 : Small p.C) (h3 : Small p.T1) (h4 : Small p.T2)
    (h5 : p.Challenge ≠ none) (h6 : p.j ≠ none) (h7 : p.k ≠ none) (h8 : p.l ≠ none)
    (h9 : ∀ d, p.disjuncAC = some d → SmallDisjunctive d) :
    (∃ r, abcVerify hash cp (some p) CM CMTok = .ok r) ∧ ∃ r, inequalityVerify hash cp (some p) CM CMTok = .ok r := by
  obtain rfl := eq_tc hcp
  suffices h : ∃ r, abcVerify hash tc (some p) CM CMTok = .ok r from ⟨h, h⟩
  obtain ⟨B, C, T1, T2, ch, j, k, l, ct, dj⟩ := p
  obtain ⟨c, rfl⟩ := Option.ne_none_iff_exists'.1 h5
  obtain ⟨j, rfl⟩ := Option.ne_none_iff_exists'.1 h6
  obtain ⟨k, rfl⟩ := Option.ne_none_iff_exists'.1 h7
  obtain ⟨l, rfl⟩ := Option.ne_none_iff_exists'.1 h8
  suffices h : Gives (abcVerify hash tc (some ⟨B, C, T1, T2, some c, some j, some k, some l, ct, dj⟩) CM CMTok)
    fun _ => True from ⟨_, h.choose_spec.1⟩
  refine Gives.bind (P := fun p' => p' = _) ⟨_, rfl, rfl⟩ fun p' e => ?_
  subst e
  refine (sub_small h2 small_G).bind fun D hD => ?_
  refine Gives.bind (P := fun _ => True) ?_ fun st _ => .ite (.ret trivial) ?_
  · cases dj with
    | none => exact ⟨_, rfl, trivial⟩
    | some d => exact disjunctive_gives hash a1 a2 small_H hD (h9 d rfl)
  refine (challengeOf_gives (by simpa using ⟨small_G.filled, small_H.filled, a1.filled, a2.filled, h1.filled,
    h2.filled, h3.filled, h4.filled⟩)).bind fun e _ => ?_
  refine (cmpEq_gives _ _).bind fun _ _ => .ite (.ret trivial) ?_
  refine (mult_small a1 e).bind fun a ha => (add_small ha h3).bind fun x hx => ?_
  refine (mult_small small_G j).bind fun u hu => (mult_small a2 k).bind fun v hv => ?_
  refine (add_small hu hv).bind fun y hy => (equal_small hx hy).bind fun _ _ => .ite (.ret trivial) ?_
  refine (mult_small h2 e).bind fun a ha => (add_small ha h4).bind fun x hx => ?_
  refine (mult_small h1 j).bind fun u hu => (mult_small small_H l).bind fun v hv => ?_
  refine (add_small hu hv).bind fun y hy => (equal_small hx hy).bind fun _ _ => ?_
  exact .ite (.ret trivial) (.ret trivial)

theorem foldlM_gives {α β : Type} {f : β → α → Go β} {P : β → Prop} : ∀ {l : List α} {b : β}, P b →
    (∀ a ∈ l, ∀ b, P b → Gives (f b a) P) → Gives (l.foldlM f b) P
  | [], b, hb, _ => ⟨b, rfl, hb⟩
  | a :: l, b, hb, h => by
    rw [List.foldlM_cons]
    exact (h a (by simp) b hb).bind fun c hc => foldlM_gives hc fun a' ha' => h a' (by simp [ha'])

theorem verifyGen_gives (hash : Bytes → Bytes) {i : ℕ} (hi : i < 64) (e : Int) {t : RangeProofTuple} (hC : Small t.C)
    (hS : t.S ≠ none) : Gives (verifyGen hash tc i (some e) t) Small := by
  obtain ⟨C, S⟩ := t
  obtain ⟨s, rfl⟩ := Option.ne_none_iff_exists'.1 hS
  refine (mult_small small_H s).bind fun l hl => (hpoint_small hi).bind fun hp sh => ?_
  refine (neg_small sh).bind fun nh snh => (add_small hC snh).bind fun r hr => ?_
  refine (mult_small hr e).bind fun m hm => (neg_small hm).bind fun n hn => (add_small hl hn).bind fun t ht => ?_
  refine Gives.bind (P := fun _ => True) ?_ fun x _ => mult_small hC x
  exact (pointBytes_gives ht.filled).bind fun b _ => .ret trivial

/-- C154 for range proofs, what holds: with at most 64 tuples, no nil field and no large coordinate, no
schedule of `Verify` crashes, and none goes on for ever.  Missing: as above, and proofs of more tuples. -/
theorem C154_range_partial (hcp : testCurve = .ok cp) (hash : Bytes → Bytes) (p : RangeProof) (comm : ECPoint)
    (hl : p.ProofTuples.length ≤ 64) (hc : Small comm) (h1 : Small p.ProofAggregate) (h2 : p.ProofE ≠ none)
    (h3 : ∀ t ∈ p.ProofTuples, Small t.C ∧ t.S ≠ none) :
    (∃ r, rangeVerify hash cp (some p) comm = .ok r ∧
      ∀ s r', VState.Reach hash cp p comm s → s.main = .ret r' → r' = .ok r) ∧
    (∀ s, VState.Reach hash cp p comm s → (∃ r, s.main = .ret r) ∨ ∃ s', VState.Step hash cp p comm s s') ∧
    ∃ measure : VState → Nat, ∀ s s', VState.Reach hash cp p comm s → (∀ r, s.main ≠ .ret r) →
      VState.Step hash cp p comm s s' → measure s' < measure s := by
  obtain rfl := eq_tc hcp
  have hn : ∀ t ∈ p.ProofTuples, t.C.X ≠ none ∧ t.S ≠ none := fun t ht => by
    obtain ⟨hs, h2⟩ := h3 t ht
    obtain ⟨x, y, e⟩ := hs.some
    exact ⟨by rw [e]; simp [pt], h2⟩
  obtain ⟨g1, g2, g3⟩ := C54_schedules_partial tc hash p comm hn
  refine ⟨?_, g2, g3⟩
  suffices h : Gives (rangeVerify hash tc (some p) comm) fun _ => True by
    obtain ⟨r, hr, -⟩ := h
    exact ⟨r, hr, fun s r' hs hm => (g1 s r' hs hm).trans hr⟩
  obtain ⟨agg, e, ts⟩ := p
  obtain ⟨e, rfl⟩ := Option.ne_none_iff_exists'.1 h2
  simp only at h1 h3 hl
  refine Gives.ite ⟨_, rfl, trivial⟩ ?_
  refine (mapM_gives (P := Small) fun t ht => ?_).bind fun Rs hRs => ?_
  · have hm := List.mem_zipIdx ht
    have := h3 t.1 (by rw [hm.2.2]; exact List.getElem_mem _)
    have hi : t.2 < ts.length := by simpa using hm.2.1
    exact verifyGen_gives hash (by omega) e this.1 this.2
  refine (foldlM_gives (P := Small) small_Zero fun t ht a ha => add_small ha (h3 t ht).1).bind fun tot htot => ?_
  refine Gives.bind (P := fun _ => True) ?_ fun x _ => ?_
  · exact (mapM_gives fun q hq => pointBytes_gives (hRs q hq).filled).bind fun b _ => .ret trivial
  refine (cmpEq_gives _ _).bind fun _ _ => .ite (.ret trivial) ?_
  refine (equal_small htot h1).bind fun _ _ => .ite (.ret trivial) ?_
  refine (equal_small hc htot).bind fun _ _ => .ite (.ret trivial) (.ret trivial)

/-! ## The cases meet the hypotheses -/

example : testCurve = .ok tc := testCurve_eq

/-- A point with a coordinate of 33 bytes. -/
example : Big (pt (2 ^ 256 + 5 : ℕ) 7) := ⟨2 ^ 256 + 5, 7, by omega, rfl⟩

/-- Points that are not on the curve, one of them with coordinates above the field modulus. -/
example : Small (pt 5 5) ∧ Small (pt (2 ^ 256 - 1 : ℕ) (2 ^ 256 - 1 : ℕ)) ∧ isOnCurve 5 5 = .ok false :=
  ⟨⟨5, 5, by decide, by decide, rfl⟩, ⟨_, _, by decide, by decide, rfl⟩, by decide +kernel⟩

/-- An ABC proof as C154_abc_refuted takes it. -/
example : ∃ p : ABCProof, p.Filled ∧ Big p.C := by
  have f : ∀ x y : ℕ, (pt x y).Filled := fun x y => ⟨x, y, Int.natCast_nonneg _, Int.natCast_nonneg _, rfl⟩
  exact ⟨⟨pt (1 : ℕ) (2 : ℕ), pt (2 ^ 256 : ℕ) (0 : ℕ), pt (3 : ℕ) (4 : ℕ), pt (5 : ℕ) (6 : ℕ), some 1, some 2, some 3,
    some 4, pt (7 : ℕ) (8 : ℕ), some ⟨pt (1 : ℕ) (1 : ℕ), pt (2 : ℕ) (2 : ℕ), some 1, some 1, some 0, some 5, some 6⟩⟩,
    ⟨f _ _, f _ _, f _ _, f _ _, by simp, by simp, by simp, by simp, f _ _, _,
      ⟨f _ _, f _ _, by simp, by simp, by simp, by simp, by simp⟩, rfl⟩, _, _, le_rfl, rfl⟩

/-- A range proof as C154_range_refuted takes it, and one as C154_range_partial does. -/
example : (∃ p : RangeProof, p.Filled ∧ p.ProofTuples.length < 2 ^ 64 ∧ ∃ t ∈ p.ProofTuples, Big t.C) ∧
    ∃ p : RangeProof, p.ProofTuples.length ≤ 64 ∧ p.ProofTuples ≠ [] ∧ Small p.ProofAggregate ∧ p.ProofE ≠ none ∧
      ∀ t ∈ p.ProofTuples, Small t.C ∧ t.S ≠ none := by
  have f : ∀ x y : ℕ, (pt x y).Filled := fun x y => ⟨x, y, Int.natCast_nonneg _, Int.natCast_nonneg _, rfl⟩
  refine ⟨⟨⟨pt (1 : ℕ) (2 : ℕ), some 3, [⟨pt (2 ^ 256 : ℕ) (0 : ℕ), some 0⟩]⟩, ⟨f _ _, by simp, ?_⟩, by simp, ?_⟩,
    ⟨pt (1 : ℕ) (2 : ℕ), some 3, [⟨pt (5 : ℕ) (5 : ℕ), some 0⟩]⟩, by simp, by simp,
    ⟨1, 2, by decide, by decide, rfl⟩, by simp, ?_⟩
  · intro t ht
    obtain rfl := List.mem_singleton.1 ht
    exact ⟨f _ _, by simp⟩
  · exact ⟨_, List.mem_singleton.2 rfl, _, _, le_rfl, rfl⟩
  · intro t ht
    obtain rfl := List.mem_singleton.1 ht
    exact ⟨⟨5, 5, by decide, by decide, rfl⟩, by simp⟩

end Zk.Hostile
