import Verif.Proto.AbcProps
import Verif.Range.Model

/-! # Properties C86, C121, C122: what else an accepted proof may look like -/

namespace Zk.Proto

open Zk

variable {cp : Params} {E : Type} [AddCommGroup E]

/-- C86, what holds: if the base of an accepted GSPFS proof is a curve point, then the first coordinate
of the random commitment is the first coordinate of a curve point.  Missing: nothing is known of the
second coordinate, and the base need not be on the curve. -/
theorem C86_first_coordinate_partial (L : Lawful cp E) (hash : Bytes → Bytes) (p : GSPFSProof) (a b : E)
    (hb : p.Base = L.pe b) (h : gspfsVerify hash cp (some p) (L.pe a) = .ok accept) :
    ∃ t : E, p.RandCommit.X = (L.pe t).X := by
  obtain ⟨base, ⟨tx, ty⟩, hv, ch⟩ := p
  simp only at hb
  subst hb
  cases tx with
  | none => simp [gspfsVerify, challengeOf, List.mapM_cons, pointBytes, Lawful.pe, pt] at h
  | some x =>
    cases ty with
    | none => simp [gspfsVerify, challengeOf, List.mapM_cons, pointBytes, Lawful.pe, pt] at h
    | some y =>
      cases ch with
      | none =>
        simp [gspfsVerify, challengeOf, List.mapM_cons, pointBytes, Lawful.pe, pt, cmpEq] at h
      | some c =>
        cases hv with
        | none =>
          have hch : challengeOf hash cp [L.pe a, ⟨some x, some y⟩] =
              .ok (generateChallenge hash cp [L.bytes a, intBytes x ++ intBytes y]) := by
            simp [challengeOf, List.mapM_cons, pointBytes, Lawful.pe, pt, Lawful.bytes]
          have hm : mult cp (L.pe b) none = .panic := by
            rw [mult, if_neg (L.pe_ne_nil b)]; simp
          simp only [gspfsVerify, hch, Go.bind_ok, hm, Go.bind_panic, cmpEq] at h
          by_cases hc : generateChallenge hash cp [L.bytes a, intBytes x ++ intBytes y] = c <;>
            simp [hc] at h
        | some s =>
          have := (L.gspfsVerify_iff hash b a x y s c).1 h
          exact ⟨_, congrArg some this.2⟩

example : gspfsVerify (fun _ => []) Toy.params (some ⟨Toy.lawful.pe 1, Toy.lawful.pe 4, some 4, some 0⟩)
    (Toy.lawful.pe 1) = .ok accept := by
  rw [Toy.lawful.gspfsVerify_pe_iff]
  refine ⟨by simp [Lawful.chal, generateChallenge, setBytes], ?_⟩
  have : Toy.lawful.eff 1 = 1 := Toy.lawful.eff_g
  rw [this, Toy.lawful.same_iff]
  left; decide

/-! ## Malleability -/

theorem mult_add_N (cp : Params) (p : ECPoint) (s : Option Int) (k : Int) :
    mult cp p (s.map (· + k * cp.C.N)) = mult cp p s := by
  cases s with
  | none => rfl
  | some s => simp [mult]

theorem pedCommitR_add_N (cp : Params) (v r : Option Int) (k k' : Int) :
    pedCommitR cp (v.map (· + k * cp.C.N)) (r.map (· + k' * cp.C.N)) = pedCommitR cp v r := by
  cases v <;> cases r <;> simp [pedCommitR]

/-- The malleability of C121: adding multiples of N to the responses of any proof, or changing the
token `CToken` of an ABC proof, does not change what the verifier returns.  This holds for every curve,
every hash function and every proof, accepted or not, with nil fields or not. -/
theorem C121_shift (hash : Bytes → Bytes) (cp : Params) (k k' k'' : Int) :
    (∀ (p : GSPFSProof) (A : ECPoint),
      gspfsVerify hash cp (some { p with HiddenValue := p.HiddenValue.map (· + k * cp.C.N) }) A =
        gspfsVerify hash cp (some p) A) ∧
    (∀ (p : EquivalenceProof) (B1 R1 B2 R2 : ECPoint),
      equivalenceVerify hash cp (some { p with HiddenValue := p.HiddenValue.map (· + k * cp.C.N) })
        B1 R1 B2 R2 = equivalenceVerify hash cp (some p) B1 R1 B2 R2) ∧
    (∀ (p : ConsistencyProof) (CM CMTok PubKey : ECPoint),
      consistencyVerify hash cp (some { p with S1 := p.S1.map (· + k * cp.C.N),
                                               S2 := p.S2.map (· + k' * cp.C.N) }) CM CMTok PubKey =
        consistencyVerify hash cp (some p) CM CMTok PubKey) ∧
    (∀ (p : DisjunctiveProof) (B1 R1 B2 R2 : ECPoint),
      disjunctiveVerify hash cp (some { p with S1 := p.S1.map (· + k * cp.C.N),
                                               S2 := p.S2.map (· + k' * cp.C.N) }) B1 R1 B2 R2 =
        disjunctiveVerify hash cp (some p) B1 R1 B2 R2) ∧
    (∀ (p : ABCProof) (CM CMTok T : ECPoint),
      abcVerify hash cp (some { p with j := p.j.map (· + k * cp.C.N), k := p.k.map (· + k' * cp.C.N),
                                       l := p.l.map (· + k'' * cp.C.N), CToken := T }) CM CMTok =
        abcVerify hash cp (some p) CM CMTok) ∧
    (∀ (p : RangeProof) (comm : ECPoint),
      rangeVerify hash cp (some { p with ProofTuples :=
          (p.ProofTuples.map fun t => { t with S := t.S.map (· + k * cp.C.N) }) }) comm =
        rangeVerify hash cp (some p) comm) := by
  refine ⟨fun p A => ?_, fun p B1 R1 B2 R2 => ?_, fun p CM CMTok PubKey => ?_, fun p B1 R1 B2 R2 => ?_,
    fun p CM CMTok T => ?_, fun p comm => ?_⟩
  · simp only [gspfsVerify, mult_add_N]
  · simp only [equivalenceVerify, mult_add_N]
  · simp only [consistencyVerify, mult_add_N, pedCommitR_add_N]
  · simp only [disjunctiveVerify, mult_add_N]
  · simp only [abcVerify, deref_some, Go.bind_ok, mult_add_N]
  · have hany : (p.ProofTuples.map fun t => { t with S := t.S.map (· + k * cp.C.N) }).any tupleNil =
        p.ProofTuples.any tupleNil := by
      rw [List.any_map]; congr 1; funext t; simp [tupleNil]
    have hgen : ∀ i e (t : RangeProofTuple),
        verifyGen hash cp i e { t with S := t.S.map (· + k * cp.C.N) } = verifyGen hash cp i e t := by
      intro i e t; simp only [verifyGen, mult_add_N]
    simp only [rangeVerify, hany, List.zipIdx_map, List.mapM_map, List.foldlM_map, finishVerify,
      Function.comp_def, Prod.map, hgen, id]

/-- The other malleability of C121: the verifiers of equivalence, consistency, disjunctive and ABC
proofs compare points up to sign, so the negated responses are accepted as well. -/
theorem C121_negate (L : Lawful cp E) (hash : Bytes → Bytes) :
    (∀ (b1 r1 b2 r2 t1 t2 : E) (c s : Int),
      equivalenceVerify hash cp (some ⟨L.pe t1, L.pe t2, some c, some (-s)⟩)
        (L.pe b1) (L.pe r1) (L.pe b2) (L.pe r2) = .ok accept ↔
      equivalenceVerify hash cp (some ⟨L.pe t1, L.pe t2, some c, some s⟩)
        (L.pe b1) (L.pe r1) (L.pe b2) (L.pe r2) = .ok accept) ∧
    (∀ (cm tok pk t1 t2 : E) (c s1 s2 : Int),
      consistencyVerify hash cp (some ⟨L.pe t1, L.pe t2, some c, some (-s1), some (-s2)⟩)
        (L.pe cm) (L.pe tok) (L.pe pk) = .ok accept ↔
      consistencyVerify hash cp (some ⟨L.pe t1, L.pe t2, some c, some s1, some s2⟩)
        (L.pe cm) (L.pe tok) (L.pe pk) = .ok accept) ∧
    (∀ (b1 r1 b2 r2 t1 t2 : E) (c c1 c2 s1 s2 : Int),
      disjunctiveVerify hash cp
        (some ⟨L.pe t1, L.pe t2, some c, some c1, some c2, some (-s1), some s2⟩)
        (L.pe b1) (L.pe r1) (L.pe b2) (L.pe r2) = .ok accept ↔
      disjunctiveVerify hash cp
        (some ⟨L.pe t1, L.pe t2, some c, some c1, some c2, some s1, some s2⟩)
        (L.pe b1) (L.pe r1) (L.pe b2) (L.pe r2) = .ok accept) ∧
    (∀ (cm tok B C t1 t2 : E) (c j k l : Int) (ct : ECPoint) (d : Option DisjunctiveProof),
      abcVerify hash cp
        (some ⟨L.pe B, L.pe C, L.pe t1, L.pe t2, some c, some (-j), some (-k), some (-l), ct, d⟩)
        (L.pe cm) (L.pe tok) = .ok accept ↔
      abcVerify hash cp
        (some ⟨L.pe B, L.pe C, L.pe t1, L.pe t2, some c, some j, some k, some l, ct, d⟩)
        (L.pe cm) (L.pe tok) = .ok accept) := by
  have hl : ∀ a b : E, L.same (-a) b = L.same a b := by
    intro a b; rw [Bool.eq_iff_iff, L.same_iff, L.same_iff, neg_inj, neg_eq_iff_eq_neg]; tauto
  have hr : ∀ a b : E, L.same a (-b) = L.same a b := by
    intro a b; rw [L.same_comm, hl, L.same_comm]
  have e2 : ∀ (s t : Int) (a b : E), (-s) • a + (-t) • b = -(s • a + t • b) := by
    intro s t a b; module
  refine ⟨?_, ?_, ?_, ?_⟩
  · intro b1 r1 b2 r2 t1 t2 c s
    rw [L.equivalenceVerify_iff, L.equivalenceVerify_iff, neg_smul, neg_smul, hl, hl]
  · intro cm tok pk t1 t2 c s1 s2
    rw [L.consistencyVerify_iff, L.consistencyVerify_iff, e2, neg_smul, hl, hl]
  · intro b1 r1 b2 r2 t1 t2 c c1 c2 s1 s2
    rw [L.disjunctiveVerify_iff, L.disjunctiveVerify_iff, neg_smul, hr]
  · intro cm tok B C t1 t2 c j k l ct d
    rw [L.abcVerify_iff, L.abcVerify_iff, e2, e2, hr, hr]

/-- C121 as a user needs it, for the verifier at gspfs.go:72-98: two accepted GSPFS proofs of one
statement with the same base and random commitment are the same proof. -/
def GSPFSUnique (L : Lawful cp E) (hash : Bytes → Bytes) : Prop :=
  ∀ (a : E) (p p' : GSPFSProof), p.Base = p'.Base →
    p.RandCommit = p'.RandCommit → gspfsVerify hash cp (some p) (L.pe a) = .ok accept →
    gspfsVerify hash cp (some p') (L.pe a) = .ok accept → p = p'

/-- C121 is false on every lawful curve and for every hash function; the witness is a proof of the
logarithm of the generator G to the base G. -/
theorem C121_refuted (L : Lawful cp E) (hash : Bytes → Bytes) : ¬ GSPFSUnique L hash := by
  intro h
  let c := L.chal hash [L.g, L.g]
  have h1 : gspfsVerify hash cp (some ⟨L.pe L.g, L.pe L.g, some (1 - c), some c⟩) (L.pe L.g) =
      .ok accept := by
    rw [L.gspfsVerify_pe_iff]
    refine ⟨rfl, ?_⟩
    rw [L.same_iff, L.eff_g]; left; module
  have h2 := ((C121_shift hash cp 1 0 0).1 ⟨L.pe L.g, L.pe L.g, some (1 - c), some c⟩
    (L.pe L.g)).trans h1
  simp only [Option.map_some] at h2
  have h3 := h L.g ⟨L.pe L.g, L.pe L.g, some (1 - c), some c⟩
    ⟨L.pe L.g, L.pe L.g, some (1 - c + 1 * (cp.C.N : Int)), some c⟩ rfl rfl h1 h2
  rw [GSPFSProof.mk.injEq, Option.some.injEq] at h3
  replace h3 := h3.2.2.1
  have := L.N_pos
  omega

/-- C121, what holds: the responses accepted for given random commitments and challenges.  For a GSPFS
proof they are one class modulo N, or two, and the second one depends on the secret logarithm; for
an equivalence proof one class and its negative; for a disjunctive proof one class and its negative
on each side.  Missing: uniqueness. -/
theorem C121_responses_partial (L : Lawful cp E) (hash : Bytes → Bytes) :
    (∀ (b a t : E) (s s' c : Int), L.eff b ≠ 0 →
      gspfsVerify hash cp (some ⟨L.pe b, L.pe t, some s, some c⟩) (L.pe a) = .ok accept →
      (gspfsVerify hash cp (some ⟨L.pe b, L.pe t, some s', some c⟩) (L.pe a) = .ok accept ↔
        s' ≡ s [ZMOD cp.C.N] ∨ (s' + s) • L.eff b = (-(2 * c)) • L.eff a)) ∧
    (∀ (b1 r1 b2 r2 t1 t2 : E) (c s s' : Int), L.eff b1 ≠ 0 →
      equivalenceVerify hash cp (some ⟨L.pe t1, L.pe t2, some c, some s⟩)
        (L.pe b1) (L.pe r1) (L.pe b2) (L.pe r2) = .ok accept →
      (equivalenceVerify hash cp (some ⟨L.pe t1, L.pe t2, some c, some s'⟩)
        (L.pe b1) (L.pe r1) (L.pe b2) (L.pe r2) = .ok accept ↔
        s' ≡ s [ZMOD cp.C.N] ∨ s' ≡ -s [ZMOD cp.C.N])) ∧
    (∀ (b1 r1 b2 r2 t1 t2 : E) (c c1 c2 s1 s2 s1' s2' : Int), L.eff b1 ≠ 0 → L.eff b2 ≠ 0 →
      disjunctiveVerify hash cp
        (some ⟨L.pe t1, L.pe t2, some c, some c1, some c2, some s1, some s2⟩)
        (L.pe b1) (L.pe r1) (L.pe b2) (L.pe r2) = .ok accept →
      (disjunctiveVerify hash cp
        (some ⟨L.pe t1, L.pe t2, some c, some c1, some c2, some s1', some s2'⟩)
        (L.pe b1) (L.pe r1) (L.pe b2) (L.pe r2) = .ok accept ↔
        (s1' ≡ s1 [ZMOD cp.C.N] ∨ s1' ≡ -s1 [ZMOD cp.C.N]) ∧
        (s2' ≡ s2 [ZMOD cp.C.N] ∨ s2' ≡ -s2 [ZMOD cp.C.N]))) := by
  have key : ∀ {b t : E} {s : Int} (s' : Int), b ≠ 0 → L.same (s • b) t = true →
      (L.same (s' • b) t = true ↔ s' ≡ s [ZMOD cp.C.N] ∨ s' ≡ -s [ZMOD cp.C.N]) := by
    intro b t s s' hb h
    rw [L.same_iff] at h
    rw [L.same_iff, Int.ModEq, Int.ModEq, ← L.smul_eq_smul hb, ← L.smul_eq_smul hb, neg_smul]
    rcases h with rfl | h
    · rfl
    · rw [h, neg_neg]; tauto
  refine ⟨?_, ?_, ?_⟩
  · intro b a t s s' c hb h
    rw [L.gspfsVerify_pe_iff] at h ⊢
    obtain ⟨h1, h2⟩ := h
    rw [L.same_iff] at h2
    rw [L.same_iff, Int.ModEq, ← L.smul_eq_smul hb]
    simp only [h1, true_and]
    rcases h2 with rfl | rfl
    · constructor
      · rintro (h | h)
        · left; exact (add_right_cancel h).symm
        · right; linear_combination (norm := module) h
      · rintro (h | h)
        · left; rw [h]
        · right; linear_combination (norm := module) h
    · constructor
      · rintro (h | h)
        · right; linear_combination (norm := module) -h
        · left; linear_combination (norm := module) h
      · rintro (h | h)
        · right; rw [h]
        · left; linear_combination (norm := module) -h
  · intro b1 r1 b2 r2 t1 t2 c s s' hb h
    rw [L.equivalenceVerify_iff] at h ⊢
    obtain ⟨h1, h2, h3⟩ := h
    rw [key s' hb h2]
    simp only [h1, true_and]
    refine ⟨And.left, fun h => ⟨h, ?_⟩⟩
    rw [L.same_iff] at h3 ⊢
    rcases h with h | h
    · rwa [L.smul_congr h]
    · rw [L.smul_congr h, neg_smul]
      rcases h3 with h3 | h3 <;> rw [h3] <;> simp
  · intro b1 r1 b2 r2 t1 t2 c c1 c2 s1 s2 s1' s2' hb1 hb2 h
    rw [L.disjunctiveVerify_iff] at h ⊢
    obtain ⟨h1, h2, h3, h4⟩ := h
    rw [L.same_comm] at h3 h4
    rw [L.same_comm _ (s1' • _), L.same_comm _ (s2' • _), key s1' hb1 h3, key s2' hb2 h4]
    simp only [h1, h2, true_and]

example : Toy.lawful.eff 1 ≠ 0 := by
  have : Toy.lawful.eff 1 = 1 := Toy.lawful.eff_g
  rw [this]; decide

/-- C121, what holds for consistency and ABC proofs.  The second response of a consistency proof is unique modulo N up to
sign.  For each sign there is one class for the first response, or two, and the second one gives a relation between
G and H unless s2 is 0.  For an ABC proof, given the other responses, there is one class for k and one for l, or two, and
the second one gives a relation between the points of the proof.  Missing: uniqueness. -/
theorem C121_pairs_partial (L : Lawful cp E) (hash : Bytes → Bytes) :
    (∀ (cm tok pk t1 t2 : E) (c s1 s2 s1' s2' : Int), L.eff pk ≠ 0 →
      consistencyVerify hash cp (some ⟨L.pe t1, L.pe t2, some c, some s1, some s2⟩)
        (L.pe cm) (L.pe tok) (L.pe pk) = .ok accept →
      (consistencyVerify hash cp (some ⟨L.pe t1, L.pe t2, some c, some s1', some s2'⟩)
        (L.pe cm) (L.pe tok) (L.pe pk) = .ok accept ↔
        (s2' ≡ s2 [ZMOD cp.C.N] ∧ (s1' ≡ s1 [ZMOD cp.C.N] ∨ (s1' + s1) • L.g = (-(2 * s2)) • L.hb)) ∨
        (s2' ≡ -s2 [ZMOD cp.C.N] ∧ (s1' ≡ -s1 [ZMOD cp.C.N] ∨ (s1' - s1) • L.g = (2 * s2) • L.hb)))) ∧
    (∀ (cm tok B C t1 t2 : E) (c j k l k' l' : Int) (ct : ECPoint) (d : Option DisjunctiveProof), L.eff tok ≠ 0 →
      abcVerify hash cp (some ⟨L.pe B, L.pe C, L.pe t1, L.pe t2, some c, some j, some k, some l, ct, d⟩)
        (L.pe cm) (L.pe tok) = .ok accept →
      (abcVerify hash cp (some ⟨L.pe B, L.pe C, L.pe t1, L.pe t2, some c, some j, some k', some l', ct, d⟩)
        (L.pe cm) (L.pe tok) = .ok accept ↔
        (k' ≡ k [ZMOD cp.C.N] ∨ (k' + k) • L.eff tok = (-(2 * j)) • L.g) ∧
        (l' ≡ l [ZMOD cp.C.N] ∨ (l' + l) • L.hb = (-(2 * j)) • L.eff B))) := by
  have key : ∀ {x y z : E} {j k : Int} (k' : Int), y ≠ 0 → L.same z (j • x + k • y) = true →
      (L.same z (j • x + k' • y) = true ↔ k' ≡ k [ZMOD cp.C.N] ∨ (k' + k) • y = (-(2 * j)) • x) := by
    intro x y z j k k' hy h
    rw [L.same_iff] at h ⊢
    rw [Int.ModEq, ← L.smul_eq_smul hy]
    rcases h with rfl | rfl
    · constructor
      · rintro (h | h)
        · left; linear_combination (norm := module) -h
        · right; linear_combination (norm := module) h
      · rintro (h | h)
        · left; rw [h]
        · right; linear_combination (norm := module) h
    · constructor
      · rintro (h | h)
        · right; linear_combination (norm := module) -h
        · left; linear_combination (norm := module) h
      · rintro (h | h)
        · right; rw [h]
        · left; linear_combination (norm := module) -h
  refine ⟨?_, ?_⟩
  · intro cm tok pk t1 t2 c s1 s2 s1' s2' hb h
    rw [L.consistencyVerify_iff] at h ⊢
    obtain ⟨h1, h2, h3⟩ := h
    simp only [h1, true_and]
    have e3 : L.same (s2' • L.eff pk) (t2 + c • L.eff tok) = true ↔
        s2' ≡ s2 [ZMOD cp.C.N] ∨ s2' ≡ -s2 [ZMOD cp.C.N] := by
      rw [L.same_iff] at h3
      rw [L.same_iff, Int.ModEq, Int.ModEq, ← L.smul_eq_smul hb, ← L.smul_eq_smul hb, neg_smul]
      rcases h3 with h3 | h3
      · rw [h3]
      · rw [h3, neg_neg]; tauto
    have e2 : ∀ ε : Int, (ε = 1 ∨ ε = -1) → s2' ≡ ε * s2 [ZMOD cp.C.N] →
        (L.same (s1' • L.g + s2' • L.hb) (t1 + c • L.eff cm) = true ↔
          (s1' ≡ ε * s1 [ZMOD cp.C.N] ∨ (s1' + ε * s1) • L.g = (-(2 * (ε * s2))) • L.hb)) := by
      intro ε hε h
      have h2' : L.same (t1 + c • L.eff cm) ((ε * s2) • L.hb + (ε * s1) • L.g) = true := by
        rw [L.same_comm, L.same_iff] at h2
        rw [L.same_iff]
        rcases hε with rfl | rfl
        · refine h2.imp (fun h => ?_) (fun h => ?_) <;> rw [h] <;> module
        · refine h2.symm.imp (fun h => ?_) (fun h => ?_) <;> rw [h] <;> module
      rw [L.smul_congr h, add_comm (s1' • L.g), L.same_comm]
      exact key s1' L.g_ne h2'
    rw [e3]
    constructor
    · rintro ⟨h4, h5 | h5⟩
      · refine Or.inl ⟨h5, ?_⟩
        have := (e2 1 (Or.inl rfl) (by rwa [one_mul])).1 h4
        rwa [one_mul, one_mul] at this
      · refine Or.inr ⟨h5, ?_⟩
        have := (e2 (-1) (Or.inr rfl) (by rwa [neg_one_mul])).1 h4
        refine this.imp (fun h => by rwa [neg_one_mul] at h) (fun h => ?_)
        linear_combination (norm := module) h
    · rintro (⟨h5, h4⟩ | ⟨h5, h4⟩)
      · refine ⟨(e2 1 (Or.inl rfl) (by rwa [one_mul])).2 ?_, Or.inl h5⟩
        rwa [one_mul, one_mul]
      · refine ⟨(e2 (-1) (Or.inr rfl) (by rwa [neg_one_mul])).2 ?_, Or.inr h5⟩
        refine h4.imp (fun h => by rwa [neg_one_mul]) (fun h => ?_)
        linear_combination (norm := module) h
  · intro cm tok B C t1 t2 c j k l k' l' ct d hb h
    rw [L.abcVerify_iff] at h ⊢
    obtain ⟨h1, h2, h3, h4⟩ := h
    rw [key k' hb h3, key l' L.hb_ne h4]
    simp only [h1, h2, true_and]

/-- The token 3 is not the identity. -/
example : Toy.lawful.eff 3 ≠ 0 := by
  rw [Toy.eff_plain 3 (by decide)]; decide

/-! ## Proofs and statements -/

/-- A point both of whose coordinates have the full 32 bytes.  See crypto.go:151-153. -/
def FullPoint (p : ECPoint) : Prop :=
  ∃ x y : Nat, p = pt x y ∧ 256 ^ 31 ≤ x ∧ x < 256 ^ 32 ∧ 256 ^ 31 ≤ y ∧ y < 256 ^ 32

/-- The bytes that `GenerateChallenge` (crypto.go:254-262) hashes for these two lists of points are
different, and their hashes are equal modulo N.  (That there are some two such inputs would be no
statement at all: it is true of every hash function.) -/
def Collide (hash : Bytes → Bytes) (N : Nat) (ps qs : List ECPoint) : Prop :=
  ∃ m m' : Bytes, hashInput ps = .ok m ∧ hashInput qs = .ok m' ∧ m ≠ m' ∧
    (setBytes (hash m) : Int) ≡ setBytes (hash m') [ZMOD N]

theorem hashInput_append (as bs : List ECPoint) :
    hashInput (as ++ bs) = (do
      let x ← hashInput as
      let y ← hashInput bs
      pure (x ++ y)) := by
  rw [hashInput, hashInput, hashInput, List.mapM_append]
  cases as.mapM pointBytes <;> cases bs.mapM pointBytes <;> simp

theorem challengeOf_hashInput (hash : Bytes → Bytes) (cp : Params) (ps : List ECPoint) :
    challengeOf hash cp ps = (do
      let m ← hashInput ps
      pure ((setBytes (hash m) : Int) % (cp.C.N : Int))) := by
  rw [hashInput, challengeOf]
  cases ps.mapM pointBytes <;> simp [generateChallenge]

theorem full_inj {as bs : List ECPoint} (hlen : as.length = bs.length)
    (ha : ∀ a ∈ as, FullPoint a) (hb : ∀ b ∈ bs, FullPoint b)
    (h : hashInput as = hashInput bs) : as = bs := by
  have key : ∀ l : List ECPoint, (∀ a ∈ l, FullPoint a) → ∃ l' : List (Nat × Nat),
      l = (l'.map fun a => pt a.1 a.2) ∧
      ∀ a ∈ l', 256 ^ 31 ≤ a.1 ∧ a.1 < 256 ^ 32 ∧ 256 ^ 31 ≤ a.2 ∧ a.2 < 256 ^ 32 := by
    intro l hl
    induction l with
    | nil => exact ⟨[], rfl, by simp⟩
    | cons p l ih =>
      obtain ⟨l', h1, h2⟩ := ih fun a ha => hl a (List.mem_cons_of_mem _ ha)
      obtain ⟨x, y, rfl, h3⟩ := hl p List.mem_cons_self
      refine ⟨(x, y) :: l', by rw [h1]; rfl, fun a ha => ?_⟩
      rcases List.mem_cons.1 ha with rfl | ha
      · exact h3
      · exact h2 a ha
  obtain ⟨as', rfl, h1⟩ := key as ha
  obtain ⟨bs', rfl, h2⟩ := key bs hb
  rw [C59_injective_partial as' bs' (by simpa using hlen) h1 h2 h]

/-- Challenges of different statements with the same context are equal only if the hash collides. -/
theorem collision_of_challenge (hash : Bytes → Bytes) (cp : Params) (pre mid mid' suf : List ECPoint)
    (c : Int) (hlen : mid.length = mid'.length) (hm : ∀ a ∈ mid, FullPoint a)
    (hm' : ∀ a ∈ mid', FullPoint a) (hne : mid ≠ mid')
    (h : challengeOf hash cp (pre ++ mid ++ suf) = .ok c)
    (h' : challengeOf hash cp (pre ++ mid' ++ suf) = .ok c) :
    Collide hash cp.C.N (pre ++ mid ++ suf) (pre ++ mid' ++ suf) := by
  rw [challengeOf_hashInput, hashInput_append, hashInput_append] at h h'
  cases h1 : hashInput pre with
  | panic => simp [h1] at h
  | ok x =>
  cases h2 : hashInput suf with
  | panic => cases h3 : hashInput mid <;> simp [h1, h2, h3] at h
  | ok z =>
  cases h3 : hashInput mid with
  | panic => simp [h1, h3] at h
  | ok y =>
  cases h4 : hashInput mid' with
  | panic => simp [h1, h4] at h'
  | ok y' =>
  simp only [h1, h2, h3, Go.bind_ok, Go.pure_eq, Go.ok.injEq] at h
  simp only [h1, h2, h4, Go.bind_ok, Go.pure_eq, Go.ok.injEq] at h'
  refine ⟨x ++ y ++ z, x ++ y' ++ z, by simp [hashInput_append, h1, h2, h3],
    by simp [hashInput_append, h1, h2, h4], fun e => hne ?_, h.trans h'.symm⟩
  rw [List.append_left_inj, List.append_right_inj] at e
  exact full_inj hlen hm hm' (by rw [h3, h4, e])

/-- The verifiers begin with the challenge. -/
theorem accept_challenge {hash : Bytes → Bytes} {cp : Params} {ps : List ECPoint} {ch : Option Int}
    {e : Err} {rest : Int → Go (Bool × Option Err)}
    (h : (do
      let c ← challengeOf hash cp ps
      let eq ← cmpEq (some c) ch
      if !eq then pure (reject e) else rest c) = .ok accept) :
    ∃ c, challengeOf hash cp ps = .ok c ∧ ch = some c := by
  cases hc : challengeOf hash cp ps with
  | panic => simp [hc] at h
  | ok c =>
    cases ch with
    | none => simp [hc, cmpEq] at h
    | some d =>
      by_cases hd : c = d
      · exact ⟨c, rfl, by rw [hd]⟩
      · simp [hc, cmpEq, hd] at h

/-- C122. Whoever shows one proof that is accepted for two different statements has found a collision
of the hash function modulo N: the two inputs are what the verifier hashes.  This holds for every curve and every proof; the points of the two
statements must have coordinates of full length (see C59). -/
theorem C122_bound (hash : Bytes → Bytes) (cp : Params) :
    (∀ (p : GSPFSProof) (A A' : ECPoint), FullPoint A → FullPoint A' → A ≠ A' →
      gspfsVerify hash cp (some p) A = .ok accept → gspfsVerify hash cp (some p) A' = .ok accept →
      Collide hash cp.C.N [A, p.RandCommit] [A', p.RandCommit]) ∧
    (∀ (p : EquivalenceProof) (B1 R1 B2 R2 B1' R1' B2' R2' : ECPoint),
      (∀ q ∈ [B1, R1, B2, R2], FullPoint q) → (∀ q ∈ [B1', R1', B2', R2'], FullPoint q) →
      [B1, R1, B2, R2] ≠ [B1', R1', B2', R2'] →
      equivalenceVerify hash cp (some p) B1 R1 B2 R2 = .ok accept →
      equivalenceVerify hash cp (some p) B1' R1' B2' R2' = .ok accept →
      Collide hash cp.C.N [B1, R1, B2, R2, p.UG, p.UH] [B1', R1', B2', R2', p.UG, p.UH]) ∧
    (∀ (p : ConsistencyProof) (CM CMTok PubKey CM' CMTok' PubKey' : ECPoint),
      (∀ q ∈ [CM, CMTok, PubKey], FullPoint q) → (∀ q ∈ [CM', CMTok', PubKey'], FullPoint q) →
      [CM, CMTok, PubKey] ≠ [CM', CMTok', PubKey'] →
      consistencyVerify hash cp (some p) CM CMTok PubKey = .ok accept →
      consistencyVerify hash cp (some p) CM' CMTok' PubKey' = .ok accept →
      Collide hash cp.C.N [cp.G, cp.H, CM, CMTok, PubKey, p.T1, p.T2]
        [cp.G, cp.H, CM', CMTok', PubKey', p.T1, p.T2]) ∧
    (∀ (p : DisjunctiveProof) (B1 R1 B2 R2 B1' R1' B2' R2' : ECPoint),
      (∀ q ∈ [B1, R1, B2, R2], FullPoint q) → (∀ q ∈ [B1', R1', B2', R2'], FullPoint q) →
      [B1, R1, B2, R2] ≠ [B1', R1', B2', R2'] →
      disjunctiveVerify hash cp (some p) B1 R1 B2 R2 = .ok accept →
      disjunctiveVerify hash cp (some p) B1' R1' B2' R2' = .ok accept →
      Collide hash cp.C.N [B1, R1, B2, R2, p.T1, p.T2] [B1', R1', B2', R2', p.T1, p.T2]) ∧
    (∀ (p : ABCProof) (CM CMTok CM' CMTok' : ECPoint),
      (∀ q ∈ [CM, CMTok], FullPoint q) → (∀ q ∈ [CM', CMTok'], FullPoint q) →
      [CM, CMTok] ≠ [CM', CMTok'] →
      abcVerify hash cp (some p) CM CMTok = .ok accept →
      abcVerify hash cp (some p) CM' CMTok' = .ok accept →
      Collide hash cp.C.N [cp.G, cp.H, CM, CMTok, p.B, p.C, p.T1, p.T2]
        [cp.G, cp.H, CM', CMTok', p.B, p.C, p.T1, p.T2]) := by
  refine ⟨?_, ?_, ?_, ?_, ?_⟩
  · intro p A A' hA hA' hne h h'
    obtain ⟨c, h1, h2⟩ := accept_challenge h
    obtain ⟨c', h1', h2'⟩ := accept_challenge h'
    rw [h2, Option.some.injEq] at h2'
    subst h2'
    exact collision_of_challenge hash cp [] [A] [A'] [p.RandCommit] c rfl (by simpa using hA)
      (by simpa using hA') (by simpa using hne) h1 h1'
  · intro p B1 R1 B2 R2 B1' R1' B2' R2' hA hA' hne h h'
    obtain ⟨c, h1, h2⟩ := accept_challenge h
    obtain ⟨c', h1', h2'⟩ := accept_challenge h'
    rw [h2, Option.some.injEq] at h2'
    subst h2'
    exact collision_of_challenge hash cp [] [B1, R1, B2, R2] [B1', R1', B2', R2'] [p.UG, p.UH] c rfl
      hA hA' hne h1 h1'
  · intro p CM CMTok PubKey CM' CMTok' PubKey' hA hA' hne h h'
    obtain ⟨c, h1, h2⟩ := accept_challenge h
    obtain ⟨c', h1', h2'⟩ := accept_challenge h'
    rw [h2, Option.some.injEq] at h2'
    subst h2'
    exact collision_of_challenge hash cp [cp.G, cp.H] [CM, CMTok, PubKey] [CM', CMTok', PubKey']
      [p.T1, p.T2] c rfl hA hA' hne h1 h1'
  · intro p B1 R1 B2 R2 B1' R1' B2' R2' hA hA' hne h h'
    obtain ⟨c, h1, h2⟩ := accept_challenge h
    obtain ⟨c', h1', h2'⟩ := accept_challenge h'
    rw [h2, Option.some.injEq] at h2'
    subst h2'
    exact collision_of_challenge hash cp [] [B1, R1, B2, R2] [B1', R1', B2', R2'] [p.T1, p.T2] c rfl
      hA hA' hne h1 h1'
  · intro p CM CMTok CM' CMTok' hA hA' hne h h'
    have key : ∀ CM CMTok, abcVerify hash cp (some p) CM CMTok = .ok accept →
        ∃ c, challengeOf hash cp [cp.G, cp.H, CM, CMTok, p.B, p.C, p.T1, p.T2] = .ok c ∧
          p.Challenge = some c := by
      intro CM CMTok h
      rw [abcVerify, deref_some, Go.bind_ok, Go.bind_eq_ok] at h
      obtain ⟨D, _, h⟩ := h
      rw [Go.bind_eq_ok] at h
      obtain ⟨st, _, h⟩ := h
      split_ifs at h with hs
      · simp at h
      · exact accept_challenge h
    obtain ⟨c, h1, h2⟩ := key _ _ h
    obtain ⟨c', h1', h2'⟩ := key _ _ h'
    rw [h2, Option.some.injEq] at h2'
    subst h2'
    exact collision_of_challenge hash cp [cp.G, cp.H] [CM, CMTok] [CM', CMTok']
      [p.B, p.C, p.T1, p.T2] c rfl hA hA' hne h1 h1'

/-- With a constant hash function there are such statements. -/
example : ∃ A A' : ECPoint, FullPoint A ∧ FullPoint A' ∧ A ≠ A' ∧
    gspfsVerify (fun _ => []) Toy.params (some ⟨Toy.lawful.pe 1, Toy.lawful.pe 4, some 4, some 0⟩) A =
      .ok accept ∧
    gspfsVerify (fun _ => []) Toy.params (some ⟨Toy.lawful.pe 1, Toy.lawful.pe 4, some 4, some 0⟩) A' =
      .ok accept := by
  refine ⟨pt (256 ^ 31 : Nat) (256 ^ 31 : Nat), pt (256 ^ 31 : Nat) (256 ^ 31 + 1 : Nat),
    ⟨_, _, rfl, by norm_num⟩, ⟨_, _, rfl, by norm_num⟩, by simp [pt], ?_, ?_⟩
  all_goals
    simp only [gspfsVerify, challengeOf, List.mapM_cons, List.mapM_nil, pointBytes, pt, Lawful.pe,
      deref_some, Go.bind_ok, Go.pure_eq, generateChallenge, setBytes]
    decide +kernel

end Zk.Proto
