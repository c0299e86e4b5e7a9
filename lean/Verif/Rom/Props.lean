import Verif.Rom.Two
import Verif.Curve.TestLawful

/-! # Properties C133-C136: soundness when SHA-256 is a random function -/

namespace Zk.Rom

open Zk Zk.Proto

variable {cp : Params} {E : Type} [AddCommGroup E]

/-- An adversary who asks one question (for examples; crypto.go:254-262). -/
def askOnce {α : Type} (b : Bytes) (k : Bytes → α) : Adv α := .ask b fun d => .out (k d)

theorem prob_one {X : Type} [Fintype X] [Nonempty X] {P : X → Prop} (h : ∀ x, P x) : prob P = 1 := by
  classical
  rw [prob, num_eq, Finset.filter_true_of_mem fun x _ => h x, Finset.card_univ]
  exact div_self (Nat.cast_ne_zero.2 Fintype.card_ne_zero)

/-- `TestCurve` has coordinates of 32 bytes. -/
theorem small_testCurve : Small Curve.lawful := by
  have hP : ((Curve.tc.C.P : ℕ) : Int) < 2 ^ 256 := by decide +kernel
  have hv : ∀ x : Zk.Field.F, ((x.val : ℕ) : Int) < 2 ^ 256 := fun x =>
    lt_trans (by exact_mod_cast ZMod.val_lt x) hP
  have h0 : (0 : Int) < 2 ^ 256 := by norm_num
  intro a
  change (Curve.enc a).1 < _ ∧ (Curve.enc a).2 < _
  cases a with
  | zero => exact ⟨h0, h0⟩
  | some x y _ => exact ⟨hv x, hv y⟩

/-- On `TestCurve` a challenge comes from at most two answers. -/
theorem perChal_testCurve : perChal Curve.tc.C.N = 2 := by decide +kernel

/-! ## GSPFS -/

/-- What `Verify` hashes.  See gspfs.go:79. -/
def gspfsAsk (A : ECPoint) : Option GSPFSProof → Bytes
  | none => []
  | some p => hashed [A, p.RandCommit]

/-- The number of bytes of the first coordinate of the random commitment.  See gspfs.go:79. -/
def gspfsTag : Option GSPFSProof → Fin 33
  | none => 0
  | some p => size p.RandCommit.X

/-- The proof is for the base G and `Verify` accepts it.  See gspfs.go:72-98. -/
def GspfsWins (cp : Params) (A : ECPoint) (p : Option GSPFSProof) (hash : Bytes → Bytes) : Prop :=
  (∃ pr, p = some pr ∧ pr.Base = cp.G) ∧ gspfsVerify hash cp p A = .ok accept

/-- What the extractor computes from two proofs.  See gspfs.go:72-98. -/
noncomputable def gspfsLogs (L : Lawful cp E) : Option GSPFSProof → Option GSPFSProof → List Int
  | some ⟨_, _, some s, some c⟩, some ⟨_, _, some s', some c'⟩ =>
    [L.inv (c - c') * (s' - s), L.inv (c + c') * (-s - s')]
  | _, _ => []

theorem gspfs_inv (L : Lawful cp E) {a : E} {p : Option GSPFSProof} {hash : Bytes → Bytes}
    (h : GspfsWins cp (L.pe a) p hash) :
    ∃ x y s c, p = some ⟨L.pe L.g, pt x y, some s, some c⟩ ∧
      generateChallenge hash cp [L.bytes a, intBytes x ++ intBytes y] = c ∧
      x = (L.enc (s • L.g + c • L.eff a)).1 := by
  obtain ⟨⟨⟨B, ⟨X, Y⟩, s, c⟩, rfl, hB⟩, hv⟩ := h
  simp only at hB
  subst hB
  have hx0 : ∀ Y, pointBytes ⟨none, Y⟩ = .panic := fun _ => rfl
  have hy0 : ∀ x, pointBytes ⟨some x, none⟩ = .panic := fun _ => rfl
  cases X with
  | none => simp [gspfsVerify, challengeOf, List.mapM_cons, L.pointBytes_pe, hx0] at hv
  | some x =>
  cases Y with
  | none => simp [gspfsVerify, challengeOf, List.mapM_cons, L.pointBytes_pe, hy0] at hv
  | some y =>
  have hch : challengeOf hash cp [L.pe a, ⟨some x, some y⟩] =
      .ok (generateChallenge hash cp [L.bytes a, intBytes x ++ intBytes y]) := by
    have : pointBytes ⟨some x, some y⟩ = .ok (intBytes x ++ intBytes y) := rfl
    simp [challengeOf, List.mapM_cons, L.pointBytes_pe, this]
  cases c with
  | none => simp [gspfsVerify, hch, cmpEq] at hv
  | some c =>
  cases s with
  | none =>
    exfalso
    have hm : mult cp cp.G none = .panic := by rw [L.G_pe]; simp [mult, Lawful.pe, pt, deref]
    simp only [gspfsVerify, hch, Go.bind_ok, cmpEq, hm] at hv
    split at hv <;> simp at hv
  | some s =>
    rw [L.G_pe] at hv ⊢
    have := (L.gspfsVerify_iff hash L.g a x y s c).1 hv
    rw [L.eff_g] at this
    exact ⟨x, y, s, c, rfl, this⟩

/-- Two answers give the logarithm. -/
theorem gspfs_extract (L : Lawful cp E) {a : E} {x s c s' c' : Int}
    (h : x = (L.enc (s • L.g + c • L.eff a)).1) (h' : x = (L.enc (s' • L.g + c' • L.eff a)).1)
    (hc : ¬ c ≡ c' [ZMOD cp.C.N]) (hc' : ¬ c ≡ -c' [ZMOD cp.C.N]) :
    ∃ w ∈ [L.inv (c - c') * (s' - s), L.inv (c + c') * (-s - s')], L.eff a = w • L.g := by
  rw [h, L.enc_x] at h'
  rcases h' with h2 | h2
  · refine ⟨_, List.mem_cons_self, ?_⟩
    have hd : ¬ (cp.C.N : Int) ∣ c - c' := fun hd => hc (Int.modEq_iff_dvd.2 hd).symm
    have h3 : (c - c') • L.eff a = (s' - s) • L.g := by
      linear_combination (norm := module) h2
    rw [mul_smul, ← h3, L.inv_smul hd]
  · refine ⟨_, List.mem_cons_of_mem _ List.mem_cons_self, ?_⟩
    have hd : ¬ (cp.C.N : Int) ∣ c + c' := fun hd =>
      hc' (Int.modEq_iff_dvd.2 (by rwa [sub_neg_eq_add])).symm
    have h3 : (c + c') • L.eff a = (-s - s') • L.g := by
      linear_combination (norm := module) h2
    rw [mul_smul (L.inv _), ← h3, L.inv_smul hd]

/-- Two answers that are too close.  See gspfs.go:72-98. -/
def CloseUpToSign (N : Nat) (ω ω' : Word) : Prop :=
  chalOf N ω ≡ chalOf N ω' [ZMOD N] ∨ chalOf N ω ≡ -chalOf N ω' [ZMOD N]

theorem num_closeUpToSign (N : Nat) (ω : Word) :
    num (CloseUpToSign N ω) ≤ (2 * perChal N : ℕ) := by
  refine (num_mono (Q := fun ω' => chalOf N ω' ∈
    ({chalOf N ω, (-chalOf N ω) % (N : Int)} : Set Int)) ?_).trans
    ((num_chals N _ 2 (by exact_mod_cast (Set.encard_insert_le _ _).trans (by rw [Set.encard_singleton]; norm_num))).trans (by push_cast; rfl))
  have hm : ∀ ω', chalOf N ω' % (N : Int) = chalOf N ω' := fun ω' => Int.emod_emod_of_dvd _ dvd_rfl
  rintro ω' (h | h)
  · left
    rw [← hm, ← hm ω]; exact h.symm
  · right
    rw [Set.mem_singleton_iff, ← hm]
    have := h.neg
    rw [neg_neg] at this
    exact this.symm

/-- C133.  A prover who asks at most `q` questions to a random SHA-256 and whose output for the base G is
accepted with probability ε knows the discrete logarithm: running it, and running it a second time with
new answers from the question of the verifier on, gives two proofs from which the two explicit quotients
give the logarithm with probability at least ε (ε / (33 (q + 1)) - 2 (2^256 / N + 1) / 2^256).  The factor
33 is the price of hashing coordinates without their lengths.  It is the logarithm of the point that `Mult`
multiplies, and of `A` itself unless `A` is -G, H or -H. -/
theorem C133_gspfs_knowledge (L : Lawful cp E) (hs : Small L) (a : E) (A : Adv (Option GSPFSProof))
    (q : Nat) (hq : ∀ h, A.count h ≤ q) (S : Finset Bytes)
    (hS : A.asked bytesOf (gspfsAsk (L.pe a)) ⊆ S) (ε : ℝ)
    (hε : ε = prob fun f : S → Word => GspfsWins cp (L.pe a) (A.run (hashOf S f)) (hashOf S f)) :
    ε * (ε / (33 * (q + 1)) - 2 * perChal cp.C.N / 2 ^ 256) ≤
      prob fun G : Fin 2 → S → Word =>
        ∃ w ∈ gspfsLogs L (A.run (hashOf S (runs bytesOf S (gspfsAsk (L.pe a)) A G 0)))
            (A.run (hashOf S (runs bytesOf S (gspfsAsk (L.pe a)) A G 1))),
          mult cp (L.pe a) (some 1) = mult cp cp.G (some w) ∧ (L.MultOk a → a = w • L.g) := by
  have h1 := prob_success (word := bytesOf) (crit := gspfsAsk (L.pe a)) (A := A) (S := S)
    (good := GspfsWins cp (L.pe a)) (tag := gspfsTag) (Bad := CloseUpToSign cp.C.N) 1 hq
    (fun f _ => crit_mem_asked hS f) (Nat.cast_nonneg _) (num_closeUpToSign cp.C.N)
  rw [card_word, show ((Finset.univ : Finset (Fin (1 + 1) × Fin (1 + 1))).filter
    fun p => p.1 < p.2).card = 1 by decide, Fintype.card_fin] at h1
  rw [show (prob fun f : S → Word => GspfsWins cp (L.pe a) (A.run (toHash bytesOf S f))
    (toHash bytesOf S f)) = ε from hε.symm] at h1
  refine le_trans (le_of_eq ?_) (h1.trans (prob_mono ?_))
  · push_cast
    ring
  · rintro G ⟨x, t, hg, hb⟩
    have hb := hb 0 1 (by decide)
    obtain ⟨g0, k0, t0⟩ := hg 0
    obtain ⟨g1, k1, t1⟩ := hg 1
    obtain ⟨x0, y0, s0, c0, p0, e0, r0⟩ := gspfs_inv L g0
    obtain ⟨x1, y1, s1, c1, p1, e1, r1⟩ := gspfs_inv L g1
    have hl : ∀ b, (intBytes (L.enc b).1).length ≤ 32 := fun b =>
      length_intBytes (L.enc_nonneg b).1 (hs b).1
    have hash : ∀ x y, hashed [L.pe a, pt x y] = [L.bytes a, intBytes x ++ intBytes y].flatten := by
      intro x y
      simp [hashed, List.mapM_cons, L.pointBytes_pe, Lawful.pointBytes_pt]
    have hxx : x0 = x1 := by
      rw [p0] at k0 t0
      rw [p1] at k1 t1
      have ht := t0.trans t1.symm
      have hk := k0.trans k1.symm
      simp only [gspfsAsk, hash] at hk
      have hsz := size_eq (by rw [r0]; exact hl _) (by rw [r1]; exact hl _) ht
      simp only [List.flatten_cons, List.flatten_nil, List.append_nil] at hk
      have := (List.append_inj (List.append_cancel_left hk) hsz).1
      exact intBytes_inj (by rw [r0]; exact (L.enc_nonneg _).1) (by rw [r1]; exact (L.enc_nonneg _).1)
        this
    have hcv : ∀ (i : Fin 2) (x' y' s' c' : Int),
        A.run (toHash bytesOf S (runs bytesOf S (gspfsAsk (L.pe a)) A G i)) =
          some ⟨L.pe L.g, pt x' y', some s', some c'⟩ →
        generateChallenge (toHash bytesOf S (runs bytesOf S (gspfsAsk (L.pe a)) A G i)) cp
          [L.bytes a, intBytes x' ++ intBytes y'] = c' →
        chalOf cp.C.N (runs bytesOf S (gspfsAsk (L.pe a)) A G i x) = c' := by
      intro i x' y' s' c' hp he
      have hk := (hg i).2.1
      rw [hp] at hk
      simp only [gspfsAsk, hash] at hk
      rw [generateChallenge, hk, toHash, dif_pos x.2] at he
      exact he
    have hc0 := hcv 0 _ _ _ _ p0 e0
    have hc1 := hcv 1 _ _ _ _ p1 e1
    rw [CloseUpToSign, hc0, hc1, not_or] at hb
    obtain ⟨w, hw, he⟩ := gspfs_extract L r0 (hxx ▸ r1) hb.1 hb.2
    refine ⟨w, ?_, ?_, fun ha => ?_⟩
    · rw [hashOf, hashOf, p0, p1]
      exact hw
    · rw [L.G_pe, L.mult_pe, L.mult_pe, one_smul, he, L.eff_g]
    · rwa [(L.multOk_iff_eff a).1 ha] at he

/-- A prover for `G = 1 G` (for examples; gspfs.go:43-69). -/
def gspfsProver (L : Lawful cp E) : Adv (Option GSPFSProof) :=
  askOnce (hashed [L.pe L.g, L.pe L.g]) fun d =>
    some ⟨L.pe L.g, L.pe L.g, some (1 - (setBytes d : Int) % cp.C.N), some ((setBytes d : Int) % cp.C.N)⟩

/-- The hypotheses of C133 are met by `TestCurve` and the honest prover, with ε = 1; the bound is then
1 / 66 - 2^(-254). -/
example : ∃ S : Finset Bytes, Small Curve.lawful ∧ (∀ h, (gspfsProver Curve.lawful).count h ≤ 1) ∧
    (gspfsProver Curve.lawful).asked bytesOf (gspfsAsk (Curve.lawful.pe Curve.lawful.g)) ⊆ S ∧
    (prob fun f : S → Word => GspfsWins Curve.tc (Curve.lawful.pe Curve.lawful.g)
      ((gspfsProver Curve.lawful).run (hashOf S f)) (hashOf S f)) = 1 ∧
    (0 : ℝ) < 1 * (1 / (33 * ((1 : ℕ) + 1)) - 2 * perChal Curve.tc.C.N / 2 ^ 256) := by
  refine ⟨_, small_testCurve, fun h => le_rfl, Finset.Subset.refl _, prob_one fun f => ?_, ?_⟩
  · refine ⟨⟨_, rfl, Curve.lawful.G_pe.symm⟩, ?_⟩
    refine (Curve.lawful.gspfsVerify_pe_iff _ _ _ _ _ _).2 ⟨?_, ?_⟩
    · rw [Lawful.chal, generateChallenge, ← hashed_pe]
      rfl
    · rw [Curve.lawful.same_iff, Curve.lawful.eff_g]
      left
      module
  · rw [perChal_testCurve]
    norm_num

/-! ## Equivalence -/

/-- What `Verify` hashes.  See equivalence.go:92-94. -/
def equivalenceAsk (b1 r1 b2 r2 : ECPoint) : Option EquivalenceProof → Bytes
  | none => []
  | some p => hashed [b1, r1, b2, r2, p.UG, p.UH]

/-- The sizes of the random commitments.  See equivalence.go:92-94. -/
def equivalenceTag : Option EquivalenceProof → Fin 33 × Fin 33 × Fin 33
  | none => (0, 0, 0)
  | some p => tag2 p.UG p.UH

/-- The random commitments are on the curve and `Verify` accepts.  See equivalence.go:84-122. -/
def EquivalenceWins (L : Lawful cp E) (b1 r1 b2 r2 : E) (p : Option EquivalenceProof)
    (hash : Bytes → Bytes) : Prop :=
  (∃ pr t1 t2, p = some pr ∧ pr.UG = L.pe t1 ∧ pr.UH = L.pe t2) ∧
    equivalenceVerify hash cp p (L.pe b1) (L.pe r1) (L.pe b2) (L.pe r2) = .ok accept

/-- What the extractor computes from two proofs.  See equivalence.go:84-122. -/
noncomputable def equivalenceLogs (L : Lawful cp E) :
    Option EquivalenceProof → Option EquivalenceProof → List Int
  | some ⟨_, _, some c, some s⟩, some ⟨_, _, some c', some s'⟩ => L.extract s c s' c'
  | _, _ => []

theorem equivalence_inv (L : Lawful cp E) {b1 r1 b2 r2 : E} {p : Option EquivalenceProof}
    {hash : Bytes → Bytes} (h : EquivalenceWins L b1 r1 b2 r2 p hash) :
    ∃ t1 t2 c s, p = some ⟨L.pe t1, L.pe t2, some c, some s⟩ ∧
      L.chal hash [b1, r1, b2, r2, t1, t2] = c := by
  obtain ⟨⟨⟨UG, UH, c, s⟩, t1, t2, rfl, h1, h2⟩, hv⟩ := h
  simp only at h1 h2
  subst h1 h2
  cases c with
  | none => simp [equivalenceVerify, L.challengeOf₆, cmpEq] at hv
  | some c =>
  cases s with
  | none =>
    simp only [equivalenceVerify, L.challengeOf₆, Go.bind_ok, cmpEq, mult_pe_none] at hv
    split at hv <;> simp at hv
  | some s => exact ⟨t1, t2, c, s, rfl, ((L.equivalenceVerify_iff ..).1 hv).1⟩

/-- C134.  For a statement that is false even up to sign, no prover who asks at most `q` questions to a
random SHA-256 has a proof with commitments on the curve accepted with more than the negligible
probability 71874 (q + 1) (2^256 / N + 1) / 2^256.  The prover is not bounded in its computations. -/
theorem C134_equivalence_sound (L : Lawful cp E) (hs : Small L) (b1 r1 b2 r2 : E)
    (hfalse : ¬ ∃ x, RelatedUpToSign L b1 r1 b2 r2 x) (A : Adv (Option EquivalenceProof)) (q : Nat)
    (hq : ∀ h, A.count h ≤ q) (S : Finset Bytes)
    (hS : A.asked bytesOf (equivalenceAsk (L.pe b1) (L.pe r1) (L.pe b2) (L.pe r2)) ⊆ S) :
    (prob fun f : S → Word => EquivalenceWins L b1 r1 b2 r2 (A.run (hashOf S f)) (hashOf S f)) ≤
      (q + 1) * (71874 * perChal cp.C.N) / 2 ^ 256 := by
  let C : E → E → Set Int := fun t1 t2 => {c : Int | ∃ (hash : Bytes → Bytes) (s : Int),
      equivalenceVerify hash cp (some ⟨L.pe t1, L.pe t2, some c, some s⟩)
        (L.pe b1) (L.pe r1) (L.pe b2) (L.pe r2) = .ok accept}
  have h1 := prob_lucky (word := bytesOf) (S := S)
    (crit := equivalenceAsk (L.pe b1) (L.pe r1) (L.pe b2) (L.pe r2)) (A := A) hq (Nat.cast_nonneg _) _
    (num_lucky L hs [b1, r1, b2, r2] C 2 fun t1 t2 => by
      exact_mod_cast C34_at_most_two_challenges L b1 r1 b2 r2 t1 t2 hfalse)
  rw [card_word] at h1
  refine (prob_mono ?_).trans (h1.trans (le_of_eq ?_))
  · intro f hw
    have hm := crit_mem_asked hS f
    obtain ⟨t1, t2, c, s, hp, hc⟩ := equivalence_inv L hw
    have hv := hw.2
    rw [hashOf, hp] at hv
    rw [hp] at hm
    refine ⟨⟨_, hm⟩, by rw [hp], t1, t2, rfl, ?_⟩
    rw [chal_hashOf L S f ⟨_, hm⟩ _ rfl] at hc
    rw [hc]
    exact ⟨_, s, hv⟩
  · push_cast
    ring

/-- C134, the witness: three runs of a prover who is accepted with probability ε give the common
logarithm. -/
theorem C134_equivalence_knowledge (L : Lawful cp E) (hs : Small L) (b1 r1 b2 r2 : E)
    (A : Adv (Option EquivalenceProof)) (q : Nat) (hq : ∀ h, A.count h ≤ q) (S : Finset Bytes)
    (hS : A.asked bytesOf (equivalenceAsk (L.pe b1) (L.pe r1) (L.pe b2) (L.pe r2)) ⊆ S) (ε : ℝ)
    (hε : ε = prob fun f : S → Word =>
      EquivalenceWins L b1 r1 b2 r2 (A.run (hashOf S f)) (hashOf S f)) :
    ε * ((ε / (35937 * (q + 1))) ^ 2 - 3 * perChal cp.C.N / 2 ^ 256) ≤
      prob fun G : Fin 3 → S → Word => ∃ i j, ∃ x ∈ equivalenceLogs L
          (A.run (hashOf S (runs bytesOf S (equivalenceAsk (L.pe b1) (L.pe r1) (L.pe b2) (L.pe r2)) A G i)))
          (A.run (hashOf S (runs bytesOf S (equivalenceAsk (L.pe b1) (L.pe r1) (L.pe b2) (L.pe r2)) A G j))),
        RelatedUpToSign L b1 r1 b2 r2 x ∧
        (L.MultOk b1 → L.MultOk r1 → L.MultOk b2 → L.MultOk r2 →
          r1 = x • b1 ∧ (r2 = x • b2 ∨ r2 = -(x • b2))) := by
  set crit := equivalenceAsk (L.pe b1) (L.pe r1) (L.pe b2) (L.pe r2) with hcrit
  have h1 := prob_success (word := bytesOf) (crit := crit) (A := A) (S := S)
    (good := EquivalenceWins L b1 r1 b2 r2) (tag := equivalenceTag) (Bad := SameChal cp.C.N) 2 hq
    (fun f _ => crit_mem_asked hS f) (Nat.cast_nonneg _) (num_sameChal cp.C.N)
  rw [card_word, show ((Finset.univ : Finset (Fin (2 + 1) × Fin (2 + 1))).filter
    fun p => p.1 < p.2).card = 3 by decide, card_tag2] at h1
  rw [show (prob fun f : S → Word => EquivalenceWins L b1 r1 b2 r2 (A.run (toHash bytesOf S f))
    (toHash bytesOf S f)) = ε from hε.symm] at h1
  refine le_trans (le_of_eq ?_) (h1.trans (prob_mono ?_))
  · rw [div_pow, mul_comm (35937 : ℝ)]
    push_cast
    ring
  · rintro G ⟨x, t, hg, hb⟩
    have hinv := fun i => equivalence_inv L (hg i).1
    choose t1 t2 c s hp hc using hinv
    have hk : ∀ i, x.1 = hashed (([b1, r1, b2, r2] ++ [t1 i, t2 i]).map L.pe) := by
      intro i
      have := (hg i).2.1
      rw [hp i] at this
      exact this.symm
    have ht : ∀ i, tag2 (L.pe (t1 i)) (L.pe (t2 i)) = t := by
      intro i
      have := (hg i).2.2
      rw [hp i] at this
      exact this
    have hsame : ∀ i, t1 i = t1 0 ∧ t2 i = t2 0 := fun i =>
      same_commits L hs _ ((hk i).symm.trans (hk 0)) ((ht i).trans (ht 0).symm)
    have hcv : ∀ i, chalOf cp.C.N (runs bytesOf S crit A G i x) = c i := by
      intro i
      rw [← hc i]
      exact (chal_hashOf L S _ x [b1, r1, b2, r2, t1 i, t2 i] (hk i)).symm
    have hinj : Function.Injective c := by
      intro i j hij
      by_contra hne
      rcases lt_or_gt_of_ne hne with h | h
      · exact hb i j h (by rw [SameChal, hcv, hcv, hij])
      · exact hb j i h (by rw [SameChal, hcv, hcv, hij])
    obtain ⟨i, j, _, y, hy, hr⟩ := C34_soundness L
      (fun i => toHash bytesOf S (runs bytesOf S crit A G i)) b1 r1 b2 r2 (t1 0) (t2 0) c s hinj
      (fun i => by
        have := (hg i).1.2
        rw [hp i, (hsame i).1, (hsame i).2] at this
        exact this)
    refine ⟨i, j, y, ?_, hr⟩
    rw [hashOf, hashOf, hp i, hp j]
    exact hy

/-- A prover for `G = 1 G` twice (for examples; equivalence.go:38-79). -/
def equivalenceProver (L : Lawful cp E) : Adv (Option EquivalenceProof) :=
  askOnce (hashed [L.pe L.g, L.pe L.g, L.pe L.g, L.pe L.g, L.pe L.g, L.pe L.g]) fun d =>
    some ⟨L.pe L.g, L.pe L.g, some ((setBytes d : Int) % cp.C.N), some (1 + (setBytes d : Int) % cp.C.N)⟩

theorem eff_zero (L : Lawful cp E) : L.eff 0 = 0 := by
  rw [Lawful.eff, if_neg, if_neg]
  · rintro (h | h)
    · exact L.h_ne h.symm
    · exact L.h_ne (neg_eq_zero.1 h.symm)
  · rintro (h | h)
    · exact L.g_ne h.symm
    · exact L.g_ne (neg_eq_zero.1 h.symm)

theorem zero_not_related (L : Lawful cp E) : ¬ ∃ x, RelatedUpToSign L L.g L.g L.g 0 x := by
  rintro ⟨x, h1, h2⟩
  rw [L.eff_g] at h1 h2
  rw [eff_zero L, ← h1] at h2
  rcases h2 with h2 | h2
  · exact L.g_ne h2.symm
  · exact L.g_ne (neg_eq_zero.1 h2.symm)

/-- The hypotheses of C134 are met by `TestCurve`: a false statement, with a prover who cheats, and a true
one, with the honest prover and ε = 1. -/
example : ∃ S S' : Finset Bytes, Small Curve.lawful ∧
    (¬ ∃ x, RelatedUpToSign Curve.lawful Curve.lawful.g Curve.lawful.g Curve.lawful.g 0 x) ∧
    (∀ h, (equivalenceProver Curve.lawful).count h ≤ 1) ∧
    (equivalenceProver Curve.lawful).asked bytesOf (equivalenceAsk (Curve.lawful.pe Curve.lawful.g)
      (Curve.lawful.pe Curve.lawful.g) (Curve.lawful.pe Curve.lawful.g) (Curve.lawful.pe 0)) ⊆ S' ∧
    (equivalenceProver Curve.lawful).asked bytesOf (equivalenceAsk (Curve.lawful.pe Curve.lawful.g)
      (Curve.lawful.pe Curve.lawful.g) (Curve.lawful.pe Curve.lawful.g)
      (Curve.lawful.pe Curve.lawful.g)) ⊆ S ∧
    (prob fun f : S → Word => EquivalenceWins Curve.lawful Curve.lawful.g Curve.lawful.g
      Curve.lawful.g Curve.lawful.g ((equivalenceProver Curve.lawful).run (hashOf S f))
      (hashOf S f)) = 1 ∧
    (0 : ℝ) < 1 * ((1 / (35937 * ((1 : ℕ) + 1))) ^ 2 - 3 * perChal Curve.tc.C.N / 2 ^ 256) := by
  refine ⟨_, _, small_testCurve, zero_not_related _, fun h => le_rfl, Finset.Subset.refl _,
    Finset.Subset.refl _, prob_one fun f => ?_, ?_⟩
  · refine ⟨⟨_, _, _, rfl, rfl, rfl⟩, ?_⟩
    refine (Curve.lawful.equivalenceVerify_iff _ _ _ _ _ _ _ _ _).2 ⟨?_, ?_, ?_⟩
    · rw [Lawful.chal, generateChallenge, ← hashed_pe]
      rfl
    all_goals
      rw [Curve.lawful.same_iff, Curve.lawful.eff_g]
      left
      module
  · rw [perChal_testCurve]
    norm_num

/-! ## Consistency -/

/-- What `Verify` hashes.  See consistency.go:99-102. -/
def consistencyAsk (cp : Params) (cm tok pk : ECPoint) : Option ConsistencyProof → Bytes
  | none => []
  | some p => hashed [cp.G, cp.H, cm, tok, pk, p.T1, p.T2]

/-- The sizes of the random commitments.  See consistency.go:99-102. -/
def consistencyTag : Option ConsistencyProof → Fin 33 × Fin 33 × Fin 33
  | none => (0, 0, 0)
  | some p => tag2 p.T1 p.T2

/-- The random commitments are on the curve and `Verify` accepts.  See consistency.go:91-133. -/
def ConsistencyWins (L : Lawful cp E) (cm tok pk : E) (p : Option ConsistencyProof)
    (hash : Bytes → Bytes) : Prop :=
  (∃ pr t1 t2, p = some pr ∧ pr.T1 = L.pe t1 ∧ pr.T2 = L.pe t2) ∧
    consistencyVerify hash cp p (L.pe cm) (L.pe tok) (L.pe pk) = .ok accept

/-- What the extractor computes from two proofs: values and random numbers.
See consistency.go:91-133. -/
noncomputable def consistencyOpenings (L : Lawful cp E) :
    Option ConsistencyProof → Option ConsistencyProof → List (Int × Int)
  | some ⟨_, _, some c, some s1, some s2⟩, some ⟨_, _, some c', some s1', some s2'⟩ =>
    L.extract s1 c s1' c' ×ˢ L.extract s2 c s2' c'
  | _, _ => []

theorem consistency_inv (L : Lawful cp E) {cm tok pk : E} {p : Option ConsistencyProof}
    {hash : Bytes → Bytes} (h : ConsistencyWins L cm tok pk p hash) :
    ∃ t1 t2 c s1 s2, p = some ⟨L.pe t1, L.pe t2, some c, some s1, some s2⟩ ∧
      L.chal hash [L.g, L.h, cm, tok, pk, t1, t2] = c := by
  obtain ⟨⟨⟨T1, T2, c, s1, s2⟩, t1, t2, rfl, h1, h2⟩, hv⟩ := h
  simp only at h1 h2
  subst h1 h2
  have hch := L.challengeOf₇ hash L.g L.h cm tok pk t1 t2
  cases c with
  | none => simp [consistencyVerify, L.G_pe, L.H_pe, hch, cmpEq] at hv
  | some c =>
  cases s1 with
  | none =>
    simp only [consistencyVerify, L.G_pe, L.H_pe, hch, Go.bind_ok, cmpEq] at hv
    split at hv
    · simp at hv
    · simp [pedCommitR, deref] at hv
  | some s1 =>
  cases s2 with
  | none =>
    simp only [consistencyVerify, L.G_pe, L.H_pe, hch, Go.bind_ok, cmpEq] at hv
    split at hv
    · simp at hv
    · simp [pedCommitR, deref] at hv
  | some s2 => exact ⟨t1, t2, c, s1, s2, rfl, ((L.consistencyVerify_iff ..).1 hv).1⟩

/-- C135.  Three runs of a prover who is accepted with probability ε, with new answers from the question of
the verifier on, give the value and the random number in the commitment and the token (up to sign), with
probability at least ε ((ε / (35937 (q + 1)))² - 3 (2^256 / N + 1) / 2^256).  The commitments of the proof
are on the curve. -/
theorem C135_consistency_knowledge (L : Lawful cp E) (hs : Small L) (cm tok pk : E)
    (A : Adv (Option ConsistencyProof)) (q : Nat) (hq : ∀ h, A.count h ≤ q) (S : Finset Bytes)
    (hS : A.asked bytesOf (consistencyAsk cp (L.pe cm) (L.pe tok) (L.pe pk)) ⊆ S) (ε : ℝ)
    (hε : ε = prob fun f : S → Word =>
      ConsistencyWins L cm tok pk (A.run (hashOf S f)) (hashOf S f)) :
    ε * ((ε / (35937 * (q + 1))) ^ 2 - 3 * perChal cp.C.N / 2 ^ 256) ≤
      prob fun G : Fin 3 → S → Word => ∃ i j, ∃ vr ∈ consistencyOpenings L
          (A.run (hashOf S (runs bytesOf S (consistencyAsk cp (L.pe cm) (L.pe tok) (L.pe pk)) A G i)))
          (A.run (hashOf S (runs bytesOf S (consistencyAsk cp (L.pe cm) (L.pe tok) (L.pe pk)) A G j))),
        (L.eff cm = vr.1 • L.g + vr.2 • L.hb ∧
          (L.eff tok = vr.2 • L.eff pk ∨ L.eff tok = -(vr.2 • L.eff pk))) ∧
        (L.MultOk cm → L.MultOk tok → L.MultOk pk →
          pedCommitR cp (some vr.1) (some vr.2) = .ok (L.pe cm) ∧
            (tok = vr.2 • pk ∨ tok = -(vr.2 • pk))) := by
  set crit := consistencyAsk cp (L.pe cm) (L.pe tok) (L.pe pk) with hcrit
  have h1 := prob_success (word := bytesOf) (crit := crit) (A := A) (S := S)
    (good := ConsistencyWins L cm tok pk) (tag := consistencyTag) (Bad := SameChal cp.C.N) 2 hq
    (fun f _ => crit_mem_asked hS f) (Nat.cast_nonneg _) (num_sameChal cp.C.N)
  rw [card_word, show ((Finset.univ : Finset (Fin (2 + 1) × Fin (2 + 1))).filter
    fun p => p.1 < p.2).card = 3 by decide, card_tag2] at h1
  rw [show (prob fun f : S → Word => ConsistencyWins L cm tok pk (A.run (toHash bytesOf S f))
    (toHash bytesOf S f)) = ε from hε.symm] at h1
  refine le_trans (le_of_eq ?_) (h1.trans (prob_mono ?_))
  · rw [div_pow, mul_comm (35937 : ℝ)]
    push_cast
    ring
  · rintro G ⟨x, t, hg, hb⟩
    have hinv := fun i => consistency_inv L (hg i).1
    choose t1 t2 c s1 s2 hp hc using hinv
    have hk : ∀ i, x.1 = hashed (([L.g, L.h, cm, tok, pk] ++ [t1 i, t2 i]).map L.pe) := by
      intro i
      have := (hg i).2.1
      rw [hp i, hcrit, consistencyAsk, L.G_pe, L.H_pe] at this
      exact this.symm
    have ht : ∀ i, tag2 (L.pe (t1 i)) (L.pe (t2 i)) = t := by
      intro i
      have := (hg i).2.2
      rw [hp i] at this
      exact this
    have hsame : ∀ i, t1 i = t1 0 ∧ t2 i = t2 0 := fun i =>
      same_commits L hs _ ((hk i).symm.trans (hk 0)) ((ht i).trans (ht 0).symm)
    have hcv : ∀ i, chalOf cp.C.N (runs bytesOf S crit A G i x) = c i := by
      intro i
      rw [← hc i]
      exact (chal_hashOf L S _ x [L.g, L.h, cm, tok, pk, t1 i, t2 i] (hk i)).symm
    have hinj : Function.Injective c := by
      intro i j hij
      by_contra hne
      rcases lt_or_gt_of_ne hne with h | h
      · exact hb i j h (by rw [SameChal, hcv, hcv, hij])
      · exact hb j i h (by rw [SameChal, hcv, hcv, hij])
    obtain ⟨i, j, _, v, hv, r, hr, hvr⟩ := C39_soundness L
      (fun i => toHash bytesOf S (runs bytesOf S crit A G i)) cm tok pk (t1 0) (t2 0) c s1 s2 hinj
      (fun i => by
        have := (hg i).1.2
        rw [hp i, (hsame i).1, (hsame i).2] at this
        exact this)
    refine ⟨i, j, (v, r), ?_, hvr⟩
    rw [hashOf, hashOf, hp i, hp j]
    exact List.mem_product.2 ⟨hv, hr⟩

/-- A prover for the value 1 and the random number 0 with the key G (for examples;
consistency.go:45-88). -/
def consistencyProver (L : Lawful cp E) : Adv (Option ConsistencyProof) :=
  askOnce (hashed [L.pe L.g, L.pe L.h, L.pe L.g, L.pe 0, L.pe L.g, L.pe L.g, L.pe 0]) fun d =>
    some ⟨L.pe L.g, L.pe 0, some ((setBytes d : Int) % cp.C.N), some (1 + (setBytes d : Int) % cp.C.N),
      some 0⟩

/-- The hypotheses of C135 are met by `TestCurve` and the honest prover, with ε = 1. -/
example : ∃ S : Finset Bytes, Small Curve.lawful ∧
    (∀ h, (consistencyProver Curve.lawful).count h ≤ 1) ∧
    (consistencyProver Curve.lawful).asked bytesOf (consistencyAsk Curve.tc
      (Curve.lawful.pe Curve.lawful.g) (Curve.lawful.pe 0) (Curve.lawful.pe Curve.lawful.g)) ⊆ S ∧
    (prob fun f : S → Word => ConsistencyWins Curve.lawful Curve.lawful.g 0 Curve.lawful.g
      ((consistencyProver Curve.lawful).run (hashOf S f)) (hashOf S f)) = 1 ∧
    (0 : ℝ) < 1 * ((1 / (35937 * ((1 : ℕ) + 1))) ^ 2 - 3 * perChal Curve.tc.C.N / 2 ^ 256) := by
  refine ⟨_, small_testCurve, fun h => le_rfl, Finset.Subset.refl _, prob_one fun f => ?_, ?_⟩
  · refine ⟨⟨_, _, _, rfl, rfl, rfl⟩, ?_⟩
    refine (Curve.lawful.consistencyVerify_iff _ _ _ _ _ _ _ _ _).2 ⟨?_, ?_, ?_⟩
    · rw [Lawful.chal, generateChallenge, ← hashed_pe]
      rfl
    · rw [Curve.lawful.same_iff, Curve.lawful.eff_g]
      left
      module
    · rw [Curve.lawful.same_iff, eff_zero]
      left
      rw [smul_zero, zero_add, zero_zsmul]
  · rw [perChal_testCurve]
    norm_num

/-! ## Disjunctive -/

/-- What `Verify` hashes.  See disjunctive.go:170-172. -/
def disjunctiveAsk (b1 r1 b2 r2 : ECPoint) : Option DisjunctiveProof → Bytes
  | none => []
  | some p => hashed [b1, r1, b2, r2, p.T1, p.T2]

/-- The sizes of the random commitments.  See disjunctive.go:170-172. -/
def disjunctiveTag : Option DisjunctiveProof → Fin 33 × Fin 33 × Fin 33
  | none => (0, 0, 0)
  | some p => tag2 p.T1 p.T2

/-- The random commitments are on the curve and `Verify` accepts.  See disjunctive.go:155-204. -/
def DisjunctiveWins (L : Lawful cp E) (b1 r1 b2 r2 : E) (p : Option DisjunctiveProof)
    (hash : Bytes → Bytes) : Prop :=
  (∃ pr t1 t2, p = some pr ∧ pr.T1 = L.pe t1 ∧ pr.T2 = L.pe t2) ∧
    disjunctiveVerify hash cp p (L.pe b1) (L.pe r1) (L.pe b2) (L.pe r2) = .ok accept

/-- What the extractor computes from two proofs for the first side.  See disjunctive.go:155-204. -/
noncomputable def leftLogs (L : Lawful cp E) :
    Option DisjunctiveProof → Option DisjunctiveProof → List Int
  | some ⟨_, _, _, some c1, _, some s1, _⟩, some ⟨_, _, _, some c1', _, some s1', _⟩ =>
    L.extract s1 c1 s1' c1'
  | _, _ => []

/-- What the extractor computes from two proofs for the second side.  See disjunctive.go:155-204. -/
noncomputable def rightLogs (L : Lawful cp E) :
    Option DisjunctiveProof → Option DisjunctiveProof → List Int
  | some ⟨_, _, _, _, some c2, _, some s2⟩, some ⟨_, _, _, _, some c2', _, some s2'⟩ =>
    L.extract s2 c2 s2' c2'
  | _, _ => []

theorem disjunctive_inv (L : Lawful cp E) {b1 r1 b2 r2 : E} {p : Option DisjunctiveProof}
    {hash : Bytes → Bytes} (h : DisjunctiveWins L b1 r1 b2 r2 p hash) :
    ∃ t1 t2 c c1 c2 s1 s2,
      p = some ⟨L.pe t1, L.pe t2, some c, some c1, some c2, some s1, some s2⟩ ∧
      L.chal hash [b1, r1, b2, r2, t1, t2] = c := by
  obtain ⟨⟨⟨T1, T2, c, c1, c2, s1, s2⟩, t1, t2, rfl, h1, h2⟩, hv⟩ := h
  simp only at h1 h2
  subst h1 h2
  cases c with
  | none => simp [disjunctiveVerify, L.challengeOf₆, cmpEq] at hv
  | some c =>
  cases c1 with
  | none =>
    simp only [disjunctiveVerify, L.challengeOf₆, Go.bind_ok, cmpEq] at hv
    split at hv <;> simp at hv
  | some c1 =>
  cases c2 with
  | none =>
    simp only [disjunctiveVerify, L.challengeOf₆, Go.bind_ok, cmpEq] at hv
    split at hv <;> simp at hv
  | some c2 =>
  cases s1 with
  | none =>
    simp only [disjunctiveVerify, L.challengeOf₆, Go.bind_ok, cmpEq, deref_some, mult_pe_none,
      L.mult_pe, L.add_pe] at hv
    split at hv
    · simp at hv
    · split at hv <;> simp at hv
  | some s1 =>
  cases s2 with
  | none =>
    simp only [disjunctiveVerify, L.challengeOf₆, Go.bind_ok, cmpEq, deref_some, mult_pe_none,
      L.mult_pe, L.add_pe, L.equal_pe] at hv
    split at hv
    · simp at hv
    · split at hv
      · simp at hv
      · split at hv <;> simp at hv
  | some s2 =>
    exact ⟨t1, t2, c, c1, c2, s1, s2, rfl, ((L.disjunctiveVerify_iff ..).1 hv).1⟩

/-- C136.  Two runs of a prover who is accepted with probability ε, with new answers from the question of the
verifier on, give the logarithm of one of the two sides with probability at least
ε (ε / (35937 (q + 1)) - (2^256 / N + 1) / 2^256).  The commitments of the proof are on the curve. -/
theorem C136_disjunctive_knowledge (L : Lawful cp E) (hs : Small L) (b1 r1 b2 r2 : E)
    (A : Adv (Option DisjunctiveProof)) (q : Nat) (hq : ∀ h, A.count h ≤ q) (S : Finset Bytes)
    (hS : A.asked bytesOf (disjunctiveAsk (L.pe b1) (L.pe r1) (L.pe b2) (L.pe r2)) ⊆ S) (ε : ℝ)
    (hε : ε = prob fun f : S → Word =>
      DisjunctiveWins L b1 r1 b2 r2 (A.run (hashOf S f)) (hashOf S f)) :
    ε * (ε / (35937 * (q + 1)) - perChal cp.C.N / 2 ^ 256) ≤
      prob fun G : Fin 2 → S → Word =>
        (∃ x ∈ leftLogs L
            (A.run (hashOf S (runs bytesOf S (disjunctiveAsk (L.pe b1) (L.pe r1) (L.pe b2) (L.pe r2)) A G 0)))
            (A.run (hashOf S (runs bytesOf S (disjunctiveAsk (L.pe b1) (L.pe r1) (L.pe b2) (L.pe r2)) A G 1))),
          L.eff r1 = x • L.eff b1 ∧ (L.MultOk b1 → L.MultOk r1 → r1 = x • b1)) ∨
        (∃ y ∈ rightLogs L
            (A.run (hashOf S (runs bytesOf S (disjunctiveAsk (L.pe b1) (L.pe r1) (L.pe b2) (L.pe r2)) A G 0)))
            (A.run (hashOf S (runs bytesOf S (disjunctiveAsk (L.pe b1) (L.pe r1) (L.pe b2) (L.pe r2)) A G 1))),
          L.eff r2 = y • L.eff b2 ∧ (L.MultOk b2 → L.MultOk r2 → r2 = y • b2)) := by
  set crit := disjunctiveAsk (L.pe b1) (L.pe r1) (L.pe b2) (L.pe r2) with hcrit
  have h1 := prob_success (word := bytesOf) (crit := crit) (A := A) (S := S)
    (good := DisjunctiveWins L b1 r1 b2 r2) (tag := disjunctiveTag) (Bad := SameChal cp.C.N) 1 hq
    (fun f _ => crit_mem_asked hS f) (Nat.cast_nonneg _) (num_sameChal cp.C.N)
  rw [card_word, show ((Finset.univ : Finset (Fin (1 + 1) × Fin (1 + 1))).filter
    fun p => p.1 < p.2).card = 1 by decide, card_tag2] at h1
  rw [show (prob fun f : S → Word => DisjunctiveWins L b1 r1 b2 r2 (A.run (toHash bytesOf S f))
    (toHash bytesOf S f)) = ε from hε.symm] at h1
  refine le_trans (le_of_eq ?_) (h1.trans (prob_mono ?_))
  · push_cast
    ring
  · rintro G ⟨x, t, hg, hb⟩
    have hinv := fun i => disjunctive_inv L (hg i).1
    choose t1 t2 c c1 c2 s1 s2 hp hc using hinv
    have hk : ∀ i, x.1 = hashed (([b1, r1, b2, r2] ++ [t1 i, t2 i]).map L.pe) := by
      intro i
      have := (hg i).2.1
      rw [hp i] at this
      exact this.symm
    have ht : ∀ i, tag2 (L.pe (t1 i)) (L.pe (t2 i)) = t := by
      intro i
      have := (hg i).2.2
      rw [hp i] at this
      exact this
    have hsame : t1 1 = t1 0 ∧ t2 1 = t2 0 :=
      same_commits L hs _ ((hk 1).symm.trans (hk 0)) ((ht 1).trans (ht 0).symm)
    have hcv : ∀ i, chalOf cp.C.N (runs bytesOf S crit A G i x) = c i := by
      intro i
      rw [← hc i]
      exact (chal_hashOf L S _ x [b1, r1, b2, r2, t1 i, t2 i] (hk i)).symm
    have hne : c 0 ≠ c 1 := fun he => hb 0 1 (by decide) (by rw [SameChal, hcv, hcv, he])
    have v0 := (hg 0).1.2
    have v1 := (hg 1).1.2
    rw [hp 0] at v0
    rw [hp 1, hsame.1, hsame.2] at v1
    have := C43_soundness L _ _ b1 r1 b2 r2 (t1 0) (t2 0) _ _ _ _ _ _ _ _ _ _ hne v0 v1
    rw [hashOf, hashOf, hp 0, hp 1]
    exact this

/-- A prover who knows the logarithm of the first side only (for examples; disjunctive.go:59-152). -/
def disjunctiveProver (L : Lawful cp E) : Adv (Option DisjunctiveProof) :=
  askOnce (hashed [L.pe L.g, L.pe L.g, L.pe L.g, L.pe 0, L.pe L.g, L.pe L.g]) fun d =>
    some ⟨L.pe L.g, L.pe L.g, some ((setBytes d : Int) % cp.C.N), some ((setBytes d : Int) % cp.C.N),
      some 0, some (1 + (setBytes d : Int) % cp.C.N), some 1⟩

/-- The hypotheses of C136 are met by `TestCurve` and the honest prover, with ε = 1. -/
example : ∃ S : Finset Bytes, Small Curve.lawful ∧
    (∀ h, (disjunctiveProver Curve.lawful).count h ≤ 1) ∧
    (disjunctiveProver Curve.lawful).asked bytesOf (disjunctiveAsk (Curve.lawful.pe Curve.lawful.g)
      (Curve.lawful.pe Curve.lawful.g) (Curve.lawful.pe Curve.lawful.g) (Curve.lawful.pe 0)) ⊆ S ∧
    (prob fun f : S → Word => DisjunctiveWins Curve.lawful Curve.lawful.g Curve.lawful.g
      Curve.lawful.g 0 ((disjunctiveProver Curve.lawful).run (hashOf S f)) (hashOf S f)) = 1 ∧
    (0 : ℝ) < 1 * (1 / (35937 * ((1 : ℕ) + 1)) - perChal Curve.tc.C.N / 2 ^ 256) := by
  refine ⟨_, small_testCurve, fun h => le_rfl, Finset.Subset.refl _, prob_one fun f => ?_, ?_⟩
  · refine ⟨⟨_, _, _, rfl, rfl, rfl⟩, ?_⟩
    refine (Curve.lawful.disjunctiveVerify_iff _ _ _ _ _ _ _ _ _ _ _ _).2 ⟨?_, ?_, ?_, ?_⟩
    · rw [Lawful.chal, generateChallenge, ← hashed_pe]
      rfl
    · rw [add_zero, Int.emod_emod_of_dvd _ dvd_rfl]
    · rw [Curve.lawful.same_iff, Curve.lawful.eff_g]
      left
      module
    · rw [Curve.lawful.same_iff, Curve.lawful.eff_g, eff_zero]
      left
      simp
  · rw [perChal_testCurve]
    norm_num

end Zk.Rom
