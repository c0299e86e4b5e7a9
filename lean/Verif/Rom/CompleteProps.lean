import Verif.Rom.Complete
import Mathlib.Data.Set.Finite.List

/-!
# How often honest provers succeed: properties

C27, C32, C37, C41, C45, C49 and C52 are false of the code for some draws.  Here is how rare these are.
-/

namespace Zk.Rom

open Zk Zk.Proto

variable {cp : Params} {E : Type} [AddCommGroup E]

/-! ## Range proofs -/

/-- C52, what holds: when SHA-256 is a random function and the prover's numbers are drawn uniformly, then for every value
in [0, 2^40) with high probability every schedule of the prover's goroutines ends with the same proof and blinding
factor, and every schedule of the verifier's goroutines accepts this proof for the commitment to the value.  Missing: the
rest, which is at most 40 (7 (2^256 / N + 1) / 2^256 + 6 / N) + 41 (2^256 - N) / 2^256. -/
theorem C52_probability_partial (L : Lawful cp E) (value : Int) (h0 : 0 ≤ value) (h : value < 2 ^ 40)
    (S : Finset Bytes) (hS : RangeStrings L 40 S) :
    1 - (40 * (7 * perChal cp.C.N / 2 ^ 256 + 6 / cp.C.N) + 41 * (2 ^ 256 - cp.C.N : ℕ) / 2 ^ 256) ≤
      prob fun z : (S → Word) × (Fin 40 → Fin cp.C.N) × (Fin 40 → Fin cp.C.N) × (Fin 40 → Fin cp.C.N) =>
        ∃ (proof : RangeProof) (vTotal : Int) (comm : ECPoint),
          (∀ r, NewRangeProofRuns (hashOf S z.1) cp value (drawn z.2.1 z.2.2.1 z.2.2.2) r ↔
            r = .ok (some proof, some vTotal, none)) ∧
          pedCommitR cp (some value) (some vTotal) = .ok comm ∧
          rangeVerify (hashOf S z.1) cp (some proof) comm = .ok accept ∧
          ∀ s, VState.Reach (hashOf S z.1) cp proof comm s → ∀ r, s.main = .ret r → r = .ok accept := by
  have h1 := prob_luckyDraws L 40 value S hS
  have h2 := prob_mono fun (z : (S → Word) × (Fin 40 → Fin cp.C.N) × (Fin 40 → Fin cp.C.N) × (Fin 40 → Fin cp.C.N))
      (hz : LuckyDraws L (hashOf S z.1) 40 value (drawn z.2.1 z.2.2.1 z.2.2.2)) =>
    C52_completeness_partial L (hashOf S z.1) value h0 h (drawn z.2.1 z.2.2.1 z.2.2.2) hz
  exact le_trans (by norm_num) (h1.trans h2)

/-- There are sets of strings for C52. -/
theorem exists_rangeStrings (L : Lawful cp E) (n : Nat) : ∃ S, RangeStrings L n S := by
  classical
  have : Finite E := Nat.finite_of_card_ne_zero (by rw [L.card]; exact L.prime.ne_zero)
  have hf : {as : List E | as.length ≤ n}.Finite := List.finite_length_le E n
  refine ⟨hf.toFinset.image fun as => hashed (as.map L.pe), fun as has => ?_⟩
  exact Finset.mem_image_of_mem _ (hf.mem_toFinset.2 has)

/-- C52 on `TestCurve`: an honest range proof is accepted except with probability 2^-122. -/
theorem C52_testcurve_probability : ∃ cp, Curve.testCurve = .ok cp ∧ ∃ S₀ : Finset Bytes,
    ∀ (value : Int) (S : Finset Bytes), 0 ≤ value → value < 2 ^ 40 → S₀ ⊆ S →
      1 - 1 / 2 ^ 122 ≤
        prob fun z : (S → Word) × (Fin 40 → Fin cp.C.N) × (Fin 40 → Fin cp.C.N) × (Fin 40 → Fin cp.C.N) =>
          ∃ (proof : RangeProof) (vTotal : Int) (comm : ECPoint),
            (∀ r, NewRangeProofRuns (hashOf S z.1) cp value (drawn z.2.1 z.2.2.1 z.2.2.2) r ↔
              r = .ok (some proof, some vTotal, none)) ∧
            pedCommitR cp (some value) (some vTotal) = .ok comm ∧
            rangeVerify (hashOf S z.1) cp (some proof) comm = .ok accept ∧
            ∀ s, VState.Reach (hashOf S z.1) cp proof comm s → ∀ r, s.main = .ret r → r = .ok accept := by
  obtain ⟨S₀, hS₀⟩ := exists_rangeStrings Curve.lawful 40
  refine ⟨Curve.tc, Curve.testCurve_eq, S₀, fun value S h0 h hS => le_trans ?_
    (C52_probability_partial Curve.lawful value h0 h S fun as has => hS (hS₀ as has))⟩
  rw [perChal_testCurve]
  have h1 : 2 ^ 256 - Curve.tc.C.N ≤ 432420386565659656852420866394968145599 := by decide +kernel
  have h2 : (((2 ^ 256 - Curve.tc.C.N : ℕ) : ℝ)) ≤ 432420386565659656852420866394968145599 := by exact_mod_cast h1
  have h3 : 2 ^ 255 ≤ Curve.tc.C.N := by decide +kernel
  have h4 : (2 : ℝ) ^ 255 ≤ Curve.tc.C.N := by exact_mod_cast h3
  have h5 : (6 : ℝ) / Curve.tc.C.N ≤ 6 / 2 ^ 255 := div_le_div_of_nonneg_left (by norm_num) (by positivity) h4
  have h6 : (41 * ((2 ^ 256 - Curve.tc.C.N : ℕ) : ℝ)) / 2 ^ 256 ≤
      41 * 432420386565659656852420866394968145599 / 2 ^ 256 := by gcongr
  have h7 : (40 * (7 * 2 / 2 ^ 256 + 6 / 2 ^ 255) + 41 * 432420386565659656852420866394968145599 / 2 ^ 256 : ℝ) ≤
      1 / 2 ^ 122 := by norm_num
  generalize ((2 ^ 256 - Curve.tc.C.N : ℕ) : ℝ) = l at *
  generalize (6 : ℝ) / Curve.tc.C.N = m at *
  push_cast
  linarith

/-! ## Schnorr, equivalence, consistency and disjunctive proofs -/

/-- A multiple by a number that is drawn uniformly rarely is special. -/
theorem prob_special (L : Lawful cp E) (a c : E) (h : c ≠ 0 ∨ L.MultOk a) :
    (prob fun x : Fin cp.C.N => ¬ L.MultOk (a + ((x : Nat) : Int) • c)) ≤ 3 / cp.C.N := by
  have hN : (0 : ℝ) < cp.C.N := Nat.cast_pos.2 L.prime.pos
  rw [prob, Fintype.card_fin]
  refine div_le_div_of_nonneg_right ?_ hN.le
  by_cases hc : c = 0
  · have ha : L.MultOk a := h.resolve_left fun h => h hc
    have h1 : ∀ x : Fin cp.C.N, L.MultOk (a + ((x : Nat) : Int) • c) := fun x => by
      rw [hc, smul_zero, add_zero]; exact ha
    exact (num_le_one fun x _ hx _ => absurd (h1 x) hx).trans (by norm_num)
  · exact num_special L a c hc

/-- C27, what holds: for every hash function and number u, when the logarithm is drawn uniformly, the proof of
`NewGSPFSProof` is made and accepted except with probability 3 / N.  Missing: these draws. -/
theorem C27_probability_partial (L : Lawful cp E) (hash : Bytes → Bytes) (u : Int) :
    1 - 3 / (cp.C.N : ℝ) ≤ prob fun x : Fin cp.C.N => ∃ A,
      mult cp cp.G (some ((x : Nat) : Int)) = .ok A ∧
      Succeeds (newGSPFSProof hash cp A ((x : Nat) : Int) u) fun p => gspfsVerify hash cp p A := by
  have : Nonempty (Fin cp.C.N) := ⟨⟨0, L.prime.pos⟩⟩
  refine prob_not ?_ (prob_special L 0 L.g (Or.inl L.g_ne))
  intro x hx
  rw [not_not, zero_add] at hx
  refine ⟨L.pe (((x : Nat) : Int) • L.g), by rw [L.G_pe, L.mult_pe, L.eff_g], ?_⟩
  rw [newGSPFSProof, L.G_pe]
  exact C27_completeness_partial L hash L.g _ u ((L.multOk_iff_eff _).2 L.eff_g) hx

/-- C32, what holds: for every hash function, all bases and every number u, when the logarithm is drawn uniformly, the
proof is made and accepted except with probability 6 / N.  Missing: these draws. -/
theorem C32_probability_partial (L : Lawful cp E) (hash : Bytes → Bytes) (b1 b2 : E) (u : Int) :
    1 - 6 / (cp.C.N : ℝ) ≤ prob fun x : Fin cp.C.N => ∃ R1 R2,
      mult cp (L.pe b1) (some ((x : Nat) : Int)) = .ok R1 ∧ mult cp (L.pe b2) (some ((x : Nat) : Int)) = .ok R2 ∧
      Succeeds (newEquivalenceProof hash cp (L.pe b1) R1 (L.pe b2) R2 ((x : Nat) : Int) u)
        fun p => equivalenceVerify hash cp p (L.pe b1) R1 (L.pe b2) R2 := by
  have : Nonempty (Fin cp.C.N) := ⟨⟨0, L.prime.pos⟩⟩
  have o : L.MultOk 0 := (L.multOk_iff_eff _).2 L.eff_zero
  have q := prob_union (fun _ h => h) (prob_special L 0 (L.eff b1) (Or.inr o)) (prob_special L 0 (L.eff b2) (Or.inr o))
  refine prob_not ?_ (q.trans (le_of_eq (by ring)))
  intro x hx
  simp only [not_or, not_not, zero_add] at hx
  exact ⟨_, _, L.mult_pe _ _, L.mult_pe _ _, C32_completeness_partial L hash b1 b2 _ _ _ u (L.mult_pe _ _)
    (L.mult_pe _ _) hx.1 hx.2⟩

/-- C37, what holds: for every hash function, public key, value and numbers u1, u2, when the blinding factor is drawn
uniformly, the proof is made and accepted except with probability 6 / N.  Missing: these draws. -/
theorem C37_probability_partial (L : Lawful cp E) (hash : Bytes → Bytes) (pk : E) (v u1 u2 : Int) :
    1 - 6 / (cp.C.N : ℝ) ≤ prob fun r : Fin cp.C.N => ∃ CM CMTok,
      pedCommitR cp (some v) (some ((r : Nat) : Int)) = .ok CM ∧
      mult cp (L.pe pk) (some ((r : Nat) : Int)) = .ok CMTok ∧
      Succeeds (newConsistencyProof hash cp CM CMTok (L.pe pk) v ((r : Nat) : Int) u1 u2)
        fun p => consistencyVerify hash cp p CM CMTok (L.pe pk) := by
  have : Nonempty (Fin cp.C.N) := ⟨⟨0, L.prime.pos⟩⟩
  have o : L.MultOk 0 := (L.multOk_iff_eff _).2 L.eff_zero
  have q := prob_union (fun _ h => h) (prob_special L (v • L.g) L.hb (Or.inl L.hb_ne))
    (prob_special L 0 (L.eff pk) (Or.inr o))
  refine prob_not ?_ (q.trans (le_of_eq (by ring)))
  intro r hr
  simp only [not_or, not_not, zero_add] at hr
  exact ⟨_, _, L.pedCommitR_pe _ _, L.mult_pe _ _, C37_completeness_partial L hash pk _ _ v _ u1 u2
    (L.pedCommitR_pe _ _) (L.mult_pe _ _) hr.1 hr.2⟩

/-- C41, what holds: for every hash function, all bases, both sides, every point on the other side and all numbers u1, u2,
u3, when the logarithm is drawn uniformly, the proof is made and accepted except with probability 3 / N.  Missing:
these draws. -/
theorem C41_probability_partial (L : Lawful cp E) (hash : Bytes → Bytes) (b1 b2 r : E) (u1 u2 u3 : Int) :
    (1 - 3 / (cp.C.N : ℝ) ≤ prob fun x : Fin cp.C.N => ∃ R,
      mult cp (L.pe b1) (some ((x : Nat) : Int)) = .ok R ∧
      Succeeds (newDisjunctiveProof hash cp (L.pe b1) R (L.pe b2) (L.pe r) ((x : Nat) : Int) Left u1 u2 u3)
        fun p => disjunctiveVerify hash cp p (L.pe b1) R (L.pe b2) (L.pe r)) ∧
    (1 - 3 / (cp.C.N : ℝ) ≤ prob fun x : Fin cp.C.N => ∃ R,
      mult cp (L.pe b2) (some ((x : Nat) : Int)) = .ok R ∧
      Succeeds (newDisjunctiveProof hash cp (L.pe b1) (L.pe r) (L.pe b2) R ((x : Nat) : Int) Right u1 u2 u3)
        fun p => disjunctiveVerify hash cp p (L.pe b1) (L.pe r) (L.pe b2) R) := by
  have : Nonempty (Fin cp.C.N) := ⟨⟨0, L.prime.pos⟩⟩
  have o : L.MultOk 0 := (L.multOk_iff_eff _).2 L.eff_zero
  refine ⟨prob_not ?_ (prob_special L 0 (L.eff b1) (Or.inr o)), prob_not ?_ (prob_special L 0 (L.eff b2) (Or.inr o))⟩
  · intro x hx
    rw [not_not, zero_add] at hx
    exact ⟨_, L.mult_pe _ _, (C41_completeness_partial L hash b1 _ b2 r _ u1 u2 u3).1 (L.mult_pe _ _) hx⟩
  · intro x hx
    rw [not_not, zero_add] at hx
    exact ⟨_, L.mult_pe _ _, (C41_completeness_partial L hash b1 r b2 _ _ u1 u2 u3).2 (L.mult_pe _ _) hx⟩

/-! ## ABC and inequality proofs -/

/-- C45, right side, what holds: for every hash function, key, and value that is not 0 modulo N, when the blinding factor
and the numbers ub and uc are drawn uniformly, the proof is made and accepted except with probability 15 / N; whatever
the other numbers are.  Missing: these draws. -/
theorem C45_probability_right_partial (L : Lawful cp E) (hash : Bytes → Bytes) (v sk : Int)
    (hv : ¬ (cp.C.N : Int) ∣ v) (hsk : ¬ (cp.C.N : Int) ∣ sk) (rnd : ABCRand) :
    1 - 15 / (cp.C.N : ℝ) ≤ prob fun z : Fin cp.C.N × Fin cp.C.N × Fin cp.C.N => ∃ CM,
      pedCommitR cp (some v) (some ((z.1 : Nat) : Int)) = .ok CM ∧
      Succeeds (newABCProof hash cp CM (L.pe ((((z.1 : Nat) : Int) * sk) • L.hb)) v sk Right
          { rnd with ub := (z.2.1 : Nat), uc := (z.2.2 : Nat) })
        fun p => abcVerify hash cp p CM (L.pe ((((z.1 : Nat) : Int) * sk) • L.hb)) := by
  have : Nonempty (Fin cp.C.N) := ⟨⟨0, L.prime.pos⟩⟩
  have hN : (0 : ℝ) < cp.C.N := Nat.cast_pos.2 L.prime.pos
  obtain ⟨w, _, hw⟩ := modInverse_some L.prime hv
  have hc : sk • L.hb ≠ 0 := fun h => hsk ((L.smul_eq_zero L.hb_ne).1 h)
  have hp : ∀ a c : E, c ≠ 0 → (prob fun b : Fin cp.C.N => ¬ L.MultOk (a + ((b : Nat) : Int) • c)) ≤ 3 / cp.C.N := by
    intro a c hc
    rw [prob, Fintype.card_fin]
    exact div_le_div_of_nonneg_right (num_special L a c hc) hN.le
  have h3 : (0 : ℝ) ≤ 3 / cp.C.N := by positivity
  have q1 : (prob fun z : Fin cp.C.N × Fin cp.C.N × Fin cp.C.N =>
      ¬ L.MultOk (v • L.g + ((z.1 : Nat) : Int) • L.hb)) ≤ 3 / cp.C.N :=
    prob_cols h3 fun _ => hp _ _ L.hb_ne
  have q2 : (prob fun z : Fin cp.C.N × Fin cp.C.N × Fin cp.C.N =>
      ¬ L.MultOk (0 + ((z.1 : Nat) : Int) • (sk • L.hb))) ≤ 3 / cp.C.N :=
    prob_cols h3 fun _ => hp _ _ hc
  have q3 : (prob fun z : Fin cp.C.N × Fin cp.C.N × Fin cp.C.N =>
      ¬ L.MultOk (0 + ((z.2.2 : Nat) : Int) • L.hb)) ≤ 3 / cp.C.N :=
    prob_rows h3 fun _ => prob_rows h3 fun _ => hp _ _ L.hb_ne
  have q4 : (prob fun z : Fin cp.C.N × Fin cp.C.N × Fin cp.C.N =>
      ¬ L.MultOk (w • L.g + ((z.2.1 : Nat) : Int) • L.hb)) ≤ 3 / cp.C.N :=
    prob_rows h3 fun _ => prob_cols h3 fun _ => hp _ _ L.hb_ne
  have q5 : (prob fun z : Fin cp.C.N × Fin cp.C.N × Fin cp.C.N =>
      ¬ L.MultOk (L.g + ((z.2.2 : Nat) : Int) • L.hb)) ≤ 3 / cp.C.N :=
    prob_rows h3 fun _ => prob_rows h3 fun _ => hp _ _ L.hb_ne
  have q := prob_union (fun _ h => h) q1 (prob_union (fun _ h => h) q2 (prob_union (fun _ h => h) q3
    (prob_union (fun _ h => h) q4 q5)))
  refine prob_not ?_ (q.trans (le_of_eq (by ring)))
  intro z hz
  simp only [not_or, not_not] at hz
  obtain ⟨o1, o2, o3, o4, o5⟩ := hz
  rw [zero_add, ← mul_smul] at o2
  rw [zero_add] at o3
  refine ⟨_, L.pedCommitR_pe _ _, ?_⟩
  exact C45_completeness_right_partial L hash _ _ v w ((z.1 : Nat) : Int) sk _ (L.pedCommitR_pe _ _) rfl hsk hw
    o1 o2 o3 o4 o5

/-- C45, left side (value 0), what holds: as above, except with probability 9 / N.  Missing: these draws. -/
theorem C45_probability_left_partial (L : Lawful cp E) (hash : Bytes → Bytes) (sk : Int)
    (hsk : ¬ (cp.C.N : Int) ∣ sk) (rnd : ABCRand) :
    1 - 9 / (cp.C.N : ℝ) ≤ prob fun z : Fin cp.C.N × Fin cp.C.N => ∃ CM,
      pedCommitR cp (some 0) (some ((z.1 : Nat) : Int)) = .ok CM ∧
      Succeeds (newABCProof hash cp CM (L.pe ((((z.1 : Nat) : Int) * sk) • L.hb)) 0 sk Left
          { rnd with uc := (z.2 : Nat) })
        fun p => abcVerify hash cp p CM (L.pe ((((z.1 : Nat) : Int) * sk) • L.hb)) := by
  have : Nonempty (Fin cp.C.N) := ⟨⟨0, L.prime.pos⟩⟩
  have hN : (0 : ℝ) < cp.C.N := Nat.cast_pos.2 L.prime.pos
  have hc : sk • L.hb ≠ 0 := fun h => hsk ((L.smul_eq_zero L.hb_ne).1 h)
  have hp : ∀ a c : E, c ≠ 0 → (prob fun b : Fin cp.C.N => ¬ L.MultOk (a + ((b : Nat) : Int) • c)) ≤ 3 / cp.C.N := by
    intro a c hc
    rw [prob, Fintype.card_fin]
    exact div_le_div_of_nonneg_right (num_special L a c hc) hN.le
  have h3 : (0 : ℝ) ≤ 3 / cp.C.N := by positivity
  have q1 : (prob fun z : Fin cp.C.N × Fin cp.C.N =>
      ¬ L.MultOk ((0 : Int) • L.g + ((z.1 : Nat) : Int) • L.hb)) ≤ 3 / cp.C.N :=
    prob_cols h3 fun _ => hp _ _ L.hb_ne
  have q2 : (prob fun z : Fin cp.C.N × Fin cp.C.N =>
      ¬ L.MultOk (0 + ((z.1 : Nat) : Int) • (sk • L.hb))) ≤ 3 / cp.C.N :=
    prob_cols h3 fun _ => hp _ _ hc
  have q3 : (prob fun z : Fin cp.C.N × Fin cp.C.N =>
      ¬ L.MultOk (0 + ((z.2 : Nat) : Int) • L.hb)) ≤ 3 / cp.C.N :=
    prob_rows h3 fun _ => hp _ _ L.hb_ne
  have q := prob_union (fun _ h => h) q1 (prob_union (fun _ h => h) q2 q3)
  refine prob_not ?_ (q.trans (le_of_eq (by ring)))
  intro z hz
  simp only [not_or, not_not] at hz
  obtain ⟨o1, o2, o3⟩ := hz
  rw [zero_add, ← mul_smul] at o2
  rw [zero_add] at o3
  refine ⟨_, L.pedCommitR_pe _ _, ?_⟩
  exact C45_completeness_left_partial L hash _ _ ((z.1 : Nat) : Int) sk _ (L.pedCommitR_pe _ _) rfl hsk
    o1 o2 o3

/-- C49, what holds: for every hash function, key, values that differ modulo N, and blinding factor of the second
commitment, when the other blinding factor and the numbers ub and uc are drawn uniformly, the inequality proof is made and
accepted except with probability 15 / N.  Missing: these draws. -/
theorem C49_probability_partial (L : Lawful cp E) (hash : Bytes → Bytes) (a b rb sk : Int)
    (hv : ¬ (cp.C.N : Int) ∣ a - b) (hsk : ¬ (cp.C.N : Int) ∣ sk) (rnd : ABCRand) :
    1 - 15 / (cp.C.N : ℝ) ≤ prob fun z : Fin cp.C.N × Fin cp.C.N × Fin cp.C.N => ∃ A B tA tB : E,
      Committed L A B tA tB a b ((z.1 : Nat) : Int) rb sk ∧
      Succeeds (newInequalityProof hash cp (L.pe A) (L.pe B) (L.pe tA) (L.pe tB) a b sk
          { rnd with ub := (z.2.1 : Nat), uc := (z.2.2 : Nat) })
        fun p => inequalityVerify hash cp p (L.pe (A - B)) (L.pe (tA - tB)) := by
  have : Nonempty (Fin cp.C.N) := ⟨⟨0, L.prime.pos⟩⟩
  have hN : (0 : ℝ) < cp.C.N := Nat.cast_pos.2 L.prime.pos
  obtain ⟨w, _, hw⟩ := modInverse_some L.prime hv
  have hc : sk • L.hb ≠ 0 := fun h => hsk ((L.smul_eq_zero L.hb_ne).1 h)
  have hp : ∀ a c : E, c ≠ 0 → (prob fun b : Fin cp.C.N => ¬ L.MultOk (a + ((b : Nat) : Int) • c)) ≤ 3 / cp.C.N := by
    intro a c hc
    rw [prob, Fintype.card_fin]
    exact div_le_div_of_nonneg_right (num_special L a c hc) hN.le
  have h3 : (0 : ℝ) ≤ 3 / cp.C.N := by positivity
  have q1 : (prob fun z : Fin cp.C.N × Fin cp.C.N × Fin cp.C.N =>
      ¬ L.MultOk ((a • L.g - (b • L.g + rb • L.hb)) + ((z.1 : Nat) : Int) • L.hb)) ≤ 3 / cp.C.N :=
    prob_cols h3 fun _ => hp _ _ L.hb_ne
  have q2 : (prob fun z : Fin cp.C.N × Fin cp.C.N × Fin cp.C.N =>
      ¬ L.MultOk (-((rb * sk) • L.hb) + ((z.1 : Nat) : Int) • (sk • L.hb))) ≤ 3 / cp.C.N :=
    prob_cols h3 fun _ => hp _ _ hc
  have q3 : (prob fun z : Fin cp.C.N × Fin cp.C.N × Fin cp.C.N =>
      ¬ L.MultOk (0 + ((z.2.2 : Nat) : Int) • L.hb)) ≤ 3 / cp.C.N :=
    prob_rows h3 fun _ => prob_rows h3 fun _ => hp _ _ L.hb_ne
  have q4 : (prob fun z : Fin cp.C.N × Fin cp.C.N × Fin cp.C.N =>
      ¬ L.MultOk (w • L.g + ((z.2.1 : Nat) : Int) • L.hb)) ≤ 3 / cp.C.N :=
    prob_rows h3 fun _ => prob_cols h3 fun _ => hp _ _ L.hb_ne
  have q5 : (prob fun z : Fin cp.C.N × Fin cp.C.N × Fin cp.C.N =>
      ¬ L.MultOk (L.g + ((z.2.2 : Nat) : Int) • L.hb)) ≤ 3 / cp.C.N :=
    prob_rows h3 fun _ => prob_rows h3 fun _ => hp _ _ L.hb_ne
  have q := prob_union (fun _ h => h) q1 (prob_union (fun _ h => h) q2 (prob_union (fun _ h => h) q3
    (prob_union (fun _ h => h) q4 q5)))
  refine prob_not ?_ (q.trans (le_of_eq (by ring)))
  intro z hz
  simp only [not_or, not_not] at hz
  obtain ⟨o1, o2, o3, o4, o5⟩ := hz
  rw [show a • L.g - (b • L.g + rb • L.hb) + ((z.1 : Nat) : Int) • L.hb =
    (a • L.g + ((z.1 : Nat) : Int) • L.hb) - (b • L.g + rb • L.hb) by abel] at o1
  rw [← mul_smul, neg_add_eq_sub] at o2
  rw [zero_add] at o3
  have hcom : Committed L (a • L.g + ((z.1 : Nat) : Int) • L.hb) (b • L.g + rb • L.hb)
      ((((z.1 : Nat) : Int) * sk) • L.hb) ((rb * sk) • L.hb) a b ((z.1 : Nat) : Int) rb sk :=
    ⟨L.pedCommitR_pe _ _, L.pedCommitR_pe _ _, rfl, rfl⟩
  exact ⟨_, _, _, _, hcom, C49_completeness_partial L hash _ _ _ _ a b _ rb sk w _ hcom hsk hw o1 o2 o3 o4 o5⟩

/-- The hypotheses of C45 and C49 can be met on `TestCurve`, where 15 / N is below 2^-251. -/
example : ¬ (Curve.tc.C.N : Int) ∣ 10 ∧ ¬ (Curve.tc.C.N : Int) ∣ 10 - 7 ∧ ¬ (Curve.tc.C.N : Int) ∣ 5 ∧
    (15 : ℝ) / Curve.tc.C.N ≤ 1 / 2 ^ 251 := by
  refine ⟨by decide +kernel, by decide +kernel, by decide +kernel, ?_⟩
  have h3 : 15 * 2 ^ 251 ≤ Curve.tc.C.N := by decide +kernel
  have h4 : (15 : ℝ) * 2 ^ 251 ≤ Curve.tc.C.N := by exact_mod_cast h3
  have h5 : (0 : ℝ) < Curve.tc.C.N := lt_of_lt_of_le (by positivity) h4
  rw [div_le_div_iff₀ h5 (by positivity), one_mul]
  exact h4

end Zk.Rom
