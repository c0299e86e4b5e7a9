import Verif.Rom.AbcRun
import Verif.Rom.RangeProps

/-! # Property C141: ABC proofs are proofs of knowledge when SHA-256 is a random function -/

namespace Zk.Rom

open Zk Zk.Proto

variable {cp : Params} {E : Type} [AddCommGroup E]

/-- C141.  A prover who asks at most `q` questions to a random SHA-256 and whose ABC proof of curve points is
accepted with probability ε: for every δ, with probability at least ε - (q + 2) (33^8 + 33^6) δ the
proof is accepted and both parts can be extracted.  Two more runs with new answers from the question of `Verify` on
give explicit numbers with CM = v G + k CMTok and C = ±(v B + l H) with probability at least
δ^2 - 3 (2^256 / N + 1) / 2^256.  One more run with new answers from the question of the disjunctive proof on gives an
explicit number that relates the token to the commitment or C - G to H, for the same C, with probability at least
δ - (2^256 / N + 1) / 2^256. -/
theorem C141_abc_knowledge (L : Lawful cp E) (hs : Small L) (cm tok : E)
    (A : Adv (Option ABCProof)) (q : Nat) (hq : ∀ h, A.count h ≤ q) (S : Finset Bytes)
    (hS : (abcAll cp (L.pe cm) (L.pe tok) A).asked bytesOf (abcLast cp (L.pe cm) (L.pe tok)) ⊆ S) (ε δ : ℝ)
    (hδ : 0 ≤ δ) (hε : ε = prob fun f : S → Word => AbcWins L cm tok (A.run (hashOf S f)) (hashOf S f)) :
    ε - (q + 2) * (33 ^ 8 + 33 ^ 6) * δ ≤
      prob fun f : S → Word => AbcWins L cm tok (A.run (hashOf S f)) (hashOf S f) ∧
        (δ ^ 2 - 3 * perChal cp.C.N / 2 ^ 256 ≤ prob fun G : Fin 2 → S → Word =>
          AbcOpened L cm tok ![A.run (hashOf S f),
            abcRerun cp (L.pe cm) (L.pe tok) A S (abcAsk cp (L.pe cm) (L.pe tok)) f (G 0),
            abcRerun cp (L.pe cm) (L.pe tok) A S (abcAsk cp (L.pe cm) (L.pe tok)) f (G 1)]) ∧
        (δ - perChal cp.C.N / 2 ^ 256 ≤ prob fun g : S → Word =>
          AbcInnerOpened L cm tok (A.run (hashOf S f))
            (abcRerun cp (L.pe cm) (L.pe tok) A S (abcInnerAsk cp (L.pe cm) (L.pe tok)) f g)) := by
  classical
  let LightO : (S → Word) → Prop := fun f => ∃ t : Fin (q + 2) × (Fin 4 → Fin 33 × Fin 33),
    AbcAt L cm tok A (abcAsk cp (L.pe cm) (L.pe tok)) outerPoints t (hashOf S f) ∧
    (prob fun g : S → Word => AbcAt L cm tok A (abcAsk cp (L.pe cm) (L.pe tok)) outerPoints t
      (hashOf S (splice (before bytesOf S (abcLast cp (L.pe cm) (L.pe tok)) (abcAll cp (L.pe cm) (L.pe tok) A)
        t.1 f) f g))) ≤ δ
  let LightI : (S → Word) → Prop := fun f => ∃ t : Fin (q + 2) × (Fin 3 → Fin 33 × Fin 33),
    AbcAt L cm tok A (abcInnerAsk cp (L.pe cm) (L.pe tok)) (innerPoints L) t (hashOf S f) ∧
    (prob fun g : S → Word => AbcAt L cm tok A (abcInnerAsk cp (L.pe cm) (L.pe tok)) (innerPoints L) t
      (hashOf S (splice (before bytesOf S (abcLast cp (L.pe cm) (L.pe tok)) (abcAll cp (L.pe cm) (L.pe tok) A)
        t.1 f) f g))) ≤ δ
  have b1 : prob LightO ≤ (q + 2) * 33 ^ 8 * δ := by
    refine (heavy (word := bytesOf) (S := S) (crit := abcLast cp (L.pe cm) (L.pe tok))
      (A := abcAll cp (L.pe cm) (L.pe tok) A) (fun t : Fin (q + 2) × (Fin 4 → Fin 33 × Fin 33) => (t.1 : Nat))
      (fun t f => AbcAt L cm tok A (abcAsk cp (L.pe cm) (L.pe tok)) outerPoints t (hashOf S f)) δ hδ).trans
      (le_of_eq ?_)
    simp only [Fintype.card_prod, Fintype.card_fin, Fintype.card_fun]
    push_cast
    ring
  have b2 : prob LightI ≤ (q + 2) * 33 ^ 6 * δ := by
    refine (heavy (word := bytesOf) (S := S) (crit := abcLast cp (L.pe cm) (L.pe tok))
      (A := abcAll cp (L.pe cm) (L.pe tok) A) (fun t : Fin (q + 2) × (Fin 3 → Fin 33 × Fin 33) => (t.1 : Nat))
      (fun t f => AbcAt L cm tok A (abcInnerAsk cp (L.pe cm) (L.pe tok)) (innerPoints L) t (hashOf S f)) δ
        hδ).trans (le_of_eq ?_)
    simp only [Fintype.card_prod, Fintype.card_fin, Fintype.card_fun]
    push_cast
    ring
  have key := prob_sdiff (X := S → Word)
    (P := fun f => AbcWins L cm tok (A.run (hashOf S f)) (hashOf S f))
    (Q := fun f => AbcWins L cm tok (A.run (hashOf S f)) (hashOf S f) ∧
        (δ ^ 2 - 3 * perChal cp.C.N / 2 ^ 256 ≤ prob fun G : Fin 2 → S → Word =>
          AbcOpened L cm tok ![A.run (hashOf S f),
            abcRerun cp (L.pe cm) (L.pe tok) A S (abcAsk cp (L.pe cm) (L.pe tok)) f (G 0),
            abcRerun cp (L.pe cm) (L.pe tok) A S (abcAsk cp (L.pe cm) (L.pe tok)) f (G 1)]) ∧
        (δ - perChal cp.C.N / 2 ^ 256 ≤ prob fun g : S → Word =>
          AbcInnerOpened L cm tok (A.run (hashOf S f))
            (abcRerun cp (L.pe cm) (L.pe tok) A S (abcInnerAsk cp (L.pe cm) (L.pe tok)) f g)))
    (R := fun f => LightO f ∨ LightI f) (by
      intro f hw
      by_cases hO : LightO f
      · exact .inr (.inl hO)
      by_cases hI : LightI f
      · exact .inr (.inr hI)
      refine .inl ⟨hw, ?_, ?_⟩
      · obtain ⟨t, ht⟩ := abcAt_of_wins L cm tok A q hq (points := outerPoints) (m := 4) (fun _ => rfl) _
          (ask_mem_trace _ _ A _) hw
        have hheavy : δ < prob fun g : S → Word => AbcAt L cm tok A (abcAsk cp (L.pe cm) (L.pe tok)) outerPoints t
            (hashOf S (rerun (abcLast cp (L.pe cm) (L.pe tok)) (abcAll cp (L.pe cm) (L.pe tok) A) S t.1 f g)) := by
          by_contra hc
          exact hO ⟨t, ht, not_lt.1 hc⟩
        let y : S := ⟨_, trace_mem_asked hS f (ask_mem_trace (L.pe cm) (L.pe tok) A (hashOf S f))⟩
        have f0 := prob_fresh_of (S := S) 2 (SameChal cp.C.N) _ (num_sameChal cp.C.N) 0 y (fun _ => f y)
          fun _ _ _ => rfl
        have f1 := prob_fresh_of (S := S) 2 (SameChal cp.C.N) _ (num_sameChal cp.C.N) 1 y (fun _ => f y)
          fun _ _ _ => rfl
        have f2 := prob_fresh_of (S := S) 2 (SameChal cp.C.N) _ (num_sameChal cp.C.N) 1 y (fun G => G 0 y)
          fun G G' h => by rw [h 0 (by decide)]
        rw [card_word] at f0 f1 f2
        have f3 := prob_or (P := fun G : Fin 2 → S → Word => SameChal cp.C.N (f y) (G 0 y))
          (Q := fun G => SameChal cp.C.N (f y) (G 1 y) ∨ SameChal cp.C.N (G 0 y) (G 1 y))
        have f4 := prob_or (P := fun G : Fin 2 → S → Word => SameChal cp.C.N (f y) (G 1 y))
          (Q := fun G => SameChal cp.C.N (G 0 y) (G 1 y))
        have f5 := prob_sdiff (X := Fin 2 → S → Word)
          (P := fun G => ∀ i, AbcAt L cm tok A (abcAsk cp (L.pe cm) (L.pe tok)) outerPoints t
            (hashOf S (rerun (abcLast cp (L.pe cm) (L.pe tok)) (abcAll cp (L.pe cm) (L.pe tok) A) S t.1 f (G i))))
          (Q := fun G => AbcOpened L cm tok ![A.run (hashOf S f),
            abcRerun cp (L.pe cm) (L.pe tok) A S (abcAsk cp (L.pe cm) (L.pe tok)) f (G 0),
            abcRerun cp (L.pe cm) (L.pe tok) A S (abcAsk cp (L.pe cm) (L.pe tok)) f (G 1)])
          (R := fun G => SameChal cp.C.N (f y) (G 0 y) ∨ SameChal cp.C.N (f y) (G 1 y) ∨
            SameChal cp.C.N (G 0 y) (G 1 y)) (by
            intro G hG
            by_cases hb : SameChal cp.C.N (f y) (G 0 y) ∨ SameChal cp.C.N (f y) (G 1 y) ∨
              SameChal cp.C.N (G 0 y) (G 1 y)
            · exact .inr hb
            · push Not at hb
              refine .inl (abc_of_runs L hs cm tok A ht hG y rfl (fun i => ?_) hb.2.2)
              fin_cases i
              · exact hb.1
              · exact hb.2.1)
        rw [prob_forall 2 fun g : S → Word => AbcAt L cm tok A (abcAsk cp (L.pe cm) (L.pe tok)) outerPoints t
          (hashOf S (rerun (abcLast cp (L.pe cm) (L.pe tok)) (abcAll cp (L.pe cm) (L.pe tok) A) S t.1 f g))] at f5
        refine le_trans ?_ f5
        have f6 := pow_le_pow_left₀ hδ hheavy.le 2
        have f7 : 3 * (perChal cp.C.N : ℝ) / 2 ^ 256 =
            perChal cp.C.N / ((2 ^ 256 : ℕ) : ℝ) + (perChal cp.C.N / ((2 ^ 256 : ℕ) : ℝ) +
              perChal cp.C.N / ((2 ^ 256 : ℕ) : ℝ)) := by
          push_cast
          norm_num
          ring
        rw [f7]
        linarith
      · obtain ⟨t, ht⟩ := abcAt_of_wins L cm tok A q hq (points := innerPoints L) (m := 3) (fun _ => rfl) _
          (innerAsk_mem_trace _ _ A _) hw
        have hheavy : δ < prob fun g : S → Word => AbcAt L cm tok A (abcInnerAsk cp (L.pe cm) (L.pe tok))
            (innerPoints L) t
            (hashOf S (rerun (abcLast cp (L.pe cm) (L.pe tok)) (abcAll cp (L.pe cm) (L.pe tok) A) S t.1 f g)) := by
          by_contra hc
          exact hI ⟨t, ht, not_lt.1 hc⟩
        let y : S := ⟨_, trace_mem_asked hS f (innerAsk_mem_trace (L.pe cm) (L.pe tok) A (hashOf S f))⟩
        have f0 := prob_fresh (S := S) (SameChal cp.C.N (f y)) _ (num_sameChal cp.C.N _) y
        rw [card_word] at f0
        have f5 := prob_sdiff (X := S → Word)
          (P := fun g => AbcAt L cm tok A (abcInnerAsk cp (L.pe cm) (L.pe tok)) (innerPoints L) t
            (hashOf S (rerun (abcLast cp (L.pe cm) (L.pe tok)) (abcAll cp (L.pe cm) (L.pe tok) A) S t.1 f g)))
          (Q := fun g => AbcInnerOpened L cm tok (A.run (hashOf S f))
            (abcRerun cp (L.pe cm) (L.pe tok) A S (abcInnerAsk cp (L.pe cm) (L.pe tok)) f g))
          (R := fun g => SameChal cp.C.N (f y) (g y)) (by
            intro g hg
            by_cases hb : SameChal cp.C.N (f y) (g y)
            · exact .inr hb
            · exact .inl (abc_inner_of_runs L hs cm tok A ht hg y rfl hb))
        refine le_trans ?_ f5
        have f7 : (perChal cp.C.N : ℝ) / 2 ^ 256 = perChal cp.C.N / ((2 ^ 256 : ℕ) : ℝ) := by
          push_cast
          norm_num
        rw [f7]
        linarith)
  have b4 := prob_or (P := LightO) (Q := LightI)
  rw [hε]
  refine le_trans ?_ key
  have : ((q : ℝ) + 2) * (33 ^ 8 + 33 ^ 6) * δ = (q + 2) * 33 ^ 8 * δ + (q + 2) * 33 ^ 6 * δ := by ring
  linarith

/-- C141, in one statement: with three new oracles, four runs of the prover give v and k with CM = v G + k CMTok,
and the token is an explicit multiple of CM, or v is not zero modulo N, or there is an explicit relation between G
and H. -/
theorem C141_abc_value (L : Lawful cp E) (hs : Small L) (cm tok : E)
    (A : Adv (Option ABCProof)) (q : Nat) (hq : ∀ h, A.count h ≤ q) (S : Finset Bytes)
    (hS : (abcAll cp (L.pe cm) (L.pe tok) A).asked bytesOf (abcLast cp (L.pe cm) (L.pe tok)) ⊆ S) (ε δ : ℝ)
    (hδ : perChal cp.C.N / 2 ^ 256 ≤ δ) (hδ2 : 3 * perChal cp.C.N / 2 ^ 256 ≤ δ ^ 2)
    (hε : ε = prob fun f : S → Word => AbcWins L cm tok (A.run (hashOf S f)) (hashOf S f)) :
    (ε - (q + 2) * (33 ^ 8 + 33 ^ 6) * δ) *
        ((δ ^ 2 - 3 * perChal cp.C.N / 2 ^ 256) * (δ - perChal cp.C.N / 2 ^ 256)) ≤
      prob fun t : (S → Word) × (Fin 2 → S → Word) × (S → Word) =>
        AbcKnown L cm tok ![A.run (hashOf S t.1),
          abcRerun cp (L.pe cm) (L.pe tok) A S (abcAsk cp (L.pe cm) (L.pe tok)) t.1 (t.2.1 0),
          abcRerun cp (L.pe cm) (L.pe tok) A S (abcAsk cp (L.pe cm) (L.pe tok)) t.1 (t.2.1 1)]
          (abcRerun cp (L.pe cm) (L.pe tok) A S (abcInnerAsk cp (L.pe cm) (L.pe tok)) t.1 t.2.2) := by
  have hp : (0 : ℝ) ≤ perChal cp.C.N / 2 ^ 256 := by positivity
  have h1 := C141_abc_knowledge L hs cm tok A q hq S hS ε δ (hp.trans hδ) hε
  have ha := sub_nonneg.2 hδ2
  have hb := sub_nonneg.2 hδ
  refine (mul_le_mul_of_nonneg_right h1 (mul_nonneg ha hb)).trans
    ((prob_two hb fun f hf => hf.2).trans (prob_mono fun t ht => ?_))
  exact abc_known L ht.2.1 ht.2.2

/-- Like `AbcKnown`, if H = κ G: instead of a relation, the logarithm of G to the base that `Mult` uses for H
(specification; abc.go:173-222). -/
def AbcFound (L : Lawful cp E) (κ : Int) (cm tok : E) (P : Fin 3 → Option ABCProof) (p' : Option ABCProof) : Prop :=
  ∃ p q, p ≠ q ∧ ∃ v ∈ jLogs L (P p) (P q), ∃ k ∈ kLogs L (P p) (P q),
    L.eff cm = v • L.g + k • L.eff tok ∧
    ((∃ x ∈ leftLogs L (disjOf (P 0)) (disjOf p'), L.eff tok = x • L.eff cm) ∨ ¬ (cp.C.N : Int) ∣ v ∨
      ∃ ℓ ∈ lLogs L (P p) (P q), ∃ y ∈ rightLogs L (disjOf (P 0)) (disjOf p'), ∃ s1 s2 s3 : Int,
        |s1| ≤ 2 ∧ |s2| ≤ 1 ∧ |s3| ≤ 1 ∧ L.g = (L.inv (1 + s1 * κ) * -(s2 * y + s3 * ℓ)) • L.hb)

/-- C141 on curves like `TestCurve`: the relation is the logarithm of G to the base that `Mult` uses for H. -/
theorem C141_abc_logarithm (L : Lawful cp E) (hs : Small L) {κ : Int} (hκ : L.h = κ • L.g)
    (hf : FarLog cp.C.N κ) (cm tok : E)
    (A : Adv (Option ABCProof)) (q : Nat) (hq : ∀ h, A.count h ≤ q) (S : Finset Bytes)
    (hS : (abcAll cp (L.pe cm) (L.pe tok) A).asked bytesOf (abcLast cp (L.pe cm) (L.pe tok)) ⊆ S) (ε δ : ℝ)
    (hδ : perChal cp.C.N / 2 ^ 256 ≤ δ) (hδ2 : 3 * perChal cp.C.N / 2 ^ 256 ≤ δ ^ 2)
    (hε : ε = prob fun f : S → Word => AbcWins L cm tok (A.run (hashOf S f)) (hashOf S f)) :
    (ε - (q + 2) * (33 ^ 8 + 33 ^ 6) * δ) *
        ((δ ^ 2 - 3 * perChal cp.C.N / 2 ^ 256) * (δ - perChal cp.C.N / 2 ^ 256)) ≤
      prob fun t : (S → Word) × (Fin 2 → S → Word) × (S → Word) =>
        AbcFound L κ cm tok ![A.run (hashOf S t.1),
          abcRerun cp (L.pe cm) (L.pe tok) A S (abcAsk cp (L.pe cm) (L.pe tok)) t.1 (t.2.1 0),
          abcRerun cp (L.pe cm) (L.pe tok) A S (abcAsk cp (L.pe cm) (L.pe tok)) t.1 (t.2.1 1)]
          (abcRerun cp (L.pe cm) (L.pe tok) A S (abcInnerAsk cp (L.pe cm) (L.pe tok)) t.1 t.2.2) := by
  refine (C141_abc_value L hs cm tok A q hq S hS ε δ hδ hδ2 hε).trans (prob_mono fun t ht => ?_)
  obtain ⟨p, q, hpq, v, hv, k, hk, e1, h⟩ := ht
  refine ⟨p, q, hpq, v, hv, k, hk, e1, ?_⟩
  rcases h with h | h | ⟨ℓ, hℓ, y, hy, s1, s2, s3, b1, b2, b3, h⟩
  · exact .inl h
  · exact .inr (.inl h)
  · refine .inr (.inr ⟨ℓ, hℓ, y, hy, s1, s2, s3, b1, b2, b3, log_of L ?_ ?_⟩)
    · rw [hκ] at h
      linear_combination (norm := module) h
    · obtain ⟨h1, h2⟩ := abs_le.1 b1
      exact far _ κ hf 1 s1 _ rfl (by omega)

/-! ## An example -/

/-- A prover for the commitment G and the token G, on the left side, with key 1 (for examples;
abc.go:61-169). -/
def abcProver (L : Lawful cp E) : Adv (Option ABCProof) :=
  .ask (hashed ([L.g, L.g, L.h, 0 - L.g, L.g, 0].map L.pe)) fun d =>
    .ask (hashed ([L.g, L.h, L.g, L.g, 0, 0, L.g, 0].map L.pe)) fun e =>
      .out (AbcData.proof L ⟨0, 0, L.g, 0, L.g, 0, (setBytes e : Int) % cp.C.N, 1, (setBytes e : Int) % cp.C.N, 0,
        (setBytes d : Int) % cp.C.N, (setBytes d : Int) % cp.C.N, 0, 1 + (setBytes d : Int) % cp.C.N, 0, L.pe 0⟩)

theorem abcProver_wins (L : Lawful cp E) (hash : Bytes → Bytes) :
    AbcWins L L.g L.g ((abcProver L).run hash) hash := by
  refine ⟨⟨_, _, _, _, _, _, _, _, rfl, rfl, rfl, rfl, rfl, rfl, rfl, rfl⟩, ?_⟩
  refine (L.abcVerify_iff _ _ _ _ _ _ _ _ _ _ _ _ _).2 ⟨?_, ?_, ?_, ?_⟩
  · refine (L.disjunctiveVerify_iff _ _ _ _ _ _ _ _ _ _ _ _).2 ⟨?_, ?_, ?_, ?_⟩
    · rw [Lawful.chal, generateChallenge, ← hashed_pe]
    · rw [add_zero, Int.emod_emod_of_dvd _ dvd_rfl]
    · rw [L.same_iff, L.eff_g]
      left
      module
    · rw [L.same_iff, L.eff_h]
      left
      simp
  · rw [Lawful.chal, generateChallenge, ← hashed_pe]
  · rw [L.same_iff, L.eff_g]
    left
    module
  · rw [L.same_iff, eff_zero]
    left
    simp

/-- C141 is not about nothing: on `TestCurve` this prover is accepted with probability 1, and both factors are
positive for some δ. -/
example : ∃ (S : Finset Bytes) (A : Adv (Option ABCProof)), (∀ h, A.count h ≤ 2) ∧
    (abcAll Curve.tc (Curve.lawful.pe Curve.lawful.g) (Curve.lawful.pe Curve.lawful.g) A).asked bytesOf
      (abcLast Curve.tc (Curve.lawful.pe Curve.lawful.g) (Curve.lawful.pe Curve.lawful.g)) ⊆ S ∧
    (prob fun f : S → Word => AbcWins Curve.lawful Curve.lawful.g Curve.lawful.g (A.run (hashOf S f))
      (hashOf S f)) = 1 ∧ Small Curve.lawful ∧
    ∃ κ, Curve.lawful.h = κ • Curve.lawful.g ∧ FarLog Curve.tc.C.N κ :=
  ⟨_, abcProver Curve.lawful, fun _ => le_rfl, subset_rfl, prob_one fun _ => abcProver_wins _ _, small_testCurve,
    _, Real.h_eq_smul, far_testCurve⟩

example : (0 : ℝ) < (1 - ((2 : ℕ) + 2) * (33 ^ 8 + 33 ^ 6) * (1 / 2 ^ 44)) *
    (((1 / 2 ^ 44) ^ 2 - 3 * perChal Curve.tc.C.N / 2 ^ 256) * (1 / 2 ^ 44 - perChal Curve.tc.C.N / 2 ^ 256)) := by
  rw [perChal_testCurve]
  norm_num

end Zk.Rom
