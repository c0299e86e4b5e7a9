import Verif.Rom.RangeRun

/-!
# The extractor of a range proof

The probability that the second runs open all bits, for any formulas that open a bit from two runs.
-/

namespace Zk.Rom

open Zk Zk.Proto

variable {cp : Params} {E : Type} [AddCommGroup E]

theorem num_list (N : Nat) (l : List Int) (m : Nat) (hl : l.length ≤ m) :
    (num fun ω : Word => chalOf N ω ∈ l) ≤ m * perChal N := by
  refine (num_chals N {x | x ∈ l} m ?_)
  have h1 : {x | x ∈ l} = ((l.toFinset : Finset Int) : Set Int) := by ext; simp
  rw [h1, Set.encard_coe_eq_coe_finsetCard]
  exact_mod_cast (List.toFinset_card_le l).trans hl

/-- The output is accepted and every bit can be opened, but for runs with few successful continuations and runs
with a challenge 0. -/
theorem range_bits {X : Type} (L : Lawful cp E) (hs : Small L) (ok : (Nat → E) → Prop) (n : Nat) (hn : n ≤ 64)
    {φ : Nat → Option RangeProof → Option RangeProof → Int → Int → X}
    {op : Nat → Option RangeProof → X → Prop} {badI badO : Nat → Int → List Int}
    (hrule : BitRule L ok n φ op badI badO) (mI mO : Nat) (hI : ∀ i d, (badI i d).length ≤ mI)
    (hO : ∀ i e, (badO i e).length ≤ mO) (comm : E)
    (A : Adv (Option RangeProof)) (q : Nat) (hq : ∀ h, A.count h ≤ q) (S : Finset Bytes)
    (hS : (rangeAll cp n A).asked bytesOf (rangeOuter cp) ⊆ S) (ε δ : ℝ) (hδ : 0 ≤ δ)
    (hε : ε = prob fun f : S → Word => RangeWins L ok n comm (A.run (hashOf S f)) (hashOf S f)) :
    ε - n * ((q + n + 1) ^ 2 * 147233889) * δ - (n + 1) * (q + n + 1) * perChal cp.C.N / 2 ^ 256 ≤
      prob fun f : S → Word => RangeWins L ok n comm (A.run (hashOf S f)) (hashOf S f) ∧
        ∀ i < n, δ - (mI + mO) * perChal cp.C.N / 2 ^ 256 ≤
          prob fun g : S → Word => op i (A.run (hashOf S f)) (rangeExtract cp φ n A S i f g) := by
  classical
  let Light : (S → Word) → Prop := fun f => ∃ i < n, ∃ t : RangeTag (q + n + 1),
    RangeAt L ok n comm A (q + n + 1) i t (hashOf S f) ∧
    (prob fun g : S → Word => RangeAt L ok n comm A (q + n + 1) i t
      (hashOf S (splice (before bytesOf S (rangeOuter cp) (rangeAll cp n A) (max t.1.1 t.1.2) f) f g))) ≤ δ
  let LuckyO : (S → Word) → Prop := fun f => ∃ x : S,
    x.1 = rangeOuter cp ((rangeAll cp n A).run (hashOf S f)) ∧ chalOf cp.C.N (f x) = 0
  let LuckyI : (S → Word) → Prop := fun f => ∃ i < n, ∃ x : S,
    x.1 = rangeInner cp i ((rangeAll cp n A).run (hashOf S f)).1 ∧ chalOf cp.C.N (f x) = 0
  have hcount : ∀ h, (rangeAll cp n A).count h ≤ q + n := rangeAll_count n q A hq
  have b1 : prob Light ≤ n * ((q + n + 1) ^ 2 * 147233889 * δ) := by
    refine prob_exists n _ _ fun i _ => ?_
    have := heavy (word := bytesOf) (S := S) (crit := rangeOuter cp) (A := rangeAll cp n A)
      (fun t : RangeTag (q + n + 1) => max (t.1.1 : Nat) t.1.2)
      (fun t f => RangeAt L ok n comm A (q + n + 1) i t (hashOf S f)) δ hδ
    refine this.trans (le_of_eq ?_)
    simp only [Fintype.card_prod, Fintype.card_fin]
    push_cast
    ring
  have b2 : prob LuckyO ≤ (q + n + 1) * perChal cp.C.N / 2 ^ 256 := by
    have := prob_lucky (word := bytesOf) (S := S) (crit := rangeOuter cp) (A := rangeAll cp n A) hcount
      (Nat.cast_nonneg (perChal cp.C.N)) (fun _ ω => chalOf cp.C.N ω = 0) fun _ => num_chal cp.C.N 0
    rw [card_word] at this
    refine this.trans (le_of_eq ?_)
    push_cast
    norm_num
  have b3 : prob LuckyI ≤ n * ((q + n + 1) * perChal cp.C.N / 2 ^ 256) := by
    refine prob_exists n _ _ fun i _ => ?_
    have := prob_lucky (word := bytesOf) (S := S) (crit := fun x => rangeInner cp i x.1)
      (A := rangeAll cp n A) hcount
      (Nat.cast_nonneg (perChal cp.C.N)) (fun _ ω => chalOf cp.C.N ω = 0) fun _ => num_chal cp.C.N 0
    rw [card_word] at this
    refine this.trans (le_of_eq ?_)
    push_cast
    norm_num
  have key := prob_sdiff (X := S → Word)
    (P := fun f => RangeWins L ok n comm (A.run (hashOf S f)) (hashOf S f))
    (Q := fun f => RangeWins L ok n comm (A.run (hashOf S f)) (hashOf S f) ∧
        ∀ i < n, δ - (mI + mO) * perChal cp.C.N / 2 ^ 256 ≤
          prob fun g : S → Word => op i (A.run (hashOf S f)) (rangeExtract cp φ n A S i f g))
    (R := fun f => Light f ∨ LuckyO f ∨ LuckyI f) (by
      intro f hw
      by_cases hl : Light f
      · exact .inr (.inl hl)
      by_cases ho : LuckyO f
      · exact .inr (.inr (.inl ho))
      by_cases hi : LuckyI f
      · exact .inr (.inr (.inr hi))
      refine .inl ⟨hw, fun i hin => ?_⟩
      obtain ⟨t, ht⟩ := rangeAt_of_wins L ok n comm A q hq hin _ hw
      have hheavy : δ < prob fun g : S → Word => RangeAt L ok n comm A (q + n + 1) i t
          (hashOf S (rerun (rangeOuter cp) (rangeAll cp n A) S (max t.1.1 t.1.2) f g)) := by
        by_contra hc
        exact hl ⟨i, hin, t, ht, not_lt.1 hc⟩
      let xo : S := ⟨_, crit_mem_asked hS f⟩
      let xi : S := ⟨_, trace_mem_asked hS f (inner_mem (cp := cp) n A (hashOf S f) hin)⟩
      have lo : chalOf cp.C.N (f xo) ≠ 0 := fun h => ho ⟨xo, rfl, h⟩
      have li : chalOf cp.C.N (f xi) ≠ 0 := fun h => hi ⟨i, hin, xi, by rw [rangeAll_run], h⟩
      let BO : Word → Prop := fun ω => chalOf cp.C.N ω ∈ badO i (setBytes (hashOf S f xo.1) : Nat)
      let BI : Word → Prop := fun ω => chalOf cp.C.N ω ∈ badI i (setBytes (hashOf S f xi.1) : Nat)
      have f1 := prob_fresh (S := S) BO _ (num_list cp.C.N _ mO (hO _ _)) xo
      have f2 := prob_fresh (S := S) BI _ (num_list cp.C.N _ mI (hI _ _)) xi
      rw [card_word] at f1 f2
      push_cast at f1 f2
      have f3 := prob_or (P := fun g : S → Word => BO (g xo))
        (Q := fun g : S → Word => BI (g xi))
      have f4 := prob_sdiff (X := S → Word) (P := fun g => RangeAt L ok n comm A (q + n + 1) i t
          (hashOf S (rerun (rangeOuter cp) (rangeAll cp n A) S (max t.1.1 t.1.2) f g)))
        (Q := fun g => op i (A.run (hashOf S f)) (rangeExtract cp φ n A S i f g))
        (R := fun g => BO (g xo) ∨ BI (g xi)) (by
          intro g hg
          by_cases hb : BO (g xo) ∨ BI (g xi)
          · exact .inr hb
          · push Not at hb
            exact .inl (bit_of_runs L hs ok n hn hrule comm A _ hin t S f g xo xi rfl rfl ht hg lo li hb.1 hb.2))
      refine le_trans ?_ f4
      have : ((mI : ℝ) + mO) * perChal cp.C.N / 2 ^ 256 =
          mI * perChal cp.C.N / 2 ^ 256 + mO * perChal cp.C.N / 2 ^ 256 := by ring
      linarith)
  have b4 : (prob fun f => Light f ∨ LuckyO f ∨ LuckyI f) ≤ prob Light + (prob LuckyO + prob LuckyI) :=
    prob_or.trans (add_le_add le_rfl prob_or)
  rw [hε]
  refine le_trans ?_ key
  have : ((n : ℝ) + 1) * (q + n + 1) * perChal cp.C.N / 2 ^ 256 =
    (q + n + 1) * perChal cp.C.N / 2 ^ 256 + n * ((q + n + 1) * perChal cp.C.N / 2 ^ 256) := by ring
  linarith

/-- Independent tries for each of `n` goals. -/
theorem num_tries {X : Type} [Fintype X] (n k : Nat) (P : Fin n → X → Prop) (r : ℝ) (hr : 0 ≤ r) (hr1 : r ≤ 1)
    (hP : ∀ i, r * Fintype.card X ≤ num (P i)) :
    (1 - (1 - r) ^ k) ^ n * Fintype.card (Fin n → Fin k → X) ≤
      num fun G : Fin n → Fin k → X => ∀ i, ∃ l, P i (G i l) := by
  classical
  have h1 : ∀ i, (1 - (1 - r) ^ k) * (Fintype.card X : ℝ) ^ k ≤
      num fun G : Fin k → X => ∃ l, P i (G l) := by
    intro i
    have h2 := num_forall k fun x => ¬ P i x
    have h3 : (num fun x => ¬ P i x) ≤ (1 - r) * Fintype.card X := by
      have : num (P i) + (num fun x => ¬ P i x) = Fintype.card X := by
        rw [num_eq, num_eq, ← Nat.cast_add, Finset.card_filter_add_card_filter_not, Finset.card_univ]
      have := hP i
      linarith
    have h4 : (num fun G : Fin k → X => ∃ l, P i (G l)) + (num fun G : Fin k → X => ∀ l, ¬ P i (G l)) =
        (Fintype.card X : ℝ) ^ k := by
      have h5 : (num fun G : Fin k → X => ∀ l, ¬ P i (G l)) = num fun G : Fin k → X => ¬ ∃ l, P i (G l) :=
        num_congr fun G => by push Not; rfl
      rw [h5, num_eq, num_eq, ← Nat.cast_add, Finset.card_filter_add_card_filter_not, Finset.card_univ,
        Fintype.card_fun, Fintype.card_fin, Nat.cast_pow]
    have h6 := pow_le_pow_left₀ num_nonneg h3 k
    rw [mul_pow] at h6
    linarith
  have h7 : (Finset.univ.filter fun G : Fin n → Fin k → X => ∀ i, ∃ l, P i (G i l)) =
      Fintype.piFinset fun i => Finset.univ.filter fun G : Fin k → X => ∃ l, P i (G l) := by
    ext G; simp
  rw [num_eq, h7, Fintype.card_piFinset, Nat.cast_prod]
  have h8 := Finset.prod_le_prod (s := Finset.univ) (f := fun _ : Fin n => (1 - (1 - r) ^ k) *
    (Fintype.card X : ℝ) ^ k) (g := fun i => num fun G : Fin k → X => ∃ l, P i (G l))
    (fun i _ => mul_nonneg (sub_nonneg.2 (pow_le_one₀ (by linarith) (by linarith))) (by positivity))
    fun i _ => h1 i
  rw [Finset.prod_const, Finset.card_univ, Fintype.card_fin, mul_pow] at h8
  simp only [num_eq] at h8
  rw [Fintype.card_fun, Fintype.card_fun, Fintype.card_fin, Fintype.card_fin, Nat.cast_pow, Nat.cast_pow]
  exact h8

/-- One run of the prover, and `k` more for each of the `n` bits, where `res` follows from an accepted proof all
of whose bits are opened. -/
theorem range_knowledge {X : Type} (L : Lawful cp E) (hs : Small L) (ok : (Nat → E) → Prop) (n : Nat)
    (hn : n ≤ 64) {φ : Nat → Option RangeProof → Option RangeProof → Int → Int → X}
    {op : Nat → Option RangeProof → X → Prop} {badI badO : Nat → Int → List Int}
    (hrule : BitRule L ok n φ op badI badO) (mI mO : Nat) (hI : ∀ i d, (badI i d).length ≤ mI)
    (hO : ∀ i e, (badO i e).length ≤ mO) (comm : E)
    (A : Adv (Option RangeProof)) (q : Nat) (hq : ∀ h, A.count h ≤ q) (S : Finset Bytes)
    (hS : (rangeAll cp n A).asked bytesOf (rangeOuter cp) ⊆ S) (ε δ : ℝ)
    (hδ : (mI + mO) * perChal cp.C.N / 2 ^ 256 ≤ δ) (hδ1 : δ ≤ 1)
    (hε : ε = prob fun f : S → Word => RangeWins L ok n comm (A.run (hashOf S f)) (hashOf S f)) (k : Nat)
    (res : Option RangeProof → (Fin n → Fin k → X) → Prop)
    (hres : ∀ p hash, RangeWins L ok n comm p hash → ∀ x : Fin n → Fin k → X,
      (∀ i : Fin n, ∃ l, op i p (x i l)) → res p x) :
    (ε - n * ((q + n + 1) ^ 2 * 147233889) * δ - (n + 1) * (q + n + 1) * perChal cp.C.N / 2 ^ 256) *
        (1 - (1 - (δ - (mI + mO) * perChal cp.C.N / 2 ^ 256)) ^ k) ^ n ≤
      prob fun x : (S → Word) × (Fin n → Fin k → S → Word) =>
        res (A.run (hashOf S x.1)) fun i l => rangeExtract cp φ n A S i x.1 (x.2 i l) := by
  classical
  have hp0 : (0 : ℝ) ≤ (mI + mO) * perChal cp.C.N / 2 ^ 256 := by positivity
  have h1 := range_bits L hs ok n hn hrule mI mO hI hO comm A q hq S hS ε δ (hp0.trans hδ) hε
  set r : ℝ := δ - (mI + mO) * perChal cp.C.N / 2 ^ 256 with hr
  have hr0 : 0 ≤ r := by linarith
  have hr1 : r ≤ 1 := by linarith
  have hX : (0 : ℝ) < Fintype.card (S → Word) := Nat.cast_pos.2 Fintype.card_pos
  have hT : (0 : ℝ) ≤ (1 - (1 - r) ^ k) ^ n :=
    pow_nonneg (sub_nonneg.2 (pow_le_one₀ (by linarith) (by linarith))) _
  refine (mul_le_mul_of_nonneg_right h1 hT).trans ?_
  let Good : (S → Word) → Prop := fun f => RangeWins L ok n comm (A.run (hashOf S f)) (hashOf S f) ∧
    ∀ i < n, r ≤ prob fun g : S → Word => op i (A.run (hashOf S f)) (rangeExtract cp φ n A S i f g)
  have h2 : ∀ f, Good f → (1 - (1 - r) ^ k) ^ n * Fintype.card (Fin n → Fin k → S → Word) ≤
      num fun G : Fin n → Fin k → S → Word =>
        res (A.run (hashOf S f)) fun i l => rangeExtract cp φ n A S i f (G i l) := by
    rintro f ⟨hw, hf⟩
    refine (num_tries n k (fun i g => op i (A.run (hashOf S f)) (rangeExtract cp φ n A S i f g)) r hr0 hr1
      fun i => ?_).trans (num_mono fun G hG => hres _ _ hw _ hG)
    have := hf i i.2
    rw [prob, le_div_iff₀ hX] at this
    exact this
  have h3 : num Good * ((1 - (1 - r) ^ k) ^ n * Fintype.card (Fin n → Fin k → S → Word)) ≤
      num fun x : (S → Word) × (Fin n → Fin k → S → Word) =>
        res (A.run (hashOf S x.1)) fun i l => rangeExtract cp φ n A S i x.1 (x.2 i l) := by
    rw [num_eq_sum, num_eq_sum, Finset.sum_mul, Fintype.sum_prod_type]
    refine Finset.sum_le_sum fun f _ => ?_
    rw [← num_eq_sum (P := fun G : Fin n → Fin k → S → Word =>
        res (A.run (hashOf S f)) fun i l => rangeExtract cp φ n A S i f (G i l))]
    by_cases h : Good f
    · rw [if_pos h, one_mul]; exact h2 f h
    · rw [if_neg h, zero_mul]; exact num_nonneg
  change prob Good * _ ≤ _
  unfold prob
  rw [Fintype.card_prod, Nat.cast_mul, div_mul_eq_mul_div, div_le_div_iff₀ hX (by
    have : (0 : ℝ) < Fintype.card (Fin n → Fin k → S → Word) := Nat.cast_pos.2 Fintype.card_pos
    positivity)]
  have h4 := mul_le_mul_of_nonneg_right h3 hX.le
  calc _ = _ := by ring
    _ ≤ _ := h4

end Zk.Rom
