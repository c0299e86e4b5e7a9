import Verif.Rom.Two

/-!
# Runs from which another run is likely to succeed

The forking lemma in another form: apart from a set of small probability, every successful run has many
successful runs that agree with it up to some question.
-/

namespace Zk.Rom

open Zk Zk.Proto

section

variable {α τ Ω : Type} [Fintype τ] [Fintype Ω] [Nonempty Ω] {word : Ω → Bytes} {S : Finset Bytes}
  {crit : α → Bytes} {A : Adv α}

omit [Fintype τ] in
/-- One event: it rarely happens where it is rare. -/
theorem heavy_one (j : Nat) (P : (S → Ω) → Prop) (δ : ℝ) (hδ : 0 ≤ δ) :
    (prob fun f : S → Ω => P f ∧
      (prob fun g : S → Ω => P (splice (before word S crit A j f) f g)) ≤ δ) ≤ δ := by
  classical
  have hX : (0 : ℝ) < Fintype.card (S → Ω) := Nat.cast_pos.2 Fintype.card_pos
  let D := before word S crit A j
  have hD : ∀ f g, D (splice (D f) f g) = D f := fun f g => before_splice j f g
  let a : (S → Ω) → ℝ := fun f => prob fun g => P (splice (D f) f g)
  have ha : ∀ f g, a (splice (D f) f g) = a f := by
    intro f g
    simp only [a, hD, splice_splice]
  have h1 := sum_splice D hD fun f => if P f ∧ a f ≤ δ then (1 : ℝ) else 0
  rw [← num_eq_sum] at h1
  have h2 : ∀ f, (∑ g, if P (splice (D f) f g) ∧ a (splice (D f) f g) ≤ δ then (1 : ℝ) else 0) ≤
      δ * Fintype.card (S → Ω) := by
    intro f
    rw [← num_eq_sum]
    simp only [ha]
    by_cases h : a f ≤ δ
    · have h3 : (num fun g => P (splice (D f) f g)) = a f * Fintype.card (S → Ω) := by
        simp only [a, prob]
        rw [div_mul_cancel₀ _ hX.ne']
      refine (num_mono fun g hg => hg.1).trans (h3.le.trans ?_)
      exact mul_le_mul_of_nonneg_right h hX.le
    · rw [num_eq, Finset.filter_false_of_mem fun g _ hg => h hg.2]
      simpa using mul_nonneg hδ hX.le
  have h3 := Finset.sum_le_sum fun f (_ : f ∈ Finset.univ) => h2 f
  rw [h1, Finset.sum_const, nsmul_eq_mul, Finset.card_univ] at h3
  have h4 := le_of_mul_le_mul_left h3 hX
  unfold prob
  rw [div_le_iff₀ hX]
  exact h4

/-- The same for all tags; the tag says from which question on answers are new. -/
theorem heavy (J : τ → Nat) (P : τ → (S → Ω) → Prop) (δ : ℝ) (hδ : 0 ≤ δ) :
    (prob fun f : S → Ω => ∃ t, P t f ∧
      (prob fun g : S → Ω => P t (splice (before word S crit A (J t) f) f g)) ≤ δ) ≤
      Fintype.card τ * δ := by
  have hX : (0 : ℝ) < Fintype.card (S → Ω) := Nat.cast_pos.2 Fintype.card_pos
  let R : τ → (S → Ω) → Prop := fun t f => P t f ∧
      (prob fun g : S → Ω => P t (splice (before word S crit A (J t) f) f g)) ≤ δ
  have h1 := num_exists Finset.univ R
  have h2 : ∀ t, num (R t) ≤ δ * Fintype.card (S → Ω) := fun t =>
    (div_le_iff₀ hX).1 (heavy_one (word := word) (crit := crit) (A := A) (J t) (P t) δ hδ)
  unfold prob
  rw [div_le_iff₀ hX]
  refine (num_mono ?_).trans (h1.trans ((Finset.sum_le_card_nsmul _ _ _ fun k _ => h2 k).trans
    (le_of_eq ?_)))
  · rintro f ⟨t, h⟩
    exact ⟨t, Finset.mem_univ _, h⟩
  · rw [Finset.card_univ, nsmul_eq_mul]
    ring

omit [Fintype τ] in
/-- A new answer is rarely bad. -/
theorem prob_fresh (Bad : Ω → Prop) (κ : ℝ) (hκ : num Bad ≤ κ) (x : S) :
    (prob fun g : S → Ω => Bad (g x)) ≤ κ / Fintype.card Ω := by
  classical
  obtain ⟨ω₀⟩ : Nonempty Ω := inferInstance
  have hX : (0 : ℝ) < Fintype.card (S → Ω) := Nat.cast_pos.2 Fintype.card_pos
  have hW : (0 : ℝ) < Fintype.card Ω := Nat.cast_pos.2 Fintype.card_pos
  have := num_hit (ι := S) (fun _ => Bad) κ (fun _ => hκ) x (fun _ => ω₀) fun _ _ _ => rfl
  unfold prob
  rw [div_le_div_iff₀ hX hW]
  exact this

end

/-- Removing a rare event. -/
theorem prob_sdiff {X : Type} [Fintype X] {P Q R : X → Prop} (h : ∀ x, P x → Q x ∨ R x) :
    prob P - prob R ≤ prob Q := by
  unfold prob
  rw [← sub_div]
  refine div_le_div_of_nonneg_right ?_ (Nat.cast_nonneg _)
  have := (num_mono h).trans num_or
  linarith

theorem prob_or {X : Type} [Fintype X] {P Q : X → Prop} : (prob fun x => P x ∨ Q x) ≤ prob P + prob Q := by
  unfold prob
  rw [← add_div]
  exact div_le_div_of_nonneg_right num_or (Nat.cast_nonneg _)

theorem prob_exists {X : Type} [Fintype X] (n : Nat) (P : Nat → X → Prop) (r : ℝ)
    (h : ∀ i < n, prob (P i) ≤ r) : (prob fun x => ∃ i < n, P i x) ≤ n * r := by
  have h1 := num_exists (Finset.range n) P
  have h2 : ∑ i ∈ Finset.range n, prob (P i) ≤ n * r := by
    refine (Finset.sum_le_card_nsmul _ _ r fun i hi => h i (Finset.mem_range.1 hi)).trans (le_of_eq ?_)
    rw [Finset.card_range, nsmul_eq_mul]
  refine le_trans ?_ h2
  unfold prob
  rw [← Finset.sum_div]
  refine div_le_div_of_nonneg_right ((num_mono ?_).trans h1) (Nat.cast_nonneg _)
  rintro x ⟨i, hi, h⟩
  exact ⟨i, Finset.mem_range.2 hi, h⟩

/-- All strings that are asked are in the domain. -/
theorem trace_mem_asked {α Ω : Type} [Fintype Ω] {word : Ω → Bytes} {S : Finset Bytes} {crit : α → Bytes}
    {A : Adv α} (hS : A.asked word crit ⊆ S) (f : S → Ω) {b : Bytes}
    (hb : b ∈ A.trace crit (toHash word S f)) : b ∈ S := by
  induction A with
  | out a => exact hS (by simpa [Adv.asked, Adv.trace] using hb)
  | ask c k ih =>
    have hc : c ∈ S := hS (by simp [Adv.asked])
    rw [Adv.trace, List.mem_cons] at hb
    rcases hb with rfl | hb
    · exact hc
    · have ht : toHash word S f c = word (f ⟨c, hc⟩) := by simp [toHash, hc]
      rw [ht] at hb
      refine ih _ (Finset.Subset.trans ?_ hS) hb
      intro y hy
      rw [Adv.asked, Finset.mem_insert]
      exact Or.inr (Finset.mem_biUnion.2 ⟨_, Finset.mem_univ _, hy⟩)

/-! ## The questions of the verifier -/

/-- Ask a list of questions (specification; crypto.go:254-262). -/
def askList {α : Type} : List Bytes → (List Bytes → Adv α) → Adv α
  | [], k => k []
  | b :: bs, k => .ask b fun d => askList bs fun ds => k (d :: ds)

/-- The adversary, and then questions that the verifier asks (specification; crypto.go:254-262). -/
def Adv.andAsk {α : Type} (ask : α → List Bytes) : Adv α → Adv (α × List Bytes)
  | .out a => askList (ask a) fun ds => .out (a, ds)
  | .ask b k => .ask b fun d => (k d).andAsk ask

section

variable {α β : Type}

theorem run_askList (bs : List Bytes) (k : List Bytes → Adv α) (h : Bytes → Bytes) :
    (askList bs k).run h = (k (bs.map h)).run h := by
  induction bs generalizing k with
  | nil => rfl
  | cons b bs ih => exact ih _

theorem count_askList (bs : List Bytes) (k : List Bytes → Adv α) (h : Bytes → Bytes) :
    (askList bs k).count h = bs.length + (k (bs.map h)).count h := by
  induction bs generalizing k with
  | nil => simp [askList]
  | cons b bs ih =>
    rw [askList, Adv.count, ih]
    simp only [List.length_cons, List.map_cons]
    omega

theorem trace_askList (bs : List Bytes) (k : List Bytes → Adv α) (crit : α → Bytes) (h : Bytes → Bytes) :
    (askList bs k).trace crit h = bs ++ (k (bs.map h)).trace crit h := by
  induction bs generalizing k with
  | nil => rfl
  | cons b bs ih =>
    rw [askList, Adv.trace, ih]
    rfl

theorem Adv.run_andAsk (A : Adv α) (ask : α → List Bytes) (h : Bytes → Bytes) :
    (A.andAsk ask).run h = (A.run h, (ask (A.run h)).map h) := by
  induction A with
  | out a => rw [andAsk, run_askList]; rfl
  | ask b k ih => exact ih _

theorem Adv.count_andAsk (A : Adv α) (ask : α → List Bytes) (h : Bytes → Bytes) :
    (A.andAsk ask).count h = A.count h + (ask (A.run h)).length := by
  induction A with
  | out a => rw [andAsk, count_askList]; simp [count, run]
  | ask b k ih =>
    rw [andAsk, count, count, ih, run]
    omega

theorem Adv.mem_trace_andAsk (A : Adv α) (ask : α → List Bytes) (crit : α × List Bytes → Bytes)
    (h : Bytes → Bytes) {b : Bytes} (hb : b ∈ ask (A.run h)) : b ∈ (A.andAsk ask).trace crit h := by
  induction A with
  | out a =>
    rw [andAsk, trace_askList]
    exact List.mem_append_left _ hb
  | ask c k ih => exact List.mem_cons_of_mem _ (ih _ hb)

end

/-- The answers to the first `j` questions are kept, all others drawn again (specification;
crypto.go:254-262). -/
def rerun {α : Type} (crit : α → Bytes) (A : Adv α) (S : Finset Bytes) (j : Nat) (f g : S → Word) :
    S → Word := splice (before bytesOf S crit A j f) f g

section

variable {α : Type} {crit : α → Bytes} {A : Adv α} {S : Finset Bytes}

open Classical in
/-- A question that comes at the same place, up to the first new one, is the same. -/
theorem question_rerun {j p : Nat} (hp : p ≤ j) {f g : S → Word} {b b' : Bytes}
    (hb : b ∈ A.trace crit (hashOf S f)) (hb' : b' ∈ A.trace crit (hashOf S (rerun crit A S j f g)))
    (h : (A.trace crit (hashOf S f)).idxOf b = p)
    (h' : (A.trace crit (hashOf S (rerun crit A S j f g))).idxOf b' = p) : b' = b := by
  have h1 := List.getElem?_idxOf hb
  have h2 := List.getElem?_idxOf hb'
  rw [h] at h1
  rw [h'] at h2
  have h3 := congrArg (fun l => l[p]?)
    (take_splice (word := bytesOf) (S := S) (crit := crit) (A := A) j f g)
  simp only [List.getElem?_take_of_lt (Nat.lt_succ_of_le hp)] at h3
  exact Option.some.inj (h2.symm.trans (h3.trans h1))

open Classical in
/-- An old answer. -/
theorem rerun_old {j : Nat} {f g : S → Word} (x : S)
    (h : (A.trace crit (hashOf S f)).idxOf x.1 < j) (hx : x.1 ∈ A.trace crit (hashOf S f)) :
    rerun crit A S j f g x = f x := by
  have : x ∈ before bytesOf S crit A j f := by
    simp only [before, Finset.mem_filter, Finset.mem_univ, true_and]
    rw [List.mem_take_iff_idxOf_lt hx]
    exact h
  simp [rerun, splice, this]

open Classical in
/-- A new answer. -/
theorem rerun_new {j : Nat} {f g : S → Word} (x : S)
    (h : j ≤ (A.trace crit (hashOf S f)).idxOf x.1) : rerun crit A S j f g x = g x := by
  have : x ∉ before bytesOf S crit A j f := by
    simp only [before, Finset.mem_filter, Finset.mem_univ, true_and]
    intro hm
    have h1 := List.mem_of_mem_take hm
    rw [List.mem_take_iff_idxOf_lt h1] at hm
    exact absurd hm (not_lt.2 h)
  simp [rerun, splice, this]

end

end Zk.Rom
