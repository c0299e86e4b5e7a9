import Verif.Go
import Mathlib.Algebra.Order.Chebyshev
import Mathlib.Algebra.BigOperators.Field
import Mathlib.Data.Real.Basic
import Mathlib.Data.Fintype.Pi
import Mathlib.Data.Fintype.BigOperators
import Mathlib.Tactic.Positivity
import Mathlib.Tactic.FieldSimp
import Mathlib.Tactic.Ring

/-!
# Random oracles, adversaries and the forking lemma

An adversary is a decision tree that asks the hash function and then outputs something.  The hash
function is drawn at random: all functions from a finite set of byte strings to the possible answers are
equally likely.
-/

namespace Zk.Rom

open Zk

/-- An adversary who asks the hash function and then outputs something (specification; the hash function
is the one of crypto.go:254-262). -/
inductive Adv (α : Type) where
  | out (a : α)
  | ask (b : Bytes) (k : Bytes → Adv α)

/-- The output for a given hash function (specification; crypto.go:254-262). -/
def Adv.run {α : Type} : Adv α → (Bytes → Bytes) → α
  | .out a, _ => a
  | .ask b k, h => (k (h b)).run h

/-- How often the hash function is asked (specification; crypto.go:254-262). -/
def Adv.count {α : Type} : Adv α → (Bytes → Bytes) → Nat
  | .out _, _ => 0
  | .ask b k, h => (k (h b)).count h + 1

/-- All that is asked: by the adversary, and then by a verifier who hashes `crit` of the output
(specification; crypto.go:254-262). -/
def Adv.trace {α : Type} (crit : α → Bytes) : Adv α → (Bytes → Bytes) → List Bytes
  | .out a, _ => [crit a]
  | .ask b k, h => b :: (k (h b)).trace crit h

section Adv

variable {α : Type} {crit : α → Bytes}

theorem Adv.length_trace (A : Adv α) (h : Bytes → Bytes) : (A.trace crit h).length = A.count h + 1 := by
  induction A with
  | out a => rfl
  | ask b k ih => simp [trace, count, ih]

theorem Adv.crit_mem (A : Adv α) (h : Bytes → Bytes) : crit (A.run h) ∈ A.trace crit h := by
  induction A with
  | out a => simp [trace, run]
  | ask b k ih => simp [trace, run, ih]

/-- What is asked next depends only on the answers so far. -/
theorem Adv.take_trace (A : Adv α) {h h' : Bytes → Bytes} {j : Nat}
    (hh : ∀ b ∈ (A.trace crit h).take j, h' b = h b) :
    (A.trace crit h').take (j + 1) = (A.trace crit h).take (j + 1) := by
  induction A generalizing j with
  | out a => rfl
  | ask b k ih =>
    cases j with
    | zero => rfl
    | succ j =>
      have hb : h' b = h b := hh b (by simp [trace])
      simp only [trace, List.take_succ_cons, hb]
      rw [ih (h b) fun c hc => hh c (by simp [trace, hc])]

open Classical in
/-- The place of the verifier's question among all that is asked (specification; crypto.go:254-262). -/
noncomputable def Adv.idx (crit : α → Bytes) (A : Adv α) (h : Bytes → Bytes) : Nat :=
  (A.trace crit h).idxOf (crit (A.run h))

theorem Adv.idx_lt (A : Adv α) (h : Bytes → Bytes) : A.idx crit h < A.count h + 1 := by
  rw [← length_trace (crit := crit)]
  exact List.idxOf_lt_length_of_mem (A.crit_mem h)

theorem Adv.crit_notMem (A : Adv α) (h : Bytes → Bytes) :
    crit (A.run h) ∉ (A.trace crit h).take (A.idx crit h) := by
  classical
  unfold idx
  generalize A.trace crit h = l
  generalize crit (A.run h) = x
  induction l with
  | nil => simp
  | cons y l ih =>
    by_cases hy : y = x
    · simp [hy]
    · rw [List.idxOf_cons_ne _ hy, List.take_succ_cons, List.mem_cons, not_or]
      exact ⟨fun h => hy h.symm, ih⟩

theorem Adv.getElem?_idx (A : Adv α) (h : Bytes → Bytes) :
    (A.trace crit h)[A.idx crit h]? = some (crit (A.run h)) := by
  classical
  exact List.getElem?_idxOf (A.crit_mem h)

end Adv

/-! ## Probabilities -/

open Classical in
/-- How many elements of a finite set have a property (specification; crypto.go:254-262). -/
noncomputable def num {X : Type} [Fintype X] (P : X → Prop) : ℝ := (Finset.univ.filter P).card

/-- The part of a finite set that has a property (specification, a probability; crypto.go:254-262). -/
noncomputable def prob {X : Type} [Fintype X] (P : X → Prop) : ℝ := num P / Fintype.card X

section Num

variable {X Y : Type} [Fintype X] [Fintype Y] {P Q : X → Prop}

theorem num_eq [DecidablePred P] : num P = (Finset.univ.filter P).card := by
  unfold num
  congr!

theorem num_eq_sum [DecidablePred P] : num P = ∑ x, if P x then (1 : ℝ) else 0 := by
  rw [Finset.sum_boole, num_eq]

theorem num_nonneg : 0 ≤ num P := Nat.cast_nonneg _

theorem num_congr (h : ∀ x, P x ↔ Q x) : num P = num Q := congrArg num (funext fun x => propext (h x))

theorem num_mono (h : ∀ x, P x → Q x) : num P ≤ num Q := by
  classical
  rw [num_eq, num_eq, Nat.cast_le]
  exact Finset.card_le_card fun x hx => by simp_all

theorem num_or : num (fun x => P x ∨ Q x) ≤ num P + num Q := by
  classical
  rw [num_eq, num_eq, num_eq, ← Nat.cast_add, Nat.cast_le]
  refine (Finset.card_le_card fun x hx => ?_).trans (Finset.card_union_le _ _)
  simpa using hx

theorem num_exists {ι : Type} (s : Finset ι) (R : ι → X → Prop) :
    num (fun x => ∃ i ∈ s, R i x) ≤ ∑ i ∈ s, num (R i) := by
  classical
  simp only [num_eq]
  rw [← Nat.cast_sum, Nat.cast_le]
  refine (Finset.card_le_card fun x hx => ?_).trans Finset.card_biUnion_le
  simpa using hx

theorem sum_num {ι : Type} (s : Finset ι) (R : ι → X → Prop)
    (hd : ∀ x, ∀ i ∈ s, ∀ j ∈ s, R i x → R j x → i = j) :
    ∑ i ∈ s, num (R i) = num fun x => ∃ i ∈ s, R i x := by
  classical
  simp only [num_eq]
  rw [← Nat.cast_sum, Nat.cast_inj, ← Finset.card_biUnion]
  · congr 1
    ext x
    simp
  · intro i hi j hj hij
    rw [Function.onFun, Finset.disjoint_left]
    intro x h h'
    exact hij (hd x i hi j hj (by simpa using h) (by simpa using h'))

theorem num_equiv (e : X ≃ Y) (R : Y → Prop) : (num fun x => R (e x)) = num R := by
  classical
  rw [num_eq_sum, num_eq_sum]
  exact Equiv.sum_comp e fun y => if R y then (1 : ℝ) else 0

theorem num_le_card : num P ≤ Fintype.card X := by
  classical
  rw [num_eq, Nat.cast_le]
  exact Finset.card_le_univ _

theorem prob_mono (h : ∀ x, P x → Q x) : prob P ≤ prob Q :=
  div_le_div_of_nonneg_right (num_mono h) (Nat.cast_nonneg _)

theorem prob_nonneg : 0 ≤ prob P := div_nonneg num_nonneg (Nat.cast_nonneg _)

end Num

/-- `f` on `D` and `g` elsewhere (specification; crypto.go:254-262). -/
def splice {S Ω : Type} [DecidableEq S] (D : Finset S) (f g : S → Ω) : S → Ω :=
  fun x => if x ∈ D then f x else g x

section Fork

variable {S Ω : Type} [Fintype S] [DecidableEq S] [Fintype Ω]

omit [Fintype S] [Fintype Ω] in
theorem splice_splice (D : Finset S) (f g g' : S → Ω) : splice D (splice D f g) g' = splice D f g' := by
  funext x
  unfold splice
  split <;> rfl

/-- Whatever is outside of `D f` may be drawn again. -/
theorem sum_splice (D : (S → Ω) → Finset S) (hD : ∀ f g, D (splice (D f) f g) = D f)
    (F : (S → Ω) → ℝ) :
    ∑ f : S → Ω, ∑ g : S → Ω, F (splice (D f) f g) = Fintype.card (S → Ω) * ∑ f, F f := by
  let φ : (S → Ω) × (S → Ω) → (S → Ω) × (S → Ω) := fun p =>
    (splice (D p.1) p.1 p.2, splice (D p.1) p.2 p.1)
  have hφ : Function.Involutive φ := by
    rintro ⟨f, g⟩
    simp only [φ, hD]
    refine Prod.ext ?_ ?_ <;> funext x <;> simp only [splice] <;> split <;> rfl
  have h1 := Equiv.sum_comp hφ.toPerm fun p => F p.1
  simp only [Function.Involutive.coe_toPerm, φ, Fintype.sum_prod_type] at h1
  rw [h1, Finset.sum_congr rfl fun f _ => Finset.sum_const (F f), Finset.mul_sum]
  simp [Finset.card_univ]

open Classical in
/-- The forking lemma for one event: `n + 1` runs that agree on `D f` all end in the event at least as
often as `n + 1` independent ones. -/
theorem fork (D : (S → Ω) → Finset S) (hD : ∀ f g, D (splice (D f) f g) = D f) (P : (S → Ω) → Prop)
    (n : Nat) :
    num P ^ (n + 1) ≤ ∑ f, if P f then (num fun g => P (splice (D f) f g)) ^ n else 0 := by
  rcases isEmpty_or_nonempty (S → Ω) with he | hne
  · simp [num]
  set c : ℝ := (Fintype.card (S → Ω) : ℝ) with hcd
  have hc : 0 < c := Nat.cast_pos.2 Fintype.card_pos
  let ind : (S → Ω) → ℝ := fun f => if P f then 1 else 0
  let w : (S → Ω) → ℝ := fun f => ∑ g, ind (splice (D f) f g)
  have hw : ∀ f, (num fun g => P (splice (D f) f g)) = w f := fun f => num_eq_sum
  have hN : num P = ∑ f, ind f := num_eq_sum
  have hws : ∀ f g, w (splice (D f) f g) = w f := by
    intro f g
    simp only [w, hD, splice_splice]
  have h1 : ∑ f, w f = c * ∑ f, ind f := sum_splice D hD ind
  have h2 : ∑ f, w f ^ (n + 1) = c * ∑ f, ind f * w f ^ n := by
    rw [← sum_splice D hD fun f => ind f * w f ^ n]
    refine Finset.sum_congr rfl fun f _ => ?_
    simp only [hws, ← Finset.sum_mul]
    rw [pow_succ, mul_comm]
  have h3 := pow_sum_div_card_le_sum_pow (s := Finset.univ) (f := w)
    (fun f _ => Finset.sum_nonneg fun g _ => by simp only [ind]; split <;> norm_num) n
  rw [h1, h2, Finset.card_univ, mul_pow, pow_succ c, mul_assoc, mul_div_assoc] at h3
  change c ^ n * (c * (∑ f, ind f) ^ (n + 1) / c ^ n) ≤ _ at h3
  rw [mul_div_cancel₀ _ (by positivity)] at h3
  have h4 := le_of_mul_le_mul_left h3 hc
  rw [hN]
  refine h4.trans (le_of_eq (Finset.sum_congr rfl fun f _ => ?_))
  rw [hw]
  simp only [ind]
  split <;> simp

end Fork

end Zk.Rom
