import Verif.Rom.Fork
import Mathlib.Logic.Equiv.Fin.Basic
import Mathlib.Algebra.BigOperators.Fin

/-!
# The forking lemma for adversaries

A proof that is accepted with probability ε by a verifier who hashes one string gives `n + 1` accepted
proofs with the same hashed string and different answers, with probability about ε to the power `n + 1`.
-/

namespace Zk.Rom

open Zk

/-- The hash function of a random oracle on the strings in `S`; elsewhere it is constant (specification;
crypto.go:254-262). -/
def toHash {Ω : Type} (word : Ω → Bytes) (S : Finset Bytes) (f : S → Ω) : Bytes → Bytes :=
  fun b => if h : b ∈ S then word (f ⟨b, h⟩) else []

section

variable {α τ Ω : Type} [Fintype τ] [Fintype Ω] (word : Ω → Bytes) (S : Finset Bytes) (crit : α → Bytes)
  (A : Adv α)

/-- The first `j` questions (specification; crypto.go:254-262). -/
def before (j : Nat) (f : S → Ω) : Finset S :=
  Finset.univ.filter fun x => x.1 ∈ (A.trace crit (toHash word S f)).take j

/-- All answers from the verifier's question on are drawn again (specification; crypto.go:254-262). -/
noncomputable def rewind (f g : S → Ω) : S → Ω :=
  splice (before word S crit A (A.idx crit (toHash word S f)) f) f g

variable {word S crit A}

omit [Fintype Ω] in
theorem toHash_splice {j : Nat} {f g : S → Ω} {b : Bytes}
    (hb : b ∈ (A.trace crit (toHash word S f)).take j) :
    toHash word S (splice (before word S crit A j f) f g) b = toHash word S f b := by
  unfold toHash
  split
  · rename_i h
    have : (⟨b, h⟩ : S) ∈ before word S crit A j f := by simp [before, hb]
    simp [splice, this]
  · rfl

omit [Fintype Ω] in
theorem take_splice (j : Nat) (f g : S → Ω) :
    (A.trace crit (toHash word S (splice (before word S crit A j f) f g))).take (j + 1) =
      (A.trace crit (toHash word S f)).take (j + 1) :=
  A.take_trace fun _ hb => toHash_splice hb

omit [Fintype Ω] in
theorem before_splice (j : Nat) (f g : S → Ω) :
    before word S crit A j (splice (before word S crit A j f) f g) = before word S crit A j f := by
  have h := congrArg (List.take j) (take_splice (word := word) (S := S) (crit := crit) (A := A) j f g)
  rw [List.take_take, List.take_take, min_eq_left (Nat.le_succ j)] at h
  unfold before at h ⊢
  rw [h]

omit [Fintype Ω] in
/-- If the verifier's question comes at the same place again, it is the same. -/
theorem crit_splice {f g : S → Ω}
    (hi : A.idx crit (toHash word S (rewind word S crit A f g)) = A.idx crit (toHash word S f)) :
    crit (A.run (toHash word S (rewind word S crit A f g))) = crit (A.run (toHash word S f)) := by
  have h1 := A.getElem?_idx (crit := crit) (toHash word S (rewind word S crit A f g))
  have h2 := A.getElem?_idx (crit := crit) (toHash word S f)
  rw [hi] at h1
  have h3 := congrArg (fun l => l[A.idx crit (toHash word S f)]?)
    (take_splice (word := word) (S := S) (crit := crit) (A := A) (A.idx crit (toHash word S f)) f g)
  simp only [List.getElem?_take_of_lt (Nat.lt_succ_self _)] at h3
  exact Option.some.inj (h1.symm.trans (h3.trans h2))

omit [Fintype Ω] in
/-- The answer to the verifier's question is new. -/
theorem rewind_crit (f g : S → Ω) (x : S) (hx : x.1 = crit (A.run (toHash word S f))) :
    rewind word S crit A f g x = g x := by
  have : x ∉ before word S crit A (A.idx crit (toHash word S f)) f := by
    simp only [before, Finset.mem_filter, Finset.mem_univ, true_and, hx]
    exact A.crit_notMem _
  simp [rewind, splice, this]

omit [Fintype Ω] in
theorem rewind_self (f : S → Ω) : rewind word S crit A f f = f := by
  funext x
  simp [rewind, splice]

end

/-! ## Counting -/

/-- A coordinate that is drawn at random hits a set of `κ` answers with probability `κ / |Ω|`. -/
theorem num_hit {ι Ω : Type} [Fintype ι] [DecidableEq ι] [Fintype Ω] (Bad : Ω → Ω → Prop) (κ : ℝ)
    (hκ : ∀ ω, num (Bad ω) ≤ κ) (i : ι) (a : (ι → Ω) → Ω)
    (ha : ∀ G G' : ι → Ω, (∀ j, j ≠ i → G j = G' j) → a G = a G') :
    (num fun G : ι → Ω => Bad (a G) (G i)) * Fintype.card Ω ≤ κ * Fintype.card (ι → Ω) := by
  classical
  rcases isEmpty_or_nonempty Ω with he | ⟨⟨ω₀⟩⟩
  · have : IsEmpty (ι → Ω) := ⟨fun G => he.elim (G i)⟩
    simp
  have hsum : (num fun G : ι → Ω => Bad (a G) (G i)) = ∑ r : {j // j ≠ i} → Ω,
      num (Bad (a ((Equiv.funSplitAt i Ω).symm (ω₀, r)))) := by
    rw [num_eq_sum, ← Equiv.sum_comp (Equiv.funSplitAt i Ω).symm, Fintype.sum_prod_type_right]
    refine Finset.sum_congr rfl fun r _ => ?_
    rw [num_eq_sum]
    refine Finset.sum_congr rfl fun ω _ => ?_
    rw [ha ((Equiv.funSplitAt i Ω).symm (ω, r)) ((Equiv.funSplitAt i Ω).symm (ω₀, r)) (by
      intro j hj; simp [Equiv.funSplitAt, Equiv.piSplitAt, hj])]
    simp [Equiv.funSplitAt, Equiv.piSplitAt]
  have hcard : (Fintype.card (ι → Ω) : ℝ) = Fintype.card Ω * Fintype.card ({j // j ≠ i} → Ω) := by
    rw [Fintype.card_congr (Equiv.funSplitAt i Ω), Fintype.card_prod, Nat.cast_mul]
  rw [hsum, hcard]
  have : ∑ r : {j // j ≠ i} → Ω, num (Bad (a ((Equiv.funSplitAt i Ω).symm (ω₀, r)))) ≤
      Fintype.card ({j // j ≠ i} → Ω) * κ := by
    refine (Finset.sum_le_card_nsmul Finset.univ _ κ fun r _ => hκ _).trans ?_
    simp
  nlinarith [(Nat.cast_nonneg (Fintype.card Ω) : (0 : ℝ) ≤ _)]

open Classical in
/-- The number of tuples with an independent property. -/
theorem num_cons {X : Type} [Fintype X] (n : Nat) (P : X → Prop) (Q : X → (Fin n → X) → Prop) :
    (num fun G : Fin (n + 1) → X => P (G 0) ∧ Q (G 0) (fun i => G i.succ)) =
      ∑ f : X, if P f then num (Q f) else 0 := by
  rw [num_eq_sum, ← Equiv.sum_comp (Fin.consEquiv fun _ => X), Fintype.sum_prod_type]
  refine Finset.sum_congr rfl fun f _ => ?_
  split
  · rename_i h
    rw [num_eq_sum]
    refine Finset.sum_congr rfl fun g _ => ?_
    simp [Fin.consEquiv, h]
  · rename_i h
    refine Finset.sum_eq_zero fun g _ => ?_
    simp [Fin.consEquiv, h]

theorem num_forall {X : Type} [Fintype X] (n : Nat) (P : X → Prop) :
    (num fun g : Fin n → X => ∀ i, P (g i)) = num P ^ n := by
  classical
  have : (Finset.univ.filter fun g : Fin n → X => ∀ i, P (g i)) =
      Fintype.piFinset fun _ : Fin n => Finset.univ.filter P := by
    ext g; simp
  rw [num_eq, num_eq, this, Fintype.card_piFinset_const, Nat.cast_pow]

section

variable {α τ Ω : Type} [Fintype τ] [Fintype Ω] {word : Ω → Bytes} {S : Finset Bytes} {crit : α → Bytes}
  {A : Adv α} {good : α → (Bytes → Bytes) → Prop} {tag : α → τ} {q : Nat} {κ : ℝ} {Bad : Ω → Ω → Prop}

/-- The oracles of `n + 1` runs that differ from the verifier's question on (specification;
crypto.go:254-262). -/
noncomputable def runs (word : Ω → Bytes) (S : Finset Bytes) (crit : α → Bytes) (A : Adv α) {n : Nat}
    (G : Fin (n + 1) → S → Ω) (i : Fin (n + 1)) : S → Ω := rewind word S crit A (G 0) (G i)

/-- `n + 1` successful runs in which the verifier asks the same question `x` and gets different answers
(specification; crypto.go:254-262). -/
def Success (word : Ω → Bytes) (S : Finset Bytes) (crit : α → Bytes) (A : Adv α)
    (good : α → (Bytes → Bytes) → Prop) (tag : α → τ) (Bad : Ω → Ω → Prop) {n : Nat}
    (G : Fin (n + 1) → S → Ω) : Prop :=
  ∃ x : S, ∃ t : τ, (∀ i, good (A.run (toHash word S (runs word S crit A G i)))
      (toHash word S (runs word S crit A G i)) ∧
    crit (A.run (toHash word S (runs word S crit A G i))) = x.1 ∧
    tag (A.run (toHash word S (runs word S crit A G i))) = t) ∧
    ∀ i j, i < j → ¬ Bad (runs word S crit A G i x) (runs word S crit A G j x)

/-- The forking lemma: the number of tuples of oracles with `n + 1` successful runs. -/
theorem num_success (n : Nat) (hq : ∀ h, A.count h ≤ q)
    (hS : ∀ f : S → Ω, good (A.run (toHash word S f)) (toHash word S f) →
      crit (A.run (toHash word S f)) ∈ S) :
    (num fun f : S → Ω => good (A.run (toHash word S f)) (toHash word S f)) ^ (n + 1) /
        ((q + 1 : ℕ) * Fintype.card τ : ℕ) ^ n ≤
      num (Success word S crit A good tag Bad (n := n)) +
      ∑ p ∈ (Finset.univ : Finset (Fin (n + 1) × Fin (n + 1))) with p.1 < p.2,
        num fun G : Fin (n + 1) → S → Ω =>
          good (A.run (toHash word S (G 0))) (toHash word S (G 0)) ∧
          ∃ x : S, x.1 = crit (A.run (toHash word S (G 0))) ∧ Bad (G p.1 x) (G p.2 x) := by
  classical
  set P : Fin (q + 1) × τ → (S → Ω) → Prop := fun k f =>
    good (A.run (toHash word S f)) (toHash word S f) ∧ A.idx crit (toHash word S f) = k.1 ∧
      tag (A.run (toHash word S f)) = k.2 with hP
  have hN : (num fun f : S → Ω => good (A.run (toHash word S f)) (toHash word S f)) =
      ∑ k : Fin (q + 1) × τ, num (P k) := by
    rw [sum_num]
    · refine num_congr fun f => ⟨fun h => ?_, ?_⟩
      · exact ⟨(⟨A.idx crit (toHash word S f), (A.idx_lt _).trans_le (Nat.succ_le_succ (hq _))⟩,
          tag (A.run (toHash word S f))), Finset.mem_univ _, h, rfl, rfl⟩
      · rintro ⟨k, -, h, -⟩
        exact h
    · intro f k _ k' _ h h'
      exact Prod.ext (Fin.ext (h.2.1.symm.trans h'.2.1)) (h.2.2.symm.trans h'.2.2)
  have h1 := pow_sum_div_card_le_sum_pow (s := Finset.univ)
    (f := fun k : Fin (q + 1) × τ => num (P k)) (fun _ _ => num_nonneg) n
  rw [hN]
  refine (le_of_eq ?_).trans (h1.trans ?_)
  · simp [Fintype.card_prod]
  have h2 : ∀ k : Fin (q + 1) × τ, num (P k) ^ (n + 1) ≤
      num fun G : Fin (n + 1) → S → Ω => P k (G 0) ∧
        ∀ i : Fin n, P k (splice (before word S crit A k.1 (G 0)) (G 0) (G i.succ)) := by
    intro k
    refine (fork (before word S crit A k.1) (fun f g => before_splice _ f g) (P k) n).trans (le_of_eq ?_)
    rw [num_cons n (P k) fun f (g : Fin n → S → Ω) =>
      ∀ i, P k (splice (before word S crit A k.1 f) f (g i))]
    refine Finset.sum_congr rfl fun f _ => ?_
    rw [num_forall n fun g => P k (splice (before word S crit A k.1 f) f g)]
  refine (Finset.sum_le_sum fun k _ => h2 k).trans ?_
  rw [sum_num]
  · let R : Fin (n + 1) × Fin (n + 1) → (Fin (n + 1) → S → Ω) → Prop := fun p G =>
      good (A.run (toHash word S (G 0))) (toHash word S (G 0)) ∧
        ∃ x : S, x.1 = crit (A.run (toHash word S (G 0))) ∧ Bad (G p.1 x) (G p.2 x)
    have h3 := num_exists (Finset.univ.filter fun p : Fin (n + 1) × Fin (n + 1) => p.1 < p.2) R
    have h4 := num_or (P := Success word S crit A good tag Bad (n := n)) (Q := fun G =>
      ∃ p ∈ Finset.univ.filter fun p : Fin (n + 1) × Fin (n + 1) => p.1 < p.2, R p G)
    refine (num_mono ?_).trans (h4.trans (add_le_add le_rfl h3))
    rintro G ⟨k, -, h0, hi⟩
    have hi' : ∀ i, P k (runs word S crit A G i) := by
      intro i
      refine Fin.cases ?_ (fun i => ?_) i
      · rw [runs, rewind_self]; exact h0
      · have := hi i
        rw [← h0.2.1] at this
        exact this
    have hc : ∀ i, crit (A.run (toHash word S (runs word S crit A G i))) =
        crit (A.run (toHash word S (G 0))) :=
      fun i => crit_splice ((hi' i).2.1.trans h0.2.1.symm)
    let x : S := ⟨crit (A.run (toHash word S (G 0))), hS _ h0.1⟩
    have hx : ∀ i, runs word S crit A G i x = G i x := fun i => rewind_crit _ _ x rfl
    by_cases hb : ∃ i j, i < j ∧ Bad (G i x) (G j x)
    · right
      obtain ⟨i, j, hij, hb⟩ := hb
      exact ⟨(i, j), by simpa using hij, h0.1, x, rfl, hb⟩
    · left
      push Not at hb
      refine ⟨x, k.2, fun i => ⟨(hi' i).1, hc i, (hi' i).2.2⟩, fun i j hij => ?_⟩
      rw [hx, hx]
      exact hb i j hij
  · intro G k _ k' _ h h'
    exact Prod.ext (Fin.ext (h.1.2.1.symm.trans h'.1.2.1)) (h.1.2.2.symm.trans h'.1.2.2)

omit [Fintype τ] in
/-- How often two answers to the verifier's question are bad. -/
theorem num_bad (n : Nat) (h0 : 0 ≤ κ) (hκ : ∀ ω, num (Bad ω) ≤ κ) {i j : Fin (n + 1)} (hij : i < j) :
    (num fun G : Fin (n + 1) → S → Ω =>
      good (A.run (toHash word S (G 0))) (toHash word S (G 0)) ∧
      ∃ x : S, x.1 = crit (A.run (toHash word S (G 0))) ∧ Bad (G i x) (G j x)) * Fintype.card Ω ≤
    κ * ((num fun f : S → Ω => good (A.run (toHash word S f)) (toHash word S f)) *
      (Fintype.card (S → Ω) : ℝ) ^ n) := by
  classical
  obtain ⟨j, rfl⟩ := Fin.exists_succ_eq.2 (Fin.ne_zero_of_lt hij)
  have h1 := num_cons n (fun f : S → Ω => good (A.run (toHash word S f)) (toHash word S f))
    fun f g => ∃ x : S, x.1 = crit (A.run (toHash word S f)) ∧
      Bad ((Fin.cons f g : Fin (n + 1) → S → Ω) i x) (g j x)
  have h2 : ∀ f : S → Ω, (num fun g : Fin n → S → Ω =>
      ∃ x : S, x.1 = crit (A.run (toHash word S f)) ∧
      Bad ((Fin.cons f g : Fin (n + 1) → S → Ω) i x) (g j x)) * Fintype.card Ω ≤
      κ * (Fintype.card (S → Ω) : ℝ) ^ n := by
    intro f
    by_cases hx : crit (A.run (toHash word S f)) ∈ S
    · have h3 := num_hit Bad κ hκ ((j, ⟨_, hx⟩) : Fin n × S)
        (fun G => (Fin.cons f (Function.curry G) : Fin (n + 1) → S → Ω) i ⟨_, hx⟩) (by
          intro G G' h
          refine Fin.cases (fun _ => rfl) (fun i hij => ?_) i hij
          simp only [Fin.cons_succ, Function.curry]
          refine h _ fun he => ?_
          rw [Prod.mk.injEq] at he
          rw [he.1] at hij
          exact absurd hij (lt_irrefl _))
      have h4 : Fintype.card (Fin n × S → Ω) = Fintype.card (S → Ω) ^ n := by
        rw [Fintype.card_congr (Equiv.curry (Fin n) S Ω), Fintype.card_fun, Fintype.card_fin]
      rw [h4, Nat.cast_pow, ← num_equiv (Equiv.curry (Fin n) S Ω).symm] at h3
      refine le_of_eq_of_le (congrArg (· * _) (num_congr fun g => ⟨?_, fun h => ⟨⟨_, hx⟩, rfl, h⟩⟩)) h3
      rintro ⟨x, hx', hb⟩
      obtain rfl : x = ⟨_, hx⟩ := Subtype.ext hx'
      exact hb
    · have : (num fun g : Fin n → S → Ω => ∃ x : S, x.1 = crit (A.run (toHash word S f)) ∧
          Bad ((Fin.cons f g : Fin (n + 1) → S → Ω) i x) (g j x)) = 0 := by
        rw [num_eq, Finset.filter_false_of_mem]
        · simp
        · rintro g _ ⟨x, hx', -⟩
          exact hx (hx' ▸ x.2)
      rw [this, zero_mul]
      positivity
  have h3 : (num fun G : Fin (n + 1) → S → Ω =>
      good (A.run (toHash word S (G 0))) (toHash word S (G 0)) ∧
      ∃ x : S, x.1 = crit (A.run (toHash word S (G 0))) ∧ Bad (G i x) (G j.succ x)) = _ :=
    Eq.trans (num_congr fun G => by
      have : (Fin.cons (G 0) (fun i => G i.succ) : Fin (n + 1) → S → Ω) = G := Fin.cons_self_tail G
      rw [this]) h1
  rw [h3, Finset.sum_mul]
  refine (Finset.sum_le_sum (g := fun f => if good (A.run (toHash word S f)) (toHash word S f) then
    κ * (Fintype.card (S → Ω) : ℝ) ^ n else 0) fun f _ => ?_).trans (le_of_eq ?_)
  · split
    · exact h2 f
    · rw [zero_mul]
  · rw [← Finset.sum_filter, Finset.sum_const, nsmul_eq_mul, num_eq]
    ring

/-- The forking lemma.  If the verifier accepts with probability ε, then with probability at least
ε^(n+1) / K^n - m κ ε / |Ω| there are `n + 1` accepted outputs with the same question of the verifier, the
same tag and different answers; `K` is the number of places of the question times the number of tags, and `m`
the number of pairs of runs. -/
theorem prob_success [Nonempty Ω] (n : Nat) (hq : ∀ h, A.count h ≤ q)
    (hS : ∀ f : S → Ω, good (A.run (toHash word S f)) (toHash word S f) →
      crit (A.run (toHash word S f)) ∈ S) (h0 : 0 ≤ κ) (hκ : ∀ ω, num (Bad ω) ≤ κ) :
    (prob fun f : S → Ω => good (A.run (toHash word S f)) (toHash word S f)) ^ (n + 1) /
        ((q + 1 : ℕ) * Fintype.card τ : ℕ) ^ n -
      (((Finset.univ : Finset (Fin (n + 1) × Fin (n + 1))).filter fun p => p.1 < p.2).card : ℝ) * κ /
        Fintype.card Ω * (prob fun f : S → Ω => good (A.run (toHash word S f)) (toHash word S f)) ≤
    prob (Success word S crit A good tag Bad (n := n)) := by
  have h1 := num_success (word := word) (tag := tag) (Bad := Bad) n hq hS
  have h2 : ∀ p ∈ (Finset.univ : Finset (Fin (n + 1) × Fin (n + 1))).filter fun p => p.1 < p.2,
      (num fun G : Fin (n + 1) → S → Ω =>
        good (A.run (toHash word S (G 0))) (toHash word S (G 0)) ∧
        ∃ x : S, x.1 = crit (A.run (toHash word S (G 0))) ∧ Bad (G p.1 x) (G p.2 x)) ≤
      κ * ((num fun f : S → Ω => good (A.run (toHash word S f)) (toHash word S f)) *
        (Fintype.card (S → Ω) : ℝ) ^ n) / Fintype.card Ω := by
    intro p hp
    rw [le_div_iff₀ (Nat.cast_pos.2 Fintype.card_pos)]
    exact num_bad n h0 hκ (Finset.mem_filter.1 hp).2
  have h3 := h1.trans (add_le_add_right (Finset.sum_le_sum h2) _)
  rw [Finset.sum_const, nsmul_eq_mul] at h3
  unfold prob
  have hX : (0 : ℝ) < Fintype.card (S → Ω) := Nat.cast_pos.2 Fintype.card_pos
  have hW : (0 : ℝ) < Fintype.card Ω := Nat.cast_pos.2 Fintype.card_pos
  have hT : (Fintype.card (Fin (n + 1) → S → Ω) : ℝ) = (Fintype.card (S → Ω) : ℝ) ^ (n + 1) := by
    rw [Fintype.card_fun, Fintype.card_fin, Nat.cast_pow]
  rw [hT, le_div_iff₀ (by positivity)]
  generalize (Fintype.card (S → Ω) : ℝ) = X at *
  generalize (num fun f : S → Ω => good (A.run (toHash word S f)) (toHash word S f)) = N at *
  generalize (Fintype.card Ω : ℝ) = W at *
  have hn : ∀ m K : ℝ, ((N / X) ^ (n + 1) / K - m * κ / W * (N / X)) * X ^ (n + 1) =
      N ^ (n + 1) / K - m * (κ * (N * X ^ n) / W) := by
    intro m K
    rw [sub_mul, div_pow, div_mul_eq_mul_div, div_mul_cancel₀ _ (by positivity), pow_succ X n]
    field_simp
  rw [hn]
  linarith

/-- A lucky answer: the verifier's question gets one of at most `κ` answers with probability at most
(q + 1) κ / |Ω|, however the adversary asks. -/
theorem prob_lucky [Nonempty Ω] (hq : ∀ h, A.count h ≤ q) (h0 : 0 ≤ κ) (Hit : Bytes → Ω → Prop)
    (hκ : ∀ b, num (Hit b) ≤ κ) :
    (prob fun f : S → Ω => ∃ x : S, x.1 = crit (A.run (toHash word S f)) ∧ Hit x.1 (f x)) ≤
      (q + 1 : ℕ) * κ / Fintype.card Ω := by
  classical
  let R : Nat → (S → Ω) → Prop := fun i f => ∃ x : S,
    (A.trace crit (toHash word S f))[i]? = some x.1 ∧
      x.1 ∉ (A.trace crit (toHash word S f)).take i ∧ Hit x.1 (f x)
  have hX : (0 : ℝ) < Fintype.card (S → Ω) := Nat.cast_pos.2 Fintype.card_pos
  have hW : (0 : ℝ) < Fintype.card Ω := Nat.cast_pos.2 Fintype.card_pos
  have h1 : (num fun f : S → Ω => ∃ x : S, x.1 = crit (A.run (toHash word S f)) ∧ Hit x.1 (f x)) ≤
      ∑ i ∈ Finset.range (q + 1), num (R i) := by
    refine (num_mono ?_).trans (num_exists (Finset.range (q + 1)) R)
    rintro f ⟨x, hx, hh⟩
    refine ⟨A.idx crit (toHash word S f),
      Finset.mem_range.2 ((A.idx_lt _).trans_le (Nat.succ_le_succ (hq _))), x, ?_, ?_, hh⟩
    · rw [hx]; exact A.getElem?_idx _
    · rw [hx]; exact A.crit_notMem _
  have h2 : ∀ i, num (R i) * Fintype.card Ω ≤ κ * Fintype.card (S → Ω) := by
    intro i
    have h3 := sum_splice (before word S crit A i) (fun f g => before_splice i f g)
      fun f => if R i f then (1 : ℝ) else 0
    rw [← num_eq_sum] at h3
    have h4 : ∀ f : S → Ω,
        (∑ g : S → Ω, if R i (splice (before word S crit A i f) f g) then (1 : ℝ) else 0) *
          Fintype.card Ω ≤ κ * Fintype.card (S → Ω) := by
      intro f
      rw [← num_eq_sum]
      by_cases hx : ∃ x : S, (A.trace crit (toHash word S f))[i]? = some x.1 ∧
          x.1 ∉ (A.trace crit (toHash word S f)).take i
      · obtain ⟨x, hx1, hx2⟩ := hx
        obtain ⟨ω₀⟩ : Nonempty Ω := inferInstance
        refine (mul_le_mul_of_nonneg_right (num_mono (Q := fun g : S → Ω => Hit x.1 (g x)) ?_)
          hW.le).trans (num_hit (fun _ => Hit x.1) κ (fun _ => hκ _) x (fun _ => ω₀) fun _ _ _ => rfl)
        rintro g ⟨y, hy1, -, hy3⟩
        have ht := congrArg (fun l => l[i]?)
          (take_splice (word := word) (S := S) (crit := crit) (A := A) i f g)
        simp only [List.getElem?_take_of_lt (Nat.lt_succ_self _)] at ht
        rw [ht, hx1, Option.some.injEq] at hy1
        obtain rfl : x = y := Subtype.ext hy1
        have : x ∉ before word S crit A i f := by simpa [before] using hx2
        simpa [splice, this] using hy3
      · have : (num fun g : S → Ω => R i (splice (before word S crit A i f) f g)) = 0 := by
          rw [num_eq, Finset.filter_false_of_mem]
          · simp
          · rintro g _ ⟨y, hy1, hy2, -⟩
            have ht := take_splice (word := word) (S := S) (crit := crit) (A := A) i f g
            have ht' := congrArg (fun l => l[i]?) ht
            simp only [List.getElem?_take_of_lt (Nat.lt_succ_self _)] at ht'
            have ht2 := congrArg (List.take i) ht
            rw [List.take_take, List.take_take, min_eq_left (Nat.le_succ i)] at ht2
            exact hx ⟨y, ht' ▸ hy1, ht2 ▸ hy2⟩
        rw [this, zero_mul]
        positivity
    have h5 := Finset.sum_le_sum fun f (_ : f ∈ Finset.univ) => h4 f
    rw [← Finset.sum_mul, h3, Finset.sum_const, nsmul_eq_mul, Finset.card_univ, mul_assoc] at h5
    exact le_of_mul_le_mul_left h5 hX
  unfold prob
  rw [div_le_div_iff₀ hX hW]
  have h6 := Finset.sum_le_sum fun i (_ : i ∈ Finset.range (q + 1)) => h2 i
  rw [← Finset.sum_mul, Finset.sum_const, nsmul_eq_mul, Finset.card_range] at h6
  refine (mul_le_mul_of_nonneg_right h1 hW.le).trans (h6.trans (le_of_eq ?_))
  ring

omit [Fintype τ] in
/-- All strings that can be hashed, for all answers (specification; crypto.go:254-262). -/
noncomputable def _root_.Zk.Rom.Adv.asked (word : Ω → Bytes) (crit : α → Bytes) : Adv α → Finset Bytes
  | .out a => {crit a}
  | .ask b k => insert b (Finset.univ.biUnion fun ω => (k (word ω)).asked word crit)

theorem crit_mem_asked (hS : A.asked word crit ⊆ S) (f : S → Ω) :
    crit (A.run (toHash word S f)) ∈ S := by
  induction A with
  | out a => exact hS (by simp [Adv.asked, Adv.run])
  | ask b k ih =>
    have hb : b ∈ S := hS (by simp [Adv.asked])
    have ht : toHash word S f b = word (f ⟨b, hb⟩) := by simp [toHash, hb]
    rw [Adv.run, ht]
    refine ih _ (Finset.Subset.trans ?_ hS)
    intro y hy
    rw [Adv.asked, Finset.mem_insert]
    exact Or.inr (Finset.mem_biUnion.2 ⟨_, Finset.mem_univ _, hy⟩)

end

end Zk.Rom
