import Verif.Rom.Sim

/-!
# Many proofs under a random hash function

A distinguisher asks the hash function and asks for proofs, in any order.
-/

namespace Zk.Rom

open Zk Zk.Proto

/-- Who asks the hash function and asks for proofs, and then gives a verdict (specification;
crypto.go:254-262). -/
inductive Dist (β : Type) where
  | out (b : Bool)
  | ask (b : Bytes) (k : Bytes → Dist β)
  | prove (k : β → Dist β)

namespace Dist

variable {β U : Type}

/-- Whatever the answers and the proofs, the hash function is asked at most `q` times (specification;
crypto.go:254-262). -/
def AtMost : Dist β → Nat → Prop
  | .out _, _ => True
  | .ask _ k, q => ∃ q', q = q' + 1 ∧ ∀ d, (k d).AtMost q'
  | .prove k, q => ∀ p, (k p).AtMost q

/-- The verdict when a prover makes the proofs, each with new draws; who asks for more than `n` proofs gets
the verdict `false` (specification; crypto.go:254-262). -/
def real (prove : U → (Bytes → Bytes) → β) : Dist β → {n : Nat} → (Fin n → U) → (Bytes → Bytes) → Bool
  | .out b, _, _, _ => b
  | .ask b k, _, us, h => (k (h b)).real prove us h
  | .prove _, 0, _, _ => false
  | .prove k, _ + 1, us, h => (k (prove (us 0) h)).real prove (fun i => us i.succ) h

/-- The verdict when a simulator makes the proofs; after each proof the hash function is changed at the string
of the proof (specification; crypto.go:254-262). -/
def sim (simu : U → Word → β) (str : β → Bytes) :
    Dist β → {n : Nat} → (Fin n → U × Word) → (Bytes → Bytes) → Bool
  | .out b, _, _, _ => b
  | .ask b k, _, us, h => (k (h b)).sim simu str us h
  | .prove _, 0, _, _ => false
  | .prove k, _ + 1, us, h => (k (simu (us 0).1 (us 0).2)).sim simu str (fun i => us i.succ)
      (program h (str (simu (us 0).1 (us 0).2)) (bytesOf (us 0).2))

/-- What happens before the first proof (specification; crypto.go:254-262). -/
def first : Dist β → Adv (Bool ⊕ (β → Dist β))
  | .out b => .out (.inl b)
  | .ask b k => .ask b fun d => (k d).first
  | .prove k => .out (.inr k)

theorem count_first (D : Dist β) {q : Nat} (h : D.AtMost q) (hash : Bytes → Bytes) :
    D.first.count hash ≤ q := by
  induction D generalizing q with
  | out b => exact Nat.zero_le _
  | ask b k ih =>
    obtain ⟨q', rfl, hk⟩ := h
    exact Nat.succ_le_succ (ih _ (hk _))
  | prove k ih => exact Nat.zero_le _

/-- The distinguisher makes the first proof itself (specification; crypto.go:254-262). -/
def inline (com : Bytes) (pf : Bytes → β) : Dist β → Dist β
  | .out b => .out b
  | .ask b k => .ask b fun d => (k d).inline com pf
  | .prove k => .ask com fun d => k (pf d)

theorem AtMost.mono {D : Dist β} {q q' : Nat} (h : D.AtMost q) (hq : q ≤ q') : D.AtMost q' := by
  induction D generalizing q q' with
  | out b => trivial
  | ask b k ih =>
    obtain ⟨m, rfl, hk⟩ := h
    exact ⟨q' - 1, by omega, fun d => ih d (hk d) (by omega)⟩
  | prove k ih => exact fun p => ih p (h p) hq

theorem AtMost.inline {D : Dist β} {q : Nat} (h : D.AtMost q) (com : Bytes) (pf : Bytes → β) :
    (D.inline com pf).AtMost (q + 1) := by
  induction D generalizing q with
  | out b => trivial
  | ask b k ih =>
    obtain ⟨m, rfl, hk⟩ := h
    exact ⟨m + 1, rfl, fun d => ih d (hk d)⟩
  | prove k ih => exact ⟨q, rfl, fun d => h (pf d)⟩

theorem real_cons {S : Finset Bytes} [Fintype U] (Z : Simulation S U β) (D : Dist β) {n : Nat}
    (us : Fin (n + 1) → U) (h : Bytes → Bytes) :
    D.real Z.prove us h = (D.inline (Z.com (us 0)).1 (Z.pf (us 0))).real Z.prove (fun i => us i.succ) h := by
  induction D with
  | out b => rfl
  | ask b k ih => exact ih _
  | prove k ih => simp only [real, inline, Z.hp]

/-- The rest of the simulated game as an adversary, with the changed answers in a table (specification;
crypto.go:254-262). -/
def table (simu : U → Word → β) (str : β → Bytes) :
    Dist β → {n : Nat} → (Fin n → U × Word) → List (Bytes × Bytes) → Adv Bool
  | .out b, _, _, _ => .out b
  | .ask b k, _, us, T => match T.lookup b with
    | some d => (k d).table simu str us T
    | none => .ask b fun d => (k d).table simu str us T
  | .prove _, 0, _, _ => .out false
  | .prove k, _ + 1, us, T => (k (simu (us 0).1 (us 0).2)).table simu str (fun i => us i.succ)
      ((str (simu (us 0).1 (us 0).2), bytesOf (us 0).2) :: T)

/-- The hash function with the answers of a table (specification; crypto.go:254-262). -/
def override (T : List (Bytes × Bytes)) (h : Bytes → Bytes) : Bytes → Bytes :=
  fun b => (T.lookup b).getD (h b)

theorem run_table (simu : U → Word → β) (str : β → Bytes) (D : Dist β) {n : Nat} (us : Fin n → U × Word)
    (T : List (Bytes × Bytes)) (h : Bytes → Bytes) :
    (D.table simu str us T).run h = D.sim simu str us (override T h) := by
  induction D generalizing n T with
  | out b => simp only [table, sim, Adv.run]
  | ask b k ih =>
    simp only [table, sim, override]
    split
    · rename_i d hd
      rw [ih, hd]
      rfl
    · rename_i hd
      rw [Adv.run, ih, hd]
      rfl
  | prove k ih =>
    cases n with
    | zero => simp only [table, sim, Adv.run]
    | succ n =>
      simp only [table, sim]
      rw [ih]
      congr 1
      funext b
      simp only [override, program, List.lookup]
      split <;> simp_all

theorem sim_nil (simu : U → Word → β) (str : β → Bytes) (prove : U → (Bytes → Bytes) → β) (D : Dist β)
    (us : Fin 0 → U) (ss : Fin 0 → U × Word) (h : Bytes → Bytes) :
    D.real prove us h = D.sim simu str ss h := by
  induction D with
  | out b => simp only [real, sim]
  | ask b k ih => exact ih _
  | prove k ih => simp only [real, sim]

/-- What happens after the first proof (specification; crypto.go:254-262). -/
def after (simu : U → Word → β) (str : β → Bytes) {n : Nat} (ss : Fin n → U × Word) :
    Bool ⊕ (β → Dist β) → β → Adv Bool
  | .inl b, _ => .out b
  | .inr k, p => (k p).table simu str ss []

theorem override_nil (h : Bytes → Bytes) : override [] h = h := rfl

theorem realBit_first {S : Finset Bytes} [Fintype U] (Z : Simulation S U β) (D : Dist β) {n : Nat} (u : U)
    (ss : Fin n → U × Word) (h : Bytes → Bytes) :
    (D.inline (Z.com u).1 (Z.pf u)).sim Z.simu Z.ask ss h =
      realBit D.first (after Z.simu Z.ask ss) (Z.prove u) h := by
  induction D with
  | out b => simp only [inline, sim, realBit, first, Adv.run, after]
  | ask b k ih => exact ih _
  | prove k ih =>
    simp only [inline, sim, realBit, first, Adv.run, after, run_table, override_nil, Z.hp]

theorem simBit_first {S : Finset Bytes} [Fintype U] (Z : Simulation S U β) (D : Dist β) {n : Nat}
    (ss : Fin (n + 1) → U × Word) (h : Bytes → Bytes) :
    D.sim Z.simu Z.ask ss h = simBit D.first (after Z.simu Z.ask fun i => ss i.succ)
      (Z.simu (ss 0).1 (ss 0).2) (Z.ask (Z.simu (ss 0).1 (ss 0).2)) (bytesOf (ss 0).2) h := by
  induction D with
  | out b => simp only [sim, simBit, first, Adv.run, after]
  | ask b k ih => exact ih _
  | prove k ih => simp only [sim, simBit, first, Adv.run, after, run_table, override_nil]

end Dist

theorem prob_equiv {X Y : Type} [Fintype X] [Fintype Y] (e : X ≃ Y) (R : Y → Prop) :
    (prob fun x => R (e x)) = prob R := by
  rw [prob, prob, num_equiv, Fintype.card_congr e]

/-- Two probabilities that are close for all values of one part of the draws are close. -/
theorem prob_avg {X X' Y : Type} [Fintype X] [Fintype X'] [Fintype Y] [Nonempty Y] {P : X × Y → Prop}
    {Q : X' × Y → Prop} {c : ℝ}
    (h : ∀ y, |(prob fun x => P (x, y)) - prob fun x => Q (x, y)| ≤ c) : |prob P - prob Q| ≤ c := by
  have h1 : ∀ {X : Type} [Fintype X] (P : X × Y → Prop),
      prob P = (∑ y, prob fun x => P (x, y)) / Fintype.card Y := by
    intro X _ P
    have : num P = ∑ y, num fun x => P (x, y) := by
      rw [← num_equiv (Equiv.prodComm Y X), num_prod]
      rfl
    simp only [prob]
    rw [this, ← Finset.sum_div, Fintype.card_prod, Nat.cast_mul, div_div]
  have hY : (0 : ℝ) < Fintype.card Y := Nat.cast_pos.2 Fintype.card_pos
  rw [h1 P, h1 Q, ← sub_div, ← Finset.sum_sub_distrib, abs_div, abs_of_pos hY, div_le_iff₀ hY]
  refine (Finset.abs_sum_le_sum_abs _ _).trans ((Finset.sum_le_card_nsmul _ _ c fun y _ => h y).trans ?_)
  rw [Finset.card_univ, nsmul_eq_mul, mul_comm]

/-- Hybrids: the proofs are simulated one after the other. -/
theorem many_close {β U : Type} [Fintype U] [Nonempty U] (S : Finset Bytes) (Z : Simulation S U β) (n : Nat) :
    ∀ (D : Dist β) (q : Nat), D.AtMost q →
    |(prob fun z : (S → Word) × (Fin n → U) => D.real Z.prove z.2 (hashOf S z.1) = true) -
      (prob fun z : (S → Word) × (Fin n → U × Word) =>
        D.sim Z.simu Z.ask z.2 (hashOf S z.1) = true)| ≤
      (n * (q + n) * Z.κ : ℕ) / Fintype.card U := by
  classical
  induction n with
  | zero =>
    intro D q _
    have h : ∀ (X : Type) [Fintype X] [Unique X] (P : (S → Word) × X → Prop),
        prob P = prob fun f => P (f, default) := by
      intro X _ _ P
      exact (prob_equiv (Equiv.prodUnique (S → Word) X).symm P).symm
    rw [h, h]
    simp only [D.sim_nil Z.simu Z.ask Z.prove (default : Fin 0 → U) (default : Fin 0 → U × Word), sub_self,
      abs_zero]
    positivity
  | succ n ih =>
    intro D q hD
    have hU : (0 : ℝ) < Fintype.card U := Nat.cast_pos.2 Fintype.card_pos
    -- the first proof is made by the distinguisher
    let M : ((S → Word) × (Fin n → U × Word)) × U → Prop := fun z =>
      (D.inline (Z.com z.2).1 (Z.pf z.2)).sim Z.simu Z.ask z.1.2 (hashOf S z.1.1) = true
    have e1 : (prob fun z : (S → Word) × (Fin (n + 1) → U) => D.real Z.prove z.2 (hashOf S z.1) = true) =
        prob fun z : ((S → Word) × (Fin n → U)) × U =>
          (D.inline (Z.com z.2).1 (Z.pf z.2)).real Z.prove z.1.2 (hashOf S z.1.1) = true := by
      let φ : ((S → Word) × (Fin n → U)) × U ≃ (S → Word) × (Fin (n + 1) → U) :=
        { toFun := fun z => (z.1.1, Fin.cons z.2 z.1.2)
          invFun := fun z => ((z.1, fun i => z.2 i.succ), z.2 0)
          left_inv := fun z => by simp
          right_inv := fun z => by
            refine Prod.ext rfl ?_
            exact Fin.cons_self_tail z.2 }
      rw [← prob_equiv φ]
      congr 1
      funext z
      rw [Dist.real_cons]
      rfl
    have h1 := prob_avg (X := (S → Word) × (Fin n → U)) (X' := (S → Word) × (Fin n → U × Word)) (Y := U)
      (P := fun z => (D.inline (Z.com z.2).1 (Z.pf z.2)).real Z.prove z.1.2 (hashOf S z.1.1) = true)
      (Q := M) (c := ((n * (q + 1 + n) * Z.κ : ℕ) : ℝ) / Fintype.card U)
      fun u => ih (D.inline (Z.com u).1 (Z.pf u)) (q + 1) (hD.inline _ _)
    have e2 : prob M = prob fun z : ((S → Word) × U) × (Fin n → U × Word) =>
        realBit D.first (Dist.after Z.simu Z.ask z.2) (Z.prove z.1.2) (hashOf S z.1.1) = true := by
      let φ : ((S → Word) × (Fin n → U × Word)) × U ≃ ((S → Word) × U) × (Fin n → U × Word) :=
        { toFun := fun z => ((z.1.1, z.2), z.1.2)
          invFun := fun z => ((z.1.1, z.2), z.1.2)
          left_inv := fun _ => rfl
          right_inv := fun _ => rfl }
      rw [← prob_equiv φ]
      congr 1
      funext z
      simp only [M]
      rw [Dist.realBit_first]
      rfl
    have e3 : (prob fun z : (S → Word) × (Fin (n + 1) → U × Word) =>
        D.sim Z.simu Z.ask z.2 (hashOf S z.1) = true) =
        prob fun z : ((S → Word) × U × Word) × (Fin n → U × Word) =>
          simBit D.first (Dist.after Z.simu Z.ask z.2) (Z.simu z.1.2.1 z.1.2.2)
            (Z.ask (Z.simu z.1.2.1 z.1.2.2)) (bytesOf z.1.2.2) (hashOf S z.1.1) = true := by
      let φ : ((S → Word) × U × Word) × (Fin n → U × Word) ≃ (S → Word) × (Fin (n + 1) → U × Word) :=
        { toFun := fun z => (z.1.1, Fin.cons z.1.2 z.2)
          invFun := fun z => ((z.1, z.2 0), fun i => z.2 i.succ)
          left_inv := fun z => by simp
          right_inv := fun z => by
            refine Prod.ext rfl ?_
            exact Fin.cons_self_tail z.2 }
      rw [← prob_equiv φ]
      congr 1
      funext z
      rw [Dist.simBit_first]
      rfl
    have h2 := prob_avg (X := (S → Word) × U) (X' := (S → Word) × U × Word) (Y := Fin n → U × Word)
      (P := fun z => realBit D.first (Dist.after Z.simu Z.ask z.2) (Z.prove z.1.2) (hashOf S z.1.1) = true)
      (Q := fun z => simBit D.first (Dist.after Z.simu Z.ask z.2) (Z.simu z.1.2.1 z.1.2.2)
            (Z.ask (Z.simu z.1.2.1 z.1.2.2)) (bytesOf z.1.2.2) (hashOf S z.1.1) = true)
      (c := ((q * Z.κ : ℕ) : ℝ) / Fintype.card U)
      fun ss => zk_close S Z D.first (Dist.after Z.simu Z.ask ss) q (D.count_first hD)
    rw [e1, e3]
    rw [e2] at h1
    refine (abs_sub_le _ _ _).trans ((add_le_add h1 h2).trans ?_)
    rw [← add_div, ← Nat.cast_add]
    refine div_le_div_of_nonneg_right (Nat.cast_le.2 ?_) hU.le
    nlinarith [Nat.zero_le (Z.κ * n), Nat.zero_le Z.κ]

end Zk.Rom
