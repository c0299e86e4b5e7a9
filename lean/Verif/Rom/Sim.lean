import Verif.Rom.Two

/-!
# Simulated proofs under a random hash function

A distinguisher asks the hash function, then gets a proof and asks again.  In the simulated game the proof is
made without the witness, and the hash function is changed at the one string that the proof hashes.
-/

namespace Zk.Rom

open Zk Zk.Proto

/-- The hash function with another answer at one string (specification; crypto.go:254-262). -/
def program (h : Bytes → Bytes) (b d : Bytes) : Bytes → Bytes := fun x => if x = b then d else h x

/-- The distinguisher's verdict on a proof by the prover (specification; crypto.go:254-262). -/
def realBit {σ β : Type} (D1 : Adv σ) (D2 : σ → β → Adv Bool) (prove : (Bytes → Bytes) → β)
    (h : Bytes → Bytes) : Bool := (D2 (D1.run h) (prove h)).run h

/-- The distinguisher's verdict on a simulated proof, when the hash function is then changed at the string
`b` (specification; crypto.go:254-262). -/
def simBit {σ β : Type} (D1 : Adv σ) (D2 : σ → β → Adv Bool) (p : β) (b : Bytes) (d : Bytes)
    (h : Bytes → Bytes) : Bool := (D2 (D1.run h) p).run (program h b d)

/-- The string that is hashed for the proof that a prover has returned (specification;
crypto.go:254-262). -/
def askGo {P : Type} (ask : Option P → Bytes) : Go (Option P × Option Err) → Bytes
  | .ok r => ask r.1
  | _ => []

/-- What the adversary asks (specification; crypto.go:254-262). -/
def Adv.questions {α : Type} : Adv α → (Bytes → Bytes) → List Bytes
  | .out _, _ => []
  | .ask b k, h => b :: (k (h b)).questions h

theorem Adv.length_questions {α : Type} (A : Adv α) (h : Bytes → Bytes) :
    (A.questions h).length = A.count h := by
  induction A with
  | out a => rfl
  | ask b k ih => simp [questions, count, ih]

theorem Adv.run_congr {α : Type} (A : Adv α) {h h' : Bytes → Bytes}
    (hh : ∀ b ∈ A.questions h, h' b = h b) : A.run h' = A.run h := by
  induction A with
  | out a => rfl
  | ask b k ih =>
    have hb : h' b = h b := hh b (by simp [questions])
    rw [run, run, hb]
    exact ih (h b) fun c hc => hh c (by simp [questions, hc])

theorem program_toHash (S : Finset Bytes) (f : S → Word) (x : S) (ω : Word) :
    program (hashOf S f) x.1 (bytesOf ω) = hashOf S (Function.update f x ω) := by
  classical
  funext b
  unfold program hashOf toHash
  by_cases hb : b ∈ S
  · rw [dif_pos hb, dif_pos hb]
    by_cases he : b = x.1
    · have : (⟨b, hb⟩ : S) = x := Subtype.ext he
      rw [if_pos he, this, Function.update_self]
    · have : (⟨b, hb⟩ : S) ≠ x := fun h => he (congrArg Subtype.val h)
      rw [if_neg he, Function.update_of_ne this]
  · rw [dif_neg hb, dif_neg hb, if_neg]
    rintro rfl
    exact hb x.2

theorem num_prod {X Y : Type} [Fintype X] [Fintype Y] (P : X × Y → Prop) :
    num P = ∑ x, num fun y => P (x, y) := by
  classical
  simp only [num_eq_sum, Fintype.sum_prod_type]

theorem num_le_add {X : Type} [Fintype X] {P Q R : X → Prop} (h : ∀ x, P x → Q x ∨ R x) :
    num P ≤ num Q + num R := (num_mono h).trans num_or

/-- The two games differ only if the string of the proof was asked before. -/
theorem sim_close {σ β U : Type} [Fintype U] [Nonempty U] (S : Finset Bytes) (D1 : Adv σ)
    (D2 : σ → β → Adv Bool) (q : Nat) (hq : ∀ h, D1.count h ≤ q) (com : U → S) (pf : U → Word → β)
    (e : Word → U ≃ U) (κ : Nat) (hκ : ∀ b : Bytes, (num fun u => (com u).1 = b) ≤ κ) :
    |(prob fun z : (S → Word) × U =>
        (D2 (D1.run (hashOf S z.1)) (pf z.2 (z.1 (com z.2)))).run (hashOf S z.1) = true) -
      (prob fun z : (S → Word) × U × Word =>
        (D2 (D1.run (hashOf S z.1)) (pf (e z.2.2 z.2.1) z.2.2)).run
          (hashOf S (Function.update z.1 (com (e z.2.2 z.2.1)) z.2.2)) = true)| ≤
      (q * κ : ℕ) / Fintype.card U := by
  classical
  set Real : (S → Word) × U → Prop := fun z =>
    (D2 (D1.run (hashOf S z.1)) (pf z.2 (z.1 (com z.2)))).run (hashOf S z.1) = true with hReal
  set Sim : (S → Word) × U × Word → Prop := fun z =>
    (D2 (D1.run (hashOf S z.1)) (pf (e z.2.2 z.2.1) z.2.2)).run
      (hashOf S (Function.update z.1 (com (e z.2.2 z.2.1)) z.2.2)) = true with hSim
  let Mid : (S → Word) × U × Word → Prop := fun z =>
    Real (Function.update z.1 (com (e z.2.2 z.2.1)) z.2.2, e z.2.2 z.2.1)
  let Old : (S → Word) × U × Word → Prop := fun z =>
    (com (e z.2.2 z.2.1)).1 ∈ D1.questions (hashOf S z.1)
  have hsame : ∀ z, ¬ Old z → (Sim z ↔ Mid z) := by
    rintro ⟨f, s, ω⟩ hz
    have : D1.run (hashOf S (Function.update f (com (e ω s)) ω)) = D1.run (hashOf S f) := by
      rw [← program_toHash]
      refine D1.run_congr fun b hb => if_neg ?_
      rintro rfl
      exact hz hb
    simp only [hSim, hReal, Mid, this, Function.update_self]
  let φ : ((S → Word) × U) × Word ≃ (S → Word) × U × Word :=
    { toFun := fun z => (Function.update z.1.1 (com z.1.2) z.2,
        (e (z.1.1 (com z.1.2))).symm z.1.2, z.1.1 (com z.1.2))
      invFun := fun z => ((Function.update z.1 (com (e z.2.2 z.2.1)) z.2.2, e z.2.2 z.2.1),
        z.1 (com (e z.2.2 z.2.1)))
      left_inv := by
        rintro ⟨⟨f, u⟩, ω⟩
        simp
      right_inv := by
        rintro ⟨f, s, ω⟩
        simp }
  have hmid : num Mid = num Real * Fintype.card Word := by
    rw [← num_equiv φ, num_prod]
    have : ∀ z : (S → Word) × U, (num fun ω => Mid (φ (z, ω))) =
        if Real z then (Fintype.card Word : ℝ) else 0 := by
      intro z
      have h1 : ∀ ω, Mid (φ (z, ω)) ↔ Real z := by
        intro ω
        have := congrArg Prod.fst (φ.left_inv (z, ω))
        exact iff_of_eq (congrArg Real this)
      rw [num_congr h1]
      split
      · rename_i h
        rw [num_eq, Finset.filter_true_of_mem fun _ _ => h, Finset.card_univ]
      · rename_i h
        rw [num_eq, Finset.filter_false_of_mem fun _ _ => h]
        simp
    rw [Finset.sum_congr rfl fun z _ => this z, ← Finset.sum_filter, Finset.sum_const, nsmul_eq_mul,
      num_eq]
  have hold : num Old ≤ (q * κ : ℕ) * (Fintype.card (S → Word) * Fintype.card Word : ℝ) := by
    have h1 : ∀ (f : S → Word) (ω : Word), (num fun s => Old (f, s, ω)) ≤ (q * κ : ℕ) := by
      intro f ω
      have h2 : (num fun s => Old (f, s, ω)) = num fun u => (com u).1 ∈ D1.questions (hashOf S f) :=
        num_equiv (e ω) fun u => (com u).1 ∈ D1.questions (hashOf S f)
      rw [h2]
      refine (num_mono (Q := fun u => ∃ b ∈ (D1.questions (hashOf S f)).toFinset, (com u).1 = b)
        (fun u hu => ⟨_, List.mem_toFinset.2 hu, rfl⟩)).trans ((num_exists _ _).trans
        ((Finset.sum_le_card_nsmul _ _ _ fun b _ => hκ b).trans ?_))
      rw [nsmul_eq_mul, Nat.cast_mul]
      refine mul_le_mul_of_nonneg_right (Nat.cast_le.2 ?_) (Nat.cast_nonneg _)
      refine (List.toFinset_card_le _).trans ?_
      rw [D1.length_questions]
      exact hq _
    have h3 : num Old = ∑ f : S → Word, ∑ ω : Word, num fun s => Old (f, s, ω) := by
      rw [num_prod]
      refine Finset.sum_congr rfl fun f _ => ?_
      rw [← num_equiv (Equiv.prodComm Word U), num_prod]
      rfl
    rw [h3]
    refine (Finset.sum_le_sum fun f _ => Finset.sum_le_sum fun ω _ => h1 f ω).trans (le_of_eq ?_)
    simp only [Finset.sum_const, Finset.card_univ, nsmul_eq_mul]
    ring
  have h1 : num Sim ≤ num Mid + num Old := num_le_add fun z hz => by
    by_cases h : Old z
    · exact Or.inr h
    · exact Or.inl ((hsame z h).1 hz)
  have h2 : num Mid ≤ num Sim + num Old := num_le_add fun z hz => by
    by_cases h : Old z
    · exact Or.inr h
    · exact Or.inl ((hsame z h).2 hz)
  have hF : (0 : ℝ) < Fintype.card (S → Word) := Nat.cast_pos.2 Fintype.card_pos
  have hU : (0 : ℝ) < Fintype.card U := Nat.cast_pos.2 Fintype.card_pos
  have hW : (0 : ℝ) < Fintype.card Word := Nat.cast_pos.2 Fintype.card_pos
  unfold prob
  rw [Fintype.card_prod, Fintype.card_prod, Fintype.card_prod]
  push_cast at hold ⊢
  rw [hmid] at h1 h2
  generalize (Fintype.card (S → Word) : ℝ) = F at *
  generalize (Fintype.card U : ℝ) = u at *
  generalize (Fintype.card Word : ℝ) = W at *
  rw [show num Real / (F * u) - num Sim / (F * (u * W)) =
    (num Real * W - num Sim) / (F * (u * W)) by field_simp, abs_div, abs_of_pos (by positivity :
      (0 : ℝ) < F * (u * W)), div_le_div_iff₀ (by positivity) hU]
  have h4 : |num Real * W - num Sim| ≤ (q : ℝ) * κ * (F * W) := by
    rw [abs_le]
    constructor <;> linarith
  calc |num Real * W - num Sim| * u ≤ (q : ℝ) * κ * (F * W) * u :=
        mul_le_mul_of_nonneg_right h4 hU.le
    _ = _ := by ring

/-- A prover whose only question is the string of its proof, and a simulator: with the answer `ω` the
simulator makes of `s` what the prover makes of `e ω s` (specification; crypto.go:254-262). -/
structure Simulation (S : Finset Bytes) (U β : Type) [Fintype U] where
  /-- the string that the proof hashes -/
  com : U → S
  /-- the proof, given the answer -/
  pf : U → Bytes → β
  /-- the draw that a simulated proof has -/
  e : Word → U ≃ U
  /-- how many draws have the same string -/
  κ : Nat
  hκ : ∀ b : Bytes, (num fun u => (com u).1 = b) ≤ κ
  /-- the prover -/
  prove : U → (Bytes → Bytes) → β
  /-- the simulator -/
  simu : U → Word → β
  /-- the string, read off the proof -/
  ask : β → Bytes
  hp : ∀ u h, prove u h = pf u (h (com u).1)
  hs : ∀ s ω, simu s ω = pf (e ω s) (bytesOf ω)
  ha : ∀ u d, ask (pf u d) = (com u).1

theorem hashOf_mem (S : Finset Bytes) (f : S → Word) (x : S) : hashOf S f x.1 = bytesOf (f x) := by
  rw [hashOf, toHash, dif_pos x.2]

/-- The same for a prover, a simulator and the string that a proof hashes. -/
theorem zk_close {σ β U : Type} [Fintype U] [Nonempty U] (S : Finset Bytes) (Z : Simulation S U β)
    (D1 : Adv σ) (D2 : σ → β → Adv Bool) (q : Nat) (hq : ∀ h, D1.count h ≤ q) :
    |(prob fun z : (S → Word) × U => realBit D1 D2 (Z.prove z.2) (hashOf S z.1) = true) -
      (prob fun z : (S → Word) × U × Word => simBit D1 D2 (Z.simu z.2.1 z.2.2)
        (Z.ask (Z.simu z.2.1 z.2.2)) (bytesOf z.2.2) (hashOf S z.1) = true)| ≤
      (q * Z.κ : ℕ) / Fintype.card U := by
  have h := sim_close S D1 D2 q hq Z.com (fun u ω => Z.pf u (bytesOf ω)) Z.e Z.κ Z.hκ
  have h1 : (fun z : (S → Word) × U => realBit D1 D2 (Z.prove z.2) (hashOf S z.1) = true) =
      fun z => (D2 (D1.run (hashOf S z.1)) (Z.pf z.2 (bytesOf (z.1 (Z.com z.2))))).run
        (hashOf S z.1) = true := by
    funext z
    rw [realBit, Z.hp, hashOf_mem]
  have h2 : (fun z : (S → Word) × U × Word => simBit D1 D2 (Z.simu z.2.1 z.2.2)
        (Z.ask (Z.simu z.2.1 z.2.2)) (bytesOf z.2.2) (hashOf S z.1) = true) =
      fun z => (D2 (D1.run (hashOf S z.1)) (Z.pf (Z.e z.2.2 z.2.1) (bytesOf z.2.2))).run
          (hashOf S (Function.update z.1 (Z.com (Z.e z.2.2 z.2.1)) z.2.2)) = true := by
    funext z
    rw [simBit, Z.hs, Z.ha, program_toHash]
  rw [h1, h2]
  exact h

/-- Adding a number modulo N (specification; gspfs.go:64-66). -/
def addFin (N : Nat) (hN : 0 < N) (k : Int) (a : Fin N) : Fin N :=
  ⟨((((a : Nat) : Int) + k) % (N : Int)).toNat, by
    have h1 := Int.emod_nonneg (((a : Nat) : Int) + k) (show (N : Int) ≠ 0 by omega)
    have h2 := Int.emod_lt_of_pos (((a : Nat) : Int) + k) (show (0 : Int) < N by omega)
    omega⟩

theorem val_addFin (N : Nat) (hN : 0 < N) (k : Int) (a : Fin N) :
    ((addFin N hN k a : Nat) : Int) = (((a : Nat) : Int) + k) % (N : Int) :=
  Int.toNat_of_nonneg (Int.emod_nonneg _ (by omega))

theorem addFin_add (N : Nat) (hN : 0 < N) (k l : Int) (h : k + l = 0) (a : Fin N) :
    addFin N hN k (addFin N hN l a) = a := by
  have : ((addFin N hN k (addFin N hN l a) : Nat) : Int) = (a : Nat) := by
    rw [val_addFin, val_addFin, Int.emod_add_emod, add_assoc, add_comm l k, h, add_zero]
    exact Int.emod_eq_of_lt (by omega) (by have := a.2; omega)
  exact Fin.ext (by omega)

/-- Adding a number modulo N, with its inverse (specification; gspfs.go:64-66). -/
def shiftFin (N : Nat) (hN : 0 < N) (k : Int) : Fin N ≃ Fin N where
  toFun := addFin N hN k
  invFun := addFin N hN (-k)
  left_inv := addFin_add N hN _ _ (by omega)
  right_inv := addFin_add N hN _ _ (by omega)

theorem val_shiftFin (N : Nat) (hN : 0 < N) (k : Int) (a : Fin N) :
    ((shiftFin N hN k a : Nat) : Int) = (((a : Nat) : Int) + k) % (N : Int) := val_addFin N hN k a

/-- If the string and a tag determine the draw, few draws have the same string. -/
theorem num_com {U T : Type} [Fintype U] [Fintype T] (com : U → Bytes) (tag : U → T)
    (h : ∀ u v, com u = com v → tag u = tag v → u = v) (b : Bytes) :
    (num fun u => com u = b) ≤ (Fintype.card T : ℕ) := by
  classical
  rw [num_eq]
  refine Nat.cast_le.2 ?_
  rw [← Finset.card_univ]
  refine Finset.card_le_card_of_injOn tag (fun _ _ => Finset.mem_coe.2 (Finset.mem_univ _)) ?_
  intro u hu v hv ht
  have hu := (Finset.mem_filter.1 (Finset.mem_coe.1 hu)).2
  have hv := (Finset.mem_filter.1 (Finset.mem_coe.1 hv)).2
  exact h u v (hu.trans hv.symm) ht

end Zk.Rom
