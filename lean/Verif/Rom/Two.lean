import Verif.Rom.Word

/-!
# Proofs with two random commitments

Helpers for equivalence, consistency and disjunctive proofs, whose verifiers hash the statement and two
random commitments.
-/

namespace Zk.Rom

open Zk Zk.Proto

variable {cp : Params} {E : Type} [AddCommGroup E]

/-- The numbers of bytes of the coordinates of two points, except for the last.  See crypto.go:151-153. -/
def tag2 (p q : ECPoint) : Fin 33 × Fin 33 × Fin 33 := (size p.X, size p.Y, size q.X)

/-- Same hashed string and same sizes: same random commitments. -/
theorem same_commits (L : Lawful cp E) (hs : Small L) (pre : List E) {t1 t2 t1' t2' : E}
    (hk : hashed ((pre ++ [t1, t2]).map L.pe) = hashed ((pre ++ [t1', t2']).map L.pe))
    (ht : tag2 (L.pe t1) (L.pe t2) = tag2 (L.pe t1') (L.pe t2')) : t1 = t1' ∧ t2 = t2' := by
  rw [hashed_pe, hashed_pe] at hk
  simp only [List.map_append, List.flatten_append, List.map_cons, List.map_nil, List.flatten_cons,
    List.flatten_nil, List.append_nil] at hk
  simp only [tag2, Prod.mk.injEq] at ht
  exact two_points L hs (List.append_cancel_left hk) ht.1 ht.2.1 ht.2.2

/-- The same challenge.  See crypto.go:254-262. -/
def SameChal (N : Nat) (ω ω' : Word) : Prop := chalOf N ω = chalOf N ω'

theorem num_sameChal (N : Nat) (ω : Word) : num (SameChal N ω) ≤ perChal N :=
  (num_congr fun _ => eq_comm).trans_le (num_chal N (chalOf N ω))

theorem card_tag2 : Fintype.card (Fin 33 × Fin 33 × Fin 33) = 35937 := by
  simp [Fintype.card_prod]

theorem mult_pe_none (L : Lawful cp E) (a : E) : mult cp (L.pe a) none = .panic := by
  rw [mult, if_neg (L.pe_ne_nil a)]; simp

/-- What is accepted only for at most `m` challenges per pair of random commitments. -/
theorem num_lucky (L : Lawful cp E) (hs : Small L) (pre : List E) (C : E → E → Set Int) (m : Nat)
    (hC : ∀ t1 t2, (C t1 t2).encard ≤ m) (b : Bytes) :
    (num fun ω : Word => ∃ t1 t2, b = hashed ((pre ++ [t1, t2]).map L.pe) ∧
      chalOf cp.C.N ω ∈ C t1 t2) ≤ (35937 * m * perChal cp.C.N : ℕ) := by
  let R : Fin 33 × Fin 33 × Fin 33 → Word → Prop := fun t ω =>
    ∃ t1 t2, tag2 (L.pe t1) (L.pe t2) = t ∧ b = hashed ((pre ++ [t1, t2]).map L.pe) ∧
      chalOf cp.C.N ω ∈ C t1 t2
  have h1 := num_exists Finset.univ R
  have h2 : ∀ t, num (R t) ≤ m * perChal cp.C.N := by
    intro t
    by_cases h : ∃ t1 t2, tag2 (L.pe t1) (L.pe t2) = t ∧ b = hashed ((pre ++ [t1, t2]).map L.pe)
    · obtain ⟨t1, t2, ht, hb⟩ := h
      refine (num_mono ?_).trans (num_chals cp.C.N (C t1 t2) m (hC t1 t2))
      rintro ω ⟨t1', t2', ht', hb', hc⟩
      obtain ⟨rfl, rfl⟩ := same_commits L hs pre (hb'.symm.trans hb) (ht'.trans ht.symm)
      exact hc
    · refine (num_mono (Q := fun ω => chalOf cp.C.N ω ∈ (∅ : Set Int)) ?_).trans
        (num_chals cp.C.N ∅ m (by simp))
      rintro ω ⟨t1', t2', ht', hb', -⟩
      exact (h ⟨t1', t2', ht', hb'⟩).elim
  refine (num_mono ?_).trans (h1.trans ((Finset.sum_le_card_nsmul _ _ _ fun t _ => h2 t).trans ?_))
  · rintro ω ⟨t1, t2, h⟩
    exact ⟨_, Finset.mem_univ _, t1, t2, rfl, h⟩
  · rw [Finset.card_univ, card_tag2, nsmul_eq_mul]
    push_cast
    rw [mul_assoc]

end Zk.Rom
