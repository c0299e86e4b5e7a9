import Verif.Curve.Scalar

/-!
# `ScalarBaseMult`: the loop, and a check of the tables
-/

namespace Zk.Curve

open Zk Zk.Field

/-! ### The loop over a correct table -/

/-- Every entry of the table is the multiple of `B` it should be.  See btcec/precompute.go:23-67. -/
def TabOk (tab : Nat → UInt8 → Jac) (B : E) : Prop :=
  ∀ b, b < 32 → ∀ i : UInt8, JR (tab b i) ((i.toNat * 256 ^ (31 - b)) • B)

theorem baseLoop_spec {tab : Nat → UInt8 → Jac} {B : E} (h : TabOk tab B) (diff : ℕ) :
    ∀ (k : Bytes) (i : ℕ) (q : Jac) (Q : E), diff + i + k.length = 32 → JR q Q →
      JR (baseLoop tab diff i q k) (Q + setBytes k • B)
  | [], i, q, Q, _, hq => by
    rw [baseLoop, show setBytes [] = 0 from rfl, zero_nsmul, add_zero]; exact hq
  | c :: k, i, q, Q, hl, hq => by
    rw [List.length_cons] at hl
    have h1 := (addJacobian_spec hq (h (diff + i) (by omega) c)).1
    have h2 := baseLoop_spec h diff k (i + 1) _ _ (by omega) h1
    rw [baseLoop, setBytes_cons, add_nsmul, ← add_assoc]
    rwa [show 31 - (diff + i) = k.length by omega] at h2

theorem scalarBaseMult_spec {tab : Nat → UInt8 → Jac} {B : E} (h : TabOk tab B) (k : Bytes) :
    scalarBaseMult tab k = .ok (enc (setBytes k • B)) := by
  have hl := moduloReduce_length k
  rw [scalarBaseMult]
  dsimp only
  rw [if_neg (by omega)]
  have := (baseLoop_spec h (32 - (moduloReduce k).length) (moduloReduce k) 0 ⟨zero, zero, zero⟩ 0
    (by omega) JR_inf).affine
  rw [this, zero_add, ← mod_N_smul (setBytes k), ← moduloReduce_mod, mod_N_smul]
  rfl

/-! ### Checking a row -/

theorem tabWord_toNat (e k : ℕ) : (tabWord e k).toNat = wordN e k := by
  rw [tabWord, UInt32.toNat_ofNat', wordN]
  exact Nat.mod_eq_of_lt (lt_of_lt_of_le (Nat.mod_lt _ (by decide)) (by decide))

theorem val_tabField (e c : ℕ) : val (tabField e c) = coordN e c := by
  simp only [val, tabField, tabWord_toNat, coordN]

theorem mag_le {e k : ℕ} (h : wordN e k ≤ 68157440) : (tabWord e k).toNat ≤ 1 * (2 ^ 26 + 2 ^ 20) :=
  (tabWord_toNat _ _).trans_le (h.trans (by decide))

theorem magOk_spec {e c : ℕ} (h : magOk e c = true) : R (tabField e c) 1 (coordN e c : F) := by
  simp only [magOk, Bool.and_eq_true, Nat.ble_eq] at h
  obtain ⟨⟨⟨⟨⟨⟨⟨⟨⟨h0, h1⟩, h2⟩, h3⟩, h4⟩, h5⟩, h6⟩, h7⟩, h8⟩, h9⟩ := h
  refine ⟨?_, by rw [fz, val_tabField]⟩
  exact ⟨mag_le h0, mag_le h1, mag_le h2, mag_le h3, mag_le h4, mag_le h5, mag_le h6, mag_le h7,
    mag_le h8, (tabWord_toNat _ _).trans_le (h9.trans (by decide))⟩

theorem entry_JR {e : ℕ} {A : E} (hm : entMag e = true) (h : RepN (ptN e) A) :
    JR ⟨tabField e 0, tabField e 1, tabField e 2⟩ A := by
  simp only [entMag, Bool.and_eq_true] at hm
  exact .inr ⟨_, _, _, magOk_spec hm.1, (magOk_spec hm.2.1).mono (by decide), magOk_spec hm.2.2, h⟩

theorem beq_false {a b : ℕ} (h : (!(Nat.beq a b)) = true) : a ≠ b := by
  intro e
  rw [e] at h
  simp at h

theorem addIs_rep {p q r : ℕ × ℕ × ℕ} {A B : E} (h : addIs p q r = true) (hp : RepN p A)
    (hq : RepN q B) : RepN r (A + B) := by
  simp only [addIs, Bool.and_eq_true] at h
  exact neq_rep (nadd_rep hp hq (beq_false h.1)) (beq_false h.2.1) h.2.2

theorem rowLoop_spec {row : ℕ} {A : E} (h1 : RepN (ptN (entryN row 1)) A) :
    ∀ n i prev, RepN prev ((i - 1) • A) → 1 ≤ i → rowLoop row (ptN (entryN row 1)) n i prev = true →
      ∀ j, i ≤ j → j < i + n →
        entMag (entryN row j) = true ∧ RepN (ptN (entryN row j)) (j • A) := by
  intro n
  induction n with
  | zero => intro i prev _ _ _ j _ _; omega
  | succ n ih =>
    intro i prev hp hi h j hj hj'
    rw [rowLoop, Bool.and_eq_true, Bool.and_eq_true] at h
    obtain ⟨h2, h3, h4⟩ := h
    have h5 := addIs_rep h3 hp h1
    rw [← succ_nsmul, show i - 1 + 1 = i by omega] at h5
    by_cases hij : j = i
    · subst hij; exact ⟨h2, h5⟩
    · exact ih (i + 1) _ (by rwa [Nat.add_sub_cancel]) (by omega) h4 j (by omega) (by omega)

theorem tabField_zero (c : ℕ) : tabField 0 c = zero := by
  have h : ∀ k, tabWord 0 k = 0 := fun k => by rw [tabWord, Nat.zero_div]; rfl
  simp only [tabField, h]; rfl

theorem rowOk_rep {row : ℕ} {A : E} (h : rowOk row = true) (h1 : RepN (ptN (entryN row 1)) A) :
    ∀ i, 1 ≤ i → i < 256 →
      entMag (entryN row i) = true ∧ RepN (ptN (entryN row i)) (i • A) := by
  simp only [rowOk, Bool.and_eq_true] at h
  obtain ⟨_, m1, m2, hy, hz, hd, hl⟩ := h
  have h2 : RepN (ptN (entryN row 2)) (2 • A) := by
    rw [two_nsmul]
    exact neq_rep (ndbl_rep h1 (beq_false hy)) (beq_false hz) hd
  intro i hi hi'
  by_cases e1 : i = 1
  · subst e1; rw [one_nsmul]; exact ⟨m1, h1⟩
  by_cases e2 : i = 2
  · subst e2; exact ⟨m2, h2⟩
  exact rowLoop_spec h1 253 3 _ h2 (by decide) hl i (by omega) (by omega)

theorem rowOk_spec {row : ℕ} {A : E} (h : rowOk row = true) (h1 : RepN (ptN (entryN row 1)) A)
    (i : UInt8) :
    JR ⟨tabField (entryN row i.toNat) 0, tabField (entryN row i.toNat) 1,
      tabField (entryN row i.toNat) 2⟩ (i.toNat • A) := by
  by_cases hi : i.toNat = 0
  · rw [hi, zero_nsmul]
    simp only [rowOk, Bool.and_eq_true] at h
    rw [Nat.eq_of_beq_eq_true h.1, tabField_zero, tabField_zero, tabField_zero]
    exact JR_inf
  · obtain ⟨h2, h3⟩ := rowOk_rep h h1 i.toNat (by omega) i.toNat_lt
    exact entry_JR h2 h3

theorem linkOk_rep {row up : ℕ} {A : E} (h : rowOk row = true)
    (h1 : RepN (ptN (entryN row 1)) A) (hl : linkOk row up = true) :
    RepN (ptN (entryN up 1)) (256 • A) := by
  have := addIs_rep hl (rowOk_rep h h1 255 (by decide) (by decide)).2 h1
  rwa [← succ_nsmul] at this

end Zk.Curve
