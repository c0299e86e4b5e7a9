import Verif.Proto.Dist

/-! # What the verifiers check, in terms of group elements -/

namespace Zk.Proto

open Zk

@[simp] theorem reject_eq_accept (e : Err) : (reject e = accept) ↔ False := by
  simp [reject, accept]

/-- A sign.  See gspfs.go:72-98. -/
def IsSign (e : Int) : Prop := e = 1 ∨ e = -1

theorem IsSign.sq {e : Int} (h : IsSign e) : e * e = 1 := by rcases h with rfl | rfl <;> rfl

theorem IsSign.mul {e f : Int} (h : IsSign e) (h' : IsSign f) : IsSign (e * f) := by
  rcases h with rfl | rfl <;> rcases h' with rfl | rfl <;> simp [IsSign]

/-- Among three signs two agree. -/
theorem sign_pigeonhole (f : Fin 3 → Int) (hf : ∀ i, IsSign (f i)) : ∃ i j, i ≠ j ∧ f i = f j := by
  by_cases h01 : f 0 = f 1
  · exact ⟨0, 1, by decide, h01⟩
  by_cases h02 : f 0 = f 2
  · exact ⟨0, 2, by decide, h02⟩
  refine ⟨1, 2, by decide, ?_⟩
  rcases hf 0 with h0 | h0 <;> rcases hf 1 with h1 | h1 <;> rcases hf 2 with h2 | h2 <;> omega

theorem sign_products {a b a' b' : Int} (ha : IsSign a) (hb : IsSign b) (ha' : IsSign a')
    (hb' : IsSign b') (h : a * b = a' * b') : (b = a ∧ b' = a') ∨ (b = -a ∧ b' = -a') := by
  rcases ha with rfl | rfl <;> rcases hb with rfl | rfl <;> rcases ha' with rfl | rfl <;>
    rcases hb' with rfl | rfl <;> revert h <;> decide

namespace Lawful

variable {cp : Params} {E : Type} [AddCommGroup E] (L : Lawful cp E)

theorem same_sign {a b : E} (h : L.same a b = true) : ∃ e : Int, IsSign e ∧ b = e • a := by
  rcases L.same_iff.1 h with h | h
  · exact ⟨1, Or.inl rfl, by rw [one_smul, h]⟩
  · exact ⟨-1, Or.inr rfl, by rw [h]; module⟩

theorem same_comm (a b : E) : L.same a b = L.same b a := by
  simp only [same, eq_comm]

theorem challengeOf₂ (hash : Bytes → Bytes) (a b : E) :
    challengeOf hash cp [L.pe a, L.pe b] = .ok (L.chal hash [a, b]) := L.challengeOf_pe hash [a, b]

theorem challengeOf₆ (hash : Bytes → Bytes) (a b c d e f : E) :
    challengeOf hash cp [L.pe a, L.pe b, L.pe c, L.pe d, L.pe e, L.pe f] =
      .ok (L.chal hash [a, b, c, d, e, f]) := L.challengeOf_pe hash [a, b, c, d, e, f]

theorem challengeOf₇ (hash : Bytes → Bytes) (a b c d e f g : E) :
    challengeOf hash cp [L.pe a, L.pe b, L.pe c, L.pe d, L.pe e, L.pe f, L.pe g] =
      .ok (L.chal hash [a, b, c, d, e, f, g]) := L.challengeOf_pe hash [a, b, c, d, e, f, g]

theorem challengeOf₈ (hash : Bytes → Bytes) (a b c d e f g h : E) :
    challengeOf hash cp [L.pe a, L.pe b, L.pe c, L.pe d, L.pe e, L.pe f, L.pe g, L.pe h] =
      .ok (L.chal hash [a, b, c, d, e, f, g, h]) := L.challengeOf_pe hash [a, b, c, d, e, f, g, h]

theorem gspfsVerify_iff (hash : Bytes → Bytes) (b a : E) (x y s c : Int) :
    gspfsVerify hash cp (some ⟨L.pe b, pt x y, some s, some c⟩) (L.pe a) = .ok accept ↔
      generateChallenge hash cp [L.bytes a, intBytes x ++ intBytes y] = c ∧
        x = (L.enc (s • L.eff b + c • L.eff a)).1 := by
  have hch : challengeOf hash cp [L.pe a, pt x y] =
      .ok (generateChallenge hash cp [L.bytes a, intBytes x ++ intBytes y]) := by
    simp [challengeOf, List.mapM_cons, L.pointBytes_pe, pointBytes_pt]
  simp only [gspfsVerify, hch, Go.bind_ok, cmpEq, L.mult_pe, L.add_pe, L.equal_pt]
  by_cases h1 : generateChallenge hash cp [L.bytes a, intBytes x ++ intBytes y] = c
  · by_cases h2 : x = (L.enc (s • L.eff b + c • L.eff a)).1
    · simp [h1, ← h2]
    · simp [h1, h2]
  · simp [h1]

theorem gspfsVerify_pe_iff (hash : Bytes → Bytes) (b a t : E) (s c : Int) :
    gspfsVerify hash cp (some ⟨L.pe b, L.pe t, some s, some c⟩) (L.pe a) = .ok accept ↔
      L.chal hash [a, t] = c ∧ L.same t (s • L.eff b + c • L.eff a) = true := by
  rw [show L.pe t = pt (L.enc t).1 (L.enc t).2 from rfl, gspfsVerify_iff, same, decide_eq_true_eq]; rfl

theorem gspfsVerify_pe_total (hash : Bytes → Bytes) (b a t : E) (s c : Int) :
    gspfsVerify hash cp (some ⟨L.pe b, L.pe t, some s, some c⟩) (L.pe a) = .ok accept ∨
    ∃ e, gspfsVerify hash cp (some ⟨L.pe b, L.pe t, some s, some c⟩) (L.pe a) = .ok (reject e) := by
  simp only [gspfsVerify, L.challengeOf₂, Go.bind_ok, cmpEq, L.mult_pe, L.add_pe, L.equal_pe]
  by_cases h1 : L.chal hash [a, t] = c
  · by_cases h2 : L.same t (s • L.eff b + c • L.eff a) = true
    · simp [h1, h2]
    · simp [h1, h2]
  · simp [h1]

theorem equivalenceVerify_iff (hash : Bytes → Bytes) (b1 r1 b2 r2 t1 t2 : E) (c s : Int) :
    equivalenceVerify hash cp (some ⟨L.pe t1, L.pe t2, some c, some s⟩)
      (L.pe b1) (L.pe r1) (L.pe b2) (L.pe r2) = .ok accept ↔
      L.chal hash [b1, r1, b2, r2, t1, t2] = c ∧
        L.same (s • L.eff b1) (t1 + c • L.eff r1) = true ∧
        L.same (s • L.eff b2) (t2 + c • L.eff r2) = true := by
  simp only [equivalenceVerify, L.challengeOf₆, Go.bind_ok, cmpEq, L.mult_pe, L.add_pe, L.equal_pe]
  by_cases h1 : L.chal hash [b1, r1, b2, r2, t1, t2] = c
  · by_cases h2 : L.same (s • L.eff b1) (t1 + c • L.eff r1) = true
    · by_cases h3 : L.same (s • L.eff b2) (t2 + c • L.eff r2) = true
      · simp [h1, h2, h3]
      · simp [h1, h2, h3]
    · simp [h1, h2]
  · simp [h1]

theorem consistencyVerify_iff (hash : Bytes → Bytes) (cm tok pk t1 t2 : E) (c s1 s2 : Int) :
    consistencyVerify hash cp (some ⟨L.pe t1, L.pe t2, some c, some s1, some s2⟩)
      (L.pe cm) (L.pe tok) (L.pe pk) = .ok accept ↔
      L.chal hash [L.g, L.h, cm, tok, pk, t1, t2] = c ∧
        L.same (s1 • L.g + s2 • L.hb) (t1 + c • L.eff cm) = true ∧
        L.same (s2 • L.eff pk) (t2 + c • L.eff tok) = true := by
  simp only [consistencyVerify, L.G_pe, L.H_pe, L.challengeOf₇, Go.bind_ok, cmpEq, L.mult_pe,
    L.add_pe, L.equal_pe, L.pedCommitR_pe]
  by_cases h1 : L.chal hash [L.g, L.h, cm, tok, pk, t1, t2] = c
  · subst h1
    by_cases h2 : L.same (s1 • L.g + s2 • L.hb)
        (t1 + L.chal hash [L.g, L.h, cm, tok, pk, t1, t2] • L.eff cm) = true
    · by_cases h3 : L.same (s2 • L.eff pk)
          (t2 + L.chal hash [L.g, L.h, cm, tok, pk, t1, t2] • L.eff tok) = true
      · simp [h2, h3]
      · simp [h2, h3]
    · simp [h2]
  · simp [h1]

theorem disjunctiveVerify_iff (hash : Bytes → Bytes) (b1 r1 b2 r2 t1 t2 : E)
    (c c1 c2 s1 s2 : Int) :
    disjunctiveVerify hash cp
      (some ⟨L.pe t1, L.pe t2, some c, some c1, some c2, some s1, some s2⟩)
      (L.pe b1) (L.pe r1) (L.pe b2) (L.pe r2) = .ok accept ↔
      L.chal hash [b1, r1, b2, r2, t1, t2] = c ∧ (c1 + c2) % (cp.C.N : Int) = c ∧
        L.same (t1 + c1 • L.eff r1) (s1 • L.eff b1) = true ∧
        L.same (c2 • L.eff r2 + t2) (s2 • L.eff b2) = true := by
  simp only [disjunctiveVerify, L.challengeOf₆, Go.bind_ok, cmpEq, L.mult_pe, L.add_pe, L.equal_pe,
    deref_some]
  by_cases h1 : L.chal hash [b1, r1, b2, r2, t1, t2] = c
  · by_cases h0 : (c1 + c2) % (cp.C.N : Int) = c
    · by_cases h2 : L.same (t1 + c1 • L.eff r1) (s1 • L.eff b1) = true
      · by_cases h3 : L.same (c2 • L.eff r2 + t2) (s2 • L.eff b2) = true
        · simp [h1, h0, h2, h3]
        · simp [h1, h0, h2, h3]
      · simp [h1, h0, h2]
    · simp [h1, h0]
  · simp [h1]

theorem chal_range (hash : Bytes → Bytes) (as : List E) :
    0 ≤ L.chal hash as ∧ L.chal hash as < cp.C.N := L.generateChallenge_range hash _

/-- Different challenges differ modulo N. -/
theorem not_dvd_of_ne {c c' : Int} (h : 0 ≤ c ∧ c < cp.C.N) (h' : 0 ≤ c' ∧ c' < cp.C.N)
    (hne : c ≠ c') : ¬ (cp.C.N : Int) ∣ c - c' := by
  intro hd
  have := Int.emod_eq_emod_iff_emod_sub_eq_zero.2 (Int.dvd_iff_emod_eq_zero.1 hd)
  rw [Int.emod_eq_of_lt h.1 h.2, Int.emod_eq_of_lt h'.1 h'.2] at this
  exact hne this

/-- The candidates that a knowledge extractor computes from two responses `s, s'` to two challenges
`c, c'`: the difference quotients for all choices of signs.  See gspfs.go:72-98. -/
noncomputable def extract (L : Lawful cp E) (s c s' c' : Int) : List Int :=
  [L.inv (c - c') * (s - s'), L.inv (c - c') * (s + s'),
   L.inv (c - c') * (-s - s'), L.inv (c - c') * (-s + s')]

theorem mem_extract {s c s' c' e e' : Int} (he : IsSign e) (he' : IsSign e') :
    L.inv (c - c') * (e * s - e' * s') ∈ L.extract s c s' c' := by
  rcases he with rfl | rfl <;> rcases he' with rfl | rfl <;> simp [extract, sub_eq_add_neg]

/-- Two answers determine the logarithm. -/
theorem extract_eq {t r b : E} {s c s' c' e e' : Int} (hd : ¬ (cp.C.N : Int) ∣ c - c')
    (h : t + c • r = (e * s) • b) (h' : t + c' • r = (e' * s') • b) :
    r = (L.inv (c - c') * (e * s - e' * s')) • b := by
  have h1 : (c - c') • r = (e * s - e' * s') • b := by
    linear_combination (norm := module) h - h'
  rw [mul_smul, ← h1, L.inv_smul hd]

/-- A group element that is none of `0, ±g, ±h`. -/
theorem exists_plain : ∃ b : E, b ≠ 0 ∧ L.eff b = b ∧ L.eff (-b) = -b := by
  classical
  have hfin : Finite E := Nat.finite_of_card_ne_zero (by rw [L.card]; exact L.prime.ne_zero)
  have := Fintype.ofFinite E
  by_contra hcon
  have hsub : (Finset.univ : Finset E) ⊆ {0, L.g, -L.g, L.h, -L.h} := by
    intro b _
    by_contra hb
    simp only [Finset.mem_insert, Finset.mem_singleton, not_or] at hb
    obtain ⟨b0, b1, b2, b3, b4⟩ := hb
    refine hcon ⟨b, b0, ?_, ?_⟩
    · simp [eff, b1, b2, b3, b4]
    · have n1 : ¬ (-b = L.g) := fun h => b2 (by rw [← h, neg_neg])
      have n3 : ¬ (-b = L.h) := fun h => b4 (by rw [← h, neg_neg])
      have n2 : ¬ (b = L.g) := b1
      simp [eff, b1, n1, n3, b3]
  have hc := Finset.card_le_card hsub
  have h5 : Finset.card ({0, L.g, -L.g, L.h, -L.h} : Finset E) ≤ 5 := Finset.card_le_five
  rw [Finset.card_univ, ← Nat.card_eq_fintype_card, L.card] at hc
  have := L.five_lt
  omega

end Lawful
end Zk.Proto
