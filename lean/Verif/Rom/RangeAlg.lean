import Verif.Rom.RangeRun

/-!
# The points that `Mult` confuses, in range proofs

If H = κ G, the products that the verifier computes at such points are combinations of G and of the base that
`Mult` uses for H.  Two runs then give a logarithm between the two bases, but for few challenges.
-/

namespace Zk.Rom

open Zk Zk.Proto

variable {cp : Params} {E : Type} [AddCommGroup E]

/-- A tuple with a point that `Mult` confuses with another one: the points that are multiplied instead of C and
of C - 2^i G are cg G + ch H' and dg G + dh H', where H' is the base for H (specification;
rangeproof.go:242-257, crypto.go:86-111). -/
structure Special where
  cg : Int
  ch : Int
  dg : Int
  dh : Int

/-- The tuples with C = -G, C = H, C = -H, C - 2^i G = -G, C - 2^i G = H and C - 2^i G = -H, if H = κ G
(specification; rangeproof.go:242-257, crypto.go:86-111). -/
def specials (κ : Int) (i : Nat) : List Special :=
  [⟨1, 0, -(1 + 2 ^ i), 0⟩, ⟨0, 1, κ - 2 ^ i, 0⟩, ⟨0, 1, -κ - 2 ^ i, 0⟩, ⟨2 ^ i - 1, 0, 1, 0⟩,
    ⟨2 ^ i + κ, 0, 0, 1⟩, ⟨2 ^ i - κ, 0, 0, 1⟩]

/-- No relation with small coefficients between G and H = κ G (specification; zksigma.go:49-59). -/
def FarLog (N : Nat) (κ : Int) : Prop :=
  ∀ a b : Int, -2 ^ 66 ≤ a → a ≤ 2 ^ 66 → -2 ≤ b → b ≤ 2 → (N : Int) ∣ a + b * κ → a = 0 ∧ b = 0

/-- The solution of α w = β modulo N (specification; rangeproof.go:239-260). -/
noncomputable def root (L : Lawful cp E) (α β : Int) : Int := (L.inv α * β) % (cp.C.N : Int)

/-- New inner challenges that give nothing (specification; rangeproof.go:239-260). -/
noncomputable def badInner (L : Lawful cp E) (κ : Int) (i : Nat) (d : Int) : List Int :=
  [d % (cp.C.N : Int)] ++ (specials κ i).map (fun x => root L x.cg (d * (2 ^ i + x.dg))) ++
    (specials κ i).map (fun x => root L (x.dg + 2 ^ i) (d * x.cg)) ++
    (specials κ i ×ˢ specials κ i).map fun x => root L x.2.cg (d * x.1.cg)

/-- New outer challenges that give nothing (specification; rangeproof.go:239-260). -/
noncomputable def badOuter (L : Lawful cp E) (κ : Int) (i : Nat) (e : Int) : List Int :=
  [e % (cp.C.N : Int), 0] ++ (specials κ i).map (fun x => root L x.dg (e * (x.cg - 2 ^ i))) ++
    (specials κ i).map (fun x => root L (x.cg - 2 ^ i) (e * x.dg)) ++
    (specials κ i).map (fun x => root L (x.cg - x.dg) (e * 2 ^ i)) ++
    (specials κ i).map (fun x => root L (2 ^ i) (e * (x.cg - x.dg))) ++
    (specials κ i ×ˢ specials κ i).map fun x => root L x.2.dg (e * x.1.dg)

theorem length_badInner (L : Lawful cp E) (κ : Int) (i : Nat) (d : Int) :
    (badInner L κ i d).length = 49 := by simp [badInner, specials]

theorem length_badOuter (L : Lawful cp E) (κ : Int) (i : Nat) (e : Int) :
    (badOuter L κ i e).length = 62 := by simp [badOuter, specials]

/-- The numbers that may be the logarithm of G, from two runs (specification; rangeproof.go:239-260). -/
noncomputable def logs (L : Lawful cp E) (κ : Int) (i : Nat) (e e' d d' s s' : Int) : List Int :=
  [L.inv (2 ^ i * (e - e')) * (s' - s)] ++
    (specials κ i).map (fun x => L.inv (e * d' * x.cg - e * d * 2 ^ i - e' * d * x.dg) *
      (d * (s - s') - e * d' * x.ch + e' * d * x.dh)) ++
    (specials κ i).map (fun x => L.inv (e * d' * x.dg - e' * d * x.cg + e' * d' * 2 ^ i) *
      (d' * (s - s') - e * d' * x.dh + e' * d * x.ch)) ++
    (specials κ i ×ˢ specials κ i).map (fun x => L.inv (d * x.1.cg - d' * x.2.cg) *
      (d' * x.2.ch - d * x.1.ch)) ++
    (specials κ i ×ˢ specials κ i).map fun x => L.inv (e * x.1.dg - e' * x.2.dg) *
      (s - s' - e * x.1.dh + e' * x.2.dh)

theorem log_of (L : Lawful cp E) {U V : Int} (h : U • L.g = V • L.hb) (hU : ¬ (cp.C.N : Int) ∣ U) :
    L.g = (L.inv U * V) • L.hb := by
  rw [mul_smul, ← h, L.inv_smul hU]

theorem root_of (L : Lawful cp E) {α w β : Int} (hα : ¬ (cp.C.N : Int) ∣ α) (h : (cp.C.N : Int) ∣ α * w - β) :
    w % (cp.C.N : Int) = root L α β := by
  have h1 : (cp.C.N : Int) ∣ L.inv α * α - 1 := Int.ModEq.dvd (L.inv_mul hα).symm
  refine Int.emod_emod_of_dvd w (dvd_refl (cp.C.N : Int)) ▸ ?_
  rw [root, Int.emod_emod_of_dvd _ (dvd_refl _)]
  refine (Int.ModEq.symm ?_)
  rw [Int.modEq_iff_dvd]
  have h2 : w - L.inv α * β = L.inv α * (α * w - β) - (L.inv α * α - 1) * w := by ring
  rw [h2]
  exact dvd_sub (h.mul_left _) (h1.mul_right _)

theorem prime_int (L : Lawful cp E) : Prime (cp.C.N : Int) := Nat.prime_iff_prime_int.1 L.prime

theorem not_dvd_two_pow (L : Lawful cp E) (i : Nat) : ¬ (cp.C.N : Int) ∣ 2 ^ i := by
  intro h
  have h2 := Int.le_of_dvd (by norm_num) ((prime_int L).dvd_of_dvd_pow h)
  have := L.five_lt
  omega

/-! ## The kinds of points -/

/-- What holds of every special tuple (specification; rangeproof.go:242-257). -/
def Sp (N : Nat) (i : Nat) (x : Special) : Prop :=
  (¬ (N : Int) ∣ x.cg ∨ ¬ (N : Int) ∣ 2 ^ i + x.dg) ∧ (¬ (N : Int) ∣ x.dg ∨ ¬ (N : Int) ∣ x.cg - 2 ^ i) ∧
    (x.ch = 0 ∨ x.ch = 1)

/-- What holds of the special tuples with C - 2^i G other than H and -H, and C other than 0 (specification;
rangeproof.go:242-257). -/
def Sp1 (N : Nat) (i : Nat) (x : Special) : Prop :=
  ¬ (N : Int) ∣ x.dg ∧ ¬ (N : Int) ∣ x.dg + 2 ^ i ∧ (¬ (N : Int) ∣ x.cg ∨ x.cg = 0 ∧ x.ch = 1)

theorem two_pow_bounds {i : Nat} (hi : i < 64) : (1 : Int) ≤ 2 ^ i ∧ (2 : Int) ^ i ≤ 2 ^ 63 := by
  constructor
  · exact one_le_pow₀ (by norm_num)
  · exact pow_le_pow_right₀ (by norm_num) (by omega)

theorem two_pow_zero {i : Nat} (h : (2 : Int) ^ i = 1) : i = 0 := by
  by_contra hc
  have : (2 : Int) ^ 1 ≤ 2 ^ i := pow_le_pow_right₀ (by norm_num) (by omega)
  omega

theorem far (N : Nat) (κ : Int) (hf : FarLog N κ) (a b x : Int) (hx : x = a + b * κ)
    (h : -2 ^ 66 ≤ a ∧ a ≤ 2 ^ 66 ∧ -2 ≤ b ∧ b ≤ 2 ∧ (a ≠ 0 ∨ b ≠ 0)) : ¬ (N : Int) ∣ x := by
  intro hd
  rw [hx] at hd
  obtain ⟨h1, h2, h3, h4, h5⟩ := h
  have := hf a b h1 h2 h3 h4 hd
  omega

theorem specials_sp {N : Nat} {κ : Int} (hf : FarLog N κ) {i : Nat} (hi : i < 64) :
    ∀ x ∈ specials κ i, Sp N i x := by
  have hb := two_pow_bounds hi
  intro x hx
  simp only [specials, List.mem_cons, List.not_mem_nil, or_false] at hx
  rcases hx with rfl | rfl | rfl | rfl | rfl | rfl
  · exact ⟨.inl (far N κ hf 1 0 _ (by ring) (by omega)),
      .inl (far N κ hf (-(1 + 2 ^ i)) 0 _ (by ring) (by omega)), .inl rfl⟩
  · exact ⟨.inr (far N κ hf 0 1 _ (by ring) (by omega)),
      .inl (far N κ hf (-2 ^ i) 1 _ (by ring) (by omega)), .inr rfl⟩
  · exact ⟨.inr (far N κ hf 0 (-1) _ (by ring) (by omega)),
      .inl (far N κ hf (-2 ^ i) (-1) _ (by ring) (by omega)), .inr rfl⟩
  · exact ⟨.inr (far N κ hf (2 ^ i + 1) 0 _ (by ring) (by omega)),
      .inl (far N κ hf 1 0 _ (by ring) (by omega)), .inl rfl⟩
  · exact ⟨.inl (far N κ hf (2 ^ i) 1 _ (by ring) (by omega)),
      .inr (far N κ hf 0 1 _ (by ring) (by omega)), .inl rfl⟩
  · exact ⟨.inl (far N κ hf (2 ^ i) (-1) _ (by ring) (by omega)),
      .inr (far N κ hf 0 (-1) _ (by ring) (by omega)), .inl rfl⟩

theorem eff_of_ne (L : Lawful cp E) {a : E} (h1 : a ≠ -L.g) (h2 : a ≠ L.h) (h3 : a ≠ -L.h) : L.eff a = a := by
  by_cases h : a = L.g
  · rw [h, L.eff_g]
  · rw [Lawful.eff, if_neg (by tauto), if_neg (by tauto)]

/-- Every tuple is of one of the kinds. -/
theorem kinds (L : Lawful cp E) {κ : Int} (hκ : L.h = κ • L.g) (hf : FarLog cp.C.N κ) {i : Nat} (hi : i < 64)
    (c : E) :
    (L.eff c = c ∧ L.eff (c - (2 ^ i : Int) • L.g) = c - (2 ^ i : Int) • L.g) ∨
    ∃ x ∈ specials κ i, L.eff c = x.cg • L.g + x.ch • L.hb ∧
      L.eff (c - (2 ^ i : Int) • L.g) = x.dg • L.g + x.dh • L.hb ∧
      (c = 0 ∨ c = (2 ^ i : Int) • L.g + L.h ∨ c = (2 ^ i : Int) • L.g - L.h ∨ Sp1 cp.C.N i x) := by
  have hb := two_pow_bounds hi
  have ne : ∀ a b : Int, (-2 ^ 66 ≤ a ∧ a ≤ 2 ^ 66 ∧ -2 ≤ b ∧ b ≤ 2 ∧ (a ≠ 0 ∨ b ≠ 0)) →
      a • L.g + b • L.h = 0 → False := by
    intro a b h h0
    rw [hκ, ← mul_smul, ← add_smul] at h0
    exact far cp.C.N κ hf a b _ rfl h ((L.smul_eq_zero L.g_ne).1 h0)
  by_cases c1 : c = -L.g
  · subst c1
    refine .inr ⟨⟨1, 0, -(1 + 2 ^ i), 0⟩, by simp [specials], by rw [L.eff_neg_g]; module, ?_, .inr (.inr (.inr ?_))⟩
    · rw [eff_of_ne L]
      · module
      · exact fun h => ne (2 ^ i) 0 (by omega) (by linear_combination (norm := module) -h)
      · exact fun h => ne (1 + 2 ^ i) 1 (by omega) (by linear_combination (norm := module) -h)
      · exact fun h => ne (1 + 2 ^ i) (-1) (by omega) (by linear_combination (norm := module) -h)
    · exact ⟨far _ κ hf (-(1 + 2 ^ i)) 0 _ (by ring) (by omega), far _ κ hf (-1) 0 _ (by ring) (by omega),
        .inl (far _ κ hf 1 0 _ (by ring) (by omega))⟩
  by_cases c2 : c = L.h
  · subst c2
    refine .inr ⟨⟨0, 1, κ - 2 ^ i, 0⟩, by simp [specials], by rw [L.eff_h]; module, ?_, .inr (.inr (.inr ?_))⟩
    · rw [eff_of_ne L]
      · rw [hκ]; module
      · exact fun h => ne (1 - 2 ^ i) 1 (by omega) (by linear_combination (norm := module) h)
      · exact fun h => ne (2 ^ i) 0 (by omega) (by linear_combination (norm := module) -h)
      · exact fun h => ne (-2 ^ i) 2 (by omega) (by linear_combination (norm := module) h)
    · exact ⟨far _ κ hf (-2 ^ i) 1 _ (by ring) (by omega), far _ κ hf 0 1 _ (by ring) (by omega),
        .inr ⟨rfl, rfl⟩⟩
  by_cases c3 : c = -L.h
  · subst c3
    refine .inr ⟨⟨0, 1, -κ - 2 ^ i, 0⟩, by simp [specials], by rw [L.eff_neg_h]; module, ?_,
      .inr (.inr (.inr ?_))⟩
    · rw [eff_of_ne L]
      · rw [hκ]; module
      · exact fun h => ne (1 - 2 ^ i) (-1) (by omega) (by linear_combination (norm := module) h)
      · exact fun h => ne (2 ^ i) 2 (by omega) (by linear_combination (norm := module) -h)
      · exact fun h => ne (2 ^ i) 0 (by omega) (by linear_combination (norm := module) -h)
    · exact ⟨far _ κ hf (-2 ^ i) (-1) _ (by ring) (by omega), far _ κ hf 0 (-1) _ (by ring) (by omega),
        .inr ⟨rfl, rfl⟩⟩
  have hc := eff_of_ne L c1 c2 c3
  by_cases d1 : c - (2 ^ i : Int) • L.g = -L.g
  · have hcc : c = (2 ^ i - 1 : Int) • L.g := by linear_combination (norm := module) d1
    refine .inr ⟨⟨2 ^ i - 1, 0, 1, 0⟩, by simp [specials], by rw [hc, hcc]; module,
      by rw [d1, L.eff_neg_g]; module, ?_⟩
    by_cases h1 : (2 : Int) ^ i = 1
    · exact .inl (by rw [hcc, h1]; module)
    · exact .inr (.inr (.inr ⟨far _ κ hf 1 0 _ (by ring) (by omega),
        far _ κ hf (1 + 2 ^ i) 0 _ (by ring) (by omega),
        .inl (far _ κ hf (2 ^ i - 1) 0 _ (by ring) (by omega))⟩))
  by_cases d2 : c - (2 ^ i : Int) • L.g = L.h
  · have hcc : c = (2 ^ i : Int) • L.g + L.h := by linear_combination (norm := module) d2
    exact .inr ⟨⟨2 ^ i + κ, 0, 0, 1⟩, by simp [specials], by rw [hc, hcc, hκ]; module,
      by rw [d2, L.eff_h]; module, .inr (.inl hcc)⟩
  by_cases d3 : c - (2 ^ i : Int) • L.g = -L.h
  · have hcc : c = (2 ^ i : Int) • L.g - L.h := by linear_combination (norm := module) d3
    exact .inr ⟨⟨2 ^ i - κ, 0, 0, 1⟩, by simp [specials], by rw [hc, hcc, hκ]; module,
      by rw [d3, L.eff_neg_h]; module, .inr (.inr (.inl hcc))⟩
  exact .inl ⟨hc, eff_of_ne L d1 d2 d3⟩

/-! ## Two runs -/

/-- Two runs open the bit, or the tuple is one of two that `Verify` treats wrongly, or there is a logarithm. -/
theorem special_bit (L : Lawful cp E) {κ : Int} (hκ : L.h = κ • L.g) (hf : FarLog cp.C.N κ) {i : Nat}
    (hi : i < 64) {c c' : E} {e e' s s' d d' : Int} (e0 : ¬ (cp.C.N : Int) ∣ e) (d0 : ¬ (cp.C.N : Int) ∣ d)
    (hT : effPoint L i e c s = effPoint L i e' c' s') (hR : d • L.eff c = d' • L.eff c')
    (ho : e' = e ∧ d' % (cp.C.N : Int) ∉ badInner L κ i d ∨
      e' % (cp.C.N : Int) ∉ badOuter L κ i e ∧ (d' = d ∨ d = e ∧ d' = e')) :
    c = 0 ∨ c = (L.inv e * L.inv (d' - d) * d' * (s - s')) • L.hb ∨
    c = (2 ^ i : Int) • L.g + (L.inv (e - e') * (s - s')) • L.hb ∨
    c = (2 ^ i : Int) • L.g + L.h ∨ c = (2 ^ i : Int) • L.g - L.h ∨
    ∃ y ∈ logs L κ i e e' d d' s s', L.g = y • L.hb := by
  have hp := prime_int L
  have hsp := specials_sp hf hi
  have h2i := not_dvd_two_pow L i
  have sub_ne : ∀ {a b : Int}, ¬ a % (cp.C.N : Int) = b % (cp.C.N : Int) → ¬ (cp.C.N : Int) ∣ a - b :=
    fun h => not_dvd_sub h
  unfold effPoint at hT
  rcases kinds L hκ hf hi c with ⟨k1, k2⟩ | ⟨x, hx, k1, k2, k3⟩
  · rcases kinds L hκ hf hi c' with ⟨k1', k2'⟩ | ⟨x', hx', k1', k2', -⟩
    · rw [k1, k1'] at hR
      rw [k2, k2'] at hT
      rcases ho with ⟨rfl, ho⟩ | ⟨ho, rfl | ⟨rfl, rfl⟩⟩
      · refine .inr (.inl (zero_bit L (i := i) hT hR e0 (sub_ne fun h => ho ?_)))
        simp [badInner, h]
      · refine .inr (.inr (.inl (one_bit L (i := i) hT hR d0 (sub_ne fun h => ho ?_))))
        simp [badOuter, h]
      · refine .inr (.inr (.inr (.inr (.inr ⟨_, ?_, same_hash L (i := i) hT hR ?_⟩))))
        · simp [logs]
        · intro h
          rcases hp.dvd_or_dvd h with h | h
          · exact h2i h
          · exact sub_ne (fun h => ho (by simp [badOuter, h])) h
    · obtain ⟨q1, q2, -⟩ := hsp x' hx'
      rw [k1, k1'] at hR
      rw [k2, k2'] at hT
      have key : (e * d' * x'.cg - e * d * 2 ^ i - e' * d * x'.dg) • L.g =
          (d * (s - s') - e * d' * x'.ch + e' * d * x'.dh) • L.hb := by
        linear_combination (norm := module) (-d) • hT - e • hR
      refine .inr (.inr (.inr (.inr (.inr ⟨_, ?_, log_of L key ?_⟩))))
      · simp only [logs, List.mem_append, List.mem_map]
        exact .inl (.inl (.inl (.inr ⟨x', hx', rfl⟩)))
      intro hU
      rcases ho with ⟨rfl, ho⟩ | ⟨ho, rfl | ⟨rfl, rfl⟩⟩
      · have h1 : (cp.C.N : Int) ∣ e' * (x'.cg * d' - d * (2 ^ i + x'.dg)) := by
          convert hU using 1; ring
        have h1 := (hp.dvd_or_dvd h1).resolve_left e0
        by_cases hg : (cp.C.N : Int) ∣ x'.cg
        · have h3 := (dvd_sub_right (hg.mul_right d')).1 h1
          rcases q1 with q1 | q1
          · exact q1 hg
          · exact (hp.dvd_or_dvd h3).elim d0 q1
        · refine ho ?_
          rw [root_of L hg h1]
          simp only [badInner, List.mem_append, List.mem_map]
          exact .inl (.inl (.inr ⟨x', hx', rfl⟩))
      · have h1 : (cp.C.N : Int) ∣ d' * (x'.dg * e' - e * (x'.cg - 2 ^ i)) := by
          refine Int.dvd_neg.1 ?_; convert hU using 1; ring
        have h1 := (hp.dvd_or_dvd h1).resolve_left d0
        by_cases hg : (cp.C.N : Int) ∣ x'.dg
        · have h3 := (dvd_sub_right (hg.mul_right e')).1 h1
          rcases q2 with q2 | q2
          · exact q2 hg
          · exact (hp.dvd_or_dvd h3).elim e0 q2
        · refine ho ?_
          rw [root_of L hg h1]
          simp only [badOuter, List.mem_append, List.mem_map]
          exact .inl (.inl (.inl (.inl (.inr ⟨x', hx', rfl⟩))))
      · have h1 : (cp.C.N : Int) ∣ d * ((x'.cg - x'.dg) * d' - d * 2 ^ i) := by
          convert hU using 1; ring
        have h1 := (hp.dvd_or_dvd h1).resolve_left d0
        by_cases hg : (cp.C.N : Int) ∣ x'.cg - x'.dg
        · have h3 := (dvd_sub_right (hg.mul_right d')).1 h1
          exact (hp.dvd_or_dvd h3).elim d0 h2i
        · refine ho ?_
          rw [root_of L hg h1]
          simp only [badOuter, List.mem_append, List.mem_map]
          exact .inl (.inl (.inr ⟨x', hx', rfl⟩))
  · rcases k3 with k3 | k3 | k3 | ⟨q1, q2, q3⟩
    · exact .inl k3
    · exact .inr (.inr (.inr (.inl k3)))
    · exact .inr (.inr (.inr (.inr (.inl k3))))
    rcases kinds L hκ hf hi c' with ⟨k1', k2'⟩ | ⟨x', hx', k1', k2', -⟩
    · rw [k1, k1'] at hR
      rw [k2, k2'] at hT
      have key : (e * d' * x.dg - e' * d * x.cg + e' * d' * 2 ^ i) • L.g =
          (d' * (s - s') - e * d' * x.dh + e' * d * x.ch) • L.hb := by
        linear_combination (norm := module) (-d') • hT - e' • hR
      refine .inr (.inr (.inr (.inr (.inr ⟨_, ?_, log_of L key ?_⟩))))
      · simp only [logs, List.mem_append, List.mem_map]
        exact .inl (.inl (.inr ⟨x, hx, rfl⟩))
      intro hU
      rcases ho with ⟨rfl, ho⟩ | ⟨ho, rfl | ⟨rfl, rfl⟩⟩
      · have h1 : (cp.C.N : Int) ∣ e' * ((x.dg + 2 ^ i) * d' - d * x.cg) := by
          convert hU using 1; ring
        have h1 := (hp.dvd_or_dvd h1).resolve_left e0
        refine ho ?_
        rw [root_of L q2 h1]
        simp only [badInner, List.mem_append, List.mem_map]
        exact .inl (.inr ⟨x, hx, rfl⟩)
      · have h1 : (cp.C.N : Int) ∣ d' * ((x.cg - 2 ^ i) * e' - e * x.dg) := by
          refine Int.dvd_neg.1 ?_; convert hU using 1; ring
        have h1 := (hp.dvd_or_dvd h1).resolve_left d0
        by_cases hg : (cp.C.N : Int) ∣ x.cg - 2 ^ i
        · have h3 := (dvd_sub_right (hg.mul_right e')).1 h1
          exact (hp.dvd_or_dvd h3).elim e0 q1
        · refine ho ?_
          rw [root_of L hg h1]
          simp only [badOuter, List.mem_append, List.mem_map]
          exact .inl (.inl (.inl (.inr ⟨x, hx, rfl⟩)))
      · have h1 : (cp.C.N : Int) ∣ d' * (2 ^ i * d' - d * (x.cg - x.dg)) := by
          convert hU using 1; ring
        rcases hp.dvd_or_dvd h1 with h1 | h1
        · refine ho ?_
          rw [Int.emod_eq_zero_of_dvd h1]
          simp [badOuter]
        · refine ho ?_
          rw [root_of L h2i h1]
          simp only [badOuter, List.mem_append, List.mem_map]
          exact .inl (.inr ⟨x, hx, rfl⟩)
    · obtain ⟨-, -, q4⟩ := hsp x' hx'
      rw [k1, k1'] at hR
      rw [k2, k2'] at hT
      have key1 : (d * x.cg - d' * x'.cg) • L.g = (d' * x'.ch - d * x.ch) • L.hb := by
        linear_combination (norm := module) hR
      have key2 : (e * x.dg - e' * x'.dg) • L.g = (s - s' - e * x.dh + e' * x'.dh) • L.hb := by
        linear_combination (norm := module) -hT
      have hmem : (x, x') ∈ specials κ i ×ˢ specials κ i := List.mem_product.2 ⟨hx, hx'⟩
      by_cases hU1 : (cp.C.N : Int) ∣ d * x.cg - d' * x'.cg
      swap
      · refine .inr (.inr (.inr (.inr (.inr ⟨_, ?_, log_of L key1 hU1⟩))))
        simp only [logs, List.mem_append, List.mem_map]
        exact .inl (.inr ⟨(x, x'), hmem, rfl⟩)
      by_cases hU2 : (cp.C.N : Int) ∣ e * x.dg - e' * x'.dg
      swap
      · refine .inr (.inr (.inr (.inr (.inr ⟨_, ?_, log_of L key2 hU2⟩))))
        simp only [logs, List.mem_append, List.mem_map]
        exact .inr ⟨(x, x'), hmem, rfl⟩
      exfalso
      have outer : e' % (cp.C.N : Int) ∉ badOuter L κ i e → False := by
        intro ho
        have h1 : (cp.C.N : Int) ∣ x'.dg * e' - e * x.dg := by
          refine Int.dvd_neg.1 ?_; convert hU2 using 1; ring
        by_cases hg : (cp.C.N : Int) ∣ x'.dg
        · have h3 := (dvd_sub_right (hg.mul_right e')).1 h1
          exact (hp.dvd_or_dvd h3).elim e0 q1
        · refine ho ?_
          rw [root_of L hg h1]
          simp only [badOuter, List.mem_append, List.mem_map]
          exact .inr ⟨(x, x'), hmem, rfl⟩
      rcases ho with ⟨rfl, ho⟩ | ⟨ho, -⟩
      swap
      · exact outer ho
      have h1 : (cp.C.N : Int) ∣ x'.cg * d' - d * x.cg := by
        refine Int.dvd_neg.1 ?_; convert hU1 using 1; ring
      by_cases hg : (cp.C.N : Int) ∣ x'.cg
      · have h3 := (dvd_sub_right (hg.mul_right d')).1 h1
        rcases q3 with q3 | ⟨-, q3⟩
        · exact (hp.dvd_or_dvd h3).elim d0 q3
        · rw [(L.smul_eq_zero L.g_ne).2 hU1, q3] at key1
          have h4 := (L.smul_eq_zero L.hb_ne).1 key1.symm
          rcases q4 with q4 | q4 <;> rw [q4] at h4
          · exact d0 (by simpa using h4)
          · refine ho ?_
            have : d' % (cp.C.N : Int) = d % (cp.C.N : Int) := by
              rw [Int.emod_eq_emod_iff_emod_sub_eq_zero]
              exact Int.emod_eq_zero_of_dvd (by simpa using h4)
            simp [badInner, this]
      · refine ho ?_
        rw [root_of L hg h1]
        simp only [badInner, List.mem_append, List.mem_map]
        exact .inr ⟨(x, x'), hmem, rfl⟩

end Zk.Rom
