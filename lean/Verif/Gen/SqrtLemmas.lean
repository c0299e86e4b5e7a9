import Verif.Gen.Model
import Mathlib.Data.Nat.Sqrt
import Mathlib.Data.Nat.Prime.Basic
import Mathlib.RingTheory.Coprime.Basic
import Mathlib.Tactic.LinearCombination

/-!
# Newton's method in `sqrt`, and the Euclidean algorithm in `EndomorphismVectors`
-/

namespace Zk.Gen

open Zk

/-! ### Newton's method -/

/-- The next guess.  See btcec/gensecp256k1.go:162-179. -/
def next (n g : Int) : Int := (g + n / g) / 2

theorem sqrtLoop_succ {n g : Int} (hg : g ≠ 0) (f : ℕ) :
    sqrtLoop n (f + 1) g = if next n g = g then some (.ok (next n g)) else sqrtLoop n f (next n g) := by
  rw [sqrtLoop, if_neg hg]
  rfl

theorem le_next {n g s : Int} (hs : s * s ≤ n) (hg : 0 < g) : s ≤ next n g := by
  by_contra h
  have h1 : (g + n / g) / 2 < s := not_le.1 h
  have h2 : n / g ≤ 2 * s - g - 1 := by omega
  have h3 : n < (n / g + 1) * g := Int.lt_ediv_add_one_mul_self n hg
  have h4 : (n / g + 1) * g ≤ (2 * s - g) * g := mul_le_mul_of_nonneg_right (by omega) hg.le
  nlinarith [sq_nonneg (s - g)]

theorem next_lt {n g s : Int} (hs0 : 0 ≤ s) (hs : n < (s + 1) * (s + 1)) (hg : s < g) :
    next n g < g := by
  have h1 : n < g * g := lt_of_lt_of_le hs (mul_self_le_mul_self (by omega) (by omega))
  have h2 : n / g < g := Int.ediv_lt_of_lt_mul (by omega) h1
  unfold next
  omega

theorem next_fix {n s : Int} (hs0 : 0 < s) (h1 : s * s ≤ n) (h2 : n < (s + 1) * (s + 1))
    (h3 : n + 1 ≠ (s + 1) * (s + 1)) : next n s = s := by
  have h4 : s ≤ n / s := (Int.le_ediv_iff_mul_le hs0).2 h1
  have h5 : n / s < s + 2 := Int.ediv_lt_of_lt_mul hs0 (by
    rcases lt_or_gt_of_ne h3 with h | h
    · nlinarith
    · omega)
  unfold next
  omega

theorem next_up {n s : Int} (hs0 : 0 < s) (h3 : n + 1 = (s + 1) * (s + 1)) : next n s = s + 1 := by
  have : n = s * (s + 2) := by linarith [mul_add (s + 1) s 1]
  rw [next, this, Int.mul_ediv_cancel_left _ hs0.ne']
  omega

/-- Whatever the loop returns is the floor of the root. -/
theorem sqrtLoop_ok {n s : Int} (hs0 : 0 < s) (h1 : s * s ≤ n) (h2 : n < (s + 1) * (s + 1)) :
    ∀ (f : ℕ) (g : Int), 0 < g → ∀ r, sqrtLoop n f g = some r → r = .ok s ∧ next n s = s
  | 0, _, _, _, h => by cases h
  | f + 1, g, hg, r, h => by
    rw [sqrtLoop_succ hg.ne'] at h
    split_ifs at h with e
    · have e1 : s ≤ g := e ▸ le_next h1 hg
      have e2 : ¬s < g := fun hl => absurd e (next_lt hs0.le h2 hl).ne
      have e3 : g = s := by omega
      subst e3
      rw [Option.some.injEq] at h
      exact ⟨by rw [← h, e], e⟩
    · exact sqrtLoop_ok hs0 h1 h2 f _ (hs0.trans_le (le_next h1 hg)) r h

theorem sqrtLoop_ends {n s : Int} (hs0 : 0 < s) (h1 : s * s ≤ n) (h2 : n < (s + 1) * (s + 1))
    (h3 : next n s = s) : ∀ (k f : ℕ) (g : Int), s ≤ g → g - s ≤ k → k < f →
      sqrtLoop n f g = some (.ok s)
  | k, 0, _, _, _, hf => absurd hf (Nat.not_lt_zero k)
  | 0, f + 1, g, hg, hk, _ => by
    have : g = s := by omega
    rw [this, sqrtLoop_succ hs0.ne', if_pos h3, h3]
  | k + 1, f + 1, g, hg, hk, hf => by
    rw [sqrtLoop_succ (by omega)]
    by_cases e : g = s
    · rw [e, if_pos h3, h3]
    · have e1 := next_lt hs0.le h2 (lt_of_le_of_ne hg (Ne.symm e))
      rw [if_neg e1.ne]
      exact sqrtLoop_ends hs0 h1 h2 h3 k f _ (le_next h1 (by omega)) (by omega) (by omega)

theorem sqrtLoop_neg {n : Int} (hn : n < 0) :
    ∀ (f : ℕ) (g r : Int), sqrtLoop n f g ≠ some (.ok r)
  | 0, _, _, h => by cases h
  | f + 1, g, r, h => by
    by_cases hg : g = 0
    · rw [sqrtLoop, if_pos hg] at h
      cases h
    · rw [sqrtLoop_succ hg] at h
      split_ifs at h with e
      · unfold next at e
        rcases lt_or_gt_of_ne hg with h1 | h1
        · have h2 : 0 < n / g := Int.ediv_pos_of_neg_of_neg hn h1
          omega
        · have h2 : n / g < 0 := Int.ediv_neg_of_neg_of_pos hn h1
          omega
      · exact sqrtLoop_neg hn f _ r h

theorem floor_exists {n : Int} (hn : 0 < n) :
    ∃ s : Int, 0 < s ∧ s * s ≤ n ∧ n < (s + 1) * (s + 1) := by
  obtain ⟨m, rfl⟩ : ∃ m : ℕ, n = m := ⟨n.toNat, by omega⟩
  refine ⟨(Nat.sqrt m : ℕ), ?_, ?_, ?_⟩
  · exact_mod_cast Nat.sqrt_pos.2 (by exact_mod_cast hn)
  · exact_mod_cast Nat.sqrt_le m
  · exact_mod_cast Nat.lt_succ_sqrt m

theorem floor_unique {n s t : Int} (hs0 : 0 ≤ s) (ht0 : 0 ≤ t) (h1 : s * s ≤ n)
    (h2 : n < (s + 1) * (s + 1)) (h3 : t * t ≤ n) (h4 : n < (t + 1) * (t + 1)) : s = t := by
  have := lt_of_mul_self_lt_mul_self₀ (by omega) (h1.trans_lt h4)
  have := lt_of_mul_self_lt_mul_self₀ (by omega) (h3.trans_lt h2)
  omega

theorem guess_pos (n : Int) : (0 : Int) < 2 ^ (bitLen n / 2) := by positivity

theorem sqrt_ok {n s : Int} (hs0 : 0 < s) (h1 : s * s ≤ n) (h2 : n < (s + 1) * (s + 1))
    (h3 : n + 1 ≠ (s + 1) * (s + 1)) : ∃ f0 : ℕ, ∀ f, f0 ≤ f → sqrt f n = some (.ok s) := by
  have h4 := next_fix hs0 h1 h2 h3
  have hg := guess_pos n
  refine ⟨(next n (2 ^ (bitLen n / 2)) - s).toNat + 2, fun f hf => ?_⟩
  obtain ⟨f, rfl⟩ : ∃ e, f = e + 1 := ⟨f - 1, by omega⟩
  have h5 := le_next h1 hg
  rw [sqrt, sqrtLoop_succ hg.ne']
  split_ifs with e
  · have e1 : ¬s < (2 : Int) ^ (bitLen n / 2) := fun hl => absurd e (next_lt hs0.le h2 hl).ne
    rw [e] at h5
    rw [e, show (2 : Int) ^ (bitLen n / 2) = s by omega]
  · exact sqrtLoop_ends hs0 h1 h2 h4 _ _ _ h5 (Int.self_le_toNat _) (by omega)

/-! ### The Euclidean algorithm -/

/-- The state after the assignments of one iteration, btcec/gensecp256k1.go:206-226. -/
def EvState.step (c : EvState) : EvState :=
  { c with
    v := c.u, u := c.v - c.v / c.u * c.u, x2 := c.x1, x1 := c.x2 - c.v / c.u * c.x1,
    y2 := c.y1, y1 := c.y2 - c.v / c.u * c.y1 }

/-- What stays true of the sequence of remainders: both remainders are combinations of N and
lambda, and consecutive pairs have determinant N up to sign (with signs that alternate).
See btcec/gensecp256k1.go:187-281. -/
structure Inv (N lam : Int) (c : EvState) : Prop where
  u_nonneg : 0 ≤ c.u
  v_nonneg : 0 ≤ c.v
  hu : c.x1 * N + c.y1 * lam = c.u
  hv : c.x2 * N + c.y2 * lam = c.v
  dvd : ∀ d, d ∣ c.u → d ∣ c.v → d ∣ N ∧ d ∣ lam
  sgn : ∃ e : Int, (e = 1 ∨ e = -1) ∧ 0 ≤ e * c.y1 ∧ 0 ≤ -(e * c.y2) ∧
    e * c.y1 * c.v - e * c.y2 * c.u = N

theorem step_u {c : EvState} : c.step.u = c.v % c.u := by
  show c.v - c.v / c.u * c.u = _
  rw [Int.emod_def, mul_comm]

theorem Inv.step {N lam : Int} {c : EvState} (h : Inv N lam c) (hu : c.u ≠ 0) :
    Inv N lam c.step := by
  obtain ⟨h1, h2, h3, h4, h8, e, he, h5, h6, h7⟩ := h
  have hq : 0 ≤ c.v / c.u := Int.ediv_nonneg h2 h1
  refine ⟨?_, h1, ?_, h3, fun d d1 d2 => h8 d d2 ?_, -e, ?_, ?_, ?_, ?_⟩
  · rw [step_u]; exact Int.emod_nonneg _ hu
  · show (c.x2 - c.v / c.u * c.x1) * N + (c.y2 - c.v / c.u * c.y1) * lam = c.v - c.v / c.u * c.u
    linear_combination h4 - c.v / c.u * h3
  · have d1 : d ∣ c.v - c.v / c.u * c.u := d1
    rw [← sub_add_cancel c.v (c.v / c.u * c.u)]
    exact dvd_add d1 (Dvd.dvd.mul_left d2 _)
  · omega
  · show 0 ≤ -e * (c.y2 - c.v / c.u * c.y1)
    have := mul_nonneg hq h5
    linarith [mul_assoc e (c.v / c.u) c.y1, mul_left_comm e (c.v / c.u) c.y1]
  · show 0 ≤ -(-e * c.y1)
    linarith
  · show -e * (c.y2 - c.v / c.u * c.y1) * c.u - -e * c.y1 * (c.v - c.v / c.u * c.u) = N
    linear_combination h7

theorem step_lt {N lam : Int} {c : EvState} (h : Inv N lam c) (hu : c.u ≠ 0) : c.step.u < c.u := by
  rw [step_u]
  exact Int.emod_lt_of_pos _ (lt_of_le_of_ne h.u_nonneg (Ne.symm hu))

/-- What a pair of vectors has to satisfy.  See btcec/gensecp256k1.go:187-281. -/
def Good (N lam nSqrt : Int) (r : Int × Int × Int × Int) : Prop :=
  N ∣ r.1 + r.2.1 * lam ∧ N ∣ r.2.2.1 + r.2.2.2 * lam ∧
    (r.1 * r.2.2.2 - r.2.2.1 * r.2.1 = N ∨ r.1 * r.2.2.2 - r.2.2.1 * r.2.1 = -N) ∧
    0 ≤ r.1 ∧ r.1 < nSqrt ∧ |r.2.1| * nSqrt ≤ N

/-- The last iteration. -/
theorem evLoop_last {N lam nSqrt : Int} {c : EvState} (h : Inv N lam c) (hu : c.u ≠ 0)
    (hf : c.found = true) (ho : c.oneMore = true) (ha : c.a1 = c.u) (hb : c.b1 = -c.y1)
    (hr : c.ri = c.v) (ht : c.ti = c.y2) (hlt : c.u < nSqrt) (hle : nSqrt ≤ c.v) (f : ℕ) :
    ∃ r, evLoop nSqrt (f + 1) c = some r ∧ Good N lam nSqrt r := by
  have h' := h.step hu
  obtain ⟨h1, h2, h3, h4, _, e, he, h5, h6, h7⟩ := h
  have hs : c.u.sign ≠ 0 := fun e => hu (Int.sign_eq_zero_iff_zero.1 e)
  have d1 : N ∣ c.u + -c.y1 * lam := ⟨c.x1, by linear_combination -h3⟩
  have hb1 : |(-c.y1)| * nSqrt ≤ N := by
    have e1 : |(-c.y1)| = e * c.y1 := by
      rw [abs_neg]
      rcases he with rfl | rfl
      · rw [one_mul] at h5 ⊢; exact abs_of_nonneg h5
      · rw [neg_one_mul] at h5 ⊢; exact abs_of_nonpos (by omega)
    rw [e1]
    have := mul_le_mul_of_nonneg_left hle h5
    have := mul_nonneg h6 h1
    linarith [neg_mul (e * c.y2) c.u]
  rw [evLoop, if_pos hs]
  dsimp only
  rw [hf, ho, Bool.not_true, Bool.false_and, if_neg (by decide), if_pos rfl]
  have sg : ∀ d : Int, d = c.y1 * c.v - c.y2 * c.u → d = N ∨ d = -N := by
    intro d hd
    rcases he with rfl | rfl
    · left; linear_combination hd + h7
    · right; linear_combination hd - h7
  split_ifs
  · refine ⟨_, rfl, ?_⟩
    rw [ha, hb, hr, ht]
    refine ⟨d1, ⟨c.x2, by linear_combination -h4⟩, sg _ (by ring), h1, hlt, hb1⟩
  · refine ⟨_, rfl, ?_⟩
    rw [ha, hb]
    refine ⟨d1, ⟨c.x2 - c.v / c.u * c.x1, ?_⟩, sg _ (by ring), h1, hlt, hb1⟩
    linear_combination c.v / c.u * h3 - h4

/-- The iterations before. -/
theorem evLoop_good {N lam nSqrt : Int} (hn : 1 < nSqrt) (hc : IsCoprime N lam) :
    ∀ (k : ℕ) (c : EvState), Inv N lam c → c.found = false → c.oneMore = false → nSqrt ≤ c.u →
      c.ri = c.u → c.ti = c.y1 → c.u ≤ k → ∀ f, k + 1 ≤ f →
      ∃ r, evLoop nSqrt f c = some r ∧ Good N lam nSqrt r
  | 0, c, _, _, _, hu, _, _, hk, _, _ => by
    exfalso
    have : c.u ≤ 0 := by exact_mod_cast hk
    omega
  | k + 1, c, h, hf, ho, hu, hr, ht, hk, f, hfu => by
    obtain ⟨f, rfl⟩ : ∃ e, f = e + 1 := ⟨f - 1, by omega⟩
    have hu0 : c.u ≠ 0 := by omega
    have hs : c.u.sign ≠ 0 := fun e => hu0 (Int.sign_eq_zero_iff_zero.1 e)
    have h' := h.step hu0
    have hlt := step_lt h hu0
    have hus : c.step.u = c.v - c.v / c.u * c.u := rfl
    rw [evLoop, if_pos hs]
    dsimp only
    rw [hf, ho, Bool.not_false, Bool.true_and]
    by_cases hl : c.step.u < nSqrt
    · rw [if_pos (by rw [← hus]; exact decide_eq_true hl)]
      obtain ⟨f, rfl⟩ : ∃ e, f = e + 1 := ⟨f - 1, by omega⟩
      have hc0 : c.step.u ≠ 0 := by
        intro e0
        -- the last remainder divides N and lambda
        have d : c.u ∣ c.v := Int.dvd_of_emod_eq_zero (by rw [← step_u]; exact e0)
        obtain ⟨dN, dl⟩ := h.dvd c.u dvd_rfl d
        have := Int.isUnit_iff.1 (hc.isUnit_of_dvd' dN dl)
        omega
      refine evLoop_last (N := N) (lam := lam) ?_ ?_ rfl rfl rfl ?_ ?_ ?_ ?_ ?_ f
      · obtain ⟨h1, h2, h3, h4, h5, h6⟩ := h'
        exact ⟨h1, h2, h3, h4, h5, h6⟩
      · exact hc0
      · show (c.y2 - c.v / c.u * c.y1) * -1 = -(c.y2 - c.v / c.u * c.y1)
        ring
      · exact hr
      · exact ht
      · exact hl
      · exact hu
    · rw [if_neg (by rw [← hus]; simpa using hl), if_neg (by decide)]
      refine evLoop_good hn hc k _ ?_ rfl rfl ?_ rfl rfl ?_ f (by omega)
      · obtain ⟨h1, h2, h3, h4, h5, h6⟩ := h'
        exact ⟨h1, h2, h3, h4, h5, h6⟩
      · exact not_lt.1 hl
      · show c.step.u ≤ k
        have : c.u ≤ k + 1 := by exact_mod_cast hk
        omega

end Zk.Gen
