import Verif.Gen.SqrtLemmas

/-!
# The vectors for the endomorphism
-/

namespace Zk.Gen

theorem ev_good {N lam : Int} (hN : 3 < N) (hsq : ∀ s : Int, s * s ≠ N + 1) (h0 : 0 ≤ lam)
    (h1 : lam < N) (hd : N ∣ lam * lam + lam + 1) :
    ∃ s : Int, 0 < s ∧ s * s ≤ N ∧ N < (s + 1) * (s + 1) ∧
      ∃ f0 : ℕ, ∀ f, f0 ≤ f → ∃ r, endomorphismVectors f N lam = some (.ok r) ∧ Good N lam s r := by
  obtain ⟨s, hs0, hs1, hs2⟩ := floor_exists (n := N) (by omega)
  refine ⟨s, hs0, hs1, hs2, ?_⟩
  obtain ⟨f0, hf0⟩ := sqrt_ok hs0 hs1 hs2 (fun h => hsq _ h.symm)
  have hs : 1 < s := by
    by_contra h
    have : s = 1 := by omega
    subst this
    omega
  have hc : IsCoprime N lam := by
    obtain ⟨k, hk⟩ := hd
    exact ⟨k, -(lam + 1), by linear_combination -hk⟩
  have hle : N ≤ lam * lam + lam + 1 := Int.le_of_dvd (by positivity) hd
  have hl : s ≤ lam := by
    by_contra h
    have h2 : lam + 1 ≤ s := by omega
    have h3 : (lam + 1) * (lam + 1) ≤ s * s := mul_self_le_mul_self (by omega) h2
    have h4 : lam ≤ 0 := by nlinarith
    have h5 : lam = 0 := by omega
    subst h5
    omega
  refine ⟨f0 + lam.toNat + 2, fun f hf => ?_⟩
  have e1 := hf0 f (by omega)
  obtain ⟨f, rfl⟩ : ∃ e, f = e + 1 := ⟨f - 1, by omega⟩
  have hq : lam / N = 0 := Int.ediv_eq_zero_of_lt h0 h1
  obtain ⟨r, hr, hg⟩ := evLoop_good hs hc lam.toNat
    ⟨lam, N, 0, 1, 1, 0, lam, 1, 0, 0, 0, 0, false, false⟩
    ⟨h0, (by omega : 0 ≤ N), by ring, by ring, fun d d1 d2 => ⟨d2, d1⟩, 1, .inl rfl, by norm_num, by norm_num,
      by ring⟩ rfl rfl hl rfl rfl (by show lam ≤ _; omega) f (by omega)
  refine ⟨r, ?_, hg⟩
  rw [endomorphismVectors, e1]
  simp only
  rw [evLoop, if_pos (fun h => by have := Int.sign_eq_zero_iff_zero.1 h; simp only at this; omega)]
  simp only [hq, zero_mul, sub_zero, Bool.not_false, Bool.true_and]
  rw [if_neg (by simpa using hl), if_neg (by simp), hr]
  rfl

theorem prime_not_sq {N : Int} (hp : Prime N) (hN : 3 < N) (s : Int) : s * s ≠ N + 1 := by
  intro h
  have hd : N ∣ (|s| - 1) * (|s| + 1) := ⟨1, by
    have := abs_mul_abs_self s
    linear_combination this + h⟩
  have h2 : |s| * |s| = N + 1 := by rw [abs_mul_abs_self]; exact h
  have h3 : 2 < |s| := by
    by_contra hc
    have := abs_nonneg s
    nlinarith
  rcases hp.dvd_or_dvd hd with h4 | h4
  · have := Int.le_of_dvd (by omega) h4
    nlinarith
  · have := Int.le_of_dvd (by omega) h4
    nlinarith

theorem sqrt_zero (f : ℕ) : sqrt (f + 2) 0 = some .panic := by
  rw [sqrt, show (2 : Int) ^ (bitLen 0 / 2) = 1 from rfl, sqrtLoop_succ (by decide),
    if_neg (by decide), show next 0 1 = 0 from rfl, sqrtLoop]
  rfl

/-- A number below a square has no fixed point: the loop alternates between two guesses. -/
theorem sqrt_none {n s : Int} (hs0 : 0 < s) (h : n + 1 = (s + 1) * (s + 1)) (f : ℕ) :
    sqrt f n = none := by
  have h1 : s * s ≤ n := by nlinarith
  have h2 : n < (s + 1) * (s + 1) := by omega
  rcases e : sqrt f n with _ | r
  · rfl
  · exfalso
    have := (sqrtLoop_ok hs0 h1 h2 f _ (guess_pos n) r e).2
    rw [next_up hs0 h] at this
    omega

end Zk.Gen
