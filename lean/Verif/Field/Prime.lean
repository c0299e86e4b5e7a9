import Mathlib.NumberTheory.LucasPrimality
import Mathlib.Tactic.NormNum.Prime

/-!
# Primality of the field prime and of the group order

Lucas certificates, checked by the kernel.
-/

namespace Zk.Field

/-- Square and multiply: `acc * a ^ e % m` for `e < 2 ^ fuel`.  See btcec/btcec.go:932-981. -/
def powModAux (m : ℕ) : ℕ → ℕ → ℕ → ℕ → ℕ
  | 0, _, _, acc => acc
  | k + 1, a, e, acc =>
    powModAux m k (a * a % m) (e / 2) (if e % 2 = 1 then acc * a % m else acc)

/-- Modular power for exponents of at most 256 bits.  See btcec/btcec.go:932-981. -/
def powMod (a e m : ℕ) : ℕ := powModAux m 256 a e 1

theorem powModAux_cast (m : ℕ) : ∀ (k a e acc : ℕ), e < 2 ^ k →
    ((powModAux m k a e acc : ℕ) : ZMod m) = (acc : ZMod m) * (a : ZMod m) ^ e
  | 0, a, e, acc, h => by
    have : e = 0 := by simpa using h
    subst this
    simp [powModAux]
  | k + 1, a, e, acc, h => by
    have h2 : e / 2 < 2 ^ k := by rw [pow_succ] at h; omega
    have he := Nat.div_add_mod e 2
    rw [powModAux, powModAux_cast m k _ _ _ h2]
    conv_rhs => rw [← he, pow_add, pow_mul]
    rcases Nat.mod_two_eq_zero_or_one e with h0 | h1
    · rw [if_neg (by omega), h0]
      simp [ZMod.natCast_mod, pow_two]
    · rw [if_pos h1, h1]
      simp only [ZMod.natCast_mod, Nat.cast_mul, pow_two, pow_one]
      ring

theorem powMod_cast {a e m : ℕ} (h : e < 2 ^ 256) :
    ((powMod a e m : ℕ) : ZMod m) = (a : ZMod m) ^ e := by
  rw [powMod, powModAux_cast m 256 a e 1 h]
  simp

theorem lucas_cert {p : ℕ} (a : ℕ) (fs : List ℕ) (hp : 1 < p) (hlt : p ≤ 2 ^ 256)
    (hfs : ∀ q ∈ fs, q.Prime) (hprod : fs.prod = p - 1) (h1 : powMod a (p - 1) p % p = 1)
    (h2 : ∀ q ∈ fs, powMod a ((p - 1) / q) p % p ≠ 1) : p.Prime := by
  have key : ∀ e, e < 2 ^ 256 → ((a : ZMod p) ^ e = 1 ↔ powMod a e p % p = 1) := by
    intro e he
    rw [← powMod_cast he, ← Nat.cast_one, ZMod.natCast_eq_natCast_iff, Nat.ModEq,
      Nat.mod_eq_of_lt hp]
  refine lucas_primality p a ((key _ (by omega)).2 h1) ?_
  intro q hq hqd h
  rw [← hprod] at hqd
  obtain ⟨r, hr, hqr⟩ := (Prime.dvd_prod_iff hq.prime).1 hqd
  have : q = r := (Nat.prime_dvd_prime_iff_eq hq (hfs r hr)).1 hqr
  subst this
  exact h2 q hr ((key _ (lt_of_le_of_lt (Nat.div_le_self _ _) (by omega))).1 h)

theorem prime_4681609 : Nat.Prime 4681609 := by
  refine lucas_cert 23 [2, 2, 2, 3, 97, 2011] (by norm_num) (by norm_num) ?_ (by norm_num)
    (by decide +kernel) (by decide +kernel)
  simp only [List.mem_cons, List.not_mem_nil, or_false, forall_eq_or_imp, forall_eq]
  exact ⟨by norm_num, by norm_num, by norm_num, by norm_num, by norm_num, by norm_num⟩

theorem prime_107361793816595537 : Nat.Prime 107361793816595537 := by
  refine lucas_cert 3 [2, 2, 2, 2, 16699, 85831, 4681609] (by norm_num) (by norm_num) ?_ (by
      norm_num)
    (by decide +kernel) (by decide +kernel)
  simp only [List.mem_cons, List.not_mem_nil, or_false, forall_eq_or_imp, forall_eq]
  exact ⟨by norm_num, by norm_num, by norm_num, by norm_num, by norm_num, by norm_num,
      prime_4681609⟩

theorem prime_120233 : Nat.Prime 120233 := by
  refine lucas_cert 3 [2, 2, 2, 7, 19, 113] (by norm_num) (by norm_num) ?_ (by norm_num)
    (by decide +kernel) (by decide +kernel)
  simp only [List.mem_cons, List.not_mem_nil, or_false, forall_eq_or_imp, forall_eq]
  exact ⟨by norm_num, by norm_num, by norm_num, by norm_num, by norm_num, by norm_num⟩

theorem prime_44706919 : Nat.Prime 44706919 := by
  refine lucas_cert 6 [2, 3, 797, 9349] (by norm_num) (by norm_num) ?_ (by norm_num)
    (by decide +kernel) (by decide +kernel)
  simp only [List.mem_cons, List.not_mem_nil, or_false, forall_eq_or_imp, forall_eq]
  exact ⟨by norm_num, by norm_num, by norm_num, by norm_num⟩

theorem prime_174723607534414371449 : Nat.Prime 174723607534414371449 := by
  refine lucas_cert 3 [2, 2, 2, 17, 59, 4051, 120233, 44706919] (by norm_num) (by norm_num) ?_ (by
      norm_num)
    (by decide +kernel) (by decide +kernel)
  simp only [List.mem_cons, List.not_mem_nil, or_false, forall_eq_or_imp, forall_eq]
  exact ⟨by norm_num, by norm_num, by norm_num, by norm_num, by norm_num, by norm_num,
      prime_120233, prime_44706919⟩

theorem prime_305873 : Nat.Prime 305873 := by
  refine lucas_cert 3 [2, 2, 2, 2, 7, 2731] (by norm_num) (by norm_num) ?_ (by norm_num)
    (by decide +kernel) (by decide +kernel)
  simp only [List.mem_cons, List.not_mem_nil, or_false, forall_eq_or_imp, forall_eq]
  exact ⟨by norm_num, by norm_num, by norm_num, by norm_num, by norm_num, by norm_num⟩

theorem prime_545358713 : Nat.Prime 545358713 := by
  refine lucas_cert 5 [2, 2, 2, 41, 59, 28181] (by norm_num) (by norm_num) ?_ (by norm_num)
    (by decide +kernel) (by decide +kernel)
  simp only [List.mem_cons, List.not_mem_nil, or_false, forall_eq_or_imp, forall_eq]
  exact ⟨by norm_num, by norm_num, by norm_num, by norm_num, by norm_num, by norm_num⟩

theorem prime_1627771 : Nat.Prime 1627771 := by
  refine lucas_cert 3 [2, 3, 5, 29, 1871] (by norm_num) (by norm_num) ?_ (by norm_num)
    (by decide +kernel) (by decide +kernel)
  simp only [List.mem_cons, List.not_mem_nil, or_false, forall_eq_or_imp, forall_eq]
  exact ⟨by norm_num, by norm_num, by norm_num, by norm_num, by norm_num⟩

theorem prime_297159362677 : Nat.Prime 297159362677 := by
  refine lucas_cert 2 [2, 2, 3, 3, 11, 461, 1627771] (by norm_num) (by norm_num) ?_ (by norm_num)
    (by decide +kernel) (by decide +kernel)
  simp only [List.mem_cons, List.not_mem_nil, or_false, forall_eq_or_imp, forall_eq]
  exact ⟨by norm_num, by norm_num, by norm_num, by norm_num, by norm_num, by norm_num,
      prime_1627771⟩

theorem prime_29047611873442575647497758179 : Nat.Prime 29047611873442575647497758179 := by
  refine lucas_cert 2 [2, 293, 305873, 545358713, 297159362677] (by norm_num) (by norm_num) ?_ (by
      norm_num)
    (by decide +kernel) (by decide +kernel)
  simp only [List.mem_cons, List.not_mem_nil, or_false, forall_eq_or_imp, forall_eq]
  exact ⟨by norm_num, by norm_num, prime_305873, prime_545358713, prime_297159362677⟩

theorem prime_341948486974166000522343609283189 : Nat.Prime 341948486974166000522343609283189 := by
  refine lucas_cert 2 [2, 2, 3, 3, 3, 109, 29047611873442575647497758179] (by norm_num) (by
      norm_num) ?_ (by norm_num)
    (by decide +kernel) (by decide +kernel)
  simp only [List.mem_cons, List.not_mem_nil, or_false, forall_eq_or_imp, forall_eq]
  exact ⟨by norm_num, by norm_num, by norm_num, by norm_num, by norm_num, by norm_num,
      prime_29047611873442575647497758179⟩

theorem prime_N : Nat.Prime 115792089237316195423570985008687907852837564279074904382605163141518161494337 := by
  refine lucas_cert 7 [2, 2, 2, 2, 2, 2, 3, 149, 631, 107361793816595537, 174723607534414371449,
      341948486974166000522343609283189] (by norm_num) (by norm_num) ?_ (by norm_num)
    (by decide +kernel) (by decide +kernel)
  simp only [List.mem_cons, List.not_mem_nil, or_false, forall_eq_or_imp, forall_eq]
  exact ⟨by norm_num, by norm_num, by norm_num, by norm_num, by norm_num, by norm_num, by
      norm_num, by norm_num, by norm_num, prime_107361793816595537, prime_174723607534414371449,
      prime_341948486974166000522343609283189⟩

theorem prime_13331831 : Nat.Prime 13331831 := by
  refine lucas_cert 13 [2, 5, 971, 1373] (by norm_num) (by norm_num) ?_ (by norm_num)
    (by decide +kernel) (by decide +kernel)
  simp only [List.mem_cons, List.not_mem_nil, or_false, forall_eq_or_imp, forall_eq]
  exact ⟨by norm_num, by norm_num, by norm_num, by norm_num⟩

theorem prime_173378833005251801 : Nat.Prime 173378833005251801 := by
  refine lucas_cert 6 [2, 2, 2, 5, 5, 2621, 24809, 13331831] (by norm_num) (by norm_num) ?_ (by
      norm_num)
    (by decide +kernel) (by decide +kernel)
  simp only [List.mem_cons, List.not_mem_nil, or_false, forall_eq_or_imp, forall_eq]
  exact ⟨by norm_num, by norm_num, by norm_num, by norm_num, by norm_num, by norm_num, by
      norm_num, prime_13331831⟩

theorem prime_22149492674086928081353 : Nat.Prime 22149492674086928081353 := by
  refine lucas_cert 5 [2, 2, 2, 3, 5323, 173378833005251801] (by norm_num) (by norm_num) ?_ (by
      norm_num)
    (by decide +kernel) (by decide +kernel)
  simp only [List.mem_cons, List.not_mem_nil, or_false, forall_eq_or_imp, forall_eq]
  exact ⟨by norm_num, by norm_num, by norm_num, by norm_num, by norm_num, prime_173378833005251801⟩

theorem prime_132896956044521568488119 : Nat.Prime 132896956044521568488119 := by
  refine lucas_cert 6 [2, 3, 22149492674086928081353] (by norm_num) (by norm_num) ?_ (by norm_num)
    (by decide +kernel) (by decide +kernel)
  simp only [List.mem_cons, List.not_mem_nil, or_false, forall_eq_or_imp, forall_eq]
  exact ⟨by norm_num, by norm_num, prime_22149492674086928081353⟩

theorem prime_1206781 : Nat.Prime 1206781 := by
  refine lucas_cert 10 [2, 2, 3, 5, 20113] (by norm_num) (by norm_num) ?_ (by norm_num)
    (by decide +kernel) (by decide +kernel)
  simp only [List.mem_cons, List.not_mem_nil, or_false, forall_eq_or_imp, forall_eq]
  exact ⟨by norm_num, by norm_num, by norm_num, by norm_num, by norm_num⟩

theorem prime_7240687 : Nat.Prime 7240687 := by
  refine lucas_cert 3 [2, 3, 1206781] (by norm_num) (by norm_num) ?_ (by norm_num)
    (by decide +kernel) (by decide +kernel)
  simp only [List.mem_cons, List.not_mem_nil, or_false, forall_eq_or_imp, forall_eq]
  exact ⟨by norm_num, by norm_num, prime_1206781⟩

theorem prime_107590001 : Nat.Prime 107590001 := by
  refine lucas_cert 3 [2, 2, 2, 2, 5, 5, 5, 5, 7, 29, 53] (by norm_num) (by norm_num) ?_ (by
      norm_num)
    (by decide +kernel) (by decide +kernel)
  simp only [List.mem_cons, List.not_mem_nil, or_false, forall_eq_or_imp, forall_eq]
  exact ⟨by norm_num, by norm_num, by norm_num, by norm_num, by norm_num, by norm_num, by
      norm_num, by norm_num, by norm_num, by norm_num, by norm_num⟩

theorem prime_255515944373312847190720520512484175977 : Nat.Prime 255515944373312847190720520512484175977 := by
  refine lucas_cert 3 [2, 2, 2, 7, 7, 11, 1627, 2657, 4423, 41201, 96557, 7240687, 107590001] (by
      norm_num) (by norm_num) ?_ (by norm_num)
    (by decide +kernel) (by decide +kernel)
  simp only [List.mem_cons, List.not_mem_nil, or_false, forall_eq_or_imp, forall_eq]
  exact ⟨by norm_num, by norm_num, by norm_num, by norm_num, by norm_num, by norm_num, by
      norm_num, by norm_num, by norm_num, by norm_num, by norm_num, prime_7240687, prime_107590001⟩

theorem prime_205115282021455665897114700593932402728804164701536103180137503955397371 : Nat.Prime 205115282021455665897114700593932402728804164701536103180137503955397371 := by
  refine lucas_cert 10 [2, 3, 5, 29, 29, 31, 7723, 132896956044521568488119,
      255515944373312847190720520512484175977] (by norm_num) (by norm_num) ?_ (by norm_num)
    (by decide +kernel) (by decide +kernel)
  simp only [List.mem_cons, List.not_mem_nil, or_false, forall_eq_or_imp, forall_eq]
  exact ⟨by norm_num, by norm_num, by norm_num, by norm_num, by norm_num, by norm_num, by
      norm_num, prime_132896956044521568488119, prime_255515944373312847190720520512484175977⟩

theorem prime_P : Nat.Prime 115792089237316195423570985008687907853269984665640564039457584007908834671663 := by
  refine lucas_cert 3 [2, 3, 7, 13441,
      205115282021455665897114700593932402728804164701536103180137503955397371] (by norm_num) (by
      norm_num) ?_ (by norm_num)
    (by decide +kernel) (by decide +kernel)
  simp only [List.mem_cons, List.not_mem_nil, or_false, forall_eq_or_imp, forall_eq]
  exact ⟨by norm_num, by norm_num, by norm_num, by norm_num,
      prime_205115282021455665897114700593932402728804164701536103180137503955397371⟩

end Zk.Field
