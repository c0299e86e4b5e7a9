import Verif.Proto.AbcProps
import Verif.Proto.SigmaProps
import Mathlib.Data.Nat.Prime.Int

/-!
# What remains of C35, C49 and C50
-/

namespace Zk.Proto

open Zk

variable {cp : Params} {E : Type} [AddCommGroup E]

/-! ## C35 -/

/-- C35, what holds: if the logarithms differ, and also differ from each other's negative, every pair of
random commitments is accepted for at most two challenges.  Missing: logarithms x and -x, for which
`C35_forgery` is accepted, and the points at which `Mult` is wrong. -/
theorem C35_sound_partial (L : Lawful cp E) (b1 b2 t1 t2 : E) (x y : Int) (h1 : b1 ≠ 0) (h2 : b2 ≠ 0)
    (hxy : ¬ x ≡ y [ZMOD cp.C.N]) (hxy' : ¬ x ≡ -y [ZMOD cp.C.N])
    (o1 : L.MultOk b1) (o2 : L.MultOk (x • b1)) (o3 : L.MultOk b2) (o4 : L.MultOk (y • b2)) :
    {c : Int | ∃ (hash : Bytes → Bytes) (s : Int),
      equivalenceVerify hash cp (some ⟨L.pe t1, L.pe t2, some c, some s⟩)
        (L.pe b1) (L.pe (x • b1)) (L.pe b2) (L.pe (y • b2)) = .ok accept}.encard ≤ 2 := by
  refine C34_at_most_two_challenges L b1 (x • b1) b2 (y • b2) t1 t2 ?_
  rintro ⟨z, hz1, hz2⟩
  rw [L.multOk_iff_eff] at o1 o2 o3 o4
  rw [o1, o2] at hz1
  rw [o3, o4] at hz2
  have e1 : x ≡ z [ZMOD cp.C.N] := (L.smul_eq_smul h1).1 hz1
  rcases hz2 with hz2 | hz2
  · have e2 : y ≡ z [ZMOD cp.C.N] := (L.smul_eq_smul h2).1 hz2
    exact hxy (e1.trans e2.symm)
  · rw [← neg_smul] at hz2
    have e2 : y ≡ -z [ZMOD cp.C.N] := (L.smul_eq_smul h2).1 hz2
    exact hxy' (e1.trans (by simpa using e2.neg.symm))

example : ¬ (1 : Int) ≡ 2 [ZMOD Toy.params.C.N] ∧ ¬ (1 : Int) ≡ -2 [ZMOD Toy.params.C.N] ∧
    Toy.lawful.MultOk ((1 : Int) • 3) ∧ Toy.lawful.MultOk ((2 : Int) • (5 : ZMod 7)) := by
  refine ⟨by decide, by decide, ?_, ?_⟩ <;> rw [Toy.lawful.multOk_iff_eff]
  · exact Toy.eff_plain _ (by decide)
  · exact Toy.eff_plain _ (by decide)

/-! ## C49 -/

/-- C49 as a user needs it.  See inequality.go:14-43. -/
def InequalityComplete (L : Lawful cp E) : Prop :=
  ∀ (hash : Bytes → Bytes) (A B tA tB : E) (a b ra rb sk : Int) (rnd : ABCRand),
    Committed L A B tA tB a b ra rb sk → ¬ (cp.C.N : Int) ∣ sk → ¬ a ≡ b [ZMOD cp.C.N] →
    Succeeds (newInequalityProof hash cp (L.pe A) (L.pe B) (L.pe tA) (L.pe tB) a b sk rnd)
      fun p => inequalityVerify hash cp p (L.pe (A - B)) (L.pe (tA - tB))

/-- C49 is false on every lawful curve: for the values 4 and 5 with blinding factors 0 the difference of
the commitments is -G, and the proof is rejected. -/
theorem C49_refuted (L : Lawful cp E) : ¬ InequalityComplete L := by
  intro h
  have hN := L.five_lt
  have h1 : ¬ (cp.C.N : Int) ∣ 1 := by
    intro h; have := Int.le_of_dvd (by norm_num) h; omega
  have h1' : ¬ (cp.C.N : Int) ∣ -1 := by rwa [Int.dvd_neg]
  have hcom : Committed L ((4 : Int) • L.g) ((5 : Int) • L.g) 0 0 4 5 0 0 1 := by
    refine ⟨?_, ?_, by module, by module⟩ <;> rw [L.pedCommitR_pe] <;> congr 2 <;> module
  have hd : (4 : Int) • L.g - (5 : Int) • L.g = -L.g := by module
  obtain ⟨pr, hrun, hver⟩ := h (fun _ => [1]) _ _ _ _ 4 5 0 0 1 ⟨1, 0, 0, 0, 0, 0, 0, 0⟩ hcom h1
    (fun he => h1' (by simpa using he.symm.dvd))
  rw [newInequalityProof, if_neg (by decide)] at hrun
  simp only [L.sub_pe, Go.bind_ok, hd, sub_self] at hrun hver
  obtain ⟨isk, hi, hinv⟩ := modInverse_some L.prime h1
  obtain ⟨w, hw1, hw2⟩ := modInverse_some L.prime h1'
  obtain ⟨ct, hr⟩ := newABCProof_right L (fun _ => [1]) (-L.g) 0 (-1) w 1 ⟨1, 0, 0, 0, 0, 0, 0, 0⟩
    (by decide) hw1
  rw [show (4 : Int) - 5 = -1 by norm_num] at hrun
  rw [L.finishABC_pe _ _ _ _ _ _ _ _ _ _ _ hi] at hr
  simp only [hr, Go.bind_ok, Option.isSome_none, Bool.false_eq_true, if_false, Go.pure_eq, Go.ok.injEq,
    Prod.mk.injEq, Option.some.injEq, and_true] at hrun
  change abcVerify _ _ (some pr) _ _ = _ at hver
  rw [← hrun, L.abcVerify_iff] at hver
  have h3 := L.same_iff.1 hver.2.2.1
  simp only [chal_const] at h3
  rw [L.eff_neg_g, L.smul_mod, L.eff_zero] at h3
  have h4 : (2 : Int) • L.g = 0 := by
    rcases h3 with h3 | h3
    · linear_combination (norm := module) h3
    · linear_combination (norm := module) h3
  have := Int.le_of_dvd (by norm_num) ((L.smul_eq_zero L.g_ne).1 h4)
  omega

/-! ## C50 -/

/-- C50, what holds: whoever can answer three challenges for commitments to equal values knows the key, or
an explicit logarithm of G to the base of the blinding factors.  From the accepted proofs one computes `x`
with token = x * commitment (the key, if the blinding factors differ), or `v`, `k`, `l`, `y` that give the
logarithm.  Missing: the holder of the key (`C50_forgery`), and the points at which `Mult` is wrong. -/
theorem C50_keyholder_partial (L : Lawful cp E) (hash : Fin 3 → Bytes → Bytes)
    (A B tA tB : E) (a ra rb sk : Int) (hcom : Committed L A B tA tB a a ra rb sk)
    (PB PC t1 t2 d1 d2 : E) (c j k l dc dc1 dc2 ds1 ds2 : Fin 3 → Int) (ct : ECPoint)
    (hc : Function.Injective c) (hdc : Function.Injective dc)
    (o1 : L.MultOk (A - B)) (o2 : L.MultOk (tA - tB)) (o3 : L.MultOk PC) (o4 : L.MultOk (PC - L.g))
    (h : ∀ i, inequalityVerify (hash i) cp (some ⟨L.pe PB, L.pe PC, L.pe t1, L.pe t2, some (c i),
      some (j i), some (k i), some (l i), ct, some ⟨L.pe d1, L.pe d2, some (dc i), some (dc1 i),
        some (dc2 i), some (ds1 i), some (ds2 i)⟩⟩) (L.pe (A - B)) (L.pe (tA - tB)) = .ok accept) :
    ∃ p q, p ≠ q ∧
      ((∃ x ∈ L.extract (ds1 p) (dc1 p) (ds1 q) (dc1 q), tA - tB = x • (A - B) ∧
          (¬ ra ≡ rb [ZMOD cp.C.N] → x ≡ sk [ZMOD cp.C.N])) ∨
       (∃ v ∈ L.extract (j p) (c p) (j q) (c q), ∃ κ ∈ L.extract (k p) (c p) (k q) (c q),
          ¬ (cp.C.N : Int) ∣ v ∧
          L.g = (L.inv v * ((ra - rb) - κ * ((ra - rb) * sk))) • L.hb) ∨
       (∃ ℓ ∈ L.extract (l p) (c p) (l q) (c q), ∃ y ∈ L.extract (ds2 p) (dc2 p) (ds2 q) (dc2 q),
          L.g = (ℓ - y) • L.hb ∨ L.g = (-ℓ - y) • L.hb)) := by
  obtain ⟨hA, hB, htA, htB⟩ := hcom
  rw [L.pedCommitR_pe, Go.ok.injEq, L.pe_inj] at hA hB
  have hD : A - B = (ra - rb) • L.hb := by rw [← hA, ← hB]; module
  have hT : tA - tB = ((ra - rb) * sk) • L.hb := by rw [htA, htB]; module
  obtain ⟨p, q, hpq, v, hv, κ, hκ, ℓ, hℓ, e1, e2, e3⟩ :=
    C47_soundness L hash (A - B) (tA - tB) PB PC t1 t2 d1 d2 c j k l dc dc1 dc2 ds1 ds2 ct hc hdc h
  rw [L.multOk_iff_eff] at o1 o2 o3 o4
  rw [o1, o2] at e1 e3
  rw [o3] at e2
  rw [o4] at e3
  refine ⟨p, q, hpq, ?_⟩
  have hvg : v • L.g = ((ra - rb) - κ * ((ra - rb) * sk)) • L.hb := by
    rw [hD, hT] at e1
    linear_combination (norm := module) -e1
  rcases e3 with ⟨x, hx, ex⟩ | ⟨y, hy, ey⟩
  · refine .inl ⟨x, hx, ex, fun hne => ?_⟩
    rw [hD, hT, ← mul_smul] at ex
    have h1 : ((ra - rb) * sk) ≡ (x * (ra - rb)) [ZMOD cp.C.N] := (L.smul_eq_smul L.hb_ne).1 ex
    have h2 : (cp.C.N : Int) ∣ (x - sk) * (ra - rb) := by
      have := h1.dvd
      rwa [show x * (ra - rb) - (ra - rb) * sk = (x - sk) * (ra - rb) by ring] at this
    rcases (Nat.prime_iff_prime_int.1 L.prime).dvd_or_dvd h2 with h3 | h3
    · exact ((Int.modEq_iff_dvd).2 h3).symm
    · exact absurd ((Int.modEq_iff_dvd).2 h3).symm hne
  · by_cases hv0 : (cp.C.N : Int) ∣ v
    · refine .inr (.inr ⟨ℓ, hℓ, y, hy, ?_⟩)
      have hvB : v • L.eff PB = 0 := by
        obtain ⟨m, hm⟩ := hv0
        rw [hm, mul_smul, L.N_smul]
      rw [hvB, zero_add] at e2
      rcases e2 with e2 | e2
      · left; rw [e2] at ey; linear_combination (norm := module) -ey
      · right; rw [e2] at ey; linear_combination (norm := module) -ey
    · refine .inr (.inl ⟨v, hv, κ, hκ, hv0, ?_⟩)
      rw [mul_smul, ← hvg, L.inv_smul hv0]

/-- Hypotheses of C50: the holder of the key 6 answers three challenges for two commitments to 5. -/
example : Committed Toy.lawful 1 5 4 0 5 5 1 0 6 ∧ ¬ (1 : Int) ≡ 0 [ZMOD Toy.params.C.N] ∧
    Toy.lawful.MultOk (1 - 5) ∧ Toy.lawful.MultOk (4 - 0) ∧ Toy.lawful.MultOk 4 ∧
    Toy.lawful.MultOk (4 - Toy.lawful.g) ∧
    ∀ i : Fin 3, inequalityVerify (fun _ => [UInt8.ofNat i]) Toy.params
      (some ⟨Toy.lawful.pe 0, Toy.lawful.pe 4, Toy.lawful.pe 0, Toy.lawful.pe 0, some ((i : Nat) : Int),
        some 0, some (6 * ((i : Nat) : Int)), some (6 * ((i : Nat) : Int)), Toy.lawful.pe 0,
        some ⟨Toy.lawful.pe 3, Toy.lawful.pe 0, some ((i : Nat) : Int), some ((i : Nat) : Int), some 0,
          some (1 + 6 * ((i : Nat) : Int)), some 0⟩⟩)
      (Toy.lawful.pe (1 - 5)) (Toy.lawful.pe (4 - 0)) = .ok accept := by
  refine ⟨⟨?_, ?_, by decide, by decide⟩, by decide, ?_, ?_, ?_, ?_, ?_⟩
  · rw [Toy.lawful.pedCommitR_pe]; decide
  · rw [Toy.lawful.pedCommitR_pe]; decide
  · exact (Toy.lawful.multOk_iff_eff _).2 (Toy.eff_plain _ (by decide))
  · exact (Toy.lawful.multOk_iff_eff _).2 (Toy.eff_plain _ (by decide))
  · exact (Toy.lawful.multOk_iff_eff _).2 (Toy.eff_plain _ (by decide))
  · exact (Toy.lawful.multOk_iff_eff _).2 (Toy.eff_plain _ (by decide))
  · intro i
    rw [show (1 : ZMod 7) - 5 = 3 by decide, show (4 : ZMod 7) - 0 = 4 by decide]
    refine (Toy.lawful.abcVerify_iff ..).2 ⟨(Toy.lawful.disjunctiveVerify_iff ..).2 ?_, ?_⟩
    · rw [Toy.eff_plain 3 (by decide), Toy.eff_plain 4 (by decide), Toy.lawful.eff_h,
        show (4 : ZMod 7) - Toy.lawful.g = 3 by decide, Toy.eff_plain 3 (by decide)]
      fin_cases i <;> exact ⟨by rfl, by decide, by decide, by decide⟩
    · rw [Toy.eff_plain 3 (by decide), Toy.eff_plain 4 (by decide), Toy.lawful.eff_zero]
      fin_cases i <;> exact ⟨by rfl, by decide, by decide⟩

end Zk.Proto
