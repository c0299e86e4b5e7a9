import Verif.Proto.DisjProps
import Verif.Proto.BasicProps

/-! # Properties C45-C51, C87: ABC and inequality proofs -/

namespace Zk.Proto

open Zk

variable {cp : Params} {E : Type} [AddCommGroup E]

/-! ## Lemmas -/

theorem modInverse_some {N : Nat} (hN : N.Prime) {z : Int} (hz : ¬ (N : Int) ∣ z) :
    ∃ w, modInverse z N = some w ∧ (w * z) % (N : Int) = 1 % N := by
  have hg : Int.gcd z N = 1 := by
    rw [Int.gcd_comm, Int.gcd_eq_natAbs, Int.natAbs_natCast]
    exact (Nat.Prime.coprime_iff_not_dvd hN).2 fun h => hz (Int.natCast_dvd.2 h)
  refine ⟨_, by rw [modInverse, if_pos hg], ?_⟩
  have hg' : Int.gcd (z % N) N = 1 := by rw [Int.gcd_emod]; exact hg
  have h := Int.gcd_eq_gcd_ab (z % N) N
  rw [hg'] at h
  have h1 : (1 : Int) % N = (z % N * Int.gcdA (z % N) N) % N := by
    rw [show (1 : Int) = (z % N) * Int.gcdA (z % N) N + N * Int.gcdB (z % N) N from by exact_mod_cast h,
      Int.add_mul_emod_self_left]
  rw [h1, mul_comm, Int.mul_emod, Int.emod_emod, ← Int.mul_emod, Int.mul_emod (z % N), Int.emod_emod,
    ← Int.mul_emod]

theorem modInverse_none {N : Nat} (hN : N.Prime) {z : Int} (hz : (N : Int) ∣ z) :
    modInverse z N = none := by
  rw [modInverse, if_neg]
  intro h
  have : (N : Int) ∣ Int.gcd z N := Int.dvd_coe_gcd hz (dvd_refl _)
  rw [h] at this
  have := Int.le_of_dvd (by norm_num) this
  have := hN.two_le
  omega

namespace Lawful

variable (L : Lawful cp E)

theorem abcVerify_iff (hash : Bytes → Bytes) (cm tok B C t1 t2 : E) (c j k l : Int)
    (ct : ECPoint) (d : Option DisjunctiveProof) :
    abcVerify hash cp (some ⟨L.pe B, L.pe C, L.pe t1, L.pe t2, some c, some j, some k, some l, ct, d⟩)
      (L.pe cm) (L.pe tok) = .ok accept ↔
      disjunctiveVerify hash cp d (L.pe cm) (L.pe tok) (L.pe L.h) (L.pe (C - L.g)) = .ok accept ∧
      L.chal hash [L.g, L.h, cm, tok, B, C, t1, t2] = c ∧
      L.same (c • L.eff cm + t1) (j • L.g + k • L.eff tok) = true ∧
      L.same (c • L.eff C + t2) (j • L.eff B + l • L.hb) = true := by
  have hcons := (C31_verify_consistent_partial hash cp).2.2.2.1 d (L.pe cm) (L.pe tok) (L.pe L.h)
    (L.pe (C - L.g))
  simp only [abcVerify, deref_some, Go.bind_ok, L.G_pe, L.H_pe, L.sub_pe, L.challengeOf₈, cmpEq,
    L.mult_pe, L.add_pe, L.equal_pe, L.eff_g, L.eff_h]
  cases hd : disjunctiveVerify hash cp d (L.pe cm) (L.pe tok) (L.pe L.h) (L.pe (C - L.g)) with
  | panic => simp
  | ok st =>
    rw [hd] at hcons
    rcases hcons st.1 st.2 rfl with ⟨h1, h2⟩ | ⟨h1, h2⟩
    · have hst : st = accept := Prod.ext h1 h2
      subst hst
      simp only [accept, Go.bind_ok, Option.isSome_none, Bool.false_eq_true, if_false, true_and]
      by_cases hc : L.chal hash [L.g, L.h, cm, tok, B, C, t1, t2] = c
      · subst hc
        by_cases h3 : L.same (L.chal hash [L.g, L.h, cm, tok, B, C, t1, t2] • L.eff cm + t1)
            (j • L.g + k • L.eff tok) = true
        · by_cases h4 : L.same (L.chal hash [L.g, L.h, cm, tok, B, C, t1, t2] • L.eff C + t2)
              (j • L.eff B + l • L.hb) = true
          · simp [h3, h4]
          · simp [h3, h4, reject]
        · simp [h3, reject]
      · simp [hc, reject]
    · have hs : st.2.isSome = true := by
        cases h : st.2 with
        | none => exact absurd h h2
        | some _ => rfl
      have hst : st ≠ accept := by
        intro h
        rw [h] at h1
        exact absurd h1 (by decide)
      simp [hs, hst]

theorem finishABC_pe (hash : Bytes → Bytes) (cm tok B C : E) (value sk isk : Int) (rnd : ABCRand)
    (ct : ECPoint) (d : Option DisjunctiveProof) (hs : modInverse sk cp.C.N = some isk) :
    finishABC hash cp (L.pe cm) (L.pe tok) value sk rnd (L.pe B) (L.pe C) ct d =
      (let t1 := rnd.u1 • L.g + rnd.u2 • L.eff tok
       let t2 := rnd.u1 • L.eff B + rnd.u3 • L.hb
       let c := L.chal hash [L.g, L.h, cm, tok, B, C, t1, t2]
       .ok (some ⟨L.pe B, L.pe C, L.pe t1, L.pe t2, some c,
          some ((rnd.u1 + value * c) % (cp.C.N : Int)), some ((rnd.u2 + isk * c) % (cp.C.N : Int)),
          some (rnd.u3 + (rnd.uc - value * rnd.ub) * c), ct, d⟩, none)) := by
  simp [finishABC, L.G_pe, L.H_pe, L.mult_pe, L.add_pe, L.challengeOf₈, hs, L.eff_g, L.eff_h]

end Lawful

/-- What the left prover returns. -/
theorem newABCProof_left (L : Lawful cp E) (hash : Bytes → Bytes) (cm tok : E) (sk : Int)
    (rnd : ABCRand) (h : L.same (sk • L.eff cm) tok = true) :
    ∃ ct, newABCProof hash cp (L.pe cm) (L.pe tok) 0 sk Left rnd =
      finishABC hash cp (L.pe cm) (L.pe tok) 0 sk rnd (L.pe (rnd.ub • L.hb)) (L.pe (rnd.uc • L.hb)) ct
        (some (leftProof L hash cm tok L.h (rnd.uc • L.hb - L.g) sk rnd.d1 rnd.d2 rnd.d3)) := by
  refine ⟨L.pe (rnd.uc • L.eff (sk • L.hb)), ?_⟩
  simp only [newABCProof, L.H_pe, L.mult_pe, L.eff_h, Go.bind_ok, and_self, if_true, L.pedCommitR_pe,
    zero_smul, zero_add, L.G_pe, L.sub_pe,
    newDisjunctiveProof_left L hash cm tok L.h (rnd.uc • L.hb - L.g) sk rnd.d1 rnd.d2 rnd.d3 h,
    Option.isSome_none, Bool.false_eq_true, if_false]

/-- What the right prover returns. -/
theorem newABCProof_right (L : Lawful cp E) (hash : Bytes → Bytes) (cm tok : E) (v w sk : Int)
    (rnd : ABCRand) (hv : v ≠ 0) (hw : modInverse v cp.C.N = some w) :
    ∃ ct, newABCProof hash cp (L.pe cm) (L.pe tok) v sk Right rnd =
      finishABC hash cp (L.pe cm) (L.pe tok) v sk rnd (L.pe (w • L.g + rnd.ub • L.hb))
        (L.pe (L.g + rnd.uc • L.hb)) ct
        (some (rightProof L hash cm tok L.h (rnd.uc • L.hb) rnd.uc rnd.d1 rnd.d2 rnd.d3)) := by
  refine ⟨L.pe (rnd.uc • L.eff (sk • L.hb)), ?_⟩
  have hsame : L.same (rnd.uc • L.eff L.h) (rnd.uc • L.hb) = true := by rw [L.eff_h, L.same_self]
  have e : L.g + rnd.uc • L.hb - L.g = rnd.uc • L.hb := by abel
  simp only [newABCProof, L.H_pe, L.mult_pe, L.eff_h, Go.bind_ok, and_false, if_false, Ne, hv,
    not_false_eq_true, and_self, if_true, hw, L.pedCommitR_pe, one_smul, L.G_pe, L.sub_pe, e,
    newDisjunctiveProof_right L hash cm tok L.h (rnd.uc • L.hb) rnd.uc rnd.d1 rnd.d2 rnd.d3 hsame,
    Option.isSome_none, Bool.false_eq_true]

/-! ## ABC -/

/-- C45 as a user needs it.  See abc.go:61-170. -/
def ABCComplete (L : Lawful cp E) : Prop :=
  ∀ (hash : Bytes → Bytes) (cm tok : E) (v ua sk : Int) (rnd : ABCRand) (side : Side),
    pedCommitR cp (some v) (some ua) = .ok (L.pe cm) → tok = (ua * sk) • L.hb →
    ¬ (cp.C.N : Int) ∣ sk → (side = Left ∧ v = 0) ∨ (side = Right ∧ ¬ (cp.C.N : Int) ∣ v) →
    Succeeds (newABCProof hash cp (L.pe cm) (L.pe tok) v sk side rnd)
      fun p => abcVerify hash cp p (L.pe cm) (L.pe tok)

/-- C45, left side (value 0), what holds: the proof verifies if `Mult` is scalar multiplication at
the commitment, at the token and at the commitment `uc*H` made inside.  Missing: the cases in which
one of them is -G, H or -H. -/
theorem C45_completeness_left_partial (L : Lawful cp E) (hash : Bytes → Bytes) (cm tok : E)
    (ua sk : Int) (rnd : ABCRand)
    (hcm : pedCommitR cp (some 0) (some ua) = .ok (L.pe cm)) (htok : tok = (ua * sk) • L.hb)
    (hsk : ¬ (cp.C.N : Int) ∣ sk)
    (o1 : L.MultOk cm) (o2 : L.MultOk tok) (o3 : L.MultOk (rnd.uc • L.hb)) :
    Succeeds (newABCProof hash cp (L.pe cm) (L.pe tok) 0 sk Left rnd)
      fun p => abcVerify hash cp p (L.pe cm) (L.pe tok) := by
  rw [L.pedCommitR_pe, Go.ok.injEq, L.pe_inj] at hcm
  have o2' := o2
  rw [L.multOk_iff_eff] at o1 o2 o3
  obtain ⟨isk, hi, hinv⟩ := modInverse_some L.prime hsk
  have ecm : cm = ua • L.hb := by rw [← hcm]; module
  have hsame : sk • L.eff cm = tok := by rw [o1, ecm, htok]; module
  obtain ⟨ct, hrun⟩ := newABCProof_left L hash cm tok sk rnd (by rw [hsame, L.same_self])
  rw [L.finishABC_pe _ _ _ _ _ _ _ _ _ _ _ hi] at hrun
  refine ⟨_, hrun, ?_⟩
  refine (L.abcVerify_iff ..).2 ⟨?_, rfl, L.same_iff.2 (Or.inl ?_), L.same_iff.2 (Or.inl ?_)⟩
  · obtain ⟨pr, h1, h2⟩ := (C41_completeness_partial L hash cm tok L.h (rnd.uc • L.hb - L.g) sk
      rnd.d1 rnd.d2 rnd.d3).1 (by rw [L.mult_pe, hsame]) o2'
    rw [newDisjunctiveProof_left L _ _ _ _ _ _ _ _ _ (by rw [hsame, L.same_self])] at h1
    simp only [Go.ok.injEq, Prod.mk.injEq, Option.some.injEq, and_true] at h1
    rw [h1]; exact h2
  · rw [o1, o2, L.smul_mod, L.smul_mod]
    have : isk • tok = cm := by
      rw [htok, ecm, ← mul_smul, show isk * (ua * sk) = ua * (isk * sk) by ring, mul_smul,
        L.smul_congr hinv, one_smul]
    rw [← this]; module
  · rw [o3, L.smul_mod]; module

/-- C45, right side (value not 0 modulo N), what holds: as on the left side, also for the
commitment `B` made inside, in which `w` is the inverse of the value modulo N. -/
theorem C45_completeness_right_partial (L : Lawful cp E) (hash : Bytes → Bytes) (cm tok : E)
    (v w ua sk : Int) (rnd : ABCRand)
    (hcm : pedCommitR cp (some v) (some ua) = .ok (L.pe cm)) (htok : tok = (ua * sk) • L.hb)
    (hsk : ¬ (cp.C.N : Int) ∣ sk) (hw : w * v ≡ 1 [ZMOD cp.C.N])
    (o1 : L.MultOk cm) (o2 : L.MultOk tok) (o3 : L.MultOk (rnd.uc • L.hb))
    (o4 : L.MultOk (w • L.g + rnd.ub • L.hb)) (o5 : L.MultOk (L.g + rnd.uc • L.hb)) :
    Succeeds (newABCProof hash cp (L.pe cm) (L.pe tok) v sk Right rnd)
      fun p => abcVerify hash cp p (L.pe cm) (L.pe tok) := by
  rw [L.pedCommitR_pe, Go.ok.injEq, L.pe_inj] at hcm
  have o3' := o3
  have hN := L.five_lt
  have h1N : (1 : Int) % cp.C.N = 1 := Int.emod_eq_of_lt (by decide) (by omega)
  have hv : ¬ (cp.C.N : Int) ∣ v := by
    intro h
    have h2 : (w * v) % (cp.C.N : Int) = 0 := Int.emod_eq_zero_of_dvd (Dvd.dvd.mul_left h w)
    rw [Int.ModEq, h2, h1N] at hw
    omega
  have hv0 : v ≠ 0 := by rintro rfl; exact hv (dvd_zero _)
  obtain ⟨isk, hi, hinv⟩ := modInverse_some L.prime hsk
  obtain ⟨w', hw1, hw2⟩ := modInverse_some L.prime hv
  have eB : w' • L.g + rnd.ub • L.hb = w • L.g + rnd.ub • L.hb := by
    have : w' • L.g = w • L.g := by
      have a1 : (w' * v) • w • L.g = w • L.g := by rw [L.smul_congr hw2, one_smul]
      have a2 : (w * v) • w' • L.g = w' • L.g := by rw [L.smul_congr hw, one_smul]
      rw [← a1, ← a2]; module
    rw [this]
  rw [L.multOk_iff_eff] at o1 o2 o3 o4 o5
  obtain ⟨ct, hrun⟩ := newABCProof_right L hash cm tok v w' sk rnd hv0 hw1
  rw [L.finishABC_pe _ _ _ _ _ _ _ _ _ _ _ hi, eB] at hrun
  refine ⟨_, hrun, ?_⟩
  refine (L.abcVerify_iff ..).2 ⟨?_, rfl, L.same_iff.2 (Or.inl ?_), L.same_iff.2 (Or.inl ?_)⟩
  · have e : L.g + rnd.uc • L.hb - L.g = rnd.uc • L.hb := by abel
    rw [e]
    obtain ⟨pr, h1, h2⟩ := (C41_completeness_partial L hash cm tok L.h (rnd.uc • L.hb) rnd.uc
      rnd.d1 rnd.d2 rnd.d3).2 (by rw [L.mult_pe, L.eff_h]) o3'
    rw [newDisjunctiveProof_right L _ _ _ _ _ _ _ _ _ (by rw [L.eff_h, L.same_self])] at h1
    simp only [Go.ok.injEq, Prod.mk.injEq, Option.some.injEq, and_true] at h1
    rw [h1]; exact h2
  · rw [o1, o2, L.smul_mod, L.smul_mod]
    have : isk • tok = ua • L.hb := by
      rw [htok, ← mul_smul, show isk * (ua * sk) = ua * (isk * sk) by ring, mul_smul,
        L.smul_congr hinv, one_smul]
    have e2 : cm = v • L.g + isk • tok := by rw [this, hcm]
    rw [e2]; module
  · rw [o4, o5, L.smul_mod]
    have : (w * v) • L.g = L.g := by rw [L.smul_congr hw, one_smul]
    have e2 : v • (w • L.g + rnd.ub • L.hb) = L.g + (v * rnd.ub) • L.hb := by
      linear_combination (norm := module) this
    have e3 : ∀ (c u1 u3 : Int) (B : E), v • B = L.g + (v * rnd.ub) • L.hb →
        c • (L.g + rnd.uc • L.hb) + (u1 • B + u3 • L.hb) =
        (u1 + v * c) • B + (u3 + (rnd.uc - v * rnd.ub) * c) • L.hb := by
      intro c u1 u3 B hB
      linear_combination (norm := module) (-c) • hB
    exact e3 _ _ _ _ e2

/-- C45 is false on every lawful curve: value -1, blinding factor 0, so that the commitment is -G. -/
theorem C45_refuted (L : Lawful cp E) : ¬ ABCComplete L := by
  intro h
  have hN := L.five_lt
  have hp : pedCommitR cp (some (-1)) (some 0) = .ok (L.pe (-L.g)) := by
    rw [L.pedCommitR_pe]; congr 2; module
  have h1 : ¬ (cp.C.N : Int) ∣ 1 := by
    intro h; have := Int.le_of_dvd (by norm_num) h; omega
  have h1' : ¬ (cp.C.N : Int) ∣ -1 := by rwa [Int.dvd_neg]
  obtain ⟨pr, hrun, hver⟩ := h (fun _ => [1]) (-L.g) 0 (-1) 0 1 ⟨1, 0, 0, 0, 0, 0, 0, 0⟩ Right hp
    (by module) h1 (Or.inr ⟨rfl, h1'⟩)
  obtain ⟨isk, hi, hinv⟩ := modInverse_some L.prime h1
  obtain ⟨w, hw1, hw2⟩ := modInverse_some L.prime h1'
  obtain ⟨ct, hr⟩ := newABCProof_right L (fun _ => [1]) (-L.g) 0 (-1) w 1 ⟨1, 0, 0, 0, 0, 0, 0, 0⟩
    (by decide) hw1
  rw [L.finishABC_pe _ _ _ _ _ _ _ _ _ _ _ hi, hrun, Go.ok.injEq, Prod.mk.injEq,
    Option.some.injEq] at hr
  rw [hr.1, L.abcVerify_iff] at hver
  have h3 := L.same_iff.1 hver.2.2.1
  simp only [chal_const] at h3
  rw [L.eff_neg_g, L.smul_mod, L.eff_zero] at h3
  have h4 : (2 : Int) • L.g = 0 := by
    rcases h3 with h3 | h3
    · linear_combination (norm := module) h3
    · linear_combination (norm := module) h3
  have := Int.le_of_dvd (by norm_num) ((L.smul_eq_zero L.g_ne).1 h4)
  omega

example : pedCommitR Toy.params (some 6) (some 6) = .ok (Toy.lawful.pe 3) ∧
    (4 : ZMod 7) = ((6 : Int) * 1) • Toy.lawful.hb ∧ ¬ (Toy.params.C.N : Int) ∣ 1 ∧
    (6 : Int) * 6 ≡ 1 [ZMOD Toy.params.C.N] ∧
    Toy.lawful.MultOk 3 ∧ Toy.lawful.MultOk 4 ∧ Toy.lawful.MultOk ((1 : Int) • Toy.lawful.hb) ∧
    Toy.lawful.MultOk ((6 : Int) • Toy.lawful.g + (6 : Int) • Toy.lawful.hb) ∧
    Toy.lawful.MultOk (Toy.lawful.g + (1 : Int) • Toy.lawful.hb) := by
  simp only [Toy.lawful.pedCommitR_pe, Toy.lawful.multOk_iff_eff]
  exact ⟨by decide, by decide, by decide, by decide, Toy.eff_plain _ (by decide),
    Toy.eff_plain _ (by decide), Toy.eff_plain _ (by decide), Toy.eff_plain _ (by decide),
    Toy.eff_plain _ (by decide)⟩

/-- C46. A wrong side is refused, and so is on the left side a token that is not the key times the
commitment up to sign. -/
theorem C46_refuses (L : Lawful cp E) (hash : Bytes → Bytes) (cm tok q : E) (v sk : Int)
    (side : Side) (rnd : ABCRand) (hq : mult cp (L.pe cm) (some sk) = .ok (L.pe q))
    (h : (v = 0 ∧ side ≠ Left) ∨ (v ≠ 0 ∧ side ≠ Right) ∨
      (v = 0 ∧ side = Left ∧ tok ≠ q ∧ tok ≠ -q)) :
    Refuses (newABCProof hash cp (L.pe cm) (L.pe tok) v sk side rnd) := by
  rcases h with ⟨h1, h2⟩ | ⟨h1, h2⟩ | ⟨h1, h2, h3, h4⟩
  · simp [newABCProof, L.H_pe, L.mult_pe, h1, h2, Refuses]
  · simp [newABCProof, L.H_pe, L.mult_pe, h1, h2, Refuses]
  · subst h1 h2
    have hne : Right ≠ Left := by decide
    have hs : L.same q tok = false := by
      rw [Bool.eq_false_iff, Ne, L.same_iff]
      rintro (h | h)
      · exact h3 h.symm
      · exact h4 (by rw [h, neg_neg])
    have he : equal (L.pe q) (L.pe tok) = .ok false := by rw [L.equal_pe, hs]
    rw [L.mult_pe, Go.ok.injEq, L.pe_inj] at hq
    simp [newABCProof, newDisjunctiveProof, proveDisjunctive, L.H_pe, L.G_pe, L.mult_pe, hq, he,
      L.pedCommitR_pe, L.sub_pe, Refuses]

example : mult Toy.params (Toy.lawful.pe 3) (some 6) = .ok (Toy.lawful.pe 4) ∧
    (1 : ZMod 7) ≠ 4 ∧ (1 : ZMod 7) ≠ -4 ∧ (1 : Side) ≠ Left := by
  rw [Toy.lawful.mult_pe, Toy.eff_plain 3 (by decide)]; decide

/-- C47. Three accepted proofs for one statement with the same commitments, with different
challenges in the outer and in the nested proof, under any hash functions.  Explicit quotients of two
of them give `v`, `k`, `l` with `CM = v*G + k*CMTok` and `C = ±(v*B + l*H)`, and one that relates
either the token to the commitment or `C - G` to H.  The points are those `Mult` multiplies; H is
the base of the commitments. -/
theorem C47_soundness (L : Lawful cp E) (hash : Fin 3 → Bytes → Bytes)
    (cm tok B C t1 t2 d1 d2 : E) (c j k l dc dc1 dc2 ds1 ds2 : Fin 3 → Int) (ct : ECPoint)
    (hc : Function.Injective c) (hdc : Function.Injective dc)
    (h : ∀ i, abcVerify (hash i) cp (some ⟨L.pe B, L.pe C, L.pe t1, L.pe t2, some (c i), some (j i),
      some (k i), some (l i), ct, some ⟨L.pe d1, L.pe d2, some (dc i), some (dc1 i), some (dc2 i),
        some (ds1 i), some (ds2 i)⟩⟩) (L.pe cm) (L.pe tok) = .ok accept) :
    ∃ p q, p ≠ q ∧ ∃ v ∈ L.extract (j p) (c p) (j q) (c q), ∃ κ ∈ L.extract (k p) (c p) (k q) (c q),
      ∃ ℓ ∈ L.extract (l p) (c p) (l q) (c q),
        L.eff cm = v • L.g + κ • L.eff tok ∧
        (L.eff C = v • L.eff B + ℓ • L.hb ∨ L.eff C = -(v • L.eff B + ℓ • L.hb)) ∧
        ((∃ x ∈ L.extract (ds1 p) (dc1 p) (ds1 q) (dc1 q), L.eff tok = x • L.eff cm) ∨
         (∃ y ∈ L.extract (ds2 p) (dc2 p) (ds2 q) (dc2 q), L.eff (C - L.g) = y • L.hb)) := by
  simp only [L.abcVerify_iff] at h
  have hr : ∀ i, 0 ≤ c i ∧ c i < cp.C.N := fun i => (h i).2.1 ▸ L.chal_range _ _
  have h1 := fun i => L.same_sign ((L.same_comm _ _).trans (h i).2.2.1)
  have h2 := fun i => L.same_sign ((L.same_comm _ _).trans (h i).2.2.2)
  choose e he e1 using h1
  choose f hf f1 using h2
  obtain ⟨p, q, hpq, hs⟩ := sign_pigeonhole (fun i => e i * f i) fun i => (he i).mul (hf i)
  have hd := Lawful.not_dvd_of_ne (hr p) (hr q) fun h => hpq (hc h)
  refine ⟨p, q, hpq, _, L.mem_extract (he p) (he q), _, L.mem_extract (he p) (he q), _,
    L.mem_extract (he p) (he q), ?_, ?_, ?_⟩
  · have h3 : (c p - c q) • L.eff cm = (e p * j p - e q * j q) • L.g +
        (e p * k p - e q * k q) • L.eff tok := by
      linear_combination (norm := module) e1 p - e1 q
    rw [mul_smul, mul_smul, ← smul_add, ← h3, L.inv_smul hd]
  · have h3 : (c p - c q) • L.eff C = (f p * j p - f q * j q) • L.eff B +
        (f p * l p - f q * l q) • L.hb := by
      linear_combination (norm := module) f1 p - f1 q
    have h4 : L.eff C = L.inv (c p - c q) • ((f p * j p - f q * j q) • L.eff B +
        (f p * l p - f q * l q) • L.hb) := by rw [← h3, L.inv_smul hd]
    rcases sign_products (he p) (hf p) (he q) (hf q) hs with ⟨a, b⟩ | ⟨a, b⟩
    · left; rw [h4, a, b]; module
    · right; rw [h4, a, b]; module
  · rcases C43_soundness L (hash p) (hash q) cm tok L.h (C - L.g) d1 d2 _ _ _ _ _ _ _ _ _ _
      (fun h => hpq (hdc h)) (h p).1 (h q).1 with ⟨x, hx, h5, _⟩ | ⟨y, hy, h5, _⟩
    · exact Or.inl ⟨x, hx, h5⟩
    · rw [L.eff_h] at h5
      exact Or.inr ⟨y, hy, h5⟩

/-- Hypotheses of C47: left proofs for `cm = hb`, `tok = 6*hb` with one set of draws. -/
example : ∀ i : Fin 3, abcVerify (fun _ => [UInt8.ofNat i]) Toy.params
    (some ⟨Toy.lawful.pe 0, Toy.lawful.pe 0, Toy.lawful.pe 0, Toy.lawful.pe 0, some ((i : Nat) : Int),
      some 0, some (6 * ((i : Nat) : Int)), some 0, Toy.lawful.pe 0,
      some ⟨Toy.lawful.pe 3, Toy.lawful.pe 0, some ((i : Nat) : Int), some ((i : Nat) : Int), some 0,
        some (1 + 6 * ((i : Nat) : Int)), some 0⟩⟩) (Toy.lawful.pe 3) (Toy.lawful.pe 4) = .ok accept := by
  intro i
  refine (Toy.lawful.abcVerify_iff ..).2 ⟨(Toy.lawful.disjunctiveVerify_iff ..).2 ?_, ?_⟩
  · rw [Toy.eff_plain 3 (by decide), Toy.eff_plain 4 (by decide), Toy.lawful.eff_h,
      show (0 : ZMod 7) - Toy.lawful.g = -Toy.lawful.g from zero_sub _, Toy.lawful.eff_neg_g]
    fin_cases i <;> exact ⟨by rfl, by decide, by decide, by decide⟩
  · rw [Toy.eff_plain 3 (by decide), Toy.eff_plain 4 (by decide), Toy.lawful.eff_zero]
    fin_cases i <;> exact ⟨by rfl, by decide, by decide⟩

/-- C48 as a user needs it.  See abc.go:61-170. -/
def ABCTotal (L : Lawful cp E) : Prop :=
  ∀ (hash : Bytes → Bytes) (cm tok : E) (v sk : Int) (side : Side) (rnd : ABCRand),
    newABCProof hash cp (L.pe cm) (L.pe tok) v sk side rnd ≠ .panic

/-- C48 is false on every lawful curve: the prover panics for the value N, and for the key 0. -/
theorem C48_refuted (L : Lawful cp E) (hash : Bytes → Bytes) (cm tok : E) (rnd : ABCRand) :
    (∀ sk, newABCProof hash cp (L.pe cm) (L.pe tok) cp.C.N sk Right rnd = .panic) ∧
    newABCProof hash cp (L.pe cm) (L.pe 0) 0 0 Left rnd = .panic ∧ ¬ ABCTotal L := by
  have h1 : ∀ sk, newABCProof hash cp (L.pe cm) (L.pe tok) cp.C.N sk Right rnd = .panic := by
    intro sk
    have hN : (cp.C.N : Int) ≠ 0 := by have := L.N_pos; omega
    simp only [newABCProof, L.H_pe, L.mult_pe, Go.bind_ok, and_false, if_false, Ne, hN, not_false_eq_true,
      and_self, if_true, modInverse_none L.prime (dvd_refl _), pedCommitR, deref_none, Go.bind_panic]
  refine ⟨h1, ?_, fun h => h hash cm tok _ 1 Right rnd (h1 1)⟩
  have hs : L.same ((0 : Int) • L.eff cm) 0 = true := by rw [zero_smul, L.same_self]
  simp only [newABCProof, L.H_pe, L.mult_pe, Go.bind_ok, and_self, if_true, L.pedCommitR_pe, L.G_pe,
    L.sub_pe, newDisjunctiveProof_left L _ _ _ _ _ _ _ _ _ hs, Option.isSome_none,
    Bool.false_eq_true, if_false, finishABC, L.add_pe, L.challengeOf₈,
    modInverse_none L.prime (dvd_zero _), deref_none, Go.bind_panic]

/-- C48, what holds: the prover returns if the key is invertible modulo N and the value is 0 or
invertible modulo N.  Missing: the other values and keys. -/
theorem C48_total_partial (L : Lawful cp E) (hash : Bytes → Bytes) (cm tok : E) (v sk : Int)
    (side : Side) (rnd : ABCRand) (hsk : ¬ (cp.C.N : Int) ∣ sk) (hv : v = 0 ∨ ¬ (cp.C.N : Int) ∣ v) :
    newABCProof hash cp (L.pe cm) (L.pe tok) v sk side rnd ≠ .panic := by
  obtain ⟨isk, hi, _⟩ := modInverse_some L.prime hsk
  by_cases hl : side = Left ∧ v = 0
  · obtain ⟨rfl, rfl⟩ := hl
    by_cases hs : L.same (sk • L.eff cm) tok = true
    · obtain ⟨ct, hrun⟩ := newABCProof_left L hash cm tok sk rnd hs
      rw [hrun, L.finishABC_pe _ _ _ _ _ _ _ _ _ _ _ hi]
      simp
    · obtain ⟨r, e, hre⟩ := C46_refuses L hash cm tok _ 0 sk Left rnd (L.mult_pe _ _)
        (Or.inr (Or.inr ⟨rfl, rfl, fun h => hs (by rw [h, L.same_self]), fun h => hs (by
          rw [h]; exact L.same_iff.2 (Or.inr (by simp)))⟩))
      rw [hre]; simp
  · by_cases hr : side = Right ∧ v ≠ 0
    · obtain ⟨rfl, hv0⟩ := hr
      obtain ⟨w, hw, _⟩ := modInverse_some L.prime (hv.resolve_left hv0)
      obtain ⟨ct, hrun⟩ := newABCProof_right L hash cm tok v w sk rnd hv0 hw
      rw [hrun, L.finishABC_pe _ _ _ _ _ _ _ _ _ _ _ hi]
      simp
    · have : (v = 0 ∧ side ≠ Left) ∨ (v ≠ 0 ∧ side ≠ Right) := by
        by_cases h0 : v = 0
        · exact Or.inl ⟨h0, fun h => hl ⟨h, h0⟩⟩
        · exact Or.inr ⟨h0, fun h => hr ⟨h, h0⟩⟩
      obtain ⟨r, e, hre⟩ := C46_refuses L hash cm tok _ v sk side rnd (L.mult_pe _ _)
        (by tauto)
      rw [hre]; simp

example : ¬ (Toy.params.C.N : Int) ∣ 3 ∧ ¬ (Toy.params.C.N : Int) ∣ 12 := by decide

/-- C87 is false: the third response is not reduced.  From a right proof with challenge above N/2 one
reads off the number `w` (one of two) with `C = v*B + w*H`, whatever the random numbers.  So every
guess of the committed value `v` can be confirmed from the proof alone. -/
theorem C87_refuted (L : Lawful cp E) (hash : Bytes → Bytes) (cm tok : E) (v sk : Int)
    (rnd : ABCRand) (h3 : 0 ≤ rnd.u3 ∧ rnd.u3 < cp.C.N) (hsk : ¬ (cp.C.N : Int) ∣ sk)
    (hv : ¬ (cp.C.N : Int) ∣ v) (pr : ABCProof) (c l : Int)
    (h : newABCProof hash cp (L.pe cm) (L.pe tok) v sk Right rnd = .ok (some pr, none))
    (hc : pr.Challenge = some c) (hl : pr.l = some l) (hbig : cp.C.N < 2 * c) :
    ∃ w ∈ [l / c, l / c - 1], ∃ B C : E, pr.B = L.pe B ∧ pr.C = L.pe C ∧ C = v • B + w • L.hb ∧
      ∀ v', B ≠ 0 → C = v' • B + w • L.hb → v' ≡ v [ZMOD cp.C.N] := by
  have hv0 : v ≠ 0 := by rintro rfl; exact hv (dvd_zero _)
  obtain ⟨isk, hi, _⟩ := modInverse_some L.prime hsk
  obtain ⟨w, hw1, hw2⟩ := modInverse_some L.prime hv
  obtain ⟨ct, hrun⟩ := newABCProof_right L hash cm tok v w sk rnd hv0 hw1
  rw [L.finishABC_pe _ _ _ _ _ _ _ _ _ _ _ hi, h, Go.ok.injEq, Prod.mk.injEq,
    Option.some.injEq] at hrun
  have hpr := hrun.1
  subst hpr
  simp only [Option.some.injEq] at hc hl
  rw [hc] at hl
  have hpos : 0 < c := by omega
  have hq : l / c = rnd.u3 / c + (rnd.uc - v * rnd.ub) := by
    rw [← hl, mul_comm, Int.add_mul_ediv_left _ _ (show c ≠ 0 by omega)]
  have hq1 : rnd.u3 / c < 2 := Int.ediv_lt_of_lt_mul hpos (by omega)
  have hq0 : 0 ≤ rnd.u3 / c := Int.ediv_nonneg h3.1 (by omega)
  have hmem : rnd.uc - v * rnd.ub ∈ [l / c, l / c - 1] := by
    simp only [List.mem_cons, List.not_mem_nil, or_false]; omega
  have hC : L.g + rnd.uc • L.hb = v • (w • L.g + rnd.ub • L.hb) + (rnd.uc - v * rnd.ub) • L.hb := by
    have : (w * v) • L.g = L.g := by rw [L.smul_congr hw2, one_smul]
    nth_rw 1 [← this]; module
  refine ⟨_, hmem, _, _, rfl, rfl, hC, fun v' hB hv' => ?_⟩
  rw [hC] at hv'
  exact ((L.smul_eq_smul hB).1 (add_right_cancel hv')).symm

/-- Such a proof exists. -/
example : ∃ pr, newABCProof (fun _ => [5]) Toy.params (Toy.lawful.pe 3) (Toy.lawful.pe 4) 6 1 Right
    ⟨1, 1, 1, 6, 1, 0, 0, 0⟩ = .ok (some pr, none) ∧ pr.Challenge = some 5 ∧
    (Toy.params.C.N : Int) < 2 * 5 := by
  obtain ⟨isk, hi, _⟩ := modInverse_some Toy.lawful.prime (z := 1) (by decide)
  obtain ⟨w, hw1, _⟩ := modInverse_some Toy.lawful.prime (z := 6) (by decide)
  obtain ⟨ct, hrun⟩ := newABCProof_right Toy.lawful (fun _ => [5]) 3 4 6 w 1 ⟨1, 1, 1, 6, 1, 0, 0, 0⟩
    (by decide) hw1
  rw [Toy.lawful.finishABC_pe _ _ _ _ _ _ _ _ _ _ _ hi] at hrun
  exact ⟨_, hrun, rfl, by decide⟩

/-! ## Inequality -/

/-- Two commitments with their tokens under one key.  See inequality.go:14-34. -/
structure Committed (L : Lawful cp E) (A B tA tB : E) (a b ra rb sk : Int) : Prop where
  hA : pedCommitR cp (some a) (some ra) = .ok (L.pe A)
  hB : pedCommitR cp (some b) (some rb) = .ok (L.pe B)
  htA : tA = (ra * sk) • L.hb
  htB : tB = (rb * sk) • L.hb

/-- C49, what holds: as C45 for the differences.  Missing: the points at which `Mult` is wrong. -/
theorem C49_completeness_partial (L : Lawful cp E) (hash : Bytes → Bytes) (A B tA tB : E)
    (a b ra rb sk w : Int) (rnd : ABCRand) (hcom : Committed L A B tA tB a b ra rb sk)
    (hsk : ¬ (cp.C.N : Int) ∣ sk) (hw : w * (a - b) ≡ 1 [ZMOD cp.C.N])
    (o1 : L.MultOk (A - B)) (o2 : L.MultOk (tA - tB)) (o3 : L.MultOk (rnd.uc • L.hb))
    (o4 : L.MultOk (w • L.g + rnd.ub • L.hb)) (o5 : L.MultOk (L.g + rnd.uc • L.hb)) :
    Succeeds (newInequalityProof hash cp (L.pe A) (L.pe B) (L.pe tA) (L.pe tB) a b sk rnd)
      fun p => inequalityVerify hash cp p (L.pe (A - B)) (L.pe (tA - tB)) := by
  obtain ⟨hA, hB, htA, htB⟩ := hcom
  rw [L.pedCommitR_pe, Go.ok.injEq, L.pe_inj] at hA hB
  have hab : a ≠ b := by
    rintro rfl
    have hN := L.five_lt
    rw [sub_self, mul_zero, Int.ModEq, Int.emod_eq_of_lt (by decide) (by omega),
      Int.emod_eq_of_lt (by decide) (by omega)] at hw
    omega
  obtain ⟨pr, h1, h2⟩ := C45_completeness_right_partial L hash (A - B) (tA - tB) (a - b) w (ra - rb)
    sk rnd (by rw [L.pedCommitR_pe, ← hA, ← hB]; congr 2; module)
    (by rw [htA, htB]; module) hsk hw o1 o2 o3 o4 o5
  refine ⟨pr, ?_, h2⟩
  rw [newInequalityProof, if_neg hab]
  simp [L.sub_pe, h1]

example : Committed Toy.lawful 3 0 4 0 6 0 6 0 1 ∧ (6 : Int) * (6 - 0) ≡ 1 [ZMOD Toy.params.C.N] ∧
    (3 : ZMod 7) - 0 = 3 ∧ (4 : ZMod 7) - 0 = 4 := by
  refine ⟨⟨?_, ?_, by decide, by decide⟩, by decide, by decide, by decide⟩ <;>
    rw [Toy.lawful.pedCommitR_pe] <;> decide

/-- C50 as a user needs it: no proof is accepted for commitments to equal values (with tokens under one
key).  The attack itself, with the openings and the key given and the library's own prover, is
`C50_forgery`.  See inequality.go:37-43. -/
def InequalitySound (L : Lawful cp E) : Prop :=
  ∀ (hash : Bytes → Bytes) (A B tA tB : E) (a ra rb sk : Int) (pr : Option ABCProof),
    Committed L A B tA tB a a ra rb sk →
    inequalityVerify hash cp pr (L.pe (A - B)) (L.pe (tA - tB)) ≠ .ok accept

/-- The holder of the key makes an accepted inequality proof for any two commitments to the same
value: it is an ABC proof for the value 0. -/
theorem C50_forgery (L : Lawful cp E) (hash : Bytes → Bytes) (A B tA tB : E)
    (a ra rb sk : Int) (rnd : ABCRand) (hcom : Committed L A B tA tB a a ra rb sk)
    (hsk : ¬ (cp.C.N : Int) ∣ sk)
    (o1 : L.MultOk (A - B)) (o2 : L.MultOk (tA - tB)) (o3 : L.MultOk (rnd.uc • L.hb)) :
    Succeeds (newABCProof hash cp (L.pe (A - B)) (L.pe (tA - tB)) 0 sk Left rnd)
      fun p => inequalityVerify hash cp p (L.pe (A - B)) (L.pe (tA - tB)) := by
  obtain ⟨hA, hB, htA, htB⟩ := hcom
  rw [L.pedCommitR_pe, Go.ok.injEq, L.pe_inj] at hA hB
  exact C45_completeness_left_partial L hash (A - B) (tA - tB) (ra - rb) sk rnd
    (by rw [L.pedCommitR_pe, ← hA, ← hB]; congr 2; module)
    (by rw [htA, htB]; module) hsk o1 o2 o3

/-- C50 is false on every lawful curve. -/
theorem C50_refuted (L : Lawful cp E) : ¬ InequalitySound L := by
  intro h
  have hN := L.five_lt
  have h1 : ¬ (cp.C.N : Int) ∣ 1 := by
    intro h; have := Int.le_of_dvd (by norm_num) h; omega
  have hcom : Committed L (5 • L.g) (5 • L.g) 0 0 5 5 0 0 1 := by
    have : pedCommitR cp (some 5) (some 0) = .ok (L.pe (5 • L.g)) := by
      rw [L.pedCommitR_pe]; congr 2; module
    exact ⟨this, this, by module, by module⟩
  have hz : L.MultOk (0 : E) := (L.multOk_iff_eff _).2 L.eff_zero
  obtain ⟨pr, _, h2⟩ := C50_forgery L (fun _ => [1]) _ _ _ _ 5 0 0 1 ⟨0, 0, 0, 0, 0, 0, 0, 0⟩ hcom h1
    (by rw [sub_self]; exact hz) (by rw [sub_self]; exact hz) (by rw [zero_smul]; exact hz)
  exact h _ _ _ _ _ _ _ _ _ _ hcom h2

/-- C51 as a user needs it.  See inequality.go:14-34. -/
def InequalityRefuses (L : Lawful cp E) : Prop :=
  ∀ (hash : Bytes → Bytes) (A B tA tB : E) (a b sk : Int) (rnd : ABCRand), a ≡ b [ZMOD cp.C.N] →
    Refuses (newInequalityProof hash cp (L.pe A) (L.pe B) (L.pe tA) (L.pe tB) a b sk rnd)

/-- C51, what holds: equal integers are refused, for all arguments.  Missing: different integers
that are equal modulo N. -/
theorem C51_refuses_partial (hash : Bytes → Bytes) (cp : Params) (A B tA tB : ECPoint) (a sk : Int)
    (rnd : ABCRand) : Refuses (newInequalityProof hash cp A B tA tB a a sk rnd) := by
  simp [newInequalityProof, Refuses]

/-- C51 is false on every lawful curve: for the values N and 0 the prover panics. -/
theorem C51_refuted (L : Lawful cp E) (hash : Bytes → Bytes) (A B tA tB : E) (sk : Int)
    (rnd : ABCRand) :
    newInequalityProof hash cp (L.pe A) (L.pe B) (L.pe tA) (L.pe tB) cp.C.N 0 sk rnd = .panic ∧
    ¬ InequalityRefuses L := by
  have h1 : newInequalityProof hash cp (L.pe A) (L.pe B) (L.pe tA) (L.pe tB) cp.C.N 0 sk rnd =
      .panic := by
    have hN : (cp.C.N : Int) ≠ 0 := by have := L.N_pos; omega
    simp only [newInequalityProof, if_neg hN, L.sub_pe, Go.bind_ok, sub_zero,
      (C48_refuted L hash _ _ rnd).1 sk, Go.bind_panic]
  refine ⟨h1, fun h => ?_⟩
  obtain ⟨r, e, h2⟩ := h hash A B tA tB cp.C.N 0 sk rnd (by simp [Int.ModEq])
  rw [h1] at h2
  exact absurd h2 (by simp)

end Zk.Proto
