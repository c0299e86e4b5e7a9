import Verif.Offcurve.StmtProps
import Verif.Real.RangePoints

/-!
# Property C157: the bit commitment of an ABC proof

An ABC proof carries a point C that is meant to be a commitment to 0 if the committed value is 0 and to 1 otherwise
(abc.go:19-28, 46).  Verify does not check that C is a point of the curve.
-/

namespace Zk.Offcurve

open Zk Zk.Field Zk.Curve Zk.Proto Zk.Hostile

variable (hash : Bytes → Bytes)

theorem sub_cusp_G : ∃ D : ECPoint, Proto.sub tc cusp tc.G = .ok D ∧ D.Filled ∧ mult tc D (some 0) = .ok Zero := by
  have h : (match Proto.sub tc cusp tc.G with
      | .ok D => (match D.X, D.Y with
        | some x, some y => decide (0 ≤ x ∧ 0 ≤ y) | _, _ => false) && decide (mult tc D (some 0) = .ok Zero)
      | _ => false) = true := by
    decide +kernel
  split at h
  · rename_i D hD
    refine ⟨D, hD, ?_, ?_⟩
    · rw [Bool.and_eq_true] at h
      have h1 := h.1
      split at h1
      · rename_i x y hx hy
        exact ⟨x, y, (of_decide_eq_true h1).1, (of_decide_eq_true h1).2, by cases D; simp_all [pt]⟩
      · exact absurd h1 (by decide)
    · rw [Bool.and_eq_true] at h
      exact of_decide_eq_true h.2
  · exact absurd h (by decide)

/-- C157, false for the value 0: let CM = ua·H be a commitment to 0 and CMTok = ua·sk·H its token.  For every hash
function, point B and numbers u1, u2, l, s1, s2 there is an accepted ABC proof in which C is (p, p), which is no
commitment.  As in C45 `Mult` has to be scalar multiplication at CM and CMTok. -/
theorem C157_offcurve_refuted (ua sk : Int) (hsk : ¬ (tc.C.N : Int) ∣ sk) (o1 : lawful.MultOk (ua • lawful.hb))
    (o2 : lawful.MultOk ((ua * sk) • lawful.hb)) (b : E) (u1 u2 l d1 s2 : Int) : ∃ cp, testCurve = .ok cp ∧
    ∃ (CM CMTok T1 T2 D1 D2 : ECPoint) (c k d s1 : Int),
    pedCommitR cp (some 0) (some ua) = .ok CM ∧ pedCommitR cp (some 0) (some (ua * sk)) = .ok CMTok ∧
    abcVerify hash cp (some ⟨lawful.pe b, pt (P : ℕ) (P : ℕ), T1, T2, some c, some u1, some k, some l, Zero,
      some ⟨D1, D2, some d, some d, some 0, some s1, some s2⟩⟩) CM CMTok = .ok accept ∧
    ∀ v r : Int, pedCommitR cp (some v) (some r) ≠ .ok (pt (P : ℕ) (P : ℕ)) := by
  obtain ⟨D, hD, fD, mD⟩ := sub_cusp_G
  obtain ⟨isk, -, hinv⟩ := modInverse_some lawful.prime hsk
  rw [lawful.multOk_iff_eff] at o1 o2
  obtain ⟨cm, ecm⟩ : ∃ cm, cm = ua • lawful.hb := ⟨_, rfl⟩
  obtain ⟨tok, etok⟩ : ∃ tok, tok = (ua * sk) • lawful.hb := ⟨_, rfl⟩
  rw [← ecm] at o1
  rw [← etok] at o2
  have e1 : tok = sk • cm := by rw [etok, ecm]; module
  have e2 : isk • tok = cm := by
    rw [e1, ← mul_smul, lawful.smul_congr hinv, one_smul]
  have h1 : pedCommitR tc (some 0) (some ua) = .ok (lawful.pe cm) := by
    rw [lawful.pedCommitR_pe, zero_zsmul, zero_add, ecm]
  have h2 : pedCommitR tc (some 0) (some (ua * sk)) = .ok (lawful.pe tok) := by
    rw [lawful.pedCommitR_pe, zero_zsmul, zero_add, etok]
  obtain ⟨d, hd⟩ := challenge_ok (hash := hash) (ps := [lawful.pe cm, lawful.pe tok, tc.H, D, lawful.pe (d1 • cm),
    lawful.pe (s2 • lawful.hb)]) (by
      simpa using ⟨pe_filled _, pe_filled _, small_H.filled, fD, pe_filled _, pe_filled _⟩)
  obtain ⟨T1, hT1⟩ : ∃ T1, T1 = u1 • lawful.g + u2 • tok := ⟨_, rfl⟩
  obtain ⟨T2, hT2⟩ : ∃ T2, T2 = u1 • lawful.eff b + l • lawful.hb := ⟨_, rfl⟩
  obtain ⟨c, hc⟩ := challenge_ok (hash := hash) (ps := [tc.G, tc.H, lawful.pe cm, lawful.pe tok, lawful.pe b, cusp,
    lawful.pe T1, lawful.pe T2]) (by
      simpa using ⟨small_G.filled, small_H.filled, pe_filled _, pe_filled _, pe_filled _, cusp_filled, pe_filled _,
        pe_filled _⟩)
  have hdis : disjunctiveVerify hash tc (some ⟨lawful.pe (d1 • cm), lawful.pe (s2 • lawful.hb), some d, some d, some 0,
      some (d1 + d * sk), some s2⟩) (lawful.pe cm) (lawful.pe tok) tc.H D = .ok accept := by
    have e3 : d1 • cm + d • tok = (d1 + d * sk) • cm := by rw [e1]; module
    unfold disjunctiveVerify
    dsimp only
    rw [hd, Go.bind_ok, cmpEq_self, Go.bind_ok, not_true_if, deref_some, Go.bind_ok, deref_some, Go.bind_ok,
      add_zero, challenge_mod hash hd, cmpEq_self, Go.bind_ok, not_true_if, lawful.mult_pe, o2, Go.bind_ok,
      lawful.add_pe, Go.bind_ok, lawful.mult_pe, o1, Go.bind_ok, e3, equal_self, Go.bind_ok, not_true_if, mD,
      Go.bind_ok, add_Zero_pe, Go.bind_ok, lawful.multH, Go.bind_ok, equal_self, Go.bind_ok]
    rfl
  refine ⟨tc, testCurve_eq, lawful.pe cm, lawful.pe tok, lawful.pe T1, lawful.pe T2, lawful.pe (d1 • cm),
    lawful.pe (s2 • lawful.hb), c, u2 + c * isk, d, d1 + d * sk, h1, h2, ?_, fun v r h => ?_⟩
  · have e4 : c • cm + T1 = u1 • lawful.g + (u2 + c * isk) • tok := by
      rw [hT1, ← e2]; module
    show abcVerify hash tc (some ⟨_, cusp, _, _, _, _, _, _, _, _⟩) _ _ = _
    unfold abcVerify
    rw [deref_some, Go.bind_ok]
    dsimp only
    rw [hD, Go.bind_ok, hdis, Go.bind_ok, if_neg (by simp [accept]), hc, Go.bind_ok,
      cmpEq_self, Go.bind_ok, not_true_if, lawful.mult_pe, o1, Go.bind_ok, lawful.add_pe, Go.bind_ok, lawful.G_pe,
      lawful.mult_pe, lawful.eff_g, Go.bind_ok, lawful.mult_pe, o2, Go.bind_ok, lawful.add_pe, Go.bind_ok, e4,
      equal_self, Go.bind_ok, not_true_if, mult_cusp, Go.bind_ok, add_Zero_pe, Go.bind_ok, lawful.mult_pe,
      Go.bind_ok, lawful.multH, Go.bind_ok, lawful.add_pe, Go.bind_ok, hT2, equal_self, Go.bind_ok]
    rfl
  · rw [lawful.pedCommitR_pe, Go.ok.injEq] at h
    exact pe_ne_cusp _ h

section Curve

variable {cp : Params} {E : Type} [AddCommGroup E] (L : Lawful cp E)

/-- With blinding factor 0 the token is 0, which is a known multiple of every commitment.  Then the nested proof of an
ABC proof says nothing, and C is v·B + w·H for any B and w. -/
theorem abc_any_bit (v w : Int) (b : E) (o1 : L.MultOk (v • L.g)) (o2 : L.MultOk (v • L.eff b + w • L.hb))
    (u1 u3 k d1 c2 s2 : Int) (ct : ECPoint) : ∃ (t1 t2 d2 : E) (c j l d dc : Int),
    abcVerify hash cp (some ⟨L.pe b, L.pe (v • L.eff b + w • L.hb), L.pe t1, L.pe t2, some c, some j, some k, some l, ct,
      some ⟨L.pe (d1 • v • L.g), L.pe d2, some d, some dc, some c2, some d1, some s2⟩⟩) (L.pe (v • L.g)) (L.pe 0) =
        .ok accept := by
  rw [L.multOk_iff_eff] at o1 o2
  refine ⟨u1 • L.g, u1 • L.eff b + u3 • L.hb, s2 • L.hb - c2 • L.eff (v • L.eff b + w • L.hb - L.g), _,
    u1 + v * L.chal hash [L.g, L.h, v • L.g, 0, b, v • L.eff b + w • L.hb, u1 • L.g, u1 • L.eff b + u3 • L.hb],
    u3 + w * L.chal hash [L.g, L.h, v • L.g, 0, b, v • L.eff b + w • L.hb, u1 • L.g, u1 • L.eff b + u3 • L.hb], _,
    L.chal hash [v • L.g, 0, L.h, v • L.eff b + w • L.hb - L.g, d1 • v • L.g,
      s2 • L.hb - c2 • L.eff (v • L.eff b + w • L.hb - L.g)] - c2,
    (L.abcVerify_iff ..).2 ⟨(L.disjunctiveVerify_iff ..).2 ⟨rfl, ?_, L.same_iff.2 (.inl ?_), L.same_iff.2 (.inl ?_)⟩, rfl,
      L.same_iff.2 (.inl ?_), L.same_iff.2 (.inl ?_)⟩⟩
  · rw [sub_add_cancel]
    obtain ⟨h1, h2⟩ := L.chal_range hash [v • L.g, 0, L.h, v • L.eff b + w • L.hb - L.g, d1 • v • L.g,
      s2 • L.hb - c2 • L.eff (v • L.eff b + w • L.hb - L.g)]
    exact Int.emod_eq_of_lt h1 h2
  · rw [o1, L.eff_zero, smul_zero, add_zero]
  · rw [L.eff_h]; abel
  · rw [o1, L.eff_zero, smul_zero, add_zero]; module
  · rw [o2]; module

/-- C157, what holds: transcripts as in C47 for a commitment CM = v·G + ua·hb with ua not 0 modulo N and its token
CMTok = ua·sk·hb.  They give explicit numbers r with C = r·hb if v is 0 modulo N, and C = G + r·hb otherwise, or the
logarithm of G to the base hb.  Missing: the cases of the two refutations, and points at which `Mult` is not scalar
multiplication. -/
theorem C157_partial (hash : Fin 3 → Bytes → Bytes) (v0 ua sk : Int) (hua : ¬ (cp.C.N : Int) ∣ ua)
    (hsk : ¬ (cp.C.N : Int) ∣ sk) (B C t1 t2 d1 d2 : E) (o1 : L.MultOk (v0 • L.g + ua • L.hb))
    (o2 : L.MultOk ((ua * sk) • L.hb)) (o3 : L.MultOk C) (o4 : L.MultOk (C - L.g))
    (c j k l dc dc1 dc2 ds1 ds2 : Fin 3 → Int) (ct : ECPoint)
    (hc : Function.Injective c) (hdc : Function.Injective dc)
    (h : ∀ i, abcVerify (hash i) cp (some ⟨L.pe B, L.pe C, L.pe t1, L.pe t2, some (c i), some (j i),
      some (k i), some (l i), ct, some ⟨L.pe d1, L.pe d2, some (dc i), some (dc1 i), some (dc2 i),
        some (ds1 i), some (ds2 i)⟩⟩) (L.pe (v0 • L.g + ua • L.hb)) (L.pe ((ua * sk) • L.hb)) = .ok accept) :
    ∃ p q, p ≠ q ∧
      (((cp.C.N : Int) ∣ v0 ∧ ∃ r ∈ L.extract (l p) (c p) (l q) (c q), C = r • L.hb ∨ C = (-r) • L.hb) ∨
       (¬ (cp.C.N : Int) ∣ v0 ∧ ∃ r ∈ L.extract (ds2 p) (dc2 p) (ds2 q) (dc2 q), C = L.g + r • L.hb) ∨
       (∃ v ∈ L.extract (j p) (c p) (j q) (c q), ∃ κ ∈ L.extract (k p) (c p) (k q) (c q),
         L.g = (L.inv (v0 - v) * ((κ * sk - 1) * ua)) • L.hb) ∨
       (∃ x ∈ L.extract (ds1 p) (dc1 p) (ds1 q) (dc1 q), L.g = (L.inv (x * v0) * ((sk - x) * ua)) • L.hb)) := by
  obtain ⟨p, q, hpq, v, hv, κ, hκ, ℓ, hℓ, e1, e2, e3⟩ := C47_soundness L hash _ _ B C t1 t2 d1 d2 c j k l dc dc1 dc2 ds1
    ds2 ct hc hdc h
  rw [L.multOk_iff_eff] at o1 o2 o3 o4
  rw [o1, o2] at e1 e3
  rw [o3] at e2
  rw [o4] at e3
  refine ⟨p, q, hpq, ?_⟩
  by_cases hvv : (cp.C.N : Int) ∣ v0 - v
  · by_cases hv0 : (cp.C.N : Int) ∣ v0
    · refine .inl ⟨hv0, ℓ, hℓ, ?_⟩
      have hvz : (cp.C.N : Int) ∣ v := by simpa using dvd_sub hv0 hvv
      have hz : v • L.eff B = 0 := by
        rw [← L.smul_mod, Int.emod_eq_zero_of_dvd hvz, zero_smul]
      rcases e2 with e2 | e2
      · left; rw [e2, hz, zero_add]
      · right; rw [e2, hz, zero_add, neg_smul]
    · rcases e3 with ⟨x, hx, e3⟩ | ⟨y, hy, e3⟩
      · refine .inr (.inr (.inr ⟨x, hx, ?_⟩))
        have hxv : ¬ (cp.C.N : Int) ∣ x * v0 := by
          intro hd
          rcases (Nat.prime_iff_prime_int.1 L.prime).dvd_or_dvd hd with hd | hd
          · have h0 : (ua * sk) • L.hb = 0 := by
              rw [e3, ← L.smul_mod, Int.emod_eq_zero_of_dvd hd, zero_smul]
            rcases (Nat.prime_iff_prime_int.1 L.prime).dvd_or_dvd ((L.smul_eq_zero L.hb_ne).1 h0) with h1 | h1
            · exact hua h1
            · exact hsk h1
          · exact hv0 hd
        have h1 : (x * v0) • L.g = ((sk - x) * ua) • L.hb := by
          linear_combination (norm := module) -e3
        rw [mul_smul, ← h1, L.inv_smul hxv]
      · exact .inr (.inl ⟨hv0, y, hy, by rw [← e3]; abel⟩)
  · refine .inr (.inr (.inl ⟨v, hv, κ, hκ, ?_⟩))
    have h1 : (v0 - v) • L.g = ((κ * sk - 1) * ua) • L.hb := by
      linear_combination (norm := module) e1
    rw [mul_smul, ← h1, L.inv_smul hvv]

/-- The hypotheses of C157_partial hold on the toy curve for CM = hb, a commitment to 0, the key 6, and C = 6·hb. -/
example : ¬ (Toy.params.C.N : Int) ∣ 1 ∧ ¬ (Toy.params.C.N : Int) ∣ 6 ∧
    Toy.lawful.MultOk ((0 : Int) • Toy.lawful.g + (1 : Int) • Toy.lawful.hb) ∧
    Toy.lawful.MultOk (((1 : Int) * 6) • Toy.lawful.hb) ∧ Toy.lawful.MultOk 4 ∧ Toy.lawful.MultOk (4 - Toy.lawful.g) ∧
    ∀ i : Fin 3, abcVerify (fun _ => [UInt8.ofNat i]) Toy.params
    (some ⟨Toy.lawful.pe 0, Toy.lawful.pe 4, Toy.lawful.pe 0, Toy.lawful.pe 0, some ((i : Nat) : Int),
      some 0, some (6 * ((i : Nat) : Int)), some (6 * ((i : Nat) : Int)), Toy.lawful.pe 0,
      some ⟨Toy.lawful.pe 3, Toy.lawful.pe 0, some ((i : Nat) : Int), some ((i : Nat) : Int), some 0,
        some (1 + 6 * ((i : Nat) : Int)), some 0⟩⟩) (Toy.lawful.pe ((0 : Int) • Toy.lawful.g + (1 : Int) • Toy.lawful.hb))
        (Toy.lawful.pe (((1 : Int) * 6) • Toy.lawful.hb)) = .ok accept := by
  have e1 : (0 : Int) • Toy.lawful.g + (1 : Int) • Toy.lawful.hb = (3 : ZMod 7) := by decide
  have e2 : ((1 : Int) * 6) • Toy.lawful.hb = (4 : ZMod 7) := by decide
  have e3 : (4 : ZMod 7) - Toy.lawful.g = 3 := by decide
  rw [e1, e2, e3]
  simp only [Toy.lawful.multOk_iff_eff]
  refine ⟨by decide, by decide, Toy.eff_plain _ (by decide), Toy.eff_plain _ (by decide), Toy.eff_plain _ (by decide),
    Toy.eff_plain _ (by decide), fun i => ?_⟩
  refine (Toy.lawful.abcVerify_iff ..).2 ⟨(Toy.lawful.disjunctiveVerify_iff ..).2 ?_, ?_⟩
  · rw [e3, Toy.eff_plain 3 (by decide), Toy.eff_plain 4 (by decide), Toy.lawful.eff_h]
    fin_cases i <;> exact ⟨by rfl, by decide, by decide, by decide⟩
  · rw [Toy.eff_plain 3 (by decide), Toy.eff_plain 4 (by decide), Toy.lawful.eff_zero]
    fin_cases i <;> exact ⟨by rfl, by decide, by decide⟩

end Curve

/-- The hypotheses of C157_offcurve_refuted hold for the key 1 and the blinding factor 1. -/
example : ¬ (tc.C.N : Int) ∣ 1 ∧ lawful.MultOk ((1 : Int) • lawful.hb) ∧
    lawful.MultOk (((1 : Int) * 1) • lawful.hb) := by
  rw [mul_one, one_zsmul]
  exact ⟨by decide +kernel, Real.multOk_Hb, Real.multOk_Hb⟩

/-- The hypotheses of abc_any_bit hold on the toy curve for the value 3, B = 3 and C = 3·B + 3·hb. -/
example : Toy.lawful.MultOk ((3 : Int) • Toy.lawful.g) ∧
    Toy.lawful.MultOk ((3 : Int) • Toy.lawful.eff 3 + (3 : Int) • Toy.lawful.hb) := by
  rw [Toy.eff_plain 3 (by decide)]
  simp only [Toy.lawful.multOk_iff_eff]
  exact ⟨Toy.eff_plain _ (by decide), Toy.eff_plain _ (by decide)⟩

/-- C157, false for values other than 0 too, with points of the curve only: CM = 5·G + 0·H is a commitment to 5 and
CMTok its token for any public key, but C is a commitment to 0, for every hash function. -/
theorem C157_blinding_refuted (pk : E) : ∃ cp, testCurve = .ok cp ∧ ∃ (CM CMTok C : ECPoint) (p : ABCProof),
    pedCommitR cp (some 5) (some 0) = .ok CM ∧ mult cp (lawful.pe pk) (some 0) = .ok CMTok ∧
    pedCommitR cp (some 0) (some 1) = .ok C ∧ p.C = C ∧ abcVerify hash cp (some p) CM CMTok = .ok accept := by
  obtain ⟨t1, t2, d2, c, j, l, d, dc, h⟩ := abc_any_bit hash lawful 5 1 0
    (Real.multOk_log (by decide +kernel) (by decide +kernel) (by decide +kernel))
    (by rw [lawful.eff_zero, smul_zero, zero_add, one_zsmul]; exact Real.multOk_Hb) 0 0 0 0 0 0 Zero
  refine ⟨tc, testCurve_eq, _, _, _, _, ?_, ?_, ?_, rfl, h⟩
  · rw [lawful.pedCommitR_pe, zero_zsmul, add_zero]
  · rw [lawful.mult_pe, zero_zsmul]
  · rw [lawful.pedCommitR_pe, zero_zsmul, zero_add, lawful.eff_zero, smul_zero, zero_add]

end Zk.Offcurve
