import Verif.Offcurve.Forge
import Verif.Hostile.Props

/-!
# Property C156: statements about points that are not on the curve
-/

namespace Zk.Offcurve

open Zk Zk.Field Zk.Curve Zk.Proto Zk.Hostile

variable (hash : Bytes → Bytes)

theorem cusp_filled : cusp.Filled := small_cusp.filled

theorem pe_filled (A : E) : (lawful.pe A).Filled := ⟨_, _, (enc_nonneg A).1, (enc_nonneg A).2, rfl⟩

theorem Zero_filled : Zero.Filled := small_Zero.filled

theorem add_pe_Zero (A : E) : Proto.add tc (lawful.pe A) Zero = .ok (lawful.pe A) := by
  rw [← lawful.pe_zero, lawful.add_pe, add_zero]

theorem add_Zero_pe (A : E) : Proto.add tc Zero (lawful.pe A) = .ok (lawful.pe A) := by
  rw [← lawful.pe_zero, lawful.add_pe, zero_add]

theorem add_Zero_Zero : Proto.add tc Zero Zero = .ok Zero := by
  rw [← lawful.pe_zero, lawful.add_pe, zero_add]

theorem equal_self (A : E) : equal (lawful.pe A) (lawful.pe A) = .ok true := by
  rw [lawful.equal_pe, lawful.same_iff.2 (.inl rfl)]

theorem cmpEq_self (c : Int) : cmpEq (some c) (some c) = .ok true := by simp [cmpEq]

theorem not_true_if {α : Type} (a b : α) : (if (!true) = true then a else b) = b := rfl

/-- No operation of the library returns the point with coordinates p and p: the coordinates of results are reduced. -/
theorem pe_ne_cusp (A : E) : lawful.pe A ≠ cusp := by
  intro h
  have h1 : (enc A).1 = ((P : ℕ) : Int) := Option.some.inj (congrArg ECPoint.X h)
  have h2 := (enc_lt A).1
  rw [h1] at h2
  exact absurd h2 (by decide)

/-- C156 for GSPFS proofs, false: for every hash function, base and number u there is an accepted proof that the logarithm
of (p, p) is known, which is no multiple of the base. -/
theorem C156_gspfs_refuted (b : E) (u : Int) : ∃ cp, testCurve = .ok cp ∧ ∃ (T : ECPoint) (c : Int),
    mult cp (lawful.pe b) (some u) = .ok T ∧
    gspfsVerify hash cp (some ⟨lawful.pe b, T, some u, some c⟩) (pt (P : ℕ) (P : ℕ)) = .ok accept ∧
    ∀ x : Int, mult cp (lawful.pe b) (some x) ≠ .ok (pt (P : ℕ) (P : ℕ)) := by
  obtain ⟨c, hc⟩ := challenge_ok (hash := hash) (ps := [cusp, lawful.pe (u • lawful.eff b)]) (by
    simpa using ⟨cusp_filled, pe_filled _⟩)
  refine ⟨tc, testCurve_eq, _, c, lawful.mult_pe _ _, ?_, fun x h => ?_⟩
  · show gspfsVerify hash tc _ cusp = _
    unfold gspfsVerify
    dsimp only
    rw [hc, Go.bind_ok, cmpEq_self, Go.bind_ok, not_true_if, lawful.mult_pe, Go.bind_ok, mult_cusp, Go.bind_ok,
      add_pe_Zero, Go.bind_ok, equal_self, Go.bind_ok]
    rfl
  · rw [lawful.mult_pe, Go.ok.injEq] at h
    exact pe_ne_cusp _ h

/-- C156 for equivalence proofs, false: the two results are (p, p). -/
theorem C156_equivalence_refuted (b1 b2 : E) (u : Int) : ∃ cp, testCurve = .ok cp ∧
    ∃ (T1 T2 : ECPoint) (c : Int), mult cp (lawful.pe b1) (some u) = .ok T1 ∧ mult cp (lawful.pe b2) (some u) = .ok T2 ∧
    equivalenceVerify hash cp (some ⟨T1, T2, some c, some u⟩) (lawful.pe b1) (pt (P : ℕ) (P : ℕ)) (lawful.pe b2)
      (pt (P : ℕ) (P : ℕ)) = .ok accept ∧
    ∀ x : Int, mult cp (lawful.pe b1) (some x) ≠ .ok (pt (P : ℕ) (P : ℕ)) := by
  obtain ⟨c, hc⟩ := challenge_ok (hash := hash) (ps := [lawful.pe b1, cusp, lawful.pe b2, cusp, lawful.pe (u • lawful.eff b1),
    lawful.pe (u • lawful.eff b2)]) (by
      simpa using ⟨pe_filled _, cusp_filled, pe_filled _, cusp_filled, pe_filled _, pe_filled _⟩)
  refine ⟨tc, testCurve_eq, _, _, c, lawful.mult_pe _ _, lawful.mult_pe _ _, ?_, fun x h => ?_⟩
  · show equivalenceVerify hash tc _ _ cusp _ cusp = _
    unfold equivalenceVerify
    dsimp only
    rw [hc, Go.bind_ok, cmpEq_self, Go.bind_ok, not_true_if, lawful.mult_pe, Go.bind_ok, mult_cusp, Go.bind_ok,
      add_pe_Zero, Go.bind_ok, equal_self, Go.bind_ok, not_true_if, lawful.mult_pe, Go.bind_ok, Go.bind_ok,
      add_pe_Zero, Go.bind_ok, equal_self, Go.bind_ok]
    rfl
  · rw [lawful.mult_pe, Go.ok.injEq] at h
    exact pe_ne_cusp _ h

/-- C156 for consistency proofs, false: commitment and token are (p, p), which is no commitment. -/
theorem C156_consistency_refuted (pk : E) (u1 u2 : Int) : ∃ cp, testCurve = .ok cp ∧
    ∃ (T1 T2 : ECPoint) (c : Int), pedCommitR cp (some u1) (some u2) = .ok T1 ∧
    mult cp (lawful.pe pk) (some u2) = .ok T2 ∧
    consistencyVerify hash cp (some ⟨T1, T2, some c, some u1, some u2⟩) (pt (P : ℕ) (P : ℕ)) (pt (P : ℕ) (P : ℕ))
      (lawful.pe pk) = .ok accept ∧
    ∀ v r : Int, pedCommitR cp (some v) (some r) ≠ .ok (pt (P : ℕ) (P : ℕ)) := by
  obtain ⟨c, hc⟩ := challenge_ok (hash := hash) (ps := [tc.G, tc.H, cusp, cusp, lawful.pe pk,
    lawful.pe (u1 • lawful.g + u2 • lawful.hb), lawful.pe (u2 • lawful.eff pk)]) (by
      simpa using ⟨small_G.filled, small_H.filled, cusp_filled, pe_filled _, pe_filled _, pe_filled _⟩)
  refine ⟨tc, testCurve_eq, _, _, c, lawful.pedCommitR_pe _ _, lawful.mult_pe _ _, ?_, fun v r h => ?_⟩
  · show consistencyVerify hash tc _ cusp cusp _ = _
    unfold consistencyVerify
    dsimp only
    rw [hc, Go.bind_ok, cmpEq_self, Go.bind_ok, not_true_if, lawful.pedCommitR_pe, Go.bind_ok, mult_cusp, Go.bind_ok,
      add_pe_Zero, Go.bind_ok, equal_self, Go.bind_ok, not_true_if, lawful.mult_pe, Go.bind_ok, Go.bind_ok,
      add_pe_Zero, Go.bind_ok, equal_self, Go.bind_ok]
    rfl
  · rw [lawful.pedCommitR_pe, Go.ok.injEq] at h
    exact pe_ne_cusp _ h

theorem challenge_mod {ps : List ECPoint} {c : Int} (h : challengeOf hash tc ps = .ok c) : c % (tc.C.N : Int) = c := by
  rw [challengeOf] at h
  obtain ⟨bs, -, h⟩ := Go.bind_eq_ok.1 h
  rw [Go.pure_eq, Go.ok.injEq] at h
  rw [← h, generateChallenge]
  exact Int.emod_emod_of_dvd _ dvd_rfl

/-- C156 for disjunctive proofs, false: the first result is (p, p), the second one any group element r2, of which nothing
has to be known. -/
theorem C156_disjunctive_refuted (b1 b2 r2 : E) (u1 c2 s2 : Int) : ∃ cp, testCurve = .ok cp ∧
    ∃ (T1 T2 : ECPoint) (c c1 : Int), mult cp (lawful.pe b1) (some u1) = .ok T1 ∧
    disjunctiveVerify hash cp (some ⟨T1, T2, some c, some c1, some c2, some u1, some s2⟩) (lawful.pe b1)
      (pt (P : ℕ) (P : ℕ)) (lawful.pe b2) (lawful.pe r2) = .ok accept ∧
    ∀ x : Int, mult cp (lawful.pe b1) (some x) ≠ .ok (pt (P : ℕ) (P : ℕ)) := by
  obtain ⟨T2, hT2⟩ : ∃ T2, T2 = s2 • lawful.eff b2 - c2 • lawful.eff r2 := ⟨_, rfl⟩
  obtain ⟨c, hc⟩ := challenge_ok (hash := hash) (ps := [lawful.pe b1, cusp, lawful.pe b2, lawful.pe r2,
    lawful.pe (u1 • lawful.eff b1), lawful.pe T2]) (by
      simpa using ⟨pe_filled _, cusp_filled, pe_filled _, pe_filled _, pe_filled _, pe_filled _⟩)
  refine ⟨tc, testCurve_eq, _, lawful.pe T2, c, c - c2, lawful.mult_pe _ _, ?_, fun x h => ?_⟩
  · show disjunctiveVerify hash tc _ _ cusp _ _ = _
    unfold disjunctiveVerify
    dsimp only
    rw [hc, Go.bind_ok, cmpEq_self, Go.bind_ok, not_true_if, deref_some, Go.bind_ok, deref_some, Go.bind_ok,
      sub_add_cancel, challenge_mod hash hc, cmpEq_self, Go.bind_ok, not_true_if, mult_cusp, Go.bind_ok, add_pe_Zero,
      Go.bind_ok, lawful.mult_pe, Go.bind_ok, equal_self, Go.bind_ok, not_true_if, lawful.mult_pe, Go.bind_ok,
      lawful.add_pe, Go.bind_ok, lawful.mult_pe, Go.bind_ok, hT2, add_sub_cancel, equal_self, Go.bind_ok]
    rfl
  · rw [lawful.mult_pe, Go.ok.injEq] at h
    exact pe_ne_cusp _ h

/-- C156 for ABC proofs, false: commitment and token are (p, p); B is any group element, C is (0, 0). -/
theorem C156_abc_refuted (b : E) (j k l s1 s2 c2 : Int) : ∃ cp, testCurve = .ok cp ∧
    ∃ (T1 T2 D1 D2 : ECPoint) (c d c1 : Int),
    abcVerify hash cp (some ⟨lawful.pe b, Zero, T1, T2, some c, some j, some k, some l, Zero,
      some ⟨D1, D2, some d, some c1, some c2, some s1, some s2⟩⟩) (pt (P : ℕ) (P : ℕ)) (pt (P : ℕ) (P : ℕ)) = .ok accept ∧
    ∀ v r : Int, pedCommitR cp (some v) (some r) ≠ .ok (pt (P : ℕ) (P : ℕ)) := by
  obtain ⟨D2, hD2⟩ : ∃ D2, D2 = s2 • lawful.hb - c2 • lawful.eff (0 - lawful.g) := ⟨_, rfl⟩
  obtain ⟨T2, hT2⟩ : ∃ T2, T2 = j • lawful.eff b + l • lawful.hb := ⟨_, rfl⟩
  obtain ⟨d, hd⟩ := challenge_ok (hash := hash) (ps := [cusp, cusp, tc.H, lawful.pe (0 - lawful.g), lawful.pe 0,
    lawful.pe D2]) (by
      simpa using ⟨cusp_filled, small_H.filled, pe_filled _, pe_filled _, pe_filled _⟩)
  obtain ⟨c, hc⟩ := challenge_ok (hash := hash) (ps := [tc.G, tc.H, cusp, cusp, lawful.pe b, lawful.pe 0,
    lawful.pe (j • lawful.g), lawful.pe T2]) (by
      simpa using ⟨small_G.filled, small_H.filled, cusp_filled, pe_filled _, pe_filled _, pe_filled _, pe_filled _⟩)
  have hdis : disjunctiveVerify hash tc (some ⟨lawful.pe 0, lawful.pe D2, some d, some (d - c2), some c2, some s1,
      some s2⟩) cusp cusp tc.H (lawful.pe (0 - lawful.g)) = .ok accept := by
    unfold disjunctiveVerify
    dsimp only
    rw [hd, Go.bind_ok, cmpEq_self, Go.bind_ok, not_true_if, deref_some, Go.bind_ok, deref_some, Go.bind_ok,
      sub_add_cancel, challenge_mod hash hd, cmpEq_self, Go.bind_ok, not_true_if, mult_cusp, Go.bind_ok, add_pe_Zero,
      Go.bind_ok, mult_cusp, Go.bind_ok, ← lawful.pe_zero, equal_self, Go.bind_ok, not_true_if, lawful.mult_pe, Go.bind_ok,
      lawful.add_pe, Go.bind_ok, lawful.multH, Go.bind_ok, hD2, add_sub_cancel, equal_self, Go.bind_ok]
    rfl
  refine ⟨tc, testCurve_eq, lawful.pe (j • lawful.g), lawful.pe T2, lawful.pe 0, lawful.pe D2, c, d, d - c2, ?_,
    fun v r h => ?_⟩
  · show abcVerify hash tc _ cusp cusp = _
    rw [← lawful.pe_zero]
    unfold abcVerify
    rw [deref_some, Go.bind_ok]
    dsimp only
    rw [lawful.G_pe, lawful.sub_pe, Go.bind_ok, hdis, Go.bind_ok, if_neg (by simp [accept]), ← lawful.G_pe, hc, Go.bind_ok,
      cmpEq_self, Go.bind_ok, not_true_if, mult_cusp, Go.bind_ok, add_Zero_pe, Go.bind_ok, lawful.G_pe,
      lawful.mult_pe, lawful.eff_g, Go.bind_ok, mult_cusp, Go.bind_ok, add_pe_Zero, Go.bind_ok, equal_self, Go.bind_ok,
      not_true_if, lawful.mult_pe, Go.bind_ok,
      lawful.eff_zero, smul_zero, lawful.add_pe, zero_add, Go.bind_ok, lawful.mult_pe, Go.bind_ok, lawful.multH, Go.bind_ok,
      lawful.add_pe, Go.bind_ok, hT2, equal_self, Go.bind_ok]
    rfl
  · rw [lawful.pedCommitR_pe, Go.ok.injEq] at h
    exact pe_ne_cusp _ h

/-- C156, what holds: if base and statement of an accepted GSPFS proof are group elements, then its commitment has the
first coordinate of a group element too, the expected one.  Missing: statements with other points, and the other kinds of
proofs; for them see C34, C39, C43, C47, where all points are group elements. -/
theorem C156_partial {cp : Params} {E : Type} [AddCommGroup E] (L : Lawful cp E) (a b : E) (T : ECPoint) (s c : Int)
    (h : gspfsVerify hash cp (some ⟨L.pe b, T, some s, some c⟩) (L.pe a) = .ok accept) :
    T.X = (L.pe (s • L.eff b + c • L.eff a)).X := by
  unfold gspfsVerify at h
  dsimp only at h
  obtain ⟨x, -, h⟩ := Go.bind_eq_ok.1 h
  obtain ⟨e, -, h⟩ := Go.bind_eq_ok.1 h
  cases e with
  | false => simp [reject, accept] at h
  | true =>
    rw [not_true_if, L.mult_pe, Go.bind_ok, L.mult_pe, Go.bind_ok, L.add_pe, Go.bind_ok] at h
    obtain ⟨q, hq, h⟩ := Go.bind_eq_ok.1 h
    cases q with
    | false => simp [reject, accept] at h
    | true =>
      rw [equal] at hq
      obtain ⟨z, hz, h'⟩ := Go.bind_eq_ok.1 hq
      cases z with
      | false => simp at h'
      | true =>
        clear h' hq h
        generalize L.pe (s • L.eff b + c • L.eff a) = q at hz
        cases hx : T.X <;> cases hy : q.X <;> rw [hx, hy] at hz <;> simp_all [cmpEq]

/-- The hypothesis of C156_partial holds for a proof on `TestCurve` that the logarithm of G is 1. -/
example : ∃ (T : ECPoint) (s c : Int), gspfsVerify hash tc (some ⟨lawful.pe lawful.g, T, some s, some c⟩)
    (lawful.pe lawful.g) = .ok accept := by
  refine ⟨lawful.pe lawful.g, 1 - lawful.chal hash [lawful.g, lawful.g], lawful.chal hash [lawful.g, lawful.g], ?_⟩
  rw [lawful.gspfsVerify_pe_iff]
  refine ⟨rfl, ?_⟩
  rw [lawful.same_iff, lawful.eff_g]
  left
  module

/-- The point (p, p) passes the check for coordinates of 32 bytes, but not the one for points of the curve. -/
example : Small (pt (P : ℕ) (P : ℕ)) ∧ isOnCurve (P : ℕ) (P : ℕ) = .ok false := ⟨small_cusp, by decide +kernel⟩

end Zk.Offcurve
