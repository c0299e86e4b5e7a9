import Verif.Real.Points

/-!
# The findings on `TestCurve` with SHA-256

The theorems about the protocols hold on every curve; where they refute a property they may choose the hash
function.  Here the same failures are shown for the parameters that `init` makes and SHA-256.
-/

namespace Zk.Real

open Zk Zk.Field Zk.Curve Zk.Proto

theorem lawful_g : lawful.g = G := rfl
theorem lawful_h : lawful.h = H := rfl
theorem lawful_hb : lawful.hb = Hb := rfl

/-! ## Completeness fails for -G -/

/-- C27: with SHA-256, the proof that `NewGSPFSProof` makes about -G is rejected. -/
theorem C27_testcurve_rejected : ∃ cp, testCurve = .ok cp ∧ ∃ Y pr e,
    mult cp cp.G (some (-1)) = .ok Y ∧ newGSPFSProof sha256 cp Y (-1) 1 = .ok (some pr, none) ∧
    gspfsVerify sha256 cp (some pr) Y = .ok (reject e) := by
  refine ⟨tc, testCurve_eq, lawful.pe (-lawful.g), ?_⟩
  have hc : lawful.chal sha256 [-lawful.g, (1 : Int) • lawful.g] = _ :=
    chal_eval (cs := [cNG, cG])
      (by simp only [one_smul, List.map_cons, List.map_nil, lawful_g, encNG, encG]) _
  obtain ⟨pr, h1, e, h2⟩ := lawful.gspfs_rejects sha256 1 (by rw [hc]; decide +kernel)
    (by rw [hc]; decide +kernel)
  refine ⟨pr, e, ?_, h1, h2⟩
  rw [lawful.G_pe, lawful.mult_pe, lawful.eff_g, neg_smul, one_smul]

/-- C27, on `TestCurve`, for every hash function: the proof for x G is accepted unless x is -1, k or -k
modulo N, where k is the logarithm of `TestCurve.H`.  Missing: these three. -/
theorem C27_testcurve_partial (hash : Bytes → Bytes) (x u : Int) : ∃ cp, testCurve = .ok cp ∧
    (x % cp.C.N ≠ cp.C.N - 1 →
      x % cp.C.N ≠ 0x94e35037c3705ca047e88b2bd1f3207987dba1fb4c817b9ebc943566dd637134 →
      x % cp.C.N ≠ cp.C.N - 0x94e35037c3705ca047e88b2bd1f3207987dba1fb4c817b9ebc943566dd637134 →
      ∃ Y pr, mult cp cp.G (some x) = .ok Y ∧ newGSPFSProof hash cp Y x u = .ok (some pr, none) ∧
        gspfsVerify hash cp (some pr) Y = .ok accept) := by
  refine ⟨tc, testCurve_eq, fun h1 h2 h3 => ⟨lawful.pe (x • lawful.g), ?_⟩⟩
  have hN : ((tc.C.N : ℕ) : Int) = (curveN : Int) := rfl
  rw [hN] at h1 h2 h3
  have hl : (0 : Int) < logH ∧ (logH : Int) < curveN ∧
      (logH : Int) = 0x94e35037c3705ca047e88b2bd1f3207987dba1fb4c817b9ebc943566dd637134 := by
    decide +kernel
  rw [← hl.2.2] at h2 h3
  have ok : lawful.MultOk (x • lawful.g) := by
    refine multOk_log ?_ ?_ ?_ <;> (generalize (curveN : Int) = n at *; generalize (logH : Int) = l at *)
    · exact fun h => h1 (emod_of_dvd (by rw [← sub_add, sub_add_eq_add_sub]; exact h.sub (dvd_refl n)) (by omega) (by omega))
    · exact fun h => h2 (emod_of_dvd h (by omega) (by omega))
    · exact fun h => h3 (emod_of_dvd (by rw [← sub_add, sub_add_eq_add_sub]; exact h.sub (dvd_refl n)) (by omega) (by omega))
  obtain ⟨pr, h4, h5⟩ := C27_completeness_G_partial lawful hash x u ok
  refine ⟨pr, ?_, h4, h5⟩
  rw [lawful.G_pe, lawful.mult_pe, lawful.eff_g]

example : ((12345 : Int) % (curveN : Int)) ≠ curveN - 1 ∧
    ((12345 : Int) % (curveN : Int)) ≠ 0x94e35037c3705ca047e88b2bd1f3207987dba1fb4c817b9ebc943566dd637134 ∧
    ((12345 : Int) % (curveN : Int)) ≠
      curveN - 0x94e35037c3705ca047e88b2bd1f3207987dba1fb4c817b9ebc943566dd637134 := by
  decide +kernel

/-- C32: with SHA-256, the proof that G, -G and G, -G have the same logarithm is rejected. -/
theorem C32_testcurve_rejected : ∃ cp, testCurve = .ok cp ∧ ∃ R pr,
    mult cp cp.G (some (-1)) = .ok R ∧
    newEquivalenceProof sha256 cp cp.G R cp.G R (-1) 1 = .ok (some pr, none) ∧
    equivalenceVerify sha256 cp (some pr) cp.G R cp.G R ≠ .ok accept := by
  refine ⟨tc, testCurve_eq, lawful.pe (-lawful.g), ?_⟩
  have hc : lawful.chal sha256 [lawful.g, -lawful.g, lawful.g, -lawful.g, (1 : Int) • lawful.g,
      (1 : Int) • lawful.g] = _ :=
    chal_eval (cs := [cG, cNG, cG, cNG, cG, cG])
      (by simp only [one_smul, List.map_cons, List.map_nil, lawful_g, encNG, encG]) _
  obtain ⟨pr, h1, h2⟩ := lawful.equivalence_rejects sha256 1 (by decide +kernel)
    (by rw [hc]; decide +kernel)
  rw [lawful.G_pe]
  refine ⟨pr, ?_, h1, h2⟩
  rw [lawful.mult_pe, lawful.eff_g, neg_smul, one_smul]

/-- C37: with SHA-256, the consistency proof for the value -1 with blinding factor 0 is rejected. -/
theorem C37_testcurve_rejected : ∃ cp, testCurve = .ok cp ∧ ∃ comm rtok pr,
    pedCommitR cp (some (-1)) (some 0) = .ok comm ∧ mult cp cp.G (some 0) = .ok rtok ∧
    newConsistencyProof sha256 cp comm rtok cp.G (-1) 0 1 0 = .ok (some pr, none) ∧
    consistencyVerify sha256 cp (some pr) comm rtok cp.G ≠ .ok accept := by
  refine ⟨tc, testCurve_eq, lawful.pe (-lawful.g), lawful.pe 0, ?_⟩
  have hc : lawful.chal sha256 [lawful.g, lawful.h, -lawful.g, 0, lawful.g, (1 : Int) • lawful.g, 0] = _ :=
    chal_eval (cs := [cG, cH, cNG, (0, 0), cG, cG, (0, 0)])
      (by simp only [one_smul, List.map_cons, List.map_nil, lawful_g, lawful_h, encNG, encG, encH,
        enc_zero]) _
  obtain ⟨h1, h2, pr, h3, h4⟩ := lawful.consistency_rejects sha256 1 (by decide +kernel)
    (by rw [hc]; decide +kernel)
  rw [lawful.G_pe]
  exact ⟨pr, h1, h2, h3, h4⟩

/-- C41: with SHA-256, the proof that G, -G have logarithm -1 or G, G have is rejected. -/
theorem C41_testcurve_rejected : ∃ cp, testCurve = .ok cp ∧ ∃ R pr,
    mult cp cp.G (some (-1)) = .ok R ∧
    newDisjunctiveProof sha256 cp cp.G R cp.G cp.G (-1) Left 1 0 0 = .ok (some pr, none) ∧
    disjunctiveVerify sha256 cp (some pr) cp.G R cp.G cp.G ≠ .ok accept := by
  refine ⟨tc, testCurve_eq, lawful.pe (-lawful.g), ?_⟩
  have hc : lawful.chal sha256 [lawful.g, -lawful.g, lawful.g, lawful.g, (1 : Int) • lawful.g, 0] = _ :=
    chal_eval (cs := [cG, cNG, cG, cG, cG, (0, 0)])
      (by simp only [one_smul, List.map_cons, List.map_nil, lawful_g, encNG, encG, enc_zero]) _
  obtain ⟨pr, h1, h2⟩ := lawful.disjunctive_rejects sha256 1 (by decide +kernel)
    (by rw [hc]; decide +kernel)
  rw [lawful.G_pe]
  refine ⟨pr, ?_, h1, h2⟩
  rw [lawful.mult_pe, lawful.eff_g, neg_smul, one_smul]

/-- C45: with SHA-256, the ABC proof for the value -1 with blinding factor 0 is rejected. -/
theorem C45_testcurve_rejected : ∃ cp, testCurve = .ok cp ∧ ∃ comm pr,
    pedCommitR cp (some (-1)) (some 0) = .ok comm ∧
    newABCProof sha256 cp comm Zero (-1) 1 Right ⟨1, 0, 0, 0, 0, 0, 0, 0⟩ = .ok (some pr, none) ∧
    abcVerify sha256 cp (some pr) comm Zero ≠ .ok accept := by
  refine ⟨tc, testCurve_eq, lawful.pe (-lawful.g), ?_⟩
  have hc : lawful.chal sha256 [lawful.g, lawful.h, -lawful.g, 0, -lawful.g, lawful.g,
      (1 : Int) • lawful.g, (1 : Int) • lawful.g] = _ :=
    chal_eval (cs := [cG, cH, cNG, (0, 0), cNG, cG, cG, cG])
      (by simp only [one_smul, List.map_cons, List.map_nil, lawful_g, lawful_h, encNG, encG, encH,
        enc_zero]) _
  obtain ⟨h1, pr, h3, h4⟩ := lawful.abc_rejects sha256 1 (by decide +kernel) (by rw [hc]; decide +kernel)
  have h0 : lawful.pe 0 = Zero := by rw [Lawful.pe, lawful.enc_zero]; rfl
  rw [h0] at h3 h4
  exact ⟨pr, h1, h3, h4⟩

/-! ## Soundness and zero knowledge fail -/

/-- C35: for every hash function, a proof that 2G, 6G and 2G, -6G have the same logarithm is accepted,
although they do not. -/
theorem C35_testcurve_forged (hash : Bytes → Bytes) : ∃ cp, testCurve = .ok cp ∧ ∃ B R R' pr,
    mult cp cp.G (some 2) = .ok B ∧ mult cp B (some 3) = .ok R ∧ mult cp B (some (-3)) = .ok R' ∧
    equivalenceVerify hash cp (some pr) B R B R' = .ok accept ∧
    ¬ ∃ x : Int, mult cp B (some x) = .ok R ∧ mult cp B (some x) = .ok R' := by
  have o : lawful.MultOk ((2 : Int) • lawful.g) :=
    multOk_log (by decide +kernel) (by decide +kernel) (by decide +kernel)
  have o3 : lawful.MultOk ((3 : Int) • (2 : Int) • lawful.g) := by
    rw [smul_smul]; exact multOk_log (by decide +kernel) (by decide +kernel) (by decide +kernel)
  have o4 : lawful.MultOk (-((3 : Int) • (2 : Int) • lawful.g)) := by
    rw [smul_smul, ← neg_smul]
    exact multOk_log (by decide +kernel) (by decide +kernel) (by decide +kernel)
  obtain ⟨pr, h1, h2⟩ := C35_forgery lawful hash _ _ 3 1 o o o3 o4
  have hs : ∃ q, pr = some q := by
    rcases pr with _ | q
    · simp [equivalenceVerify] at h2
    · exact ⟨q, rfl⟩
  obtain ⟨q, rfl⟩ := hs
  refine ⟨tc, testCurve_eq, _, _, _, q, ?_, o 3, ?_, h2, ?_⟩
  · rw [lawful.G_pe, lawful.mult_pe, lawful.eff_g]
  · rw [o (-3), neg_smul]
  · rintro ⟨x, h3, h4⟩
    rw [h3, Go.ok.injEq, lawful.pe_inj] at h4
    have h5 : (12 : Int) • lawful.g = 0 := by linear_combination (norm := module) h4
    rw [lawful.smul_eq_zero lawful.g_ne] at h5
    exact absurd h5 (by decide +kernel)

/-- C44: with SHA-256, this proof made for the left side can be made with no witness and no draws for the
right side. -/
theorem C44_testcurve_side : ∃ cp, testCurve = .ok cp ∧ ∃ pr,
    newDisjunctiveProof sha256 cp cp.G cp.G cp.G cp.G 1 Left (cp.C.N - 1) 0 0 = .ok (some pr, none) ∧
    disjunctiveVerify sha256 cp (some pr) cp.G cp.G cp.G cp.G = .ok accept ∧
    ∀ (x : Int) (u1 u2 u3 : ℕ), u1 < cp.C.N → u2 < cp.C.N → u3 < cp.C.N →
      newDisjunctiveProof sha256 cp cp.G cp.G cp.G cp.G x Right u1 u2 u3 ≠ .ok (some pr, none) := by
  refine ⟨tc, testCurve_eq, ?_⟩
  have hs : lawful.same ((1 : Int) • lawful.eff lawful.g) lawful.g = true := by
    rw [lawful.eff_g, one_smul, lawful.same_self]
  have ht : (((tc.C.N : ℕ) : Int) - 1) • lawful.g = -lawful.g := by
    rw [sub_smul, lawful.N_smul, one_smul, zero_sub]
  have e2 : (0 : Int) • lawful.g - (0 : Int) • lawful.g = 0 := by module
  have h1 := newDisjunctiveProof_left lawful sha256 lawful.g lawful.g lawful.g lawful.g 1
    (((tc.C.N : ℕ) : Int) - 1) 0 0 hs
  have hc : lawful.chal sha256 [lawful.g, lawful.g, lawful.g, lawful.g, -lawful.g, 0] = _ :=
    chal_eval (cs := [cG, cG, cG, cG, cNG, (0, 0)])
      (by simp only [List.map_cons, List.map_nil, lawful_g, encNG, encG, enc_zero]) _
  obtain ⟨pr, h2, h3⟩ := (C41_completeness_partial lawful sha256 lawful.g lawful.g lawful.g lawful.g 1
    (((tc.C.N : ℕ) : Int) - 1) 0 0).1 (by rw [lawful.mult_pe, lawful.eff_g, one_smul])
      ((lawful.multOk_iff_eff _).2 lawful.eff_g)
  rw [lawful.G_pe]
  refine ⟨pr, h2, h3, fun x u1 u2 u3 _ hu _ h => ?_⟩
  rw [h1, Go.ok.injEq, Prod.mk.injEq, Option.some.injEq] at h2
  simp only [leftProof, lawful.eff_g, ht, e2, hc] at h2
  have h4 := (C44_side_leak lawful sha256 _ _ _ _ x Right u1 u2 u3 hu pr _ _ h (by rw [← h2.1])
    (by rw [← h2.1])).1 (by decide +kernel)
  exact absurd h4 (by decide)

/-- C50: for every hash function, the commitments to 5 with the blinding factors 1 and 0 have an accepted
inequality proof, made by the library's own ABC prover. -/
theorem C50_testcurve_forged (hash : Bytes → Bytes) : ∃ cp, testCurve = .ok cp ∧ ∃ A B D K pr,
    pedCommitR cp (some 5) (some 1) = .ok A ∧ pedCommitR cp (some 5) (some 0) = .ok B ∧
    sub cp A B = .ok D ∧ mult cp cp.H (some 1) = .ok K ∧
    newABCProof hash cp D K 0 1 Left ⟨0, 0, 0, 0, 0, 0, 0, 0⟩ = .ok (some pr, none) ∧
    inequalityVerify hash cp (some pr) D K = .ok accept := by
  have okHb : lawful.MultOk lawful.hb := by
    have hG : Hb ≠ G ∧ Hb ≠ -G := x_ne (by rw [enc_Hb, enc_G]; decide +kernel)
    rw [lawful.multOk_iff_eff, Lawful.eff, if_neg (by rintro (h | h); exacts [hG.1 h, hG.2 h]),
      if_neg (by rintro (h | h); exacts [Hb_ne_H.1 h, Hb_ne_H.2 h])]
  have e1 : ((5 : Int) • lawful.g + (1 : Int) • lawful.hb) - ((5 : Int) • lawful.g + (0 : Int) • lawful.hb) =
      lawful.hb := by module
  have e2 : (1 : Int) • lawful.hb - 0 = lawful.hb := by module
  have hcom : Committed lawful ((5 : Int) • lawful.g + (1 : Int) • lawful.hb)
      ((5 : Int) • lawful.g + (0 : Int) • lawful.hb) ((1 : Int) • lawful.hb) 0 5 5 1 0 1 :=
    ⟨lawful.pedCommitR_pe _ _, lawful.pedCommitR_pe _ _, by module, by module⟩
  obtain ⟨pr, h1, h2⟩ := C50_forgery lawful hash _ _ _ _ 5 1 0 1 ⟨0, 0, 0, 0, 0, 0, 0, 0⟩ hcom
    (by decide +kernel) (by rw [e1]; exact okHb) (by rw [e2]; exact okHb)
    (by rw [zero_zsmul, lawful.multOk_iff_eff, lawful.eff_zero])
  refine ⟨tc, testCurve_eq, _, _, _, _, pr, lawful.pedCommitR_pe _ _, lawful.pedCommitR_pe _ _, lawful.sub_pe _ _, ?_, h1, h2⟩
  rw [lawful.multH, sub_zero]

end Zk.Real
