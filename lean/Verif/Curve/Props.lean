import Verif.Curve.TestLawful

/-!
# Properties of the curve routines of btcec/btcec.go and of `TestCurve`

`E` is Mathlib's group of points of y² = x³ + 7 over `ZMod p`, and `enc` gives the coordinates of a
point as integers in [0, p), (0, 0) for the point at infinity.
-/

namespace Zk.Curve

open Zk Zk.Field Zk.Proto

/-! ## C68 -/

/-- C68: `IsOnCurve` decides the curve equation. -/
theorem C68_isOnCurve (x y : ℕ) (hx : x < 2 ^ 256) (hy : y < 2 ^ 256) :
    isOnCurve x y = .ok (decide (y ^ 2 % P = (x ^ 3 + 7) % P)) := by
  rw [isOnCurve_spec (by simpa using hx) (by simpa using hy)]
  simp only [Int.natAbs_natCast]
  congr 2
  rw [eq_iff_iff, ← cast_eq]
  push_cast
  rfl

/-- C68: exactly the coordinates of group elements (other than infinity) pass, among reduced
coordinates. -/
theorem C68_points (x y : ℕ) (hx : x < P) (hy : y < P) :
    isOnCurve x y = .ok true ↔ ∃ A : E, A ≠ 0 ∧ enc A = ((x : Int), (y : Int)) := by
  have hP : P < 2 ^ 256 := by decide
  rw [C68_isOnCurve x y (hx.trans hP) (hy.trans hP)]
  simp only [Go.ok.injEq, decide_eq_true_eq]
  constructor
  · intro h
    refine ⟨mk (on_curve h), mk_ne_zero _, ?_⟩
    rw [enc_mk, ZMod.val_natCast, ZMod.val_natCast, Nat.mod_eq_of_lt hx, Nat.mod_eq_of_lt hy]
  · rintro ⟨A, hA, he⟩
    rcases point_cases A with rfl | ⟨a, b, h, rfl⟩
    · exact absurd rfl hA
    · rw [enc_mk, Prod.mk.injEq] at he
      have ha := Int.ofNat_inj.1 he.1
      have hb := Int.ofNat_inj.1 he.2
      rw [← cast_eq, ← ha, ← hb]
      push_cast
      rw [ZMod.natCast_zmod_val, ZMod.natCast_zmod_val]
      exact h

/-- C68: coordinates that do not fit into 256 bits make `IsOnCurve` panic. -/
theorem C68_panics : isOnCurve (2 ^ 256 : Int) 0 = .panic := by decide +kernel

example : isOnCurve (curveGx : ℕ) (curveGy : ℕ) = .ok true ∧
    isOnCurve (curveGx : ℕ) (curveGx : ℕ) = .ok false := by
  rw [C68_isOnCurve _ _ (by decide) (by decide), C68_isOnCurve _ _ (by decide) (by decide)]
  decide +kernel

/-! ## C69 -/

/-- C69: `Add` is the group law, for all pairs of points, infinity, equal and opposite points
included. -/
theorem C69_add (A B : E) :
    add (enc A).1 (enc A).2 (enc B).1 (enc B).2 = .ok (enc (A + B)) := add_enc A B

/-- C69: `Double` is doubling in the group. -/
theorem C69_double (A : E) : double (enc A).1 (enc A).2 = .ok (enc (A + A)) := double_enc A

/-- C69: coordinates of the results are in [0, p), and (0, 0) is the point at infinity only. -/
theorem C69_canonical (A : E) :
    (0 ≤ (enc A).1 ∧ (enc A).1 < P) ∧ (0 ≤ (enc A).2 ∧ (enc A).2 < P) ∧
      (enc A = (0, 0) ↔ A = 0) := by
  have h1 := enc_nonneg A
  have h2 := enc_lt A
  rw [curveP_eq] at h2
  exact ⟨⟨h1.1, h2.1⟩, ⟨h1.2, h2.2⟩, fun h => enc_inj A 0 h, fun h => h ▸ rfl⟩

/-- C69: on coordinates, opposite points add up to (0, 0). -/
theorem C69_opposite (A : E) :
    add (enc A).1 (enc A).2 (enc A).1 ((-(enc A).2) % (curveP : Int)) = .ok (0, 0) := by
  have h := add_enc A (-A)
  rw [enc_neg, add_neg_cancel] at h
  exact h

example : G ≠ 0 ∧ G ≠ -G ∧ G + G ≠ 0 ∧ G ≠ H :=
  ⟨G_ne, fun h => G_ne (no_two_torsion (by nth_rw 1 [h]; exact neg_add_cancel G)),
    fun h => G_ne (no_two_torsion h), H_ne_G.1.symm⟩

/-! ## C70 -/

/-- C70: `splitK` returns magnitudes and signs of two numbers k1, k2 of at most 129 bits with
k = k1 + k2 λ modulo N, and multiplication by λ is multiplication of x by β on the curve. -/
theorem C70_splitK (k : Bytes) :
    let r := splitK k
    ((r.2.2.1 * setBytes r.1 + r.2.2.2 * setBytes r.2.1 * curveLambda) % (curveN : Int)
        = setBytes k % (curveN : Int)) ∧
      setBytes r.1 < 2 ^ 129 ∧ setBytes r.2.1 < 2 ^ 129 := by
  dsimp only
  rw [splitK_eq]
  dsimp only
  rw [intBytes, intBytes, setBytes_natBytes, setBytes_natBytes]
  refine ⟨?_, kk_bounds k⟩
  rw [Int.sign_mul_natAbs, Int.sign_mul_natAbs]
  exact Int.emod_eq_emod_iff_emod_sub_eq_zero.2 (Int.emod_eq_zero_of_dvd (kk_mod k))

/-- A scalar of full length; both parts are negative and neither is zero. -/
example : (splitK [1, 2, 3, 4, 5, 6, 7, 8, 9, 10, 11, 12, 13, 14, 15, 16, 17, 18, 19, 20, 21, 22, 23,
    24, 25, 26, 27, 28, 29, 30, 31, 32]).2.2 = (-1, -1) := by decide +kernel

/-! ## C71 -/

/-- C71: `NAF` returns two byte strings of equal length whose values differ by the value of `k`,
with no position used in both. -/
theorem C71_naf_value (k : Bytes) :
    (naf k).1.length = (naf k).2.length ∧
    (setBytes (naf k).1 : Int) - setBytes (naf k).2 = setBytes k ∧
    ∀ j, ¬((setBytes (naf k).1).testBit j = true ∧ (setBytes (naf k).2).testBit j = true) := by
  obtain ⟨h1, h2, h3, _⟩ := naf_spec k
  exact ⟨h1, by rw [h2]; push_cast; ring, h3⟩

/-- C71: no two adjacent positions are used. -/
theorem C71_naf_nonadjacent (k : Bytes) (j : ℕ) :
    ¬(((setBytes (naf k).1).testBit j = true ∨ (setBytes (naf k).2).testBit j = true) ∧
      ((setBytes (naf k).1).testBit (j + 1) = true ∨
        (setBytes (naf k).2).testBit (j + 1) = true)) := by
  have h := (naf_spec k).2.2.2 j
  rwa [used, used, Bool.or_eq_true, Bool.or_eq_true] at h

example : naf [0xff, 0x07] = ([1, 0, 8], [0, 1, 1]) ∧ naf [] = ([], []) := by decide +kernel

/-! ## C72 -/

/-- C72: `ScalarMult` is scalar multiplication, for every point and every byte string. -/
theorem C72_scalarMult (B : E) (k : Bytes) :
    scalarMult (enc B).1 (enc B).2 k = .ok (enc (setBytes k • B)) := scalarMult_enc B k

/-- C72: `moduloReduce` keeps the scalar modulo N and returns at most 32 bytes. -/
theorem C72_moduloReduce (k : Bytes) :
    setBytes (moduloReduce k) % curveN = setBytes k % curveN ∧ (moduloReduce k).length ≤ 32 :=
  ⟨moduloReduce_mod k, moduloReduce_length k⟩

/-- C72: the result is infinity exactly if the scalar is a multiple of N or the point is
infinity. -/
theorem C72_infinity (B : E) (k : Bytes) :
    scalarMult (enc B).1 (enc B).2 k = .ok (0, 0) ↔ curveN ∣ setBytes k ∨ B = 0 := by
  rw [scalarMult_enc, Go.ok.injEq]
  constructor
  · intro h
    have h0 : setBytes k • B = 0 := enc_inj _ _ h
    by_cases hB : B = 0
    · exact .inr hB
    · left
      have := addOrderOf_eq_prime (N_smul B) hB (hp := ⟨prime_curveN⟩)
      rw [← this]
      exact addOrderOf_dvd_of_nsmul_eq_zero h0
  · rintro (⟨c, hc⟩ | rfl)
    · rw [hc, mul_comm, mul_nsmul, N_smul, enc_zero]
    · rw [nsmul_zero, enc_zero]

/-- 3 G, in numbers. -/
example : scalarMult (enc G).1 (enc G).2 [3] =
    .ok (112711660439710606056748659173929673102114977341539408544630613555209775888121,
      25583027980570883691656905877401976406448868254816295069919888960541586679410) := by
  rw [C72_scalarMult]
  have h := checkMulG_rep (n := 3)
    (x := 112711660439710606056748659173929673102114977341539408544630613555209775888121)
    (y := 25583027980570883691656905877401976406448868254816295069919888960541586679410)
    (by decide) (by decide) (by decide +kernel)
  rw [show setBytes [3] = 3 from rfl, RepN.eq h (RepN.of_mk (on_curve (by decide +kernel))), enc_mk,
    ZMod.val_natCast, ZMod.val_natCast]
  decide +kernel

/-- A point other than G and a scalar longer than 32 bytes. -/
example : H ≠ 0 ∧ hashedString.length = 71 := ⟨mk_ne_zero _, by decide +kernel⟩

/-! ## C73 -/

/-- C73: `ScalarBaseMult` with the table of the source is multiplication of G. -/
theorem C73_scalarBaseMult (k : Bytes) :
    s256.scalarBaseMult k = .ok (enc (setBytes k • G)) := scalarBaseMult_G k

/-- C73: `ScalarBaseMultH` with the table of the source is multiplication of one point, the base of
that table, whose coordinates are these. -/
theorem C73_scalarBaseMultH (k : Bytes) :
    s256.scalarBaseMultH k = .ok (enc (setBytes k • Hb)) ∧
      enc Hb = (0x891df6526b0a564e83e6399b469a6b1f3a60d14f4845ab365a294868998e3daf,
        0x2e683e7f3f68a40dac174b344284ca4233921aee723da913799f94d4a15c78dc) :=
  ⟨scalarBaseMult_H k, enc_Hb⟩

/-- C73: `ScalarBaseMult` agrees with `ScalarMult` at the base point. -/
theorem C73_agree (k : Bytes) :
    s256.scalarBaseMult k = s256.scalarMult (curveGx : ℕ) (curveGy : ℕ) k := by
  have h := scalarMult_enc G k
  rw [enc_G] at h
  exact (scalarBaseMult_G k).trans h.symm

/-- C73: every entry of both tables is the multiple it should be: entry i of row b, read as Jacobian
coordinates and converted to affine ones, is i * 256^(31-b) times the base. -/
theorem C73_tables (b : ℕ) (hb : b < 32) (i : UInt8) :
    fieldJacobianToBigAffine (tabPoint rowsG b i) = enc ((i.toNat * 256 ^ (31 - b)) • G) ∧
    fieldJacobianToBigAffine (tabPoint rowsH b i) = enc ((i.toNat * 256 ^ (31 - b)) • Hb) :=
  ⟨(tabG_ok b hb i).affine, (tabH_ok b hb i).affine⟩

/-! ## C74 -/

/-- C74: p and N are prime, the group has N elements, and G generates it. -/
theorem C74_order :
    Nat.Prime curveP ∧ Nat.Prime curveN ∧ Nat.card E = curveN ∧ addOrderOf G = curveN ∧
      ∀ A : E, ∃ n : ℕ, n < curveN ∧ A = n • G := by
  refine ⟨curveP_eq ▸ prime_P, prime_curveN, card_E, order_G, fun A => ?_⟩
  obtain ⟨n, rfl⟩ := G_generates A
  exact ⟨n % curveN, Nat.mod_lt _ (by decide), (mod_N_smul n G).symm⟩

/-! ## C60 -/

/-- C60: `init` succeeds, and `HPoints` of the resulting parameters are the 64 points 2^i G. -/
theorem C60_hpoints : ∃ cp, testCurve = .ok cp ∧ cp.HPoints.length = 64 ∧
    ∀ i, i < 64 → cp.HPoints[i]? = some (pt (enc (2 ^ i • G)).1 (enc (2 ^ i • G)).2) :=
  ⟨tc, testCurve_eq, lawful.HPoints_len, lawful.HPoints_get⟩

/-- The last index, at which the `int64` is negative. -/
example : shift64 63 = -2 ^ 63 := by decide +kernel

/-! ## C61 -/

/-- C61 fails: this k satisfies `TestCurve.H` = k G, and `Mult` itself confirms it. -/
theorem C61_refuted : ∃ cp, testCurve = .ok cp ∧
    mult cp cp.G (some 0x94e35037c3705ca047e88b2bd1f3207987dba1fb4c817b9ebc943566dd637134) =
      .ok cp.H := by
  refine ⟨tc, testCurve_eq, ?_⟩
  rw [lawful.G_pe, lawful.H_pe, lawful.mult_pe]
  refine congrArg (fun A => Go.ok (lawful.pe A)) ?_
  have h1 : lawful.eff lawful.g = G := if_pos (.inl rfl)
  have h3 : lawful.h = H := rfl
  rw [h1, h3]
  have h2 : (0x94e35037c3705ca047e88b2bd1f3207987dba1fb4c817b9ebc943566dd637134 : Int) =
      ((setBytes hashedString % curveN : ℕ) : Int) := by decide +kernel
  rw [h2, natCast_zsmul, mod_N_smul, ← H_eq_smul]

/-- C61, exactly: `Mult` of G by k gives `TestCurve.H` for the numbers congruent to this one, and for no
others.  That nobody knows such a k is false. -/
theorem C61_logarithms_partial (k : Int) : mult tc tc.G (some k) = .ok tc.H ↔
    k ≡ 0x94e35037c3705ca047e88b2bd1f3207987dba1fb4c817b9ebc943566dd637134 [ZMOD curveN] := by
  obtain ⟨cp, h1, h2⟩ := C61_refuted
  cases testCurve_eq.symm.trans h1
  rw [← h2, lawful.G_pe, lawful.mult_pe, lawful.mult_pe, Go.ok.injEq, lawful.pe_inj]
  have he : lawful.eff lawful.g = G := if_pos (.inl rfl)
  rw [he]
  exact lawful.smul_eq_smul lawful.g_ne

/-! ## C62 -/

/-- C62, what holds: the two ways of multiplying `TestCurve.H` agree only for multiples of N. -/
theorem C62_agree_partial (s : Int) : ∃ cp, testCurve = .ok cp ∧
    (mult cp cp.H (some s) = (do
        let q ← coords cp.H
        let r ← cp.C.scalarMult q.1 q.2 (intBytes (s % (cp.C.N : Int)))
        pure (mkPt r)) ↔ (cp.C.N : Int) ∣ s) := by
  refine ⟨tc, testCurve_eq, ?_⟩
  have h2 : lawful.eff lawful.h = Hb := by
    rw [Lawful.eff, if_neg, if_pos (.inl rfl)]
    · rfl
    · rintro (h | h)
      · exact H_ne_G.1 h
      · exact H_ne_G.2 h
  have h3 : (do
        let q ← coords tc.H
        let r ← tc.C.scalarMult q.1 q.2 (intBytes (s % (tc.C.N : Int)))
        pure (mkPt r) : Go ECPoint) = .ok (lawful.pe (s • H)) := by
    rw [lawful.H_pe, lawful.coords_pe, Go.bind_ok, lawful.scalarMult_enc]
    rw [intBytes, setBytes_natBytes, Go.bind_ok, ← natCast_zsmul,
      Int.natAbs_of_nonneg (Int.emod_nonneg _ (by decide)), lawful.smul_mod]
    rfl
  rw [h3, lawful.H_pe, lawful.mult_pe, h2, Go.ok.injEq, lawful.pe_inj]
  show s • Hb = s • H ↔ (curveN : Int) ∣ s
  have h4 := addOrderOf_eq_prime (N_smul (Hb - H)) (sub_ne_zero.2 Hb_ne_H.1)
    (hp := ⟨prime_curveN⟩)
  rw [← h4, addOrderOf_dvd_iff_zsmul_eq_zero, zsmul_sub, sub_eq_zero]

/-- C62 fails, already for s = 1. -/
theorem C62_refuted : ∃ cp, testCurve = .ok cp ∧ ∃ s : Int,
    mult cp cp.H (some s) ≠ (do
        let q ← coords cp.H
        let r ← cp.C.scalarMult q.1 q.2 (intBytes (s % (cp.C.N : Int)))
        pure (mkPt r)) := by
  obtain ⟨cp, h, h1⟩ := C62_agree_partial 1
  refine ⟨cp, h, 1, fun e => ?_⟩
  rw [testCurve_eq, Go.ok.injEq] at h
  subst h
  exact absurd (h1.1 e) (by decide +kernel)

end Zk.Curve
