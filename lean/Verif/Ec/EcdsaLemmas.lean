import Verif.Ec.DerLemmas

/-!
# Signing, verifying and recovering
-/

namespace Zk.Ec

open Zk Zk.Field Zk.Curve

/-! ### Scalars -/

theorem N_pos : (0 : Int) < curveN := by decide

theorem mod_zsmul (a : Int) (A : E) : (a % (curveN : Int)) • A = a • A := by
  have e : (curveN : Int) • A = 0 := by rw [natCast_zsmul]; exact N_smul A
  conv_rhs => rw [← Int.emod_add_mul_ediv a curveN, add_zsmul, mul_comm, mul_zsmul, e, zsmul_zero,
    add_zero]

theorem zsmul_of_dvd {a b : Int} (h : (curveN : Int) ∣ a - b) (A : E) : a • A = b • A := by
  rw [← mod_zsmul a, ← mod_zsmul b,
    Int.emod_eq_emod_iff_emod_sub_eq_zero.2 (Int.emod_eq_zero_of_dvd h)]

theorem zsmul_eq_zero {a : Int} {A : E} (hA : A ≠ 0) : a • A = 0 ↔ (curveN : Int) ∣ a := by
  constructor
  · intro h
    have ho : addOrderOf A = curveN := addOrderOf_eq_prime (N_smul A) hA (hp := ⟨prime_curveN⟩)
    have := addOrderOf_dvd_iff_zsmul_eq_zero.2 h
    rwa [ho] at this
  · intro h
    rw [zsmul_of_dvd (b := 0) (by simpa using h), zero_zsmul]

theorem G_ne : G ≠ 0 := mk_ne_zero _

theorem bytes_zsmul {a : Int} (h : 0 ≤ a) (A : E) : setBytes (intBytes a) • A = a • A := by
  rw [setBytes_intBytes, ← natCast_zsmul, Int.natAbs_of_nonneg h]

theorem base_int {a : Int} (h : 0 ≤ a) :
    scalarBaseMult (tabPoint rowsG) (intBytes a) = .ok (enc (a • G)) := by
  rw [scalarBaseMult_G, bytes_zsmul h]

theorem mult_int {a : Int} (h : 0 ≤ a) (A : E) :
    scalarMult (enc A).1 (enc A).2 (intBytes a) = .ok (enc (a • A)) := by
  rw [scalarMult_enc, bytes_zsmul h]

theorem prime_N_int : Prime (curveN : Int) := Nat.prime_iff_prime_int.1 prime_curveN

theorem modInverse_some {a : Int} (h : ¬(curveN : Int) ∣ a) :
    ∃ w, modInverse a curveN = some w ∧ 0 ≤ w ∧ w < curveN ∧ (curveN : Int) ∣ a * w - 1 := by
  have hg : Int.gcd a curveN = 1 := by
    have h1 := (Nat.Prime.coprime_iff_not_dvd prime_curveN (n := a.natAbs)).2 (fun h' =>
      h (Int.natCast_dvd.2 h'))
    rw [Int.gcd, Int.natAbs_natCast, Nat.gcd_comm]
    exact h1
  refine ⟨_, by rw [modInverse, if_pos hg], Int.emod_nonneg _ N_pos.ne', Int.emod_lt_of_pos _ N_pos,
    ?_⟩
  have hb := Int.gcd_eq_gcd_ab a curveN
  rw [hg] at hb
  have e : a * (Int.gcdA a curveN % (curveN : Int)) - 1 =
      -(curveN : Int) * (a * (Int.gcdA a curveN / (curveN : Int)) + Int.gcdB a curveN) := by
    have := Int.emod_add_mul_ediv (Int.gcdA a curveN) curveN
    push_cast at hb
    linear_combination (a : Int) * this + (-1 : Int) * hb
  rw [e]
  exact (dvd_neg.2 (dvd_refl _)).mul_right _

theorem modInverse_none {a : Int} (h : (curveN : Int) ∣ a) : modInverse a curveN = none := by
  rw [modInverse, if_neg]
  intro hg
  have : (curveN : Int) ∣ (Int.gcd a curveN : Int) := Int.dvd_coe_gcd h (dvd_refl _)
  rw [hg] at this
  have h1 := Int.le_of_dvd (by decide) this
  revert h1
  decide

theorem hashToInt_nonneg (h : Bytes) : 0 ≤ hashToInt h := by
  rw [hashToInt]
  split <;> split <;> exact Int.natCast_nonneg _

theorem not_dvd_range {a : Int} (h1 : 1 ≤ a) (h2 : a < curveN) : ¬(curveN : Int) ∣ a :=
  fun h => by have := Int.le_of_dvd (by omega) h; omega

/-! ### Verification -/

/-- The point computed by `ecdsa.Verify` with the inverse `w` of S (specification).
See btcec/signature.go:76-78. -/
def vpoint (e w R : Int) (A : E) : E := (e * w) • G + (w * R) • A

theorem verify_range (sig : Sig) (hash : Bytes) (A : E)
    (h : ¬(1 ≤ sig.R ∧ sig.R < curveN ∧ 1 ≤ sig.S ∧ sig.S < curveN)) :
    verify sig hash (pk A) = .ok false := by
  rw [verify]
  by_cases h1 : sig.R.sign ≤ 0 ∨ sig.S.sign ≤ 0
  · rw [if_pos h1]; rfl
  rw [if_neg h1]
  by_cases h2 : sig.R ≥ (curveN : Int) ∨ sig.S ≥ (curveN : Int)
  · rw [if_pos h2]; rfl
  exfalso
  rw [not_or, not_le, not_le, Int.sign_pos_iff, Int.sign_pos_iff] at h1
  omega

theorem verify_eq {sig : Sig} {w : Int} (hash : Bytes) (A : E) (h1 : 1 ≤ sig.R)
    (h2 : sig.R < curveN) (h3 : 1 ≤ sig.S) (h4 : sig.S < curveN)
    (hw : modInverse sig.S curveN = some w) :
    verify sig hash (pk A) = .ok (decide (vpoint (hashToInt hash) w sig.R A ≠ 0 ∧
      (enc (vpoint (hashToInt hash) w sig.R A)).1 % (curveN : Int) = sig.R)) := by
  have hs : ¬(sig.R.sign ≤ 0 ∨ sig.S.sign ≤ 0) := by
    rw [not_or, not_le, not_le, Int.sign_pos_iff, Int.sign_pos_iff]; omega
  have e1 := base_int (Int.emod_nonneg (hashToInt hash * w) N_pos.ne')
  have e2 := mult_int (Int.emod_nonneg (w * sig.R) N_pos.ne') A
  rw [mod_zsmul] at e1 e2
  rw [verify, if_neg hs, if_neg (by omega), hw]
  dsimp only
  rw [e1, Go.bind_ok, pk]
  dsimp only
  rw [e2, Go.bind_ok, add_enc, Go.bind_ok, ← vpoint]
  by_cases h0 : vpoint (hashToInt hash) w sig.R A = 0
  · rw [h0, enc_zero, if_pos (by decide), decide_eq_false (by simp)]; rfl
  · rw [if_neg]
    · simp [h0]
    · rintro ⟨hx, hy⟩
      exact h0 (enc_inj _ 0 (Prod.ext (Int.sign_eq_zero_iff_zero.1 hx)
        (Int.sign_eq_zero_iff_zero.1 hy)))

/-- Multiplication by S is invertible. -/
theorem vpoint_iff {e w R S : Int} {A K : E} (hw : (curveN : Int) ∣ S * w - 1) :
    K = vpoint e w R A ↔ S • K = e • G + R • A := by
  rw [vpoint]
  constructor
  · rintro rfl
    rw [zsmul_add, ← mul_zsmul', ← mul_zsmul']
    congr 1
    · refine zsmul_of_dvd ?_ _
      have : e * w * S - e = e * (S * w - 1) := by ring
      rw [this]
      exact hw.mul_left _
    · refine zsmul_of_dvd ?_ _
      have : w * R * S - R = R * (S * w - 1) := by ring
      rw [this]
      exact hw.mul_left _
  · intro h
    have h2 : (S * w) • K = K := by
      rw [zsmul_of_dvd (b := 1) hw, one_zsmul]
    rw [← h2, mul_comm, mul_zsmul, h, zsmul_add, ← mul_zsmul, ← mul_zsmul, mul_comm w e]

/-! ### Signing -/

theorem enc_x_pos {A : E} (h : A ≠ 0) : 1 ≤ (enc A).1 := by
  rcases point_cases A with rfl | ⟨x, y, hA, rfl⟩
  · exact absurd rfl h
  · rw [enc_mk]
    have := mt (ZMod.val_eq_zero _).1 (no_x_zero hA)
    show 1 ≤ ((x.val : ℕ) : Int)
    omega

/-- R as computed from the x coordinate (specification; btcec/signature.go:425-429). -/
def rOf (x : Int) : Int := if x > (curveN : Int) then x - curveN else x

/-- S before it is made low (specification; btcec/signature.go:434-440). -/
def sOf (D r e inv : Int) : Int :=
  if (D * r + e) * inv % (curveN : Int) > halfOrder then
    (curveN : Int) - (D * r + e) * inv % (curveN : Int)
  else (D * r + e) * inv % (curveN : Int)

theorem rOf_pos {A : E} (h : A ≠ 0) : 1 ≤ rOf (enc A).1 := by
  have := enc_x_pos h
  rw [rOf]
  split <;> omega

theorem rOf_mod {A : E} (hN : (enc A).1 ≠ curveN) : rOf (enc A).1 < curveN ∧
    (enc A).1 % (curveN : Int) = rOf (enc A).1 := by
  have h1 := (enc_nonneg A).1
  have h2 := (enc_lt A).1
  have h3 : (curveP : Int) < curveN + curveN := by decide
  rw [rOf]
  split
  · rename_i h
    refine ⟨by omega, ?_⟩
    have e : (enc A).1 % (curveN : Int) = ((enc A).1 - (curveN : Int)) % (curveN : Int) :=
      Int.emod_eq_emod_iff_emod_sub_eq_zero.2 (by rw [sub_sub_cancel, Int.emod_self])
    rw [e, Int.emod_eq_of_lt (by omega) (by omega)]
  · refine ⟨by omega, Int.emod_eq_of_lt h1 (by omega)⟩

theorem signWith_eq {k D inv : Int} (hash : Bytes) (h1 : 1 ≤ k) (h2 : k < curveN)
    (hi : modInverse k curveN = some inv) :
    signWith k D hash =
      if sOf D (rOf (enc (k • G)).1) (hashToInt hash) inv = 0 then
        .ok (.error "calculated S is zero")
      else .ok (.ok ⟨rOf (enc (k • G)).1, sOf D (rOf (enc (k • G)).1) (hashToInt hash) inv⟩) := by
  have hK : k • G ≠ 0 := mt (zsmul_eq_zero G_ne).1 (not_dvd_range h1 h2)
  have hr := rOf_pos hK
  rw [signWith, base_int (by omega), Go.bind_ok]
  dsimp only
  rw [← rOf, if_neg (by rw [Int.sign_eq_zero_iff_zero]; omega), hi, deref_some, Go.bind_ok, ← sOf]
  simp only [Int.sign_eq_zero_iff_zero]
  rfl

theorem half_eq : (curveN : Int) = 2 * halfOrder + 1 := by decide

theorem sOf_range (D r e inv : Int) : 0 ≤ sOf D r e inv ∧ sOf D r e inv ≤ halfOrder := by
  have h1 := Int.emod_nonneg ((D * r + e) * inv) N_pos.ne'
  have h2 := Int.emod_lt_of_pos ((D * r + e) * inv) N_pos
  have h3 := half_eq
  rw [sOf]
  split <;> omega

/-- S times the nonce, up to the sign. -/
theorem sOf_mul {D r e inv k : Int} (hi : (curveN : Int) ∣ k * inv - 1) :
    ∃ ε : Int, (ε = 1 ∨ ε = -1) ∧ (curveN : Int) ∣ sOf D r e inv * (ε * k) - (D * r + e) := by
  have hm := Int.emod_add_mul_ediv ((D * r + e) * inv) curveN
  set q := (D * r + e) * inv / (curveN : Int)
  obtain ⟨c, hc⟩ := hi
  rw [sOf]
  split
  · refine ⟨-1, .inr rfl, -k + q * k * (-1) + (D * r + e) * c, ?_⟩
    linear_combination k * hm + (D * r + e) * hc
  · refine ⟨1, .inl rfl, -q * k + (D * r + e) * c, ?_⟩
    linear_combination k * hm + (D * r + e) * hc

theorem sOf_zero {D r e inv k : Int} (hi : (curveN : Int) ∣ k * inv - 1) :
    sOf D r e inv = 0 ↔ (curveN : Int) ∣ D * r + e := by
  obtain ⟨ε, hε, hd⟩ := sOf_mul (D := D) (r := r) (e := e) hi
  constructor
  · intro h
    rw [h, zero_mul, zero_sub] at hd
    exact (dvd_neg.1 hd)
  · intro h
    have h1 : (curveN : Int) ∣ sOf D r e inv * (ε * k) := by
      have := dvd_add hd h
      rwa [sub_add_cancel] at this
    have hk : ¬(curveN : Int) ∣ ε * k := by
      intro h2
      have h3 : (curveN : Int) ∣ k := by
        rcases hε with rfl | rfl
        · simpa using h2
        · simpa using h2
      have h4 : (curveN : Int) ∣ 1 := by
        have := dvd_sub (h3.mul_right inv) hi
        rwa [sub_sub_cancel] at this
      exact prime_N_int.not_dvd_one h4
    rcases prime_N_int.dvd_or_dvd h1 with h2 | h2
    · obtain ⟨h3, h4⟩ := sOf_range D r e inv
      by_contra h0
      exact not_dvd_range (by omega) (by have := half_eq; omega) h2
    · exact absurd h2 hk

/-- The point of the verification equation is the point of the nonce, up to the sign. -/
theorem sign_point {D r e inv k : Int} (hi : (curveN : Int) ∣ k * inv - 1) :
    ∃ ε : Int, (ε = 1 ∨ ε = -1) ∧
      sOf D r e inv • (ε • k • G) = e • G + r • D • G := by
  obtain ⟨ε, hε, hd⟩ := sOf_mul (D := D) (r := r) (e := e) hi
  refine ⟨ε, hε, ?_⟩
  rw [← mul_zsmul, ← mul_zsmul, ← mul_zsmul, ← add_zsmul]
  refine zsmul_of_dvd ?_ _
  have : sOf D r e inv * (ε * k) - (D * r + e) = sOf D r e inv * (ε * k) - (e + r * D) := by ring
  rwa [this, ← mul_assoc] at hd

theorem enc_sign {ε : Int} (h : ε = 1 ∨ ε = -1) (A : E) : (enc (ε • A)).1 = (enc A).1 := by
  rw [enc_x]
  rcases h with rfl | rfl
  · exact .inl (one_zsmul A)
  · exact .inr (by rw [neg_zsmul, one_zsmul])

theorem sign_ne {ε : Int} (h : ε = 1 ∨ ε = -1) {A : E} (hA : A ≠ 0) : ε • A ≠ 0 := by
  rcases h with rfl | rfl
  · rwa [one_zsmul]
  · rwa [neg_zsmul, one_zsmul, neg_ne_zero]

theorem sign_verify {k D : Int} {hash : Bytes} {sig : Sig} (h1 : 1 ≤ k) (h2 : k < curveN)
    (hN : (enc (k • G)).1 ≠ curveN) (h : signWith k D hash = .ok (.ok sig)) :
    1 ≤ sig.R ∧ sig.R < curveN ∧ 1 ≤ sig.S ∧ sig.S ≤ halfOrder ∧
      verify sig hash (pk (D • G)) = .ok true := by
  obtain ⟨inv, hi, -, -, hd⟩ := modInverse_some (not_dvd_range h1 h2)
  have hK : k • G ≠ 0 := mt (zsmul_eq_zero G_ne).1 (not_dvd_range h1 h2)
  rw [signWith_eq hash h1 h2 hi] at h
  split at h
  · cases h
  rename_i hs0
  injection h with h
  injection h with h
  obtain ⟨hr2, hr3⟩ := rOf_mod hN
  have hr1 := rOf_pos hK
  obtain ⟨hs1, hs2⟩ := sOf_range D (rOf (enc (k • G)).1) (hashToInt hash) inv
  have hh := half_eq
  subst h
  dsimp only
  refine ⟨hr1, hr2, by omega, hs2, ?_⟩
  obtain ⟨w, hw, -, -, hwd⟩ := modInverse_some (a := sOf D (rOf (enc (k • G)).1)
    (hashToInt hash) inv) (not_dvd_range (by omega) (by omega))
  rw [verify_eq (w := w) hash _ hr1 hr2 (by dsimp only; omega) (by dsimp only; omega) hw]
  dsimp only
  obtain ⟨ε, hε, hp⟩ := sign_point (D := D) (r := rOf (enc (k • G)).1) (e := hashToInt hash) hd
  rw [← (vpoint_iff hwd).2 hp, enc_sign hε, hr3, decide_eq_true ⟨sign_ne hε hK, rfl⟩]

/-! ### Coordinates that are not on the curve -/

theorem affine_lt (q : Jac) : (fieldJacobianToBigAffine q).1.natAbs < 2 ^ 256 ∧
    (fieldJacobianToBigAffine q).2.natAbs < 2 ^ 256 := by
  have key : ∀ f : FieldVal, ((setBytes (fieldBytes f).toList : ℕ) : Int).natAbs < 2 ^ 256 := by
    intro f
    have := setBytes_lt (fieldBytes f).toList
    rw [Vector.length_toList, show (256 : ℕ) ^ 32 = 2 ^ 256 by norm_num] at this
    rwa [Int.natAbs_natCast]
  exact ⟨key _, key _⟩

theorem respects_true : Respects fun _ (_ : E) => True :=
  ⟨trivial, fun _ _ _ => trivial, fun _ _ _ _ _ _ => trivial⟩

/-- `ScalarMult` returns for all coordinates below `2^256`. -/
theorem scalarMult_total {x y : Int} (hx : x.natAbs < 2 ^ 256) (hy : y.natAbs < 2 ^ 256)
    (k : Bytes) : ∃ q : Jac, scalarMult x y k = .ok (fieldJacobianToBigAffine q) := by
  obtain ⟨b, hb, rb⟩ := beta_R
  obtain ⟨f, g, e, hf, hg⟩ := bigAffine_ok hx hy
  have rf := canon_R hf
  have rg := canon_R hg
  have rn := ng rg 1 1 rfl (by decide) (by decide)
  have one : R (setInt 1) 1 1 := Nm_one.R
  have h1 : Op (fun _ (_ : E) => True) f g (negateVal g 1) (setInt 1) 0 :=
    ⟨_, _, _, rf, rg.mono (by decide), rn, one, fun _ _ _ _ => trivial, fun _ _ _ _ => trivial⟩
  have h2 : Op (fun _ (_ : E) => True) (mul2 f b) g (negateVal g 1) (setInt 1) (curveLambda • (0 : E)) :=
    ⟨_, _, _, (rf.mul rb (by decide) (by decide)), rg.mono (by decide), rn, one,
      fun _ _ _ _ => trivial, fun _ _ _ _ => trivial⟩
  obtain ⟨q, hq, -⟩ := scalarMult_core respects_true (k := k) e hb h1 h2
  exact ⟨q, hq⟩

theorem add_total {x1 y1 x2 y2 : Int} (h1 : x1.natAbs < 2 ^ 256) (h2 : y1.natAbs < 2 ^ 256)
    (h3 : x2.natAbs < 2 ^ 256) (h4 : y2.natAbs < 2 ^ 256) :
    ∃ q, Curve.add x1 y1 x2 y2 = .ok q := by
  rw [Curve.add]
  split
  · exact ⟨_, rfl⟩
  split
  · exact ⟨_, rfl⟩
  obtain ⟨f, g, e, -⟩ := bigAffine_ok h1 h2
  obtain ⟨f', g', e', -⟩ := bigAffine_ok h3 h4
  rw [e, e', Go.bind_ok, Go.bind_ok]
  exact ⟨_, rfl⟩

/-! ### Recovery -/

theorem smRun_zero (p1x p1y b : FieldVal) :
    smRun [] [] 0 0 p1x p1y b = .ok ⟨zero, zero, zero⟩ := rfl

theorem affine_zero : fieldJacobianToBigAffine ⟨zero, zero, zero⟩ = (0, 0) := by
  exact JR_inf.affine

/-- Multiplying by N gives (0, 0), whatever the coordinates are. -/
theorem scalarMult_N {x y : Int} (hx : x.natAbs < 2 ^ 256) (hy : y.natAbs < 2 ^ 256) :
    scalarMult x y (natBytes curveN) = .ok (0, 0) := by
  obtain ⟨b, hb, rb⟩ := beta_R
  obtain ⟨f, g, e, hf, hg⟩ := bigAffine_ok hx hy
  have hs : splitK (moduloReduce (natBytes curveN)) = ([], [], 0, 0) := by decide +kernel
  rw [scalarMult, hs, e, hb, Go.bind_ok, Go.bind_ok]
  dsimp only
  rw [smRun_zero, Go.bind_ok, affine_zero]
  rfl

theorem orderCheck_ok {x y : Int} (hx : x.natAbs < 2 ^ 256) (hy : y.natAbs < 2 ^ 256) (c : Bool) :
    orderCheck c x y = .ok true := by
  cases c
  · rfl
  · rw [orderCheck, if_pos rfl, scalarMult_N hx hy]
    rfl

theorem recoverQ_total {sig : Sig} (msg : Bytes) {x y : Int} (hR : ¬(curveN : Int) ∣ sig.R)
    (hx : x.natAbs < 2 ^ 256) (hy : y.natAbs < 2 ^ 256) :
    ∃ o, recoverQ sig msg x y = .ok (.ok o) := by
  obtain ⟨inv, hi, -, -, -⟩ := modInverse_some hR
  obtain ⟨q, hq⟩ := scalarMult_total hx hy (intBytes (inv * sig.S % (curveN : Int)))
  obtain ⟨h1, h2⟩ := affine_lt q
  have hlt : ∀ A : E, (enc A).1.natAbs < 2 ^ 256 ∧ (enc A).2.natAbs < 2 ^ 256 := by
    intro A
    have h1 := enc_lt A
    have h2 := enc_nonneg A
    have h3 : curveP < 2 ^ 256 := by decide
    omega
  have e1 := base_int (Int.emod_nonneg (-hashToInt msg % (curveN : Int) * inv) N_pos.ne')
  obtain ⟨o, ho⟩ := add_total h1 h2 (hlt ((-hashToInt msg % (curveN : Int) * inv %
    (curveN : Int)) • G)).1 (hlt ((-hashToInt msg % (curveN : Int) * inv % (curveN : Int)) • G)).2
  rw [recoverQ, hi, deref_some, Go.bind_ok]
  dsimp only
  rw [hq, Go.bind_ok, e1, Go.bind_ok, ho]
  exact ⟨_, rfl⟩

/-- The key computed from a point on the curve. -/
theorem recoverQ_on {sig : Sig} (msg : Bytes) (K : E) (hR : ¬(curveN : Int) ∣ sig.R) :
    ∃ Q : E, recoverQ sig msg (enc K).1 (enc K).2 = .ok (.ok (pk Q)) ∧
      sig.R • Q = sig.S • K - hashToInt msg • G := by
  obtain ⟨inv, hi, -, -, hd⟩ := modInverse_some hR
  have e1 := base_int (Int.emod_nonneg (-hashToInt msg % (curveN : Int) * inv) N_pos.ne')
  have e2 := mult_int (Int.emod_nonneg (inv * sig.S) N_pos.ne') K
  rw [mod_zsmul] at e1 e2
  refine ⟨(inv * sig.S) • K + (-hashToInt msg % (curveN : Int) * inv) • G, ?_, ?_⟩
  · rw [recoverQ, hi, deref_some, Go.bind_ok]
    dsimp only
    rw [e2, Go.bind_ok, e1, Go.bind_ok, add_enc]
    rfl
  · rw [zsmul_add, ← mul_zsmul, ← mul_zsmul, sub_eq_add_neg, ← neg_zsmul]
    refine congrArg₂ (fun A B : E => A + B) ?_ ?_
    · refine zsmul_of_dvd ?_ _
      have : sig.R * (inv * sig.S) - sig.S = sig.S * (sig.R * inv - 1) := by ring
      rw [this]
      exact hd.mul_left _
    · refine zsmul_of_dvd ?_ _
      have hm := Int.emod_add_mul_ediv (-hashToInt msg) curveN
      have : sig.R * (-hashToInt msg % (curveN : Int) * inv) - -hashToInt msg =
          -hashToInt msg % (curveN : Int) * (sig.R * inv - 1) +
            (curveN : Int) * (-(-hashToInt msg / (curveN : Int))) := by
        linear_combination hm
      rw [this]
      exact dvd_add (hd.mul_left _) (Dvd.intro _ rfl)

theorem recover_eq {sig : Sig} (msg : Bytes) (i : ℕ) (c : Bool) (h0 : 0 ≤ sig.R) :
    (¬(curveN : Int) * (i / 2 : ℕ) + sig.R < curveP ∧
      recoverKeyFromSignature sig msg i c = .ok (.error "calculated Rx is larger than curve P")) ∨
    ∃ (x : ℕ) (y : F), (x : Int) = (curveN : Int) * (i / 2 : ℕ) + sig.R ∧ x < P ∧
      decide (y.val % 2 = 1) = decide (i % 2 = 1) ∧ (y = root x ∨ y = -root x) ∧
      recoverKeyFromSignature sig msg i c = recoverQ sig msg x y.val := by
  rw [recoverKeyFromSignature]
  by_cases hx : (curveN : Int) * (i / 2 : ℕ) + sig.R < curveP
  swap
  · exact .inl ⟨hx, by rw [if_pos hx]; rfl⟩
  right
  rw [if_neg (not_not.2 hx)]
  obtain ⟨x, hxe⟩ : ∃ x : ℕ, (curveN : Int) * (i / 2 : ℕ) + sig.R = x :=
    Int.eq_ofNat_of_zero_le (by positivity)
  rw [hxe] at hx ⊢
  rw [curveP_eq] at hx
  have hxP : x < P := by omega
  obtain ⟨y, hy, hb, hr⟩ := decompress_ok x (decide (i % 2 = 1))
  refine ⟨x, y, rfl, hxP, hb, hr, ?_⟩
  rw [hy]
  dsimp only
  have h256 : P < 2 ^ 256 := by decide
  rw [orderCheck_ok (by rw [Int.natAbs_natCast]; omega)
    (by rw [Int.natAbs_natCast]; exact val_lt_256 y), Go.bind_ok]
  rfl

/-- The check of step 1.4 has no effect. -/
theorem recover_check (sig : Sig) (msg : Bytes) (i : ℕ) (h0 : 0 ≤ sig.R) :
    recoverKeyFromSignature sig msg i true = recoverKeyFromSignature sig msg i false := by
  rcases recover_eq msg i true h0 with ⟨h, h1⟩ | ⟨x, y, hx, hxP, hb, hr, h1⟩ <;>
    rcases recover_eq msg i false h0 with ⟨h', h2⟩ | ⟨x', y', hx', hxP', hb', hr', h2⟩
  · rw [h1, h2]
  · rw [← hx', curveP_eq] at h; omega
  · rw [← hx, curveP_eq] at h'; omega
  · have : x = x' := by omega
    subst this
    have hyy : y = y' := by
      have hp := neg_parity (root_ne (x : F))
      have hd : (y.val % 2 = 1 ↔ y'.val % 2 = 1) := 
        decide_eq_decide.1 (hb.trans hb'.symm)
      rcases hr with e | e <;> rcases hr' with e' | e' <;> rw [e, e'] at hd <;> rw [e, e']
      · exact absurd hd (by clear * - hp; omega)
      · exact absurd hd (by clear * - hp; omega)
    rw [h1, h2, hyy]

theorem recover_total {sig : Sig} (msg : Bytes) (i : ℕ) (c : Bool) (h0 : 0 ≤ sig.R)
    (hR : ¬(curveN : Int) ∣ sig.R) : ∃ o, recoverKeyFromSignature sig msg i c = .ok o := by
  rcases recover_eq msg i c h0 with ⟨-, h1⟩ | ⟨x, y, hx, hxP, hb, hr, h1⟩
  · exact ⟨_, h1⟩
  · have h256 : P < 2 ^ 256 := by decide
    obtain ⟨o, ho⟩ := recoverQ_total (sig := sig) msg (x := x) (y := y.val) hR
      (by rw [Int.natAbs_natCast]; omega) (by rw [Int.natAbs_natCast]; exact val_lt_256 y)
    exact ⟨_, h1.trans ho⟩

/-- The point with x coordinate R + (i/2)N and the parity of i. -/
theorem recover_on {sig : Sig} (msg : Bytes) (i : ℕ) (c : Bool) {x y : F}
    (hc : y ^ 2 = x ^ 3 + 7) (hR : ¬(curveN : Int) ∣ sig.R) (h0 : 0 ≤ sig.R)
    (hx : (x.val : Int) = (curveN : Int) * (i / 2 : ℕ) + sig.R)
    (hy : y.val % 2 = i % 2) :
    ∃ Q : E, recoverKeyFromSignature sig msg i c = .ok (.ok (pk Q)) ∧
      sig.R • Q = sig.S • mk hc - hashToInt msg • G := by
  obtain ⟨Q, hQ, hQ'⟩ := recoverQ_on (sig := sig) msg (mk hc) hR
  refine ⟨Q, ?_, hQ'⟩
  rw [← hQ, enc_mk]
  rcases recover_eq msg i c h0 with ⟨h, h1⟩ | ⟨x', y', hx', hxP, hb, hr, h1⟩
  · exfalso
    rw [← hx, curveP_eq] at h
    have := x.val_lt
    omega
  · have ex : x' = x.val := by omega
    subst ex
    rw [ZMod.natCast_zmod_val] at hr
    have hyy : y' = y := by
      have hd : (y'.val % 2 = 1 ↔ i % 2 = 1) := decide_eq_decide.1 hb
      have hp := neg_parity (no_y_zero hc)
      have : y' = y ∨ y' = -y := by
        rcases root_of_sq hc with h | h <;> rw [h] at hr
        · exact hr
        · rw [neg_neg] at hr; exact hr.symm
      rcases this with rfl | rfl
      · rfl
      · omega
    rw [h1, hyy]

/-! ### Compact signatures -/

/-- What the loop of `SignCompact` returns recovers the key. -/
theorem compactLoop_spec {key : PrivKey} {sig : Sig} {hash : Bytes} {comp : Bool} (h0 : 0 ≤ sig.R)
    (hR : ¬(curveN : Int) ∣ sig.R) (n i i0 : ℕ) (hi : i ≤ i0) (hn : i0 < i + n)
    (hgood : recoverKeyFromSignature sig hash i0 true = .ok (.ok key.pub)) :
    ∃ j, i ≤ j ∧ j < i + n ∧ recoverKeyFromSignature sig hash j true = .ok (.ok key.pub) ∧
      compactLoop key sig hash comp n i = .ok (.ok
        ([if comp then 27 + UInt8.ofNat j + 4 else 27 + UInt8.ofNat j] ++ padTo32 sig.R ++
          padTo32 sig.S)) := by
  induction n generalizing i with
  | zero => omega
  | succ n ih =>
    rw [compactLoop]
    by_cases hit : recoverKeyFromSignature sig hash i true = .ok (.ok key.pub)
    · refine ⟨i, le_rfl, by omega, hit, ?_⟩
      rw [hit, Go.bind_ok]
      dsimp only
      rw [if_pos ⟨rfl, rfl⟩]
      rfl
    · have hne : i ≠ i0 := fun h => hit (h ▸ hgood)
      obtain ⟨j, hj1, hj2, hj3, hj4⟩ := ih (i + 1) (by omega) (by omega)
      refine ⟨j, by omega, by omega, hj3, ?_⟩
      rw [← hj4]
      obtain ⟨o, ho⟩ := recover_total (sig := sig) hash i true h0 hR
      rw [ho, Go.bind_ok]
      rcases o with e | q
      · rfl
      · dsimp only
        rw [if_neg]
        rintro ⟨hx, hy⟩
        refine hit (ho.trans ?_)
        obtain ⟨qx, qy⟩ := q
        rcases hk : key.pub with ⟨kx, ky⟩
        rw [hk] at hx hy
        dsimp only at hx hy
        rw [hx, hy]

theorem padTo32_be32 (v : Int) : padTo32 v = be32 v.natAbs := rfl

theorem recoverCompact_eq {b0 : UInt8} {rb sb hash : Bytes} (hr : rb.length = 32)
    (hs : sb.length = 32) :
    recoverCompact ([b0] ++ rb ++ sb) hash = (do
      let r ← recoverKeyFromSignature ⟨setBytes rb, setBytes sb⟩ hash ((b0 - 27) &&& 0xfb).toNat false
      match r with
      | .error e => pure (.error e)
      | .ok key => pure (.ok (key, decide ((b0 - 27) &&& 4 = 4)))) := by
  have hl : ([b0] ++ rb ++ sb).length = 65 := by simp [hr, hs]
  have s1 : slice ([b0] ++ rb ++ sb) 1 33 = .ok rb := by
    rw [List.append_assoc]
    exact slice_append rfl (by simp [hr])
  have s2 : slice ([b0] ++ rb ++ sb) 33 65 = .ok sb :=
    slice_end (by simp [hr]) (by simp [hr, hs])
  rw [recoverCompact, if_neg (not_not.2 hl), show idx ([b0] ++ rb ++ sb) 0 = .ok b0 from rfl,
    Go.bind_ok]
  dsimp only
  rw [s1, Go.bind_ok, s2, Go.bind_ok]
  rcases recoverKeyFromSignature ⟨setBytes rb, setBytes sb⟩ hash ((b0 - 27) &&& 0xfb).toNat false
    with (_ | _) | _ <;> rfl

theorem compact_byte : ∀ (j : Fin 4) (comp : Bool),
    let b0 := if comp then 27 + UInt8.ofNat j.val + 4 else 27 + UInt8.ofNat j.val
    ((b0 - 27) &&& 0xfb).toNat = j.val ∧ decide ((b0 - 27) &&& 4 = 4) = comp := by decide

/-- Signing with a nonce gives a compact signature from which the key is recovered. -/
theorem compact_recover {k D : Int} {hash : Bytes} {sig : Sig} {key : PrivKey} (comp : Bool)
    (h1 : 1 ≤ k) (h2 : k < curveN) (hN : (enc (k • G)).1 ≠ curveN)
    (hkey : key.pub = pk (D • G)) (h : signWith k D hash = .ok (.ok sig)) :
    ∃ b, signCompactWith key (signWith k D hash) hash comp = .ok (.ok b) ∧ b.length = 65 ∧
      recoverCompact b hash = .ok (.ok (key.pub, comp)) := by
  obtain ⟨hR1, hR2, hS1, hS2, -⟩ := sign_verify h1 h2 hN h
  have hK : k • G ≠ 0 := mt (zsmul_eq_zero G_ne).1 (not_dvd_range h1 h2)
  have hRd := not_dvd_range hR1 hR2
  have hh := half_eq
  obtain ⟨inv, hi, -, -, hd⟩ := modInverse_some (not_dvd_range h1 h2)
  have h' := h
  rw [signWith_eq hash h1 h2 hi] at h'
  split at h'
  · cases h'
  injection h' with h'
  injection h' with h'
  obtain ⟨ε, hε, hp⟩ := sign_point (D := D) (r := rOf (enc (k • G)).1) (e := hashToInt hash) hd
  have hr : sig.R = rOf (enc (k • G)).1 := by rw [← h']
  have hs : sig.S = sOf D (rOf (enc (k • G)).1) (hashToInt hash) inv := by rw [← h']
  rw [← hs, ← hr] at hp
  rw [← enc_sign hε] at hr hN
  have hK' := sign_ne hε hK
  generalize ε • k • G = K at *
  rcases point_cases K with rfl | ⟨x, y, hc, rfl⟩
  · exact absurd rfl hK'
  rw [enc_mk] at hr hN
  dsimp only at hr hN
  -- the iteration
  obtain ⟨i0, hi0, hx, hy⟩ : ∃ i0 : ℕ, i0 < 4 ∧
      (x.val : Int) = (curveN : Int) * (i0 / 2 : ℕ) + sig.R ∧ y.val % 2 = i0 % 2 := by
    rw [rOf] at hr
    split at hr
    · refine ⟨2 + y.val % 2, by omega, ?_, by omega⟩
      rw [show (2 + y.val % 2) / 2 = 1 by omega]
      push_cast
      omega
    · refine ⟨y.val % 2, by omega, ?_, by omega⟩
      rw [show y.val % 2 / 2 = 0 by omega]
      push_cast
      omega
  obtain ⟨Q, hQ, hQ'⟩ := recover_on (sig := sig) hash i0 true hc hRd (by omega) hx hy
  have hQD : Q = D • G := by
    rw [hp, add_sub_cancel_left] at hQ'
    have : sig.R • (Q - D • G) = 0 := by rw [zsmul_sub, hQ', sub_self]
    by_contra hne
    exact hRd ((zsmul_eq_zero (sub_ne_zero.2 hne)).1 this)
  rw [hQD, ← hkey] at hQ
  obtain ⟨j, -, hj2, hj3, hj4⟩ := compactLoop_spec (comp := comp) (by omega) hRd 4 0 i0
    (by omega) (by omega) hQ
  have hN256 : curveN < 2 ^ 256 := by decide
  have l1 : (be32 sig.R.natAbs).length = 32 := be32_length (by omega)
  have l2 : (be32 sig.S.natAbs).length = 32 := be32_length (by omega)
  refine ⟨_, by rw [signCompactWith, h, Go.bind_ok]; exact hj4, ?_, ?_⟩
  · rw [padTo32_be32, padTo32_be32]
    simp [l1, l2]
  · rw [padTo32_be32, padTo32_be32, recoverCompact_eq l1 l2, setBytes_be32, setBytes_be32,
      Int.natAbs_of_nonneg (by omega), Int.natAbs_of_nonneg (by omega)]
    obtain ⟨b1, b2⟩ := compact_byte ⟨j, by omega⟩ comp
    rw [b1, b2]
    show (recoverKeyFromSignature sig hash j false >>= _) = _
    rw [← recover_check _ _ _ (by omega), hj3]
    rfl

end Zk.Ec
