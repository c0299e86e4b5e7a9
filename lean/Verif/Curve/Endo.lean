import Verif.Curve.Affine
import Verif.Curve.NafLemmas

/-!
# `splitK`, `moduloReduce` and the endomorphism behind them
-/

namespace Zk.Curve

open Zk Zk.Field

/-! ### `moduloReduce` and `splitK` -/

theorem moduloReduce_mod (k : Bytes) : setBytes (moduloReduce k) % curveN = setBytes k % curveN := by
  rw [moduloReduce]
  split_ifs
  · dsimp only
    rw [setBytes_intBytes, show ((setBytes k : Int) % (curveN : Int)).natAbs = setBytes k % curveN by
      rw [← Int.natCast_mod, Int.natAbs_natCast], Nat.mod_mod]
  · rfl

theorem moduloReduce_length (k : Bytes) : (moduloReduce k).length ≤ 32 := by
  rw [moduloReduce]
  split_ifs with h
  · dsimp only
    apply natBytes_length_le
    rw [← Int.natCast_mod, Int.natAbs_natCast]
    exact lt_trans (Nat.mod_lt _ (by decide)) (by decide)
  · exact not_lt.1 h

/-- The two numbers of `splitK`, btcec/btcec.go:633-659. -/
def kk1 (k : Bytes) : Int :=
  setBytes k - curveB2 * setBytes k / (curveN : Int) * curveA1
    + curveB1 * setBytes k / (curveN : Int) * curveA2

/-- The second number of `splitK`, btcec/btcec.go:633-659. -/
def kk2 (k : Bytes) : Int :=
  curveB1 * setBytes k / (curveN : Int) * curveB2 - curveB2 * setBytes k / (curveN : Int) * curveB1

theorem splitK_eq (k : Bytes) :
    splitK k = (intBytes (kk1 k), intBytes (kk2 k), (kk1 k).sign, (kk2 k).sign) := rfl

theorem basis1 : (curveN : Int) ∣ curveA1 + curveB1 * curveLambda := by decide +kernel
theorem basis2 : (curveN : Int) ∣ curveA2 + curveB2 * curveLambda := by decide +kernel

theorem kk_mod (k : Bytes) : (curveN : Int) ∣ kk1 k + kk2 k * curveLambda - setBytes k := by
  obtain ⟨c, hc⟩ := basis1
  obtain ⟨d, hd⟩ := basis2
  rw [kk1, kk2]
  generalize curveB2 * setBytes k / (curveN : Int) = c1
  generalize curveB1 * setBytes k / (curveN : Int) = c2
  exact ⟨c2 * d - c1 * c, by linear_combination c2 * hd - c1 * hc⟩

theorem det_N : curveA1 * curveB2 - curveA2 * curveB1 = (curveN : Int) := by decide +kernel

theorem kk_bounds (k : Bytes) : (kk1 k).natAbs < 2 ^ 129 ∧ (kk2 k).natAbs < 2 ^ 129 := by
  have hN : (0 : Int) < curveN := by decide
  have d := det_N
  have e1 := Int.emod_add_mul_ediv (curveB2 * setBytes k) curveN
  have e2 := Int.emod_add_mul_ediv (curveB1 * setBytes k) curveN
  have l1 := Int.emod_nonneg (curveB2 * setBytes k) hN.ne'
  have l2 := Int.emod_nonneg (curveB1 * setBytes k) hN.ne'
  have u1 := Int.emod_lt_of_pos (curveB2 * setBytes k) hN
  have u2 := Int.emod_lt_of_pos (curveB1 * setBytes k) hN
  rw [kk1, kk2]
  generalize curveB2 * setBytes k / (curveN : Int) = c1 at *
  generalize curveB1 * setBytes k / (curveN : Int) = c2 at *
  generalize curveB2 * setBytes k % (curveN : Int) = r1 at *
  generalize curveB1 * setBytes k % (curveN : Int) = r2 at *
  generalize (setBytes k : Int) = K at *
  have h1 : (curveN : Int) * (K - c1 * curveA1 + c2 * curveA2) = r1 * curveA1 - r2 * curveA2 := by
    linear_combination (-K) * d - curveA1 * e1 + curveA2 * e2
  have h2 : (curveN : Int) * (c2 * curveB2 - c1 * curveB1) = r1 * curveB1 - r2 * curveB2 := by
    linear_combination - curveB1 * e1 + curveB2 * e2
  have a1 : (0 : Int) ≤ curveA1 ∧ curveA1 < 2 ^ 128 := by decide
  have a2 : (0 : Int) ≤ curveA2 ∧ curveA2 < 2 ^ 129 := by decide
  have b1 : curveB1 ≤ 0 ∧ -(2 ^ 128) < curveB1 := by decide
  have b2 : (0 : Int) ≤ curveB2 ∧ curveB2 < 2 ^ 128 := by decide
  clear d e1 e2
  generalize (curveN : Int) = N at *
  generalize curveA1 = A1 at *
  generalize curveA2 = A2 at *
  generalize curveB1 = B1 at *
  generalize curveB2 = B2 at *
  generalize K - c1 * A1 + c2 * A2 = x at *
  generalize c2 * B2 - c1 * B1 = y at *
  have bound : ∀ z : Int, N * z < N * 2 ^ 129 → -(N * 2 ^ 129) < N * z → z.natAbs < 2 ^ 129 := by
    intro z h h'
    have h1 : z < 2 ^ 129 := lt_of_mul_lt_mul_left h hN.le
    have h2 : -(2 ^ 129) < z := lt_of_mul_lt_mul_left (by linarith) hN.le
    omega
  constructor
  · apply bound
    · rw [h1]; nlinarith [mul_nonneg l2 a2.1]
    · rw [h1]; nlinarith [mul_nonneg l1 a1.1]
  · apply bound
    · rw [h2]; nlinarith [mul_nonneg l2 b2.1]
    · rw [h2]; nlinarith [mul_nonneg l1 (neg_nonneg.2 b1.1), mul_nonneg l2 b2.1]

/-! ### The endomorphism -/

/-- `curve.beta` as a number, btcec/btcec.go:967. -/
def betaN : ℕ := 0x7AE96A2B657C07106E64479EAC3434E99CF0497512F58995C1396C28719501EE

/-- `curve.beta` as a field element, btcec/btcec.go:967. -/
def bet : F := (betaN : F)

theorem beta_R : ∃ f, beta = .ok f ∧ R f 1 bet := by
  obtain ⟨f, h1, h2⟩ := setByteSlice_ok (b := betaBytes) (by decide)
  refine ⟨f, h1, (canon_R h2).congr ?_⟩
  rw [bet, show setBytes betaBytes = betaN by decide]

theorem bet_cube : bet ^ 3 = 1 := by
  have : ((betaN ^ 3 : ℕ) : F) = ((1 : ℕ) : F) := by rw [cast_eq]; decide +kernel
  rw [bet]
  push_cast at this
  exact this

theorem bet_ne : bet ≠ 0 := by
  intro h
  have := bet_cube
  rw [h] at this
  norm_num at this

theorem phi_on {x y : F} (h : y ^ 2 = x ^ 3 + 7) : y ^ 2 = (bet * x) ^ 3 + 7 := by
  rw [mul_pow, bet_cube, one_mul, h]

/-- (x, y) ↦ (βx, y), btcec/btcec.go:774-776. -/
def phi : E → E
  | .zero => 0
  | .some _ _ h => mk (phi_on (ns_eq h))

theorem phi_zero : phi 0 = 0 := rfl

theorem phi_mk {x y : F} (h : y ^ 2 = x ^ 3 + 7) : phi (mk h) = mk (phi_on h) := rfl

theorem RepF.phi {x y z : F} {A : E} (h : RepF x y z A) : RepF (bet * x) y z (phi A) := by
  obtain ⟨a, b, hab, rfl, hz, rfl, rfl⟩ := h
  exact ⟨bet * a, b, phi_on hab, phi_mk hab, hz, by ring, rfl⟩

theorem RepF.eq {x y z : F} {A B : E} (h1 : RepF x y z A) (h2 : RepF x y z B) : A = B :=
  h1.unique h2 rfl rfl

theorem exists_rep {A : E} (h : A ≠ 0) : ∃ x y, RepF x y 1 A := by
  rcases point_cases A with rfl | ⟨x, y, hA, rfl⟩
  · exact absurd rfl h
  · exact ⟨x, y, RepF.of_mk hA⟩

theorem phi_neg (A : E) : phi (-A) = -phi A := by
  by_cases hA : A = 0
  · rw [hA, neg_zero, phi_zero, neg_zero]
  · obtain ⟨x, y, h⟩ := exists_rep hA
    exact h.neg.phi.eq h.phi.neg

theorem phi_dbl (A : E) : phi (A + A) = phi A + phi A := by
  by_cases hA : A = 0
  · rw [hA, zero_add, phi_zero, zero_add]
  · obtain ⟨x, y, h⟩ := exists_rep hA
    have b3 := bet_cube
    refine (h.dbl h.y_ne).phi.eq (((h.phi.dbl h.y_ne).congr ?_ ?_ ?_))
    · linear_combination (9 * bet * x ^ 4) * b3
    · linear_combination (12 * x ^ 3 * y ^ 2 + 24 * x ^ 3 * y ^ 2 - 27 * x ^ 6 * (bet ^ 3 + 1)) * b3
    · rfl

theorem phi_add (A B : E) : phi (A + B) = phi A + phi B := by
  by_cases hA : A = 0
  · rw [hA, zero_add, phi_zero, zero_add]
  by_cases hB : B = 0
  · rw [hB, add_zero, phi_zero, add_zero]
  obtain ⟨x, y, h⟩ := exists_rep hA
  obtain ⟨x', y', h'⟩ := exists_rep hB
  by_cases hx : x = x'
  · subst hx
    by_cases hy : y = y'
    · subst hy
      rw [h.eq h', phi_dbl]
    · have e := h.opp h' rfl (by simpa using hy)
      have e' : A = -B := by rw [eq_neg_iff_add_eq_zero]; exact e
      rw [e, e', phi_neg, neg_add_cancel, phi_zero]
  · have b3 := bet_cube
    refine ((h.add h' rfl rfl rfl rfl (by simpa using hx)).phi).eq ?_
    have := (h.phi.add h'.phi rfl rfl rfl rfl (by simpa [bet_ne] using hx)).scale
      (pow_ne_zero 2 bet_ne)
    refine this.congr ?_ ?_ ?_
    · linear_combination (bet * (y' - y) ^ 2 -
        bet * (x' - x) ^ 2 * (x + x') * (bet ^ 3 + 1)) * b3
    · have b6 : bet ^ 6 = 1 := by linear_combination (bet ^ 3 + 1) * b3
      have b9 : bet ^ 9 = 1 := by linear_combination (bet ^ 6 + bet ^ 3 + 1) * b3
      linear_combination (y' - y) * (x * (x' - x) ^ 2 + (x' - x) ^ 2 * (x + x')) * b9 -
        (y' - y) ^ 3 * b6 - y * (x' - x) ^ 3 * b9
    · linear_combination (x' - x) * b3

theorem phi_nsmul (n : ℕ) (A : E) : phi (n • A) = n • phi A := by
  induction n with
  | zero => rw [zero_nsmul, zero_nsmul, phi_zero]
  | succ n ih => rw [succ_nsmul, succ_nsmul, phi_add, ih]

theorem phi_G : phi G = curveLambda • G := by
  have h : RepN (betaN * curveGx % P, curveGy, 1) (curveLambda • G) :=
    checkMulG_rep (by decide) (by decide) (by decide +kernel)
  refine Gn_rep.phi.eq (RepF.congr h ?_ rfl rfl)
  show ((betaN * curveGx % P : ℕ) : F) = bet * (curveGx : F)
  rw [ZMod.natCast_mod, Nat.cast_mul, bet]

/-- The endomorphism is multiplication by λ. -/
theorem phi_eq (A : E) : phi A = curveLambda • A := by
  obtain ⟨n, rfl⟩ := G_generates A
  rw [phi_nsmul, phi_G, nsmul_left_comm]

end Zk.Curve
