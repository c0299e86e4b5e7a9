import Verif.Curve.Scalar

/-!
# `ScalarMult` and `Add` of btcec/btcec.go on points that do not lie on the curve
-/

namespace Zk.Curve

open Zk Zk.Field

/-! ### Points (0, y) -/

/-- Jacobian coordinates of a multiple of (0, y), which has order 3: the routines of btcec/btcec.go:340-603 do not use
the constant 7 of the curve, and (0, y) is a point of order 3 on another curve. -/
def T3 (y : F) (p : Jac) (a : ZMod 3) : Prop :=
  (a = 0 ∧ isZero p.x = true ∧ isZero p.y = true ∧ ∃ Z, R p.z 1 Z) ∨
    ∃ s Z : F, (a = 1 ∧ s = 1 ∨ a = -1 ∧ s = -1) ∧ Z ≠ 0 ∧ R p.x 1 0 ∧ R p.y 2 (s * y * Z ^ 3) ∧ R p.z 1 Z

theorem T3_inf (y : F) : T3 y infJac 0 := .inl ⟨rfl, by decide, by decide, _, Nm_zero.R⟩

theorem T3.double {y : F} (hy : y ≠ 0) {p : Jac} {a : ZMod 3} (h : T3 y p a) : T3 y (doubleJacobian p) (a + a) := by
  rcases h with ⟨rfl, _, h2, _⟩ | ⟨s, Z, hs, hZ, hx, hyy, hz⟩
  · rw [doubleJacobian, h2, Bool.true_or, if_pos rfl, add_zero]
    exact T3_inf y
  · have s2 : s * s = 1 := by rcases hs with ⟨_, rfl⟩ | ⟨_, rfl⟩ <;> ring
    have s0 : s ≠ 0 := fun h => by rw [h] at s2; simp at s2
    have hY : s * y * Z ^ 3 ≠ 0 := mul_ne_zero (mul_ne_zero s0 hy) (pow_ne_zero 3 hZ)
    have hs' : (a + a = 1 ∧ -s = 1 ∨ a + a = -1 ∧ -s = -1) := by
      rcases hs with ⟨rfl, rfl⟩ | ⟨rfl, rfl⟩
      · exact .inr ⟨by decide, rfl⟩
      · exact .inl ⟨by decide, by ring⟩
    have nz := hz.normalize (by decide)
    rw [doubleJacobian, R.not_isZero hyy hY, R.not_isZero hz hZ, Bool.or_self, if_neg (by simp)]
    dsimp only
    rw [nz.equals Nm_fieldOne]
    by_cases h1 : Z = 1
    · rw [if_pos (by simpa using h1)]
      obtain ⟨e1, e2, e3⟩ := double_nm hx hyy (mi hyy 2 2 rfl (by decide) (by decide)) (by decide)
      refine .inr ⟨-s, 2 * (s * y * Z ^ 3), hs', mul_ne_zero two_ne hY, ?_, ?_, ?_⟩
      · exact e1.R.congr (by ring)
      · refine (e2.R.mono (by decide)).congr ?_
        subst h1
        linear_combination (8 * s ^ 2 * y ^ 4 - 8 * s ^ 2 * y ^ 4) * s2
      · exact e3.R.congr (by push_cast; ring)
    · rw [if_neg (by simpa using h1)]
      obtain ⟨e1, e2, e3⟩ := double_nm hx hyy
        (mi (hyy.mul2 nz.R (by decide) (by decide)) 2 2 rfl (by decide) (by decide)) (by decide)
      refine .inr ⟨-s, 2 * (s * y * Z ^ 3) * Z, hs', mul_ne_zero (mul_ne_zero two_ne hY) hZ, ?_, ?_, ?_⟩
      · exact e1.R.congr (by ring)
      · exact (e2.R.mono (by decide)).congr (by ring)
      · exact e3.R.congr (by push_cast; ring)

/-- The branch of the addition routines for equal x. -/
theorem T3.same {y : F} (hy : y ≠ 0) {p : Jac} {a b : ZMod 3} {s t Z W S1 S2 : F} (h : T3 y p a)
    (ha : a = 1 ∧ s = 1 ∨ a = -1 ∧ s = -1) (hb : b = 1 ∧ t = 1 ∨ b = -1 ∧ t = -1) (hZ : Z ≠ 0) (hW : W ≠ 0)
    (h1 : S1 = s * y * Z ^ 3 * W ^ 3) (h2 : S2 = t * y * W ^ 3 * Z ^ 3) {c : Bool} (hc : c = decide (S1 = S2)) :
    T3 y (if c = true then doubleJacobian p else infJac) (a + b) := by
  have n : y * Z ^ 3 * W ^ 3 ≠ 0 := mul_ne_zero (mul_ne_zero hy (pow_ne_zero 3 hZ)) (pow_ne_zero 3 hW)
  have key : S1 = S2 ↔ s = t := by
    rw [h1, h2]
    constructor
    · intro e; exact mul_right_cancel₀ n (by linear_combination e)
    · rintro rfl; ring
  have one : (1 : F) ≠ -1 := by
    intro e
    exact two_ne (by linear_combination e)
  subst hc
  by_cases e : s = t
  · rw [if_pos (by simpa using key.2 e)]
    have : a = b := by
      subst e
      rcases ha with ⟨rfl, rfl⟩ | ⟨rfl, rfl⟩ <;> rcases hb with ⟨rfl, hb⟩ | ⟨rfl, hb⟩
      · rfl
      · exact absurd hb one
      · exact absurd hb.symm one
      · rfl
    subst this
    exact h.double hy
  · rw [if_neg (by simpa using mt key.1 e)]
    have : a + b = 0 := by
      rcases ha with ⟨rfl, rfl⟩ | ⟨rfl, rfl⟩ <;> rcases hb with ⟨rfl, rfl⟩ | ⟨rfl, rfl⟩
      · exact absurd rfl e
      · decide
      · decide
      · exact absurd rfl e
    rw [this]
    exact T3_inf y

theorem T3.add {y : F} (hy : y ≠ 0) {p q : Jac} {a b : ZMod 3} (hp : T3 y p a) (hq : T3 y q b) :
    T3 y (addJacobian p q).1 (a + b) := by
  rcases hp with ⟨rfl, hx, hy, _⟩ | ⟨s, Z, hs, hZ, hx1, hy1, hz1⟩
  · rw [addJacobian, hx, hy, Bool.and_self, Bool.true_or, if_pos rfl, zero_add]
    exact hq
  have s0 : s ≠ 0 := by
    rcases hs with ⟨_, rfl⟩ | ⟨_, rfl⟩
    · exact one_ne_zero
    · exact neg_ne_zero.2 one_ne_zero
  have hY : s * y * Z ^ 3 ≠ 0 := mul_ne_zero (mul_ne_zero s0 hy) (pow_ne_zero 3 hZ)
  have hp : T3 y p a := .inr ⟨s, Z, hs, hZ, hx1, hy1, hz1⟩
  rcases hq with ⟨rfl, hx, hyq, hz⟩ | ⟨t, W, ht, hW, hx2, hy2, hz2⟩
  · rw [addJacobian, R.not_isZero hy1 hY, R.not_isZero hz1 hZ, hx, hyq, Bool.and_false,
      Bool.or_self, if_neg (by simp), Bool.and_self, Bool.true_or, if_pos rfl, add_zero]
    exact hp
  have t0 : t ≠ 0 := by
    rcases ht with ⟨_, rfl⟩ | ⟨_, rfl⟩
    · exact one_ne_zero
    · exact neg_ne_zero.2 one_ne_zero
  have hY2 : t * y * W ^ 3 ≠ 0 := mul_ne_zero (mul_ne_zero t0 hy) (pow_ne_zero 3 hW)
  have nx1 := hx1.normalize (by decide)
  have ny1 := hy1.normalize (by decide)
  have nx2 := hx2.normalize (by decide)
  have ny2 := hy2.normalize (by decide)
  have nz1 := hz1.normalize (by decide)
  have nz2 := hz2.normalize (by decide)
  have l : ∀ {f g : FieldVal} {a : F}, Nm f a → Nm g a → Field.equals f g = true := by
    intro f g a hf hg; rw [hf.equals hg]; simp
  rw [addJacobian, R.not_isZero hy1 hY, R.not_isZero hz1 hZ, Bool.and_false,
    Bool.or_self, if_neg (by simp), R.not_isZero hy2 hY2, R.not_isZero hz2 hW,
    Bool.and_false, Bool.or_self, if_neg (by simp)]
  dsimp only
  rw [nz1.equals Nm_fieldOne, nz2.equals Nm_fieldOne, nz1.equals nz2]
  by_cases c1 : Z = 1 ∧ W = 1
  · rw [if_pos (by simpa using c1)]
    obtain ⟨rfl, rfl⟩ := c1
    dsimp only
    rw [addZ1AndZ2EqualsOne]
    dsimp only
    rw [if_pos (l nx1 nx2)]
    have := T3.same hy (p := ⟨_, _, _⟩) (.inr ⟨s, 1, hs, hZ, nx1.R, ny1.R.mono (n := 2) (by decide), nz1.R⟩) hs ht hZ hW
      (by ring) (by ring) (ny1.equals ny2)
    split_ifs at this ⊢ <;> exact this
  rw [if_neg (by simpa using c1)]
  by_cases c2 : Z = W
  · rw [if_pos (by simpa using c2)]
    subst c2
    dsimp only
    rw [addZ1EqualsZ2]
    dsimp only
    rw [if_pos (l nx1 nx2)]
    have := T3.same hy (p := ⟨_, _, _⟩) (.inr ⟨s, Z, hs, hZ, nx1.R, ny1.R.mono (n := 2) (by decide), nz1.R⟩) hs ht
      hZ hZ rfl rfl
      ((ny1.equals ny2).trans (by
        rw [decide_eq_decide]
        exact ⟨fun h => by rw [h], fun h => mul_right_cancel₀ (pow_ne_zero 3 hZ) h⟩))
    split_ifs at this ⊢ <;> exact this
  rw [if_neg (by simpa using c2)]
  by_cases c3 : W = 1
  · rw [if_pos (by simpa using c3)]
    subst c3
    dsimp only
    rw [addZ2EqualsOne]
    dsimp only
    rw [if_pos (l nx1 (((hx2.mul (nz1.R.squareVal (by decide)) (by decide) (by decide)).normalize
      (by decide)).congr (by ring)))]
    have := T3.same hy (p := ⟨_, _, _⟩) (.inr ⟨s, Z, hs, hZ, nx1.R, ny1.R.mono (n := 2) (by decide), nz1.R⟩) hs ht
      hZ one_ne_zero (by ring) (by ring) (ny1.equals (((hy2.mul (nz1.R.squareVal (by decide)) (by decide) (by decide)).mul nz1.R
        (by decide) (by decide)).normalize (by decide)))
    split_ifs at this ⊢ <;> exact this
  · rw [if_neg (by simpa using c3)]
    dsimp only
    rw [addGeneric]
    dsimp only
    rw [if_pos (l (a := 0) (((hx1.mul (nz2.R.squareVal (by decide)) (by decide) (by decide)).normalize
      (by decide)).congr (by ring)) (((hx2.mul (nz1.R.squareVal (by decide)) (by decide)
      (by decide)).normalize (by decide)).congr (by ring)))]
    have := T3.same hy (p := ⟨p.x, p.y, Field.normalize p.z⟩) (.inr ⟨s, Z, hs, hZ, hx1, hy1, nz1.R⟩)
      hs ht hZ hW (by ring) (by ring) ((((hy1.mul (nz2.R.squareVal (by decide)) (by decide) (by decide)).mul nz2.R
        (by decide) (by decide)).normalize (by decide)).equals (((hy2.mul (nz1.R.squareVal (by decide)) (by decide) (by decide)).mul nz1.R
        (by decide) (by decide)).normalize (by decide)))
    split_ifs at this ⊢ <;> exact this

theorem respects_T3 {y : F} (hy : y ≠ 0) : Respects (T3 y) :=
  ⟨T3_inf y, fun _ _ h => h.double hy, fun _ _ _ _ h h' => h.add hy h'⟩

/-- (0, y) times a scalar whose two halves have a sum divisible by 3. -/
theorem scalarMult_three {y : ℕ} (hy : y < 2 ^ 256) (h0 : (y : F) ≠ 0) {k : Bytes}
    (h3 : (3 : Int) ∣ kk1 (moduloReduce k) + kk2 (moduloReduce k)) : scalarMult 0 y k = .ok (0, 0) := by
  obtain ⟨b, hb, rb⟩ := beta_R
  obtain ⟨f, g, e, hf, hg⟩ := bigAffine_ok (x := 0) (y := (y : Int)) (by decide) (by simpa using hy)
  have rf : R f 1 0 := (canon_R hf).congr (by simp)
  have rg : R g 1 (y : F) := (canon_R hg).congr (by simp)
  have rn : R (negateVal g 1) 2 (-(y : F)) := ng rg 1 1 rfl (by decide) (by decide)
  have hop : ∀ x, R x 1 0 → Op (T3 (y : F)) x g (negateVal g 1) (setInt 1) 1 := by
    intro x hx
    refine ⟨0, y, 1, hx, rg.mono (by decide), rn, Nm_one.R, ?_, ?_⟩
    · intro j h1 h2 h3; exact .inr ⟨1, 1, .inl ⟨rfl, rfl⟩, one_ne_zero, h1, h2.congr (by ring), h3⟩
    · intro j h1 h2 h3; exact .inr ⟨-1, 1, .inr ⟨rfl, rfl⟩, one_ne_zero, h1, h2.congr (by ring), h3⟩
  obtain ⟨q, h1, h2⟩ := smRun_spec (respects_T3 h0) (kk1 (moduloReduce k)) (kk2 (moduloReduce k)) (hop f rf)
    (hop _ ((rf.mul2 rb (by decide) (by decide)).congr (zero_mul _)))
  have hz : kk1 (moduloReduce k) • (1 : ZMod 3) + kk2 (moduloReduce k) • (1 : ZMod 3) = 0 := by
    rw [← add_zsmul, zsmul_one]
    exact (ZMod.intCast_zmod_eq_zero_iff_dvd _ 3).2 h3
  rw [hz] at h2
  rw [scalarMult, splitK_eq, e, hb, Go.bind_ok, Go.bind_ok, h1]
  rcases h2 with ⟨_, hx, hyy, Z, hz⟩ | ⟨s, Z, hs, _⟩
  · rw [Go.bind_ok, toAffine (isZero_R hx) (isZero_R hyy) hz (by decide) (by decide) (by decide), zero_mul,
      zero_mul, ZMod.val_zero]
    rfl
  · rcases hs with ⟨h, _⟩ | ⟨h, _⟩
    · exact absurd h (by decide)
    · exact absurd h (by decide)

/-- Coordinates that are zero modulo p, times any scalar. -/
theorem scalarMult_cusp {x y : ℕ} (hx : x < 2 ^ 256) (hy : y < 2 ^ 256) (x0 : (x : F) = 0) (y0 : (y : F) = 0)
    (k : Bytes) : scalarMult x y k = .ok (0, 0) := by
  obtain ⟨b, hb, rb⟩ := beta_R
  obtain ⟨f, g, e, hf, hg⟩ := bigAffine_ok (x := (x : Int)) (y := (y : Int)) (by simpa using hx) (by simpa using hy)
  have rf : R f 1 0 := (canon_R hf).congr (by simpa using x0)
  have rg : R g 1 0 := (canon_R hg).congr (by simpa using y0)
  have rn : R (negateVal g 1) 2 (-0) := ng rg 1 1 rfl (by decide) (by decide)
  have hop : ∀ x, R x 1 0 → Op (fun p (A : E) => A = 0 ∧ JZ p) x g (negateVal g 1) (setInt 1) 0 := by
    intro x hx
    refine ⟨0, 0, 1, hx, rg.mono (by decide), rn, Nm_one.R, ?_, ?_⟩
    · intro j h1 h2 h3; exact ⟨rfl, h1, h2, _, h3⟩
    · intro j h1 h2 h3; exact ⟨neg_zero, h1, by simpa using h2, _, h3⟩
  obtain ⟨q, h1, h2, h3⟩ := scalarMult_core (k := k) respects_JZ (B := 0) e hb (hop f rf)
    (by rw [nsmul_zero]; exact hop _ ((rf.mul2 rb (by decide) (by decide)).congr (zero_mul _)))
  obtain ⟨hx, hy, Z, hz⟩ := h3
  rw [h1, toAffine hx hy hz (by decide) (by decide) (by decide), zero_mul, zero_mul, ZMod.val_zero]
  rfl

/-! ### The chord -/

theorem isZero_val {f : FieldVal} (h : isZero f = true) : val f = 0 := by
  have : f = zero := by
    rw [← equals_iff]
    simp only [isZero, decide_eq_true_eq, or_eq_zero] at h
    simp only [equals, decide_eq_true_eq, or_eq_zero, xor_eq_zero, zero]
    exact h
  rw [this]; decide

/-- `Add` of points with different x is the chord formula, wherever the points lie. -/
theorem add_chord {x1 y1 x2 y2 : ℕ} (a1 : x1 < 2 ^ 256) (a2 : y1 < 2 ^ 256) (a3 : x2 < 2 ^ 256) (a4 : y2 < 2 ^ 256)
    (n1 : ¬(x1 = 0 ∧ y1 = 0)) (n2 : ¬(x2 = 0 ∧ y2 = 0)) {X1 Y1 X2 Y2 l : F} (e1 : (x1 : F) = X1) (e2 : (y1 : F) = Y1)
    (e3 : (x2 : F) = X2) (e4 : (y2 : F) = Y2) (hx : X1 ≠ X2) (hl : l * (X2 - X1) = Y2 - Y1) :
    Curve.add x1 y1 x2 y2 = .ok (((l ^ 2 - X1 - X2).val : Int), ((l * (X1 - (l ^ 2 - X1 - X2)) - Y1).val : Int)) := by
  obtain ⟨f, g, e, hf, hg⟩ := bigAffine_ok (x := (x1 : Int)) (y := (y1 : Int)) (by simpa using a1) (by simpa using a2)
  obtain ⟨f', g', e', hf', hg'⟩ := bigAffine_ok (x := (x2 : Int)) (y := (y2 : Int)) (by simpa using a3)
    (by simpa using a4)
  rw [add, if_neg (by exact_mod_cast n1), if_neg (by exact_mod_cast n2), e, e', Go.bind_ok, Go.bind_ok]
  have i1 : (isZero f && isZero g) = false := by
    rw [← Bool.not_eq_true, Bool.and_eq_true]
    rintro ⟨h1, h2⟩
    exact n1 ⟨by simpa using hf.2.symm.trans (isZero_val h1), by simpa using hg.2.symm.trans (isZero_val h2)⟩
  have i2 : (isZero f' && isZero g') = false := by
    rw [← Bool.not_eq_true, Bool.and_eq_true]
    rintro ⟨h1, h2⟩
    exact n2 ⟨by simpa using hf'.2.symm.trans (isZero_val h1), by simpa using hg'.2.symm.trans (isZero_val h2)⟩
  have hx1 : R f 1 X1 := (canon_R hf).congr (by simpa using e1)
  have hy1 : R g 1 Y1 := (canon_R hg).congr (by simpa using e2)
  have hx2 : R f' 1 X2 := (canon_R hf').congr (by simpa using e3)
  have hy2 : R g' 1 Y2 := (canon_R hg').congr (by simpa using e4)
  have nx1 := hx1.normalize (by decide)
  have ny1 := hy1.normalize (by decide)
  have nx2 := hx2.normalize (by decide)
  have ny2 := hy2.normalize (by decide)
  have nz : Nm (normalize (setInt 1)) 1 := Nm_one.R.normalize (by decide)
  have z1 : isZero (setInt 1) = false := by decide
  have hd : X2 - X1 ≠ 0 := sub_ne_zero.2 hx.symm
  show Go.ok (fieldJacobianToBigAffine (addJacobian ⟨f, g, setInt 1⟩ ⟨f', g', setInt 1⟩).1) = _
  rw [addJacobian]
  dsimp only
  rw [i1, i2, z1, Bool.or_self, if_neg (by decide), if_neg (by decide), nz.equals Nm_fieldOne,
    if_pos (by simp)]
  dsimp only
  unfold addZ1AndZ2EqualsOne
  extract_lets x1' y1' x2' y2' h i j r v negJ neg2V x3 negX3 j2 y3 z3
  rw [nx1.equals nx2, if_neg (by simpa using hx)]
  have rh : R h 3 (X2 - X1) :=
    ((ng nx1.R 1 1 rfl (by decide) (by decide)).add nx2.R (by decide)).congr (by ring)
  have ri : R i 4 (4 * (X2 - X1) ^ 2) :=
    (mi (rh.squareVal (by decide)) 4 4 rfl (by decide) (by decide)).congr (by push_cast; ring)
  have rj : R j 1 (4 * (X2 - X1) ^ 3) := (rh.mul2 ri (by decide) (by decide)).congr (by ring)
  have rr : R r 6 (2 * (Y2 - Y1)) :=
    (mi ((ng ny1.R 1 1 rfl (by decide) (by decide)).add ny2.R (by decide)) 2 2 rfl (by decide)
      (by decide)).congr (by push_cast; ring)
  have rv : R v 1 (4 * X1 * (X2 - X1) ^ 2) :=
    (nx1.R.mul2 ri (by decide) (by decide)).congr (by ring)
  have rnegJ : R negJ 2 (-(4 * (X2 - X1) ^ 3)) := ng rj 1 1 rfl (by decide) (by decide)
  have rneg2V : R neg2V 3 (-(8 * X1 * (X2 - X1) ^ 2)) :=
    (ng (mi rv 2 2 rfl (by decide) (by decide)) 2 2 rfl (by decide) (by decide)).congr
      (by push_cast; ring)
  have rx3 : R x3 6 (((Y2 - Y1) ^ 2 - (X2 - X1) ^ 2 * (X1 + X2)) * 2 ^ 2) :=
    (((rr.square (by decide)).add rnegJ (by decide)).add rneg2V (by decide)).congr (by ring)
  have rnegX3 : R negX3 7 (-(((Y2 - Y1) ^ 2 - (X2 - X1) ^ 2 * (X1 + X2)) * 2 ^ 2)) :=
    ng rx3 6 6 rfl (by decide) (by decide)
  have rj2 : R j2 3 (-(8 * Y1 * (X2 - X1) ^ 3)) :=
    (ng (mi (rj.mul ny1.R (by decide) (by decide)) 2 2 rfl (by decide) (by decide)) 2 2 rfl
      (by decide) (by decide)).congr (by push_cast; ring)
  have ry3 : R y3 4 (((Y2 - Y1) * (X1 * (X2 - X1) ^ 2 -
      ((Y2 - Y1) ^ 2 - (X2 - X1) ^ 2 * (X1 + X2))) - Y1 * (X2 - X1) ^ 3) * 2 ^ 3) :=
    (((rv.add rnegX3 (by decide)).mul rr (by decide) (by decide)).add rj2 (by decide)).congr
      (by ring)
  have rz3 : R z3 6 (1 * 1 * (X2 - X1) * 2) :=
    (mi rh 2 2 rfl (by decide) (by decide)).congr (by push_cast; ring)
  have hl' : l = (Y2 - Y1) / (X2 - X1) := by rw [eq_div_iff hd, hl]
  have h2 := two_ne
  have m1 : (((Y2 - Y1) ^ 2 - (X2 - X1) ^ 2 * (X1 + X2)) * 2 ^ 2) * (1 * 1 * (X2 - X1) * 2)⁻¹ ^ 2 =
      l ^ 2 - X1 - X2 := by
    rw [hl']; field_simp; ring
  have m2 : (((Y2 - Y1) * (X1 * (X2 - X1) ^ 2 -
      ((Y2 - Y1) ^ 2 - (X2 - X1) ^ 2 * (X1 + X2))) - Y1 * (X2 - X1) ^ 3) * 2 ^ 3) * (1 * 1 * (X2 - X1) * 2)⁻¹ ^ 3 =
      l * (X1 - (l ^ 2 - X1 - X2)) - Y1 := by
    rw [hl']; field_simp; ring
  rw [← m2, ← m1]
  exact congrArg Go.ok (toAffine (rx3.normalize (by decide)).R (ry3.normalize (by decide)).R
    (rz3.normalize (by decide)).R (by decide) (by decide) (by decide))

end Zk.Curve
