import Verif.Curve.Order

/-!
# Jacobian addition and doubling of btcec/btcec.go compute the group law
-/

namespace Zk.Curve

open Zk Zk.Field

section

variable {f g : FieldVal} {m n : ℕ} {a b : F}

theorem mi (hf : R f m a) (k : UInt64) (c : ℕ) (hc : k.toNat = c) (h1 : c < 2 ^ 32)
    (h2 : c * m ≤ 63) : R (mulInt f k) (c * m) ((c : F) * a) := by
  subst hc; exact hf.mulInt h1 h2

theorem ng (hf : R f m a) (k : UInt32) (c : ℕ) (hc : k.toNat = c) (h1 : m ≤ c) (h2 : c ≤ 62) :
    R (negate f k) (c + 1) (-a) := by
  subst hc; exact hf.negate h1 h2

end

/-- The words of `p` are Jacobian coordinates of `A` within the magnitudes that the routines of
btcec/btcec.go keep; the point at infinity has x and y zero.  See btcec/btcec.go:340-409. -/
def JR (p : Jac) (A : E) : Prop :=
  (A = 0 ∧ isZero p.x = true ∧ isZero p.y = true ∧ ∃ Z, R p.z 1 Z) ∨
    ∃ X Y Z, R p.x 1 X ∧ R p.y 2 Y ∧ R p.z 1 Z ∧ RepF X Y Z A

theorem JR_inf : JR infJac 0 :=
  .inl ⟨rfl, by decide, by decide, _, Nm_zero.R⟩

theorem Nm_fieldOne : Nm fieldOne 1 := Nm_one

theorem JR.of_nm {x y z : FieldVal} {X Y Z : F} {A : E} {m : ℕ} (hx : Nm x X) (hy : Nm y Y)
    (hz : R z m Z) (hm : m ≤ 1) (h : RepF X Y Z A) : JR ⟨x, y, z⟩ A :=
  .inr ⟨X, Y, Z, hx.R, hy.R.mono (by decide), hz.mono hm, h⟩

theorem JR.of_proj {g : Jac} {X Y Z : F} {A : E} (hx : Nm g.x X) (hy : Nm g.y Y) (hz : R g.z 1 Z)
    (h : RepF X Y Z A) : JR g A :=
  .inr ⟨X, Y, Z, hx.R, hy.R.mono (by decide), hz, h⟩

theorem R.not_isZero {f : FieldVal} {m : ℕ} {a : F} (h : R f m a) (ha : a ≠ 0) :
    isZero f = false := by
  rw [← Bool.not_eq_true]; exact mt h.of_isZero ha

/-- What the two doubling routines have in common. -/
theorem double_nm {x1 y1 z3 : FieldVal} {X Y : F} (hx : R x1 1 X) (hy : R y1 2 Y)
    {Z3 : F} {m : ℕ} (hz3 : R z3 m Z3) (hm : m ≤ 63) :
    let a := squareVal x1
    let b := squareVal y1
    let c := squareVal b
    let b := square (Field.add b x1)
    let d := negate (Field.add a c) 2
    let d := mulInt (Field.add d b) 2
    let e := mulInt a 3
    let f := squareVal e
    let x3 := negate (mulInt d 2) 16
    let x3 := Field.add x3 f
    let f := normalize (Field.add (negate x3 18) d)
    let y3 := negate (mulInt c 8) 8
    let y3 := Field.add y3 (mul f e)
    Nm (normalize x3) ((3 * X ^ 2) ^ 2 - 8 * X * Y ^ 2) ∧
      Nm (normalize y3)
        (3 * X ^ 2 * (4 * X * Y ^ 2 - ((3 * X ^ 2) ^ 2 - 8 * X * Y ^ 2)) - 8 * Y ^ 4) ∧
      Nm (normalize z3) Z3 := by
  intro a b c b2 d1 d e f x3a x3 f2 y3a y3
  have ra : R a 1 (X ^ 2) := hx.squareVal (by decide)
  have rb : R b 1 (Y ^ 2) := hy.squareVal (by decide)
  have rc : R c 1 (Y ^ 4) := (rb.squareVal (by decide)).congr (by ring)
  have rb2 : R b2 1 ((Y ^ 2 + X) ^ 2) := (rb.add hx (by decide)).square (by decide)
  have rd1 : R d1 3 (-(X ^ 2 + Y ^ 4)) := ng (ra.add rc (by decide)) 2 2 rfl (by decide) (by decide)
  have rd : R d 8 (4 * X * Y ^ 2) :=
    (mi (rd1.add rb2 (by decide)) 2 2 rfl (by decide) (by decide)).congr (by push_cast; ring)
  have re : R e 3 (3 * X ^ 2) :=
    (mi ra 3 3 rfl (by decide) (by decide)).congr (by push_cast; ring)
  have rf : R f 1 ((3 * X ^ 2) ^ 2) := re.squareVal (by decide)
  have rx3a : R x3a 17 (-(8 * X * Y ^ 2)) :=
    (ng (mi rd 2 2 rfl (by decide) (by decide)) 16 16 rfl (by decide) (by decide)).congr
      (by push_cast; ring)
  have rx3 : R x3 18 ((3 * X ^ 2) ^ 2 - 8 * X * Y ^ 2) :=
    (rx3a.add rf (by decide)).congr (by ring)
  have rf2 : Nm f2 (4 * X * Y ^ 2 - ((3 * X ^ 2) ^ 2 - 8 * X * Y ^ 2)) :=
    (((ng rx3 18 18 rfl (by decide) (by decide)).add rd (by decide)).normalize (by decide)).congr
      (by ring)
  have ry3a : R y3a 9 (-(8 * Y ^ 4)) :=
    (ng (mi rc 8 8 rfl (by decide) (by decide)) 8 8 rfl (by decide) (by decide)).congr
      (by push_cast; ring)
  have ry3 : R y3 10
      (3 * X ^ 2 * (4 * X * Y ^ 2 - ((3 * X ^ 2) ^ 2 - 8 * X * Y ^ 2)) - 8 * Y ^ 4) :=
    (ry3a.add (rf2.R.mul re (by decide) (by decide)) (by decide)).congr (by ring)
  exact ⟨rx3.normalize (by decide), ry3.normalize (by decide), hz3.normalize hm⟩

theorem double_body {x1 y1 z3 : FieldVal} {X Y Z : F} {A : E} (hx : R x1 1 X) (hy : R y1 2 Y)
    {Z3 : F} {m : ℕ} (hz3 : R z3 m Z3) (hm : m ≤ 63) (hZ3 : Z3 = 2 * Y * Z) (h : RepF X Y Z A) :
    let a := squareVal x1
    let b := squareVal y1
    let c := squareVal b
    let b := square (Field.add b x1)
    let d := negate (Field.add a c) 2
    let d := mulInt (Field.add d b) 2
    let e := mulInt a 3
    let f := squareVal e
    let x3 := negate (mulInt d 2) 16
    let x3 := Field.add x3 f
    let f := normalize (Field.add (negate x3 18) d)
    let y3 := negate (mulInt c 8) 8
    let y3 := Field.add y3 (mul f e)
    JR ⟨normalize x3, normalize y3, normalize z3⟩ (A + A) := by
  obtain ⟨h1, h2, h3⟩ := double_nm hx hy hz3 hm
  refine JR.of_nm h1 h2 h3.R le_rfl ?_
  rw [hZ3]
  exact h.dbl h.y_ne

theorem doubleZ1EqualsOne_spec {x1 y1 : FieldVal} {X Y : F} {A : E} (hx : R x1 1 X) (hy : R y1 2 Y)
    (h : RepF X Y 1 A) : JR (doubleZ1EqualsOne x1 y1) (A + A) :=
  double_body hx hy (mi hy 2 2 rfl (by decide) (by decide)) (by decide) (by push_cast; ring) h

theorem doubleGeneric_spec {x1 y1 z1 : FieldVal} {X Y Z : F} {A : E} (hx : R x1 1 X)
    (hy : R y1 2 Y) (hz : R z1 1 Z) (h : RepF X Y Z A) : JR (doubleGeneric x1 y1 z1) (A + A) :=
  double_body hx hy (mi (hy.mul2 hz (by decide) (by decide)) 2 2 rfl (by decide) (by decide))
    (by decide) (by push_cast; ring) h

theorem doubleJacobian_spec {p : Jac} {A : E} (h : JR p A) : JR (doubleJacobian p) (A + A) := by
  rcases h with ⟨rfl, _, hy, _⟩ | ⟨X, Y, Z, hx, hy, hz, h⟩
  · rw [doubleJacobian, hy, Bool.true_or, if_pos rfl, add_zero]
    exact JR_inf
  · rw [doubleJacobian, R.not_isZero hy h.y_ne, R.not_isZero hz h.z_ne, Bool.or_self, if_neg (by simp)]
    have nz := hz.normalize (by decide)
    dsimp only
    rw [nz.equals Nm_fieldOne]
    by_cases h1 : Z = 1
    · rw [if_pos (by simpa using h1)]
      exact doubleZ1EqualsOne_spec hx hy (h1 ▸ h)
    · rw [if_neg (by simpa using h1)]
      exact doubleGeneric_spec hx hy nz.R h

/-- The branch of the addition routines for equal x. -/
theorem same_x {p : Jac} {X1 Y1 Z1 X2 Y2 Z2 : F} {A B : E} (h1 : RepF X1 Y1 Z1 A)
    (h2 : RepF X2 Y2 Z2 B) (hp : JR p A) (hx : X1 * Z2 ^ 2 = X2 * Z1 ^ 2) (s1 s2 : F)
    (hs1 : s1 = Y1 * Z2 ^ 3) (hs2 : s2 = Y2 * Z1 ^ 3) {c : Bool} (hc : c = decide (s1 = s2)) :
    JR (if c = true then doubleJacobian p else infJac) (A + B) := by
  subst hc
  by_cases hs : s1 = s2
  · rw [if_pos (by simpa using hs)]
    have : A = B := h1.unique h2 hx (by rw [← hs1, ← hs2, hs])
    subst this
    exact doubleJacobian_spec hp
  · rw [if_neg (by simpa using hs), h1.opp h2 hx (by rw [← hs1, ← hs2]; exact hs)]
    exact JR_inf

theorem addZ1AndZ2EqualsOne_spec {x1 y1 z1 x2 y2 : FieldVal} {X1 Y1 X2 Y2 : F} {A B : E}
    (hx1 : R x1 1 X1) (hy1 : R y1 2 Y1) (hz1 : R z1 1 1) (hx2 : R x2 1 X2) (hy2 : R y2 2 Y2)
    (h1 : RepF X1 Y1 1 A) (h2 : RepF X2 Y2 1 B) :
    JR (addZ1AndZ2EqualsOne x1 y1 z1 x2 y2).1 (A + B) ∧
      Nm (addZ1AndZ2EqualsOne x1 y1 z1 x2 y2).2.1 X2 ∧
      Nm (addZ1AndZ2EqualsOne x1 y1 z1 x2 y2).2.2 Y2 := by
  have nx1 := hx1.normalize (by decide)
  have ny1 := hy1.normalize (by decide)
  have nx2 := hx2.normalize (by decide)
  have ny2 := hy2.normalize (by decide)
  unfold addZ1AndZ2EqualsOne
  extract_lets x1' y1' x2' y2' h i j r v negJ neg2V x3 negX3 j2 y3 z3
  by_cases hx : X1 = X2
  · rw [nx1.equals nx2, if_pos (by simpa using hx)]
    have hJ : JR ⟨x1', y1', z1⟩ A := .inr ⟨X1, Y1, 1, nx1.R, ny1.R.mono (by decide), hz1, h1⟩
    have := same_x h1 h2 hJ (by rw [hx]) Y1 Y2 (by ring) (by ring) (ny1.equals ny2)
    split_ifs at this ⊢ <;> exact ⟨this, nx2, ny2⟩
  · rw [nx1.equals nx2, if_neg (by simpa using hx)]
    refine ⟨?_, nx2, ny2⟩
    have rh : R h 3 (X2 - X1) :=
      ((ng nx1.R 1 1 rfl (by decide) (by decide)).add nx2.R (by decide)).congr (by ring)
    have ri : R i 4 (4 * (X2 - X1) ^ 2) :=
      (mi (rh.squareVal (by decide)) 4 4 rfl (by decide) (by decide)).congr (by push_cast; ring)
    have rj : R j 1 (4 * (X2 - X1) ^ 3) := (rh.mul2 ri (by decide) (by decide)).congr (by ring)
    have rr : R r 6 (2 * (Y2 - Y1)) :=
      (mi ((ng ny1.R 1 1 rfl (by decide) (by decide)).add ny2.R (by decide)) 2 2 rfl (by decide)
        (by decide)).congr (by push_cast; ring)
    have rv : R v 1 (4 * X1 * (X2 - X1) ^ 2) :=
      (nx1.R.mul2 ri (by decide) (by decide)).congr (by ring)
    have rnegJ : R negJ 2 (-(4 * (X2 - X1) ^ 3)) := ng rj 1 1 rfl (by decide) (by decide)
    have rneg2V : R neg2V 3 (-(8 * X1 * (X2 - X1) ^ 2)) :=
      (ng (mi rv 2 2 rfl (by decide) (by decide)) 2 2 rfl (by decide) (by decide)).congr
        (by push_cast; ring)
    have rx3 : R x3 6 (((Y2 - Y1) ^ 2 - (X2 - X1) ^ 2 * (X1 + X2)) * 2 ^ 2) :=
      (((rr.square (by decide)).add rnegJ (by decide)).add rneg2V (by decide)).congr (by ring)
    have rnegX3 : R negX3 7 (-(((Y2 - Y1) ^ 2 - (X2 - X1) ^ 2 * (X1 + X2)) * 2 ^ 2)) :=
      ng rx3 6 6 rfl (by decide) (by decide)
    have rj2 : R j2 3 (-(8 * Y1 * (X2 - X1) ^ 3)) :=
      (ng (mi (rj.mul ny1.R (by decide) (by decide)) 2 2 rfl (by decide) (by decide)) 2 2 rfl
        (by decide) (by decide)).congr (by push_cast; ring)
    have ry3 : R y3 4 (((Y2 - Y1) * (X1 * (X2 - X1) ^ 2 -
        ((Y2 - Y1) ^ 2 - (X2 - X1) ^ 2 * (X1 + X2))) - Y1 * (X2 - X1) ^ 3) * 2 ^ 3) :=
      (((rv.add rnegX3 (by decide)).mul rr (by decide) (by decide)).add rj2 (by decide)).congr
        (by ring)
    have rz3 : R z3 6 (1 * 1 * (X2 - X1) * 2) :=
      (mi rh 2 2 rfl (by decide) (by decide)).congr (by push_cast; ring)
    refine JR.of_nm (rx3.normalize (by decide)) (ry3.normalize (by decide))
      (rz3.normalize (by decide)).R le_rfl ?_
    exact (h1.add h2 (by ring) (by ring) (by ring) (by ring) hx).scale two_ne

theorem addZ1EqualsZ2_spec {x1 y1 z1 x2 y2 : FieldVal} {X1 Y1 Z X2 Y2 : F} {A B : E}
    (hx1 : R x1 1 X1) (hy1 : R y1 2 Y1) (hz1 : R z1 1 Z) (hx2 : R x2 1 X2) (hy2 : R y2 2 Y2)
    (h1 : RepF X1 Y1 Z A) (h2 : RepF X2 Y2 Z B) :
    JR (addZ1EqualsZ2 x1 y1 z1 x2 y2).1 (A + B) ∧
      Nm (addZ1EqualsZ2 x1 y1 z1 x2 y2).2.1 X2 ∧
      Nm (addZ1EqualsZ2 x1 y1 z1 x2 y2).2.2 Y2 := by
  have nx1 := hx1.normalize (by decide)
  have ny1 := hy1.normalize (by decide)
  have nx2 := hx2.normalize (by decide)
  have ny2 := hy2.normalize (by decide)
  have hZ := h1.z_ne
  unfold addZ1EqualsZ2
  extract_lets x1' y1' x2' y2' negX1 negY1 a b c d e negE f x3 negX3 y3a y3 z3
  by_cases hx : X1 = X2
  · rw [nx1.equals nx2, if_pos (by simpa using hx)]
    have hJ : JR ⟨x1', y1', z1⟩ A := .inr ⟨X1, Y1, Z, nx1.R, ny1.R.mono (by decide), hz1, h1⟩
    have := same_x h1 h2 hJ (by rw [hx]) (Y1 * Z ^ 3) (Y2 * Z ^ 3) rfl rfl
      ((ny1.equals ny2).trans (by
        rw [decide_eq_decide]
        exact ⟨fun h => by rw [h], fun h => mul_right_cancel₀ (pow_ne_zero 3 hZ) h⟩))
    split_ifs at this ⊢ <;> exact ⟨this, nx2, ny2⟩
  · rw [nx1.equals nx2, if_neg (by simpa using hx)]
    refine ⟨?_, nx2, ny2⟩
    have rnegX1 : R negX1 2 (-X1) := ng nx1.R 1 1 rfl (by decide) (by decide)
    have rnegY1 : R negY1 2 (-Y1) := ng ny1.R 1 1 rfl (by decide) (by decide)
    have ra : R a 3 (X2 - X1) := (rnegX1.add nx2.R (by decide)).congr (by ring)
    have rb : R b 1 ((X2 - X1) ^ 2) := ra.squareVal (by decide)
    have rc : R c 3 (Y2 - Y1) := (rnegY1.add ny2.R (by decide)).congr (by ring)
    have rd : R d 1 ((Y2 - Y1) ^ 2) := rc.squareVal (by decide)
    have re : R e 1 (X1 * (X2 - X1) ^ 2) := nx1.R.mul2 rb (by decide) (by decide)
    have rnegE : R negE 2 (-(X1 * (X2 - X1) ^ 2)) := ng re 1 1 rfl (by decide) (by decide)
    have rf : R f 1 (X2 * (X2 - X1) ^ 2) := nx2.R.mul2 rb (by decide) (by decide)
    have rx3 : R x3 5 ((Y2 - Y1) ^ 2 - (X2 - X1) ^ 2 * (X1 + X2)) :=
      ((ng (re.add2 rf (by decide)) 3 3 rfl (by decide) (by decide)).add rd (by decide)).congr
        (by ring)
    have rnegX3 : Nm negX3 (-((Y2 - Y1) ^ 2 - (X2 - X1) ^ 2 * (X1 + X2))) :=
      (ng rx3 5 5 rfl (by decide) (by decide)).normalize (by decide)
    have ry3a : R y3a 4 (-(Y1 * (X2 - X1) ^ 3)) :=
      (ng (ny1.R.mul (rf.add rnegE (by decide)) (by decide) (by decide)) 3 3 rfl (by decide)
        (by decide)).congr (by ring)
    have ry3 : R y3 5 ((Y2 - Y1) * (X1 * (X2 - X1) ^ 2 -
        ((Y2 - Y1) ^ 2 - (X2 - X1) ^ 2 * (X1 + X2))) - Y1 * (X2 - X1) ^ 3) :=
      (ry3a.add ((re.add rnegX3.R (by decide)).mul rc (by decide) (by decide)) (by decide)).congr
        (by ring)
    have rz3 : R z3 1 (Z * (X2 - X1)) := hz1.mul2 ra (by decide) (by decide)
    refine JR.of_nm (rx3.normalize (by decide)) (ry3.normalize (by decide)) rz3 le_rfl ?_
    -- the coordinates are those of the generic formula divided by powers of Z²
    have hs := (h1.add h2 rfl rfl rfl rfl (by
      intro e; exact hx (mul_right_cancel₀ (pow_ne_zero 2 hZ) e))).scale
      (inv_ne_zero (pow_ne_zero 3 hZ))
    refine hs.congr ?_ ?_ ?_
    · field_simp
    · field_simp
    · field_simp

theorem addZ2EqualsOne_spec {x1 y1 z1 x2 y2 : FieldVal} {X1 Y1 Z X2 Y2 : F} {A B : E}
    (hx1 : R x1 1 X1) (hy1 : R y1 2 Y1) (hz1 : R z1 1 Z) (hx2 : R x2 1 X2) (hy2 : R y2 2 Y2)
    (h1 : RepF X1 Y1 Z A) (h2 : RepF X2 Y2 1 B) :
    JR (addZ2EqualsOne x1 y1 z1 x2 y2) (A + B) := by
  have nx1 := hx1.normalize (by decide)
  have ny1 := hy1.normalize (by decide)
  have rzz : R (squareVal z1) 1 (Z ^ 2) := hz1.squareVal (by decide)
  have nu2 : Nm (normalize (mul x2 (squareVal z1))) (X2 * Z ^ 2) :=
    (hx2.mul rzz (by decide) (by decide)).normalize (by decide)
  have ns2 : Nm (normalize (mul (mul y2 (squareVal z1)) z1)) (Y2 * Z ^ 3) :=
    (((hy2.mul rzz (by decide) (by decide)).mul hz1 (by decide) (by decide)).normalize
      (by decide)).congr (by ring)
  generalize hU : X2 * Z ^ 2 = U at nu2
  generalize hS : Y2 * Z ^ 3 = S at ns2
  unfold addZ2EqualsOne
  extract_lets x1' y1' z1z1 u2 s2 negX1 h hh i j negY1 r rr v x3a x3 negX3 y3a y3 z3a z3
  by_cases hx : X1 = U
  · rw [nx1.equals nu2, if_pos (by simpa using hx)]
    have hJ : JR ⟨x1', y1', z1⟩ A := .inr ⟨X1, Y1, Z, nx1.R, ny1.R.mono (by decide), hz1, h1⟩
    exact same_x h1 h2 hJ (by rw [hx, ← hU]; ring) Y1 S (by ring) hS.symm (ny1.equals ns2)
  · rw [nx1.equals nu2, if_neg (by simpa using hx)]
    have rnegX1 : R negX1 2 (-X1) := ng nx1.R 1 1 rfl (by decide) (by decide)
    have rh : R h 3 (U - X1) := (nu2.R.add2 rnegX1 (by decide)).congr (by ring)
    have rhh : R hh 1 ((U - X1) ^ 2) := rh.squareVal (by decide)
    have ri : R i 4 (4 * (U - X1) ^ 2) :=
      (mi rhh 4 4 rfl (by decide) (by decide)).congr (by push_cast; ring)
    have rj : R j 1 (4 * (U - X1) ^ 3) := (rh.mul2 ri (by decide) (by decide)).congr (by ring)
    have rnegY1 : R negY1 2 (-Y1) := ng ny1.R 1 1 rfl (by decide) (by decide)
    have rr' : R r 6 (2 * (S - Y1)) :=
      (mi (ns2.R.add rnegY1 (by decide)) 2 2 rfl (by decide) (by decide)).congr
        (by push_cast; ring)
    have rrr : R rr 1 ((2 * (S - Y1)) ^ 2) := rr'.squareVal (by decide)
    have rv : R v 1 (4 * X1 * (U - X1) ^ 2) :=
      (nx1.R.mul2 ri (by decide) (by decide)).congr (by ring)
    have rx3a : R x3a 4 (-(8 * X1 * (U - X1) ^ 2 + 4 * (U - X1) ^ 3)) :=
      (ng ((mi rv 2 2 rfl (by decide) (by decide)).add rj (by decide)) 3 3 rfl (by decide)
        (by decide)).congr (by push_cast; ring)
    have rx3 : R x3 5 (((S - Y1) ^ 2 - (U - X1) ^ 2 * (X1 + U)) * 2 ^ 2) :=
      (rx3a.add rrr (by decide)).congr (by ring)
    have rnegX3 : R negX3 6 (-(((S - Y1) ^ 2 - (U - X1) ^ 2 * (X1 + U)) * 2 ^ 2)) :=
      ng rx3 5 5 rfl (by decide) (by decide)
    have ry3a : R y3a 3 (-(8 * Y1 * (U - X1) ^ 3)) :=
      (ng (mi (ny1.R.mul rj (by decide) (by decide)) 2 2 rfl (by decide) (by decide)) 2 2 rfl
        (by decide) (by decide)).congr (by push_cast; ring)
    have ry3 : R y3 4 (((S - Y1) * (X1 * (U - X1) ^ 2 -
        ((S - Y1) ^ 2 - (U - X1) ^ 2 * (X1 + U))) - Y1 * (U - X1) ^ 3) * 2 ^ 3) :=
      (ry3a.add ((rv.add rnegX3 (by decide)).mul rr' (by decide) (by decide)) (by decide)).congr
        (by ring)
    have rz3a : R z3a 1 ((Z + (U - X1)) ^ 2) := (hz1.add2 rh (by decide)).square (by decide)
    have rz3 : R z3 4 (Z * 1 * (U - X1) * 2) :=
      (rz3a.add (ng (rzz.add rhh (by decide)) 2 2 rfl (by decide) (by decide)) (by decide)).congr
        (by ring)
    refine JR.of_nm (rx3.normalize (by decide)) (ry3.normalize (by decide))
      (rz3.normalize (by decide)).R le_rfl ?_
    exact (h1.add h2 (by ring) hU.symm (by ring) hS.symm hx).scale two_ne

/-- The coordinates that `addGeneric` computes for different x. -/
theorem addGeneric_nm {x1 y1 z1 x2 y2 z2 : FieldVal} {U1 U2 S1 S2 : F}
    (nu1 : Nm (normalize (mul x1 (squareVal z2))) U1)
    (nu2 : Nm (normalize (mul x2 (squareVal z1))) U2)
    (ns1 : Nm (normalize (mul (mul y1 (squareVal z2)) z2)) S1)
    (ns2 : Nm (normalize (mul (mul y2 (squareVal z1)) z1)) S2) (hx : U1 ≠ U2) :
    Nm (addGeneric x1 y1 z1 x2 y2 z2).x (((S2 - S1) ^ 2 - (U2 - U1) ^ 2 * (U1 + U2)) * 2 ^ 2) ∧
      Nm (addGeneric x1 y1 z1 x2 y2 z2).y (((S2 - S1) * (U1 * (U2 - U1) ^ 2 -
        ((S2 - S1) ^ 2 - (U2 - U1) ^ 2 * (U1 + U2))) - S1 * (U2 - U1) ^ 3) * 2 ^ 3) ∧
      (addGeneric x1 y1 z1 x2 y2 z2).z = mul (Field.add (square (add2 z1 z2))
        (negate (Field.add (squareVal z1) (squareVal z2)) 2))
        (add2 (normalize (mul x2 (squareVal z1))) (negate (normalize (mul x1 (squareVal z2))) 1)) := by
  generalize hg : addGeneric x1 y1 z1 x2 y2 z2 = g
  unfold addGeneric at hg
  extract_lets z1z1 z2z2 u1 u2 s1 s2 negU1 h i j negS1 r rr v x3a x3 negX3 y3a y3 z3a z3b z3 at hg
  rw [nu1.equals nu2, if_neg (by simpa using hx)] at hg
  rw [← hg]
  have rnegU1 : R negU1 2 (-U1) := ng nu1.R 1 1 rfl (by decide) (by decide)
  have rh : R h 3 (U2 - U1) := (nu2.R.add2 rnegU1 (by decide)).congr (by ring)
  have ri : R i 1 (4 * (U2 - U1) ^ 2) :=
    ((mi rh 2 2 rfl (by decide) (by decide)).square (by decide)).congr (by push_cast; ring)
  have rj : R j 1 (4 * (U2 - U1) ^ 3) := (rh.mul2 ri (by decide) (by decide)).congr (by ring)
  have rnegS1 : R negS1 2 (-S1) := ng ns1.R 1 1 rfl (by decide) (by decide)
  have rr' : R r 6 (2 * (S2 - S1)) :=
    (mi (ns2.R.add rnegS1 (by decide)) 2 2 rfl (by decide) (by decide)).congr
      (by push_cast; ring)
  have rrr : R rr 1 ((2 * (S2 - S1)) ^ 2) := rr'.squareVal (by decide)
  have rv : R v 1 (4 * U1 * (U2 - U1) ^ 2) :=
    (nu1.R.mul2 ri (by decide) (by decide)).congr (by ring)
  have rx3a : R x3a 4 (-(8 * U1 * (U2 - U1) ^ 2 + 4 * (U2 - U1) ^ 3)) :=
    (ng ((mi rv 2 2 rfl (by decide) (by decide)).add rj (by decide)) 3 3 rfl (by decide)
      (by decide)).congr (by push_cast; ring)
  have rx3 : R x3 5 (((S2 - S1) ^ 2 - (U2 - U1) ^ 2 * (U1 + U2)) * 2 ^ 2) :=
    (rx3a.add rrr (by decide)).congr (by ring)
  have rnegX3 : R negX3 6 (-(((S2 - S1) ^ 2 - (U2 - U1) ^ 2 * (U1 + U2)) * 2 ^ 2)) :=
    ng rx3 5 5 rfl (by decide) (by decide)
  have ry3a : R y3a 3 (-(8 * S1 * (U2 - U1) ^ 3)) :=
    (ng (mi (ns1.R.mul2 rj (by decide) (by decide)) 2 2 rfl (by decide) (by decide)) 2 2 rfl
      (by decide) (by decide)).congr (by push_cast; ring)
  have ry3 : R y3 4 (((S2 - S1) * (U1 * (U2 - U1) ^ 2 -
      ((S2 - S1) ^ 2 - (U2 - U1) ^ 2 * (U1 + U2))) - S1 * (U2 - U1) ^ 3) * 2 ^ 3) :=
    (ry3a.add ((rv.add rnegX3 (by decide)).mul rr' (by decide) (by decide)) (by decide)).congr
      (by ring)
  refine ⟨rx3.normalize (by decide), ry3.normalize (by decide), ?_⟩
  show z3 = _
  simp only [z3, z3b, z3a, h, negU1, u1, u2, z1z1, z2z2]

theorem addGeneric_spec {x1 y1 z1 x2 y2 z2 : FieldVal} {X1 Y1 Z1 X2 Y2 Z2 : F} {A B : E}
    (hx1 : R x1 1 X1) (hy1 : R y1 2 Y1) (hz1 : R z1 1 Z1) (hx2 : R x2 1 X2) (hy2 : R y2 2 Y2)
    (hz2 : R z2 1 Z2) (h1 : RepF X1 Y1 Z1 A) (h2 : RepF X2 Y2 Z2 B) :
    JR (addGeneric x1 y1 z1 x2 y2 z2) (A + B) := by
  have rzz1 : R (squareVal z1) 1 (Z1 ^ 2) := hz1.squareVal (by decide)
  have rzz2 : R (squareVal z2) 1 (Z2 ^ 2) := hz2.squareVal (by decide)
  have nu1 : Nm (normalize (mul x1 (squareVal z2))) (X1 * Z2 ^ 2) :=
    (hx1.mul rzz2 (by decide) (by decide)).normalize (by decide)
  have nu2 : Nm (normalize (mul x2 (squareVal z1))) (X2 * Z1 ^ 2) :=
    (hx2.mul rzz1 (by decide) (by decide)).normalize (by decide)
  have ns1 : Nm (normalize (mul (mul y1 (squareVal z2)) z2)) (Y1 * Z2 ^ 3) :=
    (((hy1.mul rzz2 (by decide) (by decide)).mul hz2 (by decide) (by decide)).normalize
      (by decide)).congr (by ring)
  have ns2 : Nm (normalize (mul (mul y2 (squareVal z1)) z1)) (Y2 * Z1 ^ 3) :=
    (((hy2.mul rzz1 (by decide) (by decide)).mul hz1 (by decide) (by decide)).normalize
      (by decide)).congr (by ring)
  generalize hU1 : X1 * Z2 ^ 2 = U1 at nu1
  generalize hU2 : X2 * Z1 ^ 2 = U2 at nu2
  generalize hS1 : Y1 * Z2 ^ 3 = S1 at ns1
  generalize hS2 : Y2 * Z1 ^ 3 = S2 at ns2
  by_cases hx : U1 = U2
  · unfold addGeneric
    extract_lets z1z1 z2z2 u1 u2 s1 s2 negU1 h i j negS1 r rr v x3a x3 negX3 y3a y3 z3a z3b z3
    rw [nu1.equals nu2, if_pos (by simpa using hx)]
    have hJ : JR ⟨x1, y1, z1⟩ A := .inr ⟨X1, Y1, Z1, hx1, hy1, hz1, h1⟩
    exact same_x h1 h2 hJ (by rw [hU1, hU2, hx]) S1 S2 hS1.symm hS2.symm (ns1.equals ns2)
  · obtain ⟨rx3, ry3, ez3⟩ := addGeneric_nm nu1 nu2 ns1 ns2 hx
    have rh : R (add2 (normalize (mul x2 (squareVal z1))) (negate (normalize (mul x1 (squareVal z2))) 1))
        3 (U2 - U1) :=
      (nu2.R.add2 (ng nu1.R 1 1 rfl (by decide) (by decide)) (by decide)).congr (by ring)
    have rz3b : R (Field.add (square (add2 z1 z2))
        (negate (Field.add (squareVal z1) (squareVal z2)) 2)) 4 (2 * Z1 * Z2) :=
      (((hz1.add2 hz2 (by decide)).square (by decide)).add
        (ng (rzz1.add rzz2 (by decide)) 2 2 rfl (by decide) (by decide)) (by decide)).congr
        (by ring)
    have rz3 : R (addGeneric x1 y1 z1 x2 y2 z2).z 1 (Z1 * Z2 * (U2 - U1) * 2) := by
      rw [ez3]
      exact (rz3b.mul rh (by decide) (by decide)).congr (by ring)
    refine JR.of_proj rx3 ry3 rz3 ?_
    exact (h1.add h2 hU1.symm hU2.symm hS1.symm hS2.symm hx).scale two_ne

/-- `addJacobian` adds, and leaves its second operand a representation of the same point. -/
theorem addJacobian_spec {p q : Jac} {A B : E} (hp : JR p A) (hq : JR q B) :
    JR (addJacobian p q).1 (A + B) ∧ JR (addJacobian p q).2 B := by
  rcases hp with ⟨rfl, hx, hy, _⟩ | ⟨X1, Y1, Z1, hx1, hy1, hz1, h1⟩
  · rw [addJacobian, hx, hy, Bool.and_self, Bool.true_or, if_pos rfl, zero_add]
    exact ⟨hq, hq⟩
  have hp : JR p A := .inr ⟨X1, Y1, Z1, hx1, hy1, hz1, h1⟩
  rcases hq with ⟨rfl, hx, hy, hz⟩ | ⟨X2, Y2, Z2, hx2, hy2, hz2, h2⟩
  · rw [addJacobian, R.not_isZero hy1 h1.y_ne, R.not_isZero hz1 h1.z_ne, hx, hy, Bool.and_false,
      Bool.or_self, if_neg (by simp), Bool.and_self, Bool.true_or, if_pos rfl, add_zero]
    exact ⟨hp, .inl ⟨rfl, hx, hy, hz⟩⟩
  · rw [addJacobian, R.not_isZero hy1 h1.y_ne, R.not_isZero hz1 h1.z_ne, Bool.and_false,
      Bool.or_self, if_neg (by simp), R.not_isZero hy2 h2.y_ne, R.not_isZero hz2 h2.z_ne,
      Bool.and_false, Bool.or_self, if_neg (by simp)]
    have nz1 := hz1.normalize (by decide)
    have nz2 := hz2.normalize (by decide)
    dsimp only
    rw [nz1.equals Nm_fieldOne, nz2.equals Nm_fieldOne, nz1.equals nz2]
    by_cases c1 : Z1 = 1 ∧ Z2 = 1
    · rw [if_pos (by simpa using c1)]
      obtain ⟨rfl, rfl⟩ := c1
      obtain ⟨s1, s2, s3⟩ := addZ1AndZ2EqualsOne_spec hx1 hy1 nz1.R hx2 hy2 h1 h2
      exact ⟨s1, .inr ⟨X2, Y2, 1, s2.R, s3.R.mono (by decide), nz2.R, h2⟩⟩
    rw [if_neg (by simpa using c1)]
    by_cases c2 : Z1 = Z2
    · rw [if_pos (by simpa using c2)]
      subst c2
      obtain ⟨s1, s2, s3⟩ := addZ1EqualsZ2_spec hx1 hy1 nz1.R hx2 hy2 h1 h2
      exact ⟨s1, .inr ⟨X2, Y2, Z1, s2.R, s3.R.mono (by decide), nz2.R, h2⟩⟩
    rw [if_neg (by simpa using c2)]
    by_cases c3 : Z2 = 1
    · rw [if_pos (by simpa using c3)]
      subst c3
      exact ⟨addZ2EqualsOne_spec hx1 hy1 nz1.R hx2 hy2 h1 h2,
        .inr ⟨X2, Y2, 1, hx2, hy2, nz2.R, h2⟩⟩
    rw [if_neg (by simpa using c3)]
    exact ⟨addGeneric_spec hx1 hy1 nz1.R hx2 hy2 nz2.R h1 h2,
      .inr ⟨X2, Y2, Z2, hx2, hy2, nz2.R, h2⟩⟩

end Zk.Curve
