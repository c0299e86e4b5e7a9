import Verif.Gen.TableLemmas
import Verif.Gen.Check

/-!
# What the checks of Verif/Gen/Check.lean establish
-/

namespace Zk.Gen

open Zk Zk.Field Zk.Curve

/-! ### Products -/

set_option exponentiation.threshold 600 in
theorem red_val {r : FieldVal} {n : ℕ} (h : Red r n) : val r = redN n := by
  obtain ⟨W, M, h1, h2, h3, _⟩ := h.ex
  rw [h3, redN, foldN, ← h2, Nat.add_mul_mod_self_right, Nat.mod_eq_of_lt h1,
    Nat.add_mul_div_right _ _ (by positivity), Nat.div_eq_of_lt h1, zero_add]

set_option exponentiation.threshold 600 in
theorem red_high {r : FieldVal} {n : ℕ} (h : Red r n) :
    r.n3.toNat + r.n4.toNat * 2 ^ 26 + r.n5.toNat * 2 ^ 52 + r.n6.toNat * 2 ^ 78 +
      r.n7.toNat * 2 ^ 104 + r.n8.toNat * 2 ^ 130 + r.n9.toNat * 2 ^ 156 =
      foldN n % 2 ^ 256 / 2 ^ 78 := by
  obtain ⟨W, M, h1, h2, _, h4⟩ := h.ex
  rw [h4, foldN, ← h2, Nat.add_mul_mod_self_right, Nat.mod_eq_of_lt h1]

theorem dig {a b x y : ℕ} (ha : a < 2 ^ 26) (hb : b < 2 ^ 26) (h : a + 2 ^ 26 * x = b + 2 ^ 26 * y) :
    a = b ∧ x = y := by omega

/-- The words of a product are determined by the number that is reduced. -/
theorem red_unique {r s : FieldVal} {n : ℕ} (h : Red r n) (hs0 : s.n0.toNat < 2 ^ 26)
    (hs1 : s.n1.toNat < 2 ^ 26) (hs3 : s.n3.toNat < 2 ^ 26) (hs4 : s.n4.toNat < 2 ^ 26)
    (hs5 : s.n5.toNat < 2 ^ 26) (hs6 : s.n6.toNat < 2 ^ 26) (hs7 : s.n7.toNat < 2 ^ 26)
    (hs8 : s.n8.toNat < 2 ^ 26) (hv : val s = redN n)
    (hh : s.n3.toNat + s.n4.toNat * 2 ^ 26 + s.n5.toNat * 2 ^ 52 + s.n6.toNat * 2 ^ 78 +
      s.n7.toNat * 2 ^ 104 + s.n8.toNat * 2 ^ 130 + s.n9.toNat * 2 ^ 156 =
      foldN n % 2 ^ 256 / 2 ^ 78) : r = s := by
  have e1 := (red_val h).trans hv.symm
  have e2 := (red_high h).trans hh.symm
  obtain ⟨h0, h1, h3, h4, h5, h6, h7, h8, h9, ex⟩ := h
  clear hv hh ex
  have e3 : r.n3.toNat + 2 ^ 26 * (r.n4.toNat + 2 ^ 26 * (r.n5.toNat + 2 ^ 26 * (r.n6.toNat + 2 ^ 26 * (r.n7.toNat + 2 ^ 26 * (r.n8.toNat + 2 ^ 26 * (r.n9.toNat)))))) =
      s.n3.toNat + 2 ^ 26 * (s.n4.toNat + 2 ^ 26 * (s.n5.toNat + 2 ^ 26 * (s.n6.toNat + 2 ^ 26 * (s.n7.toNat + 2 ^ 26 * (s.n8.toNat + 2 ^ 26 * (s.n9.toNat)))))) := by
    clear * - e2
    omega
  have e4 : r.n0.toNat + 2 ^ 26 * (r.n1.toNat + 2 ^ 26 * (r.n2.toNat)) =
      s.n0.toNat + 2 ^ 26 * (s.n1.toNat + 2 ^ 26 * (s.n2.toNat)) := by
    simp only [val] at e1
    clear * - e1 e2
    omega
  clear e1 e2
  obtain ⟨i3, e3⟩ := dig h3 hs3 e3
  obtain ⟨i4, e3⟩ := dig h4 hs4 e3
  obtain ⟨i5, e3⟩ := dig h5 hs5 e3
  obtain ⟨i6, e3⟩ := dig h6 hs6 e3
  obtain ⟨i7, e3⟩ := dig h7 hs7 e3
  obtain ⟨i8, i9⟩ := dig h8 hs8 e3
  obtain ⟨i0, e4⟩ := dig h0 hs0 e4
  obtain ⟨i1, i2⟩ := dig h1 hs1 e4
  ext1 <;> rw [← UInt32.toNat_inj] <;> assumption

theorem red_same {r s : FieldVal} {n : ℕ} (h : Red r n) (h' : Red s n) : r = s :=
  red_unique h h'.h0 h'.h1 h'.h3 h'.h4 h'.h5 h'.h6 h'.h7 h'.h8 (red_val h') (red_high h')

/-! ### Entries -/

/-- The point whose words are those of an entry (specification; btcec/precompute.go:48-62). -/
def ent (e : ℕ) : Jac := ⟨tabField e 0, tabField e 1, tabField e 2⟩

theorem word_lt {e k m n : ℕ} (h : Nat.ble (wordN e k) m = true) (hmn : m + 1 = n) :
    (tabWord e k).toNat < n := by
  rw [tabWord_toNat, ← hmn]
  exact Nat.lt_succ_of_le (Nat.le_of_ble_eq_true h)

theorem canonOk_spec {e c : ℕ} (h : canonOk e c = true) : Canon (tabField e c) := by
  simp only [canonOk, Bool.and_eq_true] at h
  obtain ⟨⟨⟨⟨⟨⟨⟨⟨⟨h0, h1⟩, h2⟩, h3⟩, h4⟩, h5⟩, h6⟩, h7⟩, h8⟩, h9⟩ := h
  exact ⟨word_lt h0 rfl, word_lt h1 rfl, word_lt h2 rfl, word_lt h3 rfl, word_lt h4 rfl,
    word_lt h5 rfl, word_lt h6 rfl, word_lt h7 rfl, word_lt h8 rfl, word_lt h9 rfl⟩

theorem nm_of {e c : ℕ} (h : canonOk e c = true) (hl : coordN e c < P) :
    Nm (tabField e c) (coordN e c : F) :=
  ⟨canonOk_spec h, by rw [val_tabField]; exact hl, by rw [fz, val_tabField]⟩

theorem carryOk_mag {e : ℕ} (h : carryOk e = true) : R (tabField e 2) 1 (coordN e 2 : F) := by
  simp only [carryOk, Bool.and_eq_true] at h
  obtain ⟨⟨⟨⟨⟨⟨⟨⟨⟨h0, h1⟩, h2⟩, h3⟩, h4⟩, h5⟩, h6⟩, h7⟩, h8⟩, h9⟩ := h
  have w : ∀ {k}, Nat.ble (wordN e k) 67108863 = true → (tabWord e k).toNat ≤ 1 * (2 ^ 26 + 2 ^ 20) :=
    fun h => mag_le ((Nat.le_of_ble_eq_true h).trans (by decide))
  exact ⟨⟨w h0, w h1, mag_le (Nat.le_of_ble_eq_true h2), w h3, w h4, w h5, w h6, w h7, w h8,
    (tabWord_toNat _ _).trans_le ((Nat.le_of_ble_eq_true h9).trans (by decide))⟩,
    by rw [fz, val_tabField]⟩

theorem blt_lt {a b : ℕ} (h : Nat.blt a b = true) : a < b := Nat.le_of_ble_eq_true h

/-- An entry with x and y normalised and z within magnitude 1.  See btcec/gensecp256k1.go:80-116. -/
structure EntNm (e : ℕ) : Prop where
  x : Nm (tabField e 0) (coordN e 0 : F)
  y : Nm (tabField e 1) (coordN e 1 : F)
  z : R (tabField e 2) 1 (coordN e 2 : F)

theorem entOk_spec {e : ℕ} (h : entOk e = true) : EntNm e := by
  simp only [entOk, Bool.and_eq_true] at h
  obtain ⟨h0, h1, h2, h3, h4⟩ := h
  exact ⟨nm_of h0 (blt_lt h3), nm_of h1 (blt_lt h4), carryOk_mag h2⟩

theorem normOk_spec {e : ℕ} (h : normOk e = true) :
    EntNm e ∧ Nm (tabField e 2) (coordN e 2 : F) ∧ coordN e 2 < P := by
  simp only [normOk, Bool.and_eq_true] at h
  exact ⟨entOk_spec h.1, nm_of h.2.1 (blt_lt h.2.2), blt_lt h.2.2⟩

/-! ### Sums -/

theorem zIs_spec {r : FieldVal} {n e : ℕ} (hr : Red r n) (h : zIs n e = true)
    (hc : carryOk e = true) : r = tabField e 2 := by
  simp only [zIs, Bool.and_eq_true] at h
  simp only [carryOk, Bool.and_eq_true] at hc
  obtain ⟨⟨⟨⟨⟨⟨⟨⟨⟨h0, h1⟩, _⟩, h3⟩, h4⟩, h5⟩, h6⟩, h7⟩, h8⟩, _⟩ := hc
  refine red_unique hr (word_lt h0 rfl) (word_lt h1 rfl) (word_lt h3 rfl) (word_lt h4 rfl)
    (word_lt h5 rfl) (word_lt h6 rfl) (word_lt h7 rfl) (word_lt h8 rfl)
    ((val_tabField e 2).trans (Nat.eq_of_beq_eq_true h.1)) ?_
  rw [← Nat.eq_of_beq_eq_true h.2, highZ]
  simp only [tabField, tabWord_toNat]

/-- The words of z of a sum. -/
theorem z_red {z1 z2 u1 u2 : FieldVal} {Z1 Z2 U1 U2 : F} (h1 : Nm z1 Z1) (h2 : Nm z2 Z2)
    (hu1 : Nm u1 U1) (hu2 : Nm u2 U2) :
    Red (mul (Field.add (square (add2 z1 z2)) (negate (Field.add (squareVal z1) (squareVal z2)) 2))
      (add2 u2 (negate u1 1))) (zProd (val z1) (val z2) (val u1) (val u2)) := by
  have m1 := h1.canon.mag
  have m2 := h2.canon.mag
  obtain ⟨s1, t1⟩ := square_red (m1.mono (by decide))
  obtain ⟨s2, t2⟩ := square_red (m2.mono (by decide))
  obtain ⟨a1, a2⟩ := add2_spec m1 m2 (by decide)
  obtain ⟨s3, t3⟩ := square_red (a2.mono (by decide))
  obtain ⟨b1, b2⟩ := add2_spec s1 s2 (by decide)
  obtain ⟨n1, n2⟩ := negateVal_spec (k := 2) b2 (by decide) (by decide)
  obtain ⟨c1, c2⟩ := add2_spec s3 n2 (by decide)
  obtain ⟨n3, n4⟩ := negateVal_spec (k := 1) hu1.canon.mag (by decide) (by decide)
  obtain ⟨d1, d2⟩ := add2_spec hu2.canon.mag n4 (by decide)
  have := (mul_red (c2.mono (by decide)) (d2.mono (by decide))).2
  rw [c1, d1, red_val t3, a1] at this
  rw [b1, red_val t1, red_val t2] at n1
  have e1 : val (negateVal (add2 (squareVal z1) (squareVal z2)) 2) =
      3 * P - (redN (val z1 * val z1) + redN (val z2 * val z2)) := Nat.eq_sub_of_add_eq n1
  have e2 : val (negateVal u1 1) = 2 * P - val u1 := Nat.eq_sub_of_add_eq n3
  rw [e1, e2] at this
  exact this

theorem nadd_xy (x1 y1 z1 x2 y2 z2 : ℕ) (U1 U2 S1 S2 : F) (hU1 : U1 = x1 * (z2 : F) ^ 2)
    (hU2 : U2 = x2 * (z1 : F) ^ 2) (hS1 : S1 = y1 * (z2 : F) ^ 3) (hS2 : S2 = y2 * (z1 : F) ^ 3) :
    (((nadd (x1, y1, z1) (x2, y2, z2)).1 * 4 % P : ℕ) : F) =
        ((S2 - S1) ^ 2 - (U2 - U1) ^ 2 * (U1 + U2)) * 2 ^ 2 ∧
      (((nadd (x1, y1, z1) (x2, y2, z2)).2.1 * 8 % P : ℕ) : F) =
        ((S2 - S1) * (U1 * (U2 - U1) ^ 2 - ((S2 - S1) ^ 2 - (U2 - U1) ^ 2 * (U1 + U2))) -
          S1 * (U2 - U1) ^ 3) * 2 ^ 3 := by
  subst hU1 hU2 hS1 hS2
  constructor <;>
    simp only [nadd, ZMod.natCast_mod, Nat.cast_add, Nat.cast_mul, cast_sub (mod_le _),
      Nat.cast_ofNat] <;> ring

theorem cast_ne {a b : ℕ} (ha : a < P) (hb : b < P) (h : a ≠ b) : (a : F) ≠ (b : F) := by
  intro e
  have := congrArg ZMod.val e
  rw [ZMod.val_natCast_of_lt ha, ZMod.val_natCast_of_lt hb] at this
  exact h this

theorem cast_ne_mod {a b : ℕ} (h : a % P ≠ b % P) : (a : F) ≠ (b : F) := by
  intro e
  have := congrArg ZMod.val e
  rw [ZMod.val_natCast, ZMod.val_natCast] at this
  exact h this

/-- The general case of the addition. -/
theorem addJacobian_generic {x1 y1 z1 x2 y2 z2 : FieldVal} {X1 Y1 Z1 X2 Y2 Z2 : F} (nx1 : Nm x1 X1)
    (ny1 : Nm y1 Y1) (rz1 : R z1 1 Z1) (nx2 : Nm x2 X2) (ny2 : Nm y2 Y2) (nz2 : Nm z2 Z2)
    (k1 : Y1 ≠ 0) (k2 : Z1 ≠ 0) (k3 : Y2 ≠ 0) (k4 : Z2 ≠ 0) (k5 : Z2 ≠ 1) (k6 : Z1 ≠ Z2)
    (U1 U2 S1 S2 : F) (hU1 : U1 = X1 * Z2 ^ 2) (hU2 : U2 = X2 * Z1 ^ 2) (hS1 : S1 = Y1 * Z2 ^ 3)
    (hS2 : S2 = Y2 * Z1 ^ 3) (k7 : U1 ≠ U2) :
    ∃ g : Jac, addJacobian ⟨x1, y1, z1⟩ ⟨x2, y2, z2⟩ = (g, ⟨x2, y2, z2⟩) ∧
      Nm g.x (((S2 - S1) ^ 2 - (U2 - U1) ^ 2 * (U1 + U2)) * 2 ^ 2) ∧
      Nm g.y (((S2 - S1) * (U1 * (U2 - U1) ^ 2 - ((S2 - S1) ^ 2 - (U2 - U1) ^ 2 * (U1 + U2))) -
        S1 * (U2 - U1) ^ 3) * 2 ^ 3) ∧
      Red g.z (zProd Z1.val Z2.val U1.val U2.val) := by
  have nz1 := rz1.normalize (by decide)
  have ez2 : normalize z2 = z2 := (nz2.R.normalize (by decide)).unique nz2
  have nu1 : Nm (normalize (mul x1 (squareVal z2))) U1 :=
    ((nx1.R.mul (nz2.R.squareVal (by decide)) (by decide) (by decide)).normalize (by decide)).congr
      hU1.symm
  have nu2 : Nm (normalize (mul x2 (squareVal (normalize z1)))) U2 :=
    ((nx2.R.mul (nz1.R.squareVal (by decide)) (by decide) (by decide)).normalize (by decide)).congr
      hU2.symm
  have ns1 : Nm (normalize (mul (mul y1 (squareVal z2)) z2)) S1 :=
    (((ny1.R.mul (nz2.R.squareVal (by decide)) (by decide) (by decide)).mul nz2.R (by decide)
      (by decide)).normalize (by decide)).congr (by rw [hS1]; ring)
  have ns2 : Nm (normalize (mul (mul y2 (squareVal (normalize z1))) (normalize z1))) S2 :=
    (((ny2.R.mul (nz1.R.squareVal (by decide)) (by decide) (by decide)).mul nz1.R (by decide)
      (by decide)).normalize (by decide)).congr (by rw [hS2]; ring)
  obtain ⟨gx, gy, gz⟩ := addGeneric_nm nu1 nu2 ns1 ns2 k7
  have gr := z_red nz1 nz2 nu1 nu2
  rw [← gz, nz1.fval, nz2.fval, nu1.fval, nu2.fval] at gr
  refine ⟨addGeneric x1 y1 (normalize z1) x2 y2 z2, ?_, gx, gy, gr⟩
  rw [addJacobian]
  simp only
  rw [R.not_isZero ny1.R k1, R.not_isZero rz1 k2, Bool.and_false, Bool.or_self,
    if_neg (by simp), R.not_isZero ny2.R k3, R.not_isZero nz2.R k4, Bool.and_false, Bool.or_self,
    if_neg (by simp), ez2, nz2.equals Nm_fieldOne, nz1.equals nz2, decide_eq_false k5,
    decide_eq_false k6, Bool.and_false, if_neg (by simp), if_neg (by simp), if_neg (by simp)]

/-- A sum whose words are in the table. -/
theorem genIs_spec {e1 e2 e3 : ℕ} (h1 : EntNm e1) (h2 : normOk e2 = true)
    (h : genIs e1 (ptN e2) e3 = true) :
    addJacobian (ent e1) (ent e2) = (ent e3, ent e2) ∧ EntNm e3 := by
  obtain ⟨⟨nx2, ny2, _⟩, nz2, lz2⟩ := normOk_spec h2
  obtain ⟨nx1, ny1, rz1⟩ := h1
  simp only [genIs, ptN, Bool.and_eq_true] at h
  obtain ⟨hc, hxy, hz, hk⟩ := h
  have n3 := entOk_spec hk
  simp only [entOk, Bool.and_eq_true] at hk
  refine ⟨?_, n3⟩
  have hP1 : 1 < P := by decide
  have hP0 : 0 < P := by decide
  simp only [xyIs, Bool.and_eq_true] at hxy
  simp only [genCond, Bool.and_eq_true] at hc
  unfold ent
  have x3 := n3.x
  have y3 := n3.y
  generalize tabField e1 0 = f1 at *
  generalize tabField e1 1 = f2 at *
  generalize tabField e1 2 = f3 at *
  generalize tabField e2 0 = g1 at *
  generalize tabField e2 1 = g2 at *
  generalize tabField e2 2 = g3 at *
  generalize coordN e1 0 = x1 at *
  generalize coordN e1 1 = y1 at *
  generalize coordN e1 2 = z1 at *
  generalize coordN e2 0 = x2 at *
  generalize coordN e2 1 = y2 at *
  generalize coordN e2 2 = z2 at *
  have cz1 : ((z1 % P : ℕ) : F) = (z1 : F) := ZMod.natCast_mod _ _
  have lz1 : z1 % P < P := Nat.mod_lt _ hP0
  obtain ⟨c1, c2, c3, c4, c5, c6, c7⟩ := hc
  have k1 : (y1 : F) ≠ 0 := by
    have := cast_ne_mod (b := 0) (beq_false c1)
    rwa [Nat.cast_zero] at this
  have k2 : (z1 : F) ≠ 0 := by
    rw [← cz1]
    have := cast_ne lz1 hP0 (beq_false c2)
    rwa [Nat.cast_zero] at this
  have k3 : (y2 : F) ≠ 0 := by
    have := cast_ne_mod (b := 0) (beq_false c3)
    rwa [Nat.cast_zero] at this
  have k4 : (z2 : F) ≠ 0 := by
    have := cast_ne lz2 hP0 (beq_false c4)
    rwa [Nat.cast_zero] at this
  have k5 : (z2 : F) ≠ 1 := by
    have := cast_ne lz2 hP1 (beq_false c5)
    rwa [Nat.cast_one] at this
  have k6 : (z1 : F) ≠ (z2 : F) := by
    rw [← cz1]
    exact cast_ne lz1 lz2 (beq_false c6)
  have vu1 : ((x1 : F) * (z2 : F) ^ 2).val = x1 * (z2 * z2) % P := by
    rw [← pow_two, ← ZMod.val_natCast, Nat.cast_mul, Nat.cast_pow]
  have vu2 : ((x2 : F) * (z1 : F) ^ 2).val = x2 * (z1 % P * (z1 % P)) % P := by
    rw [← pow_two, ← ZMod.val_natCast, Nat.cast_mul, Nat.cast_pow, cz1]
  have k7 : (x1 : F) * (z2 : F) ^ 2 ≠ (x2 : F) * (z1 : F) ^ 2 := by
    intro e
    have := beq_false c7
    rw [← vu1, ← vu2, e] at this
    exact this rfl
  obtain ⟨g, hg, gx, gy, gr⟩ := addJacobian_generic nx1 ny1 rz1 nx2 ny2 nz2 k1 k2 k3 k4 k5 k6
    _ _ _ _ rfl rfl rfl rfl k7
  rw [hg]
  rw [vu1, vu2, ZMod.val_natCast, ZMod.val_natCast_of_lt lz2] at gr
  have ex3 := zIs_spec gr hz hk.2.2.1
  obtain ⟨hX, hY⟩ := nadd_xy x1 y1 (z1 % P) x2 y2 z2 _ _ _ _ rfl rfl rfl rfl
  rw [← Nat.eq_of_beq_eq_true hxy.1, cz1] at hX
  rw [← Nat.eq_of_beq_eq_true hxy.2, cz1] at hY
  exact Prod.ext (Jac.ext (gx.unique (x3.congr hX)) (gy.unique (y3.congr hY)) ex3) rfl

/-! ### Doubling -/

theorem doubleJacobian_generic {x y z : FieldVal} {X Y Z : F} (nx : Nm x X) (ny : Nm y Y)
    (rz : R z 1 Z) (k1 : Y ≠ 0) (k2 : Z ≠ 0) :
    Nm (doubleJacobian ⟨x, y, z⟩).x ((3 * X ^ 2) ^ 2 - 8 * X * Y ^ 2) ∧
      Nm (doubleJacobian ⟨x, y, z⟩).y
        (3 * X ^ 2 * (4 * X * Y ^ 2 - ((3 * X ^ 2) ^ 2 - 8 * X * Y ^ 2)) - 8 * Y ^ 4) ∧
      Nm (doubleJacobian ⟨x, y, z⟩).z (2 * Y * Z) := by
  have nz := rz.normalize (by decide)
  have ry : R y 2 Y := ny.R.mono (by decide)
  generalize hg : doubleJacobian ⟨x, y, z⟩ = g
  rw [doubleJacobian] at hg
  simp only at hg
  rw [R.not_isZero ny.R k1, R.not_isZero rz k2, Bool.or_self, if_neg (by simp),
    nz.equals Nm_fieldOne] at hg
  by_cases h : Z = 1
  · rw [if_pos (by simpa using h)] at hg
    obtain ⟨h1, h2, h3⟩ := double_nm nx.R ry (mi ry 2 2 rfl (by decide) (by decide)) (by decide)
    rw [← hg]
    exact ⟨h1, h2, h3.congr (by rw [h, mul_one]; push_cast; ring)⟩
  · rw [if_neg (by simpa using h)] at hg
    obtain ⟨h1, h2, h3⟩ := double_nm nx.R ry
      (mi (ry.mul2 nz.R (by decide) (by decide)) 2 2 rfl (by decide) (by decide)) (by decide)
    rw [← hg]
    exact ⟨h1, h2, h3.congr (by push_cast; ring)⟩

theorem ndbl_xyz (x y z : ℕ) :
    ((ndbl (x, y, z)).1 : F) = (3 * (x : F) ^ 2) ^ 2 - 8 * x * (y : F) ^ 2 ∧
      ((ndbl (x, y, z)).2.1 : F) = 3 * (x : F) ^ 2 * (4 * x * (y : F) ^ 2 -
        ((3 * (x : F) ^ 2) ^ 2 - 8 * x * (y : F) ^ 2)) - 8 * (y : F) ^ 4 ∧
      ((ndbl (x, y, z)).2.2 : F) = 2 * y * z := by
  refine ⟨?_, ?_, ?_⟩ <;>
    simp only [ndbl, ZMod.natCast_mod, Nat.cast_add, Nat.cast_mul, cast_sub (mod_le _),
      Nat.cast_ofNat] <;> ring

/-- A double whose words are in the table. -/
theorem dblIs_spec {e1 e2 : ℕ} (h1 : EntNm e1) (h2 : normOk e2 = true) (h : dblIs e1 e2 = true) :
    doubleJacobian (ent e1) = ent e2 := by
  obtain ⟨⟨nx2, ny2, _⟩, nz2, _⟩ := normOk_spec h2
  obtain ⟨nx1, ny1, rz1⟩ := h1
  simp only [dblIs, Bool.and_eq_true, ptN] at h
  obtain ⟨c1, c2, c3, c4, c5⟩ := h
  unfold ent
  generalize tabField e1 0 = f1 at *
  generalize tabField e1 1 = f2 at *
  generalize tabField e1 2 = f3 at *
  generalize coordN e1 0 = x1 at *
  generalize coordN e1 1 = y1 at *
  generalize coordN e1 2 = z1 at *
  have k1 : (y1 : F) ≠ 0 := by
    have := cast_ne_mod (b := 0) (beq_false c1)
    rwa [Nat.cast_zero] at this
  have k2 : (z1 : F) ≠ 0 := by
    have := cast_ne_mod (b := 0) (beq_false c2)
    rwa [Nat.cast_zero] at this
  obtain ⟨d1, d2, d3⟩ := ndbl_xyz x1 y1 z1
  rw [← Nat.eq_of_beq_eq_true c3] at d1
  rw [← Nat.eq_of_beq_eq_true c4] at d2
  rw [← Nat.eq_of_beq_eq_true c5] at d3
  obtain ⟨g1, g2, g3⟩ := doubleJacobian_generic nx1 ny1 rz1 k1 k2
  exact Jac.ext (g1.unique (nx2.congr d1)) (g2.unique (ny2.congr d2)) (g3.unique (nz2.congr d3))

/-! ### Rows -/

theorem genLoop_spec {row d : ℕ} {q : ℕ × ℕ × ℕ} : ∀ n i, genLoop row q d n i = true →
    ∀ m, i ≤ m → m < i + n → genIs (entryN row m) q (entryN row (m + d)) = true
  | 0, _, _, m, _, _ => by omega
  | n + 1, i, h, m, h1, h2 => by
    rw [genLoop, Bool.and_eq_true] at h
    by_cases e : m = i
    · subst e; exact h.1
    · exact genLoop_spec n (i + 1) h.2 m (by omega) (by omega)

/-- What holds of a row that the generator computes.  See btcec/gensecp256k1.go:80-116. -/
structure RowGen (row : ℕ) : Prop where
  zero : entryN row 0 = 0
  norm : ∀ j, j < 8 → normOk (entryN row (2 ^ j)) = true
  gen : ∀ j, j < 8 → ∀ m, 1 ≤ m → m < 2 ^ j →
    genIs (entryN row m) (ptN (entryN row (2 ^ j))) (entryN row (m + 2 ^ j)) = true
  dbl : ∀ j, j < 7 → dblIs (entryN row (2 ^ j)) (entryN row (2 ^ (j + 1))) = true

theorem rowGen_spec {row : ℕ} (h : rowGen row = true) : RowGen row := by
  simp only [rowGen, Bool.and_eq_true] at h
  obtain ⟨h0, p0, p1, p2, p3, p4, p5, p6, p7, d0, d1, d2, d3, d4, d5, d6⟩ := h
  have hp : ∀ j, j < 8 → genPart row (2 ^ j) = true := by
    intro j hj
    match j, hj with
    | 0, _ => exact p0
    | 1, _ => exact p1
    | 2, _ => exact p2
    | 3, _ => exact p3
    | 4, _ => exact p4
    | 5, _ => exact p5
    | 6, _ => exact p6
    | 7, _ => exact p7
  refine ⟨Nat.eq_of_beq_eq_true h0, fun j hj => ?_, fun j hj m h1 h2 => ?_, fun j hj => ?_⟩
  · have := hp j hj
    rw [genPart, Bool.and_eq_true] at this
    exact this.1
  · have := hp j hj
    rw [genPart, Bool.and_eq_true] at this
    exact genLoop_spec _ _ this.2 m h1 (by omega)
  · match j, hj with
    | 0, _ => exact d0
    | 1, _ => exact d1
    | 2, _ => exact d2
    | 3, _ => exact d3
    | 4, _ => exact d4
    | 5, _ => exact d5
    | 6, _ => exact d6

theorem ent_zero : ent 0 = ⟨zero, zero, zero⟩ := by
  rw [ent, tabField_zero, tabField_zero, tabField_zero]

/-- The doubling points of a row (specification; btcec/gensecp256k1.go:88-89). -/
def rowCps (row : ℕ) : List Jac := (List.range 8).map fun j => ent (entryN row (2 ^ j))

theorem rowCps_get {row j : ℕ} (hj : j < 8) : (rowCps row)[j]? = some (ent (entryN row (2 ^ j))) := by
  rw [rowCps, List.getElem?_map, List.getElem?_range hj]; rfl

theorem rowCps_set {row j : ℕ} (hj : j < 8) :
    (rowCps row).set j (ent (entryN row (2 ^ j))) = rowCps row := by
  apply List.ext_getElem?
  intro k
  by_cases h : k = j
  · subst h
    rw [List.getElem?_set_self (by rw [rowCps, List.length_map, List.length_range]; exact hj),
      rowCps_get hj]
  · rw [List.getElem?_set_ne (Ne.symm h)]

theorem add_inf (q : Jac) : addJacobian ⟨zero, zero, zero⟩ q = (q, q) := by
  rw [addJacobian, if_pos (by decide)]

theorem windowPoint_gen {row : ℕ} (h : RowGen row) (i : ℕ) (hi : i < 256) :
    windowPoint (rowCps row) i = (ent (entryN row i), rowCps row) := by
  have key : ∀ n, n ≤ 8 → (List.range n).foldl (bitStep i) (⟨zero, zero, zero⟩, rowCps row) =
      (ent (entryN row (i % 2 ^ n)), rowCps row) ∧ (i % 2 ^ n ≠ 0 → EntNm (entryN row (i % 2 ^ n))) := by
    intro n
    induction n with
    | zero =>
      intro _
      rw [pow_zero, Nat.mod_one, h.zero, ent_zero]
      exact ⟨rfl, fun h => absurd rfl h⟩
    | succ n ih =>
      intro hn
      obtain ⟨h1, h2⟩ := ih (by omega)
      have hn8 : n < 8 := by omega
      have e : i % 2 ^ (n + 1) = i % 2 ^ n + 2 ^ n * (i / 2 ^ n % 2) := Nat.mod_pow_succ
      have e2 : i >>> n &&& 1 = i / 2 ^ n % 2 := by
        rw [Nat.and_one_is_mod, Nat.shiftRight_eq_div_pow]
      rw [List.range_succ, List.foldl_append, h1, List.foldl_cons, List.foldl_nil, bitStep, e2]
      split_ifs with hb
      · rw [e, hb, mul_one]
        simp only
        rw [List.getD_eq_getElem?_getD, rowCps_get hn8, Option.getD_some]
        by_cases hz : i % 2 ^ n = 0
        · rw [hz, zero_add, h.zero, ent_zero, add_inf]
          exact ⟨Prod.ext rfl (rowCps_set hn8), fun _ => (normOk_spec (h.norm n hn8)).1⟩
        · obtain ⟨a1, a2⟩ := genIs_spec (h2 hz) (h.norm n hn8)
            (h.gen n hn8 (i % 2 ^ n) (by omega) (Nat.mod_lt _ (by positivity)))
          rw [a1]
          exact ⟨Prod.ext rfl (rowCps_set hn8), fun _ => a2⟩
      · rw [e, show i / 2 ^ n % 2 = 0 by omega, mul_zero, add_zero]
        exact ⟨rfl, h2⟩
  have := (key 8 le_rfl).1
  rwa [show i % 2 ^ 8 = i from Nat.mod_eq_of_lt hi] at this

theorem windowFrom_gen {row : ℕ} (h : RowGen row) : ∀ n i, i + n ≤ 256 → ∀ k, k < n →
    (windowFrom n i (rowCps row)).getD k ⟨zero, zero, zero⟩ = ent (entryN row (i + k))
  | 0, _, _, k, hk => absurd hk (Nat.not_lt_zero k)
  | n + 1, i, hi, 0, _ => by
    rw [windowFrom, windowPoint_gen h i (by omega)]; rfl
  | n + 1, i, hi, k + 1, hk => by
    rw [windowFrom, windowPoint_gen h i (by omega)]
    have := windowFrom_gen h n (i + 1) (by omega) k (by omega)
    rwa [show i + 1 + k = i + (k + 1) by omega] at this

/-! ### Tables -/

/-- What holds of a table that the generator computes.  See btcec/gensecp256k1.go:80-116. -/
def TabGen (rows : List ℕ) : Prop :=
  (∀ b, b < 32 → RowGen (rows.getD b 0)) ∧
    ∀ b, b < 31 → genLink (rows.getD (b + 1) 0) (rows.getD b 0) = true

/-- Doubling point `k` of a table (specification; btcec/gensecp256k1.go:35-39). -/
def tabD (rows : List ℕ) (k : ℕ) : Jac := ent (entryN (rows.getD (31 - k / 8) 0) (2 ^ (k % 8)))

theorem tabD_succ {rows : List ℕ} (h : TabGen rows) {k : ℕ} (hk : k < 255) :
    doubleJacobian (tabD rows k) = tabD rows (k + 1) := by
  unfold tabD
  have hr := h.1 (31 - k / 8) (by omega)
  have nk := hr.norm (k % 8) (by omega)
  by_cases h7 : k % 8 = 7
  · have hl := h.2 (30 - k / 8) (by omega)
    rw [genLink, show 30 - k / 8 + 1 = 31 - k / 8 by omega] at hl
    rw [show (k + 1) % 8 = 0 by omega, show 31 - (k + 1) / 8 = 30 - k / 8 by omega]
    rw [h7] at nk ⊢
    exact dblIs_spec (normOk_spec nk).1 ((h.1 (30 - k / 8) (by omega)).norm 0 (by omega)) hl
  · rw [show (k + 1) % 8 = k % 8 + 1 by omega, show (k + 1) / 8 = k / 8 by omega]
    exact dblIs_spec (normOk_spec nk).1 (hr.norm (k % 8 + 1) (by omega)) (hr.dbl (k % 8) (by omega))

theorem doublingLoop_gen {rows : List ℕ} (h : TabGen rows) : ∀ n k, k + n ≤ 256 →
    doublingLoop n (tabD rows k) = (List.range' k n).map (tabD rows)
  | 0, _, _ => rfl
  | n + 1, k, hk => by
    rw [doublingLoop, List.range'_succ, List.map_cons]
    congr 1
    cases n with
    | zero => rfl
    | succ n =>
      rw [tabD_succ h (by omega)]
      exact doublingLoop_gen h (n + 1) (k + 1) (by omega)

theorem window_cps {rows : List ℕ} {b : ℕ} (hb : b < 32) :
    (((List.range' 0 256).map (tabD rows)).drop (8 * (byteSize - b - 1))).take 8 =
      rowCps (rows.getD b 0) := by
  have e : byteSize - b - 1 = 31 - b := by
    show 32 - b - 1 = 31 - b
    omega
  rw [e]
  apply List.ext_getElem?
  intro j
  by_cases hj : j < 8
  · rw [List.getElem?_take_of_lt hj, List.getElem?_drop, List.getElem?_map, rowCps_get hj,
      List.getElem?_range' (by omega), Option.map_some, tabD]
    congr 4 <;> omega
  · rw [List.getElem?_eq_none (by rw [List.length_take]; omega),
      List.getElem?_eq_none (by rw [rowCps, List.length_map, List.length_range]; omega)]

/-- The generator, started on the point of the last row, computes the table. -/
theorem gen_table {rows : List ℕ} (h : TabGen rows) {gx gy : Int} {f g : FieldVal}
    (hf : bigAffineToField gx gy = .ok (f, g)) (hs : tabD rows 0 = ⟨f, g, setInt 1⟩) :
    ∃ b tab, serializedBytePoints gx gy = .ok b ∧ loadBytePoints b = .ok tab ∧
      ∀ c, c < 32 → ∀ i, tab c i = tabPoint rows c i := by
  have hd : doublingLoop 256 ⟨f, g, setInt 1⟩ = (List.range' 0 256).map (tabD rows) := by
    rw [← hs]; exact doublingLoop_gen h 256 0 le_rfl
  refine ⟨(allPoints (doublingLoop 256 ⟨f, g, setInt 1⟩)).flatMap serPoint,
    fun b i => (allPoints (doublingLoop 256 ⟨f, g, setInt 1⟩)).getD (256 * b + i.toNat)
      ⟨zero, zero, zero⟩, ?_, ?_, ?_⟩
  · rw [serializedBytePoints, getDoublingPoints, hf]
    exact congrArg Go.ok (ser_eq _)
  · rw [← List.append_nil ((allPoints _).flatMap serPoint)]
    exact load_ser (allPoints_length _) []
  · intro c hc i
    show (allPoints _).getD (256 * c + i.toNat) ⟨zero, zero, zero⟩ = _
    rw [allPoints_getD _ hc i.toNat_lt, hd, window, window_cps hc,
      windowFrom_gen (h.1 c hc) 256 0 le_rfl i.toNat i.toNat_lt, zero_add]
    rfl

end Zk.Gen
