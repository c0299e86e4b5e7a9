import Verif.Curve.Group
import Verif.Curve.TabCheck

/-!
# Jacobian coordinates of curve points
-/

namespace Zk.Curve

open Zk Zk.Field

/-- (x, y, z) are Jacobian coordinates of the finite point A: x/z² and y/z³ are its affine
coordinates, btcec/btcec.go:15-17. -/
def RepF (x y z : F) (A : E) : Prop :=
  ∃ a b, ∃ h : b ^ 2 = a ^ 3 + 7, A = mk h ∧ z ≠ 0 ∧ x = a * z ^ 2 ∧ y = b * z ^ 3

namespace RepF

variable {x y z x1 y1 z1 x2 y2 z2 : F} {A B : E}

theorem z_ne (h : RepF x y z A) : z ≠ 0 := by
  obtain ⟨a, b, _, _, hz, _⟩ := h; exact hz

theorem ne_zero (h : RepF x y z A) : A ≠ 0 := by
  obtain ⟨a, b, h, rfl, _⟩ := h; exact mk_ne_zero h

theorem scale (h : RepF x y z A) {t : F} (ht : t ≠ 0) : RepF (x * t ^ 2) (y * t ^ 3) (z * t) A := by
  obtain ⟨a, b, h, hA, hz, hx, hy⟩ := h
  exact ⟨a, b, h, hA, mul_ne_zero hz ht, by rw [hx]; ring, by rw [hy]; ring⟩

theorem congr {x' y' z' : F} (h : RepF x y z A) (hx : x = x') (hy : y = y') (hz : z = z') :
    RepF x' y' z' A := by subst hx hy hz; exact h

theorem neg (h : RepF x y z A) : RepF x (-y) z (-A) := by
  obtain ⟨a, b, h, rfl, hz, hx, hy⟩ := h
  exact ⟨a, -b, by rw [neg_pow_two, h], neg_mk h, hz, hx, by rw [hy]; ring⟩

theorem of_mk {a b : F} (h : b ^ 2 = a ^ 3 + 7) : RepF a b 1 (mk h) :=
  ⟨a, b, h, rfl, one_ne_zero, by ring, by ring⟩

/-- Coordinates determine the point. -/
theorem unique (h1 : RepF x1 y1 z1 A) (h2 : RepF x2 y2 z2 B) (hx : x1 * z2 ^ 2 = x2 * z1 ^ 2)
    (hy : y1 * z2 ^ 3 = y2 * z1 ^ 3) : A = B := by
  obtain ⟨a, b, h, rfl, hz1, rfl, rfl⟩ := h1
  obtain ⟨c, d, h', rfl, hz2, rfl, rfl⟩ := h2
  rw [mk_inj]
  have n2 : z1 ^ 2 * z2 ^ 2 ≠ 0 := mul_ne_zero (pow_ne_zero _ hz1) (pow_ne_zero _ hz2)
  have n3 : z1 ^ 3 * z2 ^ 3 ≠ 0 := mul_ne_zero (pow_ne_zero _ hz1) (pow_ne_zero _ hz2)
  exact ⟨mul_right_cancel₀ n2 (by linear_combination hx),
    mul_right_cancel₀ n3 (by linear_combination hy)⟩

/-- Same affine x, different y: the points are opposite. -/
theorem opp (h1 : RepF x1 y1 z1 A) (h2 : RepF x2 y2 z2 B) (hx : x1 * z2 ^ 2 = x2 * z1 ^ 2)
    (hy : y1 * z2 ^ 3 ≠ y2 * z1 ^ 3) : A + B = 0 := by
  obtain ⟨a, b, h, rfl, hz1, rfl, rfl⟩ := h1
  obtain ⟨c, d, h', rfl, hz2, rfl, rfl⟩ := h2
  have n2 : z1 ^ 2 * z2 ^ 2 ≠ 0 := mul_ne_zero (pow_ne_zero _ hz1) (pow_ne_zero _ hz2)
  have : a = c := mul_right_cancel₀ n2 (by linear_combination hx)
  subst this
  apply mk_add_neg
  rintro rfl
  apply hy
  ring

/-- The chord formula in Jacobian coordinates. -/
theorem add (h1 : RepF x1 y1 z1 A) (h2 : RepF x2 y2 z2 B) {u1 u2 s1 s2 : F}
    (hu1 : u1 = x1 * z2 ^ 2) (hu2 : u2 = x2 * z1 ^ 2) (hs1 : s1 = y1 * z2 ^ 3)
    (hs2 : s2 = y2 * z1 ^ 3) (hx : u1 ≠ u2) :
    RepF ((s2 - s1) ^ 2 - (u2 - u1) ^ 2 * (u1 + u2))
      ((s2 - s1) * (u1 * (u2 - u1) ^ 2 - ((s2 - s1) ^ 2 - (u2 - u1) ^ 2 * (u1 + u2))) -
        s1 * (u2 - u1) ^ 3)
      (z1 * z2 * (u2 - u1)) (A + B) := by
  obtain ⟨a, b, h, rfl, hz1, rfl, rfl⟩ := h1
  obtain ⟨c, d, h', rfl, hz2, rfl, rfl⟩ := h2
  have hac : a ≠ c := by
    rintro rfl
    apply hx
    rw [hu1, hu2]; ring
  have hca : c - a ≠ 0 := sub_ne_zero.2 hac.symm
  obtain ⟨x, y, h3, e, ex, ey⟩ := chord_eq h h' hac
  refine ⟨x, y, h3, e, ?_, ?_, ?_⟩
  · exact mul_ne_zero (mul_ne_zero hz1 hz2) (sub_ne_zero.2 hx.symm)
  · rw [ex, hu1, hu2, hs1, hs2]
    field_simp
    ring
  · rw [ey, ex, hu1, hu2, hs1, hs2]
    field_simp
    ring

/-- The tangent formula in Jacobian coordinates. -/
theorem dbl (h1 : RepF x1 y1 z1 A) (hy : y1 ≠ 0) :
    RepF ((3 * x1 ^ 2) ^ 2 - 8 * x1 * y1 ^ 2)
      (3 * x1 ^ 2 * (4 * x1 * y1 ^ 2 - ((3 * x1 ^ 2) ^ 2 - 8 * x1 * y1 ^ 2)) - 8 * y1 ^ 4)
      (2 * y1 * z1) (A + A) := by
  obtain ⟨a, b, h, rfl, hz1, rfl, rfl⟩ := h1
  have hb : b ≠ 0 := left_ne_zero_of_mul hy
  have h2 := two_ne
  obtain ⟨x, y, h3, e, ex, ey⟩ := tangent_eq h hb
  refine ⟨x, y, h3, e, ?_, ?_, ?_⟩
  · exact mul_ne_zero (mul_ne_zero two_ne hy) hz1
  · rw [ex]
    field_simp
    ring
  · rw [ey, ex]
    field_simp
    ring

end RepF

/-! ## Computing with natural numbers -/

/-- `RepF` for numbers, btcec/btcec.go:15-17. -/
def RepN (p : ℕ × ℕ × ℕ) (A : E) : Prop := RepF (p.1 : F) (p.2.1 : F) (p.2.2 : F) A

theorem cast_sub {n : ℕ} (h : n ≤ P) : ((P - n : ℕ) : F) = -(n : F) := by
  rw [Nat.cast_sub h, P_cast, zero_sub]

theorem mod_le (n : ℕ) : n % P ≤ P := (Nat.mod_lt _ (by decide)).le

theorem cast_eq {m n : ℕ} : (m : F) = (n : F) ↔ m % P = n % P := ZMod.natCast_eq_natCast_iff _ _ _

theorem cast_eq_zero {n : ℕ} : (n : F) = 0 ↔ n % P = 0 := by
  rw [← Nat.cast_zero, cast_eq, Nat.zero_mod]

theorem ndbl_rep {p : ℕ × ℕ × ℕ} {A : E} (h : RepN p A) (hy : p.2.1 % P ≠ 0) :
    RepN (ndbl p) (A + A) := by
  obtain ⟨x, y, z⟩ := p
  have hy' : (y : F) ≠ 0 := mt cast_eq_zero.1 hy
  refine (h.dbl hy').congr ?_ ?_ ?_ <;>
    simp only [ndbl, ZMod.natCast_mod, Nat.cast_add, Nat.cast_mul, cast_sub (mod_le _),
      Nat.cast_ofNat] <;> ring

theorem nadd_rep {p q : ℕ × ℕ × ℕ} {A B : E} (h : RepN p A) (h' : RepN q B)
    (hx : p.1 * (q.2.2 * q.2.2) % P ≠ q.1 * (p.2.2 * p.2.2) % P) :
    RepN (nadd p q) (A + B) := by
  obtain ⟨x1, y1, z1⟩ := p
  obtain ⟨x2, y2, z2⟩ := q
  have hx' : (x1 : F) * (z2 : F) ^ 2 ≠ (x2 : F) * (z1 : F) ^ 2 := by
    intro e
    apply hx
    rw [← cast_eq]
    push_cast
    linear_combination e
  refine (h.add h' rfl rfl rfl rfl hx').congr ?_ ?_ ?_ <;>
    simp only [nadd, ZMod.natCast_mod, Nat.cast_add, Nat.cast_mul, cast_sub (mod_le _)] <;> ring

/-- A triple with the same affine coordinates represents the same point. -/
theorem neq_rep {p q : ℕ × ℕ × ℕ} {A : E} (h : RepN p A) (hz : q.2.2 % P ≠ 0)
    (he : neq p q = true) : RepN q A := by
  obtain ⟨x1, y1, z1⟩ := p
  obtain ⟨x2, y2, z2⟩ := q
  simp only [neq, Bool.and_eq_true, beq_iff_eq, ← cast_eq, Nat.cast_mul, ZMod.natCast_mod] at he
  obtain ⟨e1, e2⟩ := he
  have hz2 : (z2 : F) ≠ 0 := mt cast_eq_zero.1 hz
  obtain ⟨a, b, h, hA, hz1, hx, hy⟩ := h
  simp only at hz1 hx hy
  refine ⟨a, b, h, hA, hz2, ?_, ?_⟩
  · refine mul_right_cancel₀ (pow_ne_zero 2 hz1) ?_
    rw [hx] at e1
    simp only
    linear_combination -e1
  · refine mul_right_cancel₀ (pow_ne_zero 3 hz1) ?_
    rw [hy] at e2
    simp only
    linear_combination -e2

/-- Double and add over bits, most significant first; `none` in an exceptional case (used only to
check data).  See btcec/btcec.go:932-981. -/
def nladder (g : ℕ × ℕ × ℕ) : List Bool → ℕ × ℕ × ℕ → Option (ℕ × ℕ × ℕ)
  | [], q => some q
  | b :: bs, q =>
    if q.2.1 % P = 0 then none
    else
      let d := ndbl q
      if b then
        if d.1 * (g.2.2 * g.2.2) % P = g.1 * (d.2.2 * d.2.2) % P then none
        else nladder g bs (nadd d g)
      else nladder g bs d

/-- The number of bits most significant first appended to n (used only to check data).
See btcec/btcec.go:932-981. -/
def bitsVal : List Bool → ℕ → ℕ
  | [], n => n
  | b :: bs, n => bitsVal bs (2 * n + b.toNat)

theorem nladder_rep {g : ℕ × ℕ × ℕ} {G : E} (hg : RepN g G) :
    ∀ (bs : List Bool) (q r : ℕ × ℕ × ℕ) (n : ℕ), RepN q (n • G) → nladder g bs q = some r →
      RepN r (bitsVal bs n • G)
  | [], q, r, n, hq, h => by
    simp only [nladder, Option.some.injEq] at h
    subst h; exact hq
  | b :: bs, q, r, n, hq, h => by
    rw [nladder] at h
    dsimp only at h
    split_ifs at h with h1 h2 h3
    · refine nladder_rep hg bs _ r _ ?_ h
      subst h2
      have := nadd_rep (ndbl_rep hq h1) hg h3
      simpa only [Bool.toNat_true, add_smul, two_mul, one_smul] using this
    · refine nladder_rep hg bs _ r _ ?_ h
      have := ndbl_rep hq h1
      simp only [Bool.not_eq_true] at h2
      simpa only [h2, Bool.toNat_false, add_zero, two_mul, add_smul] using this

end Zk.Curve
