import Verif.Curve.Endo

/-!
# `ScalarMult` of btcec/btcec.go
-/

namespace Zk.Curve

open Zk Zk.Field

/-! ### The second operand keeps its coordinates -/

theorem addJacobian_snd {p q : Jac} {X Y Z : F} (hx : R q.x 1 X) (hy : R q.y 2 Y) (hz : R q.z 1 Z) :
    R (addJacobian p q).2.x 1 X ∧ R (addJacobian p q).2.y 2 Y ∧ R (addJacobian p q).2.z 1 Z := by
  have nx := hx.normalize (by decide)
  have ny := hy.normalize (by decide)
  have nz := hz.normalize (by decide)
  have e1 : ∀ x1 y1 z1, (addZ1AndZ2EqualsOne x1 y1 z1 q.x q.y).2 =
      (Field.normalize q.x, Field.normalize q.y) := by
    intro x1 y1 z1
    unfold addZ1AndZ2EqualsOne
    dsimp only
    split_ifs <;> rfl
  have e2 : ∀ x1 y1 z1, (addZ1EqualsZ2 x1 y1 z1 q.x q.y).2 =
      (Field.normalize q.x, Field.normalize q.y) := by
    intro x1 y1 z1
    unfold addZ1EqualsZ2
    dsimp only
    split_ifs <;> rfl
  rw [addJacobian]
  dsimp only
  split_ifs
  · exact ⟨hx, hy, hz⟩
  · exact ⟨hx, hy, hz⟩
  · dsimp only; rw [e1]; exact ⟨nx.R, ny.R.mono (by decide), nz.R⟩
  · dsimp only; rw [e2]; exact ⟨nx.R, ny.R.mono (by decide), nz.R⟩
  · exact ⟨hx, hy, nz.R⟩
  · exact ⟨hx, hy, nz.R⟩

/-! ### The operands (0, 0) -/

/-- Coordinates that are zero modulo p, x and y; `ScalarMult` of (0, 0) works on these.
See btcec/btcec.go:761-861. -/
def JZ (p : Jac) : Prop := R p.x 1 0 ∧ R p.y 2 0 ∧ ∃ Z, R p.z 1 Z

theorem JZ_inf : JZ infJac := ⟨Nm_zero.R, Nm_zero.R.mono (by decide), _, Nm_zero.R⟩

theorem JZ.double {p : Jac} (h : JZ p) : JZ (doubleJacobian p) := by
  obtain ⟨hx, hy, Z, hz⟩ := h
  have body : ∀ {m : ℕ} {z3 : FieldVal} {Z3 : F}, R z3 m Z3 → m ≤ 63 →
      let a := squareVal p.x
      let b := squareVal p.y
      let c := squareVal b
      let b := square (Field.add b p.x)
      let d := negate (Field.add a c) 2
      let d := mulInt (Field.add d b) 2
      let e := mulInt a 3
      let f := squareVal e
      let x3 := negate (mulInt d 2) 16
      let x3 := Field.add x3 f
      let f := normalize (Field.add (negate x3 18) d)
      let y3 := negate (mulInt c 8) 8
      let y3 := Field.add y3 (mul f e)
      JZ ⟨normalize x3, normalize y3, normalize z3⟩ := by
    intro m z3 Z3 rz hm a b c b2 d1 d e f x3a x3 f2 y3a y3
    have ra : R a 1 0 := (hx.squareVal (by decide)).congr (by ring)
    have rb : R b 1 0 := (hy.squareVal (by decide)).congr (by ring)
    have rc : R c 1 0 := (rb.squareVal (by decide)).congr (by ring)
    have rb2 : R b2 1 0 := ((rb.add hx (by decide)).square (by decide)).congr (by ring)
    have rd1 : R d1 3 0 :=
      (ng (ra.add rc (by decide)) 2 2 rfl (by decide) (by decide)).congr (by ring)
    have rd : R d 8 0 :=
      (mi (rd1.add rb2 (by decide)) 2 2 rfl (by decide) (by decide)).congr (by ring)
    have re : R e 3 0 := (mi ra 3 3 rfl (by decide) (by decide)).congr (by ring)
    have rf : R f 1 0 := (re.squareVal (by decide)).congr (by ring)
    have rx3a : R x3a 17 0 :=
      (ng (mi rd 2 2 rfl (by decide) (by decide)) 16 16 rfl (by decide) (by decide)).congr (by ring)
    have rx3 : R x3 18 0 := (rx3a.add rf (by decide)).congr (by ring)
    have rf2 : Nm f2 0 :=
      (((ng rx3 18 18 rfl (by decide) (by decide)).add rd (by decide)).normalize (by decide)).congr
        (by ring)
    have ry3a : R y3a 9 0 :=
      (ng (mi rc 8 8 rfl (by decide) (by decide)) 8 8 rfl (by decide) (by decide)).congr (by ring)
    have ry3 : R y3 10 0 :=
      (ry3a.add (rf2.R.mul re (by decide) (by decide)) (by decide)).congr (by ring)
    exact ⟨(rx3.normalize (by decide)).R, (ry3.normalize (by decide)).R.mono (by decide), _,
      (rz.normalize hm).R⟩
  have nz := hz.normalize (by decide)
  rw [doubleJacobian]
  dsimp only
  split_ifs
  · exact JZ_inf
  · exact body (mi hy 2 2 rfl (by decide) (by decide)) (by decide)
  · exact body (mi (hy.mul2 nz.R (by decide) (by decide)) 2 2 rfl (by decide) (by decide))
      (by decide)

theorem JZ.add {p q : Jac} (hp : JZ p) (hq : JZ q) : JZ (addJacobian p q).1 := by
  obtain ⟨hx1, hy1, Z1, hz1⟩ := hp
  obtain ⟨hx2, hy2, Z2, hz2⟩ := hq
  have nx1 := hx1.normalize (by decide)
  have ny1 := hy1.normalize (by decide)
  have nx2 := hx2.normalize (by decide)
  have ny2 := hy2.normalize (by decide)
  have nz1 := hz1.normalize (by decide)
  have nz2 := hz2.normalize (by decide)
  have l : ∀ {f g : FieldVal} {a : F}, Nm f a → Nm g a → Field.equals f g = true := by
    intro f g a hf hg; rw [hf.equals hg]; simp
  rw [addJacobian]
  dsimp only
  split_ifs
  · exact ⟨hx2, hy2, Z2, hz2⟩
  · exact ⟨hx1, hy1, Z1, hz1⟩
  · dsimp only
    rw [addZ1AndZ2EqualsOne]
    dsimp only
    rw [if_pos (l nx1 nx2), if_pos (l ny1 ny2)]
    exact JZ.double ⟨nx1.R, ny1.R.mono (by decide), _, nz1.R⟩
  · dsimp only
    rw [addZ1EqualsZ2]
    dsimp only
    rw [if_pos (l nx1 nx2), if_pos (l ny1 ny2)]
    exact JZ.double ⟨nx1.R, ny1.R.mono (by decide), _, nz1.R⟩
  · dsimp only
    rw [addZ2EqualsOne]
    dsimp only
    rw [if_pos (l nx1 (((hx2.mul (nz1.R.squareVal (by decide)) (by decide) (by decide)).normalize
      (by decide)).congr (by ring))), if_pos (l ny1 ((((hy2.mul (nz1.R.squareVal (by decide))
      (by decide) (by decide)).mul nz1.R (by decide) (by decide)).normalize (by decide)).congr
      (by ring)))]
    exact JZ.double ⟨nx1.R, ny1.R.mono (by decide), _, nz1.R⟩
  · dsimp only
    rw [addGeneric]
    dsimp only
    rw [if_pos (l (a := 0) (((hx1.mul (nz2.R.squareVal (by decide)) (by decide) (by decide)).normalize
      (by decide)).congr (by ring)) (((hx2.mul (nz1.R.squareVal (by decide)) (by decide)
      (by decide)).normalize (by decide)).congr (by ring))),
      if_pos (l (a := 0) ((((hy1.mul (nz2.R.squareVal (by decide))
      (by decide) (by decide)).mul nz2.R (by decide) (by decide)).normalize (by decide)).congr
      (by ring)) ((((hy2.mul (nz1.R.squareVal (by decide))
      (by decide) (by decide)).mul nz1.R (by decide) (by decide)).normalize (by decide)).congr
      (by ring)))]
    exact JZ.double ⟨hx1, hy1, _, nz1.R⟩

/-! ### The loop -/

/-- A relation between Jacobian coordinates and the elements of a group that `doubleJacobian` and
`addJacobian` respect.  See btcec/btcec.go:413-453, 582-603. -/
structure Respects {Γ : Type} [AddCommGroup Γ] (T : Jac → Γ → Prop) : Prop where
  inf : T ⟨zero, zero, zero⟩ 0
  double : ∀ p A, T p A → T (doubleJacobian p) (A + A)
  add : ∀ p q A B, T p A → T q B → T (addJacobian p q).1 (A + B)

theorem respects_JR : Respects JR :=
  ⟨JR_inf, fun _ _ h => doubleJacobian_spec h, fun _ _ _ _ h h' => (addJacobian_spec h h').1⟩

theorem respects_JZ : Respects fun p (A : E) => A = 0 ∧ JZ p :=
  ⟨⟨rfl, JZ_inf⟩, fun _ _ h => ⟨by rw [h.1, add_zero], h.2.double⟩,
    fun _ _ _ _ h h' => ⟨by rw [h.1, h'.1, add_zero], h.2.add h'.2⟩⟩

/-- The variables of one operand: x, y, -y, z, btcec/btcec.go:768-780. -/
def Op {Γ : Type} [AddCommGroup Γ] (T : Jac → Γ → Prop) (x y yn z : FieldVal) (A : Γ) : Prop :=
  ∃ X Y Z, R x 1 X ∧ R y 2 Y ∧ R yn 2 (-Y) ∧ R z 1 Z ∧
    (∀ j : Jac, R j.x 1 X → R j.y 2 Y → R j.z 1 Z → T j A) ∧
    ∀ j : Jac, R j.x 1 X → R j.y 2 (-Y) → R j.z 1 Z → T j (-A)

variable {Γ : Type} [AddCommGroup Γ] {T : Jac → Γ → Prop}

theorem Op.addPos (hT : Respects T) {q : Jac} {x y yn z : FieldVal} {Q A : Γ} (hq : T q Q)
    (h : Op T x y yn z A) :
    let r := addJacobian q ⟨x, y, z⟩
    T r.1 (Q + A) ∧ Op T r.2.x r.2.y yn r.2.z A := by
  obtain ⟨X, Y, Z, hx, hy, hyn, hz, h1, h2⟩ := h
  obtain ⟨s1, s2, s3⟩ := addJacobian_snd (p := q) (q := ⟨x, y, z⟩) hx hy hz
  exact ⟨hT.add _ _ _ _ hq (h1 ⟨x, y, z⟩ hx hy hz), X, Y, Z, s1, s2, hyn, s3, h1, h2⟩

theorem Op.addNeg (hT : Respects T) {q : Jac} {x y yn z : FieldVal} {Q A : Γ} (hq : T q Q)
    (h : Op T x y yn z A) :
    let r := addJacobian q ⟨x, yn, z⟩
    T r.1 (Q + -A) ∧ Op T r.2.x y r.2.y r.2.z A := by
  obtain ⟨X, Y, Z, hx, hy, hyn, hz, h1, h2⟩ := h
  obtain ⟨s1, s2, s3⟩ := addJacobian_snd (p := q) (q := ⟨x, yn, z⟩) hx hyn hz
  exact ⟨hT.add _ _ _ _ hq (h2 ⟨x, yn, z⟩ hx hyn hz), X, Y, Z, s1, hy, s2, s3, h1, h2⟩

/-- The state of `ScalarMult`: `Q` accumulated, operands `A1`, `A2`.  See btcec/btcec.go:761-861. -/
def SmInv (T : Jac → Γ → Prop) (s : SmState) (Q A1 A2 : Γ) : Prop :=
  T s.q Q ∧ Op T s.p1x s.p1y s.p1yNeg s.p1z A1 ∧ Op T s.p2x s.p2y s.p2yNeg s.p2z A2

/-- The topmost bit of a byte as a number.  See btcec/btcec.go:761-861. -/
def topBit (b : UInt8) : ℕ := if b &&& 0x80 = 0x80 then 1 else 0

/-- Value of the two topmost bits as a signed digit.  See btcec/btcec.go:761-861. -/
def digit (p n : UInt8) : Int := topBit p - topBit n

theorem and_top {a b : UInt8} (h0 : a &&& b = 0) (h1 : a &&& 0x80 = 0x80) :
    ¬(b &&& 0x80 = 0x80) := by
  intro h2
  have : (a &&& b) &&& 0x80 = 0x80 := by rw [UInt8.and_assoc, h2, h1]
  rw [h0] at this
  exact absurd this (by decide)

theorem smAdd1_inv (hT : Respects T) {s : SmState} {Q A1 A2 : Γ} (h : SmInv T s Q A1 A2)
    {a b : UInt8} (hab : a &&& b = 0) :
    SmInv T (smAdd1 s a b) (Q + digit a b • A1) A1 A2 := by
  obtain ⟨hq, h1, h2⟩ := h
  rw [smAdd1]
  by_cases ha : a &&& 0x80 = 0x80
  · rw [if_pos ha, digit, topBit, topBit, if_pos ha, if_neg (and_top hab ha)]
    obtain ⟨g1, g2⟩ := h1.addPos hT hq
    refine ⟨?_, g2, h2⟩
    simpa using g1
  · rw [if_neg ha]
    by_cases hb : b &&& 0x80 = 0x80
    · rw [if_pos hb, digit, topBit, topBit, if_neg ha, if_pos hb]
      obtain ⟨g1, g2⟩ := h1.addNeg hT hq
      refine ⟨?_, g2, h2⟩
      simpa using g1
    · rw [if_neg hb, digit, topBit, topBit, if_neg ha, if_neg hb]
      refine ⟨?_, h1, h2⟩
      simpa using hq

theorem smAdd2_inv (hT : Respects T) {s : SmState} {Q A1 A2 : Γ} (h : SmInv T s Q A1 A2)
    {a b : UInt8} (hab : a &&& b = 0) :
    SmInv T (smAdd2 s a b) (Q + digit a b • A2) A1 A2 := by
  obtain ⟨hq, h1, h2⟩ := h
  rw [smAdd2]
  by_cases ha : a &&& 0x80 = 0x80
  · rw [if_pos ha, digit, topBit, topBit, if_pos ha, if_neg (and_top hab ha)]
    obtain ⟨g1, g2⟩ := h2.addPos hT hq
    refine ⟨?_, h1, g2⟩
    simpa using g1
  · rw [if_neg ha]
    by_cases hb : b &&& 0x80 = 0x80
    · rw [if_pos hb, digit, topBit, topBit, if_neg ha, if_pos hb]
      obtain ⟨g1, g2⟩ := h2.addNeg hT hq
      refine ⟨?_, h1, g2⟩
      simpa using g1
    · rw [if_neg hb, digit, topBit, topBit, if_neg ha, if_neg hb]
      refine ⟨?_, h1, h2⟩
      simpa using hq

theorem smBit_inv (hT : Respects T) {s : SmState} {Q A1 A2 : Γ} (h : SmInv T s Q A1 A2)
    {a b c d : UInt8} (hab : a &&& b = 0) (hcd : c &&& d = 0) :
    SmInv T (smBit s a b c d) ((2 : Int) • Q + digit a b • A1 + digit c d • A2) A1 A2 := by
  rw [two_zsmul]
  have h' : SmInv T { s with q := doubleJacobian s.q } (Q + Q) A1 A2 :=
    ⟨hT.double _ _ h.1, h.2.1, h.2.2⟩
  exact smAdd2_inv hT (smAdd1_inv hT h' hab) hcd

set_option maxRecDepth 100000 in
theorem top_all : ∀ n < 8, ∀ a : Fin 256,
    a.val >>> (8 - (n + 1)) =
      2 ^ n * topBit (UInt8.ofNat a) + (UInt8.ofNat a <<< 1).toNat >>> (8 - n) := by
  decide +kernel

theorem top_step {n : ℕ} (hn : n < 8) (a : UInt8) :
    a.toNat >>> (8 - (n + 1)) = 2 ^ n * topBit a + (a <<< 1).toNat >>> (8 - n) := by
  have := top_all n hn ⟨a.toNat, a.toNat_lt⟩
  rwa [UInt8.ofNat_toNat] at this

theorem and_shl {a b : UInt8} (h : a &&& b = 0) : (a <<< 1) &&& (b <<< 1) = 0 := by
  rw [← UInt8.shiftLeft_and, h]; rfl

theorem smByte_inv (hT : Respects T) : ∀ (n : ℕ), n ≤ 8 → ∀ (s : SmState) (Q A1 A2 : Γ)
    (a b c d : UInt8), SmInv T s Q A1 A2 → a &&& b = 0 → c &&& d = 0 →
    SmInv T (smByte n s a b c d)
      (((2 : Int) ^ n) • Q + ((a.toNat >>> (8 - n) : ℕ) - (b.toNat >>> (8 - n) : ℕ) : Int) • A1 +
        ((c.toNat >>> (8 - n) : ℕ) - (d.toNat >>> (8 - n) : ℕ) : Int) • A2) A1 A2 := by
  intro n
  induction n with
  | zero =>
    intro _ s Q A1 A2 a b c d h _ _
    have e : ∀ a : UInt8, a.toNat >>> (8 - 0) = 0 := by
      intro a; rw [Nat.shiftRight_eq_div_pow]; exact Nat.div_eq_of_lt a.toNat_lt
    rw [e, e, e, e]
    simpa [smByte] using h
  | succ n ih =>
    intro hn s Q A1 A2 a b c d h hab hcd
    rw [smByte]
    have := ih (by omega) _ _ _ _ (a <<< 1) (b <<< 1) (c <<< 1) (d <<< 1) (smBit_inv hT h hab hcd)
      (and_shl hab) (and_shl hcd)
    have hq : ((2 : Int) ^ (n + 1)) • Q +
        ((a.toNat >>> (8 - (n + 1)) : ℕ) - (b.toNat >>> (8 - (n + 1)) : ℕ) : Int) • A1 +
        ((c.toNat >>> (8 - (n + 1)) : ℕ) - (d.toNat >>> (8 - (n + 1)) : ℕ) : Int) • A2 =
        ((2 : Int) ^ n) • ((2 : Int) • Q + digit a b • A1 + digit c d • A2) +
        (((a <<< 1).toNat >>> (8 - n) : ℕ) - ((b <<< 1).toNat >>> (8 - n) : ℕ) : Int) • A1 +
        (((c <<< 1).toNat >>> (8 - n) : ℕ) - ((d <<< 1).toNat >>> (8 - n) : ℕ) : Int) • A2 := by
      rw [top_step (by omega) a, top_step (by omega) b, top_step (by omega) c,
        top_step (by omega) d, digit, digit, pow_succ]
      push_cast
      module
    rw [hq]
    exact this

/-- A byte slice padded on the left to `m` bytes.  See btcec/btcec.go:761-861. -/
def padded (m : ℕ) (b : Bytes) : Bytes := List.replicate (m - b.length) 0 ++ b

theorem padded_length {m : ℕ} {b : Bytes} (h : b.length ≤ m) : (padded m b).length = m := by
  rw [padded, List.length_append, List.length_replicate]; omega

theorem padded_setBytes (m : ℕ) (b : Bytes) : setBytes (padded m b) = setBytes b :=
  setBytes_zeros _ _

theorem padded_get {m i : ℕ} {b : Bytes} (h : b.length ≤ m) (hi : i < m) :
    byteAt b.length m i b = .ok ((padded m b).getD i 0) := by
  rw [byteAt]
  split_ifs with h1
  · rw [padded, List.getD_eq_getElem?_getD, List.getElem?_append_left (by simpa using h1),
      List.getElem?_replicate, if_pos h1]
    rfl
  · rw [padded, List.getD_eq_getElem?_getD, List.getElem?_append_right (by simpa using h1),
      List.length_replicate, index, List.getElem?_eq_getElem (by omega)]
    rfl

theorem disj_bytes : ∀ (t u : Bytes), t.length = u.length →
    (∀ j, ¬((setBytes t).testBit j = true ∧ (setBytes u).testBit j = true)) →
    ∀ i, t.getD i 0 &&& u.getD i 0 = 0
  | [], [], _, _, i => by simp
  | [], _ :: _, h, _, _ => by simp at h
  | _ :: _, [], h, _, _ => by simp at h
  | p :: t, q :: u, h, hd, i => by
    have hl : t.length = u.length := by simpa using h
    cases i with
    | zero =>
      show p &&& q = 0
      rw [← UInt8.toNat_inj, UInt8.toNat_and]
      apply Nat.eq_of_testBit_eq
      intro j
      have := hd (8 * t.length + j)
      rw [testBit_cons, testBit_cons, ← hl, if_neg (by omega), if_neg (by omega),
        Nat.add_sub_cancel_left] at this
      rw [Nat.testBit_and, show (0 : UInt8).toNat = 0 from rfl, Nat.zero_testBit]
      rwa [← Bool.and_eq_true, Bool.not_eq_true] at this
    | succ i =>
      show t.getD i 0 &&& u.getD i 0 = 0
      apply disj_bytes t u hl
      intro j
      by_cases hj : j < 8 * t.length
      · have := hd j
        rwa [testBit_cons, testBit_cons, ← hl, if_pos hj, if_pos hj] at this
      · rw [Nat.testBit_lt_two_pow (lt_of_lt_of_le (setBytes_lt t) (by
          rw [pow_256]; exact Nat.pow_le_pow_right (by decide) (by omega)))]
        simp

theorem take_succ_setBytes {b : Bytes} {i : ℕ} (h : i < b.length) :
    setBytes (b.take (i + 1)) = setBytes (b.take i) * 256 + (b.getD i 0).toNat := by
  rw [List.take_succ_eq_append_getElem h, setBytes_append, List.getD_eq_getElem?_getD,
    List.getElem?_eq_getElem h, Option.getD_some]
  simp [setBytes]

theorem smLoop_inv (hT : Respects T) {p1 n1 p2 n2 : Bytes} (l1 : p1.length = n1.length)
    (l2 : p2.length = n2.length) {m : ℕ} (m1 : p1.length ≤ m) (m2 : p2.length ≤ m)
    (d1 : ∀ i, (padded m p1).getD i 0 &&& (padded m n1).getD i 0 = 0)
    (d2 : ∀ i, (padded m p2).getD i 0 &&& (padded m n2).getD i 0 = 0)
    {s0 : SmState} {A1 A2 : Γ} (h0 : SmInv T s0 0 A1 A2) : ∀ i, i ≤ m →
    ∃ s, (List.range i).foldlM (smLoop p1 n1 p2 n2 m) s0 = .ok s ∧
      SmInv T s (((setBytes ((padded m p1).take i) : Int) - setBytes ((padded m n1).take i)) • A1 +
        ((setBytes ((padded m p2).take i) : Int) - setBytes ((padded m n2).take i)) • A2) A1 A2 := by
  intro i
  induction i with
  | zero => intro _; exact ⟨s0, rfl, by simpa [setBytes] using h0⟩
  | succ i ih =>
    intro hi
    obtain ⟨s, e, hs⟩ := ih (by omega)
    rw [List.range_succ, List.foldlM_append, e]
    have step : smLoop p1 n1 p2 n2 m s i = .ok (smByte 8 s ((padded m p1).getD i 0)
        ((padded m n1).getD i 0) ((padded m p2).getD i 0) ((padded m n2).getD i 0)) := by
      rw [smLoop]
      rw [padded_get m1 (by omega), padded_get m2 (by omega), l1, l2,
        padded_get (l1 ▸ m1) (by omega), padded_get (l2 ▸ m2) (by omega)]
      rfl
    refine ⟨_, by rw [Go.bind_ok, List.foldlM_cons, step]; rfl, ?_⟩
    have := smByte_inv hT 8 le_rfl s _ A1 A2 _ _ _ _ hs (d1 i) (d2 i)
    rw [take_succ_setBytes (by rw [padded_length m1]; omega),
      take_succ_setBytes (by rw [padded_length (l1 ▸ m1)]; omega),
      take_succ_setBytes (by rw [padded_length m2]; omega),
      take_succ_setBytes (by rw [padded_length (l2 ▸ m2)]; omega)]
    simp only [Nat.sub_self, Nat.shiftRight_zero] at this
    convert this using 1
    push_cast
    module

theorem padded_disj {m : ℕ} {p n : Bytes} (hl : p.length = n.length) (hm : p.length ≤ m)
    (hd : ∀ j, ¬((setBytes p).testBit j = true ∧ (setBytes n).testBit j = true)) :
    ∀ i, (padded m p).getD i 0 &&& (padded m n).getD i 0 = 0 := by
  apply disj_bytes
  · rw [padded_length hm, padded_length (hl ▸ hm)]
  · rwa [padded_setBytes, padded_setBytes]

theorem Op.swap {x y yn z : FieldVal} {A : Γ} (h : Op T x y yn z A) : Op T x yn y z (-A) := by
  obtain ⟨X, Y, Z, hx, hy, hyn, hz, h1, h2⟩ := h
  refine ⟨X, -Y, Z, hx, hyn, by rwa [neg_neg], hz, h2, ?_⟩
  rwa [neg_neg, neg_neg]

theorem smRun_spec (hT : Respects T) (k1 k2 : Int) {B B' : Γ} {p1x p1y b : FieldVal}
    (h1 : Op T p1x p1y (negateVal p1y 1) (setInt 1) B)
    (h2 : Op T (mul2 p1x b) p1y (negateVal p1y 1) (setInt 1) B') :
    ∃ q, smRun (intBytes k1) (intBytes k2) k1.sign k2.sign p1x p1y b = .ok q ∧
      T q (k1 • B + k2 • B') := by
  rw [smRun]
  obtain ⟨a1, a2, a3, _⟩ := naf_spec (intBytes k1)
  obtain ⟨b1, b2, b3, _⟩ := naf_spec (intBytes k2)
  rw [setBytes_intBytes] at a2 b2
  generalize naf (intBytes k1) = n1 at *
  generalize naf (intBytes k2) = n2 at *
  have sg : ∀ {x : FieldVal} {A : Γ} (n : Int), Op T x p1y (negateVal p1y 1) (setInt 1) A →
      ∃ A', (n.natAbs : Int) • A' = n • A ∧
        Op T x (if n.sign = -1 then (negateVal p1y 1, p1y) else (p1y, negateVal p1y 1)).1
          (if n.sign = -1 then (negateVal p1y 1, p1y) else (p1y, negateVal p1y 1)).2 (setInt 1) A' := by
    intro x A n h
    by_cases hn : n.sign = -1
    · rw [if_pos hn]
      refine ⟨-A, ?_, h.swap⟩
      have : n < 0 := Int.sign_eq_neg_one_iff_neg.1 hn
      rw [Int.ofNat_natAbs_of_nonpos this.le, zsmul_neg, neg_zsmul, neg_neg]
    · rw [if_neg hn]
      refine ⟨A, ?_, h⟩
      have : 0 ≤ n := by
        by_contra hc
        exact hn (Int.sign_eq_neg_one_of_neg (by omega))
      rw [Int.natAbs_of_nonneg this]
  obtain ⟨A1, e1, o1⟩ := sg (k1) h1
  obtain ⟨A2, e2, o2⟩ := sg (k2) h2
  generalize hm : (if n1.1.length < n2.1.length then n2.1.length else n1.1.length) = m
  have m1 : n1.1.length ≤ m := by rw [← hm]; split_ifs <;> omega
  have m2 : n2.1.length ≤ m := by rw [← hm]; split_ifs <;> omega
  obtain ⟨s, f1, f2⟩ := smLoop_inv hT a1 b1 m1 m2 (padded_disj a1 m1 a3) (padded_disj b1 m2 b3)
    (s0 := ⟨⟨zero, zero, zero⟩, p1x, _, _, setInt 1, mul2 p1x b, _, _, setInt 1⟩)
    ⟨hT.inf, o1, o2⟩ m le_rfl
  rw [f1]
  refine ⟨s.q, rfl, ?_⟩
  have := f2.1
  rw [List.take_of_length_le (padded_length m1).le, List.take_of_length_le (padded_length (a1 ▸ m1)).le,
    List.take_of_length_le (padded_length m2).le, List.take_of_length_le (padded_length (b1 ▸ m2)).le,
    padded_setBytes, padded_setBytes, padded_setBytes, padded_setBytes, a2, b2] at this
  convert this using 1
  push_cast
  rw [add_sub_cancel_right, add_sub_cancel_right]
  rw [← Int.natCast_natAbs, ← Int.natCast_natAbs, e1, e2]

/-- The body of `ScalarMult` after the conversions. -/
theorem scalarMult_core {T : Jac → E → Prop} (hT : Respects T) {bx by' : Int} {k : Bytes} {B : E}
    {p1x p1y b : FieldVal}
    (hc : bigAffineToField bx by' = .ok (p1x, p1y)) (hb : beta = .ok b)
    (h1 : Op T p1x p1y (negateVal p1y 1) (setInt 1) B)
    (h2 : Op T (mul2 p1x b) p1y (negateVal p1y 1) (setInt 1) (curveLambda • B)) :
    ∃ q, scalarMult bx by' k = .ok (fieldJacobianToBigAffine q) ∧ T q (setBytes k • B) := by
  obtain ⟨q, hq, hq'⟩ := smRun_spec hT (kk1 (moduloReduce k)) (kk2 (moduloReduce k)) h1 h2
  refine ⟨q, ?_, ?_⟩
  · rw [scalarMult, splitK_eq, hc, hb, Go.bind_ok, Go.bind_ok, hq]
    rfl
  have hK' := moduloReduce_mod k
  generalize moduloReduce k = K at *
  obtain ⟨c, hc⟩ := kk_mod K
  have e3 : (curveN : Int) • B = 0 := by rw [natCast_zsmul]; exact N_smul B
  have e4 : kk1 K • B + kk2 K • curveLambda • B = (setBytes K : Int) • B := by
    have : (setBytes K : Int) = kk1 K + kk2 K * curveLambda - c * curveN := by linarith
    rw [this, sub_zsmul, add_zsmul, mul_zsmul, mul_zsmul, e3, zsmul_zero, neg_zero, add_zero,
      natCast_zsmul]
  rwa [e4, natCast_zsmul, ← mod_N_smul, hK', mod_N_smul] at hq'

theorem scalarMult_enc (B : E) (k : Bytes) :
    scalarMult (enc B).1 (enc B).2 k = .ok (enc (setBytes k • B)) := by
  obtain ⟨b, hb, rb⟩ := beta_R
  rcases point_cases B with rfl | ⟨x, y, hB, rfl⟩
  · obtain ⟨f, g, e, hf, hg⟩ := bigAffine_ok (x := 0) (y := 0) (by decide) (by decide)
    have rf : R f 1 0 := (canon_R hf).congr (by simp)
    have rg : R g 1 0 := (canon_R hg).congr (by simp)
    have rn : R (negateVal g 1) 2 (-0) := ng rg 1 1 rfl (by decide) (by decide)
    have hop : ∀ x, R x 1 0 → Op (fun p (A : E) => A = 0 ∧ JZ p) x g (negateVal g 1) (setInt 1) 0 := by
      intro x hx
      refine ⟨0, 0, 1, hx, rg.mono (by decide), rn, Nm_one.R, ?_, ?_⟩
      · intro j h1 h2 h3; exact ⟨rfl, h1, h2, _, h3⟩
      · intro j h1 h2 h3; exact ⟨neg_zero, h1, by simpa using h2, _, h3⟩
    obtain ⟨q, h1, h2, h3⟩ := scalarMult_core (k := k) respects_JZ (B := 0) e hb (hop f rf)
      (by rw [nsmul_zero]; exact hop _ ((rf.mul2 rb (by decide) (by decide)).congr (zero_mul _)))
    rw [enc_zero, h1, h2, enc_zero]
    obtain ⟨hx, hy, Z, hz⟩ := h3
    rw [toAffine hx hy hz (by decide) (by decide) (by decide), zero_mul, zero_mul, ZMod.val_zero]
    rfl
  · obtain ⟨f, g, e, hf, hg⟩ := bigAffine_mk (x := x) (y := y)
    have rn : R (negateVal g 1) 2 (-y) := ng hg 1 1 rfl (by decide) (by decide)
    have hop : ∀ {X : F} {x' : FieldVal} (h : y ^ 2 = X ^ 3 + 7), R x' 1 X →
        Op JR x' g (negateVal g 1) (setInt 1) (mk h) := by
      intro X x' h hx
      refine ⟨X, y, 1, hx, hg.mono (by decide), rn, Nm_one.R, ?_, ?_⟩
      · intro j h1 h2 h3; exact .inr ⟨X, y, 1, h1, h2, h3, RepF.of_mk h⟩
      · intro j h1 h2 h3; exact .inr ⟨X, -y, 1, h1, h2, h3, (RepF.of_mk h).neg⟩
    obtain ⟨q, h1, h2⟩ := scalarMult_core (k := k) respects_JR e hb (hop hB hf)
      (by
        rw [← phi_eq, phi_mk]
        exact hop _ ((hf.mul2 rb (by decide) (by decide)).congr (mul_comm _ _)))
    rw [enc_mk, h1, h2.affine]

end Zk.Curve
