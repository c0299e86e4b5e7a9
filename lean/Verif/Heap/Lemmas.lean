import Verif.Heap.Model
import Verif.Field.ZLemmas

/-!
# The routines on memory and the routines on values
-/

namespace Zk.Heap

open Zk Zk.Field

/-- The point at some pointers.  See btcec/btcec.go:340-409. -/
def Mem.pt (m : Mem) (p : Pt) : Curve.Jac := ⟨m p.x, m p.y, m p.z⟩

/-- Writing a point.  See btcec/btcec.go:340-409. -/
def Mem.put (m : Mem) (p : Pt) (r : Curve.Jac) : Mem := ((m.set p.x r.x).set p.y r.y).set p.z r.z

/-- Pointers to different coordinates differ.  See btcec/btcec.go:340-409. -/
def Sep (p q : Pt) : Prop := p.x ≠ q.y ∧ p.x ≠ q.z ∧ p.y ≠ q.z ∧ q.x ≠ p.y ∧ q.x ≠ p.z ∧ q.y ≠ p.z

theorem set_self (m : Mem) (p : Ptr) (v : FieldVal) : m.set p v p = v := if_pos rfl

theorem set_ne (m : Mem) {p q : Ptr} (v : FieldVal) (h : q ≠ p) : m.set p v q = m q := if_neg h

theorem setInf_eq (m : Mem) (p : Pt) : setInf m p = m.put p Curve.infJac := rfl

theorem double1_eq {m : Mem} {x1 y1 x3 y3 z3 : Ptr} (h1 : x3 ≠ y3) (h2 : x3 ≠ z3) (h3 : y3 ≠ z3)
    (h4 : x1 ≠ z3) (h5 : y1 ≠ z3) :
    doubleZ1EqualsOne m x1 y1 x3 y3 z3 = m.put ⟨x3, y3, z3⟩ (Curve.doubleZ1EqualsOne (m x1) (m y1)) := by
  unfold doubleZ1EqualsOne Curve.doubleZ1EqualsOne Mem.norm Mem.put
  simp only [set_self, set_ne _ _ h4, set_ne _ _ h5, set_ne _ _ h1, set_ne _ _ h1.symm,
    set_ne _ _ h2.symm, set_ne _ _ h3.symm]
  funext p
  simp only [Mem.set]
  split_ifs <;> rfl

theorem double2_eq {m : Mem} {x1 y1 z1 x3 y3 z3 : Ptr} (h1 : x3 ≠ y3) (h2 : x3 ≠ z3) (h3 : y3 ≠ z3)
    (h4 : x1 ≠ z3) (h5 : y1 ≠ z3) :
    doubleGeneric m x1 y1 z1 x3 y3 z3 =
      m.put ⟨x3, y3, z3⟩ (Curve.doubleGeneric (m x1) (m y1) (m z1)) := by
  unfold doubleGeneric Curve.doubleGeneric Mem.norm Mem.put
  simp only [set_self, set_ne _ _ h4, set_ne _ _ h5, set_ne _ _ h1, set_ne _ _ h1.symm,
    set_ne _ _ h2.symm, set_ne _ _ h3.symm]
  funext p
  simp only [Mem.set]
  split_ifs <;> rfl

theorem norm_self (m : Mem) (p : Ptr) : m.norm p p = normalize (m p) := if_pos rfl

theorem norm_ne (m : Mem) {p q : Ptr} (h : q ≠ p) : m.norm p q = m q := if_neg h

theorem double_eq {m : Mem} {p1 p3 : Pt} (h1 : Sep p1 p1) (h3 : Sep p3 p3) (h13 : Sep p1 p3) :
    ∃ m', doubleJacobian m p1 p3 = m'.put p3 (Curve.doubleJacobian (m.pt p1)) ∧
      (m' = m ∨ m' = m.norm p1.z) := by
  obtain ⟨x1, y1, z1⟩ := p1
  obtain ⟨x3, y3, z3⟩ := p3
  obtain ⟨-, a2, a3, -, -, -⟩ := h1
  obtain ⟨b1, b2, b3, -, -, -⟩ := h3
  obtain ⟨-, c2, c3, -, -, -⟩ := h13
  simp only at *
  rw [Mem.pt, doubleJacobian, Curve.doubleJacobian]
  simp only
  by_cases e1 : (isZero (m y1) || isZero (m z1)) = true
  · rw [if_pos e1, if_pos e1]
    exact ⟨m, setInf_eq m _, .inl rfl⟩
  · rw [if_neg e1, if_neg e1, norm_self]
    refine ⟨m.norm z1, ?_, .inr rfl⟩
    by_cases e2 : equals (normalize (m z1)) Curve.fieldOne = true
    · rw [if_pos e2, if_pos e2, double1_eq b1 b2 b3 c2 c3, norm_ne _ a2, norm_ne _ a3]
    · rw [if_neg e2, if_neg e2, double2_eq b1 b2 b3 c2 c3, norm_ne _ a2, norm_ne _ a3, norm_self]

/-- Normalising twice is normalising once.  See btcec/btcec.go:340-409. -/
def Idem (f : FieldVal) : Prop := normalize (normalize f) = normalize f

theorem idem_of {f : FieldVal} (h : Mag f 63) : Idem f := by
  have h1 : R f 63 (fz f) := ⟨h, rfl⟩
  have h2 := h1.normalize le_rfl
  exact (h2.R.normalize (by decide)).unique h2

/-- The cells in `S` may have been normalised; nothing else has changed.
See btcec/btcec.go:340-409. -/
def Nrm (S : List Ptr) (m m' : Mem) : Prop := ∀ p, m' p = m p ∨ p ∈ S ∧ m' p = normalize (m p)

theorem Nrm.refl (S : List Ptr) (m : Mem) : Nrm S m m := fun _ => .inl rfl

theorem Nrm.norm {S : List Ptr} {m m' : Mem} (h : Nrm S m m') {p : Ptr} (hp : p ∈ S)
    (hi : Idem (m p)) : Nrm S m (m'.norm p) := by
  intro q
  by_cases e : q = p
  · subst e
    refine .inr ⟨hp, ?_⟩
    rw [norm_self]
    rcases h q with h | ⟨-, h⟩
    · rw [h]
    · rw [h]; exact hi
  · rw [norm_ne _ e]
    exact h q

/-- The four calls of `Normalize` with which two of the addition routines start. -/
theorem norm4 {m : Mem} {x1 y1 x2 y2 : Ptr} (h1 : x1 ≠ y1) (h2 : x2 ≠ y2) (h3 : x1 ≠ y2) (h4 : x2 ≠ y1)
    (hx : Idem (m x1)) (hy : Idem (m y1)) :
    ((((m.norm x1).norm y1).norm x2).norm y2) x1 = normalize (m x1) ∧
    ((((m.norm x1).norm y1).norm x2).norm y2) y1 = normalize (m y1) ∧
    ((((m.norm x1).norm y1).norm x2).norm y2) x2 = normalize (m x2) ∧
    ((((m.norm x1).norm y1).norm x2).norm y2) y2 = normalize (m y2) := by
  have e1 : ((((m.norm x1).norm y1).norm x2).norm y2) x1 = normalize (m x1) := by
    rw [norm_ne _ h3]
    by_cases e : x1 = x2
    · subst e; rw [norm_self, norm_ne _ h1, norm_self]; exact hx
    · rw [norm_ne _ e, norm_ne _ h1, norm_self]
  have e2 : ((((m.norm x1).norm y1).norm x2).norm y2) x2 = normalize (m x2) := by
    rw [norm_ne _ h2, norm_self, norm_ne _ h4]
    by_cases e : x2 = x1
    · subst e; rw [norm_self]; exact hx
    · rw [norm_ne _ e]
  have e3 : ((((m.norm x1).norm y1).norm x2).norm y2) y2 = normalize (m y2) := by
    rw [norm_self, norm_ne _ h2.symm]
    by_cases e : y2 = y1
    · subst e; rw [norm_self, norm_ne _ h1.symm]; exact hy
    · rw [norm_ne _ e, norm_ne _ h3.symm]
  refine ⟨e1, ?_, e2, e3⟩
  by_cases e : y1 = y2
  · subst e; exact e3
  · rw [norm_ne _ e, norm_ne _ h4.symm, norm_self, norm_ne _ h1.symm]

theorem add1_eq {m : Mem} {x1 y1 z1 x2 y2 x3 y3 z3 : Ptr} (h1 : Sep ⟨x1, y1, z1⟩ ⟨x1, y1, z1⟩)
    (h2 : x2 ≠ y2) (h12 : x1 ≠ y2 ∧ x2 ≠ y1 ∧ x2 ≠ z1 ∧ y2 ≠ z1) (h3 : Sep ⟨x3, y3, z3⟩ ⟨x3, y3, z3⟩)
    (h13 : Sep ⟨x1, y1, z1⟩ ⟨x3, y3, z3⟩) (hx : Idem (m x1)) (hy : Idem (m y1)) :
    ∃ m', addZ1AndZ2EqualsOne m x1 y1 z1 x2 y2 x3 y3 z3 =
        m'.put ⟨x3, y3, z3⟩ (Curve.addZ1AndZ2EqualsOne (m x1) (m y1) (m z1) (m x2) (m y2)).1 ∧
      (m' = (((m.norm x1).norm y1).norm x2).norm y2 ∨
        m' = ((((m.norm x1).norm y1).norm x2).norm y2).norm z1) := by
  obtain ⟨k1, k2, k3, k4⟩ := norm4 (m := m) h1.1 h2 h12.1 h12.2.1 hx hy
  have k5 : ((((m.norm x1).norm y1).norm x2).norm y2) z1 = m z1 := by
    rw [norm_ne _ h12.2.2.2.symm, norm_ne _ h12.2.2.1.symm, norm_ne _ h1.2.2.1.symm,
      norm_ne _ h1.2.1.symm]
  rw [addZ1AndZ2EqualsOne, Curve.addZ1AndZ2EqualsOne]
  generalize (((m.norm x1).norm y1).norm x2).norm y2 = n at *
  simp only [k1, k2, k3, k4]
  split_ifs with e1 e2
  · obtain ⟨m', h, hm⟩ := double_eq (m := n) h1 h3 h13
    rw [Mem.pt, k1, k2, k5] at h
    exact ⟨m', h, hm⟩
  · exact ⟨n, setInf_eq n _, .inl rfl⟩
  · refine ⟨n, ?_, .inl rfl⟩
    obtain ⟨b1, b2, b3, -, -, -⟩ := h3
    obtain ⟨-, -, -, c4, -, -⟩ := h13
    simp only at b1 b2 b3 c4
    unfold Mem.norm Mem.put
    simp only [set_self, set_ne _ _ b1, set_ne _ _ b2, set_ne _ _ b3, set_ne _ _ b1.symm,
      set_ne _ _ b2.symm, set_ne _ _ b3.symm, set_ne _ _ c4.symm, k2]
    funext p
    simp only [Mem.set]
    split_ifs <;> first | rfl | (subst_vars; contradiction)

theorem add2_eq {m : Mem} {x1 y1 z1 x2 y2 x3 y3 z3 : Ptr} (h1 : Sep ⟨x1, y1, z1⟩ ⟨x1, y1, z1⟩)
    (h2 : x2 ≠ y2) (h12 : x1 ≠ y2 ∧ x2 ≠ y1 ∧ x2 ≠ z1 ∧ y2 ≠ z1) (h3 : Sep ⟨x3, y3, z3⟩ ⟨x3, y3, z3⟩)
    (h13 : Sep ⟨x1, y1, z1⟩ ⟨x3, y3, z3⟩) (hx : Idem (m x1)) (hy : Idem (m y1)) :
    ∃ m', addZ1EqualsZ2 m x1 y1 z1 x2 y2 x3 y3 z3 =
        m'.put ⟨x3, y3, z3⟩ (Curve.addZ1EqualsZ2 (m x1) (m y1) (m z1) (m x2) (m y2)).1 ∧
      (m' = (((m.norm x1).norm y1).norm x2).norm y2 ∨
        m' = ((((m.norm x1).norm y1).norm x2).norm y2).norm z1) := by
  obtain ⟨k1, k2, k3, k4⟩ := norm4 (m := m) h1.1 h2 h12.1 h12.2.1 hx hy
  have k5 : ((((m.norm x1).norm y1).norm x2).norm y2) z1 = m z1 := by
    rw [norm_ne _ h12.2.2.2.symm, norm_ne _ h12.2.2.1.symm, norm_ne _ h1.2.2.1.symm,
      norm_ne _ h1.2.1.symm]
  rw [addZ1EqualsZ2, Curve.addZ1EqualsZ2]
  generalize (((m.norm x1).norm y1).norm x2).norm y2 = n at *
  simp only [k1, k2, k3, k4]
  split_ifs with e1 e2
  · obtain ⟨m', h, hm⟩ := double_eq (m := n) h1 h3 h13
    rw [Mem.pt, k1, k2, k5] at h
    exact ⟨m', h, hm⟩
  · exact ⟨n, setInf_eq n _, .inl rfl⟩
  · refine ⟨n, ?_, .inl rfl⟩
    obtain ⟨b1, b2, b3, -, -, -⟩ := h3
    obtain ⟨-, -, -, c4, c5, c6⟩ := h13
    simp only at b1 b2 b3 c4 c5 c6
    unfold Mem.norm Mem.put
    simp only [set_self, set_ne _ _ b1, set_ne _ _ b2, set_ne _ _ b3, set_ne _ _ b1.symm,
      set_ne _ _ b2.symm, set_ne _ _ b3.symm, set_ne _ _ c4.symm, set_ne _ _ c5.symm,
      set_ne _ _ c6.symm, k2, k5]
    funext p
    simp only [Mem.set]
    split_ifs <;> first | rfl | (subst_vars; contradiction)

theorem add3_eq {m : Mem} {x1 y1 z1 x2 y2 x3 y3 z3 : Ptr} (h1 : Sep ⟨x1, y1, z1⟩ ⟨x1, y1, z1⟩)
    (h12 : x1 ≠ y2 ∧ x2 ≠ y1) (h3 : Sep ⟨x3, y3, z3⟩ ⟨x3, y3, z3⟩)
    (h13 : Sep ⟨x1, y1, z1⟩ ⟨x3, y3, z3⟩) (hx : x1 = x2 → m x1 = normalize (m x1))
    (hy : y1 = y2 → m y1 = normalize (m y1)) :
    ∃ m', addZ2EqualsOne m x1 y1 z1 x2 y2 x3 y3 z3 =
        m'.put ⟨x3, y3, z3⟩ (Curve.addZ2EqualsOne (m x1) (m y1) (m z1) (m x2) (m y2)) ∧
      (m' = (m.norm x1).norm y1 ∨ m' = ((m.norm x1).norm y1).norm z1) := by
  have k1 : ((m.norm x1).norm y1) x1 = normalize (m x1) := by rw [norm_ne _ h1.1, norm_self]
  have k2 : ((m.norm x1).norm y1) y1 = normalize (m y1) := by rw [norm_self, norm_ne _ h1.1.symm]
  have k3 : ((m.norm x1).norm y1) x2 = m x2 := by
    rw [norm_ne _ h12.2]
    by_cases e : x2 = x1
    · subst e; rw [norm_self]; exact (hx rfl).symm
    · rw [norm_ne _ e]
  have k4 : ((m.norm x1).norm y1) y2 = m y2 := by
    by_cases e : y2 = y1
    · subst e; rw [k2]; exact (hy rfl).symm
    · rw [norm_ne _ e, norm_ne _ h12.1.symm]
  have k5 : ((m.norm x1).norm y1) z1 = m z1 := by
    rw [norm_ne _ h1.2.2.1.symm, norm_ne _ h1.2.1.symm]
  rw [addZ2EqualsOne, Curve.addZ2EqualsOne]
  generalize (m.norm x1).norm y1 = n at *
  simp only [k1, k2, k3, k4, k5]
  split_ifs with e1 e2
  · obtain ⟨m', h, hm⟩ := double_eq (m := n) h1 h3 h13
    rw [Mem.pt, k1, k2, k5] at h
    exact ⟨m', h, hm⟩
  · exact ⟨n, setInf_eq n _, .inl rfl⟩
  · refine ⟨n, ?_, .inl rfl⟩
    obtain ⟨b1, b2, b3, -, -, -⟩ := h3
    obtain ⟨-, -, -, c4, c5, c6⟩ := h13
    simp only at b1 b2 b3 c4 c5 c6
    unfold Mem.norm Mem.put
    simp only [set_self, set_ne _ _ b1, set_ne _ _ b2, set_ne _ _ b3, set_ne _ _ b1.symm,
      set_ne _ _ b2.symm, set_ne _ _ b3.symm, set_ne _ _ c4.symm, set_ne _ _ c5.symm,
      set_ne _ _ c6.symm, k2, k5]
    funext p
    simp only [Mem.set]
    split_ifs <;> first | rfl | (subst_vars; contradiction)

theorem add4_eq {m : Mem} {x1 y1 z1 x2 y2 z2 x3 y3 z3 : Ptr} (h1 : Sep ⟨x1, y1, z1⟩ ⟨x1, y1, z1⟩)
    (h3 : Sep ⟨x3, y3, z3⟩ ⟨x3, y3, z3⟩) (h13 : Sep ⟨x1, y1, z1⟩ ⟨x3, y3, z3⟩)
    (h23 : x3 ≠ z2 ∧ y3 ≠ z2) :
    ∃ m', addGeneric m x1 y1 z1 x2 y2 z2 x3 y3 z3 =
        m'.put ⟨x3, y3, z3⟩ (Curve.addGeneric (m x1) (m y1) (m z1) (m x2) (m y2) (m z2)) ∧
      (m' = m ∨ m' = m.norm z1) := by
  rw [addGeneric, Curve.addGeneric]
  simp only
  split_ifs with e1 e2
  · exact double_eq (m := m) h1 h3 h13
  · exact ⟨m, setInf_eq m _, .inl rfl⟩
  · refine ⟨m, ?_, .inl rfl⟩
    obtain ⟨b1, b2, b3, -, -, -⟩ := h3
    obtain ⟨-, -, -, c4, c5, c6⟩ := h13
    simp only at b1 b2 b3 c4 c5 c6
    unfold Mem.norm Mem.put
    simp only [set_self, set_ne _ _ b1, set_ne _ _ b2, set_ne _ _ b3, set_ne _ _ b1.symm,
      set_ne _ _ b2.symm, set_ne _ _ b3.symm, set_ne _ _ c4.symm, set_ne _ _ c5.symm,
      set_ne _ _ c6.symm, set_ne _ _ h23.1.symm, set_ne _ _ h23.2.symm]
    funext p
    simp only [Mem.set]
    split_ifs <;> first | rfl | (subst_vars; contradiction)

theorem add1_snd (x1 y1 z1 x2 y2 : FieldVal) :
    (Curve.addZ1AndZ2EqualsOne x1 y1 z1 x2 y2).2 = (normalize x2, normalize y2) := by
  rw [Curve.addZ1AndZ2EqualsOne]
  simp only
  split_ifs <;> rfl

theorem add2_snd (x1 y1 z1 x2 y2 : FieldVal) :
    (Curve.addZ1EqualsZ2 x1 y1 z1 x2 y2).2 = (normalize x2, normalize y2) := by
  rw [Curve.addZ1EqualsZ2]
  simp only
  split_ifs <;> rfl

theorem equals_self (f : FieldVal) : equals f f = true := by simp [equals]

/-- Adding two points in memory, whatever pointers to the same coordinate coincide. -/
theorem add_eq {m : Mem} {p1 p2 p3 : Pt} (h1 : Sep p1 p1) (h2 : Sep p2 p2) (h3 : Sep p3 p3)
    (h12 : Sep p1 p2) (h13 : Sep p1 p3) (h23 : Sep p2 p3) (hx : Idem (m p1.x)) (hy : Idem (m p1.y))
    (hz : Idem (m p1.z)) (hx2 : Idem (m p2.x)) (hy2 : Idem (m p2.y)) (hz2 : Idem (m p2.z))
    (kx : p1.x = p2.x → p1.z ≠ p2.z → m p1.x = normalize (m p1.x))
    (ky : p1.y = p2.y → p1.z ≠ p2.z → m p1.y = normalize (m p1.y)) :
    ∃ m', addJacobian m p1 p2 p3 = m'.put p3 (Curve.addJacobian (m.pt p1) (m.pt p2)).1 ∧
      Nrm [p1.x, p1.y, p1.z, p2.x, p2.y, p2.z] m m' ∧
      m'.pt p2 = (Curve.addJacobian (m.pt p1) (m.pt p2)).2 := by
  obtain ⟨x1, y1, z1⟩ := p1
  obtain ⟨x2, y2, z2⟩ := p2
  obtain ⟨x3, y3, z3⟩ := p3
  have H1 := h1
  have H3 := h3
  have H13 := h13
  obtain ⟨a1, a2, a3, -, -, -⟩ := h1
  obtain ⟨b1, b2, b3, -, -, -⟩ := h2
  obtain ⟨c1, c2, c3, c4, c5, c6⟩ := h12
  obtain ⟨d1, d2, d3, d4, d5, d6⟩ := h13
  obtain ⟨e1, e2, e3, e4, e5, e6⟩ := h23
  simp only at *
  unfold Mem.pt
  rw [addJacobian, Curve.addJacobian]
  simp only
  by_cases i1 : (isZero (m x1) && isZero (m y1) || isZero (m z1)) = true
  · rw [if_pos i1, if_pos i1]
    refine ⟨m, ?_, Nrm.refl _ _, rfl⟩
    rw [set_ne _ _ e4.symm, set_ne _ _ e6.symm, set_ne _ _ e5.symm]
    rfl
  by_cases i2 : (isZero (m x2) && isZero (m y2) || isZero (m z2)) = true
  · rw [if_neg i1, if_pos i2, if_neg i1, if_pos i2]
    refine ⟨m, ?_, Nrm.refl _ _, rfl⟩
    rw [set_ne _ _ d4.symm, set_ne _ _ d6.symm, set_ne _ _ d5.symm]
    rfl
  rw [if_neg i1, if_neg i2, if_neg i1, if_neg i2]
  have k1 : ((m.norm z1).norm z2) x1 = m x1 := by rw [norm_ne _ c2, norm_ne _ a2]
  have k2 : ((m.norm z1).norm z2) y1 = m y1 := by rw [norm_ne _ c3, norm_ne _ a3]
  have k3 : ((m.norm z1).norm z2) x2 = m x2 := by rw [norm_ne _ b2, norm_ne _ c5]
  have k4 : ((m.norm z1).norm z2) y2 = m y2 := by rw [norm_ne _ b3, norm_ne _ c6]
  have k5 : ((m.norm z1).norm z2) z1 = normalize (m z1) := by
    by_cases e : z1 = z2
    · subst e; rw [norm_self, norm_self]; exact hz
    · rw [norm_ne _ e, norm_self]
  have k6 : ((m.norm z1).norm z2) z2 = normalize (m z2) := by
    rw [norm_self]
    by_cases e : z2 = z1
    · subst e; rw [norm_self]; exact hz
    · rw [norm_ne _ e]
  have hn : Nrm [x1, y1, z1, x2, y2, z2] m ((m.norm z1).norm z2) :=
    ((Nrm.refl _ m).norm (by simp) hz).norm (by simp) hz2
  generalize (m.norm z1).norm z2 = n at *
  have hj : Idem (n z1) := by rw [k5]; unfold Idem; rw [hz]; exact hz
  have s4 : ∀ n', n' = (((n.norm x1).norm y1).norm x2).norm y2 ∨
      n' = ((((n.norm x1).norm y1).norm x2).norm y2).norm z1 →
      Nrm [x1, y1, z1, x2, y2, z2] m n' ∧
        (⟨n' x2, n' y2, n' z2⟩ : Curve.Jac) = ⟨normalize (m x2), normalize (m y2), normalize (m z2)⟩ := by
    obtain ⟨q1, q2, q3, q4⟩ := norm4 (m := n) a1 b1 c1 c4 (by rw [k1]; exact hx) (by rw [k2]; exact hy)
    have q5 : ((((n.norm x1).norm y1).norm x2).norm y2) z2 = n z2 := by
      rw [norm_ne _ b3.symm, norm_ne _ b2.symm, norm_ne _ c3.symm, norm_ne _ c2.symm]
    have hN := (((hn.norm (p := x1) (by simp) hx).norm (p := y1) (by simp) hy).norm (p := x2)
      (by simp) hx2).norm (p := y2) (by simp) hy2
    generalize (((n.norm x1).norm y1).norm x2).norm y2 = n4 at *
    rintro n' (rfl | rfl)
    · exact ⟨hN, by rw [q3, q4, q5, k3, k4, k6]⟩
    · refine ⟨hN.norm (by simp) hz, ?_⟩
      rw [norm_ne _ c5, norm_ne _ c6, q3, q4, k3, k4]
      by_cases e : z2 = z1
      · subst e; rw [norm_self, q5, k6, hz2]
      · rw [norm_ne _ e, q5, k6]
  simp only [k5, k6]
  by_cases t1 : (equals (normalize (m z1)) Curve.fieldOne && equals (normalize (m z2)) Curve.fieldOne) = true
  · rw [if_pos t1, if_pos t1]
    obtain ⟨m', g1, g2⟩ := add1_eq (m := n) (x1 := x1) (y1 := y1) (z1 := z1) (x2 := x2) (y2 := y2)
      (x3 := x3) (y3 := y3) (z3 := z3) H1 b1 ⟨c1, c4, c5, c6⟩ H3 H13 (by rw [k1]; exact hx) (by rw [k2]; exact hy)
    rw [k1, k2, k3, k4, k5] at g1
    obtain ⟨g3, g4⟩ := s4 m' g2
    exact ⟨m', g1, g3, by rw [add1_snd]; exact g4⟩
  rw [if_neg t1, if_neg t1]
  by_cases t2 : equals (normalize (m z1)) (normalize (m z2)) = true
  · rw [if_pos t2, if_pos t2]
    obtain ⟨m', g1, g2⟩ := add2_eq (m := n) (x1 := x1) (y1 := y1) (z1 := z1) (x2 := x2) (y2 := y2)
      (x3 := x3) (y3 := y3) (z3 := z3) H1 b1 ⟨c1, c4, c5, c6⟩ H3 H13 (by rw [k1]; exact hx)
      (by rw [k2]; exact hy)
    rw [k1, k2, k3, k4, k5] at g1
    obtain ⟨g3, g4⟩ := s4 m' g2
    exact ⟨m', g1, g3, by rw [add2_snd]; exact g4⟩
  rw [if_neg t2, if_neg t2]
  have nz : z1 ≠ z2 := by rintro rfl; exact t2 (equals_self _)
  replace kx := fun e => kx e nz
  replace ky := fun e => ky e nz
  by_cases t3 : equals (normalize (m z2)) Curve.fieldOne = true
  · rw [if_pos t3, if_pos t3]
    obtain ⟨m', g1, g2⟩ := add3_eq (m := n) (x1 := x1) (y1 := y1) (z1 := z1) (x2 := x2) (y2 := y2)
      (x3 := x3) (y3 := y3) (z3 := z3) H1 ⟨c1, c4⟩ H3 H13 (by rw [k1]; exact kx) (by rw [k2]; exact ky)
    rw [k1, k2, k3, k4, k5] at g1
    have q3 : ((n.norm x1).norm y1) x2 = m x2 := by
      rw [norm_ne _ c4]
      by_cases e : x2 = x1
      · subst e; rw [norm_self, k1]; exact (kx rfl).symm
      · rw [norm_ne _ e, k3]
    have q4 : ((n.norm x1).norm y1) y2 = m y2 := by
      by_cases e : y2 = y1
      · subst e; rw [norm_self, norm_ne _ a1.symm, k2]; exact (ky rfl).symm
      · rw [norm_ne _ e, norm_ne _ c1.symm, k4]
    have q5 : ((n.norm x1).norm y1) z2 = n z2 := by
      rw [norm_ne _ c3.symm, norm_ne _ c2.symm]
    have hN := (hn.norm (p := x1) (by simp) hx).norm (p := y1) (by simp) hy
    refine ⟨m', g1, ?_⟩
    generalize (n.norm x1).norm y1 = n2 at *
    rcases g2 with rfl | rfl
    · exact ⟨hN, by rw [q3, q4, q5, k6]⟩
    · refine ⟨hN.norm (by simp) hz, ?_⟩
      rw [norm_ne _ c5, norm_ne _ c6, q3, q4]
      by_cases e : z2 = z1
      · subst e; rw [norm_self, q5, k6, hz2]
      · rw [norm_ne _ e, q5, k6]
  · rw [if_neg t3, if_neg t3]
    obtain ⟨m', g1, g2⟩ := add4_eq (m := n) (x1 := x1) (y1 := y1) (z1 := z1) (x2 := x2) (y2 := y2)
      (z2 := z2) (x3 := x3) (y3 := y3) (z3 := z3) H1 H3 H13 ⟨e5, e6⟩
    rw [k1, k2, k3, k4, k5, k6] at g1
    refine ⟨m', g1, ?_⟩
    rcases g2 with rfl | rfl
    · exact ⟨hn, by rw [k3, k4, k6]⟩
    · refine ⟨hn.norm (by simp) hz, ?_⟩
      rw [norm_ne _ c5, norm_ne _ c6, k3, k4]
      by_cases e : z2 = z1
      · subst e; rw [norm_self, k6, hz2]
      · rw [norm_ne _ e, k6]

end Zk.Heap
