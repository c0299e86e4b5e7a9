import Verif.Heap.Lemmas

/-!
# The loops of scalar multiplication on memory
-/

namespace Zk.Heap

open Zk.Field

theorem normalize_W (f : FieldVal) : Mag (normalize f) 63 := by
  rw [Field.normalize]
  generalize normPass1 f = t
  generalize normM t = m
  unfold normPass2
  extract_lets a0 a1 a2 a3 a4 a5 a6 a7 a8 a9 b0 b1 c0 b2 c1 b3 c2 b4 c3 b5 c4 b6 c5 b7 c6 b8 c7 b9 c8 c9
  constructor <;> simp only
  · have : c0.toNat = _ := toNat_mask32 _
    rw [this]; have := Nat.mod_lt b0.toNat (show 2 ^ 26 > 0 by decide); omega
  · have : c1.toNat = _ := toNat_mask32 _
    rw [this]; have := Nat.mod_lt b1.toNat (show 2 ^ 26 > 0 by decide); omega
  · have : c2.toNat = _ := toNat_mask32 _
    rw [this]; have := Nat.mod_lt b2.toNat (show 2 ^ 26 > 0 by decide); omega
  · have : c3.toNat = _ := toNat_mask32 _
    rw [this]; have := Nat.mod_lt b3.toNat (show 2 ^ 26 > 0 by decide); omega
  · have : c4.toNat = _ := toNat_mask32 _
    rw [this]; have := Nat.mod_lt b4.toNat (show 2 ^ 26 > 0 by decide); omega
  · have : c5.toNat = _ := toNat_mask32 _
    rw [this]; have := Nat.mod_lt b5.toNat (show 2 ^ 26 > 0 by decide); omega
  · have : c6.toNat = _ := toNat_mask32 _
    rw [this]; have := Nat.mod_lt b6.toNat (show 2 ^ 26 > 0 by decide); omega
  · have : c7.toNat = _ := toNat_mask32 _
    rw [this]; have := Nat.mod_lt b7.toNat (show 2 ^ 26 > 0 by decide); omega
  · have : c8.toNat = _ := toNat_mask32 _
    rw [this]; have := Nat.mod_lt b8.toNat (show 2 ^ 26 > 0 by decide); omega
  · have : c9.toNat = _ := toNat_msb32 _
    rw [this]; have := Nat.mod_lt b9.toNat (show 2 ^ 22 > 0 by decide); omega

theorem mask_W (x : UInt64) : (x &&& fieldBaseMask64).toUInt32.toNat ≤ 63 * (2 ^ 26 + 2 ^ 20) := by
  rw [UInt64.toNat_toUInt32, toNat_mask64]
  omega

theorem reduceTerms_W (t0 t1 t2 t3 t4 t5 t6 t7 t8 t9 t10 t11 t12 t13 t14 t15 t16 t17 t18 t19 : UInt64) :
    Mag (reduceTerms t0 t1 t2 t3 t4 t5 t6 t7 t8 t9 t10 t11 t12 t13 t14 t15 t16 t17 t18 t19) 63 := by
  unfold reduceTerms
  extract_lets m0 s0 m1 s1 m2 s2 m3 s3 m4 s4 m5 s5 m6 s6 m7 s7 m8 s8 m9 s9 m10 d r0 d1 r1 r2
  have e2 : s2.toNat = _ := toNat_mask64 _
  have e1 : s1.toNat = _ := toNat_mask64 _
  have e0 : s0.toNat = _ := toNat_mask64 _
  have e10 : m10.toNat = _ := toNat_shr22 _
  have h10 := m9.toNat_lt
  constructor <;> simp only
  · exact mask_W _
  · exact mask_W _
  · have : r2.toNat = ((d1 >>> 26) + s2).toNat % 2 ^ 32 := UInt64.toNat_toUInt32 _
    rw [this, UInt64.toNat_add, toNat_shr26]
    have h : d1.toNat = ((d.toNat / 2 ^ 26 + s1.toNat) % 2 ^ 64 + m10.toNat * 64 % 2 ^ 64) % 2 ^ 64 := by
      change ((d >>> 26) + s1 + m10 * 64).toNat = _
      rw [UInt64.toNat_add, UInt64.toNat_add, toNat_shr26, UInt64.toNat_mul,
        show (64 : UInt64).toNat = 64 from rfl]
    have hd := d.toNat_lt
    clear_value d d1 s2 s1 m10
    clear * - h e2 e1 e10 h10 hd
    omega
  · exact mask_W _
  · exact mask_W _
  · exact mask_W _
  · exact mask_W _
  · exact mask_W _
  · exact mask_W _
  · rw [UInt64.toNat_toUInt32, toNat_msb64]; omega

theorem mul2_W (a b : FieldVal) : Mag (mul2 a b) 63 := by
  unfold mul2
  extract_lets
  exact reduceTerms_W ..

/-- Each coordinate is within the range where normalising works.  See btcec/btcec.go:761-861. -/
def JW (p : Curve.Jac) : Prop := Mag p.x 63 ∧ Mag p.y 63 ∧ Mag p.z 63

theorem inf_JW : JW Curve.infJac := by
  refine ⟨?_, ?_, ?_⟩ <;> constructor <;> decide

theorem double_JW (p : Curve.Jac) : JW (Curve.doubleJacobian p) := by
  rw [Curve.doubleJacobian]
  split_ifs
  · exact inf_JW
  · simp only
    split_ifs
    · exact ⟨normalize_W _, normalize_W _, normalize_W _⟩
    · exact ⟨normalize_W _, normalize_W _, normalize_W _⟩

theorem add1_JW (x1 y1 z1 x2 y2 : FieldVal) : JW (Curve.addZ1AndZ2EqualsOne x1 y1 z1 x2 y2).1 := by
  rw [Curve.addZ1AndZ2EqualsOne]
  simp only
  split_ifs
  · exact double_JW _
  · exact inf_JW
  · exact ⟨normalize_W _, normalize_W _, normalize_W _⟩

theorem add2_JW (x1 y1 z1 x2 y2 : FieldVal) : JW (Curve.addZ1EqualsZ2 x1 y1 z1 x2 y2).1 := by
  rw [Curve.addZ1EqualsZ2]
  simp only
  split_ifs
  · exact double_JW _
  · exact inf_JW
  · exact ⟨normalize_W _, normalize_W _, mul2_W _ _⟩

theorem add3_JW (x1 y1 z1 x2 y2 : FieldVal) : JW (Curve.addZ2EqualsOne x1 y1 z1 x2 y2) := by
  rw [Curve.addZ2EqualsOne]
  simp only
  split_ifs
  · exact double_JW _
  · exact inf_JW
  · exact ⟨normalize_W _, normalize_W _, normalize_W _⟩

theorem add4_JW (x1 y1 z1 x2 y2 z2 : FieldVal) : JW (Curve.addGeneric x1 y1 z1 x2 y2 z2) := by
  rw [Curve.addGeneric]
  simp only
  split_ifs
  · exact double_JW _
  · exact inf_JW
  · exact ⟨normalize_W _, normalize_W _, mul2_W _ _⟩

theorem add_JW {p q : Curve.Jac} (hp : JW p) (hq : JW q) :
    JW (Curve.addJacobian p q).1 ∧ JW (Curve.addJacobian p q).2 := by
  rw [Curve.addJacobian]
  simp only
  split_ifs
  · exact ⟨hq, hq⟩
  · exact ⟨hp, hq⟩
  · exact ⟨add1_JW .., by rw [add1_snd]; exact ⟨normalize_W _, normalize_W _, normalize_W _⟩⟩
  · exact ⟨add2_JW .., by rw [add2_snd]; exact ⟨normalize_W _, normalize_W _, normalize_W _⟩⟩
  · exact ⟨add3_JW .., hq.1, hq.2.1, normalize_W _⟩
  · exact ⟨add4_JW .., hq.1, hq.2.1, normalize_W _⟩

/-- An addition `q = q + p` with all six addresses distinct. -/
theorem add_step {m : Mem} {q p : Pt} (hn : [q.x, q.y, q.z, p.x, p.y, p.z].Nodup) (hq : JW (m.pt q))
    (hp : JW (m.pt p)) :
    (addJacobian m q p q).pt q = (Curve.addJacobian (m.pt q) (m.pt p)).1 ∧
      (addJacobian m q p q).pt p = (Curve.addJacobian (m.pt q) (m.pt p)).2 ∧
      ∀ a, a ∉ [q.x, q.y, q.z, p.x, p.y, p.z] → addJacobian m q p q a = m a := by
  obtain ⟨qx, qy, qz⟩ := q
  obtain ⟨px, py, pz⟩ := p
  simp only [List.nodup_cons, List.mem_cons, List.not_mem_nil, or_false, not_or, not_false_eq_true,
    List.nodup_nil, and_true] at hn
  obtain ⟨⟨a1, a2, a3, a4, a5⟩, ⟨b1, b2, b3, b4⟩, ⟨c1, c2, c3⟩, ⟨d1, d2⟩, e1⟩ := hn
  obtain ⟨m', g1, g2, g3⟩ := add_eq (m := m) (p1 := ⟨qx, qy, qz⟩) (p2 := ⟨px, py, pz⟩) (p3 := ⟨qx, qy, qz⟩)
    ⟨a1, a2, b1, a1, a2, b1⟩ ⟨d1, d2, e1, d1, d2, e1⟩ ⟨a1, a2, b1, a1, a2, b1⟩
    ⟨a4, a5, b4, Ne.symm b2, Ne.symm c1, Ne.symm c2⟩ ⟨a1, a2, b1, a1, a2, b1⟩
    ⟨Ne.symm b2, Ne.symm c1, Ne.symm c2, a4, a5, b4⟩
    (idem_of hq.1) (idem_of hq.2.1) (idem_of hq.2.2) (idem_of hp.1) (idem_of hp.2.1) (idem_of hp.2.2)
    (fun e _ => absurd e a3) (fun e _ => absurd e b3)
  rw [g1]
  generalize Curve.addJacobian (m.pt ⟨qx, qy, qz⟩) (m.pt ⟨px, py, pz⟩) = r at *
  refine ⟨?_, ?_, ?_⟩
  · simp only [Mem.pt, Mem.put, set_self, set_ne _ _ a1, set_ne _ _ a2, set_ne _ _ b1]
  · rw [← g3]
    simp only [Mem.pt, Mem.put, set_ne _ _ (Ne.symm a3), set_ne _ _ (Ne.symm a4), set_ne _ _ (Ne.symm a5),
      set_ne _ _ (Ne.symm b2), set_ne _ _ (Ne.symm b3), set_ne _ _ (Ne.symm b4), set_ne _ _ (Ne.symm c1),
      set_ne _ _ (Ne.symm c2), set_ne _ _ (Ne.symm c3)]
  · intro a ha
    simp only [List.mem_cons, List.not_mem_nil, or_false, not_or] at ha
    obtain ⟨f1, f2, f3, f4, f5, f6⟩ := ha
    simp only [Mem.put, set_ne _ _ f1, set_ne _ _ f2, set_ne _ _ f3]
    rcases g2 a with h | ⟨h, -⟩
    · exact h
    · simp only [List.mem_cons, List.not_mem_nil, or_false] at h
      simp_all

/-- A doubling in place. -/
theorem double_step {m : Mem} {q : Pt} (h1 : q.x ≠ q.y) (h2 : q.x ≠ q.z) (h3 : q.y ≠ q.z) :
    (doubleJacobian m q q).pt q = Curve.doubleJacobian (m.pt q) ∧
      ∀ a, a ∉ [q.x, q.y, q.z] → doubleJacobian m q q a = m a := by
  obtain ⟨m', g1, g2⟩ := double_eq (m := m) (p1 := q) (p3 := q) ⟨h1, h2, h3, h1, h2, h3⟩
    ⟨h1, h2, h3, h1, h2, h3⟩ ⟨h1, h2, h3, h1, h2, h3⟩
  rw [g1]
  generalize Curve.doubleJacobian (m.pt q) = r
  refine ⟨?_, ?_⟩
  · simp only [Mem.pt, Mem.put, set_self, set_ne _ _ h1, set_ne _ _ h2, set_ne _ _ h3]
  · intro a ha
    simp only [List.mem_cons, List.not_mem_nil, or_false, not_or] at ha
    obtain ⟨f1, f2, f3⟩ := ha
    simp only [Mem.put, set_ne _ _ f1, set_ne _ _ f2, set_ne _ _ f3]
    rcases g2 with rfl | rfl
    · rfl
    · exact norm_ne _ f3

/-- The addresses of `ScalarMult`.  See btcec/btcec.go:761-861. -/
def SmPtrs.all (s : SmPtrs) : List Ptr :=
  [s.q.x, s.q.y, s.q.z, s.p1x, s.p1y, s.p1yNeg, s.p1z, s.p2x, s.p2y, s.p2yNeg, s.p2z]

/-- The memory holds the variables of the loop.  See btcec/btcec.go:761-861. -/
structure Holds (p : SmPtrs) (m : Mem) (s : Curve.SmState) : Prop where
  q : m.pt p.q = s.q
  p1x : m p.p1x = s.p1x
  p1y : m p.p1y = s.p1y
  p1yNeg : m p.p1yNeg = s.p1yNeg
  p1z : m p.p1z = s.p1z
  p2x : m p.p2x = s.p2x
  p2y : m p.p2y = s.p2y
  p2yNeg : m p.p2yNeg = s.p2yNeg
  p2z : m p.p2z = s.p2z
  w : JW s.q
  w1 : Mag s.p1x 63 ∧ Mag s.p1y 63 ∧ Mag s.p1yNeg 63 ∧ Mag s.p1z 63
  w2 : Mag s.p2x 63 ∧ Mag s.p2y 63 ∧ Mag s.p2yNeg 63 ∧ Mag s.p2z 63

section

variable {qx qy qz p1x p1y p1yN p1z p2x p2y p2yN p2z : Ptr} {m : Mem} {s : Curve.SmState}

theorem holds_double (hn : [qx, qy, qz, p1x, p1y, p1yN, p1z, p2x, p2y, p2yN, p2z].Nodup)
    (h : Holds ⟨⟨qx, qy, qz⟩, p1x, p1y, p1yN, p1z, p2x, p2y, p2yN, p2z⟩ m s) :
    Holds ⟨⟨qx, qy, qz⟩, p1x, p1y, p1yN, p1z, p2x, p2y, p2yN, p2z⟩
      (doubleJacobian m ⟨qx, qy, qz⟩ ⟨qx, qy, qz⟩) { s with q := Curve.doubleJacobian s.q } ∧
      ∀ x, x ∉ [qx, qy, qz, p1x, p1y, p1yN, p1z, p2x, p2y, p2yN, p2z] →
        doubleJacobian m ⟨qx, qy, qz⟩ ⟨qx, qy, qz⟩ x = m x := by
  obtain ⟨g1, g2⟩ := double_step (m := m) (q := ⟨qx, qy, qz⟩) (by simp_all) (by simp_all) (by simp_all)
  generalize doubleJacobian m ⟨qx, qy, qz⟩ ⟨qx, qy, qz⟩ = m' at *
  rw [h.q] at g1
  refine ⟨⟨g1, ?_, ?_, ?_, ?_, ?_, ?_, ?_, ?_, double_JW _, h.w1, h.w2⟩, fun x hx => g2 x (by simp_all)⟩
  · rw [← h.p1x]; exact g2 _ (by simp_all [eq_comm])
  · rw [← h.p1y]; exact g2 _ (by simp_all [eq_comm])
  · rw [← h.p1yNeg]; exact g2 _ (by simp_all [eq_comm])
  · rw [← h.p1z]; exact g2 _ (by simp_all [eq_comm])
  · rw [← h.p2x]; exact g2 _ (by simp_all [eq_comm])
  · rw [← h.p2y]; exact g2 _ (by simp_all [eq_comm])
  · rw [← h.p2yNeg]; exact g2 _ (by simp_all [eq_comm])
  · rw [← h.p2z]; exact g2 _ (by simp_all [eq_comm])

theorem holds_add1p (hn : [qx, qy, qz, p1x, p1y, p1yN, p1z, p2x, p2y, p2yN, p2z].Nodup)
    (h : Holds ⟨⟨qx, qy, qz⟩, p1x, p1y, p1yN, p1z, p2x, p2y, p2yN, p2z⟩ m s) :
    Holds ⟨⟨qx, qy, qz⟩, p1x, p1y, p1yN, p1z, p2x, p2y, p2yN, p2z⟩
      (addJacobian m ⟨qx, qy, qz⟩ ⟨p1x, p1y, p1z⟩ ⟨qx, qy, qz⟩)
      { s with
        q := (Curve.addJacobian s.q ⟨s.p1x, s.p1y, s.p1z⟩).1
        p1x := (Curve.addJacobian s.q ⟨s.p1x, s.p1y, s.p1z⟩).2.x
        p1y := (Curve.addJacobian s.q ⟨s.p1x, s.p1y, s.p1z⟩).2.y
        p1z := (Curve.addJacobian s.q ⟨s.p1x, s.p1y, s.p1z⟩).2.z } ∧
      ∀ x, x ∉ [qx, qy, qz, p1x, p1y, p1yN, p1z, p2x, p2y, p2yN, p2z] →
        addJacobian m ⟨qx, qy, qz⟩ ⟨p1x, p1y, p1z⟩ ⟨qx, qy, qz⟩ x = m x := by
  have hp : m.pt ⟨p1x, p1y, p1z⟩ = ⟨s.p1x, s.p1y, s.p1z⟩ := by
    rw [Mem.pt]; simp only; rw [h.p1x, h.p1y, h.p1z]
  obtain ⟨g1, g2, g3⟩ := add_step (m := m) (q := ⟨qx, qy, qz⟩) (p := ⟨p1x, p1y, p1z⟩) (by simp_all)
    (by rw [h.q]; exact h.w) (by rw [hp]; exact ⟨h.w1.1, h.w1.2.1, h.w1.2.2.2⟩)
  obtain ⟨k1, k2⟩ := add_JW h.w (q := ⟨s.p1x, s.p1y, s.p1z⟩) ⟨h.w1.1, h.w1.2.1, h.w1.2.2.2⟩
  rw [h.q, hp] at g1 g2
  generalize addJacobian m ⟨qx, qy, qz⟩ ⟨p1x, p1y, p1z⟩ ⟨qx, qy, qz⟩ = m' at *
  generalize Curve.addJacobian s.q ⟨s.p1x, s.p1y, s.p1z⟩ = r at *
  have e1 : m' p1x = r.2.x := congrArg Curve.Jac.x g2
  have e2 : m' p1y = r.2.y := congrArg Curve.Jac.y g2
  have e3 : m' p1z = r.2.z := congrArg Curve.Jac.z g2
  refine ⟨⟨g1, e1, e2, ?_, e3, ?_, ?_, ?_, ?_, k1, ⟨k2.1, k2.2.1, h.w1.2.2.1, k2.2.2⟩, h.w2⟩, fun x hx => g3 x (by simp_all)⟩
  · rw [← h.p1yNeg]; exact g3 _ (by simp_all [eq_comm])
  · rw [← h.p2x]; exact g3 _ (by simp_all [eq_comm])
  · rw [← h.p2y]; exact g3 _ (by simp_all [eq_comm])
  · rw [← h.p2yNeg]; exact g3 _ (by simp_all [eq_comm])
  · rw [← h.p2z]; exact g3 _ (by simp_all [eq_comm])

theorem holds_add1n (hn : [qx, qy, qz, p1x, p1y, p1yN, p1z, p2x, p2y, p2yN, p2z].Nodup)
    (h : Holds ⟨⟨qx, qy, qz⟩, p1x, p1y, p1yN, p1z, p2x, p2y, p2yN, p2z⟩ m s) :
    Holds ⟨⟨qx, qy, qz⟩, p1x, p1y, p1yN, p1z, p2x, p2y, p2yN, p2z⟩
      (addJacobian m ⟨qx, qy, qz⟩ ⟨p1x, p1yN, p1z⟩ ⟨qx, qy, qz⟩)
      { s with
        q := (Curve.addJacobian s.q ⟨s.p1x, s.p1yNeg, s.p1z⟩).1
        p1x := (Curve.addJacobian s.q ⟨s.p1x, s.p1yNeg, s.p1z⟩).2.x
        p1yNeg := (Curve.addJacobian s.q ⟨s.p1x, s.p1yNeg, s.p1z⟩).2.y
        p1z := (Curve.addJacobian s.q ⟨s.p1x, s.p1yNeg, s.p1z⟩).2.z } ∧
      ∀ x, x ∉ [qx, qy, qz, p1x, p1y, p1yN, p1z, p2x, p2y, p2yN, p2z] →
        addJacobian m ⟨qx, qy, qz⟩ ⟨p1x, p1yN, p1z⟩ ⟨qx, qy, qz⟩ x = m x := by
  have hp : m.pt ⟨p1x, p1yN, p1z⟩ = ⟨s.p1x, s.p1yNeg, s.p1z⟩ := by
    rw [Mem.pt]; simp only; rw [h.p1x, h.p1yNeg, h.p1z]
  obtain ⟨g1, g2, g3⟩ := add_step (m := m) (q := ⟨qx, qy, qz⟩) (p := ⟨p1x, p1yN, p1z⟩) (by simp_all)
    (by rw [h.q]; exact h.w) (by rw [hp]; exact ⟨h.w1.1, h.w1.2.2.1, h.w1.2.2.2⟩)
  obtain ⟨k1, k2⟩ := add_JW h.w (q := ⟨s.p1x, s.p1yNeg, s.p1z⟩) ⟨h.w1.1, h.w1.2.2.1, h.w1.2.2.2⟩
  rw [h.q, hp] at g1 g2
  generalize addJacobian m ⟨qx, qy, qz⟩ ⟨p1x, p1yN, p1z⟩ ⟨qx, qy, qz⟩ = m' at *
  generalize Curve.addJacobian s.q ⟨s.p1x, s.p1yNeg, s.p1z⟩ = r at *
  have e1 : m' p1x = r.2.x := congrArg Curve.Jac.x g2
  have e2 : m' p1yN = r.2.y := congrArg Curve.Jac.y g2
  have e3 : m' p1z = r.2.z := congrArg Curve.Jac.z g2
  refine ⟨⟨g1, e1, ?_, e2, e3, ?_, ?_, ?_, ?_, k1, ⟨k2.1, h.w1.2.1, k2.2.1, k2.2.2⟩, h.w2⟩, fun x hx => g3 x (by simp_all)⟩
  · rw [← h.p1y]; exact g3 _ (by simp_all [eq_comm])
  · rw [← h.p2x]; exact g3 _ (by simp_all [eq_comm])
  · rw [← h.p2y]; exact g3 _ (by simp_all [eq_comm])
  · rw [← h.p2yNeg]; exact g3 _ (by simp_all [eq_comm])
  · rw [← h.p2z]; exact g3 _ (by simp_all [eq_comm])

theorem holds_add2p (hn : [qx, qy, qz, p1x, p1y, p1yN, p1z, p2x, p2y, p2yN, p2z].Nodup)
    (h : Holds ⟨⟨qx, qy, qz⟩, p1x, p1y, p1yN, p1z, p2x, p2y, p2yN, p2z⟩ m s) :
    Holds ⟨⟨qx, qy, qz⟩, p1x, p1y, p1yN, p1z, p2x, p2y, p2yN, p2z⟩
      (addJacobian m ⟨qx, qy, qz⟩ ⟨p2x, p2y, p2z⟩ ⟨qx, qy, qz⟩)
      { s with
        q := (Curve.addJacobian s.q ⟨s.p2x, s.p2y, s.p2z⟩).1
        p2x := (Curve.addJacobian s.q ⟨s.p2x, s.p2y, s.p2z⟩).2.x
        p2y := (Curve.addJacobian s.q ⟨s.p2x, s.p2y, s.p2z⟩).2.y
        p2z := (Curve.addJacobian s.q ⟨s.p2x, s.p2y, s.p2z⟩).2.z } ∧
      ∀ x, x ∉ [qx, qy, qz, p1x, p1y, p1yN, p1z, p2x, p2y, p2yN, p2z] →
        addJacobian m ⟨qx, qy, qz⟩ ⟨p2x, p2y, p2z⟩ ⟨qx, qy, qz⟩ x = m x := by
  have hp : m.pt ⟨p2x, p2y, p2z⟩ = ⟨s.p2x, s.p2y, s.p2z⟩ := by
    rw [Mem.pt]; simp only; rw [h.p2x, h.p2y, h.p2z]
  obtain ⟨g1, g2, g3⟩ := add_step (m := m) (q := ⟨qx, qy, qz⟩) (p := ⟨p2x, p2y, p2z⟩) (by simp_all)
    (by rw [h.q]; exact h.w) (by rw [hp]; exact ⟨h.w2.1, h.w2.2.1, h.w2.2.2.2⟩)
  obtain ⟨k1, k2⟩ := add_JW h.w (q := ⟨s.p2x, s.p2y, s.p2z⟩) ⟨h.w2.1, h.w2.2.1, h.w2.2.2.2⟩
  rw [h.q, hp] at g1 g2
  generalize addJacobian m ⟨qx, qy, qz⟩ ⟨p2x, p2y, p2z⟩ ⟨qx, qy, qz⟩ = m' at *
  generalize Curve.addJacobian s.q ⟨s.p2x, s.p2y, s.p2z⟩ = r at *
  have e1 : m' p2x = r.2.x := congrArg Curve.Jac.x g2
  have e2 : m' p2y = r.2.y := congrArg Curve.Jac.y g2
  have e3 : m' p2z = r.2.z := congrArg Curve.Jac.z g2
  refine ⟨⟨g1, ?_, ?_, ?_, ?_, e1, e2, ?_, e3, k1, h.w1, ⟨k2.1, k2.2.1, h.w2.2.2.1, k2.2.2⟩⟩, fun x hx => g3 x (by simp_all)⟩
  · rw [← h.p1x]; exact g3 _ (by simp_all [eq_comm])
  · rw [← h.p1y]; exact g3 _ (by simp_all [eq_comm])
  · rw [← h.p1yNeg]; exact g3 _ (by simp_all [eq_comm])
  · rw [← h.p1z]; exact g3 _ (by simp_all [eq_comm])
  · rw [← h.p2yNeg]; exact g3 _ (by simp_all [eq_comm])

theorem holds_add2n (hn : [qx, qy, qz, p1x, p1y, p1yN, p1z, p2x, p2y, p2yN, p2z].Nodup)
    (h : Holds ⟨⟨qx, qy, qz⟩, p1x, p1y, p1yN, p1z, p2x, p2y, p2yN, p2z⟩ m s) :
    Holds ⟨⟨qx, qy, qz⟩, p1x, p1y, p1yN, p1z, p2x, p2y, p2yN, p2z⟩
      (addJacobian m ⟨qx, qy, qz⟩ ⟨p2x, p2yN, p2z⟩ ⟨qx, qy, qz⟩)
      { s with
        q := (Curve.addJacobian s.q ⟨s.p2x, s.p2yNeg, s.p2z⟩).1
        p2x := (Curve.addJacobian s.q ⟨s.p2x, s.p2yNeg, s.p2z⟩).2.x
        p2yNeg := (Curve.addJacobian s.q ⟨s.p2x, s.p2yNeg, s.p2z⟩).2.y
        p2z := (Curve.addJacobian s.q ⟨s.p2x, s.p2yNeg, s.p2z⟩).2.z } ∧
      ∀ x, x ∉ [qx, qy, qz, p1x, p1y, p1yN, p1z, p2x, p2y, p2yN, p2z] →
        addJacobian m ⟨qx, qy, qz⟩ ⟨p2x, p2yN, p2z⟩ ⟨qx, qy, qz⟩ x = m x := by
  have hp : m.pt ⟨p2x, p2yN, p2z⟩ = ⟨s.p2x, s.p2yNeg, s.p2z⟩ := by
    rw [Mem.pt]; simp only; rw [h.p2x, h.p2yNeg, h.p2z]
  obtain ⟨g1, g2, g3⟩ := add_step (m := m) (q := ⟨qx, qy, qz⟩) (p := ⟨p2x, p2yN, p2z⟩) (by simp_all)
    (by rw [h.q]; exact h.w) (by rw [hp]; exact ⟨h.w2.1, h.w2.2.2.1, h.w2.2.2.2⟩)
  obtain ⟨k1, k2⟩ := add_JW h.w (q := ⟨s.p2x, s.p2yNeg, s.p2z⟩) ⟨h.w2.1, h.w2.2.2.1, h.w2.2.2.2⟩
  rw [h.q, hp] at g1 g2
  generalize addJacobian m ⟨qx, qy, qz⟩ ⟨p2x, p2yN, p2z⟩ ⟨qx, qy, qz⟩ = m' at *
  generalize Curve.addJacobian s.q ⟨s.p2x, s.p2yNeg, s.p2z⟩ = r at *
  have e1 : m' p2x = r.2.x := congrArg Curve.Jac.x g2
  have e2 : m' p2yN = r.2.y := congrArg Curve.Jac.y g2
  have e3 : m' p2z = r.2.z := congrArg Curve.Jac.z g2
  refine ⟨⟨g1, ?_, ?_, ?_, ?_, e1, ?_, e2, e3, k1, h.w1, ⟨k2.1, h.w2.2.1, k2.2.1, k2.2.2⟩⟩, fun x hx => g3 x (by simp_all)⟩
  · rw [← h.p1x]; exact g3 _ (by simp_all [eq_comm])
  · rw [← h.p1y]; exact g3 _ (by simp_all [eq_comm])
  · rw [← h.p1yNeg]; exact g3 _ (by simp_all [eq_comm])
  · rw [← h.p1z]; exact g3 _ (by simp_all [eq_comm])
  · rw [← h.p2y]; exact g3 _ (by simp_all [eq_comm])

end

theorem smBit_holds {p : SmPtrs} (hn : p.all.Nodup) {m : Mem} {s : Curve.SmState} (h : Holds p m s)
    (a b c d : UInt8) :
    Holds p (smBit p m a b c d) (Curve.smBit s a b c d) ∧ ∀ x, x ∉ p.all → smBit p m a b c d x = m x := by
  obtain ⟨⟨qx, qy, qz⟩, p1x, p1y, p1yN, p1z, p2x, p2y, p2yN, p2z⟩ := p
  simp only [SmPtrs.all] at hn ⊢
  rw [smBit, Curve.smBit]
  simp only
  obtain ⟨hD, fD⟩ := holds_double hn h
  generalize doubleJacobian m ⟨qx, qy, qz⟩ ⟨qx, qy, qz⟩ = m1 at *
  generalize { s with q := Curve.doubleJacobian s.q } = s1 at *
  have key : ∀ m' s', Holds ⟨⟨qx, qy, qz⟩, p1x, p1y, p1yN, p1z, p2x, p2y, p2yN, p2z⟩ m' s' →
      (∀ x, x ∉ [qx, qy, qz, p1x, p1y, p1yN, p1z, p2x, p2y, p2yN, p2z] → m' x = m x) →
      Holds ⟨⟨qx, qy, qz⟩, p1x, p1y, p1yN, p1z, p2x, p2y, p2yN, p2z⟩ (if c &&& 0x80 = 0x80 then addJacobian m' ⟨qx, qy, qz⟩ ⟨p2x, p2y, p2z⟩ ⟨qx, qy, qz⟩
        else if d &&& 0x80 = 0x80 then addJacobian m' ⟨qx, qy, qz⟩ ⟨p2x, p2yN, p2z⟩ ⟨qx, qy, qz⟩
        else m') (Curve.smAdd2 s' c d) ∧ (∀ x, x ∉ [qx, qy, qz, p1x, p1y, p1yN, p1z, p2x, p2y, p2yN, p2z] →
        (if c &&& 0x80 = 0x80 then addJacobian m' ⟨qx, qy, qz⟩ ⟨p2x, p2y, p2z⟩ ⟨qx, qy, qz⟩
        else if d &&& 0x80 = 0x80 then addJacobian m' ⟨qx, qy, qz⟩ ⟨p2x, p2yN, p2z⟩ ⟨qx, qy, qz⟩
        else m') x = m x) := by
    intro m' s' h' f'
    rw [Curve.smAdd2]
    split_ifs
    · obtain ⟨g1, g2⟩ := holds_add2p hn h'
      exact ⟨g1, fun x hx => (g2 x hx).trans (f' x hx)⟩
    · obtain ⟨g1, g2⟩ := holds_add2n hn h'
      exact ⟨g1, fun x hx => (g2 x hx).trans (f' x hx)⟩
    · exact ⟨h', f'⟩
  rw [Curve.smAdd1]
  apply key
  all_goals split_ifs
  · exact (holds_add1p hn hD).1
  · exact (holds_add1n hn hD).1
  · exact hD
  · exact fun x hx => ((holds_add1p hn hD).2 x hx).trans (fD x hx)
  · exact fun x hx => ((holds_add1n hn hD).2 x hx).trans (fD x hx)
  · exact fD

theorem smByte_holds {p : SmPtrs} (hn : p.all.Nodup) : ∀ (n : ℕ) {m : Mem} {s : Curve.SmState},
    Holds p m s → ∀ a b c d : UInt8, Holds p (smByte p n m a b c d) (Curve.smByte n s a b c d) ∧
      ∀ x, x ∉ p.all → smByte p n m a b c d x = m x
  | 0, _, _, h, _, _, _, _ => ⟨h, fun _ _ => rfl⟩
  | n + 1, m, s, h, a, b, c, d => by
    obtain ⟨g1, g2⟩ := smBit_holds hn h a b c d
    obtain ⟨g3, g4⟩ := smByte_holds hn n g1 (a <<< 1) (b <<< 1) (c <<< 1) (d <<< 1)
    exact ⟨g3, fun x hx => (g4 x hx).trans (g2 x hx)⟩

theorem smLoop_holds {p : SmPtrs} (hn : p.all.Nodup) (k1 l1 k2 l2 : Bytes) (n : ℕ) :
    ∀ (is : List ℕ) {m : Mem} {s : Curve.SmState}, Holds p m s →
      match is.foldlM (Curve.smLoop k1 l1 k2 l2 n) s with
      | .ok s' => ∃ m', is.foldlM (smLoop p k1 l1 k2 l2 n) m = .ok m' ∧ Holds p m' s' ∧
          ∀ x, x ∉ p.all → m' x = m x
      | .panic => is.foldlM (smLoop p k1 l1 k2 l2 n) m = .panic
  | [], m, s, h => ⟨m, rfl, h, fun _ _ => rfl⟩
  | i :: is, m, s, h => by
    rw [List.foldlM_cons, List.foldlM_cons, smLoop, Curve.smLoop]
    cases Curve.byteAt k1.length n i k1 with
    | panic => rfl
    | ok a =>
      cases Curve.byteAt k1.length n i l1 with
      | panic => rfl
      | ok b =>
        cases Curve.byteAt k2.length n i k2 with
        | panic => rfl
        | ok c =>
          cases Curve.byteAt k2.length n i l2 with
          | panic => rfl
          | ok d =>
            obtain ⟨g1, g2⟩ := smByte_holds hn 8 h a b c d
            have ih := smLoop_holds hn k1 l1 k2 l2 n is g1
            simp only [Go.bind_ok, Go.pure_eq] at ih ⊢
            revert ih
            cases is.foldlM (Curve.smLoop k1 l1 k2 l2 n) (Curve.smByte 8 s a b c d) with
            | panic => exact id
            | ok s' =>
              rintro ⟨m', e1, e2, e3⟩
              exact ⟨m', e1, e2, fun x hx => (e3 x hx).trans (g2 x hx)⟩

theorem toAffine_eq (m : Mem) {p : Pt} (h1 : p.x ≠ p.y) (h2 : p.x ≠ p.z) (h3 : p.y ≠ p.z) :
    (fieldJacobianToBigAffine m p).1 = Curve.fieldJacobianToBigAffine (m.pt p) ∧
      ∀ a, a ∉ [p.x, p.y, p.z] → (fieldJacobianToBigAffine m p).2 a = m a := by
  rw [fieldJacobianToBigAffine, Curve.fieldJacobianToBigAffine]
  refine ⟨?_, ?_⟩
  · simp only [Mem.pt, norm_self, norm_ne _ h1, set_self, set_ne _ _ h1, set_ne _ _ h1.symm, set_ne _ _ h2,
      set_ne _ _ h3, norm_ne _ h1.symm]
  · intro a ha
    simp only [List.mem_cons, List.not_mem_nil, or_false, not_or] at ha
    obtain ⟨f1, f2, f3⟩ := ha
    simp only [norm_ne _ f1, norm_ne _ f2, set_ne _ _ f1, set_ne _ _ f2, set_ne _ _ f3]

end Zk.Heap
