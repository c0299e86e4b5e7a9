import Verif.Heap.Loops

/-!
# Scalar multiplication on memory
-/

namespace Zk.Heap

open Zk.Field

/-- A result together with a memory that agrees with `m` outside `S`.
See btcec/btcec.go:866-883. -/
def Frames {α : Type} (m : Mem) (S : Ptr → Prop) (r : Go α) (r' : Go (α × Mem)) : Prop :=
  match r with
  | .ok v => ∃ m', r' = .ok (v, m') ∧ ∀ a, ¬ S a → m' a = m a
  | .panic => r' = .panic

theorem setByteSlice_W {b : Bytes} {f : FieldVal} (h : setByteSlice b = .ok f) : Mag f 1 := by
  by_cases hl : b.length ≤ 32
  · obtain ⟨g, h1, h2, -⟩ := setByteSlice_ok hl
    rw [h] at h1
    cases h1
    exact h2.mag
  · rw [setByteSlice_panic (by omega)] at h
    cases h

theorem smInit_eq (m : Mem) {base betaPtr : Ptr} (hp : betaPtr < base ∨ base + 11 ≤ betaPtr)
    (x y : FieldVal) :
    smInit m base betaPtr x y base = zero ∧ smInit m base betaPtr x y (base + 1) = zero ∧
    smInit m base betaPtr x y (base + 2) = zero ∧ smInit m base betaPtr x y (base + 3) = x ∧
    smInit m base betaPtr x y (base + 4) = y ∧ smInit m base betaPtr x y (base + 5) = negateVal y 1 ∧
    smInit m base betaPtr x y (base + 6) = setInt 1 ∧
    smInit m base betaPtr x y (base + 7) = mul2 x (m betaPtr) ∧
    smInit m base betaPtr x y (base + 8) = y ∧ smInit m base betaPtr x y (base + 9) = negateVal y 1 ∧
    smInit m base betaPtr x y (base + 10) = setInt 1 ∧
    ∀ a, ¬ (base ≤ a ∧ a < base + 11) → smInit m base betaPtr x y a = m a := by
  have n0 : ∀ i : ℕ, i < 11 → (betaPtr = base + i) = False := fun i hi => eq_false (by simp only [Ptr] at *; omega)
  have n1 : (betaPtr = base) = False := eq_false (by simp only [Ptr] at *; omega)
  refine ⟨?_, ?_, ?_, ?_, ?_, ?_, ?_, ?_, ?_, ?_, ?_, ?_⟩
  iterate 11
    · simp [smInit, Mem.set, n0, n1]
  · intro a ha
    have k0 : ∀ i : ℕ, i < 11 → (a = base + i) = False := fun i hi => eq_false (by simp only [Ptr] at *; omega)
    have k1 : (a = base) = False := eq_false (by simp only [Ptr] at *; omega)
    simp [smInit, Mem.set, k0, k1]

theorem bigAffine_W {x y : Int} {p : FieldVal × FieldVal} (h : Curve.bigAffineToField x y = .ok p) :
    Mag p.1 1 ∧ Mag p.2 1 := by
  rw [Curve.bigAffineToField] at h
  cases h1 : setByteSlice (intBytes x) with
  | panic => rw [h1] at h; cases h
  | ok f =>
    cases h2 : setByteSlice (intBytes y) with
    | panic => rw [h1, h2] at h; cases h
    | ok g =>
      rw [h1, h2] at h
      cases h
      exact ⟨setByteSlice_W h1, setByteSlice_W h2⟩

theorem one_W : Mag (setInt 1) 63 := by constructor <;> decide

theorem zero_W : Mag zero 63 := by constructor <;> decide

theorem neg_W {y : FieldVal} (h : Mag y 1) : Mag (negateVal y 1) 63 :=
  (negateVal_spec h (k := 1) (by decide) (by decide)).2.mono (by decide)

theorem smPtrs_nodup (base : Ptr) (s1 s2 : Int) : (smPtrs base s1 s2).all.Nodup := by
  rw [smPtrs]
  simp only [SmPtrs.all]
  by_cases h1 : s1 = -1 <;> by_cases h2 : s2 = -1 <;> simp [h1, h2]

theorem smPtrs_all (base : Ptr) (s1 s2 : Int) {a : Ptr} (h : a ∈ (smPtrs base s1 s2).all) :
    base ≤ a ∧ a < base + 11 := by
  rw [smPtrs] at h
  simp only [SmPtrs.all] at h
  by_cases h1 : s1 = -1 <;> by_cases h2 : s2 = -1 <;>
    simp only [h1, h2, if_true, if_false, List.mem_cons, List.not_mem_nil, or_false] at h <;>
    (simp only [Ptr] at *; omega)

theorem smInit_holds (m : Mem) {base betaPtr : Ptr} (hp : betaPtr < base ∨ base + 11 ≤ betaPtr)
    {x y : FieldVal} (hx : Mag x 1) (hy : Mag y 1) (s1 s2 : Int) :
    Holds (smPtrs base s1 s2) (smInit m base betaPtr x y)
      ⟨⟨zero, zero, zero⟩, x, (if s1 = -1 then (negateVal y 1, y) else (y, negateVal y 1)).1,
        (if s1 = -1 then (negateVal y 1, y) else (y, negateVal y 1)).2, setInt 1, mul2 x (m betaPtr),
        (if s2 = -1 then (negateVal y 1, y) else (y, negateVal y 1)).1,
        (if s2 = -1 then (negateVal y 1, y) else (y, negateVal y 1)).2, setInt 1⟩ := by
  obtain ⟨e0, e1, e2, e3, e4, e5, e6, e7, e8, e9, e10, -⟩ := smInit_eq m hp x y
  generalize smInit m base betaPtr x y = m' at *
  have wy := hy.mono (show 1 ≤ 63 by decide)
  have wn := neg_W hy
  constructor
  · rw [Mem.pt, smPtrs]; simp only; rw [e0, e1, e2]
  · exact e3
  · rw [smPtrs]; by_cases h1 : s1 = -1 <;> simp [h1, e4, e5]
  · rw [smPtrs]; by_cases h1 : s1 = -1 <;> simp [h1, e4, e5]
  · exact e6
  · exact e7
  · rw [smPtrs]; by_cases h2 : s2 = -1 <;> simp [h2, e8, e9]
  · rw [smPtrs]; by_cases h2 : s2 = -1 <;> simp [h2, e8, e9]
  · exact e10
  · exact ⟨zero_W, zero_W, zero_W⟩
  · refine ⟨hx.mono (by decide), ?_, ?_, one_W⟩
    · by_cases h1 : s1 = -1
      · rw [if_pos h1]; exact wn
      · rw [if_neg h1]; exact wy
    · by_cases h1 : s1 = -1
      · rw [if_pos h1]; exact wy
      · rw [if_neg h1]; exact wn
  · refine ⟨mul2_W _ _, ?_, ?_, one_W⟩
    · by_cases h1 : s2 = -1
      · rw [if_pos h1]; exact wn
      · rw [if_neg h1]; exact wy
    · by_cases h1 : s2 = -1
      · rw [if_pos h1]; exact wy
      · rw [if_neg h1]; exact wn

theorem scalarMult_frames (m : Mem) (base betaPtr : Ptr) (hb : Curve.beta = .ok (m betaPtr))
    (hp : betaPtr < base ∨ base + 11 ≤ betaPtr) (bx by' : Int) (k : Bytes) :
    Frames m (fun a => base ≤ a ∧ a < base + 11) (Curve.scalarMult bx by' k)
      (scalarMult m base betaPtr bx by' k) := by
  rw [Curve.scalarMult, scalarMult, hb]
  cases hf : Curve.bigAffineToField bx by' with
  | panic => rw [Go.bind_panic, Go.bind_panic]; rfl
  | ok p1 =>
    have w := bigAffine_W hf
    rw [Go.bind_ok, Go.bind_ok, Go.bind_ok, Curve.smRun]
    generalize Curve.splitK (Curve.moduloReduce k) = sp
    obtain ⟨k1, k2, s1, s2⟩ := sp
    simp only
    generalize Curve.naf k1 = n1
    generalize Curve.naf k2 = n2
    generalize (if n1.1.length < n2.1.length then n2.1.length else n1.1.length) = n
    have h0 := smInit_holds m hp w.1 w.2 s1 s2
    have hS := smLoop_holds (smPtrs_nodup base s1 s2) n1.1 n1.2 n2.1 n2.2 n (List.range n) h0
    have hI := (smInit_eq m hp p1.1 p1.2).2.2.2.2.2.2.2.2.2.2.2
    clear h0
    generalize smInit m base betaPtr p1.1 p1.2 = m0 at *
    revert hS
    generalize (⟨⟨zero, zero, zero⟩, p1.1, _, _, setInt 1, _, _, _, setInt 1⟩ : Curve.SmState) = t0
    cases (List.range n).foldlM (Curve.smLoop n1.1 n1.2 n2.1 n2.2 n) t0 with
    | panic =>
      intro hS
      simp only at hS
      rw [hS]
      rfl
    | ok s' =>
      rintro ⟨m', g1, g2, g3⟩
      rw [g1]
      have hq : (smPtrs base s1 s2).q = ⟨base, base + 1, base + 2⟩ := rfl
      obtain ⟨g4, g5⟩ := toAffine_eq m' (p := (smPtrs base s1 s2).q) (by rw [hq]; simp) (by rw [hq]; simp)
        (by rw [hq]; simp)
      rw [g2.q] at g4
      refine ⟨(fieldJacobianToBigAffine m' (smPtrs base s1 s2).q).2, ?_, ?_⟩
      · change Go.ok _ = Go.ok _
        rw [← g4]
      · intro a ha
        rw [g5 a ?_, g3 a ?_, hI a ha]
        · exact fun h => ha (smPtrs_all base s1 s2 h)
        · intro h
          rw [hq] at h
          simp only [List.mem_cons, List.not_mem_nil, or_false] at h
          simp only [Ptr] at *
          omega

theorem add_frames (m : Mem) (base : Ptr) (x1 y1 x2 y2 : Int) :
    Frames m (fun a => base ≤ a ∧ a < base + 8) (Curve.add x1 y1 x2 y2) (add m base x1 y1 x2 y2) := by
  rw [Curve.add, add]
  split_ifs
  · exact ⟨m, rfl, fun _ _ => rfl⟩
  · exact ⟨m, rfl, fun _ _ => rfl⟩
  · cases hf : Curve.bigAffineToField x1 y1 with
    | panic => rw [Go.bind_panic, Go.bind_panic]; rfl
    | ok f1 =>
      cases hg : Curve.bigAffineToField x2 y2 with
      | panic => rw [Go.bind_ok, Go.bind_ok, Go.bind_panic, Go.bind_panic]; rfl
      | ok f2 =>
        rw [Go.bind_ok, Go.bind_ok, Go.bind_ok, Go.bind_ok]
        obtain ⟨u1, u2⟩ := bigAffine_W hf
        obtain ⟨v1, v2⟩ := bigAffine_W hg
        have wx1 := idem_of (u1.mono (show 1 ≤ 63 by decide))
        have wy1 := idem_of (u2.mono (show 1 ≤ 63 by decide))
        have wx2 := idem_of (v1.mono (show 1 ≤ 63 by decide))
        have wy2 := idem_of (v2.mono (show 1 ≤ 63 by decide))
        have wz := idem_of one_W
        simp only [Go.pure_eq]
        generalize hu : (((((((m.set base f1.1).set (base + 1) f1.2).set (base + 2) f2.1).set (base + 3) f2.2).set
          (base + 4) zero).set (base + 5) zero).set (base + 6) zero).set (base + 7) (setInt 1) = m1
        have c0 : m1 base = f1.1 := by rw [← hu]; simp [Mem.set]
        have c1 : m1 (base + 1) = f1.2 := by rw [← hu]; simp [Mem.set]
        have c2 : m1 (base + 2) = f2.1 := by rw [← hu]; simp [Mem.set]
        have c3 : m1 (base + 3) = f2.2 := by rw [← hu]; simp [Mem.set]
        have c7 : m1 (base + 7) = setInt 1 := by rw [← hu]; simp [Mem.set]
        have q : ∀ a, ¬ (base ≤ a ∧ a < base + 8) → m1 a = m a := by
          intro a ha
          rw [← hu]
          repeat rw [set_ne _ _ (by simp only [Ptr] at *; omega)]
        obtain ⟨m', g1, g2, -⟩ := add_eq (m := m1) (p1 := ⟨base, base + 1, base + 7⟩)
          (p2 := ⟨base + 2, base + 3, base + 7⟩) (p3 := ⟨base + 4, base + 5, base + 6⟩)
          (by simp [Sep]) (by simp [Sep]) (by simp [Sep]) (by simp [Sep]) (by simp [Sep]) (by simp [Sep])
          (by simpa only [c0] using wx1) (by simpa only [c1] using wy1) (by simpa only [c7] using wz)
          (by simpa only [c2] using wx2) (by simpa only [c3] using wy2) (by simpa only [c7] using wz)
          (by simp) (by simp)
        rw [g1]
        simp only [Mem.pt, c0, c1, c2, c3, c7]
        generalize (Curve.addJacobian ⟨f1.1, f1.2, setInt 1⟩ ⟨f2.1, f2.2, setInt 1⟩).1 = r
        obtain ⟨k1, k2⟩ := toAffine_eq (m'.put ⟨base + 4, base + 5, base + 6⟩ r)
          (p := ⟨base + 4, base + 5, base + 6⟩) (by simp) (by simp) (by simp)
        have k3 : (m'.put ⟨base + 4, base + 5, base + 6⟩ r).pt ⟨base + 4, base + 5, base + 6⟩ = r := by
          simp [Mem.pt, Mem.put, Mem.set]
        rw [k3] at k1
        generalize fieldJacobianToBigAffine (m'.put ⟨base + 4, base + 5, base + 6⟩ r) ⟨base + 4, base + 5, base + 6⟩ = w at *
        obtain ⟨w1, w2⟩ := w
        simp only at k1 k2
        refine ⟨w2, by rw [k1], ?_⟩
        · intro a ha
          have hm' : m' a = m1 a := by
            rcases g2 a with h | ⟨h, -⟩
            · exact h
            · exfalso
              simp only [List.mem_cons, List.not_mem_nil, or_false] at h
              simp only [Ptr] at *
              omega
          rw [k2 a (by simp only [List.mem_cons, List.not_mem_nil, or_false]; simp only [Ptr] at *; omega), Mem.put]
          repeat rw [set_ne _ _ (by simp only [Ptr] at *; omega)]
          rw [hm', q a ha]

theorem double_frames (m : Mem) (base : Ptr) (x1 y1 : Int) :
    Frames m (fun a => base ≤ a ∧ a < base + 6) (Curve.double x1 y1) (double m base x1 y1) := by
  rw [Curve.double, double]
  split_ifs
  · exact ⟨m, rfl, fun _ _ => rfl⟩
  · cases hf : Curve.bigAffineToField x1 y1 with
    | panic => rw [Go.bind_panic, Go.bind_panic]; rfl
    | ok f1 =>
      rw [Go.bind_ok, Go.bind_ok]
      simp only [Go.pure_eq]
      generalize hu : (((((m.set base f1.1).set (base + 1) f1.2).set (base + 2) zero).set (base + 3) zero).set
        (base + 4) zero).set (base + 5) (setInt 1) = m1
      have c0 : m1 base = f1.1 := by rw [← hu]; simp [Mem.set]
      have c1 : m1 (base + 1) = f1.2 := by rw [← hu]; simp [Mem.set]
      have c5 : m1 (base + 5) = setInt 1 := by rw [← hu]; simp [Mem.set]
      have q : ∀ a, ¬ (base ≤ a ∧ a < base + 6) → m1 a = m a := by
        intro a ha
        rw [← hu]
        repeat rw [set_ne _ _ (by simp only [Ptr] at *; omega)]
      obtain ⟨m', g1, g2⟩ := double_eq (m := m1) (p1 := ⟨base, base + 1, base + 5⟩)
        (p3 := ⟨base + 2, base + 3, base + 4⟩) (by simp [Sep]) (by simp [Sep]) (by simp [Sep])
      rw [g1]
      simp only [Mem.pt, c0, c1, c5]
      generalize Curve.doubleJacobian ⟨f1.1, f1.2, setInt 1⟩ = r
      obtain ⟨k1, k2⟩ := toAffine_eq (m'.put ⟨base + 2, base + 3, base + 4⟩ r)
        (p := ⟨base + 2, base + 3, base + 4⟩) (by simp) (by simp) (by simp)
      have k3 : (m'.put ⟨base + 2, base + 3, base + 4⟩ r).pt ⟨base + 2, base + 3, base + 4⟩ = r := by
        simp [Mem.pt, Mem.put, Mem.set]
      rw [k3] at k1
      generalize fieldJacobianToBigAffine (m'.put ⟨base + 2, base + 3, base + 4⟩ r) ⟨base + 2, base + 3, base + 4⟩ = w at *
      obtain ⟨w1, w2⟩ := w
      simp only at k1 k2
      refine ⟨w2, by rw [k1], ?_⟩
      · intro a ha
        have hm' : m' a = m1 a := by
          rcases g2 with rfl | rfl
          · rfl
          · exact norm_ne _ (by simp only [Ptr] at *; omega)
        rw [k2 a (by simp only [List.mem_cons, List.not_mem_nil, or_false]; simp only [Ptr] at *; omega), Mem.put]
        repeat rw [set_ne _ _ (by simp only [Ptr] at *; omega)]
        rw [hm', q a ha]

/-- The table at `tab` as the value-level model has it.  See btcec/btcec.go:866-883. -/
def tabOf (m : Mem) (tab : Ptr) (b : ℕ) (i : UInt8) : Curve.Jac :=
  ⟨m (tabPtr tab b i 0), m (tabPtr tab b i 1), m (tabPtr tab b i 2)⟩

theorem baseLoop_frames {base tab : Ptr} (hp : base + 6 ≤ tab ∨ tab + 3 * 256 * 32 ≤ base) {diff : ℕ}
    {m0 : Mem} (hw : ∀ b i, b < 32 → JW (tabOf m0 tab b i)) :
    ∀ (l : Bytes) (i : ℕ) (m : Mem), diff + i + l.length ≤ 32 →
      (∀ a, ¬ (base ≤ a ∧ a < base + 6) → m a = m0 a) → JW (m.pt ⟨base, base + 1, base + 2⟩) →
      (baseLoop tab ⟨base, base + 1, base + 2⟩ ⟨base + 3, base + 4, base + 5⟩ diff i m l).pt
          ⟨base, base + 1, base + 2⟩ =
        Curve.baseLoop (tabOf m0 tab) diff i (m.pt ⟨base, base + 1, base + 2⟩) l ∧
      ∀ a, ¬ (base ≤ a ∧ a < base + 6) →
        baseLoop tab ⟨base, base + 1, base + 2⟩ ⟨base + 3, base + 4, base + 5⟩ diff i m l a = m0 a
  | [], i, m, _, hm, _ => ⟨rfl, hm⟩
  | c :: l, i, m, hl, hm, hq => by
    have hd : diff + i < 32 := by simp only [List.length_cons] at hl; omega
    rw [baseLoop, Curve.baseLoop]
    have hc := c.toNat_lt
    have ht : ∀ j, j < 3 → m (tabPtr tab (diff + i) c j) = m0 (tabPtr tab (diff + i) c j) := by
      intro j hj
      apply hm
      rw [tabPtr]
      simp only [Ptr] at *
      omega
    simp only
    rw [ht 0 (by decide), ht 1 (by decide), ht 2 (by decide)]
    have hT := hw (diff + i) c hd
    rw [tabOf] at hT
    generalize hu : ((m.set (base + 3) (m0 (tabPtr tab (diff + i) c 0))).set (base + 4)
      (m0 (tabPtr tab (diff + i) c 1))).set (base + 5) (m0 (tabPtr tab (diff + i) c 2)) = m1
    have q1 : m1.pt ⟨base, base + 1, base + 2⟩ = m.pt ⟨base, base + 1, base + 2⟩ := by
      rw [← hu]; simp [Mem.pt, Mem.set]
    have q2 : m1.pt ⟨base + 3, base + 4, base + 5⟩ = tabOf m0 tab (diff + i) c := by
      rw [← hu]; simp [Mem.pt, Mem.set, tabOf]
    have q3 : ∀ a, ¬ (base ≤ a ∧ a < base + 6) → m1 a = m0 a := by
      intro a ha
      rw [← hu, ← hm a ha, set_ne, set_ne, set_ne] <;> (simp only [Ptr] at *; omega)
    obtain ⟨g1, -, g3⟩ := add_step (m := m1) (q := ⟨base, base + 1, base + 2⟩)
      (p := ⟨base + 3, base + 4, base + 5⟩) (by simp) (by rw [q1]; exact hq) (by rw [q2]; exact hT)
    have g4 := (add_JW hq hT).1
    rw [q1, q2] at g1
    have := baseLoop_frames hp hw (diff := diff) l (i + 1)
      (addJacobian m1 ⟨base, base + 1, base + 2⟩ ⟨base + 3, base + 4, base + 5⟩ ⟨base, base + 1, base + 2⟩)
      (by simp only [List.length_cons] at hl; omega) (by
        intro a ha
        rw [← q3 a ha]
        apply g3
        simp only [List.mem_cons, List.not_mem_nil, or_false, not_or]
        simp only [Ptr] at *
        omega) (by rw [g1]; exact g4)
    rw [g1] at this
    exact this

theorem scalarBaseMult_frames (m : Mem) (base tab : Ptr) (hp : base + 6 ≤ tab ∨ tab + 3 * 256 * 32 ≤ base)
    (hw : ∀ b i, b < 32 → JW (tabOf m tab b i)) (k : Bytes) :
    Frames m (fun a => base ≤ a ∧ a < base + 6) (Curve.scalarBaseMult (tabOf m tab) k)
      (scalarBaseMult m base tab k) := by
  rw [Curve.scalarBaseMult, scalarBaseMult]
  simp only
  generalize Curve.moduloReduce k = l
  by_cases hl : 32 < l.length
  · rw [if_pos hl, if_pos hl]; rfl
  · rw [if_neg hl, if_neg hl]
    generalize hm : ((m.set base zero).set (base + 1) zero).set (base + 2) zero = m1
    have q1 : m1.pt ⟨base, base + 1, base + 2⟩ = ⟨zero, zero, zero⟩ := by
      rw [← hm]; simp [Mem.pt, Mem.set]
    have q2 : ∀ a, ¬ (base ≤ a ∧ a < base + 6) → m1 a = m a := by
      intro a ha
      rw [← hm, set_ne, set_ne, set_ne] <;> (simp only [Ptr] at *; omega)
    obtain ⟨g1, g2⟩ := baseLoop_frames hp hw (diff := 32 - l.length) l 0 m1 (by omega) q2
      (by rw [q1]; exact ⟨zero_W, zero_W, zero_W⟩)
    rw [q1] at g1
    generalize baseLoop tab _ _ _ _ m1 l = m2 at *
    obtain ⟨g4, g5⟩ := toAffine_eq m2 (p := ⟨base, base + 1, base + 2⟩) (by simp) (by simp) (by simp)
    refine ⟨(fieldJacobianToBigAffine m2 ⟨base, base + 1, base + 2⟩).2, ?_, ?_⟩
    · rw [← g1, ← g4]
    · intro a ha
      rw [g5 a ?_, g2 a ha]
      simp only [List.mem_cons, List.not_mem_nil, or_false]
      simp only [Ptr] at *
      omega

end Zk.Heap
