import Verif.Heap.Frames
import Verif.Curve.TestLawful

/-!
# Properties of the curve routines on memory
-/

namespace Zk.Heap

open Zk Zk.Field Zk.Curve

/-- A memory with the coordinates of G at 0, 1, 2, and those of 2 G at 3, 4, 5, both from the table.
See btcec/btcec.go:866-883. -/
def memG : Mem := fun p =>
  match p with
  | 0 => (tabPoint rowsG 31 1).x
  | 1 => (tabPoint rowsG 31 1).y
  | 2 => (tabPoint rowsG 31 1).z
  | 3 => (tabPoint rowsG 31 2).x
  | 4 => (tabPoint rowsG 31 2).y
  | 5 => (tabPoint rowsG 31 2).z
  | _ => zero

/-! ## C118 -/

/-- C118: doubling through pointers gives the double of the point, whichever pointers of operand and result
to the same coordinate are equal; it changes nothing else, except that it may normalise the operand's z. -/
theorem C118_double {m : Mem} {p1 p3 : Pt} (h1 : Sep p1 p1) (h3 : Sep p3 p3) (h13 : Sep p1 p3) {A : E}
    (hA : JR (m.pt p1) A) :
    JR ((doubleJacobian m p1 p3).pt p3) (A + A) ∧
      ∀ a, a ≠ p3.x → a ≠ p3.y → a ≠ p3.z → doubleJacobian m p1 p3 a = m a ∨
        a = p1.z ∧ doubleJacobian m p1 p3 a = normalize (m a) := by
  obtain ⟨m', g1, g2⟩ := double_eq (m := m) h1 h3 h13
  have hd := doubleJacobian_spec hA
  obtain ⟨a1, a2, a3, -, -, -⟩ := h3
  rw [g1]
  generalize Curve.doubleJacobian (m.pt p1) = r at *
  refine ⟨?_, ?_⟩
  · have : (m'.put p3 r).pt p3 = r := by
      simp only [Mem.pt, Mem.put, set_self, set_ne _ _ a1, set_ne _ _ a2, set_ne _ _ a3]
    rw [this]; exact hd
  · intro a f1 f2 f3
    simp only [Mem.put, set_ne _ _ f1, set_ne _ _ f2, set_ne _ _ f3]
    rcases g2 with rfl | rfl
    · exact .inl rfl
    · by_cases e : a = p1.z
      · subst e; exact .inr ⟨rfl, norm_self _ _⟩
      · exact .inl (norm_ne _ e)

theorem JR.JW {p : Jac} {A : E} (h : JR p A) : JW p := by
  rcases h with ⟨-, h1, h2, Z, h3⟩ | ⟨X, Y, Z, h1, h2, h3, -⟩
  · have hz : ∀ f : FieldVal, isZero f = true → Mag f 63 := by
      intro f hf
      rw [isZero] at hf
      have := of_decide_eq_true hf
      simp only [UInt32.or_eq_zero_iff] at this
      obtain ⟨⟨⟨⟨⟨⟨⟨⟨⟨e0, e1⟩, e2⟩, e3⟩, e4⟩, e5⟩, e6⟩, e7⟩, e8⟩, e9⟩ := this
      constructor <;> simp_all
    exact ⟨hz _ h1, hz _ h2, h3.mag.mono (by decide)⟩
  · exact ⟨h1.mag.mono (by decide), h2.mag.mono (by decide), h3.mag.mono (by decide)⟩

/-- C118: adding through pointers gives the sum, whichever pointers to the same coordinate are equal among
the operands and the result; it changes nothing else, except that it may normalise the operands.  If the two
operands share x or y but not z, the shared value has to be normalised beforehand. -/
theorem C118_add {m : Mem} {p1 p2 p3 : Pt} (h1 : Sep p1 p1) (h2 : Sep p2 p2) (h3 : Sep p3 p3)
    (h12 : Sep p1 p2) (h13 : Sep p1 p3) (h23 : Sep p2 p3)
    (kx : p1.x = p2.x → p1.z ≠ p2.z → m p1.x = normalize (m p1.x))
    (ky : p1.y = p2.y → p1.z ≠ p2.z → m p1.y = normalize (m p1.y)) {A B : E}
    (hA : JR (m.pt p1) A) (hB : JR (m.pt p2) B) :
    JR ((addJacobian m p1 p2 p3).pt p3) (A + B) ∧
      ∀ a, a ≠ p3.x → a ≠ p3.y → a ≠ p3.z → addJacobian m p1 p2 p3 a = m a ∨
        a ∈ [p1.x, p1.y, p1.z, p2.x, p2.y, p2.z] ∧ addJacobian m p1 p2 p3 a = normalize (m a) := by
  obtain ⟨x1, y1, z1⟩ := JR.JW hA
  obtain ⟨x2, y2, z2⟩ := JR.JW hB
  obtain ⟨m', g1, g2, -⟩ := add_eq h1 h2 h3 h12 h13 h23 (idem_of x1) (idem_of y1) (idem_of z1) (idem_of x2)
    (idem_of y2) (idem_of z2) kx ky
  have hd := addJacobian_spec hA hB
  obtain ⟨a1, a2, a3, -, -, -⟩ := h3
  rw [g1]
  generalize Curve.addJacobian (m.pt p1) (m.pt p2) = r at *
  refine ⟨?_, ?_⟩
  · have : (m'.put p3 r.1).pt p3 = r.1 := by
      simp only [Mem.pt, Mem.put, set_self, set_ne _ _ a1, set_ne _ _ a2, set_ne _ _ a3]
    rw [this]; exact hd.1
  · intro a f1 f2 f3
    simp only [Mem.put, set_ne _ _ f1, set_ne _ _ f2, set_ne _ _ f3]
    exact g2 a

/-- C118: `Add` and `Double`, which use one value 1 as z of both operands, give sum and double and change
only what they allocate. -/
theorem C118_affine (m : Mem) (base : Ptr) (A B : E) :
    (∃ m', add m base (enc A).1 (enc A).2 (enc B).1 (enc B).2 = .ok (enc (A + B), m') ∧
      ∀ a, ¬ (base ≤ a ∧ a < base + 8) → m' a = m a) ∧
    (∃ m', double m base (enc A).1 (enc A).2 = .ok (enc (A + A), m') ∧
      ∀ a, ¬ (base ≤ a ∧ a < base + 6) → m' a = m a) := by
  have h1 := add_frames m base (enc A).1 (enc A).2 (enc B).1 (enc B).2
  have h2 := double_frames m base (enc A).1 (enc A).2
  rw [add_enc] at h1
  rw [double_enc] at h2
  exact ⟨h1, h2⟩

theorem memG_JR : JR (memG.pt ⟨0, 1, 2⟩) G ∧ JR (memG.pt ⟨3, 4, 5⟩) (2 • G) := by
  have h1 := tabG_ok 31 (by decide) 1
  have h2 := tabG_ok 31 (by decide) 2
  rw [show (1 : UInt8).toNat * 256 ^ (31 - 31) = 1 from rfl, one_nsmul] at h1
  rw [show (2 : UInt8).toNat * 256 ^ (31 - 31) = 2 from rfl] at h2
  exact ⟨h1, h2⟩

/-- The hypotheses are met by doubling and adding in place, with all six or only three addresses. -/
example : Sep ⟨0, 1, 2⟩ ⟨0, 1, 2⟩ ∧ Sep ⟨0, 1, 2⟩ ⟨3, 4, 5⟩ ∧ JR (memG.pt ⟨0, 1, 2⟩) G ∧
    JR (memG.pt ⟨3, 4, 5⟩) (2 • G) :=
  ⟨by simp [Sep], by simp [Sep], memG_JR.1, memG_JR.2⟩

/-- With pointers to different coordinates equal, doubling goes wrong: the result's z overwrites x before x
is read. -/
example : (doubleJacobian memG ⟨0, 1, 2⟩ ⟨1, 2, 0⟩).pt ⟨1, 2, 0⟩ ≠
    (doubleJacobian memG ⟨0, 1, 2⟩ ⟨6, 7, 8⟩).pt ⟨6, 7, 8⟩ := by
  decide +kernel

/-! ## C119 -/

/-- C119: `ScalarMult` on memory gives the multiple and changes only the values it allocates; `curve.beta`,
which it reads, is not changed. -/
theorem C119_scalarMult (m : Mem) (base betaPtr : Ptr) (hb : Curve.beta = .ok (m betaPtr))
    (hp : betaPtr < base ∨ base + 11 ≤ betaPtr) (B : E) (k : Bytes) :
    ∃ m', scalarMult m base betaPtr (enc B).1 (enc B).2 k = .ok (enc (setBytes k • B), m') ∧
      ∀ a, ¬ (base ≤ a ∧ a < base + 11) → m' a = m a := by
  have h := scalarMult_frames m base betaPtr hb hp (enc B).1 (enc B).2 k
  rw [scalarMult_enc] at h
  exact h

/-- C119: a second call, with whatever the first left behind, is right again. -/
theorem C119_again (m : Mem) (base base' betaPtr : Ptr) (hb : Curve.beta = .ok (m betaPtr))
    (hp : betaPtr < base ∨ base + 11 ≤ betaPtr) (hp' : betaPtr < base' ∨ base' + 11 ≤ betaPtr) (B C : E)
    (k l : Bytes) : ∃ m1 m2,
      scalarMult m base betaPtr (enc B).1 (enc B).2 k = .ok (enc (setBytes k • B), m1) ∧
      scalarMult m1 base' betaPtr (enc C).1 (enc C).2 l = .ok (enc (setBytes l • C), m2) := by
  obtain ⟨m1, h1, h2⟩ := C119_scalarMult m base betaPtr hb hp B k
  obtain ⟨m2, h3, -⟩ := C119_scalarMult m1 base' betaPtr
    (by rw [h2 betaPtr (by simp only [Ptr] at *; omega)]; exact hb) hp' C l
  exact ⟨m1, m2, h1, h3⟩

example : ∃ m : Mem, Curve.beta = .ok (m 100) := ⟨fun _ => setBytes32 (Vector.ofFn fun i => betaBytes.getD i 0), by decide +kernel⟩

/-! ## C120 -/

/-- The memory holds a table of precomputed points at `tab`.  See btcec/btcec.go:866-883. -/
def HoldsTab (m : Mem) (tab : Ptr) (rows : List ℕ) : Prop :=
  ∀ b i, b < 32 → tabOf m tab b i = tabPoint rows b i

theorem base_mem {rows : List ℕ} {B : E} (hT : TabOk (tabPoint rows) B) (m : Mem) (base tab : Ptr)
    (ht : HoldsTab m tab rows) (hp : base + 6 ≤ tab ∨ tab + 3 * 256 * 32 ≤ base) (k : Bytes) :
    ∃ m', scalarBaseMult m base tab k = .ok (enc (setBytes k • B), m') ∧ HoldsTab m' tab rows ∧
      ∀ a, ¬ (base ≤ a ∧ a < base + 6) → m' a = m a := by
  have hok : TabOk (tabOf m tab) B := fun b hb i => by rw [ht b i hb]; exact hT b hb i
  have h := scalarBaseMult_frames m base tab hp (fun b i hb => JR.JW (hok b hb i)) k
  rw [scalarBaseMult_spec hok] at h
  obtain ⟨m', h1, h2⟩ := h
  refine ⟨m', h1, fun b i hb => ?_, h2⟩
  rw [← ht b i hb, tabOf, tabOf]
  have hc := i.toNat_lt
  have e : ∀ c, c < 3 → m' (tabPtr tab b i c) = m (tabPtr tab b i c) := by
    intro c hc
    apply h2
    rw [tabPtr]
    simp only [Ptr] at *
    omega
  rw [e 0 (by decide), e 1 (by decide), e 2 (by decide)]

/-- C120: `ScalarBaseMult` and `ScalarBaseMultH` on memory give the multiple of G and of the base of the
second table, change only the values they allocate, and leave the table as it was, although the addition
they call may normalise its operands: the entries are copied. -/
theorem C120_scalarBaseMult (m : Mem) (base tab : Ptr)
    (hp : base + 6 ≤ tab ∨ tab + 3 * 256 * 32 ≤ base) (k : Bytes) :
    (HoldsTab m tab rowsG → ∃ m', scalarBaseMult m base tab k = .ok (enc (setBytes k • G), m') ∧
      HoldsTab m' tab rowsG ∧ ∀ a, ¬ (base ≤ a ∧ a < base + 6) → m' a = m a) ∧
    (HoldsTab m tab rowsH → ∃ m', scalarBaseMult m base tab k = .ok (enc (setBytes k • Hb), m') ∧
      HoldsTab m' tab rowsH ∧ ∀ a, ¬ (base ≤ a ∧ a < base + 6) → m' a = m a) :=
  ⟨fun ht => base_mem tabG_ok m base tab ht hp k, fun ht => base_mem tabH_ok m base tab ht hp k⟩

/-- A memory that holds the table of G, from address 6 on.  See btcec/btcec.go:866-883. -/
def memTab : Mem := fun p =>
  let q := tabPoint rowsG ((p - 6) / 3 / 256) (UInt8.ofNat ((p - 6) / 3))
  if (p - 6) % 3 = 0 then q.x else if (p - 6) % 3 = 1 then q.y else q.z

example : HoldsTab memTab 6 rowsG := by
  intro b i hb
  have hi := i.toNat_lt
  have e : ∀ c, c < 3 → (6 + 3 * (256 * b + i.toNat) + c - 6) / 3 = 256 * b + i.toNat := by
    intro c hc; omega
  have f : ∀ c, c < 3 → (6 + 3 * (256 * b + i.toNat) + c - 6) % 3 = c := by
    intro c hc; omega
  have g : (256 * b + i.toNat) / 256 = b := by omega
  have h : UInt8.ofNat (256 * b + i.toNat) = i := by
    apply UInt8.toNat_inj.mp; rw [UInt8.toNat_ofNat']; omega
  rw [tabOf]
  simp only [memTab, tabPtr, e 0 (by decide), e 1 (by decide), e 2 (by decide), f 0 (by decide), f 1 (by decide),
    f 2 (by decide), g, h]
  simp

end Zk.Heap
