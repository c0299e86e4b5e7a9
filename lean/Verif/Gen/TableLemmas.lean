import Verif.Gen.Model
import Verif.Wire.Lemmas
import Verif.Curve.TestLemmas

/-!
# Generating and loading a table of multiples
-/

namespace Zk.Gen

open Zk Zk.Field Zk.Curve

/-! ### The points -/

theorem JR_start (A : E) : ∃ f g, bigAffineToField (enc A).1 (enc A).2 = .ok (f, g) ∧
    JR ⟨f, g, setInt 1⟩ A := by
  rcases point_cases A with rfl | ⟨x, y, h, rfl⟩
  · obtain ⟨f, g, e, hf, hg⟩ := bigAffine_ok (x := 0) (y := 0) (by decide) (by decide)
    refine ⟨f, g, e, .inl ⟨rfl, ?_, ?_, 1, Nm_one.R⟩⟩
    · show isZero f = true
      rw [Canon.val_inj hf.1 Nm_zero.canon (by rw [hf.2]; rfl)]; decide
    · show isZero g = true
      rw [Canon.val_inj hg.1 Nm_zero.canon (by rw [hg.2]; rfl)]; decide
  · obtain ⟨f, g, e, hf, hg⟩ := bigAffine_mk (x := x) (y := y)
    exact ⟨f, g, e, JR_of_mk hf hg Nm_one.R h⟩

theorem doublingLoop_length : ∀ (n : ℕ) (p : Jac), (doublingLoop n p).length = n
  | 0, _ => rfl
  | n + 1, p => by rw [doublingLoop, List.length_cons, doublingLoop_length]

theorem doublingLoop_spec : ∀ (n : ℕ) (p : Jac) (A : E), JR p A → ∀ i, i < n →
    JR ((doublingLoop n p).getD i ⟨zero, zero, zero⟩) (2 ^ i • A)
  | 0, _, _, _, i, hi => absurd hi (Nat.not_lt_zero i)
  | n + 1, p, A, h, 0, _ => by
    rw [pow_zero, one_nsmul]; exact h
  | n + 1, p, A, h, i + 1, hi => by
    have := doublingLoop_spec n _ _ (doubleJacobian_spec h) i (Nat.lt_of_succ_lt_succ hi)
    rw [← two_nsmul, ← mul_nsmul, ← pow_succ'] at this
    exact this

/-- The doubling points that a window uses.  See btcec/gensecp256k1.go:80-116. -/
def CpOk (cps : List Jac) (A : E) : Prop :=
  cps.length = 8 ∧ ∀ j, j < 8 → JR (cps.getD j ⟨zero, zero, zero⟩) (2 ^ j • A)

theorem bitStep_spec {A : E} (i : ℕ) {s : Jac × List Jac} {j : ℕ} (hj : j < 8)
    (h1 : JR s.1 ((i % 2 ^ j) • A)) (h2 : CpOk s.2 A) :
    JR (bitStep i s j).1 ((i % 2 ^ (j + 1)) • A) ∧ CpOk (bitStep i s j).2 A := by
  have e : i % 2 ^ (j + 1) = i % 2 ^ j + 2 ^ j * (i / 2 ^ j % 2) := Nat.mod_pow_succ
  have e2 : i >>> j &&& 1 = i / 2 ^ j % 2 := by rw [Nat.and_one_is_mod, Nat.shiftRight_eq_div_pow]
  rw [bitStep, e2]
  split_ifs with hb
  · obtain ⟨a1, a2⟩ := addJacobian_spec h1 (h2.2 j hj)
    rw [e, hb, mul_one, add_nsmul]
    refine ⟨a1, ?_, fun k hk => ?_⟩
    · exact (List.length_set ..).trans h2.1
    · by_cases hkj : k = j
      · subst hkj
        rw [List.getD_eq_getElem?_getD, List.getElem?_set_self (by rw [h2.1]; exact hj)]
        exact a2
      · rw [List.getD_eq_getElem?_getD, List.getElem?_set_ne (Ne.symm hkj),
          ← List.getD_eq_getElem?_getD]
        exact h2.2 k hk
  · rw [e, show i / 2 ^ j % 2 = 0 by omega, mul_zero, add_zero]
    exact ⟨h1, h2⟩

theorem windowPoint_spec {A : E} {cps : List Jac} (h : CpOk cps A) {i : ℕ} (hi : i < 256) :
    JR (windowPoint cps i).1 (i • A) ∧ CpOk (windowPoint cps i).2 A := by
  have : ∀ n, n ≤ 8 → JR ((List.range n).foldl (bitStep i) (⟨zero, zero, zero⟩, cps)).1
      ((i % 2 ^ n) • A) ∧ CpOk ((List.range n).foldl (bitStep i) (⟨zero, zero, zero⟩, cps)).2 A := by
    intro n
    induction n with
    | zero =>
      intro _
      rw [pow_zero, Nat.mod_one, zero_nsmul]
      exact ⟨JR_inf, h⟩
    | succ n ih =>
      intro hn
      obtain ⟨h1, h2⟩ := ih (by omega)
      rw [List.range_succ, List.foldl_append]
      exact bitStep_spec i (by omega) h1 h2
  have := this 8 le_rfl
  rwa [show i % 2 ^ 8 = i from Nat.mod_eq_of_lt hi] at this

theorem windowFrom_length : ∀ (n i : ℕ) (cps : List Jac), (windowFrom n i cps).length = n
  | 0, _, _ => rfl
  | n + 1, i, cps => by rw [windowFrom, List.length_cons, windowFrom_length]

theorem windowFrom_spec {A : E} : ∀ (n i : ℕ) (cps : List Jac), CpOk cps A → i + n ≤ 256 →
    ∀ k, k < n → JR ((windowFrom n i cps).getD k ⟨zero, zero, zero⟩) ((i + k) • A)
  | 0, _, _, _, _, k, hk => absurd hk (Nat.not_lt_zero k)
  | n + 1, i, cps, h, hin, 0, _ => (windowPoint_spec h (by omega)).1
  | n + 1, i, cps, h, hin, k + 1, hk => by
    have := windowFrom_spec n (i + 1) _
      (windowPoint_spec h (show i < 256 by omega)).2 (by omega) k (by omega)
    rwa [show i + 1 + k = i + (k + 1) by omega] at this

theorem window_length (dp : List Jac) (b : ℕ) : (window dp b).length = 256 := windowFrom_length _ _ _

theorem window_spec {A : E} {dp : List Jac} (hl : dp.length = 256)
    (h : ∀ i, i < 256 → JR (dp.getD i ⟨zero, zero, zero⟩) (2 ^ i • A)) {b : ℕ} (hb : b < 32) {i : ℕ}
    (hi : i < 256) :
    JR ((window dp b).getD i ⟨zero, zero, zero⟩) ((i * 256 ^ (31 - b)) • A) := by
  have hc : CpOk ((dp.drop (8 * (byteSize - b - 1))).take 8) (256 ^ (31 - b) • A) := by
    have e : byteSize - b - 1 = 31 - b := by
      show 32 - b - 1 = 31 - b
      omega
    rw [e]
    refine ⟨?_, fun j hj => ?_⟩
    · rw [List.length_take, List.length_drop, hl]; omega
    · rw [List.getD_eq_getElem?_getD, List.getElem?_take_of_lt hj, List.getElem?_drop,
        ← List.getD_eq_getElem?_getD, ← mul_nsmul, show 256 = 2 ^ 8 from rfl, ← pow_mul, ← pow_add]
      exact h _ (by omega)
  have := windowFrom_spec 256 0 _ hc (by omega) i hi
  rw [zero_add, ← mul_nsmul, mul_comm (256 ^ (31 - b))] at this
  exact this

/-! ### The bytes -/

theorem serField_length (f : FieldVal) : (serField f).length = 40 := rfl

theorem serPoint_length (p : Jac) : (serPoint p).length = 120 := rfl

theorem loadWord_put (w : UInt32) (rest : Bytes) :
    loadWord (Wire.putUint32 w ++ rest) = .ok (w, rest) := by
  have := Wire.leUint32_put w
  simp only [loadWord, Wire.putUint32, Wire.leUint32, Wire.idx, List.cons_append, List.nil_append,
    List.getElem?_cons_succ, List.getElem?_cons_zero, List.drop_succ_cons, List.drop_zero]
  show Go.ok _ = _
  rw [this]

theorem loadField_ser (f : FieldVal) (rest : Bytes) :
    loadField (serField f ++ rest) = .ok (f, rest) := by
  simp only [loadField, serField, List.append_assoc, loadWord_put, Go.bind_ok]
  rfl

theorem loadPoint_ser (p : Jac) (rest : Bytes) :
    loadPoint (serPoint p ++ rest) = .ok (p, rest) := by
  simp only [loadPoint, serPoint, List.append_assoc, loadField_ser, Go.bind_ok]
  rfl

theorem loadPoints_ser : ∀ (l : List Jac) (rest : Bytes),
    loadPoints l.length (l.flatMap serPoint ++ rest) = .ok l
  | [], _ => rfl
  | p :: l, rest => by
    rw [List.length_cons, loadPoints, List.flatMap_cons, List.append_assoc, loadPoint_ser,
      Go.bind_ok]
    show (loadPoints l.length (l.flatMap serPoint ++ rest)).bind _ = _
    rw [loadPoints_ser]
    rfl

/-- All points of a table, in order.  See btcec/gensecp256k1.go:80-116. -/
def allPoints (dp : List Jac) : List Jac := (List.range byteSize).flatMap (window dp)

theorem ser_eq (dp : List Jac) :
    ((List.range byteSize).flatMap fun b => (window dp b).flatMap serPoint) =
      (allPoints dp).flatMap serPoint := by
  rw [allPoints, List.flatMap_assoc]

theorem flatMap_range_length {α : Type} {g : ℕ → List α} {c : ℕ} (h : ∀ b, (g b).length = c) :
    ∀ n, ((List.range n).flatMap g).length = n * c
  | 0 => by simp
  | n + 1 => by
    rw [List.range_succ, List.flatMap_append, List.length_append, flatMap_range_length h n,
      List.flatMap_singleton, h, Nat.succ_mul]

theorem flatMap_range_getD {α : Type} {g : ℕ → List α} {c : ℕ} (h : ∀ b, (g b).length = c) (d : α)
    {i : ℕ} (hi : i < c) : ∀ n b, b < n → ((List.range n).flatMap g).getD (c * b + i) d = (g b).getD i d
  | 0, b, hb => absurd hb (Nat.not_lt_zero b)
  | n + 1, b, hb => by
    rw [List.range_succ, List.flatMap_append, List.flatMap_singleton]
    have hl := flatMap_range_length h n
    by_cases e : b = n
    · subst e
      rw [List.getD_eq_getElem?_getD, List.getElem?_append_right (by rw [hl, mul_comm]; omega), hl,
        mul_comm, Nat.add_sub_cancel_left, ← List.getD_eq_getElem?_getD]
    · rw [List.getD_eq_getElem?_getD,
        List.getElem?_append_left (by rw [hl]; nlinarith [show b + 1 ≤ n by omega]),
        ← List.getD_eq_getElem?_getD]
      exact flatMap_range_getD h d hi n b (by omega)

theorem allPoints_length (dp : List Jac) : (allPoints dp).length = 32 * 256 :=
  flatMap_range_length (window_length dp) 32

theorem allPoints_getD (dp : List Jac) {b i : ℕ} (hb : b < 32) (hi : i < 256) :
    (allPoints dp).getD (256 * b + i) ⟨zero, zero, zero⟩ = (window dp b).getD i ⟨zero, zero, zero⟩ :=
  flatMap_range_getD (window_length dp) _ hi 32 b hb

theorem flatMap_ser_length : ∀ l : List Jac, (l.flatMap serPoint).length = 120 * l.length
  | [] => rfl
  | p :: l => by
    rw [List.flatMap_cons, List.length_append, serPoint_length, flatMap_ser_length,
      List.length_cons]
    omega

theorem load_ser {l : List Jac} (hl : l.length = 32 * 256) (rest : Bytes) :
    loadBytePoints (l.flatMap serPoint ++ rest) =
      .ok fun b i => l.getD (256 * b + i.toNat) ⟨zero, zero, zero⟩ := by
  rw [loadBytePoints, ← hl, loadPoints_ser]
  rfl

/-- Generating the table of a point and loading it. -/
theorem gen_load (A : E) : ∃ b tab, serializedBytePoints (enc A).1 (enc A).2 = .ok b ∧
    b.length = 983040 ∧ (∀ rest, loadBytePoints (b ++ rest) = .ok tab) ∧ TabOk tab A := by
  obtain ⟨f, g, e, h⟩ := JR_start A
  have hl := doublingLoop_length 256 ⟨f, g, setInt 1⟩
  have hd := doublingLoop_spec 256 _ A h
  refine ⟨(allPoints (doublingLoop 256 ⟨f, g, setInt 1⟩)).flatMap serPoint, _, ?_, ?_,
    fun rest => load_ser (allPoints_length _) rest, ?_⟩
  · rw [serializedBytePoints, getDoublingPoints, e]
    exact congrArg Go.ok (ser_eq _)
  · rw [flatMap_ser_length, allPoints_length]
  · intro b hb i
    show JR ((allPoints _).getD (256 * b + i.toNat) ⟨zero, zero, zero⟩) _
    rw [allPoints_getD _ hb i.toNat_lt]
    exact window_spec hl hd hb i.toNat_lt

end Zk.Gen
