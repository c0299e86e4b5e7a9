import Verif.Gen.TableLemmas

/-!
# Loading arbitrary bytes
-/

namespace Zk.Gen

open Zk Zk.Field Zk.Curve

theorem bind_inv {α β : Type} {x : Go α} {f : α → Go β} {b : β} (h : x >>= f = .ok b) :
    ∃ a, x = .ok a ∧ f a = .ok b := by
  cases x with
  | ok a => exact ⟨a, rfl, h⟩
  | panic => cases h

theorem loadWord_inv {s t : Bytes} {w : UInt32} (h : loadWord s = .ok (w, t)) :
    s = Wire.putUint32 w ++ t := by
  match s, h with
  | [], h => cases h
  | [_], h => cases h
  | [_, _], h => cases h
  | [_, _, _], h => cases h
  | a :: b :: c :: d :: l, h =>
    have h : Go.ok _ = Go.ok (w, t) := h
    injection h with h
    injection h with h1 h2
    have hv := congrArg UInt32.toNat h1
    rw [Wire.leUint32_toNat] at hv
    have ha := a.toNat_lt
    have hb := b.toNat_lt
    have hc := c.toNat_lt
    have hd := d.toNat_lt
    have h2 : l = t := h2
    rw [← h2]
    simp only [Wire.putUint32, List.cons_append, List.nil_append, List.cons.injEq, and_true]
    refine ⟨?_, ?_, ?_, ?_⟩ <;> apply UInt8.toNat_inj.1 <;>
      simp only [UInt32.toNat_toUInt8, UInt32.toNat_shiftRight, Nat.shiftRight_eq_div_pow,
        show (8 : UInt32).toNat % 32 = 8 from rfl, show (16 : UInt32).toNat % 32 = 16 from rfl,
        show (24 : UInt32).toNat % 32 = 24 from rfl] <;>
      omega

theorem loadWord_ok {s : Bytes} (h : 4 ≤ s.length) : ∃ r, loadWord s = .ok r := by
  match s, h with
  | a :: b :: c :: d :: l, _ => exact ⟨_, rfl⟩

theorem put_length (w : UInt32) : (Wire.putUint32 w).length = 4 := rfl

theorem loadField_inv {s t : Bytes} {f : FieldVal} (h : loadField s = .ok (f, t)) :
    s = serField f ++ t := by
  unfold loadField at h
  obtain ⟨⟨w0, t0⟩, e0, h⟩ := bind_inv h
  obtain ⟨⟨w1, t1⟩, e1, h⟩ := bind_inv h
  obtain ⟨⟨w2, t2⟩, e2, h⟩ := bind_inv h
  obtain ⟨⟨w3, t3⟩, e3, h⟩ := bind_inv h
  obtain ⟨⟨w4, t4⟩, e4, h⟩ := bind_inv h
  obtain ⟨⟨w5, t5⟩, e5, h⟩ := bind_inv h
  obtain ⟨⟨w6, t6⟩, e6, h⟩ := bind_inv h
  obtain ⟨⟨w7, t7⟩, e7, h⟩ := bind_inv h
  obtain ⟨⟨w8, t8⟩, e8, h⟩ := bind_inv h
  obtain ⟨⟨w9, t9⟩, e9, h⟩ := bind_inv h
  have h : Go.ok ((⟨w0, w1, w2, w3, w4, w5, w6, w7, w8, w9⟩ : FieldVal), t9) = Go.ok (f, t) := h
  injection h with h
  injection h with h1 h2
  subst h1 h2
  rw [loadWord_inv e0, loadWord_inv e1, loadWord_inv e2, loadWord_inv e3, loadWord_inv e4,
    loadWord_inv e5, loadWord_inv e6, loadWord_inv e7, loadWord_inv e8, loadWord_inv e9]
  simp only [serField, List.append_assoc]

theorem loadField_ok {s : Bytes} (h : 40 ≤ s.length) : ∃ r, loadField s = .ok r := by
  have step : ∀ {s : Bytes} {n : ℕ}, n + 4 ≤ s.length →
      ∃ r, loadWord s = .ok r ∧ n ≤ r.2.length := by
    intro s n hn
    obtain ⟨⟨w, t⟩, e⟩ := loadWord_ok (s := s) (by omega)
    refine ⟨_, e, ?_⟩
    have := congrArg List.length (loadWord_inv e)
    rw [List.length_append, put_length] at this
    show n ≤ t.length
    omega
  obtain ⟨r0, e0, h⟩ := step (n := 36) h
  obtain ⟨r1, e1, h⟩ := step (n := 32) h
  obtain ⟨r2, e2, h⟩ := step (n := 28) h
  obtain ⟨r3, e3, h⟩ := step (n := 24) h
  obtain ⟨r4, e4, h⟩ := step (n := 20) h
  obtain ⟨r5, e5, h⟩ := step (n := 16) h
  obtain ⟨r6, e6, h⟩ := step (n := 12) h
  obtain ⟨r7, e7, h⟩ := step (n := 8) h
  obtain ⟨r8, e8, h⟩ := step (n := 4) h
  obtain ⟨r9, e9, h⟩ := step (n := 0) h
  refine ⟨(⟨r0.1, r1.1, r2.1, r3.1, r4.1, r5.1, r6.1, r7.1, r8.1, r9.1⟩, r9.2), ?_⟩
  · simp only [loadField, e0, e1, e2, e3, e4, e5, e6, e7, e8, e9, Go.bind_ok]
    rfl

theorem loadPoint_inv {s t : Bytes} {p : Jac} (h : loadPoint s = .ok (p, t)) :
    s = serPoint p ++ t := by
  unfold loadPoint at h
  obtain ⟨⟨x, t0⟩, e0, h⟩ := bind_inv h
  obtain ⟨⟨y, t1⟩, e1, h⟩ := bind_inv h
  obtain ⟨⟨z, t2⟩, e2, h⟩ := bind_inv h
  have h : Go.ok ((⟨x, y, z⟩ : Jac), t2) = Go.ok (p, t) := h
  injection h with h
  injection h with h1 h2
  subst h1 h2
  rw [loadField_inv e0, loadField_inv e1, loadField_inv e2]
  simp only [serPoint, List.append_assoc]

theorem loadPoint_ok {s : Bytes} (h : 120 ≤ s.length) : ∃ r, loadPoint s = .ok r := by
  have step : ∀ {s : Bytes} {n : ℕ}, n + 40 ≤ s.length →
      ∃ r, loadField s = .ok r ∧ n ≤ r.2.length := by
    intro s n hn
    obtain ⟨⟨w, t⟩, e⟩ := loadField_ok (s := s) (by omega)
    refine ⟨_, e, ?_⟩
    have := congrArg List.length (loadField_inv e)
    rw [List.length_append, serField_length] at this
    show n ≤ t.length
    omega
  obtain ⟨r0, e0, h⟩ := step (n := 80) h
  obtain ⟨r1, e1, h⟩ := step (n := 40) h
  obtain ⟨r2, e2, h⟩ := step (n := 0) h
  refine ⟨(⟨r0.1, r1.1, r2.1⟩, r2.2), ?_⟩
  · simp only [loadPoint, e0, e1, e2, Go.bind_ok]
    rfl

theorem loadPoints_inv : ∀ (n : ℕ) {s : Bytes} {l : List Jac}, loadPoints n s = .ok l →
    l.length = n ∧ ∃ t, s = l.flatMap serPoint ++ t
  | 0, s, l, h => by
    have h : Go.ok [] = Go.ok l := h
    injection h with h
    subst h
    exact ⟨rfl, s, rfl⟩
  | n + 1, s, l, h => by
    unfold loadPoints at h
    obtain ⟨⟨p, t⟩, e, h⟩ := bind_inv h
    obtain ⟨l', e', h⟩ := bind_inv h
    have h : Go.ok (p :: l') = Go.ok l := h
    injection h with h
    subst h
    obtain ⟨h1, u, h2⟩ := loadPoints_inv n e'
    refine ⟨by rw [List.length_cons, h1], u, ?_⟩
    rw [loadPoint_inv e, h2, List.flatMap_cons, List.append_assoc]

theorem loadPoints_ok : ∀ (n : ℕ) {s : Bytes}, 120 * n ≤ s.length → ∃ l, loadPoints n s = .ok l
  | 0, _, _ => ⟨[], rfl⟩
  | n + 1, s, h => by
    obtain ⟨⟨p, t⟩, e⟩ := loadPoint_ok (s := s) (by omega)
    have hl := congrArg List.length (loadPoint_inv e)
    rw [List.length_append, serPoint_length] at hl
    obtain ⟨l, e'⟩ := loadPoints_ok n (s := t) (by omega)
    refine ⟨p :: l, ?_⟩
    simp only [loadPoints, e, e', Go.bind_ok]
    rfl

theorem getD_lt {α : Type} {l : List α} {i : ℕ} (d : α) (h : i < l.length) : l.getD i d = l[i] := by
  rw [List.getD_eq_getElem?_getD, List.getElem?_eq_getElem h, Option.getD_some]

/-- A list of rows, spelled out. -/
theorem rows_flatMap (l : List Jac) : ∀ n, l.length = n * 256 →
    l = (List.range n).flatMap fun b => (List.range 256).map fun i =>
      l.getD (256 * b + i) ⟨zero, zero, zero⟩ := by
  intro n hl
  have hr : ∀ b, ((List.range 256).map fun i => l.getD (256 * b + i) ⟨zero, zero, zero⟩).length = 256 := by
    intro b; rw [List.length_map, List.length_range]
  have hlen := flatMap_range_length hr n
  apply List.ext_getElem (by rw [hlen, hl])
  intro k h1 h2
  have hk : 256 * (k / 256) + k % 256 = k := Nat.div_add_mod k 256
  have hm : k % 256 < 256 := Nat.mod_lt _ (by decide)
  have := flatMap_range_getD hr ⟨zero, zero, zero⟩ hm n (k / 256)
    (by rw [hl] at h1; omega)
  rw [hk, getD_lt _ h2] at this
  rw [this, getD_lt _ (by rw [List.length_map, List.length_range]; exact hm),
    List.getElem_map, List.getElem_range, hk, getD_lt _ h1]

theorem load_inv {s : Bytes} {tab : Nat → UInt8 → Jac} (h : loadBytePoints s = .ok tab) :
    ∃ l : List Jac, l.length = 32 * 256 ∧ (∃ t, s = l.flatMap serPoint ++ t) ∧
      tab = fun b i => l.getD (256 * b + i.toNat) ⟨zero, zero, zero⟩ := by
  unfold loadBytePoints at h
  obtain ⟨l, e, h⟩ := bind_inv h
  obtain ⟨h1, h2⟩ := loadPoints_inv _ e
  refine ⟨l, h1, h2, ?_⟩
  injection h with h
  exact h.symm

/-- The table serializes to the bytes it was loaded from. -/
theorem load_bytes {s : Bytes} {tab : Nat → UInt8 → Jac} (h : loadBytePoints s = .ok tab) :
    ((List.range 32).flatMap fun b => (List.range 256).flatMap fun i => serPoint (tab b (UInt8.ofNat i))) =
      s.take 983040 := by
  obtain ⟨l, h1, ⟨t, rfl⟩, rfl⟩ := load_inv h
  have hlen : (l.flatMap serPoint).length = 983040 := by rw [flatMap_ser_length, h1]
  rw [List.take_left' hlen]
  conv_rhs => rw [rows_flatMap l 32 h1, List.flatMap_assoc]
  apply List.flatMap_congr
  intro b _
  rw [List.flatMap_map]
  apply List.flatMap_congr
  intro i hi
  rw [List.mem_range] at hi
  beta_reduce
  rw [UInt8.toNat_ofNat', Nat.mod_eq_of_lt hi]

theorem load_iff (s : Bytes) : (∃ tab, loadBytePoints s = .ok tab) ↔ 983040 ≤ s.length := by
  constructor
  · rintro ⟨tab, h⟩
    obtain ⟨l, h1, ⟨t, rfl⟩, -⟩ := load_inv h
    rw [List.length_append, flatMap_ser_length, h1]
    omega
  · intro h
    obtain ⟨l, e⟩ := loadPoints_ok (32 * 256) (s := s) (by omega)
    exact ⟨fun b i => l.getD (256 * b + i.toNat) ⟨zero, zero, zero⟩, by rw [loadBytePoints, e]; rfl⟩

end Zk.Gen
