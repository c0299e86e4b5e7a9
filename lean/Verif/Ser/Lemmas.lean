import Verif.Ser.Model
import Verif.Wire.Props

/-! # Helper lemmas for serialization -/

namespace Zk.Ser

open Zk Zk.Wire

/-- `r` reads the value `v` from its encoding `enc`, and reports an error, leaving nothing, on
every proper prefix of it.  See crypto.go:166-176. -/
structure Reads {α : Type} (r : Bytes → Go (α × Option Err × Bytes)) (enc : Bytes) (v bad : α) :
    Prop where
  full : ∀ rest, r (enc ++ rest) = .ok (v, none, rest)
  short : ∀ s t, t ≠ [] → s ++ t = enc → ∃ e, r s = .ok (bad, some e, [])

/-- A prefix of a concatenation stops inside the first part or after it. -/
theorem split_prefix {s t a r : Bytes} (h : s ++ t = a ++ r) :
    (∃ s', s = a ++ s' ∧ s' ++ t = r) ∨ (∃ t', t' ≠ [] ∧ s ++ t' = a) := by
  rw [List.append_eq_append_iff] at h
  rcases h with ⟨u, hu1, hu2⟩ | ⟨u, hu1, hu2⟩
  · by_cases hu : u = []
    · left; subst hu; exact ⟨[], by simpa using hu1.symm, by simpa using hu2⟩
    · right; exact ⟨u, hu, hu1.symm⟩
  · left; exact ⟨u, hu1, hu2.symm⟩

theorem readVarInt_reads (v : UInt64) : Reads readVarInt (writeVarInt v) v 0 where
  full := C01_varint_roundtrip v
  short := by
    intro s t ht h
    match s, h with
    | [], _ => exact ⟨_, readVarInt_nil⟩
    | b :: s, h =>
      unfold writeVarInt at h
      have hlen := congrArg List.length h
      split_ifs at h hlen with h1 h2 h3
      · simp [putUint8] at h; exact absurd h.2.2 ht
      · simp only [putUint8, List.cons_append, List.nil_append, List.cons.injEq] at h
        obtain ⟨rfl, h⟩ := h
        have hs : s.length < 2 := by
          have := List.length_pos_iff.2 ht
          simp [putUint8, putUint16] at hlen; omega
        exact ⟨"EOF", by simp [readVarInt_fd, uint16_short _ hs]⟩
      · simp only [putUint8, List.cons_append, List.nil_append, List.cons.injEq] at h
        obtain ⟨rfl, h⟩ := h
        have hs : s.length < 4 := by
          have := List.length_pos_iff.2 ht
          simp [putUint8, putUint32] at hlen; omega
        exact ⟨"EOF", by simp [readVarInt_fe, uint32_short _ hs]⟩
      · simp only [putUint8, List.cons_append, List.nil_append, List.cons.injEq] at h
        obtain ⟨rfl, h⟩ := h
        have hs : s.length < 8 := by
          have := List.length_pos_iff.2 ht
          simp [putUint8, putUint64] at hlen; omega
        exact ⟨"EOF", by simp [readVarInt_ff, uint64_short _ hs]⟩

theorem readVarBytes_reads {maxAlloc : Nat} {b : Bytes} (m : UInt32) (h63 : b.length < 2 ^ 63)
    (ha : b.length ≤ maxAlloc) :
    Reads (fun s => readVarBytes maxAlloc s m) (writeVarBytes b) (some b) none where
  full := fun rest => C05_varbytes_roundtrip maxAlloc b rest m h63 ha
  short := by
    intro s t ht h
    unfold writeVarBytes at h
    have hn : (UInt64.ofNat b.length).toNat = b.length := by
      simp only [UInt64.toNat_ofNat']; omega
    rcases split_prefix h with ⟨s', rfl, hs'⟩ | ⟨t', ht', hs⟩
    · refine ⟨"EOF", ?_⟩
      have hr := C01_varint_roundtrip (UInt64.ofNat b.length) s'
      have hl : s'.length < b.length := by
        have := congrArg List.length hs'
        have := List.length_pos_iff.2 ht
        simp at *; omega
      exact ((C06_varbytes_partial maxAlloc _ m).2.1 _ _ hr).2.1 (by omega) (by omega)
    · obtain ⟨e, he⟩ := (readVarInt_reads _).short s t' ht' hs
      exact ⟨e, (C06_varbytes_partial maxAlloc _ m).2.2 _ _ _ he⟩

theorem readVarBytes_nil (maxAlloc : Nat) (m : UInt32) :
    readVarBytes maxAlloc [] m = .ok (none, some "EOF", []) := by
  simp [readVarBytes, readVarInt_nil]

theorem readECPoint_nil (maxAlloc : Nat) :
    readECPoint maxAlloc [] = .ok (Zero, some "EOF", []) := by
  simp [readECPoint, readVarBytes_nil]

theorem readBigInt_nil (maxAlloc : Nat) :
    readBigInt maxAlloc [] = .ok (none, some "EOF", []) := by
  simp [readBigInt, readVarBytes_nil]

theorem writeVarBytes_length_ge (b : Bytes) : b.length ≤ (writeVarBytes b).length := by
  simp [writeVarBytes]

theorem writeVarInt_length_pos (v : UInt64) : 1 ≤ (writeVarInt v).length := by
  have := (C03_varint_size v).1
  rw [← this]; unfold varIntSerializeSize; split_ifs <;> omega

/-- The bytes `WriteECPoint` emits for coordinates `x`, `y`.  See crypto.go:156-163. -/
def encPoint (x y : Int) : Bytes := writeVarBytes (intBytes x) ++ writeVarBytes (intBytes y)

/-- The bytes `WriteBigInt` emits for `v`.  See crypto.go:179-186. -/
def encInt (v : Int) : Bytes := writeVarBytes ((if v < 0 then 0x01 else 0x00) :: intBytes v)

theorem writeECPoint_pt (x y : Int) : writeECPoint (pt x y) = .ok (encPoint x y) := rfl

theorem writeBigInt_some (v : Int) : writeBigInt (some v) = .ok (encInt v) := rfl

theorem writeECPoint_inv {p : ECPoint} {b : Bytes} (h : writeECPoint p = .ok b) :
    ∃ x y, p = pt x y ∧ b = encPoint x y := by
  obtain ⟨X, Y⟩ := p
  cases X with
  | none => simp [writeECPoint, ptrBytes] at h
  | some x =>
    cases Y with
    | none => simp [writeECPoint, ptrBytes] at h
    | some y =>
      refine ⟨x, y, rfl, ?_⟩
      have := writeECPoint_pt x y
      unfold pt at this
      rw [h] at this
      simpa using this

theorem writeBigInt_inv {p : Option Int} {b : Bytes} (h : writeBigInt p = .ok b) :
    ∃ x, p = some x ∧ b = encInt x := by
  cases p with
  | none => simp [writeBigInt] at h
  | some x =>
    refine ⟨x, rfl, ?_⟩
    rw [writeBigInt_some] at h
    simpa using h.symm

theorem readECPoint_reads {maxAlloc : Nat} {x y : Int} (hx : 0 ≤ x) (hy : 0 ≤ y)
    (h63 : maxAlloc < 2 ^ 63) (ha : (encPoint x y).length ≤ maxAlloc) :
    Reads (readECPoint maxAlloc) (encPoint x y) (pt x y) Zero := by
  have h1 := writeVarBytes_length_ge (intBytes x)
  have h2 := writeVarBytes_length_ge (intBytes y)
  have hl : (encPoint x y).length =
      (writeVarBytes (intBytes x)).length + (writeVarBytes (intBytes y)).length := by
    simp [encPoint]
  have rx := readVarBytes_reads (maxAlloc := maxAlloc) (b := intBytes x) 32 (by omega) (by omega)
  have ry := readVarBytes_reads (maxAlloc := maxAlloc) (b := intBytes y) 32 (by omega) (by omega)
  have ex : ((setBytes (intBytes x) : Nat) : Int) = x := by
    rw [setBytes_intBytes]; omega
  have ey : ((setBytes (intBytes y) : Nat) : Int) = y := by
    rw [setBytes_intBytes]; omega
  constructor
  · intro rest
    unfold readECPoint encPoint
    rw [List.append_assoc]
    have e1 := rx.full (writeVarBytes (intBytes y) ++ rest)
    have e2 := ry.full rest
    rw [e1]
    simp [e2, ex, ey]
  · intro s t ht h
    unfold encPoint at h
    unfold readECPoint
    rcases split_prefix h with ⟨s', rfl, hs'⟩ | ⟨t', ht', hs⟩
    · have e1 := rx.full s'
      obtain ⟨e, he⟩ := ry.short s' t ht hs'
      exact ⟨e, by rw [e1]; simp [he]⟩
    · obtain ⟨e, he⟩ := rx.short s t' ht' hs
      exact ⟨e, by rw [he]; simp⟩

theorem readBigInt_reads {maxAlloc : Nat} {v : Int}
    (h63 : maxAlloc < 2 ^ 63) (ha : (encInt v).length ≤ maxAlloc) :
    Reads (readBigInt maxAlloc) (encInt v) (some v) none := by
  have h1 := writeVarBytes_length_ge ((if v < 0 then 0x01 else 0x00) :: intBytes v)
  have hl : (encInt v).length =
      (writeVarBytes ((if v < 0 then 0x01 else 0x00) :: intBytes v)).length := rfl
  have r := readVarBytes_reads (maxAlloc := maxAlloc)
    (b := (if v < 0 then 0x01 else 0x00) :: intBytes v) 32 (by omega) (by omega)
  constructor
  · intro rest
    unfold readBigInt encInt
    have e1 := r.full rest
    rw [e1]
    by_cases hv : v < 0
    · simp [hv, setBytes_intBytes, abs_of_neg]
    · simp [hv, setBytes_intBytes, abs_of_nonneg (not_lt.1 hv)]
  · intro s t ht h
    obtain ⟨e, he⟩ := r.short s t ht h
    exact ⟨e, by unfold readBigInt; rw [he]; simp⟩

end Zk.Ser
