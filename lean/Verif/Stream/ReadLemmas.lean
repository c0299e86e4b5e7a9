import Verif.Stream.Lemmas
import Verif.Ser.Props
import Verif.Wire.Props

/-!
# Every read function agrees with its model on a byte list
-/

namespace Zk.Stream

open Zk Zk.Wire Zk.Ser

theorem idx_ok {b : Bytes} {i : Nat} (h : i < b.length) : ∃ v, idx b i = .ok v := by
  refine ⟨b[i], ?_⟩
  simp [idx, List.getElem?_eq_getElem h]

theorem leUint16_ok {b : Bytes} (h : b.length = 2) : ∃ v, leUint16 b = .ok v := by
  match b, h with
  | [_, _], _ => exact ⟨_, rfl⟩

theorem leUint32_ok {b : Bytes} (h : b.length = 4) : ∃ v, leUint32 b = .ok v := by
  match b, h with
  | [_, _, _, _], _ => exact ⟨_, rfl⟩

theorem leUint64_ok {b : Bytes} (h : b.length = 8) : ∃ v, leUint64 b = .ok v := by
  match b, h with
  | [_, _, _, _, _, _, _, _], _ => exact ⟨_, rfl⟩

section same
variable {pre : Script} (post : Script) (hq : Quiet pre)
include hq

theorem uint8_same : Same post (uint8 (pre ++ post)) (Wire.uint8 (flat pre)) := by
  unfold uint8 Wire.uint8
  refine Same.readFull hq 1 (f := fun r => match r with
    | (_, some e, rest) => Go.ok (0, some e, rest)
    | (buf, none, rest) => do
      let b0 ← idx buf 0
      pure (b0, none, rest)) (g := fun r => match r with
    | (_, some e, rest) => Go.ok (0, some e, rest)
    | (buf, none, rest) => do
      let b0 ← idx buf 0
      pure (b0, none, rest)) (fun b pre' hb hq' => ?_) (fun b e e' => ⟨0, e', rfl, e, rfl⟩)
  obtain ⟨v, hv⟩ := idx_ok (b := b) (i := 0) (by omega)
  simp only [hv]
  exact Same.pure hq' v

theorem uint16_same : Same post (uint16 (pre ++ post)) (Wire.uint16 (flat pre)) := by
  unfold uint16 Wire.uint16
  refine Same.readFull hq 2 (f := fun r => match r with
    | (_, some e, rest) => Go.ok (0, some e, rest)
    | (buf, none, rest) => do
      let b0 ← leUint16 buf
      pure (b0, none, rest)) (g := fun r => match r with
    | (_, some e, rest) => Go.ok (0, some e, rest)
    | (buf, none, rest) => do
      let b0 ← leUint16 buf
      pure (b0, none, rest)) (fun b pre' hb hq' => ?_) (fun b e e' => ⟨0, e', rfl, e, rfl⟩)
  obtain ⟨v, hv⟩ := leUint16_ok hb
  simp only [hv]
  exact Same.pure hq' v

theorem uint32_same : Same post (uint32 (pre ++ post)) (Wire.uint32 (flat pre)) := by
  unfold uint32 Wire.uint32
  refine Same.readFull hq 4 (f := fun r => match r with
    | (_, some e, rest) => Go.ok (0, some e, rest)
    | (buf, none, rest) => do
      let b0 ← leUint32 buf
      pure (b0, none, rest)) (g := fun r => match r with
    | (_, some e, rest) => Go.ok (0, some e, rest)
    | (buf, none, rest) => do
      let b0 ← leUint32 buf
      pure (b0, none, rest)) (fun b pre' hb hq' => ?_) (fun b e e' => ⟨0, e', rfl, e, rfl⟩)
  obtain ⟨v, hv⟩ := leUint32_ok hb
  simp only [hv]
  exact Same.pure hq' v

theorem uint64_same : Same post (uint64 (pre ++ post)) (Wire.uint64 (flat pre)) := by
  unfold uint64 Wire.uint64
  refine Same.readFull hq 8 (f := fun r => match r with
    | (_, some e, rest) => Go.ok (0, some e, rest)
    | (buf, none, rest) => do
      let b0 ← leUint64 buf
      pure (b0, none, rest)) (g := fun r => match r with
    | (_, some e, rest) => Go.ok (0, some e, rest)
    | (buf, none, rest) => do
      let b0 ← leUint64 buf
      pure (b0, none, rest)) (fun b pre' hb hq' => ?_) (fun b e e' => ⟨0, e', rfl, e, rfl⟩)
  obtain ⟨v, hv⟩ := leUint64_ok hb
  simp only [hv]
  exact Same.pure hq' v

theorem readVarInt_same : Same post (readVarInt (pre ++ post)) (Wire.readVarInt (flat pre)) := by
  unfold readVarInt Wire.readVarInt
  refine (uint8_same post hq).bind (fun d pre hq => ?_)
    (fun a e' t' => ⟨0, e', by simp, fun e s => ⟨e, by simp⟩⟩)
  simp only [Option.isSome_none, Bool.false_eq_true, if_false]
  split_ifs with h1 h2 h3
  · refine (uint64_same post hq).bind (fun v pre hq => ?_)
      (fun a e' t' => ⟨0, e', by simp, fun e s => ⟨e, by simp⟩⟩)
    simp only [Option.isSome_none, Bool.false_eq_true, if_false]
    split_ifs
    · exact Same.error hq _ _ _
    · exact Same.pure hq _
  · refine (uint32_same post hq).bind (fun v pre hq => ?_)
      (fun a e' t' => ⟨0, e', by simp, fun e s => ⟨e, by simp⟩⟩)
    simp only [Option.isSome_none, Bool.false_eq_true, if_false]
    split_ifs
    · exact Same.error hq _ _ _
    · exact Same.pure hq _
  · refine (uint16_same post hq).bind (fun v pre hq => ?_)
      (fun a e' t' => ⟨0, e', by simp, fun e s => ⟨e, by simp⟩⟩)
    simp only [Option.isSome_none, Bool.false_eq_true, if_false]
    split_ifs
    · exact Same.error hq _ _ _
    · exact Same.pure hq _
  · exact Same.pure hq _

theorem readVarBytes_same (m : Nat) (max : UInt32) :
    Same post (readVarBytes m (pre ++ post)) (Wire.readVarBytes m (flat pre) max) := by
  unfold readVarBytes Wire.readVarBytes
  refine (readVarInt_same post hq).bind (fun c pre hq => ?_)
    (fun a e' t' => ⟨none, e', by simp, fun e s => ⟨e, by simp⟩⟩)
  simp only [Option.isSome_none, Bool.false_eq_true, if_false]
  split_ifs
  · exact rfl
  · refine Same.readFull hq c.toNat (f := fun r => match r with
      | (_, some e, rest) => Go.ok (none, some e, rest)
      | (b, none, rest) => Go.ok (some b, none, rest)) (g := fun r => match r with
      | (_, some e, rest) => Go.ok (none, some e, rest)
      | (b, none, rest) => Go.ok (some b, none, rest)) (fun b pre' hb hq' => ?_)
      (fun b e e' => ⟨none, e', rfl, e, rfl⟩)
    exact Same.pure hq' _

theorem readECPoint_same (m : Nat) :
    Same post (readECPoint m (pre ++ post)) (Ser.readECPoint m (flat pre)) := by
  unfold readECPoint Ser.readECPoint
  refine (readVarBytes_same post hq m 32).bind (fun x pre hq => ?_)
    (fun a e' t' => ⟨Zero, e', by simp, fun e s => ⟨e, by simp⟩⟩)
  simp only [Option.isSome_none, Bool.false_eq_true, if_false]
  refine (readVarBytes_same post hq m 32).bind (fun y pre hq => ?_)
    (fun a e' t' => ⟨Zero, e', by simp, fun e s => ⟨e, by simp⟩⟩)
  simp only [Option.isSome_none, Bool.false_eq_true, if_false]
  cases x with
  | none => exact rfl
  | some x =>
    cases y with
    | none => exact rfl
    | some y => exact Same.pure hq _

theorem readBigInt_same (m : Nat) :
    Same post (readBigInt m (pre ++ post)) (Ser.readBigInt m (flat pre)) := by
  unfold readBigInt Ser.readBigInt
  refine (readVarBytes_same post hq m 32).bind (fun x pre hq => ?_)
    (fun a e' t' => ⟨none, e', by simp, fun e s => ⟨e, by simp⟩⟩)
  simp only [Option.isSome_none, Bool.false_eq_true, if_false]
  match x with
  | none => exact rfl
  | some [] => exact rfl
  | some (b :: tl) =>
    simp only [deref_some, Go.bind_ok]
    split_ifs
    · exact Same.pure hq _
    · exact Same.pure hq _

end same

theorem uint8_honest (s : Script) : Honest (uint8 s) (Wire.uint8 (flat s)) := by
  unfold uint8 Wire.uint8
  refine Honest.readFull s 1 (f := fun r => match r with
    | (_, some e, rest) => Go.ok (0, some e, rest)
    | (buf, none, rest) => do
      let b0 ← idx buf 0
      pure (b0, none, rest)) (g := fun r => match r with
    | (_, some e, rest) => Go.ok (0, some e, rest)
    | (buf, none, rest) => do
      let b0 ← idx buf 0
      pure (b0, none, rest)) (fun b s' hb => ?_) (fun b e s' => ⟨0, e, s', rfl⟩)
  obtain ⟨v, hv⟩ := idx_ok (b := b) (i := 0) (by omega)
  simp only [hv]
  exact rfl

theorem uint16_honest (s : Script) : Honest (uint16 s) (Wire.uint16 (flat s)) := by
  unfold uint16 Wire.uint16
  refine Honest.readFull s 2 (f := fun r => match r with
    | (_, some e, rest) => Go.ok (0, some e, rest)
    | (buf, none, rest) => do
      let b0 ← leUint16 buf
      pure (b0, none, rest)) (g := fun r => match r with
    | (_, some e, rest) => Go.ok (0, some e, rest)
    | (buf, none, rest) => do
      let b0 ← leUint16 buf
      pure (b0, none, rest)) (fun b s' hb => ?_) (fun b e s' => ⟨0, e, s', rfl⟩)
  obtain ⟨v, hv⟩ := leUint16_ok hb
  simp only [hv]
  exact rfl

theorem uint32_honest (s : Script) : Honest (uint32 s) (Wire.uint32 (flat s)) := by
  unfold uint32 Wire.uint32
  refine Honest.readFull s 4 (f := fun r => match r with
    | (_, some e, rest) => Go.ok (0, some e, rest)
    | (buf, none, rest) => do
      let b0 ← leUint32 buf
      pure (b0, none, rest)) (g := fun r => match r with
    | (_, some e, rest) => Go.ok (0, some e, rest)
    | (buf, none, rest) => do
      let b0 ← leUint32 buf
      pure (b0, none, rest)) (fun b s' hb => ?_) (fun b e s' => ⟨0, e, s', rfl⟩)
  obtain ⟨v, hv⟩ := leUint32_ok hb
  simp only [hv]
  exact rfl

theorem uint64_honest (s : Script) : Honest (uint64 s) (Wire.uint64 (flat s)) := by
  unfold uint64 Wire.uint64
  refine Honest.readFull s 8 (f := fun r => match r with
    | (_, some e, rest) => Go.ok (0, some e, rest)
    | (buf, none, rest) => do
      let b0 ← leUint64 buf
      pure (b0, none, rest)) (g := fun r => match r with
    | (_, some e, rest) => Go.ok (0, some e, rest)
    | (buf, none, rest) => do
      let b0 ← leUint64 buf
      pure (b0, none, rest)) (fun b s' hb => ?_) (fun b e s' => ⟨0, e, s', rfl⟩)
  obtain ⟨v, hv⟩ := leUint64_ok hb
  simp only [hv]
  exact rfl

theorem readVarInt_honest (s : Script) : Honest (readVarInt s) (Wire.readVarInt (flat s)) := by
  unfold readVarInt Wire.readVarInt
  refine (uint8_honest s).bind (fun d s => ?_) (fun a e s => ⟨0, e, s, by simp⟩)
  simp only [Option.isSome_none, Bool.false_eq_true, if_false]
  split_ifs with h1 h2 h3
  · refine (uint64_honest s).bind (fun d s => ?_) (fun a e s => ⟨0, e, s, by simp⟩)
    simp only [Option.isSome_none, Bool.false_eq_true, if_false]
    split_ifs
    · exact trivial
    · exact rfl
  · refine (uint32_honest s).bind (fun d s => ?_) (fun a e s => ⟨0, e, s, by simp⟩)
    simp only [Option.isSome_none, Bool.false_eq_true, if_false]
    split_ifs
    · exact trivial
    · exact rfl
  · refine (uint16_honest s).bind (fun d s => ?_) (fun a e s => ⟨0, e, s, by simp⟩)
    simp only [Option.isSome_none, Bool.false_eq_true, if_false]
    split_ifs
    · exact trivial
    · exact rfl
  · exact rfl

theorem readVarBytes_honest (m : Nat) (max : UInt32) (s : Script) :
    Honest (readVarBytes m s) (Wire.readVarBytes m (flat s) max) := by
  unfold readVarBytes Wire.readVarBytes
  refine (readVarInt_honest s).bind (fun c s => ?_) (fun a e s => ⟨none, e, s, by simp⟩)
  simp only [Option.isSome_none, Bool.false_eq_true, if_false]
  split_ifs
  · exact rfl
  · refine Honest.readFull s c.toNat (f := fun r => match r with
      | (_, some e, rest) => Go.ok (none, some e, rest)
      | (b, none, rest) => Go.ok (some b, none, rest)) (g := fun r => match r with
      | (_, some e, rest) => Go.ok (none, some e, rest)
      | (b, none, rest) => Go.ok (some b, none, rest)) (fun b s' hb => ?_)
      (fun b e s' => ⟨none, e, s', rfl⟩)
    exact rfl

theorem readECPoint_honest (m : Nat) (s : Script) :
    Honest (readECPoint m s) (Ser.readECPoint m (flat s)) := by
  unfold readECPoint Ser.readECPoint
  refine (readVarBytes_honest m 32 s).bind (fun x s => ?_) (fun a e s => ⟨Zero, e, s, by simp⟩)
  simp only [Option.isSome_none, Bool.false_eq_true, if_false]
  refine (readVarBytes_honest m 32 s).bind (fun y s => ?_) (fun a e s => ⟨Zero, e, s, by simp⟩)
  simp only [Option.isSome_none, Bool.false_eq_true, if_false]
  cases x with
  | none => exact rfl
  | some x =>
    cases y with
    | none => exact rfl
    | some y => exact rfl

theorem readBigInt_honest (m : Nat) (s : Script) :
    Honest (readBigInt m s) (Ser.readBigInt m (flat s)) := by
  unfold readBigInt Ser.readBigInt
  refine (readVarBytes_honest m 32 s).bind (fun x s => ?_) (fun a e s => ⟨none, e, s, by simp⟩)
  simp only [Option.isSome_none, Bool.false_eq_true, if_false]
  match x with
  | none => exact rfl
  | some [] => exact rfl
  | some (b :: tl) =>
    simp only [deref_some, Go.bind_ok]
    split_ifs
    · exact rfl
    · exact rfl

/-! ## When the error is `io.EOF` -/

/-- What a primitive integer read does on a quiet reader. -/
theorem uint_cases {α : Type} {n : Nat} {s : Script} (hq : Quiet s)
    (f : Bytes → Go α) (hf : ∀ b : Bytes, b.length = n → ∃ v, f b = .ok v) (z : α) :
    ((flat s).length < n ∧
      (match readFull n s with
        | (_, some e, rest) => Go.ok (z, some e, rest)
        | (buf, none, rest) => do
          let v ← f buf
          pure (v, none, rest)) =
        .ok (z, some (if flat s = [] then eof else unexpectedEOF), [])) ∨
    (∃ v pre, Quiet pre ∧ f ((flat s).take n) = .ok v ∧ n ≤ (flat s).length ∧
      flat pre = (flat s).drop n ∧
      (match readFull n s with
        | (_, some e, rest) => Go.ok (z, some e, rest)
        | (buf, none, rest) => do
          let v ← f buf
          pure (v, none, rest)) = .ok (v, none, pre)) := by
  by_cases h : (flat s).length < n
  · left
    rw [readFull_short hq h]
    exact ⟨h, rfl⟩
  · right
    obtain ⟨pre, hq', hfl, hr⟩ := readFull_enough (n := n) [] hq (by omega)
    obtain ⟨v, hv⟩ := hf ((flat s).take n) (by rw [List.length_take]; omega)
    rw [List.append_nil, List.append_nil] at hr
    refine ⟨v, pre, hq', hv, by omega, hfl, ?_⟩
    rw [hr]
    simp only [hv]
    rfl

theorem eof_ne_unexpected : unexpectedEOF ≠ eof := by decide
theorem eof_ne_noncanonical : ("errNonCanonicalVarInt" : Err) ≠ eof := by decide

/-- `ReadVarInt` returns `io.EOF` from a quiet reader exactly when there is nothing to read or
nothing behind the first byte. -/
theorem readVarInt_eof {s : Script} (hq : Quiet s) :
    (∃ v s', readVarInt s = .ok (v, some eof, s')) ↔
      flat s = [] ∨ flat s = [0xfd] ∨ flat s = [0xfe] ∨ flat s = [0xff] := by
  unfold readVarInt
  rcases uint_cases (n := 1) hq (fun b => idx b 0) (fun b hb => idx_ok (by omega)) (0 : UInt8) with
    ⟨hl, hr⟩ | ⟨d, pre, hqp, hd, hl, hfl, hr⟩
  · have h0 : flat s = [] := List.length_eq_zero_iff.1 (by omega)
    have : uint8 s = .ok (0, some eof, []) := by
      rw [h0, if_pos rfl] at hr; exact hr
    rw [this]
    simp [h0]
  · have hu : uint8 s = .ok (d, none, pre) := hr
    rw [hu]
    obtain ⟨c, t, hct⟩ : ∃ c t, flat s = c :: t := by
      cases hh : flat s with
      | nil => rw [hh] at hl; simp at hl
      | cons c t => exact ⟨c, t, rfl⟩
    have hcd : c = d := by
      rw [hct] at hd
      simpa [idx] using hd
    subst hcd
    have ht : flat pre = t := by rw [hfl, hct]; rfl
    simp only [Go.bind_ok, Option.isSome_none, Bool.false_eq_true, if_false]
    rw [hct]
    split_ifs with h1 h2 h3
    · subst h1
      rcases uint_cases hqp leUint64 (fun b hb => leUint64_ok hb) (0 : UInt64) with
        ⟨hl, hr⟩ | ⟨v, pre2, -, -, hl, -, hr⟩
      · have hu : uint64 pre = _ := hr
        rw [hu, ht]
        by_cases h0 : t = []
        · simp [h0]
        · simp [h0, eof_ne_unexpected]
      · have hu : uint64 pre = _ := hr
        rw [hu]
        have h0 : t ≠ [] := by rintro rfl; rw [ht] at hl; simp at hl
        simp only [Go.bind_ok, Option.isSome_none, Bool.false_eq_true, if_false]
        split_ifs <;> simp [h0, eof_ne_noncanonical]
    · subst h2
      rcases uint_cases hqp leUint32 (fun b hb => leUint32_ok hb) (0 : UInt32) with
        ⟨hl, hr⟩ | ⟨v, pre2, -, -, hl, -, hr⟩
      · have hu : uint32 pre = _ := hr
        rw [hu, ht]
        by_cases h0 : t = []
        · simp [h0]
        · simp [h0, eof_ne_unexpected]
      · have hu : uint32 pre = _ := hr
        rw [hu]
        have h0 : t ≠ [] := by rintro rfl; rw [ht] at hl; simp at hl
        simp only [Go.bind_ok, Option.isSome_none, Bool.false_eq_true, if_false]
        split_ifs <;> simp [h0, eof_ne_noncanonical]
    · subst h3
      rcases uint_cases hqp leUint16 (fun b hb => leUint16_ok hb) (0 : UInt16) with
        ⟨hl, hr⟩ | ⟨v, pre2, -, -, hl, -, hr⟩
      · have hu : uint16 pre = _ := hr
        rw [hu, ht]
        by_cases h0 : t = []
        · simp [h0]
        · simp [h0, eof_ne_unexpected]
      · have hu : uint16 pre = _ := hr
        rw [hu]
        have h0 : t ≠ [] := by rintro rfl; rw [ht] at hl; simp at hl
        simp only [Go.bind_ok, Option.isSome_none, Bool.false_eq_true, if_false]
        split_ifs <;> simp [h0, eof_ne_noncanonical]
    · simp [h1, h2, h3]

/-- `ReadVarInt` of a quiet reader without an error. -/
theorem readVarInt_ok {s s' : Script} (hq : Quiet s) {v : UInt64}
    (h : readVarInt s = .ok (v, none, s')) :
    Quiet s' ∧ flat s = Wire.writeVarInt v ++ flat s' := by
  have h1 := readVarInt_honest s
  rw [h] at h1
  have h2 : Wire.readVarInt (flat s) = .ok (v, none, flat s') := h1
  refine ⟨?_, Wire.C02_varint_canonical _ _ _ h2⟩
  have h3 := readVarInt_same [] hq
  rw [h2, List.append_nil, h] at h3
  obtain ⟨pre, hqp, -, hp⟩ := h3
  simp only [Go.ok.injEq, Prod.mk.injEq, List.append_nil, true_and] at hp
  rw [hp]; exact hqp

/-- The input ends where a field could begin (wire/common.go:289-303): before the length, behind
the first byte of a long length, or behind the length of a field that is not empty. -/
def EndsBetween (m : Nat) (b : Bytes) : Prop :=
  b = [] ∨ b = [0xfd] ∨ b = [0xfe] ∨ b = [0xff] ∨
    ∃ v : UInt64, v ≠ 0 ∧ v.toNat ≤ m ∧ b = Wire.writeVarInt v

theorem readVarBytes_eof (m : Nat) {s : Script} (hq : Quiet s) :
    (∃ s', readVarBytes m s = .ok (none, some eof, s')) ↔ EndsBetween m (flat s) := by
  unfold EndsBetween
  have hE := readVarInt_eof hq
  have hT := Wire.C04_varint_total (flat s)
  have hS := readVarInt_same [] hq
  rw [List.append_nil] at hS
  obtain ⟨⟨c, e, t⟩, ht⟩ := hT
  rw [ht] at hS
  unfold readVarBytes
  cases e with
  | some e =>
    obtain ⟨e', pre, hqp, hf, hr⟩ := hS rfl
    have hno : ¬ ∃ v : UInt64, v ≠ 0 ∧ v.toNat ≤ m ∧ flat s = Wire.writeVarInt v := by
      rintro ⟨v, -, -, h⟩
      have := Wire.C01_varint_roundtrip v []
      rw [List.append_nil, ← h, ht] at this
      simp at this
    rw [hr] at hE ⊢
    simp only [Go.bind_ok, Option.isSome_some, if_true]
    constructor
    · rintro ⟨s', h⟩
      simp only [Go.pure_eq, Go.ok.injEq, Prod.mk.injEq, true_and] at h
      have := hE.1 ⟨c, pre, by rw [h.1]⟩
      tauto
    · intro h
      have h' : flat s = [] ∨ flat s = [0xfd] ∨ flat s = [0xfe] ∨ flat s = [0xff] := by
        rcases h with h | h | h | h | h
        · exact Or.inl h
        · exact Or.inr (Or.inl h)
        · exact Or.inr (Or.inr (Or.inl h))
        · exact Or.inr (Or.inr (Or.inr h))
        · exact absurd h hno
      obtain ⟨v, s', h2⟩ := hE.2 h'
      simp only [Go.ok.injEq, Prod.mk.injEq] at h2
      exact ⟨pre, by rw [h2.2.1]; rfl⟩
  | none =>
    obtain ⟨pre, hqp, hf, hr⟩ := hS
    rw [List.append_nil] at hr
    have hno : ¬ (flat s = [] ∨ flat s = [0xfd] ∨ flat s = [0xfe] ∨ flat s = [0xff]) := by
      intro h
      obtain ⟨v, s', h2⟩ := hE.2 h
      rw [hr] at h2
      simp at h2
    have hfl := (readVarInt_ok hq hr).2
    have hval : ∀ v : UInt64, flat s = Wire.writeVarInt v → v = c ∧ flat pre = [] := by
      intro v h
      have := Wire.C02_varint_prefix_free v c [] (flat pre) (by rw [List.append_nil, ← h, hfl])
      exact ⟨this.1, this.2.symm⟩
    rw [hr]
    simp only [Go.bind_ok, Option.isSome_none, Bool.false_eq_true, if_false]
    by_cases hm : m < c.toNat
    · rw [if_pos hm]
      constructor
      · rintro ⟨s', h⟩; simp at h
      · intro h
        have : ∃ v : UInt64, v ≠ 0 ∧ v.toNat ≤ m ∧ flat s = Wire.writeVarInt v := by tauto
        obtain ⟨v, -, hvm, h⟩ := this
        have := (hval v h).1
        subst this
        omega
    · rw [if_neg hm]
      by_cases hsh : (flat pre).length < c.toNat
      · rw [readFull_short hqp hsh]
        by_cases h0 : flat pre = []
        · simp only [h0, if_true]
          constructor
          · intro _
            right; right; right; right
            refine ⟨c, ?_, by omega, by rw [hfl, h0, List.append_nil]⟩
            rintro rfl
            simp at hsh
          · intro _; exact ⟨[], rfl⟩
        · simp only [h0, if_false]
          constructor
          · rintro ⟨s', h⟩
            simp [eof_ne_unexpected] at h
          · intro h
            have : ∃ v : UInt64, v ≠ 0 ∧ v.toNat ≤ m ∧ flat s = Wire.writeVarInt v := by tauto
            obtain ⟨v, -, hvm, h⟩ := this
            exact absurd (hval v h).2 h0
      · obtain ⟨pre2, -, -, hrf⟩ := readFull_enough (n := c.toNat) [] hqp (by omega)
        rw [List.append_nil] at hrf
        rw [hrf]
        constructor
        · rintro ⟨s', h⟩; simp at h
        · intro h
          have : ∃ v : UInt64, v ≠ 0 ∧ v.toNat ≤ m ∧ flat s = Wire.writeVarInt v := by tauto
          obtain ⟨v, hv0, hvm, h⟩ := this
          obtain ⟨rfl, h0⟩ := hval v h
          rw [h0] at hsh
          exfalso
          apply hv0
          apply UInt64.toNat_inj.1
          simp at hsh
          simpa using hsh

/-- `ReadVarBytes` of a quiet reader without an error. -/
theorem readVarBytes_ok (m : Nat) {s s' : Script} (hq : Quiet s) {b : Option Bytes}
    (h : readVarBytes m s = .ok (b, none, s')) :
    Quiet s' ∧ ∃ x, b = some x ∧ flat s = Wire.writeVarBytes x ++ flat s' ∧
      Wire.readVarBytes m (flat s) 32 = .ok (some x, none, flat s') := by
  have h1 := readVarBytes_honest m 32 s
  rw [h] at h1
  have h2 : Wire.readVarBytes m (flat s) 32 = .ok (b, none, flat s') := h1
  have h3 := readVarBytes_same [] hq m 32
  rw [h2, List.append_nil, h] at h3
  obtain ⟨pre, hqp, -, hp⟩ := h3
  simp only [Go.ok.injEq, Prod.mk.injEq, List.append_nil, true_and] at hp
  refine ⟨by rw [hp]; exact hqp, ?_⟩
  cases b with
  | none =>
    exfalso
    unfold Wire.readVarBytes at h2
    obtain ⟨⟨c, e2, s2⟩, -, h2⟩ := Go.bind_eq_ok.1 h2
    cases e2 with
    | some e2 => simp at h2
    | none =>
      simp only [Option.isSome_none, Bool.false_eq_true, if_false] at h2
      split_ifs at h2
      revert h2
      split <;> intro h2 <;> simp at h2
  | some x => exact ⟨x, rfl, (Wire.C06_varbytes_partial m (flat s) 32).1 x _ h2, h2⟩

/-- An error of `ReadVarBytes` comes with nil. -/
theorem readVarBytes_err {m : Nat} {s s' : Script} {b : Option Bytes} {e : Err}
    (hr : readVarBytes m s = .ok (b, some e, s')) : b = none := by
  unfold readVarBytes at hr
  obtain ⟨⟨c, e2, s2⟩, -, hr⟩ := Go.bind_eq_ok.1 hr
  cases e2 with
  | some e2 =>
    simp only [Option.isSome_some, if_true, Go.pure_eq, Go.ok.injEq, Prod.mk.injEq] at hr
    exact hr.1.symm
  | none =>
    simp only [Option.isSome_none, Bool.false_eq_true, if_false] at hr
    split_ifs at hr
    revert hr
    split
    · intro hr
      simp only [Go.pure_eq, Go.ok.injEq, Prod.mk.injEq] at hr
      exact hr.1.symm
    · intro hr
      simp at hr

theorem readECPoint_eof (m : Nat) {s : Script} (hq : Quiet s) :
    (∃ s', readECPoint m s = .ok (Zero, some eof, s')) ↔
      EndsBetween m (flat s) ∨
        ∃ x rest, x.length ≤ m ∧ x.length < 2 ^ 64 ∧ flat s = Wire.writeVarBytes x ++ rest ∧
          EndsBetween m rest := by
  unfold readECPoint
  constructor
  · rintro ⟨s', h⟩
    obtain ⟨⟨b, e, s1⟩, hr, h⟩ := Go.bind_eq_ok.1 h
    cases e with
    | some e =>
      left
      simp only [Option.isSome_some, if_true, Go.pure_eq, Go.ok.injEq, Prod.mk.injEq,
        Option.some.injEq, true_and] at h
      rw [readVarBytes_err hr, h.1] at hr
      exact (readVarBytes_eof m hq).1 ⟨_, hr⟩
    | none =>
      right
      simp only [Option.isSome_none, Bool.false_eq_true, if_false] at h
      obtain ⟨hq1, x, rfl, hf, hw⟩ := readVarBytes_ok m hq hr
      obtain ⟨⟨b2, e2, s2⟩, hr2, h⟩ := Go.bind_eq_ok.1 h
      cases e2 with
      | some e2 =>
        simp only [Option.isSome_some, if_true, Go.pure_eq, Go.ok.injEq, Prod.mk.injEq,
          Option.some.injEq, true_and] at h
        rw [readVarBytes_err hr2, h.1] at hr2
        have hlen : x.length ≤ m ∧ x.length < 2 ^ 64 := by
          obtain ⟨⟨c, e, t⟩, ht⟩ := Wire.C04_varint_total (flat s)
          have hP := Wire.C06_varbytes_partial m (flat s) 32
          cases e with
          | some e => rw [hP.2.2 _ _ _ ht] at hw; simp at hw
          | none =>
            obtain ⟨p1, p2, p3⟩ := hP.2.1 _ _ ht
            by_cases hm : m < c.toNat
            · rw [p1 hm] at hw; simp at hw
            · by_cases hl : t.length < c.toNat
              · rw [p2 (by omega) hl] at hw; simp at hw
              · rw [p3 (by omega) (by omega)] at hw
                simp only [Go.ok.injEq, Prod.mk.injEq, Option.some.injEq, true_and] at hw
                have hx : x.length = c.toNat := by
                  rw [← hw.1, List.length_take]; omega
                have := c.toNat_lt
                omega
        exact ⟨x, flat s1, hlen.1, hlen.2, hf, (readVarBytes_eof m hq1).1 ⟨_, hr2⟩⟩
      | none =>
        simp only [Option.isSome_none, Bool.false_eq_true, if_false] at h
        obtain ⟨xb, -, h⟩ := Go.bind_eq_ok.1 h
        obtain ⟨yb, -, h⟩ := Go.bind_eq_ok.1 h
        simp at h
  · rintro (h | ⟨x, rest, hm, hx, hf, h⟩)
    · obtain ⟨s', h⟩ := (readVarBytes_eof m hq).2 h
      exact ⟨s', by rw [h]; rfl⟩
    · have hr : Wire.readVarBytes m (flat s) 32 = .ok (some x, none, rest) := by
        have hn : (UInt64.ofNat x.length).toNat = x.length := by
          simp only [UInt64.toNat_ofNat']; omega
        rw [hf]
        unfold Wire.readVarBytes Wire.writeVarBytes
        rw [List.append_assoc, Wire.C01_varint_roundtrip]
        simp [hn, Nat.not_lt.2 hm, Wire.readFull_append]
      have hs := readVarBytes_same [] hq m 32
      rw [hr, List.append_nil] at hs
      obtain ⟨pre, hqp, hfp, hs⟩ := hs
      rw [List.append_nil] at hs
      rw [← hfp] at h
      obtain ⟨s', h⟩ := (readVarBytes_eof m hqp).2 h
      refine ⟨s', ?_⟩
      rw [hs]
      simp only [Go.bind_ok, Option.isSome_none, Bool.false_eq_true, if_false]
      rw [h]
      rfl

end Zk.Stream
