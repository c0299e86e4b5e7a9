import Verif.Stream.ReadLemmas

/-!
# Errors that come with the last byte or later do not matter
-/

namespace Zk.Stream

open Zk Zk.Wire Zk.Ser

/-- The bytes that a reader delivers no later than its first error; those that come together with
the error belong to them.  See crypto.go:166-199. -/
def delivered : Script → Bytes
  | [] => []
  | (b, none) :: s => b ++ delivered s
  | (b, some _) :: _ => b

theorem delivered_prefix_flat : ∀ s : Script, delivered s <+: flat s
  | [] => List.nil_prefix
  | (b, none) :: s => by
    rw [delivered, flat_cons]
    exact (List.prefix_append_right_inj b).2 (delivered_prefix_flat s)
  | (b, some _) :: s => by
    rw [delivered, flat_cons]
    exact List.prefix_append _ _

theorem flat_prefix_delivered : ∀ {pre : Script} (post : Script), Quiet pre →
    flat pre <+: delivered (pre ++ post)
  | [], _, _ => List.nil_prefix
  | (b, e) :: pre, post, hq => by
    obtain rfl : e = none := hq.head
    rw [List.cons_append, delivered, flat_cons]
    exact (List.prefix_append_right_inj b).2 (flat_prefix_delivered post hq.tail)

/-- The loop succeeds when enough comes no later than the first error, and what is left of these
bytes still comes in time. -/
theorem loop_late (min : Nat) : ∀ (s : Script) (got : Bytes), got.length ≤ min →
    min ≤ got.length + (delivered s).length →
    ∃ err s', loop min got s = (got ++ (delivered s).take (min - got.length), err, s') ∧
      (delivered s).drop (min - got.length) <+: delivered s' := by
  intro s
  induction s with
  | nil =>
    intro got h1 h2
    have h3 : min ≤ got.length := by simpa [delivered] using h2
    exact ⟨none, [], by simp [loop, h3, delivered], by simp [delivered]⟩
  | cons c s ih =>
    obtain ⟨b, e⟩ := c
    intro got h1 h2
    by_cases h3 : min ≤ got.length
    · have h0 : min - got.length = 0 := by omega
      exact ⟨none, (b, e) :: s, by simp [loop, h3, h0], by rw [h0]; exact List.prefix_rfl⟩
    · by_cases h4 : b.length ≤ min - got.length
      · cases e with
        | some e =>
          simp only [delivered] at h2 ⊢
          refine ⟨some e, s, ?_, ?_⟩
          · rw [List.take_of_length_le h4]; simp [loop, h3, h4]
          · rw [List.drop_of_length_le h4]; exact List.nil_prefix
        | none =>
          simp only [delivered, List.length_append] at h2
          obtain ⟨err, s', hl, hp⟩ := ih (got ++ b) (by simp; omega) (by simp; omega)
          have h5 : min - (got ++ b).length = min - got.length - b.length := by
            rw [List.length_append]; omega
          rw [h5] at hl hp
          refine ⟨err, s', ?_, ?_⟩
          · have : loop min got ((b, none) :: s) = loop min (got ++ b) s := by
              simp [loop, h3, h4]
            rw [this, hl, delivered, List.take_append, List.take_of_length_le h4, List.append_assoc]
          · rw [delivered, List.drop_append, List.drop_of_length_le h4, List.nil_append]
            exact hp
      · have hb : (delivered ((b, e) :: s)).take (min - got.length) = b.take (min - got.length) := by
          cases e with
          | some e => rfl
          | none => rw [delivered, List.take_append_of_le_length (by omega)]
        refine ⟨none, (b.drop (min - got.length), e) :: s, ?_, ?_⟩
        · rw [hb]; simp [loop, h3, h4]
        · cases e with
          | some e => exact List.prefix_rfl
          | none =>
            rw [delivered, delivered, List.drop_append_of_le_length (by omega)]

theorem readFull_late {n : Nat} {s : Script} {x : Bytes} (hx : x <+: delivered s)
    (h : n ≤ x.length) :
    ∃ s', readFull n s = (x.take n, none, s') ∧ x.drop n <+: delivered s' := by
  obtain ⟨y, hy⟩ := hx
  obtain ⟨err, s', hl, hp⟩ := loop_late n s [] (by simp)
    (by rw [← hy]; simp only [List.length_append, List.length_nil]; omega)
  simp only [List.length_nil, Nat.sub_zero, List.nil_append] at hl hp
  rw [← hy, List.take_append_of_le_length h] at hl
  rw [← hy, List.drop_append_of_le_length h] at hp
  refine ⟨s', ?_, (List.prefix_append _ _).trans hp⟩
  unfold readFull
  rw [hl]
  have : n ≤ (x.take n).length := by rw [List.length_take]; omega
  simp only [this, if_true]

/-- `t` reads bytes that the reader of `r` delivers no later than its first error.  Used to compare
the two models of crypto.go:166-199. -/
def Late {α : Type} (r : Go (α × Option Err × Script)) (t : Go (α × Option Err × Bytes)) : Prop :=
  match t with
  | .panic => r = .panic
  | .ok (a, none, x) => ∃ s, x <+: delivered s ∧ r = .ok (a, none, s)
  | .ok (_, some _, _) => True

theorem Late.bind {α β : Type} {r : Go (α × Option Err × Script)}
    {t : Go (α × Option Err × Bytes)} {f : α × Option Err × Script → Go (β × Option Err × Script)}
    {g : α × Option Err × Bytes → Go (β × Option Err × Bytes)} (h : Late r t)
    (ok : ∀ a s x, x <+: delivered s → Late (f (a, none, s)) (g (a, none, x)))
    (err : ∀ a e x, ∃ b e2 x2, g (a, some e, x) = .ok (b, some e2, x2)) :
    Late (r >>= f) (t >>= g) := by
  match t, h with
  | .panic, h => rw [show r = .panic from h]; exact rfl
  | .ok (a, none, x), h =>
    obtain ⟨s, hx, rfl⟩ := h
    exact ok a s x hx
  | .ok (a, some e, x), _ =>
    obtain ⟨b, e2, x2, hg⟩ := err a e x
    rw [Go.bind_ok, hg]
    exact trivial

theorem Late.readFull {α : Type} {s : Script} {x : Bytes} (hx : x <+: delivered s) (n : Nat)
    {f : Bytes × Option Err × Script → Go (α × Option Err × Script)}
    {g : Bytes × Option Err × Bytes → Go (α × Option Err × Bytes)}
    (ok : ∀ b s' x', b.length = n → x' <+: delivered s' → Late (f (b, none, s')) (g (b, none, x')))
    (err : ∀ b e x', ∃ a e2 x2, g (b, some e, x') = .ok (a, some e2, x2)) :
    Late (f (Stream.readFull n s)) (g (Wire.readFull n x)) := by
  by_cases h : n ≤ x.length
  · obtain ⟨s', hr, hp⟩ := readFull_late hx h
    rw [hr, Wire.readFull, if_pos h]
    exact ok _ _ _ (by rw [List.length_take]; omega) hp
  · rw [Wire.readFull, if_neg h]
    obtain ⟨a, e2, x2, hg⟩ := err x "EOF" []
    rw [hg]
    exact trivial

section late
variable {s : Script} {x : Bytes} (hx : x <+: delivered s)
include hx

theorem uint8_late : Late (uint8 s) (Wire.uint8 x) := by
  unfold uint8 Wire.uint8
  refine Late.readFull hx 1 (f := fun r => match r with
    | (_, some e, rest) => Go.ok (0, some e, rest)
    | (buf, none, rest) => do
      let b0 ← idx buf 0
      pure (b0, none, rest)) (g := fun r => match r with
    | (_, some e, rest) => Go.ok (0, some e, rest)
    | (buf, none, rest) => do
      let b0 ← idx buf 0
      pure (b0, none, rest)) (fun b s' x' hb hx' => ?_) (fun b e x' => ⟨0, e, x', rfl⟩)
  obtain ⟨v, hv⟩ := idx_ok (b := b) (i := 0) (by omega)
  simp only [hv]
  exact ⟨s', hx', rfl⟩

theorem uint16_late : Late (uint16 s) (Wire.uint16 x) := by
  unfold uint16 Wire.uint16
  refine Late.readFull hx 2 (f := fun r => match r with
    | (_, some e, rest) => Go.ok (0, some e, rest)
    | (buf, none, rest) => do
      let b0 ← leUint16 buf
      pure (b0, none, rest)) (g := fun r => match r with
    | (_, some e, rest) => Go.ok (0, some e, rest)
    | (buf, none, rest) => do
      let b0 ← leUint16 buf
      pure (b0, none, rest)) (fun b s' x' hb hx' => ?_) (fun b e x' => ⟨0, e, x', rfl⟩)
  obtain ⟨v, hv⟩ := leUint16_ok hb
  simp only [hv]
  exact ⟨s', hx', rfl⟩

theorem uint32_late : Late (uint32 s) (Wire.uint32 x) := by
  unfold uint32 Wire.uint32
  refine Late.readFull hx 4 (f := fun r => match r with
    | (_, some e, rest) => Go.ok (0, some e, rest)
    | (buf, none, rest) => do
      let b0 ← leUint32 buf
      pure (b0, none, rest)) (g := fun r => match r with
    | (_, some e, rest) => Go.ok (0, some e, rest)
    | (buf, none, rest) => do
      let b0 ← leUint32 buf
      pure (b0, none, rest)) (fun b s' x' hb hx' => ?_) (fun b e x' => ⟨0, e, x', rfl⟩)
  obtain ⟨v, hv⟩ := leUint32_ok hb
  simp only [hv]
  exact ⟨s', hx', rfl⟩

theorem uint64_late : Late (uint64 s) (Wire.uint64 x) := by
  unfold uint64 Wire.uint64
  refine Late.readFull hx 8 (f := fun r => match r with
    | (_, some e, rest) => Go.ok (0, some e, rest)
    | (buf, none, rest) => do
      let b0 ← leUint64 buf
      pure (b0, none, rest)) (g := fun r => match r with
    | (_, some e, rest) => Go.ok (0, some e, rest)
    | (buf, none, rest) => do
      let b0 ← leUint64 buf
      pure (b0, none, rest)) (fun b s' x' hb hx' => ?_) (fun b e x' => ⟨0, e, x', rfl⟩)
  obtain ⟨v, hv⟩ := leUint64_ok hb
  simp only [hv]
  exact ⟨s', hx', rfl⟩

theorem readVarInt_late : Late (readVarInt s) (Wire.readVarInt x) := by
  unfold readVarInt Wire.readVarInt
  refine (uint8_late hx).bind (fun d s x hx => ?_) (fun a e x => ⟨0, e, x, by simp⟩)
  simp only [Option.isSome_none, Bool.false_eq_true, if_false]
  split_ifs with h1 h2 h3
  · refine (uint64_late hx).bind (fun d s x hx => ?_) (fun a e x => ⟨0, e, x, by simp⟩)
    simp only [Option.isSome_none, Bool.false_eq_true, if_false]
    split_ifs
    · exact trivial
    · exact ⟨s, hx, rfl⟩
  · refine (uint32_late hx).bind (fun d s x hx => ?_) (fun a e x => ⟨0, e, x, by simp⟩)
    simp only [Option.isSome_none, Bool.false_eq_true, if_false]
    split_ifs
    · exact trivial
    · exact ⟨s, hx, rfl⟩
  · refine (uint16_late hx).bind (fun d s x hx => ?_) (fun a e x => ⟨0, e, x, by simp⟩)
    simp only [Option.isSome_none, Bool.false_eq_true, if_false]
    split_ifs
    · exact trivial
    · exact ⟨s, hx, rfl⟩
  · exact ⟨s, hx, rfl⟩

theorem readVarBytes_late (m : Nat) (max : UInt32) :
    Late (readVarBytes m s) (Wire.readVarBytes m x max) := by
  unfold readVarBytes Wire.readVarBytes
  refine (readVarInt_late hx).bind (fun c s x hx => ?_) (fun a e x => ⟨none, e, x, by simp⟩)
  simp only [Option.isSome_none, Bool.false_eq_true, if_false]
  split_ifs
  · exact rfl
  · refine Late.readFull hx c.toNat (f := fun r => match r with
      | (_, some e, rest) => Go.ok (none, some e, rest)
      | (b, none, rest) => Go.ok (some b, none, rest)) (g := fun r => match r with
      | (_, some e, rest) => Go.ok (none, some e, rest)
      | (b, none, rest) => Go.ok (some b, none, rest)) (fun b s' x' hb hx' => ?_)
      (fun b e x' => ⟨none, e, x', rfl⟩)
    exact ⟨s', hx', rfl⟩

theorem readECPoint_late (m : Nat) : Late (readECPoint m s) (Ser.readECPoint m x) := by
  unfold readECPoint Ser.readECPoint
  refine (readVarBytes_late hx m 32).bind (fun a s x hx => ?_) (fun a e x => ⟨Zero, e, x, by simp⟩)
  simp only [Option.isSome_none, Bool.false_eq_true, if_false]
  refine (readVarBytes_late hx m 32).bind (fun b s x hx => ?_) (fun a e x => ⟨Zero, e, x, by simp⟩)
  simp only [Option.isSome_none, Bool.false_eq_true, if_false]
  cases a with
  | none => exact rfl
  | some a =>
    cases b with
    | none => exact rfl
    | some b => exact ⟨s, hx, rfl⟩

theorem readBigInt_late (m : Nat) : Late (readBigInt m s) (Ser.readBigInt m x) := by
  unfold readBigInt Ser.readBigInt
  refine (readVarBytes_late hx m 32).bind (fun a s x hx => ?_) (fun a e x => ⟨none, e, x, by simp⟩)
  simp only [Option.isSome_none, Bool.false_eq_true, if_false]
  match a with
  | none => exact rfl
  | some [] => exact rfl
  | some (b :: tl) =>
    simp only [deref_some, Go.bind_ok]
    split_ifs
    · exact ⟨s, hx, rfl⟩
    · exact ⟨s, hx, rfl⟩

end late

end Zk.Stream
