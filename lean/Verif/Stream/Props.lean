import Verif.Stream.Late

/-! # Properties C158-C160: any reader and any writer -/

namespace Zk.Stream

open Zk Zk.Wire Zk.Ser

/-! ## C158: reading in pieces -/

/-- C158, first part.  A reader delivers its bytes in pieces of any sizes, empty ones too, without
an error, and `post` behind them, which may contain errors.  If reading the bytes of the pieces
from a buffer succeeds, then reading from this reader returns the same value, no error, and leaves
the same bytes and `post`; if it panics, so does reading from this reader; and if it fails and the
reader has nothing more, then reading from it returns an error and leaves the same bytes. -/
theorem C158_pieces (m : Nat) (pre post : Script) (hq : Quiet pre) :
    Same post (readVarInt (pre ++ post)) (Wire.readVarInt (flat pre)) ∧
    (∀ max, Same post (readVarBytes m (pre ++ post)) (Wire.readVarBytes m (flat pre) max)) ∧
    Same post (readECPoint m (pre ++ post)) (Ser.readECPoint m (flat pre)) ∧
    Same post (readBigInt m (pre ++ post)) (Ser.readBigInt m (flat pre)) :=
  ⟨readVarInt_same post hq, readVarBytes_same post hq m, readECPoint_same post hq m,
    readBigInt_same post hq m⟩

/-- C158, second part.  Whatever the reader does, errors included: a value returned without an
error is the one that a buffer with all bytes of the reader gives, and the bytes left are the
same. -/
theorem C158_any_reader (m : Nat) (s s' : Script) :
    (∀ v, readVarInt s = .ok (v, none, s') →
      Wire.readVarInt (flat s) = .ok (v, none, flat s')) ∧
    (∀ b max, readVarBytes m s = .ok (b, none, s') →
      Wire.readVarBytes m (flat s) max = .ok (b, none, flat s')) ∧
    (∀ p, readECPoint m s = .ok (p, none, s') →
      Ser.readECPoint m (flat s) = .ok (p, none, flat s')) ∧
    (∀ v, readBigInt m s = .ok (v, none, s') →
      Ser.readBigInt m (flat s) = .ok (v, none, flat s')) := by
  refine ⟨fun v h => ?_, fun b max h => ?_, fun p h => ?_, fun v h => ?_⟩
  · have := readVarInt_honest s; rw [h] at this; exact this
  · have := readVarBytes_honest m max s; rw [h] at this; exact this
  · have := readECPoint_honest m s; rw [h] at this; exact this
  · have := readBigInt_honest m s; rw [h] at this; exact this

/-- C158, third part.  Errors that come together with the last byte needed, or later, have no
effect: if reading bytes `x` from a buffer succeeds, and the reader delivers `x` no later than its
first error, then reading from it succeeds with the same value. -/
theorem C158_late_errors (m : Nat) (s : Script) (x rest : Bytes) (hx : x <+: delivered s) :
    (∀ v, Wire.readVarInt x = .ok (v, none, rest) → ∃ s', readVarInt s = .ok (v, none, s')) ∧
    (∀ b max, Wire.readVarBytes m x max = .ok (b, none, rest) →
      ∃ s', readVarBytes m s = .ok (b, none, s')) ∧
    (∀ p, Ser.readECPoint m x = .ok (p, none, rest) → ∃ s', readECPoint m s = .ok (p, none, s')) ∧
    (∀ v, Ser.readBigInt m x = .ok (v, none, rest) → ∃ s', readBigInt m s = .ok (v, none, s')) := by
  refine ⟨fun v h => ?_, fun b max h => ?_, fun p h => ?_, fun v h => ?_⟩
  · have := readVarInt_late hx; rw [h] at this; obtain ⟨s', -, h⟩ := this; exact ⟨s', h⟩
  · have := readVarBytes_late hx m max; rw [h] at this; obtain ⟨s', -, h⟩ := this; exact ⟨s', h⟩
  · have := readECPoint_late hx m; rw [h] at this; obtain ⟨s', -, h⟩ := this; exact ⟨s', h⟩
  · have := readBigInt_late hx m; rw [h] at this; obtain ⟨s', -, h⟩ := this; exact ⟨s', h⟩

/-- C158, fourth part.  Points and integers survive writing and reading back through a reader that
delivers their bytes in any pieces, no later than its first error, and the bytes left are those
behind them. -/
theorem C158_roundtrip (m : Nat) (hm : m < 2 ^ 63) (s : Script) :
    (∀ p : ECPoint, p.Filled → ∀ enc, Ser.writeECPoint p = .ok enc → enc.length ≤ m →
      enc <+: delivered s →
      ∃ s', readECPoint m s = .ok (p, none, s') ∧ flat s = enc ++ flat s') ∧
    (∀ (v : Int) (enc : Bytes), Ser.writeBigInt (some v) = .ok enc → enc.length ≤ m →
      enc <+: delivered s →
      ∃ s', readBigInt m s = .ok (some v, none, s') ∧ flat s = enc ++ flat s') := by
  constructor
  · intro p hp enc henc hl hx
    obtain ⟨enc', he, hr⟩ := Ser.C09_ecpoint_roundtrip p hp
    rw [henc] at he
    simp only [Go.ok.injEq] at he
    subst he
    obtain ⟨y, hy⟩ := hx.trans (delivered_prefix_flat s)
    obtain ⟨s', hs⟩ := (C158_late_errors m s enc [] hx).2.2.1 p
      (by have := hr m [] hl hm; rwa [List.append_nil] at this)
    refine ⟨s', hs, ?_⟩
    have h1 := (C158_any_reader m s s').2.2.1 p hs
    rw [← hy, hr m y hl hm] at h1
    simp only [Go.ok.injEq, Prod.mk.injEq, true_and] at h1
    rw [← hy, h1]
  · intro v enc henc hl hx
    obtain ⟨enc', he, hr⟩ := Ser.C10_bigint_roundtrip v
    rw [henc] at he
    simp only [Go.ok.injEq] at he
    subst he
    obtain ⟨y, hy⟩ := hx.trans (delivered_prefix_flat s)
    obtain ⟨s', hs⟩ := (C158_late_errors m s enc [] hx).2.2.2 (some v)
      (by have := hr m [] hl hm; rwa [List.append_nil] at this)
    refine ⟨s', hs, ?_⟩
    have h1 := (C158_any_reader m s s').2.2.2 (some v) hs
    rw [← hy, hr m y hl hm] at h1
    simp only [Go.ok.injEq, Prod.mk.injEq, true_and] at h1
    rw [← hy, h1]

/-- The integer -300 in four pieces, one of them empty, the last one with a broken connection. -/
example : ∃ s', readBigInt 1000
    [([3], none), ([1, 1], none), ([], none), ([0x2c, 9], some "connection reset"), ([8], none)] =
      .ok (some (-300), none, s') ∧
    flat [([3], none), ([1, 1], none), ([], none), ([0x2c, 9], some "connection reset"), ([8], none)] =
      [3, 1, 1, 0x2c] ++ flat s' :=
  (C158_roundtrip 1000 (by norm_num) _).2 (-300) [3, 1, 1, 0x2c] (by decide +kernel) (by simp)
    ⟨[9], rfl⟩

/-- An error that comes together with the last byte is dropped, one that comes earlier is
returned. -/
example :
    readBigInt 1000 [([2, 0], none), ([7], some "reset")] = .ok (some 7, none, []) ∧
    readBigInt 1000 [([2, 0], some "reset"), ([7], none)] = .ok (none, some "reset", [([7], none)]) :=
  ⟨by decide +kernel, by decide +kernel⟩

/-! ## C159: the error at the end of the input -/

/-- C159 as a caller of these functions would read the documentation of package io: `io.EOF` means
that the input ended before the value began, and an input that ends inside the value gives
`io.ErrUnexpectedEOF`.  See wire/common.go:289-303 and crypto.go:166-199. -/
def EofMeansClean : Prop :=
  ∀ (m : Nat) (s s' : Script), Quiet s →
    (∀ v, readVarInt s = .ok (v, some eof, s') → flat s = []) ∧
    (∀ b, readVarBytes m s = .ok (b, some eof, s') → flat s = []) ∧
    (∀ p, readECPoint m s = .ok (p, some eof, s') → flat s = []) ∧
    (∀ v, readBigInt m s = .ok (v, some eof, s') → flat s = [])

/-- C159 is false for each of the four functions: a VarInt cut behind its first byte, an integer
cut behind its length, and a point without its second coordinate all give `io.EOF`.  A caller who
reads values until `io.EOF` takes a truncated input for a complete one. -/
theorem C159_refuted :
    ¬ EofMeansClean ∧
    readVarInt [([0xfd], none)] = .ok (0, some eof, []) ∧
    readVarBytes 1000 [([5], none)] = .ok (none, some eof, []) ∧
    readBigInt 1000 [([5], none)] = .ok (none, some eof, []) ∧
    (∀ x : UInt8, readECPoint 1000 [([1, x], none)] = .ok (Zero, some eof, [])) := by
  have h1 : readVarInt [([0xfd], none)] = .ok (0, some eof, []) := by decide +kernel
  refine ⟨fun h => ?_, h1, by decide +kernel, by decide +kernel, fun x => rfl⟩
  have := (h 0 [([0xfd], none)] [] (by intro c hc; simp at hc; rw [hc])).1 0 h1
  simp at this

/-- C159, what does hold of a reader without errors: an empty input gives `io.EOF` from every
function, and the inputs for which `ReadVarInt`, `ReadVarBytes` and `ReadBigInt` return `io.EOF`
are exactly the empty one, those with only the first byte of a longer VarInt and (except for
`ReadVarInt`) those with only the length of a value that is not empty; for `ReadECPoint` also those
with a complete first coordinate and one of these behind it.  Missing from the full claim: all but
the empty one should not give `io.EOF`. -/
theorem C159_eof_partial (m : Nat) (s : Script) (hq : Quiet s) :
    (flat s = [] →
      (∃ s', readVarInt s = .ok (0, some eof, s')) ∧
      (∃ s', readVarBytes m s = .ok (none, some eof, s')) ∧
      (∃ s', readECPoint m s = .ok (Zero, some eof, s')) ∧
      (∃ s', readBigInt m s = .ok (none, some eof, s'))) ∧
    ((∃ v s', readVarInt s = .ok (v, some eof, s')) ↔
      flat s = [] ∨ flat s = [0xfd] ∨ flat s = [0xfe] ∨ flat s = [0xff]) ∧
    ((∃ s', readVarBytes m s = .ok (none, some eof, s')) ↔ EndsBetween m (flat s)) ∧
    ((∃ s', readBigInt m s = .ok (none, some eof, s')) ↔ EndsBetween m (flat s)) ∧
    ((∃ s', readECPoint m s = .ok (Zero, some eof, s')) ↔
      EndsBetween m (flat s) ∨
        ∃ x rest, x.length ≤ m ∧ x.length < 2 ^ 64 ∧ flat s = Wire.writeVarBytes x ++ rest ∧
          EndsBetween m rest) := by
  have hB := readVarBytes_eof m hq
  refine ⟨fun h0 => ?_, readVarInt_eof hq, hB, ?_, readECPoint_eof m hq⟩
  · have h8 : readFull 1 s = ([], some eof, []) := by
      rw [readFull_short hq (by rw [h0]; simp), h0, if_pos rfl]
    have hv : readVarInt s = .ok (0, some eof, []) := by
      unfold readVarInt uint8; rw [h8]; rfl
    have hb : readVarBytes m s = .ok (none, some eof, []) := by
      unfold readVarBytes; rw [hv]; rfl
    exact ⟨⟨_, hv⟩, ⟨_, hb⟩, ⟨[], by unfold readECPoint; rw [hb]; rfl⟩,
      ⟨[], by unfold readBigInt; rw [hb]; rfl⟩⟩
  · rw [← hB]
    unfold readBigInt
    constructor
    · rintro ⟨s', h⟩
      obtain ⟨⟨b, e, s1⟩, hr, h⟩ := Go.bind_eq_ok.1 h
      cases e with
      | some e =>
        simp only [Option.isSome_some, if_true, Go.pure_eq, Go.ok.injEq, Prod.mk.injEq,
          Option.some.injEq, true_and] at h
        have hn : b = none := readVarBytes_err hr
        rw [hr, hn, h.1]
        exact ⟨_, rfl⟩
      | none =>
        simp only [Option.isSome_none, Bool.false_eq_true, if_false] at h
        obtain ⟨bs, -, h⟩ := Go.bind_eq_ok.1 h
        match bs, h with
        | [], h => simp at h
        | b0 :: tl, h =>
          simp only at h
          split_ifs at h <;> simp at h
    · rintro ⟨s', h⟩
      rw [h]
      exact ⟨s', rfl⟩

/-- Behind the length of a value of 300 bytes the error is `io.EOF`, one byte later it is not. -/
example : EndsBetween 1000 [0xfd, 0x2c, 0x01] ∧ ¬ EndsBetween 1000 [0xfd, 0x2c] ∧
    readVarBytes 1000 [([0xfd, 0x2c, 0x01, 7], none)] = .ok (none, some unexpectedEOF, []) := by
  refine ⟨Or.inr (Or.inr (Or.inr (Or.inr ⟨300, by decide, by decide, by decide⟩))), ?_,
    by decide +kernel⟩
  have hq : Quiet [([0xfd, 0x2c], none)] := by intro c hc; simp at hc; rw [hc]
  have := readVarBytes_eof 1000 hq
  rw [show flat [([0xfd, 0x2c], none)] = [0xfd, 0x2c] from rfl] at this
  rw [← this]
  rintro ⟨s', h⟩
  rw [show readVarBytes 1000 [([0xfd, 0x2c], none)] = .ok (none, some unexpectedEOF, []) by
    decide +kernel] at h
  simp [eof_ne_unexpected] at h

/-! ## C160: writers that fail -/

/-- The contract of `io.Writer` (Go standard library; wire/common.go:126): `Write` takes at most
the bytes of its argument, and an error comes with a short count. -/
def Conforms {σ : Type} (w : Writer σ) : Prop :=
  ∀ st b, (w st b).1 ≤ b.length ∧ ((w st b).1 < b.length → (w st b).2.1 ≠ none)

/-- What a function that writes `enc` must do: bytes are added that begin `enc`, and they are all
of `enc` if it returns no error; it returns the error of its last `Write`, and the calls before
that returned none, so that nothing is written behind a failure.  See wire/common.go:231-319 and
crypto.go:156-186. -/
def Writes {σ : Type} (enc : Bytes) (s : WState σ) (r : Option Err × WState σ) : Prop :=
  ∃ (b : Bytes) (es : List (Option Err)), r.2.out = s.out ++ b ∧ b <+: enc ∧
    (r.1 = none → b = enc) ∧ r.2.errs = s.errs ++ es ++ [r.1] ∧ ∀ e ∈ es, e = none

theorem Writes.write {σ : Type} {w : Writer σ} (hw : Conforms w) (b : Bytes) (s : WState σ) :
    Writes b s (write w b s) := by
  obtain ⟨h1, h2⟩ := hw s.st b
  unfold Stream.write
  generalize w s.st b = r at h1 h2
  obtain ⟨n, e, st⟩ := r
  refine ⟨b.take n, [], rfl, List.take_prefix _ _, ?_, by simp, by simp⟩
  rintro (rfl : e = none)
  exact List.take_of_length_le (by
    by_contra h
    exact h2 (by simpa using h) rfl)

/-- One write function after the other, unless the first fails. -/
theorem Writes.seq {σ : Type} {x y : Bytes} {s : WState σ} {r : Option Err × WState σ}
    (h : Writes x s r) (k : WState σ → Option Err × WState σ) (hk : ∀ s, Writes y s (k s)) :
    Writes (x ++ y) s (match (generalizing := false) r with
      | (some e, s) => (some e, s)
      | (none, s) => k s) := by
  obtain ⟨e, s1⟩ := r
  obtain ⟨b, es, ho, hp, hn, he, hes⟩ := h
  cases e with
  | some e => exact ⟨b, es, ho, hp.trans (List.prefix_append _ _), by simp, he, hes⟩
  | none =>
    obtain rfl := hn rfl
    obtain ⟨b2, es2, ho2, hp2, hn2, he2, hes2⟩ := hk s1
    refine ⟨b ++ b2, es ++ [none] ++ es2, ?_, ?_, ?_, ?_, ?_⟩
    · show (k s1).2.out = _
      rw [ho2]
      have : s1.out = s.out ++ b := ho
      rw [this, List.append_assoc]
    · exact (List.prefix_append_right_inj b).2 hp2
    · intro h; rw [hn2 h]
    · show (k s1).2.errs = _
      rw [he2]
      have : s1.errs = s.errs ++ es ++ [none] := he
      rw [this]; simp
    · intro e h
      simp only [List.append_assoc, List.mem_append, List.mem_singleton] at h
      rcases h with h | h | h
      · exact hes e h
      · exact h
      · exact hes2 e h

theorem writeVarInt_writes {σ : Type} {w : Writer σ} (hw : Conforms w) (v : UInt64)
    (s : WState σ) : Writes (Wire.writeVarInt v) s (writeVarInt w v s) := by
  unfold writeVarInt Wire.writeVarInt
  split_ifs
  · exact Writes.write hw _ s
  · exact (Writes.write hw _ s).seq _ (fun s => Writes.write hw _ s)
  · exact (Writes.write hw _ s).seq _ (fun s => Writes.write hw _ s)
  · exact (Writes.write hw _ s).seq _ (fun s => Writes.write hw _ s)

theorem writeVarBytes_writes {σ : Type} {w : Writer σ} (hw : Conforms w) (b : Bytes)
    (s : WState σ) : Writes (Wire.writeVarBytes b) s (writeVarBytes w b s) := by
  unfold writeVarBytes Wire.writeVarBytes
  refine (writeVarInt_writes hw _ s).seq (fun s => match write w b s with
    | (some e, s) => (some e, s)
    | (none, s) => (none, s)) (fun s => ?_)
  have h := Writes.write hw b s
  have : (match write w b s with
    | (some e, s) => (some e, s)
    | (none, s) => (none, s)) = write w b s := by
    generalize write w b s = r
    obtain ⟨e, s1⟩ := r
    cases e <;> rfl
  rw [this]
  exact h

/-- C160. For every writer that keeps the contract of `io.Writer`, in every state: `WriteVarInt`,
`WriteVarBytes`, `WriteBigInt` and `WriteECPoint` return no error only if the whole encoding was
taken, whatever fails they leave a prefix of the encoding, they return the error of the failing
`Write` and write nothing after it. -/
theorem C160_writers {σ : Type} (w : Writer σ) (hw : Conforms w) (s : WState σ) :
    (∀ v, Writes (Wire.writeVarInt v) s (writeVarInt w v s)) ∧
    (∀ b, Writes (Wire.writeVarBytes b) s (writeVarBytes w b s)) ∧
    (∀ v enc, Ser.writeBigInt v = .ok enc →
      ∃ r, writeBigInt w v s = .ok r ∧ Writes enc s r) ∧
    (∀ p enc, Ser.writeECPoint p = .ok enc →
      ∃ r, writeECPoint w p s = .ok r ∧ Writes enc s r) := by
  refine ⟨fun v => writeVarInt_writes hw v s, fun b => writeVarBytes_writes hw b s, ?_, ?_⟩
  · intro v enc h
    match v, h with
    | some v, h =>
      simp only [Ser.writeBigInt, deref_some, Go.bind_ok, Go.pure_eq, Go.ok.injEq] at h
      subst h
      exact ⟨_, rfl, writeVarBytes_writes hw _ s⟩
  · intro p enc h
    match p, h with
    | ⟨some x, some y⟩, h =>
      simp only [Ser.writeECPoint, ptrBytes, deref_some, Go.bind_ok, Go.pure_eq, Go.ok.injEq] at h
      subst h
      have h1 := (writeVarBytes_writes hw (intBytes x) s).seq (writeVarBytes w (intBytes y))
        (fun s => writeVarBytes_writes hw (intBytes y) s)
      refine ⟨_, ?_, h1⟩
      simp only [writeECPoint, ptrBytes, deref_some, Go.bind_ok, Go.pure_eq]
      generalize writeVarBytes w (intBytes x) s = r
      obtain ⟨e, s1⟩ := r
      cases e <;> rfl

/-- Reading back: what was written without an error is read back as the same point and integer
by any reader that delivers the bytes, in any pieces, no later than its first error. -/
theorem C160_roundtrip {σ : Type} (w : Writer σ) (hw : Conforms w) (s : WState σ)
    (h0 : s.out = []) (m : Nat) (hm : m < 2 ^ 63) (r : Script) :
    (∀ (v : Int) s', writeBigInt w (some v) s = .ok (none, s') → s'.out.length ≤ m →
      s'.out <+: delivered r →
      ∃ r', readBigInt m r = .ok (some v, none, r') ∧ flat r = s'.out ++ flat r') ∧
    (∀ (p : ECPoint) s', p.Filled → writeECPoint w p s = .ok (none, s') → s'.out.length ≤ m →
      s'.out <+: delivered r →
      ∃ r', readECPoint m r = .ok (p, none, r') ∧ flat r = s'.out ++ flat r') := by
  obtain ⟨-, -, hB, hP⟩ := C160_writers w hw s
  obtain ⟨rP, rB⟩ := C158_roundtrip m hm r
  constructor
  · intro v s' h hl hx
    obtain ⟨enc, henc, -⟩ := Ser.C10_bigint_roundtrip v
    obtain ⟨r1, hr, b, es, ho, -, hn, -⟩ := hB (some v) enc henc
    rw [h] at hr
    simp only [Go.ok.injEq] at hr
    subst hr
    have ho' : s'.out = enc := by rw [← hn rfl]; simpa [h0] using ho
    rw [ho'] at hl hx ⊢
    exact rB v enc henc hl hx
  · intro p s' hp h hl hx
    obtain ⟨enc, henc, -⟩ := Ser.C09_ecpoint_roundtrip p hp
    obtain ⟨r1, hr, b, es, ho, -, hn, -⟩ := hP p enc henc
    rw [h] at hr
    simp only [Go.ok.injEq] at hr
    subst hr
    have ho' : s'.out = enc := by rw [← hn rfl]; simpa [h0] using ho
    rw [ho'] at hl hx ⊢
    exact rP p hp enc henc hl hx

/-- A disk with room for `st` bytes, an instance of `io.Writer`, wire/common.go:126. -/
def disk : Writer Nat := fun st b =>
  if b.length ≤ st then (b.length, none, st - b.length) else (st, some "no space left on device", 0)

theorem disk_conforms : Conforms disk := by
  intro st b
  unfold disk
  split_ifs with h
  · exact ⟨Nat.le_refl _, fun h => absurd h (Nat.lt_irrefl _)⟩
  · exact ⟨by simp only; omega, fun _ => by simp⟩

/-- Room for three bytes: the point (1, 2) takes four. -/
example : writeECPoint disk (pt 1 2) ⟨3, [], []⟩ =
    .ok (some "no space left on device",
      ⟨0, [1, 1, 1], [none, none, none, some "no space left on device"]⟩) := by decide +kernel

/-- A writer that takes too little without an error breaks the contract, and then `WriteBigInt`
does not notice: it drops the count.  See wire/common.go:126. -/
def lossy : Writer Unit := fun _ b => (min b.length 1, none, ())

example : ¬ Conforms lossy ∧
    (∃ s', writeBigInt lossy (some 7) ⟨(), [], []⟩ = .ok (none, s') ∧ s'.out = [2, 0]) ∧
    Ser.writeBigInt (some 7) = .ok [2, 0, 7] := by
  refine ⟨fun h => (h () [1, 2]).2 (by decide) rfl, ⟨⟨(), [2, 0], [none, none]⟩, ?_, rfl⟩, ?_⟩
  · decide +kernel
  · decide +kernel

end Zk.Stream
