import Verif.Wire.Lemmas

/-! # Properties C01-C06: variable-length integers and byte strings -/

namespace Zk.Wire

open Zk

/-- C01. Reading back a written VarInt returns the number and leaves what follows. -/
theorem C01_varint_roundtrip (v : UInt64) (rest : Bytes) :
    readVarInt (writeVarInt v ++ rest) = .ok (v, none, rest) := by
  have hv := v.toNat_lt
  unfold writeVarInt
  split_ifs with h1 h2 h3
  · rw [UInt64.lt_iff_toNat_lt] at h1
    simp only [UInt64.reduceToNat] at h1
    have : v.toUInt8.toNat = v.toNat := by simp only [UInt64.toNat_toUInt8]; omega
    simp only [putUint8, List.cons_append, List.nil_append]
    rw [readVarInt_small _ _ (by omega)]
    have : v.toUInt8.toUInt64 = v := by apply UInt64.toNat_inj.1; simpa using this
    rw [this]
  · rw [UInt64.lt_iff_toNat_lt] at h1
    rw [UInt64.le_iff_toNat_le] at h2
    simp only [UInt64.reduceToNat] at h1 h2
    have h : v.toUInt16.toUInt64 = v := by
      apply UInt64.toNat_inj.1
      simp only [UInt16.toNat_toUInt64, UInt64.toNat_toUInt16]; omega
    have h' : ¬ (v < 0xfd) := by rw [UInt64.lt_iff_toNat_lt]; simpa using h1
    simp only [putUint8, List.cons_append, List.nil_append, readVarInt_fd, uint16_put]
    simp [h, h']
  · rw [UInt64.le_iff_toNat_le] at h2 h3
    simp only [UInt64.reduceToNat] at h2 h3
    have h : v.toUInt32.toUInt64 = v := by
      apply UInt64.toNat_inj.1
      simp only [UInt32.toNat_toUInt64, UInt64.toNat_toUInt32]; omega
    have h' : ¬ (v < 0x10000) := by
      rw [UInt64.lt_iff_toNat_lt]; simp only [UInt64.reduceToNat]; omega
    simp only [putUint8, List.cons_append, List.nil_append, readVarInt_fe, uint32_put]
    simp [h, h']
  · rw [UInt64.le_iff_toNat_le] at h3
    simp only [UInt64.reduceToNat] at h3
    have h' : ¬ (v < 0x100000000) := by
      rw [UInt64.lt_iff_toNat_lt]; simp only [UInt64.reduceToNat]; omega
    simp only [putUint8, List.cons_append, List.nil_append, readVarInt_ff, uint64_put]
    simp [h']

example : readVarInt (writeVarInt 70000 ++ [1, 2]) = .ok (70000, none, [1, 2]) :=
  C01_varint_roundtrip _ _

/-- C02. A successful read consumed exactly the bytes `WriteVarInt` writes for the value. -/
theorem C02_varint_canonical (s rest : Bytes) (v : UInt64)
    (h : readVarInt s = .ok (v, none, rest)) : s = writeVarInt v ++ rest := by
  match s with
  | [] => simp [readVarInt_nil] at h
  | b :: s =>
    rcases byte_cases b with rfl | rfl | rfl | hb
    · rw [readVarInt_ff] at h
      obtain ⟨⟨sv, err, s'⟩, hr⟩ := uint64_total s
      rw [hr] at h
      cases err with
      | some e => simp at h
      | none =>
        by_cases hc : sv < 0x100000000
        · simp [hc] at h
        · simp only [Go.bind_ok, Option.isSome_none, Bool.false_eq_true, if_false, hc,
            Go.pure_eq, Go.ok.injEq, Prod.mk.injEq, true_and] at h
          obtain ⟨rfl, rfl⟩ := h
          have := uint64_inv hr
          subst this
          rw [UInt64.lt_iff_toNat_lt] at hc
          simp only [UInt64.reduceToNat] at hc
          have h1 : ¬ sv < 0xfd := by
            rw [UInt64.lt_iff_toNat_lt]; simp only [UInt64.reduceToNat]; omega
          have h2 : ¬ sv ≤ 65535 := by
            rw [UInt64.le_iff_toNat_le]; simp only [UInt64.reduceToNat]; omega
          have h3 : ¬ sv ≤ 4294967295 := by
            rw [UInt64.le_iff_toNat_le]; simp only [UInt64.reduceToNat]; omega
          simp [writeVarInt, h1, h2, h3, putUint8]
    · rw [readVarInt_fe] at h
      obtain ⟨⟨sv, err, s'⟩, hr⟩ := uint32_total s
      rw [hr] at h
      cases err with
      | some e => simp at h
      | none =>
        by_cases hc : sv.toUInt64 < 0x10000
        · simp [hc] at h
        · simp only [Go.bind_ok, Option.isSome_none, Bool.false_eq_true, if_false, hc,
            Go.pure_eq, Go.ok.injEq, Prod.mk.injEq, true_and] at h
          obtain ⟨rfl, rfl⟩ := h
          have := uint32_inv hr
          subst this
          have hlt := sv.toNat_lt
          rw [UInt64.lt_iff_toNat_lt] at hc
          simp only [UInt64.reduceToNat, UInt32.toNat_toUInt64] at hc
          have h1 : ¬ sv.toUInt64 < 0xfd := by
            rw [UInt64.lt_iff_toNat_lt]; simp only [UInt64.reduceToNat, UInt32.toNat_toUInt64]
            omega
          have h2 : ¬ sv.toUInt64 ≤ 65535 := by
            rw [UInt64.le_iff_toNat_le]; simp only [UInt64.reduceToNat, UInt32.toNat_toUInt64]
            omega
          have h3 : sv.toUInt64 ≤ 4294967295 := by
            rw [UInt64.le_iff_toNat_le]; simp only [UInt64.reduceToNat, UInt32.toNat_toUInt64]
            omega
          simp [writeVarInt, h1, h2, h3, putUint8]
    · rw [readVarInt_fd] at h
      obtain ⟨⟨sv, err, s'⟩, hr⟩ := uint16_total s
      rw [hr] at h
      cases err with
      | some e => simp at h
      | none =>
        by_cases hc : sv.toUInt64 < 0xfd
        · simp [hc] at h
        · simp only [Go.bind_ok, Option.isSome_none, Bool.false_eq_true, if_false, hc,
            Go.pure_eq, Go.ok.injEq, Prod.mk.injEq, true_and] at h
          obtain ⟨rfl, rfl⟩ := h
          have := uint16_inv hr
          subst this
          have hlt := sv.toNat_lt
          have h2 : sv.toUInt64 ≤ 65535 := by
            rw [UInt64.le_iff_toNat_le]; simp only [UInt64.reduceToNat, UInt16.toNat_toUInt64]
            omega
          simp [writeVarInt, hc, h2, putUint8]
    · rw [readVarInt_small _ _ hb] at h
      simp only [Go.ok.injEq, Prod.mk.injEq, true_and] at h
      obtain ⟨rfl, rfl⟩ := h
      have h1 : b.toUInt64 < 0xfd := by
        rw [UInt64.lt_iff_toNat_lt]; simpa using hb
      simp [writeVarInt, h1, putUint8]

/-- A VarInt that is not the shortest form is really rejected (so C02 is not vacuous). -/
example : readVarInt [0xfd, 0x10, 0x00] = .ok (0, some "errNonCanonicalVarInt", []) := by decide
example : readVarInt [0xfd, 0x10, 0x01, 7] = .ok (0x110, none, [7]) := by decide

/-- C02, second half: no encoding is a prefix of another one, so streams of VarInts parse in one
way only. -/
theorem C02_varint_prefix_free (v w : UInt64) (a b : Bytes)
    (h : writeVarInt v ++ a = writeVarInt w ++ b) : v = w ∧ a = b := by
  have h1 := C01_varint_roundtrip v a
  rw [h, C01_varint_roundtrip w b] at h1
  simp only [Go.ok.injEq, Prod.mk.injEq, true_and] at h1
  exact ⟨h1.1.symm, h1.2.symm⟩

/-- C03. `VarIntSerializeSize` is the number of bytes written, at most `MaxVarIntPayload`. -/
theorem C03_varint_size (v : UInt64) :
    varIntSerializeSize v = (writeVarInt v).length ∧ varIntSerializeSize v ≤ maxVarIntPayload := by
  unfold varIntSerializeSize writeVarInt maxVarIntPayload
  split_ifs <;> simp [putUint8, putUint16, putUint32, putUint64]

/-- C04. `ReadVarInt` never panics. -/
theorem C04_varint_total (s : Bytes) : ∃ r, readVarInt s = .ok r := by
  match s with
  | [] => exact ⟨_, readVarInt_nil⟩
  | b :: s =>
    rcases byte_cases b with rfl | rfl | rfl | hb
    · rw [readVarInt_ff]
      obtain ⟨⟨sv, err, s'⟩, hr⟩ := uint64_total s
      rw [hr]; simp only [Go.bind_ok]; split_ifs <;> exact ⟨_, rfl⟩
    · rw [readVarInt_fe]
      obtain ⟨⟨sv, err, s'⟩, hr⟩ := uint32_total s
      rw [hr]; simp only [Go.bind_ok]; split_ifs <;> exact ⟨_, rfl⟩
    · rw [readVarInt_fd]
      obtain ⟨⟨sv, err, s'⟩, hr⟩ := uint16_total s
      rw [hr]; simp only [Go.bind_ok]; split_ifs <;> exact ⟨_, rfl⟩
    · exact ⟨_, readVarInt_small _ _ hb⟩

/-- C04, second half: on a proper prefix of an encoding `ReadVarInt` returns an error. -/
theorem C04_varint_truncated (v : UInt64) (s t : Bytes) (ht : t ≠ [])
    (h : s ++ t = writeVarInt v) : ∃ w e rest, readVarInt s = .ok (w, some e, rest) := by
  obtain ⟨⟨w, err, rest⟩, hr⟩ := C04_varint_total s
  cases err with
  | some e => exact ⟨_, _, _, hr⟩
  | none =>
    exfalso
    have hs := C02_varint_canonical _ _ _ hr
    have : writeVarInt w ++ (rest ++ t) = writeVarInt v ++ [] := by
      rw [List.append_nil, ← h, hs, List.append_assoc]
    have := (C02_varint_prefix_free _ _ _ _ this).2
    simp_all

example : ∃ w e rest, readVarInt [0xfe, 1] = .ok (w, some e, rest) :=
  C04_varint_truncated 0x10001 [0xfe, 1] [0, 1, 0] (by simp) (by decide)

/-- C05. Reading back written bytes returns them and leaves what follows, whatever `maxAllowed`
is, provided the run time can allocate the data. -/
theorem C05_varbytes_roundtrip (maxAlloc : Nat) (b rest : Bytes) (maxAllowed : UInt32)
    (hlen : b.length < 2 ^ 63) (halloc : b.length ≤ maxAlloc) :
    readVarBytes maxAlloc (writeVarBytes b ++ rest) maxAllowed = .ok (some b, none, rest) := by
  have hn : (UInt64.ofNat b.length).toNat = b.length := by
    simp only [UInt64.toNat_ofNat']; omega
  unfold readVarBytes writeVarBytes
  rw [List.append_assoc, C01_varint_roundtrip]
  simp [hn, Nat.not_lt.2 halloc, readFull_append]

example : readVarBytes 1000 (writeVarBytes [1, 2, 3] ++ [9]) 32 = .ok (some [1, 2, 3], none, [9]) :=
  C05_varbytes_roundtrip 1000 [1, 2, 3] [9] 32 (by simp) (by simp)

/-- The documented behaviour of `ReadVarBytes` (C06): an announced length above `maxAllowed` is
answered with an error.  See wire/common.go:289-303. -/
def ReadVarBytesHonoursLimit : Prop :=
  ∀ (maxAlloc : Nat) (s : Bytes) (maxAllowed : UInt32) (n : UInt64) (rest : Bytes),
    readVarInt s = .ok (n, none, rest) → maxAllowed.toUInt64 < n →
      ∃ e rest', readVarBytes maxAlloc s maxAllowed = .ok (none, some e, rest')

/-- C06 is false: a three byte field is accepted under a limit of two (and for every limit there
is such a message, see `C06_limit_ignored`). -/
theorem C06_refuted : ¬ ReadVarBytesHonoursLimit := by
  intro h
  obtain ⟨e, r, hr⟩ := h 1000 [3, 7, 8, 9] 2 3 [7, 8, 9] (by decide) (by decide)
  revert hr
  simp [show readVarBytes 1000 [3, 7, 8, 9] 2 = .ok (some [7, 8, 9], none, []) by decide]

/-- The limit has no influence at all: any field that can be allocated is accepted whatever the
limit. -/
theorem C06_limit_ignored (maxAlloc : Nat) (s : Bytes) (m1 m2 : UInt32) :
    readVarBytes maxAlloc s m1 = readVarBytes maxAlloc s m2 := rfl

/-- C06, what does hold: `ReadVarBytes` returns data only when the stream starts with exactly the
encoding of that data, an oversized announcement (longer than what is left in the stream) that
can be allocated gives an error, and it panics exactly when the announced length exceeds what the
run time can allocate. Missing from the full claim: the comparison with `maxAllowed`. -/
theorem C06_varbytes_partial (maxAlloc : Nat) (s : Bytes) (m : UInt32) :
    (∀ b rest, readVarBytes maxAlloc s m = .ok (some b, none, rest) → s = writeVarBytes b ++ rest)
    ∧ (∀ n rest, readVarInt s = .ok (n, none, rest) →
        (maxAlloc < n.toNat → readVarBytes maxAlloc s m = .panic)
        ∧ (n.toNat ≤ maxAlloc → rest.length < n.toNat →
            readVarBytes maxAlloc s m = .ok (none, some "EOF", []))
        ∧ (n.toNat ≤ maxAlloc → n.toNat ≤ rest.length →
            readVarBytes maxAlloc s m = .ok (some (rest.take n.toNat), none, rest.drop n.toNat)))
    ∧ (∀ n e rest, readVarInt s = .ok (n, some e, rest) →
        readVarBytes maxAlloc s m = .ok (none, some e, rest)) := by
  have key : ∀ n rest, readVarInt s = .ok (n, none, rest) →
        (maxAlloc < n.toNat → readVarBytes maxAlloc s m = .panic)
        ∧ (n.toNat ≤ maxAlloc → rest.length < n.toNat →
            readVarBytes maxAlloc s m = .ok (none, some "EOF", []))
        ∧ (n.toNat ≤ maxAlloc → n.toNat ≤ rest.length →
            readVarBytes maxAlloc s m = .ok (some (rest.take n.toNat), none, rest.drop n.toNat)) := by
    intro n rest h
    unfold readVarBytes
    rw [h]
    refine ⟨fun h1 => by simp [h1], fun h1 h2 => ?_, fun h1 h2 => ?_⟩
    · simp [Nat.not_lt.2 h1, readFull, Nat.not_le.2 h2]
    · simp [Nat.not_lt.2 h1, readFull, h2]
  refine ⟨?_, key, ?_⟩
  · intro b rest h
    obtain ⟨⟨n, err, r⟩, hr⟩ := C04_varint_total s
    cases err with
    | some e => unfold readVarBytes at h; rw [hr] at h; simp at h
    | none =>
      obtain ⟨h1, h2, h3⟩ := key n r hr
      rcases Nat.lt_or_ge maxAlloc n.toNat with h' | h'
      · rw [h1 h'] at h; simp at h
      · rcases Nat.lt_or_ge r.length n.toNat with h'' | h''
        · rw [h2 h' h''] at h; simp at h
        · rw [h3 h' h''] at h
          simp only [Go.ok.injEq, Prod.mk.injEq, Option.some.injEq, true_and] at h
          obtain ⟨rfl, rfl⟩ := h
          have hs := C02_varint_canonical _ _ _ hr
          rw [hs]
          unfold writeVarBytes
          rw [List.length_take, Nat.min_eq_left h'', UInt64.ofNat_toNat, List.append_assoc,
            List.take_append_drop]
  · intro n e rest h
    unfold readVarBytes
    rw [h]; simp

example : readVarBytes 1000 [5, 1, 2] 32 = .ok (none, some "EOF", []) := by decide
example : readVarBytes 4 [5, 1, 2, 3, 4, 5] 32 = .panic := by decide

end Zk.Wire
