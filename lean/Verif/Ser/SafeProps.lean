import Verif.Ser.Props

/-! # Property C15: bytes on which no deserializer panics -/

namespace Zk.Ser

open Zk Zk.Wire

/-- No piece of `s` announces a length of zero or one above `m`.  What wire/common.go:289-303 and
crypto.go:189-199 would have to check. -/
def NoBadLength (m : Nat) (s : Bytes) : Prop :=
  ∀ t, t <:+: s → ∀ n rest, readVarInt t = .ok (n, none, rest) → n ≠ 0 ∧ n.toNat ≤ m

theorem NoBadLength.infix {m : Nat} {s t : Bytes} (h : NoBadLength m s) (ht : t <:+: s) :
    NoBadLength m t := fun u hu => h u (hu.trans ht)

theorem readFull_suffix (n : Nat) (s : Bytes) : (readFull n s).2.2 <:+ s := by
  unfold readFull
  split_ifs
  · exact List.drop_suffix _ _
  · exact List.nil_suffix

theorem uint16_suffix {s : Bytes} {r} (h : uint16 s = .ok r) : r.2.2 <:+ s := by
  have := readFull_suffix 2 s
  unfold uint16 at h
  rcases hf : readFull 2 s with ⟨b, _ | e, t⟩ <;> rw [hf] at h this <;> simp only at h this
  · obtain ⟨v, _, h⟩ := Go.bind_eq_ok.1 h
    simp only [Go.pure_eq, Go.ok.injEq] at h
    subst h; exact this
  · simp only [Go.ok.injEq] at h
    subst h; exact this

theorem uint32_suffix {s : Bytes} {r} (h : uint32 s = .ok r) : r.2.2 <:+ s := by
  have := readFull_suffix 4 s
  unfold uint32 at h
  rcases hf : readFull 4 s with ⟨b, _ | e, t⟩ <;> rw [hf] at h this <;> simp only at h this
  · obtain ⟨v, _, h⟩ := Go.bind_eq_ok.1 h
    simp only [Go.pure_eq, Go.ok.injEq] at h
    subst h; exact this
  · simp only [Go.ok.injEq] at h
    subst h; exact this

theorem uint64_suffix {s : Bytes} {r} (h : uint64 s = .ok r) : r.2.2 <:+ s := by
  have := readFull_suffix 8 s
  unfold uint64 at h
  rcases hf : readFull 8 s with ⟨b, _ | e, t⟩ <;> rw [hf] at h this <;> simp only at h this
  · obtain ⟨v, _, h⟩ := Go.bind_eq_ok.1 h
    simp only [Go.pure_eq, Go.ok.injEq] at h
    subst h; exact this
  · simp only [Go.ok.injEq] at h
    subst h; exact this

theorem readVarInt_suffix {s : Bytes} {r} (h : readVarInt s = .ok r) : r.2.2 <:+ s := by
  match s with
  | [] => rw [readVarInt_nil] at h; simp only [Go.ok.injEq] at h; subst h; exact List.nil_suffix
  | b :: s =>
    rcases byte_cases b with rfl | rfl | rfl | hb
    · rw [readVarInt_ff] at h
      obtain ⟨⟨sv, err, s'⟩, hr, h⟩ := Go.bind_eq_ok.1 h
      have := (uint64_suffix hr).trans (List.suffix_cons 0xff s)
      simp only at h this
      split_ifs at h <;> (simp only [Go.pure_eq, Go.ok.injEq] at h; subst h; exact this)
    · rw [readVarInt_fe] at h
      obtain ⟨⟨sv, err, s'⟩, hr, h⟩ := Go.bind_eq_ok.1 h
      have := (uint32_suffix hr).trans (List.suffix_cons 0xfe s)
      simp only at h this
      split_ifs at h <;> (simp only [Go.pure_eq, Go.ok.injEq] at h; subst h; exact this)
    · rw [readVarInt_fd] at h
      obtain ⟨⟨sv, err, s'⟩, hr, h⟩ := Go.bind_eq_ok.1 h
      have := (uint16_suffix hr).trans (List.suffix_cons 0xfd s)
      simp only at h this
      split_ifs at h <;> (simp only [Go.pure_eq, Go.ok.injEq] at h; subst h; exact this)
    · rw [readVarInt_small b s hb] at h
      simp only [Go.ok.injEq] at h; subst h; exact List.suffix_cons _ _

theorem readVarInt_error {s : Bytes} {n e t} (h : readVarInt s = .ok (n, some e, t)) : n = 0 := by
  match s with
  | [] => rw [readVarInt_nil] at h; cases h; rfl
  | b :: s =>
    rcases byte_cases b with rfl | rfl | rfl | hb
    · rw [readVarInt_ff] at h
      obtain ⟨⟨sv, err, s'⟩, hr, h⟩ := Go.bind_eq_ok.1 h
      simp only at h
      split_ifs at h <;> cases h <;> rfl
    · rw [readVarInt_fe] at h
      obtain ⟨⟨sv, err, s'⟩, hr, h⟩ := Go.bind_eq_ok.1 h
      simp only at h
      split_ifs at h <;> cases h <;> rfl
    · rw [readVarInt_fd] at h
      obtain ⟨⟨sv, err, s'⟩, hr, h⟩ := Go.bind_eq_ok.1 h
      simp only at h
      split_ifs at h <;> cases h <;> rfl
    · rw [readVarInt_small b s hb] at h
      cases h

/-- Reading one field returns, leaves a suffix and, without error, yields a non-empty piece. -/
theorem readVarBytes_safe {m : Nat} {s : Bytes} (h : NoBadLength m s) (k : UInt32) :
    (∃ e r, readVarBytes m s k = .ok (none, some e, r) ∧ r <:+ s) ∨
    (∃ b0 b r, readVarBytes m s k = .ok (some (b0 :: b), none, r) ∧ r <:+ s ∧
      (b0 :: b) <:+: s) := by
  obtain ⟨⟨n, err, rest⟩, hr⟩ := C04_varint_total s
  have hs := readVarInt_suffix hr
  simp only at hs
  have hch := C06_varbytes_partial m s k
  cases err with
  | some e => exact .inl ⟨e, rest, hch.2.2 _ _ _ hr, hs⟩
  | none =>
    obtain ⟨hn, hm⟩ := h s (List.infix_refl s) n rest hr
    obtain ⟨-, h2, h3⟩ := hch.2.1 _ _ hr
    rcases Nat.lt_or_ge rest.length n.toNat with hl | hl
    · exact .inl ⟨_, [], h2 hm hl, List.nil_suffix⟩
    · right
      have hpos : 0 < n.toNat := Nat.pos_of_ne_zero fun h0 =>
        hn (UInt64.toNat_inj.1 (by simpa using h0))
      have h3 := h3 hm hl
      have hin : rest.take n.toNat <:+: s :=
        (List.take_prefix _ _).isInfix.trans hs.isInfix
      match ht : rest.take n.toNat with
      | [] =>
        have := congrArg List.length ht
        rw [List.length_take, List.length_nil] at this
        omega
      | b0 :: b =>
        rw [ht] at h3 hin
        exact ⟨b0, b, _, h3, (List.drop_suffix _ _).trans hs, hin⟩

theorem readECPoint_safe {m : Nat} {s : Bytes} (h : NoBadLength m s) :
    ∃ p e r, readECPoint m s = .ok (p, e, r) ∧ r <:+ s := by
  rcases readVarBytes_safe h 32 with ⟨e, r, hr, hs⟩ | ⟨b0, b, r, hr, hs, -⟩
  · exact ⟨_, _, r, by simp [readECPoint, hr]; exact ⟨rfl, rfl⟩, hs⟩
  · rcases readVarBytes_safe (h.infix hs.isInfix) 32 with ⟨e, r2, hr2, hs2⟩ | ⟨c0, c, r2, hr2, hs2, -⟩
    · exact ⟨_, _, r2, by simp [readECPoint, hr, hr2]; exact ⟨rfl, rfl⟩, hs2.trans hs⟩
    · exact ⟨_, _, r2, by simp [readECPoint, hr, hr2]; exact ⟨rfl, rfl⟩, hs2.trans hs⟩

theorem readBigInt_safe {m : Nat} {s : Bytes} (h : NoBadLength m s) :
    ∃ p e r, readBigInt m s = .ok (p, e, r) ∧ r <:+ s := by
  rcases readVarBytes_safe h 32 with ⟨e, r, hr, hs⟩ | ⟨b0, b, r, hr, hs, -⟩
  · exact ⟨_, _, r, by simp [readBigInt, hr]; exact ⟨rfl, rfl⟩, hs⟩
  · by_cases hb : b0 = 1
    · exact ⟨_, _, r, by simp [readBigInt, hr, hb]; exact ⟨rfl, rfl⟩, hs⟩
    · exact ⟨_, _, r, by simp [readBigInt, hr, hb]; exact ⟨rfl, rfl⟩, hs⟩

theorem readTuples_safe {m : Nat} (n : Nat) {s : Bytes} (h : NoBadLength m s) :
    ∃ ts, readTuples m n s = .ok ts := by
  induction n generalizing s with
  | zero => exact ⟨_, rfl⟩
  | succ n ih =>
    obtain ⟨c, e1, r1, h1, s1⟩ := readECPoint_safe h
    have k1 := h.infix s1.isInfix
    obtain ⟨v, e2, r2, h2, s2⟩ := readBigInt_safe k1
    obtain ⟨ts, h3⟩ := ih (k1.infix s2.isInfix)
    exact ⟨_, by simp [readTuples, h1, h2, h3]; rfl⟩

theorem disjunctive_safe {m : Nat} {s : Bytes} (h : NoBadLength m s) :
    ∃ r, disjunctiveFromBytes m s = .ok r := by
  obtain ⟨_, _, r1, h1, s1⟩ := readECPoint_safe h
  have h := h.infix s1.isInfix
  obtain ⟨_, _, r2, h2, s2⟩ := readECPoint_safe h
  have h := h.infix s2.isInfix
  obtain ⟨_, _, r3, h3, s3⟩ := readBigInt_safe h
  have h := h.infix s3.isInfix
  obtain ⟨_, _, r4, h4, s4⟩ := readBigInt_safe h
  have h := h.infix s4.isInfix
  obtain ⟨_, _, r5, h5, s5⟩ := readBigInt_safe h
  have h := h.infix s5.isInfix
  obtain ⟨_, _, r6, h6, s6⟩ := readBigInt_safe h
  have h := h.infix s6.isInfix
  obtain ⟨_, _, r7, h7, s7⟩ := readBigInt_safe h
  exact ⟨_, by simp [disjunctiveFromBytes, h1, h2, h3, h4, h5, h6, h7]; rfl⟩

/-- C15 for whole proofs: on bytes in which no piece announces a length of zero, or one that cannot be
allocated, all six deserializers return.  `maxTuples` is the number of tuples that can be allocated.
Missing from the full claim: such pieces, which do cause panics (`C15_refuted`). -/
theorem C15_safe_bytes_partial (maxAlloc maxTuples : Nat) (s : Bytes)
    (h : NoBadLength maxAlloc s) (h' : NoBadLength maxTuples s) :
    (∃ r, gspfsFromBytes maxAlloc s = .ok r) ∧ (∃ r, equivalenceFromBytes maxAlloc s = .ok r) ∧
    (∃ r, consistencyFromBytes maxAlloc s = .ok r) ∧
    (∃ r, disjunctiveFromBytes maxAlloc s = .ok r) ∧
    (∃ r, abcFromBytes maxAlloc s = .ok r) ∧ ∃ r, rangeFromBytes maxAlloc maxTuples s = .ok r := by
  have h0 := h
  obtain ⟨_, e1, r1, h1, s1⟩ := readECPoint_safe h
  have k1 := h.infix s1.isInfix
  obtain ⟨_, e2, r2, h2, s2⟩ := readECPoint_safe k1
  have k2 := k1.infix s2.isInfix
  obtain ⟨_, e3, r3, h3, s3⟩ := readBigInt_safe k2
  have k3 := k2.infix s3.isInfix
  obtain ⟨_, e4, r4, h4, s4⟩ := readBigInt_safe k3
  have k4 := k3.infix s4.isInfix
  obtain ⟨_, e5, r5, h5, s5⟩ := readBigInt_safe k4
  refine ⟨⟨_, by simp [gspfsFromBytes, h1, h2, h3, h4]; rfl⟩,
    ⟨_, by simp [equivalenceFromBytes, h1, h2, h3, h4]; rfl⟩,
    ⟨_, by simp [consistencyFromBytes, h1, h2, h3, h4, h5]; rfl⟩, disjunctive_safe h, ?_, ?_⟩
  · clear h3 h4 h5 s3 s4 s5 k3 k4
    obtain ⟨_, e3, r3, h3, s3⟩ := readECPoint_safe k2
    have k3 := k2.infix s3.isInfix
    obtain ⟨_, e4, r4, h4, s4⟩ := readECPoint_safe k3
    have k4 := k3.infix s4.isInfix
    obtain ⟨_, e5, r5, h5, s5⟩ := readBigInt_safe k4
    have k5 := k4.infix s5.isInfix
    obtain ⟨_, e6, r6, h6, s6⟩ := readBigInt_safe k5
    have k6 := k5.infix s6.isInfix
    obtain ⟨_, e7, r7, h7, s7⟩ := readBigInt_safe k6
    have k7 := k6.infix s7.isInfix
    obtain ⟨_, e8, r8, h8, s8⟩ := readBigInt_safe k7
    have k8 := k7.infix s8.isInfix
    obtain ⟨_, e9, r9, h9, s9⟩ := readECPoint_safe k8
    have k9 := k8.infix s9.isInfix
    rcases e1 with _ | e1
    swap
    · exact ⟨_, by simp only [abcFromBytes, Go.bind_ok, Option.isSome_none, Option.isSome_some,
        Bool.false_eq_true, if_false, if_true, h1]; rfl⟩
    rcases e2 with _ | e2
    swap
    · exact ⟨_, by simp only [abcFromBytes, Go.bind_ok, Option.isSome_none, Option.isSome_some,
        Bool.false_eq_true, if_false, if_true, h1, h2]; rfl⟩
    rcases e3 with _ | e3
    swap
    · exact ⟨_, by simp only [abcFromBytes, Go.bind_ok, Option.isSome_none, Option.isSome_some,
        Bool.false_eq_true, if_false, if_true, h1, h2, h3]; rfl⟩
    rcases e4 with _ | e4
    swap
    · exact ⟨_, by simp only [abcFromBytes, Go.bind_ok, Option.isSome_none, Option.isSome_some,
        Bool.false_eq_true, if_false, if_true, h1, h2, h3, h4]; rfl⟩
    rcases e5 with _ | e5
    swap
    · exact ⟨_, by simp only [abcFromBytes, Go.bind_ok, Option.isSome_none, Option.isSome_some,
        Bool.false_eq_true, if_false, if_true, h1, h2, h3, h4, h5]; rfl⟩
    rcases e6 with _ | e6
    swap
    · exact ⟨_, by simp only [abcFromBytes, Go.bind_ok, Option.isSome_none, Option.isSome_some,
        Bool.false_eq_true, if_false, if_true, h1, h2, h3, h4, h5, h6]; rfl⟩
    rcases e7 with _ | e7
    swap
    · exact ⟨_, by simp only [abcFromBytes, Go.bind_ok, Option.isSome_none, Option.isSome_some,
        Bool.false_eq_true, if_false, if_true, h1, h2, h3, h4, h5, h6, h7]; rfl⟩
    rcases e8 with _ | e8
    swap
    · exact ⟨_, by simp only [abcFromBytes, Go.bind_ok, Option.isSome_none, Option.isSome_some,
        Bool.false_eq_true, if_false, if_true, h1, h2, h3, h4, h5, h6, h7, h8]; rfl⟩
    rcases e9 with _ | e9
    swap
    · exact ⟨_, by simp only [abcFromBytes, Go.bind_ok, Option.isSome_none, Option.isSome_some,
        Bool.false_eq_true, if_false, if_true, h1, h2, h3, h4, h5, h6, h7, h8, h9]; rfl⟩
    rcases readVarBytes_safe k9 100000 with ⟨e, r, hr, hs⟩ | ⟨b0, b, r, hr, hs, hi⟩
    · exact ⟨_, by simp only [abcFromBytes, Go.bind_ok, Option.isSome_none, Option.isSome_some,
        Bool.false_eq_true, if_false, if_true, h1, h2, h3, h4, h5, h6, h7, h8, h9, hr]; rfl⟩
    · obtain ⟨⟨d, _ | ed⟩, hd⟩ := disjunctive_safe (k9.infix hi)
      · exact ⟨_, by simp only [abcFromBytes, Go.bind_ok, Option.isSome_none, Option.isSome_some,
          Bool.false_eq_true, if_false, if_true, h1, h2, h3, h4, h5, h6, h7, h8, h9, hr, deref_some, hd]; rfl⟩
      · exact ⟨_, by simp only [abcFromBytes, Go.bind_ok, Option.isSome_none, Option.isSome_some,
          Bool.false_eq_true, if_false, if_true, h1, h2, h3, h4, h5, h6, h7, h8, h9, hr, deref_some, hd]; rfl⟩
  · obtain ⟨_, e2, r2, h2, s2⟩ := readBigInt_safe k1
    have k2 := k1.infix s2.isInfix
    obtain ⟨⟨n, err, rest⟩, hr⟩ := C04_varint_total r2
    have hs := readVarInt_suffix hr
    obtain ⟨ts, ht⟩ := readTuples_safe n.toNat (k2.infix hs.isInfix)
    simp only [rangeFromBytes, h1, h2, hr, Go.bind_ok, ht]
    have hn : ¬ maxTuples < n.toNat := by
      cases err with
      | none => exact Nat.not_lt.2 (h' r2 (s2.isInfix.trans s1.isInfix) n rest hr).2
      | some e => 
        have := readVarInt_error hr
        simp [this]
    rw [if_neg hn]
    exact ⟨_, rfl⟩

/-- For example: bytes between 1 and 252 announce no bad length. -/
theorem noBadLength_of_bytes {m : Nat} (hm : 252 ≤ m) {s : Bytes}
    (hs : ∀ b ∈ s, 0 < b.toNat ∧ b.toNat < 0xfd) : NoBadLength m s := by
  intro t ht n rest h
  match t with
  | [] => rw [readVarInt_nil] at h; cases h
  | b :: t =>
    obtain ⟨h1, h2⟩ := hs b (ht.subset (List.mem_cons_self ..))
    rw [readVarInt_small b t h2] at h
    cases h
    refine ⟨?_, ?_⟩
    · intro h0
      have := congrArg UInt64.toNat h0
      simp at this
      omega
    · simp; omega

/-- C15: no deserializer panics on bytes between 1 and 252, in any number and any order. -/
theorem C15_small_bytes_partial (maxAlloc maxTuples : Nat) (h : 252 ≤ maxAlloc)
    (h' : 252 ≤ maxTuples) (s : Bytes) (hs : ∀ b ∈ s, 0 < b.toNat ∧ b.toNat < 0xfd) :
    (∃ r, gspfsFromBytes maxAlloc s = .ok r) ∧ (∃ r, equivalenceFromBytes maxAlloc s = .ok r) ∧
    (∃ r, consistencyFromBytes maxAlloc s = .ok r) ∧
    (∃ r, disjunctiveFromBytes maxAlloc s = .ok r) ∧
    (∃ r, abcFromBytes maxAlloc s = .ok r) ∧ ∃ r, rangeFromBytes maxAlloc maxTuples s = .ok r :=
  C15_safe_bytes_partial maxAlloc maxTuples s (noBadLength_of_bytes h hs)
    (noBadLength_of_bytes h' hs)

/-- The hypothesis holds of bytes that give a proof without nil fields, too. -/
example : NoBadLength 1000 [1, 5, 1, 6, 1, 7, 1, 8, 2, 9, 9, 2, 1, 3] ∧
    gspfsFromBytes 1000 [1, 5, 1, 6, 1, 7, 1, 8, 2, 9, 9, 2, 1, 3] =
      .ok (some ⟨pt 5 6, pt 7 8, some 9, some (-3)⟩, none) :=
  ⟨noBadLength_of_bytes (by decide) (by decide), by decide +kernel⟩

end Zk.Ser
