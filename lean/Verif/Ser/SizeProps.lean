import Verif.Ser.SafeProps
import Verif.Ser.MoreProps

/-! # Property C161: the size of a deserialized proof -/

namespace Zk.Ser

open Zk Zk.Wire

/-- The number of bytes of a number behind a pointer, none for nil.  Numbers are written like this at
crypto.go:157, 161, 184. -/
def numSize : Option Int → Nat
  | none => 0
  | some v => (intBytes v).length

/-- The number of bytes of both coordinates, crypto.go:70-72. -/
def pointSize (p : ECPoint) : Nat := numSize p.X + numSize p.Y

/-- The number of bytes of all numbers of a `GSPFSProof`, gspfs.go:27-32. -/
def gspfsSize (p : GSPFSProof) : Nat :=
  pointSize p.Base + pointSize p.RandCommit + numSize p.HiddenValue + numSize p.Challenge

/-- The number of bytes of all numbers of an `EquivalenceProof`, equivalence.go:29-34. -/
def equivalenceSize (p : EquivalenceProof) : Nat :=
  pointSize p.UG + pointSize p.UH + numSize p.Challenge + numSize p.HiddenValue

/-- The number of bytes of all numbers of a `ConsistencyProof`, consistency.go:35-41. -/
def consistencySize (p : ConsistencyProof) : Nat :=
  pointSize p.T1 + pointSize p.T2 + numSize p.Challenge + numSize p.S1 + numSize p.S2

/-- The number of bytes of all numbers of a `DisjunctiveProof`, disjunctive.go:45-53. -/
def disjunctiveSize (p : DisjunctiveProof) : Nat :=
  pointSize p.T1 + pointSize p.T2 + numSize p.C + numSize p.C1 + numSize p.C2 + numSize p.S1 + numSize p.S2

/-- The number of bytes of all numbers of an `ABCProof`, abc.go:44-55. -/
def abcSize (p : ABCProof) : Nat :=
  pointSize p.B + pointSize p.C + pointSize p.T1 + pointSize p.T2 + numSize p.Challenge + numSize p.j +
    numSize p.k + numSize p.l + pointSize p.CToken + (p.disjuncAC.map disjunctiveSize).getD 0

/-- The number of bytes of all numbers of a list of `rangeProofTuple`, rangeproof.go:20-23. -/
def tuplesSize (ts : List RangeProofTuple) : Nat := (ts.map fun t => pointSize t.C + numSize t.S).sum

/-- The number of bytes of all numbers of a `RangeProof`, rangeproof.go:36-40. -/
def rangeSize (p : RangeProof) : Nat := pointSize p.ProofAggregate + numSize p.ProofE + tuplesSize p.ProofTuples

theorem setBytes_size (b : Bytes) : (natBytes (setBytes b)).length ≤ b.length := natBytes_length_le (setBytes_lt b)

theorem readVarInt_cost {s rest : Bytes} {v e} (h : readVarInt s = .ok (v, e, rest)) :
    rest.length + min 1 s.length ≤ s.length := by
  match s with
  | [] =>
    have := (readVarInt_suffix h).length_le
    simpa using this
  | b :: s =>
    have hs := readVarInt_suffix h
    rcases List.suffix_cons_iff.1 hs with h1 | h1
    · exfalso
      cases e with
      | none =>
        have hc := congrArg List.length (C02_varint_canonical _ _ _ h)
        have := writeVarInt_length_pos v
        rw [List.length_append] at hc
        have := congrArg List.length h1
        simp only at this
        omega
      | some e =>
        simp only at h1
        subst h1
        have key : ∀ {r}, readVarInt (b :: s) = .ok r → r.2.2.length ≤ s.length := by
          intro r hr
          rcases byte_cases b with rfl | rfl | rfl | hb
          · rw [readVarInt_ff] at hr
            obtain ⟨⟨sv, err, s'⟩, h2, h3⟩ := Go.bind_eq_ok.1 hr
            have := (uint64_suffix h2).length_le
            simp only at h3 this
            split_ifs at h3 <;> cases h3 <;> exact this
          · rw [readVarInt_fe] at hr
            obtain ⟨⟨sv, err, s'⟩, h2, h3⟩ := Go.bind_eq_ok.1 hr
            have := (uint32_suffix h2).length_le
            simp only at h3 this
            split_ifs at h3 <;> cases h3 <;> exact this
          · rw [readVarInt_fd] at hr
            obtain ⟨⟨sv, err, s'⟩, h2, h3⟩ := Go.bind_eq_ok.1 hr
            have := (uint16_suffix h2).length_le
            simp only at h3 this
            split_ifs at h3 <;> cases h3 <;> exact this
          · rw [readVarInt_small b s hb] at hr
            cases hr; exact le_rfl
        have := key h
        simp at this
    · have := h1.length_le
      simp only [List.length_cons] at this ⊢
      omega

theorem readVarBytes_cost {m : Nat} {k : UInt32} {s rest : Bytes} {b e}
    (h : readVarBytes m s k = .ok (b, e, rest)) :
    (b.elim 0 fun c => c.length) + rest.length + min 1 s.length ≤ s.length := by
  obtain ⟨⟨n, err, r⟩, hr⟩ := C04_varint_total s
  have hc := readVarInt_cost hr
  have hch := C06_varbytes_partial m s k
  cases err with
  | some e' =>
    rw [hch.2.2 _ _ _ hr] at h
    cases h; simpa using hc
  | none =>
    obtain ⟨h1, h2, h3⟩ := hch.2.1 _ _ hr
    rcases Nat.lt_or_ge m n.toNat with hm | hm
    · rw [h1 hm] at h; cases h
    rcases Nat.lt_or_ge r.length n.toNat with hl | hl
    · rw [h2 hm hl] at h; cases h
      simp
    · rw [h3 hm hl] at h; cases h
      simp only [Option.elim, List.length_take, List.length_drop]
      omega

theorem readECPoint_cost {m : Nat} {s rest : Bytes} {p e} (h : readECPoint m s = .ok (p, e, rest)) :
    pointSize p + rest.length + min 1 s.length ≤ s.length := by
  unfold readECPoint at h
  obtain ⟨⟨xb, e1, s1⟩, h1, h⟩ := Go.bind_eq_ok.1 h
  have c1 := readVarBytes_cost h1
  cases e1 with
  | some e1 =>
    cases h
    have : pointSize Zero = 0 := by decide
    omega
  | none =>
    obtain ⟨⟨yb, e2, s2⟩, h2, h⟩ := Go.bind_eq_ok.1 h
    have c2 := readVarBytes_cost h2
    cases e2 with
    | some e2 =>
      cases h
      have : pointSize Zero = 0 := by decide
      omega
    | none =>
      cases xb with
      | none => cases h
      | some xb =>
        cases yb with
        | none => cases h
        | some yb =>
          cases h
          have := setBytes_size xb
          have := setBytes_size yb
          simp only [Option.elim] at c1 c2
          show (natBytes (Int.natAbs _)).length + (natBytes (Int.natAbs _)).length + _ + _ ≤ _
          simp only [Int.natAbs_natCast]
          omega

theorem readBigInt_cost {m : Nat} {s rest : Bytes} {v e} (h : readBigInt m s = .ok (v, e, rest)) :
    (if v.isSome then numSize v + 2 else 0) + rest.length ≤ s.length := by
  unfold readBigInt at h
  obtain ⟨⟨b, e1, s1⟩, h1, h⟩ := Go.bind_eq_ok.1 h
  have c1 := readVarBytes_cost h1
  cases e1 with
  | some e1 => cases h; simp; omega
  | none =>
    cases b with
    | none => cases h
    | some b =>
      cases b with
      | nil => cases h
      | cons b0 b =>
        have := setBytes_size b
        simp only [Option.elim, List.length_cons] at c1
        by_cases hb : b0 = 1
        · simp [hb] at h
          obtain ⟨rfl, -, rfl⟩ := h
          simp [numSize, intBytes]
          omega
        · simp [hb] at h
          obtain ⟨rfl, -, rfl⟩ := h
          simp [numSize, intBytes]
          omega

theorem readBigInt_cost' {m : Nat} {s rest : Bytes} {v e} (h : readBigInt m s = .ok (v, e, rest)) :
    numSize v + rest.length ≤ s.length := by
  have := readBigInt_cost h
  cases v with
  | none => simpa [numSize] using this
  | some v => simp at this; omega

theorem readTuples_cost {m : Nat} (n : Nat) {s : Bytes} {ts} (h : readTuples m n s = .ok ts) :
    ts.length = n ∧ tuplesSize ts + 3 * (ts.filter fun t => t.S.isSome).length ≤ s.length := by
  induction n generalizing s ts with
  | zero => cases h; simp [tuplesSize]
  | succ n ih =>
    unfold readTuples at h
    obtain ⟨⟨c, e1, s1⟩, h1, h⟩ := Go.bind_eq_ok.1 h
    obtain ⟨⟨v, e2, s2⟩, h2, h⟩ := Go.bind_eq_ok.1 h
    obtain ⟨us, h3, h⟩ := Go.bind_eq_ok.1 h
    cases h
    have c1 := readECPoint_cost h1
    have c2 := readBigInt_cost h2
    obtain ⟨hl, c3⟩ := ih h3
    refine ⟨by simp [hl], ?_⟩
    cases v with
    | none => simp [tuplesSize, numSize] at c2 c3 ⊢; omega
    | some v => simp [tuplesSize] at c2 c3 ⊢; omega

theorem disjunctive_size {m : Nat} {s : Bytes} {p e} (h : disjunctiveFromBytes m s = .ok (some p, e)) :
    disjunctiveSize p ≤ s.length := by
  unfold disjunctiveFromBytes at h
  obtain ⟨⟨_, _, _⟩, h1, h⟩ := Go.bind_eq_ok.1 h
  obtain ⟨⟨_, _, _⟩, h2, h⟩ := Go.bind_eq_ok.1 h
  obtain ⟨⟨_, _, _⟩, h3, h⟩ := Go.bind_eq_ok.1 h
  obtain ⟨⟨_, _, _⟩, h4, h⟩ := Go.bind_eq_ok.1 h
  obtain ⟨⟨_, _, _⟩, h5, h⟩ := Go.bind_eq_ok.1 h
  obtain ⟨⟨_, _, _⟩, h6, h⟩ := Go.bind_eq_ok.1 h
  obtain ⟨⟨_, _, _⟩, h7, h⟩ := Go.bind_eq_ok.1 h
  cases h
  have := readECPoint_cost h1; have := readECPoint_cost h2
  have := readBigInt_cost' h3; have := readBigInt_cost' h4; have := readBigInt_cost' h5
  have := readBigInt_cost' h6; have := readBigInt_cost' h7
  simp only [disjunctiveSize] at *
  omega

theorem abc_size {m : Nat} {s : Bytes} {p e} (h : abcFromBytes m s = .ok (some p, e)) :
    abcSize p ≤ s.length := by
  unfold abcFromBytes at h
  obtain ⟨⟨_, e1, _⟩, h1, h⟩ := Go.bind_eq_ok.1 h
  cases e1 <;> [skip; (cases h; done)]
  obtain ⟨⟨_, e2, _⟩, h2, h⟩ := Go.bind_eq_ok.1 h
  cases e2 <;> [skip; (cases h; done)]
  obtain ⟨⟨_, e3, _⟩, h3, h⟩ := Go.bind_eq_ok.1 h
  cases e3 <;> [skip; (cases h; done)]
  obtain ⟨⟨_, e4, _⟩, h4, h⟩ := Go.bind_eq_ok.1 h
  cases e4 <;> [skip; (cases h; done)]
  obtain ⟨⟨_, e5, _⟩, h5, h⟩ := Go.bind_eq_ok.1 h
  cases e5 <;> [skip; (cases h; done)]
  obtain ⟨⟨_, e6, _⟩, h6, h⟩ := Go.bind_eq_ok.1 h
  cases e6 <;> [skip; (cases h; done)]
  obtain ⟨⟨_, e7, _⟩, h7, h⟩ := Go.bind_eq_ok.1 h
  cases e7 <;> [skip; (cases h; done)]
  obtain ⟨⟨_, e8, _⟩, h8, h⟩ := Go.bind_eq_ok.1 h
  cases e8 <;> [skip; (cases h; done)]
  obtain ⟨⟨_, e9, _⟩, h9, h⟩ := Go.bind_eq_ok.1 h
  cases e9 <;> [skip; (cases h; done)]
  obtain ⟨⟨b, e10, _⟩, h10, h⟩ := Go.bind_eq_ok.1 h
  cases e10 <;> [skip; (cases h; done)]
  cases b with
  | none => cases h
  | some b =>
    obtain ⟨b', hb, h⟩ := Go.bind_eq_ok.1 h
    cases hb
    obtain ⟨⟨dj, e11⟩, h11, h⟩ := Go.bind_eq_ok.1 h
    cases e11 <;> [skip; (cases h; done)]
    cases h
    have := readECPoint_cost h1; have := readECPoint_cost h2
    have := readECPoint_cost h3; have := readECPoint_cost h4
    have := readBigInt_cost' h5; have := readBigInt_cost' h6; have := readBigInt_cost' h7
    have := readBigInt_cost' h8; have := readECPoint_cost h9
    have h10 := readVarBytes_cost h10
    have hd : (dj.map disjunctiveSize).getD 0 ≤ b.length := by
      cases dj with
      | none => simp
      | some d => simpa using disjunctive_size h11
    simp only [abcSize, Option.elim] at *
    omega

/-- C161 is false of the code: for every number of tuples that can be allocated there are at most 13 bytes from which
`NewRangeProofFromBytes` makes a proof with this many tuples, without an error, and no tuple holds a scalar. -/
theorem C161_refuted (maxAlloc maxTuples n : Nat) (ha : 1 ≤ maxAlloc) (hn : n ≤ maxTuples) (h64 : n < 2 ^ 64) :
    ∃ s : Bytes, s.length ≤ 13 ∧ ∃ p, rangeFromBytes maxAlloc maxTuples s = .ok (some p, none) ∧
      p.ProofTuples.length = n ∧ ∀ t ∈ p.ProofTuples, t.S = none := by
  have hN : (UInt64.ofNat n).toNat = n := by simp only [UInt64.toNat_ofNat']; omega
  have r3 := C01_varint_roundtrip (UInt64.ofNat n) []
  have h1 : ∀ rest, readECPoint maxAlloc (0 :: 0 :: rest) = .ok (Zero, none, rest) := by
    intro rest
    simp [readECPoint, readVarBytes, readVarInt_small, readFull, setBytes, Zero, pt]
  have h2 : ∀ rest, readBigInt maxAlloc (1 :: 0 :: rest) = .ok (some 0, none, rest) := by
    intro rest
    have : ¬ maxAlloc < 1 := by omega
    simp [readBigInt, readVarBytes, readVarInt_small, readFull, setBytes, this]
  refine ⟨0 :: 0 :: 1 :: 0 :: writeVarInt (UInt64.ofNat n), ?_, ⟨Zero, some 0, List.replicate n ⟨Zero, none⟩⟩, ?_,
    by simp, ?_⟩
  · have := C03_varint_size (UInt64.ofNat n)
    simp only [List.length_cons]
    have h9 : (writeVarInt (UInt64.ofNat n)).length ≤ 9 := by
      rw [← this.1]; unfold varIntSerializeSize; split_ifs <;> omega
    omega
  · rw [List.append_nil] at r3
    simp [rangeFromBytes, h1, h2, r3, hN, Nat.not_lt.2 hn, readTuples_nil]
  · intro t ht
    rw [List.eq_of_mem_replicate ht]

/-- C161, what holds: all numbers of a proof that a deserializer returns have together at most as many bytes as the
input, and at most a third as many tuples hold a scalar.  Missing from the full claim: the number of tuples without
scalar. -/
theorem C161_size_partial (maxAlloc maxTuples : Nat) (s : Bytes) :
    (∀ p e, gspfsFromBytes maxAlloc s = .ok (some p, e) → gspfsSize p ≤ s.length) ∧
    (∀ p e, equivalenceFromBytes maxAlloc s = .ok (some p, e) → equivalenceSize p ≤ s.length) ∧
    (∀ p e, consistencyFromBytes maxAlloc s = .ok (some p, e) → consistencySize p ≤ s.length) ∧
    (∀ p e, disjunctiveFromBytes maxAlloc s = .ok (some p, e) → disjunctiveSize p ≤ s.length) ∧
    (∀ p e, abcFromBytes maxAlloc s = .ok (some p, e) → abcSize p ≤ s.length) ∧
    (∀ p e, rangeFromBytes maxAlloc maxTuples s = .ok (some p, e) → rangeSize p ≤ s.length ∧
      3 * (p.ProofTuples.filter fun t => t.S.isSome).length ≤ s.length ∧ p.ProofTuples.length ≤ maxTuples) := by
  refine ⟨fun p e h => ?_, fun p e h => ?_, fun p e h => ?_, fun p e h => disjunctive_size h,
    fun p e h => abc_size h, fun p e h => ?_⟩
  · unfold gspfsFromBytes at h
    obtain ⟨⟨_, _, _⟩, h1, h⟩ := Go.bind_eq_ok.1 h
    obtain ⟨⟨_, _, _⟩, h2, h⟩ := Go.bind_eq_ok.1 h
    obtain ⟨⟨_, _, _⟩, h3, h⟩ := Go.bind_eq_ok.1 h
    obtain ⟨⟨_, _, _⟩, h4, h⟩ := Go.bind_eq_ok.1 h
    cases h
    have := readECPoint_cost h1; have := readECPoint_cost h2
    have := readBigInt_cost' h3; have := readBigInt_cost' h4
    simp only [gspfsSize] at *
    omega
  · unfold equivalenceFromBytes at h
    obtain ⟨⟨_, _, _⟩, h1, h⟩ := Go.bind_eq_ok.1 h
    obtain ⟨⟨_, _, _⟩, h2, h⟩ := Go.bind_eq_ok.1 h
    obtain ⟨⟨_, _, _⟩, h3, h⟩ := Go.bind_eq_ok.1 h
    obtain ⟨⟨_, _, _⟩, h4, h⟩ := Go.bind_eq_ok.1 h
    cases h
    have := readECPoint_cost h1; have := readECPoint_cost h2
    have := readBigInt_cost' h3; have := readBigInt_cost' h4
    simp only [equivalenceSize] at *
    omega
  · unfold consistencyFromBytes at h
    obtain ⟨⟨_, _, _⟩, h1, h⟩ := Go.bind_eq_ok.1 h
    obtain ⟨⟨_, _, _⟩, h2, h⟩ := Go.bind_eq_ok.1 h
    obtain ⟨⟨_, _, _⟩, h3, h⟩ := Go.bind_eq_ok.1 h
    obtain ⟨⟨_, _, _⟩, h4, h⟩ := Go.bind_eq_ok.1 h
    obtain ⟨⟨_, _, _⟩, h5, h⟩ := Go.bind_eq_ok.1 h
    cases h
    have := readECPoint_cost h1; have := readECPoint_cost h2
    have := readBigInt_cost' h3; have := readBigInt_cost' h4; have := readBigInt_cost' h5
    simp only [consistencySize] at *
    omega
  · unfold rangeFromBytes at h
    obtain ⟨⟨_, _, _⟩, h1, h⟩ := Go.bind_eq_ok.1 h
    obtain ⟨⟨_, _, _⟩, h2, h⟩ := Go.bind_eq_ok.1 h
    obtain ⟨⟨k, _, _⟩, h3, h⟩ := Go.bind_eq_ok.1 h
    simp only at h
    split_ifs at h with hk
    obtain ⟨ts, h4, h⟩ := Go.bind_eq_ok.1 h
    cases h
    have := readECPoint_cost h1; have := readBigInt_cost' h2
    have := readVarInt_cost h3
    obtain ⟨hl, c4⟩ := readTuples_cost _ h4
    simp only [rangeSize] at *
    omega

/-- A proof with one complete tuple, read from 15 bytes. -/
example : ∃ p, rangeFromBytes 32 40 [1, 5, 1, 6, 2, 0, 7, 1, 1, 8, 1, 9, 2, 0, 3] = .ok (some p, none) ∧
    rangeSize p = 6 ∧ (p.ProofTuples.filter fun t => t.S.isSome).length = 1 :=
  ⟨⟨pt 5 6, some 7, [⟨pt 8 9, some 3⟩]⟩, by decide +kernel, by decide +kernel, by decide +kernel⟩

/-- A billion tuples from at most 13 bytes. -/
example : ∃ s : Bytes, s.length ≤ 13 ∧ ∃ p, rangeFromBytes (2 ^ 47) (2 ^ 40) s = .ok (some p, none) ∧
    p.ProofTuples.length = 1000000000 := by
  obtain ⟨s, h1, p, h2, h3, -⟩ := C161_refuted (2 ^ 47) (2 ^ 40) 1000000000 (by norm_num) (by norm_num) (by norm_num)
  exact ⟨s, h1, p, h2, h3⟩

end Zk.Ser
