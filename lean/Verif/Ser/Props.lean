import Verif.Ser.Lemmas

/-! # Properties C09-C16: serialization -/

namespace Zk

/-- A point as every API function produces it: both coordinates present and non-negative.
See crypto.go:70-72. -/
def ECPoint.Filled (p : ECPoint) : Prop := ∃ x y : Int, 0 ≤ x ∧ 0 ≤ y ∧ p = pt x y

/-- All fields present. Scalars may be any integers.  See gspfs.go:27-32. -/
def GSPFSProof.Filled (p : GSPFSProof) : Prop :=
  p.Base.Filled ∧ p.RandCommit.Filled ∧ p.HiddenValue ≠ none ∧ p.Challenge ≠ none

/-- All fields present.  See equivalence.go:29-34. -/
def EquivalenceProof.Filled (p : EquivalenceProof) : Prop :=
  p.UG.Filled ∧ p.UH.Filled ∧ p.Challenge ≠ none ∧ p.HiddenValue ≠ none

/-- All fields present.  See consistency.go:35-41. -/
def ConsistencyProof.Filled (p : ConsistencyProof) : Prop :=
  p.T1.Filled ∧ p.T2.Filled ∧ p.Challenge ≠ none ∧ p.S1 ≠ none ∧ p.S2 ≠ none

/-- All fields present.  See disjunctive.go:45-53. -/
def DisjunctiveProof.Filled (p : DisjunctiveProof) : Prop :=
  p.T1.Filled ∧ p.T2.Filled ∧ p.C ≠ none ∧ p.C1 ≠ none ∧ p.C2 ≠ none ∧ p.S1 ≠ none ∧ p.S2 ≠ none

/-- All fields present, the nested proof too.  See abc.go:44-55. -/
def ABCProof.Filled (p : ABCProof) : Prop :=
  p.B.Filled ∧ p.C.Filled ∧ p.T1.Filled ∧ p.T2.Filled ∧ p.Challenge ≠ none ∧ p.j ≠ none ∧
  p.k ≠ none ∧ p.l ≠ none ∧ p.CToken.Filled ∧ ∃ d : DisjunctiveProof, d.Filled ∧ p.disjuncAC = some d

/-- All fields present.  See rangeproof.go:35-39. -/
def RangeProof.Filled (p : RangeProof) : Prop :=
  p.ProofAggregate.Filled ∧ p.ProofE ≠ none ∧ ∀ t ∈ p.ProofTuples, t.C.Filled ∧ t.S ≠ none

end Zk

namespace Zk.Ser

open Zk Zk.Wire

/-- C09. Every point with non-negative coordinates can be written, and reading it back returns it
and leaves what follows, if the run time can allocate that many bytes. -/
theorem C09_ecpoint_roundtrip (p : ECPoint) (hp : p.Filled) :
    ∃ enc, writeECPoint p = .ok enc ∧ ∀ maxAlloc rest, enc.length ≤ maxAlloc → maxAlloc < 2 ^ 63 →
      readECPoint maxAlloc (enc ++ rest) = .ok (p, none, rest) := by
  obtain ⟨x, y, hx, hy, rfl⟩ := hp
  exact ⟨_, writeECPoint_pt x y, fun m rest ha h63 => (readECPoint_reads hx hy h63 ha).full rest⟩

/-- C10. The same for every integer, negative ones and zero included. -/
theorem C10_bigint_roundtrip (v : Int) :
    ∃ enc, writeBigInt (some v) = .ok enc ∧
      ∀ maxAlloc rest, enc.length ≤ maxAlloc → maxAlloc < 2 ^ 63 →
        readBigInt maxAlloc (enc ++ rest) = .ok (some v, none, rest) :=
  ⟨_, writeBigInt_some v, fun _ rest ha h63 => (readBigInt_reads h63 ha).full rest⟩

/-- C11 for GSPFS proofs. -/
theorem C11_gspfs_roundtrip (p : GSPFSProof) (hp : p.Filled) :
    ∃ enc, gspfsBytes p = .ok enc ∧ ∀ maxAlloc rest, enc.length ≤ maxAlloc → maxAlloc < 2 ^ 63 →
      gspfsFromBytes maxAlloc (enc ++ rest) = .ok (some p, none) := by
  obtain ⟨b, rc, hv, ch⟩ := p
  obtain ⟨⟨x1, y1, hx1, hy1, rfl⟩, ⟨x2, y2, hx2, hy2, rfl⟩, h3, h4⟩ := hp
  obtain ⟨v3, rfl⟩ := Option.ne_none_iff_exists'.1 h3
  obtain ⟨v4, rfl⟩ := Option.ne_none_iff_exists'.1 h4
  refine ⟨_, rfl, fun m rest ha h63 => ?_⟩
  simp only [List.length_append] at ha
  have r1 := readECPoint_reads (maxAlloc := m) hx1 hy1 h63 (by unfold encPoint; simp; omega)
  have r2 := readECPoint_reads (maxAlloc := m) hx2 hy2 h63 (by unfold encPoint; simp; omega)
  have r3 := readBigInt_reads (maxAlloc := m) (v := v3) h63 (by unfold encInt; omega)
  have r4 := readBigInt_reads (maxAlloc := m) (v := v4) h63 (by unfold encInt; omega)
  change gspfsFromBytes m (encPoint x1 y1 ++ encPoint x2 y2 ++ encInt v3 ++ encInt v4 ++ rest) = _
  simp [gspfsFromBytes, List.append_assoc, r1.full, r2.full, r3.full, r4.full]

/-- C11 for equivalence proofs. -/
theorem C11_equivalence_roundtrip (p : EquivalenceProof) (hp : p.Filled) :
    ∃ enc, equivalenceBytes p = .ok enc ∧
      ∀ maxAlloc rest, enc.length ≤ maxAlloc → maxAlloc < 2 ^ 63 →
        equivalenceFromBytes maxAlloc (enc ++ rest) = .ok (some p, none) := by
  obtain ⟨b, rc, hv, ch⟩ := p
  obtain ⟨⟨x1, y1, hx1, hy1, rfl⟩, ⟨x2, y2, hx2, hy2, rfl⟩, h3, h4⟩ := hp
  obtain ⟨v3, rfl⟩ := Option.ne_none_iff_exists'.1 h3
  obtain ⟨v4, rfl⟩ := Option.ne_none_iff_exists'.1 h4
  refine ⟨_, rfl, fun m rest ha h63 => ?_⟩
  simp only [List.length_append] at ha
  have r1 := readECPoint_reads (maxAlloc := m) hx1 hy1 h63 (by unfold encPoint; simp; omega)
  have r2 := readECPoint_reads (maxAlloc := m) hx2 hy2 h63 (by unfold encPoint; simp; omega)
  have r3 := readBigInt_reads (maxAlloc := m) (v := v3) h63 (by unfold encInt; omega)
  have r4 := readBigInt_reads (maxAlloc := m) (v := v4) h63 (by unfold encInt; omega)
  change equivalenceFromBytes m
    (encPoint x1 y1 ++ encPoint x2 y2 ++ encInt v3 ++ encInt v4 ++ rest) = _
  simp [equivalenceFromBytes, List.append_assoc, r1.full, r2.full, r3.full, r4.full]

/-- C11 for consistency proofs. -/
theorem C11_consistency_roundtrip (p : ConsistencyProof) (hp : p.Filled) :
    ∃ enc, consistencyBytes p = .ok enc ∧
      ∀ maxAlloc rest, enc.length ≤ maxAlloc → maxAlloc < 2 ^ 63 →
        consistencyFromBytes maxAlloc (enc ++ rest) = .ok (some p, none) := by
  obtain ⟨b, rc, c, s1, s2⟩ := p
  obtain ⟨⟨x1, y1, hx1, hy1, rfl⟩, ⟨x2, y2, hx2, hy2, rfl⟩, h3, h4, h5⟩ := hp
  obtain ⟨v3, rfl⟩ := Option.ne_none_iff_exists'.1 h3
  obtain ⟨v4, rfl⟩ := Option.ne_none_iff_exists'.1 h4
  obtain ⟨v5, rfl⟩ := Option.ne_none_iff_exists'.1 h5
  refine ⟨_, rfl, fun m rest ha h63 => ?_⟩
  simp only [List.length_append] at ha
  have r1 := readECPoint_reads (maxAlloc := m) hx1 hy1 h63 (by unfold encPoint; simp; omega)
  have r2 := readECPoint_reads (maxAlloc := m) hx2 hy2 h63 (by unfold encPoint; simp; omega)
  have r3 := readBigInt_reads (maxAlloc := m) (v := v3) h63 (by unfold encInt; omega)
  have r4 := readBigInt_reads (maxAlloc := m) (v := v4) h63 (by unfold encInt; omega)
  have r5 := readBigInt_reads (maxAlloc := m) (v := v5) h63 (by unfold encInt; omega)
  change consistencyFromBytes m
    (encPoint x1 y1 ++ encPoint x2 y2 ++ encInt v3 ++ encInt v4 ++ encInt v5 ++ rest) = _
  simp [consistencyFromBytes, List.append_assoc, r1.full, r2.full, r3.full, r4.full, r5.full]

/-- C11 for disjunctive proofs. -/
theorem C11_disjunctive_roundtrip (p : DisjunctiveProof) (hp : p.Filled) :
    ∃ enc, disjunctiveBytes p = .ok enc ∧
      ∀ maxAlloc rest, enc.length ≤ maxAlloc → maxAlloc < 2 ^ 63 →
        disjunctiveFromBytes maxAlloc (enc ++ rest) = .ok (some p, none) := by
  obtain ⟨b, rc, c, c1, c2, s1, s2⟩ := p
  obtain ⟨⟨x1, y1, hx1, hy1, rfl⟩, ⟨x2, y2, hx2, hy2, rfl⟩, h3, h4, h5, h6, h7⟩ := hp
  obtain ⟨v3, rfl⟩ := Option.ne_none_iff_exists'.1 h3
  obtain ⟨v4, rfl⟩ := Option.ne_none_iff_exists'.1 h4
  obtain ⟨v5, rfl⟩ := Option.ne_none_iff_exists'.1 h5
  obtain ⟨v6, rfl⟩ := Option.ne_none_iff_exists'.1 h6
  obtain ⟨v7, rfl⟩ := Option.ne_none_iff_exists'.1 h7
  refine ⟨_, rfl, fun m rest ha h63 => ?_⟩
  simp only [List.length_append] at ha
  have r1 := readECPoint_reads (maxAlloc := m) hx1 hy1 h63 (by unfold encPoint; simp; omega)
  have r2 := readECPoint_reads (maxAlloc := m) hx2 hy2 h63 (by unfold encPoint; simp; omega)
  have r3 := readBigInt_reads (maxAlloc := m) (v := v3) h63 (by unfold encInt; omega)
  have r4 := readBigInt_reads (maxAlloc := m) (v := v4) h63 (by unfold encInt; omega)
  have r5 := readBigInt_reads (maxAlloc := m) (v := v5) h63 (by unfold encInt; omega)
  have r6 := readBigInt_reads (maxAlloc := m) (v := v6) h63 (by unfold encInt; omega)
  have r7 := readBigInt_reads (maxAlloc := m) (v := v7) h63 (by unfold encInt; omega)
  change disjunctiveFromBytes m (encPoint x1 y1 ++ encPoint x2 y2 ++ encInt v3 ++ encInt v4 ++
    encInt v5 ++ encInt v6 ++ encInt v7 ++ rest) = _
  simp [disjunctiveFromBytes, List.append_assoc, r1.full, r2.full, r3.full, r4.full, r5.full,
    r6.full, r7.full]

/-- A concrete proof with a large response and a negative scalar meets the hypotheses of C11. -/
example : (⟨pt 5 7, pt 0 0, some (-3), some 11, some 0, some (2 ^ 250), some 4⟩ :
    DisjunctiveProof).Filled := by
  refine ⟨⟨5, 7, by decide, by decide, rfl⟩, ⟨0, 0, by decide, by decide, rfl⟩, ?_, ?_, ?_, ?_, ?_⟩ <;>
    simp

/-- Everything C12 and C14 need to know about the encoding of a filled ABC proof. -/
theorem abc_encoding (p : ABCProof) (hp : p.Filled) :
    ∃ enc, abcBytes p = .ok enc ∧ ∀ maxAlloc, enc.length ≤ maxAlloc → maxAlloc < 2 ^ 63 →
      (∀ rest, abcFromBytes maxAlloc (enc ++ rest) = .ok (some p, none)) ∧
      (∀ s t, t ≠ [] → s ++ t = enc → ∃ e, abcFromBytes maxAlloc s = .ok (none, some e)) := by
  obtain ⟨B, C, T1, T2, ch, j, k, l, ct, dj⟩ := p
  obtain ⟨⟨x1, y1, hx1, hy1, rfl⟩, ⟨x2, y2, hx2, hy2, rfl⟩, ⟨x3, y3, hx3, hy3, rfl⟩,
    ⟨x4, y4, hx4, hy4, rfl⟩, h5, h6, h7, h8, ⟨x9, y9, hx9, hy9, rfl⟩, d, hd, rfl⟩ := hp
  obtain ⟨v5, rfl⟩ := Option.ne_none_iff_exists'.1 h5
  obtain ⟨v6, rfl⟩ := Option.ne_none_iff_exists'.1 h6
  obtain ⟨v7, rfl⟩ := Option.ne_none_iff_exists'.1 h7
  obtain ⟨v8, rfl⟩ := Option.ne_none_iff_exists'.1 h8
  obtain ⟨de, hde, hdr⟩ := C11_disjunctive_roundtrip d hd
  have henc : abcBytes ⟨pt x1 y1, pt x2 y2, pt x3 y3, pt x4 y4, some v5, some v6, some v7, some v8,
      pt x9 y9, some d⟩ = .ok (encPoint x1 y1 ++ encPoint x2 y2 ++ encPoint x3 y3 ++
        encPoint x4 y4 ++ encInt v5 ++ encInt v6 ++ encInt v7 ++ encInt v8 ++ encPoint x9 y9 ++
        writeVarBytes de) := by
    simp [abcBytes, writeECPoint_pt, writeBigInt_some, hde]
  refine ⟨_, henc, fun m ha h63 => ?_⟩
  simp only [List.length_append] at ha
  have hdl := writeVarBytes_length_ge de
  have r1 := readECPoint_reads (maxAlloc := m) hx1 hy1 h63 (by omega)
  have r2 := readECPoint_reads (maxAlloc := m) hx2 hy2 h63 (by omega)
  have r3 := readECPoint_reads (maxAlloc := m) hx3 hy3 h63 (by omega)
  have r4 := readECPoint_reads (maxAlloc := m) hx4 hy4 h63 (by omega)
  have r5 := readBigInt_reads (maxAlloc := m) (v := v5) h63 (by omega)
  have r6 := readBigInt_reads (maxAlloc := m) (v := v6) h63 (by omega)
  have r7 := readBigInt_reads (maxAlloc := m) (v := v7) h63 (by omega)
  have r8 := readBigInt_reads (maxAlloc := m) (v := v8) h63 (by omega)
  have r9 := readECPoint_reads (maxAlloc := m) hx9 hy9 h63 (by omega)
  have r10 := readVarBytes_reads (maxAlloc := m) (b := de) 100000 (by omega) (by omega)
  have r10f : ∀ rest, readVarBytes m (writeVarBytes de ++ rest) 100000 = .ok (some de, none, rest) :=
    r10.full
  have r11 := hdr m [] (by omega) h63
  rw [List.append_nil] at r11
  constructor
  · intro rest
    simp [abcFromBytes, List.append_assoc, r1.full, r2.full, r3.full, r4.full, r5.full, r6.full,
      r7.full, r8.full, r9.full, r10f, r11]
  · intro s t ht h
    simp only [List.append_assoc] at h
    rcases split_prefix h with ⟨s1, rfl, h1⟩ | ⟨t', ht', hs⟩
    swap
    · obtain ⟨e, he⟩ := r1.short s t' ht' hs
      exact ⟨e, by simp [abcFromBytes, he]⟩
    rcases split_prefix h1 with ⟨s2, rfl, h2⟩ | ⟨t', ht', hs⟩
    swap
    · obtain ⟨e, he⟩ := r2.short s1 t' ht' hs
      exact ⟨e, by simp [abcFromBytes, r1.full, he]⟩
    rcases split_prefix h2 with ⟨s3, rfl, h3⟩ | ⟨t', ht', hs⟩
    swap
    · obtain ⟨e, he⟩ := r3.short s2 t' ht' hs
      exact ⟨e, by simp [abcFromBytes, r1.full, r2.full, he]⟩
    rcases split_prefix h3 with ⟨s4, rfl, h4⟩ | ⟨t', ht', hs⟩
    swap
    · obtain ⟨e, he⟩ := r4.short s3 t' ht' hs
      exact ⟨e, by simp [abcFromBytes, r1.full, r2.full, r3.full, he]⟩
    rcases split_prefix h4 with ⟨s5, rfl, h5⟩ | ⟨t', ht', hs⟩
    swap
    · obtain ⟨e, he⟩ := r5.short s4 t' ht' hs
      exact ⟨e, by simp [abcFromBytes, r1.full, r2.full, r3.full, r4.full, he]⟩
    rcases split_prefix h5 with ⟨s6, rfl, h6⟩ | ⟨t', ht', hs⟩
    swap
    · obtain ⟨e, he⟩ := r6.short s5 t' ht' hs
      exact ⟨e, by simp [abcFromBytes, r1.full, r2.full, r3.full, r4.full, r5.full, he]⟩
    rcases split_prefix h6 with ⟨s7, rfl, h7⟩ | ⟨t', ht', hs⟩
    swap
    · obtain ⟨e, he⟩ := r7.short s6 t' ht' hs
      exact ⟨e, by simp [abcFromBytes, r1.full, r2.full, r3.full, r4.full, r5.full, r6.full, he]⟩
    rcases split_prefix h7 with ⟨s8, rfl, h8⟩ | ⟨t', ht', hs⟩
    swap
    · obtain ⟨e, he⟩ := r8.short s7 t' ht' hs
      exact ⟨e, by simp [abcFromBytes, r1.full, r2.full, r3.full, r4.full, r5.full, r6.full,
        r7.full, he]⟩
    rcases split_prefix h8 with ⟨s9, rfl, h9⟩ | ⟨t', ht', hs⟩
    swap
    · obtain ⟨e, he⟩ := r9.short s8 t' ht' hs
      exact ⟨e, by simp [abcFromBytes, r1.full, r2.full, r3.full, r4.full, r5.full, r6.full,
        r7.full, r8.full, he]⟩
    · obtain ⟨e, he⟩ := r10.short s9 t ht h9
      exact ⟨e, by simp [abcFromBytes, r1.full, r2.full, r3.full, r4.full, r5.full, r6.full,
        r7.full, r8.full, r9.full, he]⟩

/-- C12. ABC proofs survive serialization, the nested disjunctive proof included. -/
theorem C12_abc_roundtrip (p : ABCProof) (hp : p.Filled) :
    ∃ enc, abcBytes p = .ok enc ∧ ∀ maxAlloc rest, enc.length ≤ maxAlloc → maxAlloc < 2 ^ 63 →
      abcFromBytes maxAlloc (enc ++ rest) = .ok (some p, none) := by
  obtain ⟨enc, h1, h2⟩ := abc_encoding p hp
  exact ⟨enc, h1, fun m rest ha h63 => (h2 m ha h63).1 rest⟩

/-- C14. On every proper prefix of the serialization of an ABC proof the deserializer returns an
error and no proof (and does not panic). -/
theorem C14_abc_truncation (p : ABCProof) (hp : p.Filled) :
    ∃ enc, abcBytes p = .ok enc ∧ ∀ maxAlloc, enc.length ≤ maxAlloc → maxAlloc < 2 ^ 63 →
      ∀ n, n < enc.length → ∃ e, abcFromBytes maxAlloc (enc.take n) = .ok (none, some e) := by
  obtain ⟨enc, h1, h2⟩ := abc_encoding p hp
  refine ⟨enc, h1, fun m ha h63 n hn => (h2 m ha h63).2 _ (enc.drop n) ?_ (List.take_append_drop ..)⟩
  simp only [ne_eq, List.drop_eq_nil_iff]; omega

example : (⟨pt 1 2, pt 3 4, pt 5 6, pt 7 8, some 1, some 2, some 3, some (-4), pt 9 10,
    some ⟨pt 5 7, pt 0 0, some 3, some 11, some 0, some 5, some 4⟩⟩ : ABCProof).Filled := by
  refine ⟨⟨1, 2, by decide, by decide, rfl⟩, ⟨3, 4, by decide, by decide, rfl⟩,
    ⟨5, 6, by decide, by decide, rfl⟩, ⟨7, 8, by decide, by decide, rfl⟩, by simp, by simp, by simp,
    by simp, ⟨9, 10, by decide, by decide, rfl⟩, _, ⟨⟨5, 7, by decide, by decide, rfl⟩,
    ⟨0, 0, by decide, by decide, rfl⟩, ?_, ?_, ?_, ?_, ?_⟩, rfl⟩ <;> simp

/-- The tuples of a range proof survive serialization. -/
theorem tuples_roundtrip (ts : List RangeProofTuple)
    (hts : ∀ t ∈ ts, t.C.Filled ∧ t.S ≠ none) :
    ∃ enc, tuplesBytes ts = .ok enc ∧ ∀ maxAlloc rest, enc.length ≤ maxAlloc → maxAlloc < 2 ^ 63 →
      readTuples maxAlloc ts.length (enc ++ rest) = .ok ts := by
  induction ts with
  | nil => exact ⟨[], rfl, fun m rest _ _ => rfl⟩
  | cons t ts ih =>
    obtain ⟨enc, he, hr⟩ := ih (fun u hu => hts u (List.mem_cons_of_mem _ hu))
    obtain ⟨⟨x, y, hx, hy, hC⟩, hS⟩ := hts t List.mem_cons_self
    obtain ⟨v, hv⟩ := Option.ne_none_iff_exists'.1 hS
    obtain ⟨C, S⟩ := t
    simp only at hC hv
    subst hC hv
    refine ⟨encPoint x y ++ encInt v ++ enc, ?_, fun m rest ha h63 => ?_⟩
    · simp [tuplesBytes, writeECPoint_pt, writeBigInt_some, he]
    · simp only [List.length_append] at ha
      have r1 := readECPoint_reads (maxAlloc := m) hx hy h63 (by omega)
      have r2 := readBigInt_reads (maxAlloc := m) (v := v) h63 (by omega)
      simp [readTuples, List.append_assoc, r1.full, r2.full, hr m rest (by omega) h63]

/-- C13. Range proofs with any number of tuples survive serialization. -/
theorem C13_range_roundtrip (p : RangeProof) (hp : p.Filled) (hlen : p.ProofTuples.length < 2 ^ 64) :
    ∃ enc, rangeBytes p = .ok enc ∧
      ∀ maxAlloc maxTuples rest, enc.length ≤ maxAlloc → maxAlloc < 2 ^ 63 →
        p.ProofTuples.length ≤ maxTuples →
        rangeFromBytes maxAlloc maxTuples (enc ++ rest) = .ok (some p, none) := by
  obtain ⟨agg, e, ts⟩ := p
  obtain ⟨⟨x, y, hx, hy, rfl⟩, h2, hts⟩ := hp
  obtain ⟨v, rfl⟩ := Option.ne_none_iff_exists'.1 h2
  obtain ⟨enc, he, hr⟩ := tuples_roundtrip ts hts
  simp only at hlen
  refine ⟨encPoint x y ++ encInt v ++ writeVarInt (UInt64.ofNat ts.length) ++ enc, ?_,
    fun m mt rest ha h63 hmt => ?_⟩
  · simp [rangeBytes, writeECPoint_pt, writeBigInt_some, he]
  · simp only [List.length_append] at ha
    have r1 := readECPoint_reads (maxAlloc := m) hx hy h63 (by omega)
    have r2 := readBigInt_reads (maxAlloc := m) (v := v) h63 (by omega)
    have hn : (UInt64.ofNat ts.length).toNat = ts.length := by
      simp only [UInt64.toNat_ofNat']; omega
    simp only at hmt
    simp [rangeFromBytes, List.append_assoc, r1.full, r2.full, C01_varint_roundtrip, hn,
      Nat.not_lt.2 hmt, hr m rest (by omega) h63]

example : (⟨pt 1 2, some 7, [⟨pt 3 4, some 5⟩, ⟨pt 6 7, some (2 ^ 250)⟩]⟩ : RangeProof).Filled := by
  refine ⟨⟨1, 2, by decide, by decide, rfl⟩, by simp, ?_⟩
  intro t ht
  simp only [List.mem_cons, List.not_mem_nil, or_false] at ht
  rcases ht with rfl | rfl
  · exact ⟨⟨3, 4, by decide, by decide, rfl⟩, by simp⟩
  · exact ⟨⟨6, 7, by decide, by decide, rfl⟩, by simp⟩

/-! ## C15: panics -/

/-- C15 as a user needs it, for the fixed-shape proofs and the ABC proof.  See gspfs.go:114-122. -/
def DeserializersTotal : Prop :=
  ∀ (maxAlloc : Nat) (s : Bytes), 1024 ≤ maxAlloc →
    gspfsFromBytes maxAlloc s ≠ .panic ∧ equivalenceFromBytes maxAlloc s ≠ .panic ∧
    consistencyFromBytes maxAlloc s ≠ .panic ∧ disjunctiveFromBytes maxAlloc s ≠ .panic ∧
    abcFromBytes maxAlloc s ≠ .panic ∧ rangeFromBytes maxAlloc maxAlloc s ≠ .panic

/-- C15 is false: one zero-length scalar field makes each deserializer panic. -/
theorem C15_refuted (maxAlloc : Nat) :
    gspfsFromBytes maxAlloc [0, 0, 0, 0, 0] = .panic ∧
    equivalenceFromBytes maxAlloc [0, 0, 0, 0, 0] = .panic ∧
    consistencyFromBytes maxAlloc [0, 0, 0, 0, 0] = .panic ∧
    disjunctiveFromBytes maxAlloc [0, 0, 0, 0, 0] = .panic ∧
    abcFromBytes maxAlloc [0, 0, 0, 0, 0, 0, 0, 0, 0] = .panic ∧
    rangeFromBytes maxAlloc maxAlloc [0, 0, 0] = .panic := by
  have hv : ∀ r, readVarInt (0 :: r) = .ok (0, none, r) := fun r =>
    readVarInt_small 0 r (by decide)
  have hb : ∀ r m, readVarBytes maxAlloc (0 :: r) m = .ok (some [], none, r) := by
    intro r m; simp [readVarBytes, hv, readFull]
  have hi : ∀ r, readBigInt maxAlloc (0 :: r) = .panic := by
    intro r; simp [readBigInt, hb]
  have hp : ∀ r, readECPoint maxAlloc (0 :: 0 :: r) = .ok (Zero, none, r) := by
    intro r; simp [readECPoint, hb, setBytes, Zero]
  simp [gspfsFromBytes, equivalenceFromBytes, consistencyFromBytes, disjunctiveFromBytes,
    abcFromBytes, rangeFromBytes, hp, hi]

theorem C15_refuted' : ¬ DeserializersTotal := fun h =>
  (h 1024 [0, 0, 0, 0, 0] (le_refl _)).1 (C15_refuted 1024).1

/-- Also a nine-byte message announcing a huge field kills the process. -/
theorem C15_refuted_alloc : gspfsFromBytes (2 ^ 40) (0xff :: List.replicate 8 0xff) = .panic := by
  have h : readVarInt (0xff :: List.replicate 8 0xff) = .ok (0xffffffffffffffff, none, []) := by
    decide
  have := ((C06_varbytes_partial (2 ^ 40) _ 32).2.1 _ _ h).1 (by decide)
  simp only [gspfsFromBytes, readECPoint, this, Go.bind_panic]

/-- C15, what holds: the exact condition under which reading a scalar panics (an announced length
of zero or more than can be allocated) and the one for points (too long only).
Missing from the full claim: the zero-length and the oversized case. -/
theorem C15_panic_condition_partial (maxAlloc : Nat) (s : Bytes) :
    (readBigInt maxAlloc s = .panic ↔
      ∃ n rest, readVarInt s = .ok (n, none, rest) ∧ (n = 0 ∨ maxAlloc < n.toNat)) ∧
    (readECPoint maxAlloc s = .panic ↔
      ∃ n rest, readVarInt s = .ok (n, none, rest) ∧ (maxAlloc < n.toNat ∨
        (n.toNat ≤ rest.length ∧ ∃ m rest', readVarInt (rest.drop n.toNat) = .ok (m, none, rest') ∧
          maxAlloc < m.toNat))) := by
  obtain ⟨⟨n, err, rest⟩, hr⟩ := C04_varint_total s
  have hch := C06_varbytes_partial maxAlloc s 32
  cases err with
  | some e =>
    have := hch.2.2 _ _ _ hr
    simp [readBigInt, readECPoint, this, hr]
  | none =>
    obtain ⟨h1, h2, h3⟩ := hch.2.1 _ _ hr
    rcases Nat.lt_or_ge maxAlloc n.toNat with hlt | hge
    · simp [readBigInt, readECPoint, h1 hlt, hr, hlt]
    · rcases Nat.lt_or_ge rest.length n.toNat with hs | hs
      · have hn0 : n ≠ 0 := by rintro rfl; simp at hs
        simp [readBigInt, readECPoint, h2 hge hs, hr, Nat.not_lt.2 hge, Nat.not_le.2 hs, hn0]
      · constructor
        · have hn0 : n = 0 ↔ rest.take n.toNat = [] := by
            rw [List.take_eq_nil_iff]
            constructor
            · rintro rfl; left; rfl
            · rintro (h | h)
              · exact UInt64.toNat_inj.1 (by simpa using h)
              · subst h; exact UInt64.toNat_inj.1 (by simpa using hs)
          simp only [readBigInt, h3 hge hs, Go.bind_ok, Option.isSome_none, Bool.false_eq_true,
            if_false, deref_some, hr, Go.ok.injEq, Prod.mk.injEq, true_and]
          constructor
          · intro h
            refine ⟨n, rest, ⟨rfl, rfl⟩, Or.inl (hn0.2 ?_)⟩
            match hm : rest.take n.toNat with
            | [] => rfl
            | b0 :: tl => rw [hm] at h; simp only at h; split_ifs at h
          · rintro ⟨_, _, ⟨rfl, rfl⟩, hor⟩
            rcases hor with h | h
            · rw [hn0.1 h]
            · omega
        · have hch2 := C06_varbytes_partial maxAlloc (rest.drop n.toNat) 32
          obtain ⟨⟨m, err2, rest2⟩, hr2⟩ := C04_varint_total (rest.drop n.toNat)
          cases err2 with
          | some e =>
            have := hch2.2.2 _ _ _ hr2
            simp [readECPoint, h3 hge hs, this, hr, hr2, Nat.not_lt.2 hge]
          | none =>
            obtain ⟨g1, g2, g3⟩ := hch2.2.1 _ _ hr2
            rcases Nat.lt_or_ge maxAlloc m.toNat with hlt | hge2
            · simp [readECPoint, h3 hge hs, g1 hlt, hr, hr2, hlt, hs]
            · rcases Nat.lt_or_ge rest2.length m.toNat with hs2 | hs2
              · simp [readECPoint, h3 hge hs, g2 hge2 hs2, hr, hr2, Nat.not_lt.2 hge,
                  Nat.not_lt.2 hge2]
              · simp [readECPoint, h3 hge hs, g3 hge2 hs2, hr, hr2, Nat.not_lt.2 hge,
                  Nat.not_lt.2 hge2]

/-! ## C16: errors -/

/-- C16 as a user needs it.  See gspfs.go:114-122. -/
def DeserializersReportTruncation : Prop :=
  ∀ (maxAlloc : Nat) (p : GSPFSProof) (enc : Bytes), p.Filled → gspfsBytes p = .ok enc →
    enc.length ≤ maxAlloc → maxAlloc < 2 ^ 63 → ∀ n, n < enc.length →
      ∃ e, gspfsFromBytes maxAlloc (enc.take n) = .ok (none, some e)

/-- The five deserializers other than the ABC one never return an error, on any input. -/
theorem C16_never_an_error (maxAlloc maxTuples : Nat) (s : Bytes) :
    (∀ p e, gspfsFromBytes maxAlloc s = .ok (p, e) → e = none ∧ p ≠ none) ∧
    (∀ p e, equivalenceFromBytes maxAlloc s = .ok (p, e) → e = none ∧ p ≠ none) ∧
    (∀ p e, consistencyFromBytes maxAlloc s = .ok (p, e) → e = none ∧ p ≠ none) ∧
    (∀ p e, disjunctiveFromBytes maxAlloc s = .ok (p, e) → e = none ∧ p ≠ none) ∧
    (∀ p e, rangeFromBytes maxAlloc maxTuples s = .ok (p, e) → e = none ∧ p ≠ none) := by
  refine ⟨?_, ?_, ?_, ?_, ?_⟩
  · intro p e h
    simp only [gspfsFromBytes, Go.bind_eq_ok, Prod.exists, Go.pure_eq, Go.ok.injEq,
      Prod.mk.injEq] at h
    obtain ⟨_, _, _, _, _, _, _, _, _, _, _, _, _, _, _, _, h1, h2⟩ := h
    exact ⟨h2.symm, by simp [← h1]⟩
  · intro p e h
    simp only [equivalenceFromBytes, Go.bind_eq_ok, Prod.exists, Go.pure_eq, Go.ok.injEq,
      Prod.mk.injEq] at h
    obtain ⟨_, _, _, _, _, _, _, _, _, _, _, _, _, _, _, _, h1, h2⟩ := h
    exact ⟨h2.symm, by simp [← h1]⟩
  · intro p e h
    simp only [consistencyFromBytes, Go.bind_eq_ok, Prod.exists, Go.pure_eq, Go.ok.injEq,
      Prod.mk.injEq] at h
    obtain ⟨_, _, _, _, _, _, _, _, _, _, _, _, _, _, _, _, _, _, _, _, h1, h2⟩ := h
    exact ⟨h2.symm, by simp [← h1]⟩
  · intro p e h
    simp only [disjunctiveFromBytes, Go.bind_eq_ok, Prod.exists, Go.pure_eq, Go.ok.injEq,
      Prod.mk.injEq] at h
    obtain ⟨_, _, _, _, _, _, _, _, _, _, _, _, _, _, _, _, _, _, _, _, _, _, _, _, _, _, _, _, h1,
      h2⟩ := h
    exact ⟨h2.symm, by simp [← h1]⟩
  · intro p e h
    simp only [rangeFromBytes, Go.bind_eq_ok, Prod.exists] at h
    obtain ⟨_, _, _, _, _, _, _, _, n, _, _, _, h⟩ := h
    split_ifs at h with hn
    simp only [Go.bind_eq_ok, Go.pure_eq, Go.ok.injEq, Prod.mk.injEq] at h
    obtain ⟨_, _, h1, h2⟩ := h
    exact ⟨h2.symm, by simp [← h1]⟩

/-- C16 is false: the empty slice (a truncation of any proof) is accepted without an error, and the
scalars of the resulting proof are nil. -/
theorem C16_refuted : ¬ DeserializersReportTruncation := by
  intro h
  have hf : (⟨pt 1 2, pt 3 4, some 5, some 6⟩ : GSPFSProof).Filled :=
    ⟨⟨1, 2, by decide, by decide, rfl⟩, ⟨3, 4, by decide, by decide, rfl⟩, by simp, by simp⟩
  obtain ⟨enc, henc, _⟩ := C11_gspfs_roundtrip _ hf
  have hpos : 0 < enc.length := by
    have : enc = encPoint 1 2 ++ encPoint 3 4 ++ encInt 5 ++ encInt 6 := by
      have h2 : gspfsBytes ⟨pt 1 2, pt 3 4, some 5, some 6⟩ =
        .ok (encPoint 1 2 ++ encPoint 3 4 ++ encInt 5 ++ encInt 6) := rfl
      rw [henc] at h2; simpa using h2
    rw [this]
    have := writeVarInt_length_pos (UInt64.ofNat (intBytes 1).length)
    simp [encPoint, writeVarBytes]; omega
  have hlen : enc.length < 2 ^ 63 := by
    have : enc = encPoint 1 2 ++ encPoint 3 4 ++ encInt 5 ++ encInt 6 := by
      have h2 : gspfsBytes ⟨pt 1 2, pt 3 4, some 5, some 6⟩ =
        .ok (encPoint 1 2 ++ encPoint 3 4 ++ encInt 5 ++ encInt 6) := rfl
      rw [henc] at h2; simpa using h2
    have hw : ∀ b : Bytes, (writeVarBytes b).length ≤ 9 + b.length := by
      intro b
      have := (C03_varint_size (UInt64.ofNat b.length))
      simp only [maxVarIntPayload] at this
      simp [writeVarBytes]; omega
    have hi : ∀ n : Int, n.natAbs < 256 → (intBytes n).length ≤ 1 := by
      intro n hn
      exact natBytes_length_le (k := 1) (by simpa using hn)
    have a1 := hw (intBytes 1); have a2 := hw (intBytes 2); have a3 := hw (intBytes 3)
    have a4 := hw (intBytes 4); have a5 := hw (0 :: intBytes 5); have a6 := hw (0 :: intBytes 6)
    have b1 := hi 1 (by decide); have b2 := hi 2 (by decide); have b3 := hi 3 (by decide)
    have b4 := hi 4 (by decide); have b5 := hi 5 (by decide); have b6 := hi 6 (by decide)
    simp only [List.length_cons] at a5 a6
    rw [this]
    simp [encPoint, encInt]; omega
  obtain ⟨e, he⟩ := h enc.length _ enc hf henc (le_refl _) hlen 0 hpos
  have := ((C16_never_an_error enc.length 0 (enc.take 0)).1 _ _ he).1
  simp at this

/-- C16, what holds: after any truncation of an honest serialization the deserializers do not
panic, and the last scalar of the proof they return is nil, so a caller who checks for nil fields
notices.  Missing from the full claim: the error. -/
theorem C16_truncation_gives_nil_partial :
    (∀ p : GSPFSProof, p.Filled → ∃ enc, gspfsBytes p = .ok enc ∧ ∀ maxAlloc, enc.length ≤ maxAlloc →
      maxAlloc < 2 ^ 63 → ∀ n, n < enc.length →
        ∃ q, gspfsFromBytes maxAlloc (enc.take n) = .ok (some q, none) ∧ q.Challenge = none) ∧
    (∀ p : EquivalenceProof, p.Filled → ∃ enc, equivalenceBytes p = .ok enc ∧
      ∀ maxAlloc, enc.length ≤ maxAlloc → maxAlloc < 2 ^ 63 → ∀ n, n < enc.length →
        ∃ q, equivalenceFromBytes maxAlloc (enc.take n) = .ok (some q, none) ∧
          q.HiddenValue = none) ∧
    (∀ p : ConsistencyProof, p.Filled → ∃ enc, consistencyBytes p = .ok enc ∧
      ∀ maxAlloc, enc.length ≤ maxAlloc → maxAlloc < 2 ^ 63 → ∀ n, n < enc.length →
        ∃ q, consistencyFromBytes maxAlloc (enc.take n) = .ok (some q, none) ∧ q.S2 = none) ∧
    (∀ p : DisjunctiveProof, p.Filled → ∃ enc, disjunctiveBytes p = .ok enc ∧
      ∀ maxAlloc, enc.length ≤ maxAlloc → maxAlloc < 2 ^ 63 → ∀ n, n < enc.length →
        ∃ q, disjunctiveFromBytes maxAlloc (enc.take n) = .ok (some q, none) ∧ q.S2 = none) := by
  have cut : ∀ (enc : Bytes) n, n < enc.length →
      enc.drop n ≠ [] ∧ enc.take n ++ enc.drop n = enc := by
    intro enc n hn
    exact ⟨by simp only [ne_eq, List.drop_eq_nil_iff]; omega, List.take_append_drop ..⟩
  refine ⟨?_, ?_, ?_, ?_⟩
  · intro p hp
    obtain ⟨b, rc, hv, ch⟩ := p
    obtain ⟨⟨x1, y1, hx1, hy1, rfl⟩, ⟨x2, y2, hx2, hy2, rfl⟩, h3, h4⟩ := hp
    obtain ⟨v3, rfl⟩ := Option.ne_none_iff_exists'.1 h3
    obtain ⟨v4, rfl⟩ := Option.ne_none_iff_exists'.1 h4
    refine ⟨encPoint x1 y1 ++ encPoint x2 y2 ++ encInt v3 ++ encInt v4, rfl,
      fun m ha h63 n hn => ?_⟩
    simp only [List.length_append] at ha
    have r1 := readECPoint_reads (maxAlloc := m) hx1 hy1 h63 (by omega)
    have r2 := readECPoint_reads (maxAlloc := m) hx2 hy2 h63 (by omega)
    have r3 := readBigInt_reads (maxAlloc := m) (v := v3) h63 (by omega)
    have r4 := readBigInt_reads (maxAlloc := m) (v := v4) h63 (by omega)
    obtain ⟨ht, h⟩ := cut _ n hn
    generalize List.take n _ = s at h ⊢
    generalize List.drop n _ = t at h ht
    simp only [List.append_assoc] at h
    rcases split_prefix h with ⟨s1, rfl, h1⟩ | ⟨t', ht', hs⟩
    swap
    · obtain ⟨e, he⟩ := r1.short s t' ht' hs
      simp [gspfsFromBytes, he, readECPoint_nil, readBigInt_nil]
    rcases split_prefix h1 with ⟨s2, rfl, h2⟩ | ⟨t', ht', hs⟩
    swap
    · obtain ⟨e, he⟩ := r2.short s1 t' ht' hs
      simp [gspfsFromBytes, r1.full, he, readBigInt_nil]
    rcases split_prefix h2 with ⟨s3, rfl, h3⟩ | ⟨t', ht', hs⟩
    swap
    · obtain ⟨e, he⟩ := r3.short s2 t' ht' hs
      simp [gspfsFromBytes, r1.full, r2.full, he, readBigInt_nil]
    · obtain ⟨e, he⟩ := r4.short s3 t ht h3
      simp [gspfsFromBytes, r1.full, r2.full, r3.full, he]
  · intro p hp
    obtain ⟨b, rc, hv, ch⟩ := p
    obtain ⟨⟨x1, y1, hx1, hy1, rfl⟩, ⟨x2, y2, hx2, hy2, rfl⟩, h3, h4⟩ := hp
    obtain ⟨v3, rfl⟩ := Option.ne_none_iff_exists'.1 h3
    obtain ⟨v4, rfl⟩ := Option.ne_none_iff_exists'.1 h4
    refine ⟨encPoint x1 y1 ++ encPoint x2 y2 ++ encInt v3 ++ encInt v4, rfl,
      fun m ha h63 n hn => ?_⟩
    simp only [List.length_append] at ha
    have r1 := readECPoint_reads (maxAlloc := m) hx1 hy1 h63 (by omega)
    have r2 := readECPoint_reads (maxAlloc := m) hx2 hy2 h63 (by omega)
    have r3 := readBigInt_reads (maxAlloc := m) (v := v3) h63 (by omega)
    have r4 := readBigInt_reads (maxAlloc := m) (v := v4) h63 (by omega)
    obtain ⟨ht, h⟩ := cut _ n hn
    generalize List.take n _ = s at h ⊢
    generalize List.drop n _ = t at h ht
    simp only [List.append_assoc] at h
    rcases split_prefix h with ⟨s1, rfl, h1⟩ | ⟨t', ht', hs⟩
    swap
    · obtain ⟨e, he⟩ := r1.short s t' ht' hs
      simp [equivalenceFromBytes, he, readECPoint_nil, readBigInt_nil]
    rcases split_prefix h1 with ⟨s2, rfl, h2⟩ | ⟨t', ht', hs⟩
    swap
    · obtain ⟨e, he⟩ := r2.short s1 t' ht' hs
      simp [equivalenceFromBytes, r1.full, he, readBigInt_nil]
    rcases split_prefix h2 with ⟨s3, rfl, h3⟩ | ⟨t', ht', hs⟩
    swap
    · obtain ⟨e, he⟩ := r3.short s2 t' ht' hs
      simp [equivalenceFromBytes, r1.full, r2.full, he, readBigInt_nil]
    · obtain ⟨e, he⟩ := r4.short s3 t ht h3
      simp [equivalenceFromBytes, r1.full, r2.full, r3.full, he]
  · intro p hp
    obtain ⟨b, rc, c, s1, s2⟩ := p
    obtain ⟨⟨x1, y1, hx1, hy1, rfl⟩, ⟨x2, y2, hx2, hy2, rfl⟩, h3, h4, h5⟩ := hp
    obtain ⟨v3, rfl⟩ := Option.ne_none_iff_exists'.1 h3
    obtain ⟨v4, rfl⟩ := Option.ne_none_iff_exists'.1 h4
    obtain ⟨v5, rfl⟩ := Option.ne_none_iff_exists'.1 h5
    refine ⟨encPoint x1 y1 ++ encPoint x2 y2 ++ encInt v3 ++ encInt v4 ++ encInt v5, rfl,
      fun m ha h63 n hn => ?_⟩
    simp only [List.length_append] at ha
    have r1 := readECPoint_reads (maxAlloc := m) hx1 hy1 h63 (by omega)
    have r2 := readECPoint_reads (maxAlloc := m) hx2 hy2 h63 (by omega)
    have r3 := readBigInt_reads (maxAlloc := m) (v := v3) h63 (by omega)
    have r4 := readBigInt_reads (maxAlloc := m) (v := v4) h63 (by omega)
    have r5 := readBigInt_reads (maxAlloc := m) (v := v5) h63 (by omega)
    obtain ⟨ht, h⟩ := cut _ n hn
    generalize List.take n _ = s at h ⊢
    generalize List.drop n _ = t at h ht
    simp only [List.append_assoc] at h
    rcases split_prefix h with ⟨s1, rfl, h1⟩ | ⟨t', ht', hs⟩
    swap
    · obtain ⟨e, he⟩ := r1.short s t' ht' hs
      simp [consistencyFromBytes, he, readECPoint_nil, readBigInt_nil]
    rcases split_prefix h1 with ⟨s2, rfl, h2⟩ | ⟨t', ht', hs⟩
    swap
    · obtain ⟨e, he⟩ := r2.short s1 t' ht' hs
      simp [consistencyFromBytes, r1.full, he, readBigInt_nil]
    rcases split_prefix h2 with ⟨s3, rfl, h3⟩ | ⟨t', ht', hs⟩
    swap
    · obtain ⟨e, he⟩ := r3.short s2 t' ht' hs
      simp [consistencyFromBytes, r1.full, r2.full, he, readBigInt_nil]
    rcases split_prefix h3 with ⟨s4, rfl, h4⟩ | ⟨t', ht', hs⟩
    swap
    · obtain ⟨e, he⟩ := r4.short s3 t' ht' hs
      simp [consistencyFromBytes, r1.full, r2.full, r3.full, he, readBigInt_nil]
    · obtain ⟨e, he⟩ := r5.short s4 t ht h4
      simp [consistencyFromBytes, r1.full, r2.full, r3.full, r4.full, he]
  · intro p hp
    obtain ⟨b, rc, c, c1, c2, s1, s2⟩ := p
    obtain ⟨⟨x1, y1, hx1, hy1, rfl⟩, ⟨x2, y2, hx2, hy2, rfl⟩, h3, h4, h5, h6, h7⟩ := hp
    obtain ⟨v3, rfl⟩ := Option.ne_none_iff_exists'.1 h3
    obtain ⟨v4, rfl⟩ := Option.ne_none_iff_exists'.1 h4
    obtain ⟨v5, rfl⟩ := Option.ne_none_iff_exists'.1 h5
    obtain ⟨v6, rfl⟩ := Option.ne_none_iff_exists'.1 h6
    obtain ⟨v7, rfl⟩ := Option.ne_none_iff_exists'.1 h7
    refine ⟨encPoint x1 y1 ++ encPoint x2 y2 ++ encInt v3 ++ encInt v4 ++ encInt v5 ++ encInt v6 ++
      encInt v7, rfl, fun m ha h63 n hn => ?_⟩
    simp only [List.length_append] at ha
    have r1 := readECPoint_reads (maxAlloc := m) hx1 hy1 h63 (by omega)
    have r2 := readECPoint_reads (maxAlloc := m) hx2 hy2 h63 (by omega)
    have r3 := readBigInt_reads (maxAlloc := m) (v := v3) h63 (by omega)
    have r4 := readBigInt_reads (maxAlloc := m) (v := v4) h63 (by omega)
    have r5 := readBigInt_reads (maxAlloc := m) (v := v5) h63 (by omega)
    have r6 := readBigInt_reads (maxAlloc := m) (v := v6) h63 (by omega)
    have r7 := readBigInt_reads (maxAlloc := m) (v := v7) h63 (by omega)
    obtain ⟨ht, h⟩ := cut _ n hn
    generalize List.take n _ = s at h ⊢
    generalize List.drop n _ = t at h ht
    simp only [List.append_assoc] at h
    rcases split_prefix h with ⟨s1, rfl, h1⟩ | ⟨t', ht', hs⟩
    swap
    · obtain ⟨e, he⟩ := r1.short s t' ht' hs
      simp [disjunctiveFromBytes, he, readECPoint_nil, readBigInt_nil]
    rcases split_prefix h1 with ⟨s2, rfl, h2⟩ | ⟨t', ht', hs⟩
    swap
    · obtain ⟨e, he⟩ := r2.short s1 t' ht' hs
      simp [disjunctiveFromBytes, r1.full, he, readBigInt_nil]
    rcases split_prefix h2 with ⟨s3, rfl, h3⟩ | ⟨t', ht', hs⟩
    swap
    · obtain ⟨e, he⟩ := r3.short s2 t' ht' hs
      simp [disjunctiveFromBytes, r1.full, r2.full, he, readBigInt_nil]
    rcases split_prefix h3 with ⟨s4, rfl, h4⟩ | ⟨t', ht', hs⟩
    swap
    · obtain ⟨e, he⟩ := r4.short s3 t' ht' hs
      simp [disjunctiveFromBytes, r1.full, r2.full, r3.full, he, readBigInt_nil]
    rcases split_prefix h4 with ⟨s5, rfl, h5⟩ | ⟨t', ht', hs⟩
    swap
    · obtain ⟨e, he⟩ := r5.short s4 t' ht' hs
      simp [disjunctiveFromBytes, r1.full, r2.full, r3.full, r4.full, he, readBigInt_nil]
    rcases split_prefix h5 with ⟨s6, rfl, h6⟩ | ⟨t', ht', hs⟩
    swap
    · obtain ⟨e, he⟩ := r6.short s5 t' ht' hs
      simp [disjunctiveFromBytes, r1.full, r2.full, r3.full, r4.full, r5.full, he, readBigInt_nil]
    · obtain ⟨e, he⟩ := r7.short s6 t ht h6
      simp [disjunctiveFromBytes, r1.full, r2.full, r3.full, r4.full, r5.full, r6.full, he]

end Zk.Ser
