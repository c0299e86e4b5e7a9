import Verif.Ser.Props

/-! # Property C16 for range proofs -/

namespace Zk.Ser

open Zk Zk.Wire

/-- With nothing left, the tuples read are empty. -/
theorem readTuples_nil (maxAlloc n : Nat) : readTuples maxAlloc n [] = .ok (List.replicate n ⟨Zero, none⟩) := by
  induction n with
  | zero => rfl
  | succ n ih => simp [readTuples, readECPoint_nil, readBigInt_nil, ih, List.replicate_succ]

/-- A proper prefix of the encoding of tuples gives as many tuples, and the last one has no scalar. -/
theorem tuples_short (ts : List RangeProofTuple) (hts : ∀ t ∈ ts, t.C.Filled ∧ t.S ≠ none) :
    ∃ enc, tuplesBytes ts = .ok enc ∧ ∀ maxAlloc, enc.length ≤ maxAlloc → maxAlloc < 2 ^ 63 →
      ∀ s t, t ≠ [] → s ++ t = enc → ∃ qs q, readTuples maxAlloc ts.length s = .ok (qs ++ [q]) ∧
        qs.length + 1 = ts.length ∧ q.S = none := by
  induction ts with
  | nil => exact ⟨[], rfl, fun m _ _ s t ht h => absurd (List.append_eq_nil_iff.1 h).2 ht⟩
  | cons t ts ih =>
    obtain ⟨enc, he, hr⟩ := ih (fun u hu => hts u (List.mem_cons_of_mem _ hu))
    obtain ⟨⟨x, y, hx, hy, hC⟩, hS⟩ := hts t List.mem_cons_self
    obtain ⟨v, hv⟩ := Option.ne_none_iff_exists'.1 hS
    obtain ⟨C, S⟩ := t
    simp only at hC hv
    subst hC hv
    refine ⟨encPoint x y ++ encInt v ++ enc, ?_, fun m ha h63 s t ht h => ?_⟩
    · simp [tuplesBytes, writeECPoint_pt, writeBigInt_some, he]
    · simp only [List.length_append] at ha
      have r1 := readECPoint_reads (maxAlloc := m) hx hy h63 (by omega)
      have r2 := readBigInt_reads (maxAlloc := m) (v := v) h63 (by omega)
      simp only [List.append_assoc] at h
      have hrep : ∀ q : RangeProofTuple, q.S = none → ∃ qs q', q :: List.replicate ts.length ⟨Zero, none⟩ = qs ++ [q'] ∧
          qs.length + 1 = (⟨pt x y, some v⟩ :: ts : List RangeProofTuple).length ∧ q'.S = none := by
        intro q hq
        rcases ts with _ | ⟨u, ts⟩
        · exact ⟨[], q, rfl, rfl, hq⟩
        · refine ⟨q :: List.replicate ts.length ⟨Zero, none⟩, ⟨Zero, none⟩, ?_, by simp, rfl⟩
          rw [List.length_cons, List.replicate_succ', List.cons_append]
      rcases split_prefix h with ⟨s1, rfl, h1⟩ | ⟨t', ht', hs⟩
      swap
      · obtain ⟨e, he⟩ := r1.short s t' ht' hs
        obtain ⟨qs, q, h1, h2, h3⟩ := hrep ⟨Zero, none⟩ rfl
        exact ⟨qs, q, by simp [readTuples, he, readBigInt_nil, readTuples_nil, h1], h2, h3⟩
      rcases split_prefix h1 with ⟨s2, rfl, h2⟩ | ⟨t', ht', hs⟩
      swap
      · obtain ⟨e, he⟩ := r2.short s1 t' ht' hs
        obtain ⟨qs, q, h1, h2, h3⟩ := hrep ⟨pt x y, none⟩ rfl
        exact ⟨qs, q, by simp [readTuples, r1.full, he, readTuples_nil, h1], h2, h3⟩
      · obtain ⟨qs, q, h3, h4, h5⟩ := hr m (by omega) h63 s2 t ht h2
        refine ⟨⟨pt x y, some v⟩ :: qs, q, ?_, by simp [h4], h5⟩
        simp [readTuples, r1.full, r2.full, h3]

/-- C16 for range proofs, what holds: after any truncation of the serialization of a proof with tuples the deserializer
does not panic, and it returns a proof without tuples or one with the right number of tuples of which the last has no
scalar.  So a caller who checks the number of tuples and for nil notices.  Missing from the full claim: the error. -/
theorem C16_range_truncation_partial (p : RangeProof) (hp : p.Filled) (hlen : p.ProofTuples.length < 2 ^ 64) :
    ∃ enc, rangeBytes p = .ok enc ∧ ∀ maxAlloc maxTuples, enc.length ≤ maxAlloc → maxAlloc < 2 ^ 63 →
      p.ProofTuples.length ≤ maxTuples → ∀ n, n < enc.length →
        ∃ q, rangeFromBytes maxAlloc maxTuples (enc.take n) = .ok (some q, none) ∧
          (q.ProofTuples = [] ∨ q.ProofTuples.length = p.ProofTuples.length ∧
            ∃ t, q.ProofTuples.getLast? = some t ∧ t.S = none) := by
  obtain ⟨agg, e, ts⟩ := p
  obtain ⟨⟨x, y, hx, hy, rfl⟩, h2, hts⟩ := hp
  obtain ⟨v, rfl⟩ := Option.ne_none_iff_exists'.1 h2
  obtain ⟨enc, he, hr⟩ := tuples_short ts hts
  simp only at hlen
  refine ⟨encPoint x y ++ encInt v ++ writeVarInt (UInt64.ofNat ts.length) ++ enc, ?_,
    fun m mt ha h63 hmt n hn => ?_⟩
  · simp [rangeBytes, writeECPoint_pt, writeBigInt_some, he]
  · simp only [List.length_append] at ha
    have r1 := readECPoint_reads (maxAlloc := m) hx hy h63 (by omega)
    have r2 := readBigInt_reads (maxAlloc := m) (v := v) h63 (by omega)
    have r3 := readVarInt_reads (UInt64.ofNat ts.length)
    have hN : (UInt64.ofNat ts.length).toNat = ts.length := by
      simp only [UInt64.toNat_ofNat']; omega
    have ht : (encPoint x y ++ encInt v ++ writeVarInt (UInt64.ofNat ts.length) ++ enc).drop n ≠ [] := by
      simp only [ne_eq, List.drop_eq_nil_iff]; omega
    have h := List.take_append_drop n (encPoint x y ++ encInt v ++ writeVarInt (UInt64.ofNat ts.length) ++ enc)
    generalize List.take n _ = s at h ⊢
    generalize List.drop n _ = t at h ht
    simp only [List.append_assoc] at h
    simp only at hmt
    rcases split_prefix h with ⟨s1, rfl, h1⟩ | ⟨t', ht', hs⟩
    swap
    · obtain ⟨e, he⟩ := r1.short s t' ht' hs
      simp [rangeFromBytes, he, readBigInt_nil, readVarInt_nil, readTuples]
    rcases split_prefix h1 with ⟨s2, rfl, h2⟩ | ⟨t', ht', hs⟩
    swap
    · obtain ⟨e, he⟩ := r2.short s1 t' ht' hs
      simp [rangeFromBytes, r1.full, he, readVarInt_nil, readTuples]
    rcases split_prefix h2 with ⟨s3, rfl, h3⟩ | ⟨t', ht', hs⟩
    swap
    · obtain ⟨e, he⟩ := r3.short s2 t' ht' hs
      simp [rangeFromBytes, r1.full, r2.full, he, readTuples]
    · obtain ⟨qs, q, h4, h5, h6⟩ := hr m (by omega) h63 s3 t ht h3
      refine ⟨⟨pt x y, some v, qs ++ [q]⟩, ?_, .inr ⟨by simpa using h5, q, by simp, h6⟩⟩
      simp [rangeFromBytes, r1.full, r2.full, r3.full, hN, Nat.not_lt.2 hmt, h4]

/-- The hypotheses can be met by a proof with tuples. -/
example : (⟨pt 1 2, some 7, [⟨pt 3 4, some 5⟩]⟩ : RangeProof).Filled := by
  refine ⟨⟨1, 2, by decide, by decide, rfl⟩, by simp, ?_⟩
  intro t ht
  simp only [List.mem_cons, List.not_mem_nil, or_false] at ht
  subst ht
  exact ⟨⟨3, 4, by decide, by decide, rfl⟩, by simp⟩

end Zk.Ser
