import Verif.Rom.RangeLeak

/-!
# What range proofs reveal, with probabilities: properties

C57 is false of the code.  Here is how often an observer finds the value.
-/

namespace Zk.Rom

open Zk Zk.Proto

variable {cp : Params} {E : Type} [AddCommGroup E]

/-- C57 is false in the worst way: from the proof alone, with public operations, the value is found, whenever the
challenge is at least N / m, by an observer who tries m quotients for each bit.  Premises: the draws are in range, 2^i*G
is not one of the first multiples of the base of the H table, and the inner challenges are not 0 and the drawn points not
-G, H, -H (otherwise there is no proof, or not a good one). -/
theorem C57_value_found (L : Lawful cp E) (hash : Bytes → Bytes) (n : Nat) (hn : n ≤ 64) (value : Int)
    (h0 : 0 ≤ value) (h : value < 2 ^ n) (rnd : Nat → BitRand)
    (hinv : ∀ i < n, bitOf value i = false → ¬ (cp.C.N : Int) ∣ L.eiOf hash n value rnd i)
    (hk : ∀ i < n, bitOf value i = false → L.MultOk ((rnd i).k • L.hb))
    (hrange : ∀ i < n, 0 ≤ (rnd i).k ∧ (rnd i).k < cp.C.N ∧ 0 ≤ (rnd i).j ∧ (rnd i).j < cp.C.N)
    (m : Nat) (hne : ∀ i < n, ∀ t : Nat, t < m → (2 ^ i : Int) • L.g ≠ (t : Int) • L.hb ∧
      (2 ^ i : Int) • L.g ≠ -((t : Int) • L.hb))
    (proof : RangeProof) (vTotal : Int)
    (hrun : proveRange hash cp n value rnd = .ok (some proof, some vTotal, none))
    (e : Int) (he : proof.ProofE = some e) (hbig : (cp.C.N : Int) ≤ m * e) :
    guessValue cp m proof = .ok value := by
  obtain ⟨w, hw, hp⟩ := L.proveRange_honest hash n hn value rnd hinv hk
  rw [hp, Go.ok.injEq, Prod.mk.injEq, Option.some.injEq] at hrun
  obtain ⟨hrun, _⟩ := hrun
  subst hrun
  simp only [Option.some.injEq] at he
  have hN : (0 : Int) < cp.C.N := by exact_mod_cast L.prime.pos
  have hpos : 0 < e := by
    by_contra hc
    have : (m : Int) * e ≤ 0 := mul_nonpos_of_nonneg_of_nonpos (Int.natCast_nonneg m) (not_lt.1 hc)
    omega
  have hbit : ∀ i < n, guessBitOf cp m e (L.sOf hash n value rnd w i) (L.pe (L.cOf value rnd w i)) i =
      .ok (bitOf value i) := by
    intro i hin
    rw [guessBitOf_pe L m _ _ _ i (by omega), Go.ok.injEq]
    obtain ⟨k0, k1, j0, j1⟩ := hrange i hin
    cases hb : bitOf value i with
    | true =>
      have hc : L.cOf value rnd w i - (2 ^ i : Int) • L.g = (rnd i).v • L.hb := by
        simp only [Lawful.cOf, Lawful.vOf, hb, if_true]; module
      have hq : L.sOf hash n value rnd w i = (rnd i).k + e * (rnd i).v := by
        simp only [Lawful.sOf, hb, if_true, he]
      obtain ⟨t, t0, t1, ht⟩ := quotient_of (x := (rnd i).v) hbig hpos k0 k1
      rw [hc, hq, ht, List.any_eq_true]
      refine ⟨t.toNat, List.mem_range.2 (by omega), decide_eq_true ?_⟩
      rw [Int.toNat_of_nonneg t0, add_sub_cancel_right]
    | false =>
      have hc : L.cOf value rnd w i = (w i * (rnd i).k) • L.hb := by
        simp only [Lawful.cOf, Lawful.vOf, hb, Bool.false_eq_true, if_false]; module
      have hq : L.sOf hash n value rnd w i = (rnd i).j + e * (w i * (rnd i).k) := by
        simp only [Lawful.sOf, hb, Bool.false_eq_true, if_false, he]; ring
      obtain ⟨t, t0, t1, ht⟩ := quotient_of (x := w i * (rnd i).k) hbig hpos j0 j1
      rw [hc, hq, ht, List.any_eq_false]
      intro t' ht'
      rw [List.mem_range] at ht'
      rw [decide_eq_true_eq, L.pe_inj]
      intro hcon
      have h3 : (2 ^ i : Int) • L.g = ((t' : Int) - t) • L.hb := by
        linear_combination (norm := module) -hcon
      rcases le_total t t' with hle | hle
      · refine (hne i hin (t' - t.toNat) (by omega)).1 (h3.trans ?_)
        rw [Nat.cast_sub (by omega), Int.toNat_of_nonneg t0]
      · refine (hne i hin (t.toNat - t') (by omega)).2 (h3.trans ?_)
        rw [Nat.cast_sub (by omega), Int.toNat_of_nonneg t0, ← neg_smul, neg_sub]
  have hl : ∀ l : List Nat, (∀ i ∈ l, i < n) → ((l.map fun i =>
      ((⟨L.pe (L.cOf value rnd w i), some (L.sOf hash n value rnd w i)⟩ : RangeProofTuple), i)).mapM fun t => do
      let s ← deref t.1.S
      let b ← guessBitOf cp m e s t.1.C t.2
      pure (if b then (2 ^ t.2 : Int) else 0)) = Go.ok (l.map fun i => if bitOf value i then (2 ^ i : Int) else 0) := by
    intro l
    induction l with
    | nil => intro _; rfl
    | cons a l ih =>
      intro hl
      rw [List.map_cons, List.mapM_cons, ih fun i hi => hl i (by simp [hi])]
      simp only [deref_some, Go.bind_ok, hbit a (hl a (by simp)), Go.pure_eq, List.map_cons]
  have hz : ((List.range n).map fun i => (⟨L.pe (L.cOf value rnd w i), some (L.sOf hash n value rnd w i)⟩ :
      RangeProofTuple)).zipIdx = (List.range n).map fun i =>
      ((⟨L.pe (L.cOf value rnd w i), some (L.sOf hash n value rnd w i)⟩ : RangeProofTuple), i) := by
    refine List.ext_getElem (by simp) fun i h1 h2 => ?_
    simp
  have hs := Lawful.sum_bits value n h0 h
  rw [guessValue]
  simp only [he, deref_some, Go.bind_ok, hz]
  rw [hl _ fun i hi => List.mem_range.1 hi, Go.bind_ok, Go.pure_eq, hs]

/-- The hypotheses of `C57_value_found` hold for the proof of `C57_testcurve_value` on `TestCurve`, with 256 quotients. -/
example : (∀ i < 40, bitOf Real.mixedValue i = false →
      ¬ (Curve.tc.C.N : Int) ∣ Curve.lawful.eiOf Curve.sha256 40 Real.mixedValue Real.mixedDraws i) ∧
    (∀ i < 40, bitOf Real.mixedValue i = false → Curve.lawful.MultOk ((Real.mixedDraws i).k • Curve.lawful.hb)) ∧
    (∀ i < 40, 0 ≤ (Real.mixedDraws i).k ∧ (Real.mixedDraws i).k < Curve.tc.C.N ∧ 0 ≤ (Real.mixedDraws i).j ∧
      (Real.mixedDraws i).j < Curve.tc.C.N) ∧
    (∀ i < 40, ∀ t : Nat, t < 256 → (2 ^ i : Int) • Curve.lawful.g ≠ (t : Int) • Curve.lawful.hb ∧
      (2 ^ i : Int) • Curve.lawful.g ≠ -((t : Int) • Curve.lawful.hb)) ∧
    (Curve.tc.C.N : Int) ≤ 256 * Curve.lawful.e0Of Curve.sha256 40 Real.mixedValue Real.mixedDraws :=
  ⟨Real.mixed_lucky.inner, Real.mixed_lucky.rand, by decide +kernel, fun i hi t ht => gPts_far i hi t (by omega), by
    rw [Real.mixed_e0]; decide +kernel⟩

/-- C57 is false, with probabilities: when SHA-256 is a random function and the prover's numbers are drawn uniformly, then
for every value in [0, 2^40) the proof that the prover makes shows the value, except with probability at most
40 (8 (2^256 / N + 1) / 2^256 + 7 / N) + 41 (2^256 - N) / 2^256 + (N / 2^b + 1) (2^256 / N + 1) / 2^256, to an observer
who tries 2^b quotients for each bit. -/
theorem C57_probability (L : Lawful cp E) (hs : Small L) (value : Int) (h0 : 0 ≤ value) (h : value < 2 ^ 40)
    (b : Nat) (hne : ∀ i < 40, ∀ t : Nat, t < 2 ^ b → (2 ^ i : Int) • L.g ≠ (t : Int) • L.hb ∧
      (2 ^ i : Int) • L.g ≠ -((t : Int) • L.hb))
    (S : Finset Bytes) (hS : RangeStrings L 40 S) :
    1 - (40 * (8 * perChal cp.C.N / 2 ^ 256 + 7 / cp.C.N) + 41 * (2 ^ 256 - cp.C.N : ℕ) / 2 ^ 256 +
        (cp.C.N / 2 ^ b + 1 : ℕ) * perChal cp.C.N / 2 ^ 256) ≤
      prob fun z : (S → Word) × (Fin 40 → Fin cp.C.N) × (Fin 40 → Fin cp.C.N) × (Fin 40 → Fin cp.C.N) =>
        ∃ (proof : RangeProof) (vTotal : Int),
          (∀ r, NewRangeProofRuns (hashOf S z.1) cp value (drawn z.2.1 z.2.2.1 z.2.2.2) r ↔
            r = .ok (some proof, some vTotal, none)) ∧
          guessValue cp (2 ^ b) proof = .ok value := by
  have : Nonempty (Fin cp.C.N) := ⟨⟨0, L.prime.pos⟩⟩
  have q1 := prob_exists 40 (fun i (z : (S → Word) × (Fin 40 → Fin cp.C.N) × (Fin 40 → Fin cp.C.N) ×
    (Fin 40 → Fin cp.C.N)) => BadBit L (hashOf S z.1) 40 value (drawn z.2.1 z.2.2.1 z.2.2.2) i) _
    fun i hi => prob_bit L 40 value S hS ⟨i, hi⟩
  have q2 := prob_exists 40 (fun i (z : (S → Word) × (Fin 40 → Fin cp.C.N) × (Fin 40 → Fin cp.C.N) ×
    (Fin 40 → Fin cp.C.N)) => BadOne L (hashOf S z.1) value (drawn z.2.1 z.2.2.1 z.2.2.2) i) _
    fun i hi => prob_badOne L 40 value S hS ⟨i, hi⟩
  have q3 : (prob fun z : (S → Word) × (Fin 40 → Fin cp.C.N) × (Fin 40 → Fin cp.C.N) × (Fin 40 → Fin cp.C.N) =>
    (cp.C.N : Int) ≤ L.hps (hashOf S z.1) ((List.range 40).map (L.rOf (hashOf S z.1) value
      (drawn z.2.1 z.2.2.1 z.2.2.2)))) ≤ (40 + 1 : ℕ) * (2 ^ 256 - cp.C.N : ℕ) / 2 ^ 256 :=
    prob_cols (by positivity) fun y => prob_outer L 40 value S hS (drawn y.1 y.2.1 y.2.2)
  have q4 : (prob fun z : (S → Word) × (Fin 40 → Fin cp.C.N) × (Fin 40 → Fin cp.C.N) × (Fin 40 → Fin cp.C.N) =>
    outerString L (hashOf S z.1) 40 value (drawn z.2.1 z.2.2.1 z.2.2.2) ∉ innerStrings L 40 (drawn z.2.1 z.2.2.1 z.2.2.2) ∧
      2 ^ b * L.e0Of (hashOf S z.1) 40 value (drawn z.2.1 z.2.2.1 z.2.2.2) < cp.C.N) ≤
      (cp.C.N / 2 ^ b + 1 : ℕ) * perChal cp.C.N / 2 ^ 256 :=
    prob_cols (by positivity) fun y => prob_smallChal L 40 value S hS (drawn y.1 y.2.1 y.2.2) b
  have q := prob_union (fun _ h => h) q1 (prob_union (fun _ h => h) q2 (prob_union (fun _ h => h) q3 q4))
  refine prob_not ?_ (q.trans (le_of_eq (by push_cast; ring)))
  rintro z hz
  simp only [not_or, not_exists, not_and, not_le, not_lt] at hz
  obtain ⟨o1, o2, o3, o4⟩ := hz
  have hl := lucky_of L _ 40 value _ o1 o3
  have hR : ∀ i < 40, L.rOf (hashOf S z.1) value (drawn z.2.1 z.2.2.1 z.2.2.2) i ≠ 0 := by
    intro i hi hz
    cases hb : bitOf value i with
    | true => exact o2 i hi ⟨hb, hz⟩
    | false =>
      rw [Lawful.rOf, if_neg (by simp [hb])] at hz
      exact o1 i hi (.inr (.inl ⟨hb, .inl hz⟩))
  have he := o4 (outerString_notMem L hs _ 40 (by norm_num) value _ hR)
  obtain ⟨w, _, hp⟩ := L.proveRange_honest (hashOf S z.1) 40 (by norm_num) value (drawn z.2.1 z.2.2.1 z.2.2.2)
    hl.inner hl.rand
  refine ⟨_, ((List.range 40).map (L.vOf value (drawn z.2.1 z.2.2.1 z.2.2.2) w)).sum, fun r => ?_, C57_value_found L (hashOf S z.1) 40 (by norm_num) value h0 h
    (drawn z.2.1 z.2.2.1 z.2.2.2) hl.inner hl.rand (fun i hi => ?_) (2 ^ b) hne _ _ hp _ rfl (by push_cast; exact he)⟩
  · rw [← hp]
    norm_num at h
    rw [NewRangeProofRuns, if_neg (by omega), if_neg (by omega), proveRuns_iff, proofSize]
  · simp only [drawn, hi, dif_pos]
    have h1 := (z.2.1 ⟨i, hi⟩).2
    have h2 := (z.2.2.2 ⟨i, hi⟩).2
    omega

/-- C57 on `TestCurve`: for every value in [0, 2^40), with probability at least 99/100 an observer finds the value from
the range proof alone, with 256 quotients for each bit. -/
theorem C57_testcurve_probability : ∃ cp, Curve.testCurve = .ok cp ∧ ∃ S₀ : Finset Bytes,
    ∀ (value : Int) (S : Finset Bytes), 0 ≤ value → value < 2 ^ 40 → S₀ ⊆ S →
      99 / 100 ≤
        prob fun z : (S → Word) × (Fin 40 → Fin cp.C.N) × (Fin 40 → Fin cp.C.N) × (Fin 40 → Fin cp.C.N) =>
          ∃ (proof : RangeProof) (vTotal : Int),
            (∀ r, NewRangeProofRuns (hashOf S z.1) cp value (drawn z.2.1 z.2.2.1 z.2.2.2) r ↔
              r = .ok (some proof, some vTotal, none)) ∧
            guessValue cp (2 ^ 8) proof = .ok value := by
  obtain ⟨S₀, hS₀⟩ := exists_rangeStrings Curve.lawful 40
  refine ⟨Curve.tc, Curve.testCurve_eq, S₀, fun value S h0 h hS => le_trans ?_
    (C57_probability Curve.lawful small_testCurve value h0 h 8 gPts_far S fun as has => hS (hS₀ as has))⟩
  rw [perChal_testCurve]
  have h1 : 2 ^ 256 - Curve.tc.C.N ≤ 432420386565659656852420866394968145599 := by decide +kernel
  have h2 : (((2 ^ 256 - Curve.tc.C.N : ℕ) : ℝ)) ≤ 432420386565659656852420866394968145599 := by exact_mod_cast h1
  have h3 : 2 ^ 255 ≤ Curve.tc.C.N := by decide +kernel
  have h4 : (2 : ℝ) ^ 255 ≤ Curve.tc.C.N := by exact_mod_cast h3
  have h5 : (7 : ℝ) / Curve.tc.C.N ≤ 7 / 2 ^ 255 := div_le_div_of_nonneg_left (by norm_num) (by positivity) h4
  have h6 : (41 * ((2 ^ 256 - Curve.tc.C.N : ℕ) : ℝ)) / 2 ^ 256 ≤
      41 * 432420386565659656852420866394968145599 / 2 ^ 256 := by gcongr
  have h8 : Curve.tc.C.N / 2 ^ 8 + 1 ≤ 2 ^ 248 := by decide +kernel
  have h9 : ((Curve.tc.C.N / 2 ^ 8 + 1 : ℕ) : ℝ) ≤ 2 ^ 248 := by exact_mod_cast h8
  have h10 : ((Curve.tc.C.N / 2 ^ 8 + 1 : ℕ) : ℝ) * (2 : ℕ) / 2 ^ 256 ≤ 2 ^ 248 * (2 : ℕ) / 2 ^ 256 := by gcongr
  have h7 : (40 * (8 * (2 : ℕ) / 2 ^ 256 + 7 / 2 ^ 255) + 41 * 432420386565659656852420866394968145599 / 2 ^ 256 +
      2 ^ 248 * (2 : ℕ) / 2 ^ 256 : ℝ) ≤ 1 / 100 := by norm_num
  generalize ((2 ^ 256 - Curve.tc.C.N : ℕ) : ℝ) = l at *
  generalize (7 : ℝ) / Curve.tc.C.N = m at *
  generalize ((Curve.tc.C.N / 2 ^ 8 + 1 : ℕ) : ℝ) = u at *
  linarith

end Zk.Rom
