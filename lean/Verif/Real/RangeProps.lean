import Verif.Real.RangePoints

/-!
# The findings about range proofs on `TestCurve` with SHA-256
-/

namespace Zk.Real

open Zk Zk.Field Zk.Curve Zk.Proto

/-- C52: with SHA-256, this value with bits of both kinds and these draws give a proof under every
schedule of the prover, which every schedule of the verifier accepts. -/
theorem C52_testcurve_accepted : ∃ cp, testCurve = .ok cp ∧
    ∃ (proof : RangeProof) (vTotal : Int) (comm : ECPoint),
      (∀ r, NewRangeProofRuns sha256 cp 1099511627771 (fun i => ⟨if i = 2 then 1 else 0, 0, 0⟩) r ↔
        r = .ok (some proof, some vTotal, none)) ∧
      pedCommitR cp (some 1099511627771) (some vTotal) = .ok comm ∧
      rangeVerify sha256 cp (some proof) comm = .ok accept ∧
      (∀ s, VState.Reach sha256 cp proof comm s → ∀ r, s.main = .ret r → r = .ok accept) := by
  have h := C52_completeness_partial lawful sha256 mixedValue (by decide) (by decide) mixedDraws mixed_lucky
  have e : mixedDraws = fun i => ⟨if i = 2 then 1 else 0, 0, 0⟩ := by
    funext i; unfold mixedDraws; split_ifs <;> rfl
  rw [e] at h
  exact ⟨tc, testCurve_eq, h⟩

/-- C53: with SHA-256, 2^40 gets a proof. -/
theorem C53_testcurve_two_pow_40 : ∃ cp, testCurve = .ok cp ∧ ∃ proof r, ∀ x,
    NewRangeProofRuns sha256 cp (2 ^ 40) (fun _ => ⟨0, 0, 0⟩) x ↔ x = .ok (some proof, some r, none) :=
  ⟨tc, testCurve_eq, C53_two_pow_40 lawful sha256 zeroDraws
    (zeros_inner (value := 2 ^ 40) (by decide +kernel)) fun i _ => by
      show lawful.MultOk ((0 : Int) • lawful.hb)
      rw [zero_zsmul]; exact multOk_zero⟩

/-- C54: for every hash function, a proof of two tuples with nil entries can be rejected or crash the
process, depending on the schedule. -/
theorem C54_testcurve_race (hash : Bytes → Bytes) : ∃ cp, testCurve = .ok cp ∧
    ∃ (pr : RangeProof) (s s' : VState) (e : Err), pr.ProofTuples.length = 2 ∧
      VState.Reach hash cp pr Zero s ∧ VState.Reach hash cp pr Zero s' ∧
      s.main = .ret (.ok (reject e)) ∧ s'.main = .ret .panic :=
  ⟨tc, testCurve_eq, C54_nil_race lawful hash⟩

/-- C55: with SHA-256, the prover's algorithm with 41 bits in place of 40 makes an accepted proof for a
commitment to 2^41 - 1, which is out of range. -/
theorem C55_testcurve_too_large : ∃ cp, testCurve = .ok cp ∧
    ∃ (proof : RangeProof) (r : Int) (comm : ECPoint),
      proveRange sha256 cp 41 (2 ^ 41 - 1) (fun _ => ⟨0, 0, 0⟩) = .ok (some proof, some r, none) ∧
      pedCommitR cp (some (2 ^ 41 - 1)) (some r) = .ok comm ∧
      rangeVerify sha256 cp (some proof) comm = .ok accept :=
  ⟨tc, testCurve_eq, C55_wide_values_accepted lawful sha256 41 (by decide) (2 ^ 41 - 1) (by decide)
    (by decide) zeroDraws (ones_lucky (by decide) (by decide +kernel) (by decide +kernel))⟩

/-- C55: with SHA-256, a proof of the library's own prover is accepted for a commitment to a negative
value. -/
theorem C55_testcurve_negative : ∃ cp, testCurve = .ok cp ∧
    ∃ (proof : RangeProof) (vTotal : Int) (comm : ECPoint),
      (∃ rnd, NewRangeProofRuns sha256 cp 1099511627771 rnd (.ok (some proof, some vTotal, none))) ∧
      pedCommitR cp (some (-1099511627771)) (some (-vTotal)) = .ok comm ∧
      rangeVerify sha256 cp (some proof) comm = .ok accept := by
  obtain ⟨proof, vTotal, comm, h1, h2, h3⟩ := C55_negative_values_accepted lawful sha256 mixedValue
    (by decide) (by decide) mixedDraws mixed_lucky
  exact ⟨tc, testCurve_eq, proof, vTotal, comm, ⟨_, h1⟩, h2, h3⟩

/-- C56: for every hash function and commitment, some proof leaves a goroutine blocked for ever, and
every proof with more than 64 tuples crashes the process. -/
theorem C56_testcurve_unsafe (hash : Bytes → Bytes) (comm : ECPoint) : ∃ cp, testCurve = .ok cp ∧
    (∃ (pr : RangeProof) (s : VState) (r : Bool × Option Err) (p : ECPoint),
      VState.Reach hash cp pr comm s ∧ s.main = .ret (.ok r) ∧ s.workers 10 = .sending p ∧
      ∀ s', ¬ VState.Step hash cp pr comm s s') ∧
    (∀ (pr : RangeProof), 64 < pr.ProofTuples.length →
      (∀ t ∈ pr.ProofTuples, t.C.X ≠ none ∧ t.S ≠ none) → ∀ s, VState.Reach hash cp pr comm s →
        ∀ r, s.main = .ret r → r = .panic) :=
  ⟨tc, testCurve_eq, C56_leak lawful hash comm, fun pr h1 h2 s h3 r h4 =>
    C56_too_many_tuples_crash lawful hash pr comm h1 h2 s h3 r h4⟩

/-- C57: with SHA-256, the proof for 0 that is made with draws that are all 0 can be made for 1 with no
draws. -/
theorem C57_testcurve_zero : ∃ cp, testCurve = .ok cp ∧
    ∃ proof r, NewRangeProofRuns sha256 cp 0 (fun _ => ⟨0, 0, 0⟩) (.ok (some proof, some r, none)) ∧
      ∀ (rnd' : Nat → BitRand) (r' : Int), (∀ i, 0 ≤ (rnd' i).k ∧ 0 ≤ (rnd' i).v) →
        ¬ NewRangeProofRuns sha256 cp 1 rnd' (.ok (some proof, some r', none)) :=
  ⟨tc, testCurve_eq, C57_zero_draws lawful sha256 (zeros_inner (value := 0) (by decide +kernel)) (by
    rw [show (fun _ => ⟨0, 0, 0⟩ : ℕ → BitRand) = zeroDraws from rfl, zeros_e0 (by decide +kernel)]
    decide +kernel)⟩

/-- C57: with SHA-256, from the proof alone, without the blinding factor, the 40 bits of the value are
computed. -/
theorem C57_testcurve_value : ∃ cp, testCurve = .ok cp ∧
    ∃ (proof : RangeProof) (vTotal e : Int),
      NewRangeProofRuns sha256 cp 1099511627771 (fun i => ⟨if i = 2 then 1 else 0, 0, 0⟩)
        (.ok (some proof, some vTotal, none)) ∧
      proof.ProofE = some e ∧ proof.ProofTuples.length = 40 ∧
      ∀ i t s, proof.ProofTuples[i]? = some t → t.S = some s →
        guessBit cp e s t.C i = .ok (decide (i ≠ 2)) := by
  have e : mixedDraws = fun i => ⟨if i = 2 then 1 else 0, 0, 0⟩ := by
    funext i; unfold mixedDraws; split_ifs <;> rfl
  obtain ⟨w, hw, hp⟩ := lawful.proveRange_honest sha256 40 (by decide) mixedValue mixedDraws
    mixed_lucky.inner mixed_lucky.rand
  have h1 := C57_value_leak lawful sha256 40 (by decide) mixedValue mixedDraws mixed_lucky.inner
    mixed_lucky.rand (by
      intro i _
      unfold mixedDraws
      split_ifs <;> decide +kernel) (fun i hi => gPts_ne i (by omega)) _ _ hp _ rfl (by
      rw [mixed_e0]; decide +kernel)
  have h2 : ∀ x, x = proveRange sha256 tc 40 mixedValue mixedDraws →
      NewRangeProofRuns sha256 tc 1099511627771 mixedDraws x := by
    intro x hx
    rw [NewRangeProofRuns, if_neg (by decide), if_neg (by decide), proveRuns_iff, proofSize]
    exact hx
  rw [← e]
  refine ⟨tc, testCurve_eq, _, _, _, h2 _ hp.symm, rfl, h1.1, fun i t s hi hs => ?_⟩
  rw [h1.2 i t s hi hs]
  have := (List.getElem?_eq_some_iff.1 hi).1
  rw [h1.1] at this
  rw [mixed_bits i this]

/-- C57: on `TestCurve`, for every hash function: whenever the challenge of a proof is above N/2 the value
is computed from the proof (see `C57_value_leak`; the premise on 2^i G holds). -/
theorem C57_testcurve_leak (hash : Bytes → Bytes) (n : Nat) (hn : n ≤ 64) (value : Int)
    (rnd : Nat → BitRand)
    (hinv : ∀ i < n, bitOf value i = false → ¬ (curveN : Int) ∣ lawful.eiOf hash n value rnd i)
    (hk : ∀ i < n, bitOf value i = false → lawful.MultOk ((rnd i).k • Hb))
    (hrange : ∀ i < n, 0 ≤ (rnd i).k ∧ (rnd i).k < curveN ∧ 0 ≤ (rnd i).j ∧ (rnd i).j < curveN)
    (proof : RangeProof) (vTotal : Int) :
    ∃ cp, testCurve = .ok cp ∧
      (proveRange hash cp n value rnd = .ok (some proof, some vTotal, none) →
      ∀ e : Int, proof.ProofE = some e → (curveN : Int) < 2 * e →
      proof.ProofTuples.length = n ∧
      ∀ i t s, proof.ProofTuples[i]? = some t → t.S = some s →
        guessBit cp e s t.C i = .ok (bitOf value i)) :=
  ⟨tc, testCurve_eq, fun h1 e h2 h3 => C57_value_leak lawful hash n hn value rnd hinv hk hrange
    (fun i hi => gPts_ne i (by omega)) proof vTotal h1 e h2 h3⟩

/-- The premises hold for the proof of `C57_testcurve_value`. -/
example : (∀ i < 40, bitOf mixedValue i = false →
      ¬ (curveN : Int) ∣ lawful.eiOf sha256 40 mixedValue mixedDraws i) ∧
    (∀ i < 40, bitOf mixedValue i = false → lawful.MultOk ((mixedDraws i).k • Hb)) ∧
    (∀ i < 40, 0 ≤ (mixedDraws i).k ∧ (mixedDraws i).k < curveN ∧ 0 ≤ (mixedDraws i).j ∧
      (mixedDraws i).j < curveN) ∧
    (curveN : Int) < 2 * mixedE ∧ lawful.e0Of sha256 40 mixedValue mixedDraws = mixedE :=
  ⟨mixed_lucky.inner, mixed_lucky.rand, by decide +kernel, by decide +kernel, mixed_e0⟩

end Zk.Real
