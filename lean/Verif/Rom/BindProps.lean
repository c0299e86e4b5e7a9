import Verif.Rom.RangeProps

/-!
# Property C142: what holds

A commitment that has an accepted range proof and is opened with a value that the proof does not allow gives the
logarithm of G to the base that `Mult` uses for H.
-/

namespace Zk.Rom

open Zk Zk.Proto

variable {cp : Params} {E : Type} [AddCommGroup E]

theorem log_of_openings (L : Lawful cp E) {comm : E} {v r w ρ : Int} (hc : comm = v • L.g + r • L.hb)
    (hw : comm = w • L.g + ρ • L.hb ∨ comm = -(w • L.g + ρ • L.hb)) (h1 : ¬ w ≡ v [ZMOD cp.C.N])
    (h2 : ¬ w ≡ -v [ZMOD cp.C.N]) :
    ∃ σ : Int, (σ = 1 ∨ σ = -1) ∧ L.g = (L.inv (v - σ * w) * (σ * ρ - r)) • L.hb := by
  rcases hw with hw | hw
  · refine ⟨1, .inl rfl, log_of L ?_ fun h => h1 (Int.modEq_iff_dvd.2 (by simpa using h))⟩
    rw [hc] at hw
    rw [sub_smul, sub_smul, one_mul, one_mul, sub_eq_sub_iff_add_eq_add, hw, add_comm]
  · refine ⟨-1, .inr rfl, log_of L ?_ fun h => h2 (Int.modEq_iff_dvd.2 ?_)⟩
    · rw [hc] at hw
      rw [sub_smul, sub_smul, sub_eq_sub_iff_add_eq_add, hw]
      module
    · have h3 : -v - w = -(v - -1 * w) := by ring
      rw [h3]
      exact (dvd_neg.2 h)

/-- What the extractor of C140 gives together with an opening (v, r): one of its numbers is the logarithm of G, or
the quotient for a value and a randomness of which the bits are among its numbers (specification; for
rangeproof.go:262-322 and crypto.go:230-242). -/
def PlainLog (L : Lawful cp E) (n k : Nat) (v r : Int) (x : Fin n → Fin k → Int × Int × Int) : Prop :=
  (∃ (b : Fin n → Bool) (l : Fin n → Fin k) (σ : Int), (σ = 1 ∨ σ = -1) ∧
    L.g = (L.inv (v - σ * ∑ i, (if b i then (2 ^ (i : Nat) : Int) else 0)) *
      (σ * (∑ i, (if b i then (x i (l i)).2.1 else (x i (l i)).1)) - r)) • L.hb) ∨
  ∃ i l, L.g = (x i l).2.2 • L.hb

/-- C142, what holds on every curve for proofs without the points that `Mult` confuses: whoever has a range proof of
`n` tuples accepted with probability ε for a commitment that it can open with a value that is not, up to its sign and
modulo N, in 0..2^n-1, computes the logarithm of G to the base for H: it is one of the numbers that the extractor of
C140 and the opening give.  Missing: the points that `Mult` confuses, see `C142_binding_partial`, and points that
are not on the curve, see C155. -/
theorem C142_plain_partial (L : Lawful cp E) (hs : Small L) (n : Nat) (hn : n ≤ 64) (comm : E) (v r : Int)
    (hopen : pedCommitR cp (some v) (some r) = .ok (L.pe comm))
    (hout : ∀ w : Int, 0 ≤ w → w < 2 ^ n → ¬ w ≡ v [ZMOD cp.C.N] ∧ ¬ w ≡ -v [ZMOD cp.C.N])
    (A : Adv (Option RangeProof)) (q : Nat) (hq : ∀ h, A.count h ≤ q) (S : Finset Bytes)
    (hS : (rangeAll cp n A).asked bytesOf (rangeOuter cp) ⊆ S) (ε δ : ℝ)
    (hδ : 2 * perChal cp.C.N / 2 ^ 256 ≤ δ) (hδ1 : δ ≤ 1)
    (hε : ε = prob fun f : S → Word => RangeWins L (Plain L n) n comm (A.run (hashOf S f)) (hashOf S f))
    (k : Nat) :
    (ε - n * ((q + n + 1) ^ 2 * 147233889) * δ - (n + 1) * (q + n + 1) * perChal cp.C.N / 2 ^ 256) *
        (1 - (1 - (δ - 2 * perChal cp.C.N / 2 ^ 256)) ^ k) ^ n ≤
      prob fun x : (S → Word) × (Fin n → Fin k → S → Word) =>
        PlainLog L n k v r fun i l => rangeExtract cp (rangeNumbers L) n A S i x.1 (x.2 i l) := by
  rw [L.pedCommitR_pe, Go.ok.injEq, L.pe_inj] at hopen
  refine (C140_plain_knowledge L hs n hn comm A q hq S hS ε δ hδ hδ1 hε k).trans (prob_mono fun x h => ?_)
  rcases h with ⟨b, l, w, ρ, rfl, rfl, h0, h1, h2⟩ | h
  · obtain ⟨σ, hσ, h3⟩ := log_of_openings L hopen.symm h2 (hout _ h0 h1).1 (hout _ h0 h1).2
    exact .inl ⟨b, l, σ, hσ, h3⟩
  · exact .inr h

/-- The same for the extractor of C140 on curves with a known logarithm κ of H, for all proofs of curve points
(specification; for rangeproof.go:262-322 and crypto.go:230-242). -/
def AnyLog (L : Lawful cp E) (κ : Int) (n k : Nat) (v r : Int) (x : Fin n → Fin k → Int × Int × List Int) : Prop :=
  (∃ (b : Fin n → Bool) (a ρ : Fin n → Int) (l : Fin n → Fin k) (σ : Int), (σ = 1 ∨ σ = -1) ∧
    (∀ i, a i = 0 ∨ a i = 1 ∨ a i = -1) ∧
    (∀ i, ρ i = 0 ∨ ρ i = (x i (l i)).1 ∨ ρ i = (x i (l i)).2.1) ∧
    L.g = (L.inv (v - σ * ((∑ i, (if b i then (2 ^ (i : Nat) : Int) else 0)) + (∑ i, a i) * κ)) *
      (σ * (∑ i, ρ i) - r)) • L.hb) ∨
  ∃ i l, ∃ y ∈ (x i l).2.2, L.g = y • L.hb

/-- C142, what holds on `TestCurve`, where H = κ G, for all proofs of curve points: with the proof of `n` tuples the
commitment can be opened, up to the sign of the value and modulo N, only to w + m κ with w in 0..2^n-1 and m from -n
to n, or the logarithm of G is found.  The forged proof of `C142_refuted` is the case m = 1.  Missing: the claim with
m = 0, which is false, and points that are not on the curve, see C155. -/
theorem C142_binding_partial (L : Lawful cp E) (hs : Small L) {κ : Int} (hκ : L.h = κ • L.g)
    (hf : FarLog cp.C.N κ) (n : Nat) (hn : n ≤ 64) (comm : E) (v r : Int)
    (hopen : pedCommitR cp (some v) (some r) = .ok (L.pe comm))
    (hout : ∀ w m : Int, 0 ≤ w → w < 2 ^ n → -n ≤ m → m ≤ n →
      ¬ w + m * κ ≡ v [ZMOD cp.C.N] ∧ ¬ w + m * κ ≡ -v [ZMOD cp.C.N])
    (A : Adv (Option RangeProof)) (q : Nat) (hq : ∀ h, A.count h ≤ q) (S : Finset Bytes)
    (hS : (rangeAll cp n A).asked bytesOf (rangeOuter cp) ⊆ S) (ε δ : ℝ)
    (hδ : 111 * perChal cp.C.N / 2 ^ 256 ≤ δ) (hδ1 : δ ≤ 1)
    (hε : ε = prob fun f : S → Word => RangeWins L (fun _ => True) n comm (A.run (hashOf S f)) (hashOf S f))
    (k : Nat) :
    (ε - n * ((q + n + 1) ^ 2 * 147233889) * δ - (n + 1) * (q + n + 1) * perChal cp.C.N / 2 ^ 256) *
        (1 - (1 - (δ - 111 * perChal cp.C.N / 2 ^ 256)) ^ k) ^ n ≤
      prob fun x : (S → Word) × (Fin n → Fin k → S → Word) =>
        AnyLog L κ n k v r fun i l => rangeExtract cp (allNumbers L κ) n A S i x.1 (x.2 i l) := by
  rw [L.pedCommitR_pe, Go.ok.injEq, L.pe_inj] at hopen
  refine (C140_range_knowledge L hs hκ hf n hn comm A q hq S hS ε δ hδ hδ1 hε k).trans (prob_mono fun x h => ?_)
  rcases h with ⟨b, a, ρ, l, w, m, s, hρ, ha, rfl, rfl, rfl, h0, h1, h2⟩ | h
  · have ha' : ∀ i, a i = 0 ∨ a i = 1 ∨ a i = -1 := fun i => (ha i).imp_right fun h => h.1
    have hl : -(n : Int) ≤ ∑ i, a i := by
      have := Finset.card_nsmul_le_sum (Finset.univ : Finset (Fin n)) a (-1) fun i _ => by
        rcases ha' i with h | h | h <;> omega
      simpa using this
    have hu : ∑ i, a i ≤ (n : Int) := by
      have := Finset.sum_le_card_nsmul (Finset.univ : Finset (Fin n)) a 1 fun i _ => by
        rcases ha' i with h | h | h <;> omega
      simpa using this
    obtain ⟨σ, hσ, h3⟩ := log_of_openings L hopen.symm h2 (hout _ _ h0 h1 hl hu).1 (hout _ _ h0 h1 hl hu).2
    exact .inl ⟨b, a, ρ, l, σ, hσ, ha', hρ, h3⟩
  · exact .inr h

/-! ## Examples -/

/-- `C142_plain_partial` is not about nothing: on a small curve, where the logarithm of G can be found, a prover is
accepted with probability 1 for a commitment to 1 with one tuple, and opens it to 2. -/
example : ∃ (S : Finset Bytes) (A : Adv (Option RangeProof)), Small Toy.lawful ∧ (∀ h, A.count h ≤ 2) ∧
    (rangeAll Toy.params 1 A).asked bytesOf (rangeOuter Toy.params) ⊆ S ∧
    pedCommitR Toy.params (some 2) (some 2) = .ok (Toy.lawful.pe Toy.lawful.g) ∧
    (∀ w : Int, 0 ≤ w → w < 2 ^ 1 → ¬ w ≡ 2 [ZMOD Toy.params.C.N] ∧ ¬ w ≡ -2 [ZMOD Toy.params.C.N]) ∧
    (prob fun f : S → Word => RangeWins Toy.lawful (Plain Toy.lawful 1) 1 Toy.lawful.g (A.run (hashOf S f))
      (hashOf S f)) = 1 := by
  refine ⟨_, honestBit Toy.lawful 5, ?_, fun _ => le_rfl, subset_rfl, ?_, ?_, prob_one fun _ => honestBit_wins _ _ _⟩
  · have : ∀ a : ZMod 7, (Toy.lawful.enc a).1 < 2 ^ 256 ∧ (Toy.lawful.enc a).2 < 2 ^ 256 := by decide
    exact this
  · rw [Toy.lawful.pedCommitR_pe]
    decide
  · intro w h0 h1
    have : w = 0 ∨ w = 1 := by omega
    rcases this with rfl | rfl <;> decide

/-- The hypotheses of both theorems about the opening hold on `TestCurve` for the commitment to 2^40. -/
example : pedCommitR Curve.tc (some (2 ^ 40)) (some 0) = .ok (Curve.lawful.pe ((2 ^ 40 : Int) • Curve.lawful.g)) ∧
    ∀ w m : Int, 0 ≤ w → w < 2 ^ 40 → -(40 : Nat) ≤ m → m ≤ (40 : Nat) →
      ¬ w + m * 0x94e35037c3705ca047e88b2bd1f3207987dba1fb4c817b9ebc943566dd637134 ≡ 2 ^ 40 [ZMOD Curve.tc.C.N] ∧
      ¬ w + m * 0x94e35037c3705ca047e88b2bd1f3207987dba1fb4c817b9ebc943566dd637134 ≡ -2 ^ 40 [ZMOD Curve.tc.C.N] := by
  refine ⟨by rw [Curve.lawful.pedCommitR_pe]; simp, fun w m h0 h1 h2 h3 => ?_⟩
  have hN : (Curve.tc.C.N : Int) = (Curve.curveN : Int) := rfl
  rw [hN, Curve.curveN]
  push_cast at h2 h3
  constructor <;> intro h <;> rw [Int.ModEq] at h <;> interval_cases m <;> omega

end Zk.Rom
