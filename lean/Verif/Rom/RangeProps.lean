import Verif.Rom.RangeCore
import Verif.Rom.RangeAlg
import Verif.Rom.Props
import Verif.Real.Forge

/-! # Property C140: range proofs are proofs of knowledge when SHA-256 is a random function -/

namespace Zk.Rom

open Zk Zk.Proto

variable {cp : Params} {E : Type} [AddCommGroup E]

/-! ## Every curve, proofs without the points that `Mult` confuses -/

/-- No point of the proof is one of those that `Mult` confuses with another.  See crypto.go:86-111 and
rangeproof.go:242-257. -/
def Plain (L : Lawful cp E) (n : Nat) (c : Nat → E) : Prop :=
  ∀ i < n, L.MultOk (c i) ∧ L.MultOk (c i - (2 ^ i : Int) • L.g)

/-- What the extractor computes for bit `i` from two proofs and the hashes for the bit: randomness if the bit
is 0, randomness if it is 1, and a logarithm of G.  See rangeproof.go:239-260. -/
noncomputable def rangeNumbers (L : Lawful cp E) (i : Nat) (p p' : Option RangeProof) (d d' : Int) :
    Int × Int × Int :=
  match p, p' with
  | some ⟨_, some e, ts⟩, some ⟨_, some e', ts'⟩ =>
    match ts[i]?, ts'[i]? with
    | some ⟨_, some s⟩, some ⟨_, some s'⟩ =>
      (L.inv e * L.inv (d' - d) * d' * (s - s'), L.inv (e - e') * (s - s'),
        L.inv (2 ^ i * (e - e')) * (s' - s))
    | _, _ => (0, 0, 0)
  | _, _ => (0, 0, 0)

/-- The point of tuple `i` is a commitment to 0 or to 2^i with the given randomness, or else the third number
is the logarithm of G to the base that `Mult` uses for H.  See rangeproof.go:239-260. -/
def BitOpened (L : Lawful cp E) (i : Nat) (p : Option RangeProof) (x : Int × Int × Int) : Prop :=
  (∃ pr t, p = some pr ∧ pr.ProofTuples[i]? = some t ∧
    (t.C = L.pe (x.1 • L.hb) ∨ t.C = L.pe ((2 ^ i : Int) • L.g + x.2.1 • L.hb))) ∨ L.g = x.2.2 • L.hb

theorem rangeNumbers_of (L : Lawful cp E) (n : Nat) {i : Nat} (hi : i < n) (e e' : Int) (c c' : Nat → E)
    (s s' : Nat → Int) (agg agg' : ECPoint) (d d' : Int) :
    rangeNumbers L i (rangeOf L n agg e c s) (rangeOf L n agg' e' c' s') d d' =
      (L.inv e * L.inv (d' - d) * d' * (s i - s' i), L.inv (e - e') * (s i - s' i),
        L.inv (2 ^ i * (e - e')) * (s' i - s i)) := by
  have h1 : ((List.range n).map fun i => (⟨L.pe (c i), some (s i)⟩ : RangeProofTuple))[i]? =
      some ⟨L.pe (c i), some (s i)⟩ := by simp [hi]
  have h2 : ((List.range n).map fun i => (⟨L.pe (c' i), some (s' i)⟩ : RangeProofTuple))[i]? =
      some ⟨L.pe (c' i), some (s' i)⟩ := by simp [hi]
  simp only [rangeNumbers, rangeOf, h1, h2]

theorem plain_rule (L : Lawful cp E) (n : Nat) : BitRule L (Plain L n) n (rangeNumbers L) (BitOpened L)
    (fun _ d => [d % (cp.C.N : Int)]) fun _ e => [e % (cp.C.N : Int)] := by
  intro i hi agg e c s agg' e' c' s' d d' ok ok' e0 d0 hT hR ho
  rw [rangeNumbers_of L n hi]
  have h1 : ((List.range n).map fun i => (⟨L.pe (c i), some (s i)⟩ : RangeProofTuple))[i]? =
      some ⟨L.pe (c i), some (s i)⟩ := by simp [hi]
  rw [effPoint, effPoint, (L.multOk_iff_eff _).1 (ok i hi).2, (L.multOk_iff_eff _).1 (ok' i hi).2] at hT
  rw [(L.multOk_iff_eff _).1 (ok i hi).1, (L.multOk_iff_eff _).1 (ok' i hi).1] at hR
  rcases ho with ⟨rfl, ho⟩ | ⟨ho, rfl | ⟨rfl, rfl⟩⟩
  · exact .inl ⟨_, _, rfl, h1, .inl (congrArg L.pe (zero_bit L (i := i) hT hR e0 (not_dvd_sub (by simpa using ho))))⟩
  · exact .inl ⟨_, _, rfl, h1, .inr (congrArg L.pe (one_bit L (i := i) hT hR d0
      (not_dvd_sub fun h => ho (by simp [h]))))⟩
  · refine .inr (same_hash L (i := i) hT hR fun h => ?_)
    rcases (prime_int L).dvd_or_dvd h with h | h
    · exact not_dvd_two_pow L i h
    · exact not_dvd_sub (fun h => ho (by simp [h])) h

/-- C140 on every curve, the bits.  A prover who asks at most `q` questions to a random SHA-256 and whose output with
`n` tuples of points that `Mult` does not confuse is accepted with probability ε: for every δ, with probability at
least ε - n (q + n + 1)^2 4097 33^3 δ - (n + 1) (q + n + 1) (2^256 / N + 1) / 2^256 the output is accepted and every
bit can be opened: running the prover once more with new answers from the last question on which the bit
depends gives, with probability at least δ - 2 (2^256 / N + 1) / 2^256, the randomness of a commitment to 0 or
to 2^i in explicit form, or the logarithm of G. -/
theorem C140_plain_bits (L : Lawful cp E) (hs : Small L) (n : Nat) (hn : n ≤ 64) (comm : E)
    (A : Adv (Option RangeProof)) (q : Nat) (hq : ∀ h, A.count h ≤ q) (S : Finset Bytes)
    (hS : (rangeAll cp n A).asked bytesOf (rangeOuter cp) ⊆ S) (ε δ : ℝ) (hδ : 0 ≤ δ)
    (hε : ε = prob fun f : S → Word => RangeWins L (Plain L n) n comm (A.run (hashOf S f)) (hashOf S f)) :
    ε - n * ((q + n + 1) ^ 2 * 147233889) * δ - (n + 1) * (q + n + 1) * perChal cp.C.N / 2 ^ 256 ≤
      prob fun f : S → Word => RangeWins L (Plain L n) n comm (A.run (hashOf S f)) (hashOf S f) ∧
        ∀ i < n, δ - 2 * perChal cp.C.N / 2 ^ 256 ≤ prob fun g : S → Word =>
          BitOpened L i (A.run (hashOf S f)) (rangeExtract cp (rangeNumbers L) n A S i f g) := by
  have := range_bits L hs (Plain L n) n hn (plain_rule L n) 1 1 (fun _ _ => le_rfl) (fun _ _ => le_rfl) comm A q hq
    S hS ε δ hδ hε
  norm_num at this ⊢
  exact this

/-- The numbers computed for each bit, in several tries, open the commitment, up to its sign, with a value of `n`
bits, or one of them is the logarithm of G to the base that `Mult` uses for H.  See rangeproof.go:262-322. -/
def RangeOpened (L : Lawful cp E) (n k : Nat) (comm : E) (x : Fin n → Fin k → Int × Int × Int) : Prop :=
  (∃ (b : Fin n → Bool) (l : Fin n → Fin k) (v r : Int),
    v = ∑ i, (if b i then (2 ^ (i : Nat) : Int) else 0) ∧
    r = ∑ i, (if b i then (x i (l i)).2.1 else (x i (l i)).1) ∧ 0 ≤ v ∧ v < 2 ^ n ∧
    (comm = v • L.g + r • L.hb ∨ comm = -(v • L.g + r • L.hb))) ∨
  ∃ i l, L.g = (x i l).2.2 • L.hb

theorem sum_bits (n : Nat) (b : Fin n → Bool) :
    0 ≤ (∑ i, (if b i then (2 ^ (i : Nat) : Int) else 0)) ∧
      (∑ i, (if b i then (2 ^ (i : Nat) : Int) else 0)) < 2 ^ n := by
  induction n with
  | zero => simp
  | succ n ih =>
    rw [Fin.sum_univ_castSucc, pow_succ]
    obtain ⟨h1, h2⟩ := ih fun i => b i.castSucc
    simp only [Fin.val_castSucc, Fin.val_last]
    have : (0 : Int) < 2 ^ n := by positivity
    split <;> constructor <;> omega

/-- C140 on every curve, the value: an accepted proof, all of whose bits are opened by numbers, is opened by them. -/
theorem C140_plain_value (L : Lawful cp E) (n k : Nat) (hn : n ≤ 64) (comm : E) (p : Option RangeProof)
    (hash : Bytes → Bytes) (hw : RangeWins L (Plain L n) n comm p hash) (x : Fin n → Fin k → Int × Int × Int)
    (hx : ∀ i : Fin n, ∃ l, BitOpened L i p (x i l)) : RangeOpened L n k comm x := by
  obtain ⟨agg, e, c, s, rfl, ho, hv⟩ := hw
  by_cases hlog : ∃ i l, L.g = (x i l).2.2 • L.hb
  · exact .inr hlog
  left
  have hc : ∀ i : Fin n, ∃ (b : Bool) (l : Fin k), c i = (if b then (2 ^ (i : Nat) : Int) else 0) • L.g +
      (if b then (x i l).2.1 else (x i l).1) • L.hb := by
    intro i
    obtain ⟨l, ⟨pr, t, h1, h2, h3⟩ | h⟩ := hx i
    · rw [rangeOf, Option.some.injEq] at h1
      subst h1
      obtain rfl : (⟨L.pe (c i), some (s i)⟩ : RangeProofTuple) = t := by
        simpa [i.2] using h2
      rcases h3 with h3 | h3
      · exact ⟨false, l, by rw [L.pe_inj] at h3; simpa using h3⟩
      · exact ⟨true, l, by rw [L.pe_inj] at h3; simpa using h3⟩
    · exact (hlog ⟨i, l, h⟩).elim
  choose b l hb using hc
  have hsum : ((List.range n).map c).sum = ∑ i : Fin n, c i := by
    rw [Fin.sum_univ_eq_sum_range, Finset.sum_range]
    rw [← List.sum_ofFn]
    congr 1
    apply List.ext_getElem <;> simp
  have hval : ∑ i : Fin n, c i = (∑ i, (if b i then (2 ^ (i : Nat) : Int) else 0)) • L.g +
      (∑ i, (if b i then (x i (l i)).2.1 else (x i (l i)).1)) • L.hb := by
    rw [Finset.sum_congr rfl fun i _ => hb i, Finset.sum_add_distrib, Finset.sum_smul, Finset.sum_smul]
  refine ⟨b, l, _, _, rfl, rfl, (sum_bits n b).1, (sum_bits n b).2, ?_⟩
  rw [← hval, ← hsum]
  exact (rangeVerify_inv L hash n hn e c s agg comm hv).2

/-- C140 on every curve, the extractor: one run of the prover, and `k` more for each of the `n` bits, give an explicit
opening of the commitment with a value of `n` bits, or the logarithm of G. -/
theorem C140_plain_knowledge (L : Lawful cp E) (hs : Small L) (n : Nat) (hn : n ≤ 64) (comm : E)
    (A : Adv (Option RangeProof)) (q : Nat) (hq : ∀ h, A.count h ≤ q) (S : Finset Bytes)
    (hS : (rangeAll cp n A).asked bytesOf (rangeOuter cp) ⊆ S) (ε δ : ℝ)
    (hδ : 2 * perChal cp.C.N / 2 ^ 256 ≤ δ) (hδ1 : δ ≤ 1)
    (hε : ε = prob fun f : S → Word => RangeWins L (Plain L n) n comm (A.run (hashOf S f)) (hashOf S f))
    (k : Nat) :
    (ε - n * ((q + n + 1) ^ 2 * 147233889) * δ - (n + 1) * (q + n + 1) * perChal cp.C.N / 2 ^ 256) *
        (1 - (1 - (δ - 2 * perChal cp.C.N / 2 ^ 256)) ^ k) ^ n ≤
      prob fun x : (S → Word) × (Fin n → Fin k → S → Word) =>
        RangeOpened L n k comm fun i l => rangeExtract cp (rangeNumbers L) n A S i x.1 (x.2 i l) := by
  have h2 : ((1 : Nat) + (1 : Nat) : ℝ) = 2 := by norm_num
  have := range_knowledge L hs (Plain L n) n hn (plain_rule L n) 1 1 (fun _ _ => le_rfl) (fun _ _ => le_rfl) comm A
    q hq S hS ε δ (by rw [h2]; exact hδ) hδ1 hε k (fun _ x => RangeOpened L n k comm x)
    fun p hash hw x hx => C140_plain_value L n k hn comm p hash hw x hx
  rw [h2] at this
  exact this

/-! ## Curves with a known logarithm of H, like `TestCurve`: all proofs -/

/-- What the extractor computes for bit `i` from two proofs and the hashes for the bit: randomness if the bit
is 0, randomness if it is 1, and numbers that may be the logarithm of G.  See rangeproof.go:239-260. -/
noncomputable def allNumbers (L : Lawful cp E) (κ : Int) (i : Nat) (p p' : Option RangeProof) (d d' : Int) :
    Int × Int × List Int :=
  match p, p' with
  | some ⟨_, some e, ts⟩, some ⟨_, some e', ts'⟩ =>
    match ts[i]?, ts'[i]? with
    | some ⟨_, some s⟩, some ⟨_, some s'⟩ =>
      (L.inv e * L.inv (d' - d) * d' * (s - s'), L.inv (e - e') * (s - s'), logs L κ i e e' d d' s s')
    | _, _ => (0, 0, [])
  | _, _ => (0, 0, [])

/-- The point of tuple `i` is a commitment to 0 or to 2^i with the given randomness or with randomness 0; or it is
2^i G + H or 2^i G - H, which the verifier takes for commitments to 2^i (C142); or else one of the other numbers is the
logarithm of G to the base that `Mult` uses for H.  See rangeproof.go:239-260. -/
def BitFound (L : Lawful cp E) (i : Nat) (p : Option RangeProof) (x : Int × Int × List Int) : Prop :=
  (∃ pr t, p = some pr ∧ pr.ProofTuples[i]? = some t ∧
    (t.C = L.pe 0 ∨ t.C = L.pe (x.1 • L.hb) ∨ t.C = L.pe ((2 ^ i : Int) • L.g + x.2.1 • L.hb) ∨
      t.C = L.pe ((2 ^ i : Int) • L.g + L.h) ∨ t.C = L.pe ((2 ^ i : Int) • L.g - L.h))) ∨
  ∃ y ∈ x.2.2, L.g = y • L.hb

theorem all_rule (L : Lawful cp E) {κ : Int} (hκ : L.h = κ • L.g) (hf : FarLog cp.C.N κ) (n : Nat) (hn : n ≤ 64) :
    BitRule L (fun _ => True) n (allNumbers L κ) (BitFound L) (badInner L κ) (badOuter L κ) := by
  intro i hi agg e c s agg' e' c' s' d d' _ _ e0 d0 hT hR ho
  have h1 : ((List.range n).map fun i => (⟨L.pe (c i), some (s i)⟩ : RangeProofTuple))[i]? =
      some ⟨L.pe (c i), some (s i)⟩ := by simp [hi]
  have h2 : ((List.range n).map fun i => (⟨L.pe (c' i), some (s' i)⟩ : RangeProofTuple))[i]? =
      some ⟨L.pe (c' i), some (s' i)⟩ := by simp [hi]
  have h3 : allNumbers L κ i (rangeOf L n agg e c s) (rangeOf L n agg' e' c' s') d d' =
      (L.inv e * L.inv (d' - d) * d' * (s i - s' i), L.inv (e - e') * (s i - s' i),
        logs L κ i e e' d d' (s i) (s' i)) := by simp only [allNumbers, rangeOf, h1, h2]
  rw [h3]
  have h4 := special_bit L hκ hf (show i < 64 by omega) e0 d0 hT hR ho
  rcases h4 with h | h | h | h | h | h
  · exact .inl ⟨_, _, rfl, h1, .inl (congrArg L.pe h)⟩
  · exact .inl ⟨_, _, rfl, h1, .inr (.inl (congrArg L.pe h))⟩
  · exact .inl ⟨_, _, rfl, h1, .inr (.inr (.inl (congrArg L.pe h)))⟩
  · exact .inl ⟨_, _, rfl, h1, .inr (.inr (.inr (.inl (congrArg L.pe h))))⟩
  · exact .inl ⟨_, _, rfl, h1, .inr (.inr (.inr (.inr (congrArg L.pe h))))⟩
  · exact .inr h

/-- The numbers computed for each bit, in several tries, open the commitment, up to its sign, with a value v + m κ,
where v has `n` bits and m counts, with signs, the tuples in which C is 2^i G + H or 2^i G - H; or one of them is the
logarithm of G to the base that `Mult` uses for H.  See rangeproof.go:262-322. -/
def RangeFound (L : Lawful cp E) (κ : Int) (n k : Nat) (comm : E) (p : Option RangeProof)
    (x : Fin n → Fin k → Int × Int × List Int) : Prop :=
  (∃ (b : Fin n → Bool) (a ρ : Fin n → Int) (l : Fin n → Fin k) (v m r : Int),
    (∀ i, ρ i = 0 ∨ ρ i = (x i (l i)).1 ∨ ρ i = (x i (l i)).2.1) ∧
    (∀ i, a i = 0 ∨ (a i = 1 ∨ a i = -1) ∧ ∃ pr t, p = some pr ∧ pr.ProofTuples[(i : Nat)]? = some t ∧
      t.C = L.pe ((2 ^ (i : Nat) : Int) • L.g + a i • L.h)) ∧
    v = ∑ i, (if b i then (2 ^ (i : Nat) : Int) else 0) ∧ m = ∑ i, a i ∧ r = ∑ i, ρ i ∧
    0 ≤ v ∧ v < 2 ^ n ∧
    (comm = (v + m * κ) • L.g + r • L.hb ∨ comm = -((v + m * κ) • L.g + r • L.hb))) ∨
  ∃ i l, ∃ y ∈ (x i l).2.2, L.g = y • L.hb

/-- C140, the bits.  A prover who asks at most `q` questions to a random SHA-256 and whose output with `n` tuples is
accepted with probability ε: for every δ, with probability at least
ε - n (q + n + 1)^2 4097 33^3 δ - (n + 1) (q + n + 1) (2^256 / N + 1) / 2^256 the output is accepted and every
bit can be opened: running the prover once more with new answers from the last question on which the bit
depends gives, with probability at least δ - 111 (2^256 / N + 1) / 2^256, the randomness of a commitment to 0 or
to 2^i in explicit form, or the logarithm of G, if the point is not 2^i G + H or 2^i G - H. -/
theorem C140_range_bits (L : Lawful cp E) (hs : Small L) {κ : Int} (hκ : L.h = κ • L.g) (hf : FarLog cp.C.N κ)
    (n : Nat) (hn : n ≤ 64) (comm : E)
    (A : Adv (Option RangeProof)) (q : Nat) (hq : ∀ h, A.count h ≤ q) (S : Finset Bytes)
    (hS : (rangeAll cp n A).asked bytesOf (rangeOuter cp) ⊆ S) (ε δ : ℝ) (hδ : 0 ≤ δ)
    (hε : ε = prob fun f : S → Word => RangeWins L (fun _ => True) n comm (A.run (hashOf S f)) (hashOf S f)) :
    ε - n * ((q + n + 1) ^ 2 * 147233889) * δ - (n + 1) * (q + n + 1) * perChal cp.C.N / 2 ^ 256 ≤
      prob fun f : S → Word => RangeWins L (fun _ => True) n comm (A.run (hashOf S f)) (hashOf S f) ∧
        ∀ i < n, δ - 111 * perChal cp.C.N / 2 ^ 256 ≤ prob fun g : S → Word =>
          BitFound L i (A.run (hashOf S f)) (rangeExtract cp (allNumbers L κ) n A S i f g) := by
  have h2 : ((49 : Nat) + (62 : Nat) : ℝ) = 111 := by norm_num
  have := range_bits L hs (fun _ => True) n hn (all_rule L hκ hf n hn) 49 62 (fun i d => (length_badInner L κ i d).le)
    (fun i e => (length_badOuter L κ i e).le) comm A q hq S hS ε δ hδ hε
  rw [h2] at this
  exact this

/-- C140, the value: an accepted proof, all of whose bits are found, is opened by the numbers. -/
theorem C140_range_value (L : Lawful cp E) {κ : Int} (hκ : L.h = κ • L.g) (n k : Nat) (hn : n ≤ 64) (comm : E)
    (p : Option RangeProof) (hash : Bytes → Bytes) (hw : RangeWins L (fun _ => True) n comm p hash)
    (x : Fin n → Fin k → Int × Int × List Int) (hx : ∀ i : Fin n, ∃ l, BitFound L i p (x i l)) :
    RangeFound L κ n k comm p x := by
  obtain ⟨agg, e, c, s, rfl, -, hv⟩ := hw
  by_cases hlog : ∃ i l, ∃ y ∈ (x i l).2.2, L.g = y • L.hb
  · exact .inr hlog
  left
  have hc : ∀ i : Fin n, ∃ (b : Bool) (a ρ : Int) (l : Fin k),
      (ρ = 0 ∨ ρ = (x i l).1 ∨ ρ = (x i l).2.1) ∧
      (a = 0 ∨ (a = 1 ∨ a = -1) ∧ ∃ pr t, rangeOf L n agg e c s = some pr ∧
        pr.ProofTuples[(i : Nat)]? = some t ∧ t.C = L.pe ((2 ^ (i : Nat) : Int) • L.g + a • L.h)) ∧
      c i = (if b then (2 ^ (i : Nat) : Int) else 0) • L.g + (a * κ) • L.g + ρ • L.hb := by
    intro i
    obtain ⟨l, ⟨pr, t, h1, h2, h3⟩ | ⟨y, h4, h5⟩⟩ := hx i
    · have h1' := h1
      rw [rangeOf, Option.some.injEq] at h1
      subst h1
      have h2' := h2
      obtain rfl : (⟨L.pe (c i), some (s i)⟩ : RangeProofTuple) = t := by
        simpa [i.2] using h2
      simp only [L.pe_inj] at h3
      rcases h3 with h3 | h3 | h3 | h3 | h3
      · exact ⟨false, 0, 0, l, .inl rfl, .inl rfl, by simpa using h3⟩
      · exact ⟨false, 0, _, l, .inr (.inl rfl), .inl rfl, by simpa using h3⟩
      · exact ⟨true, 0, _, l, .inr (.inr rfl), .inl rfl, by simpa using h3⟩
      · exact ⟨true, 1, 0, l, .inl rfl, .inr ⟨.inl rfl, _, _, h1', h2', by rw [one_smul, h3]⟩,
          by rw [h3, hκ]; simp⟩
      · exact ⟨true, -1, 0, l, .inl rfl,
          .inr ⟨.inr rfl, _, _, h1', h2', by rw [h3, neg_smul, one_smul, sub_eq_add_neg]⟩,
          by rw [h3, hκ]; simp [sub_eq_add_neg]⟩
    · exact (hlog ⟨i, l, y, h4, h5⟩).elim
  choose b a ρ l hρ ha hb using hc
  have hsum : ((List.range n).map c).sum = ∑ i : Fin n, c i := by
    rw [Fin.sum_univ_eq_sum_range, Finset.sum_range]
    rw [← List.sum_ofFn]
    congr 1
    apply List.ext_getElem <;> simp
  have hval : ∑ i : Fin n, c i = ((∑ i, (if b i then (2 ^ (i : Nat) : Int) else 0)) + (∑ i, a i) * κ) • L.g +
      (∑ i, ρ i) • L.hb := by
    rw [Finset.sum_congr rfl fun i _ => hb i, Finset.sum_add_distrib, Finset.sum_add_distrib, Finset.sum_mul,
      add_smul, Finset.sum_smul, Finset.sum_smul, Finset.sum_smul]
  refine ⟨b, a, ρ, l, _, _, _, hρ, ha, rfl, rfl, rfl, (sum_bits n b).1, (sum_bits n b).2, ?_⟩
  rw [← hval, ← hsum]
  exact (rangeVerify_inv L hash n hn e c s agg comm hv).2

/-- C140, the extractor: one run of the prover, and `k` more for each of the `n` bits, give an explicit opening
of the commitment with a value of `n` bits plus a small multiple of κ, or the logarithm of G. -/
theorem C140_range_knowledge (L : Lawful cp E) (hs : Small L) {κ : Int} (hκ : L.h = κ • L.g)
    (hf : FarLog cp.C.N κ) (n : Nat) (hn : n ≤ 64) (comm : E)
    (A : Adv (Option RangeProof)) (q : Nat) (hq : ∀ h, A.count h ≤ q) (S : Finset Bytes)
    (hS : (rangeAll cp n A).asked bytesOf (rangeOuter cp) ⊆ S) (ε δ : ℝ)
    (hδ : 111 * perChal cp.C.N / 2 ^ 256 ≤ δ) (hδ1 : δ ≤ 1)
    (hε : ε = prob fun f : S → Word => RangeWins L (fun _ => True) n comm (A.run (hashOf S f)) (hashOf S f))
    (k : Nat) :
    (ε - n * ((q + n + 1) ^ 2 * 147233889) * δ - (n + 1) * (q + n + 1) * perChal cp.C.N / 2 ^ 256) *
        (1 - (1 - (δ - 111 * perChal cp.C.N / 2 ^ 256)) ^ k) ^ n ≤
      prob fun x : (S → Word) × (Fin n → Fin k → S → Word) =>
        RangeFound L κ n k comm (A.run (hashOf S x.1)) fun i l =>
          rangeExtract cp (allNumbers L κ) n A S i x.1 (x.2 i l) := by
  have h2 : ((49 : Nat) + (62 : Nat) : ℝ) = 111 := by norm_num
  have := range_knowledge L hs (fun _ => True) n hn (all_rule L hκ hf n hn) 49 62
    (fun i d => (length_badInner L κ i d).le) (fun i e => (length_badOuter L κ i e).le) comm A
    q hq S hS ε δ (by rw [h2]; exact hδ) hδ1 hε k (fun p x => RangeFound L κ n k comm p x)
    fun p hash hw x hx => C140_range_value L hκ n k hn comm p hash hw x hx
  rw [h2] at this
  exact this

theorem far_testCurve : FarLog Curve.tc.C.N
    0x94e35037c3705ca047e88b2bd1f3207987dba1fb4c817b9ebc943566dd637134 := by
  intro a b h1 h2 h3 h4 h
  have hN : (Curve.tc.C.N : Int) = (Curve.curveN : Int) := rfl
  rw [hN, Curve.curveN] at h
  interval_cases b <;> omega

/-! ## An example -/

/-- An honest prover for the value 1 with one bit and randomness 0 (for examples; rangeproof.go:51-151). -/
def honestBit (L : Lawful cp E) (k : Int) : Adv (Option RangeProof) :=
  .ask (L.bytes (k • L.hb)) fun d => .ask (L.bytes ((setBytes d : Int) • L.g)) fun e =>
    .out (rangeOf L 1 (L.pe L.g) (setBytes e : Int) (fun _ => L.g) fun _ => k)

theorem honestBit_wins (L : Lawful cp E) (k : Int) (hash : Bytes → Bytes) :
    RangeWins L (Plain L 1) 1 L.g ((honestBit L k).run hash) hash := by
  refine ⟨_, _, _, _, rfl, ?_, ?_⟩
  · intro i hi
    obtain rfl : i = 0 := by omega
    rw [L.multOk_iff_eff, L.multOk_iff_eff]
    simp [L.eff_zero, L.eff_g]
  · change rangeVerify hash cp (rangeOf L 1 (L.pe L.g) _ (fun _ => L.g) fun _ => k) (L.pe L.g) = _
    rw [rangeOf, rangeVerify_pe L hash 1 (by norm_num)]
    have : L.same L.g L.g = true := L.same_iff.2 (.inl rfl)
    simp [L.eff_zero, L.eff_g, Lawful.hps, Lawful.hp, this]

/-- C140 is not about nothing: on `TestCurve` an honest prover is accepted with probability 1. -/
example : ∃ (S : Finset Bytes) (A : Adv (Option RangeProof)), (∀ h, A.count h ≤ 2) ∧
    (rangeAll Curve.tc 1 A).asked bytesOf (rangeOuter Curve.tc) ⊆ S ∧
    (prob fun f : S → Word => RangeWins Curve.lawful (Plain Curve.lawful 1) 1 Curve.lawful.g (A.run (hashOf S f)) (hashOf S f)) = 1 ∧
    (prob fun f : S → Word =>
      RangeWins Curve.lawful (fun _ => True) 1 Curve.lawful.g (A.run (hashOf S f)) (hashOf S f)) = 1 ∧
    Small Curve.lawful ∧ ∃ κ, Curve.lawful.h = κ • Curve.lawful.g ∧ FarLog Curve.tc.C.N κ :=
  ⟨_, honestBit Curve.lawful 5, fun _ => le_rfl, subset_rfl, prob_one fun _ => honestBit_wins _ _ _,
    prob_one fun _ => by
      obtain ⟨agg, e, c, s, h1, -, h2⟩ := honestBit_wins Curve.lawful 5 (hashOf _ _)
      exact ⟨agg, e, c, s, h1, trivial, h2⟩, small_testCurve, _, Real.h_eq_smul, far_testCurve⟩

end Zk.Rom
