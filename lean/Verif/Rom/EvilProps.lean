import Verif.Rom.WrongProps

/-! # Property C153: an ABC proof for another product than 1 is refused -/

namespace Zk.Rom

open Zk Zk.Proto

variable {cp : Params} {E : Type} [AddCommGroup E]

/-- The proof that `TestBreakABCProve` puts together, abc_test.go:130-188.  The factor 2 of lines 136-141 is a parameter
here, and so are the first two points given to `NewDisjunctiveProof` at line 141, which are `CMTok` and `CM` in the test.
Its error is ignored there.  Lines 143-188 are abc.go:124-169 word by word. -/
def evilProof (hash : Bytes → Bytes) (cp : Params) (P Q CM CMTok : ECPoint) (value sk factor : Int) (rnd : ABCRand) :
    Go (Option ABCProof × Option Err) := do
  let CToken ← mult cp cp.H (some rnd.uc)
  let x ← deref (modInverse value cp.C.N)
  let B ← pedCommitR cp (some (factor * x)) (some rnd.ub)
  let C ← pedCommitR cp (some factor) (some rnd.uc)
  let F ← mult cp cp.G (some factor)
  let D ← sub cp C F
  let r ← newDisjunctiveProof hash cp P Q cp.H D rnd.uc Right rnd.d1 rnd.d2 rnd.d3
  finishABC hash cp CM CMTok value sk rnd B C CToken r.1

theorem evilProof_eq (L : Lawful cp E) (hash : Bytes → Bytes) (p q cm tok : E) (v w sk isk k : Int) (rnd : ABCRand)
    (hw : modInverse v cp.C.N = some w) (hi : modInverse sk cp.C.N = some isk) :
    evilProof hash cp (L.pe p) (L.pe q) (L.pe cm) (L.pe tok) v sk k rnd =
      (let B := (k * w) • L.g + rnd.ub • L.hb
       let C := k • L.g + rnd.uc • L.hb
       let t1 := rnd.u1 • L.g + rnd.u2 • L.eff tok
       let t2 := rnd.u1 • L.eff B + rnd.u3 • L.hb
       let c := L.chal hash [L.g, L.h, cm, tok, B, C, t1, t2]
       .ok (some ⟨L.pe B, L.pe C, L.pe t1, L.pe t2, some c,
          some ((rnd.u1 + v * c) % (cp.C.N : Int)), some ((rnd.u2 + isk * c) % (cp.C.N : Int)),
          some (rnd.u3 + (rnd.uc - v * rnd.ub) * c), L.pe (rnd.uc • L.hb),
          some (rightProof L hash p q L.h (rnd.uc • L.hb) rnd.uc rnd.d1 rnd.d2 rnd.d3)⟩, none)) := by
  have hsame : L.same (rnd.uc • L.eff L.h) (rnd.uc • L.hb) = true := by rw [L.eff_h, L.same_self]
  have e : k • L.g + rnd.uc • L.hb - k • L.g = rnd.uc • L.hb := by abel
  simp only [evilProof, L.H_pe, L.mult_pe, L.eff_h, Go.bind_ok, hw, deref_some, L.pedCommitR_pe, L.G_pe, L.eff_g,
    L.sub_pe, e, newDisjunctiveProof_right L hash p q L.h (rnd.uc • L.hb) rnd.uc rnd.d1 rnd.d2 rnd.d3 hsame,
    L.finishABC_pe _ _ _ _ _ _ _ _ _ _ _ hi]

/-- The challenges of the nested proof for which its second equation can hold for the point `x` instead of `uc`*H.
See disjunctive.go:193-201. -/
def passingNested (L : Lawful cp E) (x : E) (uc d1 d3 : Int) : Set Int :=
  {c | (0 ≤ c ∧ c < cp.C.N) ∧ ((c - d3) • (x - uc • L.hb) = 0 ∨
    (2 * d1) • L.hb + (c - d3) • (x + uc • L.hb) = 0)}

theorem passingNested_card (L : Lawful cp E) (x : E) (uc d1 d3 : Int) (h1 : x ≠ uc • L.hb)
    (h2 : x ≠ -(uc • L.hb) ∨ ¬ (cp.C.N : Int) ∣ d1) : (passingNested L x uc d1 d3).encard ≤ (2 : ℕ) := by
  have key : ∀ (a y : E), (y ≠ 0 ∨ a ≠ 0) → {c : Int | (0 ≤ c ∧ c < cp.C.N) ∧ a + (c - d3) • y = 0}.encard ≤ 1 := by
    intro a y hy
    rw [Set.encard_le_one_iff]
    rintro c d ⟨hc, hc'⟩ ⟨hd, hd'⟩
    by_cases hy0 : y = 0
    · rw [hy0, smul_zero, add_zero] at hc'
      rcases hy with hy | hy
      · exact absurd hy0 hy
      · exact absurd hc' hy
    · have : c • y = d • y := by linear_combination (norm := module) hc' - hd'
      rw [L.smul_eq_smul hy0, Int.emod_eq_of_lt hc.1 hc.2, Int.emod_eq_of_lt hd.1 hd.2] at this
      exact this
  have hp : _root_.Prime (cp.C.N : Int) := Nat.prime_iff_prime_int.1 L.prime
  have k1 := key 0 (x - uc • L.hb) (Or.inl (sub_ne_zero.2 h1))
  have k2 := key ((2 * d1) • L.hb) (x + uc • L.hb) (h2.imp (fun h h' => h (eq_neg_of_add_eq_zero_left h')) (by
    intro h h'
    rw [L.smul_eq_zero L.hb_ne] at h'
    rcases hp.dvd_or_dvd h' with h3 | h3
    · have := Int.le_of_dvd (by norm_num) h3
      have := L.five_lt
      omega
    · exact h h3))
  refine (Set.encard_le_encard (t := {c : Int | (0 ≤ c ∧ c < cp.C.N) ∧ 0 + (c - d3) • (x - uc • L.hb) = 0} ∪
    {c : Int | (0 ≤ c ∧ c < cp.C.N) ∧ (2 * d1) • L.hb + (c - d3) • (x + uc • L.hb) = 0}) ?_).trans
    ((Set.encard_union_le _ _).trans ?_)
  · rintro c ⟨hc, h | h⟩
    · exact Or.inl ⟨hc, by rw [zero_add]; exact h⟩
    · exact Or.inr ⟨hc, h⟩
  · calc _ ≤ (1 : ℕ∞) + 1 := by gcongr
      _ = _ := by norm_num

/-- `Verify` either accepts the proof or refuses it with an error. -/
theorem evil_verdict (L : Lawful cp E) (hash : Bytes → Bytes) (p q cm tok : E) (v w sk isk k : Int) (rnd : ABCRand)
    (hw : modInverse v cp.C.N = some w) (hi : modInverse sk cp.C.N = some isk) :
    ∃ pr, evilProof hash cp (L.pe p) (L.pe q) (L.pe cm) (L.pe tok) v sk k rnd = .ok (some pr, none) ∧
      pr.disjuncAC = some (rightProof L hash p q L.h (rnd.uc • L.hb) rnd.uc rnd.d1 rnd.d2 rnd.d3) ∧
      ((∃ err, abcVerify hash cp (some pr) (L.pe cm) (L.pe tok) = .ok (false, some err)) ∨
        disjunctiveVerify hash cp
          (some (rightProof L hash p q L.h (rnd.uc • L.hb) rnd.uc rnd.d1 rnd.d2 rnd.d3)) (L.pe cm) (L.pe tok)
            (L.pe L.h) (L.pe (k • L.g + rnd.uc • L.hb - L.g)) = .ok accept) := by
  have hrun := evilProof_eq L hash p q cm tok v w sk isk k rnd hw hi
  simp only at hrun
  refine ⟨_, hrun, rfl, ?_⟩
  obtain ⟨st, hst⟩ := abcVerify_total L hash cm tok ((k * w) • L.g + rnd.ub • L.hb) (k • L.g + rnd.uc • L.hb)
    (rnd.u1 • L.g + rnd.u2 • L.eff tok) (rnd.u1 • L.eff ((k * w) • L.g + rnd.ub • L.hb) + rnd.u3 • L.hb) _ _
    (L.chal hash [L.g, L.h, cm, tok, (k * w) • L.g + rnd.ub • L.hb, k • L.g + rnd.uc • L.hb,
      rnd.u1 • L.g + rnd.u2 • L.eff tok, rnd.u1 • L.eff ((k * w) • L.g + rnd.ub • L.hb) + rnd.u3 • L.hb]) _ _ _ _ _ _ _ _ _
  rw [rightProof] at *
  rw [hst]
  rcases (C31_verify_consistent_partial hash cp).2.2.2.2.1 _ _ _ st.1 st.2 hst with ⟨e1, e2⟩ | ⟨e1, e2⟩
  · refine Or.inr ?_
    have hacc : st = accept := Prod.ext e1 e2
    rw [hacc, L.abcVerify_iff] at hst
    exact hst.1
  · refine Or.inl ?_
    obtain ⟨b, e⟩ := st
    simp only at e1 e2
    cases e with
    | none => exact absurd rfl e2
    | some e => exact ⟨e, by rw [e1]⟩

/-- C153, for every hash function: the proof of the test with any factor other than 1 is refused with an error, in
whichever order the nested proof is given its points, unless the challenge of the nested proof is one of at most two
numbers, which the prover's draws determine before anything is hashed.  Missing: points C - G at which `Mult` is not
scalar multiplication, and the draw u1 = 0 of the nested proof if (k-1)*G + 2uc*H is the identity. -/
theorem C153_refused_partial (L : Lawful cp E) (p q cm tok : E) (v sk k : Int) (rnd : ABCRand)
    (hv : ¬ (cp.C.N : Int) ∣ v) (hsk : ¬ (cp.C.N : Int) ∣ sk) (hk : ¬ k ≡ 1 [ZMOD cp.C.N])
    (o : L.MultOk ((k - 1) • L.g + rnd.uc • L.hb))
    (hs : pedCommitR cp (some (k - 1)) (some (2 * rnd.uc)) ≠ .ok Zero ∨ ¬ (cp.C.N : Int) ∣ rnd.d1) :
    ∃ C : Set Int, C.encard ≤ (2 : ℕ) ∧ ∀ hash : Bytes → Bytes, ∃ pr d c,
      evilProof hash cp (L.pe p) (L.pe q) (L.pe cm) (L.pe tok) v sk k rnd = .ok (some pr, none) ∧
      pr.disjuncAC = some d ∧ d.C = some c ∧
      (c ∉ C → ∃ err, abcVerify hash cp (some pr) (L.pe cm) (L.pe tok) = .ok (false, some err)) := by
  obtain ⟨isk, hi, _⟩ := modInverse_some L.prime hsk
  obtain ⟨w, hw, _⟩ := modInverse_some L.prime hv
  rw [L.multOk_iff_eff] at o
  rw [L.pedCommitR_pe, Ne, Go.ok.injEq, ← L.pe_zero, L.pe_inj] at hs
  refine ⟨passingNested L ((k - 1) • L.g + rnd.uc • L.hb) rnd.uc rnd.d1 rnd.d3, passingNested_card L _ _ _ _ ?_ ?_,
    fun hash => ?_⟩
  · intro h
    have h' : (k - 1) • L.g = 0 := by linear_combination (norm := module) h
    rw [L.smul_eq_zero L.g_ne] at h'
    exact hk (Int.modEq_iff_dvd.2 h').symm
  · refine hs.imp (fun h h' => h ?_) id
    linear_combination (norm := module) h'
  obtain ⟨pr, hrun, hd, h⟩ := evil_verdict L hash p q cm tok v w sk isk k rnd hw hi
  refine ⟨pr, _, _, hrun, hd, rfl, fun hc => h.resolve_right fun hacc => hc ?_⟩
  rw [rightProof, L.disjunctiveVerify_iff] at hacc
  obtain ⟨_, _, _, hacc⟩ := hacc
  refine ⟨L.chal_range hash _, ?_⟩
  generalize L.chal hash _ = c at hacc ⊢
  rw [show k • L.g + rnd.uc • L.hb - L.g = (k - 1) • L.g + rnd.uc • L.hb by module, o, L.same_iff, L.eff_h,
    L.smul_mod, add_smul, mul_smul, L.smul_mod, ← mul_smul] at hacc
  have e : (rnd.uc % (cp.C.N : Int)) • L.hb = rnd.uc • L.hb := L.smul_mod _ _
  refine hacc.imp (fun h => ?_) (fun h => ?_)
  · linear_combination (norm := module) h + (c - rnd.d3) • e
  · linear_combination (norm := module) h - (c - rnd.d3) • e

/-- C153 with probabilities: when SHA-256 is a random function, the proof of the test with any factor other than 1 is
refused with an error, except with probability 2 (2^256 / N + 1) / 2^256.  Missing: as above. -/
theorem C153_probability_partial (L : Lawful cp E) (p q cm tok : E) (v sk k : Int) (rnd : ABCRand)
    (hv : ¬ (cp.C.N : Int) ∣ v) (hsk : ¬ (cp.C.N : Int) ∣ sk) (hk : ¬ k ≡ 1 [ZMOD cp.C.N])
    (o : L.MultOk ((k - 1) • L.g + rnd.uc • L.hb))
    (hs : pedCommitR cp (some (k - 1)) (some (2 * rnd.uc)) ≠ .ok Zero ∨ ¬ (cp.C.N : Int) ∣ rnd.d1) :
    ∃ b : Bytes, ∀ S : Finset Bytes, b ∈ S →
      1 - 2 * perChal cp.C.N / 2 ^ 256 ≤ prob fun f : S → Word =>
        ∃ pr, evilProof (hashOf S f) cp (L.pe p) (L.pe q) (L.pe cm) (L.pe tok) v sk k rnd = .ok (some pr, none) ∧
          ∃ err, abcVerify (hashOf S f) cp (some pr) (L.pe cm) (L.pe tok) = .ok (false, some err) := by
  obtain ⟨isk, hi, _⟩ := modInverse_some L.prime hsk
  obtain ⟨w, hw, _⟩ := modInverse_some L.prime hv
  obtain ⟨C, hC, hall⟩ := C153_refused_partial L p q cm tok v sk k rnd hv hsk hk o hs
  refine ⟨hashed ((nested L p q rnd).map L.pe), fun S hb => ?_⟩
  have hf := prob_fresh (S := S) (fun ω : Word => chalOf cp.C.N ω ∈ C) _ (num_chals cp.C.N C 2 hC) ⟨_, hb⟩
  rw [card_word] at hf
  refine prob_not ?_ (hf.trans (le_of_eq (by push_cast; ring)))
  intro f hq
  obtain ⟨pr, d, c, hrun, hd, hc, href⟩ := hall (hashOf S f)
  refine ⟨pr, hrun, href ?_⟩
  obtain ⟨pr', hrun', hd', _⟩ := evil_verdict L (hashOf S f) p q cm tok v w sk isk k rnd hw hi
  rw [hrun, Go.ok.injEq, Prod.mk.injEq, Option.some.injEq] at hrun'
  rw [hrun'.1, hd', Option.some.injEq] at hd
  have hch := chal_hashOf L S f ⟨_, hb⟩ (nested L p q rnd) rfl
  rw [← hd, rightProof, Option.some.injEq] at hc
  have hc' : L.chal (hashOf S f) (nested L p q rnd) = c := hc
  rw [← hc', hch]
  exact hq

/-- An answer of the oracle rarely is bad for another answer. -/
theorem prob_fresh_two {Ω : Type} [Fintype Ω] [Nonempty Ω] {S : Finset Bytes} (Bad : Ω → Ω → Prop)
    (κ : ℝ) (hκ : ∀ ω, num (Bad ω) ≤ κ) (x y : S) (h : y ≠ x) :
    (prob fun g : S → Ω => Bad (g y) (g x)) ≤ κ / Fintype.card Ω := by
  classical
  have hX : (0 : ℝ) < Fintype.card (S → Ω) := Nat.cast_pos.2 Fintype.card_pos
  have hW : (0 : ℝ) < Fintype.card Ω := Nat.cast_pos.2 Fintype.card_pos
  have := num_hit (ι := S) Bad κ hκ x (fun g => g y) fun _ _ h' => h' y h
  unfold prob
  rw [div_le_div_iff₀ hX hW]
  exact this

/-- C153 without exceptions for the points: whatever the factor, the points and the draws are, the proof is refused
except with probability (2^256 / N + 1) / 2^256 if the bytes that are hashed for the nested proof are not those that
`Verify` hashes. -/
theorem C153_other_bytes (L : Lawful cp E) (p q cm tok : E) (v sk k : Int) (rnd : ABCRand)
    (hv : ¬ (cp.C.N : Int) ∣ v) (hsk : ¬ (cp.C.N : Int) ∣ sk)
    (hb : hashed ([p, q, L.h, rnd.uc • L.hb, rnd.d2 • L.eff p - rnd.d3 • L.eff q, rnd.d1 • L.hb].map L.pe) ≠
      hashed ([cm, tok, L.h, k • L.g + rnd.uc • L.hb - L.g, rnd.d2 • L.eff p - rnd.d3 • L.eff q,
        rnd.d1 • L.hb].map L.pe)) :
    ∃ b b' : Bytes, ∀ S : Finset Bytes, b ∈ S → b' ∈ S →
      1 - perChal cp.C.N / 2 ^ 256 ≤ prob fun f : S → Word =>
        ∃ pr, evilProof (hashOf S f) cp (L.pe p) (L.pe q) (L.pe cm) (L.pe tok) v sk k rnd = .ok (some pr, none) ∧
          ∃ err, abcVerify (hashOf S f) cp (some pr) (L.pe cm) (L.pe tok) = .ok (false, some err) := by
  obtain ⟨isk, hi, _⟩ := modInverse_some L.prime hsk
  obtain ⟨w, hw, _⟩ := modInverse_some L.prime hv
  obtain ⟨b, eb⟩ : ∃ b, b = hashed ([p, q, L.h, rnd.uc • L.hb, rnd.d2 • L.eff p - rnd.d3 • L.eff q,
    rnd.d1 • L.hb].map L.pe) := ⟨_, rfl⟩
  obtain ⟨b', eb'⟩ : ∃ b, b = hashed ([cm, tok, L.h, k • L.g + rnd.uc • L.hb - L.g,
    rnd.d2 • L.eff p - rnd.d3 • L.eff q, rnd.d1 • L.hb].map L.pe) := ⟨_, rfl⟩
  rw [← eb, ← eb'] at hb
  refine ⟨b, b', fun S h1 h2 => ?_⟩
  have hf := prob_fresh_two (SameChal cp.C.N) _ (num_sameChal cp.C.N) ⟨b, h1⟩ ⟨b', h2⟩
    (fun h => hb (congrArg Subtype.val h).symm)
  rw [card_word] at hf
  refine prob_not ?_ (hf.trans (le_of_eq (by push_cast; ring)))
  intro f hq
  obtain ⟨pr, hrun, hd, h⟩ := evil_verdict L (hashOf S f) p q cm tok v w sk isk k rnd hw hi
  refine ⟨pr, hrun, h.resolve_right fun hacc => hq ?_⟩
  rw [rightProof, L.disjunctiveVerify_iff, L.eff_h] at hacc
  have e1 := chal_hashOf L S f ⟨b, h1⟩ _ eb
  have e2 := chal_hashOf L S f ⟨b', h2⟩ _ eb'
  rw [SameChal, ← e1, ← e2]
  exact hacc.1

/-- C153, about the test: the nested proof is given CMTok and CM in the other order than `Verify` uses.  This alone makes
`Verify` refuse the proof, for every hash function and for every factor, also for the factor 1. -/
theorem C153_order (L : Lawful cp E) (hash : Bytes → Bytes) (cm tok : E) (v sk k : Int) (rnd : ABCRand)
    (hv : ¬ (cp.C.N : Int) ∣ v) (hsk : ¬ (cp.C.N : Int) ∣ sk)
    (h1 : (rnd.d2 + rnd.d3) • (L.eff tok - L.eff cm) ≠ 0)
    (h2 : (rnd.d2 + rnd.d3) • L.eff tok + (rnd.d2 - rnd.d3) • L.eff cm ≠ 0) :
    ∃ pr, evilProof hash cp (L.pe tok) (L.pe cm) (L.pe cm) (L.pe tok) v sk k rnd = .ok (some pr, none) ∧
      ∃ err, abcVerify hash cp (some pr) (L.pe cm) (L.pe tok) = .ok (false, some err) := by
  obtain ⟨isk, hi, _⟩ := modInverse_some L.prime hsk
  obtain ⟨w, hw, _⟩ := modInverse_some L.prime hv
  obtain ⟨pr, hrun, _, h⟩ := evil_verdict L hash tok cm cm tok v w sk isk k rnd hw hi
  refine ⟨pr, hrun, h.resolve_right fun hacc => ?_⟩
  rw [rightProof, L.disjunctiveVerify_iff, L.same_iff] at hacc
  rcases hacc.2.2.1 with h3 | h3
  · exact h1 (by linear_combination (norm := module) h3)
  · exact h2 (by linear_combination (norm := module) h3)

/-- With the factor 1 and the order of `Verify` the proof is that of `NewABCProof`, and accepted. -/
theorem C153_factor_one (L : Lawful cp E) (hash : Bytes → Bytes) (cm tok : E) (v w ua sk : Int) (rnd : ABCRand)
    (hcm : pedCommitR cp (some v) (some ua) = .ok (L.pe cm)) (htok : tok = (ua * sk) • L.hb)
    (hsk : ¬ (cp.C.N : Int) ∣ sk) (hw : w * v ≡ 1 [ZMOD cp.C.N])
    (o1 : L.MultOk cm) (o2 : L.MultOk tok) (o3 : L.MultOk (rnd.uc • L.hb))
    (o4 : L.MultOk (w • L.g + rnd.ub • L.hb)) (o5 : L.MultOk (L.g + rnd.uc • L.hb)) :
    Succeeds (evilProof hash cp (L.pe cm) (L.pe tok) (L.pe cm) (L.pe tok) v sk 1 rnd)
      fun p => abcVerify hash cp p (L.pe cm) (L.pe tok) := by
  have hN := L.five_lt
  have hv : ¬ (cp.C.N : Int) ∣ v := by
    intro h
    have h2 := hw.dvd.trans (dvd_refl _)
    have h3 : (cp.C.N : Int) ∣ 1 := by
      have := dvd_add h2 (Dvd.dvd.mul_left h w)
      rwa [sub_add_cancel] at this
    have := Int.le_of_dvd (by norm_num) h3
    omega
  have hv0 : v ≠ 0 := by rintro rfl; exact hv (dvd_zero _)
  obtain ⟨isk, hi, _⟩ := modInverse_some L.prime hsk
  obtain ⟨w', hw', _⟩ := modInverse_some L.prime hv
  obtain ⟨pr, h1, h2⟩ := C45_completeness_right_partial L hash cm tok v w ua sk rnd hcm htok hsk hw o1 o2 o3 o4 o5
  obtain ⟨ct, hrun⟩ := newABCProof_right L hash cm tok v w' sk rnd hv0 hw'
  rw [L.finishABC_pe _ _ _ _ _ _ _ _ _ _ _ hi, h1] at hrun
  simp only [Go.ok.injEq, Prod.mk.injEq, and_true] at hrun
  rw [hrun, L.abcVerify_iff] at h2
  have he := evilProof_eq L hash cm tok cm tok v w' sk isk 1 rnd hw' hi
  simp only [one_mul, one_smul] at he
  refine ⟨_, he, ?_⟩
  rw [L.abcVerify_iff]
  exact h2

/-! ## The hypotheses can be met -/

/-- The factor 2 of the test, with the value 3, the key 2 and uc = 3. -/
example : ¬ (Toy.params.C.N : Int) ∣ 3 ∧ ¬ (Toy.params.C.N : Int) ∣ 2 ∧ ¬ 2 ≡ 1 [ZMOD Toy.params.C.N] ∧
    Toy.lawful.MultOk (((2 : Int) - 1) • Toy.lawful.g + (3 : Int) • Toy.lawful.hb) ∧
    pedCommitR Toy.params (some (2 - 1)) (some (2 * 3)) ≠ .ok Zero := by
  refine ⟨by decide, by decide, by decide, (Toy.lawful.multOk_iff_eff _).2 (Toy.eff_plain _ (by decide)), ?_⟩
  rw [Toy.lawful.pedCommitR_pe, Ne, Go.ok.injEq, ← Toy.lawful.pe_zero, Toy.lawful.pe_inj]; decide

/-- The bytes differ for the factor 2, the points 3 and 4 in the order of `Verify`, and uc = 3. -/
example : hashed (([3, 4, Toy.lawful.h, (3 : Int) • Toy.lawful.hb, (1 : Int) • Toy.lawful.eff 3 - (1 : Int) • Toy.lawful.eff 4,
      (1 : Int) • Toy.lawful.hb] : List (ZMod 7)).map Toy.lawful.pe) ≠
    hashed (([3, 4, Toy.lawful.h, (2 : Int) • Toy.lawful.g + (3 : Int) • Toy.lawful.hb - Toy.lawful.g,
      (1 : Int) • Toy.lawful.eff 3 - (1 : Int) • Toy.lawful.eff 4, (1 : Int) • Toy.lawful.hb] : List (ZMod 7)).map
        Toy.lawful.pe) := by
  rw [hashed_pe, hashed_pe, Toy.eff_plain 3 (by decide), Toy.eff_plain 4 (by decide)]
  decide +kernel

/-- The commitment 4 to the value 1 and its token 3 for the key 1, with the draws 1 and 1. -/
example : ((1 : Int) + 1) • (Toy.lawful.eff 3 - Toy.lawful.eff 4) ≠ 0 ∧
    ((1 : Int) + 1) • Toy.lawful.eff 3 + ((1 : Int) - 1) • Toy.lawful.eff 4 ≠ 0 := by
  rw [Toy.eff_plain 3 (by decide), Toy.eff_plain 4 (by decide)]
  decide

/-- The point 3 commits to 6 with the blinding 6; the key is 1, ub = 6 and uc = 1. -/
example : pedCommitR Toy.params (some 6) (some 6) = .ok (Toy.lawful.pe 3) ∧
    (4 : ZMod 7) = ((6 : Int) * 1) • Toy.lawful.hb ∧ ¬ (Toy.params.C.N : Int) ∣ 1 ∧
    (6 : Int) * 6 ≡ 1 [ZMOD Toy.params.C.N] ∧
    Toy.lawful.MultOk 3 ∧ Toy.lawful.MultOk 4 ∧ Toy.lawful.MultOk ((1 : Int) • Toy.lawful.hb) ∧
    Toy.lawful.MultOk ((6 : Int) • Toy.lawful.g + (6 : Int) • Toy.lawful.hb) ∧
    Toy.lawful.MultOk (Toy.lawful.g + (1 : Int) • Toy.lawful.hb) := by
  simp only [Toy.lawful.pedCommitR_pe, Toy.lawful.multOk_iff_eff]
  exact ⟨by decide, by decide, by decide, by decide, Toy.eff_plain _ (by decide),
    Toy.eff_plain _ (by decide), Toy.eff_plain _ (by decide), Toy.eff_plain _ (by decide),
    Toy.eff_plain _ (by decide)⟩

end Zk.Rom
