import Verif.Rom.DisjZk
import Verif.Proto.RestProps

/-! # Inequality proofs when SHA-256 is a random function: properties C50 and C145 -/

namespace Zk.Rom

open Zk Zk.Proto

variable {cp : Params} {E : Type} [AddCommGroup E]

/-- For values that differ modulo N, an inequality proof is the ABC proof for the differences.  See
inequality.go:14-34. -/
theorem newInequalityProof_abc (L : Lawful cp E) (hash : Bytes → Bytes) (A B tA tB : E) (a b sk : Int) (rnd : ABCRand)
    (hab : ¬ (cp.C.N : Int) ∣ a - b) (hsk : ¬ (cp.C.N : Int) ∣ sk) :
    newInequalityProof hash cp (L.pe A) (L.pe B) (L.pe tA) (L.pe tB) a b sk rnd =
      newABCProof hash cp (L.pe (A - B)) (L.pe (tA - tB)) (a - b) sk Right rnd := by
  have hne : a ≠ b := by rintro rfl; exact hab (by simp)
  have hv0 : a - b ≠ 0 := sub_ne_zero.2 hne
  obtain ⟨isk, hi, _⟩ := modInverse_some L.prime hsk
  obtain ⟨w, hw, _⟩ := modInverse_some L.prime hab
  rw [newInequalityProof, if_neg hne]
  simp only [L.sub_pe, Go.bind_ok]
  rw [newABCProof_rightABC L hash (A - B) (tA - tB) (a - b) w sk isk rnd hv0 hw hi]
  simp [rightABC]

/-! ## C145: what the proof tells about the values -/

/-- C145 is false with high probability on `TestCurve`: for all values that differ, keys, commitments, tokens and draws,
the published proof leaves at most 257 possible differences of the values, which an observer can test, with probability
at least 99 / 100. -/
theorem C145_refuted : ∃ cp, Curve.testCurve = .ok cp ∧
    ∀ (a b ra rb sk : Int) (A B PubKey tA tB : ECPoint) (rnd : ABCRand), ¬ (cp.C.N : Int) ∣ a - b →
      ¬ (cp.C.N : Int) ∣ sk → pedCommitR cp (some a) (some ra) = .ok A → pedCommitR cp (some b) (some rb) = .ok B →
      mult cp cp.H (some sk) = .ok PubKey → mult cp PubKey (some ra) = .ok tA → mult cp PubKey (some rb) = .ok tB →
      0 ≤ rnd.u3 ∧ rnd.u3 < cp.C.N →
      ∃ x : Bytes, ∀ S : Finset Bytes, x ∈ S → (99 / 100 : ℝ) ≤ prob fun f : S → Word =>
        ∃ pr, newInequalityProof (hashOf S f) cp A B tA tB a b sk rnd = .ok (some pr, none) ∧
          testValue cp 8 pr (a - b) = true ∧ (pr.B ≠ Zero → ∀ D : Finset Int,
            (∀ v ∈ D, 0 ≤ v ∧ v < cp.C.N ∧ testValue cp 8 pr v = true) → D.card ≤ 257) := by
  refine ⟨Curve.tc, Curve.testCurve_eq, fun a b ra rb sk A B PubKey tA tB rnd hab hsk h1 h2 h3 h4 h5 h6 => ?_⟩
  rw [Curve.lawful.pedCommitR_pe, Go.ok.injEq] at h1 h2
  subst h1 h2
  rw [Curve.lawful.H_pe, Curve.lawful.mult_pe, Go.ok.injEq, Curve.lawful.eff_h] at h3
  subst h3
  rw [Curve.lawful.mult_pe, Go.ok.injEq] at h4 h5
  subst h4 h5
  obtain ⟨x, hx⟩ := C87_value_probability Curve.lawful
    ((a • Curve.lawful.g + ra • Curve.lawful.hb) - (b • Curve.lawful.g + rb • Curve.lawful.hb))
    (ra • Curve.lawful.eff (sk • Curve.lawful.hb) - rb • Curve.lawful.eff (sk • Curve.lawful.hb)) (a - b) sk rnd 8
    h6 hab hsk
  refine ⟨x, fun S hS => le_trans ?_ ((hx S hS).trans (le_of_eq ?_))⟩
  · rw [perChal_testCurve]
    have h4 : (Curve.tc.C.N / 2 ^ 8 + 1) * 2 ≤ 2 ^ 249 + 2 := by decide +kernel
    have h5 : (((Curve.tc.C.N / 2 ^ 8 + 1 : ℕ) : ℝ) * (2 : ℕ)) ≤ 2 ^ 249 + 2 := by exact_mod_cast h4
    have h6 : (((Curve.tc.C.N / 2 ^ 8 + 1 : ℕ) : ℝ) * (2 : ℕ)) / 2 ^ 256 ≤ 1 / 100 := by
      rw [div_le_iff₀ (by positivity)]
      refine h5.trans ?_
      norm_num
    linarith
  · simp only [newInequalityProof_abc Curve.lawful _ _ _ _ _ a b sk rnd hab hsk]
    norm_num

/-- The hypotheses can be met. -/
example : ∃ A B PubKey tA tB, ¬ (Curve.tc.C.N : Int) ∣ 10 - 4 ∧ ¬ (Curve.tc.C.N : Int) ∣ 5 ∧
    pedCommitR Curve.tc (some 10) (some 3) = .ok A ∧ pedCommitR Curve.tc (some 4) (some 2) = .ok B ∧
    mult Curve.tc Curve.tc.H (some 5) = .ok PubKey ∧ mult Curve.tc PubKey (some 3) = .ok tA ∧
    mult Curve.tc PubKey (some 2) = .ok tB ∧ (0 : Int) ≤ 7 ∧ (7 : Int) < Curve.tc.C.N := by
  have hH : mult Curve.tc Curve.tc.H (some 5) = .ok (Curve.lawful.pe ((5 : Int) • Curve.lawful.eff Curve.lawful.h)) := by
    rw [Curve.lawful.H_pe]
    exact Curve.lawful.mult_pe _ _
  exact ⟨_, _, _, _, _, by decide +kernel, by decide +kernel, Curve.lawful.pedCommitR_pe _ _,
    Curve.lawful.pedCommitR_pe _ _, hH, Curve.lawful.mult_pe _ _, Curve.lawful.mult_pe _ _, by decide,
    by decide +kernel⟩

/-- C145, what holds: an inequality proof tells nothing about the values except their difference, and nothing about the
secret key beyond the public key.  When SHA-256 is a random function, someone who asks `q` questions before it gets the
proof cannot tell it from the output of a simulator that is given the difference of the values, of the commitments and
of the tokens and the public key, except with probability 33 (q + 1) / N.  Missing: the difference is revealed. -/
theorem C145_difference_partial (L : Lawful cp E) (hs : Small L) (A B tA tB : E) (a b ra rb sk : Int)
    (hcom : Committed L A B tA tB a b ra rb sk) (htok0 : tA - tB ≠ 0) (o : L.MultOk (tA - tB))
    (hab : ¬ (cp.C.N : Int) ∣ a - b) (hsk : ¬ (cp.C.N : Int) ∣ sk) (rnd : ABCRand) {σ : Type}
    (D1 : Adv σ) (D2 : σ → Go (Option ABCProof × Option Err) → Adv Bool) (q : Nat)
    (hq : ∀ h, D1.count h ≤ q) (S : Finset Bytes)
    (hS : ∀ (h : Bytes → Bytes) (u : Fin cp.C.N), askGo (abcAsk cp (L.pe (A - B)) (L.pe (tA - tB)))
      (newInequalityProof h cp (L.pe A) (L.pe B) (L.pe tA) (L.pe tB) a b sk { rnd with u2 := (u : Nat) }) ∈ S) :
    |(prob fun z : (S → Word) × Fin cp.C.N => realBit D1 D2
        (fun h => newInequalityProof h cp (L.pe A) (L.pe B) (L.pe tA) (L.pe tB) a b sk { rnd with u2 := (z.2 : Nat) })
        (hashOf S z.1) = true) -
      (prob fun z : (S → Word) × Fin cp.C.N × Word => simBit D1 D2
        (simKeyless (hashOf S z.1) cp (L.pe (A - B)) (L.pe (tA - tB)) (L.pe (sk • L.hb)) (a - b) rnd (z.2.1 : Nat)
          (chalOf cp.C.N z.2.2))
        (askGo (abcAsk cp (L.pe (A - B)) (L.pe (tA - tB))) (simKeyless (hashOf S z.1) cp (L.pe (A - B))
          (L.pe (tA - tB)) (L.pe (sk • L.hb)) (a - b) rnd (z.2.1 : Nat) (chalOf cp.C.N z.2.2)))
        (bytesOf z.2.2) (hashOf S z.1) = true)| ≤ 33 * (q + 1) / (cp.C.N : ℝ) := by
  obtain ⟨hA, hB, htA, htB⟩ := hcom
  rw [L.pedCommitR_pe, Go.ok.injEq, L.pe_inj] at hA hB
  simp only [newInequalityProof_abc L _ A B tA tB a b sk _ hab hsk] at hS ⊢
  exact C144_nonzero_partial L hs (A - B) (tA - tB) (a - b) (ra - rb) sk
    (by rw [L.pedCommitR_pe, ← hA, ← hB]; congr 2; module) (by rw [htA, htB]; module) htok0 o hab hsk rnd D1 D2 q hq S hS

/-- The hypotheses can be met: the values 3 and 1. -/
example : Small Toy.lawful ∧ Committed Toy.lawful 6 1 3 0 3 1 1 0 1 ∧ (3 - 0 : ZMod 7) ≠ 0 ∧
    Toy.lawful.MultOk (3 - 0) ∧ ¬ (Toy.params.C.N : Int) ∣ 3 - 1 ∧ ¬ (Toy.params.C.N : Int) ∣ 1 ∧
    (∀ h, (askOnce [7] id).count h ≤ 1) ∧
    ∃ S : Finset Bytes, ∀ (h : Bytes → Bytes) (u : Fin Toy.params.C.N),
      askGo (abcAsk Toy.params (Toy.lawful.pe (6 - 1)) (Toy.lawful.pe (3 - 0))) (newInequalityProof h Toy.params
        (Toy.lawful.pe 6) (Toy.lawful.pe 1) (Toy.lawful.pe 3) (Toy.lawful.pe 0) 3 1 1
        { (⟨1, 1, 1, 1, 1, 5, 1, 0⟩ : ABCRand) with u2 := (u : Nat) }) ∈ S := by
  have h2 : ¬ (Toy.params.C.N : Int) ∣ 3 - 1 := by decide
  have h1 : ¬ (Toy.params.C.N : Int) ∣ 1 := by decide
  refine ⟨?_, ⟨?_, ?_, by decide, by decide⟩, by decide, ?_, h2, h1, fun h => le_rfl, ?_⟩
  · intro a
    have : ∀ a : ZMod 7, (Toy.lawful.enc a).1 < 2 ^ 256 ∧ (Toy.lawful.enc a).2 < 2 ^ 256 := by decide
    exact this a
  · rw [Toy.lawful.pedCommitR_pe, Go.ok.injEq, Toy.lawful.pe_inj]; decide
  · rw [Toy.lawful.pedCommitR_pe, Go.ok.injEq, Toy.lawful.pe_inj]; decide
  · rw [sub_zero, Toy.lawful.multOk_iff_eff, Toy.eff_plain 3 (by decide)]
  · obtain ⟨w, hw, _⟩ := modInverse_some Toy.lawful.prime h2
    obtain ⟨i, hi, _⟩ := modInverse_some Toy.lawful.prime h1
    obtain ⟨S, hS⟩ := exists_strings fun u : Fin Toy.params.C.N => hashed ((outer Toy.lawful (6 - 1) (3 - 0) w
      { (⟨1, 1, 1, 1, 1, 5, 1, 0⟩ : ABCRand) with u2 := (u : Nat) }).map Toy.lawful.pe)
    refine ⟨S, fun h u => ?_⟩
    rw [newInequalityProof_abc Toy.lawful h 6 1 3 0 3 1 1 _ h2 h1,
      newABCProof_rightABC Toy.lawful h (6 - 1) (3 - 0) (3 - 1) w 1 i _ (by decide) hw hi]
    have := hS u
    simpa only [askGo, rightABC, abcAsk, outer, Toy.lawful.G_pe, Toy.lawful.H_pe, List.map_cons, List.map_nil] using this

/-! ## C50: false inequality proofs -/

/-- The points of the proof are points of the curve (specification; abc.go:44-55, disjunctive.go:45-53). -/
def PointsOnCurve (L : Lawful cp E) (p : Option ABCProof) : Prop :=
  ∃ pr d B C t1 t2 d1 d2, p = some pr ∧ pr.B = L.pe B ∧ pr.C = L.pe C ∧ pr.T1 = L.pe t1 ∧
    pr.T2 = L.pe t2 ∧ pr.disjuncAC = some d ∧ d.T1 = L.pe d1 ∧ d.T2 = L.pe d2

/-- What the provers of an accepted inequality proof for equal values know (specification; inequality.go:14-43): from the
proofs of the reruns one computes the secret key, or the logarithm of G to the base that `Mult` uses for H. -/
def FalseIneq (L : Lawful cp E) (κ : Int) (ra rb sk : Int) (P : Fin 3 → Option ABCProof) (p' : Option ABCProof) :
    Prop :=
  (∃ x ∈ leftLogs L (disjOf (P 0)) (disjOf p'), x ≡ sk [ZMOD cp.C.N]) ∨
    ∃ p q, p ≠ q ∧ ((∃ v ∈ jLogs L (P p) (P q), ∃ k ∈ kLogs L (P p) (P q), ¬ (cp.C.N : Int) ∣ v ∧
        L.g = (L.inv v * ((ra - rb) - k * ((ra - rb) * sk))) • L.hb) ∨
      ∃ ℓ ∈ lLogs L (P p) (P q), ∃ y ∈ rightLogs L (disjOf (P 0)) (disjOf p'), ∃ s1 s2 s3 : Int,
        |s1| ≤ 2 ∧ |s2| ≤ 1 ∧ |s3| ≤ 1 ∧ L.g = (L.inv (1 + s1 * κ) * -(s2 * y + s3 * ℓ)) • L.hb)

/-- C50, what holds with probabilities: whoever makes an accepted inequality proof for commitments to equal values, with
different blinding factors, knows the secret key or the logarithm of G to the base that `Mult` uses for H; one of the two is
found from the answers of four runs.  Missing: the holder of the key makes such proofs (`C50_forgery`), and points
that are not on the curve. -/
theorem C50_knowledge_partial (L : Lawful cp E) (hs : Small L) {κ : Int} (hκ : L.h = κ • L.g) (hf : FarLog cp.C.N κ)
    (A B tA tB : E) (a ra rb sk : Int) (hcom : Committed L A B tA tB a a ra rb sk) (hr : ¬ ra ≡ rb [ZMOD cp.C.N])
    (o1 : L.MultOk (A - B)) (o2 : L.MultOk (tA - tB))
    (P : Adv (Option ABCProof)) (q : Nat) (hq : ∀ h, P.count h ≤ q) (S : Finset Bytes)
    (hS : (abcAll cp (L.pe (A - B)) (L.pe (tA - tB)) P).asked bytesOf
      (abcLast cp (L.pe (A - B)) (L.pe (tA - tB))) ⊆ S) (ε δ : ℝ)
    (hδ : perChal cp.C.N / 2 ^ 256 ≤ δ) (hδ2 : 3 * perChal cp.C.N / 2 ^ 256 ≤ δ ^ 2)
    (hε : ε = prob fun f : S → Word => PointsOnCurve L (P.run (hashOf S f)) ∧
      inequalityVerify (hashOf S f) cp (P.run (hashOf S f)) (L.pe (A - B)) (L.pe (tA - tB)) = .ok accept) :
    (ε - (q + 2) * (33 ^ 8 + 33 ^ 6) * δ) *
        ((δ ^ 2 - 3 * perChal cp.C.N / 2 ^ 256) * (δ - perChal cp.C.N / 2 ^ 256)) ≤
      prob fun t : (S → Word) × (Fin 2 → S → Word) × (S → Word) =>
        FalseIneq L κ ra rb sk ![P.run (hashOf S t.1),
          abcRerun cp (L.pe (A - B)) (L.pe (tA - tB)) P S (abcAsk cp (L.pe (A - B)) (L.pe (tA - tB))) t.1 (t.2.1 0),
          abcRerun cp (L.pe (A - B)) (L.pe (tA - tB)) P S (abcAsk cp (L.pe (A - B)) (L.pe (tA - tB))) t.1 (t.2.1 1)]
          (abcRerun cp (L.pe (A - B)) (L.pe (tA - tB)) P S (abcInnerAsk cp (L.pe (A - B)) (L.pe (tA - tB))) t.1
            t.2.2) := by
  obtain ⟨hA, hB, htA, htB⟩ := hcom
  rw [L.pedCommitR_pe, Go.ok.injEq, L.pe_inj] at hA hB
  have hD : A - B = (ra - rb) • L.hb := by rw [← hA, ← hB]; module
  have hT : tA - tB = ((ra - rb) * sk) • L.hb := by rw [htA, htB]; module
  rw [L.multOk_iff_eff] at o1 o2
  have hr' : ¬ (cp.C.N : Int) ∣ ra - rb := fun h => hr (Int.modEq_iff_dvd.2 h).symm
  have hwin : ∀ f : S → Word, (PointsOnCurve L (P.run (hashOf S f)) ∧
      inequalityVerify (hashOf S f) cp (P.run (hashOf S f)) (L.pe (A - B)) (L.pe (tA - tB)) = .ok accept) ↔
      AbcWins L (A - B) (tA - tB) (P.run (hashOf S f)) (hashOf S f) := by
    intro f
    refine and_congr_right fun h => ?_
    obtain ⟨pr, _, _, _, _, _, _, _, hp, _⟩ := h
    rw [hp]
    rfl
  simp only [hwin] at hε
  refine (C141_abc_logarithm L hs hκ hf (A - B) (tA - tB) P q hq S hS ε δ hδ hδ2 hε).trans (prob_mono fun t ht => ?_)
  obtain ⟨p, q, hpq, v, hv, k, hk, e1, h⟩ := ht
  rw [o1, o2] at e1 h
  rcases h with ⟨x, hx, h⟩ | h | h
  · refine .inl ⟨x, hx, ?_⟩
    rw [hT, hD, smul_smul, L.smul_eq_smul L.hb_ne] at h
    have h2 : (cp.C.N : Int) ∣ (ra - rb) * (sk - x) := by
      have := Int.ModEq.dvd (Int.ModEq.symm h)
      rwa [show (ra - rb) * sk - x * (ra - rb) = (ra - rb) * (sk - x) by ring] at this
    exact Int.modEq_iff_dvd.2 (((prime_int L).dvd_or_dvd h2).resolve_left hr')
  · refine .inr ⟨p, q, hpq, .inl ⟨v, hv, k, hk, h, log_of L ?_ h⟩⟩
    rw [hT, hD] at e1
    linear_combination (norm := module) -e1
  · exact .inr ⟨p, q, hpq, .inr h⟩

/-- The hypotheses of `C50_knowledge_partial` can be met on every curve by a prover who always succeeds: the commitments
m H and 0 to the value 0, where m is the logarithm of G, and the key 1. -/
theorem falseIneq_example (L : Lawful cp E) : ∃ (A tA : E) (ra : Int), Committed L A 0 tA 0 0 0 ra 0 1 ∧
    ¬ ra ≡ 0 [ZMOD cp.C.N] ∧ L.MultOk (A - 0) ∧ L.MultOk (tA - 0) ∧
    ∃ (S : Finset Bytes) (P : Adv (Option ABCProof)), (∀ h, P.count h ≤ 2) ∧
      (abcAll cp (L.pe (A - 0)) (L.pe (tA - 0)) P).asked bytesOf (abcLast cp (L.pe (A - 0)) (L.pe (tA - 0))) ⊆ S ∧
      (prob fun f : S → Word => PointsOnCurve L (P.run (hashOf S f)) ∧
        inequalityVerify (hashOf S f) cp (P.run (hashOf S f)) (L.pe (A - 0)) (L.pe (tA - 0)) = .ok accept) = 1 := by
  have : Fact (Nat.card E).Prime := ⟨by rw [L.card]; exact L.prime⟩
  obtain ⟨m, hm⟩ := AddSubgroup.mem_zmultiples_iff.1
    (show L.g ∈ AddSubgroup.zmultiples L.hb from mem_zmultiples_of_prime_card (p := Nat.card E) rfl L.hb_ne)
  have hg : L.MultOk (L.g - 0) := by rw [sub_zero, L.multOk_iff_eff, L.eff_g]
  refine ⟨L.g, L.g, m, ⟨?_, ?_, ?_, by simp⟩, ?_, hg, hg, _, abcProver L, fun _ => le_rfl, subset_rfl,
    prob_one fun f => ?_⟩
  · rw [L.pedCommitR_pe, hm]; simp
  · rw [L.pedCommitR_pe]; simp
  · rw [mul_one, hm]
  · intro h
    refine L.g_ne ?_
    rw [← hm]
    exact (L.smul_eq_zero L.hb_ne).2 (Int.modEq_zero_iff_dvd.1 h)
  · simp only [sub_zero]
    exact abcProver_wins L _

example : ∃ κ, Curve.lawful.h = κ • Curve.lawful.g ∧ FarLog Curve.tc.C.N κ ∧ Small Curve.lawful :=
  ⟨_, Real.h_eq_smul, far_testCurve, small_testCurve⟩

end Zk.Rom
