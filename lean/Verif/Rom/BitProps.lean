import Verif.Rom.IneqProps

/-! # Property C157: the bit commitment of an ABC proof when SHA-256 is a random function -/

namespace Zk.Rom

open Zk Zk.Proto

variable {cp : Params} {E : Type} [AddCommGroup E]

/-- What four runs of a prover give for the point C of the first proof, if the commitment is v G + ua hb and the key sk
(specification; abc.go:19-28, 173-222): an opening of C to 0 if v is 0 modulo N, one of C - G to 0 otherwise, or the
logarithm of G to the base hb.  At the points where `Mult` is not scalar multiplication C and C - G are the ones that
`Mult` uses instead. -/
def BitRight (L : Lawful cp E) (v ua sk : Int) (P : Fin 3 → Option ABCProof) (p' : Option ABCProof) : Prop :=
  (∃ pr C, P 0 = some pr ∧ pr.C = L.pe C ∧
    (((cp.C.N : Int) ∣ v ∧ ∃ p q, p ≠ q ∧ ∃ r ∈ lLogs L (P p) (P q), L.eff C = r • L.hb ∨ L.eff C = (-r) • L.hb) ∨
     (¬ (cp.C.N : Int) ∣ v ∧ ∃ r ∈ rightLogs L (disjOf (P 0)) (disjOf p'), L.eff (C - L.g) = r • L.hb))) ∨
  (∃ p q, p ≠ q ∧ ∃ w ∈ jLogs L (P p) (P q), ∃ k ∈ kLogs L (P p) (P q),
    L.g = (L.inv (v - w) * ((k * sk - 1) * ua)) • L.hb) ∨
  ∃ x ∈ leftLogs L (disjOf (P 0)) (disjOf p'), L.g = (L.inv (x * v) * ((sk - x) * ua)) • L.hb

theorem bit_right (L : Lawful cp E) {v ua sk : Int} (hua : ¬ (cp.C.N : Int) ∣ ua) (hsk : ¬ (cp.C.N : Int) ∣ sk)
    (o1 : L.MultOk (v • L.g + ua • L.hb)) (o2 : L.MultOk ((ua * sk) • L.hb))
    {P : Fin 3 → Option ABCProof} {p' : Option ABCProof}
    (h1 : AbcOpened L (v • L.g + ua • L.hb) ((ua * sk) • L.hb) P)
    (h2 : AbcInnerOpened L (v • L.g + ua • L.hb) ((ua * sk) • L.hb) (P 0) p') : BitRight L v ua sk P p' := by
  rw [L.multOk_iff_eff] at o1 o2
  obtain ⟨pr, B, C, hP, -, hC, p, q, hpq, w, hw, k, hk, ℓ, hℓ, e1, e2⟩ := h1
  rw [o1, o2] at e1
  by_cases hvw : (cp.C.N : Int) ∣ v - w
  · by_cases hv : (cp.C.N : Int) ∣ v
    · refine .inl ⟨pr, C, hP, hC, .inl ⟨hv, p, q, hpq, ℓ, hℓ, ?_⟩⟩
      have hz : w • L.eff B = 0 := by
        obtain ⟨m, rfl⟩ : (cp.C.N : Int) ∣ w := by simpa using dvd_sub hv hvw
        rw [mul_comm, mul_smul, L.N_smul, smul_zero]
      rw [hz, zero_add] at e2
      rwa [neg_smul]
    · rcases h2 with ⟨x, hx, e3⟩ | ⟨pr', C', hP', hC', y, hy, e3⟩
      · rw [o1, o2] at e3
        refine .inr (.inr ⟨x, hx, log_of L ?_ fun hd => ?_⟩)
        · linear_combination (norm := module) -e3
        · have hd := ((prime_int L).dvd_or_dvd hd).resolve_right hv
          have h0 : (ua * sk) • L.hb = 0 := by
            obtain ⟨m, rfl⟩ := hd
            rw [e3, mul_comm, mul_smul, L.N_smul, smul_zero]
          exact ((prime_int L).dvd_or_dvd ((L.smul_eq_zero L.hb_ne).1 h0)).elim hua hsk
      · exact .inl ⟨pr', C', hP', hC', .inr ⟨hv, y, hy, e3⟩⟩
  · refine .inr (.inl ⟨p, q, hpq, w, hw, k, hk, log_of L ?_ hvw⟩)
    linear_combination (norm := module) e1

/-- C157, what holds with probabilities: if SHA-256 is a random function and the blinding factor is not 0 modulo N, then
whoever makes an accepted ABC proof of curve points for a commitment to v and its token knows an opening of C to 0 if v is 0
modulo N, and to 1 otherwise, or the logarithm of G to the base hb.  Missing: as for `C157_partial`. -/
theorem C157_knowledge_partial (L : Lawful cp E) (hs : Small L) (v ua sk : Int) (hua : ¬ (cp.C.N : Int) ∣ ua)
    (hsk : ¬ (cp.C.N : Int) ∣ sk) (cm tok : E) (hcm : pedCommitR cp (some v) (some ua) = .ok (L.pe cm))
    (htok : tok = (ua * sk) • L.hb) (o1 : L.MultOk cm) (o2 : L.MultOk tok)
    (A : Adv (Option ABCProof)) (q : Nat) (hq : ∀ h, A.count h ≤ q) (S : Finset Bytes)
    (hS : (abcAll cp (L.pe cm) (L.pe tok) A).asked bytesOf (abcLast cp (L.pe cm) (L.pe tok)) ⊆ S) (ε δ : ℝ)
    (hδ : perChal cp.C.N / 2 ^ 256 ≤ δ) (hδ2 : 3 * perChal cp.C.N / 2 ^ 256 ≤ δ ^ 2)
    (hε : ε = prob fun f : S → Word => PointsOnCurve L (A.run (hashOf S f)) ∧
      abcVerify (hashOf S f) cp (A.run (hashOf S f)) (L.pe cm) (L.pe tok) = .ok accept) :
    (ε - (q + 2) * (33 ^ 8 + 33 ^ 6) * δ) *
        ((δ ^ 2 - 3 * perChal cp.C.N / 2 ^ 256) * (δ - perChal cp.C.N / 2 ^ 256)) ≤
      prob fun t : (S → Word) × (Fin 2 → S → Word) × (S → Word) =>
        BitRight L v ua sk ![A.run (hashOf S t.1),
          abcRerun cp (L.pe cm) (L.pe tok) A S (abcAsk cp (L.pe cm) (L.pe tok)) t.1 (t.2.1 0),
          abcRerun cp (L.pe cm) (L.pe tok) A S (abcAsk cp (L.pe cm) (L.pe tok)) t.1 (t.2.1 1)]
          (abcRerun cp (L.pe cm) (L.pe tok) A S (abcInnerAsk cp (L.pe cm) (L.pe tok)) t.1 t.2.2) := by
  rw [L.pedCommitR_pe, Go.ok.injEq, L.pe_inj] at hcm
  have hp : (0 : ℝ) ≤ perChal cp.C.N / 2 ^ 256 := by positivity
  have h1 := C141_abc_knowledge L hs cm tok A q hq S hS ε δ (hp.trans hδ) hε
  have ha := sub_nonneg.2 hδ2
  have hb := sub_nonneg.2 hδ
  refine (mul_le_mul_of_nonneg_right h1 (mul_nonneg ha hb)).trans
    ((prob_two hb fun f hf => hf.2).trans (prob_mono fun t ht => ?_))
  subst htok
  subst hcm
  exact bit_right L hua hsk o1 o2 ht.2.1 ht.2.2

/-- The hypotheses of `C157_knowledge_partial` can be met on every curve by a prover who always succeeds: the commitment
m H to 0, where m is the logarithm of G, and the key 1. -/
example (L : Lawful cp E) : ∃ (cm tok : E) (ua : Int), ¬ (cp.C.N : Int) ∣ ua ∧ ¬ (cp.C.N : Int) ∣ 1 ∧
    pedCommitR cp (some 0) (some ua) = .ok (L.pe cm) ∧ tok = (ua * 1) • L.hb ∧ L.MultOk cm ∧ L.MultOk tok ∧
    ∃ (S : Finset Bytes) (A : Adv (Option ABCProof)), (∀ h, A.count h ≤ 2) ∧
      (abcAll cp (L.pe cm) (L.pe tok) A).asked bytesOf (abcLast cp (L.pe cm) (L.pe tok)) ⊆ S ∧
      (prob fun f : S → Word => PointsOnCurve L (A.run (hashOf S f)) ∧
        abcVerify (hashOf S f) cp (A.run (hashOf S f)) (L.pe cm) (L.pe tok) = .ok accept) = 1 := by
  have : Fact (Nat.card E).Prime := ⟨by rw [L.card]; exact L.prime⟩
  obtain ⟨m, hm⟩ := AddSubgroup.mem_zmultiples_iff.1
    (show L.g ∈ AddSubgroup.zmultiples L.hb from mem_zmultiples_of_prime_card (p := Nat.card E) rfl L.hb_ne)
  have hg : L.MultOk L.g := by rw [L.multOk_iff_eff, L.eff_g]
  refine ⟨L.g, L.g, m, fun h => L.g_ne ?_, fun h => ?_, ?_, by rw [mul_one, hm], hg, hg, _, abcProver L, fun _ => le_rfl,
    subset_rfl, prob_one fun f => abcProver_wins L _⟩
  · rw [← hm]
    exact (L.smul_eq_zero L.hb_ne).2 h
  · have h1 := Int.le_of_dvd one_pos h
    have h2 := L.five_lt
    omega
  · rw [L.pedCommitR_pe, hm]; simp

end Zk.Rom
