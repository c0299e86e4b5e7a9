import Verif.Audit.Model
import Verif.Proto.SigmaProps
import Verif.Proto.AbcSim
import Verif.Range.Pool

/-!
# Sums of commitments in the audit of averages
-/

namespace Zk.Audit

open Zk Zk.Proto

variable {cp : Params} {E : Type} [AddCommGroup E]

theorem claimBase_pe (L : Lawful cp E) (a : E) (n : Int) :
    claimBase cp (L.pe a) n = .ok (L.pe (a - n • L.g)) := by
  rw [claimBase, L.G_pe, L.mult_pe, Go.bind_ok, L.neg_pe, Go.bind_ok, L.add_pe, L.eff_g, sub_eq_add_neg]

/-- The four points of a transaction are on the curve (specification; crypto_test.go:125-129). -/
structure IsTx (L : Lawful cp E) (x : Etx) (cm tok c d : E) : Prop where
  CM : x.CM = L.pe cm
  CMTok : x.CMTok = L.pe tok
  ABCP : ∃ p, x.ABCP = some p ∧ p.C = L.pe c ∧ p.CToken = L.pe d

theorem totals_acc (L : Lawful cp E) {ι : Type} (l : List ι) (x : ι → Etx) (cm tok c d : ι → E)
    (h : ∀ i ∈ l, IsTx L (x i) (cm i) (tok i) (c i) (d i)) (a1 a2 a3 a4 : E) :
    (l.map x).foldlM (addTx cp) ⟨L.pe a1, L.pe a2, L.pe a3, L.pe a4⟩ =
      .ok ⟨L.pe ((l.map cm).sum + a1), L.pe ((l.map tok).sum + a2), L.pe ((l.map c).sum + a3),
        L.pe ((l.map d).sum + a4)⟩ := by
  induction l generalizing a1 a2 a3 a4 with
  | nil => simp
  | cons i l ih =>
    obtain ⟨h1, h2, p, h3, h4, h5⟩ := h i (by simp)
    have : addTx cp ⟨L.pe a1, L.pe a2, L.pe a3, L.pe a4⟩ (x i) =
        .ok ⟨L.pe (cm i + a1), L.pe (tok i + a2), L.pe (c i + a3), L.pe (d i + a4)⟩ := by
      simp only [addTx, h1, h2, h3, h4, h5, deref_some, L.add_pe, Go.bind_ok]
      rfl
    rw [List.map_cons, List.foldlM_cons, this, Go.bind_ok, ih (fun j hj => h j (by simp [hj]))]
    simp only [List.map_cons, List.sum_cons]
    refine congrArg Go.ok ?_
    congr 2 <;> abel

/-- The sums of transactions on the curve. -/
theorem totals_pe (L : Lawful cp E) {ι : Type} (l : List ι) (x : ι → Etx) (cm tok c d : ι → E)
    (h : ∀ i ∈ l, IsTx L (x i) (cm i) (tok i) (c i) (d i)) :
    totals cp (l.map x) = .ok ⟨L.pe (l.map cm).sum, L.pe (l.map tok).sum, L.pe (l.map c).sum,
      L.pe (l.map d).sum⟩ := by
  have := totals_acc L l x cm tok c d h 0 0 0 0
  rw [L.pe_zero] at this
  rw [totals, this]
  simp

theorem addTx_ok {t t' : Totals} {x : Etx} (h : addTx cp t x = .ok t') :
    add cp x.CM t.CM = .ok t'.CM ∧ add cp x.CMTok t.CMTok = .ok t'.CMTok ∧
    ∃ p, x.ABCP = some p ∧ add cp p.C t.C = .ok t'.C ∧ add cp p.CToken t.CTok = .ok t'.CTok := by
  rw [addTx] at h
  cases h1 : add cp x.CM t.CM with
  | ok a1 =>
    cases h2 : add cp x.CMTok t.CMTok with
    | ok a2 =>
      cases h3 : x.ABCP with
      | none => simp [h1, h2, h3, deref] at h
      | some p =>
        cases h4 : add cp p.C t.C with
        | ok a3 =>
          cases h5 : add cp p.CToken t.CTok with
          | ok a4 =>
            simp only [h1, h2, h3, h4, h5, deref_some, Go.bind_ok] at h
            cases h
            exact ⟨rfl, rfl, p, rfl, h4, h5⟩
          | _ => simp [h1, h2, h3, h4, h5, deref_some] at h
        | _ => simp [h1, h2, h3, h4, deref_some] at h
    | _ => simp [h1, h2] at h
  | _ => simp [h1] at h

/-- The first two sums, if only the commitments and their tokens are known to be on the curve. -/
theorem totals_value (L : Lawful cp E) {ι : Type} (l : List ι) (x : ι → Etx) (cm tok : ι → E)
    (h : ∀ i ∈ l, (x i).CM = L.pe (cm i) ∧ (x i).CMTok = L.pe (tok i)) (t : Totals)
    (ht : totals cp (l.map x) = .ok t) :
    t.CM = L.pe (l.map cm).sum ∧ t.CMTok = L.pe (l.map tok).sum := by
  have key : ∀ (l : List ι) (s : Totals) (a1 a2 : E), (∀ i ∈ l, (x i).CM = L.pe (cm i) ∧
      (x i).CMTok = L.pe (tok i)) → s.CM = L.pe a1 → s.CMTok = L.pe a2 →
      (l.map x).foldlM (addTx cp) s = .ok t →
      t.CM = L.pe ((l.map cm).sum + a1) ∧ t.CMTok = L.pe ((l.map tok).sum + a2) := by
    intro l
    induction l with
    | nil =>
      intro s a1 a2 _ h1 h2 h3
      cases h3
      simp [h1, h2]
    | cons i l ih =>
      intro s a1 a2 h h1 h2 h3
      rw [List.map_cons, List.foldlM_cons] at h3
      cases h4 : addTx cp s (x i) with
      | ok s' =>
        rw [h4, Go.bind_ok] at h3
        obtain ⟨e1, e2, _⟩ := addTx_ok h4
        obtain ⟨f1, f2⟩ := h i (by simp)
        rw [f1, h1, L.add_pe, Go.ok.injEq] at e1
        rw [f2, h2, L.add_pe, Go.ok.injEq] at e2
        obtain ⟨g1, g2⟩ := ih s' _ _ (fun j hj => h j (by simp [hj])) e1.symm e2.symm h3
        rw [g1, g2]
        simp only [List.map_cons, List.sum_cons]
        refine ⟨congrArg L.pe ?_, congrArg L.pe ?_⟩ <;> abel
      | _ => rw [h4] at h3; simp at h3
  have := key l ⟨Zero, Zero, Zero, Zero⟩ 0 0 h L.pe_zero.symm L.pe_zero.symm ht
  simpa using this

/-- The last two sums, if only the bit commitments and their tokens are known to be on the curve. -/
theorem totals_count (L : Lawful cp E) {ι : Type} (l : List ι) (x : ι → Etx) (c d : ι → E)
    (h : ∀ i ∈ l, ∃ p, (x i).ABCP = some p ∧ p.C = L.pe (c i) ∧ p.CToken = L.pe (d i)) (t : Totals)
    (ht : totals cp (l.map x) = .ok t) :
    t.C = L.pe (l.map c).sum ∧ t.CTok = L.pe (l.map d).sum := by
  have key : ∀ (l : List ι) (s : Totals) (a1 a2 : E), (∀ i ∈ l, ∃ p, (x i).ABCP = some p ∧
      p.C = L.pe (c i) ∧ p.CToken = L.pe (d i)) → s.C = L.pe a1 → s.CTok = L.pe a2 →
      (l.map x).foldlM (addTx cp) s = .ok t →
      t.C = L.pe ((l.map c).sum + a1) ∧ t.CTok = L.pe ((l.map d).sum + a2) := by
    intro l
    induction l with
    | nil =>
      intro s a1 a2 _ h1 h2 h3
      cases h3
      simp [h1, h2]
    | cons i l ih =>
      intro s a1 a2 h h1 h2 h3
      rw [List.map_cons, List.foldlM_cons] at h3
      cases h4 : addTx cp s (x i) with
      | ok s' =>
        rw [h4, Go.bind_ok] at h3
        obtain ⟨_, _, p', e0, e1, e2⟩ := addTx_ok h4
        obtain ⟨p, f0, f1, f2⟩ := h i (by simp)
        cases f0.symm.trans e0
        rw [f1, h1, L.add_pe, Go.ok.injEq] at e1
        rw [f2, h2, L.add_pe, Go.ok.injEq] at e2
        obtain ⟨g1, g2⟩ := ih s' _ _ (fun j hj => h j (by simp [hj])) e1.symm e2.symm h3
        rw [g1, g2]
        simp only [List.map_cons, List.sum_cons]
        refine ⟨congrArg L.pe ?_, congrArg L.pe ?_⟩ <;> abel
      | _ => rw [h4] at h3; simp at h3
  have := key l ⟨Zero, Zero, Zero, Zero⟩ 0 0 h L.pe_zero.symm L.pe_zero.symm ht
  simpa using this

/-- An accepted check of a claim. -/
theorem auditValue_iff (hash : Bytes → Bytes) (txs : List Etx) (PK : ECPoint) (T : Int)
    (p : Option EquivalenceProof) : auditValue hash cp txs PK T p = .ok true ↔
      ∃ t B1, totals cp txs = .ok t ∧ claimBase cp t.CM T = .ok B1 ∧
        equivalenceVerify hash cp p B1 t.CMTok cp.H PK = .ok accept := by
  rw [auditValue]
  cases h1 : totals cp txs with
  | ok t =>
    cases h2 : claimBase cp t.CM T with
    | ok B1 =>
      cases h3 : equivalenceVerify hash cp p B1 t.CMTok cp.H PK with
      | ok r =>
        obtain ⟨b, e⟩ := r
        simp only [Go.bind_ok, h2, h3]
        cases e <;> simp [accept, h2, h3]
      | _ => simp [h2, h3]
    | _ => simp [h2]
  | _ => simp

theorem auditCount_iff (hash : Bytes → Bytes) (txs : List Etx) (PK : ECPoint) (n : Int)
    (p : Option EquivalenceProof) : auditCount hash cp txs PK n p = .ok true ↔
      ∃ t B1, totals cp txs = .ok t ∧ claimBase cp t.C n = .ok B1 ∧
        equivalenceVerify hash cp p B1 t.CTok cp.H PK = .ok accept := by
  rw [auditCount]
  cases h1 : totals cp txs with
  | ok t =>
    cases h2 : claimBase cp t.C n with
    | ok B1 =>
      cases h3 : equivalenceVerify hash cp p B1 t.CTok cp.H PK with
      | ok r =>
        obtain ⟨b, e⟩ := r
        simp only [Go.bind_ok, h2, h3]
        cases e <;> simp [accept, h2, h3]
      | _ => simp [h2, h3]
    | _ => simp [h2]
  | _ => simp

theorem auditor_iff (hash : Bytes → Bytes) (txs : List Etx) (PK : ECPoint) (n T : Int)
    (p1 p2 : Option EquivalenceProof) : auditor hash cp txs PK n T p1 p2 = .ok true ↔
      auditCount hash cp txs PK n p1 = .ok true ∧ auditValue hash cp txs PK T p2 = .ok true := by
  rw [auditor]
  cases h : auditCount hash cp txs PK n p1 with
  | ok b => cases b <;> simp
  | _ => simp

/-- The right prover, with the token of the bit commitment. -/
theorem newABCProof_right_token (L : Lawful cp E) (hash : Bytes → Bytes) (cm tok : E) (v sk : Int)
    (rnd : ABCRand) (hv : ¬ (cp.C.N : Int) ∣ v) (hsk : ¬ (cp.C.N : Int) ∣ sk) :
    ∃ p, newABCProof hash cp (L.pe cm) (L.pe tok) v sk Right rnd = .ok (some p, none) ∧
      p.C = L.pe (L.g + rnd.uc • L.hb) ∧ p.CToken = L.pe (rnd.uc • L.eff (sk • L.hb)) := by
  obtain ⟨isk, hi, _⟩ := modInverse_some L.prime hsk
  obtain ⟨w, hw, _⟩ := modInverse_some L.prime hv
  have hv0 : v ≠ 0 := by rintro rfl; exact hv (dvd_zero _)
  have hsame : L.same (rnd.uc • L.eff L.h) (rnd.uc • L.hb) = true := by rw [L.eff_h, L.same_self]
  have e : L.g + rnd.uc • L.hb - L.g = rnd.uc • L.hb := by abel
  have h : newABCProof hash cp (L.pe cm) (L.pe tok) v sk Right rnd =
      finishABC hash cp (L.pe cm) (L.pe tok) v sk rnd (L.pe (w • L.g + rnd.ub • L.hb))
        (L.pe (L.g + rnd.uc • L.hb)) (L.pe (rnd.uc • L.eff (sk • L.hb)))
        (some (rightProof L hash cm tok L.h (rnd.uc • L.hb) rnd.uc rnd.d1 rnd.d2 rnd.d3)) := by
    simp only [newABCProof, L.H_pe, L.mult_pe, L.eff_h, Go.bind_ok, and_false, if_false, Ne, hv0,
      not_false_eq_true, and_self, if_true, hw, L.pedCommitR_pe, one_smul, L.G_pe, L.sub_pe, e,
      newDisjunctiveProof_right L hash cm tok L.h (rnd.uc • L.hb) rnd.uc rnd.d1 rnd.d2 rnd.d3 hsame,
      Option.isSome_none, Bool.false_eq_true]
  rw [L.finishABC_pe _ _ _ _ _ _ _ _ _ _ _ hi] at h
  exact ⟨_, h, rfl, rfl⟩

/-- One honest transaction. -/
theorem makeTx_pe (L : Lawful cp E) (hash : Bytes → Bytes) (sk : Int) (e : Entry)
    (hv : ¬ (cp.C.N : Int) ∣ e.value) (hsk : ¬ (cp.C.N : Int) ∣ sk) (o : L.MultOk (sk • L.hb)) :
    ∃ x, makeTx hash cp (L.pe (sk • L.hb)) sk e = .ok x ∧
      IsTx L x (e.value • L.g + e.r • L.hb) ((e.r * sk) • L.hb) (L.g + e.rnd.uc • L.hb)
        ((e.rnd.uc * sk) • L.hb) := by
  obtain ⟨p, h1, h2, h3⟩ := newABCProof_right_token L hash (e.value • L.g + e.r • L.hb)
    ((e.r * sk) • L.hb) e.value sk e.rnd hv hsk
  rw [L.multOk_iff_eff] at o
  refine ⟨⟨L.pe (e.value • L.g + e.r • L.hb), L.pe ((e.r * sk) • L.hb), some p⟩, ?_, rfl, rfl, p, rfl, h2, ?_⟩
  · simp only [makeTx, pedCommit, L.pedCommitR_pe, Go.bind_ok, L.mult_pe, o, ← mul_smul, Go.pure_eq]
    rw [h1, Go.bind_ok]
  · rw [h3, o, mul_smul]

/-- The honest transactions. -/
theorem makeTxs_pe (L : Lawful cp E) (hash : Bytes → Bytes) (sk : Int) (es : List Entry)
    (hv : ∀ e ∈ es, ¬ (cp.C.N : Int) ∣ e.value) (hsk : ¬ (cp.C.N : Int) ∣ sk) (o : L.MultOk (sk • L.hb)) :
    ∃ x : Entry → Etx, makeTxs hash cp (L.pe (sk • L.hb)) sk es = .ok (es.map x) ∧
      ∀ e ∈ es, IsTx L (x e) (e.value • L.g + e.r • L.hb) ((e.r * sk) • L.hb) (L.g + e.rnd.uc • L.hb)
        ((e.rnd.uc * sk) • L.hb) := by
  have : Nonempty Etx := ⟨⟨Zero, Zero, none⟩⟩
  choose! x hx using fun e (he : ¬ (cp.C.N : Int) ∣ e.value) => makeTx_pe L hash sk e he hsk o
  exact ⟨x, mapM_ok_iff _ _ _ fun e he => (hx e (hv e he)).1, fun e he => (hx e (hv e he)).2⟩

end Zk.Audit
