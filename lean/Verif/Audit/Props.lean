import Verif.Audit.Lemmas
import Verif.Proto.MoreProps
import Verif.Rom.CompleteProps
import Verif.Real.RangePoints
import Verif.Real.Props
import Verif.Real.Forge

/-!
# Properties C149 to C151: the audit of averages
-/

namespace Zk.Audit

open Zk Zk.Proto Zk.Rom

variable {cp : Params} {E : Type} [AddCommGroup E]

theorem _root_.Zk.Proto.Lawful.smul_zero_left (_ : Lawful cp E) (a : E) : (0 : Int) • a = 0 := zero_smul _ _

theorem _root_.Zk.Proto.Lawful.smul_one_left (_ : Lawful cp E) (a : E) : (1 : Int) • a = a := one_smul _ _

theorem _root_.Zk.Proto.Lawful.add_zero_smul (_ : Lawful cp E) (a b : E) : a + (0 : Int) • b = a := by
  rw [zero_smul, add_zero]

/-! ## C149 -/

/-- C149, what holds: for any number of transactions with values that are not 0 modulo N, the bank's part succeeds for
the true number of transactions and the true sum, and the auditor accepts, if `Mult` is scalar multiplication at the
key, at the two bases and at the two results.  Missing: draws for which it is not. -/
theorem C149_audit_completeness_partial (L : Lawful cp E) (hash : Bytes → Bytes) (sk : Int) (es : List Entry)
    (u1 u2 : Int) (hsk : ¬ (cp.C.N : Int) ∣ sk) (hv : ∀ e ∈ es, ¬ (cp.C.N : Int) ∣ e.value)
    (o : L.MultOk (sk • L.hb))
    (o1 : L.MultOk ((es.map (·.rnd.uc)).sum • L.hb)) (o2 : L.MultOk (((es.map (·.rnd.uc)).sum * sk) • L.hb))
    (o3 : L.MultOk ((es.map (·.r)).sum • L.hb)) (o4 : L.MultOk (((es.map (·.r)).sum * sk) • L.hb)) :
    ∃ PK txs p1 p2, publicKey cp sk = .ok PK ∧ makeTxs hash cp PK sk es = .ok txs ∧
      bankAudit hash cp txs PK sk es.length (es.map (·.value)).sum u1 u2 = .ok (some p1, some p2, none) ∧
      auditor hash cp txs PK es.length (es.map (·.value)).sum (some p1) (some p2) = .ok true := by
  obtain ⟨x, hx, ht⟩ := makeTxs_pe L hash sk es hv hsk o
  have htot := totals_pe L es x _ _ _ _ ht
  have e1 : ((es.map fun e => L.g + e.rnd.uc • L.hb).sum) - (es.length : Int) • L.g =
      (es.map (·.rnd.uc)).sum • L.hb := by
    clear * -
    induction es with
    | nil => simp
    | cons e es ih =>
      simp only [List.map_cons, List.sum_cons, List.length_cons, add_smul]
      rw [← ih]; push_cast; module
  have e2 : ((es.map fun e => e.value • L.g + e.r • L.hb).sum) - (es.map (·.value)).sum • L.g =
      (es.map (·.r)).sum • L.hb := by
    clear * -
    induction es with
    | nil => simp
    | cons e es ih =>
      simp only [List.map_cons, List.sum_cons, add_smul]
      rw [← ih]; module
  have e3 : ∀ f : Entry → Int, (es.map fun e => (f e * sk) • L.hb).sum = ((es.map f).sum * sk) • L.hb := by
    clear * -
    intro f
    induction es with
    | nil => simp
    | cons e es ih => simp only [List.map_cons, List.sum_cons, ih, add_mul, add_smul]
  rw [e3, e3 fun e => e.rnd.uc] at htot
  have m : ∀ a : Int, L.MultOk (a • L.hb) →
      mult cp (L.pe (a • L.hb)) (some sk) = .ok (L.pe ((a * sk) • L.hb)) := by
    intro a ha
    rw [ha, ← mul_smul, mul_comm]
  have mh : mult cp (L.pe L.h) (some sk) = .ok (L.pe (sk • L.hb)) := by rw [L.mult_pe, L.eff_h]
  obtain ⟨p1, n1, v1⟩ := C32_completeness_partial L hash _ _ _ _ sk u1 (m _ o1) mh o2 o
  obtain ⟨p2, n2, v2⟩ := C32_completeness_partial L hash _ _ _ _ sk u2 (m _ o3) mh o4 o
  refine ⟨L.pe (sk • L.hb), _, p1, p2, by rw [publicKey, L.H_pe, mh], hx, ?_, ?_⟩
  · simp only [bankAudit, htot, Go.bind_ok, claimBase_pe L, e1, e2, L.H_pe, n1, n2]
    rfl
  · rw [auditor_iff, auditCount_iff, auditValue_iff]
    refine ⟨⟨_, _, htot, claimBase_pe L _ _, ?_⟩, ⟨_, _, htot, claimBase_pe L _ _, ?_⟩⟩
    · rw [e1, L.H_pe]; exact v1
    · rw [e2, L.H_pe]; exact v2

/-- Three transactions on the curve of order 7. -/
example : let es : List Entry := [⟨5, 1, ⟨1, 2, 3, 4, 5, 6, 0, 1⟩⟩, ⟨2, 6, ⟨0, 3, 3, 4, 5, 6, 0, 1⟩⟩,
      ⟨1, 1, ⟨1, 3, 3, 4, 5, 6, 0, 1⟩⟩]
    ¬ (Toy.params.C.N : Int) ∣ 1 ∧ (∀ e ∈ es, ¬ (Toy.params.C.N : Int) ∣ e.value) ∧
    Toy.lawful.MultOk ((1 : Int) • Toy.lawful.hb) ∧
    Toy.lawful.MultOk ((es.map (·.rnd.uc)).sum • Toy.lawful.hb) ∧
    Toy.lawful.MultOk (((es.map (·.rnd.uc)).sum * 1) • Toy.lawful.hb) ∧
    Toy.lawful.MultOk ((es.map (·.r)).sum • Toy.lawful.hb) ∧
    Toy.lawful.MultOk (((es.map (·.r)).sum * 1) • Toy.lawful.hb) := by
  simp only [Toy.lawful.multOk_iff_eff]
  exact ⟨by decide, by decide, Toy.eff_plain _ (by decide), Toy.eff_plain _ (by decide),
    Toy.eff_plain _ (by decide), Toy.eff_plain _ (by decide), Toy.eff_plain _ (by decide)⟩

/-- C149, what holds: if the blinding factor and the number uc of one of the transactions are drawn uniformly, whatever
the other draws are, the audit succeeds except with probability 12 / N.  Missing: these draws, and the three keys at
which `Mult` is not scalar multiplication. -/
theorem C149_probability_partial (L : Lawful cp E) (hash : Bytes → Bytes) (sk : Int) (e : Entry) (es : List Entry)
    (u1 u2 : Int) (hsk : ¬ (cp.C.N : Int) ∣ sk) (hv : ∀ e' ∈ e :: es, ¬ (cp.C.N : Int) ∣ e'.value)
    (o : L.MultOk (sk • L.hb)) :
    1 - 12 / (cp.C.N : ℝ) ≤ prob fun z : Fin cp.C.N × Fin cp.C.N => ∃ PK txs p1 p2,
      publicKey cp sk = .ok PK ∧
      makeTxs hash cp PK sk (⟨e.value, (z.1 : Nat), { e.rnd with uc := (z.2 : Nat) }⟩ :: es) = .ok txs ∧
      bankAudit hash cp txs PK sk (es.length + 1) (e.value + (es.map (·.value)).sum) u1 u2 =
        .ok (some p1, some p2, none) ∧
      auditor hash cp txs PK (es.length + 1) (e.value + (es.map (·.value)).sum) (some p1) (some p2) = .ok true := by
  have : Nonempty (Fin cp.C.N) := ⟨⟨0, L.prime.pos⟩⟩
  have hN : (0 : ℝ) < cp.C.N := Nat.cast_pos.2 L.prime.pos
  have hc : sk • L.hb ≠ 0 := fun h => hsk ((L.smul_eq_zero L.hb_ne).1 h)
  have hp : ∀ a c : E, c ≠ 0 → (prob fun b : Fin cp.C.N => ¬ L.MultOk (a + ((b : Nat) : Int) • c)) ≤ 3 / cp.C.N := by
    intro a c hc
    rw [prob, Fintype.card_fin]
    exact div_le_div_of_nonneg_right (num_special L a c hc) hN.le
  have h3 : (0 : ℝ) ≤ 3 / cp.C.N := by positivity
  set U := (es.map (·.rnd.uc)).sum
  set R := (es.map (·.r)).sum
  have q1 : (prob fun z : Fin cp.C.N × Fin cp.C.N => ¬ L.MultOk (U • L.hb + ((z.2 : Nat) : Int) • L.hb)) ≤
      3 / cp.C.N := prob_rows h3 fun _ => hp _ _ L.hb_ne
  have q2 : (prob fun z : Fin cp.C.N × Fin cp.C.N =>
      ¬ L.MultOk ((U * sk) • L.hb + ((z.2 : Nat) : Int) • (sk • L.hb))) ≤ 3 / cp.C.N :=
    prob_rows h3 fun _ => hp _ _ hc
  have q3 : (prob fun z : Fin cp.C.N × Fin cp.C.N => ¬ L.MultOk (R • L.hb + ((z.1 : Nat) : Int) • L.hb)) ≤
      3 / cp.C.N := prob_cols h3 fun _ => hp _ _ L.hb_ne
  have q4 : (prob fun z : Fin cp.C.N × Fin cp.C.N =>
      ¬ L.MultOk ((R * sk) • L.hb + ((z.1 : Nat) : Int) • (sk • L.hb))) ≤ 3 / cp.C.N :=
    prob_cols h3 fun _ => hp _ _ hc
  have q := prob_union (fun _ h => h) q1 (prob_union (fun _ h => h) q2 (prob_union (fun _ h => h) q3 q4))
  refine prob_not ?_ (q.trans (le_of_eq (by ring)))
  intro z hz
  simp only [not_or, not_not] at hz
  obtain ⟨o1, o2, o3, o4⟩ := hz
  have hv' : ∀ e' ∈ (⟨e.value, (z.1 : Nat), { e.rnd with uc := (z.2 : Nat) }⟩ : Entry) :: es,
      ¬ (cp.C.N : Int) ∣ e'.value := by
    intro e' he'
    rcases List.mem_cons.1 he' with rfl | h
    · exact hv e (by simp)
    · exact hv e' (by simp [h])
  have key := C149_audit_completeness_partial L hash sk _ u1 u2 hsk hv' o
    (by convert o1 using 1; simp only [List.map_cons, List.sum_cons]; module)
    (by convert o2 using 1; simp only [List.map_cons, List.sum_cons]; module)
    (by convert o3 using 1; simp only [List.map_cons, List.sum_cons]; module)
    (by convert o4 using 1; simp only [List.map_cons, List.sum_cons]; module)
  simpa using key

/-- The blinding factor with which the commitments add up to H, once the values are taken away: the bank's part
fails. -/
theorem C149_refused (L : Lawful cp E) (hash : Bytes → Bytes) (r sk v u1 u2 : Int) (hr : r • L.hb = L.h)
    (o' : L.hb ≠ L.h ∧ L.hb ≠ -L.h) (hsk : ¬ (cp.C.N : Int) ∣ sk) (hv : ¬ (cp.C.N : Int) ∣ v)
    (o : L.MultOk (sk • L.hb)) : ∃ PK txs p1 err, publicKey cp sk = .ok PK ∧
      makeTxs hash cp PK sk [⟨v, r, ⟨0, 0, 0, 0, 0, 0, 0, 0⟩⟩] = .ok txs ∧
      bankAudit hash cp txs PK sk 1 v u1 u2 = .ok (p1, none, some err) := by
  obtain ⟨x, hx, ht⟩ := makeTxs_pe L hash sk [⟨v, r, ⟨0, 0, 0, 0, 0, 0, 0, 0⟩⟩] (by simpa using hv) hsk o
  have htot := totals_pe L _ x _ _ _ _ ht
  have mh : mult cp (L.pe L.h) (some sk) = .ok (L.pe (sk • L.hb)) := by rw [L.mult_pe, L.eff_h]
  have m0 : mult cp (L.pe 0) (some sk) = .ok (L.pe 0) := by rw [L.mult_pe, L.eff_zero, smul_zero]
  obtain ⟨p1, n1, _⟩ := C32_completeness_partial L hash _ _ _ _ sk u1 m0 mh
    ((L.multOk_iff_eff _).2 L.eff_zero) o
  obtain ⟨err, n2⟩ := C33_refuses L hash L.h (sk • L.h) L.h (sk • L.hb) _ _ sk u2 mh mh (.inl (by
    have key : ∀ a : E, sk • L.h = sk • a → L.h = a := by
      intro a h
      rw [← sub_eq_zero, ← smul_sub] at h
      by_contra hne
      exact hsk ((L.smul_eq_zero (sub_ne_zero.2 hne)).1 h)
    refine ⟨fun h => o'.1 (key _ h).symm, fun h => o'.2 ?_⟩
    rw [key (-L.hb) (by rw [h, smul_neg]), neg_neg]))
  have e1 : L.g + (0 : Int) • L.hb - (1 : Int) • L.g = 0 := by module
  have e2 : v • L.g + r • L.hb - v • L.g = L.h := by rw [hr]; abel
  have e3 : (r * sk) • L.hb = sk • L.h := by rw [mul_comm, mul_smul, hr]
  have e4 : ((0 : Int) * sk) • L.hb = 0 := by rw [zero_mul, zero_smul]
  simp only [List.map_cons, List.map_nil, List.sum_cons, List.sum_nil, add_zero, e3, e4] at htot
  refine ⟨L.pe (sk • L.hb), _, some p1, err, by rw [publicKey, L.H_pe, mh], hx, ?_⟩
  simp only [bankAudit, List.map_cons, List.map_nil, htot, Go.bind_ok, claimBase_pe L, e1, e2, L.H_pe, n1, n2]
  rfl

theorem exists_log (L : Lawful cp E) (a b : E) (ha : a ≠ 0) : ∃ r : Int, r • a = b := by
  have hp : Fact cp.C.N.Prime := ⟨L.prime⟩
  have hc : Nat.card E = cp.C.N := L.card
  have : b ∈ AddSubgroup.zmultiples a := mem_zmultiples_of_prime_card (p := cp.C.N) hc ha
  exact AddSubgroup.mem_zmultiples_iff.1 this

/-- C149, false on `TestCurve`: there are a key, a value and a blinding factor with which the bank of the test cannot
make the proof of the sum, for every hash function and whatever `NewEquivalenceProof` draws. -/
theorem C149_refuted (hash : Bytes → Bytes) : ∃ cp, Curve.testCurve = .ok cp ∧ ∃ r : Int, ∀ u1 u2,
    ∃ PK txs p1 err, publicKey cp 1 = .ok PK ∧
      makeTxs hash cp PK 1 [⟨5, r, ⟨0, 0, 0, 0, 0, 0, 0, 0⟩⟩] = .ok txs ∧
      bankAudit hash cp txs PK 1 1 5 u1 u2 = .ok (p1, none, some err) := by
  obtain ⟨r, hr⟩ := exists_log Curve.lawful Curve.lawful.hb Curve.lawful.h Curve.lawful.hb_ne
  refine ⟨Curve.tc, Curve.testCurve_eq, r, fun u1 u2 => ?_⟩
  exact C149_refused Curve.lawful hash r 1 5 u1 u2 hr Curve.Hb_ne_H (by decide +kernel) (by decide +kernel)
    (by rw [Curve.lawful.smul_one_left]; exact Real.multOk_Hb)

/-! ## C150 -/

/-- C150, false on every curve: whatever the transactions and the claimed number are, the bank changes the token of one
ABC proof, which no verifier looks at, and then makes a proof of the claimed number with `NewEquivalenceProof` that the
auditor accepts.  All ABC proofs are accepted as before. -/
theorem C150_any_number (L : Lawful cp E) (hash : Bytes → Bytes) (sk n u : Int) (x : Etx) (p : ABCProof)
    (xs : List Etx) (cm tok c d : Etx → E) (hx : x.ABCP = some p)
    (h : ∀ y ∈ x :: xs, IsTx L y (cm y) (tok y) (c y) (d y)) (o : L.MultOk (sk • L.hb))
    (o1 : L.MultOk (((x :: xs).map c).sum - n • L.g)) (o2 : L.MultOk (sk • (((x :: xs).map c).sum - n • L.g))) :
    ∃ T p', let x' : Etx := { x with ABCP := some { p with CToken := T } }
      (∀ f : Bytes → Bytes, abcVerify f cp x'.ABCP x'.CM x'.CMTok = abcVerify f cp x.ABCP x.CM x.CMTok) ∧
      auditCount hash cp (x' :: xs) (L.pe (sk • L.hb)) n (some p') = .ok true ∧
      ∃ t B1, totals cp (x' :: xs) = .ok t ∧ claimBase cp t.C n = .ok B1 ∧
        newEquivalenceProof hash cp B1 t.CTok cp.H (L.pe (sk • L.hb)) sk u = .ok (some p', none) := by
  set B := ((x :: xs).map c).sum - n • L.g with hB
  set D := sk • B - (xs.map d).sum with hD
  set x' : Etx := { x with ABCP := some { p with CToken := L.pe D } } with hx'
  obtain ⟨f1, f2, p0, f3, f4, f5⟩ := h x (by simp)
  cases hx.symm.trans f3
  have htot : totals cp (x' :: xs) =
      .ok ⟨L.pe ((x :: xs).map cm).sum, L.pe ((x :: xs).map tok).sum, L.pe ((x :: xs).map c).sum, L.pe (sk • B)⟩ := by
    have k1 : addTx cp ⟨Zero, Zero, Zero, Zero⟩ x' = .ok ⟨L.pe (cm x), L.pe (tok x), L.pe (c x), L.pe D⟩ := by
      simp only [addTx, hx', f1, f2, f4, deref_some, ← L.pe_zero, L.add_pe, Go.bind_ok, add_zero]
      rfl
    have k2 := totals_acc L xs id cm tok c d (fun y hy => h y (by simp [hy])) (cm x) (tok x) (c x) D
    rw [List.map_id] at k2
    rw [totals, List.foldlM_cons, k1, Go.bind_ok, k2]
    simp only [List.map_cons, List.sum_cons]
    refine congrArg Go.ok ?_
    congr 2
    · abel
    · abel
    · abel
    · rw [hD]; abel
  have m1 : mult cp (L.pe B) (some sk) = .ok (L.pe (sk • B)) := o1 sk
  have mh : mult cp (L.pe L.h) (some sk) = .ok (L.pe (sk • L.hb)) := by rw [L.mult_pe, L.eff_h]
  obtain ⟨p', n1, v1⟩ := C32_completeness_partial L hash _ _ _ _ sk u m1 mh o2 o
  refine ⟨L.pe D, p', ?_, ?_, ?_⟩
  · intro f
    have := (C121_shift f cp 0 0 0).2.2.2.2.1 p x.CM x.CMTok (L.pe D)
    simp only [hx, zero_mul, add_zero, Option.map_id'] at this ⊢
    exact this
  · rw [auditCount_iff]
    exact ⟨_, _, htot, claimBase_pe L _ _, by rw [L.H_pe]; exact v1⟩
  · exact ⟨_, _, htot, claimBase_pe L _ _, by rw [L.H_pe]; exact n1⟩

/-- One honest transaction, and a claim of three. -/
theorem C150_three (L : Lawful cp E) (hash : Bytes → Bytes) (o : L.MultOk L.hb) (o1 : L.MultOk ((-2 : Int) • L.g)) :
    ∃ PK x p T p', publicKey cp 1 = .ok PK ∧
    makeTx hash cp PK 1 ⟨1, 0, ⟨0, 0, 0, 0, 0, 0, 0, 0⟩⟩ = .ok x ∧ x.ABCP = some p ∧
    abcVerify hash cp (some { p with CToken := T }) x.CM x.CMTok = .ok accept ∧
    auditCount hash cp [{ x with ABCP := some { p with CToken := T } }] PK 3 (some p') = .ok true := by
  have hsk : ¬ (cp.C.N : Int) ∣ 1 := fun h => by
    have h1 := Int.le_of_dvd one_pos h
    have h2 := L.five_lt
    omega
  rw [← one_smul Int L.hb] at o
  obtain ⟨x, hx, ht⟩ := makeTx_pe L hash 1 ⟨1, 0, ⟨0, 0, 0, 0, 0, 0, 0, 0⟩⟩ hsk hsk o
  obtain ⟨f1, f2, p, f3, f4, f5⟩ := id ht
  have e0 : L.g + (0 : Int) • L.hb - (3 : Int) • L.g = (-2 : Int) • L.g := by module
  have og : L.MultOk L.g := (L.multOk_iff_eff _).2 L.eff_g
  have o0 : ∀ a : E, L.MultOk ((0 : Int) • a) := fun a => by
    rw [zero_smul]; exact (L.multOk_iff_eff _).2 L.eff_zero
  obtain ⟨T, p', h1, h2, _⟩ := C150_any_number L hash 1 3 0 x p [] (fun _ => _) (fun _ => _)
    (fun _ => L.g + (0 : Int) • L.hb) (fun _ => _) f3
    (fun y hy => by rw [List.mem_singleton.1 hy]; exact ht) o
    (by simpa only [List.map_cons, List.map_nil, List.sum_cons, List.sum_nil, add_zero, e0] using o1)
    (by simpa only [List.map_cons, List.map_nil, List.sum_cons, List.sum_nil, add_zero, e0, one_smul] using o1)
  have hv : abcVerify hash cp x.ABCP x.CM x.CMTok = .ok accept := by
    obtain ⟨q, n1, v1⟩ := C45_completeness_right_partial L hash ((1 : Int) • L.g + (0 : Int) • L.hb)
      (((0 : Int) * 1) • L.hb) 1 1 0 1 ⟨0, 0, 0, 0, 0, 0, 0, 0⟩ (L.pedCommitR_pe _ _) rfl hsk (by rfl)
      (by rw [zero_smul, one_smul, add_zero]; exact og) (by rw [zero_mul]; exact o0 _) (o0 _)
      (by rw [zero_smul, one_smul, add_zero]; exact og) (by rw [zero_smul, add_zero]; exact og)
    have hm : x.ABCP = q := by
      have hpc : pedCommit cp 1 0 = .ok (L.pe ((1 : Int) • L.g + (0 : Int) • L.hb), 0) := by
        rw [pedCommit, L.pedCommitR_pe]; rfl
      have hmu : mult cp (L.pe ((1 : Int) • L.hb)) (some 0) = .ok (L.pe (((0 : Int) * 1) • L.hb)) := by
        rw [o, zero_smul, zero_mul, zero_smul]
      simp only [makeTx, hpc, hmu, Go.bind_ok, n1] at hx
      cases hx
      rfl
    rw [f1, f2, hm]
    exact v1
  refine ⟨L.pe ((1 : Int) • L.hb), x, p, T, p', ?_, hx, f3, ?_, h2⟩
  · rw [publicKey, L.H_pe, L.mult_pe, L.eff_h]
  · rw [← hv]
    exact h1 hash

/-- C150, false on `TestCurve`: with one transaction, made as in the test, and its token changed, the auditor accepts
that there are three, and the ABC proof is accepted; for every hash function. -/
theorem C150_refuted (hash : Bytes → Bytes) : ∃ cp, Curve.testCurve = .ok cp ∧ ∃ PK x p T p',
    publicKey cp 1 = .ok PK ∧ makeTx hash cp PK 1 ⟨1, 0, ⟨0, 0, 0, 0, 0, 0, 0, 0⟩⟩ = .ok x ∧ x.ABCP = some p ∧
    abcVerify hash cp (some { p with CToken := T }) x.CM x.CMTok = .ok accept ∧
    auditCount hash cp [{ x with ABCP := some { p with CToken := T } }] PK 3 (some p') = .ok true :=
  ⟨Curve.tc, Curve.testCurve_eq, C150_three Curve.lawful hash Real.multOk_Hb
    (Real.multOk_log (by decide +kernel) (by decide +kernel) (by decide +kernel))⟩

/-- What an equivalence proof of a claim says: commitments that add up to V G + R hb with tokens that add up to S times
the key, and the claim T. -/
theorem claim_false (L : Lawful cp E) (sk V R S T : Int) (hT : ¬ (cp.C.N : Int) ∣ V - T)
    (hsk : ¬ (cp.C.N : Int) ∣ sk)
    (hlog : ∀ e : Int, e = 1 ∨ e = -1 → L.g ≠ (L.inv (V - T) * (e * S - R)) • L.hb)
    (o1 : L.MultOk ((V - T) • L.g + R • L.hb)) (o2 : L.MultOk ((S * sk) • L.hb)) (o3 : L.MultOk (sk • L.hb)) :
    ¬ ∃ x, RelatedUpToSign L ((V - T) • L.g + R • L.hb) ((S * sk) • L.hb) L.h (sk • L.hb) x := by
  rintro ⟨x, h1, h2⟩
  rw [L.multOk_iff_eff] at o1 o2 o3
  rw [o1, o2] at h1
  rw [o3, L.eff_h] at h2
  obtain ⟨e, he, hx⟩ : ∃ e : Int, (e = 1 ∨ e = -1) ∧ (cp.C.N : Int) ∣ x - e * sk := by
    rcases h2 with h2 | h2
    · refine ⟨1, .inl rfl, (L.smul_eq_zero L.hb_ne).1 ?_⟩
      rw [sub_smul, one_mul, ← h2, sub_self]
    · refine ⟨-1, .inr rfl, (L.smul_eq_zero L.hb_ne).1 ?_⟩
      rw [sub_smul, neg_one_mul, neg_smul, h2, neg_neg, sub_self]
  have he2 : e * e = 1 := by rcases he with rfl | rfl <;> rfl
  have h3 : ∀ a : E, x • a = (e * sk) • a := by
    intro a
    obtain ⟨m, hm⟩ := hx
    rw [show x = e * sk + m * cp.C.N by linear_combination hm, add_smul, mul_smul m, L.N_smul, smul_zero, add_zero]
  rw [h3] at h1
  have h4 : sk • ((V - T) • L.g - (e * S - R) • L.hb) = 0 := by
    have h5 := congrArg (fun a => e • a) h1
    simp only [← mul_smul, ← mul_assoc, he2, one_mul] at h5
    linear_combination (norm := module) -h5
  have h6 : (V - T) • L.g = (e * S - R) • L.hb := by
    by_contra hne
    exact hsk ((L.smul_eq_zero (sub_ne_zero.2 hne)).1 h4)
  refine hlog e he ?_
  rw [mul_smul, ← h6, L.inv_smul hT]

theorem sum_open (L : Lawful cp E) {ι : Type} (l : List ι) (v r : ι → Int) (T : Int) :
    (l.map fun i => v i • L.g + r i • L.hb).sum - T • L.g =
      ((l.map v).sum - T) • L.g + (l.map r).sum • L.hb := by
  induction l with
  | nil => simp [neg_smul]
  | cons i l ih =>
    simp only [List.map_cons, List.sum_cons]
    linear_combination (norm := module) ih

theorem sum_token (L : Lawful cp E) {ι : Type} (l : List ι) (s : ι → Int) (sk : Int) :
    (l.map fun i => (s i * sk) • L.hb).sum = ((l.map s).sum * sk) • L.hb := by
  induction l with
  | nil => simp
  | cons i l ih => simp only [List.map_cons, List.sum_cons, ih, add_mul, add_smul]

/-- C150, what holds: for transactions whose bit commitments are b G + r hb and whose tokens are s times the key, with
numbers that the bank knows, no bank that asks at most `q` questions to a random SHA-256 has a number other than the
sum of the bits accepted with more than a negligible probability, unless one of two numbers that its openings give is
the logarithm of G to the base hb.  Missing: tokens that are not known multiples of the key, since the proofs do not
cover them, and sums at which `Mult` is not scalar multiplication. -/
theorem C150_count_sound_partial (L : Lawful cp E) (hs : Small L) (sk n : Int) {ι : Type} (l : List ι) (x : ι → Etx)
    (b r s : ι → Int)
    (h : ∀ i ∈ l, ∃ p, (x i).ABCP = some p ∧ p.C = L.pe (b i • L.g + r i • L.hb) ∧
      p.CToken = L.pe ((s i * sk) • L.hb))
    (hn : ¬ (cp.C.N : Int) ∣ (l.map b).sum - n) (hsk : ¬ (cp.C.N : Int) ∣ sk)
    (hlog : ∀ e : Int, e = 1 ∨ e = -1 →
      L.g ≠ (L.inv ((l.map b).sum - n) * (e * (l.map s).sum - (l.map r).sum)) • L.hb)
    (o1 : L.MultOk (((l.map b).sum - n) • L.g + (l.map r).sum • L.hb))
    (o2 : L.MultOk (((l.map s).sum * sk) • L.hb)) (o3 : L.MultOk (sk • L.hb))
    (A : Adv (Option EquivalenceProof)) (q : Nat) (hq : ∀ h, A.count h ≤ q) (S : Finset Bytes)
    (hS : A.asked bytesOf (equivalenceAsk (L.pe (((l.map b).sum - n) • L.g + (l.map r).sum • L.hb))
      (L.pe (((l.map s).sum * sk) • L.hb)) (L.pe L.h) (L.pe (sk • L.hb))) ⊆ S) :
    (prob fun f : S → Word => (∃ pr t1 t2, A.run (hashOf S f) = some pr ∧ pr.UG = L.pe t1 ∧ pr.UH = L.pe t2) ∧
      auditCount (hashOf S f) cp (l.map x) (L.pe (sk • L.hb)) n (A.run (hashOf S f)) = .ok true) ≤
      (q + 1) * (71874 * perChal cp.C.N) / 2 ^ 256 := by
  refine (prob_mono ?_).trans (C134_equivalence_sound L hs _ _ _ _
    (claim_false L sk _ _ _ n hn hsk hlog o1 o2 o3) A q hq S hS)
  rintro f ⟨h1, h2⟩
  refine ⟨h1, ?_⟩
  obtain ⟨t, B1, ht, hB, hv⟩ := (auditCount_iff ..).1 h2
  obtain ⟨e1, e2⟩ := totals_count L l x _ _ h t ht
  rw [e1, claimBase_pe, Go.ok.injEq, sum_open] at hB
  rw [← hB, e2, sum_token, L.H_pe] at hv
  exact hv

/-- One transaction on `TestCurve` with the bit 1, and the claim 3. -/
example : ∃ x : Etx, (∃ p, x.ABCP = some p ∧ p.C = Curve.lawful.pe ((1 : Int) • Curve.lawful.g + (0 : Int) • Curve.lawful.hb) ∧
      p.CToken = Curve.lawful.pe (((0 : Int) * 1) • Curve.lawful.hb)) ∧
    ¬ (Curve.tc.C.N : Int) ∣ (1 - 3 : Int) ∧ ¬ (Curve.tc.C.N : Int) ∣ 1 ∧
    (∀ e : Int, e = 1 ∨ e = -1 → Curve.lawful.g ≠ (Curve.lawful.inv (1 - 3) * (e * 0 - 0)) • Curve.lawful.hb) ∧
    Curve.lawful.MultOk ((1 - 3 : Int) • Curve.lawful.g + (0 : Int) • Curve.lawful.hb) ∧
    Curve.lawful.MultOk (((0 : Int) * 1) • Curve.lawful.hb) ∧ Curve.lawful.MultOk ((1 : Int) • Curve.lawful.hb) :=
  ⟨⟨Zero, Zero, some { emptyABC with C := _, CToken := _ }⟩, ⟨_, rfl, rfl, rfl⟩, by decide +kernel, by decide +kernel,
    fun e _ h => by
      rw [mul_zero, sub_zero, mul_zero, Curve.lawful.smul_zero_left] at h
      exact Curve.lawful.g_ne h,
    by
      rw [Curve.lawful.add_zero_smul]
      exact Real.multOk_log (by decide +kernel) (by decide +kernel) (by decide +kernel),
    by rw [zero_mul, Curve.lawful.smul_zero_left]; exact Real.multOk_zero,
    by rw [Curve.lawful.smul_one_left]; exact Real.multOk_Hb⟩

/-! ## C151 -/

/-- C151, what holds: for transactions whose commitments are v G + r hb and whose tokens are s times the key, with
numbers that the bank knows, no bank that asks at most `q` questions to a random SHA-256 has a sum other than that of
the values accepted with more than a negligible probability, unless one of two numbers that its openings give is the
logarithm of G to the base hb.  Missing: sums at which `Mult` is not scalar multiplication. -/
theorem C151_value_sound_partial (L : Lawful cp E) (hs : Small L) (sk T : Int) {ι : Type} (l : List ι) (x : ι → Etx)
    (v r s : ι → Int)
    (h : ∀ i ∈ l, (x i).CM = L.pe (v i • L.g + r i • L.hb) ∧ (x i).CMTok = L.pe ((s i * sk) • L.hb))
    (hT : ¬ (cp.C.N : Int) ∣ (l.map v).sum - T) (hsk : ¬ (cp.C.N : Int) ∣ sk)
    (hlog : ∀ e : Int, e = 1 ∨ e = -1 →
      L.g ≠ (L.inv ((l.map v).sum - T) * (e * (l.map s).sum - (l.map r).sum)) • L.hb)
    (o1 : L.MultOk (((l.map v).sum - T) • L.g + (l.map r).sum • L.hb))
    (o2 : L.MultOk (((l.map s).sum * sk) • L.hb)) (o3 : L.MultOk (sk • L.hb))
    (A : Adv (Option EquivalenceProof)) (q : Nat) (hq : ∀ h, A.count h ≤ q) (S : Finset Bytes)
    (hS : A.asked bytesOf (equivalenceAsk (L.pe (((l.map v).sum - T) • L.g + (l.map r).sum • L.hb))
      (L.pe (((l.map s).sum * sk) • L.hb)) (L.pe L.h) (L.pe (sk • L.hb))) ⊆ S) :
    (prob fun f : S → Word => (∃ pr t1 t2, A.run (hashOf S f) = some pr ∧ pr.UG = L.pe t1 ∧ pr.UH = L.pe t2) ∧
      auditValue (hashOf S f) cp (l.map x) (L.pe (sk • L.hb)) T (A.run (hashOf S f)) = .ok true) ≤
      (q + 1) * (71874 * perChal cp.C.N) / 2 ^ 256 := by
  refine (prob_mono ?_).trans (C134_equivalence_sound L hs _ _ _ _
    (claim_false L sk _ _ _ T hT hsk hlog o1 o2 o3) A q hq S hS)
  rintro f ⟨h1, h2⟩
  refine ⟨h1, ?_⟩
  obtain ⟨t, B1, ht, hB, hv⟩ := (auditValue_iff ..).1 h2
  obtain ⟨e1, e2⟩ := totals_value L l x _ _ h t ht
  rw [e1, claimBase_pe, Go.ok.injEq, sum_open] at hB
  rw [← hB, e2, sum_token, L.H_pe] at hv
  exact hv

/-- One transaction on `TestCurve` with the value 3, and the claim 1. -/
example : ∃ x : Etx, (x.CM = Curve.lawful.pe ((3 : Int) • Curve.lawful.g + (0 : Int) • Curve.lawful.hb) ∧
      x.CMTok = Curve.lawful.pe (((0 : Int) * 1) • Curve.lawful.hb)) ∧
    ¬ (Curve.tc.C.N : Int) ∣ (3 - 1 : Int) ∧ ¬ (Curve.tc.C.N : Int) ∣ 1 ∧
    (∀ e : Int, e = 1 ∨ e = -1 → Curve.lawful.g ≠ (Curve.lawful.inv (3 - 1) * (e * 0 - 0)) • Curve.lawful.hb) ∧
    Curve.lawful.MultOk ((3 - 1 : Int) • Curve.lawful.g + (0 : Int) • Curve.lawful.hb) ∧
    Curve.lawful.MultOk (((0 : Int) * 1) • Curve.lawful.hb) ∧ Curve.lawful.MultOk ((1 : Int) • Curve.lawful.hb) :=
  ⟨⟨_, _, none⟩, ⟨rfl, rfl⟩, by decide +kernel, by decide +kernel,
    fun e _ h => by
      rw [mul_zero, sub_zero, mul_zero, Curve.lawful.smul_zero_left] at h
      exact Curve.lawful.g_ne h,
    by
      rw [Curve.lawful.add_zero_smul]
      exact Real.multOk_log (by decide +kernel) (by decide +kernel) (by decide +kernel),
    by rw [zero_mul, Curve.lawful.smul_zero_left]; exact Real.multOk_zero,
    by rw [Curve.lawful.smul_one_left]; exact Real.multOk_Hb⟩

/-- A program of an attacker, which uses what the library offers: a transaction whose token has the sign `e`, with an
ABC proof made by `NewABCProof` for the key with that sign, and a consistency proof for which the sign does not matter
(specification; for the verifiers of consistency.go:91-133 and abc.go:173-222). -/
def signedTx (hash : Bytes → Bytes) (cp : Params) (PK : ECPoint) (sk e v r u1 u2 : Int) (rnd : ABCRand) :
    Go (Etx × ConsistencyProof) := do
  let CM ← pedCommitR cp (some v) (some r)
  let CMTok ← mult cp PK (some (e * r))
  let a ← newABCProof hash cp CM CMTok v (e * sk) Right rnd
  let T1 ← pedCommitR cp (some u1) (some u2)
  let T2 ← mult cp PK (some (e * u2))
  let c ← challengeOf hash cp [cp.G, cp.H, CM, CMTok, PK, T1, T2]
  pure (⟨CM, CMTok, a.1⟩, ⟨T1, T2, some c, some (u1 + c * v), some (u2 + c * r)⟩)

theorem signedTx_ok (L : Lawful cp E) (hash : Bytes → Bytes) (sk e v r u1 u2 : Int) (rnd : ABCRand) (w : Int)
    (he : e = 1 ∨ e = -1) (hsk : ¬ (cp.C.N : Int) ∣ sk) (hw : w * v ≡ 1 [ZMOD cp.C.N])
    (o : L.MultOk (sk • L.hb)) (o1 : L.MultOk (v • L.g + r • L.hb)) (o2 : L.MultOk ((e * r * sk) • L.hb))
    (o3 : L.MultOk (rnd.uc • L.hb)) (o4 : L.MultOk (w • L.g + rnd.ub • L.hb))
    (o5 : L.MultOk (L.g + rnd.uc • L.hb)) :
    ∃ x pc, signedTx hash cp (L.pe (sk • L.hb)) sk e v r u1 u2 rnd = .ok (x, pc) ∧
      x.CM = L.pe (v • L.g + r • L.hb) ∧ x.CMTok = L.pe ((e * r * sk) • L.hb) ∧
      (∃ p, x.ABCP = some p ∧ ∃ c d, p.C = L.pe c ∧ p.CToken = L.pe d) ∧
      consistencyVerify hash cp (some pc) x.CM x.CMTok (L.pe (sk • L.hb)) = .ok accept ∧
      abcVerify hash cp x.ABCP x.CM x.CMTok = .ok accept := by
  have hesk : ¬ (cp.C.N : Int) ∣ e * sk := by
    rcases he with rfl | rfl
    · rwa [one_mul]
    · rwa [neg_one_mul, dvd_neg]
  have hv : ¬ (cp.C.N : Int) ∣ v := by
    intro h
    have h1 : (w * v) % (cp.C.N : Int) = 0 := Int.emod_eq_zero_of_dvd (Dvd.dvd.mul_left h w)
    have h2 : (1 : Int) % cp.C.N = 1 := Int.emod_eq_of_lt (by decide) (by have := L.five_lt; omega)
    rw [Int.ModEq, h1, h2] at hw
    omega
  have ht : (e * r * sk) • L.hb = (r * (e * sk)) • L.hb := by rw [mul_comm e r, mul_assoc]
  obtain ⟨pa, n1, v1⟩ := C45_completeness_right_partial L hash (v • L.g + r • L.hb) ((e * r * sk) • L.hb) v w r (e * sk)
    rnd (L.pedCommitR_pe _ _) ht hesk hw o1 o2 o3 o4 o5
  obtain ⟨p, g1, g2, g3⟩ := newABCProof_right_token L hash (v • L.g + r • L.hb) ((e * r * sk) • L.hb) v (e * sk) rnd
    hv hesk
  rw [g1, Go.ok.injEq, Prod.mk.injEq] at n1
  have hm : ∀ a : Int, mult cp (L.pe (sk • L.hb)) (some a) = .ok (L.pe ((a * sk) • L.hb)) := by
    intro a; rw [o, ← mul_smul]
  refine ⟨_, _, by
    simp only [signedTx, L.pedCommitR_pe, hm, Go.bind_ok, g1, L.G_pe, L.H_pe, L.challengeOf₇]
    rfl, rfl, rfl, ⟨p, rfl, _, _, g2, g3⟩, ?_, ?_⟩
  · rw [L.multOk_iff_eff] at o o1 o2
    rw [L.consistencyVerify_iff, L.same_iff, L.same_iff, o, o1, o2]
    refine ⟨rfl, .inl (by module), ?_⟩
    rcases he with rfl | rfl
    · left; module
    · right; module
  · rw [n1.1]; exact v1

/-- The attack: two transactions with the signs 1 and -1 and the blinding factors a and -a, where 2 a = 1 modulo N.  The
commitments add up to (v1 + v2) G and the tokens to the key, so that the claim v1 + v2 - k, with H = k G, has the base H
and the result PK: the proof made with `NewEquivalenceProof` for (H, PK), (H, PK). -/
theorem C151_forged (L : Lawful cp E) (hash : Bytes → Bytes) (k : Int) (hk : L.h = k • L.g) (a : Int)
    (ha : (2 : Int) * a ≡ 1 [ZMOD cp.C.N]) (sk v1 v2 w1 w2 u1 u2 u3 u4 u : Int) (rnd1 rnd2 : ABCRand)
    (hsk : ¬ (cp.C.N : Int) ∣ sk) (hw1 : w1 * v1 ≡ 1 [ZMOD cp.C.N]) (hw2 : w2 * v2 ≡ 1 [ZMOD cp.C.N])
    (o : L.MultOk (sk • L.hb)) (oa : L.MultOk ((a * sk) • L.hb))
    (o1 : L.MultOk (v1 • L.g + a • L.hb)) (o2 : L.MultOk (v2 • L.g + (-a) • L.hb))
    (o3 : L.MultOk (rnd1.uc • L.hb)) (o4 : L.MultOk (w1 • L.g + rnd1.ub • L.hb))
    (o5 : L.MultOk (L.g + rnd1.uc • L.hb)) (o6 : L.MultOk (rnd2.uc • L.hb))
    (o7 : L.MultOk (w2 • L.g + rnd2.ub • L.hb)) (o8 : L.MultOk (L.g + rnd2.uc • L.hb)) :
    ∃ PK x1 c1 x2 c2 p, publicKey cp sk = .ok PK ∧
      signedTx hash cp PK sk 1 v1 a u1 u2 rnd1 = .ok (x1, c1) ∧
      signedTx hash cp PK sk (-1) v2 (-a) u3 u4 rnd2 = .ok (x2, c2) ∧
      consistencyVerify hash cp (some c1) x1.CM x1.CMTok PK = .ok accept ∧
      consistencyVerify hash cp (some c2) x2.CM x2.CMTok PK = .ok accept ∧
      abcVerify hash cp x1.ABCP x1.CM x1.CMTok = .ok accept ∧
      abcVerify hash cp x2.ABCP x2.CM x2.CMTok = .ok accept ∧
      newEquivalenceProof hash cp cp.H PK cp.H PK sk u = .ok (some p, none) ∧
      auditValue hash cp [x1, x2] PK (v1 + v2 - k) (some p) = .ok true := by
  obtain ⟨x1, c1, r1, s1, t1, ⟨p1, q1, b1, d1, y1, z1⟩, cv1, av1⟩ := signedTx_ok L hash sk 1 v1 a u1 u2 rnd1 w1
    (.inl rfl) hsk hw1 o o1 (by rwa [one_mul]) o3 o4 o5
  obtain ⟨x2, c2, r2, s2, t2, ⟨p2, q2, b2, d2, y2, z2⟩, cv2, av2⟩ := signedTx_ok L hash sk (-1) v2 (-a) u3 u4 rnd2 w2
    (.inr rfl) hsk hw2 o o2 (by rwa [neg_mul_neg, one_mul]) o6 o7 o8
  have mh : mult cp (L.pe L.h) (some sk) = .ok (L.pe (sk • L.hb)) := by rw [L.mult_pe, L.eff_h]
  obtain ⟨p, n1, w⟩ := C32_completeness_partial L hash L.h L.h _ _ sk u mh mh o o
  refine ⟨L.pe (sk • L.hb), x1, c1, x2, c2, p, by rw [publicKey, L.H_pe, mh], r1, r2, cv1, cv2, av1, av2,
    by rw [L.H_pe]; exact n1, ?_⟩
  rw [auditValue_iff]
  have e1 : (v2 • L.g + (-a) • L.hb) + (v1 • L.g + a • L.hb) - (v1 + v2 - k) • L.g = L.h := by
    rw [hk]; module
  have e2 : (-1 * -a * sk) • L.hb + (1 * a * sk) • L.hb = sk • L.hb := by
    have h1 : (2 * a) • sk • L.hb = sk • L.hb := by rw [L.smul_congr ha, one_smul]
    linear_combination (norm := module) h1
  refine ⟨⟨L.pe ((v2 • L.g + (-a) • L.hb) + (v1 • L.g + a • L.hb)), L.pe (sk • L.hb), L.pe (b2 + b1),
    L.pe (d2 + d1)⟩, L.pe L.h, ?_, ?_, ?_⟩
  · simp only [totals, List.foldlM_cons, List.foldlM_nil, addTx, s1, t1, q1, y1, z1, s2, t2, q2, y2, z2, deref_some,
      ← L.pe_zero, L.add_pe, Go.bind_ok, add_zero, Go.pure_eq, e2]
  · rw [claimBase_pe, e1]
  · rw [L.H_pe]; exact w

/-- There is a number, not 0 modulo N, for which `Mult` is scalar multiplication at all of some points. -/
theorem exists_multOk (L : Lawful cp E) (l : List (E × E)) (hl : ∀ p ∈ l, p.2 ≠ 0) (hN : 3 * l.length + 1 < cp.C.N) :
    ∃ z : Int, ¬ (cp.C.N : Int) ∣ z ∧ ∀ p ∈ l, L.MultOk (p.1 + z • p.2) := by
  have h1 : ∀ l : List (E × E), (∀ p ∈ l, p.2 ≠ 0) →
      (num fun b : Fin cp.C.N => ∃ p ∈ l, ¬ L.MultOk (p.1 + ((b : Nat) : Int) • p.2)) ≤ 3 * l.length := by
    intro l
    induction l with
    | nil =>
      intro _
      classical
      rw [num_eq]
      simp
    | cons p l ih =>
      intro hl
      refine (num_mono (Q := fun b : Fin cp.C.N => ¬ L.MultOk (p.1 + ((b : Nat) : Int) • p.2) ∨
        ∃ p ∈ l, ¬ L.MultOk (p.1 + ((b : Nat) : Int) • p.2)) ?_).trans (num_or.trans ?_)
      · rintro b ⟨p', hp', h⟩
        rcases List.mem_cons.1 hp' with rfl | hp'
        · exact .inl h
        · exact .inr ⟨p', hp', h⟩
      · have := num_special L p.1 p.2 (hl p (by simp))
        have := ih fun p' hp' => hl p' (by simp [hp'])
        rw [List.length_cons]
        push_cast
        linarith
  by_contra hcon
  push Not at hcon
  have h2 : (num fun _ : Fin cp.C.N => True) ≤ 1 + 3 * l.length := by
    refine (num_mono (Q := fun b : Fin cp.C.N => ((b : Nat) : Int) = 0 ∨
      ∃ p ∈ l, ¬ L.MultOk (p.1 + ((b : Nat) : Int) • p.2)) ?_).trans (num_or.trans (add_le_add ?_ (h1 l hl)))
    · intro b _
      by_cases hb : ((b : Nat) : Int) = 0
      · exact .inl hb
      · refine .inr (hcon _ fun hd => hb ?_)
        exact Int.eq_zero_of_dvd_of_nonneg_of_lt (by omega) (by have := b.2; omega) hd
    · exact num_le_one fun x y hx hy => Fin.ext (by omega)
  have h3 : (num fun _ : Fin cp.C.N => True) = cp.C.N := by
    rw [num_eq]; simp
  rw [h3] at h2
  have h4 : cp.C.N ≤ 1 + 3 * l.length := by exact_mod_cast h2
  omega

/-- The attack can be made on every curve on which the logarithm of H to the base G is known. -/
theorem C151_attack (L : Lawful cp E) (hash : Bytes → Bytes) (k : Int) (hk : L.h = k • L.g) (hN : 7 < cp.C.N) :
    ∃ sk v1 v2 a rnd1 rnd2 PK x1 c1 x2 c2 p, publicKey cp sk = .ok PK ∧
      signedTx hash cp PK sk 1 v1 a 0 0 rnd1 = .ok (x1, c1) ∧
      signedTx hash cp PK sk (-1) v2 (-a) 0 0 rnd2 = .ok (x2, c2) ∧
      consistencyVerify hash cp (some c1) x1.CM x1.CMTok PK = .ok accept ∧
      consistencyVerify hash cp (some c2) x2.CM x2.CMTok PK = .ok accept ∧
      abcVerify hash cp x1.ABCP x1.CM x1.CMTok = .ok accept ∧
      abcVerify hash cp x2.ABCP x2.CM x2.CMTok = .ok accept ∧
      newEquivalenceProof hash cp cp.H PK cp.H PK sk 0 = .ok (some p, none) ∧
      auditValue hash cp [x1, x2] PK (v1 + v2 - k) (some p) = .ok true := by
  have h2 : ¬ (cp.C.N : Int) ∣ 2 := fun h => by have := Int.le_of_dvd two_pos h; omega
  have ha : (2 : Int) * L.inv 2 ≡ 1 [ZMOD cp.C.N] := by rw [mul_comm]; exact L.inv_mul h2
  have hahb : L.inv 2 • L.hb ≠ 0 := by
    intro h0
    have h1 : (2 * L.inv 2) • L.hb = L.hb := by rw [L.smul_congr ha, one_smul]
    rw [mul_smul, h0, smul_zero] at h1
    exact L.hb_ne h1.symm
  obtain ⟨sk, hsk, osk⟩ := exists_multOk L [(0, L.hb), (0, L.inv 2 • L.hb)]
    (by simpa using ⟨L.hb_ne, hahb⟩) (by simpa using hN)
  have ov : ∀ b : E, ∃ v : Int, ¬ (cp.C.N : Int) ∣ v ∧ L.MultOk (v • L.g + b) := by
    intro b
    obtain ⟨v, hv, h⟩ := exists_multOk L [(b, L.g)] (by simpa using L.g_ne) (by simp; omega)
    exact ⟨v, hv, by rw [add_comm]; exact h (b, L.g) (by simp)⟩
  have ou : ∀ b : E, ∃ v : Int, L.MultOk (b + v • L.hb) := by
    intro b
    obtain ⟨v, _, h⟩ := exists_multOk L [(b, L.hb)] (by simpa using L.hb_ne) (by simp; omega)
    exact ⟨v, h (b, L.hb) (by simp)⟩
  obtain ⟨v1, hv1, o1⟩ := ov (L.inv 2 • L.hb)
  obtain ⟨v2, hv2, o2⟩ := ov ((-L.inv 2) • L.hb)
  obtain ⟨b1, o3⟩ := ou (L.inv v1 • L.g)
  obtain ⟨b2, o4⟩ := ou (L.inv v2 • L.g)
  have og : L.MultOk L.g := (L.multOk_iff_eff _).2 L.eff_g
  have o0 : L.MultOk (0 : E) := (L.multOk_iff_eff _).2 L.eff_zero
  refine ⟨sk, v1, v2, L.inv 2, ⟨0, 0, 0, b1, 0, 0, 0, 0⟩, ⟨0, 0, 0, b2, 0, 0, 0, 0⟩, ?_⟩
  refine C151_forged L hash k hk (L.inv 2) ha sk v1 v2 (L.inv v1) (L.inv v2) 0 0 0 0 0 _ _ hsk (L.inv_mul hv1)
    (L.inv_mul hv2) ?_ ?_ o1 o2 ?_ o3 ?_ ?_ o4 ?_
  · have := osk (0, L.hb) (by simp)
    rwa [zero_add] at this
  · have := osk (0, L.inv 2 • L.hb) (by simp)
    rwa [zero_add, ← mul_smul, mul_comm] at this
  · simpa using o0
  · simpa using og
  · simpa using o0
  · simpa using og

/-- C151, false on `TestCurve`: an auditor who also verifies all consistency and ABC proofs accepts a sum that is not
the sum of the values, from a bank that uses the programs above, for every hash function.  The bank gets
0x94e3…7134, modulo N, for nothing. -/
theorem C151_refuted (hash : Bytes → Bytes) : ∃ cp, Curve.testCurve = .ok cp ∧
    ∃ sk v1 v2 a rnd1 rnd2 PK x1 c1 x2 c2 p T, publicKey cp sk = .ok PK ∧
      signedTx hash cp PK sk 1 v1 a 0 0 rnd1 = .ok (x1, c1) ∧
      signedTx hash cp PK sk (-1) v2 (-a) 0 0 rnd2 = .ok (x2, c2) ∧
      consistencyVerify hash cp (some c1) x1.CM x1.CMTok PK = .ok accept ∧
      consistencyVerify hash cp (some c2) x2.CM x2.CMTok PK = .ok accept ∧
      abcVerify hash cp x1.ABCP x1.CM x1.CMTok = .ok accept ∧
      abcVerify hash cp x2.ABCP x2.CM x2.CMTok = .ok accept ∧
      newEquivalenceProof hash cp cp.H PK cp.H PK sk 0 = .ok (some p, none) ∧
      auditValue hash cp [x1, x2] PK T (some p) = .ok true ∧ ¬ T ≡ v1 + v2 [ZMOD cp.C.N] := by
  obtain ⟨sk, v1, v2, a, rnd1, rnd2, PK, x1, c1, x2, c2, p, h1, h2, h3, h4, h5, h6, h7, h8, h9⟩ :=
    C151_attack Curve.lawful hash _ Real.h_eq_smul (by decide +kernel)
  refine ⟨Curve.tc, Curve.testCurve_eq, sk, v1, v2, a, rnd1, rnd2, PK, x1, c1, x2, c2, p, _, h1, h2, h3, h4, h5, h6,
    h7, h8, h9, fun h => ?_⟩
  have h10 := h.dvd
  rw [sub_sub_cancel] at h10
  revert h10
  decide +kernel

end Zk.Audit
