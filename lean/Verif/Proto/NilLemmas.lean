import Verif.Proto.AbcProps
import Verif.Proto.BasicProps
import Verif.Range.Props2
import Verif.Ser.Model

/-!
# Helper lemmas: where the verifiers read nil pointers
-/

namespace Zk.Proto

open Zk

variable {cp : Params}

/-- Both coordinates of a point (crypto.go:70-72) are set. -/
def ECPoint.Has (p : ECPoint) : Prop := p.X ≠ none ∧ p.Y ≠ none

theorem acc_ite {b : Bool} {e : Err} {k : Go (Bool × Option Err)} :
    (if !b then pure (reject e) else k) = .ok accept ↔ b = true ∧ k = .ok accept := by
  cases b
  · simp [reject, accept, pure]
  · simp

theorem deref_ok {α : Type} {o : Option α} {a : α} : deref o = .ok a ↔ o = some a := by
  cases o <;> simp [deref]

theorem cmpEq_left {a : Int} {o : Option Int} {b : Bool} (h : cmpEq (some a) o = .ok b) : o ≠ none := by
  rintro rfl; simp [cmpEq] at h

theorem cmpEq_right {a : Int} {o : Option Int} {b : Bool} (h : cmpEq o (some a) = .ok b) : o ≠ none := by
  rintro rfl; simp [cmpEq] at h

theorem cmpEq_true {o o' : Option Int} (h : cmpEq o o' = .ok true) : o = o' := by
  cases o <;> cases o' <;> simp_all [cmpEq]

theorem coords_has {p : ECPoint} {q : Int × Int} (h : coords p = .ok q) : ECPoint.Has p := by
  rcases p with ⟨x | x, y | y⟩ <;> simp_all [coords, deref, ECPoint.Has]

theorem mkPt_has (q : Int × Int) : ECPoint.Has (mkPt q) := by simp [mkPt, pt, ECPoint.Has]

theorem pointBytes_has {p : ECPoint} {b : Bytes} (h : pointBytes p = .ok b) : ECPoint.Has p := by
  rcases p with ⟨x | x, y | y⟩ <;> simp_all [pointBytes, deref, ECPoint.Has]

theorem mapM_each {α β : Type} {f : α → Go β} : ∀ {l : List α} {r : List β}, l.mapM f = .ok r →
    ∀ a ∈ l, ∃ b, f a = .ok b := by
  intro l
  induction l with
  | nil => intro r _ a ha; cases ha
  | cons x l ih =>
    intro r h a ha
    rw [List.mapM_cons] at h
    obtain ⟨b, hb, h⟩ := Go.bind_eq_ok.1 h
    obtain ⟨bs, hbs, _⟩ := Go.bind_eq_ok.1 h
    rcases List.mem_cons.1 ha with rfl | ha
    · exact ⟨b, hb⟩
    · exact ih hbs a ha

theorem challengeOf_has {hash : Bytes → Bytes} {ps : List ECPoint} {c : Int}
    (h : challengeOf hash cp ps = .ok c) : ∀ p ∈ ps, ECPoint.Has p := by
  obtain ⟨bs, hb, _⟩ := Go.bind_eq_ok.1 h
  intro p hp
  obtain ⟨b, hb⟩ := mapM_each hb p hp
  exact pointBytes_has hb

theorem equal_X {p q : ECPoint} {x : Int} {b : Bool} (hq : q.X = some x) (h : equal p q = .ok b) :
    p.X ≠ none := by
  obtain ⟨a, ha, _⟩ := Go.bind_eq_ok.1 h
  rw [hq] at ha
  exact cmpEq_right ha

theorem equal_true_X {p q : ECPoint} (h : equal p q = .ok true) : p.X = q.X := by
  obtain ⟨a, ha, h⟩ := Go.bind_eq_ok.1 h
  cases a
  · simp [pure] at h
  · exact cmpEq_true ha

theorem add_X {p q r : ECPoint} (h : add cp p q = .ok r) : p.X ≠ none := by
  obtain ⟨c, hc, _⟩ := Go.bind_eq_ok.1 h
  obtain ⟨z, hz, _⟩ := Go.bind_eq_ok.1 hc
  exact equal_X (q := Zero) (x := 0) rfl hz

theorem curveAdd_has {p q r : ECPoint} (h : curveAdd cp p q = .ok r) :
    ECPoint.Has p ∧ ECPoint.Has q ∧ ECPoint.Has r := by
  obtain ⟨a, ha, h⟩ := Go.bind_eq_ok.1 h
  obtain ⟨b, hb, h⟩ := Go.bind_eq_ok.1 h
  obtain ⟨c, hc, h⟩ := Go.bind_eq_ok.1 h
  cases h
  exact ⟨coords_has ha, coords_has hb, mkPt_has _⟩

theorem zeroAndOnCurve_true {p q : ECPoint} (h : zeroAndOnCurve cp p q = .ok true) :
    p.X = some 0 ∧ ECPoint.Has q := by
  obtain ⟨z, hz, h⟩ := Go.bind_eq_ok.1 h
  cases z
  · simp [pure] at h
  · rw [if_pos rfl] at h
    obtain ⟨c, hc, _⟩ := Go.bind_eq_ok.1 h
    exact ⟨equal_true_X hz, coords_has hc⟩

/-- `Add` returns a point with both coordinates, and reads both coordinates of its first argument
unless it takes it for `Zero`. -/
theorem add_has {p q r : ECPoint} (h : add cp p q = .ok r) :
    ECPoint.Has r ∧ (p.X ≠ some 0 → ECPoint.Has p) := by
  obtain ⟨c, hc, h⟩ := Go.bind_eq_ok.1 h
  cases c
  · rw [if_neg (by simp)] at h
    obtain ⟨c, hc, h⟩ := Go.bind_eq_ok.1 h
    cases c
    · rw [if_neg (by simp)] at h
      exact ⟨(curveAdd_has h).2.2, fun _ => (curveAdd_has h).1⟩
    · rw [if_pos rfl] at h
      cases h
      exact ⟨(zeroAndOnCurve_true hc).2, fun _ => (zeroAndOnCurve_true hc).2⟩
  · rw [if_pos rfl] at h
    cases h
    exact ⟨(zeroAndOnCurve_true hc).2, fun hx => absurd (zeroAndOnCurve_true hc).1 hx⟩

/-- What `Mult` reads when it returns a point. -/
theorem mult_reads {p q : ECPoint} {s : Option Int} {gx : Int} (hG : cp.G.X = some gx)
    (h : mult cp p s = .ok q) (hp : ¬ (p.X = none ∧ p.Y = none)) :
    s ≠ none ∧ p.X ≠ none ∧ (p.Y = none → p.X = cp.G.X ∨ p.X = cp.H.X) := by
  rw [mult, if_neg hp] at h
  obtain ⟨v, hv, h⟩ := Go.bind_eq_ok.1 h
  obtain ⟨isG, hg, h⟩ := Go.bind_eq_ok.1 h
  refine ⟨by rw [deref_ok.1 hv]; simp, equal_X hG hg, fun hy => ?_⟩
  cases isG
  · rw [if_neg (by simp)] at h
    obtain ⟨isH, hh, h⟩ := Go.bind_eq_ok.1 h
    cases isH
    · rw [if_neg (by simp)] at h
      obtain ⟨c, hc, h⟩ := Go.bind_eq_ok.1 h
      exact absurd hy (coords_has hc).2
    · exact Or.inr (equal_true_X hh)
  · exact Or.inl (equal_true_X hg)

theorem mult_scalar {p q : ECPoint} {s : Option Int} (hp : ECPoint.Has p) (h : mult cp p s = .ok q) :
    s ≠ none := by
  rw [mult, if_neg (fun e => hp.1 e.1)] at h
  obtain ⟨v, hv, _⟩ := Go.bind_eq_ok.1 h
  rw [deref_ok.1 hv]; simp

theorem mult_nil (s : Option Int) : mult cp nilPoint s = .ok nilPoint := by
  simp [mult, nilPoint]

theorem gspfsVerify_acc {hash : Bytes → Bytes} {pr : GSPFSProof} {A : ECPoint}
    (hG : cp.G.X ≠ none) (h : gspfsVerify hash cp (some pr) A = .ok accept) :
    ECPoint.Has A ∧ ECPoint.Has pr.RandCommit ∧ pr.HiddenValue ≠ none ∧ pr.Challenge ≠ none ∧
    pr.Base.X ≠ none ∧ (pr.Base.Y = none → pr.Base.X = cp.G.X ∨ pr.Base.X = cp.H.X) := by
  simp only [gspfsVerify, Go.bind_eq_ok, acc_ite] at h
  obtain ⟨c, hc, eq, heq, rfl, s, hs, ca, hca, tot, htot, ok, hok, rfl, -⟩ := h
  have hh := challengeOf_has hc
  obtain ⟨gx, hgx⟩ := Option.ne_none_iff_exists'.1 hG
  have hB : ¬ (pr.Base.X = none ∧ pr.Base.Y = none) := by
    rintro ⟨e1, e2⟩
    have : pr.Base = nilPoint := by
      rcases hb : pr.Base with ⟨x, y⟩
      rw [hb] at e1 e2; simp_all [nilPoint]
    rw [this, mult_nil] at hs
    cases hs
    exact add_X htot rfl
  obtain ⟨m1, m2, m3⟩ := mult_reads hgx hs hB
  exact ⟨hh _ (by simp), hh _ (by simp), m1, cmpEq_left heq, m2, m3⟩

theorem equivalenceVerify_acc {hash : Bytes → Bytes} {pr : EquivalenceProof} {B1 R1 B2 R2 : ECPoint}
    (h : equivalenceVerify hash cp (some pr) B1 R1 B2 R2 = .ok accept) :
    (∀ p ∈ [B1, R1, B2, R2, pr.UG, pr.UH], ECPoint.Has p) ∧
    pr.Challenge ≠ none ∧ pr.HiddenValue ≠ none := by
  simp only [equivalenceVerify, Go.bind_eq_ok, acc_ite] at h
  obtain ⟨c, hc, eq, heq, rfl, s, hs, -⟩ := h
  have hh := challengeOf_has hc
  exact ⟨hh, cmpEq_left heq, mult_scalar (hh _ (by simp)) hs⟩

theorem consistencyVerify_acc {hash : Bytes → Bytes} {pr : ConsistencyProof} {CM CMTok PK : ECPoint}
    (h : consistencyVerify hash cp (some pr) CM CMTok PK = .ok accept) :
    (∀ p ∈ [CM, CMTok, PK, pr.T1, pr.T2], ECPoint.Has p) ∧
    pr.Challenge ≠ none ∧ pr.S1 ≠ none ∧ pr.S2 ≠ none := by
  simp only [consistencyVerify, Go.bind_eq_ok, acc_ite] at h
  obtain ⟨c, hc, eq, heq, rfl, s, hs, -⟩ := h
  have hh := challengeOf_has hc
  obtain ⟨v, hv, hs⟩ := Go.bind_eq_ok.1 hs
  obtain ⟨r, hr, hs⟩ := Go.bind_eq_ok.1 hs
  refine ⟨fun p hp => hh p ?_, cmpEq_left heq, by rw [deref_ok.1 hv]; simp, by rw [deref_ok.1 hr]; simp⟩
  simp only [List.mem_cons] at hp ⊢
  tauto

theorem disjunctiveVerify_acc {hash : Bytes → Bytes} {pr : DisjunctiveProof} {B1 R1 B2 R2 : ECPoint}
    (h : disjunctiveVerify hash cp (some pr) B1 R1 B2 R2 = .ok accept) :
    (∀ p ∈ [B1, R1, B2, R2, pr.T1, pr.T2], ECPoint.Has p) ∧
    pr.C ≠ none ∧ pr.C1 ≠ none ∧ pr.C2 ≠ none ∧ pr.S1 ≠ none ∧ pr.S2 ≠ none := by
  simp only [disjunctiveVerify, Go.bind_eq_ok, acc_ite] at h
  obtain ⟨c, hc, eq, heq, rfl, c1, h1, c2, h2, eq, heq', rfl, c1A, -, k1, -, s1, hs1, ok, -, rfl, c2A,
    -, k2, -, s2, hs2, ok, -, rfl, -⟩ := h
  have hh := challengeOf_has hc
  exact ⟨hh, cmpEq_left heq, by rw [deref_ok.1 h1]; simp, by rw [deref_ok.1 h2]; simp,
    mult_scalar (hh _ (by simp)) hs1, mult_scalar (hh _ (by simp)) hs2⟩

theorem abcVerify_acc {hash : Bytes → Bytes} {pr : ABCProof} {CM CMTok : ECPoint}
    (h : abcVerify hash cp (some pr) CM CMTok = .ok accept) :
    (∀ p ∈ [CM, CMTok, pr.B, pr.C, pr.T1, pr.T2], ECPoint.Has p) ∧
    pr.Challenge ≠ none ∧ pr.j ≠ none ∧ pr.k ≠ none ∧ pr.l ≠ none ∧
    ∃ d, pr.disjuncAC = some d ∧ ECPoint.Has d.T1 ∧ ECPoint.Has d.T2 ∧
      d.C ≠ none ∧ d.C1 ≠ none ∧ d.C2 ≠ none ∧ d.S1 ≠ none ∧ d.S2 ≠ none := by
  obtain ⟨_, hp, h⟩ := Go.bind_eq_ok.1 h
  cases hp
  obtain ⟨D, hD, h⟩ := Go.bind_eq_ok.1 h
  obtain ⟨st, hst, h⟩ := Go.bind_eq_ok.1 h
  by_cases hs : st.2.isSome = true
  · rw [if_pos hs] at h
    simp [reject, accept, pure] at h
  rw [if_neg hs] at h
  simp only [Go.bind_eq_ok, acc_ite] at h
  obtain ⟨c, hc, eq, heq, rfl, cA, -, l1, -, jG, hj, kT, hk, r1, -, ok, -, rfl, cC, -, l2, -, jB, -,
    lH, hl, -⟩ := h
  have hh := challengeOf_has hc
  have hacc : st = accept := by
    have := (C31_verify_consistent_partial hash cp).2.2.2.1 pr.disjuncAC CM CMTok cp.H D
    rw [hst] at this
    rcases st with ⟨b, _ | e⟩
    · cases b
      · simp [Consistent] at this
      · rfl
    · simp at hs
  rw [hacc] at hst
  refine ⟨fun p hp => hh p ?_, cmpEq_left heq, mult_scalar (hh _ (by simp)) hj,
    mult_scalar (hh _ (by simp)) hk, mult_scalar (hh _ (by simp)) hl, ?_⟩
  · simp only [List.mem_cons] at hp ⊢
    tauto
  · rcases hd : pr.disjuncAC with _ | d
    · rw [hd] at hst
      simp [disjunctiveVerify, reject, accept] at hst
    · rw [hd] at hst
      obtain ⟨d1, d2⟩ := disjunctiveVerify_acc hst
      exact ⟨d, rfl, d1 _ (by simp), d1 _ (by simp), d2⟩

theorem foldl_add_has : ∀ {l : List RangeProofTuple} {p r : ECPoint}, ECPoint.Has p →
    l.foldlM (fun acc t => add cp acc t.C) p = .ok r → ECPoint.Has r := by
  intro l
  induction l with
  | nil => intro p r hp h; cases h; exact hp
  | cons t l ih =>
    intro p r _ h
    rw [List.foldlM_cons] at h
    obtain ⟨q, hq, h⟩ := Go.bind_eq_ok.1 h
    exact ih (add_has hq).1 h

theorem rangeVerify_acc {hash : Bytes → Bytes} {pr : RangeProof} {comm : ECPoint}
    (hG : cp.G.X ≠ none ∧ cp.G.X ≠ some 0) (hH : cp.H.X ≠ some 0)
    (h : rangeVerify hash cp (some pr) comm = .ok accept) :
    (∀ t ∈ pr.ProofTuples, ECPoint.Has t.C ∧ t.S ≠ none) ∧
    pr.ProofE ≠ none ∧ pr.ProofAggregate.X ≠ none ∧ comm.X ≠ none := by
  rw [rangeVerify] at h
  by_cases hn : pr.ProofTuples.any tupleNil = true
  · rw [if_pos hn] at h
    simp [reject, accept] at h
  rw [if_neg hn] at h
  obtain ⟨Rs, hR, h⟩ := Go.bind_eq_ok.1 h
  obtain ⟨total, htot, h⟩ := Go.bind_eq_ok.1 h
  simp only [finishVerify, Go.bind_eq_ok, acc_ite] at h
  obtain ⟨e, -, eq, heq, rfl, ok1, hok1, rfl, ok2, hok2, rfl, -⟩ := h
  have ht : ECPoint.Has total := foldl_add_has (by simp [Zero, pt, ECPoint.Has]) htot
  refine ⟨fun t htm => ?_, cmpEq_right heq, by rw [← equal_true_X hok1]; exact ht.1,
    by rw [equal_true_X hok2]; exact ht.1⟩
  have hnt : ¬ tupleNil t = true := fun e => hn (List.any_eq_true.2 ⟨t, htm, e⟩)
  rw [tupleNil, Bool.or_eq_true, not_or, Option.isNone_iff_eq_none, Option.isNone_iff_eq_none] at hnt
  refine ⟨?_, hnt.2⟩
  obtain ⟨i, hi, rfl⟩ := List.getElem_of_mem htm
  obtain ⟨R, hRi⟩ := mapM_each hR (pr.ProofTuples[i], i) (List.mem_iff_getElem.2 ⟨i, by simpa using hi, by simp⟩)
  simp only [verifyGen, Go.bind_eq_ok] at hRi
  obtain ⟨lhs, -, hp, -, nhp, -, rhs2, hadd, m, -, nm, -, tot, -, e1, -, hm⟩ := hRi
  obtain ⟨gx, hgx⟩ := Option.ne_none_iff_exists'.1 hG.1
  refine ⟨hnt.1, fun hy => ?_⟩
  have hx := (mult_reads hgx hm (fun e => hnt.1 e.1)).2.2 hy
  refine ((add_has hadd).2 ?_).2 hy
  rcases hx with hx | hx <;> rw [hx]
  · exact hG.2
  · exact hH

/-- Whatever the schedule, a proof with a nil entry is not accepted: the first loop of `Verify`
looks at every entry before anything is accepted. -/
theorem VState.acc_nonnil {hash : Bytes → Bytes} {pr : RangeProof} {comm : ECPoint} {s : VState}
    (hs : VState.Reach hash cp pr comm s) :
    match s.main with
    | .spawn i => ∀ j t, j < i → pr.ProofTuples[j]? = some t → tupleNil t = false
    | .recv _ _ => ∀ t ∈ pr.ProofTuples, tupleNil t = false
    | .ret r => r = .ok accept → ∀ t ∈ pr.ProofTuples, tupleNil t = false := by
  induction hs with
  | start => intro j t hj; omega
  | step s s' _ hst ih =>
    cases hst with
    | spawnNil i t hm ht hn => intro h; simp [reject, accept] at h
    | spawn i t hm ht hn =>
      rw [hm] at ih
      intro j t' hj ht'
      rcases Nat.lt_succ_iff_lt_or_eq.1 hj with hj | rfl
      · exact ih j t' hj ht'
      · rw [ht] at ht'; cases ht'; exact hn
    | spawned hm =>
      rw [hm] at ih
      intro t ht
      obtain ⟨i, hi, rfl⟩ := List.getElem_of_mem ht
      exact ih i _ hi (List.getElem?_eq_getElem hi)
    | recv i total t m ms hm ht hc =>
      rw [hm] at ih
      cases hadd : add cp total t.C with
      | ok q => simpa [hadd] using ih
      | panic => simp
    | finish total hm =>
      rw [hm] at ih
      exact fun _ => ih
    | compute i t p hw ht hp => exact ih
    | crash i t hw ht hp => intro h; cases h
    | send i p hw hc => exact ih

end Zk.Proto
