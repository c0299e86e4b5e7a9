import Verif.Range.Pool

/-!
# Schedules of the verifier's goroutines

Invariant of the state machine of `RangeProof.Verify` for proofs without nil entries.
-/

namespace Zk.Proto

open Zk

/-- What goroutine `i` of the verifier computes.  See rangeproof.go:239-260. -/
def gen (hash : Bytes → Bytes) (cp : Params) (pr : RangeProof) (i : Nat) : Go ECPoint :=
  match pr.ProofTuples[i]? with
  | some t => verifyGen hash cp i pr.ProofE t
  | none => .panic

namespace VState

/-- The part of the invariant on goroutines and channel; `got` are the results received so far.
See rangeproof.go:262-322. -/
structure Core (hash : Bytes → Bytes) (cp : Params) (pr : RangeProof) (s : VState)
    (got : Finset Nat) : Prop where
  range : got ⊆ Finset.range pr.ProofTuples.length
  nodup : (s.chan.map Prod.fst).Nodup
  disj : ∀ i ∈ s.chan.map Prod.fst, i ∉ got
  fin : ∀ i, s.workers i = .finished ↔ i ∈ got ∨ i ∈ s.chan.map Prod.fst
  chanVal : ∀ m ∈ s.chan, gen hash cp pr m.1 = .ok m.2
  gotVal : ∀ i ∈ got, gen hash cp pr i = .ok (s.Rp i)
  sendVal : ∀ i p, s.workers i = .sending p → gen hash cp pr i = .ok p
  idle : ∀ i, pr.ProofTuples.length ≤ i → s.workers i = .idle

/-- The part of the invariant on the main goroutine.  See rangeproof.go:262-322. -/
def MainInv (hash : Bytes → Bytes) (cp : Params) (pr : RangeProof) (comm : ECPoint) (s : VState)
    (got : Finset Nat) : Prop :=
  match s.main with
  | .spawn k => k ≤ pr.ProofTuples.length ∧ got = ∅ ∧ s.chan.map Prod.fst ⊆ List.range k ∧
      ∀ i, s.workers i = .idle ↔ k ≤ i
  | .recv k total => k ≤ pr.ProofTuples.length ∧ got.card = k ∧
      (∀ i < pr.ProofTuples.length, s.workers i ≠ .idle) ∧
      (pr.ProofTuples.take k).foldlM (fun acc t => add cp acc t.C) Zero = .ok total
  | .ret r => r = rangeVerify hash cp (some pr) comm ∧
      (r ≠ .panic → got = Finset.range pr.ProofTuples.length)

/-- The invariant.  See rangeproof.go:262-322. -/
def Inv (hash : Bytes → Bytes) (cp : Params) (pr : RangeProof) (comm : ECPoint) (s : VState) : Prop :=
  ∃ got, Core hash cp pr s got ∧ MainInv hash cp pr comm s got

variable {hash : Bytes → Bytes} {cp : Params} {pr : RangeProof} {comm : ECPoint}

theorem inv_start : Inv hash cp pr comm start := by
  refine ⟨∅, ?_, ?_⟩
  · constructor <;> simp [start]
  · simp [MainInv, start]

theorem gen_of_get {i : Nat} {t : RangeProofTuple} (ht : pr.ProofTuples[i]? = some t) :
    gen hash cp pr i = verifyGen hash cp i pr.ProofE t := by simp [gen, ht]

theorem mapM_gen (hash : Bytes → Bytes) (cp : Params) (pr : RangeProof) :
    (pr.ProofTuples.zipIdx.mapM fun t => verifyGen hash cp t.2 pr.ProofE t.1)
      = (List.range pr.ProofTuples.length).mapM (gen hash cp pr) := by
  have : pr.ProofTuples.zipIdx = (List.range pr.ProofTuples.length).attach.map
      fun i => (pr.ProofTuples[i.1]'(List.mem_range.1 i.2), i.1) := by
    apply List.ext_getElem
    · simp
    · intro i h1 h2; simp
  rw [this, List.mapM_map]
  have h2 : ((fun t : RangeProofTuple × Nat => verifyGen hash cp t.2 pr.ProofE t.1) ∘
      fun i : {x // x ∈ List.range pr.ProofTuples.length} =>
        (pr.ProofTuples[i.1]'(List.mem_range.1 i.2), i.1)) = fun i => gen hash cp pr i.1 := by
    funext i
    have hi := List.mem_range.1 i.2
    simp [gen, List.getElem?_eq_getElem hi]
  rw [h2]
  generalize List.range pr.ProofTuples.length = l
  conv_rhs => rw [← List.attach_map_subtype_val l, List.mapM_map]
  rfl

theorem rangeVerify_eq (hn : ∀ t ∈ pr.ProofTuples, tupleNil t = false) :
    rangeVerify hash cp (some pr) comm = (do
      let Rs ← (List.range pr.ProofTuples.length).mapM (gen hash cp pr)
      let total ← pr.ProofTuples.foldlM (fun acc t => add cp acc t.C) Zero
      finishVerify hash pr comm Rs total) := by
  have : pr.ProofTuples.any tupleNil = false := by simpa using hn
  simp only [rangeVerify, this, Bool.false_eq_true, if_false, mapM_gen]

theorem rangeVerify_gen_panic (hn : ∀ t ∈ pr.ProofTuples, tupleNil t = false) {i : Nat}
    (hi : i < pr.ProofTuples.length) (h : gen hash cp pr i = .panic) :
    rangeVerify hash cp (some pr) comm = .panic := by
  rw [rangeVerify_eq hn, mapM_panic _ _ (List.mem_range.2 hi) h]; rfl

theorem rangeVerify_fold_panic (hn : ∀ t ∈ pr.ProofTuples, tupleNil t = false)
    (h : pr.ProofTuples.foldlM (fun acc t => add cp acc t.C) Zero = .panic) :
    rangeVerify hash cp (some pr) comm = .panic := by
  rw [rangeVerify_eq hn, h]
  cases (List.range pr.ProofTuples.length).mapM (gen hash cp pr) <;> rfl

theorem foldlM_take_succ {i : Nat} {t : RangeProofTuple} (ht : pr.ProofTuples[i]? = some t)
    {total : ECPoint}
    (h : (pr.ProofTuples.take i).foldlM (fun acc t => add cp acc t.C) Zero = .ok total) :
    (pr.ProofTuples.take (i + 1)).foldlM (fun acc t => add cp acc t.C) Zero = add cp total t.C := by
  rw [List.take_add_one, ht, List.foldlM_append, h]
  simp only [Go.bind_ok, Option.toList_some, List.foldlM_cons, List.foldlM_nil]
  cases add cp total t.C <;> rfl

theorem foldlM_of_take_panic {i : Nat}
    (h : (pr.ProofTuples.take i).foldlM (fun acc t => add cp acc t.C) Zero = .panic) :
    pr.ProofTuples.foldlM (fun acc t => add cp acc t.C) Zero = .panic := by
  rw [← List.take_append_drop i pr.ProofTuples, List.foldlM_append, h]; rfl

theorem inv_step (hn : ∀ t ∈ pr.ProofTuples, tupleNil t = false) {s s' : VState}
    (h : Inv hash cp pr comm s) (hs : Step hash cp pr comm s s') : Inv hash cp pr comm s' := by
  obtain ⟨got, hc, hm⟩ := h
  cases hs with
  | spawnNil i t hi ht hnil =>
    rw [hn t (List.mem_of_getElem? ht)] at hnil; cases hnil
  | spawn i t hi ht hnil =>
    unfold MainInv at hm
    rw [hi] at hm
    obtain ⟨h1, h2, h3, h4⟩ := hm
    subst h2
    have hlt : i < pr.ProofTuples.length := (List.getElem?_eq_some_iff.1 ht).1
    have hidle : s.workers i = .idle := (h4 i).2 le_rfl
    refine ⟨∅, ⟨by simp, hc.nodup, by simp, ?_, hc.chanVal, by simp, ?_, ?_⟩, ?_⟩
    · intro j
      by_cases hj : j = i
      · subst hj
        have := (hc.fin j).not.1 (by rw [hidle]; simp)
        simpa using this
      · simpa [Function.update_of_ne hj] using hc.fin j
    · intro j p
      by_cases hj : j = i
      · subst hj; simp
      · simpa [Function.update_of_ne hj] using hc.sendVal j p
    · intro j hj
      have : j ≠ i := by omega
      simpa [Function.update_of_ne this] using hc.idle j hj
    · refine ⟨by omega, rfl, ?_, ?_⟩
      · intro j hj; have := h3 hj; simp at this ⊢; omega
      · intro j
        by_cases hj : j = i
        · subst hj; simp
        · simp only [Function.update_of_ne hj, h4 j]; omega
  | spawned hi =>
    unfold MainInv at hm
    rw [hi] at hm
    obtain ⟨h1, h2, h3, h4⟩ := hm
    subst h2
    refine ⟨∅, ⟨hc.range, hc.nodup, hc.disj, hc.fin, hc.chanVal, hc.gotVal, hc.sendVal, hc.idle⟩, ?_⟩
    refine ⟨by omega, rfl, ?_, by simp⟩
    intro i hi h; have := (h4 i).1 h; omega
  | recv i total t m ms hi ht hch =>
    unfold MainInv at hm
    rw [hi] at hm
    obtain ⟨h1, h2, h3, h4⟩ := hm
    have hlt : i < pr.ProofTuples.length := (List.getElem?_eq_some_iff.1 ht).1
    have hnd := hc.nodup
    have hdj := hc.disj
    have hf := hc.fin
    have hcv := hc.chanVal
    rw [hch] at hnd hdj hf hcv
    simp only [List.map_cons, List.nodup_cons] at hnd
    have hmn : m.1 ∉ got := hdj _ (by simp)
    have hmfin : s.workers m.1 = .finished := (hf m.1).2 (by simp)
    have hml : m.1 < pr.ProofTuples.length := by
      by_contra hge
      rw [hc.idle m.1 (by omega)] at hmfin; cases hmfin
    refine ⟨insert m.1 got, ⟨?_, hnd.2, ?_, ?_, ?_, ?_, hc.sendVal, hc.idle⟩, ?_⟩
    · intro j hj
      rcases Finset.mem_insert.1 hj with rfl | hj
      · simpa using hml
      · exact hc.range hj
    · intro j hj hj2
      rcases Finset.mem_insert.1 hj2 with rfl | hj2
      · exact hnd.1 hj
      · exact hdj j (List.mem_cons_of_mem _ hj) hj2
    · intro j
      simp only [hf j, List.map_cons, List.mem_cons, Finset.mem_insert]
      tauto
    · intro m' hm'; exact hcv m' (by simp [hm'])
    · intro j hj
      by_cases hjm : j = m.1
      · subst hjm; simpa using hcv m (by simp)
      · simp only [Function.update_of_ne hjm]
        exact hc.gotVal j (by simpa [hjm] using hj)
    · have htake := foldlM_take_succ ht h4
      unfold MainInv
      cases hadd : add cp total t.C with
      | ok q =>
        simp only
        refine ⟨by omega, ?_, h3, by rw [htake, hadd]⟩
        rw [Finset.card_insert_of_notMem hmn, h2]
      | panic =>
        simp only
        refine ⟨?_, fun h => absurd rfl h⟩
        rw [rangeVerify_fold_panic hn (foldlM_of_take_panic (htake.trans hadd))]
  | finish total hi =>
    unfold MainInv at hm
    rw [hi] at hm
    obtain ⟨h1, h2, h3, h4⟩ := hm
    have hgot : got = Finset.range pr.ProofTuples.length :=
      Finset.eq_of_subset_of_card_le hc.range (by simp [h2])
    refine ⟨got, ⟨hc.range, hc.nodup, hc.disj, hc.fin, hc.chanVal, hc.gotVal, hc.sendVal, hc.idle⟩, ?_⟩
    refine ⟨?_, fun _ => hgot⟩
    rw [rangeVerify_eq hn, mapM_ok_iff _ s.Rp]
    · rw [List.take_length] at h4
      rw [h4]; rfl
    · intro j hj
      exact hc.gotVal j (by rw [hgot]; simpa using hj)
  | compute i t p hw ht hp =>
    refine ⟨got, ⟨hc.range, hc.nodup, hc.disj, ?_, hc.chanVal, hc.gotVal, ?_, ?_⟩, ?_⟩
    · intro j
      by_cases hj : j = i
      · subst hj
        have := (hc.fin j).not.1 (by rw [hw]; simp)
        simpa using this
      · simpa [Function.update_of_ne hj] using hc.fin j
    · intro j q
      by_cases hj : j = i
      · subst hj
        simp only [Function.update_self, Worker.sending.injEq]
        rintro rfl
        rw [gen_of_get ht, hp]
      · simpa [Function.update_of_ne hj] using hc.sendVal j q
    · intro j hj
      have hji : j ≠ i := by
        rintro rfl; rw [hc.idle j hj] at hw; cases hw
      simpa [Function.update_of_ne hji] using hc.idle j hj
    · have hwk : ∀ j, Function.update s.workers i (.sending p) j = .idle ↔ s.workers j = .idle := by
        intro j
        by_cases hj : j = i
        · subst hj; simp [hw]
        · simp [Function.update_of_ne hj]
      unfold MainInv at hm ⊢
      cases hmain : s.main with
      | spawn k => rw [hmain] at hm; simpa only [hwk] using hm
      | recv k tot => rw [hmain] at hm; simpa only [ne_eq, hwk] using hm
      | ret r => rw [hmain] at hm; simpa only using hm
  | crash i t hw ht hp =>
    refine ⟨got, ⟨hc.range, hc.nodup, hc.disj, hc.fin, hc.chanVal, hc.gotVal, hc.sendVal, hc.idle⟩, ?_⟩
    refine ⟨?_, fun h => absurd rfl h⟩
    rw [rangeVerify_gen_panic hn (List.getElem?_eq_some_iff.1 ht).1 ((gen_of_get ht).trans hp)]
  | send i p hw hcap =>
    have hni : ¬ (i ∈ got ∨ i ∈ s.chan.map Prod.fst) := (hc.fin i).not.1 (by rw [hw]; simp)
    have hil : i < pr.ProofTuples.length := by
      by_contra hge; rw [hc.idle i (by omega)] at hw; cases hw
    refine ⟨got, ⟨hc.range, ?_, ?_, ?_, ?_, hc.gotVal, ?_, ?_⟩, ?_⟩
    · rw [List.map_append, List.nodup_append]
      refine ⟨hc.nodup, by simp, ?_⟩
      intro a ha b hb
      simp at hb
      rintro rfl
      subst hb
      exact hni (.inr ha)
    · intro j hj
      rw [List.map_append, List.mem_append] at hj
      rcases hj with hj | hj
      · exact hc.disj j hj
      · simp at hj; subst hj; exact fun h => hni (.inl h)
    · intro j
      rw [List.map_append, List.mem_append]
      by_cases hj : j = i
      · subst hj; simp
      · simp only [Function.update_of_ne hj, hc.fin j]
        simp [hj]
    · intro m hmem
      rcases List.mem_append.1 hmem with hm' | hm'
      · exact hc.chanVal m hm'
      · simp at hm'; subst hm'; exact hc.sendVal i p hw
    · intro j q
      by_cases hj : j = i
      · subst hj; simp
      · simpa [Function.update_of_ne hj] using hc.sendVal j q
    · intro j hj
      have hji : j ≠ i := by omega
      simpa [Function.update_of_ne hji] using hc.idle j hj
    · have hwk : ∀ j, Function.update s.workers i .finished j = .idle ↔ s.workers j = .idle := by
        intro j
        by_cases hj : j = i
        · subst hj; simp [hw]
        · simp [Function.update_of_ne hj]
      unfold MainInv at hm ⊢
      cases hmain : s.main with
      | spawn k =>
        rw [hmain] at hm
        simp only [hwk]
        refine ⟨hm.1, hm.2.1, ?_, hm.2.2.2⟩
        have hik : i < k := by
          by_contra hge
          rw [(hm.2.2.2 i).2 (by omega)] at hw; cases hw
        intro j hj
        rw [List.map_append, List.mem_append] at hj
        rcases hj with hj | hj
        · exact hm.2.2.1 hj
        · simp at hj; subst hj; simpa using hik
      | recv k tot => rw [hmain] at hm; simpa only [ne_eq, hwk] using hm
      | ret r => rw [hmain] at hm; simpa only using hm

theorem inv_reach (hn : ∀ t ∈ pr.ProofTuples, tupleNil t = false) {s : VState}
    (h : Reach hash cp pr comm s) : Inv hash cp pr comm s := by
  induction h with
  | start => exact inv_start
  | step s s' _ hst ih => exact inv_step hn ih hst

/-- Every reachable state in which the main goroutine has not returned can make a step. -/
theorem progress (hn : ∀ t ∈ pr.ProofTuples, tupleNil t = false) {s : VState}
    (h : Reach hash cp pr comm s) : (∃ r, s.main = .ret r) ∨ ∃ s', Step hash cp pr comm s s' := by
  obtain ⟨got, hc, hm⟩ := inv_reach hn h
  unfold MainInv at hm
  cases hmain : s.main with
  | ret r => exact .inl ⟨r, rfl⟩
  | spawn k =>
    rw [hmain] at hm
    right
    rcases Nat.lt_or_ge k pr.ProofTuples.length with hk | hk
    · exact ⟨_, .spawn s k _ hmain (List.getElem?_eq_getElem hk) (hn _ (List.getElem_mem hk))⟩
    · have : k = pr.ProofTuples.length := by have := hm.1; omega
      exact ⟨_, .spawned s (this ▸ hmain)⟩
  | recv k total =>
    rw [hmain] at hm
    right
    rcases Nat.lt_or_ge k pr.ProofTuples.length with hk | hk
    · cases hch : s.chan with
      | cons m ms => exact ⟨_, .recv s k total _ m ms hmain (List.getElem?_eq_getElem hk) hch⟩
      | nil =>
        have : ∃ i < pr.ProofTuples.length, i ∉ got := by
          by_contra hcon
          push Not at hcon
          have hsub : Finset.range pr.ProofTuples.length ⊆ got := fun i hi => hcon i (by simpa using hi)
          have := Finset.card_le_card hsub
          simp at this
          have := hm.2.1
          omega
        obtain ⟨i, hi, hig⟩ := this
        have hnf : s.workers i ≠ .finished := by
          intro hf
          have := (hc.fin i).1 hf
          rw [hch] at this
          simp [hig] at this
        have hni := hm.2.2.1 i hi
        cases hw : s.workers i with
        | idle => exact absurd hw hni
        | finished => exact absurd hw hnf
        | sending p => exact ⟨_, .send s i p hw (by simp [hch, chanCap])⟩
        | running =>
          cases hp : verifyGen hash cp i pr.ProofE pr.ProofTuples[i] with
          | ok p => exact ⟨_, .compute s i _ p hw (List.getElem?_eq_getElem hi) hp⟩
          | panic => exact ⟨_, .crash s i _ hw (List.getElem?_eq_getElem hi) hp⟩
    · have : k = pr.ProofTuples.length := by have := hm.1; omega
      exact ⟨_, .finish s total (this ▸ hmain)⟩

/-- Weight of one goroutine.  See rangeproof.go:262-322. -/
def wweight : Worker → Nat
  | .idle => 3
  | .running => 2
  | .sending _ => 1
  | .finished => 0

theorem ww_idle : wweight .idle = 3 := rfl
theorem ww_running : wweight .running = 2 := rfl
theorem ww_sending (p : ECPoint) : wweight (.sending p) = 1 := rfl
theorem ww_finished : wweight .finished = 0 := rfl

/-- Weight of the main goroutine.  See rangeproof.go:262-322. -/
def mweight (n : Nat) : Main → Nat
  | .spawn i => (n - i) + n + 3
  | .recv i _ => (n - i) + 2
  | .ret _ => 0

/-- Bound on the number of steps that can still be made.  See rangeproof.go:262-322. -/
def fuel (n : Nat) (s : VState) : Nat :=
  mweight n s.main + ∑ i ∈ Finset.range n, wweight (s.workers i)

theorem sum_update (n : Nat) (w : Nat → Worker) (i : Nat) (hi : i < n) (x : Worker) :
    (∑ j ∈ Finset.range n, wweight (Function.update w i x j)) + wweight (w i)
      = (∑ j ∈ Finset.range n, wweight (w j)) + wweight x := by
  have hmem : i ∈ Finset.range n := by simpa using hi
  rw [← Finset.add_sum_erase _ _ hmem, ← Finset.add_sum_erase _ (fun j => wweight (w j)) hmem]
  have : ∑ j ∈ (Finset.range n).erase i, wweight (Function.update w i x j)
      = ∑ j ∈ (Finset.range n).erase i, wweight (w j) := by
    apply Finset.sum_congr rfl
    intro j hj
    rw [Function.update_of_ne (Finset.ne_of_mem_erase hj)]
  rw [this]; simp; omega

theorem fuel_step (hn : ∀ t ∈ pr.ProofTuples, tupleNil t = false) {s s' : VState}
    (h : Reach hash cp pr comm s) (hm : ∀ r, s.main ≠ .ret r)
    (hs : Step hash cp pr comm s s') :
    s'.fuel pr.ProofTuples.length < s.fuel pr.ProofTuples.length := by
  obtain ⟨got, hc, hmi⟩ := inv_reach hn h
  have hpos : 0 < mweight pr.ProofTuples.length s.main := by
    cases hmain : s.main with
    | ret r => exact absurd hmain (hm r)
    | spawn k => simp [mweight]
    | recv k t => simp [mweight]
  unfold MainInv at hmi
  cases hs with
  | spawnNil i t hi ht hnil => rw [hn t (List.mem_of_getElem? ht)] at hnil; cases hnil
  | spawn i t hi ht hnil =>
    rw [hi] at hmi
    have hlt : i < pr.ProofTuples.length := (List.getElem?_eq_some_iff.1 ht).1
    have := sum_update pr.ProofTuples.length s.workers i hlt .running
    rw [(hmi.2.2.2 i).2 le_rfl] at this
    simp only [ww_idle, ww_running] at this
    simp only [fuel, hi, mweight]
    omega
  | spawned hi => simp only [fuel, hi, mweight]; omega
  | recv i total t m ms hi ht hch =>
    have hlt : i < pr.ProofTuples.length := (List.getElem?_eq_some_iff.1 ht).1
    simp only [fuel, hi]
    cases add cp total t.C <;> simp only [mweight] <;> omega
  | finish total hi => simp only [fuel, hi, mweight]; omega
  | compute i t p hw ht hp =>
    have hlt : i < pr.ProofTuples.length := (List.getElem?_eq_some_iff.1 ht).1
    have := sum_update pr.ProofTuples.length s.workers i hlt (.sending p)
    rw [hw] at this
    simp only [ww_running, ww_sending] at this
    simp only [fuel]
    omega
  | crash i t hw ht hp =>
    have : mweight pr.ProofTuples.length (.ret .panic) = 0 := rfl
    simp only [fuel]; omega
  | send i p hw hcap =>
    have hil : i < pr.ProofTuples.length := by
      by_contra hge; rw [hc.idle i (by omega)] at hw; cases hw
    have := sum_update pr.ProofTuples.length s.workers i hil .finished
    rw [hw] at this
    simp only [ww_sending, ww_finished] at this
    simp only [fuel]
    omega

/-- A returned result is the sequential one, and no goroutine is left over. -/
theorem ret_eq (hn : ∀ t ∈ pr.ProofTuples, tupleNil t = false) {s : VState}
    (h : Reach hash cp pr comm s) {r : Go (Bool × Option Err)} (hr : s.main = .ret r) :
    r = rangeVerify hash cp (some pr) comm ∧
      (r ≠ .panic → s.chan = [] ∧ ∀ i, s.workers i = .finished ∨ s.workers i = .idle) := by
  obtain ⟨got, hc, hm⟩ := inv_reach hn h
  unfold MainInv at hm
  rw [hr] at hm
  refine ⟨hm.1, fun hp => ?_⟩
  have hgot := hm.2 hp
  constructor
  · cases hch : s.chan with
    | nil => rfl
    | cons m ms =>
      have h1 : m.1 ∈ s.chan.map Prod.fst := by simp [hch]
      have h2 := hc.disj _ h1
      have h3 := (hc.fin m.1).2 (.inr h1)
      rw [hgot] at h2
      simp at h2
      rw [hc.idle m.1 h2] at h3; cases h3
  · intro i
    rcases Nat.lt_or_ge i pr.ProofTuples.length with hi | hi
    · exact .inl ((hc.fin i).2 (.inl (by rw [hgot]; simpa using hi)))
    · exact .inr (hc.idle i hi)

/-- From every reachable state some schedule leads to a return (or crash) of `Verify`. -/
theorem exists_ret (hn : ∀ t ∈ pr.ProofTuples, tupleNil t = false) :
    ∃ s r, Reach hash cp pr comm s ∧ s.main = .ret r := by
  suffices H : ∀ k (s : VState), s.fuel pr.ProofTuples.length = k → Reach hash cp pr comm s →
      ∃ s r, Reach hash cp pr comm s ∧ s.main = .ret r from H _ _ rfl .start
  intro k
  induction k using Nat.strong_induction_on with
  | _ k ih =>
    intro s hk hs
    rcases progress hn hs with ⟨r, hr⟩ | ⟨s', hs'⟩
    · exact ⟨s, r, hs, hr⟩
    · by_cases hm : ∃ r, s.main = .ret r
      · obtain ⟨r, hr⟩ := hm; exact ⟨s, r, hs, hr⟩
      · push Not at hm
        exact ih _ (hk ▸ fuel_step hn hs hm hs') s' rfl (.step s s' hs hs')

end VState

end Zk.Proto
