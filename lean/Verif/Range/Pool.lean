import Verif.Range.Model
import Mathlib.Algebra.BigOperators.Group.Finset.Basic
import Mathlib.Data.Finset.Card

/-!
# Schedules of the prover's goroutines

Every schedule of workers that own one slot each ends in the state the sequential run gives.
-/

namespace Zk.Proto

open Zk

namespace Pool

variable {τ : Type}

/-- What worker `i` still has to do, as a list.  See rangeproof.go:154-231. -/
def todo (s : Pool τ) (i : Nat) : List (τ → Go τ) := (s.rest i).getD []

/-- Invariant of every reachable state.  See rangeproof.go:154-231. -/
structure Inv (n : Nat) (data : Nat → τ) (prog : Nat → List (τ → Go τ)) (s : Pool τ) : Prop where
  run : ∀ i < n, runW (s.todo i) (s.data i) = runW (prog i) (data i)
  out : ∀ i, n ≤ i → s.rest i = none
  wg : s.wg = ((Finset.range n).filter fun i => (s.rest i).isSome).card

theorem inv_start (n : Nat) (data : Nat → τ) (prog : Nat → List (τ → Go τ)) :
    Inv n data prog (start n data prog) := by
  refine ⟨?_, ?_, ?_⟩
  · intro i hi; simp [start, todo, hi]
  · intro i hi; simp [start]; omega
  · rw [Finset.filter_true_of_mem]
    · simp [start]
    · intro i hi; simp at hi; simp [start, hi]

theorem inv_step {n : Nat} {data : Nat → τ} {prog : Nat → List (τ → Go τ)} {s s' : Pool τ}
    (h : Inv n data prog s) (hs : Step s (.ok s')) : Inv n data prog s' := by
  generalize hr : (Go.ok s' : Go (Pool τ)) = r at hs
  cases hs with
  | run i f fs hi =>
    obtain ⟨t, ht, h2⟩ := Go.bind_eq_ok.1 hr.symm
    simp at h2; subst h2
    refine ⟨?_, ?_, ?_⟩
    · intro j hj
      by_cases hji : j = i
      · subst hji
        have := h.run j hj
        simp [todo, hi, runW, ht] at this
        simpa [todo] using this
      · simpa [todo, Function.update_of_ne hji] using h.run j hj
    · intro j hj
      have hji : j ≠ i := by rintro rfl; rw [h.out j hj] at hi; simp at hi
      simpa [Function.update_of_ne hji] using h.out j hj
    · rw [h.wg]
      congr 1
      apply Finset.filter_congr
      intro j _
      by_cases hji : j = i
      · subst hji; simp [hi]
      · simp [Function.update_of_ne hji]
  | done i hi =>
    simp at hr; subst hr
    refine ⟨?_, ?_, ?_⟩
    · intro j hj
      by_cases hji : j = i
      · subst hji
        have := h.run j hj
        simp [todo, hi] at this
        simpa [todo] using this
      · simpa [todo, Function.update_of_ne hji] using h.run j hj
    · intro j hj
      by_cases hji : j = i
      · subst hji; simp
      · simpa [Function.update_of_ne hji] using h.out j hj
    · have hin : i < n := by
        by_contra hn; rw [h.out i (by omega)] at hi; simp at hi
      have : ((Finset.range n).filter fun j => (Function.update s.rest i none j).isSome)
          = ((Finset.range n).filter fun j => (s.rest j).isSome).erase i := by
        ext j
        by_cases hji : j = i
        · subst hji; simp
        · simp [hji]
      simp only [this]
      rw [Finset.card_erase_of_mem (by simp [hin, hi]), h.wg]

theorem inv_reach {n : Nat} {data : Nat → τ} {prog : Nat → List (τ → Go τ)} {r : Go (Pool τ)}
    (h : Reach (start n data prog) r) : ∀ s, r = .ok s → Inv n data prog s := by
  induction h with
  | refl => intro s hs; cases hs; exact inv_start n data prog
  | step s r _ hst ih => intro s' hs'; subst hs'; exact inv_step (ih s rfl) hst

/-- When the wait group is at zero, every slot holds the result of its worker's sequential run. -/
theorem finished {n : Nat} {data : Nat → τ} {prog : Nat → List (τ → Go τ)} {s : Pool τ}
    (h : Reach (start n data prog) (.ok s)) (hw : s.wg = 0) :
    ∀ i < n, runW (prog i) (data i) = .ok (s.data i) := by
  have hi := inv_reach h s rfl
  intro i hin
  rw [← hi.run i hin]
  have h0 : (s.rest i) = none := by
    have := hi.wg
    rw [hw] at this
    have := Finset.card_eq_zero.1 this.symm
    have h1 := Finset.eq_empty_iff_forall_notMem.1 this i
    simp [hin] at h1
    exact h1
  simp [todo, h0, runW]

/-- A crash comes from a worker whose sequential run panics. -/
theorem crashed {n : Nat} {data : Nat → τ} {prog : Nat → List (τ → Go τ)}
    (h : Reach (start n data prog) .panic) : ∃ i < n, runW (prog i) (data i) = .panic := by
  generalize hr : (Go.panic : Go (Pool τ)) = r at h
  cases h with
  | refl => cases hr
  | step s r hreach hst =>
    subst hr
    have hi := inv_reach hreach s rfl
    generalize hr2 : (Go.panic : Go (Pool τ)) = r at hst
    cases hst with
    | run i f fs hfi =>
      have hin : i < n := by
        by_contra hn; rw [hi.out i (by omega)] at hfi; simp at hfi
      refine ⟨i, hin, ?_⟩
      rw [← hi.run i hin]
      cases hf : f (s.data i) with
      | ok t => rw [hf] at hr2; simp at hr2
      | panic => simp [todo, hfi, runW, hf]
    | done i hi => cases hr2

/-- How many steps can still be made.  See rangeproof.go:154-231. -/
def fuel (n : Nat) (s : Pool τ) : Nat :=
  ∑ i ∈ Finset.range n, match s.rest i with
    | none => 0
    | some fs => fs.length + 1

theorem fuel_step {n : Nat} {data : Nat → τ} {prog : Nat → List (τ → Go τ)} {s s' : Pool τ}
    (h : Inv n data prog s) (hs : Step s (.ok s')) : s'.fuel n < s.fuel n := by
  generalize hr : (Go.ok s' : Go (Pool τ)) = r at hs
  have key : ∀ i (x : Option (List (τ → Go τ))) (fs : List (τ → Go τ)), s.rest i = some fs →
      (match x with | none => 0 | some gs => gs.length + 1) < fs.length + 1 →
      (∑ j ∈ Finset.range n, match Function.update s.rest i x j with
        | none => 0
        | some fs => fs.length + 1) < s.fuel n := by
    intro i x fs hi hx
    have hin : i ∈ Finset.range n := by
      by_contra hn; simp at hn; rw [h.out i hn] at hi; simp at hi
    unfold fuel
    apply Finset.sum_lt_sum
    · intro j _
      by_cases hji : j = i
      · subst hji; simp only [Function.update_self, hi]; exact hx.le
      · simp [Function.update_of_ne hji]
    · exact ⟨i, hin, by simp only [Function.update_self, hi]; exact hx⟩
  cases hs with
  | run i f fs hi =>
    obtain ⟨t, ht, h2⟩ := Go.bind_eq_ok.1 hr.symm
    simp at h2; subst h2
    exact key i (some fs) _ hi (by simp)
  | done i hi =>
    simp at hr; subst hr
    exact key i none _ hi (by simp)

/-- While the wait group is positive some goroutine can move. -/
theorem progress {n : Nat} {data : Nat → τ} {prog : Nat → List (τ → Go τ)} {s : Pool τ}
    (h : Reach (start n data prog) (.ok s)) (hw : s.wg ≠ 0) : ∃ r, Step s r := by
  have hi := inv_reach h s rfl
  rw [hi.wg] at hw
  obtain ⟨i, hmem⟩ := Finset.card_pos.1 (Nat.pos_of_ne_zero hw)
  simp at hmem
  obtain ⟨fs, hfs⟩ := Option.isSome_iff_exists.1 hmem.2
  cases fs with
  | nil => exact ⟨_, .done s i hfs⟩
  | cons f fs => exact ⟨_, .run s i f fs hfs⟩

/-- Every schedule that runs as long as it can ends with the wait group at zero or in a crash. -/
theorem exists_end (n : Nat) (data : Nat → τ) (prog : Nat → List (τ → Go τ)) :
    Reach (start n data prog) .panic ∨ ∃ s, Reach (start n data prog) (.ok s) ∧ s.wg = 0 := by
  suffices H : ∀ k (s : Pool τ), s.fuel n = k → Reach (start n data prog) (.ok s) →
      Reach (start n data prog) .panic ∨ ∃ s, Reach (start n data prog) (.ok s) ∧ s.wg = 0 from
    H _ _ rfl .refl
  intro k
  induction k using Nat.strong_induction_on with
  | _ k ih =>
    intro s hk hs
    by_cases hw : s.wg = 0
    · exact .inr ⟨s, hs, hw⟩
    · obtain ⟨r, hr⟩ := progress hs hw
      cases r with
      | panic => exact .inl (.step s _ hs hr)
      | ok s' => exact ih _ (hk ▸ fuel_step (inv_reach hs s rfl) hr) s' rfl (.step s _ hs hr)

end Pool

/-! ## The prover as a whole -/

theorem mapM_ok_iff {α β : Type} (f : α → Go β) (g : α → β) (l : List α)
    (h : ∀ a ∈ l, f a = .ok (g a)) : l.mapM f = .ok (l.map g) := by
  induction l with
  | nil => rfl
  | cons a l ih =>
    rw [List.mapM_cons, h a (by simp), ih fun b hb => h b (by simp [hb])]
    rfl

theorem mapM_panic {α β : Type} (f : α → Go β) (l : List α) {a : α} (ha : a ∈ l)
    (h : f a = .panic) : l.mapM f = .panic := by
  induction l with
  | nil => simp at ha
  | cons b l ih =>
    rw [List.mapM_cons]
    cases hb : f b with
    | panic => rfl
    | ok x =>
      rcases List.mem_cons.1 ha with rfl | ha
      · rw [h] at hb; cases hb
      · simp [ih ha]

theorem mapM_eq_panic {α β : Type} (f : α → Go β) (l : List α) (h : l.mapM f = .panic) :
    ∃ a ∈ l, f a = .panic := by
  by_contra hc
  push Not at hc
  have : ∀ a ∈ l, ∃ b, f a = .ok b := fun a ha => by
    cases hb : f a with
    | ok b => exact ⟨b, rfl⟩
    | panic => exact absurd hb (hc a ha)
  clear hc
  induction l with
  | nil => cases h
  | cons a l ih =>
    obtain ⟨b, hb⟩ := this a (by simp)
    rw [List.mapM_cons, hb] at h
    cases hl : l.mapM f with
    | ok bs => simp [hl] at h
    | panic => exact ih hl fun a ha => this a (by simp [ha])

theorem zipIdx_map_range {β : Type} (n : Nat) (f : Nat → β) :
    ((List.range n).map f).zipIdx = (List.range n).map fun i => (f i, i) := by
  apply List.ext_getElem
  · simp
  · intro i h1 h2; simp

/-- The sequential prover, when the first phase gives the slots `a`. -/
theorem proveRange_eq (hash : Bytes → Bytes) (cp : Params) (n : Nat) (value : Int)
    (rnd : Nat → BitRand) (a : Nat → Slot)
    (hA : ∀ i < n, runW (progA hash cp i (bitOf value i) (rnd i)) emptySlot = .ok (a i)) :
    proveRange hash cp n value rnd = (do
      let h ← hashAll hash ((List.range n).map fun i => (a i).R)
      let slotsB ← (List.range n).mapM fun i =>
        runW (progB hash cp i (bitOf value i) (h % (cp.C.N : Int)) (rnd i)) (a i)
      finishRange cp (h % (cp.C.N : Int)) slotsB) := by
  unfold proveRange
  rw [mapM_ok_iff _ a _ (fun i hi => hA i (List.mem_range.1 hi))]
  simp only [Go.bind_ok, zipIdx_map_range, List.map_map]
  congr 1
  funext h
  simp only [List.mapM_map]
  rfl

theorem proveRange_eq₂ (hash : Bytes → Bytes) (cp : Params) (n : Nat) (value : Int)
    (rnd : Nat → BitRand) (a b : Nat → Slot) (h : Int)
    (hA : ∀ i < n, runW (progA hash cp i (bitOf value i) (rnd i)) emptySlot = .ok (a i))
    (hh : hashAll hash ((List.range n).map fun i => (a i).R) = .ok h)
    (hB : ∀ i < n,
      runW (progB hash cp i (bitOf value i) (h % (cp.C.N : Int)) (rnd i)) (a i) = .ok (b i)) :
    proveRange hash cp n value rnd
      = finishRange cp (h % (cp.C.N : Int)) ((List.range n).map b) := by
  rw [proveRange_eq _ _ _ _ _ a hA, hh]
  simp only [Go.bind_ok]
  rw [mapM_ok_iff _ b _ (fun i hi => hB i (List.mem_range.1 hi))]
  rfl

/-- Every schedule gives the outcome of the sequential prover. -/
theorem proveRuns_sound {hash : Bytes → Bytes} {cp : Params} {n : Nat} {value : Int}
    {rnd : Nat → BitRand} {r : Go (Option RangeProof × Option Int × Option Err)}
    (h : ProveRuns hash cp n value rnd r) : r = proveRange hash cp n value rnd := by
  cases h with
  | crashA h =>
    obtain ⟨i, hi, hp⟩ := Pool.crashed h
    unfold proveRange
    rw [mapM_panic _ _ (List.mem_range.2 hi) hp]
    rfl
  | crashHash a ha hw hh =>
    rw [proveRange_eq _ _ _ _ _ a.data (Pool.finished ha hw), hh]
    rfl
  | crashB a h ha hw hh hb =>
    obtain ⟨i, hi, hp⟩ := Pool.crashed hb
    rw [proveRange_eq _ _ _ _ _ a.data (Pool.finished ha hw), hh]
    simp only [Go.bind_ok]
    rw [mapM_panic _ _ (List.mem_range.2 hi) hp]
    rfl
  | finish a b h ha hw hh hb hwb =>
    rw [proveRange_eq₂ _ _ _ _ _ a.data b.data h (Pool.finished ha hw) hh (Pool.finished hb hwb)]

/-- There is always a schedule that comes to an end. -/
theorem proveRuns_exists (hash : Bytes → Bytes) (cp : Params) (n : Nat) (value : Int)
    (rnd : Nat → BitRand) : ∃ r, ProveRuns hash cp n value rnd r := by
  rcases Pool.exists_end n (fun _ => emptySlot)
      (fun i => progA hash cp i (bitOf value i) (rnd i)) with h | ⟨a, ha, hwa⟩
  · exact ⟨_, .crashA h⟩
  cases hh : hashAll hash ((List.range n).map fun i => (a.data i).R) with
  | panic => exact ⟨_, .crashHash a ha hwa hh⟩
  | ok h =>
    rcases Pool.exists_end n a.data
        (fun i => progB hash cp i (bitOf value i) (h % (cp.C.N : Int)) (rnd i)) with h' | ⟨b, hb, hwb⟩
    · exact ⟨_, .crashB a h ha hwa hh h'⟩
    · exact ⟨_, .finish a b h ha hwa hh hb hwb⟩

theorem proveRuns_iff {hash : Bytes → Bytes} {cp : Params} {n : Nat} {value : Int}
    {rnd : Nat → BitRand} {r : Go (Option RangeProof × Option Int × Option Err)} :
    ProveRuns hash cp n value rnd r ↔ r = proveRange hash cp n value rnd := by
  constructor
  · exact proveRuns_sound
  · rintro rfl
    obtain ⟨r, hr⟩ := proveRuns_exists hash cp n value rnd
    have := proveRuns_sound hr
    rwa [this] at hr

end Zk.Proto
