import Verif.Curve.Once

/-! # Property C125: the curve is initialised once, before anyone uses it -/

namespace Zk.Once

variable {σ : Type}

/-- C125. Whatever the goroutines do: when a call of `S256` has returned, all statements of `initAll` have
run, in order and once, on the zero value; and `initAll` is never entered twice. -/
theorem C125_initialised (init : List (σ → σ)) (zero : σ) (s : State σ) (h : Reach init zero s) :
    s.entered ≤ 1 ∧
    ∀ i, s.pc i = .ret → s.curve = init.foldl (fun x f => f x) zero ∧ s.entered = 1 := by
  have hi := inv_reach h
  refine ⟨?_, fun i hp => hi.done (hi.after i (.inr hp))⟩
  cases hd : s.done with
  | true => exact Nat.le_of_eq (hi.done hd).2
  | false =>
    by_cases hin : ∀ j, inside (s.pc j) = false
    · rw [(hi.before hd hin).2]; exact Nat.zero_le _
    · push Not at hin
      obtain ⟨j, hj⟩ := hin
      cases hp : s.pc j with
      | run rest => exact Nat.le_of_eq (hi.run j rest hp).2.1
      | store => exact Nat.le_of_eq (hi.store j hp).2.1
      | _ => simp [hp, inside] at hj

/-- States that a schedule of calls of `S256` (btcec/btcec.go:984-987) can reach from `s`. -/
inductive After (init : List (σ → σ)) (s : State σ) : State σ → Prop
  | refl : After init s s
  | step (t u : State σ) (i : Nat) : After init s t → Step init t i u → After init s u

/-- C125. After a call has returned, the curve does not change any more. -/
theorem C125_stable (init : List (σ → σ)) (zero : σ) (s t : State σ) (h : Reach init zero s)
    (ht : After init s t) (i : Nat) (hi : s.pc i = .ret) : t.curve = s.curve := by
  have key : Reach init zero t ∧ t.pc i = .ret := by
    induction ht with
    | refl => exact ⟨h, hi⟩
    | step t u j _ hs ih =>
      refine ⟨.step t u j ih.1 hs, ?_⟩
      have hne : j ≠ i := by
        rintro rfl
        have := ih.2
        cases hs <;> simp_all
      cases hs <;> simp [Function.update_of_ne hne.symm, ih.2]
  rw [((C125_initialised init zero t key.1).2 i key.2).1,
    ((C125_initialised init zero s h).2 i hi).1]

/-- Steps that a goroutine has still to make before its call of `S256` (btcec/btcec.go:984-987) returns. -/
def todo (init : List (σ → σ)) : Pc σ → Nat
  | .idle => 0
  | .load => init.length + 7
  | .lock => init.length + 6
  | .check => init.length + 5
  | .run rest => rest.length + 3
  | .store => 2
  | .unlock => 1
  | .ret => 0

/-- C125. No deadlock and no endless waiting: as long as some call has not returned, some goroutine inside
a call can make a step; and a goroutine inside a call makes at most `todo` steps, each of them leaving the
others where they are. -/
theorem C125_progress (init : List (σ → σ)) (zero : σ) (s : State σ) (h : Reach init zero s) :
    (∀ i, s.pc i ≠ .idle → s.pc i ≠ .ret → ∃ j t, s.pc j ≠ .idle ∧ Step init s j t) ∧
    (∀ i t, s.pc i ≠ .idle → Step init s i t →
      todo init (t.pc i) < todo init (s.pc i) ∧ ∀ j, j ≠ i → t.pc j = s.pc j) := by
  have hi := inv_reach h
  -- who has the lock can go on
  have go : ∀ j, holds (s.pc j) = true → ∃ t, Step init s j t := by
    intro j hj
    cases hp : s.pc j with
    | check =>
      cases hd : s.done with
      | true => exact ⟨_, .checkDone hp hd⟩
      | false => exact ⟨_, .checkRun hp hd⟩
    | run rest =>
      cases rest with
      | nil => exact ⟨_, .runEnd hp⟩
      | cons f rest => exact ⟨_, .run f rest hp⟩
    | store => exact ⟨_, .store hp⟩
    | unlock => exact ⟨_, .unlock hp⟩
    | _ => simp [hp, holds] at hj
  constructor
  · intro i h1 h2
    by_cases hh : holds (s.pc i) = true
    · obtain ⟨t, ht⟩ := go i hh
      exact ⟨i, t, h1, ht⟩
    · cases hp : s.pc i with
      | load =>
        cases hd : s.done with
        | true => exact ⟨i, _, h1, .loadDone hp hd⟩
        | false => exact ⟨i, _, h1, .loadSlow hp hd⟩
      | lock =>
        cases ho : s.owner with
        | none => exact ⟨i, _, h1, .lock hp ho⟩
        | some j =>
          have hj := (hi.owner j).1 ho
          obtain ⟨t, ht⟩ := go j hj
          exact ⟨j, t, by intro e; simp [e, holds] at hj, ht⟩
      | idle => exact absurd hp h1
      | ret => exact absurd hp h2
      | _ => simp [hp, holds] at hh
  · intro i t h1 hs
    refine ⟨?_, ?_⟩
    · cases hs <;> simp_all [todo]
    · intro j hj
      cases hs <;> simp [Function.update_of_ne hj]

/-- A run of two goroutines on a variable with two statements, up to the return of the first. -/
example : ∃ s : State Nat, Reach [(· + 1), (· * 2)] 0 s ∧ s.pc 0 = .ret ∧ s.pc 1 = .lock ∧
    s.curve = 2 := by
  have r := Reach.refl (init := [(· + 1), (· * 2)]) (zero := 0)
  have r := Reach.step _ _ 0 r (.call rfl)
  have r := Reach.step _ _ 1 r (.call rfl)
  have r := Reach.step _ _ 0 r (.loadSlow rfl rfl)
  have r := Reach.step _ _ 1 r (.loadSlow rfl rfl)
  have r := Reach.step _ _ 0 r (.lock rfl rfl)
  have r := Reach.step _ _ 0 r (.checkRun rfl rfl)
  have r := Reach.step _ _ 0 r (.run _ _ rfl)
  have r := Reach.step _ _ 0 r (.run _ _ rfl)
  have r := Reach.step _ _ 0 r (.runEnd rfl)
  have r := Reach.step _ _ 0 r (.store rfl)
  have r := Reach.step _ _ 0 r (.unlock rfl)
  exact ⟨_, r, rfl, rfl, rfl⟩

end Zk.Once
