import Mathlib.Logic.Function.Basic
import Mathlib.Order.Basic
import Mathlib.Data.List.Basic

/-!
# `S256` and its `sync.Once`

`S256` (btcec/btcec.go:984-987) is called from any goroutine.  It runs `initonce.Do(initAll)` and returns
the address of the package variable `secp256k1`, which `initAll` fills in.
-/

namespace Zk.Once

/-- Where a goroutine is in `S256`, btcec/btcec.go:984-987, and in `Do` and `doSlow` of `sync.Once` (Go
standard library, sync/once.go, not part of /repo).  `σ` is the content of the variable `secp256k1`. -/
inductive Pc (σ : Type) where
  /-- `S256` has not been called yet. -/
  | idle
  /-- In `Do`, before the flag is read without the lock. -/
  | load
  /-- In `doSlow`, before `m.Lock()`. -/
  | lock
  /-- Has the lock, before the flag is read again. -/
  | check
  /-- In `initAll`; the statements that are left. -/
  | run (rest : List (σ → σ))
  /-- Deferred `done.Store(1)`. -/
  | store
  /-- Deferred `m.Unlock()`. -/
  | unlock
  /-- `S256` has returned. -/
  | ret

/-- The variables `secp256k1` and `initonce` (flag and lock), btcec/btcec.go:913-914, all goroutines, and
how often `initAll` was entered (a ghost variable). -/
structure State (σ : Type) where
  curve : σ
  done : Bool
  owner : Option Nat
  pc : Nat → Pc σ
  entered : Nat

/-- At program start: zero values, btcec/btcec.go:913-914. -/
def State.start {σ : Type} (zero : σ) : State σ := ⟨zero, false, none, fun _ => .idle, 0⟩

/-- One step of goroutine `i`, btcec/btcec.go:916-918, 984-987; `init` are the statements of `initAll` in
order.  Simplifications: memory is sequentially consistent, and no statement panics (that loading the
tables does not is `C116`). -/
inductive Step {σ : Type} (init : List (σ → σ)) (s : State σ) (i : Nat) : State σ → Prop
  | call : s.pc i = .idle → Step init s i { s with pc := Function.update s.pc i .load }
  | loadDone : s.pc i = .load → s.done = true →
      Step init s i { s with pc := Function.update s.pc i .ret }
  | loadSlow : s.pc i = .load → s.done = false →
      Step init s i { s with pc := Function.update s.pc i .lock }
  | lock : s.pc i = .lock → s.owner = none →
      Step init s i { s with owner := some i, pc := Function.update s.pc i .check }
  | checkDone : s.pc i = .check → s.done = true →
      Step init s i { s with pc := Function.update s.pc i .unlock }
  | checkRun : s.pc i = .check → s.done = false →
      Step init s i { s with pc := Function.update s.pc i (.run init), entered := s.entered + 1 }
  | run (f : σ → σ) (rest : List (σ → σ)) : s.pc i = .run (f :: rest) →
      Step init s i { s with curve := f s.curve, pc := Function.update s.pc i (.run rest) }
  | runEnd : s.pc i = .run [] → Step init s i { s with pc := Function.update s.pc i .store }
  | store : s.pc i = .store →
      Step init s i { s with done := true, pc := Function.update s.pc i .unlock }
  | unlock : s.pc i = .unlock →
      Step init s i { s with owner := none, pc := Function.update s.pc i .ret }

/-- What any schedule of any number of goroutines that call `S256` (btcec/btcec.go:984-987) can reach. -/
inductive Reach {σ : Type} (init : List (σ → σ)) (zero : σ) : State σ → Prop
  | refl : Reach init zero (State.start zero)
  | step (s t : State σ) (i : Nat) : Reach init zero s → Step init s i t → Reach init zero t

/-- The goroutine has the lock (btcec/btcec.go:985). -/
def holds {σ : Type} : Pc σ → Bool
  | .check => true
  | .run _ => true
  | .store => true
  | .unlock => true
  | _ => false

/-- The goroutine is inside `initAll` (btcec/btcec.go:916-918) or has just left it. -/
def inside {σ : Type} : Pc σ → Bool
  | .run _ => true
  | .store => true
  | _ => false

/-- The invariant of `initonce.Do(initAll)`, btcec/btcec.go:985. -/
structure Inv {σ : Type} (init : List (σ → σ)) (zero : σ) (s : State σ) : Prop where
  owner : ∀ i, s.owner = some i ↔ holds (s.pc i) = true
  done : s.done = true → s.curve = init.foldl (fun x f => f x) zero ∧ s.entered = 1
  before : s.done = false → (∀ i, inside (s.pc i) = false) → s.curve = zero ∧ s.entered = 0
  run : ∀ i rest, s.pc i = .run rest →
    s.done = false ∧ s.entered = 1 ∧
      rest.foldl (fun x f => f x) s.curve = init.foldl (fun x f => f x) zero
  store : ∀ i, s.pc i = .store →
    s.done = false ∧ s.entered = 1 ∧ s.curve = init.foldl (fun x f => f x) zero
  after : ∀ i, s.pc i = .unlock ∨ s.pc i = .ret → s.done = true

theorem inv_start {σ : Type} (init : List (σ → σ)) (zero : σ) : Inv init zero (State.start zero) where
  owner := by intro i; simp [State.start, holds]
  done := by simp [State.start]
  before := by intro _ _; exact ⟨rfl, rfl⟩
  run := by intro i rest h; simp [State.start] at h
  store := by intro i h; simp [State.start] at h
  after := by intro i h; simp [State.start] at h

/-- Only one goroutine has the lock. -/
theorem Inv.unique {σ : Type} {init : List (σ → σ)} {zero : σ} {s : State σ} (h : Inv init zero s)
    {i j : Nat} (hi : holds (s.pc i) = true) (hj : holds (s.pc j) = true) : i = j := by
  have a := (h.owner i).2 hi
  have b := (h.owner j).2 hj
  rw [a] at b
  exact Option.some.inj b

theorem inside_holds {σ : Type} {p : Pc σ} (h : inside p = true) : holds p = true := by
  cases p <;> simp_all [inside, holds]

theorem inv_step {σ : Type} {init : List (σ → σ)} {zero : σ} {s t : State σ} {i : Nat}
    (h : Inv init zero s) (hs : Step init s i t) : Inv init zero t := by
  have oth : ∀ (p : Pc σ) (j : Nat), j ≠ i → Function.update s.pc i p j = s.pc j :=
    fun p j hj => Function.update_of_ne hj _ _
  have own : ∀ p : Pc σ, Function.update s.pc i p i = p := fun p => Function.update_self _ _ _
  -- a goroutine that changes its place without changing whether it holds the lock
  have ownerSame : ∀ p : Pc σ, holds p = holds (s.pc i) →
      ∀ j, s.owner = some j ↔ holds (Function.update s.pc i p j) = true := by
    intro p hp j
    by_cases hj : j = i
    · subst hj; rw [own, hp]; exact h.owner j
    · rw [oth p j hj]; exact h.owner j
  -- nobody else is inside if this one holds the lock
  have alone : holds (s.pc i) = true → ∀ j, j ≠ i → holds (s.pc j) = false := by
    intro hi j hj
    by_contra hc
    exact hj (h.unique (by simpa using hc) hi)
  cases hs with
  | call hp =>
    refine ⟨ownerSame _ (by simp [hp, holds]), h.done, ?_, ?_, ?_, ?_⟩
    · intro hd hin
      refine h.before hd fun j => ?_
      by_cases hj : j = i
      · subst hj; simp [hp, inside]
      · have := hin j; simpa only [oth _ j hj] using this
    all_goals
      intro j
      by_cases hj : j = i
      · subst hj; simp
      · simp only [oth _ j hj]
        first | exact h.run j | exact h.store j | exact h.after j
  | loadDone hp hd =>
    refine ⟨ownerSame _ (by simp [hp, holds]), h.done, ?_, ?_, ?_, ?_⟩
    · intro hd'; simp [hd] at hd'
    all_goals
      intro j
      by_cases hj : j = i
      · subst hj; simp [hd]
      · simp only [oth _ j hj]
        first | exact h.run j | exact h.store j | exact h.after j
  | loadSlow hp hd =>
    refine ⟨ownerSame _ (by simp [hp, holds]), h.done, ?_, ?_, ?_, ?_⟩
    · intro hd hin
      refine h.before hd fun j => ?_
      by_cases hj : j = i
      · subst hj; simp [hp, inside]
      · have := hin j; simpa only [oth _ j hj] using this
    all_goals
      intro j
      by_cases hj : j = i
      · subst hj; simp
      · simp only [oth _ j hj]
        first | exact h.run j | exact h.store j | exact h.after j
  | lock hp ho =>
    have none_ : ∀ j, holds (s.pc j) = false := by
      intro j
      by_contra hc
      have := (h.owner j).2 (by simpa using hc)
      rw [ho] at this
      cases this
    refine ⟨?_, h.done, ?_, ?_, ?_, ?_⟩
    · intro j
      by_cases hj : j = i
      · subst hj; simp [holds]
      · simp only [oth _ j hj, none_ j, Option.some.injEq, Bool.false_eq_true, iff_false]
        exact fun e => hj e.symm
    · intro hd hin
      refine h.before hd fun j => ?_
      by_contra hc
      have := inside_holds (p := s.pc j) (by simpa using hc)
      rw [none_ j] at this
      cases this
    all_goals
      intro j
      by_cases hj : j = i
      · subst hj; simp
      · simp only [oth _ j hj]
        first | exact h.run j | exact h.store j | exact h.after j
  | checkDone hp hd =>
    refine ⟨ownerSame _ (by simp [hp, holds]), h.done, ?_, ?_, ?_, ?_⟩
    · intro hd'; simp [hd] at hd'
    all_goals
      intro j
      by_cases hj : j = i
      · subst hj; simp [hd]
      · simp only [oth _ j hj]
        first | exact h.run j | exact h.store j | exact h.after j
  | checkRun hp hd =>
    have hal := alone (by simp [hp, holds])
    have hb := h.before hd fun j => by
      by_cases hj : j = i
      · subst hj; simp [hp, inside]
      · by_contra hc
        have := inside_holds (p := s.pc j) (by simpa using hc)
        rw [hal j hj] at this
        cases this
    refine ⟨ownerSame _ (by simp [hp, holds]), ?_, ?_, ?_, ?_, ?_⟩
    · intro hd'; simp [hd] at hd'
    · intro _ hin
      have := hin i
      simp [inside] at this
    · intro j rest hj'
      by_cases hj : j = i
      · subst hj
        simp only [own, Pc.run.injEq] at hj'
        subst hj'
        exact ⟨hd, by simp [hb.2], by simp only [hb.1]⟩
      · simp only [oth _ j hj] at hj'
        have := hal j hj
        rw [hj'] at this
        simp [holds] at this
    · intro j hj'
      by_cases hj : j = i
      · subst hj; simp at hj'
      · simp only [oth _ j hj] at hj'
        have := hal j hj
        rw [hj'] at this
        simp [holds] at this
    · intro j
      by_cases hj : j = i
      · subst hj; simp
      · simp only [oth _ j hj]; exact h.after j
  | run f rest hp =>
    have hal := alone (by simp [hp, holds])
    have hr := h.run i _ hp
    refine ⟨ownerSame _ (by simp [hp, holds]), ?_, ?_, ?_, ?_, ?_⟩
    · intro hd'; simp [hr.1] at hd'
    · intro _ hin
      have := hin i
      simp [inside] at this
    · intro j rest' hj'
      by_cases hj : j = i
      · subst hj
        simp only [own, Pc.run.injEq] at hj'
        subst hj'
        exact ⟨hr.1, hr.2.1, hr.2.2⟩
      · simp only [oth _ j hj] at hj'
        have := hal j hj
        rw [hj'] at this
        simp [holds] at this
    · intro j hj'
      by_cases hj : j = i
      · subst hj; simp at hj'
      · simp only [oth _ j hj] at hj'
        have := hal j hj
        rw [hj'] at this
        simp [holds] at this
    · intro j
      by_cases hj : j = i
      · subst hj; simp
      · simp only [oth _ j hj]; exact h.after j
  | runEnd hp =>
    have hal := alone (by simp [hp, holds])
    have hr := h.run i _ hp
    refine ⟨ownerSame _ (by simp [hp, holds]), ?_, ?_, ?_, ?_, ?_⟩
    · intro hd'; simp [hr.1] at hd'
    · intro _ hin
      have := hin i
      simp [inside] at this
    · intro j rest' hj'
      by_cases hj : j = i
      · subst hj; simp at hj'
      · simp only [oth _ j hj] at hj'
        have := hal j hj
        rw [hj'] at this
        simp [holds] at this
    · intro j hj'
      by_cases hj : j = i
      · exact ⟨hr.1, hr.2.1, hr.2.2⟩
      · simp only [oth _ j hj] at hj'
        have := hal j hj
        rw [hj'] at this
        simp [holds] at this
    · intro j
      by_cases hj : j = i
      · subst hj; simp
      · simp only [oth _ j hj]; exact h.after j
  | store hp =>
    have hal := alone (by simp [hp, holds])
    have hr := h.store i hp
    refine ⟨ownerSame _ (by simp [hp, holds]), ?_, ?_, ?_, ?_, ?_⟩
    · intro _; exact ⟨hr.2.2, hr.2.1⟩
    · intro hd'; simp at hd'
    · intro j rest' hj'
      by_cases hj : j = i
      · subst hj; simp at hj'
      · simp only [oth _ j hj] at hj'
        have := hal j hj
        rw [hj'] at this
        simp [holds] at this
    · intro j hj'
      by_cases hj : j = i
      · subst hj; simp at hj'
      · simp only [oth _ j hj] at hj'
        have := hal j hj
        rw [hj'] at this
        simp [holds] at this
    · intro j _; rfl
  | unlock hp =>
    have hal := alone (by simp [hp, holds])
    have hd := h.after i (.inl hp)
    refine ⟨?_, h.done, ?_, ?_, ?_, ?_⟩
    · intro j
      by_cases hj : j = i
      · subst hj; simp [holds]
      · simp [oth _ j hj, hal j hj]
    · intro hd'; simp [hd] at hd'
    all_goals
      intro j
      by_cases hj : j = i
      · subst hj; simp [hd]
      · simp only [oth _ j hj]
        first | exact h.run j | exact h.store j | exact h.after j

theorem inv_reach {σ : Type} {init : List (σ → σ)} {zero : σ} {s : State σ}
    (h : Reach init zero s) : Inv init zero s := by
  induction h with
  | refl => exact inv_start init zero
  | step s t i _ hs ih => exact inv_step ih hs

end Zk.Once
