import Verif.Mem.ParVerify

/-!
# What holds in every state that the goroutines can reach
-/

namespace Zk.Mem

open Zk Zk.Proto

variable {hash : Bytes → Bytes} {e : Env} {cp : Params} {α : Type}

/-- The client passes only what it has got: numbers it has seen from the start, numbers it has made and
results of calls (specification; for example crypto.go:86-110).  A point has two coordinates or is
nil, and so on: the arguments have values. -/
def Valid (hash : Bytes → Bytes) (cp : Params) : Prog → Cells → Prop
  | .stop, _ => True
  | .make x k, V => ∀ a, V a = none → Valid hash cp (k (some a)) (put V a x)
  | .look p k, V => ∃ v, Is V p (some v) ∧ Valid hash cp (k v) V
  | .call c k, V => ∃ v, CallIs V c v ∧ ∀ t r w, V ≼ t → runValues hash cp v = .ok w →
      ResIs t r w → Valid hash cp (k r) t

/-- The job of a goroutine (specification; rangeproof.go:187, 210, 288). -/
def Thread.job : Thread → Option Job
  | .worker j _ => some j
  | .ended j _ => some j
  | _ => none

/-- Has the goroutine not yet signalled its end? (specification; rangeproof.go:54, 259) -/
def Thread.live : Thread → Bool
  | .worker _ _ => true
  | _ => false

/-- Where a goroutine signals (specification; rangeproof.go:54, 259). -/
def Dest.id : Dest → Nat
  | .wg w => w
  | .chan c _ => c

/-- The index a goroutine sends (specification; rangeproof.go:259). -/
def Dest.idx : Dest → Nat
  | .wg _ => 0
  | .chan _ i => i

/-- The index a goroutine sends (specification; rangeproof.go:259). -/
def Thread.idx (t : Thread) : Nat := match t.job with
  | some j => j.dest.idx
  | none => 0

/-- What a goroutine has sent (specification; rangeproof.go:259). -/
def Thread.msg : Thread → Nat × Point
  | .ended j p => (j.dest.idx, p)
  | _ => (0, nilP)

/-- A wait group or a channel and its goroutines `kids` (specification; rangeproof.go:183-189,
275-292). -/
def SyncOk (thr : Nat → Thread) (post : Nat → Post) (kids : List Nat) (w : Nat) (y : Option Sync) :
    Pend → Prop
  | .wg c ps => y = some (.wg (c + kids.countP fun t => (thr t).live)) ∧ ps = kids.map post ∧
      kids.Nodup ∧ ∀ t ∈ kids, ∃ j, (thr t).job = some j ∧ j.dest = .wg w
  | .chan ps => (∃ sent : List Nat, y = some (.chan (sent.map fun t => (thr t).msg)) ∧ sent.Nodup ∧
      ∀ t, t ∈ sent ↔ t ∈ kids ∧ (thr t).live = false) ∧
      ps = kids.map (fun t => ((thr t).idx, post t)) ∧ kids.Nodup ∧
      ∀ t ∈ kids, ∃ j i, (thr t).job = some j ∧ j.dest = .chan w i

/-- What each goroutine sees and has, what it will have done, the goroutines of each wait group and
channel, and the numbers to which nobody writes any more (specification; rangeproof.go:172-230). -/
structure Ghost where
  V : Nat → Cells
  O : Nat → Nat → Prop
  S : Nat → Slots
  Y : Nat → Nat → Option Pend
  post : Nat → Post
  kids : Nat → List Nat
  F : Cells

/-- What one goroutine sees and has (specification; rangeproof.go:172-230). -/
def Ghost.own (G : Ghost) (i : Nat) : Own := ⟨G.V i, G.O i, G.S i, G.Y i⟩

/-- Nobody writes to a number that another one sees (specification; rangeproof.go:172-230). -/
structure MemOk (mem : Cells) (V : Nat → Cells) (O : Nat → Nat → Prop) (F : Cells) : Prop where
  seen : ∀ i, V i ≼ mem
  owns : ∀ i a, O i a → V i a ≠ none
  apart : ∀ i j a, i ≠ j → O i a → V j a = none
  frozen : F ≼ mem
  thaw : ∀ i a, O i a → F a = none

/-- Nobody uses variables of another one (specification; rangeproof.go:42-47). -/
structure SlotsOk (slots : Slots) (S : Nat → Slots) : Prop where
  holds : ∀ i, SubS (S i) slots
  apart : ∀ i j a, i ≠ j → S i a = none ∨ S j a = none

/-- Every wait group and every channel has one goroutine that waits (specification;
rangeproof.go:183-189, 275-292). -/
structure SyncsOk (sync : Nat → Option Sync) (thr : Nat → Thread) (Y : Nat → Nat → Option Pend)
    (post : Nat → Post) (kids : Nat → List Nat) : Prop where
  apart : ∀ i j w, i ≠ j → Y i w = none ∨ Y j w = none
  ok : ∀ i w p, Y i w = some p → SyncOk thr post (kids w) w (sync w) p
  workers : ∀ t j x, thr t = .worker j x → t ∈ kids j.dest.id ∧ sync j.dest.id ≠ none

/-- What has been promised holds at the end (specification; rangeproof.go:54, 259). -/
def PostsOk (thr : Nat → Thread) (V : Nat → Cells) (S : Nat → Slots) (Y : Nat → Nat → Option Pend)
    (post : Nat → Post) (kids : Nat → List Nat) : Prop :=
  ∀ i w p, Y i w = some p → ∀ t ∈ kids w, ∀ j P, thr t = .ended j P → post t (V t) (S t) P

/-- There is always room (specification; rangeproof.go:172-187). -/
def Finite (s : Shared) (thr : Nat → Thread) : Prop :=
  ∃ n, ∀ a, n ≤ a → s.mem a = none ∧ s.slots a = none ∧ s.sync a = none ∧ thr a = .unused

/-- What does not depend on what the goroutines do next (specification; rangeproof.go:172-230). -/
structure Core (s : Shared) (thr : Nat → Thread) (G : Ghost) : Prop where
  mem : MemOk s.mem G.V G.O G.F
  slots : SlotsOk s.slots G.S
  sync : SyncsOk s.sync thr G.Y G.post G.kids
  posts : PostsOk thr G.V G.S G.Y G.post G.kids
  mono : ∀ t, (G.post t).Mono
  quiet : ∀ t, (thr t).live = false → (thr t).job ≠ none → ∀ a, ¬ G.O t a
  fin : Finite s thr

/-- The same to the others: same job, same signal (specification; rangeproof.go:54, 259). -/
structure Same' (t t' : Thread) : Prop where
  job : t'.job = t.job
  live : t'.live = t.live
  rest : t.live = false → t.job ≠ none → t' = t

theorem Same'.refl (t : Thread) : Same' t t := ⟨rfl, rfl, fun _ _ => rfl⟩

theorem Same'.idx {t t' : Thread} (h : Same' t t') : t'.idx = t.idx := by
  unfold Thread.idx
  rw [h.job]

theorem SyncOk.congr {thr thr' : Nat → Thread} {post post' : Nat → Post} {kids : List Nat} {w : Nat}
    {y : Option Sync} {p : Pend} (ht : ∀ t ∈ kids, Same' (thr t) (thr' t))
    (hp : ∀ t ∈ kids, post' t = post t) (h : SyncOk thr post kids w y p) :
    SyncOk thr' post' kids w y p := by
  have hm : kids.map post' = kids.map post := List.map_congr_left hp
  cases p with
  | wg c ps =>
    obtain ⟨h1, h2, h3, h4⟩ := h
    refine ⟨?_, h2.trans hm.symm, h3, ?_⟩
    · rw [h1, List.countP_congr (q := fun t => (thr' t).live) fun t hm => by rw [(ht t hm).live]]
    · intro t hm
      rw [(ht t hm).job]
      exact h4 t hm
  | chan ps =>
    obtain ⟨⟨sent, h1, h2, h3⟩, h4, h5, h6⟩ := h
    refine ⟨⟨sent, ?_, h2, ?_⟩, ?_, h5, ?_⟩
    · rw [h1]
      congr 2
      refine List.map_congr_left fun t hs => ?_
      obtain ⟨hk, hl⟩ := (h3 t).1 hs
      obtain ⟨j, _, hj, _⟩ := h6 t hk
      rw [(ht t hk).rest hl (by rw [hj]; simp)]
    · intro t
      rw [h3]
      exact and_congr_right fun hk => by rw [(ht t hk).live]
    · rw [h4]
      exact List.map_congr_left fun t hk => by rw [(ht t hk).idx, hp t hk]
    · intro t hk
      rw [(ht t hk).job]
      exact h6 t hk

theorem SyncOk.kid {thr : Nat → Thread} {post : Nat → Post} {kids : List Nat} {w : Nat}
    {y : Option Sync} {p : Pend} (h : SyncOk thr post kids w y p) {t : Nat} (ht : t ∈ kids) :
    ∃ j, (thr t).job = some j ∧ j.dest.id = w := by
  cases p with
  | wg c ps =>
    obtain ⟨j, h1, h2⟩ := h.2.2.2 t ht
    exact ⟨j, h1, by rw [h2]; rfl⟩
  | chan ps =>
    obtain ⟨j, i, h1, h2⟩ := h.2.2.2 t ht
    exact ⟨j, h1, by rw [h2]; rfl⟩

theorem ended_of {t : Thread} (hl : t.live = false) (hj : t.job ≠ none) : ∃ j P, t = .ended j P := by
  cases t <;> first | exact ⟨_, _, rfl⟩ | exact absurd rfl hj | cases hl

theorem Same'.ended {t t' : Thread} (h : Same' t t') {j : Job} {P : Point} (he : t' = .ended j P) :
    t = .ended j P := by
  subst he
  exact (h.rest h.live.symm (by rw [← h.job]; exact Option.some_ne_none _)).symm

theorem Same'.worker {t t' : Thread} (h : Same' t t') {j : Job} {x : T Point} (he : t' = .worker j x) :
    ∃ y, t = .worker j y := by
  subst he
  have h2 : t.live = true := h.live.symm
  have h3 : t.job = some j := h.job.symm
  cases t <;> try cases h2
  cases h3
  exact ⟨_, rfl⟩

/-- A goroutine goes on. -/
theorem Core.thr {s : Shared} {thr : Nat → Thread} {G : Ghost} (hc : Core s thr G) {i : Nat} {t : Thread}
    (h : Same' (thr i) t) (hu : thr i ≠ .unused) : Core s (Function.update thr i t) G := by
  have hs : ∀ j, Same' (thr j) (Function.update thr i t j) := by
    intro j
    by_cases hj : j = i
    · subst hj; rw [Function.update_self]; exact h
    · rw [Function.update_of_ne hj]; exact .refl _
  refine { hc with sync := ⟨hc.sync.apart, ?_, ?_⟩, posts := ?_, quiet := ?_, fin := ?_ }
  · exact fun j w p hp => (hc.sync.ok j w p hp).congr (fun t _ => hs t) fun _ _ => rfl
  · intro k j x hx
    obtain ⟨y, hy⟩ := (hs k).worker hx
    exact hc.sync.workers k j y hy
  · intro j w p hp k hk j' P he
    exact hc.posts j w p hp k hk j' P ((hs k).ended he)
  · intro k hl hj
    rw [(hs k).live] at hl
    rw [(hs k).job] at hj
    exact hc.quiet k hl hj
  · obtain ⟨n, hn⟩ := hc.fin
    refine ⟨n, fun a ha => ?_⟩
    obtain ⟨h1, h2, h3, h4⟩ := hn a ha
    refine ⟨h1, h2, h3, ?_⟩
    rw [Function.update_of_ne (by rintro rfl; exact hu h4)]
    exact h4

/-! ### Numbers -/

section Mem

variable {mem : Cells} {V : Nat → Cells} {O : Nat → Nat → Prop} {F : Cells}

/-- A goroutine writes to a number of its own, or makes one. -/
theorem MemOk.write (h : MemOk mem V O F) {i a : Nat} (v : Int) {O' : Nat → Prop}
    (ha : O i a ∨ mem a = none) (hO : ∀ b, O' b → b = a ∨ O i b) :
    MemOk (put mem a v) (Function.update V i (put (V i) a v)) (Function.update O i O') F := by
  have hV : ∀ j, j ≠ i → V j a = none := by
    intro j hj
    rcases ha with ha | ha
    · exact h.apart i j a (Ne.symm hj) ha
    · exact (h.seen j).unseen ha
  have hF : F a = none := by
    rcases ha with ha | ha
    · exact h.thaw i a ha
    · exact h.frozen.unseen ha
  have hOa : ∀ j, j ≠ i → ¬ O j a := fun j hj h' => h.owns j a h' (hV j hj)
  constructor
  · intro j
    by_cases hj : j = i
    · subst hj
      rw [Function.update_self]
      intro b x hb
      by_cases hba : b = a
      · subst hba; rw [put_self] at hb ⊢; exact hb
      · rw [put_ne _ _ hba] at hb ⊢; exact h.seen j b x hb
    · rw [Function.update_of_ne hj]
      exact (h.seen j).put (hV j hj) v
  · intro j b hb
    by_cases hj : j = i
    · subst hj
      rw [Function.update_self] at hb ⊢
      by_cases hba : b = a
      · subst hba; rw [put_self]; simp
      · rw [put_ne _ _ hba]; exact h.owns j b ((hO b hb).resolve_left hba)
    · rw [Function.update_of_ne hj] at hb ⊢
      exact h.owns j b hb
  · intro j k b hjk hb
    by_cases hj : j = i
    · subst hj
      rw [Function.update_self] at hb
      rw [Function.update_of_ne (Ne.symm hjk)]
      rcases hO b hb with rfl | h'
      · exact hV k (Ne.symm hjk)
      · exact h.apart j k b hjk h'
    · rw [Function.update_of_ne hj] at hb
      by_cases hk : k = i
      · subst hk
        rw [Function.update_self]
        have hba : b ≠ a := by rintro rfl; exact hOa j hj hb
        rw [put_ne _ _ hba]
        exact h.apart j k b hjk hb
      · rw [Function.update_of_ne hk]
        exact h.apart j k b hjk hb
  · exact h.frozen.put hF v
  · intro j b hb
    by_cases hj : j = i
    · subst hj
      rw [Function.update_self] at hb
      rcases hO b hb with rfl | h'
      · exact hF
      · exact h.thaw j b h'
    · rw [Function.update_of_ne hj] at hb
      exact h.thaw j b hb

/-- A goroutine will not write to some of its numbers any more. -/
theorem MemOk.shrink (h : MemOk mem V O F) {O' : Nat → Nat → Prop} (hO : ∀ i a, O' i a → O i a) :
    MemOk mem V O' F :=
  ⟨h.seen, fun i a ha => h.owns i a (hO i a ha), fun i j a hij ha => h.apart i j a hij (hO i a ha),
    h.frozen, fun i a ha => h.thaw i a (hO i a ha)⟩

/-- The numbers a goroutine sees are frozen. -/
theorem MemOk.freeze (h : MemOk mem V O F) {i : Nat} (hO : ∀ a, ¬ O i a) {F' : Cells}
    (hF : F' ≼ mem) (hF' : ∀ a, F' a ≠ none → F a ≠ none ∨ V i a ≠ none) : MemOk mem V O F' := by
  refine ⟨h.seen, h.owns, h.apart, hF, fun j a ha => ?_⟩
  by_contra hn
  rcases hF' a hn with h1 | h1
  · exact h1 (h.thaw j a ha)
  · refine h1 (h.apart j i a ?_ ha)
    rintro rfl
    exact hO a ha

/-- A goroutine comes to see more: what `ts` have seen, which have no numbers to write to. -/
theorem MemOk.absorb (h : MemOk mem V O F) {i : Nat} {ts : List Nat} (hts : ∀ t ∈ ts, ∀ a, ¬ O t a)
    {V' : Cells} (h1 : V' ≼ mem) (h2 : V i ≼ V')
    (h3 : ∀ a, V' a ≠ none → V i a ≠ none ∨ ∃ t ∈ ts, V t a ≠ none) :
    MemOk mem (Function.update V i V') O F := by
  constructor
  · intro j
    by_cases hj : j = i
    · subst hj; rw [Function.update_self]; exact h1
    · rw [Function.update_of_ne hj]; exact h.seen j
  · intro j a ha
    by_cases hj : j = i
    · subst hj
      rw [Function.update_self]
      intro hn
      exact h.owns j a ha (h2.unseen hn)
    · rw [Function.update_of_ne hj]; exact h.owns j a ha
  · intro j k a hjk ha
    by_cases hk : k = i
    · subst hk
      rw [Function.update_self]
      by_contra hn
      rcases h3 a hn with h4 | ⟨t, ht, h4⟩
      · exact h4 (h.apart j k a hjk ha)
      · refine h4 (h.apart j t a ?_ ha)
        rintro rfl
        exact hts j ht a ha
    · rw [Function.update_of_ne hk]
      exact h.apart j k a hjk ha
  · exact h.frozen
  · exact h.thaw

/-- A new goroutine sees some of the numbers of another one, which will not write to them. -/
theorem MemOk.go (h : MemOk mem V O F) {i t : Nat} (hti : t ≠ i) {U : Cells} (hU : U ≼ V i) :
    MemOk mem (Function.update V t U) (Function.update (Function.update O i
      fun a => O i a ∧ U a = none) t fun _ => False) F := by
  have hO : ∀ k a, Function.update (Function.update O i fun a => O i a ∧ U a = none) t (fun _ => False) k a →
      k ≠ t ∧ O k a ∧ (k = i → U a = none) := by
    intro k a ha
    by_cases hk : k = t
    · subst hk; rw [Function.update_self] at ha; exact ha.elim
    · refine ⟨hk, ?_⟩
      rw [Function.update_of_ne hk] at ha
      by_cases hki : k = i
      · subst hki; rw [Function.update_self] at ha; exact ⟨ha.1, fun _ => ha.2⟩
      · rw [Function.update_of_ne hki] at ha; exact ⟨ha, fun h => absurd h hki⟩
  constructor
  · intro j
    by_cases hj : j = t
    · subst hj; rw [Function.update_self]; exact hU.trans (h.seen i)
    · rw [Function.update_of_ne hj]; exact h.seen j
  · intro j a ha
    obtain ⟨h1, h2, -⟩ := hO j a ha
    rw [Function.update_of_ne h1]
    exact h.owns j a h2
  · intro j k a hjk ha
    obtain ⟨h1, h2, h3⟩ := hO j a ha
    by_cases hk : k = t
    · subst hk
      rw [Function.update_self]
      by_cases hji : j = i
      · exact h3 hji
      · exact hU.unseen (h.apart j i a hji h2)
    · rw [Function.update_of_ne hk]
      exact h.apart j k a hjk h2
  · exact h.frozen
  · intro j a ha
    exact h.thaw j a (hO j a ha).2.1

end Mem

/-! ### Variables -/

section Slots

variable {slots : Slots} {S : Nat → Slots}

/-- A goroutine writes to a variable of its own, or makes one. -/
theorem SlotsOk.write (h : SlotsOk slots S) {i a : Nat} (x : Slot) (ha : S i a ≠ none ∨ slots a = none) :
    SlotsOk (Function.update slots a (some x))
      (Function.update S i (Function.update (S i) a (some x))) := by
  have hS : ∀ j, j ≠ i → S j a = none := by
    intro j hj
    rcases ha with ha | ha
    · exact (h.apart i j a (Ne.symm hj)).resolve_left ha
    · cases hs : S j a with
      | none => rfl
      | some y => rw [h.holds j a y hs] at ha; cases ha
  constructor
  · intro j b y hb
    by_cases hj : j = i
    · subst hj
      rw [Function.update_self] at hb
      by_cases hba : b = a
      · subst hba; rw [Function.update_self] at hb ⊢; exact hb
      · rw [Function.update_of_ne hba] at hb ⊢; exact h.holds j b y hb
    · rw [Function.update_of_ne hj] at hb
      have hba : b ≠ a := by rintro rfl; rw [hS j hj] at hb; cases hb
      rw [Function.update_of_ne hba]
      exact h.holds j b y hb
  · have key : ∀ j b, j ≠ i → Function.update (S i) a (some x) b = none ∨ S j b = none := by
      intro j b hj
      by_cases hba : b = a
      · subst hba; exact .inr (hS j hj)
      · rw [Function.update_of_ne hba]; exact h.apart i j b (Ne.symm hj)
    intro j k b hjk
    by_cases hj : j = i
    · subst hj
      rw [Function.update_self, Function.update_of_ne (Ne.symm hjk)]
      exact key k b (Ne.symm hjk)
    · rw [Function.update_of_ne hj]
      by_cases hk : k = i
      · subst hk
        rw [Function.update_self]
        exact (key j b hj).symm
      · rw [Function.update_of_ne hk]
        exact h.apart j k b hjk

/-- Variables go from one goroutine to another, or out of use. -/
theorem SlotsOk.move (h : SlotsOk slots S) {S' : Nat → Slots}
    (hS : ∀ i a x, S' i a = some x → ∃ j, S j a = some x)
    (h1 : ∀ i j a, i ≠ j → S' i a = none ∨ S' j a = none) : SlotsOk slots S' := by
  refine ⟨fun i a x hx => ?_, h1⟩
  obtain ⟨j, hj⟩ := hS i a x hx
  exact h.holds j a x hj

end Slots

/-! ### Wait groups and channels -/

section Sync

variable {sync : Nat → Option Sync} {thr : Nat → Thread} {Y : Nat → Nat → Option Pend}
  {post : Nat → Post} {kids : Nat → List Nat}

theorem SyncOk.some' {K : List Nat} {w : Nat} {y : Option Sync} {p : Pend}
    (h : SyncOk thr post K w y p) : y ≠ none := by
  cases p with
  | wg c ps => rw [h.1]; simp
  | chan ps => obtain ⟨⟨sent, h1, -⟩, -⟩ := h; rw [h1]; simp

/-- Something happens at one wait group or channel, by the goroutine that has it. -/
theorem SyncsOk.replace (h : SyncsOk sync thr Y post kids) {i w : Nat} (hw : ∀ j, j ≠ i → Y j w = none)
    {K : List Nat} {y' : Sync} {p' : Pend} (hk : SyncOk thr post K w (some y') p')
    (hK : ∀ t j x, thr t = .worker j x → j.dest.id = w → t ∈ K) :
    SyncsOk (Function.update sync w (some y')) thr
      (Function.update Y i (Function.update (Y i) w (some p'))) post (Function.update kids w K) := by
  constructor
  · intro j k v hjk
    have key : ∀ j, j ≠ i → Function.update (Y i) w (some p') v = none ∨ Y j v = none := by
      intro j hj
      by_cases hv : v = w
      · subst hv; exact .inr (hw j hj)
      · rw [Function.update_of_ne hv]; exact h.apart i j v (Ne.symm hj)
    by_cases hj : j = i
    · subst hj
      rw [Function.update_self, Function.update_of_ne (Ne.symm hjk)]
      exact key k (Ne.symm hjk)
    · rw [Function.update_of_ne hj]
      by_cases hk : k = i
      · subst hk
        rw [Function.update_self]
        exact (key j hj).symm
      · rw [Function.update_of_ne hk]
        exact h.apart j k v hjk
  · intro j v p hp
    by_cases hv : v = w
    · subst hv
      by_cases hj : j = i
      · subst hj
        rw [Function.update_self, Function.update_self] at hp
        cases hp
        rw [Function.update_self, Function.update_self]
        exact hk
      · rw [Function.update_of_ne hj, hw j hj] at hp
        cases hp
    · rw [Function.update_of_ne hv, Function.update_of_ne hv]
      refine h.ok j v p ?_
      by_cases hj : j = i
      · subst hj
        rw [Function.update_self, Function.update_of_ne hv] at hp
        exact hp
      · rw [Function.update_of_ne hj] at hp
        exact hp
  · intro t j x hx
    obtain ⟨h1, h2⟩ := h.workers t j x hx
    by_cases hv : j.dest.id = w
    · rw [hv, Function.update_self, Function.update_self]
      exact ⟨hK t j x hx hv, by simp⟩
    · rw [Function.update_of_ne hv, Function.update_of_ne hv]
      exact ⟨h1, h2⟩

/-- Nobody waits any more for some of them. -/
theorem SyncsOk.drop (h : SyncsOk sync thr Y post kids) {Y' : Nat → Nat → Option Pend}
    (hY : ∀ i w p, Y' i w = some p → Y i w = some p) : SyncsOk sync thr Y' post kids := by
  have hn : ∀ i w, Y i w = none → Y' i w = none := by
    intro i w hw
    cases he : Y' i w with
    | none => rfl
    | some p => rw [hY i w p he] at hw; cases hw
  exact ⟨fun i j w hij => (h.apart i j w hij).imp (hn i w) (hn j w),
    fun i w p hp => h.ok i w p (hY i w p hp), h.workers⟩

/-- A new goroutine. -/
theorem SyncsOk.go (h : SyncsOk sync thr Y post kids) {i t : Nat} (ht : thr t = .unused) {j : Job}
    {x : T Point} {q : Post} {Y' : Nat → Option Pend} (hp : Push (Y i) j.dest q Y') :
    SyncsOk sync (Function.update thr t (.worker j x)) (Function.update Y i Y')
      (Function.update post t q)
      (Function.update kids j.dest.id (kids j.dest.id ++ [t])) := by
  have hnk : ∀ {k v p}, Y k v = some p → t ∉ kids v := by
    intro k v p hkv hm
    obtain ⟨j', h1, -⟩ := (h.ok k v p hkv).kid hm
    rw [ht] at h1
    cases h1
  have hcongr : ∀ {k v p}, Y k v = some p → SyncOk (Function.update thr t (.worker j x))
      (Function.update post t q) (kids v) v (sync v) p := by
    intro k v p hkv
    have hn := hnk hkv
    refine (h.ok k v p hkv).congr (fun u hu => ?_) fun u hu => ?_
    · rw [Function.update_of_ne (by rintro rfl; exact hn hu)]
      exact .refl _
    · rw [Function.update_of_ne (by rintro rfl; exact hn hu)]
  obtain ⟨w, hw⟩ : ∃ w, w = j.dest.id := ⟨_, rfl⟩
  -- the wait group or channel before and after
  obtain ⟨p, p', hYw, hY', hok⟩ : ∃ p p', Y i w = some p ∧ Y' = Function.update (Y i) w (some p') ∧
      SyncOk (Function.update thr t (.worker j x)) (Function.update post t q) (kids w ++ [t]) w
        (sync w) p' := by
    generalize hd : j.dest = d at hp hw
    cases hp with
    | @wg w' c ps _ h1 =>
      change w = w' at hw
      subst hw
      refine ⟨_, _, h1, rfl, ?_⟩
      obtain ⟨g1, g2, g3, g4⟩ := hcongr h1
      refine ⟨?_, ?_, ?_, ?_⟩
      · rw [g1, List.countP_append, List.countP_singleton, Function.update_self]
        have : (Thread.worker j x).live = true := rfl
        rw [this, if_pos rfl]
        congr 2
        omega
      · rw [g2, List.map_append, List.map_singleton, Function.update_self]
      · exact List.nodup_append.2 ⟨g3, List.nodup_singleton t, fun a ha b hb hab => by
          rw [List.mem_singleton] at hb
          subst hb
          subst hab
          exact hnk h1 ha⟩
      · intro u hu
        rcases List.mem_append.1 hu with hu | hu
        · exact g4 u hu
        · rw [List.mem_singleton] at hu
          subst hu
          rw [Function.update_self]
          exact ⟨j, rfl, hd⟩
    | @chan c idx ps _ h1 =>
      change w = c at hw
      subst hw
      refine ⟨_, _, h1, rfl, ?_⟩
      obtain ⟨⟨sent, g0, g0', g0''⟩, g2, g3, g4⟩ := hcongr h1
      refine ⟨⟨sent, g0, g0', ?_⟩, ?_, ?_, ?_⟩
      · intro u
        rw [g0'', List.mem_append, List.mem_singleton]
        constructor
        · exact fun h => ⟨.inl h.1, h.2⟩
        · rintro ⟨h' | rfl, h2⟩
          · exact ⟨h', h2⟩
          · rw [Function.update_self] at h2
            cases h2
      · rw [g2, List.map_append, List.map_singleton, Function.update_self, Function.update_self]
        have : (Thread.worker j x).idx = idx := by
          show j.dest.idx = idx
          rw [hd]
          rfl
        rw [this]
      · exact List.nodup_append.2 ⟨g3, List.nodup_singleton t, fun a ha b hb hab => by
          rw [List.mem_singleton] at hb
          subst hb
          subst hab
          exact hnk h1 ha⟩
      · intro u hu
        rcases List.mem_append.1 hu with hu | hu
        · exact g4 u hu
        · rw [List.mem_singleton] at hu
          subst hu
          rw [Function.update_self]
          exact ⟨j, idx, rfl, hd⟩
  rw [← hw]
  subst hY'
  have hsw := (h.ok i w p hYw).some'
  constructor
  · intro a b v hab
    have : ∀ k, Function.update Y i (Function.update (Y i) w (some p')) k v = none ↔ Y k v = none := by
      intro k
      by_cases hk : k = i
      · subst hk
        rw [Function.update_self]
        by_cases hv : v = w
        · subst hv; rw [Function.update_self, hYw]; simp
        · rw [Function.update_of_ne hv]
      · rw [Function.update_of_ne hk]
    rw [this, this]
    exact h.apart a b v hab
  · intro k v p0 hp0
    by_cases hv : v = w
    · subst hv
      rw [Function.update_self]
      by_cases hk : k = i
      · subst hk
        rw [Function.update_self, Function.update_self] at hp0
        cases hp0
        exact hok
      · rw [Function.update_of_ne hk] at hp0
        rcases h.apart k i v hk with h1 | h1
        · rw [h1] at hp0; cases hp0
        · rw [h1] at hYw; cases hYw
    · rw [Function.update_of_ne hv]
      refine hcongr (k := k) ?_
      by_cases hk : k = i
      · subst hk
        rw [Function.update_self, Function.update_of_ne hv] at hp0
        exact hp0
      · rw [Function.update_of_ne hk] at hp0
        exact hp0
  · intro u j' x' hu
    by_cases hut : u = t
    · subst hut
      rw [Function.update_self] at hu
      cases hu
      rw [← hw, Function.update_self]
      exact ⟨by simp, hsw⟩
    · rw [Function.update_of_ne hut] at hu
      obtain ⟨h1, h2⟩ := h.workers u j' x' hu
      refine ⟨?_, h2⟩
      by_cases hv : j'.dest.id = w
      · rw [hv, Function.update_self]
        exact List.mem_append_left _ (hv ▸ h1)
      · rw [Function.update_of_ne hv]
        exact h1

/-- A goroutine signals its end. -/
theorem SyncsOk.signal {s s' : Shared} (h : SyncsOk s.sync thr Y post kids) {t : Nat} {j : Job} {x : T Point}
    {P : Point} (ht : thr t = .worker j x) (hs : Signal j.dest P s s') :
    SyncsOk s'.sync (Function.update thr t (.ended j P)) Y post kids := by
  obtain ⟨hk, -⟩ := h.workers t j x ht
  have hne : ∀ {k v p}, Y k v = some p → v ≠ j.dest.id → t ∉ kids v := by
    intro k v p hkv hv hm
    obtain ⟨j', h1, h2⟩ := (h.ok k v p hkv).kid hm
    rw [ht] at h1
    cases h1
    exact hv h2.symm
  have hother : ∀ {k v p}, Y k v = some p → v ≠ j.dest.id →
      SyncOk (Function.update thr t (.ended j P)) post (kids v) v (s.sync v) p := by
    intro k v p hkv hv
    have hn := hne hkv hv
    refine (h.ok k v p hkv).congr (fun u hu => ?_) fun u hu => rfl
    rw [Function.update_of_ne (by rintro rfl; exact hn hu)]
    exact .refl _
  have hjob : ∀ u, (Function.update thr t (.ended j P) u).job = (thr u).job := by
    intro u
    by_cases hu : u = t
    · subst hu; rw [Function.update_self, ht]; rfl
    · rw [Function.update_of_ne hu]
  have hidx : ∀ u, (Function.update thr t (.ended j P) u).idx = (thr u).idx := by
    intro u
    unfold Thread.idx
    rw [hjob]
  have hworkers : ∀ {sync' : Nat → Option Sync}, (∀ v, s.sync v ≠ none → sync' v ≠ none) →
      ∀ u j' x', Function.update thr t (.ended j P) u = .worker j' x' →
        u ∈ kids j'.dest.id ∧ sync' j'.dest.id ≠ none := by
    intro sync' hsync u j' x' hu
    by_cases hut : u = t
    · subst hut; rw [Function.update_self] at hu; cases hu
    · rw [Function.update_of_ne hut] at hu
      obtain ⟨h1, h2⟩ := h.workers u j' x' hu
      exact ⟨h1, hsync _ h2⟩
  generalize hd : j.dest = d at hs hother hk
  cases hs with
  | @done w n _ _ h1 =>
    refine ⟨h.apart, ?_, hworkers ?_⟩
    · intro k v p hkv
      dsimp only
      by_cases hv : v = w
      · subst hv
        rw [Function.update_self]
        have hok := h.ok k v p hkv
        cases p with
        | wg c ps =>
          obtain ⟨g1, g2, g3, g4⟩ := hok
          refine ⟨?_, g2, g3, fun u hu => by rw [hjob]; exact g4 u hu⟩
          rw [h1] at g1
          have hm : t ∈ kids v := hk
          obtain ⟨pre, suf, hps⟩ := List.append_of_mem hm
          rw [hps] at g1 g3 ⊢
          have hnd := List.nodup_cons.1 (List.nodup_middle.1 g3)
          have hpre : t ∉ pre := fun h => hnd.1 (List.mem_append_left _ h)
          have hsuf : t ∉ suf := fun h => hnd.1 (List.mem_append_right _ h)
          have hc : ∀ l : List Nat, t ∉ l → l.countP (fun u =>
              (Function.update thr t (Thread.ended j P) u).live) = l.countP fun u => (thr u).live := by
            intro l hl
            apply List.countP_congr
            intro u hu
            rw [Function.update_of_ne (by rintro rfl; exact hl hu)]
          have l1 : (Thread.worker j x).live = true := rfl
          have l2 : (Thread.ended j P).live = false := rfl
          simp only [List.countP_append, List.countP_cons, ht, Function.update_self, hc pre hpre,
            hc suf hsuf, l1, l2, Option.some.injEq, Sync.wg.injEq, if_true,
            Bool.false_eq_true, if_false] at g1 ⊢
          omega
        | chan ps =>
          obtain ⟨⟨sent, g0, -⟩, -⟩ := hok
          rw [h1] at g0
          cases g0
      · rw [Function.update_of_ne hv]
        exact hother hkv hv
    · intro v hv
      dsimp only
      by_cases hvw : v = w
      · subst hvw; simp
      · rw [Function.update_of_ne hvw]; exact hv
  | @send c idx _ buf _ h1 hl =>
    refine ⟨h.apart, ?_, hworkers ?_⟩
    · intro k v p hkv
      dsimp only
      by_cases hv : v = c
      · subst hv
        rw [Function.update_self]
        have hok := h.ok k v p hkv
        cases p with
        | wg c ps =>
          rw [hok.1] at h1
          cases h1
        | chan ps =>
          obtain ⟨⟨sent, g0, g0', g0''⟩, g2, g3, g4⟩ := hok
          have hnt : t ∉ sent := by
            intro hm
            have := ((g0'' t).1 hm).2
            rw [ht] at this
            cases this
          refine ⟨⟨sent ++ [t], ?_, ?_, ?_⟩, ?_, g3, fun u hu => by rw [hjob]; exact g4 u hu⟩
          · rw [h1] at g0
            cases g0
            rw [List.map_append, List.map_singleton, Function.update_self]
            congr 2
            congr 1
            · refine List.map_congr_left fun u hu => ?_
              rw [Function.update_of_ne (by rintro rfl; exact hnt hu)]
            · show [(idx, P)] = [(j.dest.idx, P)]
              rw [hd]
              rfl
          · exact List.nodup_append.2 ⟨g0', List.nodup_singleton t, fun a ha b hb hab => by
              rw [List.mem_singleton] at hb
              subst hb
              subst hab
              exact hnt ha⟩
          · intro u
            rw [List.mem_append, List.mem_singleton, g0'']
            by_cases hut : u = t
            · subst hut
              rw [Function.update_self]
              exact ⟨fun _ => ⟨hk, rfl⟩, fun _ => .inr rfl⟩
            · rw [Function.update_of_ne hut]
              simp [hut]
          · rw [g2]
            exact List.map_congr_left fun u _ => by rw [hidx]
      · rw [Function.update_of_ne hv]
        exact hother hkv hv
    · intro v hv
      dsimp only
      by_cases hvw : v = c
      · subst hvw; simp
      · rw [Function.update_of_ne hvw]; exact hv

end Sync

/-! ### One access of one goroutine -/

theorem PostsOk.imp {thr thr' : Nat → Thread} {V V' : Nat → Cells} {S S' : Nat → Slots}
    {Y Y' : Nat → Nat → Option Pend} {post post' : Nat → Post} {kids kids' : Nat → List Nat}
    (h : PostsOk thr V S Y post kids)
    (h' : ∀ i w p, Y' i w = some p → ∀ t ∈ kids' w, ∀ j P, thr' t = .ended j P →
      (∃ i w p, Y i w = some p ∧ t ∈ kids w) ∧ thr t = .ended j P ∧ V' t = V t ∧ S' t = S t ∧
        post' t = post t) : PostsOk thr' V' S' Y' post' kids' := by
  intro i w p hp t ht j P he
  obtain ⟨⟨i', w', p', h1, h2⟩, h3, h4, h5, h6⟩ := h' i w p hp t ht j P he
  rw [h4, h5, h6]
  exact h i' w' p' h1 t h2 j P h3

/-- The goroutine has not signalled its end (specification; rangeproof.go:54, 259). -/
def Thread.Active (t : Thread) : Prop := t.live = true ∨ t.job = none

theorem Thread.Active.ne {t : Thread} (h : t.Active) (j : Job) (P : Point) : t ≠ .ended j P := by
  rintro rfl
  rcases h with h | h <;> cases h

theorem active_of_ne {t : Thread} (h : ∀ j P, t ≠ .ended j P) : t.Active := by
  cases hl : t.live with
  | true => exact .inl hl
  | false =>
    right
    by_contra hj
    obtain ⟨j, P, he⟩ := ended_of hl hj
    exact h j P he

/-- The numbers that any of `i` and `ts` see (specification; rangeproof.go:189). -/
noncomputable def joinV (mem : Cells) (V : Nat → Cells) (i : Nat) (ts : List Nat) : Cells := by
  classical
  exact fun a => if V i a ≠ none ∨ ∃ t ∈ ts, V t a ≠ none then mem a else none

/-- The variables that any of `i` and `ts` have (specification; rangeproof.go:189). -/
noncomputable def joinS (slots : Slots) (S : Nat → Slots) (i : Nat) (ts : List Nat) : Slots := by
  classical
  exact fun a => if S i a ≠ none ∨ ∃ t ∈ ts, S t a ≠ none then slots a else none

/-- The goroutine `i` gets what the ended goroutines `ts` have left. -/
theorem Core.absorb {s : Shared} {thr : Nat → Thread} {G : Ghost} (hc : Core s thr G) {i : Nat}
    (hi : (thr i).Active) {w : Nat} {p : Pend} (hp : G.Y i w = some p) {ts K : List Nat}
    (hts : ∀ t ∈ ts, t ∈ G.kids w ∧ (thr t).live = false) (hK : ∀ t ∈ K, t ∈ G.kids w ∧ t ∉ ts)
    {y' : Sync} {p' : Pend} (hk : SyncOk thr G.post K w (some y') p')
    (hw : ∀ t j x, thr t = .worker j x → j.dest.id = w → t ∈ K) :
    ∃ G' : Ghost, Core { s with sync := Function.update s.sync w (some y') } thr G' ∧
      G'.F = G.F ∧ G'.post = G.post ∧ (∀ t, t ≠ i → (thr t).Active → G'.own t = G.own t) ∧
      ∃ V' S', G'.own i = ⟨V', G.O i, S', Function.update (G.Y i) w (some p')⟩ ∧
        G.V i ≼ V' ∧ SubS (G.S i) S' ∧ ∀ t ∈ ts, G.V t ≼ V' ∧ SubS (G.S t) S' := by
  classical
  have hne : ∀ t ∈ ts, t ≠ i := by
    rintro t ht rfl
    obtain ⟨h1, h2⟩ := hts t ht
    obtain ⟨j, hj, -⟩ := (hc.sync.ok t w p hp).kid h1
    obtain ⟨j, P, he⟩ := ended_of h2 (by rw [hj]; simp)
    exact hi.ne j P he
  have hjob : ∀ t ∈ ts, (thr t).job ≠ none := by
    intro t ht
    obtain ⟨j, hj, -⟩ := (hc.sync.ok i w p hp).kid (hts t ht).1
    rw [hj]
    simp
  set V' := joinV s.mem G.V i ts with hV'
  set S' := joinS s.slots G.S i ts with hS'
  have v1 : V' ≼ s.mem := by
    intro a v h
    rw [hV', joinV] at h
    split at h
    · exact h
    · cases h
  have v2 : ∀ t, t = i ∨ t ∈ ts → G.V t ≼ V' := by
    intro t ht a v h
    rw [hV', joinV, if_pos]
    · exact hc.mem.seen t a v h
    · rcases ht with rfl | ht
      · left; rw [h]; simp
      · right; exact ⟨t, ht, by rw [h]; simp⟩
  have v3 : ∀ a, V' a ≠ none → G.V i a ≠ none ∨ ∃ t ∈ ts, G.V t a ≠ none := by
    intro a h
    by_contra hn
    rw [hV', joinV, if_neg hn] at h
    exact h rfl
  have s1 : SubS S' s.slots := by
    intro a v h
    rw [hS', joinS] at h
    split at h
    · exact h
    · cases h
  have s2 : ∀ t, t = i ∨ t ∈ ts → SubS (G.S t) S' := by
    intro t ht a v h
    rw [hS', joinS, if_pos]
    · exact hc.slots.holds t a v h
    · rcases ht with rfl | ht
      · left; rw [h]; simp
      · right; exact ⟨t, ht, by rw [h]; simp⟩
  have s3 : ∀ a, S' a ≠ none → G.S i a ≠ none ∨ ∃ t ∈ ts, G.S t a ≠ none := by
    intro a h
    by_contra hn
    rw [hS', joinS, if_neg hn] at h
    exact h rfl
  set SS : Nat → Slots := fun t => if t = i then S' else if t ∈ ts then fun _ => none else G.S t with hSS
  have ssi : SS i = S' := if_pos rfl
  have sst : ∀ t, t ∈ ts → SS t = fun _ => none := fun t ht => by
    rw [hSS]; dsimp only; rw [if_neg (hne t ht), if_pos ht]
  have sso : ∀ t, t ≠ i → t ∉ ts → SS t = G.S t := fun t h1 h2 => by
    rw [hSS]; dsimp only; rw [if_neg h1, if_neg h2]
  have hso : SlotsOk s.slots SS := by
    have hap : ∀ j a, j ≠ i → S' a = none ∨ SS j a = none := by
      intro j a hj
      by_cases hjt : j ∈ ts
      · right; rw [sst j hjt]
      · rw [sso j hj hjt]
        by_cases hS : S' a = none
        · exact .inl hS
        · right
          rcases s3 a hS with h | ⟨t, ht, h⟩
          · exact (hc.slots.apart i j a (Ne.symm hj)).resolve_left h
          · exact (hc.slots.apart t j a (by rintro rfl; exact hjt ht)).resolve_left h
    constructor
    · intro j
      by_cases hj : j = i
      · subst hj; rw [ssi]; exact s1
      · by_cases hjt : j ∈ ts
        · rw [sst j hjt]; intro a x h; cases h
        · rw [sso j hj hjt]; exact hc.slots.holds j
    · intro j k a hjk
      by_cases hj : j = i
      · subst hj; rw [ssi]; exact hap k a (Ne.symm hjk)
      · by_cases hk : k = i
        · subst hk; rw [ssi]; exact (hap j a hj).symm
        · by_cases hjt : j ∈ ts
          · left; rw [sst j hjt]
          · by_cases hkt : k ∈ ts
            · right; rw [sst k hkt]
            · rw [sso j hj hjt, sso k hk hkt]; exact hc.slots.apart j k a hjk
  refine ⟨⟨Function.update G.V i V', G.O, SS, Function.update G.Y i (Function.update (G.Y i) w (some p')),
    G.post, Function.update G.kids w K, G.F⟩, ?_, rfl, rfl, ?_, V', S', ?_, v2 i (.inl rfl), s2 i (.inl rfl),
    fun t ht => ⟨v2 t (.inr ht), s2 t (.inr ht)⟩⟩
  · have hother : ∀ j, j ≠ i → G.Y j w = none := fun j hj =>
      (hc.sync.apart j i w hj).resolve_right (by rw [hp]; simp)
    refine ⟨hc.mem.absorb (fun t ht => hc.quiet t (hts t ht).2 (hjob t ht)) v1 (v2 i (.inl rfl)) v3, hso,
      hc.sync.replace hother hk hw, ?_, hc.mono, hc.quiet, ?_⟩
    · refine hc.posts.imp ?_
      intro k v q hq t ht j P he
      have hti : t ≠ i := by rintro rfl; exact hi.ne j P he
      dsimp only at hq ht ⊢
      have key : (∃ i w p, G.Y i w = some p ∧ t ∈ G.kids w) ∧ t ∉ ts := by
        by_cases hv : v = w
        · subst hv
          rw [Function.update_self] at ht
          exact ⟨⟨i, v, p, hp, (hK t ht).1⟩, (hK t ht).2⟩
        · rw [Function.update_of_ne hv] at ht
          have hq' : G.Y k v = some q := by
            by_cases hki : k = i
            · subst hki
              rw [Function.update_self, Function.update_of_ne hv] at hq
              exact hq
            · rw [Function.update_of_ne hki] at hq
              exact hq
          refine ⟨⟨k, v, q, hq', ht⟩, fun htt => hv ?_⟩
          obtain ⟨j1, h1, h2⟩ := (hc.sync.ok k v q hq').kid ht
          obtain ⟨j2, h3, h4⟩ := (hc.sync.ok i w p hp).kid (hts t htt).1
          rw [h1] at h3
          cases h3
          rw [← h2, h4]
      exact ⟨key.1, he, Function.update_of_ne hti _ _, sso t hti key.2, rfl⟩
    · obtain ⟨n, hn⟩ := hc.fin
      refine ⟨max n (w + 1), fun a ha => ?_⟩
      obtain ⟨h1, h2, h3, h4⟩ := hn a (le_trans (le_max_left _ _) ha)
      refine ⟨h1, h2, ?_, h4⟩
      dsimp only
      rw [Function.update_of_ne (by have := le_trans (le_max_right _ _) ha; omega)]
      exact h3
  · intro t hti hta
    have hnt : t ∉ ts := by
      intro ht
      obtain ⟨j, P, he⟩ := ended_of (hts t ht).2 (hjob t ht)
      exact hta.ne j P he
    unfold Ghost.own
    dsimp only
    rw [Function.update_of_ne hti, Function.update_of_ne hti, sso t hti hnt]
  · unfold Ghost.own
    dsimp only
    rw [Function.update_self, Function.update_self, ssi]

end Zk.Mem
