import Verif.Mem.ParRun
import Mathlib.Logic.Hydra

/-!
# No data races, no deadlock, no schedule without end
-/

namespace Zk.Mem

open Zk Zk.Proto

variable {hash : Bytes → Bytes} {e : Env} {cp : Params} {α : Type}
  {J : Job → Cells → Slots → (Go (Point × Own) → Prop) → Prop} {Bad : Prop}

/-- What a goroutine needs for an access (specification; rangeproof.go:63, 67). -/
def Allowed (o : Own) : Place × Bool → Prop
  | (.num a, w) => o.V a ≠ none ∧ (w = true → o.O a)
  | (.var a _, _) => o.S a ≠ none

theorem TWp.allowed {x : T α} {o : Own} {Q : Go (α × Own) → Prop} (hO : ∀ a, o.O a → o.V a ≠ none)
    (h : TWp J Bad x o Q) {l : Place × Bool} (hl : x.access = some l) : Allowed o l := by
  cases x <;> cases hl
  · obtain ⟨v, hv, -⟩ := h
    exact ⟨by rw [hv]; simp, fun h => by cases h⟩
  · exact ⟨hO _ h.1, fun _ => h.1⟩
  · obtain ⟨v, hv, -⟩ := h
    show o.S _ ≠ none
    rw [hv]
    simp
  · obtain ⟨v, hv, -⟩ := h
    show o.S _ ≠ none
    rw [hv]
    simp

theorem Inv.allowed {s₀ : Cells} {s : State} {G : Ghost} (h : Inv hash e cp s₀ s G) {i : Nat}
    {l : Place × Bool} (hl : (s.thr i).access = some l) : Allowed (G.own i) l := by
  have ht := h.thr i
  have hO : ∀ a, (G.own i).O a → (G.own i).V a ≠ none := h.core.mem.owns i
  generalize s.thr i = t at ht hl
  cases t with
  | client log p =>
    cases p with
    | look p k =>
      cases p with
      | none => cases hl
      | some a =>
        cases hl
        obtain ⟨-, -, -, -, v, h5, -⟩ := ht
        cases h5 with
        | cell _ _ h5 => exact ⟨by rw [h5]; simp, fun h => by cases h⟩
    | _ => cases hl
  | call log c x k =>
    obtain ⟨-, -, v, V, -, -, -, h6, -⟩ := ht
    exact h6.allowed hO hl
  | worker j x =>
    obtain ⟨-, c, v, -, -, h3⟩ := ht
    exact h3.allowed hO hl
  | _ => cases hl

theorem Inv.not_racy {s₀ : Cells} {s : State} {G : Ghost} (h : Inv hash e cp s₀ s G) : ¬ s.Racy := by
  rintro ⟨i, j, l, w, w', hij, h1, h2, hw⟩
  have a1 := h.allowed h1
  have a2 := h.allowed h2
  cases l with
  | num a =>
    rcases hw with rfl | rfl
    · exact a2.1 (h.core.mem.apart i j a hij (a1.2 rfl))
    · exact a1.1 (h.core.mem.apart j i a (Ne.symm hij) (a2.2 rfl))
  | var a f => exact (h.core.slots.apart i j a hij).elim a1 a2

/-! ### Steps -/

theorem TWp.can {x : T α} {s : Shared} {o : Own} {Q : Go (α × Own) → Prop} {thr : Nat → Thread}
    (hV : o.V ≼ s.mem) (hO : ∀ a, o.O a → o.V a ≠ none) (hS : SubS o.S s.slots) (hf : Finite s thr)
    (hd : x.Simple fun _ => True) (h : TWp J Bad x o Q) :
    (∃ a, x = .ret a) ∨ x = .fail ∨ ∃ x' s', x.Step s x' s' none := by
  obtain ⟨n, hn⟩ := hf
  obtain ⟨n1, -, -, -⟩ := hn n le_rfl
  cases x with
  | ret a => exact .inl ⟨a, rfl⟩
  | fail => exact .inr (.inl rfl)
  | load a k =>
    obtain ⟨v, hv, -⟩ := h
    exact .inr (.inr ⟨_, _, .load (hV a v hv)⟩)
  | store a v k =>
    refine .inr (.inr ⟨_, _, .store fun hn => hO a h.1 (hV.unseen hn)⟩)
  | alloc v k => exact .inr (.inr ⟨_, _, .alloc n1⟩)
  | get a f k =>
    obtain ⟨v, hv, -⟩ := h
    exact .inr (.inr ⟨_, _, .get (hS a v hv)⟩)
  | set a f p k =>
    obtain ⟨v, hv, -⟩ := h
    exact .inr (.inr ⟨_, _, .set (hS a v hv)⟩)
  | _ => exact hd.elim

/-- A goroutine of a wait group can go on; that of a channel with an empty buffer too. -/
theorem Inv.worker_step {s₀ : Cells} {s : State} {G : Ghost} (h : Inv hash e cp s₀ s G) {t : Nat} {j : Job}
    {x : T Point} (ht : s.thr t = .worker j x)
    (hd : (∃ w n, j.dest = .wg w ∧ s.sync w = some (.wg (n + 1))) ∨
      ∃ c idx, j.dest = .chan c idx ∧ s.sync c = some (.chan [])) : ∃ s', s.Step hash e s' := by
  have hk := h.thr t
  rw [ht] at hk
  obtain ⟨h0, c, v, -, -, h3⟩ := hk
  rcases h3.can (h.core.mem.seen t) (h.core.mem.owns t) (h.core.slots.holds t) h.core.fin h0 with
    ⟨P, rfl⟩ | rfl | ⟨x', sh, hx⟩
  · rcases hd with ⟨w, n, h1, h2⟩ | ⟨c, idx, h1, h2⟩
    · exact ⟨_, .signal ht (by rw [h1]; exact .done h2)⟩
    · exact ⟨_, .signal ht (by rw [h1]; exact .send h2 (by decide))⟩
  · exact ⟨_, .workPanics ht⟩
  · exact ⟨_, .work ht hx⟩

theorem Inv.call_step {s₀ : Cells} {s : State} {G : Ghost} (h : Inv hash e cp s₀ s G) {i : Nat}
    {log : List (Call × Res)} {c : Call} {x : T Res} {k : Res → Prog} (hi : s.thr i = .call log c x k) :
    ∃ s', s.Step hash e s' := by
  have ht := h.thr i
  rw [hi] at ht
  obtain ⟨-, -, v, V, -, -, -, hw, -⟩ := ht
  have hs := h.core
  obtain ⟨n, hn⟩ := hs.fin
  obtain ⟨n1, n2, n3, n4⟩ := hn n le_rfl
  have inn : ∀ {x' sh}, x.Step s.toShared x' sh none → ∃ s', s.Step hash e s' :=
    fun hx => ⟨_, .inside hi hx⟩
  cases x with
  | ret r => exact ⟨_, .returns hi⟩
  | fail => exact ⟨_, .panics hi⟩
  | load a k =>
    obtain ⟨v, hv, -⟩ := hw
    exact inn (.load (hs.mem.seen i a v hv))
  | store a v k => exact inn (.store fun hn => hs.mem.owns i a hw.1 ((hs.mem.seen i).unseen hn))
  | alloc v k => exact inn (.alloc n1)
  | mkSlot k => exact inn (.mkSlot n2)
  | get a f k =>
    obtain ⟨v, hv, -⟩ := hw
    exact inn (.get (hs.slots.holds i a v hv))
  | set a f p k =>
    obtain ⟨v, hv, -⟩ := hw
    exact inn (.set (hs.slots.holds i a v hv))
  | mkWg k => exact inn (.mkWg n3)
  | add w m k =>
    obtain ⟨c, ps, hY, -⟩ := hw
    exact inn (.add (hs.sync.ok i w _ hY).1)
  | wait w k =>
    obtain ⟨ps, hY, -⟩ := hw
    obtain ⟨g1, -, -, g4⟩ := hs.sync.ok i w _ hY
    cases hc : (G.kids w).countP (fun t => (s.thr t).live) with
    | zero =>
      rw [hc] at g1
      exact inn (.wait g1)
    | succ m =>
      obtain ⟨t, ht, hl⟩ := List.countP_pos_iff.1 (by rw [hc]; omega :
        0 < (G.kids w).countP (fun t => (s.thr t).live))
      obtain ⟨j, hj, hjd⟩ := g4 t ht
      obtain ⟨x, hx⟩ : ∃ x, s.thr t = .worker j x := by
        cases hst : s.thr t <;> rw [hst] at hl hj <;> cases hl
        cases hj
        exact ⟨_, rfl⟩
      refine h.worker_step hx (.inl ⟨w, m, hjd, ?_⟩)
      rw [hc] at g1
      rw [g1]
      congr 2
      omega
  | mkChan k => exact inn (.mkChan n3)
  | recv c k =>
    obtain ⟨ps, hY, hne, -⟩ := hw
    obtain ⟨⟨sent, g0, -, g0'⟩, g2, -, g4⟩ := hs.sync.ok i c _ hY
    cases sent with
    | cons t sent => exact inn (.recv g0)
    | nil =>
      obtain ⟨t, ht⟩ := List.exists_mem_of_ne_nil (G.kids c) (by
        rintro h0
        rw [h0] at g2
        exact hne g2)
      obtain ⟨j, idx, hj, hjd⟩ := g4 t ht
      have hl : (s.thr t).live = true := by
        by_contra hl
        have := (g0' t).2 ⟨ht, by simpa using hl⟩
        cases this
      obtain ⟨x, hx⟩ : ∃ x, s.thr t = .worker j x := by
        cases hst : s.thr t <;> rw [hst] at hl hj <;> cases hl
        cases hj
        exact ⟨_, rfl⟩
      exact h.worker_step hx (.inr ⟨c, idx, hjd, g0⟩)
  | go j k => exact ⟨_, .go hi .go n4⟩

/-- A goroutine of the client that has stopped, or not one of the client (specification;
rangeproof.go:154). -/
def Thread.Stopped : Thread → Prop
  | .client _ p => p = .stop
  | .call _ _ _ _ => False
  | _ => True

theorem Inv.progress {s₀ : Cells} {s : State} {G : Ghost} (h : Inv hash e cp s₀ s G) {i : Nat}
    (hi : ¬ (s.thr i).Stopped) : ∃ s', s.Step hash e s' := by
  have ht := h.thr i
  cases hst : s.thr i with
  | client log p =>
    rw [hst] at ht hi
    obtain ⟨n, hn⟩ := h.core.fin
    cases p with
    | stop => exact absurd rfl hi
    | make x k => exact ⟨_, .make hst (hn n le_rfl).1⟩
    | look p k =>
      obtain ⟨-, -, -, -, v, h5, -⟩ := ht
      cases h5 with
      | cell a _ h5 => exact ⟨_, .look hst (h.core.mem.seen i a v h5)⟩
    | call c k => exact ⟨_, .call hst⟩
  | call log c x k => exact h.call_step hst
  | _ => rw [hst] at hi; exact absurd trivial hi

/-! ### The end -/

/-- One goroutine comes after another: it is the same one later, or it was started by it
(specification; rangeproof.go:187). -/
inductive Thread.Next (hash : Bytes → Bytes) (e : Env) : Thread → Thread → Prop
  | make (log x) (k : Ptr → Prog) (p : Ptr) : Next hash e (.client log (k p)) (.client log (.make x k))
  | look (log p) (k : Int → Prog) (v : Int) : Next hash e (.client log (k v)) (.client log (.look p k))
  | call (log c) (k : Res → Prog) : Next hash e (.call log c (callPar hash e c) k) (.client log (.call c k))
  | inside (log c) {x x' : T Res} (k : Res → Prog) {s s' : Shared} {j : Option Job} (h : x.Step s x' s' j) :
      Next hash e (.call log c x' k) (.call log c x k)
  | go (log c) (x : T Res) (k : Res → Prog) (j : Job) :
      Next hash e (.worker j (j.body hash e)) (.call log c x k)
  | returns (log c) (r : Res) (k : Res → Prog) :
      Next hash e (.client (log ++ [(c, r)]) (k r)) (.call log c (.ret r) k)
  | panics (t : Thread) (h : t ≠ .panicked) (h' : ∀ j P, t ≠ .ended j P) : Next hash e .panicked t
  | work (j) {x x' : T Point} {s s' : Shared} {g : Option Job} (h : x.Step s x' s' g) :
      Next hash e (.worker j x') (.worker j x)
  | signal (j) (x : T Point) (P : Point) : Next hash e (.ended j P) (.worker j x)

theorem acc_panicked : Acc (Thread.Next hash e) .panicked := by
  constructor
  intro t h
  cases h
  rename_i h h'
  exact absurd rfl h

theorem acc_ended (j : Job) (P : Point) : Acc (Thread.Next hash e) (.ended j P) := by
  constructor
  intro t h
  cases h
  rename_i h h'
  exact absurd rfl (h' j P)

theorem step_acc : ∀ (x : T α), Acc (fun x' x : T α => ∃ s s' j, x.Step s x' s' j) x := by
  intro x
  induction x with
  | ret a => exact ⟨_, fun y ⟨_, _, _, h⟩ => by cases h⟩
  | fail => exact ⟨_, fun y ⟨_, _, _, h⟩ => by cases h⟩
  | load a k ih => exact ⟨_, fun y ⟨_, _, _, h⟩ => by cases h; exact ih _⟩
  | store a v k ih => exact ⟨_, fun y ⟨_, _, _, h⟩ => by cases h; exact ih⟩
  | alloc v k ih => exact ⟨_, fun y ⟨_, _, _, h⟩ => by cases h; exact ih _⟩
  | mkSlot k ih => exact ⟨_, fun y ⟨_, _, _, h⟩ => by cases h; exact ih _⟩
  | get a f k ih => exact ⟨_, fun y ⟨_, _, _, h⟩ => by cases h; exact ih _⟩
  | set a f p k ih => exact ⟨_, fun y ⟨_, _, _, h⟩ => by cases h; exact ih⟩
  | mkWg k ih => exact ⟨_, fun y ⟨_, _, _, h⟩ => by cases h; exact ih _⟩
  | add w n k ih => exact ⟨_, fun y ⟨_, _, _, h⟩ => by cases h; exact ih⟩
  | wait w k ih => exact ⟨_, fun y ⟨_, _, _, h⟩ => by cases h; exact ih⟩
  | mkChan k ih => exact ⟨_, fun y ⟨_, _, _, h⟩ => by cases h; exact ih _⟩
  | recv c k ih => exact ⟨_, fun y ⟨_, _, _, h⟩ => by cases h; exact ih _⟩
  | go j k ih => exact ⟨_, fun y ⟨_, _, _, h⟩ => by cases h; exact ih⟩

theorem acc_worker (j : Job) (x : T Point) : Acc (Thread.Next hash e) (.worker j x) := by
  induction step_acc x with
  | intro x _ ih =>
    constructor
    intro t h
    cases h with
    | panics => exact acc_panicked
    | work _ h => exact ih _ ⟨_, _, _, h⟩
    | signal => exact acc_ended _ _

theorem acc_call (log : List (Call × Res)) (c : Call) (x : T Res) (k : Res → Prog)
    (hk : ∀ log r, Acc (Thread.Next hash e) (.client log (k r))) :
    Acc (Thread.Next hash e) (.call log c x k) := by
  induction step_acc x with
  | intro x _ ih =>
    constructor
    intro t h
    cases h with
    | panics => exact acc_panicked
    | inside _ _ _ h => exact ih _ ⟨_, _, _, h⟩
    | go => exact acc_worker _ _
    | returns => exact hk _ _

theorem acc_client (p : Prog) : ∀ log, Acc (Thread.Next hash e) (.client log p) := by
  induction p with
  | stop =>
    intro log
    constructor
    intro t h
    cases h with
    | panics => exact acc_panicked
  | make x k ih =>
    intro log
    constructor
    intro t h
    cases h with
    | panics => exact acc_panicked
    | make => exact ih _ _
  | look p k ih =>
    intro log
    constructor
    intro t h
    cases h with
    | panics => exact acc_panicked
    | look => exact ih _ _
  | call c k ih =>
    intro log
    constructor
    intro t h
    cases h with
    | panics => exact acc_panicked
    | call => exact acc_call _ _ _ _ fun log r => ih r log

theorem acc_thread (t : Thread) : Acc (Thread.Next hash e) t := by
  cases t with
  | unused =>
    constructor
    intro t h
    cases h with
    | panics => exact acc_panicked
  | client log p => exact acc_client p log
  | call log c x k => exact acc_call _ _ _ _ fun log r => acc_client _ log
  | worker j x => exact acc_worker j x
  | ended j P => exact acc_ended j P
  | panicked => exact acc_panicked

/-- The goroutines in use (specification; rangeproof.go:187). -/
def Thread.ms : Thread → Multiset Thread
  | .unused => 0
  | t => {t}

theorem Thread.ms_of {t : Thread} (h : t ≠ .unused) : t.ms = {t} := by
  cases t <;> first | rfl | exact absurd rfl h

/-- All goroutines in use, of the first `n` (specification; rangeproof.go:187). -/
def State.ms (s : State) (n : Nat) : Multiset Thread := ∑ i ∈ Finset.range n, (s.thr i).ms

theorem ms_update {thr : Nat → Thread} {i n : Nat} (hi : i < n) (t : Thread) :
    (∑ k ∈ Finset.range n, (Function.update thr i t k).ms) + (thr i).ms =
      (∑ k ∈ Finset.range n, (thr k).ms) + t.ms := by
  have hm : i ∈ Finset.range n := Finset.mem_range.2 hi
  rw [← Finset.add_sum_erase _ _ hm, ← Finset.add_sum_erase (Finset.range n) (fun k => (thr k).ms) hm,
    Function.update_self]
  have : ∑ k ∈ (Finset.range n).erase i, (Function.update thr i t k).ms =
      ∑ k ∈ (Finset.range n).erase i, (thr k).ms := by
    refine Finset.sum_congr rfl fun k hk => ?_
    rw [Function.update_of_ne (Finset.ne_of_mem_erase hk)]
  rw [this]
  abel

/-- The goroutines from `n` on are not in use (specification; rangeproof.go:187). -/
def State.Below (s : State) (n : Nat) : Prop := ∀ i, n ≤ i → s.thr i = .unused

theorem State.Below.lt {s : State} {n : Nat} (h : s.Below n) {i : Nat} {t : Thread} (hi : s.thr i = t)
    (ht : t ≠ .unused) : i < n := by
  by_contra hn
  exact ht (hi ▸ h i (by omega))

theorem State.Below.ms_le {s : State} {n m : Nat} (h : s.Below n) (hm : n ≤ m) : s.ms m = s.ms n := by
  unfold State.ms
  symm
  refine Finset.sum_subset (Finset.range_mono hm) fun i _ hi => ?_
  rw [h i (by simpa using hi)]
  rfl

theorem cut_of_update {s : State} {i n : Nat} {t t' : Thread} {sh : Shared} {made : List Call} (hb : s.Below n)
    (hi : s.thr i = t) (ht : t ≠ .unused) (ht' : t' ≠ .unused) (h : Thread.Next hash e t' t) :
    ∃ m, State.Below ⟨sh, Function.update s.thr i t', made⟩ m ∧
      Relation.CutExpand (Thread.Next hash e) (State.ms ⟨sh, Function.update s.thr i t', made⟩ m) (s.ms n) := by
  have hlt := hb.lt hi ht
  refine ⟨n, fun k hk => ?_, {t'}, t, ?_, ?_⟩
  · show Function.update s.thr i t' k = _
    rw [Function.update_of_ne (by omega)]
    exact hb k hk
  · simpa using h
  · have := ms_update hlt (thr := s.thr) t'
    rw [hi, Thread.ms_of ht, Thread.ms_of ht'] at this
    exact this

theorem step_cut {s s' : State} {n : Nat} (hb : s.Below n) (hs : s.Step hash e s') :
    ∃ m, s'.Below m ∧ Relation.CutExpand (Thread.Next hash e) (s'.ms m) (s.ms n) := by
  cases hs with
  | make hi h => exact cut_of_update hb hi (by simp) (by simp) (.make ..)
  | look hi h => exact cut_of_update hb hi (by simp) (by simp) (.look ..)
  | call hi => exact cut_of_update hb hi (by simp) (by simp) (.call ..)
  | inside hi h => exact cut_of_update hb hi (by simp) (by simp) (.inside _ _ _ h)
  | returns hi => exact cut_of_update hb hi (by simp) (by simp) (.returns ..)
  | panics hi => exact cut_of_update hb hi (by simp) (by simp) (.panics _ (by simp) (by simp))
  | work hi h => exact cut_of_update hb hi (by simp) (by simp) (.work _ h)
  | signal hi h => exact cut_of_update hb hi (by simp) (by simp) (.signal ..)
  | workPanics hi => exact cut_of_update hb hi (by simp) (by simp) (.panics _ (by simp) (by simp))
  | @go i log c x k x' sh j t hi h ht =>
    have hlt := hb.lt hi (by simp)
    have hti : t ≠ i := by rintro rfl; rw [hi] at ht; cases ht
    refine ⟨max n (t + 1), fun m hm => ?_, {.call log c x' k, .worker j (j.body hash e)}, .call log c x k,
      ?_, ?_⟩
    · show Function.update _ _ _ m = _
      have h1 := le_trans (le_max_left _ _) hm
      have h2 := le_trans (le_max_right _ _) hm
      rw [Function.update_of_ne (by omega), Function.update_of_ne (by omega)]
      exact hb m h1
    · intro a ha
      rw [Multiset.insert_eq_cons, Multiset.mem_cons, Multiset.mem_singleton] at ha
      rcases ha with rfl | rfl
      · exact .inside _ _ _ h
      · exact .go ..
    · have h1 := ms_update (lt_of_lt_of_le hlt (le_max_left n (t + 1))) (thr := s.thr) (.call log c x' k)
      have h2 := ms_update (lt_of_lt_of_le (Nat.lt_succ_self t) (le_max_right n (t + 1)))
        (thr := Function.update s.thr i (.call log c x' k)) (.worker j (j.body hash e))
      rw [Function.update_of_ne hti, ht] at h2
      rw [hi, Thread.ms_of (by simp), Thread.ms_of (by simp)] at h1
      rw [Thread.ms_of (t := .worker j (j.body hash e)) (by simp)] at h2
      rw [← hb.ms_le (le_max_left n (t + 1))]
      change _ + (0 : Multiset Thread) = _ at h2
      rw [add_zero] at h2
      change (∑ m ∈ Finset.range (max n (t + 1)), (Function.update (Function.update s.thr i (.call log c x' k)) t
        (.worker j (j.body hash e)) m).ms) + _ = (∑ k ∈ Finset.range (max n (t + 1)), (s.thr k).ms) + _
      rw [h2, add_right_comm, h1, Multiset.insert_eq_cons, ← Multiset.singleton_add, add_assoc]

theorem acc_state {s : State} {n : Nat} (hb : s.Below n) : Acc (fun s' s : State => s.Step hash e s') s := by
  have : Std.Irrefl (Thread.Next hash e) := ⟨fun t h => by
    have ht := acc_thread (hash := hash) (e := e) t
    induction ht with
    | intro t _ ih => exact ih t h h⟩
  have hm : Acc (Relation.CutExpand (Thread.Next hash e)) (s.ms n) :=
    Relation.acc_of_singleton fun t _ => (acc_thread t).cutExpand
  generalize hg : s.ms n = m at hm
  induction hm generalizing s n with
  | intro m _ ih =>
    constructor
    intro s' hs
    obtain ⟨n', h1, h2⟩ := step_cut hb hs
    rw [hg] at h2
    exact ih _ h2 h1 rfl

end Zk.Mem
