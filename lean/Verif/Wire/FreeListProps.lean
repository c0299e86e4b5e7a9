import Verif.Wire.FreeListModel
import Verif.Wire.Lemmas

/-! # Properties C07, C08: the free list -/

namespace Zk.Wire.FreeList

open Zk Zk.Wire

/-- What a call must produce, independently of buffers: the bytes of the value, or the first bytes
of the stream, or an error when the stream is too short.  See wire/common.go:71-165. -/
def Op.spec : Op → Option Bytes
  | .get w s => if w.size ≤ s.length then some (s.take w.size) else none
  | .put8 v => some (putUint8 v)
  | .put16 v => some (putUint16 v)
  | .put32 v => some (putUint32 v)
  | .put64 v => some (putUint64 v)

theorem Op.spec_of_full (op : Op) (h : op.width.size ≤ op.src.length) :
    op.spec = some (op.src.take op.width.size) := by
  cases op with
  | get w s => simp only [Op.width, Op.src] at h; simp [Op.spec, Op.width, Op.src, h]
  | _ => simp [Op.spec, Op.width, Op.src, Width.size, putUint8, putUint16, putUint32, putUint64]

theorem Op.spec_of_short (op : Op) (h : op.src.length < op.width.size) : op.spec = none := by
  cases op with
  | get w s => simp only [Op.width, Op.src] at h; simp [Op.spec, Nat.not_le.2 h]
  | _ => simp [Op.width, Op.src, Width.size, putUint8, putUint16, putUint32, putUint64] at h

theorem Width.size_le (w : Width) : w.size ≤ 8 := by cases w <;> simp [Width.size]

/-- What is known of a goroutine's buffer at each point.  See wire/common.go:71-165. -/
def goodThr (heap : Nat → Bytes) : TState → Prop
  | .idle => True
  | .started _ => True
  | .filling op b i => i ≤ op.width.size ∧ i ≤ op.src.length ∧ (heap b).take i = op.src.take i
  | .draining op b acc => op.width.size ≤ op.src.length ∧ acc.length ≤ op.width.size ∧
      (heap b).take op.width.size = op.src.take op.width.size ∧ acc = op.src.take acc.length
  | .returning op _ r => r = op.spec

/-- The invariant of all reachable states.  See wire/common.go:71-165. -/
structure Inv (s : State) : Prop where
  excl : ∀ t u b, (s.thr t).holds = some b → (s.thr u).holds = some b → t = u
  notFree : ∀ t b, (s.thr t).holds = some b → b ∉ s.free
  nodup : s.free.Nodup
  len : s.free.length ≤ maxItems
  freeLt : ∀ b ∈ s.free, b < s.next
  heldLt : ∀ t b, (s.thr t).holds = some b → b < s.next
  cap : ∀ b, b < s.next → (s.heap b).length = 8
  good : ∀ t, goodThr s.heap (s.thr t)
  logOk : ∀ e ∈ s.log, e.2 = e.1.spec
  noPanic : s.panicked = false

theorem inv_init : Inv init where
  excl := by simp [init, TState.holds]
  notFree := by simp [init]
  nodup := by simp [init]
  len := by simp [init]
  freeLt := by simp [init]
  heldLt := by simp [init, TState.holds]
  cap := by simp [init]
  good := by simp [init, goodThr]
  logOk := by simp [init]
  noPanic := rfl

/-- Changing a buffer that goroutine `u` does not hold does not matter to `u`. -/
theorem goodThr_update (heap : Nat → Bytes) (b : Nat) (v : Bytes) (ts : TState)
    (h : ts.holds ≠ some b) (hg : goodThr heap ts) : goodThr (Function.update heap b v) ts := by
  cases ts with
  | idle => trivial
  | started => trivial
  | filling op c i =>
    have : c ≠ b := by simpa [TState.holds] using h
    simpa [goodThr, Function.update_of_ne this] using hg
  | draining op c acc =>
    have : c ≠ b := by simpa [TState.holds] using h
    simpa [goodThr, Function.update_of_ne this] using hg
  | returning op c r => exact hg

theorem inv_step {s s' : State} (hi : Inv s) (hs : Step s s') : Inv s' := by
  obtain ⟨excl, notFree, nodup, len, freeLt, heldLt, cap, good, logOk, noPanic⟩ := hi
  -- what a single updated goroutine requires when it keeps or drops its buffer
  have updExcl : ∀ (t : Nat) (ts : TState),
      (∀ b, ts.holds = some b → (s.thr t).holds = some b) →
      ∀ u v b, (Function.update s.thr t ts u).holds = some b →
        (Function.update s.thr t ts v).holds = some b → u = v := by
    intro t ts hk u v b hu hv
    apply excl u v b
    · by_cases h : u = t
      · subst h; rw [Function.update_self] at hu; exact hk _ hu
      · rwa [Function.update_of_ne h] at hu
    · by_cases h : v = t
      · subst h; rw [Function.update_self] at hv; exact hk _ hv
      · rwa [Function.update_of_ne h] at hv
  have updHeld : ∀ (t : Nat) (ts : TState),
      (∀ b, ts.holds = some b → (s.thr t).holds = some b) →
      ∀ u b, (Function.update s.thr t ts u).holds = some b → (s.thr u).holds = some b := by
    intro t ts hk u b hu
    by_cases h : u = t
    · subst h; rw [Function.update_self] at hu; exact hk _ hu
    · rwa [Function.update_of_ne h] at hu
  have updGood : ∀ (t : Nat) (ts : TState), goodThr s.heap ts →
      ∀ u, goodThr s.heap (Function.update s.thr t ts u) := by
    intro t ts hg u
    by_cases h : u = t
    · subst h; rwa [Function.update_self]
    · rw [Function.update_of_ne h]; exact good u
  cases hs with
  | call t op h =>
    have hk : ∀ b, (TState.started op).holds = some b → (s.thr t).holds = some b := by
      simp [TState.holds]
    exact ⟨updExcl _ _ hk, fun u b hu => notFree u b (updHeld _ _ hk u b hu), nodup, len, freeLt,
      fun u b hu => heldLt u b (updHeld _ _ hk u b hu), cap, updGood _ _ trivial, logOk, noPanic⟩
  | borrow t op b fs h hf hc =>
    have hb : b ∈ s.free := by simp [hf]
    have hnd : (b :: fs).Nodup := hf ▸ nodup
    have hheld : ∀ u c, (Function.update s.thr t (.filling op b 0) u).holds = some c →
        (u = t ∧ c = b) ∨ (u ≠ t ∧ (s.thr u).holds = some c) := by
      intro u c hu
      by_cases hut : u = t
      · subst hut; rw [Function.update_self] at hu
        left; simp [TState.holds] at hu; exact ⟨rfl, hu.symm⟩
      · rw [Function.update_of_ne hut] at hu; exact Or.inr ⟨hut, hu⟩
    refine ⟨?_, ?_, (List.nodup_cons.1 hnd).2, ?_, ?_, ?_, cap, updGood _ _ ?_, logOk, noPanic⟩
    · intro u v c hu hv
      rcases hheld u c hu with ⟨rfl, rfl⟩ | ⟨_, hu'⟩
      · rcases hheld v c hv with ⟨rfl, _⟩ | ⟨_, hv'⟩
        · rfl
        · exact absurd hb (notFree v c hv')
      · rcases hheld v c hv with ⟨rfl, rfl⟩ | ⟨_, hv'⟩
        · exact absurd hb (notFree u c hu')
        · exact excl u v c hu' hv'
    · intro u c hu
      rcases hheld u c hu with ⟨rfl, rfl⟩ | ⟨_, hu'⟩
      · exact (List.nodup_cons.1 hnd).1
      · intro hm; exact notFree u c hu' (by rw [hf]; exact List.mem_cons_of_mem _ hm)
    · rw [hf] at len; simp at len; show fs.length ≤ maxItems; omega
    · intro c hc'; exact freeLt c (by rw [hf]; exact List.mem_cons_of_mem _ hc')
    · intro u c hu
      rcases hheld u c hu with ⟨rfl, rfl⟩ | ⟨_, hu'⟩
      · exact freeLt _ hb
      · exact heldLt u c hu'
    · simp [goodThr]
  | borrowPanic t op b fs h hf hc =>
    have := cap b (freeLt b (by simp [hf]))
    omega
  | alloc t op h hf =>
    have hheld : ∀ u c, (Function.update s.thr t (.filling op s.next 0) u).holds = some c →
        (u = t ∧ c = s.next) ∨ (u ≠ t ∧ (s.thr u).holds = some c) := by
      intro u c hu
      by_cases hut : u = t
      · subst hut; rw [Function.update_self] at hu
        left; simp [TState.holds] at hu; exact ⟨rfl, hu.symm⟩
      · rw [Function.update_of_ne hut] at hu; exact Or.inr ⟨hut, hu⟩
    refine ⟨?_, ?_, nodup, len, ?_, ?_, ?_, ?_, logOk, noPanic⟩
    · intro u v c hu hv
      rcases hheld u c hu with ⟨rfl, rfl⟩ | ⟨_, hu'⟩
      · rcases hheld v _ hv with ⟨rfl, _⟩ | ⟨_, hv'⟩
        · rfl
        · exact absurd (heldLt v _ hv') (lt_irrefl _)
      · rcases hheld v c hv with ⟨rfl, rfl⟩ | ⟨_, hv'⟩
        · exact absurd (heldLt u _ hu') (lt_irrefl _)
        · exact excl u v c hu' hv'
    · intro u c _; simp [hf]
    · intro c hc'; have := freeLt c hc'; show c < s.next + 1; omega
    · intro u c hu
      show c < s.next + 1
      rcases hheld u c hu with ⟨rfl, rfl⟩ | ⟨_, hu'⟩
      · omega
      · have := heldLt u c hu'; omega
    · intro c hc'
      by_cases hcn : c = s.next
      · subst hcn; simp
      · show (Function.update s.heap s.next _ c).length = 8
        rw [Function.update_of_ne hcn]
        exact cap c (by change c < s.next + 1 at hc'; omega)
    · intro u
      by_cases hut : u = t
      · subst hut; simp [goodThr]
      · simp only [Function.update_of_ne hut]
        apply goodThr_update _ _ _ _ _ (good u)
        intro hh; exact absurd (heldLt u _ hh) (lt_irrefl _)
  | fill t op b i x h hlt hx =>
    have hk : ∀ c, (TState.filling op b (i + 1)).holds = some c → (s.thr t).holds = some c := by
      rw [h]; simp [TState.holds]
    have hbt : (s.thr t).holds = some b := by rw [h]; rfl
    have hcapb := cap b (heldLt t b hbt)
    refine ⟨updExcl _ _ hk, fun u c hu => notFree u c (updHeld _ _ hk u c hu), nodup, len, freeLt,
      fun u c hu => heldLt u c (updHeld _ _ hk u c hu), ?_, ?_, logOk, noPanic⟩
    · intro c hc'
      by_cases hcb : c = b
      · subst hcb; simpa using hcapb
      · show (Function.update s.heap b _ c).length = 8
        rw [Function.update_of_ne hcb]; exact cap c hc'
    · intro u
      by_cases hut : u = t
      · subst hut
        have hg := good u
        rw [h] at hg
        obtain ⟨h1, h2, h3⟩ := hg
        have hsrc : i < op.src.length := by
          by_contra hcon
          rw [List.getElem?_eq_none (by omega)] at hx; simp at hx
        simp only [Function.update_self, goodThr]
        refine ⟨by omega, by omega, ?_⟩
        have hw := op.width.size_le
        rw [List.take_add_one, List.take_add_one, List.take_set_of_le (le_refl i), h3, hx,
          List.getElem?_set_self (by omega)]
      · simp only [Function.update_of_ne hut]
        apply goodThr_update _ _ _ _ _ (good u)
        intro hh; exact hut (excl u t b hh hbt)
  | short t op b i h hlt hx =>
    have hk : ∀ c, (TState.returning op b none).holds = some c → (s.thr t).holds = some c := by
      rw [h]; simp [TState.holds]
    refine ⟨updExcl _ _ hk, fun u c hu => notFree u c (updHeld _ _ hk u c hu), nodup, len, freeLt,
      fun u c hu => heldLt u c (updHeld _ _ hk u c hu), cap, updGood _ _ ?_, logOk, noPanic⟩
    rw [List.getElem?_eq_none_iff] at hx
    exact (op.spec_of_short (by omega)).symm
  | full t op b i h hlt =>
    have hk : ∀ c, (TState.draining op b []).holds = some c → (s.thr t).holds = some c := by
      rw [h]; simp [TState.holds]
    refine ⟨updExcl _ _ hk, fun u c hu => notFree u c (updHeld _ _ hk u c hu), nodup, len, freeLt,
      fun u c hu => heldLt u c (updHeld _ _ hk u c hu), cap, updGood _ _ ?_, logOk, noPanic⟩
    have hg := good t
    rw [h] at hg
    obtain ⟨h1, h2, h3⟩ := hg
    subst hlt
    exact ⟨h2, by simp, h3, by simp⟩
  | drain t op b acc x h hlt hx =>
    have hk : ∀ c, (TState.draining op b (acc ++ [x])).holds = some c →
        (s.thr t).holds = some c := by
      rw [h]; simp [TState.holds]
    refine ⟨updExcl _ _ hk, fun u c hu => notFree u c (updHeld _ _ hk u c hu), nodup, len, freeLt,
      fun u c hu => heldLt u c (updHeld _ _ hk u c hu), cap, updGood _ _ ?_, logOk, noPanic⟩
    have hg := good t
    rw [h] at hg
    obtain ⟨h1, h2, h3, h4⟩ := hg
    refine ⟨h1, by simp; omega, h3, ?_⟩
    have hxs : op.src[acc.length]? = some x := by
      have e1 : ((s.heap b).take op.width.size)[acc.length]? = some x := by
        rw [List.getElem?_take_of_lt hlt, hx]
      rw [h3, List.getElem?_take_of_lt hlt] at e1
      exact e1
    rw [List.length_append, List.length_singleton, List.take_add_one, ← h4, hxs]; rfl
  | drainPanic t op b acc h hlt hx =>
    have hbt : (s.thr t).holds = some b := by rw [h]; rfl
    have hcapb := cap b (heldLt t b hbt)
    have hw := op.width.size_le
    rw [List.getElem?_eq_none_iff] at hx
    omega
  | drained t op b acc h hlt =>
    have hk : ∀ c, (TState.returning op b (some acc)).holds = some c →
        (s.thr t).holds = some c := by
      rw [h]; simp [TState.holds]
    refine ⟨updExcl _ _ hk, fun u c hu => notFree u c (updHeld _ _ hk u c hu), nodup, len, freeLt,
      fun u c hu => heldLt u c (updHeld _ _ hk u c hu), cap, updGood _ _ ?_, logOk, noPanic⟩
    have hg := good t
    rw [h] at hg
    obtain ⟨h1, h2, h3, h4⟩ := hg
    show some acc = op.spec
    rw [op.spec_of_full h1, h4, hlt]
  | giveBack t op b r h hl =>
    have hk : ∀ c, (TState.idle).holds = some c → (s.thr t).holds = some c := by
      simp [TState.holds]
    have hbt : (s.thr t).holds = some b := by rw [h]; rfl
    refine ⟨updExcl _ _ hk, ?_, ?_, ?_, ?_,
      fun u c hu => heldLt u c (updHeld _ _ hk u c hu), cap, updGood _ _ trivial, ?_, noPanic⟩
    · intro u c hu
      have hu' := updHeld _ _ hk u c hu
      simp only [List.mem_append, List.mem_singleton, not_or]
      refine ⟨notFree u c hu', ?_⟩
      rintro rfl
      have := excl u t c hu' hbt
      subst this
      simp [TState.holds] at hu
    · rw [List.nodup_append]
      refine ⟨nodup, by simp, ?_⟩
      intro a ha c hc
      simp only [List.mem_singleton] at hc
      subst hc
      rintro rfl
      exact notFree t _ hbt ha
    · simp; omega
    · intro c hc
      simp only [List.mem_append, List.mem_singleton] at hc
      rcases hc with hc | rfl
      · exact freeLt c hc
      · exact heldLt t _ hbt
    · intro e he
      simp only [List.mem_cons] at he
      rcases he with rfl | he
      · have hg := good t; rw [h] at hg; exact hg
      · exact logOk e he
  | drop t op b r h hl =>
    have hk : ∀ c, (TState.idle).holds = some c → (s.thr t).holds = some c := by
      simp [TState.holds]
    refine ⟨updExcl _ _ hk, fun u c hu => notFree u c (updHeld _ _ hk u c hu), nodup, len, freeLt,
      fun u c hu => heldLt u c (updHeld _ _ hk u c hu), cap, updGood _ _ trivial, ?_, noPanic⟩
    intro e he
    simp only [List.mem_cons] at he
    rcases he with rfl | he
    · have hg := good t; rw [h] at hg; exact hg
    · exact logOk e he

theorem inv_reachable {s : State} (h : Reachable s) : Inv s := by
  induction h with
  | refl => exact inv_init
  | tail _ hs ih => exact inv_step ih hs

/-- C07. In every reachable state, a buffer is held by at most one goroutine, a held buffer is
not in the free list, the free list has no duplicates and at most 1024 entries, every held or
free buffer has eight bytes, and no goroutine has panicked. -/
theorem C07_freelist_exclusive (s : State) (h : Reachable s) :
    (∀ t u b, (s.thr t).holds = some b → (s.thr u).holds = some b → t = u)
    ∧ (∀ t b, (s.thr t).holds = some b → b ∉ s.free)
    ∧ s.free.Nodup ∧ s.free.length ≤ 1024
    ∧ (∀ t b, (s.thr t).holds = some b → (s.heap b).length = 8)
    ∧ (∀ b ∈ s.free, (s.heap b).length = 8)
    ∧ s.panicked = false := by
  have hi := inv_reachable h
  exact ⟨hi.excl, hi.notFree, hi.nodup, hi.len, fun t b hb => hi.cap b (hi.heldLt t b hb),
    fun b hb => hi.cap b (hi.freeLt b hb), hi.noPanic⟩

/-- C08. Every call that finishes, in any interleaving and whatever the recycled buffer contained,
produced exactly the bytes its arguments determine. -/
theorem C08_stale_irrelevant (s : State) (h : Reachable s) (op : Op) (r : Option Bytes)
    (hl : (op, r) ∈ s.log) : r = op.spec :=
  (inv_reachable h).logOk _ hl

/-- What a `UintN` call returns to its caller, given the bytes it found in its buffer.
See wire/common.go:71-165. -/
def getResult {α : Type} (dec : Bytes → Go α) (zero : α) (n : Nat) (str : Bytes) :
    Option Bytes → Go (α × Option Err × Bytes)
  | none => .ok (zero, some "EOF", [])
  | some b => do let v ← dec b; pure (v, none, str.drop n)

/-- C08 for the values read: decoding the bytes that a finished `Uint8/16/32/64` call found in its
buffer gives the result of the sequential model, for every stream. -/
theorem C08_values (s : State) (h : Reachable s) (str : Bytes) (r : Option Bytes) :
    ((Op.get .w1 str, r) ∈ s.log → uint8 str = getResult (fun b => idx b 0) 0 1 str r)
    ∧ ((Op.get .w2 str, r) ∈ s.log → uint16 str = getResult leUint16 0 2 str r)
    ∧ ((Op.get .w4 str, r) ∈ s.log → uint32 str = getResult leUint32 0 4 str r)
    ∧ ((Op.get .w8 str, r) ∈ s.log → uint64 str = getResult leUint64 0 8 str r) := by
  refine ⟨fun hl => ?_, fun hl => ?_, fun hl => ?_, fun hl => ?_⟩ <;>
  · rw [C08_stale_irrelevant s h _ _ hl]
    simp only [Op.spec, Width.size]
    first
      | unfold uint8 readFull
      | unfold uint16 readFull
      | unfold uint32 readFull
      | unfold uint64 readFull
    split_ifs with h' <;> simp [getResult, h']

/-- A non-trivial reachable state: goroutine 0 has finished a one byte read, goroutine 1 holds the
recycled buffer (which still contains the stale byte 42) and goroutine 2 a fresh one. -/
example : ∃ s, Reachable s ∧ (s.thr 1).holds = some 0 ∧ (s.thr 2).holds = some 1 ∧
    s.heap 0 = [42, 0, 0, 0, 0, 0, 0, 0] ∧ (∃ op, (op, some [42]) ∈ s.log) := by
  have h0 : Reachable init := .refl
  exact ⟨_, .tail (.tail (.tail (.tail (.tail (.tail (.tail (.tail (.tail (.tail (.tail h0
      (.call _ 0 (.get .w1 [42, 43]) rfl)) (.alloc _ 0 _ rfl rfl))
      (.fill _ 0 _ 0 0 42 rfl (by decide) rfl)) (.full _ 0 _ 0 1 rfl rfl))
      (.drain _ 0 _ 0 [] 42 rfl (by decide) rfl)) (.drained _ 0 _ 0 [42] rfl rfl))
      (.giveBack _ 0 _ 0 _ rfl (by decide))) (.call _ 1 (.put16 7) rfl)) (.call _ 2 (.put64 9) rfl))
      (.borrow _ 1 (.put16 7) 0 [] rfl rfl (by decide))) (.alloc _ 2 (.put64 9) rfl rfl),
      rfl, rfl, rfl, _, List.mem_cons_self⟩

end Zk.Wire.FreeList
