import Verif.Stream.Model

/-!
# Reading in pieces is reading the bytes in a row
-/

namespace Zk.Stream

open Zk Zk.Wire Zk.Ser

/-- The bytes of a script in a row, as a `bytes.Buffer` would hold them, crypto.go:166-199. -/
def flat (s : Script) : Bytes := s.flatMap Prod.fst

/-- A reader that reports no error before its end, crypto.go:166-199. -/
def Quiet (s : Script) : Prop := ∀ c ∈ s, c.2 = none

@[simp] theorem flat_nil : flat [] = [] := rfl
@[simp] theorem flat_cons (b : Bytes) (e : Option Err) (s : Script) :
    flat ((b, e) :: s) = b ++ flat s := rfl
@[simp] theorem flat_append (s t : Script) : flat (s ++ t) = flat s ++ flat t := by
  simp [flat]

theorem Quiet.nil : Quiet [] := by intro c hc; cases hc
theorem Quiet.cons {b : Bytes} {s : Script} (h : Quiet s) : Quiet ((b, none) :: s) := by
  intro c hc
  rcases List.mem_cons.1 hc with rfl | hc
  · rfl
  · exact h c hc
theorem Quiet.tail {c : Bytes × Option Err} {s : Script} (h : Quiet (c :: s)) : Quiet s :=
  fun d hd => h d (List.mem_cons_of_mem _ hd)
theorem Quiet.head {c : Bytes × Option Err} {s : Script} (h : Quiet (c :: s)) : c.2 = none :=
  h c List.mem_cons_self

/-- The loop is the loop of `io.ReadAtLeast`. -/
theorem loop_unfold (min : Nat) (got : Bytes) (s : Script) :
    loop min got s =
      if min ≤ got.length then (got, none, s)
      else match read (min - got.length) s with
        | (b, some e, s) => (got ++ b, some e, s)
        | (b, none, s) => loop min (got ++ b) s := by
  cases s with
  | nil => simp [loop, read]
  | cons c s =>
    obtain ⟨b, e⟩ := c
    by_cases h : min ≤ got.length
    · simp [loop, h]
    · by_cases h2 : b.length ≤ min - got.length
      · cases e <;> simp [loop, read, h, h2]
      · have h3 : min ≤ (got ++ b.take (min - got.length)).length := by
          simp only [List.length_append, List.length_take]; omega
        simp only [loop, read, h, h2, if_false]
        simp only [loop, h3, if_true]

/-- The loop on a reader that begins quietly. -/
theorem loop_enough (min : Nat) (post : Script) :
    ∀ (pre : Script) (got : Bytes), Quiet pre → got.length ≤ min →
      min ≤ got.length + (flat pre).length →
      ∃ pre', Quiet pre' ∧ flat pre' = (flat pre).drop (min - got.length) ∧
        loop min got (pre ++ post) = (got ++ (flat pre).take (min - got.length), none, pre' ++ post) := by
  intro pre
  induction pre with
  | nil =>
    intro got _ h1 h2
    have h3 : min ≤ got.length := by simpa using h2
    refine ⟨[], Quiet.nil, by simp, ?_⟩
    rw [loop_unfold, if_pos h3]
    simp
  | cons c pre ih =>
    obtain ⟨b, e⟩ := c
    intro got hq h1 h2
    obtain rfl : e = none := hq.head
    by_cases h3 : min ≤ got.length
    · refine ⟨(b, none) :: pre, hq, ?_, ?_⟩
      · have : min - got.length = 0 := by omega
        rw [this]; rfl
      · have : min - got.length = 0 := by omega
        rw [loop_unfold, if_pos h3, this]; simp
    · by_cases h4 : b.length ≤ min - got.length
      · obtain ⟨pre', hq', hf, hl⟩ := ih (got ++ b) hq.tail (by simp; omega)
          (by simp only [flat_cons, List.length_append] at h2 ⊢; omega)
        refine ⟨pre', hq', ?_, ?_⟩
        · rw [hf, flat_cons, List.drop_append, List.drop_of_length_le h4, List.nil_append,
            List.length_append]
          congr 1; omega
        · have : loop min got ((b, none) :: pre ++ post) = loop min (got ++ b) (pre ++ post) := by
            simp [loop, h3, h4]
          rw [this, hl, flat_cons, List.take_append, List.take_of_length_le h4, List.length_append,
            List.append_assoc]
          congr 4; omega
      · refine ⟨(b.drop (min - got.length), none) :: pre, hq.tail.cons, ?_, ?_⟩
        · rw [flat_cons, flat_cons, List.drop_append_of_le_length (by omega)]
        · have : loop min got ((b, none) :: pre ++ post) =
              (got ++ b.take (min - got.length), none,
                (b.drop (min - got.length), none) :: (pre ++ post)) := by
            simp [loop, h3, h4]
          rw [this, flat_cons, List.take_append_of_le_length (by omega)]
          rfl

/-- The loop on a quiet reader that has not enough. -/
theorem loop_short (min : Nat) :
    ∀ (s : Script) (got : Bytes), Quiet s → got.length + (flat s).length < min →
      loop min got s = (got ++ flat s, some eof, []) := by
  intro s
  induction s with
  | nil =>
    intro got _ h
    have : ¬ min ≤ got.length := by simp at h; omega
    simp [loop, this]
  | cons c s ih =>
    obtain ⟨b, e⟩ := c
    intro got hq h
    obtain rfl : e = none := hq.head
    simp only [flat_cons, List.length_append] at h
    have h3 : ¬ min ≤ got.length := by omega
    have h4 : b.length ≤ min - got.length := by omega
    have : loop min got ((b, none) :: s) = loop min (got ++ b) s := by simp [loop, h3, h4]
    rw [this, ih _ hq.tail (by simp; omega)]
    simp

/-- Whatever the reader does: what was got is the beginning of the bytes delivered. -/
theorem loop_flat (min : Nat) :
    ∀ (s : Script) (got : Bytes), got.length ≤ min →
      (loop min got s).1 ++ flat (loop min got s).2.2 = got ++ flat s ∧
        (loop min got s).1.length ≤ min := by
  intro s
  induction s with
  | nil => intro got h; simp only [loop]; split <;> simp_all
  | cons c s ih =>
    obtain ⟨b, e⟩ := c
    intro got h
    by_cases h3 : min ≤ got.length
    · simp only [loop, h3, if_true]; simp; omega
    · by_cases h4 : b.length ≤ min - got.length
      · cases e with
        | some e => simp only [loop, h3, h4, if_true, if_false]; simp; omega
        | none =>
          simp only [loop, h3, h4, if_true, if_false]
          have := ih (got ++ b) (by simp; omega)
          simpa using this
      · simp only [loop, h3, h4, if_false, flat_cons]
        constructor
        · rw [List.append_assoc, ← List.append_assoc (b.take _), List.take_append_drop]
        · simp only [List.length_append, List.length_take]; omega

/-- `io.ReadFull` on a reader that begins quietly, with enough bytes. -/
theorem readFull_enough {n : Nat} {pre : Script} (post : Script) (hq : Quiet pre)
    (h : n ≤ (flat pre).length) :
    ∃ pre', Quiet pre' ∧ flat pre' = (flat pre).drop n ∧
      readFull n (pre ++ post) = ((flat pre).take n, none, pre' ++ post) := by
  obtain ⟨pre', hq', hf, hl⟩ := loop_enough n post pre [] hq (by simp) (by simpa using h)
  refine ⟨pre', hq', by simpa using hf, ?_⟩
  unfold readFull
  rw [hl]
  have : n ≤ (([] : Bytes) ++ (flat pre).take (n - ([] : Bytes).length)).length := by
    simp only [List.nil_append, List.length_nil, Nat.sub_zero, List.length_take]; omega
  simp only [this, if_true]
  simp

/-- `io.ReadFull` on a quiet reader with too few bytes. -/
theorem readFull_short {n : Nat} {s : Script} (hq : Quiet s) (h : (flat s).length < n) :
    readFull n s = (flat s, some (if flat s = [] then eof else unexpectedEOF), []) := by
  unfold readFull
  rw [loop_short n s [] hq (by simpa using h)]
  have h2 : ¬ n ≤ (([] : Bytes) ++ flat s).length := by simp; omega
  simp only [h2, if_false]
  by_cases h3 : flat s = []
  · simp [h3]
  · have : 0 < (flat s).length := List.length_pos_iff.2 h3
    simp [h3]

/-- `io.ReadFull` without an error returns the next `n` bytes delivered. -/
theorem readFull_none {n : Nat} {s s' : Script} {b : Bytes} (h : readFull n s = (b, none, s')) :
    b.length = n ∧ flat s = b ++ flat s' := by
  unfold readFull at h
  have hf := loop_flat n s [] (by simp)
  generalize hl : loop n [] s = r at h hf
  obtain ⟨got, err, s1⟩ := r
  simp only [List.nil_append] at h hf
  by_cases h1 : n ≤ got.length
  · simp only [h1, if_true, Prod.mk.injEq, true_and] at h
    obtain ⟨rfl, rfl⟩ := h
    exact ⟨by omega, hf.1.symm⟩
  · simp only [h1, if_false] at h
    split at h
    · simp at h
    · simp only [Prod.mk.injEq] at h
      obtain ⟨rfl, rfl, rfl⟩ := h
      exfalso
      -- the loop stops without an error only when it has enough
      have : ∀ (s : Script) (g got : Bytes) (s1 : Script),
          loop n g s = (got, none, s1) → n ≤ got.length := by
        intro s
        induction s with
        | nil =>
          intro g got s1 h
          simp only [loop] at h
          split at h
          · simp only [Prod.mk.injEq, true_and] at h; rw [← h.1]; assumption
          · simp at h
        | cons c s ih =>
          obtain ⟨b, e⟩ := c
          intro g got s1 h
          simp only [loop] at h
          split at h
          · simp only [Prod.mk.injEq, true_and] at h; rw [← h.1]; assumption
          · split at h
            · cases e with
              | some e => simp at h
              | none => exact ih _ _ _ h
            · simp only [Prod.mk.injEq, true_and] at h
              rw [← h.1]; simp only [List.length_append, List.length_take]; omega
      exact h1 (this _ _ _ _ hl)

/-! ## Two ways in which a read agrees with the read of `Verif.Wire.Model` -/

/-- `r` reads from a quiet reader followed by `post`, `t` reads the same bytes in a row.  Used to
compare the two models of crypto.go:166-199. -/
def Same {α : Type} (post : Script) (r : Go (α × Option Err × Script))
    (t : Go (α × Option Err × Bytes)) : Prop :=
  match t with
  | .panic => r = .panic
  | .ok (a, none, t') => ∃ pre, Quiet pre ∧ flat pre = t' ∧ r = .ok (a, none, pre ++ post)
  | .ok (a, some _, t') =>
    post = [] → ∃ e pre, Quiet pre ∧ flat pre = t' ∧ r = .ok (a, some e, pre)

/-- `r` reads from any reader, `t` the bytes it delivers in a row.  Used to compare the two models
of crypto.go:166-199. -/
def Honest {α : Type} (r : Go (α × Option Err × Script)) (t : Go (α × Option Err × Bytes)) : Prop :=
  match r with
  | .panic => t = .panic
  | .ok (a, none, s') => t = .ok (a, none, flat s')
  | .ok (_, some _, _) => True

theorem Same.bind {α β : Type} {post : Script} {r : Go (α × Option Err × Script)}
    {t : Go (α × Option Err × Bytes)} {f : α × Option Err × Script → Go (β × Option Err × Script)}
    {g : α × Option Err × Bytes → Go (β × Option Err × Bytes)} (h : Same post r t)
    (ok : ∀ a pre, Quiet pre → Same post (f (a, none, pre ++ post)) (g (a, none, flat pre)))
    (err : ∀ a e' t', ∃ b e2, g (a, some e', t') = .ok (b, some e2, t') ∧
      ∀ e s, ∃ e3, f (a, some e, s) = .ok (b, some e3, s)) :
    Same post (r >>= f) (t >>= g) := by
  match t, h with
  | .panic, h => rw [show r = .panic from h]; exact rfl
  | .ok (a, none, t'), h =>
    obtain ⟨pre, hq, rfl, rfl⟩ := h
    exact ok a pre hq
  | .ok (a, some e', t'), h =>
    obtain ⟨b, e2, hg, hf⟩ := err a e' t'
    rw [Go.bind_ok, hg]
    intro hp
    obtain ⟨e, pre, hq, hfl, rfl⟩ := h hp
    obtain ⟨e3, h3⟩ := hf e pre
    exact ⟨e3, pre, hq, hfl, by rw [Go.bind_ok, h3]⟩

theorem Honest.bind {α β : Type} {r : Go (α × Option Err × Script)}
    {t : Go (α × Option Err × Bytes)} {f : α × Option Err × Script → Go (β × Option Err × Script)}
    {g : α × Option Err × Bytes → Go (β × Option Err × Bytes)} (h : Honest r t)
    (ok : ∀ a s, Honest (f (a, none, s)) (g (a, none, flat s)))
    (err : ∀ a e s, ∃ b e2 s2, f (a, some e, s) = .ok (b, some e2, s2)) :
    Honest (r >>= f) (t >>= g) := by
  match r, h with
  | .panic, h => rw [show t = .panic from h]; exact rfl
  | .ok (a, none, s'), h =>
    rw [show t = .ok (a, none, flat s') from h]
    exact ok a s'
  | .ok (a, some e, s'), _ =>
    obtain ⟨b, e2, s2, hf⟩ := err a e s'
    rw [Go.bind_ok, hf]
    exact trivial

theorem Same.pure {α : Type} {post pre : Script} (hq : Quiet pre) (a : α) :
    Same post (.ok (a, none, pre ++ post)) (.ok (a, none, flat pre)) :=
  ⟨pre, hq, rfl, rfl⟩

theorem Same.error {α : Type} {post pre : Script} (hq : Quiet pre) (a : α) (e e' : Err) :
    Same post (.ok (a, some e, pre ++ post)) (.ok (a, some e', flat pre)) := by
  intro hp
  exact ⟨e, pre, hq, rfl, by rw [hp, List.append_nil]⟩

/-- The two outcomes of `Wire.readFull` against those of `readFull`. -/
theorem Same.readFull {α : Type} {post pre : Script} (hq : Quiet pre) (n : Nat)
    {f : Bytes × Option Err × Script → Go (α × Option Err × Script)}
    {g : Bytes × Option Err × Bytes → Go (α × Option Err × Bytes)}
    (ok : ∀ b pre', b.length = n → Quiet pre' →
      Same post (f (b, none, pre' ++ post)) (g (b, none, flat pre')))
    (err : ∀ b e e', ∃ a e2, g (b, some e', []) = .ok (a, some e2, []) ∧
      ∃ e3, f (b, some e, []) = .ok (a, some e3, [])) :
    Same post (f (Stream.readFull n (pre ++ post))) (g (Wire.readFull n (flat pre))) := by
  by_cases h : n ≤ (flat pre).length
  · obtain ⟨pre', hq', hf, hr⟩ := readFull_enough post hq h
    rw [hr, Wire.readFull, if_pos h, ← hf]
    exact ok _ _ (by rw [List.length_take]; omega) hq'
  · rw [Wire.readFull, if_neg h]
    obtain ⟨a, e2, hg, -⟩ := err (flat pre) eof "EOF"
    rw [hg]
    intro hp
    rw [hp, List.append_nil, readFull_short hq (by omega)]
    obtain ⟨a', e2', hg', e3, hf⟩ :=
      err (flat pre) (if flat pre = [] then eof else unexpectedEOF) "EOF"
    rw [hg] at hg'
    simp only [Go.ok.injEq, Prod.mk.injEq] at hg'
    exact ⟨e3, [], Quiet.nil, rfl, by rw [hf, hg'.1]⟩

theorem Honest.readFull {α : Type} (s : Script) (n : Nat)
    {f : Bytes × Option Err × Script → Go (α × Option Err × Script)}
    {g : Bytes × Option Err × Bytes → Go (α × Option Err × Bytes)}
    (ok : ∀ b s', b.length = n → Honest (f (b, none, s')) (g (b, none, flat s')))
    (err : ∀ b e s', ∃ a e2 s2, f (b, some e, s') = .ok (a, some e2, s2)) :
    Honest (f (Stream.readFull n s)) (g (Wire.readFull n (flat s))) := by
  generalize hr : Stream.readFull n s = r
  obtain ⟨b, e, s'⟩ := r
  cases e with
  | some e =>
    obtain ⟨a, e2, s2, hf⟩ := err b e s'
    rw [hf]; exact trivial
  | none =>
    obtain ⟨hl, hf⟩ := readFull_none hr
    rw [hf, Wire.readFull, if_pos (by rw [List.length_append]; omega),
      List.take_append_of_le_length (by omega), List.take_of_length_le (by omega),
      List.drop_append_of_le_length (by omega), List.drop_of_length_le (by omega)]
    exact ok _ _ hl

end Zk.Stream
