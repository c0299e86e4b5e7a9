import Verif.Mem.Model

/-!
# How the functions on memory are compared with the functions on values

What a computation does is described from the point of view of one goroutine.  It sees some cells, it
may write only to the cells it has made itself, and a new cell is any cell it does not see.
-/

namespace Zk.Mem

open Zk Zk.Proto

variable {α β γ δ : Type}

/-- The cells a goroutine can see, with their values (specification; crypto.go:86-110). -/
abbrev Cells := Nat → Option Int

/-- The cells of a store (specification; crypto.go:92). -/
abbrev cells (s : Store) : Cells := fun a => s[a]?

/-- Every cell of `s` has the same value in `t` (specification; crypto.go:86-110 is an example of code
that keeps its arguments). -/
def Le (s t : Cells) : Prop := ∀ (a : Nat) (v : Int), s a = some v → t a = some v

@[inherit_doc] infix:50 " ≼ " => Le

theorem Le.refl (s : Cells) : s ≼ s := fun _ _ h => h

theorem Le.trans {s t u : Cells} (h : s ≼ t) (h' : t ≼ u) : s ≼ u := fun a v e => h' a v (h a v e)

theorem Le.unseen {s t : Cells} (h : s ≼ t) {a : Nat} (ha : t a = none) : s a = none := by
  cases hs : s a with
  | none => rfl
  | some v => rw [h a v hs] at ha; cases ha

/-- The cells with one more, or with one written (specification; consistency.go:81). -/
def put (s : Cells) (a : Nat) (v : Int) : Cells := fun b => if b = a then some v else s b

theorem put_self (s : Cells) (a : Nat) (v : Int) : put s a v a = some v := if_pos rfl

theorem put_ne (s : Cells) {a b : Nat} (v : Int) (h : b ≠ a) : put s a v b = s b := if_neg h

theorem put_put (s : Cells) (a : Nat) (v w : Int) : put (put s a v) a w = put s a w := by
  funext b
  unfold put
  split <;> rfl

theorem Le.put {s t : Cells} (h : s ≼ t) {a : Nat} (ha : s a = none) (w : Int) : s ≼ put t a w := by
  intro b v hb
  rw [put_ne _ _ (by rintro rfl; rw [ha] at hb; cases hb)]
  exact h b v hb

theorem le_put {s : Cells} {a : Nat} (ha : s a = none) (w : Int) : s ≼ Mem.put s a w :=
  (Le.refl s).put ha w

theorem cells_append (s : Store) (v : Int) : cells (s ++ [v]) = put (cells s) s.length v := by
  funext b
  unfold put cells
  split
  · rename_i h; subst h; simp
  · rename_i h
    rcases Nat.lt_or_ge b s.length with hb | hb
    · rw [List.getElem?_append_left hb]
    · rw [List.getElem?_eq_none hb, List.getElem?_eq_none (by simp; omega)]

theorem cells_set (s : Store) {a : Nat} (h : a < s.length) (v : Int) :
    cells (s.set a v) = put (cells s) a v := by
  funext b
  unfold put cells
  rw [List.getElem?_set]
  by_cases hb : b = a
  · subst hb; simp [h]
  · rw [if_neg (Ne.symm hb), if_neg hb]

theorem le_append (s u : Store) : cells s ≼ cells (s ++ u) := by
  intro a v h
  obtain ⟨ha, -⟩ := List.getElem?_eq_some_iff.1 h
  show (s ++ u)[a]? = _
  rw [List.getElem?_append_left ha]
  exact h

theorem cells_last (s : Store) (v : Int) : cells (s ++ [v]) s.length = some v := by
  rw [cells_append, put_self]

/-- The pointer `p` holds the value `o`: both are nil, or `p` is a cell with this number
(specification; crypto.go:70-72). -/
inductive Is (s : Cells) : Ptr → Option Int → Prop
  | nil : Is s none none
  | cell (a : Nat) (v : Int) (h : s a = some v) : Is s (some a) (some v)

/-- The cell of `p`, if any, is not one of `s` (specification; crypto.go:92 makes a new number). -/
def New (s : Cells) (p : Ptr) : Prop := ∀ a, p = some a → s a = none

/-- The two coordinates of a point (specification; crypto.go:70-72). -/
structure PIs (s : Cells) (P : Point) (p : ECPoint) : Prop where
  x : Is s P.X p.X
  y : Is s P.Y p.Y

/-- Both coordinates are new (specification; crypto.go:70-72). -/
structure PNew (s : Cells) (P : Point) : Prop where
  x : New s P.X
  y : New s P.Y

theorem Is.mono {s t : Cells} {p : Ptr} {o : Option Int} (h : s ≼ t) (hp : Is s p o) : Is t p o := by
  cases hp with
  | nil => exact .nil
  | cell a v e => exact .cell a v (h a v e)

theorem PIs.mono {s t : Cells} {P : Point} {p : ECPoint} (h : s ≼ t) (hp : PIs s P p) : PIs t P p :=
  ⟨hp.x.mono h, hp.y.mono h⟩

theorem New.anti {s t : Cells} {p : Ptr} (h : s ≼ t) (hp : New t p) : New s p :=
  fun a e => h.unseen (hp a e)

theorem PNew.anti {s t : Cells} {P : Point} (h : s ≼ t) (hp : PNew t P) : PNew s P :=
  ⟨hp.x.anti h, hp.y.anti h⟩

/-- The parameters and package variables in `s` are those of `cp` (specification; crypto.go:18-23,
266-271). -/
structure EnvIs (s : Cells) (e : Env) (cp : Params) : Prop where
  ops : e.ops = cp.C
  N : Is s e.N (some cp.C.N)
  P : Is s e.P (some cp.C.P)
  G : PIs s e.G cp.G
  H : PIs s e.H cp.H
  HPoints : List.Forall₂ (PIs s) e.HPoints cp.HPoints
  Zero : PIs s e.Zero Zero
  BigZero : Is s e.BigZero (some 0)

theorem EnvIs.mono {s t : Cells} {e : Env} {cp : Params} (h : s ≼ t) (he : EnvIs s e cp) :
    EnvIs t e cp :=
  ⟨he.ops, he.N.mono h, he.P.mono h, he.G.mono h, he.H.mono h,
    he.HPoints.imp fun _ _ hp => hp.mono h, he.Zero.mono h, he.BigZero.mono h⟩

/-- `C.Add` returns the other point if one is (0, 0) (specification; btcec/btcec.go:460-465). -/
def ZeroAdd (C : Proto.Curve) : Prop :=
  ∀ x y, C.add 0 0 x y = .ok (x, y) ∧ C.add x y 0 0 = .ok (x, y)

theorem M.bind_assoc {x : M α} {f : α → M β} {g : β → M γ} :
    (x.bind f).bind g = x.bind fun a => (f a).bind g := by
  induction x with
  | ret a => rfl
  | fail => rfl
  | load a k ih => exact congrArg _ (funext ih)
  | store a v k ih => exact congrArg _ ih
  | alloc v k ih => exact congrArg _ (funext ih)

theorem M.bind_ret {x : M α} : x.bind .ret = x := by
  induction x with
  | ret a => rfl
  | fail => rfl
  | load a k ih => exact congrArg _ (funext ih)
  | store a v k ih => exact congrArg _ ih
  | alloc v k ih => exact congrArg _ (funext ih)

instance : LawfulMonad M := LawfulMonad.mk'
  (id_map := fun _ => M.bind_ret)
  (pure_bind := fun _ _ => rfl)
  (bind_assoc := fun _ _ _ => M.bind_assoc)

/-! ### One goroutine among others -/

/-- What `x` does, seen by a goroutine that sees the cells `s` and has made the cells `O` itself: it
reads only what it sees, it writes only to what it has made, a new cell may be any cell it does not see,
and the end satisfies `Q` (specification; for example crypto.go:86-110). -/
def Wp : M α → Cells → (Nat → Prop) → (Go (α × Cells) → Prop) → Prop
  | .ret a, s, _, Q => Q (.ok (a, s))
  | .fail, _, _, Q => Q .panic
  | .load a k, s, O, Q => ∃ v, s a = some v ∧ Wp (k v) s O Q
  | .store a v k, s, O, Q => O a ∧ Wp k (put s a v) O Q
  | .alloc v k, s, O, Q => ∀ a, s a = none → Wp (k a) (put s a v) (fun b => b = a ∨ O b) Q

theorem Wp.mono {x : M α} : ∀ {s : Cells} {O O' : Nat → Prop} {Q Q' : Go (α × Cells) → Prop},
    (∀ a, O a → O' a) → (∀ r, Q r → Q' r) → Wp x s O Q → Wp x s O' Q' := by
  induction x with
  | ret a => exact fun _ hQ h => hQ _ h
  | fail => exact fun _ hQ h => hQ _ h
  | load a k ih => exact fun hO hQ ⟨v, hv, h⟩ => ⟨v, hv, ih v hO hQ h⟩
  | store a v k ih => exact fun hO hQ ⟨ha, h⟩ => ⟨hO a ha, ih hO hQ h⟩
  | alloc v k ih =>
    exact fun hO hQ h a ha => ih a (fun b hb => hb.imp id (hO b)) hQ (h a ha)

theorem Wp.bind {x : M α} {k : α → M β} : ∀ {s : Cells} {O : Nat → Prop} {Q : Go (β × Cells) → Prop},
    Wp x s O (fun r => match r with
      | .panic => Q .panic
      | .ok p => Wp (k p.1) p.2 O Q) → Wp (x >>= k) s O Q := by
  induction x with
  | ret a => exact fun h => h
  | fail => exact fun h => h
  | load a k ih => exact fun ⟨v, hv, h⟩ => ⟨v, hv, ih v h⟩
  | store a v k ih => exact fun ⟨ha, h⟩ => ⟨ha, ih h⟩
  | alloc v k' ih =>
    intro s O Q h a ha
    refine ih a (Wp.mono (fun _ h => h) ?_ (h a ha))
    intro r hr
    cases r with
    | panic => exact hr
    | ok p => exact Wp.mono (fun b hb => .inr hb) (fun _ h => h) hr

/-- The run without interruption is one of the runs described. -/
theorem Wp.run {x : M α} : ∀ {s : Store} {O : Nat → Prop} {Q : Go (α × Cells) → Prop},
    Wp x (cells s) O Q → (∀ a, O a → a < s.length) →
    (Mem.run x s = .panic ∧ Q .panic) ∨ ∃ a t, Mem.run x s = .ok (a, t) ∧ Q (.ok (a, cells t)) := by
  induction x with
  | ret a => exact fun h _ => .inr ⟨a, _, rfl, h⟩
  | fail => exact fun h _ => .inl ⟨rfl, h⟩
  | load a k ih =>
    rintro s O Q ⟨v, hv, h⟩ hO
    have e : Mem.run (.load a k) s = Mem.run (k v) s := by
      show (deref s[a]? >>= _) = _
      rw [show s[a]? = some v from hv]
      rfl
    rw [e]
    exact ih v h hO
  | store a v k ih =>
    rintro s O Q ⟨ha, h⟩ hO
    have e : Mem.run (.store a v k) s = Mem.run k (s.set a v) := if_pos (hO a ha)
    rw [e]
    rw [← cells_set s (hO a ha)] at h
    exact ih h fun b hb => by rw [List.length_set]; exact hO b hb
  | alloc v k ih =>
    intro s O Q h hO
    have h1 := h s.length (List.getElem?_eq_none (le_refl _))
    rw [← cells_append] at h1
    refine ih _ h1 fun b hb => ?_
    rw [List.length_append]
    rcases hb with rfl | hb
    · simp
    · have := hO b hb; simp; omega

theorem run_bind (x : M α) (k : α → M β) : ∀ s : Store,
    Mem.run (x >>= k) s = Mem.run x s >>= fun p => Mem.run (k p.1) p.2 := by
  induction x with
  | ret a => exact fun _ => rfl
  | fail => exact fun _ => rfl
  | load a k' ih =>
    intro s
    show (deref s[a]? >>= _) = ((deref s[a]? >>= _) >>= _)
    cases s[a]? with
    | none => rfl
    | some v => exact ih v s
  | store a v k' ih =>
    intro s
    show (if _ then _ else _) = ((if _ then _ else _) >>= _)
    split
    · exact ih _
    · rfl
  | alloc v k' ih => exact fun s => ih _ _

/-- The end of a computation agrees with the end of `g`: both panic, or the cells of `s` are as before and
the results are related (specification; for example crypto.go:86-110). -/
def Agrees (s : Cells) (g : Go β) (R : Cells → α → β → Prop) (r : Go (α × Cells)) : Prop :=
  match g, r with
  | .panic, .panic => True
  | .ok b, .ok (a, t) => s ≼ t ∧ R t a b
  | _, _ => False

/-- `x` does what `g` does on values, for a goroutine that sees the cells `s`: it panics if `g` does, and
otherwise it leaves the cells of `s` alone and its result is related to that of `g` (specification; for
example crypto.go:86-110). -/
def Does (x : M α) (s : Cells) (g : Go β) (R : Cells → α → β → Prop) : Prop :=
  Wp x s (fun _ => False) (Agrees s g R)

theorem Does.run_panic {x : M α} {s : Store} {g : Go β} {R : Cells → α → β → Prop}
    (h : Does x (cells s) g R) (hg : g = .panic) : Mem.run x s = .panic := by
  subst hg
  rcases Wp.run h fun _ h => h.elim with ⟨h1, -⟩ | ⟨a, t, -, h2⟩
  · exact h1
  · exact h2.elim

theorem Does.run_ok {x : M α} {s : Store} {g : Go β} {R : Cells → α → β → Prop}
    (h : Does x (cells s) g R) {b : β} (hg : g = .ok b) :
    ∃ a t, Mem.run x s = .ok (a, t) ∧ cells s ≼ cells t ∧ R (cells t) a b := by
  subst hg
  rcases Wp.run h fun _ h => h.elim with ⟨-, h2⟩ | ⟨a, t, h1, h2⟩
  · exact h2.elim
  · exact ⟨a, t, h1, h2⟩

/-- From the end of a run back to the computation on values. -/
theorem Does.run {x : M α} {s t : Store} {g : Go β} {R : Cells → α → β → Prop} {a : α}
    (h : Does x (cells s) g R) (hr : Mem.run x s = .ok (a, t)) :
    ∃ b, g = .ok b ∧ cells s ≼ cells t ∧ R (cells t) a b := by
  cases hg : g with
  | panic => rw [h.run_panic hg] at hr; cases hr
  | ok b =>
    obtain ⟨a', t', h1, h2⟩ := h.run_ok hg
    rw [h1] at hr
    cases hr
    exact ⟨b, rfl, h2⟩

/-- A computation as part of another one. -/
theorem Does.wp {x : M α} {k : α → M γ} {s : Cells} {O : Nat → Prop} {Q : Go (γ × Cells) → Prop}
    {g : Go β} {R : Cells → α → β → Prop} (hx : Does x s g R) (hp : g = .panic → Q .panic)
    (hk : ∀ a b t, g = .ok b → s ≼ t → R t a b → Wp (k a) t O Q) : Wp (x >>= k) s O Q := by
  refine Wp.bind (Wp.mono (fun _ h => h.elim) ?_ hx)
  rintro (⟨a, t⟩ | _) hr
  · cases g with
    | panic => exact hr.elim
    | ok b => exact hk a b t rfl hr.1 hr.2
  · cases g with
    | panic => exact hp rfl
    | ok b => exact hr.elim

theorem Agrees.of_le {s t : Cells} {g : Go β} {R : Cells → α → β → Prop} {r : Go (α × Cells)}
    (h : s ≼ t) (hr : Agrees t g R r) : Agrees s g R r := by
  cases g <;> rcases r with ⟨a, u⟩ | _
  · exact ⟨h.trans hr.1, hr.2⟩
  · exact hr
  · exact hr
  · exact hr

theorem Does.bind' {x : M α} {k : α → M γ} {s : Cells} {g : Go β} {h : β → Go δ}
    {R : Cells → α → β → Prop} {S : Cells → γ → δ → Prop} (hx : Does x s g R)
    (hk : ∀ a b t, g = .ok b → s ≼ t → R t a b → Does (k a) t (h b) S) : Does (x >>= k) s (g >>= h) S := by
  refine Does.wp hx (by rintro rfl; trivial) ?_
  rintro a b t rfl hl hR
  exact Wp.mono (fun _ h => h) (fun _ hr => hr.of_le hl) (hk a b t rfl hl hR)

theorem Does.bind {x : M α} {k : α → M γ} {s : Cells} {g : Go β} {h : β → Go δ}
    {R : Cells → α → β → Prop} {S : Cells → γ → δ → Prop} (hx : Does x s g R)
    (hk : ∀ a b t, s ≼ t → R t a b → Does (k a) t (h b) S) : Does (x >>= k) s (g >>= h) S :=
  Does.bind' hx fun a b t _ => hk a b t

/-- A step that cannot fail and has no counterpart. -/
theorem Does.step {x : M α} {k : α → M γ} {s : Cells} {b : β} {h : Go δ}
    {R : Cells → α → β → Prop} {S : Cells → γ → δ → Prop} (hx : Does x s (.ok b) R)
    (hk : ∀ a t, s ≼ t → R t a b → Does (k a) t h S) : Does (x >>= k) s h S :=
  Does.bind' (g := .ok b) (h := fun _ => h) hx fun a b' t hb hl hR => by
    cases hb; exact hk a t hl hR

/-- A step that panics. -/
theorem Does.panics {x : M α} {k : α → M γ} {s : Cells} {R : Cells → α → β → Prop}
    {S : Cells → γ → δ → Prop} (hx : Does x s (.panic : Go β) R) :
    Does (x >>= k) s (.panic : Go δ) S :=
  Does.bind' (h := fun _ => .panic) hx fun _ _ _ hb => by cases hb

theorem Does.pure {a : α} {b : β} {s : Cells} {R : Cells → α → β → Prop} (h : R s a b) :
    Does (Pure.pure a : M α) s (Pure.pure b) R := ⟨.refl s, h⟩

theorem Does.imp {x : M α} {s : Cells} {g : Go β} {R S : Cells → α → β → Prop} (hx : Does x s g R)
    (h : ∀ t a b, s ≼ t → R t a b → S t a b) : Does x s g S := by
  refine Wp.mono (fun _ h => h) ?_ hx
  rintro (⟨a, t⟩ | _) hr
  · cases g with
    | panic => exact hr.elim
    | ok b => exact ⟨hr.1, h t a b hr.1 hr.2⟩
  · cases g with
    | panic => trivial
    | ok b => exact hr.elim

theorem Does.lift (g : Go α) (s : Cells) :
    Does (liftM g : M α) s g fun t a b => t = s ∧ a = b := by
  cases g with
  | panic => trivial
  | ok a => exact ⟨.refl s, rfl, rfl⟩

/-! ### Numbers -/

theorem load_wp {s : Cells} {p : Ptr} {v : Int} (h : Is s p (some v)) {k : Int → M α}
    {O : Nat → Prop} {Q : Go (α × Cells) → Prop} (hk : Wp (k v) s O Q) :
    Wp (load p >>= k) s O Q := by
  cases h with
  | cell a v e => exact ⟨v, e, hk⟩

theorem load_does {s : Cells} {p : Ptr} {o : Option Int} (h : Is s p o) :
    Does (load p) s (deref o) fun t a b => t = s ∧ a = b := by
  cases h with
  | nil => trivial
  | cell a v e => exact ⟨v, e, .refl s, rfl, rfl⟩

theorem alloc_wp {s : Cells} (v : Int) {k : Ptr → M α} {O : Nat → Prop} {Q : Go (α × Cells) → Prop}
    (hk : ∀ a, s a = none → Wp (k (some a)) (put s a v) (fun b => b = a ∨ O b) Q) :
    Wp (alloc v >>= k) s O Q := hk

theorem new_some {s : Cells} {a : Nat} (h : s a = none) : New s (some a) := by
  rintro b hb
  cases hb
  exact h

theorem is_put (s : Cells) (a : Nat) (v : Int) : Is (put s a v) (some a) (some v) :=
  .cell _ _ (put_self s a v)

theorem alloc_does (v : Int) (s : Cells) :
    Does (alloc v) s (.ok v) fun t p w => Is t p (some w) ∧ New s p :=
  fun a ha => ⟨le_put ha v, is_put s a v, new_some ha⟩

theorem into_wp {f : Int → Int → Int} {s : Cells} {z : Nat} {a b : Ptr} {x y : Int} {k : Ptr → M α}
    {O : Nat → Prop} {Q : Go (α × Cells) → Prop} (hz : O z) (ha : Is s a (some x))
    (hb : Is s b (some y)) (hk : Wp (k (some z)) (put s z (f x y)) O Q) :
    Wp (into f (some z) a b >>= k) s O Q := by
  cases ha with
  | cell a x ea =>
    cases hb with
    | cell b y eb => exact ⟨x, ea, y, eb, hz, hk⟩

theorem fresh_wp {f : Int → Int → Int} {s : Cells} {a b : Ptr} {x y : Int} {k : Ptr → M α}
    {O : Nat → Prop} {Q : Go (α × Cells) → Prop} (ha : Is s a (some x)) (hb : Is s b (some y))
    (hk : ∀ z, s z = none → Wp (k (some z)) (put s z (f x y)) (fun b => b = z ∨ O b) Q) :
    Wp (fresh f a b >>= k) s O Q := by
  intro z hz
  have h := into_wp (f := f) (k := k) (O := fun b => b = z ∨ O b) (Q := Q) (.inl rfl)
    (ha.mono (le_put hz 0)) (hb.mono (le_put hz 0))
  rw [put_put] at h
  exact h (hk z hz)

theorem fresh_does (f : Int → Int → Int) {s : Cells} {a b : Ptr} {x y : Option Int}
    (ha : Is s a x) (hb : Is s b y) :
    Does (fresh f a b) s (do let x ← deref x; let y ← deref y; .ok (f x y))
      fun t p w => Is t p (some w) ∧ New s p := by
  cases ha with
  | nil => exact fun z hz => trivial
  | cell a x ea =>
    cases hb with
    | nil => exact fun z hz => ⟨x, le_put hz 0 a x ea, trivial⟩
    | cell b y eb =>
      refine fun z hz => ⟨x, le_put hz 0 a x ea, y, le_put hz 0 b y eb, .inl rfl, ?_⟩
      rw [put_put]
      exact ⟨le_put hz _, is_put s z _, new_some hz⟩

theorem fresh_ok (f : Int → Int → Int) {s : Cells} {a b : Ptr} {x y : Int}
    (ha : Is s a (some x)) (hb : Is s b (some y)) :
    Does (fresh f a b) s (.ok (f x y)) fun t p w => Is t p (some w) ∧ New s p :=
  fresh_does f ha hb

/-- The product of a number and nil. -/
theorem fresh_nil (f : Int → Int → Int) {s : Cells} {a : Ptr} {x : Option Int} (ha : Is s a x)
    {R : Cells → Ptr → β → Prop} : Does (fresh f a none) s (.panic : Go β) R := by
  cases ha with
  | nil => exact fun z hz => trivial
  | cell a x ea => exact fun z hz => ⟨x, le_put hz 0 a x ea, trivial⟩

theorem freshNeg_does {s : Cells} {a : Ptr} {x : Option Int} (ha : Is s a x) :
    Does (freshNeg a) s (do let x ← deref x; .ok (-x)) fun t p w => Is t p (some w) ∧ New s p := by
  cases ha with
  | nil => exact fun z hz => trivial
  | cell a x ea =>
    refine fun z hz => ⟨x, le_put hz 0 a x ea, .inl rfl, ?_⟩
    rw [put_put]
    exact ⟨le_put hz _, is_put s z _, new_some hz⟩

theorem freshInverse_does {s : Cells} {a b : Ptr} {x : Int} {n : Nat} (ha : Is s a (some x))
    (hb : Is s b (some (n : Int))) :
    Does (freshInverse a b) s (.ok (Proto.modInverse x n)) fun t p w => Is t p w ∧ New s p := by
  intro z hz
  refine load_wp (ha.mono (le_put hz 0)) (load_wp (hb.mono (le_put hz 0)) ?_)
  rw [Int.toNat_natCast]
  cases Proto.modInverse x n with
  | none => exact ⟨le_put hz _, .nil, fun a h => by cases h⟩
  | some v =>
    refine ⟨.inl rfl, ?_⟩
    rw [put_put]
    exact ⟨le_put hz _, is_put s z _, new_some hz⟩

/-- A new number that is changed in place afterwards. -/
theorem freshInto_step {f g : Int → Int → Int} {k : Ptr → Ptr → M γ} {s : Cells} {a b n : Ptr}
    {x y m : Int} {h : Go δ} {S : Cells → γ → δ → Prop} (ha : Is s a (some x)) (hb : Is s b (some y))
    (hn : Is s n (some m))
    (hk : ∀ p t, s ≼ t → Is t p (some (g (f x y) m)) → New s p → Does (k p p) t h S) :
    Does (fresh f a b >>= fun z => into g z z n >>= fun z' => k z z') s h S := by
  refine fresh_wp ha hb fun z hz => into_wp (.inl rfl) (is_put s z _) (hn.mono (le_put hz _)) ?_
  rw [put_put]
  exact Wp.mono (fun _ h => h.elim) (fun _ hr => hr.of_le (le_put hz _))
    (hk (some z) _ (le_put hz _) (is_put s z _) (new_some hz))

/-- The same for a new number made by `Neg`. -/
theorem negInto_step {g : Int → Int → Int} {k : Ptr → Ptr → M γ} {s : Cells} {a n : Ptr}
    {x m : Int} {h : Go δ} {S : Cells → γ → δ → Prop} (ha : Is s a (some x)) (hn : Is s n (some m))
    (hk : ∀ p t, s ≼ t → Is t p (some (g (-x) m)) → New s p → Does (k p p) t h S) :
    Does (freshNeg a >>= fun z => into g z z n >>= fun z' => k z z') s h S := by
  cases ha with
  | cell a x ea =>
    refine fun z hz => ⟨x, le_put hz 0 a x ea, .inl rfl, ?_⟩
    rw [put_put]
    refine into_wp (.inl rfl) (is_put s z _) (hn.mono (le_put hz _)) ?_
    rw [put_put]
    exact Wp.mono (fun _ h => h.elim) (fun _ hr => hr.of_le (le_put hz _))
      (hk (some z) _ (le_put hz _) (is_put s z _) (new_some hz))

theorem cmpEq_does {s : Cells} {a b : Ptr} {x y : Option Int} (ha : Is s a x) (hb : Is s b y) :
    Does (cmpEq a b) s (Proto.cmpEq x y) fun t r r' => t = s ∧ r = r' := by
  unfold cmpEq
  split
  · rename_i h
    subst h
    cases ha with
    | nil =>
      cases hb
      exact ⟨.refl s, rfl, rfl⟩
    | cell a x e =>
      cases hb with
      | cell _ y e' =>
        rw [e] at e'
        injection e' with e'
        subst e'
        exact ⟨.refl s, rfl, by simp⟩
  · rename_i h
    cases ha with
    | nil =>
      cases hb with
      | nil => exact absurd rfl h
      | cell b y e => trivial
    | cell a x e =>
      cases hb with
      | nil => exact ⟨x, e, trivial⟩
      | cell b y e' => exact ⟨x, e, y, e', .refl s, rfl, rfl⟩

end Zk.Mem
