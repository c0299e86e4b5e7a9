import Verif.Mem.Par

/-!
# What one goroutine does among others

`TWp` describes a computation of one goroutine by what it sees and what belongs to it.
-/

namespace Zk.Mem

open Zk Zk.Proto

/-- The variables of `proverInternalData` that a goroutine may use (specification;
rangeproof.go:42-47). -/
abbrev Slots := Nat → Option Slot

/-- One has the variables of the other, with the same values (specification; rangeproof.go:42-47). -/
def SubS (S S' : Slots) : Prop := ∀ (a : Nat) (x : Slot), S a = some x → S' a = some x

theorem SubS.refl (S : Slots) : SubS S S := fun _ _ h => h

theorem SubS.trans {S S' S'' : Slots} (h : SubS S S') (h' : SubS S' S'') : SubS S S'' :=
  fun a x e => h' a x (h a x e)

/-- What is known when a goroutine has signalled its end: what it saw, its variables and the point it
has sent (specification; rangeproof.go:54, 259). -/
abbrev Post := Cells → Slots → Point → Prop

/-- A wait group: how many goroutines may still be started, and what the others will have done; or a
channel: what will be sent (specification; rangeproof.go:184, 275). -/
inductive Pend where
  | wg (credit : Nat) (ps : List Post)
  | chan (ps : List (Nat × Post))

/-- What a goroutine sees and what belongs to it: the numbers it sees, those it may write to, its
variables, its wait groups and channels (specification; rangeproof.go:172-189). -/
structure Own where
  V : Cells
  O : Nat → Prop
  S : Slots
  Y : Nat → Option Pend

/-- A goroutine is added to a wait group or to the senders of a channel (specification;
rangeproof.go:187, 288). -/
inductive Push : (Nat → Option Pend) → Dest → Post → (Nat → Option Pend) → Prop
  | wg {Y : Nat → Option Pend} {w c ps post} (h : Y w = some (.wg (c + 1) ps)) :
      Push Y (.wg w) post (Function.update Y w (some (.wg c (ps ++ [post]))))
  | chan {Y : Nat → Option Pend} {c idx ps post} (h : Y c = some (.chan ps)) :
      Push Y (.chan c idx) post (Function.update Y c (some (.chan (ps ++ [(idx, post)]))))

/-- The variables are divided between two goroutines (specification; rangeproof.go:187). -/
structure Splits (S S₁ S₂ : Slots) : Prop where
  left : SubS S₁ S
  right : SubS S₂ S
  apart : ∀ a, S₁ a = none ∨ S₂ a = none

/-- How a goroutine ends (specification; rangeproof.go:54, 259). -/
def Ends (Bad : Prop) (post : Post) : Go (Point × Own) → Prop
  | .panic => Bad
  | .ok (P, o) => post o.V o.S P

/-- What has been promised does not depend on further variables (specification; rangeproof.go:54). -/
def Post.Mono (post : Post) : Prop := ∀ V S S' P, SubS S S' → post V S P → post V S' P

/-- What `x` does, as a goroutine that sees and has `o`, among others: it reads only what it sees, it
writes only to what belongs to it, it gives to a new goroutine some of its variables and the sight of
numbers to which it will not write any more, it gets them back when the other has ended, and the end
satisfies `Q` (specification; for example rangeproof.go:172-230).  `J` is the same for the new goroutines. -/
def TWp (J : Job → Cells → Slots → (Go (Point × Own) → Prop) → Prop) (Bad : Prop) {α : Type} :
    T α → Own → (Go (α × Own) → Prop) → Prop
  | .ret a, o, Q => Q (.ok (a, o))
  | .fail, _, Q => Q .panic
  | .load a k, o, Q => ∃ v, o.V a = some v ∧ TWp J Bad (k v) o Q
  | .store a v k, o, Q => o.O a ∧ TWp J Bad k { o with V := put o.V a v } Q
  | .alloc v k, o, Q => ∀ a, o.V a = none →
      TWp J Bad (k a) { o with V := put o.V a v, O := fun b => b = a ∨ o.O b } Q
  | .mkSlot k, o, Q => ∀ a, o.S a = none →
      TWp J Bad (k a) { o with S := Function.update o.S a (some noSlot) } Q
  | .get a f k, o, Q => ∃ x, o.S a = some x ∧ TWp J Bad (k (x.get f)) o Q
  | .set a f p k, o, Q => ∃ x, o.S a = some x ∧
      TWp J Bad k { o with S := Function.update o.S a (some (x.set p f)) } Q
  | .mkWg k, o, Q => ∀ w, o.Y w = none →
      TWp J Bad (k w) { o with Y := Function.update o.Y w (some (.wg 0 [])) } Q
  | .add w n k, o, Q => ∃ c ps, o.Y w = some (.wg c ps) ∧
      TWp J Bad k { o with Y := Function.update o.Y w (some (.wg (c + n) ps)) } Q
  | .wait w k, o, Q => ∃ ps, o.Y w = some (.wg 0 ps) ∧ ∀ V' S', o.V ≼ V' → SubS o.S S' →
      (∀ p ∈ ps, ∃ U P, U ≼ V' ∧ (∀ a, o.O a → U a = none) ∧ p U S' P) →
      TWp J Bad k { o with V := V', S := S', Y := Function.update o.Y w (some (.wg 0 [])) } Q
  | .mkChan k, o, Q => ∀ c, o.Y c = none →
      TWp J Bad (k c) { o with Y := Function.update o.Y c (some (.chan [])) } Q
  | .recv c k, o, Q => ∃ ps, o.Y c = some (.chan ps) ∧ ps ≠ [] ∧ ∀ pre p suf, ps = pre ++ p :: suf →
      ∀ V' S' U P, o.V ≼ V' → SubS o.S S' → U ≼ V' → (∀ a, o.O a → U a = none) → p.2 U S' P →
      TWp J Bad (k (p.1, P))
        { o with V := V', S := S', Y := Function.update o.Y c (some (.chan (pre ++ suf))) } Q
  | .go j k, o, Q => ∃ U S₁ S₂ post Y', U ≼ o.V ∧ Splits o.S S₁ S₂ ∧ post.Mono ∧
      J j U S₁ (Ends Bad post) ∧ Push o.Y j.dest post Y' ∧
      TWp J Bad k { o with O := fun a => o.O a ∧ U a = none, S := S₂, Y := Y' } Q

/-- The same for a goroutine that starts no others (specification; rangeproof.go:51-102, 105-151,
239-260). -/
def WWp (hash : Bytes → Bytes) (e : Env) (j : Job) (U : Cells) (S : Slots)
    (Q : Go (Point × Own) → Prop) : Prop :=
  TWp (fun _ _ _ _ => False) True (j.body hash e) ⟨U, fun _ => False, S, fun _ => none⟩ Q

variable {J : Job → Cells → Slots → (Go (Point × Own) → Prop) → Prop} {Bad : Prop} {α β : Type}

theorem TWp.mono {x : T α} : ∀ {V : Cells} {O O' : Nat → Prop} {S : Slots} {Y : Nat → Option Pend}
    {Q Q' : Go (α × Own) → Prop}, (∀ a, O a → O' a) →
    (∀ V₁ (O₁ O₂ : Nat → Prop) S₁ Y₁ a, (∀ a, O₁ a → O₂ a) → Q (.ok (a, ⟨V₁, O₁, S₁, Y₁⟩)) →
      Q' (.ok (a, ⟨V₁, O₂, S₁, Y₁⟩))) → (Q .panic → Q' .panic) →
    TWp J Bad x ⟨V, O, S, Y⟩ Q → TWp J Bad x ⟨V, O', S, Y⟩ Q' := by
  induction x with
  | ret a => exact fun hO hQ _ h => hQ _ _ _ _ _ _ hO h
  | fail => exact fun _ _ hP h => hP h
  | load a k ih => exact fun hO hQ hP ⟨v, hv, h⟩ => ⟨v, hv, ih v hO hQ hP h⟩
  | store a v k ih => exact fun hO hQ hP ⟨ha, h⟩ => ⟨hO a ha, ih hO hQ hP h⟩
  | alloc v k ih => exact fun hO hQ hP h a ha => ih a (fun b hb => hb.imp id (hO b)) hQ hP (h a ha)
  | mkSlot k ih => exact fun hO hQ hP h a ha => ih a hO hQ hP (h a ha)
  | get a f k ih => exact fun hO hQ hP ⟨x, hx, h⟩ => ⟨x, hx, ih _ hO hQ hP h⟩
  | set a f p k ih => exact fun hO hQ hP ⟨x, hx, h⟩ => ⟨x, hx, ih hO hQ hP h⟩
  | mkWg k ih => exact fun hO hQ hP h w hw => ih w hO hQ hP (h w hw)
  | add w n k ih => exact fun hO hQ hP ⟨c, ps, hw, h⟩ => ⟨c, ps, hw, ih hO hQ hP h⟩
  | wait w k ih =>
    exact fun hO hQ hP ⟨ps, hw, h⟩ => ⟨ps, hw, fun V' S' hV hS hp => ih hO hQ hP
      (h V' S' hV hS fun p hm => by
        obtain ⟨U, P, h1, h2, h3⟩ := hp p hm
        exact ⟨U, P, h1, fun a ha => h2 a (hO a ha), h3⟩)⟩
  | mkChan k ih => exact fun hO hQ hP h c hc => ih c hO hQ hP (h c hc)
  | recv c k ih =>
    exact fun hO hQ hP ⟨ps, hc, hne, h⟩ => ⟨ps, hc, hne, fun pre p suf hps V' S' U P hV hS hU hd hp =>
      ih _ hO hQ hP (h pre p suf hps V' S' U P hV hS hU (fun a ha => hd a (hO a ha)) hp)⟩
  | go j k ih =>
    exact fun hO hQ hP ⟨U, S₁, S₂, post, Y', h1, h2, h3, h4, h5, h6⟩ =>
      ⟨U, S₁, S₂, post, Y', h1, h2, h3, h4, h5, ih (fun a ha => ⟨hO a ha.1, ha.2⟩) hQ hP h6⟩

theorem TWp.bind {x : T α} {k : α → T β} : ∀ {o : Own} {Q : Go (β × Own) → Prop},
    TWp J Bad x o (fun r => match r with
      | .panic => Q .panic
      | .ok p => TWp J Bad (k p.1) p.2 Q) → TWp J Bad (x >>= k) o Q := by
  induction x with
  | ret a => exact fun h => h
  | fail => exact fun h => h
  | load a k ih => exact fun ⟨v, hv, h⟩ => ⟨v, hv, ih v h⟩
  | store a v k ih => exact fun ⟨ha, h⟩ => ⟨ha, ih h⟩
  | alloc v k ih => exact fun h a ha => ih a (h a ha)
  | mkSlot k ih => exact fun h a ha => ih a (h a ha)
  | get a f k ih => exact fun ⟨x, hx, h⟩ => ⟨x, hx, ih _ h⟩
  | set a f p k ih => exact fun ⟨x, hx, h⟩ => ⟨x, hx, ih h⟩
  | mkWg k ih => exact fun h w hw => ih w (h w hw)
  | add w n k ih => exact fun ⟨c, ps, hw, h⟩ => ⟨c, ps, hw, ih h⟩
  | wait w k ih =>
    exact fun ⟨ps, hw, h⟩ => ⟨ps, hw, fun V' S' hV hS hp => ih (h V' S' hV hS hp)⟩
  | mkChan k ih => exact fun h c hc => ih c (h c hc)
  | recv c k ih =>
    exact fun ⟨ps, hc, hne, h⟩ => ⟨ps, hc, hne, fun pre p suf hps V' S' U P hV hS hU hd hp =>
      ih _ (h pre p suf hps V' S' U P hV hS hU hd hp)⟩
  | go j k ih =>
    exact fun ⟨U, S₁, S₂, post, Y', h1, h2, h3, h4, h5, h6⟩ =>
      ⟨U, S₁, S₂, post, Y', h1, h2, h3, h4, h5, ih h6⟩

theorem TWp.imp {x : T α} {o : Own} {Q Q' : Go (α × Own) → Prop} (h : TWp J Bad x o Q)
    (hQ : ∀ V₁ (O₁ O₂ : Nat → Prop) S₁ Y₁ a, (∀ a, O₁ a → O₂ a) → Q (.ok (a, ⟨V₁, O₁, S₁, Y₁⟩)) →
      Q' (.ok (a, ⟨V₁, O₂, S₁, Y₁⟩))) (hP : Q .panic → Q' .panic) : TWp J Bad x o Q' :=
  TWp.mono (fun _ h => h) hQ hP h

/-! ### Functions without goroutines -/

/-- Does a computation only access numbers and the variables `D`? (specification; rangeproof.go:51-102) -/
def T.Simple (D : Nat → Prop) : T α → Prop
  | .ret _ => True
  | .fail => True
  | .load _ k => ∀ v, (k v).Simple D
  | .store _ _ k => k.Simple D
  | .alloc _ k => ∀ a, (k a).Simple D
  | .get a _ k => D a ∧ ∀ p, (k p).Simple D
  | .set a _ _ k => D a ∧ k.Simple D
  | _ => False

/-- The computation with the variables `S` in its hands (specification; rangeproof.go:51-102). -/
def T.on : T α → Slots → M (α × Slots)
  | .ret a, S => .ret (a, S)
  | .load a k, S => .load a fun v => (k v).on S
  | .store a v k, S => .store a v (k.on S)
  | .alloc v k, S => .alloc v fun a => (k a).on S
  | .get a f k, S => match S a with
    | some x => (k (x.get f)).on S
    | none => .fail
  | .set a f p k, S => match S a with
    | some x => k.on (Function.update S a (some (x.set p f)))
    | none => .fail
  | _, _ => .fail

theorem TWp.simple {x : T α} : ∀ {V : Cells} {O : Nat → Prop} {S : Slots} {Y : Nat → Option Pend}
    {Q : Go (α × Own) → Prop}, x.Simple (fun a => S a ≠ none) →
    Wp (x.on S) V O (fun r => match r with
      | .panic => Q .panic
      | .ok p => ∀ O' : Nat → Prop, (∀ a, O a → O' a) → Q (.ok (p.1.1, ⟨p.2, O', p.1.2, Y⟩))) →
    TWp J Bad x ⟨V, O, S, Y⟩ Q := by
  induction x with
  | ret a => exact fun _ h => h _ fun _ h => h
  | fail => exact fun _ h => h
  | load a k ih => exact fun hs ⟨v, hv, h⟩ => ⟨v, hv, ih v (hs v) h⟩
  | store a v k ih => exact fun hs ⟨ha, h⟩ => ⟨ha, ih hs h⟩
  | alloc v k ih =>
    refine fun hs h a ha => ih a (hs a) (Wp.mono (fun _ h => h) ?_ (h a ha))
    rintro (⟨p, t⟩ | _) hr
    · exact fun O' hO => hr O' fun b hb => hO b (.inr hb)
    · exact hr
  | get a f k ih =>
    intro V O S Y Q hs h
    obtain ⟨ha, hs⟩ := hs
    unfold T.on at h
    cases hS : S a with
    | none => exact absurd hS ha
    | some x =>
      rw [hS] at h
      exact ⟨x, hS, ih _ (hs _) h⟩
  | set a f p k ih =>
    intro V O S Y Q hs h
    obtain ⟨ha, hs⟩ := hs
    unfold T.on at h
    cases hS : S a with
    | none => exact absurd hS ha
    | some x =>
      rw [hS] at h
      refine ⟨x, hS, ih ?_ h⟩
      have : (fun b => Function.update S a (some (x.set p f)) b ≠ none) = fun b => S b ≠ none := by
        funext b
        by_cases hb : b = a
        · subst hb; simp [hS]
        · simp [hb]
      rw [this]
      exact hs
  | mkSlot k ih => exact fun hs => hs.elim
  | mkWg k ih => exact fun hs => hs.elim
  | add w n k ih => exact fun hs => hs.elim
  | wait w k ih => exact fun hs => hs.elim
  | mkChan k ih => exact fun hs => hs.elim
  | recv c k ih => exact fun hs => hs.elim
  | go j k ih => exact fun hs => hs.elim

theorem T.Simple.bind {D : Nat → Prop} {x : T α} {k : α → T β} (hx : x.Simple D)
    (hk : ∀ a, (k a).Simple D) : (x >>= k).Simple D := by
  induction x with
  | ret a => exact hk a
  | fail => trivial
  | load a k ih => exact fun v => ih v (hx v)
  | store a v k ih => exact ih hx
  | alloc v k ih => exact fun a => ih a (hx a)
  | get a f k ih => exact ⟨hx.1, fun p => ih p (hx.2 p)⟩
  | set a f p k ih => exact ⟨hx.1, ih hx.2⟩
  | mkSlot k ih => exact hx.elim
  | mkWg k ih => exact hx.elim
  | add w n k ih => exact hx.elim
  | wait w k ih => exact hx.elim
  | mkChan k ih => exact hx.elim
  | recv c k ih => exact hx.elim
  | go j k ih => exact hx.elim

theorem M.lift_simple (D : Nat → Prop) (x : M α) : x.lift.Simple D := by
  induction x with
  | ret a => trivial
  | fail => trivial
  | load a k ih => exact ih
  | store a v k ih => exact ih
  | alloc v k ih => exact ih

theorem on_get {S : Slots} {a : Nat} {x : Slot} (h : S a = some x) (f : Field) (k : Ptr → T α) :
    T.on (getF a f >>= k) S = T.on (k (x.get f)) S := by
  show T.on (.get a f fun p => k p) S = _
  rw [T.on, h]

theorem on_set {S : Slots} {a : Nat} {x : Slot} (h : S a = some x) (f : Field) (p : Ptr)
    (k : Unit → T α) :
    T.on (setF a f p >>= k) S = T.on (k ()) (Function.update S a (some (x.set p f))) := by
  show T.on (.set a f p (k ())) S = _
  rw [T.on, h]

theorem on_lift (x : M α) (k : α → T β) (S : Slots) :
    T.on ((liftM x : T α) >>= k) S = x >>= fun a => T.on (k a) S := by
  induction x with
  | ret a => rfl
  | fail => rfl
  | load a k' ih => exact congrArg _ (funext ih)
  | store a v k' ih => exact congrArg _ ih
  | alloc v k' ih => exact congrArg _ (funext ih)

theorem on_pure (a : α) (S : Slots) : T.on (pure a) S = pure (a, S) := rfl

theorem T.bind_assoc {γ : Type} {x : T α} {f : α → T β} {g : β → T γ} :
    (x.bind f).bind g = x.bind fun a => (f a).bind g := by
  induction x with
  | ret a => rfl
  | fail => rfl
  | load a k ih => exact congrArg _ (funext ih)
  | store a v k ih => exact congrArg _ ih
  | alloc v k ih => exact congrArg _ (funext ih)
  | mkSlot k ih => exact congrArg _ (funext ih)
  | get a f k ih => exact congrArg _ (funext ih)
  | set a f p k ih => exact congrArg _ ih
  | mkWg k ih => exact congrArg _ (funext ih)
  | add w n k ih => exact congrArg _ ih
  | wait w k ih => exact congrArg _ ih
  | mkChan k ih => exact congrArg _ (funext ih)
  | recv c k ih => exact congrArg _ (funext ih)
  | go j k ih => exact congrArg _ ih

theorem T.bind_ret {x : T α} : x.bind .ret = x := by
  induction x with
  | ret a => rfl
  | fail => rfl
  | load a k ih => exact congrArg _ (funext ih)
  | store a v k ih => exact congrArg _ ih
  | alloc v k ih => exact congrArg _ (funext ih)
  | mkSlot k ih => exact congrArg _ (funext ih)
  | get a f k ih => exact congrArg _ (funext ih)
  | set a f p k ih => exact congrArg _ ih
  | mkWg k ih => exact congrArg _ (funext ih)
  | add w n k ih => exact congrArg _ ih
  | wait w k ih => exact congrArg _ ih
  | mkChan k ih => exact congrArg _ (funext ih)
  | recv c k ih => exact congrArg _ (funext ih)
  | go j k ih => exact congrArg _ ih

instance : LawfulMonad T := LawfulMonad.mk'
  (id_map := fun _ => T.bind_ret)
  (pure_bind := fun _ _ => rfl)
  (bind_assoc := fun _ _ _ => T.bind_assoc)

theorem M.lift_on (x : M α) (S : Slots) : x.lift.on S = x >>= fun a => pure (a, S) := by
  induction x with
  | ret a => rfl
  | fail => rfl
  | load a k ih => exact congrArg _ (funext ih)
  | store a v k ih => exact congrArg _ ih
  | alloc v k ih => exact congrArg _ (funext ih)

/-! ### The goroutines of the range proof -/

variable {hash : Bytes → Bytes} {e : Env}

theorem proofGenA_on {S : Slots} {a : Nat} (h : S a = some noSlot) (idx : Nat) (bit : Bool)
    (rnd : BitRand) :
    T.on (do proofGenA hash e a idx bit rnd; pure nilP) S =
      genA hash e idx bit rnd >>= fun m => pure (nilP, Function.update S a (some m)) := by
  have hu : ∀ (x y : Option Slot), Function.update (Function.update S a x) a y = Function.update S a y :=
    fun x y => by simp
  have hs : ∀ (x : Option Slot), Function.update S a x a = x := fun x => Function.update_self a x S
  cases bit with
  | false =>
    simp only [proofGenA, genA, Bool.not_false, if_true, bind_assoc, on_lift, setR, getR, setB, getB,
      on_set h, on_get (hs _), on_set (hs _), hu, pure_bind, on_pure]
    rfl
  | true =>
    simp only [proofGenA, genA, Bool.not_true, if_false, Bool.false_eq_true, bind_assoc, on_lift, setR,
      getR, setB, getB, on_set h, on_get (hs _), on_set (hs _), hu, pure_bind, on_pure]
    rfl

theorem proofGenB_on {S : Slots} {a : Nat} {m : Slot} (h : S a = some m) (idx : Nat) (bit : Bool)
    (e0 : Ptr) (rnd : BitRand) :
    T.on (do proofGenB hash e a idx bit e0 rnd; pure nilP) S =
      genB hash e idx bit e0 rnd m >>= fun m => pure (nilP, Function.update S a (some m)) := by
  have hu : ∀ (x y : Option Slot), Function.update (Function.update S a x) a y = Function.update S a y :=
    fun x y => by simp
  have hs : ∀ (x : Option Slot), Function.update S a x a = x := fun x => Function.update_self a x S
  cases bit with
  | false =>
    simp only [proofGenB, genB, genBody, Bool.not_false, if_true, bind_assoc, on_lift, getR, setB,
      on_get h, on_set h, on_get (hs _), on_set (hs _), hu, pure_bind, on_pure]
    rfl
  | true =>
    simp only [proofGenB, genB, Bool.not_true, if_false, Bool.false_eq_true, bind_assoc, on_lift,
      on_get h, on_set h, pure_bind, on_pure]
    rfl

end Zk.Mem
