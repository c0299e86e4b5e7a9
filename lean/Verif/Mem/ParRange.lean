import Verif.Mem.ParLemmas

/-!
# NewRangeProof and RangeProof.Verify with their goroutines
-/

namespace Zk.Mem

open Zk Zk.Proto

variable {J : Job → Cells → Slots → (Go (Point × Own) → Prop) → Prop} {Bad : Prop} {α β γ δ : Type}
  {hash : Bytes → Bytes} {e : Env} {cp : Params}

/-- A goroutine that starts with the numbers `s` in sight ends as `g` does: it panics if `g` does, and
otherwise it leaves the numbers of `s` alone and its result is related to that of `g` (specification;
for example rangeproof.go:154-231). -/
def AgreesT (s : Cells) (g : Go β) (R : Cells → α → β → Prop) : Go (α × Own) → Prop
  | .panic => g = .panic
  | .ok (a, o) => ∃ b, g = .ok b ∧ s ≼ o.V ∧ R o.V a b

/-- The condition does not ask for fewer numbers to write to (specification; rangeproof.go:154). -/
def OMono (Q : Go (α × Own) → Prop) : Prop := ∀ V (O O' : Nat → Prop) S Y a, (∀ a, O a → O' a) →
  Q (.ok (a, ⟨V, O, S, Y⟩)) → Q (.ok (a, ⟨V, O', S, Y⟩))

theorem oMono_agreesT (s : Cells) (g : Go β) (R : Cells → α → β → Prop) : OMono (AgreesT s g R) :=
  fun _ _ _ _ _ _ _ h => h

theorem TWp.oMono {x : T α} {V : Cells} {O O' : Nat → Prop} {S : Slots} {Y : Nat → Option Pend}
    {Q : Go (α × Own) → Prop} (hQ : OMono Q) (hO : ∀ a, O a → O' a)
    (h : TWp J Bad x ⟨V, O, S, Y⟩ Q) : TWp J Bad x ⟨V, O', S, Y⟩ Q :=
  TWp.mono hO (fun _ _ _ _ _ _ h h' => hQ _ _ _ _ _ _ h h') id h

theorem TWp.lift {x : M α} {k : α → T β} : ∀ {V : Cells} {O : Nat → Prop} {S : Slots}
    {Y : Nat → Option Pend} {Q : Go (β × Own) → Prop}, OMono Q →
    Wp x V O (fun r => match r with
      | .panic => Q .panic
      | .ok p => TWp J Bad (k p.1) ⟨p.2, O, S, Y⟩ Q) →
    TWp J Bad ((liftM x : T α) >>= k) ⟨V, O, S, Y⟩ Q := by
  induction x with
  | ret a => exact fun _ h => h
  | fail => exact fun _ h => h
  | load a k ih => exact fun hQ ⟨v, hv, h⟩ => ⟨v, hv, ih v hQ h⟩
  | store a v k ih => exact fun hQ ⟨ha, h⟩ => ⟨ha, ih hQ h⟩
  | alloc v k ih =>
    refine fun hQ h a ha => ih a hQ (Wp.mono (fun _ h => h) ?_ (h a ha))
    rintro (⟨p, t⟩ | _) hr
    · exact TWp.oMono hQ (fun b hb => .inr hb) hr
    · exact hr

theorem TWp.does {x : M α} {k : α → T β} {V : Cells} {O : Nat → Prop} {S : Slots}
    {Y : Nat → Option Pend} {Q : Go (β × Own) → Prop} {g : Go γ} {R : Cells → α → γ → Prop}
    (hQ : OMono Q) (hx : Does x V g R) (hp : g = .panic → Q .panic)
    (hk : ∀ a b V', g = .ok b → V ≼ V' → R V' a b → TWp J Bad (k a) ⟨V', O, S, Y⟩ Q) :
    TWp J Bad ((liftM x : T α) >>= k) ⟨V, O, S, Y⟩ Q := by
  refine TWp.lift hQ (Wp.mono (fun _ h => h.elim) ?_ hx)
  rintro (⟨a, t⟩ | _) hr
  · cases g with
    | panic => exact hr.elim
    | ok b => exact hk a b t rfl hr.1 hr.2
  · cases g with
    | panic => exact hp rfl
    | ok b => exact hr.elim

theorem TWp.load' {p : Ptr} {v : Int} {k : Int → T β} {V : Cells} {O : Nat → Prop} {S : Slots}
    {Y : Nat → Option Pend} {Q : Go (β × Own) → Prop} (h : Is V p (some v))
    (hk : TWp J Bad (k v) ⟨V, O, S, Y⟩ Q) :
    TWp J Bad ((liftM (load p) : T Int) >>= k) ⟨V, O, S, Y⟩ Q := by
  cases h with
  | cell a v ha => exact ⟨v, ha, hk⟩

theorem TWp.into' {f : Int → Int → Int} {z : Nat} {a b : Ptr} {x y : Int} {k : Ptr → T β} {V : Cells}
    {O : Nat → Prop} {S : Slots} {Y : Nat → Option Pend} {Q : Go (β × Own) → Prop} (hz : O z)
    (ha : Is V a (some x)) (hb : Is V b (some y))
    (hk : TWp J Bad (k (some z)) ⟨put V z (f x y), O, S, Y⟩ Q) :
    TWp J Bad ((liftM (into f (some z) a b) : T Ptr) >>= k) ⟨V, O, S, Y⟩ Q := by
  cases ha with
  | cell a x ea =>
    cases hb with
    | cell b y eb => exact ⟨x, ea, y, eb, hz, hk⟩

/-! ### The goroutines -/

/-- One set of variables (specification; rangeproof.go:42-47). -/
def only (a : Nat) (x : Slot) : Slots := fun b => if b = a then some x else none

theorem only_self (a : Nat) (x : Slot) : only a x a = some x := if_pos rfl

theorem proofGenA_simple (D : Nat → Prop) {a : Nat} (ha : D a) (idx : Nat) (bit : Bool) (rnd : BitRand) :
    (proofGenA hash e a idx bit rnd).Simple D := by
  have hg : ∀ f, (getF a f).Simple D := fun f => ⟨ha, fun _ => trivial⟩
  have hs : ∀ f p, (setF a f p).Simple D := fun f p => ⟨ha, trivial⟩
  have hl : ∀ {α : Type} (x : M α), (liftM x : T α).Simple D := fun x => M.lift_simple D x
  have hR : (getR a).Simple D := .bind (hg _) fun _ => .bind (hg _) fun _ => trivial
  have hB : (getB a).Simple D := .bind (hg _) fun _ => .bind (hg _) fun _ => trivial
  have sR : ∀ p, (setR a p).Simple D := fun p => .bind (hs _ _) fun _ => hs _ _
  have sB : ∀ p, (setB a p).Simple D := fun p => .bind (hs _ _) fun _ => hs _ _
  unfold proofGenA
  cases bit with
  | false =>
    rw [if_pos (by rfl)]
    repeat first
      | exact hs _ _ | exact hg _ | exact hl _ | exact hR | exact hB | exact sR _ | exact sB _
      | (refine T.Simple.bind ?_ fun _ => ?_)
  | true =>
    rw [if_neg (by simp)]
    repeat first
      | exact hs _ _ | exact hg _ | exact hl _ | exact hR | exact hB | exact sR _ | exact sB _
      | (refine T.Simple.bind ?_ fun _ => ?_)

theorem proofGenB_simple (D : Nat → Prop) {a : Nat} (ha : D a) (idx : Nat) (bit : Bool) (e0 : Ptr)
    (rnd : BitRand) : (proofGenB hash e a idx bit e0 rnd).Simple D := by
  have hg : ∀ f, (getF a f).Simple D := fun f => ⟨ha, fun _ => trivial⟩
  have hs : ∀ f p, (setF a f p).Simple D := fun f p => ⟨ha, trivial⟩
  have hl : ∀ {α : Type} (x : M α), (liftM x : T α).Simple D := fun x => M.lift_simple D x
  have hR : (getR a).Simple D := .bind (hg _) fun _ => .bind (hg _) fun _ => trivial
  have sB : ∀ p, (setB a p).Simple D := fun p => .bind (hs _ _) fun _ => hs _ _
  unfold proofGenB
  cases bit with
  | false =>
    rw [if_pos (by rfl)]
    repeat first
      | exact hs _ _ | exact hg _ | exact hl _ | exact hR | exact sB _
      | (refine T.Simple.bind ?_ fun _ => ?_)
  | true =>
    rw [if_neg (by simp)]
    repeat first
      | exact hs _ _ | exact hg _ | exact hl _ | exact hR | exact sB _
      | (refine T.Simple.bind ?_ fun _ => ?_)

/-- What a goroutine of the prover has done (specification; rangeproof.go:51-151): the variables at `a` have
the values `g`. -/
def SlotPost (a : Nat) (g : Go Proto.Slot) : Post := fun V S _ =>
  ∃ m b, g = .ok b ∧ S a = some m ∧ SlotIs V m b

theorem slotPost_mono (a : Nat) (g : Go Proto.Slot) : (SlotPost a g).Mono :=
  fun _ _ _ _ hS ⟨m, b, h1, h2, h3⟩ => ⟨m, b, h1, hS a m h2, h3⟩

/-- A goroutine that works on its variables only. -/
theorem worker_wp {x : T Point} {a : Nat} {x₀ : Slot} {U : Cells} {y : M Slot} {g : Go Proto.Slot}
    (hs : x.Simple fun b => only a x₀ b ≠ none)
    (hx : x.on (only a x₀) = y >>= fun m => pure (nilP, Function.update (only a x₀) a (some m)))
    {R : Cells → Slot → Proto.Slot → Prop} (hy : Does y U g R)
    (hR : ∀ t m b, R t m b → SlotIs t m b) (hb : g = .panic → Bad) :
    TWp (fun _ _ _ _ => False) True x ⟨U, fun _ => False, only a x₀, fun _ => none⟩
      (Ends Bad (SlotPost a g)) := by
  refine TWp.simple hs ?_
  rw [hx]
  refine Does.wp hy hb ?_
  intro m b t hg hl h O' hO
  exact ⟨m, b, hg, Function.update_self _ _ _, hR t m b h⟩

theorem genA_wp (hz : ZeroAdd cp.C) {U : Cells} (he : EnvIs U e cp) (w a idx : Nat) (bit : Bool)
    (rnd : BitRand)
    (hb : runW (progA hash cp idx bit rnd) emptySlot = .panic → Bad) :
    WWp hash e (.genA w a idx bit rnd) U (only a noSlot)
      (Ends Bad (SlotPost a (runW (progA hash cp idx bit rnd) emptySlot))) :=
  worker_wp (T.Simple.bind (proofGenA_simple _ (by simp [only_self]) _ _ _) fun _ => trivial)
    (proofGenA_on (only_self _ _) _ _ _) (genA_does hash hz he idx bit rnd) (fun _ _ _ h => h.1) hb

theorem genB_wp (hz : ZeroAdd cp.C) {U : Cells} (he : EnvIs U e cp) (w a idx : Nat) (bit : Bool)
    {e0 : Ptr} {e0v : Int} (h0 : Is U e0 (some e0v)) (rnd : BitRand) {m : Slot} {b : Proto.Slot}
    (hm : SlotIs U m b) (hb : runW (progB hash cp idx bit e0v rnd) b = .panic → Bad) :
    WWp hash e (.genB w a idx bit e0 rnd) U (only a m)
      (Ends Bad (SlotPost a (runW (progB hash cp idx bit e0v rnd) b))) :=
  worker_wp (T.Simple.bind (proofGenB_simple _ (by simp [only_self]) _ _ _ _) fun _ => trivial)
    (proofGenB_on (only_self _ _) _ _ _ _) (genB_does hash hz he idx bit h0 rnd hm (s0 := fun _ => none)
      (fun _ _ h => by cases h) ⟨⟨fun _ _ => rfl, fun _ _ => rfl⟩, .inl ⟨fun _ _ => rfl, fun _ _ => rfl⟩,
        fun _ _ => rfl, fun _ _ => rfl⟩) (fun _ _ _ h => h.1) hb

/-! ### NewRangeProof -/

/-- All numbers but one (specification; rangeproof.go:179). -/
def hide (a : Nat) (V : Cells) : Cells := fun b => if b = a then none else V b

theorem hide_le (a : Nat) (V : Cells) : hide a V ≼ V := by
  intro b v h
  unfold hide at h
  split at h
  · cases h
  · exact h

theorem hide_self (a : Nat) (V : Cells) : hide a V a = none := if_pos rfl

theorem Le.hide {s V : Cells} (h : s ≼ V) {a : Nat} (ha : s a = none) : s ≼ hide a V := by
  intro b v hb
  unfold Mem.hide
  rw [if_neg (by rintro rfl; rw [ha] at hb; cases hb)]
  exact h b v hb

theorem hide_mono {V V' : Cells} (h : V ≼ V') (a : Nat) : hide a V ≼ hide a V' :=
  ((hide_le a V).trans h).hide (hide_self a V)

theorem mapM_panic {f : α → Go β} : ∀ {l : List α} {a : α}, a ∈ l → f a = .panic → l.mapM f = .panic
  | b :: l, a, h, hf => by
    rw [List.mapM_cons]
    cases hb : f b with
    | panic => rfl
    | ok x =>
      rcases List.mem_cons.1 h with rfl | h
      · rw [hb] at hf; cases hf
      · rw [Go.bind_ok, mapM_panic h hf]
        rfl

theorem mapM_eq_of_map_eq {f : α → Go γ} {g : β → Go γ} : ∀ {l : List α} {l' : List β},
    l.map f = l'.map g → l.mapM f = l'.mapM g
  | [], [], _ => rfl
  | a :: l, b :: l', h => by
    rw [List.map_cons, List.map_cons, List.cons.injEq] at h
    rw [List.mapM_cons, List.mapM_cons, h.1, mapM_eq_of_map_eq h.2]

/-- The value-level goroutines of the second round, by index (specification; rangeproof.go:208-212). -/
def atIdx (vs : List Proto.Slot) (f : Nat → Proto.Slot → Go Proto.Slot) (i : Nat) : Go Proto.Slot :=
  deref vs[i]? >>= f i

theorem mapM_atIdx (vs : List Proto.Slot) (f : Nat → Proto.Slot → Go Proto.Slot) :
    (List.range' 0 vs.length).mapM (atIdx vs f) = vs.zipIdx.mapM fun s => f s.2 s.1 := by
  apply mapM_eq_of_map_eq
  apply List.ext_getElem
  · simp
  · intro i h1 h2
    have hi : i < vs.length := by simpa using h1
    simp [atIdx, List.getElem?_eq_getElem hi, deref_some]

theorem got_slots {R : Slot → Proto.Slot → Prop} {S : Slots} {g : Nat → Go Proto.Slot} :
    ∀ {as : List Nat} {k : Nat},
    (∀ p ∈ as.zipIdx k, ∃ m b, g p.2 = .ok b ∧ S p.1 = some m ∧ R m b) →
    ∃ ms vs, (List.range' k as.length).mapM g = .ok vs ∧ List.Forall₂ (fun a m => S a = some m) as ms ∧
      List.Forall₂ R ms vs
  | [], k, _ => ⟨[], [], rfl, .nil, .nil⟩
  | a :: as, k, h => by
    rw [List.zipIdx_cons] at h
    obtain ⟨m, b, h1, h2, h3⟩ := h (a, k) (List.mem_cons_self ..)
    obtain ⟨ms, vs, h4, h5, h6⟩ := got_slots fun p hp => h p (List.mem_cons_of_mem _ hp)
    refine ⟨m :: ms, b :: vs, ?_, .cons h2 h5, .cons h3 h6⟩
    rw [List.length_cons, List.range'_succ, List.mapM_cons, h1, Go.bind_ok, h4]
    rfl

theorem mkSlots_wp {k : List Nat → T β} {V : Cells} {O : Nat → Prop} {Y : Nat → Option Pend}
    {Q : Go (β × Own) → Prop} {n : Nat} : ∀ {S : Slots},
    (∀ as S', as.length = n → as.Nodup → (∀ a ∈ as, S a = none ∧ S' a = some noSlot) →
      (∀ a, a ∉ as → S' a = S a) → TWp J Bad (k as) ⟨V, O, S', Y⟩ Q) →
    TWp J Bad (mkSlots n >>= k) ⟨V, O, S, Y⟩ Q := by
  induction n generalizing k with
  | zero => exact fun h => h [] _ rfl .nil (fun _ h => by cases h) fun _ _ => rfl
  | succ n ih =>
    intro S h a ha
    show TWp J Bad ((mkSlots n >>= fun as => pure (a :: as)) >>= k) _ _
    rw [bind_assoc]
    refine ih fun as S' h1 h2 h3 h4 => ?_
    rw [pure_bind]
    have hna : a ∉ as := by
      intro hm
      have := (h3 a hm).1
      simp at this
    refine h (a :: as) S' (by rw [List.length_cons, h1]) (List.nodup_cons.2 ⟨hna, h2⟩) ?_ ?_
    · intro b hb
      rcases List.mem_cons.1 hb with rfl | hm
      · refine ⟨ha, ?_⟩
        rw [h4 _ hna]
        simp
      · refine ⟨?_, (h3 b hm).2⟩
        have := (h3 b hm).1
        rwa [Function.update_of_ne (by rintro rfl; exact hna hm)] at this
    · intro b hb
      rw [List.mem_cons, not_or] at hb
      rw [h4 _ hb.2]
      simp [hb.1]

/-- The first round at value level, by index (specification; rangeproof.go:185-188). -/
def roundA (hash : Bytes → Bytes) (cp : Params) (v : Int) (rnd : Nat → BitRand) (i : Nat) :
    Go Proto.Slot := runW (progA hash cp i (bitOf v i) (rnd i)) emptySlot

/-- The second round at value level (specification; rangeproof.go:208-212). -/
def roundB (hash : Bytes → Bytes) (cp : Params) (v e0 : Int) (rnd : Nat → BitRand) (i : Nat)
    (s : Proto.Slot) : Go Proto.Slot := runW (progB hash cp i (bitOf v i) e0 (rnd i)) s

theorem splits_only {S : Slots} {a : Nat} {x : Slot} (h : S a = some x) :
    Splits S (only a x) (Function.update S a none) := by
  refine ⟨?_, ?_, ?_⟩
  · intro b y hb
    unfold only at hb
    split at hb
    · rename_i e; subst e; rw [← hb, h]
    · cases hb
  · intro b y hb
    by_cases e : b = a
    · subst e; simp at hb
    · rwa [Function.update_of_ne e] at hb
  · intro b
    by_cases e : b = a
    · subst e; right; simp
    · left; exact if_neg e

theorem goA_wp (hz : ZeroAdd cp.C) {U : Cells} (he : EnvIs U e cp) {vt : Nat} (hvt : U vt = none)
    {value : Ptr} {v : Int} (hv : Is U value (some v)) (rnd : Nat → BitRand) {w : Nat} {V : Cells}
    (hU : U ≼ V) {k : Unit → T β} {Q : Go (β × Own) → Prop} {c : Nat} :
    ∀ {l : List (Nat × Nat)} {O : Nat → Prop} {S : Slots} {Y : Nat → Option Pend} {ps : List Post},
    (∀ p ∈ l, roundA hash cp v rnd p.2 = .panic → Bad) → O vt → (l.map Prod.fst).Nodup →
    (∀ p ∈ l, S p.1 = some noSlot) → Y w = some (.wg (c + l.length) ps) →
    (∀ O' S', O' vt → TWp (WWp hash e) Bad (k ()) ⟨V, O', S', Function.update Y w
      (some (.wg c (ps ++ l.map fun p => SlotPost p.1 (roundA hash cp v rnd p.2))))⟩ Q) →
    TWp (WWp hash e) Bad (goA w value rnd l >>= k) ⟨V, O, S, Y⟩ Q := by
  intro l
  induction l with
  | nil =>
    intro O S Y ps _ hO _ _ hY hk
    have := hk O S hO
    rw [List.map_nil, List.append_nil] at this
    rw [show Function.update Y w (some (.wg c ps)) = Y from by
      rw [show some (Pend.wg c ps) = Y w from hY.symm, Function.update_eq_self]] at this
    exact this
  | cons p l ih =>
    obtain ⟨a, i⟩ := p
    intro O S Y ps hb hO hnd hS hY hk
    show TWp _ _ ((liftM (load value) >>= fun v => T.go _ (goA w value rnd l)) >>= k) _ _
    rw [bind_assoc]
    refine TWp.load' (hv.mono hU) ?_
    have ha := hS _ (List.mem_cons_self ..)
    rw [List.map_cons, List.nodup_cons] at hnd
    refine ⟨U, only a noSlot, Function.update S a none, SlotPost a (roundA hash cp v rnd i), _, hU,
      splits_only ha, slotPost_mono _ _, genA_wp hz he w a i _ _ (hb _ (List.mem_cons_self ..)),
      .wg (c := c + l.length) hY, ?_⟩
    refine ih (fun p hp => hb p (List.mem_cons_of_mem _ hp)) ⟨hO, hvt⟩ hnd.2 ?_
      (Function.update_self ..) ?_
    · intro p hp
      have hm := List.mem_map_of_mem (f := Prod.fst) hp
      have : p.1 ≠ a := fun he => hnd.1 (he ▸ hm)
      rw [Function.update_of_ne this]
      exact hS p (List.mem_cons_of_mem _ hp)
    · intro O' S' hO'
      have := hk O' S' hO'
      rw [List.map_cons] at this
      rw [Function.update_idem, List.append_assoc]
      exact this

theorem goB_wp (hz : ZeroAdd cp.C) {U : Cells} (he : EnvIs U e cp) {vt : Nat} (hvt : U vt = none)
    {value : Ptr} {v : Int} (hv : Is U value (some v)) {e0 : Ptr} {e0v : Int}
    (h0 : Is U e0 (some e0v)) (rnd : Nat → BitRand) {w : Nat} {V : Cells}
    (hU : U ≼ V) (vs : List Proto.Slot) {k : Unit → T β} {Q : Go (β × Own) → Prop} {c : Nat} :
    ∀ {l : List (Nat × Nat)} {O : Nat → Prop} {S : Slots} {Y : Nat → Option Pend} {ps : List Post},
    (∀ p ∈ l, atIdx vs (roundB hash cp v e0v rnd) p.2 = .panic → Bad) → O vt → (l.map Prod.fst).Nodup →
    (∀ p ∈ l, ∃ m b, S p.1 = some m ∧ vs[p.2]? = some b ∧ SlotIs U m b) →
    Y w = some (.wg (c + l.length) ps) →
    (∀ O' S', O' vt → TWp (WWp hash e) Bad (k ()) ⟨V, O', S', Function.update Y w
      (some (.wg c (ps ++ l.map fun p => SlotPost p.1 (atIdx vs (roundB hash cp v e0v rnd) p.2))))⟩ Q) →
    TWp (WWp hash e) Bad (goB w value e0 rnd l >>= k) ⟨V, O, S, Y⟩ Q := by
  intro l
  induction l with
  | nil =>
    intro O S Y ps _ hO _ _ hY hk
    have := hk O S hO
    rw [List.map_nil, List.append_nil] at this
    rw [show Function.update Y w (some (.wg c ps)) = Y from by
      rw [show some (Pend.wg c ps) = Y w from hY.symm, Function.update_eq_self]] at this
    exact this
  | cons p l ih =>
    obtain ⟨a, i⟩ := p
    intro O S Y ps hb hO hnd hS hY hk
    show TWp _ _ ((liftM (load value) >>= fun v => T.go _ (goB w value e0 rnd l)) >>= k) _ _
    rw [bind_assoc]
    refine TWp.load' (hv.mono hU) ?_
    obtain ⟨m, b, ha, hi, hm⟩ := hS _ (List.mem_cons_self ..)
    rw [List.map_cons, List.nodup_cons] at hnd
    have hg : atIdx vs (roundB hash cp v e0v rnd) i = roundB hash cp v e0v rnd i b := by
      unfold atIdx
      rw [show vs[i]? = some b from hi, deref_some, Go.bind_ok]
    have hbi := hb _ (List.mem_cons_self ..)
    dsimp only at hbi
    rw [hg] at hbi
    refine ⟨U, only a m, Function.update S a none,
      SlotPost a (atIdx vs (roundB hash cp v e0v rnd) i), _, hU,
      splits_only ha, slotPost_mono _ _, ?_,
      .wg (c := c + l.length) hY, ?_⟩
    · rw [hg]
      exact genB_wp hz he w a i _ h0 _ hm hbi
    refine ih (fun p hp => hb p (List.mem_cons_of_mem _ hp)) ⟨hO, hvt⟩ hnd.2 ?_
      (Function.update_self ..) ?_
    · intro p hp
      have hm := List.mem_map_of_mem (f := Prod.fst) hp
      have : p.1 ≠ a := fun he => hnd.1 (he ▸ hm)
      rw [Function.update_of_ne this]
      exact hS p (List.mem_cons_of_mem _ hp)
    · intro O' S' hO'
      have := hk O' S' hO'
      rw [List.map_cons] at this
      rw [Function.update_idem, List.append_assoc]
      exact this

theorem on_bind {x : T α} {k : α → T β} : ∀ {S : Slots},
    T.on (x >>= k) S = x.on S >>= fun p => T.on (k p.1) p.2 := by
  induction x with
  | ret a => exact rfl
  | fail => exact rfl
  | load a k ih => exact congrArg _ (funext fun v => ih v)
  | store a v k ih => exact congrArg _ ih
  | alloc v k ih => exact congrArg _ (funext fun a => ih a)
  | get a f k' ih =>
    intro S
    show T.on (.get a f fun p => k' p >>= k) S = T.on (.get a f k') S >>= _
    rw [T.on, T.on]
    cases S a with
    | none => rfl
    | some x => exact ih _
  | set a f p k' ih =>
    intro S
    show T.on (.set a f p (k' >>= k)) S = T.on (.set a f p k') S >>= _
    rw [T.on, T.on]
    cases S a with
    | none => rfl
    | some x => exact ih
  | mkSlot k ih => exact rfl
  | mkWg k ih => exact rfl
  | add w n k ih => exact rfl
  | wait w k ih => exact rfl
  | mkChan k ih => exact rfl
  | recv c k ih => exact rfl
  | go j k ih => exact rfl

theorem writeRs_simple {D : Nat → Prop} : ∀ {as : List Nat}, (∀ a ∈ as, D a) → (writeRs as).Simple D
  | [], _ => trivial
  | a :: as, h => by
    have hg : ∀ f, (getF a f).Simple D := fun f => ⟨h a (List.mem_cons_self ..), fun _ => trivial⟩
    exact T.Simple.bind (T.Simple.bind (hg _) fun _ => T.Simple.bind (hg _) fun _ => trivial) fun _ =>
      T.Simple.bind (M.lift_simple D _) fun _ =>
        T.Simple.bind (writeRs_simple fun b hb => h b (List.mem_cons_of_mem _ hb)) fun _ => trivial

theorem writeRs_on {S : Slots} {as : List Nat} {ms : List Slot}
    (h : List.Forall₂ (fun a m => S a = some m) as ms) :
    (writeRs as).on S = ms.mapM (fun s => pointBytes s.R) >>= fun bs => pure (bs, S) := by
  induction h with
  | nil => rfl
  | @cons a m as ms h _ ih =>
    rw [List.mapM_cons, writeRs]
    simp only [getR, bind_assoc, on_get h, pure_bind, on_lift]
    simp only [on_bind, ih, on_pure, bind_assoc, pure_bind]
    rfl

theorem collect_simple {D : Nat → Prop} {vt : Ptr} : ∀ {as : List Nat} {agg : Point}, (∀ a ∈ as, D a) →
    (collect e vt as agg).Simple D
  | [], _, _ => trivial
  | a :: as, agg, h => by
    have hg : ∀ f, (getF a f).Simple D := fun f => ⟨h a (List.mem_cons_self ..), fun _ => trivial⟩
    have hB : (getB a).Simple D := .bind (hg _) fun _ => .bind (hg _) fun _ => trivial
    have hl : ∀ {α : Type} (x : M α), (liftM x : T α).Simple D := fun x => M.lift_simple D x
    exact .bind (hg _) fun _ => .bind (hl _) fun _ => .bind hB fun _ => .bind (hl _) fun _ =>
      .bind hB fun _ => .bind (hg _) fun _ =>
        .bind (collect_simple fun b hb => h b (List.mem_cons_of_mem _ hb)) fun _ => trivial

theorem collect_on {S : Slots} {vt : Ptr} {as : List Nat} {ms : List Slot}
    (h : List.Forall₂ (fun a m => S a = some m) as ms) : ∀ agg : Point,
    (collect e vt as agg).on S = sumUp e vt ms agg >>= fun agg =>
      pure ((agg, ms.map fun s => ⟨s.B, s.k⟩), S) := by
  induction h with
  | nil => exact fun _ => rfl
  | @cons a m as ms h _ ih =>
    intro agg
    rw [sumUp, collect]
    simp only [getB, bind_assoc, on_get h, pure_bind, on_lift]
    simp only [on_bind, ih, on_pure, bind_assoc, pure_bind]
    rfl

/-- What `NewRangeProof` returns, in memory and as values (specification; rangeproof.go:223-230). -/
def RangeResIs (t : Cells) (r : Option Range × Ptr × Option Err)
    (r' : Option RangeProof × Option Int × Option Err) : Prop :=
  Option.Rel (RangeIs t) r.1 r'.1 ∧ Is t r.2.1 r'.2.1 ∧ r.2.2 = r'.2.2

theorem proveRangePar_wp (hz : ZeroAdd cp.C) {s : Cells} (he : EnvIs s e cp) (n : Nat) {value : Ptr}
    {v : Int} (hv : Is s value (some v)) (rnd : Nat → BitRand)
    (hbad : Proto.proveRange hash cp n v rnd = .panic → Bad) :
    TWp (WWp hash e) Bad (proveRangePar hash e n value rnd)
      ⟨s, fun _ => False, fun _ => none, fun _ => none⟩
      (AgreesT s (Proto.proveRange hash cp n v rnd) RangeResIs) := by
  have hN := he.N
  unfold proveRangePar
  refine mkSlots_wp fun as S hlen hnd hS _ => ?_
  refine fun vt hvt => ?_
  have hvt : s vt = none := hvt
  refine fun w _ => ?_
  refine ⟨0, [], Function.update_self .., ?_⟩
  dsimp only
  set sv : Cells := Mem.put s vt 0 with hsv
  have lv : s ≼ sv := le_put hvt 0
  have hU : s ≼ hide vt sv := lv.hide hvt
  have hgo : Proto.proveRange hash cp n v rnd = (do
      let vsA ← (List.range' 0 as.length).mapM (roundA hash cp v rnd)
      let bs ← (vsA.map Proto.Slot.R).mapM Proto.pointBytes
      let vsB ← (List.range' 0 vsA.length).mapM
        (atIdx vsA (roundB hash cp v (((setBytes (hash bs.flatten) : Nat) : Int) % (cp.C.N : Int)) rnd))
      finishRange cp (((setBytes (hash bs.flatten) : Nat) : Int) % (cp.C.N : Int)) vsB) := by
    simp only [mapM_atIdx]
    unfold Proto.proveRange hashAll roundA roundB
    rw [List.range_eq_range', hlen]
    simp only [bind_assoc]
    rfl
  have hfst : ∀ as : List Nat, as.zipIdx.map Prod.fst = as := fun as => by simp
  rw [hgo] at hbad ⊢
  refine goA_wp (U := hide vt sv) (vt := vt) (v := v) (c := 0) (ps := []) hz (he.mono hU) (hide_self _ _) (hv.mono hU) rnd (hide_le _ _) ?_
    (.inl rfl) (by rw [hfst]; exact hnd) ?_ ?_ ?_
  · intro p hp hpan
    refine hbad ?_
    rw [mapM_panic (a := p.2) ?_ hpan]
    · rfl
    · have := List.snd_lt_of_mem_zipIdx hp
      rw [List.mem_range'_1]
      omega
  · intro p hp
    exact (hS _ (List.fst_mem_of_mem_zipIdx hp)).2
  · rw [Function.update_self, List.length_zipIdx, hlen]
  · intro O₁ S₁ hO₁
    refine ⟨_, Function.update_self .., fun V₁ S₂ hV₁ _ hpost => ?_⟩
    dsimp only at hV₁ hpost ⊢
    have got : ∀ p ∈ as.zipIdx 0, ∃ m b, roundA hash cp v rnd p.2 = .ok b ∧ S₂ p.1 = some m ∧
        SlotIs (hide vt V₁) m b := by
      intro p hp
      obtain ⟨U, -, h1, h2, m, b, h3, h4, h5⟩ := hpost _ (List.mem_map_of_mem hp)
      exact ⟨m, b, h3, h4, h5.mono (h1.hide (h2 vt hO₁))⟩
    obtain ⟨ms, vsA, hgA, hms, hA⟩ := got_slots got
    rw [hgA, Go.bind_ok] at hbad ⊢
    have hin : ∀ {S : Slots} {ms : List Slot}, List.Forall₂ (fun a m => S a = some m) as ms →
        ∀ a ∈ as, S a ≠ none := by
      intro S ms h a ha
      obtain ⟨i, hi, rfl⟩ := List.getElem_of_mem ha
      obtain ⟨g1, g2⟩ := List.forall₂_iff_get.1 h
      have := g2 i hi (g1 ▸ hi)
      rw [List.get_eq_getElem] at this
      rw [this]
      simp
    show TWp _ _ (writeRs as >>= _) _ _
    refine TWp.bind (TWp.simple (writeRs_simple (hin hms)) ?_)
    rw [writeRs_on hms]
    refine Does.wp (mapM_slotR_does (hA.imp fun _ _ h => h.mono (hide_le _ _))) ?_ ?_
    · intro hp
      show AgreesT _ _ _ .panic
      rw [hp]
      rfl
    rintro bs _ V₁ hgR - ⟨rfl, rfl⟩ O₂ hO₂
    rw [hgR, Go.bind_ok] at hbad ⊢
    set h : Int := ((setBytes (hash bs.flatten) : Nat) : Int) with hh
    have lV₁ : s ≼ V₁ := lv.trans hV₁
    refine fun ea hea => TWp.into' (.inl rfl) (is_put _ _ _)
      ((hN.mono lV₁).mono (le_put hea _)) ?_
    dsimp only at hea ⊢
    rw [put_put]
    set tE : Cells := Mem.put V₁ ea (modF h cp.C.N) with htE
    have lE : V₁ ≼ tE := le_put hea _
    refine fun xa hxa => ?_
    dsimp only at hxa ⊢
    set tX : Cells := Mem.put tE xa 0 with htX
    have lX : tE ≼ tX := le_put hxa _
    refine fun ya hya => ?_
    dsimp only at hya ⊢
    set tY : Cells := Mem.put tX ya 0 with htY
    have lY : tX ≼ tY := le_put hya _
    have l1Y : V₁ ≼ tY := (lE.trans lX).trans lY
    have hv0 : V₁ vt = some 0 := hV₁ _ _ (put_self _ _ _)
    have ne1 : ∀ {c : Nat}, V₁ c = none → c ≠ vt := by
      rintro c hc rfl
      rw [hv0] at hc
      cases hc
    have nea := ne1 hea
    have nxa := ne1 (lE.unseen hxa)
    have nya := ne1 (lE.unseen (lX.unseen hya))
    have hE : Is (hide vt tY) (some ea) (some (h % (cp.C.N : Int))) := by
      refine .cell _ _ ?_
      unfold hide
      rw [if_neg nea]
      exact lY _ _ (lX _ _ (put_self _ _ _))
    have hUY : s ≼ hide vt tY := (lV₁.trans l1Y).hide hvt
    refine ⟨0, [], Function.update_self .., ?_⟩
    have hlA : vsA.length = as.length := by rw [← hA.length_eq, ← hms.length_eq]
    dsimp only
    refine goB_wp (U := hide vt tY) (vt := vt) (v := v) (e0v := h % (cp.C.N : Int)) (c := 0) (ps := [])
      hz (he.mono hUY) (hide_self _ _) (hv.mono hUY) hE rnd (hide_le _ _) vsA ?_
      (.inr (.inr (.inr (hO₂ _ hO₁)))) (by rw [hfst]; exact hnd) ?_ ?_ ?_
    · intro p hp hpan
      refine hbad ?_
      rw [mapM_panic (a := p.2) ?_ hpan]
      · rfl
      · have := List.snd_lt_of_mem_zipIdx hp
        rw [List.mem_range'_1]
        omega
    · intro p hp
      obtain ⟨-, hi, h3⟩ := List.mem_zipIdx hp
      simp only [Nat.zero_add, Nat.sub_zero] at hi h3
      obtain ⟨g1, g2⟩ := List.forall₂_iff_get.1 hms
      obtain ⟨g3, g4⟩ := List.forall₂_iff_get.1 hA
      refine ⟨ms[p.2]'(g1 ▸ hi), vsA[p.2]'(hlA ▸ hi), ?_, List.getElem?_eq_getElem _, ?_⟩
      · rw [h3]
        exact g2 p.2 hi (g1 ▸ hi)
      · exact (g4 p.2 (g1 ▸ hi) (hlA ▸ hi)).mono (hide_mono l1Y vt)
    · rw [Function.update_self, List.length_zipIdx, hlen]
    intro O₃ S₃ hO₃
    refine ⟨_, Function.update_self .., fun V₂ S₄ hV₂ _ hpost₂ => ?_⟩
    dsimp only at hV₂ hpost₂ ⊢
    have got₂ : ∀ p ∈ as.zipIdx 0, ∃ m b, atIdx vsA (roundB hash cp v (h % (cp.C.N : Int)) rnd) p.2 = .ok b ∧
        S₄ p.1 = some m ∧ SlotIs (hide vt V₂) m b := by
      intro p hp
      obtain ⟨U, -, h1, h2, m, b, h3, h4, h5⟩ := hpost₂ _ (List.mem_map_of_mem hp)
      exact ⟨m, b, h3, h4, h5.mono (h1.hide (h2 vt hO₃))⟩
    obtain ⟨msB, vsB, hgB, hmsB, hB⟩ := got_slots got₂
    rw [hlA, hgB, Go.bind_ok] at hbad ⊢
    have hv2 : V₂ vt = some 0 := hV₂ _ _ (l1Y _ _ hv0)
    have lsV₂ : s ≼ V₂ := (lV₁.trans l1Y).trans hV₂
    show TWp _ _ (collect e (some vt) as ⟨some xa, some ya⟩ >>= _) _ _
    refine TWp.bind (TWp.simple (collect_simple (hin hmsB)) ?_)
    rw [collect_on hmsB]
    refine Wp.bind ?_
    have hself := hide_self vt V₂
    refine Wp.mono (fun _ h => h) ?_ (sumUp_wp hz he hvt hO₃ (ms := msB) (vs := vsB) (t := V₂)
      (acc := 0) (agg := ⟨some xa, some ya⟩) (aggv := Zero) lsV₂ hv2
      ⟨((is_put tE xa 0).mono lY).mono hV₂, (is_put tX ya 0).mono hV₂⟩
      (by simpa using nxa) (by simpa using nya)
      (hB.imp fun m v h => ⟨h.B.mono (hide_le _ _), h.v.mono (hide_le _ _), h.v.ne hself, h.B.x.ne hself,
        h.B.y.ne hself⟩))
    unfold finishRange
    generalize (vsB.foldlM (fun (acc : Int × ECPoint) s => do
      let v ← deref s.v
      let agg ← Proto.add cp acc.2 s.B
      pure (acc.1 + v, agg)) ((0 : Int), Zero) : Go (Int × ECPoint)) = g
    rintro r hr
    cases g with
    | panic =>
      rcases r with ⟨P, u⟩ | _
      · exact hr.elim
      · rfl
    | ok q =>
      rcases r with ⟨P, u⟩ | _
      · obtain ⟨f1, h2, h3, -⟩ := hr
        have lu : s ≼ u := by
          intro b v hb
          refine f1 b v ?_ (lsV₂ b v hb)
          rintro rfl
          rw [hvt] at hb
          cases hb
        intro O' _
        refine ⟨_, rfl, lu, ?_, .cell _ _ h2, rfl⟩
        apply Option.Rel.some
        refine RangeIs.mk h3 ?_ ?_
        · exact f1.is ((hE.mono (hide_le _ _)).mono hV₂) (by simpa using nea)
        · rw [List.forall₂_map_left_iff, List.forall₂_map_right_iff]
          refine hB.imp fun m v h => ⟨⟨f1.is (h.B.x.mono (hide_le _ _)) (h.B.x.ne hself),
            f1.is (h.B.y.mono (hide_le _ _)) (h.B.y.ne hself)⟩,
            f1.is (h.k.mono (hide_le _ _)) (h.k.ne hself)⟩
      · exact hr.elim

end Zk.Mem
