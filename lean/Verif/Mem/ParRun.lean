import Verif.Mem.ParStep

/-!
# What holds in every state, kept by every step of every goroutine
-/

namespace Zk.Mem

open Zk Zk.Proto

variable {hash : Bytes → Bytes} {e : Env} {cp : Params} {α : Type}
  {J : Job → Cells → Slots → (Go (Point × Own) → Prop) → Prop} {Bad : Prop}

theorem ResIs.mono {s t : Cells} {r : Res} {w : VRes} (h : s ≼ t) (hr : ResIs s r w) : ResIs t r w := by
  cases hr with
  | bool b => exact .bool b
  | point h1 => exact .point (h1.mono h)
  | bytes b => exact .bytes b
  | pointNum h1 h2 => exact .pointNum (h1.mono h) (h2.mono h)
  | verdict r => exact .verdict r
  | gspfs h1 h2 => exact .gspfs (relMono (fun _ _ => GSPFSIs.mono h) h1) h2
  | equivalence h1 h2 => exact .equivalence (relMono (fun _ _ => EquivalenceIs.mono h) h1) h2
  | consistency h1 h2 => exact .consistency (relMono (fun _ _ => ConsistencyIs.mono h) h1) h2
  | disjunctive h1 h2 => exact .disjunctive (relMono (fun _ _ => DisjunctiveIs.mono h) h1) h2
  | abc h1 h2 => exact .abc (relMono (fun _ _ => ABCIs.mono h) h1) h2
  | range h1 h2 h3 => exact .range (relMono (fun _ _ => RangeIs.mono h) h1) (h2.mono h) h3

/-- A `go` statement. -/
theorem Core.go {s : Shared} {thr : Nat → Thread} {G : Ghost} (hc : Core s thr G) {i t : Nat}
    (hi : (thr i).Active) (hu : thr i ≠ .unused) (ht : thr t = .unused) {j : Job} {x : T Point}
    {U : Cells} (hU : U ≼ G.V i) {S₁ S₂ : Slots} (hS : Splits (G.S i) S₁ S₂) {q : Post} (hq : q.Mono)
    {Y' : Nat → Option Pend} (hp : Push (G.Y i) j.dest q Y') :
    ∃ G', Core s (Function.update thr t (.worker j x)) G' ∧ G'.F = G.F ∧
      G'.own i = ⟨G.V i, fun a => G.O i a ∧ U a = none, S₂, Y'⟩ ∧
      G'.own t = ⟨U, fun _ => False, S₁, fun _ => none⟩ ∧ G'.post t = q ∧
      ∀ k, k ≠ i → k ≠ t → G'.own k = G.own k ∧ G'.post k = G.post k := by
  have hti : t ≠ i := by rintro rfl; exact hu ht
  have hSi : ∀ k, Function.update (Function.update G.S i S₂) t S₁ k =
      if k = t then S₁ else if k = i then S₂ else G.S k := by
    intro k
    by_cases hk : k = t
    · subst hk; simp
    · rw [Function.update_of_ne hk, if_neg hk]
      by_cases hki : k = i
      · subst hki; simp
      · rw [Function.update_of_ne hki, if_neg hki]
  refine ⟨⟨Function.update G.V t U, Function.update (Function.update G.O i
      fun a => G.O i a ∧ U a = none) t fun _ => False, Function.update (Function.update G.S i S₂) t S₁,
      Function.update (Function.update G.Y i Y') t fun _ => none, Function.update G.post t q,
      Function.update G.kids j.dest.id (G.kids j.dest.id ++ [t]), G.F⟩, ?_, rfl, ?_, ?_, ?_, ?_⟩
  · have hsync := (hc.sync.go (x := x) ht hp).drop
      (Y' := Function.update (Function.update G.Y i Y') t fun _ => none) (by
        intro k w p hk
        by_cases hkt : k = t
        · subst hkt; rw [Function.update_self] at hk; cases hk
        · rwa [Function.update_of_ne hkt] at hk)
    have hY : ∀ {k w p}, Function.update (Function.update G.Y i Y') t (fun _ => none) k w = some p →
        ∃ p', G.Y k w = some p' := by
      intro k w p hk
      by_cases hkt : k = t
      · subst hkt; rw [Function.update_self] at hk; cases hk
      · rw [Function.update_of_ne hkt] at hk
        by_cases hki : k = i
        · subst hki
          rw [Function.update_self] at hk
          generalize j.dest = d at hp
          cases hp with
          | @wg w' c ps _ h1 =>
            by_cases hw : w = w'
            · subst hw; exact ⟨_, h1⟩
            · rw [Function.update_of_ne hw] at hk; exact ⟨_, hk⟩
          | @chan w' c ps _ h1 =>
            by_cases hw : w = w'
            · subst hw; exact ⟨_, h1⟩
            · rw [Function.update_of_ne hw] at hk; exact ⟨_, hk⟩
        · rw [Function.update_of_ne hki] at hk
          exact ⟨_, hk⟩
    refine ⟨hc.mem.go hti hU, hc.slots.move ?_ ?_, hsync, ?_, ?_, ?_, hc.fin.thr t _⟩
    · intro k a y hy
      dsimp only at hy
      rw [hSi] at hy
      split at hy
      · exact ⟨i, hS.left a y hy⟩
      · split at hy
        · exact ⟨i, hS.right a y hy⟩
        · exact ⟨k, hy⟩
    · intro k l a hkl
      dsimp only
      rw [hSi, hSi]
      have h1 : ∀ {m}, m ≠ i → S₁ a = none ∨ G.S m a = none := by
        intro m hm
        cases hs : S₁ a with
        | none => exact .inl rfl
        | some y => exact .inr ((hc.slots.apart m i a hm).resolve_right (by rw [hS.left a y hs]; simp))
      have h2 : ∀ {m}, m ≠ i → S₂ a = none ∨ G.S m a = none := by
        intro m hm
        cases hs : S₂ a with
        | none => exact .inl rfl
        | some y => exact .inr ((hc.slots.apart m i a hm).resolve_right (by rw [hS.right a y hs]; simp))
      by_cases hkt : k = t
      · rw [if_pos hkt, if_neg (by rintro rfl; exact hkl hkt)]
        by_cases hli : l = i
        · rw [if_pos hli]; exact hS.apart a
        · rw [if_neg hli]; exact h1 hli
      · rw [if_neg hkt]
        by_cases hlt : l = t
        · rw [if_pos hlt]
          by_cases hki : k = i
          · rw [if_pos hki]; exact (hS.apart a).symm
          · rw [if_neg hki]; exact (h1 hki).symm
        · rw [if_neg hlt]
          by_cases hki : k = i
          · rw [if_pos hki, if_neg (by rintro rfl; exact hkl hki)]
            exact h2 (by rintro rfl; exact hkl hki)
          · rw [if_neg hki]
            by_cases hli : l = i
            · rw [if_pos hli]; exact (h2 hki).symm
            · rw [if_neg hli]; exact hc.slots.apart k l a hkl
    · refine hc.posts.imp ?_
      intro k w p hk u hu j' P he
      have hut : u ≠ t := by rintro rfl; rw [Function.update_self] at he; cases he
      rw [Function.update_of_ne hut] at he
      have hui : u ≠ i := by rintro rfl; exact hi.ne _ _ he
      obtain ⟨p', hp'⟩ := hY hk
      have hu' : u ∈ G.kids w := by
        dsimp only at hu
        by_cases hw : w = j.dest.id
        · subst hw
          rw [Function.update_self, List.mem_append, List.mem_singleton] at hu
          exact hu.resolve_right hut
        · rwa [Function.update_of_ne hw] at hu
      refine ⟨⟨k, w, p', hp', hu'⟩, he, ?_, ?_, ?_⟩
      · exact Function.update_of_ne hut _ _
      · dsimp only
        rw [hSi, if_neg hut, if_neg hui]
      · exact Function.update_of_ne hut _ _
    · intro k
      dsimp only
      by_cases hk : k = t
      · subst hk; rw [Function.update_self]; exact hq
      · rw [Function.update_of_ne hk]; exact hc.mono k
    · intro k hl hj a
      have hkt : k ≠ t := by rintro rfl; rw [Function.update_self] at hl; cases hl
      rw [Function.update_of_ne hkt] at hl hj
      dsimp only
      rw [Function.update_of_ne hkt]
      have hki : k ≠ i := by
        rintro rfl
        obtain ⟨j', P, he⟩ := ended_of hl hj
        exact hi.ne _ _ he
      rw [Function.update_of_ne hki]
      exact hc.quiet k hl hj a
  · unfold Ghost.own
    simp only [Function.update_of_ne (Ne.symm hti), Function.update_self]
  · unfold Ghost.own
    simp only [Function.update_self]
  · exact Function.update_self ..
  · intro k hki hkt
    unfold Ghost.own
    simp only [Function.update_of_ne hki, Function.update_of_ne hkt, and_self]

/-- A goroutine signals its end. -/
theorem Core.signal {s s' : Shared} {thr : Nat → Thread} {G : Ghost} (hc : Core s thr G) {t : Nat}
    {j : Job} {x : T Point} {P : Point} (ht : thr t = .worker j x) (hs : Signal j.dest P s s')
    (hp : G.post t (G.V t) (G.S t) P) :
    ∃ G', Core s' (Function.update thr t (.ended j P)) G' ∧ G'.F = G.F ∧
      ∀ k, k ≠ t → G'.own k = G.own k ∧ G'.post k = G.post k := by
  have hm : s'.mem = s.mem ∧ s'.slots = s.slots := by
    generalize j.dest = d at hs
    cases hs <;> exact ⟨rfl, rfl⟩
  have hf : Finite s' thr := by
    generalize j.dest = d at hs
    cases hs with
    | done h => exact hc.fin.sync _ _
    | send h hl => exact hc.fin.sync _ _
  refine ⟨{ G with O := Function.update G.O t (fun _ => False),
                   Y := Function.update G.Y t (fun _ => none) }, ?_, rfl, ?_⟩
  · have hYd : ∀ k w p, Function.update G.Y t (fun _ => none) k w = some p → G.Y k w = some p := by
      intro k w p hk
      by_cases hkt : k = t
      · subst hkt; rw [Function.update_self] at hk; cases hk
      · rwa [Function.update_of_ne hkt] at hk
    refine ⟨?_, ?_, (hc.sync.signal ht hs).drop hYd, ?_, hc.mono, ?_, hf.thr t _⟩
    · rw [hm.1]
      refine hc.mem.shrink fun k a ha => ?_
      dsimp only at ha
      by_cases hkt : k = t
      · subst hkt; rw [Function.update_self] at ha; exact ha.elim
      · rwa [Function.update_of_ne hkt] at ha
    · rw [hm.2]; exact hc.slots
    · intro k w p hk u hu j' P' he
      by_cases hut : u = t
      · subst hut
        rw [Function.update_self] at he
        cases he
        exact hp
      · rw [Function.update_of_ne hut] at he
        exact hc.posts k w p (hYd k w p hk) u hu j' P' he
    · intro k hl hj a
      dsimp only
      by_cases hkt : k = t
      · subst hkt; rw [Function.update_self]; exact id
      · rw [Function.update_of_ne hkt] at hl hj ⊢
        exact hc.quiet k hl hj a
  · intro k hk
    unfold Ghost.own
    simp only [Function.update_of_ne hk, and_self]

/-- A goroutine of the client makes a number. -/
theorem Core.make {s : Shared} {thr : Nat → Thread} {G : Ghost} (hc : Core s thr G) {i a : Nat}
    (hi : (thr i).Active) (hO : ∀ b, ¬ G.O i b) (x : Int) (ha : s.mem a = none) :
    ∃ G', Core { s with mem := put s.mem a x } thr G' ∧ G'.F = put G.F a x ∧ G.F ≼ G'.F ∧
      G'.own i = ⟨put (G.V i) a x, G.O i, G.S i, G.Y i⟩ ∧
      G'.post = G.post ∧ ∀ k, k ≠ i → G'.own k = G.own k := by
  have h1 := hc.write hi x (O' := G.O i) (.inr ha) fun b hb => .inr hb
  have hF : G.F ≼ put G.F a x := le_put (hc.mem.frozen.unseen ha) x
  refine ⟨{ G with V := Function.update G.V i (put (G.V i) a x), O := Function.update G.O i (G.O i),
                   F := put G.F a x }, { h1 with mem := h1.mem.freeze (i := i) (F' := put G.F a x) ?_ ?_ ?_ }, rfl, hF, ?_, rfl, ?_⟩
  · intro b
    dsimp only
    rw [Function.update_self]
    exact hO b
  · intro b v hb
    dsimp only
    by_cases hba : b = a
    · subst hba; rw [put_self] at hb ⊢; exact hb
    · rw [put_ne _ _ hba] at hb ⊢; exact hc.mem.frozen b v hb
  · intro b hb
    dsimp only
    rw [Function.update_self]
    by_cases hba : b = a
    · subst hba; right; rw [put_self]; simp
    · rw [put_ne _ _ hba] at hb; exact .inl hb
  · unfold Ghost.own
    simp only [Function.update_self]
  · intro k hk
    unfold Ghost.own
    simp only [Function.update_of_ne hk]

/-- A call returns: nobody writes to the numbers it saw any more. -/
theorem Core.returns {s : Shared} {thr : Nat → Thread} {G : Ghost} (hc : Core s thr G) {i : Nat}
    (hi : (thr i).Active) :
    ∃ G', Core s thr G' ∧ G.F ≼ G'.F ∧ G.V i ≼ G'.F ∧
      G'.own i = ⟨G.V i, fun _ => False, fun _ => none, fun _ => none⟩ ∧
      G'.post = G.post ∧ ∀ k, k ≠ i → G'.own k = G.own k := by
  have hO : ∀ k a, Function.update G.O i (fun _ => False) k a → k ≠ i ∧ G.O k a := by
    intro k a ha
    by_cases hk : k = i
    · subst hk; rw [Function.update_self] at ha; exact ha.elim
    · rw [Function.update_of_ne hk] at ha; exact ⟨hk, ha⟩
  have hS : ∀ k a y, Function.update G.S i (fun _ => none) k a = some y → G.S k a = some y := by
    intro k a y ha
    by_cases hk : k = i
    · subst hk; rw [Function.update_self] at ha; cases ha
    · rwa [Function.update_of_ne hk] at ha
  have hSn : ∀ k a, G.S k a = none → Function.update G.S i (fun _ => none) k a = none := by
    intro k a ha
    cases hs : Function.update G.S i (fun _ => none) k a with
    | none => rfl
    | some y => rw [hS k a y hs] at ha; cases ha
  have hY : ∀ k w p, Function.update G.Y i (fun _ => none) k w = some p → G.Y k w = some p := by
    intro k w p ha
    by_cases hk : k = i
    · subst hk; rw [Function.update_self] at ha; cases ha
    · rwa [Function.update_of_ne hk] at ha
  have f1 : G.F ≼ fun a => (G.F a).or (G.V i a) := by
    intro a v h
    show (G.F a).or (G.V i a) = some v
    rw [h]
    rfl
  have f2 : G.V i ≼ fun a => (G.F a).or (G.V i a) := by
    intro a v h
    show (G.F a).or (G.V i a) = some v
    cases hF : G.F a with
    | none => exact h
    | some u =>
      have h1 := hc.mem.frozen a u hF
      rw [hc.mem.seen i a v h] at h1
      exact h1.symm ▸ rfl
  refine ⟨{ G with
      O := Function.update G.O i (fun _ => False), S := Function.update G.S i (fun _ => none),
      Y := Function.update G.Y i (fun _ => none), F := fun a => (G.F a).or (G.V i a) },
    ⟨?_, ?_, hc.sync.drop hY, ?_, hc.mono, fun k hl hj a ha => hc.quiet k hl hj a (hO k a ha).2, hc.fin⟩,
    f1, f2, ?_, rfl, ?_⟩
  · refine (hc.mem.shrink fun k a ha => (hO k a ha).2).freeze (i := i) ?_ ?_ ?_
    · intro a
      rw [Function.update_self]
      exact id
    · intro a v h
      dsimp only at h
      cases hF : G.F a with
      | none => rw [hF] at h; exact hc.mem.seen i a v h
      | some u => rw [hF] at h; exact hc.mem.frozen a v (hF.trans h)
    · intro a h
      dsimp only at h
      cases hF : G.F a with
      | none => rw [hF] at h; exact .inr h
      | some u => left; simp
  · exact hc.slots.move (fun k a y h => ⟨k, hS k a y h⟩) fun k l a hkl =>
      (hc.slots.apart k l a hkl).imp (hSn k a) (hSn l a)
  · refine hc.posts.imp fun k w p hk u hu j P he => ⟨⟨k, w, p, hY k w p hk, hu⟩, he, rfl, ?_, rfl⟩
    exact Function.update_of_ne (by rintro rfl; exact hi.ne _ _ he) _ _
  · unfold Ghost.own
    simp only [Function.update_self]
  · intro k hk
    unfold Ghost.own
    simp only [Function.update_of_ne hk]

/-! ### All goroutines -/

/-- The calls that have returned have returned what the functions on values do (specification;
crypto.go:86-110 is one of them). -/
def Done (hash : Bytes → Bytes) (cp : Params) (F : Cells) (log : List (Call × Res)) : Prop :=
  ∀ p ∈ log, ∃ v w, CallIs F p.1 v ∧ runValues hash cp v = .ok w ∧ ResIs F p.2 w

theorem Done.mono {F F' : Cells} {log : List (Call × Res)} (h : F ≼ F') (hd : Done hash cp F log) :
    Done hash cp F' log := by
  intro p hp
  obtain ⟨v, w, h1, h2, h3⟩ := hd p hp
  exact ⟨v, w, h1.mono h, h2, h3.mono h⟩

/-- What is known of one goroutine, by what it sees and has and what it has promised (specification;
rangeproof.go:172-230). -/
def ThrOk (hash : Bytes → Bytes) (e : Env) (cp : Params) (s₀ : Cells) (made : List Call) (F : Cells)
    (q : Post) (o : Own) : Thread → Prop
  | .unused => True
  | .client log p => Done hash cp F log ∧ s₀ ≼ o.V ∧ o.V ≼ F ∧
      o = ⟨o.V, fun _ => False, fun _ => none, fun _ => none⟩ ∧ Valid hash cp p o.V
  | .call log c x k => Done hash cp F log ∧ c ∈ made ∧ ∃ v V, CallIs V c v ∧ s₀ ≼ V ∧ V ≼ F ∧
      TWp (WWp hash e) (MayCrash hash cp v) x o (AgreesT V (runValues hash cp v) ResIs) ∧
      ∀ t r w, V ≼ t → runValues hash cp v = .ok w → ResIs t r w → Valid hash cp (k r) t
  | .worker _ x => x.Simple (fun _ => True) ∧ ∃ c v, c ∈ made ∧ CallIs F c v ∧
      TWp (fun _ _ _ _ => False) True x o (Ends (MayCrash hash cp v) q)
  | .ended _ _ => True
  | .panicked => False

theorem ThrOk.mono {s₀ : Cells} {made made' : List Call} {F F' : Cells} {q : Post} {o : Own} {t : Thread}
    (hm : ∀ c ∈ made, c ∈ made') (hF : F ≼ F') (h : ThrOk hash e cp s₀ made F q o t) :
    ThrOk hash e cp s₀ made' F' q o t := by
  cases t with
  | unused => trivial
  | client log p =>
    obtain ⟨h1, h2, h3, h4⟩ := h
    exact ⟨h1.mono hF, h2, h3.trans hF, h4⟩
  | call log c x k =>
    obtain ⟨h1, h2, v, V, h3, h4, h5, h6⟩ := h
    exact ⟨h1.mono hF, hm _ h2, v, V, h3, h4, h5.trans hF, h6⟩
  | worker j x =>
    obtain ⟨h0, c, v, h1, h2, h3⟩ := h
    exact ⟨h0, c, v, hm _ h1, h2.mono hF, h3⟩
  | ended j P => trivial
  | panicked => exact h

/-- What holds in every state before a panic (specification; rangeproof.go:172-230). -/
structure Inv (hash : Bytes → Bytes) (e : Env) (cp : Params) (s₀ : Cells) (s : State) (G : Ghost) :
    Prop where
  core : Core s.toShared s.thr G
  base : s₀ ≼ G.F
  thr : ∀ i, ThrOk hash e cp s₀ s.made G.F (G.post i) (G.own i) (s.thr i)

theorem body_simple (j : Job) : (j.body hash e).Simple fun _ => True := by
  cases j with
  | genA w a idx bit rnd => exact .bind (proofGenA_simple _ trivial _ _ _) fun _ => trivial
  | genB w a idx bit e0 rnd => exact .bind (proofGenB_simple _ trivial _ _ _ _) fun _ => trivial
  | verify c idx E rpt => exact M.lift_simple _ _

theorem T.Simple.step {D : Nat → Prop} {x x' : T α} {s s' : Shared} {j : Option Job} (h : x.Simple D)
    (hs : x.Step s x' s' j) : x'.Simple D := by
  cases hs with
  | load _ => exact h _
  | store _ => exact h
  | alloc _ => exact h _
  | get _ => exact h.2 _
  | set _ => exact h.2
  | _ => exact h.elim

theorem not_active_ok {s₀ : Cells} {made made' : List Call} {F F' : Cells} {q q' : Post} {o o' : Own}
    {t : Thread} (ht : ¬ t.Active) (h : ThrOk hash e cp s₀ made F q o t) :
    ThrOk hash e cp s₀ made' F' q' o' t := by
  cases t with
  | unused => trivial
  | client log p => exact absurd (.inr rfl) ht
  | call log c x k => exact absurd (.inr rfl) ht
  | worker j x => exact absurd (.inl rfl) ht
  | ended j P => trivial
  | panicked => exact h

/-- Every goroutine keeps what is known of it when one goes on. -/
theorem Inv.move {s₀ : Cells} {s : State} {G G' : Ghost} (h : Inv hash e cp s₀ s G) {sh : Shared} {i : Nat}
    {t : Thread} {made : List Call} (hc : Core sh (Function.update s.thr i t) G') (hF : G.F ≼ G'.F)
    (hm : ∀ c ∈ s.made, c ∈ made)
    (ho : ∀ k, k ≠ i → (s.thr k).Active → G'.own k = G.own k ∧ G'.post k = G.post k)
    (ht : ThrOk hash e cp s₀ made G'.F (G'.post i) (G'.own i) t) :
    Inv hash e cp s₀ ⟨sh, Function.update s.thr i t, made⟩ G' := by
  refine ⟨hc, h.base.trans hF, fun k => ?_⟩
  dsimp only
  by_cases hk : k = i
  · subst hk; rw [Function.update_self]; exact ht
  · rw [Function.update_of_ne hk]
    by_cases ha : (s.thr k).Active
    · obtain ⟨h1, h2⟩ := ho k hk ha
      rw [h1, h2]
      exact (h.thr k).mono hm hF
    · exact not_active_ok ha (h.thr k)

/-- Every step before a panic keeps what holds; a panic comes only from a call that may crash. -/
theorem Inv.step {s₀ : Cells} (hz : ZeroAdd cp.C) (he : EnvIs s₀ e cp) {s s' : State} {G : Ghost}
    (h : Inv hash e cp s₀ s G) (hs : s.Step hash e s') :
    (∃ G', Inv hash e cp s₀ s' G') ∨
    ∃ i, s' = { s with thr := Function.update s.thr i .panicked } ∧
      ∃ c ∈ s.made, ∃ v, CallIs G.F c v ∧ MayCrash hash cp v := by
  cases hs with
  | @make i log x k a hi ha =>
    left
    have ht := h.thr i
    rw [hi] at ht
    obtain ⟨h1, h2, h3, h4, h5⟩ := ht
    have hact : (s.thr i).Active := by rw [hi]; exact .inr rfl
    have hO : ∀ b, ¬ G.O i b := fun b hb => by
      have h' : (G.own i).O b := hb
      rw [h4] at h'
      exact h'
    obtain ⟨G', hc, hF, hF', hown, hpost, hoth⟩ := h.core.make hact hO x ha
    have hva : G.V i a = none := (h.core.mem.seen i).unseen ha
    refine ⟨G', h.move (hc.thr ⟨by rw [hi]; rfl, by rw [hi]; rfl, by rw [hi]; exact fun _ h => absurd rfl h⟩
      (by rw [hi]; simp)) hF' (fun _ h => h) (fun k hk _ => ⟨hoth k hk, by rw [hpost]⟩) ?_⟩
    rw [hown]
    refine ⟨h1.mono hF', h2.trans (le_put hva x), ?_, ?_, h5 a hva⟩
    · rw [hF]
      intro b v hb
      dsimp only at hb
      by_cases hba : b = a
      · subst hba; rw [put_self] at hb ⊢; exact hb
      · rw [put_ne _ _ hba] at hb ⊢; exact h3 b v hb
    · have e2 : G.O i = _ := congrArg Own.O h4
      have e3 : G.S i = _ := congrArg Own.S h4
      have e4 : G.Y i = _ := congrArg Own.Y h4
      rw [e2, e3, e4]
  | @look i log a k v hi ha =>
    left
    have ht := h.thr i
    rw [hi] at ht
    obtain ⟨h1, h2, h3, h4, v', h5, h6⟩ := ht
    have hv : v' = v := by
      cases h5 with
      | cell _ _ h5 =>
        have := h.core.mem.seen i a v' h5
        rw [ha] at this
        exact (Option.some.inj this).symm
    subst hv
    exact ⟨G, h.move (h.core.thr ⟨by rw [hi]; rfl, by rw [hi]; rfl, by rw [hi]; exact fun _ h => absurd rfl h⟩
      (by rw [hi]; simp)) (Le.refl _) (fun _ h => h) (fun k hk _ => ⟨rfl, rfl⟩) ⟨h1, h2, h3, h4, h6⟩⟩
  | @call i log c k hi =>
    left
    have ht := h.thr i
    rw [hi] at ht
    obtain ⟨h1, h2, h3, h4, v, h5, h6⟩ := ht
    refine ⟨G, h.move (h.core.thr ⟨by rw [hi]; rfl, by rw [hi]; rfl, by rw [hi]; exact fun _ h => absurd rfl h⟩
      (by rw [hi]; simp)) (Le.refl _) (fun _ h => List.mem_cons_of_mem _ h) (fun k hk _ => ⟨rfl, rfl⟩)
      ⟨h1, List.mem_cons_self .., v, G.V i, h5, h2, h3, ?_, h6⟩⟩
    rw [h4]
    exact callPar_wp hz (he.mono h2) h5
  | @inside i log c x k x' sh hi hx =>
    left
    have ht := h.thr i
    rw [hi] at ht
    obtain ⟨h1, h2, v, V, h3, h4, h5, h6, h7⟩ := ht
    have hact : (s.thr i).Active := by rw [hi]; exact .inr rfl
    obtain ⟨G', hc, hk, hw⟩ := h.core.step hact h6 hx
    exact ⟨G', h.move (hc.thr ⟨by rw [hi]; rfl, by rw [hi]; rfl, by rw [hi]; exact fun _ h => absurd rfl h⟩
      (by rw [hi]; simp)) (by rw [hk.F]; exact Le.refl _) (fun _ h => h)
      (fun k hk' ha => ⟨hk.own k hk' ha, by rw [hk.post]⟩)
      ⟨by rw [hk.F]; exact h1, h2, v, V, h3, h4, by rw [hk.F]; exact h5, hw, h7⟩⟩
  | @go i log c x k x' sh j t hi hx htu =>
    left
    have ht := h.thr i
    rw [hi] at ht
    obtain ⟨h1, h2, v, V, h3, h4, h5, h6, h7⟩ := ht
    have hact : (s.thr i).Active := by rw [hi]; exact .inr rfl
    cases hx with
    | go =>
    obtain ⟨U, S₁, S₂, post, Y', g1, g2, g3, g4, g5, g6⟩ := h6
    have hti : t ≠ i := by rintro rfl; rw [hi] at htu; cases htu
    obtain ⟨G', hc, hF, ho1, ho2, hp, hoth⟩ := h.core.go (x := j.body hash e) hact (by rw [hi]; simp) htu
      g1 g2 g3 g5
    have hh : Function.update (Function.update s.thr i (.call log c x' k)) t (.worker j (j.body hash e)) =
        Function.update (Function.update s.thr t (.worker j (j.body hash e))) i (.call log c x' k) :=
      Function.update_comm (Ne.symm hti) _ _ _
    have hi' : Function.update s.thr t (.worker j (j.body hash e)) i = .call log c (.go j x') k := by
      rw [Function.update_of_ne (Ne.symm hti), hi]
    refine ⟨G', ?_, by rw [hF]; exact h.base, fun m => ?_⟩
    · show Core s.toShared _ G'
      dsimp only
      rw [hh]
      exact hc.thr ⟨by rw [hi']; rfl, by rw [hi']; rfl, by rw [hi']; exact fun _ h => absurd rfl h⟩
        (by rw [hi']; simp)
    · dsimp only
      by_cases hmt : m = t
      · subst hmt
        rw [Function.update_self, ho2, hp, hF]
        exact ⟨body_simple j, c, v, h2, h3.mono h5, g4⟩
      · rw [Function.update_of_ne hmt]
        by_cases hmi : m = i
        · subst hmi
          rw [Function.update_self, ho1, hF]
          exact ⟨h1, h2, v, V, h3, h4, h5, g6, h7⟩
        · rw [Function.update_of_ne hmi, (hoth m hmi hmt).1, (hoth m hmi hmt).2, hF]
          exact h.thr m
  | @returns i log c r k hi =>
    left
    have ht := h.thr i
    rw [hi] at ht
    obtain ⟨h1, h2, v, V, h3, h4, h5, ⟨w, hw, hV, hr⟩, h7⟩ := ht
    have hact : (s.thr i).Active := by rw [hi]; exact .inr rfl
    obtain ⟨G', hc, hF, hF', hown, hpost, hoth⟩ := h.core.returns hact
    have hV : V ≼ G.V i := hV
    have hr : ResIs (G.V i) r w := hr
    refine ⟨G', h.move (hc.thr ⟨by rw [hi]; rfl, by rw [hi]; rfl, by rw [hi]; exact fun _ h => absurd rfl h⟩
      (by rw [hi]; simp)) hF (fun _ h => h) (fun k hk _ => ⟨hoth k hk, by rw [hpost]⟩) ?_⟩
    rw [hown]
    refine ⟨?_, h4.trans hV, hF', rfl, h7 _ r w hV hw hr⟩
    intro p hp
    rcases List.mem_append.1 hp with hp | hp
    · exact h1.mono hF p hp
    · rw [List.mem_singleton] at hp
      subst hp
      exact ⟨v, w, h3.mono (h5.trans hF), hw, hr.mono hF'⟩
  | @panics i log c k hi =>
    right
    have ht := h.thr i
    rw [hi] at ht
    obtain ⟨h1, h2, v, V, h3, h4, h5, h6, h7⟩ := ht
    exact ⟨i, rfl, c, h2, v, h3.mono h5, .inl h6⟩
  | @work i j x x' sh hi hx =>
    left
    have ht := h.thr i
    rw [hi] at ht
    obtain ⟨h0, c, v, h1, h2, h3⟩ := ht
    have hact : (s.thr i).Active := by rw [hi]; exact .inl rfl
    obtain ⟨G', hc, hk, hw⟩ := h.core.step hact h3 hx
    exact ⟨G', h.move (hc.thr ⟨by rw [hi]; rfl, by rw [hi]; rfl, by rw [hi]; exact fun h => by cases h⟩
      (by rw [hi]; simp)) (by rw [hk.F]; exact Le.refl _) (fun _ h => h)
      (fun k hk' ha => ⟨hk.own k hk' ha, by rw [hk.post]⟩)
      ⟨h0.step hx, c, v, h1, by rw [hk.F]; exact h2, by rw [hk.post]; exact hw⟩⟩
  | @signal i j p sh hi hx =>
    left
    have ht := h.thr i
    rw [hi] at ht
    obtain ⟨h0, c, v, h1, h2, h3⟩ := ht
    obtain ⟨G', hc, hF, hoth⟩ := h.core.signal hi hx h3
    exact ⟨G', h.move hc (by rw [hF]; exact Le.refl _) (fun _ h => h) (fun k hk _ => hoth k hk) trivial⟩
  | @workPanics i j hi =>
    right
    have ht := h.thr i
    rw [hi] at ht
    obtain ⟨h0, c, v, h1, h2, h3⟩ := ht
    exact ⟨i, rfl, c, h1, v, h2, h3⟩

theorem Inv.start {s₀ : Store} (n : Nat) (p : Nat → Prog)
    (hp : ∀ i, i < n → Valid hash cp (p i) (cells s₀)) :
    Inv hash e cp (cells s₀) (State.start (cells s₀) n p)
      ⟨fun _ => cells s₀, fun _ _ => False, fun _ _ => none, fun _ _ => none, fun _ _ _ _ => True,
        fun _ => [], cells s₀⟩ := by
  refine ⟨⟨⟨fun _ => Le.refl _, fun _ _ h => h.elim, fun _ _ _ _ h => h.elim, Le.refl _, fun _ _ h => h.elim⟩,
    ⟨fun _ _ _ h => (by cases h), fun _ _ _ _ => .inl rfl⟩,
    ⟨fun _ _ _ _ => .inl rfl, fun _ _ _ h => (by cases h), ?_⟩, fun _ _ _ h => (by cases h),
    fun _ _ _ _ _ _ h => h, fun _ _ _ _ h => h, ?_⟩, Le.refl _, fun i => ?_⟩
  · intro t j x hx
    unfold State.start at hx
    dsimp only at hx
    split at hx <;> cases hx
  · refine ⟨max n s₀.length, fun a ha => ⟨?_, rfl, rfl, ?_⟩⟩
    · exact List.getElem?_eq_none (le_trans (le_max_right _ _) ha)
    · exact if_neg (by have := le_trans (le_max_left _ _) ha; omega)
  · show ThrOk hash e cp (cells s₀) [] (cells s₀) _ _ (if i < n then _ else _)
    split
    · rename_i hi
      exact ⟨fun _ h => (by cases h), Le.refl _, Le.refl _, rfl, hp i hi⟩
    · trivial

/-- What holds in every state that can be reached (specification; rangeproof.go:172-230). -/
theorem reach_inv {s₀ : Store} (hz : ZeroAdd cp.C) (he : EnvIs (cells s₀) e cp) {n : Nat} {p : Nat → Prog}
    (hp : ∀ i, i < n → Valid hash cp (p i) (cells s₀)) {s : State}
    (hs : State.Reach hash e (State.start (cells s₀) n p) s) :
    (∃ G, Inv hash e cp (cells s₀) s G) ∨
    ∃ s' G i, Inv hash e cp (cells s₀) s' G ∧ s = { s' with thr := Function.update s'.thr i .panicked } ∧
      ∃ c ∈ s'.made, ∃ v, CallIs G.F c v ∧ MayCrash hash cp v := by
  induction hs with
  | start => exact .inl ⟨_, Inv.start n p hp⟩
  | @step s s' _ hc hs ih =>
    rcases ih with ⟨G, h⟩ | ⟨s'', G, i, -, rfl, -⟩
    · rcases h.step hz he hs with h' | ⟨i, h1, h2⟩
      · exact .inl h'
      · exact .inr ⟨s, G, i, h, h1, h2⟩
    · exact absurd ⟨i, Function.update_self ..⟩ hc

end Zk.Mem
