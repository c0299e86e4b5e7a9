import Verif.Mem.ParInv

/-!
# The steps keep what holds
-/

namespace Zk.Mem

open Zk Zk.Proto

variable {hash : Bytes → Bytes} {e : Env} {cp : Params} {α : Type}
  {J : Job → Cells → Slots → (Go (Point × Own) → Prop) → Prop} {Bad : Prop}

theorem Finite.mem {s : Shared} {thr : Nat → Thread} (h : Finite s thr) (a : Nat) (v : Int) :
    Finite { s with mem := put s.mem a v } thr := by
  obtain ⟨n, hn⟩ := h
  refine ⟨max n (a + 1), fun b hb => ?_⟩
  obtain ⟨h1, h2, h3, h4⟩ := hn b (le_trans (le_max_left _ _) hb)
  refine ⟨?_, h2, h3, h4⟩
  dsimp only
  rw [put_ne _ _ (by have := le_trans (le_max_right _ _) hb; omega)]
  exact h1

theorem Finite.slots {s : Shared} {thr : Nat → Thread} (h : Finite s thr) (a : Nat) (x : Option Slot) :
    Finite { s with slots := Function.update s.slots a x } thr := by
  obtain ⟨n, hn⟩ := h
  refine ⟨max n (a + 1), fun b hb => ?_⟩
  obtain ⟨h1, h2, h3, h4⟩ := hn b (le_trans (le_max_left _ _) hb)
  refine ⟨h1, ?_, h3, h4⟩
  dsimp only
  rw [Function.update_of_ne (by have := le_trans (le_max_right _ _) hb; omega)]
  exact h2

theorem Finite.sync {s : Shared} {thr : Nat → Thread} (h : Finite s thr) (a : Nat) (x : Option Sync) :
    Finite { s with sync := Function.update s.sync a x } thr := by
  obtain ⟨n, hn⟩ := h
  refine ⟨max n (a + 1), fun b hb => ?_⟩
  obtain ⟨h1, h2, h3, h4⟩ := hn b (le_trans (le_max_left _ _) hb)
  refine ⟨h1, h2, ?_, h4⟩
  dsimp only
  rw [Function.update_of_ne (by have := le_trans (le_max_right _ _) hb; omega)]
  exact h3

theorem Finite.thr {s : Shared} {thr : Nat → Thread} (h : Finite s thr) (i : Nat) (t : Thread) :
    Finite s (Function.update thr i t) := by
  obtain ⟨n, hn⟩ := h
  refine ⟨max n (i + 1), fun b hb => ?_⟩
  obtain ⟨h1, h2, h3, h4⟩ := hn b (le_trans (le_max_left _ _) hb)
  refine ⟨h1, h2, h3, ?_⟩
  rw [Function.update_of_ne (by have := le_trans (le_max_right _ _) hb; omega)]
  exact h4

/-- Only the goroutine `i` and the ended ones are affected (specification; rangeproof.go:172-230). -/
structure Keeps (thr : Nat → Thread) (i : Nat) (G G' : Ghost) : Prop where
  F : G'.F = G.F
  post : G'.post = G.post
  own : ∀ t, t ≠ i → (thr t).Active → G'.own t = G.own t

theorem Core.write {s : Shared} {thr : Nat → Thread} {G : Ghost} (hc : Core s thr G) {i a : Nat}
    (hi : (thr i).Active) (v : Int) {O' : Nat → Prop} (ha : G.O i a ∨ s.mem a = none)
    (hO : ∀ b, O' b → b = a ∨ G.O i b) :
    Core { s with mem := put s.mem a v } thr { G with
      V := Function.update G.V i (put (G.V i) a v), O := Function.update G.O i O' } := by
  refine { hc with mem := hc.mem.write v ha hO, posts := ?_, quiet := ?_, fin := hc.fin.mem a v }
  · refine hc.posts.imp fun k w p hp t ht j P he => ⟨⟨k, w, p, hp, ht⟩, he, ?_, rfl, rfl⟩
    exact Function.update_of_ne (by rintro rfl; exact hi.ne j P he) _ _
  · intro t hl hj b
    obtain ⟨j, P, he⟩ := ended_of hl hj
    dsimp only
    rw [Function.update_of_ne (by rintro rfl; exact hi.ne j P he)]
    exact hc.quiet t hl hj b

theorem Core.writeSlot {s : Shared} {thr : Nat → Thread} {G : Ghost} (hc : Core s thr G) {i a : Nat}
    (hi : (thr i).Active) (x : Slot) (ha : G.S i a ≠ none ∨ s.slots a = none) :
    Core { s with slots := Function.update s.slots a (some x) } thr { G with
      S := Function.update G.S i (Function.update (G.S i) a (some x)) } := by
  refine { hc with slots := hc.slots.write x ha, posts := ?_, fin := hc.fin.slots a _ }
  refine hc.posts.imp fun k w p hp t ht j P he => ⟨⟨k, w, p, hp, ht⟩, he, rfl, ?_, rfl⟩
  exact Function.update_of_ne (by rintro rfl; exact hi.ne j P he) _ _

theorem Core.newSync {s : Shared} {thr : Nat → Thread} {G : Ghost} (hc : Core s thr G) (i : Nat) {w : Nat}
    (hw : s.sync w = none) {y : Sync} {p : Pend} (hk : SyncOk thr G.post [] w (some y) p) :
    Core { s with sync := Function.update s.sync w (some y) } thr { G with
      Y := Function.update G.Y i (Function.update (G.Y i) w (some p)),
      kids := Function.update G.kids w [] } := by
  have hn : ∀ j, G.Y j w = none := by
    intro j
    cases hj : G.Y j w with
    | none => rfl
    | some q => exact absurd hw (hc.sync.ok j w q hj).some'
  refine { hc with sync := hc.sync.replace (fun j _ => hn j) hk ?_, posts := ?_, fin := hc.fin.sync w _ }
  · rintro t j x hx rfl
    exact absurd hw (hc.sync.workers t j x hx).2
  · refine hc.posts.imp fun k v q hq t ht j P he => ⟨⟨k, v, q, ?_, ?_⟩, he, rfl, rfl, rfl⟩
    · dsimp only at hq ht
      by_cases hv : v = w
      · subst hv; rw [Function.update_self] at ht; cases ht
      · by_cases hki : k = i
        · subst hki
          rw [Function.update_self, Function.update_of_ne hv] at hq
          exact hq
        · rw [Function.update_of_ne hki] at hq
          exact hq
    · dsimp only at ht
      by_cases hv : v = w
      · subst hv; rw [Function.update_self] at ht; cases ht
      · rw [Function.update_of_ne hv] at ht
        exact ht

theorem Core.resync {s : Shared} {thr : Nat → Thread} {G : Ghost} (hc : Core s thr G) {i w : Nat} {p : Pend}
    (hp : G.Y i w = some p) {y : Sync} {p' : Pend} (hk : SyncOk thr G.post (G.kids w) w (some y) p') :
    Core { s with sync := Function.update s.sync w (some y) } thr { G with
      Y := Function.update G.Y i (Function.update (G.Y i) w (some p')),
      kids := Function.update G.kids w (G.kids w) } := by
  have hother : ∀ j, j ≠ i → G.Y j w = none := fun j hj =>
    (hc.sync.apart j i w hj).resolve_right (by rw [hp]; simp)
  refine { hc with
    sync := hc.sync.replace hother hk fun t j x hx hj => hj ▸ (hc.sync.workers t j x hx).1
    posts := ?_, fin := hc.fin.sync w _ }
  refine hc.posts.imp fun k v q hq t ht j P he => ⟨?_, he, rfl, rfl, rfl⟩
  rw [Function.update_eq_self] at ht
  dsimp only at hq ht
  by_cases hki : k = i
  · subst hki
    by_cases hv : v = w
    · subst hv; exact ⟨k, v, p, hp, ht⟩
    · rw [Function.update_self, Function.update_of_ne hv] at hq
      exact ⟨k, v, q, hq, ht⟩
  · rw [Function.update_of_ne hki] at hq
    exact ⟨k, v, q, hq, ht⟩

theorem own_update {G : Ghost} {i : Nat} (V : Cells) (O : Nat → Prop) (S : Slots) (Y : Nat → Option Pend) :
    (⟨Function.update G.V i V, Function.update G.O i O, Function.update G.S i S, Function.update G.Y i Y,
      G.post, G.kids, G.F⟩ : Ghost).own i = ⟨V, O, S, Y⟩ := by
  unfold Ghost.own
  simp only [Function.update_self]

/-- One access of a goroutine that does what `TWp` says. -/
theorem Core.step {s s' : Shared} {thr : Nat → Thread} {G : Ghost} (hc : Core s thr G) {i : Nat}
    (hi : (thr i).Active) {x x' : T α} {Q : Go (α × Own) → Prop} (hw : TWp J Bad x (G.own i) Q)
    (hs : x.Step s x' s' none) :
    ∃ G', Core s' thr G' ∧ Keeps thr i G G' ∧ TWp J Bad x' (G'.own i) Q := by
  cases hs with
  | load h =>
    obtain ⟨v, hv, h'⟩ := hw
    rw [hc.mem.seen i _ _ hv] at h
    cases h
    exact ⟨G, hc, ⟨rfl, rfl, fun _ _ _ => rfl⟩, h'⟩
  | @store a v k _ h =>
    obtain ⟨ha, h'⟩ := hw
    refine ⟨_, hc.write hi v (O' := G.O i) (.inl ha) fun b hb => .inr hb, ⟨rfl, rfl, fun t ht _ => ?_⟩, ?_⟩
    · unfold Ghost.own
      simp only [Function.update_of_ne ht]
    · unfold Ghost.own
      simp only [Function.update_self]
      exact h'
  | @alloc v a k _ h =>
    have h' := hw a ((hc.mem.seen i).unseen h)
    refine ⟨_, hc.write hi v (O' := fun b => b = a ∨ G.O i b) (.inr h) fun b hb => hb,
      ⟨rfl, rfl, fun t ht _ => ?_⟩, ?_⟩
    · unfold Ghost.own
      simp only [Function.update_of_ne ht]
    · unfold Ghost.own
      simp only [Function.update_self]
      exact h'
  | @mkSlot a k _ h =>
    have hn : G.S i a = none := by
      cases hS : G.S i a with
      | none => rfl
      | some y => rw [hc.slots.holds i a y hS] at h; cases h
    have h' := hw a hn
    refine ⟨_, hc.writeSlot hi noSlot (.inr h), ⟨rfl, rfl, fun t ht _ => ?_⟩, ?_⟩
    · unfold Ghost.own
      simp only [Function.update_of_ne ht]
    · unfold Ghost.own
      simp only [Function.update_self]
      exact h'
  | get h =>
    obtain ⟨y, hy, h'⟩ := hw
    rw [hc.slots.holds i _ _ hy] at h
    cases h
    exact ⟨G, hc, ⟨rfl, rfl, fun _ _ _ => rfl⟩, h'⟩
  | @set a f p y k _ h =>
    obtain ⟨z, hz, h'⟩ := hw
    have hz' : G.S i a = some z := hz
    rw [hc.slots.holds i _ _ hz] at h
    cases h
    refine ⟨_, hc.writeSlot hi (y.set p f) (.inl (by rw [hz']; simp)), ⟨rfl, rfl, fun t ht _ => ?_⟩, ?_⟩
    · unfold Ghost.own
      simp only [Function.update_of_ne ht]
    · unfold Ghost.own
      simp only [Function.update_self]
      exact h'
  | @mkWg w k _ h =>
    have hn : G.Y i w = none := by
      cases hY : G.Y i w with
      | none => rfl
      | some y => exact absurd h (hc.sync.ok i w y hY).some'
    have h' := hw w hn
    refine ⟨_, hc.newSync i h (y := .wg 0) (p := .wg 0 []) ⟨rfl, rfl, .nil, fun _ h => by cases h⟩,
      ⟨rfl, rfl, fun t ht _ => ?_⟩, ?_⟩
    · unfold Ghost.own
      simp only [Function.update_of_ne ht]
    · unfold Ghost.own
      simp only [Function.update_self]
      exact h'
  | @add w n m k _ h =>
    obtain ⟨c, ps, hY, h'⟩ := hw
    have hY : G.Y i w = some (.wg c ps) := hY
    obtain ⟨g1, g2, g3, g4⟩ := hc.sync.ok i w _ hY
    rw [h] at g1
    cases g1
    refine ⟨_, hc.resync hY (y := .wg (c + (G.kids w).countP (fun t => (thr t).live) + n))
      (p' := .wg (c + n) ps) ⟨by congr 2; omega, g2, g3, g4⟩, ⟨rfl, rfl, fun t ht _ => ?_⟩, ?_⟩
    · unfold Ghost.own
      simp only [Function.update_of_ne ht]
    · unfold Ghost.own
      simp only [Function.update_self]
      exact h'
  | @wait w _ _ h =>
    obtain ⟨ps, hY, h'⟩ := hw
    have hY : G.Y i w = some (.wg 0 ps) := hY
    obtain ⟨g1, g2, g3, g4⟩ := hc.sync.ok i w _ hY
    rw [h] at g1
    have hz : (G.kids w).countP (fun t => (thr t).live) = 0 := by
      simpa using g1.symm
    have hl : ∀ t ∈ G.kids w, (thr t).live = false := by
      intro t ht
      have := List.countP_eq_zero.1 hz t ht
      simpa using this
    obtain ⟨G', hc', hF, hP, ho, V', S', hown, h1, h2, h3⟩ := hc.absorb hi hY (ts := G.kids w) (K := [])
      (fun t ht => ⟨ht, hl t ht⟩) (fun _ h => by cases h) (y' := .wg 0) (p' := .wg 0 [])
      ⟨rfl, rfl, .nil, fun _ h => by cases h⟩ (fun t j x hx hj => by
        have := hl t (hj ▸ (hc.sync.workers t j x hx).1)
        rw [hx] at this
        cases this)
    rw [show ({ s with sync := Function.update s.sync w (some (.wg 0)) } : Shared) = s by
      rw [show some (Sync.wg 0) = s.sync w from h.symm, Function.update_eq_self]] at hc'
    refine ⟨G', hc', ⟨hF, hP, ho⟩, ?_⟩
    rw [hown]
    refine h' V' S' h1 h2 ?_
    intro p hp
    rw [g2] at hp
    obtain ⟨t, ht, rfl⟩ := List.mem_map.1 hp
    obtain ⟨j, hj, -⟩ := g4 t ht
    obtain ⟨j, P, he⟩ := ended_of (hl t ht) (by rw [hj]; simp)
    have hti : t ≠ i := by rintro rfl; exact hi.ne j P he
    exact ⟨G.V t, P, (h3 t ht).1, fun a ha => hc.mem.apart i t a (Ne.symm hti) ha,
      hc.mono t _ _ _ _ (h3 t ht).2 (hc.posts i w _ hY t ht j P he)⟩
  | @mkChan w k _ h =>
    have hn : G.Y i w = none := by
      cases hY : G.Y i w with
      | none => rfl
      | some y => exact absurd h (hc.sync.ok i w y hY).some'
    have h' := hw w hn
    refine ⟨_, hc.newSync i h (y := .chan []) (p := .chan [])
      ⟨⟨[], rfl, .nil, fun t => by simp⟩, rfl, .nil, fun _ h => by cases h⟩,
      ⟨rfl, rfl, fun t ht _ => ?_⟩, ?_⟩
    · unfold Ghost.own
      simp only [Function.update_of_ne ht]
    · unfold Ghost.own
      simp only [Function.update_self]
      exact h'
  | @recv w m buf k _ h =>
    obtain ⟨ps, hY, -, h'⟩ := hw
    have hY : G.Y i w = some (.chan ps) := hY
    obtain ⟨⟨sent, g0, g0', g0''⟩, g2, g3, g4⟩ := hc.sync.ok i w _ hY
    rw [h] at g0
    cases sent with
    | nil => cases g0
    | cons t sent =>
      rw [List.map_cons] at g0
      cases g0
      obtain ⟨htk, htl⟩ := (g0'' t).1 (List.mem_cons_self ..)
      obtain ⟨pre, suf, hps⟩ := List.append_of_mem htk
      have hnd := List.nodup_cons.1 (List.nodup_middle.1 (hps ▸ g3))
      obtain ⟨j, idx, hj, hjd⟩ := g4 t htk
      obtain ⟨j', P, he⟩ := ended_of htl (by rw [hj]; simp)
      have hjj : j' = j := by
        rw [he] at hj
        exact Option.some.inj hj
      subst hjj
      have hti : t ≠ i := by rintro rfl; exact hi.ne j' P he
      have hmem : ∀ u, u ∈ pre ++ suf ↔ u ∈ G.kids w ∧ u ≠ t := by
        intro u
        rw [hps]
        simp only [List.mem_append, List.mem_cons]
        constructor
        · intro hu
          refine ⟨by tauto, ?_⟩
          rintro rfl
          exact hnd.1 (List.mem_append.2 hu)
        · rintro ⟨hu, hne⟩
          tauto
      have hns : t ∉ sent := (List.nodup_cons.1 g0').1
      obtain ⟨G', hc', hF, hP, ho, V', S', hown, h1, h2, h3⟩ := hc.absorb hi hY (ts := [t])
        (K := pre ++ suf)
        (fun u hu => by rw [List.mem_singleton] at hu; subst hu; exact ⟨htk, htl⟩)
        (fun u hu => by
          obtain ⟨h1, h2⟩ := (hmem u).1 hu
          exact ⟨h1, by rw [List.mem_singleton]; exact h2⟩)
        (y' := .chan (sent.map fun t => (thr t).msg))
        (p' := .chan ((pre ++ suf).map fun t => ((thr t).idx, G.post t)))
        ⟨⟨sent, rfl, (List.nodup_cons.1 g0').2, fun u => by
            rw [hmem]
            have := g0'' u
            rw [List.mem_cons] at this
            constructor
            · intro hu
              obtain ⟨h1, h2⟩ := this.1 (.inr hu)
              exact ⟨⟨h1, by rintro rfl; exact hns hu⟩, h2⟩
            · rintro ⟨⟨h1, h2⟩, h3⟩
              exact (this.2 ⟨h1, h3⟩).resolve_left h2⟩, rfl, hnd.2,
          fun u hu => g4 u ((hmem u).1 hu).1⟩
        (fun u j x hx hj => by
          refine (hmem u).2 ⟨hj ▸ (hc.sync.workers u j x hx).1, ?_⟩
          rintro rfl
          rw [hx] at htl
          cases htl)
      refine ⟨G', hc', ⟨hF, hP, ho⟩, ?_⟩
      rw [hown]
      have ht3 := h3 t (List.mem_singleton.2 rfl)
      have hmsg : (thr t).msg = ((thr t).idx, P) := by
        rw [he]
        rfl
      rw [hmsg]
      have := h' (pre.map fun t => ((thr t).idx, G.post t)) ((thr t).idx, G.post t)
        (suf.map fun t => ((thr t).idx, G.post t)) (by rw [g2, hps, List.map_append, List.map_cons])
        V' S' (G.V t) P h1 h2 ht3.1 (fun a ha => hc.mem.apart i t a (Ne.symm hti) ha)
        (hc.mono t _ _ _ _ ht3.2 (hc.posts i w _ hY t htk j' P he))
      rw [← List.map_append] at this
      exact this

end Zk.Mem
