import Verif.Mem.ParLive

/-!
# An execution: a verifier rejects a proof, and a goroutine it has started panics afterwards
-/

namespace Zk.Mem

open Zk Zk.Proto Zk.Curve

variable {hash : Bytes → Bytes} {e : Env} {α : Type}

/-- A goroutine runs without interruption until it panics. -/
theorem work_panics {s₀ : State} {x : M Point} : ∀ {V : Cells} {O : Nat → Prop} {s : State} {t : Nat} {j : Job},
    State.Reach hash e s₀ s → s.thr t = .worker j x.lift → s.mem = V → (∃ n, ∀ a, n ≤ a → V a = none) →
    (∀ a, O a → V a ≠ none) → Wp x V O (fun r => r = .panic) →
    (∀ i, i ≠ t → s.thr i ≠ .panicked) →
    ∃ s', State.Reach hash e s₀ s' ∧ s'.Crashed ∧ s'.made = s.made ∧ ∀ i, i ≠ t → s'.thr i = s.thr i := by
  have key : ∀ {s : State} {t : Nat} {j : Job} {y : T Point}, s.thr t = .worker j y →
      (∀ i, i ≠ t → s.thr i ≠ .panicked) → ¬ s.Crashed := by
    rintro s t j y ht hn ⟨i, hi⟩
    by_cases h : i = t
    · subst h; rw [ht] at hi; cases hi
    · exact hn i h hi
  have oth : ∀ {thr : Nat → Thread} {t : Nat} {y : Thread}, (∀ i, i ≠ t → thr i ≠ .panicked) →
      ∀ i, i ≠ t → Function.update thr t y i ≠ .panicked := by
    intro thr t y h i hi
    rw [Function.update_of_ne hi]
    exact h i hi
  have putf : ∀ {V : Cells} (a : Nat) (v : Int), (∃ n, ∀ a, n ≤ a → V a = none) →
      ∃ n, ∀ b, n ≤ b → put V a v b = none := by
    rintro V a v ⟨n, hn⟩
    refine ⟨max n (a + 1), fun b hb => ?_⟩
    rw [put_ne _ _ (by have := le_trans (le_max_right _ _) hb; omega)]
    exact hn b (le_trans (le_max_left _ _) hb)
  have puto : ∀ {V : Cells} {O : Nat → Prop} (a : Nat) (v : Int), (∀ a, O a → V a ≠ none) →
      ∀ b, (b = a ∨ O b) → put V a v b ≠ none := by
    intro V O a v h b hb
    by_cases hba : b = a
    · subst hba; rw [put_self]; simp
    · rw [put_ne _ _ hba]; exact h b (hb.resolve_left hba)
  induction x with
  | ret a => intro V O s t j _ _ _ _ _ h; cases h
  | fail =>
    intro V O s t j hr ht hm hf hO h hn
    exact ⟨_, .step hr (key ht hn) (.workPanics ht), ⟨t, Function.update_self ..⟩, rfl,
      fun i hi => Function.update_of_ne hi _ _⟩
  | load a k ih =>
    intro V O s t j hr ht hm hf hO h hn
    obtain ⟨v, hv, h⟩ := h
    obtain ⟨s', h1, h2, h3, h4⟩ := ih v (.step hr (key ht hn) (.work ht
      (.load (show s.mem a = some v by rw [hm]; exact hv)))) (Function.update_self ..) hm hf hO h (oth hn)
    exact ⟨s', h1, h2, h3, fun i hi => (h4 i hi).trans (Function.update_of_ne hi _ _)⟩
  | store a v k ih =>
    intro V O s t j hr ht hm hf hO h hn
    obtain ⟨ha, h⟩ := h
    obtain ⟨s', h1, h2, h3, h4⟩ := ih (.step hr (key ht hn) (.work ht
      (.store (show s.mem a ≠ none by rw [hm]; exact hO a ha)))) (Function.update_self ..)
      (by rw [hm]) (putf a v hf) (fun b hb => puto a v hO b (.inr hb)) h (oth hn)
    exact ⟨s', h1, h2, h3, fun i hi => (h4 i hi).trans (Function.update_of_ne hi _ _)⟩
  | alloc v k ih =>
    intro V O s t j hr ht hm hf hO h hn
    obtain ⟨n, hn'⟩ := hf
    have ha := hn' n le_rfl
    obtain ⟨s', h1, h2, h3, h4⟩ := ih n (.step hr (key ht hn) (.work ht
      (.alloc (show s.mem n = none by rw [hm]; exact ha)))) (Function.update_self ..)
      (by rw [hm]) (putf n v ⟨n, hn'⟩) (puto n v hO) (h n ha) (oth hn)
    exact ⟨s', h1, h2, h3, fun i hi => (h4 i hi).trans (Function.update_of_ne hi _ _)⟩

/-- A proof with two entries: the first has no Y coordinate, the second is nil (specification;
rangeproof.go:278-286 looks at X and S only). -/
def badProof : Range := ⟨nilP, some 0, [⟨⟨some 0, none⟩, some 0⟩, ⟨nilP, none⟩]⟩

/-- Its values (specification; rangeproof.go:36-40). -/
def badValue : RangeProof :=
  ⟨nilPoint, some curveN, [⟨⟨some curveN, none⟩, some curveN⟩, ⟨nilPoint, none⟩]⟩

theorem badProof_is : RangeIs (cells mem0) badProof badValue := by
  have h0 : Is (cells mem0) (some 0) (some (curveN : Int)) := .cell _ _ rfl
  exact ⟨⟨.nil, .nil⟩, h0, .cons ⟨⟨h0, .nil⟩, h0⟩ (.cons ⟨⟨.nil, .nil⟩, .nil⟩ .nil)⟩

theorem verifyGen_bad (cp : Params) (x : Int) (hx : x ≠ 0) (S E : Option Int) (idx : Nat) :
    Proto.verifyGen hash cp idx E ⟨⟨some x, none⟩, S⟩ = .panic := by
  have hadd : ∀ q : ECPoint, Proto.add cp ⟨some x, none⟩ q = .panic := by
    intro q
    have h1 : Proto.zeroAndOnCurve cp ⟨some x, none⟩ q = .ok false := by
      unfold Proto.zeroAndOnCurve Proto.equal
      simp [Proto.cmpEq, Zero, pt, hx]
    unfold Proto.add
    rw [h1]
    show (Proto.zeroAndOnCurve cp q ⟨some x, none⟩ >>= _) = _
    unfold Proto.zeroAndOnCurve
    cases Proto.equal q Zero with
    | panic => rfl
    | ok b => cases b <;> rfl
  unfold Proto.verifyGen
  cases Proto.mult cp cp.H S with
  | panic => rfl
  | ok l =>
    show (Proto.hpoint cp idx >>= _) = _
    cases Proto.hpoint cp idx with
    | panic => rfl
    | ok hp =>
      show (Proto.neg cp hp >>= _) = _
      cases Proto.neg cp hp with
      | panic => rfl
      | ok q =>
        show (Proto.add cp ⟨some x, none⟩ q >>= _) = _
        rw [hadd]
        rfl

/-- The client verifies this proof and stops (specification; rangeproof.go:262). -/
def badProg : Prog := .call (.verifyRange (some badProof) nilP) fun _ => .stop

/-- What it gets (specification; rangeproof.go:280). -/
def badVerdict : Res := .verdict (reject "entry has nil point or scalar")

theorem not_crashed {sh : Shared} {thr : Nat → Thread} {i : Nat} {log : List (Call × Res)} {c : Call}
    {x : T Res} {k : Res → Prog} {made : List Call} (h : ∀ i, thr i ≠ .panicked) :
    ¬ (⟨sh, Function.update thr i (.call log c x k), made⟩ : State).Crashed := by
  rintro ⟨j, hj⟩
  dsimp only at hj
  by_cases hji : j = i
  · subst hji; rw [Function.update_self] at hj; cases hj
  · rw [Function.update_of_ne hji] at hj; exact h j hj

theorem reach_inside {s₀ : State} {sh sh' : Shared} {thr : Nat → Thread} {i : Nat} {log : List (Call × Res)}
    {c : Call} {x x' : T Res} {k : Res → Prog} {made : List Call}
    (h : State.Reach hash e s₀ ⟨sh, Function.update thr i (.call log c x k), made⟩)
    (hn : ∀ i, thr i ≠ .panicked) (hx : x.Step sh x' sh' none) :
    State.Reach hash e s₀ ⟨sh', Function.update thr i (.call log c x' k), made⟩ := by
  have := h.step (not_crashed hn) (.inside (i := i) (Function.update_self ..) hx)
  dsimp only at this
  rwa [Function.update_idem] at this

theorem reach_go {s₀ : State} {sh : Shared} {thr : Nat → Thread} {i t : Nat} {log : List (Call × Res)}
    {c : Call} {x : T Res} {k : Res → Prog} {made : List Call} {j : Job}
    (h : State.Reach hash e s₀ ⟨sh, Function.update thr i (.call log c (.go j x) k), made⟩)
    (hn : ∀ i, thr i ≠ .panicked) (ht : thr t = .unused) (hti : t ≠ i) :
    State.Reach hash e s₀ ⟨sh, Function.update (Function.update thr t (.worker j (j.body hash e))) i
      (.call log c x k), made⟩ := by
  have := h.step (not_crashed hn) (.go (i := i) (t := t) (Function.update_self ..) .go
    (by dsimp only; rw [Function.update_of_ne hti]; exact ht))
  dsimp only at this
  rwa [Function.update_idem, Function.update_comm (Ne.symm hti)] at this

theorem reach_returns {s₀ : State} {sh : Shared} {thr : Nat → Thread} {i : Nat} {log : List (Call × Res)}
    {c : Call} {r : Res} {k : Res → Prog} {made : List Call}
    (h : State.Reach hash e s₀ ⟨sh, Function.update thr i (.call log c (.ret r) k), made⟩)
    (hn : ∀ i, thr i ≠ .panicked) :
    State.Reach hash e s₀ ⟨sh, Function.update thr i (.client (log ++ [(c, r)]) (k r)), made⟩ := by
  have := h.step (not_crashed hn) (.returns (i := i) (Function.update_self ..))
  dsimp only at this
  rwa [Function.update_idem] at this

/-- The states of the execution (specification; rangeproof.go:262-288): after the call, the two numbers
of `totalPoint`, the channel, the `go` statement and the return. -/
theorem crash_after_return {st : Store} (he : EnvIs (cells st) e tc) (hst : st[0]? = some (curveN : Int)) : ∃ s, State.Reach hash e (State.start (cells st) 1 fun _ => badProg) s ∧
    s.Crashed ∧ s.made = [.verifyRange (some badProof) nilP] ∧
    s.thr 0 = .client [(.verifyRange (some badProof) nilP, badVerdict)] .stop := by
  set thr₀ := (State.start (cells st) 1 fun _ => badProg).thr with hthr
  set c : Call := .verifyRange (some badProof) nilP with hc
  have n0 : ∀ i, thr₀ i ≠ .panicked := by
    intro i
    rw [hthr]
    unfold State.start
    dsimp only
    split <;> simp
  have l0 : cells st st.length = none := List.getElem?_eq_none le_rfl
  have l1 : put (cells st) st.length 0 (st.length + 1) = none := by
    rw [put_ne _ _ (by omega)]
    exact List.getElem?_eq_none (by omega)
  have hcp : callPar hash e c = .alloc 0 fun _ => .alloc 0 fun _ =>
      .mkChan fun c => .go (.verify c 0 (some 0) ⟨⟨some 0, none⟩, some 0⟩) (.ret badVerdict) := rfl
  have r1 := (State.Reach.start (hash := hash) (e := e)
    (s₀ := State.start (cells st) 1 fun _ => badProg)).step (fun ⟨i, hi⟩ => n0 i hi)
    (.call (hash := hash) (e := e) (i := 0) (log := []) (c := c) (k := fun _ => .stop) rfl)
  rw [hcp] at r1
  have r2 := reach_inside r1 n0 (.alloc (a := st.length) l0)
  have r3 := reach_inside r2 n0 (.alloc (a := st.length + 1) l1)
  have r4 := reach_inside r3 n0 (.mkChan (c := 0) rfl)
  have r5 := reach_go (t := 1) r4 n0 rfl (by decide)
  have n1 : ∀ i, Function.update thr₀ 1 (.worker (.verify 0 0 (some 0) ⟨⟨some 0, none⟩, some 0⟩)
      (Job.body hash e (.verify 0 0 (some 0) ⟨⟨some 0, none⟩, some 0⟩))) i ≠ .panicked := by
    intro i
    by_cases hi : i = 1
    · subst hi; rw [Function.update_self]; simp
    · rw [Function.update_of_ne hi]; exact n0 i
  have r6 := reach_returns r5 n1
  have n6 : ∀ i, Function.update (Function.update thr₀ 1 (.worker
      (.verify 0 0 (some 0) ⟨⟨some 0, none⟩, some 0⟩)
      (Job.body hash e (.verify 0 0 (some 0) ⟨⟨some 0, none⟩, some 0⟩)))) 0
      (.client ([] ++ [(c, badVerdict)]) .stop) i ≠ .panicked := by
    intro i
    by_cases hi : i = 0
    · subst hi; rw [Function.update_self]; simp
    · rw [Function.update_of_ne hi]; exact n1 i
  have hle : cells st ≼ put (put (cells st) st.length 0) (st.length + 1) 0 :=
    (le_put l0 0).trans (le_put l1 0)
  have hN : (curveN : Int) ≠ 0 := by decide
  have h0 : Is (cells st) (some 0) (some (curveN : Int)) := .cell _ _ hst
  have hw := verifyGen_does hash zeroAdd_s256 (he.mono hle) 0 (h0.mono hle)
    (r := ⟨⟨some 0, none⟩, some 0⟩) (rv := ⟨⟨some (curveN : Int), none⟩, some (curveN : Int)⟩)
    ⟨h0.mono hle, .nil⟩ (h0.mono hle)
  rw [verifyGen_bad tc _ hN] at hw
  obtain ⟨s, h1, h2, h3, h4⟩ := work_panics (x := verifyGen hash e 0 (some 0) ⟨⟨some 0, none⟩, some 0⟩)
    (t := 1) (V := put (put (cells st) st.length 0) (st.length + 1) 0) (O := fun _ => False)
    (j := .verify 0 0 (some 0) ⟨⟨some 0, none⟩, some 0⟩) r6 (by
      dsimp only
      rw [Function.update_of_ne (by decide), Function.update_self]
      rfl) rfl ⟨st.length + 2, fun a ha => by
        rw [put_ne _ _ (by omega), put_ne _ _ (by omega)]
        exact List.getElem?_eq_none (by omega)⟩ (fun _ h => h.elim)
      (Wp.mono (fun _ h => h) (by
        rintro (⟨a, t⟩ | _) h
        · exact h.elim
        · rfl) hw) (fun i _ => n6 i)
  refine ⟨s, h1, h2, h3, ?_⟩
  rw [h4 0 (by decide)]
  dsimp only
  rw [Function.update_self]
  rfl

end Zk.Mem
