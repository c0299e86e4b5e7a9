import Verif.Mem.ParWitness

/-!
# Properties C129–C132: goroutines that use the same parameters, points and proofs
-/

namespace Zk.Mem

open Zk Zk.Proto Zk.Curve

variable {hash : Bytes → Bytes} {st : Store} {e : Env} {cp : Params} {n : Nat} {p : Nat → Prog} {s : State}

/-- C129: whatever calls the goroutines of a client make at the same time, and whatever the schedule, two
goroutines are never about to access the same number or variable with one of them writing. -/
theorem C129_no_race (hz : ZeroAdd cp.C) (he : EnvIs (cells st) e cp)
    (hp : ∀ i, i < n → Valid hash cp (p i) (cells st))
    (hs : State.Reach hash e (State.start (cells st) n p) s) : ¬ s.Racy := by
  rcases reach_inv hz he hp hs with ⟨G, h⟩ | ⟨s', G, k, h, rfl, -⟩
  · exact h.not_racy
  · rintro ⟨i, j, l, w, w', hij, h1, h2, hw⟩
    have key : ∀ {i l}, (Function.update s'.thr k .panicked i).access = some l →
        (s'.thr i).access = some l := by
      intro i l hl
      by_cases hi : i = k
      · subst hi; rw [Function.update_self] at hl; cases hl
      · rwa [Function.update_of_ne hi] at hl
    exact h.not_racy ⟨i, j, l, w, w', hij, key h1, key h2, hw⟩

/-- C130: a call that has returned has returned, in every schedule, what the function on values returns
for the values of the arguments; its result and arguments still have these values in memory now. -/
theorem C130_results (hz : ZeroAdd cp.C) (he : EnvIs (cells st) e cp)
    (hp : ∀ i, i < n → Valid hash cp (p i) (cells st))
    (hs : State.Reach hash e (State.start (cells st) n p) s) {i : Nat} {log : List (Call × Res)}
    (hi : (∃ q, s.thr i = .client log q) ∨ ∃ c x k, s.thr i = .call log c x k) {c : Call} {r : Res}
    (hc : (c, r) ∈ log) : ∃ v w, CallIs s.mem c v ∧ runValues hash cp v = .ok w ∧ ResIs s.mem r w := by
  have key : ∀ {s' : State} {G : Ghost}, Inv hash e cp (cells st) s' G →
      ((∃ q, s'.thr i = .client log q) ∨ ∃ c x k, s'.thr i = .call log c x k) →
      ∃ v w, CallIs s'.mem c v ∧ runValues hash cp v = .ok w ∧ ResIs s'.mem r w := by
    intro s' G h hi
    have ht := h.thr i
    have hd : Done hash cp G.F log := by
      rcases hi with ⟨q, hi⟩ | ⟨c, x, k, hi⟩ <;> rw [hi] at ht <;> exact ht.1
    obtain ⟨v, w, h1, h2, h3⟩ := hd.mono h.core.mem.frozen _ hc
    exact ⟨v, w, h1, h2, h3⟩
  rcases reach_inv hz he hp hs with ⟨G, h⟩ | ⟨s', G, k, h, rfl, -⟩
  · exact key h hi
  · refine key (s' := s') h ?_
    dsimp only at hi
    have hik : i ≠ k := by
      rintro rfl
      rw [Function.update_self] at hi
      rcases hi with ⟨q, hi⟩ | ⟨c, x, k, hi⟩ <;> cases hi
    rwa [Function.update_of_ne hik] at hi

/-- C130: the numbers there were at the start, with those of the parameters, keep their values. -/
theorem C130_kept (hz : ZeroAdd cp.C) (he : EnvIs (cells st) e cp)
    (hp : ∀ i, i < n → Valid hash cp (p i) (cells st))
    (hs : State.Reach hash e (State.start (cells st) n p) s) :
    (∀ (a : Nat) (x : Int), st[a]? = some x → s.mem a = some x) ∧ EnvIs s.mem e cp := by
  have key : cells st ≼ s.mem := by
    rcases reach_inv hz he hp hs with ⟨G, h⟩ | ⟨s', G, k, h, rfl, -⟩
    · exact h.base.trans h.core.mem.frozen
    · exact h.base.trans h.core.mem.frozen
  exact ⟨key, he.mono key⟩

/-- C131 fails: `RangeProof.Verify` returns an error for a proof with a nil entry, and a goroutine it has
started for an earlier entry panics afterwards, so that the process crashes although the only call made
has returned. -/
theorem C131_refuted : ∃ (q : Prog) (s : State) (c : Call) (v : VCall) (b : Option Err),
    ZeroAdd tc.C ∧ EnvIs (cells mem0) env0 tc ∧ Valid hash tc q (cells mem0) ∧
    State.Reach hash env0 (State.start (cells mem0) 1 fun _ => q) s ∧ s.Crashed ∧ s.made = [c] ∧
    CallIs (cells mem0) c v ∧ runValues hash tc v = .ok (.verdict (false, b)) ∧
    s.thr 0 = .client [(c, .verdict (false, b))] .stop := by
  obtain ⟨s, h1, h2, h3, h4⟩ := crash_after_return (hash := hash) env0_is (by rfl)
  have hc : CallIs (cells mem0) (.verifyRange (some badProof) nilP) (.verifyRange (some badValue) nilPoint) :=
    .verifyRange (.some badProof_is) ⟨.nil, .nil⟩
  exact ⟨badProg, s, _, _, some "entry has nil point or scalar", zeroAdd_s256, env0_is,
    ⟨_, hc, fun _ _ _ _ _ _ => trivial⟩, h1, h2, h3, hc, rfl, h4⟩

/-- C131, the part that holds: the process crashes only if a call has been made that panics on its own, or
if a range proof has been passed to `Verify` for which one of its goroutines panics. -/
theorem C131_partial (hz : ZeroAdd cp.C) (he : EnvIs (cells st) e cp)
    (hp : ∀ i, i < n → Valid hash cp (p i) (cells st))
    (hs : State.Reach hash e (State.start (cells st) n p) s) (hc : s.Crashed) :
    ∃ c ∈ s.made, ∃ v, CallIs s.mem c v ∧ (runValues hash cp v = .panic ∨
      ∃ pr comm, v = .verifyRange (some pr) comm ∧
        ∃ t ∈ (pr.ProofTuples.takeWhile fun t => !tupleNil t).zipIdx,
          Proto.verifyGen hash cp t.2 pr.ProofE t.1 = .panic) := by
  rcases reach_inv hz he hp hs with ⟨G, h⟩ | ⟨s', G, k, h, rfl, c, h1, v, h2, h3⟩
  · obtain ⟨i, hi⟩ := hc
    have := h.thr i
    rw [hi] at this
    exact this.elim
  · exact ⟨c, h1, v, h2.mono h.core.mem.frozen, h3⟩

/-- C132: there is no deadlock: if no goroutine can go on, the process has crashed or every goroutine of
the client has done all it had to do. -/
theorem C132_no_deadlock (hz : ZeroAdd cp.C) (he : EnvIs (cells st) e cp)
    (hp : ∀ i, i < n → Valid hash cp (p i) (cells st))
    (hs : State.Reach hash e (State.start (cells st) n p) s) (hd : ∀ s', ¬ s.Step hash e s') :
    s.Crashed ∨ ∀ i, (∀ log q, s.thr i = .client log q → q = .stop) ∧
      ∀ log c x k, s.thr i ≠ .call log c x k := by
  rcases reach_inv hz he hp hs with ⟨G, h⟩ | ⟨s', G, k, h, rfl, -⟩
  · right
    intro i
    have hst : (s.thr i).Stopped := by
      by_contra hn
      obtain ⟨s', hs'⟩ := h.progress hn
      exact hd s' hs'
    exact ⟨fun log q hq => by rw [hq] at hst; exact hst, fun log c x k hq => by rw [hq] at hst; exact hst⟩
  · exact .inl ⟨k, Function.update_self ..⟩

/-- C132: every schedule comes to an end. -/
theorem C132_ends (m : Cells) (f : Nat → State) (hf : f 0 = State.start m n p) :
    ∃ k, ¬ (f k).Step hash e (f (k + 1)) := by
  by_contra hn
  push Not at hn
  have hb : (f 0).Below n := by
    intro i hi
    rw [hf]
    exact if_neg (by omega)
  have ha := acc_state (hash := hash) (e := e) hb
  have key : ∀ {s : State}, Acc (fun s' s : State => s.Step hash e s') s → ∀ k, f k ≠ s := by
    intro s ha
    induction ha with
    | intro s _ ih =>
      rintro k rfl
      exact ih (f (k + 1)) (hn k) (k + 1) rfl
  exact key ha 0 rfl

/-! ### The hypotheses are met -/

/-- A goroutine that makes a number, proves that it is in range and passes the proof, with a point of the
parameters, to the verifier (specification; rangeproof.go:154, 262). -/
def rangeClient (rnd : Nat → BitRand) : Prog := .make 5 fun a => .call (.newRange a rnd) fun r => match r with
  | .range (pr, _, _) => .call (.verifyRange pr env0.G) fun _ => .stop
  | _ => .call (.add env0.G env0.H) fun _ => .stop

/-- Any number of such goroutines share the parameters of `TestCurve`. -/
example (rnd : Nat → Nat → BitRand) : ZeroAdd tc.C ∧ EnvIs (cells mem0) env0 tc ∧
    ∀ i, Valid hash tc (rangeClient (rnd i)) (cells mem0) := by
  refine ⟨zeroAdd_s256, env0_is, fun i a ha => ⟨_, .newRange _ (.cell a 5 (put_self _ _ _)), ?_⟩⟩
  intro t r w hl hw hr
  have he : EnvIs t env0 tc := env0_is.mono ((le_put ha 5).trans hl)
  cases hr with
  | range h1 h2 h3 => exact ⟨_, .verifyRange h1 he.G, fun _ _ _ _ _ _ => trivial⟩
  | _ => exact ⟨_, .add he.G he.H, fun _ _ _ _ _ _ => trivial⟩

/-- Such a goroutine can start its work while another one waits to be scheduled: there are states with
goroutines at different places. -/
example (st : Store) (rnd : Nat → Nat → BitRand) : ∃ s, State.Reach hash env0
    (State.start (cells st) 2 fun i => rangeClient (rnd i)) s ∧ s.thr 0 ≠ s.thr 1 ∧
    s.mem st.length = some 5 := by
  refine ⟨_, .step .start ?_ (.make (i := 0) (a := st.length) rfl (List.getElem?_eq_none le_rfl)), ?_, ?_⟩
  · rintro ⟨i, hi⟩
    unfold State.start at hi
    dsimp only at hi
    split at hi <;> cases hi
  · dsimp only
    rw [Function.update_self, Function.update_of_ne (by decide)]
    intro h
    cases h
  · exact put_self _ _ _

/-- A race is possible in the model: two goroutines of a prover with the same variables. -/
example (rnd : BitRand) : State.Racy ⟨⟨fun _ => none, fun _ => none, fun _ => none⟩,
    fun _ => .worker (.genA 0 0 0 false rnd) (.set 0 .k none (.ret nilP)), []⟩ :=
  ⟨0, 1, .var 0 .k, true, true, by decide, rfl, rfl, .inl rfl⟩

end Zk.Mem
