import Verif.Mem.Sharing
import Verif.Proto.SigmaProps

/-!
# Properties C126–C128: what the functions do to memory
-/

namespace Zk.Mem

open Zk Zk.Proto Zk.Curve

variable {hash : Bytes → Bytes} {s t u : Store} {e : Env} {cp : Params}

/-- C126: no function writes to a number that existed before the call, however its arguments share
numbers with each other or with the parameters. -/
theorem C126_call (hz : ZeroAdd cp.C) (he : EnvIs (cells s) e cp) {c : Call} {v : VCall} (hc : CallIs (cells s) c v)
    {r : Res} (hr : run (runCall hash e c) s = .ok (r, t)) :
    ∀ (a : Nat) (x : Int), s[a]? = some x → t[a]? = some x :=
  (runCall_ok hz he hc hr).1

/-- C126: whatever calls a client makes, the parameters and the package variables keep their values, and
so do all numbers there were. -/
theorem C126_client (hz : ZeroAdd cp.C) (he : EnvIs (cells s) e cp) (h : Client hash e s t) :
    (∀ (a : Nat) (x : Int), s[a]? = some x → t[a]? = some x) ∧ EnvIs (cells t) e cp :=
  ⟨h.le hz he, he.mono (h.le hz he)⟩

/-- C127: a call does what the function on values does with the values of the arguments: it panics if
that panics, and otherwise returns a result with the same value. -/
theorem C127_values (hz : ZeroAdd cp.C) (he : EnvIs (cells s) e cp) {c : Call} {v : VCall}
    (hc : CallIs (cells s) c v) :
    (runValues hash cp v = .panic → run (runCall hash e c) s = .panic) ∧
    ∀ w, runValues hash cp v = .ok w → ∃ r t, run (runCall hash e c) s = .ok (r, t) ∧ ResIs (cells t) r w := by
  have h := run_does hash hz he hc
  constructor
  · exact h.run_panic
  · intro w hw
    obtain ⟨r, t, h1, -, h3⟩ := h.run_ok hw
    exact ⟨r, t, h1, h3⟩

/-- C127: two calls of the same function whose arguments have the same values do the same, even if the
arguments share numbers in one of them and not in the other. -/
theorem C127_sharing (hz : ZeroAdd cp.C) {s' : Store} {e' : Env} (he : EnvIs (cells s) e cp)
    (he' : EnvIs (cells s') e' cp) {c c' : Call} {v : VCall} (hc : CallIs (cells s) c v) (hc' : CallIs (cells s') c' v) :
    (run (runCall hash e c) s = .panic ∧ run (runCall hash e' c') s' = .panic) ∨
    ∃ w r t r' t', run (runCall hash e c) s = .ok (r, t) ∧ run (runCall hash e' c') s' = .ok (r', t') ∧
      ResIs (cells t) r w ∧ ResIs (cells t') r' w := by
  have h := C127_values (hash := hash) hz he hc
  have h' := C127_values (hash := hash) hz he' hc'
  cases hw : runValues hash cp v with
  | panic => exact .inl ⟨h.1 hw, h'.1 hw⟩
  | ok w =>
    obtain ⟨r, t, h1, h2⟩ := h.2 w hw
    obtain ⟨r', t', h3, h4⟩ := h'.2 w hw
    exact .inr ⟨w, r, t, r', t', h1, h3, h2, h4⟩

/-- C127: the verdict of a verifier stays the same whatever the client does in between. -/
theorem C127_again (hz : ZeroAdd cp.C) (he : EnvIs (cells s) e cp) {c : Call} {v : VCall} (hc : CallIs (cells s) c v)
    {b : Bool × Option Err} (hr : run (runCall hash e c) s = .ok (.verdict b, t))
    (hcl : Client hash e t u) : ∃ u', run (runCall hash e c) u = .ok (.verdict b, u') := by
  obtain ⟨hl, w, hw, hi⟩ := runCall_ok hz he hc hr
  cases hi
  have hl' := hl.trans (hcl.le hz (he.mono hl))
  obtain ⟨r, u', h1, h2⟩ := (C127_values hz (he.mono hl') (hc.mono hl')).2 _ hw
  cases h2
  exact ⟨u', h1⟩

/-- C128 fails: `Add` of `Zero` and G returns the pointers of G.  A client that writes to the result
changes the generator of `TestCurve`. -/
theorem C128_refuted : ∃ (P : Point) (t u : Store), EnvIs (cells mem0) env0 tc ∧
    run (add env0 env0.Zero env0.G) mem0 = .ok (P, t) ∧ run (store P.X 5) t = .ok ((), u) ∧
    Is (cells u) env0.G.X (some 5) ∧ ¬ EnvIs (cells u) env0 tc := by
  refine ⟨env0.G, mem0, mem0.set 2 5, env0_is, add_zero_G, store_G, ?_, fun h => ?_⟩
  · exact .cell 2 5 set_G
  · have h1 := h.G.x
    rw [show env0.G.X = some 2 from rfl] at h1
    generalize hg : tc.G.X = o at h1
    cases h1 with
    | cell _ x h2 =>
      rw [show cells (mem0.set 2 5) 2 = _ from set_G] at h2
      cases h2
      exact absurd (Option.some.inj hg) (by decide +kernel)

/-- C128, the part that holds: a number in the result is new, or it is a number of an argument of `Add`,
`Sub` or `Neg`, of the base of a GSPFS proof, or of `HPoints` in a range proof (`mayShare`). -/
theorem C128_partial (hz : ZeroAdd cp.C) (he : EnvIs (cells s) e cp) {c : Call} {v : VCall}
    (hc : CallIs (cells s) c v) {r : Res} (hr : run (runCall hash e c) s = .ok (r, t)) :
    ∀ p ∈ r.ptrs, (∀ a, p = some a → s.length ≤ a) ∨ p ∈ mayShare e c := by
  obtain ⟨w, -, -, h⟩ := (run_shares hash hz he hc).run hr
  exact fun p hp => (h p hp).imp (fun h a ha => List.getElem?_eq_none_iff.1 (h a ha)) id

/-- C128, the part that holds: a client may overwrite the numbers of the result of any other function
without changing a number that existed before the call. -/
theorem C128_write_partial (hz : ZeroAdd cp.C) (he : EnvIs (cells s) e cp) {c : Call} {v : VCall}
    (hc : CallIs (cells s) c v) (hs : mayShare e c = []) {r : Res} (hr : run (runCall hash e c) s = .ok (r, t))
    {p : Ptr} (hp : p ∈ r.ptrs) {x : Int} (hw : run (store p x) t = .ok ((), u)) :
    ∀ (a : Nat) (y : Int), s[a]? = some y → u[a]? = some y := by
  have hl := (runCall_ok hz he hc hr).1
  have hn := C128_partial hz he hc hr p hp
  rw [hs] at hn
  rcases hn with hn | hn
  · cases p with
    | none => cases hw
    | some b =>
      have hb := hn b rfl
      unfold store run at hw
      split at hw
      · rename_i ht
        cases hw
        intro a y ha
        rw [show (t.set b x)[a]? = _ from congrFun (cells_set t ht x) a]
        exact hl.put (List.getElem?_eq_none hb) x a y ha
      · cases hw
  · cases hn

/-! ### The hypotheses are met -/

/-- The memory after `init`; the same pointers are used for both arguments, and they are those of the
parameters. -/
example : ZeroAdd tc.C ∧ EnvIs (cells mem0) env0 tc ∧
    CallIs (cells mem0) (.add env0.G env0.G) (.add tc.G tc.G) ∧
    CallIs (cells mem0) (.pedCommitR env0.N env0.BigZero) (.pedCommitR (some curveN) (some 0)) :=
  ⟨zeroAdd_s256, env0_is, .add env0_is.G env0_is.G, .pedCommitR env0_is.N env0_is.BigZero⟩

theorem pedCommitR_value : ∃ w, runValues hash tc (.pedCommitR (some curveN) (some 0)) = .ok w := by
  have h := lawful.pedCommitR_pe curveN 0
  refine ⟨.point (lawful.pe ((curveN : Int) • lawful.g + (0 : Int) • lawful.hb)), ?_⟩
  unfold runValues
  simp only [h]
  rfl

/-- A call that returns: the commitment to N with randomness `BigZero`, both in the cells of the
parameters. -/
example : ∃ r t, run (runCall hash env0 (.pedCommitR env0.N env0.BigZero)) mem0 = .ok (r, t) ∧
    mayShare env0 (.pedCommitR env0.N env0.BigZero) = [] := by
  obtain ⟨w, hw⟩ := pedCommitR_value (hash := hash)
  obtain ⟨r, t, h, -⟩ :=
    (C127_values zeroAdd_s256 env0_is (.pedCommitR env0_is.N env0_is.BigZero)).2 w hw
  exact ⟨r, t, h, rfl⟩

/-- A client that makes a number and then calls a function. -/
example (x : Int) : ∃ t, Client hash env0 mem0 t ∧ ¬ cells t ≼ cells mem0 := by
  have hl := le_append mem0 [x]
  obtain ⟨w, hw⟩ := pedCommitR_value (hash := hash)
  obtain ⟨r, t, h, -⟩ := (C127_values (hash := hash) zeroAdd_s256 (env0_is.mono hl)
    (.pedCommitR (env0_is.N.mono hl) (env0_is.BigZero.mono hl))).2 w hw
  have hle := (runCall_ok zeroAdd_s256 (env0_is.mono hl)
    (.pedCommitR (env0_is.N.mono hl) (env0_is.BigZero.mono hl)) h).1
  refine ⟨t, .makes x (.calls (.pedCommitR (env0_is.N.mono hl) (env0_is.BigZero.mono hl)) h (.done t)),
    fun hn => ?_⟩
  have := hn _ _ (hle _ _ (cells_last mem0 x))
  rw [show cells mem0 mem0.length = none from List.getElem?_eq_none (le_refl _)] at this
  cases this

/-- A prover and then its verifier: a proof of knowledge of 1, for the point G in the cells of the
parameters, is accepted. -/
example (u : Int) : ∃ (s t t' : Store) (pr : GSPFS) (v : VCall), EnvIs (cells s) env0 tc ∧
    CallIs (cells s) (.verifyGSPFS (some pr) env0.G) v ∧
    run (runCall hash env0 (.newGSPFS env0.G (some mem0.length) u)) (mem0 ++ [1]) = .ok (.gspfs (some pr, none), t) ∧
    run (runCall hash env0 (.verifyGSPFS (some pr) env0.G)) s = .ok (.verdict accept, t') := by
  have hl := le_append mem0 [1]
  have he := env0_is.mono hl
  obtain ⟨pv, h1, h2⟩ := C27_completeness_G_partial lawful hash 1 u
    ((lawful.multOk_iff_eff _).2 (by rw [one_smul]; exact lawful.eff_g))
  rw [one_smul, ← lawful.G_pe] at h1 h2
  have hc : CallIs (cells (mem0 ++ [1])) (.newGSPFS env0.G (some mem0.length) u) (.newGSPFS tc.G 1 u) :=
    .newGSPFS u he.G (.cell _ _ (cells_last _ _))
  obtain ⟨r, t, h3, h4⟩ := (C127_values (hash := hash) zeroAdd_s256 he hc).2 (.gspfs (some pv, none)) (by
    unfold runValues
    simp only [h1]
    rfl)
  have hle := (runCall_ok zeroAdd_s256 he hc h3).1
  cases h4 with
  | @gspfs r _ h5 h6 =>
    obtain ⟨a, er⟩ := r
    cases h6
    cases h5 with
    | @some pr _ h5 =>
      have hc' : CallIs (cells t) (.verifyGSPFS (some pr) env0.G) (.verifyGSPFS (some pv) tc.G) :=
        .verifyGSPFS (.some h5) (he.G.mono hle)
      obtain ⟨r', t', h7, h8⟩ := (C127_values (hash := hash) zeroAdd_s256 (he.mono hle) hc').2
        (.verdict accept) (by
          unfold runValues
          simp only [h2]
          rfl)
      cases h8
      exact ⟨t, t, t', pr, _, he.mono hle, hc', h3, h7⟩

end Zk.Mem
