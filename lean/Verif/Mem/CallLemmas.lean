import Verif.Mem.Calls
import Verif.Curve.TestLawful

/-!
# Calls one after the other, and the memory that `init` sets up
-/

namespace Zk.Mem

open Zk Zk.Proto Zk.Curve

theorem relMono {α β : Type} {R R' : α → β → Prop} (h : ∀ a b, R a b → R' a b) {a : Option α}
    {b : Option β} (hr : Option.Rel R a b) : Option.Rel R' a b := by
  cases hr with
  | none => exact .none
  | some hr => exact .some (h _ _ hr)

theorem GSPFSIs.mono {s t : Cells} {p : GSPFS} {v : GSPFSProof} (h : s ≼ t) (hp : GSPFSIs s p v) :
    GSPFSIs t p v :=
  ⟨hp.Base.mono h, hp.RandCommit.mono h, hp.HiddenValue.mono h, hp.Challenge.mono h⟩

theorem EquivalenceIs.mono {s t : Cells} {p : Equivalence} {v : EquivalenceProof} (h : s ≼ t)
    (hp : EquivalenceIs s p v) : EquivalenceIs t p v :=
  ⟨hp.UG.mono h, hp.UH.mono h, hp.Challenge.mono h, hp.HiddenValue.mono h⟩

theorem ConsistencyIs.mono {s t : Cells} {p : Consistency} {v : ConsistencyProof} (h : s ≼ t)
    (hp : ConsistencyIs s p v) : ConsistencyIs t p v :=
  ⟨hp.T1.mono h, hp.T2.mono h, hp.Challenge.mono h, hp.S1.mono h, hp.S2.mono h⟩

theorem ABCIs.mono {s t : Cells} {p : ABC} {v : ABCProof} (h : s ≼ t) (hp : ABCIs s p v) :
    ABCIs t p v :=
  ⟨hp.B.mono h, hp.C.mono h, hp.T1.mono h, hp.T2.mono h, hp.Challenge.mono h, hp.j.mono h,
    hp.k.mono h, hp.l.mono h, hp.CToken.mono h,
    relMono (fun _ _ hd => DisjunctiveIs.mono h hd) hp.disjuncAC⟩

theorem RangeIs.mono {s t : Cells} {p : Range} {v : RangeProof} (h : s ≼ t) (hp : RangeIs s p v) :
    RangeIs t p v :=
  ⟨hp.ProofAggregate.mono h, hp.ProofE.mono h,
    hp.ProofTuples.imp fun _ _ ht => ⟨ht.1.mono h, ht.2.mono h⟩⟩

theorem CallIs.mono {s t : Cells} {c : Call} {v : VCall} (h : s ≼ t) (hc : CallIs s c v) :
    CallIs t c v := by
  cases hc with
  | verifyGSPFS h1 h2 => exact .verifyGSPFS (relMono (fun _ _ => GSPFSIs.mono h) h1) (h2.mono h)
  | verifyEquivalence h1 h2 h3 h4 h5 =>
    exact .verifyEquivalence (relMono (fun _ _ => EquivalenceIs.mono h) h1) (h2.mono h) (h3.mono h)
      (h4.mono h) (h5.mono h)
  | verifyConsistency h1 h2 h3 h4 =>
    exact .verifyConsistency (relMono (fun _ _ => ConsistencyIs.mono h) h1) (h2.mono h) (h3.mono h)
      (h4.mono h)
  | verifyDisjunctive h1 h2 h3 h4 h5 =>
    exact .verifyDisjunctive (relMono (fun _ _ => DisjunctiveIs.mono h) h1) (h2.mono h) (h3.mono h)
      (h4.mono h) (h5.mono h)
  | verifyABC h1 h2 h3 =>
    exact .verifyABC (relMono (fun _ _ => ABCIs.mono h) h1) (h2.mono h) (h3.mono h)
  | verifyInequality h1 h2 h3 =>
    exact .verifyInequality (relMono (fun _ _ => ABCIs.mono h) h1) (h2.mono h) (h3.mono h)
  | verifyRange h1 h2 => exact .verifyRange (relMono (fun _ _ => RangeIs.mono h) h1) (h2.mono h)
  | _ => constructor <;> first | exact Is.mono h (by assumption) | exact PIs.mono h (by assumption)

/-- What a client does between `s` and `t`: it makes numbers of its own and calls functions on points,
numbers and proofs it has (specification; crypto.go:86-110 is one of the functions). -/
inductive Client (hash : Bytes → Bytes) (e : Env) : Store → Store → Prop
  | done (s : Store) : Client hash e s s
  | makes {s t : Store} (x : Int) (h : Client hash e (s ++ [x]) t) : Client hash e s t
  | calls {s t u : Store} {c : Call} {v : VCall} {r : Res} (hc : CallIs (cells s) c v)
      (hr : run (runCall hash e c) s = .ok (r, t)) (h : Client hash e t u) : Client hash e s u

theorem runCall_ok {hash : Bytes → Bytes} {s t : Store} {e : Env} {cp : Params} (hz : ZeroAdd cp.C)
    (he : EnvIs (cells s) e cp) {c : Call} {v : VCall} (hc : CallIs (cells s) c v) {r : Res}
    (hr : run (runCall hash e c) s = .ok (r, t)) :
    cells s ≼ cells t ∧ ∃ w, runValues hash cp v = .ok w ∧ ResIs (cells t) r w := by
  obtain ⟨w, h1, h2, h3⟩ := (run_does hash hz he hc).run hr
  exact ⟨h2, w, h1, h3⟩

theorem Client.le {hash : Bytes → Bytes} {s t : Store} {e : Env} {cp : Params} (hz : ZeroAdd cp.C)
    (he : EnvIs (cells s) e cp) (h : Client hash e s t) : cells s ≼ cells t := by
  induction h with
  | done => exact Le.refl _
  | makes x _ ih => exact (le_append _ _).trans (ih (he.mono (le_append _ _)))
  | calls hc hr _ ih =>
    have h1 := (runCall_ok hz he hc hr).1
    exact h1.trans (ih (he.mono h1))

/-! ### The memory after `init` -/

theorem zeroAdd_s256 : ZeroAdd s256 := by
  intro x y
  constructor
  · show Curve.add 0 0 x y = _
    simp [Curve.add]
  · show Curve.add x y 0 0 = _
    by_cases h : x = 0 ∧ y = 0
    · simp [Curve.add, h]
    · simp [Curve.add, h]

/-- Consecutive cells as points, zksigma.go:41-45. -/
def consecutive : Nat → Nat → List Point
  | _, 0 => []
  | a, n + 1 => ⟨some a, some (a + 1)⟩ :: consecutive (a + 2) n

/-- The numbers of N, P, G, H, `BigZero` and `HPoints`, zksigma.go:49-59, crypto.go:266-271. -/
def mem0 : Store :=
  [(curveN : Int), (curveP : Int), ((curveGx : ℕ) : Int), ((curveGy : ℕ) : Int), ((hX : ℕ) : Int),
    ((hY : ℕ) : Int), 0] ++ (List.range 64).flatMap fun i => [(enc (2 ^ i • G)).1, (enc (2 ^ i • G)).2]

/-- `TestCurve`, `Zero` and `BigZero` in this memory, zksigma.go:53-58, crypto.go:266-271: both
coordinates of `Zero` are the number `BigZero`, and G has the numbers of `btcec.S256()`. -/
def env0 : Env where
  ops := s256
  N := some 0
  P := some 1
  G := ⟨some 2, some 3⟩
  H := ⟨some 4, some 5⟩
  HPoints := consecutive 7 64
  Zero := ⟨some 6, some 6⟩
  BigZero := some 6

theorem consecutive_is (l : List (Int × Int)) : ∀ pre : Store,
    List.Forall₂ (PIs (cells (pre ++ l.flatMap fun q => [q.1, q.2]))) (consecutive pre.length l.length)
      (l.map mkPt) := by
  induction l with
  | nil => exact fun _ => .nil
  | cons q l ih =>
    intro pre
    refine .cons ⟨.cell _ _ (by simp), .cell _ _ (by simp)⟩ ?_
    have := ih (pre ++ [q.1, q.2])
    simpa using this

theorem env0_is : EnvIs (cells mem0) env0 tc where
  ops := rfl
  N := .cell _ _ rfl
  P := .cell _ _ rfl
  G := ⟨.cell _ _ rfl, .cell _ _ rfl⟩
  H := ⟨.cell _ _ rfl, .cell _ _ rfl⟩
  HPoints := by
    have := consecutive_is ((List.range 64).map fun i => enc (2 ^ i • G))
      [(curveN : Int), (curveP : Int), ((curveGx : ℕ) : Int), ((curveGy : ℕ) : Int), ((hX : ℕ) : Int),
        ((hY : ℕ) : Int), 0]
    rw [List.flatMap_map, List.map_map, List.length_map, List.length_range] at this
    exact this
  Zero := ⟨.cell _ _ rfl, .cell _ _ rfl⟩
  BigZero := .cell _ _ rfl

theorem isOnCurve_G : Curve.isOnCurve ((curveGx : ℕ) : Int) ((curveGy : ℕ) : Int) = .ok true := by
  have := isOnCurve_enc G G_ne
  rwa [enc_G] at this

theorem run_lift {α : Type} (g : Go α) (s : Store) :
    run (liftM g : M α) s = g >>= fun a => .ok (a, s) := by
  cases g <;> rfl

theorem zeroAndOnCurve_zero_G (n p gx gy hx hy : Int) (tl : Store) :
    run (zeroAndOnCurve env0 env0.Zero env0.G) ([n, p, gx, gy, hx, hy, 0] ++ tl) =
      (Curve.isOnCurve gx gy >>= fun b => .ok (b, [n, p, gx, gy, hx, hy, 0] ++ tl)) :=
  run_lift (Curve.isOnCurve gx gy) ([n, p, gx, gy, hx, hy, 0] ++ tl)

theorem add_zero_G : run (add env0 env0.Zero env0.G) mem0 = .ok (env0.G, mem0) := by
  have h1 : run (zeroAndOnCurve env0 env0.Zero env0.G) mem0 = .ok (true, mem0) := by
    unfold mem0
    rw [zeroAndOnCurve_zero_G, isOnCurve_G]
    rfl
  unfold add
  rw [run_bind, h1]
  rfl

theorem store_two (a b c : Int) (tl : Store) :
    run (store (some 2) 5) ([a, b, c] ++ tl) = .ok ((), ([a, b, c] ++ tl).set 2 5) := by
  exact if_pos (by simp)

theorem store_G : run (store env0.G.X 5) mem0 = .ok ((), mem0.set 2 5) := store_two _ _ _ _

theorem set_two (a b c : Int) (tl : Store) : (([a, b, c] ++ tl).set 2 5)[2]? = some 5 := rfl

theorem set_G : (mem0.set 2 5)[2]? = some 5 := set_two _ _ _ _

end Zk.Mem
