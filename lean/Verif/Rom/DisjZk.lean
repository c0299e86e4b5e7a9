import Verif.Rom.ValueProps

/-! # Property C44 with probabilities: what disjunctive proofs would hide if their responses were reduced -/

namespace Zk.Rom

open Zk Zk.Proto

variable {cp : Params} {E : Type} [AddCommGroup E]

/-- Subtracting from a number modulo N (specification; disjunctive.go:127-128). -/
def subFin (N : Nat) (hN : 0 < N) (k : Int) (a : Fin N) : Fin N :=
  ⟨((k - ((a : Nat) : Int)) % (N : Int)).toNat, by
    have h1 := Int.emod_nonneg (k - ((a : Nat) : Int)) (show (N : Int) ≠ 0 by omega)
    have h2 := Int.emod_lt_of_pos (k - ((a : Nat) : Int)) (show (0 : Int) < N by omega)
    omega⟩

theorem val_subFin (N : Nat) (hN : 0 < N) (k : Int) (a : Fin N) :
    ((subFin N hN k a : Nat) : Int) = (k - ((a : Nat) : Int)) % (N : Int) :=
  Int.toNat_of_nonneg (Int.emod_nonneg _ (by omega))

theorem sub_sub_emod (c a n : Int) : (c - (c - a) % n) % n = a % n := by
  rw [Int.sub_emod, Int.emod_emod, ← Int.sub_emod, sub_sub_cancel]

theorem subFin_subFin (N : Nat) (hN : 0 < N) (k : Int) (a : Fin N) : subFin N hN k (subFin N hN k a) = a := by
  have : ((subFin N hN k (subFin N hN k a) : Nat) : Int) = (a : Nat) := by
    rw [val_subFin, val_subFin, sub_sub_emod, fin_emod]
  exact Fin.ext (by omega)

/-- The prover's draws of a left proof, from responses and challenge (specification; disjunctive.go:85-151). -/
def leftDraws (N : Nat) (hN : 0 < N) (c x : Int) : Fin N × Fin N × Fin N ≃ Fin N × Fin N × Fin N where
  toFun s := (shiftFin N hN (-((c - ((s.2.2 : Nat) : Int)) % (N : Int) * (x % (N : Int)))) s.1, s.2.1, s.2.2)
  invFun u := ((shiftFin N hN (-((c - ((u.2.2 : Nat) : Int)) % (N : Int) * (x % (N : Int))))).symm u.1, u.2.1, u.2.2)
  left_inv s := by simp
  right_inv s := by simp

/-- The prover's draws of a right proof, from responses and challenge (specification; disjunctive.go:85-151). -/
def rightDraws (N : Nat) (hN : 0 < N) (c x : Int) : Fin N × Fin N × Fin N ≃ Fin N × Fin N × Fin N where
  toFun s := (shiftFin N hN (-(((s.2.2 : Nat) : Int) * (x % (N : Int)))) s.2.1, s.1, subFin N hN c s.2.2)
  invFun u := (u.2.1, (shiftFin N hN (-(((subFin N hN c u.2.2 : Nat) : Int) * (x % (N : Int))))).symm u.1,
    subFin N hN c u.2.2)
  left_inv s := by simp [subFin_subFin]
  right_inv s := by simp [subFin_subFin]

/-- A left proof with reduced responses, given the answer.  See disjunctive.go:59-152. -/
noncomputable def leftGiven (L : Lawful cp E) (b1 b2 r2 : E) (x : Int) (u : Fin cp.C.N × Fin cp.C.N × Fin cp.C.N)
    (d : Bytes) : Go (Option DisjunctiveProof × Option Err) :=
  let c := (setBytes d : Int) % (cp.C.N : Int)
  let c1 := (c - ((u.2.2 : Nat) : Int)) % (cp.C.N : Int)
  .ok (some ⟨L.pe (((u.1 : Nat) : Int) • L.eff b1),
    L.pe (((u.2.1 : Nat) : Int) • L.eff b2 - ((u.2.2 : Nat) : Int) • L.eff r2), some c, some c1,
    some ((u.2.2 : Nat) : Int), some ((((u.1 : Nat) : Int) + c1 * (x % (cp.C.N : Int))) % (cp.C.N : Int)),
    some (((u.2.1 : Nat) : Int) % (cp.C.N : Int))⟩, none)

/-- A right proof with reduced responses, given the answer.  See disjunctive.go:59-152. -/
noncomputable def rightGiven (L : Lawful cp E) (b1 r1 b2 : E) (x : Int) (u : Fin cp.C.N × Fin cp.C.N × Fin cp.C.N)
    (d : Bytes) : Go (Option DisjunctiveProof × Option Err) :=
  let c := (setBytes d : Int) % (cp.C.N : Int)
  let c2 := (c - ((u.2.2 : Nat) : Int)) % (cp.C.N : Int)
  .ok (some ⟨L.pe (((u.2.1 : Nat) : Int) • L.eff b1 - ((u.2.2 : Nat) : Int) • L.eff r1),
    L.pe (((u.1 : Nat) : Int) • L.eff b2), some c, some ((u.2.2 : Nat) : Int), some c2,
    some (((u.2.1 : Nat) : Int) % (cp.C.N : Int)),
    some ((((u.1 : Nat) : Int) + c2 * (x % (cp.C.N : Int))) % (cp.C.N : Int))⟩, none)

/-- The points that a proof hashes, by side.  See disjunctive.go:122-125. -/
noncomputable def disjPoints (L : Lawful cp E) (b1 r1 b2 r2 : E) (side : Side)
    (u : Fin cp.C.N × Fin cp.C.N × Fin cp.C.N) : List E :=
  [b1, r1, b2, r2] ++ if side = Left then
    [((u.1 : Nat) : Int) • L.eff b1, ((u.2.1 : Nat) : Int) • L.eff b2 - ((u.2.2 : Nat) : Int) • L.eff r2]
  else [((u.2.1 : Nat) : Int) • L.eff b1 - ((u.2.2 : Nat) : Int) • L.eff r1, ((u.1 : Nat) : Int) • L.eff b2]

/-- A proof with reduced responses, given the answer, by side.  See disjunctive.go:59-152. -/
noncomputable def disjGiven (L : Lawful cp E) (b1 r1 b2 r2 : E) (x : Int) (side : Side)
    (u : Fin cp.C.N × Fin cp.C.N × Fin cp.C.N) (d : Bytes) : Go (Option DisjunctiveProof × Option Err) :=
  if side = Left then leftGiven L b1 b2 r2 x u d else rightGiven L b1 r1 b2 x u d

theorem newDisjunctiveProof_given (L : Lawful cp E) (h : Bytes → Bytes) (b1 r1 b2 r2 : E) (x : Int) (side : Side)
    (hx : side = Left ∧ x • L.eff b1 = r1 ∨ side = Right ∧ x • L.eff b2 = r2)
    (u : Fin cp.C.N × Fin cp.C.N × Fin cp.C.N) :
    reduceResponses cp.C.N (newDisjunctiveProof h cp (L.pe b1) (L.pe r1) (L.pe b2) (L.pe r2) x side (u.1 : Nat)
      (u.2.1 : Nat) (u.2.2 : Nat)) = disjGiven L b1 r1 b2 r2 x side u
        (h (hashed ((disjPoints L b1 r1 b2 r2 side u).map L.pe))) := by
  have hne : Right ≠ Left := by decide
  rcases hx with ⟨rfl, hx⟩ | ⟨rfl, hx⟩
  · rw [newDisjunctiveProof_left L _ _ _ _ _ _ _ _ _ (by rw [hx, L.same_self])]
    simp only [reduceResponses, leftProof, chal_hash, Go.bind_ok, Go.pure_eq, Option.map_some, disjGiven, if_true,
      leftGiven, disjPoints, List.cons_append, List.nil_append]
  · rw [newDisjunctiveProof_right L _ _ _ _ _ _ _ _ _ (by rw [hx, L.same_self])]
    simp only [reduceResponses, rightProof, chal_hash, Go.bind_ok, Go.pure_eq, Option.map_some, disjGiven, if_neg hne,
      rightGiven, disjPoints, List.cons_append, List.nil_append]

/-- Draws that a simulated proof has, by side (specification; disjunctive.go:59-152). -/
def disjDraws (N : Nat) (hN : 0 < N) (c x : Int) (side : Side) : Fin N × Fin N × Fin N ≃ Fin N × Fin N × Fin N :=
  if side = Left then leftDraws N hN c x else rightDraws N hN c x

theorem simDisjunctive_eq (L : Lawful cp E) (b1 r1 b2 r2 : E) (o1 : L.eff r1 = r1) (o2 : L.eff r2 = r2) (x : Int)
    (side : Side) (hx : side = Left ∧ x • L.eff b1 = r1 ∨ side = Right ∧ x • L.eff b2 = r2)
    (s : Fin cp.C.N × Fin cp.C.N × Fin cp.C.N) (ω : Word) :
    simDisjunctive cp (L.pe b1) (L.pe r1) (L.pe b2) (L.pe r2) (chalOf cp.C.N ω) (s.1 : Nat) (s.2.1 : Nat)
      (s.2.2 : Nat) = disjGiven L b1 r1 b2 r2 x side (disjDraws cp.C.N L.prime.pos (chalOf cp.C.N ω) x side s)
        (bytesOf ω) := by
  have hne : Right ≠ Left := by decide
  have hc : (setBytes (bytesOf ω) : Int) % (cp.C.N : Int) = chalOf cp.C.N ω := rfl
  rcases hx with ⟨rfl, hx⟩ | ⟨rfl, hx⟩
  · simp only [disjGiven, if_true, disjDraws, leftGiven, hc, leftDraws, Equiv.coe_fn_mk, val_shiftFin,
      simDisjunctive, L.mult_pe, L.sub_pe, Go.bind_ok, Go.pure_eq, L.smul_mod, Int.emod_add_emod, neg_add_cancel_right,
      fin_emod, o1]
    congr 4
    congr 1
    rw [add_smul, neg_smul, mul_smul, L.smul_mod, L.smul_mod, hx]
    abel
  · simp only [disjGiven, if_neg hne, disjDraws, rightGiven, hc, rightDraws, Equiv.coe_fn_mk, val_shiftFin, val_subFin,
      simDisjunctive, L.mult_pe, L.sub_pe, Go.bind_ok, Go.pure_eq, L.smul_mod, Int.emod_add_emod, sub_sub_emod,
      fin_emod, neg_add_cancel_right, o2]
    congr 4
    congr 1
    rw [add_smul, neg_smul, mul_smul, L.smul_mod, hx]
    abel

/-- Disjunctive proofs with reduced responses and their simulator.  See disjunctive.go:59-152. -/
noncomputable def disjunctiveSimulation (L : Lawful cp E) (hs : Small L) (b1 r1 b2 r2 : E) (hb1 : b1 ≠ 0)
    (hb2 : b2 ≠ 0) (o1 : L.eff r1 = r1) (o2 : L.eff r2 = r2) (x : Int)
    (side : Side) (hx : side = Left ∧ x • L.eff b1 = r1 ∨ side = Right ∧ x • L.eff b2 = r2) (S : Finset Bytes)
    (hS : ∀ u, hashed ((disjPoints L b1 r1 b2 r2 side u).map L.pe) ∈ S) :
    Simulation S (Fin cp.C.N × Fin cp.C.N × Fin cp.C.N) (Go (Option DisjunctiveProof × Option Err)) where
  com u := ⟨_, hS u⟩
  pf := disjGiven L b1 r1 b2 r2 x side
  e ω := disjDraws cp.C.N L.prime.pos (chalOf cp.C.N ω) x side
  κ := 35937 * cp.C.N
  hκ c := by
    have hne : Right ≠ Left := by decide
    have key : ∀ t1 t2 : Fin cp.C.N × Fin cp.C.N × Fin cp.C.N → E,
        (∀ u, hashed ((disjPoints L b1 r1 b2 r2 side u).map L.pe) =
          hashed (([b1, r1, b2, r2] ++ [t1 u, t2 u]).map L.pe)) →
        (∀ u v, t1 u = t1 v → t2 u = t2 v → u.2.2 = v.2.2 → u = v) →
        (num fun u => hashed ((disjPoints L b1 r1 b2 r2 side u).map L.pe) = c) ≤ (35937 * cp.C.N : ℕ) := by
      intro t1 t2 h1 h2
      refine (num_com _ (fun u => (tag2 (L.pe (t1 u)) (L.pe (t2 u)), u.2.2)) (fun u v h3 h4 => ?_) c).trans
        (by rw [Fintype.card_prod, card_tag2, Fintype.card_fin])
      rw [Prod.mk.injEq] at h4
      rw [h1, h1] at h3
      obtain ⟨e1, e2⟩ := same_commits L hs _ h3 h4.1
      exact h2 u v e1 e2 h4.2
    have z1 := mt (eff_eq_zero L).1 hb1
    have z2 := mt (eff_eq_zero L).1 hb2
    by_cases hl : side = Left
    · refine key (fun u => ((u.1 : Nat) : Int) • L.eff b1)
        (fun u => ((u.2.1 : Nat) : Int) • L.eff b2 - ((u.2.2 : Nat) : Int) • L.eff r2)
        (fun u => by rw [disjPoints, if_pos hl]) fun u v h1 h2 h3 => ?_
      simp only [h3] at h2
      exact Prod.ext (fin_eq_of_smul L z1 h1) (Prod.ext (fin_eq_of_smul L z2 (sub_left_injective h2)) h3)
    · refine key (fun u => ((u.2.1 : Nat) : Int) • L.eff b1 - ((u.2.2 : Nat) : Int) • L.eff r1)
        (fun u => ((u.1 : Nat) : Int) • L.eff b2)
        (fun u => by rw [disjPoints, if_neg hl]) fun u v h1 h2 h3 => ?_
      simp only [h3] at h1
      exact Prod.ext (fin_eq_of_smul L z2 h2) (Prod.ext (fin_eq_of_smul L z1 (sub_left_injective h1)) h3)
  prove u h := reduceResponses cp.C.N (newDisjunctiveProof h cp (L.pe b1) (L.pe r1) (L.pe b2) (L.pe r2) x side
    (u.1 : Nat) (u.2.1 : Nat) (u.2.2 : Nat))
  simu s ω := simDisjunctive cp (L.pe b1) (L.pe r1) (L.pe b2) (L.pe r2) (chalOf cp.C.N ω) (s.1 : Nat) (s.2.1 : Nat)
    (s.2.2 : Nat)
  ask := askGo (disjunctiveAsk (L.pe b1) (L.pe r1) (L.pe b2) (L.pe r2))
  hp u h := newDisjunctiveProof_given L h b1 r1 b2 r2 x side hx u
  hs s ω := simDisjunctive_eq L b1 r1 b2 r2 o1 o2 x side hx s ω
  ha u d := by
    by_cases hl : side = Left
    · simp only [askGo, disjGiven, if_pos hl, leftGiven, disjunctiveAsk, disjPoints, List.map_cons,
        List.map_nil, List.cons_append, List.nil_append]
    · simp only [askGo, disjGiven, if_neg hl, rightGiven, disjunctiveAsk, disjPoints, List.map_cons,
        List.map_nil, List.cons_append, List.nil_append]

/-- C44, what holds, with probabilities: if the responses were reduced modulo N, nobody who asks `q` questions before
could tell a disjunctive proof of either side from the output of one simulator that knows neither the witness nor the
side, except with probability 35937 q / N^2.  Missing: the code does not reduce the response of the side that is
proved. -/
theorem C44_hidden_partial (L : Lawful cp E) (hs : Small L) (b1 r1 b2 r2 : E) (hb1 : b1 ≠ 0) (hb2 : b2 ≠ 0)
    (o1 : L.MultOk r1) (o2 : L.MultOk r2) (x : Int) (side : Side)
    (hx : side = Left ∧ mult cp (L.pe b1) (some x) = .ok (L.pe r1) ∨
      side = Right ∧ mult cp (L.pe b2) (some x) = .ok (L.pe r2)) {σ : Type}
    (D1 : Adv σ) (D2 : σ → Go (Option DisjunctiveProof × Option Err) → Adv Bool) (q : Nat)
    (hq : ∀ h, D1.count h ≤ q) (S : Finset Bytes)
    (hS : ∀ (h : Bytes → Bytes) (u : Fin cp.C.N × Fin cp.C.N × Fin cp.C.N),
      askGo (disjunctiveAsk (L.pe b1) (L.pe r1) (L.pe b2) (L.pe r2)) (newDisjunctiveProof h cp (L.pe b1) (L.pe r1)
        (L.pe b2) (L.pe r2) x side (u.1 : Nat) (u.2.1 : Nat) (u.2.2 : Nat)) ∈ S) :
    |(prob fun z : (S → Word) × Fin cp.C.N × Fin cp.C.N × Fin cp.C.N => realBit D1 D2
        (fun h => reduceResponses cp.C.N (newDisjunctiveProof h cp (L.pe b1) (L.pe r1) (L.pe b2) (L.pe r2) x side
          (z.2.1 : Nat) (z.2.2.1 : Nat) (z.2.2.2 : Nat))) (hashOf S z.1) = true) -
      (prob fun z : (S → Word) × (Fin cp.C.N × Fin cp.C.N × Fin cp.C.N) × Word => simBit D1 D2
        (simDisjunctive cp (L.pe b1) (L.pe r1) (L.pe b2) (L.pe r2) (chalOf cp.C.N z.2.2) (z.2.1.1 : Nat)
          (z.2.1.2.1 : Nat) (z.2.1.2.2 : Nat))
        (askGo (disjunctiveAsk (L.pe b1) (L.pe r1) (L.pe b2) (L.pe r2)) (simDisjunctive cp (L.pe b1) (L.pe r1)
          (L.pe b2) (L.pe r2) (chalOf cp.C.N z.2.2) (z.2.1.1 : Nat) (z.2.1.2.1 : Nat) (z.2.1.2.2 : Nat)))
        (bytesOf z.2.2) (hashOf S z.1) = true)| ≤ 35937 * q / (cp.C.N : ℝ) ^ 2 := by
  have hN : (cp.C.N : ℝ) ≠ 0 := Nat.cast_ne_zero.2 L.prime.ne_zero
  have : Nonempty (Fin cp.C.N) := ⟨⟨0, L.prime.pos⟩⟩
  simp only [L.mult_pe, Go.ok.injEq, L.pe_inj] at hx
  rw [L.multOk_iff_eff] at o1 o2
  have hS' : ∀ u, hashed ((disjPoints L b1 r1 b2 r2 side u).map L.pe) ∈ S := fun u => by
    have := hS (fun _ => []) u
    have hne : Right ≠ Left := by decide
    rcases hx with ⟨rfl, hx⟩ | ⟨rfl, hx⟩
    · rw [newDisjunctiveProof_left L _ _ _ _ _ _ _ _ _ (by rw [hx, L.same_self])] at this
      exact this
    · rw [newDisjunctiveProof_right L _ _ _ _ _ _ _ _ _ (by rw [hx, L.same_self])] at this
      exact this
  refine (zk_close S (disjunctiveSimulation L hs b1 r1 b2 r2 hb1 hb2 o1 o2 x side hx S hS') D1 D2 q hq).trans
    (le_of_eq ?_)
  rw [Fintype.card_prod, Fintype.card_prod, Fintype.card_fin,
    show (disjunctiveSimulation L hs b1 r1 b2 r2 hb1 hb2 o1 o2 x side hx S hS').κ = 35937 * cp.C.N from rfl]
  push_cast
  field_simp

/-- C44 for many proofs: with reduced responses, a distinguisher who asks for up to `n` proofs of the same statement and
asks at most `q` questions, in any order, could not tell either side from the simulator.  Missing: as above. -/
theorem C44_hidden_many_partial (L : Lawful cp E) (hs : Small L) (b1 r1 b2 r2 : E) (hb1 : b1 ≠ 0) (hb2 : b2 ≠ 0)
    (o1 : L.MultOk r1) (o2 : L.MultOk r2) (x : Int) (side : Side)
    (hx : side = Left ∧ mult cp (L.pe b1) (some x) = .ok (L.pe r1) ∨
      side = Right ∧ mult cp (L.pe b2) (some x) = .ok (L.pe r2)) (n q : Nat)
    (D : Dist (Go (Option DisjunctiveProof × Option Err))) (hq : D.AtMost q) (S : Finset Bytes)
    (hS : ∀ (h : Bytes → Bytes) (u : Fin cp.C.N × Fin cp.C.N × Fin cp.C.N),
      askGo (disjunctiveAsk (L.pe b1) (L.pe r1) (L.pe b2) (L.pe r2)) (newDisjunctiveProof h cp (L.pe b1) (L.pe r1)
        (L.pe b2) (L.pe r2) x side (u.1 : Nat) (u.2.1 : Nat) (u.2.2 : Nat)) ∈ S) :
    |(prob fun z : (S → Word) × (Fin n → Fin cp.C.N × Fin cp.C.N × Fin cp.C.N) => D.real
        (fun (u : Fin cp.C.N × Fin cp.C.N × Fin cp.C.N) h => reduceResponses cp.C.N (newDisjunctiveProof h cp (L.pe b1)
          (L.pe r1) (L.pe b2) (L.pe r2) x side (u.1 : Nat) (u.2.1 : Nat) (u.2.2 : Nat))) z.2 (hashOf S z.1) = true) -
      (prob fun z : (S → Word) × (Fin n → (Fin cp.C.N × Fin cp.C.N × Fin cp.C.N) × Word) => D.sim
        (fun (s : Fin cp.C.N × Fin cp.C.N × Fin cp.C.N) ω => simDisjunctive cp (L.pe b1) (L.pe r1) (L.pe b2) (L.pe r2)
          (chalOf cp.C.N ω) (s.1 : Nat) (s.2.1 : Nat) (s.2.2 : Nat))
        (askGo (disjunctiveAsk (L.pe b1) (L.pe r1) (L.pe b2) (L.pe r2))) z.2 (hashOf S z.1) = true)| ≤
      35937 * (n * (q + n)) / (cp.C.N : ℝ) ^ 2 := by
  have hN : (cp.C.N : ℝ) ≠ 0 := Nat.cast_ne_zero.2 L.prime.ne_zero
  have : Nonempty (Fin cp.C.N) := ⟨⟨0, L.prime.pos⟩⟩
  simp only [L.mult_pe, Go.ok.injEq, L.pe_inj] at hx
  rw [L.multOk_iff_eff] at o1 o2
  have hS' : ∀ u, hashed ((disjPoints L b1 r1 b2 r2 side u).map L.pe) ∈ S := fun u => by
    have := hS (fun _ => []) u
    have hne : Right ≠ Left := by decide
    rcases hx with ⟨rfl, hx⟩ | ⟨rfl, hx⟩
    · rw [newDisjunctiveProof_left L _ _ _ _ _ _ _ _ _ (by rw [hx, L.same_self])] at this
      exact this
    · rw [newDisjunctiveProof_right L _ _ _ _ _ _ _ _ _ (by rw [hx, L.same_self])] at this
      exact this
  refine (many_close S (disjunctiveSimulation L hs b1 r1 b2 r2 hb1 hb2 o1 o2 x side hx S hS') n D q hq).trans
    (le_of_eq ?_)
  rw [Fintype.card_prod, Fintype.card_prod, Fintype.card_fin,
    show (disjunctiveSimulation L hs b1 r1 b2 r2 hb1 hb2 o1 o2 x side hx S hS').κ = 35937 * cp.C.N from rfl]
  push_cast
  field_simp

/-- The hypotheses can be met by both sides of one statement: 4 is 6 times 3 on the left side, and 3 is 6
times 4 on the right side. -/
example : Small Toy.lawful ∧ (3 : ZMod 7) ≠ 0 ∧ Toy.lawful.MultOk 4 ∧ Toy.lawful.MultOk 3 ∧
    mult Toy.params (Toy.lawful.pe 3) (some 6) = .ok (Toy.lawful.pe 4) ∧
    mult Toy.params (Toy.lawful.pe 4) (some 6) = .ok (Toy.lawful.pe 3) ∧ (∀ h, (askOnce [7] id).count h ≤ 1) ∧
    (twoProofs (P := DisjunctiveProof) (disjunctiveAsk (Toy.lawful.pe 3) (Toy.lawful.pe 4) (Toy.lawful.pe 4)
      (Toy.lawful.pe 3))).AtMost 2 ∧
    ∀ (x : Int) (side : Side), side = Left ∧ x = 6 ∨ side = Right ∧ x = 6 → ∃ S : Finset Bytes,
      ∀ (h : Bytes → Bytes) (u : Fin Toy.params.C.N × Fin Toy.params.C.N × Fin Toy.params.C.N),
      askGo (disjunctiveAsk (Toy.lawful.pe 3) (Toy.lawful.pe 4) (Toy.lawful.pe 4) (Toy.lawful.pe 3))
        (newDisjunctiveProof h Toy.params (Toy.lawful.pe 3) (Toy.lawful.pe 4) (Toy.lawful.pe 4) (Toy.lawful.pe 3) x side
          (u.1 : Nat) (u.2.1 : Nat) (u.2.2 : Nat)) ∈ S := by
  have m1 : (6 : Int) • Toy.lawful.eff 3 = 4 := by rw [Toy.eff_plain 3 (by decide)]; decide
  have m2 : (6 : Int) • Toy.lawful.eff 4 = 3 := by rw [Toy.eff_plain 4 (by decide)]; decide
  refine ⟨?_, by decide, ?_, ?_, ?_, ?_, fun h => le_rfl, atMost_twoProofs _, ?_⟩
  · intro a
    have : ∀ a : ZMod 7, (Toy.lawful.enc a).1 < 2 ^ 256 ∧ (Toy.lawful.enc a).2 < 2 ^ 256 := by decide
    exact this a
  · rw [Toy.lawful.multOk_iff_eff, Toy.eff_plain 4 (by decide)]
  · rw [Toy.lawful.multOk_iff_eff, Toy.eff_plain 3 (by decide)]
  · rw [Toy.lawful.mult_pe, m1]
  · rw [Toy.lawful.mult_pe, m2]
  · rintro x side (⟨rfl, rfl⟩ | ⟨rfl, rfl⟩)
    · obtain ⟨S, hS⟩ := exists_strings fun u => hashed ((disjPoints Toy.lawful 3 4 4 3 Left u).map Toy.lawful.pe)
      refine ⟨S, fun h u => ?_⟩
      rw [newDisjunctiveProof_left Toy.lawful _ _ _ _ _ _ _ _ _ (by rw [m1, Toy.lawful.same_self])]
      exact hS u
    · obtain ⟨S, hS⟩ := exists_strings fun u => hashed ((disjPoints Toy.lawful 3 4 4 3 Right u).map Toy.lawful.pe)
      refine ⟨S, fun h u => ?_⟩
      rw [newDisjunctiveProof_right Toy.lawful _ _ _ _ _ _ _ _ _ (by rw [m2, Toy.lawful.same_self])]
      exact hS u

end Zk.Rom
