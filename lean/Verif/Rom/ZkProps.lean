import Verif.Rom.Many
import Verif.Rom.Props

/-! # Properties C137-C139: zero knowledge when SHA-256 is a random function -/

namespace Zk.Rom

open Zk Zk.Proto

variable {cp : Params} {E : Type} [AddCommGroup E]

theorem fin_eq_of_smul (L : Lawful cp E) {a : E} (ha : a ≠ 0) {u v : Fin cp.C.N}
    (h : ((u : Nat) : Int) • a = ((v : Nat) : Int) • a) : u = v := by
  have := (L.smul_eq_smul ha).1 h
  have h2 : ((u : Nat) : Int) % (cp.C.N : Int) = ((v : Nat) : Int) % (cp.C.N : Int) := this
  rw [Int.emod_eq_of_lt (by omega) (by have := u.2; omega),
    Int.emod_eq_of_lt (by omega) (by have := v.2; omega)] at h2
  exact Fin.ext (by omega)

theorem unshift_emod (a c x n : Int) : (a + c * x - c * (x % n)) % n = a % n := by
  rw [show a + c * x - c * (x % n) = a + n * (c * (x / n)) by rw [Int.emod_def]; ring,
    Int.add_mul_emod_self_left]

theorem fin_emod {N : Nat} (s : Fin N) : ((s : Nat) : Int) % (N : Int) = (s : Nat) :=
  Int.emod_eq_of_lt (by omega) (by have := s.2; omega)

theorem eff_eq_zero (L : Lawful cp E) {a : E} : L.eff a = 0 ↔ a = 0 := by
  refine ⟨fun h => ?_, fun h => by rw [h, eff_zero]⟩
  rw [Lawful.eff] at h
  split at h
  · exact (L.g_ne h).elim
  · split at h
    · exact (L.hb_ne h).elim
    · exact h

theorem chal_hash (L : Lawful cp E) (h : Bytes → Bytes) (as : List E) :
    L.chal h as = (setBytes (h (hashed (as.map L.pe))) : Int) % (cp.C.N : Int) := by
  rw [hashed_pe, Lawful.chal, generateChallenge]

/-! ## GSPFS -/

/-- GSPFS proofs and their simulator.  See gspfs.go:43-69. -/
noncomputable def gspfsSimulation (L : Lawful cp E) (hs : Small L) (b : E) (hb : L.MultOk b) (hb0 : b ≠ 0)
    (x : Int) (S : Finset Bytes)
    (hS : ∀ (h : Bytes → Bytes) (u : Fin cp.C.N), askGo (gspfsAsk (L.pe (x • b)))
      (newGSPFSProofBase h cp (L.pe b) (L.pe (x • b)) x (u : Nat)) ∈ S) :
    Simulation S (Fin cp.C.N) (Go (Option GSPFSProof × Option Err)) where
  com u := ⟨hashed ([x • b, ((u : Nat) : Int) • b].map L.pe), by
    have := hS (fun _ => []) u
    rw [newGSPFSProofBase_ok, (L.multOk_iff_eff b).1 hb] at this
    exact this⟩
  pf u d := .ok (some ⟨L.pe b, L.pe (((u : Nat) : Int) • b),
        some ((((u : Nat) : Int) - (setBytes d : Int) % (cp.C.N : Int) * (x % (cp.C.N : Int))) %
          (cp.C.N : Int)), some ((setBytes d : Int) % (cp.C.N : Int))⟩, none)
  e ω := shiftFin cp.C.N L.prime.pos (chalOf cp.C.N ω * x)
  κ := 33
  hκ c := (num_com (fun u : Fin cp.C.N => hashed ([x • b, ((u : Nat) : Int) • b].map L.pe))
    (fun u => size (L.pe (((u : Nat) : Int) • b)).X) (fun u v h1 h2 => by
      rw [hashed_pe, hashed_pe] at h1
      simp only [List.map_cons, List.map_nil, List.flatten_cons, List.flatten_nil, List.append_nil] at h1
      exact fin_eq_of_smul L hb0 (one_point L hs (List.append_cancel_left h1) h2)) c).trans
        (by rw [Fintype.card_fin])
  prove u h := newGSPFSProofBase h cp (L.pe b) (L.pe (x • b)) x (u : Nat)
  simu s ω := simGSPFS cp (L.pe b) (L.pe (x • b)) (chalOf cp.C.N ω) (s : Nat)
  ask := askGo (gspfsAsk (L.pe (x • b)))
  hp u h := by
    have he := newGSPFSProofBase_ok L h b x (u : Nat)
    rw [(L.multOk_iff_eff b).1 hb, chal_hash] at he
    exact he
  hs s ω := by
    have e1 : ((((s : Nat) : Int) + chalOf cp.C.N ω * x) % (cp.C.N : Int) -
        chalOf cp.C.N ω * (x % (cp.C.N : Int))) % (cp.C.N : Int) = ((s : Nat) : Int) := by
      rw [Int.emod_sub_emod, unshift_emod, fin_emod]
    rw [show (setBytes (bytesOf ω) : Int) % (cp.C.N : Int) = chalOf cp.C.N ω from rfl]
    simp only [simGSPFS, L.mult_pe, L.commitR_pe, L.add_pe, Go.bind_ok, Go.pure_eq,
      (L.multOk_iff_eff b).1 hb, val_shiftFin, L.smul_mod]
    rw [e1]
    congr 5
    module
  ha u d := rfl

/-- C137.  Who asks at most `q` questions to a random SHA-256 before it gets a GSPFS proof, and as many as it
likes after, cannot tell the proof of the code from one made by the simulator, which does not get `x`: the
probabilities of every verdict differ by at most 33 q / N.  In the simulated game SHA-256 has its answer at
the one string of the proof replaced by the simulator's. -/
theorem C137_gspfs_zero_knowledge (L : Lawful cp E) (hs : Small L) (b : E) (hb : L.MultOk b) (hb0 : b ≠ 0)
    (x : Int) {σ : Type} (D1 : Adv σ) (D2 : σ → Go (Option GSPFSProof × Option Err) → Adv Bool) (q : Nat)
    (hq : ∀ h, D1.count h ≤ q) (S : Finset Bytes)
    (hS : ∀ (h : Bytes → Bytes) (u : Fin cp.C.N), askGo (gspfsAsk (L.pe (x • b)))
      (newGSPFSProofBase h cp (L.pe b) (L.pe (x • b)) x (u : Nat)) ∈ S) :
    |(prob fun z : (S → Word) × Fin cp.C.N => realBit D1 D2
        (fun h => newGSPFSProofBase h cp (L.pe b) (L.pe (x • b)) x (z.2 : Nat)) (hashOf S z.1) = true) -
      (prob fun z : (S → Word) × Fin cp.C.N × Word => simBit D1 D2
        (simGSPFS cp (L.pe b) (L.pe (x • b)) (chalOf cp.C.N z.2.2) (z.2.1 : Nat))
        (askGo (gspfsAsk (L.pe (x • b)))
          (simGSPFS cp (L.pe b) (L.pe (x • b)) (chalOf cp.C.N z.2.2) (z.2.1 : Nat)))
        (bytesOf z.2.2) (hashOf S z.1) = true)| ≤ 33 * q / cp.C.N := by
  have : Nonempty (Fin cp.C.N) := ⟨⟨0, L.prime.pos⟩⟩
  refine (zk_close S (gspfsSimulation L hs b hb hb0 x S hS) D1 D2 q hq).trans (le_of_eq ?_)
  rw [Fintype.card_fin, show (gspfsSimulation L hs b hb hb0 x S hS).κ = 33 from rfl]
  push_cast
  ring

/-- C137 for many proofs: a distinguisher who asks for up to `n` proofs of the same statement and asks at most
`q` questions, in any order, cannot tell the prover from the simulator. -/
theorem C137_gspfs_many (L : Lawful cp E) (hs : Small L) (b : E) (hb : L.MultOk b) (hb0 : b ≠ 0)
    (x : Int) (n q : Nat) (D : Dist (Go (Option GSPFSProof × Option Err))) (hq : D.AtMost q)
    (S : Finset Bytes)
    (hS : ∀ (h : Bytes → Bytes) (u : Fin cp.C.N), askGo (gspfsAsk (L.pe (x • b)))
      (newGSPFSProofBase h cp (L.pe b) (L.pe (x • b)) x (u : Nat)) ∈ S) :
    |(prob fun z : (S → Word) × (Fin n → Fin cp.C.N) => D.real
        (fun (u : Fin cp.C.N) h => newGSPFSProofBase h cp (L.pe b) (L.pe (x • b)) x (u : Nat)) z.2
        (hashOf S z.1) = true) -
      (prob fun z : (S → Word) × (Fin n → Fin cp.C.N × Word) => D.sim
        (fun (s : Fin cp.C.N) ω => simGSPFS cp (L.pe b) (L.pe (x • b)) (chalOf cp.C.N ω) (s : Nat))
        (askGo (gspfsAsk (L.pe (x • b)))) z.2 (hashOf S z.1) = true)| ≤
      33 * (n * (q + n)) / cp.C.N := by
  have : Nonempty (Fin cp.C.N) := ⟨⟨0, L.prime.pos⟩⟩
  refine (many_close S (gspfsSimulation L hs b hb hb0 x S hS) n D q hq).trans (le_of_eq ?_)
  rw [Fintype.card_fin, show (gspfsSimulation L hs b hb hb0 x S hS).κ = 33 from rfl]
  push_cast
  ring

/-! ## Equivalence -/

/-- Equivalence proofs and their simulator.  See equivalence.go:38-79. -/
noncomputable def equivalenceSimulation (L : Lawful cp E) (hs : Small L) (b1 r1 b2 r2 : E) (hb0 : b1 ≠ 0)
    (x : Int) (h1 : mult cp (L.pe b1) (some x) = .ok (L.pe r1))
    (h2 : mult cp (L.pe b2) (some x) = .ok (L.pe r2)) (S : Finset Bytes)
    (hS : ∀ (h : Bytes → Bytes) (u : Fin cp.C.N),
      askGo (equivalenceAsk (L.pe b1) (L.pe r1) (L.pe b2) (L.pe r2))
        (newEquivalenceProof h cp (L.pe b1) (L.pe r1) (L.pe b2) (L.pe r2) x (u : Nat)) ∈ S) :
    Simulation S (Fin cp.C.N) (Go (Option EquivalenceProof × Option Err)) where
  com u := ⟨hashed (([b1, r1, b2, r2] ++
      [((u : Nat) : Int) • L.eff b1, ((u : Nat) : Int) • L.eff b2]).map L.pe), by
    rw [L.mult_pe, Go.ok.injEq, L.pe_inj] at h1 h2
    have := hS (fun _ => []) u
    rw [newEquivalenceProof_ok L _ b1 r1 b2 r2 x _ h1.symm h2.symm] at this
    exact this⟩
  pf u d := .ok (some ⟨L.pe (((u : Nat) : Int) • L.eff b1), L.pe (((u : Nat) : Int) • L.eff b2),
        some ((setBytes d : Int) % (cp.C.N : Int)),
        some ((((u : Nat) : Int) + (setBytes d : Int) % (cp.C.N : Int) * (x % (cp.C.N : Int))) %
          (cp.C.N : Int))⟩, none)
  e ω := shiftFin cp.C.N L.prime.pos (-(chalOf cp.C.N ω * x))
  κ := 35937
  hκ c := (num_com (fun u : Fin cp.C.N => hashed (([b1, r1, b2, r2] ++
      [((u : Nat) : Int) • L.eff b1, ((u : Nat) : Int) • L.eff b2]).map L.pe))
      (fun u => tag2 (L.pe (((u : Nat) : Int) • L.eff b1)) (L.pe (((u : Nat) : Int) • L.eff b2)))
        (fun _ _ h1 h2 => fin_eq_of_smul L (mt (eff_eq_zero L).1 hb0)
          (same_commits L hs [b1, r1, b2, r2] h1 h2).1) c).trans (by rw [card_tag2])
  prove u h := newEquivalenceProof h cp (L.pe b1) (L.pe r1) (L.pe b2) (L.pe r2) x (u : Nat)
  simu s ω := simEquivalence cp (L.pe b1) (L.pe r1) (L.pe b2) (L.pe r2) (chalOf cp.C.N ω) (s : Nat)
  ask := askGo (equivalenceAsk (L.pe b1) (L.pe r1) (L.pe b2) (L.pe r2))
  hp u h := by
    rw [L.mult_pe, Go.ok.injEq, L.pe_inj] at h1 h2
    rw [newEquivalenceProof_ok L _ b1 r1 b2 r2 x _ h1.symm h2.symm, chal_hash]
    rfl
  hs s ω := by
    rw [L.mult_pe, Go.ok.injEq, L.pe_inj] at h1 h2
    rw [show (setBytes (bytesOf ω) : Int) % (cp.C.N : Int) = chalOf cp.C.N ω from rfl]
    simp only [simEquivalence, L.mult_pe, L.commitR_pe, L.sub_pe, Go.bind_ok, Go.pure_eq,
      val_shiftFin, L.smul_mod, add_mul_mod_emod, Int.emod_add_emod, neg_add_cancel_right, fin_emod]
    rw [← h1, ← h2]
    congr 4
    · congr 1; module
    · congr 1; module
  ha u d := rfl

/-- C138.  The same for equivalence proofs, with 35937 = 33^3 in place of 33. -/
theorem C138_equivalence_zero_knowledge (L : Lawful cp E) (hs : Small L) (b1 r1 b2 r2 : E) (hb0 : b1 ≠ 0)
    (x : Int) (h1 : mult cp (L.pe b1) (some x) = .ok (L.pe r1))
    (h2 : mult cp (L.pe b2) (some x) = .ok (L.pe r2)) {σ : Type} (D1 : Adv σ)
    (D2 : σ → Go (Option EquivalenceProof × Option Err) → Adv Bool) (q : Nat)
    (hq : ∀ h, D1.count h ≤ q) (S : Finset Bytes)
    (hS : ∀ (h : Bytes → Bytes) (u : Fin cp.C.N),
      askGo (equivalenceAsk (L.pe b1) (L.pe r1) (L.pe b2) (L.pe r2))
        (newEquivalenceProof h cp (L.pe b1) (L.pe r1) (L.pe b2) (L.pe r2) x (u : Nat)) ∈ S) :
    |(prob fun z : (S → Word) × Fin cp.C.N => realBit D1 D2
        (fun h => newEquivalenceProof h cp (L.pe b1) (L.pe r1) (L.pe b2) (L.pe r2) x (z.2 : Nat))
        (hashOf S z.1) = true) -
      (prob fun z : (S → Word) × Fin cp.C.N × Word => simBit D1 D2
        (simEquivalence cp (L.pe b1) (L.pe r1) (L.pe b2) (L.pe r2) (chalOf cp.C.N z.2.2) (z.2.1 : Nat))
        (askGo (equivalenceAsk (L.pe b1) (L.pe r1) (L.pe b2) (L.pe r2))
          (simEquivalence cp (L.pe b1) (L.pe r1) (L.pe b2) (L.pe r2) (chalOf cp.C.N z.2.2)
            (z.2.1 : Nat)))
        (bytesOf z.2.2) (hashOf S z.1) = true)| ≤ 35937 * q / cp.C.N := by
  have : Nonempty (Fin cp.C.N) := ⟨⟨0, L.prime.pos⟩⟩
  refine (zk_close S (equivalenceSimulation L hs b1 r1 b2 r2 hb0 x h1 h2 S hS) D1 D2 q hq).trans
    (le_of_eq ?_)
  rw [Fintype.card_fin, show (equivalenceSimulation L hs b1 r1 b2 r2 hb0 x h1 h2 S hS).κ = 35937 from rfl]
  push_cast
  ring

/-- C138 for many proofs. -/
theorem C138_equivalence_many (L : Lawful cp E) (hs : Small L) (b1 r1 b2 r2 : E) (hb0 : b1 ≠ 0)
    (x : Int) (h1 : mult cp (L.pe b1) (some x) = .ok (L.pe r1))
    (h2 : mult cp (L.pe b2) (some x) = .ok (L.pe r2)) (n q : Nat)
    (D : Dist (Go (Option EquivalenceProof × Option Err))) (hq : D.AtMost q) (S : Finset Bytes)
    (hS : ∀ (h : Bytes → Bytes) (u : Fin cp.C.N),
      askGo (equivalenceAsk (L.pe b1) (L.pe r1) (L.pe b2) (L.pe r2))
        (newEquivalenceProof h cp (L.pe b1) (L.pe r1) (L.pe b2) (L.pe r2) x (u : Nat)) ∈ S) :
    |(prob fun z : (S → Word) × (Fin n → Fin cp.C.N) => D.real
        (fun (u : Fin cp.C.N) h => newEquivalenceProof h cp (L.pe b1) (L.pe r1) (L.pe b2) (L.pe r2) x (u : Nat)) z.2
        (hashOf S z.1) = true) -
      (prob fun z : (S → Word) × (Fin n → Fin cp.C.N × Word) => D.sim
        (fun (s : Fin cp.C.N) ω => simEquivalence cp (L.pe b1) (L.pe r1) (L.pe b2) (L.pe r2) (chalOf cp.C.N ω) (s : Nat))
        (askGo (equivalenceAsk (L.pe b1) (L.pe r1) (L.pe b2) (L.pe r2))) z.2 (hashOf S z.1) = true)| ≤
      35937 * (n * (q + n)) / cp.C.N := by
  have : Nonempty (Fin cp.C.N) := ⟨⟨0, L.prime.pos⟩⟩
  refine (many_close S (equivalenceSimulation L hs b1 r1 b2 r2 hb0 x h1 h2 S hS) n D q hq).trans
    (le_of_eq ?_)
  rw [Fintype.card_fin, show (equivalenceSimulation L hs b1 r1 b2 r2 hb0 x h1 h2 S hS).κ = 35937 from rfl]
  push_cast
  ring

/-! ## Consistency -/

/-- Consistency proofs and their simulator.  See consistency.go:45-88. -/
noncomputable def consistencySimulation (L : Lawful cp E) (hs : Small L) (cm tok pk : E) (hpk : pk ≠ 0)
    (v r : Int) (h1 : pedCommitR cp (some v) (some r) = .ok (L.pe cm))
    (h2 : mult cp (L.pe pk) (some r) = .ok (L.pe tok)) (S : Finset Bytes)
    (hS : ∀ (h : Bytes → Bytes) (u : Fin cp.C.N × Fin cp.C.N),
      askGo (consistencyAsk cp (L.pe cm) (L.pe tok) (L.pe pk))
        (newConsistencyProof h cp (L.pe cm) (L.pe tok) (L.pe pk) v r (u.1 : Nat) (u.2 : Nat)) ∈ S) :
    Simulation S (Fin cp.C.N × Fin cp.C.N) (Go (Option ConsistencyProof × Option Err)) where
  com u := ⟨hashed (([L.g, L.h, cm, tok, pk] ++ [((u.1 : Nat) : Int) • L.g + ((u.2 : Nat) : Int) • L.hb,
      ((u.2 : Nat) : Int) • L.eff pk]).map L.pe), by
    rw [L.pedCommitR_pe, Go.ok.injEq, L.pe_inj] at h1
    rw [L.mult_pe, Go.ok.injEq, L.pe_inj] at h2
    have := hS (fun _ => []) u
    rw [newConsistencyProof_ok L _ cm tok pk v r _ _ h1.symm h2.symm] at this
    simp only [askGo, consistencyAsk, L.G_pe, L.H_pe] at this
    exact this⟩
  pf u d := .ok (some ⟨L.pe (((u.1 : Nat) : Int) • L.g + ((u.2 : Nat) : Int) • L.hb),
        L.pe (((u.2 : Nat) : Int) • L.eff pk), some ((setBytes d : Int) % (cp.C.N : Int)),
        some ((((u.1 : Nat) : Int) + v * ((setBytes d : Int) % (cp.C.N : Int))) % (cp.C.N : Int)),
        some ((((u.2 : Nat) : Int) + r * ((setBytes d : Int) % (cp.C.N : Int))) % (cp.C.N : Int))⟩, none)
  e ω := (shiftFin cp.C.N L.prime.pos (-(v * chalOf cp.C.N ω))).prodCongr
      (shiftFin cp.C.N L.prime.pos (-(r * chalOf cp.C.N ω)))
  κ := 35937
  hκ c := (num_com (fun u : Fin cp.C.N × Fin cp.C.N => hashed (([L.g, L.h, cm, tok, pk] ++
      [((u.1 : Nat) : Int) • L.g + ((u.2 : Nat) : Int) • L.hb,
        ((u.2 : Nat) : Int) • L.eff pk]).map L.pe))
      (fun u => tag2 (L.pe (((u.1 : Nat) : Int) • L.g + ((u.2 : Nat) : Int) • L.hb))
        (L.pe (((u.2 : Nat) : Int) • L.eff pk)))
      (fun u v h1 h2 => by
        obtain ⟨e1, e2⟩ := same_commits L hs [L.g, L.h, cm, tok, pk] h1 h2
        have h3 : u.2 = v.2 := fin_eq_of_smul L (mt (eff_eq_zero L).1 hpk) e2
        rw [h3] at e1
        exact Prod.ext (fin_eq_of_smul L L.g_ne (add_right_cancel e1)) h3) c).trans (by rw [card_tag2])
  prove u h := newConsistencyProof h cp (L.pe cm) (L.pe tok) (L.pe pk) v r (u.1 : Nat) (u.2 : Nat)
  simu s ω := simConsistency cp (L.pe cm) (L.pe tok) (L.pe pk) (chalOf cp.C.N ω) (s.1 : Nat) (s.2 : Nat)
  ask := askGo (consistencyAsk cp (L.pe cm) (L.pe tok) (L.pe pk))
  hp u h := by
    rw [L.pedCommitR_pe, Go.ok.injEq, L.pe_inj] at h1
    rw [L.mult_pe, Go.ok.injEq, L.pe_inj] at h2
    rw [newConsistencyProof_ok L _ cm tok pk v r _ _ h1.symm h2.symm, chal_hash]
    rfl
  hs s ω := by
    rw [L.pedCommitR_pe, Go.ok.injEq, L.pe_inj] at h1
    rw [L.mult_pe, Go.ok.injEq, L.pe_inj] at h2
    rw [show (setBytes (bytesOf ω) : Int) % (cp.C.N : Int) = chalOf cp.C.N ω from rfl]
    simp only [simConsistency, L.mult_pe, L.pedCommitR_pe, L.commitR_pe, L.sub_pe, Go.bind_ok,
      Go.pure_eq, Equiv.prodCongr_apply, Prod.map_fst, Prod.map_snd, val_shiftFin, L.smul_mod,
      Int.emod_add_emod, neg_add_cancel_right, fin_emod]
    rw [← h1, ← h2]
    congr 4
    · congr 1; module
    · congr 1; module
  ha u d := by
    simp only [askGo, consistencyAsk, L.G_pe, L.H_pe]
    rfl

/-- C139.  The same for consistency proofs, which draw two numbers. -/
theorem C139_consistency_zero_knowledge (L : Lawful cp E) (hs : Small L) (cm tok pk : E) (hpk : pk ≠ 0)
    (v r : Int) (h1 : pedCommitR cp (some v) (some r) = .ok (L.pe cm))
    (h2 : mult cp (L.pe pk) (some r) = .ok (L.pe tok)) {σ : Type} (D1 : Adv σ)
    (D2 : σ → Go (Option ConsistencyProof × Option Err) → Adv Bool) (q : Nat)
    (hq : ∀ h, D1.count h ≤ q) (S : Finset Bytes)
    (hS : ∀ (h : Bytes → Bytes) (u : Fin cp.C.N × Fin cp.C.N),
      askGo (consistencyAsk cp (L.pe cm) (L.pe tok) (L.pe pk))
        (newConsistencyProof h cp (L.pe cm) (L.pe tok) (L.pe pk) v r (u.1 : Nat) (u.2 : Nat)) ∈ S) :
    |(prob fun z : (S → Word) × Fin cp.C.N × Fin cp.C.N => realBit D1 D2
        (fun h => newConsistencyProof h cp (L.pe cm) (L.pe tok) (L.pe pk) v r (z.2.1 : Nat) (z.2.2 : Nat))
        (hashOf S z.1) = true) -
      (prob fun z : (S → Word) × (Fin cp.C.N × Fin cp.C.N) × Word => simBit D1 D2
        (simConsistency cp (L.pe cm) (L.pe tok) (L.pe pk) (chalOf cp.C.N z.2.2) (z.2.1.1 : Nat)
          (z.2.1.2 : Nat))
        (askGo (consistencyAsk cp (L.pe cm) (L.pe tok) (L.pe pk))
          (simConsistency cp (L.pe cm) (L.pe tok) (L.pe pk) (chalOf cp.C.N z.2.2) (z.2.1.1 : Nat)
            (z.2.1.2 : Nat)))
        (bytesOf z.2.2) (hashOf S z.1) = true)| ≤ 35937 * q / (cp.C.N : ℝ) ^ 2 := by
  have : Nonempty (Fin cp.C.N) := ⟨⟨0, L.prime.pos⟩⟩
  refine (zk_close S (consistencySimulation L hs cm tok pk hpk v r h1 h2 S hS) D1 D2 q hq).trans
    (le_of_eq ?_)
  rw [Fintype.card_prod, Fintype.card_fin,
    show (consistencySimulation L hs cm tok pk hpk v r h1 h2 S hS).κ = 35937 from rfl]
  push_cast
  ring

/-- C139 for many proofs. -/
theorem C139_consistency_many (L : Lawful cp E) (hs : Small L) (cm tok pk : E) (hpk : pk ≠ 0)
    (v r : Int) (h1 : pedCommitR cp (some v) (some r) = .ok (L.pe cm))
    (h2 : mult cp (L.pe pk) (some r) = .ok (L.pe tok)) (n q : Nat)
    (D : Dist (Go (Option ConsistencyProof × Option Err))) (hq : D.AtMost q) (S : Finset Bytes)
    (hS : ∀ (h : Bytes → Bytes) (u : Fin cp.C.N × Fin cp.C.N),
      askGo (consistencyAsk cp (L.pe cm) (L.pe tok) (L.pe pk))
        (newConsistencyProof h cp (L.pe cm) (L.pe tok) (L.pe pk) v r (u.1 : Nat) (u.2 : Nat)) ∈ S) :
    |(prob fun z : (S → Word) × (Fin n → Fin cp.C.N × Fin cp.C.N) => D.real
        (fun (u : Fin cp.C.N × Fin cp.C.N) h => newConsistencyProof h cp (L.pe cm) (L.pe tok) (L.pe pk) v r (u.1 : Nat) (u.2 : Nat)) z.2
        (hashOf S z.1) = true) -
      (prob fun z : (S → Word) × (Fin n → (Fin cp.C.N × Fin cp.C.N) × Word) => D.sim
        (fun (s : Fin cp.C.N × Fin cp.C.N) ω => simConsistency cp (L.pe cm) (L.pe tok) (L.pe pk) (chalOf cp.C.N ω) (s.1 : Nat)
          (s.2 : Nat))
        (askGo (consistencyAsk cp (L.pe cm) (L.pe tok) (L.pe pk))) z.2 (hashOf S z.1) = true)| ≤
      35937 * (n * (q + n)) / (cp.C.N : ℝ) ^ 2 := by
  have : Nonempty (Fin cp.C.N) := ⟨⟨0, L.prime.pos⟩⟩
  refine (many_close S (consistencySimulation L hs cm tok pk hpk v r h1 h2 S hS) n D q hq).trans
    (le_of_eq ?_)
  rw [Fintype.card_prod, Fintype.card_fin,
    show (consistencySimulation L hs cm tok pk hpk v r h1 h2 S hS).κ = 35937 from rfl]
  push_cast
  ring

/-- A distinguisher who asks once before, and then once more to check the challenge (for examples;
gspfs.go:72-98). -/
def askAround {P : Type} (b : Bytes) (ask : Option P → Bytes) (chal : Option P → Option Int) (N : Nat) :
    Adv Bytes × (Bytes → Go (Option P × Option Err) → Adv Bool) :=
  (askOnce b id, fun d r => match r with
    | .ok (p, _) => askOnce (ask p) fun d' => decide (d ≠ d' ∧ chal p = some ((setBytes d' : Int) % N))
    | _ => .out false)

/-- A distinguisher who gets two proofs, with two questions in between (for examples; gspfs.go:72-98). -/
def twoProofs {P : Type} (ask : Option P → Bytes) : Dist (Go (Option P × Option Err)) :=
  .prove fun r => .ask (askGo ask r) fun d => .ask d fun d' => .prove fun r' =>
    .out (decide (askGo ask r' = askGo ask r ∨ d = d'))

theorem atMost_twoProofs {P : Type} (ask : Option P → Bytes) : (twoProofs ask).AtMost 2 :=
  fun _ => ⟨1, rfl, fun _ => ⟨0, rfl, fun _ _ => trivial⟩⟩

/-- A finite set that contains some strings (for examples; crypto.go:254-262). -/
theorem exists_strings {U : Type} [Fintype U] (com : U → Bytes) : ∃ S : Finset Bytes, ∀ u, com u ∈ S := by
  classical
  exact ⟨Finset.univ.image com, fun u => Finset.mem_image_of_mem com (Finset.mem_univ u)⟩

/-- There are sets for C137-C139. -/
theorem gspfs_strings (L : Lawful cp E) (b : E) (x : Int) : ∃ S : Finset Bytes,
    ∀ (h : Bytes → Bytes) (u : Fin cp.C.N), askGo (gspfsAsk (L.pe (x • b)))
      (newGSPFSProofBase h cp (L.pe b) (L.pe (x • b)) x (u : Nat)) ∈ S := by
  obtain ⟨S, hS⟩ := exists_strings fun u : Fin cp.C.N =>
    hashed [L.pe (x • b), L.pe (((u : Nat) : Int) • L.eff b)]
  refine ⟨S, fun h u => ?_⟩
  rw [newGSPFSProofBase_ok]
  exact hS u

theorem equivalence_strings (L : Lawful cp E) (b1 b2 : E) (x : Int) : ∃ S : Finset Bytes,
    ∀ (h : Bytes → Bytes) (u : Fin cp.C.N), askGo (equivalenceAsk (L.pe b1) (L.pe (x • L.eff b1))
      (L.pe b2) (L.pe (x • L.eff b2))) (newEquivalenceProof h cp (L.pe b1) (L.pe (x • L.eff b1))
        (L.pe b2) (L.pe (x • L.eff b2)) x (u : Nat)) ∈ S := by
  obtain ⟨S, hS⟩ := exists_strings fun u : Fin cp.C.N => hashed [L.pe b1, L.pe (x • L.eff b1), L.pe b2,
    L.pe (x • L.eff b2), L.pe (((u : Nat) : Int) • L.eff b1), L.pe (((u : Nat) : Int) • L.eff b2)]
  refine ⟨S, fun h u => ?_⟩
  rw [newEquivalenceProof_ok L h _ _ _ _ _ _ rfl rfl]
  exact hS u

theorem consistency_strings (L : Lawful cp E) (pk : E) (v r : Int) : ∃ S : Finset Bytes,
    ∀ (h : Bytes → Bytes) (u : Fin cp.C.N × Fin cp.C.N),
      askGo (consistencyAsk cp (L.pe (v • L.g + r • L.hb)) (L.pe (r • L.eff pk)) (L.pe pk))
        (newConsistencyProof h cp (L.pe (v • L.g + r • L.hb)) (L.pe (r • L.eff pk)) (L.pe pk) v r
          (u.1 : Nat) (u.2 : Nat)) ∈ S := by
  obtain ⟨S, hS⟩ := exists_strings fun u : Fin cp.C.N × Fin cp.C.N => hashed [cp.G, cp.H,
    L.pe (v • L.g + r • L.hb), L.pe (r • L.eff pk), L.pe pk,
    L.pe (((u.1 : Nat) : Int) • L.g + ((u.2 : Nat) : Int) • L.hb), L.pe (((u.2 : Nat) : Int) • L.eff pk)]
  refine ⟨S, fun h u => ?_⟩
  rw [newConsistencyProof_ok L h _ _ _ _ _ _ _ rfl rfl]
  exact hS u

/-- The hypotheses of C137-C139 are met by `TestCurve`, the points 5 G and 5 H, the commitment to 3 with 5, the
public key H and a distinguisher who asks once before; the bounds are tiny. -/
example : Small Curve.lawful ∧ Curve.lawful.MultOk Curve.lawful.g ∧ Curve.lawful.g ≠ 0 ∧
    Curve.lawful.h ≠ 0 ∧
    (∀ h, (askAround (P := GSPFSProof) [7] (gspfsAsk (Curve.lawful.pe ((5 : Int) • Curve.lawful.g)))
      (fun p => p.bind (·.Challenge)) Curve.tc.C.N).1.count h ≤ 1) ∧
    (twoProofs (P := GSPFSProof) (gspfsAsk (Curve.lawful.pe ((5 : Int) • Curve.lawful.g)))).AtMost 2 ∧
    (∃ S : Finset Bytes, ∀ (h : Bytes → Bytes) (u : Fin Curve.tc.C.N),
      askGo (gspfsAsk (Curve.lawful.pe ((5 : Int) • Curve.lawful.g)))
        (newGSPFSProofBase h Curve.tc (Curve.lawful.pe Curve.lawful.g)
          (Curve.lawful.pe ((5 : Int) • Curve.lawful.g)) 5 (u : Nat)) ∈ S) ∧
    (∃ r1 r2, mult Curve.tc (Curve.lawful.pe Curve.lawful.g) (some 5) = .ok (Curve.lawful.pe r1) ∧
      mult Curve.tc (Curve.lawful.pe Curve.lawful.h) (some 5) = .ok (Curve.lawful.pe r2) ∧
      ∃ S : Finset Bytes, ∀ (h : Bytes → Bytes) (u : Fin Curve.tc.C.N),
        askGo (equivalenceAsk (Curve.lawful.pe Curve.lawful.g) (Curve.lawful.pe r1)
          (Curve.lawful.pe Curve.lawful.h) (Curve.lawful.pe r2))
          (newEquivalenceProof h Curve.tc (Curve.lawful.pe Curve.lawful.g) (Curve.lawful.pe r1)
            (Curve.lawful.pe Curve.lawful.h) (Curve.lawful.pe r2) 5 (u : Nat)) ∈ S) ∧
    (∃ cm tok, pedCommitR Curve.tc (some 3) (some 5) = .ok (Curve.lawful.pe cm) ∧
      mult Curve.tc (Curve.lawful.pe Curve.lawful.h) (some 5) = .ok (Curve.lawful.pe tok) ∧
      ∃ S : Finset Bytes, ∀ (h : Bytes → Bytes) (u : Fin Curve.tc.C.N × Fin Curve.tc.C.N),
        askGo (consistencyAsk Curve.tc (Curve.lawful.pe cm) (Curve.lawful.pe tok)
          (Curve.lawful.pe Curve.lawful.h))
          (newConsistencyProof h Curve.tc (Curve.lawful.pe cm) (Curve.lawful.pe tok)
            (Curve.lawful.pe Curve.lawful.h) 3 5 (u.1 : Nat) (u.2 : Nat)) ∈ S) ∧
    (33 * (1 : ℕ) / Curve.tc.C.N : ℝ) < 1 / 2 ^ 240 := by
  refine ⟨small_testCurve, (Curve.lawful.multOk_iff_eff _).2 Curve.lawful.eff_g, Curve.lawful.g_ne,
    Curve.lawful.h_ne, fun h => le_rfl, atMost_twoProofs _, gspfs_strings _ _ _,
    ⟨_, _, Curve.lawful.mult_pe _ _, Curve.lawful.mult_pe _ _, equivalence_strings _ _ _ _⟩,
    ⟨_, _, Curve.lawful.pedCommitR_pe _ _, Curve.lawful.mult_pe _ _, consistency_strings _ _ _ _⟩, ?_⟩
  have : (2 : ℝ) ^ 255 < Curve.tc.C.N := by
    have : 2 ^ 255 < Curve.tc.C.N := by decide +kernel
    exact_mod_cast this
  rw [div_lt_div_iff₀ (by linarith [pow_pos (show (0 : ℝ) < 2 by norm_num) 255]) (by positivity)]
  norm_num at this ⊢
  linarith

end Zk.Rom
