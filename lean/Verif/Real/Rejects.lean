import Verif.Proto.AbcProps
import Mathlib.Data.Nat.Prime.Int

/-!
# Honest proofs that are rejected

For every lawful curve and every hash function: which draws make `Verify` reject an honest proof
about -G.
-/

namespace Zk.Proto

open Zk

variable {cp : Params} {E : Type} [AddCommGroup E]

namespace Lawful

variable (L : Lawful cp E)

include L

/-- N is odd. -/
theorem dvd_two_mul {z : Int} (h : (cp.C.N : Int) ∣ 2 * z) : (cp.C.N : Int) ∣ z := by
  have hp : Prime (cp.C.N : Int) := Nat.prime_iff_prime_int.1 L.prime
  rcases hp.dvd_or_dvd h with h | h
  · have := Int.le_of_dvd (by norm_num) h
    have := L.five_lt
    omega
  · exact h

theorem two_g {z : Int} (h : (2 * z) • L.g = 0) : (cp.C.N : Int) ∣ z :=
  L.dvd_two_mul ((L.smul_eq_zero L.g_ne).1 h)

/-- C27 at -G. -/
theorem gspfs_rejects (hash : Bytes → Bytes) (u : Int)
    (hc : ¬ (cp.C.N : Int) ∣ L.chal hash [-L.g, u • L.g])
    (hu : ¬ (cp.C.N : Int) ∣ u + L.chal hash [-L.g, u • L.g]) :
    ∃ pr, newGSPFSProof hash cp (L.pe (-L.g)) (-1) u = .ok (some pr, none) ∧
      ∃ e, gspfsVerify hash cp (some pr) (L.pe (-L.g)) = .ok (reject e) := by
  have e1 : (-1 : Int) • L.g = -L.g := by module
  have h1 := newGSPFSProofBase_ok L hash L.g (-1) u
  rw [e1, L.eff_g] at h1
  refine ⟨_, by rw [newGSPFSProof, L.G_pe]; exact h1, ?_⟩
  refine (L.gspfsVerify_pe_total ..).resolve_left fun h => ?_
  obtain ⟨_, h⟩ := (L.gspfsVerify_pe_iff ..).1 h
  rw [L.eff_neg_g, L.eff_g, L.smul_mod, sub_smul, mul_smul, L.smul_mod, L.same_iff] at h
  generalize L.chal hash [-L.g, u • L.g] = c at *
  rcases h with h | h
  · exact hc (L.two_g (by linear_combination (norm := module) -h))
  · exact hu (L.two_g (by linear_combination (norm := module) h))

/-- C32 at -G. -/
theorem equivalence_rejects (hash : Bytes → Bytes) (u : Int) (hu : ¬ (cp.C.N : Int) ∣ u)
    (hc : ¬ (cp.C.N : Int) ∣ L.chal hash [L.g, -L.g, L.g, -L.g, u • L.g, u • L.g]) :
    ∃ pr, newEquivalenceProof hash cp (L.pe L.g) (L.pe (-L.g)) (L.pe L.g) (L.pe (-L.g)) (-1) u =
        .ok (some pr, none) ∧
      equivalenceVerify hash cp (some pr) (L.pe L.g) (L.pe (-L.g)) (L.pe L.g) (L.pe (-L.g)) ≠
        .ok accept := by
  have hr : -L.g = (-1 : Int) • L.eff L.g := by rw [L.eff_g, neg_smul, one_smul]
  have h1 := newEquivalenceProof_ok L hash L.g (-L.g) L.g (-L.g) (-1) u hr hr
  rw [L.eff_g] at h1
  refine ⟨_, h1, fun h => ?_⟩
  obtain ⟨_, h, _⟩ := (L.equivalenceVerify_iff ..).1 h
  rw [L.eff_neg_g, L.eff_g, L.smul_mod, add_smul, mul_smul, L.smul_mod, L.same_iff] at h
  generalize L.chal hash [L.g, -L.g, L.g, -L.g, u • L.g, u • L.g] = c at *
  rcases h with h | h
  · exact hc (L.two_g (by linear_combination (norm := module) -h))
  · exact hu (L.two_g (by linear_combination (norm := module) h))

/-- C37 at -G, which is the commitment to -1 with blinding factor 0. -/
theorem consistency_rejects (hash : Bytes → Bytes) (u : Int) (hu : ¬ (cp.C.N : Int) ∣ u)
    (hc : ¬ (cp.C.N : Int) ∣ L.chal hash [L.g, L.h, -L.g, 0, L.g, u • L.g, 0]) :
    pedCommitR cp (some (-1)) (some 0) = .ok (L.pe (-L.g)) ∧
    mult cp (L.pe L.g) (some 0) = .ok (L.pe 0) ∧
    ∃ pr, newConsistencyProof hash cp (L.pe (-L.g)) (L.pe 0) (L.pe L.g) (-1) 0 u 0 =
        .ok (some pr, none) ∧
      consistencyVerify hash cp (some pr) (L.pe (-L.g)) (L.pe 0) (L.pe L.g) ≠ .ok accept := by
  have e1 : u • L.g + (0 : Int) • L.hb = u • L.g := by module
  have e2 : (0 : Int) • L.eff L.g = 0 := by module
  have h1 := newConsistencyProof_ok L hash (-L.g) 0 L.g (-1) 0 u 0 (by module) (by module)
  rw [e1, e2] at h1
  refine ⟨by rw [L.pedCommitR_pe]; congr 2; module, by rw [L.mult_pe, zero_smul], _, h1, fun h => ?_⟩
  obtain ⟨_, h, _⟩ := (L.consistencyVerify_iff ..).1 h
  rw [L.eff_neg_g, L.smul_mod, L.smul_mod, L.same_iff] at h
  generalize L.chal hash [L.g, L.h, -L.g, 0, L.g, u • L.g, 0] = c at *
  rcases h with h | h
  · exact hc (L.two_g (by linear_combination (norm := module) -h))
  · exact hu (L.two_g (by linear_combination (norm := module) h))

/-- C41 at -G. -/
theorem disjunctive_rejects (hash : Bytes → Bytes) (u : Int) (hu : ¬ (cp.C.N : Int) ∣ u)
    (hc : ¬ (cp.C.N : Int) ∣ L.chal hash [L.g, -L.g, L.g, L.g, u • L.g, 0]) :
    ∃ pr, newDisjunctiveProof hash cp (L.pe L.g) (L.pe (-L.g)) (L.pe L.g) (L.pe L.g) (-1) Left u 0 0 =
        .ok (some pr, none) ∧
      disjunctiveVerify hash cp (some pr) (L.pe L.g) (L.pe (-L.g)) (L.pe L.g) (L.pe L.g) ≠
        .ok accept := by
  have h1 := newDisjunctiveProof_left L hash L.g (-L.g) L.g L.g (-1) u 0 0
    (by rw [L.eff_g, neg_smul, one_smul, L.same_self])
  have e2 : (0 : Int) • L.g - (0 : Int) • L.g = 0 := by module
  simp only [leftProof, L.eff_g, e2, sub_zero] at h1
  refine ⟨_, h1, fun h => ?_⟩
  obtain ⟨_, _, h, _⟩ := (L.disjunctiveVerify_iff ..).1 h
  rw [L.eff_neg_g, L.eff_g, L.smul_mod, add_smul, mul_smul, L.smul_mod, L.smul_mod, L.same_iff] at h
  generalize L.chal hash [L.g, -L.g, L.g, L.g, u • L.g, 0] = c at *
  rcases h with h | h
  · exact hc (L.two_g (by linear_combination (norm := module) h))
  · exact hu (L.two_g (by linear_combination (norm := module) h))

/-- C45 at -G, which is the commitment to -1 with blinding factor 0. -/
theorem abc_rejects (hash : Bytes → Bytes) (u : Int) (hu : ¬ (cp.C.N : Int) ∣ u)
    (hc : ¬ (cp.C.N : Int) ∣ L.chal hash [L.g, L.h, -L.g, 0, -L.g, L.g, u • L.g, u • L.g]) :
    pedCommitR cp (some (-1)) (some 0) = .ok (L.pe (-L.g)) ∧
    ∃ pr, newABCProof hash cp (L.pe (-L.g)) (L.pe 0) (-1) 1 Right ⟨u, 0, 0, 0, 0, 0, 0, 0⟩ =
        .ok (some pr, none) ∧
      abcVerify hash cp (some pr) (L.pe (-L.g)) (L.pe 0) ≠ .ok accept := by
  have hN := L.five_lt
  have h1 : ¬ (cp.C.N : Int) ∣ 1 := by
    intro h; have := Int.le_of_dvd (by norm_num) h; omega
  have h1' : ¬ (cp.C.N : Int) ∣ -1 := by rwa [Int.dvd_neg]
  obtain ⟨isk, hi, _⟩ := modInverse_some L.prime h1
  obtain ⟨w, hw1, hw2⟩ := modInverse_some L.prime h1'
  obtain ⟨ct, hr⟩ := newABCProof_right L hash (-L.g) 0 (-1) w 1 ⟨u, 0, 0, 0, 0, 0, 0, 0⟩
    (by decide) hw1
  have ew : w • L.g + (0 : Int) • L.hb = -L.g := by
    have : (w * -1) • L.g = L.g := by rw [L.smul_congr hw2, one_smul]
    linear_combination (norm := module) -this
  have eC : L.g + (0 : Int) • L.hb = L.g := by module
  have et : u • L.g + (0 : Int) • L.eff (0 : E) = u • L.g := by module
  have et2 : u • L.eff (-L.g) + (0 : Int) • L.hb = u • L.g := by rw [L.eff_neg_g]; module
  rw [L.finishABC_pe _ _ _ _ _ _ _ _ _ _ _ hi] at hr
  simp only [ew, eC, et, et2] at hr
  refine ⟨by rw [L.pedCommitR_pe]; congr 2; module, _, hr, fun h => ?_⟩
  obtain ⟨_, _, h, _⟩ := (L.abcVerify_iff ..).1 h
  rw [L.eff_neg_g, L.smul_mod, L.eff_zero, L.same_iff] at h
  generalize L.chal hash [L.g, L.h, -L.g, 0, -L.g, L.g, u • L.g, u • L.g] = c at *
  rcases h with h | h
  · exact hc (L.two_g (by linear_combination (norm := module) h))
  · exact hu (L.two_g (by linear_combination (norm := module) h))

end Lawful
end Zk.Proto
