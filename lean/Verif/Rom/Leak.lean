import Verif.Rom.AbcProps
import Verif.Rom.ZkProps

/-! # What responses that are not reduced tell an observer, and ABC proofs made without the secret key -/

namespace Zk.Rom

open Zk Zk.Proto

variable {cp : Params} {E : Type} [AddCommGroup E]

/-- The quotient of response and challenge and the 2^k numbers below it.  The response is not reduced.  See
disjunctive.go:127-151. -/
def quotients (k : Nat) : Option Int → Option Int → List Int
  | some c, some s => (List.range (2 ^ k + 1)).map fun i : Nat => s / c - i
  | _, _ => []

/-- What an observer tries for the witness of a disjunctive proof.  See disjunctive.go:127-151. -/
def disjGuesses (k : Nat) (pr : DisjunctiveProof) : List Int := quotients k pr.C1 pr.S1 ++ quotients k pr.C2 pr.S2

/-- Is `y` the secret key of the public key?  See crypto.go:54-63. -/
def isKey (cp : Params) (pk : ECPoint) (y : Int) : Bool :=
  match mult cp cp.H (some y) with
  | .ok p => decide (p = pk)
  | _ => false

/-- What an observer computes from an ABC proof and a public key: the first guess for the nested proof that is the
secret key of this public key.  See abc.go:98-100. -/
def findKey (cp : Params) (k : Nat) (pk : ECPoint) (pr : ABCProof) : Option Int :=
  (match pr.disjuncAC with
  | some d => disjGuesses k d
  | none => []).find? (isKey cp pk)

theorem mem_quotients {k N : Nat} {c x u : Int} (hu : 0 ≤ u ∧ u < N) (hc : (N : Int) ≤ 2 ^ k * c) :
    x ∈ quotients k (some c) (some (u + c * x)) := by
  have hc0 : 0 < c := by
    by_contra h
    have : (2 ^ k : Int) * c ≤ 0 := mul_nonpos_of_nonneg_of_nonpos (by positivity) (by omega)
    omega
  have hq : u / c < 2 ^ k := Int.ediv_lt_of_lt_mul hc0 (by omega)
  have hq0 : 0 ≤ u / c := Int.ediv_nonneg hu.1 hc0.le
  simp only [quotients, List.mem_map, List.mem_range]
  refine ⟨(u / c).toNat, ?_, ?_⟩
  · have : ((u / c).toNat : Int) < ((2 ^ k + 1 : ℕ) : Int) := by
      rw [Int.toNat_of_nonneg hq0]; push_cast; omega
    exact_mod_cast this
  · rw [Int.toNat_of_nonneg hq0, Int.add_mul_ediv_left _ _ hc0.ne']
    omega

/-- The observer finds the key if it is among the guesses. -/
theorem findKey_eq (L : Lawful cp E) {k : Nat} {sk : Int} {pr : ABCProof} {d : DisjunctiveProof}
    (hd : pr.disjuncAC = some d) (h : sk % (cp.C.N : Int) ∈ disjGuesses k d) :
    ∃ y, findKey cp k (L.pe (sk • L.hb)) pr = some y ∧ y ≡ sk [ZMOD cp.C.N] := by
  have hm : ∀ y : Int, mult cp cp.H (some y) = .ok (L.pe (y • L.hb)) := fun y => by
    rw [L.H_pe, L.mult_pe, L.eff_h]
  have hiff : ∀ y : Int, isKey cp (L.pe (sk • L.hb)) y = true ↔ y ≡ sk [ZMOD cp.C.N] := fun y => by
    simp only [isKey, hm, decide_eq_true_eq]
    rw [L.pe_inj, L.smul_eq_smul L.hb_ne]; rfl
  have hsome : (findKey cp k (L.pe (sk • L.hb)) pr).isSome := by
    simp only [findKey, hd]
    rw [List.find?_isSome]
    exact ⟨_, h, (hiff _).2 (Int.mod_modEq sk _)⟩
  obtain ⟨y, hy⟩ := Option.isSome_iff_exists.1 hsome
  refine ⟨y, hy, (hiff y).1 ?_⟩
  simp only [findKey, hd] at hy
  exact List.find?_some hy

/-- Few answers give a challenge that is close to `u`. -/
theorem num_near (N : Nat) (hN : 0 < N) (u : Int) (k : Nat) :
    (num fun ω : Word => 2 ^ k * ((chalOf N ω - u) % (N : Int)) < N) ≤ (N / 2 ^ k + 1 : ℕ) * perChal N := by
  refine (num_mono (Q := fun ω => chalOf N ω ∈ (fun m : Nat => (m + u) % (N : Int)) ''
    ((Finset.range (N / 2 ^ k + 1) : Finset Nat) : Set Nat)) ?_).trans (num_chals N _ _ ?_)
  · intro ω h
    have hN' : (N : Int) ≠ 0 := by exact_mod_cast hN.ne'
    have h0 := Int.emod_nonneg (chalOf N ω - u) hN'
    refine ⟨((chalOf N ω - u) % (N : Int)).toNat, ?_, ?_⟩
    · rw [Finset.mem_coe, Finset.mem_range, Nat.lt_succ_iff, Nat.le_div_iff_mul_le (by positivity)]
      have : (((chalOf N ω - u) % (N : Int)).toNat : Int) * 2 ^ k < N := by
        rw [Int.toNat_of_nonneg h0, mul_comm]; exact h
      exact_mod_cast this.le
    · simp only [Int.toNat_of_nonneg h0]
      rw [Int.emod_add_emod, sub_add_cancel]
      exact Int.emod_emod_of_dvd _ dvd_rfl
  · refine (Set.encard_image_le _ _).trans ?_
    rw [Set.encard_coe_eq_coe_finsetCard, Finset.card_range]

theorem prob_not {X : Type} [Fintype X] [Nonempty X] {P Q : X → Prop} {r : ℝ} (h : ∀ x, ¬ Q x → P x)
    (hr : prob Q ≤ r) : 1 - r ≤ prob P := by
  have h1 : (1 : ℝ) = prob fun _ : X => True := (prob_one fun _ => trivial).symm
  have h2 : (prob fun _ : X => True) ≤ prob P + prob Q := by
    refine (prob_mono fun x _ => ?_).trans prob_or
    by_cases hq : Q x
    · exact .inr hq
    · exact .inl (h x hq)
  linarith

/-! ## Right proofs without the secret key -/

/-- The points that the nested proof of a right proof hashes.  See disjunctive.go:122-124. -/
noncomputable def nested (L : Lawful cp E) (cm tok : E) (rnd : ABCRand) : List E :=
  [cm, tok, L.h, rnd.uc • L.hb, rnd.d2 • L.eff cm - rnd.d3 • L.eff tok, rnd.d1 • L.eff L.h]

theorem rightProof_const (L : Lawful cp E) (hash : Bytes → Bytes) (cm tok : E) (rnd : ABCRand) :
    rightProof L hash cm tok L.h (rnd.uc • L.hb) rnd.uc rnd.d1 rnd.d2 rnd.d3 =
      rightProof L (fun _ => hash (hashed ((nested L cm tok rnd).map L.pe))) cm tok L.h (rnd.uc • L.hb) rnd.uc
        rnd.d1 rnd.d2 rnd.d3 := by
  simp only [rightProof, chal_hash]
  rfl

/-- The right proof, given the answers `d₀` for the nested proof and `d` for the proof.  See abc.go:61-170. -/
noncomputable def rightABC (L : Lawful cp E) (cm tok : E) (v w sk isk : Int) (rnd : ABCRand) (d d₀ : Bytes) :
    Go (Option ABCProof × Option Err) :=
  let c := (setBytes d : Int) % (cp.C.N : Int)
  .ok (some ⟨L.pe (w • L.g + rnd.ub • L.hb), L.pe (L.g + rnd.uc • L.hb),
    L.pe (rnd.u1 • L.g + rnd.u2 • L.eff tok),
    L.pe (rnd.u1 • L.eff (w • L.g + rnd.ub • L.hb) + rnd.u3 • L.hb), some c,
    some ((rnd.u1 + v * c) % (cp.C.N : Int)), some ((rnd.u2 + isk * c) % (cp.C.N : Int)),
    some (rnd.u3 + (rnd.uc - v * rnd.ub) * c), L.pe (rnd.uc • L.eff (sk • L.hb)),
    some (rightProof L (fun _ => d₀) cm tok L.h (rnd.uc • L.hb) rnd.uc rnd.d1 rnd.d2 rnd.d3)⟩, none)

/-- The points that a right proof hashes.  See abc.go:141-144. -/
noncomputable def outer (L : Lawful cp E) (cm tok : E) (w : Int) (rnd : ABCRand) : List E :=
  [L.g, L.h, cm, tok, w • L.g + rnd.ub • L.hb, L.g + rnd.uc • L.hb, rnd.u1 • L.g + rnd.u2 • L.eff tok,
    rnd.u1 • L.eff (w • L.g + rnd.ub • L.hb) + rnd.u3 • L.hb]

theorem newABCProof_rightABC (L : Lawful cp E) (hash : Bytes → Bytes) (cm tok : E) (v w sk isk : Int)
    (rnd : ABCRand) (hv : v ≠ 0) (hw : modInverse v cp.C.N = some w) (hi : modInverse sk cp.C.N = some isk) :
    newABCProof hash cp (L.pe cm) (L.pe tok) v sk Right rnd =
      rightABC L cm tok v w sk isk rnd (hash (hashed ((outer L cm tok w rnd).map L.pe)))
        (hash (hashed ((nested L cm tok rnd).map L.pe))) := by
  have hsame : L.same (rnd.uc • L.eff L.h) (rnd.uc • L.hb) = true := by rw [L.eff_h, L.same_self]
  have e : L.g + rnd.uc • L.hb - L.g = rnd.uc • L.hb := by abel
  simp only [newABCProof, L.H_pe, L.mult_pe, L.eff_h, Go.bind_ok, and_false, if_false, Ne, hv,
    not_false_eq_true, and_self, if_true, hw, L.pedCommitR_pe, one_smul, L.G_pe, L.sub_pe, e,
    newDisjunctiveProof_right L hash cm tok L.h (rnd.uc • L.hb) rnd.uc rnd.d1 rnd.d2 rnd.d3 hsame,
    Option.isSome_none, Bool.false_eq_true, L.finishABC_pe _ _ _ _ _ _ _ _ _ _ _ hi, rightABC,
    ← rightProof_const, chal_hash, outer]

/-- A simulator of right proofs that knows the value and the public key, but neither the secret key nor the opening
of the commitment.  It makes B, C and the nested proof as the library does, draws the response `k` instead of
the number u2 of the prover, and is given the challenge `c`.  See abc.go:61-170. -/
def simKeyless (hash : Bytes → Bytes) (cp : Params) (CM CMTok PubKey : ECPoint) (v : Int) (rnd : ABCRand) (k c : Int) :
    Go (Option ABCProof × Option Err) := do
  let CToken ← mult cp PubKey (some rnd.uc)
  let B ← pedCommitR cp (modInverse v cp.C.N) (some rnd.ub)
  let C ← pedCommitR cp (some 1) (some rnd.uc)
  let D ← sub cp C cp.G
  let r ← newDisjunctiveProof hash cp CM CMTok cp.H D rnd.uc Right rnd.d1 rnd.d2 rnd.d3
  let a ← mult cp cp.G (some (rnd.u1 + v * c))
  let b ← mult cp CMTok (some k)
  let x ← add cp a b
  let y ← commitR cp CM c
  let T1 ← sub cp x y
  let a ← mult cp B (some rnd.u1)
  let b ← mult cp cp.H (some rnd.u3)
  let T2 ← add cp a b
  pure (some ⟨B, C, T1, T2, some c, some ((rnd.u1 + v * c) % (cp.C.N : Int)), some k,
    some (rnd.u3 + (rnd.uc - v * rnd.ub) * c), CToken, r.1⟩, none)

theorem simKeyless_eq (L : Lawful cp E) (hash : Bytes → Bytes) (cm tok : E) (v w ua sk isk : Int)
    (rnd : ABCRand) (k d : Int) (hcm : v • L.g + ua • L.hb = cm) (htok : (ua * sk) • L.hb = tok)
    (o : L.eff tok = tok) (hw : modInverse v cp.C.N = some w) (hi : isk * sk ≡ 1 [ZMOD cp.C.N])
    (hk : 0 ≤ k ∧ k < cp.C.N) (b : Bytes) (hd : d = (setBytes b : Int) % (cp.C.N : Int)) :
    simKeyless hash cp (L.pe cm) (L.pe tok) (L.pe (sk • L.hb)) v rnd k d =
      rightABC L cm tok v w sk isk { rnd with u2 := (k + -(isk * d)) % (cp.C.N : Int) } b
        (hash (hashed ((nested L cm tok rnd).map L.pe))) := by
  have hsame : L.same (rnd.uc • L.eff L.h) (rnd.uc • L.hb) = true := by rw [L.eff_h, L.same_self]
  have e : L.g + rnd.uc • L.hb - L.g = rnd.uc • L.hb := by abel
  have h1 : (isk * sk) • L.hb = L.hb := by rw [L.smul_congr hi, one_smul]
  have h2 : isk • tok = ua • L.hb := by
    rw [← htok, smul_smul, show isk * (ua * sk) = ua * (isk * sk) by ring, mul_smul, h1]
  have ek : ((k + -(isk * d)) % (cp.C.N : Int) + isk * d) % (cp.C.N : Int) = k := by
    rw [Int.emod_add_emod, neg_add_cancel_right, Int.emod_eq_of_lt hk.1 hk.2]
  have e1 : (rnd.u1 + v * d) • L.g + k • L.eff tok - d • cm =
      rnd.u1 • L.g + ((k + -(isk * d)) % (cp.C.N : Int)) • L.eff tok := by
    rw [L.smul_mod, o, ← hcm]
    linear_combination (norm := module) d • h2
  simp only [simKeyless, L.H_pe, L.mult_pe, L.eff_h, Go.bind_ok, hw, L.pedCommitR_pe, one_smul, L.G_pe, L.sub_pe, e,
    newDisjunctiveProof_right L hash cm tok L.h (rnd.uc • L.hb) rnd.uc rnd.d1 rnd.d2 rnd.d3 hsame, L.eff_g,
    L.add_pe, L.commitR_pe, Go.pure_eq, rightABC, ← hd, ek, e1]
  rw [rightProof_const]

end Zk.Rom
