import Verif.Rom.LeakProps

/-! # What the responses of a right ABC proof tell about the value -/

namespace Zk.Rom

open Zk Zk.Proto

variable {cp : Params} {E : Type} [AddCommGroup E]

/-- Is C = v B + w H?  See crypto.go:113-127, 202-208. -/
def fits (cp : Params) (B C : ECPoint) (v w : Int) : Bool :=
  match (do let a ← commitR cp B v; let b ← mult cp cp.H (some w); add cp a b) with
  | .ok a => decide (a = C)
  | _ => false

/-- The test of an observer whether an ABC proof was made with the value `v`: it tries the quotient of the unreduced
response l by the challenge, and the 2^k numbers below.  See abc.go:157-159. -/
def testValue (cp : Params) (k : Nat) (pr : ABCProof) (v : Int) : Bool :=
  (quotients k pr.Challenge pr.l).any (fits cp pr.B pr.C v)

theorem fits_iff (L : Lawful cp E) (b c : E) (v w : Int) :
    fits cp (L.pe b) (L.pe c) v w = true ↔ v • b + w • L.hb = c := by
  simp only [fits, L.commitR_pe, L.H_pe, L.mult_pe, L.eff_h, L.add_pe, Go.bind_ok, decide_eq_true_eq, L.pe_inj]

theorem length_quotients (k : Nat) (c s : Option Int) : (quotients k c s).length ≤ 2 ^ k + 1 := by
  unfold quotients
  split
  · rw [List.length_map, List.length_range]
  · simp

/-- Few values pass the test. -/
theorem card_testValue (L : Lawful cp E) {b c : E} (hb : b ≠ 0) {k : Nat} {pr : ABCProof} (hB : pr.B = L.pe b)
    (hC : pr.C = L.pe c) (A : Finset Int)
    (hA : ∀ v ∈ A, 0 ≤ v ∧ v < cp.C.N ∧ testValue cp k pr v = true) : A.card ≤ 2 ^ k + 1 := by
  have hex : ∀ v ∈ A, ∃ w ∈ quotients k pr.Challenge pr.l, v • b + w • L.hb = c := by
    intro v hv
    have := (hA v hv).2.2
    rw [testValue, List.any_eq_true] at this
    obtain ⟨m, hm, h⟩ := this
    rw [hB, hC, fits_iff] at h
    exact ⟨m, hm, h⟩
  choose! f hf hfe using hex
  have h1 : A.card ≤ (quotients k pr.Challenge pr.l).toFinset.card := by
    refine Finset.card_le_card_of_injOn f (fun v hv => List.mem_toFinset.2 (hf v hv)) ?_
    intro v hv v' hv' he
    have e : v • b = v' • b := by
      have h1 := hfe v hv
      rw [← hfe v' hv', he] at h1
      exact add_right_cancel h1
    rw [L.smul_eq_smul hb, Int.emod_eq_of_lt (hA v hv).1 (hA v hv).2.1,
      Int.emod_eq_of_lt (hA v' hv').1 (hA v' hv').2.1] at e
    exact e
  exact h1.trans ((List.toFinset_card_le _).trans (length_quotients k _ _))

/-! ## Right proofs whose response l is reduced -/

/-- The result of the prover with the response l reduced modulo N, as j and k are.  See abc.go:147-159. -/
def reduceL (N : Nat) : Go (Option ABCProof × Option Err) → Go (Option ABCProof × Option Err)
  | .ok (some pr, e) => .ok (some { pr with l := pr.l.map (· % (N : Int)) }, e)
  | r => r

/-- A simulator of right proofs that is given the statement, the public key and the point B, but neither the value nor
the secret key nor an opening of the commitment.  It makes C and the nested proof as the library does, draws the
responses j, k and l, and is given the challenge `c`.  See abc.go:61-170. -/
def simValueless (hash : Bytes → Bytes) (cp : Params) (CM CMTok PubKey B : ECPoint) (rnd : ABCRand) (j k l c : Int) :
    Go (Option ABCProof × Option Err) := do
  let CToken ← mult cp PubKey (some rnd.uc)
  let C ← pedCommitR cp (some 1) (some rnd.uc)
  let D ← sub cp C cp.G
  let r ← newDisjunctiveProof hash cp CM CMTok cp.H D rnd.uc Right rnd.d1 rnd.d2 rnd.d3
  let a ← mult cp cp.G (some j)
  let b ← mult cp CMTok (some k)
  let x ← add cp a b
  let y ← commitR cp CM c
  let T1 ← sub cp x y
  let a ← mult cp B (some j)
  let b ← mult cp cp.H (some l)
  let x ← add cp a b
  let y ← commitR cp C c
  let T2 ← sub cp x y
  pure (some ⟨B, C, T1, T2, some c, some j, some k, some l, CToken, r.1⟩, none)

theorem simValueless_eq (L : Lawful cp E) (hash : Bytes → Bytes) (cm tok : E) (v w ua sk isk : Int)
    (rnd : ABCRand) (j k l d : Int) (hcm : v • L.g + ua • L.hb = cm) (htok : (ua * sk) • L.hb = tok)
    (o : L.eff tok = tok) (oB : L.eff (w • L.g + rnd.ub • L.hb) = w • L.g + rnd.ub • L.hb)
    (hw : w * v ≡ 1 [ZMOD cp.C.N]) (hi : isk * sk ≡ 1 [ZMOD cp.C.N])
    (hj : 0 ≤ j ∧ j < cp.C.N) (hk : 0 ≤ k ∧ k < cp.C.N) (hl : 0 ≤ l ∧ l < cp.C.N) (b : Bytes)
    (hd : d = (setBytes b : Int) % (cp.C.N : Int)) :
    simValueless hash cp (L.pe cm) (L.pe tok) (L.pe (sk • L.hb)) (L.pe (w • L.g + rnd.ub • L.hb)) rnd j k l d =
      reduceL cp.C.N (rightABC L cm tok v w sk isk { rnd with
          u1 := (j + -(v * d)) % (cp.C.N : Int)
          u2 := (k + -(isk * d)) % (cp.C.N : Int)
          u3 := (l + -((rnd.uc - v * rnd.ub) * d)) % (cp.C.N : Int) } b
        (hash (hashed ((nested L cm tok rnd).map L.pe)))) := by
  have hsame : L.same (rnd.uc • L.eff L.h) (rnd.uc • L.hb) = true := by rw [L.eff_h, L.same_self]
  have e : L.g + rnd.uc • L.hb - L.g = rnd.uc • L.hb := by abel
  have h1 : (isk * sk) • L.hb = L.hb := by rw [L.smul_congr hi, one_smul]
  have h2 : isk • tok = ua • L.hb := by
    rw [← htok, smul_smul, show isk * (ua * sk) = ua * (isk * sk) by ring, mul_smul, h1]
  have h3 : (w * v) • L.g = L.g := by rw [L.smul_congr hw, one_smul]
  have ek : ∀ x y : Int, 0 ≤ x ∧ x < cp.C.N → ((x + -y) % (cp.C.N : Int) + y) % (cp.C.N : Int) = x := by
    intro x y hx
    rw [Int.emod_add_emod, neg_add_cancel_right, Int.emod_eq_of_lt hx.1 hx.2]
  have e1 : j • L.g + k • L.eff tok - d • cm =
      ((j + -(v * d)) % (cp.C.N : Int)) • L.g + ((k + -(isk * d)) % (cp.C.N : Int)) • L.eff tok := by
    rw [L.smul_mod, L.smul_mod, o, ← hcm]
    linear_combination (norm := module) d • h2
  have e2 : j • L.eff (w • L.g + rnd.ub • L.hb) + l • L.hb - d • (L.g + rnd.uc • L.hb) =
      ((j + -(v * d)) % (cp.C.N : Int)) • L.eff (w • L.g + rnd.ub • L.hb) +
        ((l + -((rnd.uc - v * rnd.ub) * d)) % (cp.C.N : Int)) • L.hb := by
    rw [L.smul_mod, L.smul_mod, oB]
    linear_combination (norm := module) d • h3
  simp only [simValueless, L.H_pe, L.mult_pe, L.eff_h, Go.bind_ok, L.pedCommitR_pe, one_smul, L.G_pe, L.sub_pe, e,
    newDisjunctiveProof_right L hash cm tok L.h (rnd.uc • L.hb) rnd.uc rnd.d1 rnd.d2 rnd.d3 hsame, L.eff_g,
    L.add_pe, L.commitR_pe, Go.pure_eq, rightABC, reduceL, Option.map_some, ← hd, ek _ _ hj, ek _ _ hk, ek _ _ hl,
    e1, e2]
  rw [rightProof_const]

/-! ## Averages -/

theorem prob_mid {X V U : Type} [Fintype X] [Fintype V] [Fintype U] (P : X → V → U → Prop) :
    (prob fun z : X × V × U => P z.1 z.2.1 z.2.2) = (∑ v, prob fun z : X × U => P z.1 v z.2) / Fintype.card V := by
  classical
  have h : (num fun z : X × V × U => P z.1 z.2.1 z.2.2) = ∑ v, num fun z : X × U => P z.1 v z.2 := by
    simp only [num_eq_sum, Fintype.sum_prod_type]
    exact Finset.sum_comm
  simp only [prob, h, ← Finset.sum_div, Fintype.card_prod, Nat.cast_mul]
  rw [div_div]
  congr 1
  ring

theorem prob_le_one {X : Type} [Fintype X] {P : X → Prop} : prob P ≤ 1 := by
  rw [prob]
  exact div_le_one_of_le₀ num_le_card (Nat.cast_nonneg _)

theorem num_le_one {X : Type} [Fintype X] {P : X → Prop} (h : ∀ x y, P x → P y → x = y) : num P ≤ 1 := by
  classical
  rw [num_eq]
  exact_mod_cast Finset.card_le_one.2 fun x hx y hy =>
    h x y (Finset.mem_filter.1 hx).2 (Finset.mem_filter.1 hy).2

/-- Two averages are close if their terms are, up to some bad ones. -/
theorem avg_close {V : Type} [Fintype V] [Nonempty V] (p s : V → ℝ) (hp : ∀ v, 0 ≤ p v ∧ p v ≤ 1)
    (hs : ∀ v, 0 ≤ s v ∧ s v ≤ 1) (σ : V ≃ V) (Bad : V → Prop) (n : ℝ) (hn : num Bad ≤ n) (ε : ℝ) (hε : 0 ≤ ε)
    (h : ∀ v, ¬ Bad v → |p v - s (σ v)| ≤ ε) :
    |(∑ v, p v) / Fintype.card V - (∑ v, s v) / Fintype.card V| ≤ ε + n / Fintype.card V := by
  classical
  have hV : (0 : ℝ) < Fintype.card V := Nat.cast_pos.2 Fintype.card_pos
  rw [← Equiv.sum_comp σ s, ← sub_div, ← Finset.sum_sub_distrib, abs_div, abs_of_pos hV, div_le_iff₀ hV]
  have h1 : ∀ v, |p v - s (σ v)| ≤ ε + if Bad v then (1 : ℝ) else 0 := by
    intro v
    by_cases hb : Bad v
    · rw [if_pos hb, abs_le]
      constructor <;> linarith [hp v, hs (σ v), (hp v).1, (hp v).2, (hs (σ v)).1, (hs (σ v)).2]
    · rw [if_neg hb, add_zero]; exact h v hb
  refine (Finset.abs_sum_le_sum_abs _ _).trans ((Finset.sum_le_sum fun v _ => h1 v).trans ?_)
  rw [Finset.sum_add_distrib, ← num_eq_sum, Finset.sum_const, Finset.card_univ, nsmul_eq_mul, add_mul,
    div_mul_cancel₀ _ hV.ne']
  linarith

end Zk.Rom
