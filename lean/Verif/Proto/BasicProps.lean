import Verif.Proto.Toy
import Mathlib.GroupTheory.SpecificGroups.Cyclic

/-! # Properties C17-C26, C31, C58, C59: points, commitments, challenges -/

namespace Zk.Proto

open Zk

variable {cp : Params} {E : Type} [AddCommGroup E]

/-! ## Equal -/

/-- C17 as a user needs it: `Equal` decides equality of curve points.  See crypto.go:78-83. -/
def EqualIsEquality (L : Lawful cp E) : Prop :=
  ∀ a b : E, equal (L.pe a) (L.pe b) = .ok true ↔ a = b

/-- C18. `Equal` decides equality up to sign, and never panics on curve points. -/
theorem C18_equal_up_to_sign (L : Lawful cp E) (a b : E) :
    (equal (L.pe a) (L.pe b) = .ok true ↔ a = b ∨ a = -b) ∧
    (equal (L.pe a) (L.pe b) = .ok false ↔ ¬ (a = b ∨ a = -b)) := by
  rw [L.equal_pe]
  constructor
  · rw [Go.ok.injEq, L.same_iff]
  · rw [Go.ok.injEq, ← L.same_iff, Bool.not_eq_true]

/-- C17 is false on every lawful curve: G equals its negation. -/
theorem C17_refuted (L : Lawful cp E) : ¬ EqualIsEquality L := by
  intro h
  have h1 := (h L.g (-L.g)).1 ((C18_equal_up_to_sign L _ _).1.2 (Or.inr (by simp)))
  exact L.g_ne (L.neg_eq_self h1)

/-- C17, what holds: equal points are reported equal, and points that differ in the first
coordinate are told apart.  Missing: telling a point from its negation. -/
theorem C17_equal_partial (L : Lawful cp E) (a b : E) :
    (a = b → equal (L.pe a) (L.pe b) = .ok true) ∧
    (equal (L.pe a) (L.pe b) = .ok true → b ≠ -a → a = b) := by
  refine ⟨fun h => (C18_equal_up_to_sign L a b).1.2 (Or.inl h), fun h hn => ?_⟩
  rcases (C18_equal_up_to_sign L a b).1.1 h with h | h
  · exact h
  · exact absurd (by rw [h, neg_neg]) hn

/-! ## Mult -/

/-- C19 as a user needs it.  See crypto.go:86-110. -/
def MultIsScalarMult (L : Lawful cp E) : Prop :=
  ∀ (a : E) (s : Int), mult cp (L.pe a) (some s) = .ok (L.pe (s • a))

/-- C19 is false on every lawful curve: `Mult(-G, 1)` is `G`. -/
theorem C19_refuted (L : Lawful cp E) :
    mult cp (L.pe (-L.g)) (some 1) = .ok (L.pe L.g) ∧ ¬ MultIsScalarMult L := by
  have h1 : mult cp (L.pe (-L.g)) (some 1) = .ok (L.pe L.g) := by
    rw [L.mult_pe, L.eff_neg_g, one_smul]
  refine ⟨h1, fun h => ?_⟩
  have h2 := h (-L.g) 1
  rw [h1, one_smul, Go.ok.injEq, L.pe_inj] at h2
  exact L.g_ne (L.neg_eq_self h2)

/-- C19, what holds: `Mult` is scalar multiplication at every point other than `-G`, `H`, `-H`,
for every integer; at `H` it multiplies the base of the precomputed table instead, at `-G` it
multiplies `G`, and at `-H` the base of the table. -/
theorem C19_mult_partial (L : Lawful cp E) (a : E) (s : Int) :
    (a ≠ -L.g → a ≠ L.h → a ≠ -L.h → mult cp (L.pe a) (some s) = .ok (L.pe (s • a))) ∧
    mult cp (L.pe (-L.g)) (some s) = .ok (L.pe (s • L.g)) ∧
    mult cp (L.pe L.h) (some s) = .ok (L.pe (s • L.hb)) ∧
    mult cp (L.pe (-L.h)) (some s) = .ok (L.pe (s • L.hb)) := by
  refine ⟨fun h1 h2 h3 => ?_, ?_, ?_, ?_⟩
  · rw [L.mult_pe]
    by_cases hg : a = L.g
    · rw [hg, L.eff_g]
    · rw [Lawful.eff, if_neg (by tauto), if_neg (by tauto)]
  · rw [L.mult_pe, L.eff_neg_g]
  · rw [L.mult_pe, L.eff_h]
  · rw [L.mult_pe, L.eff_neg_h]

example : (5 : ZMod 7) ≠ 0 ∧ (3 : ZMod 7) ≠ -Toy.lawful.g ∧ (3 : ZMod 7) ≠ Toy.lawful.h ∧
    (3 : ZMod 7) ≠ -Toy.lawful.h := by decide

/-- C20. `Mult` sees the scalar only modulo N; a nil point gives a nil point. -/
theorem C20_mult_mod (L : Lawful cp E) :
    (∀ (a : E) (s t : Int), s ≡ t [ZMOD cp.C.N] →
      mult cp (L.pe a) (some s) = mult cp (L.pe a) (some t)) ∧
    (∀ s, mult cp nilPoint s = .ok nilPoint) := by
  refine ⟨fun a s t h => ?_, fun s => rfl⟩
  rw [L.mult_pe, L.mult_pe, L.smul_congr h]

example : (-3 : Int) ≡ 11 [ZMOD (Toy.params.C.N)] := by decide

/-! ## Group operations -/

/-- C21. `Add`, `Sub` and `Neg` are the group operations, the identity `(0,0)` included. -/
theorem C21_group_ops (L : Lawful cp E) (a b : E) :
    add cp (L.pe a) (L.pe b) = .ok (L.pe (a + b)) ∧
    sub cp (L.pe a) (L.pe b) = .ok (L.pe (a - b)) ∧
    neg cp (L.pe a) = .ok (L.pe (-a)) ∧ L.pe (0 : E) = pt 0 0 :=
  ⟨L.add_pe a b, L.sub_pe a b, L.neg_pe a, L.pe_zero⟩

/-! ## Pedersen commitments -/

/-- C22. Commitments can be added and subtracted. -/
theorem C22_homomorphic (L : Lawful cp E) (v1 r1 v2 r2 : Int) :
    (do let a ← pedCommitR cp (some v1) (some r1)
        let b ← pedCommitR cp (some v2) (some r2)
        add cp a b) = pedCommitR cp (some (v1 + v2)) (some (r1 + r2)) ∧
    (do let a ← pedCommitR cp (some v1) (some r1)
        let b ← pedCommitR cp (some v2) (some r2)
        sub cp a b) = pedCommitR cp (some (v1 - v2)) (some (r1 - r2)) ∧
    ∃ a : E, pedCommitR cp (some v1) (some r1) = .ok (L.pe a) := by
  simp only [L.pedCommitR_pe, Go.bind_ok, L.add_pe, L.sub_pe, Go.ok.injEq, L.pe_inj]
  exact ⟨by module, by module, _, rfl⟩

/-- C23. Honest openings are accepted, and `Open` sees its arguments modulo N only. -/
theorem C23_open_honest (L : Lawful cp E) (v r v' r' : Int) (hv : v ≡ v' [ZMOD cp.C.N])
    (hr : r ≡ r' [ZMOD cp.C.N]) :
    ∃ c, pedCommitR cp (some v) (some r) = .ok c ∧ open' cp v r c = .ok true ∧
      open' cp v' r' c = .ok true ∧ ∀ q : E, open' cp v r (L.pe q) = open' cp v' r' (L.pe q) := by
  refine ⟨_, L.pedCommitR_pe v r, ?_, ?_, fun q => ?_⟩
  · simp [open', L.pedCommitR_pe, L.equal_pe, L.same_self]
  · simp [open', L.pedCommitR_pe, L.equal_pe, L.smul_congr hv, L.smul_congr hr, L.same_self]
  · simp [open', L.pedCommitR_pe, L.equal_pe, L.smul_congr hv, L.smul_congr hr]

example : (5 : Int) ≡ -2 [ZMOD (Toy.params.C.N)] ∧ (100 : Int) ≡ 2 [ZMOD (Toy.params.C.N)] := by
  decide

/-- C24 as a user needs it: the accepted opening is the committed one, or the discrete logarithm of
the second base is a quotient of differences of the numbers involved.  See crypto.go:245-248. -/
def OpenBinding (L : Lawful cp E) : Prop :=
  ∀ (v r v' r' : Int) (c : ECPoint), pedCommitR cp (some v) (some r) = .ok c →
    open' cp v' r' c = .ok true →
    (v' ≡ v [ZMOD cp.C.N] ∧ r' ≡ r [ZMOD cp.C.N]) ∨ L.hb = (L.inv (r - r') * (v' - v)) • L.g

/-- C24, what holds: the accepted opening is the committed one or its negation, unless the discrete
logarithm of the second base is computed by one of two formulas.  Missing from the full claim: the
exclusion of the negated opening. -/
theorem C24_binding_partial (L : Lawful cp E) (v r v' r' : Int) (c : ECPoint)
    (hc : pedCommitR cp (some v) (some r) = .ok c) (ho : open' cp v' r' c = .ok true) :
    (v' ≡ v [ZMOD cp.C.N] ∧ r' ≡ r [ZMOD cp.C.N]) ∨
    (v' ≡ -v [ZMOD cp.C.N] ∧ r' ≡ -r [ZMOD cp.C.N]) ∨
    L.hb = (L.inv (r - r') * (v' - v)) • L.g ∨
    L.hb = (L.inv (-r - r') * (v' + v)) • L.g := by
  rw [L.pedCommitR_pe, Go.ok.injEq] at hc
  subst hc
  simp only [open', L.pedCommitR_pe, Go.bind_ok, L.equal_pe, Go.ok.injEq, L.same_iff] at ho
  rcases ho with h | h
  · by_cases hr : (cp.C.N : Int) ∣ r - r'
    · have h0 : (r - r') • L.hb = 0 := (L.smul_eq_zero L.hb_ne).2 hr
      have h1 : (v' - v) • L.g = 0 := by
        linear_combination (norm := module) h + h0
      have h2 := (L.smul_eq_zero L.g_ne).1 h1
      refine Or.inl ⟨?_, ?_⟩
      · rw [Int.modEq_iff_dvd]
        have : v - v' = -(v' - v) := by ring
        rw [this]; exact (Int.dvd_neg).2 h2
      · exact (Int.modEq_iff_dvd.2 hr)
    · right; right; left
      have h1 : (r - r') • L.hb = (v' - v) • L.g := by linear_combination (norm := module) -h
      rw [mul_smul, ← h1, L.inv_smul hr]
  · by_cases hr : (cp.C.N : Int) ∣ -r - r'
    · have h0 : (-r - r') • L.hb = 0 := (L.smul_eq_zero L.hb_ne).2 hr
      have h1 : (v' + v) • L.g = 0 := by
        linear_combination (norm := module) h + h0
      have h2 := (L.smul_eq_zero L.g_ne).1 h1
      refine Or.inr (Or.inl ⟨?_, ?_⟩)
      · rw [Int.modEq_iff_dvd]
        have : -v - v' = -(v' + v) := by ring
        rw [this]; exact (Int.dvd_neg).2 h2
      · exact (Int.modEq_iff_dvd.2 hr)
    · right; right; right
      have h1 : (-r - r') • L.hb = (v' + v) • L.g := by linear_combination (norm := module) -h
      rw [mul_smul, ← h1, L.inv_smul hr]

/-- C24 is false on every lawful curve: the commitment to 1 with blinding 0 opens as -1. -/
theorem C24_refuted (L : Lawful cp E) : ¬ OpenBinding L := by
  intro h
  have ho : open' cp (-1) 0 (L.pe ((1 : Int) • L.g + (0 : Int) • L.hb)) = .ok true := by
    simp [open', L.pedCommitR_pe, L.equal_pe, L.same_iff]
  have hN := L.five_lt
  rcases h 1 0 (-1) 0 _ (L.pedCommitR_pe 1 0) ho with ⟨h1, _⟩ | h1
  · have := Int.le_of_dvd (by norm_num) (Int.modEq_iff_dvd.1 h1)
    norm_num at this
    omega
  · have : Fact cp.C.N.Prime := ⟨L.prime⟩
    rw [mul_smul, Lawful.inv] at h1
    simp at h1
    exact L.hb_ne h1

/-- C24, further: the negated opening is always accepted. -/
theorem C24_negated_opening (L : Lawful cp E) (v r : Int) :
    ∃ c, pedCommitR cp (some v) (some r) = .ok c ∧ open' cp (-v) (-r) c = .ok true := by
  refine ⟨_, L.pedCommitR_pe v r, ?_⟩
  simp only [open', L.pedCommitR_pe, Go.bind_ok, L.equal_pe, Go.ok.injEq, L.same_iff]
  right; module

/-- C25. For every value the blinding factors in [0, N) and the group elements correspond one to
one: a commitment says nothing about the value. -/
theorem C25_hiding (L : Lawful cp E) (v : Int) :
    (∀ r : Fin cp.C.N, ∃ a : E, pedCommitR cp (some v) (some (r : Int)) = .ok (L.pe a)) ∧
    ∀ a : E, ∃! r : Fin cp.C.N, pedCommitR cp (some v) (some (r : Int)) = .ok (L.pe a) := by
  refine ⟨fun r => ⟨_, L.pedCommitR_pe _ _⟩, fun a => ?_⟩
  have hN := L.N_pos
  have : Fact (Nat.card E).Prime := ⟨by rw [L.card]; exact L.prime⟩
  have hmem : a - v • L.g ∈ AddSubgroup.zmultiples L.hb :=
    mem_zmultiples_of_prime_card (p := Nat.card E) rfl L.hb_ne
  obtain ⟨k, hk⟩ := AddSubgroup.mem_zmultiples_iff.1 hmem
  have h0 : 0 ≤ k % (cp.C.N : Int) := Int.emod_nonneg _ (by omega)
  have h1 : k % (cp.C.N : Int) < cp.C.N := Int.emod_lt_of_pos _ (by omega)
  refine ⟨⟨(k % (cp.C.N : Int)).toNat, by omega⟩, ?_, fun r hr => ?_⟩
  · simp only [L.pedCommitR_pe, Go.ok.injEq, L.pe_inj, Int.toNat_of_nonneg h0, L.smul_mod, hk]
    module
  · simp only [L.pedCommitR_pe, Go.ok.injEq, L.pe_inj] at hr
    have h2 : (r : Int) • L.hb = k • L.hb := by rw [hk, ← hr]; module
    have h3 := (L.smul_eq_smul L.hb_ne).1 h2
    have h4 : (r : Int) % (cp.C.N : Int) = r := Int.emod_eq_of_lt (by omega) (by omega)
    apply Fin.ext
    simp only
    omega

/-- C26. `VerifyR` accepts exactly `r` times the key and its negation. -/
theorem C26_verifyR (L : Lawful cp E) (t k : E) (r : Int) :
    (verifyR cp (L.pe t) (L.pe k) r = .ok true ↔ t = r • k ∨ t = -(r • k)) ∧
    (verifyR cp (L.pe t) (L.pe k) r = .ok false ↔ ¬ (t = r • k ∨ t = -(r • k))) ∧
    ∃ c, commitR cp (L.pe k) r = .ok c ∧ verifyR cp c (L.pe k) r = .ok true := by
  have key : r • k = t ∨ r • k = -t ↔ t = r • k ∨ t = -(r • k) := by
    constructor
    · rintro (h | h)
      · exact Or.inl h.symm
      · exact Or.inr (by rw [h, neg_neg])
    · rintro (h | h)
      · exact Or.inl h.symm
      · exact Or.inr (by rw [h, neg_neg])
  have hv : ∀ t, verifyR cp (L.pe t) (L.pe k) r = .ok (L.same (r • k) t) := by
    intro t; simp [verifyR, L.commitR_pe, L.equal_pe]
  refine ⟨?_, ?_, _, L.commitR_pe k r, ?_⟩
  · rw [hv, Go.ok.injEq, L.same_iff, key]
  · rw [hv, Go.ok.injEq, ← key, ← L.same_iff, Bool.not_eq_true]
  · rw [hv, L.same_self]

/-! ## Results of the verifiers -/

/-- Only `(true, nil)` and `(false, error)`.  See gspfs.go:72-98. -/
def Consistent (r : Go (Bool × Option Err)) : Prop :=
  ∀ b e, r = .ok (b, e) → (b = true ∧ e = none) ∨ (b = false ∧ e ≠ none)

theorem Consistent.reject (e : Err) : Consistent (.ok (reject e)) := by
  intro b e' h
  simp only [Proto.reject, Go.ok.injEq, Prod.mk.injEq] at h
  exact Or.inr ⟨h.1.symm, by simp [← h.2]⟩

theorem Consistent.accept : Consistent (.ok accept) := by
  intro b e' h
  simp only [Proto.accept, Go.ok.injEq, Prod.mk.injEq] at h
  exact Or.inl ⟨h.1.symm, h.2.symm⟩

theorem Consistent.bind {α : Type} {x : Go α} {f : α → Go (Bool × Option Err)}
    (h : ∀ a, Consistent (f a)) : Consistent (x >>= f) := by
  cases x with
  | ok a => exact h a
  | panic => intro b e h; simp at h

theorem Consistent.ite {c : Prop} [Decidable c] {x y : Go (Bool × Option Err)}
    (hx : Consistent x) (hy : Consistent y) : Consistent (if c then x else y) := by
  split <;> assumption

/-- C31, what holds: every verifier that returns, returns `(true, nil)` or `(false, error)`: for all curves,
proofs and statements, also for nil and malformed proofs.
Missing: a nil ABC proof makes `Verify` panic (`C31_nil_proofs`). -/
theorem C31_verify_consistent_partial (hash : Bytes → Bytes) (cp : Params) :
    (∀ p A, Consistent (gspfsVerify hash cp p A)) ∧
    (∀ p a b c d, Consistent (equivalenceVerify hash cp p a b c d)) ∧
    (∀ p a b c, Consistent (consistencyVerify hash cp p a b c)) ∧
    (∀ p a b c d, Consistent (disjunctiveVerify hash cp p a b c d)) ∧
    (∀ p a b, Consistent (abcVerify hash cp p a b)) ∧
    (∀ p a b, Consistent (inequalityVerify hash cp p a b)) := by
  have habc : ∀ p a b, Consistent (abcVerify hash cp p a b) := by
    intro p a b
    unfold abcVerify
    repeat' first
      | exact Consistent.reject _
      | exact Consistent.accept
      | (refine Consistent.bind fun _ => ?_)
      | (refine Consistent.ite ?_ ?_)
  refine ⟨?_, ?_, ?_, ?_, habc, ?_⟩
  · intro p A
    unfold gspfsVerify
    split
    · exact Consistent.reject _
    repeat' first
      | exact Consistent.reject _
      | exact Consistent.accept
      | (refine Consistent.bind fun _ => ?_)
      | (refine Consistent.ite ?_ ?_)
  · intro p a b c d
    unfold equivalenceVerify
    split
    · exact Consistent.reject _
    repeat' first
      | exact Consistent.reject _
      | exact Consistent.accept
      | (refine Consistent.bind fun _ => ?_)
      | (refine Consistent.ite ?_ ?_)
  · intro p a b c
    unfold consistencyVerify
    split
    · exact Consistent.reject _
    repeat' first
      | exact Consistent.reject _
      | exact Consistent.accept
      | (refine Consistent.bind fun _ => ?_)
      | (refine Consistent.ite ?_ ?_)
  · intro p a b c d
    unfold disjunctiveVerify
    split
    · exact Consistent.reject _
    repeat' first
      | exact Consistent.reject _
      | exact Consistent.accept
      | (refine Consistent.bind fun _ => ?_)
      | (refine Consistent.ite ?_ ?_)
  · intro p a b
    unfold inequalityVerify
    split
    · exact Consistent.reject _
    · exact habc _ _ _

/-- C31, nil proofs: all verifiers but the ABC one reject them; the ABC one panics. -/
theorem C31_nil_proofs (hash : Bytes → Bytes) (cp : Params) (a b c d : ECPoint) :
    (∃ e, gspfsVerify hash cp none a = .ok (false, some e)) ∧
    (∃ e, equivalenceVerify hash cp none a b c d = .ok (false, some e)) ∧
    (∃ e, consistencyVerify hash cp none a b c = .ok (false, some e)) ∧
    (∃ e, disjunctiveVerify hash cp none a b c d = .ok (false, some e)) ∧
    (∃ e, inequalityVerify hash cp none a b = .ok (false, some e)) ∧
    abcVerify hash cp none a b = .panic :=
  ⟨⟨_, rfl⟩, ⟨_, rfl⟩, ⟨_, rfl⟩, ⟨_, rfl⟩, ⟨_, rfl⟩, rfl⟩

/-! ## Challenges -/

/-- C58. The challenge is the hash of the concatenation modulo N: in range, and independent of how
the input is split into arguments. -/
theorem C58_challenge (hash : Bytes → Bytes) (cp : Params) (hN : 0 < cp.C.N) (arr arr' : List Bytes) :
    0 ≤ generateChallenge hash cp arr ∧ generateChallenge hash cp arr < cp.C.N ∧
    (cp.C.N : Int) ∣ generateChallenge hash cp arr - setBytes (hash arr.flatten) ∧
    (arr.flatten = arr'.flatten → generateChallenge hash cp arr = generateChallenge hash cp arr') := by
  refine ⟨Int.emod_nonneg _ (by omega), Int.emod_lt_of_pos _ (by omega), ?_, ?_⟩
  · rw [generateChallenge]
    exact (Int.emod_emod_of_dvd _ (dvd_refl _) |> Int.ModEq.symm |> Int.modEq_iff_dvd.1)
  · intro h; rw [generateChallenge, generateChallenge, h]

example : [[1, 2], [3]].flatten = [[1], [], [2, 3]].flatten ∧ (0 < Toy.params.C.N) := by decide

/-- The bytes hashed for a list of points.  See crypto.go:254-262. -/
def hashInput (ps : List ECPoint) : Go Bytes := do
  let bs ← ps.mapM pointBytes
  pure bs.flatten

/-- C59 as a user needs it: lists of curve points of one length have different hash inputs.
See crypto.go:254-262. -/
def ChallengeInjective (L : Lawful cp E) : Prop :=
  ∀ as bs : List E, as.length = bs.length →
    hashInput (as.map L.pe) = hashInput (bs.map L.pe) → as = bs

/-- C59 is false on every lawful curve: the identity has no bytes, so it can be moved around. -/
theorem C59_refuted (L : Lawful cp E) : ¬ ChallengeInjective L := by
  intro h
  have h0 : pointBytes (L.pe 0) = .ok [] := by
    simp [L.pointBytes_pe, Lawful.bytes, L.enc_zero, intBytes]
  have := h [L.g, 0] [0, L.g] rfl (by
    simp [hashInput, List.mapM_cons, h0, L.pointBytes_pe])
  simp only [List.cons.injEq] at this
  exact L.g_ne this.1

/-- C59, what holds: among points whose coordinates all have the full 32 bytes, the hash input
determines the list.  Missing: points with a coordinate below 2^248, the identity included. -/
theorem C59_injective_partial (as bs : List (Nat × Nat)) (hlen : as.length = bs.length)
    (ha : ∀ a ∈ as, 256 ^ 31 ≤ a.1 ∧ a.1 < 256 ^ 32 ∧ 256 ^ 31 ≤ a.2 ∧ a.2 < 256 ^ 32)
    (hb : ∀ b ∈ bs, 256 ^ 31 ≤ b.1 ∧ b.1 < 256 ^ 32 ∧ 256 ^ 31 ≤ b.2 ∧ b.2 < 256 ^ 32)
    (h : hashInput (as.map fun a => pt a.1 a.2) = hashInput (bs.map fun b => pt b.1 b.2)) :
    as = bs := by
  have hin : ∀ l : List (Nat × Nat), hashInput (l.map fun a => pt a.1 a.2) =
      .ok (l.map fun a => natBytes a.1 ++ natBytes a.2).flatten := by
    intro l
    have : (l.map fun a => pt (a.1 : Int) (a.2 : Int)).mapM pointBytes =
        .ok (l.map fun a => natBytes a.1 ++ natBytes a.2) := by
      induction l with
      | nil => rfl
      | cons a l ih => simp [List.mapM_cons, Lawful.pointBytes_pt, ih, intBytes]
    simp [hashInput, this]
  have hl : ∀ n, 256 ^ 31 ≤ n → n < 256 ^ 32 → (natBytes n).length = 32 := by
    intro n h1 h2
    refine le_antisymm (natBytes_length_le h2) ?_
    by_contra hc
    have h3 := setBytes_lt (natBytes n)
    rw [setBytes_natBytes] at h3
    have h4 : 256 ^ (natBytes n).length ≤ 256 ^ 31 := Nat.pow_le_pow_right (by norm_num) (by omega)
    omega
  rw [hin, hin, Go.ok.injEq] at h
  induction as generalizing bs with
  | nil => cases bs <;> simp_all
  | cons a as ih =>
    cases bs with
    | nil => simp at hlen
    | cons b bs =>
      simp only [List.map_cons, List.flatten_cons, List.append_assoc] at h
      obtain ⟨a1, a2, a3, a4⟩ := ha a List.mem_cons_self
      obtain ⟨b1, b2, b3, b4⟩ := hb b List.mem_cons_self
      obtain ⟨h1, h⟩ := List.append_inj h (by rw [hl _ a1 a2, hl _ b1 b2])
      obtain ⟨h2, h⟩ := List.append_inj h (by rw [hl _ a3 a4, hl _ b3 b4])
      have e1 := congrArg setBytes h1
      have e2 := congrArg setBytes h2
      rw [setBytes_natBytes, setBytes_natBytes] at e1 e2
      rw [Prod.ext e1 e2, ih bs (by simpa using hlen)
        (fun x hx => ha x (List.mem_cons_of_mem _ hx))
        (fun x hx => hb x (List.mem_cons_of_mem _ hx)) h]

example : 256 ^ 31 ≤ 256 ^ 31 + 5 ∧ 256 ^ 31 + 5 < 256 ^ 32 := by norm_num

end Zk.Proto
