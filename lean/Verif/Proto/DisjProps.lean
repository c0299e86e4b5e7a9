import Verif.Proto.SigmaProps

/-! # Properties C41-C44: disjunctive proofs -/

namespace Zk.Proto

open Zk

variable {cp : Params} {E : Type} [AddCommGroup E]

/-- C41 as a user needs it.  See disjunctive.go:59-152. -/
def DisjunctiveComplete (L : Lawful cp E) : Prop :=
  ∀ (hash : Bytes → Bytes) (b1 r1 b2 r2 : E) (x u1 u2 u3 : Int),
    (mult cp (L.pe b1) (some x) = .ok (L.pe r1) →
      Succeeds (newDisjunctiveProof hash cp (L.pe b1) (L.pe r1) (L.pe b2) (L.pe r2) x Left u1 u2 u3)
        fun p => disjunctiveVerify hash cp p (L.pe b1) (L.pe r1) (L.pe b2) (L.pe r2)) ∧
    (mult cp (L.pe b2) (some x) = .ok (L.pe r2) →
      Succeeds (newDisjunctiveProof hash cp (L.pe b1) (L.pe r1) (L.pe b2) (L.pe r2) x Right u1 u2 u3)
        fun p => disjunctiveVerify hash cp p (L.pe b1) (L.pe r1) (L.pe b2) (L.pe r2))

/-- The proof that the left prover makes.  See disjunctive.go:59-152. -/
noncomputable def leftProof (L : Lawful cp E) (hash : Bytes → Bytes) (b1 r1 b2 r2 : E)
    (x u1 u2 u3 : Int) : DisjunctiveProof :=
  let t1 := u1 • L.eff b1
  let t2 := u2 • L.eff b2 - u3 • L.eff r2
  let c := L.chal hash [b1, r1, b2, r2, t1, t2]
  let d := (c - u3) % (cp.C.N : Int)
  ⟨L.pe t1, L.pe t2, some c, some d, some u3, some (u1 + d * (x % (cp.C.N : Int))), some u2⟩

/-- The proof that the right prover makes.  See disjunctive.go:59-152. -/
noncomputable def rightProof (L : Lawful cp E) (hash : Bytes → Bytes) (b1 r1 b2 r2 : E)
    (x u1 u2 u3 : Int) : DisjunctiveProof :=
  let t2 := u1 • L.eff b2
  let t1 := u2 • L.eff b1 - u3 • L.eff r1
  let c := L.chal hash [b1, r1, b2, r2, t1, t2]
  let d := (c - u3) % (cp.C.N : Int)
  ⟨L.pe t1, L.pe t2, some c, some u3, some d, some u2, some (u1 + d * (x % (cp.C.N : Int)))⟩

theorem newDisjunctiveProof_left (L : Lawful cp E) (hash : Bytes → Bytes) (b1 r1 b2 r2 : E)
    (x u1 u2 u3 : Int) (h : L.same (x • L.eff b1) r1 = true) :
    newDisjunctiveProof hash cp (L.pe b1) (L.pe r1) (L.pe b2) (L.pe r2) x Left u1 u2 u3 =
      .ok (some (leftProof L hash b1 r1 b2 r2 x u1 u2 u3), none) := by
  have e : (-u3) • L.eff r2 = -(u3 • L.eff r2) := neg_smul _ _
  simp [newDisjunctiveProof, proveDisjunctive, L.equal_pe, L.mult_pe, L.add_pe, L.challengeOf₆, h,
    L.smul_mod, leftProof, sub_eq_add_neg, e]

theorem newDisjunctiveProof_right (L : Lawful cp E) (hash : Bytes → Bytes) (b1 r1 b2 r2 : E)
    (x u1 u2 u3 : Int) (h : L.same (x • L.eff b2) r2 = true) :
    newDisjunctiveProof hash cp (L.pe b1) (L.pe r1) (L.pe b2) (L.pe r2) x Right u1 u2 u3 =
      .ok (some (rightProof L hash b1 r1 b2 r2 x u1 u2 u3), none) := by
  have e : (-u3) • L.eff r1 = -(u3 • L.eff r1) := neg_smul _ _
  have hne : Right ≠ Left := by decide
  simp [newDisjunctiveProof, proveDisjunctive, L.equal_pe, L.mult_pe, L.add_pe, L.challengeOf₆, h,
    L.smul_mod, rightProof, sub_eq_add_neg, e, hne]

theorem sub_add_emod (c u n : Int) : ((c - u) % n + u) % n = c % n := by
  rw [Int.emod_add_emod]; congr 1; ring

/-- C41, what holds: the proof verifies if `Mult` is scalar multiplication at the result of the
chosen side.  The other side is arbitrary.  Missing: a chosen result equal to -G, H or -H. -/
theorem C41_completeness_partial (L : Lawful cp E) (hash : Bytes → Bytes) (b1 r1 b2 r2 : E)
    (x u1 u2 u3 : Int) :
    (mult cp (L.pe b1) (some x) = .ok (L.pe r1) → L.MultOk r1 →
      Succeeds (newDisjunctiveProof hash cp (L.pe b1) (L.pe r1) (L.pe b2) (L.pe r2) x Left u1 u2 u3)
        fun p => disjunctiveVerify hash cp p (L.pe b1) (L.pe r1) (L.pe b2) (L.pe r2)) ∧
    (mult cp (L.pe b2) (some x) = .ok (L.pe r2) → L.MultOk r2 →
      Succeeds (newDisjunctiveProof hash cp (L.pe b1) (L.pe r1) (L.pe b2) (L.pe r2) x Right u1 u2 u3)
        fun p => disjunctiveVerify hash cp p (L.pe b1) (L.pe r1) (L.pe b2) (L.pe r2)) := by
  constructor
  · intro h o
    rw [L.mult_pe, Go.ok.injEq, L.pe_inj] at h
    rw [L.multOk_iff_eff] at o
    refine ⟨_, newDisjunctiveProof_left L hash b1 r1 b2 r2 x u1 u2 u3 (by rw [h, L.same_self]), ?_⟩
    refine (L.disjunctiveVerify_iff ..).2 ⟨rfl, ?_, L.same_iff.2 (Or.inl ?_),
      L.same_iff.2 (Or.inl ?_)⟩
    · rw [sub_add_emod]
      exact Int.emod_eq_of_lt (L.chal_range _ _).1 (L.chal_range _ _).2
    · rw [o, add_smul, mul_smul, L.smul_mod x, h]
    · module
  · intro h o
    rw [L.mult_pe, Go.ok.injEq, L.pe_inj] at h
    rw [L.multOk_iff_eff] at o
    refine ⟨_, newDisjunctiveProof_right L hash b1 r1 b2 r2 x u1 u2 u3 (by rw [h, L.same_self]), ?_⟩
    refine (L.disjunctiveVerify_iff ..).2 ⟨rfl, ?_, L.same_iff.2 (Or.inl ?_),
      L.same_iff.2 (Or.inl ?_)⟩
    · rw [add_comm, sub_add_emod]
      exact Int.emod_eq_of_lt (L.chal_range _ _).1 (L.chal_range _ _).2
    · module
    · rw [o, add_smul, mul_smul, L.smul_mod x, h]; abel

/-- C41 is false on every lawful curve: the chosen side is -G = -1*G. -/
theorem C41_refuted (L : Lawful cp E) : ¬ DisjunctiveComplete L := by
  intro h
  have hm : mult cp (L.pe L.g) (some (-1)) = .ok (L.pe (-L.g)) := by
    rw [L.mult_pe, L.eff_g, neg_smul, one_smul]
  obtain ⟨pr, h1, h2⟩ := (h (fun _ => [1]) L.g (-L.g) L.g L.g (-1) 1 0 0).1 hm
  rw [newDisjunctiveProof_left L _ _ _ _ _ _ _ _ _ (by rw [L.eff_g, neg_smul, one_smul, L.same_self]),
    Go.ok.injEq, Prod.mk.injEq, Option.some.injEq] at h1
  simp only [leftProof, chal_const] at h1
  rw [← h1.1, L.disjunctiveVerify_iff, L.same_iff] at h2
  have h3 := h2.2.2.1
  rw [L.eff_neg_g, L.eff_g, L.smul_mod, add_smul, mul_smul, L.smul_mod, L.smul_mod] at h3
  have h4 : (2 : Int) • L.g = 0 := by
    rcases h3 with h3 | h3
    · linear_combination (norm := module) h3
    · linear_combination (norm := module) h3
  have := Int.le_of_dvd (by norm_num) ((L.smul_eq_zero L.g_ne).1 h4)
  have := L.five_lt
  omega

/-- C42. Unknown sides and wrong witnesses are refused. -/
theorem C42_refuses (L : Lawful cp E) (hash : Bytes → Bytes) (b1 r1 b2 r2 q1 q2 : E)
    (x u1 u2 u3 : Int) (side : Side)
    (m1 : mult cp (L.pe b1) (some x) = .ok (L.pe q1))
    (m2 : mult cp (L.pe b2) (some x) = .ok (L.pe q2))
    (h : (side ≠ Left ∧ side ≠ Right) ∨ (side = Left ∧ r1 ≠ q1 ∧ r1 ≠ -q1) ∨
      (side = Right ∧ r2 ≠ q2 ∧ r2 ≠ -q2)) :
    Refuses (newDisjunctiveProof hash cp (L.pe b1) (L.pe r1) (L.pe b2) (L.pe r2) x side u1 u2 u3) := by
  have hne : Right ≠ Left := by decide
  have hs : ∀ {q r : E}, r ≠ q → r ≠ -q → L.same q r = false := by
    intro q r h1 h2
    rw [Bool.eq_false_iff, Ne, L.same_iff]
    rintro (h | h)
    · exact h1 h.symm
    · exact h2 (by rw [h, neg_neg])
  rcases h with ⟨n1, n2⟩ | ⟨rfl, n1, n2⟩ | ⟨rfl, n1, n2⟩
  · simp [newDisjunctiveProof, n1, n2, Refuses]
  · simp [newDisjunctiveProof, proveDisjunctive, m1, L.equal_pe, hs n1 n2, Refuses]
  · simp [newDisjunctiveProof, proveDisjunctive, m2, L.equal_pe, hs n1 n2, Refuses, hne]

example : mult Toy.params (Toy.lawful.pe 3) (some 6) = .ok (Toy.lawful.pe 4) ∧
    ((1 : ZMod 7) ≠ 4 ∧ (1 : ZMod 7) ≠ -4) ∧ (7 : Side) ≠ Left ∧ (7 : Side) ≠ Right := by
  rw [Toy.lawful.mult_pe, Toy.eff_plain 3 (by decide)]; decide

/-- C43. Two accepted proofs for one statement and one pair of random commitments, with different
challenges, under any hash functions: the explicit quotients give the logarithm of one of the sides.
As in C29 this is between the points `Mult` multiplies, and about the points themselves if `Mult` is
right at them. -/
theorem C43_soundness (L : Lawful cp E) (hash hash' : Bytes → Bytes) (b1 r1 b2 r2 t1 t2 : E)
    (c c1 c2 s1 s2 c' c1' c2' s1' s2' : Int) (hc : c ≠ c')
    (h : disjunctiveVerify hash cp
      (some ⟨L.pe t1, L.pe t2, some c, some c1, some c2, some s1, some s2⟩)
      (L.pe b1) (L.pe r1) (L.pe b2) (L.pe r2) = .ok accept)
    (h' : disjunctiveVerify hash' cp
      (some ⟨L.pe t1, L.pe t2, some c', some c1', some c2', some s1', some s2'⟩)
      (L.pe b1) (L.pe r1) (L.pe b2) (L.pe r2) = .ok accept) :
    (∃ x ∈ L.extract s1 c1 s1' c1', L.eff r1 = x • L.eff b1 ∧
      (L.MultOk b1 → L.MultOk r1 → r1 = x • b1)) ∨
    (∃ y ∈ L.extract s2 c2 s2' c2', L.eff r2 = y • L.eff b2 ∧
      (L.MultOk b2 → L.MultOk r2 → r2 = y • b2)) := by
  rw [L.disjunctiveVerify_iff] at h h'
  obtain ⟨_, hsum, k1, k2⟩ := h
  obtain ⟨_, hsum', k1', k2'⟩ := h'
  obtain ⟨e, he, e1⟩ := L.same_sign k1
  obtain ⟨e', he', e1'⟩ := L.same_sign k1'
  obtain ⟨f, hf, f1⟩ := L.same_sign k2
  obtain ⟨f', hf', f1'⟩ := L.same_sign k2'
  have flip : ∀ {a : Int} {p q : E}, IsSign a → p = a • q → q = a • p := by
    intro a p q ha h
    rw [h, ← mul_smul, ha.sq, one_smul]
  by_cases hd : (cp.C.N : Int) ∣ c1 - c1'
  · right
    have hd2 : ¬ (cp.C.N : Int) ∣ c2 - c2' := by
      intro hd2
      apply hc
      rw [← hsum, ← hsum']
      apply Int.emod_emod_of_dvd _ (dvd_refl _) |>.symm.trans
      rw [Int.emod_emod_of_dvd _ (dvd_refl _)]
      refine (Int.emod_eq_emod_iff_emod_sub_eq_zero.2 (Int.emod_eq_zero_of_dvd ?_))
      have := dvd_add hd hd2
      rwa [show c1 + c2 - (c1' + c2') = c1 - c1' + (c2 - c2') by ring]
    have key : L.eff r2 = (L.inv (c2 - c2') * (f * s2 - f' * s2')) • L.eff b2 :=
      L.extract_eq (t := t2) hd2 (by rw [add_comm, flip hf f1, mul_smul])
        (by rw [add_comm, flip hf' f1', mul_smul])
    refine ⟨_, L.mem_extract hf hf', key, fun o1 o2 => ?_⟩
    rw [L.multOk_iff_eff] at o1 o2
    rwa [o1, o2] at key
  · left
    have key : L.eff r1 = (L.inv (c1 - c1') * (e * s1 - e' * s1')) • L.eff b1 :=
      L.extract_eq (t := t1) hd (by rw [flip he e1, mul_smul]) (by rw [flip he' e1', mul_smul])
    refine ⟨_, L.mem_extract he he', key, fun o1 o2 => ?_⟩
    rw [L.multOk_iff_eff] at o1 o2
    rwa [o1, o2] at key

/-- Hypotheses of C43: left proofs with one `u1, u2, u3` and two challenges. -/
example : ∀ i : Fin 2, disjunctiveVerify (fun _ => [UInt8.ofNat i]) Toy.params
    (some ⟨Toy.lawful.pe 3, Toy.lawful.pe 4, some ((i : Nat) : Int), some ((i : Nat) : Int), some 0,
      some (1 + 6 * ((i : Nat) : Int)), some 1⟩)
    (Toy.lawful.pe 3) (Toy.lawful.pe 4) (Toy.lawful.pe 4) (Toy.lawful.pe 4) = .ok accept := by
  intro i
  refine (Toy.lawful.disjunctiveVerify_iff ..).2 ?_
  rw [Toy.eff_plain 3 (by decide), Toy.eff_plain 4 (by decide)]
  fin_cases i <;> exact ⟨by rfl, by decide, by decide, by decide⟩

/-! ## Hiding -/

/-- All draws of three numbers from [0, N).  See disjunctive.go:59-152. -/
def draws₃ (N : Nat) : Multiset (Nat × Nat × Nat) :=
  Multiset.range N ×ˢ (Multiset.range N ×ˢ Multiset.range N)

/-- C44 as a user needs it: for every challenge, when both sides are provable, the proofs of the two
sides over all draws are the same with multiplicity.  See disjunctive.go:59-152. -/
def DisjunctiveHiding (L : Lawful cp E) : Prop :=
  ∀ (hash : Bytes → Bytes) (c : Int), (∀ arr, generateChallenge hash cp arr = c) →
    ∀ (b1 r1 b2 r2 : E) (x y : Int), mult cp (L.pe b1) (some x) = .ok (L.pe r1) →
      mult cp (L.pe b2) (some y) = .ok (L.pe r2) →
      (draws₃ cp.C.N).map (fun u => newDisjunctiveProof hash cp (L.pe b1) (L.pe r1) (L.pe b2)
        (L.pe r2) x Left u.1 u.2.1 u.2.2) =
      (draws₃ cp.C.N).map (fun u => newDisjunctiveProof hash cp (L.pe b1) (L.pe r1) (L.pe b2)
        (L.pe r2) y Right u.1 u.2.1 u.2.2)

/-- A proof whose first (second) response is not below N was made for the left (right) side: the
response of the proved side is not reduced. -/
theorem C44_side_leak (L : Lawful cp E) (hash : Bytes → Bytes) (b1 r1 b2 r2 : E)
    (x : Int) (side : Side) (u1 u2 u3 : Nat) (h2 : u2 < cp.C.N)
    (pr : DisjunctiveProof) (s1 s2 : Int)
    (h : newDisjunctiveProof hash cp (L.pe b1) (L.pe r1) (L.pe b2) (L.pe r2) x side u1 u2 u3 =
      .ok (some pr, none)) (e1 : pr.S1 = some s1) (e2 : pr.S2 = some s2) :
    (cp.C.N ≤ s1 → side = Left) ∧ (cp.C.N ≤ s2 → side = Right) := by
  have hne : Right ≠ Left := by decide
  by_cases hl : side = Left
  · subst hl
    by_cases hs : L.same (x • L.eff b1) r1 = true
    · rw [newDisjunctiveProof_left L _ _ _ _ _ _ _ _ _ hs] at h
      simp only [Go.ok.injEq, Prod.mk.injEq, Option.some.injEq, and_true] at h
      subst h
      simp only [leftProof, Option.some.injEq] at e1 e2
      exact ⟨fun _ => rfl, fun hN => by omega⟩
    · simp [newDisjunctiveProof, proveDisjunctive, L.mult_pe, L.equal_pe, Bool.eq_false_iff.2 hs] at h
  · by_cases hr : side = Right
    · subst hr
      by_cases hs : L.same (x • L.eff b2) r2 = true
      · rw [newDisjunctiveProof_right L _ _ _ _ _ _ _ _ _ hs] at h
        simp only [Go.ok.injEq, Prod.mk.injEq, Option.some.injEq, and_true] at h
        subst h
        simp only [rightProof, Option.some.injEq] at e1 e2
        exact ⟨fun hN => by omega, fun _ => rfl⟩
      · simp [newDisjunctiveProof, proveDisjunctive, L.mult_pe, L.equal_pe, Bool.eq_false_iff.2 hs,
          hne] at h
    · simp [newDisjunctiveProof, hl, hr] at h

/-- The witness of a left proof can be read off the proof whenever its first challenge is above
N/2: it is the quotient of response and challenge, or this less one. -/
theorem C44_witness_leak (L : Lawful cp E) (hash : Bytes → Bytes) (b1 r1 b2 r2 : E)
    (x : Int) (u1 u2 u3 : Nat) (h1 : u1 < cp.C.N) (pr : DisjunctiveProof) (c1 s1 : Int)
    (h : newDisjunctiveProof hash cp (L.pe b1) (L.pe r1) (L.pe b2) (L.pe r2) x Left u1 u2 u3 =
      .ok (some pr, none)) (e1 : pr.S1 = some s1) (e2 : pr.C1 = some c1) (hc : cp.C.N < 2 * c1) :
    x % (cp.C.N : Int) = s1 / c1 ∨ x % (cp.C.N : Int) = s1 / c1 - 1 := by
  by_cases hs : L.same (x • L.eff b1) r1 = true
  · rw [newDisjunctiveProof_left L _ _ _ _ _ _ _ _ _ hs] at h
    simp only [Go.ok.injEq, Prod.mk.injEq, Option.some.injEq, and_true] at h
    subst h
    simp only [leftProof, Option.some.injEq] at e1 e2
    rw [e2] at e1
    have hpos : 0 < c1 := by omega
    rw [← e1, Int.add_mul_ediv_left _ _ (show c1 ≠ 0 by omega)]
    have hq : (u1 : Int) / c1 < 2 := Int.ediv_lt_of_lt_mul hpos (by omega)
    have hq0 : 0 ≤ (u1 : Int) / c1 := Int.ediv_nonneg (by omega) (by omega)
    omega
  · simp [newDisjunctiveProof, proveDisjunctive, L.mult_pe, L.equal_pe, Bool.eq_false_iff.2 hs] at h

/-- Such a proof exists: 2 * 4 > 7. -/
example : ∃ pr, newDisjunctiveProof (fun _ => [4]) Toy.params (Toy.lawful.pe 3) (Toy.lawful.pe 4)
    (Toy.lawful.pe 4) (Toy.lawful.pe 4) 6 Left (5 : Nat) (1 : Nat) (0 : Nat) = .ok (some pr, none) ∧
    pr.S1 = some 29 ∧ pr.C1 = some 4 ∧ (Toy.params.C.N : Int) < 2 * 4 ∧ (29 : Int) / 4 - 1 = 6 := by
  refine ⟨_, newDisjunctiveProof_left Toy.lawful _ _ _ _ _ _ _ _ _ (by
    rw [Toy.eff_plain 3 (by decide)]; decide), ?_⟩
  have : ∀ as, Toy.lawful.chal (fun _ => [4]) as = 4 := fun _ => rfl
  simp only [leftProof, this]
  decide

/-- C44 is false on every lawful curve: the left prover makes a proof with first response N, the
right prover never does. -/
theorem C44_refuted (L : Lawful cp E) : ¬ DisjunctiveHiding L := by
  intro h
  have hm : mult cp (L.pe L.g) (some 1) = .ok (L.pe L.g) := by rw [L.mult_pe, L.eff_g, one_smul]
  have hN := L.five_lt
  have hch : ∀ arr, generateChallenge (fun _ => [1]) cp arr = 1 := by
    intro arr
    exact Int.emod_eq_of_lt (by simp [setBytes]) (by simp [setBytes]; omega)
  have heq := h (fun _ => [1]) 1 hch L.g L.g L.g L.g 1 1 hm hm
  have hs : L.same ((1 : Int) • L.eff L.g) L.g = true := by rw [L.eff_g, one_smul, L.same_self]
  have hmem : (cp.C.N - 1, 0, 0) ∈ draws₃ cp.C.N := by
    simp only [draws₃, Multiset.mem_product, Multiset.mem_range]; omega
  have h1 := Multiset.mem_map_of_mem (fun u : Nat × Nat × Nat => newDisjunctiveProof (fun _ => [1]) cp
    (L.pe L.g) (L.pe L.g) (L.pe L.g) (L.pe L.g) 1 Left u.1 u.2.1 u.2.2) hmem
  rw [heq, Multiset.mem_map] at h1
  obtain ⟨⟨v1, v2, v3⟩, hv, h2⟩ := h1
  simp only [draws₃, Multiset.mem_product, Multiset.mem_range] at hv
  have hl := newDisjunctiveProof_left L (fun _ => [1]) L.g L.g L.g L.g 1 ((cp.C.N - 1 : Nat) : Int)
    ((0 : Nat) : Int) ((0 : Nat) : Int) hs
  simp only [] at h2
  rw [hl] at h2
  have := (C44_side_leak L _ _ _ _ _ _ _ v1 v2 v3 hv.2.1 _ _ _ h2 rfl rfl).1 (by
    have : L.chal (fun _ => [1]) [L.g, L.g, L.g, L.g, ((cp.C.N - 1 : Nat) : Int) • L.eff L.g,
      ((0 : Nat) : Int) • L.eff L.g - ((0 : Nat) : Int) • L.eff L.g] = 1 := hch _
    rw [this]
    rw [Int.emod_eq_of_lt (by simp) (by simp; omega), Int.emod_eq_of_lt (by simp) (by simp; omega)]
    simp; omega)
  exact absurd this (by decide)

/-- The proof with both responses reduced modulo N.  See disjunctive.go:59-152. -/
def reduceResponses (N : Nat) (r : Go (Option DisjunctiveProof × Option Err)) :
    Go (Option DisjunctiveProof × Option Err) := do
  let p ← r
  pure (p.1.map fun pr => { pr with S1 := pr.S1.map (· % (N : Int)), S2 := pr.S2.map (· % (N : Int)) },
    p.2)

/-- A simulator without any witness: responses and one challenge are drawn, the rest follows.
See disjunctive.go:59-152. -/
def simDisjunctive (cp : Params) (B1 R1 B2 R2 : ECPoint) (c s1 s2 c2 : Int) :
    Go (Option DisjunctiveProof × Option Err) := do
  let c1 := (c - c2) % (cp.C.N : Int)
  let a ← mult cp B1 (some s1)
  let b ← mult cp R1 (some c1)
  let T1 ← sub cp a b
  let a ← mult cp B2 (some s2)
  let b ← mult cp R2 (some c2)
  let T2 ← sub cp a b
  pure (some ⟨T1, T2, some c, some c1, some c2, some s1, some s2⟩, none)

theorem val_eq_of_cast {N : Nat} [NeZero N] {z : ZMod N} {k : Int} (h : z = (k : ZMod N)) :
    ((z.val : Nat) : Int) = k % N := by rw [h, val_intCast]

/-- C44, what holds: if the responses of the proof were reduced modulo N, the proofs of either side
would be, for every challenge, those of one simulator that knows no witness; so they would hide both
the side and the witness.  Missing: the code publishes the response of the proved side unreduced. -/
theorem C44_reduced_simulatable_partial (L : Lawful cp E) (hash : Bytes → Bytes) (c : Int)
    (hc : ∀ arr, generateChallenge hash cp arr = c) (b1 r1 b2 r2 : E) (x : Int)
    (o1 : L.MultOk r1) (o2 : L.MultOk r2) :
    (mult cp (L.pe b1) (some x) = .ok (L.pe r1) →
      (draws₃ cp.C.N).map (fun u => reduceResponses cp.C.N (newDisjunctiveProof hash cp (L.pe b1)
        (L.pe r1) (L.pe b2) (L.pe r2) x Left u.1 u.2.1 u.2.2)) =
      (draws₃ cp.C.N).map (fun s => simDisjunctive cp (L.pe b1) (L.pe r1) (L.pe b2) (L.pe r2)
        c s.1 s.2.1 s.2.2)) ∧
    (mult cp (L.pe b2) (some x) = .ok (L.pe r2) →
      (draws₃ cp.C.N).map (fun u => reduceResponses cp.C.N (newDisjunctiveProof hash cp (L.pe b1)
        (L.pe r1) (L.pe b2) (L.pe r2) x Right u.1 u.2.1 u.2.2)) =
      (draws₃ cp.C.N).map (fun s => simDisjunctive cp (L.pe b1) (L.pe r1) (L.pe b2) (L.pe r2)
        c s.1 s.2.1 s.2.2)) := by
  have : NeZero cp.C.N := ⟨L.prime.ne_zero⟩
  have hch : ∀ as, L.chal hash as = c := fun as => hc _
  rw [L.multOk_iff_eff] at o1 o2
  constructor
  · intro h
    rw [L.mult_pe, Go.ok.injEq, L.pe_inj] at h
    let e : ZMod cp.C.N × ZMod cp.C.N × ZMod cp.C.N ≃ ZMod cp.C.N × ZMod cp.C.N × ZMod cp.C.N :=
      { toFun := fun u => (u.1 + (c - u.2.2) * x, u.2.1, u.2.2)
        invFun := fun s => (s.1 - (c - s.2.2) * x, s.2.1, s.2.2)
        left_inv := fun u => by ext <;> simp
        right_inv := fun u => by ext <;> simp }
    refine dist_eq₃ cp.C.N _ _ e fun z => ?_
    have hv : ((((e z).1.val : Nat) : Int)) =
        (z.1.val + (c - (z.2.2.val : Int)) % (cp.C.N : Int) * (x % (cp.C.N : Int))) %
          (cp.C.N : Int) := by
      rw [add_mul_mod_emod, add_mod_mul_emod]
      refine val_eq_of_cast ?_
      push_cast
      simp only [ZMod.natCast_zmod_val]; rfl
    have hv2 : (e z).2.1.val = z.2.1.val := rfl
    have hv3 : (e z).2.2.val = z.2.2.val := rfl
    simp only [hv, hv2, hv3]
    rw [newDisjunctiveProof_left L _ _ _ _ _ _ _ _ _ (by rw [h, L.same_self])]
    simp only [leftProof, hch, reduceResponses, simDisjunctive, Go.bind_ok, Go.pure_eq, L.mult_pe,
      L.sub_pe, Option.map_some]
    have e1 : (((z.1.val : Int) + (c - (z.2.2.val : Int)) % (cp.C.N : Int) * (x % (cp.C.N : Int))) %
        (cp.C.N : Int)) • L.eff b1 - ((c - (z.2.2.val : Int)) % (cp.C.N : Int)) • L.eff r1 =
        (z.1.val : Int) • L.eff b1 := by
      rw [o1, L.smul_mod, add_smul, mul_smul, L.smul_mod x, h]; abel
    have e2 : ((z.2.1.val : Int)) % (cp.C.N : Int) = z.2.1.val :=
      Int.emod_eq_of_lt (by omega) (by exact_mod_cast ZMod.val_lt _)
    rw [e1, e2]
  · intro h
    rw [L.mult_pe, Go.ok.injEq, L.pe_inj] at h
    let e : ZMod cp.C.N × ZMod cp.C.N × ZMod cp.C.N ≃ ZMod cp.C.N × ZMod cp.C.N × ZMod cp.C.N :=
      { toFun := fun u => (u.2.1, u.1 + (c - u.2.2) * x, c - u.2.2)
        invFun := fun s => (s.2.1 - s.2.2 * x, s.1, c - s.2.2)
        left_inv := fun u => by ext <;> simp
        right_inv := fun u => by ext <;> simp }
    refine dist_eq₃ cp.C.N _ _ e fun z => ?_
    have hv : ((((e z).2.1.val : Nat) : Int)) =
        (z.1.val + (c - (z.2.2.val : Int)) % (cp.C.N : Int) * (x % (cp.C.N : Int))) %
          (cp.C.N : Int) := by
      rw [add_mul_mod_emod, add_mod_mul_emod]
      refine val_eq_of_cast ?_
      push_cast
      simp only [ZMod.natCast_zmod_val]; rfl
    have hv2 : (e z).1.val = z.2.1.val := rfl
    have hv3 : ((((e z).2.2.val : Nat) : Int)) = (c - (z.2.2.val : Int)) % (cp.C.N : Int) := by
      refine val_eq_of_cast ?_
      push_cast
      simp only [ZMod.natCast_zmod_val]; rfl
    have hv4 : (c - (c - (z.2.2.val : Int)) % (cp.C.N : Int)) % (cp.C.N : Int) = z.2.2.val := by
      rw [Int.sub_emod, Int.emod_emod, ← Int.sub_emod, show c - (c - (z.2.2.val : Int)) = z.2.2.val by ring]
      exact Int.emod_eq_of_lt (by omega) (by exact_mod_cast ZMod.val_lt _)
    simp only [hv, hv2, hv3]
    rw [newDisjunctiveProof_right L _ _ _ _ _ _ _ _ _ (by rw [h, L.same_self])]
    simp only [rightProof, hch, reduceResponses, simDisjunctive, Go.bind_ok, Go.pure_eq, L.mult_pe,
      L.sub_pe, Option.map_some, hv4]
    have e1 : (((z.1.val : Int) + (c - (z.2.2.val : Int)) % (cp.C.N : Int) * (x % (cp.C.N : Int))) %
        (cp.C.N : Int)) • L.eff b2 - ((c - (z.2.2.val : Int)) % (cp.C.N : Int)) • L.eff r2 =
        (z.1.val : Int) • L.eff b2 := by
      rw [o2, L.smul_mod, add_smul, mul_smul, L.smul_mod x, h]; abel
    have e2 : ((z.2.1.val : Int)) % (cp.C.N : Int) = z.2.1.val :=
      Int.emod_eq_of_lt (by omega) (by exact_mod_cast ZMod.val_lt _)
    rw [e1, e2]

end Zk.Proto
