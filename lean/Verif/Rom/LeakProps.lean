import Verif.Rom.Leak

/-! # Property C144: what a published ABC proof tells about the secret key.  Also C44 with probabilities -/

namespace Zk.Rom

open Zk Zk.Proto

variable {cp : Params} {E : Type} [AddCommGroup E]

/-- C44: the witness of a proof is among the guesses, whenever the challenge of its side is not small. -/
theorem C44_guesses (L : Lawful cp E) (hash : Bytes → Bytes) (b1 r1 b2 r2 : E) (x u1 u2 u3 c : Int) (side : Side)
    (k : Nat) (h1 : 0 ≤ u1 ∧ u1 < cp.C.N) (pr : DisjunctiveProof)
    (h : newDisjunctiveProof hash cp (L.pe b1) (L.pe r1) (L.pe b2) (L.pe r2) x side u1 u2 u3 =
      .ok (some pr, none)) (hc : (if side = Left then pr.C1 else pr.C2) = some c) (hbig : cp.C.N ≤ 2 ^ k * c) :
    x % (cp.C.N : Int) ∈ disjGuesses k pr := by
  have hne : Right ≠ Left := by decide
  rw [disjGuesses, List.mem_append]
  by_cases hl : side = Left
  · subst hl
    by_cases hs : L.same (x • L.eff b1) r1 = true
    · rw [newDisjunctiveProof_left L _ _ _ _ _ _ _ _ _ hs] at h
      simp only [Go.ok.injEq, Prod.mk.injEq, Option.some.injEq, and_true] at h
      subst h
      simp only [leftProof, if_true, Option.some.injEq] at hc
      exact .inl (mem_quotients (u := u1) h1 (by rw [hc]; exact hbig))
    · simp [newDisjunctiveProof, proveDisjunctive, L.mult_pe, L.equal_pe, Bool.eq_false_iff.2 hs] at h
  · by_cases hr : side = Right
    · subst hr
      by_cases hs : L.same (x • L.eff b2) r2 = true
      · rw [newDisjunctiveProof_right L _ _ _ _ _ _ _ _ _ hs] at h
        simp only [Go.ok.injEq, Prod.mk.injEq, Option.some.injEq, and_true] at h
        subst h
        simp only [rightProof, if_neg hl, Option.some.injEq] at hc
        exact .inr (mem_quotients (u := u1) h1 (by rw [hc]; exact hbig))
      · simp [newDisjunctiveProof, proveDisjunctive, L.mult_pe, L.equal_pe, Bool.eq_false_iff.2 hs,
          hne] at h
    · simp [newDisjunctiveProof, hl, hr] at h

/-- The hypotheses can be met: a right proof with challenge 4 and witness 6, which is among the guesses. -/
example : ∃ pr, newDisjunctiveProof (fun _ => [4]) Toy.params (Toy.lawful.pe 3) (Toy.lawful.pe 4)
    (Toy.lawful.pe 3) (Toy.lawful.pe 4) 6 Right 5 1 0 = .ok (some pr, none) ∧ pr.C2 = some 4 ∧
    (Toy.params.C.N : Int) ≤ 2 ^ 1 * 4 ∧ 6 ∈ disjGuesses 1 pr := by
  have hs : Toy.lawful.same ((6 : Int) • Toy.lawful.eff 3) 4 = true := by
    rw [Toy.eff_plain 3 (by decide)]; decide
  have hrun := newDisjunctiveProof_right Toy.lawful (fun _ => [4]) 3 4 3 4 6 5 1 0 hs
  have hc : ∀ as, Toy.lawful.chal (fun _ => [4]) as = 4 := fun _ => rfl
  refine ⟨_, hrun, ?_, by decide, ?_⟩
  · simp only [rightProof, hc]; decide
  · exact C44_guesses Toy.lawful (fun _ => [4]) 3 4 3 4 6 5 1 0 4 Right 1 (by decide) _ hrun
      (by rw [if_neg (by decide)]; simp only [rightProof, hc]; decide) (by decide)

/-- C44 with probabilities: when SHA-256 is a random function, whatever numbers the prover draws, a disjunctive proof
reveals its witness to anyone who tries 2^k + 1 numbers for each side, except with probability
(N / 2^k + 1) (2^256 / N + 1) / 2^256. -/
theorem C44_probability (L : Lawful cp E) (b1 r1 b2 r2 : E) (x u1 u2 u3 : Int) (side : Side) (k : Nat)
    (h1 : 0 ≤ u1 ∧ u1 < cp.C.N)
    (hx : side = Left ∧ mult cp (L.pe b1) (some x) = .ok (L.pe r1) ∨
      side = Right ∧ mult cp (L.pe b2) (some x) = .ok (L.pe r2)) :
    ∃ b : Bytes, ∀ S : Finset Bytes, b ∈ S →
      1 - (cp.C.N / 2 ^ k + 1 : ℕ) * perChal cp.C.N / 2 ^ 256 ≤ prob fun f : S → Word =>
        ∃ pr, newDisjunctiveProof (hashOf S f) cp (L.pe b1) (L.pe r1) (L.pe b2) (L.pe r2) x side u1 u2 u3 =
          .ok (some pr, none) ∧ x % (cp.C.N : Int) ∈ disjGuesses k pr := by
  have key : ∀ as : List E, (∀ h : Bytes → Bytes, cp.C.N ≤ 2 ^ k * ((L.chal h as - u3) % (cp.C.N : Int)) →
      ∃ pr, newDisjunctiveProof h cp (L.pe b1) (L.pe r1) (L.pe b2) (L.pe r2) x side u1 u2 u3 =
          .ok (some pr, none) ∧ x % (cp.C.N : Int) ∈ disjGuesses k pr) →
      ∃ b : Bytes, ∀ S : Finset Bytes, b ∈ S →
      1 - (cp.C.N / 2 ^ k + 1 : ℕ) * perChal cp.C.N / 2 ^ 256 ≤ prob fun f : S → Word =>
        ∃ pr, newDisjunctiveProof (hashOf S f) cp (L.pe b1) (L.pe r1) (L.pe b2) (L.pe r2) x side u1 u2 u3 =
          .ok (some pr, none) ∧ x % (cp.C.N : Int) ∈ disjGuesses k pr := by
    intro as has
    refine ⟨hashed (as.map L.pe), fun S hb => ?_⟩
    have hf := prob_fresh (S := S) (fun ω : Word => 2 ^ k * ((chalOf cp.C.N ω - u3) % (cp.C.N : Int)) < cp.C.N)
      _ (num_near cp.C.N L.prime.pos u3 k) ⟨_, hb⟩
    rw [card_word] at hf
    refine prob_not ?_ (hf.trans (le_of_eq (by push_cast; norm_num)))
    intro f hq
    refine has _ ?_
    rw [chal_hashOf L S f ⟨_, hb⟩ as rfl]
    exact not_lt.1 hq
  rcases hx with ⟨rfl, hx⟩ | ⟨rfl, hx⟩
  · rw [L.mult_pe, Go.ok.injEq, L.pe_inj] at hx
    have hs : L.same (x • L.eff b1) r1 = true := by rw [hx, L.same_self]
    refine key [b1, r1, b2, r2, u1 • L.eff b1, u2 • L.eff b2 - u3 • L.eff r2] fun h hbig => ?_
    have hrun := newDisjunctiveProof_left L h b1 r1 b2 r2 x u1 u2 u3 hs
    exact ⟨_, hrun, C44_guesses L h b1 r1 b2 r2 x u1 u2 u3 _ Left k h1 _ hrun rfl hbig⟩
  · rw [L.mult_pe, Go.ok.injEq, L.pe_inj] at hx
    have hs : L.same (x • L.eff b2) r2 = true := by rw [hx, L.same_self]
    refine key [b1, r1, b2, r2, u2 • L.eff b1 - u3 • L.eff r1, u1 • L.eff b2] fun h hbig => ?_
    have hrun := newDisjunctiveProof_right L h b1 r1 b2 r2 x u1 u2 u3 hs
    exact ⟨_, hrun, C44_guesses L h b1 r1 b2 r2 x u1 u2 u3 _ Right k h1 _ hrun rfl hbig⟩

/-- C144, for every hash function: an ABC proof for the value 0 reveals the secret key whenever the first challenge
of its nested proof is not small. -/
theorem C144_key_leak (L : Lawful cp E) (hash : Bytes → Bytes) (cm tok : E) (sk : Int) (rnd : ABCRand) (k : Nat)
    (h1 : 0 ≤ rnd.d1 ∧ rnd.d1 < cp.C.N) (hsk : ¬ (cp.C.N : Int) ∣ sk) (pr : ABCProof) (d : DisjunctiveProof) (c : Int)
    (h : newABCProof hash cp (L.pe cm) (L.pe tok) 0 sk Left rnd = .ok (some pr, none))
    (hd : pr.disjuncAC = some d) (hc : d.C1 = some c) (hbig : cp.C.N ≤ 2 ^ k * c) :
    ∃ y, findKey cp k (L.pe (sk • L.hb)) pr = some y ∧ y ≡ sk [ZMOD cp.C.N] := by
  obtain ⟨isk, hi, _⟩ := modInverse_some L.prime hsk
  by_cases hs : L.same (sk • L.eff cm) tok = true
  · obtain ⟨ct, hrun⟩ := newABCProof_left L hash cm tok sk rnd hs
    rw [h, L.finishABC_pe _ _ _ _ _ _ _ _ _ _ _ hi, Go.ok.injEq, Prod.mk.injEq, Option.some.injEq] at hrun
    refine findKey_eq L hd ?_
    have hd' := hd
    rw [hrun.1] at hd'
    simp only [Option.some.injEq] at hd'
    refine C44_guesses L hash cm tok L.h (rnd.uc • L.hb - L.g) sk rnd.d1 rnd.d2 rnd.d3 c Left k h1 d ?_ hc hbig
    rw [newDisjunctiveProof_left L _ _ _ _ _ _ _ _ _ hs, hd']
  · obtain ⟨r, e, hre⟩ := C46_refuses L hash cm tok _ 0 sk Left rnd (L.mult_pe _ _)
      (Or.inr (Or.inr ⟨rfl, rfl, fun h => hs (by rw [h, L.same_self]), fun h => hs (by
        rw [h]; exact L.same_iff.2 (Or.inr (by simp)))⟩))
    rw [hre] at h
    simp at h

/-- C144 is false.  When SHA-256 is a random function, whatever numbers the prover draws, an ABC proof for the value 0
that is published reveals the secret key to anyone who tries 2^k + 1 numbers, except with probability
(N / 2^k + 1) (2^256 / N + 1) / 2^256. -/
theorem C144_key_probability (L : Lawful cp E) (cm tok : E) (sk : Int) (rnd : ABCRand) (k : Nat)
    (h1 : 0 ≤ rnd.d1 ∧ rnd.d1 < cp.C.N) (hsk : ¬ (cp.C.N : Int) ∣ sk)
    (htok : mult cp (L.pe cm) (some sk) = .ok (L.pe tok)) :
    ∃ b : Bytes, ∀ S : Finset Bytes, b ∈ S →
      1 - (cp.C.N / 2 ^ k + 1 : ℕ) * perChal cp.C.N / 2 ^ 256 ≤ prob fun f : S → Word =>
        ∃ pr, newABCProof (hashOf S f) cp (L.pe cm) (L.pe tok) 0 sk Left rnd = .ok (some pr, none) ∧
          ∃ y, findKey cp k (L.pe (sk • L.hb)) pr = some y ∧ y ≡ sk [ZMOD cp.C.N] := by
  obtain ⟨isk, hi, _⟩ := modInverse_some L.prime hsk
  rw [L.mult_pe, Go.ok.injEq, L.pe_inj] at htok
  have hs : L.same (sk • L.eff cm) tok = true := by rw [htok, L.same_self]
  let as : List E := [cm, tok, L.h, rnd.uc • L.hb - L.g, rnd.d1 • L.eff cm,
    rnd.d2 • L.eff L.h - rnd.d3 • L.eff (rnd.uc • L.hb - L.g)]
  refine ⟨hashed (as.map L.pe), fun S hb => ?_⟩
  have hN := L.prime.pos
  have hf := prob_fresh (S := S) (fun ω : Word => 2 ^ k * ((chalOf cp.C.N ω - rnd.d3) % (cp.C.N : Int)) < cp.C.N)
    _ (num_near cp.C.N hN rnd.d3 k) ⟨_, hb⟩
  rw [card_word] at hf
  refine prob_not ?_ (hf.trans (le_of_eq (by push_cast; norm_num)))
  intro f hq
  obtain ⟨ct, hrun⟩ := newABCProof_left L (hashOf S f) cm tok sk rnd hs
  rw [L.finishABC_pe _ _ _ _ _ _ _ _ _ _ _ hi] at hrun
  refine ⟨_, hrun, C144_key_leak L (hashOf S f) cm tok sk rnd k h1 hsk _ _ _ hrun rfl rfl ?_⟩
  have hch := chal_hashOf L S f ⟨_, hb⟩ as rfl
  simp only [as] at hch
  rw [hch]
  exact not_lt.1 hq

/-- C144 on `TestCurve`: for every key, commitment to 0 and draws, someone who sees the proof and the public key
finds the secret key with 257 trials for each side with probability at least 99 / 100. -/
theorem C144_refuted : ∃ cp, Curve.testCurve = .ok cp ∧
    ∀ (sk r : Int) (CM CMTok PubKey : ECPoint) (rnd : ABCRand), ¬ (cp.C.N : Int) ∣ sk →
      pedCommitR cp (some 0) (some r) = .ok CM → mult cp CM (some sk) = .ok CMTok →
      mult cp cp.H (some sk) = .ok PubKey → 0 ≤ rnd.d1 ∧ rnd.d1 < cp.C.N →
      ∃ b : Bytes, ∀ S : Finset Bytes, b ∈ S → (99 / 100 : ℝ) ≤ prob fun f : S → Word =>
        ∃ pr, newABCProof (hashOf S f) cp CM CMTok 0 sk Left rnd = .ok (some pr, none) ∧
          ∃ y, findKey cp 8 PubKey pr = some y ∧ y ≡ sk [ZMOD cp.C.N] := by
  refine ⟨Curve.tc, Curve.testCurve_eq, fun sk r CM CMTok PubKey rnd hsk h1 h2 h3 hd => ?_⟩
  rw [Curve.lawful.pedCommitR_pe, Go.ok.injEq] at h1
  subst h1
  have h2' := h2
  rw [Curve.lawful.mult_pe, Go.ok.injEq] at h2'
  subst h2'
  rw [Curve.lawful.H_pe, Curve.lawful.mult_pe, Go.ok.injEq, Curve.lawful.eff_h] at h3
  subst h3
  obtain ⟨b, hb⟩ := C144_key_probability Curve.lawful _ _ sk rnd 8 hd hsk h2
  refine ⟨b, fun S hS => le_trans ?_ (hb S hS)⟩
  rw [perChal_testCurve]
  have h4 : (Curve.tc.C.N / 2 ^ 8 + 1) * 2 ≤ 2 ^ 249 + 2 := by decide +kernel
  have h5 : (((Curve.tc.C.N / 2 ^ 8 + 1 : ℕ) : ℝ) * (2 : ℕ)) ≤ 2 ^ 249 + 2 := by exact_mod_cast h4
  have h6 : (((Curve.tc.C.N / 2 ^ 8 + 1 : ℕ) : ℝ) * (2 : ℕ)) / 2 ^ 256 ≤ 1 / 100 := by
    rw [div_le_iff₀ (by positivity)]
    refine h5.trans ?_
    norm_num
  linarith

/-- The hypotheses can be met. -/
example : ∃ CM CMTok PubKey, ¬ (Curve.tc.C.N : Int) ∣ 5 ∧ pedCommitR Curve.tc (some 0) (some 3) = .ok CM ∧
    mult Curve.tc CM (some 5) = .ok CMTok ∧ mult Curve.tc Curve.tc.H (some 5) = .ok PubKey ∧
    (0 : Int) ≤ 7 ∧ (7 : Int) < Curve.tc.C.N := by
  have hH : mult Curve.tc Curve.tc.H (some 5) = .ok (Curve.lawful.pe ((5 : Int) • Curve.lawful.eff Curve.lawful.h)) := by
    rw [Curve.lawful.H_pe]
    exact Curve.lawful.mult_pe _ _
  exact ⟨_, _, _, by decide +kernel, Curve.lawful.pedCommitR_pe _ _, Curve.lawful.mult_pe _ _, hH, by decide,
    by decide +kernel⟩

/-- The hypotheses of `C144_key_leak` can be met: the key 6 is found. -/
example : ∃ pr d y, newABCProof (fun _ => [4]) Toy.params (Toy.lawful.pe 3) (Toy.lawful.pe 4) 0 6 Left
      ⟨1, 1, 1, 1, 1, 5, 1, 0⟩ = .ok (some pr, none) ∧ pr.disjuncAC = some d ∧ d.C1 = some 4 ∧
    (Toy.params.C.N : Int) ≤ 2 ^ 1 * 4 ∧
    findKey Toy.params 1 (Toy.lawful.pe ((6 : Int) • Toy.lawful.hb)) pr = some y ∧ y ≡ 6 [ZMOD 7] := by
  have hs : Toy.lawful.same ((6 : Int) • Toy.lawful.eff 3) 4 = true := by
    rw [Toy.eff_plain 3 (by decide)]; decide
  have hsk : ¬ (Toy.params.C.N : Int) ∣ 6 := by decide
  obtain ⟨isk, hi, _⟩ := modInverse_some Toy.lawful.prime hsk
  obtain ⟨ct, hrun⟩ := newABCProof_left Toy.lawful (fun _ => [4]) 3 4 6 ⟨1, 1, 1, 1, 1, 5, 1, 0⟩ hs
  rw [Toy.lawful.finishABC_pe _ _ _ _ _ _ _ _ _ _ _ hi] at hrun
  have hc : ∀ as, Toy.lawful.chal (fun _ => [4]) as = 4 := fun _ => rfl
  have h4 : (leftProof Toy.lawful (fun _ => [4]) 3 4 Toy.lawful.h ((1 : Int) • Toy.lawful.hb - Toy.lawful.g) 6 5 1
      0).C1 = some 4 := by simp only [leftProof, hc]; decide
  obtain ⟨y, h1, h2⟩ := C144_key_leak Toy.lawful (fun _ => [4]) 3 4 6 ⟨1, 1, 1, 1, 1, 5, 1, 0⟩ 1 (by decide) hsk _ _ 4
    hrun rfl h4 (by decide)
  exact ⟨_, _, y, hrun, rfl, h4, by decide, h1, h2⟩

/-- A right proof and the simulator without the key, given the answer to the question of the nested proof.  See
abc.go:61-170. -/
noncomputable def keylessSimulation (L : Lawful cp E) (hs : Small L) (cm tok : E) (v w ua sk isk : Int)
    (hcm : v • L.g + ua • L.hb = cm) (htok : (ua * sk) • L.hb = tok) (htok0 : tok ≠ 0) (o : L.eff tok = tok)
    (hw : modInverse v cp.C.N = some w) (hi : isk * sk ≡ 1 [ZMOD cp.C.N]) (rnd : ABCRand) (S : Finset Bytes)
    (hS : ∀ u : Fin cp.C.N, hashed ((outer L cm tok w { rnd with u2 := (u : Nat) }).map L.pe) ∈ S) :
    Simulation S (Fin cp.C.N) (Bytes → Go (Option ABCProof × Option Err)) where
  com u := ⟨_, hS u⟩
  pf u d := rightABC L cm tok v w sk isk { rnd with u2 := (u : Nat) } d
  e ω := shiftFin cp.C.N L.prime.pos (-(isk * chalOf cp.C.N ω))
  κ := 33
  hκ c := (num_com (fun u : Fin cp.C.N => hashed ((outer L cm tok w { rnd with u2 := (u : Nat) }).map L.pe))
      (fun u => size (L.pe (rnd.u1 • L.g + ((u : Nat) : Int) • L.eff tok)).X)
      (fun u v h1 h2 => by
        rw [hashed_pe, hashed_pe] at h1
        simp only [outer, List.map_cons, List.map_nil, List.flatten_cons, List.flatten_nil, List.append_nil,
          List.append_cancel_left_eq, List.append_cancel_right_eq] at h1
        have e1 := add_left_cancel (one_point L hs h1 h2)
        rw [o] at e1
        exact fin_eq_of_smul L htok0 e1) c).trans (by rw [Fintype.card_fin])
  prove u h := rightABC L cm tok v w sk isk { rnd with u2 := (u : Nat) }
    (h (hashed ((outer L cm tok w { rnd with u2 := (u : Nat) }).map L.pe)))
  simu k ω d₀ := simKeyless (fun _ => d₀) cp (L.pe cm) (L.pe tok) (L.pe (sk • L.hb)) v rnd (k : Nat)
    (chalOf cp.C.N ω)
  ask p := askGo (abcAsk cp (L.pe cm) (L.pe tok)) (p [])
  hp u h := rfl
  hs k ω := by
    funext d₀
    rw [simKeyless_eq L _ cm tok v w ua sk isk rnd _ (chalOf cp.C.N ω) hcm htok o hw hi
      ⟨by omega, by exact_mod_cast k.2⟩ (bytesOf ω) rfl, val_shiftFin]
  ha u d := by
    simp only [askGo, rightABC, abcAsk, outer, L.G_pe, L.H_pe, List.map_cons, List.map_nil]

/-- C144, what holds: an ABC proof for a value that is not 0 reveals nothing about the secret key beyond the public key
and the statement.  When SHA-256 is a random function, whatever the other numbers are that the prover draws, someone
who asks `q` questions before it gets the proof cannot tell it from the output of a simulator that is given the value and
the public key but not the secret key, except with probability 33 (q + 1) / N.  Missing: proofs for the value 0, for which it
is false. -/
theorem C144_nonzero_partial (L : Lawful cp E) (hs : Small L) (cm tok : E) (v ua sk : Int)
    (hcm : pedCommitR cp (some v) (some ua) = .ok (L.pe cm)) (htok : tok = (ua * sk) • L.hb) (htok0 : tok ≠ 0)
    (o : L.MultOk tok) (hv : ¬ (cp.C.N : Int) ∣ v) (hsk : ¬ (cp.C.N : Int) ∣ sk) (rnd : ABCRand) {σ : Type}
    (D1 : Adv σ) (D2 : σ → Go (Option ABCProof × Option Err) → Adv Bool) (q : Nat)
    (hq : ∀ h, D1.count h ≤ q) (S : Finset Bytes)
    (hS : ∀ (h : Bytes → Bytes) (u : Fin cp.C.N), askGo (abcAsk cp (L.pe cm) (L.pe tok))
      (newABCProof h cp (L.pe cm) (L.pe tok) v sk Right { rnd with u2 := (u : Nat) }) ∈ S) :
    |(prob fun z : (S → Word) × Fin cp.C.N => realBit D1 D2
        (fun h => newABCProof h cp (L.pe cm) (L.pe tok) v sk Right { rnd with u2 := (z.2 : Nat) })
        (hashOf S z.1) = true) -
      (prob fun z : (S → Word) × Fin cp.C.N × Word => simBit D1 D2
        (simKeyless (hashOf S z.1) cp (L.pe cm) (L.pe tok) (L.pe (sk • L.hb)) v rnd (z.2.1 : Nat)
          (chalOf cp.C.N z.2.2))
        (askGo (abcAsk cp (L.pe cm) (L.pe tok)) (simKeyless (hashOf S z.1) cp (L.pe cm) (L.pe tok)
          (L.pe (sk • L.hb)) v rnd (z.2.1 : Nat) (chalOf cp.C.N z.2.2)))
        (bytesOf z.2.2) (hashOf S z.1) = true)| ≤ 33 * (q + 1) / (cp.C.N : ℝ) := by
  have : Nonempty (Fin cp.C.N) := ⟨⟨0, L.prime.pos⟩⟩
  have hv0 : v ≠ 0 := by rintro rfl; exact hv (dvd_zero _)
  obtain ⟨isk, hi, hi'⟩ := modInverse_some L.prime hsk
  obtain ⟨w, hw, _⟩ := modInverse_some L.prime hv
  rw [L.pedCommitR_pe, Go.ok.injEq, L.pe_inj] at hcm
  rw [L.multOk_iff_eff] at o
  have hS' : ∀ u : Fin cp.C.N, hashed ((outer L cm tok w { rnd with u2 := (u : Nat) }).map L.pe) ∈ S := fun u => by
    have := hS (fun _ => []) u
    rw [newABCProof_rightABC L _ cm tok v w sk isk _ hv0 hw hi] at this
    simpa only [askGo, rightABC, abcAsk, outer, L.G_pe, L.H_pe, List.map_cons, List.map_nil] using this
  have hz := zk_close S (keylessSimulation L hs cm tok v w ua sk isk hcm htok.symm htok0 o hw hi' rnd S hS')
    (D1.andAsk fun _ => [hashed ((nested L cm tok rnd).map L.pe)]) (fun p β => D2 p.1 (β (p.2.headD []))) (q + 1)
    (fun h => by rw [Adv.count_andAsk]; exact Nat.add_le_add_right (hq h) 1)
  have hsim : ∀ (h : Bytes → Bytes) (k : Fin cp.C.N) (ω : Word),
      simKeyless (fun _ => h (hashed ((nested L cm tok rnd).map L.pe))) cp (L.pe cm) (L.pe tok) (L.pe (sk • L.hb)) v
        rnd (k : Nat) (chalOf cp.C.N ω) =
      simKeyless h cp (L.pe cm) (L.pe tok) (L.pe (sk • L.hb)) v rnd (k : Nat) (chalOf cp.C.N ω) := by
    intro h k ω
    have hk : (0 : Int) ≤ (k : Nat) ∧ ((k : Nat) : Int) < cp.C.N := ⟨by omega, by exact_mod_cast k.2⟩
    rw [simKeyless_eq L _ cm tok v w ua sk isk rnd _ (chalOf cp.C.N ω) hcm htok.symm o hw hi' hk (bytesOf ω) rfl,
      simKeyless_eq L _ cm tok v w ua sk isk rnd _ (chalOf cp.C.N ω) hcm htok.symm o hw hi' hk (bytesOf ω) rfl]
  have hask : ∀ (h : Bytes → Bytes) (k : Fin cp.C.N) (ω : Word),
      (keylessSimulation L hs cm tok v w ua sk isk hcm htok.symm htok0 o hw hi' rnd S hS').ask
        ((keylessSimulation L hs cm tok v w ua sk isk hcm htok.symm htok0 o hw hi' rnd S hS').simu k ω) =
      askGo (abcAsk cp (L.pe cm) (L.pe tok)) (simKeyless h cp (L.pe cm) (L.pe tok) (L.pe (sk • L.hb)) v rnd
        (k : Nat) (chalOf cp.C.N ω)) := by
    intro h k ω
    have hk : (0 : Int) ≤ (k : Nat) ∧ ((k : Nat) : Int) < cp.C.N := ⟨by omega, by exact_mod_cast k.2⟩
    simp only [keylessSimulation]
    rw [simKeyless_eq L _ cm tok v w ua sk isk rnd _ (chalOf cp.C.N ω) hcm htok.symm o hw hi' hk (bytesOf ω) rfl,
      simKeyless_eq L _ cm tok v w ua sk isk rnd _ (chalOf cp.C.N ω) hcm htok.symm o hw hi' hk (bytesOf ω) rfl]
    rfl
  have r1 : ∀ z : (S → Word) × Fin cp.C.N, realBit (D1.andAsk fun _ => [hashed ((nested L cm tok rnd).map L.pe)])
      (fun p β => D2 p.1 (β (p.2.headD [])))
      ((keylessSimulation L hs cm tok v w ua sk isk hcm htok.symm htok0 o hw hi' rnd S hS').prove z.2)
      (hashOf S z.1) = realBit D1 D2
        (fun h => newABCProof h cp (L.pe cm) (L.pe tok) v sk Right { rnd with u2 := (z.2 : Nat) })
        (hashOf S z.1) := by
    intro z
    simp only [realBit, Adv.run_andAsk, List.map_cons, List.headD_cons, keylessSimulation]
    rw [newABCProof_rightABC L _ cm tok v w sk isk _ hv0 hw hi]
    rfl
  have r2 : ∀ z : (S → Word) × Fin cp.C.N × Word, simBit
      (D1.andAsk fun _ => [hashed ((nested L cm tok rnd).map L.pe)])
      (fun p β => D2 p.1 (β (p.2.headD [])))
      ((keylessSimulation L hs cm tok v w ua sk isk hcm htok.symm htok0 o hw hi' rnd S hS').simu z.2.1 z.2.2)
      ((keylessSimulation L hs cm tok v w ua sk isk hcm htok.symm htok0 o hw hi' rnd S hS').ask
        ((keylessSimulation L hs cm tok v w ua sk isk hcm htok.symm htok0 o hw hi' rnd S hS').simu z.2.1 z.2.2))
      (bytesOf z.2.2) (hashOf S z.1) = simBit D1 D2
        (simKeyless (hashOf S z.1) cp (L.pe cm) (L.pe tok) (L.pe (sk • L.hb)) v rnd (z.2.1 : Nat)
          (chalOf cp.C.N z.2.2))
        (askGo (abcAsk cp (L.pe cm) (L.pe tok)) (simKeyless (hashOf S z.1) cp (L.pe cm) (L.pe tok)
          (L.pe (sk • L.hb)) v rnd (z.2.1 : Nat) (chalOf cp.C.N z.2.2)))
        (bytesOf z.2.2) (hashOf S z.1) := by
    intro z
    rw [hask (hashOf S z.1)]
    simp only [simBit, Adv.run_andAsk, List.map_cons, List.headD_cons]
    rw [← hsim]
    rfl
  simp only [r1, r2] at hz
  refine hz.trans (le_of_eq ?_)
  rw [Fintype.card_fin,
    show (keylessSimulation L hs cm tok v w ua sk isk hcm htok.symm htok0 o hw hi' rnd S hS').κ = 33 from rfl]
  push_cast
  ring

/-- The hypotheses can be met. -/
example : Small Toy.lawful ∧ pedCommitR Toy.params (some 2) (some 1) = .ok (Toy.lawful.pe 5) ∧
    (3 : ZMod 7) = ((1 : Int) * 1) • Toy.lawful.hb ∧ (3 : ZMod 7) ≠ 0 ∧ Toy.lawful.MultOk 3 ∧
    ¬ (Toy.params.C.N : Int) ∣ 2 ∧ ¬ (Toy.params.C.N : Int) ∣ 1 ∧ (∀ h, (askOnce [7] id).count h ≤ 1) ∧
    ∃ S : Finset Bytes, ∀ (h : Bytes → Bytes) (u : Fin Toy.params.C.N),
      askGo (abcAsk Toy.params (Toy.lawful.pe 5) (Toy.lawful.pe 3)) (newABCProof h Toy.params (Toy.lawful.pe 5)
        (Toy.lawful.pe 3) 2 1 Right { (⟨1, 1, 1, 1, 1, 5, 1, 0⟩ : ABCRand) with u2 := (u : Nat) }) ∈ S := by
  have h2 : ¬ (Toy.params.C.N : Int) ∣ 2 := by decide
  have h1 : ¬ (Toy.params.C.N : Int) ∣ 1 := by decide
  refine ⟨?_, ?_, by decide, by decide, ?_, h2, h1, fun h => le_rfl, ?_⟩
  · intro a
    have : ∀ a : ZMod 7, (Toy.lawful.enc a).1 < 2 ^ 256 ∧ (Toy.lawful.enc a).2 < 2 ^ 256 := by decide
    exact this a
  · rw [Toy.lawful.pedCommitR_pe, Go.ok.injEq, Toy.lawful.pe_inj]; decide
  · rw [Toy.lawful.multOk_iff_eff, Toy.eff_plain 3 (by decide)]
  · obtain ⟨w, hw, _⟩ := modInverse_some Toy.lawful.prime h2
    obtain ⟨i, hi, _⟩ := modInverse_some Toy.lawful.prime h1
    obtain ⟨S, hS⟩ := exists_strings fun u : Fin Toy.params.C.N => hashed ((outer Toy.lawful 5 3 w
      { (⟨1, 1, 1, 1, 1, 5, 1, 0⟩ : ABCRand) with u2 := (u : Nat) }).map Toy.lawful.pe)
    refine ⟨S, fun h u => ?_⟩
    rw [newABCProof_rightABC Toy.lawful h 5 3 2 w 1 i _ (by decide) hw hi]
    have := hS u
    simpa only [askGo, rightABC, abcAsk, outer, Toy.lawful.G_pe, Toy.lawful.H_pe, List.map_cons, List.map_nil] using this

end Zk.Rom
