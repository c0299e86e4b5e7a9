import Verif.Rom.Value

/-! # Property C152: proofs made with a wrong value or a wrong key are refused -/

namespace Zk.Rom

open Zk Zk.Proto

variable {cp : Params} {E : Type} [AddCommGroup E]

/-- `Verify` does not panic on the proofs that `NewABCProof` makes, whatever they were made from. -/
theorem abcVerify_total (L : Lawful cp E) (hash : Bytes → Bytes) (cm tok B C t1 t2 s1 s2 : E)
    (c j k l c₀ c1 c2 z1 z2 : Int) (ct : ECPoint) :
    ∃ st, abcVerify hash cp (some ⟨L.pe B, L.pe C, L.pe t1, L.pe t2, some c, some j, some k, some l, ct,
      some ⟨L.pe s1, L.pe s2, some c₀, some c1, some c2, some z1, some z2⟩⟩) (L.pe cm) (L.pe tok) = .ok st := by
  have hd : ∃ st, disjunctiveVerify hash cp (some ⟨L.pe s1, L.pe s2, some c₀, some c1, some c2, some z1, some z2⟩)
      (L.pe cm) (L.pe tok) (L.pe L.h) (L.pe (C - L.g)) = .ok st := by
    simp only [disjunctiveVerify, deref_some, Go.bind_ok, L.challengeOf₆, cmpEq, L.mult_pe, L.add_pe, L.equal_pe,
      Go.pure_eq]
    split_ifs <;> exact ⟨_, rfl⟩
  obtain ⟨st, hst⟩ := hd
  simp only [abcVerify, deref_some, Go.bind_ok, L.G_pe, L.H_pe, L.sub_pe, L.challengeOf₈, cmpEq, hst,
    L.mult_pe, L.add_pe, L.equal_pe, Go.pure_eq]
  split_ifs <;> exact ⟨_, rfl⟩

/-- The challenges for which a proof made with the value `v` and the inverse `isk` of the key can pass.  `t1` is the
point T1 of the proof.  See abc.go:193-207. -/
def passing (L : Lawful cp E) (cm tok t1 : E) (v isk : Int) : Set Int :=
  {c | (0 ≤ c ∧ c < cp.C.N) ∧ (c • (L.eff cm - v • L.g - isk • L.eff tok) = 0 ∨
    (2 : Int) • t1 + c • (L.eff cm + v • L.g + isk • L.eff tok) = 0)}

theorem passing_card (L : Lawful cp E) (cm tok t1 : E) (v isk : Int)
    (h1 : L.eff cm ≠ v • L.g + isk • L.eff tok) (h2 : L.eff cm ≠ -(v • L.g + isk • L.eff tok) ∨ t1 ≠ 0) :
    (passing L cm tok t1 v isk).encard ≤ (2 : ℕ) := by
  have hM : L.eff cm - v • L.g - isk • L.eff tok ≠ 0 := by
    intro h
    apply h1
    linear_combination (norm := module) h
  generalize hP : L.eff cm + v • L.g + isk • L.eff tok = P
  have hsub : passing L cm tok t1 v isk ⊆
      {0} ∪ {c : Int | (0 ≤ c ∧ c < cp.C.N) ∧ (2 : Int) • t1 + c • P = 0} := by
    rintro c ⟨hc, h | h⟩
    · refine Or.inl ?_
      rw [L.smul_eq_zero hM] at h
      obtain ⟨q, rfl⟩ := h
      have hN : (0 : Int) < cp.C.N := by exact_mod_cast L.prime.pos
      have : q = 0 := by nlinarith
      simp [this]
    · exact Or.inr ⟨hc, by rw [← hP]; exact h⟩
  refine (Set.encard_le_encard hsub).trans ((Set.encard_union_le _ _).trans ?_)
  have : {c : Int | (0 ≤ c ∧ c < cp.C.N) ∧ (2 : Int) • t1 + c • P = 0}.encard ≤ 1 := by
    rw [Set.encard_le_one_iff]
    rintro a b ⟨ha, ha'⟩ ⟨hb, hb'⟩
    by_cases hP0 : P = 0
    · exfalso
      have ht : t1 ≠ 0 := by
        rcases h2 with h2 | h2
        · refine absurd ?_ h2
          rw [hP0] at hP
          linear_combination (norm := module) hP
        · exact h2
      rw [hP0, smul_zero, add_zero, L.smul_eq_zero ht] at ha'
      have := Int.le_of_dvd (by norm_num) ha'
      have := L.five_lt
      omega
    · have : a • P = b • P := by linear_combination (norm := module) ha' - hb'
      rw [L.smul_eq_smul hP0, Int.emod_eq_of_lt ha.1 ha.2, Int.emod_eq_of_lt hb.1 hb.2] at this
      exact this
  rw [Set.encard_singleton]
  calc (1 : ℕ∞) + _ ≤ 1 + 1 := by gcongr
    _ = _ := by norm_num

/-- C152, for every hash function: a proof that `NewABCProof` makes with a value and a key that do not fit the
commitment and the token is refused with an error, unless the challenge is one of at most two numbers, which the
prover's draws determine before anything is hashed. -/
theorem C152_wrong_refused (L : Lawful cp E) (cm tok : E) (v sk : Int) (rnd : ABCRand)
    (hv : ¬ (cp.C.N : Int) ∣ v) (hsk : ¬ (cp.C.N : Int) ∣ sk)
    (h1 : ∀ i : Int, i * sk ≡ 1 [ZMOD cp.C.N] → L.eff cm ≠ v • L.g + i • L.eff tok)
    (h2 : (∀ i : Int, i * sk ≡ 1 [ZMOD cp.C.N] → L.eff cm ≠ -(v • L.g + i • L.eff tok)) ∨
      rnd.u1 • L.g + rnd.u2 • L.eff tok ≠ 0) :
    ∃ C : Set Int, C.encard ≤ (2 : ℕ) ∧ ∀ hash : Bytes → Bytes, ∃ pr c,
      newABCProof hash cp (L.pe cm) (L.pe tok) v sk Right rnd = .ok (some pr, none) ∧ pr.Challenge = some c ∧
      (c ∉ C → ∃ err, abcVerify hash cp (some pr) (L.pe cm) (L.pe tok) = .ok (false, some err)) := by
  have hv0 : v ≠ 0 := by rintro rfl; exact hv (dvd_zero _)
  obtain ⟨isk, hi, hinv⟩ := modInverse_some L.prime hsk
  obtain ⟨w, hw, _⟩ := modInverse_some L.prime hv
  refine ⟨passing L cm tok (rnd.u1 • L.g + rnd.u2 • L.eff tok) v isk,
    passing_card L _ _ _ _ _ (h1 isk hinv) (h2.imp (fun h => h isk hinv) id), fun hash => ?_⟩
  have hrun := newABCProof_rightABC L hash cm tok v w sk isk rnd hv0 hw hi
  simp only [rightABC] at hrun
  refine ⟨_, _, hrun, rfl, fun hc => ?_⟩
  obtain ⟨st, hst⟩ := abcVerify_total L hash cm tok (w • L.g + rnd.ub • L.hb) (L.g + rnd.uc • L.hb)
    (rnd.u1 • L.g + rnd.u2 • L.eff tok) (rnd.u1 • L.eff (w • L.g + rnd.ub • L.hb) + rnd.u3 • L.hb) _ _
    (setBytes (hash (hashed ((outer L cm tok w rnd).map L.pe))) % (cp.C.N : Int)) _ _ _ _ _ _ _ _ _
  refine ?_
  rw [rightProof] at *
  rw [hst]
  rcases (C31_verify_consistent_partial hash cp).2.2.2.2.1 _ _ _ st.1 st.2 hst with ⟨e1, e2⟩ | ⟨e1, e2⟩
  · exfalso
    have hacc : st = accept := Prod.ext e1 e2
    rw [hacc, L.abcVerify_iff] at hst
    obtain ⟨_, _, hst, _⟩ := hst
    apply hc
    have hN : (0 : Int) < cp.C.N := by exact_mod_cast L.prime.pos
    refine ⟨⟨Int.emod_nonneg _ hN.ne', Int.emod_lt_of_pos _ hN⟩, ?_⟩
    generalize (setBytes (hash (hashed ((outer L cm tok w rnd).map L.pe))) : Int) % (cp.C.N : Int) = c at hst ⊢
    rw [L.same_iff, L.smul_mod, L.smul_mod] at hst
    refine hst.imp (fun h => ?_) (fun h => ?_) <;> linear_combination (norm := module) h
  · obtain ⟨b, e⟩ := st
    simp only at e1 e2
    cases e with
    | none => exact absurd rfl e2
    | some e => exact ⟨e, by rw [e1]⟩

/-- C152 with probabilities: when SHA-256 is a random function, a proof that `NewABCProof` makes with a value and a key
that do not fit the commitment and the token is made without an error, and refused with an error, except with
probability 2 (2^256 / N + 1) / 2^256. -/
theorem C152_wrong_probability (L : Lawful cp E) (cm tok : E) (v sk : Int) (rnd : ABCRand)
    (hv : ¬ (cp.C.N : Int) ∣ v) (hsk : ¬ (cp.C.N : Int) ∣ sk)
    (h1 : ∀ i : Int, i * sk ≡ 1 [ZMOD cp.C.N] → L.eff cm ≠ v • L.g + i • L.eff tok)
    (h2 : (∀ i : Int, i * sk ≡ 1 [ZMOD cp.C.N] → L.eff cm ≠ -(v • L.g + i • L.eff tok)) ∨
      rnd.u1 • L.g + rnd.u2 • L.eff tok ≠ 0) :
    ∃ b : Bytes, ∀ S : Finset Bytes, b ∈ S →
      1 - 2 * perChal cp.C.N / 2 ^ 256 ≤ prob fun f : S → Word =>
        ∃ pr, newABCProof (hashOf S f) cp (L.pe cm) (L.pe tok) v sk Right rnd = .ok (some pr, none) ∧
          ∃ err, abcVerify (hashOf S f) cp (some pr) (L.pe cm) (L.pe tok) = .ok (false, some err) := by
  have hv0 : v ≠ 0 := by rintro rfl; exact hv (dvd_zero _)
  obtain ⟨isk, hi, _⟩ := modInverse_some L.prime hsk
  obtain ⟨w, hw, _⟩ := modInverse_some L.prime hv
  obtain ⟨C, hC, hall⟩ := C152_wrong_refused L cm tok v sk rnd hv hsk h1 h2
  refine ⟨hashed ((outer L cm tok w rnd).map L.pe), fun S hb => ?_⟩
  have hf := prob_fresh (S := S) (fun ω : Word => chalOf cp.C.N ω ∈ C) _ (num_chals cp.C.N C 2 hC) ⟨_, hb⟩
  rw [card_word] at hf
  refine prob_not ?_ (hf.trans (le_of_eq (by push_cast; ring)))
  intro f hq
  obtain ⟨pr, c, hrun, hc, href⟩ := hall (hashOf S f)
  refine ⟨pr, hrun, href ?_⟩
  have hrun' := newABCProof_rightABC L (hashOf S f) cm tok v w sk isk rnd hv0 hw hi
  rw [hrun] at hrun'
  simp only [rightABC, Go.ok.injEq, Prod.mk.injEq, Option.some.injEq, and_true] at hrun'
  have hch := chal_hashOf L S f ⟨_, hb⟩ (outer L cm tok w rnd) rfl
  rw [chal_hash] at hch
  rw [hrun', Option.some.injEq, hch] at hc
  rw [← hc]
  exact hq

/-- The inverse of the key takes the token to the blinding of the commitment. -/
theorem token_inv (L : Lawful cp E) {i sk : Int} (h : i * sk ≡ 1 [ZMOD cp.C.N]) (r : Int) :
    i • (r * sk) • L.hb = r • L.hb := by
  rw [← mul_smul, show i * (r * sk) = r * (i * sk) by ring, mul_smul, L.smul_congr h, one_smul]

/-- C152, wrong value: the commitment is to `v` with the blinding `r`, and `NewABCProof` is called with another value
`v'`.  Missing: commitments and tokens at which `Mult` is not scalar multiplication, and the case that
(v + v')*G + 2r*H is the identity. -/
theorem C152_wrong_value_partial (L : Lawful cp E) (cm tok : E) (v v' r sk : Int) (rnd : ABCRand)
    (hcm : pedCommitR cp (some v) (some r) = .ok (L.pe cm)) (htok : tok = (r * sk) • L.hb)
    (hv : ¬ (cp.C.N : Int) ∣ v') (hsk : ¬ (cp.C.N : Int) ∣ sk) (hne : ¬ v' ≡ v [ZMOD cp.C.N])
    (o1 : L.MultOk cm) (o2 : L.MultOk tok)
    (hs : pedCommitR cp (some (v + v')) (some (2 * r)) ≠ .ok Zero) :
    ∃ b : Bytes, ∀ S : Finset Bytes, b ∈ S →
      1 - 2 * perChal cp.C.N / 2 ^ 256 ≤ prob fun f : S → Word =>
        ∃ pr, newABCProof (hashOf S f) cp (L.pe cm) (L.pe tok) v' sk Right rnd = .ok (some pr, none) ∧
          ∃ err, abcVerify (hashOf S f) cp (some pr) (L.pe cm) (L.pe tok) = .ok (false, some err) := by
  rw [L.pedCommitR_pe, Go.ok.injEq, L.pe_inj] at hcm
  rw [L.pedCommitR_pe, Ne, Go.ok.injEq, ← L.pe_zero, L.pe_inj] at hs
  rw [L.multOk_iff_eff] at o1 o2
  refine C152_wrong_probability L cm tok v' sk rnd hv hsk ?_ (Or.inl ?_)
  · intro i hi h
    rw [o1, o2, htok, token_inv L hi, ← hcm, add_left_inj, L.smul_eq_smul L.g_ne] at h
    exact hne h.symm
  · intro i hi h
    rw [o1, o2, htok, token_inv L hi, ← hcm] at h
    apply hs
    linear_combination (norm := module) h

/-- C152, wrong key: the token is made for the key `sk`, and `NewABCProof` is called with another key `sk'`.
Missing: as for a wrong value, with the point 2v*G + (r + r*sk/sk')*H instead. -/
theorem C152_wrong_key_partial (L : Lawful cp E) (cm tok : E) (v r sk sk' : Int) (rnd : ABCRand)
    (hcm : pedCommitR cp (some v) (some r) = .ok (L.pe cm)) (htok : tok = (r * sk) • L.hb)
    (hv : ¬ (cp.C.N : Int) ∣ v) (hr : ¬ (cp.C.N : Int) ∣ r) (hsk : ¬ (cp.C.N : Int) ∣ sk')
    (hne : ¬ sk' ≡ sk [ZMOD cp.C.N]) (o1 : L.MultOk cm) (o2 : L.MultOk tok)
    (hs : ∀ i : Int, i * sk' ≡ 1 [ZMOD cp.C.N] →
      pedCommitR cp (some (2 * v)) (some (r + i * (r * sk))) ≠ .ok Zero) :
    ∃ b : Bytes, ∀ S : Finset Bytes, b ∈ S →
      1 - 2 * perChal cp.C.N / 2 ^ 256 ≤ prob fun f : S → Word =>
        ∃ pr, newABCProof (hashOf S f) cp (L.pe cm) (L.pe tok) v sk' Right rnd = .ok (some pr, none) ∧
          ∃ err, abcVerify (hashOf S f) cp (some pr) (L.pe cm) (L.pe tok) = .ok (false, some err) := by
  rw [L.pedCommitR_pe, Go.ok.injEq, L.pe_inj] at hcm
  rw [L.multOk_iff_eff] at o1 o2
  refine C152_wrong_probability L cm tok v sk' rnd hv hsk ?_ (Or.inl ?_)
  · intro i hi h
    rw [o1, o2, htok, ← hcm, add_right_inj, ← mul_smul, L.smul_eq_smul L.hb_ne] at h
    have hp : _root_.Prime (cp.C.N : Int) := Nat.prime_iff_prime_int.1 L.prime
    have h3 : (cp.C.N : Int) ∣ r * (sk - sk') := by
      have e1 : r * sk' ≡ i * (r * sk) * sk' [ZMOD cp.C.N] := Int.ModEq.mul_right _ h
      have e2 : i * (r * sk) * sk' ≡ r * sk [ZMOD cp.C.N] := by
        have := hi.mul_left (r * sk)
        calc i * (r * sk) * sk' = r * sk * (i * sk') := by ring
          _ ≡ r * sk * 1 [ZMOD cp.C.N] := this
          _ = r * sk := by ring
      have := (e1.trans e2).dvd
      rwa [← mul_sub] at this
    rcases hp.dvd_or_dvd h3 with h4 | h4
    · exact hr h4
    · exact hne (Int.modEq_iff_dvd.2 h4)
  · intro i hi h
    have hs := hs i hi
    rw [L.pedCommitR_pe, Ne, Go.ok.injEq, ← L.pe_zero, L.pe_inj] at hs
    rw [o1, o2, htok, ← hcm] at h
    apply hs
    linear_combination (norm := module) h

/-- C152, inequality: `NewInequalityProof` called with values whose difference is not that of the committed values.
Missing: as for a wrong value, for the differences. -/
theorem C152_inequality_partial (L : Lawful cp E) (A B tA tB : E) (a b a' b' ra rb sk : Int) (rnd : ABCRand)
    (hA : pedCommitR cp (some a) (some ra) = .ok (L.pe A)) (hB : pedCommitR cp (some b) (some rb) = .ok (L.pe B))
    (htA : tA = (ra * sk) • L.hb) (htB : tB = (rb * sk) • L.hb)
    (hv : ¬ a' ≡ b' [ZMOD cp.C.N]) (hsk : ¬ (cp.C.N : Int) ∣ sk) (hne : ¬ a' - b' ≡ a - b [ZMOD cp.C.N])
    (o1 : L.MultOk (A - B)) (o2 : L.MultOk (tA - tB))
    (hs : pedCommitR cp (some (a - b + (a' - b'))) (some (2 * (ra - rb))) ≠ .ok Zero) :
    ∃ q : Bytes, ∀ S : Finset Bytes, q ∈ S →
      1 - 2 * perChal cp.C.N / 2 ^ 256 ≤ prob fun f : S → Word =>
        ∃ pr, newInequalityProof (hashOf S f) cp (L.pe A) (L.pe B) (L.pe tA) (L.pe tB) a' b' sk rnd =
            .ok (some pr, none) ∧
          ∃ err, inequalityVerify (hashOf S f) cp (some pr) (L.pe (A - B)) (L.pe (tA - tB)) =
            .ok (false, some err) := by
  have hab : a' ≠ b' := by rintro rfl; exact hv rfl
  rw [L.pedCommitR_pe, Go.ok.injEq, L.pe_inj] at hA hB
  obtain ⟨q, hq⟩ := C152_wrong_value_partial L (A - B) (tA - tB) (a - b) (a' - b') (ra - rb) sk rnd
    (by rw [L.pedCommitR_pe, ← hA, ← hB]; congr 2; module) (by rw [htA, htB]; module)
    (fun h => hv (Int.modEq_iff_dvd.2 h).symm) hsk hne o1 o2 hs
  refine ⟨q, fun S hS => (hq S hS).trans (prob_mono ?_)⟩
  rintro f ⟨pr, h1, err, h2⟩
  refine ⟨pr, ?_, err, h2⟩
  rw [newInequalityProof, if_neg hab]
  simp [L.sub_pe, h1]

/-- C152, the case of the tests: the two values in the wrong order.  The proof is refused if the values differ and the
two commitments have different blindings. -/
theorem C152_swapped_partial (L : Lawful cp E) (A B tA tB : E) (a b ra rb sk : Int) (rnd : ABCRand)
    (hA : pedCommitR cp (some a) (some ra) = .ok (L.pe A)) (hB : pedCommitR cp (some b) (some rb) = .ok (L.pe B))
    (htA : tA = (ra * sk) • L.hb) (htB : tB = (rb * sk) • L.hb)
    (hv : ¬ a ≡ b [ZMOD cp.C.N]) (hr : ¬ ra ≡ rb [ZMOD cp.C.N]) (hsk : ¬ (cp.C.N : Int) ∣ sk)
    (o1 : L.MultOk (A - B)) (o2 : L.MultOk (tA - tB)) :
    ∃ q : Bytes, ∀ S : Finset Bytes, q ∈ S →
      1 - 2 * perChal cp.C.N / 2 ^ 256 ≤ prob fun f : S → Word =>
        ∃ pr, newInequalityProof (hashOf S f) cp (L.pe A) (L.pe B) (L.pe tA) (L.pe tB) b a sk rnd =
            .ok (some pr, none) ∧
          ∃ err, inequalityVerify (hashOf S f) cp (some pr) (L.pe (A - B)) (L.pe (tA - tB)) =
            .ok (false, some err) := by
  have hp : _root_.Prime (cp.C.N : Int) := Nat.prime_iff_prime_int.1 L.prime
  have h2 : ¬ (cp.C.N : Int) ∣ 2 := fun h => by
    have := Int.le_of_dvd (by norm_num) h
    have := L.five_lt
    omega
  refine C152_inequality_partial L A B tA tB a b b a ra rb sk rnd hA hB htA htB (fun h => hv h.symm) hsk ?_ o1 o2 ?_
  · intro h
    have := h.dvd
    rw [show a - b - (b - a) = 2 * (a - b) by ring] at this
    rcases hp.dvd_or_dvd this with h3 | h3
    · exact h2 h3
    · exact hv (Int.modEq_iff_dvd.2 h3).symm
  · rw [L.pedCommitR_pe, Ne, Go.ok.injEq, ← L.pe_zero, L.pe_inj, show a - b + (b - a) = 0 by ring, zero_smul, zero_add,
      L.smul_eq_zero L.hb_ne]
    intro h
    rcases hp.dvd_or_dvd h with h3 | h3
    · exact h2 h3
    · exact hr (Int.modEq_iff_dvd.2 h3).symm

/-- C152 as a user needs it: a proof made with a value other than the committed one can be refused.
See abc.go:61-170 and 173-222. -/
def WrongValueRefused (L : Lawful cp E) : Prop :=
  ∀ (cm tok : E) (v v' r sk : Int) (rnd : ABCRand),
    pedCommitR cp (some v) (some r) = .ok (L.pe cm) → tok = (r * sk) • L.hb →
    ¬ (cp.C.N : Int) ∣ v' → ¬ (cp.C.N : Int) ∣ sk → ¬ v' ≡ v [ZMOD cp.C.N] →
    ∃ hash pr, newABCProof hash cp (L.pe cm) (L.pe tok) v' sk Right rnd = .ok (some pr, none) ∧
      abcVerify hash cp (some pr) (L.pe cm) (L.pe tok) ≠ .ok accept

/-- C152 is false without its exceptions: the commitment to -1 without blinding is the point -G, and every proof made
for it with the value 1 is accepted, whatever SHA-256 does and the prover draws for u1, u2, u3. -/
theorem C152_minus_one (L : Lawful cp E) (hash : Bytes → Bytes) (sk : Int) (rnd : ABCRand)
    (hsk : ¬ (cp.C.N : Int) ∣ sk) (hb : rnd.ub = 0) (hc : rnd.uc = 0) :
    pedCommitR cp (some (-1)) (some 0) = .ok (L.pe (-L.g)) ∧
    ∃ pr, newABCProof hash cp (L.pe (-L.g)) (L.pe 0) 1 sk Right rnd = .ok (some pr, none) ∧
      abcVerify hash cp (some pr) (L.pe (-L.g)) (L.pe 0) = .ok accept := by
  have hN := L.five_lt
  have hv : ¬ (cp.C.N : Int) ∣ 1 := by
    intro h; have := Int.le_of_dvd (by norm_num) h; omega
  obtain ⟨isk, hi, hinv⟩ := modInverse_some L.prime hsk
  obtain ⟨w, hw, hw'⟩ := modInverse_some L.prime hv
  have ewg : w • L.g = L.g := by
    have := L.smul_congr hw' L.g
    rwa [mul_one, one_smul] at this
  refine ⟨by rw [L.pedCommitR_pe]; congr 2; module, ?_⟩
  obtain ⟨ct, hrun⟩ := newABCProof_right L hash (-L.g) 0 1 w sk rnd (by decide) hw
  rw [L.finishABC_pe _ _ _ _ _ _ _ _ _ _ _ hi] at hrun
  refine ⟨_, hrun, ?_⟩
  refine (L.abcVerify_iff ..).2 ⟨?_, rfl, L.same_iff.2 (Or.inl ?_), L.same_iff.2 (Or.inl ?_)⟩
  · have e : L.g + rnd.uc • L.hb - L.g = rnd.uc • L.hb := by abel
    rw [e]
    obtain ⟨pr, h1, h2⟩ := (C41_completeness_partial L hash (-L.g) 0 L.h (rnd.uc • L.hb) rnd.uc
      rnd.d1 rnd.d2 rnd.d3).2 (by rw [L.mult_pe, L.eff_h])
      ((L.multOk_iff_eff _).2 (by rw [hc, zero_smul, L.eff_zero]))
    rw [newDisjunctiveProof_right L _ _ _ _ _ _ _ _ _ (by rw [L.eff_h, L.same_self])] at h1
    simp only [Go.ok.injEq, Prod.mk.injEq, Option.some.injEq, and_true] at h1
    rw [h1]; exact h2
  · rw [L.eff_neg_g, L.eff_zero, L.smul_mod, L.smul_mod]; module
  · rw [hb, hc, zero_smul, add_zero, add_zero, ewg, L.eff_g, L.smul_mod]; module

theorem C152_refuted (L : Lawful cp E) : ¬ WrongValueRefused L := by
  intro h
  have hN := L.five_lt
  have hv : ¬ (cp.C.N : Int) ∣ 1 := by
    intro h; have := Int.le_of_dvd (by norm_num) h; omega
  obtain ⟨h1, _⟩ := C152_minus_one L (fun _ => []) 1 ⟨0, 0, 0, 0, 0, 0, 0, 0⟩ hv rfl rfl
  obtain ⟨hash, pr, h2, h3⟩ := h (-L.g) 0 (-1) 1 0 1 ⟨0, 0, 0, 0, 0, 0, 0, 0⟩ h1 (by module) hv hv (fun h => by
    have := Int.le_of_dvd (by norm_num) h.symm.dvd
    omega)
  obtain ⟨_, pr', h4, h5⟩ := C152_minus_one L hash 1 ⟨0, 0, 0, 0, 0, 0, 0, 0⟩ hv rfl rfl
  rw [h2, Go.ok.injEq, Prod.mk.injEq, Option.some.injEq] at h4
  rw [h4.1] at h3
  exact h3 h5

/-! ## The hypotheses can be met -/

/-- The point 3 commits to 0 with the blinding 1, its token for the key 6 is 4, and the value used is 2. -/
example : pedCommitR Toy.params (some 0) (some 1) = .ok (Toy.lawful.pe 3) ∧
    (4 : ZMod 7) = ((1 : Int) * 6) • Toy.lawful.hb ∧ ¬ (Toy.params.C.N : Int) ∣ 2 ∧ ¬ (Toy.params.C.N : Int) ∣ 6 ∧
    ¬ 2 ≡ 0 [ZMOD Toy.params.C.N] ∧ Toy.lawful.MultOk 3 ∧ Toy.lawful.MultOk 4 ∧
    pedCommitR Toy.params (some (0 + 2)) (some (2 * 1)) ≠ .ok Zero := by
  refine ⟨?_, by decide, by decide, by decide, by decide, (Toy.lawful.multOk_iff_eff _).2 (Toy.eff_plain 3 (by decide)),
    (Toy.lawful.multOk_iff_eff _).2 (Toy.eff_plain 4 (by decide)), ?_⟩
  · rw [Toy.lawful.pedCommitR_pe, Go.ok.injEq, Toy.lawful.pe_inj]; decide
  · rw [Toy.lawful.pedCommitR_pe, Ne, Go.ok.injEq, ← Toy.lawful.pe_zero, Toy.lawful.pe_inj]; decide

/-- The point 3 commits to 4 with the blinding 2, its token for the key 4 is 3, and the key used is 5. -/
example : pedCommitR Toy.params (some 4) (some 2) = .ok (Toy.lawful.pe 3) ∧
    (3 : ZMod 7) = ((2 : Int) * 4) • Toy.lawful.hb ∧ ¬ (Toy.params.C.N : Int) ∣ 4 ∧ ¬ (Toy.params.C.N : Int) ∣ 2 ∧
    ¬ (Toy.params.C.N : Int) ∣ 5 ∧ ¬ 5 ≡ 4 [ZMOD Toy.params.C.N] ∧ Toy.lawful.MultOk 3 ∧
    ∀ i : Int, i * 5 ≡ 1 [ZMOD Toy.params.C.N] →
      pedCommitR Toy.params (some (2 * 4)) (some (2 + i * (2 * 4))) ≠ .ok Zero := by
  refine ⟨?_, by decide, by decide, by decide, by decide, by decide, (Toy.lawful.multOk_iff_eff _).2 (Toy.eff_plain 3 (by decide)), ?_⟩
  · rw [Toy.lawful.pedCommitR_pe, Go.ok.injEq, Toy.lawful.pe_inj]; decide
  · intro i hi
    rw [Toy.lawful.pedCommitR_pe, Ne, Go.ok.injEq, ← Toy.lawful.pe_zero, Toy.lawful.pe_inj]
    have h7 : Toy.params.C.N = 7 := rfl
    rw [h7] at hi
    have e : 2 + i * (2 * 4) ≡ 5 [ZMOD Toy.params.C.N] := by
      rw [h7]
      unfold Int.ModEq at hi ⊢
      push_cast at hi ⊢
      omega
    rw [Toy.lawful.smul_congr e]
    decide

/-- The points 4 and 0 commit to 1 with the blinding 1 and to 0 with the blinding 0; the key is 1. -/
example : pedCommitR Toy.params (some 1) (some 1) = .ok (Toy.lawful.pe 4) ∧
    pedCommitR Toy.params (some 0) (some 0) = .ok (Toy.lawful.pe 0) ∧
    (3 : ZMod 7) = ((1 : Int) * 1) • Toy.lawful.hb ∧ (0 : ZMod 7) = ((0 : Int) * 1) • Toy.lawful.hb ∧
    ¬ 1 ≡ 0 [ZMOD Toy.params.C.N] ∧ ¬ (Toy.params.C.N : Int) ∣ 1 ∧
    Toy.lawful.MultOk (4 - 0) ∧ Toy.lawful.MultOk (3 - 0) := by
  refine ⟨?_, ?_, by decide, by decide, by decide, by decide, (Toy.lawful.multOk_iff_eff _).2 (Toy.eff_plain _ (by decide)),
    (Toy.lawful.multOk_iff_eff _).2 (Toy.eff_plain _ (by decide))⟩
  · rw [Toy.lawful.pedCommitR_pe, Go.ok.injEq, Toy.lawful.pe_inj]; decide
  · rw [Toy.lawful.pedCommitR_pe, Go.ok.injEq, Toy.lawful.pe_inj]; decide

/-- The bound says something: on `TestCurve` such a proof is accepted with probability at most 4 / 2^256. -/
example : 2 * perChal Curve.tc.C.N / 2 ^ 256 = (4 : ℝ) / 2 ^ 256 := by
  rw [perChal_testCurve]
  norm_num

end Zk.Rom
