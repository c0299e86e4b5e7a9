import Verif.Rom.Value

/-! # Property C87 with probabilities: what a published ABC proof tells about the value -/

namespace Zk.Rom

open Zk Zk.Proto

variable {cp : Params} {E : Type} [AddCommGroup E]

/-- C87, for every hash function: an ABC proof for a value other than 0 lets an observer test guesses for the value,
whenever the challenge is not small.  The value passes, and at most 2^k + 1 numbers below N do. -/
theorem C87_value_leak (L : Lawful cp E) (hash : Bytes → Bytes) (cm tok : E) (v sk : Int) (rnd : ABCRand) (k : Nat)
    (h3 : 0 ≤ rnd.u3 ∧ rnd.u3 < cp.C.N) (hv : ¬ (cp.C.N : Int) ∣ v) (hsk : ¬ (cp.C.N : Int) ∣ sk)
    (pr : ABCProof) (ch : Int)
    (h : newABCProof hash cp (L.pe cm) (L.pe tok) v sk Right rnd = .ok (some pr, none))
    (hch : pr.Challenge = some ch) (hbig : cp.C.N ≤ 2 ^ k * ch) :
    testValue cp k pr v = true ∧ (pr.B ≠ Zero → ∀ A : Finset Int,
      (∀ v' ∈ A, 0 ≤ v' ∧ v' < cp.C.N ∧ testValue cp k pr v' = true) → A.card ≤ 2 ^ k + 1) := by
  have hv0 : v ≠ 0 := by rintro rfl; exact hv (dvd_zero _)
  obtain ⟨isk, hi, _⟩ := modInverse_some L.prime hsk
  obtain ⟨w, hw, hw'⟩ := modInverse_some L.prime hv
  rw [newABCProof_rightABC L hash cm tok v w sk isk rnd hv0 hw hi] at h
  simp only [rightABC, Go.ok.injEq, Prod.mk.injEq, Option.some.injEq, and_true] at h
  subst h
  simp only [Option.some.injEq] at hch
  have hB : ∀ b : E, L.pe b ≠ Zero → b ≠ 0 := by
    rintro b hb rfl
    exact hb L.pe_zero
  constructor
  · rw [testValue, List.any_eq_true]
    refine ⟨rnd.uc - v * rnd.ub, ?_, ?_⟩
    · simp only [hch]
      rw [mul_comm (rnd.uc - v * rnd.ub)]
      exact mem_quotients h3 hbig
    · rw [fits_iff, smul_add, smul_smul, smul_smul, mul_comm v w, L.smul_congr hw' L.g]
      module
  · exact fun hz A hA => card_testValue L (hB _ hz) rfl rfl A hA

/-- C87 is false with high probability.  When SHA-256 is a random function, whatever numbers the prover draws, an ABC
proof for a value other than 0 that is published leaves an observer with at most 2^k + 1 possible values, which it can
test, except with probability (N / 2^k + 1) (2^256 / N + 1) / 2^256. -/
theorem C87_value_probability (L : Lawful cp E) (cm tok : E) (v sk : Int) (rnd : ABCRand) (k : Nat)
    (h3 : 0 ≤ rnd.u3 ∧ rnd.u3 < cp.C.N) (hv : ¬ (cp.C.N : Int) ∣ v) (hsk : ¬ (cp.C.N : Int) ∣ sk) :
    ∃ b : Bytes, ∀ S : Finset Bytes, b ∈ S →
      1 - (cp.C.N / 2 ^ k + 1 : ℕ) * perChal cp.C.N / 2 ^ 256 ≤ prob fun f : S → Word =>
        ∃ pr, newABCProof (hashOf S f) cp (L.pe cm) (L.pe tok) v sk Right rnd = .ok (some pr, none) ∧
          testValue cp k pr v = true ∧ (pr.B ≠ Zero → ∀ A : Finset Int,
            (∀ v' ∈ A, 0 ≤ v' ∧ v' < cp.C.N ∧ testValue cp k pr v' = true) → A.card ≤ 2 ^ k + 1) := by
  have hv0 : v ≠ 0 := by rintro rfl; exact hv (dvd_zero _)
  obtain ⟨isk, hi, _⟩ := modInverse_some L.prime hsk
  obtain ⟨w, hw, hw'⟩ := modInverse_some L.prime hv
  refine ⟨hashed ((outer L cm tok w rnd).map L.pe), fun S hb => ?_⟩
  have hf := prob_fresh (S := S) (fun ω : Word => 2 ^ k * ((chalOf cp.C.N ω - 0) % (cp.C.N : Int)) < cp.C.N)
    _ (num_near cp.C.N L.prime.pos 0 k) ⟨_, hb⟩
  rw [card_word] at hf
  refine prob_not ?_ (hf.trans (le_of_eq (by push_cast; ring)))
  intro f hq
  rw [not_lt] at hq
  have hrun := newABCProof_rightABC L (hashOf S f) cm tok v w sk isk rnd hv0 hw hi
  simp only [rightABC] at hrun
  refine ⟨_, hrun, C87_value_leak L (hashOf S f) cm tok v sk rnd k h3 hv hsk _ _ hrun rfl ?_⟩
  have hch := chal_hashOf L S f ⟨_, hb⟩ (outer L cm tok w rnd) rfl
  rw [chal_hash] at hch
  rw [hch]
  rw [sub_zero, chalOf, Int.emod_emod_of_dvd _ dvd_rfl] at hq
  exact hq

/-- C87 on `TestCurve`: for every key, value other than 0, commitment, token and draws, the observer is left with at most
257 values with probability at least 99 / 100. -/
theorem C87_testcurve_value : ∃ cp, Curve.testCurve = .ok cp ∧
    ∀ (v r sk : Int) (CM PubKey CMTok : ECPoint) (rnd : ABCRand), ¬ (cp.C.N : Int) ∣ v → ¬ (cp.C.N : Int) ∣ sk →
      pedCommitR cp (some v) (some r) = .ok CM → mult cp cp.H (some sk) = .ok PubKey →
      mult cp PubKey (some r) = .ok CMTok → 0 ≤ rnd.u3 ∧ rnd.u3 < cp.C.N →
      ∃ b : Bytes, ∀ S : Finset Bytes, b ∈ S → (99 / 100 : ℝ) ≤ prob fun f : S → Word =>
        ∃ pr, newABCProof (hashOf S f) cp CM CMTok v sk Right rnd = .ok (some pr, none) ∧
          testValue cp 8 pr v = true ∧ (pr.B ≠ Zero → ∀ A : Finset Int,
            (∀ v' ∈ A, 0 ≤ v' ∧ v' < cp.C.N ∧ testValue cp 8 pr v' = true) → A.card ≤ 257) := by
  refine ⟨Curve.tc, Curve.testCurve_eq, fun v r sk CM PubKey CMTok rnd hv hsk h1 h2 h3 h4 => ?_⟩
  rw [Curve.lawful.pedCommitR_pe, Go.ok.injEq] at h1
  subst h1
  rw [Curve.lawful.H_pe, Curve.lawful.mult_pe, Go.ok.injEq, Curve.lawful.eff_h] at h2
  subst h2
  rw [Curve.lawful.mult_pe, Go.ok.injEq] at h3
  subst h3
  obtain ⟨b, hb⟩ := C87_value_probability Curve.lawful (v • Curve.lawful.g + r • Curve.lawful.hb)
    (r • Curve.lawful.eff (sk • Curve.lawful.hb)) v sk rnd 8 h4 hv hsk
  refine ⟨b, fun S hS => le_trans ?_ (hb S hS)⟩
  rw [perChal_testCurve]
  have h4 : (Curve.tc.C.N / 2 ^ 8 + 1) * 2 ≤ 2 ^ 249 + 2 := by decide +kernel
  have h5 : (((Curve.tc.C.N / 2 ^ 8 + 1 : ℕ) : ℝ) * (2 : ℕ)) ≤ 2 ^ 249 + 2 := by exact_mod_cast h4
  have h6 : (((Curve.tc.C.N / 2 ^ 8 + 1 : ℕ) : ℝ) * (2 : ℕ)) / 2 ^ 256 ≤ 1 / 100 := by
    rw [div_le_iff₀ (by positivity)]
    refine h5.trans ?_
    norm_num
  linarith

/-- The hypotheses can be met. -/
example : ∃ CM PubKey CMTok, ¬ (Curve.tc.C.N : Int) ∣ 10 ∧ ¬ (Curve.tc.C.N : Int) ∣ 5 ∧
    pedCommitR Curve.tc (some 10) (some 3) = .ok CM ∧ mult Curve.tc Curve.tc.H (some 5) = .ok PubKey ∧
    mult Curve.tc PubKey (some 3) = .ok CMTok ∧ (0 : Int) ≤ 7 ∧ (7 : Int) < Curve.tc.C.N := by
  have hH : mult Curve.tc Curve.tc.H (some 5) = .ok (Curve.lawful.pe ((5 : Int) • Curve.lawful.eff Curve.lawful.h)) := by
    rw [Curve.lawful.H_pe]
    exact Curve.lawful.mult_pe _ _
  exact ⟨_, _, _, by decide +kernel, by decide +kernel, Curve.lawful.pedCommitR_pe _ _, hH,
    Curve.lawful.mult_pe _ _, by decide, by decide +kernel⟩

/-- The hypotheses of `C87_value_leak` can be met: the value 2 passes, and at most three values below 7 do. -/
example : ∃ pr, newABCProof (fun _ => [4]) Toy.params (Toy.lawful.pe 3) (Toy.lawful.pe 4) 2 6 Right
      ⟨1, 1, 1, 2, 1, 5, 1, 0⟩ = .ok (some pr, none) ∧ pr.Challenge = some 4 ∧
    (Toy.params.C.N : Int) ≤ 2 ^ 1 * 4 ∧ testValue Toy.params 1 pr 2 = true ∧ pr.B ≠ Zero := by
  have hv : ¬ (Toy.params.C.N : Int) ∣ 2 := by decide
  have hsk : ¬ (Toy.params.C.N : Int) ∣ 6 := by decide
  obtain ⟨isk, hi, _⟩ := modInverse_some Toy.lawful.prime hsk
  have hw : modInverse 2 Toy.params.C.N = some 4 := by decide +kernel
  have hrun := newABCProof_rightABC Toy.lawful (fun _ => [4]) 3 4 2 4 6 isk ⟨1, 1, 1, 2, 1, 5, 1, 0⟩ (by decide) hw hi
  simp only [rightABC] at hrun
  refine ⟨_, hrun, rfl, by decide, (C87_value_leak Toy.lawful (fun _ => [4]) 3 4 2 6 ⟨1, 1, 1, 2, 1, 5, 1, 0⟩ 1
    (by decide) hv hsk _ _ hrun rfl (by decide)).1, ?_⟩
  rw [← Toy.lawful.pe_zero, Ne, Toy.lawful.pe_inj]
  decide

/-! ## If l were reduced -/

/-- The draws u1, u2, u3 of the prover replaced.  See abc.go:65-77. -/
def withU (rnd : ABCRand) (N : Nat) (u : Fin N × Fin N × Fin N) : ABCRand :=
  { rnd with u1 := (u.1 : Nat), u2 := (u.2.1 : Nat), u3 := (u.2.2 : Nat) }

/-- A right proof with l reduced and the simulator that is given B, given the answer to the question of the nested
proof.  See abc.go:61-170. -/
noncomputable def valuelessSimulation (L : Lawful cp E) (hs : Small L) (cm tok : E) (v w ua sk isk : Int)
    (hcm : v • L.g + ua • L.hb = cm) (htok : (ua * sk) • L.hb = tok) (htok0 : tok ≠ 0) (o : L.eff tok = tok)
    (hw : w * v ≡ 1 [ZMOD cp.C.N]) (hi : isk * sk ≡ 1 [ZMOD cp.C.N]) (rnd : ABCRand)
    (oB : L.eff (w • L.g + rnd.ub • L.hb) = w • L.g + rnd.ub • L.hb) (S : Finset Bytes)
    (hS : ∀ u : Fin cp.C.N × Fin cp.C.N × Fin cp.C.N,
      hashed ((outer L cm tok w (withU rnd cp.C.N u)).map L.pe) ∈ S) :
    Simulation S (Fin cp.C.N × Fin cp.C.N × Fin cp.C.N) (Bytes → Go (Option ABCProof × Option Err)) where
  com u := ⟨_, hS u⟩
  pf u d d₀ := reduceL cp.C.N (rightABC L cm tok v w sk isk (withU rnd cp.C.N u) d d₀)
  e ω := (shiftFin cp.C.N L.prime.pos (-(v * chalOf cp.C.N ω))).prodCongr
    ((shiftFin cp.C.N L.prime.pos (-(isk * chalOf cp.C.N ω))).prodCongr
      (shiftFin cp.C.N L.prime.pos (-((rnd.uc - v * rnd.ub) * chalOf cp.C.N ω))))
  κ := 35937 * cp.C.N
  hκ c := (num_com (fun u : Fin cp.C.N × Fin cp.C.N × Fin cp.C.N =>
        hashed ((outer L cm tok w (withU rnd cp.C.N u)).map L.pe))
      (fun u => (tag2 (L.pe (((u.1 : Nat) : Int) • L.g + ((u.2.1 : Nat) : Int) • L.eff tok))
        (L.pe (((u.1 : Nat) : Int) • L.eff (w • L.g + rnd.ub • L.hb) + ((u.2.2 : Nat) : Int) • L.hb)), u.1))
      (fun u u' h1 h2 => by
        rw [Prod.mk.injEq] at h2
        obtain ⟨e1, e2⟩ := same_commits L hs [L.g, L.h, cm, tok, w • L.g + rnd.ub • L.hb, L.g + rnd.uc • L.hb]
          h1 h2.1
        simp only [withU, h2.2] at e1 e2
        have e1 := add_left_cancel e1
        rw [o] at e1
        exact Prod.ext h2.2 (Prod.ext (fin_eq_of_smul L htok0 e1)
          (fin_eq_of_smul L L.hb_ne (add_left_cancel e2)))) c).trans
        (by rw [Fintype.card_prod, card_tag2, Fintype.card_fin])
  prove u h d₀ := reduceL cp.C.N (rightABC L cm tok v w sk isk (withU rnd cp.C.N u)
    (h (hashed ((outer L cm tok w (withU rnd cp.C.N u)).map L.pe))) d₀)
  simu u ω d₀ := simValueless (fun _ => d₀) cp (L.pe cm) (L.pe tok) (L.pe (sk • L.hb))
    (L.pe (w • L.g + rnd.ub • L.hb)) rnd (u.1 : Nat) (u.2.1 : Nat) (u.2.2 : Nat) (chalOf cp.C.N ω)
  ask p := askGo (abcAsk cp (L.pe cm) (L.pe tok)) (p [])
  hp u h := rfl
  hs u ω := by
    funext d₀
    rw [simValueless_eq L _ cm tok v w ua sk isk rnd _ _ _ (chalOf cp.C.N ω) hcm htok o oB hw hi
      ⟨by omega, by exact_mod_cast u.1.2⟩ ⟨by omega, by exact_mod_cast u.2.1.2⟩
      ⟨by omega, by exact_mod_cast u.2.2.2⟩ (bytesOf ω) rfl]
    simp only [withU, Equiv.prodCongr_apply, Prod.map_fst, Prod.map_snd, val_shiftFin]
  ha u d := by
    simp only [askGo, rightABC, reduceL, abcAsk, outer, L.G_pe, L.H_pe, List.map_cons, List.map_nil]

/-- C87, given the point B: if the response l were reduced modulo N, nobody who asks `q` questions before could tell the
proof of a value other than 0 from the output of a simulator that is given neither the value nor the secret key, but the
point B, except with probability 35937 (q + 1) / N^2. -/
theorem C87_given_B_partial (L : Lawful cp E) (hs : Small L) (cm tok : E) (v w ua sk : Int)
    (hcm : pedCommitR cp (some v) (some ua) = .ok (L.pe cm)) (htok : tok = (ua * sk) • L.hb) (htok0 : tok ≠ 0)
    (o : L.MultOk tok) (hw : modInverse v cp.C.N = some w) (hv : ¬ (cp.C.N : Int) ∣ v)
    (hsk : ¬ (cp.C.N : Int) ∣ sk) (rnd : ABCRand)
    (oB : L.MultOk (w • L.g + rnd.ub • L.hb)) {σ : Type}
    (D1 : Adv σ) (D2 : σ → Go (Option ABCProof × Option Err) → Adv Bool) (q : Nat)
    (hq : ∀ h, D1.count h ≤ q) (S : Finset Bytes)
    (hS : ∀ (h : Bytes → Bytes) (u : Fin cp.C.N × Fin cp.C.N × Fin cp.C.N), askGo (abcAsk cp (L.pe cm) (L.pe tok))
      (newABCProof h cp (L.pe cm) (L.pe tok) v sk Right (withU rnd cp.C.N u)) ∈ S) :
    |(prob fun z : (S → Word) × Fin cp.C.N × Fin cp.C.N × Fin cp.C.N => realBit D1 D2
        (fun h => reduceL cp.C.N (newABCProof h cp (L.pe cm) (L.pe tok) v sk Right (withU rnd cp.C.N z.2)))
        (hashOf S z.1) = true) -
      (prob fun z : (S → Word) × (Fin cp.C.N × Fin cp.C.N × Fin cp.C.N) × Word => simBit D1 D2
        (simValueless (hashOf S z.1) cp (L.pe cm) (L.pe tok) (L.pe (sk • L.hb)) (L.pe (w • L.g + rnd.ub • L.hb))
          rnd (z.2.1.1 : Nat) (z.2.1.2.1 : Nat) (z.2.1.2.2 : Nat) (chalOf cp.C.N z.2.2))
        (askGo (abcAsk cp (L.pe cm) (L.pe tok)) (simValueless (hashOf S z.1) cp (L.pe cm) (L.pe tok)
          (L.pe (sk • L.hb)) (L.pe (w • L.g + rnd.ub • L.hb)) rnd (z.2.1.1 : Nat) (z.2.1.2.1 : Nat)
          (z.2.1.2.2 : Nat) (chalOf cp.C.N z.2.2)))
        (bytesOf z.2.2) (hashOf S z.1) = true)| ≤ 35937 * (q + 1) / (cp.C.N : ℝ) ^ 2 := by
  have hN : (cp.C.N : ℝ) ≠ 0 := Nat.cast_ne_zero.2 L.prime.ne_zero
  have : Nonempty (Fin cp.C.N) := ⟨⟨0, L.prime.pos⟩⟩
  have hv0 : v ≠ 0 := by rintro rfl; exact hv (dvd_zero _)
  obtain ⟨isk, hi, hi'⟩ := modInverse_some L.prime hsk
  obtain ⟨w', hw1, hw'⟩ := modInverse_some L.prime hv
  rw [hw, Option.some.injEq] at hw1
  subst hw1
  rw [L.pedCommitR_pe, Go.ok.injEq, L.pe_inj] at hcm
  rw [L.multOk_iff_eff] at o oB
  have hS' : ∀ u, hashed ((outer L cm tok w (withU rnd cp.C.N u)).map L.pe) ∈ S := fun u => by
    have := hS (fun _ => []) u
    rw [newABCProof_rightABC L _ cm tok v w sk isk _ hv0 hw hi] at this
    simpa only [askGo, rightABC, abcAsk, outer, L.G_pe, L.H_pe, List.map_cons, List.map_nil] using this
  have hz := zk_close S (valuelessSimulation L hs cm tok v w ua sk isk hcm htok.symm htok0 o hw' hi' rnd oB S hS')
    (D1.andAsk fun _ => [hashed ((nested L cm tok rnd).map L.pe)]) (fun p β => D2 p.1 (β (p.2.headD []))) (q + 1)
    (fun h => by rw [Adv.count_andAsk]; exact Nat.add_le_add_right (hq h) 1)
  have hpos : ∀ u : Fin cp.C.N, (0 : Int) ≤ (u : Nat) ∧ ((u : Nat) : Int) < cp.C.N :=
    fun u => ⟨by omega, by exact_mod_cast u.2⟩
  have hsim : ∀ (h : Bytes → Bytes) (u : Fin cp.C.N × Fin cp.C.N × Fin cp.C.N) (ω : Word),
      simValueless (fun _ => h (hashed ((nested L cm tok rnd).map L.pe))) cp (L.pe cm) (L.pe tok) (L.pe (sk • L.hb))
        (L.pe (w • L.g + rnd.ub • L.hb)) rnd (u.1 : Nat) (u.2.1 : Nat) (u.2.2 : Nat) (chalOf cp.C.N ω) =
      simValueless h cp (L.pe cm) (L.pe tok) (L.pe (sk • L.hb)) (L.pe (w • L.g + rnd.ub • L.hb)) rnd (u.1 : Nat)
        (u.2.1 : Nat) (u.2.2 : Nat) (chalOf cp.C.N ω) := by
    intro h u ω
    rw [simValueless_eq L _ cm tok v w ua sk isk rnd _ _ _ (chalOf cp.C.N ω) hcm htok.symm o oB hw' hi' (hpos _)
        (hpos _) (hpos _) (bytesOf ω) rfl,
      simValueless_eq L _ cm tok v w ua sk isk rnd _ _ _ (chalOf cp.C.N ω) hcm htok.symm o oB hw' hi' (hpos _)
        (hpos _) (hpos _) (bytesOf ω) rfl]
  have hask : ∀ (h : Bytes → Bytes) (u : Fin cp.C.N × Fin cp.C.N × Fin cp.C.N) (ω : Word),
      (valuelessSimulation L hs cm tok v w ua sk isk hcm htok.symm htok0 o hw' hi' rnd oB S hS').ask
        ((valuelessSimulation L hs cm tok v w ua sk isk hcm htok.symm htok0 o hw' hi' rnd oB S hS').simu u ω) =
      askGo (abcAsk cp (L.pe cm) (L.pe tok)) (simValueless h cp (L.pe cm) (L.pe tok) (L.pe (sk • L.hb))
        (L.pe (w • L.g + rnd.ub • L.hb)) rnd (u.1 : Nat) (u.2.1 : Nat) (u.2.2 : Nat) (chalOf cp.C.N ω)) := by
    intro h u ω
    simp only [valuelessSimulation]
    rw [simValueless_eq L _ cm tok v w ua sk isk rnd _ _ _ (chalOf cp.C.N ω) hcm htok.symm o oB hw' hi' (hpos _)
        (hpos _) (hpos _) (bytesOf ω) rfl,
      simValueless_eq L _ cm tok v w ua sk isk rnd _ _ _ (chalOf cp.C.N ω) hcm htok.symm o oB hw' hi' (hpos _)
        (hpos _) (hpos _) (bytesOf ω) rfl]
    rfl
  have r1 : ∀ z : (S → Word) × Fin cp.C.N × Fin cp.C.N × Fin cp.C.N,
      realBit (D1.andAsk fun _ => [hashed ((nested L cm tok rnd).map L.pe)]) (fun p β => D2 p.1 (β (p.2.headD [])))
      ((valuelessSimulation L hs cm tok v w ua sk isk hcm htok.symm htok0 o hw' hi' rnd oB S hS').prove z.2)
      (hashOf S z.1) = realBit D1 D2
        (fun h => reduceL cp.C.N (newABCProof h cp (L.pe cm) (L.pe tok) v sk Right (withU rnd cp.C.N z.2)))
        (hashOf S z.1) := by
    intro z
    simp only [realBit, Adv.run_andAsk, List.map_cons, List.headD_cons, valuelessSimulation]
    rw [newABCProof_rightABC L _ cm tok v w sk isk _ hv0 hw hi]
    rfl
  have r2 : ∀ z : (S → Word) × (Fin cp.C.N × Fin cp.C.N × Fin cp.C.N) × Word, simBit
      (D1.andAsk fun _ => [hashed ((nested L cm tok rnd).map L.pe)])
      (fun p β => D2 p.1 (β (p.2.headD [])))
      ((valuelessSimulation L hs cm tok v w ua sk isk hcm htok.symm htok0 o hw' hi' rnd oB S hS').simu z.2.1 z.2.2)
      ((valuelessSimulation L hs cm tok v w ua sk isk hcm htok.symm htok0 o hw' hi' rnd oB S hS').ask
        ((valuelessSimulation L hs cm tok v w ua sk isk hcm htok.symm htok0 o hw' hi' rnd oB S hS').simu z.2.1 z.2.2))
      (bytesOf z.2.2) (hashOf S z.1) = simBit D1 D2
        (simValueless (hashOf S z.1) cp (L.pe cm) (L.pe tok) (L.pe (sk • L.hb)) (L.pe (w • L.g + rnd.ub • L.hb))
          rnd (z.2.1.1 : Nat) (z.2.1.2.1 : Nat) (z.2.1.2.2 : Nat) (chalOf cp.C.N z.2.2))
        (askGo (abcAsk cp (L.pe cm) (L.pe tok)) (simValueless (hashOf S z.1) cp (L.pe cm) (L.pe tok)
          (L.pe (sk • L.hb)) (L.pe (w • L.g + rnd.ub • L.hb)) rnd (z.2.1.1 : Nat) (z.2.1.2.1 : Nat)
          (z.2.1.2.2 : Nat) (chalOf cp.C.N z.2.2)))
        (bytesOf z.2.2) (hashOf S z.1) := by
    intro z
    rw [hask (hashOf S z.1)]
    simp only [simBit, Adv.run_andAsk, List.map_cons, List.headD_cons]
    rw [← hsim]
    rfl
  simp only [r1, r2] at hz
  refine hz.trans (le_of_eq ?_)
  rw [Fintype.card_prod, Fintype.card_prod, Fintype.card_fin,
    show (valuelessSimulation L hs cm tok v w ua sk isk hcm htok.symm htok0 o hw' hi' rnd oB S hS').κ =
      35937 * cp.C.N from rfl]
  push_cast
  field_simp

/-- The simulator that also draws B.  See abc.go:61-170. -/
def simHidden (hash : Bytes → Bytes) (cp : Params) (CM CMTok PubKey : ECPoint) (rnd : ABCRand) (b j k l c : Int) :
    Go (Option ABCProof × Option Err) := do
  let B ← mult cp cp.H (some b)
  simValueless hash cp CM CMTok PubKey B rnd j k l c

/-- C87, what holds: if the response l were reduced modulo N, as j and k are, an ABC proof for a value other than 0
would reveal nothing beyond the statement.  When SHA-256 is a random function, whatever uc is and the numbers that
the nested proof draws, nobody who asks `q` questions before could tell the proof from the output of a simulator that is
given neither the value nor the secret key, except with probability 35937 (q + 1) / N^2 + 3 / N.  Missing: the code
does not reduce l. -/
theorem C87_hidden_partial (L : Lawful cp E) (hs : Small L) (cm tok : E) (v ua sk : Int)
    (hcm : pedCommitR cp (some v) (some ua) = .ok (L.pe cm)) (htok : tok = (ua * sk) • L.hb) (htok0 : tok ≠ 0)
    (o : L.MultOk tok) (hv : ¬ (cp.C.N : Int) ∣ v) (hsk : ¬ (cp.C.N : Int) ∣ sk) (rnd : ABCRand) {σ : Type}
    (D1 : Adv σ) (D2 : σ → Go (Option ABCProof × Option Err) → Adv Bool) (q : Nat)
    (hq : ∀ h, D1.count h ≤ q) (S : Finset Bytes)
    (hS : ∀ (h : Bytes → Bytes) (b : Fin cp.C.N) (u : Fin cp.C.N × Fin cp.C.N × Fin cp.C.N),
      askGo (abcAsk cp (L.pe cm) (L.pe tok)) (newABCProof h cp (L.pe cm) (L.pe tok) v sk Right
        (withU { rnd with ub := (b : Nat) } cp.C.N u)) ∈ S) :
    |(prob fun z : (S → Word) × Fin cp.C.N × Fin cp.C.N × Fin cp.C.N × Fin cp.C.N => realBit D1 D2
        (fun h => reduceL cp.C.N (newABCProof h cp (L.pe cm) (L.pe tok) v sk Right
          (withU { rnd with ub := (z.2.1 : Nat) } cp.C.N z.2.2))) (hashOf S z.1) = true) -
      (prob fun z : (S → Word) × Fin cp.C.N × (Fin cp.C.N × Fin cp.C.N × Fin cp.C.N) × Word => simBit D1 D2
        (simHidden (hashOf S z.1) cp (L.pe cm) (L.pe tok) (L.pe (sk • L.hb)) rnd (z.2.1 : Nat)
          (z.2.2.1.1 : Nat) (z.2.2.1.2.1 : Nat) (z.2.2.1.2.2 : Nat) (chalOf cp.C.N z.2.2.2))
        (askGo (abcAsk cp (L.pe cm) (L.pe tok)) (simHidden (hashOf S z.1) cp (L.pe cm) (L.pe tok)
          (L.pe (sk • L.hb)) rnd (z.2.1 : Nat) (z.2.2.1.1 : Nat) (z.2.2.1.2.1 : Nat)
          (z.2.2.1.2.2 : Nat) (chalOf cp.C.N z.2.2.2)))
        (bytesOf z.2.2.2) (hashOf S z.1) = true)| ≤ 35937 * (q + 1) / (cp.C.N : ℝ) ^ 2 + 3 / (cp.C.N : ℝ) := by
  have : Nonempty (Fin cp.C.N) := ⟨⟨0, L.prime.pos⟩⟩
  obtain ⟨w, hw, hw'⟩ := modInverse_some L.prime hv
  have : Fact (Nat.card E).Prime := ⟨by rw [L.card]; exact L.prime⟩
  obtain ⟨t, ht⟩ := AddSubgroup.mem_zmultiples_iff.1
    (show L.g ∈ AddSubgroup.zmultiples L.hb from mem_zmultiples_of_prime_card (p := Nat.card E) rfl L.hb_ne)
  have hB : ∀ b : Fin cp.C.N, mult cp cp.H (some ((shiftFin cp.C.N L.prime.pos (w * t) b : Nat) : Int)) =
      .ok (L.pe (w • L.g + ((b : Nat) : Int) • L.hb)) := by
    intro b
    rw [L.H_pe, L.mult_pe, L.eff_h, val_shiftFin, L.smul_mod, ← ht, smul_smul, ← add_smul, add_comm]
  rw [prob_mid (fun (f : S → Word) (b : Fin cp.C.N) (u : Fin cp.C.N × Fin cp.C.N × Fin cp.C.N) => realBit D1 D2
        (fun h => reduceL cp.C.N (newABCProof h cp (L.pe cm) (L.pe tok) v sk Right
          (withU { rnd with ub := (b : Nat) } cp.C.N u))) (hashOf S f) = true),
    prob_mid (fun (f : S → Word) (b : Fin cp.C.N) (u : (Fin cp.C.N × Fin cp.C.N × Fin cp.C.N) × Word) => simBit D1 D2
        (simHidden (hashOf S f) cp (L.pe cm) (L.pe tok) (L.pe (sk • L.hb)) rnd (b : Nat)
          (u.1.1 : Nat) (u.1.2.1 : Nat) (u.1.2.2 : Nat) (chalOf cp.C.N u.2))
        (askGo (abcAsk cp (L.pe cm) (L.pe tok)) (simHidden (hashOf S f) cp (L.pe cm) (L.pe tok)
          (L.pe (sk • L.hb)) rnd (b : Nat) (u.1.1 : Nat) (u.1.2.1 : Nat)
          (u.1.2.2 : Nat) (chalOf cp.C.N u.2)))
        (bytesOf u.2) (hashOf S f) = true)]
  refine (avg_close _ _ (fun _ => ⟨prob_nonneg, prob_le_one⟩) (fun _ => ⟨prob_nonneg, prob_le_one⟩)
    (shiftFin cp.C.N L.prime.pos (w * t)) (fun b : Fin cp.C.N => ¬ L.MultOk (w • L.g + ((b : Nat) : Int) • L.hb)) 3
    ?_ (35937 * (q + 1) / (cp.C.N : ℝ) ^ 2) (by positivity) ?_).trans (le_of_eq (by rw [Fintype.card_fin]))
  · have h1 : ∀ a : E, (num fun b : Fin cp.C.N => w • L.g + ((b : Nat) : Int) • L.hb = a) ≤ 1 := by
      intro a
      refine num_le_one fun x y hx hy => fin_eq_of_smul L L.hb_ne ?_
      exact add_left_cancel (hx.trans hy.symm)
    refine (num_mono (Q := fun b : Fin cp.C.N => (w • L.g + ((b : Nat) : Int) • L.hb = -L.g ∨
      w • L.g + ((b : Nat) : Int) • L.hb = L.h) ∨ w • L.g + ((b : Nat) : Int) • L.hb = -L.h) ?_).trans ?_
    · intro b hb
      rw [L.multOk_iff_eff, Lawful.eff] at hb
      split at hb
      · rename_i h
        rcases h with h | h
        · exact (hb h.symm).elim
        · exact .inl (.inl h)
      · split at hb
        · rename_i h
          rcases h with h | h
          · exact .inl (.inr h)
          · exact .inr h
        · exact (hb rfl).elim
    · refine num_or.trans (le_trans (add_le_add num_or le_rfl) ?_)
      linarith [h1 (-L.g), h1 L.h, h1 (-L.h)]
  · intro b hb
    have := C87_given_B_partial L hs cm tok v w ua sk hcm htok htok0 o hw hv hsk { rnd with ub := (b : Nat) }
      (not_not.1 hb) D1 D2 q hq S (fun h u => hS h b u)
    simp only [simHidden, hB, Go.bind_ok]
    exact this

/-- The hypotheses of `C87_hidden_partial` and `C87_given_B_partial` can be met. -/
example : Small Toy.lawful ∧ pedCommitR Toy.params (some 2) (some 1) = .ok (Toy.lawful.pe 5) ∧
    (3 : ZMod 7) = ((1 : Int) * 1) • Toy.lawful.hb ∧ (3 : ZMod 7) ≠ 0 ∧ Toy.lawful.MultOk 3 ∧
    ¬ (Toy.params.C.N : Int) ∣ 2 ∧ ¬ (Toy.params.C.N : Int) ∣ 1 ∧ (∀ h, (askOnce [7] id).count h ≤ 1) ∧
    modInverse 2 Toy.params.C.N = some 4 ∧
    Toy.lawful.MultOk ((4 : Int) • Toy.lawful.g + (2 : Int) • Toy.lawful.hb) ∧
    ∃ S : Finset Bytes, ∀ (h : Bytes → Bytes) (b : Fin Toy.params.C.N)
      (u : Fin Toy.params.C.N × Fin Toy.params.C.N × Fin Toy.params.C.N),
      askGo (abcAsk Toy.params (Toy.lawful.pe 5) (Toy.lawful.pe 3)) (newABCProof h Toy.params (Toy.lawful.pe 5)
        (Toy.lawful.pe 3) 2 1 Right (withU { (⟨1, 1, 1, 1, 1, 5, 1, 0⟩ : ABCRand) with ub := (b : Nat) }
          Toy.params.C.N u)) ∈ S := by
  have h2 : ¬ (Toy.params.C.N : Int) ∣ 2 := by decide
  have h1 : ¬ (Toy.params.C.N : Int) ∣ 1 := by decide
  refine ⟨?_, ?_, by decide, by decide, ?_, h2, h1, fun h => le_rfl, by decide +kernel, ?_, ?_⟩
  · intro a
    have : ∀ a : ZMod 7, (Toy.lawful.enc a).1 < 2 ^ 256 ∧ (Toy.lawful.enc a).2 < 2 ^ 256 := by decide
    exact this a
  · rw [Toy.lawful.pedCommitR_pe, Go.ok.injEq, Toy.lawful.pe_inj]; decide
  · rw [Toy.lawful.multOk_iff_eff, Toy.eff_plain 3 (by decide)]
  · rw [show (4 : Int) • Toy.lawful.g + (2 : Int) • Toy.lawful.hb = 3 by decide, Toy.lawful.multOk_iff_eff,
      Toy.eff_plain 3 (by decide)]
  · obtain ⟨w, hw, _⟩ := modInverse_some Toy.lawful.prime h2
    obtain ⟨i, hi, _⟩ := modInverse_some Toy.lawful.prime h1
    obtain ⟨S, hS⟩ := exists_strings fun u : Fin Toy.params.C.N × Fin Toy.params.C.N × Fin Toy.params.C.N ×
      Fin Toy.params.C.N => hashed ((outer Toy.lawful 5 3 w
        (withU { (⟨1, 1, 1, 1, 1, 5, 1, 0⟩ : ABCRand) with ub := (u.1 : Nat) } Toy.params.C.N u.2)).map Toy.lawful.pe)
    refine ⟨S, fun h b u => ?_⟩
    rw [newABCProof_rightABC Toy.lawful h 5 3 2 w 1 i _ (by decide) hw hi]
    have := hS (b, u)
    simpa only [askGo, rightABC, abcAsk, outer, Toy.lawful.G_pe, Toy.lawful.H_pe, List.map_cons, List.map_nil] using this

end Zk.Rom
