import Verif.Real.Points

/-!
# Concrete range proofs on `TestCurve` with SHA-256
-/

namespace Zk.Real

open Zk Zk.Field Zk.Curve Zk.Proto

/-- Draws that are all 0.  See rangeproof.go:154-231. -/
def zeroDraws : ℕ → BitRand := fun _ => ⟨0, 0, 0⟩

/-- Draws that are 0 except `k` at index 2.  See rangeproof.go:154-231. -/
def mixedDraws : ℕ → BitRand := fun i => if i = 2 then ⟨1, 0, 0⟩ else ⟨0, 0, 0⟩

/-- 2^40 - 1 without bit 2.  See rangeproof.go:154-231. -/
def mixedValue : Int := 1099511627771

theorem multOk_of_ne {A : E} (h1 : A ≠ -G) (h2 : A ≠ H) (h3 : A ≠ -H) : lawful.MultOk A := by
  rw [lawful.multOk_iff_eff, Lawful.eff]
  split_ifs with h4 h5
  · exact (h4.resolve_right h1).symm
  · rcases h5 with h5 | h5
    · exact absurd h5 h2
    · exact absurd h5 h3
  · rfl

theorem multOk_zero : lawful.MultOk (0 : E) := (lawful.multOk_iff_eff _).2 lawful.eff_zero

theorem multOk_pow (i : ℕ) (hi : i < 64) : lawful.MultOk ((2 ^ i : Int) • G) := by
  have : ∀ i < 64, ¬ (curveN : Int) ∣ 2 ^ i + 1 ∧ ¬ (curveN : Int) ∣ 2 ^ i - logH ∧
      ¬ (curveN : Int) ∣ 2 ^ i + logH := by decide +kernel
  obtain ⟨h1, h2, h3⟩ := this i hi
  exact multOk_log h1 h2 h3

/-! ### R points -/

theorem ePts_get {i : ℕ} (hi : i < 41) : enc ((emptyHash : Int) • (2 ^ i : Int) • G) = toI ePts[i]! := by
  have h := congrArg (fun l => l[i]?) ePts_enc
  simp only [List.getElem?_map, List.getElem?_range hi, Option.map_some] at h
  have hl : i < ePts.length := hi
  rw [List.getElem?_eq_getElem hl, Option.map_some, Option.some.injEq] at h
  rw [getElem!_pos ePts i hl, ← h, smul_comm, natCast_zsmul, ← Nat.cast_ofNat, ← Nat.cast_pow,
    natCast_zsmul]

theorem rOf_one {value : Int} {rnd : ℕ → BitRand} {i : ℕ} (hb : bitOf value i = true)
    (hr : rnd i = ⟨0, 0, 0⟩) :
    lawful.rOf sha256 value rnd i = (emptyHash : Int) • (2 ^ i : Int) • G := by
  rw [Lawful.rOf, if_pos hb, hr]
  show lawful.hp sha256 ((0 : Int) • lawful.hb) • ((2 ^ i : Int) • G + (0 : Int) • lawful.hb) = _
  rw [zero_zsmul, add_zero, hp_zero]

/-! ### All bits 1 -/

theorem ones_map {n : ℕ} (hn : n ≤ 41) {value : Int} (hb : ∀ i < n, bitOf value i = true) :
    ((List.range n).map (lawful.rOf sha256 value zeroDraws)).map enc =
      (List.range n).map fun i => toI ePts[i]! := by
  rw [List.map_map]
  refine List.map_congr_left fun i hi => ?_
  have hi := List.mem_range.1 hi
  rw [Function.comp_apply, rOf_one (hb i hi) rfl, ePts_get (by omega)]

theorem ones_lucky {n : ℕ} (hn : n ≤ 41) {value : Int} (hb : ∀ i < n, bitOf value i = true)
    (ho : setBytes (sha256 (((List.range n).map fun i => toI ePts[i]!).map
      fun c => intBytes c.1 ++ intBytes c.2).flatten) < curveN) :
    LuckyDraws lawful sha256 n value zeroDraws where
  inner i hi h := absurd h (by rw [hb i hi]; decide)
  outer := by rw [hps_eval (ones_map hn hb)]; exact_mod_cast ho
  rand i hi h := absurd h (by rw [hb i hi]; decide)
  comm i hi := by
    have : bitCommitment lawful sha256 n value zeroDraws i = (2 ^ i : Int) • G := by
      rw [bitCommitment, blinding, Lawful.vOf, if_pos (hb i hi), if_pos (hb i hi)]
      exact (congrArg _ (zero_zsmul _)).trans (add_zero _)
    rw [this]
    exact multOk_pow i (by omega)
  diff i hi := by
    have : bitCommitment lawful sha256 n value zeroDraws i = (2 ^ i : Int) • G := by
      rw [bitCommitment, blinding, Lawful.vOf, if_pos (hb i hi), if_pos (hb i hi)]
      exact (congrArg _ (zero_zsmul _)).trans (add_zero _)
    rw [this, show lawful.g = G from rfl, sub_self]
    exact multOk_zero

/-! ### Bit 2 is 0 -/

theorem mixed_bits : ∀ i < 40, bitOf mixedValue i = decide (i ≠ 2) := by decide +kernel

theorem mixed_bit {i : ℕ} (hi : i < 40) (h : i ≠ 2) : bitOf mixedValue i = true := by
  rw [mixed_bits i hi]; exact decide_eq_true h

theorem mixed_bit2 : bitOf mixedValue 2 = false := by decide +kernel

theorem mixedDraws_ne {i : ℕ} (h : i ≠ 2) : mixedDraws i = ⟨0, 0, 0⟩ := if_neg h

theorem mixed_map : ((List.range 40).map (lawful.rOf sha256 mixedValue mixedDraws)).map enc =
    (List.range 40).map fun i => if i = 2 then toI (hbX, hbY) else toI ePts[i]! := by
  rw [List.map_map]
  refine List.map_congr_left fun i hi => ?_
  have hi := List.mem_range.1 hi
  rw [Function.comp_apply]
  split_ifs with h
  · subst h
    rw [Lawful.rOf, mixed_bit2, if_neg (by decide)]
    show enc ((1 : Int) • Hb) = _
    rw [one_zsmul, enc_Hb]
    rfl
  · rw [rOf_one (mixed_bit hi h) (mixedDraws_ne h), ePts_get (by omega)]

theorem mixed_outer : lawful.hps sha256 ((List.range 40).map (lawful.rOf sha256 mixedValue mixedDraws)) =
    (mixedE : Int) := by
  rw [hps_eval mixed_map]
  decide +kernel

theorem mixed_e0 : lawful.e0Of sha256 40 mixedValue mixedDraws = (mixedE : Int) := by
  rw [Lawful.e0Of, mixed_outer]
  decide +kernel

theorem mixed_ei : lawful.eiOf sha256 40 mixedValue mixedDraws 2 = (mixedInner : Int) := by
  rw [Lawful.eiOf, mixed_e0]
  have : (mixedDraws 2).j • lawful.hb + ((mixedE : Int) * 2 ^ 2) • lawful.g =
      (4 * mixedE % curveN) • G := by
    rw [mod_N_smul, ← natCast_zsmul]
    show (0 : Int) • lawful.hb + ((mixedE : Int) * 2 ^ 2) • G = ((4 * mixedE : ℕ) : Int) • G
    rw [zero_zsmul, zero_add]
    congr 1
  rw [this]
  rw [hp_eval mixedPt_enc]
  decide +kernel

theorem mixed_inner_ne : ¬ (curveN : Int) ∣ (mixedInner : Int) := by decide +kernel

theorem mixed_comm : bitCommitment lawful sha256 40 mixedValue mixedDraws 2 =
    lawful.inv (mixedInner : Int) • Hb := by
  rw [bitCommitment, blinding, Lawful.vOf, mixed_bit2, mixed_ei]
  show (0 : Int) • lawful.g + (lawful.inv (mixedInner : Int) * 1) • Hb = _
  rw [zero_zsmul, zero_add, mul_one]

/-- A multiple of G that equals `mixed_comm` would give the logarithm of the base of the table. -/
theorem mixed_ne {s : Int} {n : ℕ} (hn : ∃ q ∈ mixedNs, q.1 = n)
    (hs : (curveN : Int) ∣ mixedInner * s - n ∨ (curveN : Int) ∣ mixedInner * s + n) :
    lawful.inv (mixedInner : Int) • Hb ≠ s • G := by
  intro h
  obtain ⟨q, hq, rfl⟩ := hn
  have h1 := congrArg (fun A => (mixedInner : Int) • A) h
  have h2 : (mixedInner : Int) • lawful.inv (mixedInner : Int) • Hb = Hb := by
    rw [smul_comm]; exact lawful.inv_smul mixed_inner_ne Hb
  rw [h2, smul_smul] at h1
  obtain ⟨n1, n2⟩ := mixedNs_ne q hq
  rcases hs with hs | hs
  · exact n1 (by rw [h1, ← natCast_zsmul]; exact smulG_inj.2 hs)
  · exact n2 (by rw [h1, ← natCast_zsmul, ← neg_smul]; exact smulG_inj.2 (by rwa [sub_neg_eq_add]))

theorem mixed_ok : lawful.MultOk (lawful.inv (mixedInner : Int) • Hb) ∧
    lawful.MultOk (lawful.inv (mixedInner : Int) • Hb - (4 : Int) • G) := by
  constructor
  · refine multOk_of_ne ?_ ?_ ?_
    · rw [← one_zsmul G, ← neg_zsmul]
      exact mixed_ne (n := mixedNs[0].1) ⟨_, List.getElem_mem _, rfl⟩ (by decide +kernel)
    · rw [H_log]
      exact mixed_ne (n := mixedNs[1].1) ⟨_, List.getElem_mem _, rfl⟩ (by decide +kernel)
    · rw [H_log, ← neg_zsmul]
      exact mixed_ne (n := mixedNs[1].1) ⟨_, List.getElem_mem _, rfl⟩ (by decide +kernel)
  · refine multOk_of_ne ?_ ?_ ?_
    · rw [Ne, sub_eq_iff_eq_add, ← neg_one_zsmul G, ← add_zsmul]
      exact mixed_ne (n := mixedNs[2].1) ⟨_, List.getElem_mem _, rfl⟩ (by decide +kernel)
    · rw [Ne, sub_eq_iff_eq_add, H_log, ← add_zsmul]
      exact mixed_ne (n := mixedNs[3].1) ⟨_, List.getElem_mem _, rfl⟩ (by decide +kernel)
    · rw [Ne, sub_eq_iff_eq_add, H_log, ← neg_zsmul, ← add_zsmul]
      exact mixed_ne (n := mixedNs[4].1) ⟨_, List.getElem_mem _, rfl⟩ (by decide +kernel)

theorem multOk_Hb : lawful.MultOk Hb := by
  have hG : Hb ≠ G ∧ Hb ≠ -G := x_ne (by rw [enc_Hb, enc_G]; decide +kernel)
  exact multOk_of_ne hG.2 Hb_ne_H.1 Hb_ne_H.2

/-- Draws that are not unlucky, for a value with bits 0 and 1. -/
theorem mixed_lucky : LuckyDraws lawful sha256 40 mixedValue mixedDraws where
  inner i hi h := by
    have : i = 2 := by by_contra h2; rw [mixed_bit hi h2] at h; exact absurd h (by decide)
    subst this
    rw [mixed_ei]
    exact mixed_inner_ne
  outer := by rw [mixed_outer]; decide +kernel
  rand i hi h := by
    have : i = 2 := by by_contra h2; rw [mixed_bit hi h2] at h; exact absurd h (by decide)
    subst this
    show lawful.MultOk ((1 : Int) • Hb)
    rw [one_zsmul]
    exact multOk_Hb
  comm i hi := by
    by_cases h2 : i = 2
    · subst h2; rw [mixed_comm]; exact mixed_ok.1
    · have : bitCommitment lawful sha256 40 mixedValue mixedDraws i = (2 ^ i : Int) • G := by
        rw [bitCommitment, blinding, Lawful.vOf, if_pos (mixed_bit hi h2), if_pos (mixed_bit hi h2),
          mixedDraws_ne h2]
        exact (congrArg _ (zero_zsmul _)).trans (add_zero _)
      rw [this]
      exact multOk_pow i (by omega)
  diff i hi := by
    by_cases h2 : i = 2
    · subst h2; rw [mixed_comm]; exact mixed_ok.2
    · have : bitCommitment lawful sha256 40 mixedValue mixedDraws i = (2 ^ i : Int) • G := by
        rw [bitCommitment, blinding, Lawful.vOf, if_pos (mixed_bit hi h2), if_pos (mixed_bit hi h2),
          mixedDraws_ne h2]
        exact (congrArg _ (zero_zsmul _)).trans (add_zero _)
      rw [this, show lawful.g = G from rfl, sub_self]
      exact multOk_zero

/-! ### All bits 0 -/

theorem rOf_zero {value : Int} {i : ℕ} (hb : bitOf value i = false) :
    lawful.rOf sha256 value zeroDraws i = 0 := by
  rw [Lawful.rOf, hb, if_neg (by decide)]
  exact zero_zsmul _

theorem zeros_e0 {value : Int} (hb : ∀ i < 40, bitOf value i = false) :
    lawful.e0Of sha256 40 value zeroDraws = (emptyHash : Int) := by
  have h : ((List.range 40).map (lawful.rOf sha256 value zeroDraws)).map enc =
      (List.range 40).map fun _ => ((0 : Int), (0 : Int)) := by
    rw [List.map_map]
    refine List.map_congr_left fun i hi => ?_
    rw [Function.comp_apply, rOf_zero (hb i (List.mem_range.1 hi)), enc_zero]
  rw [Lawful.e0Of, hps_eval h]
  decide +kernel

theorem ePts_hash : ∀ i < 40, ¬ (curveN : Int) ∣
    (setBytes (sha256 (intBytes (toI ePts[i]!).1 ++ intBytes (toI ePts[i]!).2)) : Int) := by
  decide +kernel

theorem zeros_inner {value : Int} (hb : ∀ i < 40, bitOf value i = false) (i : ℕ) (hi : i < 40) :
    ¬ (curveN : Int) ∣ lawful.eiOf sha256 40 value zeroDraws i := by
  rw [Lawful.eiOf, zeros_e0 hb]
  have : (zeroDraws i).j • lawful.hb + ((emptyHash : Int) * 2 ^ i) • lawful.g =
      (emptyHash : Int) • (2 ^ i : Int) • G := by
    show (0 : Int) • lawful.hb + ((emptyHash : Int) * 2 ^ i) • G = _
    rw [zero_zsmul, zero_add, smul_smul]
  rw [this, hp_eval (ePts_get (by omega))]
  exact ePts_hash i hi

theorem gPts_ne (i : ℕ) (hi : i < 64) : (2 ^ i : Int) • G ≠ Hb ∧ (2 ^ i : Int) • G ≠ -Hb := by
  have h := congrArg (fun l => l[i]?) gPts_enc
  simp only [List.getElem?_map, List.getElem?_range hi, Option.map_some] at h
  have hl : i < gPts.length := hi
  rw [List.getElem?_eq_getElem hl, Option.map_some, Option.some.injEq] at h
  have h2 : ∀ q ∈ gPts, (toI q).1 ≠ (enc Hb).1 := by rw [enc_Hb]; decide +kernel
  rw [← Nat.cast_ofNat, ← Nat.cast_pow, natCast_zsmul]
  refine x_ne ?_
  rw [h]
  exact h2 _ (List.getElem_mem hl)

end Zk.Real
