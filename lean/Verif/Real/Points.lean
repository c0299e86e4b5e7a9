import Verif.Real.Data
import Verif.Real.Rejects
import Verif.Range.Props3

/-!
# Coordinates of the points in concrete proofs, and their challenges
-/

namespace Zk.Real

open Zk Zk.Field Zk.Curve Zk.Proto

/-! ### Coordinates -/

/-- Every pair is the double of the one before (used only to check data).  See zksigma.go:40-47. -/
def dblOk : ℕ × ℕ → List (ℕ × ℕ) → Bool
  | _, [] => true
  | (x, y), (x', y') :: l =>
    !(Nat.beq (y % P) 0) && neq (ndbl (x, y, 1)) (x', y', 1) && dblOk (x', y') l

/-- Reduced coordinates of a point of the curve (used only to check data).  See zksigma.go:49-59. -/
def affOk (p : ℕ × ℕ) : Bool :=
  Nat.blt p.1 P && Nat.blt p.2 P && Nat.beq (p.2 ^ 2 % P) ((p.1 ^ 3 + 7) % P)

theorem enc_of_rep {p : ℕ × ℕ} {A : E} (h : RepN (p.1, p.2, 1) A) (ho : affOk p = true) :
    enc A = ((p.1 : Int), (p.2 : Int)) := by
  simp only [affOk, Bool.and_eq_true, Nat.blt_eq] at ho
  obtain ⟨⟨hx, hy⟩, ho⟩ := ho
  rw [RepN.eq h (RepN.of_mk (on_curve (Nat.eq_of_beq_eq_true ho))), enc_mk, ZMod.val_natCast,
    ZMod.val_natCast, Nat.mod_eq_of_lt hx, Nat.mod_eq_of_lt hy]

theorem dblOk_rep : ∀ (l : List (ℕ × ℕ)) (p : ℕ × ℕ) (A : E), RepN (p.1, p.2, 1) A →
    dblOk p l = true → ∀ i q, (p :: l)[i]? = some q → RepN (q.1, q.2, 1) (2 ^ i • A)
  | [], p, A, h, _, i, q, hq => by
    cases i with
    | zero => simp only [List.getElem?_cons_zero, Option.some.injEq] at hq; subst hq; simpa using h
    | succ i => simp at hq
  | (x', y') :: l, (x, y), A, h, hd, i, q, hq => by
    simp only [dblOk, Bool.and_eq_true] at hd
    obtain ⟨⟨hy, he⟩, hl⟩ := hd
    cases i with
    | zero => simp only [List.getElem?_cons_zero, Option.some.injEq] at hq; subst hq; simpa using h
    | succ i =>
      have h2 : RepN (x', y', 1) (A + A) :=
        neq_rep (ndbl_rep h (beq_false hy)) (show 1 % P ≠ 0 by decide) he
      have := dblOk_rep l (x', y') (A + A) h2 hl i q (by simpa using hq)
      rwa [← two_nsmul, ← mul_nsmul', ← pow_succ] at this

theorem enc_negG : enc (-G) = ((curveGx : Int), ((curveP - curveGy : ℕ) : Int)) := by
  rw [enc_neg, enc_G]; decide +kernel

/-- Coordinates as integers (used only to check data).  See zksigma.go:49-59. -/
def toI (q : ℕ × ℕ) : Int × Int := (q.1, q.2)

/-- The coordinates of G (btcec/btcec.go:938-939). -/
def cG : Int × Int := (curveGx, curveGy)

/-- The coordinates of -G.  See zksigma.go:49-59. -/
def cNG : Int × Int := (curveGx, ((curveP - curveGy : ℕ) : Int))

/-- The coordinates of `TestCurve.H`.  See zksigma.go:49-59. -/
def cH : Int × Int := (hX, hY)

theorem encG : enc G = cG := enc_G
theorem encNG : enc (-G) = cNG := enc_negG
theorem encH : enc H = cH := enc_H

theorem emod_of_dvd {x r n : Int} (h : n ∣ x - r) (h0 : 0 ≤ r) (h1 : r < n) : x % n = r :=
  (Int.emod_eq_emod_iff_emod_sub_eq_zero.2 (Int.emod_eq_zero_of_dvd h)).trans (Int.emod_eq_of_lt h0 h1)

theorem dbl_enc {p : ℕ × ℕ} {l : List (ℕ × ℕ)} {A : E} (h : RepN (p.1, p.2, 1) A)
    (hd : dblOk p l = true) (ho : (p :: l).all affOk = true) :
    (List.range (p :: l).length).map (fun i => enc (2 ^ i • A)) = (p :: l).map toI := by
  refine List.ext_getElem (by simp) fun i hi _ => ?_
  have hi' : i < (p :: l).length := by simpa using hi
  rw [List.getElem_map, List.getElem_map, List.getElem_range]
  exact enc_of_rep (dblOk_rep l p A h hd i _ (List.getElem?_eq_getElem hi'))
    (List.all_eq_true.1 ho _ (List.getElem_mem hi'))

theorem gPts_enc : (List.range 64).map (fun i => enc (2 ^ i • G)) = gPts.map toI :=
  dbl_enc (p := (curveGx, curveGy)) (l := gPts.tail) Gn_rep (by decide +kernel) (by decide +kernel)

theorem ePts_enc : (List.range 41).map (fun i => enc (2 ^ i • emptyHash • G)) = ePts.map toI :=
  dbl_enc (A := emptyHash • G) (p := ePts[0]'(by decide)) (l := ePts.tail)
    (checkMulG_rep (by decide) (by decide) (by decide +kernel)) (by decide +kernel) (by decide +kernel)

theorem mixedPt_enc : enc ((4 * mixedE % curveN) • G) = toI mixedPt :=
  enc_of_rep (p := mixedPt) (checkMulG_rep (by decide +kernel) (by decide +kernel) (by decide +kernel))
    (by decide +kernel)

/-- The base of the second table is none of the points in `mixedNs`, nor their negation. -/
theorem mixedNs_ne : ∀ n ∈ mixedNs, Hb ≠ n.1 • G ∧ Hb ≠ -(n.1 • G) := by
  have h : ∀ n ∈ mixedNs, 1 ≤ n.1 ∧ n.1 < 2 ^ 256 ∧ checkMulG n.1 n.2.1 n.2.2 = true ∧
      affOk n.2 = true ∧ (enc Hb).1 ≠ (toI n.2).1 := by
    rw [enc_Hb]; decide +kernel
  intro n hn
  obtain ⟨h1, h2, h3, h4, h5⟩ := h n hn
  refine x_ne ?_
  rw [enc_of_rep (p := n.2) (checkMulG_rep h1 h2 h3) h4]
  exact h5

/-! ### Points given by their logarithm -/

/-- The logarithm of `TestCurve.H` (specification; see `C61_refuted`).  See zksigma.go:49-59. -/
def logH : ℕ := 0x94e35037c3705ca047e88b2bd1f3207987dba1fb4c817b9ebc943566dd637134

theorem H_log : H = (logH : Int) • G := by
  rw [show (logH : Int) = ((setBytes hashedString % curveN : ℕ) : Int) by decide +kernel, natCast_zsmul,
    mod_N_smul, ← H_eq_smul]

theorem smulG_inj {s t : Int} : s • G = t • G ↔ (curveN : Int) ∣ s - t := by
  rw [← sub_eq_zero, ← sub_smul]
  exact lawful.smul_eq_zero (s := s - t) G_ne

/-- `Mult` treats a multiple of G correctly unless it is -G, H or -H. -/
theorem multOk_log {s : Int} (h1 : ¬ (curveN : Int) ∣ s + 1) (h2 : ¬ (curveN : Int) ∣ s - logH)
    (h3 : ¬ (curveN : Int) ∣ s + logH) : lawful.MultOk (s • G) := by
  rw [lawful.multOk_iff_eff, Lawful.eff]
  split_ifs with h4 h5
  · rcases h4 with h4 | h4
    · exact h4.symm
    · exfalso
      have h6 : s • G = (-1 : Int) • G := by rw [neg_smul, one_smul]; exact h4
      rw [smulG_inj] at h6
      exact h1 (by simpa using h6)
  · exfalso
    rcases h5 with h5 | h5
    · have h6 : s • G = (logH : Int) • G := by rw [← H_log]; exact h5
      exact h2 (smulG_inj.1 h6)
    · have h6 : s • G = (-logH : Int) • G := by rw [neg_smul, ← H_log]; exact h5
      rw [smulG_inj, sub_neg_eq_add] at h6
      exact h3 h6
  · rfl

/-! ### Hashes -/

theorem chal_eval {as : List E} {cs : List (Int × Int)} (h : as.map enc = cs) (hash : Bytes → Bytes) :
    lawful.chal hash as =
      (setBytes (hash (cs.map fun c => intBytes c.1 ++ intBytes c.2).flatten) : Int) % (curveN : Int) := by
  subst h
  rw [List.map_map]
  rfl

theorem hps_eval {as : List E} {cs : List (Int × Int)} (h : as.map enc = cs) (hash : Bytes → Bytes) :
    lawful.hps hash as = setBytes (hash (cs.map fun c => intBytes c.1 ++ intBytes c.2).flatten) := by
  subst h
  rw [List.map_map]
  rfl

theorem hp_eval {A : E} {c : Int × Int} (h : enc A = c) (hash : Bytes → Bytes) :
    lawful.hp hash A = setBytes (hash (intBytes c.1 ++ intBytes c.2)) := by
  subst h; rfl

theorem hp_zero : lawful.hp sha256 (0 : E) = (emptyHash : Int) := by
  rw [hp_eval enc_zero]; decide +kernel

end Zk.Real
