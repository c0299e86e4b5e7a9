import Verif.Curve.TestLemmas
import Verif.Proto.Lawful

/-!
# `TestCurve` implements the group
-/

namespace Zk.Curve

open Zk Zk.Field Zk.Proto

theorem natAbs_shift64 : ∀ i, i < 64 → (shift64 i).natAbs = 2 ^ i := by decide +kernel

theorem setBytes_shift64 {i : ℕ} (h : i < 64) : setBytes (intBytes (shift64 i)) = 2 ^ i := by
  rw [intBytes, setBytes_natBytes, natAbs_shift64 i h]

theorem mapM_ok {α β : Type} (f : α → Go β) (g : α → β) :
    ∀ l : List α, (∀ a ∈ l, f a = .ok (g a)) → l.mapM f = .ok (l.map g)
  | [], _ => rfl
  | a :: l, h => by
    rw [List.mapM_cons, h a (by simp), mapM_ok f g l fun b hb => h b (by simp [hb])]
    rfl

/-- The points 2^i G (specification; zksigma.go:40-47). -/
def hPoints : List ECPoint :=
  (List.range 64).map fun i => pt (enc (2 ^ i • G)).1 (enc (2 ^ i • G)).2

theorem generateH2tothe_eq : generateH2tothe = .ok hPoints := by
  refine mapM_ok _ _ _ fun i hi => ?_
  rw [scalarBaseMult_G, setBytes_shift64 (List.mem_range.1 hi)]
  rfl

/-- The value of `TestCurve` after `init` (specification; zksigma.go:49-59). -/
def tc : Params where
  C := s256
  G := pt (curveGx : ℕ) (curveGy : ℕ)
  H := pt (hX : ℕ) (hY : ℕ)
  HPoints := hPoints

theorem testCurve_eq : testCurve = .ok tc := by
  have h := scalarMult_enc G hashedString
  rw [enc_G, ← H_eq_smul, enc_H] at h
  rw [testCurve, h, generateH2tothe_eq]
  rfl

theorem x_ne {A B : E} (h : (enc A).1 ≠ (enc B).1) : A ≠ B ∧ A ≠ -B :=
  ⟨fun e => h ((enc_x A B).2 (.inl e)), fun e => h ((enc_x A B).2 (.inr e))⟩

theorem H_ne_G : H ≠ G ∧ H ≠ -G := x_ne (by rw [enc_H, enc_G]; decide +kernel)

theorem Hb_ne_H : Hb ≠ H ∧ Hb ≠ -H := x_ne (by rw [enc_H, enc_Hb]; decide +kernel)

/-- `TestCurve` satisfies everything the proofs about the protocols assume of curve parameters
(specification; zksigma.go:49-59). -/
def lawful : Lawful tc E where
  enc := enc
  g := G
  h := H
  hb := Hb
  prime := prime_curveN
  five_lt := by decide +kernel
  card := card_E
  P_pos := by decide +kernel
  g_ne := G_ne
  h_ne := mk_ne_zero _
  hb_ne := mk_ne_zero _
  h_ne_g := H_ne_G.1
  h_ne_neg_g := H_ne_G.2
  enc_zero := enc_zero
  enc_nonneg := enc_nonneg
  enc_inj := enc_inj
  enc_x := enc_x
  enc_neg := enc_neg
  G_eq := by rw [enc_G]; rfl
  H_eq := by rw [enc_H]; rfl
  isOnCurve_enc := isOnCurve_enc
  isOnCurve_zero := isOnCurve_zero
  add_enc := add_enc
  scalarMult_enc := scalarMult_enc
  scalarBaseMult_eq := scalarBaseMult_G
  scalarBaseMultH_eq := scalarBaseMult_H
  HPoints_len := by simp [tc, hPoints]
  HPoints_get := fun i hi => by
    simp only [tc, hPoints, List.getElem?_map, List.getElem?_range hi]
    rfl

end Zk.Curve
