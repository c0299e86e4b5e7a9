import Verif.Proto.Lawful
import Mathlib.Tactic.FinCases
import Mathlib.Tactic.DeriveFintype

/-!
# A small lawful curve

A seven-element group with coordinates, used only to show that the hypotheses of the protocol
theorems can be met.  It is not a model of code in /repo.
-/

namespace Zk.Proto.Toy

open Zk Zk.Proto

/-- Coordinates of the toy group (no counterpart in /repo).  See crypto.go:18-23. -/
def enc (a : ZMod 7) : Int × Int :=
  if a = 0 then (0, 0) else if a.val ≤ 3 then ((a.val : Int), 1) else (7 - (a.val : Int), 10)

/-- Inverse of `enc` (no counterpart in /repo).  See crypto.go:18-23. -/
def dec (x y : Int) : ZMod 7 := if y = 1 then (x : ZMod 7) else -(x : ZMod 7)

/-- The toy curve (no counterpart in /repo).  See crypto.go:18-23. -/
def curve : Curve where
  P := 11
  N := 7
  isOnCurve x _ := .ok (decide (x ≠ 0))
  add x1 y1 x2 y2 := .ok (enc (dec x1 y1 + dec x2 y2))
  scalarMult x y k := .ok (enc (setBytes k • dec x y))
  scalarBaseMult k := .ok (enc (setBytes k • (1 : ZMod 7)))
  scalarBaseMultH k := .ok (enc (setBytes k • (3 : ZMod 7)))

/-- Toy parameters; as in `TestCurve`, the base of the H table differs from H.
See crypto.go:18-23. -/
def params : Params where
  C := curve
  G := pt 1 1
  H := pt 2 1
  HPoints := (List.range 64).map fun i => pt (enc (2 ^ i • (1 : ZMod 7))).1 (enc (2 ^ i • (1 : ZMod 7))).2

theorem dec_enc : ∀ a : ZMod 7, dec (enc a).1 (enc a).2 = a := by decide

/-- The toy curve is lawful.  See crypto.go:18-23. -/
def lawful : Lawful params (ZMod 7) where
  enc := enc
  g := 1
  h := 2
  hb := 3
  prime := by change Nat.Prime 7; decide
  five_lt := by decide
  card := by simp [params, curve]
  P_pos := by decide
  g_ne := by decide
  h_ne := by decide
  hb_ne := by decide
  h_ne_g := by decide
  h_ne_neg_g := by decide
  enc_zero := by decide
  enc_nonneg := by decide
  enc_inj := by decide
  enc_x := by decide
  enc_neg := by decide
  G_eq := by decide
  H_eq := by decide
  isOnCurve_enc := by decide
  isOnCurve_zero := by decide
  add_enc := by intro a b; simp [params, curve, dec_enc]
  scalarMult_enc := by intro a k; simp [params, curve, dec_enc]
  scalarBaseMult_eq := by intro k; rfl
  scalarBaseMultH_eq := by intro k; rfl
  HPoints_len := by simp [params]
  HPoints_get := by intro i hi; simp [params, hi]

/-- Elements that `Mult` takes for themselves. -/
theorem eff_plain (a : ZMod 7) (h : a ≠ 1 ∧ a ≠ 6 ∧ a ≠ 2 ∧ a ≠ 5) : lawful.eff a = a := by
  have h1 : ¬ (a = lawful.g ∨ a = -lawful.g) := by
    have e : -lawful.g = (6 : ZMod 7) := by decide
    rw [e]; exact fun h' => h'.elim h.1 h.2.1
  have h2 : ¬ (a = lawful.h ∨ a = -lawful.h) := by
    have e : -lawful.h = (5 : ZMod 7) := by decide
    rw [e]; exact fun h' => h'.elim h.2.2.1 h.2.2.2
  rw [Lawful.eff, if_neg h1, if_neg h2]

end Zk.Proto.Toy
