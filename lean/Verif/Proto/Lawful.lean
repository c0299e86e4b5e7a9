import Verif.Proto.Model
import Mathlib.Algebra.Group.Subgroup.Basic
import Mathlib.GroupTheory.OrderOfElement
import Mathlib.Data.ZMod.Basic
import Mathlib.Algebra.Field.ZMod
import Mathlib.Tactic.Module
import Mathlib.Tactic.LinearCombination

/-!
# Specification of the curve that the protocols run on

`Lawful cp E` says that the curve operations in `cp` compute in the group `E` of prime order `N`
under a coordinate encoding.  `ScalarBaseMultH` multiplies a base `hb`; nothing says that `hb` is the
generator `h` stored in `cp.H` (for `TestCurve` it is not).
-/

namespace Zk.Proto

open Zk

/-- The operations of `cp` implement the group `E` (specification; crypto.go:18-23). -/
structure Lawful (cp : Params) (E : Type) [AddCommGroup E] where
  /-- Coordinates of a group element. -/
  enc : E → Int × Int
  /-- The first generator. -/
  g : E
  /-- The second generator, as stored in the parameters. -/
  h : E
  /-- The base of the precomputed table that `ScalarBaseMultH` uses. -/
  hb : E
  prime : Nat.Prime cp.C.N
  five_lt : 5 < cp.C.N
  card : Nat.card E = cp.C.N
  P_pos : 0 < cp.C.P
  g_ne : g ≠ 0
  h_ne : h ≠ 0
  hb_ne : hb ≠ 0
  h_ne_g : h ≠ g
  h_ne_neg_g : h ≠ -g
  enc_zero : enc 0 = (0, 0)
  enc_nonneg : ∀ a, 0 ≤ (enc a).1 ∧ 0 ≤ (enc a).2
  enc_inj : ∀ a b, enc a = enc b → a = b
  enc_x : ∀ a b, (enc a).1 = (enc b).1 ↔ a = b ∨ a = -b
  enc_neg : ∀ a, enc (-a) = ((enc a).1, (-(enc a).2) % (cp.C.P : Int))
  G_eq : cp.G = pt (enc g).1 (enc g).2
  H_eq : cp.H = pt (enc h).1 (enc h).2
  isOnCurve_enc : ∀ a, a ≠ 0 → cp.C.isOnCurve (enc a).1 (enc a).2 = .ok true
  isOnCurve_zero : cp.C.isOnCurve 0 0 = .ok false
  add_enc : ∀ a b, cp.C.add (enc a).1 (enc a).2 (enc b).1 (enc b).2 = .ok (enc (a + b))
  scalarMult_enc : ∀ a k, cp.C.scalarMult (enc a).1 (enc a).2 k = .ok (enc (setBytes k • a))
  scalarBaseMult_eq : ∀ k, cp.C.scalarBaseMult k = .ok (enc (setBytes k • g))
  scalarBaseMultH_eq : ∀ k, cp.C.scalarBaseMultH k = .ok (enc (setBytes k • hb))
  HPoints_len : cp.HPoints.length = 64
  HPoints_get : ∀ i, i < 64 →
    cp.HPoints[i]? = some (pt (enc (2 ^ i • g)).1 (enc (2 ^ i • g)).2)

namespace Lawful

variable {cp : Params} {E : Type} [AddCommGroup E] (L : Lawful cp E)

/-- The Go point of a group element.  See crypto.go:70-72. -/
def pe (a : E) : ECPoint := pt (L.enc a).1 (L.enc a).2

/-- The bytes of a group element, as hashed.  See crypto.go:151-153. -/
def bytes (a : E) : Bytes := intBytes (L.enc a).1 ++ intBytes (L.enc a).2

open Classical in
/-- The group element that `Mult` multiplies when it is given `a`: `g` for `±g`, the base of the
table for `±h`, and `a` otherwise (crypto.go:98-108 with `Equal` as it is). -/
noncomputable def eff (a : E) : E :=
  if a = L.g ∨ a = -L.g then L.g else if a = L.h ∨ a = -L.h then L.hb else a

/-- `Mult` treats `a` correctly.  See crypto.go:86-110. -/
def MultOk (a : E) : Prop := ∀ s : Int, mult cp (L.pe a) (some s) = .ok (L.pe (s • a))

include L

theorem N_pos : 0 < cp.C.N := L.prime.pos

theorem N_smul (a : E) : (cp.C.N : Int) • a = 0 := by
  have := card_nsmul_eq_zero' (x := a)
  rw [L.card] at this
  rw [natCast_zsmul]; exact this

theorem smul_mod (s : Int) (a : E) : (s % (cp.C.N : Int)) • a = s • a := by
  conv_rhs => rw [← Int.emod_add_mul_ediv s cp.C.N]
  rw [add_smul, mul_comm, mul_smul, L.N_smul, smul_zero, add_zero]

theorem smul_congr {s t : Int} (h : s % (cp.C.N : Int) = t % (cp.C.N : Int)) (a : E) :
    s • a = t • a := by
  rw [← L.smul_mod s, ← L.smul_mod t, h]

/-- `intBytes` of a reduced scalar. -/
theorem setBytes_mod_smul (s : Int) (a : E) :
    setBytes (intBytes (s % (cp.C.N : Int))) • a = s • a := by
  rw [setBytes_intBytes]
  have h0 : 0 ≤ s % (cp.C.N : Int) := Int.emod_nonneg _ (by have := L.N_pos; omega)
  rw [← natCast_zsmul, Int.natAbs_of_nonneg h0, L.smul_mod]

/-- Prime order: a multiple of a non-zero element is zero only for multiples of N. -/
theorem smul_eq_zero {s : Int} {a : E} (ha : a ≠ 0) : s • a = 0 ↔ (cp.C.N : Int) ∣ s := by
  constructor
  · intro h
    have hd : (addOrderOf a : Int) ∣ s := addOrderOf_dvd_iff_zsmul_eq_zero.2 h
    have hN : addOrderOf a ∣ cp.C.N := by rw [← L.card]; exact addOrderOf_dvd_natCard a
    rcases (Nat.dvd_prime L.prime).1 hN with h1 | h1
    · exact absurd (AddMonoid.addOrderOf_eq_one_iff.1 h1) ha
    · rwa [h1] at hd
  · rintro ⟨k, rfl⟩
    rw [mul_smul, L.N_smul]

theorem smul_eq_smul {s t : Int} {a : E} (ha : a ≠ 0) :
    s • a = t • a ↔ s % (cp.C.N : Int) = t % (cp.C.N : Int) := by
  rw [← sub_eq_zero, ← sub_smul, L.smul_eq_zero ha]
  rw [Int.emod_eq_emod_iff_emod_sub_eq_zero, ← Int.dvd_iff_emod_eq_zero]

theorem neg_eq_self {a : E} (h : a = -a) : a = 0 := by
  by_contra ha
  have h2 : (2 : Int) • a = 0 := by rw [two_smul]; nth_rw 1 [h]; simp
  have := (L.smul_eq_zero ha).1 h2
  have hle := Int.le_of_dvd (by norm_num) this
  have := L.five_lt
  omega

/-- Division by a scalar that is not a multiple of N.  See abc.go:109. -/
noncomputable def inv (_ : Lawful cp E) (z : Int) : Int := ((z : ZMod cp.C.N)⁻¹).val

theorem inv_mul {z : Int} (hz : ¬ (cp.C.N : Int) ∣ z) : (L.inv z * z) % (cp.C.N : Int) = 1 % cp.C.N := by
  have : Fact cp.C.N.Prime := ⟨L.prime⟩
  have hz' : (z : ZMod cp.C.N) ≠ 0 := by
    rwa [Ne, ZMod.intCast_zmod_eq_zero_iff_dvd]
  have : ((L.inv z * z : Int) : ZMod cp.C.N) = ((1 : Int) : ZMod cp.C.N) := by
    have hne : NeZero cp.C.N := ⟨L.prime.ne_zero⟩
    have h1 : ((L.inv z : Int) : ZMod cp.C.N) = (z : ZMod cp.C.N)⁻¹ := by
      rw [inv, Int.cast_natCast, ZMod.natCast_zmod_val]
    rw [Int.cast_mul, h1, Int.cast_one]
    exact inv_mul_cancel₀ hz'
  exact (ZMod.intCast_eq_intCast_iff' _ _ _).1 this

theorem inv_smul {z : Int} (hz : ¬ (cp.C.N : Int) ∣ z) (a : E) : L.inv z • z • a = a := by
  rw [← mul_smul, L.smul_congr (L.inv_mul hz), one_smul]

/-! ### The operations on encoded points -/

theorem coords_pe (a : E) : coords (L.pe a) = .ok (L.enc a) := rfl

theorem mk_enc (a : E) : mkPt (L.enc a) = L.pe a := rfl

theorem pe_zero : L.pe 0 = Zero := by simp [pe, L.enc_zero, Zero]

theorem pe_inj {a b : E} : L.pe a = L.pe b ↔ a = b := by
  constructor
  · intro h
    simp only [pe, pt, ECPoint.mk.injEq, Option.some.injEq] at h
    exact L.enc_inj a b (Prod.ext h.1 h.2)
  · rintro rfl; rfl

theorem G_pe : cp.G = L.pe L.g := L.G_eq

theorem H_pe : cp.H = L.pe L.h := L.H_eq

/-- Result of `Equal` on group elements.  See crypto.go:78-83. -/
def same (a b : E) : Bool := decide ((L.enc a).1 = (L.enc b).1)

theorem same_iff {a b : E} : L.same a b = true ↔ a = b ∨ a = -b := by
  rw [same, decide_eq_true_eq, L.enc_x]

theorem same_self (a : E) : L.same a a = true := by simp [same]

theorem equal_pt (x y : Int) (b : E) :
    equal (pt x y) (L.pe b) = .ok (decide (x = (L.enc b).1)) := by
  by_cases h : x = (L.enc b).1 <;> simp [equal, pe, pt, cmpEq, h]

theorem equal_pe (a b : E) : equal (L.pe a) (L.pe b) = .ok (L.same a b) := L.equal_pt _ _ _

theorem equal_zero (a : E) : equal (L.pe a) Zero = .ok (L.same a 0) := by
  rw [← L.pe_zero]; exact L.equal_pe a 0

theorem same_zero {a : E} : L.same a 0 = true ↔ a = 0 := by
  rw [same_iff]; simp

theorem pe_ne_nil (a : E) : ¬ ((L.pe a).X = none ∧ (L.pe a).Y = none) := by simp [pe, pt]

theorem mult_pe (s : Int) (a : E) : mult cp (L.pe a) (some s) = .ok (L.pe (s • L.eff a)) := by
  rw [mult, if_neg (L.pe_ne_nil a)]
  simp only [deref_some, Go.bind_ok, L.G_pe, L.H_pe, L.equal_pe, L.coords_pe, L.scalarBaseMult_eq,
    L.scalarBaseMultH_eq, L.scalarMult_enc, L.setBytes_mod_smul, Go.pure_eq, L.mk_enc]
  by_cases h1 : L.same a L.g = true
  · rw [if_pos h1, eff, if_pos (L.same_iff.1 h1)]
  · rw [if_neg h1, eff, if_neg (fun h => h1 (L.same_iff.2 h))]
    by_cases h2 : L.same a L.h = true
    · rw [if_pos h2, if_pos (L.same_iff.1 h2)]
    · rw [if_neg h2, if_neg (fun h => h2 (L.same_iff.2 h))]

theorem eff_g : L.eff L.g = L.g := by simp [eff]

theorem eff_neg_g : L.eff (-L.g) = L.g := by simp [eff]

theorem eff_h : L.eff L.h = L.hb := by
  simp [eff, L.h_ne_g, L.h_ne_neg_g]

theorem eff_neg_h : L.eff (-L.h) = L.hb := by
  have h1 : ¬ (-L.h = L.g) := fun h => L.h_ne_neg_g (by rw [← h, neg_neg])
  simp [eff, h1, L.h_ne_g]

theorem eff_zero : L.eff 0 = 0 := by
  have h1 : ¬ ((0 : E) = L.g ∨ (0 : E) = -L.g) := by
    rintro (h | h)
    · exact L.g_ne h.symm
    · exact L.g_ne (by simpa using h.symm)
  have h2 : ¬ ((0 : E) = L.h ∨ (0 : E) = -L.h) := by
    rintro (h | h)
    · exact L.h_ne h.symm
    · exact L.h_ne (by simpa using h.symm)
  simp only [eff, if_neg h1, if_neg h2]

/-- `Mult` is right for a point exactly when it takes the point for itself. -/
theorem multOk_iff_eff (a : E) : L.MultOk a ↔ L.eff a = a := by
  constructor
  · intro h
    have h1 := h 1
    rw [L.mult_pe, Go.ok.injEq, L.pe_inj, one_smul, one_smul] at h1
    exact h1
  · intro h s
    rw [L.mult_pe, h]

theorem zeroAndOnCurve_pe (a b : E) :
    zeroAndOnCurve cp (L.pe a) (L.pe b) = .ok (L.same a 0 && !L.same b 0) := by
  simp only [zeroAndOnCurve, L.equal_zero, Go.bind_ok, L.coords_pe]
  by_cases ha : L.same a 0 = true
  · rw [if_pos ha, ha]
    by_cases hb : b = 0
    · subst hb; simp [L.enc_zero, L.isOnCurve_zero, L.same_self]
    · rw [L.isOnCurve_enc b hb]
      have : L.same b 0 = false := by
        rw [Bool.eq_false_iff]; exact fun h => hb (L.same_zero.1 h)
      simp [this]
  · rw [if_neg ha]; simp [Bool.eq_false_iff.2 ha]

theorem curveAdd_pe (a b : E) : curveAdd cp (L.pe a) (L.pe b) = .ok (L.pe (a + b)) := by
  simp [curveAdd, L.coords_pe, L.add_enc, L.mk_enc]

theorem add_pe (a b : E) : add cp (L.pe a) (L.pe b) = .ok (L.pe (a + b)) := by
  simp only [add, L.zeroAndOnCurve_pe, Go.bind_ok, L.curveAdd_pe]
  by_cases ha : a = 0
  · subst ha
    by_cases hb : b = 0
    · subst hb; simp [L.same_self]
    · have : L.same b 0 = false := by
        rw [Bool.eq_false_iff]; exact fun h => hb (L.same_zero.1 h)
      simp [L.same_self, this]
  · have h1 : L.same a 0 = false := by
      rw [Bool.eq_false_iff]; exact fun h => ha (L.same_zero.1 h)
    by_cases hb : b = 0
    · subst hb; simp [L.same_self, h1]
    · have : L.same b 0 = false := by
        rw [Bool.eq_false_iff]; exact fun h => hb (L.same_zero.1 h)
      simp [h1, this]

theorem neg_pe (a : E) : neg cp (L.pe a) = .ok (L.pe (-a)) := by
  simp [neg, pe, pt, L.enc_neg]

theorem sub_pe (a b : E) : sub cp (L.pe a) (L.pe b) = .ok (L.pe (a - b)) := by
  simp only [sub, L.zeroAndOnCurve_pe, Go.bind_ok, L.curveAdd_pe, L.neg_pe]
  by_cases ha : a = 0
  · subst ha
    by_cases hb : b = 0
    · subst hb; simp [L.same_self]
    · have : L.same b 0 = false := by
        rw [Bool.eq_false_iff]; exact fun h => hb (L.same_zero.1 h)
      simp [L.same_self, this]
  · have h1 : L.same a 0 = false := by
      rw [Bool.eq_false_iff]; exact fun h => ha (L.same_zero.1 h)
    by_cases hb : b = 0
    · subst hb; simp [L.same_self, h1]
    · have : L.same b 0 = false := by
        rw [Bool.eq_false_iff]; exact fun h => hb (L.same_zero.1 h)
      simp [h1, this, sub_eq_add_neg]

theorem pedCommitR_pe (v r : Int) :
    pedCommitR cp (some v) (some r) = .ok (L.pe (v • L.g + r • L.hb)) := by
  simp only [pedCommitR, deref_some, Go.bind_ok, L.G_pe, L.H_pe, L.mult_pe, L.eff_g, L.eff_h,
    L.smul_mod, L.add_pe]

theorem commitR_pe (a : E) (r : Int) : commitR cp (L.pe a) r = .ok (L.pe (r • a)) := by
  simp [commitR, L.coords_pe, L.scalarMult_enc, L.setBytes_mod_smul, L.mk_enc]

theorem scalarMult_pe (a : E) (r : Int) :
    cp.C.scalarMult (L.enc a).1 (L.enc a).2 (intBytes (r % (cp.C.N : Int))) =
      .ok (L.enc (r • a)) := by
  rw [L.scalarMult_enc, L.setBytes_mod_smul]

theorem pointBytes_pe (a : E) : pointBytes (L.pe a) = .ok (L.bytes a) := rfl

omit [AddCommGroup E] L in
theorem pointBytes_pt (x y : Int) : pointBytes (pt x y) = .ok (intBytes x ++ intBytes y) := rfl

/-- The challenge computed from group elements.  See crypto.go:254-262. -/
def chal (L : Lawful cp E) (hash : Bytes → Bytes) (as : List E) : Int :=
  generateChallenge hash cp (as.map L.bytes)

theorem challengeOf_pe (hash : Bytes → Bytes) (as : List E) :
    challengeOf hash cp (as.map L.pe) = .ok (L.chal hash as) := by
  have : (as.map L.pe).mapM pointBytes = .ok (as.map L.bytes) := by
    induction as with
    | nil => rfl
    | cons a as ih => simp [List.mapM_cons, L.pointBytes_pe, ih]
  simp [challengeOf, this, chal]

theorem generateChallenge_range (hash : Bytes → Bytes) (arr : List Bytes) :
    0 ≤ generateChallenge hash cp arr ∧ generateChallenge hash cp arr < cp.C.N := by
  have := L.N_pos
  exact ⟨Int.emod_nonneg _ (by omega), Int.emod_lt_of_pos _ (by omega)⟩

end Lawful
end Zk.Proto
