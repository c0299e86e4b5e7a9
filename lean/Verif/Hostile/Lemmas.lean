import Verif.Curve.TestLawful
import Verif.Range.Props3
import Verif.Ser.Props

/-!
# `TestCurve` on points that need not lie on the curve
-/

namespace Zk.Curve

open Zk Zk.Field

theorem toAffine_small (p : Jac) : ∃ x y : ℕ, x < 2 ^ 256 ∧ y < 2 ^ 256 ∧
    fieldJacobianToBigAffine p = ((x : Int), (y : Int)) := by
  have key : ∀ f : FieldVal, Zk.setBytes (fieldBytes f).toList < 2 ^ 256 := fun f => by
    have := setBytes_lt (fieldBytes f).toList
    rwa [Vector.length_toList, show (256 : ℕ) ^ 32 = 2 ^ 256 by norm_num] at this
  exact ⟨_, _, key _, key _, rfl⟩

theorem smLoop_ok {p1 n1 p2 n2 : Bytes} (l1 : p1.length = n1.length) (l2 : p2.length = n2.length) {m : ℕ}
    (m1 : p1.length ≤ m) (m2 : p2.length ≤ m) (s0 : SmState) : ∀ i, i ≤ m →
    ∃ s, (List.range i).foldlM (smLoop p1 n1 p2 n2 m) s0 = .ok s := by
  intro i
  induction i with
  | zero => intro _; exact ⟨s0, rfl⟩
  | succ i ih =>
    intro hi
    obtain ⟨s, e⟩ := ih (by omega)
    rw [List.range_succ, List.foldlM_append, e]
    have step : smLoop p1 n1 p2 n2 m s i = .ok (smByte 8 s ((padded m p1).getD i 0)
        ((padded m n1).getD i 0) ((padded m p2).getD i 0) ((padded m n2).getD i 0)) := by
      rw [smLoop]
      rw [padded_get m1 (by omega), padded_get m2 (by omega), l1, l2,
        padded_get (l1 ▸ m1) (by omega), padded_get (l2 ▸ m2) (by omega)]
      rfl
    exact ⟨_, by rw [Go.bind_ok, List.foldlM_cons, step]; rfl⟩

theorem smRun_ok (k1 k2 : Bytes) (s1 s2 : Int) (x y b : FieldVal) : ∃ q, smRun k1 k2 s1 s2 x y b = .ok q := by
  rw [smRun]
  have a1 := (naf_spec k1).1
  have b1 := (naf_spec k2).1
  generalize naf k1 = n1 at *
  generalize naf k2 = n2 at *
  generalize hm : (if n1.1.length < n2.1.length then n2.1.length else n1.1.length) = m
  have m1 : n1.1.length ≤ m := by rw [← hm]; split_ifs <;> omega
  have m2 : n2.1.length ≤ m := by rw [← hm]; split_ifs <;> omega
  obtain ⟨s, e⟩ := smLoop_ok a1 b1 m1 m2 ⟨⟨zero, zero, zero⟩, x, _, _, setInt 1, mul2 x b, _, _, setInt 1⟩ m le_rfl
  exact ⟨s.q, by rw [e]; rfl⟩

theorem scalarMult_small {x y : ℕ} (hx : x < 2 ^ 256) (hy : y < 2 ^ 256) (k : Bytes) :
    ∃ a b : ℕ, a < 2 ^ 256 ∧ b < 2 ^ 256 ∧ scalarMult x y k = .ok ((a : Int), (b : Int)) := by
  obtain ⟨f, g, e, -, -⟩ := bigAffine_ok (x := (x : Int)) (y := (y : Int)) (by simpa using hx) (by simpa using hy)
  obtain ⟨b, hb, -⟩ := beta_R
  obtain ⟨q, hq⟩ := smRun_ok (splitK (moduloReduce k)).1 (splitK (moduloReduce k)).2.1
    (splitK (moduloReduce k)).2.2.1 (splitK (moduloReduce k)).2.2.2 f g b
  obtain ⟨a, c, h1, h2, h3⟩ := toAffine_small q
  exact ⟨a, c, h1, h2, by rw [scalarMult, e, hb, Go.bind_ok, Go.bind_ok, hq, Go.bind_ok, h3]; rfl⟩

theorem scalarBaseMult_small (tab : Nat → UInt8 → Jac) (k : Bytes) :
    ∃ a b : ℕ, a < 2 ^ 256 ∧ b < 2 ^ 256 ∧ scalarBaseMult tab k = .ok ((a : Int), (b : Int)) := by
  obtain ⟨a, b, h1, h2, h3⟩ := toAffine_small
    (baseLoop tab (32 - (moduloReduce k).length) 0 ⟨zero, zero, zero⟩ (moduloReduce k))
  refine ⟨a, b, h1, h2, ?_⟩
  rw [scalarBaseMult, if_neg (by have := moduloReduce_length k; omega), ← h3]
  rfl

theorem add_small {x y x' y' : ℕ} (hx : x < 2 ^ 256) (hy : y < 2 ^ 256) (hx' : x' < 2 ^ 256) (hy' : y' < 2 ^ 256) :
    ∃ a b : ℕ, a < 2 ^ 256 ∧ b < 2 ^ 256 ∧ Curve.add x y x' y' = .ok ((a : Int), (b : Int)) := by
  rw [add]
  split_ifs
  · exact ⟨_, _, hx', hy', rfl⟩
  · exact ⟨_, _, hx, hy, rfl⟩
  obtain ⟨f, g, e, -, -⟩ := bigAffine_ok (x := (x : Int)) (y := (y : Int)) (by simpa using hx) (by simpa using hy)
  obtain ⟨f', g', e', -, -⟩ := bigAffine_ok (x := (x' : Int)) (y := (y' : Int)) (by simpa using hx') (by simpa using hy')
  rw [e, e', Go.bind_ok, Go.bind_ok]
  obtain ⟨a, c, h1, h2, h3⟩ := toAffine_small (addJacobian ⟨f, g, setInt 1⟩ ⟨f', g', setInt 1⟩).1
  exact ⟨a, c, h1, h2, congrArg Go.ok h3⟩

theorem isOnCurve_small {x y : ℕ} (hx : x < 2 ^ 256) (hy : y < 2 ^ 256) : ∃ b, isOnCurve x y = .ok b :=
  ⟨_, isOnCurve_spec (by simpa using hx) (by simpa using hy)⟩

theorem bigAffine_big {x : ℕ} (hx : 2 ^ 256 ≤ x) (y : Int) : bigAffineToField x y = .panic := by
  have : 32 < (intBytes (x : Int)).length := by
    by_contra h
    have h1 := setBytes_lt (intBytes (x : Int))
    rw [setBytes_intBytes, Int.natAbs_natCast] at h1
    have h2 : (256 : ℕ) ^ (intBytes (x : Int)).length ≤ 256 ^ 32 := Nat.pow_le_pow_right (by decide) (by omega)
    have h3 : (256 : ℕ) ^ 32 = 2 ^ 256 := by norm_num
    omega
  rw [bigAffineToField, setByteSlice_panic this]
  rfl

end Zk.Curve

namespace Zk

/-- The code returns, with a result of this kind.  See gspfs.go:72-98 for code that it is said of. -/
def Gives {α : Type} (x : Go α) (P : α → Prop) : Prop := ∃ a, x = .ok a ∧ P a

theorem Gives.bind {α β : Type} {x : Go α} {P : α → Prop} {f : α → Go β} {Q : β → Prop} (h : Gives x P)
    (hf : ∀ a, P a → Gives (f a) Q) : Gives (x >>= f) Q := by
  obtain ⟨a, rfl, ha⟩ := h
  exact hf a ha

theorem Gives.ret {α : Type} {a : α} {P : α → Prop} (h : P a) : Gives (pure a) P := ⟨a, rfl, h⟩

theorem Gives.ite {α : Type} {c : Prop} [Decidable c] {x y : Go α} {P : α → Prop} (h1 : Gives x P) (h2 : Gives y P) :
    Gives (if c then x else y) P := by split_ifs <;> assumption

end Zk

namespace Zk.Hostile

open Zk Zk.Proto Zk.Curve

/-- A point with both coordinates present and of at most 32 bytes; it need not lie on the curve.  See
crypto.go:70-72 and btcec/btcec.go:78-84. -/
def Small (p : ECPoint) : Prop := ∃ x y : ℕ, x < 2 ^ 256 ∧ y < 2 ^ 256 ∧ p = pt x y

theorem Small.filled {p : ECPoint} (h : Small p) : p.Filled := by
  obtain ⟨x, y, -, -, rfl⟩ := h
  exact ⟨x, y, Int.natCast_nonneg _, Int.natCast_nonneg _, rfl⟩

theorem Small.some {p : ECPoint} (h : Small p) : ∃ x y : Int, p = pt x y := by
  obtain ⟨x, y, -, -, rfl⟩ := h
  exact ⟨x, y, rfl⟩

theorem small_pair {x : Go (Int × Int)} (h : ∃ a b : ℕ, a < 2 ^ 256 ∧ b < 2 ^ 256 ∧ x = .ok ((a : Int), (b : Int))) :
    Gives x fun q => Small (mkPt q) := by
  obtain ⟨a, b, ha, hb, rfl⟩ := h
  exact ⟨_, rfl, a, b, ha, hb, rfl⟩

theorem small_enc (A : E) : Small (pt (enc A).1 (enc A).2) := by
  have hP : Field.P < 2 ^ 256 := by decide
  rcases point_cases A with rfl | ⟨x, y, h, rfl⟩
  · rw [enc_zero]; exact ⟨0, 0, by decide, by decide, rfl⟩
  · rw [enc_mk]
    exact ⟨x.val, y.val, x.val_lt.trans hP, y.val_lt.trans hP, rfl⟩

theorem small_G : Small tc.G := ⟨curveGx, curveGy, by decide +kernel, by decide +kernel, rfl⟩

theorem small_H : Small tc.H := ⟨hX, hY, by decide +kernel, by decide +kernel, rfl⟩

theorem small_Zero : Small Zero := ⟨0, 0, by decide, by decide, rfl⟩

theorem hpoint_small {i : ℕ} (hi : i < 64) : Gives (hpoint tc i) Small := by
  refine ⟨pt (enc (2 ^ i • Curve.G)).1 (enc (2 ^ i • Curve.G)).2, ?_, small_enc _⟩
  rw [hpoint, lawful.HPoints_get i hi]
  rfl

theorem equal_small {p q : ECPoint} (hp : Small p) (hq : Small q) : Gives (equal p q) fun _ => True := by
  obtain ⟨x, y, rfl⟩ := hp.some
  obtain ⟨x', y', rfl⟩ := hq.some
  rw [equal]
  simp only [pt, cmpEq, Go.bind_ok]
  split_ifs <;> exact ⟨_, rfl, trivial⟩

theorem coords_small {p : ECPoint} (hp : Small p) :
    Gives (coords p) fun c => ∃ x y : ℕ, x < 2 ^ 256 ∧ y < 2 ^ 256 ∧ c = ((x : Int), (y : Int)) := by
  obtain ⟨x, y, hx, hy, rfl⟩ := hp
  exact ⟨_, rfl, x, y, hx, hy, rfl⟩

theorem mult_small {p : ECPoint} (hp : Small p) (s : Int) : Gives (mult tc p (some s)) Small := by
  rw [mult, if_neg (by obtain ⟨x, y, rfl⟩ := hp.some; simp [pt])]
  refine (Gives.ret (P := fun _ => True) (a := s) trivial).bind fun s _ => ?_
  refine (equal_small hp small_G).bind fun b _ => Gives.ite ?_ ?_
  · exact (small_pair (scalarBaseMult_small _ _)).bind fun q hq => .ret hq
  refine (equal_small hp small_H).bind fun b _ => Gives.ite ?_ ?_
  · exact (small_pair (scalarBaseMult_small _ _)).bind fun q hq => .ret hq
  refine (coords_small hp).bind fun c hc => ?_
  obtain ⟨x, y, hx, hy, rfl⟩ := hc
  exact (small_pair (scalarMult_small hx hy _)).bind fun q hq => .ret hq

theorem zeroAndOnCurve_small {p q : ECPoint} (hp : Small p) (hq : Small q) :
    Gives (zeroAndOnCurve tc p q) fun _ => True := by
  refine (equal_small hp small_Zero).bind fun b _ => Gives.ite ?_ (.ret trivial)
  refine (coords_small hq).bind fun c hc => ?_
  obtain ⟨x, y, hx, hy, rfl⟩ := hc
  obtain ⟨b, hb⟩ := isOnCurve_small hx hy
  exact ⟨b, hb, trivial⟩

theorem curveAdd_small {p q : ECPoint} (hp : Small p) (hq : Small q) : Gives (curveAdd tc p q) Small := by
  refine (coords_small hp).bind fun c hc => ?_
  obtain ⟨x, y, hx, hy, rfl⟩ := hc
  refine (coords_small hq).bind fun c hc => ?_
  obtain ⟨x', y', hx', hy', rfl⟩ := hc
  exact (small_pair (add_small hx hy hx' hy')).bind fun q hq => .ret hq

theorem add_small {p q : ECPoint} (hp : Small p) (hq : Small q) : Gives (Proto.add tc p q) Small := by
  refine (zeroAndOnCurve_small hp hq).bind fun b _ => Gives.ite (.ret hq) ?_
  exact (zeroAndOnCurve_small hq hp).bind fun b _ => Gives.ite (.ret hp) (curveAdd_small hp hq)

theorem neg_small {p : ECPoint} (hp : Small p) : Gives (neg tc p) Small := by
  obtain ⟨x, y, hx, hy, rfl⟩ := hp
  have h0 : (0 : Int) < tc.C.P := by show (0 : Int) < (curveP : ℕ); decide +kernel
  have h1 : (tc.C.P : Int) < 2 ^ 256 := by show ((curveP : ℕ) : Int) < 2 ^ 256; decide +kernel
  have e0 := Int.emod_nonneg (-(y : Int)) (ne_of_gt h0)
  have e1 := (Int.emod_lt_of_pos (-(y : Int)) h0).trans h1
  obtain ⟨z, hz⟩ := Int.eq_ofNat_of_zero_le e0
  refine ⟨_, rfl, x, z, hx, ?_, ?_⟩
  · rw [hz] at e1; exact_mod_cast e1
  · show ECPoint.mk _ (Option.some (-(y : Int) % (tc.C.P : Int))) = _
    rw [hz]; rfl

theorem sub_small {p q : ECPoint} (hp : Small p) (hq : Small q) : Gives (sub tc p q) Small := by
  refine (zeroAndOnCurve_small hp hq).bind fun b _ => Gives.ite (neg_small hq) ?_
  refine (zeroAndOnCurve_small hq hp).bind fun b _ => Gives.ite (.ret hp) ?_
  exact (neg_small hq).bind fun t ht => curveAdd_small hp ht

theorem pedCommitR_small (v r : Int) : Gives (pedCommitR tc (some v) (some r)) Small := by
  refine (Gives.ret (P := fun _ => True) (a := v) trivial).bind fun v _ => ?_
  refine (Gives.ret (P := fun _ => True) (a := r) trivial).bind fun r _ => ?_
  refine (mult_small small_G _).bind fun a ha => (mult_small small_H _).bind fun b hb => add_small ha hb

theorem pointBytes_gives {p : ECPoint} (hp : p.Filled) : Gives (pointBytes p) fun _ => True := by
  obtain ⟨x, y, -, -, rfl⟩ := hp
  exact ⟨_, rfl, trivial⟩

theorem mapM_gives {α β : Type} {f : α → Go β} {P : β → Prop} : ∀ {l : List α}, (∀ a ∈ l, Gives (f a) P) →
    Gives (l.mapM f) fun bs => ∀ b ∈ bs, P b
  | [], _ => ⟨[], rfl, by simp⟩
  | a :: l, h => by
    rw [List.mapM_cons]
    refine (h a (by simp)).bind fun b hb => ?_
    refine (mapM_gives (P := P) fun c hc => h c (by simp [hc])).bind fun bs hbs => .ret ?_
    simpa using ⟨hb, hbs⟩

theorem challengeOf_gives {hash : Bytes → Bytes} {ps : List ECPoint} (h : ∀ p ∈ ps, p.Filled) :
    Gives (challengeOf hash tc ps) fun _ => True :=
  (mapM_gives fun p hp => pointBytes_gives (h p hp)).bind fun _ _ => .ret trivial

theorem cmpEq_gives (a b : Int) : Gives (cmpEq (some a) (some b)) fun _ => True := ⟨_, rfl, trivial⟩

/-! ### A coordinate of 33 bytes -/

/-- A point whose first coordinate takes more than 32 bytes.  See btcec/field.go:222-230, where the index
is then negative. -/
def Big (p : ECPoint) : Prop := ∃ x y : ℕ, 2 ^ 256 ≤ x ∧ p = pt x y

theorem Big.filled {p : ECPoint} (h : Big p) : p.Filled := by
  obtain ⟨x, y, -, rfl⟩ := h
  exact ⟨x, y, Int.natCast_nonneg _, Int.natCast_nonneg _, rfl⟩

theorem equal_big {p q : ECPoint} (hp : Big p) (hq : Small q) : equal p q = .ok false := by
  obtain ⟨x, y, hx, rfl⟩ := hp
  obtain ⟨x', y', hx', -, rfl⟩ := hq
  have : (x : Int) ≠ (x' : Int) := by omega
  simp only [equal, pt, cmpEq, this, decide_false, Go.bind_ok]
  rfl

theorem mult_big {p : ECPoint} (hp : Big p) (s : Int) : mult tc p (some s) = .panic := by
  rw [mult, if_neg (by obtain ⟨x, y, -, rfl⟩ := hp; simp [pt]), deref_some, Go.bind_ok,
    equal_big hp small_G, Go.bind_ok, if_neg (by decide), equal_big hp small_H, Go.bind_ok, if_neg (by decide)]
  obtain ⟨x, y, hx, rfl⟩ := hp
  show (scalarMult x y _ >>= fun q => pure (mkPt q)) = _
  rw [scalarMult, bigAffine_big hx]
  rfl

theorem zeroAndOnCurve_big {p q : ECPoint} (hp : Big p) (hq : Small q) :
    zeroAndOnCurve tc p q = .ok false := by
  rw [zeroAndOnCurve, equal_big hp small_Zero]
  rfl

theorem zeroAndOnCurve_big' {p q : ECPoint} (hp : Big p) (hq : Small q) :
    zeroAndOnCurve tc q p = .panic ∨
    (zeroAndOnCurve tc q p = .ok false ∧ ∃ x y : Int, q = pt x y ∧ x ≠ 0) := by
  obtain ⟨x, y, hx, rfl⟩ := hp
  obtain ⟨x', y', -, -, rfl⟩ := hq
  by_cases h : (x' : Int) = 0
  · left
    simp only [zeroAndOnCurve, equal, pt, Zero, cmpEq, h, decide_true, Go.bind_ok, if_true, coords, deref_some,
      Go.pure_eq]
    show isOnCurve x y = _
    rw [isOnCurve, bigAffine_big hx]
    rfl
  · right
    refine ⟨?_, _, _, rfl, h⟩
    simp only [zeroAndOnCurve, equal, pt, Zero, cmpEq, h, decide_false, Go.bind_ok]
    rfl

theorem curveAdd_big {p q : ECPoint} (hp : Big p) {x' y' : Int} (hx' : x' ≠ 0) (e : q = pt x' y') :
    curveAdd tc p q = .panic := by
  obtain ⟨x, y, hx, rfl⟩ := hp
  subst e
  show (Curve.add x y x' y' >>= fun q => pure (mkPt q)) = _
  rw [Curve.add, if_neg (by rintro ⟨h, -⟩; have : 0 < 2 ^ 256 := by decide
                            omega), if_neg (by tauto), bigAffine_big hx]
  rfl

theorem add_big {p q : ECPoint} (hp : Big p) (hq : Small q) : Proto.add tc p q = .panic := by
  rw [Proto.add, zeroAndOnCurve_big hp hq, Go.bind_ok, if_neg (by decide)]
  rcases zeroAndOnCurve_big' hp hq with h | ⟨h, x', y', e, h0⟩
  · rw [h]; rfl
  · rw [h, Go.bind_ok, if_neg (by decide)]
    exact curveAdd_big hp h0 e

theorem sub_big {p q : ECPoint} (hp : Big p) (hq : Small q) : sub tc p q = .panic := by
  rw [sub, zeroAndOnCurve_big hp hq, Go.bind_ok, if_neg (by decide)]
  rcases zeroAndOnCurve_big' hp hq with h | ⟨h, x', y', e, h0⟩
  · rw [h]; rfl
  · rw [h, Go.bind_ok, if_neg (by decide)]
    subst e
    exact curveAdd_big hp h0 rfl

end Zk.Hostile
