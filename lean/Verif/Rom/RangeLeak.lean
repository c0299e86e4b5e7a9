import Verif.Rom.CompleteProps
import Verif.Real.RangePoints

/-!
# What range proofs reveal, with probabilities: lemmas
-/

namespace Zk.Rom

open Zk Zk.Proto

/-! ## A question after others -/

open Classical in
/-- A question that depends only on the answers to other questions rarely gets a bad answer. -/
theorem prob_after {Ω : Type} [Fintype Ω] [Nonempty Ω] {S : Finset Bytes} (T : List Bytes) (c : (S → Ω) → Bytes)
    (hc : ∀ f f' : S → Ω, (∀ x : S, x.1 ∈ T → f x = f' x) → c f = c f') (Bad : Ω → Prop) (κ : ℝ) (h0 : 0 ≤ κ)
    (hκ : num Bad ≤ κ) :
    (prob fun f : S → Ω => ∃ x : S, x.1 = c f ∧ x.1 ∉ T ∧ Bad (f x)) ≤ κ / Fintype.card Ω := by
  have hr : 0 ≤ κ / Fintype.card Ω := div_nonneg h0 (Nat.cast_nonneg _)
  rw [← prob_equiv (Equiv.piEquivPiSubtypeProd (fun x : S => x.1 ∈ T) fun _ => Ω).symm]
  refine prob_rows hr fun a => ?_
  obtain ⟨ω₀⟩ : Nonempty Ω := inferInstance
  let e := (Equiv.piEquivPiSubtypeProd (fun x : S => x.1 ∈ T) fun _ => Ω).symm
  have hin : ∀ b, ∀ x : S, ∀ h : x.1 ∈ T, e (a, b) x = a ⟨x, h⟩ := by
    intro b x h
    simp [e, Equiv.piEquivPiSubtypeProd, h]
  have hout : ∀ b, ∀ x : S, ∀ h : x.1 ∉ T, e (a, b) x = b ⟨x, h⟩ := by
    intro b x h
    simp [e, Equiv.piEquivPiSubtypeProd, h]
  have hcc : ∀ b b', c (e (a, b)) = c (e (a, b')) := fun b b' => hc _ _ fun x h => by rw [hin b x h, hin b' x h]
  by_cases hx : ∃ x : S, x.1 = c (e (a, fun _ => ω₀)) ∧ x.1 ∉ T
  · obtain ⟨x, hx, hn⟩ := hx
    have := num_hit (ι := {x : S // x.1 ∉ T}) (fun _ => Bad) κ (fun _ => hκ) ⟨x, hn⟩ (fun _ => ω₀) fun _ _ _ => rfl
    have hX : (0 : ℝ) < Fintype.card ({x : S // x.1 ∉ T} → Ω) := Nat.cast_pos.2 Fintype.card_pos
    have hW : (0 : ℝ) < Fintype.card Ω := Nat.cast_pos.2 Fintype.card_pos
    rw [prob, div_le_div_iff₀ hX hW]
    refine (mul_le_mul_of_nonneg_right (num_mono ?_) hW.le).trans this
    rintro b ⟨y, hy, hy', hb⟩
    obtain rfl : y = x := Subtype.ext (hy.trans ((hcc _ _).trans hx.symm))
    rwa [show (Equiv.piEquivPiSubtypeProd (fun x : S => x.1 ∈ T) fun _ => Ω).symm (a, b) y = _ from
      hout b y hn] at hb
  · refine le_trans (le_of_eq ?_) hr
    rw [prob, num_eq, Finset.filter_false_of_mem]
    · simp
    · rintro b _ ⟨y, hy, hy', _⟩
      exact hx ⟨y, hy.trans (hcc _ _), hy'⟩

variable {cp : Params} {E : Type} [AddCommGroup E]

/-! ## Lengths -/

theorem two_le_bytes (L : Lawful cp E) {a : E} (h : a ≠ 0) : 2 ≤ (L.bytes a).length := by
  have hx : (L.enc a).1 ≠ 0 := by
    intro he
    have h0 : (L.enc a).1 = (L.enc 0).1 := by rw [he, L.enc_zero]
    rcases (L.enc_x a 0).1 h0 with h' | h'
    · exact h h'
    · exact h (by rw [h', neg_zero])
  have hy : (L.enc a).2 ≠ 0 := by
    intro he
    have h1 : L.enc (-a) = L.enc a := by
      rw [L.enc_neg, he, neg_zero, Int.zero_emod]
      exact Prod.ext rfl he.symm
    have h2 := L.enc_inj _ _ h1
    have h3 : (2 : Int) • a = 0 := by
      rw [two_zsmul]
      nth_rewrite 1 [← h2]
      exact neg_add_cancel a
    have h4 := (L.smul_eq_zero h).1 h3
    have h5 := Int.le_of_dvd (by norm_num) h4
    have := L.five_lt
    omega
  have key : ∀ x : Int, 0 ≤ x → x ≠ 0 → 1 ≤ (intBytes x).length := by
    intro x h0 hx
    rw [Nat.one_le_iff_ne_zero]
    intro hl
    refine hx (intBytes_inj h0 le_rfl ?_)
    rw [List.length_eq_zero_iff.1 hl]
    rfl
  obtain ⟨n1, n2⟩ := L.enc_nonneg a
  rw [Lawful.bytes, List.length_append]
  have := key _ n1 hx
  have := key _ n2 hy
  omega

theorem bytes_le (L : Lawful cp E) (hs : Small L) (a : E) : (L.bytes a).length ≤ 64 := by
  obtain ⟨n1, n2⟩ := L.enc_nonneg a
  have h1 := length_intBytes n1 (hs a).1
  have h2 := length_intBytes n2 (hs a).2
  rw [Lawful.bytes, List.length_append]
  omega

theorem length_flatten (L : Lawful cp E) : ∀ as : List E, (∀ a ∈ as, a ≠ 0) →
    2 * as.length ≤ ((as.map L.bytes).flatten).length
  | [], _ => by simp
  | a :: as, h => by
    have h1 := two_le_bytes L (h a (by simp))
    have h2 := length_flatten L as fun b hb => h b (by simp [hb])
    simp only [List.map_cons, List.flatten_cons, List.length_append, List.length_cons] at *
    omega

/-! ## The outer challenge of a range proof -/

/-- A 1 bit whose R point is zero.  See rangeproof.go:68-98. -/
def BadOne (L : Lawful cp E) (hash : Bytes → Bytes) (value : Int) (rnd : Nat → BitRand) (i : Nat) : Prop :=
  bitOf value i = true ∧ L.rOf hash value rnd i = 0

theorem prob_badOne (L : Lawful cp E) (n : Nat) (value : Int) (S : Finset Bytes) (hS : RangeStrings L n S) (i : Fin n) :
    (prob fun z : (S → Word) × (Fin n → Fin cp.C.N) × (Fin n → Fin cp.C.N) × (Fin n → Fin cp.C.N) =>
      BadOne L (hashOf S z.1) value (drawn z.2.1 z.2.2.1 z.2.2.2) i) ≤ perChal cp.C.N / 2 ^ 256 + 1 / cp.C.N := by
  have : Nonempty (Fin cp.C.N) := ⟨⟨0, L.prime.pos⟩⟩
  have hr : (0 : ℝ) ≤ perChal cp.C.N / 2 ^ 256 := by positivity
  have hr' : (0 : ℝ) ≤ 1 / cp.C.N := by positivity
  have hi : ∀ k v j : Fin n → Fin cp.C.N, drawn k v j i = ⟨(k i : Nat), (v i : Nat), (j i : Nat)⟩ := by
    intro k v j
    simp [drawn]
  have h1 : (prob fun z : (S → Word) × (Fin n → Fin cp.C.N) × (Fin n → Fin cp.C.N) × (Fin n → Fin cp.C.N) =>
      L.hp (hashOf S z.1) (((z.2.1 i : Nat) : Int) • L.hb) • L.g = 0) ≤ perChal cp.C.N / 2 ^ 256 := by
    refine prob_cols hr ?_
    rintro ⟨k, v, j⟩
    have hm := bytes_mem L hS i.pos (((k i : Nat) : Int) • L.hb)
    have := prob_fresh (S := S) (fun ω : Word => (setBytes (bytesOf ω) : Int) • L.g = 0) _
      (num_multiple L L.g 0 L.g_ne) ⟨_, hm⟩
    rw [card_word] at this
    rw [Nat.cast_pow, Nat.cast_ofNat] at this
    refine le_trans (le_of_eq (congrArg prob (funext fun f => ?_))) this
    rw [hp_hashOf L f _ hm]
  have h2 : (prob fun z : (S → Word) × (Fin n → Fin cp.C.N) × (Fin n → Fin cp.C.N) × (Fin n → Fin cp.C.N) =>
      (2 ^ (i : Nat) : Int) • L.g + ((z.2.2.1 i : Nat) : Int) • L.hb = 0) ≤ 1 / cp.C.N := by
    refine prob_rows hr' fun f => prob_rows hr' fun k => prob_cols hr' fun j => ?_
    refine prob_coord L.prime.pos i (fun b => (2 ^ (i : Nat) : Int) • L.g + ((b : Nat) : Int) • L.hb = 0) 1 ?_
    exact num_le_one fun x y hx hy => fin_eq_of_smul L L.hb_ne (add_left_cancel (hx.trans hy.symm))
  refine prob_union ?_ h1 h2
  rintro ⟨f, k, v, j⟩ ⟨hb, hz⟩
  rw [Lawful.rOf, if_pos hb, hi] at hz
  by_cases hC : (2 ^ (i : Nat) : Int) • L.g + ((v i : Nat) : Int) • L.hb = 0
  · exact .inr hC
  · left
    exact (L.smul_eq_zero L.g_ne).2 ((L.smul_eq_zero hC).1 hz)

/-- The string of the R points, as hashed.  See rangeproof.go:192-197. -/
noncomputable def outerString (L : Lawful cp E) (hash : Bytes → Bytes) (n : Nat) (value : Int) (rnd : Nat → BitRand) : Bytes :=
  (((List.range n).map (L.rOf hash value rnd)).map L.bytes).flatten

/-- The strings that are hashed before that.  See rangeproof.go:51-102. -/
noncomputable def innerStrings (L : Lawful cp E) (n : Nat) (rnd : Nat → BitRand) : List Bytes :=
  (List.range n).map fun i => L.bytes ((rnd i).k • L.hb)

/-- The string of more than 32 points that are not zero is none of the earlier ones. -/
theorem outerString_notMem (L : Lawful cp E) (hs : Small L) (hash : Bytes → Bytes) (n : Nat) (hn : 32 < n) (value : Int)
    (rnd : Nat → BitRand) (h : ∀ i < n, L.rOf hash value rnd i ≠ 0) : outerString L hash n value rnd ∉ innerStrings L n rnd := by
  intro hm
  simp only [innerStrings, List.mem_map] at hm
  obtain ⟨i, _, hi⟩ := hm
  have h1 := bytes_le L hs ((rnd i).k • L.hb)
  have h2 := length_flatten L ((List.range n).map (L.rOf hash value rnd)) (by
    intro a ha
    simp only [List.mem_map, List.mem_range] at ha
    obtain ⟨j, hj, rfl⟩ := ha
    exact h j hj)
  rw [hi] at h1
  simp only [List.length_map, List.length_range] at h2
  unfold outerString at h1
  omega

/-- The challenge is rarely below N / 2^b, unless the string was asked before. -/
theorem prob_smallChal (L : Lawful cp E) (n : Nat) (value : Int) (S : Finset Bytes) (hS : RangeStrings L n S)
    (rnd : Nat → BitRand) (b : Nat) :
    (prob fun f : S → Word => outerString L (hashOf S f) n value rnd ∉ innerStrings L n rnd ∧
      2 ^ b * L.e0Of (hashOf S f) n value rnd < cp.C.N) ≤ (cp.C.N / 2 ^ b + 1 : ℕ) * perChal cp.C.N / 2 ^ 256 := by
  have hn := num_near cp.C.N L.prime.pos 0 b
  have h := prob_after (S := S) (innerStrings L n rnd) (fun f => outerString L (hashOf S f) n value rnd) (by
    intro f f' hf
    unfold outerString
    refine congrArg (fun l : List E => (l.map L.bytes).flatten) (List.map_congr_left fun i hi => ?_)
    have hin : L.bytes ((rnd i).k • L.hb) ∈ innerStrings L n rnd := List.mem_map_of_mem hi
    have hm := bytes_mem L hS (lt_of_le_of_lt (Nat.zero_le i) (List.mem_range.1 hi)) ((rnd i).k • L.hb)
    simp only [Lawful.rOf, hp_hashOf L _ _ hm, hf ⟨_, hm⟩ hin]) _ _ (by positivity) hn
  rw [card_word] at h
  rw [Nat.cast_pow, Nat.cast_ofNat] at h
  refine le_trans (prob_mono ?_) h
  rintro f ⟨h1, h2⟩
  have hm : outerString L (hashOf S f) n value rnd ∈ S := by
    have := hS ((List.range n).map (L.rOf (hashOf S f) value rnd)) (by simp)
    rwa [hashed_pe] at this
  refine ⟨⟨_, hm⟩, rfl, h1, ?_⟩
  have he : L.e0Of (hashOf S f) n value rnd = chalOf cp.C.N (f ⟨_, hm⟩) := by
    rw [Lawful.e0Of, Lawful.hps]
    exact congrArg (fun b => ((setBytes b : Nat) : Int) % (cp.C.N : Int)) (hashOf_mem S f ⟨_, hm⟩)
  rw [sub_zero, ← he, Lawful.e0Of, Int.emod_emod]
  exact h2

/-! ## The observer -/

/-- How an observer finds bit `i` (not code of /repo): divide the response by the challenge, and see whether the quotient,
or one of the `m - 1` numbers before it, is the blinding factor of a commitment to 2^i.  See rangeproof.go:154-231. -/
def guessBitOf (cp : Params) (m : Nat) (e s : Int) (C : ECPoint) (i : Nat) : Go Bool := do
  let hp ← hpoint cp i
  let d ← sub cp C hp
  let as ← (List.range m).mapM fun (t : Nat) => mult cp cp.H (some (s / e - (t : Int)))
  pure (as.any fun a => decide (d = a))

/-- How an observer finds the value (not code of /repo): bit by bit, from the proof alone.
See rangeproof.go:154-231. -/
def guessValue (cp : Params) (m : Nat) (proof : RangeProof) : Go Int := do
  let e ← deref proof.ProofE
  let bits ← proof.ProofTuples.zipIdx.mapM fun t => do
    let s ← deref t.1.S
    let b ← guessBitOf cp m e s t.1.C t.2
    pure (if b then (2 ^ t.2 : Int) else 0)
  pure bits.sum

theorem quotient_of {e x j N m : Int} (he : N ≤ m * e) (hpos : 0 < e) (h0 : 0 ≤ j) (hj : j < N) :
    ∃ t, 0 ≤ t ∧ t < m ∧ (j + e * x) / e = x + t := by
  refine ⟨j / e, Int.ediv_nonneg h0 hpos.le, Int.ediv_lt_of_lt_mul hpos (by linarith), ?_⟩
  rw [Int.add_mul_ediv_left _ _ (by omega)]
  ring

theorem guessBitOf_pe (L : Lawful cp E) (m : Nat) (e s : Int) (C : E) (i : Nat) (hi : i < 64) :
    guessBitOf cp m e s (L.pe C) i = .ok ((List.range m).any fun t =>
      decide (L.pe (C - (2 ^ i : Int) • L.g) = L.pe ((s / e - (t : Int)) • L.hb))) := by
  have hm : ∀ l : List Nat, (l.mapM fun (t : Nat) => mult cp cp.H (some (s / e - (t : Int)))) =
      .ok (l.map fun (t : Nat) => L.pe ((s / e - (t : Int)) • L.hb)) := by
    intro l
    induction l with
    | nil => rfl
    | cons a l ih => rw [List.mapM_cons, L.multH, ih]; rfl
  simp only [guessBitOf, L.hpoint_pe hi, Go.bind_ok, L.sub_pe, hm, Go.pure_eq, List.any_map]
  rfl

/-- On `TestCurve` 2^i G is none of the first 255 multiples of the base of the H table, nor their negation. -/
theorem gPts_far (i : Nat) (hi : i < 40) (t : Nat) (ht : t < 2 ^ 8) :
    (2 ^ i : Int) • Curve.lawful.g ≠ (t : Int) • Curve.lawful.hb ∧
      (2 ^ i : Int) • Curve.lawful.g ≠ -((t : Int) • Curve.lawful.hb) := by
  change (2 ^ i : Int) • Curve.G ≠ (t : Int) • Curve.Hb ∧ (2 ^ i : Int) • Curve.G ≠ -((t : Int) • Curve.Hb)
  have hg := congrArg (fun l => l[i]?) Real.gPts_enc
  simp only [List.getElem?_map, List.getElem?_range (show i < 64 by omega), Option.map_some] at hg
  have hl : i < Real.gPts.length := show i < 64 by omega
  rw [List.getElem?_eq_getElem hl, Option.map_some, Option.some.injEq] at hg
  have key : ∀ q ∈ Real.gPts, q.1 ≠ 0 ∧ ∀ t ∈ List.range 255,
      (Curve.ptN (Curve.entryN Curve.rowH31 (t + 1))).1 % Field.P ≠
        q.1 * (Curve.ptN (Curve.entryN Curve.rowH31 (t + 1))).2.2 ^ 2 % Field.P := by
    decide +kernel
  rw [← Nat.cast_ofNat (R := Int) (n := 2), ← Nat.cast_pow, natCast_zsmul, natCast_zsmul]
  refine Curve.x_ne ?_
  rw [hg]
  obtain ⟨k0, k1⟩ := key _ (List.getElem_mem hl)
  rcases Nat.eq_zero_or_pos t with rfl | hpos
  · rw [zero_nsmul]
    intro hc
    change ((Real.gPts[i].1 : ℕ) : Int) = 0 at hc
    exact k0 (by exact_mod_cast hc)
  · obtain ⟨t, rfl⟩ : ∃ s, t = s + 1 := ⟨t - 1, by omega⟩
    have hrep := (Curve.rowOk_rep Curve.rowH31_ok Curve.rowH31_rep (t + 1) (by omega) (by omega)).2
    rw [pow_zero, one_nsmul] at hrep
    have k2 := k1 t (List.mem_range.2 (by omega))
    generalize Curve.ptN (Curve.entryN Curve.rowH31 (t + 1)) = p at hrep k2
    obtain ⟨x, y, z⟩ := p
    obtain ⟨a, b, h3, e, hz, hx, hy⟩ := hrep
    rw [e, Curve.enc_mk]
    intro hc
    change ((Real.gPts[i].1 : ℕ) : Int) = ((a.val : ℕ) : Int) at hc
    have hc' : Real.gPts[i].1 = a.val := by exact_mod_cast hc
    refine k2 (Curve.cast_eq.1 ?_)
    rw [hc', Nat.cast_mul, Nat.cast_pow, ZMod.natCast_zmod_val]
    exact hx

end Zk.Rom
