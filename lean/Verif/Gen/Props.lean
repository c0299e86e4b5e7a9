import Verif.Gen.EvLemmas
import Verif.Gen.LoadLemmas
import Verif.Gen.ExactTables

/-!
# Properties of the generation and loading of the precomputed values
-/

namespace Zk.Gen

open Zk Zk.Field Zk.Curve

/-! ### C110 -/

/-- `sqrt` returns a number exactly for positive n with n + 1 not a perfect square, and then it is
the floor of the root.  C110 asks for all n ≥ 0. -/
theorem C110_sqrt_partial (n : Int) :
    ((∃ f r, sqrt f n = some (.ok r)) ↔ 0 < n ∧ ∀ s : Int, s * s ≠ n + 1) ∧
      (0 < n → (∀ s : Int, s * s ≠ n + 1) →
        ∃ r : Int, 0 < r ∧ r * r ≤ n ∧ n < (r + 1) * (r + 1) ∧
          ∃ f0 : ℕ, ∀ f, f0 ≤ f → sqrt f n = some (.ok r)) ∧
      ∀ f r, sqrt f n = some (.ok r) → 0 < r ∧ r * r ≤ n ∧ n < (r + 1) * (r + 1) := by
  have key : 0 < n → (∀ s : Int, s * s ≠ n + 1) →
      ∃ r : Int, 0 < r ∧ r * r ≤ n ∧ n < (r + 1) * (r + 1) ∧
        ∃ f0 : ℕ, ∀ f, f0 ≤ f → sqrt f n = some (.ok r) := by
    intro hn hs
    obtain ⟨r, h0, h1, h2⟩ := floor_exists hn
    exact ⟨r, h0, h1, h2, sqrt_ok h0 h1 h2 fun h => hs _ h.symm⟩
  have pos : ∀ f r, sqrt f n = some (.ok r) → 0 < n := by
    intro f r h
    rcases lt_trichotomy n 0 with hn | hn | hn
    · exact absurd h (sqrtLoop_neg hn f _ r)
    · subst hn
      match f, h with
      | 0, h => cases h
      | 1, h => cases (show (none : Option (Go Int)) = _ from h)
      | f + 2, h => rw [sqrt_zero] at h; cases h
    · exact hn
  refine ⟨⟨fun ⟨f, r, h⟩ => ?_, fun ⟨h1, h2⟩ => ?_⟩, key, fun f r h => ?_⟩
  · refine ⟨pos f r h, fun s hs => ?_⟩
    have hn := pos f r h
    have h1 : 1 < |s| := by
      by_contra hc
      have := abs_mul_abs_self s
      have := abs_nonneg s
      nlinarith
    have h2 := sqrt_none (n := n) (s := |s| - 1) (by omega)
      (by rw [sub_add_cancel, abs_mul_abs_self]; exact hs.symm) f
    rw [h] at h2
    cases h2
  · obtain ⟨r, -, -, -, f0, hf⟩ := key h1 h2
    exact ⟨f0, r, hf f0 le_rfl⟩
  · obtain ⟨s, h0, h1, h2⟩ := floor_exists (pos f r h)
    have := (sqrtLoop_ok h0 h1 h2 f _ (guess_pos n) _ h).1
    injection this with this
    subst this
    exact ⟨h0, h1, h2⟩

/-- The order of the curve meets the hypotheses, and the root is found within a few iterations. -/
example : (0 : Int) < (curveN : ℕ) ∧
    sqrt 10 ((curveN : ℕ) : Int) = some (.ok 340282366920938463463374607431768211455) := by
  decide +kernel

/-- `sqrt` panics for 0 and does not end for 3 (nor for any other number one less than a square). -/
theorem C110_refuted :
    (∀ f, 2 ≤ f → sqrt f 0 = some .panic) ∧ (∀ f, sqrt f 3 = none) ∧
      ∀ s : Int, 0 < s → ∀ f, sqrt f ((s + 1) * (s + 1) - 1) = none := by
  refine ⟨fun f hf => ?_, fun f => sqrt_none (s := 1) (by decide) (by decide) f, fun s hs f =>
    sqrt_none hs (by ring) f⟩
  obtain ⟨g, rfl⟩ : ∃ g, f = g + 2 := ⟨f - 2, by omega⟩
  exact sqrt_zero g

/-! ### C111 -/

/-- `EndomorphismVectors` ends, with two short vectors that generate the lattice of the pairs (a, b)
with a + b lambda ≡ 0. -/
theorem C111_vectors (N lambda : Int) (hN : 3 < N) (hs : ∀ s : Int, s * s ≠ N + 1)
    (h0 : 0 ≤ lambda) (h1 : lambda < N) (hl : N ∣ lambda ^ 2 + lambda + 1) :
    ∃ f0 : ℕ, ∀ f, f0 ≤ f → ∃ a1 b1 a2 b2, endomorphismVectors f N lambda = some (.ok (a1, b1, a2, b2)) ∧
      N ∣ a1 + b1 * lambda ∧ N ∣ a2 + b2 * lambda ∧
      (a1 * b2 - a2 * b1 = N ∨ a1 * b2 - a2 * b1 = -N) ∧
      0 ≤ a1 ∧ a1 ^ 2 < N ∧ b1 ^ 2 ≤ 2 * N ∧
      ∀ a b : Int, N ∣ a + b * lambda → ∃ m n : Int, a = m * a1 + n * a2 ∧ b = m * b1 + n * b2 := by
  rw [pow_two] at hl
  obtain ⟨s, hs0, hs1, hs2, f0, hf⟩ := ev_good hN hs h0 h1 hl
  refine ⟨f0, fun f hff => ?_⟩
  obtain ⟨⟨a1, b1, a2, b2⟩, hr, g1, g2, g3, g4, g5, g6⟩ := hf f hff
  simp only at g1 g2 g3 g4 g5 g6
  refine ⟨a1, b1, a2, b2, hr, g1, g2, g3, g4, ?_, ?_, fun a b hab => ?_⟩
  · nlinarith
  · have hb := abs_nonneg b1
    have e : b1 ^ 2 = |b1| * |b1| := by rw [abs_mul_abs_self, pow_two]
    have h5 : |b1| < s + 2 := by
      by_contra hc
      have h6 : (s + 2) * s ≤ N := (mul_le_mul_of_nonneg_right (not_lt.1 hc) hs0.le).trans g6
      exact hs (s + 1) (by nlinarith)
    rw [e]
    rcases lt_or_ge s |b1| with h6 | h6
    · have h7 : |b1| = s + 1 := by omega
      rw [h7] at g6 ⊢
      nlinarith
    · nlinarith
  · obtain ⟨p, hp⟩ := g1
    obtain ⟨q, hq⟩ := g2
    obtain ⟨r, hr⟩ := hab
    have hN0 : N ≠ 0 := by omega
    rcases g3 with g | g
    · refine ⟨r * b2 - q * b, p * b - r * b1, ?_, ?_⟩ <;> apply mul_left_cancel₀ hN0
      · have e1 : N * (r * b2 - q * b) = a * b2 - a2 * b := by linear_combination (-b2) * hr + b * hq
        have e2 : N * (p * b - r * b1) = a1 * b - a * b1 := by linear_combination (-b) * hp + b1 * hr
        linear_combination -a * g - a1 * e1 - a2 * e2
      · have e1 : N * (r * b2 - q * b) = a * b2 - a2 * b := by linear_combination (-b2) * hr + b * hq
        have e2 : N * (p * b - r * b1) = a1 * b - a * b1 := by linear_combination (-b) * hp + b1 * hr
        linear_combination -b * g - b1 * e1 - b2 * e2
    · refine ⟨-(r * b2 - q * b), -(p * b - r * b1), ?_, ?_⟩ <;> apply mul_left_cancel₀ hN0
      · have e1 : N * (r * b2 - q * b) = a * b2 - a2 * b := by linear_combination (-b2) * hr + b * hq
        have e2 : N * (p * b - r * b1) = a1 * b - a * b1 := by linear_combination (-b) * hp + b1 * hr
        linear_combination a * g + a1 * e1 + a2 * e2
      · have e1 : N * (r * b2 - q * b) = a * b2 - a2 * b := by linear_combination (-b2) * hr + b * hq
        have e2 : N * (p * b - r * b1) = a1 * b - a * b1 := by linear_combination (-b) * hp + b1 * hr
        linear_combination b * g + b1 * e1 + b2 * e2

/-- For a prime order above 3 the condition on N + 1 holds. -/
theorem C111_prime (N : Int) (hp : Prime N) (hN : 3 < N) (s : Int) : s * s ≠ N + 1 :=
  prime_not_sq hp hN s

/-- A small order and the order of the curve meet the hypotheses. -/
example : (∃ f, endomorphismVectors f 7 2 = some (.ok (1, 3, 2, -1))) ∧
    (7 : Int) ∣ 2 ^ 2 + 2 + 1 ∧ ((curveN : ℕ) : Int) ∣ ((curveLambda : ℕ) : Int) ^ 2 + (curveLambda : ℕ) + 1 ∧
    curveLambda < curveN ∧ 3 < curveN := by
  refine ⟨⟨10, by decide +kernel⟩, by decide, by decide +kernel, by decide +kernel, by decide +kernel⟩

/-! ### C112 -/

/-- `EndomorphismVectors` of the curve returns the constants of btcec/btcec.go:968-971. -/
theorem C112_constants (f : ℕ) (hf : 200 ≤ f) :
    endomorphismVectors f ((curveN : ℕ) : Int) ((curveLambda : ℕ) : Int) =
      some (.ok (curveA1, curveB1, curveA2, curveB2)) := by
  have mono : ∀ (g : ℕ) (n s : Int) r, sqrtLoop n g s = some r → ∀ k, sqrtLoop n (g + k) s = some r := by
    intro g
    induction g with
    | zero => intro n s r h; cases h
    | succ g ih =>
      intro n s r h k
      rw [show g + 1 + k = g + k + 1 by omega]
      rw [sqrtLoop] at h ⊢
      split_ifs at h ⊢ with h1
      · exact h
      · simp only at h ⊢
        split_ifs at h ⊢ with h2
        · exact h
        · exact ih _ _ _ h k
  have mono2 : ∀ (g : ℕ) (n : Int) c r, evLoop n g c = some r → ∀ k, evLoop n (g + k) c = some r := by
    intro g
    induction g with
    | zero => intro n c r h; cases h
    | succ g ih =>
      intro n c r h k
      rw [show g + 1 + k = g + k + 1 by omega]
      rw [evLoop] at h ⊢
      split_ifs at h ⊢ with h1
      · simp only at h ⊢
        split_ifs at h ⊢ with h2 h3
        · exact ih _ _ _ h k
        · exact h
        · exact h
        · exact ih _ _ _ h k
      · exact h
  obtain ⟨k, rfl⟩ : ∃ k, f = 200 + k := ⟨f - 200, by omega⟩
  have e1 : sqrtLoop ((curveN : ℕ) : Int) 200 (2 ^ (bitLen ((curveN : ℕ) : Int) / 2)) =
      some (.ok 340282366920938463463374607431768211455) := by decide +kernel
  have e2 : evLoop 340282366920938463463374607431768211455 200
      ⟨(curveN : ℕ), (curveLambda : ℕ), 1, 0, 0, 1, 0, 0, 0, 0, 0, 0, false, false⟩ =
      some (curveA1, curveB1, curveA2, curveB2) := by decide +kernel
  have e1' := mono 200 _ _ _ e1 k
  have e2' := mono2 200 _ _ _ e2 k
  rw [endomorphismVectors]
  rw [sqrt, e1']
  simp only
  rw [e2']
  rfl

/-- Fewer iterations do not suffice, so the hypothesis is not idle; 200 do. -/
example : endomorphismVectors 10 ((curveN : ℕ) : Int) ((curveLambda : ℕ) : Int) = none ∧
    endomorphismVectors 200 ((curveN : ℕ) : Int) ((curveLambda : ℕ) : Int) ≠ none := by decide +kernel

/-! ### C113 -/

/-- For every point of the curve, the table that `SerializedBytePoints` generates loads, whatever
follows it, and with it `ScalarBaseMult` is `ScalarMult` of the point. -/
theorem C113_generated (x y : ℕ) (hx : x < curveP) (hy : y < curveP)
    (h : y ^ 2 % curveP = (x ^ 3 + 7) % curveP) :
    ∃ b tab, serializedBytePoints (x : Int) (y : Int) = .ok b ∧ b.length = 32 * 256 * 3 * 10 * 4 ∧
      (∀ rest, loadBytePoints (b ++ rest) = .ok tab) ∧
      ∀ k : Bytes, scalarBaseMult tab k = scalarMult (x : Int) (y : Int) k := by
  rw [curveP_eq] at hx hy h
  have hc := on_curve h
  have e : enc (mk hc) = (((x : ℕ) : Int), ((y : ℕ) : Int)) := by
    rw [enc_mk, ZMod.val_natCast, ZMod.val_natCast, Nat.mod_eq_of_lt hx, Nat.mod_eq_of_lt hy]
  obtain ⟨b, tab, h1, h2, h3, h4⟩ := gen_load (mk hc)
  have h5 := scalarMult_enc (mk hc)
  rw [e] at h1 h5
  exact ⟨b, tab, h1, h2, h3, fun k => (scalarBaseMult_spec h4 k).trans (h5 k).symm⟩

/-- Each entry of the generated table stands for its multiple of the point. -/
theorem C113_entries (A : E) : ∃ b tab, serializedBytePoints (enc A).1 (enc A).2 = .ok b ∧
    loadBytePoints b = .ok tab ∧ ∀ c, c < 32 → ∀ i : UInt8,
      fieldJacobianToBigAffine (tab c i) = enc ((i.toNat * 256 ^ (31 - c)) • A) := by
  obtain ⟨b, tab, h1, -, h3, h4⟩ := gen_load A
  exact ⟨b, tab, h1, by simpa using h3 [], fun c hc i => (h4 c hc i).affine⟩

/-- A point other than the two bases meets the hypotheses. -/
example : (1 : ℕ) < curveP ∧
    29896722852569046015560700294576055776214335159245303116488692907525646231534 < curveP ∧
    29896722852569046015560700294576055776214335159245303116488692907525646231534 ^ 2 % curveP =
      (1 ^ 3 + 7) % curveP := by decide +kernel

/-! ### C114 -/

/-- Generating the table of the base point and loading it gives the committed table, word for word. -/
theorem C114_first : ∃ b tab, serializedBytePoints ((curveGx : ℕ) : Int) ((curveGy : ℕ) : Int) = .ok b ∧
    loadBytePoints b = .ok tab ∧ ∀ c, c < 32 → ∀ i : UInt8, tab c i = tabPoint rowsG c i := by
  obtain ⟨f, g, h1, h2⟩ := startG
  exact gen_table tabG_gen h1 h2

/-- The same for the second table, generated from its base. -/
theorem C114_second : ∃ b tab, serializedBytePointsH = .ok b ∧
    loadBytePoints b = .ok tab ∧ ∀ c, c < 32 → ∀ i : UInt8, tab c i = tabPoint rowsH c i := by
  have e : serializedBytePointsH = serializedBytePoints ((hbX : ℕ) : Int) ((hbY : ℕ) : Int) := by
    have : Ec.parsePubKey potentialXValue = .ok (.ok ⟨((hbX : ℕ) : Int), ((hbY : ℕ) : Int)⟩) := by
      decide +kernel
    rw [serializedBytePointsH, this]
    rfl
  rw [e]
  obtain ⟨f, g, h1, h2⟩ := startH
  exact gen_table tabH_gen h1 h2

/-- The tables are not trivial: two entries, and the two tables differ. -/
example : tabPoint rowsG 31 3 ≠ tabPoint rowsG 31 5 ∧ tabPoint rowsG 7 200 ≠ tabPoint rowsH 7 200 := by
  decide +kernel

/-! ### C115 -/

/-- The base of the second table is fixed by a hash: `potentialXValue` is the byte 2 and the SHA-256
hash of the big-endian bytes of Gx + 2, it parses, and the first entry of the last row of the
generated table is the point it parses to. -/
theorem C115_base : ∃ q : Ec.PubKey, ∃ b tab,
    potentialXValue = [2] ++ sha256 (natBytes (curveGx + 2)) ∧ potentialXValue.length = 33 ∧
      Ec.parsePubKey potentialXValue = .ok (.ok q) ∧ serializedBytePointsH = .ok b ∧
      loadBytePoints b = .ok tab ∧ fieldJacobianToBigAffine (tab 31 1) = (q.X, q.Y) ∧
      ∀ k : Bytes, scalarBaseMult tab k = scalarMult q.X q.Y k := by
  have hq : Ec.parsePubKey potentialXValue = .ok (.ok ⟨((hbX : ℕ) : Int), ((hbY : ℕ) : Int)⟩) := by
    decide +kernel
  obtain ⟨b, tab, h1, -, h3, h4⟩ := gen_load Hb
  have h5 := scalarMult_enc Hb
  have h6 := (h4 31 (by decide) 1).affine
  rw [enc_Hb] at h1 h5
  rw [show ((1 : UInt8).toNat * 256 ^ (31 - 31)) = 1 from rfl, one_nsmul, enc_Hb] at h6
  refine ⟨_, b, tab, rfl, by decide +kernel, hq, ?_, by simpa using h3 [], h6,
    fun k => (scalarBaseMult_spec h4 k).trans (h5 k).symm⟩
  rw [serializedBytePointsH, hq]
  exact h1

/-! ### C116 -/

/-- Loading panics exactly for fewer than 983040 bytes; otherwise the table serializes to the first
983040 of them, so different bytes give different tables and what follows is ignored. -/
theorem C116_load (s : Bytes) :
    (loadBytePoints s = .panic ↔ s.length < 32 * 256 * 3 * 10 * 4) ∧
      (∀ tab, loadBytePoints s = .ok tab →
        ((List.range 32).flatMap fun b => (List.range 256).flatMap fun i =>
          serPoint (tab b (UInt8.ofNat i))) = s.take 983040) ∧
      ∀ t, 983040 ≤ s.length → loadBytePoints (s ++ t) = loadBytePoints s := by
  refine ⟨?_, fun tab h => load_bytes h, fun t hs => ?_⟩
  · have := load_iff s
    constructor
    · intro h
      by_contra hc
      obtain ⟨tab, ht⟩ := this.2 (by omega)
      rw [h] at ht
      cases ht
    · intro h
      rcases e : loadBytePoints s with tab | _
      · have := this.1 ⟨tab, e⟩
        omega
      · rfl
  · obtain ⟨tab, ht⟩ := (load_iff s).2 hs
    obtain ⟨l, h1, ⟨u, rfl⟩, -⟩ := load_inv ht
    rw [List.append_assoc, load_ser h1, load_ser h1]

/-- Any table survives serializing and loading. -/
theorem C116_roundtrip (tab : Nat → UInt8 → Jac) (rest : Bytes) : ∃ tab',
    loadBytePoints (((List.range 32).flatMap fun b => (List.range 256).flatMap fun i =>
      serPoint (tab b (UInt8.ofNat i))) ++ rest) = .ok tab' ∧
      ∀ b, b < 32 → ∀ i, tab' b i = tab b i := by
  have hr : ∀ b, ((List.range 256).map fun i => tab b (UInt8.ofNat i)).length = 256 := by
    intro b; rw [List.length_map, List.length_range]
  have hl := flatMap_range_length hr 32
  have e : ((List.range 32).flatMap fun b => (List.range 256).flatMap fun i =>
      serPoint (tab b (UInt8.ofNat i))) =
      ((List.range 32).flatMap fun b => (List.range 256).map fun i => tab b (UInt8.ofNat i)).flatMap
        serPoint := by
    rw [List.flatMap_assoc]
    apply List.flatMap_congr
    intro b _
    rw [List.flatMap_map]
  rw [e]
  refine ⟨_, load_ser hl rest, fun b hb i => ?_⟩
  have hi := i.toNat_lt
  show List.getD _ (256 * b + i.toNat) _ = _
  rw [flatMap_range_getD hr _ hi 32 b hb, getD_lt _ (by rw [hr]; exact hi), List.getElem_map,
    List.getElem_range, UInt8.ofNat_toNat]

/-- A string of 983040 bytes, and one of one byte less. -/
example : (List.replicate 983040 (7 : UInt8)).length = 32 * 256 * 3 * 10 * 4 ∧
    (List.replicate 983039 (7 : UInt8)).length < 32 * 256 * 3 * 10 * 4 := by
  rw [List.length_replicate, List.length_replicate]; decide

/-! ### C117 -/

/-- The words of a product depend only on the numbers the operands stand for, not on how these are
spread over the words; `Mul2` is commutative and `SquareVal` is `Mul2` of equal operands, word for
word. -/
theorem C117_words {a b c d : FieldVal} (ha : Mag a 8) (hb : Mag b 8) (hc : Mag c 8) (hd : Mag d 8) :
    (val a * val b = val c * val d → mul2 a b = mul2 c d) ∧ mul2 a b = mul2 b a ∧
      squareVal a = mul2 a a ∧ (val a = val c → squareVal a = squareVal c) := by
  refine ⟨fun h => ?_, ?_, ?_, fun h => ?_⟩
  · exact red_same (mul_red ha hb).2 (h ▸ (mul_red hc hd).2)
  · exact red_same (mul_red ha hb).2 (mul_comm (val b) (val a) ▸ (mul_red hb ha).2)
  · exact red_same (square_red ha).2 (mul_red ha ha).2
  · exact red_same (square_red ha).2 (h ▸ (square_red hc).2)

/-- Different words that stand for the same number: a carry left in the first word. -/
example : Mag ⟨67108864, 0, 0, 0, 0, 0, 0, 0, 0, 0⟩ 8 ∧ Mag ⟨0, 1, 0, 0, 0, 0, 0, 0, 0, 0⟩ 8 ∧
    val ⟨67108864, 0, 0, 0, 0, 0, 0, 0, 0, 0⟩ = val ⟨0, 1, 0, 0, 0, 0, 0, 0, 0, 0⟩ := by
  refine ⟨by constructor <;> decide, by constructor <;> decide, by decide⟩

end Zk.Gen
