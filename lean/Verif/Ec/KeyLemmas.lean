import Verif.Ec.Model
import Verif.Curve.TestLawful

/-!
# Bytes, slices, square roots and public keys
-/

namespace Zk.Ec

open Zk Zk.Field Zk.Curve

/-! ### Bytes -/

theorem setBytes_inj_len : ∀ {a b : Bytes}, a.length = b.length → setBytes a = setBytes b → a = b
  | [], [], _, _ => rfl
  | [], _ :: _, h, _ => by simp at h
  | _ :: _, [], h, _ => by simp at h
  | x :: a, y :: b, h, e => by
    have hl : a.length = b.length := by simpa using h
    rw [setBytes_cons, setBytes_cons, hl] at e
    have h1 := setBytes_lt a
    have h2 := setBytes_lt b
    rw [hl] at h1
    have hx : x.toNat = y.toNat := by
      have e1 : (x.toNat * 256 ^ b.length + setBytes a) / 256 ^ b.length = x.toNat := by
        rw [mul_comm, Nat.mul_add_div (by positivity), Nat.div_eq_of_lt h1, add_zero]
      have e2 : (y.toNat * 256 ^ b.length + setBytes b) / 256 ^ b.length = y.toNat := by
        rw [mul_comm, Nat.mul_add_div (by positivity), Nat.div_eq_of_lt h2, add_zero]
      rw [← e1, ← e2, e]
    rw [hx] at e
    rw [UInt8.toNat_inj.1 hx, setBytes_inj_len hl (by omega)]

/-- `n` as 32 bytes (specification; btcec/pubkey.go:173-181). -/
def be32 (n : ℕ) : Bytes := List.replicate (32 - (natBytes n).length) 0 ++ natBytes n

theorem be32_length {n : ℕ} (h : n < 2 ^ 256) : (be32 n).length = 32 := by
  have := natBytes_length_le (n := n) (k := 32) (by
    rw [show (256 : ℕ) ^ 32 = 2 ^ 256 by norm_num]; exact h)
  rw [be32, List.length_append, List.length_replicate]; omega

theorem setBytes_be32 (n : ℕ) : setBytes (be32 n) = n := by
  rw [be32, setBytes_zeros, setBytes_natBytes]

theorem be32_setBytes {b : Bytes} (h : b.length = 32) : be32 (setBytes b) = b := by
  have h1 := setBytes_lt b
  rw [h, show (256 : ℕ) ^ 32 = 2 ^ 256 by norm_num] at h1
  exact setBytes_inj_len (by rw [be32_length h1, h]) (setBytes_be32 _)

theorem paddedAppend_eq (dst : Bytes) (v : Int) :
    paddedAppend 32 dst (intBytes v) = dst ++ be32 v.natAbs := by
  rw [paddedAppend, List.append_assoc]; rfl

theorem idx_lt {b : Bytes} {i : ℕ} (h : i < b.length) : idx b i = .ok b[i] := by
  rw [idx, List.getElem?_eq_getElem h]

theorem idx_cons (a : UInt8) (b : Bytes) : idx (a :: b) 0 = .ok a := rfl

theorem idx_succ (a : UInt8) (b : Bytes) (i : ℕ) : idx (a :: b) (i + 1) = idx b i := rfl

theorem idx_append_right (a b : Bytes) (i : ℕ) : idx (a ++ b) (a.length + i) = idx b i := by
  rw [idx, idx, List.getElem?_append_right (by omega), Nat.add_sub_cancel_left]

theorem slice_append {a b c : Bytes} {i j : ℕ} (hi : i = a.length) (hj : j = a.length + b.length) :
    slice (a ++ (b ++ c)) i j = .ok b := by
  subst hi hj
  rw [slice, if_pos ⟨by omega, by simp⟩, List.drop_left, Nat.add_sub_cancel_left, List.take_left]

theorem slice_end {a b : Bytes} {i j : ℕ} (hi : i = a.length) (hj : j = a.length + b.length) :
    slice (a ++ b) i j = .ok b := by
  have := slice_append (a := a) (b := b) (c := []) hi hj
  rwa [List.append_nil] at this

theorem slice_ok {b : Bytes} {i j : ℕ} (h : i ≤ j) (hj : j ≤ b.length) :
    slice b i j = .ok ((b.drop i).take (j - i)) := if_pos ⟨h, hj⟩

theorem take_drop_length {b : Bytes} {i j : ℕ} (h : i ≤ j) (hj : j ≤ b.length) :
    ((b.drop i).take (j - i)).length = j - i := by
  rw [List.length_take, List.length_drop]; omega

/-! ### Parity -/

theorem isOddInt_nat (n : ℕ) : isOddInt n = decide (n % 2 = 1) := by
  rw [isOddInt]; congr 1; rw [eq_iff_iff]; omega

/-! ### Square roots -/

/-- The candidate for the root (specification; btcec/pubkey.go:40). -/
def root (x : F) : F := (x ^ 3 + 7) ^ ((P + 1) / 4)

theorem bigExp_root (x : ℕ) :
    bigExp ((x : Int) * x * x + 7) qPlus1Div4 curveP = ((root (x : F)).val : Int) := by
  have hq : qPlus1Div4 = (P + 1) / 4 := by rw [qPlus1Div4, curveP_eq]
  rw [bigExp, curveP_eq, hq]
  have e0 : (((x : Int) * x * x + 7) % ((P : ℕ) : Int)).toNat = (x * x * x + 7) % P := by
    have : ((x : Int) * x * x + 7) = ((x * x * x + 7 : ℕ) : Int) := by push_cast; ring
    rw [this, ← Int.natCast_mod, Int.toNat_natCast]
  rw [e0, ← ZMod.val_natCast, powMod_cast (lt_of_le_of_lt (Nat.div_le_self _ _) (by decide)),
    ZMod.natCast_mod]
  refine congrArg (fun t : F => ((t.val : ℕ) : Int)) ?_
  rw [root]
  refine congrArg (fun t : F => t ^ ((P + 1) / 4)) ?_
  push_cast
  ring

theorem root_ne (x : F) : root x ≠ 0 :=
  pow_ne_zero _ fun h => no_y_zero (x := x) (y := 0) (by rw [h]; ring) rfl

theorem root_of_sq {x y : F} (h : y ^ 2 = x ^ 3 + 7) : root x = y ∨ root x = -y := by
  have hy := no_y_zero h
  refine eq_or_neg h ?_
  rw [root, ← h, ← pow_mul, ← pow_mul]
  have e : 2 * ((P + 1) / 4 * 2) = 2 + (P - 1) := by decide
  rw [e, pow_add, ZMod.pow_card_sub_one_eq_one hy, mul_one]

theorem decompress_ok (x : ℕ) (b : Bool) : ∃ y : F, decompressPoint x b = .ok (y.val : Int) ∧
    decide (y.val % 2 = 1) = b ∧ (y = root x ∨ y = -root x) := by
  have hp := neg_parity (root_ne x)
  have hn := neg_val (root_ne (x : F))
  have hl := (root (x : F)).val_lt
  rw [decompressPoint]
  rw [bigExp_root, isOddInt_nat]
  have hsub : (curveP : Int) - ((root (x : F)).val : Int) = ((-root (x : F)).val : Int) := by
    rw [hn, curveP_eq, Int.ofNat_sub hl.le]
  by_cases hb : b = decide ((root (x : F)).val % 2 = 1)
  · rw [if_neg (not_not.2 hb), isOddInt_nat, if_neg (not_not.2 hb)]
    exact ⟨_, rfl, hb.symm, .inl rfl⟩
  · have hb' : b = decide ((-root (x : F)).val % 2 = 1) := by
      cases b
      · have h1 : (root (x : F)).val % 2 = 1 := by simpa using hb
        have h2 : ¬(-root (x : F)).val % 2 = 1 := by omega
        simp [h2]
      · have h1 : ¬(root (x : F)).val % 2 = 1 := by simpa using hb
        have h2 : (-root (x : F)).val % 2 = 1 := by omega
        simp [h2]
    rw [if_pos hb, hsub, isOddInt_nat, if_neg (not_not.2 hb')]
    exact ⟨_, rfl, hb'.symm, .inr rfl⟩

theorem decompress_on {x y : F} (h : y ^ 2 = x ^ 3 + 7) :
    decompressPoint (x.val : Int) (decide (y.val % 2 = 1)) = .ok (y.val : Int) := by
  obtain ⟨z, hz, hb, hr⟩ := decompress_ok x.val (decide (y.val % 2 = 1))
  rw [ZMod.natCast_zmod_val] at hr
  rw [hz]
  have hzy : z = y ∨ z = -y := by
    rcases root_of_sq h with h1 | h1 <;> rcases hr with h2 | h2 <;> rw [h2, h1]
    · exact .inl rfl
    · exact .inr rfl
    · exact .inr rfl
    · exact .inl (neg_neg y)
  rcases hzy with rfl | rfl
  · rfl
  · exact absurd (by simpa using hb) (fun h3 : ((-y).val % 2 = 1 ↔ y.val % 2 = 1) =>
      neg_parity (no_y_zero h) (by omega))

/-! ### Public keys -/

/-- The key of a point (specification; btcec/pubkey.go:126). -/
def pk (A : E) : PubKey := ⟨(enc A).1, (enc A).2⟩

theorem pk_inj {A B : E} (h : pk A = pk B) : A = B := by
  injection h with h1 h2
  exact enc_inj A B (Prod.ext h1 h2)

theorem check_mk {x y : F} (h : y ^ 2 = x ^ 3 + 7) :
    checkPubKey (x.val : Int) (y.val : Int) = .ok (.ok (pk (mk h))) := by
  have h1 := enc_lt (mk h)
  have h2 := isOnCurve_enc (mk h) (mk_ne_zero h)
  rw [enc_mk] at h1 h2
  rw [checkPubKey, if_neg (not_le.2 h1.1), if_neg (not_le.2 h1.2), h2]
  rfl

theorem check_ok {x y : ℕ} {q : PubKey}
    (h : checkPubKey (x : Int) (y : Int) = .ok (.ok q)) :
    ∃ A : E, A ≠ 0 ∧ q = pk A ∧ enc A = ((x : Int), (y : Int)) := by
  have hP : P < 2 ^ 256 := by decide
  rw [checkPubKey, curveP_eq] at h
  split at h
  · cases h
  rename_i hx
  split at h
  · cases h
  rename_i hy
  have hx' : x < P := by omega
  have hy' : y < P := by omega
  rw [isOnCurve_spec (by omega) (by omega)] at h
  rw [Int.natAbs_natCast, Int.natAbs_natCast] at h
  by_cases hc : (y : F) ^ 2 = (x : F) ^ 3 + 7
  · rw [decide_eq_true hc] at h
    injection h with h
    injection h with h
    have e : enc (mk hc) = ((x : Int), (y : Int)) := by
      rw [enc_mk, ZMod.val_natCast, ZMod.val_natCast, Nat.mod_eq_of_lt hx', Nat.mod_eq_of_lt hy']
    exact ⟨mk hc, mk_ne_zero hc, by rw [← h, pk, e], e⟩
  · rw [decide_eq_false hc] at h
    injection h with h
    cases h

/-- What the check of a public key accepts and refuses: it never panics below `2^256`. -/
theorem check_total {x y : ℕ} (hx : x < 2 ^ 256) (hy : y < 2 ^ 256) :
    ∃ r, checkPubKey (x : Int) (y : Int) = .ok r := by
  rw [checkPubKey]
  split
  · exact ⟨_, rfl⟩
  split
  · exact ⟨_, rfl⟩
  rw [isOnCurve_spec (by omega) (by omega), Go.bind_ok]
  split <;> exact ⟨_, rfl⟩

theorem val_lt_256 (x : F) : x.val < 2 ^ 256 := lt_trans x.val_lt (by decide)

/-- The three formats of a public key (specification). -/
theorem serU {x y : F} (h : y ^ 2 = x ^ 3 + 7) :
    serializeUncompressed (pk (mk h)) = 0x4 :: (be32 x.val ++ be32 y.val) := by
  rw [serializeUncompressed, paddedAppend_eq, paddedAppend_eq]
  show _ ++ be32 ((x.val : Int)).natAbs ++ be32 ((y.val : Int)).natAbs = _
  rw [Int.natAbs_natCast, Int.natAbs_natCast, List.append_assoc]
  rfl

theorem serC {x y : F} (h : y ^ 2 = x ^ 3 + 7) :
    serializeCompressed (pk (mk h)) =
      (if decide (y.val % 2 = 1) then 0x3 else 0x2) :: be32 x.val := by
  rw [serializeCompressed, paddedAppend_eq]
  show [if isOddInt ((y.val : Int)) = true then _ else _] ++ be32 ((x.val : Int)).natAbs = _
  rw [isOddInt_nat, Int.natAbs_natCast]
  rfl

theorem serH {x y : F} (h : y ^ 2 = x ^ 3 + 7) :
    serializeHybrid (pk (mk h)) =
      (if decide (y.val % 2 = 1) then 0x7 else 0x6) :: (be32 x.val ++ be32 y.val) := by
  rw [serializeHybrid, paddedAppend_eq, paddedAppend_eq]
  show [if isOddInt ((y.val : Int)) = true then _ else _] ++ be32 ((x.val : Int)).natAbs ++
    be32 ((y.val : Int)).natAbs = _
  rw [isOddInt_nat, Int.natAbs_natCast, Int.natAbs_natCast, List.append_assoc]
  rfl

/-- Parsing 65 bytes. -/
theorem parse65 {c : UInt8} {xb yb : Bytes} (hx : xb.length = 32) (hy : yb.length = 32) :
    parsePubKey (c :: (xb ++ yb)) =
      if c &&& 0xfe ≠ 0x4 ∧ c &&& 0xfe ≠ 0x6 then
        .ok (.error "invalid magic in pubkey str")
      else if c &&& 0xfe = 0x6 ∧ decide (c &&& 0x1 = 0x1) ≠ isOddInt (setBytes yb) then
        .ok (.error "ybit doesn't match oddness")
      else checkPubKey (setBytes xb) (setBytes yb) := by
  have hl : (c :: (xb ++ yb)).length = 65 := by simp [hx, hy]
  have s1 : slice (c :: (xb ++ yb)) 1 33 = .ok xb :=
    slice_append (a := [c]) (b := xb) (c := yb) rfl (by simp [hx])
  have s2 : slice (c :: (xb ++ yb)) 33 65 = .ok yb :=
    slice_end (a := c :: xb) (b := yb) (by simp [hx]) (by simp [hx, hy])
  rw [parsePubKey, if_neg (by rw [hl]; decide), idx_cons, Go.bind_ok]
  dsimp only
  rw [if_pos hl, hl, s1, s2, Go.bind_ok, Go.bind_ok]
  rfl

/-- Parsing 33 bytes. -/
theorem parse33 {c : UInt8} {xb : Bytes} (hx : xb.length = 32) :
    parsePubKey (c :: xb) =
      if c &&& 0xfe ≠ 0x2 then .ok (.error "invalid magic in compressed pubkey string")
      else match decompressPoint (setBytes xb) (decide (c &&& 0x1 = 0x1)) with
        | .error e => .ok (.error e)
        | .ok y => checkPubKey (setBytes xb) y := by
  have hl : (c :: xb).length = 33 := by simp [hx]
  have s1 : slice (c :: xb) 1 33 = .ok xb :=
    slice_end (a := [c]) (b := xb) rfl (by simp [hx])
  rw [parsePubKey, if_neg (by rw [hl]; decide), idx_cons, Go.bind_ok]
  dsimp only
  rw [if_neg (by rw [hl]; decide), if_pos hl, s1, Go.bind_ok]
  rfl

theorem parseU {x y : F} (h : y ^ 2 = x ^ 3 + 7) :
    parsePubKey (0x4 :: (be32 x.val ++ be32 y.val)) = .ok (.ok (pk (mk h))) := by
  rw [parse65 (be32_length (val_lt_256 x)) (be32_length (val_lt_256 y)), if_neg (by decide),
    if_neg (by rintro ⟨h, -⟩; revert h; decide), setBytes_be32, setBytes_be32, check_mk h]

theorem parseC {x y : F} (h : y ^ 2 = x ^ 3 + 7) :
    parsePubKey ((if decide (y.val % 2 = 1) then 0x3 else 0x2) :: be32 x.val) =
      .ok (.ok (pk (mk h))) := by
  rw [parse33 (be32_length (val_lt_256 x)), setBytes_be32]
  have e : (decide ((if decide (y.val % 2 = 1) then (0x3 : UInt8) else 0x2) &&& 0x1 = 0x1)) =
      decide (y.val % 2 = 1) := by
    cases decide (y.val % 2 = 1) <;> rfl
  rw [e, decompress_on h, if_neg (by cases decide (y.val % 2 = 1) <;> decide)]
  exact check_mk h

theorem parseH {x y : F} (h : y ^ 2 = x ^ 3 + 7) :
    parsePubKey ((if decide (y.val % 2 = 1) then 0x7 else 0x6) :: (be32 x.val ++ be32 y.val)) =
      .ok (.ok (pk (mk h))) := by
  rw [parse65 (be32_length (val_lt_256 x)) (be32_length (val_lt_256 y)), setBytes_be32,
    setBytes_be32, isOddInt_nat]
  have e : (decide ((if decide (y.val % 2 = 1) then (0x7 : UInt8) else 0x6) &&& 0x1 = 0x1)) =
      decide (y.val % 2 = 1) := by
    cases decide (y.val % 2 = 1) <;> rfl
  rw [e, if_neg (by cases decide (y.val % 2 = 1) <;> decide), if_neg (fun hh => hh.2 rfl)]
  exact check_mk h

/-- What `ParsePubKey` accepts: exactly the serializations of the points other than infinity, and
`0x05` in place of `0x04`. -/
theorem parse_ok {s : Bytes} {q : PubKey} (h : parsePubKey s = .ok (.ok q)) :
    ∃ A : E, A ≠ 0 ∧ q = pk A ∧ (s = serializeUncompressed q ∨
      (∃ t, serializeUncompressed q = 0x4 :: t ∧ s = 0x5 :: t) ∨ s = serializeCompressed q ∨
      s = serializeHybrid q) := by
  by_cases h0 : s.length = 0
  · rw [parsePubKey, if_pos h0] at h
    cases h
  obtain ⟨c, s, rfl⟩ : ∃ c t, s = c :: t := by
    cases s with
    | nil => exact absurd rfl h0
    | cons c t => exact ⟨c, t, rfl⟩
  by_cases h65 : s.length = 64
  · obtain ⟨xb, yb, rfl, hx, hy⟩ : ∃ xb yb, s = xb ++ yb ∧ xb.length = 32 ∧ yb.length = 32 :=
      ⟨s.take 32, s.drop 32, (List.take_append_drop 32 s).symm, by simp [h65], by simp [h65]⟩
    rw [parse65 hx hy] at h
    split at h
    · cases h
    rename_i hm
    split at h
    · cases h
    rename_i hp
    obtain ⟨A, hA, hq, he⟩ := check_ok h
    rcases point_cases A with rfl | ⟨x, y, hc, rfl⟩
    · exact absurd rfl hA
    rw [enc_mk, Prod.mk.injEq] at he
    have ex : be32 x.val = xb := by rw [Int.ofNat_inj.1 he.1, be32_setBytes hx]
    have ey : be32 y.val = yb := by rw [Int.ofNat_inj.1 he.2, be32_setBytes hy]
    rw [← Int.ofNat_inj.1 he.2, isOddInt_nat] at hp
    refine ⟨mk hc, hA, hq, ?_⟩
    rw [hq, serU hc, serC hc, serH hc, ex, ey]
    have hall : ∀ c : Fin 256, let c := UInt8.ofNat c.val
        ¬(c &&& 0xfe ≠ 0x4 ∧ c &&& 0xfe ≠ 0x6) →
        c = 0x4 ∨ c = 0x5 ∨ (c = 0x6) ∨ c = 0x7 := by decide +kernel
    have hc' := hall ⟨c.toNat, c.toNat_lt⟩
    dsimp only at hc'
    rw [UInt8.ofNat_toNat] at hc'
    rcases hc' hm with rfl | rfl | rfl | rfl
    · exact .inl rfl
    · exact .inr (.inl ⟨_, rfl, rfl⟩)
    · refine .inr (.inr (.inr ?_))
      have : ¬ y.val % 2 = 1 := by
        intro h1
        exact hp ⟨by decide, by rw [decide_eq_true h1]; decide⟩
      rw [decide_eq_false this]; rfl
    · refine .inr (.inr (.inr ?_))
      have : y.val % 2 = 1 := by
        by_contra h1
        exact hp ⟨by decide, by rw [decide_eq_false h1]; decide⟩
      rw [decide_eq_true this]; rfl
  by_cases h33 : s.length = 32
  · rw [parse33 h33] at h
    split at h
    · cases h
    rename_i hm
    obtain ⟨z, hz, hb, -⟩ := decompress_ok (setBytes s) (decide (c &&& 0x1 = 0x1))
    rw [hz] at h
    obtain ⟨A, hA, hq, he⟩ := check_ok h
    rcases point_cases A with rfl | ⟨x, y, hc, rfl⟩
    · exact absurd rfl hA
    rw [enc_mk, Prod.mk.injEq] at he
    have ex : be32 x.val = s := by rw [Int.ofNat_inj.1 he.1, be32_setBytes h33]
    refine ⟨mk hc, hA, hq, .inr (.inr (.inl ?_))⟩
    rw [hq, serC hc, ex, Int.ofNat_inj.1 he.2, hb]
    have hall : ∀ c : Fin 256, let c := UInt8.ofNat c.val
        ¬(c &&& 0xfe ≠ 0x2) → c = if decide (c &&& 0x1 = 0x1) then 0x3 else 0x2 := by
      decide +kernel
    have hc' := hall ⟨c.toNat, c.toNat_lt⟩
    dsimp only at hc'
    rw [UInt8.ofNat_toNat] at hc'
    exact congrArg (fun a => a :: s) (hc' hm)
  · rw [parsePubKey, if_neg h0, idx_cons, Go.bind_ok] at h
    dsimp only at h
    rw [if_neg (by simp only [List.length_cons]; omega),
      if_neg (by simp only [List.length_cons]; omega)] at h
    cases h

/-- `ParsePubKey` never panics. -/
theorem parse_total (s : Bytes) : ∃ r, parsePubKey s = .ok r := by
  by_cases h0 : s.length = 0
  · exact ⟨_, by rw [parsePubKey, if_pos h0]; rfl⟩
  obtain ⟨c, s, rfl⟩ : ∃ c t, s = c :: t := by
    cases s with
    | nil => exact absurd rfl h0
    | cons c t => exact ⟨c, t, rfl⟩
  have hb : ∀ b : Bytes, b.length = 32 → setBytes b < 2 ^ 256 := by
    intro b hb
    have h1 := setBytes_lt b
    rwa [hb, show (256 : ℕ) ^ 32 = 2 ^ 256 by norm_num] at h1
  by_cases h65 : s.length = 64
  · obtain ⟨xb, yb, rfl, hx, hy⟩ : ∃ xb yb, s = xb ++ yb ∧ xb.length = 32 ∧ yb.length = 32 :=
      ⟨s.take 32, s.drop 32, (List.take_append_drop 32 s).symm, by simp [h65], by simp [h65]⟩
    rw [parse65 hx hy]
    split
    · exact ⟨_, rfl⟩
    split
    · exact ⟨_, rfl⟩
    exact check_total (hb _ hx) (hb _ hy)
  by_cases h33 : s.length = 32
  · rw [parse33 h33]
    split
    · exact ⟨_, rfl⟩
    obtain ⟨z, hz, -⟩ := decompress_ok (setBytes s) (decide (c &&& 0x1 = 0x1))
    rw [hz]
    exact check_total (hb _ h33) (val_lt_256 z)
  · refine ⟨.error "invalid pub key length", ?_⟩
    rw [parsePubKey, if_neg h0, idx_cons, Go.bind_ok]
    dsimp only
    rw [if_neg (by simp only [List.length_cons]; omega),
      if_neg (by simp only [List.length_cons]; omega)]
    rfl

end Zk.Ec
