import Verif.Text.Model
import Verif.Field.ZLemmas

/-!
# Lemmas about the text forms
-/

namespace Zk.Text

open Zk Zk.Field Zk.Curve Zk.Gen

theorem forall_byte {p : UInt8 → Prop} (h : ∀ n < 256, p (UInt8.ofNat n)) (x : UInt8) : p x := by
  have := h x.toNat x.toNat_lt
  rwa [UInt8.ofNat_toNat] at this

/-! ## Hexadecimal -/

/-- `c` is a digit of btcec/field.go:241: 0-9, a-f or A-F. -/
def IsHex (c : UInt8) : Prop := (0x30 ≤ c ∧ c ≤ 0x39) ∨ (0x61 ≤ c ∧ c ≤ 0x66) ∨ (0x41 ≤ c ∧ c ≤ 0x46)

instance (c : UInt8) : Decidable (IsHex c) := by unfold IsHex; infer_instance

theorem fromHexChar_spec (c : UInt8) :
    (IsHex c ∧ ∃ d, fromHexChar c = some d ∧ d.toNat < 16) ∨ (¬IsHex c ∧ fromHexChar c = none) := by
  have h : ∀ n < 256, (IsHex (UInt8.ofNat n) ∧ (fromHexChar (UInt8.ofNat n)).isSome = true ∧
      ((fromHexChar (UInt8.ofNat n)).getD 0).toNat < 16) ∨
      (¬IsHex (UInt8.ofNat n) ∧ fromHexChar (UInt8.ofNat n) = none) := by decide +kernel
  rcases forall_byte (p := fun c => (IsHex c ∧ (fromHexChar c).isSome = true ∧
      ((fromHexChar c).getD 0).toNat < 16) ∨ (¬IsHex c ∧ fromHexChar c = none)) h c with ⟨h1, h2, h3⟩ | h
  · left
    obtain ⟨d, hd⟩ := Option.isSome_iff_exists.1 h2
    rw [hd] at h3
    exact ⟨h1, d, hd, h3⟩
  · exact .inr h

theorem hexDigit_hi (x : UInt8) : fromHexChar (hexDigit (x >>> 4)) = some (x >>> 4) :=
  forall_byte (p := fun x => fromHexChar (hexDigit (x >>> 4)) = some (x >>> 4)) (by decide +kernel) x

theorem hexDigit_lo (x : UInt8) : fromHexChar (hexDigit (x &&& 0xf)) = some (x &&& 0xf) :=
  forall_byte (p := fun x => fromHexChar (hexDigit (x &&& 0xf)) = some (x &&& 0xf)) (by decide +kernel) x

theorem hex_join (x : UInt8) : ((x >>> 4) <<< 4) ||| (x &&& 0xf) = x :=
  forall_byte (p := fun x => ((x >>> 4) <<< 4) ||| (x &&& 0xf) = x) (by decide +kernel) x

theorem hexDigit_lower (x : UInt8) : ∀ c ∈ [hexDigit (x >>> 4), hexDigit (x &&& 0xf)],
    (0x30 ≤ c ∧ c ≤ 0x39) ∨ (0x61 ≤ c ∧ c ≤ 0x66) :=
  forall_byte (p := fun x => ∀ c ∈ [hexDigit (x >>> 4), hexDigit (x &&& 0xf)],
    (0x30 ≤ c ∧ c ≤ 0x39) ∨ (0x61 ≤ c ∧ c ≤ 0x66)) (by decide +kernel) x

theorem pair_toNat {x y : UInt8} (hx : x.toNat < 16) (hy : y.toNat < 16) :
    ((x <<< 4) ||| y).toNat = x.toNat * 16 + y.toNat := by
  have h : ∀ n < 16, ∀ m < 16, ((UInt8.ofNat n <<< 4) ||| UInt8.ofNat m).toNat = n * 16 + m := by
    decide +kernel
  have := h _ hx _ hy
  rwa [UInt8.ofNat_toNat, UInt8.ofNat_toNat] at this

theorem hexDecode_encode (b : Bytes) : hexDecode (hexEncode b) = b := by
  induction b with
  | nil => rfl
  | cons x b ih =>
    show hexDecode (hexDigit (x >>> 4) :: hexDigit (x &&& 0xf) :: hexEncode b) = _
    rw [hexDecode, hexDigit_hi, hexDigit_lo]
    simp only
    rw [hex_join, ih]

theorem hexEncode_length (b : Bytes) : (hexEncode b).length = 2 * b.length := by
  induction b with
  | nil => rfl
  | cons x b ih =>
    show (hexDigit (x >>> 4) :: hexDigit (x &&& 0xf) :: hexEncode b).length = _
    simp only [List.length_cons, ih]; omega

theorem hexEncode_lower (b : Bytes) : ∀ c ∈ hexEncode b,
    (0x30 ≤ c ∧ c ≤ 0x39) ∨ (0x61 ≤ c ∧ c ≤ 0x66) := by
  intro c hc
  obtain ⟨x, -, hx⟩ := List.mem_flatMap.1 hc
  exact hexDigit_lower x c hx

theorem hexNumber_none {s : Bytes} {acc : ℕ} (h : ∃ c ∈ s, ¬IsHex c) : hexNumber s acc = none := by
  induction s generalizing acc with
  | nil => obtain ⟨c, hc, -⟩ := h; cases hc
  | cons a s ih =>
    rw [hexNumber]
    rcases fromHexChar_spec a with ⟨h1, d, h2, -⟩ | ⟨h1, h2⟩
    · rw [h2]
      apply ih
      obtain ⟨c, hc, hn⟩ := h
      rcases List.mem_cons.1 hc with rfl | hc
      · exact absurd h1 hn
      · exact ⟨c, hc, hn⟩
    · rw [h2]

theorem hexNumber_some {s : Bytes} (h : ∀ c ∈ s, IsHex c) (acc : ℕ) :
    ∃ n, n < 16 ^ s.length ∧ hexNumber s acc = some (acc * 16 ^ s.length + n) := by
  induction s generalizing acc with
  | nil => exact ⟨0, by simp, by simp [hexNumber]⟩
  | cons a s ih =>
    obtain ⟨-, d, h2, h3⟩ | ⟨h1, -⟩ := fromHexChar_spec a
    · obtain ⟨n, hn, he⟩ := ih (fun c hc => h c (List.mem_cons_of_mem _ hc)) (acc * 16 + d.toNat)
      refine ⟨d.toNat * 16 ^ s.length + n, ?_, ?_⟩
      · rw [List.length_cons, pow_succ]
        have : (d.toNat + 1) * 16 ^ s.length ≤ 16 * 16 ^ s.length := Nat.mul_le_mul_right _ h3
        linarith
      · rw [hexNumber, h2]
        simp only
        rw [he, List.length_cons]
        congr 1; ring
    · exact absurd (h a List.mem_cons_self) h1

/-- The bytes of an even number of digits stand for the number of the digits. -/
theorem hexNumber_decode : ∀ (s : Bytes), s.length % 2 = 0 → (∀ c ∈ s, IsHex c) → ∀ acc : ℕ,
    hexNumber s acc = some (acc * 256 ^ (hexDecode s).length + setBytes (hexDecode s)) ∧
      2 * (hexDecode s).length = s.length
  | [], _, _, acc => by simp [hexNumber, hexDecode, setBytes]
  | [_], h, _, _ => by simp at h
  | a :: b :: s, hl, h, acc => by
    obtain ⟨-, x, ha, hx⟩ | ⟨h1, -⟩ := fromHexChar_spec a
    swap; · exact absurd (h a (by simp)) h1
    obtain ⟨-, y, hb, hy⟩ | ⟨h1, -⟩ := fromHexChar_spec b
    swap; · exact absurd (h b (by simp)) h1
    simp only [List.length_cons] at hl
    obtain ⟨i1, i2⟩ := hexNumber_decode s (by omega) (fun c hc => h c (by simp [hc]))
      ((acc * 16 + x.toNat) * 16 + y.toNat)
    rw [hexNumber, ha]
    simp only
    rw [hexNumber, hb]
    simp only
    rw [i1, hexDecode, ha, hb]
    simp only [List.length_cons]
    refine ⟨?_, by omega⟩
    rw [← List.singleton_append, setBytes_append]
    congr 1
    rw [show setBytes [(x <<< 4) ||| y] = ((x <<< 4) ||| y).toNat by simp [setBytes], pair_toNat hx hy]
    ring

theorem hexDecode_bad (a b : UInt8) (t : Bytes) (hab : ¬(IsHex a ∧ IsHex b)) :
    ∀ p : Bytes, p.length % 2 = 0 → hexDecode (p ++ a :: b :: t) = hexDecode p
  | [], _ => by
    rw [List.nil_append, hexDecode]
    rcases fromHexChar_spec a with ⟨h1, x, h2, -⟩ | ⟨h1, h2⟩ <;>
    rcases fromHexChar_spec b with ⟨h3, y, h4, -⟩ | ⟨h3, h4⟩ <;> rw [h2, h4]
    · exact absurd ⟨h1, h3⟩ hab
    all_goals rfl
  | [_], h => by simp at h
  | c :: d :: p, h => by
    simp only [List.length_cons] at h
    rw [List.cons_append, List.cons_append, hexDecode, hexDecode,
      hexDecode_bad a b t hab p (by omega)]

/-! ## Base 64 -/

theorem b64Value_char {n : UInt8} (h : n.toNat < 64) : b64Value (b64Char n) = some n := by
  have : ∀ n < 64, b64Value (b64Char (UInt8.ofNat n)) = some (UInt8.ofNat n) := by decide +kernel
  have := this _ h
  rwa [UInt8.ofNat_toNat] at this

theorem b64Char_ok (n : UInt8) : b64Char n ≠ 0x3d ∧ b64Char n ≠ 0x0a ∧ b64Char n ≠ 0x0d ∧
    (0x20 ≤ b64Char n && b64Char n ≤ 0x7e && b64Char n != 0x22 && b64Char n != 0x5c) = true := by
  by_cases h : n.toNat < 64
  · have : ∀ m < 64, b64Char (UInt8.ofNat m) ≠ 0x3d ∧ b64Char (UInt8.ofNat m) ≠ 0x0a ∧
      b64Char (UInt8.ofNat m) ≠ 0x0d ∧ (0x20 ≤ b64Char (UInt8.ofNat m) &&
      b64Char (UInt8.ofNat m) ≤ 0x7e && b64Char (UInt8.ofNat m) != 0x22 &&
      b64Char (UInt8.ofNat m) != 0x5c) = true := by decide +kernel
    have := this _ h
    rwa [UInt8.ofNat_toNat] at this
  · have h62 : n ≠ 62 := by rintro rfl; exact h (by decide)
    have e : b64Char n = 0x2f := by
      unfold b64Char
      have k : ∀ m : UInt8, m.toNat ≤ 64 → ¬n < m := by
        intro m hm hc
        have := UInt8.lt_iff_toNat_lt.1 hc
        omega
      rw [if_neg (k 26 (by decide)), if_neg (k 52 (by decide)), if_neg (k 62 (by decide)), if_neg h62]
    rw [e]; decide

theorem byte_and {k : ℕ} {p : UInt8 → UInt8 → Prop}
    (h : ∀ n < 256, ∀ m < k, p (UInt8.ofNat n) (UInt8.ofNat m)) (x : UInt8) {y : UInt8}
    (hy : y.toNat < k) : p x y := by
  have := h _ x.toNat_lt _ hy
  rwa [UInt8.ofNat_toNat, UInt8.ofNat_toNat] at this

theorem b64_w (a : UInt8) : (a >>> 2).toNat < 64 :=
  forall_byte (p := fun a => (a >>> 2).toNat < 64) (by decide +kernel) a

theorem b64_x1 (a : UInt8) : ((a &&& 3) <<< 4).toNat < 64 ∧
    ((a >>> 2) <<< 2) ||| (((a &&& 3) <<< 4) >>> 4) = a :=
  forall_byte (p := fun a => ((a &&& 3) <<< 4).toNat < 64 ∧
    ((a >>> 2) <<< 2) ||| (((a &&& 3) <<< 4) >>> 4) = a) (by decide +kernel) a

theorem b64_x (a b : UInt8) : (((a &&& 3) <<< 4) ||| (b >>> 4)).toNat < 64 ∧
    ((a >>> 2) <<< 2) ||| ((((a &&& 3) <<< 4) ||| (b >>> 4)) >>> 4) = a ∧
    (((a &&& 3) <<< 4) ||| (b >>> 4)) <<< 4 = (b >>> 4) <<< 4 :=
  byte_and (k := 16) (p := fun a u => (((a &&& 3) <<< 4) ||| u).toNat < 64 ∧
    ((a >>> 2) <<< 2) ||| ((((a &&& 3) <<< 4) ||| u) >>> 4) = a ∧
    (((a &&& 3) <<< 4) ||| u) <<< 4 = u <<< 4) (by decide +kernel) a
    (forall_byte (p := fun b => (b >>> 4).toNat < 16) (by decide +kernel) b)

theorem b64_y1 (b : UInt8) : ((b &&& 0xf) <<< 2).toNat < 64 ∧
    ((b >>> 4) <<< 4) ||| (((b &&& 0xf) <<< 2) >>> 2) = b :=
  forall_byte (p := fun b => ((b &&& 0xf) <<< 2).toNat < 64 ∧
    ((b >>> 4) <<< 4) ||| (((b &&& 0xf) <<< 2) >>> 2) = b) (by decide +kernel) b

theorem b64_y (b c : UInt8) : (((b &&& 0xf) <<< 2) ||| (c >>> 6)).toNat < 64 ∧
    ((b >>> 4) <<< 4) ||| ((((b &&& 0xf) <<< 2) ||| (c >>> 6)) >>> 2) = b ∧
    ((((b &&& 0xf) <<< 2) ||| (c >>> 6)) <<< 6) ||| (c &&& 0x3f) = c := by
  have h := byte_and (k := 4) (p := fun b u => (((b &&& 0xf) <<< 2) ||| u).toNat < 64 ∧
    ((b >>> 4) <<< 4) ||| ((((b &&& 0xf) <<< 2) ||| u) >>> 2) = b ∧
    (((b &&& 0xf) <<< 2) ||| u) <<< 6 = u <<< 6) (by decide +kernel) b
    (forall_byte (p := fun c => (c >>> 6).toNat < 4) (by decide +kernel) c)
  refine ⟨h.1, h.2.1, ?_⟩
  rw [h.2.2]
  exact forall_byte (p := fun c => ((c >>> 6) <<< 6) ||| (c &&& 0x3f) = c) (by decide +kernel) c

theorem b64_z (c : UInt8) : (c &&& 0x3f).toNat < 64 :=
  forall_byte (p := fun c => (c &&& 0x3f).toNat < 64) (by decide +kernel) c

theorem b64Groups_encode : ∀ b : Bytes, b64Groups (b64Encode b) = some b
  | [] => rfl
  | [a] => by
    rw [b64Encode, b64Groups, b64Value_char (b64_w a), b64Value_char (b64_x1 a).1]
    simp [(b64_x1 a).2]
  | [a, b] => by
    rw [b64Encode, b64Groups, b64Value_char (b64_w a), b64Value_char (b64_x a b).1]
    simp only
    rw [if_neg (b64Char_ok _).1, b64Value_char (b64_y1 b).1]
    simp [(b64_x a b).2.1, (b64_x a b).2.2, (b64_y1 b).2]
  | a :: b :: c :: s => by
    rw [b64Encode, b64Groups, b64Value_char (b64_w a), b64Value_char (b64_x a b).1]
    simp only
    rw [if_neg (b64Char_ok _).1, b64Value_char (b64_y b c).1]
    simp only
    rw [if_neg (b64Char_ok _).1, b64Value_char (b64_z c), b64Groups_encode s, (b64_x a b).2.1,
      (b64_x a b).2.2, (b64_y b c).2.1]
    simp only [Option.map_some]
    rw [(b64_y b c).2.2]

theorem b64Encode_mem : ∀ (b : Bytes), ∀ c ∈ b64Encode b, c = 0x3d ∨ ∃ n, c = b64Char n
  | [], c, h => by cases h
  | [a], c, h => by
    simp only [b64Encode, List.mem_cons, List.not_mem_nil, or_false] at h
    rcases h with h | h | h | h <;> first | exact .inl h | exact .inr ⟨_, h⟩
  | [a, b], c, h => by
    simp only [b64Encode, List.mem_cons, List.not_mem_nil, or_false] at h
    rcases h with h | h | h | h <;> first | exact .inl h | exact .inr ⟨_, h⟩
  | a :: b :: e :: s, c, h => by
    simp only [b64Encode, List.mem_cons] at h
    rcases h with h | h | h | h | h
    on_goal 5 => exact b64Encode_mem s c h
    all_goals exact .inr ⟨_, h⟩

theorem b64Encode_chars (b : Bytes) : ∀ c ∈ b64Encode b, c ≠ 0x0a ∧ c ≠ 0x0d ∧
    (0x20 ≤ c && c ≤ 0x7e && c != 0x22 && c != 0x5c) = true := by
  intro c hc
  rcases b64Encode_mem b c hc with rfl | ⟨n, rfl⟩
  · decide
  · exact (b64Char_ok n).2

theorem b64Decode_encode (b : Bytes) : b64Decode (b64Encode b) = some b := by
  rw [b64Decode, List.filter_eq_self.2, b64Groups_encode]
  intro c hc
  obtain ⟨h1, h2, -⟩ := b64Encode_chars b c hc
  simp [h1, h2]

theorem b64Encode_nil {b : Bytes} : b64Encode b = [] ↔ b = [] := by
  constructor
  · intro h
    have := b64Groups_encode b
    rw [h] at this
    simpa [b64Groups] using this.symm
  · rintro rfl; rfl

theorem b64Encode_length : ∀ b : Bytes, (b64Encode b).length = (b.length + 2) / 3 * 4
  | [] => rfl
  | [_] => by simp [b64Encode]
  | [_, _] => by simp [b64Encode]
  | a :: b :: c :: s => by
    simp only [b64Encode, List.length_cons, b64Encode_length s]
    omega

theorem literalOf_quote {s q : Bytes} (pre post : Bytes) (hp : ∀ c ∈ pre, c ≠ 0x22)
    (h : quote s = some q) : literalOf (pre ++ q ++ post) = some s := by
  unfold quote at h
  split_ifs at h with hs
  cases h
  rw [List.all_eq_true] at hs
  have hq : ∀ c ∈ s, c ≠ 0x22 := by
    intro c hc
    have := hs c hc
    simp only [Bool.and_eq_true, bne_iff_ne] at this
    exact this.1.2
  have hb : s.contains 0x5c = false := by
    rw [Bool.eq_false_iff]
    intro hc
    have := hs _ (List.mem_of_elem_eq_true hc)
    simp at this
  have e1 : (pre ++ (0x22 :: s ++ [0x22]) ++ post).dropWhile (fun c => c != 0x22) =
      0x22 :: (s ++ 0x22 :: post) := by
    rw [List.append_assoc, List.dropWhile_append_of_pos]
    · simp
    · intro c hc; simpa using hp c hc
  have e2 : (s ++ 0x22 :: post).takeWhile (fun c => c != 0x22) = s := by
    rw [List.takeWhile_append_of_pos]
    · simp
    · intro c hc; simpa using hq c hc
  unfold literalOf
  rw [e1]
  simp only [List.drop_one, List.tail_cons]
  rw [e2, hb]
  rfl

theorem quote_b64 (b : Bytes) : quote (b64Encode b) = some (0x22 :: b64Encode b ++ [0x22]) := by
  rw [quote, if_pos]
  rw [List.all_eq_true]
  exact fun c hc => (b64Encode_chars b c hc).2.2

end Zk.Text
