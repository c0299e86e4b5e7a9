import Verif.Text.Lemmas
import Verif.Field.Props
import Verif.Gen.Props

/-!
# Properties of the text forms and of the initialisation of the curve
-/

namespace Zk.Text

open Zk Zk.Field Zk.Curve Zk.Gen

/-! ### C146 -/

/-- The number a digit stands for, btcec/field.go:241; for 0-9, A-F and a-f. -/
def digitValue (c : UInt8) : ℕ :=
  if c ≤ 0x39 then c.toNat - 48 else if c ≤ 0x46 then c.toNat - 55 else c.toNat - 87

theorem fromHexChar_value {c : UInt8} (h : IsHex c) : ∃ d, fromHexChar c = some d ∧ d.toNat = digitValue c := by
  have h0 : ∀ n < 256, IsHex (UInt8.ofNat n) → (fromHexChar (UInt8.ofNat n)).isSome = true ∧
      ((fromHexChar (UInt8.ofNat n)).getD 0).toNat = digitValue (UInt8.ofNat n) := by decide +kernel
  obtain ⟨h1, h2⟩ := forall_byte (p := fun c => IsHex c → (fromHexChar c).isSome = true ∧
    ((fromHexChar c).getD 0).toNat = digitValue c) h0 c h
  obtain ⟨d, hd⟩ := Option.isSome_iff_exists.1 h1
  rw [hd] at h2
  exact ⟨d, hd, h2⟩

theorem hexNumber_value {s : Bytes} (h : ∀ c ∈ s, IsHex c) (acc : ℕ) :
    hexNumber s acc = some (acc * 16 ^ s.length + Nat.ofDigits 16 (s.reverse.map digitValue)) := by
  induction s generalizing acc with
  | nil => simp [hexNumber]
  | cons a s ih =>
    obtain ⟨d, hd, hv⟩ := fromHexChar_value (h a List.mem_cons_self)
    rw [hexNumber, hd]
    simp only
    rw [ih (fun c hc => h c (List.mem_cons_of_mem _ hc)), List.reverse_cons, List.map_append,
      Nat.ofDigits_append, List.length_map, List.length_reverse, List.map_singleton,
      Nat.ofDigits_singleton, hv, List.length_cons]
    congr 1; ring

theorem setString16_digits {s : Bytes} (h : ∀ c ∈ s, IsHex c) (hs : s ≠ []) :
    setString16 s = some ((Nat.ofDigits 16 (s.reverse.map digitValue) : ℕ) : Int) := by
  cases s with
  | nil => exact absurd rfl hs
  | cons a s =>
    have ha := h a List.mem_cons_self
    have h1 : a ≠ 0x2b ∧ a ≠ 0x2d := by
      constructor <;> (rintro rfl; exact absurd ha (by decide))
    unfold setString16
    simp only [h1.1, h1.2, or_self, if_false, hs, hexNumber_value h, List.head?_cons, Option.some.injEq,
      zero_mul, zero_add]

/-- `fromHex` reads a nonempty string of digits, after a sign or without one, as the number in base 16;
it panics for every other string. -/
theorem C146_fromHex (s : Bytes) :
    (s ≠ [] → (∀ c ∈ s, IsHex c) →
      fromHex s = .ok ((Nat.ofDigits 16 (s.reverse.map digitValue) : ℕ) : Int) ∧
      fromHex (0x2b :: s) = .ok ((Nat.ofDigits 16 (s.reverse.map digitValue) : ℕ) : Int) ∧
      fromHex (0x2d :: s) = .ok (-((Nat.ofDigits 16 (s.reverse.map digitValue) : ℕ) : Int))) ∧
    (fromHex s = .panic ↔ ¬∃ t : Bytes, t ≠ [] ∧ (∀ c ∈ t, IsHex c) ∧
      (s = t ∨ s = 0x2b :: t ∨ s = 0x2d :: t)) := by
  have key : ∀ t : Bytes, t ≠ [] → (∀ c ∈ t, IsHex c) →
      fromHex t = .ok ((Nat.ofDigits 16 (t.reverse.map digitValue) : ℕ) : Int) ∧
      fromHex (0x2b :: t) = .ok ((Nat.ofDigits 16 (t.reverse.map digitValue) : ℕ) : Int) ∧
      fromHex (0x2d :: t) = .ok (-((Nat.ofDigits 16 (t.reverse.map digitValue) : ℕ) : Int)) := by
    intro t ht h
    refine ⟨?_, ?_, ?_⟩
    · rw [fromHex, setString16_digits h ht]
    · simp [fromHex, setString16, ht, hexNumber_value h]
    · simp [fromHex, setString16, ht, hexNumber_value h]
  refine ⟨fun hs h => key s hs h, ⟨?_, ?_⟩⟩
  · rintro h ⟨t, ht, hh, rfl | rfl | rfl⟩
    · rw [(key _ ht hh).1] at h; cases h
    · rw [(key _ ht hh).2.1] at h; cases h
    · rw [(key _ ht hh).2.2] at h; cases h
  · intro h
    have bad : ∀ t : Bytes, (s = t ∨ s = 0x2b :: t ∨ s = 0x2d :: t) → t = [] ∨ ∃ c ∈ t, ¬IsHex c := by
      intro t ht
      by_contra hc
      push Not at hc
      exact h ⟨t, hc.1, hc.2, ht⟩
    suffices hn : setString16 s = none by rw [fromHex, hn]
    unfold setString16
    cases s with
    | nil => rfl
    | cons a s =>
      by_cases h1 : a = 0x2b ∨ a = 0x2d
      · simp only [h1, if_true]
        by_cases h2 : s = []
        · simp [h2]
        · rcases bad s (by rcases h1 with rfl | rfl <;> simp) with h3 | h3
          · exact absurd h3 h2
          · rw [if_neg h2, hexNumber_none h3]
      · simp only [h1, if_false]
        rcases bad (a :: s) (.inl rfl) with h3 | h3
        · cases h3
        · rw [if_neg (List.cons_ne_nil _ _), hexNumber_none h3]

/-- `SetHex` reads up to 64 digits as the number in base 16 and panics for more.  The comment in the
code says that only the first 32 bytes are used. -/
theorem C146_setHex (s : Bytes) (h : ∀ c ∈ s, IsHex c) :
    (s.length ≤ 64 → ∃ f, setHex s = .ok f ∧ Mag f 1 ∧
      val f = Nat.ofDigits 16 (s.reverse.map digitValue)) ∧
    (64 < s.length → setHex s = .panic) := by
  obtain ⟨t, ht, hev, hh, hlen, hval⟩ : ∃ t : Bytes, (if s.length % 2 ≠ 0 then 0x30 :: s else s) = t ∧
      t.length % 2 = 0 ∧ (∀ c ∈ t, IsHex c) ∧ t.length = (s.length + 1) / 2 * 2 ∧
      Nat.ofDigits 16 (t.reverse.map digitValue) = Nat.ofDigits 16 (s.reverse.map digitValue) := by
    by_cases hp : s.length % 2 ≠ 0
    · refine ⟨0x30 :: s, if_pos hp, by rw [List.length_cons]; omega, ?_, by rw [List.length_cons]; omega, ?_⟩
      · intro c hc
        rcases List.mem_cons.1 hc with rfl | hc
        · decide
        · exact h c hc
      · rw [List.reverse_cons, List.map_append, Nat.ofDigits_append]
        simp [digitValue]
    · exact ⟨s, if_neg hp, by omega, h, by omega, rfl⟩
  have hset : setHex s = setByteSlice (hexDecode t) := by unfold setHex; rw [ht]
  obtain ⟨h1, h2⟩ := hexNumber_decode t hev hh 0
  rw [hexNumber_value hh] at h1
  simp only [zero_mul, zero_add, Option.some.injEq] at h1
  rw [hset, ← hval]
  constructor
  · intro hs
    obtain ⟨f, e, c, v⟩ := setByteSlice_ok (b := hexDecode t) (by omega)
    exact ⟨f, e, c.mag, v.trans h1.symm⟩
  · intro hs
    exact setByteSlice_panic (by omega)

/-- `SetHex` does not report invalid text: from the first pair of characters on that is not a pair of
digits, the text is dropped.  Text of an odd length is read with a 0 in front. -/
theorem C146_invalid (p t : Bytes) (a b : UInt8) (hp : p.length % 2 = 0) (ht : t.length % 2 = 0)
    (hab : ¬(IsHex a ∧ IsHex b)) :
    setHex (p ++ a :: b :: t) = setHex p ∧ ∀ s : Bytes, s.length % 2 = 1 → setHex s = setHex (0x30 :: s) := by
  constructor
  · unfold setHex
    have e : (p ++ a :: b :: t).length % 2 = 0 := by
      simp only [List.length_append, List.length_cons]; omega
    simp only [e, hp, ne_eq, not_true_eq_false, if_false]
    rw [hexDecode_bad a b t hab p hp]
  · intro s hs
    unfold setHex
    have e : (0x30 :: s : Bytes).length % 2 = 0 := by rw [List.length_cons]; omega
    simp only [e, hs, ne_eq, one_ne_zero, not_false_eq_true, not_true_eq_false, if_true, if_false]

/-- `String` gives 64 lower-case digits, which `fromHex` reads as the value modulo p and `SetHex` as the
normalised value; so equal text means equal values. -/
theorem C146_string {f : FieldVal} {m : ℕ} (hf : Mag f m) (hm : m ≤ 63) :
    (fieldString f).length = 64 ∧
      (∀ c ∈ fieldString f, (0x30 ≤ c ∧ c ≤ 0x39) ∨ (0x61 ≤ c ∧ c ≤ 0x66)) ∧
      fromHex (fieldString f) = .ok ((val f % P : ℕ) : Int) ∧
      setHex (fieldString f) = .ok (normalize f) ∧
      ∀ {g : FieldVal} {k : ℕ}, Mag g k → k ≤ 63 →
        (fieldString f = fieldString g ↔ val f % P = val g % P) := by
  have len : ∀ f, (fieldString f).length = 64 := by
    intro f; rw [fieldString, hexEncode_length, Vector.length_toList]
  have low := hexEncode_lower (fieldBytes (normalize f)).toList
  have hx : ∀ c ∈ fieldString f, IsHex c := by
    intro c hc
    rcases low c hc with h | h
    · exact .inl h
    · exact .inr (.inl h)
  have key : ∀ {g : FieldVal} {k : ℕ}, Mag g k → k ≤ 63 → setHex (fieldString g) = .ok (normalize g) := by
    intro g k hg hk
    have h : R g k (fz g) := ⟨hg, rfl⟩
    have hn := h.normalize hk
    obtain ⟨f', e, c, v⟩ := setByteSlice_ok (b := (fieldBytes (normalize g)).toList) (by simp)
    rw [← beVal_eq, fieldBytes_val hn.canon] at v
    rw [setHex, len]
    simp only [Nat.reduceMod, ne_eq, not_true_eq_false, if_false]
    rw [fieldString, hexDecode_encode, e, c.val_inj hn.canon v]
  have hv : ∀ {g : FieldVal} {k : ℕ}, Mag g k → k ≤ 63 → val (normalize g) = val g % P := by
    intro g k hg hk
    have h : R g k (fz g) := ⟨hg, rfl⟩
    rw [(h.normalize hk).fval, fz, ZMod.val_natCast]
  refine ⟨len f, low, ?_, key hf hm, ?_⟩
  · have hne : fieldString f ≠ [] := by
      intro h0; have := len f; rw [h0] at this; cases this
    rw [((C146_fromHex _).1 hne hx).1]
    obtain ⟨f', e, -, v⟩ := (C146_setHex _ hx).1 (len f).le
    rw [key hf hm] at e
    injection e with e
    rw [← v, ← e, hv hf hm]
  · intro g k hg hk
    constructor
    · intro h
      have h1 := key hf hm
      rw [h, key hg hk] at h1
      injection h1 with h1
      rw [← hv hf hm, ← hv hg hk, h1]
    · intro h
      have : normalize f = normalize g := by
        have h1 : R f m (fz f) := ⟨hf, rfl⟩
        have h2 : R g k (fz g) := ⟨hg, rfl⟩
        exact (h1.normalize hm).canon.val_inj (h2.normalize hk).canon (by rw [hv hf hm, hv hg hk, h])
      rw [fieldString, fieldString, this]

/-- Words that are not normalised, digits in both cases and of an odd number, more than 64 digits, and
text with a pair that is not one of digits. -/
example : Mag big8 8 ∧ (∀ c ∈ ascii "0abCd", IsHex c) ∧ setHex (ascii "0abCd") = .ok (setInt 0xabcd) ∧
    setHex (ascii "0x0abc") = .ok zero ∧ setHex (List.replicate 65 0x31) = .panic ∧
    fromHex (ascii "-1F") = .ok (-31) ∧ fromHex (ascii "0x1F") = .panic ∧
    fieldString (setInt 0xabcd) = List.replicate 60 0x30 ++ ascii "abcd" := by
  refine ⟨big8_mag, ?_⟩
  decide +kernel

/-! ### C147 -/

/-- What `initS256` does: it panics exactly when one of the two strings does not load, and otherwise sets
the constants, whatever the strings. -/
theorem C147_init (z : Zlib) (bp bpH : Bytes) :
    (initS256 z bp bpH = .panic ↔ (∀ t, loadS256BytePoints z bp ≠ .ok (.ok t)) ∨
      ∀ t, loadS256BytePoints z bpH ≠ .ok (.ok t)) ∧
    ∀ p, initS256 z bp bpH = .ok p →
      loadS256BytePoints z bp = .ok (.ok p.bytePoints) ∧
      loadS256BytePoints z bpH = .ok (.ok p.bytePointsH) ∧
      p.P = (curveP : ℕ) ∧ p.N = (curveN : ℕ) ∧ p.B = 7 ∧ p.Gx = (curveGx : ℕ) ∧ p.Gy = (curveGy : ℕ) ∧
      4 * p.q = p.P + 1 ∧ 2 * p.halfOrder + 1 = p.N ∧ p.bitSize = 8 * p.byteSize ∧ p.cofactor = 1 ∧
      p.byteSize = byteSize ∧ p.lambda = (curveLambda : ℕ) ∧ beta = .ok p.beta ∧
      p.a1 = curveA1 ∧ p.b1 = curveB1 ∧ p.a2 = curveA2 ∧ p.b2 = curveB2 := by
  have c1 : fromHex (ascii "FFFFFFFFFFFFFFFFFFFFFFFFFFFFFFFFFFFFFFFFFFFFFFFFFFFFFFFEFFFFFC2F") =
      .ok (curveP : ℕ) := by decide +kernel
  have c2 : fromHex (ascii "FFFFFFFFFFFFFFFFFFFFFFFFFFFFFFFEBAAEDCE6AF48A03BBFD25E8CD0364141") =
      .ok (curveN : ℕ) := by decide +kernel
  have c3 : fromHex (ascii "0000000000000000000000000000000000000000000000000000000000000007") =
      .ok 7 := by decide +kernel
  have c4 : fromHex (ascii "79BE667EF9DCBBAC55A06295CE870B07029BFCDB2DCE28D959F2815B16F81798") =
      .ok (curveGx : ℕ) := by decide +kernel
  have c5 : fromHex (ascii "483ADA7726A3C4655DA4FBFC0E1108A8FD17B448A68554199C47D08FFB10D4B8") =
      .ok (curveGy : ℕ) := by decide +kernel
  have c6 : fromHex (ascii "5363AD4CC05C30E0A5261C028812645A122E22EA20816678DF02967C1B23BD72") =
      .ok (curveLambda : ℕ) := by decide +kernel
  have c7 : setHex (ascii "7AE96A2B657C07106E64479EAC3434E99CF0497512F58995C1396C28719501EE") =
      beta := by decide +kernel
  have c8 : fromHex (ascii "3086D221A7D46BCDE86C90E49284EB15") = .ok curveA1 := by decide +kernel
  have c9 : fromHex (ascii "-E4437ED6010E88286F547FA90ABFE4C3") = .ok curveB1 := by decide +kernel
  have c10 : fromHex (ascii "114CA50F7A8E2F3F657C1108D9D44CFD8") = .ok curveA2 := by decide +kernel
  have c11 : curveA1 = curveB2 := rfl
  obtain ⟨bt, hbt⟩ : ∃ f, beta = .ok f := ⟨_, rfl⟩
  have hq : 4 * ((((curveP : ℕ) : Int) + 1) / 4) = (curveP : ℕ) + 1 := by decide +kernel
  have hh : 2 * (((curveN : ℕ) : Int) / 2) + 1 = (curveN : ℕ) := by decide +kernel
  unfold initS256
  simp only [c1, c2, c3, c4, c5, c6, c7, c8, c9, c10, hbt, Go.bind_ok]
  rcases h1 : loadS256BytePoints z bp with (e1 | t1) | _
  · simp [orPanic]
  · rcases h2 : loadS256BytePoints z bpH with (e2 | t2) | _
    · simp [orPanic]
    · simp only [orPanic, Go.bind_ok, Go.pure_eq, reduceCtorEq, false_iff, not_or, not_forall, not_not]
      refine ⟨⟨⟨t1, rfl⟩, ⟨t2, rfl⟩⟩, ?_⟩
      rintro p hp
      injection hp with hp
      subst hp
      exact ⟨rfl, rfl, rfl, rfl, rfl, rfl, rfl, hq, hh, rfl, rfl, rfl, rfl, rfl, rfl, rfl, rfl, c11⟩
    · simp [orPanic]
  · simp [orPanic]

/-- `loadS256BytePoints`: the empty string leaves the table nil, so that the generator can run; the
encoding of any compressed table loads as the table. -/
theorem C147_load (z : Zlib) (hz : ∀ b, z.inflate (z.deflate b) = some b) (h0 : z.inflate [] = none)
    (s : Bytes) :
    loadS256BytePoints z [] = .ok (.ok none) ∧
      loadS256BytePoints z (b64Encode (z.deflate s)) =
        (loadBytePoints s >>= fun t => Go.ok (Except.ok (some t))) ∧
      b64Decode (b64Encode s) = some s ∧ (b64Encode s).length = (s.length + 2) / 3 * 4 := by
  refine ⟨rfl, ?_, b64Decode_encode s, b64Encode_length s⟩
  have hne : b64Encode (z.deflate s) ≠ [] := by
    rw [ne_eq, b64Encode_nil]
    intro h
    have := hz s
    rw [h, h0] at this
    cases this
  rw [loadS256BytePoints, if_neg (by rwa [List.length_eq_zero_iff]), b64Decode_encode]
  simp only
  rw [hz]
  rfl

theorem genFile_literal (z : Zlib) (name s : Bytes) (hn : ∀ c ∈ name, c ≠ 0x22) :
    ∃ f, genFile z name s = some f ∧ literalOf f = some (b64Encode (z.deflate s)) ∧
      f = fileHeader ++ ascii "var " ++ name ++ ascii " = " ++
        (0x22 :: b64Encode (z.deflate s) ++ [0x22]) ++ ascii "\n" := by
  have h := quote_b64 (z.deflate s)
  refine ⟨fileHeader ++ ascii "var " ++ name ++ ascii " = " ++ (0x22 :: b64Encode (z.deflate s) ++ [0x22]) ++
    ascii "\n", by rw [genFile, h]; rfl, ?_, rfl⟩
  refine literalOf_quote _ _ ?_ h
  have h1 : ∀ c ∈ fileHeader ++ ascii "var ", c ≠ 0x22 := by decide +kernel
  have h2 : ∀ c ∈ ascii " = ", c ≠ 0x22 := by decide +kernel
  intro c hc
  rcases List.mem_append.1 hc with hc | hc
  · rcases List.mem_append.1 hc with hc | hc
    · exact h1 c hc
    · exact hn c hc
  · exact h2 c hc

/-- The text before the name of the variable in the committed files, btcec/secp256k1.go:1-10 and
btcec/secp256k1H.go:1-10. -/
def committedHead : String :=
  "// Copyright (c) 2015 The btcsuite developers
// Use of this source code is governed by an ISC
// license that can be found in the LICENSE file.

package btcec

// Auto-generated file (see genprecomps.go)
// DO NOT EDIT

var "

/-- The generator writes two files, and a program with their strings initialises the curve with the
committed tables, word for word.  So running the generator again changes no table.  The text around
the strings is that of the committed files. -/
theorem C147_generated (z : Zlib) (hz : ∀ b, z.inflate (z.deflate b) = some b)
    (h0 : z.inflate [] = none) :
    ∃ f fH s sH p tab tabH, genMain z = .ok (some (f, fH)) ∧ literalOf f = some s ∧
      literalOf fH = some sH ∧
      f = ascii (committedHead ++ "secp256k1BytePoints = \"") ++ s ++ ascii "\"\n" ∧
      fH = ascii (committedHead ++ "secp256k1BytePointsH = \"") ++ sH ++ ascii "\"\n" ∧
      initS256 z s sH = .ok p ∧ p.bytePoints = some tab ∧ p.bytePointsH = some tabH ∧
      ∀ c, c < 32 → ∀ i : UInt8, tab c i = tabPoint rowsG c i ∧ tabH c i = tabPoint rowsH c i := by
  obtain ⟨b, tab, hb, ht, he⟩ := C114_first
  obtain ⟨bH, tabH, hbH, htH, heH⟩ := C114_second
  obtain ⟨f, hf, hl, hw⟩ := genFile_literal z (ascii "secp256k1BytePoints") b (by decide +kernel)
  obtain ⟨fH, hfH, hlH, hwH⟩ := genFile_literal z (ascii "secp256k1BytePointsH") bH (by decide +kernel)
  have l1 := (C147_load z hz h0 b).2.1
  have l2 := (C147_load z hz h0 bH).2.1
  rw [ht, Go.bind_ok] at l1
  rw [htH, Go.bind_ok] at l2
  obtain ⟨i1, i2⟩ := C147_init z (b64Encode (z.deflate b)) (b64Encode (z.deflate bH))
  rcases hi : initS256 z (b64Encode (z.deflate b)) (b64Encode (z.deflate bH)) with p | _
  · obtain ⟨e1, e2, -⟩ := i2 p hi
    rw [l1] at e1
    rw [l2] at e2
    injection e1 with e1
    injection e1 with e1
    injection e2 with e2
    injection e2 with e2
    have t1 : fileHeader ++ ascii "var " ++ ascii "secp256k1BytePoints" ++ ascii " = " ++ [0x22] =
        ascii (committedHead ++ "secp256k1BytePoints = \"") := by decide +kernel
    have t2 : fileHeader ++ ascii "var " ++ ascii "secp256k1BytePointsH" ++ ascii " = " ++ [0x22] =
        ascii (committedHead ++ "secp256k1BytePointsH = \"") := by decide +kernel
    have t3 : ([0x22] : Bytes) ++ ascii "\n" = ascii "\"\n" := by decide +kernel
    refine ⟨f, fH, _, _, p, tab, tabH, ?_, hl, hlH, ?_, ?_, hi, e1.symm, e2.symm,
      fun c hc i => ⟨he c hc i, heH c hc i⟩⟩
    · rw [genMain, hb, hbH]
      simp only [Go.bind_ok, hf, hfH]
      rfl
    · rw [hw, ← t1, ← t3]
      simp only [List.append_assoc, List.cons_append, List.nil_append]
    · rw [hwH, ← t2, ← t3]
      simp only [List.append_assoc, List.cons_append, List.nil_append]
  · rcases i1.1 hi with h | h
    · exact absurd l1 (h _)
    · exact absurd l2 (h _)

/-- A codec that meets the hypotheses, a short text of each kind, and a string that does not load. -/
example : (∃ z : Zlib, (∀ b, z.inflate (z.deflate b) = some b) ∧ z.inflate [] = none ∧
      initS256 z (ascii "AA=") [] = .panic ∧ initS256 z [] [] ≠ .panic) ∧
    b64Encode (ascii "zksigma") = ascii "emtzaWdtYQ==" ∧ b64Decode (ascii "emtz\naWdt\nYQ==\n") =
      some (ascii "zksigma") ∧ b64Decode (ascii "emtzaWd") = none ∧
    quote (ascii "a\"b") = none := by
  refine ⟨⟨⟨fun b => 0x78 :: b, fun s => s.tail?⟩, fun b => rfl, rfl, ?_, ?_⟩, ?_⟩
  · rw [(C147_init _ _ _).1]
    left
    intro t h
    have : b64Decode (ascii "AA=") = none := by decide +kernel
    rw [loadS256BytePoints, if_neg (by decide +kernel), this] at h
    cases h
  · rw [ne_eq, (C147_init _ _ _).1]
    rintro (h | h) <;> exact h none rfl
  · decide +kernel

end Zk.Text
