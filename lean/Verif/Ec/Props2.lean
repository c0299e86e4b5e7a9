import Verif.Ec.Example

/-!
# Further properties of keys, signatures and encryption

Most of these turn out to be false of the code; then the theorem with the suffix `_refuted` gives a
witness and the one with the suffix `_partial` says what does hold.
-/

namespace Zk.Ec

open Zk Zk.Field Zk.Curve

/-! ### C89 -/

/-- `ParsePubKey` of 0x02 and the SHA-256 hash of the x coordinate of the base point plus 2, as in
btcec/gensecp256k1.go:48-75, is the base of the second table. -/
theorem C89_hashToPoint : ∃ q, parsePubKey ([0x02] ++ sha256 (natBytes (curveGx + 2))) = .ok (.ok q) ∧
    scalarBaseMult (tabPoint rowsH) [1] = .ok (q.X, q.Y) ∧
    ∀ k : Bytes, scalarBaseMult (tabPoint rowsH) k = scalarMult q.X q.Y k := by
  refine ⟨⟨(hbX : ℕ), (hbY : ℕ)⟩, by decide +kernel, ?_, fun k => ?_⟩
  · rw [scalarBaseMult_H, show setBytes [1] = 1 from rfl, one_nsmul, enc_Hb]
  · have := scalarMult_enc Hb k
    rw [enc_Hb] at this
    rw [scalarBaseMult_H]
    exact this.symm

/-- The two bases differ. -/
example : (⟨(hbX : ℕ), (hbY : ℕ)⟩ : PubKey) ≠ ⟨curveGx, curveGy⟩ := by decide +kernel

/-! ### C90 -/

/-- An accepted string is one of the three serializations of the key, or the uncompressed one with
the first byte 5.  C90 asks that the last case not occur. -/
theorem C90_canonical_partial (s : Bytes) (q : PubKey) (h : parsePubKey s = .ok (.ok q)) :
    s = serializeUncompressed q ∨ s = serializeCompressed q ∨ s = serializeHybrid q ∨
      ∃ t, serializeUncompressed q = 0x4 :: t ∧ s = 0x5 :: t := by
  obtain ⟨-, -, -, h | h | h | h⟩ := parse_ok h
  · exact .inl h
  · exact .inr (.inr (.inr h))
  · exact .inr (.inl h)
  · exact .inr (.inr (.inl h))

/-- C90 is false: the first byte 5 is accepted. -/
theorem C90_refuted : ∃ s q, parsePubKey s = .ok (.ok q) ∧ s ≠ serializeUncompressed q ∧
    s ≠ serializeCompressed q ∧ s ≠ serializeHybrid q :=
  ⟨[0x5] ++ be32 curveGx ++ be32 curveGy, ⟨curveGx, curveGy⟩, by decide +kernel, by decide +kernel,
    by decide +kernel, by decide +kernel⟩

/-! ### C91, C92, C104, C107: recovery -/

/-- `RecoverCompact` panics exactly if R is 0 and the header names one of the four candidates, or R
is N and it names one of the first two.  C91 asks that it never panic. -/
theorem C91_panics_partial (s hash : Bytes) : recoverCompact s hash = .panic ↔
    ∃ (b0 : UInt8) (rb sb : Bytes), s = [b0] ++ rb ++ sb ∧ rb.length = 32 ∧ sb.length = 32 ∧
      ((setBytes rb = 0 ∧ ((b0 - 27) &&& 0xfb).toNat < 4) ∨
        (setBytes rb = curveN ∧ ((b0 - 27) &&& 0xfb).toNat < 2)) := by
  have key : ∀ (b0 : UInt8) (rb sb : Bytes), rb.length = 32 → sb.length = 32 →
      (recoverCompact ([b0] ++ rb ++ sb) hash = .panic ↔
      ((setBytes rb = 0 ∧ ((b0 - 27) &&& 0xfb).toNat < 4) ∨
        (setBytes rb = curveN ∧ ((b0 - 27) &&& 0xfb).toNat < 2))) := by
    intro b0 rb sb hr hs
    rw [compact_panic_iff hr hs, recover_panic_iff _ _ _ (Int.natCast_nonneg _)]
    have hlt : setBytes rb < 2 ^ 256 := by
      have := setBytes_lt rb
      rwa [hr] at this
    dsimp only
    rw [dvd_256 hlt]
    generalize setBytes rb = r at *
    generalize ((b0 - 27) &&& 0xfb).toNat = i
    have h1 : 2 * curveN > curveP := by decide
    have h2 : curveN < curveP := by decide
    have e : ((curveN : Int) * (i / 2 : ℕ) + r < curveP) ↔ curveN * (i / 2) + r < curveP := by
      exact_mod_cast Iff.rfl
    rw [e]
    have hi : i / 2 = 0 ∨ i / 2 = 1 ∨ 2 ≤ i / 2 := by omega
    have h3 : (2 ≤ i / 2) → curveP < curveN * (i / 2) := fun h => by
      have := Nat.mul_le_mul_left curveN h
      omega
    rcases hi with hi | hi | hi
    · rw [hi]
      omega
    · rw [hi]
      omega
    · have := h3 hi
      generalize curveN * (i / 2) = z at *
      omega
  constructor
  · intro h
    by_cases hl : s.length = 65
    · obtain ⟨b0, rb, sb, rfl, hr, hs⟩ := compact_parts hl
      exact ⟨b0, rb, sb, rfl, hr, hs, (key b0 rb sb hr hs).1 h⟩
    · rw [compact_short hl] at h
      cases h
  · rintro ⟨b0, rb, sb, rfl, hr, hs, h⟩
    exact (key b0 rb sb hr hs).2 h

/-- C91 is false. -/
theorem C91_refuted : ∃ s : Bytes, ∀ hash, recoverCompact s hash = .panic :=
  ⟨[27] ++ List.replicate 32 0 ++ List.replicate 32 0, fun _ => (C91_panics_partial _ _).2
    ⟨27, _, _, rfl, rfl, rfl, .inl ⟨by decide, by decide⟩⟩⟩

/-- Header bytes other than 27, …, 34 are never accepted. -/
theorem C107_header (s hash : Bytes) (q : PubKey) (c : Bool)
    (h : recoverCompact s hash = .ok (.ok (q, c))) :
    ∃ b0 t, s = b0 :: t ∧ 27 ≤ b0 ∧ b0 ≤ 34 ∧ (c = true ↔ 31 ≤ b0) := by
  by_cases hl : s.length = 65
  · obtain ⟨b0, rb, sb, rfl, hr, hs⟩ := compact_parts hl
    obtain ⟨h1, rfl⟩ := compact_ok hr hs h
    refine ⟨b0, rb ++ sb, rfl, ?_⟩
    have hi : ((b0 - 27) &&& 0xfb).toNat < 4 := by
      by_contra hi
      rcases recover_eq (sig := ⟨setBytes rb, setBytes sb⟩) hash ((b0 - 27) &&& 0xfb).toNat false
        (Int.natCast_nonneg _) with ⟨-, h2⟩ | ⟨x, y, hx, hxP, -, -, -⟩
      · rw [h1] at h2
        cases h2
      · generalize ((b0 - 27) &&& 0xfb).toNat = i at *
        dsimp only at hx
        have h3 : 2 ≤ i / 2 := by omega
        have h4 := Nat.mul_le_mul_left curveN h3
        have h5 : curveN * 2 > P := by decide
        have h6 : ((curveN * (i / 2) : ℕ) : Int) ≤ x := by
          rw [hx]; push_cast; omega
        omega
    clear h h1 hl
    have key : ∀ i : Fin 256, ((UInt8.ofNat i.val - 27) &&& 0xfb).toNat < 4 →
        27 ≤ UInt8.ofNat i.val ∧ UInt8.ofNat i.val ≤ 34 ∧
          (decide ((UInt8.ofNat i.val - 27) &&& 4 = 4) = true ↔ 31 ≤ UInt8.ofNat i.val) := by decide +kernel
    have := key ⟨b0.toNat, b0.toNat_lt⟩
    rw [UInt8.ofNat_toNat] at this
    exact this hi
  · rw [compact_short hl] at h
    cases h

/-- The header bytes 27 and 34 are both used. -/
example : ((27 - 27 : UInt8) &&& 0xfb).toNat = 0 ∧ ((34 - 27 : UInt8) &&& 0xfb).toNat = 3 := by decide

/-- If the x coordinate that R stands for is that of a curve point, the recovered key is on the
curve or (0, 0).  C92 asks that it always be on the curve. -/
theorem C92_on_curve_partial (b0 : UInt8) (rb sb hash : Bytes) (hr : rb.length = 32)
    (hs : sb.length = 32) (q : PubKey) (c : Bool)
    (h : recoverCompact ([b0] ++ rb ++ sb) hash = .ok (.ok (q, c)))
    (y : ℕ)
    (hy : y ^ 2 % P = ((curveN * (((b0 - 27) &&& 0xfb).toNat / 2) + setBytes rb) ^ 3 + 7) % P) :
    isOnCurve q.X q.Y = .ok true ∨ q = ⟨0, 0⟩ := by
  obtain ⟨h1, -⟩ := compact_ok hr hs h
  obtain ⟨K, Q, rfl, -⟩ := recover_point (Int.natCast_nonneg _) h1
    (by rw [show ((setBytes rb : ℕ) : Int).toNat = setBytes rb from rfl]; exact hy)
  by_cases hQ : Q = 0
  · rw [hQ]; exact .inr rfl
  · exact .inl (isOnCurve_enc Q hQ)


theorem off_curve_compact : recoverCompact ([27] ++ be32 5 ++
      be32 0x5f0d9d803e330b9cc64173f357a40a3b1a770b3abc0a401b2497ccad18b9cf48) [] =
    .ok (.ok (⟨0x668f12d8fb6c235227f566195d05089010b16f495ecbafecc61f1ccc37e91148,
      0xcaf51c4b7fb852532115b60475f4d7656b08d97fef87bf7545869cdf585e4575⟩, false)) := by
  rw [recoverCompact_eq (be32_length (by decide)) (be32_length (by decide)), setBytes_be32,
    setBytes_be32]
  have h : recoverKeyFromSignature ⟨(5 : ℕ),
      (0x5f0d9d803e330b9cc64173f357a40a3b1a770b3abc0a401b2497ccad18b9cf48 : ℕ)⟩ []
      ((27 - 27 : UInt8) &&& 0xfb).toNat false =
      recoverQ ⟨5, 0x5f0d9d803e330b9cc64173f357a40a3b1a770b3abc0a401b2497ccad18b9cf48⟩ [] 5
        0x350ae3b48047adacdeea49fb8a0b289a94f726801078408aba79631fa7a1b6ba := by
    have hd : decompressPoint 5 false =
        .ok 0x350ae3b48047adacdeea49fb8a0b289a94f726801078408aba79631fa7a1b6ba := by decide +kernel
    have e : ((curveN : Int) * ((0 / 2 : ℕ) : Int) + (5 : ℕ)) = 5 := by decide
    exact recover_unfold e (by decide) hd
  rw [h, off_curve]
  rfl

/-- C92 is false: a key that is neither on the curve nor (0, 0) is returned without an error. -/
theorem C92_refuted : ∃ s hash q c, recoverCompact s hash = .ok (.ok (q, c)) ∧
    isOnCurve q.X q.Y = .ok false :=
  ⟨_, _, _, _, off_curve_compact, by decide +kernel⟩

/-- A recovered key verifies the signature if R and S are in range and the x coordinate that R
stands for is that of a curve point.  C104 asks for this without the conditions. -/
theorem C104_verifies_partial (b0 : UInt8) (rb sb hash : Bytes) (hr : rb.length = 32)
    (hs : sb.length = 32) (q : PubKey) (c : Bool)
    (h : recoverCompact ([b0] ++ rb ++ sb) hash = .ok (.ok (q, c)))
    (hR : setBytes rb < curveN) (hS1 : 1 ≤ setBytes sb) (hS2 : setBytes sb < curveN)
    (y : ℕ)
    (hy : y ^ 2 % P = ((curveN * (((b0 - 27) &&& 0xfb).toNat / 2) + setBytes rb) ^ 3 + 7) % P) :
    verify ⟨setBytes rb, setBytes sb⟩ hash q = .ok true := by
  obtain ⟨h1, -⟩ := compact_ok hr hs h
  obtain ⟨K, Q, rfl, hK, hx, hQ, hd⟩ := recover_point (Int.natCast_nonneg _) h1
    (by rw [show ((setBytes rb : ℕ) : Int).toNat = setBytes rb from rfl]; exact hy)
  dsimp only at hx hQ hd
  have hR1 : 1 ≤ setBytes rb := by
    rcases Nat.eq_zero_or_pos (setBytes rb) with h0 | h0
    · rw [h0] at hd
      exact absurd (dvd_zero _) hd
    · exact h0
  rw [verify_iff]
  dsimp only
  refine ⟨by exact_mod_cast hR1, by exact_mod_cast hR, by exact_mod_cast hS1, by exact_mod_cast hS2,
    K, hK, ?_, ?_⟩
  · rw [hQ, ← hashToInt_eq]; abel
  · rw [hx, Int.mul_add_emod_self_left]
    exact Int.emod_eq_of_lt (Int.natCast_nonneg _) (by exact_mod_cast hR)

/-- C104 is false: a key is recovered from a signature that no key verifies. -/
theorem C104_refuted : ∃ (rb sb hash : Bytes) (q : PubKey) (c : Bool),
    recoverCompact ([27] ++ rb ++ sb) hash = .ok (.ok (q, c)) ∧
      ∀ A : E, verify ⟨setBytes rb, setBytes sb⟩ hash (pk A) = .ok false := by
  have hr : (be32 curveGx).length = 32 := be32_length (by decide)
  have hs : (be32 0).length = 32 := be32_length (by decide)
  have hc : (curveGy : F) ^ 2 = (curveGx : F) ^ 3 + 7 := on_curve (by decide +kernel)
  obtain ⟨Q, hQ, -⟩ := recover_on (sig := ⟨curveGx, 0⟩) [] 0 false hc
    (by decide +kernel) (by decide)
    (by rw [ZMod.val_natCast, Nat.mod_eq_of_lt (by decide)]; decide)
    (by rw [ZMod.val_natCast, Nat.mod_eq_of_lt (show curveGy < P by decide)]; decide)
  refine ⟨be32 curveGx, be32 0, [], pk Q, false, ?_, fun A => ?_⟩
  · rw [recoverCompact_eq hr hs, setBytes_be32, setBytes_be32,
      show ((27 - 27 : UInt8) &&& 0xfb).toNat = 0 from rfl]
    have : recoverKeyFromSignature ⟨(curveGx : ℕ), (0 : ℕ)⟩ [] 0 false = .ok (.ok (pk Q)) := hQ
    rw [this]
    rfl
  · rw [setBytes_be32, setBytes_be32]
    refine verify_range _ _ _ fun h => ?_
    have := h.2.2.1
    exact absurd this (by decide)

/-! ### C93 -/

/-- The strings that `ParseDERSignature` reads as one signature all start with the shortest of them,
which is the output of `Serialize` if S is at most N/2.  C93 asks that nothing follow it and that
it always be the output of `Serialize`. -/
theorem C93_canonical_partial (s : Bytes) (sig : Sig) (h : parseSig true s = .ok (.ok sig)) :
    ∃ c, parseSig true c = .ok (.ok sig) ∧
      (∀ s', parseSig true s' = .ok (.ok sig) → ∃ tail, s' = c ++ tail) ∧
      (2 * sig.S < curveN → c = sigSerialize sig) := by
  obtain ⟨h1, h2, h3, h4⟩ := C78_range true s sig h
  refine ⟨layout (canonicalizeInt sig.R) (canonicalizeInt sig.S), ?_, fun s' h' => der_shape h',
    fun hl => ?_⟩
  · have hr := canon_length33 (v := sig.R) (by have : curveN < 2 ^ 256 := by decide
                                               omega)
    have hs := canon_length33 (v := sig.S) (by have : curveN < 2 ^ 256 := by decide
                                               omega)
    rw [← List.append_nil (layout _ _), parseSig_layout true _ _ _ (canon_length _).1
      (canon_length _).1 (by omega), fields_canon true h1 h2 h3 h4]
  · rw [serialize_layout, if_neg (by have := half_eq; omega)]

/-- C93 is false: bytes may follow. -/
theorem C93_refuted : ∃ s sig, parseSig true s = .ok (.ok sig) ∧ s ≠ sigSerialize sig :=
  ⟨[0x30, 6, 2, 1, 1, 2, 1, 1, 0], ⟨1, 1⟩, by decide +kernel, by decide +kernel⟩

/-! ### C94, C95, C106: verification -/

/-- Two signatures that verify. -/
theorem C94_other (sig : Sig) (hash : Bytes) (A : E) (h : verify sig hash (pk A) = .ok true) :
    verify ⟨sig.R, curveN - sig.S⟩ hash (pk A) = .ok true ∧ (curveN : Int) - sig.S ≠ sig.S := by
  rw [verify_iff] at h
  obtain ⟨h1, h2, h3, h4, K, hK, hS, hx⟩ := h
  refine ⟨?_, by have := half_eq; omega⟩
  rw [verify_iff]
  refine ⟨h1, h2, by dsimp only; omega, by dsimp only; omega, -K, neg_ne_zero.2 hK, ?_, ?_⟩
  · rw [← hS]
    have := zsmul_of_dvd (a := (curveN : Int) - sig.S) (b := -sig.S) ⟨1, by ring⟩ (-K)
    rw [this, neg_zsmul, zsmul_neg, neg_neg]
  · have := enc_sign (.inr rfl : (-1 : Int) = 1 ∨ (-1 : Int) = -1) K
    rw [neg_zsmul, one_zsmul] at this
    rw [this]
    exact hx

/-- C94 is false: of every valid signature there is a second one. -/
theorem C94_refuted : ∃ (sig sig' : Sig) (hash : Bytes) (q : PubKey), sig ≠ sig' ∧
    isOnCurve q.X q.Y = .ok true ∧
    verify sig hash q = .ok true ∧ verify sig' hash q = .ok true := by
  obtain ⟨sig, hash, h⟩ : ∃ sig hash, verify sig hash (pk G) = .ok true := ⟨_, _, simple_valid⟩
  obtain ⟨h1, h2⟩ := C94_other sig hash G h
  exact ⟨sig, _, hash, pk G, fun he => h2 (congrArg Sig.S he).symm, isOnCurve_enc G G_ne, h, h1⟩

/-- `Serialize` does not distinguish the two.  C94 asks that there be only one. -/
theorem C94_serialize_partial (r s : Int) :
    sigSerialize ⟨r, s⟩ = sigSerialize ⟨r, curveN - s⟩ := by
  rw [serialize_layout, serialize_layout]
  dsimp only
  have := half_eq
  by_cases h : s > halfOrder
  · rw [if_pos h, if_neg (by omega)]
  · rw [if_neg h, if_pos (by omega), sub_sub_cancel]

/-- A signature that verifies, for the hypothesis of `C94_other`. -/
example : verify ⟨curveGx, curveGx⟩ [] (pk G) = .ok true := simple_valid

/-- `Verify` decides the equation of the scheme, for every point. -/
theorem C95_verify_iff (sig : Sig) (hash : Bytes) (A : E) :
    verify sig hash (pk A) = .ok true ↔
      1 ≤ sig.R ∧ sig.R < curveN ∧ 1 ≤ sig.S ∧ sig.S < curveN ∧
      ∃ K : E, K ≠ 0 ∧ sig.S • K = setBytes (hash.take 32) • G + sig.R • A ∧
        (enc K).1 % (curveN : Int) = sig.R := by
  have := verify_iff sig hash A
  rwa [natCast_zsmul] at this

/-- `Verify` does not panic, for every point. -/
theorem C95_total (sig : Sig) (hash : Bytes) (A : E) : verify sig hash (pk A) ≠ .panic := by
  obtain ⟨b, hb⟩ := verify_total sig hash A
  rw [hb]
  exact fun h => by cases h

/-- C106 is false: two hashes of at most 32 bytes are interchangeable. -/
theorem C106_refuted : ∃ h h' : Bytes, h ≠ h' ∧ h.length ≤ 32 ∧ h'.length ≤ 32 ∧
    (∀ sig q, verify sig h q = verify sig h' q) ∧
    ∀ fuel priv, sign fuel priv h = sign fuel priv h' := by
  have e : hashToInt [] = hashToInt [0] := rfl
  refine ⟨[], [0], by decide, by decide, by decide, fun sig q => ?_, fun fuel priv => ?_⟩
  · rw [verify, e]; rfl
  · have h1 : nonceRFC6979 fuel priv.D [] = nonceRFC6979 fuel priv.D [0] := by
      rw [nonceRFC6979, nonceRFC6979, bits2octets, bits2octets, e]
    rw [sign, sign, h1]
    rcases nonceRFC6979 fuel priv.D [0] with _ | k
    · rfl
    · exact congrArg some (by rw [signWith, signWith, e])

/-- Signatures depend on the hash only through the number made of its first 32 bytes, and these
numbers differ for different hashes of 32 bytes. -/
theorem C106_hash_partial (h h' : Bytes) :
    (setBytes (h.take 32) = setBytes (h'.take 32) → ∀ sig q, verify sig h q = verify sig h' q) ∧
    (h.length = 32 → h'.length = 32 → setBytes (h.take 32) = setBytes (h'.take 32) → h = h') := by
  constructor
  · intro he sig q
    have e : hashToInt h = hashToInt h' := by rw [hashToInt_eq, hashToInt_eq, he]
    rw [verify, verify, e]
  · intro hl hl' he
    rw [List.take_of_length_le (by omega), List.take_of_length_le (by omega)] at he
    exact setBytes_inj_len (hl.trans hl'.symm) he

/-- Two hashes with the same first 32 bytes. -/
example : setBytes ((List.replicate 33 (1 : UInt8)).take 32) =
    setBytes ((List.replicate 34 (1 : UInt8)).take 32) := by decide +kernel

/-! ### C96, C97: shared secrets -/

/-- The two parties compute the same secret. -/
theorem C96_symmetric (a b : Bytes) (p q : PrivKey) (hp : privKeyFromBytes a = .ok p)
    (hq : privKeyFromBytes b = .ok q) :
    ∃ s, generateSharedSecret p q.pub = .ok s ∧ generateSharedSecret q p.pub = .ok s := by
  obtain ⟨h1, h2⟩ := priv_eq hp
  obtain ⟨h3, h4⟩ := priv_eq hq
  refine ⟨_, by rw [h3, shared_eq h2], ?_⟩
  rw [h1, shared_eq h4, smul_comm]

/-- Two private keys. -/
example : (∃ p, privKeyFromBytes [7] = .ok p ∧ p.D = 7) ∧ ∃ p, privKeyFromBytes [1, 0] = .ok p ∧ p.D = 256 :=
  ⟨priv_exists [7], priv_exists [1, 0]⟩

/-- The secret is the x coordinate of `D•A` without leading zeros, so that it has at most 32 bytes.
C97 asks for exactly 32. -/
theorem C97_secret_partial (b : Bytes) (p : PrivKey) (hp : privKeyFromBytes b = .ok p) (A : E) :
    ∃ s, generateSharedSecret p (pk A) = .ok s ∧ s.length ≤ 32 ∧
      ((setBytes s : ℕ) : Int) = (enc (setBytes b • A)).1 := by
  obtain ⟨-, h2⟩ := priv_eq hp
  have hD : p.D = setBytes b := by
    obtain ⟨p', hp', hD⟩ := priv_exists b
    rw [hp] at hp'
    injection hp' with e
    rw [e, hD]
  refine ⟨_, shared_eq h2 A, ?_, ?_⟩
  · refine natBytes_length_le ?_
    have h3 := (enc_lt (p.D • A)).1
    have h4 := (enc_nonneg (p.D • A)).1
    have h5 : curveP < 256 ^ 32 := by decide
    omega
  · rw [secret, intBytes, setBytes_natBytes, Int.natAbs_of_nonneg (enc_nonneg _).1, hD,
      natCast_zsmul]

/-- C97 is false. -/
theorem C97_refuted : ∃ (p : PrivKey) (q : PubKey), privKeyFromBytes [1] = .ok p ∧
    isOnCurve q.X q.Y = .ok true ∧ generateSharedSecret p q = .ok [1] := by
  have hc : (((29896722852569046015560700294576055776214335159245303116488692907525646231534 : ℕ)) : F) ^ 2
      = ((1 : ℕ) : F) ^ 3 + 7 := on_curve (by decide +kernel)
  obtain ⟨p, hp, hD⟩ := priv_exists [1]
  refine ⟨p, pk (mk hc), hp, isOnCurve_enc _ (mk_ne_zero hc), ?_⟩
  rw [shared_eq (priv_eq hp).2, hD, show ((setBytes [1] : ℕ) : Int) = 1 from rfl, one_zsmul, secret,
    enc_mk, ZMod.val_natCast]
  rfl

/-! ### C98 -/

/-- A private key is read back from its serialization, which has 32 bytes if the key was made from
at most 32 bytes. -/
theorem C98_roundtrip (b : Bytes) (p : PrivKey) (hp : privKeyFromBytes b = .ok p) :
    privKeyFromBytes (privSerialize p) = .ok p ∧
      (b.length ≤ 32 → (privSerialize p).length = 32) := by
  have h := hp
  rw [privKeyFromBytes, basePub, scalarBaseMult_G] at h
  injection h with h
  have hs : privSerialize p = be32 (setBytes b) := by
    rw [privSerialize, paddedAppend_eq, ← h]; rfl
  constructor
  · rw [hs, privKeyFromBytes, basePub, scalarBaseMult_G, setBytes_be32, ← h]
    rfl
  · intro hl
    rw [hs]
    refine be32_length (lt_of_lt_of_le (setBytes_lt b) ?_)
    calc 256 ^ b.length ≤ 256 ^ 32 := Nat.pow_le_pow_right (by decide) hl
      _ = 2 ^ 256 := by decide

/-- A private key. -/
example : (∃ p, privKeyFromBytes [7] = .ok p ∧ p.D = 7) := priv_exists [7]

/-! ### C99 -/

/-- Nonces are in range, and do not depend on how many rounds are allowed. -/
theorem C99_nonce (m n : ℕ) (D : Int) (hash : Bytes) (k k' : Int)
    (h : nonceRFC6979 m D hash = some k) (h' : nonceRFC6979 n D hash = some k') :
    1 ≤ k ∧ k < curveN ∧ k = k' := by
  refine ⟨(nonce_range h).1, (nonce_range h).2, ?_⟩
  have h1 := nonce_mono (le_max_left m n) h
  have h2 := nonce_mono (le_max_right m n) h'
  rw [h1] at h2
  exact Option.some.inj h2

/-- A nonce. -/
example : nonceRFC6979 1 1 exampleHash = some exampleNonce := example_nonce

/-! ### C100 -/

/-- `addPKCSPadding` writes at most the padding behind the message into the memory of the caller,
and nothing if the capacity does not suffice.  C100 asks that it never write. -/
theorem C100_memory_partial (mem : Bytes) (len : ℕ) (h : len ≤ mem.length) :
    (addPKCSPaddingMem mem len).2 = addPKCSPadding (mem.take len) ∧
    (addPKCSPaddingMem mem len).1.length = mem.length ∧
    (addPKCSPaddingMem mem len).1.take len = mem.take len ∧
    (addPKCSPaddingMem mem len).1.drop (len + (16 - len % 16)) = mem.drop (len + (16 - len % 16)) ∧
    (mem.length < len + (16 - len % 16) → (addPKCSPaddingMem mem len).1 = mem) := by
  have hl : (mem.take len).length = len := by rw [List.length_take]; omega
  rw [addPKCSPaddingMem, addPKCSPadding]
  dsimp only
  rw [hl]
  have h16 : (List.replicate (16 - len % 16) (UInt8.ofNat (16 - len % 16))).length = 16 - len % 16 :=
    List.length_replicate
  generalize List.replicate (16 - len % 16) (UInt8.ofNat (16 - len % 16)) = pad at *
  have h17 : (mem.take len ++ pad).length = len + (16 - len % 16) := by
    rw [List.length_append, hl, h16]
  split
  · refine ⟨?_, ?_, ?_, ?_, fun h' => by omega⟩
    · exact List.take_left' h17
    · rw [List.length_append, h17, List.length_drop]; omega
    · rw [List.append_assoc]; exact List.take_left' hl
    · exact List.drop_left' h17
  · exact ⟨rfl, rfl, rfl, rfl, fun _ => rfl⟩

/-- C100 is false: the bytes behind the message are overwritten. -/
theorem C100_refuted : ∃ (mem : Bytes) (len : ℕ), len ≤ mem.length ∧
    (addPKCSPaddingMem mem len).1 ≠ mem :=
  ⟨List.replicate 16 0, 15, by decide, by decide⟩

/-! ### C101 -/

/-- A message is returned only if the last 32 bytes are the MAC of everything before, under the key
derived from the private key and the point in the ciphertext. -/
theorem C101_mac (L : Lib) (priv : PrivKey) (b m : Bytes) (h : decrypt L priv b = .ok (.ok m)) :
    ∃ q s, parsePubKey ([0x04] ++ (b.drop 20).take 32 ++ (b.drop 54).take 32) = .ok (.ok q) ∧
      generateSharedSecret priv q = .ok s ∧
      b.drop (b.length - 32) = mac (((L.sha512 s).drop 32).take 32) (b.take (b.length - 32)) :=
  decrypt_mac h

/-- A ciphertext that is accepted exists for every message. -/
example : ∃ p b, decrypt exampleLib p b = .ok (.ok [1, 2, 3]) := by
  obtain ⟨p, hp, -⟩ := priv_exists [7]
  obtain ⟨b, -, hb⟩ := C83_roundtrip exampleLib exampleLib_ok [7] (List.replicate 16 3) [1, 2, 3] p 9 hp
    (by decide) (by decide) rfl
  exact ⟨p, b, hb⟩

/-! ### C102 -/

/-- What `removePKCSPadding` accepts: only the last byte is looked at.  C102 asks that the padding
consist of bytes equal to its length. -/
theorem C102_accepts_partial (b m : Bytes) : removePKCSPadding b = .ok (.ok m) ↔
    16 ≤ b.length ∧ ∃ c : UInt8, b[b.length - 1]? = some c ∧ c.toNat ≤ 16 ∧
      m = b.take (b.length - c.toNat) := remove_iff b m

/-- C102 is false: zeros are removed as padding of length 2, and a last byte 0 is accepted. -/
theorem C102_refuted :
    removePKCSPadding (List.replicate 15 0 ++ [2]) = .ok (.ok (List.replicate 14 0)) ∧
    removePKCSPadding (List.replicate 16 0) = .ok (.ok (List.replicate 16 0)) := by decide +kernel

/-! ### C103 -/

/-- C103 is false: the check in `recoverKeyFromSignature` that `n*R` is the point at infinity
changes nothing, because `n` is reduced first. -/
theorem C103_refuted : (∀ (sig : Sig) (msg : Bytes) (i : ℕ), 0 ≤ sig.R →
      recoverKeyFromSignature sig msg i true = recoverKeyFromSignature sig msg i false) ∧
    ∃ x y : Int, isOnCurve x y = .ok false ∧ orderCheck true x y = .ok true :=
  ⟨fun sig msg i h => recover_check sig msg i h, 5, 1, by decide +kernel,
    orderCheck_ok (by decide) (by decide) true⟩

/-- The check passes for all points, as it should.  C103 asks that it fail for others. -/
theorem C103_points_partial (A : E) : orderCheck true (enc A).1 (enc A).2 = .ok true := by
  have h1 := enc_nonneg A
  have h2 := enc_lt A
  have h3 : curveP < 2 ^ 256 := by decide
  exact orderCheck_ok (by omega) (by omega) true

/-! ### C105 -/

/-- `IsEqual` of public keys is equality, and for points it is equality of any serialization. -/
theorem C105_pubkey (p q : PubKey) (A B : E) (hA : A ≠ 0) (hB : B ≠ 0) :
    (pubKeyIsEqual p q = true ↔ p = q) ∧
    (pubKeyIsEqual (pk A) (pk B) = true ↔ serializeCompressed (pk A) = serializeCompressed (pk B)) ∧
    (pubKeyIsEqual (pk A) (pk B) = true ↔
      serializeUncompressed (pk A) = serializeUncompressed (pk B)) ∧
    (pubKeyIsEqual (pk A) (pk B) = true ↔ serializeHybrid (pk A) = serializeHybrid (pk B)) := by
  have key : ∀ p q : PubKey, pubKeyIsEqual p q = true ↔ p = q := by
    rintro ⟨a, b⟩ ⟨c, d⟩
    rw [pubKeyIsEqual, Bool.and_eq_true, decide_eq_true_iff, decide_eq_true_iff, PubKey.mk.injEq]
  obtain ⟨⟨-, a1⟩, ⟨-, a2⟩, -, a3⟩ := C75_roundtrip A hA
  obtain ⟨⟨-, b1⟩, ⟨-, b2⟩, -, b3⟩ := C75_roundtrip B hB
  have inj : ∀ {s : Bytes} {u v : PubKey}, parsePubKey s = .ok (.ok u) →
      parsePubKey s = .ok (.ok v) → u = v := fun h h' => by
    rw [h] at h'
    injection h' with h'
    injection h'
  refine ⟨key p q, ?_, ?_, ?_⟩ <;> rw [key]
  · exact ⟨fun h => by rw [h], fun h => inj (h ▸ a2) b2⟩
  · exact ⟨fun h => by rw [h], fun h => inj (h ▸ a1) b1⟩
  · exact ⟨fun h => by rw [h], fun h => inj (h ▸ a3) b3⟩

/-- `IsEqual` of signatures is equality. -/
theorem C105_signature (s t : Sig) : sigIsEqual s t = true ↔ s = t := by
  obtain ⟨a, b⟩ := s
  obtain ⟨c, d⟩ := t
  rw [sigIsEqual, Bool.and_eq_true, decide_eq_true_iff, decide_eq_true_iff, Sig.mk.injEq]

/-- Two different points. -/
example : G ≠ 0 ∧ -G ≠ 0 ∧ pk G ≠ pk (-G) := by
  refine ⟨G_ne, neg_ne_zero.2 G_ne, fun h => ?_⟩
  have h := pk_inj h
  have h2 : (2 : Int) • G = 0 := by rw [two_zsmul, ← sub_neg_eq_add, ← h, sub_self]
  rw [zsmul_eq_zero G_ne] at h2
  exact absurd h2 (by decide +kernel)

/-! ### C108 -/

/-- `IsCompressedPubKey` never panics, and tells the compressed keys among those that are parsed. -/
theorem C108_compressed (s : Bytes) : ∃ b, isCompressedPubKey s = .ok b ∧
    ∀ q, parsePubKey s = .ok (.ok q) → (b = true ↔ s = serializeCompressed q) := by
  by_cases hl : s.length = 33
  · have h0 : 0 < s.length := by omega
    refine ⟨decide (s[0] &&& 0xfe = 0x2), ?_, fun q hq => ?_⟩
    · rw [isCompressedPubKey, if_pos hl, idx_lt h0]
      rfl
    · obtain ⟨A, hA, rfl, hs⟩ := parse_ok hq
      obtain ⟨⟨l1, -⟩, -, l3, -⟩ := C75_roundtrip A hA
      have hs : s = serializeCompressed (pk A) := by
        rcases hs with hs | ⟨t, ht, hs⟩ | hs | hs
        · rw [hs] at hl; omega
        · rw [ht] at l1
          rw [hs] at hl
          rw [List.length_cons] at l1 hl
          omega
        · exact hs
        · rw [hs] at hl; omega
      refine ⟨fun _ => hs, fun _ => ?_⟩
      rcases point_cases A with rfl | ⟨x, y, hc, rfl⟩
      · exact absurd rfl hA
      rw [serC hc] at hs
      subst hs
      rw [List.getElem_cons_zero]
      cases decide (y.val % 2 = 1) <;> rfl
  · refine ⟨false, by rw [isCompressedPubKey, if_neg hl]; rfl, fun q hq => ?_⟩
    obtain ⟨A, hA, rfl, -⟩ := parse_ok hq
    obtain ⟨-, ⟨l2, -⟩, -, -⟩ := C75_roundtrip A hA
    refine ⟨(by intro h; cases h), fun h => ?_⟩
    rw [h] at hl
    exact absurd l2 hl

/-- A compressed and an uncompressed key. -/
example : isCompressedPubKey (serializeCompressed ⟨curveGx, curveGy⟩) = .ok true ∧
    isCompressedPubKey (serializeUncompressed ⟨curveGx, curveGy⟩) = .ok false := by decide +kernel

/-! ### C109 -/

/-- The ciphertext starts with the initialization vector and its length depends only on the length
of the message. -/
theorem C109_ciphertext (L : Lib) (hL : LibOk L) (A : E) (d : ℕ) (h1 : 1 ≤ d) (h2 : d < curveN)
    (iv msg : Bytes) (hi : iv.length = 16) :
    ∃ b, encrypt L d iv (pk A) msg = .ok (.ok b) ∧ b.take 16 = iv ∧
      b.length = 16 + 70 + 16 * (msg.length / 16 + 1) + 32 := by
  have hd : d • G ≠ 0 := by
    rw [← natCast_zsmul]
    exact mt (zsmul_eq_zero G_ne).1 (not_dvd_range (by omega) (by omega))
  rcases point_cases (d • G) with h0 | ⟨x, y, hc, hm⟩
  · exact absurd h0 hd
  refine ⟨_, encrypt_eq hL hc hm, ?_, ?_⟩
  · rw [body, List.append_assoc]
    exact List.take_left' hi
  · have hp := add_padding_length msg
    have hlen : (addPKCSPadding msg).length = 16 * (msg.length / 16 + 1) := by
      rw [addPKCSPadding, List.length_append, List.length_replicate]
      omega
    rw [List.length_append, mac_length, body]
    simp only [List.length_append, be32_length (val_lt_256 _), List.length_cons, List.length_nil, hi]
    rw [cbcEncrypt_length hL _ _ _ _ hi]
    · omega
    · omega
    · rw [List.length_take, hL.sha512_length]; rfl

end Zk.Ec
