import Verif.Ec.CryptLemmas

/-!
# Properties of keys, signatures and encryption

Statements about btcec/pubkey.go, btcec/privkey.go, btcec/signature.go and btcec/ciphering.go.
`pk A` is the public key with the coordinates of the point `A`; `k • A` is the multiple in the group.
-/

namespace Zk.Ec

open Zk Zk.Field Zk.Curve

/-! ### C75 -/

/-- All three serializations of a point have the right length and are parsed to the same point. -/
theorem C75_roundtrip (A : E) (hA : A ≠ 0) :
    ((serializeUncompressed (pk A)).length = 65 ∧
      parsePubKey (serializeUncompressed (pk A)) = .ok (.ok (pk A))) ∧
    ((serializeCompressed (pk A)).length = 33 ∧
      parsePubKey (serializeCompressed (pk A)) = .ok (.ok (pk A))) ∧
    ((serializeHybrid (pk A)).length = 65 ∧
      parsePubKey (serializeHybrid (pk A)) = .ok (.ok (pk A))) := by
  rcases point_cases A with rfl | ⟨x, y, hc, rfl⟩
  · exact absurd rfl hA
  have hx := be32_length (val_lt_256 x)
  have hy := be32_length (val_lt_256 y)
  rw [serU hc, serC hc, serH hc]
  refine ⟨⟨by simp [hx, hy], parseU hc⟩, ⟨by simp [hx], parseC hc⟩, by simp [hx, hy], parseH hc⟩

/-- The same for any numbers below p that satisfy the curve equation. -/
theorem C75_coordinates (x y : ℕ) (hx : x < curveP) (hy : y < curveP)
    (h : y ^ 2 % curveP = (x ^ 3 + 7) % curveP) :
    parsePubKey (serializeUncompressed ⟨x, y⟩) = .ok (.ok ⟨x, y⟩) ∧
    parsePubKey (serializeCompressed ⟨x, y⟩) = .ok (.ok ⟨x, y⟩) ∧
    parsePubKey (serializeHybrid ⟨x, y⟩) = .ok (.ok ⟨x, y⟩) := by
  rw [curveP_eq] at hx hy h
  have hc := on_curve h
  have e : pk (mk hc) = ⟨x, y⟩ := by
    rw [pk, enc_mk, ZMod.val_natCast, ZMod.val_natCast, Nat.mod_eq_of_lt hx, Nat.mod_eq_of_lt hy]
  have := C75_roundtrip (mk hc) (mk_ne_zero hc)
  rw [e] at this
  exact ⟨this.1.2, this.2.1.2, this.2.2.2⟩

/-- The base point meets the hypotheses. -/
example : curveGx < curveP ∧ curveGy < curveP ∧
    curveGy ^ 2 % curveP = (curveGx ^ 3 + 7) % curveP := by decide +kernel

/-! ### C76 -/

/-- Every key that is parsed has coordinates below p on the curve; the input has 33 or 65 bytes. -/
theorem C76_valid (s : Bytes) (q : PubKey) (h : parsePubKey s = .ok (.ok q)) :
    0 ≤ q.X ∧ q.X < curveP ∧ 0 ≤ q.Y ∧ q.Y < curveP ∧
      q.Y ^ 2 % (curveP : Int) = (q.X ^ 3 + 7) % (curveP : Int) ∧
      isOnCurve q.X q.Y = .ok true ∧ (s.length = 33 ∨ s.length = 65) := by
  obtain ⟨A, hA, rfl, hs⟩ := parse_ok h
  obtain ⟨h1, h2⟩ := enc_nonneg A
  obtain ⟨h3, h4⟩ := enc_lt A
  obtain ⟨⟨l1, -⟩, ⟨l2, -⟩, l3, -⟩ := C75_roundtrip A hA
  refine ⟨h1, h3, h2, h4, ?_, isOnCurve_enc A hA, ?_⟩
  · rcases point_cases A with rfl | ⟨x, y, hc, rfl⟩
    · exact absurd rfl hA
    · show ((y.val : ℕ) : Int) ^ 2 % _ = (((x.val : ℕ) : Int) ^ 3 + 7) % _
      have : ((y.val ^ 2 : ℕ) : F) = ((x.val ^ 3 + 7 : ℕ) : F) := by
        push_cast
        rw [ZMod.natCast_zmod_val, ZMod.natCast_zmod_val, hc]
      have := cast_eq.1 this
      rw [curveP_eq]
      exact_mod_cast this
  · rcases hs with hs | ⟨t, ht, hs⟩ | hs | hs
    · exact .inr (by rw [hs, l1])
    · refine .inr ?_
      rw [ht] at l1
      rw [hs, ← l1]
      rfl
    · exact .inl (by rw [hs, l2])
    · exact .inr (by rw [hs, l3])

/-- `ParsePubKey` never panics. -/
theorem C76_total (s : Bytes) : parsePubKey s ≠ .panic := by
  obtain ⟨r, hr⟩ := parse_total s
  rw [hr]
  exact fun h => by cases h

/-- The compressed base point is parsed. -/
example : parsePubKey (serializeCompressed ⟨curveGx, curveGy⟩) = .ok (.ok ⟨curveGx, curveGy⟩) :=
  (C75_coordinates _ _ (by decide +kernel) (by decide +kernel) (by decide +kernel)).2.1

/-! ### C77 -/

/-- A serialized signature is parsed to the same R and the lower of S and N - S, in both modes. -/
theorem C77_roundtrip (der : Bool) (r s : Int) (h1 : 1 ≤ r) (h2 : r < curveN) (h3 : 1 ≤ s)
    (h4 : s < curveN) :
    parseSig der (sigSerialize ⟨r, s⟩) = .ok (.ok ⟨r, min s (curveN - s)⟩) := by
  have hN : curveN < 2 ^ 256 := by decide
  have hmin : (if s > halfOrder then (curveN : Int) - s else s) = min s (curveN - s) := by
    have := half_eq
    split
    · rw [min_eq_right (by omega)]
    · rw [min_eq_left (by omega)]
  have hm1 : 1 ≤ min s (curveN - s) := le_min h3 (by omega)
  have hm2 : min s (curveN - s) < curveN := lt_of_le_of_lt (min_le_left _ _) h4
  rw [serialize_layout]
  dsimp only
  rw [hmin]
  generalize min s (curveN - s) = m at *
  have l1 := canon_length33 (v := r) (by omega)
  have l2 := canon_length33 (v := m) (by omega)
  have := parseSig_layout der (canonicalizeInt r) (canonicalizeInt m) [] (canon_length r).1
    (canon_length m).1 (by omega)
  rw [List.append_nil] at this
  rw [this, fields_canon der h1 h2 hm1 hm2]

/-- A signature with a high S. -/
example : (1 : Int) ≤ 5 ∧ (5 : Int) < curveN ∧ 1 ≤ (curveN : Int) - 2 ∧ (curveN : Int) - 2 < curveN ∧
    min ((curveN : Int) - 2) (curveN - (curveN - 2)) = 2 := by decide +kernel

/-! ### C78 -/

/-- Parsed signatures are in range. -/
theorem C78_range (der : Bool) (s : Bytes) (sig : Sig) (h : parseSig der s = .ok (.ok sig)) :
    1 ≤ sig.R ∧ sig.R < curveN ∧ 1 ≤ sig.S ∧ sig.S < curveN := by
  by_cases hb : BadLen s
  · rw [parseSig_panics der hb] at h
    cases h
  obtain ⟨o, ho, hsh⟩ := parseSig_total der hb
  rw [ho] at h
  injection h with h
  obtain ⟨rb, sb, -, -, -, -, -, -, -, hr⟩ := hsh sig h
  obtain ⟨rfl, h1, h2, h3, h4⟩ := sigRange_ok hr
  exact ⟨h1, h2, h3, h4⟩

/-- A string that is accepted. -/
example : parseSig true [0x30, 6, 2, 1, 1, 2, 1, 1] = .ok (.ok ⟨1, 1⟩) := by decide +kernel

/-! ### C79 -/

/-- Parsing panics exactly on strings of at least 8 bytes that start with 0x30 and have the length
byte 254, 255 or 0, or the length byte 1 and then 0x02.  C79 asks that there be none. -/
theorem C79_panics_partial (der : Bool) (s : Bytes) :
    parseSig der s = .panic ↔ 8 ≤ s.length ∧ s[0]? = some 0x30 ∧
      (s[1]? = some 254 ∨ s[1]? = some 255 ∨ s[1]? = some 0 ∨
        (s[1]? = some 1 ∧ s[2]? = some 0x02)) := by
  constructor
  · intro h
    by_contra hb
    obtain ⟨o, ho, -⟩ := parseSig_total der (s := s) hb
    rw [ho] at h
    cases h
  · exact fun h => parseSig_panics der h

/-- C79 is false: eight bytes make both parsers panic. -/
theorem C79_refuted : ∃ s : Bytes, ∀ der, parseSig der s = .panic :=
  ⟨[0x30, 0, 0, 0, 0, 0, 0, 0], fun der => parseSig_panics der (by decide)⟩

/-! ### C80 -/

/-- What `PrivKeyFromBytes` returns. -/
theorem priv_eq {b : Bytes} {p : PrivKey} (h : privKeyFromBytes b = .ok p) :
    p.pub = pk (p.D • G) ∧ 0 ≤ p.D := by
  rw [privKeyFromBytes, basePub, scalarBaseMult_G] at h
  injection h with h
  rw [← h]
  refine ⟨?_, Int.natCast_nonneg _⟩
  show _ = pk (((setBytes b : ℕ) : Int) • G)
  rw [natCast_zsmul]
  rfl

theorem nonce_point {k : Int} (h : 0 ≤ k) {q : PubKey} (hq : basePub (intBytes k) = .ok q) :
    q = pk (k • G) := by
  rw [basePub, base_int h] at hq
  injection hq with hq
  exact hq.symm

/-- A signature made by `Sign` verifies with the public key of the signer, and its S is at most N/2.
C80 also covers nonces `k` for which the x coordinate of `k•G` is N. -/
theorem C80_valid_partial (fuel : ℕ) (b hash : Bytes) (priv : PrivKey) (sig : Sig) (k : Int)
    (q : PubKey) (hp : privKeyFromBytes b = .ok priv)
    (hk : nonceRFC6979 fuel priv.D hash = some k)
    (hq : basePub (intBytes k) = .ok q) (hN : q.X ≠ curveN)
    (hs : sign fuel priv hash = some (.ok (.ok sig))) :
    verify sig hash priv.pub = .ok true ∧ 2 * sig.S < curveN := by
  obtain ⟨h1, h2⟩ := nonce_range hk
  rw [nonce_point (by omega) hq] at hN
  rw [sign, hk] at hs
  dsimp only at hs
  rw [Option.some.injEq] at hs
  obtain ⟨hpub, -⟩ := priv_eq hp
  obtain ⟨-, -, -, h3, h4⟩ := sign_verify h1 h2 hN hs
  rw [hpub]
  exact ⟨h4, by have := half_eq; omega⟩

/-- `Sign` never panics; it fails only if S would be zero, with the R of its nonce. -/
theorem C80_total (fuel : ℕ) (priv : PrivKey) (hash : Bytes) (g : Go (Except Err Sig))
    (h : sign fuel priv hash = some g) :
    (∃ sig, g = .ok (.ok sig)) ∨ ∃ e, g = .ok (.error e) ∧
      ∃ k r : Int, nonceRFC6979 fuel priv.D hash = some k ∧ 1 ≤ k ∧ k < curveN ∧
        r = (if (enc (k • G)).1 > curveN then (enc (k • G)).1 - curveN else (enc (k • G)).1) ∧
        1 ≤ r ∧
        (curveN : Int) ∣ priv.D * r + hashToInt hash := by
  rw [sign] at h
  split at h
  · cases h
  rename_i k hk
  obtain ⟨h1, h2⟩ := nonce_range hk
  obtain ⟨inv, hi, -, -, hd⟩ := modInverse_some (not_dvd_range h1 h2)
  rw [Option.some.injEq, signWith_eq hash h1 h2 hi] at h
  rw [← h]
  split
  · rename_i hs
    have hne : k • G ≠ 0 := mt (zsmul_eq_zero G_ne).1 (not_dvd_range h1 h2)
    exact .inr ⟨_, rfl, k, rOf (enc (k • G)).1, hk, h1, h2, rfl, rOf_pos hne,
      (sOf_zero hd).1 hs⟩
  · exact .inl ⟨_, rfl⟩

theorem N_on_curve : ∃ y : F, y ^ 2 = (curveN : F) ^ 3 + 7 :=
  ⟨((powMod ((curveN ^ 3 + 7) % P) ((P + 1) / 4) P : ℕ) : F), on_curve (by decide +kernel)⟩

/-- There is a nonce with which the signature is refused, whatever the key and the hash: its point
has the x coordinate N, from which N is not subtracted. -/
theorem C80_nonce_partial : ∃ k : Int, 1 ≤ k ∧ k < curveN ∧ ∀ (D : Int) (hash : Bytes) (sig : Sig),
    signWith k D hash = .ok (.ok sig) →
      sig.R = curveN ∧ verify sig hash (pk (D • G)) = .ok false := by
  obtain ⟨y, hc⟩ := N_on_curve
  obtain ⟨n, hn⟩ := G_generates (mk hc)
  have hne : n • G ≠ 0 := hn ▸ mk_ne_zero hc
  have h0 : 0 < n % curveN := by
    refine Nat.pos_of_ne_zero fun h => hne ?_
    rw [← mod_N_smul, h, zero_nsmul]
  have hlt : n % curveN < curveN := Nat.mod_lt _ (by decide)
  refine ⟨((n % curveN : ℕ) : Int), by omega, by omega, fun D hash sig h => ?_⟩
  obtain ⟨inv, hi, -, -, hd⟩ := modInverse_some (a := ((n % curveN : ℕ) : Int))
    (not_dvd_range (by omega) (by omega))
  rw [signWith_eq hash (by omega) (by omega) hi, natCast_zsmul, mod_N_smul, ← hn, enc_mk,
    ZMod.val_natCast, Nat.mod_eq_of_lt (show curveN < P by decide), rOf, if_neg (lt_irrefl _)] at h
  split at h
  · cases h
  injection h with h
  injection h with h
  have hR : sig.R = curveN := by rw [← h]
  refine ⟨hR, verify_range sig hash _ ?_⟩
  rw [hR]
  exact fun h => absurd h.2.1 (lt_irrefl _)

/-! ### C81 -/

/-- `RecoverCompact` of a compact signature gives the key of the signer and the flag.  C81 also
covers nonces `k` for which the x coordinate of `k•G` is N. -/
theorem C81_recover_partial (fuel : ℕ) (b hash : Bytes) (priv : PrivKey) (sig : Sig) (k : Int)
    (q : PubKey) (comp : Bool) (hp : privKeyFromBytes b = .ok priv)
    (hk : nonceRFC6979 fuel priv.D hash = some k)
    (hq : basePub (intBytes k) = .ok q) (hN : q.X ≠ curveN)
    (hs : sign fuel priv hash = some (.ok (.ok sig))) :
    ∃ c, signCompact fuel priv hash comp = some (.ok (.ok c)) ∧ c.length = 65 ∧
      recoverCompact c hash = .ok (.ok (priv.pub, comp)) := by
  obtain ⟨h1, h2⟩ := nonce_range hk
  rw [nonce_point (by omega) hq] at hN
  rw [signCompact, hs]
  rw [sign, hk] at hs
  dsimp only at hs ⊢
  rw [Option.some.injEq] at hs
  obtain ⟨hpub, -⟩ := priv_eq hp
  obtain ⟨c, hc1, hc2, hc3⟩ := compact_recover comp h1 h2 hN hpub hs
  rw [hs] at hc1
  exact ⟨c, by rw [hc1], hc2, hc3⟩

/-! ### C82 -/

/-- Removing the padding gives back the message. -/
theorem C82_roundtrip (m : Bytes) : removePKCSPadding (addPKCSPadding m) = .ok (.ok m) :=
  remove_add m

/-- The padded message consists of at least one block. -/
theorem C82_aligned (m : Bytes) : 0 < (addPKCSPadding m).length ∧ (addPKCSPadding m).length % 16 = 0 :=
  ⟨lt_of_lt_of_le (by decide) (add_padding_length m).1, (add_padding_length m).2⟩

/-- Removing padding panics only on the empty string. -/
theorem C82_total (b : Bytes) : removePKCSPadding b = .panic ↔ b = [] := by
  constructor
  · intro h
    by_contra hb
    obtain ⟨o, ho⟩ := remove_total (List.length_pos_of_ne_nil hb)
    rw [ho] at h
    cases h
  · rintro rfl
    rfl

/-! ### C83 -/

/-- A library that meets the assumptions: the block functions add the key.
See btcec/ciphering.go:70-118. -/
def exampleLib : Lib where
  sha512 := fun b => List.replicate 32 0x11 ++ sha256 b
  encBlock := fun key b => List.zipWith (· ^^^ ·) b (key.take 16)
  decBlock := fun key b => List.zipWith (· ^^^ ·) b (key.take 16)

theorem exampleLib_ok : LibOk exampleLib where
  sha512_length := fun b => by
    show (List.replicate 32 0x11 ++ sha256 b).length = 64
    rw [List.length_append, sha256_length]; rfl
  enc_length := fun key b hk hb => by
    show (List.zipWith _ b (key.take 16)).length = 16
    rw [List.length_zipWith, List.length_take]; omega
  dec_length := fun key b hk hb => by
    show (List.zipWith _ b (key.take 16)).length = 16
    rw [List.length_zipWith, List.length_take]; omega
  dec_enc := fun key b hk hb => by
    refine xor_xor ?_
    rw [List.length_take]; omega

/-- `Decrypt` inverts `Encrypt`, for every draw of the ephemeral key and of the initialization
vector. -/
theorem C83_roundtrip (L : Lib) (hL : LibOk L) (pkb iv msg : Bytes) (priv : PrivKey) (d : ℕ)
    (hp : privKeyFromBytes pkb = .ok priv) (h1 : 1 ≤ d) (h2 : d < curveN) (hi : iv.length = 16) :
    ∃ b, encrypt L d iv priv.pub msg = .ok (.ok b) ∧ decrypt L priv b = .ok (.ok msg) :=
  decrypt_encrypt hL (priv_eq hp).2 (priv_eq hp).1 h1 h2 hi msg

/-- `Decrypt` never panics. -/
theorem C83_total (L : Lib) (hL : LibOk L) (pkb b : Bytes) (priv : PrivKey)
    (hp : privKeyFromBytes pkb = .ok priv) : decrypt L priv b ≠ .panic := by
  obtain ⟨o, ho⟩ := decrypt_total hL (priv_eq hp).2 b
  rw [ho]
  exact fun h => by cases h

/-- Every string of bytes is a private key. -/
theorem priv_exists (b : Bytes) : ∃ p, privKeyFromBytes b = .ok p ∧ p.D = setBytes b :=
  ⟨_, by rw [privKeyFromBytes, basePub, scalarBaseMult_G]; rfl, rfl⟩

/-- Hypotheses of C83: a library, a private key, a draw. -/
example : LibOk exampleLib ∧ (∃ p, privKeyFromBytes [7] = .ok p ∧ p.D = 7) ∧ 1 ≤ 9 ∧ 9 < curveN ∧
    (List.replicate 16 (3 : UInt8)).length = 16 :=
  ⟨exampleLib_ok, priv_exists [7], by decide, by decide, rfl⟩

end Zk.Ec
