import Verif.Ec.EcdsaLemmas

/-!
# Nonces and encryption
-/

namespace Zk.Ec

open Zk Zk.Field Zk.Curve

/-! ### Hash lengths -/

theorem shaRound_length {st : List UInt32} (h : st.length = 8) (kw : UInt32 × UInt32) :
    (shaRound st kw).length = 8 := by
  unfold shaRound
  split
  · rfl
  · exact h

theorem shaFold_length : ∀ (l : List (UInt32 × UInt32)) {st : List UInt32}, st.length = 8 →
    (l.foldl shaRound st).length = 8
  | [], _, h => h
  | kw :: l, _, h => shaFold_length l (shaRound_length h kw)

theorem shaBlocks_length : ∀ (n : ℕ) {st : List UInt32} (w : List UInt32), st.length = 8 →
    (shaBlocks n st w).length = 8
  | 0, _, _, h => h
  | n + 1, st, w, h => by
    rw [shaBlocks]
    split
    · exact h
    · refine shaBlocks_length n _ ?_
      rw [shaBlock, List.length_zipWith, shaFold_length _ h, h]; rfl

theorem sha256_length (m : Bytes) : (sha256 m).length = 32 := by
  rw [sha256, List.length_flatMap]
  have h := shaBlocks_length (shaWords (shaPad m)).length (shaWords (shaPad m)) (st := shaInit) rfl
  generalize shaBlocks _ _ _ = l at h
  have : ∀ l : List UInt32, (l.map fun (x : UInt32) => ([(x >>> 24).toUInt8, (x >>> 16).toUInt8,
      (x >>> 8).toUInt8, x.toUInt8] : Bytes).length).sum = 4 * l.length := by
    intro l
    induction l with
    | nil => rfl
    | cons a l ih =>
      rw [List.map_cons, List.sum_cons, ih]
      simp only [List.length_cons, List.length_nil]
      omega
  rw [this, h]

theorem mac_length (k m : Bytes) : (mac k m).length = 32 := by
  rw [mac]; exact sha256_length _

/-! ### Nonces -/

theorem stepH2_eq (k v : Bytes) : stepH2 2 k v [] = (mac k v, mac k v) := by
  rw [stepH2, if_pos (by decide)]
  dsimp only
  rw [List.nil_append, stepH2, if_neg]
  rw [mac_length]; decide

theorem stepH_succ (n : ℕ) (k v : Bytes) : ∃ k' v', ∀ m, n ≤ m → stepH (m + 1) k v =
    if hashToInt (mac k v) ≥ 1 ∧ hashToInt (mac k v) < (curveN : Int) then
      some (hashToInt (mac k v)) else stepH m k' v' := by
  refine ⟨mac k (mac k v ++ [0x00]), mac (mac k (mac k v ++ [0x00])) (mac k v), fun m _ => ?_⟩
  rw [stepH, stepH2_eq]

theorem stepH_range {n : ℕ} {k v : Bytes} {x : Int} (h : stepH n k v = some x) :
    1 ≤ x ∧ x < curveN := by
  induction n generalizing k v with
  | zero => cases h
  | succ n ih =>
    obtain ⟨k', v', hs⟩ := stepH_succ n k v
    rw [hs n le_rfl] at h
    generalize hashToInt (mac k v) = s at h
    by_cases h1 : s ≥ 1 ∧ s < (curveN : Int)
    · rw [if_pos h1, Option.some.injEq] at h
      rw [← h]
      exact ⟨h1.1, h1.2⟩
    · rw [if_neg h1] at h
      exact ih h

theorem stepH_mono {n m : ℕ} (hnm : n ≤ m) {k v : Bytes} {x : Int} (h : stepH n k v = some x) :
    stepH m k v = some x := by
  induction n generalizing k v m with
  | zero => cases h
  | succ n ih =>
    obtain ⟨m, rfl⟩ : ∃ m', m = m' + 1 := ⟨m - 1, by omega⟩
    obtain ⟨k', v', hs⟩ := stepH_succ n k v
    rw [hs n le_rfl] at h
    rw [hs m (by omega)]
    generalize hashToInt (mac k v) = s at h ⊢
    by_cases h1 : s ≥ 1 ∧ s < (curveN : Int)
    · rwa [if_pos h1] at h ⊢
    · rw [if_neg h1] at h ⊢
      exact ih (by omega) h

theorem nonce_range {n : ℕ} {D : Int} {hash : Bytes} {x : Int}
    (h : nonceRFC6979 n D hash = some x) : 1 ≤ x ∧ x < curveN := stepH_range h

theorem nonce_mono {n m : ℕ} (hnm : n ≤ m) {D : Int} {hash : Bytes} {x : Int}
    (h : nonceRFC6979 n D hash = some x) : nonceRFC6979 m D hash = some x := stepH_mono hnm h

theorem int2octets_length (v : Int) : (int2octets v 32).length = 32 := by
  rw [int2octets]
  split
  · rw [List.length_append, List.length_replicate]; omega
  split
  · rw [List.length_drop]; omega
  · omega

/-! ### Padding -/

theorem add_padding_length (m : Bytes) : 16 ≤ (addPKCSPadding m).length ∧
    (addPKCSPadding m).length % 16 = 0 := by
  rw [addPKCSPadding, List.length_append, List.length_replicate]; omega

theorem add_padding_last (m : Bytes) :
    idx (addPKCSPadding m) ((addPKCSPadding m).length - 1) =
      .ok (UInt8.ofNat (16 - m.length % 16)) := by
  have hl : (addPKCSPadding m).length = m.length + (16 - m.length % 16) := by
    rw [addPKCSPadding, List.length_append, List.length_replicate]
  have hp : 0 < 16 - m.length % 16 := by omega
  rw [hl, show m.length + (16 - m.length % 16) - 1 = m.length + (16 - m.length % 16 - 1) by omega,
    addPKCSPadding, idx_append_right, idx_lt (by rw [List.length_replicate]; omega),
    List.getElem_replicate]

theorem remove_add (m : Bytes) : removePKCSPadding (addPKCSPadding m) = .ok (.ok m) := by
  have hl : (addPKCSPadding m).length = m.length + (16 - m.length % 16) := by
    rw [addPKCSPadding, List.length_append, List.length_replicate]
  have hn : (UInt8.ofNat (16 - m.length % 16)).toNat = 16 - m.length % 16 := by
    rw [UInt8.toNat_ofNat']; omega
  rw [removePKCSPadding, if_neg (by omega), add_padding_last, Go.bind_ok]
  dsimp only
  rw [hn, if_neg (by omega), slice_ok (by omega) (by omega), Go.bind_ok, hl, Nat.add_sub_cancel,
    List.drop_zero, Nat.sub_zero, addPKCSPadding, List.take_left]
  rfl

theorem remove_total {b : Bytes} (h : 0 < b.length) : ∃ o, removePKCSPadding b = .ok o := by
  rw [removePKCSPadding, if_neg (by omega), idx_lt (by omega), Go.bind_ok]
  dsimp only
  split
  · exact ⟨_, rfl⟩
  · rw [slice_ok (by omega) (by omega), Go.bind_ok]
    exact ⟨_, rfl⟩

/-! ### Blocks -/

/-- The standard library (specification): SHA-512 gives 64 bytes; with a key of 32 bytes the AES
block functions map 16 bytes to 16 bytes, and decryption inverts encryption.
See btcec/ciphering.go:70-118. -/
structure LibOk (L : Lib) : Prop where
  sha512_length : ∀ b, (L.sha512 b).length = 64
  enc_length : ∀ key b, key.length = 32 → b.length = 16 → (L.encBlock key b).length = 16
  dec_length : ∀ key b, key.length = 32 → b.length = 16 → (L.decBlock key b).length = 16
  dec_enc : ∀ key b, key.length = 32 → b.length = 16 → L.decBlock key (L.encBlock key b) = b

theorem xor_xor : ∀ {a b : Bytes}, a.length = b.length →
    List.zipWith (· ^^^ ·) (List.zipWith (· ^^^ ·) a b) b = a
  | [], [], _ => rfl
  | [], _ :: _, h => by simp at h
  | _ :: _, [], h => by simp at h
  | x :: a, y :: b, h => by
    rw [List.zipWith_cons_cons, List.zipWith_cons_cons, xor_xor (by simpa using h),
      UInt8.xor_assoc, UInt8.xor_self, UInt8.xor_zero]

theorem cbcEncrypt_length {L : Lib} (hL : LibOk L) {key : Bytes} (hk : key.length = 32) :
    ∀ (n : ℕ) (iv src : Bytes), iv.length = 16 → src.length = 16 * n →
      (cbcEncrypt L key n iv src).length = 16 * n
  | 0, _, _, _, _ => rfl
  | n + 1, iv, src, hi, hs => by
    have h1 : (List.zipWith (· ^^^ ·) (src.take 16) iv).length = 16 := by
      rw [List.length_zipWith, List.length_take]; omega
    have h2 := hL.enc_length key _ hk h1
    rw [cbcEncrypt, List.length_append, h2, cbcEncrypt_length hL hk n _ _ h2 (by rw [List.length_drop]; omega)]
    omega

theorem cbc_inverse {L : Lib} (hL : LibOk L) {key : Bytes} (hk : key.length = 32) :
    ∀ (n : ℕ) (iv src : Bytes), iv.length = 16 → src.length = 16 * n →
      cbcDecrypt L key n iv (cbcEncrypt L key n iv src) = src
  | 0, _, _, _, hs => (List.length_eq_zero_iff.1 (by omega)).symm
  | n + 1, iv, src, hi, hs => by
    have h0 : (src.take 16).length = 16 := by rw [List.length_take]; omega
    have h1 : (List.zipWith (· ^^^ ·) (src.take 16) iv).length = 16 := by
      rw [List.length_zipWith, h0]; omega
    have h2 := hL.enc_length key _ hk h1
    rw [cbcEncrypt, cbcDecrypt, List.take_left' h2, List.drop_left' h2, hL.dec_enc key _ hk h1,
      xor_xor (by omega), cbc_inverse hL hk n _ _ h2 (by rw [List.length_drop]; omega),
      List.take_append_drop]

theorem cbcDecrypt_length {L : Lib} (hL : LibOk L) {key : Bytes} (hk : key.length = 32) :
    ∀ (n : ℕ) (iv src : Bytes), iv.length = 16 → src.length = 16 * n →
      (cbcDecrypt L key n iv src).length = 16 * n
  | 0, _, _, _, _ => rfl
  | n + 1, iv, src, hi, hs => by
    have h0 : (src.take 16).length = 16 := by rw [List.length_take]; omega
    have h2 := hL.dec_length key _ hk h0
    rw [cbcDecrypt, List.length_append, List.length_zipWith, h2,
      cbcDecrypt_length hL hk n _ _ h0 (by rw [List.length_drop]; omega)]
    omega

/-! ### Encryption -/

/-- The shared secret of a point (specification; btcec/ciphering.go:46-49). -/
def secret (A : E) : Bytes := intBytes (enc A).1

theorem shared_eq {priv : PrivKey} (h : 0 ≤ priv.D) (A : E) :
    generateSharedSecret priv (pk A) = .ok (secret (priv.D • A)) := by
  rw [generateSharedSecret, pk, mult_int h]; rfl

theorem newPrivateKey_eq (d : ℕ) : newPrivateKey d = .ok ⟨pk (d • G), d⟩ := by
  rw [newPrivateKey, basePub, scalarBaseMult_G, setBytes_natBytes]; rfl

theorem slice_keys {s : Bytes} (h : s.length = 64) :
    slice s 0 32 = .ok (s.take 32) ∧ slice s 32 64 = .ok (s.drop 32) := by
  refine ⟨slice_ok (by omega) (by omega), ?_⟩
  rw [slice_ok (by omega) (by omega), List.take_of_length_le (by rw [List.length_drop]; omega)]

/-- The output of `Encrypt` before the MAC (specification; btcec/ciphering.go:56-66). -/
def body (iv : Bytes) (x y : F) (c : Bytes) : Bytes :=
  iv ++ ([0x02, 0xCA] ++ ([0x00, 0x20] ++ (be32 x.val ++ ([0x00, 0x20] ++ (be32 y.val ++ c)))))

theorem encrypt_eq {L : Lib} (hL : LibOk L) {d : ℕ} {iv msg : Bytes} {A : E} {x y : F}
    (hc : y ^ 2 = x ^ 3 + 7) (hd : d • G = mk hc) :
    let s := L.sha512 (secret (d • A))
    let b := body iv x y (cbcEncrypt L (s.take 32) ((addPKCSPadding msg).length / 16) iv
      (addPKCSPadding msg))
    encrypt L d iv (pk A) msg = .ok (.ok (b ++ mac (s.drop 32) b)) := by
  intro s b
  have hs : s.length = 64 := hL.sha512_length _
  obtain ⟨k1, k2⟩ := slice_keys hs
  have hlx := be32_length (val_lt_256 x)
  have hly := be32_length (val_lt_256 y)
  have s1 : slice (0x4 :: (be32 x.val ++ be32 y.val)) 1 33 = .ok (be32 x.val) :=
    slice_append (a := [0x4]) rfl (by simp [hlx])
  have s2 : slice (0x4 :: (be32 x.val ++ be32 y.val)) 33 65 = .ok (be32 y.val) :=
    slice_end (a := 0x4 :: be32 x.val) (by simp [hlx]) (by simp [hlx, hly])
  have hsec : generateSharedSecret ⟨pk (d • G), (d : Int)⟩ (pk A) = .ok (secret (d • A)) := by
    rw [shared_eq (Int.natCast_nonneg d), natCast_zsmul]
  have hcb : cryptBlocks (cbcEncrypt L (s.take 32)) iv (addPKCSPadding msg) =
      .ok (cbcEncrypt L (s.take 32) ((addPKCSPadding msg).length / 16) iv (addPKCSPadding msg)) := by
    rw [cryptBlocks, if_neg (not_not.2 (add_padding_length msg).2)]
  rw [encrypt, newPrivateKey_eq, Go.bind_ok, hsec, Go.bind_ok]
  dsimp only
  rw [k1, Go.bind_ok, k2, Go.bind_ok, hd, serU hc, s1, Go.bind_ok, s2, Go.bind_ok, hcb, Go.bind_ok]
  have e : iv ++ [0x02, 0xCA, 0x00, 0x20] ++ be32 x.val ++ [0x00, 0x20] ++ be32 y.val ++
      cbcEncrypt L (s.take 32) ((addPKCSPadding msg).length / 16) iv (addPKCSPadding msg) = b := by
    show _ = body _ _ _ _
    rw [body]
    simp
  rw [e]
  rfl

theorem decrypt_eq {L : Lib} {priv : PrivKey} {iv m c : Bytes} {x y : F}
    (hc : y ^ 2 = x ^ 3 + 7) (hi : iv.length = 16) (hm : m.length = 32) (h16 : 16 ≤ c.length) :
    decrypt L priv (body iv x y c ++ m) =
      decryptBody L priv (body iv x y c ++ m) (pk (mk hc)) := by
  have hlx := be32_length (val_lt_256 x)
  have hly := be32_length (val_lt_256 y)
  have hl : (body iv x y c ++ m).length = 118 + c.length := by
    rw [body]
    simp only [List.length_append, List.length_cons, List.length_nil, hlx, hly, hi, hm]
    omega
  have e : body iv x y c ++ m = iv ++ ([0x02, 0xCA] ++ ([0x00, 0x20] ++ (be32 x.val ++
      ([0x00, 0x20] ++ (be32 y.val ++ (c ++ m)))))) := by
    rw [body]; simp only [List.append_assoc]
  have s1 : slice (body iv x y c ++ m) 16 18 = .ok [0x02, 0xCA] := by
    rw [e]; exact slice_append (by simp [hi]) (by simp [hi])
  have s2 : slice (body iv x y c ++ m) 18 20 = .ok [0x00, 0x20] := by
    rw [e, ← List.append_assoc]; exact slice_append (by simp [hi]) (by simp [hi])
  have s3 : slice (body iv x y c ++ m) 20 52 = .ok (be32 x.val) := by
    rw [e, ← List.append_assoc, ← List.append_assoc]
    exact slice_append (by simp [hi]) (by simp [hi, hlx])
  have s4 : slice (body iv x y c ++ m) 52 54 = .ok [0x00, 0x20] := by
    rw [e, ← List.append_assoc, ← List.append_assoc, ← List.append_assoc]
    exact slice_append (by simp [hi, hlx]) (by simp [hi, hlx])
  have s5 : slice (body iv x y c ++ m) 54 86 = .ok (be32 y.val) := by
    rw [e, ← List.append_assoc, ← List.append_assoc, ← List.append_assoc, ← List.append_assoc]
    exact slice_append (by simp [hi, hlx]) (by simp [hi, hlx, hly])
  rw [decrypt, if_neg (by omega), s1, Go.bind_ok, if_neg (not_not.2 rfl), s2, Go.bind_ok,
    if_neg (not_not.2 rfl), s3, Go.bind_ok, s4, Go.bind_ok, if_neg (not_not.2 rfl), s5, Go.bind_ok]
  have hp : [0x04] ++ be32 x.val ++ be32 y.val = 0x4 :: (be32 x.val ++ be32 y.val) := by simp
  rw [hp, parseU hc, Go.bind_ok]

theorem decryptBody_eq {L : Lib} (hL : LibOk L) {priv : PrivKey} (hD : 0 ≤ priv.D)
    {iv m c : Bytes} {x y : F} (A : E) (hi : iv.length = 16) (hm : m.length = 32)
    (h16 : c.length % 16 = 0) (hp : 16 ≤ c.length) :
    let s := L.sha512 (secret (priv.D • A))
    decryptBody L priv (body iv x y c ++ m) (pk A) =
      if m ≠ mac (s.drop 32) (body iv x y c) then .ok (.error "invalid mac hash")
      else removePKCSPadding (cbcDecrypt L (s.take 32) (c.length / 16) iv c) := by
  intro s
  have hlx := be32_length (val_lt_256 x)
  have hly := be32_length (val_lt_256 y)
  have hb : (body iv x y c).length = 86 + c.length := by
    rw [body]
    simp only [List.length_append, List.length_cons, List.length_nil, hlx, hly, hi]
    omega
  have hl : (body iv x y c ++ m).length = 118 + c.length := by
    rw [List.length_append, hb, hm]; omega
  obtain ⟨k1, k2⟩ := slice_keys (hL.sha512_length (secret (priv.D • A)))
  have s1 : slice (body iv x y c ++ m) (118 + c.length - 32) (118 + c.length) = .ok m :=
    slice_end (by omega) (by omega)
  have s2 : slice (body iv x y c ++ m) 0 (118 + c.length - 32) = .ok (body iv x y c) :=
    slice_append (a := []) (b := body iv x y c) (c := m) rfl (by simp [hb]; omega)
  have s3 : slice (body iv x y c ++ m) 0 16 = .ok iv := by
    rw [body, List.append_assoc]
    exact slice_append (a := []) rfl (by simp [hi])
  have s4 : slice (body iv x y c ++ m) 86 (118 + c.length - 32) = .ok c := by
    have e : body iv x y c ++ m = (iv ++ [0x02, 0xCA] ++ [0x00, 0x20] ++ be32 x.val ++
        [0x00, 0x20] ++ be32 y.val) ++ (c ++ m) := by
      rw [body]; simp only [List.append_assoc]
    rw [e]
    exact slice_append (by simp [hi, hlx, hly]) (by simp [hi, hlx, hly]; omega)
  rw [decryptBody, hl, if_neg (by omega), s1, Go.bind_ok, shared_eq hD, Go.bind_ok]
  dsimp only
  rw [k1, Go.bind_ok, k2, Go.bind_ok, s2, Go.bind_ok]
  split
  · rfl
  · rw [s3, Go.bind_ok, s4, Go.bind_ok, cryptBlocks, if_neg (not_not.2 h16), Go.bind_ok]

/-- Decryption inverts encryption. -/
theorem decrypt_encrypt {L : Lib} (hL : LibOk L) {priv : PrivKey} (hD : 0 ≤ priv.D)
    (hpub : priv.pub = pk (priv.D • G)) {d : ℕ} (h1 : 1 ≤ d) (h2 : d < curveN) {iv : Bytes}
    (hi : iv.length = 16) (msg : Bytes) :
    ∃ b, encrypt L d iv priv.pub msg = .ok (.ok b) ∧ decrypt L priv b = .ok (.ok msg) := by
  have hK : d • G ≠ 0 := by
    rw [← natCast_zsmul]
    exact mt (zsmul_eq_zero G_ne).1 (not_dvd_range (by omega) (by omega))
  obtain ⟨x, y, hc, hd⟩ : ∃ x y, ∃ hc : y ^ 2 = x ^ 3 + 7, d • G = mk hc := by
    rcases point_cases (d • G) with h | ⟨x, y, hc, h⟩
    · exact absurd h hK
    · exact ⟨x, y, hc, h⟩
  obtain ⟨hp1, hp2⟩ := add_padding_length msg
  have hs := hL.sha512_length (secret (d • priv.D • G))
  have hk : ((L.sha512 (secret (d • priv.D • G))).take 32).length = 32 := by
    rw [List.length_take]; omega
  have hcl := cbcEncrypt_length hL hk ((addPKCSPadding msg).length / 16) iv (addPKCSPadding msg) hi
    (by omega)
  have hpl : 16 * ((addPKCSPadding msg).length / 16) = (addPKCSPadding msg).length := by omega
  have hsec : priv.D • mk hc = d • priv.D • G := by
    rw [← hd, ← natCast_zsmul, ← natCast_zsmul, ← mul_zsmul, ← mul_zsmul, mul_comm]
  have he := encrypt_eq hL (iv := iv) (msg := msg) (A := priv.D • G) hc hd
  dsimp only at he
  rw [hpub]
  refine ⟨_, he, ?_⟩
  rw [decrypt_eq hc hi (mac_length _ _) (by omega)]
  have hb := decryptBody_eq hL hD (iv := iv) (m := mac ((L.sha512 (secret (d • priv.D • G))).drop 32)
    (body iv x y (cbcEncrypt L ((L.sha512 (secret (d • priv.D • G))).take 32)
      ((addPKCSPadding msg).length / 16) iv (addPKCSPadding msg))))
    (c := cbcEncrypt L ((L.sha512 (secret (d • priv.D • G))).take 32)
      ((addPKCSPadding msg).length / 16) iv (addPKCSPadding msg)) (x := x) (y := y) (mk hc) hi
    (mac_length _ _) (by omega) (by omega)
  dsimp only at hb
  rw [hb, hsec, if_neg (not_not.2 rfl), hcl, hpl, cbc_inverse hL hk _ _ _ hi (by omega), remove_add]

/-- `Decrypt` never panics. -/
theorem decrypt_total {L : Lib} (hL : LibOk L) {priv : PrivKey} (hD : 0 ≤ priv.D) (b : Bytes) :
    ∃ o, decrypt L priv b = .ok o := by
  by_cases hb : b.length < 16 + 70 + 16 + 32
  · exact ⟨_, by rw [decrypt, if_pos hb]; rfl⟩
  rw [decrypt, if_neg hb, slice_ok (by omega) (by omega), Go.bind_ok]
  split
  · exact ⟨_, rfl⟩
  rw [slice_ok (by omega) (by omega), Go.bind_ok]
  split
  · exact ⟨_, rfl⟩
  rw [slice_ok (by omega) (by omega), Go.bind_ok, slice_ok (by omega) (by omega), Go.bind_ok]
  split
  · exact ⟨_, rfl⟩
  rw [slice_ok (by omega) (by omega), Go.bind_ok]
  obtain ⟨r, hr⟩ := parse_total ([0x04] ++ (b.drop 20).take (52 - 20) ++ (b.drop 54).take (86 - 54))
  rw [hr, Go.bind_ok]
  rcases r with e | q
  · exact ⟨_, rfl⟩
  dsimp only
  obtain ⟨A, -, rfl, -⟩ := parse_ok hr
  obtain ⟨k1, k2⟩ := slice_keys (hL.sha512_length (secret (priv.D • A)))
  rw [decryptBody]
  split
  · exact ⟨_, rfl⟩
  rename_i h16
  rw [slice_ok (by omega) (by omega), Go.bind_ok, shared_eq hD, Go.bind_ok]
  dsimp only
  rw [k1, Go.bind_ok, k2, Go.bind_ok, slice_ok (by omega) (by omega), Go.bind_ok]
  split
  · exact ⟨_, rfl⟩
  rw [slice_ok (by omega) (by omega), Go.bind_ok, slice_ok (by omega) (by omega), Go.bind_ok]
  have hlen : ((b.drop 86).take (b.length - 32 - 86)).length = b.length - 32 - 86 :=
    take_drop_length (by omega) (by omega)
  rw [cryptBlocks, hlen, if_neg (by omega), Go.bind_ok]
  refine remove_total ?_
  rw [cbcDecrypt_length hL (by
    rw [List.length_take, hL.sha512_length]; rfl) _ _ _ (by
    rw [take_drop_length (by omega) (by omega)]) (by rw [hlen]; omega)]
  omega

end Zk.Ec
