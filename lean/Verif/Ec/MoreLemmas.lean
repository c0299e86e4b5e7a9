import Verif.Ec.CryptLemmas

/-!
# Lemmas on inverses, hashes and compact signatures
-/

namespace Zk.Ec

open Zk Zk.Field Zk.Curve

/-- How an inverse is computed without running the algorithm. -/
theorem modInverse_eq {a w : Int} (h0 : 0 ≤ w) (hN : w < curveN) (h : (curveN : Int) ∣ a * w - 1) :
    modInverse a curveN = some w := by
  have ha : ¬(curveN : Int) ∣ a := by
    intro hd
    have h1 : (curveN : Int) ∣ 1 := by
      have := dvd_sub (hd.mul_right w) h
      rwa [sub_sub_cancel] at this
    revert h1
    decide +kernel
  obtain ⟨v, hv, hv0, hvN, hd⟩ := modInverse_some ha
  have h2 : (curveN : Int) ∣ a * (v - w) := by
    have := dvd_sub hd h
    rwa [sub_sub_sub_cancel_right, ← mul_sub] at this
  rcases prime_N_int.dvd_or_dvd h2 with h3 | h3
  · exact absurd h3 ha
  · have : v - w = 0 := Int.eq_zero_of_abs_lt_dvd h3 (by rw [abs_lt]; omega)
    rw [hv]
    congr 1
    omega

theorem hashToInt_eq (h : Bytes) : hashToInt h = setBytes (h.take 32) := by
  rw [hashToInt]
  have e : (if h.length > (256 + 7) / 8 then h.take ((256 + 7) / 8) else h) = h.take 32 := by
    split
    · rfl
    · rw [List.take_of_length_le (by omega)]
  rw [e, if_neg]
  rw [List.length_take]
  omega

/-- The parts of a compact signature. -/
theorem compact_parts {s : Bytes} (h : s.length = 65) : ∃ (b0 : UInt8) (rb sb : Bytes),
    s = [b0] ++ rb ++ sb ∧ rb.length = 32 ∧ sb.length = 32 := by
  obtain ⟨b0, t, rfl⟩ : ∃ c t, s = c :: t := by
    cases s with
    | nil => cases h
    | cons c t => exact ⟨c, t, rfl⟩
  rw [List.length_cons] at h
  refine ⟨b0, t.take 32, t.drop 32, ?_, ?_, ?_⟩
  · rw [List.append_assoc, List.take_append_drop]; rfl
  · rw [List.length_take]; omega
  · rw [List.length_drop]; omega

theorem compact_short {s hash : Bytes} (h : s.length ≠ 65) :
    recoverCompact s hash = .ok (.error "invalid compact signature size") := by
  rw [recoverCompact, if_pos h]
  rfl

theorem recover_panic {sig : Sig} (msg : Bytes) (i : ℕ) (c : Bool) (h0 : 0 ≤ sig.R)
    (hR : (curveN : Int) ∣ sig.R) (hx : (curveN : Int) * (i / 2 : ℕ) + sig.R < curveP) :
    recoverKeyFromSignature sig msg i c = .panic := by
  rcases recover_eq msg i c h0 with ⟨h, -⟩ | ⟨x, y, -, -, -, -, h1⟩
  · exact absurd hx h
  · rw [h1, recoverQ, modInverse_none hR]
    rfl

theorem recover_panic_iff {sig : Sig} (msg : Bytes) (i : ℕ) (c : Bool) (h0 : 0 ≤ sig.R) :
    recoverKeyFromSignature sig msg i c = .panic ↔
      (curveN : Int) ∣ sig.R ∧ (curveN : Int) * (i / 2 : ℕ) + sig.R < curveP := by
  constructor
  · intro h
    refine ⟨?_, ?_⟩
    · by_contra hR
      obtain ⟨o, ho⟩ := recover_total msg i c h0 hR
      rw [ho] at h
      cases h
    · rcases recover_eq msg i c h0 with ⟨-, h1⟩ | ⟨x, y, hx, hxP, -, -, -⟩
      · rw [h1] at h
        cases h
      · rw [← hx, curveP_eq]
        exact_mod_cast hxP
  · exact fun h => recover_panic msg i c h0 h.1 h.2

theorem compact_panic_iff {b0 : UInt8} {rb sb hash : Bytes} (hr : rb.length = 32)
    (hs : sb.length = 32) : recoverCompact ([b0] ++ rb ++ sb) hash = .panic ↔
      recoverKeyFromSignature ⟨setBytes rb, setBytes sb⟩ hash ((b0 - 27) &&& 0xfb).toNat false =
        .panic := by
  rw [recoverCompact_eq hr hs]
  rcases recoverKeyFromSignature _ _ _ _ with (_ | _) | _ <;> simp [pure, bind, Go.bind]

theorem compact_ok {b0 : UInt8} {rb sb hash : Bytes} (hr : rb.length = 32) (hs : sb.length = 32)
    {q : PubKey} {c : Bool} (h : recoverCompact ([b0] ++ rb ++ sb) hash = .ok (.ok (q, c))) :
    recoverKeyFromSignature ⟨setBytes rb, setBytes sb⟩ hash ((b0 - 27) &&& 0xfb).toNat false =
      .ok (.ok q) ∧ c = decide ((b0 - 27) &&& 4 = 4) := by
  rw [recoverCompact_eq hr hs] at h
  revert h
  rcases recoverKeyFromSignature _ _ _ _ with (_ | k) | _
  · intro h; cases h
  · intro h
    injection h with h
    injection h with h
    injection h with h1 h2
    rw [h1]
    exact ⟨rfl, h2.symm⟩
  · intro h; cases h

theorem dvd_256 {r : ℕ} (hr : r < 2 ^ 256) : (curveN : Int) ∣ (r : Int) ↔ r = 0 ∨ r = curveN := by
  rw [Int.natCast_dvd_natCast]
  constructor
  · rintro ⟨c, rfl⟩
    have : c < 2 := by
      by_contra hc
      have := Nat.mul_le_mul_left curveN (show 2 ≤ c by omega)
      have h2 : 2 ^ 256 ≤ curveN * 2 := by decide
      omega
    interval_cases c
    · exact .inl rfl
    · exact .inr (Nat.mul_one _)
  · rintro (rfl | rfl)
    · exact dvd_zero _
    · exact dvd_rfl

/-- What is recovered when the x coordinate is that of a point. -/
theorem recover_point {sig : Sig} {msg : Bytes} {i : ℕ} {c : Bool} {q : PubKey} (h0 : 0 ≤ sig.R)
    (h : recoverKeyFromSignature sig msg i c = .ok (.ok q)) {y : ℕ}
    (hy : y ^ 2 % P = ((curveN * (i / 2) + sig.R.toNat) ^ 3 + 7) % P) :
    ∃ K Q : E, q = pk Q ∧ K ≠ 0 ∧ (enc K).1 = (curveN : Int) * (i / 2 : ℕ) + sig.R ∧
      sig.R • Q = sig.S • K - hashToInt msg • G ∧ ¬(curveN : Int) ∣ sig.R := by
  rcases recover_eq msg i c h0 with ⟨-, h1⟩ | ⟨x, z, hx, hxP, hb, hr, h1⟩
  · rw [h] at h1
    cases h1
  have hR : ¬(curveN : Int) ∣ sig.R := by
    intro hd
    rw [recover_panic msg i c h0 hd (by rw [← hx, curveP_eq]; exact_mod_cast hxP)] at h
    cases h
  have hxe : curveN * (i / 2) + sig.R.toNat = x := by
    have : ((curveN * (i / 2) : ℕ) : Int) = (curveN : Int) * (i / 2 : ℕ) := by push_cast; rfl
    rw [← this] at hx
    omega
  rw [hxe] at hy
  have hc := on_curve hy
  have hz : z ^ 2 = (x : F) ^ 3 + 7 := by
    have h2 : root (x : F) ^ 2 = (y : F) ^ 2 := by
      rcases root_of_sq hc with e | e <;> rw [e]
      rw [neg_sq]
    rw [← hc, ← h2]
    rcases hr with e | e <;> rw [e]
    rw [neg_sq]
  have hxv : ((x : F)).val = x := by rw [ZMod.val_natCast, Nat.mod_eq_of_lt hxP]
  obtain ⟨Q, hQ, hQ'⟩ := recoverQ_on (sig := sig) msg (mk hz) hR
  have e1 : enc (mk hz) = (((x : ℕ) : Int), ((z.val : ℕ) : Int)) := by rw [enc_mk, hxv]
  rw [e1] at hQ
  rw [h1, hQ] at h
  injection h with h
  injection h with h
  exact ⟨mk hz, Q, h.symm, mk_ne_zero hz, by rw [e1, ← hx], hQ', hR⟩

theorem recover_unfold {sig : Sig} {msg : Bytes} {i : ℕ} {x y : Int}
    (hx : (curveN : Int) * (i / 2 : ℕ) + sig.R = x) (hP : x < curveP)
    (hd : decompressPoint x (decide (i % 2 = 1)) = .ok y) :
    recoverKeyFromSignature sig msg i false = recoverQ sig msg x y := by
  rw [recoverKeyFromSignature, hx, if_neg (not_not.2 hP), hd]
  rfl

/-! ### Verification -/

theorem verify_total (sig : Sig) (hash : Bytes) (A : E) : ∃ b, verify sig hash (pk A) = .ok b := by
  by_cases hr : 1 ≤ sig.R ∧ sig.R < curveN ∧ 1 ≤ sig.S ∧ sig.S < curveN
  · obtain ⟨h1, h2, h3, h4⟩ := hr
    obtain ⟨w, hw, -, -, -⟩ := modInverse_some (not_dvd_range h3 h4)
    exact ⟨_, verify_eq hash A h1 h2 h3 h4 hw⟩
  · exact ⟨_, verify_range sig hash A hr⟩

theorem verify_iff (sig : Sig) (hash : Bytes) (A : E) :
    verify sig hash (pk A) = .ok true ↔
      1 ≤ sig.R ∧ sig.R < curveN ∧ 1 ≤ sig.S ∧ sig.S < curveN ∧
      ∃ K : E, K ≠ 0 ∧ sig.S • K = ((setBytes (hash.take 32) : ℕ) : Int) • G + sig.R • A ∧
        (enc K).1 % (curveN : Int) = sig.R := by
  by_cases hr : 1 ≤ sig.R ∧ sig.R < curveN ∧ 1 ≤ sig.S ∧ sig.S < curveN
  · obtain ⟨h1, h2, h3, h4⟩ := hr
    obtain ⟨w, hw, -, -, hd⟩ := modInverse_some (not_dvd_range h3 h4)
    rw [verify_eq hash A h1 h2 h3 h4 hw, Go.ok.injEq, decide_eq_true_iff, ← hashToInt_eq]
    constructor
    · rintro ⟨h5, h6⟩
      exact ⟨h1, h2, h3, h4, _, h5, (vpoint_iff hd).1 rfl, h6⟩
    · rintro ⟨-, -, -, -, K, h5, h6, h7⟩
      rw [← (vpoint_iff hd).2 h6]
      exact ⟨h5, h7⟩
  · rw [verify_range sig hash A hr]
    constructor
    · intro h; cases h
    · intro h
      exact absurd ⟨h.1, h.2.1, h.2.2.1, h.2.2.2.1⟩ hr

/-- A valid signature. -/
theorem simple_valid : verify ⟨curveGx, curveGx⟩ [] (pk G) = .ok true := by
  rw [verify_iff]
  have hx : (enc G).1 = curveGx := by
    rw [G, enc_mk, ZMod.val_natCast, Nat.mod_eq_of_lt (by decide)]
  refine ⟨by decide, by decide, by decide, by decide, G, G_ne, ?_, ?_⟩
  · rw [show setBytes (List.take 32 []) = 0 from rfl, Nat.cast_zero, zero_zsmul, zero_add]
  · rw [hx]; decide

/-- The shape of what `ParseDERSignature` accepts. -/
theorem der_shape {s : Bytes} {sig : Sig} (h : parseSig true s = .ok (.ok sig)) :
    ∃ tail, s = layout (canonicalizeInt sig.R) (canonicalizeInt sig.S) ++ tail := by
  by_cases hb : BadLen s
  · rw [parseSig_panics true hb] at h
    cases h
  obtain ⟨o, ho, hsh⟩ := parseSig_total true hb
  rw [ho] at h
  injection h with h
  obtain ⟨rb, sb, tail, -, -, -, hs, h1, h2, hr⟩ := hsh sig h
  obtain ⟨rfl, -⟩ := sigRange_ok hr
  refine ⟨tail, ?_⟩
  rw [hs]
  dsimp only
  rw [← canon_of_padding (b := rb) h1, ← canon_of_padding (b := sb) h2]

/-! ### Encryption -/

theorem remove_iff (b m : Bytes) : removePKCSPadding b = .ok (.ok m) ↔
    16 ≤ b.length ∧ ∃ c : UInt8, b[b.length - 1]? = some c ∧ c.toNat ≤ 16 ∧
      m = b.take (b.length - c.toNat) := by
  rw [removePKCSPadding]
  split
  · rename_i h0
    constructor
    · intro h; cases h
    · intro h; omega
  · rename_i h0
    have hl : b.length - 1 < b.length := by omega
    rw [idx_lt hl, Go.bind_ok, List.getElem?_eq_getElem hl]
    generalize b[b.length - 1] = c
    dsimp only
    split
    · rename_i h1
      constructor
      · intro h; cases h
      · rintro ⟨h2, c', hc, h3, -⟩
        rw [Option.some.injEq] at hc
        subst hc
        omega
    · rename_i h1
      rw [slice_ok (Nat.zero_le _) (by omega), Go.bind_ok]
      simp only [List.drop_zero, Nat.sub_zero]
      constructor
      · intro h
        injection h with h
        injection h with h
        exact ⟨by omega, c, rfl, by omega, h.symm⟩
      · rintro ⟨-, c', hc, -, rfl⟩
        rw [Option.some.injEq] at hc
        subst hc
        rfl

theorem bind_eq_ok {α β : Type} {x : Go α} {f : α → Go β} {y : β} (h : (x >>= f) = .ok y) :
    ∃ a, x = .ok a ∧ f a = .ok y := by
  rcases x with a | _
  · exact ⟨a, rfl, h⟩
  · cases h

theorem slice_inv {b t : Bytes} {i j : ℕ} (h : slice b i j = .ok t) :
    i ≤ j ∧ j ≤ b.length ∧ t = (b.drop i).take (j - i) := by
  rw [slice] at h
  split at h
  · rename_i hij
    injection h with h
    exact ⟨hij.1, hij.2, h.symm⟩
  · cases h

theorem decryptBody_mac {L : Lib} {priv : PrivKey} {b m : Bytes} {q : PubKey}
    (h : decryptBody L priv b q = .ok (.ok m)) :
    ∃ s, generateSharedSecret priv q = .ok s ∧
      b.drop (b.length - 32) = mac (((L.sha512 s).drop 32).take 32) (b.take (b.length - 32)) := by
  rw [decryptBody] at h
  split at h
  · cases h
  obtain ⟨mm, h1, h⟩ := bind_eq_ok h
  obtain ⟨s, h2, h⟩ := bind_eq_ok h
  obtain ⟨ke, h3, h⟩ := bind_eq_ok h
  obtain ⟨km, h4, h⟩ := bind_eq_ok h
  obtain ⟨bd, h5, h⟩ := bind_eq_ok h
  dsimp only at h
  split at h
  · cases h
  rename_i hm
  obtain ⟨-, -, rfl⟩ := slice_inv h1
  obtain ⟨-, -, rfl⟩ := slice_inv h4
  obtain ⟨-, -, rfl⟩ := slice_inv h5
  refine ⟨s, h2, ?_⟩
  rw [not_not, List.take_of_length_le (by rw [List.length_drop]), List.drop_zero, Nat.sub_zero] at hm
  exact hm

theorem decrypt_mac {L : Lib} {priv : PrivKey} {b m : Bytes} (h : decrypt L priv b = .ok (.ok m)) :
    ∃ q s, parsePubKey ([0x04] ++ (b.drop 20).take 32 ++ (b.drop 54).take 32) = .ok (.ok q) ∧
      generateSharedSecret priv q = .ok s ∧
      b.drop (b.length - 32) = mac (((L.sha512 s).drop 32).take 32) (b.take (b.length - 32)) := by
  rw [decrypt] at h
  split at h
  · cases h
  obtain ⟨c, -, h⟩ := bind_eq_ok h
  split at h
  · cases h
  obtain ⟨lx, -, h⟩ := bind_eq_ok h
  split at h
  · cases h
  obtain ⟨xb, h1, h⟩ := bind_eq_ok h
  obtain ⟨ly, -, h⟩ := bind_eq_ok h
  split at h
  · cases h
  obtain ⟨yb, h2, h⟩ := bind_eq_ok h
  obtain ⟨r, h3, h⟩ := bind_eq_ok h
  obtain ⟨-, -, rfl⟩ := slice_inv h1
  obtain ⟨-, -, rfl⟩ := slice_inv h2
  rcases r with e | q
  · cases h
  · obtain ⟨s, h4, h5⟩ := decryptBody_mac h
    exact ⟨q, s, h3, h4, h5⟩

end Zk.Ec
