import Verif.Ec.KeyLemmas

/-!
# The encoding of signatures
-/

namespace Zk.Ec

open Zk Zk.Field Zk.Curve

/-! ### Minimal bytes -/

theorem natBytes_head {n : ℕ} {b : UInt8} {t : Bytes} (h : natBytes n = b :: t) : b ≠ 0 := by
  rintro rfl
  have hn : n ≠ 0 := by
    rintro rfl
    rw [natBytes_zero] at h
    cases h
  have h1 : (natBytes n).length ≤ t.length := by
    refine natBytes_length_le ?_
    have := setBytes_natBytes n
    rw [h, setBytes_cons] at this
    have h2 := setBytes_lt t
    rw [show (0 : UInt8).toNat = 0 from rfl] at this
    omega
  rw [h, List.length_cons] at h1
  omega

theorem natBytes_setBytes {b : UInt8} {t : Bytes} (h : b ≠ 0) :
    natBytes (setBytes (b :: t)) = b :: t := by
  have hb : 1 ≤ b.toNat := by
    rcases Nat.eq_zero_or_pos b.toNat with h0 | h0
    · exact absurd (UInt8.toNat_inj.1 (by rw [h0]; rfl)) h
    · exact h0
  refine setBytes_inj_len ?_ (setBytes_natBytes _)
  refine le_antisymm (natBytes_length_le (setBytes_lt _)) ?_
  by_contra hlt
  have h1 : (natBytes (setBytes (b :: t))).length ≤ t.length := by
    rw [List.length_cons] at hlt; omega
  have h2 := setBytes_lt (natBytes (setBytes (b :: t)))
  rw [setBytes_natBytes, setBytes_cons] at h2
  have h3 : 256 ^ (natBytes (b.toNat * 256 ^ t.length + setBytes t)).length ≤ 256 ^ t.length := by
    rw [setBytes_cons] at h1
    exact Nat.pow_le_pow_right (by decide) h1
  have h4 : 1 * 256 ^ t.length ≤ b.toNat * 256 ^ t.length := Nat.mul_le_mul_right _ hb
  omega

/-! ### Integers -/

theorem canon_cases (v : Int) : (v.natAbs = 0 ∧ canonicalizeInt v = [0]) ∨
    canonicalizeInt v = intBytes v ∧ 0 < (intBytes v).length ∨
    canonicalizeInt v = 0 :: intBytes v := by
  rw [canonicalizeInt]
  rcases hb : intBytes v with _ | ⟨b, t⟩
  · have h := setBytes_intBytes v
    rw [hb] at h
    exact .inl ⟨h.symm, rfl⟩
  · rw [if_neg (show ¬(b :: t).length = 0 by simp)]
    split
    · exact .inr (.inr rfl)
    · exact .inr (.inl ⟨rfl, by simp⟩)

theorem canon_setBytes (v : Int) : setBytes (canonicalizeInt v) = v.natAbs := by
  rcases canon_cases v with ⟨h0, h⟩ | ⟨h, -⟩ | h
  · rw [h, h0]; rfl
  · rw [h, setBytes_intBytes]
  · rw [h, setBytes_cons, setBytes_intBytes]
    show 0 * _ + _ = _
    omega

theorem canon_length (v : Int) : 0 < (canonicalizeInt v).length ∧
    (canonicalizeInt v).length ≤ (intBytes v).length + 1 := by
  rcases canon_cases v with ⟨-, h⟩ | ⟨h, h1⟩ | h
  · rw [h]; simp
  · rw [h]; exact ⟨h1, by omega⟩
  · rw [h, List.length_cons]; omega

theorem canon_length33 {v : Int} (h : v.natAbs < 2 ^ 256) : (canonicalizeInt v).length ≤ 33 := by
  have := natBytes_length_le (n := v.natAbs) (k := 32) (by
    rw [show (256 : ℕ) ^ 32 = 2 ^ 256 by norm_num]; exact h)
  have h2 := (canon_length v).2
  rw [intBytes] at h2
  omega

theorem canon_padding (v : Int) : canonicalPadding (canonicalizeInt v) = .ok none := by
  rw [canonicalizeInt]
  rcases hb : intBytes v with _ | ⟨b, t⟩
  · rfl
  · have hb0 : b ≠ 0 := natBytes_head hb
    rw [if_neg (show ¬(b :: t).length = 0 by simp), List.headD_cons]
    by_cases hh : b &&& 0x80 = 0
    · rw [if_neg (not_not.2 hh), canonicalPadding, idx_cons, Go.bind_ok, hh, if_neg (by decide),
        if_neg (fun h => hb0 h.2)]
      rfl
    · have h80 : b &&& 0x80 = 0x80 := by
        revert hh
        have hall : ∀ c : Fin 256, let c := UInt8.ofNat c.val
            ¬c &&& 0x80 = 0 → c &&& 0x80 = 0x80 := by decide +kernel
        have := hall ⟨b.toNat, b.toNat_lt⟩
        dsimp only at this
        rwa [UInt8.ofNat_toNat] at this
      rw [if_pos hh, canonicalPadding, idx_cons, Go.bind_ok, if_neg (by decide),
        if_pos ⟨by simp, rfl⟩, idx_succ, idx_cons, Go.bind_ok, if_neg (not_not.2 h80)]
      rfl

/-- Only the minimal form passes the padding test. -/
theorem canon_of_padding {b : Bytes} (h : canonicalPadding b = .ok none) :
    b = canonicalizeInt (setBytes b) := by
  rcases b with _ | ⟨a, t⟩
  · cases h
  rw [canonicalPadding, idx_cons, Go.bind_ok] at h
  split at h
  · cases h
  rename_i h80
  have hno : ∀ c : Fin 256, let c := UInt8.ofNat c.val
      ¬c &&& 0x80 = 0x80 → c &&& 0x80 = 0 := by decide +kernel
  have hno' : ∀ c : UInt8, ¬c &&& 0x80 = 0x80 → c &&& 0x80 = 0 := by
    intro c
    have := hno ⟨c.toNat, c.toNat_lt⟩
    dsimp only at this
    rwa [UInt8.ofNat_toNat] at this
  by_cases ha : a = 0
  · subst ha
    rcases t with _ | ⟨c, t⟩
    · decide +kernel
    rw [if_pos ⟨by simp, rfl⟩, idx_succ, idx_cons, Go.bind_ok] at h
    split at h
    · cases h
    rename_i hc
    have hc' : c &&& 0x80 = 0x80 := not_not.1 hc
    have hc0 : c ≠ 0 := by rintro rfl; revert hc'; decide
    have e : setBytes (0 :: c :: t) = setBytes (c :: t) := by
      rw [setBytes_cons]
      show 0 * _ + _ = _
      omega
    rw [e, canonicalizeInt, intBytes, Int.natAbs_natCast, natBytes_setBytes hc0,
      if_neg (show ¬(c :: t).length = 0 by simp), List.headD_cons, hc', if_pos (by decide)]
  · rw [canonicalizeInt, intBytes, Int.natAbs_natCast, natBytes_setBytes ha,
      if_neg (show ¬(a :: t).length = 0 by simp), List.headD_cons, hno' a h80,
      if_neg (by decide)]

/-- The padding test on a non-empty string never panics. -/
theorem padding_total {b : Bytes} (h : 0 < b.length) : ∃ r, canonicalPadding b = .ok r := by
  rcases b with _ | ⟨a, t⟩
  · cases h
  rw [canonicalPadding, idx_cons, Go.bind_ok]
  split
  · exact ⟨_, rfl⟩
  split
  · rename_i h2
    rcases t with _ | ⟨c, t⟩
    · simp at h2
    rw [idx_succ, idx_cons, Go.bind_ok]
    split <;> exact ⟨_, rfl⟩
  · exact ⟨_, rfl⟩

theorem derCheck_total {der : Bool} {b : Bytes} (h : 0 < b.length) :
    ∃ r, derCheck der b = .ok r := by
  cases der
  · exact ⟨_, rfl⟩
  · exact padding_total h

theorem derCheck_canon (der : Bool) (v : Int) : derCheck der (canonicalizeInt v) = .ok none := by
  cases der
  · rfl
  · exact canon_padding v

/-! ### The layout -/

/-- A signature with the given integer fields (specification; btcec/signature.go:46). -/
def layout (rb sb : Bytes) : Bytes :=
  [0x30, UInt8.ofNat (4 + rb.length + sb.length), 0x02, UInt8.ofNat rb.length] ++ rb ++
    [0x02, UInt8.ofNat sb.length] ++ sb

theorem layout_length (rb sb : Bytes) : (layout rb sb).length = 6 + rb.length + sb.length := by
  rw [layout]; simp only [List.length_append, List.length_cons, List.length_nil]; omega

theorem serialize_layout (sig : Sig) : sigSerialize sig = layout (canonicalizeInt sig.R)
    (canonicalizeInt (if sig.S > halfOrder then (curveN : Int) - sig.S else sig.S)) := by
  rw [sigSerialize, layout]
  refine congrArg (fun n => [0x30, UInt8.ofNat n, 0x02, _] ++ _ ++ _ ++ _) ?_
  omega

/-- What remains to be checked when the fields are laid out.  See btcec/signature.go:88-200. -/
def fields (der : Bool) (rb sb : Bytes) : Go (Except Err Sig) := do
  let e ← derCheck der rb
  match e with
  | some e => pure (.error ("signature R: " ++ e))
  | none =>
    let e ← derCheck der sb
    match e with
    | some e => pure (.error ("signature S: " ++ e))
    | none => pure (sigRange (setBytes rb) (setBytes sb))

theorem parseSigS_layout (der : Bool) (pre sb : Bytes) (r : Int) (hs : 0 < sb.length)
    (hl : sb.length < 256) :
    parseSigS der (pre ++ ([0x02, UInt8.ofNat sb.length] ++ sb)) pre.length r = (do
      let e ← derCheck der sb
      match e with
      | some e => pure (.error ("signature S: " ++ e))
      | none => pure (sigRange r (setBytes sb))) := by
  have e0 : idx (pre ++ ([0x02, UInt8.ofNat sb.length] ++ sb)) pre.length = .ok 0x02 :=
    idx_append_right pre _ 0
  have e1 : idx (pre ++ ([0x02, UInt8.ofNat sb.length] ++ sb)) (pre.length + 1) =
      .ok (UInt8.ofNat sb.length) := idx_append_right pre _ 1
  have hlen : (pre ++ ([0x02, UInt8.ofNat sb.length] ++ sb)).length =
      pre.length + 1 + 1 + sb.length := by
    simp only [List.length_append, List.length_cons, List.length_nil]; omega
  have hn : (UInt8.ofNat sb.length).toNat = sb.length := by
    rw [UInt8.toNat_ofNat']; omega
  have s1 : slice (pre ++ ([0x02, UInt8.ofNat sb.length] ++ sb)) (pre.length + 1 + 1)
      (pre.length + 1 + 1 + sb.length) = .ok sb := by
    rw [← List.append_assoc]
    exact slice_end (by simp) (by simp)
  rw [parseSigS, e0, Go.bind_ok, if_neg (not_not.2 rfl)]
  dsimp only
  rw [e1, Go.bind_ok, hn, hlen, if_neg (by omega), s1, Go.bind_ok]
  rcases derCheck der sb with e | _
  · rw [Go.bind_ok, Go.bind_ok]
    rcases e with _ | e
    · dsimp only
      rw [if_neg (not_not.2 rfl)]
    · rfl
  · rfl

theorem parseSigR_layout (der : Bool) (rb sb : Bytes) (hr : 0 < rb.length) (hs : 0 < sb.length)
    (hl : 4 + rb.length + sb.length < 254) :
    parseSigR der (layout rb sb) = fields der rb sb := by
  have hn : (UInt8.ofNat rb.length).toNat = rb.length := by
    rw [UInt8.toNat_ofNat']; omega
  have s1 : slice (layout rb sb) 4 (4 + rb.length) = .ok rb := by
    rw [layout, List.append_assoc, List.append_assoc]
    exact slice_append rfl rfl
  have e0 : idx (layout rb sb) 2 = .ok 0x02 := rfl
  have e1 : idx (layout rb sb) 3 = .ok (UInt8.ofNat rb.length) := rfl
  have hS : ∀ r, parseSigS der (layout rb sb) (4 + rb.length) r = (do
      let e ← derCheck der sb
      match e with
      | some e => pure (.error ("signature S: " ++ e))
      | none => pure (sigRange r (setBytes sb))) := by
    intro r
    rw [← parseSigS_layout der ([0x30, UInt8.ofNat (4 + rb.length + sb.length), 0x02,
      UInt8.ofNat rb.length] ++ rb) sb r hs (by omega), layout, List.append_assoc]
    refine congrArg (fun n => parseSigS der _ n r) ?_
    simp only [List.length_append, List.length_cons, List.length_nil]
  rw [parseSigR, e0, Go.bind_ok, if_neg (not_not.2 rfl), e1, Go.bind_ok]
  dsimp only
  rw [hn, layout_length, if_neg (by push_cast; omega), s1, Go.bind_ok, fields]
  rcases derCheck der rb with e | _
  · rw [Go.bind_ok, Go.bind_ok]
    rcases e with _ | e
    · exact hS _
    · rfl
  · rfl

theorem parseSig_layout (der : Bool) (rb sb tail : Bytes) (hr : 0 < rb.length) (hs : 0 < sb.length)
    (hl : 4 + rb.length + sb.length < 254) :
    parseSig der (layout rb sb ++ tail) = fields der rb sb := by
  have hL := layout_length rb sb
  have hn : (UInt8.ofNat (4 + rb.length + sb.length) + 2).toNat = (layout rb sb).length := by
    rw [UInt8.toNat_add, UInt8.toNat_ofNat', hL]
    show (_ % _ + 2) % _ = _
    omega
  have e0 : idx (layout rb sb ++ tail) 0 = .ok 0x30 := rfl
  have e1 : idx (layout rb sb ++ tail) 1 = .ok (UInt8.ofNat (4 + rb.length + sb.length)) := rfl
  have hlen : (layout rb sb ++ tail).length = (layout rb sb).length + tail.length :=
    List.length_append
  have s1 : slice (layout rb sb ++ tail) 0 (layout rb sb).length = .ok (layout rb sb) :=
    slice_append (a := []) (b := layout rb sb) (c := tail) rfl (by simp)
  rw [parseSig, if_neg (by omega), e0, Go.bind_ok, if_neg (not_not.2 rfl), e1, Go.bind_ok, hn,
    if_neg (by omega), s1, Go.bind_ok, parseSigR_layout der rb sb hr hs hl]

/-! ### What is accepted -/

theorem drop_cons {b : Bytes} {i : ℕ} (h : i < b.length) : ∃ c, idx b i = .ok c ∧
    b.drop i = c :: b.drop (i + 1) := ⟨b[i], idx_lt h, List.drop_eq_getElem_cons h⟩

/-- The end of `parseSig`: total, and the shape of what it accepts. -/
theorem parseSigS_total (der : Bool) (s : Bytes) (i : ℕ) (r : Int) (h : i + 3 ≤ s.length) :
    ∃ o, parseSigS der s i r = .ok o ∧ ∀ sig, o = .ok sig →
      ∃ sb, 0 < sb.length ∧ sb.length < 256 ∧
        s.drop i = [0x02, UInt8.ofNat sb.length] ++ sb ∧ derCheck der sb = .ok none ∧
        sigRange r (setBytes sb) = .ok sig := by
  obtain ⟨m, hm, hd⟩ := drop_cons (b := s) (i := i) (by omega)
  obtain ⟨l, hl, hd'⟩ := drop_cons (b := s) (i := i + 1) (by omega)
  rw [parseSigS, hm, Go.bind_ok]
  split
  · exact ⟨_, rfl, fun _ h => by cases h⟩
  rename_i hm2
  dsimp only
  rw [hl, Go.bind_ok]
  split
  · exact ⟨_, rfl, fun _ h => by cases h⟩
  rename_i hlen
  have hll := l.toNat_lt
  have hle : i + 1 + 1 + l.toNat ≤ s.length := by omega
  rw [slice_ok (by omega) hle, Go.bind_ok]
  set sb := (s.drop (i + 1 + 1)).take (i + 1 + 1 + l.toNat - (i + 1 + 1)) with hsb
  have hsl : sb.length = l.toNat := by
    rw [hsb, take_drop_length (by omega) hle]; omega
  obtain ⟨e, he⟩ := derCheck_total (der := der) (b := sb) (by omega)
  rw [he, Go.bind_ok]
  rcases e with _ | e
  · dsimp only
    split
    · exact ⟨_, rfl, fun _ h => by cases h⟩
    rename_i hfin
    refine ⟨_, rfl, fun sig hsig => ⟨sb, by omega, by omega, ?_, he, hsig⟩⟩
    rw [hd, hd', hsl, UInt8.ofNat_toNat, not_not.1 hm2]
    have : sb = s.drop (i + 1 + 1) := by
      rw [hsb]
      exact List.take_of_length_le (by rw [List.length_drop]; omega)
    rw [this]
    rfl
  · exact ⟨_, rfl, fun _ h => by cases h⟩

theorem parseSigR_total (der : Bool) (s : Bytes) (h : 4 ≤ s.length) :
    ∃ o, parseSigR der s = .ok o ∧ ∀ sig, o = .ok sig →
      ∃ rb sb, 0 < rb.length ∧ 0 < sb.length ∧ rb.length < 256 ∧ sb.length < 256 ∧
        s.drop 2 = [0x02, UInt8.ofNat rb.length] ++ rb ++ [0x02, UInt8.ofNat sb.length] ++ sb ∧
        derCheck der rb = .ok none ∧ derCheck der sb = .ok none ∧
        sigRange (setBytes rb) (setBytes sb) = .ok sig := by
  obtain ⟨m, hm, hd⟩ := drop_cons (b := s) (i := 2) (by omega)
  obtain ⟨l, hl, hd'⟩ := drop_cons (b := s) (i := 2 + 1) (by omega)
  rw [parseSigR, hm, Go.bind_ok]
  split
  · exact ⟨_, rfl, fun _ h => by cases h⟩
  rename_i hm2
  rw [hl, Go.bind_ok]
  dsimp only
  split
  · exact ⟨_, rfl, fun _ h => by cases h⟩
  rename_i hlen
  have hll := l.toNat_lt
  have hle : 4 + l.toNat + 3 ≤ s.length := by omega
  rw [slice_ok (by omega) (by omega), Go.bind_ok]
  set rb := (s.drop 4).take (4 + l.toNat - 4) with hrb
  have hsl : rb.length = l.toNat := by
    rw [hrb, take_drop_length (by omega) (by omega)]; omega
  obtain ⟨e, he⟩ := derCheck_total (der := der) (b := rb) (by omega)
  rw [he, Go.bind_ok]
  rcases e with _ | e
  · obtain ⟨o, ho, hsh⟩ := parseSigS_total der s (4 + l.toNat) (setBytes rb) hle
    refine ⟨o, ho, fun sig hsig => ?_⟩
    obtain ⟨sb, h1, h2, h3, h4, h5⟩ := hsh sig hsig
    refine ⟨rb, sb, by omega, h1, by omega, h2, ?_, he, h4, h5⟩
    have hsplit : s.drop 4 = rb ++ s.drop (4 + l.toNat) := by
      have : s.drop (4 + l.toNat) = (s.drop 4).drop l.toNat := by rw [List.drop_drop]
      rw [this, hrb, Nat.add_sub_cancel_left, List.take_append_drop]
    rw [hd, hd', hsl, UInt8.ofNat_toNat, not_not.1 hm2]
    show _ :: _ :: s.drop 4 = _
    rw [hsplit, h3]
    simp
  · exact ⟨_, rfl, fun _ h => by cases h⟩

/-- The strings on which `parseSig` panics (specification; btcec/signature.go:103-129). -/
def BadLen (s : Bytes) : Prop :=
  8 ≤ s.length ∧ s[0]? = some 0x30 ∧
    (s[1]? = some 254 ∨ s[1]? = some 255 ∨ s[1]? = some 0 ∨ (s[1]? = some 1 ∧ s[2]? = some 0x02))

instance (s : Bytes) : Decidable (BadLen s) := by unfold BadLen; infer_instance

theorem idx_of_get {b : Bytes} {i : ℕ} {c : UInt8} (h : b[i]? = some c) : idx b i = .ok c := by
  rw [idx, h]

theorem parseSig_eq (der : Bool) {s : Bytes} {l : UInt8} (h8 : 8 ≤ s.length)
    (h0 : s[0]? = some 0x30) (h1 : s[1]? = some l) (hl : (l + 2).toNat ≤ s.length) :
    parseSig der s = parseSigR der (s.take (l + 2).toNat) := by
  rw [parseSig, if_neg (by omega), idx_of_get h0, Go.bind_ok, if_neg (not_not.2 rfl),
    idx_of_get h1, Go.bind_ok, if_neg (by omega), slice_ok (Nat.zero_le _) hl, Go.bind_ok,
    List.drop_zero, Nat.sub_zero]

theorem idx_short {b : Bytes} {i : ℕ} (h : b.length ≤ i) : idx b i = .panic := by
  rw [idx, List.getElem?_eq_none h]

theorem parseSig_panics (der : Bool) {s : Bytes} (h : BadLen s) : parseSig der s = .panic := by
  obtain ⟨h8, h0, h1⟩ := h
  have key : ∀ l : UInt8, s[1]? = some l → (l + 2).toNat ≤ 2 → parseSig der s = .panic := by
    intro l hl hs
    rw [parseSig_eq der h8 h0 hl (by omega), parseSigR,
      idx_short (by rw [List.length_take]; omega)]
    rfl
  rcases h1 with h1 | h1 | h1 | ⟨h1, h2⟩
  · exact key _ h1 (by decide)
  · exact key _ h1 (by decide)
  · exact key _ h1 (by decide)
  · rw [parseSig_eq der h8 h0 h1 (show 3 ≤ s.length by omega), parseSigR,
      idx_of_get (c := 0x02) (by
        rw [List.getElem?_take, if_pos (by decide), h2]),
      Go.bind_ok, if_neg (not_not.2 rfl), idx_short (by
        rw [List.length_take]; show min 3 _ ≤ _; omega)]
    rfl

theorem parseSig_total (der : Bool) {s : Bytes} (h : ¬BadLen s) :
    ∃ o, parseSig der s = .ok o ∧ ∀ sig, o = .ok sig →
      ∃ rb sb tail, 0 < rb.length ∧ 0 < sb.length ∧ 4 + rb.length + sb.length < 254 ∧
        s = layout rb sb ++ tail ∧
        derCheck der rb = .ok none ∧ derCheck der sb = .ok none ∧
        sigRange (setBytes rb) (setBytes sb) = .ok sig := by
  by_cases h8 : s.length < 8
  · exact ⟨.error "malformed signature: too short", by rw [parseSig, if_pos h8]; rfl,
      fun _ h => by cases h⟩
  obtain ⟨a, l, c, t, rfl⟩ : ∃ a l c t, s = a :: l :: c :: t := by
    rcases s with _ | ⟨a, _ | ⟨l, _ | ⟨c, t⟩⟩⟩
    · simp at h8
    · simp at h8
    · simp at h8
    · exact ⟨a, l, c, t, rfl⟩
  by_cases h0 : a = 0x30
  swap
  · refine ⟨.error "malformed signature: no header magic", ?_, fun _ h => by cases h⟩
    rw [parseSig, if_neg h8, idx_cons, Go.bind_ok, if_pos h0]; rfl
  subst h0
  by_cases hl : (l + 2).toNat ≤ (0x30 :: l :: c :: t).length
  swap
  · refine ⟨.error "malformed signature: bad length", ?_, fun _ h => by cases h⟩
    rw [parseSig, if_neg h8, idx_cons, Go.bind_ok, if_neg (not_not.2 rfl), idx_succ, idx_cons,
      Go.bind_ok, if_pos (by omega)]
    rfl
  rw [parseSig_eq der (by omega) rfl rfl hl]
  by_cases h4 : 4 ≤ (l + 2).toNat
  · obtain ⟨o, ho, hsh⟩ := parseSigR_total der ((0x30 :: l :: c :: t).take (l + 2).toNat)
      (by rw [List.length_take]; omega)
    refine ⟨o, ho, fun sig hsig => ?_⟩
    obtain ⟨rb, sb, h1, h2, h3, h4', h5, h6, h7, h9⟩ := hsh sig hsig
    have hadd : (l + 2).toNat = (l.toNat + 2) % 256 := UInt8.toNat_add _ _
    have hll := l.toNat_lt
    have hlen : (l + 2).toNat = 6 + rb.length + sb.length := by
      have := congrArg List.length h5
      rw [List.length_drop, List.length_take, min_eq_left hl] at this
      simp only [List.length_append, List.length_cons, List.length_nil] at this
      omega
    refine ⟨rb, sb, (0x30 :: l :: c :: t).drop (l + 2).toNat, h1, h2, by omega, ?_, h6, h7, h9⟩
    have hl2 : l = UInt8.ofNat (4 + rb.length + sb.length) := by
      refine UInt8.toNat_inj.1 ?_
      rw [UInt8.toNat_ofNat']
      omega
    have htk : (0x30 :: l :: c :: t).take (l + 2).toNat = layout rb sb := by
      rw [← List.take_append_drop 2 ((0x30 :: l :: c :: t).take (l + 2).toNat), h5, List.take_take,
        min_eq_left (by omega), layout, ← hl2]
      rfl
    rw [← htk, List.take_append_drop]
  · have hsmall : ∀ l : Fin 256, let l := UInt8.ofNat l.val
        ¬4 ≤ (l + 2).toNat → l = 254 ∨ l = 255 ∨ l = 0 ∨ l = 1 := by decide +kernel
    have := hsmall ⟨l.toNat, l.toNat_lt⟩
    dsimp only at this
    rw [UInt8.ofNat_toNat] at this
    have h8' : 8 ≤ (0x30 :: l :: c :: t).length := by omega
    rcases this h4 with rfl | rfl | rfl | rfl
    · exact absurd ⟨h8', rfl, .inl rfl⟩ h
    · exact absurd ⟨h8', rfl, .inr (.inl rfl)⟩ h
    · exact absurd ⟨h8', rfl, .inr (.inr (.inl rfl))⟩ h
    · have hc : c ≠ 0x02 := fun hc =>
        h ⟨h8', rfl, .inr (.inr (.inr ⟨rfl, by rw [hc]; rfl⟩))⟩
      refine ⟨.error "malformed signature: no 1st int marker", ?_, fun _ h => by cases h⟩
      show parseSigR der (0x30 :: 1 :: c :: t.take 0) = _
      rw [parseSigR]
      show (if c ≠ 0x02 then _ else _) = _
      rw [if_pos hc]
      rfl

theorem sigRange_ok {r s : Int} {sig : Sig} (h : sigRange r s = .ok sig) :
    sig = ⟨r, s⟩ ∧ 1 ≤ r ∧ r < curveN ∧ 1 ≤ s ∧ s < curveN := by
  rw [sigRange] at h
  split at h
  · cases h
  rename_i h1
  split at h
  · cases h
  rename_i h2
  split at h
  · cases h
  split at h
  · cases h
  injection h with h
  have h1' := Int.sign_eq_one_iff_pos.1 (not_not.1 h1)
  have h2' := Int.sign_eq_one_iff_pos.1 (not_not.1 h2)
  exact ⟨h.symm, by omega, by omega, by omega, by omega⟩

theorem sigRange_eq {r s : Int} (h1 : 1 ≤ r) (h2 : r < curveN) (h3 : 1 ≤ s) (h4 : s < curveN) :
    sigRange r s = .ok ⟨r, s⟩ := by
  rw [sigRange, if_neg (not_not.2 (Int.sign_eq_one_of_pos (by omega))),
    if_neg (not_not.2 (Int.sign_eq_one_of_pos (by omega))), if_neg (by omega), if_neg (by omega)]

theorem fields_canon (der : Bool) {r s : Int} (h1 : 1 ≤ r) (h2 : r < curveN) (h3 : 1 ≤ s)
    (h4 : s < curveN) :
    fields der (canonicalizeInt r) (canonicalizeInt s) = .ok (.ok ⟨r, s⟩) := by
  rw [fields, derCheck_canon, Go.bind_ok]
  dsimp only
  rw [derCheck_canon, Go.bind_ok]
  dsimp only
  rw [canon_setBytes, canon_setBytes, Int.natAbs_of_nonneg (by omega),
    Int.natAbs_of_nonneg (by omega), sigRange_eq h1 h2 h3 h4]
  rfl

end Zk.Ec
