import Verif.Ec.CryptLemmas
import Verif.Ec.KeyLemmas
import Verif.Ec.Example

/-!
# C163: the nonce of `Sign` is the one of RFC 6979

RFC 6979, section 3.2, with HMAC-SHA-256 and the order N of secp256k1 is written down here without
reference to the code: octet strings by their digits, the candidates as a sequence, the nonce as the first
candidate in range.
-/

namespace Zk.Ec.Rfc6979

open Zk Zk.Curve Zk.Ec

/-- RFC 6979, 2.3.3 (int2octets): the 32 digits of a number to the base 256.  To be compared with
btcec/signature.go:507-526. -/
def octets (x : Nat) : Bytes := (List.range 32).map fun i => UInt8.ofNat (x / 256 ^ (31 - i))

/-- RFC 6979, 2.3.2 (bits2int): the first 256 bits as a number, for strings of bytes.  To be compared with
btcec/signature.go:250-270. -/
def bitsToInt (b : Bytes) : Nat := setBytes b / 256 ^ (b.length - 32)

/-- RFC 2104 (HMAC) with SHA-256 for a key of at most 64 bytes.  To be compared with
btcec/signature.go:500-505. -/
def hmac (key msg : Bytes) : Bytes :=
  let pad (c : UInt8) := (List.range 64).map fun i => key.getD i 0 ^^^ c
  sha256 (pad 0x5c ++ sha256 (pad 0x36 ++ msg))

/-- RFC 6979, 3.2, steps b to g, for the private key `x` and the hash `h`: the pair (K, V).  To be compared
with btcec/signature.go:459-477. -/
def start (x : Nat) (h : Bytes) : Bytes × Bytes :=
  let seed := octets x ++ octets (bitsToInt h % curveN)
  let k1 := hmac (List.replicate 32 0) (List.replicate 32 1 ++ 0 :: seed)
  let v1 := hmac k1 (List.replicate 32 1)
  let k2 := hmac k1 (v1 ++ 1 :: seed)
  (k2, hmac k2 v1)

/-- RFC 6979, 3.2, step h: the pair (K, V) before the candidate number `i`.  To be compared with
btcec/signature.go:479-497. -/
def state (x : Nat) (h : Bytes) : Nat → Bytes × Bytes
  | 0 => start x h
  | i + 1 =>
    let (k, v) := state x h i
    let t := hmac k v
    let k' := hmac k (t ++ [0])
    (k', hmac k' t)

/-- RFC 6979, 3.2, step h: the candidate number `i`.  To be compared with btcec/signature.go:482-491. -/
def candidate (x : Nat) (h : Bytes) (i : Nat) : Nat :=
  bitsToInt (hmac (state x h i).1 (state x h i).2)

theorem octets_length (x : Nat) : (octets x).length = 32 := by simp [octets]

theorem setBytes_digits (n x : Nat) :
    setBytes ((List.range n).map fun i => UInt8.ofNat (x / 256 ^ (n - 1 - i))) = x % 256 ^ n := by
  induction n generalizing x with
  | zero => simp [setBytes, Nat.mod_one]
  | succ n ih =>
    rw [List.range_succ, List.map_append, setBytes_append]
    have h1 : (List.range n).map (fun i => UInt8.ofNat (x / 256 ^ (n + 1 - 1 - i))) =
        (List.range n).map fun i => UInt8.ofNat (x / 256 / 256 ^ (n - 1 - i)) := by
      refine List.map_congr_left fun i hi => ?_
      have := List.mem_range.1 hi
      rw [Nat.div_div_eq_div_mul, ← pow_succ', show n + 1 - 1 - i = n - 1 - i + 1 by omega]
    rw [h1, ih]
    have h2 : setBytes [UInt8.ofNat x] = x % 256 := by simp [setBytes]
    simp only [List.map_cons, List.map_nil, Nat.add_sub_cancel, Nat.sub_self, pow_zero, Nat.div_one,
      List.length_cons, List.length_nil, zero_add, pow_one]
    rw [h2, pow_succ', Nat.mod_mul]
    ring

theorem setBytes_octets {x : Nat} (h : x < 2 ^ 256) : setBytes (octets x) = x := by
  have := setBytes_digits 32 x
  rw [octets]
  rw [show (32 - 1 : Nat) = 31 from rfl] at this
  rw [this]
  exact Nat.mod_eq_of_lt (by rw [show (256 : Nat) ^ 32 = 2 ^ 256 by decide]; exact h)

theorem int2octets_eq {x : Nat} (h : x < 2 ^ 256) : int2octets (x : Int) 32 = octets x := by
  have hl : (intBytes (x : Int)).length ≤ 32 := by
    rw [intBytes]
    exact natBytes_length_le (by rw [show (256 : Nat) ^ 32 = 2 ^ 256 by decide]; simpa using h)
  have hs : setBytes (intBytes (x : Int)) = x := by rw [setBytes_intBytes]; simp
  apply setBytes_inj_len
  · rw [octets_length, int2octets]
    split
    · simp; omega
    · split
      · omega
      · omega
  · rw [setBytes_octets h, int2octets]
    split
    · rw [Field.setBytes_zeros, hs]
    · rw [if_neg (by omega), hs]

theorem hashToInt_eq (b : Bytes) : hashToInt b = (bitsToInt b : Int) := by
  have e : ∀ c : Bytes, c.length ≤ 32 → ¬ ((c.length * 8 : Nat) : Int) - (256 : Nat) > 0 := by
    intro c hc; push_cast; omega
  rw [bitsToInt]
  by_cases hb : b.length > 32
  · have hl : (b.take 32).length = 32 := by rw [List.length_take]; omega
    have h1 : hashToInt b = (setBytes (b.take 32) : Int) := by
      simp only [hashToInt, show (256 + 7) / 8 = 32 from rfl, if_pos hb, if_neg (e _ hl.le)]
    have e2 := setBytes_append (b.take 32) (b.drop 32)
    rw [List.take_append_drop, List.length_drop] at e2
    have hlt := setBytes_lt (b.drop 32)
    rw [List.length_drop] at hlt
    rw [h1, e2, Nat.mul_comm, Nat.mul_add_div (by positivity), Nat.div_eq_of_lt hlt, Nat.add_zero]
  · have h1 : hashToInt b = (setBytes b : Int) := by
      simp only [hashToInt, show (256 + 7) / 8 = 32 from rfl, if_neg hb, if_neg (e b (by omega))]
    rw [h1, show b.length - 32 = 0 by omega, pow_zero, Nat.div_one]

theorem bitsToInt_lt (b : Bytes) : bitsToInt b < 2 ^ 256 := by
  rw [bitsToInt, Nat.div_lt_iff_lt_mul (by positivity)]
  refine lt_of_lt_of_le (setBytes_lt b) ?_
  rw [show (2 : Nat) ^ 256 = 256 ^ 32 by decide, ← pow_add]
  exact Nat.pow_le_pow_right (by decide) (by omega)

theorem bits2octets_eq (h : Bytes) : bits2octets h 32 = octets (bitsToInt h % curveN) := by
  have hlt := bitsToInt_lt h
  have h2 : (2 : Nat) ^ 256 < 2 * curveN := by decide
  rw [bits2octets, hashToInt_eq]
  by_cases hc : bitsToInt h < curveN
  · rw [if_pos (Int.sign_neg_iff.2 (by omega)), Nat.mod_eq_of_lt hc, int2octets_eq hlt]
  · have e : bitsToInt h % curveN = bitsToInt h - curveN := by
      rw [Nat.mod_eq_sub_mod (by omega), Nat.mod_eq_of_lt (by omega)]
    have hs : ¬ ((bitsToInt h : Int) - curveN).sign < 0 := by
      rw [Int.sign_neg_iff]; omega
    rw [if_neg hs, e, ← int2octets_eq (by omega)]
    congr 1
    omega

theorem hmac_eq {k : Bytes} (hk : k.length = 32) (m : Bytes) : mac k m = hmac k m := by
  have hp : ∀ c : UInt8, (k ++ List.replicate (64 - k.length) 0).map (· ^^^ c) =
      (List.range 64).map fun i => k.getD i 0 ^^^ c := by
    intro c
    refine List.ext_getElem (by simp [hk]) fun i h1 h2 => ?_
    simp only [List.getElem_map, List.getElem_range]
    congr 1
    by_cases hi : i < k.length
    · rw [List.getElem_append_left hi, List.getD_eq_getElem?_getD, List.getElem?_eq_getElem hi,
        Option.getD_some]
    · rw [List.getElem_append_right (by omega), List.getElem_replicate, List.getD_eq_getElem?_getD,
        List.getElem?_eq_none (by omega), Option.getD_none]
  rw [mac, if_neg (by omega)]
  rw [hp, hp, hmac]

theorem hmac_length (k m : Bytes) : (hmac k m).length = 32 := by rw [hmac]; exact sha256_length _

attribute [local irreducible] hmac

theorem stepH2_eq {k v : Bytes} (hk : k.length = 32) : stepH2 2 k v [] = (hmac k v, hmac k v) := by
  rw [stepH2, if_pos (by simp), hmac_eq hk]
  dsimp only
  rw [List.nil_append, stepH2, if_neg (by rw [hmac_length]; omega)]

theorem state_length (x : Nat) (h : Bytes) : ∀ i, (state x h i).1.length = 32
  | 0 => by rw [state, start]; exact hmac_length _ _
  | i + 1 => by rw [state]; exact hmac_length _ _

theorem candidate_eq (x : Nat) (h : Bytes) (i : Nat) :
    hashToInt (hmac (state x h i).1 (state x h i).2) = (candidate x h i : Int) := by
  rw [hashToInt_eq, candidate]

theorem state_succ (x : Nat) (h : Bytes) (i : Nat) : state x h (i + 1) =
    (hmac (state x h i).1 (hmac (state x h i).1 (state x h i).2 ++ [0]),
      hmac (hmac (state x h i).1 (hmac (state x h i).1 (state x h i).2 ++ [0]))
        (hmac (state x h i).1 (state x h i).2)) := by rw [state]

theorem state_zero (x : Nat) (h : Bytes) : state x h 0 = start x h := by rw [state]

attribute [local irreducible] candidate state

theorem stepH_eq (x : Nat) (h : Bytes) (k : Int) : ∀ (fuel i : Nat),
    stepH fuel (state x h i).1 (state x h i).2 = some k ↔
      ∃ j < fuel, k = candidate x h (i + j) ∧ (1 ≤ k ∧ k < curveN) ∧
        ∀ l < j, ¬ (1 ≤ candidate x h (i + l) ∧ candidate x h (i + l) < curveN) := by
  intro fuel
  induction fuel with
  | zero => intro i; simp [stepH]
  | succ fuel ih =>
    intro i
    have hk := state_length x h i
    have hc := candidate_eq x h i
    have hst := state_succ x h i
    rw [stepH, stepH2_eq hk]
    dsimp only
    rw [hc, hmac_eq hk, hmac_eq (hmac_length _ _)]
    have hi := ih (i + 1)
    rw [hst] at hi
    dsimp only at hi
    by_cases hr : 1 ≤ candidate x h i ∧ candidate x h i < curveN
    · rw [if_pos (by omega), Option.some.injEq]
      constructor
      · intro e
        exact ⟨0, by omega, by rw [← e, Nat.add_zero], by omega, fun l hl => by omega⟩
      · rintro ⟨j, hj, e, -, hl⟩
        rcases Nat.eq_zero_or_pos j with rfl | hj0
        · exact e.symm
        · exact absurd hr (hl 0 hj0)
    · rw [if_neg (by omega), hi]
      constructor
      · rintro ⟨j, hj, e, hk1, hl⟩
        refine ⟨j + 1, by omega, by rw [e, show i + 1 + j = i + (j + 1) by omega], hk1, fun l hl' => ?_⟩
        rcases Nat.eq_zero_or_pos l with rfl | h0
        · exact hr
        · have := hl (l - 1) (by omega)
          rwa [show i + 1 + (l - 1) = i + l by omega] at this
      · rintro ⟨j, hj, e, hk1, hl⟩
        rcases Nat.eq_zero_or_pos j with rfl | h0
        · rw [Nat.add_zero] at e
          omega
        · refine ⟨j - 1, by omega, by rw [e, show i + 1 + (j - 1) = i + j by omega], hk1,
            fun l hl' => ?_⟩
          have := hl (l + 1) (by omega)
          rwa [show i + (l + 1) = i + 1 + l by omega] at this

/-- C163.  For every private key below 2^256 and every hash, of any length: `nonceRFC6979` returns k within
`fuel` rounds exactly if k is the first candidate of RFC 6979 in [1, N-1] and comes within `fuel`
candidates. -/
theorem C163_nonce (fuel x : Nat) (hx : x < 2 ^ 256) (h : Bytes) (k : Int) :
    nonceRFC6979 fuel x h = some k ↔
      ∃ j < fuel, k = candidate x h j ∧ (1 ≤ k ∧ k < curveN) ∧
        ∀ l < j, ¬ (1 ≤ candidate x h l ∧ candidate x h l < curveN) := by
  have e : nonceRFC6979 fuel x h = stepH fuel (state x h 0).1 (state x h 0).2 := by
    rw [nonceRFC6979, int2octets_eq hx, bits2octets_eq, state_zero, start]
    dsimp only
    have m0 : ∀ m, mac (List.replicate 32 0) m = hmac (List.replicate 32 0) m :=
      hmac_eq List.length_replicate
    have m1 : ∀ a b m, mac (hmac a b) m = hmac (hmac a b) m := fun a b m => hmac_eq (hmac_length a b) m
    have a1 : ∀ (a : Bytes) (c : UInt8) (b : Bytes), a ++ [c] ++ b = a ++ c :: b := by
      intro a c b; rw [List.append_assoc, List.singleton_append]
    rw [m0, m1, m1, m1, a1, a1]
  rw [e]
  have := stepH_eq x h k fuel 0
  simpa only [Nat.zero_add] using this

/-- C163 for signatures: what `Sign` returns for a key below 2^256 is the signature made with the nonce of
RFC 6979. -/
theorem C163_sign (fuel : Nat) (priv : PrivKey) (x : Nat) (hx : x < 2 ^ 256) (hD : priv.D = x) (h : Bytes)
    (r : Go (Except Err Sig)) :
    sign fuel priv h = some r ↔
      ∃ j < fuel, (1 ≤ candidate x h j ∧ candidate x h j < curveN) ∧
        (∀ l < j, ¬ (1 ≤ candidate x h l ∧ candidate x h l < curveN)) ∧
        r = signWith (candidate x h j) x h := by
  rw [sign, hD]
  constructor
  · intro e
    cases hn : nonceRFC6979 fuel x h with
    | none => rw [hn] at e; cases e
    | some k =>
      rw [hn] at e
      cases e
      obtain ⟨j, h1, rfl, h3, h4⟩ := (C163_nonce fuel x hx h k).1 hn
      exact ⟨j, h1, by omega, h4, rfl⟩
  · rintro ⟨j, h1, h2, h3, rfl⟩
    rw [(C163_nonce fuel x hx h (candidate x h j)).2 ⟨j, h1, rfl, by omega, h3⟩]

/-- A key and a hash whose first candidate is the nonce. -/
example : nonceRFC6979 1 (1 : Nat) exampleHash = some exampleNonce := example_nonce

end Zk.Ec.Rfc6979
