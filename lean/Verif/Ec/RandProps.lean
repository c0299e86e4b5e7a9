import Verif.Ec.Props

/-! # Property C124 for keys and encryption: a failing random source is reported as an error -/

namespace Zk.Ec

open Zk

/-- `NewPrivateKey`, btcec/privkey.go:37-45, with a random source that can fail: `ecdsa.GenerateKey` (crypto/ecdsa)
returns nil and the error of the source, `none` here. -/
def newPrivateKeyD (d : Option Nat) : Go (Except Err PrivKey) :=
  match d with
  | none => pure (.error "rand")
  | some d => do
    let p ← newPrivateKey d
    pure (.ok p)

/-- `Encrypt`, btcec/ciphering.go:70-118, with a random source that can fail for the ephemeral key (lines 71-74) and
for the initialization vector (lines 84-86). -/
def encryptD (L : Lib) (d : Option Nat) (iv : Option Bytes) (pubkey : PubKey) (msg : Bytes) :
    Go (Except Err Bytes) := do
  let r ← newPrivateKeyD d
  match r with
  | .error e => pure (.error e)
  | .ok ephemeral => do
    let ecdhKey ← generateSharedSecret ephemeral pubkey
    let derivedKey := L.sha512 ecdhKey
    let keyE ← slice derivedKey 0 32
    let keyM ← slice derivedKey 32 64
    let paddedIn := addPKCSPadding msg
    match iv with
    | none => pure (.error "rand")
    | some iv => do
      let pb := serializeUncompressed ephemeral.pub
      let xb ← slice pb 1 33
      let yb ← slice pb 33 65
      let c ← cryptBlocks (cbcEncrypt L keyE) iv paddedIn
      let out := iv ++ [0x02, 0xCA, 0x00, 0x20] ++ xb ++ [0x00, 0x20] ++ yb ++ c
      pure (.ok (out ++ mac keyM out))

/-- C124 for `NewPrivateKey`: it returns an error if and only if the draw fails, and never panics. -/
theorem C124_newPrivateKey (d : Option Nat) :
    (d = none → ∃ e, newPrivateKeyD d = .ok (.error e)) ∧
    (∀ n, d = some n → ∃ p, newPrivateKeyD d = .ok (.ok p) ∧ p.D = n) := by
  refine ⟨?_, ?_⟩
  · rintro rfl; exact ⟨_, rfl⟩
  · rintro n rfl
    exact ⟨_, by rw [newPrivateKeyD, newPrivateKey_eq, Go.bind_ok]; rfl, rfl⟩

/-- C124 for `Encrypt` to the public key of a private key: it returns an error and no ciphertext if a draw fails, and
otherwise a ciphertext that `Decrypt` opens.  It never panics. -/
theorem C124_encrypt (L : Lib) (hL : LibOk L) (pkb msg : Bytes) (priv : PrivKey) (d : Option Nat) (iv : Option Bytes)
    (hp : privKeyFromBytes pkb = .ok priv) (h1 : ∀ n ∈ d, 1 ≤ n ∧ n < Curve.curveN) (hi : ∀ b ∈ iv, b.length = 16) :
    ((d = none ∨ iv = none) → ∃ e, encryptD L d iv priv.pub msg = .ok (.error e)) ∧
    (d ≠ none → iv ≠ none → ∃ b, encryptD L d iv priv.pub msg = .ok (.ok b) ∧ decrypt L priv b = .ok (.ok msg)) := by
  have key : ∀ n, ∀ iv : Option Bytes, encryptD L (some n) iv priv.pub msg =
      match iv with
      | none => .ok (.error "rand")
      | some iv => encrypt L n iv priv.pub msg := by
    intro n iv
    obtain ⟨hpub, _⟩ := priv_eq hp
    obtain ⟨k1, k2⟩ := slice_keys (hL.sha512_length (secret ((n : Int) • (priv.D • Curve.G))))
    cases iv with
    | none =>
      rw [encryptD, newPrivateKeyD, newPrivateKey_eq, Go.bind_ok]
      simp only [Go.pure_eq, Go.bind_ok]
      rw [hpub, shared_eq (Int.natCast_nonneg n), Go.bind_ok]
      dsimp only
      rw [k1, Go.bind_ok, k2, Go.bind_ok]
    | some iv =>
      rw [encryptD, newPrivateKeyD, newPrivateKey_eq, Go.bind_ok]
      simp only [Go.pure_eq, Go.bind_ok]
      rw [encrypt, newPrivateKey_eq, Go.bind_ok]
      rfl
  cases d with
  | none => exact ⟨fun _ => ⟨_, rfl⟩, fun h => absurd rfl h⟩
  | some n =>
    rw [key]
    obtain ⟨h2, h3⟩ := h1 n rfl
    cases iv with
    | none => exact ⟨fun _ => ⟨_, rfl⟩, fun _ h => absurd rfl h⟩
    | some iv => exact ⟨fun h => by simp at h, fun _ _ => C83_roundtrip L hL pkb iv msg priv n hp h2 h3 (hi iv rfl)⟩

/-- Hypotheses of C124: a library, a private key, and draws of which one fails. -/
example : LibOk exampleLib ∧ (∃ p, privKeyFromBytes [7] = .ok p ∧ p.D = 7) ∧
    (∀ n ∈ (some 9 : Option Nat), 1 ≤ n ∧ n < Curve.curveN) ∧ (∀ b ∈ (none : Option Bytes), b.length = 16) :=
  ⟨exampleLib_ok, priv_exists [7], by rintro n ⟨⟩; exact ⟨by decide, by decide⟩, by rintro b ⟨⟩⟩

end Zk.Ec
