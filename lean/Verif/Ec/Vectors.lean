import Verif.Ec.Model
import Verif.Text.Model

/-! # Published test vectors for deterministic signatures

Tests of the model, not proofs: the nonces and the signatures of two vectors for secp256k1 with SHA-256
and the method of RFC 6979, which btcec/signature.go:415-498 implements.  They are not in /repo. -/

namespace Zk.Ec

open Zk Zk.Text

/-- The key, the message, the nonce and the signature in DER form. -/
example : ∀ t ∈ ([
    (1, "Satoshi Nakamoto",
      0x8F8A276C19F4149656B280621E358CCE24F5F52542772691EE69063B74F15D15,
      "3045022100934b1ea10a4b3c1757e2b0c017d0b6143ce3c9a7e6a4a49860d7a6ab210ee3d8" ++
        "02202442ce9d2b916064108014783e923ec36b49743e2ffa1c4496f01a512aafd9e5"),
    (0xcca9fbcc1b41e5a95d369eaa6ddcff73b61a4efaa279cfc6567e8daa39cbaf50, "sample",
      0x2df40ca70e639d89528a6b670d9d48d9165fdc0febc0974056bdce192b8e16a3,
      "3045022100af340daf02cc15c8d5d08d7735dfe6b98a474ed373bdb5fbecf7571be52b3842" ++
        "02205009fb27f37034a9b24b707b7c6b79ca23ddef9e25f7282e8a797efe53a8f124")
    ] : List (Int × String × Int × String)),
    nonceRFC6979 1 t.1 (Curve.sha256 (ascii t.2.1)) = some t.2.2.1 ∧
    (match signWith t.2.2.1 t.1 (Curve.sha256 (ascii t.2.1)) with
      | .ok (.ok s) => hexEncode (sigSerialize s) == ascii t.2.2.2
      | _ => false) = true := by
  decide +kernel

end Zk.Ec
