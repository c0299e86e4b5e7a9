import Verif.Ec.Props
import Verif.Ec.MoreLemmas

/-!
# Concrete signatures
-/

namespace Zk.Ec

open Zk Zk.Field Zk.Curve

/-! ### C80, an example -/

/-- The hash in the example: of "Satoshi Nakamoto" in ASCII.  See btcec/signature.go:416-445. -/
def exampleHash : Bytes :=
  sha256 [83, 97, 116, 111, 115, 104, 105, 32, 78, 97, 107, 97, 109, 111, 116, 111]

/-- The nonce of the example, which is a published test vector for RFC 6979 with secp256k1.
See btcec/signature.go:416-445. -/
def exampleNonce : Int := 0x8F8A276C19F4149656B280621E358CCE24F5F52542772691EE69063B74F15D15

theorem example_nonce : nonceRFC6979 1 1 exampleHash = some exampleNonce := by decide +kernel

theorem example_point : basePub (intBytes exampleNonce) =
    .ok ⟨0x934b1ea10a4b3c1757e2b0c017d0b6143ce3c9a7e6a4a49860d7a6ab210ee3d8,
      0xd2831840679da4a3dcd420fb04daa9ff5df5d05ee36a365dd6a9e3ea87f0bc0⟩ := by decide +kernel

theorem example_sign : signWith exampleNonce 1 exampleHash =
    .ok (.ok ⟨0x934b1ea10a4b3c1757e2b0c017d0b6143ce3c9a7e6a4a49860d7a6ab210ee3d8,
      0x2442ce9d2b916064108014783e923ec36b49743e2ffa1c4496f01a512aafd9e5⟩) := by
  have hp := example_point
  rw [basePub, base_int (by decide)] at hp
  have hx : (enc (exampleNonce • G)).1 =
      0x934b1ea10a4b3c1757e2b0c017d0b6143ce3c9a7e6a4a49860d7a6ab210ee3d8 := by
    generalize enc (exampleNonce • G) = A at hp ⊢
    exact congrArg PubKey.X (Go.ok.inj hp)
  rw [signWith_eq (inv := 0x1a40580a26a595df10ff8c52e3cc302d0dbd587ed8a798b3e341c19765b90759)
    exampleHash (by decide) (by decide) (modInverse_eq (by decide) (by decide) (by decide +kernel)),
    hx]
  generalize hh : hashToInt exampleHash = e
  have : hashToInt exampleHash =
      0xa0dc65ffca799873cbea0ac274015b9526505daaaed385155425f7337704883e := by decide +kernel
  rw [← hh, this]
  decide +kernel

/-- The hypotheses of C80 and C81 hold for the private key 1 and the hash above; R and S are those of
the published test vector. -/
example : ∃ (priv : PrivKey) (q : PubKey) (sig : Sig), privKeyFromBytes [1] = .ok priv ∧
    nonceRFC6979 1 priv.D exampleHash = some exampleNonce ∧
    basePub (intBytes exampleNonce) = .ok q ∧ q.X ≠ curveN ∧
    sign 1 priv exampleHash = some (.ok (.ok sig)) := by
  obtain ⟨p, hp, hD⟩ := priv_exists [1]
  have hD : p.D = 1 := hD
  have hs : sign 1 p exampleHash = some (signWith exampleNonce 1 exampleHash) := by
    rw [sign, hD, example_nonce]
  rw [example_sign] at hs
  exact ⟨p, _, _, hp, by rw [hD]; exact example_nonce, example_point, by decide, hs⟩

/-- The point of x coordinate 5 with the y that `decompressPoint` gives, and S over R: the result of
the multiplication is not on the curve either. -/
theorem off_curve :
    recoverQ ⟨5, 0x5f0d9d803e330b9cc64173f357a40a3b1a770b3abc0a401b2497ccad18b9cf48⟩ [] 5
      0x350ae3b48047adacdeea49fb8a0b289a94f726801078408aba79631fa7a1b6ba =
    .ok (.ok ⟨0x668f12d8fb6c235227f566195d05089010b16f495ecbafecc61f1ccc37e91148,
      0xcaf51c4b7fb852532115b60475f4d7656b08d97fef87bf7545869cdf585e4575⟩) := by
  rw [recoverQ, modInverse_eq
    (w := 0x66666666666666666666666666666665e445f1f5dfb6a67e4cba8c385348e6e7) (by decide)
    (by decide) (by decide +kernel)]
  decide +kernel

end Zk.Ec
