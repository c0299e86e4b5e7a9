import Verif.Text.Model

/-! # The test vectors of btcec/field_test.go

Written by tools/gen_vectors.py.  They are tests of the model, not proofs: on these inputs it gives the
results the authors of the Go code expect. -/

namespace Zk.Text

open Zk Zk.Field

/-- TestMul, btcec/field_test.go:658-723. -/
example : ∀ t ∈ ([
    ("0", "0", "0"),
    ("1", "0", "0"),
    ("0", "1", "0"),
    ("1", "1", "1"),
    ("ffffffffffffffffffffffffffffffffffffffffffffffffffffffff1ffff", "1000", "1ffff3d1"),
    ("fffffffffffffffffffffffffffffffffffffffffffffffffffffffefffffc2e", "2", "fffffffffffffffffffffffffffffffffffffffffffffffffffffffefffffc2d"),
    ("fffffffffffffffffffffffffffffffffffffffffffffffffffffffefffffc2f", "3", "0"),
    ("fffffffffffffffffffffffffffffffffffffffffffffffffffffffefffffc2e", "8", "fffffffffffffffffffffffffffffffffffffffffffffffffffffffefffffc27"),
    ("cfb81753d5ef499a98ecc04c62cb7768c2e4f1740032946db1c12e405248137e", "58f355ad27b4d75fb7db0442452e732c436c1f7c5a7c4e214fa9cc031426a7d3", "1018cd2d7c2535235b71e18db9cd98027386328d2fa6a14b36ec663c4c87282b"),
    ("26e9d61d1cdf3920e9928e85fa3df3e7556ef9ab1d14ec56d8b4fc8ed37235bf", "2dfc4bbe537afee979c644f8c97b31e58be5296d6dbc460091eae630c98511cf", "da85f48da2dc371e223a1ae63bd30b7e7ee45ae9b189ac43ff357e9ef8cf107a"),
    ("5db64ed5afb71646c8b231585d5b2bf7e628590154e0854c4c29920b999ff351", "279cfae5eea5d09ade8e6a7409182f9de40981bc31c84c3d3dfe1d933f152e9a", "2c78fbae91792dd0b157abe3054920049b1879a7cc9d98cfda927d83be411b37"),
    ("b66dfc1f96820b07d2bdbd559c19319a3a73c97ceb7b3d662f4fe75ecb6819e6", "bf774aba43e3e49eb63a6e18037d1118152568f1a3ac4ec8b89aeb6ff8008ae1", "c4f016558ca8e950c21c3f7fc15f640293a979c7b01754ee7f8b3340d4902ebb")
    ] : List (String × String × String)), (do
      let f ← normalize <$> setHex (ascii t.1)
      let f2 ← normalize <$> setHex (ascii t.2.1)
      let expected ← normalize <$> setHex (ascii t.2.2)
      pure (equals (normalize (mul f f2)) expected)) = Go.ok true := by
  decide +kernel

/-- TestSquare, btcec/field_test.go:726-769. -/
example : ∀ t ∈ ([
    ("0", "0"),
    ("fffffffffffffffffffffffffffffffffffffffffffffffffffffffefffffc2f", "0"),
    ("0", "fffffffffffffffffffffffffffffffffffffffffffffffffffffffefffffc2f"),
    ("fffffffffffffffffffffffffffffffffffffffffffffffffffffffefffffc2e", "1"),
    ("fffffffffffffffffffffffffffffffffffffffffffffffffffffffefffffc2d", "4"),
    ("b0ba920360ea8436a216128047aab9766d8faf468895eb5090fc8241ec758896", "133896b0b69fda8ce9f648b9a3af38f345290c9eea3cbd35bafcadf7c34653d3"),
    ("c55d0d730b1d0285a1599995938b042a756e6e8857d390165ffab480af61cbd5", "cd81758b3f5877cbe7e5b0a10cebfa73bcbf0957ca6453e63ee8954ab7780bee"),
    ("e89c1f9a70d93651a1ba4bca5b78658f00de65a66014a25544d3365b0ab82324", "39ffc7a43e5dbef78fd5d0354fb82c6d34f5a08735e34df29da14665b43aa1f"),
    ("7dc26186079d22bcbe1614aa20ae627e62d72f9be7ad1e99cac0feb438956f05", "bf86bcfc4edb3d81f916853adfda80c07c57745b008b60f560b1912f95bce8ae")
    ] : List (String × String)), (do
      let f ← normalize <$> setHex (ascii t.1)
      let expected ← normalize <$> setHex (ascii t.2)
      pure (equals (normalize (square f)) expected)) = Go.ok true := by
  decide +kernel

/-- TestInverse, btcec/field_test.go:773-822. -/
example : ∀ t ∈ ([
    ("0", "0"),
    ("fffffffffffffffffffffffffffffffffffffffffffffffffffffffefffffc2f", "0"),
    ("0", "fffffffffffffffffffffffffffffffffffffffffffffffffffffffefffffc2f"),
    ("fffffffffffffffffffffffffffffffffffffffffffffffffffffffefffffc2e", "fffffffffffffffffffffffffffffffffffffffffffffffffffffffefffffc2e"),
    ("fffffffffffffffffffffffffffffffffffffffffffffffffffffffefffffc2d", "7fffffffffffffffffffffffffffffffffffffffffffffffffffffff7ffffe17"),
    ("16fb970147a9acc73654d4be233cc48b875ce20a2122d24f073d29bd28805aca", "987aeb257b063df0c6d1334051c47092b6d8766c4bf10c463786d93f5bc54354"),
    ("69d1323ce9f1f7b3bd3c7320b0d6311408e30281e273e39a0d8c7ee1c8257919", "49340981fa9b8d3dad72de470b34f547ed9179c3953797d0943af67806f4bb6"),
    ("e0debf988ae098ecda07d0b57713e97c6d213db19753e8c95aa12a2fc1cc5272", "64f58077b68af5b656b413ea366863f7b2819f8d27375d9c4d9804135ca220c2"),
    ("dcd394f91f74c2ba16aad74a22bb0ed47fe857774b8f2d6c09e28bfb14642878", "fb848ec64d0be572a63c38fe83df5e7f3d032f60bf8c969ef67d36bf4ada22a9")
    ] : List (String × String)), (do
      let f ← normalize <$> setHex (ascii t.1)
      let expected ← normalize <$> setHex (ascii t.2)
      pure (equals (normalize (inverse f)) expected)) = Go.ok true := by
  decide +kernel

end Zk.Text
