import Verif.Text.Model

/-! # The test vectors of btcec/field_test.go

Written by tools/gen_vectors.py.  They are tests of the model, not proofs: on these inputs it gives the
results the authors of the Go code expect. -/

namespace Zk.Text

open Zk Zk.Field

/-- TestSetInt, btcec/field_test.go:15-38. -/
example : ∀ t ∈ ([
    (5, ⟨5, 0, 0, 0, 0, 0, 0, 0, 0, 0⟩),
    (67108864, ⟨67108864, 0, 0, 0, 0, 0, 0, 0, 0, 0⟩),
    (67108865, ⟨67108865, 0, 0, 0, 0, 0, 0, 0, 0, 0⟩),
    (4294967295, ⟨4294967295, 0, 0, 0, 0, 0, 0, 0, 0, 0⟩)
    ] : List (UInt64 × FieldVal)), setInt t.1 = t.2 := by
  decide +kernel

/-- TestStringer, btcec/field_test.go:74-155. -/
example : ∀ t ∈ ([
    ("0", "0000000000000000000000000000000000000000000000000000000000000000"),
    ("1", "0000000000000000000000000000000000000000000000000000000000000001"),
    ("a", "000000000000000000000000000000000000000000000000000000000000000a"),
    ("b", "000000000000000000000000000000000000000000000000000000000000000b"),
    ("c", "000000000000000000000000000000000000000000000000000000000000000c"),
    ("d", "000000000000000000000000000000000000000000000000000000000000000d"),
    ("e", "000000000000000000000000000000000000000000000000000000000000000e"),
    ("f", "000000000000000000000000000000000000000000000000000000000000000f"),
    ("f0", "00000000000000000000000000000000000000000000000000000000000000f0"),
    ("3ffffff", "0000000000000000000000000000000000000000000000000000000003ffffff"),
    ("ffffffff", "00000000000000000000000000000000000000000000000000000000ffffffff"),
    ("ffffffffffffffff", "000000000000000000000000000000000000000000000000ffffffffffffffff"),
    ("ffffffffffffffffffffffff", "0000000000000000000000000000000000000000ffffffffffffffffffffffff"),
    ("ffffffffffffffffffffffffffffffff", "00000000000000000000000000000000ffffffffffffffffffffffffffffffff"),
    ("ffffffffffffffffffffffffffffffffffffffff", "000000000000000000000000ffffffffffffffffffffffffffffffffffffffff"),
    ("ffffffffffffffffffffffffffffffffffffffffffffffff", "0000000000000000ffffffffffffffffffffffffffffffffffffffffffffffff"),
    ("ffffffffffffffffffffffffffffffffffffffffffffffffffffffff", "00000000ffffffffffffffffffffffffffffffffffffffffffffffffffffffff"),
    ("fffffffffffffffffffffffffffffffffffffffffffffffffffffffefffffc2f", "0000000000000000000000000000000000000000000000000000000000000000"),
    ("fffffffffffffffffffffffffffffffffffffffffffffffffffffffefffffc30", "0000000000000000000000000000000000000000000000000000000000000001"),
    ("g", "0000000000000000000000000000000000000000000000000000000000000000"),
    ("1h", "0000000000000000000000000000000000000000000000000000000000000000"),
    ("i1", "0000000000000000000000000000000000000000000000000000000000000000")
    ] : List (String × String)), (do
      let f ← setHex (ascii t.1)
      pure (fieldString f)) = Go.ok (ascii t.2) := by
  decide +kernel

/-- TestNormalize, btcec/field_test.go:159-323. -/
example : ∀ t ∈ ([
    (⟨0x00000005, 0, 0, 0, 0, 0, 0, 0, 0, 0⟩, ⟨0x00000005, 0, 0, 0, 0, 0, 0, 0, 0, 0⟩),
    (⟨0x04000000, 0x0, 0, 0, 0, 0, 0, 0, 0, 0⟩, ⟨0x00000000, 0x1, 0, 0, 0, 0, 0, 0, 0, 0⟩),
    (⟨0x04000001, 0x0, 0, 0, 0, 0, 0, 0, 0, 0⟩, ⟨0x00000001, 0x1, 0, 0, 0, 0, 0, 0, 0, 0⟩),
    (⟨0xffffffff, 0x00, 0, 0, 0, 0, 0, 0, 0, 0⟩, ⟨0x03ffffff, 0x3f, 0, 0, 0, 0, 0, 0, 0, 0⟩),
    (⟨0x04000000, 0x3f, 0, 0, 0, 0, 0, 0, 0, 0⟩, ⟨0x00000000, 0x40, 0, 0, 0, 0, 0, 0, 0, 0⟩),
    (⟨0x04000001, 0x3f, 0, 0, 0, 0, 0, 0, 0, 0⟩, ⟨0x00000001, 0x40, 0, 0, 0, 0, 0, 0, 0, 0⟩),
    (⟨0xffffffff, 0xffffffc0, 0xfc0, 0, 0, 0, 0, 0, 0, 0⟩, ⟨0x03ffffff, 0x03ffffff, 0xfff, 0, 0, 0, 0, 0, 0, 0⟩),
    (⟨0x04000000, 0x03ffffff, 0x0fff, 0, 0, 0, 0, 0, 0, 0⟩, ⟨0x00000000, 0x00000000, 0x1000, 0, 0, 0, 0, 0, 0, 0⟩),
    (⟨0x04000001, 0x03ffffff, 0x0fff, 0, 0, 0, 0, 0, 0, 0⟩, ⟨0x00000001, 0x00000000, 0x1000, 0, 0, 0, 0, 0, 0, 0⟩),
    (⟨0xffffffff, 0xffffffc0, 0xffffffc0, 0x3ffc0, 0, 0, 0, 0, 0, 0⟩, ⟨0x03ffffff, 0x03ffffff, 0x03ffffff, 0x3ffff, 0, 0, 0, 0, 0, 0⟩),
    (⟨0x04000000, 0x03ffffff, 0x03ffffff, 0x3ffff, 0, 0, 0, 0, 0, 0⟩, ⟨0x00000000, 0x00000000, 0x00000000, 0x40000, 0, 0, 0, 0, 0, 0⟩),
    (⟨0xffffffff, 0xffffffc0, 0xffffffc0, 0xffffffc0, 0xffffc0, 0, 0, 0, 0, 0⟩, ⟨0x03ffffff, 0x03ffffff, 0x03ffffff, 0x03ffffff, 0xffffff, 0, 0, 0, 0, 0⟩),
    (⟨0x04000000, 0x03ffffff, 0x03ffffff, 0x03ffffff, 0x0ffffff, 0, 0, 0, 0, 0⟩, ⟨0x00000000, 0x00000000, 0x00000000, 0x00000000, 0x1000000, 0, 0, 0, 0, 0⟩),
    (⟨0xfffffc2f, 0xffffff80, 0xffffffc0, 0xffffffc0, 0xffffffc0, 0xffffffc0, 0xffffffc0, 0xffffffc0, 0xffffffc0, 0x3fffc0⟩, ⟨0x00000000, 0x00000000, 0x00000000, 0x00000000, 0x00000000, 0x00000000, 0x00000000, 0x00000000, 0x00000000, 0x000000⟩),
    (⟨0xfffffc30, 0xffffff86, 0xffffffc0, 0xffffffc0, 0xffffffc0, 0xffffffc0, 0xffffffc0, 0xffffffc0, 0xffffffc0, 0x3fffc0⟩, ⟨0x00000001, 0x00000006, 0x00000000, 0x00000000, 0x00000000, 0x00000000, 0x00000000, 0x00000000, 0x00000000, 0x000000⟩),
    (⟨0xfffffc2a, 0xffffff87, 0xffffffc0, 0xffffffc0, 0xffffffc0, 0xffffffc0, 0xffffffc0, 0xffffffc0, 0xffffffc0, 0x3fffc0⟩, ⟨0x03fffffb, 0x00000006, 0x00000000, 0x00000000, 0x00000000, 0x00000000, 0x00000000, 0x00000000, 0x00000000, 0x000000⟩),
    (⟨0xffffffff, 0xffffffc0, 0xffffffc0, 0xffffffc0, 0xffffffc0, 0xffffffc0, 0xffffffc0, 0xffffffc0, 0xffffffc0, 0x3fffc0⟩, ⟨0x000003d0, 0x00000040, 0x00000000, 0x00000000, 0x00000000, 0x00000000, 0x00000000, 0x00000000, 0x00000000, 0x000000⟩),
    (⟨0x03fffc2f, 0x03ffffbf, 0x03ffffff, 0x03ffffff, 0x03ffffff, 0x03ffffff, 0x03ffffff, 0x03ffffff, 0x03ffffff, 0x003fffff⟩, ⟨0x00000000, 0x00000000, 0x00000000, 0x00000000, 0x00000000, 0x00000000, 0x00000000, 0x00000000, 0x00000000, 0x00000000⟩),
    (⟨0x03fffc30, 0x03ffffbf, 0x03ffffff, 0x03ffffff, 0x03ffffff, 0x03ffffff, 0x03ffffff, 0x03ffffff, 0x03ffffff, 0x003fffff⟩, ⟨0x00000001, 0x00000000, 0x00000000, 0x00000000, 0x00000000, 0x00000000, 0x00000000, 0x00000000, 0x00000000, 0x00000000⟩),
    (⟨0x03fffc2f, 0x03ffffc0, 0x03ffffff, 0x03ffffff, 0x03ffffff, 0x03ffffff, 0x03ffffff, 0x03ffffff, 0x03ffffff, 0x003fffff⟩, ⟨0x00000000, 0x00000001, 0x00000000, 0x00000000, 0x00000000, 0x00000000, 0x00000000, 0x00000000, 0x00000000, 0x00000000⟩),
    (⟨0x03ffffff, 0x03fffeff, 0x03ffffff, 0x03ffffff, 0x03ffffff, 0x03ffffff, 0x03ffffff, 0x03ffffff, 0x03ffffff, 0x0013fffff⟩, ⟨0x00001314, 0x00000040, 0x00000000, 0x00000000, 0x00000000, 0x00000000, 0x00000000, 0x00000000, 0x00000000, 0x000000000⟩),
    (⟨0x03fffc30, 0x03ffffbf, 0x03ffffff, 0x03ffffff, 0x03ffffff, 0x03ffffff, 0x03ffffff, 0x03ffffff, 0x07ffffff, 0x003fffff⟩, ⟨0x00000001, 0x00000000, 0x00000000, 0x00000000, 0x00000000, 0x00000000, 0x00000000, 0x00000000, 0x00000000, 0x00000001⟩),
    (⟨0x03fffc2f, 0x03ffffc0, 0x03ffffff, 0x03ffffff, 0x03ffffff, 0x03ffffff, 0x03ffffff, 0x3ffffff, 0x07ffffff, 0x003fffff⟩, ⟨0x00000000, 0x00000001, 0x00000000, 0x00000000, 0x00000000, 0x00000000, 0x00000000, 0x0000000, 0x00000000, 0x00000001⟩),
    (⟨0x03fffc30, 0x03ffffc0, 0x03ffffff, 0x03ffffff, 0x03ffffff, 0x03ffffff, 0x03ffffff, 0x03ffffff, 0x07ffffff, 0x003fffff⟩, ⟨0x00000001, 0x00000001, 0x00000000, 0x00000000, 0x00000000, 0x00000000, 0x00000000, 0x00000000, 0x00000000, 0x00000001⟩)
    ] : List (FieldVal × FieldVal)), normalize t.1 = t.2 := by
  decide +kernel

/-- TestIsOdd, btcec/field_test.go:326-352. -/
example : ∀ t ∈ ([
    ("0", false),
    ("1", true),
    ("2", false),
    ("ffffffff", true),
    ("fffffffffffffffe", false),
    ("fffffffffffffffffffffffffffffffffffffffffffffffffffffffefffffc2f", true)
    ] : List (String × Bool)), (do
      let f ← setHex (ascii t.1)
      pure (isOdd f)) = Go.ok t.2 := by
  decide +kernel

/-- TestEquals, btcec/field_test.go:356-386. -/
example : ∀ t ∈ ([
    ("0", "0", true),
    ("0", "1", false),
    ("1", "0", false),
    ("ffffffff", "ffffffff", true),
    ("ffffffffffffffff", "fffffffffffffffe", false),
    ("0", "fffffffffffffffffffffffffffffffffffffffffffffffffffffffefffffc2f", true),
    ("1", "fffffffffffffffffffffffffffffffffffffffffffffffffffffffefffffc30", true)
    ] : List (String × String × Bool)), (do
      let f ← normalize <$> setHex (ascii t.1)
      let f2 ← normalize <$> setHex (ascii t.2.1)
      pure (equals f f2)) = Go.ok t.2.2 := by
  decide +kernel

/-- TestNegate, btcec/field_test.go:389-434. -/
example : ∀ t ∈ ([
    ("0", "0"),
    ("fffffffffffffffffffffffffffffffffffffffffffffffffffffffefffffc2f", "0"),
    ("0", "fffffffffffffffffffffffffffffffffffffffffffffffffffffffefffffc2f"),
    ("fffffffffffffffffffffffffffffffffffffffffffffffffffffffefffffc2e", "1"),
    ("1", "fffffffffffffffffffffffffffffffffffffffffffffffffffffffefffffc2e"),
    ("2", "fffffffffffffffffffffffffffffffffffffffffffffffffffffffefffffc2d"),
    ("fffffffffffffffffffffffffffffffffffffffffffffffffffffffefffffc2d", "2"),
    ("b3d9aac9c5e43910b4385b53c7e78c21d4cd5f8e683c633aed04c233efc2e120", "4c2655363a1bc6ef4bc7a4ac381873de2b32a07197c39cc512fb3dcb103d1b0f"),
    ("f8a85984fee5a12a7c8dd08830d83423c937d77c379e4a958e447a25f407733f", "757a67b011a5ed583722f77cf27cbdc36c82883c861b56a71bb85d90bf888f0"),
    ("45ee6142a7fda884211e93352ed6cb2807800e419533be723a9548823ece8312", "ba119ebd5802577bdee16ccad12934d7f87ff1be6acc418dc56ab77cc131791d"),
    ("53c2a668f07e411a2e473e1c3b6dcb495dec1227af27673761d44afe5b43d22b", "ac3d59970f81bee5d1b8c1e3c49234b6a213edd850d898c89e2bb500a4bc2a04")
    ] : List (String × String)), (do
      let f ← normalize <$> setHex (ascii t.1)
      let expected ← normalize <$> setHex (ascii t.2)
      pure (equals (normalize (negate f 1)) expected)) = Go.ok true := by
  decide +kernel

/-- TestAddInt, btcec/field_test.go:438-485. -/
example : ∀ t ∈ ([
    ("0", 1, "1"),
    ("1", 0, "1"),
    ("1", 1, "2"),
    ("fffffffffffffffffffffffffffffffffffffffffffffffffffffffefffffc2e", 1, "0"),
    ("fffffffffffffffffffffffffffffffffffffffffffffffffffffffefffffc2f", 1, "1"),
    ("ff95ad9315aff04ab4af0ce673620c7145dc85d03bab5ba4b09ca2c4dec2d6c1", 0x10f, "ff95ad9315aff04ab4af0ce673620c7145dc85d03bab5ba4b09ca2c4dec2d7d0"),
    ("44bdae6b772e7987941f1ba314e6a5b7804a4c12c00961b57d20f41deea9cecf", 0x2cf11d41, "44bdae6b772e7987941f1ba314e6a5b7804a4c12c00961b57d20f41e1b9aec10"),
    ("88c3ecae67b591935fb1f6a9499c35315ffad766adca665c50b55f7105122c9c", 0x4829aa2d, "88c3ecae67b591935fb1f6a9499c35315ffad766adca665c50b55f714d3bd6c9"),
    ("8523e9edf360ca32a95aae4e57fcde5a542b471d08a974d94ea0ee09a015e2a6", 0xa21265a5, "8523e9edf360ca32a95aae4e57fcde5a542b471d08a974d94ea0ee0a4228484b")
    ] : List (String × UInt64 × String)), (do
      let f ← normalize <$> setHex (ascii t.1)
      let expected ← normalize <$> setHex (ascii t.2.2)
      pure (equals (normalize (addInt f t.2.1)) expected)) = Go.ok true := by
  decide +kernel

/-- TestAdd, btcec/field_test.go:489-537. -/
example : ∀ t ∈ ([
    ("0", "1", "1"),
    ("1", "0", "1"),
    ("1", "1", "2"),
    ("fffffffffffffffffffffffffffffffffffffffffffffffffffffffefffffc2e", "1", "0"),
    ("fffffffffffffffffffffffffffffffffffffffffffffffffffffffefffffc2f", "1", "1"),
    ("2b2012f975404e5065b4292fb8bed0a5d315eacf24c74d8b27e73bcc5430edcc", "2c3cefa4e4753e8aeec6ac4c12d99da4d78accefda3b7885d4c6bab46c86db92", "575d029e59b58cdb547ad57bcb986e4aaaa0b7beff02c610fcadf680c0b7c95e"),
    ("8131e8722fe59bb189692b96c9f38de92885730f1dd39ab025daffb94c97f79c", "ff5454b765f0aab5f0977dcc629becc84cabeb9def48e79c6aadb2622c490fa9", "80863d2995d646677a00a9632c8f7ab175315ead0d1c824c9088b21c78e10b16"),
    ("c7c95e93d0892b2b2cdd77e80eb646ea61be7a30ac7e097e9f843af73fad5c22", "3afe6f91a74dfc1c7f15c34907ee981656c37236d946767dd53ccad9190e437c", "02c7ce2577d72747abf33b3116a4df00b881ec6785c47ffc74c105d158bba36f"),
    ("fd1c26f6a23381e5d785ba889494ec059369b888ad8431cd67d8c934b580dbe1", "a475aa5a31dcca90ef5b53c097d9133d6b7117474b41e7877bb199590fc0489c", "a191d150d4104c76c6e10e492c6dff42fedacfcff8c61954e38a628ec541284e")
    ] : List (String × String × String)), (do
      let f ← normalize <$> setHex (ascii t.1)
      let f2 ← normalize <$> setHex (ascii t.2.1)
      let expected ← normalize <$> setHex (ascii t.2.2)
      pure (equals (normalize (add f f2)) expected)) = Go.ok true := by
  decide +kernel

/-- TestAdd2, btcec/field_test.go:541-591. -/
example : ∀ t ∈ ([
    ("0", "1", "1"),
    ("1", "0", "1"),
    ("1", "1", "2"),
    ("fffffffffffffffffffffffffffffffffffffffffffffffffffffffefffffc2e", "1", "0"),
    ("fffffffffffffffffffffffffffffffffffffffffffffffffffffffefffffc2f", "1", "1"),
    ("fffffffffffffffffffffffffffffffffffffffffffffffffffffff000000000", "f1ffff000", "1ffff3d1"),
    ("ad82b8d1cc136e23e9fd77fe2c7db1fe5a2ecbfcbde59ab3529758334f862d28", "4d6a4e95d6d61f4f46b528bebe152d408fd741157a28f415639347a84f6f574b", "faed0767a2e98d7330b2a0bcea92df3eea060d12380e8ec8b62a9fdb9ef58473"),
    ("f3f43a2540054a86e1df98547ec1c0e157b193e5350fb4a3c3ea214b228ac5e7", "25706572592690ea3ddc951a1b48b504a4c83dc253756e1b96d56fdfb3199522", "19649f97992bdb711fbc2d6e9a0a75e5fc79d1a7888522bf5abf912bd5a45eda"),
    ("6915bb94eef13ff1bb9b2633d997e13b9b1157c713363cc0e891416d6734f5b8", "11f90d6ac6fe1c4e8900b1c85fb575c251ec31b9bc34b35ada0aea1c21eded22", "7b0ec8ffb5ef5c40449bd7fc394d56fdecfd8980cf6af01bc29c2b898922e2da"),
    ("48b0c9eae622eed9335b747968544eb3e75cb2dc8128388f948aa30f88cabde4", "0989882b52f85f9d524a3a3061a0e01f46d597839d2ba637320f4b9510c8d2d5", "523a5216391b4e7685a5aea9c9f52ed32e324a601e53dec6c699eea4999390b9")
    ] : List (String × String × String)), (do
      let f ← normalize <$> setHex (ascii t.1)
      let f2 ← normalize <$> setHex (ascii t.2.1)
      let expected ← normalize <$> setHex (ascii t.2.2)
      pure (equals (normalize (add2 f f2)) expected)) = Go.ok true := by
  decide +kernel

/-- TestMulInt, btcec/field_test.go:595-655. -/
example : ∀ t ∈ ([
    ("0", 0, "0"),
    ("1", 0, "0"),
    ("0", 1, "0"),
    ("1", 1, "1"),
    ("fffffffffffffffffffffffffffffffffffffffffffffffffffffffefffffc2e", 2, "fffffffffffffffffffffffffffffffffffffffffffffffffffffffefffffc2d"),
    ("fffffffffffffffffffffffffffffffffffffffffffffffffffffffefffffc2f", 3, "0"),
    ("fffffffffffffffffffffffffffffffffffffffffffffffffffffffefffffc2e", 8, "fffffffffffffffffffffffffffffffffffffffffffffffffffffffefffffc27"),
    ("b75674dc9180d306c692163ac5e089f7cef166af99645c0c23568ab6d967288a", 6, "4c06bd2b6904f228a76c8560a3433bced9a8681d985a2848d407404d186b0280"),
    ("54873298ac2b5ba8591c125ae54931f5ea72040aee07b208d6135476fb5b9c0e", 3, "fd9597ca048212f90b543710afdb95e1bf560c20ca17161a8239fd64f212d42a"),
    ("7c30fbd363a74c17e1198f56b090b59bbb6c8755a74927a6cba7a54843506401", 5, "6cf4eb20f2447c77657fccb172d38c0aa91ea4ac446dc641fa463a6b5091fba7"),
    ("fb4529be3e027a3d1587d8a500b72f2d312e3577340ef5175f96d113be4c2ceb", 8, "da294df1f013d1e8ac3ec52805b979698971abb9a077a8bafcb688a4f261820f")
    ] : List (String × UInt64 × String)), (do
      let f ← normalize <$> setHex (ascii t.1)
      let expected ← normalize <$> setHex (ascii t.2.2)
      pure (equals (normalize (mulInt f t.2.1)) expected)) = Go.ok true := by
  decide +kernel

end Zk.Text
