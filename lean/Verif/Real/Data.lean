import Verif.Curve.TestLawful

/-!
# Points that appear in concrete range proofs

Used only to check data.
-/

namespace Zk.Real

/-- The hash of the empty string as a number (used only to check data).
See rangeproof.go:154-231. -/
def emptyHash : ℕ :=
  0xe3b0c44298fc1c149afbf4c8996fb92427ae41e4649b934ca495991b7852b855

/-- The challenge of the proof of `lucky_mixed` (used only to check data).
See rangeproof.go:154-231. -/
def mixedE : ℕ :=
  0xbf45b734b6b4511c405377cc1f6fc16cc13c56af629e63169ecf73beebd1d6da

/-- The point 4 * `mixedE` times G (used only to check data).  See rangeproof.go:154-231. -/
def mixedPt : ℕ × ℕ :=
  (0x82c7df3b07353dae494dc00eb1a21f865d508807a28030cdad7c6e314799f02c,
    0xe6bc56c89b00cdcbb1dcc31573ed30c4ebff61f9ffa09e9a6002861e6bc263e0)

/-- The hash of `mixedPt` (used only to check data).  See rangeproof.go:154-231. -/
def mixedInner : ℕ :=
  0x31b8b1b59bc1a6d130dfe1bc70d1cc1000529f35c96a062f84cb0ec549607e6f

/-- Multiples of `mixedInner` and the points that they give with G (used only to check data).
See rangeproof.go:154-231. -/
def mixedNs : List (ℕ × ℕ × ℕ) :=
  [(0x31b8b1b59bc1a6d130dfe1bc70d1cc1000529f35c96a062f84cb0ec549607e6f,
      0xad794f5f9f06bd46700f233076219677a973ff9e68cb67be353919ac72c51d52,
      0xdfa91acea8f242d7fce647ca011f70dfb59b3dcf9ce3cc844ddfca4f0d629946),
    (0x769151d88c68691e11f0b17a838cbdb9ae64a7c7711a9cf7ec787575438d900a,
      0x1b5e372cf0784cf49668af6dc0a741f12f8819807c89f1afe8b559968457747c,
      0xb3b07ba91f788c4515fd298ae5fe62337ad648d498599cbb1bd649cdc05a787c),
    (0x952a1520d344f473929fa5355275643000f7dda15c3e128e8e612c4fdc217b4d,
      0x1fdecc4416d38b41df1e40db904b3a16ce59102fc1949bfc6937d73c1db635e6,
      0xa5c123a840a89b797c49b5e24ee67dd2e3eb37f902701de860bf74f9cd196ac5),
    (0x3d7418aefb6f0462d570386c46d3edfaf50047b7e77a157a3fd251fd98d94885,
      0x4350859faa086593a2a4859acbbaff7bcb978fc453bfa85f83cc0a8f37afc9ba,
      0x206687a3736fcf58375a3b6f5cdfa7a8aece05f692c43f9c5eda00a636cb7553),
    (0x505174fde29e3226b18ed5773fba728652e5d50fb48d7bc626b3c59fe1f469b2,
      0xddc13ca937fb1d8e068b9cedc25bde516a320f35d799746d4ebb815670c1337d,
      0xe1d573b405d0767969a4eab50e0ab65a260e726b2aba29406abffc0db38c48bc)]

/-- The points `emptyHash * 2 ^ i` times G for `i` up to 40 (used only to check data).
See rangeproof.go:154-231. -/
def ePts : List (ℕ × ℕ) :=
  [(0xa34b99f22c790c4e36b2b3c2c35a36db06226e41c692fc82b8b56ac1c540c5bd,
      0x5b8dec5235a0fa8722476c7709c02559e3aa73aa03918ba2d492eea75abea235),
    (0x753f36df392a7384edf89d448980e10cf4a159c4f32d1120e1bdf92373b9e412,
      0x2c9ac5fe698693878e5f2124ee9762c1997d6c69f8dc6cef2280abf7957d6251),
    (0xd6f25c6341712d473220d92e6df0e40ff4599d3cc906859ceb4a1a86a27b9357,
      0x779bc0d1f34f7ea3f65190fbc5578a7eeb7f9cad7f2031262618230ad2503224),
    (0x611e757b55d1010814e55583f5ce7d5025e4b9f6331ca4b354a1e47901871842,
      0x382e26a00e099094b94430cb87ecc6e56763662c95d0bc8c53c3358e5a011a79),
    (0x9a293fd6d71bafb99515d36a9730a0ca273411c4450ddd30aedbc89a594a00bc,
      0xa436aa506a52fb111e5ac303cffb6abdf052a7088f0712dd01e05eb0b8737ba7),
    (0x12b3d70a931d179d7d8b49de6a42260de03f0356552193ec5b368618b6068f33,
      0x38f9e202b39030ff126376c183a2fd344d0f94b88044effdb9dc21bf43846f10),
    (0x8ddc935f6bb120eef1be914179c3b2702a8dba35cfb596bdc1f917b93eb4824d,
      0xb06040f2dda5f76c04ab2ac2a2ff2f94b20f783935e94a757577a565deb8a468),
    (0x7157261404b7ae24003f78ddd6ad0de3f4eb885e435711088fc61559a857fbbc,
      0x55bd03f03cb7f31eef9d33efa65e1e68aa36729a55a057d167d5a0bdca946af3),
    (0x759da1123b6261a7d547c271412973ba0b80c366804816ab5f89587c0e960995,
      0x7b951a7fb1d3c54e220afec1f4abcba13d504565c659236bc13ee4c7d423b734),
    (0x87c59a6677b23df154ce0b46082dc2d51536f67d8e9c5559995fdfac5ff7ae4e,
      0x1f6520292a6b5bf9bd2d49f6779d3cae83f24fd4ccec141c523dcad75ebcb383),
    (0xacf644768ce6ad947960d388c2edec477c982aca88dc3aee4c9d1183ea89ef68,
      0xe90a334f128055d60298ca5230da1a5f449417dea866348e2502ec392e1c7f19),
    (0x42aaf93fb598258d7173a8391d21292509ced53adcf7f369a7520ee978031281,
      0xcffde00bf16a57fd3132737df12c0827570ed0dcff6e9ec46a06e36280f5ad3),
    (0x6b729eb69f1b848bada854d30d086e240ed55d48024265c63cf96aabb99cf49a,
      0x23d2e6bb8af4211c9aa4c83ee0a2ab348ddad5ed7887674b334aa516916b81ff),
    (0x1842ea041b430d2f13de5c9deb45d6126d25bfc3f86203960e706676ccaa6d58,
      0x32696626a59143655b0d0442723a0390a7149dae93f0c9733ef6fc8607d47b62),
    (0xc31567c8488a721bfaf5e006f8d46328e6b9aabff73b0857b1eb288d95dd1e96,
      0xa78f7a3324fa1c766e24da25618a1052836921927ef46910a1e3cce27feb8a92),
    (0xa4f8d311b94cd4d1aa7a950708f039b2d9ae85b08a313b30f9e403cfc4798804,
      0x3b770d17ffcef49470f0096598e61b724ece3408918f23648f133e8c84432092),
    (0x5881af3ccb8f00d17ae0cddbaa867bd501a3e830dc6b3815b6b30dd278656b9e,
      0xf2b6d078c64164075dc020fcb40af4e476d1c50ee594b628ac3968f3692cec12),
    (0x2c30e6d2be35c26094d20b8ab0bf92f8a2787f6e74454c79f5696e868366913f,
      0x74d3ce8bf4177f914b0180a30f4dec72fd34c5f8ae365a3fbaa43d2a9f5fed8f),
    (0xc1126990db1e05c925dd6fd9abe561ec9253ca957c6e29c69a7425d6224785d6,
      0x44cd66b75f3b4fb364d2d88c6349ac39760d610858605048f2e9831cb05e7041),
    (0x83882330c4da9032593fae99b4f183473feb99d8c8ae921bcc971eeced604d5,
      0xdd2a2064699acfe68c6c951b9321224605c84f306087b08b51c88ca7530ba07f),
    (0xc25e51f4949ce2a1d52da4a8578bd1d987baff05eae146f60fd34ed9657c6867,
      0x3692246ca5d9105dc88208541ce3c27a608e0654e83d4c3f433ef8d127602a25),
    (0x4a165e03eb9225fceb8f3d37ea8fc9e5d6aa69c4f4fb229d36bae9abab52a594,
      0x17333872c4f393e9d50d465434e9c86f51212580884d49d2cdc1b60295e1bb00),
    (0x3e3a74faa76caaa3d73436d2ae88424bf8d0c33d80fcafcb10d9044f00076c07,
      0x918e7a5a85dae6ad366c2e38a72557414dd18cc4f69f452cfc13ddb9f2752c06),
    (0xf2aca9ede2d2e79c6406799ba2f5c3e583521a67aa84a83370f79fcde9b8df2f,
      0x7210a37d075c9706f37f3d4802ae8245194d4f0a1bf6ee6d8b0c6d52a013b82a),
    (0x50b5b7764960e3b69ccc265012db53c08101802ce6ae35498682182ff4da5666,
      0xa1e32f6338c3ce19141118320e28be0118d671ef452dce53aabb90db441039a),
    (0x83417d34684b2bb85d3a2db3f6481d79c80f86224d1629eb638ad1c1db31e8ec,
      0x4544486bad112bd79767d27b099fc0a8db03b1bfc663a57f717604f2943ab924),
    (0xfae3038e2911749cf7682a07fd4863500dc5ffbc33a42abd4af8b152768afd21,
      0xe6b6127a6f79580c6ba3942a78fe2ea2be09abfa293ee3dd57269de5a366896b),
    (0xd3cc82c3ee7c259cbd402f68290b48b5198730190fc2a19be8d9a57b774f83bd,
      0x978f610f0baffd6ae38e28964d1af7b34f7f59c84a6a57bbcd9c632646bba997),
    (0x78585cac348d10c9e347e1762a8dd93e53d489dd8fe8c27d82ad647bb845ed02,
      0x7286b84b97f001ea0035458f5b123b7462b9fb0625b99d090b1e0d4f274de4d6),
    (0x4abe2cbaff22eb92903d085129b4494de6bfd40a136629b26e1fc2854f4cd858,
      0x211e7fdd8e3ad29879cc4960df4b3fb3f33c52a098e7ab70c31e1870df76fb01),
    (0x2f4951ddc218c16ef2a895e5bdd54367b7327df3b04879df0efc32fcd03c4d0e,
      0x4c8eef2a9c98ff64b22369b4c0b05ef9457f1789b7791e7c56fcf7819a5e209b),
    (0x7c9c14239e529fa7a223a8391d0e44563c0b216d66edb83b8e9352bc16201d30,
      0xb43af8454ea14991b98fda69ab569d8ebe293e31a13f0c56a5875d62dbb56594),
    (0x714685666bc7e1db3c186c8e230f9ca54406de159e27bf3987baaa8f0737bfaf,
      0x88b5bcc57bf3d5cca6bb3d85a618a65d6b717c94f74a04e15ea27232e9b15de7),
    (0xab946b30d14fc54ff0fa2e790cc43853d94bc903e3af227ea4bb3ea612c30772,
      0x57bc503186537689f652422726198bf3147e5ff139ce494b06a6dc7f71f66a29),
    (0xcbf6055ab2ffb653ba38c2df6ef43d8f10ea61c0dc458b3106f1f5019ec8dffa,
      0xdd3267f2d0ed9d6113ab409964f2e23d7d66cd52874ee65a8da774d041f69c33),
    (0xad5511fc30beec3b4fa3cf1facad729882ed0a3e95342d49e0444ac53ca5c22e,
      0x146b204399e8878a6cbd97bec6c5404f87fce11569158928ca587169ebf6b53a),
    (0x13493c3b45412626184e6eecc107a4136080be5af350b33773fb329192242757,
      0x5eb1b3e4e2fbfa8a8717635cab1ccc29f944e2bd2633320d70b17b94fa9be3dc),
    (0xe3f6d5f9659d987a4697a37d5552142b937bf5c6103c507888363cf0e360bf49,
      0xa98eb901309b5fc37aed8395d07629d8c479e8509b92c2299bb127d389d1e60d),
    (0x969fc1a7a5fb077a0d32976054a891a420a16a7f053e8b5a02bf2d1b91585d4c,
      0xb4c2e79a2d34d9773275c012044d505d6054bd3cce7073fd29b3a4bcb6e56373),
    (0x117671236163fca90e4aa506446c7a5afdb5a67abdcbd0924431910fffffd573,
      0x8d58042d43c72a317f884a99664109d96b491992838316248e7c321b99d32ecc),
    (0x6769f640352ea200a358f2e1ea2046fac39f5188fb13e325e804d9df09cab036,
      0xc09358b0f7a12cd61f57af93d9c2c5e17197cc28fc270e813a5385629025b047)]

/-- The points `2 ^ i` times G for `i` up to 63 (used only to check data).
See rangeproof.go:154-231. -/
def gPts : List (ℕ × ℕ) :=
  [(0x79be667ef9dcbbac55a06295ce870b07029bfcdb2dce28d959f2815b16f81798,
      0x483ada7726a3c4655da4fbfc0e1108a8fd17b448a68554199c47d08ffb10d4b8),
    (0xc6047f9441ed7d6d3045406e95c07cd85c778e4b8cef3ca7abac09b95c709ee5,
      0x1ae168fea63dc339a3c58419466ceaeef7f632653266d0e1236431a950cfe52a),
    (0xe493dbf1c10d80f3581e4904930b1404cc6c13900ee0758474fa94abe8c4cd13,
      0x51ed993ea0d455b75642e2098ea51448d967ae33bfbdfe40cfe97bdc47739922),
    (0x2f01e5e15cca351daff3843fb70f3c2f0a1bdd05e5af888a67784ef3e10a2a01,
      0x5c4da8a741539949293d082a132d13b4c2e213d6ba5b7617b5da2cb76cbde904),
    (0xe60fce93b59e9ec53011aabc21c23e97b2a31369b87a5ae9c44ee89e2a6dec0a,
      0xf7e3507399e595929db99f34f57937101296891e44d23f0be1f32cce69616821),
    (0xd30199d74fb5a22d47b6e054e2f378cedacffcb89904a61d75d0dbd407143e65,
      0x95038d9d0ae3d5c3b3d6dec9e98380651f760cc364ed819605b3ff1f24106ab9),
    (0xbf23c1542d16eab70b1051eaf832823cfc4c6f1dcdbafd81e37918e6f874ef8b,
      0x5cb3866fc33003737ad928a0ba5392e4c522fc54811e2f784dc37efe66831d9f),
    (0x34ff3be4033f7a06696c3d09f7d1671cbcf55cd700535655647077456769a24e,
      0x5d9d11623a236c553f6619d89832098c55df16c3e8f8b6818491067a73cc2f1a),
    (0x8282263212c609d9ea2a6e3e172de238d8c39cabd5ac1ca10646e23fd5f51508,
      0x11f8a8098557dfe45e8256e830b60ace62d613ac2f7b17bed31b6eaff6e26caf),
    (0x465370b287a79ff3905a857a9cf918d50adbc968d9e159d0926e2c00ef34a24d,
      0x35e531b38368c082a4af8bdafdeec2c1588e09b215d37a10a2f8fb20b33887f4),
    (0x241febb8e23cbd77d664a18f66ad6240aaec6ecdc813b088d5b901b2e285131f,
      0x513378d9ff94f8d3d6c420bd13981df8cd50fd0fbd0cb5afabb3e66f2750026d),
    (0x5d1bdb4ea172fa79fce4cc2983d8f8d9fc318b85f423de0dedcb63069b920471,
      0x2843826779379e2e794bb99438a2265679eb1e9996c56e7b70330666f7b83103),
    (0x175e159f728b865a72f99cc6c6fc846de0b93833fd2222ed73fce5b551e5b739,
      0xd3506e0d9e3c79eba4ef97a51ff71f5eacb5955add24345c6efa6ffee9fed695),
    (0x423a013f03ff32d7a5ffbcc8e139c62130fdfeb5c6da121bce78049e46bc47d6,
      0xb91ae00fe1e1d970a1179f7bbaf6b3c7720d8ec3524f009ed1236e6d8b548a34),
    (0x111d6a45ac1fb90508907a7abcd6877649df662f3b3e2741302df6f78416824a,
      0x696911c478eaffbb90d48dbff065952f070008996daca4ca9a111d42108e9d0),
    (0x4a4a6dc97ac7c8b8ad795dbebcb9dcff7290b68a5ef74e56ab5edde01bced775,
      0x529911b016631e72943ef9f739c0f4571de90cdb424742acb2bf8f68a78dd66d),
    (0x363d90d447b00c9c99ceac05b6262ee053441c7e55552ffe526bad8f83ff4640,
      0x4e273adfc732221953b445397f3363145b9a89008199ecb62003c7f3bee9de9),
    (0x4c1b9866ed9a7e9b553973c6c93b02bf0b62fb012edfb59dd2712a5caf92c541,
      0xc1f792d320be8a0f7fbcb753ce56e69cc652ead7e43eb1ad72c4f3fdc68fe020),
    (0xa4083877ba83b12b529a2f3c0780b54e3233edbc1a28f135e0c8f28cbeaaf3d1,
      0x40e9f612feefbc79b8bf83d69361b3e22001e7576ed1ef90b12b534df0b254b9),
    (0xa804c641d28cc0b53a4e3e1a2f56c86f6e0d880a454203b98cd3db5a7940d33a,
      0x95be83252b2fa6d03dec2842c16047e81af18ca89cf736a943ce95fa6d46967a),
    (0x8b4b5f165df3c2be8c6244b5b745638843e4a781a15bcd1b69f79a55dffdf80c,
      0x4aad0a6f68d308b4b3fbd7813ab0da04f9e336546162ee56b3eff0c65fd4fd36),
    (0xed0c5ce4e13291718ce17c7ec83c611071af64ee417c997abb3f26714755e4be,
      0x221a9fc7bc2345bdbf3dad7f5a7ea68049d93925763ddab163f9fa6ea07bf42f),
    (0xfaecb013c44ce694b3b15c3f83f1fae8e53254566e0552ced4b6e6c807cec8ab,
      0xcc09b5e90e9ecb57fc2e02c6ec2fb13d9c32b286b85e2e2e8981dfd9ab155070),
    (0x9bb8a132dcad2f2c8731a0b37cbcafdb3b2dd824f23cd3e07f64eae9ad1b1f7,
      0x945bb2b2afeee3b9b6f9dd284f863e850f54a840f4752d5364130627c3811c80),
    (0x723cbaa6e5db996d6bf771c00bd548c7b700dbffa6c0e77bcb6115925232fcda,
      0x96e867b5595cc498a921137488824d6e2660a0653779494801dc069d9eb39f5f),
    (0x57efa786437b744d343d7dc45773a3c62d240a43079849071fd383d60ca030d5,
      0xd712db0bd1b48518893627c928de03ec689b6d2ae5e9974ab07ab44274b02f9e),
    (0x264bbd436a28bc42a2df7e9cd5226cb91080577e327b012a7fafc7770c584dd5,
      0xd87c6fa94ee093b4d4f75ce24c33be226a118243717b8d8de61227937704ab11),
    (0xa94c6524bd40d2bbdac85c056236a79da78bc61fd5bdec9d2bf26bd84b2438e8,
      0xb5201fd992f96280fd79219505019e3a7e5d3c60a0e39b2bc2e2c8dbf18661f4),
    (0xeebfa4d493bebf98ba5feec812c2d3b50947961237a919839a533eca0e7dd7fa,
      0x5d9a8ca3970ef0f269ee7edaf178089d9ae4cdc3a711f712ddfd4fdae1de8999),
    (0x381c4ad7a7a97bfda61c6031c118495fc4ea4bc08f6766d676bee90847d297fd,
      0x936af53b238eeee48f3e5fa709915eccf0451032db939c0093ace3187d493fc5),
    (0xe1efb9cd05adc63bcce10831d9538c479cf1d05fefdd08b2448d70422ede454c,
      0xecb4530d8af9be7b0154c1ffe477123464e3244a7a2d4c6ad9fd233a8913797),
    (0x5318f9b1a2697010c5ac235e9af475a8c7e5419f33d47b18d33feeb329eb99a4,
      0xf44ccfeb4beda4195772d93aebb405e8a41f2b40d1e3ec652c726eeefe91f92d),
    (0x100f44da696e71672791d0a09b7bde459f1215a29b3c03bfefd7835b39a48db0,
      0xcdd9e13192a00b772ec8f3300c090666b7ff4a18ff5195ac0fbd5cd62bc65a09),
    (0x8c0989f2ceb5c771a8415dff2b4c4199d8d9c8f9237d08084b05284f1e4df706,
      0xfb4dbd044f432034ffd2172cb9dc966c60de6bf5156511aa736ac5a35d72fa98),
    (0xfb8f153c5e266704c4a481743262c0259c528539bc95bc1bb1e63c33dc47bffd,
      0x6ca27a9dc5e0621816fa11d9b4bccd531dde1389ac542613090a45ddd949b095),
    (0xe747333fd75d51755a0cc9f0a728708465a02c587737a7b8b8fa1b8b4bb2629a,
      0xf2affe0145070c114cc43603804c2581c88376aa6e1a969a9f8d961a6946f6d6),
    (0xe1031be262c7ed1b1dc9227a4a04c017a77f8d4464f3b3852c8acde6e534fd2d,
      0x9d7061928940405e6bb6a4176597535af292dd419e1ced79a44f18f29456a00d),
    (0xf4b93f224c8089eab9f95dcd0f29b2c9028a6ac5de94d85784e27e36a95c8356,
      0xa67a92ec062962dfb0e5f6a7a40eee90c37ef1344915609abd5861b9be001fd3),
    (0x9d1aca1fce55236b19622ea025b08b0d51e8512f97e696c20d62fe17b160e8a,
      0x1153188f5101f0c63e56692ce0d8c27e6fe9e0ee9212b5e534e050c57ca04c44),
    (0xc66c59cc454c2b9e18a2ad793821cde7518b3a93bfc39562e97d7d0475ba7fc2,
      0xd9592fe2bfb30fcfbea4f3ceaac10cb2f00a60ddb15955977ec3c69cf75f5956),
    (0xfeea6cae46d55b530ac2839f143bd7ec5cf8b266a41d6af52d5e688d9094696d,
      0xe57c6b6c97dce1bab06e4e12bf3ecd5c981c8957cc41442d3155debf18090088),
    (0x4d000b621adb87e1c53261af9db2e179141ecae0b331a1870aa4040aee752b08,
      0x6a0d5b8f18e0d255cb6d825582d972cccb7df5f119c7293a3e72851f48302cea),
    (0x71f570ca203da05dd6aa262114717128d657a0403e1f1b77f89962fd475c58ef,
      0xeb42415b95dc880dd25557345bc95b8df2445d00c3363e7df8649a72d35d420e),
    (0xa2b7b3629f7bd253b7d282b5c21da01446b4821dc65e76516048b06043ff8359,
      0x693038941695122d57a937a3f71e29c910d10835046f3835a2397fecfe86fec2),
    (0xda67a91d91049cdcb367be4be6ffca3cfeed657d808583de33fa978bc1ec6cb1,
      0x9bacaa35481642bc41f463f7ec9780e5dec7adc508f740a17e9ea8e27a68be1d),
    (0x4dbacd365fa1ef587c0c0cfaaf00d8718bbd9f35ccea5a835ee3cc821fe741c9,
      0x16c3540e8a51892e7fdcfd59e838299d0cc384a09fc0535f60be10f8338eb623),
    (0x13d1ffc481509beee68f17d8ff41c2590f4c85f15268605087eda8bab4e218da,
      0x6008391fa991961dcecb9337b1b758bda4ad01206d5bd127e0db419ddb191c19),
    (0x219b4f9cef6c60007659c79c45b0533b3cc9d916ce29dbff133b40caa2e96db8,
      0x24d9c605d959efeaf5a44180c0372a6e394f8ac53e90576527df01a78d3b6bc7),
    (0x53904faa0b334cdda6e000935ef22151ec08d0f7bb11069f57545ccc1a37b7c0,
      0x5bc087d0bc80106d88c9eccac20d3c1c13999981e14434699dcb096b022771c8),
    (0x1a575af9d4146753cf991196316995d2a6ee7aaad0f85ad57cd0f1f38a47ca9,
      0x3038f1cb8ab20dc3cc55fc52e1bb8698bdb93c5d9f4d7ea667c5df2e77ebcdb7),
    (0xf5f0e0437621d439ca71f5c1b76155d6d3a61a83d3c20c6ee309d755e315565b,
      0x6b9f4e62be5a052bf62189160df7101aa5bf61bf3ed7e40a678430afdd2ecc82),
    (0x8f506f0b6c0b6e9a57a7f36d970ca4e347cbc92146227642cbe781d9f5362d33,
      0x469f955d2afa61719530c5424f1c336848cf925d43bb8eaf30487d0c87fa243f),
    (0x8e7bcd0bd35983a7719cca7764ca906779b53a043a9b8bcaeff959f43ad86047,
      0x10b7770b2a3da4b3940310420ca9514579e88e2e47fd68b3ea10047e8460372a),
    (0x33b35baa195e729dc350f319996950df3bc15b8d3d0389e777d2808bf13f0351,
      0xa58a0185640abf87f9464036248d52bcaa6560efbc889b702bc503cccb8d7418),
    (0x374deeae22c93f955cb83ad2071f7e2256f6e109cad7bca6d71dc7b24414bb36,
      0x171165b64fcd4f9916032c06f806f7293828d66300e543217875bea98daf734a),
    (0x2380c09c7f3aeae57c46e07395aeb0dc944dbaf2b62a9f0c5e8a64ad6ae7d616,
      0x6f8e86193464956af1598aefd509b09a93af92148f8467560099be48161bbc1a),
    (0x385eed34c1cdff21e6d0818689b81bde71a7f4f18397e6690a841e1599c43862,
      0x283bebc3e8ea23f56701de19e9ebf4576b304eec2086dc8cc0458fe5542e5453),
    (0xf6f622083daf54800456be134d5f67d147c82642befc1ce2dc83a27078f2827c,
      0x1bcd4e817de73a0faf2c5715b367cee7e657ca7448321bf6d15b20b520aaa102),
    (0xfb26e5188f953de2bd70cb3c3d1fc255cd91c3ce7d8c6f369d893209715adcb6,
      0xf3e128811012a34d58e846a719d0176916d2cb31b8b7ab5449dbca3b58ba68f3),
    (0x8991225911b9132d28f5c6bc763ceab7d18c37060e8bd1d7ed44db7560788c1e,
      0xda8b4d987cc9ac9b27b8763559b136fa36969c84fdef9e11635c42228e8f0ef1),
    (0x6f9d9b803ecf191637c73a4413dfa180fddf84a5947fbc9c606ed86c3fac3a7,
      0x7c80c68e603059ba69b8e2a30e45c4d47ea4dd2f5c281002d86890603a842160),
    (0xae86eeea252b411c1cdc36c284482939da1745e5a7e4da175c9d22744b7fd72d,
      0x19e993c9707302f962ab0ace589ff0e98d9211551472f7282334cb7a4eee38bc),
    (0x2248c9f90bbfff55e61d2f8c56dc2c488718be75cf36f2ee7a1474267c169290,
      0xfa0594692d21eed7a506bb55b435ba18e163750235da2be2369d8a12883ea257),
    (0xe11a6e16e05c44074ac11b48d94085d0a99f0877dd1c6f76fd0dac4bb50964e3,
      0x87d6065b87a2d430e1ad5e2596f0af2417adc6e138318c6f767fbf8b0682bfc8)]

end Zk.Real
