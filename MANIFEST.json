{
 "claims": [
  {
   "property": "C01",
   "status": "proved",
   "theorems": [
    "Zk.Wire.C01_varint_roundtrip"
   ],
   "note": "all values, all suffixes"
  },
  {
   "property": "C02",
   "status": "proved",
   "theorems": [
    "Zk.Wire.C02_varint_canonical",
    "Zk.Wire.C02_varint_prefix_free"
   ],
   "note": "non-canonical encodings are rejected and the code is prefix free"
  },
  {
   "property": "C03",
   "status": "proved",
   "theorems": [
    "Zk.Wire.C03_varint_size"
   ],
   "note": ""
  },
  {
   "property": "C04",
   "status": "proved",
   "theorems": [
    "Zk.Wire.C04_varint_total",
    "Zk.Wire.C04_varint_truncated"
   ],
   "note": "total on all byte strings; truncated input gives an error"
  },
  {
   "property": "C05",
   "status": "proved",
   "theorems": [
    "Zk.Wire.C05_varbytes_roundtrip"
   ],
   "note": ""
  },
  {
   "property": "C06",
   "status": "partial",
   "theorems": [
    "Zk.Wire.C06_refuted",
    "Zk.Wire.C06_limit_ignored",
    "Zk.Wire.C06_varbytes_partial"
   ],
   "note": "false of the code: the limit is ignored (C06_refuted). C06_varbytes_partial gives the exact behaviour"
  },
  {
   "property": "C07",
   "status": "proved",
   "theorems": [
    "Zk.Wire.FreeList.C07_freelist_exclusive"
   ],
   "note": "all interleavings of all programs of the free-list operations"
  },
  {
   "property": "C08",
   "status": "proved",
   "theorems": [
    "Zk.Wire.FreeList.C08_stale_irrelevant",
    "Zk.Wire.FreeList.C08_values"
   ],
   "note": ""
  },
  {
   "property": "C09",
   "status": "proved",
   "theorems": [
    "Zk.Ser.C09_ecpoint_roundtrip"
   ],
   "note": ""
  },
  {
   "property": "C10",
   "status": "proved",
   "theorems": [
    "Zk.Ser.C10_bigint_roundtrip"
   ],
   "note": ""
  },
  {
   "property": "C11",
   "status": "proved",
   "theorems": [
    "Zk.Ser.C11_gspfs_roundtrip",
    "Zk.Ser.C11_equivalence_roundtrip",
    "Zk.Ser.C11_consistency_roundtrip",
    "Zk.Ser.C11_disjunctive_roundtrip"
   ],
   "note": "four theorems, one per proof type"
  },
  {
   "property": "C12",
   "status": "proved",
   "theorems": [
    "Zk.Ser.C12_abc_roundtrip"
   ],
   "note": ""
  },
  {
   "property": "C13",
   "status": "proved",
   "theorems": [
    "Zk.Ser.C13_range_roundtrip"
   ],
   "note": "any number of tuples"
  },
  {
   "property": "C14",
   "status": "proved",
   "theorems": [
    "Zk.Ser.C14_abc_truncation"
   ],
   "note": ""
  },
  {
   "property": "C15",
   "status": "partial",
   "theorems": [
    "Zk.Ser.C15_refuted",
    "Zk.Ser.C15_refuted'",
    "Zk.Ser.C15_refuted_alloc",
    "Zk.Ser.C15_panic_condition_partial",
    "Zk.Ser.C15_safe_bytes_partial",
    "Zk.Ser.C15_small_bytes_partial"
   ],
   "note": "false of the code (C15_refuted). Exact panic conditions of the two field readers in C15_panic_condition_partial; C15_safe_bytes_partial: all six deserializers return on bytes in which no piece announces a length of zero or one too large"
  },
  {
   "property": "C16",
   "status": "partial",
   "theorems": [
    "Zk.Ser.C16_range_truncation_partial",
    "Zk.Ser.C16_never_an_error",
    "Zk.Ser.C16_refuted",
    "Zk.Ser.C16_truncation_gives_nil_partial"
   ],
   "note": "false of the code (C16_refuted, C16_never_an_error). C16_truncation_gives_nil_partial and C16_range_truncation_partial are what a caller can rely on"
  },
  {
   "property": "C17",
   "status": "partial",
   "theorems": [
    "Zk.Proto.C17_refuted",
    "Zk.Proto.C17_equal_partial"
   ],
   "note": "false of the code: Equal ignores Y (C17_refuted); C17_equal_partial is what holds"
  },
  {
   "property": "C18",
   "status": "proved",
   "theorems": [
    "Zk.Proto.C18_equal_up_to_sign"
   ],
   "note": ""
  },
  {
   "property": "C19",
   "status": "partial",
   "theorems": [
    "Zk.Proto.C19_refuted",
    "Zk.Proto.C19_mult_partial"
   ],
   "note": "false of the code at -G (C19_refuted); C19_mult_partial covers every point other than -G, H, -H"
  },
  {
   "property": "C20",
   "status": "proved",
   "theorems": [
    "Zk.Proto.C20_mult_mod"
   ],
   "note": ""
  },
  {
   "property": "C21",
   "status": "proved",
   "theorems": [
    "Zk.Proto.C21_group_ops"
   ],
   "note": ""
  },
  {
   "property": "C22",
   "status": "proved",
   "theorems": [
    "Zk.Proto.C22_homomorphic"
   ],
   "note": ""
  },
  {
   "property": "C23",
   "status": "proved",
   "theorems": [
    "Zk.Proto.C23_open_honest"
   ],
   "note": ""
  },
  {
   "property": "C24",
   "status": "partial",
   "theorems": [
    "Zk.Proto.C24_binding_partial",
    "Zk.Proto.C24_refuted",
    "Zk.Proto.C24_negated_opening"
   ],
   "note": "false of the code: the negated commitment opens too (C24_refuted); up to sign it holds"
  },
  {
   "property": "C25",
   "status": "proved",
   "theorems": [
    "Zk.Proto.C25_hiding"
   ],
   "note": ""
  },
  {
   "property": "C26",
   "status": "proved",
   "theorems": [
    "Zk.Proto.C26_verifyR"
   ],
   "note": ""
  },
  {
   "property": "C27",
   "status": "partial",
   "theorems": [
    "Zk.Proto.C27_completeness_partial",
    "Zk.Proto.C27_completeness_G_partial",
    "Zk.Proto.C27_refuted",
    "Zk.Real.C27_testcurve_rejected",
    "Zk.Real.C27_testcurve_partial",
    "Zk.Rom.C27_probability_partial"
   ],
   "note": "false of the code for base -G (C27_refuted); holds at every base where Mult is scalar multiplication; with a uniform logarithm and base G except with probability 3 / N"
  },
  {
   "property": "C28",
   "status": "proved",
   "theorems": [
    "Zk.Proto.C28_refuses"
   ],
   "note": ""
  },
  {
   "property": "C29",
   "status": "proved",
   "theorems": [
    "Zk.Proto.C29_special_soundness"
   ],
   "note": ""
  },
  {
   "property": "C30",
   "status": "proved",
   "theorems": [
    "Zk.Proto.C30_simulatable"
   ],
   "note": ""
  },
  {
   "property": "C31",
   "status": "partial",
   "theorems": [
    "Zk.Proto.C31_verify_consistent_partial",
    "Zk.Proto.C31_nil_proofs"
   ],
   "note": "holds except that ABCProof.Verify panics on a nil proof"
  },
  {
   "property": "C32",
   "status": "partial",
   "theorems": [
    "Zk.Proto.C32_completeness_partial",
    "Zk.Proto.C32_refuted",
    "Zk.Real.C32_testcurve_rejected",
    "Zk.Rom.C32_probability_partial"
   ],
   "note": "false of the code at special bases (C32_refuted); with a uniform logarithm, for all bases, except with probability 6 / N"
  },
  {
   "property": "C33",
   "status": "proved",
   "theorems": [
    "Zk.Proto.C33_refuses_points",
    "Zk.Proto.C33_refuses"
   ],
   "note": ""
  },
  {
   "property": "C34",
   "status": "proved",
   "theorems": [
    "Zk.Proto.C34_soundness",
    "Zk.Proto.C34_at_most_two_challenges"
   ],
   "note": ""
  },
  {
   "property": "C35",
   "status": "partial",
   "theorems": [
    "Zk.Proto.C35_sound_partial",
    "Zk.Proto.C35_forgery",
    "Zk.Proto.C35_refuted",
    "Zk.Real.C35_testcurve_forged"
   ],
   "note": "false of the code: proofs exist for logarithms x and -x (C35_refuted); for other pairs of logarithms at most two challenges are accepted (C35_sound_partial)"
  },
  {
   "property": "C36",
   "status": "proved",
   "theorems": [
    "Zk.Proto.C36_simulatable"
   ],
   "note": ""
  },
  {
   "property": "C37",
   "status": "partial",
   "theorems": [
    "Zk.Proto.C37_completeness_partial",
    "Zk.Proto.C37_refuted",
    "Zk.Real.C37_testcurve_rejected",
    "Zk.Rom.C37_probability_partial"
   ],
   "note": "false of the code at special points (C37_refuted); with a uniform blinding factor, for all keys and values, except with probability 6 / N"
  },
  {
   "property": "C38",
   "status": "proved",
   "theorems": [
    "Zk.Proto.C38_refuses_points",
    "Zk.Proto.C38_refuses"
   ],
   "note": ""
  },
  {
   "property": "C39",
   "status": "proved",
   "theorems": [
    "Zk.Proto.C39_soundness"
   ],
   "note": ""
  },
  {
   "property": "C40",
   "status": "proved",
   "theorems": [
    "Zk.Proto.C40_simulatable"
   ],
   "note": ""
  },
  {
   "property": "C41",
   "status": "partial",
   "theorems": [
    "Zk.Proto.C41_completeness_partial",
    "Zk.Proto.C41_refuted",
    "Zk.Real.C41_testcurve_rejected",
    "Zk.Rom.C41_probability_partial"
   ],
   "note": "false of the code at special bases (C41_refuted); with a uniform logarithm, for all bases and both sides, except with probability 3 / N"
  },
  {
   "property": "C42",
   "status": "proved",
   "theorems": [
    "Zk.Proto.C42_refuses",
    "Zk.Proto.C42_refuses_points"
   ],
   "note": ""
  },
  {
   "property": "C43",
   "status": "proved",
   "theorems": [
    "Zk.Proto.C43_soundness"
   ],
   "note": ""
  },
  {
   "property": "C44",
   "status": "partial",
   "theorems": [
    "Zk.Proto.C44_side_leak",
    "Zk.Proto.C44_witness_leak",
    "Zk.Proto.C44_refuted",
    "Zk.Proto.C44_reduced_simulatable_partial",
    "Zk.Real.C44_testcurve_side",
    "Zk.Rom.C44_hidden_partial",
    "Zk.Rom.C44_hidden_many_partial",
    "Zk.Rom.C44_guesses",
    "Zk.Rom.C44_probability"
   ],
   "note": "false of the code: unreduced responses reveal side and witness (C44_refuted), also with high probability (C44_guesses, C44_probability); with reduced responses it holds, for the transcripts (C44_reduced_simulatable_partial) and as zero knowledge against distinguishers who ask the hash function and for many proofs (C44_hidden_partial, C44_hidden_many_partial)"
  },
  {
   "property": "C45",
   "status": "partial",
   "theorems": [
    "Zk.Proto.C45_completeness_left_partial",
    "Zk.Proto.C45_completeness_right_partial",
    "Zk.Proto.C45_refuted",
    "Zk.Real.C45_testcurve_rejected",
    "Zk.Rom.C45_probability_right_partial",
    "Zk.Rom.C45_probability_left_partial"
   ],
   "note": "false of the code at special points (C45_refuted); with uniform draws this has probability at most 15 / N (right side) and 9 / N (left side)"
  },
  {
   "property": "C46",
   "status": "proved",
   "theorems": [
    "Zk.Proto.C46_refuses",
    "Zk.Proto.C46_refuses_points"
   ],
   "note": ""
  },
  {
   "property": "C47",
   "status": "proved",
   "theorems": [
    "Zk.Proto.C47_soundness"
   ],
   "note": ""
  },
  {
   "property": "C48",
   "status": "partial",
   "theorems": [
    "Zk.Proto.C48_refuted",
    "Zk.Proto.C48_total_partial"
   ],
   "note": "false of the code (C48_refuted); exact precondition in C48_total_partial"
  },
  {
   "property": "C49",
   "status": "partial",
   "theorems": [
    "Zk.Proto.C49_completeness_partial",
    "Zk.Proto.C49_refuted",
    "Zk.Rom.C49_probability_partial"
   ],
   "note": "false of the code at special points: values 4 and 5 with blinding factors 0 (C49_refuted); holds under the same side conditions as C45, and with uniform draws except with probability 15 / N"
  },
  {
   "property": "C50",
   "status": "partial",
   "theorems": [
    "Zk.Proto.C50_forgery",
    "Zk.Proto.C50_refuted",
    "Zk.Proto.C50_keyholder_partial",
    "Zk.Real.C50_testcurve_forged",
    "Zk.Rom.C50_knowledge_partial"
   ],
   "note": "false of the code: equal values are accepted (C50_refuted, C50_forgery); for equal values only the holder of the key, or of a logarithm given explicitly, can answer two challenges (C50_keyholder_partial), or make an accepted proof when SHA-256 is a random function (C50_knowledge_partial)"
  },
  {
   "property": "C51",
   "status": "partial",
   "theorems": [
    "Zk.Proto.C51_refuses_partial",
    "Zk.Proto.C51_refuted"
   ],
   "note": "false of the code: values differing by a multiple of N panic (C51_refuted)"
  },
  {
   "property": "C52",
   "status": "partial",
   "theorems": [
    "Zk.Proto.C52_completeness_partial",
    "Zk.Proto.C52_refuted",
    "Zk.Real.C52_testcurve_accepted",
    "Zk.Rom.C52_probability_partial",
    "Zk.Rom.C52_testcurve_probability"
   ],
   "note": "false of the code (C52_refuted: the challenge is compared with an unreduced hash, and unlucky draws crash the prover); C52_completeness_partial holds for all other draws; for a random hash function and uniform draws the failures have probability below 2^-122 on TestCurve (C52_probability_partial, C52_testcurve_probability)"
  },
  {
   "property": "C53",
   "status": "partial",
   "theorems": [
    "Zk.Proto.C53_range_partial",
    "Zk.Proto.C53_two_pow_40",
    "Zk.Proto.C53_refuted",
    "Zk.Real.C53_testcurve_two_pow_40"
   ],
   "note": "false of the code: 2^40 is accepted and gives a proof of 0 (C53_refuted)"
  },
  {
   "property": "C54",
   "status": "partial",
   "theorems": [
    "Zk.Proto.C54_schedules_partial",
    "Zk.Proto.C54_nil_race",
    "Zk.Proto.C54_refuted",
    "Zk.Real.C54_testcurve_race"
   ],
   "note": "all schedules; proofs without nil tuples. With nil tuples the result can differ between schedules (C54_refuted)"
  },
  {
   "property": "C55",
   "status": "partial",
   "theorems": [
    "Zk.Proto.C55_refuted",
    "Zk.Proto.C55_wide_values_accepted",
    "Zk.Proto.C55_negative_values_accepted",
    "Zk.Proto.C55_sum_partial",
    "Zk.Real.C55_testcurve_too_large",
    "Zk.Real.C55_testcurve_negative"
   ],
   "note": "false of the code: the number of tuples is not checked (C55_refuted), also with wide and negative values; C55_sum_partial is what holds"
  },
  {
   "property": "C56",
   "status": "partial",
   "theorems": [
    "Zk.Proto.C56_too_many_tuples_crash",
    "Zk.Proto.C56_leak",
    "Zk.Proto.C56_refuted",
    "Zk.Proto.C56_safe_partial",
    "Zk.Real.C56_testcurve_unsafe"
   ],
   "note": "false of the code: more than 64 tuples crash the process, a nil tuple leaks goroutines for ever (C56_refuted); C56_safe_partial covers well-formed proofs with at most 64 tuples"
  },
  {
   "property": "C57",
   "status": "partial",
   "theorems": [
    "Zk.Proto.C57_value_leak",
    "Zk.Proto.C57_zero_draws",
    "Zk.Proto.C57_refuted",
    "Zk.Proto.C57_bits_hidden_partial",
    "Zk.Real.C57_testcurve_zero",
    "Zk.Real.C57_testcurve_value",
    "Zk.Real.C57_testcurve_leak",
    "Zk.Rom.C57_value_found",
    "Zk.Rom.C57_probability",
    "Zk.Rom.C57_testcurve_probability"
   ],
   "note": "false of the code: responses are not reduced, and the bits are read off the proof (C57_value_leak, C57_value_found, C57_refuted); for a random hash function and uniform draws the whole value is found from the proof alone with probability at least 99/100 on TestCurve (C57_testcurve_probability); with reduced responses the transcripts of 0 and 1 agree exactly"
  },
  {
   "property": "C58",
   "status": "proved",
   "theorems": [
    "Zk.Proto.C58_challenge"
   ],
   "note": ""
  },
  {
   "property": "C59",
   "status": "partial",
   "theorems": [
    "Zk.Proto.C59_refuted",
    "Zk.Proto.C59_injective_partial"
   ],
   "note": "false of the code (C59_refuted); holds for coordinates of full length"
  },
  {
   "property": "C60",
   "status": "proved",
   "theorems": [
    "Zk.Curve.C60_hpoints"
   ],
   "note": "init is evaluated on the modelled curve"
  },
  {
   "property": "C61",
   "status": "partial",
   "theorems": [
    "Zk.Curve.C61_refuted",
    "Zk.Curve.C61_logarithms_partial"
   ],
   "note": "false of the code: C61_refuted exhibits the logarithm; C61_logarithms_partial gives all of them"
  },
  {
   "property": "C62",
   "status": "partial",
   "theorems": [
    "Zk.Curve.C62_agree_partial",
    "Zk.Curve.C62_refuted"
   ],
   "note": "false of the code (C62_refuted); they agree exactly for multiples of N"
  },
  {
   "property": "C63",
   "status": "proved",
   "theorems": [
    "Zk.Field.C63_mul",
    "Zk.Field.C63_square"
   ],
   "note": "Mul2 and SquareVal on all operands of magnitude 8; UInt64 arithmetic of the model wraps, so an overflow would show in the value"
  },
  {
   "property": "C64",
   "status": "proved",
   "theorems": [
    "Zk.Field.C64_add",
    "Zk.Field.C64_addInt",
    "Zk.Field.C64_mulInt",
    "Zk.Field.C64_negate",
    "Zk.Field.C64_negate_sharp"
   ],
   "note": "exact values of all operations within the magnitudes"
  },
  {
   "property": "C65",
   "status": "proved",
   "theorems": [
    "Zk.Field.C65_normalize",
    "Zk.Field.C65_unique",
    "Zk.Field.C65_equals",
    "Zk.Field.C65_isZero",
    "Zk.Field.C65_isOdd",
    "Zk.Field.C65_needs_normalize"
   ],
   "note": "all magnitudes up to 63"
  },
  {
   "property": "C66",
   "status": "proved",
   "theorems": [
    "Zk.Field.C66_roundtrip",
    "Zk.Field.C66_value",
    "Zk.Field.C66_putBytes",
    "Zk.Field.C66_setByteSlice"
   ],
   "note": "all 32-byte strings; SetByteSlice for every length"
  },
  {
   "property": "C67",
   "status": "proved",
   "theorems": [
    "Zk.Field.C67_inverse"
   ],
   "note": "all operands of magnitude up to 8; p is proved prime"
  },
  {
   "property": "C68",
   "status": "proved",
   "theorems": [
    "Zk.Curve.C68_isOnCurve",
    "Zk.Curve.C68_points",
    "Zk.Curve.C68_panics"
   ],
   "note": "and coordinates that need more than 256 bits panic"
  },
  {
   "property": "C69",
   "status": "proved",
   "theorems": [
    "Zk.Curve.C69_add",
    "Zk.Curve.C69_double",
    "Zk.Curve.C69_canonical",
    "Zk.Curve.C69_opposite"
   ],
   "note": "limb-level model against the group law of Mathlib"
  },
  {
   "property": "C70",
   "status": "proved",
   "theorems": [
    "Zk.Curve.C70_splitK"
   ],
   "note": "with the bound of 129 bits"
  },
  {
   "property": "C71",
   "status": "proved",
   "theorems": [
    "Zk.Curve.C71_naf_value",
    "Zk.Curve.C71_naf_nonadjacent"
   ],
   "note": ""
  },
  {
   "property": "C72",
   "status": "proved",
   "theorems": [
    "Zk.Curve.C72_scalarMult",
    "Zk.Curve.C72_moduloReduce",
    "Zk.Curve.C72_infinity"
   ],
   "note": "limb-level model, all byte strings"
  },
  {
   "property": "C73",
   "status": "proved",
   "theorems": [
    "Zk.Curve.C73_scalarBaseMult",
    "Zk.Curve.C73_scalarBaseMultH",
    "Zk.Curve.C73_agree",
    "Zk.Curve.C73_tables"
   ],
   "note": "all 16384 table entries are checked in the kernel; the base64/zlib decoding of the table is by script"
  },
  {
   "property": "C74",
   "status": "proved",
   "theorems": [
    "Zk.Curve.C74_order"
   ],
   "note": ""
  },
  {
   "property": "C75",
   "status": "proved",
   "theorems": [
    "Zk.Ec.C75_roundtrip",
    "Zk.Ec.C75_coordinates"
   ],
   "note": ""
  },
  {
   "property": "C76",
   "status": "proved",
   "theorems": [
    "Zk.Ec.C76_valid",
    "Zk.Ec.C76_total"
   ],
   "note": ""
  },
  {
   "property": "C77",
   "status": "proved",
   "theorems": [
    "Zk.Ec.C77_roundtrip"
   ],
   "note": ""
  },
  {
   "property": "C78",
   "status": "proved",
   "theorems": [
    "Zk.Ec.C78_range"
   ],
   "note": ""
  },
  {
   "property": "C79",
   "status": "partial",
   "theorems": [
    "Zk.Ec.C79_panics_partial",
    "Zk.Ec.C79_refuted"
   ],
   "note": "False: a length byte that wraps around makes the parser slice too little and panic (C79_refuted). Proved: the exact set of inputs on which it panics."
  },
  {
   "property": "C80",
   "status": "partial",
   "theorems": [
    "Zk.Ec.C80_valid_partial",
    "Zk.Ec.C80_total",
    "Zk.Ec.C80_nonce_partial"
   ],
   "note": "False for the two nonces whose point has x = N: R is then N and is refused by Verify (C80_nonce_partial). Proved for all others. Since such a nonce cannot be computed, no message is exhibited for which it is used."
  },
  {
   "property": "C81",
   "status": "partial",
   "theorems": [
    "Zk.Ec.C81_recover_partial"
   ],
   "note": "Proved unless the nonce's point has x = N; see C80."
  },
  {
   "property": "C82",
   "status": "proved",
   "theorems": [
    "Zk.Ec.C82_roundtrip",
    "Zk.Ec.C82_aligned",
    "Zk.Ec.C82_total"
   ],
   "note": ""
  },
  {
   "property": "C83",
   "status": "proved",
   "theorems": [
    "Zk.Ec.C83_roundtrip",
    "Zk.Ec.C83_total"
   ],
   "note": "For every library that meets LibOk: SHA-512 has 64 bytes, the AES block functions are inverse to each other and keep the length."
  },
  {
   "property": "C84",
   "status": "partial",
   "theorems": [
    "Zk.Proto.C84_refuted",
    "Zk.Proto.C84_checked_base_partial"
   ],
   "note": "false of the code: the base is chosen by the prover (C84_refuted); holds when the caller checks the base"
  },
  {
   "property": "C85",
   "status": "partial",
   "theorems": [
    "Zk.Proto.C85_negated_commitment",
    "Zk.Proto.C85_up_to_sign_partial",
    "Zk.Proto.C85_refuted"
   ],
   "note": "false of the code: the negated commitment is accepted (C85_refuted); up to sign it holds"
  },
  {
   "property": "C86",
   "status": "partial",
   "theorems": [
    "Zk.Proto.C86_first_coordinate_partial",
    "Zk.Proto.C86_refuted"
   ],
   "note": "false of the code (C86_refuted); what holds: if the base is a curve point, the first coordinate of the commitment of an accepted GSPFS proof is that of a curve point (C86_first_coordinate_partial)"
  },
  {
   "property": "C87",
   "status": "partial",
   "theorems": [
    "Zk.Proto.C87_refuted",
    "Zk.Proto.C87_reduced_simulatable_partial",
    "Zk.Proto.C87_reduced_simulatable_left_partial",
    "Zk.Rom.C87_value_leak",
    "Zk.Rom.C87_value_probability",
    "Zk.Rom.C87_testcurve_value",
    "Zk.Rom.C87_given_B_partial",
    "Zk.Rom.C87_hidden_partial"
   ],
   "note": "false of the code: the response l is not reduced (C87_refuted, C87_value_leak), with high probability and on TestCurve (C87_value_probability, C87_testcurve_value); with reduced responses both provers could be simulated without the value (C87_reduced_simulatable_partial, ..._left_partial), and reducing l alone would give zero knowledge for values other than 0 when the hash is random (C87_hidden_partial, C87_given_B_partial)"
  },
  {
   "property": "C88",
   "status": "proved",
   "theorems": [
    "Zk.Proto.C88_hashed_point",
    "Zk.Proto.C88_one_bit",
    "Zk.Proto.C88_zero_bit",
    "Zk.Proto.C88_sum"
   ],
   "note": "three theorems: a 1 bit, a 0 bit, and the sum"
  },
  {
   "property": "C89",
   "status": "proved",
   "theorems": [
    "Zk.Ec.C89_hashToPoint"
   ],
   "note": ""
  },
  {
   "property": "C90",
   "status": "partial",
   "theorems": [
    "Zk.Ec.C90_canonical_partial",
    "Zk.Ec.C90_refuted"
   ],
   "note": "False: the first byte 5 is accepted as uncompressed (C90_refuted). Proved: nothing else is."
  },
  {
   "property": "C91",
   "status": "partial",
   "theorems": [
    "Zk.Ec.C91_panics_partial",
    "Zk.Ec.C91_refuted"
   ],
   "note": "False: R = 0 makes it panic (C91_refuted). Proved: the exact set of inputs on which it panics."
  },
  {
   "property": "C92",
   "status": "partial",
   "theorems": [
    "Zk.Ec.C92_on_curve_partial",
    "Zk.Ec.C92_refuted"
   ],
   "note": "False: an x coordinate that is not on the curve is not noticed (C92_refuted). Proved if it is on the curve."
  },
  {
   "property": "C93",
   "status": "partial",
   "theorems": [
    "Zk.Ec.C93_canonical_partial",
    "Zk.Ec.C93_refuted"
   ],
   "note": "False: bytes may follow, and S may be high (C93_refuted). Proved: the encoding up to trailing bytes is unique, and that of Serialize if S is low."
  },
  {
   "property": "C94",
   "status": "partial",
   "theorems": [
    "Zk.Ec.C94_other",
    "Zk.Ec.C94_refuted",
    "Zk.Ec.C94_serialize_partial"
   ],
   "note": "False: (R, N-S) verifies too (C94_other, C94_refuted). Proved: Serialize maps the two to the same string."
  },
  {
   "property": "C95",
   "status": "proved",
   "theorems": [
    "Zk.Ec.C95_verify_iff",
    "Zk.Ec.C95_total"
   ],
   "note": ""
  },
  {
   "property": "C96",
   "status": "proved",
   "theorems": [
    "Zk.Ec.C96_symmetric"
   ],
   "note": ""
  },
  {
   "property": "C97",
   "status": "partial",
   "theorems": [
    "Zk.Ec.C97_secret_partial",
    "Zk.Ec.C97_refuted"
   ],
   "note": "False: leading zeros are dropped (C97_refuted). Proved: at most 32 bytes, with the value of the x coordinate."
  },
  {
   "property": "C98",
   "status": "proved",
   "theorems": [
    "Zk.Ec.C98_roundtrip"
   ],
   "note": ""
  },
  {
   "property": "C99",
   "status": "proved",
   "theorems": [
    "Zk.Ec.C99_nonce"
   ],
   "note": "The loop is bounded by an argument; the result does not depend on it."
  },
  {
   "property": "C100",
   "status": "partial",
   "theorems": [
    "Zk.Ec.C100_memory_partial",
    "Zk.Ec.C100_refuted"
   ],
   "note": "False: append writes the padding into spare capacity (C100_refuted). Proved: exactly which bytes may change."
  },
  {
   "property": "C101",
   "status": "proved",
   "theorems": [
    "Zk.Ec.C101_mac"
   ],
   "note": "HMAC-SHA256 is modelled, SHA-512 is arbitrary."
  },
  {
   "property": "C102",
   "status": "partial",
   "theorems": [
    "Zk.Ec.C102_accepts_partial",
    "Zk.Ec.C102_refuted"
   ],
   "note": "False: only the last byte is looked at, and 0 is accepted (C102_refuted). Proved: what is accepted."
  },
  {
   "property": "C103",
   "status": "partial",
   "theorems": [
    "Zk.Ec.C103_refuted",
    "Zk.Ec.C103_points_partial"
   ],
   "note": "False: the check never fails since the multiplier N is reduced to 0 (C103_refuted). Proved: it passes for curve points."
  },
  {
   "property": "C104",
   "status": "partial",
   "theorems": [
    "Zk.Ec.C104_verifies_partial",
    "Zk.Ec.C104_refuted"
   ],
   "note": "False: S = 0 is accepted (C104_refuted). Proved for R, S in range and x on the curve."
  },
  {
   "property": "C105",
   "status": "proved",
   "theorems": [
    "Zk.Ec.C105_pubkey",
    "Zk.Ec.C105_signature"
   ],
   "note": ""
  },
  {
   "property": "C106",
   "status": "partial",
   "theorems": [
    "Zk.Ec.C106_refuted",
    "Zk.Ec.C106_hash_partial"
   ],
   "note": "False: the hash is read as a number, so leading zeros are lost (C106_refuted). Proved: the number is all that matters and differs for hashes of 32 bytes."
  },
  {
   "property": "C107",
   "status": "proved",
   "theorems": [
    "Zk.Ec.C107_header"
   ],
   "note": ""
  },
  {
   "property": "C108",
   "status": "proved",
   "theorems": [
    "Zk.Ec.C108_compressed"
   ],
   "note": ""
  },
  {
   "property": "C109",
   "status": "proved",
   "theorems": [
    "Zk.Ec.C109_ciphertext"
   ],
   "note": "For every library that meets LibOk."
  },
  {
   "property": "C110",
   "status": "partial",
   "theorems": [
    "Zk.Gen.C110_sqrt_partial",
    "Zk.Gen.C110_refuted"
   ],
   "note": "False: panics for 0, does not end for numbers one less than a square (C110_refuted). Proved: returns a number exactly for the other positive numbers, and then the floor of the root."
  },
  {
   "property": "C111",
   "status": "proved",
   "theorems": [
    "Zk.Gen.C111_vectors",
    "Zk.Gen.C111_prime"
   ],
   "note": "C111_prime: the condition on N + 1 holds for every prime above 3."
  },
  {
   "property": "C112",
   "status": "proved",
   "theorems": [
    "Zk.Gen.C112_constants"
   ],
   "note": ""
  },
  {
   "property": "C113",
   "status": "proved",
   "theorems": [
    "Zk.Gen.C113_generated",
    "Zk.Gen.C113_entries"
   ],
   "note": ""
  },
  {
   "property": "C114",
   "status": "proved",
   "theorems": [
    "Zk.Gen.C114_first",
    "Zk.Gen.C114_second"
   ],
   "note": ""
  },
  {
   "property": "C115",
   "status": "proved",
   "theorems": [
    "Zk.Gen.C115_base"
   ],
   "note": ""
  },
  {
   "property": "C116",
   "status": "proved",
   "theorems": [
    "Zk.Gen.C116_load",
    "Zk.Gen.C116_roundtrip"
   ],
   "note": ""
  },
  {
   "property": "C117",
   "status": "proved",
   "theorems": [
    "Zk.Gen.C117_words"
   ],
   "note": ""
  },
  {
   "property": "C118",
   "status": "proved",
   "theorems": [
    "Zk.Heap.C118_double",
    "Zk.Heap.C118_add",
    "Zk.Heap.C118_affine"
   ],
   "note": ""
  },
  {
   "property": "C119",
   "status": "proved",
   "theorems": [
    "Zk.Heap.C119_scalarMult",
    "Zk.Heap.C119_again"
   ],
   "note": ""
  },
  {
   "property": "C120",
   "status": "proved",
   "theorems": [
    "Zk.Heap.C120_scalarBaseMult"
   ],
   "note": ""
  },
  {
   "property": "C121",
   "status": "partial",
   "theorems": [
    "Zk.Proto.C121_shift",
    "Zk.Proto.C121_negate",
    "Zk.Proto.C121_refuted",
    "Zk.Proto.C121_responses_partial",
    "Zk.Proto.C121_pairs_partial"
   ],
   "note": "false of the code on every curve and for every hash function: responses are not checked to be reduced (C121_refuted, C121_shift), CToken is not checked (C121_shift), and negated responses are accepted for four kinds of proofs (C121_negate); what holds: the exact set of accepted responses for all five kinds of proofs (C121_responses_partial, C121_pairs_partial)"
  },
  {
   "property": "C122",
   "status": "proved",
   "theorems": [
    "Zk.Proto.C122_bound"
   ],
   "note": "five kinds of proofs; range proofs hash no statement, so they are not covered"
  },
  {
   "property": "C123",
   "status": "proved",
   "theorems": [
    "Zk.Proto.C123_gspfs",
    "Zk.Proto.C123_equivalence",
    "Zk.Proto.C123_consistency",
    "Zk.Proto.C123_disjunctive",
    "Zk.Proto.C123_abc",
    "Zk.Proto.C123_inequality",
    "Zk.Proto.C123_range",
    "Zk.Proto.C123_delivered",
    "Zk.Proto.C123_delivered_abc",
    "Zk.Proto.C123_delivered_range"
   ],
   "note": "C123_delivered... add that honest proofs are accepted after the way, under the conditions of the completeness theorems C27, C45, C52 and so on"
  },
  {
   "property": "C124",
   "status": "partial",
   "theorems": [
    "Zk.Ec.C124_newPrivateKey",
    "Zk.Ec.C124_encrypt",
    "Zk.Proto.C124_reported_partial",
    "Zk.Proto.C124_abc_partial",
    "Zk.Proto.C124_inequality_partial",
    "Zk.Proto.C124_refuted"
   ],
   "note": "false of NewRangeProof and KeyGen, which panic (C124_refuted); holds for the other provers, PedCommit, NewPrivateKey and Encrypt"
  },
  {
   "property": "C125",
   "status": "proved",
   "theorems": [
    "Zk.Once.C125_initialised",
    "Zk.Once.C125_stable",
    "Zk.Once.C125_progress"
   ],
   "note": ""
  },
  {
   "property": "C126",
   "status": "proved",
   "theorems": [
    "Zk.Mem.C126_call",
    "Zk.Mem.C126_client"
   ],
   "note": "calls that return; the secret scalars of provers are not nil; the operations of the curve return new numbers except Add with (0, 0), which is a hypothesis met by the real curve"
  },
  {
   "property": "C127",
   "status": "proved",
   "theorems": [
    "Zk.Mem.C127_values",
    "Zk.Mem.C127_sharing",
    "Zk.Mem.C127_again"
   ],
   "note": "goroutines of the range proofs run one after the other in this layer; C130 is for all schedules"
  },
  {
   "property": "C128",
   "status": "partial",
   "theorems": [
    "Zk.Mem.C128_refuted",
    "Zk.Mem.C128_partial",
    "Zk.Mem.C128_write_partial"
   ],
   "note": "false of Add, Sub and Neg, the base of a GSPFS proof and points of a range proof (C128_refuted); holds for all other results"
  },
  {
   "property": "C129",
   "status": "proved",
   "theorems": [
    "Zk.Mem.C129_no_race"
   ],
   "note": "programs whose calls have arguments with values (no nil secret scalars) and that do not themselves overwrite numbers; sequentially consistent memory"
  },
  {
   "property": "C130",
   "status": "proved",
   "theorems": [
    "Zk.Mem.C130_results",
    "Zk.Mem.C130_kept"
   ],
   "note": "programs whose calls have arguments with values (no nil secret scalars) and that do not themselves overwrite numbers; sequentially consistent memory"
  },
  {
   "property": "C131",
   "status": "partial",
   "theorems": [
    "Zk.Mem.C131_refuted",
    "Zk.Mem.C131_partial"
   ],
   "note": "false of the code: RangeProof.Verify rejects a proof with a nil entry and returns, and a goroutine started for an earlier entry panics afterwards (C131_refuted); C131_partial: a crash needs a call that panics or such a proof"
  },
  {
   "property": "C132",
   "status": "proved",
   "theorems": [
    "Zk.Mem.C132_no_deadlock",
    "Zk.Mem.C132_ends"
   ],
   "note": "programs whose calls have arguments with values (no nil secret scalars) and that do not themselves overwrite numbers; sequentially consistent memory; goroutines of a verifier that has returned early may stay blocked, see C56"
  },
  {
   "property": "C133",
   "status": "proved",
   "theorems": [
    "Zk.Rom.C133_gspfs_knowledge"
   ],
   "note": "the caller checks that the base is G (Verify does not, C84); the prover is a deterministic tree of questions, so its coins are fixed; the hash function is uniform on a finite set of strings that contains all questions"
  },
  {
   "property": "C134",
   "status": "proved",
   "theorems": [
    "Zk.Rom.C134_equivalence_sound",
    "Zk.Rom.C134_equivalence_knowledge"
   ],
   "note": "random commitments on the curve, which Verify does not check (C86); conclusions up to the signs that Equal ignores (C35); the prover is a deterministic tree of questions, so its coins are fixed; the hash function is uniform on a finite set of strings that contains all questions"
  },
  {
   "property": "C135",
   "status": "proved",
   "theorems": [
    "Zk.Rom.C135_consistency_knowledge"
   ],
   "note": "random commitments on the curve, which Verify does not check (C86); conclusions up to the signs that Equal ignores (C35); the prover is a deterministic tree of questions, so its coins are fixed; the hash function is uniform on a finite set of strings that contains all questions"
  },
  {
   "property": "C136",
   "status": "proved",
   "theorems": [
    "Zk.Rom.C136_disjunctive_knowledge"
   ],
   "note": "random commitments on the curve, which Verify does not check (C86); conclusions up to the signs that Equal ignores (C35); the prover is a deterministic tree of questions, so its coins are fixed; the hash function is uniform on a finite set of strings that contains all questions"
  },
  {
   "property": "C137",
   "status": "proved",
   "theorems": [
    "Zk.Rom.C137_gspfs_zero_knowledge",
    "Zk.Rom.C137_gspfs_many"
   ],
   "note": "the draws of the prover are uniform below N; the distinguisher is a deterministic tree, so its coins are fixed; the hash function is uniform on a finite set that contains the strings of all proofs"
  },
  {
   "property": "C138",
   "status": "proved",
   "theorems": [
    "Zk.Rom.C138_equivalence_zero_knowledge",
    "Zk.Rom.C138_equivalence_many"
   ],
   "note": "the draws of the prover are uniform below N; the distinguisher is a deterministic tree, so its coins are fixed; the hash function is uniform on a finite set that contains the strings of all proofs"
  },
  {
   "property": "C139",
   "status": "proved",
   "theorems": [
    "Zk.Rom.C139_consistency_zero_knowledge",
    "Zk.Rom.C139_consistency_many"
   ],
   "note": "the draws of the prover are uniform below N; the distinguisher is a deterministic tree, so its coins are fixed; the hash function is uniform on a finite set that contains the strings of all proofs"
  },
  {
   "property": "C140",
   "status": "proved",
   "theorems": [
    "Zk.Rom.C140_plain_bits",
    "Zk.Rom.C140_plain_value",
    "Zk.Rom.C140_plain_knowledge",
    "Zk.Rom.C140_range_bits",
    "Zk.Rom.C140_range_value",
    "Zk.Rom.C140_range_knowledge"
   ],
   "note": "the opening is up to the sign that Equal ignores (C85), and the value has a multiple of the logarithm of H for the tuples that exploit C142; points of the tuples are on the curve; the prover is a deterministic tree of questions, so its coins are fixed; the hash function is uniform on a finite set of strings that contains all questions"
  },
  {
   "property": "C141",
   "status": "proved",
   "theorems": [
    "Zk.Rom.C141_abc_knowledge",
    "Zk.Rom.C141_abc_value",
    "Zk.Rom.C141_abc_logarithm"
   ],
   "note": "random commitments on the curve, which Verify does not check (C86); multiples are those that Mult computes (C24) and the equation for C is up to the sign that Equal ignores; the prover is a deterministic tree of questions, so its coins are fixed; the hash function is uniform on a finite set of strings that contains all questions"
  },
  {
   "property": "C142",
   "status": "partial",
   "theorems": [
    "Zk.Real.C142_forged",
    "Zk.Real.C142_refuted",
    "Zk.Rom.C142_plain_partial",
    "Zk.Rom.C142_binding_partial"
   ],
   "note": "false of the code: an explicit program makes such proofs (C142_forged on every curve, C142_refuted on TestCurve); partial, for a random SHA-256 and curve points: with a proof accepted, a commitment can be opened only to w + m log_G(H) with w in range and m from -n to n (m = 0 for proofs without the points that Mult confuses), or the logarithm of G to the base for H is found"
  },
  {
   "property": "C143",
   "status": "partial",
   "theorems": [
    "Zk.Real.C143_made",
    "Zk.Real.C143_false",
    "Zk.Real.C143_refuted",
    "Zk.Real.C143_witness_partial"
   ],
   "note": "false of the code for H (C143_refuted); true, with one logarithm up to sign, where Mult is right at the four points (C34_soundness, C143_witness_partial)"
  },
  {
   "property": "C144",
   "status": "partial",
   "theorems": [
    "Zk.Rom.C144_key_leak",
    "Zk.Rom.C144_key_probability",
    "Zk.Rom.C144_refuted",
    "Zk.Rom.C144_nonzero_partial"
   ],
   "note": "false of the code for the value 0 (C144_refuted, C144_key_probability, C144_key_leak); for other values zero knowledge with respect to the key (C144_nonzero_partial)"
  },
  {
   "property": "C145",
   "status": "partial",
   "theorems": [
    "Zk.Rom.C145_refuted",
    "Zk.Rom.C145_difference_partial"
   ],
   "note": "false of the code: the difference of the values is revealed (C145_refuted); nothing else about the values or the key (C145_difference_partial)"
  },
  {
   "property": "C146",
   "status": "proved",
   "theorems": [
    "Zk.Text.C146_fromHex",
    "Zk.Text.C146_setHex",
    "Zk.Text.C146_invalid",
    "Zk.Text.C146_string"
   ],
   "note": "the comment at SetHex and SetByteSlice, that only the first 32 bytes are used, is wrong: longer input panics"
  },
  {
   "property": "C147",
   "status": "proved",
   "theorems": [
    "Zk.Text.C147_init",
    "Zk.Text.C147_load",
    "Zk.Text.C147_generated"
   ],
   "note": "compress/zlib is a parameter with the hypotheses that reading gives back what was written and that empty input is an error"
  },
  {
   "property": "C148",
   "status": "proved",
   "theorems": [
    "Zk.Wire.C148_value",
    "Zk.Wire.C148_uniform"
   ],
   "note": ""
  },
  {
   "property": "C149",
   "status": "partial",
   "theorems": [
    "Zk.Audit.C149_audit_completeness_partial",
    "Zk.Audit.C149_probability_partial",
    "Zk.Audit.C149_refused",
    "Zk.Audit.C149_refuted"
   ],
   "note": "false of the code: C149_refuted; holds if Mult is scalar multiplication at the five points, hence except with probability 12 / N over the draws of one transaction"
  },
  {
   "property": "C150",
   "status": "partial",
   "theorems": [
    "Zk.Audit.C150_any_number",
    "Zk.Audit.C150_three",
    "Zk.Audit.C150_refuted",
    "Zk.Audit.C150_count_sound_partial"
   ],
   "note": "false of the code: with a changed CToken every number is accepted (C150_any_number on every curve, C150_refuted on TestCurve); the partial theorem is about tokens that are known multiples of the key"
  },
  {
   "property": "C151",
   "status": "partial",
   "theorems": [
    "Zk.Audit.C151_value_sound_partial",
    "Zk.Audit.C151_forged",
    "Zk.Audit.C151_attack",
    "Zk.Audit.C151_refuted"
   ],
   "note": "false of the code: C151_refuted on TestCurve, with signs of tokens and the base H; the partial theorem excludes sums at which Mult is not scalar multiplication"
  },
  {
   "property": "C152",
   "status": "partial",
   "theorems": [
    "Zk.Rom.C152_wrong_refused",
    "Zk.Rom.C152_wrong_probability",
    "Zk.Rom.C152_wrong_value_partial",
    "Zk.Rom.C152_wrong_key_partial",
    "Zk.Rom.C152_inequality_partial",
    "Zk.Rom.C152_swapped_partial",
    "Zk.Rom.C152_minus_one",
    "Zk.Rom.C152_refuted"
   ],
   "note": "false of the code: C152_refuted, the commitment to -1 without blinding is -G, which Mult takes for G; C152_wrong_refused and C152_wrong_probability hold for all points, the partial theorems exclude points at which Mult is not scalar multiplication and one sum that is the identity"
  },
  {
   "property": "C153",
   "status": "partial",
   "theorems": [
    "Zk.Rom.C153_refused_partial",
    "Zk.Rom.C153_probability_partial",
    "Zk.Rom.C153_other_bytes",
    "Zk.Rom.C153_order",
    "Zk.Rom.C153_factor_one"
   ],
   "note": "C153_refused_partial and C153_probability_partial exclude points C - G at which Mult is not scalar multiplication and one draw; C153_other_bytes has no such exception and holds if the hashed bytes differ; C153_order and C153_factor_one are about the test: the order of its points alone makes the proof fail"
  },
  {
   "property": "C154",
   "status": "partial",
   "theorems": [
    "Zk.Hostile.C154_gspfs_refuted",
    "Zk.Hostile.C154_equivalence_refuted",
    "Zk.Hostile.C154_consistency_refuted",
    "Zk.Hostile.C154_disjunctive_refuted",
    "Zk.Hostile.C154_abc_refuted",
    "Zk.Hostile.C154_range_refuted",
    "Zk.Hostile.C154_gspfs_partial",
    "Zk.Hostile.C154_equivalence_partial",
    "Zk.Hostile.C154_consistency_partial",
    "Zk.Hostile.C154_disjunctive_partial",
    "Zk.Hostile.C154_abc_partial",
    "Zk.Hostile.C154_range_partial"
   ],
   "note": "false of the code: for each kind of proof a proof with all fields set, which survives serialization, crashes Verify because a coordinate takes more than 32 bytes (C154_*_refuted). C154_*_partial: without nil fields and such coordinates Verify returns, also for points off the curve; range proofs with at most 64 tuples, under every schedule"
  },
  {
   "property": "C155",
   "status": "partial",
   "theorems": [
    "Zk.Offcurve.C155_forged",
    "Zk.Offcurve.C155_refuted",
    "Zk.Offcurve.C155_partial"
   ],
   "note": "false of the code: C155_refuted, a program that gets only the commitment makes an accepted proof of 40 tuples for every commitment on TestCurve with SHA-256, with points that are not on the curve (C155_forged: for every hash function with two good responses). C155_partial: holds for proofs whose points lie on the curve"
  },
  {
   "property": "C156",
   "status": "partial",
   "theorems": [
    "Zk.Offcurve.C156_gspfs_refuted",
    "Zk.Offcurve.C156_equivalence_refuted",
    "Zk.Offcurve.C156_consistency_refuted",
    "Zk.Offcurve.C156_disjunctive_refuted",
    "Zk.Offcurve.C156_abc_refuted",
    "Zk.Offcurve.C156_partial"
   ],
   "note": "false of the code: C156_*_refuted, for every hash function proofs about the point (p, p) are accepted. C156_partial: GSPFS proofs whose base and statement are group elements; the other kinds with such statements are C34, C39, C43, C47"
  },
  {
   "property": "C157",
   "status": "partial",
   "theorems": [
    "Zk.Offcurve.C157_offcurve_refuted",
    "Zk.Offcurve.C157_partial",
    "Zk.Offcurve.C157_blinding_refuted",
    "Zk.Rom.C157_knowledge_partial"
   ],
   "note": "False in general: refuted with C off the curve for the value 0 (C157_offcurve_refuted), and with blinding factor 0 for the value 5 (C157_blinding_refuted). Proved for points of the curve and blinding factors other than 0, up to the logarithm of G, at points where Mult is scalar multiplication: for transcripts (C157_partial), and for a random SHA-256 (C157_knowledge_partial)."
  },
  {
   "property": "C158",
   "status": "proved",
   "theorems": [
    "Zk.Stream.C158_pieces",
    "Zk.Stream.C158_any_reader",
    "Zk.Stream.C158_late_errors",
    "Zk.Stream.C158_roundtrip"
   ],
   "note": "reader = list of pieces with errors; a reader that returns 0, nil for ever is left out"
  },
  {
   "property": "C159",
   "status": "partial",
   "theorems": [
    "Zk.Stream.C159_refuted",
    "Zk.Stream.C159_eof_partial"
   ],
   "note": "false (C159_refuted). C159_eof_partial: exact set of inputs that give io.EOF; missing: truncated inputs of those forms give io.EOF too"
  },
  {
   "property": "C160",
   "status": "proved",
   "theorems": [
    "Zk.Stream.C160_writers",
    "Zk.Stream.C160_roundtrip"
   ],
   "note": ""
  },
  {
   "property": "C161",
   "status": "partial",
   "theorems": [
    "Zk.Ser.C161_refuted",
    "Zk.Ser.C161_size_partial"
   ],
   "note": "false (C161_refuted): 13 bytes give any number of tuples. C161_size_partial: the bytes of all numbers and the tuples with a scalar are bounded by the input; missing: tuples without scalar"
  },
  {
   "property": "C162",
   "status": "partial",
   "theorems": [
    "Zk.Proto.C162_gspfs_half_base",
    "Zk.Proto.C162_abc_token",
    "Zk.Proto.C162_refuted",
    "Zk.Proto.C162_present_partial",
    "Zk.Proto.C162_serializable_partial"
   ],
   "note": "False as stated: an accepted GSPFS proof can lack the Y coordinate of its base (if X is that of G or H), an accepted ABC or inequality proof its token, an accepted range proof the Y coordinates of aggregate and commitment. Proved: everything else is present, under all schedules; accepted equivalence, consistency and disjunctive proofs can be serialized."
  },
  {
   "property": "C163",
   "status": "proved",
   "theorems": [
    "Zk.Ec.Rfc6979.C163_nonce",
    "Zk.Ec.Rfc6979.C163_sign"
   ],
   "note": "RFC 6979 stated without reference to the code; the loop is bounded by an argument that is arbitrary"
  },
  {
   "property": "C164",
   "status": "proved",
   "theorems": [
    "Zk.Proto.Nil.C164_present",
    "Zk.Proto.Nil.C164_missing",
    "Zk.Proto.Nil.C164_no_proof"
   ],
   "note": "That no proof is made holds for any parameters; which of panic and error it is, for parameters whose H is a point. The four sigma provers and NewRangeProof are modelled as reading their secrets first, as their first lines do, so that their part is immediate; the content is in NewABCProof and NewInequalityProof."
  }
 ]
}