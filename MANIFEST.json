{
 "claims": [
  {
   "property": "C01",
   "status": "proved",
   "theorems": [
    "Verif.Fp25519.C01_add_sub_neg"
   ],
   "note": ""
  },
  {
   "property": "C02",
   "status": "proved",
   "theorems": [
    "Verif.Fp25519.C02_mul_sqr_reduce",
    "Verif.Fp25519.C02_builds_agree"
   ],
   "note": ""
  },
  {
   "property": "C03",
   "status": "proved",
   "theorems": [
    "Verif.Fp25519.C03_paired",
    "Verif.Fp25519.C03_paired_words"
   ],
   "note": ""
  },
  {
   "property": "C04",
   "status": "proved",
   "theorems": [
    "Verif.Fp25519.C04_ser_canonical",
    "Verif.Fp25519.C04_ser_eq_iff",
    "Verif.Fp25519.C04_unser"
   ],
   "note": ""
  },
  {
   "property": "C05",
   "status": "proved",
   "theorems": [
    "Verif.Fp25519.C05_cmp_sgn"
   ],
   "note": ""
  },
  {
   "property": "C06",
   "status": "proved",
   "theorems": [
    "Verif.Fp25519.C06_cmv"
   ],
   "note": ""
  },
  {
   "property": "C07",
   "status": "proved",
   "theorems": [
    "Verif.Fp25519.C07_inv",
    "Verif.Fp25519.C07_inv_in_place_wrong"
   ],
   "note": "distinct output and input buffers; the second theorem shows in-place use is wrong"
  },
  {
   "property": "C08",
   "status": "proved",
   "theorems": [
    "Verif.Fp25519.C08_invsqrt",
    "Verif.Fp25519.C08_invsqrt_nonsquare"
   ],
   "note": ""
  },
  {
   "property": "C09",
   "status": "proved",
   "theorems": [
    "Verif.Fp25519.C09_srt_wrong",
    "Verif.Fp25519.C09_srt_not_sqrt"
   ],
   "note": "a defect of the code, proved for every nonzero element"
  },
  {
   "property": "C10",
   "status": "proved",
   "theorems": [
    "Verif.Fp25519.C10_mula24"
   ],
   "note": ""
  },
  {
   "property": "C11",
   "status": "proved",
   "theorems": [
    "Verif.Fp25519.C11_oneway",
    "Verif.Fp25519.C11_twoway",
    "Verif.Fp25519.C11_fourway",
    "Verif.Fp25519.C11_no_overflow"
   ],
   "note": ""
  },
  {
   "property": "C12",
   "status": "proved",
   "theorems": [
    "Verif.Fp25519.C12_twoway",
    "Verif.Fp25519.C12_fourway",
    "Verif.Fp25519.C12_pack"
   ],
   "note": ""
  },
  {
   "property": "C13",
   "status": "proved",
   "theorems": [
    "Verif.Fp25519.C13_ser_iff",
    "Verif.Fp25519.C13_ser_results",
    "Verif.Fp25519.C13_ser_compress",
    "Verif.Fp25519.C13_ser_wrong",
    "Verif.Fp25519.C13_wide"
   ],
   "note": "the iff theorem decides every limb vector"
  },
  {
   "property": "C14",
   "status": "proved",
   "theorems": [
    "Verif.Fp25519.C14_neg",
    "Verif.Fp25519.C14_neg_fourway_wrong",
    "Verif.Fp25519.C14_neg_fourway_internal",
    "Verif.Fp25519.C14_ngz",
    "Verif.Fp25519.C14_cmv",
    "Verif.Fp25519.C14_cmv_mixes"
   ],
   "note": "one-way and two-way as stated; the four-way negation of the public table is wrong (negation proved)"
  },
  {
   "property": "C15",
   "status": "proved",
   "theorems": [
    "Verif.X25519.C15_shared_x64",
    "Verif.X25519.C15_shared_avx2",
    "Verif.X25519.C15_shared_x64_canonical",
    "Verif.X25519.C15_spec_unique",
    "Verif.X25519.C15_points_exist"
   ],
   "note": ""
  },
  {
   "property": "C16",
   "status": "proved",
   "theorems": [
    "Verif.X25519.C16_avx2_eq_x64"
   ],
   "note": ""
  },
  {
   "property": "C17",
   "status": "proved",
   "theorems": [
    "Verif.X25519.C17_shared_x64_inputs",
    "Verif.X25519.C17_shared_avx2_inputs"
   ],
   "note": ""
  },
  {
   "property": "C18",
   "status": "proved",
   "theorems": [
    "Verif.X25519.C18_dh_x64",
    "Verif.X25519.C18_dh_avx2",
    "Verif.X25519.C18_dh_spec",
    "Verif.X25519.C18_dh_keygen"
   ],
   "note": ""
  },
  {
   "property": "C19",
   "status": "proved",
   "theorems": [
    "Verif.X25519.C19_keygen",
    "Verif.X25519.C19_keygen_eq_shared",
    "Verif.X25519.C19_keygen_canonical"
   ],
   "note": ""
  },
  {
   "property": "C20",
   "status": "proved",
   "theorems": [
    "Verif.X25519.C20_zero_iff",
    "Verif.X25519.C20_zero_iff_avx2",
    "Verif.X25519.C20_zero_list",
    "Verif.X25519.C20_lowOrder_iff",
    "Verif.X25519.C20_low_order"
   ],
   "note": "the orders of the curve and of its twist are 8*l and 4*l2 or 8*l2 with proved primes l, l2"
  },
  {
   "property": "C21",
   "status": "partial",
   "theorems": [
    "Verif.Ed25519.C21_reduce_partial",
    "Verif.Ed25519.C21_reduce_cases",
    "Verif.Ed25519.C21_reduce_wrong",
    "Verif.Ed25519.C21_ell_prime"
   ],
   "note": "the stated property is false of the code (negation proved, digest 2^252); the partial theorem covers all residues below l-43(l-2^252), the cases theorem every input"
  },
  {
   "property": "C22",
   "status": "proved",
   "theorems": [
    "Verif.C22_multiplier",
    "Verif.C22_multiplier_wrong"
   ],
   "note": "exactness is characterised (iff no window overflows); the unconditional claim is false, counterexample proved"
  },
  {
   "property": "C23",
   "status": "partial",
   "theorems": [
    "Verif.Ed25519.C23_response_partial",
    "Verif.Ed25519.C23_response_wrong"
   ],
   "note": "false of the code without the overflow hypotheses; counterexample proved"
  },
  {
   "property": "C24",
   "status": "proved",
   "theorems": [
    "Verif.Ed25519.C24_radix16",
    "Verif.Ed25519.C24_radix16_positions",
    "Verif.Ed25519.C24_wnaf",
    "Verif.Ed25519.C24_wnaf_wraps"
   ],
   "note": "radix-16: weighted sum n for n up to 0x77..7, n-2^256 above; wNAF: exact for every scalar except the odd ones above 2^256-2^(w-1), where the code wraps (proved)"
  },
  {
   "property": "C25",
   "status": "proved",
   "theorems": [
    "Verif.Ed25519.C25_point_multiplication",
    "Verif.Ed25519.C25_point_multiplication_large",
    "Verif.Ed25519.C25_encoded",
    "Verif.Ed25519.C25_table_sign",
    "Verif.Ed25519.C25_table_verify",
    "Verif.Ed25519.C25_large_wrong"
   ],
   "note": "n up to 0x77..7 gives n*B; above it the code gives (n-2^256)*B, which is proved and differs from n*B"
  },
  {
   "property": "C26",
   "status": "partial",
   "theorems": [
    "Verif.Ed25519.C26_doubling_full",
    "Verif.Ed25519.C26_add_full",
    "Verif.Ed25519.C26_mixadd_4way",
    "Verif.Ed25519.C26_add_2way",
    "Verif.Ed25519.C26_doubling_2w",
    "Verif.Ed25519.C26_mixadd_2w",
    "Verif.Ed25519.C26_add_2w",
    "Verif.Ed25519.C26_doubling_4w",
    "Verif.Ed25519.C26_mixadd_4w_partial",
    "Verif.Ed25519.C26_doubling_2way_partial",
    "Verif.Ed25519.C26_doubling_2way_hi_partial",
    "Verif.Ed25519.C26_mixadd_4w_wrong",
    "Verif.Ed25519.C26_doubling_2way_wrong"
   ],
   "note": "complete for all formulas except the 4-lane mixed addition and the paired doubling, which underflow on some reachable representations (counterexamples proved); those are exact when no limb borrows"
  },
  {
   "property": "C27",
   "status": "proved",
   "theorems": [
    "Verif.Ed25519.C27_encoding",
    "Verif.Ed25519.C27_encoding_injective",
    "Verif.Ed25519.C27_decode_encode",
    "Verif.Ed25519.C27_decoding",
    "Verif.Ed25519.C27_encode_decode"
   ],
   "note": ""
  },
  {
   "property": "C28",
   "status": "proved",
   "theorems": [
    "Verif.Ed25519.C28_decoding_never_fails",
    "Verif.Ed25519.C28_not_a_point",
    "Verif.Ed25519.C28_verify_never_rejects_key",
    "Verif.Ed25519.C28_accepts_non_point"
   ],
   "note": "a defect of the code: the documented error is never returned"
  },
  {
   "property": "C29",
   "status": "partial",
   "theorems": [
    "Verif.Ed25519.C29_verifies_partial",
    "Verif.Ed25519.C29_verifies_wrong"
   ],
   "note": "false of the code in rare cases (counterexample proved); the partial theorem holds outside the explicitly listed, decidable cases"
  },
  {
   "property": "C30",
   "status": "partial",
   "theorems": [
    "Verif.Ed25519.C30_verify_partial",
    "Verif.Ed25519.C30_verify_wrong",
    "Verif.Ed25519.C30_double_mult_partial",
    "Verif.Ed25519.C30_double_mult_wrong",
    "Verif.Ed25519.C30_builds_agree"
   ],
   "note": "false of the code when an addition underflows (counterexample proved); the equivalence holds when none does"
  },
  {
   "property": "C31",
   "status": "partial",
   "theorems": [
    "Verif.Ed25519.C31_wrong",
    "Verif.Ed25519.C31_malleable",
    "Verif.Ed25519.C31_unique_partial"
   ],
   "note": "the property is false of the code: S+l is accepted (proved); accepted S are congruent modulo l when nothing underflows"
  },
  {
   "property": "C32",
   "status": "proved",
   "theorems": [
    "Verif.Ed25519.C32_context_error",
    "Verif.Ed25519.C32_separation",
    "Verif.Ed25519.C32_pure_separation"
   ],
   "note": ""
  },
  {
   "property": "C33",
   "status": "proved",
   "theorems": [
    "Verif.Ed25519.C33_sign",
    "Verif.Ed25519.C33_deterministic"
   ],
   "note": ""
  },
  {
   "property": "C34",
   "status": "proved",
   "theorems": [
    "Verif.Sha512.C34_sha512",
    "Verif.Sha512.C34_split",
    "Verif.Sha512.C34_reuse",
    "Verif.Sha512.C34_length"
   ],
   "note": "messages below 2^64 bytes; the byte counter wraps there"
  },
  {
   "property": "C35",
   "status": "proved",
   "theorems": [
    "Verif.Sha512.C35_two_way",
    "Verif.Sha512.C35_agrees",
    "Verif.Sha512.C35_256b",
    "Verif.Sha512.C35_256b_out_of_bounds"
   ],
   "note": "the unused 32-byte variant reads 128 bytes of each message (proved)"
  },
  {
   "property": "C36",
   "status": "proved",
   "theorems": [
    "Verif.Keccak.C36_permutation",
    "Verif.Keccak.C36_SHAKE256",
    "Verif.Keccak.C36_SHAKE128",
    "Verif.Keccak.C36_streaming_shake",
    "Verif.Keccak.C36_streaming_sha3",
    "Verif.Keccak.C36_split",
    "Verif.Keccak.C36_final_writes_more"
   ],
   "note": "whole-byte messages; Final writes a whole block, more than the digest (proved)"
  },
  {
   "property": "C37",
   "status": "proved",
   "theorems": [
    "Verif.H2c.C37_on_curve",
    "Verif.H2c.C37_map",
    "Verif.H2c.C37_map_function",
    "Verif.H2c.C37_isOnCurve",
    "Verif.H2c.C37_check",
    "Verif.H2c.C37_areEqual",
    "Verif.H2c.C37_isOnCurveProy",
    "Verif.H2c.C37_field_not_digest_mod_p"
   ],
   "note": "messages below 2^64-1 bytes; the digest is reduced modulo l, not modulo p (proved)"
  },
  {
   "property": "C38",
   "status": "proved",
   "theorems": [
    "Verif.H2c.C38_subgroup",
    "Verif.H2c.C38_order"
   ],
   "note": "the group has 8*l points and l is prime, both proved"
  },
  {
   "property": "C39",
   "status": "partial",
   "theorems": [
    "Verif.H2c.C39_agree_partial",
    "Verif.H2c.C39_wrong",
    "Verif.H2c.C39_collision",
    "Verif.H2c.C39_truncated",
    "Verif.H2c.C39_no_memory"
   ],
   "note": "false as stated, already for a five-byte message (C39_wrong); the two-way path cuts the message length to 32 bits (C39_truncated, C39_collision) and does not check its allocation (C39_no_memory); agreement is proved for messages shorter than 2^32-1 bytes whose field elements the comparisons tell apart"
  },
  {
   "property": "C40",
   "status": "proved",
   "theorems": [
    "Verif.Fp448.C40_exact",
    "Verif.Fp448.C40_builds_agree"
   ],
   "note": ""
  },
  {
   "property": "C41",
   "status": "proved",
   "theorems": [
    "Verif.Fp448.C41_ser_canonical",
    "Verif.Fp448.C41_ser_eq_iff",
    "Verif.Fp448.C41_unser",
    "Verif.Fp448.C41_cmp_sgn",
    "Verif.Fp448.C41_cmv"
   ],
   "note": ""
  },
  {
   "property": "C42",
   "status": "proved",
   "theorems": [
    "Verif.Fp448.C42_inv",
    "Verif.Fp448.C42_invsqrt",
    "Verif.Fp448.C42_nonsquare",
    "Verif.Fp448.C42_srt_not_sqrt",
    "Verif.Fp448.C42_inv_in_place_wrong"
   ],
   "note": "distinct buffers; in-place inversion is wrong (proved)"
  },
  {
   "property": "C43",
   "status": "proved",
   "theorems": [
    "Verif.Fp448.C43_out_of_bounds",
    "Verif.Fp448.C43_offsets"
   ],
   "note": "a defect of the code: the second element is addressed at its byte size used as word index"
  },
  {
   "property": "C44",
   "status": "proved",
   "theorems": [
    "Verif.Fp448.C44_unser",
    "Verif.Fp448.C44_ser_iff",
    "Verif.Fp448.C44_ser_safe",
    "Verif.Fp448.C44_wrong",
    "Verif.Fp448.C44_sum_wrong",
    "Verif.Fp448.C44_prime_wrong"
   ],
   "note": "the iff theorem decides every limb vector with limbs below 2^63; 2^225 is written as 2^225-2^64"
  },
  {
   "property": "C45",
   "status": "partial",
   "theorems": [
    "Verif.X448.C45_ladder",
    "Verif.X448.C45_shared_iff",
    "Verif.X448.C45_shared_partial",
    "Verif.X448.C45_dh_partial",
    "Verif.X448.C45_wrong",
    "Verif.X448.C45_dh_wrong",
    "Verif.X448.C45_rfc7748",
    "Verif.X448.C45_spec_unique",
    "Verif.X448.C45_points_exist",
    "Verif.X448.C45_shared_canonical"
   ],
   "note": "false as stated: for one point of the prime-order subgroup and the all-zero key the result is 2^225 instead of 2^225+2^64 (C45_wrong), so the two parties disagree (C45_dh_wrong); the field element is always right, an exact criterion and a set of safe values outside of which fewer than one in 2^198 values lie are proved"
  },
  {
   "property": "C46",
   "status": "partial",
   "theorems": [
    "Verif.Ed448.C46_reduce_partial",
    "Verif.Ed448.C46_reduce_lt",
    "Verif.Ed448.C46_reduce_junk",
    "Verif.Ed448.C46_reduce_wrong",
    "Verif.Ed448.C46_reduce_not_canonical",
    "Verif.Ed448.C46_div4_partial",
    "Verif.Ed448.C46_div4_lt",
    "Verif.Ed448.C46_div4_wrong",
    "Verif.Ed448.C46_response_partial",
    "Verif.Ed448.C46_response_wrong"
   ],
   "note": "false as stated: the multiplier drops carries (wrong reduction, division and response, each with a witness); exact when no carry is dropped; the reduction is not canonical"
  },
  {
   "property": "C47",
   "status": "partial",
   "theorems": [
    "Verif.Ed448.C47_accept_partial",
    "Verif.Ed448.C47_point_partial",
    "Verif.Ed448.C47_decodes_partial",
    "Verif.Ed448.C47_ignored",
    "Verif.Ed448.C47_ignored_bits",
    "Verif.Ed448.C47_wrong",
    "Verif.Ed448.C47_noncanonical"
   ],
   "note": "False in both directions, with concrete byte strings: the encoding of a point of prime order (y = 163840) is rejected because the code subtracts from single limbs without a borrow, and strings that RFC 8032 does not allow (ignored bits of the last byte, y not below p) are accepted. Proved for every 57-byte string whose intermediate values do not meet the lost borrow or lost carry: accepted exactly when the string has a point, and the accepted point is that point."
  },
  {
   "property": "C48",
   "status": "partial",
   "theorems": [
    "Verif.Ed448.C48_context_error",
    "Verif.Ed448.C48_separation",
    "Verif.Ed448.C48_verifies_partial",
    "Verif.Ed448.C48_verifies_wrong"
   ],
   "note": "contexts: proved without condition. Signatures verify whenever no carry is dropped and no limb borrows, a condition on the key alone for the additions; false in general: a key whose signatures do not verify (C48_verifies_wrong)"
  },
  {
   "property": "C49",
   "status": "proved",
   "theorems": [
    "Verif.C49_cmp_bytes"
   ],
   "note": ""
  },
  {
   "property": "C50",
   "status": "partial",
   "theorems": [
    "Verif.Prng.C50_filled_partial",
    "Verif.Prng.C50_returns",
    "Verif.Prng.C50_error_returns_unwritten",
    "Verif.Prng.C50_end_of_file_never_returns"
   ],
   "note": "false of the code when the first read fails (proved): the counter wraps and the function returns an unwritten buffer"
  },
  {
   "property": "C51",
   "status": "proved",
   "theorems": [
    "Verif.Fp25519.C51_sgn",
    "Verif.Fp25519.C51_cmp_equal",
    "Verif.Fp25519.C51_cmp_iff",
    "Verif.Fp25519.C51_cmp_wrong"
   ],
   "note": "comparison is not equality (a defect); the iff theorem says what it decides"
  },
  {
   "property": "C52",
   "status": "proved",
   "theorems": [
    "Verif.Fp25519.C52_inv",
    "Verif.Fp25519.C52_inv_in_place_wrong",
    "Verif.Fp25519.C52_invsqrt",
    "Verif.Fp25519.C52_srt_wrong",
    "Verif.Fp25519.C52_invsqrt_fourway",
    "Verif.Fp25519.C52_invsqrt_fourway_wrong",
    "Verif.Fp25519.C52_srt_fourway",
    "Verif.Fp25519.C52_srt_fourway_wrong"
   ],
   "note": "in-place inv, srt and the four-way invsqrt and srt are defects of the code"
  },
  {
   "property": "C53",
   "status": "proved",
   "theorems": [
    "Verif.Ed25519.C53_keygen",
    "Verif.Ed25519.C33_sign"
   ],
   "note": ""
  },
  {
   "property": "C54",
   "status": "proved",
   "theorems": [
    "Verif.Fp448.C54_oneway",
    "Verif.Fp448.C54_inv",
    "Verif.Fp448.C54_invsqrt",
    "Verif.Fp448.C54_twoway",
    "Verif.Fp448.C54_fourway",
    "Verif.Fp448.C54_pack",
    "Verif.Fp448.C54_overflow"
   ],
   "note": "within limb bounds that sums and differences of reduced elements meet; the product of two unreduced differences overflows (proved)"
  },
  {
   "property": "C55",
   "status": "partial",
   "theorems": [
    "Verif.Ed448.C55_doubling_2w",
    "Verif.Ed448.C55_mixadd_2w",
    "Verif.Ed448.C55_add_2w",
    "Verif.Ed448.C55_isogeny",
    "Verif.Ed448.C55_doubling_4w",
    "Verif.Ed448.C55_mixadd_4way_partial",
    "Verif.Ed448.C55_mixadd_4w_partial",
    "Verif.Ed448.C55_mixadd_4way_wrong",
    "Verif.Ed448.C55_mixadd_4w_wrong"
   ],
   "note": "false of the four-lane mixed additions: a packed subtraction borrows for some representations (counterexamples proved); right whenever no lane borrows; the other formulas are proved for all representations"
  },
  {
   "property": "C56",
   "status": "partial",
   "theorems": [
    "Verif.Ed448.C56_table_sign",
    "Verif.Ed448.C56_recoding",
    "Verif.Ed448.C56_multiplication_partial",
    "Verif.Ed448.C56_digits_partial",
    "Verif.Ed448.C56_multiplication_wrong"
   ],
   "note": "false as stated: a scalar whose division by four drops a carry (C56_multiplication_wrong); proved when no carry is dropped and no mixed addition borrows; the table and the recoding are proved without condition"
  },
  {
   "property": "C57",
   "status": "partial",
   "theorems": [
    "Verif.Ed448.C57_encoding_partial",
    "Verif.Ed448.C57_spec",
    "Verif.Ed448.C57_injective",
    "Verif.Ed448.C57_encoding_wrong"
   ],
   "note": "false as stated: y = 2^225 is written as 2^225-2^64 for some coordinates of a point (C57_encoding_wrong); proved for coordinates for which the serialisation loses no carry (see C44)"
  },
  {
   "property": "C58",
   "status": "partial",
   "theorems": [
    "Verif.Ed448.C58_keygen_partial",
    "Verif.Ed448.C58_sign_partial",
    "Verif.Ed448.C58_deterministic",
    "Verif.Ed448.C58_keygen_wrong"
   ],
   "note": "independence of uninitialised memory proved without condition; public key and signature proved when no carry is dropped; false in general: a private key with the wrong public key (C58_keygen_wrong)"
  },
  {
   "property": "C59",
   "status": "partial",
   "theorems": [
    "Verif.Ed448.C59_public_key",
    "Verif.Ed448.C59_verify_partial",
    "Verif.Ed448.C59_verify_prime_partial",
    "Verif.Ed448.C59_wrong"
   ],
   "note": "false as stated: with some keys of prime order every signature is refused (C59_wrong); proved for canonical keys whose decoding and multiples meet no lost borrow or carry; the scalar k is a multiple of four congruent to the challenge, so the equation is exact for keys of prime order and cofactorless only up to the torsion otherwise"
  },
  {
   "property": "C60",
   "status": "partial",
   "theorems": [
    "Verif.Ed448.C60_last_byte",
    "Verif.Ed448.C60_plus_order",
    "Verif.Ed448.C60_wrong"
   ],
   "note": "false of the code, proved: the last byte is never read, and S + l is accepted with S"
  },
  {
   "property": "C61",
   "status": "partial",
   "theorems": [
    "Verif.X448.C61_keygen_iff",
    "Verif.X448.C61_keygen_partial",
    "Verif.X448.C61_keygen_eq_shared_partial",
    "Verif.X448.C61_dh_partial",
    "Verif.X448.C61_deterministic",
    "Verif.X448.C61_keygen_canonical",
    "Verif.X448.C61_wrong"
   ],
   "note": "proved for every secret key whose multiplication of the base point drops no carry and borrows no limb and whose value is safe to serialise; independence of uninitialised memory and canonicity proved without condition; false in general: a secret key whose public key is that of another key (C61_wrong)"
  },
  {
   "property": "C62",
   "status": "proved",
   "theorems": [
    "Verif.Ed25519.C62_sha512",
    "Verif.Ed25519.C62_public_key",
    "Verif.Ed448.C62_shake256"
   ],
   "note": "every hash call of the code is made in order on the model of the hash; holds for all contents of the uninitialised contexts"
  },
  {
   "property": "C63",
   "status": "proved",
   "theorems": [
    "Verif.X86.Fp25519.C63_linear",
    "Verif.X86.Fp25519.C63_reduce",
    "Verif.X86.Fp25519.C63_mul_sqr",
    "Verif.X86.Fp25519.C63_intmul",
    "Verif.X86.Fp25519.C63_intmul_wrong",
    "Verif.X86.Fp448.C63_linear",
    "Verif.X86.Fp448.C63_reduce",
    "Verif.X86.Fp448.C63_mul_sqr",
    "Verif.X86.Fp448.C63_intmul",
    "Verif.X86.Fp448.C63_intmul_wrong"
   ],
   "note": "the blocks are data, executed on a memory"
  },
  {
   "property": "C64",
   "status": "partial",
   "theorems": [
    "Verif.X86.C64_declares_partial",
    "Verif.X86.C64_mula24_wrong",
    "Verif.X86.C64_mula24_registers_partial"
   ],
   "note": "false of the two blocks of mula24 for Fp448, which do not declare that they change memory (proved)"
  },
  {
   "property": "C65",
   "status": "proved",
   "theorems": [
    "Verif.X86.C65_bounds"
   ],
   "note": ""
  },
  {
   "property": "C66",
   "status": "proved",
   "theorems": [
    "Verif.X86.Ladder.C66_shared"
   ],
   "note": "arguments are aligned to 8 bytes and equal or not in units of words; the block of the final reduction modp works on registers and is taken as its function"
  },
  {
   "property": "C67",
   "status": "proved",
   "theorems": [
    "Verif.X86.Ladder.C67_constant_time"
   ],
   "note": "the observer sees branches of the C code and the words accessed; instructions are taken to have a time that does not depend on their operands"
  },
  {
   "property": "C68",
   "status": "proved",
   "theorems": [
    "Verif.X86.Ladder.C68_bounds"
   ],
   "note": ""
  },
  {
   "property": "C69",
   "status": "proved",
   "theorems": [
    "Verif.X25519.Avx2.C69_shared",
    "Verif.X25519.Avx2.C69_independent",
    "Verif.X25519.Avx2.C69_selected"
   ],
   "note": ""
  },
  {
   "property": "C70",
   "status": "partial",
   "theorems": [
    "Verif.X448.C70_independent_partial",
    "Verif.X448.C70_shared_partial",
    "Verif.X448.C70_cmov_wrong"
   ],
   "note": "false of CMOV: its assembly block has no move at byte offset 224 (proved wrong for the generator and the all-zero key); proved for the other two methods; the selected method is PERMUTATION"
  },
  {
   "property": "C71",
   "status": "partial",
   "theorems": [
    "Verif.Cpu.C71_exact",
    "Verif.Cpu.C71_found_partial",
    "Verif.Cpu.C71_avx2_bmi2_wrong",
    "Verif.Cpu.C71_wrong",
    "Verif.Cpu.C71_all_wrong"
   ],
   "note": "false of the code: the bit is looked for in all three registers, so every processor with model-specific registers is said to have AVX2; proved that a capability that is there is found"
  },
  {
   "property": "C72",
   "status": "partial",
   "theorems": [
    "Verif.Cpu.C72_lines",
    "Verif.Cpu.C72_verdict",
    "Verif.Cpu.C72_supported_partial",
    "Verif.Cpu.C72_verdict_wrong"
   ],
   "note": "the lines are right; the verdict is false of the code: any one instruction set may be missing, AVX2 for instance; proved that a machine with everything but ADX is accepted"
  },
  {
   "property": "C73",
   "status": "partial",
   "theorems": [
    "Verif.Vec.C73_oneway_25519",
    "Verif.Vec.C73_twoway_25519",
    "Verif.Vec.C73_fourway_25519",
    "Verif.Vec.C73_conversions_25519",
    "Verif.Vec.C73_field_25519",
    "Verif.Vec.C73_naddsub_2w_25519_partial",
    "Verif.Vec.C73_addsub_4w_25519_partial",
    "Verif.Vec.C73_naddsub_2w_25519_wrong",
    "Verif.Vec.C73_addsub_4w_25519_wrong",
    "Verif.Vec.C73_oneway_448",
    "Verif.Vec.C73_twoway_448",
    "Verif.Vec.C73_fourway_448",
    "Verif.Vec.C73_conversions_448",
    "Verif.Vec.C73_field_448",
    "Verif.Vec.C73_naddsub_2w_448_partial",
    "Verif.Vec.C73_addsub_4w_448_partial",
    "Verif.Vec.C73_naddsub_2w_448_wrong",
    "Verif.Vec.C73_addsub_4w_448_wrong",
    "Verif.Vec.C73_cmv_25519"
   ],
   "note": "false of four-way addsub when the sum replaces an operand (public function; the difference is then wrong) and of the internal two-way naddsub when its first result replaces its second operand, both with a witness; proved for everything else; the conversions between layouts are proved for separate operands"
  },
  {
   "property": "C74",
   "status": "proved",
   "theorems": [
    "Verif.Vec.C74_bounds",
    "Verif.Vec.C74_local",
    "Verif.Vec.C74_points_bounds",
    "Verif.Vec.C74_points_local"
   ],
   "note": "all translated functions; the addresses are written in the programs as a parameter and an offset"
  },
  {
   "property": "C75",
   "status": "partial",
   "theorems": [
    "Verif.Vec.C75_aligned_partial",
    "Verif.Vec.C75_ngz_wrong",
    "Verif.Vec.C75_points_partial",
    "Verif.Vec.C75_fulladd_wrong"
   ],
   "note": "false of the two four-way ngz and of the addition over two halves of edwards25519 (hence of join_points, which ends every multiplication by the base point), whose constants are in an array of uint64_t without alignment (proved); proved for all other functions"
  },
  {
   "property": "C76",
   "status": "partial",
   "theorems": [
    "Verif.Vec.C76_formulas_25519",
    "Verif.Vec.C76_formulas_448",
    "Verif.Vec.C76_doubling_25519",
    "Verif.Vec.C76_mixadd_25519",
    "Verif.Vec.C76_add_25519",
    "Verif.Vec.C76_lanes_25519",
    "Verif.Vec.C76_add_2way_partial",
    "Verif.Vec.C76_add_2way_wrong",
    "Verif.Vec.C76_doubling_448",
    "Verif.Vec.C76_mixadd_448",
    "Verif.Vec.C76_add_448",
    "Verif.Vec.C76_isogeny_448",
    "Verif.Vec.C76_doubling_4w_448",
    "Verif.Vec.C76_intmul2_partial",
    "Verif.Vec.C76_intmul2_wrong"
   ],
   "note": "false of the addition of two pairs of points at once, which overwrites its second operand (its callers do not use it again), and of intmul2 with a result in the place of its first operand (never called so); proved for everything else"
  },
  {
   "property": "C77",
   "status": "proved",
   "theorems": [
    "Verif.Vec.C77_x25519",
    "Verif.Vec.C77_x448",
    "Verif.Vec.C77_x448_value"
   ],
   "note": "the conversions ser and unser, the inversion and the full-radix multiplication are taken as their functions on values; for X448 the bytes are those of the function of C45, which are right but for rare carries; copies of key words in registers and the intermediate points are not wiped by the code"
  },
  {
   "property": "C78",
   "status": "proved",
   "theorems": [
    "Verif.Vec.C78_ladder_25519",
    "Verif.Vec.C78_ladder_448",
    "Verif.Vec.C78_accesses",
    "Verif.Vec.C78_local_25519"
   ],
   "note": "the programs have no branches: the loops have fixed bounds and are unrolled"
  },
  {
   "property": "C79",
   "status": "partial",
   "theorems": [
    "Verif.Ed25519.C79_keygen_25519",
    "Verif.Ed25519.C79_sign_25519_partial",
    "Verif.Ed25519.C79_rest_25519",
    "Verif.Ed25519.C79_sign_any_25519",
    "Verif.Ed25519.C79_leak_25519",
    "Verif.Ed25519.C79_sign_wrong_25519",
    "Verif.Ed448.C79_keygen_448",
    "Verif.Ed448.C79_sign_448_partial",
    "Verif.Ed448.C79_rest_448",
    "Verif.Ed448.C79_sign_any_448",
    "Verif.Ed448.C79_sign_wrong_448"
   ],
   "note": "false of signing when the first half of the signature overlaps the message, the context or the public key: R is written before they are hashed again (proved, with a signature that does not verify); the signature so made and a proper one reveal the secret scalar (proved); key generation, other overlaps and the frame are proved"
  },
  {
   "property": "C80",
   "status": "proved",
   "theorems": [
    "Verif.Vec.C80_query_25519",
    "Verif.Vec.C80_query_448",
    "Verif.Vec.C80_reads_25519",
    "Verif.Vec.C80_reads_448",
    "Verif.Vec.C80_table",
    "Verif.Vec.C80_accesses",
    "Verif.Vec.C80_memory_25519",
    "Verif.Vec.C80_multiple_25519",
    "Verif.Vec.C80_memory_448"
   ],
   "note": "the alignment and bounds are those of the queries; the formulas that the multiplication calls are covered by C74 and C75, where join_points has a constant that may be misaligned; for edwards448 the value is that of the function of C56, which is the multiple but for rare borrows"
  },
  {
   "property": "C81",
   "status": "partial",
   "theorems": [
    "Verif.Vec.C81_x25519_partial",
    "Verif.Vec.C81_x448_partial",
    "Verif.Vec.C81_x25519_wrong",
    "Verif.Vec.C81_x448_wrong"
   ],
   "note": "overlap, frame and wiping of the array scalar are proved; the last part is false of the code, proved: the arrays of recoded digits (and r_div_4 of X448) are not wiped, and the secret scalar of X25519 is read from them for every key; for X448 the public key is that of C61, and the scalar left is the secret scalar divided by four modulo the group order where no carry is dropped"
  },
  {
   "property": "C82",
   "status": "proved",
   "theorems": [
    "Verif.Vec.C82_recoding_ends_25519",
    "Verif.Vec.C82_recoding_ends_448",
    "Verif.Vec.C82_256_entries_overflow",
    "Verif.Vec.C82_inside_25519",
    "Verif.Vec.C82_inside_448",
    "Verif.Vec.C82_memory_25519",
    "Verif.Vec.C82_memory_448",
    "Verif.Vec.C82_verify_25519",
    "Verif.Vec.C82_verify_448",
    "Verif.Vec.C82_stable_25519",
    "Verif.Vec.C82_stable_448"
   ],
   "note": "the verdict is that of the functions of C28 to C30, C48 and C59; the unused double_point_mult_2w_ed25519 has arrays that are one entry too small (proved)"
  },
  {
   "property": "C83",
   "status": "partial",
   "theorems": [
    "Verif.Vec.C83_keygen_25519_partial",
    "Verif.Vec.C83_sign_25519_partial",
    "Verif.Vec.C83_stable_25519",
    "Verif.Vec.C83_keygen_wrong_25519",
    "Verif.Vec.C83_sign_wrong_25519",
    "Verif.Vec.C83_keygen_448_partial",
    "Verif.Vec.C83_sign_448_partial",
    "Verif.Vec.C83_stable_448",
    "Verif.Vec.C83_keygen_wrong_448",
    "Verif.Vec.C83_sign_wrong_448"
   ],
   "note": "results and frame are proved for all local memory; the last part is false of the code, proved: nothing is wiped, the array ah keeps the scalar and prefix after every signature and a reader of it signs any message; the digits of the scalar (key generation) and of the nonce (signing) stay too"
  },
  {
   "property": "C84",
   "status": "partial",
   "theorems": [
    "Verif.Fp448.C84_unser_two",
    "Verif.Fp448.C84_unser_four",
    "Verif.Fp448.C84_ser_two_partial",
    "Verif.Fp448.C84_ser_four_partial",
    "Verif.Fp448.C84_roundtrip",
    "Verif.Fp448.C84_cmp_two_partial",
    "Verif.Fp448.C84_cmp_four_partial",
    "Verif.Fp448.C84_wrong"
   ],
   "note": "false of elements whose one-way encoding loses a carry (C44): they are encoded wrongly and compare as different from equal elements, with a witness in every lane; proved for all lanes that C44 shows to be encoded rightly"
  },
  {
   "property": "C85",
   "status": "partial",
   "theorems": [
    "Verif.Prng.C85_keys_partial",
    "Verif.Prng.C85_keys_wrong",
    "Verif.Prng.C85_elements_25519_partial",
    "Verif.Prng.C85_elements_448_partial",
    "Verif.Prng.C85_returns",
    "Verif.Prng.C85_fresh",
    "Verif.Prng.C85_elements_wrong",
    "Verif.Prng.C85_even_25519",
    "Verif.Prng.C85_even_448"
   ],
   "note": "false of the code when the device cannot be opened or the first read fails: the functions return and the key or element is what the memory held before (proved for every function); proved when no read fails, and that old contents do not show when errors are isolated"
  },
  {
   "property": "C86",
   "status": "proved",
   "theorems": [
    "Verif.X448.C86_bytes",
    "Verif.X448.C86_zero_iff",
    "Verif.X448.C86_zero_list",
    "Verif.X448.C86_order_key"
   ],
   "note": "the order 4*l of Curve448 is itself a clamped scalar: C86_order_key"
  },
  {
   "property": "C87",
   "status": "proved",
   "theorems": [
    "Verif.X25519.C87_shared_curve",
    "Verif.X25519.C87_shared_twist",
    "Verif.X25519.C87_keygen",
    "Verif.X25519.C87_keygen_inj",
    "Verif.X25519.C87_twins",
    "Verif.X25519.C87_honest",
    "Verif.Ed25519.C87_ed25519",
    "Verif.Ed25519.C87_ed25519_order"
   ],
   "note": "the exceptional pairs exist: C87_twins"
  },
  {
   "property": "C88",
   "status": "proved",
   "theorems": [
    "Verif.X25519.C88_equivalent",
    "Verif.X25519.C88_equivalent_avx2",
    "Verif.X25519.C88_inverse"
   ],
   "note": ""
  },
  {
   "property": "C89",
   "status": "partial",
   "theorems": [
    "Verif.Print.C89_bytes",
    "Verif.Print.C89_lossless",
    "Verif.Print.C89_keys",
    "Verif.Print.C89_vector_25519_partial",
    "Verif.Print.C89_vector_448_partial",
    "Verif.Print.C89_red_iff",
    "Verif.Print.C89_full",
    "Verif.Print.C89_full_wrong"
   ],
   "note": "keys, signatures and all buffers are proved; false of elements of full radix, which are printed without reduction (p and 0 are printed differently), and of vector elements that the encoder gets wrong (C13, C44), for Fp25519 of exactly these"
  },
  {
   "property": "C90",
   "status": "partial",
   "theorems": [
    "Verif.Alloc.C90_vector_25519",
    "Verif.Alloc.C90_vector_448",
    "Verif.Alloc.C90_widths",
    "Verif.Alloc.C90_full_partial",
    "Verif.Alloc.C90_full_wrong"
   ],
   "note": "proved for all vector functions; false of the full-radix products before reduction (entries intmul, intsqr, intmul2, intsqr2, reduce2): with elements from alloc they write behind the result; a failing allocation is not modelled"
  },
  {
   "property": "C91",
   "status": "partial",
   "theorems": [
    "Verif.Ed25519.C91_messages_partial",
    "Verif.Ed25519.C91_generated_partial",
    "Verif.Ed25519.C91_small_order",
    "Verif.Ed25519.C91_wrong",
    "Verif.Ed448.C91_ed448_partial"
   ],
   "note": "true of generated keys (Ed25519) and keys of prime order (Ed448) where the multiplication of C30 and C59 goes right; false of public keys of small order, which verification does not refuse: one signature, two messages (C91_wrong)"
  },
  {
   "property": "C92",
   "status": "partial",
   "theorems": [
    "Verif.Ed25519.C92_same_R",
    "Verif.Ed25519.C92_leak",
    "Verif.Ed25519.C92_wrong",
    "Verif.Ed448.C92_leak_448"
   ],
   "note": "false of the code: sign hashes the public key it is given, so two signatures of a message with two public keys share R and give the private scalar away; the negation is proved with a witness, and the leak in general outside the rare cases of C21, C22 and C58"
  },
  {
   "property": "C93",
   "status": "partial",
   "theorems": [
    "Verif.X448.C93_same_scalar",
    "Verif.X448.C93_product_curve",
    "Verif.X448.C93_product_twist",
    "Verif.X448.C93_shared_curve_partial",
    "Verif.X448.C93_shared_twist_partial",
    "Verif.X448.C93_keygen_partial",
    "Verif.X448.C93_keygen_wrong",
    "Verif.X448.C93_equivalent_partial",
    "Verif.X448.C93_wrong",
    "Verif.X448.C93_twins",
    "Verif.X448.C93_inverse",
    "Verif.Ed448.C93_ed448_partial",
    "Verif.Ed448.C93_ed448_wrong"
   ],
   "note": "proved for the products of scalars and coordinates; for the bytes where the serialisation loses no carry (C45) and the multiplication of the base point drops none (C58, C61); false without: keygen of X448 and Ed448 give different scalars one public key, and with the scalar 4*l all coordinates of the curve give the all-zero secret"
  },
  {
   "property": "C94",
   "status": "partial",
   "theorems": [
    "Verif.Tables.C94_fp25519_partial",
    "Verif.Tables.C94_fp448_partial",
    "Verif.Tables.C94_kind",
    "Verif.Tables.C94_wrong",
    "Verif.Tables.C94_sizes_dh",
    "Verif.Tables.C94_sizes_ed25519",
    "Verif.Tables.C94_sizes_ed448"
   ],
   "note": "false of nine members, all listed: Fp25519._4w_red.arith.neg is the two-way negation and eight members of Fp448 are null pointers (srt of one-way full radix and four-way, cmv and sgn of one-way reduced radix and two-way, neg of two-way and four-way); proved for all other members; the sizes are proved"
  },
  {
   "property": "C95",
   "status": "partial",
   "theorems": [
    "Verif.Ed25519.C95_keys_partial",
    "Verif.Ed25519.C95_generated_partial",
    "Verif.Ed25519.C95_wrong",
    "Verif.Ed448.C95_ed448_partial",
    "Verif.Ed448.C95_ed448_scalars"
   ],
   "note": "proved outside the rare cases of C30 and C59 (structure Usual); the last sentence is false of keys of small order, which verification does not refuse: two different keys accept one signature for one message (proved for a hash function)"
  },
  {
   "property": "C96",
   "status": "proved",
   "theorems": [
    "Verif.Ed25519.C96_verify",
    "Verif.Ed25519.C96_sign",
    "Verif.Ed448.C96_verify_448",
    "Verif.Ed448.C96_sign_448"
   ],
   "note": "no condition on the hash function or on rare carries; public keys passed to verify may be non-canonical for Ed25519 (C28)"
  }
 ]
}