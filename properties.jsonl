{"id": "C01", "title": "Fp25519 addition and subtraction are exact modulo 2^255-19", "statement": "For any two 256-bit operands, canonical or not, Fp25519._1w_full add/sub/neg return a 256-bit word vector whose value is congruent to the sum/difference/negation modulo p=2^255-19. Both build variants (with and without ADX) agree.", "quantifier": "all pairs of 4x64-bit word vectors (2^512 inputs), including operands >= p", "why_tests_cant": "The second carry fold is taken for about one input in 2^250; random vectors never reach it.", "anchors": ["src/eltfp25519_1w_fullradix.c: add_adx_Fp255_1w_fullradix, add_adc_Fp255_1w_fullradix, sub_Fp255_1w_fullradix, neg_Fp255_1w_fullradix", "include/faz_fp_avx2.h: Arith_1w.add/sub/neg"]}
{"id": "C02", "title": "Fp25519 multiplication, squaring and reduction are exact modulo p", "statement": "Fp25519._1w_full intmul/intsqr return the exact 512-bit integer product/square, reduce maps any 512-bit integer to a 256-bit representative of the same residue, and mul/sqr therefore multiply residues, in each of the three instruction-set variants (MULX+ADX, MULX, MULQ).", "quantifier": "all 256-bit operand pairs and all 512-bit reduction inputs; all build variants", "why_tests_cant": "Carry-propagation faults in multi-word multiplication appear with probability near 2^-64 per product.", "anchors": ["src/eltfp25519_1w_fullradix.c: intmul_*_Fp255_1w_fullradix, intsqr_*, reduce_*, mul_Fp255_1w_fullradix, sqr_Fp255_1w_fullradix"]}
{"id": "C03", "title": "Paired Fp25519 products are two independent products", "statement": "intmul2/intsqr2/reduce2 on two elements stored consecutively produce, in consecutive slots, exactly what intmul/intsqr/reduce produce on each element separately.", "quantifier": "all pairs of 256-bit operand pairs", "why_tests_cant": "Interleaved schedules may leak a carry of one product into the other only for rare carry patterns.", "anchors": ["src/eltfp25519_1w_fullradix.c: intmul2_Fp255_1w_fullradix, intsqr2_Fp255_1w_fullradix, reduce2_Fp255_1w_fullradix"]}
{"id": "C04", "title": "Fp25519 canonical form is unique", "statement": "Serialising any 256-bit element yields 32 bytes encoding the unique representative in [0,p); two elements serialise to the same bytes iff they are congruent mod p; deserialising then serialising is reduction mod p, and serialising then deserialising preserves the residue.", "quantifier": "all 2^256 word vectors, including the 38+ non-canonical encodings >= p", "why_tests_cant": "Only 38 of 2^256 inputs are non-canonical with both corrections needed.", "anchors": ["src/eltfp25519_1w_fullradix.c: modp_Fp255_1w_fullradix, ser_Fp255_1w_fullradix, unser_Fp255_1w_fullradix"]}
{"id": "C05", "title": "Fp25519 comparison and sign read the residue, not the representation", "statement": "cmp returns 0 iff its arguments are congruent mod p, and sgn returns the parity of the canonical representative, whatever representative is passed.", "quantifier": "all pairs of 256-bit word vectors", "why_tests_cant": "Distinct representatives of the same residue are hit with probability 2^-250.", "anchors": ["src/eltfp25519_1w_fullradix.c: cmp_Fp255_1w_fullradix, sgn_Fp255_1w_fullradix", "src/bytestring.c: cmp_bytes"]}
{"id": "C06", "title": "Fp25519 conditional move selects exactly one operand", "statement": "cmv(bit,c,x,y) leaves in c exactly y when the selector is nonzero and exactly x when it is zero, limb for limb, for every 32-bit selector; the other operand never influences the result.", "quantifier": "all selectors and all operand pairs", "why_tests_cant": "Mask construction errors show up only for particular selector encodings.", "anchors": ["src/eltfp25519_1w_fullradix.c: cmv_Fp255_1w_fullradix"]}
{"id": "C07", "title": "Fp25519 inversion is a true inverse", "statement": "For every element a, inv into a buffer other than a's gives c with c*a = 1 mod p if a is nonzero mod p and c = 0 mod p otherwise, for every 256-bit representative of a. The requirement of distinct buffers cannot be dropped: the in-place inverse of 2 is not an inverse of 2.", "quantifier": "all 256-bit inputs", "why_tests_cant": "The 254-squaring addition chain is one constant exponent; a wrong exponent could still agree on subgroup elements.", "anchors": ["src/eltfp25519_1w_fullradix.c: inv_Fp255_1w_fullradix"]}
{"id": "C08", "title": "Fp25519 inverse-square-root solves v*x^2 = u exactly when possible", "statement": "The combined square root and inverse returns x with v*x^2 = u whenever some x solves this equation, and returns an x that does not solve it otherwise (there is no status result, so checking v*x^2 = u decides solvability); as a side effect the buffer of u holds the canonical form of -u afterwards.", "quantifier": "all pairs (u,v) of 256-bit inputs", "why_tests_cant": "Four residue classes by quartic character must all be handled; non-squares are usually untested.", "anchors": ["src/eltfp25519_1w_fullradix.c: invsqrt_Fp255_1w_fullradix"]}
{"id": "C09", "title": "The Fp25519 square-root entry does not compute square roots", "statement": "The table entry srt of Fp25519._1w_full is not usable as a square root: with an output buffer that holds 0 before the call, the square of the result differs from a for every nonzero a, so srt(c,a)^2 = a fails for every nonzero square a (the routine reads its output buffer as an input).", "quantifier": "all squares mod p", "why_tests_cant": "The routine aliases its output with an input; whether this matters depends on the value.", "anchors": ["src/eltfp25519_1w_fullradix.c: srt_Fp255_1w_fullradix", "include/faz_fp_avx2.h: Arith_1w.srt"]}
{"id": "C10", "title": "Fp25519 small-constant multiplication is exact", "statement": "mula24 multiplies by the curve constant (A+2)/4=121666 modulo p for every 256-bit operand.", "quantifier": "all 256-bit inputs", "why_tests_cant": "The carry fold out of the top word is rare.", "anchors": ["src/eltfp25519_1w_fullradix.c: mula24_Fp255_1w_fullradix"]}
{"id": "C11", "title": "Radix-2^25.5 arithmetic never overflows and is exact modulo p", "statement": "For single, two-way and four-way vector representations, add, sub, mul, sqr and compress produce limbs whose value is congruent to the exact result, with every 64-bit lane free of overflow, for all inputs within the documented limb bounds; the outputs of mul/sqr are again valid inputs.", "quantifier": "all limb vectors within bounds, all lanes", "why_tests_cant": "Overflow of a 64-bit lane accumulator needs extremal limbs in many positions at once.", "anchors": ["src/eltfp25519_1w_redradix.c: add/sub/mul/sqr/compress_Fp255_1w_redradix", "src/eltfp25519_2w_redradix.c", "src/eltfp25519_4w_redradix.c"]}
{"id": "C12", "title": "Vector lanes do not interact", "statement": "A two-way or four-way field operation computes in lane j exactly what the one-way operation computes on lane j of its inputs.", "quantifier": "all lane contents", "why_tests_cant": "A cross-lane contamination needs a specific shuffle constant to be exercised with asymmetric data.", "anchors": ["src/eltfp25519_2w_redradix.c", "src/eltfp25519_4w_redradix.c"]}
{"id": "C13", "title": "Radix-2^25.5 serialisation agrees with the value of the limbs", "statement": "Serialising a vector-form element gives the canonical 32-byte encoding of its value mod p exactly when a stated arithmetic condition on the limbs holds (no carry is lost in the final fold); the condition holds for every element obtained by parsing, multiplication, squaring or inversion, for the negatives of these and after a carry pass, and it fails for some unreduced differences of parsed elements, where the bytes are then those of another value. The wider layouts serialise each element in the same way.", "quantifier": "all limb vectors reachable by API calls", "why_tests_cant": "A lost carry in the final fold happens for inputs of density 2^-120.", "anchors": ["src/eltfp25519_1w_redradix.c: ser_Fp255_1w_redradix, unser_Fp255_1w_redradix, cmp_Fp255_1w_redradix"]}
{"id": "C14", "title": "Vector negation, conditional negation and select are exact in every lane", "statement": "The one-way and two-way neg, and the four-way neg used inside the library, return the additive inverse in every lane; ngz negates exactly the lanes it documents; the one-way cmv with selector 0 or 1 and the two-way cmv with any selector return one of their operands unchanged in each element. The neg entry of the public four-way table is the two-way function and does not negate a four-way element.", "quantifier": "all limb vectors", "why_tests_cant": "A function-pointer mix-up between vector widths is invisible unless all lanes are checked for all limbs.", "anchors": ["src/fp255.c: Fp25519._4w_red.arith.neg", "src/eltfp25519_2w_redradix.c: neg_Fp255_2w_redradix"]}
{"id": "C15", "title": "X25519 shared secret equals the Curve25519 function", "statement": "X25519_x64.shared(u,k) returns the 32-byte encoding of the x-coordinate of n*Q, where n is the clamped scalar and Q any point with x-coordinate u mod p over any field extension, and zero when n*Q is the point at infinity (Bernstein's X0 convention).", "quantifier": "all 2^256 scalars and all 2^256 u-coordinates, on the curve and on its twist, canonical or not", "why_tests_cant": "RFC vectors cover a handful of points and no exceptional ones.", "anchors": ["src/ladder255.c: x25519_shared_x64"]}
{"id": "C16", "title": "The AVX2 and x64 X25519 implementations agree", "statement": "X25519.shared and X25519_x64.shared return the same 32 bytes on every input.", "quantifier": "all (key, point) byte pairs", "why_tests_cant": "2^512 inputs; divergence would come from limb overflow on rare operands.", "anchors": ["src/ladder255.c: x25519_shared_avx2, x25519_shared_x64"]}
{"id": "C17", "title": "X25519 depends on exactly the clamped scalar and the masked coordinate", "statement": "The result is unchanged if the three low bits, or the two high bits, of the secret key or the top bit of the u-coordinate change, or u is replaced by a congruent non-canonical encoding.", "quantifier": "all byte strings", "why_tests_cant": "Invariance must hold for all keys, not the ones in the vectors.", "anchors": ["src/ladder255.c"]}
{"id": "C18", "title": "X25519 Diffie-Hellman agreement", "statement": "For any two private keys a,b and any starting coordinate u, shared(shared(u,a),b) = shared(shared(u,b),a).", "quantifier": "all pairs of 32-byte keys and all u", "why_tests_cant": "Key agreement holding for random pairs does not exclude special pairs.", "anchors": ["src/ladder255.c", "src/dh255.c"]}
{"id": "C19", "title": "X25519 public keys are the fixed-base shared secrets", "statement": "keygen(k) equals shared(9,k): fixed-base Edwards multiplication and the Montgomery ladder give the same bytes.", "quantifier": "all 2^256 private keys", "why_tests_cant": "Two unrelated algorithms and a 24 KB table must agree for every scalar.", "anchors": ["src/ladder255.c: x25519_keygen_avx2", "src/edwards255.c: point_multiplication_ed25519"]}
{"id": "C20", "title": "Exactly the low-order X25519 inputs give the all-zero secret", "statement": "The shared secret is all zero exactly when u is the x-coordinate of a point of order dividing 8 on the curve or its twist, for every private key; these are the public keys whose low 255 bits are, modulo p, one of five given numbers.", "quantifier": "all keys and all u", "why_tests_cant": "Needs the exact set of low-order coordinates on curve and twist.", "anchors": ["src/ladder255.c"]}
{"id": "C21", "title": "Ed25519 scalar reduction is reduction modulo the group order", "statement": "modular reduction maps a 64-byte digest to a 32-byte little-endian integer congruent to it modulo l = 2^252+27742317777372353535851937790883648493.", "quantifier": "all 2^512 digests", "why_tests_cant": "The wrap-around of the final subtraction has density 2^-124.", "anchors": ["src/sign255.c: modular_reduction_ed25519, reduce256bits, reduce64bits"]}
{"id": "C22", "title": "When the multi-word multiply-accumulate is exact", "statement": "The schoolbook multiplier used for S=(r+k*a) returns the accumulator plus the product of its operands exactly when no three-word window overflows during the computation, and a smaller number otherwise; overflow does occur, even for an accumulator of zero.", "quantifier": "all operands and accumulators", "why_tests_cant": "The lost carry needs a word equal to 2^64-1 at the right place.", "anchors": ["src/bytestring.c: word64_multiplier", "src/sign255.c: calculate_s_ed25519"]}
{"id": "C23", "title": "Ed25519 response S satisfies S = r + k*a modulo l", "statement": "The second half of a signature is congruent to r+k*a mod l for every nonce, challenge and secret scalar.", "quantifier": "all 32-byte r,k,a", "why_tests_cant": "Same rare carries as the multiplier and the reduction.", "anchors": ["src/sign255.c: calculate_s_ed25519"]}
{"id": "C24", "title": "Signed-digit recodings represent the scalar", "statement": "The radix-16 signed recoding used for fixed-base multiplication yields 64 digits in [-8,8) whose weighted sum is the scalar n for n <= 0x77...7 and n-2^256 above; the width-w NAF used in verification has odd digits below 2^(w-1) in absolute value, or zero, and weighted sum equal to the scalar for every scalar except the odd ones above 2^256-2^(w-1), for which the digits wrap.", "quantifier": "all scalars and all window widths used", "why_tests_cant": "Carry chains of length 64 are never hit by random scalars.", "anchors": ["src/edwards255.c: recoding_signed_scalar_fold4w4, wnaf_256bits"]}
{"id": "C25", "title": "Fixed-base scalar multiplication computes n*B", "statement": "Multiplication of the base point returns an extended-coordinate representation of n*B in the group of the twisted Edwards curve for every scalar n <= 0x77...7 (64 digits), and of (n-2^256)*B for every larger 256-bit n (which is not n*B); every entry of the precomputed tables is the multiple of B it stands for.", "quantifier": "all 256-bit scalars; all table entries", "why_tests_cant": "Table faults affect only scalars using the faulty digit.", "anchors": ["src/edwards255.c: point_multiplication_ed25519", "include/table_sign_w4_24k_ed25519.h"]}
{"id": "C26", "title": "Edwards addition and doubling formulas are complete", "statement": "The extended-coordinate addition, mixed addition and doubling used by the library return a valid representation of the group sum for every pair of curve points, including equal points, inverses and small-order points.", "quantifier": "all pairs of curve points", "why_tests_cant": "Exceptional pairs have density 2^-255.", "anchors": ["src/edwards255.c: _1way_fulladd_*, _1way_mixadd_*, _1way_doubling_*", "src/hash255.c"]}
{"id": "C27", "title": "Ed25519 point encoding is injective and decoding inverts it", "statement": "decode(encode(P)) recovers P (up to the sign convention documented for verification) for every curve point, and encode(decode(s))=s for every canonical encoding of a curve point.", "quantifier": "all curve points", "why_tests_cant": "Sign handling at x=0 and non-canonical y are measure-zero cases.", "anchors": ["src/edwards255.c: point_encoding_ed25519, point_decoding_ed25519"]}
{"id": "C28", "title": "Ed25519 never rejects a public key", "statement": "Verification never returns EDDSA_ERROR_PUBLICKEY: decoding succeeds for every 32-byte string, also for those that are no encoding of a curve point, and with a suitable 64-byte function in place of the hash there is a string without curve point under which verification accepts a signature.", "quantifier": "all 2^256 public keys", "why_tests_cant": "Half of all byte strings are non-points but tests only use valid keys.", "anchors": ["src/edwards255.c: point_decoding_ed25519", "src/sign255.c: ed25519_verify_all"]}
{"id": "C29", "title": "Ed25519 signatures verify", "statement": "For every private key, message and context of at most 255 bytes, a signature made with the key pair verifies in the same mode (pure, context, pre-hash), for any 512-bit hash function in place of SHA-512.", "quantifier": "all keys, messages and contexts of any length", "why_tests_cant": "Completeness for every message cannot be sampled.", "anchors": ["src/sign255.c: ed25519_keygen, ed25519_sign_all, ed25519_verify_all"]}
{"id": "C30", "title": "Ed25519 verification accepts exactly the group equation", "statement": "verify returns EDDSA_VERIFICATION_OK iff the first 32 signature bytes are the encoding of [S]B-[H(R,A,M)]A.", "quantifier": "all messages, keys and signatures", "why_tests_cant": "Acceptance of forged inputs cannot be tested exhaustively.", "anchors": ["src/sign255.c: ed25519_verify_all", "src/edwards255.c: double_point_mult_4w_ed25519"]}
{"id": "C31", "title": "Ed25519 signatures are not malleable", "statement": "No two different S values are accepted for the same R, key and message; in particular S+l is rejected.", "quantifier": "all signatures", "why_tests_cant": "RFC 8032 requires S<l; ordinary test vectors only use reduced S.", "anchors": ["src/sign255.c: ed25519_verify_all"]}
{"id": "C32", "title": "Signature contexts longer than 255 bytes are refused and modes are separated", "statement": "In context and pre-hash modes, sign and verify return EDDSA_ERROR_CONTEXT exactly when the context is longer than 255 bytes, and otherwise the hashed prefix is an injective function of (mode flag, context): two distinct (flag, context, rest) never produce the same hash input.", "quantifier": "all contexts and messages of any length", "why_tests_cant": "Domain separation is a statement about all pairs of inputs.", "anchors": ["src/sign255.c: ed25519_sign_all, ed25519_verify_all", "src/sign448.c"]}
{"id": "C33", "title": "Signing is deterministic and hash inputs are as specified", "statement": "sign uses only SHA-512 of the stated concatenations: same key, message and context give the same signature, and the signature depends on the private key only through its SHA-512 digest.", "quantifier": "all inputs", "why_tests_cant": "Independence is a universally quantified statement.", "anchors": ["src/sign255.c: ed25519_sign_all"]}
{"id": "C34", "title": "SHA-512 streaming is independent of chunking and equals FIPS 180-4", "statement": "Feeding a message in any sequence of chunks and closing yields the FIPS 180-4 SHA-512 digest of the concatenation.", "quantifier": "all messages below 2^64 bytes and all ways of splitting them", "why_tests_cant": "Buffer-boundary behaviour depends on every split position and on long histories.", "anchors": ["third_party/sha512.c: sph_sha512_init, sph_sha512, sph_sha512_close"]}
{"id": "C35", "title": "The two-way SHA-512 computes two SHA-512 digests", "statement": "For two equal-length messages the vectorised hash returns the SHA-512 digest of each.", "quantifier": "all pairs of equal-length messages", "why_tests_cant": "Padding has four boundary regimes per block length and lane mix-ups need distinct messages.", "anchors": ["third_party/sha512_2way.c: sha512_2w_avx"]}
{"id": "C36", "title": "SHAKE256/SHA3 streaming equals FIPS 202", "statement": "Init/Update*/Final on any chunking equals the sponge of FIPS 202 on the concatenated message, for any requested output length; the four-round unrolled permutation equals Keccak-f[1600].", "quantifier": "all messages, chunkings and output lengths", "why_tests_cant": "Permutation equality is over 2^1600 states.", "anchors": ["third_party/sha3.c: KeccakF2, Keccak_HashUpdate, Keccak_HashFinal"]}
{"id": "C37", "title": "Hash-to-curve always returns a curve point", "statement": "h2c25519_x64 returns affine coordinates satisfying the edwards25519 equation for every message.", "quantifier": "all messages of any length", "why_tests_cant": "Exceptional field elements of the map are unreachable by sampling.", "anchors": ["src/hash255.c: map_to_curve, clear_cofactor, h2c25519_x64"]}
{"id": "C38", "title": "Hash-to-curve outputs lie in the prime-order subgroup", "statement": "The point returned by hash-to-curve is annihilated by the group order l.", "quantifier": "all messages", "why_tests_cant": "Small-order components appear for all non-cleared points; cofactor clearing must be exact for all.", "anchors": ["src/hash255.c: clear_cofactor"]}
{"id": "C39", "title": "AVX2 and x64 hash-to-curve agree", "statement": "h2c25519_avx2 and h2c25519_x64 return the same point for every message.", "quantifier": "all messages of any length", "why_tests_cant": "Length truncation and rare limb overflows are out of reach of tests.", "anchors": ["src/hash255.c: h2c25519_x64, h2c25519_avx2"]}
{"id": "C40", "title": "Fp448 full-radix arithmetic is exact modulo 2^448-2^224-1", "statement": "add, sub, neg, mul, sqr, reduce, mula24 on Fp448._1w_full return representatives of the exact residues for all 448-bit operands in each build variant.", "quantifier": "all 7x64-bit operand vectors", "why_tests_cant": "Double folding of the carry is a 2^-224 event.", "anchors": ["src/eltfp448_1w_fullradix.c"]}
{"id": "C41", "title": "Fp448 canonical form is unique", "statement": "ser yields the unique encoding in [0,p) of every 448-bit element; cmp and sgn depend only on the residue; unser/ser round-trip.", "quantifier": "all 448-bit word vectors", "why_tests_cant": "Non-canonical inputs have density 2^-224.", "anchors": ["src/eltfp448_1w_fullradix.c: modp, ser, unser, cmp, sgn"]}
{"id": "C42", "title": "Fp448 inversion and inverse square root are exact", "statement": "inv into a distinct buffer returns the inverse (0 for 0); the function named srt returns, for every nonzero square a, a value r with r^2*a = 1, so that a*r is a square root of a, and for a non-square a value with (a*r)^2 different from a; srt itself is not a square root. In-place inversion is wrong.", "quantifier": "all elements", "why_tests_cant": "One fixed exponent must be right for every base.", "anchors": ["src/eltfp448_1w_fullradix.c: invsqrt_Fp448_1w_fullradix, inv_Fp448_1w_fullradix"]}
{"id": "C43", "title": "Paired Fp448 operations leave their two-element buffers", "statement": "intmul2/intsqr2/reduce2 of Fp448 access memory outside two-element buffers for all inputs, in every build; with buffers long enough for the offsets used, intmul2 leaves the exact product of the elements at word offsets 0 and 56 at word offsets 0 and 112.", "quantifier": "all inputs", "why_tests_cant": "Out-of-bounds offsets do not show in single-result tests.", "anchors": ["src/eltfp448_1w_fullradix.c: intmul2, intsqr2, reduce2", "src/fp448.c"]}
{"id": "C44", "title": "Fp448 reduced-radix serialisation agrees with the limbs", "statement": "ser of a radix-2^28 element gives the canonical encoding of its value exactly when a stated arithmetic condition on the limbs holds (no carry is lost); the condition holds for every value below 2^448 and for every multiplied or reduced element with residue at least 2^282, and it fails for some products of parsed elements and for some sums of two parsed elements.", "quantifier": "all reachable limb vectors", "why_tests_cant": "A lost carry needs a fully saturated low word.", "anchors": ["src/eltfp448_1w_redradix.c: ser_Fp448_1w_redradix"]}
{"id": "C45", "title": "X448 equals the Curve448 function and agrees in both directions", "statement": "X448.shared(u,k) is the x-coordinate of n*Q for the clamped scalar n; shared(shared(u,a),b)=shared(shared(u,b),a).", "quantifier": "all 56-byte keys and coordinates", "why_tests_cant": "As for X25519.", "anchors": ["src/ladder448.c"]}
{"id": "C46", "title": "Ed448 scalar arithmetic is exact modulo its group order", "statement": "Reduction of 114-byte digests and S=r+k*a are exact modulo l448, and division by four is multiplication by the inverse of four.", "quantifier": "all 114-byte digests and 57-byte scalars", "why_tests_cant": "Lost carries are 2^-64 events.", "anchors": ["src/edwards448.c: modular_reduction_ed448, div4", "src/sign448.c: calculate_s_ed448"]}
{"id": "C47", "title": "Ed448 accepts exactly the encodings of curve points", "statement": "Decoding a public key succeeds exactly when the bytes encode a point of Ed448.", "quantifier": "all 57-byte strings", "why_tests_cant": "The failing inputs have density 2^-28 or less.", "anchors": ["src/edwards448.c: point_decoding_ed448"]}
{"id": "C48", "title": "Ed448 signatures verify and contexts are separated", "statement": "Signing then verifying succeeds for every key, message and context of at most 255 bytes; longer contexts are rejected.", "quantifier": "all inputs", "why_tests_cant": "As for Ed25519.", "anchors": ["src/sign448.c"]}
{"id": "C49", "title": "Byte comparison used for keys and elements is exact", "statement": "cmp_bytes returns 0 iff the two buffers are equal, for every length.", "quantifier": "all pairs of byte strings of any equal length", "why_tests_cant": "Unbounded length.", "anchors": ["src/bytestring.c: cmp_bytes"]}
{"id": "C50", "title": "Random key generation fills the whole buffer", "statement": "The random byte source returns only after every byte of the buffer was written with bytes from the system generator, for any pattern of short reads and read errors.", "quantifier": "all read() behaviours (histories of short reads and failures)", "why_tests_cant": "Failure histories of the operating system are not reproducible in unit tests.", "anchors": ["third_party/prng.c: prgn_random_bytes"]}
{"id": "C51", "title": "What vector-form comparison decides, and sign is the parity", "statement": "cmp on one-way vector-form Fp25519 elements returns 0 exactly when the canonical encodings of the two elements agree in the lowest bit of every byte; in particular equal elements compare as equal, and in all three layouts the different elements 0 and 2 do too. sgn returns the parity of the canonical representative.", "quantifier": "all pairs of limb vectors within bounds, all lanes", "why_tests_cant": "Pairs of different elements that a faulty comparison confuses have density 2^-32.", "anchors": ["src/eltfp25519_1w_redradix.c: cmp, sgn", "src/eltfp25519_2w_redradix.c: cmp", "src/eltfp25519_4w_redradix.c: cmp"]}
{"id": "C52", "title": "What vector-form inversion and square roots compute", "statement": "One-way inv into a distinct buffer returns the inverse (0 for 0), and is wrong in place; one-way invsqrt returns x with v x^2 = u whenever u/v is a square; one-way srt into a buffer holding 0 does not return a square root of any nonzero element; four-way invsqrt returns in every lane x with v x^2 = -u (u v^7)^((p-1)/4), which is not u already for u = v = 1.", "quantifier": "all limb vectors within bounds, all lanes", "why_tests_cant": "The exponentiation chains have hundreds of steps; one wrong constant or a missing correction shows only on half of the residues of one layout.", "anchors": ["src/eltfp25519_1w_redradix.c: inv, invsqrt, srt", "src/eltfp25519_4w_redradix.c: invsqrt"]}
{"id": "C53", "title": "Ed25519 public keys and nonce commitments are the stated multiples of the base point", "statement": "keygen returns EDDSA_KEYGEN_OK and the RFC 8032 encoding of s*B, s the clamped scalar of the private key's digest; the first half of every signature is the encoding of r*B, r the nonce digest: for every 64-byte value of the hash, including those that the scalar reduction maps to a wrapped number.", "quantifier": "all private keys, messages, contexts; all 512-bit digests", "why_tests_cant": "The reduction wraps for one digest in 2^121; only a proof shows that the multiplication undoes it.", "anchors": ["src/sign255.c: ed25519_keygen, ed25519_sign_all", "src/edwards255.c: point_multiplication_ed25519"]}
{"id": "C54", "title": "Vector-form Fp448 operations compute in the field", "statement": "add, sub, neg, mul, sqr, inv and the carry passes of the radix-2^28 Fp448 tables return limbs that represent the sum, difference, negation, product, square and inverse modulo 2^448-2^224-1, in every half or lane, for operands within the stated limb bounds; packing and unpacking keep the elements unchanged.", "quantifier": "all limb vectors within the bounds, all halves and lanes, all buffers", "why_tests_cant": "The products exceed 64 bits only for limb patterns that random tests do not reach.", "anchors": ["src/eltfp448_1w_redradix.c: add, sub, neg, mul, sqrn, inv, compress", "src/eltfp448_2w_redradix.c: intmul, intsqr, compress", "src/eltfp448_4w_redradix.c: intmul, intsqr, compress, zip, unzip"]}
{"id": "C55", "title": "Ed448 point formulas compute the group law", "statement": "The doubling, mixed-addition and full-addition formulas on the isogenous curve return a representation of the sum of the points their operands represent, and the final isogeny returns the point of Ed448, for every representation within the stated limb bounds.", "quantifier": "all pairs of points, all their representations", "why_tests_cant": "An underflow of one packed subtraction hits only operand pairs whose limbs are ordered in a rare way.", "anchors": ["src/edwards448.c: _1way_doubling_2w_H0H8, _1way_mixadd_2w_H0H8, _1way_fulladd_2w_H0H8, _1way_doubling_4w_H0H8, _1way_mixadd_4w_H0H8, _4way_mixadd_ed448, isogeny_2w_H0H8"]}
{"id": "C56", "title": "Ed448 fixed-base multiplication computes n*B", "statement": "Multiplication of the base point returns n*B for every 56-byte scalar n.", "quantifier": "all scalars", "why_tests_cant": "The signed recoding, four lanes of table queries and the table itself (hundreds of points) must all be right for every scalar.", "anchors": ["src/edwards448.c: fixed_point_multiplication_ed448, point_multiplication_fold4w4, query_table_fold4w4_ed448", "include/table_sign_w4_3675k_ed448.h"]}
{"id": "C57", "title": "Ed448 point encoding is the RFC 8032 encoding", "statement": "Encoding a point writes the 57 bytes of RFC 8032, and different points have different encodings.", "quantifier": "all points, all projective representations", "why_tests_cant": "Non-canonical representatives are met with density 2^-160 or less.", "anchors": ["src/edwards448.c: point_encoding_ed448"]}
{"id": "C58", "title": "Ed448 public keys and signatures are those of RFC 8032 and deterministic", "statement": "keygen returns the encoding of s*B, s the clamped scalar of the private key's digest; a signature is the encoding of r*B followed by S congruent to r + k*s modulo the group order, with the nonce r and challenge k hashed as RFC 8032 states; none of it depends on uninitialised memory.", "quantifier": "all private keys, messages, contexts, modes; all digests the hash can return; all contents of uninitialised memory", "why_tests_cant": "The carries that the scalar arithmetic drops are 2^-64 events, and uninitialised words happen to be equal from run to run.", "anchors": ["src/sign448.c: ed448_keygen, ed448_sign_all, calculate_s_ed448", "src/edwards448.c: fixed_point_multiplication_ed448"]}
{"id": "C59", "title": "Ed448 verification accepts exactly the signatures that satisfy the group equation", "statement": "verify accepts a signature exactly when its first half is the encoding of S*B - k*A for the point A that the public key encodes; it answers with the public-key error exactly when the key does not decode.", "quantifier": "all public keys, messages, contexts, 114-byte strings", "why_tests_cant": "Acceptance of a wrong signature or rejection of a right one needs values that no test vector contains.", "anchors": ["src/sign448.c: ed448_verify_all", "src/edwards448.c: double_point_mult_4w_ed448, precompute_points_4w_ed448, wnaf_448bits"]}
{"id": "C60", "title": "Ed448 signatures are not malleable", "statement": "No signature other than the one that was made is accepted for the same message and R: S must be below the group order and every byte of the signature counts.", "quantifier": "all signatures and modifications of them", "why_tests_cant": "Tests modify random bits of valid signatures, not the unread byte or multiples of the group order.", "anchors": ["src/sign448.c: ed448_verify_all"]}
{"id": "C61", "title": "X448 public keys are the X448 function at the base point", "statement": "keygen returns the 56-byte X448 of the secret key and u = 5 (RFC 7748), which is also what shared returns for u = 5, so two parties that use keygen and shared obtain the same secret; the result does not depend on uninitialised memory.", "quantifier": "all 56-byte secret keys; all contents of uninitialised memory", "why_tests_cant": "Key generation goes through another curve and another algorithm than shared; tests compare the two on random keys, and the keys on which they differ are 2^-64 events.", "anchors": ["src/ladder448.c: x448_keygen_avx2, point_Edwards2Montgomery_ed448", "src/edwards448.c: fixed_point_multiplication_ed448, div4"]}
{"id": "C62", "title": "Signatures use SHA-512 and SHAKE256 on exactly the bytes of RFC 8032", "statement": "keygen, sign and verify, which feed their hash piece by piece through contexts left uninitialised on the stack, behave for Ed25519 as if they called SHA-512 (FIPS 180-4), and for Ed448 SHAKE256 (FIPS 202), on the concatenation of the pieces; with C53 the Ed25519 public key is the one of RFC 8032 for every private key.", "quantifier": "all keys, messages (below 2^63 bytes), contexts, modes and previous contents of the hash contexts", "why_tests_cant": "The pieces have every length and alignment relative to the hash block, and stack garbage varies; tests use a few lengths.", "anchors": ["src/sign255.c: ed25519_keygen, ed25519_sign_all, ed25519_verify_all", "src/sign448.c: ed448_keygen, ed448_sign_all, ed448_verify_all", "third_party/sha512.c: sph_sha512_init, sph_sha512, sph_sha512_close", "third_party/sha3.c: Init, Update, Final2, SHAKE256"]}
{"id": "C63", "title": "Field operations on memory: in-place use is right and nothing else is touched", "statement": "add, sub, mula24, neg, cmv, mul and sqr of the one-way full-radix tables write the residue of their inputs' values at the start of the call to the result, also when the result is one of the inputs, or both, and change no other word; reduce may write over its own input; the double-size products are exact when the result has no word in common with the inputs, and wrong in every build in place of the second factor.", "quantifier": "all memories, all places of the arguments (equal or disjoint), all three builds, all contents of registers and flags", "why_tests_cant": "Tests call the functions with a few fixed buffers; whether an operand is read after it was overwritten depends on the instruction order of each build.", "anchors": ["src/eltfp25519_1w_fullradix.c: add, sub, mul, sqr, neg, cmv, mula24, intmul, intsqr, reduce, reduce2", "src/eltfp448_1w_fullradix.c: add, sub, mul, sqr, neg, cmv, mula24, intmul, intsqr, reduce"]}
{"id": "C64", "title": "Assembly blocks declare what they change", "statement": "Every inline assembly block lists every register it writes, the flags, and memory if it stores to it, so that the compiler may keep other values in registers across it.", "quantifier": "all states of registers, flags and memory, all operands", "why_tests_cant": "A missing clobber is invisible until a compiler version or an inlining decision makes use of it.", "anchors": ["src/eltfp25519_1w_fullradix.c", "src/eltfp448_1w_fullradix.c", "src/ladder255.c: select_cmov_x64"]}
{"id": "C65", "title": "Assembly blocks stay inside their buffers", "statement": "Every block of the one-way full-radix tables reads only words of its arguments and writes only words of its result.", "quantifier": "all places of the arguments", "why_tests_cant": "An access one word too far reads valid memory in almost every test.", "anchors": ["src/eltfp25519_1w_fullradix.c", "src/eltfp448_1w_fullradix.c", "src/ladder255.c: select_cmov_x64"]}
{"id": "C66", "title": "X25519 shared secrets: right in place, no other memory changed, key copy erased", "statement": "X25519_x64.shared ends; afterwards the 32 bytes of the result are the X25519 function of the key and the point that the arguments held at the start, whatever overlaps among the three arguments; no other memory of the caller has changed; and the local copy of the key is all zero.", "quantifier": "all memories, all places of the three arguments, all builds, all contents of registers, flags and uninitialised local arrays", "why_tests_cant": "Tests use separate buffers, and cannot see the stack of a function that has returned.", "anchors": ["src/ladder255.c: x25519_shared_x64", "src/bytestring.c: spc_memset"]}
{"id": "C67", "title": "X25519 shared secrets take the same branches and addresses for every key", "statement": "The sequence of branch outcomes and of addresses read and written by X25519_x64.shared does not depend on the key, on the point, or on any content of memory.", "quantifier": "all keys, points, memories; all builds", "why_tests_cant": "Timing tests sample a few keys; a secret-dependent branch or address may be taken with small probability.", "anchors": ["src/ladder255.c: x25519_shared_x64, select_cmov_x64"]}
{"id": "C68", "title": "X25519 shared secrets access only the arguments and the local arrays", "statement": "Every word that X25519_x64.shared reads or writes lies in a local array or in the 32 bytes of an argument; key and point are only read.", "quantifier": "all memories and places of the arguments, all builds", "why_tests_cant": "Overreads of a few bytes go unnoticed in tests.", "anchors": ["src/ladder255.c: x25519_shared_x64"]}
{"id": "C69", "title": "X25519 does not depend on the conditional-swap method", "statement": "Whichever of the three values SWAP_METHOD is given (PERMUTATION, LOGIC, CMOV), the vector X25519.shared returns the X25519 function of RFC 7748 of its arguments; in particular all builds agree on every secret.", "quantifier": "all three methods, all 32-byte public values and secret keys, all builds", "why_tests_cant": "The methods leave different values in registers and one moves only half words, so agreement depends on bounds that hold along all 255 iterations; the test suite is compiled with one method only.", "anchors": ["src/ladder255.c: step_ladder_x25519, cmov_x25519", "include/faz_ecdh_avx2.h: SWAP_METHOD"]}
{"id": "C70", "title": "X448 does not depend on the conditional-swap method", "statement": "Whichever of the three values SWAP_METHOD is given, X448.shared returns the same bytes.", "quantifier": "all three methods, all public values and secret keys", "why_tests_cant": "The test suite is compiled with one method only; the other code is never run.", "anchors": ["src/ladder448.c: step_ladder_x448, cmov_x448", "include/faz_ecdh_avx2.h: SWAP_METHOD"]}
{"id": "C71", "title": "Capability queries answer for the capability asked", "statement": "cpu_has(c) answers 1 exactly when the processor announces the instruction set c.", "quantifier": "all processors (all results of CPUID), all twelve capabilities", "why_tests_cant": "A test machine that has all the instruction sets gets the right answer even from wrong code.", "anchors": ["third_party/cpu_caps.c: cpu_has"]}
{"id": "C72", "title": "The capability report tells whether the machine supports the library", "statement": "machine_info prints each instruction set with Yes exactly when the processor announces it, and says that the machine supports the library exactly when all of them, except possibly ADX, are there.", "quantifier": "all processors (all results of CPUID)", "why_tests_cant": "A test machine shows one case.", "anchors": ["third_party/cpu_caps.c: machine_info", "examples/cpu_id.c"]}
{"id": "C73", "title": "Vector field operations may be used in place", "statement": "Every function of the one-way, two-way and four-way reduced-radix layers of both fields returns the result for what its operands held when it was called, also when the result is the same element as one or both operands, whatever the registers held before; and it changes no memory but its results.", "quantifier": "all memories, all places of the operands that are equal or apart, all contents of registers, any number of repeated squarings", "why_tests_cant": "The functions store limb by limb while they still read their operands; a store that comes one load too early is harmless in every test with separate buffers.", "anchors": ["src/eltfp25519_1w_redradix.c", "src/eltfp25519_2w_redradix.c", "src/eltfp25519_4w_redradix.c", "src/eltfp448_1w_redradix.c", "src/eltfp448_2w_redradix.c", "src/eltfp448_4w_redradix.c"]}
{"id": "C74", "title": "Vector field operations stay inside their operands, at addresses that do not depend on data", "statement": "Every vector load and store of these functions lies inside one of the elements that were passed, every store inside a result; the addresses depend on the pointers only; and what is computed does not depend on any other memory.", "quantifier": "all memories and all places of the operands, any overlap, any number of repeated squarings", "why_tests_cant": "An access one limb too far reads valid memory in almost every test.", "anchors": ["src/eltfp25519_1w_redradix.c", "src/eltfp25519_2w_redradix.c", "src/eltfp25519_4w_redradix.c", "src/eltfp448_1w_redradix.c", "src/eltfp448_2w_redradix.c", "src/eltfp448_4w_redradix.c"]}
{"id": "C75", "title": "Vector constants are read at aligned addresses", "statement": "Every vector that these functions read from a constant array through a pointer to __m256i is at a multiple of 32 bytes wherever the compiler may put the array.", "quantifier": "all placements of the constant arrays that their declarations allow", "why_tests_cant": "Whether a misaligned access traps depends on where the compiler happens to put the array.", "anchors": ["src/eltfp25519_2w_redradix.c", "src/eltfp25519_4w_redradix.c: ngz", "src/eltfp448_1w_redradix.c", "src/eltfp448_2w_redradix.c", "src/eltfp448_4w_redradix.c: ngz", "src/edwards255.c: _1way_fulladd_2w_H0H5, join_points", "src/edwards448.c"]}
{"id": "C76", "title": "Point formulas leave the sum in the point they update, and nothing else", "statement": "The vector doublings, additions and table computations of both curves, given pointers to points, replace the point that they update by the result of the formula for what the points held before the call, whatever registers and local arrays held; the other operand keeps its value and no other memory changes. In terms of the group, the point left is the sum.", "quantifier": "all memories, all places of points that are apart (for additions also equal), all contents of registers and local arrays", "why_tests_cant": "The formulas reuse the memory of the points and of a few local arrays for all intermediate values through aliases; an intermediate value that is overwritten too early shows only where the old and the new value differ.", "anchors": ["src/edwards255.c: _1way_doubling_2w_H0H5, _1way_mixadd_2w_H0H5, _1way_fulladd_2w_H0H5, _1way_doubling_4w_H0H5, _1way_mixadd_4w_H0H5, _4way_mixadd, _2way_fulladd, _2way_doubling, join_points, precompute_4w_H0H5", "src/edwards448.c"]}
{"id": "C77", "title": "The vector shared-secret functions work with any overlap of their arguments and wipe their copy of the key", "statement": "X25519.shared and X448.shared of the vector implementation write the 32 (56) bytes of the shared secret, computed from the bytes that the two keys held when the function was called, wherever the three pointers point; they change no other byte of the caller, and the local copy of the secret key is zero when they return.", "quantifier": "all contents of memory, all three pointers with any overlap, all contents of registers and local objects before the call", "why_tests_cant": "Tests pass separate buffers, and cannot see local objects of a function that has returned.", "anchors": ["src/ladder255.c: x25519_shared_avx2", "src/ladder448.c: x448_shared_avx2"]}
{"id": "C78", "title": "The main loops of the vector ladders access addresses that do not depend on the key", "statement": "The main loops of X25519.shared and X448.shared of the vector implementation read the key without changing it, access only the key, the two pairs of coordinates and their local arrays, at aligned addresses that depend on the pointers only, and leave the result of the ladder, which depends on nothing but the key and the coordinates.", "quantifier": "all keys, all contents of memory, registers and local arrays, all places of the operands that are apart", "why_tests_cant": "Tests do not observe addresses, and a value left in a register or local array by an earlier call goes unnoticed unless the next call reads it.", "anchors": ["src/ladder255.c: step_ladder_x25519", "src/ladder448.c: step_ladder_x448"]}
{"id": "C79", "title": "Ed25519 and Ed448 read and write the caller's buffers safely, also when they overlap", "statement": "Key generation may write the public key over the private key. Signing may write the signature over any of its inputs (message, context, public key, private key) and gives the signature of the values they had before the call; outside the signature buffer nothing changes, and nothing at all when an error is returned.", "quantifier": "all memories of the caller, all pointers (overlapping or not), all lengths, all modes, all hash functions", "why_tests_cant": "Overlapping buffers are legal for the declared parameters and each overlap is a different computation; tests use separate buffers, and a wrong signature made in place looks like a signature.", "anchors": ["src/sign255.c: ed25519_keygen, ed25519_sign_all, ed25519_sign, ed25519_signctx, ed25519ph_signctx", "src/sign448.c: ed448_keygen, ed448_sign_all", "include/faz_eddsa_avx2.h"]}
{"id": "C80", "title": "Multiplication of the base point reads the whole of every sub-table and writes only its result", "statement": "The multiplication of the base point by a secret scalar, which key generation and signing use, leaves the multiple of the base point in its result whatever registers and local arrays held, and changes no other memory of its caller; each of its table lookups reads every cell of the sub-table of its position and nothing else of the table, whatever the digits of the scalar are, inside the table and at aligned addresses.", "quantifier": "all scalars, all contents of memory, registers and local arrays, all places of the result", "why_tests_cant": "Tests do not observe which cells of a table are read, and a lookup that reads only the selected entry gives the same result; stale contents of local arrays are the same in every run of a test.", "anchors": ["src/edwards255.c: point_multiplication_ed25519, point_multiplication_fold2w4_ed25519, query_table_fold2w4_ed25519, recoding_signed_scalar_fold2w4_ed25519", "src/edwards448.c: point_multiplication_fold4w4, query_table_fold4w4_ed448, recoding_signed_scalar_fold4w4_448"]}
{"id": "C81", "title": "X25519 and X448 key generation may write over the secret key, and leaves no copy of it behind", "statement": "X25519.keygen and X448.keygen write the public key of the bytes that were at the secret key when the function was called, wherever the two pointers point, and change no other byte of the caller; when they return, their local memory does not tell the secret key.", "quantifier": "all contents of memory, both pointers with any overlap, all contents of registers and local objects before the call", "why_tests_cant": "Tests pass separate buffers, and cannot see the local memory of functions that have returned.", "anchors": ["src/ladder255.c: x25519_keygen_avx2, point_Edwards2Montgomery_ed25519", "src/ladder448.c: x448_keygen_avx2, point_Edwards2Montgomery_ed448", "src/edwards448.c: fixed_point_multiplication_ed448", "src/bytestring.c: spc_memset"]}
{"id": "C82", "title": "Verification stays inside its arrays and tables for every signature, and its verdict depends on the arguments only", "statement": "For every message, context, public key and signature, verification of Ed25519 and Ed448 writes the digits of its two scalars inside their arrays, and every index computed from a digit is inside the table of constants or the local table; its loops end; the verdict is the same function of the bytes of the arguments wherever they are in memory and whatever registers and local objects held before the call.", "quantifier": "all messages, contexts, keys and signatures (also with S not reduced), all hash functions, all places of the buffers, all contents of memory and registers", "why_tests_cant": "The number of digits and the indices depend on the signature, which an attacker chooses; the longest recodings come from a few scalars near the largest, which random tests never produce.", "anchors": ["src/sign255.c: ed25519_verify_all", "src/sign448.c: ed448_verify_all", "src/edwards255.c: double_point_mult_4w_ed25519, wnaf_256bits, read_point_4w_ed25519", "src/edwards448.c: double_point_mult_4w_ed448, wnaf_448bits, read_point_4w_ed448"]}
{"id": "C83", "title": "Ed25519 and Ed448 key generation and signing do not depend on stale memory, and leave no secret behind", "statement": "The status, the public key and the signature written by Ed25519 and Ed448 key generation and signing are functions of the bytes of the caller's arguments, whatever registers and local memory held before the call and wherever the buffers are; when the functions return, their local memory does not tell the secret scalar, the secret prefix or the nonce.", "quantifier": "all hash functions, modes, keys, messages, contexts, lengths, pointers with any overlap, all contents of memory and registers before the call", "why_tests_cant": "Tests cannot choose what local memory holds before a call, nor see it after the function has returned.", "anchors": ["src/sign255.c: ed25519_keygen, ed25519_sign_all, ed25519_sign, ed25519ph_signctx", "src/sign448.c: ed448_keygen, ed448_sign_all", "src/edwards255.c: point_multiplication_ed25519", "src/edwards448.c: fixed_point_multiplication_ed448"]}
{"id": "C84", "title": "Two and four elements of Fp448 at once are decoded, encoded and compared lane by lane", "statement": "Decoding 112 (224) bytes into a two-way (four-way) element of Fp448 gives in each lane the residue of its 56 bytes; encoding writes the canonical encodings of the lanes one after the other; comparison gives, in the place of each lane, zero exactly when the two residues are the same. No lane influences another.", "quantifier": "all byte strings, all elements that the operations of the table produce", "why_tests_cant": "A test on random elements does not meet the elements whose encoding loses a carry, and a mix-up of lanes is hidden when all lanes of a test hold the same element.", "anchors": ["src/eltfp448_2w_redradix.c: unser, ser, cmp, inter, deinter", "src/eltfp448_4w_redradix.c: unser, ser, cmp, zip, unzip", "src/fp448.c"]}
{"id": "C85", "title": "Random keys and field elements consist of fresh bytes of the system and are evenly distributed", "statement": "rand of every layout of both fields and randKey of X25519, X448, Ed25519 and Ed448 use exactly the bytes that the system returned, in order, none twice and none left out, however many bytes each read gives; nothing of what the buffers held before shows in the result; each lane has bytes of its own; every element of the field comes from almost the same number of byte strings (two or three of 2^256; one or two of 2^448), and is in the range that the operations require.", "quantifier": "all behaviours of the system's random device, all old contents of the buffers, all residues", "why_tests_cant": "Tests run on systems whose device never fails and returns all bytes at once, and cannot measure a distribution on 2^255 elements.", "anchors": ["src/eltfp25519_1w_fullradix.c: rand", "src/eltfp25519_1w_redradix.c: rand", "src/eltfp25519_2w_redradix.c: rand", "src/eltfp25519_4w_redradix.c: rand", "src/eltfp448_1w_fullradix.c: rand", "src/eltfp448_1w_redradix.c: rand", "src/eltfp448_2w_redradix.c: rand", "src/eltfp448_4w_redradix.c: rand", "src/ladder255.c: randX25519_Key", "src/ladder448.c: randX448_Key", "src/sign255.c: randEd25519_Key", "src/sign448.c: randEd448_Key", "third_party/prng.c"]}
{"id": "C86", "title": "Exactly the low-order X448 inputs give the all-zero secret, but for one scalar", "statement": "X448.shared returns 56 zero bytes exactly when the coordinate is, modulo p, 0, 1 or -1, the coordinates of points of order 1, 2 and 4 on the curve or its twist, for every private key but those that clamp to the scalar 4*l; with that one it does so for exactly these and the coordinates of the curve. In particular the carries that the encoding loses never turn a secret that is not zero into zero bytes.", "quantifier": "all 56-byte keys and coordinates", "why_tests_cant": "Needs the exact sets of low-order coordinates on curve and twist, whose orders have 448 bits, and the products that the encoding gets wrong are too rare for random tests.", "anchors": ["src/ladder448.c: x448_shared_avx2", "src/eltfp448_1w_redradix.c: ser"]}
{"id": "C87", "title": "Which private keys share a public key, and honest secrets are never zero", "statement": "Two X25519 private keys have the same public key exactly when they are clamped to the same scalar or to scalars whose sum is 8*l, and give the same secret with a public value that is not of low order exactly when the same holds for the order of the curve or twist that it belongs to; a scalar of 2^254+2^128 or more has no such partner. Two parties that use generated public keys never get the all-zero secret. Two Ed25519 private keys have the same public key exactly when their digests are clamped to the same scalar, and an Ed25519 public key is a point of exact prime order.", "quantifier": "all pairs of 32-byte private keys, all public values, all build variants, every hash function with 64 bytes of output", "why_tests_cant": "Collisions are far too rare for random tests, and their absence is a statement about all pairs of keys.", "anchors": ["src/ladder255.c: x25519_keygen_avx2, x25519_shared_avx2, x25519_shared_x64", "src/sign255.c: ed25519_keygen"]}
{"id": "C88", "title": "Whether two public values are interchangeable does not depend on the private key", "statement": "If two public values give the same X25519 secret with one private key, they give the same secret with every private key; values that are inverses modulo p always do.", "quantifier": "all pairs of 32-byte public values and of 32-byte private keys, both implementations, all build variants", "why_tests_cant": "A test can compare secrets for some keys only; interchangeable values matter to protocols that bind a secret to a public value.", "anchors": ["src/ladder255.c: x25519_shared_avx2, x25519_shared_x64"]}
{"id": "C89", "title": "Printing shows the number, and different values are printed differently", "statement": "printKey and printSignature write one line: 0x, the bytes of the key or signature as one little-endian number in hexadecimal, most significant digit first, with leading zeros; so no two keys print alike. print of a field element writes, for each lane in order, such a line with the canonical representative of the residue, so equal elements print alike.", "quantifier": "all keys, signatures and elements of every layout of both fields", "why_tests_cant": "Tests look at a few printed values by eye; unreduced elements, and those whose encoding loses a carry, are not among them.", "anchors": ["src/bytestring.c: print_hex_bytes", "src/ladder255.c: printX25519_Key", "src/ladder448.c: printX448_Key", "src/sign255.c: printEd25519_Key, printEd25519_Signature", "src/sign448.c: printEd448_Key, printEd448_Signature", "src/fp255.c: print", "src/fp448.c: print"]}
{"id": "C90", "title": "Elements from alloc are large enough for every operation of their table", "statement": "If every element passed to an operation comes from alloc of the table of its width, every load and store lies inside the allocated bytes.", "quantifier": "all entries of the tables of both fields, all addresses of the allocated blocks, all numbers of repeated squarings", "why_tests_cant": "An access just behind an allocated block seldom has a visible effect, because allocators round sizes up.", "anchors": ["src/bytestring.c: allocate_bytes", "src/fp255.c: alloc", "src/fp448.c: alloc", "include/faz_fp_avx2.h"]}
{"id": "C91", "title": "A signature belongs to one message", "statement": "A signature that verifies under a public key for one message, context and mode verifies under that key for another message, context or mode only if the two challenges, the hashes of the signature's first half, the key and the message, are congruent modulo the group order.", "quantifier": "all public keys, signatures, messages, contexts, modes, build variants and hash functions", "why_tests_cant": "The public keys and pairs of messages that break it are chosen by the signer, not at random.", "anchors": ["src/sign255.c: ed25519_verify_all", "src/sign448.c: ed448_verify_all"]}
{"id": "C92", "title": "No signature gives the private key away, whatever public key is passed to sign", "statement": "Signing the same message with the same private key never yields two signatures with the same first half and different second halves, whatever is passed as the public key; so signatures never determine the private scalar.", "quantifier": "all private keys, messages, contexts, modes and all pairs of strings passed as public key", "why_tests_cant": "Tests always pass the public key that belongs to the private key.", "anchors": ["src/sign255.c: ed25519_sign_all", "src/sign448.c: ed448_sign_all"]}
{"id": "C93", "title": "Which X448 and Ed448 private keys share a public key or secret", "statement": "Two X448 private keys have the same public key, or the same secret with a public value that is not of low order, exactly when they are clamped to the same scalar or to scalars with a fixed sum, 8*l for the curve and 4*l' for the twist; keys with the same scalar always do. Two public values that give the same secret with one private key give the same with every private key; inverses modulo p always do. Two Ed448 private keys have the same public key exactly when their digests are clamped to the same scalar.", "quantifier": "all pairs of private keys and of public values, every hash function", "why_tests_cant": "Collisions are far too rare for random tests, and their absence is a statement about all pairs of keys.", "anchors": ["src/ladder448.c: x448_keygen_avx2, x448_shared_avx2", "src/sign448.c: ed448_keygen"]}
{"id": "C94", "title": "Every member of the public tables is the function of its name, field and width, and the sizes are right", "statement": "Every member of Fp25519 and Fp448 can be called and is the function of its name, for its field, number of elements and radix. key_size and signature_size of X25519, X25519_x64, X448, Ed25519 and Ed448 are the numbers of bytes of the public keys, secrets and signatures that the functions of the same table write, whatever their arguments are.", "quantifier": "all members of the tables of both fields in all four layouts; all keys, messages, contexts, modes, hash functions and build variants", "why_tests_cant": "Tests call the members that their authors remembered; a member that no initialiser names is found only by calling it.", "anchors": ["src/fp255.c: Fp25519", "src/fp448.c: Fp448", "include/faz_fp_avx2.h: PrimeField", "src/dh255.c: X25519, X25519_x64", "src/dh448.c: X448", "src/ed255.c: Ed25519", "src/ed448.c: Ed448"]}
{"id": "C95", "title": "A signature belongs to one public key", "statement": "A signature that verifies under one public key verifies under a different one, for the same or another message, context and mode, only if the multiples of the two keys by their challenges are the same point; for generated keys, only if the products of challenge and secret scalar are congruent modulo the group order. In particular nobody can find a second public key for a signature without solving for the hash.", "quantifier": "all pairs of public keys, all signatures, messages, contexts, modes, build variants and hash functions", "why_tests_cant": "The second public key is chosen by an attacker, not at random.", "anchors": ["src/sign255.c: ed25519_verify_all", "src/sign448.c: ed448_verify_all"]}
{"id": "C96", "title": "Public keys and accepted signatures hold canonical encodings only", "statement": "Public keys from keygen, the first half of every signature from sign and the first half of every signature that verify accepts are canonical: the coordinate that they hold is below p, for Ed448 also the unused bits are zero. A signature whose first half is rewritten with a coordinate of p or more is never accepted.", "quantifier": "all keys, messages, contexts, modes, signatures, build variants and hash functions, with no exception for rare carries", "why_tests_cant": "Non-canonical strings that are valid otherwise encode one of a few small coordinates and never occur at random.", "anchors": ["src/sign255.c: ed25519_keygen, ed25519_sign_all, ed25519_verify_all", "src/sign448.c: ed448_keygen, ed448_sign_all, ed448_verify_all", "src/edwards255.c: point_encoding_ed25519", "src/edwards448.c: point_encoding_ed448"]}
