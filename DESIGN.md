# Formal model of armfazh/fld-ecc-vec in Lean 4

The properties are in `properties.jsonl`; the theorem names and the status of each property are in
`MANIFEST.json`; the experiments with wrong programs are in `seeded/LOG.jsonl`.

## 1. Method

The library is hand-written x86-64 assembly and AVX2 intrinsics on top of a small amount of C.
The model is a set of total, computable Lean functions that follow the source statement by
statement, and each definition cites the lines it models.

* **Scalar assembly** (`Verif/Word.lean`, `*/Asm*.lean`).  `uint64_t` and registers are `BitVec 64`.
  Every instruction used (`add/adc/adcx/adox/sub/sbb/mul/mulx/shld/shr/cmov/…`) is a function of its
  operands and flags, in continuation style, so an asm block is one Lean term of the same shape.
  Each instruction has an inversion lemma that gives its integer equation; a block is proved by
  `linear_combination` of these.  The three builds (MULX+ADX, MULX, MULQ) are a parameter `Isa`.
* **Assembly on memory** (`Verif/X86`).  The same blocks a second time, as data: lists of instructions with
  register, memory and immediate operands, executed on a machine with registers, flags and a memory of objects.
  A symbolic check (`Sim.lean`, run by the kernel) shows that executing a block on any memory, with its pointers equal
  or disjoint as stated, gives what the continuation-style model gives (`Link*.lean`).  Around the blocks is a small
  language of assignments, loops and block calls (`Prog.lean`) with a log of branches and addresses, in which
  `x25519_shared_x64` is written out (`Ladder.lean`).
* **Vector code** (`Verif/Simd`).  A 256-bit register is four lanes.  Programs are polymorphic over a
  lane type with the operations of the intrinsics.  Run on `BitVec 64` they are the code; run on
  intervals they give bounds (`decide +kernel`, one evaluation covering all inputs within the
  bounds); run on integers they give the value.  `Simd/Shadow.lean` relates the three;
  `Simd/Wrap.lean` does so for code whose subtractions may wrap and cancel.
* **Pointers.**  A C function that writes through pointers is a Lean function that returns the new
  contents.  Where the result depends on which buffers coincide, the aliased call is a second
  definition (`invAliased`, …).  Undefined behaviour (an access outside a buffer, a null pointer) is a distinct
  outcome (`Option`).  Memory that the code reads before writing it is a parameter of the model, and
  theorems quantify over it.
* **Loops** are folds or structural recursions over lists of any length.
* **Hash functions** are modelled themselves (SHA-512, the two-way SHA-512, SHA-3/SHAKE) and are a
  *parameter* `H` of the signature layer, so that its theorems hold for every function that returns
  the right number of bytes.

Specifications are small and do not use the model: residues in `ZMod p` (`*/Spec.lean`); Mathlib's
group of points of a Weierstrass curve, for Curve25519 and Curve448 (`Curve/Montgomery.lean`,
`Curve/Ladder.lean: XMul`); complete twisted Edwards curves with the addition law as definition
(`Curve/Edwards.lean`, where associativity is obtained from the Weierstrass group through a chart);
FIPS 180-4 and FIPS 202 in textbook form (`Sha512/Spec.lean`, `Keccak/Spec.lean`); RFC 8032 and 7748
encodings (`*/EddsaSpec.lean`, `*/Spec.lean`); byte strings as little-endian numbers (`Bytes.lean`).

Property theorems are in `Verif/Props/*.lean`, apart from the lemmas, with an `example` beside them that
shows a concrete case meeting the hypotheses.  When a property is false of the code, the negation is proved
with a concrete witness (suffix `_wrong`, or the name of the defect), and what does hold is proved with its exact
conditions (`_partial` if a part of the property is missing).

## 2. Trusted base

* The Lean 4.33.0 kernel, with Mathlib's definitions as used in the specifications.  Axioms of every
  theorem: a subset of `propext`, `Classical.choice`, `Quot.sound`.  No `sorry`, no axioms of our own,
  no `native_decide`, no `bv_decide`.  `decide +kernel` is evaluated by the kernel.
* The reading of the source.  The meaning given to x86 instructions and intrinsics
  (`Verif/Word.lean`, `Verif/Simd/Basic.lean`), from the Intel manual, is trusted.
* Little-endian memory; `uint8_t*` cast to `uint64_t*` reads eight bytes little-endian.
* That the compiler keeps what an asm block says.  Two blocks do not declare all they
  touch (C64: the Fp448 `mula24` asm has no "memory" clobber); the model takes them as meant.
* For C63, C66: that places are 8-byte aligned and that the compiler, where a block leaves a choice (operands in
  registers), does not change what the block computes.  For C67: that an instruction's time does not depend on its
  operands, and that the compiler adds no branches and no accesses.
* For C73 to C76: the programs of `Vec/Prog*.lean` and `Vec/Points*.lean` were made from the C text by a script, macro by macro, with loops of
  fixed length unrolled; they are compared with the functions on values, which were written by hand, for all inputs.
  Elements are aligned as declared and overlap only when they are the same element.  Local arrays of point formulas are
  in a frame that is apart from the points and holds arbitrary values.
* For C77 and C78: the programs of `Vec/Ladder.lean` were written by hand and are compared with `X25519/Avx2.lean` and
  `X448/Avx2.lean`.  Memory is read and written in vectors of 32 bytes; the key of X448 is 56 bytes of two vectors.
* For C80: the table queries and the multiplications of `Vec/Query.lean` and `Vec/MultMem.lean` were written by hand and are compared
  with the value-level functions of C25 and C56; the local arrays `mask`, `P_addYX`, `P_subYX` and `P__2dYX` of a query are
  registers of the machine.
* For C82: `Vec/VerifyMem.lean` was written by hand; `unser`, decoding, encoding and `div4` are the functions on values, and the two
  arrays of digits are separate from the vectors.  That the compiler keeps the tables and arrays as large as declared.
* For C83: `Vec/SignMem.lean` was written by hand; encoding, `reduce64bits`, `modular_reduction`, `calculate_s` and `div4` are the
  functions on values and a hash is a parameter, so the hash contexts and the local variables of those functions are not modelled
  (what they leave comes on top of what is proved to be left).

### What is modelled

| source | model |
|--------|-------|
| `src/eltfp25519_1w_fullradix.c` | all functions, three builds: `Fp25519/Asm.lean`, `Fp25519/Full.lean` |
| `src/eltfp25519_{1,2,4}w_redradix.c`, `src/fp255.c` | arithmetic, carries, ser/unser, cmp, sgn, cmv, ngz, inv, invsqrt, srt: `Fp25519/Red.lean`, `Fp25519/RedOps.lean`, `Fp25519/RedApi.lean`, `Fp25519/RedSrt.lean`; the arithmetic also as statements on memory: `Vec/Prog25519.lean` |
| `src/bytestring.c` | `cmp_bytes`, `word64_multiplier`: `Bytes.lean`, `Ed25519/Scalar.lean`; `print_hex_bytes` and every `print`: `Print.lean`; the sizes of `alloc`: `Alloc.lean` |
| `src/ladder255.c`, `src/dh255.c` | `X25519/X64.lean`, `X25519/Avx2.lean`, the other swap methods `X25519/Swap.lean`, `X25519/Keygen.lean`; `x25519_shared_x64` also on memory: `X86/Ladder.lean`; so is `x25519_shared_avx2`: `Vec/Ladder.lean`, `Vec/SharedMem.lean` |
| `src/edwards255.c`, tables | `Ed25519/Point.lean`, `Mult.lean`, `DoubleMult.lean`, `Decode.lean`, `TableSign.lean`, `TableVerf.lean`; the vector point formulas also on memory: `Vec/Points25519.lean` |
| `src/sign255.c`, `src/ed255.c` | `Ed25519/Scalar*.lean`, `Ed25519/Eddsa.lean`, `Ed25519/EddsaMem.lean` |
| `src/hash255.c` | `H2c/X64.lean`, `H2c/Avx2.lean` |
| `third_party/sha512.c`, `sha512_2way.c` | `Sha512/Model.lean`, `Sha512/TwoWay.lean` |
| `third_party/sha3.c` | `Keccak/Model.lean` |
| `third_party/cpu_caps.c`, `examples/cpu_id.c` | `Cpu/Caps.lean` |
| `third_party/prng.c`, `random_bytes`, `rand`, `randKey` | `Prng/Model.lean`, `Prng/Rand.lean`, against any behaviour of `read` |
| `src/eltfp448_1w_fullradix.c` | `Fp448/Asm.lean`, `Fp448/Full.lean` |
| initialisers of `src/fp255.c`, `src/fp448.c`; sizes in the other tables | `Tables.lean` |
| `src/eltfp448_{1,2,4}w_redradix.c` | `Fp448/Red.lean`, `Fp448/RedOps.lean`, `Fp448/RedWide.lean`; the arithmetic also as statements on memory: `Vec/Prog448.lean` |
| `src/ladder448.c`, `src/dh448.c` | `X448/Avx2.lean`, `X448/Swap.lean`, `X448/Keygen.lean`; `x448_shared_avx2` also on memory: `Vec/Ladder.lean`, `Vec/SharedMem.lean` |
| `src/edwards448.c`, tables | `Ed448/Point.lean`, `Mult.lean`, `DoubleMult.lean`, `Decode.lean`, `TableSign.lean`, `TableVerf.lean`; the vector point formulas also on memory: `Vec/Points448.lean` |
| `src/sign448.c`, `src/ed448.c` | `Ed448/Scalar.lean`, `Ed448/Eddsa.lean`, `Ed448/EddsaMem.lean` |

### What is not modelled

* Timing and constant-time behaviour of anything but `X25519_x64.shared` (C67); addresses are covered by C74, C78 and C80.  Prefetch hints, alignment faults (but see C75), failing allocations (but see C39), the C compiler and strict
  aliasing, `target.c`/cpuid dispatch (both outcomes are covered by `Isa`), `tests/`, `bench/`, `examples/`.
* Unused code: the 12 KB table variant of Ed25519 (`LUT_12KB`; it refers to names that exist nowhere in the sources and does not compile), the two-way double multiplication of both curves,
  `_4way_doubling` and `_1way_fulladd_1w_H0H5` of `edwards255.c`.

## 3. Properties: model and proof

| id | model | proof |
|----|-------|-------|
| C01 | asm of add/sub/neg on 4 words | carry equations, lifted to `ZMod p` |
| C02, C03 | asm of intmul/intsqr/reduce, single and paired, 3 builds | row lemmas combined to the exact integer product |
| C04, C05 | modp, ser, unser, cmp, sgn, cmp_bytes | value lemma for all 2^256 inputs, uniqueness of the canonical residue |
| C06 | cmv (cmov asm) | case split on the selector |
| C07, C08, C09 | inv, invsqrt, srt chains, aliased and not | exponent by counting; Fermat, p prime by a Pratt certificate; quartic character; the defects by evaluation or by algebra for all inputs |
| C10 | mula24 | carry equations |
| C11, C12, C14 | vector operations, 1/2/4 lanes | interval run for bounds, integer run for values; lane projections |
| C13, C44 | vector ser/unser | exact criterion for every limb vector; witnesses |
| C15, C16, C17, C18 | both X25519 ladders | ladder invariant over Mathlib's group, over any extension field |
| C19 | x25519_keygen_avx2 | Edwards/Montgomery map and C25 |
| C20 | — | orders of curve and twist (8ℓ; 4ℓ' or 8ℓ') from a point of order ℓ, ℓ' (kernel computation), primality certificates and the bound 2p on the number of points; the five coordinates by factoring the division polynomials |
| C21, C22, C23 | reduction, word64_multiplier, calculate_s | exact criterion (no window overflows); witnesses |
| C24 | radix-16 recoding, wNAF | induction over digits |
| C25 | fixed-base multiplication | every table entry by kernel computation; group law |
| C26 | point formulas | completeness of the Edwards law (d non-square); interval runs; witnesses for the two formulas that borrow |
| C27, C28 | point encoding, decoding | field lemmas |
| C29, C30, C31, C33, C53 | sign, verify, keygen with hash parameter | group algebra on top of C21–C28; witnesses evaluated by the kernel |
| C32 | control flow and hash inputs | injectivity of the prefix |
| C34, C35 | SHA-512 streaming, two-way | invariant over update calls; refinement to FIPS 180-4; lane projection; padding regimes |
| C36 | Keccak | unrolled permutation = 24 standard rounds for all states; sponge invariant |
| C37, C38, C39 | hash255.c | algebra of Elligator 2; group order 8ℓ; witnesses (length truncation, faulty comparison, missing allocation check) |
| C40, C41, C42 | Fp448 full radix | as C01–C08 |
| C43 | paired Fp448 operations as memory accesses | out of bounds for all inputs |
| C45 | X448 ladder | as C15; exact criterion for the final serialisation; witness |
| C46 | Ed448 scalars: reduction, div4, response | exact when no carry is dropped; witnesses |
| C47 | Ed448 decoding | exact outside lost borrows/carries; witnesses in both directions |
| C48, C58, C59, C60 | Ed448 sign, verify, keygen with hash parameter | as Ed25519, through the 4-isogeny to the curve the code computes on |
| C49 | cmp_bytes | induction on the length |
| C50 | prng | induction over the history of `read` results |
| C51, C52 | vector cmp, sgn, inv, invsqrt, srt | exact statement of what is computed; witnesses |
| C54 | vector Fp448 | as C11, C12 |
| C55 | Ed448 point formulas | as C26 on the isogenous curve |
| C56, C57 | Ed448 fixed-base multiplication, encoding | as C25, C27, with the conditions of C55 and C44; witnesses |
| C61 | x448_keygen | fixed-base multiplication, then the 4-isogeny `u = y²/x²` as a Montgomery ladder identity |
| C62 | the hash calls of sign255.c and sign448.c in order (`Ed25519/EddsaStream.lean`, `Ed448/EddsaStream.lean`) | composition with the streaming theorems C34 and C36 |
| C63, C64, C65 | assembly blocks as data (`X86/Blocks*.lean`) | symbolic execution checked by the kernel; induction over the instructions |
| C66, C67, C68 | x25519_shared_x64 on memory (`X86/Ladder.lean`) | weakest preconditions with loop invariants, down to the model of C15; the log is a function of the loop counters |
| C69, C70 | the three conditional swaps of the vector ladders | agreement of the lower halves of the registers, with the bounds of the ladder invariant; witness by a full run in the kernel |
| C71, C72 | the capability report; the processor is a function from CPUID leaves to registers | case analysis on bits; witnesses: a 2011 processor, a virtual machine hiding AVX2 |
| C73, C74, C75 | the functions of the six reduced-radix files as statements run on a memory (`Vec/Machine.lean`, `Vec/Prog25519.lean`, `Vec/Prog448.lean`) | each program, run with its operands apart, is evaluated by the kernel and compared with the function on values of C11, C54; a checker that tracks overwritten limbs, proved sound, extends this to equal operands; loops by induction; witnesses for the calls that fail |
| C76 (and C74, C75 for points) | the vector point formulas of both curves as statements, the bodies of the called field functions included, run on a memory (`Vec/Points25519.lean`, `Vec/Points448.lean`) | each call is replaced by what C73 says of the called function (`Vec/Compose.lean`), the statements between calls are evaluated; the table loop by induction; then C26, C55 give the group meaning |
| C77 | `x25519_shared_avx2`, `x448_shared_avx2` on the bytes of the caller and the local objects (`Vec/SharedMem.lean`) | the local objects are followed through the calls; C73 for the calls, C78 for the main loop, C15 and C45 for the value |
| C78 | the main loops as statements on memory, the bodies of the called functions included (`Vec/Ladder.lean`) | one iteration is composed as for C76; induction over the bits; the checker of C74 and the alignment check over one iteration, by induction for the loops |
| C79 | `ed25519_keygen`, `ed25519_sign_all`, `ed448_keygen`, `ed448_sign_all` on the bytes of the caller (`Ed25519/EddsaMem.lean`, `Ed448/EddsaMem.lean`) | reads and writes followed in the order of the code; C33, C58 for the values; witnesses with a hash that depends on the last byte |
| C80 | the multiplications by the base point on memory: recoding word by word, table queries as programs (`Vec/Query.lean`, `Vec/MultMem.lean`) | a query is composed of its masks, selections and conversions; the recoding by an invariant over nibbles; the loop by induction; the cells of the table that are read are computed from the program for any sub-table |
| C81 | `x25519_keygen_avx2`, `x448_keygen_avx2` on the bytes of the caller and all local objects, those of the multiplication included (`Vec/KeygenMem.lean`) | the local objects are followed through the calls with C73, C76, C80; C19 and C61 for the value; the digits that stay in memory are summed with C24, C56 |
| C82 | `ed25519_verify_all`, `ed448_verify_all` and the double multiplications on memory, with a record of every access at an index computed from a scalar (`Vec/VerifyMem.lean`) | the loops of the recoding end by the bounds of C30 and C59; the digits are odd and smaller than half a window, which bounds the indices; the local table is kept by every iteration; the values with C73, C76 |
| C83 | `ed25519_keygen`, `ed25519_sign_all`, `ed448_keygen`, `ed448_sign_all` on the bytes of the caller, the local arrays and the local objects, those of the multiplication included (`Vec/SignMem.lean`) | the arrays are followed through the statements, C80 for the multiplication; the result is the function of C79; what the arrays hold at the end is compared with the secret scalar and prefix, the digits with C24, C56 |
| C84 | `unser`, `ser`, `cmp` of the two- and four-way layouts of Fp448 (`Fp448/RedWide.lean`) | the permutations give the lanes, then C44 for each lane; the carry witness of C44 in every lane |
| C85 | the eight `rand` and four `randKey` on what the system's `read` does (`Prng/Rand.lean`) | induction over the reads of C50 with the list of what they returned; counting the numbers below 2^256 and 2^448 in a residue class |
| C86 | `X448.shared` of C45 | orders of Curve448 and its twist (4ℓ; 4ℓ' or 8ℓ') from points of order ℓ, ℓ' (ladder in the kernel), certificates that ℓ and ℓ' are prime (Pratt; Pocklington with 198 of 446 bits), the bound 2p + 1 on the number of points; points of order 8 excluded by squares; the one product that the lost carries would turn into zero is not in 4·E |
| C87 | `keygen`, `shared` of C15 and C19; `apiKeygen` of C53 | points of the closure that 8·q kills, q the prime of the curve or twist; multiples of a point of prime order agree up to sign exactly when the multipliers are congruent up to sign |
| C88 | `shared` of C15 | a multiplier prime to both orders cancels, also between curve and twist; inverse coordinates have the same double |
| C89 | `print_hex_bytes` and its callers, a stream as a list of characters (`Print.lean`) | induction over the bytes; digits of a number determine it; C13, C44 and C84 for the elements |
| C90 | the sizes that the eight `alloc` ask for (`Alloc.lean`) | the bounds of C65 and C74, compared with the sizes; a store behind the end in each unreduced product |
| C91 | the verification of C30 and C59 | two accepted equations under one key; the order of the key (C87, prime order of C86); for the negation the key of 32 zero bytes, a point of order 4 |
| C92 | the signing of C33 and C58, the public key an argument | one nonce, two challenges: linear algebra modulo the prime order; a hash function that tells the two keys apart for the negation |
| C93 | as C45, C58, C61 (`X448/KeyLemmas.lean` is mathematics only) | every coordinate is that of a point killed by 4 times a prime (C86), multipliers congruent up to sign; the witnesses of C58 and C61 for the negations |
| C94 | the initialisers of the two tables of field operations, extracted from src/fp255.c and src/fp448.c, as lists of member and function (`Tables.lean`); `key_size`, `signature_size` | cases over the finite tables; lengths of the results of the modelled functions for all arguments |
| C95 | the verification of C30 and C59 | two accepted equations with one R and S; the points (√-1, 0) and (-√-1, 0) of order 4 for the negation |
| C96 | as C30, C33, C58, C59 | every encoding ends with `ser`, which is canonical for all words (C04, C41) |

No property was found that cannot be expressed in the model.

## 4. Defects of the code shown by theorems

* Fp25519/Fp448: in-place `inv` and the `srt` entries are wrong (C07, C09, C42, C52); Fp448 paired operations leave
  their buffers (C43); the four-way `neg` entry of Fp25519 is the two-way one (C14); vector `cmp` compares one bit per
  byte (C51); four-way `invsqrt` misses a correction (C52).
* Lost carries: vector `ser` (C13, C44), hence X448 results (C45); scalar multiplier (C22), hence signatures (C21, C23, C29, C46, C48, C58, C61).
* Packed subtractions that borrow: mixed additions and paired doubling (C26, C55), hence verification (C30) and Ed448 decoding (C47).
* Ed25519 never refuses a public key (C28); S is not compared with the group order (C31, C60); the last byte of an Ed448 signature is not read (C60).
* The random source returns an unwritten buffer after a failed first read and never returns at end of file (C50).
* The multiplication by 39082 for Fp448 does not tell the compiler that it writes memory (C64).
* Hash to curve: message lengths cut to 32 bits in the AVX2 path, unchecked allocation (C39).
* X448 built with SWAP_METHOD = CMOV is wrong: one conditional move is missing (C70).
* cpu_has looks for a bit in three registers that number different features: AVX2 and BMI2 are "found" on every 64-bit processor (C71).
* machine_info says "supports our library: Yes" when any one instruction set is missing (C72).
* Four-way `addsub` of both fields gives a wrong difference when the sum replaces an operand, and the internal two-way `naddsub` when its first result replaces its second operand (C73); the library itself does not call them so.
* The constants of four-way `ngz` are read as aligned vectors from an array of 64-bit integers that need not be aligned (C75); so is the curve constant of the addition `_1way_fulladd_2w_H0H5`, which ends every Ed25519 key generation and signature (C75).
* `_2way_fulladd` overwrites its second operand (C76); the callers do not use it afterwards.
* Signing in place: R is written to the signature before message, context and public key are hashed a second time; over an
  input it gives a wrong signature, and one that reveals the private key together with a proper one (C79).
* X25519 and X448 key generation wipe the array `scalar` but not the recoded digits (nor `r_div_4`), from which the secret scalar can
  be read (C81).
* `double_point_mult_2w_ed25519`, which nothing calls, has arrays of 256 digits where 257 are written for some scalars (C82).
* Two- and four-way `cmp` of Fp448 calls equal elements different when one loses a carry in `ser` (C84).
* Random keys and elements are what the memory held before when the random device cannot be opened (C85).
* Elements of full radix are printed without reduction: p and 0, which are equal, are printed differently (C89).
* `alloc` of the full-radix tables gives 4 (7) words; the public `intmul` and `intsqr` write 8 (14) and the paired functions of Fp25519
  up to 16, behind the end of a result from `alloc` (C90).
* Ed25519 verification accepts public keys of small order: under the key of 32 zero bytes one signature is accepted for
  two messages with different challenges (C91).
* Signing hashes whatever public key it is given: two signatures of one message made with two public keys give the
  private scalar away (C92).
* Key generation of X448 and of Ed448 gives some pairs of different scalars the same public key, by the carries dropped
  in the division by 4 (C93, from C58 and C61).
* Eight members of the table `Fp448` are null pointers, because its initialiser does not name them: `srt` of
  one-way full radix and four-way, `cmv` and `sgn` of one-way reduced radix and two-way, `neg` of two-way and
  four-way (C94).
* One Ed25519 signature can be valid for one message under two different public keys, both of small order, because
  verification refuses no key (C95).
* Clamping for X448 admits one scalar that is the order of the curve, 4ℓ: with that private key every coordinate of the curve gives
  the all-zero secret (C86). This is so for X448 itself, not only for this code.
* Ed25519 and Ed448 key generation and signing wipe nothing: after a signature the local array `ah` holds the secret scalar and
  prefix, with which any message can be signed (C83).
