import Verif.Ed25519.Scalar

/-!
# Scalars modulo the order of Ed448: the C code of src/edwards448.c and src/sign448.c

Buffers are lists of bytes or of 64-bit words; a function that writes through a pointer
returns the new buffer.  `(uint8_t *) w` for an array `w` of words is `bytesOf w`, and
`(uint64_t *) b` is `words n b`.
-/

namespace Verif

/-- The first `n` words of a byte buffer, little endian; missing bytes read as zero. -/
def words : ℕ → List Byte → List W
  | 0, _ => []
  | n + 1, b => BitVec.ofNat 64 (leNat (b.take 8)) :: words n (b.drop 8)

/-- The bytes of an array of 64-bit words. -/
def bytesOf (l : List W) : List Byte := l.flatMap wordBytes

namespace Ed448

/-- src/edwards448.c:38, `ellx4 = 4 c` where the group order is 2^446 - c. -/
def ellx4 : List W :=
  [0x721cf5b5529eec34#64, 0x7a4cf635c8e9c2ab#64, 0xeec492d944a725bf#64, 0x20cd77058#64]

/-- src/edwards448.c:39, `ell = c`. -/
def ellc : List W :=
  [0xdc873d6d54a7bb0d#64, 0xde933d8d723a70aa#64, 0x3bb124b65129c96f#64, 0x08335dc16#64]

/-- src/edwards448.c:63-67 and 69-73: the loop that moves the 58 bytes from offset 56 of
`product` (fifteen words) to `high` (eight words) and clears them.  The 58 bytes are words
7..13 and the two low bytes of word 14. -/
def splitHigh (product high : List W) : List W × List W :=
  let h7 := high.getD 7 0#64
  let p14 := product.getD 14 0#64
  ( product.take 7 ++ List.replicate 7 0#64 ++ [p14 &&& ~~~0xFFFF#64],
    (product.drop 7).take 7 ++ [(h7 &&& ~~~0xFFFF#64) ||| (p14 &&& 0xFFFF#64)] )

/-- src/edwards448.c:36-85 `modular_reduction_ed448` on the 114 bytes it accesses. `product[13]`
and `product[14]` are not initialised by the source: `u13`, `u14` are their arbitrary
contents. -/
def modular_reduction (u13 u14 : W) (a : List Byte) : List Byte :=
  let high := words 8 ((a.drop 56).take 58)
  let product := words 7 a ++ List.replicate 6 0#64 ++ [u13, u14]
  let product := word64_multiplier product ellx4 high
  let ph := splitHigh product high
  let product := word64_multiplier ph.1 ellx4 (ph.2.take 4)
  let ph := splitHigh product ph.2
  let product := word64_multiplier ph.1 ellx4 (ph.2.take 1)
  let h0 := product.getD 6 0#64 >>> 62
  let product := product.set 6 (product.getD 6 0#64 &&& ((1#64 <<< 62) - 1#64))
  let product := word64_multiplier product ellc [h0]
  bytesOf (product.take 7) ++ List.replicate 58 0#8

/-- src/edwards448.c:95-98, `ifour`. -/
def ifour : List W :=
  [0x48de30a4aad6113d#64, 0x085b309ca37163d5#64, 0x7113b6d26bb58da4#64, 0xffffffffdf3288fa#64,
   0xffffffffffffffff#64, 0xffffffffffffffff#64, 0x0fffffffffffffff#64]

/-- src/edwards448.c:94-120 `div4`: the 57 bytes of `number_div_4`. -/
def div4 (u13 u14 : W) (number : List Byte) : List Byte :=
  let product := List.replicate 16 0#64
  let a := words 7 (number.take 56)
  let product := word64_multiplier product ifour a
  let product := modular_reduction u13 u14 ((bytesOf product).take 114)
  product.take 56 ++ [0#8]

/-- src/sign448.c:72-95 `calculate_s_ed448`: the 57 bytes of `s_mod_l`. -/
def calculate_s (u13 u14 : W) (r h a : List Byte) : List Byte :=
  let product := words 7 (r.take 56) ++ List.replicate 9 0#64
  let aa := words 7 (a.take 56)
  let hh := words 7 (h.take 56)
  let product := word64_multiplier product hh aa
  let product := modular_reduction u13 u14 ((bytesOf product).take 114)
  product.take 56 ++ [0#8]

end Ed448

end Verif
