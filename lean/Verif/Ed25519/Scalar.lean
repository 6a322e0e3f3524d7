import Verif.Ed25519.ScalarAsm
import Verif.Bytes

/-!
# Scalars modulo the group order: C code of src/sign255.c and src/bytestring.c

Buffers are lists of 64-bit words (or bytes); a function that writes through a pointer
returns the new buffer.
-/

namespace Verif

/-- src/bytestring.c:80-88, the macro `mul64x64(Z, X, Y)`: the three words of `Z` after the
block, given their values before and `X[0]`, `Y[0]`. The carry out of the third word is
dropped, as in the source. -/
def mul64x64 (z0 z1 z2 x y : W) : W × W × W :=
  mov x fun rax =>
  mulx rax y fun rax rdx =>
  add z0 rax fun z0 cf =>
  adc z1 rdx cf fun z1 cf =>
  adc z2 0#64 cf fun z2 cf =>
  (z0, z1, z2)

/-- One execution of `mul64x64(C + k, &x, &y)`. -/
def mulStep (C : List W) (k : ℕ) (x y : W) : List W :=
  let z := mul64x64 (C.getD k 0#64) (C.getD (k + 1) 0#64) (C.getD (k + 2) 0#64) x y
  ((C.set k z.1).set (k + 1) z.2.1).set (k + 2) z.2.2

/-- The inner loop (`j` counts up from `j0`), row `i` with multiplier word `x`. -/
def mulRow (C : List W) (k : ℕ) (x : W) : List W → List W
  | [] => C
  | y :: B => mulRow (mulStep C k x y) (k + 1) x B

/-- The outer loop from row `i`. -/
def mulRows (C : List W) (i : ℕ) (B : List W) : List W → List W
  | [] => C
  | x :: A => mulRows (mulRow C i x B) (i + 1) B A

/-- src/bytestring.c:75-96 `word64_multiplier`: `numA`, `numB` are the lengths of `A`, `B`. -/
def word64_multiplier (C A B : List W) : List W := mulRows C 0 B A

namespace Ed25519

open Verif.Fp25519 (F8)

/-- src/sign255.c:227-234 `modular_reduction_ed25519` on the eight words of its buffer. -/
def modular_reduction (pA : F8) : F8 :=
  let pA := reduce256bits pA
  let pA := reduce256bits pA
  let pA := { pA with w4 := ((pA.w4 &&& 0x3#64) <<< 4) ||| (pA.w3 >>> 60) }
  let pA := { pA with w3 := pA.w3 &&& ((1#64 <<< 60) - 1#64) }
  reduce64bits pA

/-- Eight words of a 64-byte buffer, `(uint64_t *) a`. -/
def F8.ofBytes (b : List Byte) : F8 :=
  ⟨loadWord b 0, loadWord b 1, loadWord b 2, loadWord b 3,
   loadWord b 4, loadWord b 5, loadWord b 6, loadWord b 7⟩

/-- The first 32 bytes of an eight-word buffer: what every caller reads afterwards. -/
def F8.lowBytes (a : F8) : List Byte :=
  wordBytes a.w0 ++ wordBytes a.w1 ++ wordBytes a.w2 ++ wordBytes a.w3

/-- `modular_reduction_ed25519` on a 64-byte string, as the 32-byte string its callers use. -/
def reduceBytes (b : List Byte) : List Byte := F8.lowBytes (modular_reduction (F8.ofBytes b))

/-- `(uint64_t *) b` for a 32-byte buffer. -/
def words4 (b : List Byte) : List W :=
  [loadWord b 0, loadWord b 1, loadWord b 2, loadWord b 3]

/-- src/sign255.c:247-259 `calculate_s_ed25519`: the bytes of `s_mod_l`. `product` has twelve
words. -/
def calculate_s (r k a : List Byte) : List Byte :=
  let product := words4 r ++ List.replicate 8 0#64
  let product := word64_multiplier product (words4 k) (words4 a)
  let w i := product.getD i 0#64
  F8.lowBytes (modular_reduction ⟨w 0, w 1, w 2, w 3, w 4, w 5, w 6, w 7⟩)

end Ed25519

end Verif
