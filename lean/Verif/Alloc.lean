import Verif.X86.Spec
import Verif.Vec.Machine

/-!
# Allocation of elements

The entries `alloc` of the public tables: the number of bytes that is asked of `_mm_malloc`.  That
`_mm_malloc` may fail is not modelled.
-/

namespace Verif.Alloc

/-- include/faz_fp_avx2.h:51,52,65,66 `NUM_DIGITS_FP25519`, `NUM_DIGITS_FP25519_X64`,
`NUM_DIGITS_FP448`, `NUM_DIGITS_FP448_X64`. -/
def digits25519 : ℕ := 10
def digits25519_x64 : ℕ := 4
def digits448 : ℕ := 16
def digits448_x64 : ℕ := 7

/-- `sizeof(uint64_t)` and `sizeof(__m256i)`. -/
def word : ℕ := 8
def vector : ℕ := 32

/-- src/eltfp25519_1w_fullradix.c:763-765 `alloc`. -/
def full25519 : ℕ := digits25519_x64 * word

/-- src/eltfp25519_1w_redradix.c:819-821 `alloc`. -/
def red25519_1w : ℕ := 4 * ((digits25519 + 3) / 4) * word

/-- src/eltfp25519_2w_redradix.c:689-691 `alloc`. -/
def red25519_2w : ℕ := digits25519 / 2 * vector

/-- src/eltfp25519_4w_redradix.c:895-897 `alloc`. -/
def red25519_4w : ℕ := digits25519 * vector

/-- src/eltfp448_1w_fullradix.c:24-26 `alloc`. -/
def full448 : ℕ := digits448_x64 * word

/-- src/eltfp448_1w_redradix.c:753-755 `alloc`. -/
def red448_1w : ℕ := digits448 * word

/-- src/eltfp448_2w_redradix.c:677-679 `alloc`. -/
def red448_2w : ℕ := digits448 / 2 * vector

/-- src/eltfp448_4w_redradix.c:690-692 `alloc`. -/
def red448_4w : ℕ := digits448 * vector

end Verif.Alloc
