import Verif.Bytes
import Mathlib.Data.Nat.NthRoot.Defs

/-!
# SHA-512 (FIPS 180-4)

Specification; this file models no code.
-/

namespace Verif.Sha512

/-! ## Functions and constants: sections 4.1.3, 4.2.3 and 5.3.5 -/

def ROTR (n : ℕ) (x : W) : W := x.rotateRight n

def Ch (x y z : W) : W := (x &&& y) ^^^ (~~~x &&& z)
def Maj (x y z : W) : W := (x &&& y) ^^^ (x &&& z) ^^^ (y &&& z)
def Sigma0 (x : W) : W := ROTR 28 x ^^^ ROTR 34 x ^^^ ROTR 39 x
def Sigma1 (x : W) : W := ROTR 14 x ^^^ ROTR 18 x ^^^ ROTR 41 x
def sigma0 (x : W) : W := ROTR 1 x ^^^ ROTR 8 x ^^^ x >>> 7
def sigma1 (x : W) : W := ROTR 19 x ^^^ ROTR 61 x ^^^ x >>> 6

/-- The first eighty prime numbers. -/
def primes : List ℕ :=
  (List.range 410).filter fun n => 2 ≤ n ∧ (List.range n).all fun m => m < 2 || n % m != 0

/-- "The first sixty-four bits of the fractional parts of the cube roots of the first eighty prime
numbers." -/
def K (t : ℕ) : W := BitVec.ofNat 64 (Nat.nthRoot 3 (primes.getD t 0 * 2 ^ 192))

/-- "The first sixty-four bits of the fractional parts of the square roots of the first eight prime
numbers." -/
def H0 (i : ℕ) : W := BitVec.ofNat 64 (Nat.nthRoot 2 (primes.getD i 0 * 2 ^ 128))

/-! ## The compression function: section 6.4.2 -/

/-- Eight words: the hash value, or the working variables a, ..., h. -/
@[ext] structure Regs where
  a : W
  b : W
  c : W
  d : W
  e : W
  f : W
  g : W
  h : W
deriving DecidableEq

/-- The initial hash value. -/
def iv : Regs := ⟨H0 0, H0 1, H0 2, H0 3, H0 4, H0 5, H0 6, H0 7⟩

/-- The message schedule of a block of sixteen words. -/
def sched (M : ℕ → W) (t : ℕ) : W :=
  if t < 16 then M t
  else sigma1 (sched M (t - 2)) + sched M (t - 7) + sigma0 (sched M (t - 15)) + sched M (t - 16)

/-- One of the eighty steps. -/
def stepS (K W : W) (r : Regs) : Regs :=
  let T1 := r.h + Sigma1 r.e + Ch r.e r.f r.g + K + W
  let T2 := Sigma0 r.a + Maj r.a r.b r.c
  ⟨T1 + T2, r.a, r.b, r.c, r.d + T1, r.e, r.f, r.g⟩

/-- The working variables after the first `n` steps. -/
def steps (M : ℕ → W) (r : Regs) : ℕ → Regs
  | 0 => r
  | n + 1 => stepS (K n) (sched M n) (steps M r n)

def compress (M : ℕ → W) (H : Regs) : Regs :=
  let r := steps M H 80
  ⟨r.a + H.a, r.b + H.b, r.c + H.c, r.d + H.d, r.e + H.e, r.f + H.f, r.g + H.g, r.h + H.h⟩

/-! ## Padding, parsing and the digest: sections 5.1.2, 5.2.2 and 6.4 -/

/-- The number a byte string denotes, big endian. -/
def beNat (b : List Byte) : ℕ := leNat b.reverse

/-- The `n`-byte big-endian encoding of `x`. -/
def beBytes (n x : ℕ) : List Byte := (leBytes n x).reverse

/-- The message followed by the bit 1, the least number of zero bits that leaves 128 bits in the
last block of 1024 bits, and the 128-bit length in bits. -/
def pad (m : List Byte) : List Byte :=
  m ++ [0x80#8] ++ List.replicate ((128 - (m.length + 17) % 128) % 128) 0#8 ++
    beBytes 16 (8 * m.length)

/-- Word `t` of the block `i` of 1024 bits. -/
def blockWord (m : List Byte) (i t : ℕ) : W :=
  BitVec.ofNat 64 (beNat ((m.drop (128 * i + 8 * t)).take 8))

/-- The hash value after the first `n` blocks. -/
def absorb (m : List Byte) : ℕ → Regs
  | 0 => iv
  | n + 1 => compress (blockWord m n) (absorb m n)

/-- The 64 bytes of a hash value. -/
def Regs.bytes (r : Regs) : List Byte :=
  [r.a, r.b, r.c, r.d, r.e, r.f, r.g, r.h].flatMap fun w => beBytes 8 w.toNat

/-- SHA-512 of a message of fewer than 2^128 bits. -/
def sha512 (m : List Byte) : List Byte := (absorb (pad m) ((pad m).length / 128)).bytes

end Verif.Sha512
