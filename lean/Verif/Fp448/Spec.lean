import Verif.Fp448.Asm
import Verif.Primes
import Mathlib.Algebra.Field.ZMod

/-! # What a Fp448 element means

The specification vocabulary of the Fp448 properties: the prime, the field and the residue
represented by a vector of words.  `F7.val` and `F14.val` are the little-endian radix-2^64
values. -/

namespace Verif.Fp448

set_option exponentiation.threshold 2000

/-- The prime 2^448 - 2^224 - 1 as a natural number, in decimal (`P_def`). -/
abbrev P : ℕ :=
  726838724295606890549323807888004534353641360687318060281490199180612328166730772686396383698676545930088884461843637361053498018365439

theorem P_def : P = 2 ^ 448 - 2 ^ 224 - 1 := by norm_num

instance : NeZero P := ⟨by norm_num⟩

/-- The field GF(2^448 - 2^224 - 1). -/
abbrev Fp := ZMod P

/-- The residue that seven words represent; every 448-bit value is allowed. -/
def F7.toFp (a : F7) : Fp := (a.val : Fp)

/-- The residue that fourteen words represent. -/
def F14.toFp (a : F14) : Fp := (a.val : Fp)

/-- The representative of a residue in [0, p). -/
def canon (x : Fp) : ℕ := x.val

instance : Fact (Nat.Prime P) := ⟨Primes.prime_p448⟩

end Verif.Fp448
