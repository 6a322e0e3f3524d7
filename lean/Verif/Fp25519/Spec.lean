import Verif.Fp25519.Asm
import Mathlib.Data.ZMod.Basic

/-! # What a Fp25519 element means

The specification vocabulary of the Fp25519 properties: the prime, the field and the
residue represented by a vector of words.  `F4.val` and `F8.val` are the little-endian
radix-2^64 values. -/

namespace Verif.Fp25519

/-- The prime 2^255 - 19 as a natural number. -/
abbrev P : ℕ := 2 ^ 255 - 19

instance : NeZero P := ⟨by norm_num⟩

/-- The field GF(2^255-19). -/
abbrev Fp := ZMod P

/-- The residue that four words represent; every 256-bit value is allowed. -/
def F4.toFp (a : F4) : Fp := (a.val : Fp)

/-- The residue that eight words represent. -/
def F8.toFp (a : F8) : Fp := (a.val : Fp)

/-- The representative of a residue in [0, p). -/
def canon (x : Fp) : ℕ := x.val

end Verif.Fp25519
