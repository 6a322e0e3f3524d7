import Verif.Fp25519.RedApi

/-!
# The four-way `srt` of Fp25519
-/

namespace Verif.Fp25519.R4

/-- src/eltfp25519_4w_redradix.c:891-893 `srt`: `invsqrt(c, c, a)` (807-889), the output and the
numerator being one element: the candidate replaces the numerator before it is negated. -/
def srt {α : Type} [Lane α] (c a : Elt10 α) : Elt10 α :=
  let s := invsqrtPow c a
  let uv3 := s.1
  let sqrt := s.2
  let c := mul sqrt uv3
  let c := neg c
  mul c sqrt_minus_one

end Verif.Fp25519.R4
