import Verif.Ed25519.Curve
import Verif.Bytes

/-!
# Points of edwards25519 as byte strings (RFC 8032, sections 5.1.2 and 5.1.3)

Specification; this file models no code. -/

namespace Verif.Ed25519

open Verif.Fp25519

/-- RFC 8032, 5.1.2: the 255 bits of y, then the least significant bit of x. -/
def encode (A : Pt) : List Byte := leBytes 32 (canon A.y + 2 ^ 255 * (canon A.x % 2))

/-- The y-coordinate named by a string: its low 255 bits, reduced. -/
def yCoord (b : List Byte) : Fp := ((leNat b % 2 ^ 255 : ℕ) : Fp)

/-- The top bit of a 32-byte string. -/
def signBit (b : List Byte) : ℕ := leNat b / 2 ^ 255

/-- The string names the point: it has the y-coordinate of the string and, unless x = 0 where
there is no choice, its x-coordinate has the parity of the top bit.  This is RFC 8032, 5.1.3,
without the two strictness checks (y below p, and top bit 0 when x = 0); the strings that also
pass those are the `encode A` (`decodes_encode`, `encode_of_decodes`). -/
def Decodes (b : List Byte) (A : Pt) : Prop :=
  A.y = yCoord b ∧ (A.x ≠ 0 → canon A.x % 2 = signBit b)

end Verif.Ed25519
