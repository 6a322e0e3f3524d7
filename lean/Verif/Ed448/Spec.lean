import Verif.Ed448.Curve
import Verif.Bytes

/-!
# Points of edwards448 as byte strings (RFC 8032, sections 5.2.2 and 5.2.3)

Specification; this file models no code. -/

namespace Verif.Ed448

open Verif.Fp448

/-- RFC 8032, 5.2.2: 57 bytes, y followed by zeros, and the least significant bit of x at the top. -/
def encode (A : Pt) : List Byte := leBytes 57 (canon A.y + 2 ^ 455 * (canon A.x % 2))

/-- The number that RFC 8032, 5.2.3, reads as the y-coordinate: all bits but the top one. -/
def yNum (b : List Byte) : ℕ := leNat b % 2 ^ 455

/-- The top bit of a 57-byte string. -/
def signBit (b : List Byte) : ℕ := leNat b / 2 ^ 455

/-- RFC 8032, 5.2.3: the string decodes to the point. -/
def Decodes (b : List Byte) (A : Pt) : Prop :=
  yNum b < P ∧ A.y = (yNum b : Fp) ∧ canon A.x % 2 = signBit b ∧ (A.x = 0 → signBit b = 0)

end Verif.Ed448
