import Verif.Curve.Ladder
import Verif.Fp25519.Prime
import Verif.Bytes

/-!
# What X25519 computes (RFC 7748, sections 4.1 and 5)
-/

namespace Verif.X25519

open Verif.Fp25519

/-- The coefficient `A = 486662` of Curve25519, `y² = x³ + 486662x² + x` over GF(2²⁵⁵ - 19). -/
def curveA : Fp := 486662

/-- RFC 7748 `decodeScalar25519`: clear the three low bits and the top bit, set bit 254. -/
def scalar (k : List Byte) : ℕ := 2 ^ 254 + 8 * (leNat k / 8 % 2 ^ 251)

/-- RFC 7748 `decodeUCoordinate`: the top bit is ignored, non-canonical values are reduced. -/
def coord (u : List Byte) : Fp := ((leNat u % 2 ^ 255 : ℕ) : Fp)

/-- RFC 7748 `encodeUCoordinate`: the 32 bytes of the canonical representative. -/
def encode (x : Fp) : List Byte := leBytes 32 (canon x)

/-- The X25519 function as a relation between the inputs and a 32-byte result: `r` encodes the
x-coordinate of `scalar k` times any point whose x-coordinate is `coord u`. -/
def IsX25519 (k u r : List Byte) : Prop :=
  ∃ v : Fp, Mont.XMul curveA (scalar k) (coord u) v ∧ r = encode v

end Verif.X25519
