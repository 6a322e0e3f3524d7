import Verif.Curve.Ladder
import Verif.Fp448.Spec
import Verif.Bytes

/-!
# What X448 computes (RFC 7748, sections 4.2 and 5)
-/

namespace Verif.X448

open Verif.Fp448

/-- The coefficient `A = 156326` of Curve448, `y² = x³ + 156326x² + x` over
GF(2⁴⁴⁸ - 2²²⁴ - 1). -/
def curveA : Fp := 156326

/-- RFC 7748 `decodeScalar448`: clear the two low bits, set bit 447. -/
def scalar (k : List Byte) : ℕ := 2 ^ 447 + 4 * (leNat k / 4 % 2 ^ 445)

/-- RFC 7748 `decodeUCoordinate`: non-canonical values are reduced. -/
def coord (u : List Byte) : Fp := ((leNat u : ℕ) : Fp)

/-- RFC 7748 `encodeUCoordinate`: the 56 bytes of the canonical representative. -/
def encode (x : Fp) : List Byte := leBytes 56 (canon x)

/-- `v` is the x-coordinate of `scalar k` times any point whose x-coordinate is `coord u`. -/
def IsProduct (k u : List Byte) (v : Fp) : Prop := Mont.XMul curveA (scalar k) (coord u) v

/-- The X448 function as a relation between the inputs and a 56-byte result. -/
def IsX448 (k u r : List Byte) : Prop := ∃ v : Fp, IsProduct k u v ∧ r = encode v

end Verif.X448
