import Verif.X448.Avx2
import Verif.Ed448.Mult

/-!
# X448 key generation: `X448.keygen`

Model of `x448_keygen_avx2` of src/ladder448.c.
-/

namespace Verif.X448

open Verif.Fp448 Verif.Ed448

/-- src/ladder448.c:294-304 (in `point_Edwards2Montgomery_ed448`): everything up to the final `ser`,
the field element `X`. -/
def montElt (P : P2w) : Elt8 U :=
  let (X, Y) := R2.deinter P.XY
  let inv_X := R1.inv X
  let X := R1.mul Y inv_X
  R1.sqr X

/-- src/ladder448.c:294-314 `point_Edwards2Montgomery_ed448`. -/
def point_Edwards2Montgomery (P : P2w) : List Byte := R1.ser (montElt P)

/-- src/ladder448.c:322-338 `x448_keygen_avx2`; the result is the contents of `session_key`.
`u13` and `u14` are words that `div4` leaves uninitialised.  The returned status is always 0; the
wiping of the scalar is not modelled. -/
def keygen (u13 u14 : W) (secret_key : List Byte) : List Byte :=
  let scalar := clamp secret_key
  let kB := fixed_point_multiplication u13 u14 scalar
  point_Edwards2Montgomery kB

end Verif.X448
