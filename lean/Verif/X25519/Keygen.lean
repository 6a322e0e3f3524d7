import Verif.X25519.X64
import Verif.Ed25519.Mult

/-!
# X25519 key generation: `X25519.keygen`, `X25519_x64.keygen`

Model of `x25519_keygen_avx2` of src/ladder255.c.  Both tables of src/dh255.c:30-50 use it.
-/

namespace Verif.X25519

open Verif.Fp25519 Verif.Ed25519

/-- src/ladder255.c:301-323 `point_Edwards2Montgomery_ed25519`. -/
def point_Edwards2Montgomery (isa : Isa) (P : P2w) : List Byte :=
  let addZY := R2.add P.TZ P.XY
  let subZY := R2.sub P.TZ P.XY
  let addZY := R2.compress addZY
  let subZY := R2.compress subZY
  let t0 := (R2.deinter addZY).2
  let t1 := (R2.deinter subZY).2
  let add := F4.ofBytes (R1.ser t0)
  let sub := F4.ofBytes (R1.ser t1)
  let inv_sub := Full.inv isa sub
  let add := Full.mul isa add inv_sub
  Full.ser add

/-- src/ladder255.c:326-335 `div_8_256`. -/
def div_8_256 (r : F4) : F4 :=
  let bit3 := r.w3 <<< 61
  let bit2 := r.w2 <<< 61
  let bit1 := r.w1 <<< 61
  ⟨(r.w0 >>> 3) ||| bit1, (r.w1 >>> 3) ||| bit2, (r.w2 >>> 3) ||| bit3, r.w3 >>> 3⟩

/-- src/ladder255.c:337-360 `x25519_keygen_avx2`; the result is the contents of `session_key`.
The clamping (347-348) is that of `shared`.  The returned status is always 0; the wiping of the
scalar is not modelled. -/
def keygen (isa : Isa) (secret_key : List Byte) : List Byte :=
  let scalar := clamp secret_key
  let scalar := (div_8_256 (F4.ofBytes scalar)).toBytes
  let kB := point_multiplication scalar
  let kB := doubling_2w kB
  let kB := doubling_2w kB
  let kB := doubling_2w kB
  point_Edwards2Montgomery isa kB

end Verif.X25519
