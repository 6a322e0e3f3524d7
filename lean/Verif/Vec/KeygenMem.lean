import Verif.Vec.MultMem
import Verif.Vec.SharedMem
import Verif.X25519.Keygen
import Verif.X448.Keygen

/-!
# `X25519.keygen` and `X448.keygen` on memory

The functions `x25519_keygen_avx2` and `x448_keygen_avx2` statement by statement, on the bytes of
the caller and the local objects of the function and of the functions it calls, as in
Vec/SharedMem.lean.  Simplification: `ser`, `inv`, the full-radix `mul` and `div4` are replaced by
their value-level models. -/

namespace Verif.Vec

/-- src/ladder255.c:337-360 `x25519_keygen_avx2`, with 301-323 `point_Edwards2Montgomery_ed25519`.
Local objects: 0 `kB`, 1 `scalar`, 2 the arrays of `_1way_doubling_2w_H0H5`, 3 `add`, 4 `sub`,
5 `inv_sub`, 6 `t0`, 7 `t1`, 8 `t2`, 9 `addZY`, 10 `subZY`, and from 11 on those of the
multiplication. -/
def keygen25519 (isa : Fp25519.Isa) (ρ : ℕ → Regs) (session_key secret_key : ℕ) (w : World) :
    World :=
  let m := w.loc
  let m := m.set 1 0 (ofF4 (Fp25519.F4.ofBytes (bytesAt w.caller secret_key 32)))
  let m := m.set 1 0 (ofF4 (Fp25519.F4.ofBytes (X25519.clamp (toF4 (m 1 0)).toBytes)))
  let m := m.set 1 0 (ofF4 (X25519.div_8_256 (toF4 (m 1 0))))
  let m := mult25519 (fun n => ρ (n + 9)) 11 (0, 0) (toF4 (m 1 0)).toBytes m
  let m := m.set 1 0 (LIT 0)
  let m := P25519.doubling_2w.call [(0, 0), (2, 0)] m (ρ 0)
  let m := P25519.doubling_2w.call [(0, 0), (2, 0)] m (ρ 1)
  let m := P25519.doubling_2w.call [(0, 0), (2, 0)] m (ρ 2)
  let m := F25519.V2.add.call [(9, 0), (0, 5), (0, 0)] m (ρ 3)
  let m := F25519.V2.sub.call [(10, 0), (0, 5), (0, 0)] m (ρ 4)
  let m := F25519.V2.compress.call [(9, 0)] m (ρ 5)
  let m := F25519.V2.compress.call [(10, 0)] m (ρ 6)
  let m := F25519.V2.deinter.call [(8, 0), (6, 0), (9, 0)] m (ρ 7)
  let m := F25519.V2.deinter.call [(8, 0), (7, 0), (10, 0)] m (ρ 8)
  let m := m.set 3 0 (ofF4 (Fp25519.F4.ofBytes (Fp25519.R1.ser (e1.at m (6, 0)))))
  let m := m.set 4 0 (ofF4 (Fp25519.F4.ofBytes (Fp25519.R1.ser (e1.at m (7, 0)))))
  let m := m.set 5 0 (ofF4 (Fp25519.Full.inv isa (toF4 (m 4 0))))
  let m := m.set 3 0 (ofF4 (Fp25519.Full.mul isa (toF4 (m 3 0)) (toF4 (m 5 0))))
  ⟨storeAt w.caller session_key (Fp25519.Full.ser (toF4 (m 3 0))), m⟩

/-- The 57 bytes in the object `o`. -/
def get57 (m : Mem) (o : ℕ) : List Byte :=
  (toF7 (m o 0) (m o 1)).toBytes ++ [(m o 1).q3.setWidth 8]

/-- 57 bytes written over two cells of the object `o`; the other bytes keep their value. -/
def put57 (m : Mem) (o : ℕ) (l : List Byte) : Mem :=
  let m := put7 m o (Fp448.F7.ofBytes (l.take 56))
  m.set o 1 { m o 1 with
    q3 := (m o 1).q3 &&& 0xffffffffffffff00#64 ||| (l.getD 56 0).setWidth 64 }

/-- src/ladder448.c:322-338 `x448_keygen_avx2`, with 294-314 `point_Edwards2Montgomery_ed448` and
src/edwards448.c:757-761 `fixed_point_multiplication_ed448`; `u13` and `u14` are words that `div4`
leaves uninitialised.  Local objects: 0 `kB`, 1 `scalar`, 2 `r_div_4`, 3 `X`, 4 `Y`, 5 `inv_X`, and
from 6 on those of the multiplication. -/
def keygen448 (u13 u14 : W) (ρ : ℕ → Regs) (session_key secret_key : ℕ) (w : World) : World :=
  let m := w.loc
  let m := put7 m 1 (Fp448.F7.ofBytes (bytesAt w.caller secret_key 56))
  let m := put7 m 1 (Fp448.F7.ofBytes (X448.clamp (toF7 (m 1 0) (m 1 1)).toBytes))
  let m := put57 m 2 (Ed448.div4 u13 u14 (toF7 (m 1 0) (m 1 1)).toBytes)
  let m := mult448 (fun n => ρ (n + 3)) 6 (0, 0) (get57 m 2) m
  let m := put7 m 1 ⟨0, 0, 0, 0, 0, 0, 0⟩
  let m := F448.V2.deinter.call [(3, 0), (4, 0), (0, 0)] m (ρ 0)
  let m := putG1 m 5 (Fp448.R1.inv (g1.at m (3, 0)))
  let m := F448.V1.mul.call [(3, 0), (4, 0), (5, 0)] m (ρ 1)
  let m := F448.V1.sqr.call [(3, 0)] m (ρ 2)
  ⟨storeAt w.caller session_key (Fp448.R1.ser (g1.at m (3, 0))), m⟩

end Verif.Vec
