import Verif.Vec.Ladder
import Verif.X25519.Avx2
import Verif.X448.Avx2
import Verif.Vec.Spec
import Verif.Caller

/-!
# `X25519.shared` and `X448.shared` of the vector implementation on memory

The functions `x25519_shared_avx2` and `x448_shared_avx2` statement by statement: the bytes of the
caller, addressed by numbers, which the three pointers may address in any way, and the local
objects of the function, whose contents before the call are arbitrary.  The calls of `inter`,
`step_ladder_*`, `deinter` and (X448) `mul` are runs of their programs on the local objects, with
arbitrary contents of the registers.  Simplification: `unser`, `ser`, `inv` and, for X25519, the
full-radix `mul` are replaced by their value-level models, which read a local object and write a
local object or the bytes of the caller. -/

namespace Verif.Vec

/-- The bytes of the caller and the local objects of the function. -/
structure World where
  caller : ℕ → Byte
  loc : Mem

/-- A cell of 32 bytes as four words. -/
def toF4 (v : V) : Fp25519.F4 := ⟨v.q0, v.q1, v.q2, v.q3⟩

/-- Four words as a cell. -/
def ofF4 (a : Fp25519.F4) : V := ⟨a.w0, a.w1, a.w2, a.w3⟩

/-- The 56 bytes in the first seven words of two cells. -/
def toF7 (v w : V) : Fp448.F7 := ⟨v.q0, v.q1, v.q2, v.q3, w.q0, w.q1, w.q2⟩

/-- 56 bytes written over two cells of the object `o`; the last word keeps its value. -/
def put7 (m : Mem) (o : ℕ) (a : Fp448.F7) : Mem :=
  Mem.set (m.set o 0 ⟨a.w0, a.w1, a.w2, a.w3⟩) o 1 ⟨a.w4, a.w5, a.w6, (m o 1).q3⟩

/-- An element of `EltFp25519_1w_redradix` written over the object `o`; the padding keeps its
value. -/
def putE1 (m : Mem) (o : ℕ) (e : Fp25519.Elt5 U) : Mem :=
  Mem.set (Mem.set (m.set o 0 ⟨e.c0.l, e.c0.h, e.c1.l, e.c1.h⟩)
    o 1 ⟨e.c2.l, e.c2.h, e.c3.l, e.c3.h⟩) o 2 ⟨e.c4.l, e.c4.h, (m o 2).q2, (m o 2).q3⟩

/-- An element of `EltFp448_1w_redradix` written over the object `o`. -/
def putG1 (m : Mem) (o : ℕ) (e : Fp448.Elt8 U) : Mem :=
  Mem.set (Mem.set (Mem.set (m.set o 0 ⟨e.c0.l, e.c0.h, e.c1.l, e.c1.h⟩)
    o 1 ⟨e.c2.l, e.c2.h, e.c3.l, e.c3.h⟩) o 2 ⟨e.c4.l, e.c4.h, e.c5.l, e.c5.h⟩)
    o 3 ⟨e.c6.l, e.c6.h, e.c7.l, e.c7.h⟩

/-- The first `n` cells of the object `o` set to zero (an initialiser `= {ZERO}`). -/
def zeros (m : Mem) (o n : ℕ) : Mem := fun o' c => if o' = o ∧ c < n then LIT 0 else m o' c

/-- src/ladder255.c:249-299 `x25519_shared_avx2`.  Local objects: 0 `secret`, 1 `session`,
2 `QxPx`, 3 `QzPz`, 4 `X1`, 5 `XX`, 6 `ZZ`, 7 `X`, 8 `Z`, 9 `invZ`, 10 the arrays of
`step_ladder_x25519`. -/
def shared25519 (isa : Fp25519.Isa) (ρ : ℕ → Regs) (shared_secret session_key secret_key : ℕ) (w : World) :
    World :=
  let m := w.loc
  let m := zeros m 2 5
  let m := zeros m 3 5
  let m := m.set 0 0 (ofF4 (Fp25519.F4.ofBytes (bytesAt w.caller secret_key 32)))
  let m := m.set 0 0 (ofF4 (Fp25519.F4.ofBytes (X25519.clamp (toF4 (m 0 0)).toBytes)))
  let m := m.set 1 0 (ofF4 (Fp25519.F4.ofBytes (bytesAt w.caller session_key 32)))
  let m := m.set 1 0 (ofF4 (Fp25519.F4.ofBytes (X25519.maskTop (toF4 (m 1 0)).toBytes)))
  let m := putE1 m 4 (Fp25519.R1.unser (toF4 (m 1 0)).toBytes)
  let m := m.set 3 0 (SET64 0 1 0 0)
  let m := F25519.V2.inter.call [(2, 0), (4, 0), (4, 0)] m (ρ 0)
  let m := L25519.ladder.call [(0, 0), (2, 0), (3, 0), (10, 0)] m (ρ 1)
  let m := m.set 0 0 (LIT 0)
  let m := F25519.V2.deinter.call [(5, 0), (4, 0), (2, 0)] m (ρ 2)
  let m := F25519.V2.deinter.call [(6, 0), (4, 0), (3, 0)] m (ρ 3)
  let m := m.set 7 0 (ofF4 (Fp25519.F4.ofBytes (Fp25519.R1.ser (e1.at m (5, 0)))))
  let m := m.set 8 0 (ofF4 (Fp25519.F4.ofBytes (Fp25519.R1.ser (e1.at m (6, 0)))))
  let m := m.set 9 0 (ofF4 (Fp25519.Full.inv isa (toF4 (m 8 0))))
  let m := m.set 7 0 (ofF4 (Fp25519.Full.mul isa (toF4 (m 7 0)) (toF4 (m 9 0))))
  ⟨storeAt w.caller shared_secret (Fp25519.Full.ser (toF4 (m 7 0))), m⟩

/-- src/ladder448.c:254-292 `x448_shared_avx2`.  Local objects: 0 `secret`, 1 `session`, 2 `QxPx`,
3 `QzPz`, 4 `X1`, 5 `X`, 6 `Z`, 7 `invZ`, 8 the arrays of `step_ladder_x448`. -/
def shared448 (ρ : ℕ → Regs) (shared_secret session_key secret_key : ℕ) (w : World) : World :=
  let m := w.loc
  let m := zeros m 3 8
  let m := zeros m 2 8
  let m := put7 m 0 (Fp448.F7.ofBytes (bytesAt w.caller secret_key 56))
  let m := put7 m 0 (Fp448.F7.ofBytes (X448.clamp (toF7 (m 0 0) (m 0 1)).toBytes))
  let m := put7 m 1 (Fp448.F7.ofBytes (bytesAt w.caller session_key 56))
  let m := putG1 m 4 (Fp448.R1.unser (toF7 (m 1 0) (m 1 1)).toBytes)
  let m := m.set 3 0 (SET64 0 1 0 0)
  let m := F448.V2.inter.call [(2, 0), (4, 0), (4, 0)] m (ρ 0)
  let m := L448.ladder.call [(0, 0), (2, 0), (3, 0), (8, 0)] m (ρ 1)
  let m := put7 m 0 ⟨0, 0, 0, 0, 0, 0, 0⟩
  let m := F448.V2.deinter.call [(5, 0), (4, 0), (2, 0)] m (ρ 2)
  let m := F448.V2.deinter.call [(6, 0), (4, 0), (3, 0)] m (ρ 3)
  let m := putG1 m 7 (Fp448.R1.inv (g1.at m (6, 0)))
  let m := F448.V1.mul.call [(5, 0), (5, 0), (7, 0)] m (ρ 4)
  ⟨storeAt w.caller shared_secret (Fp448.R1.ser (g1.at m (5, 0))), m⟩

end Verif.Vec
