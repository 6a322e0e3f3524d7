import Verif.X86.Link25519
import Verif.X86.Link448

/-!
# The full-radix field operations on memory

The C functions of src/eltfp25519_1w_fullradix.c and src/eltfp448_1w_fullradix.c
behind the tables `Fp25519._1w_full` and `Fp448._1w_full`, as functions on memory:
their arguments are pointers, which may be equal or overlap, and the result is the
memory afterwards.  Every block finds anything in registers and flags (`Cpu`).
Local arrays (`buf`, `zero`) are passed as pointers too.
-/

namespace Verif.X86

open Verif.Fp25519 (Isa)

/-- What registers and flags hold when a block is entered, and the unused operand. -/
structure Cpu where
  regs : Reg → W
  cf : Bool
  ovf : Bool
  zf : Bool
  junk : Bool
  arg : W

/-- The pointer operands of a block. -/
def ptrs (c a b : Loc) : Ptr → Loc
  | .p0 => c
  | .p1 => a
  | .p2 => b

/-- Run a block. -/
def call (z : Cpu) (B : Block) (c a b : Loc) (m : Mem) : Mem :=
  run B.code (ptrs c a b) ⟨z.regs, z.cf, z.ovf, z.zf, z.arg, z.junk, m⟩

/-- The same with a value for the operand that is no pointer. -/
def callArg (z : Cpu) (B : Block) (v : W) (c a b : Loc) (m : Mem) : Mem :=
  call { z with arg := v } B c a b m

namespace Fp25519

/-- The element at a pointer. -/
def elt (m : Mem) (p : Loc) : Verif.Fp25519.F4 := w4 (m.get p)

/-- The double-size element at a pointer. -/
def dbl (m : Mem) (p : Loc) : Verif.Fp25519.F8 := w8 (m.get p)

/-- Two elements at a pointer. -/
def elt2 (m : Mem) (p : Loc) : Verif.Fp25519.F4 × Verif.Fp25519.F4 := w44 (m.get p)

/-- Two double-size elements at a pointer. -/
def dbl2 (m : Mem) (p : Loc) : Verif.Fp25519.F8 × Verif.Fp25519.F8 := w88 (m.get p)

/-- src/eltfp25519_1w_fullradix.c:996-1006 `intmul`. -/
def intmul (isa : Isa) (z : Cpu) (c a b : Loc) (m : Mem) : Mem :=
  call z (if isa.bmi2 then (if isa.adx then intmul_mulxadx else intmul_mulx) else intmul_mulq) c a b m

/-- src/eltfp25519_1w_fullradix.c:1154-1164 `intsqr`. -/
def intsqr (isa : Isa) (z : Cpu) (c a : Loc) (m : Mem) : Mem :=
  call z (if isa.bmi2 then (if isa.adx then intsqr_mulxadx else intsqr_mulx) else intsqr_mulq) c a c m

/-- src/eltfp25519_1w_fullradix.c:1246-1256 `reduce`. -/
def reduce (isa : Isa) (z : Cpu) (c a : Loc) (m : Mem) : Mem :=
  call z (if isa.bmi2 then (if isa.adx then reduce_mulxadx else reduce_mulx) else reduce_mulq) c a c m

/-- src/eltfp25519_1w_fullradix.c:322-332 `intmul2`. -/
def intmul2 (isa : Isa) (z : Cpu) (c a b : Loc) (m : Mem) : Mem :=
  call z (if isa.bmi2 then (if isa.adx then intmul2_mulxadx else intmul2_mulx) else intmul2_mulq) c a b m

/-- src/eltfp25519_1w_fullradix.c:603-613 `intsqr2`. -/
def intsqr2 (isa : Isa) (z : Cpu) (c a : Loc) (m : Mem) : Mem :=
  call z (if isa.bmi2 then (if isa.adx then intsqr2_mulxadx else intsqr2_mulx) else intsqr2_mulq) c a c m

/-- src/eltfp25519_1w_fullradix.c:751-761 `reduce2`. -/
def reduce2 (isa : Isa) (z : Cpu) (c a : Loc) (m : Mem) : Mem :=
  call z (if isa.bmi2 then (if isa.adx then reduce2_mulxadx else reduce2_mulx) else reduce2_mulq) c a c m

/-- src/eltfp25519_1w_fullradix.c:1303-1309 `add`. -/
def add (isa : Isa) (z : Cpu) (c a b : Loc) (m : Mem) : Mem :=
  call z (if isa.adx then add_adx else add_adc) c a b m

/-- src/eltfp25519_1w_fullradix.c:1311-1331 `sub`. -/
def subM (z : Cpu) (c a b : Loc) (m : Mem) : Mem := call z sub c a b m

/-- src/eltfp25519_1w_fullradix.c:1333-1355 `cmv`. -/
def cmvM (z : Cpu) (bit : BitVec 32) (c a b : Loc) (m : Mem) : Mem :=
  callArg z cmv (bit.setWidth 64) c a b m

/-- src/eltfp25519_1w_fullradix.c:1357-1360 `neg`; `zero` is the local element. -/
def neg (z : Cpu) (zero c : Loc) (m : Mem) : Mem := subM z c zero c (m.put zero [0, 0, 0, 0])

/-- src/eltfp25519_1w_fullradix.c:1362-1366 `mul`; `buf` is the local `buffer_1w`. -/
def mul (isa : Isa) (z z' : Cpu) (buf c a b : Loc) (m : Mem) : Mem :=
  reduce isa z' c buf (intmul isa z buf a b m)

/-- src/eltfp25519_1w_fullradix.c:1368-1372 `sqr`; `buf` is the local `buffer_1w`. -/
def sqr (isa : Isa) (z z' : Cpu) (buf a : Loc) (m : Mem) : Mem :=
  reduce isa z' a buf (intsqr isa z buf a m)

/-- src/eltfp25519_1w_fullradix.c:1572-1578 `mula24`. -/
def mula24 (isa : Isa) (z : Cpu) (c a : Loc) (m : Mem) : Mem :=
  callArg z (if isa.bmi2 then mula24_mulx else mula24_mulq) 121666#64 c a c m

/-- src/eltfp25519_1w_fullradix.c:767-772 `copy`: four assignments. -/
def copy (c a : Loc) (m : Mem) : Mem :=
  let m := m.set c 0 (m.get a 0)
  let m := m.set c 1 (m.get a 1)
  let m := m.set c 2 (m.get a 2)
  m.set c 3 (m.get a 3)

/-- src/ladder255.c:95-117 `select_cmov_x64`. -/
def selectM (z : Cpu) (bit : W) (x y : Loc) (m : Mem) : Mem :=
  callArg z select_cmov_x64 bit x y x m

end Fp25519

namespace Fp448

/-- The element at a pointer. -/
def elt (m : Mem) (p : Loc) : Verif.Fp448.F7 := w7 (m.get p)

/-- The double-size element at a pointer. -/
def dbl (m : Mem) (p : Loc) : Verif.Fp448.F14 := w14 (m.get p)

/-- src/eltfp448_1w_fullradix.c:324-334 `intmul`. -/
def intmul (isa : Isa) (z : Cpu) (c a b : Loc) (m : Mem) : Mem :=
  call z (if isa.bmi2 then (if isa.adx then intmul_mulxadx else intmul_mulx) else intmul_mulq) c a b m

/-- src/eltfp448_1w_fullradix.c:684-694 `intsqr`. -/
def intsqr (isa : Isa) (z : Cpu) (c a : Loc) (m : Mem) : Mem :=
  call z (if isa.bmi2 then (if isa.adx then intsqr_mulxadx else intsqr_mulx) else intsqr_mulq) c a c m

/-- src/eltfp448_1w_fullradix.c:856-862 `reduce`. -/
def reduce (isa : Isa) (z : Cpu) (c a : Loc) (m : Mem) : Mem :=
  call z (if isa.adx then reduce_adx else reduce_leg) c a c m

/-- src/eltfp448_1w_fullradix.c:1046-1052 `add`. -/
def add (isa : Isa) (z : Cpu) (c a b : Loc) (m : Mem) : Mem :=
  call z (if isa.adx then add_adx else add_adc) c a b m

/-- src/eltfp448_1w_fullradix.c:62-115 `sub`. -/
def subM (z : Cpu) (c a b : Loc) (m : Mem) : Mem := call z sub c a b m

/-- src/eltfp448_1w_fullradix.c:117-151 `cmv`. -/
def cmvM (z : Cpu) (bit : BitVec 32) (c a b : Loc) (m : Mem) : Mem :=
  callArg z cmv (bit.setWidth 64) c a b m

/-- src/eltfp448_1w_fullradix.c:1054-1057 `neg`; `zero` is the local element. -/
def neg (z : Cpu) (zero c : Loc) (m : Mem) : Mem :=
  subM z c zero c (m.put zero [0, 0, 0, 0, 0, 0, 0])

/-- src/eltfp448_1w_fullradix.c:1059-1063 `mul`; `buf` is the local buffer. -/
def mul (isa : Isa) (z z' : Cpu) (buf c a b : Loc) (m : Mem) : Mem :=
  reduce isa z' c buf (intmul isa z buf a b m)

/-- src/eltfp448_1w_fullradix.c:1065-1069 `sqr`; `buf` is the local buffer. -/
def sqr (isa : Isa) (z z' : Cpu) (buf a : Loc) (m : Mem) : Mem :=
  reduce isa z' a buf (intsqr isa z buf a m)

/-- src/eltfp448_1w_fullradix.c:1232-1238 `mula24`. -/
def mula24 (isa : Isa) (z : Cpu) (c a : Loc) (m : Mem) : Mem :=
  callArg z (if isa.bmi2 then mula24_mulx else mula24_mulq) 39082#64 c a c m

end Fp448

end Verif.X86
