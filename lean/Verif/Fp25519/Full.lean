import Verif.Fp25519.Asm
import Verif.Bytes

/-!
# Fp25519, full radix: the operations behind `Fp25519._1w_full`

Model of the C functions of src/eltfp25519_1w_fullradix.c on top of the
transcribed assembly.  Functions that write through a pointer return the new
value.
-/

namespace Verif.Fp25519

set_option linter.unusedVariables false

/-- The instruction-set macros the source is compiled under
(`__BMI2__`, `__ADX__`). -/
structure Isa where
  bmi2 : Bool
  adx : Bool
deriving DecidableEq

/-- The four words of a 32-byte buffer, `(uint64_t *) buffer`. -/
def F4.ofBytes (b : List Byte) : F4 := ⟨loadWord b 0, loadWord b 1, loadWord b 2, loadWord b 3⟩

/-- The 32 bytes of an element, `(uint8_t *) a`. -/
def F4.toBytes (a : F4) : List Byte :=
  wordBytes a.w0 ++ wordBytes a.w1 ++ wordBytes a.w2 ++ wordBytes a.w3

namespace Full

/-- src/eltfp25519_1w_fullradix.c:774-779 `prime`. -/
def prime : F4 :=
  ⟨0xffffffffffffffed#64, 0xffffffffffffffff#64, 0xffffffffffffffff#64, 0x7fffffffffffffff#64⟩

/-- src/eltfp25519_1w_fullradix.c:785-790 `zero`. -/
def zero : F4 := ⟨0#64, 0#64, 0#64, 0#64⟩

/-- src/eltfp25519_1w_fullradix.c:792-822 `modp`; `c0..c3` are operands %0..%3,
`t4`, `t5` the temporaries %4, %5. -/
def modp (c : F4) : F4 :=
  mov c.w0 fun c0 => mov c.w1 fun c1 => mov c.w2 fun c2 => mov c.w3 fun c3 =>
  mov 19#64 fun t5 =>
  mov 38#64 fun t4 =>
  btr63 c3 fun c3 cf =>
  cmov (!cf) t4 t5 fun t4 =>
  add c0 t4 fun c0 cf =>
  adc c1 0#64 cf fun c1 cf =>
  adc c2 0#64 cf fun c2 cf =>
  adc c3 0#64 cf fun c3 cf =>
  let sf := c3.msb
  mov 0#64 fun t4 =>
  cmov (!sf) t4 t5 fun t4 =>
  btr63 c3 fun c3 cf =>
  sub c0 t4 fun c0 cf =>
  sbb c1 0#64 cf fun c1 cf =>
  sbb c2 0#64 cf fun c2 cf =>
  sbb c3 0#64 cf fun c3 cf =>
  ⟨c0, c1, c2, c3⟩

/-- src/eltfp25519_1w_fullradix.c:824-827 `ser`. -/
def ser (c : F4) : List Byte := (modp c).toBytes

/-- src/eltfp25519_1w_fullradix.c:829-832 `unser`. -/
def unser (buffer : List Byte) : F4 := modp (F4.ofBytes buffer)

/-- src/eltfp25519_1w_fullradix.c:834-837 `sgn`: (new value of `c`, result). -/
def sgn (c : F4) : F4 × W := (modp c, (modp c).w0 &&& 1#64)

/-- src/eltfp25519_1w_fullradix.c:839-843 `cmp`: (new `a`, new `b`, result). -/
def cmp (a b : F4) : F4 × F4 × BitVec 32 :=
  (modp a, modp b, cmp_bytes (modp a).toBytes (modp b).toBytes)

/-- src/eltfp25519_1w_fullradix.c:996-1006 `intmul`. -/
def intmul (isa : Isa) (a b : F4) : F8 :=
  if isa.bmi2 then (if isa.adx then Asm.intmul_mulxadx a b else Asm.intmul_mulx a b)
  else Asm.intmul_mulq a b

/-- src/eltfp25519_1w_fullradix.c:1154-1164 `intsqr`. -/
def intsqr (isa : Isa) (a : F4) : F8 :=
  if isa.bmi2 then (if isa.adx then Asm.intsqr_mulxadx a else Asm.intsqr_mulx a)
  else Asm.intsqr_mulq a

/-- src/eltfp25519_1w_fullradix.c:1246-1256 `reduce`. -/
def reduce (isa : Isa) (a : F8) : F4 :=
  if isa.bmi2 then (if isa.adx then Asm.reduce_mulxadx a else Asm.reduce_mulx a)
  else Asm.reduce_mulq a

/-- src/eltfp25519_1w_fullradix.c:322-332 `intmul2`. -/
def intmul2 (isa : Isa) (a b : F4 × F4) : F8 × F8 :=
  if isa.bmi2 then (if isa.adx then Asm.intmul2_mulxadx a b else Asm.intmul2_mulx a b)
  else Asm.intmul2_mulq a b

/-- src/eltfp25519_1w_fullradix.c:603-613 `intsqr2`. -/
def intsqr2 (isa : Isa) (a : F4 × F4) : F8 × F8 :=
  if isa.bmi2 then (if isa.adx then Asm.intsqr2_mulxadx a else Asm.intsqr2_mulx a)
  else Asm.intsqr2_mulq a

/-- src/eltfp25519_1w_fullradix.c:751-761 `reduce2`. -/
def reduce2 (isa : Isa) (a : F8 × F8) : F4 × F4 :=
  if isa.bmi2 then (if isa.adx then Asm.reduce2_mulxadx a else Asm.reduce2_mulx a)
  else Asm.reduce2_mulq a

/-- src/eltfp25519_1w_fullradix.c:1303-1309 `add`. -/
def add (isa : Isa) (a b : F4) : F4 := if isa.adx then Asm.add_adx a b else Asm.add_adc a b

/-- src/eltfp25519_1w_fullradix.c:1311-1331 `sub`. -/
def sub (a b : F4) : F4 := Asm.sub4 a b

/-- src/eltfp25519_1w_fullradix.c:1333-1355 `cmv` (test; cmovnz word by word). -/
def cmv (bit : BitVec 32) (a b : F4) : F4 :=
  let nz := bit != 0#32
  cmov nz a.w0 b.w0 fun c0 =>
  cmov nz a.w1 b.w1 fun c1 =>
  cmov nz a.w2 b.w2 fun c2 =>
  cmov nz a.w3 b.w3 fun c3 =>
  ⟨c0, c1, c2, c3⟩

/-- src/eltfp25519_1w_fullradix.c:1357-1360 `neg`. -/
def neg (c : F4) : F4 := sub zero c

/-- src/eltfp25519_1w_fullradix.c:1362-1366 `mul`. -/
def mul (isa : Isa) (a b : F4) : F4 := reduce isa (intmul isa a b)

/-- src/eltfp25519_1w_fullradix.c:1368-1372 `sqr`. -/
def sqr (isa : Isa) (a : F4) : F4 := reduce isa (intsqr isa a)

/-- src/eltfp25519_1w_fullradix.c:1374-1378 `sqrn_Fp255_1w_fullradix`. -/
def sqrn (isa : Isa) (a : F4) : ℕ → F4
  | 0 => a
  | n + 1 => sqrn isa (sqr isa a) n

/-- src/eltfp25519_1w_fullradix.c:1380-1421 `inv`, output distinct from input. -/
def inv (isa : Isa) (a : F4) : F4 :=
  let t4 := a
  let t1 := t4
  let t1 := sqrn isa t1 1
  let t2 := t1
  let t2 := sqrn isa t2 2
  let t0 := mul isa t4 t2
  let t1 := mul isa t1 t0
  let t2 := t1
  let t2 := sqrn isa t2 1
  let t0 := mul isa t0 t2
  let t2 := t0
  let t2 := sqrn isa t2 5
  let t0 := mul isa t0 t2
  let t2 := t0
  let t2 := sqrn isa t2 10
  let t2 := mul isa t2 t0
  let t3 := t2
  let t3 := sqrn isa t3 20
  let t3 := mul isa t3 t2
  let t3 := sqrn isa t3 10
  let t3 := mul isa t3 t0
  let t0 := t3
  let t0 := sqrn isa t0 50
  let t0 := mul isa t0 t3
  let t2 := t0
  let t2 := sqrn isa t2 100
  let t2 := mul isa t2 t0
  let t2 := sqrn isa t2 50
  let t2 := mul isa t2 t3
  let t2 := sqrn isa t2 5
  let t1 := mul isa t1 t2
  t1

/-- The body of `inv` when output and input are the same buffer (`inv(a, a)`): `T[1]` and
`T[4]` are one variable. -/
def invAliased (isa : Isa) (a : F4) : F4 :=
  let t1 := a
  let t1 := sqrn isa t1 1
  let t2 := t1
  let t2 := sqrn isa t2 2
  let t0 := mul isa t1 t2
  let t1 := mul isa t1 t0
  let t2 := t1
  let t2 := sqrn isa t2 1
  let t0 := mul isa t0 t2
  let t2 := t0
  let t2 := sqrn isa t2 5
  let t0 := mul isa t0 t2
  let t2 := t0
  let t2 := sqrn isa t2 10
  let t2 := mul isa t2 t0
  let t3 := t2
  let t3 := sqrn isa t3 20
  let t3 := mul isa t3 t2
  let t3 := sqrn isa t3 10
  let t3 := mul isa t3 t0
  let t0 := t3
  let t0 := sqrn isa t0 50
  let t0 := mul isa t0 t3
  let t2 := t0
  let t2 := sqrn isa t2 100
  let t2 := mul isa t2 t0
  let t2 := sqrn isa t2 50
  let t2 := mul isa t2 t3
  let t2 := sqrn isa t2 5
  let t1 := mul isa t1 t2
  t1

/-- src/eltfp25519_1w_fullradix.c:1424-1429, the constant `sqrt_minus_one`. -/
def sqrt_minus_one : F4 :=
  ⟨0xc4ee1b274a0ea0b0#64, 0x2f431806ad2fe478#64, 0x2b4d00993dfbd7a7#64, 0x2b8324804fc1df0b#64⟩

/-- src/eltfp25519_1w_fullradix.c:1436-1496, the part of `invsqrt` up to the final check:
(uv3, uv7^((p-5)/8)) from (u, v). -/
def invsqrtPow (isa : Isa) (u v : F4) : F4 × F4 :=
  let uv := mul isa u v
  let v2 := v
  let v2 := sqr isa v2
  let uv3 := mul isa uv v2
  let v2 := sqr isa v2
  let uv7 := mul isa uv3 v2
  let t3 := uv7
  let t0 := uv7
  let t0 := sqr isa t0
  let t1 := t0
  let t1 := sqrn isa t1 2
  let t1 := mul isa t1 t3
  let t0 := mul isa t0 t1
  let t0 := sqrn isa t0 1
  let t0 := mul isa t0 t1
  let t1 := t0
  let t1 := sqrn isa t1 5
  let t1 := mul isa t1 t0
  let t2 := t1
  let t2 := sqrn isa t2 5
  let t2 := mul isa t2 t0
  let t1 := t2
  let t1 := sqrn isa t1 15
  let t1 := mul isa t1 t2
  let t2 := t1
  let t2 := sqrn isa t2 30
  let t2 := mul isa t2 t1
  let t1 := t2
  let t1 := sqrn isa t1 60
  let t1 := mul isa t1 t2
  let t1 := sqrn isa t1 5
  let t1 := mul isa t1 t0
  let t2 := t1
  let t2 := sqrn isa t2 125
  let t2 := mul isa t2 t1
  let t2 := sqrn isa t2 2
  let t2 := mul isa t2 t3
  (uv3, t2)

/-- src/eltfp25519_1w_fullradix.c:1423-1514 `invsqrt` on three distinct buffers:
(value left in `uv_p38`, value left in `u`). `v` is not changed. There is no status result. -/
def invsqrt (isa : Isa) (u v : F4) : F4 × F4 :=
  let s := invsqrtPow isa u v
  let uv3 := s.1
  let uv7_p58 := s.2
  let uv_p38 := mul isa uv7_p58 uv3
  let uv3 := uv_p38
  let uv3 := sqr isa uv3
  let uv := mul isa uv3 v
  let u := neg u
  let c := cmp uv u
  let uv_p38 := if c.2.2 = 0#32 then mul isa uv_p38 sqrt_minus_one else uv_p38
  (uv_p38, c.2.1)

/-- src/eltfp25519_1w_fullradix.c:1518-1520 `srt`: `srt(c, a) = invsqrt(c, c, a)`: the buffer `c` is
both the output `uv_p38` and the argument `u`, so `neg(u)` and `cmp(uv, u)` act on the output. -/
def srt (isa : Isa) (c a : F4) : F4 :=
  let s := invsqrtPow isa c a
  let uv3 := s.1
  let uv7_p58 := s.2
  let c := mul isa uv7_p58 uv3
  let uv3 := c
  let uv3 := sqr isa uv3
  let uv := mul isa uv3 a
  let c := neg c
  let r := cmp uv c
  let c := r.2.1
  if r.2.2 = 0#32 then mul isa c sqrt_minus_one else c

/-- src/eltfp25519_1w_fullradix.c:1572-1578 `mula24`. -/
def mula24 (isa : Isa) (a : F4) : F4 := if isa.bmi2 then Asm.mula24_mulx a else Asm.mula24_mulq a

end Full

end Verif.Fp25519
