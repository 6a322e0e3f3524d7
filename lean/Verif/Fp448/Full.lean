import Verif.Fp448.Asm
import Verif.Fp25519.Full

/-!
# Fp448, full radix: the operations behind `Fp448._1w_full`

Model of the C functions of src/eltfp448_1w_fullradix.c on top of the transcribed assembly.
Functions that write through a pointer return the new value.
-/

namespace Verif.Fp448

open Fp25519 (Isa)

set_option linter.unusedVariables false

/-- The seven words of a 56-byte buffer, `(uint64_t *) buffer`. -/
def F7.ofBytes (b : List Byte) : F7 :=
  ⟨loadWord b 0, loadWord b 1, loadWord b 2, loadWord b 3, loadWord b 4, loadWord b 5, loadWord b 6⟩

/-- The 56 bytes of an element, `(uint8_t *) a`. -/
def F7.toBytes (a : F7) : List Byte :=
  wordBytes a.w0 ++ wordBytes a.w1 ++ wordBytes a.w2 ++ wordBytes a.w3 ++ wordBytes a.w4 ++
    wordBytes a.w5 ++ wordBytes a.w6

namespace Full

/-- src/eltfp448_1w_fullradix.c:38-46 `prime`. -/
def prime : F7 :=
  ⟨0xffffffffffffffff#64, 0xffffffffffffffff#64, 0xffffffffffffffff#64, 0xfffffffeffffffff#64,
    0xffffffffffffffff#64, 0xffffffffffffffff#64, 0xffffffffffffffff#64⟩

/-- src/eltfp448_1w_fullradix.c:52-60 `zero`. -/
def zero : F7 := ⟨0#64, 0#64, 0#64, 0#64, 0#64, 0#64, 0#64⟩

/-- src/eltfp448_1w_fullradix.c:62-115 `sub`. -/
def sub (a b : F7) : F7 := Asm.sub7 a b

/-- src/eltfp448_1w_fullradix.c:117-151 `cmv` (test; cmovnz word by word). -/
def cmv (bit : BitVec 32) (a b : F7) : F7 :=
  let nz := bit != 0#32
  cmov nz a.w0 b.w0 fun c0 =>
  cmov nz a.w1 b.w1 fun c1 =>
  cmov nz a.w2 b.w2 fun c2 =>
  cmov nz a.w3 b.w3 fun c3 =>
  cmov nz a.w4 b.w4 fun c4 =>
  cmov nz a.w5 b.w5 fun c5 =>
  cmov nz a.w6 b.w6 fun c6 =>
  ⟨c0, c1, c2, c3, c4, c5, c6⟩

/-- src/eltfp448_1w_fullradix.c:153-157 `modp`. -/
def modp (c : F7) : F7 := sub c prime

/-- src/eltfp448_1w_fullradix.c:159-162 `sgn`: (new value of `c`, result). -/
def sgn (c : F7) : F7 × W := (modp c, (modp c).w0 &&& 1#64)

/-- src/eltfp448_1w_fullradix.c:164-167 `ser`. -/
def ser (c : F7) : List Byte := (modp c).toBytes

/-- src/eltfp448_1w_fullradix.c:169-172 `unser`. -/
def unser (buffer : List Byte) : F7 := modp (F7.ofBytes buffer)

/-- src/eltfp448_1w_fullradix.c:174-178 `cmp`: (new `a`, new `b`, result). -/
def cmp (a b : F7) : F7 × F7 × BitVec 32 :=
  (modp a, modp b, cmp_bytes (modp a).toBytes (modp b).toBytes)

/-- src/eltfp448_1w_fullradix.c:324-334 `intmul`. -/
def intmul (isa : Isa) (a b : F7) : F14 :=
  if isa.bmi2 then (if isa.adx then Asm.intmul_mulxadx a b else Asm.intmul_mulx a b)
  else Asm.intmul_mulq a b

/-- src/eltfp448_1w_fullradix.c:684-694 `intsqr`. -/
def intsqr (isa : Isa) (a : F7) : F14 :=
  if isa.bmi2 then (if isa.adx then Asm.intsqr_mulxadx a else Asm.intsqr_mulx a)
  else Asm.intsqr_mulq a

/-- src/eltfp448_1w_fullradix.c:856-862 `reduce`. -/
def reduce (isa : Isa) (a : F14) : F7 := if isa.adx then Asm.reduce_adx a else Asm.reduce_leg a

/-- src/eltfp448_1w_fullradix.c:1046-1052 `add`. -/
def add (isa : Isa) (a b : F7) : F7 := if isa.adx then Asm.add_adx a b else Asm.add_adc a b

/-- src/eltfp448_1w_fullradix.c:1054-1057 `neg`. -/
def neg (c : F7) : F7 := sub zero c

/-- src/eltfp448_1w_fullradix.c:1059-1063 `mul`. -/
def mul (isa : Isa) (a b : F7) : F7 := reduce isa (intmul isa a b)

/-- src/eltfp448_1w_fullradix.c:1065-1069 `sqr`. -/
def sqr (isa : Isa) (a : F7) : F7 := reduce isa (intsqr isa a)

/-- src/eltfp448_1w_fullradix.c:1071-1078 `sqrn`. -/
def sqrn (isa : Isa) (a : F7) : ℕ → F7
  | 0 => a
  | n + 1 => sqrn isa (sqr isa a) n

/-- src/eltfp448_1w_fullradix.c:1080-1132, `invsqrt` up to the test of `only_inverse`, output
distinct from input. -/
def srt (isa : Isa) (a : F7) : F7 :=
  let t3 := a
  let t1 := t3
  let t1 := sqrn isa t1 1
  let t1 := mul isa t1 t3
  let t0 := t1
  let t0 := sqrn isa t0 1
  let t0 := mul isa t0 t3
  let t1 := t0
  let t1 := sqrn isa t1 3
  let t1 := mul isa t1 t0
  let t2 := t1
  let t2 := sqrn isa t2 6
  let t2 := mul isa t2 t1
  let t1 := t2
  let t1 := sqrn isa t1 12
  let t1 := mul isa t1 t2
  let t1 := sqrn isa t1 3
  let t1 := mul isa t1 t0
  let t2 := t1
  let t2 := sqrn isa t2 27
  let t2 := mul isa t2 t1
  let t1 := t2
  let t1 := sqrn isa t1 54
  let t1 := mul isa t1 t2
  let t1 := sqrn isa t1 3
  let t1 := mul isa t1 t0
  let t2 := t1
  let t2 := sqrn isa t2 111
  let t2 := mul isa t2 t1
  let t1 := t2
  let t1 := sqrn isa t1 1
  let t1 := mul isa t1 t3
  let t1 := sqrn isa t1 223
  let t1 := mul isa t1 t2
  t1

/-- src/eltfp448_1w_fullradix.c:1133-1140, `inv` = `invsqrt` with `only_inverse`, output
distinct from input. -/
def inv (isa : Isa) (a : F7) : F7 :=
  let t1 := srt isa a
  let t1 := sqrn isa t1 2
  mul isa t1 a

/-- The body of `invsqrt` with `only_inverse` when output and input are the same buffer
(`inv(a, a)`): `T[1]` and `T[3]` are one variable. -/
def invAliased (isa : Isa) (a : F7) : F7 :=
  let t1 := a
  let t1 := sqrn isa t1 1
  let t1 := mul isa t1 t1
  let t0 := t1
  let t0 := sqrn isa t0 1
  let t0 := mul isa t0 t1
  let t1 := t0
  let t1 := sqrn isa t1 3
  let t1 := mul isa t1 t0
  let t2 := t1
  let t2 := sqrn isa t2 6
  let t2 := mul isa t2 t1
  let t1 := t2
  let t1 := sqrn isa t1 12
  let t1 := mul isa t1 t2
  let t1 := sqrn isa t1 3
  let t1 := mul isa t1 t0
  let t2 := t1
  let t2 := sqrn isa t2 27
  let t2 := mul isa t2 t1
  let t1 := t2
  let t1 := sqrn isa t1 54
  let t1 := mul isa t1 t2
  let t1 := sqrn isa t1 3
  let t1 := mul isa t1 t0
  let t2 := t1
  let t2 := sqrn isa t2 111
  let t2 := mul isa t2 t1
  let t1 := t2
  let t1 := sqrn isa t1 1
  let t1 := mul isa t1 t1
  let t1 := sqrn isa t1 223
  let t1 := mul isa t1 t2
  let t1 := sqrn isa t1 2
  let t1 := mul isa t1 t1
  t1

/-- src/eltfp448_1w_fullradix.c:1232-1238 `mula24`. -/
def mula24 (isa : Isa) (a : F7) : F7 := if isa.bmi2 then Asm.mula24_mulx a else Asm.mula24_mulq a

/-! ## The paired operations

They receive word pointers and step to the second element with an offset of `SIZE_FP448 = 56`
(the size of an element in *bytes*, include/faz_fp_avx2.h:63) added to a pointer to words.
Buffers are lists of words; an access outside a buffer gives `none`. -/

/-- The element at word offset `i` of a buffer. -/
def load7 (m : List W) (i : ℕ) : Option F7 :=
  if i + 7 ≤ m.length then
    some ⟨m.getD i 0, m.getD (i + 1) 0, m.getD (i + 2) 0, m.getD (i + 3) 0, m.getD (i + 4) 0,
      m.getD (i + 5) 0, m.getD (i + 6) 0⟩
  else none

/-- The double-size element at word offset `i` of a buffer. -/
def load14 (m : List W) (i : ℕ) : Option F14 :=
  if i + 14 ≤ m.length then
    some ⟨m.getD i 0, m.getD (i + 1) 0, m.getD (i + 2) 0, m.getD (i + 3) 0, m.getD (i + 4) 0,
      m.getD (i + 5) 0, m.getD (i + 6) 0, m.getD (i + 7) 0, m.getD (i + 8) 0, m.getD (i + 9) 0,
      m.getD (i + 10) 0, m.getD (i + 11) 0, m.getD (i + 12) 0, m.getD (i + 13) 0⟩
  else none

/-- Writing words at offset `i` of a buffer. -/
def storeAt (m : List W) (i : ℕ) (ws : List W) : Option (List W) :=
  if i + ws.length ≤ m.length then some (m.take i ++ ws ++ m.drop (i + ws.length)) else none

/-- The words of an element, in memory order. -/
def F7.words (a : F7) : List W := [a.w0, a.w1, a.w2, a.w3, a.w4, a.w5, a.w6]

/-- The words of a double-size element, in memory order. -/
def F14.words (a : F14) : List W :=
  [a.w0, a.w1, a.w2, a.w3, a.w4, a.w5, a.w6, a.w7, a.w8, a.w9, a.w10, a.w11, a.w12, a.w13]

/-- include/faz_fp_avx2.h:63 `SIZE_FP448`. -/
def SIZE_FP448 : ℕ := 56

/-- src/eltfp448_1w_fullradix.c:864-889 `intmul2` (three builds, same offsets): the new
contents of `c`.  `c` does not overlap `a` and `b`. -/
def intmul2 (isa : Isa) (c a b : List W) : Option (List W) := do
  let c ← storeAt c 0 (F14.words (intmul isa (← load7 a 0) (← load7 b 0)))
  storeAt c (2 * SIZE_FP448)
    (F14.words (intmul isa (← load7 a SIZE_FP448) (← load7 b SIZE_FP448)))

/-- src/eltfp448_1w_fullradix.c:891-916 `intsqr2` (three builds, same offsets). -/
def intsqr2 (isa : Isa) (c a : List W) : Option (List W) := do
  let c ← storeAt c 0 (F14.words (intsqr isa (← load7 a 0)))
  storeAt c (2 * SIZE_FP448) (F14.words (intsqr isa (← load7 a SIZE_FP448)))

/-- src/eltfp448_1w_fullradix.c:918-934 `reduce2` (two builds, same offsets; the offset of the
result is the larger one). -/
def reduce2 (isa : Isa) (c a : List W) : Option (List W) := do
  let c ← storeAt c 0 (F7.words (reduce isa (← load14 a 0)))
  storeAt c (2 * SIZE_FP448) (F7.words (reduce isa (← load14 a SIZE_FP448)))

end Full

end Verif.Fp448
