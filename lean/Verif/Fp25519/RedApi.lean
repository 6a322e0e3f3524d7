import Verif.Fp25519.Red

/-!
# Reduced-radix Fp25519: the rest of the interface

Conversions between the layouts and byte strings, comparison, selection, inversion and
square roots, as wired in the table `Fp25519` (src/fp255.c:36-166). -/

namespace Verif.Fp25519

set_option linter.unusedVariables false

/-- `SET64(x3,x2,x1,x0)` with constants (simd_avx2.h:95). -/
def LIT4 {β : Type} [Lane β] (x3 x2 x1 x0 : ℕ) : Vec4 β := ⟨LIT x0, LIT x1, LIT x2, LIT x3⟩

/-! ## One-way -/

namespace R1

/-- src/eltfp25519_1w_redradix.c:823-834 `prime`. -/
def prime : Elt5 U :=
  ⟨⟨0x3ffffed#64, 0x1ffffff#64⟩, ⟨0x1ffffff#64, 0x3ffffff#64⟩, ⟨0x3ffffff#64, 0x1ffffff#64⟩,
    ⟨0x1ffffff#64, 0x3ffffff#64⟩, ⟨0x3ffffff#64, 0x1ffffff#64⟩⟩

/-- src/eltfp25519_1w_redradix.c:836-840 `zero`. -/
def zero : Elt5 U := ⟨LIT 0, LIT 0, LIT 0, LIT 0, LIT 0⟩

/-- 2p in limbs, as in src/eltfp25519_1w_redradix.c:477-501 `sub`. -/
def twoP {α : Type} [Simd α] : Elt5 α :=
  ⟨LIT2 0x7ffffda 0x3fffffe, LIT2 0x3fffffe 0x7fffffe, LIT2 0x7fffffe 0x3fffffe,
    LIT2 0x3fffffe 0x7fffffe, LIT2 0x7fffffe 0x3fffffe⟩

/-- src/eltfp25519_1w_redradix.c:459-475 `add`. -/
def add {α : Type} [Simd α] (a b : Elt5 α) : Elt5 α := a.zip ADD b

/-- src/eltfp25519_1w_redradix.c:477-501 `sub`. -/
def sub {α : Type} [Simd α] (a b : Elt5 α) : Elt5 α := a.zip ADD (twoP.zip SUB b)

/-- src/eltfp25519_1w_redradix.c:503-518 `addsub`: (a, b) becomes (a+b, a-b). -/
def addsub {α : Type} [Simd α] (a b : Elt5 α) : Elt5 α × Elt5 α :=
  (a.zip ADD b, a.zip ADD (twoP.zip SUB b))

/-- src/eltfp25519_1w_redradix.c:520-536 `neg`. -/
def neg {α : Type} [Simd α] (c : Elt5 α) : Elt5 α := twoP.zip SUB c

/-- src/eltfp25519_1w_redradix.c:842-858 `naddsub`: (C, D) = (-a-b, -a+b). -/
def naddsub {α : Type} [Simd α] (a b : Elt5 α) : Elt5 α × Elt5 α :=
  let T := twoP.zip SUB a
  (T.zip SUB b, T.zip ADD b)

/-- src/eltfp25519_1w_redradix.c:538-645 `intmul_sb`.  `pa` and `pb` are the two padding
words after each operand, which `LOAD(a+2)` and `LOAD(b+2)` also read. -/
def intmulPad {β : Type} [Lane β] (a b : Elt5 (Vec2 β)) (pa pb : Vec2 β) : Elt5 (Vec2 β) :=
  let k_19_1 : Vec4 β := LIT4 1 19 1 19
  let k_1_19_1_1 : Vec4 β := LIT4 1 19 1 1
  let B0 := Vec4.join b.c0 b.c1
  let B1 := Vec4.join b.c2 b.c3
  let B2 := Vec4.join b.c4 pb
  let b0 := PERM64 B0 0x14
  let b1 := PERM64 B0 0xBE
  let b2 := PERM64 B1 0x14
  let b3 := PERM64 B1 0xBE
  let b4 := PERM64 B2 0x14
  let b0 := MUL b0 k_1_19_1_1
  let b1 := MUL b1 k_1_19_1_1
  let b2 := MUL b2 k_1_19_1_1
  let b3 := MUL b3 k_1_19_1_1
  let b4 := MUL b4 k_1_19_1_1
  let ai := PERM64 (Vec4.join a.c0 a.c1) 0x50
  let aH := ADD ai ai
  let aL := BLEND32 ai aH 0x30
  let aH := BLEND32 ai aH 0xC0
  let c0 := MUL b0 aL
  let c1 := MUL b1 aH
  let c2 := MUL b2 aL
  let c3 := MUL b3 aH
  let c4 := MUL b4 aL
  let ai := PERM64 (Vec4.join a.c0 a.c1) 0xFA
  let aH := ADD ai ai
  let aL := BLEND32 ai aH 0x03
  let aH := BLEND32 ai aH 0x0C
  let d4 := SHUF4E b4
  let d4 := MUL d4 k_19_1
  let c0 := ADD c0 (MUL d4 aL)
  let c1 := ADD c1 (MUL b0 aH)
  let c2 := ADD c2 (MUL b1 aL)
  let c3 := ADD c3 (MUL b2 aH)
  let c4 := ADD c4 (MUL b3 aL)
  let ai := PERM64 (Vec4.join a.c2 a.c3) 0x50
  let aH := ADD ai ai
  let aL := BLEND32 ai aH 0x30
  let aH := BLEND32 ai aH 0xC0
  let d3 := SHUF4E b3
  let d3 := MUL d3 k_19_1
  let c0 := ADD c0 (MUL d3 aL)
  let c1 := ADD c1 (MUL d4 aH)
  let c2 := ADD c2 (MUL b0 aL)
  let c3 := ADD c3 (MUL b1 aH)
  let c4 := ADD c4 (MUL b2 aL)
  let ai := PERM64 (Vec4.join a.c2 a.c3) 0xFA
  let aH := ADD ai ai
  let aL := BLEND32 ai aH 0x03
  let aH := BLEND32 ai aH 0x0C
  let d2 := SHUF4E b2
  let d2 := MUL d2 k_19_1
  let c0 := ADD c0 (MUL d2 aL)
  let c1 := ADD c1 (MUL d3 aH)
  let c2 := ADD c2 (MUL d4 aL)
  let c3 := ADD c3 (MUL b0 aH)
  let c4 := ADD c4 (MUL b1 aL)
  let ai := PERM64 (Vec4.join a.c4 pa) 0x50
  let aH := ADD ai ai
  let aL := BLEND32 ai aH 0x30
  let aH := BLEND32 ai aH 0xC0
  let d1 := SHUF4E b1
  let d1 := MUL d1 k_19_1
  let c0 := ADD c0 (MUL d1 aL)
  let c1 := ADD c1 (MUL d2 aH)
  let c2 := ADD c2 (MUL d3 aL)
  let c3 := ADD c3 (MUL d4 aH)
  let c4 := ADD c4 (MUL b0 aL)
  let p0 := ADD c0.hi c0.lo
  let p1 := ADD c1.hi c1.lo
  let p2 := ADD c2.hi c2.lo
  let p3 := ADD c3.hi c3.lo
  let p4 := ADD c4.hi c4.lo
  ⟨p0, p1, p2, p3, p4⟩

/-- src/eltfp25519_1w_redradix.c:647-649 `intmul`; the padding does not matter
(`intmulPad_eq`). -/
def intmul {β : Type} [Lane β] (a b : Elt5 (Vec2 β)) : Elt5 (Vec2 β) :=
  intmulPad a b ⟨LIT 0, LIT 0⟩ ⟨LIT 0, LIT 0⟩

/-- src/eltfp25519_1w_redradix.c:651-654 `mul`. -/
def mul {β : Type} [Lane β] (a b : Elt5 (Vec2 β)) : Elt5 (Vec2 β) := compress (intmul a b)

/-- src/eltfp25519_1w_redradix.c:656-658 `sqr`. -/
def sqr {α : Type} [Simd α] (c : Elt5 α) : Elt5 α := sqrn c 1

/-- src/eltfp25519_1w_redradix.c:281-325 `unser`, from the four words of the buffer reduced
modulo p. -/
def unserWords (pA : F4) : Elt5 U :=
  let vmask0 : U := ⟨(1#64 <<< 26) - 1#64, (1#64 <<< 25) - 1#64⟩
  let vmask1 : U := ⟨(1#64 <<< 25) - 1#64, (1#64 <<< 26) - 1#64⟩
  let xA : U := ⟨pA.w0, pA.w1⟩
  let xF : U := ⟨pA.w2, pA.w3⟩
  let xC := SHR (SHR8N128 xA ((26 + 25) / 8)) ((26 + 25) % 8)
  let xH := SHR (SHR8N128 xF ((26 + 25) / 8)) ((26 + 25) % 8)
  let xE := SHR (SHR8N128 xA ((2 * (26 + 25)) / 8)) ((2 * (26 + 25)) % 8)
  let xJ := SHR (SHR8N128 xF ((2 * (26 + 25)) / 8)) ((2 * (26 + 25)) % 8)
  let xB := SHR xA 26
  let xG := SHR xF 25
  let xD := SHR xC 26
  let xI := SHR xH 25
  let z0 := UPKL64128 xA xF
  let z1 := UPKL64128 xB xG
  let z2 := UPKL64128 xC xH
  let z3 := UPKL64128 xD xI
  let z4 := UPKL64128 xE xJ
  ⟨AND z0 vmask0, AND z1 vmask1, AND z2 vmask0, AND z3 vmask1, AND z4 vmask0⟩

/-- src/eltfp25519_1w_redradix.c:281-325 `unser`. -/
def unser (p8A : List Byte) : Elt5 U := unserWords (Full.modp (F4.ofBytes p8A))

/-- The assembly block of src/eltfp25519_1w_redradix.c:327-424 `ser`. -/
def serWords (a : Elt5 U) : F4 :=
  xor0 fun r8 _ _ =>
  xor0 fun r9 _ _ =>
  xor0 fun r10 _ _ =>
  xor0 fun r11 _ _ =>
  xor0 fun r12 _ _ =>
  mov a.c0.l fun rax =>
  xor0 fun rcx _ _ =>
  Verif.add r8 rax fun r8 cf =>
  adc r9 rcx cf fun r9 cf =>
  adc r10 0#64 cf fun r10 cf =>
  mov a.c1.l fun rax =>
  xor0 fun rcx _ _ =>
  shld 26 rax rcx fun rcx =>
  shl 26 rax fun rax =>
  Verif.add r8 rax fun r8 cf =>
  adc r9 rcx cf fun r9 cf =>
  adc r10 0#64 cf fun r10 cf =>
  mov a.c2.l fun rax =>
  xor0 fun rcx _ _ =>
  shld 51 rax rcx fun rcx =>
  shl 51 rax fun rax =>
  Verif.add r8 rax fun r8 cf =>
  adc r9 rcx cf fun r9 cf =>
  adc r10 0#64 cf fun r10 cf =>
  mov a.c3.l fun rax =>
  xor0 fun rcx _ _ =>
  shld 13 rax rcx fun rcx =>
  shl 13 rax fun rax =>
  Verif.add r9 rax fun r9 cf =>
  adc r10 rcx cf fun r10 cf =>
  adc r11 0#64 cf fun r11 cf =>
  mov a.c4.l fun rax =>
  xor0 fun rcx _ _ =>
  shld 38 rax rcx fun rcx =>
  shl 38 rax fun rax =>
  Verif.add r9 rax fun r9 cf =>
  adc r10 rcx cf fun r10 cf =>
  adc r11 0#64 cf fun r11 cf =>
  mov a.c0.h fun rax =>
  xor0 fun rcx _ _ =>
  Verif.add r10 rax fun r10 cf =>
  adc r11 rcx cf fun r11 cf =>
  adc r12 0#64 cf fun r12 cf =>
  mov a.c1.h fun rax =>
  xor0 fun rcx _ _ =>
  shld 25 rax rcx fun rcx =>
  shl 25 rax fun rax =>
  Verif.add r10 rax fun r10 cf =>
  adc r11 rcx cf fun r11 cf =>
  adc r12 0#64 cf fun r12 cf =>
  mov a.c2.h fun rax =>
  xor0 fun rcx _ _ =>
  shld 51 rax rcx fun rcx =>
  shl 51 rax fun rax =>
  Verif.add r10 rax fun r10 cf =>
  adc r11 rcx cf fun r11 cf =>
  adc r12 0#64 cf fun r12 cf =>
  mov a.c3.h fun rax =>
  xor0 fun rcx _ _ =>
  shld 12 rax rcx fun rcx =>
  shl 12 rax fun rax =>
  Verif.add r11 rax fun r11 cf =>
  adc r12 rcx cf fun r12 cf =>
  mov a.c4.h fun rax =>
  xor0 fun rcx _ _ =>
  shld 38 rax rcx fun rcx =>
  shl 38 rax fun rax =>
  Verif.add r11 rax fun r11 cf =>
  adc r12 rcx cf fun r12 cf =>
  imul r12 38#64 fun rax _ _ =>
  xor0 fun rcx _ _ =>
  Verif.add r8 rax fun r8 cf =>
  adc r9 rcx cf fun r9 cf =>
  ⟨r8, r9, r10, r11⟩

/-- src/eltfp25519_1w_redradix.c:327-424 `ser`. -/
def ser (a : Elt5 U) : List Byte := Full.ser (serWords a)

/-- src/eltfp25519_1w_redradix.c:426-430 `sgn`. -/
def sgn (a : Elt5 U) : BitVec 32 := ((ser a).headD 0#8 &&& 0x1#8).setWidth 32

/-- src/eltfp25519_1w_redradix.c:432-438 `cmp`. -/
def cmp (a b : Elt5 U) : BitVec 32 := cmp_bytes (ser a) (ser b) &&& 0x1#32

/-- src/eltfp25519_1w_redradix.c:440-457 `cmv`; the three 256-bit blends act on each 64-bit
lane by itself. -/
def cmv (bit : BitVec 32) (a b : Elt5 U) : Elt5 U :=
  let mask : W := -(bit.signExtend 64)
  a.zip (fun x y => ⟨blendvW x.l y.l mask, blendvW x.h y.h mask⟩) b

/-- src/eltfp25519_1w_redradix.c:666-717 `inv`, output distinct from input. -/
def inv (a : Elt5 U) : Elt5 U :=
  let t4 := a
  let t1 := t4
  let t1 := sqrn t1 1
  let t2 := t1
  let t2 := sqrn t2 2
  let t0 := intmul t4 t2
  let t0 := compress t0
  let t1 := intmul t1 t0
  let t1 := compress t1
  let t2 := t1
  let t2 := sqrn t2 1
  let t0 := intmul t0 t2
  let t0 := compress t0
  let t2 := t0
  let t2 := sqrn t2 5
  let t0 := intmul t0 t2
  let t0 := compress t0
  let t2 := t0
  let t2 := sqrn t2 10
  let t2 := intmul t2 t0
  let t2 := compress t2
  let t3 := t2
  let t3 := sqrn t3 20
  let t3 := intmul t3 t2
  let t3 := compress t3
  let t3 := sqrn t3 10
  let t3 := intmul t3 t0
  let t3 := compress t3
  let t0 := t3
  let t0 := sqrn t0 50
  let t0 := intmul t0 t3
  let t0 := compress t0
  let t2 := t0
  let t2 := sqrn t2 100
  let t2 := intmul t2 t0
  let t2 := compress t2
  let t2 := sqrn t2 50
  let t2 := intmul t2 t3
  let t2 := compress t2
  let t2 := sqrn t2 5
  let t1 := intmul t1 t2
  let t1 := compress t1
  t1

/-- The same function when output and input are one element (`inv(a, a)`): `T[1]` and `T[4]`
are one variable. -/
def invAliased (a : Elt5 U) : Elt5 U :=
  let t1 := a
  let t1 := sqrn t1 1
  let t2 := t1
  let t2 := sqrn t2 2
  let t0 := intmul t1 t2
  let t0 := compress t0
  let t1 := intmul t1 t0
  let t1 := compress t1
  let t2 := t1
  let t2 := sqrn t2 1
  let t0 := intmul t0 t2
  let t0 := compress t0
  let t2 := t0
  let t2 := sqrn t2 5
  let t0 := intmul t0 t2
  let t0 := compress t0
  let t2 := t0
  let t2 := sqrn t2 10
  let t2 := intmul t2 t0
  let t2 := compress t2
  let t3 := t2
  let t3 := sqrn t3 20
  let t3 := intmul t3 t2
  let t3 := compress t3
  let t3 := sqrn t3 10
  let t3 := intmul t3 t0
  let t3 := compress t3
  let t0 := t3
  let t0 := sqrn t0 50
  let t0 := intmul t0 t3
  let t0 := compress t0
  let t2 := t0
  let t2 := sqrn t2 100
  let t2 := intmul t2 t0
  let t2 := compress t2
  let t2 := sqrn t2 50
  let t2 := intmul t2 t3
  let t2 := compress t2
  let t2 := sqrn t2 5
  let t1 := intmul t1 t2
  let t1 := compress t1
  t1

/-- The constant `sqrt_minus_one` in src/eltfp25519_1w_redradix.c:719-801 `invsqrt`. -/
def sqrt_minus_one : Elt5 U :=
  ⟨⟨0x20ea0b0#64, 0x1fbd7a7#64⟩, ⟨0x186c9d2#64, 0x2804c9e#64⟩, ⟨0x08f189d#64, 0x1e16569#64⟩,
    ⟨0x035697f#64, 0x004fc1d#64⟩, ⟨0x0bd0c60#64, 0x0ae0c92#64⟩⟩

/-- src/eltfp25519_1w_redradix.c:719-801 `invsqrt` up to the final check: (uv3, uv7^((p-5)/8)). -/
def invsqrtPow (u v : Elt5 U) : Elt5 U × Elt5 U :=
  let uv := mul u v
  let v2 := v
  let v2 := sqr v2
  let uv3 := mul uv v2
  let v2 := sqr v2
  let uv7 := mul uv3 v2
  let t3 := uv7
  let t0 := uv7
  let t0 := sqr t0
  let t1 := t0
  let t1 := sqrn t1 2
  let t1 := mul t1 t3
  let t0 := mul t0 t1
  let t0 := sqrn t0 1
  let t0 := mul t0 t1
  let t1 := t0
  let t1 := sqrn t1 5
  let t1 := mul t1 t0
  let t2 := t1
  let t2 := sqrn t2 5
  let t2 := mul t2 t0
  let t1 := t2
  let t1 := sqrn t1 15
  let t1 := mul t1 t2
  let t2 := t1
  let t2 := sqrn t2 10
  let t2 := sqrn t2 20
  let t2 := mul t2 t1
  let t1 := t2
  let t1 := sqrn t1 10
  let t1 := sqrn t1 50
  let t1 := mul t1 t2
  let t1 := sqrn t1 5
  let t1 := mul t1 t0
  let t2 := t1
  let t2 := sqrn t2 100
  let t2 := sqrn t2 20
  let t2 := sqrn t2 5
  let t2 := mul t2 t1
  let t2 := sqrn t2 2
  let t2 := mul t2 t3
  (uv3, t2)

/-- src/eltfp25519_1w_redradix.c:719-801 `invsqrt` on distinct buffers: (value left in
`uv_p38`, value left in `u`). -/
def invsqrt (u v : Elt5 U) : Elt5 U × Elt5 U :=
  let s := invsqrtPow u v
  let uv3 := s.1
  let sqrt := s.2
  let uv_p38 := mul sqrt uv3
  let uv3 := uv_p38
  let uv3 := sqr uv3
  let uv := mul uv3 v
  let u := neg u
  let uv_p38 := if cmp uv u = 0#32 then mul uv_p38 sqrt_minus_one else uv_p38
  (uv_p38, u)

/-- src/eltfp25519_1w_redradix.c:803-805 `srt`: `invsqrt(c, c, a)`, the output and the
numerator being one buffer. -/
def srt (c a : Elt5 U) : Elt5 U :=
  let s := invsqrtPow c a
  let uv3 := s.1
  let sqrt := s.2
  let c := mul sqrt uv3
  let uv3 := c
  let uv3 := sqr uv3
  let uv := mul uv3 a
  let c := neg c
  if cmp uv c = 0#32 then mul c sqrt_minus_one else c

end R1

/-! ## Two-way -/

namespace R2

/-- src/eltfp25519_2w_redradix.c:44-57 `inter`, with the padding words of the operands. -/
def interPad {β : Type} (a0 a1 : Elt5 (Vec2 β)) (pa pb : Vec2 β) : Elt5 (Vec4 β) :=
  let A0 := Vec4.join a0.c0 a0.c1
  let A4 := Vec4.join a0.c2 a0.c3
  let A8 := Vec4.join a0.c4 pa
  let B0 := Vec4.join a1.c0 a1.c1
  let B4 := Vec4.join a1.c2 a1.c3
  let B8 := Vec4.join a1.c4 pb
  ⟨PERM128 A0 B0 0x20, PERM128 A0 B0 0x31, PERM128 A4 B4 0x20, PERM128 A4 B4 0x31,
    PERM128 A8 B8 0x20⟩

/-- src/eltfp25519_2w_redradix.c:44-57 `inter`; the padding does not matter (`interPad_eq`). -/
def inter (a0 a1 : Elt5 U) : Elt5 V := interPad a0 a1 ⟨0#64, 0#64⟩ ⟨0#64, 0#64⟩

/-- src/eltfp25519_2w_redradix.c:65-72 `deinter`: the limbs of (a0, a1). -/
def deinter {β : Type} (a : Elt5 (Vec4 β)) : Elt5 (Vec2 β) × Elt5 (Vec2 β) :=
  let x0 := PERM128 a.c0 a.c1 0x20
  let y0 := PERM128 a.c0 a.c1 0x31
  let x1 := PERM128 a.c2 a.c3 0x20
  let y1 := PERM128 a.c2 a.c3 0x31
  (⟨x0.lo, x0.hi, x1.lo, x1.hi, a.c4.lo⟩, ⟨y0.lo, y0.hi, y1.lo, y1.hi, a.c4.hi⟩)

/-- src/eltfp25519_2w_redradix.c:74-81 `cmv`. -/
def cmv (bit : V) (a b : Elt5 V) : Elt5 V :=
  let ONE := SET64 0 1 0 1
  let mask := SHUF44 (SUB (LIT 0) (AND bit ONE))
  a.zip (fun x y => BLENDV x y mask) b

/-- src/eltfp25519_2w_redradix.c:104-110 `CONST_2P_00_H0H5`. -/
def twoP_00 : Elt5 V :=
  ⟨⟨0x7ffffda#64, 0x3fffffe#64, 0#64, 0#64⟩, ⟨0x3fffffe#64, 0x7fffffe#64, 0#64, 0#64⟩,
    ⟨0x7fffffe#64, 0x3fffffe#64, 0#64, 0#64⟩, ⟨0x3fffffe#64, 0x7fffffe#64, 0#64, 0#64⟩,
    ⟨0x7fffffe#64, 0x3fffffe#64, 0#64, 0#64⟩⟩

/-- src/eltfp25519_2w_redradix.c:142-158 `subadd`; `permutation` other than 0 or 1 leaves
both summands zero. -/
def subadd (a : Elt5 V) (permutation : BitVec 32) : Elt5 V :=
  let mask_subadd := SET64 0 0 (-1) (-1)
  twoP_00.zip (fun p x =>
    let PA := PERM64 x 0x4E
    let M : V := if permutation = 0#32 then x else if permutation = 1#32 then PA else LIT 0
    let N : V := if permutation = 0#32 then PA else if permutation = 1#32 then x else LIT 0
    ADD (ADD M p) (SUB (XOR N mask_subadd) mask_subadd)) a

/-- src/eltfp25519_2w_redradix.c:168-175 `ngz`. -/
def ngz (a : Elt5 V) : Elt5 V :=
  let mask_subadd := SET64 0 0 (-1) (-1)
  twoP_00.zip (fun p x => ADD p (SUB (XOR x mask_subadd) mask_subadd)) a

/-- src/eltfp25519_2w_redradix.c:670-677 `sgn`. -/
def sgn (a : Elt5 V) : V :=
  let d := deinter a
  SET64 0 ((R1.sgn d.2).signExtend 64) 0 ((R1.sgn d.1).signExtend 64)

/-- src/eltfp25519_2w_redradix.c:679-687 `cmp`. -/
def cmp (a b : Elt5 V) : V :=
  let d := deinter a
  let e := deinter b
  SET64 0 ((R1.cmp d.2 e.2).signExtend 64) 0 ((R1.cmp d.1 e.1).signExtend 64)

/-- src/eltfp25519_2w_redradix.c:693-698 `unser`. -/
def unser (buf : List Byte) : Elt5 V := inter (R1.unser (buf.take 32)) (R1.unser (buf.drop 32))

/-- src/eltfp25519_2w_redradix.c:700-705 `ser`. -/
def ser (a : Elt5 V) : List Byte :=
  let d := deinter a
  R1.ser d.1 ++ R1.ser d.2

end R2

/-! ## Four-way -/

namespace R4

/-- src/eltfp25519_4w_redradix.c:58-106 `zip`, with the padding words of the operands. -/
def zipPad {β : Type} (a b c d : Elt5 (Vec2 β)) (pa pb pc pd : Vec2 β) : Elt10 (Vec4 β) :=
  let A0 := Vec4.join a.c0 a.c1
  let B0 := Vec4.join b.c0 b.c1
  let C0 := Vec4.join c.c0 c.c1
  let D0 := Vec4.join d.c0 d.c1
  let AC0 := PERM128 A0 C0 0x20
  let BD0 := PERM128 B0 D0 0x20
  let AC2 := PERM128 A0 C0 0x31
  let BD2 := PERM128 B0 D0 0x31
  let A4 := Vec4.join a.c2 a.c3
  let B4 := Vec4.join b.c2 b.c3
  let C4 := Vec4.join c.c2 c.c3
  let D4 := Vec4.join d.c2 d.c3
  let AC4 := PERM128 A4 C4 0x20
  let BD4 := PERM128 B4 D4 0x20
  let AC6 := PERM128 A4 C4 0x31
  let BD6 := PERM128 B4 D4 0x31
  let A8 := Vec4.join a.c4 pa
  let B8 := Vec4.join b.c4 pb
  let C8 := Vec4.join c.c4 pc
  let D8 := Vec4.join d.c4 pd
  let AC8 := PERM128 A8 C8 0x20
  let BD8 := PERM128 B8 D8 0x20
  { r0 := UPKL64 AC0 BD0, r5 := UPKH64 AC0 BD0, r1 := UPKL64 AC2 BD2, r6 := UPKH64 AC2 BD2,
    r2 := UPKL64 AC4 BD4, r7 := UPKH64 AC4 BD4, r3 := UPKL64 AC6 BD6, r8 := UPKH64 AC6 BD6,
    r4 := UPKL64 AC8 BD8, r9 := UPKH64 AC8 BD8 }

/-- src/eltfp25519_4w_redradix.c:58-106 `zip`; the padding does not matter (`zipPad_eq`). -/
def zip (a b c d : Elt5 U) : Elt10 V :=
  zipPad a b c d ⟨0#64, 0#64⟩ ⟨0#64, 0#64⟩ ⟨0#64, 0#64⟩ ⟨0#64, 0#64⟩

/-- src/eltfp25519_4w_redradix.c:108-147 `unzip`: the limbs of (pA, pB, pC, pD). -/
def unzip {β : Type} (a : Elt10 (Vec4 β)) :
    Elt5 (Vec2 β) × Elt5 (Vec2 β) × Elt5 (Vec2 β) × Elt5 (Vec2 β) :=
  let A02 := PERM128 a.r0 a.r1 0x20
  let A13 := PERM128 a.r5 a.r6 0x20
  let C02 := PERM128 a.r0 a.r1 0x31
  let C13 := PERM128 a.r5 a.r6 0x31
  let A0 := UPKL64 A02 A13
  let B0 := UPKH64 A02 A13
  let C0 := UPKL64 C02 C13
  let D0 := UPKH64 C02 C13
  let A46 := PERM128 a.r2 a.r3 0x20
  let A57 := PERM128 a.r7 a.r8 0x20
  let C46 := PERM128 a.r2 a.r3 0x31
  let C57 := PERM128 a.r7 a.r8 0x31
  let A4 := UPKL64 A46 A57
  let B4 := UPKH64 A46 A57
  let C4 := UPKL64 C46 C57
  let D4 := UPKH64 C46 C57
  let AC8 := UPKL64 a.r4 a.r9
  let BD8 := UPKH64 a.r4 a.r9
  (⟨A0.lo, A0.hi, A4.lo, A4.hi, AC8.lo⟩, ⟨B0.lo, B0.hi, B4.lo, B4.hi, BD8.lo⟩,
    ⟨C0.lo, C0.hi, C4.lo, C4.hi, AC8.hi⟩, ⟨D0.lo, D0.hi, D4.lo, D4.hi, BD8.hi⟩)

/-- The table in src/eltfp25519_4w_redradix.c:220-242 `ngz`: 2p in the third element only. -/
def twoP_third : Elt10 V :=
  ⟨⟨0#64, 0#64, 0x7ffffda#64, 0#64⟩, ⟨0#64, 0#64, 0x3fffffe#64, 0#64⟩,
    ⟨0#64, 0#64, 0x7fffffe#64, 0#64⟩, ⟨0#64, 0#64, 0x3fffffe#64, 0#64⟩,
    ⟨0#64, 0#64, 0x7fffffe#64, 0#64⟩, ⟨0#64, 0#64, 0x3fffffe#64, 0#64⟩,
    ⟨0#64, 0#64, 0x7fffffe#64, 0#64⟩, ⟨0#64, 0#64, 0x3fffffe#64, 0#64⟩,
    ⟨0#64, 0#64, 0x7fffffe#64, 0#64⟩, ⟨0#64, 0#64, 0x3fffffe#64, 0#64⟩⟩

/-- src/eltfp25519_4w_redradix.c:220-242 `ngz`. -/
def ngz (a : Elt10 V) : Elt10 V :=
  let mask_subadd := SET64 0 (-1) 0 0
  twoP_third.zip (fun p x =>
    let YXZT := SHUF4E x
    let XY_TZ := ADD p (SUB (XOR x mask_subadd) mask_subadd)
    BLEND32 YXZT XY_TZ 0xF0) a

/-- What `Fp25519._4w_red.arith.neg` does: src/fp255.c:136-166 wires it to the two-way `neg`,
which acts on the first five vectors of the element as if they were a two-way element. -/
def api_neg (a : Elt10 V) : Elt10 V :=
  let c := R2.neg ⟨a.r0, a.r5, a.r1, a.r6, a.r2⟩
  { a with r0 := c.c0, r5 := c.c1, r1 := c.c2, r6 := c.c3, r2 := c.c4 }

/-- src/eltfp25519_4w_redradix.c:776-787 `cmp`. -/
def cmp (a b : Elt10 V) : V :=
  let d := unzip a
  let e := unzip b
  SET64 ((R1.cmp d.2.2.2 e.2.2.2).signExtend 64) ((R1.cmp d.2.2.1 e.2.2.1).signExtend 64)
    ((R1.cmp d.2.1 e.2.1).signExtend 64) ((R1.cmp d.1 e.1).signExtend 64)

/-- src/eltfp25519_4w_redradix.c:789-796 `unser`. -/
def unser (buf : List Byte) : Elt10 V :=
  zip (R1.unser (buf.take 32)) (R1.unser ((buf.drop 32).take 32))
    (R1.unser ((buf.drop 64).take 32)) (R1.unser ((buf.drop 96).take 32))

/-- src/eltfp25519_4w_redradix.c:798-805 `ser`. -/
def ser (a : Elt10 V) : List Byte :=
  let d := unzip a
  R1.ser d.1 ++ R1.ser d.2.1 ++ R1.ser d.2.2.1 ++ R1.ser d.2.2.2

/-- The constant `sqrt_minus_one` in src/eltfp25519_4w_redradix.c:807-889 `invsqrt`. -/
def sqrt_minus_one {α : Type} [Lane α] : Elt10 α :=
  { r0 := LIT 0x20ea0b0, r5 := LIT 0x1fbd7a7, r1 := LIT 0x186c9d2, r6 := LIT 0x2804c9e,
    r2 := LIT 0x08f189d, r7 := LIT 0x1e16569, r3 := LIT 0x035697f, r8 := LIT 0x004fc1d,
    r4 := LIT 0x0bd0c60, r9 := LIT 0x0ae0c92 }

/-- src/eltfp25519_4w_redradix.c:807-889 `invsqrt` up to the final step: (uv3, uv7^((p-5)/8)). -/
def invsqrtPow {α : Type} [Lane α] (u v : Elt10 α) : Elt10 α × Elt10 α :=
  let uv := mul u v
  let v2 := v
  let v2 := sqr v2
  let uv3 := mul uv v2
  let v2 := sqr v2
  let uv7 := mul uv3 v2
  let t3 := uv7
  let t0 := uv7
  let t0 := sqr t0
  let t1 := t0
  let t1 := sqrn t1 2
  let t1 := mul t1 t3
  let t0 := mul t0 t1
  let t0 := sqrn t0 1
  let t0 := mul t0 t1
  let t1 := t0
  let t1 := sqrn t1 5
  let t1 := mul t1 t0
  let t2 := t1
  let t2 := sqrn t2 5
  let t2 := mul t2 t0
  let t1 := t2
  let t1 := sqrn t1 15
  let t1 := mul t1 t2
  let t2 := t1
  let t2 := sqrn t2 10
  let t2 := sqrn t2 20
  let t2 := mul t2 t1
  let t1 := t2
  let t1 := sqrn t1 10
  let t1 := sqrn t1 50
  let t1 := mul t1 t2
  let t1 := sqrn t1 5
  let t1 := mul t1 t0
  let t2 := t1
  let t2 := sqrn t2 100
  let t2 := sqrn t2 20
  let t2 := sqrn t2 5
  let t2 := mul t2 t1
  let t2 := sqrn t2 2
  let t2 := mul t2 t3
  (uv3, t2)

/-- src/eltfp25519_4w_redradix.c:807-889 `invsqrt` on distinct buffers: (value left in `uv_p38`,
value left in `u`).  The comparison is commented out in the source. -/
def invsqrt {α : Type} [Lane α] (u v : Elt10 α) : Elt10 α × Elt10 α :=
  let s := invsqrtPow u v
  let uv3 := s.1
  let sqrt := s.2
  let uv_p38 := mul sqrt uv3
  let uv3 := uv_p38
  let uv3 := sqr uv3
  let uv := mul uv3 v
  let u := neg u
  (mul uv_p38 sqrt_minus_one, u)

end R4

end Verif.Fp25519
