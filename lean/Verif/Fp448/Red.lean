import Verif.Simd.Unpack
import Verif.Fp448.Full

/-!
# Reduced-radix Fp448

Models of `_1w_redradix`, `_2w_redradix` and `_4w_redradix` (vector instructions).
An element is sixteen limbs r0..r15, limb i having weight 2^(28 i), stored in the order
r0 r8 r1 r9 r2 r10 r3 r11 r4 r12 r5 r13 r6 r14 r7 r15.

* `Elt8 α` is the 1-way and the 2-way layout: vector i holds (r_i, r_{i+8}) in each
  128-bit half.  At `α = U` it is one element (`EltFp448_1w_redradix`), at `α = V` two
  (`EltFp448_2w_redradix`).
* `Elt16 α` is the 4-way layout: each limb is a vector and each of its four lanes
  belongs to a different element.  The fields are named after the limbs; limb i < 8 is
  entry 2i of the C array, limb i + 8 is entry 2i + 1.

The straight-line function bodies are transcribed from the C text statement by
statement, with the C variable names; a Lean `let` shadows as a C assignment does. -/

namespace Verif.Fp448

set_option linter.unusedVariables false

@[ext] structure Elt8 (α : Type) where
  c0 : α
  c1 : α
  c2 : α
  c3 : α
  c4 : α
  c5 : α
  c6 : α
  c7 : α
deriving DecidableEq

@[ext] structure Elt16 (α : Type) where
  r0 : α
  r1 : α
  r2 : α
  r3 : α
  r4 : α
  r5 : α
  r6 : α
  r7 : α
  r8 : α
  r9 : α
  r10 : α
  r11 : α
  r12 : α
  r13 : α
  r14 : α
  r15 : α
deriving DecidableEq

/-- The coefficients of a product of two polynomials of degree 3. -/
structure P7 (α : Type) where
  r0 : α
  r1 : α
  r2 : α
  r3 : α
  r4 : α
  r5 : α
  r6 : α

/-- The coefficients of a product of two polynomials of degree 7. -/
structure P15 (α : Type) where
  h0 : α
  h1 : α
  h2 : α
  h3 : α
  h4 : α
  h5 : α
  h6 : α
  h7 : α
  h8 : α
  h9 : α
  h10 : α
  h11 : α
  h12 : α
  h13 : α
  h14 : α

/-- Applies a function to each vector of an element. -/
def Elt8.map {α β : Type} (f : α → β) (a : Elt8 α) : Elt8 β :=
  ⟨f a.c0, f a.c1, f a.c2, f a.c3, f a.c4, f a.c5, f a.c6, f a.c7⟩

/-- Applies a function to each vector of an element. -/
def Elt16.map {α β : Type} (f : α → β) (a : Elt16 α) : Elt16 β :=
  ⟨f a.r0, f a.r1, f a.r2, f a.r3, f a.r4, f a.r5, f a.r6, f a.r7, f a.r8, f a.r9, f a.r10,
    f a.r11, f a.r12, f a.r13, f a.r14, f a.r15⟩

/-- Combines two elements vector by vector. -/
def Elt8.zip {α β γ : Type} (f : α → β → γ) (a : Elt8 α) (b : Elt8 β) : Elt8 γ :=
  ⟨f a.c0 b.c0, f a.c1 b.c1, f a.c2 b.c2, f a.c3 b.c3, f a.c4 b.c4, f a.c5 b.c5, f a.c6 b.c6,
    f a.c7 b.c7⟩

/-- Combines two elements vector by vector. -/
def Elt16.zip {α β γ : Type} (f : α → β → γ) (a : Elt16 α) (b : Elt16 β) : Elt16 γ :=
  ⟨f a.r0 b.r0, f a.r1 b.r1, f a.r2 b.r2, f a.r3 b.r3, f a.r4 b.r4, f a.r5 b.r5, f a.r6 b.r6,
    f a.r7 b.r7, f a.r8 b.r8, f a.r9 b.r9, f a.r10 b.r10, f a.r11 b.r11, f a.r12 b.r12,
    f a.r13 b.r13, f a.r14 b.r14, f a.r15 b.r15⟩

/-! ## Two-way code

Everything here stays inside the 128-bit halves, hence the class `Simd`. -/

namespace R2

/-- 2p in limbs: src/eltfp448_2w_redradix.c:95-104 `CONST_2P_2P_H0H8`. -/
def twoP {α : Type} [Simd α] : Elt8 α :=
  ⟨LIT2 0x1ffffffe 0x3ffffffc, LIT2 0x1ffffffe 0x1ffffffc, LIT2 0x1ffffffe 0x1ffffffe,
    LIT2 0x1ffffffe 0x1ffffffe, LIT2 0x1ffffffe 0x1ffffffe, LIT2 0x1ffffffe 0x1ffffffe,
    LIT2 0x1ffffffe 0x1ffffffe, LIT2 0x1ffffffe 0x1ffffffe⟩

/-- 2^34 p in limbs: src/eltfp448_2w_redradix.c:106-115 `CONST_2P_2P_LARGE_H0H8`. -/
def twoTo34P {α : Type} [Simd α] : Elt8 α :=
  ⟨LIT2 0x3ffffffc00000000 0x3ffffff800000000, LIT2 0x3ffffffc00000000 0x3ffffffc00000000,
    LIT2 0x3ffffffc00000000 0x3ffffffc00000000, LIT2 0x3ffffffc00000000 0x3ffffffc00000000,
    LIT2 0x3ffffffc00000000 0x3ffffffc00000000, LIT2 0x3ffffffc00000000 0x3ffffffc00000000,
    LIT2 0x3ffffffc00000000 0x3ffffffc00000000, LIT2 0x3ffffffc00000000 0x3ffffffc00000000⟩

/-- src/eltfp448_2w_redradix.c:31-36 `zero`. -/
def zero {α : Type} [Simd α] : Elt8 α :=
  ⟨LIT 0, LIT 0, LIT 0, LIT 0, LIT 0, LIT 0, LIT 0, LIT 0⟩

/-- src/eltfp448_2w_redradix.c:88-93 `add`. -/
def add {α : Type} [Simd α] (a b : Elt8 α) : Elt8 α := a.zip ADD b

/-- src/eltfp448_2w_redradix.c:145-151 `sub`. -/
def sub {α : Type} [Simd α] (a b : Elt8 α) : Elt8 α := a.zip ADD (twoP.zip SUB b)

/-- src/eltfp448_2w_redradix.c:204-214 `addsub`: (a, b) becomes (a+b, a-b). -/
def addsub {α : Type} [Simd α] (a b : Elt8 α) : Elt8 α × Elt8 α :=
  (a.zip ADD b, a.zip ADD (twoP.zip SUB b))

/-- src/eltfp448_2w_redradix.c:695-705 `naddsub`: (C, D) = (-a-b, -a+b). -/
def naddsub {α : Type} [Simd α] (a b : Elt8 α) : Elt8 α × Elt8 α :=
  let T := twoP.zip SUB a
  (T.zip SUB b, T.zip ADD b)

/-- src/eltfp448_2w_redradix.c:225-246 `mul_school_4x4`. -/
def mul_school_4x4 {α : Type} [Lane α] (s0 s1 s2 s3 t0 t1 t2 t3 : α) : P7 α :=
  let r0 := MUL s0 t0
  let r1 := MUL s1 t0
  let r2 := MUL s2 t0
  let r3 := MUL s3 t0
  let r1 := ADD r1 (MUL s0 t1)
  let r2 := ADD r2 (MUL s1 t1)
  let r3 := ADD r3 (MUL s2 t1)
  let r4 := MUL s3 t1
  let r2 := ADD r2 (MUL s0 t2)
  let r3 := ADD r3 (MUL s1 t2)
  let r4 := ADD r4 (MUL s2 t2)
  let r5 := MUL s3 t2
  let r3 := ADD r3 (MUL s0 t3)
  let r4 := ADD r4 (MUL s1 t3)
  let r5 := ADD r5 (MUL s2 t3)
  let r6 := MUL s3 t3
  ⟨r0, r1, r2, r3, r4, r5, r6⟩

/-- src/eltfp448_2w_redradix.c:248-276 `mul_karat_8x8`. -/
def mul_karat_8x8 {α : Type} [Lane α] (f0 f1 f2 f3 f4 f5 f6 f7 g0 g1 g2 g3 g4 g5 g6 g7 : α) : P15 α :=
  let ov := mul_school_4x4 f0 f1 f2 f3 g0 g1 g2 g3
  let o0 := ov.r0
  let o1 := ov.r1
  let o2 := ov.r2
  let o3 := ov.r3
  let o4 := ov.r4
  let o5 := ov.r5
  let o6 := ov.r6
  let pv := mul_school_4x4 f4 f5 f6 f7 g4 g5 g6 g7
  let p0 := pv.r0
  let p1 := pv.r1
  let p2 := pv.r2
  let p3 := pv.r3
  let p4 := pv.r4
  let p5 := pv.r5
  let p6 := pv.r6
  let qv := mul_school_4x4 (ADD f0 f4) (ADD f1 f5) (ADD f2 f6) (ADD f3 f7) (ADD g0 g4) (ADD g1 g5) (ADD g2 g6) (ADD g3 g7)
  let q0 := qv.r0
  let q1 := qv.r1
  let q2 := qv.r2
  let q3 := qv.r3
  let q4 := qv.r4
  let q5 := qv.r5
  let q6 := qv.r6
  let ref0 := SUB o4 p0
  let ref1 := SUB o5 p1
  let ref2 := SUB o6 p2
  let h0 := o0
  let h8 := SUB (SUB q4 p4) ref0
  let h1 := o1
  let h9 := SUB (SUB q5 p5) ref1
  let h2 := o2
  let h10 := SUB (SUB q6 p6) ref2
  let h3 := o3
  let h11 := p3
  let h4 := ADD ref0 (SUB q0 o0)
  let h12 := p4
  let h5 := ADD ref1 (SUB q1 o1)
  let h13 := p5
  let h6 := ADD ref2 (SUB q2 o2)
  let h14 := p6
  let h7 := SUB (SUB q3 o3) p3
  ⟨h0, h1, h2, h3, h4, h5, h6, h7, h8, h9, h10, h11, h12, h13, h14⟩

/-- src/eltfp448_2w_redradix.c:278-301 `mul_karate_8x8`. -/
def mul_karate_8x8 {α : Type} [Simd α] (f0 f1 f2 f3 g0 g1 g2 g3 : α) : Elt8 α :=
  let ov := mul_school_4x4 f0 f1 f2 f3 g0 g1 g2 g3
  let o0p0 := ov.r0
  let o1p1 := ov.r1
  let o2p2 := ov.r2
  let o3p3 := ov.r3
  let o4p4 := ov.r4
  let o5p5 := ov.r5
  let o6p6 := ov.r6
  let sF0 := ADD f0 (SHUF4E f0)
  let sG0 := ADD g0 (SHUF4E g0)
  let sF1 := ADD f1 (SHUF4E f1)
  let sG1 := ADD g1 (SHUF4E g1)
  let sF2 := ADD f2 (SHUF4E f2)
  let sG2 := ADD g2 (SHUF4E g2)
  let sF3 := ADD f3 (SHUF4E f3)
  let sG3 := ADD g3 (SHUF4E g3)
  let qv := mul_school_4x4 sF0 sF1 sF2 sF3 sG0 sG1 sG2 sG3
  let q0 := qv.r0
  let q1 := qv.r1
  let q2 := qv.r2
  let q3 := qv.r3
  let q4 := qv.r4
  let q5 := qv.r5
  let q6 := qv.r6
  let h0 := ADD o0p0 (BLEND3 (SUB q4 (ADD o4p4 (SHUF4E o4p4))) (LIT 0))
  let h1 := ADD o1p1 (BLEND3 (SUB q5 (ADD o5p5 (SHUF4E o5p5))) (LIT 0))
  let h2 := ADD o2p2 (BLEND3 (SUB q6 (ADD o6p6 (SHUF4E o6p6))) (LIT 0))
  let h3 := o3p3
  let h4 := ADD o4p4 (BLENDC (SUB q0 (ADD o0p0 (SHUF4E o0p0))) (LIT 0))
  let h5 := ADD o5p5 (BLENDC (SUB q1 (ADD o1p1 (SHUF4E o1p1))) (LIT 0))
  let h6 := ADD o6p6 (BLENDC (SUB q2 (ADD o2p2 (SHUF4E o2p2))) (LIT 0))
  let h7 := BLENDC (SUB q3 (ADD o3p3 (SHUF4E o3p3))) (LIT 0)
  ⟨h0, h1, h2, h3, h4, h5, h6, h7⟩

/-- src/eltfp448_2w_redradix.c:303-320 `sqr_school_4x4`. -/
def sqr_school_4x4 {α : Type} [Lane α] (s0 s1 s2 s3 : α) : P7 α :=
  let t2 := MUL s0 s2
  let t4 := MUL s1 s3
  let r0 := MUL s0 s0
  let r1 := MUL s0 s1
  let r1 := ADD r1 r1
  let r2 := MUL s1 s1
  let r2 := ADD r2 (ADD t2 t2)
  let r3 := MUL s0 s3
  let r3 := ADD r3 (MUL s1 s2)
  let r3 := ADD r3 r3
  let r4 := MUL s2 s2
  let r4 := ADD r4 (ADD t4 t4)
  let r5 := MUL s2 s3
  let r5 := ADD r5 r5
  let r6 := MUL s3 s3
  ⟨r0, r1, r2, r3, r4, r5, r6⟩

/-- src/eltfp448_2w_redradix.c:322-347 `sqr_karat_8x8`. -/
def sqr_karat_8x8 {α : Type} [Lane α] (f0 f1 f2 f3 f4 f5 f6 f7 : α) : P15 α :=
  let ov := sqr_school_4x4 f0 f1 f2 f3
  let o0 := ov.r0
  let o1 := ov.r1
  let o2 := ov.r2
  let o3 := ov.r3
  let o4 := ov.r4
  let o5 := ov.r5
  let o6 := ov.r6
  let pv := sqr_school_4x4 f4 f5 f6 f7
  let p0 := pv.r0
  let p1 := pv.r1
  let p2 := pv.r2
  let p3 := pv.r3
  let p4 := pv.r4
  let p5 := pv.r5
  let p6 := pv.r6
  let qv := sqr_school_4x4 (ADD f0 f4) (ADD f1 f5) (ADD f2 f6) (ADD f3 f7)
  let q0 := qv.r0
  let q1 := qv.r1
  let q2 := qv.r2
  let q3 := qv.r3
  let q4 := qv.r4
  let q5 := qv.r5
  let q6 := qv.r6
  let ref0 := SUB o4 p0
  let ref1 := SUB o5 p1
  let ref2 := SUB o6 p2
  let h0 := o0
  let h8 := SUB (SUB q4 p4) ref0
  let h1 := o1
  let h9 := SUB (SUB q5 p5) ref1
  let h2 := o2
  let h10 := SUB (SUB q6 p6) ref2
  let h3 := o3
  let h11 := p3
  let h4 := ADD ref0 (SUB q0 o0)
  let h12 := p4
  let h5 := ADD ref1 (SUB q1 o1)
  let h13 := p5
  let h6 := ADD ref2 (SUB q2 o2)
  let h14 := p6
  let h7 := SUB (SUB q3 o3) p3
  ⟨h0, h1, h2, h3, h4, h5, h6, h7, h8, h9, h10, h11, h12, h13, h14⟩

/-- src/eltfp448_2w_redradix.c:349-371 `sqr_karate_8x8`. -/
def sqr_karate_8x8 {α : Type} [Simd α] (f0 f1 f2 f3 : α) : Elt8 α :=
  let ov := sqr_school_4x4 f0 f1 f2 f3
  let o0p0 := ov.r0
  let o1p1 := ov.r1
  let o2p2 := ov.r2
  let o3p3 := ov.r3
  let o4p4 := ov.r4
  let o5p5 := ov.r5
  let o6p6 := ov.r6
  let sF0 := ADD f0 (SHUF4E f0)
  let sF1 := ADD f1 (SHUF4E f1)
  let sF2 := ADD f2 (SHUF4E f2)
  let sF3 := ADD f3 (SHUF4E f3)
  let qv := sqr_school_4x4 sF0 sF1 sF2 sF3
  let q0 := qv.r0
  let q1 := qv.r1
  let q2 := qv.r2
  let q3 := qv.r3
  let q4 := qv.r4
  let q5 := qv.r5
  let q6 := qv.r6
  let h0 := ADD o0p0 (BLEND3 (SUB q4 (ADD o4p4 (SHUF4E o4p4))) (LIT 0))
  let h1 := ADD o1p1 (BLEND3 (SUB q5 (ADD o5p5 (SHUF4E o5p5))) (LIT 0))
  let h2 := ADD o2p2 (BLEND3 (SUB q6 (ADD o6p6 (SHUF4E o6p6))) (LIT 0))
  let h3 := o3p3
  let h4 := ADD o4p4 (BLENDC (SUB q0 (ADD o0p0 (SHUF4E o0p0))) (LIT 0))
  let h5 := ADD o5p5 (BLENDC (SUB q1 (ADD o1p1 (SHUF4E o1p1))) (LIT 0))
  let h6 := ADD o6p6 (BLENDC (SUB q2 (ADD o2p2 (SHUF4E o2p2))) (LIT 0))
  let h7 := BLENDC (SUB q3 (ADD o3p3 (SHUF4E o3p3))) (LIT 0)
  ⟨h0, h1, h2, h3, h4, h5, h6, h7⟩

/-- src/eltfp448_2w_redradix.c:373-413 `intmul_karat`, which is also `intmul`.  All reads of `A`, `B` precede the writes
of `C`. -/
def intmul {α : Type} [SimdU α] (A B : Elt8 α) : Elt8 α :=
  let a0 := A.c0
  let b0 := B.c0
  let a1 := A.c1
  let b1 := B.c1
  let a2 := A.c2
  let b2 := B.c2
  let a3 := A.c3
  let b3 := B.c3
  let a4 := A.c4
  let b4 := B.c4
  let a5 := A.c5
  let b5 := B.c5
  let a6 := A.c6
  let b6 := B.c6
  let a7 := A.c7
  let b7 := B.c7
  let xv := mul_karat_8x8 a0 a1 a2 a3 a4 a5 a6 a7 b0 b1 b2 b3 b4 b5 b6 b7
  let x0y0 := xv.h0
  let x1y1 := xv.h1
  let x2y2 := xv.h2
  let x3y3 := xv.h3
  let x4y4 := xv.h4
  let x5y5 := xv.h5
  let x6y6 := xv.h6
  let x7y7 := xv.h7
  let x8y8 := xv.h8
  let x9y9 := xv.h9
  let x10y10 := xv.h10
  let x11y11 := xv.h11
  let x12y12 := xv.h12
  let x13y13 := xv.h13
  let x14y14 := xv.h14
  let sA0_4 := ADD (UPKL a0 a4) (UPKH a0 a4)
  let sA1_5 := ADD (UPKL a1 a5) (UPKH a1 a5)
  let sA2_6 := ADD (UPKL a2 a6) (UPKH a2 a6)
  let sA3_7 := ADD (UPKL a3 a7) (UPKH a3 a7)
  let sB0_4 := ADD (UPKL b0 b4) (UPKH b0 b4)
  let sB1_5 := ADD (UPKL b1 b5) (UPKH b1 b5)
  let sB2_6 := ADD (UPKL b2 b6) (UPKH b2 b6)
  let sB3_7 := ADD (UPKL b3 b7) (UPKH b3 b7)
  let zv := mul_karate_8x8 sA0_4 sA1_5 sA2_6 sA3_7 sB0_4 sB1_5 sB2_6 sB3_7
  let z0 := zv.c0
  let z1 := zv.c1
  let z2 := zv.c2
  let z3 := zv.c3
  let z4 := zv.c4
  let z5 := zv.c5
  let z6 := zv.c6
  let z7 := zv.c7
  let x0x8 := UPKL x0y0 x8y8
  let y0y8 := UPKH x0y0 x8y8
  let x0z8 := BLENDC x0y0 z0
  let C_0 := ADD (ADD (SHUF4E (SUB z0 x0x8)) y0y8) x0z8
  let x1x9 := UPKL x1y1 x9y9
  let y1y9 := UPKH x1y1 x9y9
  let x1z9 := BLENDC x1y1 z1
  let C_1 := ADD (ADD (SHUF4E (SUB z1 x1x9)) y1y9) x1z9
  let x2x10 := UPKL x2y2 x10y10
  let y2y10 := UPKH x2y2 x10y10
  let x2z10 := BLENDC x2y2 z2
  let C_2 := ADD (ADD (SHUF4E (SUB z2 x2x10)) y2y10) x2z10
  let x3x11 := UPKL x3y3 x11y11
  let y3y11 := UPKH x3y3 x11y11
  let x3z11 := BLENDC x3y3 z3
  let C_3 := ADD (ADD (SHUF4E (SUB z3 x3x11)) y3y11) x3z11
  let x4x12 := UPKL x4y4 x12y12
  let y4y12 := UPKH x4y4 x12y12
  let x4z12 := BLENDC x4y4 z4
  let C_4 := ADD (ADD (SHUF4E (SUB z4 x4x12)) y4y12) x4z12
  let x5x13 := UPKL x5y5 x13y13
  let y5y13 := UPKH x5y5 x13y13
  let x5z13 := BLENDC x5y5 z5
  let C_5 := ADD (ADD (SHUF4E (SUB z5 x5x13)) y5y13) x5z13
  let x6x14 := UPKL x6y6 x14y14
  let y6y14 := UPKH x6y6 x14y14
  let x6z14 := BLENDC x6y6 z6
  let C_6 := ADD (ADD (SHUF4E (SUB z6 x6x14)) y6y14) x6z14
  let x7x15 := UPKL x7y7 (LIT 0)
  let y7y15 := UPKH x7y7 (LIT 0)
  let x7z15 := BLENDC x7y7 z7
  let C_7 := ADD (ADD (SHUF4E (SUB z7 x7x15)) y7y15) x7z15
  ⟨C_0, C_1, C_2, C_3, C_4, C_5, C_6, C_7⟩

/-- src/eltfp448_2w_redradix.c:419-452 `intsqr_karat`, which is also `intsqr`. -/
def intsqr {α : Type} [SimdU α] (C : Elt8 α) : Elt8 α :=
  let a0 := C.c0
  let a1 := C.c1
  let a2 := C.c2
  let a3 := C.c3
  let a4 := C.c4
  let a5 := C.c5
  let a6 := C.c6
  let a7 := C.c7
  let xv := sqr_karat_8x8 a0 a1 a2 a3 a4 a5 a6 a7
  let x0y0 := xv.h0
  let x1y1 := xv.h1
  let x2y2 := xv.h2
  let x3y3 := xv.h3
  let x4y4 := xv.h4
  let x5y5 := xv.h5
  let x6y6 := xv.h6
  let x7y7 := xv.h7
  let x8y8 := xv.h8
  let x9y9 := xv.h9
  let x10y10 := xv.h10
  let x11y11 := xv.h11
  let x12y12 := xv.h12
  let x13y13 := xv.h13
  let x14y14 := xv.h14
  let sA0_4 := ADD (UPKL a0 a4) (UPKH a0 a4)
  let sA1_5 := ADD (UPKL a1 a5) (UPKH a1 a5)
  let sA2_6 := ADD (UPKL a2 a6) (UPKH a2 a6)
  let sA3_7 := ADD (UPKL a3 a7) (UPKH a3 a7)
  let zv := sqr_karate_8x8 sA0_4 sA1_5 sA2_6 sA3_7
  let z0 := zv.c0
  let z1 := zv.c1
  let z2 := zv.c2
  let z3 := zv.c3
  let z4 := zv.c4
  let z5 := zv.c5
  let z6 := zv.c6
  let z7 := zv.c7
  let x0x8 := UPKL x0y0 x8y8
  let y0y8 := UPKH x0y0 x8y8
  let x0z8 := BLENDC x0y0 z0
  let C_0 := ADD (ADD (SHUF4E (SUB z0 x0x8)) y0y8) x0z8
  let x1x9 := UPKL x1y1 x9y9
  let y1y9 := UPKH x1y1 x9y9
  let x1z9 := BLENDC x1y1 z1
  let C_1 := ADD (ADD (SHUF4E (SUB z1 x1x9)) y1y9) x1z9
  let x2x10 := UPKL x2y2 x10y10
  let y2y10 := UPKH x2y2 x10y10
  let x2z10 := BLENDC x2y2 z2
  let C_2 := ADD (ADD (SHUF4E (SUB z2 x2x10)) y2y10) x2z10
  let x3x11 := UPKL x3y3 x11y11
  let y3y11 := UPKH x3y3 x11y11
  let x3z11 := BLENDC x3y3 z3
  let C_3 := ADD (ADD (SHUF4E (SUB z3 x3x11)) y3y11) x3z11
  let x4x12 := UPKL x4y4 x12y12
  let y4y12 := UPKH x4y4 x12y12
  let x4z12 := BLENDC x4y4 z4
  let C_4 := ADD (ADD (SHUF4E (SUB z4 x4x12)) y4y12) x4z12
  let x5x13 := UPKL x5y5 x13y13
  let y5y13 := UPKH x5y5 x13y13
  let x5z13 := BLENDC x5y5 z5
  let C_5 := ADD (ADD (SHUF4E (SUB z5 x5x13)) y5y13) x5z13
  let x6x14 := UPKL x6y6 x14y14
  let y6y14 := UPKH x6y6 x14y14
  let x6z14 := BLENDC x6y6 z6
  let C_6 := ADD (ADD (SHUF4E (SUB z6 x6x14)) y6y14) x6z14
  let x7x15 := UPKL x7y7 (LIT 0)
  let y7y15 := UPKH x7y7 (LIT 0)
  let x7z15 := BLENDC x7y7 z7
  let C_7 := ADD (ADD (SHUF4E (SUB z7 x7x15)) y7y15) x7z15
  ⟨C_0, C_1, C_2, C_3, C_4, C_5, C_6, C_7⟩

/-- src/eltfp448_2w_redradix.c:466-533 `compress`. -/
def compress {α : Type} [Simd α] (C : Elt8 α) : Elt8 α :=
  let c0 := C.c0
  let c1 := C.c1
  let c2 := C.c2
  let c3 := C.c3
  let c4 := C.c4
  let c5 := C.c5
  let c6 := C.c6
  let c7 := C.c7
  let h0_h8 := SHR c0 28
  let c0 := AND c0 (LIT (2 ^ 28 - 1))
  let c1 := ADD c1 h0_h8
  let h1_h9 := SHR c1 28
  let c1 := AND c1 (LIT (2 ^ 28 - 1))
  let c2 := ADD c2 h1_h9
  let h2_h10 := SHR c2 28
  let c2 := AND c2 (LIT (2 ^ 28 - 1))
  let c3 := ADD c3 h2_h10
  let h3_h11 := SHR c3 28
  let c3 := AND c3 (LIT (2 ^ 28 - 1))
  let c4 := ADD c4 h3_h11
  let h4_h12 := SHR c4 28
  let c4 := AND c4 (LIT (2 ^ 28 - 1))
  let c5 := ADD c5 h4_h12
  let h5_h13 := SHR c5 28
  let c5 := AND c5 (LIT (2 ^ 28 - 1))
  let c6 := ADD c6 h5_h13
  let h6_h14 := SHR c6 28
  let c6 := AND c6 (LIT (2 ^ 28 - 1))
  let c7 := ADD c7 h6_h14
  let h7_h15 := SHR c7 28
  let c7 := AND c7 (LIT (2 ^ 28 - 1))
  let c0 := ADD c0 (BLEND3 h7_h15 (LIT 0))
  let c0 := ADD c0 (SHUF4E h7_h15)
  let h0_h8 := SHR c0 28
  let c0 := AND c0 (LIT (2 ^ 28 - 1))
  let c1 := ADD c1 h0_h8
  let C_0 := c0
  let C_1 := c1
  let C_2 := c2
  let C_3 := c3
  let C_4 := c4
  let C_5 := c5
  let C_6 := c6
  let C_7 := c7
  ⟨C_0, C_1, C_2, C_3, C_4, C_5, C_6, C_7⟩

/-- src/eltfp448_2w_redradix.c:535-604 `compress2`. -/
def compress2 {α : Type} [Simd α] (C D : Elt8 α) : Elt8 α × Elt8 α :=
  let _C_c0 := C.c0
  let _D_c0 := D.c0
  let _C_c1 := C.c1
  let _D_c1 := D.c1
  let _C_c2 := C.c2
  let _D_c2 := D.c2
  let _C_c3 := C.c3
  let _D_c3 := D.c3
  let _C_c4 := C.c4
  let _D_c4 := D.c4
  let _C_c5 := C.c5
  let _D_c5 := D.c5
  let _C_c6 := C.c6
  let _D_c6 := D.c6
  let _C_c7 := C.c7
  let _D_c7 := D.c7
  let _C_h0_h8 := SHR _C_c0 28
  let _D_h0_h8 := SHR _D_c0 28
  let _C_c0 := AND _C_c0 (LIT (2 ^ 28 - 1))
  let _D_c0 := AND _D_c0 (LIT (2 ^ 28 - 1))
  let _C_c1 := ADD _C_c1 _C_h0_h8
  let _D_c1 := ADD _D_c1 _D_h0_h8
  let _C_h1_h9 := SHR _C_c1 28
  let _D_h1_h9 := SHR _D_c1 28
  let _C_c1 := AND _C_c1 (LIT (2 ^ 28 - 1))
  let _D_c1 := AND _D_c1 (LIT (2 ^ 28 - 1))
  let _C_c2 := ADD _C_c2 _C_h1_h9
  let _D_c2 := ADD _D_c2 _D_h1_h9
  let _C_h2_h10 := SHR _C_c2 28
  let _D_h2_h10 := SHR _D_c2 28
  let _C_c2 := AND _C_c2 (LIT (2 ^ 28 - 1))
  let _D_c2 := AND _D_c2 (LIT (2 ^ 28 - 1))
  let _C_c3 := ADD _C_c3 _C_h2_h10
  let _D_c3 := ADD _D_c3 _D_h2_h10
  let _C_h3_h11 := SHR _C_c3 28
  let _D_h3_h11 := SHR _D_c3 28
  let _C_c3 := AND _C_c3 (LIT (2 ^ 28 - 1))
  let _D_c3 := AND _D_c3 (LIT (2 ^ 28 - 1))
  let _C_c4 := ADD _C_c4 _C_h3_h11
  let _D_c4 := ADD _D_c4 _D_h3_h11
  let _C_h4_h12 := SHR _C_c4 28
  let _D_h4_h12 := SHR _D_c4 28
  let _C_c4 := AND _C_c4 (LIT (2 ^ 28 - 1))
  let _D_c4 := AND _D_c4 (LIT (2 ^ 28 - 1))
  let _C_c5 := ADD _C_c5 _C_h4_h12
  let _D_c5 := ADD _D_c5 _D_h4_h12
  let _C_h5_h13 := SHR _C_c5 28
  let _D_h5_h13 := SHR _D_c5 28
  let _C_c5 := AND _C_c5 (LIT (2 ^ 28 - 1))
  let _D_c5 := AND _D_c5 (LIT (2 ^ 28 - 1))
  let _C_c6 := ADD _C_c6 _C_h5_h13
  let _D_c6 := ADD _D_c6 _D_h5_h13
  let _C_h6_h14 := SHR _C_c6 28
  let _D_h6_h14 := SHR _D_c6 28
  let _C_c6 := AND _C_c6 (LIT (2 ^ 28 - 1))
  let _D_c6 := AND _D_c6 (LIT (2 ^ 28 - 1))
  let _C_c7 := ADD _C_c7 _C_h6_h14
  let _D_c7 := ADD _D_c7 _D_h6_h14
  let _C_h7_h15 := SHR _C_c7 28
  let _D_h7_h15 := SHR _D_c7 28
  let _C_c7 := AND _C_c7 (LIT (2 ^ 28 - 1))
  let _D_c7 := AND _D_c7 (LIT (2 ^ 28 - 1))
  let _C_c0 := ADD _C_c0 (BLEND3 _C_h7_h15 (LIT 0))
  let _D_c0 := ADD _D_c0 (BLEND3 _D_h7_h15 (LIT 0))
  let _C_c0 := ADD _C_c0 (SHUF4E _C_h7_h15)
  let _D_c0 := ADD _D_c0 (SHUF4E _D_h7_h15)
  let _C_h0_h8 := SHR _C_c0 28
  let _D_h0_h8 := SHR _D_c0 28
  let _C_c0 := AND _C_c0 (LIT (2 ^ 28 - 1))
  let _D_c0 := AND _D_c0 (LIT (2 ^ 28 - 1))
  let _C_c1 := ADD _C_c1 _C_h0_h8
  let _D_c1 := ADD _D_c1 _D_h0_h8
  let C_0 := _C_c0
  let D_0 := _D_c0
  let C_1 := _C_c1
  let D_1 := _D_c1
  let C_2 := _C_c2
  let D_2 := _D_c2
  let C_3 := _C_c3
  let D_3 := _D_c3
  let C_4 := _C_c4
  let D_4 := _D_c4
  let C_5 := _C_c5
  let D_5 := _D_c5
  let C_6 := _C_c6
  let D_6 := _D_c6
  let C_7 := _C_c7
  let D_7 := _D_c7
  (⟨C_0, C_1, C_2, C_3, C_4, C_5, C_6, C_7⟩,
    ⟨D_0, D_1, D_2, D_3, D_4, D_5, D_6, D_7⟩)

/-- src/eltfp448_2w_redradix.c:606-641 `compressfast`. -/
def compressfast {α : Type} [Simd α] (C : Elt8 α) : Elt8 α :=
  let l0 := AND C.c0 (LIT (2 ^ 28 - 1))
  let l1 := AND C.c1 (LIT (2 ^ 28 - 1))
  let l2 := AND C.c2 (LIT (2 ^ 28 - 1))
  let l3 := AND C.c3 (LIT (2 ^ 28 - 1))
  let l4 := AND C.c4 (LIT (2 ^ 28 - 1))
  let l5 := AND C.c5 (LIT (2 ^ 28 - 1))
  let l6 := AND C.c6 (LIT (2 ^ 28 - 1))
  let l7 := AND C.c7 (LIT (2 ^ 28 - 1))
  let m0 := SHR C.c0 28
  let m1 := SHR C.c1 28
  let m2 := SHR C.c2 28
  let m3 := SHR C.c3 28
  let m4 := SHR C.c4 28
  let m5 := SHR C.c5 28
  let m6 := SHR C.c6 28
  let m7 := SHR C.c7 28
  let C_0 := ADD l0 (ADD (SHUF4E m7) (BLEND3 m7 (LIT 0)))
  let C_1 := ADD l1 m0
  let C_2 := ADD l2 m1
  let C_3 := ADD l3 m2
  let C_4 := ADD l4 m3
  let C_5 := ADD l5 m4
  let C_6 := ADD l6 m5
  let C_7 := ADD l7 m6
  ⟨C_0, C_1, C_2, C_3, C_4, C_5, C_6, C_7⟩

/-- src/eltfp448_2w_redradix.c:643-646 `mul`. -/
def mul {α : Type} [SimdU α] (a b : Elt8 α) : Elt8 α := compress (intmul a b)

/-- src/eltfp448_2w_redradix.c:648-651 `sqr`. -/
def sqr {α : Type} [SimdU α] (c : Elt8 α) : Elt8 α := compress (intsqr c)

/-- src/eltfp448_2w_redradix.c:44-63 `inter`: [a0 | a1]. -/
def inter {β : Type} (a0 a1 : Elt8 (Vec2 β)) : Elt8 (Vec4 β) :=
  let A0 := Vec4.join a0.c0 a0.c1
  let A4 := Vec4.join a0.c2 a0.c3
  let A8 := Vec4.join a0.c4 a0.c5
  let A12 := Vec4.join a0.c6 a0.c7
  let B0 := Vec4.join a1.c0 a1.c1
  let B4 := Vec4.join a1.c2 a1.c3
  let B8 := Vec4.join a1.c4 a1.c5
  let B12 := Vec4.join a1.c6 a1.c7
  ⟨PERM128 A0 B0 0x20, PERM128 A0 B0 0x31, PERM128 A4 B4 0x20, PERM128 A4 B4 0x31,
    PERM128 A8 B8 0x20, PERM128 A8 B8 0x31, PERM128 A12 B12 0x20, PERM128 A12 B12 0x31⟩

/-- src/eltfp448_2w_redradix.c:71-80 `deinter`: the two elements. -/
def deinter {β : Type} (a : Elt8 (Vec4 β)) : Elt8 (Vec2 β) × Elt8 (Vec2 β) :=
  let x0 := PERM128 a.c0 a.c1 0x20
  let y0 := PERM128 a.c0 a.c1 0x31
  let x1 := PERM128 a.c2 a.c3 0x20
  let y1 := PERM128 a.c2 a.c3 0x31
  let x2 := PERM128 a.c4 a.c5 0x20
  let y2 := PERM128 a.c4 a.c5 0x31
  let x3 := PERM128 a.c6 a.c7 0x20
  let y3 := PERM128 a.c6 a.c7 0x31
  (⟨x0.lo, x0.hi, x1.lo, x1.hi, x2.lo, x2.hi, x3.lo, x3.hi⟩,
    ⟨y0.lo, y0.hi, y1.lo, y1.hi, y2.lo, y2.hi, y3.lo, y3.hi⟩)

/-- src/eltfp448_2w_redradix.c:117-126 `CONST_2P_00_H0H8`. -/
def twoP_00 : Elt8 V :=
  ⟨⟨0x1ffffffe#64, 0x3ffffffc#64, 0#64, 0#64⟩, ⟨0x1ffffffe#64, 0x1ffffffc#64, 0#64, 0#64⟩,
    ⟨0x1ffffffe#64, 0x1ffffffe#64, 0#64, 0#64⟩, ⟨0x1ffffffe#64, 0x1ffffffe#64, 0#64, 0#64⟩,
    ⟨0x1ffffffe#64, 0x1ffffffe#64, 0#64, 0#64⟩, ⟨0x1ffffffe#64, 0x1ffffffe#64, 0#64, 0#64⟩,
    ⟨0x1ffffffe#64, 0x1ffffffe#64, 0#64, 0#64⟩, ⟨0x1ffffffe#64, 0x1ffffffe#64, 0#64, 0#64⟩⟩

/-- `SET64(0, 0, -1, -1)`, src/eltfp448_2w_redradix.c:170 and 196 `mask_subadd` (in `subadd`,
`ngz`). -/
def maskSubadd : V := SET64 0 0 (-1) (-1)

/-- src/eltfp448_2w_redradix.c:169-185 `subadd` with `permutation` 0 or 1, as in every call. -/
def subadd (a : Elt8 V) (permutation : Bool) : Elt8 V :=
  let PA := a.map (PERM64 · 0x4E)
  let M := if permutation then PA else a
  let N := if permutation then a else PA
  (M.zip ADD twoP_00).zip ADD (N.map fun n => SUB (XOR n maskSubadd) maskSubadd)

/-- src/eltfp448_2w_redradix.c:195-202 `ngz`. -/
def ngz (a : Elt8 V) : Elt8 V :=
  twoP_00.zip ADD (a.map fun n => SUB (XOR n maskSubadd) maskSubadd)

end R2

/-! ## One-way code -/

namespace R1

/-- 2p in limbs: src/eltfp448_1w_redradix.c:470-479 `CONST_2P_ELEMENT`. -/
def twoP {α : Type} [Simd α] : Elt8 α :=
  ⟨LIT2 0x1ffffffe 0x3ffffffc, LIT2 0x1ffffffe 0x1ffffffc, LIT2 0x1ffffffe 0x1ffffffe,
    LIT2 0x1ffffffe 0x1ffffffe, LIT2 0x1ffffffe 0x1ffffffe, LIT2 0x1ffffffe 0x1ffffffe,
    LIT2 0x1ffffffe 0x1ffffffe, LIT2 0x1ffffffe 0x1ffffffe⟩

/-- src/eltfp448_1w_redradix.c:776-781 `zero`. -/
def zero : Elt8 U := ⟨LIT 0, LIT 0, LIT 0, LIT 0, LIT 0, LIT 0, LIT 0, LIT 0⟩

/-- src/eltfp448_1w_redradix.c:448-468 `add`.  The loads and stores of 256 bits handle two
vectors at a time. -/
def add {α : Type} [Simd α] (a b : Elt8 α) : Elt8 α := a.zip ADD b

/-- src/eltfp448_1w_redradix.c:481-501 `sub`. -/
def sub {α : Type} [Simd α] (a b : Elt8 α) : Elt8 α := a.zip ADD (twoP.zip SUB b)

/-- src/eltfp448_1w_redradix.c:503-533 `addsub`: (a, b) becomes (a+b, a-b). -/
def addsub {α : Type} [Simd α] (a b : Elt8 α) : Elt8 α × Elt8 α :=
  (a.zip ADD b, a.zip ADD (twoP.zip SUB b))

/-- src/eltfp448_1w_redradix.c:535-550 `neg`. -/
def neg {α : Type} [Simd α] (c : Elt8 α) : Elt8 α := twoP.zip SUB c

/-- src/eltfp448_1w_redradix.c:783-819 `naddsub`: (C, D) = (-a-b, -a+b). -/
def naddsub {α : Type} [Simd α] (a b : Elt8 α) : Elt8 α × Elt8 α :=
  let T := twoP.zip SUB a
  (T.zip SUB b, T.zip ADD b)

/-- src/eltfp448_1w_redradix.c:24-94 `compress`. -/
def compress {α : Type} [Simd α] (A : Elt8 α) : Elt8 α :=
  let c0 := A.c0
  let c1 := A.c1
  let c2 := A.c2
  let c3 := A.c3
  let c4 := A.c4
  let c5 := A.c5
  let c6 := A.c6
  let c7 := A.c7
  let h0_h8 := SHR c0 28
  let c0 := AND c0 (LIT (2 ^ 28 - 1))
  let c1 := ADD c1 h0_h8
  let h1_h9 := SHR c1 28
  let c1 := AND c1 (LIT (2 ^ 28 - 1))
  let c2 := ADD c2 h1_h9
  let h2_h10 := SHR c2 28
  let c2 := AND c2 (LIT (2 ^ 28 - 1))
  let c3 := ADD c3 h2_h10
  let h3_h11 := SHR c3 28
  let c3 := AND c3 (LIT (2 ^ 28 - 1))
  let c4 := ADD c4 h3_h11
  let h4_h12 := SHR c4 28
  let c4 := AND c4 (LIT (2 ^ 28 - 1))
  let c5 := ADD c5 h4_h12
  let h5_h13 := SHR c5 28
  let c5 := AND c5 (LIT (2 ^ 28 - 1))
  let c6 := ADD c6 h5_h13
  let h6_h14 := SHR c6 28
  let c6 := AND c6 (LIT (2 ^ 28 - 1))
  let c7 := ADD c7 h6_h14
  let h7_h15 := SHR c7 28
  let c7 := AND c7 (LIT (2 ^ 28 - 1))
  let c0 := ADD c0 (BLEND3 h7_h15 (LIT 0))
  let c0 := ADD c0 (SHUF4E h7_h15)
  let h0_h8 := SHR c0 28
  let c0 := AND c0 (LIT (2 ^ 28 - 1))
  let c1 := ADD c1 h0_h8
  ⟨c0, c1, c2, c3, c4, c5, c6, c7⟩

/-- src/eltfp448_1w_redradix.c:96-154 `compressfast`. -/
def compressfast {β : Type} [Lane β] (c : Elt8 (Vec2 β)) : Elt8 (Vec2 β) :=
  let A0 := (Vec4.join c.c0 c.c1)
  let A1 := (Vec4.join c.c2 c.c3)
  let A2 := (Vec4.join c.c4 c.c5)
  let A3 := (Vec4.join c.c6 c.c7)
  let l0 := AND A0 (LIT (2 ^ 28 - 1))
  let l1 := AND A1 (LIT (2 ^ 28 - 1))
  let l2 := AND A2 (LIT (2 ^ 28 - 1))
  let l3 := AND A3 (LIT (2 ^ 28 - 1))
  let m0 := SHR A0 28
  let m1 := SHR A1 28
  let m2 := SHR A2 28
  let m3 := SHR A3 28
  let m0 := AND m0 (LIT (2 ^ 28 - 1))
  let m1 := AND m1 (LIT (2 ^ 28 - 1))
  let m2 := AND m2 (LIT (2 ^ 28 - 1))
  let m3 := AND m3 (LIT (2 ^ 28 - 1))
  let h0 := SHR A0 56
  let h1 := SHR A1 56
  let h2 := SHR A2 56
  let h3 := SHR A3 56
  let _m3 := SHUF4E (ADD m3 (SHR8 m3))
  let h3 := SHUF4E (ADD h3 (SHR8 h3))
  let _m0 := PERM128 _m3 m0 0x21
  let _m1 := PERM128 m0 m1 0x21
  let _m2 := PERM128 m1 m2 0x21
  let _m3 := PERM128 m2 m3 0x21
  let c0 := ADD l0 _m0
  let c1 := ADD l1 _m1
  let c2 := ADD l2 _m2
  let c3 := ADD l3 _m3
  let c0 := ADD c0 h3
  let c1 := ADD c1 h0
  let c2 := ADD c2 h1
  let c3 := ADD c3 h2
  ⟨c0.lo, c0.hi, c1.lo, c1.hi, c2.lo, c2.hi, c3.lo, c3.hi⟩

/-- src/eltfp448_1w_redradix.c:156-197 `new_compressfast`. -/
def new_compressfast {β : Type} [Lane β] (pA : Elt8 (Vec2 β)) : Elt8 (Vec2 β) :=
  let A0 := (Vec4.join pA.c0 pA.c1)
  let A1 := (Vec4.join pA.c2 pA.c3)
  let A2 := (Vec4.join pA.c4 pA.c5)
  let A3 := (Vec4.join pA.c6 pA.c7)
  let l0 := AND A0 (LIT (2 ^ 28 - 1))
  let l1 := AND A1 (LIT (2 ^ 28 - 1))
  let l2 := AND A2 (LIT (2 ^ 28 - 1))
  let l3 := AND A3 (LIT (2 ^ 28 - 1))
  let m0 := SHR A0 28
  let m1 := SHR A1 28
  let m2 := SHR A2 28
  let m3 := SHR A3 28
  let _m3 := SHUF4E (ADD m3 (SHR8 m3))
  let _m0 := PERM128 _m3 m0 0x21
  let _m1 := PERM128 m0 m1 0x21
  let _m2 := PERM128 m1 m2 0x21
  let _m3 := PERM128 m2 m3 0x21
  let c0 := ADD l0 _m0
  let c1 := ADD l1 _m1
  let c2 := ADD l2 _m2
  let c3 := ADD l3 _m3
  ⟨c0.lo, c0.hi, c1.lo, c1.hi, c2.lo, c2.hi, c3.lo, c3.hi⟩

/-- src/eltfp448_1w_redradix.c:199-363 `sqrn`: the body of the loop up to the carries. -/
def sqrRaw {β : Type} [Lane β] (A : Elt8 (Vec2 β)) : Elt8 (Vec2 β) :=
  let c0 := Vec4.join A.c0 A.c1
  let c1 := Vec4.join A.c2 A.c3
  let c2 := Vec4.join A.c4 A.c5
  let c3 := Vec4.join A.c6 A.c7
  let y0 := c0
  let y1 := c1
  let y2 := c2
  let y3 := c3
  let x0 := ADD (BLEND32 y0 (LIT 0) 0x33) (SHUF4E y0)
  let x1 := ADD (BLEND32 y1 (LIT 0) 0x33) (SHUF4E y1)
  let x2 := ADD (BLEND32 y2 (LIT 0) 0x33) (SHUF4E y2)
  let x3 := ADD (BLEND32 y3 (LIT 0) 0x33) (SHUF4E y3)
  let b0 := PERM128 y0 x0 0x20
  let b1 := PERM128 y0 x0 0x31
  let b2 := PERM128 y1 x1 0x20
  let b3 := PERM128 y1 x1 0x31
  let b4 := PERM128 y2 x2 0x20
  let b5 := PERM128 y2 x2 0x31
  let b6 := PERM128 y3 x3 0x20
  let b7 := PERM128 y3 x3 0x31
  let d7 := SHUF4E (ADD b7 (SHR8 b7))
  let ai := PERM64 y0 0x50
  let aj := PERM64 y0 0xFA
  let a2i := ADD ai ai
  let a2j := ADD aj aj
  let c0 := MUL b0 ai
  let c0 := ADD c0 (MUL d7 a2j)
  let c1 := MUL b1 a2i
  let c2 := MUL b2 a2i
  let c2 := ADD c2 (MUL b1 aj)
  let c3 := MUL b3 a2i
  let c3 := ADD c3 (MUL b2 a2j)
  let c4 := MUL b4 a2i
  let c4 := ADD c4 (MUL b3 a2j)
  let c5 := MUL b5 a2i
  let c5 := ADD c5 (MUL b4 a2j)
  let c6 := MUL b6 a2i
  let c6 := ADD c6 (MUL b5 a2j)
  let c7 := MUL b7 a2i
  let c7 := ADD c7 (MUL b6 a2j)
  let d6 := SHUF4E (ADD b6 (SHR8 b6))
  let d5 := SHUF4E (ADD b5 (SHR8 b5))
  let ai := PERM64 y1 0x50
  let aj := PERM64 y1 0xFA
  let a2i := ADD ai ai
  let a2j := ADD aj aj
  let c0 := ADD c0 (MUL d6 a2i)
  let c0 := ADD c0 (MUL d5 a2j)
  let c1 := ADD c1 (MUL d7 a2i)
  let c1 := ADD c1 (MUL d6 a2j)
  let c2 := ADD c2 (MUL d7 a2j)
  let c4 := ADD c4 (MUL b2 ai)
  let c5 := ADD c5 (MUL b3 a2i)
  let c6 := ADD c6 (MUL b4 a2i)
  let c6 := ADD c6 (MUL b3 aj)
  let c7 := ADD c7 (MUL b5 a2i)
  let c7 := ADD c7 (MUL b4 a2j)
  let ai := PERM64 y3 0x50
  let aj := PERM64 y3 0xFA
  let a2i := ADD ai ai
  let c4 := ADD c4 (MUL d6 ai)
  let c5 := ADD c5 (MUL d7 a2i)
  let c6 := ADD c6 (MUL d7 aj)
  let d4 := SHUF4E (ADD b4 (SHR8 b4))
  let ai := PERM64 y2 0x50
  let aj := PERM64 y2 0xFA
  let a2i := ADD ai ai
  let a2j := ADD aj aj
  let c0 := ADD c0 (MUL d4 ai)
  let c1 := ADD c1 (MUL d5 a2i)
  let c2 := ADD c2 (MUL d6 a2i)
  let c2 := ADD c2 (MUL d5 aj)
  let c3 := ADD c3 (MUL d7 a2i)
  let c3 := ADD c3 (MUL d6 a2j)
  let c4 := ADD c4 (MUL d7 a2j)
  let p0 := ADD c0.hi c0.lo
  let p1 := ADD c1.hi c1.lo
  let p2 := ADD c2.hi c2.lo
  let p3 := ADD c3.hi c3.lo
  let p4 := ADD c4.hi c4.lo
  let p5 := ADD c5.hi c5.lo
  let p6 := ADD c6.hi c6.lo
  let p7 := ADD c7.hi c7.lo
  ⟨p0, p1, p2, p3, p4, p5, p6, p7⟩

/-- src/eltfp448_1w_redradix.c:199-363 `sqrn`: the carries at the end of the loop body. -/
def sqrCarry {β : Type} [Lane β] (c : Elt8 (Vec2 β)) : Elt8 (Vec2 β) :=
  let c0 := Vec4.join c.c0 c.c1
  let c1 := Vec4.join c.c2 c.c3
  let c2 := Vec4.join c.c4 c.c5
  let c3 := Vec4.join c.c6 c.c7
  let A0 := c0
  let A1 := c1
  let A2 := c2
  let A3 := c3
  let l0 := AND A0 (LIT (2 ^ 28 - 1))
  let l1 := AND A1 (LIT (2 ^ 28 - 1))
  let l2 := AND A2 (LIT (2 ^ 28 - 1))
  let l3 := AND A3 (LIT (2 ^ 28 - 1))
  let m0 := SHR A0 28
  let m1 := SHR A1 28
  let m2 := SHR A2 28
  let m3 := SHR A3 28
  let m0 := AND m0 (LIT (2 ^ 28 - 1))
  let m1 := AND m1 (LIT (2 ^ 28 - 1))
  let m2 := AND m2 (LIT (2 ^ 28 - 1))
  let m3 := AND m3 (LIT (2 ^ 28 - 1))
  let h0 := SHR A0 56
  let h1 := SHR A1 56
  let h2 := SHR A2 56
  let h3 := SHR A3 56
  let _m3 := SHUF4E (ADD m3 (SHR8 m3))
  let h3 := SHUF4E (ADD h3 (SHR8 h3))
  let _m0 := PERM128 _m3 m0 0x21
  let _m1 := PERM128 m0 m1 0x21
  let _m2 := PERM128 m1 m2 0x21
  let _m3 := PERM128 m2 m3 0x21
  let c0 := ADD l0 _m0
  let c1 := ADD l1 _m1
  let c2 := ADD l2 _m2
  let c3 := ADD l3 _m3
  let c0 := ADD c0 h3
  let c1 := ADD c1 h0
  let c2 := ADD c2 h1
  let c3 := ADD c3 h2
  ⟨c0.lo, c0.hi, c1.lo, c1.hi, c2.lo, c2.hi, c3.lo, c3.hi⟩

/-- src/eltfp448_1w_redradix.c:552-651 `intmul_sb`: the vectors b0..b7 before the loop. -/
def mulInit {β : Type} [Lane β] (B : Elt8 (Vec2 β)) : Elt8 (Vec4 β) :=
  let y0 := (Vec4.join B.c0 B.c1)
  let y1 := (Vec4.join B.c2 B.c3)
  let y2 := (Vec4.join B.c4 B.c5)
  let y3 := (Vec4.join B.c6 B.c7)
  let x0 := ADD (BLEND32 y0 (LIT 0) 0x33) (SHUF4E y0)
  let x1 := ADD (BLEND32 y1 (LIT 0) 0x33) (SHUF4E y1)
  let x2 := ADD (BLEND32 y2 (LIT 0) 0x33) (SHUF4E y2)
  let x3 := ADD (BLEND32 y3 (LIT 0) 0x33) (SHUF4E y3)
  let b0 := PERM128 y0 x0 0x20
  let b1 := PERM128 y0 x0 0x31
  let b2 := PERM128 y1 x1 0x20
  let b3 := PERM128 y1 x1 0x31
  let b4 := PERM128 y2 x2 0x20
  let b5 := PERM128 y2 x2 0x31
  let b6 := PERM128 y3 x3 0x20
  let b7 := PERM128 y3 x3 0x31
  ⟨b0, b1, b2, b3, b4, b5, b6, b7⟩

/-- src/eltfp448_1w_redradix.c:552-651 `intmul_sb`: the body of the loop; `Ai` is `LOAD(A+i)`. -/
def mulStep {β : Type} [Lane β] (Ai : Vec4 β) (s : Elt8 (Vec4 β) × Elt8 (Vec4 β)) :
    Elt8 (Vec4 β) × Elt8 (Vec4 β) :=
  let b0 := s.1.c0
  let b1 := s.1.c1
  let b2 := s.1.c2
  let b3 := s.1.c3
  let b4 := s.1.c4
  let b5 := s.1.c5
  let b6 := s.1.c6
  let b7 := s.1.c7
  let c0 := s.2.c0
  let c1 := s.2.c1
  let c2 := s.2.c2
  let c3 := s.2.c3
  let c4 := s.2.c4
  let c5 := s.2.c5
  let c6 := s.2.c6
  let c7 := s.2.c7
  let ai := PERM64 Ai 0x50
  let c0 := ADD c0 (MUL b0 ai)
  let c1 := ADD c1 (MUL b1 ai)
  let c2 := ADD c2 (MUL b2 ai)
  let c3 := ADD c3 (MUL b3 ai)
  let c4 := ADD c4 (MUL b4 ai)
  let c5 := ADD c5 (MUL b5 ai)
  let c6 := ADD c6 (MUL b6 ai)
  let c7 := ADD c7 (MUL b7 ai)
  let tmp := b7
  let b7 := b6
  let b6 := b5
  let b5 := b4
  let b4 := b3
  let b3 := b2
  let b2 := b1
  let b1 := b0
  let b0 := ADD (BLEND32 tmp (LIT 0) 0x33) (SHUF4E tmp)
  let ai := PERM64 Ai 0xFA
  let c0 := ADD c0 (MUL b0 ai)
  let c1 := ADD c1 (MUL b1 ai)
  let c2 := ADD c2 (MUL b2 ai)
  let c3 := ADD c3 (MUL b3 ai)
  let c4 := ADD c4 (MUL b4 ai)
  let c5 := ADD c5 (MUL b5 ai)
  let c6 := ADD c6 (MUL b6 ai)
  let c7 := ADD c7 (MUL b7 ai)
  let tmp := b7
  let b7 := b6
  let b6 := b5
  let b5 := b4
  let b4 := b3
  let b3 := b2
  let b2 := b1
  let b1 := b0
  let b0 := ADD (BLEND32 tmp (LIT 0) 0x33) (SHUF4E tmp)
  (⟨b0, b1, b2, b3, b4, b5, b6, b7⟩, ⟨c0, c1, c2, c3, c4, c5, c6, c7⟩)

/-- src/eltfp448_1w_redradix.c:552-651 `intmul_sb`, which is also `intmul`.  The stores to `C` follow all the reads. -/
def intmul {β : Type} [Lane β] (A B : Elt8 (Vec2 β)) : Elt8 (Vec2 β) :=
  let s := (mulInit B, (⟨LIT 0, LIT 0, LIT 0, LIT 0, LIT 0, LIT 0, LIT 0, LIT 0⟩ : Elt8 (Vec4 β)))
  let s := mulStep (Vec4.join A.c0 A.c1) s
  let s := mulStep (Vec4.join A.c2 A.c3) s
  let s := mulStep (Vec4.join A.c4 A.c5) s
  let s := mulStep (Vec4.join A.c6 A.c7) s
  let c0 := s.2.c0
  let c1 := s.2.c1
  let c2 := s.2.c2
  let c3 := s.2.c3
  let c4 := s.2.c4
  let c5 := s.2.c5
  let c6 := s.2.c6
  let c7 := s.2.c7
  let p0 := ADD c0.hi c0.lo
  let p1 := ADD c1.hi c1.lo
  let p2 := ADD c2.hi c2.lo
  let p3 := ADD c3.hi c3.lo
  let p4 := ADD c4.hi c4.lo
  let p5 := ADD c5.hi c5.lo
  let p6 := ADD c6.hi c6.lo
  let p7 := ADD c7.hi c7.lo
  ⟨p0, p1, p2, p3, p4, p5, p6, p7⟩

/-- src/eltfp448_1w_redradix.c:657-660 `mul`. -/
def mul {β : Type} [Lane β] (a b : Elt8 (Vec2 β)) : Elt8 (Vec2 β) := compress (intmul a b)

/-- src/eltfp448_1w_redradix.c:199-363 `sqrn`. -/
def sqrn {β : Type} [Lane β] (a : Elt8 (Vec2 β)) : ℕ → Elt8 (Vec2 β)
  | 0 => a
  | n + 1 => sqrn (sqrCarry (sqrRaw a)) n

/-- src/eltfp448_1w_redradix.c:662-664 `sqr`. -/
def sqr {β : Type} [Lane β] (c : Elt8 (Vec2 β)) : Elt8 (Vec2 β) := sqrn c 1

/-- Sixteen words in memory order, as an element. -/
def ofMem (w0 w1 w2 w3 w4 w5 w6 w7 w8 w9 w10 w11 w12 w13 w14 w15 : W) : Elt8 U :=
  ⟨⟨w0, w1⟩, ⟨w2, w3⟩, ⟨w4, w5⟩, ⟨w6, w7⟩, ⟨w8, w9⟩, ⟨w10, w11⟩, ⟨w12, w13⟩, ⟨w14, w15⟩⟩

/-- src/eltfp448_1w_redradix.c:757-774 `prime`. -/
def prime : Elt8 U :=
  ofMem 0xfffffff#64 0xfffffff#64 0xfffffff#64 0xfffffff#64 0xfffffff#64 0xfffffff#64
    0xfffffff#64 0xfffffff#64 0xffffffe#64 0xfffffff#64 0xfffffff#64 0xfffffff#64
    0xfffffff#64 0xfffffff#64 0xfffffff#64 0xfffffff#64

/-- src/eltfp448_1w_redradix.c:365-397 `unser`. -/
def unser (p8A : List Byte) : Elt8 U :=
  let A := F7.ofBytes p8A
  let mask : W := ((1#64 : W) <<< 28) - 1#64
  let C0 := A.w0 >>> 0
  let C2 := A.w0 >>> 28
  let C4 := (A.w0 >>> (2 * 28)) ||| (A.w1 <<< 8)
  let C6 := A.w1 >>> 20
  let C8 := (A.w1 >>> (20 + 28)) ||| (A.w2 <<< 16)
  let C10 := A.w2 >>> 12
  let C12 := (A.w2 >>> (12 + 28)) ||| (A.w3 <<< 24)
  let C14 := A.w3 >>> 4
  let C1 := A.w3 >>> (4 + 28)
  let C3 := (A.w3 >>> (4 + 2 * 28)) ||| (A.w4 <<< 4)
  let C5 := A.w4 >>> 24
  let C7 := (A.w4 >>> (24 + 28)) ||| (A.w5 <<< 12)
  let C9 := A.w5 >>> 16
  let C11 := (A.w5 >>> (16 + 28)) ||| (A.w6 <<< 20)
  let C13 := A.w6 >>> 8
  let C15 := A.w6 >>> (8 + 28)
  ofMem (C0 &&& mask) (C1 &&& mask) (C2 &&& mask) (C3 &&& mask) (C4 &&& mask) (C5 &&& mask)
    (C6 &&& mask) (C7 &&& mask) (C8 &&& mask) (C9 &&& mask) (C10 &&& mask) (C11 &&& mask)
    (C12 &&& mask) (C13 &&& mask) (C14 &&& mask) (C15 &&& mask)

/-- src/eltfp448_1w_redradix.c:399-438 `ser`: the words `pC`.  The limbs are read as signed
64-bit integers; no `__int128_t` computation below can overflow, so they are done on integers,
with `>>` rounding down and `<<` of a negative number multiplying, as GCC does. -/
def serWords (puA : Elt8 U) : F7 :=
  let a0 := puA.c0.l.toInt
  let a1 := puA.c0.h.toInt
  let a2 := puA.c1.l.toInt
  let a3 := puA.c1.h.toInt
  let a4 := puA.c2.l.toInt
  let a5 := puA.c2.h.toInt
  let a6 := puA.c3.l.toInt
  let a7 := puA.c3.h.toInt
  let a8 := puA.c4.l.toInt
  let a9 := puA.c4.h.toInt
  let a10 := puA.c5.l.toInt
  let a11 := puA.c5.h.toInt
  let a12 := puA.c6.l.toInt
  let a13 := puA.c6.h.toInt
  let a14 := puA.c7.l.toInt
  let a15 := puA.c7.h.toInt
  let tmp := a15 / 2 ^ 28
  let a15 := a15 % 2 ^ 28
  let a0 := a0 + tmp
  let a1 := a1 + tmp
  let c0 := a4 * 2 ^ (2 * 28) + a2 * 2 ^ 28 + a0
  let c1 := c0 / 2 ^ 64 + a8 * 2 ^ (20 + 28) + a6 * 2 ^ 20
  let c2 := c1 / 2 ^ 64 + a12 * 2 ^ (12 + 28) + a10 * 2 ^ 12
  let c3 := c2 / 2 ^ 64 + a3 * 2 ^ (4 + 2 * 28) + a1 * 2 ^ (4 + 28) + a14 * 2 ^ 4
  let c4 := c3 / 2 ^ 64 + a7 * 2 ^ (24 + 28) + a5 * 2 ^ 24
  let c5 := c4 / 2 ^ 64 + a11 * 2 ^ (16 + 28) + a9 * 2 ^ 16
  let c6 := c5 / 2 ^ 64 + a15 * 2 ^ (8 + 28) + a13 * 2 ^ 8
  let tmp := c6 / 2 ^ 64
  let c0 := c0 + tmp
  let c3 := c3 + tmp * 2 ^ (4 + 28)
  ⟨BitVec.ofInt 64 c0, BitVec.ofInt 64 c1, BitVec.ofInt 64 c2, BitVec.ofInt 64 c3,
    BitVec.ofInt 64 c4, BitVec.ofInt 64 c5, BitVec.ofInt 64 c6⟩

/-- src/eltfp448_1w_redradix.c:399-438 `ser`. -/
def ser (puA : Elt8 U) : List Byte := Full.ser (serWords puA)

/-- src/eltfp448_1w_redradix.c:440-446 `cmp`. -/
def cmp (a b : Elt8 U) : BitVec 32 := cmp_bytes (ser a) (ser b)

/-- src/eltfp448_1w_redradix.c:673-725, `invsqrt` up to the test of `only_inverse`, output
distinct from input: `srt` (737-739). -/
def srt (a : Elt8 U) : Elt8 U :=
  let t3 := a
  let t1 := t3
  let t1 := sqrn t1 1
  let t1 := mul t1 t3
  let t0 := t1
  let t0 := sqrn t0 1
  let t0 := mul t0 t3
  let t1 := t0
  let t1 := sqrn t1 3
  let t1 := mul t1 t0
  let t2 := t1
  let t2 := sqrn t2 6
  let t2 := mul t2 t1
  let t1 := t2
  let t1 := sqrn t1 12
  let t1 := mul t1 t2
  let t1 := sqrn t1 3
  let t1 := mul t1 t0
  let t2 := t1
  let t2 := sqrn t2 27
  let t2 := mul t2 t1
  let t1 := t2
  let t1 := sqrn t1 54
  let t1 := mul t1 t2
  let t1 := sqrn t1 3
  let t1 := mul t1 t0
  let t2 := t1
  let t2 := sqrn t2 111
  let t2 := mul t2 t1
  let t1 := t2
  let t1 := sqrn t1 1
  let t1 := mul t1 t3
  let t1 := sqrn t1 223
  let t1 := mul t1 t2
  t1

/-- src/eltfp448_1w_redradix.c:726-735, `inv` = `invsqrt` with `only_inverse`, output distinct
from input. -/
def inv (a : Elt8 U) : Elt8 U :=
  let t1 := srt a
  let t1 := sqrn t1 2
  mul t1 a

end R1

/-! ## Four-way code

Every lane is computed by itself, hence the class `Lane`. -/

namespace R4

open R2 (mul_karat_8x8 sqr_karat_8x8)

/-- 2p in limbs: src/eltfp448_4w_redradix.c:202-211 (in `sub`), 220-229 (in `addsub`). -/
def twoP {α : Type} [Lane α] : Elt16 α :=
  ⟨LIT 0x1ffffffe, LIT 0x1ffffffe, LIT 0x1ffffffe, LIT 0x1ffffffe, LIT 0x1ffffffe, LIT 0x1ffffffe,
    LIT 0x1ffffffe, LIT 0x1ffffffe, LIT 0x3ffffffc, LIT 0x1ffffffc, LIT 0x1ffffffe, LIT 0x1ffffffe,
    LIT 0x1ffffffe, LIT 0x1ffffffe, LIT 0x1ffffffe, LIT 0x1ffffffe⟩

/-- 2^34 p in limbs: src/eltfp448_4w_redradix.c:239-248 (in `addsublar`). -/
def twoTo34P {α : Type} [Lane α] : Elt16 α :=
  ⟨LIT 0x3ffffffc00000000, LIT 0x3ffffffc00000000, LIT 0x3ffffffc00000000, LIT 0x3ffffffc00000000,
    LIT 0x3ffffffc00000000, LIT 0x3ffffffc00000000, LIT 0x3ffffffc00000000, LIT 0x3ffffffc00000000,
    LIT 0x3ffffff800000000, LIT 0x3ffffffc00000000, LIT 0x3ffffffc00000000, LIT 0x3ffffffc00000000,
    LIT 0x3ffffffc00000000, LIT 0x3ffffffc00000000, LIT 0x3ffffffc00000000, LIT 0x3ffffffc00000000⟩

/-- src/eltfp448_4w_redradix.c:193-199 `add`. -/
def add {α : Type} [Lane α] (a b : Elt16 α) : Elt16 α := a.zip ADD b

/-- src/eltfp448_4w_redradix.c:201-217 `sub`. -/
def sub {α : Type} [Lane α] (a b : Elt16 α) : Elt16 α := a.zip ADD (twoP.zip SUB b)

/-- src/eltfp448_4w_redradix.c:219-236 `addsub`: (C, D), outputs distinct from the inputs or
equal to them entry by entry with `C` not `A` nor `B` unless no later entry is read: every entry
is written after it is read, so `C = A` would spoil `D`; the model is for `C` distinct from `A`
and `B`. -/
def addsub {α : Type} [Lane α] (a b : Elt16 α) : Elt16 α × Elt16 α :=
  (a.zip ADD b, a.zip ADD (twoP.zip SUB b))

/-- src/eltfp448_4w_redradix.c:238-257 `addsublar`: (a, b) becomes (a+b, a-b). -/
def addsublar {α : Type} [Lane α] (a b : Elt16 α) : Elt16 α × Elt16 α :=
  (a.zip ADD b, a.zip ADD (twoTo34P.zip SUB b))

/-- src/eltfp448_4w_redradix.c:343-390 `intmul_karat`, which is also `intmul`; the macros (lines 289-341 and
396-440) are textually those of the 2-way file. -/
def intmul {α : Type} [Lane α] (A B : Elt16 α) : Elt16 α :=
  let a0 := A.r0
  let a8 := A.r8
  let b0 := B.r0
  let b8 := B.r8
  let a1 := A.r1
  let a9 := A.r9
  let b1 := B.r1
  let b9 := B.r9
  let a2 := A.r2
  let a10 := A.r10
  let b2 := B.r2
  let b10 := B.r10
  let a3 := A.r3
  let a11 := A.r11
  let b3 := B.r3
  let b11 := B.r11
  let a4 := A.r4
  let a12 := A.r12
  let b4 := B.r4
  let b12 := B.r12
  let a5 := A.r5
  let a13 := A.r13
  let b5 := B.r5
  let b13 := B.r13
  let a6 := A.r6
  let a14 := A.r14
  let b6 := B.r6
  let b14 := B.r14
  let a7 := A.r7
  let a15 := A.r15
  let b7 := B.r7
  let b15 := B.r15
  let xv := mul_karat_8x8 a0 a1 a2 a3 a4 a5 a6 a7 b0 b1 b2 b3 b4 b5 b6 b7
  let x0 := xv.h0
  let x1 := xv.h1
  let x2 := xv.h2
  let x3 := xv.h3
  let x4 := xv.h4
  let x5 := xv.h5
  let x6 := xv.h6
  let x7 := xv.h7
  let x8 := xv.h8
  let x9 := xv.h9
  let x10 := xv.h10
  let x11 := xv.h11
  let x12 := xv.h12
  let x13 := xv.h13
  let x14 := xv.h14
  let yv := mul_karat_8x8 a8 a9 a10 a11 a12 a13 a14 a15 b8 b9 b10 b11 b12 b13 b14 b15
  let y0 := yv.h0
  let y1 := yv.h1
  let y2 := yv.h2
  let y3 := yv.h3
  let y4 := yv.h4
  let y5 := yv.h5
  let y6 := yv.h6
  let y7 := yv.h7
  let y8 := yv.h8
  let y9 := yv.h9
  let y10 := yv.h10
  let y11 := yv.h11
  let y12 := yv.h12
  let y13 := yv.h13
  let y14 := yv.h14
  let zv := mul_karat_8x8 (ADD a0 a8) (ADD a1 a9) (ADD a2 a10) (ADD a3 a11) (ADD a4 a12) (ADD a5 a13) (ADD a6 a14) (ADD a7 a15) (ADD b0 b8) (ADD b1 b9) (ADD b2 b10) (ADD b3 b11) (ADD b4 b12) (ADD b5 b13) (ADD b6 b14) (ADD b7 b15)
  let z0 := zv.h0
  let z1 := zv.h1
  let z2 := zv.h2
  let z3 := zv.h3
  let z4 := zv.h4
  let z5 := zv.h5
  let z6 := zv.h6
  let z7 := zv.h7
  let z8 := zv.h8
  let z9 := zv.h9
  let z10 := zv.h10
  let z11 := zv.h11
  let z12 := zv.h12
  let z13 := zv.h13
  let z14 := zv.h14
  let C_0 := SUB (ADD (ADD x0 y0) z8) x8
  let C_1 := SUB (ADD (ADD y8 z0) z8) x0
  let C_2 := SUB (ADD (ADD x1 y1) z9) x9
  let C_3 := SUB (ADD (ADD y9 z1) z9) x1
  let C_4 := SUB (ADD (ADD x2 y2) z10) x10
  let C_5 := SUB (ADD (ADD y10 z2) z10) x2
  let C_6 := SUB (ADD (ADD x3 y3) z11) x11
  let C_7 := SUB (ADD (ADD y11 z3) z11) x3
  let C_8 := SUB (ADD (ADD x4 y4) z12) x12
  let C_9 := SUB (ADD (ADD y12 z4) z12) x4
  let C_10 := SUB (ADD (ADD x5 y5) z13) x13
  let C_11 := SUB (ADD (ADD y13 z5) z13) x5
  let C_12 := SUB (ADD (ADD x6 y6) z14) x14
  let C_13 := SUB (ADD (ADD y14 z6) z14) x6
  let C_14 := ADD x7 y7
  let C_15 := SUB z7 x7
  ⟨C_0, C_2, C_4, C_6, C_8, C_10, C_12, C_14, C_1, C_3, C_5, C_7, C_9, C_11, C_13, C_15⟩

/-- src/eltfp448_4w_redradix.c:442-479 `intsqr_karat`, which is also `intsqr`; the macros (lines 289-341 and
396-440) are textually those of the 2-way file. -/
def intsqr {α : Type} [Lane α] (A : Elt16 α) : Elt16 α :=
  let a0 := A.r0
  let a8 := A.r8
  let a1 := A.r1
  let a9 := A.r9
  let a2 := A.r2
  let a10 := A.r10
  let a3 := A.r3
  let a11 := A.r11
  let a4 := A.r4
  let a12 := A.r12
  let a5 := A.r5
  let a13 := A.r13
  let a6 := A.r6
  let a14 := A.r14
  let a7 := A.r7
  let a15 := A.r15
  let xv := sqr_karat_8x8 a0 a1 a2 a3 a4 a5 a6 a7
  let x0 := xv.h0
  let x1 := xv.h1
  let x2 := xv.h2
  let x3 := xv.h3
  let x4 := xv.h4
  let x5 := xv.h5
  let x6 := xv.h6
  let x7 := xv.h7
  let x8 := xv.h8
  let x9 := xv.h9
  let x10 := xv.h10
  let x11 := xv.h11
  let x12 := xv.h12
  let x13 := xv.h13
  let x14 := xv.h14
  let yv := sqr_karat_8x8 a8 a9 a10 a11 a12 a13 a14 a15
  let y0 := yv.h0
  let y1 := yv.h1
  let y2 := yv.h2
  let y3 := yv.h3
  let y4 := yv.h4
  let y5 := yv.h5
  let y6 := yv.h6
  let y7 := yv.h7
  let y8 := yv.h8
  let y9 := yv.h9
  let y10 := yv.h10
  let y11 := yv.h11
  let y12 := yv.h12
  let y13 := yv.h13
  let y14 := yv.h14
  let zv := sqr_karat_8x8 (ADD a0 a8) (ADD a1 a9) (ADD a2 a10) (ADD a3 a11) (ADD a4 a12) (ADD a5 a13) (ADD a6 a14) (ADD a7 a15)
  let z0 := zv.h0
  let z1 := zv.h1
  let z2 := zv.h2
  let z3 := zv.h3
  let z4 := zv.h4
  let z5 := zv.h5
  let z6 := zv.h6
  let z7 := zv.h7
  let z8 := zv.h8
  let z9 := zv.h9
  let z10 := zv.h10
  let z11 := zv.h11
  let z12 := zv.h12
  let z13 := zv.h13
  let z14 := zv.h14
  let A_0 := SUB (ADD (ADD x0 y0) z8) x8
  let A_1 := SUB (ADD (ADD y8 z0) z8) x0
  let A_2 := SUB (ADD (ADD x1 y1) z9) x9
  let A_3 := SUB (ADD (ADD y9 z1) z9) x1
  let A_4 := SUB (ADD (ADD x2 y2) z10) x10
  let A_5 := SUB (ADD (ADD y10 z2) z10) x2
  let A_6 := SUB (ADD (ADD x3 y3) z11) x11
  let A_7 := SUB (ADD (ADD y11 z3) z11) x3
  let A_8 := SUB (ADD (ADD x4 y4) z12) x12
  let A_9 := SUB (ADD (ADD y12 z4) z12) x4
  let A_10 := SUB (ADD (ADD x5 y5) z13) x13
  let A_11 := SUB (ADD (ADD y13 z5) z13) x5
  let A_12 := SUB (ADD (ADD x6 y6) z14) x14
  let A_13 := SUB (ADD (ADD y14 z6) z14) x6
  let A_14 := ADD x7 y7
  let A_15 := SUB z7 x7
  ⟨A_0, A_2, A_4, A_6, A_8, A_10, A_12, A_14, A_1, A_3, A_5, A_7, A_9, A_11, A_13, A_15⟩

/-- src/eltfp448_4w_redradix.c:495-525 `compress`; `CARRY_WORD` is the macro of lines 490-493. -/
def compress {α : Type} [Lane α] (c : Elt16 α) : Elt16 α :=
  let C0 := c.r0
  let C2 := c.r1
  let C4 := c.r2
  let C6 := c.r3
  let C8 := c.r4
  let C10 := c.r5
  let C12 := c.r6
  let C14 := c.r7
  let C1 := c.r8
  let C3 := c.r9
  let C5 := c.r10
  let C7 := c.r11
  let C9 := c.r12
  let C11 := c.r13
  let C13 := c.r14
  let C15 := c.r15
  let h := SHR C0 28
  let C0 := AND C0 (LIT (2 ^ 28 - 1))
  let C2 := ADD C2 h
  let h := SHR C2 28
  let C2 := AND C2 (LIT (2 ^ 28 - 1))
  let C4 := ADD C4 h
  let h := SHR C4 28
  let C4 := AND C4 (LIT (2 ^ 28 - 1))
  let C6 := ADD C6 h
  let h := SHR C6 28
  let C6 := AND C6 (LIT (2 ^ 28 - 1))
  let C8 := ADD C8 h
  let h := SHR C8 28
  let C8 := AND C8 (LIT (2 ^ 28 - 1))
  let C10 := ADD C10 h
  let h := SHR C10 28
  let C10 := AND C10 (LIT (2 ^ 28 - 1))
  let C12 := ADD C12 h
  let h := SHR C12 28
  let C12 := AND C12 (LIT (2 ^ 28 - 1))
  let C14 := ADD C14 h
  let h := SHR C14 28
  let C14 := AND C14 (LIT (2 ^ 28 - 1))
  let C1 := ADD C1 h
  let h := SHR C1 28
  let C1 := AND C1 (LIT (2 ^ 28 - 1))
  let C3 := ADD C3 h
  let h := SHR C3 28
  let C3 := AND C3 (LIT (2 ^ 28 - 1))
  let C5 := ADD C5 h
  let h := SHR C5 28
  let C5 := AND C5 (LIT (2 ^ 28 - 1))
  let C7 := ADD C7 h
  let h := SHR C7 28
  let C7 := AND C7 (LIT (2 ^ 28 - 1))
  let C9 := ADD C9 h
  let h := SHR C9 28
  let C9 := AND C9 (LIT (2 ^ 28 - 1))
  let C11 := ADD C11 h
  let h := SHR C11 28
  let C11 := AND C11 (LIT (2 ^ 28 - 1))
  let C13 := ADD C13 h
  let h := SHR C13 28
  let C13 := AND C13 (LIT (2 ^ 28 - 1))
  let C15 := ADD C15 h
  let residue := SHR C15 28
  let C15 := AND C15 (LIT (2 ^ 28 - 1))
  let C0 := ADD C0 residue
  let h := SHR C0 28
  let C0 := AND C0 (LIT (2 ^ 28 - 1))
  let C2 := ADD C2 h
  let h := SHR C2 28
  let C2 := AND C2 (LIT (2 ^ 28 - 1))
  let C4 := ADD C4 h
  let C1 := ADD C1 residue
  let h := SHR C1 28
  let C1 := AND C1 (LIT (2 ^ 28 - 1))
  let C3 := ADD C3 h
  let h := SHR C3 28
  let C3 := AND C3 (LIT (2 ^ 28 - 1))
  let C5 := ADD C5 h
  ⟨C0, C2, C4, C6, C8, C10, C12, C14, C1, C3, C5, C7, C9, C11, C13, C15⟩

/-- src/eltfp448_4w_redradix.c:527-557 `compress2`. -/
def compress2 {α : Type} [Lane α] (c d : Elt16 α) : Elt16 α × Elt16 α :=
  let C0 := c.r0
  let C2 := c.r1
  let C4 := c.r2
  let C6 := c.r3
  let C8 := c.r4
  let C10 := c.r5
  let C12 := c.r6
  let C14 := c.r7
  let C1 := c.r8
  let C3 := c.r9
  let C5 := c.r10
  let C7 := c.r11
  let C9 := c.r12
  let C11 := c.r13
  let C13 := c.r14
  let C15 := c.r15
  let D0 := d.r0
  let D2 := d.r1
  let D4 := d.r2
  let D6 := d.r3
  let D8 := d.r4
  let D10 := d.r5
  let D12 := d.r6
  let D14 := d.r7
  let D1 := d.r8
  let D3 := d.r9
  let D5 := d.r10
  let D7 := d.r11
  let D9 := d.r12
  let D11 := d.r13
  let D13 := d.r14
  let D15 := d.r15
  let h0 := SHR C0 28
  let C0 := AND C0 (LIT (2 ^ 28 - 1))
  let C2 := ADD C2 h0
  let h1 := SHR D0 28
  let D0 := AND D0 (LIT (2 ^ 28 - 1))
  let D2 := ADD D2 h1
  let h0 := SHR C2 28
  let C2 := AND C2 (LIT (2 ^ 28 - 1))
  let C4 := ADD C4 h0
  let h1 := SHR D2 28
  let D2 := AND D2 (LIT (2 ^ 28 - 1))
  let D4 := ADD D4 h1
  let h0 := SHR C4 28
  let C4 := AND C4 (LIT (2 ^ 28 - 1))
  let C6 := ADD C6 h0
  let h1 := SHR D4 28
  let D4 := AND D4 (LIT (2 ^ 28 - 1))
  let D6 := ADD D6 h1
  let h0 := SHR C6 28
  let C6 := AND C6 (LIT (2 ^ 28 - 1))
  let C8 := ADD C8 h0
  let h1 := SHR D6 28
  let D6 := AND D6 (LIT (2 ^ 28 - 1))
  let D8 := ADD D8 h1
  let h0 := SHR C8 28
  let C8 := AND C8 (LIT (2 ^ 28 - 1))
  let C10 := ADD C10 h0
  let h1 := SHR D8 28
  let D8 := AND D8 (LIT (2 ^ 28 - 1))
  let D10 := ADD D10 h1
  let h0 := SHR C10 28
  let C10 := AND C10 (LIT (2 ^ 28 - 1))
  let C12 := ADD C12 h0
  let h1 := SHR D10 28
  let D10 := AND D10 (LIT (2 ^ 28 - 1))
  let D12 := ADD D12 h1
  let h0 := SHR C12 28
  let C12 := AND C12 (LIT (2 ^ 28 - 1))
  let C14 := ADD C14 h0
  let h1 := SHR D12 28
  let D12 := AND D12 (LIT (2 ^ 28 - 1))
  let D14 := ADD D14 h1
  let h0 := SHR C14 28
  let C14 := AND C14 (LIT (2 ^ 28 - 1))
  let C1 := ADD C1 h0
  let h1 := SHR D14 28
  let D14 := AND D14 (LIT (2 ^ 28 - 1))
  let D1 := ADD D1 h1
  let h0 := SHR C1 28
  let C1 := AND C1 (LIT (2 ^ 28 - 1))
  let C3 := ADD C3 h0
  let h1 := SHR D1 28
  let D1 := AND D1 (LIT (2 ^ 28 - 1))
  let D3 := ADD D3 h1
  let h0 := SHR C3 28
  let C3 := AND C3 (LIT (2 ^ 28 - 1))
  let C5 := ADD C5 h0
  let h1 := SHR D3 28
  let D3 := AND D3 (LIT (2 ^ 28 - 1))
  let D5 := ADD D5 h1
  let h0 := SHR C5 28
  let C5 := AND C5 (LIT (2 ^ 28 - 1))
  let C7 := ADD C7 h0
  let h1 := SHR D5 28
  let D5 := AND D5 (LIT (2 ^ 28 - 1))
  let D7 := ADD D7 h1
  let h0 := SHR C7 28
  let C7 := AND C7 (LIT (2 ^ 28 - 1))
  let C9 := ADD C9 h0
  let h1 := SHR D7 28
  let D7 := AND D7 (LIT (2 ^ 28 - 1))
  let D9 := ADD D9 h1
  let h0 := SHR C9 28
  let C9 := AND C9 (LIT (2 ^ 28 - 1))
  let C11 := ADD C11 h0
  let h1 := SHR D9 28
  let D9 := AND D9 (LIT (2 ^ 28 - 1))
  let D11 := ADD D11 h1
  let h0 := SHR C11 28
  let C11 := AND C11 (LIT (2 ^ 28 - 1))
  let C13 := ADD C13 h0
  let h1 := SHR D11 28
  let D11 := AND D11 (LIT (2 ^ 28 - 1))
  let D13 := ADD D13 h1
  let h0 := SHR C13 28
  let C13 := AND C13 (LIT (2 ^ 28 - 1))
  let C15 := ADD C15 h0
  let h1 := SHR D13 28
  let D13 := AND D13 (LIT (2 ^ 28 - 1))
  let D15 := ADD D15 h1
  let residue0 := SHR C15 28
  let residue1 := SHR D15 28
  let C15 := AND C15 (LIT (2 ^ 28 - 1))
  let D15 := AND D15 (LIT (2 ^ 28 - 1))
  let C0 := ADD C0 residue0
  let D0 := ADD D0 residue1
  let h0 := SHR C0 28
  let C0 := AND C0 (LIT (2 ^ 28 - 1))
  let C2 := ADD C2 h0
  let h1 := SHR D0 28
  let D0 := AND D0 (LIT (2 ^ 28 - 1))
  let D2 := ADD D2 h1
  let h0 := SHR C2 28
  let C2 := AND C2 (LIT (2 ^ 28 - 1))
  let C4 := ADD C4 h0
  let h1 := SHR D2 28
  let D2 := AND D2 (LIT (2 ^ 28 - 1))
  let D4 := ADD D4 h1
  let C1 := ADD C1 residue0
  let D1 := ADD D1 residue1
  let h0 := SHR C1 28
  let C1 := AND C1 (LIT (2 ^ 28 - 1))
  let C3 := ADD C3 h0
  let h1 := SHR D1 28
  let D1 := AND D1 (LIT (2 ^ 28 - 1))
  let D3 := ADD D3 h1
  let h0 := SHR C3 28
  let C3 := AND C3 (LIT (2 ^ 28 - 1))
  let C5 := ADD C5 h0
  let h1 := SHR D3 28
  let D3 := AND D3 (LIT (2 ^ 28 - 1))
  let D5 := ADD D5 h1
  (⟨C0, C2, C4, C6, C8, C10, C12, C14, C1, C3, C5, C7, C9, C11, C13, C15⟩,
    ⟨D0, D2, D4, D6, D8, D10, D12, D14, D1, D3, D5, D7, D9, D11, D13, D15⟩)

/-- src/eltfp448_4w_redradix.c:559-594 `compressfast`. -/
def compressfast {α : Type} [Lane α] (c : Elt16 α) : Elt16 α :=
  let C0 := c.r0
  let C2 := c.r1
  let C4 := c.r2
  let C6 := c.r3
  let C8 := c.r4
  let C10 := c.r5
  let C12 := c.r6
  let C14 := c.r7
  let C1 := c.r8
  let C3 := c.r9
  let C5 := c.r10
  let C7 := c.r11
  let C9 := c.r12
  let C11 := c.r13
  let C13 := c.r14
  let C15 := c.r15
  let M_0 := SHR C0 28
  let M_0 := AND M_0 (LIT (2 ^ 28 - 1))
  let H_0 := SHR C0 56
  let C0 := AND C0 (LIT (2 ^ 28 - 1))
  let M_1 := SHR C1 28
  let M_1 := AND M_1 (LIT (2 ^ 28 - 1))
  let H_1 := SHR C1 56
  let C1 := AND C1 (LIT (2 ^ 28 - 1))
  let M_2 := SHR C2 28
  let M_2 := AND M_2 (LIT (2 ^ 28 - 1))
  let H_2 := SHR C2 56
  let C2 := AND C2 (LIT (2 ^ 28 - 1))
  let M_3 := SHR C3 28
  let M_3 := AND M_3 (LIT (2 ^ 28 - 1))
  let H_3 := SHR C3 56
  let C3 := AND C3 (LIT (2 ^ 28 - 1))
  let M_4 := SHR C4 28
  let M_4 := AND M_4 (LIT (2 ^ 28 - 1))
  let H_4 := SHR C4 56
  let C4 := AND C4 (LIT (2 ^ 28 - 1))
  let M_5 := SHR C5 28
  let M_5 := AND M_5 (LIT (2 ^ 28 - 1))
  let H_5 := SHR C5 56
  let C5 := AND C5 (LIT (2 ^ 28 - 1))
  let M_6 := SHR C6 28
  let M_6 := AND M_6 (LIT (2 ^ 28 - 1))
  let H_6 := SHR C6 56
  let C6 := AND C6 (LIT (2 ^ 28 - 1))
  let M_7 := SHR C7 28
  let M_7 := AND M_7 (LIT (2 ^ 28 - 1))
  let H_7 := SHR C7 56
  let C7 := AND C7 (LIT (2 ^ 28 - 1))
  let M_8 := SHR C8 28
  let M_8 := AND M_8 (LIT (2 ^ 28 - 1))
  let H_8 := SHR C8 56
  let C8 := AND C8 (LIT (2 ^ 28 - 1))
  let M_9 := SHR C9 28
  let M_9 := AND M_9 (LIT (2 ^ 28 - 1))
  let H_9 := SHR C9 56
  let C9 := AND C9 (LIT (2 ^ 28 - 1))
  let M_10 := SHR C10 28
  let M_10 := AND M_10 (LIT (2 ^ 28 - 1))
  let H_10 := SHR C10 56
  let C10 := AND C10 (LIT (2 ^ 28 - 1))
  let M_11 := SHR C11 28
  let M_11 := AND M_11 (LIT (2 ^ 28 - 1))
  let H_11 := SHR C11 56
  let C11 := AND C11 (LIT (2 ^ 28 - 1))
  let M_12 := SHR C12 28
  let M_12 := AND M_12 (LIT (2 ^ 28 - 1))
  let H_12 := SHR C12 56
  let C12 := AND C12 (LIT (2 ^ 28 - 1))
  let M_13 := SHR C13 28
  let M_13 := AND M_13 (LIT (2 ^ 28 - 1))
  let H_13 := SHR C13 56
  let C13 := AND C13 (LIT (2 ^ 28 - 1))
  let M_14 := SHR C14 28
  let M_14 := AND M_14 (LIT (2 ^ 28 - 1))
  let H_14 := SHR C14 56
  let C14 := AND C14 (LIT (2 ^ 28 - 1))
  let M_15 := SHR C15 28
  let M_15 := AND M_15 (LIT (2 ^ 28 - 1))
  let H_15 := SHR C15 56
  let C15 := AND C15 (LIT (2 ^ 28 - 1))
  let C0 := ADD C0 (ADD M_15 H_13)
  let C2 := ADD C2 (ADD M_0 H_15)
  let C4 := ADD C4 (ADD M_2 H_0)
  let C6 := ADD C6 (ADD M_4 H_2)
  let C8 := ADD C8 (ADD M_6 H_4)
  let C10 := ADD C10 (ADD M_8 H_6)
  let C12 := ADD C12 (ADD M_10 H_8)
  let C14 := ADD C14 (ADD M_12 H_10)
  let C1 := ADD C1 (ADD M_15 H_13)
  let C3 := ADD C3 H_15
  let C1 := ADD C1 (ADD M_14 H_12)
  let C3 := ADD C3 (ADD M_1 H_14)
  let C5 := ADD C5 (ADD M_3 H_1)
  let C7 := ADD C7 (ADD M_5 H_3)
  let C9 := ADD C9 (ADD M_7 H_5)
  let C11 := ADD C11 (ADD M_9 H_7)
  let C13 := ADD C13 (ADD M_11 H_9)
  let C15 := ADD C15 (ADD M_13 H_11)
  ⟨C0, C2, C4, C6, C8, C10, C12, C14, C1, C3, C5, C7, C9, C11, C13, C15⟩

/-- src/eltfp448_4w_redradix.c:596-629 `new_compressfast2`. -/
def new_compressfast2 {α : Type} [Lane α] (c d : Elt16 α) : Elt16 α × Elt16 α :=
  let C0 := c.r0
  let C2 := c.r1
  let C4 := c.r2
  let C6 := c.r3
  let C8 := c.r4
  let C10 := c.r5
  let C12 := c.r6
  let C14 := c.r7
  let C1 := c.r8
  let C3 := c.r9
  let C5 := c.r10
  let C7 := c.r11
  let C9 := c.r12
  let C11 := c.r13
  let C13 := c.r14
  let C15 := c.r15
  let D0 := d.r0
  let D2 := d.r1
  let D4 := d.r2
  let D6 := d.r3
  let D8 := d.r4
  let D10 := d.r5
  let D12 := d.r6
  let D14 := d.r7
  let D1 := d.r8
  let D3 := d.r9
  let D5 := d.r10
  let D7 := d.r11
  let D9 := d.r12
  let D11 := d.r13
  let D13 := d.r14
  let D15 := d.r15
  let M0_0 := SHR C0 28
  let M1_0 := SHR D0 28
  let M0_0 := AND M0_0 (LIT (2 ^ 28 - 1))
  let M1_0 := AND M1_0 (LIT (2 ^ 28 - 1))
  let C0 := AND C0 (LIT (2 ^ 28 - 1))
  let D0 := AND D0 (LIT (2 ^ 28 - 1))
  let M0_1 := SHR C1 28
  let M1_1 := SHR D1 28
  let M0_1 := AND M0_1 (LIT (2 ^ 28 - 1))
  let M1_1 := AND M1_1 (LIT (2 ^ 28 - 1))
  let C1 := AND C1 (LIT (2 ^ 28 - 1))
  let D1 := AND D1 (LIT (2 ^ 28 - 1))
  let M0_2 := SHR C2 28
  let M1_2 := SHR D2 28
  let M0_2 := AND M0_2 (LIT (2 ^ 28 - 1))
  let M1_2 := AND M1_2 (LIT (2 ^ 28 - 1))
  let C2 := AND C2 (LIT (2 ^ 28 - 1))
  let D2 := AND D2 (LIT (2 ^ 28 - 1))
  let M0_3 := SHR C3 28
  let M1_3 := SHR D3 28
  let M0_3 := AND M0_3 (LIT (2 ^ 28 - 1))
  let M1_3 := AND M1_3 (LIT (2 ^ 28 - 1))
  let C3 := AND C3 (LIT (2 ^ 28 - 1))
  let D3 := AND D3 (LIT (2 ^ 28 - 1))
  let M0_4 := SHR C4 28
  let M1_4 := SHR D4 28
  let M0_4 := AND M0_4 (LIT (2 ^ 28 - 1))
  let M1_4 := AND M1_4 (LIT (2 ^ 28 - 1))
  let C4 := AND C4 (LIT (2 ^ 28 - 1))
  let D4 := AND D4 (LIT (2 ^ 28 - 1))
  let M0_5 := SHR C5 28
  let M1_5 := SHR D5 28
  let M0_5 := AND M0_5 (LIT (2 ^ 28 - 1))
  let M1_5 := AND M1_5 (LIT (2 ^ 28 - 1))
  let C5 := AND C5 (LIT (2 ^ 28 - 1))
  let D5 := AND D5 (LIT (2 ^ 28 - 1))
  let M0_6 := SHR C6 28
  let M1_6 := SHR D6 28
  let M0_6 := AND M0_6 (LIT (2 ^ 28 - 1))
  let M1_6 := AND M1_6 (LIT (2 ^ 28 - 1))
  let C6 := AND C6 (LIT (2 ^ 28 - 1))
  let D6 := AND D6 (LIT (2 ^ 28 - 1))
  let M0_7 := SHR C7 28
  let M1_7 := SHR D7 28
  let M0_7 := AND M0_7 (LIT (2 ^ 28 - 1))
  let M1_7 := AND M1_7 (LIT (2 ^ 28 - 1))
  let C7 := AND C7 (LIT (2 ^ 28 - 1))
  let D7 := AND D7 (LIT (2 ^ 28 - 1))
  let M0_8 := SHR C8 28
  let M1_8 := SHR D8 28
  let M0_8 := AND M0_8 (LIT (2 ^ 28 - 1))
  let M1_8 := AND M1_8 (LIT (2 ^ 28 - 1))
  let C8 := AND C8 (LIT (2 ^ 28 - 1))
  let D8 := AND D8 (LIT (2 ^ 28 - 1))
  let M0_9 := SHR C9 28
  let M1_9 := SHR D9 28
  let M0_9 := AND M0_9 (LIT (2 ^ 28 - 1))
  let M1_9 := AND M1_9 (LIT (2 ^ 28 - 1))
  let C9 := AND C9 (LIT (2 ^ 28 - 1))
  let D9 := AND D9 (LIT (2 ^ 28 - 1))
  let M0_10 := SHR C10 28
  let M1_10 := SHR D10 28
  let M0_10 := AND M0_10 (LIT (2 ^ 28 - 1))
  let M1_10 := AND M1_10 (LIT (2 ^ 28 - 1))
  let C10 := AND C10 (LIT (2 ^ 28 - 1))
  let D10 := AND D10 (LIT (2 ^ 28 - 1))
  let M0_11 := SHR C11 28
  let M1_11 := SHR D11 28
  let M0_11 := AND M0_11 (LIT (2 ^ 28 - 1))
  let M1_11 := AND M1_11 (LIT (2 ^ 28 - 1))
  let C11 := AND C11 (LIT (2 ^ 28 - 1))
  let D11 := AND D11 (LIT (2 ^ 28 - 1))
  let M0_12 := SHR C12 28
  let M1_12 := SHR D12 28
  let M0_12 := AND M0_12 (LIT (2 ^ 28 - 1))
  let M1_12 := AND M1_12 (LIT (2 ^ 28 - 1))
  let C12 := AND C12 (LIT (2 ^ 28 - 1))
  let D12 := AND D12 (LIT (2 ^ 28 - 1))
  let M0_13 := SHR C13 28
  let M1_13 := SHR D13 28
  let M0_13 := AND M0_13 (LIT (2 ^ 28 - 1))
  let M1_13 := AND M1_13 (LIT (2 ^ 28 - 1))
  let C13 := AND C13 (LIT (2 ^ 28 - 1))
  let D13 := AND D13 (LIT (2 ^ 28 - 1))
  let M0_14 := SHR C14 28
  let M1_14 := SHR D14 28
  let M0_14 := AND M0_14 (LIT (2 ^ 28 - 1))
  let M1_14 := AND M1_14 (LIT (2 ^ 28 - 1))
  let C14 := AND C14 (LIT (2 ^ 28 - 1))
  let D14 := AND D14 (LIT (2 ^ 28 - 1))
  let M0_15 := SHR C15 28
  let M1_15 := SHR D15 28
  let M0_15 := AND M0_15 (LIT (2 ^ 28 - 1))
  let M1_15 := AND M1_15 (LIT (2 ^ 28 - 1))
  let C15 := AND C15 (LIT (2 ^ 28 - 1))
  let D15 := AND D15 (LIT (2 ^ 28 - 1))
  let C0 := ADD C0 M0_15
  let D0 := ADD D0 M1_15
  let C2 := ADD C2 M0_0
  let D2 := ADD D2 M1_0
  let C4 := ADD C4 M0_2
  let D4 := ADD D4 M1_2
  let C6 := ADD C6 M0_4
  let D6 := ADD D6 M1_4
  let C8 := ADD C8 M0_6
  let D8 := ADD D8 M1_6
  let C10 := ADD C10 M0_8
  let D10 := ADD D10 M1_8
  let C12 := ADD C12 M0_10
  let D12 := ADD D12 M1_10
  let C14 := ADD C14 M0_12
  let D14 := ADD D14 M1_12
  let C1 := ADD C1 M0_15
  let D1 := ADD D1 M1_15
  let C1 := ADD C1 M0_14
  let D1 := ADD D1 M1_14
  let C3 := ADD C3 M0_1
  let D3 := ADD D3 M1_1
  let C5 := ADD C5 M0_3
  let D5 := ADD D5 M1_3
  let C7 := ADD C7 M0_5
  let D7 := ADD D7 M1_5
  let C9 := ADD C9 M0_7
  let D9 := ADD D9 M1_7
  let C11 := ADD C11 M0_9
  let D11 := ADD D11 M1_9
  let C13 := ADD C13 M0_11
  let D13 := ADD D13 M1_11
  let C15 := ADD C15 M0_13
  let D15 := ADD D15 M1_13
  (⟨C0, C2, C4, C6, C8, C10, C12, C14, C1, C3, C5, C7, C9, C11, C13, C15⟩,
    ⟨D0, D2, D4, D6, D8, D10, D12, D14, D1, D3, D5, D7, D9, D11, D13, D15⟩)

/-- src/eltfp448_4w_redradix.c:631-634 `mul`. -/
def mul {α : Type} [Lane α] (a b : Elt16 α) : Elt16 α := compress (intmul a b)

/-- src/eltfp448_4w_redradix.c:636-639 `sqr`. -/
def sqr {α : Type} [Lane α] (c : Elt16 α) : Elt16 α := compress (intsqr c)

/-- Two vectors of `zip`: `UPKL64`, `UPKH64` of the 128-bit halves. -/
def zipPair {β : Type} (A B C D : Vec4 β) : (Vec4 β × Vec4 β) × (Vec4 β × Vec4 β) :=
  let AC0 := PERM128 A C 0x20
  let BD0 := PERM128 B D 0x20
  let AC2 := PERM128 A C 0x31
  let BD2 := PERM128 B D 0x31
  ((UPKL64 AC0 BD0, UPKH64 AC0 BD0), (UPKL64 AC2 BD2, UPKH64 AC2 BD2))

/-- src/eltfp448_4w_redradix.c:77-133 `zip`; the four blocks of the C text are the same up to
the offset and are `zipPair`. -/
def zip {β : Type} (pA pB pC pD : Elt8 (Vec2 β)) : Elt16 (Vec4 β) :=
  let z0 := zipPair (Vec4.join pA.c0 pA.c1) (Vec4.join pB.c0 pB.c1) (Vec4.join pC.c0 pC.c1)
    (Vec4.join pD.c0 pD.c1)
  let z1 := zipPair (Vec4.join pA.c2 pA.c3) (Vec4.join pB.c2 pB.c3) (Vec4.join pC.c2 pC.c3)
    (Vec4.join pD.c2 pD.c3)
  let z2 := zipPair (Vec4.join pA.c4 pA.c5) (Vec4.join pB.c4 pB.c5) (Vec4.join pC.c4 pC.c5)
    (Vec4.join pD.c4 pD.c5)
  let z3 := zipPair (Vec4.join pA.c6 pA.c7) (Vec4.join pB.c6 pB.c7) (Vec4.join pC.c6 pC.c7)
    (Vec4.join pD.c6 pD.c7)
  ⟨z0.1.1, z0.2.1, z1.1.1, z1.2.1, z2.1.1, z2.2.1, z3.1.1, z3.2.1,
    z0.1.2, z0.2.2, z1.1.2, z1.2.2, z2.1.2, z2.2.2, z3.1.2, z3.2.2⟩

/-- One block of `unzip`: the two halves of each of the four results. -/
def unzipPair {β : Type} (A0 A1 A2 A3 : Vec4 β) : Vec4 β × Vec4 β × Vec4 β × Vec4 β :=
  let A02 := PERM128 A0 A2 0x20
  let A13 := PERM128 A1 A3 0x20
  let C02 := PERM128 A0 A2 0x31
  let C13 := PERM128 A1 A3 0x31
  (UPKL64 A02 A13, UPKH64 A02 A13, UPKL64 C02 C13, UPKH64 C02 C13)

/-- src/eltfp448_4w_redradix.c:135-191 `unzip`. -/
def unzip {β : Type} (A : Elt16 (Vec4 β)) :
    Elt8 (Vec2 β) × Elt8 (Vec2 β) × Elt8 (Vec2 β) × Elt8 (Vec2 β) :=
  let u0 := unzipPair A.r0 A.r8 A.r1 A.r9
  let u1 := unzipPair A.r2 A.r10 A.r3 A.r11
  let u2 := unzipPair A.r4 A.r12 A.r5 A.r13
  let u3 := unzipPair A.r6 A.r14 A.r7 A.r15
  (⟨u0.1.lo, u0.1.hi, u1.1.lo, u1.1.hi, u2.1.lo, u2.1.hi, u3.1.lo, u3.1.hi⟩,
    ⟨u0.2.1.lo, u0.2.1.hi, u1.2.1.lo, u1.2.1.hi, u2.2.1.lo, u2.2.1.hi, u3.2.1.lo, u3.2.1.hi⟩,
    ⟨u0.2.2.1.lo, u0.2.2.1.hi, u1.2.2.1.lo, u1.2.2.1.hi, u2.2.2.1.lo, u2.2.2.1.hi, u3.2.2.1.lo,
      u3.2.2.1.hi⟩,
    ⟨u0.2.2.2.lo, u0.2.2.2.hi, u1.2.2.2.lo, u1.2.2.2.hi, u2.2.2.2.lo, u2.2.2.2.hi, u3.2.2.2.lo,
      u3.2.2.2.hi⟩)

/-- src/eltfp448_4w_redradix.c:29-61 `str_bytes_to_Element_4w_h0h8`: each lane of the seven
vectors holds one word of a 448-bit string. -/
def ofWords (n0 n1 n2 n3 n4 n5 n6 : V) : Elt16 V :=
  let m : V := LIT (2 ^ 28 - 1)
  let A0 := n0
  let A2 := SHR n0 28
  let A4 := XOR (SHR n0 (2 * 28)) (SHL n1 8)
  let A6 := SHR n1 20
  let A8 := XOR (SHR n1 (20 + 28)) (SHL n2 16)
  let A10 := SHR n2 12
  let A12 := XOR (SHR n2 (12 + 28)) (SHL n3 24)
  let A14 := SHR n3 4
  let A1 := SHR n3 (4 + 28)
  let A3 := XOR (SHR n3 (4 + 2 * 28)) (SHL n4 4)
  let A5 := SHR n4 24
  let A7 := XOR (SHR n4 (24 + 28)) (SHL n5 12)
  let A9 := SHR n5 16
  let A11 := XOR (SHR n5 (16 + 28)) (SHL n6 20)
  let A13 := SHR n6 8
  let A15 := SHR n6 (8 + 28)
  ⟨AND A0 m, AND A2 m, AND A4 m, AND A6 m, AND A8 m, AND A10 m, AND A12 m, AND A14 m,
    AND A1 m, AND A3 m, AND A5 m, AND A7 m, AND A9 m, AND A11 m, AND A13 m, AND A15 m⟩

/-- src/eltfp448_4w_redradix.c:259-287 `ngz`: [X, Y, T, Z] becomes [Y, X, -T, Z]. -/
def ngz (a : Elt16 V) : Elt16 V :=
  let K : Elt16 V := (twoP : Elt16 W).map fun p => ⟨0#64, 0#64, p, 0#64⟩
  let mask := SET64 0 (-1) 0 0
  K.zip (fun (k x : V) => BLEND32 (SHUF4E x) (ADD k (SUB (XOR x mask) mask)) 0xF0) a

end R4

end Verif.Fp448
