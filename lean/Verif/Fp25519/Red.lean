import Verif.Simd.Basic
import Verif.Fp25519.Full

/-!
# Reduced-radix Fp25519

Models of `_1w_redradix`, `_2w_redradix` and `_4w_redradix` (vector instructions).
An element is ten limbs r0..r9, limb i having weight 2^⌈25.5 i⌉, stored in the order
r0 r5 r1 r6 r2 r7 r3 r8 r4 r9.

* `Elt5 α` is the 1-way and the 2-way layout: vector i holds (r_i, r_{i+5}) in each
  128-bit half.  At `α = U` it is one element (`EltFp25519_1w_redradix`), at `α = V` two
  (`EltFp25519_2w_redradix`).  The 1-way element is padded in memory by two words that
  no operation reads into a limb; the padding is not modelled.
* `Elt10 α` is the 4-way layout: each limb is a vector and each of its four lanes
  belongs to a different element.

The straight-line function bodies are transcribed from the C text statement by
statement, with the C variable names; a Lean `let` shadows as a C assignment does. -/

namespace Verif.Fp25519

@[ext] structure Elt5 (α : Type) where
  c0 : α
  c1 : α
  c2 : α
  c3 : α
  c4 : α
deriving DecidableEq

@[ext] structure Elt10 (α : Type) where
  r0 : α
  r1 : α
  r2 : α
  r3 : α
  r4 : α
  r5 : α
  r6 : α
  r7 : α
  r8 : α
  r9 : α
deriving DecidableEq

/-- Applies a function to each vector of an element. -/
def Elt5.map {α β : Type} (f : α → β) (a : Elt5 α) : Elt5 β :=
  ⟨f a.c0, f a.c1, f a.c2, f a.c3, f a.c4⟩

/-- Applies a function to each vector of an element. -/
def Elt10.map {α β : Type} (f : α → β) (a : Elt10 α) : Elt10 β :=
  ⟨f a.r0, f a.r1, f a.r2, f a.r3, f a.r4, f a.r5, f a.r6, f a.r7, f a.r8, f a.r9⟩

/-- Combines two elements vector by vector. -/
def Elt5.zip {α β γ : Type} (f : α → β → γ) (a : Elt5 α) (b : Elt5 β) : Elt5 γ :=
  ⟨f a.c0 b.c0, f a.c1 b.c1, f a.c2 b.c2, f a.c3 b.c3, f a.c4 b.c4⟩

/-- Combines two elements vector by vector. -/
def Elt10.zip {α β γ : Type} (f : α → β → γ) (a : Elt10 α) (b : Elt10 β) : Elt10 γ :=
  ⟨f a.r0 b.r0, f a.r1 b.r1, f a.r2 b.r2, f a.r3 b.r3, f a.r4 b.r4, f a.r5 b.r5,
    f a.r6 b.r6, f a.r7 b.r7, f a.r8 b.r8, f a.r9 b.r9⟩

/-! ## Two-way code

Everything here stays inside the 128-bit halves, hence the class `Simd`. -/

namespace R2

/-- 2p in limbs: src/eltfp25519_2w_redradix.c:96-102 `CONST_2P_2P_H0H5`. -/
def twoP {α : Type} [Simd α] : Elt5 α :=
  ⟨LIT2 0x7ffffda 0x3fffffe, LIT2 0x3fffffe 0x7fffffe, LIT2 0x7fffffe 0x3fffffe,
    LIT2 0x3fffffe 0x7fffffe, LIT2 0x7fffffe 0x3fffffe⟩

/-- src/eltfp25519_2w_redradix.c:31-36 `zero`. -/
def zero {α : Type} [Simd α] : Elt5 α := ⟨LIT 0, LIT 0, LIT 0, LIT 0, LIT 0⟩

/-- src/eltfp25519_2w_redradix.c:89-94 `add`. -/
def add {α : Type} [Simd α] (a b : Elt5 α) : Elt5 α := a.zip ADD b

/-- src/eltfp25519_2w_redradix.c:118-124 `sub`. -/
def sub {α : Type} [Simd α] (a b : Elt5 α) : Elt5 α := a.zip ADD (twoP.zip SUB b)

/-- src/eltfp25519_2w_redradix.c:177-187 `addsub`: (a, b) becomes (a+b, a-b). -/
def addsub {α : Type} [Simd α] (a b : Elt5 α) : Elt5 α × Elt5 α :=
  (a.zip ADD b, a.zip ADD (twoP.zip SUB b))

/-- src/eltfp25519_2w_redradix.c:707-717 `naddsub`: (C, D) = (-a-b, -a+b). -/
def naddsub {α : Type} [Simd α] (a b : Elt5 α) : Elt5 α × Elt5 α :=
  let T := twoP.zip SUB a
  (T.zip SUB b, T.zip ADD b)

/-- src/eltfp25519_2w_redradix.c:304-375 `intmul`.  All reads of `a`, `b` precede the writes of `c`, so the three
may be the same element. -/
def intmul {α : Type} [Simd α] (a b : Elt5 α) : Elt5 α :=
  let b0 := b.c0
  let b1 := b.c1
  let b2 := b.c2
  let b3 := b.c3
  let b4 := b.c4
  let e4 := MUL b4 (LIT 19)
  let d4 := ALIGNR b4 e4
  let e3 := MUL b3 (LIT 19)
  let d3 := ALIGNR b3 e3
  let e2 := MUL b2 (LIT 19)
  let d2 := ALIGNR b2 e2
  let e1 := MUL b1 (LIT 19)
  let d1 := ALIGNR b1 e1
  let e0 := MUL b0 (LIT 19)
  let d0 := ALIGNR b0 e0
  let ai := SHUF44 a.c0
  let aj := SHUF44 a.c1
  let c0 := MUL b0 ai
  let k0 := MUL d4 aj
  let c1 := MUL b1 ai
  let k1 := MUL b0 aj
  let c2 := MUL b2 ai
  let k2 := MUL b1 aj
  let c3 := MUL b3 ai
  let k3 := MUL b2 aj
  let c4 := MUL b4 ai
  let k4 := MUL b3 aj
  let ai := SHUF44 a.c2
  let aj := SHUF44 a.c3
  let c0 := ADD c0 (MUL d3 ai)
  let k0 := ADD k0 (MUL d2 aj)
  let c1 := ADD c1 (MUL d4 ai)
  let k1 := ADD k1 (MUL d3 aj)
  let c2 := ADD c2 (MUL b0 ai)
  let k2 := ADD k2 (MUL d4 aj)
  let c3 := ADD c3 (MUL b1 ai)
  let k3 := ADD k3 (MUL b0 aj)
  let c4 := ADD c4 (MUL b2 ai)
  let k4 := ADD k4 (MUL b1 aj)
  let ai := SHUF44 a.c4
  let aj := SHUFEE a.c0
  let c0 := ADD c0 (MUL d1 ai)
  let k0 := ADD k0 (MUL d0 aj)
  let c1 := ADD c1 (MUL d2 ai)
  let k1 := ADD k1 (MUL d1 aj)
  let c2 := ADD c2 (MUL d3 ai)
  let k2 := ADD k2 (MUL d2 aj)
  let c3 := ADD c3 (MUL d4 ai)
  let k3 := ADD k3 (MUL d3 aj)
  let c4 := ADD c4 (MUL b0 ai)
  let k4 := ADD k4 (MUL d4 aj)
  let ai := SHUFEE a.c1
  let aj := SHUFEE a.c2
  let c0 := ADD c0 (MUL e4 ai)
  let k0 := ADD k0 (MUL e3 aj)
  let c1 := ADD c1 (MUL d0 ai)
  let k1 := ADD k1 (MUL e4 aj)
  let c2 := ADD c2 (MUL d1 ai)
  let k2 := ADD k2 (MUL d0 aj)
  let c3 := ADD c3 (MUL d2 ai)
  let k3 := ADD k3 (MUL d1 aj)
  let c4 := ADD c4 (MUL d3 ai)
  let k4 := ADD k4 (MUL d2 aj)
  let ai := SHUFEE a.c3
  let aj := SHUFEE a.c4
  let c0 := ADD c0 (MUL e2 ai)
  let k0 := ADD k0 (MUL e1 aj)
  let c1 := ADD c1 (MUL e3 ai)
  let k1 := ADD k1 (MUL e2 aj)
  let c2 := ADD c2 (MUL e4 ai)
  let k2 := ADD k2 (MUL e3 aj)
  let c3 := ADD c3 (MUL d0 ai)
  let k3 := ADD k3 (MUL e4 aj)
  let c4 := ADD c4 (MUL d1 ai)
  let k4 := ADD k4 (MUL d0 aj)
  let t0 := SHLV k0 1 0
  let t1 := SHLV k1 0 1
  let t2 := SHLV k2 1 0
  let t3 := SHLV k3 0 1
  let t4 := SHLV k4 1 0
  let c_0 := ADD c0 t0
  let c_1 := ADD c1 t1
  let c_2 := ADD c2 t2
  let c_3 := ADD c3 t3
  let c_4 := ADD c4 t4
  ⟨c_0, c_1, c_2, c_3, c_4⟩

/-- src/eltfp25519_2w_redradix.c:377-453 `intsqr`. -/
def intsqr {α : Type} [Simd α] (c : Elt5 α) : Elt5 α :=
  let b0 := c.c0
  let b1 := c.c1
  let b2 := c.c2
  let b3 := c.c3
  let b4 := c.c4
  let e4 := MUL b4 (LIT 19)
  let d4 := ALIGNR b4 e4
  let e3 := MUL b3 (LIT 19)
  let d3 := ALIGNR b3 e3
  let e2 := MUL b2 (LIT 19)
  let d2 := ALIGNR b2 e2
  let e1 := MUL b1 (LIT 19)
  let d1 := ALIGNR b1 e1
  let e0 := MUL b0 (LIT 19)
  let d0 := ALIGNR b0 e0
  let ai := SHUF44 c.c0
  let aj := SHUF44 c.c1
  let a2i := ADD ai ai
  let a2j := ADD aj aj
  let c0 := MUL b0 ai
  let k0 := MUL d4 a2j
  let c1 := MUL b1 a2i
  let c2 := MUL b2 a2i
  let k2 := MUL b1 aj
  let c3 := MUL b3 a2i
  let k3 := MUL b2 a2j
  let c4 := MUL b4 a2i
  let k4 := MUL b3 a2j
  let ai := SHUF44 c.c2
  let aj := SHUF44 c.c3
  let a2i := ADD ai ai
  let a2j := ADD aj aj
  let c0 := ADD c0 (MUL d3 a2i)
  let c1 := ADD c1 (MUL d4 a2i)
  let k1 := MUL d3 aj
  let k2 := ADD k2 (MUL d4 a2j)
  let c4 := ADD c4 (MUL b2 ai)
  let ai := SHUF44 c.c4
  let aj := SHUFEE c.c0
  let a2i := ADD ai ai
  let a2j := ADD aj aj
  let k0 := ADD k0 (MUL d0 aj)
  let k1 := ADD k1 (MUL d1 a2j)
  let k2 := ADD k2 (MUL d2 a2j)
  let c3 := ADD c3 (MUL d4 ai)
  let k3 := ADD k3 (MUL d3 a2j)
  let k4 := ADD k4 (MUL d4 a2j)
  let ai := SHUFEE c.c1
  let aj := SHUFEE c.c2
  let a2i := ADD ai ai
  let a2j := ADD aj aj
  let c0 := ADD c0 (MUL e4 a2i)
  let k0 := ADD k0 (MUL e3 a2j)
  let k1 := ADD k1 (MUL e4 a2j)
  let c2 := ADD c2 (MUL d1 ai)
  let c3 := ADD c3 (MUL d2 a2i)
  let c4 := ADD c4 (MUL d3 a2i)
  let k4 := ADD k4 (MUL d2 aj)
  let ai := SHUFEE c.c3
  let aj := SHUFEE c.c4
  let a2i := ADD ai ai
  let c1 := ADD c1 (MUL e3 ai)
  let c2 := ADD c2 (MUL e4 a2i)
  let k3 := ADD k3 (MUL e4 aj)
  let t0 := SHLV k0 1 0
  let t1 := SHLV k1 0 1
  let t2 := SHLV k2 1 0
  let t3 := SHLV k3 0 1
  let t4 := SHLV k4 1 0
  let c_0 := ADD c0 t0
  let c_1 := ADD c1 t1
  let c_2 := ADD c2 t2
  let c_3 := ADD c3 t3
  let c_4 := ADD c4 t4
  ⟨c_0, c_1, c_2, c_3, c_4⟩

/-- src/eltfp25519_2w_redradix.c:472-518 `compress`; `mul19` is the macro of lines 466-470 (in `mul19`). -/
def compress {α : Type} [Simd α] (c : Elt5 α) : Elt5 α :=
  let c0 := c.c0
  let c1 := c.c1
  let c2 := c.c2
  let c3 := c.c3
  let c4 := c.c4
  let h0_5 := SHRV c0 26 25
  let c0 := AND c0 (LIT2 (2 ^ 26 - 1) (2 ^ 25 - 1))
  let c1 := ADD c1 h0_5
  let h1_6 := SHRV c1 25 26
  let c1 := AND c1 (LIT2 (2 ^ 25 - 1) (2 ^ 26 - 1))
  let c2 := ADD c2 h1_6
  let h2_7 := SHRV c2 26 25
  let c2 := AND c2 (LIT2 (2 ^ 26 - 1) (2 ^ 25 - 1))
  let c3 := ADD c3 h2_7
  let h3_8 := SHRV c3 25 26
  let c3 := AND c3 (LIT2 (2 ^ 25 - 1) (2 ^ 26 - 1))
  let c4 := ADD c4 h3_8
  let h4_9 := SHRV c4 26 25
  let c4 := AND c4 (LIT2 (2 ^ 26 - 1) (2 ^ 25 - 1))
  let h4_9 := SHUF4E (ADD (ADD (SHLV h4_9 64 4) (SHLV h4_9 64 1)) h4_9)
  let c0 := ADD c0 h4_9
  let h0_5 := SHRV c0 26 25
  let c0 := AND c0 (LIT2 (2 ^ 26 - 1) (2 ^ 25 - 1))
  let c1 := ADD c1 h0_5
  let c_0 := c0
  let c_1 := c1
  let c_2 := c2
  let c_3 := c3
  let c_4 := c4
  ⟨c_0, c_1, c_2, c_3, c_4⟩

/-- src/eltfp25519_2w_redradix.c:520-596 `compress2`. -/
def compress2 {α : Type} [Simd α] (c d : Elt5 α) : Elt5 α × Elt5 α :=
  let c0 := c.c0
  let d0 := d.c0
  let c1 := c.c1
  let d1 := d.c1
  let c2 := c.c2
  let d2 := d.c2
  let c3 := c.c3
  let d3 := d.c3
  let c4 := c.c4
  let d4 := d.c4
  let h0_5 := SHRV c0 26 25
  let H0_5 := SHRV d0 26 25
  let c0 := AND c0 (LIT2 (2 ^ 26 - 1) (2 ^ 25 - 1))
  let d0 := AND d0 (LIT2 (2 ^ 26 - 1) (2 ^ 25 - 1))
  let c1 := ADD c1 h0_5
  let d1 := ADD d1 H0_5
  let h1_6 := SHRV c1 25 26
  let H1_6 := SHRV d1 25 26
  let c1 := AND c1 (LIT2 (2 ^ 25 - 1) (2 ^ 26 - 1))
  let d1 := AND d1 (LIT2 (2 ^ 25 - 1) (2 ^ 26 - 1))
  let c2 := ADD c2 h1_6
  let d2 := ADD d2 H1_6
  let h2_7 := SHRV c2 26 25
  let H2_7 := SHRV d2 26 25
  let c2 := AND c2 (LIT2 (2 ^ 26 - 1) (2 ^ 25 - 1))
  let d2 := AND d2 (LIT2 (2 ^ 26 - 1) (2 ^ 25 - 1))
  let c3 := ADD c3 h2_7
  let d3 := ADD d3 H2_7
  let h3_8 := SHRV c3 25 26
  let H3_8 := SHRV d3 25 26
  let c3 := AND c3 (LIT2 (2 ^ 25 - 1) (2 ^ 26 - 1))
  let d3 := AND d3 (LIT2 (2 ^ 25 - 1) (2 ^ 26 - 1))
  let c4 := ADD c4 h3_8
  let d4 := ADD d4 H3_8
  let h4_9 := SHRV c4 26 25
  let H4_9 := SHRV d4 26 25
  let c4 := AND c4 (LIT2 (2 ^ 26 - 1) (2 ^ 25 - 1))
  let d4 := AND d4 (LIT2 (2 ^ 26 - 1) (2 ^ 25 - 1))
  let h4_9 := SHUF4E (ADD (ADD (SHLV h4_9 64 4) (SHLV h4_9 64 1)) h4_9)
  let H4_9 := SHUF4E (ADD (ADD (SHLV H4_9 64 4) (SHLV H4_9 64 1)) H4_9)
  let c0 := ADD c0 h4_9
  let d0 := ADD d0 H4_9
  let h0_5 := SHRV c0 26 25
  let H0_5 := SHRV d0 26 25
  let c0 := AND c0 (LIT2 (2 ^ 26 - 1) (2 ^ 25 - 1))
  let d0 := AND d0 (LIT2 (2 ^ 26 - 1) (2 ^ 25 - 1))
  let c1 := ADD c1 h0_5
  let d1 := ADD d1 H0_5
  let c_0 := c0
  let d_0 := d0
  let c_1 := c1
  let d_1 := d1
  let c_2 := c2
  let d_2 := d2
  let c_3 := c3
  let d_3 := d3
  let c_4 := c4
  let d_4 := d4
  (⟨c_0, c_1, c_2, c_3, c_4⟩,
    ⟨d_0, d_1, d_2, d_3, d_4⟩)

/-- src/eltfp25519_2w_redradix.c:598-625 `compressfast`. -/
def compressfast {α : Type} [Simd α] (c : Elt5 α) : Elt5 α :=
  let L0 := AND c.c0 (LIT2 (2 ^ 26 - 1) (2 ^ 25 - 1))
  let L1 := AND c.c1 (LIT2 (2 ^ 25 - 1) (2 ^ 26 - 1))
  let L2 := AND c.c2 (LIT2 (2 ^ 26 - 1) (2 ^ 25 - 1))
  let L3 := AND c.c3 (LIT2 (2 ^ 25 - 1) (2 ^ 26 - 1))
  let L4 := AND c.c4 (LIT2 (2 ^ 26 - 1) (2 ^ 25 - 1))
  let M0 := SHRV c.c0 26 25
  let M1 := SHRV c.c1 25 26
  let M2 := SHRV c.c2 26 25
  let M3 := SHRV c.c3 25 26
  let M4 := SHRV c.c4 26 25
  let M4 := SHUF4E (ADD (ADD (SHLV M4 64 4) (SHLV M4 64 1)) M4)
  let c_0 := ADD L0 M4
  let c_1 := ADD L1 M0
  let c_2 := ADD L2 M1
  let c_3 := ADD L3 M2
  let c_4 := ADD L4 M3
  ⟨c_0, c_1, c_2, c_3, c_4⟩

/-- src/eltfp25519_2w_redradix.c:629-636 `neg`. -/
def neg {α : Type} [Simd α] (c : Elt5 α) : Elt5 α := compress (twoP.zip SUB c)

/-- src/eltfp25519_2w_redradix.c:638-641 `mul`. -/
def mul {α : Type} [Simd α] (a b : Elt5 α) : Elt5 α := compress (intmul a b)

/-- src/eltfp25519_2w_redradix.c:643-646 `sqr`. -/
def sqr {α : Type} [Simd α] (c : Elt5 α) : Elt5 α := compress (intsqr c)

/-- src/eltfp25519_2w_redradix.c:648-654 `sqrn`. -/
def sqrn {α : Type} [Simd α] (c : Elt5 α) : ℕ → Elt5 α
  | 0 => c
  | n + 1 => sqrn (compress (intsqr c)) n

end R2

/-! ## One-way code -/

namespace R1

/-- src/eltfp25519_1w_redradix.c:30-80 `compress`. -/
def compress {α : Type} [Simd α] (c : Elt5 α) : Elt5 α :=
  let c0 := c.c0
  let c1 := c.c1
  let c2 := c.c2
  let c3 := c.c3
  let c4 := c.c4
  let h0_5 := SHRV c0 26 25
  let c0 := AND c0 (LIT2 (2 ^ 26 - 1) (2 ^ 25 - 1))
  let c1 := ADD c1 h0_5
  let h1_6 := SHRV c1 25 26
  let c1 := AND c1 (LIT2 (2 ^ 25 - 1) (2 ^ 26 - 1))
  let c2 := ADD c2 h1_6
  let h2_7 := SHRV c2 26 25
  let c2 := AND c2 (LIT2 (2 ^ 26 - 1) (2 ^ 25 - 1))
  let c3 := ADD c3 h2_7
  let h3_8 := SHRV c3 25 26
  let c3 := AND c3 (LIT2 (2 ^ 25 - 1) (2 ^ 26 - 1))
  let c4 := ADD c4 h3_8
  let h4_9 := SHRV c4 26 25
  let c4 := AND c4 (LIT2 (2 ^ 26 - 1) (2 ^ 25 - 1))
  let h4_9 := SHUF4E (ADD (ADD (SHLV h4_9 64 4) (SHLV h4_9 64 1)) h4_9)
  let c0 := ADD c0 h4_9
  let h0_5 := SHRV c0 26 25
  let c0 := AND c0 (LIT2 (2 ^ 26 - 1) (2 ^ 25 - 1))
  let c1 := ADD c1 h0_5
  ⟨c0, c1, c2, c3, c4⟩

/-- src/eltfp25519_1w_redradix.c:82-125 `compressfast`. -/
def compressfast {α : Type} [Simd α] (c : Elt5 α) : Elt5 α :=
  let C0 := c.c0
  let C1 := c.c1
  let C2 := c.c2
  let C3 := c.c3
  let C4 := c.c4
  let L0 := AND C0 (LIT2 (2 ^ 26 - 1) (2 ^ 25 - 1))
  let L1 := AND C1 (LIT2 (2 ^ 25 - 1) (2 ^ 26 - 1))
  let L2 := AND C2 (LIT2 (2 ^ 26 - 1) (2 ^ 25 - 1))
  let L3 := AND C3 (LIT2 (2 ^ 25 - 1) (2 ^ 26 - 1))
  let L4 := AND C4 (LIT2 (2 ^ 26 - 1) (2 ^ 25 - 1))
  let M0 := SHRV C0 26 25
  let M1 := SHRV C1 25 26
  let M2 := SHRV C2 26 25
  let M3 := SHRV C3 25 26
  let M4 := SHRV C4 26 25
  let M4 := SHUF4E (ADD (ADD (SHLV M4 64 4) (SHLV M4 64 1)) M4)
  let C0 := ADD L0 M4
  let C1 := ADD L1 M0
  let C2 := ADD L2 M1
  let C3 := ADD L3 M2
  let C4 := ADD L4 M3
  ⟨C0, C1, C2, C3, C4⟩

/-- src/eltfp25519_1w_redradix.c:127-277 `sqrn`: the body of the loop up to the digit size reduction. -/
def sqrRaw {α : Type} [Simd α] (b : Elt5 α) : Elt5 α :=
  let b0 := b.c0
  let b1 := b.c1
  let b2 := b.c2
  let b3 := b.c3
  let b4 := b.c4
  let A0 := b0
  let A1 := b1
  let A2 := b2
  let A3 := b3
  let A4 := b4
  let ai := SHUF44 A0
  let aj := ADD ai ai
  let ak := SHUF44 A1
  let al := ADD ak ak
  let ak := BLEND3 ak al
  let ao := ADD ak ak
  let ae := SHUF4E ao
  let d4 := SHUF4E b4
  let d4 := MUL d4 (LIT2 19 1)
  let c0 := MUL b0 ai
  let c0 := ADD c0 (MUL d4 ao)
  let c1 := MUL b1 aj
  let c2 := MUL b2 aj
  let c2 := ADD c2 (MUL b1 ak)
  let c3 := MUL b3 aj
  let c3 := ADD c3 (MUL b2 ae)
  let c4 := MUL b4 aj
  let c4 := ADD c4 (MUL b3 ao)
  let ai := SHUF44 A2
  let aj := ADD ai ai
  let ak := SHUF44 A3
  let al := ADD ak ak
  let ak := BLENDC ak al
  let ao := ADD ak ak
  let ao := SHUF4E ao
  let d3 := SHUF4E b3
  let d2 := SHUF4E b2
  let d3 := MUL d3 (LIT2 19 1)
  let d2 := MUL d2 (LIT2 19 1)
  let c0 := ADD c0 (MUL d3 aj)
  let c1 := ADD c1 (MUL d4 aj)
  let c1 := ADD c1 (MUL d3 ak)
  let c2 := ADD c2 (MUL d4 ao)
  let c4 := ADD c4 (MUL b2 ai)
  let ai := SHUF44 A4
  let aj := SHUFEE A0
  let ak := ADD aj aj
  let al := ADD ak ak
  let aj := BLEND3 aj ak
  let ao := BLENDC ak al
  let ae := BLEND3 ak al
  let d1 := SHUF4E b1
  let d0 := SHUF4E b0
  let d1 := MUL d1 (LIT2 19 1)
  let d0 := MUL d0 (LIT2 19 1)
  let c0 := ADD c0 (MUL d0 aj)
  let c1 := ADD c1 (MUL d1 ao)
  let c2 := ADD c2 (MUL d2 ae)
  let c3 := ADD c3 (MUL d4 ai)
  let c3 := ADD c3 (MUL d3 ao)
  let c4 := ADD c4 (MUL d4 ae)
  let ai := SHUFEE A1
  let aj := ADD ai ai
  let ak := SHUFEE A2
  let al := ADD ak ak
  let ak := BLEND3 ak al
  let ao := ADD ak ak
  let ae := SHUF4E ao
  let b4 := SHUF4E d4
  let b3 := SHUF4E d3
  let b4 := MUL b4 (LIT2 19 1)
  let b3 := MUL b3 (LIT2 19 1)
  let c0 := ADD c0 (MUL b4 aj)
  let c0 := ADD c0 (MUL b3 ao)
  let c1 := ADD c1 (MUL b4 ae)
  let c2 := ADD c2 (MUL d1 ai)
  let c3 := ADD c3 (MUL d2 aj)
  let c4 := ADD c4 (MUL d3 aj)
  let c4 := ADD c4 (MUL d2 ak)
  let ai := SHUFEE A3
  let aj := ADD ai ai
  let ak := SHUFEE A4
  let al := ADD ak ak
  let ae := BLENDC ak al
  let c1 := ADD c1 (MUL b3 ai)
  let c2 := ADD c2 (MUL b4 aj)
  let c3 := ADD c3 (MUL b4 ae)
  ⟨c0, c1, c2, c3, c4⟩

/-- src/eltfp25519_1w_redradix.c:127-277 `sqrn`: the digit size reduction at the end of the loop body (one carry
more than `compress`). -/
def sqrCarry {α : Type} [Simd α] (c : Elt5 α) : Elt5 α :=
  let c0 := c.c0
  let c1 := c.c1
  let c2 := c.c2
  let c3 := c.c3
  let c4 := c.c4
  let h0_5 := SHRV c0 26 25
  let c0 := AND c0 (LIT2 (2 ^ 26 - 1) (2 ^ 25 - 1))
  let c1 := ADD c1 h0_5
  let h1_6 := SHRV c1 25 26
  let c1 := AND c1 (LIT2 (2 ^ 25 - 1) (2 ^ 26 - 1))
  let c2 := ADD c2 h1_6
  let h2_7 := SHRV c2 26 25
  let c2 := AND c2 (LIT2 (2 ^ 26 - 1) (2 ^ 25 - 1))
  let c3 := ADD c3 h2_7
  let h3_8 := SHRV c3 25 26
  let c3 := AND c3 (LIT2 (2 ^ 25 - 1) (2 ^ 26 - 1))
  let c4 := ADD c4 h3_8
  let h4_9 := SHRV c4 26 25
  let c4 := AND c4 (LIT2 (2 ^ 26 - 1) (2 ^ 25 - 1))
  let h4_9 := SHUF4E (ADD (ADD (SHLV h4_9 64 4) (SHLV h4_9 64 1)) h4_9)
  let c0 := ADD c0 h4_9
  let h0_5 := SHRV c0 26 25
  let c0 := AND c0 (LIT2 (2 ^ 26 - 1) (2 ^ 25 - 1))
  let c1 := ADD c1 h0_5
  let h1_6 := SHRV c1 25 26
  let c1 := AND c1 (LIT2 (2 ^ 25 - 1) (2 ^ 26 - 1))
  let c2 := ADD c2 h1_6
  ⟨c0, c1, c2, c3, c4⟩

/-- src/eltfp25519_1w_redradix.c:127-277 `sqrn`. -/
def sqrn {α : Type} [Simd α] (a : Elt5 α) : ℕ → Elt5 α
  | 0 => a
  | n + 1 => sqrn (sqrCarry (sqrRaw a)) n

end R1

/-! ## Four-way code

Everything here acts on each lane by itself, hence the class `Lane`. -/

namespace R4

/-- 2p in limbs: the table `_2P` in src/eltfp25519_4w_redradix.c:157-170 `sub`. -/
def twoP {α : Type} [Lane α] : Elt10 α :=
  ⟨LIT 0x7ffffda, LIT 0x3fffffe, LIT 0x7fffffe, LIT 0x3fffffe, LIT 0x7fffffe,
    LIT 0x3fffffe, LIT 0x7fffffe, LIT 0x3fffffe, LIT 0x7fffffe, LIT 0x3fffffe⟩

/-- 2^35 p in limbs: the table in src/eltfp25519_4w_redradix.c:202-218 `addsublar`. -/
def twoTo35P {α : Type} [Lane α] : Elt10 α :=
  ⟨LIT 0x1fffff6800000000, LIT 0x0ffffff800000000, LIT 0x1ffffff800000000,
    LIT 0x0ffffff800000000, LIT 0x1ffffff800000000, LIT 0x0ffffff800000000,
    LIT 0x1ffffff800000000, LIT 0x0ffffff800000000, LIT 0x1ffffff800000000,
    LIT 0x0ffffff800000000⟩

/-- src/eltfp25519_4w_redradix.c:51-56 `zero`. -/
def zero {α : Type} [Lane α] : Elt10 α :=
  ⟨LIT 0, LIT 0, LIT 0, LIT 0, LIT 0, LIT 0, LIT 0, LIT 0, LIT 0, LIT 0⟩

/-- src/eltfp25519_4w_redradix.c:149-155 `add`. -/
def add {α : Type} [Lane α] (a b : Elt10 α) : Elt10 α := a.zip ADD b

/-- src/eltfp25519_4w_redradix.c:157-170 `sub`. -/
def sub {α : Type} [Lane α] (a b : Elt10 α) : Elt10 α := a.zip ADD (twoP.zip SUB b)

/-- src/eltfp25519_4w_redradix.c:172-184 `neg`. -/
def neg {α : Type} [Lane α] (c : Elt10 α) : Elt10 α := twoP.zip SUB c

/-- src/eltfp25519_4w_redradix.c:186-200 `addsub`. -/
def addsub {α : Type} [Lane α] (a b : Elt10 α) : Elt10 α × Elt10 α :=
  (a.zip ADD b, a.zip ADD (twoP.zip SUB b))

/-- src/eltfp25519_4w_redradix.c:202-218 `addsublar`. -/
def addsublar {α : Type} [Lane α] (a b : Elt10 α) : Elt10 α × Elt10 α :=
  (a.zip ADD b, a.zip ADD (twoTo35P.zip SUB b))

/-- src/eltfp25519_4w_redradix.c:244-346 `intmul_sb`, which is also `intmul` (348-350).  All reads of `a`, `b` precede
the writes of `c`. -/
def intmul {α : Type} [Lane α] (a b : Elt10 α) : Elt10 α :=
  let b0 := b.r0
  let b5 := b.r5
  let b1 := b.r1
  let b6 := b.r6
  let b2 := b.r2
  let b7 := b.r7
  let b3 := b.r3
  let b8 := b.r8
  let b4 := b.r4
  let b9 := b.r9
  let ai := a.r0
  let c0 := MUL ai b0
  let c5 := MUL ai b5
  let c1 := MUL ai b1
  let c6 := MUL ai b6
  let c2 := MUL ai b2
  let c7 := MUL ai b7
  let c3 := MUL ai b3
  let c8 := MUL ai b8
  let c4 := MUL ai b4
  let c9 := MUL ai b9
  let ai := a.r1
  let a2i := ADD a.r1 a.r1
  let d9 := MUL b9 (LIT 19)
  let c0 := ADD c0 (MUL a2i d9)
  let c5 := ADD c5 (MUL ai b4)
  let c1 := ADD c1 (MUL ai b0)
  let c6 := ADD c6 (MUL a2i b5)
  let c2 := ADD c2 (MUL a2i b1)
  let c7 := ADD c7 (MUL ai b6)
  let c3 := ADD c3 (MUL ai b2)
  let c8 := ADD c8 (MUL a2i b7)
  let c4 := ADD c4 (MUL a2i b3)
  let c9 := ADD c9 (MUL ai b8)
  let ai := a.r2
  let d8 := MUL b8 (LIT 19)
  let c0 := ADD c0 (MUL ai d8)
  let c5 := ADD c5 (MUL ai b3)
  let c1 := ADD c1 (MUL ai d9)
  let c6 := ADD c6 (MUL ai b4)
  let c2 := ADD c2 (MUL ai b0)
  let c7 := ADD c7 (MUL ai b5)
  let c3 := ADD c3 (MUL ai b1)
  let c8 := ADD c8 (MUL ai b6)
  let c4 := ADD c4 (MUL ai b2)
  let c9 := ADD c9 (MUL ai b7)
  let ai := a.r3
  let a2i := ADD a.r3 a.r3
  let d7 := MUL b7 (LIT 19)
  let c0 := ADD c0 (MUL a2i d7)
  let c5 := ADD c5 (MUL ai b2)
  let c1 := ADD c1 (MUL ai d8)
  let c6 := ADD c6 (MUL a2i b3)
  let c2 := ADD c2 (MUL a2i d9)
  let c7 := ADD c7 (MUL ai b4)
  let c3 := ADD c3 (MUL ai b0)
  let c8 := ADD c8 (MUL a2i b5)
  let c4 := ADD c4 (MUL a2i b1)
  let c9 := ADD c9 (MUL ai b6)
  let ai := a.r4
  let d6 := MUL b6 (LIT 19)
  let c0 := ADD c0 (MUL ai d6)
  let c5 := ADD c5 (MUL ai b1)
  let c1 := ADD c1 (MUL ai d7)
  let c6 := ADD c6 (MUL ai b2)
  let c2 := ADD c2 (MUL ai d8)
  let c7 := ADD c7 (MUL ai b3)
  let c3 := ADD c3 (MUL ai d9)
  let c8 := ADD c8 (MUL ai b4)
  let c4 := ADD c4 (MUL ai b0)
  let c9 := ADD c9 (MUL ai b5)
  let ai := a.r5
  let a2i := ADD a.r5 a.r5
  let d5 := MUL b5 (LIT 19)
  let c0 := ADD c0 (MUL a2i d5)
  let c5 := ADD c5 (MUL ai b0)
  let c1 := ADD c1 (MUL ai d6)
  let c6 := ADD c6 (MUL a2i b1)
  let c2 := ADD c2 (MUL a2i d7)
  let c7 := ADD c7 (MUL ai b2)
  let c3 := ADD c3 (MUL ai d8)
  let c8 := ADD c8 (MUL a2i b3)
  let c4 := ADD c4 (MUL a2i d9)
  let c9 := ADD c9 (MUL ai b4)
  let ai := a.r6
  let d4 := MUL b4 (LIT 19)
  let c0 := ADD c0 (MUL ai d4)
  let c5 := ADD c5 (MUL ai d9)
  let c1 := ADD c1 (MUL ai d5)
  let c6 := ADD c6 (MUL ai b0)
  let c2 := ADD c2 (MUL ai d6)
  let c7 := ADD c7 (MUL ai b1)
  let c3 := ADD c3 (MUL ai d7)
  let c8 := ADD c8 (MUL ai b2)
  let c4 := ADD c4 (MUL ai d8)
  let c9 := ADD c9 (MUL ai b3)
  let ai := a.r7
  let a2i := ADD a.r7 a.r7
  let d3 := MUL b3 (LIT 19)
  let c0 := ADD c0 (MUL a2i d3)
  let c5 := ADD c5 (MUL ai d8)
  let c1 := ADD c1 (MUL ai d4)
  let c6 := ADD c6 (MUL a2i d9)
  let c2 := ADD c2 (MUL a2i d5)
  let c7 := ADD c7 (MUL ai b0)
  let c3 := ADD c3 (MUL ai d6)
  let c8 := ADD c8 (MUL a2i b1)
  let c4 := ADD c4 (MUL a2i d7)
  let c9 := ADD c9 (MUL ai b2)
  let ai := a.r8
  let d2 := MUL b2 (LIT 19)
  let c0 := ADD c0 (MUL ai d2)
  let c5 := ADD c5 (MUL ai d7)
  let c1 := ADD c1 (MUL ai d3)
  let c6 := ADD c6 (MUL ai d8)
  let c2 := ADD c2 (MUL ai d4)
  let c7 := ADD c7 (MUL ai d9)
  let c3 := ADD c3 (MUL ai d5)
  let c8 := ADD c8 (MUL ai b0)
  let c4 := ADD c4 (MUL ai d6)
  let c9 := ADD c9 (MUL ai b1)
  let ai := a.r9
  let a2i := ADD a.r9 a.r9
  let d1 := MUL b1 (LIT 19)
  let c0 := ADD c0 (MUL a2i d1)
  let c5 := ADD c5 (MUL ai d6)
  let c1 := ADD c1 (MUL ai d2)
  let c6 := ADD c6 (MUL a2i d7)
  let c2 := ADD c2 (MUL a2i d3)
  let c7 := ADD c7 (MUL ai d8)
  let c3 := ADD c3 (MUL ai d4)
  let c8 := ADD c8 (MUL a2i d9)
  let c4 := ADD c4 (MUL a2i d5)
  let c9 := ADD c9 (MUL ai b0)
  let C_0 := c0
  let C_1 := c5
  let C_2 := c1
  let C_3 := c6
  let C_4 := c2
  let C_5 := c7
  let C_6 := c3
  let C_7 := c8
  let C_8 := c4
  let C_9 := c9
  ⟨C_0, C_2, C_4, C_6, C_8, C_1, C_3, C_5, C_7, C_9⟩

/-- src/eltfp25519_4w_redradix.c:352-466 `intsqr`. -/
def intsqr {α : Type} [Lane α] (c : Elt10 α) : Elt10 α :=
  let b0 := c.r0
  let b5 := c.r5
  let b1 := c.r1
  let b6 := c.r6
  let b2 := c.r2
  let b7 := c.r7
  let b3 := c.r3
  let b8 := c.r8
  let b4 := c.r4
  let b9 := c.r9
  let ai := c.r0
  let aj := ADD ai ai
  let c0 := MUL ai b0
  let c5 := MUL ai b5
  let c1 := MUL aj b1
  let c6 := MUL aj b6
  let c2 := MUL aj b2
  let c7 := MUL aj b7
  let c3 := MUL aj b3
  let c8 := MUL aj b8
  let c4 := MUL aj b4
  let c9 := MUL aj b9
  let ai := c.r1
  let aj := ADD ai ai
  let ak := ADD aj aj
  let d9 := MUL b9 (LIT 19)
  let c0 := ADD c0 (MUL ak d9)
  let c5 := ADD c5 (MUL aj b4)
  let c2 := ADD c2 (MUL aj b1)
  let c7 := ADD c7 (MUL ai b6)
  let c3 := ADD c3 (MUL aj b2)
  let c8 := ADD c8 (MUL ak b7)
  let c4 := ADD c4 (MUL ak b3)
  let c9 := ADD c9 (MUL aj b8)
  let ai := c.r2
  let aj := ADD ai ai
  let ak := ADD aj aj
  let d8 := MUL b8 (LIT 19)
  let c0 := ADD c0 (MUL aj d8)
  let c5 := ADD c5 (MUL aj b3)
  let c1 := ADD c1 (MUL aj d9)
  let c6 := ADD c6 (MUL aj b4)
  let c4 := ADD c4 (MUL ai b2)
  let c9 := ADD c9 (MUL ai b7)
  let ai := c.r3
  let aj := ADD ai ai
  let ak := ADD aj aj
  let d7 := MUL b7 (LIT 19)
  let c1 := ADD c1 (MUL ai d8)
  let c6 := ADD c6 (MUL aj b3)
  let c2 := ADD c2 (MUL ak d9)
  let c7 := ADD c7 (MUL aj b4)
  let ai := c.r4
  let aj := ADD ai ai
  let ak := ADD aj aj
  let d6 := MUL b6 (LIT 19)
  let c3 := ADD c3 (MUL ai d9)
  let c8 := ADD c8 (MUL ai b4)
  let ai := c.r5
  let aj := ADD ai ai
  let ak := ADD aj aj
  let d5 := MUL b5 (LIT 19)
  let c0 := ADD c0 (MUL aj d5)
  let c5 := ADD c5 (MUL ai b0)
  let c1 := ADD c1 (MUL aj d6)
  let c6 := ADD c6 (MUL ak b1)
  let c2 := ADD c2 (MUL ak d7)
  let c7 := ADD c7 (MUL aj b2)
  let c3 := ADD c3 (MUL aj d8)
  let c8 := ADD c8 (MUL ak b3)
  let c4 := ADD c4 (MUL ak d9)
  let c9 := ADD c9 (MUL aj b4)
  let ai := c.r6
  let aj := ADD ai ai
  let ak := ADD aj aj
  let d4 := MUL b4 (LIT 19)
  let c0 := ADD c0 (MUL aj d4)
  let c5 := ADD c5 (MUL aj d9)
  let c2 := ADD c2 (MUL ai d6)
  let c7 := ADD c7 (MUL ai b1)
  let c3 := ADD c3 (MUL aj d7)
  let c8 := ADD c8 (MUL aj b2)
  let c4 := ADD c4 (MUL aj d8)
  let c9 := ADD c9 (MUL aj b3)
  let ai := c.r7
  let aj := ADD ai ai
  let ak := ADD aj aj
  let d3 := MUL b3 (LIT 19)
  let c0 := ADD c0 (MUL ak d3)
  let c5 := ADD c5 (MUL aj d8)
  let c1 := ADD c1 (MUL aj d4)
  let c6 := ADD c6 (MUL ak d9)
  let c4 := ADD c4 (MUL aj d7)
  let c9 := ADD c9 (MUL ai b2)
  let ai := c.r8
  let aj := ADD ai ai
  let c1 := ADD c1 (MUL ai d3)
  let c6 := ADD c6 (MUL ai d8)
  let c2 := ADD c2 (MUL aj d4)
  let c7 := ADD c7 (MUL aj d9)
  let ai := c.r9
  let aj := ADD ai ai
  let c3 := ADD c3 (MUL ai d4)
  let c8 := ADD c8 (MUL aj d9)
  let c_0 := c0
  let c_1 := c5
  let c_2 := c1
  let c_3 := c6
  let c_4 := c2
  let c_5 := c7
  let c_6 := c3
  let c_7 := c8
  let c_8 := c4
  let c_9 := c9
  ⟨c_0, c_2, c_4, c_6, c_8, c_1, c_3, c_5, c_7, c_9⟩

/-- src/eltfp25519_4w_redradix.c:470-533 `compress`; `MUL19` is the macro of line 468. -/
def compress {α : Type} [Lane α] (c : Elt10 α) : Elt10 α :=
  let c0 := c.r0
  let c5 := c.r5
  let c1 := c.r1
  let c6 := c.r6
  let c2 := c.r2
  let c7 := c.r7
  let c3 := c.r3
  let c8 := c.r8
  let c4 := c.r4
  let c9 := c.r9
  let h0 := SHR c0 26
  let c0 := AND c0 (LIT (2 ^ 26 - 1))
  let c1 := ADD c1 h0
  let h1 := SHR c1 25
  let c1 := AND c1 (LIT (2 ^ 25 - 1))
  let c2 := ADD c2 h1
  let h2 := SHR c2 26
  let c2 := AND c2 (LIT (2 ^ 26 - 1))
  let c3 := ADD c3 h2
  let h3 := SHR c3 25
  let c3 := AND c3 (LIT (2 ^ 25 - 1))
  let c4 := ADD c4 h3
  let h4 := SHR c4 26
  let c4 := AND c4 (LIT (2 ^ 26 - 1))
  let c5 := ADD c5 h4
  let h5 := SHR c5 25
  let c5 := AND c5 (LIT (2 ^ 25 - 1))
  let c6 := ADD c6 h5
  let h6 := SHR c6 26
  let c6 := AND c6 (LIT (2 ^ 26 - 1))
  let c7 := ADD c7 h6
  let h7 := SHR c7 25
  let c7 := AND c7 (LIT (2 ^ 25 - 1))
  let c8 := ADD c8 h7
  let h8 := SHR c8 26
  let c8 := AND c8 (LIT (2 ^ 26 - 1))
  let c9 := ADD c9 h8
  let h9 := SHR c9 25
  let c9 := AND c9 (LIT (2 ^ 25 - 1))
  let c0 := ADD c0 (ADD h9 (ADD (ADD h9 h9) (SHL h9 4)))
  let h0 := SHR c0 26
  let c0 := AND c0 (LIT (2 ^ 26 - 1))
  let c1 := ADD c1 h0
  ⟨c0, c1, c2, c3, c4, c5, c6, c7, c8, c9⟩

/-- src/eltfp25519_4w_redradix.c:535-598 `compress2`. -/
def compress2 {α : Type} [Lane α] (c d : Elt10 α) : Elt10 α × Elt10 α :=
  let c0 := c.r0
  let c5 := c.r5
  let d0 := d.r0
  let d5 := d.r5
  let c1 := c.r1
  let c6 := c.r6
  let d1 := d.r1
  let d6 := d.r6
  let c2 := c.r2
  let c7 := c.r7
  let d2 := d.r2
  let d7 := d.r7
  let c3 := c.r3
  let c8 := c.r8
  let d3 := d.r3
  let d8 := d.r8
  let c4 := c.r4
  let c9 := c.r9
  let d4 := d.r4
  let d9 := d.r9
  let h0 := SHR c0 26
  let _D_h0 := SHR d0 26
  let c0 := AND c0 (LIT (2 ^ 26 - 1))
  let d0 := AND d0 (LIT (2 ^ 26 - 1))
  let c1 := ADD c1 h0
  let d1 := ADD d1 _D_h0
  let h1 := SHR c1 25
  let _D_h1 := SHR d1 25
  let c1 := AND c1 (LIT (2 ^ 25 - 1))
  let d1 := AND d1 (LIT (2 ^ 25 - 1))
  let c2 := ADD c2 h1
  let d2 := ADD d2 _D_h1
  let h2 := SHR c2 26
  let _D_h2 := SHR d2 26
  let c2 := AND c2 (LIT (2 ^ 26 - 1))
  let d2 := AND d2 (LIT (2 ^ 26 - 1))
  let c3 := ADD c3 h2
  let d3 := ADD d3 _D_h2
  let h3 := SHR c3 25
  let _D_h3 := SHR d3 25
  let c3 := AND c3 (LIT (2 ^ 25 - 1))
  let d3 := AND d3 (LIT (2 ^ 25 - 1))
  let c4 := ADD c4 h3
  let d4 := ADD d4 _D_h3
  let h4 := SHR c4 26
  let _D_h4 := SHR d4 26
  let c4 := AND c4 (LIT (2 ^ 26 - 1))
  let d4 := AND d4 (LIT (2 ^ 26 - 1))
  let c5 := ADD c5 h4
  let d5 := ADD d5 _D_h4
  let h5 := SHR c5 25
  let _D_h5 := SHR d5 25
  let c5 := AND c5 (LIT (2 ^ 25 - 1))
  let d5 := AND d5 (LIT (2 ^ 25 - 1))
  let c6 := ADD c6 h5
  let d6 := ADD d6 _D_h5
  let h6 := SHR c6 26
  let _D_h6 := SHR d6 26
  let c6 := AND c6 (LIT (2 ^ 26 - 1))
  let d6 := AND d6 (LIT (2 ^ 26 - 1))
  let c7 := ADD c7 h6
  let d7 := ADD d7 _D_h6
  let h7 := SHR c7 25
  let _D_h7 := SHR d7 25
  let c7 := AND c7 (LIT (2 ^ 25 - 1))
  let d7 := AND d7 (LIT (2 ^ 25 - 1))
  let c8 := ADD c8 h7
  let d8 := ADD d8 _D_h7
  let h8 := SHR c8 26
  let _D_h8 := SHR d8 26
  let c8 := AND c8 (LIT (2 ^ 26 - 1))
  let d8 := AND d8 (LIT (2 ^ 26 - 1))
  let c9 := ADD c9 h8
  let d9 := ADD d9 _D_h8
  let h9 := SHR c9 25
  let _D_h9 := SHR d9 25
  let c9 := AND c9 (LIT (2 ^ 25 - 1))
  let d9 := AND d9 (LIT (2 ^ 25 - 1))
  let c0 := ADD c0 (ADD h9 (ADD (ADD h9 h9) (SHL h9 4)))
  let d0 := ADD d0 (ADD _D_h9 (ADD (ADD _D_h9 _D_h9) (SHL _D_h9 4)))
  let h0 := SHR c0 26
  let _D_h0 := SHR d0 26
  let c0 := AND c0 (LIT (2 ^ 26 - 1))
  let d0 := AND d0 (LIT (2 ^ 26 - 1))
  let c1 := ADD c1 h0
  let d1 := ADD d1 _D_h0
  (⟨c0, c1, c2, c3, c4, c5, c6, c7, c8, c9⟩,
    ⟨d0, d1, d2, d3, d4, d5, d6, d7, d8, d9⟩)

/-- src/eltfp25519_4w_redradix.c:600-680 `compressfast`. -/
def compressfast {α : Type} [Lane α] (c : Elt10 α) : Elt10 α :=
  let c0 := c.r0
  let c5 := c.r5
  let c1 := c.r1
  let c6 := c.r6
  let c2 := c.r2
  let c7 := c.r7
  let c3 := c.r3
  let c8 := c.r8
  let c4 := c.r4
  let c9 := c.r9
  let m0 := SHR c0 26
  let m1 := SHR c1 25
  let m2 := SHR c2 26
  let m3 := SHR c3 25
  let m4 := SHR c4 26
  let m5 := SHR c5 25
  let m6 := SHR c6 26
  let m7 := SHR c7 25
  let m8 := SHR c8 26
  let m9 := SHR c9 25
  let l0 := AND c0 (LIT (2 ^ 26 - 1))
  let l1 := AND c1 (LIT (2 ^ 25 - 1))
  let l2 := AND c2 (LIT (2 ^ 26 - 1))
  let l3 := AND c3 (LIT (2 ^ 25 - 1))
  let l4 := AND c4 (LIT (2 ^ 26 - 1))
  let l5 := AND c5 (LIT (2 ^ 25 - 1))
  let l6 := AND c6 (LIT (2 ^ 26 - 1))
  let l7 := AND c7 (LIT (2 ^ 25 - 1))
  let l8 := AND c8 (LIT (2 ^ 26 - 1))
  let l9 := AND c9 (LIT (2 ^ 25 - 1))
  let m0 := AND m0 (LIT (2 ^ 25 - 1))
  let m1 := AND m1 (LIT (2 ^ 26 - 1))
  let m2 := AND m2 (LIT (2 ^ 25 - 1))
  let m3 := AND m3 (LIT (2 ^ 26 - 1))
  let m4 := AND m4 (LIT (2 ^ 25 - 1))
  let m5 := AND m5 (LIT (2 ^ 26 - 1))
  let m6 := AND m6 (LIT (2 ^ 25 - 1))
  let m7 := AND m7 (LIT (2 ^ 26 - 1))
  let m8 := AND m8 (LIT (2 ^ 25 - 1))
  let h0 := SHR c0 (26 + 25)
  let h1 := SHR c1 (26 + 25)
  let h2 := SHR c2 (26 + 25)
  let h3 := SHR c3 (26 + 25)
  let h4 := SHR c4 (26 + 25)
  let h5 := SHR c5 (26 + 25)
  let h6 := SHR c6 (26 + 25)
  let h7 := SHR c7 (26 + 25)
  let h8 := SHR c8 (26 + 25)
  let m9 := ADD m9 h8
  let _19m9 := MUL m9 (LIT 19)
  let m9 := AND _19m9 (LIT (2 ^ 26 - 1))
  let h9 := SHR _19m9 26
  let c0 := ADD l0 m9
  let c1 := ADD (ADD l1 m0) h9
  let c2 := ADD (ADD l2 m1) h0
  let c3 := ADD (ADD l3 m2) h1
  let c4 := ADD (ADD l4 m3) h2
  let c5 := ADD (ADD l5 m4) h3
  let c6 := ADD (ADD l6 m5) h4
  let c7 := ADD (ADD l7 m6) h5
  let c8 := ADD (ADD l8 m7) h6
  let c9 := ADD (ADD l9 m8) h7
  ⟨c0, c1, c2, c3, c4, c5, c6, c7, c8, c9⟩

/-- src/eltfp25519_4w_redradix.c:682-736 `new_compressfast2`. -/
def new_compressfast2 {α : Type} [Lane α] (c d : Elt10 α) : Elt10 α × Elt10 α :=
  let c0 := c.r0
  let c5 := c.r5
  let d0 := d.r0
  let d5 := d.r5
  let c1 := c.r1
  let c6 := c.r6
  let d1 := d.r1
  let d6 := d.r6
  let c2 := c.r2
  let c7 := c.r7
  let d2 := d.r2
  let d7 := d.r7
  let c3 := c.r3
  let c8 := c.r8
  let d3 := d.r3
  let d8 := d.r8
  let c4 := c.r4
  let c9 := c.r9
  let d4 := d.r4
  let d9 := d.r9
  let m0 := SHR c0 26
  let _D_m0 := SHR d0 26
  let m1 := SHR c1 25
  let _D_m1 := SHR d1 25
  let m2 := SHR c2 26
  let _D_m2 := SHR d2 26
  let m3 := SHR c3 25
  let _D_m3 := SHR d3 25
  let m4 := SHR c4 26
  let _D_m4 := SHR d4 26
  let m5 := SHR c5 25
  let _D_m5 := SHR d5 25
  let m6 := SHR c6 26
  let _D_m6 := SHR d6 26
  let m7 := SHR c7 25
  let _D_m7 := SHR d7 25
  let m8 := SHR c8 26
  let _D_m8 := SHR d8 26
  let m9 := SHR c9 25
  let _D_m9 := SHR d9 25
  let l0 := AND c0 (LIT (2 ^ 26 - 1))
  let _D_l0 := AND d0 (LIT (2 ^ 26 - 1))
  let l1 := AND c1 (LIT (2 ^ 25 - 1))
  let _D_l1 := AND d1 (LIT (2 ^ 25 - 1))
  let l2 := AND c2 (LIT (2 ^ 26 - 1))
  let _D_l2 := AND d2 (LIT (2 ^ 26 - 1))
  let l3 := AND c3 (LIT (2 ^ 25 - 1))
  let _D_l3 := AND d3 (LIT (2 ^ 25 - 1))
  let l4 := AND c4 (LIT (2 ^ 26 - 1))
  let _D_l4 := AND d4 (LIT (2 ^ 26 - 1))
  let l5 := AND c5 (LIT (2 ^ 25 - 1))
  let _D_l5 := AND d5 (LIT (2 ^ 25 - 1))
  let l6 := AND c6 (LIT (2 ^ 26 - 1))
  let _D_l6 := AND d6 (LIT (2 ^ 26 - 1))
  let l7 := AND c7 (LIT (2 ^ 25 - 1))
  let _D_l7 := AND d7 (LIT (2 ^ 25 - 1))
  let l8 := AND c8 (LIT (2 ^ 26 - 1))
  let _D_l8 := AND d8 (LIT (2 ^ 26 - 1))
  let l9 := AND c9 (LIT (2 ^ 25 - 1))
  let _D_l9 := AND d9 (LIT (2 ^ 25 - 1))
  let c0 := ADD l0 (MUL m9 (LIT 19))
  let d0 := ADD _D_l0 (MUL _D_m9 (LIT 19))
  let c1 := ADD l1 m0
  let d1 := ADD _D_l1 _D_m0
  let c2 := ADD l2 m1
  let d2 := ADD _D_l2 _D_m1
  let c3 := ADD l3 m2
  let d3 := ADD _D_l3 _D_m2
  let c4 := ADD l4 m3
  let d4 := ADD _D_l4 _D_m3
  let c5 := ADD l5 m4
  let d5 := ADD _D_l5 _D_m4
  let c6 := ADD l6 m5
  let d6 := ADD _D_l6 _D_m5
  let c7 := ADD l7 m6
  let d7 := ADD _D_l7 _D_m6
  let c8 := ADD l8 m7
  let d8 := ADD _D_l8 _D_m7
  let c9 := ADD l9 m8
  let d9 := ADD _D_l9 _D_m8
  (⟨c0, c1, c2, c3, c4, c5, c6, c7, c8, c9⟩,
    ⟨d0, d1, d2, d3, d4, d5, d6, d7, d8, d9⟩)

/-- src/eltfp25519_4w_redradix.c:740-743 `mul`. -/
def mul {α : Type} [Lane α] (a b : Elt10 α) : Elt10 α := compress (intmul a b)

/-- src/eltfp25519_4w_redradix.c:745-748 `sqr`. -/
def sqr {α : Type} [Lane α] (c : Elt10 α) : Elt10 α := compress (intsqr c)

/-- src/eltfp25519_4w_redradix.c:750-756 `sqrn`. -/
def sqrn {α : Type} [Lane α] (c : Elt10 α) : ℕ → Elt10 α
  | 0 => c
  | n + 1 => sqrn (compress (intsqr c)) n

end R4

end Verif.Fp25519
