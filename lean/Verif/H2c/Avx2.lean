import Verif.H2c.X64
import Verif.Sha512.TwoWay
import Verif.Ed25519.Point
import Verif.Fp25519.RedApi

/-!
# src/hash255.c, AVX2 code

The low half of each vector holds the first element and the high half the second.
-/

namespace Verif.H2c

open Verif.Fp25519 Verif.Ed25519

/-- src/hash255.c:38-61 `hash_to_field_2w`.  `none` is undefined behaviour: the result of
`_mm_malloc` is not checked, and the message is copied to it (47-50); `alloc0` and `alloc1` tell
whether the allocations succeed.  The length parameter of `sha512_2w_avx` is an `unsigned int`
(third_party/sha512_2way.c:268), so only `(mlen + 1) mod 2^32` bytes are hashed. -/
def hash_to_field_2w (alloc0 alloc1 : Bool) (msg : List Byte) : Option (F4 × F4) :=
  if alloc0 && alloc1 then
    let mlen := (msg.length + 1) % 2 ^ 32
    let digest := Sha512.TwoWay.sha512_2w ((0#8 :: msg).take mlen) ((1#8 :: msg).take mlen)
    some (F4.ofBytes (reduceBytes digest.1), F4.ofBytes (reduceBytes digest.2))
  else none

/-- src/hash255.c:125-185 `expoC4_2w`. -/
def expoC4_2w {α : Type} [Simd α] (x : Elt5 α) : Elt5 α :=
  let t0 := x
  let t0 := R2.sqr t0
  let t1 := t0
  let t1 := R2.sqrn t1 2
  let t1 := R2.mul t1 x
  let t0 := R2.mul t0 t1
  let t0 := R2.sqrn t0 1
  let t0 := R2.mul t0 t1
  let t1 := t0
  let t1 := R2.sqrn t1 5
  let t1 := R2.mul t1 t0
  let t2 := t1
  let t2 := R2.sqrn t2 5
  let t2 := R2.mul t2 t0
  let t1 := t2
  let t1 := R2.sqrn t1 15
  let t1 := R2.mul t1 t2
  let t2 := t1
  let t2 := R2.sqrn t2 30
  let t2 := R2.mul t2 t1
  let t1 := t2
  let t1 := R2.sqrn t1 60
  let t1 := R2.mul t1 t2
  let t1 := R2.sqrn t1 5
  let t1 := R2.mul t1 t0
  let t2 := t1
  let t2 := R2.sqrn t2 125
  let t2 := R2.mul t2 t1
  let t2 := R2.sqrn t2 2
  let t2 := R2.mul t2 x
  t2

/-- `ZERO` (simd_avx2.h:95). -/
def ZEROV : V := LIT 0

/-- src/hash255.c:294 `ONE`. -/
def ONEV : V := SET64 0 1 0 1

/-- `x == y` for vectors (GCC): -1 in the lanes that are equal, 0 in the others. -/
def VEQ (x y : V) : V := x.zip (fun a b => if a = b then -1#64 else 0#64) y

/-- src/hash255.c:296, 379 `one`. -/
def one_2w : Elt5 V := ⟨ONEV, ZEROV, ZEROV, ZEROV, ZEROV⟩

/-- src/hash255.c:297-298 `A`. -/
def A_2w : Elt5 V := ⟨SET64 0 486662 0 486662, ZEROV, ZEROV, ZEROV, ZEROV⟩

/-- src/hash255.c:299-305 `c2`. -/
def c2_2w : Elt5 V :=
  ⟨SET64 0x1fbd7a7 0x20ea0b1 0x1fbd7a7 0x20ea0b1, SET64 0x2804c9e 0x186c9d2 0x2804c9e 0x186c9d2,
    SET64 0x1e16569 0x08f189d 0x1e16569 0x08f189d, SET64 0x004fc1d 0x035697f 0x004fc1d 0x035697f,
    SET64 0x0ae0c92 0x0bd0c60 0x0ae0c92 0x0bd0c60⟩

/-- src/hash255.c:306-312 `c3`. -/
def c3_2w : Elt5 V :=
  ⟨SET64 0x1fbd7a7 0x20ea0b0 0x1fbd7a7 0x20ea0b0, SET64 0x2804c9e 0x186c9d2 0x2804c9e 0x186c9d2,
    SET64 0x1e16569 0x08f189d 0x1e16569 0x08f189d, SET64 0x004fc1d 0x035697f 0x004fc1d 0x035697f,
    SET64 0x0ae0c92 0x0bd0c60 0x0ae0c92 0x0bd0c60⟩

/-- src/hash255.c:378 `zero`. -/
def zero_2w : Elt5 V := ⟨ZEROV, ZEROV, ZEROV, ZEROV, ZEROV⟩

/-- src/hash255.c:380-386 `c1`. -/
def c1_2w : Elt5 V :=
  ⟨SET64 0x1fc4f7e 0x3457e06 0x1fc4f7e 0x3457e06, SET64 0x1846e01 0x1812abf 0x1846e01 0x1812abf,
    SET64 0x0d77a4f 0x350598d 0x0d77a4f 0x350598d, SET64 0x3460a00 0x08a5be8 0x3460a00 0x08a5be8,
    SET64 0x03c9bb7 0x316874f 0x03c9bb7 0x316874f⟩

/-- Two fractions, two-way. -/
structure Frac2w where
  xn : Elt5 V
  xd : Elt5 V
  yn : Elt5 V
  yd : Elt5 V

/-- src/hash255.c:290-369 `elligator2_curve25519_2w`; the numbers are those of the source. -/
def elligator2_curve25519_2w (u : Elt5 V) : Frac2w :=
  let tv1 := u
  let tv1 := R2.sqr tv1                           -- 1
  let tv1 := R2.add tv1 tv1                       -- 2
  let xd := R2.add tv1 one_2w                     -- 3
  let x1n := A_2w
  let x1n := R2.neg x1n                           -- 4
  let tv2 := xd
  let tv2 := R2.sqr tv2                           -- 5
  let gxd := R2.mul tv2 xd                        -- 6
  let gx1 := R2.mul A_2w tv1                      -- 7
  let gx1 := R2.mul gx1 x1n                       -- 8
  let gx1 := R2.add gx1 tv2                       -- 9
  let gx1 := R2.mul gx1 x1n                       -- 10
  let tv3 := gxd
  let tv3 := R2.sqr tv3                           -- 11
  let tv2 := tv3
  let tv2 := R2.sqr tv2                           -- 12
  let tv3 := R2.mul tv3 gxd                       -- 13
  let tv3 := R2.mul tv3 gx1                       -- 14
  let tv2 := R2.mul tv2 tv3                       -- 15
  let y11 := expoC4_2w tv2                        -- 16
  let y11 := R2.mul y11 tv3                       -- 17
  let y12 := R2.mul y11 c3_2w                     -- 18
  let tv2 := y11
  let tv2 := R2.sqr tv2                           -- 19
  let tv2 := R2.mul tv2 gxd                       -- 20
  let e1 := VEQ (R2.cmp tv2 gx1) ZEROV            -- 21
  let y1 := R2.cmv e1 y12 y11                     -- 22
  let x2n := R2.mul x1n tv1                       -- 23
  let y21 := R2.mul y11 u                         -- 24
  let y21 := R2.mul y21 c2_2w                     -- 25
  let y22 := R2.mul y21 c3_2w                     -- 26
  let gx2 := R2.mul gx1 tv1                       -- 27
  let tv2 := y21
  let tv2 := R2.sqr tv2                           -- 28
  let tv2 := R2.mul tv2 gxd                       -- 29
  let e2 := VEQ (R2.cmp tv2 gx2) ZEROV            -- 30
  let y2 := R2.cmv e2 y22 y21                     -- 31
  let tv2 := y1
  let tv2 := R2.sqr tv2                           -- 32
  let tv2 := R2.mul tv2 gxd                       -- 33
  let e3 := VEQ (R2.cmp tv2 gx1) ZEROV            -- 34
  let xn := R2.cmv e3 x2n x1n                     -- 35
  let y := R2.cmv e3 y2 y1                        -- 36
  let e4 := VEQ (R2.sgn y) ONEV                   -- 37
  let y3 := y
  let y3 := R2.neg y3
  let yn := R2.cmv (XOR e3 e4) y y3               -- 38
  { xn := R2.compress xn, xd := R2.compress xd, yn := R2.compress yn, yd := R2.compress one_2w }

/-- src/hash255.c:371-406 `elligator2_edwards25519_2w`. -/
def elligator2_edwards25519_2w (u : Elt5 V) : Frac2w :=
  let M := elligator2_curve25519_2w u             -- 1
  let xn := R2.mul M.xn M.yd                      -- 2
  let xn := R2.mul xn c1_2w                       -- 3
  let xd := R2.mul M.xd M.yn                      -- 4
  let yn := R2.sub M.xn M.xd                      -- 5
  let yd := R2.add M.xn M.xd                      -- 6
  let tv1 := R2.mul xd yd                         -- 7
  let e := VEQ (R2.cmp tv1 zero_2w) ZEROV         -- 8
  let xn := R2.cmv e xn zero_2w                   -- 9
  let xd := R2.cmv e xd one_2w                    -- 10
  let yn := R2.cmv e yn one_2w                    -- 11
  let yd := R2.cmv e yd one_2w                    -- 12
  { xn := R2.compress xn, xd := R2.compress xd, yn := R2.compress yn, yd := R2.compress yd }

/-- src/hash255.c:419-428 `map_to_curve_2w`. -/
def map_to_curve_2w (u0u1 : Elt5 V) : P2way V :=
  let f := elligator2_edwards25519_2w u0u1
  { X := R2.mul f.xn f.yd, Y := R2.mul f.yn f.xd, T := R2.mul f.xn f.yn, Z := R2.mul f.xd f.yd }

/-- src/hash255.c:436-440 `clear_cofactor_2w`. -/
def clear_cofactor_2w {α : Type} [Simd α] (P : P2way α) : P2way α :=
  let P := doubling_2way P false
  let P := doubling_2way P false
  let P := doubling_2way P true
  P

/-- src/hash255.c:541-544, 545-548: a one-way point converted to full radix. -/
def serPoint (X Y T Z : Elt5 U) : P1full :=
  { X := F4.ofBytes (R1.ser X), Y := F4.ofBytes (R1.ser Y), T := F4.ofBytes (R1.ser T),
    Z := F4.ofBytes (R1.ser Z) }

/-- src/hash255.c:530-550 the part of `h2c25519_avx2` after `hash_to_field_2w`. -/
def h2c_fields (isa : Isa) (uu0 uu1 : F4) : Point :=
  let u0 := R1.unser uu0.toBytes
  let u1 := R1.unser uu1.toBytes
  let u0u1 := R2.inter u0 u1
  let Q0Q1 := map_to_curve_2w u0u1
  let Q0Q1 := clear_cofactor_2w Q0Q1
  let X := R2.deinter Q0Q1.X
  let Y := R2.deinter Q0Q1.Y
  let T := R2.deinter Q0Q1.T
  let Z := R2.deinter Q0Q1.Z
  let P0 := serPoint X.1 Y.1 T.1 Z.1
  let P1 := serPoint X.2 Y.2 T.2 Z.2
  toAffine isa (fulladd_1w_full isa P0 P1)

/-- src/hash255.c:520-551 `h2c25519_avx2`. -/
def h2c25519_avx2 (isa : Isa) (alloc0 alloc1 : Bool) (msg : List Byte) : Option Point := do
  let (uu0, uu1) ← hash_to_field_2w alloc0 alloc1 msg
  some (h2c_fields isa uu0 uu1)

end Verif.H2c
