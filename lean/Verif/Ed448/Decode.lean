import Verif.Ed448.Point

/-! # Decoding of points of edwards448: src/edwards448.c -/

namespace Verif.Ed448

open Verif.Fp448

/-- src/edwards448.c:780-789 `param_curve_d`. -/
def param_curve_d : Elt8 U :=
  R1.ofMem 0xfff6756#64 0xffffffe#64 0xfffffff#64 0xfffffff#64 0xfffffff#64 0xfffffff#64
    0xfffffff#64 0xfffffff#64 0xfffffff#64 0xfffffff#64 0xfffffff#64 0xfffffff#64 0xfffffff#64
    0xfffffff#64 0xfffffff#64 0xfffffff#64

/-- The assignments `u[0] = u[0] + x` to the first word of an element: src/edwards448.c:806-807
(x = -1) and 862 (x = 2). -/
def addLimb0 (u : Elt8 U) (x : W) : Elt8 U := { u with c0 := ⟨u.c0.l + x, u.c0.h⟩ }

/-- src/edwards448.c:797-801: `Y`, from the first 56 bytes.  The byte 56 is changed and restored,
but not read by `unser`. -/
def decodeY (A : List Byte) : Elt8 U := R1.unser (A.take 56)

/-- src/edwards448.c:803-804 and 806: `u`. -/
def decodeU (Y : Elt8 U) : Elt8 U := addLimb0 (R1.sqr Y) (-1#64)

/-- src/edwards448.c:803-805 and 807: `v`. -/
def decodeV (Y : Elt8 U) : Elt8 U := addLimb0 (R1.mul (R1.sqr Y) param_curve_d) (-1#64)

/-- src/edwards448.c:809-819: `X` = u³v(u⁵v³)^((p-3)/4). -/
def decodeRoot (u v : Elt8 U) : Elt8 U :=
  let uv := R1.mul u v
  let u2 := R1.sqr u
  let v2 := R1.sqr v
  let u3v := R1.mul uv u2
  let u5v := R1.mul u3v u2
  let u5v3 := R1.mul u5v v2
  let u5v3_exp := R1.srt u5v3
  R1.mul u3v u5v3_exp

/-- src/edwards448.c:825-829: the comparison of vX² with u. -/
def decodeCmp (u v X : Elt8 U) : BitVec 32 :=
  let uv := R1.sqr X
  let uv := R1.mul uv v
  R1.cmp uv u

/-- src/edwards448.c:838-841: the choice of the sign.  `bit_X` is 0 or 1. -/
def decodeSign (bit_X : W) (X : Elt8 U) : Elt8 U :=
  if bit_X ≠ X.c0.l &&& 1#64 then R1.compressfast (R1.neg X) else X

/-- src/edwards448.c:849-854: `a`. -/
def decodeA (X Y : Elt8 U) : Elt8 U := R1.compressfast (R1.neg (R1.mul (R1.add X X) Y))

/-- src/edwards448.c:855-858: `b`, from the squares of X and Y. -/
def decodeB (XX YY : Elt8 U) : Elt8 U := R1.new_compressfast (R1.add YY XX)

/-- src/edwards448.c:859-860: `c`. -/
def decodeC (XX YY : Elt8 U) : Elt8 U := R1.new_compressfast (R1.sub YY XX)

/-- src/edwards448.c:861-864: `d`. -/
def decodeD (b : Elt8 U) : Elt8 U := R1.compressfast (addLimb0 (R1.neg b) 2#64)

/-- src/edwards448.c:848-877: the two points, from the coordinates. -/
def decodeOut (X Y : Elt8 U) : Elt16 V × P2w :=
  let a := decodeA X Y
  let XX := R1.sqr X
  let YY := R1.sqr Y
  let b := decodeB XX YY
  let c := decodeC XX YY
  let d := decodeD b
  let X := R1.mul a d
  let Y := R1.mul b c
  let Z := R1.mul c d
  let T := R1.mul a b
  (R4.zip X Y T Z, ⟨R2.inter X Y, R2.inter T Z⟩)

/-- src/edwards448.c:796-841: `X`, with the sign of the top bit. -/
def decodeX (A : List Byte) : Elt8 U :=
  let bit_X := (A.getD 56 0 >>> 7).setWidth 64
  let Y := decodeY A
  decodeSign bit_X (decodeRoot (decodeU Y) (decodeV Y))

/-- src/edwards448.c:771-879 `point_decoding_ed448`: `none` if -1 is returned (nothing is written
then), otherwise the 4-way and the 2-way point.  Simplification: both pointers are given; each
result does not depend on whether the other is asked for. -/
def point_decoding (A : List Byte) : Option (Elt16 V × P2w) :=
  let Y := decodeY A
  let u := decodeU Y
  let v := decodeV Y
  let X := decodeRoot u v
  if decodeCmp u v X ≠ 0#32 then none else some (decodeOut (decodeX A) Y)

end Verif.Ed448
