import Verif.Ed25519.Scalar
import Verif.Ed25519.Point
import Verif.Sha512.Model

/-!
# src/hash255.c, 64-bit code

`isa` selects the build of the field arithmetic.  `cmp` and `sgn` rewrite their arguments, and the
model follows the rewritten values.
-/

namespace Verif.H2c

open Verif.Fp25519 Verif.Ed25519

/-- src/hash255.c:26-36 `hash_to_field`; `ctx` is what the memory of the context held. -/
def hash_to_field (ctx : Sha512.Ctx) (pfx : Byte) (msg : List Byte) : F4 :=
  let h0 := Sha512.init ctx
  let h0 := Sha512.update h0 [pfx]
  let h0 := Sha512.update h0 msg
  let h0_msg := (Sha512.close h0).2
  F4.ofBytes (reduceBytes h0_msg)

/-- src/hash255.c:63-123 `expoC4`. -/
def expoC4 (isa : Isa) (x : F4) : F4 :=
  let t0 := x
  let t0 := Full.sqr isa t0
  let t1 := t0
  let t1 := Full.sqrn isa t1 2
  let t1 := Full.mul isa t1 x
  let t0 := Full.mul isa t0 t1
  let t0 := Full.sqrn isa t0 1
  let t0 := Full.mul isa t0 t1
  let t1 := t0
  let t1 := Full.sqrn isa t1 5
  let t1 := Full.mul isa t1 t0
  let t2 := t1
  let t2 := Full.sqrn isa t2 5
  let t2 := Full.mul isa t2 t0
  let t1 := t2
  let t1 := Full.sqrn isa t1 15
  let t1 := Full.mul isa t1 t2
  let t2 := t1
  let t2 := Full.sqrn isa t2 30
  let t2 := Full.mul isa t2 t1
  let t1 := t2
  let t1 := Full.sqrn isa t1 60
  let t1 := Full.mul isa t1 t2
  let t1 := Full.sqrn isa t1 5
  let t1 := Full.mul isa t1 t0
  let t2 := t1
  let t2 := Full.sqrn isa t2 125
  let t2 := Full.mul isa t2 t1
  let t2 := Full.sqrn isa t2 2
  let t2 := Full.mul isa t2 x
  t2

/-- src/hash255.c:192 `one`. -/
def one : F4 := ⟨1#64, 0#64, 0#64, 0#64⟩

/-- src/hash255.c:193 `A`. -/
def A_full : F4 := ⟨486662#64, 0#64, 0#64, 0#64⟩

/-- src/hash255.c:194-199 `c2`. -/
def c2_full : F4 :=
  ⟨0xc4ee1b274a0ea0b1#64, 0x2f431806ad2fe478#64, 0x2b4d00993dfbd7a7#64, 0x2b8324804fc1df0b#64⟩

/-- src/hash255.c:200-205 `c3`. -/
def c3_full : F4 :=
  ⟨0xc4ee1b274a0ea0b0#64, 0x2f431806ad2fe478#64, 0x2b4d00993dfbd7a7#64, 0x2b8324804fc1df0b#64⟩

/-- src/hash255.c:267-272 `c1`. -/
def c1_full : F4 :=
  ⟨0xcc6e04aaff457e06#64, 0xc5a1d3d14b7d1a82#64, 0xd27b08dc03fc4f7e#64, 0x0f26edf460a006bb#64⟩

/-- `x == 0`, as an `int`. -/
def isZero (x : BitVec 32) : BitVec 32 := if x = 0#32 then 1#32 else 0#32

/-- Two fractions. -/
structure Frac2 where
  xn : F4
  xd : F4
  yn : F4
  yd : F4

/-- src/hash255.c:187-258 `elligator2_curve25519`; the numbers are those of the source. -/
def elligator2_curve25519 (isa : Isa) (u : F4) : Frac2 :=
  let tv1 := u
  let tv1 := Full.sqr isa tv1                     -- 1
  let tv1 := Full.add isa tv1 tv1                 -- 2
  let xd := Full.add isa tv1 one                  -- 3
  let x1n := A_full
  let x1n := Full.neg x1n                         -- 4
  let tv2 := xd
  let tv2 := Full.sqr isa tv2                     -- 5
  let gxd := Full.mul isa tv2 xd                  -- 6
  let gx1 := Full.mul isa A_full tv1              -- 7
  let gx1 := Full.mul isa gx1 x1n                 -- 8
  let gx1 := Full.add isa gx1 tv2                 -- 9
  let gx1 := Full.mul isa gx1 x1n                 -- 10
  let tv3 := gxd
  let tv3 := Full.sqr isa tv3                     -- 11
  let tv2 := tv3
  let tv2 := Full.sqr isa tv2                     -- 12
  let tv3 := Full.mul isa tv3 gxd                 -- 13
  let tv3 := Full.mul isa tv3 gx1                 -- 14
  let tv2 := Full.mul isa tv2 tv3                 -- 15
  let y11 := expoC4 isa tv2                       -- 16
  let y11 := Full.mul isa y11 tv3                 -- 17
  let y12 := Full.mul isa y11 c3_full             -- 18
  let tv2 := y11
  let tv2 := Full.sqr isa tv2                     -- 19
  let tv2 := Full.mul isa tv2 gxd                 -- 20
  let cmp1 := Full.cmp tv2 gx1
  let gx1 := cmp1.2.1
  let e1 := isZero cmp1.2.2                       -- 21
  let y1 := Full.cmv e1 y12 y11                   -- 22
  let x2n := Full.mul isa x1n tv1                 -- 23
  let y21 := Full.mul isa y11 u                   -- 24
  let y21 := Full.mul isa y21 c2_full             -- 25
  let y22 := Full.mul isa y21 c3_full             -- 26
  let gx2 := Full.mul isa gx1 tv1                 -- 27
  let tv2 := y21
  let tv2 := Full.sqr isa tv2                     -- 28
  let tv2 := Full.mul isa tv2 gxd                 -- 29
  let e2 := isZero (Full.cmp tv2 gx2).2.2         -- 30
  let y2 := Full.cmv e2 y22 y21                   -- 31
  let tv2 := y1
  let tv2 := Full.sqr isa tv2                     -- 32
  let tv2 := Full.mul isa tv2 gxd                 -- 33
  let e3 := isZero (Full.cmp tv2 gx1).2.2         -- 34
  let xn := Full.cmv e3 x2n x1n                   -- 35
  let y := Full.cmv e3 y2 y1                      -- 36
  let e4 := (Full.sgn y).2.setWidth 32            -- 37
  let y := (Full.sgn y).1
  let y3 := y
  let y3 := Full.neg y3
  let yn := Full.cmv (e3 ^^^ e4) y y3             -- 38
  { xn := xn, xd := xd, yn := yn, yd := one }

/-- src/hash255.c:260-288 `elligator2_edwards25519`. -/
def elligator2_edwards25519 (isa : Isa) (u : F4) : Frac2 :=
  let M := elligator2_curve25519 isa u            -- 1
  let xn := Full.mul isa M.xn M.yd                -- 2
  let xn := Full.mul isa xn c1_full               -- 3
  let xd := Full.mul isa M.xd M.yn                -- 4
  let yn := Full.sub M.xn M.xd                    -- 5
  let yd := Full.add isa M.xn M.xd                -- 6
  let tv1 := Full.mul isa xd yd                   -- 7
  let cmp := Full.cmp tv1 Full.zero
  let zero := cmp.2.1
  let e := isZero cmp.2.2                         -- 8
  let xn := Full.cmv e xn zero                    -- 9
  let xd := Full.cmv e xd one                     -- 10
  let yn := Full.cmv e yn one                     -- 11
  let yd := Full.cmv e yd one                     -- 12
  { xn := xn, xd := xd, yn := yn, yd := yd }

/-- src/hash255.c:408-417 `map_to_curve`. -/
def map_to_curve (isa : Isa) (u : F4) : P1full :=
  let f := elligator2_edwards25519 isa u
  { X := Full.mul isa f.xn f.yd, Y := Full.mul isa f.yn f.xd, T := Full.mul isa f.xn f.yn,
    Z := Full.mul isa f.xd f.yd }

/-- src/hash255.c:430-434 `clear_cofactor`. -/
def clear_cofactor (isa : Isa) (P : P1full) : P1full :=
  let P := doubling_1w_full isa P
  let P := doubling_1w_full isa P
  let P := doubling_1w_full isa P
  P

/-- include/faz_hash_avx2.h:40 `Point`: affine coordinates. -/
structure Point where
  X : F4
  Y : F4

/-- src/hash255.c:442-449 `toAffine`. -/
def toAffine (isa : Isa) (P : P1full) : Point :=
  let invZ := Full.inv isa P.Z
  { X := Full.mul isa P.X invZ, Y := Full.mul isa P.Y invZ }

/-- src/hash255.c:455-456, 483-484 `paramD`. -/
def paramD : F4 :=
  ⟨0x75eb4dca135978a3#64, 0x00700a4d4141d8ab#64, 0x8cc740797779e898#64, 0x52036cee2b6ffe73#64⟩

/-- src/hash255.c:451-476 `isOnCurveProy`. -/
def isOnCurveProy (isa : Isa) (P : P1full) : Bool :=
  let x2 := Full.sqr isa P.X
  let y2 := Full.sqr isa P.Y
  let t2 := Full.sqr isa P.T
  let z2 := Full.sqr isa P.Z
  let dt2 := Full.mul isa t2 paramD
  let e0 := Full.sub y2 x2
  let e0 := Full.sub e0 z2
  let e0 := Full.sub e0 dt2
  let e1 := Full.mul isa P.X P.Y
  let tz := Full.mul isa P.T P.Z
  let e1 := Full.sub e1 tz
  let cmp := Full.cmp e0 Full.zero
  cmp.2.2 == 0#32 && (Full.cmp e1 cmp.2.1).2.2 == 0#32

/-- src/hash255.c:478-497 `isOnCurve`. -/
def isOnCurve (isa : Isa) (P : Point) : Bool :=
  let x2 := Full.sqr isa P.X
  let y2 := Full.sqr isa P.Y
  let dx2y2 := Full.mul isa x2 y2
  let dx2y2 := Full.mul isa dx2y2 paramD
  let e := Full.sub y2 x2
  let e := Full.sub e one
  let e := Full.sub e dx2y2
  (Full.cmp e Full.zero).2.2 == 0#32

/-- src/hash255.c:499-502 `areEqual`, for two different buffers; the coordinates are also
reduced in place. -/
def areEqual (P Q : Point) : Bool :=
  (Full.cmp P.X Q.X).2.2 == 0#32 && (Full.cmp P.Y Q.Y).2.2 == 0#32

/-- src/hash255.c:504-518 `h2c25519_x64`. -/
def h2c25519_x64 (isa : Isa) (ctx0 ctx1 : Sha512.Ctx) (msg : List Byte) : Point :=
  let u0 := hash_to_field ctx0 0#8 msg
  let u1 := hash_to_field ctx1 1#8 msg
  let Q0 := map_to_curve isa u0
  let Q1 := map_to_curve isa u1
  let Q0 := clear_cofactor isa Q0
  let Q1 := clear_cofactor isa Q1
  let Q := fulladd_1w_full isa Q0 Q1
  toAffine isa Q

end Verif.H2c
