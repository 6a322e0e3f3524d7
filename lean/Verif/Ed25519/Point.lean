import Verif.Fp25519.RedMul2
import Verif.Fp25519.RedApi

/-!
# Point formulas of src/edwards255.c

Addition and doubling of points of edwards25519 in extended coordinates, in the layouts the
library uses: 64-bit full radix, one point over two 128-bit halves, two points in two
halves, four points in four lanes, and one point over four lanes.  `PROCESSOR` is `SKYLAKE`.
-/

namespace Verif.Ed25519

open Verif.Fp25519

/-! ## Full radix -/

/-- include/edwards255.h:32-37 `PointXYZT_1way_full`. -/
structure P1full where
  X : F4
  Y : F4
  Z : F4
  T : F4

/-- src/edwards255.c:36-67 `_1way_doubling_1w_full`. -/
def doubling_1w_full (isa : Isa) (P : P1full) : P1full :=
  let A := P.X
  let B := P.Y
  let C := P.Z
  let A := Full.sqr isa A
  let B := Full.sqr isa B
  let C := Full.sqr isa C
  let C := Full.add isa C C
  let E := Full.add isa P.X P.Y
  let E := Full.sqr isa E
  let E := Full.sub E A
  let E := Full.sub E B
  let G := Full.sub B A
  let F := Full.sub G C
  let H := Full.add isa A B
  let H := Full.neg H
  { X := Full.mul isa E F, Y := Full.mul isa G H, T := Full.mul isa E H, Z := Full.mul isa F G }

/-- src/edwards255.c:89-94 `param_2d`. -/
def param_2d_full : F4 :=
  ⟨0xebd69b9426b2f159#64, 0x00e0149a8283b156#64, 0x198e80f2eef3d130#64, 0x2406d9dc56dffce7#64⟩

/-- src/edwards255.c:73-117 `_1way_fulladd_1w_full`. -/
def fulladd_1w_full (isa : Isa) (Q P : P1full) : P1full :=
  let addY1X1 := Full.add isa Q.Y Q.X
  let subY1X1 := Full.sub Q.Y Q.X
  let addY2X2 := Full.add isa P.Y P.X
  let subY2X2 := Full.sub P.Y P.X
  let A := Full.mul isa subY1X1 subY2X2
  let B := Full.mul isa addY1X1 addY2X2
  let C := Full.mul isa Q.T P.T
  let C := Full.mul isa C param_2d_full
  let D := Full.mul isa Q.Z P.Z
  let D := Full.add isa D D
  let E := Full.sub B A
  let F := Full.sub D C
  let G := Full.add isa D C
  let H := Full.add isa B A
  { X := Full.mul isa E F, Y := Full.mul isa G H, Z := Full.mul isa F G, T := Full.mul isa E H }

/-! ## Four points in four lanes -/

/-- include/edwards255.h:60-65 `PointXYZT_4way`. -/
structure P4way (α : Type) where
  X : Elt10 α
  Y : Elt10 α
  Z : Elt10 α
  T : Elt10 α

/-- include/edwards255.h:67-71 `Point_precmp_4way`. -/
structure Pre4way (α : Type) where
  addYX : Elt10 α
  subYX : Elt10 α
  dYX : Elt10 α

/-- src/edwards255.c:128-155 `_4way_mixadd_25519`: every operation acts on each lane. -/
def mixadd_4way {α : Type} [Lane α] (Q : P4way α) (P : Pre4way α) : P4way α :=
  let (addY1X1, subY1X1) := R4.addsub Q.Y Q.X
  let A := R4.intmul subY1X1 P.subYX
  let B := R4.intmul addY1X1 P.addYX
  let C := R4.intmul P.dYX Q.T
  let D := R4.add Q.Z Q.Z
  let (C, D) := R4.compress2 C D
  let (B, A) := R4.addsublar B A
  let (D, C) := R4.addsublar D C
  let (B, A) := R4.compress2 B A
  let (D, C) := R4.compress2 D C
  let X := R4.intmul A C
  let T := R4.intmul A B
  let Z := R4.intmul D C
  let Y := R4.intmul D B
  let (X, T) := R4.compress2 X T
  let (Y, Z) := R4.compress2 Y Z
  { X := X, Y := Y, Z := Z, T := T }

/-! ## Two points in two halves -/

/-- include/edwards255.h:46-51 `PointXYZT_2way`. -/
structure P2way (α : Type) where
  X : Elt5 α
  Y : Elt5 α
  Z : Elt5 α
  T : Elt5 α

/-- src/edwards255.c:264-269 `param_2d_H0H5`. -/
def param_2d {α : Type} [Simd α] : Elt5 α :=
  ⟨LIT2 0x2b2f159 0x0f3d130, LIT2 0x1a6e509 0x3407977, LIT2 0x22add7a 0x19ce331,
    LIT2 0x0d4141d 0x1c56dff, LIT2 0x0038052 0x0901b67⟩

/-- src/edwards255.c:257-297 `_2way_fulladd`: the result Q.  The second operand is also
overwritten; no caller reads it again. -/
def fulladd_2way {α : Type} [Simd α] (Q P : P2way α) : P2way α :=
  let Z1 := R2.add Q.Z Q.Z
  let (Y1, X1) := R2.addsub Q.Y Q.X
  let (Y2, X2) := R2.addsub P.Y P.X
  let X2 := R2.compressfast X2
  let Y2 := R2.compressfast Y2
  let A := R2.compress (R2.intmul X1 X2)
  let B := R2.compress (R2.intmul Y1 Y2)
  let C := R2.compress (R2.intmul Q.T P.T)
  let C := R2.compress (R2.intmul C param_2d)
  let D := R2.compress (R2.intmul Z1 P.Z)
  let (B, A) := R2.addsub B A
  let (D, C) := R2.addsub D C
  let C := R2.compressfast C
  let B := R2.compressfast B
  let X1 := R2.intmul A C
  let T1 := R2.intmul A B
  let Z1 := R2.intmul D C
  let Y1 := R2.intmul D B
  { X := R2.compress X1, T := R2.compress T1, Z := R2.compress Z1, Y := R2.compress Y1 }

/-- src/edwards255.c:299-330 `_2way_doubling`. -/
def doubling_2way {α : Type} [Simd α] (P : P2way α) (compute_T : Bool) : P2way α :=
  let T1 := R2.add P.X P.Y
  let T1 := R2.compressfast T1
  let T1 := R2.sqr T1
  let X1 := R2.sqr P.X
  let Y1 := R2.sqr P.Y
  let Z1 := R2.sqr P.Z
  let Z1 := R2.add Z1 Z1
  let Z1 := R2.compressfast Z1
  let (H, G) := R2.naddsub X1 Y1
  let H := R2.compressfast H
  let G := R2.compressfast G
  let E := R2.add T1 H
  let F := R2.sub G Z1
  let E := R2.compressfast E
  let F := R2.compressfast F
  { X := R2.mul E F, Y := R2.mul G H, Z := R2.mul F G,
    T := if compute_T then R2.mul E H else T1 }

/-! ## One point over two halves -/

/-- include/edwards255.h:80-83 `PointXYZT_2w_H0H5`. -/
structure P2w where
  XY : Elt5 V
  TZ : Elt5 V

/-- include/edwards255.h:75-78 `PointXYZT_precompute_2w_H0H5`. -/
structure Pre2w where
  subaddYX : Elt5 V
  dT_2Z : Elt5 V

/-- src/edwards255.c:332-338 `CONST_2_to_35P_2w`. -/
def CONST_2_to_35P_2w : Elt5 V :=
  ⟨⟨0x1fffff6800000000#64, 0x0ffffff800000000#64, 0x1fffff6800000000#64, 0x0ffffff800000000#64⟩,
   ⟨0x0ffffff800000000#64, 0x1ffffff800000000#64, 0x0ffffff800000000#64, 0x1ffffff800000000#64⟩,
   ⟨0x1ffffff800000000#64, 0x0ffffff800000000#64, 0x1ffffff800000000#64, 0x0ffffff800000000#64⟩,
   ⟨0x0ffffff800000000#64, 0x1ffffff800000000#64, 0x0ffffff800000000#64, 0x1ffffff800000000#64⟩,
   ⟨0x1ffffff800000000#64, 0x0ffffff800000000#64, 0x1ffffff800000000#64, 0x0ffffff800000000#64⟩⟩

/-- src/edwards255.c:442-447 and 1302-1308 `param_curve_2d_02`. -/
def param_curve_2d_02 : Elt5 V :=
  ⟨⟨0x2b2f159#64, 0x0f3d130#64, 0x2#64, 0x0#64⟩, ⟨0x1a6e509#64, 0x3407977#64, 0x0#64, 0x0#64⟩,
    ⟨0x22add7a#64, 0x19ce331#64, 0x0#64, 0x0#64⟩, ⟨0x0d4141d#64, 0x1c56dff#64, 0x0#64, 0x0#64⟩,
    ⟨0x0038052#64, 0x0901b67#64, 0x0#64, 0x0#64⟩⟩

/-- src/edwards255.c:359-370, the values `_BG` of the loop of `_1way_doubling_2w_H0H5`. -/
def dbl2w_BG (xy : V) : V :=
  let BA := PERM64 xy 0x4E
  let Z0B := BLEND32 xy (LIT 0) 0x0F
  SUB Z0B BA

/-- src/edwards255.c:345-383 `_1way_doubling_2w_H0H5`. -/
def doubling_2w (P : P2w) : P2w :=
  let EG := P.TZ.map (PERM64 · 0xEE)
  let XY := R2.intsqr P.XY
  let TZ := R2.intmul P.TZ EG
  let TZ := R2.add TZ TZ
  let EG := (XY.zip (fun xy tz => BLEND32 (dbl2w_BG xy) tz 0x0F) TZ).zip ADD CONST_2_to_35P_2w
  let HF := (XY.zip (fun xy tz => SUB (dbl2w_BG xy) (BLEND32 xy tz 0xF0)) TZ).zip ADD
    CONST_2_to_35P_2w
  let (HF, EG) := R2.compress2 HF EG
  let (TZ, XY) := R2.intmul2 HF EG
  let (XY, TZ) := R2.compress2 XY TZ
  ⟨XY, TZ⟩

/-- src/edwards255.c:407-412 and 463-468: the loop that forms [E|G] and [H|F]. -/
def egHF (AB CD : Elt5 V) : Elt5 V × Elt5 V :=
  let AC := AB.zip (PERM128 · · 0x20) CD
  let BD := AB.zip (PERM128 · · 0x31) CD
  (BD.zip ADD AC, (BD.zip SUB AC).zip ADD CONST_2_to_35P_2w)

/-- src/edwards255.c:390-425 `_1way_mixadd_2w_H0H5`. -/
def mixadd_2w (Q : P2w) (P : Pre2w) : P2w :=
  let subYXaddYX1 := R2.subadd Q.XY 0#32
  let AB := R2.intmul subYXaddYX1 P.subaddYX
  let CD := R2.intmul Q.TZ P.dT_2Z
  let (EG, HF) := egHF AB CD
  let (EG, HF) := R2.compress2 EG HF
  let (TZ, XY) := R2.intmul2 HF EG
  let (XY, TZ) := R2.compress2 XY TZ
  ⟨XY, TZ⟩

/-- src/edwards255.c:432-482 `_1way_fulladd_2w_H0H5`. -/
def fulladd_2w (Q P : P2w) : P2w :=
  let subYXaddYX1 := R2.subadd Q.XY 0#32
  let subYXaddYX2 := R2.subadd P.XY 1#32
  let AB := R2.intmul subYXaddYX1 subYXaddYX2
  let CD := R2.intmul Q.TZ P.TZ
  let CD := R2.compress CD
  let CD := R2.intmul CD param_curve_2d_02
  let AB := R2.compressfast AB
  let (EG, HF) := egHF AB CD
  let (EG, HF) := R2.compress2 EG HF
  let (TZ, XY) := R2.intmul2 HF EG
  let (XY, TZ) := R2.compress2 XY TZ
  ⟨XY, TZ⟩

/-! ## One point over four lanes -/

/-- src/edwards255.c:1200-1211 `CONST_2_to_35P_4w`.  In spite of its name this is 2^34 p. -/
def CONST_2_to_35P_4w : Elt10 V :=
  ⟨LIT 0xfffffb400000000, LIT 0x7fffffc00000000, LIT 0xffffffc00000000,
    LIT 0x7fffffc00000000, LIT 0xffffffc00000000, LIT 0x7fffffc00000000,
    LIT 0xffffffc00000000, LIT 0x7fffffc00000000, LIT 0xffffffc00000000,
    LIT 0x7fffffc00000000⟩

/-- src/edwards255.c:1219-1225 `CONST_2P_00_00_00` and 1437-1443. -/
def CONST_2P_00_00_00 : Elt10 V :=
  ⟨SET64 0 0 0 0x7ffffda, SET64 0 0 0 0x3fffffe, SET64 0 0 0 0x7fffffe, SET64 0 0 0 0x3fffffe,
    SET64 0 0 0 0x7fffffe, SET64 0 0 0 0x3fffffe, SET64 0 0 0 0x7fffffe, SET64 0 0 0 0x3fffffe,
    SET64 0 0 0 0x7fffffe, SET64 0 0 0 0x3fffffe⟩

/-- src/edwards255.c:1235-1239 (and 1459-1462, 1468-1471, 1477-1480), the vector
`subYX_addYX` of limb `x` of XYTZ. -/
def subYX_addYX (x p : V) : V :=
  let mask_subadd1 := SET64 0 0 0 (-1)
  let M := SHUF4E x
  ADD (ADD M p) (SUB (XOR x mask_subadd1) mask_subadd1)

/-- src/edwards255.c:1245-1250 (in `_1way_mixadd_4w_H0H5`): limb of [E|G|H|F]. -/
def mix4w_EGHF (abcd k : V) : V :=
  let mask_subadd2 := SET64 (-1) 0 0 (-1)
  let BDBD := PERM64 abcd 0xDD
  let ACAC := PERM64 abcd 0x88
  ADD (ADD BDBD k) (SUB (XOR ACAC mask_subadd2) mask_subadd2)

/-- src/edwards255.c:1218-1257 `_1way_mixadd_4w_H0H5`. -/
def mixadd_4w (Q P : Elt10 V) : Elt10 V :=
  let subYX_addYX_T_Z := (Q.zip subYX_addYX CONST_2P_00_00_00).zip (BLEND32 · · 0xF0) Q
  let ABCD := R4.intmul subYX_addYX_T_Z P
  let EGHF := ABCD.zip mix4w_EGHF CONST_2_to_35P_4w
  let EGHF := R4.compress EGHF
  let FHEG := EGHF.map (PERM64 · 0x4B)
  R4.compress (R4.intmul EGHF FHEG)

/-- src/edwards255.c:1279-1285 (in `_1way_doubling_4w_H0H5`): limb of [-F|-H|E|G]. -/
def dbl4w_FHEG (abec k : V) : V :=
  let CBEB := PERM64 abec 0x67
  let CAE0 := BLEND32 (PERM64 abec 0xE3) (LIT 0) 0xC0
  let A000 := BLEND32 abec (LIT 0) 0xFC
  let B00A := BLEND32 (PERM64 abec 0x25) (LIT 0) 0x3C
  ADD CBEB (ADD CAE0 (ADD A000 (SUB k B00A)))

/-- src/edwards255.c:1265-1293 `_1way_doubling_4w_H0H5`. -/
def doubling_4w (P : Elt10 V) : Elt10 V :=
  let XYZZ := P.map (PERM64 · 0xF4)
  let ABEC := R4.intmul P XYZZ
  let FHEG := ABEC.zip dbl4w_FHEG CONST_2_to_35P_4w
  let FHEG := R4.compress FHEG
  let EGHF := FHEG.map (PERM64 · 0x1E)
  R4.compress (R4.intmul EGHF FHEG)

end Verif.Ed25519
