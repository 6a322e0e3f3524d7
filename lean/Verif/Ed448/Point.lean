import Verif.Fp448.Red

/-!
# Point formulas of src/edwards448.c

Addition and doubling on the curve `-x² + y² = 1 - 39082·x²·y²`, which is 4-isogenous to Ed448,
in extended coordinates, and the isogeny to Ed448, in the layouts the library uses: four points
in four lanes, one point over two 128-bit halves, and one point over four lanes.
-/

namespace Verif.Ed448

open Verif.Fp448

/-! ## Four points in four lanes -/

/-- include/edwards448.h:36-38 `PointXYZT_4way_Fp448`. -/
structure P4way (α : Type) where
  X : Elt16 α
  Y : Elt16 α
  Z : Elt16 α
  T : Elt16 α

/-- include/edwards448.h:40-42 `Point_precmp_4way_Fp448`. -/
structure Pre4way (α : Type) where
  addYX : Elt16 α
  subYX : Elt16 α
  dYX : Elt16 α

/-- src/edwards448.c:314-346 `_4way_mixadd_ed448`: every operation acts on each lane. -/
def mixadd_4way {α : Type} [Lane α] (Q : P4way α) (P : Pre4way α) : P4way α :=
  let subY1X1 := R4.sub Q.Y Q.X
  let addY1X1 := R4.add Q.Y Q.X
  let A := R4.intmul subY1X1 P.subYX
  let B := R4.intmul addY1X1 P.addYX
  let C := R4.intmul P.dYX Q.T
  let D := R4.add Q.Z Q.Z
  let (C, D) := R4.compress2 C D
  let (B, A) := R4.addsublar B A
  let (D, C) := R4.addsublar D C
  let (B, A) := R4.compress2 B A
  let (D, C) := R4.compress2 D C
  let X := R4.intmul A C
  let Y := R4.intmul D B
  let Z := R4.intmul D C
  let T := R4.intmul A B
  let (X, Y) := R4.compress2 X Y
  let (Z, T) := R4.compress2 Z T
  { X := X, Y := Y, Z := Z, T := T }

/-! ## One point over two halves -/

/-- include/edwards448.h:51-53 `PointXYZT_2w_H0H8`. -/
structure P2w where
  XY : Elt8 V
  TZ : Elt8 V

/-- include/edwards448.h:47-49 `PointXYZT_precompute_2w_H0H8`. -/
structure Pre2w where
  subaddYX : Elt8 V
  dT_2Z : Elt8 V

/-- src/edwards448.c:348-357 `CONST_2_to_35P_ED448`. -/
def CONST_2_to_35P : Elt8 V :=
  ⟨⟨0x7ffffff800000000#64, 0x7ffffff000000000#64, 0x7ffffff800000000#64, 0x7ffffff000000000#64⟩,
   ⟨0x7ffffff800000000#64, 0x7ffffff800000000#64, 0x7ffffff800000000#64, 0x7ffffff800000000#64⟩,
   ⟨0x7ffffff800000000#64, 0x7ffffff800000000#64, 0x7ffffff800000000#64, 0x7ffffff800000000#64⟩,
   ⟨0x7ffffff800000000#64, 0x7ffffff800000000#64, 0x7ffffff800000000#64, 0x7ffffff800000000#64⟩,
   ⟨0x7ffffff800000000#64, 0x7ffffff800000000#64, 0x7ffffff800000000#64, 0x7ffffff800000000#64⟩,
   ⟨0x7ffffff800000000#64, 0x7ffffff800000000#64, 0x7ffffff800000000#64, 0x7ffffff800000000#64⟩,
   ⟨0x7ffffff800000000#64, 0x7ffffff800000000#64, 0x7ffffff800000000#64, 0x7ffffff800000000#64⟩,
   ⟨0x7ffffff800000000#64, 0x7ffffff800000000#64, 0x7ffffff800000000#64, 0x7ffffff800000000#64⟩⟩

/-- src/edwards448.c:363-372 `CONST_param_curve_2d_02`. -/
def param_curve_2d_02 : Elt8 V :=
  ⟨⟨0xffeceab#64, 0xffffffe#64, 0x2#64, 0x0#64⟩, ⟨0xfffffff#64, 0xfffffff#64, 0x0#64, 0x0#64⟩,
   ⟨0xfffffff#64, 0xfffffff#64, 0x0#64, 0x0#64⟩, ⟨0xfffffff#64, 0xfffffff#64, 0x0#64, 0x0#64⟩,
   ⟨0xfffffff#64, 0xfffffff#64, 0x0#64, 0x0#64⟩, ⟨0xfffffff#64, 0xfffffff#64, 0x0#64, 0x0#64⟩,
   ⟨0xfffffff#64, 0xfffffff#64, 0x0#64, 0x0#64⟩, ⟨0xfffffff#64, 0xfffffff#64, 0x0#64, 0x0#64⟩⟩

/-- src/edwards448.c:401-406 and 437-442: the loop that forms [E|G] and [H|F]. -/
def egHF (AB CD : Elt8 V) : Elt8 V × Elt8 V :=
  let AC := AB.zip (PERM128 · · 0x20) CD
  let BD := AB.zip (PERM128 · · 0x31) CD
  (BD.zip ADD AC, (BD.zip SUB AC).zip ADD CONST_2_to_35P)

/-- src/edwards448.c:407-414, 443-450 and 484-491: the end of the three formulas, from [E|G] and
[H|F] after compression. -/
def finish2w (EG HF : Elt8 V) : P2w :=
  let FH := HF.map (PERM64 · 0x4E)
  let XY := R2.intmul FH EG
  let TZ := R2.intmul HF EG
  let (XY, TZ) := R2.compress2 XY TZ
  ⟨XY, TZ⟩

/-- src/edwards448.c:379-415 `_1way_fulladd_2w_H0H8`. -/
def fulladd_2w (Q P : P2w) : P2w :=
  let subYXaddYX1 := R2.compressfast (R2.subadd Q.XY false)
  let subYXaddYX2 := R2.compressfast (R2.subadd P.XY true)
  let AB := R2.intmul subYXaddYX1 subYXaddYX2
  let CD := R2.intmul Q.TZ P.TZ
  let CD := R2.compress CD
  let CD := R2.intmul CD param_curve_2d_02
  let (EG, HF) := egHF AB CD
  let (EG, HF) := R2.compress2 EG HF
  finish2w EG HF

/-- src/edwards448.c:423-451 `_1way_mixadd_2w_H0H8`. -/
def mixadd_2w (Q : P2w) (P : Pre2w) : P2w :=
  let subYXaddYX1 := R2.subadd Q.XY false
  let AB := R2.intmul subYXaddYX1 P.subaddYX
  let CD := R2.intmul Q.TZ P.dT_2Z
  let (EG, HF) := egHF AB CD
  let (EG, HF) := R2.compress2 EG HF
  finish2w EG HF

/-- src/edwards448.c:473-477, the values `_BG` of the loop of `_1way_doubling_2w_H0H8`. -/
def dbl2w_BG (xy : V) : V :=
  let BA := PERM64 xy 0x4E
  let Z0B := BLEND32 xy (LIT 0) 0x0F
  SUB Z0B BA

/-- src/edwards448.c:459-492 `_1way_doubling_2w_H0H8`. -/
def doubling_2w (P : P2w) : P2w :=
  let EG := P.TZ.map (PERM64 · 0xEE)
  let XY := R2.intsqr P.XY
  let TZ := R2.intmul P.TZ EG
  let TZ := R2.add TZ TZ
  let EG := (XY.zip (fun xy tz => BLEND32 (dbl2w_BG xy) tz 0x0F) TZ).zip ADD CONST_2_to_35P
  let HF := (XY.zip (fun xy tz => SUB (dbl2w_BG xy) (BLEND32 xy tz 0xF0)) TZ).zip ADD
    CONST_2_to_35P
  let (HF, EG) := R2.compress2 HF EG
  finish2w EG HF

/-- src/edwards448.c:667-670, the vectors `_H` of the loop of `isogeny_2w_H0H8`. -/
def iso2w_H (xy ec : V) : V :=
  let AA := PERM64 xy 0x44
  let CB := PERM128 ec xy 0x31
  ADD CB AA

/-- src/edwards448.c:666-673, the vectors `_FG` of that loop, before 2^35 p is added. -/
def iso2w_FG (xy ec : V) : V :=
  let BA := PERM64 xy 0x4E
  let B := BLEND32 xy (iso2w_H xy ec) 0x0F
  SUB BA B

/-- src/edwards448.c:650-685 `isogeny_2w_H0H8`. -/
def isogeny_2w (P : P2w) : P2w :=
  let EC := P.TZ.map (PERM64 · 0xEE)
  let XY := R2.intsqr P.XY
  let TZ := R2.intmul P.TZ EC
  let EC := R2.add TZ TZ
  let FG := (XY.zip iso2w_FG EC).zip ADD CONST_2_to_35P
  let FH := (XY.zip iso2w_H EC).zip (BLEND32 · · 0x0F) FG
  let EG := FG.zip (BLEND32 · · 0x0F) EC
  let (FH, EG) := R2.compress2 FH EG
  let HF := FH.map (PERM64 · 0x4E)
  let XY := R2.intmul FH EG
  let TZ := R2.intmul HF FH
  let (XY, TZ) := R2.compress2 XY TZ
  ⟨XY, TZ⟩

/-! ## One point over four lanes -/

/-- src/edwards448.c:504-513 and 566-575 `CONST_2_to_34P`. -/
def CONST_2_to_34P : Elt16 V := R4.twoTo34P

/-- src/edwards448.c:515-524 `CONST_2P_00_00_00`. -/
def CONST_2P_00_00_00 : Elt16 V :=
  ⟨SET64 0 0 0 0x1ffffffe, SET64 0 0 0 0x1ffffffe, SET64 0 0 0 0x1ffffffe, SET64 0 0 0 0x1ffffffe,
   SET64 0 0 0 0x1ffffffe, SET64 0 0 0 0x1ffffffe, SET64 0 0 0 0x1ffffffe, SET64 0 0 0 0x1ffffffe,
   SET64 0 0 0 0x3ffffffc, SET64 0 0 0 0x1ffffffc, SET64 0 0 0 0x1ffffffe, SET64 0 0 0 0x1ffffffe,
   SET64 0 0 0 0x1ffffffe, SET64 0 0 0 0x1ffffffe, SET64 0 0 0 0x1ffffffe, SET64 0 0 0 0x1ffffffe⟩

/-- src/edwards448.c:534-537, the vector `subYX_addYX` of limb `x` of XYTZ. -/
def subYX_addYX (x p : V) : V :=
  let mask_subadd1 := SET64 0 0 0 (-1)
  let M := SHUF4E x
  ADD (ADD M p) (SUB (XOR x mask_subadd1) mask_subadd1)

/-- src/edwards448.c:543-548 (in `_1way_mixadd_4w_H0H8`): limb of [E|G|H|F]. -/
def mix4w_EGHF (abcd k : V) : V :=
  let mask_subadd2 := SET64 (-1) 0 0 (-1)
  let BDBD := PERM64 abcd 0xDD
  let ACAC := PERM64 abcd 0x88
  ADD (ADD BDBD k) (SUB (XOR ACAC mask_subadd2) mask_subadd2)

/-- src/edwards448.c:501-555 `_1way_mixadd_4w_H0H8`. -/
def mixadd_4w (Q P : Elt16 V) : Elt16 V :=
  let subYX_addYX_T_Z := (Q.zip subYX_addYX CONST_2P_00_00_00).zip (BLEND32 · · 0xF0) Q
  let ABCD := R4.intmul subYX_addYX_T_Z P
  let EGHF := ABCD.zip mix4w_EGHF CONST_2_to_34P
  let EGHF := R4.compress EGHF
  let FHEG := EGHF.map (PERM64 · 0x4B)
  R4.compress (R4.intmul EGHF FHEG)

/-- src/edwards448.c:588-593 (in `_1way_doubling_4w_H0H8`): limb of [-F|-H|E|G]. -/
def dbl4w_FHEG (abec k : V) : V :=
  let CBEB := PERM64 abec 0x67
  let CAE0 := BLEND32 (PERM64 abec 0xE3) (LIT 0) 0xC0
  let A000 := BLEND32 abec (LIT 0) 0xFC
  let B00A := BLEND32 (PERM64 abec 0x25) (LIT 0) 0x3C
  ADD CBEB (ADD CAE0 (ADD A000 (SUB k B00A)))

/-- src/edwards448.c:563-602 `_1way_doubling_4w_H0H8`. -/
def doubling_4w (P : Elt16 V) : Elt16 V :=
  let XYZZ := P.map (PERM64 · 0xF4)
  let ABEC := R4.intmul P XYZZ
  let FHEG := ABEC.zip dbl4w_FHEG CONST_2_to_34P
  let FHEG := R4.compress FHEG
  let EGHF := FHEG.map (PERM64 · 0x1E)
  R4.compress (R4.intmul EGHF FHEG)

end Verif.Ed448
