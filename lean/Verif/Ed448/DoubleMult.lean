import Verif.Ed448.Mult
import Verif.Ed448.Decode
import Verif.Ed448.TableVerf

/-!
# The double multiplication of signature verification, Ed448

Models of src/edwards448.c: the width-w non-adjacent form, the tables of odd multiples and
`double_point_mult_4w_ed448`, the variant that src/sign448.c calls. -/

namespace Verif.Ed448

open Verif.Fp448

/-! ## Recoding -/

/-- src/edwards448.c:937 `uint64_t r[8]`. -/
structure F8 where
  w0 : W
  w1 : W
  w2 : W
  w3 : W
  w4 : W
  w5 : W
  w6 : W
  w7 : W

/-- src/edwards448.c:939-943: the 57 bytes, followed by zeros. -/
def F8.ofBytes (b : List Byte) : F8 :=
  let w (j : ℕ) : W := BitVec.ofNat 64 (leNat (((b.take 57).drop (8 * j)).take 8))
  ⟨w 0, w 1, w 2, w 3, w 4, w 5, w 6, w 7⟩

/-- src/edwards448.c:913-925 `SUB512`, applied at 956 with `value >> 63` in the seven upper
words. -/
def SUB512 (r : F8) (value : W) : F8 :=
  let s := value.sshiftRight 63
  sub r.w0 value fun r0 cf =>
  sbb r.w1 s cf fun r1 cf =>
  sbb r.w2 s cf fun r2 cf =>
  sbb r.w3 s cf fun r3 cf =>
  sbb r.w4 s cf fun r4 cf =>
  sbb r.w5 s cf fun r5 cf =>
  sbb r.w6 s cf fun r6 cf =>
  sbb r.w7 s cf fun r7 _ =>
  ⟨r0, r1, r2, r3, r4, r5, r6, r7⟩

/-- src/edwards448.c:894-911 `div_2_512`. -/
def div_2_512 (r : F8) : F8 :=
  let bit7 := r.w7 <<< 63
  let bit6 := r.w6 <<< 63
  let bit5 := r.w5 <<< 63
  let bit4 := r.w4 <<< 63
  let bit3 := r.w3 <<< 63
  let bit2 := r.w2 <<< 63
  let bit1 := r.w1 <<< 63
  ⟨(r.w0 >>> 1) ||| bit1, (r.w1 >>> 1) ||| bit2, (r.w2 >>> 1) ||| bit3, (r.w3 >>> 1) ||| bit4,
    (r.w4 >>> 1) ||| bit5, (r.w5 >>> 1) ||| bit6, (r.w6 >>> 1) ||| bit7, r.w7 >>> 1⟩

/-- src/edwards448.c:950-954: `value` for an odd `r`, an `int64_t`. -/
def wnafValue (w : ℕ) (r : F8) : W :=
  let value := r.w0 &&& ((1#64 <<< w) - 1#64)
  if (1#64 <<< (w - 1)).slt value then value - (1#64 <<< w) else value

/-- src/edwards448.c:948-964: one iteration, the digit and the new `r`. -/
def wnafStep (w : ℕ) (r : F8) : Byte × F8 :=
  if r.w0 &&& 1#64 = 1#64 then
    let value := wnafValue w r
    ((value &&& 0xFF#64).setWidth 8, div_2_512 (SUB512 r value))
  else (0#8, div_2_512 r)

/-- src/edwards448.c:881-890 `is_greater_equal_one_512`, negated. -/
def isZero8 (r : F8) : Bool :=
  r.w0 == 0#64 && r.w1 == 0#64 && r.w2 == 0#64 && r.w3 == 0#64 && r.w4 == 0#64 &&
    r.w5 == 0#64 && r.w6 == 0#64 && r.w7 == 0#64

/-- src/edwards448.c:946-965: the digits written by at most `fuel` iterations of the loop, and
the final `r`.  `wnafLoop_end` proves that with fuel 457 the loop has ended. -/
def wnafLoop (w : ℕ) : ℕ → F8 → List Byte × F8
  | 0, r => ([], r)
  | fuel + 1, r =>
    if isZero8 r then ([], r)
    else
      let s := wnafStep w r
      let t := wnafLoop w fuel s.2
      (s.1 :: t.1, t.2)

/-- src/edwards448.c:934-967 `wnaf_448bits`: the entries of `K` that are written; the returned
value is their number. -/
def wnaf_448bits (w : ℕ) (p8_r : List Byte) : List Byte := (wnafLoop w 457 (F8.ofBytes p8_r)).1

/-! ## Tables -/

/-- src/edwards448.c:1103-1120 `CONST_param_curve_1_1_2d_02`. -/
def CONST_param_curve_1_1_2d_02 : Elt16 V :=
  let k := SET64 0 0xfffffff 0 0
  ⟨SET64 2 0xffeceab 1 1, k, k, k, k, k, k, k, SET64 0 0xffffffe 0 0, k, k, k, k, k, k, k⟩

/-- src/edwards448.c:1143-1150, 1152-1159 and 1163-1170: [y-x|y+x|2dt|2z] from [x|y|t|z].  The
constant of 1121-1130 is the one of the mixed addition. -/
def pre4w (P : Elt16 V) : Elt16 V :=
  let m := R4.intmul P CONST_param_curve_1_1_2d_02
  R4.compress ((P.zip subYX_addYX CONST_2P_00_00_00).zip (BLEND32 · · 0xF0) m)

/-- The value of `iP` of src/edwards448.c:1161-1162 after `j` iterations. -/
def preIter (P : Elt16 V) : ℕ → Elt16 V
  | 0 => P
  | j + 1 => mixadd_4w (preIter P j) (pre4w (doubling_4w P))

/-- src/edwards448.c:1102-1173 `precompute_points_4w_ed448`: `table[j]`, j < 8. -/
def precompute_4w (P : Elt16 V) (j : ℕ) : Elt16 V := pre4w (preIter P j)

/-- The index of a digit: src/edwards448.c:1182-1183 and 1254-1255, `abs_index >> 1`. -/
def absIndex (k : Byte) : ℕ := ((if (0#8).slt k then k else -k) >>> 1).toNat

/-- Word `j` of component `c` of point `i` of the table for verification. -/
def verfWord (i c j : ℕ) : W := BitVec.ofNat 64 ((tableVerf (i / 8)).getD (21 * (i % 8) + 7 * c + j) 0)

/-- Component `c` of point `i` as the bytes in memory. -/
def verfBytes (i c : ℕ) : List Byte :=
  bytesOf [verfWord i c 0, verfWord i c 1, verfWord i c 2, verfWord i c 3, verfWord i c 4,
    verfWord i c 5, verfWord i c 6]

/-- src/edwards448.c:1175-1180 `two`. -/
def two_1w : Elt8 U :=
  ⟨⟨2#64, 0#64⟩, ⟨0#64, 0#64⟩, ⟨0#64, 0#64⟩, ⟨0#64, 0#64⟩, ⟨0#64, 0#64⟩, ⟨0#64, 0#64⟩,
    ⟨0#64, 0#64⟩, ⟨0#64, 0#64⟩⟩

/-- src/edwards448.c:1174-1199 `read_point_4w_ed448`. -/
def read_point_4w (index : Byte) : Elt16 V :=
  let i := absIndex index
  let add := R1.unser (verfBytes i 0)
  let sub := R1.unser (verfBytes i 1)
  let dT := R1.unser (verfBytes i 2)
  if index.slt 0#8 then R4.zip add sub (R1.compress (R1.neg dT)) two_1w
  else R4.zip sub add dT two_1w

/-- src/edwards448.c:1253-1263: the operand of the second addition. -/
def dynPoint (tableA : ℕ → Elt16 V) (k : Byte) : Elt16 V :=
  let P := tableA (absIndex k)
  if k.slt 0#8 then R4.compressfast (R4.ngz P) else P

/-! ## Multiplication -/

/-- src/edwards448.c:1244-1265: one iteration. -/
def dmStep (tableA : ℕ → Elt16 V) (dr dh : Byte) (Q : Elt16 V) : Elt16 V :=
  let Q := doubling_4w Q
  let Q := if dr ≠ 0#8 then mixadd_4w Q (read_point_4w dr) else Q
  if dh ≠ 0#8 then mixadd_4w Q (dynPoint tableA dh) else Q

/-- src/edwards448.c:1243-1266: the iterations i-1, ..., 0.  The arrays `wnaf_r` and `wnaf_h`
have 460 entries, zero where nothing was written. -/
def dmLoop (tableA : ℕ → Elt16 V) (kr kh : List Byte) : ℕ → Elt16 V → Elt16 V
  | 0, Q => Q
  | i + 1, Q => dmLoop tableA kr kh i (dmStep tableA (kr.getD i 0#8) (kh.getD i 0#8) Q)

/-- src/edwards448.c:1240-1241: the neutral element. -/
def neutral4w : Elt16 V :=
  let z : V := LIT 0
  ⟨SET64 1 0 1 0, z, z, z, z, z, z, z, z, z, z, z, z, z, z, z⟩

/-- src/edwards448.c:1201-1209 `unzip_2w_Element_4w_h0h8`. -/
def unzip_2w (A : Elt16 V) : P2w :=
  let f (lo hi : V) (imm : ℕ) : V := PERM128 (UPKL64 lo hi) (UPKH64 lo hi) imm
  let g (imm : ℕ) : Elt8 V :=
    ⟨f A.r0 A.r8 imm, f A.r1 A.r9 imm, f A.r2 A.r10 imm, f A.r3 A.r11 imm, f A.r4 A.r12 imm,
      f A.r5 A.r13 imm, f A.r6 A.r14 imm, f A.r7 A.r15 imm⟩
  ⟨g 0x20, g 0x31⟩

/-- src/edwards448.c:1234-1266: the point on the isogenous curve, from the scalars divided by
four. -/
def double_point_mult_pt (s_div_4 h_div_4 : List Byte) (A : Elt16 V) : Elt16 V :=
  let wnaf_r := wnaf_448bits 7 s_div_4
  let wnaf_h := wnaf_448bits 5 h_div_4
  let l := max wnaf_r.length wnaf_h.length
  dmLoop (precompute_4w A) wnaf_r wnaf_h l neutral4w

/-- src/edwards448.c:1211-1273 `double_point_mult_4w_ed448`; `u13` and `u14`, `v13` and `v14` are
words that the two calls of `div4` leave uninitialised. -/
def double_point_mult_4w (u13 u14 v13 v14 : W) (s h : List Byte) (A : Elt16 V) : List Byte :=
  let QQ := unzip_2w (double_point_mult_pt (div4 u13 u14 s) (div4 v13 v14 h) A)
  point_encoding (isogeny_2w QQ)

end Verif.Ed448
