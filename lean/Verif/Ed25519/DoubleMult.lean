import Verif.Ed25519.Mult
import Verif.Ed25519.Decode
import Verif.Ed25519.TableVerf

/-!
# The double multiplication of signature verification

Models of src/edwards255.c: the width-w non-adjacent form, the tables of odd multiples and
`double_point_mult_4w_ed25519`, the variant that src/sign255.c calls. -/

namespace Verif.Ed25519

open Verif.Fp25519

/-! ## Recoding -/

/-- src/edwards255.c:1153-1162 `SUB256`, applied at 1187 with `value >> 63` in the three upper
words. -/
def SUB256 (r : F4) (value : W) : F4 :=
  let s := value.sshiftRight 63
  sub r.w0 value fun r0 cf =>
  sbb r.w1 s cf fun r1 cf =>
  sbb r.w2 s cf fun r2 cf =>
  sbb r.w3 s cf fun r3 _ =>
  ⟨r0, r1, r2, r3⟩

/-- src/edwards255.c:1143-1152 `div_2`. -/
def div_2 (r : F4) : F4 :=
  let bit3 := r.w3 <<< 63
  let bit2 := r.w2 <<< 63
  let bit1 := r.w1 <<< 63
  ⟨(r.w0 >>> 1) ||| bit1, (r.w1 >>> 1) ||| bit2, (r.w2 >>> 1) ||| bit3, r.w3 >>> 1⟩

/-- src/edwards255.c:1182-1186: `value` for an odd `r`, an `int64_t`. -/
def wnafValue (w : ℕ) (r : F4) : W :=
  let value := r.w0 &&& ((1#64 <<< w) - 1#64)
  if (1#64 <<< (w - 1)).slt value then value - (1#64 <<< w) else value

/-- src/edwards255.c:1180-1194: one iteration, the digit and the new `r`. -/
def wnafStep (w : ℕ) (r : F4) : Byte × F4 :=
  if r.w0 &&& 1#64 = 1#64 then
    let value := wnafValue w r
    ((value &&& 0xFF#64).setWidth 8, div_2 (SUB256 r value))
  else (0#8, div_2 r)

/-- src/edwards255.c:1141 `is_greater_equal_one`, negated. -/
def isZero4 (r : F4) : Bool := r.w0 == 0#64 && r.w1 == 0#64 && r.w2 == 0#64 && r.w3 == 0#64

/-- src/edwards255.c:1178-1196: the digits written by at most `fuel` iterations of the loop, and
the final `r`.  `wnafLoop_end` proves that with fuel 257 the loop has ended. -/
def wnafLoop (w : ℕ) : ℕ → F4 → List Byte × F4
  | 0, r => ([], r)
  | fuel + 1, r =>
    if isZero4 r then ([], r)
    else
      let s := wnafStep w r
      let t := wnafLoop w fuel s.2
      (s.1 :: t.1, t.2)

/-- src/edwards255.c:1169-1198 `wnaf_256bits`: the entries of `K` that are written; the returned
value is their number. -/
def wnaf_256bits (w : ℕ) (p8_r : List Byte) : List Byte := (wnafLoop w 257 (F4.ofBytes p8_r)).1

/-! ## Tables -/

/-- src/edwards255.c:1428-1434 `CONST_param_curve_1_1_2d_02`. -/
def CONST_param_curve_1_1_2d_02 : Elt10 V :=
  ⟨SET64 2 0x2b2f159 1 1, SET64 0 0x1a6e509 0 0, SET64 0 0x22add7a 0 0, SET64 0 0x0d4141d 0 0,
    SET64 0 0x0038052 0 0, SET64 0 0x0f3d130 0 0, SET64 0 0x3407977 0 0, SET64 0 0x19ce331 0 0,
    SET64 0 0x1c56dff 0 0, SET64 0 0x0901b67 0 0⟩

/-- src/edwards255.c:1455-1462, 1464-1471 and 1475-1482: [y-x|y+x|2dt|2z] from [x|y|t|z]. -/
def pre4w (P : Elt10 V) : Elt10 V :=
  let m := R4.intmul P CONST_param_curve_1_1_2d_02
  R4.compress ((P.zip subYX_addYX CONST_2P_00_00_00).zip (BLEND32 · · 0xF0) m)

/-- The value of `iP` of src/edwards255.c:1473-1474 after `j` iterations. -/
def preIter (P : Elt10 V) : ℕ → Elt10 V
  | 0 => P
  | j + 1 => mixadd_4w (preIter P j) (pre4w (doubling_4w P))

/-- src/edwards255.c:1427-1484 `precompute_points_4w_ed25519`: `table[j]`, j < 8. -/
def precompute_4w (P : Elt10 V) (j : ℕ) : Elt10 V := pre4w (preIter P j)

/-- The index of a digit: src/edwards255.c:1493-1494 and 1554-1555, `abs_index >> 1`. -/
def absIndex (k : Byte) : ℕ := ((if (0#8).slt k then k else -k) >>> 1).toNat

/-- Component `c` of point `i` of the table for verification: four words. -/
def verfF (i c : ℕ) : F4 :=
  let w (j : ℕ) : W := BitVec.ofNat 64 ((tableVerf (i / 8)).getD (12 * (i % 8) + 4 * c + j) 0)
  ⟨w 0, w 1, w 2, w 3⟩

/-- src/edwards255.c:1487-1491 `two`. -/
def two_1w : Elt5 U := ⟨⟨2#64, 0#64⟩, ⟨0#64, 0#64⟩, ⟨0#64, 0#64⟩, ⟨0#64, 0#64⟩, ⟨0#64, 0#64⟩⟩

/-- src/edwards255.c:1486-1509 `read_point_4w_ed25519`. -/
def read_point_4w (index : Byte) : Elt10 V :=
  let i := absIndex index
  let add := R1.unser (verfF i 0).toBytes
  let sub := R1.unser (verfF i 1).toBytes
  let dT := R1.unser (verfF i 2).toBytes
  if index.slt 0#8 then R4.zip add sub (R1.compress (R1.neg dT)) two_1w
  else R4.zip sub add dT two_1w

/-- src/edwards255.c:1553-1564: the operand of the second addition. -/
def dynPoint (tableA : ℕ → Elt10 V) (k : Byte) : Elt10 V :=
  let P := tableA (absIndex k)
  if k.slt 0#8 then R4.compressfast (R4.ngz P) else P

/-! ## Multiplication -/

/-- src/edwards255.c:1544-1565: one iteration. -/
def dmStep (tableA : ℕ → Elt10 V) (dr dh : Byte) (Q : Elt10 V) : Elt10 V :=
  let Q := doubling_4w Q
  let Q := if dr ≠ 0#8 then mixadd_4w Q (read_point_4w dr) else Q
  if dh ≠ 0#8 then mixadd_4w Q (dynPoint tableA dh) else Q

/-- src/edwards255.c:1543-1566: the iterations i-1, ..., 0.  The arrays `wnaf_r` and `wnaf_h`
have 260 entries, zero where nothing was written. -/
def dmLoop (tableA : ℕ → Elt10 V) (kr kh : List Byte) : ℕ → Elt10 V → Elt10 V
  | 0, Q => Q
  | i + 1, Q => dmLoop tableA kr kh i (dmStep tableA (kr.getD i 0#8) (kh.getD i 0#8) Q)

/-- src/edwards255.c:1540-1541: the neutral element. -/
def neutral4w : Elt10 V :=
  let z : V := LIT 0
  ⟨SET64 1 0 1 0, z, z, z, z, z, z, z, z, z⟩

/-- src/edwards255.c:1511-1519 `unzip_2w_Element_4w_h0h5`. -/
def unzip_2w (A : Elt10 V) : P2w :=
  let f (lo hi : V) (imm : ℕ) : V := PERM128 (UPKL64 lo hi) (UPKH64 lo hi) imm
  let g (imm : ℕ) : Elt5 V :=
    ⟨f A.r0 A.r5 imm, f A.r1 A.r6 imm, f A.r2 A.r7 imm, f A.r3 A.r8 imm, f A.r4 A.r9 imm⟩
  ⟨g 0x20, g 0x31⟩

/-- The point before its encoding in `double_point_mult_4w_ed25519`. -/
def double_point_mult_pt (s h : List Byte) (A : Elt10 V) : Elt10 V :=
  let wnaf_r := wnaf_256bits 7 s
  let wnaf_h := wnaf_256bits 5 h
  let l := max wnaf_r.length wnaf_h.length
  dmLoop (precompute_4w A) wnaf_r wnaf_h l neutral4w

/-- src/edwards255.c:1521-1570 `double_point_mult_4w_ed25519`. -/
def double_point_mult_4w (isa : Isa) (s h : List Byte) (A : Elt10 V) : List Byte :=
  point_encoding isa (unzip_2w (double_point_mult_pt s h A))

end Verif.Ed25519
