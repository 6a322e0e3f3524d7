import Verif.Ed448.Point
import Verif.Ed448.Scalar
import Verif.Ed448.TableSign

/-!
# Multiples of the base point of Ed448

Models of src/edwards448.c: the encoding of points, the signed recoding of the scalar, the
constant-time table query and the multiplication by the base point. -/

namespace Verif.Ed448

open Verif.Fp448

/-- src/edwards448.c:125-137 `point_encoding_ed448`: the 57 bytes. -/
def point_encoding (P : P2w) : List Byte :=
  let (X, Y) := R2.deinter P.XY
  let (_invZ, Z) := R2.deinter P.TZ
  let invZ := R1.inv Z
  let X := R1.mul X invZ
  let Y := R1.mul Y invZ
  let encX := R1.ser X
  let encP := R1.ser Y
  encP ++ [(encX.getD 0 0 &&& 1#8) <<< 7]

/-! ## Recoding of the scalar -/

/-- Nibble `k` of the scalar: src/edwards448.c:173 `r[28*i+j] & 0xF` for even k = 2(28i+j) and
181 `(r[28*i+j] >> 4) & 0xF` for odd k. -/
def nibble (r : List Byte) (k : ℕ) : BitVec 8 :=
  if k % 2 = 0 then r.getD (k / 2) 0 &&& 0xF#8 else (r.getD (k / 2) 0 >>> 4) &&& 0xF#8

/-- src/edwards448.c:174-175 (and 182-183): the value and the next carry. -/
def recValue (nib carry : BitVec 8) : BitVec 8 := nib + carry

def recCarry (value : BitVec 8) : BitVec 8 := if BitVec.slt value 8#8 then 0#8 else 1#8

/-- The carry into nibble `k` in the loop src/edwards448.c:171-189, which visits the bytes in
the order 0, ..., 55 and the low nibble before the high one. -/
def carryAt (r : List Byte) : ℕ → BitVec 8
  | 0 => 0#8
  | k + 1 => recCarry (recValue (nibble r k) (carryAt r k))

/-- src/edwards448.c:176,178 (and 184,186): digit of nibble `k`. -/
def digitAt (r : List Byte) (k : ℕ) : W :=
  let value := recValue (nibble r k) (carryAt r k)
  let carry := recCarry value
  (((value ^^^ (-carry)) + carry) &&& 0xF#8).signExtend 64

/-- src/edwards448.c:179 (and 187): sign of nibble `k`, 0 or -1. -/
def signAt (r : List Byte) (k : ℕ) : W := (-(carryAt r (k + 1))).signExtend 64

/-- src/edwards448.c:164-191 `recoding_signed_scalar_fold4w4_448`: `list_digits[n]`, n < 112; the
entry 56i+2j+h holds the digit of nibble h of byte 28i+j.  The entry 112, the last carry, is never
read. -/
def list_digits (r : List Byte) (n : ℕ) : W := digitAt r n

/-- `list_signs[n]`, n < 112. -/
def list_signs (r : List Byte) (n : ℕ) : W := signAt r n

/-! ## Table query -/

/-- src/edwards448.c:227-240: `mask[i]`; the counter `iiii` is `i` in every lane. -/
def queryMask (digits : V) (i : ℕ) : V :=
  let iiii : V := LIT i
  SHUF32 (SRAI32 (OR (SUB digits iiii) (SUB iiii digits)) 32) 0xE5

/-- Word `n` of sub-table `idx`. -/
def signWord (idx n : ℕ) : W := BitVec.ofNat 64 ((tableSign idx).getD n 0)

/-- src/edwards448.c:257-259: the word `n` of sub-table `idx`, in every lane. -/
def signEntry (idx n : ℕ) : V :=
  ⟨signWord idx n, signWord idx n, signWord idx n, signWord idx n⟩

/-- src/edwards448.c:249-265, one of the three accumulators (`c` is 0 for addYX, 1 for subYX,
2 for 2dYX) for the 64-bit word `j`. -/
def querySel (digits : V) (idx c j : ℕ) : V :=
  (List.range 8).foldl (fun acc i =>
    XOR acc (ANDNOT (queryMask digits (i + 1)) (signEntry idx (24 * j + 3 * i + c)))) (LIT 0)

/-- src/edwards448.c:271-272: the neutral element when the digit is zero. -/
def queryFix (digits : V) (P0 : V) : V :=
  XOR P0 (ANDNOT (queryMask digits 0) (XOR P0 (LIT 1)))

/-- src/edwards448.c:205-214 `_P`. -/
def queryP {α : Type} [Lane α] : Elt16 α :=
  ⟨LIT 0xfffffff, LIT 0xfffffff, LIT 0xfffffff, LIT 0xfffffff, LIT 0xfffffff, LIT 0xfffffff,
    LIT 0xfffffff, LIT 0xfffffff, LIT 0xffffffe, LIT 0xfffffff, LIT 0xfffffff, LIT 0xfffffff,
    LIT 0xfffffff, LIT 0xfffffff, LIT 0xfffffff, LIT 0xfffffff⟩

/-- src/eltfp448_4w_redradix.c:29-61 applied to an array of seven vectors. -/
def ofWords7 (n : ℕ → V) : Elt16 V := R4.ofWords (n 0) (n 1) (n 2) (n 3) (n 4) (n 5) (n 6)

/-- src/edwards448.c:200-303 `query_table_fold4w4_ed448`. -/
def query_table (signs digits : V) (index_table : ℕ) : Pre4way V :=
  let P_addYX (j : ℕ) : V :=
    let x := querySel digits index_table 0 j
    if j = 0 then queryFix digits x else x
  let P_subYX (j : ℕ) : V :=
    let x := querySel digits index_table 1 j
    if j = 0 then queryFix digits x else x
  let P__2dYX (j : ℕ) : V := querySel digits index_table 2 j
  let swap (j : ℕ) : V := AND (XOR (P_addYX j) (P_subYX j)) signs
  let addYX := ofWords7 fun j => XOR (P_addYX j) (swap j)
  let subYX := ofWords7 fun j => XOR (P_subYX j) (swap j)
  let dYX := ofWords7 P__2dYX
  { addYX := addYX, subYX := subYX
    dYX := dYX.zip (fun x p => ADD (XOR x signs) (SUB p signs)) queryP }

/-! ## Multiplication -/

/-- src/edwards448.c:609-638 `join_points_2w_H0H8` (`S0` to `S3` are R0 to R3). -/
def join_points (Q : P4way V) : P2w :=
  let (X0, X1, X2, X3) := R4.unzip Q.X
  let (Y0, Y1, Y2, Y3) := R4.unzip Q.Y
  let (Z0, Z1, Z2, Z3) := R4.unzip Q.Z
  let (T0, T1, T2, T3) := R4.unzip Q.T
  let S0 : P2w := ⟨R2.inter X0 Y0, R2.inter T0 Z0⟩
  let S1 : P2w := ⟨R2.inter X1 Y1, R2.inter T1 Z1⟩
  let S2 : P2w := ⟨R2.inter X2 Y2, R2.inter T2 Z2⟩
  let S3 : P2w := ⟨R2.inter X3 Y3, R2.inter T3 Z3⟩
  let S3 := doubling_2w (doubling_2w (doubling_2w (doubling_2w S3)))
  let S2 := fulladd_2w S2 S3
  let S2 := doubling_2w (doubling_2w (doubling_2w (doubling_2w S2)))
  let S1 := fulladd_2w S1 S2
  let S1 := doubling_2w (doubling_2w (doubling_2w (doubling_2w S1)))
  fulladd_2w S0 S1

/-- src/edwards448.c:710-719 `one_half`. -/
def one_half {α : Type} [Lane α] : Elt16 α :=
  ⟨LIT 0, LIT 0, LIT 0, LIT 0, LIT 0, LIT 0, LIT 0, LIT 0x8000000,
    LIT 0xfffffff, LIT 0xfffffff, LIT 0xfffffff, LIT 0xfffffff, LIT 0xfffffff, LIT 0xfffffff,
    LIT 0xfffffff, LIT 0x7ffffff⟩

/-- The four words of `K + 4*i` or `S + 4*i`, loaded as a vector. -/
def load4 (a : ℕ → W) (i : ℕ) : V := ⟨a (4 * i), a (4 * i + 1), a (4 * i + 2), a (4 * i + 3)⟩

/-- The query of iteration `i` of the multiplication by `r`. -/
def mulQuery (r : List Byte) (i : ℕ) : Pre4way V :=
  query_table (load4 (list_signs r) i) (load4 (list_digits r) i) i

/-- src/edwards448.c:722-723 `Q.Z`: zero, then entry 0 set to 2. -/
def two16 {α : Type} [Lane α] : Elt16 α :=
  ⟨LIT 2, LIT 0, LIT 0, LIT 0, LIT 0, LIT 0, LIT 0, LIT 0,
    LIT 0, LIT 0, LIT 0, LIT 0, LIT 0, LIT 0, LIT 0, LIT 0⟩

/-- src/edwards448.c:722-732: the first point. -/
def mulInit {α : Type} [Lane α] (P : Pre4way α) : P4way α :=
  let Z : Elt16 α := two16
  let X := R4.sub P.addYX P.subYX
  let Y := R4.add P.addYX P.subYX
  let X := R4.compress X
  let Y := R4.compress Y
  let T := R4.mul X Y
  let T := R4.mul T one_half
  ⟨X, Y, Z, T⟩

/-- src/edwards448.c:734-737: the accumulator after `n` iterations of the loop. -/
def mulLoop (r : List Byte) : ℕ → P4way V
  | 0 => mulInit (mulQuery r 0)
  | n + 1 => mixadd_4way (mulLoop r n) (mulQuery r (n + 1))

/-- src/edwards448.c:704-742 `point_multiplication_fold4w4`. -/
def point_multiplication (r : List Byte) : P2w := isogeny_2w (join_points (mulLoop r 27))

/-- src/edwards448.c:757-761 `fixed_point_multiplication_ed448`; `u13` and `u14` are words
that `div4` leaves uninitialised. -/
def fixed_point_multiplication (u13 u14 : W) (r : List Byte) : P2w :=
  point_multiplication (div4 u13 u14 r)

end Verif.Ed448
