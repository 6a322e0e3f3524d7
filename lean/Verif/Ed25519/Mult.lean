import Verif.Ed25519.Point
import Verif.Ed25519.TableSign
import Verif.Fp25519.RedApi

/-!
# Multiples of the base point of edwards25519

Models of src/edwards255.c: the encoding of points, the signed recoding of the scalar,
the constant-time table query and the multiplication by the base point, in the
configuration that include/edwards255.h selects (`LUT_24KB`). -/

namespace Verif.Ed25519

open Verif.Fp25519

/-- src/edwards255.c:484-506 `point_encoding_ed25519`.  `isa` says which code path of the
full-radix arithmetic runs. -/
def point_encoding (isa : Isa) (P : P2w) : List Byte :=
  let (tX, tY) := R2.deinter P.XY
  let (_tT, tZ) := R2.deinter P.TZ
  let X := F4.ofBytes (R1.ser tX)
  let Y := F4.ofBytes (R1.ser tY)
  let Z := F4.ofBytes (R1.ser tZ)
  let invZ := Full.inv isa Z
  let X := Full.mul isa X invZ
  let Y := Full.mul isa Y invZ
  let encX := Full.ser X
  let encP := Full.ser Y
  encP.set 31 ((encP.getD 31 0 &&& 0x7F#8) ||| ((encX.getD 0 0 &&& 1#8) <<< 7))

/-! ## Recoding of the scalar -/

/-- Nibble `k` of the scalar: src/edwards255.c:819 `r[16*i+j] & 0xF` for even k = 2(16i+j) and
827 `(r[16*i+j] >> 4) & 0xF` for odd k. -/
def nibble (r : List Byte) (k : ℕ) : BitVec 8 :=
  if k % 2 = 0 then r.getD (k / 2) 0 &&& 0xF#8 else (r.getD (k / 2) 0 >>> 4) &&& 0xF#8

/-- src/edwards255.c:820-821 (and 828-829): the value and the next carry. -/
def recValue (nib carry : BitVec 8) : BitVec 8 := nib + carry

def recCarry (value : BitVec 8) : BitVec 8 := if BitVec.slt value 8#8 then 0#8 else 1#8

/-- The carry into nibble `k` in the loop src/edwards255.c:815-835, which visits the bytes
in the order 0, ..., 31 and the low nibble before the high one. -/
def carryAt (r : List Byte) : ℕ → BitVec 8
  | 0 => 0#8
  | k + 1 => recCarry (recValue (nibble r k) (carryAt r k))

/-- src/edwards255.c:822,824 (and 830,832): digit of nibble `k`. -/
def digitAt (r : List Byte) (k : ℕ) : W :=
  let value := recValue (nibble r k) (carryAt r k)
  let carry := recCarry value
  (((value ^^^ (-carry)) + carry) &&& 0xF#8).signExtend 64

/-- src/edwards255.c:825 (and 833): sign of nibble `k`, 0 or -1. -/
def signAt (r : List Byte) (k : ℕ) : W := (-(carryAt r (k + 1))).signExtend 64

/-- The nibble whose digit is stored in `list_digits[n]` (src/edwards255.c:824,832):
4j+i holds 32i+2j and 4j+i+2 holds 32i+2j+1. -/
def nibIdx (n : ℕ) : ℕ := 32 * (n % 2) + 2 * (n / 4) + n / 2 % 2

/-- src/edwards255.c:805-838 `recoding_signed_scalar_fold2w4_ed25519`: `list_digits[n]`, n < 64.
The entry 64, the last carry, is never read. -/
def list_digits (r : List Byte) (n : ℕ) : W := digitAt r (nibIdx n)

/-- `list_signs[n]`, n < 64. -/
def list_signs (r : List Byte) (n : ℕ) : W := signAt r (nibIdx n)

/-! ## Table query -/

/-- src/eltfp25519_4w_redradix.c:24-44 `str_bytes_to_Element_4w_h0h5`. -/
def str_bytes {α : Type} [Lane α] (xor : α → α → α) (nA : ℕ → α) : Elt10 α :=
  let mask0 := LIT (2 ^ 26 - 1)
  let mask1 := LIT (2 ^ 25 - 1)
  { r0 := AND (nA 0) mask0
    r1 := AND (SHR (nA 0) 26) mask1
    r2 := AND (xor (SHL (nA 1) 13) (SHR (nA 0) (26 + 25))) mask0
    r3 := AND (SHR (nA 1) 13) mask1
    r4 := AND (SHR (nA 1) (13 + 25)) mask0
    r5 := AND (nA 2) mask1
    r6 := AND (SHR (nA 2) 25) mask0
    r7 := AND (xor (SHL (nA 3) 13) (SHR (nA 2) (26 + 25))) mask1
    r8 := AND (SHR (nA 3) 12) mask0
    r9 := AND (SHR (nA 3) (12 + 26)) mask1 }

/-- src/edwards255.c:870-883: `mask[i]`; the counter `iiii` is `i` in every lane. -/
def queryMask (digits : V) (i : ℕ) : V :=
  let iiii : V := LIT i
  SHUF32 (SRAI32 (OR (SUB digits iiii) (SUB iiii digits)) 32) 0xE5

/-- Word `n` of sub-table `idx`. -/
def signWord (idx n : ℕ) : W := BitVec.ofNat 64 ((tableSign idx).getD n 0)

/-- src/edwards255.c:899-901: the 128-bit entry `n` of sub-table `idx`, broadcast. -/
def signEntry (idx n : ℕ) : V := BROADCAST128 ⟨signWord idx (2 * n), signWord idx (2 * n + 1)⟩

/-- src/edwards255.c:892-907, one of the three accumulators (`c` is 0 for addYX, 1 for subYX,
2 for 2dYX) for the 64-bit word `j`. -/
def querySel (digits : V) (idx c j : ℕ) : V :=
  (List.range 8).foldl (fun acc i =>
    XOR acc (ANDNOT (queryMask digits (i + 1)) (signEntry idx (24 * j + 3 * i + c)))) (LIT 0)

/-- src/edwards255.c:913-914: the neutral element when the digit is zero. -/
def queryFix (digits : V) (P0 : V) : V :=
  XOR P0 (ANDNOT (queryMask digits 0) (XOR P0 (LIT 1)))

/-- src/edwards255.c:851-857 `_P`. -/
def queryP {α : Type} [Lane α] : Elt10 α :=
  ⟨LIT 0x3ffffed, LIT 0x1ffffff, LIT 0x3ffffff, LIT 0x1ffffff, LIT 0x3ffffff, LIT 0x1ffffff,
    LIT 0x3ffffff, LIT 0x1ffffff, LIT 0x3ffffff, LIT 0x1ffffff⟩

/-- src/edwards255.c:846-945 `query_table_fold2w4_ed25519`. -/
def query_table (signs digits : V) (index_table : ℕ) : Pre4way V :=
  let P_addYX (j : ℕ) : V :=
    let x := querySel digits index_table 0 j
    if j = 0 then queryFix digits x else x
  let P_subYX (j : ℕ) : V :=
    let x := querySel digits index_table 1 j
    if j = 0 then queryFix digits x else x
  let P__2dYX (j : ℕ) : V := querySel digits index_table 2 j
  let swap (j : ℕ) : V := AND (XOR (P_addYX j) (P_subYX j)) signs
  let addYX := str_bytes XOR fun j => XOR (P_addYX j) (swap j)
  let subYX := str_bytes XOR fun j => XOR (P_subYX j) (swap j)
  let dYX := str_bytes XOR P__2dYX
  { addYX := addYX, subYX := subYX
    dYX := dYX.zip (fun x p => ADD (XOR x signs) (SUB p signs)) queryP }

/-! ## Multiplication -/

/-- src/edwards255.c:953-964 `unpack_2w_Element_4w_h0h5`. -/
def unpack_2w {β : Type} (A : Elt10 (Vec4 β)) : Elt5 (Vec4 β) × Elt5 (Vec4 β) :=
  (⟨UPKL64 A.r0 A.r5, UPKL64 A.r1 A.r6, UPKL64 A.r2 A.r7, UPKL64 A.r3 A.r8, UPKL64 A.r4 A.r9⟩,
   ⟨UPKH64 A.r0 A.r5, UPKH64 A.r1 A.r6, UPKH64 A.r2 A.r7, UPKH64 A.r3 A.r8, UPKH64 A.r4 A.r9⟩)

/-- src/edwards255.c:978-1005 `join_points`. -/
def join_points (Q : P4way V) : P2w :=
  let X := unpack_2w Q.X
  let Y := unpack_2w Q.Y
  let Z := unpack_2w Q.Z
  let T := unpack_2w Q.T
  let R0 : P2way V := ⟨X.1, Y.1, Z.1, T.1⟩
  let R1 : P2way V := ⟨X.2, Y.2, Z.2, T.2⟩
  let R0 := fulladd_2way R0 R1
  let T0 : P2w := ⟨R0.X.zip (PERM128 · · 0x20) R0.Y, R0.T.zip (PERM128 · · 0x20) R0.Z⟩
  let T1 : P2w := ⟨R0.X.zip (PERM128 · · 0x31) R0.Y, R0.T.zip (PERM128 · · 0x31) R0.Z⟩
  let T1 := doubling_2w T1
  let T1 := doubling_2w T1
  let T1 := doubling_2w T1
  let T1 := doubling_2w T1
  fulladd_2w T0 T1

/-- src/edwards255.c:1027-1033 `one_half`. -/
def one_half {α : Type} [Lane α] : Elt10 α :=
  ⟨LIT 0x3fffff7, LIT 0x1ffffff, LIT 0x3ffffff, LIT 0x1ffffff, LIT 0x3ffffff, LIT 0x1ffffff,
    LIT 0x3ffffff, LIT 0x1ffffff, LIT 0x3ffffff, LIT 0x0ffffff⟩

/-- The four words of `K + 4*i` or `S + 4*i`, loaded as a vector. -/
def load4 (a : ℕ → W) (i : ℕ) : V := ⟨a (4 * i), a (4 * i + 1), a (4 * i + 2), a (4 * i + 3)⟩

/-- The query of iteration `i` of the multiplication by `r`. -/
def mulQuery (r : List Byte) (i : ℕ) : Pre4way V :=
  query_table (load4 (list_signs r) i) (load4 (list_digits r) i) i

/-- src/edwards255.c:1037-1046: the first point. -/
def mulInit {α : Type} [Lane α] (P : Pre4way α) : P4way α :=
  let Z : Elt10 α := { (R4.zero : Elt10 α) with r0 := LIT 2 }
  let X := R4.sub P.addYX P.subYX
  let Y := R4.add P.addYX P.subYX
  let (X, Y) := R4.new_compressfast2 X Y
  let T := R4.mul X Y
  let T := R4.mul T one_half
  ⟨X, Y, Z, T⟩

/-- src/edwards255.c:1048-1051: the accumulator after `n` iterations of the loop. -/
def mulLoop (r : List Byte) : ℕ → P4way V
  | 0 => mulInit (mulQuery r 0)
  | n + 1 => mixadd_4way (mulLoop r n) (mulQuery r (n + 1))

/-- src/edwards255.c:1021-1054 `point_multiplication_fold2w4_ed25519`, which is what
`point_multiplication_ed25519` (1068-1076) calls. -/
def point_multiplication (r : List Byte) : P2w := join_points (mulLoop r 15)

end Verif.Ed25519
