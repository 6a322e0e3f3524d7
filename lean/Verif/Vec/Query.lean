import Verif.Vec.Inline
import Verif.Ed25519.TableSign
import Verif.Ed448.TableSign

/-!
# The table queries of the multiplication by the base point as programs

`query_table_fold2w4_ed25519` and `query_table_fold4w4_ed448`.  The parameters are P = 0,
`secret_signs` = 1 and `secret_digits` = 2; the table is the constant array number 0, and the
loops are unrolled.  The arrays `mask`, `P_addYX`, `P_subYX` and `P__2dYX` of the functions are
registers. -/

namespace Verif.Vec

/-- src/edwards255.c:861-864 and src/edwards448.c:218-221: `digits` is register 0, `signs` 1,
`iiii` 2. -/
def qLoad : List Stmt := [
  .set 0 (.ld 2 0),
  .set 1 (.ld 1 0),
  .set 2 (.lit 0 0 0 0)]

/-- src/edwards255.c:870-883 and src/edwards448.c:227-240, one iteration; `mask[i]` is
register 10 + i. -/
def qMask (i : ℕ) : List Stmt := [
  .set (10 + i) (.bin .or (.bin .sub (.r 0) (.r 2)) (.bin .sub (.r 2) (.r 0))),
  .set (10 + i) (.un (.shuf32 0xE5) (.un (.srai32 32) (.r (10 + i)))),
  .set 2 (.bin .add (.r 2) (.lit 1 1 1 1))]

/-- src/edwards255.c:897-906 and src/edwards448.c:254-264, one iteration of the inner loop;
`P_addYX[j]` is register 20 + j, `P_subYX[j]` 30 + j, `P__2dYX[j]` 40 + j; `entry` reads an entry
of the table. -/
def qAcc (entry : ℕ → Ex) (j i : ℕ) : List Stmt := [
  .set 51 (entry (24 * j + 3 * i)),
  .set 52 (entry (24 * j + 3 * i + 1)),
  .set 53 (entry (24 * j + 3 * i + 2)),
  .set (20 + j) (.bin .xor (.r (20 + j)) (.bin .andnot (.r (11 + i)) (.r 51))),
  .set (30 + j) (.bin .xor (.r (30 + j)) (.bin .andnot (.r (11 + i)) (.r 52))),
  .set (40 + j) (.bin .xor (.r (40 + j)) (.bin .andnot (.r (11 + i)) (.r 53)))]

/-- src/edwards255.c:892-907 and src/edwards448.c:249-265, one iteration of the outer loop. -/
def qSel (entry : ℕ → Ex) (j : ℕ) : List Stmt :=
  ([.set (20 + j) (.lit 0 0 0 0), .set (30 + j) (.lit 0 0 0 0),
    .set (40 + j) (.lit 0 0 0 0)] : List Stmt) ++ (List.range 8).flatMap (qAcc entry j)

/-- src/edwards255.c:913-914 and src/edwards448.c:271-272. -/
def qFix : List Stmt := [
  .set 20 (.bin .xor (.r 20) (.bin .andnot (.r 10) (.bin .xor (.r 20) (.lit 1 1 1 1)))),
  .set 30 (.bin .xor (.r 30) (.bin .andnot (.r 10) (.bin .xor (.r 30) (.lit 1 1 1 1))))]

/-- src/edwards255.c:923-928 and src/edwards448.c:281-286, one iteration. -/
def qSwap (j : ℕ) : List Stmt := [
  .set 54 (.bin .and (.bin .xor (.r (20 + j)) (.r (30 + j))) (.r 1)),
  .set (20 + j) (.bin .xor (.r (20 + j)) (.r 54)),
  .set (30 + j) (.bin .xor (.r (30 + j)) (.r 54))]

/-- src/edwards255.c:941-944 and src/edwards448.c:299-302, one iteration: the cell `i` of
`P->_2dYX`, which starts at the cell `o` of P; `p` is `_P[i]`. -/
def qNeg (o p i : ℕ) : List Stmt := [
  .st 0 (o + i) (.bin .add (.bin .xor (.ld 0 (o + i)) (.r 1)) (.bin .sub (.lit p p p p) (.r 1)))]

/-- A literal with the same word in the four lanes. -/
def lit1 (n : ℕ) : Ex := .lit n n n n

/-- src/eltfp25519_4w_redradix.c:24-44 `str_bytes_to_Element_4w_h0h5`: `A` starts at the cell `o`
of the parameter 0, `nA[j]` is register b + j. -/
def strBytes25519 (o b : ℕ) : List Stmt :=
  let mask0 := lit1 0x3ffffff
  let mask1 := lit1 0x1ffffff
  [ .st 0 o (.bin .and (.r b) mask0),
    .st 0 (o + 2) (.bin .and (.un (.shr 26) (.r b)) mask1),
    .st 0 (o + 4) (.bin .and (.bin .xor (.un (.shl 13) (.r (b + 1))) (.un (.shr 51) (.r b))) mask0),
    .st 0 (o + 6) (.bin .and (.un (.shr 13) (.r (b + 1))) mask1),
    .st 0 (o + 8) (.bin .and (.un (.shr 38) (.r (b + 1))) mask0),
    .st 0 (o + 1) (.bin .and (.r (b + 2)) mask1),
    .st 0 (o + 3) (.bin .and (.un (.shr 25) (.r (b + 2))) mask0),
    .st 0 (o + 5) (.bin .and (.bin .xor (.un (.shl 13) (.r (b + 3))) (.un (.shr 51) (.r (b + 2))))
      mask1),
    .st 0 (o + 7) (.bin .and (.un (.shr 12) (.r (b + 3))) mask0),
    .st 0 (o + 9) (.bin .and (.un (.shr 38) (.r (b + 3))) mask1)]

/-- src/eltfp448_4w_redradix.c:29-61 `str_bytes_to_Element_4w_h0h8`. -/
def strBytes448 (o b : ℕ) : List Stmt :=
  ([.st 0 o (.r b),
    .st 0 (o + 2) (.un (.shr 28) (.r b)),
    .st 0 (o + 4) (.bin .xor (.un (.shr 56) (.r b)) (.un (.shl 8) (.r (b + 1)))),
    .st 0 (o + 6) (.un (.shr 20) (.r (b + 1))),
    .st 0 (o + 8) (.bin .xor (.un (.shr 48) (.r (b + 1))) (.un (.shl 16) (.r (b + 2)))),
    .st 0 (o + 10) (.un (.shr 12) (.r (b + 2))),
    .st 0 (o + 12) (.bin .xor (.un (.shr 40) (.r (b + 2))) (.un (.shl 24) (.r (b + 3)))),
    .st 0 (o + 14) (.un (.shr 4) (.r (b + 3))),
    .st 0 (o + 1) (.un (.shr 32) (.r (b + 3))),
    .st 0 (o + 3) (.bin .xor (.un (.shr 60) (.r (b + 3))) (.un (.shl 4) (.r (b + 4)))),
    .st 0 (o + 5) (.un (.shr 24) (.r (b + 4))),
    .st 0 (o + 7) (.bin .xor (.un (.shr 52) (.r (b + 4))) (.un (.shl 12) (.r (b + 5)))),
    .st 0 (o + 9) (.un (.shr 16) (.r (b + 5))),
    .st 0 (o + 11) (.bin .xor (.un (.shr 44) (.r (b + 5))) (.un (.shl 20) (.r (b + 6)))),
    .st 0 (o + 13) (.un (.shr 8) (.r (b + 6))),
    .st 0 (o + 15) (.un (.shr 36) (.r (b + 6)))] : List Stmt) ++
  (List.range 16).flatMap fun i => [.st 0 (o + i) (.bin .and (.ld 0 (o + i)) (lit1 0xfffffff))]

/-- src/edwards255.c:899-901: the 16 bytes at `p64Table + 16 * n`, in both halves; `p64Table` is
the cell 48 `idx` of the table. -/
def entry25519 (idx n : ℕ) : Ex :=
  .un .bcast (.cst 0 (48 * idx + n / 2) ((Ed25519.tableSign idx).getD (2 * n) 0)
    ((Ed25519.tableSign idx).getD (2 * n + 1) 0) 0 0)

/-- src/edwards448.c:257-259 `BROADCASTQ(.., p64Table + n)`; `p64Table` is the cell 42 `idx` of the
table. -/
def entry448 (idx n : ℕ) : Ex :=
  .un (.word 0) (.cst 0 (42 * idx + n / 4) ((Ed448.tableSign idx).getD n 0) 0 0 0)

/-- src/edwards255.c:909-945: the query after the selection. -/
def queryTail25519 : List Stmt :=
  qFix ++ (List.range 4).flatMap qSwap ++
  strBytes25519 0 20 ++ strBytes25519 10 30 ++ strBytes25519 20 40 ++
  qNeg 20 0x3ffffed 0 ++ qNeg 20 0x1ffffff 1 ++ qNeg 20 0x1ffffff 2 ++ qNeg 20 0x3ffffff 3 ++
  qNeg 20 0x3ffffff 4 ++ qNeg 20 0x1ffffff 5 ++ qNeg 20 0x1ffffff 6 ++ qNeg 20 0x3ffffff 7 ++
  qNeg 20 0x3ffffff 8 ++ qNeg 20 0x1ffffff 9

/-- src/edwards255.c:846-945 `query_table_fold2w4_ed25519` with `index_table` equal to `idx`. -/
def query25519 (idx : ℕ) : Fn := ⟨[30, 1, 1], [0], [32],
  qLoad ++ (List.range 9).flatMap qMask ++ (List.range 4).flatMap (qSel (entry25519 idx)) ++
  queryTail25519⟩

/-- src/edwards448.c:266-303: the query after the selection. -/
def queryTail448 : List Stmt :=
  qFix ++ (List.range 7).flatMap qSwap ++
  strBytes448 0 20 ++ strBytes448 16 30 ++ strBytes448 32 40 ++
  qNeg 32 0xfffffff 0 ++ qNeg 32 0xffffffe 1 ++ qNeg 32 0xfffffff 2 ++ qNeg 32 0xfffffff 3 ++
  qNeg 32 0xfffffff 4 ++ qNeg 32 0xfffffff 5 ++ qNeg 32 0xfffffff 6 ++ qNeg 32 0xfffffff 7 ++
  qNeg 32 0xfffffff 8 ++ qNeg 32 0xfffffff 9 ++ qNeg 32 0xfffffff 10 ++ qNeg 32 0xfffffff 11 ++
  qNeg 32 0xfffffff 12 ++ qNeg 32 0xfffffff 13 ++ qNeg 32 0xfffffff 14 ++ qNeg 32 0xfffffff 15

/-- src/edwards448.c:200-303 `query_table_fold4w4_ed448` with `index_table` equal to `idx`. -/
def query448 (idx : ℕ) : Fn := ⟨[48, 1, 1], [0], [32],
  qLoad ++ (List.range 9).flatMap qMask ++ (List.range 7).flatMap (qSel (entry448 idx)) ++
  queryTail448⟩

end Verif.Vec
