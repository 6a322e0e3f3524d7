import Verif.Vec.Machine

/-!
# The vector functions of Fp448 as programs

The text of src/eltfp448_1w_redradix.c, src/eltfp448_2w_redradix.c and
src/eltfp448_4w_redradix.c, translated statement by statement by a script: macros are
expanded, loops with constant bounds are unrolled, and the local variables are numbered.  The
declarations of constants are replaced by their values.

Left out are the functions that handle bytes or several elements through calls: `rand`,
`print`, `sgn`, `cmp`, `alloc`, `unser`, `ser`, `inv`, `invsqrt`, `srt` and `prime`. -/

namespace Verif.Vec.F448

namespace V1

/-- src/eltfp448_1w_redradix.c:24-94 `compress`; parameters A = 0. -/
def compress : Fn := ⟨[4], [0], [], [
  .set 0 (.ld128 0 0),
  .set 1 (.ld128 0 1),
  .set 2 (.ld128 0 2),
  .set 3 (.ld128 0 3),
  .set 4 (.ld128 0 4),
  .set 5 (.ld128 0 5),
  .set 6 (.ld128 0 6),
  .set 7 (.ld128 0 7),
  .set 8 (.un (.shr 28) (.r 0)),
  .set 0 (.bin .and (.r 0) (.lit 0xfffffff 0xfffffff 0 0)),
  .set 1 (.bin .add (.r 1) (.r 8)),
  .set 9 (.un (.shr 28) (.r 1)),
  .set 1 (.bin .and (.r 1) (.lit 0xfffffff 0xfffffff 0 0)),
  .set 2 (.bin .add (.r 2) (.r 9)),
  .set 10 (.un (.shr 28) (.r 2)),
  .set 2 (.bin .and (.r 2) (.lit 0xfffffff 0xfffffff 0 0)),
  .set 3 (.bin .add (.r 3) (.r 10)),
  .set 11 (.un (.shr 28) (.r 3)),
  .set 3 (.bin .and (.r 3) (.lit 0xfffffff 0xfffffff 0 0)),
  .set 4 (.bin .add (.r 4) (.r 11)),
  .set 12 (.un (.shr 28) (.r 4)),
  .set 4 (.bin .and (.r 4) (.lit 0xfffffff 0xfffffff 0 0)),
  .set 5 (.bin .add (.r 5) (.r 12)),
  .set 13 (.un (.shr 28) (.r 5)),
  .set 5 (.bin .and (.r 5) (.lit 0xfffffff 0xfffffff 0 0)),
  .set 6 (.bin .add (.r 6) (.r 13)),
  .set 14 (.un (.shr 28) (.r 6)),
  .set 6 (.bin .and (.r 6) (.lit 0xfffffff 0xfffffff 0 0)),
  .set 7 (.bin .add (.r 7) (.r 14)),
  .set 15 (.un (.shr 28) (.r 7)),
  .set 7 (.bin .and (.r 7) (.lit 0xfffffff 0xfffffff 0 0)),
  .set 0 (.bin .add (.r 0) (.bin (.blend 0x03) (.r 15) (.lit 0 0 0 0))),
  .set 0 (.bin .add (.r 0) (.un .shuf4E (.r 15))),
  .set 8 (.un (.shr 28) (.r 0)),
  .set 0 (.bin .and (.r 0) (.lit 0xfffffff 0xfffffff 0 0)),
  .set 1 (.bin .add (.r 1) (.r 8)),
  .st128 0 0 (.r 0),
  .st128 0 1 (.r 1),
  .st128 0 2 (.r 2),
  .st128 0 3 (.r 3),
  .st128 0 4 (.r 4),
  .st128 0 5 (.r 5),
  .st128 0 6 (.r 6),
  .st128 0 7 (.r 7)]⟩

/-- src/eltfp448_1w_redradix.c:96-154 `compressfast`; parameters c = 0. -/
def compressfast : Fn := ⟨[4], [0], [], [
  .set 0 (.ld 0 0),
  .set 1 (.ld 0 1),
  .set 2 (.ld 0 2),
  .set 3 (.ld 0 3),
  .set 4 (.bin .and (.r 0) (.lit 0xfffffff 0xfffffff 0xfffffff 0xfffffff)),
  .set 5 (.bin .and (.r 1) (.lit 0xfffffff 0xfffffff 0xfffffff 0xfffffff)),
  .set 6 (.bin .and (.r 2) (.lit 0xfffffff 0xfffffff 0xfffffff 0xfffffff)),
  .set 7 (.bin .and (.r 3) (.lit 0xfffffff 0xfffffff 0xfffffff 0xfffffff)),
  .set 8 (.un (.shr 28) (.r 0)),
  .set 9 (.un (.shr 28) (.r 1)),
  .set 10 (.un (.shr 28) (.r 2)),
  .set 11 (.un (.shr 28) (.r 3)),
  .set 8 (.bin .and (.r 8) (.lit 0xfffffff 0xfffffff 0xfffffff 0xfffffff)),
  .set 9 (.bin .and (.r 9) (.lit 0xfffffff 0xfffffff 0xfffffff 0xfffffff)),
  .set 10 (.bin .and (.r 10) (.lit 0xfffffff 0xfffffff 0xfffffff 0xfffffff)),
  .set 11 (.bin .and (.r 11) (.lit 0xfffffff 0xfffffff 0xfffffff 0xfffffff)),
  .set 16 (.un (.shr 56) (.r 0)),
  .set 17 (.un (.shr 56) (.r 1)),
  .set 18 (.un (.shr 56) (.r 2)),
  .set 19 (.un (.shr 56) (.r 3)),
  .set 15 (.un .shuf4E (.bin .add (.r 11) (.un .shr8 (.r 11)))),
  .set 19 (.un .shuf4E (.bin .add (.r 19) (.un .shr8 (.r 19)))),
  .set 12 (.bin (.perm128 0x21) (.r 15) (.r 8)),
  .set 13 (.bin (.perm128 0x21) (.r 8) (.r 9)),
  .set 14 (.bin (.perm128 0x21) (.r 9) (.r 10)),
  .set 15 (.bin (.perm128 0x21) (.r 10) (.r 11)),
  .set 20 (.bin .add (.r 4) (.r 12)),
  .set 21 (.bin .add (.r 5) (.r 13)),
  .set 22 (.bin .add (.r 6) (.r 14)),
  .set 23 (.bin .add (.r 7) (.r 15)),
  .set 20 (.bin .add (.r 20) (.r 19)),
  .set 21 (.bin .add (.r 21) (.r 16)),
  .set 22 (.bin .add (.r 22) (.r 17)),
  .set 23 (.bin .add (.r 23) (.r 18)),
  .st 0 0 (.r 20),
  .st 0 1 (.r 21),
  .st 0 2 (.r 22),
  .st 0 3 (.r 23)]⟩

/-- src/eltfp448_1w_redradix.c:156-197 `new_compressfast`; parameters pA = 0. -/
def new_compressfast : Fn := ⟨[4], [0], [], [
  .set 0 (.ld 0 0),
  .set 1 (.ld 0 1),
  .set 2 (.ld 0 2),
  .set 3 (.ld 0 3),
  .set 4 (.bin .and (.r 0) (.lit 0xfffffff 0xfffffff 0xfffffff 0xfffffff)),
  .set 5 (.bin .and (.r 1) (.lit 0xfffffff 0xfffffff 0xfffffff 0xfffffff)),
  .set 6 (.bin .and (.r 2) (.lit 0xfffffff 0xfffffff 0xfffffff 0xfffffff)),
  .set 7 (.bin .and (.r 3) (.lit 0xfffffff 0xfffffff 0xfffffff 0xfffffff)),
  .set 8 (.un (.shr 28) (.r 0)),
  .set 9 (.un (.shr 28) (.r 1)),
  .set 10 (.un (.shr 28) (.r 2)),
  .set 11 (.un (.shr 28) (.r 3)),
  .set 15 (.un .shuf4E (.bin .add (.r 11) (.un .shr8 (.r 11)))),
  .set 12 (.bin (.perm128 0x21) (.r 15) (.r 8)),
  .set 13 (.bin (.perm128 0x21) (.r 8) (.r 9)),
  .set 14 (.bin (.perm128 0x21) (.r 9) (.r 10)),
  .set 15 (.bin (.perm128 0x21) (.r 10) (.r 11)),
  .set 16 (.bin .add (.r 4) (.r 12)),
  .set 17 (.bin .add (.r 5) (.r 13)),
  .set 18 (.bin .add (.r 6) (.r 14)),
  .set 19 (.bin .add (.r 7) (.r 15)),
  .st 0 0 (.r 16),
  .st 0 1 (.r 17),
  .st 0 2 (.r 18),
  .st 0 3 (.r 19)]⟩

/-- The statements of `sqrn` before its loop. -/
def sqrnPre : List Stmt := [
  .set 12 (.ld 0 0),
  .set 13 (.ld 0 1),
  .set 14 (.ld 0 2),
  .set 15 (.ld 0 3)]

/-- The body of the loop of `sqrn`. -/
def sqrnBody : List Stmt := [
  .set 24 (.r 12),
  .set 25 (.r 13),
  .set 26 (.r 14),
  .set 27 (.r 15),
  .set 28 (.bin .add (.bin (.blend 0x33) (.r 24) (.lit 0 0 0 0)) (.un .shuf4E (.r 24))),
  .set 29 (.bin .add (.bin (.blend 0x33) (.r 25) (.lit 0 0 0 0)) (.un .shuf4E (.r 25))),
  .set 30 (.bin .add (.bin (.blend 0x33) (.r 26) (.lit 0 0 0 0)) (.un .shuf4E (.r 26))),
  .set 31 (.bin .add (.bin (.blend 0x33) (.r 27) (.lit 0 0 0 0)) (.un .shuf4E (.r 27))),
  .set 4 (.bin (.perm128 0x20) (.r 24) (.r 28)),
  .set 5 (.bin (.perm128 0x31) (.r 24) (.r 28)),
  .set 6 (.bin (.perm128 0x20) (.r 25) (.r 29)),
  .set 7 (.bin (.perm128 0x31) (.r 25) (.r 29)),
  .set 8 (.bin (.perm128 0x20) (.r 26) (.r 30)),
  .set 9 (.bin (.perm128 0x31) (.r 26) (.r 30)),
  .set 10 (.bin (.perm128 0x20) (.r 27) (.r 31)),
  .set 11 (.bin (.perm128 0x31) (.r 27) (.r 31)),
  .set 23 (.un .shuf4E (.bin .add (.r 11) (.un .shr8 (.r 11)))),
  .set 0 (.un (.perm64 0x50) (.r 24)),
  .set 1 (.un (.perm64 0xFA) (.r 24)),
  .set 2 (.bin .add (.r 0) (.r 0)),
  .set 3 (.bin .add (.r 1) (.r 1)),
  .set 12 (.bin .mul (.r 4) (.r 0)),
  .set 12 (.bin .add (.r 12) (.bin .mul (.r 23) (.r 3))),
  .set 13 (.bin .mul (.r 5) (.r 2)),
  .set 14 (.bin .mul (.r 6) (.r 2)),
  .set 14 (.bin .add (.r 14) (.bin .mul (.r 5) (.r 1))),
  .set 15 (.bin .mul (.r 7) (.r 2)),
  .set 15 (.bin .add (.r 15) (.bin .mul (.r 6) (.r 3))),
  .set 16 (.bin .mul (.r 8) (.r 2)),
  .set 16 (.bin .add (.r 16) (.bin .mul (.r 7) (.r 3))),
  .set 17 (.bin .mul (.r 9) (.r 2)),
  .set 17 (.bin .add (.r 17) (.bin .mul (.r 8) (.r 3))),
  .set 18 (.bin .mul (.r 10) (.r 2)),
  .set 18 (.bin .add (.r 18) (.bin .mul (.r 9) (.r 3))),
  .set 19 (.bin .mul (.r 11) (.r 2)),
  .set 19 (.bin .add (.r 19) (.bin .mul (.r 10) (.r 3))),
  .set 22 (.un .shuf4E (.bin .add (.r 10) (.un .shr8 (.r 10)))),
  .set 21 (.un .shuf4E (.bin .add (.r 9) (.un .shr8 (.r 9)))),
  .set 0 (.un (.perm64 0x50) (.r 25)),
  .set 1 (.un (.perm64 0xFA) (.r 25)),
  .set 2 (.bin .add (.r 0) (.r 0)),
  .set 3 (.bin .add (.r 1) (.r 1)),
  .set 12 (.bin .add (.r 12) (.bin .mul (.r 22) (.r 2))),
  .set 12 (.bin .add (.r 12) (.bin .mul (.r 21) (.r 3))),
  .set 13 (.bin .add (.r 13) (.bin .mul (.r 23) (.r 2))),
  .set 13 (.bin .add (.r 13) (.bin .mul (.r 22) (.r 3))),
  .set 14 (.bin .add (.r 14) (.bin .mul (.r 23) (.r 3))),
  .set 16 (.bin .add (.r 16) (.bin .mul (.r 6) (.r 0))),
  .set 17 (.bin .add (.r 17) (.bin .mul (.r 7) (.r 2))),
  .set 18 (.bin .add (.r 18) (.bin .mul (.r 8) (.r 2))),
  .set 18 (.bin .add (.r 18) (.bin .mul (.r 7) (.r 1))),
  .set 19 (.bin .add (.r 19) (.bin .mul (.r 9) (.r 2))),
  .set 19 (.bin .add (.r 19) (.bin .mul (.r 8) (.r 3))),
  .set 0 (.un (.perm64 0x50) (.r 27)),
  .set 1 (.un (.perm64 0xFA) (.r 27)),
  .set 2 (.bin .add (.r 0) (.r 0)),
  .set 16 (.bin .add (.r 16) (.bin .mul (.r 22) (.r 0))),
  .set 17 (.bin .add (.r 17) (.bin .mul (.r 23) (.r 2))),
  .set 18 (.bin .add (.r 18) (.bin .mul (.r 23) (.r 1))),
  .set 20 (.un .shuf4E (.bin .add (.r 8) (.un .shr8 (.r 8)))),
  .set 0 (.un (.perm64 0x50) (.r 26)),
  .set 1 (.un (.perm64 0xFA) (.r 26)),
  .set 2 (.bin .add (.r 0) (.r 0)),
  .set 3 (.bin .add (.r 1) (.r 1)),
  .set 12 (.bin .add (.r 12) (.bin .mul (.r 20) (.r 0))),
  .set 13 (.bin .add (.r 13) (.bin .mul (.r 21) (.r 2))),
  .set 14 (.bin .add (.r 14) (.bin .mul (.r 22) (.r 2))),
  .set 14 (.bin .add (.r 14) (.bin .mul (.r 21) (.r 1))),
  .set 15 (.bin .add (.r 15) (.bin .mul (.r 23) (.r 2))),
  .set 15 (.bin .add (.r 15) (.bin .mul (.r 22) (.r 3))),
  .set 16 (.bin .add (.r 16) (.bin .mul (.r 23) (.r 3))),
  .set 32 (.bin .add (.un .extr1 (.r 12)) (.un .extr0 (.r 12))),
  .set 33 (.bin .add (.un .extr1 (.r 13)) (.un .extr0 (.r 13))),
  .set 34 (.bin .add (.un .extr1 (.r 14)) (.un .extr0 (.r 14))),
  .set 35 (.bin .add (.un .extr1 (.r 15)) (.un .extr0 (.r 15))),
  .set 36 (.bin .add (.un .extr1 (.r 16)) (.un .extr0 (.r 16))),
  .set 37 (.bin .add (.un .extr1 (.r 17)) (.un .extr0 (.r 17))),
  .set 38 (.bin .add (.un .extr1 (.r 18)) (.un .extr0 (.r 18))),
  .set 39 (.bin .add (.un .extr1 (.r 19)) (.un .extr0 (.r 19))),
  .set 12 (.bin .insr (.bin .cast (.r 32) (.r 40)) (.r 33)),
  .set 13 (.bin .insr (.bin .cast (.r 34) (.r 41)) (.r 35)),
  .set 14 (.bin .insr (.bin .cast (.r 36) (.r 42)) (.r 37)),
  .set 15 (.bin .insr (.bin .cast (.r 38) (.r 43)) (.r 39)),
  .set 44 (.r 12),
  .set 45 (.r 13),
  .set 46 (.r 14),
  .set 47 (.r 15),
  .set 48 (.bin .and (.r 44) (.lit 0xfffffff 0xfffffff 0xfffffff 0xfffffff)),
  .set 49 (.bin .and (.r 45) (.lit 0xfffffff 0xfffffff 0xfffffff 0xfffffff)),
  .set 50 (.bin .and (.r 46) (.lit 0xfffffff 0xfffffff 0xfffffff 0xfffffff)),
  .set 51 (.bin .and (.r 47) (.lit 0xfffffff 0xfffffff 0xfffffff 0xfffffff)),
  .set 52 (.un (.shr 28) (.r 44)),
  .set 53 (.un (.shr 28) (.r 45)),
  .set 54 (.un (.shr 28) (.r 46)),
  .set 55 (.un (.shr 28) (.r 47)),
  .set 52 (.bin .and (.r 52) (.lit 0xfffffff 0xfffffff 0xfffffff 0xfffffff)),
  .set 53 (.bin .and (.r 53) (.lit 0xfffffff 0xfffffff 0xfffffff 0xfffffff)),
  .set 54 (.bin .and (.r 54) (.lit 0xfffffff 0xfffffff 0xfffffff 0xfffffff)),
  .set 55 (.bin .and (.r 55) (.lit 0xfffffff 0xfffffff 0xfffffff 0xfffffff)),
  .set 60 (.un (.shr 56) (.r 44)),
  .set 61 (.un (.shr 56) (.r 45)),
  .set 62 (.un (.shr 56) (.r 46)),
  .set 63 (.un (.shr 56) (.r 47)),
  .set 59 (.un .shuf4E (.bin .add (.r 55) (.un .shr8 (.r 55)))),
  .set 63 (.un .shuf4E (.bin .add (.r 63) (.un .shr8 (.r 63)))),
  .set 56 (.bin (.perm128 0x21) (.r 59) (.r 52)),
  .set 57 (.bin (.perm128 0x21) (.r 52) (.r 53)),
  .set 58 (.bin (.perm128 0x21) (.r 53) (.r 54)),
  .set 59 (.bin (.perm128 0x21) (.r 54) (.r 55)),
  .set 12 (.bin .add (.r 48) (.r 56)),
  .set 13 (.bin .add (.r 49) (.r 57)),
  .set 14 (.bin .add (.r 50) (.r 58)),
  .set 15 (.bin .add (.r 51) (.r 59)),
  .set 12 (.bin .add (.r 12) (.r 63)),
  .set 13 (.bin .add (.r 13) (.r 60)),
  .set 14 (.bin .add (.r 14) (.r 61)),
  .set 15 (.bin .add (.r 15) (.r 62))]

/-- The statements of `sqrn` after its loop. -/
def sqrnPost : List Stmt := [
  .st 0 0 (.r 12),
  .st 0 1 (.r 13),
  .st 0 2 (.r 14),
  .st 0 3 (.r 15)]

/-- src/eltfp448_1w_redradix.c:199-363 `sqrn`; parameters A = 0. -/
def sqrn (times : ℕ) : Fn :=
  ⟨[4], [0], [],
    sqrnPre ++ (List.replicate times sqrnBody).flatten ++ sqrnPost⟩

/-- src/eltfp448_1w_redradix.c:448-468 `add`; parameters c = 0, a = 1, b = 2. -/
def add : Fn := ⟨[4, 4, 4], [0], [], [
  .set 0 (.ld 1 0),
  .set 1 (.ld 1 1),
  .set 2 (.ld 1 2),
  .set 3 (.ld 1 3),
  .set 4 (.ld 2 0),
  .set 5 (.ld 2 1),
  .set 6 (.ld 2 2),
  .set 7 (.ld 2 3),
  .set 8 (.bin .add (.r 0) (.r 4)),
  .set 9 (.bin .add (.r 1) (.r 5)),
  .set 10 (.bin .add (.r 2) (.r 6)),
  .set 11 (.bin .add (.r 3) (.r 7)),
  .st 0 0 (.r 8),
  .st 0 1 (.r 9),
  .st 0 2 (.r 10),
  .st 0 3 (.r 11)]⟩

/-- src/eltfp448_1w_redradix.c:481-501 `sub`; parameters c = 0, a = 1, b = 2. -/
def sub : Fn := ⟨[4, 4, 4], [0], [32], [
  .set 0 (.ld 1 0),
  .set 1 (.ld 1 1),
  .set 2 (.ld 1 2),
  .set 3 (.ld 1 3),
  .set 4 (.ld 2 0),
  .set 5 (.ld 2 1),
  .set 6 (.ld 2 2),
  .set 7 (.ld 2 3),
  .set 8 (.cst 0 0 0x1ffffffe 0x3ffffffc 0x1ffffffe 0x1ffffffc),
  .set 9 (.cst 0 1 0x1ffffffe 0x1ffffffe 0x1ffffffe 0x1ffffffe),
  .set 10 (.cst 0 2 0x1ffffffe 0x1ffffffe 0x1ffffffe 0x1ffffffe),
  .set 11 (.cst 0 3 0x1ffffffe 0x1ffffffe 0x1ffffffe 0x1ffffffe),
  .st 0 0 (.bin .add (.r 0) (.bin .sub (.r 8) (.r 4))),
  .st 0 1 (.bin .add (.r 1) (.bin .sub (.r 9) (.r 5))),
  .st 0 2 (.bin .add (.r 2) (.bin .sub (.r 10) (.r 6))),
  .st 0 3 (.bin .add (.r 3) (.bin .sub (.r 11) (.r 7)))]⟩

/-- src/eltfp448_1w_redradix.c:503-533 `addsub`; parameters a = 0, b = 1. -/
def addsub : Fn := ⟨[4, 4], [0, 1], [32], [
  .set 0 (.ld 0 0),
  .set 1 (.ld 0 1),
  .set 2 (.ld 0 2),
  .set 3 (.ld 0 3),
  .set 4 (.ld 1 0),
  .set 5 (.ld 1 1),
  .set 6 (.ld 1 2),
  .set 7 (.ld 1 3),
  .set 8 (.bin .add (.r 0) (.r 4)),
  .set 9 (.bin .add (.r 1) (.r 5)),
  .set 10 (.bin .add (.r 2) (.r 6)),
  .set 11 (.bin .add (.r 3) (.r 7)),
  .set 12 (.bin .add (.r 0) (.bin .sub (.cst 0 0 0x1ffffffe 0x3ffffffc 0x1ffffffe 0x1ffffffc) (.r 4))),
  .set 13 (.bin .add (.r 1) (.bin .sub (.cst 0 1 0x1ffffffe 0x1ffffffe 0x1ffffffe 0x1ffffffe) (.r 5))),
  .set 14 (.bin .add (.r 2) (.bin .sub (.cst 0 2 0x1ffffffe 0x1ffffffe 0x1ffffffe 0x1ffffffe) (.r 6))),
  .set 15 (.bin .add (.r 3) (.bin .sub (.cst 0 3 0x1ffffffe 0x1ffffffe 0x1ffffffe 0x1ffffffe) (.r 7))),
  .st 0 0 (.r 8),
  .st 0 1 (.r 9),
  .st 0 2 (.r 10),
  .st 0 3 (.r 11),
  .st 1 0 (.r 12),
  .st 1 1 (.r 13),
  .st 1 2 (.r 14),
  .st 1 3 (.r 15)]⟩

/-- src/eltfp448_1w_redradix.c:535-550 `neg`; parameters c = 0. -/
def neg : Fn := ⟨[4], [0], [32], [
  .set 0 (.ld 0 0),
  .set 1 (.ld 0 1),
  .set 2 (.ld 0 2),
  .set 3 (.ld 0 3),
  .set 4 (.cst 0 0 0x1ffffffe 0x3ffffffc 0x1ffffffe 0x1ffffffc),
  .set 5 (.cst 0 1 0x1ffffffe 0x1ffffffe 0x1ffffffe 0x1ffffffe),
  .set 6 (.cst 0 2 0x1ffffffe 0x1ffffffe 0x1ffffffe 0x1ffffffe),
  .set 7 (.cst 0 3 0x1ffffffe 0x1ffffffe 0x1ffffffe 0x1ffffffe),
  .st 0 0 (.bin .sub (.r 4) (.r 0)),
  .st 0 1 (.bin .sub (.r 5) (.r 1)),
  .st 0 2 (.bin .sub (.r 6) (.r 2)),
  .st 0 3 (.bin .sub (.r 7) (.r 3))]⟩

/-- src/eltfp448_1w_redradix.c:552-651 `intmul_sb`; parameters C = 0, A = 1, B = 2. -/
def intmul_sb : Fn := ⟨[4, 4, 4], [0], [], [
  .set 18 (.ld 2 0),
  .set 19 (.ld 2 1),
  .set 20 (.ld 2 2),
  .set 21 (.ld 2 3),
  .set 22 (.bin .add (.bin (.blend 0x33) (.r 18) (.lit 0 0 0 0)) (.un .shuf4E (.r 18))),
  .set 23 (.bin .add (.bin (.blend 0x33) (.r 19) (.lit 0 0 0 0)) (.un .shuf4E (.r 19))),
  .set 24 (.bin .add (.bin (.blend 0x33) (.r 20) (.lit 0 0 0 0)) (.un .shuf4E (.r 20))),
  .set 25 (.bin .add (.bin (.blend 0x33) (.r 21) (.lit 0 0 0 0)) (.un .shuf4E (.r 21))),
  .set 2 (.bin (.perm128 0x20) (.r 18) (.r 22)),
  .set 3 (.bin (.perm128 0x31) (.r 18) (.r 22)),
  .set 4 (.bin (.perm128 0x20) (.r 19) (.r 23)),
  .set 5 (.bin (.perm128 0x31) (.r 19) (.r 23)),
  .set 6 (.bin (.perm128 0x20) (.r 20) (.r 24)),
  .set 7 (.bin (.perm128 0x31) (.r 20) (.r 24)),
  .set 8 (.bin (.perm128 0x20) (.r 21) (.r 25)),
  .set 9 (.bin (.perm128 0x31) (.r 21) (.r 25)),
  .set 10 (.lit 0 0 0 0),
  .set 11 (.lit 0 0 0 0),
  .set 12 (.lit 0 0 0 0),
  .set 13 (.lit 0 0 0 0),
  .set 14 (.lit 0 0 0 0),
  .set 15 (.lit 0 0 0 0),
  .set 16 (.lit 0 0 0 0),
  .set 17 (.lit 0 0 0 0),
  .set 0 (.un (.perm64 0x50) (.ld 1 0)),
  .set 10 (.bin .add (.r 10) (.bin .mul (.r 2) (.r 0))),
  .set 11 (.bin .add (.r 11) (.bin .mul (.r 3) (.r 0))),
  .set 12 (.bin .add (.r 12) (.bin .mul (.r 4) (.r 0))),
  .set 13 (.bin .add (.r 13) (.bin .mul (.r 5) (.r 0))),
  .set 14 (.bin .add (.r 14) (.bin .mul (.r 6) (.r 0))),
  .set 15 (.bin .add (.r 15) (.bin .mul (.r 7) (.r 0))),
  .set 16 (.bin .add (.r 16) (.bin .mul (.r 8) (.r 0))),
  .set 17 (.bin .add (.r 17) (.bin .mul (.r 9) (.r 0))),
  .set 1 (.r 9),
  .set 9 (.r 8),
  .set 8 (.r 7),
  .set 7 (.r 6),
  .set 6 (.r 5),
  .set 5 (.r 4),
  .set 4 (.r 3),
  .set 3 (.r 2),
  .set 2 (.bin .add (.bin (.blend 0x33) (.r 1) (.lit 0 0 0 0)) (.un .shuf4E (.r 1))),
  .set 0 (.un (.perm64 0xFA) (.ld 1 0)),
  .set 10 (.bin .add (.r 10) (.bin .mul (.r 2) (.r 0))),
  .set 11 (.bin .add (.r 11) (.bin .mul (.r 3) (.r 0))),
  .set 12 (.bin .add (.r 12) (.bin .mul (.r 4) (.r 0))),
  .set 13 (.bin .add (.r 13) (.bin .mul (.r 5) (.r 0))),
  .set 14 (.bin .add (.r 14) (.bin .mul (.r 6) (.r 0))),
  .set 15 (.bin .add (.r 15) (.bin .mul (.r 7) (.r 0))),
  .set 16 (.bin .add (.r 16) (.bin .mul (.r 8) (.r 0))),
  .set 17 (.bin .add (.r 17) (.bin .mul (.r 9) (.r 0))),
  .set 1 (.r 9),
  .set 9 (.r 8),
  .set 8 (.r 7),
  .set 7 (.r 6),
  .set 6 (.r 5),
  .set 5 (.r 4),
  .set 4 (.r 3),
  .set 3 (.r 2),
  .set 2 (.bin .add (.bin (.blend 0x33) (.r 1) (.lit 0 0 0 0)) (.un .shuf4E (.r 1))),
  .set 0 (.un (.perm64 0x50) (.ld 1 1)),
  .set 10 (.bin .add (.r 10) (.bin .mul (.r 2) (.r 0))),
  .set 11 (.bin .add (.r 11) (.bin .mul (.r 3) (.r 0))),
  .set 12 (.bin .add (.r 12) (.bin .mul (.r 4) (.r 0))),
  .set 13 (.bin .add (.r 13) (.bin .mul (.r 5) (.r 0))),
  .set 14 (.bin .add (.r 14) (.bin .mul (.r 6) (.r 0))),
  .set 15 (.bin .add (.r 15) (.bin .mul (.r 7) (.r 0))),
  .set 16 (.bin .add (.r 16) (.bin .mul (.r 8) (.r 0))),
  .set 17 (.bin .add (.r 17) (.bin .mul (.r 9) (.r 0))),
  .set 1 (.r 9),
  .set 9 (.r 8),
  .set 8 (.r 7),
  .set 7 (.r 6),
  .set 6 (.r 5),
  .set 5 (.r 4),
  .set 4 (.r 3),
  .set 3 (.r 2),
  .set 2 (.bin .add (.bin (.blend 0x33) (.r 1) (.lit 0 0 0 0)) (.un .shuf4E (.r 1))),
  .set 0 (.un (.perm64 0xFA) (.ld 1 1)),
  .set 10 (.bin .add (.r 10) (.bin .mul (.r 2) (.r 0))),
  .set 11 (.bin .add (.r 11) (.bin .mul (.r 3) (.r 0))),
  .set 12 (.bin .add (.r 12) (.bin .mul (.r 4) (.r 0))),
  .set 13 (.bin .add (.r 13) (.bin .mul (.r 5) (.r 0))),
  .set 14 (.bin .add (.r 14) (.bin .mul (.r 6) (.r 0))),
  .set 15 (.bin .add (.r 15) (.bin .mul (.r 7) (.r 0))),
  .set 16 (.bin .add (.r 16) (.bin .mul (.r 8) (.r 0))),
  .set 17 (.bin .add (.r 17) (.bin .mul (.r 9) (.r 0))),
  .set 1 (.r 9),
  .set 9 (.r 8),
  .set 8 (.r 7),
  .set 7 (.r 6),
  .set 6 (.r 5),
  .set 5 (.r 4),
  .set 4 (.r 3),
  .set 3 (.r 2),
  .set 2 (.bin .add (.bin (.blend 0x33) (.r 1) (.lit 0 0 0 0)) (.un .shuf4E (.r 1))),
  .set 0 (.un (.perm64 0x50) (.ld 1 2)),
  .set 10 (.bin .add (.r 10) (.bin .mul (.r 2) (.r 0))),
  .set 11 (.bin .add (.r 11) (.bin .mul (.r 3) (.r 0))),
  .set 12 (.bin .add (.r 12) (.bin .mul (.r 4) (.r 0))),
  .set 13 (.bin .add (.r 13) (.bin .mul (.r 5) (.r 0))),
  .set 14 (.bin .add (.r 14) (.bin .mul (.r 6) (.r 0))),
  .set 15 (.bin .add (.r 15) (.bin .mul (.r 7) (.r 0))),
  .set 16 (.bin .add (.r 16) (.bin .mul (.r 8) (.r 0))),
  .set 17 (.bin .add (.r 17) (.bin .mul (.r 9) (.r 0))),
  .set 1 (.r 9),
  .set 9 (.r 8),
  .set 8 (.r 7),
  .set 7 (.r 6),
  .set 6 (.r 5),
  .set 5 (.r 4),
  .set 4 (.r 3),
  .set 3 (.r 2),
  .set 2 (.bin .add (.bin (.blend 0x33) (.r 1) (.lit 0 0 0 0)) (.un .shuf4E (.r 1))),
  .set 0 (.un (.perm64 0xFA) (.ld 1 2)),
  .set 10 (.bin .add (.r 10) (.bin .mul (.r 2) (.r 0))),
  .set 11 (.bin .add (.r 11) (.bin .mul (.r 3) (.r 0))),
  .set 12 (.bin .add (.r 12) (.bin .mul (.r 4) (.r 0))),
  .set 13 (.bin .add (.r 13) (.bin .mul (.r 5) (.r 0))),
  .set 14 (.bin .add (.r 14) (.bin .mul (.r 6) (.r 0))),
  .set 15 (.bin .add (.r 15) (.bin .mul (.r 7) (.r 0))),
  .set 16 (.bin .add (.r 16) (.bin .mul (.r 8) (.r 0))),
  .set 17 (.bin .add (.r 17) (.bin .mul (.r 9) (.r 0))),
  .set 1 (.r 9),
  .set 9 (.r 8),
  .set 8 (.r 7),
  .set 7 (.r 6),
  .set 6 (.r 5),
  .set 5 (.r 4),
  .set 4 (.r 3),
  .set 3 (.r 2),
  .set 2 (.bin .add (.bin (.blend 0x33) (.r 1) (.lit 0 0 0 0)) (.un .shuf4E (.r 1))),
  .set 0 (.un (.perm64 0x50) (.ld 1 3)),
  .set 10 (.bin .add (.r 10) (.bin .mul (.r 2) (.r 0))),
  .set 11 (.bin .add (.r 11) (.bin .mul (.r 3) (.r 0))),
  .set 12 (.bin .add (.r 12) (.bin .mul (.r 4) (.r 0))),
  .set 13 (.bin .add (.r 13) (.bin .mul (.r 5) (.r 0))),
  .set 14 (.bin .add (.r 14) (.bin .mul (.r 6) (.r 0))),
  .set 15 (.bin .add (.r 15) (.bin .mul (.r 7) (.r 0))),
  .set 16 (.bin .add (.r 16) (.bin .mul (.r 8) (.r 0))),
  .set 17 (.bin .add (.r 17) (.bin .mul (.r 9) (.r 0))),
  .set 1 (.r 9),
  .set 9 (.r 8),
  .set 8 (.r 7),
  .set 7 (.r 6),
  .set 6 (.r 5),
  .set 5 (.r 4),
  .set 4 (.r 3),
  .set 3 (.r 2),
  .set 2 (.bin .add (.bin (.blend 0x33) (.r 1) (.lit 0 0 0 0)) (.un .shuf4E (.r 1))),
  .set 0 (.un (.perm64 0xFA) (.ld 1 3)),
  .set 10 (.bin .add (.r 10) (.bin .mul (.r 2) (.r 0))),
  .set 11 (.bin .add (.r 11) (.bin .mul (.r 3) (.r 0))),
  .set 12 (.bin .add (.r 12) (.bin .mul (.r 4) (.r 0))),
  .set 13 (.bin .add (.r 13) (.bin .mul (.r 5) (.r 0))),
  .set 14 (.bin .add (.r 14) (.bin .mul (.r 6) (.r 0))),
  .set 15 (.bin .add (.r 15) (.bin .mul (.r 7) (.r 0))),
  .set 16 (.bin .add (.r 16) (.bin .mul (.r 8) (.r 0))),
  .set 17 (.bin .add (.r 17) (.bin .mul (.r 9) (.r 0))),
  .set 1 (.r 9),
  .set 9 (.r 8),
  .set 8 (.r 7),
  .set 7 (.r 6),
  .set 6 (.r 5),
  .set 5 (.r 4),
  .set 4 (.r 3),
  .set 3 (.r 2),
  .set 2 (.bin .add (.bin (.blend 0x33) (.r 1) (.lit 0 0 0 0)) (.un .shuf4E (.r 1))),
  .set 26 (.bin .add (.un .extr1 (.r 10)) (.un .extr0 (.r 10))),
  .set 27 (.bin .add (.un .extr1 (.r 11)) (.un .extr0 (.r 11))),
  .set 28 (.bin .add (.un .extr1 (.r 12)) (.un .extr0 (.r 12))),
  .set 29 (.bin .add (.un .extr1 (.r 13)) (.un .extr0 (.r 13))),
  .set 30 (.bin .add (.un .extr1 (.r 14)) (.un .extr0 (.r 14))),
  .set 31 (.bin .add (.un .extr1 (.r 15)) (.un .extr0 (.r 15))),
  .set 32 (.bin .add (.un .extr1 (.r 16)) (.un .extr0 (.r 16))),
  .set 33 (.bin .add (.un .extr1 (.r 17)) (.un .extr0 (.r 17))),
  .st128 0 0 (.r 26),
  .st128 0 1 (.r 27),
  .st128 0 2 (.r 28),
  .st128 0 3 (.r 29),
  .st128 0 4 (.r 30),
  .st128 0 5 (.r 31),
  .st128 0 6 (.r 32),
  .st128 0 7 (.r 33)]⟩

/-- src/eltfp448_1w_redradix.c:653-655 `intmul`; parameters c = 0, a = 1, b = 2. -/
def intmul : Fn := ⟨[4, 4, 4], [0], [], intmul_sb.inl [0, 1, 2] 0⟩

/-- src/eltfp448_1w_redradix.c:657-660 `mul`; parameters c = 0, a = 1, b = 2. -/
def mul : Fn := ⟨[4, 4, 4], [0], [], intmul.inl [0, 1, 2] 0 ++
    compress.inl [0] 0⟩

/-- src/eltfp448_1w_redradix.c:662-664 `sqr`; parameters c = 0. -/
def sqr : Fn := ⟨[4], [0], [], (sqrn 1).inl [0]⟩

/-- src/eltfp448_1w_redradix.c:666-671 `copy`; parameters c = 0, a = 1. -/
def copy : Fn := ⟨[4, 4], [0], [], [
  .st 0 0 (.ld 1 0),
  .st 0 1 (.ld 1 1),
  .st 0 2 (.ld 1 2),
  .st 0 3 (.ld 1 3)]⟩

/-- src/eltfp448_1w_redradix.c:776-781 `zero`; parameters a = 0. -/
def zero : Fn := ⟨[4], [0], [], [
  .st 0 0 (.lit 0 0 0 0),
  .st 0 1 (.lit 0 0 0 0),
  .st 0 2 (.lit 0 0 0 0),
  .st 0 3 (.lit 0 0 0 0)]⟩

/-- src/eltfp448_1w_redradix.c:783-819 `naddsub`; parameters pC = 0, pD = 1, pA = 2, pB = 3. -/
def naddsub : Fn := ⟨[4, 4, 4, 4], [0, 1], [32], [
  .set 0 (.ld 2 0),
  .set 1 (.ld 2 1),
  .set 2 (.ld 2 2),
  .set 3 (.ld 2 3),
  .set 4 (.ld 3 0),
  .set 5 (.ld 3 1),
  .set 6 (.ld 3 2),
  .set 7 (.ld 3 3),
  .set 8 (.bin .sub (.cst 0 0 0x1ffffffe 0x3ffffffc 0x1ffffffe 0x1ffffffc) (.r 0)),
  .set 9 (.bin .sub (.cst 0 1 0x1ffffffe 0x1ffffffe 0x1ffffffe 0x1ffffffe) (.r 1)),
  .set 10 (.bin .sub (.cst 0 2 0x1ffffffe 0x1ffffffe 0x1ffffffe 0x1ffffffe) (.r 2)),
  .set 11 (.bin .sub (.cst 0 3 0x1ffffffe 0x1ffffffe 0x1ffffffe 0x1ffffffe) (.r 3)),
  .set 12 (.bin .sub (.r 8) (.r 4)),
  .set 13 (.bin .sub (.r 9) (.r 5)),
  .set 14 (.bin .sub (.r 10) (.r 6)),
  .set 15 (.bin .sub (.r 11) (.r 7)),
  .set 16 (.bin .add (.r 8) (.r 4)),
  .set 17 (.bin .add (.r 9) (.r 5)),
  .set 18 (.bin .add (.r 10) (.r 6)),
  .set 19 (.bin .add (.r 11) (.r 7)),
  .st 0 0 (.r 12),
  .st 0 1 (.r 13),
  .st 0 2 (.r 14),
  .st 0 3 (.r 15),
  .st 1 0 (.r 16),
  .st 1 1 (.r 17),
  .st 1 2 (.r 18),
  .st 1 3 (.r 19)]⟩

end V1

namespace V2

/-- src/eltfp448_2w_redradix.c:24-29 `copy`; parameters c = 0, a = 1. -/
def copy : Fn := ⟨[8, 8], [0], [], [
  .st 0 0 (.ld 1 0),
  .st 0 1 (.ld 1 1),
  .st 0 2 (.ld 1 2),
  .st 0 3 (.ld 1 3),
  .st 0 4 (.ld 1 4),
  .st 0 5 (.ld 1 5),
  .st 0 6 (.ld 1 6),
  .st 0 7 (.ld 1 7)]⟩

/-- src/eltfp448_2w_redradix.c:31-36 `zero`; parameters c = 0. -/
def zero : Fn := ⟨[8], [0], [], [
  .st 0 0 (.lit 0 0 0 0),
  .st 0 1 (.lit 0 0 0 0),
  .st 0 2 (.lit 0 0 0 0),
  .st 0 3 (.lit 0 0 0 0),
  .st 0 4 (.lit 0 0 0 0),
  .st 0 5 (.lit 0 0 0 0),
  .st 0 6 (.lit 0 0 0 0),
  .st 0 7 (.lit 0 0 0 0)]⟩

/-- src/eltfp448_2w_redradix.c:44-63 `inter`; parameters a = 0, a0 = 1, a1 = 2. -/
def inter : Fn := ⟨[8, 4, 4], [0], [], [
  .set 0 (.ld 1 0),
  .set 1 (.ld 1 1),
  .set 2 (.ld 1 2),
  .set 3 (.ld 1 3),
  .set 4 (.ld 2 0),
  .set 5 (.ld 2 1),
  .set 6 (.ld 2 2),
  .set 7 (.ld 2 3),
  .st 0 0 (.bin (.perm128 0x20) (.r 0) (.r 4)),
  .st 0 1 (.bin (.perm128 0x31) (.r 0) (.r 4)),
  .st 0 2 (.bin (.perm128 0x20) (.r 1) (.r 5)),
  .st 0 3 (.bin (.perm128 0x31) (.r 1) (.r 5)),
  .st 0 4 (.bin (.perm128 0x20) (.r 2) (.r 6)),
  .st 0 5 (.bin (.perm128 0x31) (.r 2) (.r 6)),
  .st 0 6 (.bin (.perm128 0x20) (.r 3) (.r 7)),
  .st 0 7 (.bin (.perm128 0x31) (.r 3) (.r 7))]⟩

/-- src/eltfp448_2w_redradix.c:71-80 `deinter`; parameters a0 = 0, a1 = 1, a = 2. -/
def deinter : Fn := ⟨[4, 4, 8], [0, 1], [], [
  .st 0 0 (.bin (.perm128 0x20) (.ld 2 0) (.ld 2 1)),
  .st 1 0 (.bin (.perm128 0x31) (.ld 2 0) (.ld 2 1)),
  .st 0 1 (.bin (.perm128 0x20) (.ld 2 2) (.ld 2 3)),
  .st 1 1 (.bin (.perm128 0x31) (.ld 2 2) (.ld 2 3)),
  .st 0 2 (.bin (.perm128 0x20) (.ld 2 4) (.ld 2 5)),
  .st 1 2 (.bin (.perm128 0x31) (.ld 2 4) (.ld 2 5)),
  .st 0 3 (.bin (.perm128 0x20) (.ld 2 6) (.ld 2 7)),
  .st 1 3 (.bin (.perm128 0x31) (.ld 2 6) (.ld 2 7))]⟩

/-- src/eltfp448_2w_redradix.c:88-93 `add`; parameters c = 0, a = 1, b = 2. -/
def add : Fn := ⟨[8, 8, 8], [0], [], [
  .st 0 0 (.bin .add (.ld 1 0) (.ld 2 0)),
  .st 0 1 (.bin .add (.ld 1 1) (.ld 2 1)),
  .st 0 2 (.bin .add (.ld 1 2) (.ld 2 2)),
  .st 0 3 (.bin .add (.ld 1 3) (.ld 2 3)),
  .st 0 4 (.bin .add (.ld 1 4) (.ld 2 4)),
  .st 0 5 (.bin .add (.ld 1 5) (.ld 2 5)),
  .st 0 6 (.bin .add (.ld 1 6) (.ld 2 6)),
  .st 0 7 (.bin .add (.ld 1 7) (.ld 2 7))]⟩

/-- src/eltfp448_2w_redradix.c:145-151 `sub`; parameters c = 0, a = 1, b = 2. -/
def sub : Fn := ⟨[8, 8, 8], [0], [32], [
  .st 0 0 (.bin .add (.ld 1 0) (.bin .sub (.cst 0 0 0x1ffffffe 0x3ffffffc 0x1ffffffe 0x3ffffffc) (.ld 2 0))),
  .st 0 1 (.bin .add (.ld 1 1) (.bin .sub (.cst 0 1 0x1ffffffe 0x1ffffffc 0x1ffffffe 0x1ffffffc) (.ld 2 1))),
  .st 0 2 (.bin .add (.ld 1 2) (.bin .sub (.cst 0 2 0x1ffffffe 0x1ffffffe 0x1ffffffe 0x1ffffffe) (.ld 2 2))),
  .st 0 3 (.bin .add (.ld 1 3) (.bin .sub (.cst 0 3 0x1ffffffe 0x1ffffffe 0x1ffffffe 0x1ffffffe) (.ld 2 3))),
  .st 0 4 (.bin .add (.ld 1 4) (.bin .sub (.cst 0 4 0x1ffffffe 0x1ffffffe 0x1ffffffe 0x1ffffffe) (.ld 2 4))),
  .st 0 5 (.bin .add (.ld 1 5) (.bin .sub (.cst 0 5 0x1ffffffe 0x1ffffffe 0x1ffffffe 0x1ffffffe) (.ld 2 5))),
  .st 0 6 (.bin .add (.ld 1 6) (.bin .sub (.cst 0 6 0x1ffffffe 0x1ffffffe 0x1ffffffe 0x1ffffffe) (.ld 2 6))),
  .st 0 7 (.bin .add (.ld 1 7) (.bin .sub (.cst 0 7 0x1ffffffe 0x1ffffffe 0x1ffffffe 0x1ffffffe) (.ld 2 7)))]⟩

/-- src/eltfp448_2w_redradix.c:169-185 `subadd` with `permutation` equal to 0; parameters c = 0, a
= 1. -/
def subadd0 : Fn := ⟨[8, 8], [0], [32], [
  .set 0 (.lit 0 0 0 0),
  .set 1 (.lit 0 0 0 0),
  .set 2 (.un (.perm64 0x4E) (.ld 1 0)),
  .set 0 (.ld 1 0),
  .set 1 (.r 2),
  .st 0 0 (.bin .add (.bin .add (.r 0) (.cst 0 0 0x1ffffffe 0x3ffffffc 0 0)) (.bin .sub (.bin .xor (.r 1) (.lit 0xffffffffffffffff 0xffffffffffffffff 0 0)) (.lit 0xffffffffffffffff 0xffffffffffffffff 0 0))),
  .set 3 (.lit 0 0 0 0),
  .set 4 (.lit 0 0 0 0),
  .set 5 (.un (.perm64 0x4E) (.ld 1 1)),
  .set 3 (.ld 1 1),
  .set 4 (.r 5),
  .st 0 1 (.bin .add (.bin .add (.r 3) (.cst 0 1 0x1ffffffe 0x1ffffffc 0 0)) (.bin .sub (.bin .xor (.r 4) (.lit 0xffffffffffffffff 0xffffffffffffffff 0 0)) (.lit 0xffffffffffffffff 0xffffffffffffffff 0 0))),
  .set 6 (.lit 0 0 0 0),
  .set 7 (.lit 0 0 0 0),
  .set 8 (.un (.perm64 0x4E) (.ld 1 2)),
  .set 6 (.ld 1 2),
  .set 7 (.r 8),
  .st 0 2 (.bin .add (.bin .add (.r 6) (.cst 0 2 0x1ffffffe 0x1ffffffe 0 0)) (.bin .sub (.bin .xor (.r 7) (.lit 0xffffffffffffffff 0xffffffffffffffff 0 0)) (.lit 0xffffffffffffffff 0xffffffffffffffff 0 0))),
  .set 9 (.lit 0 0 0 0),
  .set 10 (.lit 0 0 0 0),
  .set 11 (.un (.perm64 0x4E) (.ld 1 3)),
  .set 9 (.ld 1 3),
  .set 10 (.r 11),
  .st 0 3 (.bin .add (.bin .add (.r 9) (.cst 0 3 0x1ffffffe 0x1ffffffe 0 0)) (.bin .sub (.bin .xor (.r 10) (.lit 0xffffffffffffffff 0xffffffffffffffff 0 0)) (.lit 0xffffffffffffffff 0xffffffffffffffff 0 0))),
  .set 12 (.lit 0 0 0 0),
  .set 13 (.lit 0 0 0 0),
  .set 14 (.un (.perm64 0x4E) (.ld 1 4)),
  .set 12 (.ld 1 4),
  .set 13 (.r 14),
  .st 0 4 (.bin .add (.bin .add (.r 12) (.cst 0 4 0x1ffffffe 0x1ffffffe 0 0)) (.bin .sub (.bin .xor (.r 13) (.lit 0xffffffffffffffff 0xffffffffffffffff 0 0)) (.lit 0xffffffffffffffff 0xffffffffffffffff 0 0))),
  .set 15 (.lit 0 0 0 0),
  .set 16 (.lit 0 0 0 0),
  .set 17 (.un (.perm64 0x4E) (.ld 1 5)),
  .set 15 (.ld 1 5),
  .set 16 (.r 17),
  .st 0 5 (.bin .add (.bin .add (.r 15) (.cst 0 5 0x1ffffffe 0x1ffffffe 0 0)) (.bin .sub (.bin .xor (.r 16) (.lit 0xffffffffffffffff 0xffffffffffffffff 0 0)) (.lit 0xffffffffffffffff 0xffffffffffffffff 0 0))),
  .set 18 (.lit 0 0 0 0),
  .set 19 (.lit 0 0 0 0),
  .set 20 (.un (.perm64 0x4E) (.ld 1 6)),
  .set 18 (.ld 1 6),
  .set 19 (.r 20),
  .st 0 6 (.bin .add (.bin .add (.r 18) (.cst 0 6 0x1ffffffe 0x1ffffffe 0 0)) (.bin .sub (.bin .xor (.r 19) (.lit 0xffffffffffffffff 0xffffffffffffffff 0 0)) (.lit 0xffffffffffffffff 0xffffffffffffffff 0 0))),
  .set 21 (.lit 0 0 0 0),
  .set 22 (.lit 0 0 0 0),
  .set 23 (.un (.perm64 0x4E) (.ld 1 7)),
  .set 21 (.ld 1 7),
  .set 22 (.r 23),
  .st 0 7 (.bin .add (.bin .add (.r 21) (.cst 0 7 0x1ffffffe 0x1ffffffe 0 0)) (.bin .sub (.bin .xor (.r 22) (.lit 0xffffffffffffffff 0xffffffffffffffff 0 0)) (.lit 0xffffffffffffffff 0xffffffffffffffff 0 0)))]⟩

/-- src/eltfp448_2w_redradix.c:169-185 `subadd` with `permutation` equal to 1; parameters c = 0, a
= 1. -/
def subadd1 : Fn := ⟨[8, 8], [0], [32], [
  .set 0 (.lit 0 0 0 0),
  .set 1 (.lit 0 0 0 0),
  .set 2 (.un (.perm64 0x4E) (.ld 1 0)),
  .set 1 (.ld 1 0),
  .set 0 (.r 2),
  .st 0 0 (.bin .add (.bin .add (.r 0) (.cst 0 0 0x1ffffffe 0x3ffffffc 0 0)) (.bin .sub (.bin .xor (.r 1) (.lit 0xffffffffffffffff 0xffffffffffffffff 0 0)) (.lit 0xffffffffffffffff 0xffffffffffffffff 0 0))),
  .set 3 (.lit 0 0 0 0),
  .set 4 (.lit 0 0 0 0),
  .set 5 (.un (.perm64 0x4E) (.ld 1 1)),
  .set 4 (.ld 1 1),
  .set 3 (.r 5),
  .st 0 1 (.bin .add (.bin .add (.r 3) (.cst 0 1 0x1ffffffe 0x1ffffffc 0 0)) (.bin .sub (.bin .xor (.r 4) (.lit 0xffffffffffffffff 0xffffffffffffffff 0 0)) (.lit 0xffffffffffffffff 0xffffffffffffffff 0 0))),
  .set 6 (.lit 0 0 0 0),
  .set 7 (.lit 0 0 0 0),
  .set 8 (.un (.perm64 0x4E) (.ld 1 2)),
  .set 7 (.ld 1 2),
  .set 6 (.r 8),
  .st 0 2 (.bin .add (.bin .add (.r 6) (.cst 0 2 0x1ffffffe 0x1ffffffe 0 0)) (.bin .sub (.bin .xor (.r 7) (.lit 0xffffffffffffffff 0xffffffffffffffff 0 0)) (.lit 0xffffffffffffffff 0xffffffffffffffff 0 0))),
  .set 9 (.lit 0 0 0 0),
  .set 10 (.lit 0 0 0 0),
  .set 11 (.un (.perm64 0x4E) (.ld 1 3)),
  .set 10 (.ld 1 3),
  .set 9 (.r 11),
  .st 0 3 (.bin .add (.bin .add (.r 9) (.cst 0 3 0x1ffffffe 0x1ffffffe 0 0)) (.bin .sub (.bin .xor (.r 10) (.lit 0xffffffffffffffff 0xffffffffffffffff 0 0)) (.lit 0xffffffffffffffff 0xffffffffffffffff 0 0))),
  .set 12 (.lit 0 0 0 0),
  .set 13 (.lit 0 0 0 0),
  .set 14 (.un (.perm64 0x4E) (.ld 1 4)),
  .set 13 (.ld 1 4),
  .set 12 (.r 14),
  .st 0 4 (.bin .add (.bin .add (.r 12) (.cst 0 4 0x1ffffffe 0x1ffffffe 0 0)) (.bin .sub (.bin .xor (.r 13) (.lit 0xffffffffffffffff 0xffffffffffffffff 0 0)) (.lit 0xffffffffffffffff 0xffffffffffffffff 0 0))),
  .set 15 (.lit 0 0 0 0),
  .set 16 (.lit 0 0 0 0),
  .set 17 (.un (.perm64 0x4E) (.ld 1 5)),
  .set 16 (.ld 1 5),
  .set 15 (.r 17),
  .st 0 5 (.bin .add (.bin .add (.r 15) (.cst 0 5 0x1ffffffe 0x1ffffffe 0 0)) (.bin .sub (.bin .xor (.r 16) (.lit 0xffffffffffffffff 0xffffffffffffffff 0 0)) (.lit 0xffffffffffffffff 0xffffffffffffffff 0 0))),
  .set 18 (.lit 0 0 0 0),
  .set 19 (.lit 0 0 0 0),
  .set 20 (.un (.perm64 0x4E) (.ld 1 6)),
  .set 19 (.ld 1 6),
  .set 18 (.r 20),
  .st 0 6 (.bin .add (.bin .add (.r 18) (.cst 0 6 0x1ffffffe 0x1ffffffe 0 0)) (.bin .sub (.bin .xor (.r 19) (.lit 0xffffffffffffffff 0xffffffffffffffff 0 0)) (.lit 0xffffffffffffffff 0xffffffffffffffff 0 0))),
  .set 21 (.lit 0 0 0 0),
  .set 22 (.lit 0 0 0 0),
  .set 23 (.un (.perm64 0x4E) (.ld 1 7)),
  .set 22 (.ld 1 7),
  .set 21 (.r 23),
  .st 0 7 (.bin .add (.bin .add (.r 21) (.cst 0 7 0x1ffffffe 0x1ffffffe 0 0)) (.bin .sub (.bin .xor (.r 22) (.lit 0xffffffffffffffff 0xffffffffffffffff 0 0)) (.lit 0xffffffffffffffff 0xffffffffffffffff 0 0)))]⟩

/-- src/eltfp448_2w_redradix.c:195-202 `ngz`; parameters c = 0, a = 1. -/
def ngz : Fn := ⟨[8, 8], [0], [32], [
  .st 0 0 (.bin .add (.cst 0 0 0x1ffffffe 0x3ffffffc 0 0) (.bin .sub (.bin .xor (.ld 1 0) (.lit 0xffffffffffffffff 0xffffffffffffffff 0 0)) (.lit 0xffffffffffffffff 0xffffffffffffffff 0 0))),
  .st 0 1 (.bin .add (.cst 0 1 0x1ffffffe 0x1ffffffc 0 0) (.bin .sub (.bin .xor (.ld 1 1) (.lit 0xffffffffffffffff 0xffffffffffffffff 0 0)) (.lit 0xffffffffffffffff 0xffffffffffffffff 0 0))),
  .st 0 2 (.bin .add (.cst 0 2 0x1ffffffe 0x1ffffffe 0 0) (.bin .sub (.bin .xor (.ld 1 2) (.lit 0xffffffffffffffff 0xffffffffffffffff 0 0)) (.lit 0xffffffffffffffff 0xffffffffffffffff 0 0))),
  .st 0 3 (.bin .add (.cst 0 3 0x1ffffffe 0x1ffffffe 0 0) (.bin .sub (.bin .xor (.ld 1 3) (.lit 0xffffffffffffffff 0xffffffffffffffff 0 0)) (.lit 0xffffffffffffffff 0xffffffffffffffff 0 0))),
  .st 0 4 (.bin .add (.cst 0 4 0x1ffffffe 0x1ffffffe 0 0) (.bin .sub (.bin .xor (.ld 1 4) (.lit 0xffffffffffffffff 0xffffffffffffffff 0 0)) (.lit 0xffffffffffffffff 0xffffffffffffffff 0 0))),
  .st 0 5 (.bin .add (.cst 0 5 0x1ffffffe 0x1ffffffe 0 0) (.bin .sub (.bin .xor (.ld 1 5) (.lit 0xffffffffffffffff 0xffffffffffffffff 0 0)) (.lit 0xffffffffffffffff 0xffffffffffffffff 0 0))),
  .st 0 6 (.bin .add (.cst 0 6 0x1ffffffe 0x1ffffffe 0 0) (.bin .sub (.bin .xor (.ld 1 6) (.lit 0xffffffffffffffff 0xffffffffffffffff 0 0)) (.lit 0xffffffffffffffff 0xffffffffffffffff 0 0))),
  .st 0 7 (.bin .add (.cst 0 7 0x1ffffffe 0x1ffffffe 0 0) (.bin .sub (.bin .xor (.ld 1 7) (.lit 0xffffffffffffffff 0xffffffffffffffff 0 0)) (.lit 0xffffffffffffffff 0xffffffffffffffff 0 0)))]⟩

/-- src/eltfp448_2w_redradix.c:204-214 `addsub`; parameters a = 0, b = 1. -/
def addsub : Fn := ⟨[8, 8], [0, 1], [32], [
  .set 0 (.bin .add (.ld 0 0) (.ld 1 0)),
  .set 1 (.bin .add (.ld 0 0) (.bin .sub (.cst 0 0 0x1ffffffe 0x3ffffffc 0x1ffffffe 0x3ffffffc) (.ld 1 0))),
  .st 0 0 (.r 0),
  .st 1 0 (.r 1),
  .set 0 (.bin .add (.ld 0 1) (.ld 1 1)),
  .set 1 (.bin .add (.ld 0 1) (.bin .sub (.cst 0 1 0x1ffffffe 0x1ffffffc 0x1ffffffe 0x1ffffffc) (.ld 1 1))),
  .st 0 1 (.r 0),
  .st 1 1 (.r 1),
  .set 0 (.bin .add (.ld 0 2) (.ld 1 2)),
  .set 1 (.bin .add (.ld 0 2) (.bin .sub (.cst 0 2 0x1ffffffe 0x1ffffffe 0x1ffffffe 0x1ffffffe) (.ld 1 2))),
  .st 0 2 (.r 0),
  .st 1 2 (.r 1),
  .set 0 (.bin .add (.ld 0 3) (.ld 1 3)),
  .set 1 (.bin .add (.ld 0 3) (.bin .sub (.cst 0 3 0x1ffffffe 0x1ffffffe 0x1ffffffe 0x1ffffffe) (.ld 1 3))),
  .st 0 3 (.r 0),
  .st 1 3 (.r 1),
  .set 0 (.bin .add (.ld 0 4) (.ld 1 4)),
  .set 1 (.bin .add (.ld 0 4) (.bin .sub (.cst 0 4 0x1ffffffe 0x1ffffffe 0x1ffffffe 0x1ffffffe) (.ld 1 4))),
  .st 0 4 (.r 0),
  .st 1 4 (.r 1),
  .set 0 (.bin .add (.ld 0 5) (.ld 1 5)),
  .set 1 (.bin .add (.ld 0 5) (.bin .sub (.cst 0 5 0x1ffffffe 0x1ffffffe 0x1ffffffe 0x1ffffffe) (.ld 1 5))),
  .st 0 5 (.r 0),
  .st 1 5 (.r 1),
  .set 0 (.bin .add (.ld 0 6) (.ld 1 6)),
  .set 1 (.bin .add (.ld 0 6) (.bin .sub (.cst 0 6 0x1ffffffe 0x1ffffffe 0x1ffffffe 0x1ffffffe) (.ld 1 6))),
  .st 0 6 (.r 0),
  .st 1 6 (.r 1),
  .set 0 (.bin .add (.ld 0 7) (.ld 1 7)),
  .set 1 (.bin .add (.ld 0 7) (.bin .sub (.cst 0 7 0x1ffffffe 0x1ffffffe 0x1ffffffe 0x1ffffffe) (.ld 1 7))),
  .st 0 7 (.r 0),
  .st 1 7 (.r 1)]⟩

/-- src/eltfp448_2w_redradix.c:373-413 `intmul_karat`; parameters C = 0, A = 1, B = 2. -/
def intmul_karat : Fn := ⟨[8, 8, 8], [0], [], [
  .set 0 (.ld 1 0),
  .set 8 (.ld 2 0),
  .set 1 (.ld 1 1),
  .set 9 (.ld 2 1),
  .set 2 (.ld 1 2),
  .set 10 (.ld 2 2),
  .set 3 (.ld 1 3),
  .set 11 (.ld 2 3),
  .set 4 (.ld 1 4),
  .set 12 (.ld 2 4),
  .set 5 (.ld 1 5),
  .set 13 (.ld 2 5),
  .set 6 (.ld 1 6),
  .set 14 (.ld 2 6),
  .set 7 (.ld 1 7),
  .set 15 (.ld 2 7),
  .set 39 (.bin .mul (.r 0) (.r 8)),
  .set 40 (.bin .mul (.r 1) (.r 8)),
  .set 41 (.bin .mul (.r 2) (.r 8)),
  .set 42 (.bin .mul (.r 3) (.r 8)),
  .set 40 (.bin .add (.r 40) (.bin .mul (.r 0) (.r 9))),
  .set 41 (.bin .add (.r 41) (.bin .mul (.r 1) (.r 9))),
  .set 42 (.bin .add (.r 42) (.bin .mul (.r 2) (.r 9))),
  .set 43 (.bin .mul (.r 3) (.r 9)),
  .set 41 (.bin .add (.r 41) (.bin .mul (.r 0) (.r 10))),
  .set 42 (.bin .add (.r 42) (.bin .mul (.r 1) (.r 10))),
  .set 43 (.bin .add (.r 43) (.bin .mul (.r 2) (.r 10))),
  .set 44 (.bin .mul (.r 3) (.r 10)),
  .set 42 (.bin .add (.r 42) (.bin .mul (.r 0) (.r 11))),
  .set 43 (.bin .add (.r 43) (.bin .mul (.r 1) (.r 11))),
  .set 44 (.bin .add (.r 44) (.bin .mul (.r 2) (.r 11))),
  .set 45 (.bin .mul (.r 3) (.r 11)),
  .set 46 (.bin .mul (.r 4) (.r 12)),
  .set 47 (.bin .mul (.r 5) (.r 12)),
  .set 48 (.bin .mul (.r 6) (.r 12)),
  .set 49 (.bin .mul (.r 7) (.r 12)),
  .set 47 (.bin .add (.r 47) (.bin .mul (.r 4) (.r 13))),
  .set 48 (.bin .add (.r 48) (.bin .mul (.r 5) (.r 13))),
  .set 49 (.bin .add (.r 49) (.bin .mul (.r 6) (.r 13))),
  .set 50 (.bin .mul (.r 7) (.r 13)),
  .set 48 (.bin .add (.r 48) (.bin .mul (.r 4) (.r 14))),
  .set 49 (.bin .add (.r 49) (.bin .mul (.r 5) (.r 14))),
  .set 50 (.bin .add (.r 50) (.bin .mul (.r 6) (.r 14))),
  .set 51 (.bin .mul (.r 7) (.r 14)),
  .set 49 (.bin .add (.r 49) (.bin .mul (.r 4) (.r 15))),
  .set 50 (.bin .add (.r 50) (.bin .mul (.r 5) (.r 15))),
  .set 51 (.bin .add (.r 51) (.bin .mul (.r 6) (.r 15))),
  .set 52 (.bin .mul (.r 7) (.r 15)),
  .set 53 (.bin .mul (.bin .add (.r 0) (.r 4)) (.bin .add (.r 8) (.r 12))),
  .set 54 (.bin .mul (.bin .add (.r 1) (.r 5)) (.bin .add (.r 8) (.r 12))),
  .set 55 (.bin .mul (.bin .add (.r 2) (.r 6)) (.bin .add (.r 8) (.r 12))),
  .set 56 (.bin .mul (.bin .add (.r 3) (.r 7)) (.bin .add (.r 8) (.r 12))),
  .set 54 (.bin .add (.r 54) (.bin .mul (.bin .add (.r 0) (.r 4)) (.bin .add (.r 9) (.r 13)))),
  .set 55 (.bin .add (.r 55) (.bin .mul (.bin .add (.r 1) (.r 5)) (.bin .add (.r 9) (.r 13)))),
  .set 56 (.bin .add (.r 56) (.bin .mul (.bin .add (.r 2) (.r 6)) (.bin .add (.r 9) (.r 13)))),
  .set 57 (.bin .mul (.bin .add (.r 3) (.r 7)) (.bin .add (.r 9) (.r 13))),
  .set 55 (.bin .add (.r 55) (.bin .mul (.bin .add (.r 0) (.r 4)) (.bin .add (.r 10) (.r 14)))),
  .set 56 (.bin .add (.r 56) (.bin .mul (.bin .add (.r 1) (.r 5)) (.bin .add (.r 10) (.r 14)))),
  .set 57 (.bin .add (.r 57) (.bin .mul (.bin .add (.r 2) (.r 6)) (.bin .add (.r 10) (.r 14)))),
  .set 58 (.bin .mul (.bin .add (.r 3) (.r 7)) (.bin .add (.r 10) (.r 14))),
  .set 56 (.bin .add (.r 56) (.bin .mul (.bin .add (.r 0) (.r 4)) (.bin .add (.r 11) (.r 15)))),
  .set 57 (.bin .add (.r 57) (.bin .mul (.bin .add (.r 1) (.r 5)) (.bin .add (.r 11) (.r 15)))),
  .set 58 (.bin .add (.r 58) (.bin .mul (.bin .add (.r 2) (.r 6)) (.bin .add (.r 11) (.r 15)))),
  .set 59 (.bin .mul (.bin .add (.r 3) (.r 7)) (.bin .add (.r 11) (.r 15))),
  .set 60 (.bin .sub (.r 43) (.r 46)),
  .set 61 (.bin .sub (.r 44) (.r 47)),
  .set 62 (.bin .sub (.r 45) (.r 48)),
  .set 16 (.r 39),
  .set 24 (.bin .sub (.bin .sub (.r 57) (.r 50)) (.r 60)),
  .set 17 (.r 40),
  .set 25 (.bin .sub (.bin .sub (.r 58) (.r 51)) (.r 61)),
  .set 18 (.r 41),
  .set 26 (.bin .sub (.bin .sub (.r 59) (.r 52)) (.r 62)),
  .set 19 (.r 42),
  .set 27 (.r 49),
  .set 20 (.bin .add (.r 60) (.bin .sub (.r 53) (.r 39))),
  .set 28 (.r 50),
  .set 21 (.bin .add (.r 61) (.bin .sub (.r 54) (.r 40))),
  .set 29 (.r 51),
  .set 22 (.bin .add (.r 62) (.bin .sub (.r 55) (.r 41))),
  .set 30 (.r 52),
  .set 23 (.bin .sub (.bin .sub (.r 56) (.r 42)) (.r 49)),
  .set 63 (.bin .add (.bin .upkl (.r 0) (.r 4)) (.bin .upkh (.r 0) (.r 4))),
  .set 64 (.bin .add (.bin .upkl (.r 1) (.r 5)) (.bin .upkh (.r 1) (.r 5))),
  .set 65 (.bin .add (.bin .upkl (.r 2) (.r 6)) (.bin .upkh (.r 2) (.r 6))),
  .set 66 (.bin .add (.bin .upkl (.r 3) (.r 7)) (.bin .upkh (.r 3) (.r 7))),
  .set 67 (.bin .add (.bin .upkl (.r 8) (.r 12)) (.bin .upkh (.r 8) (.r 12))),
  .set 68 (.bin .add (.bin .upkl (.r 9) (.r 13)) (.bin .upkh (.r 9) (.r 13))),
  .set 69 (.bin .add (.bin .upkl (.r 10) (.r 14)) (.bin .upkh (.r 10) (.r 14))),
  .set 70 (.bin .add (.bin .upkl (.r 11) (.r 15)) (.bin .upkh (.r 11) (.r 15))),
  .set 71 (.bin .mul (.r 63) (.r 67)),
  .set 72 (.bin .mul (.r 64) (.r 67)),
  .set 73 (.bin .mul (.r 65) (.r 67)),
  .set 74 (.bin .mul (.r 66) (.r 67)),
  .set 72 (.bin .add (.r 72) (.bin .mul (.r 63) (.r 68))),
  .set 73 (.bin .add (.r 73) (.bin .mul (.r 64) (.r 68))),
  .set 74 (.bin .add (.r 74) (.bin .mul (.r 65) (.r 68))),
  .set 75 (.bin .mul (.r 66) (.r 68)),
  .set 73 (.bin .add (.r 73) (.bin .mul (.r 63) (.r 69))),
  .set 74 (.bin .add (.r 74) (.bin .mul (.r 64) (.r 69))),
  .set 75 (.bin .add (.r 75) (.bin .mul (.r 65) (.r 69))),
  .set 76 (.bin .mul (.r 66) (.r 69)),
  .set 74 (.bin .add (.r 74) (.bin .mul (.r 63) (.r 70))),
  .set 75 (.bin .add (.r 75) (.bin .mul (.r 64) (.r 70))),
  .set 76 (.bin .add (.r 76) (.bin .mul (.r 65) (.r 70))),
  .set 77 (.bin .mul (.r 66) (.r 70)),
  .set 85 (.bin .add (.r 63) (.un .shuf4E (.r 63))),
  .set 86 (.bin .add (.r 67) (.un .shuf4E (.r 67))),
  .set 87 (.bin .add (.r 64) (.un .shuf4E (.r 64))),
  .set 88 (.bin .add (.r 68) (.un .shuf4E (.r 68))),
  .set 89 (.bin .add (.r 65) (.un .shuf4E (.r 65))),
  .set 90 (.bin .add (.r 69) (.un .shuf4E (.r 69))),
  .set 91 (.bin .add (.r 66) (.un .shuf4E (.r 66))),
  .set 92 (.bin .add (.r 70) (.un .shuf4E (.r 70))),
  .set 78 (.bin .mul (.r 85) (.r 86)),
  .set 79 (.bin .mul (.r 87) (.r 86)),
  .set 80 (.bin .mul (.r 89) (.r 86)),
  .set 81 (.bin .mul (.r 91) (.r 86)),
  .set 79 (.bin .add (.r 79) (.bin .mul (.r 85) (.r 88))),
  .set 80 (.bin .add (.r 80) (.bin .mul (.r 87) (.r 88))),
  .set 81 (.bin .add (.r 81) (.bin .mul (.r 89) (.r 88))),
  .set 82 (.bin .mul (.r 91) (.r 88)),
  .set 80 (.bin .add (.r 80) (.bin .mul (.r 85) (.r 90))),
  .set 81 (.bin .add (.r 81) (.bin .mul (.r 87) (.r 90))),
  .set 82 (.bin .add (.r 82) (.bin .mul (.r 89) (.r 90))),
  .set 83 (.bin .mul (.r 91) (.r 90)),
  .set 81 (.bin .add (.r 81) (.bin .mul (.r 85) (.r 92))),
  .set 82 (.bin .add (.r 82) (.bin .mul (.r 87) (.r 92))),
  .set 83 (.bin .add (.r 83) (.bin .mul (.r 89) (.r 92))),
  .set 84 (.bin .mul (.r 91) (.r 92)),
  .set 31 (.bin .add (.r 71) (.bin (.blend 0x33) (.bin .sub (.r 82) (.bin .add (.r 75) (.un .shuf4E (.r 75)))) (.lit 0 0 0 0))),
  .set 32 (.bin .add (.r 72) (.bin (.blend 0x33) (.bin .sub (.r 83) (.bin .add (.r 76) (.un .shuf4E (.r 76)))) (.lit 0 0 0 0))),
  .set 33 (.bin .add (.r 73) (.bin (.blend 0x33) (.bin .sub (.r 84) (.bin .add (.r 77) (.un .shuf4E (.r 77)))) (.lit 0 0 0 0))),
  .set 34 (.r 74),
  .set 35 (.bin .add (.r 75) (.bin (.blend 0xCC) (.bin .sub (.r 78) (.bin .add (.r 71) (.un .shuf4E (.r 71)))) (.lit 0 0 0 0))),
  .set 36 (.bin .add (.r 76) (.bin (.blend 0xCC) (.bin .sub (.r 79) (.bin .add (.r 72) (.un .shuf4E (.r 72)))) (.lit 0 0 0 0))),
  .set 37 (.bin .add (.r 77) (.bin (.blend 0xCC) (.bin .sub (.r 80) (.bin .add (.r 73) (.un .shuf4E (.r 73)))) (.lit 0 0 0 0))),
  .set 38 (.bin (.blend 0xCC) (.bin .sub (.r 81) (.bin .add (.r 74) (.un .shuf4E (.r 74)))) (.lit 0 0 0 0)),
  .set 93 (.bin .upkl (.r 16) (.r 24)),
  .set 94 (.bin .upkh (.r 16) (.r 24)),
  .set 95 (.bin (.blend 0xCC) (.r 16) (.r 31)),
  .st 0 0 (.bin .add (.bin .add (.un .shuf4E (.bin .sub (.r 31) (.r 93))) (.r 94)) (.r 95)),
  .set 96 (.bin .upkl (.r 17) (.r 25)),
  .set 97 (.bin .upkh (.r 17) (.r 25)),
  .set 98 (.bin (.blend 0xCC) (.r 17) (.r 32)),
  .st 0 1 (.bin .add (.bin .add (.un .shuf4E (.bin .sub (.r 32) (.r 96))) (.r 97)) (.r 98)),
  .set 99 (.bin .upkl (.r 18) (.r 26)),
  .set 100 (.bin .upkh (.r 18) (.r 26)),
  .set 101 (.bin (.blend 0xCC) (.r 18) (.r 33)),
  .st 0 2 (.bin .add (.bin .add (.un .shuf4E (.bin .sub (.r 33) (.r 99))) (.r 100)) (.r 101)),
  .set 102 (.bin .upkl (.r 19) (.r 27)),
  .set 103 (.bin .upkh (.r 19) (.r 27)),
  .set 104 (.bin (.blend 0xCC) (.r 19) (.r 34)),
  .st 0 3 (.bin .add (.bin .add (.un .shuf4E (.bin .sub (.r 34) (.r 102))) (.r 103)) (.r 104)),
  .set 105 (.bin .upkl (.r 20) (.r 28)),
  .set 106 (.bin .upkh (.r 20) (.r 28)),
  .set 107 (.bin (.blend 0xCC) (.r 20) (.r 35)),
  .st 0 4 (.bin .add (.bin .add (.un .shuf4E (.bin .sub (.r 35) (.r 105))) (.r 106)) (.r 107)),
  .set 108 (.bin .upkl (.r 21) (.r 29)),
  .set 109 (.bin .upkh (.r 21) (.r 29)),
  .set 110 (.bin (.blend 0xCC) (.r 21) (.r 36)),
  .st 0 5 (.bin .add (.bin .add (.un .shuf4E (.bin .sub (.r 36) (.r 108))) (.r 109)) (.r 110)),
  .set 111 (.bin .upkl (.r 22) (.r 30)),
  .set 112 (.bin .upkh (.r 22) (.r 30)),
  .set 113 (.bin (.blend 0xCC) (.r 22) (.r 37)),
  .st 0 6 (.bin .add (.bin .add (.un .shuf4E (.bin .sub (.r 37) (.r 111))) (.r 112)) (.r 113)),
  .set 114 (.bin .upkl (.r 23) (.lit 0 0 0 0)),
  .set 115 (.bin .upkh (.r 23) (.lit 0 0 0 0)),
  .set 116 (.bin (.blend 0xCC) (.r 23) (.r 38)),
  .st 0 7 (.bin .add (.bin .add (.un .shuf4E (.bin .sub (.r 38) (.r 114))) (.r 115)) (.r 116))]⟩

/-- src/eltfp448_2w_redradix.c:415-417 `intmul`; parameters c = 0, a = 1, b = 2. -/
def intmul : Fn := ⟨[8, 8, 8], [0], [], intmul_karat.inl [0, 1, 2] 0⟩

/-- src/eltfp448_2w_redradix.c:419-452 `intsqr_karat`; parameters C = 0. -/
def intsqr_karat : Fn := ⟨[8], [0], [], [
  .set 0 (.ld 0 0),
  .set 1 (.ld 0 1),
  .set 2 (.ld 0 2),
  .set 3 (.ld 0 3),
  .set 4 (.ld 0 4),
  .set 5 (.ld 0 5),
  .set 6 (.ld 0 6),
  .set 7 (.ld 0 7),
  .set 52 (.bin .mul (.r 0) (.r 2)),
  .set 53 (.bin .mul (.r 1) (.r 3)),
  .set 31 (.bin .mul (.r 0) (.r 0)),
  .set 32 (.bin .mul (.r 0) (.r 1)),
  .set 32 (.bin .add (.r 32) (.r 32)),
  .set 33 (.bin .mul (.r 1) (.r 1)),
  .set 33 (.bin .add (.r 33) (.bin .add (.r 52) (.r 52))),
  .set 34 (.bin .mul (.r 0) (.r 3)),
  .set 34 (.bin .add (.r 34) (.bin .mul (.r 1) (.r 2))),
  .set 34 (.bin .add (.r 34) (.r 34)),
  .set 35 (.bin .mul (.r 2) (.r 2)),
  .set 35 (.bin .add (.r 35) (.bin .add (.r 53) (.r 53))),
  .set 36 (.bin .mul (.r 2) (.r 3)),
  .set 36 (.bin .add (.r 36) (.r 36)),
  .set 37 (.bin .mul (.r 3) (.r 3)),
  .set 54 (.bin .mul (.r 4) (.r 6)),
  .set 55 (.bin .mul (.r 5) (.r 7)),
  .set 38 (.bin .mul (.r 4) (.r 4)),
  .set 39 (.bin .mul (.r 4) (.r 5)),
  .set 39 (.bin .add (.r 39) (.r 39)),
  .set 40 (.bin .mul (.r 5) (.r 5)),
  .set 40 (.bin .add (.r 40) (.bin .add (.r 54) (.r 54))),
  .set 41 (.bin .mul (.r 4) (.r 7)),
  .set 41 (.bin .add (.r 41) (.bin .mul (.r 5) (.r 6))),
  .set 41 (.bin .add (.r 41) (.r 41)),
  .set 42 (.bin .mul (.r 6) (.r 6)),
  .set 42 (.bin .add (.r 42) (.bin .add (.r 55) (.r 55))),
  .set 43 (.bin .mul (.r 6) (.r 7)),
  .set 43 (.bin .add (.r 43) (.r 43)),
  .set 44 (.bin .mul (.r 7) (.r 7)),
  .set 56 (.bin .mul (.bin .add (.r 0) (.r 4)) (.bin .add (.r 2) (.r 6))),
  .set 57 (.bin .mul (.bin .add (.r 1) (.r 5)) (.bin .add (.r 3) (.r 7))),
  .set 45 (.bin .mul (.bin .add (.r 0) (.r 4)) (.bin .add (.r 0) (.r 4))),
  .set 46 (.bin .mul (.bin .add (.r 0) (.r 4)) (.bin .add (.r 1) (.r 5))),
  .set 46 (.bin .add (.r 46) (.r 46)),
  .set 47 (.bin .mul (.bin .add (.r 1) (.r 5)) (.bin .add (.r 1) (.r 5))),
  .set 47 (.bin .add (.r 47) (.bin .add (.r 56) (.r 56))),
  .set 48 (.bin .mul (.bin .add (.r 0) (.r 4)) (.bin .add (.r 3) (.r 7))),
  .set 48 (.bin .add (.r 48) (.bin .mul (.bin .add (.r 1) (.r 5)) (.bin .add (.r 2) (.r 6)))),
  .set 48 (.bin .add (.r 48) (.r 48)),
  .set 49 (.bin .mul (.bin .add (.r 2) (.r 6)) (.bin .add (.r 2) (.r 6))),
  .set 49 (.bin .add (.r 49) (.bin .add (.r 57) (.r 57))),
  .set 50 (.bin .mul (.bin .add (.r 2) (.r 6)) (.bin .add (.r 3) (.r 7))),
  .set 50 (.bin .add (.r 50) (.r 50)),
  .set 51 (.bin .mul (.bin .add (.r 3) (.r 7)) (.bin .add (.r 3) (.r 7))),
  .set 58 (.bin .sub (.r 35) (.r 38)),
  .set 59 (.bin .sub (.r 36) (.r 39)),
  .set 60 (.bin .sub (.r 37) (.r 40)),
  .set 8 (.r 31),
  .set 16 (.bin .sub (.bin .sub (.r 49) (.r 42)) (.r 58)),
  .set 9 (.r 32),
  .set 17 (.bin .sub (.bin .sub (.r 50) (.r 43)) (.r 59)),
  .set 10 (.r 33),
  .set 18 (.bin .sub (.bin .sub (.r 51) (.r 44)) (.r 60)),
  .set 11 (.r 34),
  .set 19 (.r 41),
  .set 12 (.bin .add (.r 58) (.bin .sub (.r 45) (.r 31))),
  .set 20 (.r 42),
  .set 13 (.bin .add (.r 59) (.bin .sub (.r 46) (.r 32))),
  .set 21 (.r 43),
  .set 14 (.bin .add (.r 60) (.bin .sub (.r 47) (.r 33))),
  .set 22 (.r 44),
  .set 15 (.bin .sub (.bin .sub (.r 48) (.r 34)) (.r 41)),
  .set 61 (.bin .add (.bin .upkl (.r 0) (.r 4)) (.bin .upkh (.r 0) (.r 4))),
  .set 62 (.bin .add (.bin .upkl (.r 1) (.r 5)) (.bin .upkh (.r 1) (.r 5))),
  .set 63 (.bin .add (.bin .upkl (.r 2) (.r 6)) (.bin .upkh (.r 2) (.r 6))),
  .set 64 (.bin .add (.bin .upkl (.r 3) (.r 7)) (.bin .upkh (.r 3) (.r 7))),
  .set 79 (.bin .mul (.r 61) (.r 63)),
  .set 80 (.bin .mul (.r 62) (.r 64)),
  .set 65 (.bin .mul (.r 61) (.r 61)),
  .set 66 (.bin .mul (.r 61) (.r 62)),
  .set 66 (.bin .add (.r 66) (.r 66)),
  .set 67 (.bin .mul (.r 62) (.r 62)),
  .set 67 (.bin .add (.r 67) (.bin .add (.r 79) (.r 79))),
  .set 68 (.bin .mul (.r 61) (.r 64)),
  .set 68 (.bin .add (.r 68) (.bin .mul (.r 62) (.r 63))),
  .set 68 (.bin .add (.r 68) (.r 68)),
  .set 69 (.bin .mul (.r 63) (.r 63)),
  .set 69 (.bin .add (.r 69) (.bin .add (.r 80) (.r 80))),
  .set 70 (.bin .mul (.r 63) (.r 64)),
  .set 70 (.bin .add (.r 70) (.r 70)),
  .set 71 (.bin .mul (.r 64) (.r 64)),
  .set 81 (.bin .add (.r 61) (.un .shuf4E (.r 61))),
  .set 82 (.bin .add (.r 62) (.un .shuf4E (.r 62))),
  .set 83 (.bin .add (.r 63) (.un .shuf4E (.r 63))),
  .set 84 (.bin .add (.r 64) (.un .shuf4E (.r 64))),
  .set 85 (.bin .mul (.r 81) (.r 83)),
  .set 86 (.bin .mul (.r 82) (.r 84)),
  .set 72 (.bin .mul (.r 81) (.r 81)),
  .set 73 (.bin .mul (.r 81) (.r 82)),
  .set 73 (.bin .add (.r 73) (.r 73)),
  .set 74 (.bin .mul (.r 82) (.r 82)),
  .set 74 (.bin .add (.r 74) (.bin .add (.r 85) (.r 85))),
  .set 75 (.bin .mul (.r 81) (.r 84)),
  .set 75 (.bin .add (.r 75) (.bin .mul (.r 82) (.r 83))),
  .set 75 (.bin .add (.r 75) (.r 75)),
  .set 76 (.bin .mul (.r 83) (.r 83)),
  .set 76 (.bin .add (.r 76) (.bin .add (.r 86) (.r 86))),
  .set 77 (.bin .mul (.r 83) (.r 84)),
  .set 77 (.bin .add (.r 77) (.r 77)),
  .set 78 (.bin .mul (.r 84) (.r 84)),
  .set 23 (.bin .add (.r 65) (.bin (.blend 0x33) (.bin .sub (.r 76) (.bin .add (.r 69) (.un .shuf4E (.r 69)))) (.lit 0 0 0 0))),
  .set 24 (.bin .add (.r 66) (.bin (.blend 0x33) (.bin .sub (.r 77) (.bin .add (.r 70) (.un .shuf4E (.r 70)))) (.lit 0 0 0 0))),
  .set 25 (.bin .add (.r 67) (.bin (.blend 0x33) (.bin .sub (.r 78) (.bin .add (.r 71) (.un .shuf4E (.r 71)))) (.lit 0 0 0 0))),
  .set 26 (.r 68),
  .set 27 (.bin .add (.r 69) (.bin (.blend 0xCC) (.bin .sub (.r 72) (.bin .add (.r 65) (.un .shuf4E (.r 65)))) (.lit 0 0 0 0))),
  .set 28 (.bin .add (.r 70) (.bin (.blend 0xCC) (.bin .sub (.r 73) (.bin .add (.r 66) (.un .shuf4E (.r 66)))) (.lit 0 0 0 0))),
  .set 29 (.bin .add (.r 71) (.bin (.blend 0xCC) (.bin .sub (.r 74) (.bin .add (.r 67) (.un .shuf4E (.r 67)))) (.lit 0 0 0 0))),
  .set 30 (.bin (.blend 0xCC) (.bin .sub (.r 75) (.bin .add (.r 68) (.un .shuf4E (.r 68)))) (.lit 0 0 0 0)),
  .set 87 (.bin .upkl (.r 8) (.r 16)),
  .set 88 (.bin .upkh (.r 8) (.r 16)),
  .set 89 (.bin (.blend 0xCC) (.r 8) (.r 23)),
  .st 0 0 (.bin .add (.bin .add (.un .shuf4E (.bin .sub (.r 23) (.r 87))) (.r 88)) (.r 89)),
  .set 90 (.bin .upkl (.r 9) (.r 17)),
  .set 91 (.bin .upkh (.r 9) (.r 17)),
  .set 92 (.bin (.blend 0xCC) (.r 9) (.r 24)),
  .st 0 1 (.bin .add (.bin .add (.un .shuf4E (.bin .sub (.r 24) (.r 90))) (.r 91)) (.r 92)),
  .set 93 (.bin .upkl (.r 10) (.r 18)),
  .set 94 (.bin .upkh (.r 10) (.r 18)),
  .set 95 (.bin (.blend 0xCC) (.r 10) (.r 25)),
  .st 0 2 (.bin .add (.bin .add (.un .shuf4E (.bin .sub (.r 25) (.r 93))) (.r 94)) (.r 95)),
  .set 96 (.bin .upkl (.r 11) (.r 19)),
  .set 97 (.bin .upkh (.r 11) (.r 19)),
  .set 98 (.bin (.blend 0xCC) (.r 11) (.r 26)),
  .st 0 3 (.bin .add (.bin .add (.un .shuf4E (.bin .sub (.r 26) (.r 96))) (.r 97)) (.r 98)),
  .set 99 (.bin .upkl (.r 12) (.r 20)),
  .set 100 (.bin .upkh (.r 12) (.r 20)),
  .set 101 (.bin (.blend 0xCC) (.r 12) (.r 27)),
  .st 0 4 (.bin .add (.bin .add (.un .shuf4E (.bin .sub (.r 27) (.r 99))) (.r 100)) (.r 101)),
  .set 102 (.bin .upkl (.r 13) (.r 21)),
  .set 103 (.bin .upkh (.r 13) (.r 21)),
  .set 104 (.bin (.blend 0xCC) (.r 13) (.r 28)),
  .st 0 5 (.bin .add (.bin .add (.un .shuf4E (.bin .sub (.r 28) (.r 102))) (.r 103)) (.r 104)),
  .set 105 (.bin .upkl (.r 14) (.r 22)),
  .set 106 (.bin .upkh (.r 14) (.r 22)),
  .set 107 (.bin (.blend 0xCC) (.r 14) (.r 29)),
  .st 0 6 (.bin .add (.bin .add (.un .shuf4E (.bin .sub (.r 29) (.r 105))) (.r 106)) (.r 107)),
  .set 108 (.bin .upkl (.r 15) (.lit 0 0 0 0)),
  .set 109 (.bin .upkh (.r 15) (.lit 0 0 0 0)),
  .set 110 (.bin (.blend 0xCC) (.r 15) (.r 30)),
  .st 0 7 (.bin .add (.bin .add (.un .shuf4E (.bin .sub (.r 30) (.r 108))) (.r 109)) (.r 110))]⟩

/-- src/eltfp448_2w_redradix.c:454-456 `intsqr`; parameters c = 0. -/
def intsqr : Fn := ⟨[8], [0], [], intsqr_karat.inl [0] 0⟩

/-- src/eltfp448_2w_redradix.c:466-533 `compress`; parameters C = 0. -/
def compress : Fn := ⟨[8], [0], [], [
  .set 0 (.ld 0 0),
  .set 1 (.ld 0 1),
  .set 2 (.ld 0 2),
  .set 3 (.ld 0 3),
  .set 4 (.ld 0 4),
  .set 5 (.ld 0 5),
  .set 6 (.ld 0 6),
  .set 7 (.ld 0 7),
  .set 8 (.un (.shr 28) (.r 0)),
  .set 0 (.bin .and (.r 0) (.lit 0xfffffff 0xfffffff 0xfffffff 0xfffffff)),
  .set 1 (.bin .add (.r 1) (.r 8)),
  .set 9 (.un (.shr 28) (.r 1)),
  .set 1 (.bin .and (.r 1) (.lit 0xfffffff 0xfffffff 0xfffffff 0xfffffff)),
  .set 2 (.bin .add (.r 2) (.r 9)),
  .set 10 (.un (.shr 28) (.r 2)),
  .set 2 (.bin .and (.r 2) (.lit 0xfffffff 0xfffffff 0xfffffff 0xfffffff)),
  .set 3 (.bin .add (.r 3) (.r 10)),
  .set 11 (.un (.shr 28) (.r 3)),
  .set 3 (.bin .and (.r 3) (.lit 0xfffffff 0xfffffff 0xfffffff 0xfffffff)),
  .set 4 (.bin .add (.r 4) (.r 11)),
  .set 12 (.un (.shr 28) (.r 4)),
  .set 4 (.bin .and (.r 4) (.lit 0xfffffff 0xfffffff 0xfffffff 0xfffffff)),
  .set 5 (.bin .add (.r 5) (.r 12)),
  .set 13 (.un (.shr 28) (.r 5)),
  .set 5 (.bin .and (.r 5) (.lit 0xfffffff 0xfffffff 0xfffffff 0xfffffff)),
  .set 6 (.bin .add (.r 6) (.r 13)),
  .set 14 (.un (.shr 28) (.r 6)),
  .set 6 (.bin .and (.r 6) (.lit 0xfffffff 0xfffffff 0xfffffff 0xfffffff)),
  .set 7 (.bin .add (.r 7) (.r 14)),
  .set 15 (.un (.shr 28) (.r 7)),
  .set 7 (.bin .and (.r 7) (.lit 0xfffffff 0xfffffff 0xfffffff 0xfffffff)),
  .set 0 (.bin .add (.r 0) (.bin (.blend 0x33) (.r 15) (.lit 0 0 0 0))),
  .set 0 (.bin .add (.r 0) (.un .shuf4E (.r 15))),
  .set 8 (.un (.shr 28) (.r 0)),
  .set 0 (.bin .and (.r 0) (.lit 0xfffffff 0xfffffff 0xfffffff 0xfffffff)),
  .set 1 (.bin .add (.r 1) (.r 8)),
  .st 0 0 (.r 0),
  .st 0 1 (.r 1),
  .st 0 2 (.r 2),
  .st 0 3 (.r 3),
  .st 0 4 (.r 4),
  .st 0 5 (.r 5),
  .st 0 6 (.r 6),
  .st 0 7 (.r 7)]⟩

/-- src/eltfp448_2w_redradix.c:535-604 `compress2`; parameters C = 0, D = 1. -/
def compress2 : Fn := ⟨[8, 8], [0, 1], [], [
  .set 0 (.ld 0 0),
  .set 1 (.ld 1 0),
  .set 2 (.ld 0 1),
  .set 3 (.ld 1 1),
  .set 4 (.ld 0 2),
  .set 5 (.ld 1 2),
  .set 6 (.ld 0 3),
  .set 7 (.ld 1 3),
  .set 8 (.ld 0 4),
  .set 9 (.ld 1 4),
  .set 10 (.ld 0 5),
  .set 11 (.ld 1 5),
  .set 12 (.ld 0 6),
  .set 13 (.ld 1 6),
  .set 14 (.ld 0 7),
  .set 15 (.ld 1 7),
  .set 16 (.un (.shr 28) (.r 0)),
  .set 18 (.un (.shr 28) (.r 1)),
  .set 0 (.bin .and (.r 0) (.lit 0xfffffff 0xfffffff 0xfffffff 0xfffffff)),
  .set 1 (.bin .and (.r 1) (.lit 0xfffffff 0xfffffff 0xfffffff 0xfffffff)),
  .set 2 (.bin .add (.r 2) (.r 16)),
  .set 3 (.bin .add (.r 3) (.r 18)),
  .set 17 (.un (.shr 28) (.r 2)),
  .set 19 (.un (.shr 28) (.r 3)),
  .set 2 (.bin .and (.r 2) (.lit 0xfffffff 0xfffffff 0xfffffff 0xfffffff)),
  .set 3 (.bin .and (.r 3) (.lit 0xfffffff 0xfffffff 0xfffffff 0xfffffff)),
  .set 4 (.bin .add (.r 4) (.r 17)),
  .set 5 (.bin .add (.r 5) (.r 19)),
  .set 20 (.un (.shr 28) (.r 4)),
  .set 22 (.un (.shr 28) (.r 5)),
  .set 4 (.bin .and (.r 4) (.lit 0xfffffff 0xfffffff 0xfffffff 0xfffffff)),
  .set 5 (.bin .and (.r 5) (.lit 0xfffffff 0xfffffff 0xfffffff 0xfffffff)),
  .set 6 (.bin .add (.r 6) (.r 20)),
  .set 7 (.bin .add (.r 7) (.r 22)),
  .set 21 (.un (.shr 28) (.r 6)),
  .set 23 (.un (.shr 28) (.r 7)),
  .set 6 (.bin .and (.r 6) (.lit 0xfffffff 0xfffffff 0xfffffff 0xfffffff)),
  .set 7 (.bin .and (.r 7) (.lit 0xfffffff 0xfffffff 0xfffffff 0xfffffff)),
  .set 8 (.bin .add (.r 8) (.r 21)),
  .set 9 (.bin .add (.r 9) (.r 23)),
  .set 24 (.un (.shr 28) (.r 8)),
  .set 26 (.un (.shr 28) (.r 9)),
  .set 8 (.bin .and (.r 8) (.lit 0xfffffff 0xfffffff 0xfffffff 0xfffffff)),
  .set 9 (.bin .and (.r 9) (.lit 0xfffffff 0xfffffff 0xfffffff 0xfffffff)),
  .set 10 (.bin .add (.r 10) (.r 24)),
  .set 11 (.bin .add (.r 11) (.r 26)),
  .set 25 (.un (.shr 28) (.r 10)),
  .set 27 (.un (.shr 28) (.r 11)),
  .set 10 (.bin .and (.r 10) (.lit 0xfffffff 0xfffffff 0xfffffff 0xfffffff)),
  .set 11 (.bin .and (.r 11) (.lit 0xfffffff 0xfffffff 0xfffffff 0xfffffff)),
  .set 12 (.bin .add (.r 12) (.r 25)),
  .set 13 (.bin .add (.r 13) (.r 27)),
  .set 28 (.un (.shr 28) (.r 12)),
  .set 30 (.un (.shr 28) (.r 13)),
  .set 12 (.bin .and (.r 12) (.lit 0xfffffff 0xfffffff 0xfffffff 0xfffffff)),
  .set 13 (.bin .and (.r 13) (.lit 0xfffffff 0xfffffff 0xfffffff 0xfffffff)),
  .set 14 (.bin .add (.r 14) (.r 28)),
  .set 15 (.bin .add (.r 15) (.r 30)),
  .set 29 (.un (.shr 28) (.r 14)),
  .set 31 (.un (.shr 28) (.r 15)),
  .set 14 (.bin .and (.r 14) (.lit 0xfffffff 0xfffffff 0xfffffff 0xfffffff)),
  .set 15 (.bin .and (.r 15) (.lit 0xfffffff 0xfffffff 0xfffffff 0xfffffff)),
  .set 0 (.bin .add (.r 0) (.bin (.blend 0x33) (.r 29) (.lit 0 0 0 0))),
  .set 1 (.bin .add (.r 1) (.bin (.blend 0x33) (.r 31) (.lit 0 0 0 0))),
  .set 0 (.bin .add (.r 0) (.un .shuf4E (.r 29))),
  .set 1 (.bin .add (.r 1) (.un .shuf4E (.r 31))),
  .set 16 (.un (.shr 28) (.r 0)),
  .set 18 (.un (.shr 28) (.r 1)),
  .set 0 (.bin .and (.r 0) (.lit 0xfffffff 0xfffffff 0xfffffff 0xfffffff)),
  .set 1 (.bin .and (.r 1) (.lit 0xfffffff 0xfffffff 0xfffffff 0xfffffff)),
  .set 2 (.bin .add (.r 2) (.r 16)),
  .set 3 (.bin .add (.r 3) (.r 18)),
  .st 0 0 (.r 0),
  .st 1 0 (.r 1),
  .st 0 1 (.r 2),
  .st 1 1 (.r 3),
  .st 0 2 (.r 4),
  .st 1 2 (.r 5),
  .st 0 3 (.r 6),
  .st 1 3 (.r 7),
  .st 0 4 (.r 8),
  .st 1 4 (.r 9),
  .st 0 5 (.r 10),
  .st 1 5 (.r 11),
  .st 0 6 (.r 12),
  .st 1 6 (.r 13),
  .st 0 7 (.r 14),
  .st 1 7 (.r 15)]⟩

/-- src/eltfp448_2w_redradix.c:606-641 `compressfast`; parameters C = 0. -/
def compressfast : Fn := ⟨[8], [0], [], [
  .set 0 (.bin .and (.ld 0 0) (.lit 0xfffffff 0xfffffff 0xfffffff 0xfffffff)),
  .set 1 (.bin .and (.ld 0 1) (.lit 0xfffffff 0xfffffff 0xfffffff 0xfffffff)),
  .set 2 (.bin .and (.ld 0 2) (.lit 0xfffffff 0xfffffff 0xfffffff 0xfffffff)),
  .set 3 (.bin .and (.ld 0 3) (.lit 0xfffffff 0xfffffff 0xfffffff 0xfffffff)),
  .set 4 (.bin .and (.ld 0 4) (.lit 0xfffffff 0xfffffff 0xfffffff 0xfffffff)),
  .set 5 (.bin .and (.ld 0 5) (.lit 0xfffffff 0xfffffff 0xfffffff 0xfffffff)),
  .set 6 (.bin .and (.ld 0 6) (.lit 0xfffffff 0xfffffff 0xfffffff 0xfffffff)),
  .set 7 (.bin .and (.ld 0 7) (.lit 0xfffffff 0xfffffff 0xfffffff 0xfffffff)),
  .set 8 (.un (.shr 28) (.ld 0 0)),
  .set 9 (.un (.shr 28) (.ld 0 1)),
  .set 10 (.un (.shr 28) (.ld 0 2)),
  .set 11 (.un (.shr 28) (.ld 0 3)),
  .set 12 (.un (.shr 28) (.ld 0 4)),
  .set 13 (.un (.shr 28) (.ld 0 5)),
  .set 14 (.un (.shr 28) (.ld 0 6)),
  .set 15 (.un (.shr 28) (.ld 0 7)),
  .st 0 0 (.bin .add (.r 0) (.bin .add (.un .shuf4E (.r 15)) (.bin (.blend 0x33) (.r 15) (.lit 0 0 0 0)))),
  .st 0 1 (.bin .add (.r 1) (.r 8)),
  .st 0 2 (.bin .add (.r 2) (.r 9)),
  .st 0 3 (.bin .add (.r 3) (.r 10)),
  .st 0 4 (.bin .add (.r 4) (.r 11)),
  .st 0 5 (.bin .add (.r 5) (.r 12)),
  .st 0 6 (.bin .add (.r 6) (.r 13)),
  .st 0 7 (.bin .add (.r 7) (.r 14))]⟩

/-- src/eltfp448_2w_redradix.c:643-646 `mul`; parameters c = 0, a = 1, b = 2. -/
def mul : Fn := ⟨[8, 8, 8], [0], [], intmul.inl [0, 1, 2] 0 ++
    compress.inl [0] 0⟩

/-- src/eltfp448_2w_redradix.c:648-651 `sqr`; parameters c = 0. -/
def sqr : Fn := ⟨[8], [0], [], intsqr.inl [0] 0 ++
    compress.inl [0] 0⟩

/-- src/eltfp448_2w_redradix.c:695-705 `naddsub`; parameters C = 0, D = 1, A = 2, B = 3. -/
def naddsub : Fn := ⟨[8, 8, 8, 8], [0, 1], [32], [
  .set 0 (.bin .sub (.cst 0 0 0x1ffffffe 0x3ffffffc 0x1ffffffe 0x3ffffffc) (.ld 2 0)),
  .st 0 0 (.bin .sub (.r 0) (.ld 3 0)),
  .st 1 0 (.bin .add (.r 0) (.ld 3 0)),
  .set 1 (.bin .sub (.cst 0 1 0x1ffffffe 0x1ffffffc 0x1ffffffe 0x1ffffffc) (.ld 2 1)),
  .st 0 1 (.bin .sub (.r 1) (.ld 3 1)),
  .st 1 1 (.bin .add (.r 1) (.ld 3 1)),
  .set 2 (.bin .sub (.cst 0 2 0x1ffffffe 0x1ffffffe 0x1ffffffe 0x1ffffffe) (.ld 2 2)),
  .st 0 2 (.bin .sub (.r 2) (.ld 3 2)),
  .st 1 2 (.bin .add (.r 2) (.ld 3 2)),
  .set 3 (.bin .sub (.cst 0 3 0x1ffffffe 0x1ffffffe 0x1ffffffe 0x1ffffffe) (.ld 2 3)),
  .st 0 3 (.bin .sub (.r 3) (.ld 3 3)),
  .st 1 3 (.bin .add (.r 3) (.ld 3 3)),
  .set 4 (.bin .sub (.cst 0 4 0x1ffffffe 0x1ffffffe 0x1ffffffe 0x1ffffffe) (.ld 2 4)),
  .st 0 4 (.bin .sub (.r 4) (.ld 3 4)),
  .st 1 4 (.bin .add (.r 4) (.ld 3 4)),
  .set 5 (.bin .sub (.cst 0 5 0x1ffffffe 0x1ffffffe 0x1ffffffe 0x1ffffffe) (.ld 2 5)),
  .st 0 5 (.bin .sub (.r 5) (.ld 3 5)),
  .st 1 5 (.bin .add (.r 5) (.ld 3 5)),
  .set 6 (.bin .sub (.cst 0 6 0x1ffffffe 0x1ffffffe 0x1ffffffe 0x1ffffffe) (.ld 2 6)),
  .st 0 6 (.bin .sub (.r 6) (.ld 3 6)),
  .st 1 6 (.bin .add (.r 6) (.ld 3 6)),
  .set 7 (.bin .sub (.cst 0 7 0x1ffffffe 0x1ffffffe 0x1ffffffe 0x1ffffffe) (.ld 2 7)),
  .st 0 7 (.bin .sub (.r 7) (.ld 3 7)),
  .st 1 7 (.bin .add (.r 7) (.ld 3 7))]⟩

end V2

namespace V4

/-- src/eltfp448_4w_redradix.c:63-68 `copy`; parameters c = 0, a = 1. -/
def copy : Fn := ⟨[16, 16], [0], [], [
  .st 0 0 (.ld 1 0),
  .st 0 1 (.ld 1 1),
  .st 0 2 (.ld 1 2),
  .st 0 3 (.ld 1 3),
  .st 0 4 (.ld 1 4),
  .st 0 5 (.ld 1 5),
  .st 0 6 (.ld 1 6),
  .st 0 7 (.ld 1 7),
  .st 0 8 (.ld 1 8),
  .st 0 9 (.ld 1 9),
  .st 0 10 (.ld 1 10),
  .st 0 11 (.ld 1 11),
  .st 0 12 (.ld 1 12),
  .st 0 13 (.ld 1 13),
  .st 0 14 (.ld 1 14),
  .st 0 15 (.ld 1 15)]⟩

/-- src/eltfp448_4w_redradix.c:70-75 `zero`; parameters c = 0. -/
def zero : Fn := ⟨[16], [0], [], [
  .st 0 0 (.lit 0 0 0 0),
  .st 0 1 (.lit 0 0 0 0),
  .st 0 2 (.lit 0 0 0 0),
  .st 0 3 (.lit 0 0 0 0),
  .st 0 4 (.lit 0 0 0 0),
  .st 0 5 (.lit 0 0 0 0),
  .st 0 6 (.lit 0 0 0 0),
  .st 0 7 (.lit 0 0 0 0),
  .st 0 8 (.lit 0 0 0 0),
  .st 0 9 (.lit 0 0 0 0),
  .st 0 10 (.lit 0 0 0 0),
  .st 0 11 (.lit 0 0 0 0),
  .st 0 12 (.lit 0 0 0 0),
  .st 0 13 (.lit 0 0 0 0),
  .st 0 14 (.lit 0 0 0 0),
  .st 0 15 (.lit 0 0 0 0)]⟩

/-- src/eltfp448_4w_redradix.c:77-133 `zip`; parameters A = 0, pA = 1, pB = 2, pC = 3, pD = 4. -/
def zip : Fn := ⟨[16, 4, 4, 4, 4], [0], [], [
  .set 0 (.ld 1 0),
  .set 1 (.ld 2 0),
  .set 2 (.ld 3 0),
  .set 3 (.ld 4 0),
  .set 4 (.bin (.perm128 0x20) (.r 0) (.r 2)),
  .set 5 (.bin (.perm128 0x20) (.r 1) (.r 3)),
  .set 6 (.bin (.perm128 0x31) (.r 0) (.r 2)),
  .set 7 (.bin (.perm128 0x31) (.r 1) (.r 3)),
  .st 0 0 (.bin .upkl (.r 4) (.r 5)),
  .st 0 1 (.bin .upkh (.r 4) (.r 5)),
  .st 0 2 (.bin .upkl (.r 6) (.r 7)),
  .st 0 3 (.bin .upkh (.r 6) (.r 7)),
  .set 8 (.ld 1 1),
  .set 9 (.ld 2 1),
  .set 10 (.ld 3 1),
  .set 11 (.ld 4 1),
  .set 12 (.bin (.perm128 0x20) (.r 8) (.r 10)),
  .set 13 (.bin (.perm128 0x20) (.r 9) (.r 11)),
  .set 14 (.bin (.perm128 0x31) (.r 8) (.r 10)),
  .set 15 (.bin (.perm128 0x31) (.r 9) (.r 11)),
  .st 0 4 (.bin .upkl (.r 12) (.r 13)),
  .st 0 5 (.bin .upkh (.r 12) (.r 13)),
  .st 0 6 (.bin .upkl (.r 14) (.r 15)),
  .st 0 7 (.bin .upkh (.r 14) (.r 15)),
  .set 16 (.ld 1 2),
  .set 17 (.ld 2 2),
  .set 18 (.ld 3 2),
  .set 19 (.ld 4 2),
  .set 20 (.bin (.perm128 0x20) (.r 16) (.r 18)),
  .set 21 (.bin (.perm128 0x20) (.r 17) (.r 19)),
  .set 22 (.bin (.perm128 0x31) (.r 16) (.r 18)),
  .set 23 (.bin (.perm128 0x31) (.r 17) (.r 19)),
  .st 0 8 (.bin .upkl (.r 20) (.r 21)),
  .st 0 9 (.bin .upkh (.r 20) (.r 21)),
  .st 0 10 (.bin .upkl (.r 22) (.r 23)),
  .st 0 11 (.bin .upkh (.r 22) (.r 23)),
  .set 24 (.ld 1 3),
  .set 25 (.ld 2 3),
  .set 26 (.ld 3 3),
  .set 27 (.ld 4 3),
  .set 28 (.bin (.perm128 0x20) (.r 24) (.r 26)),
  .set 29 (.bin (.perm128 0x20) (.r 25) (.r 27)),
  .set 30 (.bin (.perm128 0x31) (.r 24) (.r 26)),
  .set 31 (.bin (.perm128 0x31) (.r 25) (.r 27)),
  .st 0 12 (.bin .upkl (.r 28) (.r 29)),
  .st 0 13 (.bin .upkh (.r 28) (.r 29)),
  .st 0 14 (.bin .upkl (.r 30) (.r 31)),
  .st 0 15 (.bin .upkh (.r 30) (.r 31))]⟩

/-- src/eltfp448_4w_redradix.c:135-191 `unzip`; parameters pA = 0, pB = 1, pC = 2, pD = 3, A = 4.
-/
def unzip : Fn := ⟨[4, 4, 4, 4, 16], [0, 1, 2, 3], [], [
  .set 0 (.bin (.perm128 0x20) (.ld 4 0) (.ld 4 2)),
  .set 1 (.bin (.perm128 0x20) (.ld 4 1) (.ld 4 3)),
  .set 2 (.bin (.perm128 0x31) (.ld 4 0) (.ld 4 2)),
  .set 3 (.bin (.perm128 0x31) (.ld 4 1) (.ld 4 3)),
  .set 4 (.bin .upkl (.r 0) (.r 1)),
  .set 5 (.bin .upkh (.r 0) (.r 1)),
  .set 6 (.bin .upkl (.r 2) (.r 3)),
  .set 7 (.bin .upkh (.r 2) (.r 3)),
  .st 0 0 (.r 4),
  .st 1 0 (.r 5),
  .st 2 0 (.r 6),
  .st 3 0 (.r 7),
  .set 8 (.bin (.perm128 0x20) (.ld 4 4) (.ld 4 6)),
  .set 9 (.bin (.perm128 0x20) (.ld 4 5) (.ld 4 7)),
  .set 10 (.bin (.perm128 0x31) (.ld 4 4) (.ld 4 6)),
  .set 11 (.bin (.perm128 0x31) (.ld 4 5) (.ld 4 7)),
  .set 12 (.bin .upkl (.r 8) (.r 9)),
  .set 13 (.bin .upkh (.r 8) (.r 9)),
  .set 14 (.bin .upkl (.r 10) (.r 11)),
  .set 15 (.bin .upkh (.r 10) (.r 11)),
  .st 0 1 (.r 12),
  .st 1 1 (.r 13),
  .st 2 1 (.r 14),
  .st 3 1 (.r 15),
  .set 16 (.bin (.perm128 0x20) (.ld 4 8) (.ld 4 10)),
  .set 17 (.bin (.perm128 0x20) (.ld 4 9) (.ld 4 11)),
  .set 18 (.bin (.perm128 0x31) (.ld 4 8) (.ld 4 10)),
  .set 19 (.bin (.perm128 0x31) (.ld 4 9) (.ld 4 11)),
  .set 20 (.bin .upkl (.r 16) (.r 17)),
  .set 21 (.bin .upkh (.r 16) (.r 17)),
  .set 22 (.bin .upkl (.r 18) (.r 19)),
  .set 23 (.bin .upkh (.r 18) (.r 19)),
  .st 0 2 (.r 20),
  .st 1 2 (.r 21),
  .st 2 2 (.r 22),
  .st 3 2 (.r 23),
  .set 24 (.bin (.perm128 0x20) (.ld 4 12) (.ld 4 14)),
  .set 25 (.bin (.perm128 0x20) (.ld 4 13) (.ld 4 15)),
  .set 26 (.bin (.perm128 0x31) (.ld 4 12) (.ld 4 14)),
  .set 27 (.bin (.perm128 0x31) (.ld 4 13) (.ld 4 15)),
  .set 28 (.bin .upkl (.r 24) (.r 25)),
  .set 29 (.bin .upkh (.r 24) (.r 25)),
  .set 30 (.bin .upkl (.r 26) (.r 27)),
  .set 31 (.bin .upkh (.r 26) (.r 27)),
  .st 0 3 (.r 28),
  .st 1 3 (.r 29),
  .st 2 3 (.r 30),
  .st 3 3 (.r 31)]⟩

/-- src/eltfp448_4w_redradix.c:193-199 `add`; parameters C = 0, A = 1, B = 2. -/
def add : Fn := ⟨[16, 16, 16], [0], [], [
  .st 0 0 (.bin .add (.ld 1 0) (.ld 2 0)),
  .st 0 1 (.bin .add (.ld 1 1) (.ld 2 1)),
  .st 0 2 (.bin .add (.ld 1 2) (.ld 2 2)),
  .st 0 3 (.bin .add (.ld 1 3) (.ld 2 3)),
  .st 0 4 (.bin .add (.ld 1 4) (.ld 2 4)),
  .st 0 5 (.bin .add (.ld 1 5) (.ld 2 5)),
  .st 0 6 (.bin .add (.ld 1 6) (.ld 2 6)),
  .st 0 7 (.bin .add (.ld 1 7) (.ld 2 7)),
  .st 0 8 (.bin .add (.ld 1 8) (.ld 2 8)),
  .st 0 9 (.bin .add (.ld 1 9) (.ld 2 9)),
  .st 0 10 (.bin .add (.ld 1 10) (.ld 2 10)),
  .st 0 11 (.bin .add (.ld 1 11) (.ld 2 11)),
  .st 0 12 (.bin .add (.ld 1 12) (.ld 2 12)),
  .st 0 13 (.bin .add (.ld 1 13) (.ld 2 13)),
  .st 0 14 (.bin .add (.ld 1 14) (.ld 2 14)),
  .st 0 15 (.bin .add (.ld 1 15) (.ld 2 15))]⟩

/-- src/eltfp448_4w_redradix.c:201-217 `sub`; parameters C = 0, A = 1, B = 2. -/
def sub : Fn := ⟨[16, 16, 16], [0], [], [
  .st 0 0 (.bin .add (.ld 1 0) (.bin .sub (.lit 0x1ffffffe 0x1ffffffe 0x1ffffffe 0x1ffffffe) (.ld 2 0))),
  .st 0 1 (.bin .add (.ld 1 1) (.bin .sub (.lit 0x3ffffffc 0x3ffffffc 0x3ffffffc 0x3ffffffc) (.ld 2 1))),
  .st 0 2 (.bin .add (.ld 1 2) (.bin .sub (.lit 0x1ffffffe 0x1ffffffe 0x1ffffffe 0x1ffffffe) (.ld 2 2))),
  .st 0 3 (.bin .add (.ld 1 3) (.bin .sub (.lit 0x1ffffffc 0x1ffffffc 0x1ffffffc 0x1ffffffc) (.ld 2 3))),
  .st 0 4 (.bin .add (.ld 1 4) (.bin .sub (.lit 0x1ffffffe 0x1ffffffe 0x1ffffffe 0x1ffffffe) (.ld 2 4))),
  .st 0 5 (.bin .add (.ld 1 5) (.bin .sub (.lit 0x1ffffffe 0x1ffffffe 0x1ffffffe 0x1ffffffe) (.ld 2 5))),
  .st 0 6 (.bin .add (.ld 1 6) (.bin .sub (.lit 0x1ffffffe 0x1ffffffe 0x1ffffffe 0x1ffffffe) (.ld 2 6))),
  .st 0 7 (.bin .add (.ld 1 7) (.bin .sub (.lit 0x1ffffffe 0x1ffffffe 0x1ffffffe 0x1ffffffe) (.ld 2 7))),
  .st 0 8 (.bin .add (.ld 1 8) (.bin .sub (.lit 0x1ffffffe 0x1ffffffe 0x1ffffffe 0x1ffffffe) (.ld 2 8))),
  .st 0 9 (.bin .add (.ld 1 9) (.bin .sub (.lit 0x1ffffffe 0x1ffffffe 0x1ffffffe 0x1ffffffe) (.ld 2 9))),
  .st 0 10 (.bin .add (.ld 1 10) (.bin .sub (.lit 0x1ffffffe 0x1ffffffe 0x1ffffffe 0x1ffffffe) (.ld 2 10))),
  .st 0 11 (.bin .add (.ld 1 11) (.bin .sub (.lit 0x1ffffffe 0x1ffffffe 0x1ffffffe 0x1ffffffe) (.ld 2 11))),
  .st 0 12 (.bin .add (.ld 1 12) (.bin .sub (.lit 0x1ffffffe 0x1ffffffe 0x1ffffffe 0x1ffffffe) (.ld 2 12))),
  .st 0 13 (.bin .add (.ld 1 13) (.bin .sub (.lit 0x1ffffffe 0x1ffffffe 0x1ffffffe 0x1ffffffe) (.ld 2 13))),
  .st 0 14 (.bin .add (.ld 1 14) (.bin .sub (.lit 0x1ffffffe 0x1ffffffe 0x1ffffffe 0x1ffffffe) (.ld 2 14))),
  .st 0 15 (.bin .add (.ld 1 15) (.bin .sub (.lit 0x1ffffffe 0x1ffffffe 0x1ffffffe 0x1ffffffe) (.ld 2 15)))]⟩

/-- src/eltfp448_4w_redradix.c:219-236 `addsub`; parameters C = 0, D = 1, A = 2, B = 3. -/
def addsub : Fn := ⟨[16, 16, 16, 16], [0, 1], [], [
  .st 0 0 (.bin .add (.ld 2 0) (.ld 3 0)),
  .st 1 0 (.bin .add (.ld 2 0) (.bin .sub (.lit 0x1ffffffe 0x1ffffffe 0x1ffffffe 0x1ffffffe) (.ld 3 0))),
  .st 0 1 (.bin .add (.ld 2 1) (.ld 3 1)),
  .st 1 1 (.bin .add (.ld 2 1) (.bin .sub (.lit 0x3ffffffc 0x3ffffffc 0x3ffffffc 0x3ffffffc) (.ld 3 1))),
  .st 0 2 (.bin .add (.ld 2 2) (.ld 3 2)),
  .st 1 2 (.bin .add (.ld 2 2) (.bin .sub (.lit 0x1ffffffe 0x1ffffffe 0x1ffffffe 0x1ffffffe) (.ld 3 2))),
  .st 0 3 (.bin .add (.ld 2 3) (.ld 3 3)),
  .st 1 3 (.bin .add (.ld 2 3) (.bin .sub (.lit 0x1ffffffc 0x1ffffffc 0x1ffffffc 0x1ffffffc) (.ld 3 3))),
  .st 0 4 (.bin .add (.ld 2 4) (.ld 3 4)),
  .st 1 4 (.bin .add (.ld 2 4) (.bin .sub (.lit 0x1ffffffe 0x1ffffffe 0x1ffffffe 0x1ffffffe) (.ld 3 4))),
  .st 0 5 (.bin .add (.ld 2 5) (.ld 3 5)),
  .st 1 5 (.bin .add (.ld 2 5) (.bin .sub (.lit 0x1ffffffe 0x1ffffffe 0x1ffffffe 0x1ffffffe) (.ld 3 5))),
  .st 0 6 (.bin .add (.ld 2 6) (.ld 3 6)),
  .st 1 6 (.bin .add (.ld 2 6) (.bin .sub (.lit 0x1ffffffe 0x1ffffffe 0x1ffffffe 0x1ffffffe) (.ld 3 6))),
  .st 0 7 (.bin .add (.ld 2 7) (.ld 3 7)),
  .st 1 7 (.bin .add (.ld 2 7) (.bin .sub (.lit 0x1ffffffe 0x1ffffffe 0x1ffffffe 0x1ffffffe) (.ld 3 7))),
  .st 0 8 (.bin .add (.ld 2 8) (.ld 3 8)),
  .st 1 8 (.bin .add (.ld 2 8) (.bin .sub (.lit 0x1ffffffe 0x1ffffffe 0x1ffffffe 0x1ffffffe) (.ld 3 8))),
  .st 0 9 (.bin .add (.ld 2 9) (.ld 3 9)),
  .st 1 9 (.bin .add (.ld 2 9) (.bin .sub (.lit 0x1ffffffe 0x1ffffffe 0x1ffffffe 0x1ffffffe) (.ld 3 9))),
  .st 0 10 (.bin .add (.ld 2 10) (.ld 3 10)),
  .st 1 10 (.bin .add (.ld 2 10) (.bin .sub (.lit 0x1ffffffe 0x1ffffffe 0x1ffffffe 0x1ffffffe) (.ld 3 10))),
  .st 0 11 (.bin .add (.ld 2 11) (.ld 3 11)),
  .st 1 11 (.bin .add (.ld 2 11) (.bin .sub (.lit 0x1ffffffe 0x1ffffffe 0x1ffffffe 0x1ffffffe) (.ld 3 11))),
  .st 0 12 (.bin .add (.ld 2 12) (.ld 3 12)),
  .st 1 12 (.bin .add (.ld 2 12) (.bin .sub (.lit 0x1ffffffe 0x1ffffffe 0x1ffffffe 0x1ffffffe) (.ld 3 12))),
  .st 0 13 (.bin .add (.ld 2 13) (.ld 3 13)),
  .st 1 13 (.bin .add (.ld 2 13) (.bin .sub (.lit 0x1ffffffe 0x1ffffffe 0x1ffffffe 0x1ffffffe) (.ld 3 13))),
  .st 0 14 (.bin .add (.ld 2 14) (.ld 3 14)),
  .st 1 14 (.bin .add (.ld 2 14) (.bin .sub (.lit 0x1ffffffe 0x1ffffffe 0x1ffffffe 0x1ffffffe) (.ld 3 14))),
  .st 0 15 (.bin .add (.ld 2 15) (.ld 3 15)),
  .st 1 15 (.bin .add (.ld 2 15) (.bin .sub (.lit 0x1ffffffe 0x1ffffffe 0x1ffffffe 0x1ffffffe) (.ld 3 15)))]⟩

/-- src/eltfp448_4w_redradix.c:238-257 `addsublar`; parameters A = 0, B = 1. -/
def addsublar : Fn := ⟨[16, 16], [0, 1], [], [
  .set 0 (.bin .add (.ld 0 0) (.ld 1 0)),
  .set 1 (.bin .add (.ld 0 0) (.bin .sub (.lit 0x3ffffffc00000000 0x3ffffffc00000000 0x3ffffffc00000000 0x3ffffffc00000000) (.ld 1 0))),
  .st 0 0 (.r 0),
  .st 1 0 (.r 1),
  .set 2 (.bin .add (.ld 0 1) (.ld 1 1)),
  .set 3 (.bin .add (.ld 0 1) (.bin .sub (.lit 0x3ffffff800000000 0x3ffffff800000000 0x3ffffff800000000 0x3ffffff800000000) (.ld 1 1))),
  .st 0 1 (.r 2),
  .st 1 1 (.r 3),
  .set 4 (.bin .add (.ld 0 2) (.ld 1 2)),
  .set 5 (.bin .add (.ld 0 2) (.bin .sub (.lit 0x3ffffffc00000000 0x3ffffffc00000000 0x3ffffffc00000000 0x3ffffffc00000000) (.ld 1 2))),
  .st 0 2 (.r 4),
  .st 1 2 (.r 5),
  .set 6 (.bin .add (.ld 0 3) (.ld 1 3)),
  .set 7 (.bin .add (.ld 0 3) (.bin .sub (.lit 0x3ffffffc00000000 0x3ffffffc00000000 0x3ffffffc00000000 0x3ffffffc00000000) (.ld 1 3))),
  .st 0 3 (.r 6),
  .st 1 3 (.r 7),
  .set 8 (.bin .add (.ld 0 4) (.ld 1 4)),
  .set 9 (.bin .add (.ld 0 4) (.bin .sub (.lit 0x3ffffffc00000000 0x3ffffffc00000000 0x3ffffffc00000000 0x3ffffffc00000000) (.ld 1 4))),
  .st 0 4 (.r 8),
  .st 1 4 (.r 9),
  .set 10 (.bin .add (.ld 0 5) (.ld 1 5)),
  .set 11 (.bin .add (.ld 0 5) (.bin .sub (.lit 0x3ffffffc00000000 0x3ffffffc00000000 0x3ffffffc00000000 0x3ffffffc00000000) (.ld 1 5))),
  .st 0 5 (.r 10),
  .st 1 5 (.r 11),
  .set 12 (.bin .add (.ld 0 6) (.ld 1 6)),
  .set 13 (.bin .add (.ld 0 6) (.bin .sub (.lit 0x3ffffffc00000000 0x3ffffffc00000000 0x3ffffffc00000000 0x3ffffffc00000000) (.ld 1 6))),
  .st 0 6 (.r 12),
  .st 1 6 (.r 13),
  .set 14 (.bin .add (.ld 0 7) (.ld 1 7)),
  .set 15 (.bin .add (.ld 0 7) (.bin .sub (.lit 0x3ffffffc00000000 0x3ffffffc00000000 0x3ffffffc00000000 0x3ffffffc00000000) (.ld 1 7))),
  .st 0 7 (.r 14),
  .st 1 7 (.r 15),
  .set 16 (.bin .add (.ld 0 8) (.ld 1 8)),
  .set 17 (.bin .add (.ld 0 8) (.bin .sub (.lit 0x3ffffffc00000000 0x3ffffffc00000000 0x3ffffffc00000000 0x3ffffffc00000000) (.ld 1 8))),
  .st 0 8 (.r 16),
  .st 1 8 (.r 17),
  .set 18 (.bin .add (.ld 0 9) (.ld 1 9)),
  .set 19 (.bin .add (.ld 0 9) (.bin .sub (.lit 0x3ffffffc00000000 0x3ffffffc00000000 0x3ffffffc00000000 0x3ffffffc00000000) (.ld 1 9))),
  .st 0 9 (.r 18),
  .st 1 9 (.r 19),
  .set 20 (.bin .add (.ld 0 10) (.ld 1 10)),
  .set 21 (.bin .add (.ld 0 10) (.bin .sub (.lit 0x3ffffffc00000000 0x3ffffffc00000000 0x3ffffffc00000000 0x3ffffffc00000000) (.ld 1 10))),
  .st 0 10 (.r 20),
  .st 1 10 (.r 21),
  .set 22 (.bin .add (.ld 0 11) (.ld 1 11)),
  .set 23 (.bin .add (.ld 0 11) (.bin .sub (.lit 0x3ffffffc00000000 0x3ffffffc00000000 0x3ffffffc00000000 0x3ffffffc00000000) (.ld 1 11))),
  .st 0 11 (.r 22),
  .st 1 11 (.r 23),
  .set 24 (.bin .add (.ld 0 12) (.ld 1 12)),
  .set 25 (.bin .add (.ld 0 12) (.bin .sub (.lit 0x3ffffffc00000000 0x3ffffffc00000000 0x3ffffffc00000000 0x3ffffffc00000000) (.ld 1 12))),
  .st 0 12 (.r 24),
  .st 1 12 (.r 25),
  .set 26 (.bin .add (.ld 0 13) (.ld 1 13)),
  .set 27 (.bin .add (.ld 0 13) (.bin .sub (.lit 0x3ffffffc00000000 0x3ffffffc00000000 0x3ffffffc00000000 0x3ffffffc00000000) (.ld 1 13))),
  .st 0 13 (.r 26),
  .st 1 13 (.r 27),
  .set 28 (.bin .add (.ld 0 14) (.ld 1 14)),
  .set 29 (.bin .add (.ld 0 14) (.bin .sub (.lit 0x3ffffffc00000000 0x3ffffffc00000000 0x3ffffffc00000000 0x3ffffffc00000000) (.ld 1 14))),
  .st 0 14 (.r 28),
  .st 1 14 (.r 29),
  .set 30 (.bin .add (.ld 0 15) (.ld 1 15)),
  .set 31 (.bin .add (.ld 0 15) (.bin .sub (.lit 0x3ffffffc00000000 0x3ffffffc00000000 0x3ffffffc00000000 0x3ffffffc00000000) (.ld 1 15))),
  .st 0 15 (.r 30),
  .st 1 15 (.r 31)]⟩

/-- src/eltfp448_4w_redradix.c:259-287 `ngz`; parameters c = 0, a = 1. -/
def ngz : Fn := ⟨[16, 16], [0], [8], [
  .set 0 (.un .shuf4E (.ld 1 0)),
  .set 1 (.bin .add (.cst 0 0 0 0 0x1ffffffe 0) (.bin .sub (.bin .xor (.ld 1 0) (.lit 0 0 0xffffffffffffffff 0)) (.lit 0 0 0xffffffffffffffff 0))),
  .st 0 0 (.bin (.blend 0xF0) (.r 0) (.r 1)),
  .set 2 (.un .shuf4E (.ld 1 1)),
  .set 3 (.bin .add (.cst 0 1 0 0 0x3ffffffc 0) (.bin .sub (.bin .xor (.ld 1 1) (.lit 0 0 0xffffffffffffffff 0)) (.lit 0 0 0xffffffffffffffff 0))),
  .st 0 1 (.bin (.blend 0xF0) (.r 2) (.r 3)),
  .set 4 (.un .shuf4E (.ld 1 2)),
  .set 5 (.bin .add (.cst 0 2 0 0 0x1ffffffe 0) (.bin .sub (.bin .xor (.ld 1 2) (.lit 0 0 0xffffffffffffffff 0)) (.lit 0 0 0xffffffffffffffff 0))),
  .st 0 2 (.bin (.blend 0xF0) (.r 4) (.r 5)),
  .set 6 (.un .shuf4E (.ld 1 3)),
  .set 7 (.bin .add (.cst 0 3 0 0 0x1ffffffc 0) (.bin .sub (.bin .xor (.ld 1 3) (.lit 0 0 0xffffffffffffffff 0)) (.lit 0 0 0xffffffffffffffff 0))),
  .st 0 3 (.bin (.blend 0xF0) (.r 6) (.r 7)),
  .set 8 (.un .shuf4E (.ld 1 4)),
  .set 9 (.bin .add (.cst 0 4 0 0 0x1ffffffe 0) (.bin .sub (.bin .xor (.ld 1 4) (.lit 0 0 0xffffffffffffffff 0)) (.lit 0 0 0xffffffffffffffff 0))),
  .st 0 4 (.bin (.blend 0xF0) (.r 8) (.r 9)),
  .set 10 (.un .shuf4E (.ld 1 5)),
  .set 11 (.bin .add (.cst 0 5 0 0 0x1ffffffe 0) (.bin .sub (.bin .xor (.ld 1 5) (.lit 0 0 0xffffffffffffffff 0)) (.lit 0 0 0xffffffffffffffff 0))),
  .st 0 5 (.bin (.blend 0xF0) (.r 10) (.r 11)),
  .set 12 (.un .shuf4E (.ld 1 6)),
  .set 13 (.bin .add (.cst 0 6 0 0 0x1ffffffe 0) (.bin .sub (.bin .xor (.ld 1 6) (.lit 0 0 0xffffffffffffffff 0)) (.lit 0 0 0xffffffffffffffff 0))),
  .st 0 6 (.bin (.blend 0xF0) (.r 12) (.r 13)),
  .set 14 (.un .shuf4E (.ld 1 7)),
  .set 15 (.bin .add (.cst 0 7 0 0 0x1ffffffe 0) (.bin .sub (.bin .xor (.ld 1 7) (.lit 0 0 0xffffffffffffffff 0)) (.lit 0 0 0xffffffffffffffff 0))),
  .st 0 7 (.bin (.blend 0xF0) (.r 14) (.r 15)),
  .set 16 (.un .shuf4E (.ld 1 8)),
  .set 17 (.bin .add (.cst 0 8 0 0 0x1ffffffe 0) (.bin .sub (.bin .xor (.ld 1 8) (.lit 0 0 0xffffffffffffffff 0)) (.lit 0 0 0xffffffffffffffff 0))),
  .st 0 8 (.bin (.blend 0xF0) (.r 16) (.r 17)),
  .set 18 (.un .shuf4E (.ld 1 9)),
  .set 19 (.bin .add (.cst 0 9 0 0 0x1ffffffe 0) (.bin .sub (.bin .xor (.ld 1 9) (.lit 0 0 0xffffffffffffffff 0)) (.lit 0 0 0xffffffffffffffff 0))),
  .st 0 9 (.bin (.blend 0xF0) (.r 18) (.r 19)),
  .set 20 (.un .shuf4E (.ld 1 10)),
  .set 21 (.bin .add (.cst 0 10 0 0 0x1ffffffe 0) (.bin .sub (.bin .xor (.ld 1 10) (.lit 0 0 0xffffffffffffffff 0)) (.lit 0 0 0xffffffffffffffff 0))),
  .st 0 10 (.bin (.blend 0xF0) (.r 20) (.r 21)),
  .set 22 (.un .shuf4E (.ld 1 11)),
  .set 23 (.bin .add (.cst 0 11 0 0 0x1ffffffe 0) (.bin .sub (.bin .xor (.ld 1 11) (.lit 0 0 0xffffffffffffffff 0)) (.lit 0 0 0xffffffffffffffff 0))),
  .st 0 11 (.bin (.blend 0xF0) (.r 22) (.r 23)),
  .set 24 (.un .shuf4E (.ld 1 12)),
  .set 25 (.bin .add (.cst 0 12 0 0 0x1ffffffe 0) (.bin .sub (.bin .xor (.ld 1 12) (.lit 0 0 0xffffffffffffffff 0)) (.lit 0 0 0xffffffffffffffff 0))),
  .st 0 12 (.bin (.blend 0xF0) (.r 24) (.r 25)),
  .set 26 (.un .shuf4E (.ld 1 13)),
  .set 27 (.bin .add (.cst 0 13 0 0 0x1ffffffe 0) (.bin .sub (.bin .xor (.ld 1 13) (.lit 0 0 0xffffffffffffffff 0)) (.lit 0 0 0xffffffffffffffff 0))),
  .st 0 13 (.bin (.blend 0xF0) (.r 26) (.r 27)),
  .set 28 (.un .shuf4E (.ld 1 14)),
  .set 29 (.bin .add (.cst 0 14 0 0 0x1ffffffe 0) (.bin .sub (.bin .xor (.ld 1 14) (.lit 0 0 0xffffffffffffffff 0)) (.lit 0 0 0xffffffffffffffff 0))),
  .st 0 14 (.bin (.blend 0xF0) (.r 28) (.r 29)),
  .set 30 (.un .shuf4E (.ld 1 15)),
  .set 31 (.bin .add (.cst 0 15 0 0 0x1ffffffe 0) (.bin .sub (.bin .xor (.ld 1 15) (.lit 0 0 0xffffffffffffffff 0)) (.lit 0 0 0xffffffffffffffff 0))),
  .st 0 15 (.bin (.blend 0xF0) (.r 30) (.r 31))]⟩

/-- src/eltfp448_4w_redradix.c:343-390 `intmul_karat`; parameters C = 0, A = 1, B = 2. -/
def intmul_karat : Fn := ⟨[16, 16, 16], [0], [], [
  .set 0 (.ld 1 0),
  .set 8 (.ld 1 1),
  .set 16 (.ld 2 0),
  .set 24 (.ld 2 1),
  .set 1 (.ld 1 2),
  .set 9 (.ld 1 3),
  .set 17 (.ld 2 2),
  .set 25 (.ld 2 3),
  .set 2 (.ld 1 4),
  .set 10 (.ld 1 5),
  .set 18 (.ld 2 4),
  .set 26 (.ld 2 5),
  .set 3 (.ld 1 6),
  .set 11 (.ld 1 7),
  .set 19 (.ld 2 6),
  .set 27 (.ld 2 7),
  .set 4 (.ld 1 8),
  .set 12 (.ld 1 9),
  .set 20 (.ld 2 8),
  .set 28 (.ld 2 9),
  .set 5 (.ld 1 10),
  .set 13 (.ld 1 11),
  .set 21 (.ld 2 10),
  .set 29 (.ld 2 11),
  .set 6 (.ld 1 12),
  .set 14 (.ld 1 13),
  .set 22 (.ld 2 12),
  .set 30 (.ld 2 13),
  .set 7 (.ld 1 14),
  .set 15 (.ld 1 15),
  .set 23 (.ld 2 14),
  .set 31 (.ld 2 15),
  .set 77 (.bin .mul (.r 0) (.r 16)),
  .set 78 (.bin .mul (.r 1) (.r 16)),
  .set 79 (.bin .mul (.r 2) (.r 16)),
  .set 80 (.bin .mul (.r 3) (.r 16)),
  .set 78 (.bin .add (.r 78) (.bin .mul (.r 0) (.r 17))),
  .set 79 (.bin .add (.r 79) (.bin .mul (.r 1) (.r 17))),
  .set 80 (.bin .add (.r 80) (.bin .mul (.r 2) (.r 17))),
  .set 81 (.bin .mul (.r 3) (.r 17)),
  .set 79 (.bin .add (.r 79) (.bin .mul (.r 0) (.r 18))),
  .set 80 (.bin .add (.r 80) (.bin .mul (.r 1) (.r 18))),
  .set 81 (.bin .add (.r 81) (.bin .mul (.r 2) (.r 18))),
  .set 82 (.bin .mul (.r 3) (.r 18)),
  .set 80 (.bin .add (.r 80) (.bin .mul (.r 0) (.r 19))),
  .set 81 (.bin .add (.r 81) (.bin .mul (.r 1) (.r 19))),
  .set 82 (.bin .add (.r 82) (.bin .mul (.r 2) (.r 19))),
  .set 83 (.bin .mul (.r 3) (.r 19)),
  .set 84 (.bin .mul (.r 4) (.r 20)),
  .set 85 (.bin .mul (.r 5) (.r 20)),
  .set 86 (.bin .mul (.r 6) (.r 20)),
  .set 87 (.bin .mul (.r 7) (.r 20)),
  .set 85 (.bin .add (.r 85) (.bin .mul (.r 4) (.r 21))),
  .set 86 (.bin .add (.r 86) (.bin .mul (.r 5) (.r 21))),
  .set 87 (.bin .add (.r 87) (.bin .mul (.r 6) (.r 21))),
  .set 88 (.bin .mul (.r 7) (.r 21)),
  .set 86 (.bin .add (.r 86) (.bin .mul (.r 4) (.r 22))),
  .set 87 (.bin .add (.r 87) (.bin .mul (.r 5) (.r 22))),
  .set 88 (.bin .add (.r 88) (.bin .mul (.r 6) (.r 22))),
  .set 89 (.bin .mul (.r 7) (.r 22)),
  .set 87 (.bin .add (.r 87) (.bin .mul (.r 4) (.r 23))),
  .set 88 (.bin .add (.r 88) (.bin .mul (.r 5) (.r 23))),
  .set 89 (.bin .add (.r 89) (.bin .mul (.r 6) (.r 23))),
  .set 90 (.bin .mul (.r 7) (.r 23)),
  .set 91 (.bin .mul (.bin .add (.r 0) (.r 4)) (.bin .add (.r 16) (.r 20))),
  .set 92 (.bin .mul (.bin .add (.r 1) (.r 5)) (.bin .add (.r 16) (.r 20))),
  .set 93 (.bin .mul (.bin .add (.r 2) (.r 6)) (.bin .add (.r 16) (.r 20))),
  .set 94 (.bin .mul (.bin .add (.r 3) (.r 7)) (.bin .add (.r 16) (.r 20))),
  .set 92 (.bin .add (.r 92) (.bin .mul (.bin .add (.r 0) (.r 4)) (.bin .add (.r 17) (.r 21)))),
  .set 93 (.bin .add (.r 93) (.bin .mul (.bin .add (.r 1) (.r 5)) (.bin .add (.r 17) (.r 21)))),
  .set 94 (.bin .add (.r 94) (.bin .mul (.bin .add (.r 2) (.r 6)) (.bin .add (.r 17) (.r 21)))),
  .set 95 (.bin .mul (.bin .add (.r 3) (.r 7)) (.bin .add (.r 17) (.r 21))),
  .set 93 (.bin .add (.r 93) (.bin .mul (.bin .add (.r 0) (.r 4)) (.bin .add (.r 18) (.r 22)))),
  .set 94 (.bin .add (.r 94) (.bin .mul (.bin .add (.r 1) (.r 5)) (.bin .add (.r 18) (.r 22)))),
  .set 95 (.bin .add (.r 95) (.bin .mul (.bin .add (.r 2) (.r 6)) (.bin .add (.r 18) (.r 22)))),
  .set 96 (.bin .mul (.bin .add (.r 3) (.r 7)) (.bin .add (.r 18) (.r 22))),
  .set 94 (.bin .add (.r 94) (.bin .mul (.bin .add (.r 0) (.r 4)) (.bin .add (.r 19) (.r 23)))),
  .set 95 (.bin .add (.r 95) (.bin .mul (.bin .add (.r 1) (.r 5)) (.bin .add (.r 19) (.r 23)))),
  .set 96 (.bin .add (.r 96) (.bin .mul (.bin .add (.r 2) (.r 6)) (.bin .add (.r 19) (.r 23)))),
  .set 97 (.bin .mul (.bin .add (.r 3) (.r 7)) (.bin .add (.r 19) (.r 23))),
  .set 98 (.bin .sub (.r 81) (.r 84)),
  .set 99 (.bin .sub (.r 82) (.r 85)),
  .set 100 (.bin .sub (.r 83) (.r 86)),
  .set 32 (.r 77),
  .set 40 (.bin .sub (.bin .sub (.r 95) (.r 88)) (.r 98)),
  .set 33 (.r 78),
  .set 41 (.bin .sub (.bin .sub (.r 96) (.r 89)) (.r 99)),
  .set 34 (.r 79),
  .set 42 (.bin .sub (.bin .sub (.r 97) (.r 90)) (.r 100)),
  .set 35 (.r 80),
  .set 43 (.r 87),
  .set 36 (.bin .add (.r 98) (.bin .sub (.r 91) (.r 77))),
  .set 44 (.r 88),
  .set 37 (.bin .add (.r 99) (.bin .sub (.r 92) (.r 78))),
  .set 45 (.r 89),
  .set 38 (.bin .add (.r 100) (.bin .sub (.r 93) (.r 79))),
  .set 46 (.r 90),
  .set 39 (.bin .sub (.bin .sub (.r 94) (.r 80)) (.r 87)),
  .set 101 (.bin .mul (.r 8) (.r 24)),
  .set 102 (.bin .mul (.r 9) (.r 24)),
  .set 103 (.bin .mul (.r 10) (.r 24)),
  .set 104 (.bin .mul (.r 11) (.r 24)),
  .set 102 (.bin .add (.r 102) (.bin .mul (.r 8) (.r 25))),
  .set 103 (.bin .add (.r 103) (.bin .mul (.r 9) (.r 25))),
  .set 104 (.bin .add (.r 104) (.bin .mul (.r 10) (.r 25))),
  .set 105 (.bin .mul (.r 11) (.r 25)),
  .set 103 (.bin .add (.r 103) (.bin .mul (.r 8) (.r 26))),
  .set 104 (.bin .add (.r 104) (.bin .mul (.r 9) (.r 26))),
  .set 105 (.bin .add (.r 105) (.bin .mul (.r 10) (.r 26))),
  .set 106 (.bin .mul (.r 11) (.r 26)),
  .set 104 (.bin .add (.r 104) (.bin .mul (.r 8) (.r 27))),
  .set 105 (.bin .add (.r 105) (.bin .mul (.r 9) (.r 27))),
  .set 106 (.bin .add (.r 106) (.bin .mul (.r 10) (.r 27))),
  .set 107 (.bin .mul (.r 11) (.r 27)),
  .set 108 (.bin .mul (.r 12) (.r 28)),
  .set 109 (.bin .mul (.r 13) (.r 28)),
  .set 110 (.bin .mul (.r 14) (.r 28)),
  .set 111 (.bin .mul (.r 15) (.r 28)),
  .set 109 (.bin .add (.r 109) (.bin .mul (.r 12) (.r 29))),
  .set 110 (.bin .add (.r 110) (.bin .mul (.r 13) (.r 29))),
  .set 111 (.bin .add (.r 111) (.bin .mul (.r 14) (.r 29))),
  .set 112 (.bin .mul (.r 15) (.r 29)),
  .set 110 (.bin .add (.r 110) (.bin .mul (.r 12) (.r 30))),
  .set 111 (.bin .add (.r 111) (.bin .mul (.r 13) (.r 30))),
  .set 112 (.bin .add (.r 112) (.bin .mul (.r 14) (.r 30))),
  .set 113 (.bin .mul (.r 15) (.r 30)),
  .set 111 (.bin .add (.r 111) (.bin .mul (.r 12) (.r 31))),
  .set 112 (.bin .add (.r 112) (.bin .mul (.r 13) (.r 31))),
  .set 113 (.bin .add (.r 113) (.bin .mul (.r 14) (.r 31))),
  .set 114 (.bin .mul (.r 15) (.r 31)),
  .set 115 (.bin .mul (.bin .add (.r 8) (.r 12)) (.bin .add (.r 24) (.r 28))),
  .set 116 (.bin .mul (.bin .add (.r 9) (.r 13)) (.bin .add (.r 24) (.r 28))),
  .set 117 (.bin .mul (.bin .add (.r 10) (.r 14)) (.bin .add (.r 24) (.r 28))),
  .set 118 (.bin .mul (.bin .add (.r 11) (.r 15)) (.bin .add (.r 24) (.r 28))),
  .set 116 (.bin .add (.r 116) (.bin .mul (.bin .add (.r 8) (.r 12)) (.bin .add (.r 25) (.r 29)))),
  .set 117 (.bin .add (.r 117) (.bin .mul (.bin .add (.r 9) (.r 13)) (.bin .add (.r 25) (.r 29)))),
  .set 118 (.bin .add (.r 118) (.bin .mul (.bin .add (.r 10) (.r 14)) (.bin .add (.r 25) (.r 29)))),
  .set 119 (.bin .mul (.bin .add (.r 11) (.r 15)) (.bin .add (.r 25) (.r 29))),
  .set 117 (.bin .add (.r 117) (.bin .mul (.bin .add (.r 8) (.r 12)) (.bin .add (.r 26) (.r 30)))),
  .set 118 (.bin .add (.r 118) (.bin .mul (.bin .add (.r 9) (.r 13)) (.bin .add (.r 26) (.r 30)))),
  .set 119 (.bin .add (.r 119) (.bin .mul (.bin .add (.r 10) (.r 14)) (.bin .add (.r 26) (.r 30)))),
  .set 120 (.bin .mul (.bin .add (.r 11) (.r 15)) (.bin .add (.r 26) (.r 30))),
  .set 118 (.bin .add (.r 118) (.bin .mul (.bin .add (.r 8) (.r 12)) (.bin .add (.r 27) (.r 31)))),
  .set 119 (.bin .add (.r 119) (.bin .mul (.bin .add (.r 9) (.r 13)) (.bin .add (.r 27) (.r 31)))),
  .set 120 (.bin .add (.r 120) (.bin .mul (.bin .add (.r 10) (.r 14)) (.bin .add (.r 27) (.r 31)))),
  .set 121 (.bin .mul (.bin .add (.r 11) (.r 15)) (.bin .add (.r 27) (.r 31))),
  .set 122 (.bin .sub (.r 105) (.r 108)),
  .set 123 (.bin .sub (.r 106) (.r 109)),
  .set 124 (.bin .sub (.r 107) (.r 110)),
  .set 47 (.r 101),
  .set 55 (.bin .sub (.bin .sub (.r 119) (.r 112)) (.r 122)),
  .set 48 (.r 102),
  .set 56 (.bin .sub (.bin .sub (.r 120) (.r 113)) (.r 123)),
  .set 49 (.r 103),
  .set 57 (.bin .sub (.bin .sub (.r 121) (.r 114)) (.r 124)),
  .set 50 (.r 104),
  .set 58 (.r 111),
  .set 51 (.bin .add (.r 122) (.bin .sub (.r 115) (.r 101))),
  .set 59 (.r 112),
  .set 52 (.bin .add (.r 123) (.bin .sub (.r 116) (.r 102))),
  .set 60 (.r 113),
  .set 53 (.bin .add (.r 124) (.bin .sub (.r 117) (.r 103))),
  .set 61 (.r 114),
  .set 54 (.bin .sub (.bin .sub (.r 118) (.r 104)) (.r 111)),
  .set 125 (.bin .mul (.bin .add (.r 0) (.r 8)) (.bin .add (.r 16) (.r 24))),
  .set 126 (.bin .mul (.bin .add (.r 1) (.r 9)) (.bin .add (.r 16) (.r 24))),
  .set 127 (.bin .mul (.bin .add (.r 2) (.r 10)) (.bin .add (.r 16) (.r 24))),
  .set 128 (.bin .mul (.bin .add (.r 3) (.r 11)) (.bin .add (.r 16) (.r 24))),
  .set 126 (.bin .add (.r 126) (.bin .mul (.bin .add (.r 0) (.r 8)) (.bin .add (.r 17) (.r 25)))),
  .set 127 (.bin .add (.r 127) (.bin .mul (.bin .add (.r 1) (.r 9)) (.bin .add (.r 17) (.r 25)))),
  .set 128 (.bin .add (.r 128) (.bin .mul (.bin .add (.r 2) (.r 10)) (.bin .add (.r 17) (.r 25)))),
  .set 129 (.bin .mul (.bin .add (.r 3) (.r 11)) (.bin .add (.r 17) (.r 25))),
  .set 127 (.bin .add (.r 127) (.bin .mul (.bin .add (.r 0) (.r 8)) (.bin .add (.r 18) (.r 26)))),
  .set 128 (.bin .add (.r 128) (.bin .mul (.bin .add (.r 1) (.r 9)) (.bin .add (.r 18) (.r 26)))),
  .set 129 (.bin .add (.r 129) (.bin .mul (.bin .add (.r 2) (.r 10)) (.bin .add (.r 18) (.r 26)))),
  .set 130 (.bin .mul (.bin .add (.r 3) (.r 11)) (.bin .add (.r 18) (.r 26))),
  .set 128 (.bin .add (.r 128) (.bin .mul (.bin .add (.r 0) (.r 8)) (.bin .add (.r 19) (.r 27)))),
  .set 129 (.bin .add (.r 129) (.bin .mul (.bin .add (.r 1) (.r 9)) (.bin .add (.r 19) (.r 27)))),
  .set 130 (.bin .add (.r 130) (.bin .mul (.bin .add (.r 2) (.r 10)) (.bin .add (.r 19) (.r 27)))),
  .set 131 (.bin .mul (.bin .add (.r 3) (.r 11)) (.bin .add (.r 19) (.r 27))),
  .set 132 (.bin .mul (.bin .add (.r 4) (.r 12)) (.bin .add (.r 20) (.r 28))),
  .set 133 (.bin .mul (.bin .add (.r 5) (.r 13)) (.bin .add (.r 20) (.r 28))),
  .set 134 (.bin .mul (.bin .add (.r 6) (.r 14)) (.bin .add (.r 20) (.r 28))),
  .set 135 (.bin .mul (.bin .add (.r 7) (.r 15)) (.bin .add (.r 20) (.r 28))),
  .set 133 (.bin .add (.r 133) (.bin .mul (.bin .add (.r 4) (.r 12)) (.bin .add (.r 21) (.r 29)))),
  .set 134 (.bin .add (.r 134) (.bin .mul (.bin .add (.r 5) (.r 13)) (.bin .add (.r 21) (.r 29)))),
  .set 135 (.bin .add (.r 135) (.bin .mul (.bin .add (.r 6) (.r 14)) (.bin .add (.r 21) (.r 29)))),
  .set 136 (.bin .mul (.bin .add (.r 7) (.r 15)) (.bin .add (.r 21) (.r 29))),
  .set 134 (.bin .add (.r 134) (.bin .mul (.bin .add (.r 4) (.r 12)) (.bin .add (.r 22) (.r 30)))),
  .set 135 (.bin .add (.r 135) (.bin .mul (.bin .add (.r 5) (.r 13)) (.bin .add (.r 22) (.r 30)))),
  .set 136 (.bin .add (.r 136) (.bin .mul (.bin .add (.r 6) (.r 14)) (.bin .add (.r 22) (.r 30)))),
  .set 137 (.bin .mul (.bin .add (.r 7) (.r 15)) (.bin .add (.r 22) (.r 30))),
  .set 135 (.bin .add (.r 135) (.bin .mul (.bin .add (.r 4) (.r 12)) (.bin .add (.r 23) (.r 31)))),
  .set 136 (.bin .add (.r 136) (.bin .mul (.bin .add (.r 5) (.r 13)) (.bin .add (.r 23) (.r 31)))),
  .set 137 (.bin .add (.r 137) (.bin .mul (.bin .add (.r 6) (.r 14)) (.bin .add (.r 23) (.r 31)))),
  .set 138 (.bin .mul (.bin .add (.r 7) (.r 15)) (.bin .add (.r 23) (.r 31))),
  .set 139 (.bin .mul (.bin .add (.bin .add (.r 0) (.r 8)) (.bin .add (.r 4) (.r 12))) (.bin .add (.bin .add (.r 16) (.r 24)) (.bin .add (.r 20) (.r 28)))),
  .set 140 (.bin .mul (.bin .add (.bin .add (.r 1) (.r 9)) (.bin .add (.r 5) (.r 13))) (.bin .add (.bin .add (.r 16) (.r 24)) (.bin .add (.r 20) (.r 28)))),
  .set 141 (.bin .mul (.bin .add (.bin .add (.r 2) (.r 10)) (.bin .add (.r 6) (.r 14))) (.bin .add (.bin .add (.r 16) (.r 24)) (.bin .add (.r 20) (.r 28)))),
  .set 142 (.bin .mul (.bin .add (.bin .add (.r 3) (.r 11)) (.bin .add (.r 7) (.r 15))) (.bin .add (.bin .add (.r 16) (.r 24)) (.bin .add (.r 20) (.r 28)))),
  .set 140 (.bin .add (.r 140) (.bin .mul (.bin .add (.bin .add (.r 0) (.r 8)) (.bin .add (.r 4) (.r 12))) (.bin .add (.bin .add (.r 17) (.r 25)) (.bin .add (.r 21) (.r 29))))),
  .set 141 (.bin .add (.r 141) (.bin .mul (.bin .add (.bin .add (.r 1) (.r 9)) (.bin .add (.r 5) (.r 13))) (.bin .add (.bin .add (.r 17) (.r 25)) (.bin .add (.r 21) (.r 29))))),
  .set 142 (.bin .add (.r 142) (.bin .mul (.bin .add (.bin .add (.r 2) (.r 10)) (.bin .add (.r 6) (.r 14))) (.bin .add (.bin .add (.r 17) (.r 25)) (.bin .add (.r 21) (.r 29))))),
  .set 143 (.bin .mul (.bin .add (.bin .add (.r 3) (.r 11)) (.bin .add (.r 7) (.r 15))) (.bin .add (.bin .add (.r 17) (.r 25)) (.bin .add (.r 21) (.r 29)))),
  .set 141 (.bin .add (.r 141) (.bin .mul (.bin .add (.bin .add (.r 0) (.r 8)) (.bin .add (.r 4) (.r 12))) (.bin .add (.bin .add (.r 18) (.r 26)) (.bin .add (.r 22) (.r 30))))),
  .set 142 (.bin .add (.r 142) (.bin .mul (.bin .add (.bin .add (.r 1) (.r 9)) (.bin .add (.r 5) (.r 13))) (.bin .add (.bin .add (.r 18) (.r 26)) (.bin .add (.r 22) (.r 30))))),
  .set 143 (.bin .add (.r 143) (.bin .mul (.bin .add (.bin .add (.r 2) (.r 10)) (.bin .add (.r 6) (.r 14))) (.bin .add (.bin .add (.r 18) (.r 26)) (.bin .add (.r 22) (.r 30))))),
  .set 144 (.bin .mul (.bin .add (.bin .add (.r 3) (.r 11)) (.bin .add (.r 7) (.r 15))) (.bin .add (.bin .add (.r 18) (.r 26)) (.bin .add (.r 22) (.r 30)))),
  .set 142 (.bin .add (.r 142) (.bin .mul (.bin .add (.bin .add (.r 0) (.r 8)) (.bin .add (.r 4) (.r 12))) (.bin .add (.bin .add (.r 19) (.r 27)) (.bin .add (.r 23) (.r 31))))),
  .set 143 (.bin .add (.r 143) (.bin .mul (.bin .add (.bin .add (.r 1) (.r 9)) (.bin .add (.r 5) (.r 13))) (.bin .add (.bin .add (.r 19) (.r 27)) (.bin .add (.r 23) (.r 31))))),
  .set 144 (.bin .add (.r 144) (.bin .mul (.bin .add (.bin .add (.r 2) (.r 10)) (.bin .add (.r 6) (.r 14))) (.bin .add (.bin .add (.r 19) (.r 27)) (.bin .add (.r 23) (.r 31))))),
  .set 145 (.bin .mul (.bin .add (.bin .add (.r 3) (.r 11)) (.bin .add (.r 7) (.r 15))) (.bin .add (.bin .add (.r 19) (.r 27)) (.bin .add (.r 23) (.r 31)))),
  .set 146 (.bin .sub (.r 129) (.r 132)),
  .set 147 (.bin .sub (.r 130) (.r 133)),
  .set 148 (.bin .sub (.r 131) (.r 134)),
  .set 62 (.r 125),
  .set 70 (.bin .sub (.bin .sub (.r 143) (.r 136)) (.r 146)),
  .set 63 (.r 126),
  .set 71 (.bin .sub (.bin .sub (.r 144) (.r 137)) (.r 147)),
  .set 64 (.r 127),
  .set 72 (.bin .sub (.bin .sub (.r 145) (.r 138)) (.r 148)),
  .set 65 (.r 128),
  .set 73 (.r 135),
  .set 66 (.bin .add (.r 146) (.bin .sub (.r 139) (.r 125))),
  .set 74 (.r 136),
  .set 67 (.bin .add (.r 147) (.bin .sub (.r 140) (.r 126))),
  .set 75 (.r 137),
  .set 68 (.bin .add (.r 148) (.bin .sub (.r 141) (.r 127))),
  .set 76 (.r 138),
  .set 69 (.bin .sub (.bin .sub (.r 142) (.r 128)) (.r 135)),
  .st 0 0 (.bin .sub (.bin .add (.bin .add (.r 32) (.r 47)) (.r 70)) (.r 40)),
  .st 0 1 (.bin .sub (.bin .add (.bin .add (.r 55) (.r 62)) (.r 70)) (.r 32)),
  .st 0 2 (.bin .sub (.bin .add (.bin .add (.r 33) (.r 48)) (.r 71)) (.r 41)),
  .st 0 3 (.bin .sub (.bin .add (.bin .add (.r 56) (.r 63)) (.r 71)) (.r 33)),
  .st 0 4 (.bin .sub (.bin .add (.bin .add (.r 34) (.r 49)) (.r 72)) (.r 42)),
  .st 0 5 (.bin .sub (.bin .add (.bin .add (.r 57) (.r 64)) (.r 72)) (.r 34)),
  .st 0 6 (.bin .sub (.bin .add (.bin .add (.r 35) (.r 50)) (.r 73)) (.r 43)),
  .st 0 7 (.bin .sub (.bin .add (.bin .add (.r 58) (.r 65)) (.r 73)) (.r 35)),
  .st 0 8 (.bin .sub (.bin .add (.bin .add (.r 36) (.r 51)) (.r 74)) (.r 44)),
  .st 0 9 (.bin .sub (.bin .add (.bin .add (.r 59) (.r 66)) (.r 74)) (.r 36)),
  .st 0 10 (.bin .sub (.bin .add (.bin .add (.r 37) (.r 52)) (.r 75)) (.r 45)),
  .st 0 11 (.bin .sub (.bin .add (.bin .add (.r 60) (.r 67)) (.r 75)) (.r 37)),
  .st 0 12 (.bin .sub (.bin .add (.bin .add (.r 38) (.r 53)) (.r 76)) (.r 46)),
  .st 0 13 (.bin .sub (.bin .add (.bin .add (.r 61) (.r 68)) (.r 76)) (.r 38)),
  .st 0 14 (.bin .add (.r 39) (.r 54)),
  .st 0 15 (.bin .sub (.r 69) (.r 39))]⟩

/-- src/eltfp448_4w_redradix.c:392-394 `intmul`; parameters c = 0, a = 1, b = 2. -/
def intmul : Fn := ⟨[16, 16, 16], [0], [], intmul_karat.inl [0, 1, 2] 0⟩

/-- src/eltfp448_4w_redradix.c:442-479 `intsqr_karat`; parameters A = 0. -/
def intsqr_karat : Fn := ⟨[16], [0], [], [
  .set 0 (.ld 0 0),
  .set 8 (.ld 0 1),
  .set 1 (.ld 0 2),
  .set 9 (.ld 0 3),
  .set 2 (.ld 0 4),
  .set 10 (.ld 0 5),
  .set 3 (.ld 0 6),
  .set 11 (.ld 0 7),
  .set 4 (.ld 0 8),
  .set 12 (.ld 0 9),
  .set 5 (.ld 0 10),
  .set 13 (.ld 0 11),
  .set 6 (.ld 0 12),
  .set 14 (.ld 0 13),
  .set 7 (.ld 0 14),
  .set 15 (.ld 0 15),
  .set 82 (.bin .mul (.r 0) (.r 2)),
  .set 83 (.bin .mul (.r 1) (.r 3)),
  .set 61 (.bin .mul (.r 0) (.r 0)),
  .set 62 (.bin .mul (.r 0) (.r 1)),
  .set 62 (.bin .add (.r 62) (.r 62)),
  .set 63 (.bin .mul (.r 1) (.r 1)),
  .set 63 (.bin .add (.r 63) (.bin .add (.r 82) (.r 82))),
  .set 64 (.bin .mul (.r 0) (.r 3)),
  .set 64 (.bin .add (.r 64) (.bin .mul (.r 1) (.r 2))),
  .set 64 (.bin .add (.r 64) (.r 64)),
  .set 65 (.bin .mul (.r 2) (.r 2)),
  .set 65 (.bin .add (.r 65) (.bin .add (.r 83) (.r 83))),
  .set 66 (.bin .mul (.r 2) (.r 3)),
  .set 66 (.bin .add (.r 66) (.r 66)),
  .set 67 (.bin .mul (.r 3) (.r 3)),
  .set 84 (.bin .mul (.r 4) (.r 6)),
  .set 85 (.bin .mul (.r 5) (.r 7)),
  .set 68 (.bin .mul (.r 4) (.r 4)),
  .set 69 (.bin .mul (.r 4) (.r 5)),
  .set 69 (.bin .add (.r 69) (.r 69)),
  .set 70 (.bin .mul (.r 5) (.r 5)),
  .set 70 (.bin .add (.r 70) (.bin .add (.r 84) (.r 84))),
  .set 71 (.bin .mul (.r 4) (.r 7)),
  .set 71 (.bin .add (.r 71) (.bin .mul (.r 5) (.r 6))),
  .set 71 (.bin .add (.r 71) (.r 71)),
  .set 72 (.bin .mul (.r 6) (.r 6)),
  .set 72 (.bin .add (.r 72) (.bin .add (.r 85) (.r 85))),
  .set 73 (.bin .mul (.r 6) (.r 7)),
  .set 73 (.bin .add (.r 73) (.r 73)),
  .set 74 (.bin .mul (.r 7) (.r 7)),
  .set 86 (.bin .mul (.bin .add (.r 0) (.r 4)) (.bin .add (.r 2) (.r 6))),
  .set 87 (.bin .mul (.bin .add (.r 1) (.r 5)) (.bin .add (.r 3) (.r 7))),
  .set 75 (.bin .mul (.bin .add (.r 0) (.r 4)) (.bin .add (.r 0) (.r 4))),
  .set 76 (.bin .mul (.bin .add (.r 0) (.r 4)) (.bin .add (.r 1) (.r 5))),
  .set 76 (.bin .add (.r 76) (.r 76)),
  .set 77 (.bin .mul (.bin .add (.r 1) (.r 5)) (.bin .add (.r 1) (.r 5))),
  .set 77 (.bin .add (.r 77) (.bin .add (.r 86) (.r 86))),
  .set 78 (.bin .mul (.bin .add (.r 0) (.r 4)) (.bin .add (.r 3) (.r 7))),
  .set 78 (.bin .add (.r 78) (.bin .mul (.bin .add (.r 1) (.r 5)) (.bin .add (.r 2) (.r 6)))),
  .set 78 (.bin .add (.r 78) (.r 78)),
  .set 79 (.bin .mul (.bin .add (.r 2) (.r 6)) (.bin .add (.r 2) (.r 6))),
  .set 79 (.bin .add (.r 79) (.bin .add (.r 87) (.r 87))),
  .set 80 (.bin .mul (.bin .add (.r 2) (.r 6)) (.bin .add (.r 3) (.r 7))),
  .set 80 (.bin .add (.r 80) (.r 80)),
  .set 81 (.bin .mul (.bin .add (.r 3) (.r 7)) (.bin .add (.r 3) (.r 7))),
  .set 88 (.bin .sub (.r 65) (.r 68)),
  .set 89 (.bin .sub (.r 66) (.r 69)),
  .set 90 (.bin .sub (.r 67) (.r 70)),
  .set 16 (.r 61),
  .set 24 (.bin .sub (.bin .sub (.r 79) (.r 72)) (.r 88)),
  .set 17 (.r 62),
  .set 25 (.bin .sub (.bin .sub (.r 80) (.r 73)) (.r 89)),
  .set 18 (.r 63),
  .set 26 (.bin .sub (.bin .sub (.r 81) (.r 74)) (.r 90)),
  .set 19 (.r 64),
  .set 27 (.r 71),
  .set 20 (.bin .add (.r 88) (.bin .sub (.r 75) (.r 61))),
  .set 28 (.r 72),
  .set 21 (.bin .add (.r 89) (.bin .sub (.r 76) (.r 62))),
  .set 29 (.r 73),
  .set 22 (.bin .add (.r 90) (.bin .sub (.r 77) (.r 63))),
  .set 30 (.r 74),
  .set 23 (.bin .sub (.bin .sub (.r 78) (.r 64)) (.r 71)),
  .set 112 (.bin .mul (.r 8) (.r 10)),
  .set 113 (.bin .mul (.r 9) (.r 11)),
  .set 91 (.bin .mul (.r 8) (.r 8)),
  .set 92 (.bin .mul (.r 8) (.r 9)),
  .set 92 (.bin .add (.r 92) (.r 92)),
  .set 93 (.bin .mul (.r 9) (.r 9)),
  .set 93 (.bin .add (.r 93) (.bin .add (.r 112) (.r 112))),
  .set 94 (.bin .mul (.r 8) (.r 11)),
  .set 94 (.bin .add (.r 94) (.bin .mul (.r 9) (.r 10))),
  .set 94 (.bin .add (.r 94) (.r 94)),
  .set 95 (.bin .mul (.r 10) (.r 10)),
  .set 95 (.bin .add (.r 95) (.bin .add (.r 113) (.r 113))),
  .set 96 (.bin .mul (.r 10) (.r 11)),
  .set 96 (.bin .add (.r 96) (.r 96)),
  .set 97 (.bin .mul (.r 11) (.r 11)),
  .set 114 (.bin .mul (.r 12) (.r 14)),
  .set 115 (.bin .mul (.r 13) (.r 15)),
  .set 98 (.bin .mul (.r 12) (.r 12)),
  .set 99 (.bin .mul (.r 12) (.r 13)),
  .set 99 (.bin .add (.r 99) (.r 99)),
  .set 100 (.bin .mul (.r 13) (.r 13)),
  .set 100 (.bin .add (.r 100) (.bin .add (.r 114) (.r 114))),
  .set 101 (.bin .mul (.r 12) (.r 15)),
  .set 101 (.bin .add (.r 101) (.bin .mul (.r 13) (.r 14))),
  .set 101 (.bin .add (.r 101) (.r 101)),
  .set 102 (.bin .mul (.r 14) (.r 14)),
  .set 102 (.bin .add (.r 102) (.bin .add (.r 115) (.r 115))),
  .set 103 (.bin .mul (.r 14) (.r 15)),
  .set 103 (.bin .add (.r 103) (.r 103)),
  .set 104 (.bin .mul (.r 15) (.r 15)),
  .set 116 (.bin .mul (.bin .add (.r 8) (.r 12)) (.bin .add (.r 10) (.r 14))),
  .set 117 (.bin .mul (.bin .add (.r 9) (.r 13)) (.bin .add (.r 11) (.r 15))),
  .set 105 (.bin .mul (.bin .add (.r 8) (.r 12)) (.bin .add (.r 8) (.r 12))),
  .set 106 (.bin .mul (.bin .add (.r 8) (.r 12)) (.bin .add (.r 9) (.r 13))),
  .set 106 (.bin .add (.r 106) (.r 106)),
  .set 107 (.bin .mul (.bin .add (.r 9) (.r 13)) (.bin .add (.r 9) (.r 13))),
  .set 107 (.bin .add (.r 107) (.bin .add (.r 116) (.r 116))),
  .set 108 (.bin .mul (.bin .add (.r 8) (.r 12)) (.bin .add (.r 11) (.r 15))),
  .set 108 (.bin .add (.r 108) (.bin .mul (.bin .add (.r 9) (.r 13)) (.bin .add (.r 10) (.r 14)))),
  .set 108 (.bin .add (.r 108) (.r 108)),
  .set 109 (.bin .mul (.bin .add (.r 10) (.r 14)) (.bin .add (.r 10) (.r 14))),
  .set 109 (.bin .add (.r 109) (.bin .add (.r 117) (.r 117))),
  .set 110 (.bin .mul (.bin .add (.r 10) (.r 14)) (.bin .add (.r 11) (.r 15))),
  .set 110 (.bin .add (.r 110) (.r 110)),
  .set 111 (.bin .mul (.bin .add (.r 11) (.r 15)) (.bin .add (.r 11) (.r 15))),
  .set 118 (.bin .sub (.r 95) (.r 98)),
  .set 119 (.bin .sub (.r 96) (.r 99)),
  .set 120 (.bin .sub (.r 97) (.r 100)),
  .set 31 (.r 91),
  .set 39 (.bin .sub (.bin .sub (.r 109) (.r 102)) (.r 118)),
  .set 32 (.r 92),
  .set 40 (.bin .sub (.bin .sub (.r 110) (.r 103)) (.r 119)),
  .set 33 (.r 93),
  .set 41 (.bin .sub (.bin .sub (.r 111) (.r 104)) (.r 120)),
  .set 34 (.r 94),
  .set 42 (.r 101),
  .set 35 (.bin .add (.r 118) (.bin .sub (.r 105) (.r 91))),
  .set 43 (.r 102),
  .set 36 (.bin .add (.r 119) (.bin .sub (.r 106) (.r 92))),
  .set 44 (.r 103),
  .set 37 (.bin .add (.r 120) (.bin .sub (.r 107) (.r 93))),
  .set 45 (.r 104),
  .set 38 (.bin .sub (.bin .sub (.r 108) (.r 94)) (.r 101)),
  .set 142 (.bin .mul (.bin .add (.r 0) (.r 8)) (.bin .add (.r 2) (.r 10))),
  .set 143 (.bin .mul (.bin .add (.r 1) (.r 9)) (.bin .add (.r 3) (.r 11))),
  .set 121 (.bin .mul (.bin .add (.r 0) (.r 8)) (.bin .add (.r 0) (.r 8))),
  .set 122 (.bin .mul (.bin .add (.r 0) (.r 8)) (.bin .add (.r 1) (.r 9))),
  .set 122 (.bin .add (.r 122) (.r 122)),
  .set 123 (.bin .mul (.bin .add (.r 1) (.r 9)) (.bin .add (.r 1) (.r 9))),
  .set 123 (.bin .add (.r 123) (.bin .add (.r 142) (.r 142))),
  .set 124 (.bin .mul (.bin .add (.r 0) (.r 8)) (.bin .add (.r 3) (.r 11))),
  .set 124 (.bin .add (.r 124) (.bin .mul (.bin .add (.r 1) (.r 9)) (.bin .add (.r 2) (.r 10)))),
  .set 124 (.bin .add (.r 124) (.r 124)),
  .set 125 (.bin .mul (.bin .add (.r 2) (.r 10)) (.bin .add (.r 2) (.r 10))),
  .set 125 (.bin .add (.r 125) (.bin .add (.r 143) (.r 143))),
  .set 126 (.bin .mul (.bin .add (.r 2) (.r 10)) (.bin .add (.r 3) (.r 11))),
  .set 126 (.bin .add (.r 126) (.r 126)),
  .set 127 (.bin .mul (.bin .add (.r 3) (.r 11)) (.bin .add (.r 3) (.r 11))),
  .set 144 (.bin .mul (.bin .add (.r 4) (.r 12)) (.bin .add (.r 6) (.r 14))),
  .set 145 (.bin .mul (.bin .add (.r 5) (.r 13)) (.bin .add (.r 7) (.r 15))),
  .set 128 (.bin .mul (.bin .add (.r 4) (.r 12)) (.bin .add (.r 4) (.r 12))),
  .set 129 (.bin .mul (.bin .add (.r 4) (.r 12)) (.bin .add (.r 5) (.r 13))),
  .set 129 (.bin .add (.r 129) (.r 129)),
  .set 130 (.bin .mul (.bin .add (.r 5) (.r 13)) (.bin .add (.r 5) (.r 13))),
  .set 130 (.bin .add (.r 130) (.bin .add (.r 144) (.r 144))),
  .set 131 (.bin .mul (.bin .add (.r 4) (.r 12)) (.bin .add (.r 7) (.r 15))),
  .set 131 (.bin .add (.r 131) (.bin .mul (.bin .add (.r 5) (.r 13)) (.bin .add (.r 6) (.r 14)))),
  .set 131 (.bin .add (.r 131) (.r 131)),
  .set 132 (.bin .mul (.bin .add (.r 6) (.r 14)) (.bin .add (.r 6) (.r 14))),
  .set 132 (.bin .add (.r 132) (.bin .add (.r 145) (.r 145))),
  .set 133 (.bin .mul (.bin .add (.r 6) (.r 14)) (.bin .add (.r 7) (.r 15))),
  .set 133 (.bin .add (.r 133) (.r 133)),
  .set 134 (.bin .mul (.bin .add (.r 7) (.r 15)) (.bin .add (.r 7) (.r 15))),
  .set 146 (.bin .mul (.bin .add (.bin .add (.r 0) (.r 8)) (.bin .add (.r 4) (.r 12))) (.bin .add (.bin .add (.r 2) (.r 10)) (.bin .add (.r 6) (.r 14)))),
  .set 147 (.bin .mul (.bin .add (.bin .add (.r 1) (.r 9)) (.bin .add (.r 5) (.r 13))) (.bin .add (.bin .add (.r 3) (.r 11)) (.bin .add (.r 7) (.r 15)))),
  .set 135 (.bin .mul (.bin .add (.bin .add (.r 0) (.r 8)) (.bin .add (.r 4) (.r 12))) (.bin .add (.bin .add (.r 0) (.r 8)) (.bin .add (.r 4) (.r 12)))),
  .set 136 (.bin .mul (.bin .add (.bin .add (.r 0) (.r 8)) (.bin .add (.r 4) (.r 12))) (.bin .add (.bin .add (.r 1) (.r 9)) (.bin .add (.r 5) (.r 13)))),
  .set 136 (.bin .add (.r 136) (.r 136)),
  .set 137 (.bin .mul (.bin .add (.bin .add (.r 1) (.r 9)) (.bin .add (.r 5) (.r 13))) (.bin .add (.bin .add (.r 1) (.r 9)) (.bin .add (.r 5) (.r 13)))),
  .set 137 (.bin .add (.r 137) (.bin .add (.r 146) (.r 146))),
  .set 138 (.bin .mul (.bin .add (.bin .add (.r 0) (.r 8)) (.bin .add (.r 4) (.r 12))) (.bin .add (.bin .add (.r 3) (.r 11)) (.bin .add (.r 7) (.r 15)))),
  .set 138 (.bin .add (.r 138) (.bin .mul (.bin .add (.bin .add (.r 1) (.r 9)) (.bin .add (.r 5) (.r 13))) (.bin .add (.bin .add (.r 2) (.r 10)) (.bin .add (.r 6) (.r 14))))),
  .set 138 (.bin .add (.r 138) (.r 138)),
  .set 139 (.bin .mul (.bin .add (.bin .add (.r 2) (.r 10)) (.bin .add (.r 6) (.r 14))) (.bin .add (.bin .add (.r 2) (.r 10)) (.bin .add (.r 6) (.r 14)))),
  .set 139 (.bin .add (.r 139) (.bin .add (.r 147) (.r 147))),
  .set 140 (.bin .mul (.bin .add (.bin .add (.r 2) (.r 10)) (.bin .add (.r 6) (.r 14))) (.bin .add (.bin .add (.r 3) (.r 11)) (.bin .add (.r 7) (.r 15)))),
  .set 140 (.bin .add (.r 140) (.r 140)),
  .set 141 (.bin .mul (.bin .add (.bin .add (.r 3) (.r 11)) (.bin .add (.r 7) (.r 15))) (.bin .add (.bin .add (.r 3) (.r 11)) (.bin .add (.r 7) (.r 15)))),
  .set 148 (.bin .sub (.r 125) (.r 128)),
  .set 149 (.bin .sub (.r 126) (.r 129)),
  .set 150 (.bin .sub (.r 127) (.r 130)),
  .set 46 (.r 121),
  .set 54 (.bin .sub (.bin .sub (.r 139) (.r 132)) (.r 148)),
  .set 47 (.r 122),
  .set 55 (.bin .sub (.bin .sub (.r 140) (.r 133)) (.r 149)),
  .set 48 (.r 123),
  .set 56 (.bin .sub (.bin .sub (.r 141) (.r 134)) (.r 150)),
  .set 49 (.r 124),
  .set 57 (.r 131),
  .set 50 (.bin .add (.r 148) (.bin .sub (.r 135) (.r 121))),
  .set 58 (.r 132),
  .set 51 (.bin .add (.r 149) (.bin .sub (.r 136) (.r 122))),
  .set 59 (.r 133),
  .set 52 (.bin .add (.r 150) (.bin .sub (.r 137) (.r 123))),
  .set 60 (.r 134),
  .set 53 (.bin .sub (.bin .sub (.r 138) (.r 124)) (.r 131)),
  .st 0 0 (.bin .sub (.bin .add (.bin .add (.r 16) (.r 31)) (.r 54)) (.r 24)),
  .st 0 1 (.bin .sub (.bin .add (.bin .add (.r 39) (.r 46)) (.r 54)) (.r 16)),
  .st 0 2 (.bin .sub (.bin .add (.bin .add (.r 17) (.r 32)) (.r 55)) (.r 25)),
  .st 0 3 (.bin .sub (.bin .add (.bin .add (.r 40) (.r 47)) (.r 55)) (.r 17)),
  .st 0 4 (.bin .sub (.bin .add (.bin .add (.r 18) (.r 33)) (.r 56)) (.r 26)),
  .st 0 5 (.bin .sub (.bin .add (.bin .add (.r 41) (.r 48)) (.r 56)) (.r 18)),
  .st 0 6 (.bin .sub (.bin .add (.bin .add (.r 19) (.r 34)) (.r 57)) (.r 27)),
  .st 0 7 (.bin .sub (.bin .add (.bin .add (.r 42) (.r 49)) (.r 57)) (.r 19)),
  .st 0 8 (.bin .sub (.bin .add (.bin .add (.r 20) (.r 35)) (.r 58)) (.r 28)),
  .st 0 9 (.bin .sub (.bin .add (.bin .add (.r 43) (.r 50)) (.r 58)) (.r 20)),
  .st 0 10 (.bin .sub (.bin .add (.bin .add (.r 21) (.r 36)) (.r 59)) (.r 29)),
  .st 0 11 (.bin .sub (.bin .add (.bin .add (.r 44) (.r 51)) (.r 59)) (.r 21)),
  .st 0 12 (.bin .sub (.bin .add (.bin .add (.r 22) (.r 37)) (.r 60)) (.r 30)),
  .st 0 13 (.bin .sub (.bin .add (.bin .add (.r 45) (.r 52)) (.r 60)) (.r 22)),
  .st 0 14 (.bin .add (.r 23) (.r 38)),
  .st 0 15 (.bin .sub (.r 53) (.r 23))]⟩

/-- src/eltfp448_4w_redradix.c:481-483 `intsqr`; parameters c = 0. -/
def intsqr : Fn := ⟨[16], [0], [], intsqr_karat.inl [0] 0⟩

/-- src/eltfp448_4w_redradix.c:495-525 `compress`; parameters C = 0. -/
def compress : Fn := ⟨[16], [0], [], [
  .set 0 (.un (.shr 28) (.ld 0 0)),
  .st 0 0 (.bin .and (.ld 0 0) (.lit 0xfffffff 0xfffffff 0xfffffff 0xfffffff)),
  .st 0 2 (.bin .add (.ld 0 2) (.r 0)),
  .set 0 (.un (.shr 28) (.ld 0 2)),
  .st 0 2 (.bin .and (.ld 0 2) (.lit 0xfffffff 0xfffffff 0xfffffff 0xfffffff)),
  .st 0 4 (.bin .add (.ld 0 4) (.r 0)),
  .set 0 (.un (.shr 28) (.ld 0 4)),
  .st 0 4 (.bin .and (.ld 0 4) (.lit 0xfffffff 0xfffffff 0xfffffff 0xfffffff)),
  .st 0 6 (.bin .add (.ld 0 6) (.r 0)),
  .set 0 (.un (.shr 28) (.ld 0 6)),
  .st 0 6 (.bin .and (.ld 0 6) (.lit 0xfffffff 0xfffffff 0xfffffff 0xfffffff)),
  .st 0 8 (.bin .add (.ld 0 8) (.r 0)),
  .set 0 (.un (.shr 28) (.ld 0 8)),
  .st 0 8 (.bin .and (.ld 0 8) (.lit 0xfffffff 0xfffffff 0xfffffff 0xfffffff)),
  .st 0 10 (.bin .add (.ld 0 10) (.r 0)),
  .set 0 (.un (.shr 28) (.ld 0 10)),
  .st 0 10 (.bin .and (.ld 0 10) (.lit 0xfffffff 0xfffffff 0xfffffff 0xfffffff)),
  .st 0 12 (.bin .add (.ld 0 12) (.r 0)),
  .set 0 (.un (.shr 28) (.ld 0 12)),
  .st 0 12 (.bin .and (.ld 0 12) (.lit 0xfffffff 0xfffffff 0xfffffff 0xfffffff)),
  .st 0 14 (.bin .add (.ld 0 14) (.r 0)),
  .set 0 (.un (.shr 28) (.ld 0 14)),
  .st 0 14 (.bin .and (.ld 0 14) (.lit 0xfffffff 0xfffffff 0xfffffff 0xfffffff)),
  .st 0 1 (.bin .add (.ld 0 1) (.r 0)),
  .set 0 (.un (.shr 28) (.ld 0 1)),
  .st 0 1 (.bin .and (.ld 0 1) (.lit 0xfffffff 0xfffffff 0xfffffff 0xfffffff)),
  .st 0 3 (.bin .add (.ld 0 3) (.r 0)),
  .set 0 (.un (.shr 28) (.ld 0 3)),
  .st 0 3 (.bin .and (.ld 0 3) (.lit 0xfffffff 0xfffffff 0xfffffff 0xfffffff)),
  .st 0 5 (.bin .add (.ld 0 5) (.r 0)),
  .set 0 (.un (.shr 28) (.ld 0 5)),
  .st 0 5 (.bin .and (.ld 0 5) (.lit 0xfffffff 0xfffffff 0xfffffff 0xfffffff)),
  .st 0 7 (.bin .add (.ld 0 7) (.r 0)),
  .set 0 (.un (.shr 28) (.ld 0 7)),
  .st 0 7 (.bin .and (.ld 0 7) (.lit 0xfffffff 0xfffffff 0xfffffff 0xfffffff)),
  .st 0 9 (.bin .add (.ld 0 9) (.r 0)),
  .set 0 (.un (.shr 28) (.ld 0 9)),
  .st 0 9 (.bin .and (.ld 0 9) (.lit 0xfffffff 0xfffffff 0xfffffff 0xfffffff)),
  .st 0 11 (.bin .add (.ld 0 11) (.r 0)),
  .set 0 (.un (.shr 28) (.ld 0 11)),
  .st 0 11 (.bin .and (.ld 0 11) (.lit 0xfffffff 0xfffffff 0xfffffff 0xfffffff)),
  .st 0 13 (.bin .add (.ld 0 13) (.r 0)),
  .set 0 (.un (.shr 28) (.ld 0 13)),
  .st 0 13 (.bin .and (.ld 0 13) (.lit 0xfffffff 0xfffffff 0xfffffff 0xfffffff)),
  .st 0 15 (.bin .add (.ld 0 15) (.r 0)),
  .set 1 (.un (.shr 28) (.ld 0 15)),
  .st 0 15 (.bin .and (.ld 0 15) (.lit 0xfffffff 0xfffffff 0xfffffff 0xfffffff)),
  .st 0 0 (.bin .add (.ld 0 0) (.r 1)),
  .set 0 (.un (.shr 28) (.ld 0 0)),
  .st 0 0 (.bin .and (.ld 0 0) (.lit 0xfffffff 0xfffffff 0xfffffff 0xfffffff)),
  .st 0 2 (.bin .add (.ld 0 2) (.r 0)),
  .set 0 (.un (.shr 28) (.ld 0 2)),
  .st 0 2 (.bin .and (.ld 0 2) (.lit 0xfffffff 0xfffffff 0xfffffff 0xfffffff)),
  .st 0 4 (.bin .add (.ld 0 4) (.r 0)),
  .st 0 1 (.bin .add (.ld 0 1) (.r 1)),
  .set 0 (.un (.shr 28) (.ld 0 1)),
  .st 0 1 (.bin .and (.ld 0 1) (.lit 0xfffffff 0xfffffff 0xfffffff 0xfffffff)),
  .st 0 3 (.bin .add (.ld 0 3) (.r 0)),
  .set 0 (.un (.shr 28) (.ld 0 3)),
  .st 0 3 (.bin .and (.ld 0 3) (.lit 0xfffffff 0xfffffff 0xfffffff 0xfffffff)),
  .st 0 5 (.bin .add (.ld 0 5) (.r 0))]⟩

/-- src/eltfp448_4w_redradix.c:527-557 `compress2`; parameters C = 0, D = 1. -/
def compress2 : Fn := ⟨[16, 16], [0, 1], [], [
  .set 0 (.un (.shr 28) (.ld 0 0)),
  .st 0 0 (.bin .and (.ld 0 0) (.lit 0xfffffff 0xfffffff 0xfffffff 0xfffffff)),
  .st 0 2 (.bin .add (.ld 0 2) (.r 0)),
  .set 1 (.un (.shr 28) (.ld 1 0)),
  .st 1 0 (.bin .and (.ld 1 0) (.lit 0xfffffff 0xfffffff 0xfffffff 0xfffffff)),
  .st 1 2 (.bin .add (.ld 1 2) (.r 1)),
  .set 0 (.un (.shr 28) (.ld 0 2)),
  .st 0 2 (.bin .and (.ld 0 2) (.lit 0xfffffff 0xfffffff 0xfffffff 0xfffffff)),
  .st 0 4 (.bin .add (.ld 0 4) (.r 0)),
  .set 1 (.un (.shr 28) (.ld 1 2)),
  .st 1 2 (.bin .and (.ld 1 2) (.lit 0xfffffff 0xfffffff 0xfffffff 0xfffffff)),
  .st 1 4 (.bin .add (.ld 1 4) (.r 1)),
  .set 0 (.un (.shr 28) (.ld 0 4)),
  .st 0 4 (.bin .and (.ld 0 4) (.lit 0xfffffff 0xfffffff 0xfffffff 0xfffffff)),
  .st 0 6 (.bin .add (.ld 0 6) (.r 0)),
  .set 1 (.un (.shr 28) (.ld 1 4)),
  .st 1 4 (.bin .and (.ld 1 4) (.lit 0xfffffff 0xfffffff 0xfffffff 0xfffffff)),
  .st 1 6 (.bin .add (.ld 1 6) (.r 1)),
  .set 0 (.un (.shr 28) (.ld 0 6)),
  .st 0 6 (.bin .and (.ld 0 6) (.lit 0xfffffff 0xfffffff 0xfffffff 0xfffffff)),
  .st 0 8 (.bin .add (.ld 0 8) (.r 0)),
  .set 1 (.un (.shr 28) (.ld 1 6)),
  .st 1 6 (.bin .and (.ld 1 6) (.lit 0xfffffff 0xfffffff 0xfffffff 0xfffffff)),
  .st 1 8 (.bin .add (.ld 1 8) (.r 1)),
  .set 0 (.un (.shr 28) (.ld 0 8)),
  .st 0 8 (.bin .and (.ld 0 8) (.lit 0xfffffff 0xfffffff 0xfffffff 0xfffffff)),
  .st 0 10 (.bin .add (.ld 0 10) (.r 0)),
  .set 1 (.un (.shr 28) (.ld 1 8)),
  .st 1 8 (.bin .and (.ld 1 8) (.lit 0xfffffff 0xfffffff 0xfffffff 0xfffffff)),
  .st 1 10 (.bin .add (.ld 1 10) (.r 1)),
  .set 0 (.un (.shr 28) (.ld 0 10)),
  .st 0 10 (.bin .and (.ld 0 10) (.lit 0xfffffff 0xfffffff 0xfffffff 0xfffffff)),
  .st 0 12 (.bin .add (.ld 0 12) (.r 0)),
  .set 1 (.un (.shr 28) (.ld 1 10)),
  .st 1 10 (.bin .and (.ld 1 10) (.lit 0xfffffff 0xfffffff 0xfffffff 0xfffffff)),
  .st 1 12 (.bin .add (.ld 1 12) (.r 1)),
  .set 0 (.un (.shr 28) (.ld 0 12)),
  .st 0 12 (.bin .and (.ld 0 12) (.lit 0xfffffff 0xfffffff 0xfffffff 0xfffffff)),
  .st 0 14 (.bin .add (.ld 0 14) (.r 0)),
  .set 1 (.un (.shr 28) (.ld 1 12)),
  .st 1 12 (.bin .and (.ld 1 12) (.lit 0xfffffff 0xfffffff 0xfffffff 0xfffffff)),
  .st 1 14 (.bin .add (.ld 1 14) (.r 1)),
  .set 0 (.un (.shr 28) (.ld 0 14)),
  .st 0 14 (.bin .and (.ld 0 14) (.lit 0xfffffff 0xfffffff 0xfffffff 0xfffffff)),
  .st 0 1 (.bin .add (.ld 0 1) (.r 0)),
  .set 1 (.un (.shr 28) (.ld 1 14)),
  .st 1 14 (.bin .and (.ld 1 14) (.lit 0xfffffff 0xfffffff 0xfffffff 0xfffffff)),
  .st 1 1 (.bin .add (.ld 1 1) (.r 1)),
  .set 0 (.un (.shr 28) (.ld 0 1)),
  .st 0 1 (.bin .and (.ld 0 1) (.lit 0xfffffff 0xfffffff 0xfffffff 0xfffffff)),
  .st 0 3 (.bin .add (.ld 0 3) (.r 0)),
  .set 1 (.un (.shr 28) (.ld 1 1)),
  .st 1 1 (.bin .and (.ld 1 1) (.lit 0xfffffff 0xfffffff 0xfffffff 0xfffffff)),
  .st 1 3 (.bin .add (.ld 1 3) (.r 1)),
  .set 0 (.un (.shr 28) (.ld 0 3)),
  .st 0 3 (.bin .and (.ld 0 3) (.lit 0xfffffff 0xfffffff 0xfffffff 0xfffffff)),
  .st 0 5 (.bin .add (.ld 0 5) (.r 0)),
  .set 1 (.un (.shr 28) (.ld 1 3)),
  .st 1 3 (.bin .and (.ld 1 3) (.lit 0xfffffff 0xfffffff 0xfffffff 0xfffffff)),
  .st 1 5 (.bin .add (.ld 1 5) (.r 1)),
  .set 0 (.un (.shr 28) (.ld 0 5)),
  .st 0 5 (.bin .and (.ld 0 5) (.lit 0xfffffff 0xfffffff 0xfffffff 0xfffffff)),
  .st 0 7 (.bin .add (.ld 0 7) (.r 0)),
  .set 1 (.un (.shr 28) (.ld 1 5)),
  .st 1 5 (.bin .and (.ld 1 5) (.lit 0xfffffff 0xfffffff 0xfffffff 0xfffffff)),
  .st 1 7 (.bin .add (.ld 1 7) (.r 1)),
  .set 0 (.un (.shr 28) (.ld 0 7)),
  .st 0 7 (.bin .and (.ld 0 7) (.lit 0xfffffff 0xfffffff 0xfffffff 0xfffffff)),
  .st 0 9 (.bin .add (.ld 0 9) (.r 0)),
  .set 1 (.un (.shr 28) (.ld 1 7)),
  .st 1 7 (.bin .and (.ld 1 7) (.lit 0xfffffff 0xfffffff 0xfffffff 0xfffffff)),
  .st 1 9 (.bin .add (.ld 1 9) (.r 1)),
  .set 0 (.un (.shr 28) (.ld 0 9)),
  .st 0 9 (.bin .and (.ld 0 9) (.lit 0xfffffff 0xfffffff 0xfffffff 0xfffffff)),
  .st 0 11 (.bin .add (.ld 0 11) (.r 0)),
  .set 1 (.un (.shr 28) (.ld 1 9)),
  .st 1 9 (.bin .and (.ld 1 9) (.lit 0xfffffff 0xfffffff 0xfffffff 0xfffffff)),
  .st 1 11 (.bin .add (.ld 1 11) (.r 1)),
  .set 0 (.un (.shr 28) (.ld 0 11)),
  .st 0 11 (.bin .and (.ld 0 11) (.lit 0xfffffff 0xfffffff 0xfffffff 0xfffffff)),
  .st 0 13 (.bin .add (.ld 0 13) (.r 0)),
  .set 1 (.un (.shr 28) (.ld 1 11)),
  .st 1 11 (.bin .and (.ld 1 11) (.lit 0xfffffff 0xfffffff 0xfffffff 0xfffffff)),
  .st 1 13 (.bin .add (.ld 1 13) (.r 1)),
  .set 0 (.un (.shr 28) (.ld 0 13)),
  .st 0 13 (.bin .and (.ld 0 13) (.lit 0xfffffff 0xfffffff 0xfffffff 0xfffffff)),
  .st 0 15 (.bin .add (.ld 0 15) (.r 0)),
  .set 1 (.un (.shr 28) (.ld 1 13)),
  .st 1 13 (.bin .and (.ld 1 13) (.lit 0xfffffff 0xfffffff 0xfffffff 0xfffffff)),
  .st 1 15 (.bin .add (.ld 1 15) (.r 1)),
  .set 2 (.un (.shr 28) (.ld 0 15)),
  .set 3 (.un (.shr 28) (.ld 1 15)),
  .st 0 15 (.bin .and (.ld 0 15) (.lit 0xfffffff 0xfffffff 0xfffffff 0xfffffff)),
  .st 1 15 (.bin .and (.ld 1 15) (.lit 0xfffffff 0xfffffff 0xfffffff 0xfffffff)),
  .st 0 0 (.bin .add (.ld 0 0) (.r 2)),
  .st 1 0 (.bin .add (.ld 1 0) (.r 3)),
  .set 0 (.un (.shr 28) (.ld 0 0)),
  .st 0 0 (.bin .and (.ld 0 0) (.lit 0xfffffff 0xfffffff 0xfffffff 0xfffffff)),
  .st 0 2 (.bin .add (.ld 0 2) (.r 0)),
  .set 1 (.un (.shr 28) (.ld 1 0)),
  .st 1 0 (.bin .and (.ld 1 0) (.lit 0xfffffff 0xfffffff 0xfffffff 0xfffffff)),
  .st 1 2 (.bin .add (.ld 1 2) (.r 1)),
  .set 0 (.un (.shr 28) (.ld 0 2)),
  .st 0 2 (.bin .and (.ld 0 2) (.lit 0xfffffff 0xfffffff 0xfffffff 0xfffffff)),
  .st 0 4 (.bin .add (.ld 0 4) (.r 0)),
  .set 1 (.un (.shr 28) (.ld 1 2)),
  .st 1 2 (.bin .and (.ld 1 2) (.lit 0xfffffff 0xfffffff 0xfffffff 0xfffffff)),
  .st 1 4 (.bin .add (.ld 1 4) (.r 1)),
  .st 0 1 (.bin .add (.ld 0 1) (.r 2)),
  .st 1 1 (.bin .add (.ld 1 1) (.r 3)),
  .set 0 (.un (.shr 28) (.ld 0 1)),
  .st 0 1 (.bin .and (.ld 0 1) (.lit 0xfffffff 0xfffffff 0xfffffff 0xfffffff)),
  .st 0 3 (.bin .add (.ld 0 3) (.r 0)),
  .set 1 (.un (.shr 28) (.ld 1 1)),
  .st 1 1 (.bin .and (.ld 1 1) (.lit 0xfffffff 0xfffffff 0xfffffff 0xfffffff)),
  .st 1 3 (.bin .add (.ld 1 3) (.r 1)),
  .set 0 (.un (.shr 28) (.ld 0 3)),
  .st 0 3 (.bin .and (.ld 0 3) (.lit 0xfffffff 0xfffffff 0xfffffff 0xfffffff)),
  .st 0 5 (.bin .add (.ld 0 5) (.r 0)),
  .set 1 (.un (.shr 28) (.ld 1 3)),
  .st 1 3 (.bin .and (.ld 1 3) (.lit 0xfffffff 0xfffffff 0xfffffff 0xfffffff)),
  .st 1 5 (.bin .add (.ld 1 5) (.r 1))]⟩

/-- src/eltfp448_4w_redradix.c:559-594 `compressfast`; parameters C = 0. -/
def compressfast : Fn := ⟨[16], [0], [], [
  .set 0 (.un (.shr 28) (.ld 0 0)),
  .set 0 (.bin .and (.r 0) (.lit 0xfffffff 0xfffffff 0xfffffff 0xfffffff)),
  .set 16 (.un (.shr 56) (.ld 0 0)),
  .st 0 0 (.bin .and (.ld 0 0) (.lit 0xfffffff 0xfffffff 0xfffffff 0xfffffff)),
  .set 1 (.un (.shr 28) (.ld 0 1)),
  .set 1 (.bin .and (.r 1) (.lit 0xfffffff 0xfffffff 0xfffffff 0xfffffff)),
  .set 17 (.un (.shr 56) (.ld 0 1)),
  .st 0 1 (.bin .and (.ld 0 1) (.lit 0xfffffff 0xfffffff 0xfffffff 0xfffffff)),
  .set 2 (.un (.shr 28) (.ld 0 2)),
  .set 2 (.bin .and (.r 2) (.lit 0xfffffff 0xfffffff 0xfffffff 0xfffffff)),
  .set 18 (.un (.shr 56) (.ld 0 2)),
  .st 0 2 (.bin .and (.ld 0 2) (.lit 0xfffffff 0xfffffff 0xfffffff 0xfffffff)),
  .set 3 (.un (.shr 28) (.ld 0 3)),
  .set 3 (.bin .and (.r 3) (.lit 0xfffffff 0xfffffff 0xfffffff 0xfffffff)),
  .set 19 (.un (.shr 56) (.ld 0 3)),
  .st 0 3 (.bin .and (.ld 0 3) (.lit 0xfffffff 0xfffffff 0xfffffff 0xfffffff)),
  .set 4 (.un (.shr 28) (.ld 0 4)),
  .set 4 (.bin .and (.r 4) (.lit 0xfffffff 0xfffffff 0xfffffff 0xfffffff)),
  .set 20 (.un (.shr 56) (.ld 0 4)),
  .st 0 4 (.bin .and (.ld 0 4) (.lit 0xfffffff 0xfffffff 0xfffffff 0xfffffff)),
  .set 5 (.un (.shr 28) (.ld 0 5)),
  .set 5 (.bin .and (.r 5) (.lit 0xfffffff 0xfffffff 0xfffffff 0xfffffff)),
  .set 21 (.un (.shr 56) (.ld 0 5)),
  .st 0 5 (.bin .and (.ld 0 5) (.lit 0xfffffff 0xfffffff 0xfffffff 0xfffffff)),
  .set 6 (.un (.shr 28) (.ld 0 6)),
  .set 6 (.bin .and (.r 6) (.lit 0xfffffff 0xfffffff 0xfffffff 0xfffffff)),
  .set 22 (.un (.shr 56) (.ld 0 6)),
  .st 0 6 (.bin .and (.ld 0 6) (.lit 0xfffffff 0xfffffff 0xfffffff 0xfffffff)),
  .set 7 (.un (.shr 28) (.ld 0 7)),
  .set 7 (.bin .and (.r 7) (.lit 0xfffffff 0xfffffff 0xfffffff 0xfffffff)),
  .set 23 (.un (.shr 56) (.ld 0 7)),
  .st 0 7 (.bin .and (.ld 0 7) (.lit 0xfffffff 0xfffffff 0xfffffff 0xfffffff)),
  .set 8 (.un (.shr 28) (.ld 0 8)),
  .set 8 (.bin .and (.r 8) (.lit 0xfffffff 0xfffffff 0xfffffff 0xfffffff)),
  .set 24 (.un (.shr 56) (.ld 0 8)),
  .st 0 8 (.bin .and (.ld 0 8) (.lit 0xfffffff 0xfffffff 0xfffffff 0xfffffff)),
  .set 9 (.un (.shr 28) (.ld 0 9)),
  .set 9 (.bin .and (.r 9) (.lit 0xfffffff 0xfffffff 0xfffffff 0xfffffff)),
  .set 25 (.un (.shr 56) (.ld 0 9)),
  .st 0 9 (.bin .and (.ld 0 9) (.lit 0xfffffff 0xfffffff 0xfffffff 0xfffffff)),
  .set 10 (.un (.shr 28) (.ld 0 10)),
  .set 10 (.bin .and (.r 10) (.lit 0xfffffff 0xfffffff 0xfffffff 0xfffffff)),
  .set 26 (.un (.shr 56) (.ld 0 10)),
  .st 0 10 (.bin .and (.ld 0 10) (.lit 0xfffffff 0xfffffff 0xfffffff 0xfffffff)),
  .set 11 (.un (.shr 28) (.ld 0 11)),
  .set 11 (.bin .and (.r 11) (.lit 0xfffffff 0xfffffff 0xfffffff 0xfffffff)),
  .set 27 (.un (.shr 56) (.ld 0 11)),
  .st 0 11 (.bin .and (.ld 0 11) (.lit 0xfffffff 0xfffffff 0xfffffff 0xfffffff)),
  .set 12 (.un (.shr 28) (.ld 0 12)),
  .set 12 (.bin .and (.r 12) (.lit 0xfffffff 0xfffffff 0xfffffff 0xfffffff)),
  .set 28 (.un (.shr 56) (.ld 0 12)),
  .st 0 12 (.bin .and (.ld 0 12) (.lit 0xfffffff 0xfffffff 0xfffffff 0xfffffff)),
  .set 13 (.un (.shr 28) (.ld 0 13)),
  .set 13 (.bin .and (.r 13) (.lit 0xfffffff 0xfffffff 0xfffffff 0xfffffff)),
  .set 29 (.un (.shr 56) (.ld 0 13)),
  .st 0 13 (.bin .and (.ld 0 13) (.lit 0xfffffff 0xfffffff 0xfffffff 0xfffffff)),
  .set 14 (.un (.shr 28) (.ld 0 14)),
  .set 14 (.bin .and (.r 14) (.lit 0xfffffff 0xfffffff 0xfffffff 0xfffffff)),
  .set 30 (.un (.shr 56) (.ld 0 14)),
  .st 0 14 (.bin .and (.ld 0 14) (.lit 0xfffffff 0xfffffff 0xfffffff 0xfffffff)),
  .set 15 (.un (.shr 28) (.ld 0 15)),
  .set 15 (.bin .and (.r 15) (.lit 0xfffffff 0xfffffff 0xfffffff 0xfffffff)),
  .set 31 (.un (.shr 56) (.ld 0 15)),
  .st 0 15 (.bin .and (.ld 0 15) (.lit 0xfffffff 0xfffffff 0xfffffff 0xfffffff)),
  .st 0 0 (.bin .add (.ld 0 0) (.bin .add (.r 15) (.r 29))),
  .st 0 2 (.bin .add (.ld 0 2) (.bin .add (.r 0) (.r 31))),
  .st 0 4 (.bin .add (.ld 0 4) (.bin .add (.r 2) (.r 16))),
  .st 0 6 (.bin .add (.ld 0 6) (.bin .add (.r 4) (.r 18))),
  .st 0 8 (.bin .add (.ld 0 8) (.bin .add (.r 6) (.r 20))),
  .st 0 10 (.bin .add (.ld 0 10) (.bin .add (.r 8) (.r 22))),
  .st 0 12 (.bin .add (.ld 0 12) (.bin .add (.r 10) (.r 24))),
  .st 0 14 (.bin .add (.ld 0 14) (.bin .add (.r 12) (.r 26))),
  .st 0 1 (.bin .add (.ld 0 1) (.bin .add (.r 15) (.r 29))),
  .st 0 3 (.bin .add (.ld 0 3) (.r 31)),
  .st 0 1 (.bin .add (.ld 0 1) (.bin .add (.r 14) (.r 28))),
  .st 0 3 (.bin .add (.ld 0 3) (.bin .add (.r 1) (.r 30))),
  .st 0 5 (.bin .add (.ld 0 5) (.bin .add (.r 3) (.r 17))),
  .st 0 7 (.bin .add (.ld 0 7) (.bin .add (.r 5) (.r 19))),
  .st 0 9 (.bin .add (.ld 0 9) (.bin .add (.r 7) (.r 21))),
  .st 0 11 (.bin .add (.ld 0 11) (.bin .add (.r 9) (.r 23))),
  .st 0 13 (.bin .add (.ld 0 13) (.bin .add (.r 11) (.r 25))),
  .st 0 15 (.bin .add (.ld 0 15) (.bin .add (.r 13) (.r 27)))]⟩

/-- src/eltfp448_4w_redradix.c:596-629 `new_compressfast2`; parameters C = 0, D = 1. -/
def new_compressfast2 : Fn := ⟨[16, 16], [0, 1], [], [
  .set 0 (.un (.shr 28) (.ld 0 0)),
  .set 16 (.un (.shr 28) (.ld 1 0)),
  .set 0 (.bin .and (.r 0) (.lit 0xfffffff 0xfffffff 0xfffffff 0xfffffff)),
  .set 16 (.bin .and (.r 16) (.lit 0xfffffff 0xfffffff 0xfffffff 0xfffffff)),
  .st 0 0 (.bin .and (.ld 0 0) (.lit 0xfffffff 0xfffffff 0xfffffff 0xfffffff)),
  .st 1 0 (.bin .and (.ld 1 0) (.lit 0xfffffff 0xfffffff 0xfffffff 0xfffffff)),
  .set 1 (.un (.shr 28) (.ld 0 1)),
  .set 17 (.un (.shr 28) (.ld 1 1)),
  .set 1 (.bin .and (.r 1) (.lit 0xfffffff 0xfffffff 0xfffffff 0xfffffff)),
  .set 17 (.bin .and (.r 17) (.lit 0xfffffff 0xfffffff 0xfffffff 0xfffffff)),
  .st 0 1 (.bin .and (.ld 0 1) (.lit 0xfffffff 0xfffffff 0xfffffff 0xfffffff)),
  .st 1 1 (.bin .and (.ld 1 1) (.lit 0xfffffff 0xfffffff 0xfffffff 0xfffffff)),
  .set 2 (.un (.shr 28) (.ld 0 2)),
  .set 18 (.un (.shr 28) (.ld 1 2)),
  .set 2 (.bin .and (.r 2) (.lit 0xfffffff 0xfffffff 0xfffffff 0xfffffff)),
  .set 18 (.bin .and (.r 18) (.lit 0xfffffff 0xfffffff 0xfffffff 0xfffffff)),
  .st 0 2 (.bin .and (.ld 0 2) (.lit 0xfffffff 0xfffffff 0xfffffff 0xfffffff)),
  .st 1 2 (.bin .and (.ld 1 2) (.lit 0xfffffff 0xfffffff 0xfffffff 0xfffffff)),
  .set 3 (.un (.shr 28) (.ld 0 3)),
  .set 19 (.un (.shr 28) (.ld 1 3)),
  .set 3 (.bin .and (.r 3) (.lit 0xfffffff 0xfffffff 0xfffffff 0xfffffff)),
  .set 19 (.bin .and (.r 19) (.lit 0xfffffff 0xfffffff 0xfffffff 0xfffffff)),
  .st 0 3 (.bin .and (.ld 0 3) (.lit 0xfffffff 0xfffffff 0xfffffff 0xfffffff)),
  .st 1 3 (.bin .and (.ld 1 3) (.lit 0xfffffff 0xfffffff 0xfffffff 0xfffffff)),
  .set 4 (.un (.shr 28) (.ld 0 4)),
  .set 20 (.un (.shr 28) (.ld 1 4)),
  .set 4 (.bin .and (.r 4) (.lit 0xfffffff 0xfffffff 0xfffffff 0xfffffff)),
  .set 20 (.bin .and (.r 20) (.lit 0xfffffff 0xfffffff 0xfffffff 0xfffffff)),
  .st 0 4 (.bin .and (.ld 0 4) (.lit 0xfffffff 0xfffffff 0xfffffff 0xfffffff)),
  .st 1 4 (.bin .and (.ld 1 4) (.lit 0xfffffff 0xfffffff 0xfffffff 0xfffffff)),
  .set 5 (.un (.shr 28) (.ld 0 5)),
  .set 21 (.un (.shr 28) (.ld 1 5)),
  .set 5 (.bin .and (.r 5) (.lit 0xfffffff 0xfffffff 0xfffffff 0xfffffff)),
  .set 21 (.bin .and (.r 21) (.lit 0xfffffff 0xfffffff 0xfffffff 0xfffffff)),
  .st 0 5 (.bin .and (.ld 0 5) (.lit 0xfffffff 0xfffffff 0xfffffff 0xfffffff)),
  .st 1 5 (.bin .and (.ld 1 5) (.lit 0xfffffff 0xfffffff 0xfffffff 0xfffffff)),
  .set 6 (.un (.shr 28) (.ld 0 6)),
  .set 22 (.un (.shr 28) (.ld 1 6)),
  .set 6 (.bin .and (.r 6) (.lit 0xfffffff 0xfffffff 0xfffffff 0xfffffff)),
  .set 22 (.bin .and (.r 22) (.lit 0xfffffff 0xfffffff 0xfffffff 0xfffffff)),
  .st 0 6 (.bin .and (.ld 0 6) (.lit 0xfffffff 0xfffffff 0xfffffff 0xfffffff)),
  .st 1 6 (.bin .and (.ld 1 6) (.lit 0xfffffff 0xfffffff 0xfffffff 0xfffffff)),
  .set 7 (.un (.shr 28) (.ld 0 7)),
  .set 23 (.un (.shr 28) (.ld 1 7)),
  .set 7 (.bin .and (.r 7) (.lit 0xfffffff 0xfffffff 0xfffffff 0xfffffff)),
  .set 23 (.bin .and (.r 23) (.lit 0xfffffff 0xfffffff 0xfffffff 0xfffffff)),
  .st 0 7 (.bin .and (.ld 0 7) (.lit 0xfffffff 0xfffffff 0xfffffff 0xfffffff)),
  .st 1 7 (.bin .and (.ld 1 7) (.lit 0xfffffff 0xfffffff 0xfffffff 0xfffffff)),
  .set 8 (.un (.shr 28) (.ld 0 8)),
  .set 24 (.un (.shr 28) (.ld 1 8)),
  .set 8 (.bin .and (.r 8) (.lit 0xfffffff 0xfffffff 0xfffffff 0xfffffff)),
  .set 24 (.bin .and (.r 24) (.lit 0xfffffff 0xfffffff 0xfffffff 0xfffffff)),
  .st 0 8 (.bin .and (.ld 0 8) (.lit 0xfffffff 0xfffffff 0xfffffff 0xfffffff)),
  .st 1 8 (.bin .and (.ld 1 8) (.lit 0xfffffff 0xfffffff 0xfffffff 0xfffffff)),
  .set 9 (.un (.shr 28) (.ld 0 9)),
  .set 25 (.un (.shr 28) (.ld 1 9)),
  .set 9 (.bin .and (.r 9) (.lit 0xfffffff 0xfffffff 0xfffffff 0xfffffff)),
  .set 25 (.bin .and (.r 25) (.lit 0xfffffff 0xfffffff 0xfffffff 0xfffffff)),
  .st 0 9 (.bin .and (.ld 0 9) (.lit 0xfffffff 0xfffffff 0xfffffff 0xfffffff)),
  .st 1 9 (.bin .and (.ld 1 9) (.lit 0xfffffff 0xfffffff 0xfffffff 0xfffffff)),
  .set 10 (.un (.shr 28) (.ld 0 10)),
  .set 26 (.un (.shr 28) (.ld 1 10)),
  .set 10 (.bin .and (.r 10) (.lit 0xfffffff 0xfffffff 0xfffffff 0xfffffff)),
  .set 26 (.bin .and (.r 26) (.lit 0xfffffff 0xfffffff 0xfffffff 0xfffffff)),
  .st 0 10 (.bin .and (.ld 0 10) (.lit 0xfffffff 0xfffffff 0xfffffff 0xfffffff)),
  .st 1 10 (.bin .and (.ld 1 10) (.lit 0xfffffff 0xfffffff 0xfffffff 0xfffffff)),
  .set 11 (.un (.shr 28) (.ld 0 11)),
  .set 27 (.un (.shr 28) (.ld 1 11)),
  .set 11 (.bin .and (.r 11) (.lit 0xfffffff 0xfffffff 0xfffffff 0xfffffff)),
  .set 27 (.bin .and (.r 27) (.lit 0xfffffff 0xfffffff 0xfffffff 0xfffffff)),
  .st 0 11 (.bin .and (.ld 0 11) (.lit 0xfffffff 0xfffffff 0xfffffff 0xfffffff)),
  .st 1 11 (.bin .and (.ld 1 11) (.lit 0xfffffff 0xfffffff 0xfffffff 0xfffffff)),
  .set 12 (.un (.shr 28) (.ld 0 12)),
  .set 28 (.un (.shr 28) (.ld 1 12)),
  .set 12 (.bin .and (.r 12) (.lit 0xfffffff 0xfffffff 0xfffffff 0xfffffff)),
  .set 28 (.bin .and (.r 28) (.lit 0xfffffff 0xfffffff 0xfffffff 0xfffffff)),
  .st 0 12 (.bin .and (.ld 0 12) (.lit 0xfffffff 0xfffffff 0xfffffff 0xfffffff)),
  .st 1 12 (.bin .and (.ld 1 12) (.lit 0xfffffff 0xfffffff 0xfffffff 0xfffffff)),
  .set 13 (.un (.shr 28) (.ld 0 13)),
  .set 29 (.un (.shr 28) (.ld 1 13)),
  .set 13 (.bin .and (.r 13) (.lit 0xfffffff 0xfffffff 0xfffffff 0xfffffff)),
  .set 29 (.bin .and (.r 29) (.lit 0xfffffff 0xfffffff 0xfffffff 0xfffffff)),
  .st 0 13 (.bin .and (.ld 0 13) (.lit 0xfffffff 0xfffffff 0xfffffff 0xfffffff)),
  .st 1 13 (.bin .and (.ld 1 13) (.lit 0xfffffff 0xfffffff 0xfffffff 0xfffffff)),
  .set 14 (.un (.shr 28) (.ld 0 14)),
  .set 30 (.un (.shr 28) (.ld 1 14)),
  .set 14 (.bin .and (.r 14) (.lit 0xfffffff 0xfffffff 0xfffffff 0xfffffff)),
  .set 30 (.bin .and (.r 30) (.lit 0xfffffff 0xfffffff 0xfffffff 0xfffffff)),
  .st 0 14 (.bin .and (.ld 0 14) (.lit 0xfffffff 0xfffffff 0xfffffff 0xfffffff)),
  .st 1 14 (.bin .and (.ld 1 14) (.lit 0xfffffff 0xfffffff 0xfffffff 0xfffffff)),
  .set 15 (.un (.shr 28) (.ld 0 15)),
  .set 31 (.un (.shr 28) (.ld 1 15)),
  .set 15 (.bin .and (.r 15) (.lit 0xfffffff 0xfffffff 0xfffffff 0xfffffff)),
  .set 31 (.bin .and (.r 31) (.lit 0xfffffff 0xfffffff 0xfffffff 0xfffffff)),
  .st 0 15 (.bin .and (.ld 0 15) (.lit 0xfffffff 0xfffffff 0xfffffff 0xfffffff)),
  .st 1 15 (.bin .and (.ld 1 15) (.lit 0xfffffff 0xfffffff 0xfffffff 0xfffffff)),
  .st 0 0 (.bin .add (.ld 0 0) (.r 15)),
  .st 1 0 (.bin .add (.ld 1 0) (.r 31)),
  .st 0 2 (.bin .add (.ld 0 2) (.r 0)),
  .st 1 2 (.bin .add (.ld 1 2) (.r 16)),
  .st 0 4 (.bin .add (.ld 0 4) (.r 2)),
  .st 1 4 (.bin .add (.ld 1 4) (.r 18)),
  .st 0 6 (.bin .add (.ld 0 6) (.r 4)),
  .st 1 6 (.bin .add (.ld 1 6) (.r 20)),
  .st 0 8 (.bin .add (.ld 0 8) (.r 6)),
  .st 1 8 (.bin .add (.ld 1 8) (.r 22)),
  .st 0 10 (.bin .add (.ld 0 10) (.r 8)),
  .st 1 10 (.bin .add (.ld 1 10) (.r 24)),
  .st 0 12 (.bin .add (.ld 0 12) (.r 10)),
  .st 1 12 (.bin .add (.ld 1 12) (.r 26)),
  .st 0 14 (.bin .add (.ld 0 14) (.r 12)),
  .st 1 14 (.bin .add (.ld 1 14) (.r 28)),
  .st 0 1 (.bin .add (.ld 0 1) (.r 15)),
  .st 1 1 (.bin .add (.ld 1 1) (.r 31)),
  .st 0 1 (.bin .add (.ld 0 1) (.r 14)),
  .st 1 1 (.bin .add (.ld 1 1) (.r 30)),
  .st 0 3 (.bin .add (.ld 0 3) (.r 1)),
  .st 1 3 (.bin .add (.ld 1 3) (.r 17)),
  .st 0 5 (.bin .add (.ld 0 5) (.r 3)),
  .st 1 5 (.bin .add (.ld 1 5) (.r 19)),
  .st 0 7 (.bin .add (.ld 0 7) (.r 5)),
  .st 1 7 (.bin .add (.ld 1 7) (.r 21)),
  .st 0 9 (.bin .add (.ld 0 9) (.r 7)),
  .st 1 9 (.bin .add (.ld 1 9) (.r 23)),
  .st 0 11 (.bin .add (.ld 0 11) (.r 9)),
  .st 1 11 (.bin .add (.ld 1 11) (.r 25)),
  .st 0 13 (.bin .add (.ld 0 13) (.r 11)),
  .st 1 13 (.bin .add (.ld 1 13) (.r 27)),
  .st 0 15 (.bin .add (.ld 0 15) (.r 13)),
  .st 1 15 (.bin .add (.ld 1 15) (.r 29))]⟩

/-- src/eltfp448_4w_redradix.c:631-634 `mul`; parameters c = 0, a = 1, b = 2. -/
def mul : Fn := ⟨[16, 16, 16], [0], [], intmul.inl [0, 1, 2] 0 ++
    compress.inl [0] 0⟩

/-- src/eltfp448_4w_redradix.c:636-639 `sqr`; parameters c = 0. -/
def sqr : Fn := ⟨[16], [0], [], intsqr.inl [0] 0 ++
    compress.inl [0] 0⟩

end V4

end Verif.Vec.F448
