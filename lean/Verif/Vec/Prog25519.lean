import Verif.Vec.Machine

/-!
# The vector functions of Fp25519 as programs

The text of src/eltfp25519_1w_redradix.c, src/eltfp25519_2w_redradix.c and
src/eltfp25519_4w_redradix.c, translated statement by statement by a script: macros are
expanded, loops with constant bounds are unrolled, and the local variables are numbered.  The
declarations of constants are replaced by their values.

Left out are the functions that handle bytes or several elements through calls: `rand`,
`print`, `sgn`, `cmp`, `alloc`, `unser`, `ser`, `inv`, `invsqrt`, `srt` and `prime`. -/

namespace Verif.Vec.F25519

namespace V1

/-- src/eltfp25519_1w_redradix.c:30-80 `compress`; parameters c = 0. -/
def compress : Fn := ⟨[3], [0], [], [
  .set 0 (.ld128 0 0),
  .set 1 (.ld128 0 1),
  .set 2 (.ld128 0 2),
  .set 3 (.ld128 0 3),
  .set 4 (.ld128 0 4),
  .set 5 (.bin .shrv (.r 0) (.lit 0x1a 0x19 0 0)),
  .set 0 (.bin .and (.r 0) (.lit 0x3ffffff 0x1ffffff 0 0)),
  .set 1 (.bin .add (.r 1) (.r 5)),
  .set 6 (.bin .shrv (.r 1) (.lit 0x19 0x1a 0 0)),
  .set 1 (.bin .and (.r 1) (.lit 0x1ffffff 0x3ffffff 0 0)),
  .set 2 (.bin .add (.r 2) (.r 6)),
  .set 7 (.bin .shrv (.r 2) (.lit 0x1a 0x19 0 0)),
  .set 2 (.bin .and (.r 2) (.lit 0x3ffffff 0x1ffffff 0 0)),
  .set 3 (.bin .add (.r 3) (.r 7)),
  .set 8 (.bin .shrv (.r 3) (.lit 0x19 0x1a 0 0)),
  .set 3 (.bin .and (.r 3) (.lit 0x1ffffff 0x3ffffff 0 0)),
  .set 4 (.bin .add (.r 4) (.r 8)),
  .set 9 (.bin .shrv (.r 4) (.lit 0x1a 0x19 0 0)),
  .set 4 (.bin .and (.r 4) (.lit 0x3ffffff 0x1ffffff 0 0)),
  .set 9 (.un .shuf4E (.bin .add (.bin .add (.bin .shlv (.r 9) (.lit 0x40 4 0 0)) (.bin .shlv (.r 9) (.lit 0x40 1 0 0))) (.r 9))),
  .set 0 (.bin .add (.r 0) (.r 9)),
  .set 5 (.bin .shrv (.r 0) (.lit 0x1a 0x19 0 0)),
  .set 0 (.bin .and (.r 0) (.lit 0x3ffffff 0x1ffffff 0 0)),
  .set 1 (.bin .add (.r 1) (.r 5)),
  .st128 0 0 (.r 0),
  .st128 0 1 (.r 1),
  .st128 0 2 (.r 2),
  .st128 0 3 (.r 3),
  .st128 0 4 (.r 4)]⟩

/-- src/eltfp25519_1w_redradix.c:82-125 `compressfast`; parameters c = 0. -/
def compressfast : Fn := ⟨[3], [0], [], [
  .set 0 (.ld128 0 0),
  .set 1 (.ld128 0 1),
  .set 2 (.ld128 0 2),
  .set 3 (.ld128 0 3),
  .set 4 (.ld128 0 4),
  .set 5 (.bin .and (.r 0) (.lit 0x3ffffff 0x1ffffff 0 0)),
  .set 6 (.bin .and (.r 1) (.lit 0x1ffffff 0x3ffffff 0 0)),
  .set 7 (.bin .and (.r 2) (.lit 0x3ffffff 0x1ffffff 0 0)),
  .set 8 (.bin .and (.r 3) (.lit 0x1ffffff 0x3ffffff 0 0)),
  .set 9 (.bin .and (.r 4) (.lit 0x3ffffff 0x1ffffff 0 0)),
  .set 10 (.bin .shrv (.r 0) (.lit 0x1a 0x19 0 0)),
  .set 11 (.bin .shrv (.r 1) (.lit 0x19 0x1a 0 0)),
  .set 12 (.bin .shrv (.r 2) (.lit 0x1a 0x19 0 0)),
  .set 13 (.bin .shrv (.r 3) (.lit 0x19 0x1a 0 0)),
  .set 14 (.bin .shrv (.r 4) (.lit 0x1a 0x19 0 0)),
  .set 14 (.un .shuf4E (.bin .add (.bin .add (.bin .shlv (.r 14) (.lit 0x40 4 0 0)) (.bin .shlv (.r 14) (.lit 0x40 1 0 0))) (.r 14))),
  .set 0 (.bin .add (.r 5) (.r 14)),
  .set 1 (.bin .add (.r 6) (.r 10)),
  .set 2 (.bin .add (.r 7) (.r 11)),
  .set 3 (.bin .add (.r 8) (.r 12)),
  .set 4 (.bin .add (.r 9) (.r 13)),
  .st128 0 0 (.r 0),
  .st128 0 1 (.r 1),
  .st128 0 2 (.r 2),
  .st128 0 3 (.r 3),
  .st128 0 4 (.r 4)]⟩

/-- The statements of `sqrn` before its loop. -/
def sqrnPre : List Stmt := [
  .set 6 (.ld128 0 0),
  .set 7 (.ld128 0 1),
  .set 8 (.ld128 0 2),
  .set 9 (.ld128 0 3),
  .set 10 (.ld128 0 4)]

/-- The body of the loop of `sqrn`. -/
def sqrnBody : List Stmt := [
  .set 21 (.r 6),
  .set 22 (.r 7),
  .set 23 (.r 8),
  .set 24 (.r 9),
  .set 25 (.r 10),
  .set 0 (.un .shuf44 (.r 21)),
  .set 1 (.bin .add (.r 0) (.r 0)),
  .set 4 (.un .shuf44 (.r 22)),
  .set 5 (.bin .add (.r 4) (.r 4)),
  .set 4 (.bin (.blend 0x03) (.r 4) (.r 5)),
  .set 3 (.bin .add (.r 4) (.r 4)),
  .set 2 (.un .shuf4E (.r 3)),
  .set 15 (.un .shuf4E (.r 10)),
  .set 15 (.bin .mul (.r 15) (.lit 0x13 1 0 0)),
  .set 16 (.bin .mul (.r 6) (.r 0)),
  .set 16 (.bin .add (.r 16) (.bin .mul (.r 15) (.r 3))),
  .set 17 (.bin .mul (.r 7) (.r 1)),
  .set 18 (.bin .mul (.r 8) (.r 1)),
  .set 18 (.bin .add (.r 18) (.bin .mul (.r 7) (.r 4))),
  .set 19 (.bin .mul (.r 9) (.r 1)),
  .set 19 (.bin .add (.r 19) (.bin .mul (.r 8) (.r 2))),
  .set 20 (.bin .mul (.r 10) (.r 1)),
  .set 20 (.bin .add (.r 20) (.bin .mul (.r 9) (.r 3))),
  .set 0 (.un .shuf44 (.r 23)),
  .set 1 (.bin .add (.r 0) (.r 0)),
  .set 4 (.un .shuf44 (.r 24)),
  .set 5 (.bin .add (.r 4) (.r 4)),
  .set 4 (.bin (.blend 0x0C) (.r 4) (.r 5)),
  .set 3 (.bin .add (.r 4) (.r 4)),
  .set 3 (.un .shuf4E (.r 3)),
  .set 14 (.un .shuf4E (.r 9)),
  .set 13 (.un .shuf4E (.r 8)),
  .set 14 (.bin .mul (.r 14) (.lit 0x13 1 0 0)),
  .set 13 (.bin .mul (.r 13) (.lit 0x13 1 0 0)),
  .set 16 (.bin .add (.r 16) (.bin .mul (.r 14) (.r 1))),
  .set 17 (.bin .add (.r 17) (.bin .mul (.r 15) (.r 1))),
  .set 17 (.bin .add (.r 17) (.bin .mul (.r 14) (.r 4))),
  .set 18 (.bin .add (.r 18) (.bin .mul (.r 15) (.r 3))),
  .set 20 (.bin .add (.r 20) (.bin .mul (.r 8) (.r 0))),
  .set 0 (.un .shuf44 (.r 25)),
  .set 1 (.un .shufEE (.r 21)),
  .set 4 (.bin .add (.r 1) (.r 1)),
  .set 5 (.bin .add (.r 4) (.r 4)),
  .set 1 (.bin (.blend 0x03) (.r 1) (.r 4)),
  .set 3 (.bin (.blend 0x0C) (.r 4) (.r 5)),
  .set 2 (.bin (.blend 0x03) (.r 4) (.r 5)),
  .set 12 (.un .shuf4E (.r 7)),
  .set 11 (.un .shuf4E (.r 6)),
  .set 12 (.bin .mul (.r 12) (.lit 0x13 1 0 0)),
  .set 11 (.bin .mul (.r 11) (.lit 0x13 1 0 0)),
  .set 16 (.bin .add (.r 16) (.bin .mul (.r 11) (.r 1))),
  .set 17 (.bin .add (.r 17) (.bin .mul (.r 12) (.r 3))),
  .set 18 (.bin .add (.r 18) (.bin .mul (.r 13) (.r 2))),
  .set 19 (.bin .add (.r 19) (.bin .mul (.r 15) (.r 0))),
  .set 19 (.bin .add (.r 19) (.bin .mul (.r 14) (.r 3))),
  .set 20 (.bin .add (.r 20) (.bin .mul (.r 15) (.r 2))),
  .set 0 (.un .shufEE (.r 22)),
  .set 1 (.bin .add (.r 0) (.r 0)),
  .set 4 (.un .shufEE (.r 23)),
  .set 5 (.bin .add (.r 4) (.r 4)),
  .set 4 (.bin (.blend 0x03) (.r 4) (.r 5)),
  .set 3 (.bin .add (.r 4) (.r 4)),
  .set 2 (.un .shuf4E (.r 3)),
  .set 10 (.un .shuf4E (.r 15)),
  .set 9 (.un .shuf4E (.r 14)),
  .set 10 (.bin .mul (.r 10) (.lit 0x13 1 0 0)),
  .set 9 (.bin .mul (.r 9) (.lit 0x13 1 0 0)),
  .set 16 (.bin .add (.r 16) (.bin .mul (.r 10) (.r 1))),
  .set 16 (.bin .add (.r 16) (.bin .mul (.r 9) (.r 3))),
  .set 17 (.bin .add (.r 17) (.bin .mul (.r 10) (.r 2))),
  .set 18 (.bin .add (.r 18) (.bin .mul (.r 12) (.r 0))),
  .set 19 (.bin .add (.r 19) (.bin .mul (.r 13) (.r 1))),
  .set 20 (.bin .add (.r 20) (.bin .mul (.r 14) (.r 1))),
  .set 20 (.bin .add (.r 20) (.bin .mul (.r 13) (.r 4))),
  .set 0 (.un .shufEE (.r 24)),
  .set 1 (.bin .add (.r 0) (.r 0)),
  .set 4 (.un .shufEE (.r 25)),
  .set 5 (.bin .add (.r 4) (.r 4)),
  .set 2 (.bin (.blend 0x0C) (.r 4) (.r 5)),
  .set 17 (.bin .add (.r 17) (.bin .mul (.r 9) (.r 0))),
  .set 18 (.bin .add (.r 18) (.bin .mul (.r 10) (.r 1))),
  .set 19 (.bin .add (.r 19) (.bin .mul (.r 10) (.r 2))),
  .set 26 (.bin .shrv (.r 16) (.lit 0x1a 0x19 0 0)),
  .set 16 (.bin .and (.r 16) (.lit 0x3ffffff 0x1ffffff 0 0)),
  .set 17 (.bin .add (.r 17) (.r 26)),
  .set 27 (.bin .shrv (.r 17) (.lit 0x19 0x1a 0 0)),
  .set 17 (.bin .and (.r 17) (.lit 0x1ffffff 0x3ffffff 0 0)),
  .set 18 (.bin .add (.r 18) (.r 27)),
  .set 28 (.bin .shrv (.r 18) (.lit 0x1a 0x19 0 0)),
  .set 18 (.bin .and (.r 18) (.lit 0x3ffffff 0x1ffffff 0 0)),
  .set 19 (.bin .add (.r 19) (.r 28)),
  .set 29 (.bin .shrv (.r 19) (.lit 0x19 0x1a 0 0)),
  .set 19 (.bin .and (.r 19) (.lit 0x1ffffff 0x3ffffff 0 0)),
  .set 20 (.bin .add (.r 20) (.r 29)),
  .set 30 (.bin .shrv (.r 20) (.lit 0x1a 0x19 0 0)),
  .set 20 (.bin .and (.r 20) (.lit 0x3ffffff 0x1ffffff 0 0)),
  .set 30 (.un .shuf4E (.bin .add (.bin .add (.bin .shlv (.r 30) (.lit 0x40 4 0 0)) (.bin .shlv (.r 30) (.lit 0x40 1 0 0))) (.r 30))),
  .set 16 (.bin .add (.r 16) (.r 30)),
  .set 26 (.bin .shrv (.r 16) (.lit 0x1a 0x19 0 0)),
  .set 16 (.bin .and (.r 16) (.lit 0x3ffffff 0x1ffffff 0 0)),
  .set 17 (.bin .add (.r 17) (.r 26)),
  .set 27 (.bin .shrv (.r 17) (.lit 0x19 0x1a 0 0)),
  .set 17 (.bin .and (.r 17) (.lit 0x1ffffff 0x3ffffff 0 0)),
  .set 18 (.bin .add (.r 18) (.r 27)),
  .set 6 (.r 16),
  .set 7 (.r 17),
  .set 8 (.r 18),
  .set 9 (.r 19),
  .set 10 (.r 20)]

/-- The statements of `sqrn` after its loop. -/
def sqrnPost : List Stmt := [
  .st128 0 0 (.r 6),
  .st128 0 1 (.r 7),
  .st128 0 2 (.r 8),
  .st128 0 3 (.r 9),
  .st128 0 4 (.r 10)]

/-- src/eltfp25519_1w_redradix.c:127-277 `sqrn`; parameters a = 0. -/
def sqrn (times : ℕ) : Fn :=
  ⟨[3], [0], [],
    sqrnPre ++ (List.replicate times sqrnBody).flatten ++ sqrnPost⟩

/-- src/eltfp25519_1w_redradix.c:440-457 `cmv`; parameters c = 0, a = 1, b = 2. The register 0 is
`mask`, with `-(int64_t)bit` in each lane. -/
def cmv : Fn := ⟨[3, 3, 3], [0], [], [
  .set 1 (.r 0),
  .set 2 (.ld 1 0),
  .set 3 (.ld 1 1),
  .set 4 (.ld 1 2),
  .set 5 (.ld 2 0),
  .set 6 (.ld 2 1),
  .set 7 (.ld 2 2),
  .set 8 (.blendv (.r 2) (.r 5) (.r 1)),
  .set 9 (.blendv (.r 3) (.r 6) (.r 1)),
  .set 10 (.blendv (.r 4) (.r 7) (.r 1)),
  .st 0 0 (.r 8),
  .st 0 1 (.r 9),
  .st 0 2 (.r 10)]⟩

/-- src/eltfp25519_1w_redradix.c:459-475 `add`; parameters c = 0, a = 1, b = 2. -/
def add : Fn := ⟨[3, 3, 3], [0], [], [
  .set 0 (.ld 1 0),
  .set 1 (.ld 1 1),
  .set 2 (.ld 1 2),
  .set 3 (.ld 2 0),
  .set 4 (.ld 2 1),
  .set 5 (.ld 2 2),
  .set 6 (.bin .add (.r 0) (.r 3)),
  .set 7 (.bin .add (.r 1) (.r 4)),
  .set 8 (.bin .add (.r 2) (.r 5)),
  .st 0 0 (.r 6),
  .st 0 1 (.r 7),
  .st 0 2 (.r 8)]⟩

/-- src/eltfp25519_1w_redradix.c:477-501 `sub`; parameters c = 0, a = 1, b = 2. -/
def sub : Fn := ⟨[3, 3, 3], [0], [], [
  .set 0 (.ld 1 0),
  .set 1 (.ld 1 1),
  .set 2 (.ld 1 2),
  .set 3 (.ld 2 0),
  .set 4 (.ld 2 1),
  .set 5 (.ld 2 2),
  .set 6 (.bin .sub (.lit 0x7ffffda 0x3fffffe 0x3fffffe 0x7fffffe) (.r 3)),
  .set 7 (.bin .sub (.lit 0x7fffffe 0x3fffffe 0x3fffffe 0x7fffffe) (.r 4)),
  .set 8 (.bin .sub (.lit 0x7fffffe 0x3fffffe 0 0) (.r 5)),
  .set 6 (.bin .add (.r 0) (.r 6)),
  .set 7 (.bin .add (.r 1) (.r 7)),
  .set 8 (.bin .add (.r 2) (.r 8)),
  .st 0 0 (.r 6),
  .st 0 1 (.r 7),
  .st 0 2 (.r 8)]⟩

/-- src/eltfp25519_1w_redradix.c:503-518 `addsub`; parameters pA = 0, pB = 1. -/
def addsub : Fn := ⟨[3, 3], [0, 1], [], [
  .set 0 (.ld 0 0),
  .set 1 (.ld 1 0),
  .set 2 (.bin .add (.r 0) (.r 1)),
  .set 3 (.bin .add (.r 0) (.bin .sub (.lit 0x7ffffda 0x3fffffe 0x3fffffe 0x7fffffe) (.r 1))),
  .st 0 0 (.r 2),
  .st 1 0 (.r 3),
  .set 4 (.ld 0 1),
  .set 5 (.ld 1 1),
  .set 6 (.bin .add (.r 4) (.r 5)),
  .set 7 (.bin .add (.r 4) (.bin .sub (.lit 0x7fffffe 0x3fffffe 0x3fffffe 0x7fffffe) (.r 5))),
  .st 0 1 (.r 6),
  .st 1 1 (.r 7),
  .set 8 (.ld 0 2),
  .set 9 (.ld 1 2),
  .set 10 (.bin .add (.r 8) (.r 9)),
  .set 11 (.bin .add (.r 8) (.bin .sub (.lit 0x7fffffe 0x3fffffe 0 0) (.r 9))),
  .st 0 2 (.r 10),
  .st 1 2 (.r 11)]⟩

/-- src/eltfp25519_1w_redradix.c:520-536 `neg`; parameters c = 0. -/
def neg : Fn := ⟨[3], [0], [], [
  .set 0 (.ld 0 0),
  .set 1 (.ld 0 1),
  .set 2 (.ld 0 2),
  .set 3 (.bin .sub (.lit 0x7ffffda 0x3fffffe 0x3fffffe 0x7fffffe) (.r 0)),
  .set 4 (.bin .sub (.lit 0x7fffffe 0x3fffffe 0x3fffffe 0x7fffffe) (.r 1)),
  .set 5 (.bin .sub (.lit 0x7fffffe 0x3fffffe 0 0) (.r 2)),
  .st 0 0 (.r 3),
  .st 0 1 (.r 4),
  .st 0 2 (.r 5)]⟩

/-- src/eltfp25519_1w_redradix.c:538-645 `intmul_sb`; parameters c = 0, a = 1, b = 2. -/
def intmul_sb : Fn := ⟨[3, 3, 3], [0], [], [
  .set 3 (.ld 2 0),
  .set 4 (.ld 2 1),
  .set 5 (.ld 2 2),
  .set 6 (.un (.perm64 0x14) (.r 3)),
  .set 7 (.un (.perm64 0xBE) (.r 3)),
  .set 8 (.un (.perm64 0x14) (.r 4)),
  .set 9 (.un (.perm64 0xBE) (.r 4)),
  .set 10 (.un (.perm64 0x14) (.r 5)),
  .set 6 (.bin .mul (.r 6) (.lit 1 1 0x13 1)),
  .set 7 (.bin .mul (.r 7) (.lit 1 1 0x13 1)),
  .set 8 (.bin .mul (.r 8) (.lit 1 1 0x13 1)),
  .set 9 (.bin .mul (.r 9) (.lit 1 1 0x13 1)),
  .set 10 (.bin .mul (.r 10) (.lit 1 1 0x13 1)),
  .set 0 (.un (.perm64 0x50) (.ld 1 0)),
  .set 1 (.bin .add (.r 0) (.r 0)),
  .set 2 (.bin (.blend 0x30) (.r 0) (.r 1)),
  .set 1 (.bin (.blend 0xC0) (.r 0) (.r 1)),
  .set 15 (.bin .mul (.r 6) (.r 2)),
  .set 16 (.bin .mul (.r 7) (.r 1)),
  .set 17 (.bin .mul (.r 8) (.r 2)),
  .set 18 (.bin .mul (.r 9) (.r 1)),
  .set 19 (.bin .mul (.r 10) (.r 2)),
  .set 0 (.un (.perm64 0xFA) (.ld 1 0)),
  .set 1 (.bin .add (.r 0) (.r 0)),
  .set 2 (.bin (.blend 0x03) (.r 0) (.r 1)),
  .set 1 (.bin (.blend 0x0C) (.r 0) (.r 1)),
  .set 14 (.un .shuf4E (.r 10)),
  .set 14 (.bin .mul (.r 14) (.lit 0x13 1 0x13 1)),
  .set 15 (.bin .add (.r 15) (.bin .mul (.r 14) (.r 2))),
  .set 16 (.bin .add (.r 16) (.bin .mul (.r 6) (.r 1))),
  .set 17 (.bin .add (.r 17) (.bin .mul (.r 7) (.r 2))),
  .set 18 (.bin .add (.r 18) (.bin .mul (.r 8) (.r 1))),
  .set 19 (.bin .add (.r 19) (.bin .mul (.r 9) (.r 2))),
  .set 0 (.un (.perm64 0x50) (.ld 1 1)),
  .set 1 (.bin .add (.r 0) (.r 0)),
  .set 2 (.bin (.blend 0x30) (.r 0) (.r 1)),
  .set 1 (.bin (.blend 0xC0) (.r 0) (.r 1)),
  .set 13 (.un .shuf4E (.r 9)),
  .set 13 (.bin .mul (.r 13) (.lit 0x13 1 0x13 1)),
  .set 15 (.bin .add (.r 15) (.bin .mul (.r 13) (.r 2))),
  .set 16 (.bin .add (.r 16) (.bin .mul (.r 14) (.r 1))),
  .set 17 (.bin .add (.r 17) (.bin .mul (.r 6) (.r 2))),
  .set 18 (.bin .add (.r 18) (.bin .mul (.r 7) (.r 1))),
  .set 19 (.bin .add (.r 19) (.bin .mul (.r 8) (.r 2))),
  .set 0 (.un (.perm64 0xFA) (.ld 1 1)),
  .set 1 (.bin .add (.r 0) (.r 0)),
  .set 2 (.bin (.blend 0x03) (.r 0) (.r 1)),
  .set 1 (.bin (.blend 0x0C) (.r 0) (.r 1)),
  .set 12 (.un .shuf4E (.r 8)),
  .set 12 (.bin .mul (.r 12) (.lit 0x13 1 0x13 1)),
  .set 15 (.bin .add (.r 15) (.bin .mul (.r 12) (.r 2))),
  .set 16 (.bin .add (.r 16) (.bin .mul (.r 13) (.r 1))),
  .set 17 (.bin .add (.r 17) (.bin .mul (.r 14) (.r 2))),
  .set 18 (.bin .add (.r 18) (.bin .mul (.r 6) (.r 1))),
  .set 19 (.bin .add (.r 19) (.bin .mul (.r 7) (.r 2))),
  .set 0 (.un (.perm64 0x50) (.ld 1 2)),
  .set 1 (.bin .add (.r 0) (.r 0)),
  .set 2 (.bin (.blend 0x30) (.r 0) (.r 1)),
  .set 1 (.bin (.blend 0xC0) (.r 0) (.r 1)),
  .set 11 (.un .shuf4E (.r 7)),
  .set 11 (.bin .mul (.r 11) (.lit 0x13 1 0x13 1)),
  .set 15 (.bin .add (.r 15) (.bin .mul (.r 11) (.r 2))),
  .set 16 (.bin .add (.r 16) (.bin .mul (.r 12) (.r 1))),
  .set 17 (.bin .add (.r 17) (.bin .mul (.r 13) (.r 2))),
  .set 18 (.bin .add (.r 18) (.bin .mul (.r 14) (.r 1))),
  .set 19 (.bin .add (.r 19) (.bin .mul (.r 6) (.r 2))),
  .set 20 (.bin .add (.un .extr1 (.r 15)) (.un .extr0 (.r 15))),
  .set 21 (.bin .add (.un .extr1 (.r 16)) (.un .extr0 (.r 16))),
  .set 22 (.bin .add (.un .extr1 (.r 17)) (.un .extr0 (.r 17))),
  .set 23 (.bin .add (.un .extr1 (.r 18)) (.un .extr0 (.r 18))),
  .set 24 (.bin .add (.un .extr1 (.r 19)) (.un .extr0 (.r 19))),
  .set 15 (.bin .insr (.bin .cast (.r 20) (.r 25)) (.r 21)),
  .set 16 (.bin .insr (.bin .cast (.r 22) (.r 26)) (.r 23)),
  .set 17 (.bin .cast (.r 24) (.r 27)),
  .st 0 0 (.r 15),
  .st 0 1 (.r 16),
  .st 0 2 (.r 17)]⟩

/-- src/eltfp25519_1w_redradix.c:647-649 `intmul`; parameters c = 0, a = 1, b = 2. -/
def intmul : Fn := ⟨[3, 3, 3], [0], [], intmul_sb.inl [0, 1, 2] 0⟩

/-- src/eltfp25519_1w_redradix.c:651-654 `mul`; parameters c = 0, a = 1, b = 2. -/
def mul : Fn := ⟨[3, 3, 3], [0], [], intmul.inl [0, 1, 2] 0 ++
    compress.inl [0] 0⟩

/-- src/eltfp25519_1w_redradix.c:656-658 `sqr`; parameters c = 0. -/
def sqr : Fn := ⟨[3], [0], [], (sqrn 1).inl [0]⟩

/-- src/eltfp25519_1w_redradix.c:660-664 `copy`; parameters c = 0, a = 1. -/
def copy : Fn := ⟨[3, 3], [0], [], [
  .st 0 0 (.ld 1 0),
  .st 0 1 (.ld 1 1),
  .st 0 2 (.ld 1 2)]⟩

/-- src/eltfp25519_1w_redradix.c:836-840 `zero`; parameters a = 0. -/
def zero : Fn := ⟨[3], [0], [], [
  .st 0 0 (.lit 0 0 0 0),
  .st 0 1 (.lit 0 0 0 0),
  .st 0 2 (.lit 0 0 0 0)]⟩

/-- src/eltfp25519_1w_redradix.c:842-858 `naddsub`; parameters pC = 0, pD = 1, pA = 2, pB = 3. -/
def naddsub : Fn := ⟨[3, 3, 3, 3], [0, 1], [], [
  .set 0 (.ld 2 0),
  .set 1 (.ld 3 0),
  .set 2 (.bin .sub (.lit 0x7ffffda 0x3fffffe 0x3fffffe 0x7fffffe) (.r 0)),
  .set 3 (.bin .sub (.r 2) (.r 1)),
  .set 4 (.bin .add (.r 2) (.r 1)),
  .st 0 0 (.r 3),
  .st 1 0 (.r 4),
  .set 5 (.ld 2 1),
  .set 6 (.ld 3 1),
  .set 7 (.bin .sub (.lit 0x7fffffe 0x3fffffe 0x3fffffe 0x7fffffe) (.r 5)),
  .set 8 (.bin .sub (.r 7) (.r 6)),
  .set 9 (.bin .add (.r 7) (.r 6)),
  .st 0 1 (.r 8),
  .st 1 1 (.r 9),
  .set 10 (.ld 2 2),
  .set 11 (.ld 3 2),
  .set 12 (.bin .sub (.lit 0x7fffffe 0x3fffffe 0 0) (.r 10)),
  .set 13 (.bin .sub (.r 12) (.r 11)),
  .set 14 (.bin .add (.r 12) (.r 11)),
  .st 0 2 (.r 13),
  .st 1 2 (.r 14)]⟩

end V1

namespace V2

/-- src/eltfp25519_2w_redradix.c:24-29 `copy`; parameters c = 0, a = 1. -/
def copy : Fn := ⟨[5, 5], [0], [], [
  .st 0 0 (.ld 1 0),
  .st 0 1 (.ld 1 1),
  .st 0 2 (.ld 1 2),
  .st 0 3 (.ld 1 3),
  .st 0 4 (.ld 1 4)]⟩

/-- src/eltfp25519_2w_redradix.c:31-36 `zero`; parameters c = 0. -/
def zero : Fn := ⟨[5], [0], [], [
  .st 0 0 (.lit 0 0 0 0),
  .st 0 1 (.lit 0 0 0 0),
  .st 0 2 (.lit 0 0 0 0),
  .st 0 3 (.lit 0 0 0 0),
  .st 0 4 (.lit 0 0 0 0)]⟩

/-- src/eltfp25519_2w_redradix.c:44-57 `inter`; parameters a = 0, a0 = 1, a1 = 2. -/
def inter : Fn := ⟨[5, 3, 3], [0], [], [
  .set 0 (.ld 1 0),
  .set 1 (.ld 1 1),
  .set 2 (.ld 1 2),
  .set 3 (.ld 2 0),
  .set 4 (.ld 2 1),
  .set 5 (.ld 2 2),
  .st 0 0 (.bin (.perm128 0x20) (.r 0) (.r 3)),
  .st 0 1 (.bin (.perm128 0x31) (.r 0) (.r 3)),
  .st 0 2 (.bin (.perm128 0x20) (.r 1) (.r 4)),
  .st 0 3 (.bin (.perm128 0x31) (.r 1) (.r 4)),
  .st 0 4 (.bin (.perm128 0x20) (.r 2) (.r 5))]⟩

/-- src/eltfp25519_2w_redradix.c:65-72 `deinter`; parameters a0 = 0, a1 = 1, a = 2. -/
def deinter : Fn := ⟨[3, 3, 5], [0, 1], [], [
  .st 0 0 (.bin (.perm128 0x20) (.ld 2 0) (.ld 2 1)),
  .st 1 0 (.bin (.perm128 0x31) (.ld 2 0) (.ld 2 1)),
  .st 0 1 (.bin (.perm128 0x20) (.ld 2 2) (.ld 2 3)),
  .st 1 1 (.bin (.perm128 0x31) (.ld 2 2) (.ld 2 3)),
  .st 0 2 (.ld 2 4),
  .st 1 2 (.bin .cast (.un .extr1 (.ld 2 4)) (.r 0))]⟩

/-- src/eltfp25519_2w_redradix.c:74-81 `cmv`; parameters c = 0, a = 1, b = 2. The register 0 is
`bit`. -/
def cmv : Fn := ⟨[5, 5, 5], [0], [], [
  .set 1 (.un .shuf44 (.bin .sub (.lit 0 0 0 0) (.bin .and (.r 0) (.lit 1 0 1 0)))),
  .st 0 0 (.blendv (.ld 1 0) (.ld 2 0) (.r 1)),
  .st 0 1 (.blendv (.ld 1 1) (.ld 2 1) (.r 1)),
  .st 0 2 (.blendv (.ld 1 2) (.ld 2 2) (.r 1)),
  .st 0 3 (.blendv (.ld 1 3) (.ld 2 3) (.r 1)),
  .st 0 4 (.blendv (.ld 1 4) (.ld 2 4) (.r 1))]⟩

/-- src/eltfp25519_2w_redradix.c:89-94 `add`; parameters c = 0, a = 1, b = 2. -/
def add : Fn := ⟨[5, 5, 5], [0], [], [
  .st 0 0 (.bin .add (.ld 1 0) (.ld 2 0)),
  .st 0 1 (.bin .add (.ld 1 1) (.ld 2 1)),
  .st 0 2 (.bin .add (.ld 1 2) (.ld 2 2)),
  .st 0 3 (.bin .add (.ld 1 3) (.ld 2 3)),
  .st 0 4 (.bin .add (.ld 1 4) (.ld 2 4))]⟩

/-- src/eltfp25519_2w_redradix.c:118-124 `sub`; parameters c = 0, a = 1, b = 2. -/
def sub : Fn := ⟨[5, 5, 5], [0], [32], [
  .st 0 0 (.bin .add (.ld 1 0) (.bin .sub (.cst 0 0 0x7ffffda 0x3fffffe 0x7ffffda 0x3fffffe) (.ld 2 0))),
  .st 0 1 (.bin .add (.ld 1 1) (.bin .sub (.cst 0 1 0x3fffffe 0x7fffffe 0x3fffffe 0x7fffffe) (.ld 2 1))),
  .st 0 2 (.bin .add (.ld 1 2) (.bin .sub (.cst 0 2 0x7fffffe 0x3fffffe 0x7fffffe 0x3fffffe) (.ld 2 2))),
  .st 0 3 (.bin .add (.ld 1 3) (.bin .sub (.cst 0 3 0x3fffffe 0x7fffffe 0x3fffffe 0x7fffffe) (.ld 2 3))),
  .st 0 4 (.bin .add (.ld 1 4) (.bin .sub (.cst 0 4 0x7fffffe 0x3fffffe 0x7fffffe 0x3fffffe) (.ld 2 4)))]⟩

/-- src/eltfp25519_2w_redradix.c:142-158 `subadd` with `permutation` equal to 0; parameters c = 0,
a = 1. -/
def subadd0 : Fn := ⟨[5, 5], [0], [32], [
  .set 0 (.lit 0 0 0 0),
  .set 1 (.lit 0 0 0 0),
  .set 2 (.un (.perm64 0x4E) (.ld 1 0)),
  .set 0 (.ld 1 0),
  .set 1 (.r 2),
  .st 0 0 (.bin .add (.bin .add (.r 0) (.cst 0 0 0x7ffffda 0x3fffffe 0 0)) (.bin .sub (.bin .xor (.r 1) (.lit 0xffffffffffffffff 0xffffffffffffffff 0 0)) (.lit 0xffffffffffffffff 0xffffffffffffffff 0 0))),
  .set 3 (.lit 0 0 0 0),
  .set 4 (.lit 0 0 0 0),
  .set 5 (.un (.perm64 0x4E) (.ld 1 1)),
  .set 3 (.ld 1 1),
  .set 4 (.r 5),
  .st 0 1 (.bin .add (.bin .add (.r 3) (.cst 0 1 0x3fffffe 0x7fffffe 0 0)) (.bin .sub (.bin .xor (.r 4) (.lit 0xffffffffffffffff 0xffffffffffffffff 0 0)) (.lit 0xffffffffffffffff 0xffffffffffffffff 0 0))),
  .set 6 (.lit 0 0 0 0),
  .set 7 (.lit 0 0 0 0),
  .set 8 (.un (.perm64 0x4E) (.ld 1 2)),
  .set 6 (.ld 1 2),
  .set 7 (.r 8),
  .st 0 2 (.bin .add (.bin .add (.r 6) (.cst 0 2 0x7fffffe 0x3fffffe 0 0)) (.bin .sub (.bin .xor (.r 7) (.lit 0xffffffffffffffff 0xffffffffffffffff 0 0)) (.lit 0xffffffffffffffff 0xffffffffffffffff 0 0))),
  .set 9 (.lit 0 0 0 0),
  .set 10 (.lit 0 0 0 0),
  .set 11 (.un (.perm64 0x4E) (.ld 1 3)),
  .set 9 (.ld 1 3),
  .set 10 (.r 11),
  .st 0 3 (.bin .add (.bin .add (.r 9) (.cst 0 3 0x3fffffe 0x7fffffe 0 0)) (.bin .sub (.bin .xor (.r 10) (.lit 0xffffffffffffffff 0xffffffffffffffff 0 0)) (.lit 0xffffffffffffffff 0xffffffffffffffff 0 0))),
  .set 12 (.lit 0 0 0 0),
  .set 13 (.lit 0 0 0 0),
  .set 14 (.un (.perm64 0x4E) (.ld 1 4)),
  .set 12 (.ld 1 4),
  .set 13 (.r 14),
  .st 0 4 (.bin .add (.bin .add (.r 12) (.cst 0 4 0x7fffffe 0x3fffffe 0 0)) (.bin .sub (.bin .xor (.r 13) (.lit 0xffffffffffffffff 0xffffffffffffffff 0 0)) (.lit 0xffffffffffffffff 0xffffffffffffffff 0 0)))]⟩

/-- src/eltfp25519_2w_redradix.c:142-158 `subadd` with `permutation` equal to 1; parameters c = 0,
a = 1. -/
def subadd1 : Fn := ⟨[5, 5], [0], [32], [
  .set 0 (.lit 0 0 0 0),
  .set 1 (.lit 0 0 0 0),
  .set 2 (.un (.perm64 0x4E) (.ld 1 0)),
  .set 1 (.ld 1 0),
  .set 0 (.r 2),
  .st 0 0 (.bin .add (.bin .add (.r 0) (.cst 0 0 0x7ffffda 0x3fffffe 0 0)) (.bin .sub (.bin .xor (.r 1) (.lit 0xffffffffffffffff 0xffffffffffffffff 0 0)) (.lit 0xffffffffffffffff 0xffffffffffffffff 0 0))),
  .set 3 (.lit 0 0 0 0),
  .set 4 (.lit 0 0 0 0),
  .set 5 (.un (.perm64 0x4E) (.ld 1 1)),
  .set 4 (.ld 1 1),
  .set 3 (.r 5),
  .st 0 1 (.bin .add (.bin .add (.r 3) (.cst 0 1 0x3fffffe 0x7fffffe 0 0)) (.bin .sub (.bin .xor (.r 4) (.lit 0xffffffffffffffff 0xffffffffffffffff 0 0)) (.lit 0xffffffffffffffff 0xffffffffffffffff 0 0))),
  .set 6 (.lit 0 0 0 0),
  .set 7 (.lit 0 0 0 0),
  .set 8 (.un (.perm64 0x4E) (.ld 1 2)),
  .set 7 (.ld 1 2),
  .set 6 (.r 8),
  .st 0 2 (.bin .add (.bin .add (.r 6) (.cst 0 2 0x7fffffe 0x3fffffe 0 0)) (.bin .sub (.bin .xor (.r 7) (.lit 0xffffffffffffffff 0xffffffffffffffff 0 0)) (.lit 0xffffffffffffffff 0xffffffffffffffff 0 0))),
  .set 9 (.lit 0 0 0 0),
  .set 10 (.lit 0 0 0 0),
  .set 11 (.un (.perm64 0x4E) (.ld 1 3)),
  .set 10 (.ld 1 3),
  .set 9 (.r 11),
  .st 0 3 (.bin .add (.bin .add (.r 9) (.cst 0 3 0x3fffffe 0x7fffffe 0 0)) (.bin .sub (.bin .xor (.r 10) (.lit 0xffffffffffffffff 0xffffffffffffffff 0 0)) (.lit 0xffffffffffffffff 0xffffffffffffffff 0 0))),
  .set 12 (.lit 0 0 0 0),
  .set 13 (.lit 0 0 0 0),
  .set 14 (.un (.perm64 0x4E) (.ld 1 4)),
  .set 13 (.ld 1 4),
  .set 12 (.r 14),
  .st 0 4 (.bin .add (.bin .add (.r 12) (.cst 0 4 0x7fffffe 0x3fffffe 0 0)) (.bin .sub (.bin .xor (.r 13) (.lit 0xffffffffffffffff 0xffffffffffffffff 0 0)) (.lit 0xffffffffffffffff 0xffffffffffffffff 0 0)))]⟩

/-- src/eltfp25519_2w_redradix.c:168-175 `ngz`; parameters c = 0, a = 1. -/
def ngz : Fn := ⟨[5, 5], [0], [32], [
  .st 0 0 (.bin .add (.cst 0 0 0x7ffffda 0x3fffffe 0 0) (.bin .sub (.bin .xor (.ld 1 0) (.lit 0xffffffffffffffff 0xffffffffffffffff 0 0)) (.lit 0xffffffffffffffff 0xffffffffffffffff 0 0))),
  .st 0 1 (.bin .add (.cst 0 1 0x3fffffe 0x7fffffe 0 0) (.bin .sub (.bin .xor (.ld 1 1) (.lit 0xffffffffffffffff 0xffffffffffffffff 0 0)) (.lit 0xffffffffffffffff 0xffffffffffffffff 0 0))),
  .st 0 2 (.bin .add (.cst 0 2 0x7fffffe 0x3fffffe 0 0) (.bin .sub (.bin .xor (.ld 1 2) (.lit 0xffffffffffffffff 0xffffffffffffffff 0 0)) (.lit 0xffffffffffffffff 0xffffffffffffffff 0 0))),
  .st 0 3 (.bin .add (.cst 0 3 0x3fffffe 0x7fffffe 0 0) (.bin .sub (.bin .xor (.ld 1 3) (.lit 0xffffffffffffffff 0xffffffffffffffff 0 0)) (.lit 0xffffffffffffffff 0xffffffffffffffff 0 0))),
  .st 0 4 (.bin .add (.cst 0 4 0x7fffffe 0x3fffffe 0 0) (.bin .sub (.bin .xor (.ld 1 4) (.lit 0xffffffffffffffff 0xffffffffffffffff 0 0)) (.lit 0xffffffffffffffff 0xffffffffffffffff 0 0)))]⟩

/-- src/eltfp25519_2w_redradix.c:177-187 `addsub`; parameters a = 0, b = 1. -/
def addsub : Fn := ⟨[5, 5], [0, 1], [32], [
  .set 0 (.bin .add (.ld 0 0) (.ld 1 0)),
  .set 1 (.bin .add (.ld 0 0) (.bin .sub (.cst 0 0 0x7ffffda 0x3fffffe 0x7ffffda 0x3fffffe) (.ld 1 0))),
  .st 0 0 (.r 0),
  .st 1 0 (.r 1),
  .set 0 (.bin .add (.ld 0 1) (.ld 1 1)),
  .set 1 (.bin .add (.ld 0 1) (.bin .sub (.cst 0 1 0x3fffffe 0x7fffffe 0x3fffffe 0x7fffffe) (.ld 1 1))),
  .st 0 1 (.r 0),
  .st 1 1 (.r 1),
  .set 0 (.bin .add (.ld 0 2) (.ld 1 2)),
  .set 1 (.bin .add (.ld 0 2) (.bin .sub (.cst 0 2 0x7fffffe 0x3fffffe 0x7fffffe 0x3fffffe) (.ld 1 2))),
  .st 0 2 (.r 0),
  .st 1 2 (.r 1),
  .set 0 (.bin .add (.ld 0 3) (.ld 1 3)),
  .set 1 (.bin .add (.ld 0 3) (.bin .sub (.cst 0 3 0x3fffffe 0x7fffffe 0x3fffffe 0x7fffffe) (.ld 1 3))),
  .st 0 3 (.r 0),
  .st 1 3 (.r 1),
  .set 0 (.bin .add (.ld 0 4) (.ld 1 4)),
  .set 1 (.bin .add (.ld 0 4) (.bin .sub (.cst 0 4 0x7fffffe 0x3fffffe 0x7fffffe 0x3fffffe) (.ld 1 4))),
  .st 0 4 (.r 0),
  .st 1 4 (.r 1)]⟩

/-- src/eltfp25519_2w_redradix.c:193-302 `intmul2`; parameters d = 0, c = 1, a = 2, b = 3. -/
def intmul2 : Fn := ⟨[5, 5, 5, 5], [0, 1], [32, 32, 32], [
  .set 4 (.ld 3 0),
  .set 5 (.ld 3 1),
  .set 6 (.ld 3 2),
  .set 7 (.ld 3 3),
  .set 8 (.ld 3 4),
  .set 14 (.bin .mul (.r 4) (.cst 0 0 0x13 0x13 0x13 0x13)),
  .set 9 (.bin .alignr (.r 4) (.r 14)),
  .set 15 (.bin .mul (.r 5) (.cst 0 0 0x13 0x13 0x13 0x13)),
  .set 10 (.bin .alignr (.r 5) (.r 15)),
  .set 16 (.bin .mul (.r 6) (.cst 0 0 0x13 0x13 0x13 0x13)),
  .set 11 (.bin .alignr (.r 6) (.r 16)),
  .set 17 (.bin .mul (.r 7) (.cst 0 0 0x13 0x13 0x13 0x13)),
  .set 12 (.bin .alignr (.r 7) (.r 17)),
  .set 18 (.bin .mul (.r 8) (.cst 0 0 0x13 0x13 0x13 0x13)),
  .set 13 (.bin .alignr (.r 8) (.r 18)),
  .set 0 (.un .shuf44 (.ld 2 0)),
  .set 2 (.un (.perm64 0x0A) (.ld 2 0)),
  .set 19 (.bin .mul (.r 4) (.r 0)),
  .set 24 (.bin .mul (.r 4) (.r 2)),
  .set 20 (.bin .mul (.r 5) (.r 0)),
  .set 25 (.bin .mul (.r 5) (.r 2)),
  .set 21 (.bin .mul (.r 6) (.r 0)),
  .set 26 (.bin .mul (.r 6) (.r 2)),
  .set 22 (.bin .mul (.r 7) (.r 0)),
  .set 27 (.bin .mul (.r 7) (.r 2)),
  .set 23 (.bin .mul (.r 8) (.r 0)),
  .set 28 (.bin .mul (.r 8) (.r 2)),
  .set 0 (.un .shuf44 (.ld 2 2)),
  .set 2 (.un (.perm64 0x0A) (.ld 2 2)),
  .set 19 (.bin .add (.r 19) (.bin .mul (.r 12) (.r 0))),
  .set 24 (.bin .add (.r 24) (.bin .mul (.r 12) (.r 2))),
  .set 20 (.bin .add (.r 20) (.bin .mul (.r 13) (.r 0))),
  .set 25 (.bin .add (.r 25) (.bin .mul (.r 13) (.r 2))),
  .set 21 (.bin .add (.r 21) (.bin .mul (.r 4) (.r 0))),
  .set 26 (.bin .add (.r 26) (.bin .mul (.r 4) (.r 2))),
  .set 22 (.bin .add (.r 22) (.bin .mul (.r 5) (.r 0))),
  .set 27 (.bin .add (.r 27) (.bin .mul (.r 5) (.r 2))),
  .set 23 (.bin .add (.r 23) (.bin .mul (.r 6) (.r 0))),
  .set 28 (.bin .add (.r 28) (.bin .mul (.r 6) (.r 2))),
  .set 0 (.un .shuf44 (.ld 2 4)),
  .set 2 (.un (.perm64 0x0A) (.ld 2 4)),
  .set 19 (.bin .add (.r 19) (.bin .mul (.r 10) (.r 0))),
  .set 24 (.bin .add (.r 24) (.bin .mul (.r 10) (.r 2))),
  .set 20 (.bin .add (.r 20) (.bin .mul (.r 11) (.r 0))),
  .set 25 (.bin .add (.r 25) (.bin .mul (.r 11) (.r 2))),
  .set 21 (.bin .add (.r 21) (.bin .mul (.r 12) (.r 0))),
  .set 26 (.bin .add (.r 26) (.bin .mul (.r 12) (.r 2))),
  .set 22 (.bin .add (.r 22) (.bin .mul (.r 13) (.r 0))),
  .set 27 (.bin .add (.r 27) (.bin .mul (.r 13) (.r 2))),
  .set 23 (.bin .add (.r 23) (.bin .mul (.r 4) (.r 0))),
  .set 28 (.bin .add (.r 28) (.bin .mul (.r 4) (.r 2))),
  .set 0 (.un .shufEE (.ld 2 1)),
  .set 2 (.un (.perm64 0x5F) (.ld 2 1)),
  .set 19 (.bin .add (.r 19) (.bin .mul (.r 18) (.r 0))),
  .set 24 (.bin .add (.r 24) (.bin .mul (.r 18) (.r 2))),
  .set 20 (.bin .add (.r 20) (.bin .mul (.r 9) (.r 0))),
  .set 25 (.bin .add (.r 25) (.bin .mul (.r 9) (.r 2))),
  .set 21 (.bin .add (.r 21) (.bin .mul (.r 10) (.r 0))),
  .set 26 (.bin .add (.r 26) (.bin .mul (.r 10) (.r 2))),
  .set 22 (.bin .add (.r 22) (.bin .mul (.r 11) (.r 0))),
  .set 27 (.bin .add (.r 27) (.bin .mul (.r 11) (.r 2))),
  .set 23 (.bin .add (.r 23) (.bin .mul (.r 12) (.r 0))),
  .set 28 (.bin .add (.r 28) (.bin .mul (.r 12) (.r 2))),
  .set 0 (.un .shufEE (.ld 2 3)),
  .set 2 (.un (.perm64 0x5F) (.ld 2 3)),
  .set 19 (.bin .add (.r 19) (.bin .mul (.r 16) (.r 0))),
  .set 24 (.bin .add (.r 24) (.bin .mul (.r 16) (.r 2))),
  .set 20 (.bin .add (.r 20) (.bin .mul (.r 17) (.r 0))),
  .set 25 (.bin .add (.r 25) (.bin .mul (.r 17) (.r 2))),
  .set 21 (.bin .add (.r 21) (.bin .mul (.r 18) (.r 0))),
  .set 26 (.bin .add (.r 26) (.bin .mul (.r 18) (.r 2))),
  .set 22 (.bin .add (.r 22) (.bin .mul (.r 9) (.r 0))),
  .set 27 (.bin .add (.r 27) (.bin .mul (.r 9) (.r 2))),
  .set 23 (.bin .add (.r 23) (.bin .mul (.r 10) (.r 0))),
  .set 28 (.bin .add (.r 28) (.bin .mul (.r 10) (.r 2))),
  .st 0 0 (.r 19),
  .st 1 0 (.r 24),
  .st 0 1 (.r 20),
  .st 1 1 (.r 25),
  .st 0 2 (.r 21),
  .st 1 2 (.r 26),
  .st 0 3 (.r 22),
  .st 1 3 (.r 27),
  .st 0 4 (.r 23),
  .st 1 4 (.r 28),
  .set 1 (.un .shuf44 (.ld 2 1)),
  .set 3 (.un (.perm64 0x0A) (.ld 2 1)),
  .set 29 (.bin .mul (.r 13) (.r 1)),
  .set 34 (.bin .mul (.r 13) (.r 3)),
  .set 30 (.bin .mul (.r 4) (.r 1)),
  .set 35 (.bin .mul (.r 4) (.r 3)),
  .set 31 (.bin .mul (.r 5) (.r 1)),
  .set 36 (.bin .mul (.r 5) (.r 3)),
  .set 32 (.bin .mul (.r 6) (.r 1)),
  .set 37 (.bin .mul (.r 6) (.r 3)),
  .set 33 (.bin .mul (.r 7) (.r 1)),
  .set 38 (.bin .mul (.r 7) (.r 3)),
  .set 1 (.un .shuf44 (.ld 2 3)),
  .set 3 (.un (.perm64 0x0A) (.ld 2 3)),
  .set 29 (.bin .add (.r 29) (.bin .mul (.r 11) (.r 1))),
  .set 34 (.bin .add (.r 34) (.bin .mul (.r 11) (.r 3))),
  .set 30 (.bin .add (.r 30) (.bin .mul (.r 12) (.r 1))),
  .set 35 (.bin .add (.r 35) (.bin .mul (.r 12) (.r 3))),
  .set 31 (.bin .add (.r 31) (.bin .mul (.r 13) (.r 1))),
  .set 36 (.bin .add (.r 36) (.bin .mul (.r 13) (.r 3))),
  .set 32 (.bin .add (.r 32) (.bin .mul (.r 4) (.r 1))),
  .set 37 (.bin .add (.r 37) (.bin .mul (.r 4) (.r 3))),
  .set 33 (.bin .add (.r 33) (.bin .mul (.r 5) (.r 1))),
  .set 38 (.bin .add (.r 38) (.bin .mul (.r 5) (.r 3))),
  .set 1 (.un .shufEE (.ld 2 0)),
  .set 3 (.un (.perm64 0x5F) (.ld 2 0)),
  .set 29 (.bin .add (.r 29) (.bin .mul (.r 9) (.r 1))),
  .set 34 (.bin .add (.r 34) (.bin .mul (.r 9) (.r 3))),
  .set 30 (.bin .add (.r 30) (.bin .mul (.r 10) (.r 1))),
  .set 35 (.bin .add (.r 35) (.bin .mul (.r 10) (.r 3))),
  .set 31 (.bin .add (.r 31) (.bin .mul (.r 11) (.r 1))),
  .set 36 (.bin .add (.r 36) (.bin .mul (.r 11) (.r 3))),
  .set 32 (.bin .add (.r 32) (.bin .mul (.r 12) (.r 1))),
  .set 37 (.bin .add (.r 37) (.bin .mul (.r 12) (.r 3))),
  .set 33 (.bin .add (.r 33) (.bin .mul (.r 13) (.r 1))),
  .set 38 (.bin .add (.r 38) (.bin .mul (.r 13) (.r 3))),
  .set 1 (.un .shufEE (.ld 2 2)),
  .set 3 (.un (.perm64 0x5F) (.ld 2 2)),
  .set 29 (.bin .add (.r 29) (.bin .mul (.r 17) (.r 1))),
  .set 34 (.bin .add (.r 34) (.bin .mul (.r 17) (.r 3))),
  .set 30 (.bin .add (.r 30) (.bin .mul (.r 18) (.r 1))),
  .set 35 (.bin .add (.r 35) (.bin .mul (.r 18) (.r 3))),
  .set 31 (.bin .add (.r 31) (.bin .mul (.r 9) (.r 1))),
  .set 36 (.bin .add (.r 36) (.bin .mul (.r 9) (.r 3))),
  .set 32 (.bin .add (.r 32) (.bin .mul (.r 10) (.r 1))),
  .set 37 (.bin .add (.r 37) (.bin .mul (.r 10) (.r 3))),
  .set 33 (.bin .add (.r 33) (.bin .mul (.r 11) (.r 1))),
  .set 38 (.bin .add (.r 38) (.bin .mul (.r 11) (.r 3))),
  .set 1 (.un .shufEE (.ld 2 4)),
  .set 3 (.un (.perm64 0x5F) (.ld 2 4)),
  .set 29 (.bin .add (.r 29) (.bin .mul (.r 15) (.r 1))),
  .set 34 (.bin .add (.r 34) (.bin .mul (.r 15) (.r 3))),
  .set 30 (.bin .add (.r 30) (.bin .mul (.r 16) (.r 1))),
  .set 35 (.bin .add (.r 35) (.bin .mul (.r 16) (.r 3))),
  .set 31 (.bin .add (.r 31) (.bin .mul (.r 17) (.r 1))),
  .set 36 (.bin .add (.r 36) (.bin .mul (.r 17) (.r 3))),
  .set 32 (.bin .add (.r 32) (.bin .mul (.r 18) (.r 1))),
  .set 37 (.bin .add (.r 37) (.bin .mul (.r 18) (.r 3))),
  .set 33 (.bin .add (.r 33) (.bin .mul (.r 9) (.r 1))),
  .set 38 (.bin .add (.r 38) (.bin .mul (.r 9) (.r 3))),
  .st 0 0 (.bin .add (.ld 0 0) (.bin .shlv (.r 29) (.cst 1 0 1 0 1 0))),
  .st 1 0 (.bin .add (.ld 1 0) (.bin .shlv (.r 34) (.cst 1 0 1 0 1 0))),
  .st 0 1 (.bin .add (.ld 0 1) (.bin .shlv (.r 30) (.cst 2 0 0 1 0 1))),
  .st 1 1 (.bin .add (.ld 1 1) (.bin .shlv (.r 35) (.cst 2 0 0 1 0 1))),
  .st 0 2 (.bin .add (.ld 0 2) (.bin .shlv (.r 31) (.cst 1 0 1 0 1 0))),
  .st 1 2 (.bin .add (.ld 1 2) (.bin .shlv (.r 36) (.cst 1 0 1 0 1 0))),
  .st 0 3 (.bin .add (.ld 0 3) (.bin .shlv (.r 32) (.cst 2 0 0 1 0 1))),
  .st 1 3 (.bin .add (.ld 1 3) (.bin .shlv (.r 37) (.cst 2 0 0 1 0 1))),
  .st 0 4 (.bin .add (.ld 0 4) (.bin .shlv (.r 33) (.cst 1 0 1 0 1 0))),
  .st 1 4 (.bin .add (.ld 1 4) (.bin .shlv (.r 38) (.cst 1 0 1 0 1 0)))]⟩

/-- src/eltfp25519_2w_redradix.c:304-375 `intmul`; parameters c = 0, a = 1, b = 2. -/
def intmul : Fn := ⟨[5, 5, 5], [0], [32, 32, 32], [
  .set 2 (.ld 2 0),
  .set 3 (.ld 2 1),
  .set 4 (.ld 2 2),
  .set 5 (.ld 2 3),
  .set 6 (.ld 2 4),
  .set 16 (.bin .mul (.r 6) (.cst 0 0 0x13 0x13 0x13 0x13)),
  .set 11 (.bin .alignr (.r 6) (.r 16)),
  .set 15 (.bin .mul (.r 5) (.cst 0 0 0x13 0x13 0x13 0x13)),
  .set 10 (.bin .alignr (.r 5) (.r 15)),
  .set 14 (.bin .mul (.r 4) (.cst 0 0 0x13 0x13 0x13 0x13)),
  .set 9 (.bin .alignr (.r 4) (.r 14)),
  .set 13 (.bin .mul (.r 3) (.cst 0 0 0x13 0x13 0x13 0x13)),
  .set 8 (.bin .alignr (.r 3) (.r 13)),
  .set 12 (.bin .mul (.r 2) (.cst 0 0 0x13 0x13 0x13 0x13)),
  .set 7 (.bin .alignr (.r 2) (.r 12)),
  .set 0 (.un .shuf44 (.ld 1 0)),
  .set 1 (.un .shuf44 (.ld 1 1)),
  .set 17 (.bin .mul (.r 2) (.r 0)),
  .set 22 (.bin .mul (.r 11) (.r 1)),
  .set 18 (.bin .mul (.r 3) (.r 0)),
  .set 23 (.bin .mul (.r 2) (.r 1)),
  .set 19 (.bin .mul (.r 4) (.r 0)),
  .set 24 (.bin .mul (.r 3) (.r 1)),
  .set 20 (.bin .mul (.r 5) (.r 0)),
  .set 25 (.bin .mul (.r 4) (.r 1)),
  .set 21 (.bin .mul (.r 6) (.r 0)),
  .set 26 (.bin .mul (.r 5) (.r 1)),
  .set 0 (.un .shuf44 (.ld 1 2)),
  .set 1 (.un .shuf44 (.ld 1 3)),
  .set 17 (.bin .add (.r 17) (.bin .mul (.r 10) (.r 0))),
  .set 22 (.bin .add (.r 22) (.bin .mul (.r 9) (.r 1))),
  .set 18 (.bin .add (.r 18) (.bin .mul (.r 11) (.r 0))),
  .set 23 (.bin .add (.r 23) (.bin .mul (.r 10) (.r 1))),
  .set 19 (.bin .add (.r 19) (.bin .mul (.r 2) (.r 0))),
  .set 24 (.bin .add (.r 24) (.bin .mul (.r 11) (.r 1))),
  .set 20 (.bin .add (.r 20) (.bin .mul (.r 3) (.r 0))),
  .set 25 (.bin .add (.r 25) (.bin .mul (.r 2) (.r 1))),
  .set 21 (.bin .add (.r 21) (.bin .mul (.r 4) (.r 0))),
  .set 26 (.bin .add (.r 26) (.bin .mul (.r 3) (.r 1))),
  .set 0 (.un .shuf44 (.ld 1 4)),
  .set 1 (.un .shufEE (.ld 1 0)),
  .set 17 (.bin .add (.r 17) (.bin .mul (.r 8) (.r 0))),
  .set 22 (.bin .add (.r 22) (.bin .mul (.r 7) (.r 1))),
  .set 18 (.bin .add (.r 18) (.bin .mul (.r 9) (.r 0))),
  .set 23 (.bin .add (.r 23) (.bin .mul (.r 8) (.r 1))),
  .set 19 (.bin .add (.r 19) (.bin .mul (.r 10) (.r 0))),
  .set 24 (.bin .add (.r 24) (.bin .mul (.r 9) (.r 1))),
  .set 20 (.bin .add (.r 20) (.bin .mul (.r 11) (.r 0))),
  .set 25 (.bin .add (.r 25) (.bin .mul (.r 10) (.r 1))),
  .set 21 (.bin .add (.r 21) (.bin .mul (.r 2) (.r 0))),
  .set 26 (.bin .add (.r 26) (.bin .mul (.r 11) (.r 1))),
  .set 0 (.un .shufEE (.ld 1 1)),
  .set 1 (.un .shufEE (.ld 1 2)),
  .set 17 (.bin .add (.r 17) (.bin .mul (.r 16) (.r 0))),
  .set 22 (.bin .add (.r 22) (.bin .mul (.r 15) (.r 1))),
  .set 18 (.bin .add (.r 18) (.bin .mul (.r 7) (.r 0))),
  .set 23 (.bin .add (.r 23) (.bin .mul (.r 16) (.r 1))),
  .set 19 (.bin .add (.r 19) (.bin .mul (.r 8) (.r 0))),
  .set 24 (.bin .add (.r 24) (.bin .mul (.r 7) (.r 1))),
  .set 20 (.bin .add (.r 20) (.bin .mul (.r 9) (.r 0))),
  .set 25 (.bin .add (.r 25) (.bin .mul (.r 8) (.r 1))),
  .set 21 (.bin .add (.r 21) (.bin .mul (.r 10) (.r 0))),
  .set 26 (.bin .add (.r 26) (.bin .mul (.r 9) (.r 1))),
  .set 0 (.un .shufEE (.ld 1 3)),
  .set 1 (.un .shufEE (.ld 1 4)),
  .set 17 (.bin .add (.r 17) (.bin .mul (.r 14) (.r 0))),
  .set 22 (.bin .add (.r 22) (.bin .mul (.r 13) (.r 1))),
  .set 18 (.bin .add (.r 18) (.bin .mul (.r 15) (.r 0))),
  .set 23 (.bin .add (.r 23) (.bin .mul (.r 14) (.r 1))),
  .set 19 (.bin .add (.r 19) (.bin .mul (.r 16) (.r 0))),
  .set 24 (.bin .add (.r 24) (.bin .mul (.r 15) (.r 1))),
  .set 20 (.bin .add (.r 20) (.bin .mul (.r 7) (.r 0))),
  .set 25 (.bin .add (.r 25) (.bin .mul (.r 16) (.r 1))),
  .set 21 (.bin .add (.r 21) (.bin .mul (.r 8) (.r 0))),
  .set 26 (.bin .add (.r 26) (.bin .mul (.r 7) (.r 1))),
  .set 27 (.bin .shlv (.r 22) (.cst 1 0 1 0 1 0)),
  .set 28 (.bin .shlv (.r 23) (.cst 2 0 0 1 0 1)),
  .set 29 (.bin .shlv (.r 24) (.cst 1 0 1 0 1 0)),
  .set 30 (.bin .shlv (.r 25) (.cst 2 0 0 1 0 1)),
  .set 31 (.bin .shlv (.r 26) (.cst 1 0 1 0 1 0)),
  .st 0 0 (.bin .add (.r 17) (.r 27)),
  .st 0 1 (.bin .add (.r 18) (.r 28)),
  .st 0 2 (.bin .add (.r 19) (.r 29)),
  .st 0 3 (.bin .add (.r 20) (.r 30)),
  .st 0 4 (.bin .add (.r 21) (.r 31))]⟩

/-- src/eltfp25519_2w_redradix.c:377-453 `intsqr`; parameters c = 0. -/
def intsqr : Fn := ⟨[5], [0], [32, 32, 32], [
  .set 4 (.ld 0 0),
  .set 5 (.ld 0 1),
  .set 6 (.ld 0 2),
  .set 7 (.ld 0 3),
  .set 8 (.ld 0 4),
  .set 18 (.bin .mul (.r 8) (.cst 0 0 0x13 0x13 0x13 0x13)),
  .set 13 (.bin .alignr (.r 8) (.r 18)),
  .set 17 (.bin .mul (.r 7) (.cst 0 0 0x13 0x13 0x13 0x13)),
  .set 12 (.bin .alignr (.r 7) (.r 17)),
  .set 16 (.bin .mul (.r 6) (.cst 0 0 0x13 0x13 0x13 0x13)),
  .set 11 (.bin .alignr (.r 6) (.r 16)),
  .set 15 (.bin .mul (.r 5) (.cst 0 0 0x13 0x13 0x13 0x13)),
  .set 10 (.bin .alignr (.r 5) (.r 15)),
  .set 14 (.bin .mul (.r 4) (.cst 0 0 0x13 0x13 0x13 0x13)),
  .set 9 (.bin .alignr (.r 4) (.r 14)),
  .set 0 (.un .shuf44 (.ld 0 0)),
  .set 1 (.un .shuf44 (.ld 0 1)),
  .set 2 (.bin .add (.r 0) (.r 0)),
  .set 3 (.bin .add (.r 1) (.r 1)),
  .set 19 (.bin .mul (.r 4) (.r 0)),
  .set 24 (.bin .mul (.r 13) (.r 3)),
  .set 20 (.bin .mul (.r 5) (.r 2)),
  .set 21 (.bin .mul (.r 6) (.r 2)),
  .set 26 (.bin .mul (.r 5) (.r 1)),
  .set 22 (.bin .mul (.r 7) (.r 2)),
  .set 27 (.bin .mul (.r 6) (.r 3)),
  .set 23 (.bin .mul (.r 8) (.r 2)),
  .set 28 (.bin .mul (.r 7) (.r 3)),
  .set 0 (.un .shuf44 (.ld 0 2)),
  .set 1 (.un .shuf44 (.ld 0 3)),
  .set 2 (.bin .add (.r 0) (.r 0)),
  .set 3 (.bin .add (.r 1) (.r 1)),
  .set 19 (.bin .add (.r 19) (.bin .mul (.r 12) (.r 2))),
  .set 20 (.bin .add (.r 20) (.bin .mul (.r 13) (.r 2))),
  .set 25 (.bin .mul (.r 12) (.r 1)),
  .set 26 (.bin .add (.r 26) (.bin .mul (.r 13) (.r 3))),
  .set 23 (.bin .add (.r 23) (.bin .mul (.r 6) (.r 0))),
  .set 0 (.un .shuf44 (.ld 0 4)),
  .set 1 (.un .shufEE (.ld 0 0)),
  .set 2 (.bin .add (.r 0) (.r 0)),
  .set 3 (.bin .add (.r 1) (.r 1)),
  .set 24 (.bin .add (.r 24) (.bin .mul (.r 9) (.r 1))),
  .set 25 (.bin .add (.r 25) (.bin .mul (.r 10) (.r 3))),
  .set 26 (.bin .add (.r 26) (.bin .mul (.r 11) (.r 3))),
  .set 22 (.bin .add (.r 22) (.bin .mul (.r 13) (.r 0))),
  .set 27 (.bin .add (.r 27) (.bin .mul (.r 12) (.r 3))),
  .set 28 (.bin .add (.r 28) (.bin .mul (.r 13) (.r 3))),
  .set 0 (.un .shufEE (.ld 0 1)),
  .set 1 (.un .shufEE (.ld 0 2)),
  .set 2 (.bin .add (.r 0) (.r 0)),
  .set 3 (.bin .add (.r 1) (.r 1)),
  .set 19 (.bin .add (.r 19) (.bin .mul (.r 18) (.r 2))),
  .set 24 (.bin .add (.r 24) (.bin .mul (.r 17) (.r 3))),
  .set 25 (.bin .add (.r 25) (.bin .mul (.r 18) (.r 3))),
  .set 21 (.bin .add (.r 21) (.bin .mul (.r 10) (.r 0))),
  .set 22 (.bin .add (.r 22) (.bin .mul (.r 11) (.r 2))),
  .set 23 (.bin .add (.r 23) (.bin .mul (.r 12) (.r 2))),
  .set 28 (.bin .add (.r 28) (.bin .mul (.r 11) (.r 1))),
  .set 0 (.un .shufEE (.ld 0 3)),
  .set 1 (.un .shufEE (.ld 0 4)),
  .set 2 (.bin .add (.r 0) (.r 0)),
  .set 20 (.bin .add (.r 20) (.bin .mul (.r 17) (.r 0))),
  .set 21 (.bin .add (.r 21) (.bin .mul (.r 18) (.r 2))),
  .set 27 (.bin .add (.r 27) (.bin .mul (.r 18) (.r 1))),
  .set 29 (.bin .shlv (.r 24) (.cst 1 0 1 0 1 0)),
  .set 30 (.bin .shlv (.r 25) (.cst 2 0 0 1 0 1)),
  .set 31 (.bin .shlv (.r 26) (.cst 1 0 1 0 1 0)),
  .set 32 (.bin .shlv (.r 27) (.cst 2 0 0 1 0 1)),
  .set 33 (.bin .shlv (.r 28) (.cst 1 0 1 0 1 0)),
  .st 0 0 (.bin .add (.r 19) (.r 29)),
  .st 0 1 (.bin .add (.r 20) (.r 30)),
  .st 0 2 (.bin .add (.r 21) (.r 31)),
  .st 0 3 (.bin .add (.r 22) (.r 32)),
  .st 0 4 (.bin .add (.r 23) (.r 33))]⟩

/-- src/eltfp25519_2w_redradix.c:472-518 `compress`; parameters c = 0. -/
def compress : Fn := ⟨[5], [0], [32, 32, 32, 32, 32, 32], [
  .set 0 (.ld 0 0),
  .set 1 (.ld 0 1),
  .set 2 (.ld 0 2),
  .set 3 (.ld 0 3),
  .set 4 (.ld 0 4),
  .set 5 (.bin .shrv (.r 0) (.cst 0 0 0x1a 0x19 0x1a 0x19)),
  .set 0 (.bin .and (.r 0) (.cst 1 0 0x3ffffff 0x1ffffff 0x3ffffff 0x1ffffff)),
  .set 1 (.bin .add (.r 1) (.r 5)),
  .set 6 (.bin .shrv (.r 1) (.cst 2 0 0x19 0x1a 0x19 0x1a)),
  .set 1 (.bin .and (.r 1) (.cst 3 0 0x1ffffff 0x3ffffff 0x1ffffff 0x3ffffff)),
  .set 2 (.bin .add (.r 2) (.r 6)),
  .set 7 (.bin .shrv (.r 2) (.cst 0 0 0x1a 0x19 0x1a 0x19)),
  .set 2 (.bin .and (.r 2) (.cst 1 0 0x3ffffff 0x1ffffff 0x3ffffff 0x1ffffff)),
  .set 3 (.bin .add (.r 3) (.r 7)),
  .set 8 (.bin .shrv (.r 3) (.cst 2 0 0x19 0x1a 0x19 0x1a)),
  .set 3 (.bin .and (.r 3) (.cst 3 0 0x1ffffff 0x3ffffff 0x1ffffff 0x3ffffff)),
  .set 4 (.bin .add (.r 4) (.r 8)),
  .set 9 (.bin .shrv (.r 4) (.cst 0 0 0x1a 0x19 0x1a 0x19)),
  .set 4 (.bin .and (.r 4) (.cst 1 0 0x3ffffff 0x1ffffff 0x3ffffff 0x1ffffff)),
  .set 9 (.un .shuf4E (.bin .add (.bin .add (.bin .shlv (.r 9) (.cst 4 0 0x40 4 0x40 4)) (.bin .shlv (.r 9) (.cst 5 0 0x40 1 0x40 1))) (.r 9))),
  .set 0 (.bin .add (.r 0) (.r 9)),
  .set 5 (.bin .shrv (.r 0) (.cst 0 0 0x1a 0x19 0x1a 0x19)),
  .set 0 (.bin .and (.r 0) (.cst 1 0 0x3ffffff 0x1ffffff 0x3ffffff 0x1ffffff)),
  .set 1 (.bin .add (.r 1) (.r 5)),
  .st 0 0 (.r 0),
  .st 0 1 (.r 1),
  .st 0 2 (.r 2),
  .st 0 3 (.r 3),
  .st 0 4 (.r 4)]⟩

/-- src/eltfp25519_2w_redradix.c:520-596 `compress2`; parameters c = 0, d = 1. -/
def compress2 : Fn := ⟨[5, 5], [0, 1], [32, 32, 32, 32, 32, 32], [
  .set 0 (.ld 0 0),
  .set 1 (.ld 1 0),
  .set 2 (.ld 0 1),
  .set 3 (.ld 1 1),
  .set 4 (.ld 0 2),
  .set 5 (.ld 1 2),
  .set 6 (.ld 0 3),
  .set 7 (.ld 1 3),
  .set 8 (.ld 0 4),
  .set 9 (.ld 1 4),
  .set 10 (.bin .shrv (.r 0) (.cst 0 0 0x1a 0x19 0x1a 0x19)),
  .set 15 (.bin .shrv (.r 1) (.cst 0 0 0x1a 0x19 0x1a 0x19)),
  .set 0 (.bin .and (.r 0) (.cst 1 0 0x3ffffff 0x1ffffff 0x3ffffff 0x1ffffff)),
  .set 1 (.bin .and (.r 1) (.cst 1 0 0x3ffffff 0x1ffffff 0x3ffffff 0x1ffffff)),
  .set 2 (.bin .add (.r 2) (.r 10)),
  .set 3 (.bin .add (.r 3) (.r 15)),
  .set 11 (.bin .shrv (.r 2) (.cst 2 0 0x19 0x1a 0x19 0x1a)),
  .set 16 (.bin .shrv (.r 3) (.cst 2 0 0x19 0x1a 0x19 0x1a)),
  .set 2 (.bin .and (.r 2) (.cst 3 0 0x1ffffff 0x3ffffff 0x1ffffff 0x3ffffff)),
  .set 3 (.bin .and (.r 3) (.cst 3 0 0x1ffffff 0x3ffffff 0x1ffffff 0x3ffffff)),
  .set 4 (.bin .add (.r 4) (.r 11)),
  .set 5 (.bin .add (.r 5) (.r 16)),
  .set 12 (.bin .shrv (.r 4) (.cst 0 0 0x1a 0x19 0x1a 0x19)),
  .set 17 (.bin .shrv (.r 5) (.cst 0 0 0x1a 0x19 0x1a 0x19)),
  .set 4 (.bin .and (.r 4) (.cst 1 0 0x3ffffff 0x1ffffff 0x3ffffff 0x1ffffff)),
  .set 5 (.bin .and (.r 5) (.cst 1 0 0x3ffffff 0x1ffffff 0x3ffffff 0x1ffffff)),
  .set 6 (.bin .add (.r 6) (.r 12)),
  .set 7 (.bin .add (.r 7) (.r 17)),
  .set 13 (.bin .shrv (.r 6) (.cst 2 0 0x19 0x1a 0x19 0x1a)),
  .set 18 (.bin .shrv (.r 7) (.cst 2 0 0x19 0x1a 0x19 0x1a)),
  .set 6 (.bin .and (.r 6) (.cst 3 0 0x1ffffff 0x3ffffff 0x1ffffff 0x3ffffff)),
  .set 7 (.bin .and (.r 7) (.cst 3 0 0x1ffffff 0x3ffffff 0x1ffffff 0x3ffffff)),
  .set 8 (.bin .add (.r 8) (.r 13)),
  .set 9 (.bin .add (.r 9) (.r 18)),
  .set 14 (.bin .shrv (.r 8) (.cst 0 0 0x1a 0x19 0x1a 0x19)),
  .set 19 (.bin .shrv (.r 9) (.cst 0 0 0x1a 0x19 0x1a 0x19)),
  .set 8 (.bin .and (.r 8) (.cst 1 0 0x3ffffff 0x1ffffff 0x3ffffff 0x1ffffff)),
  .set 9 (.bin .and (.r 9) (.cst 1 0 0x3ffffff 0x1ffffff 0x3ffffff 0x1ffffff)),
  .set 14 (.un .shuf4E (.bin .add (.bin .add (.bin .shlv (.r 14) (.cst 4 0 0x40 4 0x40 4)) (.bin .shlv (.r 14) (.cst 5 0 0x40 1 0x40 1))) (.r 14))),
  .set 19 (.un .shuf4E (.bin .add (.bin .add (.bin .shlv (.r 19) (.cst 4 0 0x40 4 0x40 4)) (.bin .shlv (.r 19) (.cst 5 0 0x40 1 0x40 1))) (.r 19))),
  .set 0 (.bin .add (.r 0) (.r 14)),
  .set 1 (.bin .add (.r 1) (.r 19)),
  .set 10 (.bin .shrv (.r 0) (.cst 0 0 0x1a 0x19 0x1a 0x19)),
  .set 15 (.bin .shrv (.r 1) (.cst 0 0 0x1a 0x19 0x1a 0x19)),
  .set 0 (.bin .and (.r 0) (.cst 1 0 0x3ffffff 0x1ffffff 0x3ffffff 0x1ffffff)),
  .set 1 (.bin .and (.r 1) (.cst 1 0 0x3ffffff 0x1ffffff 0x3ffffff 0x1ffffff)),
  .set 2 (.bin .add (.r 2) (.r 10)),
  .set 3 (.bin .add (.r 3) (.r 15)),
  .st 0 0 (.r 0),
  .st 1 0 (.r 1),
  .st 0 1 (.r 2),
  .st 1 1 (.r 3),
  .st 0 2 (.r 4),
  .st 1 2 (.r 5),
  .st 0 3 (.r 6),
  .st 1 3 (.r 7),
  .st 0 4 (.r 8),
  .st 1 4 (.r 9)]⟩

/-- src/eltfp25519_2w_redradix.c:598-625 `compressfast`; parameters c = 0. -/
def compressfast : Fn := ⟨[5], [0], [32, 32, 32, 32, 32, 32], [
  .set 0 (.bin .and (.ld 0 0) (.cst 0 0 0x3ffffff 0x1ffffff 0x3ffffff 0x1ffffff)),
  .set 1 (.bin .and (.ld 0 1) (.cst 1 0 0x1ffffff 0x3ffffff 0x1ffffff 0x3ffffff)),
  .set 2 (.bin .and (.ld 0 2) (.cst 0 0 0x3ffffff 0x1ffffff 0x3ffffff 0x1ffffff)),
  .set 3 (.bin .and (.ld 0 3) (.cst 1 0 0x1ffffff 0x3ffffff 0x1ffffff 0x3ffffff)),
  .set 4 (.bin .and (.ld 0 4) (.cst 0 0 0x3ffffff 0x1ffffff 0x3ffffff 0x1ffffff)),
  .set 5 (.bin .shrv (.ld 0 0) (.cst 2 0 0x1a 0x19 0x1a 0x19)),
  .set 6 (.bin .shrv (.ld 0 1) (.cst 3 0 0x19 0x1a 0x19 0x1a)),
  .set 7 (.bin .shrv (.ld 0 2) (.cst 2 0 0x1a 0x19 0x1a 0x19)),
  .set 8 (.bin .shrv (.ld 0 3) (.cst 3 0 0x19 0x1a 0x19 0x1a)),
  .set 9 (.bin .shrv (.ld 0 4) (.cst 2 0 0x1a 0x19 0x1a 0x19)),
  .set 9 (.un .shuf4E (.bin .add (.bin .add (.bin .shlv (.r 9) (.cst 4 0 0x40 4 0x40 4)) (.bin .shlv (.r 9) (.cst 5 0 0x40 1 0x40 1))) (.r 9))),
  .st 0 0 (.bin .add (.r 0) (.r 9)),
  .st 0 1 (.bin .add (.r 1) (.r 5)),
  .st 0 2 (.bin .add (.r 2) (.r 6)),
  .st 0 3 (.bin .add (.r 3) (.r 7)),
  .st 0 4 (.bin .add (.r 4) (.r 8))]⟩

/-- src/eltfp25519_2w_redradix.c:629-636 `neg`; parameters c = 0. -/
def neg : Fn := ⟨[5], [0], [32, 32, 32, 32, 32, 32, 32], [
  .st 0 0 (.bin .sub (.cst 0 0 0x7ffffda 0x3fffffe 0x7ffffda 0x3fffffe) (.ld 0 0)),
  .st 0 1 (.bin .sub (.cst 0 1 0x3fffffe 0x7fffffe 0x3fffffe 0x7fffffe) (.ld 0 1)),
  .st 0 2 (.bin .sub (.cst 0 2 0x7fffffe 0x3fffffe 0x7fffffe 0x3fffffe) (.ld 0 2)),
  .st 0 3 (.bin .sub (.cst 0 3 0x3fffffe 0x7fffffe 0x3fffffe 0x7fffffe) (.ld 0 3)),
  .st 0 4 (.bin .sub (.cst 0 4 0x7fffffe 0x3fffffe 0x7fffffe 0x3fffffe) (.ld 0 4))] ++
    compress.inl [0] 1⟩

/-- src/eltfp25519_2w_redradix.c:638-641 `mul`; parameters c = 0, a = 1, b = 2. -/
def mul : Fn := ⟨[5, 5, 5], [0], [32, 32, 32, 32, 32, 32, 32, 32, 32], intmul.inl [0, 1, 2] 0 ++
    compress.inl [0] 3⟩

/-- src/eltfp25519_2w_redradix.c:643-646 `sqr`; parameters c = 0. -/
def sqr : Fn := ⟨[5], [0], [32, 32, 32, 32, 32, 32, 32, 32, 32], intsqr.inl [0] 0 ++
    compress.inl [0] 3⟩

/-- src/eltfp25519_2w_redradix.c:648-654 `sqrn`; parameters c = 0. -/
def sqrn (times : ℕ) : Fn :=
  ⟨[5], [0], [32, 32, 32, 32, 32, 32, 32, 32, 32],
    (List.replicate times (intsqr.inl [0] 0 ++
    compress.inl [0] 3)).flatten⟩

/-- src/eltfp25519_2w_redradix.c:707-717 `naddsub`; parameters C = 0, D = 1, A = 2, B = 3. -/
def naddsub : Fn := ⟨[5, 5, 5, 5], [0, 1], [32], [
  .set 0 (.bin .sub (.cst 0 0 0x7ffffda 0x3fffffe 0x7ffffda 0x3fffffe) (.ld 2 0)),
  .st 0 0 (.bin .sub (.r 0) (.ld 3 0)),
  .st 1 0 (.bin .add (.r 0) (.ld 3 0)),
  .set 1 (.bin .sub (.cst 0 1 0x3fffffe 0x7fffffe 0x3fffffe 0x7fffffe) (.ld 2 1)),
  .st 0 1 (.bin .sub (.r 1) (.ld 3 1)),
  .st 1 1 (.bin .add (.r 1) (.ld 3 1)),
  .set 2 (.bin .sub (.cst 0 2 0x7fffffe 0x3fffffe 0x7fffffe 0x3fffffe) (.ld 2 2)),
  .st 0 2 (.bin .sub (.r 2) (.ld 3 2)),
  .st 1 2 (.bin .add (.r 2) (.ld 3 2)),
  .set 3 (.bin .sub (.cst 0 3 0x3fffffe 0x7fffffe 0x3fffffe 0x7fffffe) (.ld 2 3)),
  .st 0 3 (.bin .sub (.r 3) (.ld 3 3)),
  .st 1 3 (.bin .add (.r 3) (.ld 3 3)),
  .set 4 (.bin .sub (.cst 0 4 0x7fffffe 0x3fffffe 0x7fffffe 0x3fffffe) (.ld 2 4)),
  .st 0 4 (.bin .sub (.r 4) (.ld 3 4)),
  .st 1 4 (.bin .add (.r 4) (.ld 3 4))]⟩

end V2

namespace V4

/-- src/eltfp25519_4w_redradix.c:44-49 `copy`; parameters c = 0, a = 1. -/
def copy : Fn := ⟨[10, 10], [0], [], [
  .st 0 0 (.ld 1 0),
  .st 0 1 (.ld 1 1),
  .st 0 2 (.ld 1 2),
  .st 0 3 (.ld 1 3),
  .st 0 4 (.ld 1 4),
  .st 0 5 (.ld 1 5),
  .st 0 6 (.ld 1 6),
  .st 0 7 (.ld 1 7),
  .st 0 8 (.ld 1 8),
  .st 0 9 (.ld 1 9)]⟩

/-- src/eltfp25519_4w_redradix.c:51-56 `zero`; parameters c = 0. -/
def zero : Fn := ⟨[10], [0], [], [
  .st 0 0 (.lit 0 0 0 0),
  .st 0 1 (.lit 0 0 0 0),
  .st 0 2 (.lit 0 0 0 0),
  .st 0 3 (.lit 0 0 0 0),
  .st 0 4 (.lit 0 0 0 0),
  .st 0 5 (.lit 0 0 0 0),
  .st 0 6 (.lit 0 0 0 0),
  .st 0 7 (.lit 0 0 0 0),
  .st 0 8 (.lit 0 0 0 0),
  .st 0 9 (.lit 0 0 0 0)]⟩

/-- src/eltfp25519_4w_redradix.c:58-106 `zip`; parameters A = 0, pA = 1, pB = 2, pC = 3, pD = 4.
-/
def zip : Fn := ⟨[10, 3, 3, 3, 3], [0], [], [
  .set 0 (.ld 1 0),
  .set 1 (.ld 2 0),
  .set 2 (.ld 3 0),
  .set 3 (.ld 4 0),
  .set 4 (.bin (.perm128 0x20) (.r 0) (.r 2)),
  .set 5 (.bin (.perm128 0x20) (.r 1) (.r 3)),
  .set 6 (.bin (.perm128 0x31) (.r 0) (.r 2)),
  .set 7 (.bin (.perm128 0x31) (.r 1) (.r 3)),
  .st 0 0 (.bin .upkl (.r 4) (.r 5)),
  .st 0 1 (.bin .upkh (.r 4) (.r 5)),
  .st 0 2 (.bin .upkl (.r 6) (.r 7)),
  .st 0 3 (.bin .upkh (.r 6) (.r 7)),
  .set 8 (.ld 1 1),
  .set 9 (.ld 2 1),
  .set 10 (.ld 3 1),
  .set 11 (.ld 4 1),
  .set 12 (.bin (.perm128 0x20) (.r 8) (.r 10)),
  .set 13 (.bin (.perm128 0x20) (.r 9) (.r 11)),
  .set 14 (.bin (.perm128 0x31) (.r 8) (.r 10)),
  .set 15 (.bin (.perm128 0x31) (.r 9) (.r 11)),
  .st 0 4 (.bin .upkl (.r 12) (.r 13)),
  .st 0 5 (.bin .upkh (.r 12) (.r 13)),
  .st 0 6 (.bin .upkl (.r 14) (.r 15)),
  .st 0 7 (.bin .upkh (.r 14) (.r 15)),
  .set 16 (.ld 1 2),
  .set 17 (.ld 2 2),
  .set 18 (.ld 3 2),
  .set 19 (.ld 4 2),
  .set 20 (.bin (.perm128 0x20) (.r 16) (.r 18)),
  .set 21 (.bin (.perm128 0x20) (.r 17) (.r 19)),
  .st 0 8 (.bin .upkl (.r 20) (.r 21)),
  .st 0 9 (.bin .upkh (.r 20) (.r 21))]⟩

/-- src/eltfp25519_4w_redradix.c:108-147 `unzip`; parameters pA = 0, pB = 1, pC = 2, pD = 3, A =
4. -/
def unzip : Fn := ⟨[3, 3, 3, 3, 10], [0, 1, 2, 3], [], [
  .set 0 (.bin (.perm128 0x20) (.ld 4 0) (.ld 4 2)),
  .set 1 (.bin (.perm128 0x20) (.ld 4 1) (.ld 4 3)),
  .set 2 (.bin (.perm128 0x31) (.ld 4 0) (.ld 4 2)),
  .set 3 (.bin (.perm128 0x31) (.ld 4 1) (.ld 4 3)),
  .set 4 (.bin .upkl (.r 0) (.r 1)),
  .set 5 (.bin .upkh (.r 0) (.r 1)),
  .set 6 (.bin .upkl (.r 2) (.r 3)),
  .set 7 (.bin .upkh (.r 2) (.r 3)),
  .st 0 0 (.r 4),
  .st 1 0 (.r 5),
  .st 2 0 (.r 6),
  .st 3 0 (.r 7),
  .set 8 (.bin (.perm128 0x20) (.ld 4 4) (.ld 4 6)),
  .set 9 (.bin (.perm128 0x20) (.ld 4 5) (.ld 4 7)),
  .set 10 (.bin (.perm128 0x31) (.ld 4 4) (.ld 4 6)),
  .set 11 (.bin (.perm128 0x31) (.ld 4 5) (.ld 4 7)),
  .set 12 (.bin .upkl (.r 8) (.r 9)),
  .set 13 (.bin .upkh (.r 8) (.r 9)),
  .set 14 (.bin .upkl (.r 10) (.r 11)),
  .set 15 (.bin .upkh (.r 10) (.r 11)),
  .st 0 1 (.r 12),
  .st 1 1 (.r 13),
  .st 2 1 (.r 14),
  .st 3 1 (.r 15),
  .set 16 (.bin .upkl (.ld 4 8) (.ld 4 9)),
  .set 17 (.bin .upkh (.ld 4 8) (.ld 4 9)),
  .st 0 2 (.bin .cast (.un .extr0 (.r 16)) (.r 18)),
  .st 1 2 (.bin .cast (.un .extr0 (.r 17)) (.r 19)),
  .st 2 2 (.bin .cast (.un .extr1 (.r 16)) (.r 20)),
  .st 3 2 (.bin .cast (.un .extr1 (.r 17)) (.r 21))]⟩

/-- src/eltfp25519_4w_redradix.c:149-155 `add`; parameters C = 0, A = 1, B = 2. -/
def add : Fn := ⟨[10, 10, 10], [0], [], [
  .st 0 0 (.bin .add (.ld 1 0) (.ld 2 0)),
  .st 0 1 (.bin .add (.ld 1 1) (.ld 2 1)),
  .st 0 2 (.bin .add (.ld 1 2) (.ld 2 2)),
  .st 0 3 (.bin .add (.ld 1 3) (.ld 2 3)),
  .st 0 4 (.bin .add (.ld 1 4) (.ld 2 4)),
  .st 0 5 (.bin .add (.ld 1 5) (.ld 2 5)),
  .st 0 6 (.bin .add (.ld 1 6) (.ld 2 6)),
  .st 0 7 (.bin .add (.ld 1 7) (.ld 2 7)),
  .st 0 8 (.bin .add (.ld 1 8) (.ld 2 8)),
  .st 0 9 (.bin .add (.ld 1 9) (.ld 2 9))]⟩

/-- src/eltfp25519_4w_redradix.c:157-170 `sub`; parameters C = 0, A = 1, B = 2. -/
def sub : Fn := ⟨[10, 10, 10], [0], [], [
  .st 0 0 (.bin .add (.ld 1 0) (.bin .sub (.lit 0x7ffffda 0x7ffffda 0x7ffffda 0x7ffffda) (.ld 2 0))),
  .st 0 1 (.bin .add (.ld 1 1) (.bin .sub (.lit 0x3fffffe 0x3fffffe 0x3fffffe 0x3fffffe) (.ld 2 1))),
  .st 0 2 (.bin .add (.ld 1 2) (.bin .sub (.lit 0x3fffffe 0x3fffffe 0x3fffffe 0x3fffffe) (.ld 2 2))),
  .st 0 3 (.bin .add (.ld 1 3) (.bin .sub (.lit 0x7fffffe 0x7fffffe 0x7fffffe 0x7fffffe) (.ld 2 3))),
  .st 0 4 (.bin .add (.ld 1 4) (.bin .sub (.lit 0x7fffffe 0x7fffffe 0x7fffffe 0x7fffffe) (.ld 2 4))),
  .st 0 5 (.bin .add (.ld 1 5) (.bin .sub (.lit 0x3fffffe 0x3fffffe 0x3fffffe 0x3fffffe) (.ld 2 5))),
  .st 0 6 (.bin .add (.ld 1 6) (.bin .sub (.lit 0x3fffffe 0x3fffffe 0x3fffffe 0x3fffffe) (.ld 2 6))),
  .st 0 7 (.bin .add (.ld 1 7) (.bin .sub (.lit 0x7fffffe 0x7fffffe 0x7fffffe 0x7fffffe) (.ld 2 7))),
  .st 0 8 (.bin .add (.ld 1 8) (.bin .sub (.lit 0x7fffffe 0x7fffffe 0x7fffffe 0x7fffffe) (.ld 2 8))),
  .st 0 9 (.bin .add (.ld 1 9) (.bin .sub (.lit 0x3fffffe 0x3fffffe 0x3fffffe 0x3fffffe) (.ld 2 9)))]⟩

/-- src/eltfp25519_4w_redradix.c:172-184 `neg`; parameters c = 0. -/
def neg : Fn := ⟨[10], [0], [], [
  .st 0 0 (.bin .sub (.lit 0x7ffffda 0x7ffffda 0x7ffffda 0x7ffffda) (.ld 0 0)),
  .st 0 1 (.bin .sub (.lit 0x3fffffe 0x3fffffe 0x3fffffe 0x3fffffe) (.ld 0 1)),
  .st 0 2 (.bin .sub (.lit 0x3fffffe 0x3fffffe 0x3fffffe 0x3fffffe) (.ld 0 2)),
  .st 0 3 (.bin .sub (.lit 0x7fffffe 0x7fffffe 0x7fffffe 0x7fffffe) (.ld 0 3)),
  .st 0 4 (.bin .sub (.lit 0x7fffffe 0x7fffffe 0x7fffffe 0x7fffffe) (.ld 0 4)),
  .st 0 5 (.bin .sub (.lit 0x3fffffe 0x3fffffe 0x3fffffe 0x3fffffe) (.ld 0 5)),
  .st 0 6 (.bin .sub (.lit 0x3fffffe 0x3fffffe 0x3fffffe 0x3fffffe) (.ld 0 6)),
  .st 0 7 (.bin .sub (.lit 0x7fffffe 0x7fffffe 0x7fffffe 0x7fffffe) (.ld 0 7)),
  .st 0 8 (.bin .sub (.lit 0x7fffffe 0x7fffffe 0x7fffffe 0x7fffffe) (.ld 0 8)),
  .st 0 9 (.bin .sub (.lit 0x3fffffe 0x3fffffe 0x3fffffe 0x3fffffe) (.ld 0 9))]⟩

/-- src/eltfp25519_4w_redradix.c:186-200 `addsub`; parameters C = 0, D = 1, A = 2, B = 3. -/
def addsub : Fn := ⟨[10, 10, 10, 10], [0, 1], [], [
  .st 0 0 (.bin .add (.ld 2 0) (.ld 3 0)),
  .st 1 0 (.bin .add (.ld 2 0) (.bin .sub (.lit 0x7ffffda 0x7ffffda 0x7ffffda 0x7ffffda) (.ld 3 0))),
  .st 0 1 (.bin .add (.ld 2 1) (.ld 3 1)),
  .st 1 1 (.bin .add (.ld 2 1) (.bin .sub (.lit 0x3fffffe 0x3fffffe 0x3fffffe 0x3fffffe) (.ld 3 1))),
  .st 0 2 (.bin .add (.ld 2 2) (.ld 3 2)),
  .st 1 2 (.bin .add (.ld 2 2) (.bin .sub (.lit 0x3fffffe 0x3fffffe 0x3fffffe 0x3fffffe) (.ld 3 2))),
  .st 0 3 (.bin .add (.ld 2 3) (.ld 3 3)),
  .st 1 3 (.bin .add (.ld 2 3) (.bin .sub (.lit 0x7fffffe 0x7fffffe 0x7fffffe 0x7fffffe) (.ld 3 3))),
  .st 0 4 (.bin .add (.ld 2 4) (.ld 3 4)),
  .st 1 4 (.bin .add (.ld 2 4) (.bin .sub (.lit 0x7fffffe 0x7fffffe 0x7fffffe 0x7fffffe) (.ld 3 4))),
  .st 0 5 (.bin .add (.ld 2 5) (.ld 3 5)),
  .st 1 5 (.bin .add (.ld 2 5) (.bin .sub (.lit 0x3fffffe 0x3fffffe 0x3fffffe 0x3fffffe) (.ld 3 5))),
  .st 0 6 (.bin .add (.ld 2 6) (.ld 3 6)),
  .st 1 6 (.bin .add (.ld 2 6) (.bin .sub (.lit 0x3fffffe 0x3fffffe 0x3fffffe 0x3fffffe) (.ld 3 6))),
  .st 0 7 (.bin .add (.ld 2 7) (.ld 3 7)),
  .st 1 7 (.bin .add (.ld 2 7) (.bin .sub (.lit 0x7fffffe 0x7fffffe 0x7fffffe 0x7fffffe) (.ld 3 7))),
  .st 0 8 (.bin .add (.ld 2 8) (.ld 3 8)),
  .st 1 8 (.bin .add (.ld 2 8) (.bin .sub (.lit 0x7fffffe 0x7fffffe 0x7fffffe 0x7fffffe) (.ld 3 8))),
  .st 0 9 (.bin .add (.ld 2 9) (.ld 3 9)),
  .st 1 9 (.bin .add (.ld 2 9) (.bin .sub (.lit 0x3fffffe 0x3fffffe 0x3fffffe 0x3fffffe) (.ld 3 9)))]⟩

/-- src/eltfp25519_4w_redradix.c:202-218 `addsublar`; parameters A = 0, B = 1. -/
def addsublar : Fn := ⟨[10, 10], [0, 1], [], [
  .set 0 (.bin .add (.ld 0 0) (.ld 1 0)),
  .set 1 (.bin .add (.ld 0 0) (.bin .sub (.lit 0x1fffff6800000000 0x1fffff6800000000 0x1fffff6800000000 0x1fffff6800000000) (.ld 1 0))),
  .st 0 0 (.r 0),
  .st 1 0 (.r 1),
  .set 2 (.bin .add (.ld 0 1) (.ld 1 1)),
  .set 3 (.bin .add (.ld 0 1) (.bin .sub (.lit 0xffffff800000000 0xffffff800000000 0xffffff800000000 0xffffff800000000) (.ld 1 1))),
  .st 0 1 (.r 2),
  .st 1 1 (.r 3),
  .set 4 (.bin .add (.ld 0 2) (.ld 1 2)),
  .set 5 (.bin .add (.ld 0 2) (.bin .sub (.lit 0xffffff800000000 0xffffff800000000 0xffffff800000000 0xffffff800000000) (.ld 1 2))),
  .st 0 2 (.r 4),
  .st 1 2 (.r 5),
  .set 6 (.bin .add (.ld 0 3) (.ld 1 3)),
  .set 7 (.bin .add (.ld 0 3) (.bin .sub (.lit 0x1ffffff800000000 0x1ffffff800000000 0x1ffffff800000000 0x1ffffff800000000) (.ld 1 3))),
  .st 0 3 (.r 6),
  .st 1 3 (.r 7),
  .set 8 (.bin .add (.ld 0 4) (.ld 1 4)),
  .set 9 (.bin .add (.ld 0 4) (.bin .sub (.lit 0x1ffffff800000000 0x1ffffff800000000 0x1ffffff800000000 0x1ffffff800000000) (.ld 1 4))),
  .st 0 4 (.r 8),
  .st 1 4 (.r 9),
  .set 10 (.bin .add (.ld 0 5) (.ld 1 5)),
  .set 11 (.bin .add (.ld 0 5) (.bin .sub (.lit 0xffffff800000000 0xffffff800000000 0xffffff800000000 0xffffff800000000) (.ld 1 5))),
  .st 0 5 (.r 10),
  .st 1 5 (.r 11),
  .set 12 (.bin .add (.ld 0 6) (.ld 1 6)),
  .set 13 (.bin .add (.ld 0 6) (.bin .sub (.lit 0xffffff800000000 0xffffff800000000 0xffffff800000000 0xffffff800000000) (.ld 1 6))),
  .st 0 6 (.r 12),
  .st 1 6 (.r 13),
  .set 14 (.bin .add (.ld 0 7) (.ld 1 7)),
  .set 15 (.bin .add (.ld 0 7) (.bin .sub (.lit 0x1ffffff800000000 0x1ffffff800000000 0x1ffffff800000000 0x1ffffff800000000) (.ld 1 7))),
  .st 0 7 (.r 14),
  .st 1 7 (.r 15),
  .set 16 (.bin .add (.ld 0 8) (.ld 1 8)),
  .set 17 (.bin .add (.ld 0 8) (.bin .sub (.lit 0x1ffffff800000000 0x1ffffff800000000 0x1ffffff800000000 0x1ffffff800000000) (.ld 1 8))),
  .st 0 8 (.r 16),
  .st 1 8 (.r 17),
  .set 18 (.bin .add (.ld 0 9) (.ld 1 9)),
  .set 19 (.bin .add (.ld 0 9) (.bin .sub (.lit 0xffffff800000000 0xffffff800000000 0xffffff800000000 0xffffff800000000) (.ld 1 9))),
  .st 0 9 (.r 18),
  .st 1 9 (.r 19)]⟩

/-- src/eltfp25519_4w_redradix.c:220-242 `ngz`; parameters c = 0, a = 1. -/
def ngz : Fn := ⟨[10, 10], [0], [8], [
  .set 0 (.un .shuf4E (.ld 1 0)),
  .set 1 (.bin .add (.cst 0 0 0 0 0x7ffffda 0) (.bin .sub (.bin .xor (.ld 1 0) (.lit 0 0 0xffffffffffffffff 0)) (.lit 0 0 0xffffffffffffffff 0))),
  .st 0 0 (.bin (.blend 0xF0) (.r 0) (.r 1)),
  .set 2 (.un .shuf4E (.ld 1 1)),
  .set 3 (.bin .add (.cst 0 1 0 0 0x3fffffe 0) (.bin .sub (.bin .xor (.ld 1 1) (.lit 0 0 0xffffffffffffffff 0)) (.lit 0 0 0xffffffffffffffff 0))),
  .st 0 1 (.bin (.blend 0xF0) (.r 2) (.r 3)),
  .set 4 (.un .shuf4E (.ld 1 2)),
  .set 5 (.bin .add (.cst 0 2 0 0 0x3fffffe 0) (.bin .sub (.bin .xor (.ld 1 2) (.lit 0 0 0xffffffffffffffff 0)) (.lit 0 0 0xffffffffffffffff 0))),
  .st 0 2 (.bin (.blend 0xF0) (.r 4) (.r 5)),
  .set 6 (.un .shuf4E (.ld 1 3)),
  .set 7 (.bin .add (.cst 0 3 0 0 0x7fffffe 0) (.bin .sub (.bin .xor (.ld 1 3) (.lit 0 0 0xffffffffffffffff 0)) (.lit 0 0 0xffffffffffffffff 0))),
  .st 0 3 (.bin (.blend 0xF0) (.r 6) (.r 7)),
  .set 8 (.un .shuf4E (.ld 1 4)),
  .set 9 (.bin .add (.cst 0 4 0 0 0x7fffffe 0) (.bin .sub (.bin .xor (.ld 1 4) (.lit 0 0 0xffffffffffffffff 0)) (.lit 0 0 0xffffffffffffffff 0))),
  .st 0 4 (.bin (.blend 0xF0) (.r 8) (.r 9)),
  .set 10 (.un .shuf4E (.ld 1 5)),
  .set 11 (.bin .add (.cst 0 5 0 0 0x3fffffe 0) (.bin .sub (.bin .xor (.ld 1 5) (.lit 0 0 0xffffffffffffffff 0)) (.lit 0 0 0xffffffffffffffff 0))),
  .st 0 5 (.bin (.blend 0xF0) (.r 10) (.r 11)),
  .set 12 (.un .shuf4E (.ld 1 6)),
  .set 13 (.bin .add (.cst 0 6 0 0 0x3fffffe 0) (.bin .sub (.bin .xor (.ld 1 6) (.lit 0 0 0xffffffffffffffff 0)) (.lit 0 0 0xffffffffffffffff 0))),
  .st 0 6 (.bin (.blend 0xF0) (.r 12) (.r 13)),
  .set 14 (.un .shuf4E (.ld 1 7)),
  .set 15 (.bin .add (.cst 0 7 0 0 0x7fffffe 0) (.bin .sub (.bin .xor (.ld 1 7) (.lit 0 0 0xffffffffffffffff 0)) (.lit 0 0 0xffffffffffffffff 0))),
  .st 0 7 (.bin (.blend 0xF0) (.r 14) (.r 15)),
  .set 16 (.un .shuf4E (.ld 1 8)),
  .set 17 (.bin .add (.cst 0 8 0 0 0x7fffffe 0) (.bin .sub (.bin .xor (.ld 1 8) (.lit 0 0 0xffffffffffffffff 0)) (.lit 0 0 0xffffffffffffffff 0))),
  .st 0 8 (.bin (.blend 0xF0) (.r 16) (.r 17)),
  .set 18 (.un .shuf4E (.ld 1 9)),
  .set 19 (.bin .add (.cst 0 9 0 0 0x3fffffe 0) (.bin .sub (.bin .xor (.ld 1 9) (.lit 0 0 0xffffffffffffffff 0)) (.lit 0 0 0xffffffffffffffff 0))),
  .st 0 9 (.bin (.blend 0xF0) (.r 18) (.r 19))]⟩

/-- src/eltfp25519_4w_redradix.c:244-346 `intmul_sb`; parameters C = 0, A = 1, B = 2. -/
def intmul_sb : Fn := ⟨[10, 10, 10], [0], [], [
  .set 19 (.ld 2 0),
  .set 24 (.ld 2 1),
  .set 20 (.ld 2 2),
  .set 25 (.ld 2 3),
  .set 21 (.ld 2 4),
  .set 26 (.ld 2 5),
  .set 22 (.ld 2 6),
  .set 27 (.ld 2 7),
  .set 23 (.ld 2 8),
  .set 28 (.ld 2 9),
  .set 29 (.ld 1 0),
  .set 0 (.bin .mul (.r 29) (.r 19)),
  .set 5 (.bin .mul (.r 29) (.r 24)),
  .set 1 (.bin .mul (.r 29) (.r 20)),
  .set 6 (.bin .mul (.r 29) (.r 25)),
  .set 2 (.bin .mul (.r 29) (.r 21)),
  .set 7 (.bin .mul (.r 29) (.r 26)),
  .set 3 (.bin .mul (.r 29) (.r 22)),
  .set 8 (.bin .mul (.r 29) (.r 27)),
  .set 4 (.bin .mul (.r 29) (.r 23)),
  .set 9 (.bin .mul (.r 29) (.r 28)),
  .set 29 (.ld 1 2),
  .set 30 (.bin .add (.ld 1 2) (.ld 1 2)),
  .set 18 (.bin .mul (.r 28) (.lit 0x13 0x13 0x13 0x13)),
  .set 0 (.bin .add (.r 0) (.bin .mul (.r 30) (.r 18))),
  .set 5 (.bin .add (.r 5) (.bin .mul (.r 29) (.r 23))),
  .set 1 (.bin .add (.r 1) (.bin .mul (.r 29) (.r 19))),
  .set 6 (.bin .add (.r 6) (.bin .mul (.r 30) (.r 24))),
  .set 2 (.bin .add (.r 2) (.bin .mul (.r 30) (.r 20))),
  .set 7 (.bin .add (.r 7) (.bin .mul (.r 29) (.r 25))),
  .set 3 (.bin .add (.r 3) (.bin .mul (.r 29) (.r 21))),
  .set 8 (.bin .add (.r 8) (.bin .mul (.r 30) (.r 26))),
  .set 4 (.bin .add (.r 4) (.bin .mul (.r 30) (.r 22))),
  .set 9 (.bin .add (.r 9) (.bin .mul (.r 29) (.r 27))),
  .set 29 (.ld 1 4),
  .set 17 (.bin .mul (.r 27) (.lit 0x13 0x13 0x13 0x13)),
  .set 0 (.bin .add (.r 0) (.bin .mul (.r 29) (.r 17))),
  .set 5 (.bin .add (.r 5) (.bin .mul (.r 29) (.r 22))),
  .set 1 (.bin .add (.r 1) (.bin .mul (.r 29) (.r 18))),
  .set 6 (.bin .add (.r 6) (.bin .mul (.r 29) (.r 23))),
  .set 2 (.bin .add (.r 2) (.bin .mul (.r 29) (.r 19))),
  .set 7 (.bin .add (.r 7) (.bin .mul (.r 29) (.r 24))),
  .set 3 (.bin .add (.r 3) (.bin .mul (.r 29) (.r 20))),
  .set 8 (.bin .add (.r 8) (.bin .mul (.r 29) (.r 25))),
  .set 4 (.bin .add (.r 4) (.bin .mul (.r 29) (.r 21))),
  .set 9 (.bin .add (.r 9) (.bin .mul (.r 29) (.r 26))),
  .set 29 (.ld 1 6),
  .set 30 (.bin .add (.ld 1 6) (.ld 1 6)),
  .set 16 (.bin .mul (.r 26) (.lit 0x13 0x13 0x13 0x13)),
  .set 0 (.bin .add (.r 0) (.bin .mul (.r 30) (.r 16))),
  .set 5 (.bin .add (.r 5) (.bin .mul (.r 29) (.r 21))),
  .set 1 (.bin .add (.r 1) (.bin .mul (.r 29) (.r 17))),
  .set 6 (.bin .add (.r 6) (.bin .mul (.r 30) (.r 22))),
  .set 2 (.bin .add (.r 2) (.bin .mul (.r 30) (.r 18))),
  .set 7 (.bin .add (.r 7) (.bin .mul (.r 29) (.r 23))),
  .set 3 (.bin .add (.r 3) (.bin .mul (.r 29) (.r 19))),
  .set 8 (.bin .add (.r 8) (.bin .mul (.r 30) (.r 24))),
  .set 4 (.bin .add (.r 4) (.bin .mul (.r 30) (.r 20))),
  .set 9 (.bin .add (.r 9) (.bin .mul (.r 29) (.r 25))),
  .set 29 (.ld 1 8),
  .set 15 (.bin .mul (.r 25) (.lit 0x13 0x13 0x13 0x13)),
  .set 0 (.bin .add (.r 0) (.bin .mul (.r 29) (.r 15))),
  .set 5 (.bin .add (.r 5) (.bin .mul (.r 29) (.r 20))),
  .set 1 (.bin .add (.r 1) (.bin .mul (.r 29) (.r 16))),
  .set 6 (.bin .add (.r 6) (.bin .mul (.r 29) (.r 21))),
  .set 2 (.bin .add (.r 2) (.bin .mul (.r 29) (.r 17))),
  .set 7 (.bin .add (.r 7) (.bin .mul (.r 29) (.r 22))),
  .set 3 (.bin .add (.r 3) (.bin .mul (.r 29) (.r 18))),
  .set 8 (.bin .add (.r 8) (.bin .mul (.r 29) (.r 23))),
  .set 4 (.bin .add (.r 4) (.bin .mul (.r 29) (.r 19))),
  .set 9 (.bin .add (.r 9) (.bin .mul (.r 29) (.r 24))),
  .set 29 (.ld 1 1),
  .set 30 (.bin .add (.ld 1 1) (.ld 1 1)),
  .set 14 (.bin .mul (.r 24) (.lit 0x13 0x13 0x13 0x13)),
  .set 0 (.bin .add (.r 0) (.bin .mul (.r 30) (.r 14))),
  .set 5 (.bin .add (.r 5) (.bin .mul (.r 29) (.r 19))),
  .set 1 (.bin .add (.r 1) (.bin .mul (.r 29) (.r 15))),
  .set 6 (.bin .add (.r 6) (.bin .mul (.r 30) (.r 20))),
  .set 2 (.bin .add (.r 2) (.bin .mul (.r 30) (.r 16))),
  .set 7 (.bin .add (.r 7) (.bin .mul (.r 29) (.r 21))),
  .set 3 (.bin .add (.r 3) (.bin .mul (.r 29) (.r 17))),
  .set 8 (.bin .add (.r 8) (.bin .mul (.r 30) (.r 22))),
  .set 4 (.bin .add (.r 4) (.bin .mul (.r 30) (.r 18))),
  .set 9 (.bin .add (.r 9) (.bin .mul (.r 29) (.r 23))),
  .set 29 (.ld 1 3),
  .set 13 (.bin .mul (.r 23) (.lit 0x13 0x13 0x13 0x13)),
  .set 0 (.bin .add (.r 0) (.bin .mul (.r 29) (.r 13))),
  .set 5 (.bin .add (.r 5) (.bin .mul (.r 29) (.r 18))),
  .set 1 (.bin .add (.r 1) (.bin .mul (.r 29) (.r 14))),
  .set 6 (.bin .add (.r 6) (.bin .mul (.r 29) (.r 19))),
  .set 2 (.bin .add (.r 2) (.bin .mul (.r 29) (.r 15))),
  .set 7 (.bin .add (.r 7) (.bin .mul (.r 29) (.r 20))),
  .set 3 (.bin .add (.r 3) (.bin .mul (.r 29) (.r 16))),
  .set 8 (.bin .add (.r 8) (.bin .mul (.r 29) (.r 21))),
  .set 4 (.bin .add (.r 4) (.bin .mul (.r 29) (.r 17))),
  .set 9 (.bin .add (.r 9) (.bin .mul (.r 29) (.r 22))),
  .set 29 (.ld 1 5),
  .set 30 (.bin .add (.ld 1 5) (.ld 1 5)),
  .set 12 (.bin .mul (.r 22) (.lit 0x13 0x13 0x13 0x13)),
  .set 0 (.bin .add (.r 0) (.bin .mul (.r 30) (.r 12))),
  .set 5 (.bin .add (.r 5) (.bin .mul (.r 29) (.r 17))),
  .set 1 (.bin .add (.r 1) (.bin .mul (.r 29) (.r 13))),
  .set 6 (.bin .add (.r 6) (.bin .mul (.r 30) (.r 18))),
  .set 2 (.bin .add (.r 2) (.bin .mul (.r 30) (.r 14))),
  .set 7 (.bin .add (.r 7) (.bin .mul (.r 29) (.r 19))),
  .set 3 (.bin .add (.r 3) (.bin .mul (.r 29) (.r 15))),
  .set 8 (.bin .add (.r 8) (.bin .mul (.r 30) (.r 20))),
  .set 4 (.bin .add (.r 4) (.bin .mul (.r 30) (.r 16))),
  .set 9 (.bin .add (.r 9) (.bin .mul (.r 29) (.r 21))),
  .set 29 (.ld 1 7),
  .set 11 (.bin .mul (.r 21) (.lit 0x13 0x13 0x13 0x13)),
  .set 0 (.bin .add (.r 0) (.bin .mul (.r 29) (.r 11))),
  .set 5 (.bin .add (.r 5) (.bin .mul (.r 29) (.r 16))),
  .set 1 (.bin .add (.r 1) (.bin .mul (.r 29) (.r 12))),
  .set 6 (.bin .add (.r 6) (.bin .mul (.r 29) (.r 17))),
  .set 2 (.bin .add (.r 2) (.bin .mul (.r 29) (.r 13))),
  .set 7 (.bin .add (.r 7) (.bin .mul (.r 29) (.r 18))),
  .set 3 (.bin .add (.r 3) (.bin .mul (.r 29) (.r 14))),
  .set 8 (.bin .add (.r 8) (.bin .mul (.r 29) (.r 19))),
  .set 4 (.bin .add (.r 4) (.bin .mul (.r 29) (.r 15))),
  .set 9 (.bin .add (.r 9) (.bin .mul (.r 29) (.r 20))),
  .set 29 (.ld 1 9),
  .set 30 (.bin .add (.ld 1 9) (.ld 1 9)),
  .set 10 (.bin .mul (.r 20) (.lit 0x13 0x13 0x13 0x13)),
  .set 0 (.bin .add (.r 0) (.bin .mul (.r 30) (.r 10))),
  .set 5 (.bin .add (.r 5) (.bin .mul (.r 29) (.r 15))),
  .set 1 (.bin .add (.r 1) (.bin .mul (.r 29) (.r 11))),
  .set 6 (.bin .add (.r 6) (.bin .mul (.r 30) (.r 16))),
  .set 2 (.bin .add (.r 2) (.bin .mul (.r 30) (.r 12))),
  .set 7 (.bin .add (.r 7) (.bin .mul (.r 29) (.r 17))),
  .set 3 (.bin .add (.r 3) (.bin .mul (.r 29) (.r 13))),
  .set 8 (.bin .add (.r 8) (.bin .mul (.r 30) (.r 18))),
  .set 4 (.bin .add (.r 4) (.bin .mul (.r 30) (.r 14))),
  .set 9 (.bin .add (.r 9) (.bin .mul (.r 29) (.r 19))),
  .st 0 0 (.r 0),
  .st 0 1 (.r 5),
  .st 0 2 (.r 1),
  .st 0 3 (.r 6),
  .st 0 4 (.r 2),
  .st 0 5 (.r 7),
  .st 0 6 (.r 3),
  .st 0 7 (.r 8),
  .st 0 8 (.r 4),
  .st 0 9 (.r 9)]⟩

/-- src/eltfp25519_4w_redradix.c:348-350 `intmul`; parameters c = 0, a = 1, b = 2. -/
def intmul : Fn := ⟨[10, 10, 10], [0], [], intmul_sb.inl [0, 1, 2] 0⟩

/-- src/eltfp25519_4w_redradix.c:352-466 `intsqr`; parameters c = 0. -/
def intsqr : Fn := ⟨[10], [0], [], [
  .set 17 (.ld 0 0),
  .set 22 (.ld 0 1),
  .set 18 (.ld 0 2),
  .set 23 (.ld 0 3),
  .set 19 (.ld 0 4),
  .set 24 (.ld 0 5),
  .set 20 (.ld 0 6),
  .set 25 (.ld 0 7),
  .set 21 (.ld 0 8),
  .set 26 (.ld 0 9),
  .set 27 (.ld 0 0),
  .set 28 (.bin .add (.r 27) (.r 27)),
  .set 0 (.bin .mul (.r 27) (.r 17)),
  .set 5 (.bin .mul (.r 27) (.r 22)),
  .set 1 (.bin .mul (.r 28) (.r 18)),
  .set 6 (.bin .mul (.r 28) (.r 23)),
  .set 2 (.bin .mul (.r 28) (.r 19)),
  .set 7 (.bin .mul (.r 28) (.r 24)),
  .set 3 (.bin .mul (.r 28) (.r 20)),
  .set 8 (.bin .mul (.r 28) (.r 25)),
  .set 4 (.bin .mul (.r 28) (.r 21)),
  .set 9 (.bin .mul (.r 28) (.r 26)),
  .set 27 (.ld 0 2),
  .set 28 (.bin .add (.r 27) (.r 27)),
  .set 29 (.bin .add (.r 28) (.r 28)),
  .set 16 (.bin .mul (.r 26) (.lit 0x13 0x13 0x13 0x13)),
  .set 0 (.bin .add (.r 0) (.bin .mul (.r 29) (.r 16))),
  .set 5 (.bin .add (.r 5) (.bin .mul (.r 28) (.r 21))),
  .set 2 (.bin .add (.r 2) (.bin .mul (.r 28) (.r 18))),
  .set 7 (.bin .add (.r 7) (.bin .mul (.r 27) (.r 23))),
  .set 3 (.bin .add (.r 3) (.bin .mul (.r 28) (.r 19))),
  .set 8 (.bin .add (.r 8) (.bin .mul (.r 29) (.r 24))),
  .set 4 (.bin .add (.r 4) (.bin .mul (.r 29) (.r 20))),
  .set 9 (.bin .add (.r 9) (.bin .mul (.r 28) (.r 25))),
  .set 27 (.ld 0 4),
  .set 28 (.bin .add (.r 27) (.r 27)),
  .set 29 (.bin .add (.r 28) (.r 28)),
  .set 15 (.bin .mul (.r 25) (.lit 0x13 0x13 0x13 0x13)),
  .set 0 (.bin .add (.r 0) (.bin .mul (.r 28) (.r 15))),
  .set 5 (.bin .add (.r 5) (.bin .mul (.r 28) (.r 20))),
  .set 1 (.bin .add (.r 1) (.bin .mul (.r 28) (.r 16))),
  .set 6 (.bin .add (.r 6) (.bin .mul (.r 28) (.r 21))),
  .set 4 (.bin .add (.r 4) (.bin .mul (.r 27) (.r 19))),
  .set 9 (.bin .add (.r 9) (.bin .mul (.r 27) (.r 24))),
  .set 27 (.ld 0 6),
  .set 28 (.bin .add (.r 27) (.r 27)),
  .set 29 (.bin .add (.r 28) (.r 28)),
  .set 14 (.bin .mul (.r 24) (.lit 0x13 0x13 0x13 0x13)),
  .set 1 (.bin .add (.r 1) (.bin .mul (.r 27) (.r 15))),
  .set 6 (.bin .add (.r 6) (.bin .mul (.r 28) (.r 20))),
  .set 2 (.bin .add (.r 2) (.bin .mul (.r 29) (.r 16))),
  .set 7 (.bin .add (.r 7) (.bin .mul (.r 28) (.r 21))),
  .set 27 (.ld 0 8),
  .set 28 (.bin .add (.r 27) (.r 27)),
  .set 29 (.bin .add (.r 28) (.r 28)),
  .set 13 (.bin .mul (.r 23) (.lit 0x13 0x13 0x13 0x13)),
  .set 3 (.bin .add (.r 3) (.bin .mul (.r 27) (.r 16))),
  .set 8 (.bin .add (.r 8) (.bin .mul (.r 27) (.r 21))),
  .set 27 (.ld 0 1),
  .set 28 (.bin .add (.r 27) (.r 27)),
  .set 29 (.bin .add (.r 28) (.r 28)),
  .set 12 (.bin .mul (.r 22) (.lit 0x13 0x13 0x13 0x13)),
  .set 0 (.bin .add (.r 0) (.bin .mul (.r 28) (.r 12))),
  .set 5 (.bin .add (.r 5) (.bin .mul (.r 27) (.r 17))),
  .set 1 (.bin .add (.r 1) (.bin .mul (.r 28) (.r 13))),
  .set 6 (.bin .add (.r 6) (.bin .mul (.r 29) (.r 18))),
  .set 2 (.bin .add (.r 2) (.bin .mul (.r 29) (.r 14))),
  .set 7 (.bin .add (.r 7) (.bin .mul (.r 28) (.r 19))),
  .set 3 (.bin .add (.r 3) (.bin .mul (.r 28) (.r 15))),
  .set 8 (.bin .add (.r 8) (.bin .mul (.r 29) (.r 20))),
  .set 4 (.bin .add (.r 4) (.bin .mul (.r 29) (.r 16))),
  .set 9 (.bin .add (.r 9) (.bin .mul (.r 28) (.r 21))),
  .set 27 (.ld 0 3),
  .set 28 (.bin .add (.r 27) (.r 27)),
  .set 29 (.bin .add (.r 28) (.r 28)),
  .set 11 (.bin .mul (.r 21) (.lit 0x13 0x13 0x13 0x13)),
  .set 0 (.bin .add (.r 0) (.bin .mul (.r 28) (.r 11))),
  .set 5 (.bin .add (.r 5) (.bin .mul (.r 28) (.r 16))),
  .set 2 (.bin .add (.r 2) (.bin .mul (.r 27) (.r 13))),
  .set 7 (.bin .add (.r 7) (.bin .mul (.r 27) (.r 18))),
  .set 3 (.bin .add (.r 3) (.bin .mul (.r 28) (.r 14))),
  .set 8 (.bin .add (.r 8) (.bin .mul (.r 28) (.r 19))),
  .set 4 (.bin .add (.r 4) (.bin .mul (.r 28) (.r 15))),
  .set 9 (.bin .add (.r 9) (.bin .mul (.r 28) (.r 20))),
  .set 27 (.ld 0 5),
  .set 28 (.bin .add (.r 27) (.r 27)),
  .set 29 (.bin .add (.r 28) (.r 28)),
  .set 10 (.bin .mul (.r 20) (.lit 0x13 0x13 0x13 0x13)),
  .set 0 (.bin .add (.r 0) (.bin .mul (.r 29) (.r 10))),
  .set 5 (.bin .add (.r 5) (.bin .mul (.r 28) (.r 15))),
  .set 1 (.bin .add (.r 1) (.bin .mul (.r 28) (.r 11))),
  .set 6 (.bin .add (.r 6) (.bin .mul (.r 29) (.r 16))),
  .set 4 (.bin .add (.r 4) (.bin .mul (.r 28) (.r 14))),
  .set 9 (.bin .add (.r 9) (.bin .mul (.r 27) (.r 19))),
  .set 27 (.ld 0 7),
  .set 28 (.bin .add (.r 27) (.r 27)),
  .set 1 (.bin .add (.r 1) (.bin .mul (.r 27) (.r 10))),
  .set 6 (.bin .add (.r 6) (.bin .mul (.r 27) (.r 15))),
  .set 2 (.bin .add (.r 2) (.bin .mul (.r 28) (.r 11))),
  .set 7 (.bin .add (.r 7) (.bin .mul (.r 28) (.r 16))),
  .set 27 (.ld 0 9),
  .set 28 (.bin .add (.r 27) (.r 27)),
  .set 3 (.bin .add (.r 3) (.bin .mul (.r 27) (.r 11))),
  .set 8 (.bin .add (.r 8) (.bin .mul (.r 28) (.r 16))),
  .st 0 0 (.r 0),
  .st 0 1 (.r 5),
  .st 0 2 (.r 1),
  .st 0 3 (.r 6),
  .st 0 4 (.r 2),
  .st 0 5 (.r 7),
  .st 0 6 (.r 3),
  .st 0 7 (.r 8),
  .st 0 8 (.r 4),
  .st 0 9 (.r 9)]⟩

/-- src/eltfp25519_4w_redradix.c:470-533 `compress`; parameters C = 0. -/
def compress : Fn := ⟨[10], [0], [], [
  .set 0 (.ld 0 0),
  .set 1 (.ld 0 1),
  .set 2 (.ld 0 2),
  .set 3 (.ld 0 3),
  .set 4 (.ld 0 4),
  .set 5 (.ld 0 5),
  .set 6 (.ld 0 6),
  .set 7 (.ld 0 7),
  .set 8 (.ld 0 8),
  .set 9 (.ld 0 9),
  .set 10 (.un (.shr 26) (.r 0)),
  .set 0 (.bin .and (.r 0) (.lit 0x3ffffff 0x3ffffff 0x3ffffff 0x3ffffff)),
  .set 2 (.bin .add (.r 2) (.r 10)),
  .set 11 (.un (.shr 25) (.r 2)),
  .set 2 (.bin .and (.r 2) (.lit 0x1ffffff 0x1ffffff 0x1ffffff 0x1ffffff)),
  .set 4 (.bin .add (.r 4) (.r 11)),
  .set 12 (.un (.shr 26) (.r 4)),
  .set 4 (.bin .and (.r 4) (.lit 0x3ffffff 0x3ffffff 0x3ffffff 0x3ffffff)),
  .set 6 (.bin .add (.r 6) (.r 12)),
  .set 13 (.un (.shr 25) (.r 6)),
  .set 6 (.bin .and (.r 6) (.lit 0x1ffffff 0x1ffffff 0x1ffffff 0x1ffffff)),
  .set 8 (.bin .add (.r 8) (.r 13)),
  .set 14 (.un (.shr 26) (.r 8)),
  .set 8 (.bin .and (.r 8) (.lit 0x3ffffff 0x3ffffff 0x3ffffff 0x3ffffff)),
  .set 1 (.bin .add (.r 1) (.r 14)),
  .set 15 (.un (.shr 25) (.r 1)),
  .set 1 (.bin .and (.r 1) (.lit 0x1ffffff 0x1ffffff 0x1ffffff 0x1ffffff)),
  .set 3 (.bin .add (.r 3) (.r 15)),
  .set 16 (.un (.shr 26) (.r 3)),
  .set 3 (.bin .and (.r 3) (.lit 0x3ffffff 0x3ffffff 0x3ffffff 0x3ffffff)),
  .set 5 (.bin .add (.r 5) (.r 16)),
  .set 17 (.un (.shr 25) (.r 5)),
  .set 5 (.bin .and (.r 5) (.lit 0x1ffffff 0x1ffffff 0x1ffffff 0x1ffffff)),
  .set 7 (.bin .add (.r 7) (.r 17)),
  .set 18 (.un (.shr 26) (.r 7)),
  .set 7 (.bin .and (.r 7) (.lit 0x3ffffff 0x3ffffff 0x3ffffff 0x3ffffff)),
  .set 9 (.bin .add (.r 9) (.r 18)),
  .set 19 (.un (.shr 25) (.r 9)),
  .set 9 (.bin .and (.r 9) (.lit 0x1ffffff 0x1ffffff 0x1ffffff 0x1ffffff)),
  .set 0 (.bin .add (.r 0) (.bin .add (.r 19) (.bin .add (.bin .add (.r 19) (.r 19)) (.un (.shl 4) (.r 19))))),
  .set 10 (.un (.shr 26) (.r 0)),
  .set 0 (.bin .and (.r 0) (.lit 0x3ffffff 0x3ffffff 0x3ffffff 0x3ffffff)),
  .set 2 (.bin .add (.r 2) (.r 10)),
  .st 0 0 (.r 0),
  .st 0 1 (.r 1),
  .st 0 2 (.r 2),
  .st 0 3 (.r 3),
  .st 0 4 (.r 4),
  .st 0 5 (.r 5),
  .st 0 6 (.r 6),
  .st 0 7 (.r 7),
  .st 0 8 (.r 8),
  .st 0 9 (.r 9)]⟩

/-- src/eltfp25519_4w_redradix.c:535-598 `compress2`; parameters C = 0, D = 1. -/
def compress2 : Fn := ⟨[10, 10], [0, 1], [], [
  .set 0 (.ld 0 0),
  .set 1 (.ld 0 1),
  .set 2 (.ld 1 0),
  .set 3 (.ld 1 1),
  .set 4 (.ld 0 2),
  .set 5 (.ld 0 3),
  .set 6 (.ld 1 2),
  .set 7 (.ld 1 3),
  .set 8 (.ld 0 4),
  .set 9 (.ld 0 5),
  .set 10 (.ld 1 4),
  .set 11 (.ld 1 5),
  .set 12 (.ld 0 6),
  .set 13 (.ld 0 7),
  .set 14 (.ld 1 6),
  .set 15 (.ld 1 7),
  .set 16 (.ld 0 8),
  .set 17 (.ld 0 9),
  .set 18 (.ld 1 8),
  .set 19 (.ld 1 9),
  .set 20 (.un (.shr 26) (.r 0)),
  .set 30 (.un (.shr 26) (.r 2)),
  .set 0 (.bin .and (.r 0) (.lit 0x3ffffff 0x3ffffff 0x3ffffff 0x3ffffff)),
  .set 2 (.bin .and (.r 2) (.lit 0x3ffffff 0x3ffffff 0x3ffffff 0x3ffffff)),
  .set 4 (.bin .add (.r 4) (.r 20)),
  .set 6 (.bin .add (.r 6) (.r 30)),
  .set 21 (.un (.shr 25) (.r 4)),
  .set 31 (.un (.shr 25) (.r 6)),
  .set 4 (.bin .and (.r 4) (.lit 0x1ffffff 0x1ffffff 0x1ffffff 0x1ffffff)),
  .set 6 (.bin .and (.r 6) (.lit 0x1ffffff 0x1ffffff 0x1ffffff 0x1ffffff)),
  .set 8 (.bin .add (.r 8) (.r 21)),
  .set 10 (.bin .add (.r 10) (.r 31)),
  .set 22 (.un (.shr 26) (.r 8)),
  .set 32 (.un (.shr 26) (.r 10)),
  .set 8 (.bin .and (.r 8) (.lit 0x3ffffff 0x3ffffff 0x3ffffff 0x3ffffff)),
  .set 10 (.bin .and (.r 10) (.lit 0x3ffffff 0x3ffffff 0x3ffffff 0x3ffffff)),
  .set 12 (.bin .add (.r 12) (.r 22)),
  .set 14 (.bin .add (.r 14) (.r 32)),
  .set 23 (.un (.shr 25) (.r 12)),
  .set 33 (.un (.shr 25) (.r 14)),
  .set 12 (.bin .and (.r 12) (.lit 0x1ffffff 0x1ffffff 0x1ffffff 0x1ffffff)),
  .set 14 (.bin .and (.r 14) (.lit 0x1ffffff 0x1ffffff 0x1ffffff 0x1ffffff)),
  .set 16 (.bin .add (.r 16) (.r 23)),
  .set 18 (.bin .add (.r 18) (.r 33)),
  .set 24 (.un (.shr 26) (.r 16)),
  .set 34 (.un (.shr 26) (.r 18)),
  .set 16 (.bin .and (.r 16) (.lit 0x3ffffff 0x3ffffff 0x3ffffff 0x3ffffff)),
  .set 18 (.bin .and (.r 18) (.lit 0x3ffffff 0x3ffffff 0x3ffffff 0x3ffffff)),
  .set 1 (.bin .add (.r 1) (.r 24)),
  .set 3 (.bin .add (.r 3) (.r 34)),
  .set 25 (.un (.shr 25) (.r 1)),
  .set 35 (.un (.shr 25) (.r 3)),
  .set 1 (.bin .and (.r 1) (.lit 0x1ffffff 0x1ffffff 0x1ffffff 0x1ffffff)),
  .set 3 (.bin .and (.r 3) (.lit 0x1ffffff 0x1ffffff 0x1ffffff 0x1ffffff)),
  .set 5 (.bin .add (.r 5) (.r 25)),
  .set 7 (.bin .add (.r 7) (.r 35)),
  .set 26 (.un (.shr 26) (.r 5)),
  .set 36 (.un (.shr 26) (.r 7)),
  .set 5 (.bin .and (.r 5) (.lit 0x3ffffff 0x3ffffff 0x3ffffff 0x3ffffff)),
  .set 7 (.bin .and (.r 7) (.lit 0x3ffffff 0x3ffffff 0x3ffffff 0x3ffffff)),
  .set 9 (.bin .add (.r 9) (.r 26)),
  .set 11 (.bin .add (.r 11) (.r 36)),
  .set 27 (.un (.shr 25) (.r 9)),
  .set 37 (.un (.shr 25) (.r 11)),
  .set 9 (.bin .and (.r 9) (.lit 0x1ffffff 0x1ffffff 0x1ffffff 0x1ffffff)),
  .set 11 (.bin .and (.r 11) (.lit 0x1ffffff 0x1ffffff 0x1ffffff 0x1ffffff)),
  .set 13 (.bin .add (.r 13) (.r 27)),
  .set 15 (.bin .add (.r 15) (.r 37)),
  .set 28 (.un (.shr 26) (.r 13)),
  .set 38 (.un (.shr 26) (.r 15)),
  .set 13 (.bin .and (.r 13) (.lit 0x3ffffff 0x3ffffff 0x3ffffff 0x3ffffff)),
  .set 15 (.bin .and (.r 15) (.lit 0x3ffffff 0x3ffffff 0x3ffffff 0x3ffffff)),
  .set 17 (.bin .add (.r 17) (.r 28)),
  .set 19 (.bin .add (.r 19) (.r 38)),
  .set 29 (.un (.shr 25) (.r 17)),
  .set 39 (.un (.shr 25) (.r 19)),
  .set 17 (.bin .and (.r 17) (.lit 0x1ffffff 0x1ffffff 0x1ffffff 0x1ffffff)),
  .set 19 (.bin .and (.r 19) (.lit 0x1ffffff 0x1ffffff 0x1ffffff 0x1ffffff)),
  .set 0 (.bin .add (.r 0) (.bin .add (.r 29) (.bin .add (.bin .add (.r 29) (.r 29)) (.un (.shl 4) (.r 29))))),
  .set 2 (.bin .add (.r 2) (.bin .add (.r 39) (.bin .add (.bin .add (.r 39) (.r 39)) (.un (.shl 4) (.r 39))))),
  .set 20 (.un (.shr 26) (.r 0)),
  .set 30 (.un (.shr 26) (.r 2)),
  .set 0 (.bin .and (.r 0) (.lit 0x3ffffff 0x3ffffff 0x3ffffff 0x3ffffff)),
  .set 2 (.bin .and (.r 2) (.lit 0x3ffffff 0x3ffffff 0x3ffffff 0x3ffffff)),
  .set 4 (.bin .add (.r 4) (.r 20)),
  .set 6 (.bin .add (.r 6) (.r 30)),
  .st 0 0 (.r 0),
  .st 0 1 (.r 1),
  .st 1 0 (.r 2),
  .st 1 1 (.r 3),
  .st 0 2 (.r 4),
  .st 0 3 (.r 5),
  .st 1 2 (.r 6),
  .st 1 3 (.r 7),
  .st 0 4 (.r 8),
  .st 0 5 (.r 9),
  .st 1 4 (.r 10),
  .st 1 5 (.r 11),
  .st 0 6 (.r 12),
  .st 0 7 (.r 13),
  .st 1 6 (.r 14),
  .st 1 7 (.r 15),
  .st 0 8 (.r 16),
  .st 0 9 (.r 17),
  .st 1 8 (.r 18),
  .st 1 9 (.r 19)]⟩

/-- src/eltfp25519_4w_redradix.c:600-680 `compressfast`; parameters C = 0. -/
def compressfast : Fn := ⟨[10], [0], [], [
  .set 0 (.ld 0 0),
  .set 1 (.ld 0 1),
  .set 2 (.ld 0 2),
  .set 3 (.ld 0 3),
  .set 4 (.ld 0 4),
  .set 5 (.ld 0 5),
  .set 6 (.ld 0 6),
  .set 7 (.ld 0 7),
  .set 8 (.ld 0 8),
  .set 9 (.ld 0 9),
  .set 20 (.un (.shr 26) (.r 0)),
  .set 21 (.un (.shr 25) (.r 2)),
  .set 22 (.un (.shr 26) (.r 4)),
  .set 23 (.un (.shr 25) (.r 6)),
  .set 24 (.un (.shr 26) (.r 8)),
  .set 25 (.un (.shr 25) (.r 1)),
  .set 26 (.un (.shr 26) (.r 3)),
  .set 27 (.un (.shr 25) (.r 5)),
  .set 28 (.un (.shr 26) (.r 7)),
  .set 29 (.un (.shr 25) (.r 9)),
  .set 10 (.bin .and (.r 0) (.lit 0x3ffffff 0x3ffffff 0x3ffffff 0x3ffffff)),
  .set 11 (.bin .and (.r 2) (.lit 0x1ffffff 0x1ffffff 0x1ffffff 0x1ffffff)),
  .set 12 (.bin .and (.r 4) (.lit 0x3ffffff 0x3ffffff 0x3ffffff 0x3ffffff)),
  .set 13 (.bin .and (.r 6) (.lit 0x1ffffff 0x1ffffff 0x1ffffff 0x1ffffff)),
  .set 14 (.bin .and (.r 8) (.lit 0x3ffffff 0x3ffffff 0x3ffffff 0x3ffffff)),
  .set 15 (.bin .and (.r 1) (.lit 0x1ffffff 0x1ffffff 0x1ffffff 0x1ffffff)),
  .set 16 (.bin .and (.r 3) (.lit 0x3ffffff 0x3ffffff 0x3ffffff 0x3ffffff)),
  .set 17 (.bin .and (.r 5) (.lit 0x1ffffff 0x1ffffff 0x1ffffff 0x1ffffff)),
  .set 18 (.bin .and (.r 7) (.lit 0x3ffffff 0x3ffffff 0x3ffffff 0x3ffffff)),
  .set 19 (.bin .and (.r 9) (.lit 0x1ffffff 0x1ffffff 0x1ffffff 0x1ffffff)),
  .set 20 (.bin .and (.r 20) (.lit 0x1ffffff 0x1ffffff 0x1ffffff 0x1ffffff)),
  .set 21 (.bin .and (.r 21) (.lit 0x3ffffff 0x3ffffff 0x3ffffff 0x3ffffff)),
  .set 22 (.bin .and (.r 22) (.lit 0x1ffffff 0x1ffffff 0x1ffffff 0x1ffffff)),
  .set 23 (.bin .and (.r 23) (.lit 0x3ffffff 0x3ffffff 0x3ffffff 0x3ffffff)),
  .set 24 (.bin .and (.r 24) (.lit 0x1ffffff 0x1ffffff 0x1ffffff 0x1ffffff)),
  .set 25 (.bin .and (.r 25) (.lit 0x3ffffff 0x3ffffff 0x3ffffff 0x3ffffff)),
  .set 26 (.bin .and (.r 26) (.lit 0x1ffffff 0x1ffffff 0x1ffffff 0x1ffffff)),
  .set 27 (.bin .and (.r 27) (.lit 0x3ffffff 0x3ffffff 0x3ffffff 0x3ffffff)),
  .set 28 (.bin .and (.r 28) (.lit 0x1ffffff 0x1ffffff 0x1ffffff 0x1ffffff)),
  .set 30 (.un (.shr 51) (.r 0)),
  .set 31 (.un (.shr 51) (.r 2)),
  .set 32 (.un (.shr 51) (.r 4)),
  .set 33 (.un (.shr 51) (.r 6)),
  .set 34 (.un (.shr 51) (.r 8)),
  .set 35 (.un (.shr 51) (.r 1)),
  .set 36 (.un (.shr 51) (.r 3)),
  .set 37 (.un (.shr 51) (.r 5)),
  .set 38 (.un (.shr 51) (.r 7)),
  .set 29 (.bin .add (.r 29) (.r 38)),
  .set 40 (.bin .mul (.r 29) (.lit 0x13 0x13 0x13 0x13)),
  .set 29 (.bin .and (.r 40) (.lit 0x3ffffff 0x3ffffff 0x3ffffff 0x3ffffff)),
  .set 39 (.un (.shr 26) (.r 40)),
  .set 0 (.bin .add (.r 10) (.r 29)),
  .set 2 (.bin .add (.bin .add (.r 11) (.r 20)) (.r 39)),
  .set 4 (.bin .add (.bin .add (.r 12) (.r 21)) (.r 30)),
  .set 6 (.bin .add (.bin .add (.r 13) (.r 22)) (.r 31)),
  .set 8 (.bin .add (.bin .add (.r 14) (.r 23)) (.r 32)),
  .set 1 (.bin .add (.bin .add (.r 15) (.r 24)) (.r 33)),
  .set 3 (.bin .add (.bin .add (.r 16) (.r 25)) (.r 34)),
  .set 5 (.bin .add (.bin .add (.r 17) (.r 26)) (.r 35)),
  .set 7 (.bin .add (.bin .add (.r 18) (.r 27)) (.r 36)),
  .set 9 (.bin .add (.bin .add (.r 19) (.r 28)) (.r 37)),
  .st 0 0 (.r 0),
  .st 0 1 (.r 1),
  .st 0 2 (.r 2),
  .st 0 3 (.r 3),
  .st 0 4 (.r 4),
  .st 0 5 (.r 5),
  .st 0 6 (.r 6),
  .st 0 7 (.r 7),
  .st 0 8 (.r 8),
  .st 0 9 (.r 9)]⟩

/-- src/eltfp25519_4w_redradix.c:682-736 `new_compressfast2`; parameters C = 0, D = 1. -/
def new_compressfast2 : Fn := ⟨[10, 10], [0, 1], [], [
  .set 0 (.ld 0 0),
  .set 1 (.ld 0 1),
  .set 2 (.ld 1 0),
  .set 3 (.ld 1 1),
  .set 4 (.ld 0 2),
  .set 5 (.ld 0 3),
  .set 6 (.ld 1 2),
  .set 7 (.ld 1 3),
  .set 8 (.ld 0 4),
  .set 9 (.ld 0 5),
  .set 10 (.ld 1 4),
  .set 11 (.ld 1 5),
  .set 12 (.ld 0 6),
  .set 13 (.ld 0 7),
  .set 14 (.ld 1 6),
  .set 15 (.ld 1 7),
  .set 16 (.ld 0 8),
  .set 17 (.ld 0 9),
  .set 18 (.ld 1 8),
  .set 19 (.ld 1 9),
  .set 40 (.un (.shr 26) (.r 0)),
  .set 50 (.un (.shr 26) (.r 2)),
  .set 41 (.un (.shr 25) (.r 4)),
  .set 51 (.un (.shr 25) (.r 6)),
  .set 42 (.un (.shr 26) (.r 8)),
  .set 52 (.un (.shr 26) (.r 10)),
  .set 43 (.un (.shr 25) (.r 12)),
  .set 53 (.un (.shr 25) (.r 14)),
  .set 44 (.un (.shr 26) (.r 16)),
  .set 54 (.un (.shr 26) (.r 18)),
  .set 45 (.un (.shr 25) (.r 1)),
  .set 55 (.un (.shr 25) (.r 3)),
  .set 46 (.un (.shr 26) (.r 5)),
  .set 56 (.un (.shr 26) (.r 7)),
  .set 47 (.un (.shr 25) (.r 9)),
  .set 57 (.un (.shr 25) (.r 11)),
  .set 48 (.un (.shr 26) (.r 13)),
  .set 58 (.un (.shr 26) (.r 15)),
  .set 49 (.un (.shr 25) (.r 17)),
  .set 59 (.un (.shr 25) (.r 19)),
  .set 20 (.bin .and (.r 0) (.lit 0x3ffffff 0x3ffffff 0x3ffffff 0x3ffffff)),
  .set 30 (.bin .and (.r 2) (.lit 0x3ffffff 0x3ffffff 0x3ffffff 0x3ffffff)),
  .set 21 (.bin .and (.r 4) (.lit 0x1ffffff 0x1ffffff 0x1ffffff 0x1ffffff)),
  .set 31 (.bin .and (.r 6) (.lit 0x1ffffff 0x1ffffff 0x1ffffff 0x1ffffff)),
  .set 22 (.bin .and (.r 8) (.lit 0x3ffffff 0x3ffffff 0x3ffffff 0x3ffffff)),
  .set 32 (.bin .and (.r 10) (.lit 0x3ffffff 0x3ffffff 0x3ffffff 0x3ffffff)),
  .set 23 (.bin .and (.r 12) (.lit 0x1ffffff 0x1ffffff 0x1ffffff 0x1ffffff)),
  .set 33 (.bin .and (.r 14) (.lit 0x1ffffff 0x1ffffff 0x1ffffff 0x1ffffff)),
  .set 24 (.bin .and (.r 16) (.lit 0x3ffffff 0x3ffffff 0x3ffffff 0x3ffffff)),
  .set 34 (.bin .and (.r 18) (.lit 0x3ffffff 0x3ffffff 0x3ffffff 0x3ffffff)),
  .set 25 (.bin .and (.r 1) (.lit 0x1ffffff 0x1ffffff 0x1ffffff 0x1ffffff)),
  .set 35 (.bin .and (.r 3) (.lit 0x1ffffff 0x1ffffff 0x1ffffff 0x1ffffff)),
  .set 26 (.bin .and (.r 5) (.lit 0x3ffffff 0x3ffffff 0x3ffffff 0x3ffffff)),
  .set 36 (.bin .and (.r 7) (.lit 0x3ffffff 0x3ffffff 0x3ffffff 0x3ffffff)),
  .set 27 (.bin .and (.r 9) (.lit 0x1ffffff 0x1ffffff 0x1ffffff 0x1ffffff)),
  .set 37 (.bin .and (.r 11) (.lit 0x1ffffff 0x1ffffff 0x1ffffff 0x1ffffff)),
  .set 28 (.bin .and (.r 13) (.lit 0x3ffffff 0x3ffffff 0x3ffffff 0x3ffffff)),
  .set 38 (.bin .and (.r 15) (.lit 0x3ffffff 0x3ffffff 0x3ffffff 0x3ffffff)),
  .set 29 (.bin .and (.r 17) (.lit 0x1ffffff 0x1ffffff 0x1ffffff 0x1ffffff)),
  .set 39 (.bin .and (.r 19) (.lit 0x1ffffff 0x1ffffff 0x1ffffff 0x1ffffff)),
  .set 0 (.bin .add (.r 20) (.bin .mul (.r 49) (.lit 0x13 0x13 0x13 0x13))),
  .set 2 (.bin .add (.r 30) (.bin .mul (.r 59) (.lit 0x13 0x13 0x13 0x13))),
  .set 4 (.bin .add (.r 21) (.r 40)),
  .set 6 (.bin .add (.r 31) (.r 50)),
  .set 8 (.bin .add (.r 22) (.r 41)),
  .set 10 (.bin .add (.r 32) (.r 51)),
  .set 12 (.bin .add (.r 23) (.r 42)),
  .set 14 (.bin .add (.r 33) (.r 52)),
  .set 16 (.bin .add (.r 24) (.r 43)),
  .set 18 (.bin .add (.r 34) (.r 53)),
  .set 1 (.bin .add (.r 25) (.r 44)),
  .set 3 (.bin .add (.r 35) (.r 54)),
  .set 5 (.bin .add (.r 26) (.r 45)),
  .set 7 (.bin .add (.r 36) (.r 55)),
  .set 9 (.bin .add (.r 27) (.r 46)),
  .set 11 (.bin .add (.r 37) (.r 56)),
  .set 13 (.bin .add (.r 28) (.r 47)),
  .set 15 (.bin .add (.r 38) (.r 57)),
  .set 17 (.bin .add (.r 29) (.r 48)),
  .set 19 (.bin .add (.r 39) (.r 58)),
  .st 0 0 (.r 0),
  .st 0 1 (.r 1),
  .st 1 0 (.r 2),
  .st 1 1 (.r 3),
  .st 0 2 (.r 4),
  .st 0 3 (.r 5),
  .st 1 2 (.r 6),
  .st 1 3 (.r 7),
  .st 0 4 (.r 8),
  .st 0 5 (.r 9),
  .st 1 4 (.r 10),
  .st 1 5 (.r 11),
  .st 0 6 (.r 12),
  .st 0 7 (.r 13),
  .st 1 6 (.r 14),
  .st 1 7 (.r 15),
  .st 0 8 (.r 16),
  .st 0 9 (.r 17),
  .st 1 8 (.r 18),
  .st 1 9 (.r 19)]⟩

/-- src/eltfp25519_4w_redradix.c:740-743 `mul`; parameters c = 0, a = 1, b = 2. -/
def mul : Fn := ⟨[10, 10, 10], [0], [], intmul.inl [0, 1, 2] 0 ++
    compress.inl [0] 0⟩

/-- src/eltfp25519_4w_redradix.c:745-748 `sqr`; parameters c = 0. -/
def sqr : Fn := ⟨[10], [0], [], intsqr.inl [0] 0 ++
    compress.inl [0] 0⟩

/-- src/eltfp25519_4w_redradix.c:750-756 `sqrn`; parameters c = 0. -/
def sqrn (times : ℕ) : Fn :=
  ⟨[10], [0], [],
    (List.replicate times (intsqr.inl [0] 0 ++
    compress.inl [0] 0)).flatten⟩

end V4

end Verif.Vec.F25519
