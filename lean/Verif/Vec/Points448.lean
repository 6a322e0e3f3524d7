import Verif.Vec.Inline
import Verif.Vec.Prog448

/-!
# The point formulas of src/edwards448.c as programs

Translated by the script that translated the field functions: the local element arrays are
regions of one more parameter, the last one, which stands for the stack frame of the function;
a called function has its own frame above that of its caller.  Loops are unrolled, and
the calls of field functions are replaced by their bodies. -/

namespace Verif.Vec.P448

open Verif.Vec

/-- src/edwards448.c:314-346 `_4way_mixadd_ed448`; parameters Q = 0, P = 1, local arrays = 2. -/
def mixadd_4way : Fn := ⟨[64, 48, 64], [0, 2],
    [],
    F448.V4.sub.at [.par 2 48, .par 0 16, .par 0 0] 0 ++
    F448.V4.add.at [.par 2 32, .par 0 16, .par 0 0] 0 ++
    F448.V4.intmul.at [.par 2 0, .par 2 48, .par 1 16] 0 ++
    F448.V4.intmul.at [.par 2 16, .par 2 32, .par 1 0] 0 ++
    F448.V4.intmul.at [.par 2 32, .par 1 32, .par 0 48] 0 ++
    F448.V4.add.at [.par 2 48, .par 0 32, .par 0 32] 0 ++
    F448.V4.compress2.at [.par 2 32, .par 2 48] 0 ++
    F448.V4.addsublar.at [.par 2 16, .par 2 0] 0 ++
    F448.V4.addsublar.at [.par 2 48, .par 2 32] 0 ++
    F448.V4.compress2.at [.par 2 16, .par 2 0] 0 ++
    F448.V4.compress2.at [.par 2 48, .par 2 32] 0 ++
    F448.V4.intmul.at [.par 0 0, .par 2 0, .par 2 32] 0 ++
    F448.V4.intmul.at [.par 0 16, .par 2 48, .par 2 16] 0 ++
    F448.V4.intmul.at [.par 0 32, .par 2 48, .par 2 32] 0 ++
    F448.V4.intmul.at [.par 0 48, .par 2 0, .par 2 16] 0 ++
    F448.V4.compress2.at [.par 0 0, .par 0 16] 0 ++
    F448.V4.compress2.at [.par 0 32, .par 0 48] 0⟩

/-- src/edwards448.c:459-492 `_1way_doubling_2w_H0H8`; parameters P = 0, local arrays = 1. -/
def doubling_2w : Fn := ⟨[16, 24], [0, 1],
    [32],
    ([
    .st 1 0 (.un (.perm64 0xEE) (.ld 0 8)),
    .st 1 1 (.un (.perm64 0xEE) (.ld 0 9)),
    .st 1 2 (.un (.perm64 0xEE) (.ld 0 10)),
    .st 1 3 (.un (.perm64 0xEE) (.ld 0 11)),
    .st 1 4 (.un (.perm64 0xEE) (.ld 0 12)),
    .st 1 5 (.un (.perm64 0xEE) (.ld 0 13)),
    .st 1 6 (.un (.perm64 0xEE) (.ld 0 14)),
    .st 1 7 (.un (.perm64 0xEE) (.ld 0 15))] : List Stmt) ++
    F448.V2.intsqr.at [.par 0 0] 1 ++
    F448.V2.intmul.at [.par 0 8, .par 0 8, .par 1 0] 1 ++
    F448.V2.add.at [.par 0 8, .par 0 8, .par 0 8] 1 ++
    ([
    .set 1003 (.un (.perm64 0x4E) (.ld 0 0)),
    .set 1002 (.bin (.blend 0x0F) (.ld 0 0) (.lit 0 0 0 0)),
    .set 1001 (.bin (.blend 0xF0) (.ld 0 0) (.ld 0 8)),
    .set 1000 (.bin .sub (.r 1002) (.r 1003)),
    .st 1 0 (.bin (.blend 0x0F) (.r 1000) (.ld 0 8)),
    .st 1 8 (.bin .sub (.r 1000) (.r 1001)),
    .st 1 0 (.bin .add (.ld 1 0) (.cst 0 0 0x7ffffff800000000 0x7ffffff000000000
      0x7ffffff800000000 0x7ffffff000000000)),
    .st 1 8 (.bin .add (.ld 1 8) (.cst 0 0 0x7ffffff800000000 0x7ffffff000000000
      0x7ffffff800000000 0x7ffffff000000000)),
    .set 1007 (.un (.perm64 0x4E) (.ld 0 1)),
    .set 1006 (.bin (.blend 0x0F) (.ld 0 1) (.lit 0 0 0 0)),
    .set 1005 (.bin (.blend 0xF0) (.ld 0 1) (.ld 0 9)),
    .set 1004 (.bin .sub (.r 1006) (.r 1007)),
    .st 1 1 (.bin (.blend 0x0F) (.r 1004) (.ld 0 9)),
    .st 1 9 (.bin .sub (.r 1004) (.r 1005)),
    .st 1 1 (.bin .add (.ld 1 1) (.cst 0 1 0x7ffffff800000000 0x7ffffff800000000
      0x7ffffff800000000 0x7ffffff800000000)),
    .st 1 9 (.bin .add (.ld 1 9) (.cst 0 1 0x7ffffff800000000 0x7ffffff800000000
      0x7ffffff800000000 0x7ffffff800000000)),
    .set 1011 (.un (.perm64 0x4E) (.ld 0 2)),
    .set 1010 (.bin (.blend 0x0F) (.ld 0 2) (.lit 0 0 0 0)),
    .set 1009 (.bin (.blend 0xF0) (.ld 0 2) (.ld 0 10)),
    .set 1008 (.bin .sub (.r 1010) (.r 1011)),
    .st 1 2 (.bin (.blend 0x0F) (.r 1008) (.ld 0 10)),
    .st 1 10 (.bin .sub (.r 1008) (.r 1009)),
    .st 1 2 (.bin .add (.ld 1 2) (.cst 0 2 0x7ffffff800000000 0x7ffffff800000000
      0x7ffffff800000000 0x7ffffff800000000)),
    .st 1 10 (.bin .add (.ld 1 10) (.cst 0 2 0x7ffffff800000000 0x7ffffff800000000
      0x7ffffff800000000 0x7ffffff800000000)),
    .set 1015 (.un (.perm64 0x4E) (.ld 0 3)),
    .set 1014 (.bin (.blend 0x0F) (.ld 0 3) (.lit 0 0 0 0)),
    .set 1013 (.bin (.blend 0xF0) (.ld 0 3) (.ld 0 11)),
    .set 1012 (.bin .sub (.r 1014) (.r 1015)),
    .st 1 3 (.bin (.blend 0x0F) (.r 1012) (.ld 0 11)),
    .st 1 11 (.bin .sub (.r 1012) (.r 1013)),
    .st 1 3 (.bin .add (.ld 1 3) (.cst 0 3 0x7ffffff800000000 0x7ffffff800000000
      0x7ffffff800000000 0x7ffffff800000000)),
    .st 1 11 (.bin .add (.ld 1 11) (.cst 0 3 0x7ffffff800000000 0x7ffffff800000000
      0x7ffffff800000000 0x7ffffff800000000)),
    .set 1019 (.un (.perm64 0x4E) (.ld 0 4)),
    .set 1018 (.bin (.blend 0x0F) (.ld 0 4) (.lit 0 0 0 0)),
    .set 1017 (.bin (.blend 0xF0) (.ld 0 4) (.ld 0 12)),
    .set 1016 (.bin .sub (.r 1018) (.r 1019)),
    .st 1 4 (.bin (.blend 0x0F) (.r 1016) (.ld 0 12)),
    .st 1 12 (.bin .sub (.r 1016) (.r 1017)),
    .st 1 4 (.bin .add (.ld 1 4) (.cst 0 4 0x7ffffff800000000 0x7ffffff800000000
      0x7ffffff800000000 0x7ffffff800000000)),
    .st 1 12 (.bin .add (.ld 1 12) (.cst 0 4 0x7ffffff800000000 0x7ffffff800000000
      0x7ffffff800000000 0x7ffffff800000000)),
    .set 1023 (.un (.perm64 0x4E) (.ld 0 5)),
    .set 1022 (.bin (.blend 0x0F) (.ld 0 5) (.lit 0 0 0 0)),
    .set 1021 (.bin (.blend 0xF0) (.ld 0 5) (.ld 0 13)),
    .set 1020 (.bin .sub (.r 1022) (.r 1023)),
    .st 1 5 (.bin (.blend 0x0F) (.r 1020) (.ld 0 13)),
    .st 1 13 (.bin .sub (.r 1020) (.r 1021)),
    .st 1 5 (.bin .add (.ld 1 5) (.cst 0 5 0x7ffffff800000000 0x7ffffff800000000
      0x7ffffff800000000 0x7ffffff800000000)),
    .st 1 13 (.bin .add (.ld 1 13) (.cst 0 5 0x7ffffff800000000 0x7ffffff800000000
      0x7ffffff800000000 0x7ffffff800000000)),
    .set 1027 (.un (.perm64 0x4E) (.ld 0 6)),
    .set 1026 (.bin (.blend 0x0F) (.ld 0 6) (.lit 0 0 0 0)),
    .set 1025 (.bin (.blend 0xF0) (.ld 0 6) (.ld 0 14)),
    .set 1024 (.bin .sub (.r 1026) (.r 1027)),
    .st 1 6 (.bin (.blend 0x0F) (.r 1024) (.ld 0 14)),
    .st 1 14 (.bin .sub (.r 1024) (.r 1025)),
    .st 1 6 (.bin .add (.ld 1 6) (.cst 0 6 0x7ffffff800000000 0x7ffffff800000000
      0x7ffffff800000000 0x7ffffff800000000)),
    .st 1 14 (.bin .add (.ld 1 14) (.cst 0 6 0x7ffffff800000000 0x7ffffff800000000
      0x7ffffff800000000 0x7ffffff800000000)),
    .set 1031 (.un (.perm64 0x4E) (.ld 0 7)),
    .set 1030 (.bin (.blend 0x0F) (.ld 0 7) (.lit 0 0 0 0)),
    .set 1029 (.bin (.blend 0xF0) (.ld 0 7) (.ld 0 15)),
    .set 1028 (.bin .sub (.r 1030) (.r 1031)),
    .st 1 7 (.bin (.blend 0x0F) (.r 1028) (.ld 0 15)),
    .st 1 15 (.bin .sub (.r 1028) (.r 1029)),
    .st 1 7 (.bin .add (.ld 1 7) (.cst 0 7 0x7ffffff800000000 0x7ffffff800000000
      0x7ffffff800000000 0x7ffffff800000000)),
    .st 1 15 (.bin .add (.ld 1 15) (.cst 0 7 0x7ffffff800000000 0x7ffffff800000000
      0x7ffffff800000000 0x7ffffff800000000))] : List Stmt) ++
    F448.V2.compress2.at [.par 1 8, .par 1 0] 1 ++
    ([
    .st 1 16 (.un (.perm64 0x4E) (.ld 1 8)),
    .st 1 17 (.un (.perm64 0x4E) (.ld 1 9)),
    .st 1 18 (.un (.perm64 0x4E) (.ld 1 10)),
    .st 1 19 (.un (.perm64 0x4E) (.ld 1 11)),
    .st 1 20 (.un (.perm64 0x4E) (.ld 1 12)),
    .st 1 21 (.un (.perm64 0x4E) (.ld 1 13)),
    .st 1 22 (.un (.perm64 0x4E) (.ld 1 14)),
    .st 1 23 (.un (.perm64 0x4E) (.ld 1 15))] : List Stmt) ++
    F448.V2.intmul.at [.par 0 0, .par 1 16, .par 1 0] 1 ++
    F448.V2.intmul.at [.par 0 8, .par 1 8, .par 1 0] 1 ++
    F448.V2.compress2.at [.par 0 0, .par 0 8] 1⟩

/-- src/edwards448.c:423-451 `_1way_mixadd_2w_H0H8`; parameters Q = 0, P = 1, local arrays = 2. -/
def mixadd_2w : Fn := ⟨[16, 16, 40], [0, 2],
    [32, 32],
    F448.V2.subadd0.at [.par 2 16, .par 0 0] 1 ++
    F448.V2.intmul.at [.par 2 0, .par 2 16, .par 1 0] 2 ++
    F448.V2.intmul.at [.par 2 8, .par 0 8, .par 1 8] 2 ++
    ([
    .set 1000 (.bin (.perm128 0x20) (.ld 2 0) (.ld 2 8)),
    .set 1001 (.bin (.perm128 0x31) (.ld 2 0) (.ld 2 8)),
    .st 2 16 (.bin .add (.r 1001) (.r 1000)),
    .st 2 24 (.bin .add (.bin .sub (.r 1001) (.r 1000)) (.cst 0 0 0x7ffffff800000000
      0x7ffffff000000000 0x7ffffff800000000 0x7ffffff000000000)),
    .set 1002 (.bin (.perm128 0x20) (.ld 2 1) (.ld 2 9)),
    .set 1003 (.bin (.perm128 0x31) (.ld 2 1) (.ld 2 9)),
    .st 2 17 (.bin .add (.r 1003) (.r 1002)),
    .st 2 25 (.bin .add (.bin .sub (.r 1003) (.r 1002)) (.cst 0 1 0x7ffffff800000000
      0x7ffffff800000000 0x7ffffff800000000 0x7ffffff800000000)),
    .set 1004 (.bin (.perm128 0x20) (.ld 2 2) (.ld 2 10)),
    .set 1005 (.bin (.perm128 0x31) (.ld 2 2) (.ld 2 10)),
    .st 2 18 (.bin .add (.r 1005) (.r 1004)),
    .st 2 26 (.bin .add (.bin .sub (.r 1005) (.r 1004)) (.cst 0 2 0x7ffffff800000000
      0x7ffffff800000000 0x7ffffff800000000 0x7ffffff800000000)),
    .set 1006 (.bin (.perm128 0x20) (.ld 2 3) (.ld 2 11)),
    .set 1007 (.bin (.perm128 0x31) (.ld 2 3) (.ld 2 11)),
    .st 2 19 (.bin .add (.r 1007) (.r 1006)),
    .st 2 27 (.bin .add (.bin .sub (.r 1007) (.r 1006)) (.cst 0 3 0x7ffffff800000000
      0x7ffffff800000000 0x7ffffff800000000 0x7ffffff800000000)),
    .set 1008 (.bin (.perm128 0x20) (.ld 2 4) (.ld 2 12)),
    .set 1009 (.bin (.perm128 0x31) (.ld 2 4) (.ld 2 12)),
    .st 2 20 (.bin .add (.r 1009) (.r 1008)),
    .st 2 28 (.bin .add (.bin .sub (.r 1009) (.r 1008)) (.cst 0 4 0x7ffffff800000000
      0x7ffffff800000000 0x7ffffff800000000 0x7ffffff800000000)),
    .set 1010 (.bin (.perm128 0x20) (.ld 2 5) (.ld 2 13)),
    .set 1011 (.bin (.perm128 0x31) (.ld 2 5) (.ld 2 13)),
    .st 2 21 (.bin .add (.r 1011) (.r 1010)),
    .st 2 29 (.bin .add (.bin .sub (.r 1011) (.r 1010)) (.cst 0 5 0x7ffffff800000000
      0x7ffffff800000000 0x7ffffff800000000 0x7ffffff800000000)),
    .set 1012 (.bin (.perm128 0x20) (.ld 2 6) (.ld 2 14)),
    .set 1013 (.bin (.perm128 0x31) (.ld 2 6) (.ld 2 14)),
    .st 2 22 (.bin .add (.r 1013) (.r 1012)),
    .st 2 30 (.bin .add (.bin .sub (.r 1013) (.r 1012)) (.cst 0 6 0x7ffffff800000000
      0x7ffffff800000000 0x7ffffff800000000 0x7ffffff800000000)),
    .set 1014 (.bin (.perm128 0x20) (.ld 2 7) (.ld 2 15)),
    .set 1015 (.bin (.perm128 0x31) (.ld 2 7) (.ld 2 15)),
    .st 2 23 (.bin .add (.r 1015) (.r 1014)),
    .st 2 31 (.bin .add (.bin .sub (.r 1015) (.r 1014)) (.cst 0 7 0x7ffffff800000000
      0x7ffffff800000000 0x7ffffff800000000 0x7ffffff800000000))] : List Stmt) ++
    F448.V2.compress2.at [.par 2 16, .par 2 24] 2 ++
    ([
    .st 2 32 (.un (.perm64 0x4E) (.ld 2 24)),
    .st 2 33 (.un (.perm64 0x4E) (.ld 2 25)),
    .st 2 34 (.un (.perm64 0x4E) (.ld 2 26)),
    .st 2 35 (.un (.perm64 0x4E) (.ld 2 27)),
    .st 2 36 (.un (.perm64 0x4E) (.ld 2 28)),
    .st 2 37 (.un (.perm64 0x4E) (.ld 2 29)),
    .st 2 38 (.un (.perm64 0x4E) (.ld 2 30)),
    .st 2 39 (.un (.perm64 0x4E) (.ld 2 31))] : List Stmt) ++
    F448.V2.intmul.at [.par 0 0, .par 2 32, .par 2 16] 2 ++
    F448.V2.intmul.at [.par 0 8, .par 2 24, .par 2 16] 2 ++
    F448.V2.compress2.at [.par 0 0, .par 0 8] 2⟩

/-- src/edwards448.c:379-415 `_1way_fulladd_2w_H0H8`; parameters Q = 0, P = 1, local arrays = 2.
-/
def fulladd_2w : Fn := ⟨[16, 16, 40], [0, 2],
    [32, 32, 32, 32],
    F448.V2.subadd0.at [.par 2 16, .par 0 0] 2 ++
    F448.V2.subadd1.at [.par 2 24, .par 1 0] 3 ++
    F448.V2.compressfast.at [.par 2 16] 4 ++
    F448.V2.compressfast.at [.par 2 24] 4 ++
    F448.V2.intmul.at [.par 2 0, .par 2 16, .par 2 24] 4 ++
    F448.V2.intmul.at [.par 2 8, .par 0 8, .par 1 8] 4 ++
    F448.V2.compress.at [.par 2 8] 4 ++
    F448.V2.intmul.at [.par 2 8, .par 2 8, .arr 0 [0xffeceab, 0xffffffe, 2, 0, 0xfffffff,
      0xfffffff, 0, 0, 0xfffffff, 0xfffffff, 0, 0, 0xfffffff, 0xfffffff, 0, 0, 0xfffffff,
      0xfffffff, 0, 0, 0xfffffff, 0xfffffff, 0, 0, 0xfffffff, 0xfffffff, 0, 0, 0xfffffff,
      0xfffffff, 0, 0]] 4 ++
    ([
    .set 1000 (.bin (.perm128 0x20) (.ld 2 0) (.ld 2 8)),
    .set 1001 (.bin (.perm128 0x31) (.ld 2 0) (.ld 2 8)),
    .st 2 16 (.bin .add (.r 1001) (.r 1000)),
    .st 2 24 (.bin .add (.bin .sub (.r 1001) (.r 1000)) (.cst 1 0 0x7ffffff800000000
      0x7ffffff000000000 0x7ffffff800000000 0x7ffffff000000000)),
    .set 1002 (.bin (.perm128 0x20) (.ld 2 1) (.ld 2 9)),
    .set 1003 (.bin (.perm128 0x31) (.ld 2 1) (.ld 2 9)),
    .st 2 17 (.bin .add (.r 1003) (.r 1002)),
    .st 2 25 (.bin .add (.bin .sub (.r 1003) (.r 1002)) (.cst 1 1 0x7ffffff800000000
      0x7ffffff800000000 0x7ffffff800000000 0x7ffffff800000000)),
    .set 1004 (.bin (.perm128 0x20) (.ld 2 2) (.ld 2 10)),
    .set 1005 (.bin (.perm128 0x31) (.ld 2 2) (.ld 2 10)),
    .st 2 18 (.bin .add (.r 1005) (.r 1004)),
    .st 2 26 (.bin .add (.bin .sub (.r 1005) (.r 1004)) (.cst 1 2 0x7ffffff800000000
      0x7ffffff800000000 0x7ffffff800000000 0x7ffffff800000000)),
    .set 1006 (.bin (.perm128 0x20) (.ld 2 3) (.ld 2 11)),
    .set 1007 (.bin (.perm128 0x31) (.ld 2 3) (.ld 2 11)),
    .st 2 19 (.bin .add (.r 1007) (.r 1006)),
    .st 2 27 (.bin .add (.bin .sub (.r 1007) (.r 1006)) (.cst 1 3 0x7ffffff800000000
      0x7ffffff800000000 0x7ffffff800000000 0x7ffffff800000000)),
    .set 1008 (.bin (.perm128 0x20) (.ld 2 4) (.ld 2 12)),
    .set 1009 (.bin (.perm128 0x31) (.ld 2 4) (.ld 2 12)),
    .st 2 20 (.bin .add (.r 1009) (.r 1008)),
    .st 2 28 (.bin .add (.bin .sub (.r 1009) (.r 1008)) (.cst 1 4 0x7ffffff800000000
      0x7ffffff800000000 0x7ffffff800000000 0x7ffffff800000000)),
    .set 1010 (.bin (.perm128 0x20) (.ld 2 5) (.ld 2 13)),
    .set 1011 (.bin (.perm128 0x31) (.ld 2 5) (.ld 2 13)),
    .st 2 21 (.bin .add (.r 1011) (.r 1010)),
    .st 2 29 (.bin .add (.bin .sub (.r 1011) (.r 1010)) (.cst 1 5 0x7ffffff800000000
      0x7ffffff800000000 0x7ffffff800000000 0x7ffffff800000000)),
    .set 1012 (.bin (.perm128 0x20) (.ld 2 6) (.ld 2 14)),
    .set 1013 (.bin (.perm128 0x31) (.ld 2 6) (.ld 2 14)),
    .st 2 22 (.bin .add (.r 1013) (.r 1012)),
    .st 2 30 (.bin .add (.bin .sub (.r 1013) (.r 1012)) (.cst 1 6 0x7ffffff800000000
      0x7ffffff800000000 0x7ffffff800000000 0x7ffffff800000000)),
    .set 1014 (.bin (.perm128 0x20) (.ld 2 7) (.ld 2 15)),
    .set 1015 (.bin (.perm128 0x31) (.ld 2 7) (.ld 2 15)),
    .st 2 23 (.bin .add (.r 1015) (.r 1014)),
    .st 2 31 (.bin .add (.bin .sub (.r 1015) (.r 1014)) (.cst 1 7 0x7ffffff800000000
      0x7ffffff800000000 0x7ffffff800000000 0x7ffffff800000000))] : List Stmt) ++
    F448.V2.compress2.at [.par 2 16, .par 2 24] 4 ++
    ([
    .st 2 32 (.un (.perm64 0x4E) (.ld 2 24)),
    .st 2 33 (.un (.perm64 0x4E) (.ld 2 25)),
    .st 2 34 (.un (.perm64 0x4E) (.ld 2 26)),
    .st 2 35 (.un (.perm64 0x4E) (.ld 2 27)),
    .st 2 36 (.un (.perm64 0x4E) (.ld 2 28)),
    .st 2 37 (.un (.perm64 0x4E) (.ld 2 29)),
    .st 2 38 (.un (.perm64 0x4E) (.ld 2 30)),
    .st 2 39 (.un (.perm64 0x4E) (.ld 2 31))] : List Stmt) ++
    F448.V2.intmul.at [.par 0 0, .par 2 32, .par 2 16] 4 ++
    F448.V2.intmul.at [.par 0 8, .par 2 24, .par 2 16] 4 ++
    F448.V2.compress2.at [.par 0 0, .par 0 8] 4⟩

/-- A part of the body of `mixadd_4w`. -/
def mixadd_4wA : List Stmt :=
    ([
    .set 1000 (.un .shuf4E (.ld 0 0)),
    .set 1001 (.ld 0 0),
    .set 1002 (.bin .add (.bin .add (.r 1000) (.cst 0 0 0x1ffffffe 0 0 0)) (.bin .sub (.bin
      .xor (.r 1001) (.lit 0xffffffffffffffff 0 0 0)) (.lit 0xffffffffffffffff 0 0 0))),
    .st 2 16 (.bin (.blend 0xF0) (.r 1002) (.ld 0 0)),
    .set 1003 (.un .shuf4E (.ld 0 1)),
    .set 1004 (.ld 0 1),
    .set 1005 (.bin .add (.bin .add (.r 1003) (.cst 0 1 0x3ffffffc 0 0 0)) (.bin .sub (.bin
      .xor (.r 1004) (.lit 0xffffffffffffffff 0 0 0)) (.lit 0xffffffffffffffff 0 0 0))),
    .st 2 17 (.bin (.blend 0xF0) (.r 1005) (.ld 0 1)),
    .set 1006 (.un .shuf4E (.ld 0 2)),
    .set 1007 (.ld 0 2),
    .set 1008 (.bin .add (.bin .add (.r 1006) (.cst 0 2 0x1ffffffe 0 0 0)) (.bin .sub (.bin
      .xor (.r 1007) (.lit 0xffffffffffffffff 0 0 0)) (.lit 0xffffffffffffffff 0 0 0))),
    .st 2 18 (.bin (.blend 0xF0) (.r 1008) (.ld 0 2)),
    .set 1009 (.un .shuf4E (.ld 0 3)),
    .set 1010 (.ld 0 3),
    .set 1011 (.bin .add (.bin .add (.r 1009) (.cst 0 3 0x1ffffffc 0 0 0)) (.bin .sub (.bin
      .xor (.r 1010) (.lit 0xffffffffffffffff 0 0 0)) (.lit 0xffffffffffffffff 0 0 0))),
    .st 2 19 (.bin (.blend 0xF0) (.r 1011) (.ld 0 3)),
    .set 1012 (.un .shuf4E (.ld 0 4)),
    .set 1013 (.ld 0 4),
    .set 1014 (.bin .add (.bin .add (.r 1012) (.cst 0 4 0x1ffffffe 0 0 0)) (.bin .sub (.bin
      .xor (.r 1013) (.lit 0xffffffffffffffff 0 0 0)) (.lit 0xffffffffffffffff 0 0 0))),
    .st 2 20 (.bin (.blend 0xF0) (.r 1014) (.ld 0 4)),
    .set 1015 (.un .shuf4E (.ld 0 5)),
    .set 1016 (.ld 0 5),
    .set 1017 (.bin .add (.bin .add (.r 1015) (.cst 0 5 0x1ffffffe 0 0 0)) (.bin .sub (.bin
      .xor (.r 1016) (.lit 0xffffffffffffffff 0 0 0)) (.lit 0xffffffffffffffff 0 0 0))),
    .st 2 21 (.bin (.blend 0xF0) (.r 1017) (.ld 0 5)),
    .set 1018 (.un .shuf4E (.ld 0 6)),
    .set 1019 (.ld 0 6),
    .set 1020 (.bin .add (.bin .add (.r 1018) (.cst 0 6 0x1ffffffe 0 0 0)) (.bin .sub (.bin
      .xor (.r 1019) (.lit 0xffffffffffffffff 0 0 0)) (.lit 0xffffffffffffffff 0 0 0))),
    .st 2 22 (.bin (.blend 0xF0) (.r 1020) (.ld 0 6)),
    .set 1021 (.un .shuf4E (.ld 0 7)),
    .set 1022 (.ld 0 7),
    .set 1023 (.bin .add (.bin .add (.r 1021) (.cst 0 7 0x1ffffffe 0 0 0)) (.bin .sub (.bin
      .xor (.r 1022) (.lit 0xffffffffffffffff 0 0 0)) (.lit 0xffffffffffffffff 0 0 0))),
    .st 2 23 (.bin (.blend 0xF0) (.r 1023) (.ld 0 7)),
    .set 1024 (.un .shuf4E (.ld 0 8)),
    .set 1025 (.ld 0 8),
    .set 1026 (.bin .add (.bin .add (.r 1024) (.cst 0 8 0x1ffffffe 0 0 0)) (.bin .sub (.bin
      .xor (.r 1025) (.lit 0xffffffffffffffff 0 0 0)) (.lit 0xffffffffffffffff 0 0 0))),
    .st 2 24 (.bin (.blend 0xF0) (.r 1026) (.ld 0 8)),
    .set 1027 (.un .shuf4E (.ld 0 9)),
    .set 1028 (.ld 0 9),
    .set 1029 (.bin .add (.bin .add (.r 1027) (.cst 0 9 0x1ffffffe 0 0 0)) (.bin .sub (.bin
      .xor (.r 1028) (.lit 0xffffffffffffffff 0 0 0)) (.lit 0xffffffffffffffff 0 0 0))),
    .st 2 25 (.bin (.blend 0xF0) (.r 1029) (.ld 0 9)),
    .set 1030 (.un .shuf4E (.ld 0 10)),
    .set 1031 (.ld 0 10),
    .set 1032 (.bin .add (.bin .add (.r 1030) (.cst 0 10 0x1ffffffe 0 0 0)) (.bin .sub (.bin
      .xor (.r 1031) (.lit 0xffffffffffffffff 0 0 0)) (.lit 0xffffffffffffffff 0 0 0))),
    .st 2 26 (.bin (.blend 0xF0) (.r 1032) (.ld 0 10)),
    .set 1033 (.un .shuf4E (.ld 0 11)),
    .set 1034 (.ld 0 11),
    .set 1035 (.bin .add (.bin .add (.r 1033) (.cst 0 11 0x1ffffffe 0 0 0)) (.bin .sub (.bin
      .xor (.r 1034) (.lit 0xffffffffffffffff 0 0 0)) (.lit 0xffffffffffffffff 0 0 0))),
    .st 2 27 (.bin (.blend 0xF0) (.r 1035) (.ld 0 11)),
    .set 1036 (.un .shuf4E (.ld 0 12)),
    .set 1037 (.ld 0 12),
    .set 1038 (.bin .add (.bin .add (.r 1036) (.cst 0 12 0x1ffffffe 0 0 0)) (.bin .sub (.bin
      .xor (.r 1037) (.lit 0xffffffffffffffff 0 0 0)) (.lit 0xffffffffffffffff 0 0 0))),
    .st 2 28 (.bin (.blend 0xF0) (.r 1038) (.ld 0 12)),
    .set 1039 (.un .shuf4E (.ld 0 13)),
    .set 1040 (.ld 0 13),
    .set 1041 (.bin .add (.bin .add (.r 1039) (.cst 0 13 0x1ffffffe 0 0 0)) (.bin .sub (.bin
      .xor (.r 1040) (.lit 0xffffffffffffffff 0 0 0)) (.lit 0xffffffffffffffff 0 0 0))),
    .st 2 29 (.bin (.blend 0xF0) (.r 1041) (.ld 0 13)),
    .set 1042 (.un .shuf4E (.ld 0 14)),
    .set 1043 (.ld 0 14),
    .set 1044 (.bin .add (.bin .add (.r 1042) (.cst 0 14 0x1ffffffe 0 0 0)) (.bin .sub (.bin
      .xor (.r 1043) (.lit 0xffffffffffffffff 0 0 0)) (.lit 0xffffffffffffffff 0 0 0))),
    .st 2 30 (.bin (.blend 0xF0) (.r 1044) (.ld 0 14)),
    .set 1045 (.un .shuf4E (.ld 0 15)),
    .set 1046 (.ld 0 15),
    .set 1047 (.bin .add (.bin .add (.r 1045) (.cst 0 15 0x1ffffffe 0 0 0)) (.bin .sub (.bin
      .xor (.r 1046) (.lit 0xffffffffffffffff 0 0 0)) (.lit 0xffffffffffffffff 0 0 0))),
    .st 2 31 (.bin (.blend 0xF0) (.r 1047) (.ld 0 15))] : List Stmt)

/-- A part of the body of `mixadd_4w`. -/
def mixadd_4wB : List Stmt :=
    ([
    .set 1048 (.un (.perm64 0xDD) (.ld 2 0)),
    .set 1049 (.un (.perm64 0x88) (.ld 2 0)),
    .st 2 16 (.bin .add (.bin .add (.r 1048) (.cst 1 0 0x3ffffffc00000000 0x3ffffffc00000000
      0x3ffffffc00000000 0x3ffffffc00000000)) (.bin .sub (.bin .xor (.r 1049) (.lit
      0xffffffffffffffff 0 0 0xffffffffffffffff)) (.lit 0xffffffffffffffff 0 0
      0xffffffffffffffff))),
    .set 1050 (.un (.perm64 0xDD) (.ld 2 1)),
    .set 1051 (.un (.perm64 0x88) (.ld 2 1)),
    .st 2 17 (.bin .add (.bin .add (.r 1050) (.cst 1 1 0x3ffffff800000000 0x3ffffff800000000
      0x3ffffff800000000 0x3ffffff800000000)) (.bin .sub (.bin .xor (.r 1051) (.lit
      0xffffffffffffffff 0 0 0xffffffffffffffff)) (.lit 0xffffffffffffffff 0 0
      0xffffffffffffffff))),
    .set 1052 (.un (.perm64 0xDD) (.ld 2 2)),
    .set 1053 (.un (.perm64 0x88) (.ld 2 2)),
    .st 2 18 (.bin .add (.bin .add (.r 1052) (.cst 1 2 0x3ffffffc00000000 0x3ffffffc00000000
      0x3ffffffc00000000 0x3ffffffc00000000)) (.bin .sub (.bin .xor (.r 1053) (.lit
      0xffffffffffffffff 0 0 0xffffffffffffffff)) (.lit 0xffffffffffffffff 0 0
      0xffffffffffffffff))),
    .set 1054 (.un (.perm64 0xDD) (.ld 2 3)),
    .set 1055 (.un (.perm64 0x88) (.ld 2 3)),
    .st 2 19 (.bin .add (.bin .add (.r 1054) (.cst 1 3 0x3ffffffc00000000 0x3ffffffc00000000
      0x3ffffffc00000000 0x3ffffffc00000000)) (.bin .sub (.bin .xor (.r 1055) (.lit
      0xffffffffffffffff 0 0 0xffffffffffffffff)) (.lit 0xffffffffffffffff 0 0
      0xffffffffffffffff))),
    .set 1056 (.un (.perm64 0xDD) (.ld 2 4)),
    .set 1057 (.un (.perm64 0x88) (.ld 2 4)),
    .st 2 20 (.bin .add (.bin .add (.r 1056) (.cst 1 4 0x3ffffffc00000000 0x3ffffffc00000000
      0x3ffffffc00000000 0x3ffffffc00000000)) (.bin .sub (.bin .xor (.r 1057) (.lit
      0xffffffffffffffff 0 0 0xffffffffffffffff)) (.lit 0xffffffffffffffff 0 0
      0xffffffffffffffff))),
    .set 1058 (.un (.perm64 0xDD) (.ld 2 5)),
    .set 1059 (.un (.perm64 0x88) (.ld 2 5)),
    .st 2 21 (.bin .add (.bin .add (.r 1058) (.cst 1 5 0x3ffffffc00000000 0x3ffffffc00000000
      0x3ffffffc00000000 0x3ffffffc00000000)) (.bin .sub (.bin .xor (.r 1059) (.lit
      0xffffffffffffffff 0 0 0xffffffffffffffff)) (.lit 0xffffffffffffffff 0 0
      0xffffffffffffffff))),
    .set 1060 (.un (.perm64 0xDD) (.ld 2 6)),
    .set 1061 (.un (.perm64 0x88) (.ld 2 6)),
    .st 2 22 (.bin .add (.bin .add (.r 1060) (.cst 1 6 0x3ffffffc00000000 0x3ffffffc00000000
      0x3ffffffc00000000 0x3ffffffc00000000)) (.bin .sub (.bin .xor (.r 1061) (.lit
      0xffffffffffffffff 0 0 0xffffffffffffffff)) (.lit 0xffffffffffffffff 0 0
      0xffffffffffffffff))),
    .set 1062 (.un (.perm64 0xDD) (.ld 2 7)),
    .set 1063 (.un (.perm64 0x88) (.ld 2 7)),
    .st 2 23 (.bin .add (.bin .add (.r 1062) (.cst 1 7 0x3ffffffc00000000 0x3ffffffc00000000
      0x3ffffffc00000000 0x3ffffffc00000000)) (.bin .sub (.bin .xor (.r 1063) (.lit
      0xffffffffffffffff 0 0 0xffffffffffffffff)) (.lit 0xffffffffffffffff 0 0
      0xffffffffffffffff))),
    .set 1064 (.un (.perm64 0xDD) (.ld 2 8)),
    .set 1065 (.un (.perm64 0x88) (.ld 2 8)),
    .st 2 24 (.bin .add (.bin .add (.r 1064) (.cst 1 8 0x3ffffffc00000000 0x3ffffffc00000000
      0x3ffffffc00000000 0x3ffffffc00000000)) (.bin .sub (.bin .xor (.r 1065) (.lit
      0xffffffffffffffff 0 0 0xffffffffffffffff)) (.lit 0xffffffffffffffff 0 0
      0xffffffffffffffff))),
    .set 1066 (.un (.perm64 0xDD) (.ld 2 9)),
    .set 1067 (.un (.perm64 0x88) (.ld 2 9)),
    .st 2 25 (.bin .add (.bin .add (.r 1066) (.cst 1 9 0x3ffffffc00000000 0x3ffffffc00000000
      0x3ffffffc00000000 0x3ffffffc00000000)) (.bin .sub (.bin .xor (.r 1067) (.lit
      0xffffffffffffffff 0 0 0xffffffffffffffff)) (.lit 0xffffffffffffffff 0 0
      0xffffffffffffffff))),
    .set 1068 (.un (.perm64 0xDD) (.ld 2 10)),
    .set 1069 (.un (.perm64 0x88) (.ld 2 10)),
    .st 2 26 (.bin .add (.bin .add (.r 1068) (.cst 1 10 0x3ffffffc00000000 0x3ffffffc00000000
      0x3ffffffc00000000 0x3ffffffc00000000)) (.bin .sub (.bin .xor (.r 1069) (.lit
      0xffffffffffffffff 0 0 0xffffffffffffffff)) (.lit 0xffffffffffffffff 0 0
      0xffffffffffffffff))),
    .set 1070 (.un (.perm64 0xDD) (.ld 2 11)),
    .set 1071 (.un (.perm64 0x88) (.ld 2 11)),
    .st 2 27 (.bin .add (.bin .add (.r 1070) (.cst 1 11 0x3ffffffc00000000 0x3ffffffc00000000
      0x3ffffffc00000000 0x3ffffffc00000000)) (.bin .sub (.bin .xor (.r 1071) (.lit
      0xffffffffffffffff 0 0 0xffffffffffffffff)) (.lit 0xffffffffffffffff 0 0
      0xffffffffffffffff))),
    .set 1072 (.un (.perm64 0xDD) (.ld 2 12)),
    .set 1073 (.un (.perm64 0x88) (.ld 2 12)),
    .st 2 28 (.bin .add (.bin .add (.r 1072) (.cst 1 12 0x3ffffffc00000000 0x3ffffffc00000000
      0x3ffffffc00000000 0x3ffffffc00000000)) (.bin .sub (.bin .xor (.r 1073) (.lit
      0xffffffffffffffff 0 0 0xffffffffffffffff)) (.lit 0xffffffffffffffff 0 0
      0xffffffffffffffff))),
    .set 1074 (.un (.perm64 0xDD) (.ld 2 13)),
    .set 1075 (.un (.perm64 0x88) (.ld 2 13)),
    .st 2 29 (.bin .add (.bin .add (.r 1074) (.cst 1 13 0x3ffffffc00000000 0x3ffffffc00000000
      0x3ffffffc00000000 0x3ffffffc00000000)) (.bin .sub (.bin .xor (.r 1075) (.lit
      0xffffffffffffffff 0 0 0xffffffffffffffff)) (.lit 0xffffffffffffffff 0 0
      0xffffffffffffffff))),
    .set 1076 (.un (.perm64 0xDD) (.ld 2 14)),
    .set 1077 (.un (.perm64 0x88) (.ld 2 14)),
    .st 2 30 (.bin .add (.bin .add (.r 1076) (.cst 1 14 0x3ffffffc00000000 0x3ffffffc00000000
      0x3ffffffc00000000 0x3ffffffc00000000)) (.bin .sub (.bin .xor (.r 1077) (.lit
      0xffffffffffffffff 0 0 0xffffffffffffffff)) (.lit 0xffffffffffffffff 0 0
      0xffffffffffffffff))),
    .set 1078 (.un (.perm64 0xDD) (.ld 2 15)),
    .set 1079 (.un (.perm64 0x88) (.ld 2 15)),
    .st 2 31 (.bin .add (.bin .add (.r 1078) (.cst 1 15 0x3ffffffc00000000 0x3ffffffc00000000
      0x3ffffffc00000000 0x3ffffffc00000000)) (.bin .sub (.bin .xor (.r 1079) (.lit
      0xffffffffffffffff 0 0 0xffffffffffffffff)) (.lit 0xffffffffffffffff 0 0
      0xffffffffffffffff)))] : List Stmt)

/-- A part of the body of `mixadd_4w`. -/
def mixadd_4wC : List Stmt :=
    ([
    .st 2 0 (.un (.perm64 0x4B) (.ld 2 16)),
    .st 2 1 (.un (.perm64 0x4B) (.ld 2 17)),
    .st 2 2 (.un (.perm64 0x4B) (.ld 2 18)),
    .st 2 3 (.un (.perm64 0x4B) (.ld 2 19)),
    .st 2 4 (.un (.perm64 0x4B) (.ld 2 20)),
    .st 2 5 (.un (.perm64 0x4B) (.ld 2 21)),
    .st 2 6 (.un (.perm64 0x4B) (.ld 2 22)),
    .st 2 7 (.un (.perm64 0x4B) (.ld 2 23)),
    .st 2 8 (.un (.perm64 0x4B) (.ld 2 24)),
    .st 2 9 (.un (.perm64 0x4B) (.ld 2 25)),
    .st 2 10 (.un (.perm64 0x4B) (.ld 2 26)),
    .st 2 11 (.un (.perm64 0x4B) (.ld 2 27)),
    .st 2 12 (.un (.perm64 0x4B) (.ld 2 28)),
    .st 2 13 (.un (.perm64 0x4B) (.ld 2 29)),
    .st 2 14 (.un (.perm64 0x4B) (.ld 2 30)),
    .st 2 15 (.un (.perm64 0x4B) (.ld 2 31))] : List Stmt)

/-- src/edwards448.c:501-555 `_1way_mixadd_4w_H0H8`; parameters Q = 0, P = 1, local arrays = 2. -/
def mixadd_4w : Fn := ⟨[16, 16, 32], [0, 2],
    [32, 32],
    mixadd_4wA ++
    F448.V4.intmul.at [.par 2 0, .par 2 16, .par 1 0] 2 ++
    mixadd_4wB ++
    F448.V4.compress.at [.par 2 16] 2 ++
    mixadd_4wC ++
    F448.V4.intmul.at [.par 0 0, .par 2 16, .par 2 0] 2 ++
    F448.V4.compress.at [.par 0 0] 2⟩

/-- A part of the body of `doubling_4w`. -/
def doubling_4wA : List Stmt :=
    ([
    .st 1 16 (.un (.perm64 0xF4) (.ld 0 0)),
    .st 1 17 (.un (.perm64 0xF4) (.ld 0 1)),
    .st 1 18 (.un (.perm64 0xF4) (.ld 0 2)),
    .st 1 19 (.un (.perm64 0xF4) (.ld 0 3)),
    .st 1 20 (.un (.perm64 0xF4) (.ld 0 4)),
    .st 1 21 (.un (.perm64 0xF4) (.ld 0 5)),
    .st 1 22 (.un (.perm64 0xF4) (.ld 0 6)),
    .st 1 23 (.un (.perm64 0xF4) (.ld 0 7)),
    .st 1 24 (.un (.perm64 0xF4) (.ld 0 8)),
    .st 1 25 (.un (.perm64 0xF4) (.ld 0 9)),
    .st 1 26 (.un (.perm64 0xF4) (.ld 0 10)),
    .st 1 27 (.un (.perm64 0xF4) (.ld 0 11)),
    .st 1 28 (.un (.perm64 0xF4) (.ld 0 12)),
    .st 1 29 (.un (.perm64 0xF4) (.ld 0 13)),
    .st 1 30 (.un (.perm64 0xF4) (.ld 0 14)),
    .st 1 31 (.un (.perm64 0xF4) (.ld 0 15))] : List Stmt)

/-- A part of the body of `doubling_4w`. -/
def doubling_4wB : List Stmt :=
    ([
    .set 1000 (.un (.perm64 0x67) (.ld 1 0)),
    .set 1001 (.bin (.blend 0xC0) (.un (.perm64 0xE3) (.ld 1 0)) (.lit 0 0 0 0)),
    .set 1002 (.bin (.blend 0xFC) (.ld 1 0) (.lit 0 0 0 0)),
    .set 1003 (.bin (.blend 0x3C) (.un (.perm64 0x25) (.ld 1 0)) (.lit 0 0 0 0)),
    .st 1 0 (.bin .add (.r 1000) (.bin .add (.r 1001) (.bin .add (.r 1002) (.bin .sub (.cst 0 0
      0x3ffffffc00000000 0x3ffffffc00000000 0x3ffffffc00000000 0x3ffffffc00000000) (.r 1003))))),
    .set 1004 (.un (.perm64 0x67) (.ld 1 1)),
    .set 1005 (.bin (.blend 0xC0) (.un (.perm64 0xE3) (.ld 1 1)) (.lit 0 0 0 0)),
    .set 1006 (.bin (.blend 0xFC) (.ld 1 1) (.lit 0 0 0 0)),
    .set 1007 (.bin (.blend 0x3C) (.un (.perm64 0x25) (.ld 1 1)) (.lit 0 0 0 0)),
    .st 1 1 (.bin .add (.r 1004) (.bin .add (.r 1005) (.bin .add (.r 1006) (.bin .sub (.cst 0 1
      0x3ffffff800000000 0x3ffffff800000000 0x3ffffff800000000 0x3ffffff800000000) (.r 1007))))),
    .set 1008 (.un (.perm64 0x67) (.ld 1 2)),
    .set 1009 (.bin (.blend 0xC0) (.un (.perm64 0xE3) (.ld 1 2)) (.lit 0 0 0 0)),
    .set 1010 (.bin (.blend 0xFC) (.ld 1 2) (.lit 0 0 0 0)),
    .set 1011 (.bin (.blend 0x3C) (.un (.perm64 0x25) (.ld 1 2)) (.lit 0 0 0 0)),
    .st 1 2 (.bin .add (.r 1008) (.bin .add (.r 1009) (.bin .add (.r 1010) (.bin .sub (.cst 0 2
      0x3ffffffc00000000 0x3ffffffc00000000 0x3ffffffc00000000 0x3ffffffc00000000) (.r 1011))))),
    .set 1012 (.un (.perm64 0x67) (.ld 1 3)),
    .set 1013 (.bin (.blend 0xC0) (.un (.perm64 0xE3) (.ld 1 3)) (.lit 0 0 0 0)),
    .set 1014 (.bin (.blend 0xFC) (.ld 1 3) (.lit 0 0 0 0)),
    .set 1015 (.bin (.blend 0x3C) (.un (.perm64 0x25) (.ld 1 3)) (.lit 0 0 0 0)),
    .st 1 3 (.bin .add (.r 1012) (.bin .add (.r 1013) (.bin .add (.r 1014) (.bin .sub (.cst 0 3
      0x3ffffffc00000000 0x3ffffffc00000000 0x3ffffffc00000000 0x3ffffffc00000000) (.r 1015))))),
    .set 1016 (.un (.perm64 0x67) (.ld 1 4)),
    .set 1017 (.bin (.blend 0xC0) (.un (.perm64 0xE3) (.ld 1 4)) (.lit 0 0 0 0)),
    .set 1018 (.bin (.blend 0xFC) (.ld 1 4) (.lit 0 0 0 0)),
    .set 1019 (.bin (.blend 0x3C) (.un (.perm64 0x25) (.ld 1 4)) (.lit 0 0 0 0)),
    .st 1 4 (.bin .add (.r 1016) (.bin .add (.r 1017) (.bin .add (.r 1018) (.bin .sub (.cst 0 4
      0x3ffffffc00000000 0x3ffffffc00000000 0x3ffffffc00000000 0x3ffffffc00000000) (.r 1019))))),
    .set 1020 (.un (.perm64 0x67) (.ld 1 5)),
    .set 1021 (.bin (.blend 0xC0) (.un (.perm64 0xE3) (.ld 1 5)) (.lit 0 0 0 0)),
    .set 1022 (.bin (.blend 0xFC) (.ld 1 5) (.lit 0 0 0 0)),
    .set 1023 (.bin (.blend 0x3C) (.un (.perm64 0x25) (.ld 1 5)) (.lit 0 0 0 0)),
    .st 1 5 (.bin .add (.r 1020) (.bin .add (.r 1021) (.bin .add (.r 1022) (.bin .sub (.cst 0 5
      0x3ffffffc00000000 0x3ffffffc00000000 0x3ffffffc00000000 0x3ffffffc00000000) (.r 1023))))),
    .set 1024 (.un (.perm64 0x67) (.ld 1 6)),
    .set 1025 (.bin (.blend 0xC0) (.un (.perm64 0xE3) (.ld 1 6)) (.lit 0 0 0 0)),
    .set 1026 (.bin (.blend 0xFC) (.ld 1 6) (.lit 0 0 0 0)),
    .set 1027 (.bin (.blend 0x3C) (.un (.perm64 0x25) (.ld 1 6)) (.lit 0 0 0 0)),
    .st 1 6 (.bin .add (.r 1024) (.bin .add (.r 1025) (.bin .add (.r 1026) (.bin .sub (.cst 0 6
      0x3ffffffc00000000 0x3ffffffc00000000 0x3ffffffc00000000 0x3ffffffc00000000) (.r 1027))))),
    .set 1028 (.un (.perm64 0x67) (.ld 1 7)),
    .set 1029 (.bin (.blend 0xC0) (.un (.perm64 0xE3) (.ld 1 7)) (.lit 0 0 0 0)),
    .set 1030 (.bin (.blend 0xFC) (.ld 1 7) (.lit 0 0 0 0)),
    .set 1031 (.bin (.blend 0x3C) (.un (.perm64 0x25) (.ld 1 7)) (.lit 0 0 0 0)),
    .st 1 7 (.bin .add (.r 1028) (.bin .add (.r 1029) (.bin .add (.r 1030) (.bin .sub (.cst 0 7
      0x3ffffffc00000000 0x3ffffffc00000000 0x3ffffffc00000000 0x3ffffffc00000000) (.r 1031))))),
    .set 1032 (.un (.perm64 0x67) (.ld 1 8)),
    .set 1033 (.bin (.blend 0xC0) (.un (.perm64 0xE3) (.ld 1 8)) (.lit 0 0 0 0)),
    .set 1034 (.bin (.blend 0xFC) (.ld 1 8) (.lit 0 0 0 0)),
    .set 1035 (.bin (.blend 0x3C) (.un (.perm64 0x25) (.ld 1 8)) (.lit 0 0 0 0)),
    .st 1 8 (.bin .add (.r 1032) (.bin .add (.r 1033) (.bin .add (.r 1034) (.bin .sub (.cst 0 8
      0x3ffffffc00000000 0x3ffffffc00000000 0x3ffffffc00000000 0x3ffffffc00000000) (.r 1035))))),
    .set 1036 (.un (.perm64 0x67) (.ld 1 9)),
    .set 1037 (.bin (.blend 0xC0) (.un (.perm64 0xE3) (.ld 1 9)) (.lit 0 0 0 0)),
    .set 1038 (.bin (.blend 0xFC) (.ld 1 9) (.lit 0 0 0 0)),
    .set 1039 (.bin (.blend 0x3C) (.un (.perm64 0x25) (.ld 1 9)) (.lit 0 0 0 0)),
    .st 1 9 (.bin .add (.r 1036) (.bin .add (.r 1037) (.bin .add (.r 1038) (.bin .sub (.cst 0 9
      0x3ffffffc00000000 0x3ffffffc00000000 0x3ffffffc00000000 0x3ffffffc00000000) (.r 1039))))),
    .set 1040 (.un (.perm64 0x67) (.ld 1 10)),
    .set 1041 (.bin (.blend 0xC0) (.un (.perm64 0xE3) (.ld 1 10)) (.lit 0 0 0 0)),
    .set 1042 (.bin (.blend 0xFC) (.ld 1 10) (.lit 0 0 0 0)),
    .set 1043 (.bin (.blend 0x3C) (.un (.perm64 0x25) (.ld 1 10)) (.lit 0 0 0 0)),
    .st 1 10 (.bin .add (.r 1040) (.bin .add (.r 1041) (.bin .add (.r 1042) (.bin .sub (.cst 0
      10 0x3ffffffc00000000 0x3ffffffc00000000 0x3ffffffc00000000 0x3ffffffc00000000) (.r
      1043))))),
    .set 1044 (.un (.perm64 0x67) (.ld 1 11)),
    .set 1045 (.bin (.blend 0xC0) (.un (.perm64 0xE3) (.ld 1 11)) (.lit 0 0 0 0)),
    .set 1046 (.bin (.blend 0xFC) (.ld 1 11) (.lit 0 0 0 0)),
    .set 1047 (.bin (.blend 0x3C) (.un (.perm64 0x25) (.ld 1 11)) (.lit 0 0 0 0)),
    .st 1 11 (.bin .add (.r 1044) (.bin .add (.r 1045) (.bin .add (.r 1046) (.bin .sub (.cst 0
      11 0x3ffffffc00000000 0x3ffffffc00000000 0x3ffffffc00000000 0x3ffffffc00000000) (.r
      1047))))),
    .set 1048 (.un (.perm64 0x67) (.ld 1 12)),
    .set 1049 (.bin (.blend 0xC0) (.un (.perm64 0xE3) (.ld 1 12)) (.lit 0 0 0 0)),
    .set 1050 (.bin (.blend 0xFC) (.ld 1 12) (.lit 0 0 0 0)),
    .set 1051 (.bin (.blend 0x3C) (.un (.perm64 0x25) (.ld 1 12)) (.lit 0 0 0 0)),
    .st 1 12 (.bin .add (.r 1048) (.bin .add (.r 1049) (.bin .add (.r 1050) (.bin .sub (.cst 0
      12 0x3ffffffc00000000 0x3ffffffc00000000 0x3ffffffc00000000 0x3ffffffc00000000) (.r
      1051))))),
    .set 1052 (.un (.perm64 0x67) (.ld 1 13)),
    .set 1053 (.bin (.blend 0xC0) (.un (.perm64 0xE3) (.ld 1 13)) (.lit 0 0 0 0)),
    .set 1054 (.bin (.blend 0xFC) (.ld 1 13) (.lit 0 0 0 0)),
    .set 1055 (.bin (.blend 0x3C) (.un (.perm64 0x25) (.ld 1 13)) (.lit 0 0 0 0)),
    .st 1 13 (.bin .add (.r 1052) (.bin .add (.r 1053) (.bin .add (.r 1054) (.bin .sub (.cst 0
      13 0x3ffffffc00000000 0x3ffffffc00000000 0x3ffffffc00000000 0x3ffffffc00000000) (.r
      1055))))),
    .set 1056 (.un (.perm64 0x67) (.ld 1 14)),
    .set 1057 (.bin (.blend 0xC0) (.un (.perm64 0xE3) (.ld 1 14)) (.lit 0 0 0 0)),
    .set 1058 (.bin (.blend 0xFC) (.ld 1 14) (.lit 0 0 0 0)),
    .set 1059 (.bin (.blend 0x3C) (.un (.perm64 0x25) (.ld 1 14)) (.lit 0 0 0 0)),
    .st 1 14 (.bin .add (.r 1056) (.bin .add (.r 1057) (.bin .add (.r 1058) (.bin .sub (.cst 0
      14 0x3ffffffc00000000 0x3ffffffc00000000 0x3ffffffc00000000 0x3ffffffc00000000) (.r
      1059))))),
    .set 1060 (.un (.perm64 0x67) (.ld 1 15)),
    .set 1061 (.bin (.blend 0xC0) (.un (.perm64 0xE3) (.ld 1 15)) (.lit 0 0 0 0)),
    .set 1062 (.bin (.blend 0xFC) (.ld 1 15) (.lit 0 0 0 0)),
    .set 1063 (.bin (.blend 0x3C) (.un (.perm64 0x25) (.ld 1 15)) (.lit 0 0 0 0)),
    .st 1 15 (.bin .add (.r 1060) (.bin .add (.r 1061) (.bin .add (.r 1062) (.bin .sub (.cst 0
      15 0x3ffffffc00000000 0x3ffffffc00000000 0x3ffffffc00000000 0x3ffffffc00000000) (.r
      1063)))))] : List Stmt)

/-- A part of the body of `doubling_4w`. -/
def doubling_4wC : List Stmt :=
    ([
    .st 1 16 (.un (.perm64 0x1E) (.ld 1 0)),
    .st 1 17 (.un (.perm64 0x1E) (.ld 1 1)),
    .st 1 18 (.un (.perm64 0x1E) (.ld 1 2)),
    .st 1 19 (.un (.perm64 0x1E) (.ld 1 3)),
    .st 1 20 (.un (.perm64 0x1E) (.ld 1 4)),
    .st 1 21 (.un (.perm64 0x1E) (.ld 1 5)),
    .st 1 22 (.un (.perm64 0x1E) (.ld 1 6)),
    .st 1 23 (.un (.perm64 0x1E) (.ld 1 7)),
    .st 1 24 (.un (.perm64 0x1E) (.ld 1 8)),
    .st 1 25 (.un (.perm64 0x1E) (.ld 1 9)),
    .st 1 26 (.un (.perm64 0x1E) (.ld 1 10)),
    .st 1 27 (.un (.perm64 0x1E) (.ld 1 11)),
    .st 1 28 (.un (.perm64 0x1E) (.ld 1 12)),
    .st 1 29 (.un (.perm64 0x1E) (.ld 1 13)),
    .st 1 30 (.un (.perm64 0x1E) (.ld 1 14)),
    .st 1 31 (.un (.perm64 0x1E) (.ld 1 15))] : List Stmt)

/-- src/edwards448.c:563-602 `_1way_doubling_4w_H0H8`; parameters P = 0, local arrays = 1. -/
def doubling_4w : Fn := ⟨[16, 32], [0, 1],
    [32],
    doubling_4wA ++
    F448.V4.intmul.at [.par 1 0, .par 0 0, .par 1 16] 1 ++
    doubling_4wB ++
    F448.V4.compress.at [.par 1 0] 1 ++
    doubling_4wC ++
    F448.V4.intmul.at [.par 0 0, .par 1 16, .par 1 0] 1 ++
    F448.V4.compress.at [.par 0 0] 1⟩

/-- src/edwards448.c:650-685 `isogeny_2w_H0H8`; parameters P = 0, local arrays = 1. -/
def isogeny_2w : Fn := ⟨[16, 32], [0, 1],
    [32],
    ([
    .st 1 8 (.un (.perm64 0xEE) (.ld 0 8)),
    .st 1 9 (.un (.perm64 0xEE) (.ld 0 9)),
    .st 1 10 (.un (.perm64 0xEE) (.ld 0 10)),
    .st 1 11 (.un (.perm64 0xEE) (.ld 0 11)),
    .st 1 12 (.un (.perm64 0xEE) (.ld 0 12)),
    .st 1 13 (.un (.perm64 0xEE) (.ld 0 13)),
    .st 1 14 (.un (.perm64 0xEE) (.ld 0 14)),
    .st 1 15 (.un (.perm64 0xEE) (.ld 0 15))] : List Stmt) ++
    F448.V2.intsqr.at [.par 0 0] 1 ++
    F448.V2.intmul.at [.par 0 8, .par 0 8, .par 1 8] 1 ++
    F448.V2.add.at [.par 1 8, .par 0 8, .par 0 8] 1 ++
    ([
    .set 1001 (.un (.perm64 0x4E) (.ld 0 0)),
    .set 1002 (.un (.perm64 0x44) (.ld 0 0)),
    .set 1000 (.bin (.perm128 0x31) (.ld 1 8) (.ld 0 0)),
    .set 1003 (.bin .add (.r 1000) (.r 1002)),
    .set 1005 (.bin (.blend 0x0F) (.ld 0 0) (.r 1003)),
    .set 1004 (.bin .sub (.r 1001) (.r 1005)),
    .set 1004 (.bin .add (.r 1004) (.cst 0 0 0x7ffffff800000000 0x7ffffff000000000
      0x7ffffff800000000 0x7ffffff000000000)),
    .st 1 24 (.bin (.blend 0x0F) (.r 1003) (.r 1004)),
    .st 1 16 (.bin (.blend 0x0F) (.r 1004) (.ld 1 8)),
    .set 1007 (.un (.perm64 0x4E) (.ld 0 1)),
    .set 1008 (.un (.perm64 0x44) (.ld 0 1)),
    .set 1006 (.bin (.perm128 0x31) (.ld 1 9) (.ld 0 1)),
    .set 1009 (.bin .add (.r 1006) (.r 1008)),
    .set 1011 (.bin (.blend 0x0F) (.ld 0 1) (.r 1009)),
    .set 1010 (.bin .sub (.r 1007) (.r 1011)),
    .set 1010 (.bin .add (.r 1010) (.cst 0 1 0x7ffffff800000000 0x7ffffff800000000
      0x7ffffff800000000 0x7ffffff800000000)),
    .st 1 25 (.bin (.blend 0x0F) (.r 1009) (.r 1010)),
    .st 1 17 (.bin (.blend 0x0F) (.r 1010) (.ld 1 9)),
    .set 1013 (.un (.perm64 0x4E) (.ld 0 2)),
    .set 1014 (.un (.perm64 0x44) (.ld 0 2)),
    .set 1012 (.bin (.perm128 0x31) (.ld 1 10) (.ld 0 2)),
    .set 1015 (.bin .add (.r 1012) (.r 1014)),
    .set 1017 (.bin (.blend 0x0F) (.ld 0 2) (.r 1015)),
    .set 1016 (.bin .sub (.r 1013) (.r 1017)),
    .set 1016 (.bin .add (.r 1016) (.cst 0 2 0x7ffffff800000000 0x7ffffff800000000
      0x7ffffff800000000 0x7ffffff800000000)),
    .st 1 26 (.bin (.blend 0x0F) (.r 1015) (.r 1016)),
    .st 1 18 (.bin (.blend 0x0F) (.r 1016) (.ld 1 10)),
    .set 1019 (.un (.perm64 0x4E) (.ld 0 3)),
    .set 1020 (.un (.perm64 0x44) (.ld 0 3)),
    .set 1018 (.bin (.perm128 0x31) (.ld 1 11) (.ld 0 3)),
    .set 1021 (.bin .add (.r 1018) (.r 1020)),
    .set 1023 (.bin (.blend 0x0F) (.ld 0 3) (.r 1021)),
    .set 1022 (.bin .sub (.r 1019) (.r 1023)),
    .set 1022 (.bin .add (.r 1022) (.cst 0 3 0x7ffffff800000000 0x7ffffff800000000
      0x7ffffff800000000 0x7ffffff800000000)),
    .st 1 27 (.bin (.blend 0x0F) (.r 1021) (.r 1022)),
    .st 1 19 (.bin (.blend 0x0F) (.r 1022) (.ld 1 11)),
    .set 1025 (.un (.perm64 0x4E) (.ld 0 4)),
    .set 1026 (.un (.perm64 0x44) (.ld 0 4)),
    .set 1024 (.bin (.perm128 0x31) (.ld 1 12) (.ld 0 4)),
    .set 1027 (.bin .add (.r 1024) (.r 1026)),
    .set 1029 (.bin (.blend 0x0F) (.ld 0 4) (.r 1027)),
    .set 1028 (.bin .sub (.r 1025) (.r 1029)),
    .set 1028 (.bin .add (.r 1028) (.cst 0 4 0x7ffffff800000000 0x7ffffff800000000
      0x7ffffff800000000 0x7ffffff800000000)),
    .st 1 28 (.bin (.blend 0x0F) (.r 1027) (.r 1028)),
    .st 1 20 (.bin (.blend 0x0F) (.r 1028) (.ld 1 12)),
    .set 1031 (.un (.perm64 0x4E) (.ld 0 5)),
    .set 1032 (.un (.perm64 0x44) (.ld 0 5)),
    .set 1030 (.bin (.perm128 0x31) (.ld 1 13) (.ld 0 5)),
    .set 1033 (.bin .add (.r 1030) (.r 1032)),
    .set 1035 (.bin (.blend 0x0F) (.ld 0 5) (.r 1033)),
    .set 1034 (.bin .sub (.r 1031) (.r 1035)),
    .set 1034 (.bin .add (.r 1034) (.cst 0 5 0x7ffffff800000000 0x7ffffff800000000
      0x7ffffff800000000 0x7ffffff800000000)),
    .st 1 29 (.bin (.blend 0x0F) (.r 1033) (.r 1034)),
    .st 1 21 (.bin (.blend 0x0F) (.r 1034) (.ld 1 13)),
    .set 1037 (.un (.perm64 0x4E) (.ld 0 6)),
    .set 1038 (.un (.perm64 0x44) (.ld 0 6)),
    .set 1036 (.bin (.perm128 0x31) (.ld 1 14) (.ld 0 6)),
    .set 1039 (.bin .add (.r 1036) (.r 1038)),
    .set 1041 (.bin (.blend 0x0F) (.ld 0 6) (.r 1039)),
    .set 1040 (.bin .sub (.r 1037) (.r 1041)),
    .set 1040 (.bin .add (.r 1040) (.cst 0 6 0x7ffffff800000000 0x7ffffff800000000
      0x7ffffff800000000 0x7ffffff800000000)),
    .st 1 30 (.bin (.blend 0x0F) (.r 1039) (.r 1040)),
    .st 1 22 (.bin (.blend 0x0F) (.r 1040) (.ld 1 14)),
    .set 1043 (.un (.perm64 0x4E) (.ld 0 7)),
    .set 1044 (.un (.perm64 0x44) (.ld 0 7)),
    .set 1042 (.bin (.perm128 0x31) (.ld 1 15) (.ld 0 7)),
    .set 1045 (.bin .add (.r 1042) (.r 1044)),
    .set 1047 (.bin (.blend 0x0F) (.ld 0 7) (.r 1045)),
    .set 1046 (.bin .sub (.r 1043) (.r 1047)),
    .set 1046 (.bin .add (.r 1046) (.cst 0 7 0x7ffffff800000000 0x7ffffff800000000
      0x7ffffff800000000 0x7ffffff800000000)),
    .st 1 31 (.bin (.blend 0x0F) (.r 1045) (.r 1046)),
    .st 1 23 (.bin (.blend 0x0F) (.r 1046) (.ld 1 15))] : List Stmt) ++
    F448.V2.compress2.at [.par 1 24, .par 1 16] 1 ++
    ([
    .st 1 0 (.un (.perm64 0x4E) (.ld 1 24)),
    .st 1 1 (.un (.perm64 0x4E) (.ld 1 25)),
    .st 1 2 (.un (.perm64 0x4E) (.ld 1 26)),
    .st 1 3 (.un (.perm64 0x4E) (.ld 1 27)),
    .st 1 4 (.un (.perm64 0x4E) (.ld 1 28)),
    .st 1 5 (.un (.perm64 0x4E) (.ld 1 29)),
    .st 1 6 (.un (.perm64 0x4E) (.ld 1 30)),
    .st 1 7 (.un (.perm64 0x4E) (.ld 1 31))] : List Stmt) ++
    F448.V2.intmul.at [.par 0 0, .par 1 24, .par 1 16] 1 ++
    F448.V2.intmul.at [.par 0 8, .par 1 0, .par 1 24] 1 ++
    F448.V2.compress2.at [.par 0 0, .par 0 8] 1⟩

/-- src/edwards448.c:1201-1209 `unzip_2w_Element_4w_h0h8`; parameters pA = 0, pB = 1, A = 2. -/
def unzip_2w : Fn := ⟨[8, 8, 16], [0, 1],
    [],
    ([
    .set 1000 (.bin .upkl (.ld 2 0) (.ld 2 1)),
    .set 1001 (.bin .upkh (.ld 2 0) (.ld 2 1)),
    .st 0 0 (.bin (.perm128 0x20) (.r 1000) (.r 1001)),
    .st 1 0 (.bin (.perm128 0x31) (.r 1000) (.r 1001)),
    .set 1002 (.bin .upkl (.ld 2 2) (.ld 2 3)),
    .set 1003 (.bin .upkh (.ld 2 2) (.ld 2 3)),
    .st 0 1 (.bin (.perm128 0x20) (.r 1002) (.r 1003)),
    .st 1 1 (.bin (.perm128 0x31) (.r 1002) (.r 1003)),
    .set 1004 (.bin .upkl (.ld 2 4) (.ld 2 5)),
    .set 1005 (.bin .upkh (.ld 2 4) (.ld 2 5)),
    .st 0 2 (.bin (.perm128 0x20) (.r 1004) (.r 1005)),
    .st 1 2 (.bin (.perm128 0x31) (.r 1004) (.r 1005)),
    .set 1006 (.bin .upkl (.ld 2 6) (.ld 2 7)),
    .set 1007 (.bin .upkh (.ld 2 6) (.ld 2 7)),
    .st 0 3 (.bin (.perm128 0x20) (.r 1006) (.r 1007)),
    .st 1 3 (.bin (.perm128 0x31) (.r 1006) (.r 1007)),
    .set 1008 (.bin .upkl (.ld 2 8) (.ld 2 9)),
    .set 1009 (.bin .upkh (.ld 2 8) (.ld 2 9)),
    .st 0 4 (.bin (.perm128 0x20) (.r 1008) (.r 1009)),
    .st 1 4 (.bin (.perm128 0x31) (.r 1008) (.r 1009)),
    .set 1010 (.bin .upkl (.ld 2 10) (.ld 2 11)),
    .set 1011 (.bin .upkh (.ld 2 10) (.ld 2 11)),
    .st 0 5 (.bin (.perm128 0x20) (.r 1010) (.r 1011)),
    .st 1 5 (.bin (.perm128 0x31) (.r 1010) (.r 1011)),
    .set 1012 (.bin .upkl (.ld 2 12) (.ld 2 13)),
    .set 1013 (.bin .upkh (.ld 2 12) (.ld 2 13)),
    .st 0 6 (.bin (.perm128 0x20) (.r 1012) (.r 1013)),
    .st 1 6 (.bin (.perm128 0x31) (.r 1012) (.r 1013)),
    .set 1014 (.bin .upkl (.ld 2 14) (.ld 2 15)),
    .set 1015 (.bin .upkh (.ld 2 14) (.ld 2 15)),
    .st 0 7 (.bin (.perm128 0x20) (.r 1014) (.r 1015)),
    .st 1 7 (.bin (.perm128 0x31) (.r 1014) (.r 1015))] : List Stmt)⟩

/-- A part of the body of `join_points`. -/
def join_pointsA : List Stmt :=
    F448.V4.unzip.at [.par 2 48, .par 2 0, .par 2 16, .par 2 32, .par 1 0] 0 ++
    F448.V4.unzip.at [.par 2 52, .par 2 4, .par 2 20, .par 2 36, .par 1 16] 0 ++
    F448.V4.unzip.at [.par 2 56, .par 2 8, .par 2 24, .par 2 40, .par 1 32] 0 ++
    F448.V4.unzip.at [.par 2 60, .par 2 12, .par 2 28, .par 2 44, .par 1 48] 0 ++
    F448.V2.inter.at [.par 0 0, .par 2 48, .par 2 52] 0 ++
    F448.V2.inter.at [.par 0 8, .par 2 60, .par 2 56] 0 ++
    F448.V2.inter.at [.par 2 64, .par 2 0, .par 2 4] 0 ++
    F448.V2.inter.at [.par 2 72, .par 2 12, .par 2 8] 0 ++
    F448.V2.inter.at [.par 2 80, .par 2 16, .par 2 20] 0 ++
    F448.V2.inter.at [.par 2 88, .par 2 28, .par 2 24] 0 ++
    F448.V2.inter.at [.par 2 96, .par 2 32, .par 2 36] 0 ++
    F448.V2.inter.at [.par 2 104, .par 2 44, .par 2 40] 0

/-- A part of the body of `join_points`. -/
def join_pointsB : List Stmt :=
    doubling_2w.at [.par 2 96, .par 2 112] 0 ++
    doubling_2w.at [.par 2 96, .par 2 112] 1 ++
    doubling_2w.at [.par 2 96, .par 2 112] 2 ++
    doubling_2w.at [.par 2 96, .par 2 112] 3 ++
    fulladd_2w.at [.par 2 80, .par 2 96, .par 2 112] 4 ++
    doubling_2w.at [.par 2 80, .par 2 112] 8 ++
    doubling_2w.at [.par 2 80, .par 2 112] 9 ++
    doubling_2w.at [.par 2 80, .par 2 112] 10 ++
    doubling_2w.at [.par 2 80, .par 2 112] 11 ++
    fulladd_2w.at [.par 2 64, .par 2 80, .par 2 112] 12 ++
    doubling_2w.at [.par 2 64, .par 2 112] 16 ++
    doubling_2w.at [.par 2 64, .par 2 112] 17 ++
    doubling_2w.at [.par 2 64, .par 2 112] 18 ++
    doubling_2w.at [.par 2 64, .par 2 112] 19 ++
    fulladd_2w.at [.par 0 0, .par 2 64, .par 2 112] 20

/-- src/edwards448.c:609-638 `join_points_2w_H0H8`; parameters R0 = 0, Q = 1, local arrays = 2. -/
def join_points : Fn := ⟨[16, 64, 152], [0, 2],
    [32, 32, 32, 32, 32, 32, 32, 32, 32, 32, 32, 32, 32, 32, 32, 32, 32, 32, 32, 32, 32, 32,
      32, 32],
    join_pointsA ++
    join_pointsB⟩

/-- A part of the body of `precompute_4w`. -/
def precompute_4wA : List Stmt :=
    ([
    .set 1000 (.un .shuf4E (.ld 1 0)),
    .set 1001 (.ld 1 0),
    .set 1002 (.bin .add (.bin .add (.r 1000) (.cst 1 0 0x1ffffffe 0 0 0)) (.bin .sub (.bin
      .xor (.r 1001) (.lit 0xffffffffffffffff 0 0 0)) (.lit 0xffffffffffffffff 0 0 0))),
    .st 2 16 (.bin (.blend 0xF0) (.r 1002) (.ld 2 16)),
    .set 1003 (.un .shuf4E (.ld 1 1)),
    .set 1004 (.ld 1 1),
    .set 1005 (.bin .add (.bin .add (.r 1003) (.cst 1 1 0x3ffffffc 0 0 0)) (.bin .sub (.bin
      .xor (.r 1004) (.lit 0xffffffffffffffff 0 0 0)) (.lit 0xffffffffffffffff 0 0 0))),
    .st 2 17 (.bin (.blend 0xF0) (.r 1005) (.ld 2 17)),
    .set 1006 (.un .shuf4E (.ld 1 2)),
    .set 1007 (.ld 1 2),
    .set 1008 (.bin .add (.bin .add (.r 1006) (.cst 1 2 0x1ffffffe 0 0 0)) (.bin .sub (.bin
      .xor (.r 1007) (.lit 0xffffffffffffffff 0 0 0)) (.lit 0xffffffffffffffff 0 0 0))),
    .st 2 18 (.bin (.blend 0xF0) (.r 1008) (.ld 2 18)),
    .set 1009 (.un .shuf4E (.ld 1 3)),
    .set 1010 (.ld 1 3),
    .set 1011 (.bin .add (.bin .add (.r 1009) (.cst 1 3 0x1ffffffc 0 0 0)) (.bin .sub (.bin
      .xor (.r 1010) (.lit 0xffffffffffffffff 0 0 0)) (.lit 0xffffffffffffffff 0 0 0))),
    .st 2 19 (.bin (.blend 0xF0) (.r 1011) (.ld 2 19)),
    .set 1012 (.un .shuf4E (.ld 1 4)),
    .set 1013 (.ld 1 4),
    .set 1014 (.bin .add (.bin .add (.r 1012) (.cst 1 4 0x1ffffffe 0 0 0)) (.bin .sub (.bin
      .xor (.r 1013) (.lit 0xffffffffffffffff 0 0 0)) (.lit 0xffffffffffffffff 0 0 0))),
    .st 2 20 (.bin (.blend 0xF0) (.r 1014) (.ld 2 20)),
    .set 1015 (.un .shuf4E (.ld 1 5)),
    .set 1016 (.ld 1 5),
    .set 1017 (.bin .add (.bin .add (.r 1015) (.cst 1 5 0x1ffffffe 0 0 0)) (.bin .sub (.bin
      .xor (.r 1016) (.lit 0xffffffffffffffff 0 0 0)) (.lit 0xffffffffffffffff 0 0 0))),
    .st 2 21 (.bin (.blend 0xF0) (.r 1017) (.ld 2 21)),
    .set 1018 (.un .shuf4E (.ld 1 6)),
    .set 1019 (.ld 1 6),
    .set 1020 (.bin .add (.bin .add (.r 1018) (.cst 1 6 0x1ffffffe 0 0 0)) (.bin .sub (.bin
      .xor (.r 1019) (.lit 0xffffffffffffffff 0 0 0)) (.lit 0xffffffffffffffff 0 0 0))),
    .st 2 22 (.bin (.blend 0xF0) (.r 1020) (.ld 2 22)),
    .set 1021 (.un .shuf4E (.ld 1 7)),
    .set 1022 (.ld 1 7),
    .set 1023 (.bin .add (.bin .add (.r 1021) (.cst 1 7 0x1ffffffe 0 0 0)) (.bin .sub (.bin
      .xor (.r 1022) (.lit 0xffffffffffffffff 0 0 0)) (.lit 0xffffffffffffffff 0 0 0))),
    .st 2 23 (.bin (.blend 0xF0) (.r 1023) (.ld 2 23)),
    .set 1024 (.un .shuf4E (.ld 1 8)),
    .set 1025 (.ld 1 8),
    .set 1026 (.bin .add (.bin .add (.r 1024) (.cst 1 8 0x1ffffffe 0 0 0)) (.bin .sub (.bin
      .xor (.r 1025) (.lit 0xffffffffffffffff 0 0 0)) (.lit 0xffffffffffffffff 0 0 0))),
    .st 2 24 (.bin (.blend 0xF0) (.r 1026) (.ld 2 24)),
    .set 1027 (.un .shuf4E (.ld 1 9)),
    .set 1028 (.ld 1 9),
    .set 1029 (.bin .add (.bin .add (.r 1027) (.cst 1 9 0x1ffffffe 0 0 0)) (.bin .sub (.bin
      .xor (.r 1028) (.lit 0xffffffffffffffff 0 0 0)) (.lit 0xffffffffffffffff 0 0 0))),
    .st 2 25 (.bin (.blend 0xF0) (.r 1029) (.ld 2 25)),
    .set 1030 (.un .shuf4E (.ld 1 10)),
    .set 1031 (.ld 1 10),
    .set 1032 (.bin .add (.bin .add (.r 1030) (.cst 1 10 0x1ffffffe 0 0 0)) (.bin .sub (.bin
      .xor (.r 1031) (.lit 0xffffffffffffffff 0 0 0)) (.lit 0xffffffffffffffff 0 0 0))),
    .st 2 26 (.bin (.blend 0xF0) (.r 1032) (.ld 2 26)),
    .set 1033 (.un .shuf4E (.ld 1 11)),
    .set 1034 (.ld 1 11),
    .set 1035 (.bin .add (.bin .add (.r 1033) (.cst 1 11 0x1ffffffe 0 0 0)) (.bin .sub (.bin
      .xor (.r 1034) (.lit 0xffffffffffffffff 0 0 0)) (.lit 0xffffffffffffffff 0 0 0))),
    .st 2 27 (.bin (.blend 0xF0) (.r 1035) (.ld 2 27)),
    .set 1036 (.un .shuf4E (.ld 1 12)),
    .set 1037 (.ld 1 12),
    .set 1038 (.bin .add (.bin .add (.r 1036) (.cst 1 12 0x1ffffffe 0 0 0)) (.bin .sub (.bin
      .xor (.r 1037) (.lit 0xffffffffffffffff 0 0 0)) (.lit 0xffffffffffffffff 0 0 0))),
    .st 2 28 (.bin (.blend 0xF0) (.r 1038) (.ld 2 28)),
    .set 1039 (.un .shuf4E (.ld 1 13)),
    .set 1040 (.ld 1 13),
    .set 1041 (.bin .add (.bin .add (.r 1039) (.cst 1 13 0x1ffffffe 0 0 0)) (.bin .sub (.bin
      .xor (.r 1040) (.lit 0xffffffffffffffff 0 0 0)) (.lit 0xffffffffffffffff 0 0 0))),
    .st 2 29 (.bin (.blend 0xF0) (.r 1041) (.ld 2 29)),
    .set 1042 (.un .shuf4E (.ld 1 14)),
    .set 1043 (.ld 1 14),
    .set 1044 (.bin .add (.bin .add (.r 1042) (.cst 1 14 0x1ffffffe 0 0 0)) (.bin .sub (.bin
      .xor (.r 1043) (.lit 0xffffffffffffffff 0 0 0)) (.lit 0xffffffffffffffff 0 0 0))),
    .st 2 30 (.bin (.blend 0xF0) (.r 1044) (.ld 2 30)),
    .set 1045 (.un .shuf4E (.ld 1 15)),
    .set 1046 (.ld 1 15),
    .set 1047 (.bin .add (.bin .add (.r 1045) (.cst 1 15 0x1ffffffe 0 0 0)) (.bin .sub (.bin
      .xor (.r 1046) (.lit 0xffffffffffffffff 0 0 0)) (.lit 0xffffffffffffffff 0 0 0))),
    .st 2 31 (.bin (.blend 0xF0) (.r 1047) (.ld 2 31))] : List Stmt)

/-- A part of the body of `precompute_4w`. -/
def precompute_4wB : List Stmt :=
    ([
    .set 1048 (.un .shuf4E (.ld 2 0)),
    .set 1049 (.ld 2 0),
    .set 1050 (.bin .add (.bin .add (.r 1048) (.cst 1 0 0x1ffffffe 0 0 0)) (.bin .sub (.bin
      .xor (.r 1049) (.lit 0xffffffffffffffff 0 0 0)) (.lit 0xffffffffffffffff 0 0 0))),
    .st 0 0 (.bin (.blend 0xF0) (.r 1050) (.ld 0 0)),
    .set 1051 (.un .shuf4E (.ld 2 1)),
    .set 1052 (.ld 2 1),
    .set 1053 (.bin .add (.bin .add (.r 1051) (.cst 1 1 0x3ffffffc 0 0 0)) (.bin .sub (.bin
      .xor (.r 1052) (.lit 0xffffffffffffffff 0 0 0)) (.lit 0xffffffffffffffff 0 0 0))),
    .st 0 1 (.bin (.blend 0xF0) (.r 1053) (.ld 0 1)),
    .set 1054 (.un .shuf4E (.ld 2 2)),
    .set 1055 (.ld 2 2),
    .set 1056 (.bin .add (.bin .add (.r 1054) (.cst 1 2 0x1ffffffe 0 0 0)) (.bin .sub (.bin
      .xor (.r 1055) (.lit 0xffffffffffffffff 0 0 0)) (.lit 0xffffffffffffffff 0 0 0))),
    .st 0 2 (.bin (.blend 0xF0) (.r 1056) (.ld 0 2)),
    .set 1057 (.un .shuf4E (.ld 2 3)),
    .set 1058 (.ld 2 3),
    .set 1059 (.bin .add (.bin .add (.r 1057) (.cst 1 3 0x1ffffffc 0 0 0)) (.bin .sub (.bin
      .xor (.r 1058) (.lit 0xffffffffffffffff 0 0 0)) (.lit 0xffffffffffffffff 0 0 0))),
    .st 0 3 (.bin (.blend 0xF0) (.r 1059) (.ld 0 3)),
    .set 1060 (.un .shuf4E (.ld 2 4)),
    .set 1061 (.ld 2 4),
    .set 1062 (.bin .add (.bin .add (.r 1060) (.cst 1 4 0x1ffffffe 0 0 0)) (.bin .sub (.bin
      .xor (.r 1061) (.lit 0xffffffffffffffff 0 0 0)) (.lit 0xffffffffffffffff 0 0 0))),
    .st 0 4 (.bin (.blend 0xF0) (.r 1062) (.ld 0 4)),
    .set 1063 (.un .shuf4E (.ld 2 5)),
    .set 1064 (.ld 2 5),
    .set 1065 (.bin .add (.bin .add (.r 1063) (.cst 1 5 0x1ffffffe 0 0 0)) (.bin .sub (.bin
      .xor (.r 1064) (.lit 0xffffffffffffffff 0 0 0)) (.lit 0xffffffffffffffff 0 0 0))),
    .st 0 5 (.bin (.blend 0xF0) (.r 1065) (.ld 0 5)),
    .set 1066 (.un .shuf4E (.ld 2 6)),
    .set 1067 (.ld 2 6),
    .set 1068 (.bin .add (.bin .add (.r 1066) (.cst 1 6 0x1ffffffe 0 0 0)) (.bin .sub (.bin
      .xor (.r 1067) (.lit 0xffffffffffffffff 0 0 0)) (.lit 0xffffffffffffffff 0 0 0))),
    .st 0 6 (.bin (.blend 0xF0) (.r 1068) (.ld 0 6)),
    .set 1069 (.un .shuf4E (.ld 2 7)),
    .set 1070 (.ld 2 7),
    .set 1071 (.bin .add (.bin .add (.r 1069) (.cst 1 7 0x1ffffffe 0 0 0)) (.bin .sub (.bin
      .xor (.r 1070) (.lit 0xffffffffffffffff 0 0 0)) (.lit 0xffffffffffffffff 0 0 0))),
    .st 0 7 (.bin (.blend 0xF0) (.r 1071) (.ld 0 7)),
    .set 1072 (.un .shuf4E (.ld 2 8)),
    .set 1073 (.ld 2 8),
    .set 1074 (.bin .add (.bin .add (.r 1072) (.cst 1 8 0x1ffffffe 0 0 0)) (.bin .sub (.bin
      .xor (.r 1073) (.lit 0xffffffffffffffff 0 0 0)) (.lit 0xffffffffffffffff 0 0 0))),
    .st 0 8 (.bin (.blend 0xF0) (.r 1074) (.ld 0 8)),
    .set 1075 (.un .shuf4E (.ld 2 9)),
    .set 1076 (.ld 2 9),
    .set 1077 (.bin .add (.bin .add (.r 1075) (.cst 1 9 0x1ffffffe 0 0 0)) (.bin .sub (.bin
      .xor (.r 1076) (.lit 0xffffffffffffffff 0 0 0)) (.lit 0xffffffffffffffff 0 0 0))),
    .st 0 9 (.bin (.blend 0xF0) (.r 1077) (.ld 0 9)),
    .set 1078 (.un .shuf4E (.ld 2 10)),
    .set 1079 (.ld 2 10),
    .set 1080 (.bin .add (.bin .add (.r 1078) (.cst 1 10 0x1ffffffe 0 0 0)) (.bin .sub (.bin
      .xor (.r 1079) (.lit 0xffffffffffffffff 0 0 0)) (.lit 0xffffffffffffffff 0 0 0))),
    .st 0 10 (.bin (.blend 0xF0) (.r 1080) (.ld 0 10)),
    .set 1081 (.un .shuf4E (.ld 2 11)),
    .set 1082 (.ld 2 11),
    .set 1083 (.bin .add (.bin .add (.r 1081) (.cst 1 11 0x1ffffffe 0 0 0)) (.bin .sub (.bin
      .xor (.r 1082) (.lit 0xffffffffffffffff 0 0 0)) (.lit 0xffffffffffffffff 0 0 0))),
    .st 0 11 (.bin (.blend 0xF0) (.r 1083) (.ld 0 11)),
    .set 1084 (.un .shuf4E (.ld 2 12)),
    .set 1085 (.ld 2 12),
    .set 1086 (.bin .add (.bin .add (.r 1084) (.cst 1 12 0x1ffffffe 0 0 0)) (.bin .sub (.bin
      .xor (.r 1085) (.lit 0xffffffffffffffff 0 0 0)) (.lit 0xffffffffffffffff 0 0 0))),
    .st 0 12 (.bin (.blend 0xF0) (.r 1086) (.ld 0 12)),
    .set 1087 (.un .shuf4E (.ld 2 13)),
    .set 1088 (.ld 2 13),
    .set 1089 (.bin .add (.bin .add (.r 1087) (.cst 1 13 0x1ffffffe 0 0 0)) (.bin .sub (.bin
      .xor (.r 1088) (.lit 0xffffffffffffffff 0 0 0)) (.lit 0xffffffffffffffff 0 0 0))),
    .st 0 13 (.bin (.blend 0xF0) (.r 1089) (.ld 0 13)),
    .set 1090 (.un .shuf4E (.ld 2 14)),
    .set 1091 (.ld 2 14),
    .set 1092 (.bin .add (.bin .add (.r 1090) (.cst 1 14 0x1ffffffe 0 0 0)) (.bin .sub (.bin
      .xor (.r 1091) (.lit 0xffffffffffffffff 0 0 0)) (.lit 0xffffffffffffffff 0 0 0))),
    .st 0 14 (.bin (.blend 0xF0) (.r 1092) (.ld 0 14)),
    .set 1093 (.un .shuf4E (.ld 2 15)),
    .set 1094 (.ld 2 15),
    .set 1095 (.bin .add (.bin .add (.r 1093) (.cst 1 15 0x1ffffffe 0 0 0)) (.bin .sub (.bin
      .xor (.r 1094) (.lit 0xffffffffffffffff 0 0 0)) (.lit 0xffffffffffffffff 0 0 0))),
    .st 0 15 (.bin (.blend 0xF0) (.r 1095) (.ld 0 15))] : List Stmt)

/-- A part of an iteration of `precompute_4w`. -/
def precompute_4wM (j : ℕ) : List Stmt :=
      mixadd_4w.at [.par 2 0, .par 2 16, .par 2 32] (3 + 2 * j)

/-- A part of an iteration of `precompute_4w`. -/
def precompute_4wI (j : ℕ) : List Stmt :=
      F448.V4.intmul.at [.par 0 (16 + 16 * j), .par 2 0, .arr 0 [1, 1, 0xffeceab, 2, 0, 0,
        0xffffffe, 0, 0, 0, 0xfffffff, 0, 0, 0, 0xfffffff, 0, 0, 0, 0xfffffff, 0, 0, 0,
        0xfffffff, 0, 0, 0, 0xfffffff, 0, 0, 0, 0xfffffff, 0, 0, 0, 0xfffffff, 0, 0, 0,
        0xfffffff, 0, 0, 0, 0xfffffff, 0, 0, 0, 0xfffffff, 0, 0, 0, 0xfffffff, 0, 0, 0,
        0xfffffff, 0, 0, 0, 0xfffffff, 0, 0, 0, 0xfffffff, 0]] (5 + 2 * j)

/-- A part of an iteration of `precompute_4w`. -/
def precompute_4wR (j : ℕ) : List Stmt :=
      ([
      .set 1096 (.un .shuf4E (.ld 2 0)),
      .set 1097 (.ld 2 0),
      .set 1098 (.bin .add (.bin .add (.r 1096) (.cst 1 0 0x1ffffffe 0 0 0)) (.bin .sub (.bin
        .xor (.r 1097) (.lit 0xffffffffffffffff 0 0 0)) (.lit 0xffffffffffffffff 0 0 0))),
      .st 0 (16 + 16 * j) (.bin (.blend 0xF0) (.r 1098) (.ld 0 (16 + 16 * j))),
      .set 1099 (.un .shuf4E (.ld 2 1)),
      .set 1100 (.ld 2 1),
      .set 1101 (.bin .add (.bin .add (.r 1099) (.cst 1 1 0x3ffffffc 0 0 0)) (.bin .sub (.bin
        .xor (.r 1100) (.lit 0xffffffffffffffff 0 0 0)) (.lit 0xffffffffffffffff 0 0 0))),
      .st 0 (17 + 16 * j) (.bin (.blend 0xF0) (.r 1101) (.ld 0 (17 + 16 * j))),
      .set 1102 (.un .shuf4E (.ld 2 2)),
      .set 1103 (.ld 2 2),
      .set 1104 (.bin .add (.bin .add (.r 1102) (.cst 1 2 0x1ffffffe 0 0 0)) (.bin .sub (.bin
        .xor (.r 1103) (.lit 0xffffffffffffffff 0 0 0)) (.lit 0xffffffffffffffff 0 0 0))),
      .st 0 (18 + 16 * j) (.bin (.blend 0xF0) (.r 1104) (.ld 0 (18 + 16 * j))),
      .set 1105 (.un .shuf4E (.ld 2 3)),
      .set 1106 (.ld 2 3),
      .set 1107 (.bin .add (.bin .add (.r 1105) (.cst 1 3 0x1ffffffc 0 0 0)) (.bin .sub (.bin
        .xor (.r 1106) (.lit 0xffffffffffffffff 0 0 0)) (.lit 0xffffffffffffffff 0 0 0))),
      .st 0 (19 + 16 * j) (.bin (.blend 0xF0) (.r 1107) (.ld 0 (19 + 16 * j))),
      .set 1108 (.un .shuf4E (.ld 2 4)),
      .set 1109 (.ld 2 4),
      .set 1110 (.bin .add (.bin .add (.r 1108) (.cst 1 4 0x1ffffffe 0 0 0)) (.bin .sub (.bin
        .xor (.r 1109) (.lit 0xffffffffffffffff 0 0 0)) (.lit 0xffffffffffffffff 0 0 0))),
      .st 0 (20 + 16 * j) (.bin (.blend 0xF0) (.r 1110) (.ld 0 (20 + 16 * j))),
      .set 1111 (.un .shuf4E (.ld 2 5)),
      .set 1112 (.ld 2 5),
      .set 1113 (.bin .add (.bin .add (.r 1111) (.cst 1 5 0x1ffffffe 0 0 0)) (.bin .sub (.bin
        .xor (.r 1112) (.lit 0xffffffffffffffff 0 0 0)) (.lit 0xffffffffffffffff 0 0 0))),
      .st 0 (21 + 16 * j) (.bin (.blend 0xF0) (.r 1113) (.ld 0 (21 + 16 * j))),
      .set 1114 (.un .shuf4E (.ld 2 6)),
      .set 1115 (.ld 2 6),
      .set 1116 (.bin .add (.bin .add (.r 1114) (.cst 1 6 0x1ffffffe 0 0 0)) (.bin .sub (.bin
        .xor (.r 1115) (.lit 0xffffffffffffffff 0 0 0)) (.lit 0xffffffffffffffff 0 0 0))),
      .st 0 (22 + 16 * j) (.bin (.blend 0xF0) (.r 1116) (.ld 0 (22 + 16 * j))),
      .set 1117 (.un .shuf4E (.ld 2 7)),
      .set 1118 (.ld 2 7),
      .set 1119 (.bin .add (.bin .add (.r 1117) (.cst 1 7 0x1ffffffe 0 0 0)) (.bin .sub (.bin
        .xor (.r 1118) (.lit 0xffffffffffffffff 0 0 0)) (.lit 0xffffffffffffffff 0 0 0))),
      .st 0 (23 + 16 * j) (.bin (.blend 0xF0) (.r 1119) (.ld 0 (23 + 16 * j))),
      .set 1120 (.un .shuf4E (.ld 2 8)),
      .set 1121 (.ld 2 8),
      .set 1122 (.bin .add (.bin .add (.r 1120) (.cst 1 8 0x1ffffffe 0 0 0)) (.bin .sub (.bin
        .xor (.r 1121) (.lit 0xffffffffffffffff 0 0 0)) (.lit 0xffffffffffffffff 0 0 0))),
      .st 0 (24 + 16 * j) (.bin (.blend 0xF0) (.r 1122) (.ld 0 (24 + 16 * j))),
      .set 1123 (.un .shuf4E (.ld 2 9)),
      .set 1124 (.ld 2 9),
      .set 1125 (.bin .add (.bin .add (.r 1123) (.cst 1 9 0x1ffffffe 0 0 0)) (.bin .sub (.bin
        .xor (.r 1124) (.lit 0xffffffffffffffff 0 0 0)) (.lit 0xffffffffffffffff 0 0 0))),
      .st 0 (25 + 16 * j) (.bin (.blend 0xF0) (.r 1125) (.ld 0 (25 + 16 * j))),
      .set 1126 (.un .shuf4E (.ld 2 10)),
      .set 1127 (.ld 2 10),
      .set 1128 (.bin .add (.bin .add (.r 1126) (.cst 1 10 0x1ffffffe 0 0 0)) (.bin .sub (.bin
        .xor (.r 1127) (.lit 0xffffffffffffffff 0 0 0)) (.lit 0xffffffffffffffff 0 0 0))),
      .st 0 (26 + 16 * j) (.bin (.blend 0xF0) (.r 1128) (.ld 0 (26 + 16 * j))),
      .set 1129 (.un .shuf4E (.ld 2 11)),
      .set 1130 (.ld 2 11),
      .set 1131 (.bin .add (.bin .add (.r 1129) (.cst 1 11 0x1ffffffe 0 0 0)) (.bin .sub (.bin
        .xor (.r 1130) (.lit 0xffffffffffffffff 0 0 0)) (.lit 0xffffffffffffffff 0 0 0))),
      .st 0 (27 + 16 * j) (.bin (.blend 0xF0) (.r 1131) (.ld 0 (27 + 16 * j))),
      .set 1132 (.un .shuf4E (.ld 2 12)),
      .set 1133 (.ld 2 12),
      .set 1134 (.bin .add (.bin .add (.r 1132) (.cst 1 12 0x1ffffffe 0 0 0)) (.bin .sub (.bin
        .xor (.r 1133) (.lit 0xffffffffffffffff 0 0 0)) (.lit 0xffffffffffffffff 0 0 0))),
      .st 0 (28 + 16 * j) (.bin (.blend 0xF0) (.r 1134) (.ld 0 (28 + 16 * j))),
      .set 1135 (.un .shuf4E (.ld 2 13)),
      .set 1136 (.ld 2 13),
      .set 1137 (.bin .add (.bin .add (.r 1135) (.cst 1 13 0x1ffffffe 0 0 0)) (.bin .sub (.bin
        .xor (.r 1136) (.lit 0xffffffffffffffff 0 0 0)) (.lit 0xffffffffffffffff 0 0 0))),
      .st 0 (29 + 16 * j) (.bin (.blend 0xF0) (.r 1137) (.ld 0 (29 + 16 * j))),
      .set 1138 (.un .shuf4E (.ld 2 14)),
      .set 1139 (.ld 2 14),
      .set 1140 (.bin .add (.bin .add (.r 1138) (.cst 1 14 0x1ffffffe 0 0 0)) (.bin .sub (.bin
        .xor (.r 1139) (.lit 0xffffffffffffffff 0 0 0)) (.lit 0xffffffffffffffff 0 0 0))),
      .st 0 (30 + 16 * j) (.bin (.blend 0xF0) (.r 1140) (.ld 0 (30 + 16 * j))),
      .set 1141 (.un .shuf4E (.ld 2 15)),
      .set 1142 (.ld 2 15),
      .set 1143 (.bin .add (.bin .add (.r 1141) (.cst 1 15 0x1ffffffe 0 0 0)) (.bin .sub (.bin
        .xor (.r 1142) (.lit 0xffffffffffffffff 0 0 0)) (.lit 0xffffffffffffffff 0 0 0))),
      .st 0 (31 + 16 * j) (.bin (.blend 0xF0) (.r 1143) (.ld 0 (31 + 16 * j)))] : List Stmt)

/-- A part of an iteration of `precompute_4w`. -/
def precompute_4wS (j : ℕ) : List Stmt :=
      F448.V4.compress.at [.par 0 (16 + 16 * j)] (5 + 2 * j)

/-- An iteration of `precompute_4w`. -/
def precompute_4wL (j : ℕ) : List Stmt :=
  precompute_4wM j ++ precompute_4wI j ++ precompute_4wR j ++ precompute_4wS j

/-- src/edwards448.c:1102-1172 `precompute_points_4w_ed448`; parameters table = 0, P = 1, local
arrays = 2. -/
def precompute_4w : Fn := ⟨[128, 16, 64], [0, 1, 2],
    [32, 32, 32, 32, 32, 32, 32, 32, 32, 32, 32, 32, 32, 32, 32, 32, 32],
    F448.V4.copy.at [.par 2 0, .par 1 0] 2 ++
    doubling_4w.at [.par 1 0, .par 2 16] 2 ++
    F448.V4.intmul.at [.par 2 16, .par 1 0, .arr 0 [1, 1, 0xffeceab, 2, 0, 0, 0xffffffe, 0, 0,
      0, 0xfffffff, 0, 0, 0, 0xfffffff, 0, 0, 0, 0xfffffff, 0, 0, 0, 0xfffffff, 0, 0, 0,
      0xfffffff, 0, 0, 0, 0xfffffff, 0, 0, 0, 0xfffffff, 0, 0, 0, 0xfffffff, 0, 0, 0, 0xfffffff,
      0, 0, 0, 0xfffffff, 0, 0, 0, 0xfffffff, 0, 0, 0, 0xfffffff, 0, 0, 0, 0xfffffff, 0, 0, 0,
      0xfffffff, 0]] 3 ++
    precompute_4wA ++
    F448.V4.compress.at [.par 2 16] 3 ++
    F448.V4.intmul.at [.par 0 0, .par 2 0, .arr 0 [1, 1, 0xffeceab, 2, 0, 0, 0xffffffe, 0, 0,
      0, 0xfffffff, 0, 0, 0, 0xfffffff, 0, 0, 0, 0xfffffff, 0, 0, 0, 0xfffffff, 0, 0, 0,
      0xfffffff, 0, 0, 0, 0xfffffff, 0, 0, 0, 0xfffffff, 0, 0, 0, 0xfffffff, 0, 0, 0, 0xfffffff,
      0, 0, 0, 0xfffffff, 0, 0, 0, 0xfffffff, 0, 0, 0, 0xfffffff, 0, 0, 0, 0xfffffff, 0, 0, 0,
      0xfffffff, 0]] 3 ++
    precompute_4wB ++
    F448.V4.compress.at [.par 0 0] 3 ++
    (List.range 7).flatMap precompute_4wL⟩

end Verif.Vec.P448
