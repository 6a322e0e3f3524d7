import Verif.Vec.Inline
import Verif.Vec.Prog25519

/-!
# The point formulas of src/edwards255.c as programs

Translated by the script that translated the field functions: the local element arrays are
regions of one more parameter, the last one, which stands for the stack frame of the function;
a called function has its own frame above that of its caller.  Loops are unrolled, `PROCESSOR` is
`SKYLAKE`, and
the calls of field functions are replaced by their bodies. -/

namespace Verif.Vec.P25519

open Verif.Vec

/-- src/edwards255.c:128-156 `_4way_mixadd_25519`; parameters Q = 0, P = 1, local arrays = 2. -/
def mixadd_4way : Fn := ⟨[40, 30, 60], [0, 2],
    [],
    F25519.V4.addsub.at [.par 2 40, .par 2 50, .par 0 10, .par 0 0] 0 ++
    F25519.V4.intmul.at [.par 2 0, .par 2 50, .par 1 10] 0 ++
    F25519.V4.intmul.at [.par 2 10, .par 2 40, .par 1 0] 0 ++
    F25519.V4.intmul.at [.par 2 20, .par 1 20, .par 0 30] 0 ++
    F25519.V4.add.at [.par 2 30, .par 0 20, .par 0 20] 0 ++
    F25519.V4.compress2.at [.par 2 20, .par 2 30] 0 ++
    F25519.V4.addsublar.at [.par 2 10, .par 2 0] 0 ++
    F25519.V4.addsublar.at [.par 2 30, .par 2 20] 0 ++
    F25519.V4.compress2.at [.par 2 10, .par 2 0] 0 ++
    F25519.V4.compress2.at [.par 2 30, .par 2 20] 0 ++
    F25519.V4.intmul.at [.par 0 0, .par 2 0, .par 2 20] 0 ++
    F25519.V4.intmul.at [.par 0 30, .par 2 0, .par 2 10] 0 ++
    F25519.V4.intmul.at [.par 0 20, .par 2 30, .par 2 20] 0 ++
    F25519.V4.intmul.at [.par 0 10, .par 2 30, .par 2 10] 0 ++
    F25519.V4.compress2.at [.par 0 0, .par 0 30] 0 ++
    F25519.V4.compress2.at [.par 0 10, .par 0 20] 0⟩

/-- src/edwards255.c:257-297 `_2way_fulladd`; parameters Q = 0, P = 1, local arrays = 2. -/
def fulladd_2way : Fn := ⟨[20, 20, 20], [0, 1, 2],
    [32, 32, 32, 32, 32, 32, 32, 32, 32, 32, 32, 32, 32, 32, 32, 32, 32, 32, 32, 32, 32, 32,
      32, 32, 32, 32, 32, 32, 32, 32, 32, 32, 32, 32, 32, 32, 32, 32, 32, 32, 32, 32, 32, 32, 32,
      32, 32, 32, 32, 32, 32, 32, 32, 32, 32, 32, 32, 32, 32, 32, 32, 32, 32, 32, 32, 32, 32, 32,
      32, 32, 32, 32, 32, 32, 32, 32, 32, 32, 32, 32, 32, 32, 32, 32, 32, 32, 32, 32, 32, 32, 32,
      32, 32, 32, 32, 32, 32, 32, 32, 32, 32, 32, 32, 32, 32, 32, 32, 32, 32, 32],
    F25519.V2.add.at [.par 0 10, .par 0 10, .par 0 10] 1 ++
    F25519.V2.addsub.at [.par 0 5, .par 0 0] 1 ++
    F25519.V2.addsub.at [.par 1 5, .par 1 0] 2 ++
    F25519.V2.compressfast.at [.par 1 0] 3 ++
    F25519.V2.compressfast.at [.par 1 5] 9 ++
    F25519.V2.intmul.at [.par 2 0, .par 0 0, .par 1 0] 15 ++
    F25519.V2.compress.at [.par 2 0] 18 ++
    F25519.V2.intmul.at [.par 2 5, .par 0 5, .par 1 5] 24 ++
    F25519.V2.compress.at [.par 2 5] 27 ++
    F25519.V2.intmul.at [.par 2 10, .par 0 15, .par 1 15] 33 ++
    F25519.V2.compress.at [.par 2 10] 36 ++
    F25519.V2.intmul.at [.par 2 10, .par 2 10, .arr 0 [0x2b2f159, 0xf3d130, 0x2b2f159,
      0xf3d130, 0x1a6e509, 0x3407977, 0x1a6e509, 0x3407977, 0x22add7a, 0x19ce331, 0x22add7a,
      0x19ce331, 0xd4141d, 0x1c56dff, 0xd4141d, 0x1c56dff, 0x38052, 0x901b67, 0x38052, 0x901b67]]
      42 ++
    F25519.V2.compress.at [.par 2 10] 45 ++
    F25519.V2.intmul.at [.par 2 15, .par 0 10, .par 1 10] 51 ++
    F25519.V2.compress.at [.par 2 15] 54 ++
    F25519.V2.addsub.at [.par 2 5, .par 2 0] 60 ++
    F25519.V2.addsub.at [.par 2 15, .par 2 10] 61 ++
    F25519.V2.compressfast.at [.par 2 10] 62 ++
    F25519.V2.compressfast.at [.par 2 5] 68 ++
    F25519.V2.intmul.at [.par 0 0, .par 2 0, .par 2 10] 74 ++
    F25519.V2.intmul.at [.par 0 15, .par 2 0, .par 2 5] 77 ++
    F25519.V2.intmul.at [.par 0 10, .par 2 15, .par 2 10] 80 ++
    F25519.V2.intmul.at [.par 0 5, .par 2 15, .par 2 5] 83 ++
    F25519.V2.compress.at [.par 0 0] 86 ++
    F25519.V2.compress.at [.par 0 15] 92 ++
    F25519.V2.compress.at [.par 0 10] 98 ++
    F25519.V2.compress.at [.par 0 5] 104⟩

/-- src/edwards255.c:299-330 `_2way_doubling` with `compute_T` equal to 0; parameters P = 0, local
arrays = 1. -/
def doubling_2way0 : Fn := ⟨[20, 20], [0, 1],
    [32, 32, 32, 32, 32, 32, 32, 32, 32, 32, 32, 32, 32, 32, 32, 32, 32, 32, 32, 32, 32, 32,
      32, 32, 32, 32, 32, 32, 32, 32, 32, 32, 32, 32, 32, 32, 32, 32, 32, 32, 32, 32, 32, 32, 32,
      32, 32, 32, 32, 32, 32, 32, 32, 32, 32, 32, 32, 32, 32, 32, 32, 32, 32, 32, 32, 32, 32, 32,
      32, 32, 32, 32, 32, 32, 32, 32, 32, 32, 32, 32, 32, 32, 32, 32, 32, 32, 32, 32, 32, 32, 32,
      32, 32, 32, 32, 32, 32, 32, 32, 32, 32],
    F25519.V2.add.at [.par 0 15, .par 0 0, .par 0 5] 0 ++
    F25519.V2.compressfast.at [.par 0 15] 0 ++
    F25519.V2.sqr.at [.par 0 15] 6 ++
    F25519.V2.sqr.at [.par 0 0] 15 ++
    F25519.V2.sqr.at [.par 0 5] 24 ++
    F25519.V2.sqr.at [.par 0 10] 33 ++
    F25519.V2.add.at [.par 0 10, .par 0 10, .par 0 10] 42 ++
    F25519.V2.compressfast.at [.par 0 10] 42 ++
    F25519.V2.naddsub.at [.par 1 15, .par 1 10, .par 0 0, .par 0 5] 48 ++
    F25519.V2.compressfast.at [.par 1 15] 49 ++
    F25519.V2.compressfast.at [.par 1 10] 55 ++
    F25519.V2.add.at [.par 1 0, .par 0 15, .par 1 15] 61 ++
    F25519.V2.sub.at [.par 1 5, .par 1 10, .par 0 10] 61 ++
    F25519.V2.compressfast.at [.par 1 0] 62 ++
    F25519.V2.compressfast.at [.par 1 5] 68 ++
    F25519.V2.mul.at [.par 0 0, .par 1 0, .par 1 5] 74 ++
    F25519.V2.mul.at [.par 0 5, .par 1 10, .par 1 15] 83 ++
    F25519.V2.mul.at [.par 0 10, .par 1 5, .par 1 10] 92⟩

/-- src/edwards255.c:299-330 `_2way_doubling` with `compute_T` equal to 1; parameters P = 0, local
arrays = 1. -/
def doubling_2way1 : Fn := ⟨[20, 20], [0, 1],
    [32, 32, 32, 32, 32, 32, 32, 32, 32, 32, 32, 32, 32, 32, 32, 32, 32, 32, 32, 32, 32, 32,
      32, 32, 32, 32, 32, 32, 32, 32, 32, 32, 32, 32, 32, 32, 32, 32, 32, 32, 32, 32, 32, 32, 32,
      32, 32, 32, 32, 32, 32, 32, 32, 32, 32, 32, 32, 32, 32, 32, 32, 32, 32, 32, 32, 32, 32, 32,
      32, 32, 32, 32, 32, 32, 32, 32, 32, 32, 32, 32, 32, 32, 32, 32, 32, 32, 32, 32, 32, 32, 32,
      32, 32, 32, 32, 32, 32, 32, 32, 32, 32, 32, 32, 32, 32, 32, 32, 32, 32, 32],
    F25519.V2.add.at [.par 0 15, .par 0 0, .par 0 5] 0 ++
    F25519.V2.compressfast.at [.par 0 15] 0 ++
    F25519.V2.sqr.at [.par 0 15] 6 ++
    F25519.V2.sqr.at [.par 0 0] 15 ++
    F25519.V2.sqr.at [.par 0 5] 24 ++
    F25519.V2.sqr.at [.par 0 10] 33 ++
    F25519.V2.add.at [.par 0 10, .par 0 10, .par 0 10] 42 ++
    F25519.V2.compressfast.at [.par 0 10] 42 ++
    F25519.V2.naddsub.at [.par 1 15, .par 1 10, .par 0 0, .par 0 5] 48 ++
    F25519.V2.compressfast.at [.par 1 15] 49 ++
    F25519.V2.compressfast.at [.par 1 10] 55 ++
    F25519.V2.add.at [.par 1 0, .par 0 15, .par 1 15] 61 ++
    F25519.V2.sub.at [.par 1 5, .par 1 10, .par 0 10] 61 ++
    F25519.V2.compressfast.at [.par 1 0] 62 ++
    F25519.V2.compressfast.at [.par 1 5] 68 ++
    F25519.V2.mul.at [.par 0 0, .par 1 0, .par 1 5] 74 ++
    F25519.V2.mul.at [.par 0 5, .par 1 10, .par 1 15] 83 ++
    F25519.V2.mul.at [.par 0 10, .par 1 5, .par 1 10] 92 ++
    F25519.V2.mul.at [.par 0 15, .par 1 0, .par 1 15] 101⟩

/-- src/edwards255.c:345-383 `_1way_doubling_2w_H0H5`; parameters P = 0, local arrays = 1. -/
def doubling_2w : Fn := ⟨[10, 10], [0, 1],
    [32, 32, 32, 32, 32, 32, 32, 32, 32, 32, 32, 32, 32, 32, 32, 32, 32, 32, 32, 32, 32, 32],
    ([
    .st 1 0 (.un (.perm64 0xEE) (.ld 0 5)),
    .st 1 1 (.un (.perm64 0xEE) (.ld 0 6)),
    .st 1 2 (.un (.perm64 0xEE) (.ld 0 7)),
    .st 1 3 (.un (.perm64 0xEE) (.ld 0 8)),
    .st 1 4 (.un (.perm64 0xEE) (.ld 0 9))] : List Stmt) ++
    F25519.V2.intsqr.at [.par 0 0] 1 ++
    F25519.V2.intmul.at [.par 0 5, .par 0 5, .par 1 0] 4 ++
    F25519.V2.add.at [.par 0 5, .par 0 5, .par 0 5] 7 ++
    ([
    .set 1003 (.un (.perm64 0x4E) (.ld 0 0)),
    .set 1002 (.bin (.blend 0x0F) (.ld 0 0) (.lit 0 0 0 0)),
    .set 1001 (.bin (.blend 0xF0) (.ld 0 0) (.ld 0 5)),
    .set 1000 (.bin .sub (.r 1002) (.r 1003)),
    .st 1 0 (.bin (.blend 0x0F) (.r 1000) (.ld 0 5)),
    .st 1 5 (.bin .sub (.r 1000) (.r 1001)),
    .st 1 0 (.bin .add (.ld 1 0) (.cst 0 0 0x1fffff6800000000 0xffffff800000000
      0x1fffff6800000000 0xffffff800000000)),
    .st 1 5 (.bin .add (.ld 1 5) (.cst 0 0 0x1fffff6800000000 0xffffff800000000
      0x1fffff6800000000 0xffffff800000000)),
    .set 1007 (.un (.perm64 0x4E) (.ld 0 1)),
    .set 1006 (.bin (.blend 0x0F) (.ld 0 1) (.lit 0 0 0 0)),
    .set 1005 (.bin (.blend 0xF0) (.ld 0 1) (.ld 0 6)),
    .set 1004 (.bin .sub (.r 1006) (.r 1007)),
    .st 1 1 (.bin (.blend 0x0F) (.r 1004) (.ld 0 6)),
    .st 1 6 (.bin .sub (.r 1004) (.r 1005)),
    .st 1 1 (.bin .add (.ld 1 1) (.cst 0 1 0xffffff800000000 0x1ffffff800000000
      0xffffff800000000 0x1ffffff800000000)),
    .st 1 6 (.bin .add (.ld 1 6) (.cst 0 1 0xffffff800000000 0x1ffffff800000000
      0xffffff800000000 0x1ffffff800000000)),
    .set 1011 (.un (.perm64 0x4E) (.ld 0 2)),
    .set 1010 (.bin (.blend 0x0F) (.ld 0 2) (.lit 0 0 0 0)),
    .set 1009 (.bin (.blend 0xF0) (.ld 0 2) (.ld 0 7)),
    .set 1008 (.bin .sub (.r 1010) (.r 1011)),
    .st 1 2 (.bin (.blend 0x0F) (.r 1008) (.ld 0 7)),
    .st 1 7 (.bin .sub (.r 1008) (.r 1009)),
    .st 1 2 (.bin .add (.ld 1 2) (.cst 0 2 0x1ffffff800000000 0xffffff800000000
      0x1ffffff800000000 0xffffff800000000)),
    .st 1 7 (.bin .add (.ld 1 7) (.cst 0 2 0x1ffffff800000000 0xffffff800000000
      0x1ffffff800000000 0xffffff800000000)),
    .set 1015 (.un (.perm64 0x4E) (.ld 0 3)),
    .set 1014 (.bin (.blend 0x0F) (.ld 0 3) (.lit 0 0 0 0)),
    .set 1013 (.bin (.blend 0xF0) (.ld 0 3) (.ld 0 8)),
    .set 1012 (.bin .sub (.r 1014) (.r 1015)),
    .st 1 3 (.bin (.blend 0x0F) (.r 1012) (.ld 0 8)),
    .st 1 8 (.bin .sub (.r 1012) (.r 1013)),
    .st 1 3 (.bin .add (.ld 1 3) (.cst 0 3 0xffffff800000000 0x1ffffff800000000
      0xffffff800000000 0x1ffffff800000000)),
    .st 1 8 (.bin .add (.ld 1 8) (.cst 0 3 0xffffff800000000 0x1ffffff800000000
      0xffffff800000000 0x1ffffff800000000)),
    .set 1019 (.un (.perm64 0x4E) (.ld 0 4)),
    .set 1018 (.bin (.blend 0x0F) (.ld 0 4) (.lit 0 0 0 0)),
    .set 1017 (.bin (.blend 0xF0) (.ld 0 4) (.ld 0 9)),
    .set 1016 (.bin .sub (.r 1018) (.r 1019)),
    .st 1 4 (.bin (.blend 0x0F) (.r 1016) (.ld 0 9)),
    .st 1 9 (.bin .sub (.r 1016) (.r 1017)),
    .st 1 4 (.bin .add (.ld 1 4) (.cst 0 4 0x1ffffff800000000 0xffffff800000000
      0x1ffffff800000000 0xffffff800000000)),
    .st 1 9 (.bin .add (.ld 1 9) (.cst 0 4 0x1ffffff800000000 0xffffff800000000
      0x1ffffff800000000 0xffffff800000000))] : List Stmt) ++
    F25519.V2.compress2.at [.par 1 5, .par 1 0] 7 ++
    F25519.V2.intmul2.at [.par 0 5, .par 0 0, .par 1 5, .par 1 0] 13 ++
    F25519.V2.compress2.at [.par 0 0, .par 0 5] 16⟩

/-- src/edwards255.c:390-425 `_1way_mixadd_2w_H0H5`; parameters Q = 0, P = 1, local arrays = 2. -/
def mixadd_2w : Fn := ⟨[10, 10, 20], [0, 2],
    [32, 32, 32, 32, 32, 32, 32, 32, 32, 32, 32, 32, 32, 32, 32, 32, 32, 32, 32, 32, 32, 32, 32],
    F25519.V2.subadd0.at [.par 2 10, .par 0 0] 1 ++
    F25519.V2.intmul.at [.par 2 0, .par 2 10, .par 1 0] 2 ++
    F25519.V2.intmul.at [.par 2 5, .par 0 5, .par 1 5] 5 ++
    ([
    .set 1000 (.bin (.perm128 0x20) (.ld 2 0) (.ld 2 5)),
    .set 1001 (.bin (.perm128 0x31) (.ld 2 0) (.ld 2 5)),
    .st 2 10 (.bin .add (.r 1001) (.r 1000)),
    .st 2 15 (.bin .add (.bin .sub (.r 1001) (.r 1000)) (.cst 0 0 0x1fffff6800000000
      0xffffff800000000 0x1fffff6800000000 0xffffff800000000)),
    .set 1002 (.bin (.perm128 0x20) (.ld 2 1) (.ld 2 6)),
    .set 1003 (.bin (.perm128 0x31) (.ld 2 1) (.ld 2 6)),
    .st 2 11 (.bin .add (.r 1003) (.r 1002)),
    .st 2 16 (.bin .add (.bin .sub (.r 1003) (.r 1002)) (.cst 0 1 0xffffff800000000
      0x1ffffff800000000 0xffffff800000000 0x1ffffff800000000)),
    .set 1004 (.bin (.perm128 0x20) (.ld 2 2) (.ld 2 7)),
    .set 1005 (.bin (.perm128 0x31) (.ld 2 2) (.ld 2 7)),
    .st 2 12 (.bin .add (.r 1005) (.r 1004)),
    .st 2 17 (.bin .add (.bin .sub (.r 1005) (.r 1004)) (.cst 0 2 0x1ffffff800000000
      0xffffff800000000 0x1ffffff800000000 0xffffff800000000)),
    .set 1006 (.bin (.perm128 0x20) (.ld 2 3) (.ld 2 8)),
    .set 1007 (.bin (.perm128 0x31) (.ld 2 3) (.ld 2 8)),
    .st 2 13 (.bin .add (.r 1007) (.r 1006)),
    .st 2 18 (.bin .add (.bin .sub (.r 1007) (.r 1006)) (.cst 0 3 0xffffff800000000
      0x1ffffff800000000 0xffffff800000000 0x1ffffff800000000)),
    .set 1008 (.bin (.perm128 0x20) (.ld 2 4) (.ld 2 9)),
    .set 1009 (.bin (.perm128 0x31) (.ld 2 4) (.ld 2 9)),
    .st 2 14 (.bin .add (.r 1009) (.r 1008)),
    .st 2 19 (.bin .add (.bin .sub (.r 1009) (.r 1008)) (.cst 0 4 0x1ffffff800000000
      0xffffff800000000 0x1ffffff800000000 0xffffff800000000))] : List Stmt) ++
    F25519.V2.compress2.at [.par 2 10, .par 2 15] 8 ++
    F25519.V2.intmul2.at [.par 0 5, .par 0 0, .par 2 15, .par 2 10] 14 ++
    F25519.V2.compress2.at [.par 0 0, .par 0 5] 17⟩

/-- src/edwards255.c:432-482 `_1way_fulladd_2w_H0H5`; parameters Q = 0, P = 1, local arrays = 2.
-/
def fulladd_2w : Fn := ⟨[10, 10, 20], [0, 2],
    [8, 32, 32, 32, 32, 32, 32, 32, 32, 32, 32, 32, 32, 32, 32, 32, 32, 32, 32, 32, 32, 32, 32,
      32, 32, 32, 32, 32, 32, 32, 32, 32, 32, 32, 32, 32, 32, 32, 32, 32],
    F25519.V2.subadd0.at [.par 2 10, .par 0 0] 2 ++
    F25519.V2.subadd1.at [.par 2 15, .par 1 0] 3 ++
    F25519.V2.intmul.at [.par 2 0, .par 2 10, .par 2 15] 4 ++
    F25519.V2.intmul.at [.par 2 5, .par 0 5, .par 1 5] 7 ++
    F25519.V2.compress.at [.par 2 5] 10 ++
    F25519.V2.intmul.at [.par 2 5, .par 2 5, .arr 0 [0x2b2f159, 0xf3d130, 2, 0, 0x1a6e509,
      0x3407977, 0, 0, 0x22add7a, 0x19ce331, 0, 0, 0xd4141d, 0x1c56dff, 0, 0, 0x38052, 0x901b67,
      0, 0]] 16 ++
    F25519.V2.compressfast.at [.par 2 0] 19 ++
    ([
    .set 1000 (.bin (.perm128 0x20) (.ld 2 0) (.ld 2 5)),
    .set 1001 (.bin (.perm128 0x31) (.ld 2 0) (.ld 2 5)),
    .st 2 10 (.bin .add (.r 1001) (.r 1000)),
    .st 2 15 (.bin .add (.bin .sub (.r 1001) (.r 1000)) (.cst 1 0 0x1fffff6800000000
      0xffffff800000000 0x1fffff6800000000 0xffffff800000000)),
    .set 1002 (.bin (.perm128 0x20) (.ld 2 1) (.ld 2 6)),
    .set 1003 (.bin (.perm128 0x31) (.ld 2 1) (.ld 2 6)),
    .st 2 11 (.bin .add (.r 1003) (.r 1002)),
    .st 2 16 (.bin .add (.bin .sub (.r 1003) (.r 1002)) (.cst 1 1 0xffffff800000000
      0x1ffffff800000000 0xffffff800000000 0x1ffffff800000000)),
    .set 1004 (.bin (.perm128 0x20) (.ld 2 2) (.ld 2 7)),
    .set 1005 (.bin (.perm128 0x31) (.ld 2 2) (.ld 2 7)),
    .st 2 12 (.bin .add (.r 1005) (.r 1004)),
    .st 2 17 (.bin .add (.bin .sub (.r 1005) (.r 1004)) (.cst 1 2 0x1ffffff800000000
      0xffffff800000000 0x1ffffff800000000 0xffffff800000000)),
    .set 1006 (.bin (.perm128 0x20) (.ld 2 3) (.ld 2 8)),
    .set 1007 (.bin (.perm128 0x31) (.ld 2 3) (.ld 2 8)),
    .st 2 13 (.bin .add (.r 1007) (.r 1006)),
    .st 2 18 (.bin .add (.bin .sub (.r 1007) (.r 1006)) (.cst 1 3 0xffffff800000000
      0x1ffffff800000000 0xffffff800000000 0x1ffffff800000000)),
    .set 1008 (.bin (.perm128 0x20) (.ld 2 4) (.ld 2 9)),
    .set 1009 (.bin (.perm128 0x31) (.ld 2 4) (.ld 2 9)),
    .st 2 14 (.bin .add (.r 1009) (.r 1008)),
    .st 2 19 (.bin .add (.bin .sub (.r 1009) (.r 1008)) (.cst 1 4 0x1ffffff800000000
      0xffffff800000000 0x1ffffff800000000 0xffffff800000000))] : List Stmt) ++
    F25519.V2.compress2.at [.par 2 10, .par 2 15] 25 ++
    F25519.V2.intmul2.at [.par 0 5, .par 0 0, .par 2 15, .par 2 10] 31 ++
    F25519.V2.compress2.at [.par 0 0, .par 0 5] 34⟩

/-- A part of the body of `mixadd_4w`. -/
def mixadd_4wA : List Stmt :=
    ([
    .set 1000 (.un .shuf4E (.ld 0 0)),
    .set 1001 (.ld 0 0),
    .set 1002 (.bin .add (.bin .add (.r 1000) (.cst 0 0 0x7ffffda 0 0 0)) (.bin .sub (.bin .xor
      (.r 1001) (.lit 0xffffffffffffffff 0 0 0)) (.lit 0xffffffffffffffff 0 0 0))),
    .st 2 10 (.bin (.blend 0xF0) (.r 1002) (.ld 0 0)),
    .set 1003 (.un .shuf4E (.ld 0 1)),
    .set 1004 (.ld 0 1),
    .set 1005 (.bin .add (.bin .add (.r 1003) (.cst 0 1 0x3fffffe 0 0 0)) (.bin .sub (.bin .xor
      (.r 1004) (.lit 0xffffffffffffffff 0 0 0)) (.lit 0xffffffffffffffff 0 0 0))),
    .st 2 11 (.bin (.blend 0xF0) (.r 1005) (.ld 0 1)),
    .set 1006 (.un .shuf4E (.ld 0 2)),
    .set 1007 (.ld 0 2),
    .set 1008 (.bin .add (.bin .add (.r 1006) (.cst 0 2 0x3fffffe 0 0 0)) (.bin .sub (.bin .xor
      (.r 1007) (.lit 0xffffffffffffffff 0 0 0)) (.lit 0xffffffffffffffff 0 0 0))),
    .st 2 12 (.bin (.blend 0xF0) (.r 1008) (.ld 0 2)),
    .set 1009 (.un .shuf4E (.ld 0 3)),
    .set 1010 (.ld 0 3),
    .set 1011 (.bin .add (.bin .add (.r 1009) (.cst 0 3 0x7fffffe 0 0 0)) (.bin .sub (.bin .xor
      (.r 1010) (.lit 0xffffffffffffffff 0 0 0)) (.lit 0xffffffffffffffff 0 0 0))),
    .st 2 13 (.bin (.blend 0xF0) (.r 1011) (.ld 0 3)),
    .set 1012 (.un .shuf4E (.ld 0 4)),
    .set 1013 (.ld 0 4),
    .set 1014 (.bin .add (.bin .add (.r 1012) (.cst 0 4 0x7fffffe 0 0 0)) (.bin .sub (.bin .xor
      (.r 1013) (.lit 0xffffffffffffffff 0 0 0)) (.lit 0xffffffffffffffff 0 0 0))),
    .st 2 14 (.bin (.blend 0xF0) (.r 1014) (.ld 0 4)),
    .set 1015 (.un .shuf4E (.ld 0 5)),
    .set 1016 (.ld 0 5),
    .set 1017 (.bin .add (.bin .add (.r 1015) (.cst 0 5 0x3fffffe 0 0 0)) (.bin .sub (.bin .xor
      (.r 1016) (.lit 0xffffffffffffffff 0 0 0)) (.lit 0xffffffffffffffff 0 0 0))),
    .st 2 15 (.bin (.blend 0xF0) (.r 1017) (.ld 0 5)),
    .set 1018 (.un .shuf4E (.ld 0 6)),
    .set 1019 (.ld 0 6),
    .set 1020 (.bin .add (.bin .add (.r 1018) (.cst 0 6 0x3fffffe 0 0 0)) (.bin .sub (.bin .xor
      (.r 1019) (.lit 0xffffffffffffffff 0 0 0)) (.lit 0xffffffffffffffff 0 0 0))),
    .st 2 16 (.bin (.blend 0xF0) (.r 1020) (.ld 0 6)),
    .set 1021 (.un .shuf4E (.ld 0 7)),
    .set 1022 (.ld 0 7),
    .set 1023 (.bin .add (.bin .add (.r 1021) (.cst 0 7 0x7fffffe 0 0 0)) (.bin .sub (.bin .xor
      (.r 1022) (.lit 0xffffffffffffffff 0 0 0)) (.lit 0xffffffffffffffff 0 0 0))),
    .st 2 17 (.bin (.blend 0xF0) (.r 1023) (.ld 0 7)),
    .set 1024 (.un .shuf4E (.ld 0 8)),
    .set 1025 (.ld 0 8),
    .set 1026 (.bin .add (.bin .add (.r 1024) (.cst 0 8 0x7fffffe 0 0 0)) (.bin .sub (.bin .xor
      (.r 1025) (.lit 0xffffffffffffffff 0 0 0)) (.lit 0xffffffffffffffff 0 0 0))),
    .st 2 18 (.bin (.blend 0xF0) (.r 1026) (.ld 0 8)),
    .set 1027 (.un .shuf4E (.ld 0 9)),
    .set 1028 (.ld 0 9),
    .set 1029 (.bin .add (.bin .add (.r 1027) (.cst 0 9 0x3fffffe 0 0 0)) (.bin .sub (.bin .xor
      (.r 1028) (.lit 0xffffffffffffffff 0 0 0)) (.lit 0xffffffffffffffff 0 0 0))),
    .st 2 19 (.bin (.blend 0xF0) (.r 1029) (.ld 0 9))] : List Stmt)

/-- A part of the body of `mixadd_4w`. -/
def mixadd_4wB : List Stmt :=
    ([
    .set 1030 (.un (.perm64 0xDD) (.ld 2 0)),
    .set 1031 (.un (.perm64 0x88) (.ld 2 0)),
    .st 2 10 (.bin .add (.bin .add (.r 1030) (.cst 1 0 0xfffffb400000000 0xfffffb400000000
      0xfffffb400000000 0xfffffb400000000)) (.bin .sub (.bin .xor (.r 1031) (.lit
      0xffffffffffffffff 0 0 0xffffffffffffffff)) (.lit 0xffffffffffffffff 0 0
      0xffffffffffffffff))),
    .set 1032 (.un (.perm64 0xDD) (.ld 2 1)),
    .set 1033 (.un (.perm64 0x88) (.ld 2 1)),
    .st 2 11 (.bin .add (.bin .add (.r 1032) (.cst 1 1 0x7fffffc00000000 0x7fffffc00000000
      0x7fffffc00000000 0x7fffffc00000000)) (.bin .sub (.bin .xor (.r 1033) (.lit
      0xffffffffffffffff 0 0 0xffffffffffffffff)) (.lit 0xffffffffffffffff 0 0
      0xffffffffffffffff))),
    .set 1034 (.un (.perm64 0xDD) (.ld 2 2)),
    .set 1035 (.un (.perm64 0x88) (.ld 2 2)),
    .st 2 12 (.bin .add (.bin .add (.r 1034) (.cst 1 2 0x7fffffc00000000 0x7fffffc00000000
      0x7fffffc00000000 0x7fffffc00000000)) (.bin .sub (.bin .xor (.r 1035) (.lit
      0xffffffffffffffff 0 0 0xffffffffffffffff)) (.lit 0xffffffffffffffff 0 0
      0xffffffffffffffff))),
    .set 1036 (.un (.perm64 0xDD) (.ld 2 3)),
    .set 1037 (.un (.perm64 0x88) (.ld 2 3)),
    .st 2 13 (.bin .add (.bin .add (.r 1036) (.cst 1 3 0xffffffc00000000 0xffffffc00000000
      0xffffffc00000000 0xffffffc00000000)) (.bin .sub (.bin .xor (.r 1037) (.lit
      0xffffffffffffffff 0 0 0xffffffffffffffff)) (.lit 0xffffffffffffffff 0 0
      0xffffffffffffffff))),
    .set 1038 (.un (.perm64 0xDD) (.ld 2 4)),
    .set 1039 (.un (.perm64 0x88) (.ld 2 4)),
    .st 2 14 (.bin .add (.bin .add (.r 1038) (.cst 1 4 0xffffffc00000000 0xffffffc00000000
      0xffffffc00000000 0xffffffc00000000)) (.bin .sub (.bin .xor (.r 1039) (.lit
      0xffffffffffffffff 0 0 0xffffffffffffffff)) (.lit 0xffffffffffffffff 0 0
      0xffffffffffffffff))),
    .set 1040 (.un (.perm64 0xDD) (.ld 2 5)),
    .set 1041 (.un (.perm64 0x88) (.ld 2 5)),
    .st 2 15 (.bin .add (.bin .add (.r 1040) (.cst 1 5 0x7fffffc00000000 0x7fffffc00000000
      0x7fffffc00000000 0x7fffffc00000000)) (.bin .sub (.bin .xor (.r 1041) (.lit
      0xffffffffffffffff 0 0 0xffffffffffffffff)) (.lit 0xffffffffffffffff 0 0
      0xffffffffffffffff))),
    .set 1042 (.un (.perm64 0xDD) (.ld 2 6)),
    .set 1043 (.un (.perm64 0x88) (.ld 2 6)),
    .st 2 16 (.bin .add (.bin .add (.r 1042) (.cst 1 6 0x7fffffc00000000 0x7fffffc00000000
      0x7fffffc00000000 0x7fffffc00000000)) (.bin .sub (.bin .xor (.r 1043) (.lit
      0xffffffffffffffff 0 0 0xffffffffffffffff)) (.lit 0xffffffffffffffff 0 0
      0xffffffffffffffff))),
    .set 1044 (.un (.perm64 0xDD) (.ld 2 7)),
    .set 1045 (.un (.perm64 0x88) (.ld 2 7)),
    .st 2 17 (.bin .add (.bin .add (.r 1044) (.cst 1 7 0xffffffc00000000 0xffffffc00000000
      0xffffffc00000000 0xffffffc00000000)) (.bin .sub (.bin .xor (.r 1045) (.lit
      0xffffffffffffffff 0 0 0xffffffffffffffff)) (.lit 0xffffffffffffffff 0 0
      0xffffffffffffffff))),
    .set 1046 (.un (.perm64 0xDD) (.ld 2 8)),
    .set 1047 (.un (.perm64 0x88) (.ld 2 8)),
    .st 2 18 (.bin .add (.bin .add (.r 1046) (.cst 1 8 0xffffffc00000000 0xffffffc00000000
      0xffffffc00000000 0xffffffc00000000)) (.bin .sub (.bin .xor (.r 1047) (.lit
      0xffffffffffffffff 0 0 0xffffffffffffffff)) (.lit 0xffffffffffffffff 0 0
      0xffffffffffffffff))),
    .set 1048 (.un (.perm64 0xDD) (.ld 2 9)),
    .set 1049 (.un (.perm64 0x88) (.ld 2 9)),
    .st 2 19 (.bin .add (.bin .add (.r 1048) (.cst 1 9 0x7fffffc00000000 0x7fffffc00000000
      0x7fffffc00000000 0x7fffffc00000000)) (.bin .sub (.bin .xor (.r 1049) (.lit
      0xffffffffffffffff 0 0 0xffffffffffffffff)) (.lit 0xffffffffffffffff 0 0
      0xffffffffffffffff)))] : List Stmt)

/-- A part of the body of `mixadd_4w`. -/
def mixadd_4wC : List Stmt :=
    ([
    .st 2 0 (.un (.perm64 0x4B) (.ld 2 10)),
    .st 2 1 (.un (.perm64 0x4B) (.ld 2 11)),
    .st 2 2 (.un (.perm64 0x4B) (.ld 2 12)),
    .st 2 3 (.un (.perm64 0x4B) (.ld 2 13)),
    .st 2 4 (.un (.perm64 0x4B) (.ld 2 14)),
    .st 2 5 (.un (.perm64 0x4B) (.ld 2 15)),
    .st 2 6 (.un (.perm64 0x4B) (.ld 2 16)),
    .st 2 7 (.un (.perm64 0x4B) (.ld 2 17)),
    .st 2 8 (.un (.perm64 0x4B) (.ld 2 18)),
    .st 2 9 (.un (.perm64 0x4B) (.ld 2 19))] : List Stmt)

/-- src/edwards255.c:1218-1257 `_1way_mixadd_4w_H0H5`; parameters Q = 0, P = 1, local arrays = 2.
-/
def mixadd_4w : Fn := ⟨[10, 10, 20], [0, 2],
    [32, 32],
    mixadd_4wA ++
    F25519.V4.intmul.at [.par 2 0, .par 2 10, .par 1 0] 2 ++
    mixadd_4wB ++
    F25519.V4.compress.at [.par 2 10] 2 ++
    mixadd_4wC ++
    F25519.V4.intmul.at [.par 0 0, .par 2 10, .par 2 0] 2 ++
    F25519.V4.compress.at [.par 0 0] 2⟩

/-- A part of the body of `doubling_4w`. -/
def doubling_4wA : List Stmt :=
    ([
    .st 1 10 (.un (.perm64 0xF4) (.ld 0 0)),
    .st 1 11 (.un (.perm64 0xF4) (.ld 0 1)),
    .st 1 12 (.un (.perm64 0xF4) (.ld 0 2)),
    .st 1 13 (.un (.perm64 0xF4) (.ld 0 3)),
    .st 1 14 (.un (.perm64 0xF4) (.ld 0 4)),
    .st 1 15 (.un (.perm64 0xF4) (.ld 0 5)),
    .st 1 16 (.un (.perm64 0xF4) (.ld 0 6)),
    .st 1 17 (.un (.perm64 0xF4) (.ld 0 7)),
    .st 1 18 (.un (.perm64 0xF4) (.ld 0 8)),
    .st 1 19 (.un (.perm64 0xF4) (.ld 0 9))] : List Stmt)

/-- A part of the body of `doubling_4w`. -/
def doubling_4wB : List Stmt :=
    ([
    .set 1000 (.un (.perm64 0x67) (.ld 1 0)),
    .set 1001 (.bin (.blend 0xC0) (.un (.perm64 0xE3) (.ld 1 0)) (.lit 0 0 0 0)),
    .set 1002 (.bin (.blend 0xFC) (.ld 1 0) (.lit 0 0 0 0)),
    .set 1003 (.bin (.blend 0x3C) (.un (.perm64 0x25) (.ld 1 0)) (.lit 0 0 0 0)),
    .st 1 0 (.bin .add (.r 1000) (.bin .add (.r 1001) (.bin .add (.r 1002) (.bin .sub (.cst 0 0
      0xfffffb400000000 0xfffffb400000000 0xfffffb400000000 0xfffffb400000000) (.r 1003))))),
    .set 1004 (.un (.perm64 0x67) (.ld 1 1)),
    .set 1005 (.bin (.blend 0xC0) (.un (.perm64 0xE3) (.ld 1 1)) (.lit 0 0 0 0)),
    .set 1006 (.bin (.blend 0xFC) (.ld 1 1) (.lit 0 0 0 0)),
    .set 1007 (.bin (.blend 0x3C) (.un (.perm64 0x25) (.ld 1 1)) (.lit 0 0 0 0)),
    .st 1 1 (.bin .add (.r 1004) (.bin .add (.r 1005) (.bin .add (.r 1006) (.bin .sub (.cst 0 1
      0x7fffffc00000000 0x7fffffc00000000 0x7fffffc00000000 0x7fffffc00000000) (.r 1007))))),
    .set 1008 (.un (.perm64 0x67) (.ld 1 2)),
    .set 1009 (.bin (.blend 0xC0) (.un (.perm64 0xE3) (.ld 1 2)) (.lit 0 0 0 0)),
    .set 1010 (.bin (.blend 0xFC) (.ld 1 2) (.lit 0 0 0 0)),
    .set 1011 (.bin (.blend 0x3C) (.un (.perm64 0x25) (.ld 1 2)) (.lit 0 0 0 0)),
    .st 1 2 (.bin .add (.r 1008) (.bin .add (.r 1009) (.bin .add (.r 1010) (.bin .sub (.cst 0 2
      0x7fffffc00000000 0x7fffffc00000000 0x7fffffc00000000 0x7fffffc00000000) (.r 1011))))),
    .set 1012 (.un (.perm64 0x67) (.ld 1 3)),
    .set 1013 (.bin (.blend 0xC0) (.un (.perm64 0xE3) (.ld 1 3)) (.lit 0 0 0 0)),
    .set 1014 (.bin (.blend 0xFC) (.ld 1 3) (.lit 0 0 0 0)),
    .set 1015 (.bin (.blend 0x3C) (.un (.perm64 0x25) (.ld 1 3)) (.lit 0 0 0 0)),
    .st 1 3 (.bin .add (.r 1012) (.bin .add (.r 1013) (.bin .add (.r 1014) (.bin .sub (.cst 0 3
      0xffffffc00000000 0xffffffc00000000 0xffffffc00000000 0xffffffc00000000) (.r 1015))))),
    .set 1016 (.un (.perm64 0x67) (.ld 1 4)),
    .set 1017 (.bin (.blend 0xC0) (.un (.perm64 0xE3) (.ld 1 4)) (.lit 0 0 0 0)),
    .set 1018 (.bin (.blend 0xFC) (.ld 1 4) (.lit 0 0 0 0)),
    .set 1019 (.bin (.blend 0x3C) (.un (.perm64 0x25) (.ld 1 4)) (.lit 0 0 0 0)),
    .st 1 4 (.bin .add (.r 1016) (.bin .add (.r 1017) (.bin .add (.r 1018) (.bin .sub (.cst 0 4
      0xffffffc00000000 0xffffffc00000000 0xffffffc00000000 0xffffffc00000000) (.r 1019))))),
    .set 1020 (.un (.perm64 0x67) (.ld 1 5)),
    .set 1021 (.bin (.blend 0xC0) (.un (.perm64 0xE3) (.ld 1 5)) (.lit 0 0 0 0)),
    .set 1022 (.bin (.blend 0xFC) (.ld 1 5) (.lit 0 0 0 0)),
    .set 1023 (.bin (.blend 0x3C) (.un (.perm64 0x25) (.ld 1 5)) (.lit 0 0 0 0)),
    .st 1 5 (.bin .add (.r 1020) (.bin .add (.r 1021) (.bin .add (.r 1022) (.bin .sub (.cst 0 5
      0x7fffffc00000000 0x7fffffc00000000 0x7fffffc00000000 0x7fffffc00000000) (.r 1023))))),
    .set 1024 (.un (.perm64 0x67) (.ld 1 6)),
    .set 1025 (.bin (.blend 0xC0) (.un (.perm64 0xE3) (.ld 1 6)) (.lit 0 0 0 0)),
    .set 1026 (.bin (.blend 0xFC) (.ld 1 6) (.lit 0 0 0 0)),
    .set 1027 (.bin (.blend 0x3C) (.un (.perm64 0x25) (.ld 1 6)) (.lit 0 0 0 0)),
    .st 1 6 (.bin .add (.r 1024) (.bin .add (.r 1025) (.bin .add (.r 1026) (.bin .sub (.cst 0 6
      0x7fffffc00000000 0x7fffffc00000000 0x7fffffc00000000 0x7fffffc00000000) (.r 1027))))),
    .set 1028 (.un (.perm64 0x67) (.ld 1 7)),
    .set 1029 (.bin (.blend 0xC0) (.un (.perm64 0xE3) (.ld 1 7)) (.lit 0 0 0 0)),
    .set 1030 (.bin (.blend 0xFC) (.ld 1 7) (.lit 0 0 0 0)),
    .set 1031 (.bin (.blend 0x3C) (.un (.perm64 0x25) (.ld 1 7)) (.lit 0 0 0 0)),
    .st 1 7 (.bin .add (.r 1028) (.bin .add (.r 1029) (.bin .add (.r 1030) (.bin .sub (.cst 0 7
      0xffffffc00000000 0xffffffc00000000 0xffffffc00000000 0xffffffc00000000) (.r 1031))))),
    .set 1032 (.un (.perm64 0x67) (.ld 1 8)),
    .set 1033 (.bin (.blend 0xC0) (.un (.perm64 0xE3) (.ld 1 8)) (.lit 0 0 0 0)),
    .set 1034 (.bin (.blend 0xFC) (.ld 1 8) (.lit 0 0 0 0)),
    .set 1035 (.bin (.blend 0x3C) (.un (.perm64 0x25) (.ld 1 8)) (.lit 0 0 0 0)),
    .st 1 8 (.bin .add (.r 1032) (.bin .add (.r 1033) (.bin .add (.r 1034) (.bin .sub (.cst 0 8
      0xffffffc00000000 0xffffffc00000000 0xffffffc00000000 0xffffffc00000000) (.r 1035))))),
    .set 1036 (.un (.perm64 0x67) (.ld 1 9)),
    .set 1037 (.bin (.blend 0xC0) (.un (.perm64 0xE3) (.ld 1 9)) (.lit 0 0 0 0)),
    .set 1038 (.bin (.blend 0xFC) (.ld 1 9) (.lit 0 0 0 0)),
    .set 1039 (.bin (.blend 0x3C) (.un (.perm64 0x25) (.ld 1 9)) (.lit 0 0 0 0)),
    .st 1 9 (.bin .add (.r 1036) (.bin .add (.r 1037) (.bin .add (.r 1038) (.bin .sub (.cst 0 9
      0x7fffffc00000000 0x7fffffc00000000 0x7fffffc00000000 0x7fffffc00000000) (.r 1039)))))] :
      List Stmt)

/-- A part of the body of `doubling_4w`. -/
def doubling_4wC : List Stmt :=
    ([
    .st 1 10 (.un (.perm64 0x1E) (.ld 1 0)),
    .st 1 11 (.un (.perm64 0x1E) (.ld 1 1)),
    .st 1 12 (.un (.perm64 0x1E) (.ld 1 2)),
    .st 1 13 (.un (.perm64 0x1E) (.ld 1 3)),
    .st 1 14 (.un (.perm64 0x1E) (.ld 1 4)),
    .st 1 15 (.un (.perm64 0x1E) (.ld 1 5)),
    .st 1 16 (.un (.perm64 0x1E) (.ld 1 6)),
    .st 1 17 (.un (.perm64 0x1E) (.ld 1 7)),
    .st 1 18 (.un (.perm64 0x1E) (.ld 1 8)),
    .st 1 19 (.un (.perm64 0x1E) (.ld 1 9))] : List Stmt)

/-- src/edwards255.c:1265-1294 `_1way_doubling_4w_H0H5`; parameters P = 0, local arrays = 1. -/
def doubling_4w : Fn := ⟨[10, 20], [0, 1],
    [32],
    doubling_4wA ++
    F25519.V4.intmul.at [.par 1 0, .par 0 0, .par 1 10] 1 ++
    doubling_4wB ++
    F25519.V4.compress.at [.par 1 0] 1 ++
    doubling_4wC ++
    F25519.V4.intmul.at [.par 0 0, .par 1 10, .par 1 0] 1 ++
    F25519.V4.compress.at [.par 0 0] 1⟩

/-- src/edwards255.c:953-964 `unpack_2w_Element_4w_h0h5`; parameters pA = 0, pB = 1, A = 2. -/
def unpack_2w : Fn := ⟨[5, 5, 10], [0, 1],
    [],
    ([
    .st 0 0 (.bin .upkl (.ld 2 0) (.ld 2 1)),
    .st 1 0 (.bin .upkh (.ld 2 0) (.ld 2 1)),
    .st 0 1 (.bin .upkl (.ld 2 2) (.ld 2 3)),
    .st 1 1 (.bin .upkh (.ld 2 2) (.ld 2 3)),
    .st 0 2 (.bin .upkl (.ld 2 4) (.ld 2 5)),
    .st 1 2 (.bin .upkh (.ld 2 4) (.ld 2 5)),
    .st 0 3 (.bin .upkl (.ld 2 6) (.ld 2 7)),
    .st 1 3 (.bin .upkh (.ld 2 6) (.ld 2 7)),
    .st 0 4 (.bin .upkl (.ld 2 8) (.ld 2 9)),
    .st 1 4 (.bin .upkh (.ld 2 8) (.ld 2 9))] : List Stmt)⟩

/-- src/edwards255.c:1511-1519 `unzip_2w_Element_4w_h0h5`; parameters pA = 0, pB = 1, A = 2. -/
def unzip_2w : Fn := ⟨[5, 5, 10], [0, 1],
    [],
    ([
    .set 1000 (.bin .upkl (.ld 2 0) (.ld 2 1)),
    .set 1001 (.bin .upkh (.ld 2 0) (.ld 2 1)),
    .st 0 0 (.bin (.perm128 0x20) (.r 1000) (.r 1001)),
    .st 1 0 (.bin (.perm128 0x31) (.r 1000) (.r 1001)),
    .set 1002 (.bin .upkl (.ld 2 2) (.ld 2 3)),
    .set 1003 (.bin .upkh (.ld 2 2) (.ld 2 3)),
    .st 0 1 (.bin (.perm128 0x20) (.r 1002) (.r 1003)),
    .st 1 1 (.bin (.perm128 0x31) (.r 1002) (.r 1003)),
    .set 1004 (.bin .upkl (.ld 2 4) (.ld 2 5)),
    .set 1005 (.bin .upkh (.ld 2 4) (.ld 2 5)),
    .st 0 2 (.bin (.perm128 0x20) (.r 1004) (.r 1005)),
    .st 1 2 (.bin (.perm128 0x31) (.r 1004) (.r 1005)),
    .set 1006 (.bin .upkl (.ld 2 6) (.ld 2 7)),
    .set 1007 (.bin .upkh (.ld 2 6) (.ld 2 7)),
    .st 0 3 (.bin (.perm128 0x20) (.r 1006) (.r 1007)),
    .st 1 3 (.bin (.perm128 0x31) (.r 1006) (.r 1007)),
    .set 1008 (.bin .upkl (.ld 2 8) (.ld 2 9)),
    .set 1009 (.bin .upkh (.ld 2 8) (.ld 2 9)),
    .st 0 4 (.bin (.perm128 0x20) (.r 1008) (.r 1009)),
    .st 1 4 (.bin (.perm128 0x31) (.r 1008) (.r 1009))] : List Stmt)⟩

/-- A part of the body of `join_points`. -/
def join_pointsA : List Stmt :=
    unpack_2w.at [.par 2 0, .par 2 20, .par 1 0] 0 ++
    unpack_2w.at [.par 2 5, .par 2 25, .par 1 10] 0 ++
    unpack_2w.at [.par 2 10, .par 2 30, .par 1 20] 0 ++
    unpack_2w.at [.par 2 15, .par 2 35, .par 1 30] 0

/-- A part of the body of `join_points`. -/
def join_pointsB : List Stmt :=
    fulladd_2way.at [.par 2 0, .par 2 20, .par 2 50] 0

/-- A part of the body of `join_points`. -/
def join_pointsC : List Stmt :=
    ([
    .st 0 0 (.bin (.perm128 0x20) (.ld 2 0) (.ld 2 5)),
    .st 2 40 (.bin (.perm128 0x31) (.ld 2 0) (.ld 2 5)),
    .st 0 5 (.bin (.perm128 0x20) (.ld 2 15) (.ld 2 10)),
    .st 2 45 (.bin (.perm128 0x31) (.ld 2 15) (.ld 2 10)),
    .st 0 1 (.bin (.perm128 0x20) (.ld 2 1) (.ld 2 6)),
    .st 2 41 (.bin (.perm128 0x31) (.ld 2 1) (.ld 2 6)),
    .st 0 6 (.bin (.perm128 0x20) (.ld 2 16) (.ld 2 11)),
    .st 2 46 (.bin (.perm128 0x31) (.ld 2 16) (.ld 2 11)),
    .st 0 2 (.bin (.perm128 0x20) (.ld 2 2) (.ld 2 7)),
    .st 2 42 (.bin (.perm128 0x31) (.ld 2 2) (.ld 2 7)),
    .st 0 7 (.bin (.perm128 0x20) (.ld 2 17) (.ld 2 12)),
    .st 2 47 (.bin (.perm128 0x31) (.ld 2 17) (.ld 2 12)),
    .st 0 3 (.bin (.perm128 0x20) (.ld 2 3) (.ld 2 8)),
    .st 2 43 (.bin (.perm128 0x31) (.ld 2 3) (.ld 2 8)),
    .st 0 8 (.bin (.perm128 0x20) (.ld 2 18) (.ld 2 13)),
    .st 2 48 (.bin (.perm128 0x31) (.ld 2 18) (.ld 2 13)),
    .st 0 4 (.bin (.perm128 0x20) (.ld 2 4) (.ld 2 9)),
    .st 2 44 (.bin (.perm128 0x31) (.ld 2 4) (.ld 2 9)),
    .st 0 9 (.bin (.perm128 0x20) (.ld 2 19) (.ld 2 14)),
    .st 2 49 (.bin (.perm128 0x31) (.ld 2 19) (.ld 2 14))] : List Stmt)

/-- A part of the body of `join_points`. -/
def join_pointsD : List Stmt :=
    doubling_2w.at [.par 2 40, .par 2 50] 110 ++
    doubling_2w.at [.par 2 40, .par 2 50] 132 ++
    doubling_2w.at [.par 2 40, .par 2 50] 154 ++
    doubling_2w.at [.par 2 40, .par 2 50] 176

/-- A part of the body of `join_points`. -/
def join_pointsE : List Stmt :=
    fulladd_2w.at [.par 0 0, .par 2 40, .par 2 50] 198

/-- src/edwards255.c:978-1003 `join_points`; parameters T0 = 0, Q = 1, local arrays = 2. -/
def join_points : Fn := ⟨[10, 40, 70], [0, 2],
    [32, 32, 32, 32, 32, 32, 32, 32, 32, 32, 32, 32, 32, 32, 32, 32, 32, 32, 32, 32, 32, 32,
      32, 32, 32, 32, 32, 32, 32, 32, 32, 32, 32, 32, 32, 32, 32, 32, 32, 32, 32, 32, 32, 32, 32,
      32, 32, 32, 32, 32, 32, 32, 32, 32, 32, 32, 32, 32, 32, 32, 32, 32, 32, 32, 32, 32, 32, 32,
      32, 32, 32, 32, 32, 32, 32, 32, 32, 32, 32, 32, 32, 32, 32, 32, 32, 32, 32, 32, 32, 32, 32,
      32, 32, 32, 32, 32, 32, 32, 32, 32, 32, 32, 32, 32, 32, 32, 32, 32, 32, 32, 32, 32, 32, 32,
      32, 32, 32, 32, 32, 32, 32, 32, 32, 32, 32, 32, 32, 32, 32, 32, 32, 32, 32, 32, 32, 32, 32,
      32, 32, 32, 32, 32, 32, 32, 32, 32, 32, 32, 32, 32, 32, 32, 32, 32, 32, 32, 32, 32, 32, 32,
      32, 32, 32, 32, 32, 32, 32, 32, 32, 32, 32, 32, 32, 32, 32, 32, 32, 32, 32, 32, 32, 32, 32,
      32, 32, 32, 32, 32, 32, 32, 32, 32, 32, 32, 32, 32, 32, 32, 8, 32, 32, 32, 32, 32, 32, 32,
      32, 32, 32, 32, 32, 32, 32, 32, 32, 32, 32, 32, 32, 32, 32, 32, 32, 32, 32, 32, 32, 32, 32,
      32, 32, 32, 32, 32, 32, 32, 32, 32],
    join_pointsA ++
    join_pointsB ++
    join_pointsC ++
    join_pointsD ++
    join_pointsE⟩

/-- A part of the body of `precompute_4w`. -/
def precompute_4wA : List Stmt :=
    ([
    .set 1000 (.un .shuf4E (.ld 1 0)),
    .set 1001 (.ld 1 0),
    .set 1002 (.bin .add (.bin .add (.r 1000) (.cst 1 0 0x7ffffda 0 0 0)) (.bin .sub (.bin .xor
      (.r 1001) (.lit 0xffffffffffffffff 0 0 0)) (.lit 0xffffffffffffffff 0 0 0))),
    .st 2 10 (.bin (.blend 0xF0) (.r 1002) (.ld 2 10)),
    .set 1003 (.un .shuf4E (.ld 1 1)),
    .set 1004 (.ld 1 1),
    .set 1005 (.bin .add (.bin .add (.r 1003) (.cst 1 1 0x3fffffe 0 0 0)) (.bin .sub (.bin .xor
      (.r 1004) (.lit 0xffffffffffffffff 0 0 0)) (.lit 0xffffffffffffffff 0 0 0))),
    .st 2 11 (.bin (.blend 0xF0) (.r 1005) (.ld 2 11)),
    .set 1006 (.un .shuf4E (.ld 1 2)),
    .set 1007 (.ld 1 2),
    .set 1008 (.bin .add (.bin .add (.r 1006) (.cst 1 2 0x3fffffe 0 0 0)) (.bin .sub (.bin .xor
      (.r 1007) (.lit 0xffffffffffffffff 0 0 0)) (.lit 0xffffffffffffffff 0 0 0))),
    .st 2 12 (.bin (.blend 0xF0) (.r 1008) (.ld 2 12)),
    .set 1009 (.un .shuf4E (.ld 1 3)),
    .set 1010 (.ld 1 3),
    .set 1011 (.bin .add (.bin .add (.r 1009) (.cst 1 3 0x7fffffe 0 0 0)) (.bin .sub (.bin .xor
      (.r 1010) (.lit 0xffffffffffffffff 0 0 0)) (.lit 0xffffffffffffffff 0 0 0))),
    .st 2 13 (.bin (.blend 0xF0) (.r 1011) (.ld 2 13)),
    .set 1012 (.un .shuf4E (.ld 1 4)),
    .set 1013 (.ld 1 4),
    .set 1014 (.bin .add (.bin .add (.r 1012) (.cst 1 4 0x7fffffe 0 0 0)) (.bin .sub (.bin .xor
      (.r 1013) (.lit 0xffffffffffffffff 0 0 0)) (.lit 0xffffffffffffffff 0 0 0))),
    .st 2 14 (.bin (.blend 0xF0) (.r 1014) (.ld 2 14)),
    .set 1015 (.un .shuf4E (.ld 1 5)),
    .set 1016 (.ld 1 5),
    .set 1017 (.bin .add (.bin .add (.r 1015) (.cst 1 5 0x3fffffe 0 0 0)) (.bin .sub (.bin .xor
      (.r 1016) (.lit 0xffffffffffffffff 0 0 0)) (.lit 0xffffffffffffffff 0 0 0))),
    .st 2 15 (.bin (.blend 0xF0) (.r 1017) (.ld 2 15)),
    .set 1018 (.un .shuf4E (.ld 1 6)),
    .set 1019 (.ld 1 6),
    .set 1020 (.bin .add (.bin .add (.r 1018) (.cst 1 6 0x3fffffe 0 0 0)) (.bin .sub (.bin .xor
      (.r 1019) (.lit 0xffffffffffffffff 0 0 0)) (.lit 0xffffffffffffffff 0 0 0))),
    .st 2 16 (.bin (.blend 0xF0) (.r 1020) (.ld 2 16)),
    .set 1021 (.un .shuf4E (.ld 1 7)),
    .set 1022 (.ld 1 7),
    .set 1023 (.bin .add (.bin .add (.r 1021) (.cst 1 7 0x7fffffe 0 0 0)) (.bin .sub (.bin .xor
      (.r 1022) (.lit 0xffffffffffffffff 0 0 0)) (.lit 0xffffffffffffffff 0 0 0))),
    .st 2 17 (.bin (.blend 0xF0) (.r 1023) (.ld 2 17)),
    .set 1024 (.un .shuf4E (.ld 1 8)),
    .set 1025 (.ld 1 8),
    .set 1026 (.bin .add (.bin .add (.r 1024) (.cst 1 8 0x7fffffe 0 0 0)) (.bin .sub (.bin .xor
      (.r 1025) (.lit 0xffffffffffffffff 0 0 0)) (.lit 0xffffffffffffffff 0 0 0))),
    .st 2 18 (.bin (.blend 0xF0) (.r 1026) (.ld 2 18)),
    .set 1027 (.un .shuf4E (.ld 1 9)),
    .set 1028 (.ld 1 9),
    .set 1029 (.bin .add (.bin .add (.r 1027) (.cst 1 9 0x3fffffe 0 0 0)) (.bin .sub (.bin .xor
      (.r 1028) (.lit 0xffffffffffffffff 0 0 0)) (.lit 0xffffffffffffffff 0 0 0))),
    .st 2 19 (.bin (.blend 0xF0) (.r 1029) (.ld 2 19))] : List Stmt)

/-- A part of the body of `precompute_4w`. -/
def precompute_4wB : List Stmt :=
    ([
    .set 1030 (.un .shuf4E (.ld 2 0)),
    .set 1031 (.ld 2 0),
    .set 1032 (.bin .add (.bin .add (.r 1030) (.cst 1 0 0x7ffffda 0 0 0)) (.bin .sub (.bin .xor
      (.r 1031) (.lit 0xffffffffffffffff 0 0 0)) (.lit 0xffffffffffffffff 0 0 0))),
    .st 0 0 (.bin (.blend 0xF0) (.r 1032) (.ld 0 0)),
    .set 1033 (.un .shuf4E (.ld 2 1)),
    .set 1034 (.ld 2 1),
    .set 1035 (.bin .add (.bin .add (.r 1033) (.cst 1 1 0x3fffffe 0 0 0)) (.bin .sub (.bin .xor
      (.r 1034) (.lit 0xffffffffffffffff 0 0 0)) (.lit 0xffffffffffffffff 0 0 0))),
    .st 0 1 (.bin (.blend 0xF0) (.r 1035) (.ld 0 1)),
    .set 1036 (.un .shuf4E (.ld 2 2)),
    .set 1037 (.ld 2 2),
    .set 1038 (.bin .add (.bin .add (.r 1036) (.cst 1 2 0x3fffffe 0 0 0)) (.bin .sub (.bin .xor
      (.r 1037) (.lit 0xffffffffffffffff 0 0 0)) (.lit 0xffffffffffffffff 0 0 0))),
    .st 0 2 (.bin (.blend 0xF0) (.r 1038) (.ld 0 2)),
    .set 1039 (.un .shuf4E (.ld 2 3)),
    .set 1040 (.ld 2 3),
    .set 1041 (.bin .add (.bin .add (.r 1039) (.cst 1 3 0x7fffffe 0 0 0)) (.bin .sub (.bin .xor
      (.r 1040) (.lit 0xffffffffffffffff 0 0 0)) (.lit 0xffffffffffffffff 0 0 0))),
    .st 0 3 (.bin (.blend 0xF0) (.r 1041) (.ld 0 3)),
    .set 1042 (.un .shuf4E (.ld 2 4)),
    .set 1043 (.ld 2 4),
    .set 1044 (.bin .add (.bin .add (.r 1042) (.cst 1 4 0x7fffffe 0 0 0)) (.bin .sub (.bin .xor
      (.r 1043) (.lit 0xffffffffffffffff 0 0 0)) (.lit 0xffffffffffffffff 0 0 0))),
    .st 0 4 (.bin (.blend 0xF0) (.r 1044) (.ld 0 4)),
    .set 1045 (.un .shuf4E (.ld 2 5)),
    .set 1046 (.ld 2 5),
    .set 1047 (.bin .add (.bin .add (.r 1045) (.cst 1 5 0x3fffffe 0 0 0)) (.bin .sub (.bin .xor
      (.r 1046) (.lit 0xffffffffffffffff 0 0 0)) (.lit 0xffffffffffffffff 0 0 0))),
    .st 0 5 (.bin (.blend 0xF0) (.r 1047) (.ld 0 5)),
    .set 1048 (.un .shuf4E (.ld 2 6)),
    .set 1049 (.ld 2 6),
    .set 1050 (.bin .add (.bin .add (.r 1048) (.cst 1 6 0x3fffffe 0 0 0)) (.bin .sub (.bin .xor
      (.r 1049) (.lit 0xffffffffffffffff 0 0 0)) (.lit 0xffffffffffffffff 0 0 0))),
    .st 0 6 (.bin (.blend 0xF0) (.r 1050) (.ld 0 6)),
    .set 1051 (.un .shuf4E (.ld 2 7)),
    .set 1052 (.ld 2 7),
    .set 1053 (.bin .add (.bin .add (.r 1051) (.cst 1 7 0x7fffffe 0 0 0)) (.bin .sub (.bin .xor
      (.r 1052) (.lit 0xffffffffffffffff 0 0 0)) (.lit 0xffffffffffffffff 0 0 0))),
    .st 0 7 (.bin (.blend 0xF0) (.r 1053) (.ld 0 7)),
    .set 1054 (.un .shuf4E (.ld 2 8)),
    .set 1055 (.ld 2 8),
    .set 1056 (.bin .add (.bin .add (.r 1054) (.cst 1 8 0x7fffffe 0 0 0)) (.bin .sub (.bin .xor
      (.r 1055) (.lit 0xffffffffffffffff 0 0 0)) (.lit 0xffffffffffffffff 0 0 0))),
    .st 0 8 (.bin (.blend 0xF0) (.r 1056) (.ld 0 8)),
    .set 1057 (.un .shuf4E (.ld 2 9)),
    .set 1058 (.ld 2 9),
    .set 1059 (.bin .add (.bin .add (.r 1057) (.cst 1 9 0x3fffffe 0 0 0)) (.bin .sub (.bin .xor
      (.r 1058) (.lit 0xffffffffffffffff 0 0 0)) (.lit 0xffffffffffffffff 0 0 0))),
    .st 0 9 (.bin (.blend 0xF0) (.r 1059) (.ld 0 9))] : List Stmt)

/-- A part of an iteration of `precompute_4w`. -/
def precompute_4wM (j : ℕ) : List Stmt :=
      mixadd_4w.at [.par 2 0, .par 2 10, .par 2 20] (3 + 2 * j)

/-- A part of an iteration of `precompute_4w`. -/
def precompute_4wI (j : ℕ) : List Stmt :=
      F25519.V4.intmul.at [.par 0 (10 + 10 * j), .par 2 0, .arr 0 [1, 1, 0x2b2f159, 2, 0, 0,
        0xf3d130, 0, 0, 0, 0x1a6e509, 0, 0, 0, 0x3407977, 0, 0, 0, 0x22add7a, 0, 0, 0, 0x19ce331,
        0, 0, 0, 0xd4141d, 0, 0, 0, 0x1c56dff, 0, 0, 0, 0x38052, 0, 0, 0, 0x901b67, 0]] (5 + 2 *
        j)

/-- A part of an iteration of `precompute_4w`. -/
def precompute_4wR (j : ℕ) : List Stmt :=
      ([
      .set 1060 (.un .shuf4E (.ld 2 0)),
      .set 1061 (.ld 2 0),
      .set 1062 (.bin .add (.bin .add (.r 1060) (.cst 1 0 0x7ffffda 0 0 0)) (.bin .sub (.bin
        .xor (.r 1061) (.lit 0xffffffffffffffff 0 0 0)) (.lit 0xffffffffffffffff 0 0 0))),
      .st 0 (10 + 10 * j) (.bin (.blend 0xF0) (.r 1062) (.ld 0 (10 + 10 * j))),
      .set 1063 (.un .shuf4E (.ld 2 1)),
      .set 1064 (.ld 2 1),
      .set 1065 (.bin .add (.bin .add (.r 1063) (.cst 1 1 0x3fffffe 0 0 0)) (.bin .sub (.bin
        .xor (.r 1064) (.lit 0xffffffffffffffff 0 0 0)) (.lit 0xffffffffffffffff 0 0 0))),
      .st 0 (11 + 10 * j) (.bin (.blend 0xF0) (.r 1065) (.ld 0 (11 + 10 * j))),
      .set 1066 (.un .shuf4E (.ld 2 2)),
      .set 1067 (.ld 2 2),
      .set 1068 (.bin .add (.bin .add (.r 1066) (.cst 1 2 0x3fffffe 0 0 0)) (.bin .sub (.bin
        .xor (.r 1067) (.lit 0xffffffffffffffff 0 0 0)) (.lit 0xffffffffffffffff 0 0 0))),
      .st 0 (12 + 10 * j) (.bin (.blend 0xF0) (.r 1068) (.ld 0 (12 + 10 * j))),
      .set 1069 (.un .shuf4E (.ld 2 3)),
      .set 1070 (.ld 2 3),
      .set 1071 (.bin .add (.bin .add (.r 1069) (.cst 1 3 0x7fffffe 0 0 0)) (.bin .sub (.bin
        .xor (.r 1070) (.lit 0xffffffffffffffff 0 0 0)) (.lit 0xffffffffffffffff 0 0 0))),
      .st 0 (13 + 10 * j) (.bin (.blend 0xF0) (.r 1071) (.ld 0 (13 + 10 * j))),
      .set 1072 (.un .shuf4E (.ld 2 4)),
      .set 1073 (.ld 2 4),
      .set 1074 (.bin .add (.bin .add (.r 1072) (.cst 1 4 0x7fffffe 0 0 0)) (.bin .sub (.bin
        .xor (.r 1073) (.lit 0xffffffffffffffff 0 0 0)) (.lit 0xffffffffffffffff 0 0 0))),
      .st 0 (14 + 10 * j) (.bin (.blend 0xF0) (.r 1074) (.ld 0 (14 + 10 * j))),
      .set 1075 (.un .shuf4E (.ld 2 5)),
      .set 1076 (.ld 2 5),
      .set 1077 (.bin .add (.bin .add (.r 1075) (.cst 1 5 0x3fffffe 0 0 0)) (.bin .sub (.bin
        .xor (.r 1076) (.lit 0xffffffffffffffff 0 0 0)) (.lit 0xffffffffffffffff 0 0 0))),
      .st 0 (15 + 10 * j) (.bin (.blend 0xF0) (.r 1077) (.ld 0 (15 + 10 * j))),
      .set 1078 (.un .shuf4E (.ld 2 6)),
      .set 1079 (.ld 2 6),
      .set 1080 (.bin .add (.bin .add (.r 1078) (.cst 1 6 0x3fffffe 0 0 0)) (.bin .sub (.bin
        .xor (.r 1079) (.lit 0xffffffffffffffff 0 0 0)) (.lit 0xffffffffffffffff 0 0 0))),
      .st 0 (16 + 10 * j) (.bin (.blend 0xF0) (.r 1080) (.ld 0 (16 + 10 * j))),
      .set 1081 (.un .shuf4E (.ld 2 7)),
      .set 1082 (.ld 2 7),
      .set 1083 (.bin .add (.bin .add (.r 1081) (.cst 1 7 0x7fffffe 0 0 0)) (.bin .sub (.bin
        .xor (.r 1082) (.lit 0xffffffffffffffff 0 0 0)) (.lit 0xffffffffffffffff 0 0 0))),
      .st 0 (17 + 10 * j) (.bin (.blend 0xF0) (.r 1083) (.ld 0 (17 + 10 * j))),
      .set 1084 (.un .shuf4E (.ld 2 8)),
      .set 1085 (.ld 2 8),
      .set 1086 (.bin .add (.bin .add (.r 1084) (.cst 1 8 0x7fffffe 0 0 0)) (.bin .sub (.bin
        .xor (.r 1085) (.lit 0xffffffffffffffff 0 0 0)) (.lit 0xffffffffffffffff 0 0 0))),
      .st 0 (18 + 10 * j) (.bin (.blend 0xF0) (.r 1086) (.ld 0 (18 + 10 * j))),
      .set 1087 (.un .shuf4E (.ld 2 9)),
      .set 1088 (.ld 2 9),
      .set 1089 (.bin .add (.bin .add (.r 1087) (.cst 1 9 0x3fffffe 0 0 0)) (.bin .sub (.bin
        .xor (.r 1088) (.lit 0xffffffffffffffff 0 0 0)) (.lit 0xffffffffffffffff 0 0 0))),
      .st 0 (19 + 10 * j) (.bin (.blend 0xF0) (.r 1089) (.ld 0 (19 + 10 * j)))] : List Stmt)

/-- A part of an iteration of `precompute_4w`. -/
def precompute_4wS (j : ℕ) : List Stmt :=
      F25519.V4.compress.at [.par 0 (10 + 10 * j)] (5 + 2 * j)

/-- An iteration of `precompute_4w`. -/
def precompute_4wL (j : ℕ) : List Stmt :=
  precompute_4wM j ++ precompute_4wI j ++ precompute_4wR j ++ precompute_4wS j

/-- src/edwards255.c:1427-1484 `precompute_points_4w_ed25519`; parameters table = 0, P = 1, local
arrays = 2. -/
def precompute_4w : Fn := ⟨[80, 10, 40], [0, 1, 2],
    [32, 32, 32, 32, 32, 32, 32, 32, 32, 32, 32, 32, 32, 32, 32, 32, 32],
    F25519.V4.copy.at [.par 2 0, .par 1 0] 2 ++
    doubling_4w.at [.par 1 0, .par 2 10] 2 ++
    F25519.V4.intmul.at [.par 2 10, .par 1 0, .arr 0 [1, 1, 0x2b2f159, 2, 0, 0, 0xf3d130, 0, 0,
      0, 0x1a6e509, 0, 0, 0, 0x3407977, 0, 0, 0, 0x22add7a, 0, 0, 0, 0x19ce331, 0, 0, 0,
      0xd4141d, 0, 0, 0, 0x1c56dff, 0, 0, 0, 0x38052, 0, 0, 0, 0x901b67, 0]] 3 ++
    precompute_4wA ++
    F25519.V4.compress.at [.par 2 10] 3 ++
    F25519.V4.intmul.at [.par 0 0, .par 2 0, .arr 0 [1, 1, 0x2b2f159, 2, 0, 0, 0xf3d130, 0, 0,
      0, 0x1a6e509, 0, 0, 0, 0x3407977, 0, 0, 0, 0x22add7a, 0, 0, 0, 0x19ce331, 0, 0, 0,
      0xd4141d, 0, 0, 0, 0x1c56dff, 0, 0, 0, 0x38052, 0, 0, 0, 0x901b67, 0]] 3 ++
    precompute_4wB ++
    F25519.V4.compress.at [.par 0 0] 3 ++
    (List.range 7).flatMap precompute_4wL⟩

end Verif.Vec.P25519
