import Verif.Vec.Inline
import Verif.Vec.Prog25519
import Verif.Vec.Prog448

/-!
# The main loops of the vector ladders on memory

`step_ladder_x25519` and `step_ladder_x448` with the conditional swap that the build selects
(`SWAP_METHOD` is `PERMUTATION`), with the bodies of the field functions that they call.  The
loops over the limbs and over the bits of the key are unrolled; their bounds do not depend on
data.  The integer variables `bit`, `swap` and `prev` and the vectors `maskbit0` and `maskbit1`
are the registers 1000, …, 1004. -/

namespace Verif.Vec

/-- src/ladder255.c:148-150 and src/ladder448.c:142-144:
`bit = (key[i] >> j) & 1; swap = bit ^ prev; prev = bit`. -/
def bitStmts (i j : ℕ) : List Stmt := [
  .set 1000 (.bin .and (.un (.shr j) (.un (.word (i % 4)) (.ld 0 (i / 4)))) (.lit 1 1 1 1)),
  .set 1001 (.bin .xor (.r 1000) (.r 1002)),
  .set 1002 (.r 1000)]

/-- src/ladder255.c:170-173 and src/ladder448.c:165-168: `maskbit0` and `maskbit1`. -/
def maskStmts : List Stmt := [
  .set 1003 (.bin .xor
    (.lit 0x0000000100000000 0x0000000300000002 0x0000000500000004 0x0000000700000006)
    (.un (.set1 2) (.r 1001))),
  .set 1004 (.un (.perm64 0x4E) (.r 1003))]

/-- The bodies of the two inner `while` loops, one bit of the key after the other:
`for j = n-1, …, 0`. -/
def innerStmts (step : ℕ → ℕ → List Stmt) (i : ℕ) : ℕ → List Stmt
  | 0 => []
  | j + 1 => step i j ++ innerStmts step i j

namespace L25519

/-- src/ladder255.c:156-158: `Z2Z3[s] = PERM64(Z2Z3[s], 0x4E)`. -/
def permZ : List Stmt := (List.range 5).map fun s => .st 2 s (.un (.perm64 0x4E) (.ld 2 s))

/-- src/ladder255.c:164-166: `t1[s] = PERM64(t0[s], 0x4E)`. -/
def permT : List Stmt := (List.range 5).map fun s =>
  .st 3 (10 + s) (.un (.perm64 0x4E) (.ld 3 (5 + s)))

/-- src/ladder255.c:174-177: the conditional swap. -/
def swapXZ : List Stmt := (List.range 5).flatMap fun s => [
  .st 1 s (.bin .permv (.ld 1 s) (.r 1003)),
  .st 2 s (.bin .permv (.ld 2 s) (.r 1004))]

/-- src/ladder255.c:202-205. -/
def blends : List Stmt := (List.range 5).flatMap fun s => [
  .st 3 (5 + s) (.bin (.blend 0xF0) (.ld 1 s) (.ld 3 (5 + s))),
  .st 3 (10 + s) (.bin (.blend 0xF0) (.ld 2 s) (.ld 3 (10 + s)))]

/-- src/ladder255.c:215-218. -/
def setT2 : List Stmt :=
  ((List.range 5).map fun s => .st 3 (15 + s) (.bin (.blend 0xF0) (.ld 3 (5 + s)) (.lit 0 0 0 0)))
  ++ ([.st 3 15 (.bin .or (.ld 3 15) (.lit 0 0 1 0))] : List Stmt)

/-- src/ladder255.c:119-125 `CONST_2P_2P_Element_2w_Fp25519`, one row. -/
def twoP (s : ℕ) : Ex :=
  match s with
  | 0 => .cst 0 0 0x7ffffda 0x3fffffe 0x7ffffda 0x3fffffe
  | 1 => .cst 0 1 0x3fffffe 0x7fffffe 0x3fffffe 0x7fffffe
  | 2 => .cst 0 2 0x7fffffe 0x3fffffe 0x7fffffe 0x3fffffe
  | 3 => .cst 0 3 0x3fffffe 0x7fffffe 0x3fffffe 0x7fffffe
  | _ => .cst 0 4 0x7fffffe 0x3fffffe 0x7fffffe 0x3fffffe

/-- src/ladder255.c:230-235. -/
def setT12 : List Stmt := (List.range 5).flatMap fun s => [
  .st 3 (15 + s) (.bin .add (.ld 3 (5 + s)) (.bin .sub (twoP s) (.ld 3 (10 + s)))),
  .st 3 (10 + s) (.bin .add (.bin .mul (.ld 3 (15 + s)) (.lit 121665 121665 121665 121665))
    (.ld 3 (5 + s))),
  .st 3 (15 + s) (.bin (.blend 0xF0) (.ld 3 (15 + s)) (.ld 3 (5 + s))),
  .st 3 (10 + s) (.bin (.blend 0xF0) (.ld 3 (10 + s)) (.ld 3 s))]

/-- src/ladder255.c:154-242 (in `step_ladder_x25519`): the body of the main loop after
the choice of `swap`.  The parameters are `key` = 0, `X2X3` = 1, `Z2Z3` = 2 and the local
array `buffer` = 3, with `X1`, `t0`, `t1`, `t2` at its cells 0, 5, 10, 15. -/
def body : List Stmt :=
  F25519.V2.addsub.at [.par 1 0, .par 2 0] 1 ++
  permZ ++
  F25519.V2.intmul.at [.par 3 5, .par 1 0, .par 2 0] 2 ++
  F25519.V2.compress.at [.par 3 5] 5 ++
  permT ++
  maskStmts ++
  swapXZ ++
  F25519.V2.addsub.at [.par 3 10, .par 3 5] 11 ++
  blends ++
  F25519.V2.intsqr.at [.par 3 5] 12 ++
  F25519.V2.intsqr.at [.par 3 10] 15 ++
  F25519.V2.compress2.at [.par 3 5, .par 3 10] 18 ++
  setT2 ++
  F25519.V2.intmul.at [.par 1 0, .par 3 15, .par 3 10] 24 ++
  F25519.V2.compress.at [.par 1 0] 27 ++
  setT12 ++
  F25519.V2.compressfast.at [.par 3 10] 33 ++
  F25519.V2.intmul.at [.par 2 0, .par 3 15, .par 3 10] 39 ++
  F25519.V2.compress.at [.par 2 0] 42

/-- src/ladder255.c:148-242 (in `step_ladder_x25519`): the body of the main loop for the bit `j`
of the word `i` of the key. -/
def step (i j : ℕ) : List Stmt := bitStmts i j ++ body

/-- src/ladder255.c:132,143 (in `step_ladder_x25519`): `prev = 0` and the copy of `X2X3` to `X1`. -/
def start : List Stmt :=
  ([.set 1002 (.lit 0 0 0 0)] : List Stmt) ++ F25519.V2.copy.at [.par 3 0, .par 1 0] 0

/-- src/ladder255.c:127-247 `step_ladder_x25519`: the start and the loop
over the 255 low bits of the key from the top. -/
def ladder : Fn := ⟨[1, 5, 5, 20], [1, 2, 3], List.replicate 48 32,
  start ++
  innerStmts step 3 63 ++
  innerStmts step 2 64 ++
  innerStmts step 1 64 ++
  innerStmts step 0 64⟩

end L25519

namespace L448

/-- src/ladder448.c:150-152: `Z2Z3[s] = PERM64(Z2Z3[s], 0x4E)`. -/
def permZ : List Stmt := (List.range 8).map fun s => .st 2 s (.un (.perm64 0x4E) (.ld 2 s))

/-- src/ladder448.c:158-160: `t1[s] = PERM64(t0[s], 0x4E)`. -/
def permT : List Stmt := (List.range 8).map fun s =>
  .st 3 (16 + s) (.un (.perm64 0x4E) (.ld 3 (8 + s)))

/-- src/ladder448.c:169-172: the conditional swap. -/
def swapXZ : List Stmt := (List.range 8).flatMap fun s => [
  .st 1 s (.bin .permv (.ld 1 s) (.r 1003)),
  .st 2 s (.bin .permv (.ld 2 s) (.r 1004))]

/-- src/ladder448.c:197-200. -/
def blends : List Stmt := (List.range 8).flatMap fun s => [
  .st 3 (8 + s) (.bin (.blend 0xF0) (.ld 1 s) (.ld 3 (8 + s))),
  .st 3 (16 + s) (.bin (.blend 0xF0) (.ld 2 s) (.ld 3 (16 + s)))]

/-- src/ladder448.c:213-217. -/
def setT2 : List Stmt :=
  ((List.range 8).map fun s => .st 3 (24 + s) (.bin (.blend 0xF0) (.ld 3 (8 + s)) (.lit 0 0 0 0)))
  ++ ([.st 3 24 (.bin .or (.ld 3 24) (.lit 0 0 1 0))] : List Stmt)

/-- src/eltfp448_2w_redradix.c:95-104 `CONST_2P_2P_H0H8`, one row. -/
def twoP (s : ℕ) : Ex :=
  match s with
  | 0 => .cst 0 0 0x1ffffffe 0x3ffffffc 0x1ffffffe 0x3ffffffc
  | 1 => .cst 0 1 0x1ffffffe 0x1ffffffc 0x1ffffffe 0x1ffffffc
  | s => .cst 0 s 0x1ffffffe 0x1ffffffe 0x1ffffffe 0x1ffffffe

/-- src/ladder448.c:228-233. -/
def setT12 : List Stmt := (List.range 8).flatMap fun s => [
  .st 3 (24 + s) (.bin .add (.ld 3 (8 + s)) (.bin .sub (twoP s) (.ld 3 (16 + s)))),
  .st 3 (16 + s) (.bin .add (.bin .mul (.ld 3 (24 + s)) (.lit 39081 39081 39081 39081))
    (.ld 3 (8 + s))),
  .st 3 (24 + s) (.bin (.blend 0xF0) (.ld 3 (24 + s)) (.ld 3 (8 + s))),
  .st 3 (16 + s) (.bin (.blend 0xF0) (.ld 3 (16 + s)) (.ld 3 s))]

/-- src/ladder448.c:148-240 (in `step_ladder_x448`): the body of the main loop after
the choice of `swap`.  The parameters are `key` = 0, `X2X3` = 1, `Z2Z3` = 2 and the local
array `buffer` = 3, with `X1`, `t0`, `t1`, `t2` at its cells 0, 8, 16, 24. -/
def body : List Stmt :=
  F448.V2.addsub.at [.par 1 0, .par 2 0] 1 ++
  permZ ++
  F448.V2.intmul.at [.par 3 8, .par 1 0, .par 2 0] 2 ++
  F448.V2.compress.at [.par 3 8] 2 ++
  permT ++
  maskStmts ++
  swapXZ ++
  F448.V2.addsub.at [.par 3 16, .par 3 8] 2 ++
  blends ++
  F448.V2.compressfast.at [.par 3 8] 3 ++
  F448.V2.compressfast.at [.par 3 16] 3 ++
  F448.V2.intsqr.at [.par 3 8] 3 ++
  F448.V2.intsqr.at [.par 3 16] 3 ++
  F448.V2.compress2.at [.par 3 8, .par 3 16] 3 ++
  setT2 ++
  F448.V2.intmul.at [.par 1 0, .par 3 24, .par 3 16] 3 ++
  F448.V2.compress.at [.par 1 0] 3 ++
  setT12 ++
  F448.V2.compressfast.at [.par 3 16] 3 ++
  F448.V2.intmul.at [.par 2 0, .par 3 24, .par 3 16] 3 ++
  F448.V2.compress.at [.par 2 0] 3

/-- src/ladder448.c:142-240 (in `step_ladder_x448`): the body of the main loop for the bit `j`
of the word `i` of the key. -/
def step (i j : ℕ) : List Stmt := bitStmts i j ++ body

/-- src/ladder448.c:126,137 (in `step_ladder_x448`): `prev = 0` and the copy of `X2X3` to `X1`. -/
def start : List Stmt :=
  ([.set 1002 (.lit 0 0 0 0)] : List Stmt) ++ F448.V2.copy.at [.par 3 0, .par 1 0] 0

/-- src/ladder448.c:121-246 `step_ladder_x448`: the start and the loop over
the 448 bits of the key from the top.  The key is 56 bytes: the first seven words of two
cells. -/
def ladder : Fn := ⟨[2, 8, 8, 32], [1, 2, 3], List.replicate 3 32,
  start ++
  innerStmts step 6 64 ++
  innerStmts step 5 64 ++
  innerStmts step 4 64 ++
  innerStmts step 3 64 ++
  innerStmts step 2 64 ++
  innerStmts step 1 64 ++
  innerStmts step 0 64⟩

end L448

end Verif.Vec
