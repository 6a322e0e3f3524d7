import Verif.X448.Avx2
import Verif.X25519.Swap

/-!
# X448: the two conditional swaps that the build does not select

Model of `step_ladder_x448` of src/ladder448.c compiled with `SWAP_METHOD` equal to `LOGIC` or
`CMOV` (include/faz_ecdh_avx2.h:42-54 offers the three methods).
-/

namespace Verif.X448

open Verif.Fp448
open Verif.X25519.Avx2 (Method cmovLow)

/-- src/ladder448.c:173-181 (in `step_ladder_x448`), `LOGIC`: the new value of `X2X3[s]`. -/
def swapLogic (swap : W) (x z : V) : V := X25519.Avx2.swapLogic swap x z

/-- src/ladder448.c:49-100 `cmov_x448`, with `pY = pX + 2`, on one register: the conditional moves
at the byte offsets `32s` and `32s + 8` of `pX`. -/
def cmovBoth (bit : BitVec 32) (x : V) : V :=
  ⟨cmovLow bit x.q0 x.q2, cmovLow bit x.q1 x.q3, x.q2, x.q3⟩

/-- src/ladder448.c:96-98 (in `cmov_x448`): on the last register there is only the move at the
byte offset 232; there is none at 224. -/
def cmovLast (bit : BitVec 32) (x : V) : V :=
  ⟨x.q0, cmovLow bit x.q1 x.q3, x.q2, x.q3⟩

/-- src/ladder448.c:49-100 `cmov_x448` with `pY = pX + 2`: the moves of the low halves of the
words at the byte offsets 0, 8, 32, 40, 64, 72, 96, 104, 128, 136, 160, 168, 192, 200 and 232. -/
def cmov (bit : BitVec 32) (e : Elt8 V) : Elt8 V :=
  ⟨cmovBoth bit e.c0, cmovBoth bit e.c1, cmovBoth bit e.c2, cmovBoth bit e.c3,
    cmovBoth bit e.c4, cmovBoth bit e.c5, cmovBoth bit e.c6, cmovLast bit e.c7⟩

/-- src/ladder448.c:162-190 (in `step_ladder_x448`): the conditional swap, by each method. -/
def condSwap : Method → W → Elt8 V → Elt8 V → Elt8 V × Elt8 V
  | .permutation, swap, X2X3, Z2Z3 =>
    (X2X3.map (PERMV128 · (masks swap).1), Z2Z3.map (PERMV128 · (masks swap).2))
  | .logic, swap, X2X3, Z2Z3 =>
    let X := X2X3.zip (swapLogic swap) Z2Z3
    (X, X.map (PERM64 · 0x4E))
  | .cmov, swap, X2X3, Z2Z3 =>
    (cmov (swap.setWidth 32) X2X3, cmov ((1#64 - swap).setWidth 32) Z2Z3)

/-- src/ladder448.c:142-240 (in `step_ladder_x448`): the body of the main loop, with the
conditional swap by the method `m`. -/
def stepBy (m : Method) (X1 : Elt8 V) (s : St) (bit : W) : St :=
  let a24 : V := LIT 39081
  let swap := bit ^^^ s.prev
  let prev := bit
  let (X2X3, Z2Z3) := R2.addsub s.X2X3 s.Z2Z3
  let Z2Z3 := Z2Z3.map (PERM64 · 0x4E)
  let t0 := R2.intmul X2X3 Z2Z3
  let t0 := R2.compress t0
  let t1 := t0.map (PERM64 · 0x4E)
  let (X2X3, Z2Z3) := condSwap m swap X2X3 Z2Z3
  let (t1, t0) := R2.addsub t1 t0
  let t0 := X2X3.zip (BLEND32 · · 0xF0) t0
  let t1 := Z2Z3.zip (BLEND32 · · 0xF0) t1
  let t0 := R2.compressfast t0
  let t1 := R2.compressfast t1
  let t0 := R2.intsqr t0
  let t1 := R2.intsqr t1
  let (t0, t1) := R2.compress2 t0 t1
  let t2 := t0.map (BLEND32 · (LIT 0) 0xF0)
  let t2 := { t2 with c0 := OR t2.c0 (SET64 0 1 0 0) }
  let X2X3 := R2.intmul t2 t1
  let X2X3 := R2.compress X2X3
  let t2 := t0.zip ADD (R2.twoP.zip SUB t1)
  let t1 := (t2.map (MUL · a24)).zip ADD t0
  let t2 := t2.zip (BLEND32 · · 0xF0) t0
  let t1 := t1.zip (BLEND32 · · 0xF0) X1
  let t1 := R2.compressfast t1
  let Z2Z3 := R2.intmul t2 t1
  let Z2Z3 := R2.compress Z2Z3
  ⟨X2X3, Z2Z3, prev⟩

/-- src/ladder448.c:141-242 (in `step_ladder_x448`): the inner `while (j >= 0)` loop, entered
with `j + 1 = fuel`. -/
def innerBy (m : Method) (X1 : Elt8 V) (key : F7) (i : ℕ) : ℕ → St → St
  | 0, s => s
  | j + 1, s => innerBy m X1 key i j (stepBy m X1 s (keyBit key i j))

/-- src/ladder448.c:139-244 (in `step_ladder_x448`): the main loop. -/
def mainLoopBy (m : Method) (X1 : Elt8 V) (key : F7) (s : St) : St :=
  let s := innerBy m X1 key 6 64 s
  let s := innerBy m X1 key 5 64 s
  let s := innerBy m X1 key 4 64 s
  let s := innerBy m X1 key 3 64 s
  let s := innerBy m X1 key 2 64 s
  let s := innerBy m X1 key 1 64 s
  innerBy m X1 key 0 64 s

/-- src/ladder448.c:254-287 (in `x448_shared_avx2`): everything up to the final `ser`. -/
def sharedEltBy (m : Method) (session_key secret_key : List Byte) : Elt8 U :=
  let secret := clamp secret_key
  let X1 := R1.unser session_key
  let QzPz : Elt8 V := ⟨SET64 0 1 0 0, LIT 0, LIT 0, LIT 0, LIT 0, LIT 0, LIT 0, LIT 0⟩
  let QxPx := R2.inter X1 X1
  affine (mainLoopBy m QxPx (F7.ofBytes secret) ⟨QxPx, QzPz, 0#64⟩)

/-- src/ladder448.c:254-292 `x448_shared_avx2` with the conditional swap by the method `m`; the
result is the contents of `shared_secret`. -/
def sharedBy (m : Method) (session_key secret_key : List Byte) : List Byte :=
  R1.ser (sharedEltBy m session_key secret_key)

end Verif.X448
