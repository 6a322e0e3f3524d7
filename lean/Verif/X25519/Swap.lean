import Verif.X25519.Avx2

/-!
# X25519, vector implementation: the two conditional swaps that the build does not select

Model of `step_ladder_x25519` of src/ladder255.c compiled with `SWAP_METHOD` equal to `LOGIC` or
`CMOV` (include/faz_ecdh_avx2.h:42-54 offers the three methods).  The methods `LOGIC` and `CMOV`
leave in the upper halves of `X2X3` and `Z2Z3` other values than `PERMUTATION` does; the halves
are modelled as they are.
-/

namespace Verif.X25519.Avx2

open Verif.Fp25519

/-- include/faz_ecdh_avx2.h:42-54: the values of `SWAP_METHOD`. -/
inductive Method
  | permutation
  | logic
  | cmov
deriving DecidableEq

/-- src/ladder255.c:178-185 (in `step_ladder_x25519`), `LOGIC`: the new value of `X2X3[s]`. -/
def swapLogic (swap : W) (x z : V) : V :=
  let mask := SET64 (-swap) (-swap) (-swap) (-swap)
  let U := PERM128 x z 0x21
  let V := BLEND32 x z 0xF0
  XOR (ANDNOT mask V) (AND mask U)

/-- Three consecutive instructions of `cmov_x25519` (src/ladder255.c:45-86) and `cmov_x448`
(src/ladder448.c:49-100), a 32-bit load of the low half of `x`, its conditional replacement by the
low half of `y`, and the 32-bit store to `x`: the new value of the 64-bit word `x`.  The condition
is the zero flag that `test` left for the 32-bit operand `bit`. -/
def cmovLow (bit : BitVec 32) (x y : W) : W :=
  let eax : BitVec 32 := x.setWidth 32
  let eax := if bit = 0#32 then eax else y.setWidth 32
  (x >>> 32 <<< 32) ||| eax.setWidth 64

/-- src/ladder255.c:45-86 `cmov_x25519` with `pY = pX + 2`, on one register: the conditional moves
at the byte offsets `32s` and `32s + 8` of `pX`. -/
def cmovBoth (bit : BitVec 32) (x : V) : V :=
  ⟨cmovLow bit x.q0 x.q2, cmovLow bit x.q1 x.q3, x.q2, x.q3⟩

/-- src/ladder255.c:45-86 `cmov_x25519` with `pY = pX + 2`: the moves of the low halves of the
words at the byte offsets 0, 8, 32, 40, 64, 72, 96, 104, 128 and 136. -/
def cmov (bit : BitVec 32) (e : Elt5 V) : Elt5 V :=
  ⟨cmovBoth bit e.c0, cmovBoth bit e.c1, cmovBoth bit e.c2, cmovBoth bit e.c3, cmovBoth bit e.c4⟩

/-- src/ladder255.c:167-195 (in `step_ladder_x25519`): the conditional swap, by each method. -/
def condSwap : Method → W → Elt5 V → Elt5 V → Elt5 V × Elt5 V
  | .permutation, swap, X2X3, Z2Z3 =>
    (X2X3.map (PERMV128 · (masks swap).1), Z2Z3.map (PERMV128 · (masks swap).2))
  | .logic, swap, X2X3, Z2Z3 =>
    let X := X2X3.zip (swapLogic swap) Z2Z3
    (X, X.map (PERM64 · 0x4E))
  | .cmov, swap, X2X3, Z2Z3 =>
    (cmov (swap.setWidth 32) X2X3, cmov ((1#64 - swap).setWidth 32) Z2Z3)

/-- src/ladder255.c:148-242 (in `step_ladder_x25519`): the body of the main loop, with the
conditional swap by the method `m`. -/
def stepBy (m : Method) (X1 : Elt5 V) (s : St) (bit : W) : St :=
  let a24 : V := LIT 121665
  let swap := bit ^^^ s.prev
  let prev := bit
  let (X2X3, Z2Z3) := R2.addsub s.X2X3 s.Z2Z3
  let Z2Z3 := Z2Z3.map (PERM64 · 0x4E)
  let t0 := R2.intmul X2X3 Z2Z3
  let t0 := R2.compress t0
  let t1 := t0.map (PERM64 · 0x4E)
  let (X2X3, Z2Z3) := condSwap m swap X2X3 Z2Z3
  let (t1, t0) := R2.addsub t1 t0
  let t0 := X2X3.zip (BLEND32 · · 0xF0) t0
  let t1 := Z2Z3.zip (BLEND32 · · 0xF0) t1
  let t0 := R2.intsqr t0
  let t1 := R2.intsqr t1
  let (t0, t1) := R2.compress2 t0 t1
  let t2 := t0.map (BLEND32 · (LIT 0) 0xF0)
  let t2 := { t2 with c0 := OR t2.c0 (SET64 0 1 0 0) }
  let X2X3 := R2.intmul t2 t1
  let X2X3 := R2.compress X2X3
  let t2 := t0.zip ADD (CONST_2P_2P.zip SUB t1)
  let t1 := (t2.map (MUL · a24)).zip ADD t0
  let t2 := t2.zip (BLEND32 · · 0xF0) t0
  let t1 := t1.zip (BLEND32 · · 0xF0) X1
  let t1 := R2.compressfast t1
  let Z2Z3 := R2.intmul t2 t1
  let Z2Z3 := R2.compress Z2Z3
  ⟨X2X3, Z2Z3, prev⟩

/-- src/ladder255.c:147-244 (in `step_ladder_x25519`): the inner `while (j >= 0)` loop, entered
with `j + 1 = fuel`. -/
def innerBy (m : Method) (X1 : Elt5 V) (key : F4) (i : ℕ) : ℕ → St → St
  | 0, s => s
  | j + 1, s => innerBy m X1 key i j (stepBy m X1 s (keyBit key i j))

/-- src/ladder255.c:145-246 (in `step_ladder_x25519`): the main loop, `j = 62` for `i = 3` and
`j = 63` afterwards. -/
def mainLoopBy (m : Method) (X1 : Elt5 V) (key : F4) (s : St) : St :=
  let s := innerBy m X1 key 3 63 s
  let s := innerBy m X1 key 2 64 s
  let s := innerBy m X1 key 1 64 s
  innerBy m X1 key 0 64 s

/-- src/ladder255.c:249-299 `x25519_shared_avx2` with the conditional swap by the method `m`; the
result is the contents of `shared_secret`. -/
def sharedBy (m : Method) (isa : Isa) (session_key secret_key : List Byte) : List Byte :=
  let secret := clamp secret_key
  let session := maskTop session_key
  let X1 := R1.unser session
  let QzPz : Elt5 V := ⟨SET64 0 1 0 0, LIT 0, LIT 0, LIT 0, LIT 0⟩
  let QxPx := R2.inter X1 X1
  let s := mainLoopBy m QxPx (F4.ofBytes secret) ⟨QxPx, QzPz, 0#64⟩
  let XX := (R2.deinter s.X2X3).1
  let ZZ := (R2.deinter s.Z2Z3).1
  let X := F4.ofBytes (R1.ser XX)
  let Z := F4.ofBytes (R1.ser ZZ)
  let invZ := Full.inv isa Z
  let X := Full.mul isa X invZ
  Full.ser X

end Verif.X25519.Avx2
