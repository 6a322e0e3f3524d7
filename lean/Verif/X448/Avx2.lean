import Verif.Fp448.Red
import Verif.X25519.Avx2

/-!
# X448: `X448.shared`

Model of `x448_shared_avx2` of src/ladder448.c on top of the model of `Fp448._2w_red` and
`Fp448._1w_red`.  The conditional swap is the one selected by the build (`SWAP_METHOD` is
`PERMUTATION`, include/faz_ecdh_avx2.h:51-54).
-/

namespace Verif.X448

open Verif.Fp448

/-- The variables of `step_ladder_x448` live across iterations (src/ladder448.c:120-137).  The
arrays `t0`, `t1`, `t2` are written before they are read in every iteration. -/
structure St where
  X2X3 : Elt8 V
  Z2Z3 : Elt8 V
  prev : W
deriving DecidableEq

/-- `(key[i] >> j) & 1` of a word array (src/ladder448.c:142, in `step_ladder_x448`). -/
def keyBit (key : F7) (i j : ℕ) : W :=
  let w : W := match i with
    | 0 => key.w0 | 1 => key.w1 | 2 => key.w2 | 3 => key.w3 | 4 => key.w4 | 5 => key.w5
    | _ => key.w6
  (w >>> j) &&& 1#64

/-- src/ladder448.c:165-168 (in `step_ladder_x448`): the vectors `maskbit0` and `maskbit1`. -/
def masks (swap : W) : V × V :=
  let perm := SET32 7 6 5 4 3 2 1 0
  let m : BitVec 32 := swap.setWidth 32 <<< 2
  let mask := SET32 m m m m m m m m
  let maskbit0 := XOR perm mask
  let maskbit1 := PERM64 maskbit0 0x4E
  (maskbit0, maskbit1)

/-- src/ladder448.c:142-240 (in `step_ladder_x448`): the body of the main loop.  `_2P` is
`CONST_2P_2P_H0H8` (src/eltfp448_2w_redradix.c:95-104), `R2.twoP` of the model. -/
def step (X1 : Elt8 V) (s : St) (bit : W) : St :=
  let a24 : V := LIT 39081
  let swap := bit ^^^ s.prev
  let prev := bit
  let (X2X3, Z2Z3) := R2.addsub s.X2X3 s.Z2Z3
  let Z2Z3 := Z2Z3.map (PERM64 · 0x4E)
  let t0 := R2.intmul X2X3 Z2Z3
  let t0 := R2.compress t0
  let t1 := t0.map (PERM64 · 0x4E)
  let X2X3 := X2X3.map (PERMV128 · (masks swap).1)
  let Z2Z3 := Z2Z3.map (PERMV128 · (masks swap).2)
  let (t1, t0) := R2.addsub t1 t0
  let t0 := X2X3.zip (BLEND32 · · 0xF0) t0
  let t1 := Z2Z3.zip (BLEND32 · · 0xF0) t1
  let t0 := R2.compressfast t0
  let t1 := R2.compressfast t1
  let t0 := R2.intsqr t0
  let t1 := R2.intsqr t1
  let (t0, t1) := R2.compress2 t0 t1
  let t2 := t0.map (BLEND32 · (LIT 0) 0xF0)
  let t2 := { t2 with c0 := OR t2.c0 (SET64 0 1 0 0) }
  let X2X3 := R2.intmul t2 t1
  let X2X3 := R2.compress X2X3
  let t2 := t0.zip ADD (R2.twoP.zip SUB t1)
  let t1 := (t2.map (MUL · a24)).zip ADD t0
  let t2 := t2.zip (BLEND32 · · 0xF0) t0
  let t1 := t1.zip (BLEND32 · · 0xF0) X1
  let t1 := R2.compressfast t1
  let Z2Z3 := R2.intmul t2 t1
  let Z2Z3 := R2.compress Z2Z3
  ⟨X2X3, Z2Z3, prev⟩

/-- src/ladder448.c:141-242 (in `step_ladder_x448`): the inner `while (j >= 0)` loop, entered
with `j + 1 = fuel`. -/
def inner (X1 : Elt8 V) (key : F7) (i : ℕ) : ℕ → St → St
  | 0, s => s
  | j + 1, s => inner X1 key i j (step X1 s (keyBit key i j))

/-- src/ladder448.c:139-244 (in `step_ladder_x448`): the main loop. -/
def mainLoop (X1 : Elt8 V) (key : F7) (s : St) : St :=
  let s := inner X1 key 6 64 s
  let s := inner X1 key 5 64 s
  let s := inner X1 key 4 64 s
  let s := inner X1 key 3 64 s
  let s := inner X1 key 2 64 s
  let s := inner X1 key 1 64 s
  inner X1 key 0 64 s

/-- src/ladder448.c:267-269 (in `x448_shared_avx2`) and 330-332 (in `x448_keygen_avx2`): the
clamped copy of the secret key. -/
def clamp (secret_key : List Byte) : List Byte :=
  (secret_key.modify 0 (· &&& ~~~0x3#8)).modify 55 (· ||| 0x80#8)

/-- src/ladder448.c:282-287 (in `x448_shared_avx2`): the conversion to affine coordinates. -/
def affine (s : St) : Elt8 U :=
  let X := (R2.deinter s.X2X3).1
  let Z := (R2.deinter s.Z2Z3).1
  let invZ := R1.inv Z
  R1.mul X invZ

/-- src/ladder448.c:254-287 (in `x448_shared_avx2`): everything up to the final `ser`, the field
element `X`. -/
def sharedElt (session_key secret_key : List Byte) : Elt8 U :=
  let secret := clamp secret_key
  let X1 := R1.unser session_key
  let QzPz : Elt8 V := ⟨SET64 0 1 0 0, LIT 0, LIT 0, LIT 0, LIT 0, LIT 0, LIT 0, LIT 0⟩
  let QxPx := R2.inter X1 X1
  affine (mainLoop QxPx (F7.ofBytes secret) ⟨QxPx, QzPz, 0#64⟩)

/-- src/ladder448.c:254-292 `x448_shared_avx2`; the result is the contents of `shared_secret`.
The returned status is always 0; the wiping of the secret is not modelled. -/
def shared (session_key secret_key : List Byte) : List Byte :=
  R1.ser (sharedElt session_key secret_key)

end Verif.X448
