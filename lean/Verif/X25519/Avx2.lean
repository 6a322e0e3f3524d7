import Verif.Fp25519.RedApi
import Verif.X25519.X64

/-!
# X25519, vector implementation: `X25519.shared`

Model of `x25519_shared_avx2` of src/ladder255.c on top of the model of `Fp25519._2w_red`.
The conditional swap is the one selected by the build (`SWAP_METHOD` is `PERMUTATION`,
include/faz_ecdh_avx2.h:51-54).
-/

namespace Verif

/-- `_mm256_set_epi32`. -/
def SET32 (w7 w6 w5 w4 w3 w2 w1 w0 : BitVec 32) : V := ⟨w1 ++ w0, w3 ++ w2, w5 ++ w4, w7 ++ w6⟩

end Verif

namespace Verif.X25519.Avx2

open Verif.Fp25519

/-- The variables of `step_ladder_x25519` live across iterations (src/ladder255.c:127-141).  The
arrays `t0`, `t1`, `t2` are written before they are read in every iteration. -/
structure St where
  X2X3 : Elt5 V
  Z2Z3 : Elt5 V
  prev : W

/-- src/ladder255.c:119-125 `CONST_2P_2P_Element_2w_Fp25519`. -/
def CONST_2P_2P : Elt5 V :=
  ⟨⟨0x7ffffda#64, 0x3fffffe#64, 0x7ffffda#64, 0x3fffffe#64⟩,
    ⟨0x3fffffe#64, 0x7fffffe#64, 0x3fffffe#64, 0x7fffffe#64⟩,
    ⟨0x7fffffe#64, 0x3fffffe#64, 0x7fffffe#64, 0x3fffffe#64⟩,
    ⟨0x3fffffe#64, 0x7fffffe#64, 0x3fffffe#64, 0x7fffffe#64⟩,
    ⟨0x7fffffe#64, 0x3fffffe#64, 0x7fffffe#64, 0x3fffffe#64⟩⟩

/-- src/ladder255.c:170-173 (in `step_ladder_x25519`): the vectors `maskbit0` and `maskbit1`. -/
def masks (swap : W) : V × V :=
  let perm := SET32 7 6 5 4 3 2 1 0
  let m : BitVec 32 := swap.setWidth 32 <<< 2
  let mask := SET32 m m m m m m m m
  let maskbit0 := XOR perm mask
  let maskbit1 := PERM64 maskbit0 0x4E
  (maskbit0, maskbit1)

/-- src/ladder255.c:148-242 (in `step_ladder_x25519`): the body of the main loop. -/
def step (X1 : Elt5 V) (s : St) (bit : W) : St :=
  let a24 : V := LIT 121665
  let swap := bit ^^^ s.prev
  let prev := bit
  let (X2X3, Z2Z3) := R2.addsub s.X2X3 s.Z2Z3
  let Z2Z3 := Z2Z3.map (PERM64 · 0x4E)
  let t0 := R2.intmul X2X3 Z2Z3
  let t0 := R2.compress t0
  let t1 := t0.map (PERM64 · 0x4E)
  let X2X3 := X2X3.map (PERMV128 · (masks swap).1)
  let Z2Z3 := Z2Z3.map (PERMV128 · (masks swap).2)
  let (t1, t0) := R2.addsub t1 t0
  let t0 := X2X3.zip (BLEND32 · · 0xF0) t0
  let t1 := Z2Z3.zip (BLEND32 · · 0xF0) t1
  let t0 := R2.intsqr t0
  let t1 := R2.intsqr t1
  let (t0, t1) := R2.compress2 t0 t1
  let t2 := t0.map (BLEND32 · (LIT 0) 0xF0)
  let t2 := { t2 with c0 := OR t2.c0 (SET64 0 1 0 0) }
  let X2X3 := R2.intmul t2 t1
  let X2X3 := R2.compress X2X3
  let t2 := t0.zip ADD (CONST_2P_2P.zip SUB t1)
  let t1 := (t2.map (MUL · a24)).zip ADD t0
  let t2 := t2.zip (BLEND32 · · 0xF0) t0
  let t1 := t1.zip (BLEND32 · · 0xF0) X1
  let t1 := R2.compressfast t1
  let Z2Z3 := R2.intmul t2 t1
  let Z2Z3 := R2.compress Z2Z3
  ⟨X2X3, Z2Z3, prev⟩

/-- src/ladder255.c:147-244 (in `step_ladder_x25519`): the inner `while (j >= 0)` loop, entered
with `j + 1 = fuel`. -/
def inner (X1 : Elt5 V) (key : F4) (i : ℕ) : ℕ → St → St
  | 0, s => s
  | j + 1, s => inner X1 key i j (step X1 s (keyBit key i j))

/-- src/ladder255.c:145-246 (in `step_ladder_x25519`): the main loop, `j = 62` for `i = 3` and
`j = 63` afterwards. -/
def mainLoop (X1 : Elt5 V) (key : F4) (s : St) : St :=
  let s := inner X1 key 3 63 s
  let s := inner X1 key 2 64 s
  let s := inner X1 key 1 64 s
  inner X1 key 0 64 s

/-- src/ladder255.c:249-299 `x25519_shared_avx2`; the result is the contents of
`shared_secret`.  The returned status is always 0; the wiping of the secret is not modelled. -/
def shared (isa : Isa) (session_key secret_key : List Byte) : List Byte :=
  let secret := clamp secret_key
  let session := maskTop session_key
  let X1 := R1.unser session
  let QzPz : Elt5 V := ⟨SET64 0 1 0 0, LIT 0, LIT 0, LIT 0, LIT 0⟩
  let QxPx := R2.inter X1 X1
  let s := mainLoop QxPx (F4.ofBytes secret) ⟨QxPx, QzPz, 0#64⟩
  let XX := (R2.deinter s.X2X3).1
  let ZZ := (R2.deinter s.Z2Z3).1
  let X := F4.ofBytes (R1.ser XX)
  let Z := F4.ofBytes (R1.ser ZZ)
  let invZ := Full.inv isa Z
  let X := Full.mul isa X invZ
  Full.ser X

end Verif.X25519.Avx2
