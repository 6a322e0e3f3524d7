import Verif.Fp25519.Full

/-!
# X25519, scalar implementation: `X25519_x64.shared`

Model of `x25519_shared_x64` of src/ladder255.c on top of the model of `Fp25519._1w_full`.
-/

namespace Verif.X25519

open Verif.Fp25519

/-- src/ladder255.c:397-401 (in `x25519_shared_x64`, the "clampC function"): `secret[0] &= ~7`,
`secret[31] = 64 | (secret[31] & 0x7F)`. -/
def clamp (secret : List Byte) : List Byte :=
  (secret.modify 0 (· &&& 0xF8#8)).modify 31 (fun b => 64#8 ||| (b &&& 0x7F#8))

/-- src/ladder255.c:411-412 (in `x25519_shared_x64`): `session[31] &= (1 << (255 % 8)) - 1`. -/
def maskTop (session : List Byte) : List Byte := session.modify 31 (· &&& 0x7F#8)

/-- src/ladder255.c:95-117 `select_cmov_x64`: the new value of `*px`. -/
def select_cmov_x64 (bit : W) (px py : F4) : F4 :=
  let nz := bit &&& bit != 0#64
  cmov nz px.w0 py.w0 fun c0 =>
  cmov nz px.w1 py.w1 fun c1 =>
  cmov nz px.w2 py.w2 fun c2 =>
  cmov nz px.w3 py.w3 fun c3 =>
  ⟨c0, c1, c2, c3⟩

/-- The variables of `x25519_shared_x64` live across iterations of the main loop: the array
`coordinates` (`X2 = Qx`, `Z2 = Qz`, `X3 = Px`, `Z3 = Pz`) and `prev`
(src/ladder255.c:373-384). The arrays `workspace` and `buffer` are written before they are read
in every iteration, so they are local variables of `step`. -/
structure St where
  X2 : F4
  Z2 : F4
  X3 : F4
  Z3 : F4
  prev : W

/-- `(key[i] >> j) & 1` of a word array (src/ladder255.c:427, in `x25519_shared_x64`). -/
def keyBit (key : F4) (i j : ℕ) : W :=
  let w : W := match i with | 0 => key.w0 | 1 => key.w1 | 2 => key.w2 | _ => key.w3
  (w >>> j) &&& 1#64

/-- src/ladder255.c:427-457 (in `x25519_shared_x64`): the body of the main loop. -/
def step (isa : Isa) (X1 : F4) (s : St) (bit : W) : St :=
  let swap := bit ^^^ s.prev
  let prev := bit
  let A := Full.add isa s.X2 s.Z2
  let B := Full.sub s.X2 s.Z2
  let C := Full.add isa s.X3 s.Z3
  let D := Full.sub s.X3 s.Z3
  let (DA, CB) := Full.reduce2 isa (Full.intmul2 isa (A, B) (D, C))
  let A := select_cmov_x64 swap A C
  let B := select_cmov_x64 swap B D
  let (A, B) := Full.reduce2 isa (Full.intsqr2 isa (A, B))
  let X3 := Full.add isa DA CB
  let Z3 := Full.sub DA CB
  let (X3, Z3) := Full.reduce2 isa (Full.intsqr2 isa (X3, Z3))
  let X2 := B
  let Z2 := Full.sub A B
  let B := Full.mula24 isa Z2
  let B := Full.add isa B X2
  let (X2, Z2) := Full.reduce2 isa (Full.intmul2 isa (X2, Z2) (A, B))
  let Z3 := Full.mul isa Z3 X1
  ⟨X2, Z2, X3, Z3, prev⟩

/-- src/ladder255.c:426-458 (in `x25519_shared_x64`): the inner `while (j >= 0)` loop, entered with
`j + 1 = fuel`. -/
def inner (isa : Isa) (X1 key : F4) (i : ℕ) : ℕ → St → St
  | 0, s => s
  | j + 1, s => inner isa X1 key i j (step isa X1 s (keyBit key i j))

/-- src/ladder255.c:423-460 (in `x25519_shared_x64`): the main loop, `j = 62` for `i = 3` and `j = 63`
afterwards. -/
def mainLoop (isa : Isa) (X1 key : F4) (s : St) : St :=
  let s := inner isa X1 key 3 63 s
  let s := inner isa X1 key 2 64 s
  let s := inner isa X1 key 1 64 s
  inner isa X1 key 0 64 s

/-- src/ladder255.c:361-468 `x25519_shared_x64`; the result is the contents of
`shared_secret`.  The returned status is always 0; the wiping of the secret is not modelled. -/
def shared_x64 (isa : Isa) (session_key secret_key : List Byte) : List Byte :=
  let secret := clamp secret_key
  let session := maskTop session_key
  let X1 := F4.ofBytes session
  let Px := F4.ofBytes session
  let Pz : F4 := ⟨1#64, 0#64, 0#64, 0#64⟩
  let Qx : F4 := ⟨1#64, 0#64, 0#64, 0#64⟩
  let Qz := Full.zero
  let s := mainLoop isa X1 (F4.ofBytes secret) ⟨Qx, Qz, Px, Pz, 0#64⟩
  let A := Full.inv isa s.Z2
  let Qx := Full.mul isa s.X2 A
  Full.ser Qx

end Verif.X25519
