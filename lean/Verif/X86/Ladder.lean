import Verif.X86.Prog

/-!
# `X25519_x64.shared` on memory

`x25519_shared_x64` of src/ladder255.c statement by statement: arrays are objects
in memory, the field operations are the assembly blocks, and the places where the
function works in place or on two neighbouring elements at once are as in the
source.  The local arrays of the function and of the functions it calls are
objects of their own (a local array of a function called many times is one object
with anything in it at the start of each call).
-/

namespace Verif.X86.Ladder

open Verif.Fp25519 (Isa)
open Verif.X86.Fp25519

/-- The local arrays (src/ladder255.c:365-370). -/
def session : Loc := ⟨0, 0⟩
@[inherit_doc session] def secret : Loc := ⟨1, 0⟩
@[inherit_doc session] def buffer : Loc := ⟨2, 0⟩
@[inherit_doc session] def X1 : Loc := ⟨5, 0⟩

/-- The pointers into `coordinates` (src/ladder255.c:375-384). -/
def X3 : Loc := ⟨3, 0⟩
@[inherit_doc X3] def Z3 : Loc := ⟨3, 4⟩
@[inherit_doc X3] def X2 : Loc := ⟨3, 8⟩
@[inherit_doc X3] def Z2 : Loc := ⟨3, 12⟩

/-- The pointers into `workspace` (src/ladder255.c:386-394). -/
def A : Loc := ⟨4, 0⟩
@[inherit_doc A] def B : Loc := ⟨4, 4⟩
@[inherit_doc A] def D : Loc := ⟨4, 8⟩
@[inherit_doc A] def C : Loc := ⟨4, 12⟩
@[inherit_doc A] def DA : Loc := ⟨4, 16⟩
@[inherit_doc A] def CB : Loc := ⟨4, 20⟩

/-- The local `buffer_1w` of `mul` and `sqr` (src/eltfp25519_1w_fullradix.c:1363, 1369). -/
def buffer_1w : Loc := ⟨6, 0⟩

/-- The local elements of `inv` (src/eltfp25519_1w_fullradix.c:1381). -/
def x0 : Loc := ⟨7, 0⟩
@[inherit_doc x0] def x1 : Loc := ⟨8, 0⟩
@[inherit_doc x0] def x2 : Loc := ⟨9, 0⟩

/-- The sizes in words of the local arrays that the function needs (src/ladder255.c:365-370; the
arrays `buffer`, `coordinates` and `workspace` are longer there, `NUM_DIGITS_FP25519` is 10;
src/eltfp25519_1w_fullradix.c:1363, 1369, 1381). -/
def localArrays : List (Loc × ℕ × Bool) :=
  [(session, 4, true), (secret, 4, true), (buffer, 16, true), (X3, 16, true), (A, 24, true),
    (X1, 4, true), (buffer_1w, 8, true), (x0, 4, true), (x1, 4, true), (x2, 4, true)]

/-- A block without further operand. -/
def blk (B : Block) (c a b : Loc) : Stmt := .asm B c a b fun _ => 0#64

/-- src/eltfp25519_1w_fullradix.c:1303-1309 `add`. -/
def add (isa : Isa) (c a b : Loc) : Stmt := blk (if isa.adx then add_adx else add_adc) c a b

/-- src/eltfp25519_1w_fullradix.c:1311-1331 `sub`. -/
def sub (c a b : Loc) : Stmt := blk Fp25519.sub c a b

/-- src/eltfp25519_1w_fullradix.c:322-332 `intmul2`. -/
def intmul2 (isa : Isa) (c a b : Loc) : Stmt :=
  blk (if isa.bmi2 then (if isa.adx then intmul2_mulxadx else intmul2_mulx) else intmul2_mulq) c a b

/-- src/eltfp25519_1w_fullradix.c:603-613 `intsqr2`. -/
def intsqr2 (isa : Isa) (c a : Loc) : Stmt :=
  blk (if isa.bmi2 then (if isa.adx then intsqr2_mulxadx else intsqr2_mulx) else intsqr2_mulq) c a c

/-- src/eltfp25519_1w_fullradix.c:751-761 `reduce2`. -/
def reduce2 (isa : Isa) (c a : Loc) : Stmt :=
  blk (if isa.bmi2 then (if isa.adx then reduce2_mulxadx else reduce2_mulx) else reduce2_mulq) c a c

/-- src/eltfp25519_1w_fullradix.c:996-1006 `intmul`. -/
def intmul (isa : Isa) (c a b : Loc) : Stmt :=
  blk (if isa.bmi2 then (if isa.adx then intmul_mulxadx else intmul_mulx) else intmul_mulq) c a b

/-- src/eltfp25519_1w_fullradix.c:1154-1164 `intsqr`. -/
def intsqr (isa : Isa) (c a : Loc) : Stmt :=
  blk (if isa.bmi2 then (if isa.adx then intsqr_mulxadx else intsqr_mulx) else intsqr_mulq) c a c

/-- src/eltfp25519_1w_fullradix.c:1246-1256 `reduce`. -/
def reduce (isa : Isa) (c a : Loc) : Stmt :=
  blk (if isa.bmi2 then (if isa.adx then reduce_mulxadx else reduce_mulx) else reduce_mulq) c a c

/-- src/eltfp25519_1w_fullradix.c:1572-1578 `mula24`. -/
def mula24 (isa : Isa) (c a : Loc) : Stmt :=
  .asm (if isa.bmi2 then mula24_mulx else mula24_mulq) c a c fun _ => 121666#64

/-- src/eltfp25519_1w_fullradix.c:1362-1366 `mul`. -/
def mul (isa : Isa) (c a b : Loc) : Stmt :=
  .seq (intmul isa buffer_1w a b) (reduce isa c buffer_1w)

/-- src/eltfp25519_1w_fullradix.c:1368-1372 `sqr`. -/
def sqr (isa : Isa) (a : Loc) : Stmt :=
  .seq (intsqr isa buffer_1w a) (reduce isa a buffer_1w)

/-- src/eltfp25519_1w_fullradix.c:767-772 `copy`; also `memcpy` of 32 bytes between different
objects. -/
def copy (c a : Loc) : Stmt :=
  block [.move c (fun _ => 0) a, .move c (fun _ => 1) a, .move c (fun _ => 2) a,
    .move c (fun _ => 3) a]

/-- `c[k] = v`. -/
def store (c : Loc) (k : ℕ) (v : W) : Stmt := .store c (fun _ => k) fun _ => v

/-- src/eltfp25519_1w_fullradix.c:785-790 `zero`. -/
def zero (c : Loc) : Stmt := block [store c 0 0#64, store c 1 0#64, store c 2 0#64, store c 3 0#64]

/-- src/ladder255.c:95-117 `select_cmov_x64(swap, px, py)`. -/
def select (px py : Loc) : Stmt := .asm select_cmov_x64 px py px fun v => v.words.swap

/-- src/eltfp25519_1w_fullradix.c:1374-1378 `sqrn_Fp255_1w_fullradix`:
`counter = times; while (counter-- > 0) sqr(a);`.  The decrement is done after the test
in both outcomes. -/
def sqrn (isa : Isa) (a : Loc) (times : ℕ) : Stmt :=
  block [.ints fun v => { v.ints with counter := times },
    .while (fun v => decide (v.ints.counter > 0)) <|
      .seq (.ints fun v => { v.ints with counter := v.ints.counter - 1 }) (sqr isa a),
    .ints fun v => { v.ints with counter := v.ints.counter - 1 }]

/-- src/eltfp25519_1w_fullradix.c:1380-1421 `inv`. -/
def inv (isa : Isa) (c a : Loc) : Stmt :=
  let T0 := x0
  let T1 := c
  let T2 := x1
  let T3 := x2
  let T4 := a
  block [copy T1 T4, sqrn isa T1 1, copy T2 T1, sqrn isa T2 2, mul isa T0 T4 T2, mul isa T1 T1 T0,
    copy T2 T1, sqrn isa T2 1, mul isa T0 T0 T2, copy T2 T0, sqrn isa T2 5, mul isa T0 T0 T2,
    copy T2 T0, sqrn isa T2 10, mul isa T2 T2 T0, copy T3 T2, sqrn isa T3 20, mul isa T3 T3 T2,
    sqrn isa T3 10, mul isa T3 T3 T0, copy T0 T3, sqrn isa T0 50, mul isa T0 T0 T3, copy T2 T0,
    sqrn isa T2 100, mul isa T2 T2 T0, sqrn isa T2 50, mul isa T2 T2 T3, sqrn isa T2 5,
    mul isa T1 T1 T2]

/-- src/eltfp25519_1w_fullradix.c:824-827 `ser`. -/
def ser (out c : Loc) : Stmt := .seq (copy out c) (.modp out)

/-- src/bytestring.c:98-103 `spc_memset(dst, 0, 32)`. -/
def wipe (dst : Loc) : Stmt :=
  block [.ints fun v => { v.ints with len := 32 },
    .while (fun v => decide (v.ints.len ≠ 0)) <|
      block [.ints fun v => { v.ints with len := v.ints.len - 1 },
        .byte dst (fun v => v.ints.len.toNat) fun _ => 0#8]]

/-- src/ladder255.c:397-401 (in `x25519_shared_x64`): copy and clamp the key. -/
def clampKey (secret_key : Loc) : Stmt :=
  block [copy secret secret_key, .byte secret (fun _ => 0) (· &&& 0xF8#8),
    .byte secret (fun _ => 31) fun b => 64#8 ||| (b &&& 0x7F#8)]

/-- src/ladder255.c:411-421 (in `x25519_shared_x64`): copy and mask the point, initialise the
coordinates. -/
def start (session_key : Loc) : Stmt :=
  block [copy session session_key, .byte session (fun _ => 31) (· &&& 0x7F#8),
    copy X1 session, copy X3 session, zero Z3, zero X2, zero Z2, store Z3 0 1#64, store X2 0 1#64]

/-- src/ladder255.c:427-456 (in `x25519_shared_x64`): the body of the inner loop. -/
def body (isa : Isa) : Stmt :=
  block [
    .load secret (fun v => v.ints.i.toNat) fun v w =>
      { v.words with bit := (w >>> v.ints.j.toNat) &&& 1#64 },
    .words fun v => { v.words with swap := v.words.bit ^^^ v.words.prev },
    .words fun v => { v.words with prev := v.words.bit },
    add isa A X2 Z2,
    sub B X2 Z2,
    add isa C X3 Z3,
    sub D X3 Z3,
    intmul2 isa buffer A D,
    reduce2 isa DA buffer,
    select A C,
    select B D,
    intsqr2 isa buffer A,
    reduce2 isa A buffer,
    add isa X3 DA CB,
    sub Z3 DA CB,
    intsqr2 isa buffer X3,
    reduce2 isa X3 buffer,
    copy X2 B,
    sub Z2 A B,
    mula24 isa B Z2,
    add isa B B X2,
    intmul2 isa buffer X2 A,
    reduce2 isa X2 buffer,
    mul isa Z3 Z3 X1,
    .ints fun v => { v.ints with j := v.ints.j - 1 }]

/-- src/ladder255.c:423-459 (in `x25519_shared_x64`): the main loop. -/
def mainLoop (isa : Isa) : Stmt :=
  block [.ints fun v => { v.ints with j := 62 },
    .ints fun v => { v.ints with i := 3 },
    .while (fun v => decide (v.ints.i ≥ 0)) <|
      block [.while (fun v => decide (v.ints.j ≥ 0)) (body isa),
        .ints fun v => { v.ints with j := 63 },
        .ints fun v => { v.ints with i := v.ints.i - 1 }]]

/-- src/ladder255.c:361-468 `x25519_shared_x64`. -/
def shared (isa : Isa) (shared_secret session_key secret_key : Loc) : Stmt :=
  block [.ints fun v => { v.ints with i := 0, j := 0 },
    .words fun v => { v.words with prev := 0#64 },
    clampKey secret_key,
    start session_key,
    mainLoop isa,
    wipe secret,
    inv isa A Z2,
    mul isa X2 X2 A,
    ser shared_secret X2]

end Verif.X86.Ladder
