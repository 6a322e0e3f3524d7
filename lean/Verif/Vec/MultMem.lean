import Verif.Vec.Query
import Verif.Vec.Points25519
import Verif.Vec.Points448
import Verif.Vec.Spec
import Verif.Ed448.Mult

/-!
# The multiplication by the base point on memory

`point_multiplication_fold2w4_ed25519`, `point_multiplication_fold4w4` and
`fixed_point_multiplication_ed448` statement by statement on the objects of the function.  The
local objects have numbers from `b` on.  The scalar `r` is given by its bytes: it is only read.
The calls of field functions, point formulas and table queries are runs of their programs, with
arbitrary contents of the registers. -/

namespace Verif.Vec

/-! ## Words of an object -/

/-- A vector with one word replaced. -/
def setWord (x : V) (w : ℕ) (v : W) : V := match w with
  | 0 => { x with q0 := v } | 1 => { x with q1 := v } | 2 => { x with q2 := v }
  | _ => { x with q3 := v }

/-- The 64-bit word `n` of the object `o`. -/
def wordAt (m : Mem) (o n : ℕ) : W := wordOf (m o (n / 4)) (n % 4)

/-- A store of 64 bits to the word `n` of the object `o`. -/
def putWord (m : Mem) (o n : ℕ) (v : W) : Mem :=
  m.set o (n / 4) (setWord (m o (n / 4)) (n % 4) v)

/-! ## Recoding -/

/-- src/edwards255.c:819-825 (and 827-833), src/edwards448.c:173-179 (and 181-187): one nibble,
whose digit and sign go to the entry `n`; the second component is `carry`. -/
def recStep (oS oK : ℕ) (nib : BitVec 8) (n : ℕ) (s : Mem × BitVec 8) : Mem × BitVec 8 :=
  let value := nib + s.2
  let carry : BitVec 8 := if BitVec.slt value 8#8 then 0#8 else 1#8
  let digit := ((value ^^^ (-carry)) + carry) &&& 0xF#8
  let m := putWord s.1 oK n (digit.signExtend 64)
  let m := putWord m oS n ((-carry).signExtend 64)
  (m, carry)

/-- The two nested loops: `byte k` is the byte that the iteration `k` reads and `pos` the entry of
its low nibble; the high nibble goes `d` entries further. -/
def recLoop (oS oK : ℕ) (byte : ℕ → Byte) (pos : ℕ → ℕ) (d : ℕ) : ℕ → Mem × BitVec 8 → Mem × BitVec 8
  | 0, s => s
  | k + 1, s =>
      let s := recLoop oS oK byte pos d k s
      let s := recStep oS oK (byte k &&& 0xF#8) (pos k) s
      recStep oS oK ((byte k >>> 4) &&& 0xF#8) (pos k + d) s

/-- src/edwards255.c:805-838 `recoding_signed_scalar_fold2w4_ed25519`; `list_signs` is the object
`oS` and `list_digits` the object `oK`.  The iteration (i,j) is the iteration 16i + j here. -/
def recode25519 (oS oK : ℕ) (r : List Byte) (m : Mem) : Mem :=
  let s := recLoop oS oK (fun k => r.getD k 0) (fun k => 4 * (k % 16) + k / 16) 2 32 (m, 0#8)
  putWord s.1 oK 64 (s.2.signExtend 64)

/-- src/edwards448.c:164-191 `recoding_signed_scalar_fold4w4_448`.  The iteration (i,j) is the
iteration 28i + j here. -/
def recode448 (oS oK : ℕ) (r : List Byte) (m : Mem) : Mem :=
  let s := recLoop oS oK (fun k => r.getD k 0)
    (fun k => 56 * (k / 28) + 2 * (k % 28)) 1 56 (m, 0#8)
  putWord s.1 oK 112 (s.2.signExtend 64)

/-! ## Ed25519 -/

/-- src/edwards255.c:1027-1033 `one_half`, an initialised local element. -/
def putHalf25519 (m : Mem) (o : ℕ) : Mem := fun o' c =>
  if o' = o ∧ c < 10 then
    LIT ([0x3fffff7, 0x1ffffff, 0x1ffffff, 0x3ffffff, 0x3ffffff, 0x1ffffff, 0x1ffffff, 0x3ffffff,
      0x3ffffff, 0x0ffffff].getD c 0)
  else m o' c

/-- src/edwards255.c:1048-1051: the first `n` iterations. -/
def mulLoop25519 (ρ : ℕ → Regs) (b : ℕ) : ℕ → Mem → Mem
  | 0, m => m
  | n + 1, m =>
      let m := mulLoop25519 ρ b n m
      let m := (query25519 (n + 1)).call [(b + 1, 0), (b + 3, n + 1), (b + 2, n + 1)] m (ρ (2 * n))
      P25519.mixadd_4way.call [(b, 0), (b + 1, 0), (b + 5, 0)] m (ρ (2 * n + 1))

/-- src/edwards255.c:1037-1046: the first point. -/
def first25519 (ρ : ℕ → Regs) (b : ℕ) (m : Mem) : Mem :=
  let m := F25519.V4.zero.call [(b, 20)] m (ρ 0)
  let m := m.set b 20 (LIT 2)
  let m := (query25519 0).call [(b + 1, 0), (b + 3, 0), (b + 2, 0)] m (ρ 1)
  let m := F25519.V4.sub.call [(b, 0), (b + 1, 0), (b + 1, 10)] m (ρ 2)
  let m := F25519.V4.add.call [(b, 10), (b + 1, 0), (b + 1, 10)] m (ρ 3)
  let m := F25519.V4.new_compressfast2.call [(b, 0), (b, 10)] m (ρ 4)
  let m := F25519.V4.mul.call [(b, 30), (b, 0), (b, 10)] m (ρ 5)
  F25519.V4.mul.call [(b, 30), (b, 30), (b + 4, 0)] m (ρ 6)

/-- src/edwards255.c:1021-1054 `point_multiplication_fold2w4_ed25519`.  Local objects: b `Q`,
b+1 `P`, b+2 `K`, b+3 `S`, b+4 `one_half`, b+5 the arrays of `_4way_mixadd_25519`, b+6 those of
`join_points`. -/
def mult25519 (ρ : ℕ → Regs) (b : ℕ) (rB : Place) (r : List Byte) (m : Mem) : Mem :=
  let m := putHalf25519 m (b + 4)
  let m := recode25519 (b + 3) (b + 2) r m
  let m := first25519 ρ b m
  let m := mulLoop25519 (fun n => ρ (n + 7)) b 15 m
  P25519.join_points.call [rB, (b, 0), (b + 6, 0)] m (ρ 37)

/-! ## Ed448 -/

/-- src/edwards448.c:710-719 `one_half`. -/
def putHalf448 (m : Mem) (o : ℕ) : Mem := fun o' c =>
  if o' = o ∧ c < 16 then
    LIT ([0, 0xfffffff, 0, 0xfffffff, 0, 0xfffffff, 0, 0xfffffff, 0, 0xfffffff, 0, 0xfffffff,
      0, 0xfffffff, 0x8000000, 0x7ffffff].getD c 0)
  else m o' c

/-- src/edwards448.c:734-737: the first `n` iterations. -/
def mulLoop448 (ρ : ℕ → Regs) (b : ℕ) : ℕ → Mem → Mem
  | 0, m => m
  | n + 1, m =>
      let m := mulLoop448 ρ b n m
      let m := (query448 (n + 1)).call [(b + 1, 0), (b + 3, n + 1), (b + 2, n + 1)] m (ρ (2 * n))
      P448.mixadd_4way.call [(b, 0), (b + 1, 0), (b + 5, 0)] m (ρ (2 * n + 1))

/-- src/edwards448.c:722-732: the first point. -/
def first448 (ρ : ℕ → Regs) (b : ℕ) (m : Mem) : Mem :=
  let m := F448.V4.zero.call [(b, 32)] m (ρ 0)
  let m := m.set b 32 (LIT 2)
  let m := (query448 0).call [(b + 1, 0), (b + 3, 0), (b + 2, 0)] m (ρ 1)
  let m := F448.V4.sub.call [(b, 0), (b + 1, 0), (b + 1, 16)] m (ρ 2)
  let m := F448.V4.add.call [(b, 16), (b + 1, 0), (b + 1, 16)] m (ρ 3)
  let m := F448.V4.compress.call [(b, 0)] m (ρ 4)
  let m := F448.V4.compress.call [(b, 16)] m (ρ 5)
  let m := F448.V4.mul.call [(b, 48), (b, 0), (b, 16)] m (ρ 6)
  F448.V4.mul.call [(b, 48), (b, 48), (b + 4, 0)] m (ρ 7)

/-- src/edwards448.c:704-742 `point_multiplication_fold4w4`.  Local objects as in `mult25519`, and
b+7 the arrays of `isogeny_2w_H0H8`. -/
def mult448 (ρ : ℕ → Regs) (b : ℕ) (rB : Place) (r : List Byte) (m : Mem) : Mem :=
  let m := putHalf448 m (b + 4)
  let m := recode448 (b + 3) (b + 2) r m
  let m := first448 ρ b m
  let m := mulLoop448 (fun n => ρ (n + 8)) b 27 m
  let m := P448.join_points.call [rB, (b, 0), (b + 6, 0)] m (ρ 62)
  P448.isogeny_2w.call [rB, (b + 7, 0)] m (ρ 63)

end Verif.Vec
