import Verif.Word

/-!
# AVX2 vectors

The vector code of the library is straight-line code over the macros of
/repo/include/simd_avx2.h.  A 256-bit register is four 64-bit lanes, a 128-bit register
is two.  Programs are written once, over the two type classes below, and are run at
`Vec4 W` (`__m256i`) or `Vec2 W` (`__m128i`):

* `Lane` has the operations that act on each 64-bit lane by itself;
* `Simd` adds those that move lanes inside one 128-bit half only.

Instructions that cross the two halves of a 256-bit register (`PERM64`, `PERM128`, ...)
are defined for `Vec4` alone.  The semantics follow the Intel SDM (vol. 2) and the
intrinsics guide. -/

namespace Verif

/-- Operations on one 64-bit lane. -/
class Lane (α : Type) where
  /-- a constant, the same in every lane: `SET164(n)` (simd_avx2.h:94) -/
  LIT : ℕ → α
  /-- `ADD`, `ADD128` (simd_avx2.h:51,69): `vpaddq` -/
  ADD : α → α → α
  /-- `SUB` (simd_avx2.h:70): `vpsubq` -/
  SUB : α → α → α
  /-- `AND`, `AND128` (simd_avx2.h:52,71): `vpand` -/
  AND : α → α → α
  /-- `MUL`, `MUL128` (simd_avx2.h:53,75): `vpmuludq`, the product of the low 32 bits -/
  MUL : α → α → α
  /-- `SHL`, `SHL128` (simd_avx2.h:54,77): `vpsllq`; a count of 64 or more gives 0 -/
  SHL : α → ℕ → α
  /-- `SHR`, `SHR128` (simd_avx2.h:55,76): `vpsrlq`; a count of 64 or more gives 0 -/
  SHR : α → ℕ → α

export Lane (LIT ADD SUB AND MUL SHL SHR)

/-- Operations that stay inside each 128-bit half.  A constant or a vector of shift
counts is given by its two 64-bit entries, low one first, and is the same in each half. -/
class Simd (α : Type) extends Lane α where
  /-- a constant with two different lanes: `SET32(0,h,0,l)`, or `{l,h,l,h}` in memory -/
  LIT2 : ℕ → ℕ → α
  /-- `SHLV`, `SHLV128` (simd_avx2.h:60,78): `vpsllvq` with the counts (low, high) -/
  SHLV : α → ℕ → ℕ → α
  /-- `SHRV`, `SHRV128` (simd_avx2.h:61,79): `vpsrlvq` with the counts (low, high) -/
  SHRV : α → ℕ → ℕ → α
  /-- `SHUF32(x,0x44)`: the low lane twice (simd_avx2.h:58,87) -/
  SHUF44 : α → α
  /-- `SHUF32(x,0xEE)`: the high lane twice -/
  SHUFEE : α → α
  /-- `SHUF32(x,0x4E)`: the two lanes exchanged -/
  SHUF4E : α → α
  /-- `ALIGNR(x,y)` (simd_avx2.h:68), `vshufpd` with 5: [y.high, x.low] -/
  ALIGNR : α → α → α
  /-- `BLEND32128(x,y,0x3)` (simd_avx2.h:59): the low lane from y -/
  BLEND3 : α → α → α
  /-- `BLEND32128(x,y,0xC)` (simd_avx2.h:59): the high lane from y -/
  BLENDC : α → α → α

export Simd (LIT2 SHLV SHRV SHUF44 SHUFEE SHUF4E ALIGNR BLEND3 BLENDC)

/-- One machine lane. -/
instance : Lane W where
  LIT n := BitVec.ofNat 64 n
  ADD x y := x + y
  SUB x y := x - y
  AND x y := x &&& y
  MUL x y := BitVec.ofNat 64 (x.toNat % 2 ^ 32 * (y.toNat % 2 ^ 32))
  SHL x k := x <<< k
  SHR x k := x >>> k

/-- A 128-bit register: the low and the high 64-bit lane. -/
@[ext] structure Vec2 (β : Type) where
  l : β
  h : β
deriving DecidableEq

/-- A 256-bit register: four 64-bit lanes, lowest first. -/
@[ext] structure Vec4 (β : Type) where
  q0 : β
  q1 : β
  q2 : β
  q3 : β
deriving DecidableEq

section instances
variable {β : Type} [Lane β]

instance : Simd (Vec2 β) where
  LIT n := ⟨LIT n, LIT n⟩
  ADD x y := ⟨ADD x.l y.l, ADD x.h y.h⟩
  SUB x y := ⟨SUB x.l y.l, SUB x.h y.h⟩
  AND x y := ⟨AND x.l y.l, AND x.h y.h⟩
  MUL x y := ⟨MUL x.l y.l, MUL x.h y.h⟩
  SHL x k := ⟨SHL x.l k, SHL x.h k⟩
  SHR x k := ⟨SHR x.l k, SHR x.h k⟩
  LIT2 l h := ⟨LIT l, LIT h⟩
  SHLV x k m := ⟨SHL x.l k, SHL x.h m⟩
  SHRV x k m := ⟨SHR x.l k, SHR x.h m⟩
  SHUF44 x := ⟨x.l, x.l⟩
  SHUFEE x := ⟨x.h, x.h⟩
  SHUF4E x := ⟨x.h, x.l⟩
  ALIGNR x y := ⟨y.h, x.l⟩
  BLEND3 x y := ⟨y.l, x.h⟩
  BLENDC x y := ⟨x.l, y.h⟩

instance : Simd (Vec4 β) where
  LIT n := ⟨LIT n, LIT n, LIT n, LIT n⟩
  ADD x y := ⟨ADD x.q0 y.q0, ADD x.q1 y.q1, ADD x.q2 y.q2, ADD x.q3 y.q3⟩
  SUB x y := ⟨SUB x.q0 y.q0, SUB x.q1 y.q1, SUB x.q2 y.q2, SUB x.q3 y.q3⟩
  AND x y := ⟨AND x.q0 y.q0, AND x.q1 y.q1, AND x.q2 y.q2, AND x.q3 y.q3⟩
  MUL x y := ⟨MUL x.q0 y.q0, MUL x.q1 y.q1, MUL x.q2 y.q2, MUL x.q3 y.q3⟩
  SHL x k := ⟨SHL x.q0 k, SHL x.q1 k, SHL x.q2 k, SHL x.q3 k⟩
  SHR x k := ⟨SHR x.q0 k, SHR x.q1 k, SHR x.q2 k, SHR x.q3 k⟩
  LIT2 l h := ⟨LIT l, LIT h, LIT l, LIT h⟩
  SHLV x k m := ⟨SHL x.q0 k, SHL x.q1 m, SHL x.q2 k, SHL x.q3 m⟩
  SHRV x k m := ⟨SHR x.q0 k, SHR x.q1 m, SHR x.q2 k, SHR x.q3 m⟩
  SHUF44 x := ⟨x.q0, x.q0, x.q2, x.q2⟩
  SHUFEE x := ⟨x.q1, x.q1, x.q3, x.q3⟩
  SHUF4E x := ⟨x.q1, x.q0, x.q3, x.q2⟩
  ALIGNR x y := ⟨y.q1, x.q0, y.q3, x.q2⟩
  BLEND3 x y := ⟨y.q0, x.q1, y.q2, x.q3⟩
  BLENDC x y := ⟨x.q0, y.q1, x.q2, y.q3⟩

end instances

/-- `__m256i`. -/
abbrev V := Vec4 W

/-- `__m128i`. -/
abbrev U := Vec2 W

section views
variable {β γ : Type}

/-- The low 128-bit half: `CAST256TO128`, `EXTR(x,0)` (simd_avx2.h:96,99). -/
def Vec4.lo (x : Vec4 β) : Vec2 β := ⟨x.q0, x.q1⟩

/-- The high 128-bit half: `EXTR(x,1)` (simd_avx2.h:96). -/
def Vec4.hi (x : Vec4 β) : Vec2 β := ⟨x.q2, x.q3⟩

/-- The register made of two halves: `INSR(CAST128TO256(x),y,1)` (simd_avx2.h:97),
`PERM128` of two registers. -/
def Vec4.join (x y : Vec2 β) : Vec4 β := ⟨x.l, x.h, y.l, y.h⟩

def Vec2.map (f : β → γ) (x : Vec2 β) : Vec2 γ := ⟨f x.l, f x.h⟩

def Vec4.map (f : β → γ) (x : Vec4 β) : Vec4 γ := ⟨f x.q0, f x.q1, f x.q2, f x.q3⟩

end views

/-! ## Instructions that cross the 128-bit halves, and bitwise ones -/

section crossing
variable {β : Type}

/-- Lane `i` of a 256-bit register. -/
def Vec4.get (x : Vec4 β) : ℕ → β
  | 0 => x.q0
  | 1 => x.q1
  | 2 => x.q2
  | _ => x.q3

/-- `PERM64` (simd_avx2.h:89): `vpermq`. -/
def PERM64 (x : Vec4 β) (imm : ℕ) : Vec4 β :=
  ⟨x.get (imm % 4), x.get (imm / 4 % 4), x.get (imm / 16 % 4), x.get (imm / 64 % 4)⟩

/-- The half selected by two bits of the immediate of `vperm2i128`. -/
def half128 (x y : Vec4 β) : ℕ → Vec2 β
  | 0 => x.lo
  | 1 => x.hi
  | 2 => y.lo
  | _ => y.hi

/-- `PERM128` (simd_avx2.h:90): `vperm2i128`.  The zeroing bits of the immediate are
never used by the library. -/
def PERM128 (x y : Vec4 β) (imm : ℕ) : Vec4 β :=
  Vec4.join (half128 x y (imm % 4)) (half128 x y (imm / 16 % 4))

/-- `UPKL64` (simd_avx2.h:85): `vpunpcklqdq`. -/
def UPKL64 (x y : Vec4 β) : Vec4 β := ⟨x.q0, y.q0, x.q2, y.q2⟩

/-- `UPKH64` (simd_avx2.h:86): `vpunpckhqdq`. -/
def UPKH64 (x y : Vec4 β) : Vec4 β := ⟨x.q1, y.q1, x.q3, y.q3⟩

/-- `BLEND32` (simd_avx2.h:93): `vpblendd` with an immediate made of equal pairs of bits,
so that whole 64-bit lanes are selected, as in every use in the library. -/
def BLEND32 (x y : Vec4 β) (imm : ℕ) : Vec4 β :=
  ⟨if imm % 2 = 1 then y.q0 else x.q0, if imm / 4 % 2 = 1 then y.q1 else x.q1,
    if imm / 16 % 2 = 1 then y.q2 else x.q2, if imm / 64 % 2 = 1 then y.q3 else x.q3⟩

end crossing

/-- Applies a function of two lanes to each lane. -/
def Vec4.zip {β γ δ : Type} (f : β → γ → δ) (x : Vec4 β) (y : Vec4 γ) : Vec4 δ :=
  ⟨f x.q0 y.q0, f x.q1 y.q1, f x.q2 y.q2, f x.q3 y.q3⟩

/-- `XOR` (simd_avx2.h:73): `vpxor`. -/
def XOR (x y : V) : V := x.zip (· ^^^ ·) y

/-- `OR` (simd_avx2.h:74): `vpor`. -/
def OR (x y : V) : V := x.zip (· ||| ·) y

/-- `ANDNOT` (simd_avx2.h:72): `vpandn`, (not x) and y. -/
def ANDNOT (x y : V) : V := x.zip (fun a b => ~~~a &&& b) y

/-- `SET64(w3,w2,w1,w0)` (simd_avx2.h:95). -/
def SET64 (w3 w2 w1 w0 : W) : V := ⟨w0, w1, w2, w3⟩

/-- The bytes of a 64-bit lane that `vpblendvb` takes from its second operand: those whose
mask byte has its top bit set. -/
def byteMask (m : W) : W :=
  (if m.getLsbD 7 then 0xff#64 else 0) ||| (if m.getLsbD 15 then 0xff00#64 else 0) |||
  (if m.getLsbD 23 then 0xff0000#64 else 0) ||| (if m.getLsbD 31 then 0xff000000#64 else 0) |||
  (if m.getLsbD 39 then 0xff00000000#64 else 0) |||
  (if m.getLsbD 47 then 0xff0000000000#64 else 0) |||
  (if m.getLsbD 55 then 0xff000000000000#64 else 0) |||
  (if m.getLsbD 63 then 0xff00000000000000#64 else 0)

/-- One lane of `_mm256_blendv_epi8(a, b, mask)`: `vpblendvb`. -/
def blendvW (a b m : W) : W := (a &&& ~~~byteMask m) ||| (b &&& byteMask m)

/-- `_mm256_blendv_epi8(a, b, mask)`. -/
def BLENDV (a b m : V) : V :=
  ⟨blendvW a.q0 b.q0 m.q0, blendvW a.q1 b.q1 m.q1, blendvW a.q2 b.q2 m.q2,
    blendvW a.q3 b.q3 m.q3⟩

/-- `SHR8N128` (simd_avx2.h:56): `vpsrldq`, the 128-bit integer shifted right by k bytes. -/
def SHR8N128 (x : U) (k : ℕ) : U :=
  let n := (x.l.toNat + 2 ^ 64 * x.h.toNat) / 2 ^ (8 * k)
  ⟨BitVec.ofNat 64 n, BitVec.ofNat 64 (n / 2 ^ 64)⟩

/-- `UPKL64128` (simd_avx2.h:63): `vpunpcklqdq`. -/
def UPKL64128 (x y : U) : U := ⟨x.l, y.l⟩

/-- 32-bit element `j` of a 256-bit register. -/
def Vec4.dword (x : V) (j : ℕ) : BitVec 32 :=
  BitVec.setWidth 32 (x.get (j / 2) >>> (32 * (j % 2)))

/-- The register with the given 32-bit elements, lowest first. -/
def ofDwords (f : ℕ → BitVec 32) : V :=
  ⟨f 1 ++ f 0, f 3 ++ f 2, f 5 ++ f 4, f 7 ++ f 6⟩

/-- `PERMV128` (simd_avx2.h:92): `vpermd`, each 32-bit element selected by the low three
bits of the index element. -/
def PERMV128 (x idx : V) : V := ofDwords fun j => x.dword ((idx.dword j).toNat % 8)

/-- `_mm256_srai_epi32`: `vpsrad`, arithmetic shift of the 32-bit elements; a count above 31
fills with the sign. -/
def SRAI32 (x : V) (k : ℕ) : V := ofDwords fun j => (x.dword j).sshiftRight (min k 31)

/-- `SHUF32` (simd_avx2.h:87) with any immediate: `vpshufd`, in each 128-bit half. -/
def SHUF32 (x : V) (imm : ℕ) : V :=
  ofDwords fun j => x.dword (4 * (j / 4) + imm / 4 ^ (j % 4) % 4)

/-- `_mm256_broadcastsi128_si256`: `vbroadcasti128`. -/
def BROADCAST128 (x : U) : V := Vec4.join x x

end Verif
