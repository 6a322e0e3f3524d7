import Verif.Simd.Basic

/-! # Unpack instructions inside the 128-bit halves, and the byte shift by one lane -/

namespace Verif

/-- `Simd` with the two unpack instructions, which also stay inside each 128-bit half. -/
class SimdU (α : Type) extends Simd α where
  /-- `UPKL64(x,y)` (simd_avx2.h:85): [x.low, y.low] -/
  UPKL : α → α → α
  /-- `UPKH64(x,y)` (simd_avx2.h:86): [x.high, y.high] -/
  UPKH : α → α → α

export SimdU (UPKL UPKH)

section
variable {β : Type} [Lane β]

instance : SimdU (Vec2 β) where
  UPKL x y := ⟨x.l, y.l⟩
  UPKH x y := ⟨x.h, y.h⟩

instance : SimdU (Vec4 β) where
  UPKL := UPKL64
  UPKH := UPKH64

/-- `SHR8` (simd_avx2.h:82): `vpsrldq` by 8 bytes, in each 128-bit half. -/
def SHR8 (x : Vec4 β) : Vec4 β := ⟨x.q1, LIT 0, x.q3, LIT 0⟩

end

end Verif
