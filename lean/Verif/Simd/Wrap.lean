import Verif.Simd.Shadow
import Mathlib.Tactic.Ring
import Mathlib.Algebra.Ring.Int.Parity

/-!
# Running a vector program modulo 2^64

Karatsuba multiplication subtracts terms that may exceed the current value, so its
intermediate words wrap around.  `Sw` carries, besides what `Sh` carries, a second flag under
which the word agrees with the integer modulo 2^64.  Additions and subtractions keep that
flag; products, masks and right shifts need operands that have not wrapped. -/

namespace Verif

/-- An interval, with a flag that survives wrap-around. -/
structure Iw where
  iv : Iv
  wk : Bool

instance : Lane Iw where
  LIT n := ⟨LIT n, true⟩
  ADD x y := ⟨ADD x.iv y.iv, x.wk && y.wk⟩
  SUB x y := ⟨SUB x.iv y.iv, x.wk && y.wk⟩
  AND x y := ⟨AND x.iv y.iv, (AND x.iv y.iv).ok⟩
  MUL x y := ⟨MUL x.iv y.iv, (MUL x.iv y.iv).ok⟩
  SHL x k := ⟨SHL x.iv k, (SHL x.iv k).ok⟩
  SHR x k := ⟨SHR x.iv k, (SHR x.iv k).ok⟩

/-- A shadow value and the agreement modulo 2^64. -/
structure Sw where
  s : Sh
  wk : Bool
  ok : wk = true → ∃ q : ℤ, s.n = s.w.toNat + 2 ^ 64 * q

theorem Sh.weak (s : Sh) (h : s.iv.ok = true) : ∃ q : ℤ, s.n = s.w.toNat + 2 ^ 64 * q :=
  ⟨0, by rw [(s.ok h).1]; ring⟩

instance : Lane Sw where
  LIT n := ⟨LIT n, true, fun _ => ⟨n / 2 ^ 64, by
    simp only [Lane.LIT, BitVec.toNat_ofNat]
    push_cast
    omega⟩⟩
  ADD x y := ⟨ADD x.s y.s, x.wk && y.wk, by
    intro h
    rw [Bool.and_eq_true] at h
    obtain ⟨q, hq⟩ := x.ok h.1
    obtain ⟨r, hr⟩ := y.ok h.2
    refine ⟨q + r + (x.s.w.toNat + y.s.w.toNat) / 2 ^ 64, ?_⟩
    simp only [Lane.ADD, BitVec.toNat_add, hq, hr]
    push_cast
    omega⟩
  SUB x y := ⟨SUB x.s y.s, x.wk && y.wk, by
    intro h
    rw [Bool.and_eq_true] at h
    obtain ⟨q, hq⟩ := x.ok h.1
    obtain ⟨r, hr⟩ := y.ok h.2
    have hx := x.s.w.isLt
    have hy := y.s.w.isLt
    simp only [Lane.SUB, BitVec.toNat_sub, hq, hr]
    refine ⟨q - r - 1 + (2 ^ 64 - y.s.w.toNat + x.s.w.toNat) / 2 ^ 64, ?_⟩
    push_cast [Nat.le_of_lt hy]
    omega⟩
  AND x y := ⟨AND x.s y.s, (AND x.s y.s).iv.ok, Sh.weak _⟩
  MUL x y := ⟨MUL x.s y.s, (MUL x.s y.s).iv.ok, Sh.weak _⟩
  SHL x k := ⟨SHL x.s k, (SHL x.s k).iv.ok, Sh.weak _⟩
  SHR x k := ⟨SHR x.s k, (SHR x.s k).iv.ok, Sh.weak _⟩

/-- The word. -/
def Sw.w (x : Sw) : W := x.s.w
/-- The integer. -/
def Sw.n (x : Sw) : ℤ := x.s.n
/-- The interval with both flags. -/
def Sw.iw (x : Sw) : Iw := ⟨x.s.iv, x.wk⟩

/-- A word in a known range. -/
def Sw.mk' (w : W) (hi : ℕ) (h : w.toNat ≤ hi) : Sw :=
  ⟨.mk' w 0 hi ⟨by simp, h⟩, true, fun _ => ⟨0, by simp [Sh.mk']⟩⟩

/-- A word that agrees modulo 2^64 with an integer in [0, 2^64) is that integer. -/
theorem Sw.eq_of (x : Sw) (h : x.wk = true) (h0 : 0 ≤ x.n) (h1 : x.n < 2 ^ 64) :
    (x.w.toNat : ℤ) = x.n := by
  obtain ⟨q, hq⟩ := x.ok h
  have := x.w.isLt
  unfold Sw.n at *
  unfold Sw.w at *
  omega

end Verif
