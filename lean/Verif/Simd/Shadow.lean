import Verif.Simd.Basic
import Mathlib.Data.Nat.Log
import Mathlib.Data.Nat.Bitwise

/-!
# Running a vector program on words, integers and intervals at once

A lane program that never overflows computes on machine words what it computes on
integers.  `Sh` carries a word, the integer it stands for and an interval together with
the proof that the three agree as long as the interval part has not given up.  As `Sh`
is itself a `Lane`, every program over `Lane` or `Simd` can be run on it, which relates
its run on words to its run on integers; the absence of overflow is then a closed
computation on intervals. -/

namespace Verif

/-- Integers as lanes: no wrap-around.  The second operand of `AND` is always a mask
2^k-1 in the programs at hand, so it acts as the remainder modulo 2^k. -/
instance : Lane ℤ where
  LIT n := n
  ADD x y := x + y
  SUB x y := x - y
  AND x y := x % (y + 1)
  MUL x y := x * y
  SHL x k := if 64 ≤ k then 0 else x * 2 ^ k
  SHR x k := if 64 ≤ k then 0 else x / 2 ^ k

/-- An interval, and whether all the computations that lead to it fit in a lane. -/
structure Iv where
  lo : ℕ
  hi : ℕ
  ok : Bool
deriving DecidableEq

namespace Iv

def lit (n : ℕ) : Iv := ⟨n, n, decide (n < 2 ^ 64)⟩
def add (x y : Iv) : Iv :=
  ⟨x.lo + y.lo, x.hi + y.hi, x.ok && y.ok && decide (x.hi + y.hi < 2 ^ 64)⟩
def sub (x y : Iv) : Iv :=
  ⟨x.lo - y.hi, x.hi - y.lo, x.ok && y.ok && decide (y.hi ≤ x.lo)⟩
def and (x y : Iv) : Iv :=
  ⟨0, min x.hi y.hi,
    x.ok && y.ok && decide (y.lo = y.hi) && decide (2 ^ Nat.log2 (y.hi + 1) = y.hi + 1)⟩
def mul (x y : Iv) : Iv :=
  ⟨x.lo * y.lo, x.hi * y.hi,
    x.ok && y.ok && decide (x.hi < 2 ^ 32) && decide (y.hi < 2 ^ 32)⟩
def shl (x : Iv) (k : ℕ) : Iv :=
  if 64 ≤ k then ⟨0, 0, x.ok⟩
  else ⟨x.lo * 2 ^ k, x.hi * 2 ^ k, x.ok && decide (x.hi * 2 ^ k < 2 ^ 64)⟩
def shr (x : Iv) (k : ℕ) : Iv :=
  if 64 ≤ k then ⟨0, 0, x.ok⟩ else ⟨x.lo / 2 ^ k, x.hi / 2 ^ k, x.ok⟩

end Iv

instance : Lane Iv := ⟨Iv.lit, Iv.add, Iv.sub, Iv.and, Iv.mul, Iv.shl, Iv.shr⟩

/-- A word, an integer and an interval that agree while the interval is `ok`. -/
structure Sh where
  w : W
  n : ℤ
  iv : Iv
  ok : iv.ok = true → (w.toNat : ℤ) = n ∧ iv.lo ≤ w.toNat ∧ w.toNat ≤ iv.hi

private theorem and_le_min (a b : ℕ) : a &&& b ≤ min a b :=
  le_min Nat.and_le_left Nat.and_le_right

instance : Lane Sh where
  LIT n := ⟨LIT n, LIT n, LIT n, by
    simp only [Lane.LIT, Iv.lit, decide_eq_true_eq, BitVec.toNat_ofNat]
    intro h
    rw [Nat.mod_eq_of_lt h]; omega⟩
  ADD x y := ⟨ADD x.w y.w, ADD x.n y.n, ADD x.iv y.iv, by
    simp only [Lane.ADD, Iv.add, Bool.and_eq_true, decide_eq_true_eq, BitVec.toNat_add]
    rintro ⟨⟨hx, hy⟩, h⟩
    obtain ⟨h1, h2, h3⟩ := x.ok hx
    obtain ⟨k1, k2, k3⟩ := y.ok hy
    rw [Nat.mod_eq_of_lt (by omega)]
    push_cast
    omega⟩
  SUB x y := ⟨SUB x.w y.w, SUB x.n y.n, SUB x.iv y.iv, by
    simp only [Lane.SUB, Iv.sub, Bool.and_eq_true, decide_eq_true_eq]
    rintro ⟨⟨hx, hy⟩, h⟩
    obtain ⟨h1, h2, h3⟩ := x.ok hx
    obtain ⟨k1, k2, k3⟩ := y.ok hy
    rw [BitVec.toNat_sub_of_le (by rw [BitVec.le_def]; omega)]
    omega⟩
  AND x y := ⟨AND x.w y.w, AND x.n y.n, AND x.iv y.iv, by
    simp only [Lane.AND, Iv.and, Bool.and_eq_true, decide_eq_true_eq, BitVec.toNat_and]
    rintro ⟨⟨⟨hx, hy⟩, h⟩, k⟩
    obtain ⟨h1, h2, h3⟩ := x.ok hx
    obtain ⟨k1, k2, k3⟩ := y.ok hy
    have hle := and_le_min x.w.toNat y.w.toNat
    have hy' : y.w.toNat = 2 ^ Nat.log2 (y.iv.hi + 1) - 1 := by omega
    have hm : x.w.toNat &&& y.w.toNat = x.w.toNat % (y.w.toNat + 1) := by
      conv_lhs => rw [hy', Nat.and_two_pow_sub_one_eq_mod]
      congr 1; omega
    rw [← h1, ← k1]
    refine ⟨by rw [hm]; push_cast; rfl, by simp, by omega⟩⟩
  MUL x y := ⟨MUL x.w y.w, MUL x.n y.n, MUL x.iv y.iv, by
    simp only [Lane.MUL, Iv.mul, Bool.and_eq_true, decide_eq_true_eq, BitVec.toNat_ofNat]
    rintro ⟨⟨⟨hx, hy⟩, h⟩, k⟩
    obtain ⟨h1, h2, h3⟩ := x.ok hx
    obtain ⟨k1, k2, k3⟩ := y.ok hy
    have hlt : x.w.toNat * y.w.toNat < 2 ^ 32 * 2 ^ 32 :=
      Nat.mul_lt_mul'' (by omega) (by omega)
    rw [Nat.mod_eq_of_lt (a := x.w.toNat) (by omega),
      Nat.mod_eq_of_lt (a := y.w.toNat) (by omega), Nat.mod_eq_of_lt (by omega)]
    refine ⟨by push_cast; rw [h1, k1], Nat.mul_le_mul h2 k2, Nat.mul_le_mul h3 k3⟩⟩
  SHL x k := ⟨SHL x.w k, SHL x.n k, SHL x.iv k, by
    simp only [Lane.SHL, Iv.shl, BitVec.toNat_shiftLeft, Nat.shiftLeft_eq]
    by_cases hk : 64 ≤ k
    · simp only [hk, if_true]
      intro _
      have : x.w.toNat * 2 ^ k % 2 ^ 64 = 0 :=
        Nat.mod_eq_zero_of_dvd (Dvd.dvd.mul_left (pow_dvd_pow 2 hk) _)
      omega
    · simp only [hk, if_false, Bool.and_eq_true, decide_eq_true_eq]
      rintro ⟨hx, h⟩
      obtain ⟨h1, h2, h3⟩ := x.ok hx
      have h4 := Nat.mul_le_mul_right (2 ^ k) h2
      have h5 := Nat.mul_le_mul_right (2 ^ k) h3
      rw [Nat.mod_eq_of_lt (by omega)]
      refine ⟨by push_cast; rw [h1], h4, h5⟩⟩
  SHR x k := ⟨SHR x.w k, SHR x.n k, SHR x.iv k, by
    simp only [Lane.SHR, Iv.shr, BitVec.toNat_ushiftRight, Nat.shiftRight_eq_div_pow]
    by_cases hk : 64 ≤ k
    · simp only [hk, if_true]
      intro _
      have : x.w.toNat / 2 ^ k = 0 :=
        Nat.div_eq_of_lt (lt_of_lt_of_le x.w.isLt (Nat.pow_le_pow_right (by norm_num) hk))
      omega
    · simp only [hk, if_false]
      intro hx
      obtain ⟨h1, h2, h3⟩ := x.ok hx
      refine ⟨by push_cast; rw [h1], Nat.div_le_div_right h2, Nat.div_le_div_right h3⟩⟩

/-- A word in a known range. -/
def Sh.mk' (w : W) (lo hi : ℕ) (h : lo ≤ w.toNat ∧ w.toNat ≤ hi) : Sh :=
  ⟨w, w.toNat, ⟨lo, hi, true⟩, fun _ => ⟨rfl, h⟩⟩

end Verif
