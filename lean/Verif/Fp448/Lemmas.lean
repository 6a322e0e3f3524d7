import Verif.Fp448.Asm
import Mathlib.Tactic.Ring
import Mathlib.Data.Int.ModEq

/-! # Helper lemmas for the Fp448 assembly blocks -/

namespace Verif.Fp448

set_option exponentiation.threshold 2000

/-- The prime 2^448 - 2^224 - 1. -/
def p448 : ℤ := 2 ^ 448 - 2 ^ 224 - 1

theorem F7.val_nonneg (a : F7) : 0 ≤ a.val := by
  unfold F7.val
  linarith [iv_nonneg a.w0, iv_nonneg a.w1, iv_nonneg a.w2, iv_nonneg a.w3, iv_nonneg a.w4,
    iv_nonneg a.w5, iv_nonneg a.w6]

theorem F7.val_lt (a : F7) : a.val < 2 ^ 448 := by
  unfold F7.val
  linarith [iv_le a.w0, iv_le a.w1, iv_le a.w2, iv_le a.w3, iv_le a.w4, iv_le a.w5, iv_le a.w6]

/-- One folding step, 2^448 = 2^224 + 1 modulo p. -/
def fold (x : ℤ) : ℤ := x % 2 ^ 448 + (1 + 2 ^ 224) * (x / 2 ^ 448)

theorem fold_eq {x w t : ℤ} (h : w + 2 ^ 448 * t = x) (h0 : 0 ≤ w) (h1 : w < 2 ^ 448) :
    fold x = w + (1 + 2 ^ 224) * t := by
  unfold fold; omega

theorem fold_mod (x : ℤ) : ∃ q, fold x = x + p448 * q :=
  ⟨-(x / 2 ^ 448), by unfold fold p448; omega⟩

theorem fold2_mod {x y : ℤ} (h : x = fold (fold y)) : ∃ q, x = y + p448 * q := by
  obtain ⟨q1, h1⟩ := fold_mod y
  obtain ⟨q2, h2⟩ := fold_mod (fold y)
  exact ⟨q1 + q2, by rw [h, h2, h1]; ring⟩

/-- Two folds, written with the intermediate words and carries; the last carry is dropped. -/
theorem fold2_eq {x w t v c r d : ℤ} (h1 : w + 2 ^ 448 * t = x) (w0 : 0 ≤ w) (w1 : w < 2 ^ 448)
    (t0 : -1 ≤ t) (t1 : t ≤ 39082)
    (h2 : v + 2 ^ 448 * c = w + (1 + 2 ^ 224) * t) (v0 : 0 ≤ v) (v1 : v < 2 ^ 448)
    (h3 : r + 2 ^ 448 * d = v + (1 + 2 ^ 224) * c) (r0 : 0 ≤ r) (r1 : r < 2 ^ 448) :
    r = fold (fold x) := by
  rw [fold_eq h1 w0 w1, fold_eq h2 v0 v1]
  omega

/-- The first step of the reduction: with x = lo + 2^448 (h0 + 2^224 h1) it is
lo + (h0 + 2^225 h1) + (h1 + 2^224 h0). -/
def spread (x : ℤ) : ℤ :=
  x % 2 ^ 448 + (1 + 2 ^ 224) * (x / 2 ^ 448 % 2 ^ 224) + (1 + 2 ^ 225) * (x / 2 ^ 448 / 2 ^ 224)

theorem spread_mod (x : ℤ) : ∃ q, spread x = x + p448 * q := by
  refine ⟨-(x / 2 ^ 448) - x / 2 ^ 448 / 2 ^ 224, ?_⟩
  unfold spread p448; omega

/-- `spread` written with the words. -/
def spreadW (a : F14) : ℤ :=
  F7.val ⟨a.w0, a.w1, a.w2, a.w3, a.w4, a.w5, a.w6⟩ +
  (1 + 2 ^ 224) * (iv a.w7 + 2 ^ 64 * iv a.w8 + 2 ^ 128 * iv a.w9 + 2 ^ 192 * lv a.w10) +
  (1 + 2 ^ 225) * (hv a.w10 + 2 ^ 32 * iv a.w11 + 2 ^ 96 * iv a.w12 + 2 ^ 160 * iv a.w13)

theorem spread_of {x lo l h : ℤ} (e : lo + 2 ^ 448 * (l + 2 ^ 224 * h) = x) (h0 : 0 ≤ lo)
    (h1 : lo < 2 ^ 448) (l0 : 0 ≤ l) (l1 : l < 2 ^ 224) :
    spread x = lo + (1 + 2 ^ 224) * l + (1 + 2 ^ 225) * h := by
  unfold spread; omega

theorem spread_eq (a : F14) : spread a.val = spreadW a := by
  refine spread_of ?_ (F7.val_nonneg _) (F7.val_lt _) ?_ ?_
  · simp only [F7.val, F14.val]
    linear_combination -2 ^ 640 * hl_split a.w10
  · linarith only [iv_nonneg a.w7, iv_nonneg a.w8, iv_nonneg a.w9, lv_nonneg a.w10]
  · linarith only [iv_le a.w7, iv_le a.w8, iv_le a.w9, lv_le a.w10]

end Verif.Fp448
