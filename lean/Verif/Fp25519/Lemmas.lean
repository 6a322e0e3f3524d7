import Verif.Fp25519.Asm
import Mathlib.Tactic.Ring
import Mathlib.Data.Int.ModEq

/-! # Helper lemmas for the Fp25519 assembly blocks -/

namespace Verif.Fp25519

/-- The prime 2^255 - 19. -/
def p25519 : ℤ := 2 ^ 255 - 19

/-- The last `add` of a final fold produces no carry. -/
theorem last_fold {c d : Bool} {s0 rest S m r : ℤ} (hrest : 0 ≤ rest)
    (e : s0 + rest + 2 ^ 256 * bv c = S + m) (hS : S < 2 ^ 256) (hm : m ≤ 2 ^ 40)
    (e2 : r + 2 ^ 64 * bv d = s0 + 38 * bv c) (hs : s0 < 2 ^ 64) (hr : 0 ≤ r) : bv d = 0 := by
  cases c <;> cases d <;> simp at * <;> omega

/-- The last `sub` of a final fold produces no borrow. -/
theorem last_sub {c d : Bool} {s0 rest S m r : ℤ} (hrest : 0 ≤ rest)
    (e : s0 + rest - 2 ^ 256 * bv c = S - m) (hS : 0 ≤ S) (hm : m ≤ 2 ^ 40)
    (e2 : r - 2 ^ 64 * bv d = s0 - 38 * bv c ∧ 0 ≤ s0 ∧ s0 < 2 ^ 64) (hr' : r < 2 ^ 64) (hr : 0 ≤ r)
    (hrest' : rest ≤ 2 ^ 256 - 2 ^ 64) : bv d = 0 := by
  cases c <;> cases d <;> simp at * <;> omega

/-- One folding step, 2^256 = 38 modulo p. -/
def fold (x : ℤ) : ℤ := x % 2 ^ 256 + 38 * (x / 2 ^ 256)

theorem fold_eq {x w t : ℤ} (h : w + 2 ^ 256 * t = x) (h0 : 0 ≤ w) (h1 : w < 2 ^ 256) :
    fold x = w + 38 * t := by
  unfold fold; omega

theorem fold_mod (x : ℤ) : ∃ q, fold x = x + p25519 * q :=
  ⟨-2 * (x / 2 ^ 256), by unfold fold p25519; omega⟩

theorem fold2_mod {x y : ℤ} (h : x = fold (fold y)) : ∃ q, x = y + p25519 * q := by
  obtain ⟨q1, h1⟩ := fold_mod y
  obtain ⟨q2, h2⟩ := fold_mod (fold y)
  exact ⟨q1 + q2, by rw [h, h2, h1]; ring⟩

theorem fold3_mod {x y : ℤ} (h : x = fold (fold (fold y))) : ∃ q, x = y + p25519 * q := by
  obtain ⟨q1, h1⟩ := fold_mod y
  obtain ⟨q2, h2⟩ := fold2_mod h
  exact ⟨q1 + q2, by rw [h2, h1]; ring⟩

/-- Two folds, written with the intermediate words and carries. -/
theorem fold2_eq {x w t v c r : ℤ} (h1 : w + 2 ^ 256 * t = x) (w0 : 0 ≤ w) (w1 : w < 2 ^ 256)
    (h2 : v + 2 ^ 256 * c = w + 38 * t) (v0 : 0 ≤ v) (v1 : v < 2 ^ 256) (h3 : r = v + 38 * c) :
    r = fold (fold x) := by
  rw [fold_eq h1 w0 w1, fold_eq h2 v0 v1, h3]

/-- Three folds, written with the intermediate words and carries. -/
theorem fold3_eq {x lo hi w t v c r : ℤ} (h0 : lo + 2 ^ 256 * hi = x) (l0 : 0 ≤ lo)
    (l1 : lo < 2 ^ 256) (h1 : w + 2 ^ 256 * t = lo + 38 * hi) (w0 : 0 ≤ w) (w1 : w < 2 ^ 256)
    (h2 : v + 2 ^ 256 * c = w + 38 * t) (v0 : 0 ≤ v) (v1 : v < 2 ^ 256) (h3 : r = v + 38 * c) :
    r = fold (fold (fold x)) := by
  rw [fold_eq h0 l0 l1]; exact fold2_eq h1 w0 w1 h2 v0 v1 h3

end Verif.Fp25519
