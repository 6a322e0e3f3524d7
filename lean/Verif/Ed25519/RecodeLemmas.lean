import Verif.Ed25519.Mult
import Verif.Ed25519.ScalarLemmas
import Mathlib.Algebra.BigOperators.Intervals

/-! # Recoding of the scalar: helper lemmas -/

namespace Verif.Ed25519

/-- The signed digit at nibble `k`. -/
def sdigit (r : List Byte) (k : ℕ) : ℤ :=
  if signAt r k = 0 then (digitAt r k).toNat else -((digitAt r k).toNat : ℤ)

/-- What one step does, for every nibble and every carry. -/
theorem rec_step : ∀ n : Fin 16, ∀ c : Fin 2,
    let value := recValue (BitVec.ofNat 8 n) (BitVec.ofNat 8 c)
    let carry := recCarry value
    let digit : W := (((value ^^^ (-carry)) + carry) &&& 0xF#8).signExtend 64
    let sign : W := (-carry).signExtend 64
    (carry = 0#8 ∧ sign = 0 ∨ carry = 1#8 ∧ sign = -1) ∧ digit.toNat ≤ 8 ∧
      (n.val : ℤ) + c.val = (if sign = 0 then (digit.toNat : ℤ) else -digit.toNat) +
        16 * carry.toNat ∧
      -8 ≤ (if sign = 0 then (digit.toNat : ℤ) else -digit.toNat) ∧
      (if sign = 0 then (digit.toNat : ℤ) else -digit.toNat) ≤ 7 := by
  decide +kernel

theorem nibble_lt (r : List Byte) (k : ℕ) : (nibble r k).toNat < 16 := by
  unfold nibble
  split
  · rw [BitVec.toNat_and]; exact lt_of_le_of_lt Nat.and_le_right (by decide)
  · rw [BitVec.toNat_and]; exact lt_of_le_of_lt Nat.and_le_right (by decide)

theorem carryAt_cases (r : List Byte) (k : ℕ) : carryAt r k = 0#8 ∨ carryAt r k = 1#8 := by
  cases k with
  | zero => exact Or.inl rfl
  | succ k => rw [carryAt, recCarry]; split <;> simp

theorem rec_at (r : List Byte) (k : ℕ) :
    (carryAt r (k + 1) = 0#8 ∧ signAt r k = 0 ∨ carryAt r (k + 1) = 1#8 ∧ signAt r k = -1) ∧
    (digitAt r k).toNat ≤ 8 ∧
    ((nibble r k).toNat : ℤ) + (carryAt r k).toNat =
      sdigit r k + 16 * (carryAt r (k + 1)).toNat ∧ -8 ≤ sdigit r k ∧ sdigit r k ≤ 7 := by
  have hn := nibble_lt r k
  have hc : (carryAt r k).toNat < 2 := by rcases carryAt_cases r k with h | h <;> rw [h] <;> decide
  have h := rec_step ⟨_, hn⟩ ⟨_, hc⟩
  have e1 : BitVec.ofNat 8 (nibble r k).toNat = nibble r k := by simp
  have e2 : BitVec.ofNat 8 (carryAt r k).toNat = carryAt r k := by simp
  simp only [e1, e2] at h
  exact h

/-- The nibbles as a number. -/
theorem nibble_sum : ∀ r : List Byte,
    (∑ k ∈ Finset.range (2 * r.length), 16 ^ k * (nibble r k).toNat) = leNat r
  | [] => rfl
  | b :: r => by
    have ih := nibble_sum r
    have e0 : (nibble (b :: r) 0).toNat = b.toNat % 16 := by
      have : nibble (b :: r) 0 = b &&& 0xF#8 := rfl
      rw [this, BitVec.toNat_and]
      exact Nat.and_two_pow_sub_one_eq_mod b.toNat 4
    have e1 : (nibble (b :: r) 1).toNat = b.toNat / 16 := by
      have : nibble (b :: r) 1 = (b >>> 4) &&& 0xF#8 := rfl
      rw [this, BitVec.toNat_and, BitVec.toNat_ushiftRight]
      have h := Nat.and_two_pow_sub_one_eq_mod (b.toNat >>> 4) 4
      have hb := b.isLt
      have h2 : b.toNat >>> 4 = b.toNat / 16 := Nat.shiftRight_eq_div_pow _ 4
      rw [h2] at h ⊢
      refine h.trans (Nat.mod_eq_of_lt ?_)
      omega
    have e2 : ∀ k, nibble (b :: r) (k + 1 + 1) = nibble r k := fun k => by
      have h1 : (k + 1 + 1) / 2 = k / 2 + 1 := by omega
      have h2 : (k + 1 + 1) % 2 = k % 2 := by omega
      unfold nibble
      rw [h1, h2]; rfl
    rw [List.length_cons, show 2 * (r.length + 1) = 2 * r.length + 1 + 1 by ring,
      Finset.sum_range_succ', Finset.sum_range_succ', leNat, ← ih, Finset.mul_sum, e0]
    simp only [e2, zero_add, e1, pow_zero, one_mul, pow_one, pow_succ]
    have : ∀ k, 16 ^ k * 16 * 16 * (nibble r k).toNat = 256 * (16 ^ k * (nibble r k).toNat) :=
      fun k => by ring
    simp only [this]
    omega

theorem rec_sum (r : List Byte) (n : ℕ) :
    (∑ k ∈ Finset.range n, 16 ^ k * ((nibble r k).toNat : ℤ)) =
      (∑ k ∈ Finset.range n, 16 ^ k * sdigit r k) + 16 ^ n * (carryAt r n).toNat := by
  induction n with
  | zero => simp [carryAt]
  | succ n ih =>
    rw [Finset.sum_range_succ, Finset.sum_range_succ, ih]
    have := (rec_at r n).2.2.1
    rw [pow_succ]
    linear_combination (16 : ℤ) ^ n * this

theorem sdigit_sum_bound (r : List Byte) (n : ℕ) :
    -8 * ((16 : ℤ) ^ n - 1) ≤ 15 * (∑ k ∈ Finset.range n, 16 ^ k * sdigit r k) ∧
      15 * (∑ k ∈ Finset.range n, 16 ^ k * sdigit r k) ≤ 7 * ((16 : ℤ) ^ n - 1) := by
  induction n with
  | zero => simp
  | succ n ih =>
    obtain ⟨-, -, -, h1, h2⟩ := rec_at r n
    have hp : (0 : ℤ) < 16 ^ n := by positivity
    have a1 := mul_le_mul_of_nonneg_left h1 hp.le
    have a2 := mul_le_mul_of_nonneg_left h2 hp.le
    rw [Finset.sum_range_succ, pow_succ]
    constructor <;> nlinarith

/-- The scalars whose recoding ends with a carry. -/
def recLimit : ℕ := 7 * ((16 ^ 64 - 1) / 15)

/-- The digits add up to the scalar, less 2^256 when the last carry is lost. -/
theorem recode_value (r : List Byte) (h : r.length = 32) :
    (∑ k ∈ Finset.range 64, 16 ^ k * sdigit r k) =
      (leNat r : ℤ) - if leNat r ≤ recLimit then 0 else 2 ^ 256 := by
  have h1 := rec_sum r 64
  have h2 := nibble_sum r
  have h3 := sdigit_sum_bound r 64
  rw [h] at h2
  have h4 : (∑ k ∈ Finset.range 64, 16 ^ k * ((nibble r k).toNat : ℤ)) = (leNat r : ℤ) := by
    rw [← h2]; push_cast; rfl
  rw [h4] at h1
  have e : (16 : ℤ) ^ 64 = 2 ^ 256 := by norm_num
  rw [e] at h1 h3
  generalize (∑ k ∈ Finset.range 64, 16 ^ k * sdigit r k) = S at *
  have e2 : recLimit = 7 * ((2 ^ 256 - 1) / 15) := by decide +kernel
  rw [e2]
  rcases carryAt_cases r 64 with hc | hc <;> rw [hc] at h1 <;> norm_num at h1 h3 ⊢ <;>
    split <;> omega

end Verif.Ed25519
