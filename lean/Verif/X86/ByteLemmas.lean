import Verif.X86.Prog

/-!
# Bytes inside words

Helper lemmas.
-/

namespace Verif.X86

theorem ones_getLsbD (i : ℕ) : (255#64).getLsbD i = decide (i < 8) := by
  simp only [BitVec.getLsbD, BitVec.toNat_ofNat]
  rw [show 255 % 2 ^ 64 = 2 ^ 8 - 1 by norm_num, Nat.testBit_two_pow_sub_one]

theorem setByte_getLsbD (w : W) {k : ℕ} (f : Byte → Byte) {i : ℕ} (hi : i < 64) :
    (setByte w k f).getLsbD i = if 8 * k ≤ i ∧ i < 8 * k + 8 then
      (f ((w >>> (8 * k)).setWidth 8)).getLsbD (i - 8 * k) else w.getLsbD i := by
  unfold setByte
  simp only [BitVec.getLsbD_or, BitVec.getLsbD_and, BitVec.getLsbD_not, BitVec.getLsbD_shiftLeft,
    BitVec.getLsbD_setWidth, ones_getLsbD, hi, decide_true, Bool.true_and]
  by_cases h1 : i < 8 * k
  · simp [h1]
  · by_cases h2 : i < 8 * k + 8
    · have h3 : i - 8 * k < 8 := by omega
      have h4 : 8 * k ≤ i := by omega
      have h5 : i - 8 * k < 64 := by omega
      simp [h1, h2, h3, h4, h5]
    · have h3 : ¬i - 8 * k < 8 := by omega
      simp [h1, h2, h3, BitVec.getLsbD_of_ge _ _ (Nat.le_of_not_lt h3)]

theorem leNat_testBit (l : List Byte) (i : ℕ) :
    (leNat l).testBit i = (l.getD (i / 8) 0#8).getLsbD (i % 8) := by
  induction l generalizing i with
  | nil => simp [leNat]
  | cons b l ih =>
    rw [leNat, show b.toNat + 256 * leNat l = 2 ^ 8 * leNat l + b.toNat by ring,
      Nat.testBit_two_pow_mul_add _ b.isLt]
    by_cases h : i < 8
    · rw [if_pos h, Nat.div_eq_of_lt h, Nat.mod_eq_of_lt h]
      rfl
    · rw [if_neg h, ih, show i / 8 = (i - 8) / 8 + 1 by omega, show i % 8 = (i - 8) % 8 by omega]
      rfl

theorem loadWord_getLsbD (l : List Byte) (i : ℕ) {j : ℕ} (hj : j < 64) :
    (loadWord l i).getLsbD j = (l.getD (8 * i + j / 8) 0#8).getLsbD (j % 8) := by
  have h8 : j / 8 < 8 := by omega
  rw [loadWord, BitVec.getLsbD_ofNat, leNat_testBit]
  simp only [hj, decide_true, Bool.true_and, List.getD_eq_getElem?_getD, List.getElem?_take, h8,
    if_true, List.getElem?_drop]

theorem loadWord_modify (l : List Byte) {n : ℕ} (hn : n < l.length) (f : Byte → Byte) (i : ℕ) :
    loadWord (l.modify n f) i =
      if n / 8 = i then setByte (loadWord l i) (n % 8) f else loadWord l i := by
  apply BitVec.eq_of_getLsbD_eq
  intro j hj
  have e : (if n / 8 = i then setByte (loadWord l i) (n % 8) f else loadWord l i).getLsbD j =
      if n = 8 * i + j / 8 then (f (l.getD n 0#8)).getLsbD (j % 8) else (loadWord l i).getLsbD j := by
    by_cases h : n / 8 = i
    · rw [if_pos h, setByte_getLsbD _ _ hj]
      by_cases h2 : n = 8 * i + j / 8
      · rw [if_pos h2, if_pos (by omega)]
        have e1 : ((loadWord l i >>> (8 * (n % 8))).setWidth 8 : Byte) = l.getD n 0#8 := by
          apply BitVec.eq_of_getLsbD_eq
          intro t ht
          simp only [BitVec.getLsbD_setWidth, ht, decide_true, Bool.true_and,
            BitVec.getLsbD_ushiftRight]
          rw [loadWord_getLsbD _ _ (by omega), show 8 * i + (8 * (n % 8) + t) / 8 = n by omega,
            show (8 * (n % 8) + t) % 8 = t by omega]
        rw [e1, show j - 8 * (n % 8) = j % 8 by omega]
      · rw [if_neg h2, if_neg (by omega)]
    · rw [if_neg h, if_neg (by omega)]
  rw [e, loadWord_getLsbD _ _ hj, loadWord_getLsbD _ _ hj]
  by_cases h : n = 8 * i + j / 8
  · rw [if_pos h, ← h]
    simp [List.getD_eq_getElem?_getD, hn]
  · rw [if_neg h]
    simp [List.getD_eq_getElem?_getD, h]

end Verif.X86
