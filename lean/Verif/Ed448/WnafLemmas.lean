import Verif.Ed448.DoubleMult
import Verif.Ed25519.WnafLemmas
import Verif.Ed448.ScalarLemmas

/-! # The width-w non-adjacent form of the Ed448 code: helper lemmas -/

namespace Verif.Ed448

open Verif.Ed25519 (smod smod_bounds and_one byte_int digitSum DigitsOk Spaced sshift63 w_half)

set_option exponentiation.threshold 2000

/-- The number in the eight words. -/
def F8.num (r : F8) : ℕ :=
  r.w0.toNat + 2 ^ 64 * r.w1.toNat + 2 ^ 128 * r.w2.toNat + 2 ^ 192 * r.w3.toNat +
  2 ^ 256 * r.w4.toNat + 2 ^ 320 * r.w5.toNat + 2 ^ 384 * r.w6.toNat + 2 ^ 448 * r.w7.toNat

theorem F8.num_lt (r : F8) : F8.num r < 2 ^ 512 := by
  have h0 := r.w0.isLt
  have h1 := r.w1.isLt
  have h2 := r.w2.isLt
  have h3 := r.w3.isLt
  have h4 := r.w4.isLt
  have h5 := r.w5.isLt
  have h6 := r.w6.isLt
  have h7 := r.w7.isLt
  unfold F8.num
  omega

theorem SUB512_num (r : F8) (v : W) :
    (F8.num (SUB512 r v) : ℤ) = ((F8.num r : ℤ) - v.toInt) % 2 ^ 512 := by
  have hb := F8.num_lt (SUB512 r v)
  generalize h : SUB512 r v = X at *
  unfold SUB512 at h
  simp only at h
  replace h := sub_inv h; obtain ⟨v1, c1, e1, h⟩ := h
  replace h := sbb_inv h; obtain ⟨v2, c2, e2, h⟩ := h
  replace h := sbb_inv h; obtain ⟨v3, c3, e3, h⟩ := h
  replace h := sbb_inv h; obtain ⟨v4, c4, e4, h⟩ := h
  replace h := sbb_inv h; obtain ⟨v5, c5, e5, h⟩ := h
  replace h := sbb_inv h; obtain ⟨v6, c6, e6, h⟩ := h
  replace h := sbb_inv h; obtain ⟨v7, c7, e7, h⟩ := h
  replace h := sbb_inv h; obtain ⟨v8, c8, e8, h⟩ := h
  subst h
  have hv : (v.toNat : ℤ) = v.toInt + if v.toInt < 0 then 2 ^ 64 else 0 := by
    have := BitVec.toInt_eq_toNat_cond v
    have := v.isLt
    split_ifs at * <;> omega
  rw [sshift63] at e2 e3 e4 e5 e6 e7 e8
  have E : ∃ q : ℤ, (F8.num ⟨v1, v2, v3, v4, v5, v6, v7, v8⟩ : ℤ) = (F8.num r : ℤ) - v.toInt + 2 ^ 512 * q := by
    simp only [iv] at e1 e2 e3 e4 e5 e6 e7 e8
    unfold F8.num
    push_cast
    have m1 : ((-1#64 : W).toNat : ℤ) = 2 ^ 64 - 1 := by decide
    have m0 : ((0#64 : W).toNat : ℤ) = 0 := by decide
    split at hv
    · rename_i hn
      rw [if_pos hn, m1] at e2 e3 e4 e5 e6 e7 e8
      refine ⟨bv c8 - 1, ?_⟩
      linear_combination (2 ^ 448) * e8 + (2 ^ 384) * e7 + (2 ^ 320) * e6 + (2 ^ 256) * e5 +
        (2 ^ 192) * e4 + (2 ^ 128) * e3 + (2 ^ 64) * e2 + e1 - hv
    · rename_i hn
      rw [if_neg hn, m0] at e2 e3 e4 e5 e6 e7 e8
      refine ⟨bv c8, ?_⟩
      linear_combination (2 ^ 448) * e8 + (2 ^ 384) * e7 + (2 ^ 320) * e6 + (2 ^ 256) * e5 +
        (2 ^ 192) * e4 + (2 ^ 128) * e3 + (2 ^ 64) * e2 + e1 - hv
  obtain ⟨q, hq⟩ := E
  generalize F8.num ⟨v1, v2, v3, v4, v5, v6, v7, v8⟩ = n at *
  generalize (F8.num r : ℤ) - v.toInt = m at *
  clear e1 e2 e3 e4 e5 e6 e7 e8 hv
  omega

theorem div_2_512_num (r : F8) : F8.num (div_2_512 r) = F8.num r / 2 := by
  have h3 : (r.w7 >>> 1).toNat = r.w7.toNat / 2 := by
    rw [BitVec.toNat_ushiftRight, Nat.shiftRight_eq_div_pow]
  simp only [F8.num, div_2_512, w_half, h3]
  omega

theorem isZero8_iff (r : F8) : isZero8 r = true ↔ F8.num r = 0 := by
  simp only [isZero8, F8.num, Bool.and_eq_true, beq_iff_eq, ← BitVec.toNat_inj]
  have : (0#64 : W).toNat = 0 := rfl
  rw [this]
  omega

theorem wnafValue_int {w : ℕ} (h2 : 2 ≤ w) (h8 : w ≤ 8) (r : F8) :
    (wnafValue w r).toInt = smod w (F8.num r) := by
  have hand : (r.w0 &&& ((1#64 <<< w) - 1#64)).toNat = F8.num r % 2 ^ w := by
    have e1 : (1#64 <<< w) - 1#64 = BitVec.ofNat 64 (2 ^ w - 1) := by
      have : w = 2 ∨ w = 3 ∨ w = 4 ∨ w = 5 ∨ w = 6 ∨ w = 7 ∨ w = 8 := by omega
      rcases this with rfl | rfl | rfl | rfl | rfl | rfl | rfl <;> decide
    have hp : 2 ^ w ≤ 2 ^ 8 := Nat.pow_le_pow_right (by norm_num) h8
    rw [e1, BitVec.toNat_and, BitVec.toNat_ofNat, Nat.mod_eq_of_lt (a := 2 ^ w - 1) (by omega),
      Nat.and_two_pow_sub_one_eq_mod]
    have d : 2 ^ w ∣ 2 ^ 64 := Nat.pow_dvd_pow 2 (by omega)
    have e : F8.num r = r.w0.toNat + 2 ^ 64 * (r.w1.toNat + 2 ^ 64 * r.w2.toNat + 2 ^ 128 * r.w3.toNat +
        2 ^ 192 * r.w4.toNat + 2 ^ 256 * r.w5.toNat + 2 ^ 320 * r.w6.toNat + 2 ^ 384 * r.w7.toNat) := by
      unfold F8.num; ring
    rw [e]
    obtain ⟨c, hc⟩ := d
    rw [hc, mul_assoc, Nat.add_mul_mod_self_left]
  unfold wnafValue smod
  simp only
  generalize r.w0 &&& ((1#64 <<< w) - 1#64) = v at *
  rw [← hand]
  have hv : v.toNat < 2 ^ w := by rw [hand]; exact Nat.mod_lt _ (by positivity)
  clear hand
  have hw : w = 2 ∨ w = 3 ∨ w = 4 ∨ w = 5 ∨ w = 6 ∨ w = 7 ∨ w = 8 := by omega
  have s1 : (1#64 <<< (w - 1)).toInt = 2 ^ (w - 1) := by
    rcases hw with rfl | rfl | rfl | rfl | rfl | rfl | rfl <;> decide
  have s2 : (1#64 <<< w).toInt = 2 ^ w := by
    rcases hw with rfl | rfl | rfl | rfl | rfl | rfl | rfl <;> decide
  have hp : 2 ^ w ≤ 2 ^ 8 := Nat.pow_le_pow_right (by norm_num) h8
  have hi := BitVec.toInt_eq_toNat_cond v
  rw [if_pos (by omega)] at hi
  have hq : ((2 ^ (w - 1) : ℕ) : ℤ) = 2 ^ (w - 1) := by push_cast; rfl
  have hq2 : ((2 ^ w : ℕ) : ℤ) = 2 ^ w := by push_cast; rfl
  rw [BitVec.slt_eq_decide, s1, hi, ← hq]
  simp only [decide_eq_true_eq, Nat.cast_lt]
  split_ifs with h
  · rw [BitVec.toInt_sub, s2, hi, ← hq2]
    generalize 2 ^ w = n at *
    unfold Int.bmod
    norm_num at *
    omega
  · exact hi

theorem num_odd (r : F8) : r.w0.toNat % 2 = 1 ↔ F8.num r % 2 = 1 := by
  unfold F8.num; omega

/-- What one iteration does to the number in `r`. -/
theorem wnafStep_spec {w : ℕ} (h2 : 2 ≤ w) (h8 : w ≤ 8) (r : F8) :
    (F8.num r % 2 = 0 → (wnafStep w r).1.toInt = 0 ∧ F8.num (wnafStep w r).2 = F8.num r / 2) ∧
    (F8.num r % 2 = 1 → (wnafStep w r).1.toInt = smod w (F8.num r) ∧
      (F8.num (wnafStep w r).2 : ℤ) = (((F8.num r : ℤ) - smod w (F8.num r)) % 2 ^ 512) / 2) := by
  unfold wnafStep
  constructor
  · intro h
    rw [if_neg (by rw [and_one, num_odd]; omega)]
    exact ⟨rfl, div_2_512_num r⟩
  · intro h
    rw [if_pos (by rw [and_one, num_odd]; exact h)]
    simp only
    have hv := wnafValue_int h2 h8 r
    obtain ⟨k, -, -, -, b1, b2, -⟩ := smod_bounds h2 h
    have hp : (2 : ℤ) ^ (w - 1) ≤ 2 ^ 7 := pow_le_pow_right₀ (by norm_num) (by omega)
    norm_num at hp
    refine ⟨?_, ?_⟩
    · rw [byte_int _ (by rw [hv]; omega) (by rw [hv]; omega), hv]
    · rw [div_2_512_num, Int.natCast_div, SUB512_num, hv]; rfl

theorem step_lt {w : ℕ} (h2 : 2 ≤ w) (h8 : w ≤ 8) {r : F8} (hb : F8.num r ≤ 2 ^ 511) :
    (F8.num r : ℤ) = (wnafStep w r).1.toInt + 2 * F8.num (wnafStep w r).2 := by
  obtain ⟨h0, h1⟩ := wnafStep_spec h2 h8 r
  rcases Nat.mod_two_eq_zero_or_one (F8.num r) with h | h
  · obtain ⟨e1, e2⟩ := h0 h
    rw [e1, e2]; omega
  · obtain ⟨e1, e2⟩ := h1 h
    obtain ⟨k, hk, hle, -, b1, b2, -⟩ := smod_bounds h2 h
    have hp : (2 : ℤ) ^ (w - 1) ≤ 2 ^ 7 := pow_le_pow_right₀ (by norm_num) (by omega)
    rw [e2, e1]
    rw [Int.emod_eq_of_lt (by omega) (by norm_num at hp; omega)]
    omega

/-- The number left fits one bit less. -/
theorem step_bound {w : ℕ} (h2 : 2 ≤ w) (h8 : w ≤ 8) {r : F8} {k : ℕ} (_hk : k < 512)
    (hb : F8.num r ≤ 2 ^ (k + 1)) : F8.num (wnafStep w r).2 ≤ 2 ^ k := by
  obtain ⟨h0, h1⟩ := wnafStep_spec h2 h8 r
  have hp2 : 2 ^ (k + 1) = 2 * 2 ^ k := by ring
  rcases Nat.mod_two_eq_zero_or_one (F8.num r) with h | h
  · obtain ⟨e1, e2⟩ := h0 h
    rw [e2]; omega
  · obtain ⟨e1, e2⟩ := h1 h
    obtain ⟨j, hj, hle, -, b1, b2, q, hq⟩ := smod_bounds h2 h
    have key : (F8.num r : ℤ) - smod w (F8.num r) ≤ 2 * 2 ^ k := by
      by_cases hw : w ≤ k + 1
      · -- a multiple of 2^w below 2^(k+1) + 2^w
        obtain ⟨c, hc⟩ := Nat.exists_eq_add_of_le hw
        have hc2 : 2 ^ (k + 1) = 2 ^ w * 2 ^ c := by rw [hc, pow_add]
        have hlt : (2 : ℤ) ^ w * q < 2 ^ w * (2 ^ c + 1) := by
          have hb' : (F8.num r : ℤ) ≤ 2 ^ w * 2 ^ c := by rw [hc2] at hb; exact_mod_cast hb
          have hw1 : (2 : ℤ) ^ (w - 1) ≤ 2 ^ w := pow_le_pow_right₀ (by norm_num) (by omega)
          rw [← hq, mul_add, mul_one]; linarith
        have hq2 : (q : ℤ) < 2 ^ c + 1 := lt_of_mul_lt_mul_left hlt (by positivity)
        rw [hq]
        have hc3 : (2 : ℤ) * 2 ^ k = 2 ^ w * 2 ^ c := by
          have : ((2 ^ (k + 1) : ℕ) : ℤ) = ((2 ^ w * 2 ^ c : ℕ) : ℤ) := by rw [hc2]
          push_cast at this; rw [← this]; ring
        rw [hc3]
        exact mul_le_mul_of_nonneg_left (by omega) (by positivity)
      · -- the number is its own signed residue
        have hle2 : 2 ^ (k + 1) ≤ 2 ^ (w - 1) := Nat.pow_le_pow_right (by norm_num) (by omega)
        have hlt2 : 2 ^ (w - 1) < 2 ^ w := Nat.pow_lt_pow_right (by norm_num) (by omega)
        have hm : F8.num r % 2 ^ w = F8.num r := Nat.mod_eq_of_lt (by omega)
        have : smod w (F8.num r) = F8.num r := by
          unfold smod
          rw [hm, if_neg (by omega)]
        rw [this]; simp
    have hn0 : 0 ≤ (F8.num r : ℤ) - smod w (F8.num r) := by omega
    zify
    rw [e2]
    generalize (F8.num r : ℤ) - smod w (F8.num r) = x at *
    clear hq hj hle e1 b1 b2
    omega

/-- The loop ends after at most k + 1 iterations. -/
theorem wnafLoop_end {w : ℕ} (h2 : 2 ≤ w) (h8 : w ≤ 8) : ∀ (k fuel : ℕ) (r : F8), k ≤ 512 →
    k < fuel → F8.num r ≤ 2 ^ k → F8.num (wnafLoop w fuel r).2 = 0 ∧
      (wnafLoop w fuel r).1.length ≤ k + 1
  | k, 0, r, _, hf, _ => by omega
  | k, fuel + 1, r, hk, hf, hb => by
    rw [wnafLoop]
    split_ifs with hz
    · exact ⟨(isZero8_iff r).1 hz, by simp⟩
    · simp only [List.length_cons]
      cases k with
      | zero =>
        have h1 : F8.num r = 1 := by
          have : F8.num r ≠ 0 := fun h => hz ((isZero8_iff r).2 h)
          rw [pow_zero] at hb; omega
        have hs : F8.num (wnafStep w r).2 = 0 := by
          have e := ((wnafStep_spec h2 h8 r).2 (by rw [h1])).2
          have hw : 1 < 2 ^ w := Nat.one_lt_two_pow (by omega)
          have hw1 : 1 < 2 ^ (w - 1) := Nat.one_lt_two_pow (by omega)
          have hsm : smod w 1 = 1 := by
            unfold smod
            rw [Nat.mod_eq_of_lt hw, if_neg (by omega)]; rfl
          rw [h1, hsm] at e
          norm_num at e; exact e
        have hend : wnafLoop w fuel (wnafStep w r).2 = ([], (wnafStep w r).2) := by
          cases fuel with
          | zero => rfl
          | succ f => rw [wnafLoop, if_pos ((isZero8_iff _).2 hs)]
        rw [hend]; exact ⟨hs, by simp⟩
      | succ k =>
        have := wnafLoop_end h2 h8 k fuel (wnafStep w r).2 (by omega) (by omega)
          (step_bound h2 h8 (by omega) hb)
        exact ⟨this.1, by omega⟩

/-- The digits add up to the number, when it leaves room for the rounding. -/
theorem wnafLoop_sum {w : ℕ} (h2 : 2 ≤ w) (h8 : w ≤ 8) : ∀ (fuel : ℕ) (r : F8),
    F8.num r ≤ 2 ^ 511 → digitSum (wnafLoop w fuel r).1 +
      2 ^ (wnafLoop w fuel r).1.length * (F8.num (wnafLoop w fuel r).2 : ℤ) = F8.num r
  | 0, r, _ => by simp [wnafLoop, digitSum]
  | fuel + 1, r, hb => by
    rw [wnafLoop]
    split_ifs with hz
    · simp [digitSum]
    · have ih := wnafLoop_sum h2 h8 fuel (wnafStep w r).2
        (le_trans (step_bound h2 h8 (k := 510) (by omega) hb) (by norm_num))
      simp only [digitSum, List.length_cons]
      rw [step_lt h2 h8 hb, ← ih]
      ring

theorem wnafLoop_digits {w : ℕ} (h2 : 2 ≤ w) (h8 : w ≤ 8) : ∀ (fuel : ℕ) (r : F8),
    DigitsOk w (wnafLoop w fuel r).1
  | 0, r => by simp [wnafLoop, DigitsOk]
  | fuel + 1, r => by
    rw [wnafLoop]
    split_ifs with hz
    · simp [DigitsOk]
    · intro d hd
      simp only [List.mem_cons] at hd
      rcases hd with rfl | hd
      · obtain ⟨h0, h1⟩ := wnafStep_spec h2 h8 r
        rcases Nat.mod_two_eq_zero_or_one (F8.num r) with h | h
        · exact Or.inl (h0 h).1
        · obtain ⟨k, -, -, ho, b1, b2, -⟩ := smod_bounds h2 h
          rw [(h1 h).1]
          exact Or.inr ⟨ho, b1, b2⟩
      · exact wnafLoop_digits h2 h8 fuel _ d hd

theorem wnafLoop_zeros {w : ℕ} (h2 : 2 ≤ w) (h8 : w ≤ 8) : ∀ (j fuel : ℕ) (r : F8),
    F8.num r % 2 ^ j = 0 → ∀ x ∈ (wnafLoop w fuel r).1.take j, x.toInt = 0
  | 0, _, _, _ => by simp
  | j + 1, 0, _, _ => by simp [wnafLoop]
  | j + 1, fuel + 1, r, h => by
    rw [wnafLoop]
    split_ifs with hz
    · simp
    · intro x hx
      simp only [List.take_succ_cons, List.mem_cons] at hx
      have hev : F8.num r % 2 = 0 := by
        have : 2 ∣ 2 ^ (j + 1) := dvd_pow_self 2 (by omega)
        have := dvd_trans this (Nat.dvd_of_mod_eq_zero h)
        omega
      obtain ⟨e1, e2⟩ := (wnafStep_spec h2 h8 r).1 hev
      rcases hx with rfl | hx
      · exact e1
      · refine wnafLoop_zeros h2 h8 j fuel _ ?_ x hx
        rw [e2]
        obtain ⟨c, hc⟩ := Nat.dvd_of_mod_eq_zero h
        rw [hc, pow_succ, show 2 ^ j * 2 * c = 2 * (2 ^ j * c) by ring, Nat.mul_div_cancel_left _ (by norm_num)]
        simp

theorem wnafLoop_spaced {w : ℕ} (h2 : 2 ≤ w) (h8 : w ≤ 8) : ∀ (fuel : ℕ) (r : F8),
    Spaced w (wnafLoop w fuel r).1
  | 0, r => by simp [wnafLoop, Spaced]
  | fuel + 1, r => by
    rw [wnafLoop]
    split_ifs with hz
    · simp [Spaced]
    · refine ⟨fun hne => ?_, wnafLoop_spaced h2 h8 fuel _⟩
      obtain ⟨h0, h1⟩ := wnafStep_spec h2 h8 r
      rcases Nat.mod_two_eq_zero_or_one (F8.num r) with h | h
      · exact absurd (h0 h).1 hne
      · refine wnafLoop_zeros h2 h8 _ _ _ ?_
        obtain ⟨k, -, -, -, -, -, q, hq⟩ := smod_bounds h2 h
        have e := (h1 h).2
        rw [hq] at e
        obtain ⟨c, hc⟩ : ∃ c, 512 = w + c := ⟨512 - w, by omega⟩
        have hw : (2 : ℤ) ^ w = 2 * 2 ^ (w - 1) := by
          rw [← pow_succ']; congr 1; omega
        rw [hc, pow_add, Int.mul_emod_mul_of_pos _ _ (by positivity), hw, mul_assoc,
          Int.mul_ediv_cancel_left _ (by norm_num)] at e
        apply Nat.mod_eq_zero_of_dvd
        zify
        rw [e]
        exact Dvd.intro _ rfl

theorem ofBytes_num {b : List Byte} (h : b.length = 57) : F8.num (F8.ofBytes b) = leNat b := by
  have e : ∀ j, leNat (((b.take 57).drop (8 * j)).take 8) = leNat b / 2 ^ (64 * j) % 2 ^ 64 := by
    intro j
    rw [List.take_of_length_le h.le, leNat_take, leNat_drop']
    norm_num [pow_mul]
  have hb := leNat_lt b
  rw [h] at hb
  simp only [F8.num, F8.ofBytes, e, BitVec.toNat_ofNat]
  generalize leNat b = n at *
  norm_num at *
  omega

theorem wnaf_length {w : ℕ} (h2 : 2 ≤ w) (h8 : w ≤ 8) {b : List Byte} (h : b.length = 57)
    {k : ℕ} (hk : k ≤ 456) (hb : leNat b ≤ 2 ^ k) : (wnaf_448bits w b).length ≤ k + 1 :=
  (wnafLoop_end h2 h8 k 457 (F8.ofBytes b) (by omega) (by omega) (by rwa [ofBytes_num h])).2

theorem wnaf_sum {w : ℕ} (h2 : 2 ≤ w) (h8 : w ≤ 8) {b : List Byte} (h : b.length = 57) :
    digitSum (wnaf_448bits w b) = leNat b := by
  have hb := leNat_lt b
  rw [h, ← ofBytes_num h] at hb
  rw [← ofBytes_num h]
  unfold wnaf_448bits
  have hend := (wnafLoop_end h2 h8 456 457 (F8.ofBytes b) (by omega) (by omega)
    (le_of_lt (by norm_num at hb ⊢; omega))).1
  have := wnafLoop_sum h2 h8 457 (F8.ofBytes b) (le_of_lt (by norm_num at hb ⊢; omega))
  rwa [hend, Nat.cast_zero, mul_zero, add_zero] at this

theorem wnaf_digits {w : ℕ} (h2 : 2 ≤ w) (h8 : w ≤ 8) (b : List Byte) :
    DigitsOk w (wnaf_448bits w b) := wnafLoop_digits h2 h8 457 _

theorem wnaf_spaced {w : ℕ} (h2 : 2 ≤ w) (h8 : w ≤ 8) (b : List Byte) :
    Spaced w (wnaf_448bits w b) := wnafLoop_spaced h2 h8 457 _

end Verif.Ed448
