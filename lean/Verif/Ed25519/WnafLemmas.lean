import Verif.Ed25519.DoubleMult
import Verif.Ed25519.TableSignLemmas

/-! # The width-w non-adjacent form: helper lemmas -/

namespace Verif.Ed25519

open Verif.Fp25519

set_option exponentiation.threshold 2000

theorem F4.num_lt (r : F4) : F4.num r < 2 ^ 256 := by
  have h0 := r.w0.isLt
  have h1 := r.w1.isLt
  have h2 := r.w2.isLt
  have h3 := r.w3.isLt
  unfold F4.num
  omega

theorem sshift63 (v : W) : v.sshiftRight 63 = if v.toInt < 0 then -1#64 else 0#64 := by
  have h1 := BitVec.toInt_sshiftRight (x := v) (n := 63)
  have h2 := v.toInt_lt
  have h3 := v.le_toInt
  rw [Int.shiftRight_eq_div_pow] at h1
  split
  · apply BitVec.eq_of_toInt_eq
    rw [h1]
    have : (-1#64).toInt = -1 := by decide
    rw [this]; norm_num at *; omega
  · apply BitVec.eq_of_toInt_eq
    rw [h1]
    have : (0#64).toInt = 0 := by decide
    rw [this]; norm_num at *; omega

theorem SUB256_num (r : F4) (v : W) :
    (F4.num (SUB256 r v) : ℤ) = ((F4.num r : ℤ) - v.toInt) % 2 ^ 256 := by
  have hb := F4.num_lt (SUB256 r v)
  generalize h : SUB256 r v = X at *
  unfold SUB256 at h
  simp only at h
  replace h := sub_inv h; obtain ⟨v1, c1, e1, h⟩ := h
  replace h := sbb_inv h; obtain ⟨v2, c2, e2, h⟩ := h
  replace h := sbb_inv h; obtain ⟨v3, c3, e3, h⟩ := h
  replace h := sbb_inv h; obtain ⟨v4, c4, e4, h⟩ := h
  subst h
  have hv : (v.toNat : ℤ) = v.toInt + if v.toInt < 0 then 2 ^ 64 else 0 := by
    have := BitVec.toInt_eq_toNat_cond v
    have := v.isLt
    split_ifs at * <;> omega
  rw [sshift63] at e2 e3 e4
  have E : ∃ q : ℤ, (F4.num ⟨v1, v2, v3, v4⟩ : ℤ) = (F4.num r : ℤ) - v.toInt + 2 ^ 256 * q := by
    simp only [iv] at e1 e2 e3 e4
    unfold F4.num
    push_cast
    have m1 : ((-1#64 : W).toNat : ℤ) = 2 ^ 64 - 1 := by decide
    have m0 : ((0#64 : W).toNat : ℤ) = 0 := by decide
    split at hv
    · rename_i hn
      rw [if_pos hn, m1] at e2 e3 e4
      refine ⟨bv c4 - 1, ?_⟩
      linear_combination (2 ^ 192) * e4 + (2 ^ 128) * e3 + (2 ^ 64) * e2 + e1 - hv
    · rename_i hn
      rw [if_neg hn, m0] at e2 e3 e4
      refine ⟨bv c4, ?_⟩
      linear_combination (2 ^ 192) * e4 + (2 ^ 128) * e3 + (2 ^ 64) * e2 + e1 - hv
  obtain ⟨q, hq⟩ := E
  generalize F4.num ⟨v1, v2, v3, v4⟩ = n at *
  generalize (F4.num r : ℤ) - v.toInt = m at *
  clear e1 e2 e3 e4 hv
  omega

theorem w_half (a b : W) : ((a >>> 1) ||| (b <<< 63)).toNat = a.toNat / 2 + 2 ^ 63 * (b.toNat % 2) := by
  have h : (a >>> 1) ||| (b <<< 63) = (a >>> 1) + (b <<< 63) := by
    symm
    apply BitVec.add_eq_or_of_and_eq_zero
    ext i hi
    simp only [BitVec.getElem_and, BitVec.getElem_ushiftRight, BitVec.getElem_shiftLeft,
      BitVec.getElem_zero]
    by_cases h : i < 63
    · simp [h]
    · have : i = 63 := by omega
      subst this
      simp
  rw [h, BitVec.toNat_add, BitVec.toNat_ushiftRight, BitVec.toNat_shiftLeft,
    Nat.shiftRight_eq_div_pow, Nat.shiftLeft_eq]
  have ha := a.isLt
  have hb := b.isLt
  omega

theorem div_2_num (r : F4) : F4.num (div_2 r) = F4.num r / 2 := by
  have h3 : (r.w3 >>> 1).toNat = r.w3.toNat / 2 := by
    rw [BitVec.toNat_ushiftRight, Nat.shiftRight_eq_div_pow]
  simp only [F4.num, div_2, w_half, h3]
  omega

theorem isZero4_iff (r : F4) : isZero4 r = true ↔ F4.num r = 0 := by
  simp only [isZero4, F4.num, Bool.and_eq_true, beq_iff_eq, ← BitVec.toNat_inj]
  have : (0#64 : W).toNat = 0 := rfl
  rw [this]
  omega

/-- The signed residue of an odd number modulo 2^w. -/
def smod (w n : ℕ) : ℤ := if 2 ^ (w - 1) < n % 2 ^ w then (n % 2 ^ w : ℕ) - 2 ^ w else (n % 2 ^ w : ℕ)

theorem wnafValue_int {w : ℕ} (h2 : 2 ≤ w) (h8 : w ≤ 8) (r : F4) :
    (wnafValue w r).toInt = smod w (F4.num r) := by
  have hand : (r.w0 &&& ((1#64 <<< w) - 1#64)).toNat = F4.num r % 2 ^ w := by
    have e1 : (1#64 <<< w) - 1#64 = BitVec.ofNat 64 (2 ^ w - 1) := by
      have : w = 2 ∨ w = 3 ∨ w = 4 ∨ w = 5 ∨ w = 6 ∨ w = 7 ∨ w = 8 := by omega
      rcases this with rfl | rfl | rfl | rfl | rfl | rfl | rfl <;> decide
    have hp : 2 ^ w ≤ 2 ^ 8 := Nat.pow_le_pow_right (by norm_num) h8
    rw [e1, BitVec.toNat_and, BitVec.toNat_ofNat, Nat.mod_eq_of_lt (a := 2 ^ w - 1) (by omega),
      Nat.and_two_pow_sub_one_eq_mod]
    have d : 2 ^ w ∣ 2 ^ 64 := Nat.pow_dvd_pow 2 (by omega)
    have e : F4.num r = r.w0.toNat + 2 ^ 64 * (r.w1.toNat + 2 ^ 64 * r.w2.toNat + 2 ^ 128 * r.w3.toNat) := by
      unfold F4.num; ring
    rw [e]
    obtain ⟨c, hc⟩ := d
    rw [hc, mul_assoc, Nat.add_mul_mod_self_left]
  unfold wnafValue smod
  simp only
  generalize r.w0 &&& ((1#64 <<< w) - 1#64) = v at *
  rw [← hand]
  have hv : v.toNat < 2 ^ w := by rw [hand]; exact Nat.mod_lt _ (by positivity)
  clear hand
  have hw : w = 2 ∨ w = 3 ∨ w = 4 ∨ w = 5 ∨ w = 6 ∨ w = 7 ∨ w = 8 := by omega
  have s1 : (1#64 <<< (w - 1)).toInt = 2 ^ (w - 1) := by
    rcases hw with rfl | rfl | rfl | rfl | rfl | rfl | rfl <;> decide
  have s2 : (1#64 <<< w).toInt = 2 ^ w := by
    rcases hw with rfl | rfl | rfl | rfl | rfl | rfl | rfl <;> decide
  have hp : 2 ^ w ≤ 2 ^ 8 := Nat.pow_le_pow_right (by norm_num) h8
  have hi := BitVec.toInt_eq_toNat_cond v
  rw [if_pos (by omega)] at hi
  have hq : ((2 ^ (w - 1) : ℕ) : ℤ) = 2 ^ (w - 1) := by push_cast; rfl
  have hq2 : ((2 ^ w : ℕ) : ℤ) = 2 ^ w := by push_cast; rfl
  rw [BitVec.slt_eq_decide, s1, hi, ← hq]
  simp only [decide_eq_true_eq, Nat.cast_lt]
  split_ifs with h
  · rw [BitVec.toInt_sub, s2, hi, ← hq2]
    generalize 2 ^ w = n at *
    unfold Int.bmod
    norm_num at *
    omega
  · exact hi

theorem smod_bounds {w n : ℕ} (h2 : 2 ≤ w) (ho : n % 2 = 1) :
    ∃ k : ℕ, (n : ℤ) - smod w n = 2 * k ∧ (n : ℤ) - smod w n ≤ n + (2 ^ (w - 1) - 1) ∧
      smod w n % 2 = 1 ∧ -(2 ^ (w - 1) : ℤ) < smod w n ∧ smod w n < 2 ^ (w - 1) ∧
      ∃ q : ℕ, (n : ℤ) - smod w n = 2 ^ w * q := by
  obtain ⟨v, rfl⟩ := Nat.exists_eq_add_of_le h2
  have hp : (2 : ℕ) ^ (2 + v) = 4 * 2 ^ v := by ring
  have hp' : (2 : ℕ) ^ (2 + v - 1) = 2 * 2 ^ v := by
    rw [show 2 + v - 1 = v + 1 by omega]; ring
  have hq : (2 : ℤ) ^ (2 + v) = 4 * ((2 ^ v : ℕ) : ℤ) := by push_cast; ring
  have hq' : (2 : ℤ) ^ (2 + v - 1) = 2 * ((2 ^ v : ℕ) : ℤ) := by
    rw [show 2 + v - 1 = v + 1 by omega]; push_cast; ring
  unfold smod
  rw [hp, hp', hq, hq']
  have hm := Nat.div_add_mod n (4 * 2 ^ v)
  have hl := Nat.mod_lt n (show 0 < 4 * 2 ^ v by positivity)
  have hpos : 0 < 2 ^ v := by positivity
  generalize 2 ^ v = p at *
  generalize n % (4 * p) = m at *
  generalize n / (4 * p) = q at *
  have e : 4 * p * q = 4 * (p * q) := by ring
  split
  · refine ⟨2 * (p * q) + 2 * p, ?_, ?_, ?_, ?_, ?_, q + 1, ?_⟩
    · push_cast; rw [e] at hm; omega
    · rw [e] at hm; omega
    · rw [e] at hm; omega
    · omega
    · omega
    · push_cast; rw [e] at hm; zify at hm; linear_combination -hm
  · refine ⟨2 * (p * q), ?_, ?_, ?_, ?_, ?_, q, ?_⟩
    · push_cast; rw [e] at hm; omega
    · rw [e] at hm; omega
    · rw [e] at hm; omega
    · omega
    · rw [e] at hm; omega
    · push_cast; rw [e] at hm; zify at hm; linear_combination -hm

theorem and_one (x : W) : x &&& 1#64 = 1#64 ↔ x.toNat % 2 = 1 := by
  rw [← BitVec.toNat_inj, BitVec.toNat_and, show (1#64 : W).toNat = 1 from rfl, Nat.and_one_is_mod]

theorem num_odd (r : F4) : r.w0.toNat % 2 = 1 ↔ F4.num r % 2 = 1 := by
  unfold F4.num; omega

/-- The low byte of a small signed number. -/
theorem byte_int (v : W) (h1 : -128 ≤ v.toInt) (h2 : v.toInt < 128) :
    ((v &&& 0xFF#64).setWidth 8).toInt = v.toInt := by
  have e : (v &&& 0xFF#64).setWidth 8 = v.setWidth 8 := by
    apply BitVec.eq_of_toNat_eq
    have := Nat.and_two_pow_sub_one_eq_mod v.toNat 8
    rw [BitVec.toNat_setWidth, BitVec.toNat_setWidth, BitVec.toNat_and,
      show (0xFF#64 : W).toNat = 2 ^ 8 - 1 from rfl, this, Nat.mod_mod]
  rw [e, BitVec.toInt_setWidth]
  have hi := BitVec.toInt_eq_toNat_cond v
  have hl := v.isLt
  unfold Int.bmod
  norm_num at *
  split_ifs at * <;> omega

/-- What one iteration does to the number in `r`. -/
theorem wnafStep_spec {w : ℕ} (h2 : 2 ≤ w) (h8 : w ≤ 8) (r : F4) :
    (F4.num r % 2 = 0 → (wnafStep w r).1.toInt = 0 ∧ F4.num (wnafStep w r).2 = F4.num r / 2) ∧
    (F4.num r % 2 = 1 → (wnafStep w r).1.toInt = smod w (F4.num r) ∧
      (F4.num (wnafStep w r).2 : ℤ) = (((F4.num r : ℤ) - smod w (F4.num r)) % 2 ^ 256) / 2) := by
  unfold wnafStep
  constructor
  · intro h
    rw [if_neg (by rw [and_one, num_odd]; omega)]
    exact ⟨rfl, div_2_num r⟩
  · intro h
    rw [if_pos (by rw [and_one, num_odd]; exact h)]
    simp only
    have hv := wnafValue_int h2 h8 r
    obtain ⟨k, -, -, -, b1, b2, -⟩ := smod_bounds h2 h
    have hp : (2 : ℤ) ^ (w - 1) ≤ 2 ^ 7 := pow_le_pow_right₀ (by norm_num) (by omega)
    norm_num at hp
    refine ⟨?_, ?_⟩
    · rw [byte_int _ (by rw [hv]; omega) (by rw [hv]; omega), hv]
    · rw [div_2_num, Int.natCast_div, SUB256_num, hv]; rfl

/-- The value of signed digits, lowest first. -/
def digitSum : List Byte → ℤ
  | [] => 0
  | d :: l => d.toInt + 2 * digitSum l

/-- Every digit is zero or odd and small. -/
def DigitsOk (w : ℕ) (l : List Byte) : Prop :=
  ∀ d ∈ l, d.toInt = 0 ∨ d.toInt % 2 = 1 ∧ -(2 ^ (w - 1)) < d.toInt ∧ d.toInt < 2 ^ (w - 1)

/-- After an odd digit come w - 1 zeros. -/
def Spaced (w : ℕ) : List Byte → Prop
  | [] => True
  | d :: l => (d.toInt ≠ 0 → ∀ x ∈ l.take (w - 1), x.toInt = 0) ∧ Spaced w l

theorem step_lt {w : ℕ} (h2 : 2 ≤ w) (h8 : w ≤ 8) {r : F4} (hb : F4.num r ≤ 2 ^ 255) :
    (F4.num r : ℤ) = (wnafStep w r).1.toInt + 2 * F4.num (wnafStep w r).2 := by
  obtain ⟨h0, h1⟩ := wnafStep_spec h2 h8 r
  rcases Nat.mod_two_eq_zero_or_one (F4.num r) with h | h
  · obtain ⟨e1, e2⟩ := h0 h
    rw [e1, e2]; omega
  · obtain ⟨e1, e2⟩ := h1 h
    obtain ⟨k, hk, hle, -, b1, b2, -⟩ := smod_bounds h2 h
    have hp : (2 : ℤ) ^ (w - 1) ≤ 2 ^ 7 := pow_le_pow_right₀ (by norm_num) (by omega)
    rw [e2, e1]
    rw [Int.emod_eq_of_lt (by omega) (by norm_num at hp; omega)]
    omega

/-- The number left fits one bit less. -/
theorem step_bound {w : ℕ} (h2 : 2 ≤ w) (h8 : w ≤ 8) {r : F4} {k : ℕ} (_hk : k < 256)
    (hb : F4.num r ≤ 2 ^ (k + 1)) : F4.num (wnafStep w r).2 ≤ 2 ^ k := by
  obtain ⟨h0, h1⟩ := wnafStep_spec h2 h8 r
  have hp2 : 2 ^ (k + 1) = 2 * 2 ^ k := by ring
  rcases Nat.mod_two_eq_zero_or_one (F4.num r) with h | h
  · obtain ⟨e1, e2⟩ := h0 h
    rw [e2]; omega
  · obtain ⟨e1, e2⟩ := h1 h
    obtain ⟨j, hj, hle, -, b1, b2, q, hq⟩ := smod_bounds h2 h
    have key : (F4.num r : ℤ) - smod w (F4.num r) ≤ 2 * 2 ^ k := by
      by_cases hw : w ≤ k + 1
      · -- a multiple of 2^w below 2^(k+1) + 2^w
        obtain ⟨c, hc⟩ := Nat.exists_eq_add_of_le hw
        have hc2 : 2 ^ (k + 1) = 2 ^ w * 2 ^ c := by rw [hc, pow_add]
        have hlt : (2 : ℤ) ^ w * q < 2 ^ w * (2 ^ c + 1) := by
          have hb' : (F4.num r : ℤ) ≤ 2 ^ w * 2 ^ c := by rw [hc2] at hb; exact_mod_cast hb
          have hw1 : (2 : ℤ) ^ (w - 1) ≤ 2 ^ w := pow_le_pow_right₀ (by norm_num) (by omega)
          rw [← hq, mul_add, mul_one]; linarith
        have hq2 : (q : ℤ) < 2 ^ c + 1 := lt_of_mul_lt_mul_left hlt (by positivity)
        rw [hq]
        have hc3 : (2 : ℤ) * 2 ^ k = 2 ^ w * 2 ^ c := by
          have : ((2 ^ (k + 1) : ℕ) : ℤ) = ((2 ^ w * 2 ^ c : ℕ) : ℤ) := by rw [hc2]
          push_cast at this; rw [← this]; ring
        rw [hc3]
        exact mul_le_mul_of_nonneg_left (by omega) (by positivity)
      · -- the number is its own signed residue
        have hle2 : 2 ^ (k + 1) ≤ 2 ^ (w - 1) := Nat.pow_le_pow_right (by norm_num) (by omega)
        have hlt2 : 2 ^ (w - 1) < 2 ^ w := Nat.pow_lt_pow_right (by norm_num) (by omega)
        have hm : F4.num r % 2 ^ w = F4.num r := Nat.mod_eq_of_lt (by omega)
        have : smod w (F4.num r) = F4.num r := by
          unfold smod
          rw [hm, if_neg (by omega)]
        rw [this]; simp
    have hn0 : 0 ≤ (F4.num r : ℤ) - smod w (F4.num r) := by omega
    zify
    rw [e2]
    generalize (F4.num r : ℤ) - smod w (F4.num r) = x at *
    clear hq hj hle e1 b1 b2
    omega

/-- The loop ends after at most k + 1 iterations. -/
theorem wnafLoop_end {w : ℕ} (h2 : 2 ≤ w) (h8 : w ≤ 8) : ∀ (k fuel : ℕ) (r : F4), k ≤ 256 →
    k < fuel → F4.num r ≤ 2 ^ k → F4.num (wnafLoop w fuel r).2 = 0 ∧
      (wnafLoop w fuel r).1.length ≤ k + 1
  | k, 0, r, _, hf, _ => by omega
  | k, fuel + 1, r, hk, hf, hb => by
    rw [wnafLoop]
    split_ifs with hz
    · exact ⟨(isZero4_iff r).1 hz, by simp⟩
    · simp only [List.length_cons]
      cases k with
      | zero =>
        have h1 : F4.num r = 1 := by
          have : F4.num r ≠ 0 := fun h => hz ((isZero4_iff r).2 h)
          rw [pow_zero] at hb; omega
        have hs : F4.num (wnafStep w r).2 = 0 := by
          have e := ((wnafStep_spec h2 h8 r).2 (by rw [h1])).2
          have hw : 1 < 2 ^ w := Nat.one_lt_two_pow (by omega)
          have hw1 : 1 < 2 ^ (w - 1) := Nat.one_lt_two_pow (by omega)
          have hsm : smod w 1 = 1 := by
            unfold smod
            rw [Nat.mod_eq_of_lt hw, if_neg (by omega)]; rfl
          rw [h1, hsm] at e
          norm_num at e; exact e
        have hend : wnafLoop w fuel (wnafStep w r).2 = ([], (wnafStep w r).2) := by
          cases fuel with
          | zero => rfl
          | succ f => rw [wnafLoop, if_pos ((isZero4_iff _).2 hs)]
        rw [hend]; exact ⟨hs, by simp⟩
      | succ k =>
        have := wnafLoop_end h2 h8 k fuel (wnafStep w r).2 (by omega) (by omega)
          (step_bound h2 h8 (by omega) hb)
        exact ⟨this.1, by omega⟩

/-- The digits add up to the number, when it leaves room for the rounding. -/
theorem wnafLoop_sum {w : ℕ} (h2 : 2 ≤ w) (h8 : w ≤ 8) : ∀ (fuel : ℕ) (r : F4),
    F4.num r ≤ 2 ^ 255 → digitSum (wnafLoop w fuel r).1 +
      2 ^ (wnafLoop w fuel r).1.length * (F4.num (wnafLoop w fuel r).2 : ℤ) = F4.num r
  | 0, r, _ => by simp [wnafLoop, digitSum]
  | fuel + 1, r, hb => by
    rw [wnafLoop]
    split_ifs with hz
    · simp [digitSum]
    · have ih := wnafLoop_sum h2 h8 fuel (wnafStep w r).2
        (le_trans (step_bound h2 h8 (k := 254) (by omega) hb) (by norm_num))
      simp only [digitSum, List.length_cons]
      rw [step_lt h2 h8 hb, ← ih]
      ring

theorem wnafLoop_digits {w : ℕ} (h2 : 2 ≤ w) (h8 : w ≤ 8) : ∀ (fuel : ℕ) (r : F4),
    DigitsOk w (wnafLoop w fuel r).1
  | 0, r => by simp [wnafLoop, DigitsOk]
  | fuel + 1, r => by
    rw [wnafLoop]
    split_ifs with hz
    · simp [DigitsOk]
    · intro d hd
      simp only [List.mem_cons] at hd
      rcases hd with rfl | hd
      · obtain ⟨h0, h1⟩ := wnafStep_spec h2 h8 r
        rcases Nat.mod_two_eq_zero_or_one (F4.num r) with h | h
        · exact Or.inl (h0 h).1
        · obtain ⟨k, -, -, ho, b1, b2, -⟩ := smod_bounds h2 h
          rw [(h1 h).1]
          exact Or.inr ⟨ho, b1, b2⟩
      · exact wnafLoop_digits h2 h8 fuel _ d hd

theorem wnafLoop_zeros {w : ℕ} (h2 : 2 ≤ w) (h8 : w ≤ 8) : ∀ (j fuel : ℕ) (r : F4),
    F4.num r % 2 ^ j = 0 → ∀ x ∈ (wnafLoop w fuel r).1.take j, x.toInt = 0
  | 0, _, _, _ => by simp
  | j + 1, 0, _, _ => by simp [wnafLoop]
  | j + 1, fuel + 1, r, h => by
    rw [wnafLoop]
    split_ifs with hz
    · simp
    · intro x hx
      simp only [List.take_succ_cons, List.mem_cons] at hx
      have hev : F4.num r % 2 = 0 := by
        have : 2 ∣ 2 ^ (j + 1) := dvd_pow_self 2 (by omega)
        have := dvd_trans this (Nat.dvd_of_mod_eq_zero h)
        omega
      obtain ⟨e1, e2⟩ := (wnafStep_spec h2 h8 r).1 hev
      rcases hx with rfl | hx
      · exact e1
      · refine wnafLoop_zeros h2 h8 j fuel _ ?_ x hx
        rw [e2]
        obtain ⟨c, hc⟩ := Nat.dvd_of_mod_eq_zero h
        rw [hc, pow_succ, show 2 ^ j * 2 * c = 2 * (2 ^ j * c) by ring, Nat.mul_div_cancel_left _ (by norm_num)]
        simp

theorem wnafLoop_spaced {w : ℕ} (h2 : 2 ≤ w) (h8 : w ≤ 8) : ∀ (fuel : ℕ) (r : F4),
    Spaced w (wnafLoop w fuel r).1
  | 0, r => by simp [wnafLoop, Spaced]
  | fuel + 1, r => by
    rw [wnafLoop]
    split_ifs with hz
    · simp [Spaced]
    · refine ⟨fun hne => ?_, wnafLoop_spaced h2 h8 fuel _⟩
      obtain ⟨h0, h1⟩ := wnafStep_spec h2 h8 r
      rcases Nat.mod_two_eq_zero_or_one (F4.num r) with h | h
      · exact absurd (h0 h).1 hne
      · refine wnafLoop_zeros h2 h8 _ _ _ ?_
        obtain ⟨k, -, -, -, -, -, q, hq⟩ := smod_bounds h2 h
        have e := (h1 h).2
        rw [hq] at e
        obtain ⟨c, hc⟩ : ∃ c, 256 = w + c := ⟨256 - w, by omega⟩
        have hw : (2 : ℤ) ^ w = 2 * 2 ^ (w - 1) := by
          rw [← pow_succ']; congr 1; omega
        rw [hc, pow_add, Int.mul_emod_mul_of_pos _ _ (by positivity), hw, mul_assoc,
          Int.mul_ediv_cancel_left _ (by norm_num)] at e
        apply Nat.mod_eq_zero_of_dvd
        zify
        rw [e]
        exact Dvd.intro _ rfl

theorem ofBytes_num {b : List Byte} (h : b.length = 32) : F4.num (F4.ofBytes b) = leNat b := by
  have := F4.num_val (F4.ofBytes b)
  rw [F4.ofBytes_val h] at this
  exact_mod_cast this

/-- The scalars for which the first subtraction wraps around. -/
def wnafWraps (w n : ℕ) : Prop := n % 2 = 1 ∧ 2 ^ 256 < n + 2 ^ (w - 1)

instance (w n : ℕ) : Decidable (wnafWraps w n) := by unfold wnafWraps; infer_instance

theorem step_top {w : ℕ} (h2 : 2 ≤ w) (h8 : w ≤ 8) (r : F4) :
    (F4.num r : ℤ) - (if wnafWraps w (F4.num r) then 2 ^ 256 else 0) =
      (wnafStep w r).1.toInt + 2 * F4.num (wnafStep w r).2 := by
  obtain ⟨h0, h1⟩ := wnafStep_spec h2 h8 r
  rcases Nat.mod_two_eq_zero_or_one (F4.num r) with h | h
  · obtain ⟨e1, e2⟩ := h0 h
    rw [e1, e2, if_neg (by unfold wnafWraps; omega)]; omega
  · obtain ⟨e1, e2⟩ := h1 h
    obtain ⟨k, hk, hle, -, b1, b2, q, hq⟩ := smod_bounds h2 h
    have hp : (2 : ℤ) ^ (w - 1) ≤ 2 ^ 7 := pow_le_pow_right₀ (by norm_num) (by omega)
    have hp' : ((2 ^ (w - 1) : ℕ) : ℤ) = 2 ^ (w - 1) := by push_cast; rfl
    have hlt := F4.num_lt r
    obtain ⟨c, hc⟩ : ∃ c, 256 = w + c := ⟨256 - w, by omega⟩
    have hw : (2 : ℤ) ^ w = 2 * 2 ^ (w - 1) := by
      rw [← pow_succ']; congr 1; omega
    have h256 : (2 : ℤ) ^ 256 = 2 ^ w * 2 ^ c := by rw [hc, pow_add]
    rw [e2, e1]
    by_cases hwr : wnafWraps w (F4.num r)
    · rw [if_pos hwr]
      have hge : (2 : ℤ) ^ 256 ≤ (F4.num r : ℤ) - smod w (F4.num r) := by
        rw [hq, h256]
        refine mul_le_mul_of_nonneg_left ?_ (by positivity)
        by_contra hcon
        have h3 : (q : ℤ) + 1 ≤ 2 ^ c := by omega
        have h4 := mul_le_mul_of_nonneg_left h3 (show (0 : ℤ) ≤ 2 ^ w by positivity)
        rw [← h256, mul_add, mul_one, ← hq] at h4
        have := hwr.2
        zify at this
        omega
      generalize smod w (F4.num r) = s at *
      generalize F4.num r = n at *
      clear hq h256 hw hc
      norm_num at hp
      omega
    · rw [if_neg hwr, sub_zero]
      have hlt2 : (F4.num r : ℤ) - smod w (F4.num r) < 2 ^ 256 := by
        unfold wnafWraps at hwr
        push Not at hwr
        have := hwr h
        zify at this
        omega
      rw [Int.emod_eq_of_lt (by omega) hlt2]
      omega

theorem wnaf_length {w : ℕ} (h2 : 2 ≤ w) (h8 : w ≤ 8) {b : List Byte} (_h : b.length = 32) :
    (wnaf_256bits w b).length ≤ 257 :=
  (wnafLoop_end h2 h8 256 257 (F4.ofBytes b) (by omega) (by omega) (F4.num_lt _).le).2

theorem wnaf_sum {w : ℕ} (h2 : 2 ≤ w) (h8 : w ≤ 8) {b : List Byte} (h : b.length = 32) :
    digitSum (wnaf_256bits w b) =
      (leNat b : ℤ) - if wnafWraps w (leNat b) then 2 ^ 256 else 0 := by
  rw [← ofBytes_num h]
  unfold wnaf_256bits
  generalize F4.ofBytes b = r
  have hend := (wnafLoop_end h2 h8 256 257 r (by omega) (by omega) (F4.num_lt _).le).1
  by_cases hz : isZero4 r = true
  · have h0 := (isZero4_iff r).1 hz
    rw [wnafLoop, if_pos hz, h0, if_neg (by unfold wnafWraps; omega)]
    rfl
  · rw [wnafLoop, if_neg hz] at hend ⊢
    have hb := step_bound h2 h8 (k := 255) (by omega) (F4.num_lt r).le
    have := wnafLoop_sum h2 h8 256 _ hb
    simp only at hend
    rw [hend, Nat.cast_zero, mul_zero, add_zero] at this
    rw [step_top h2 h8, ← this]
    rfl

theorem wnaf_digits {w : ℕ} (h2 : 2 ≤ w) (h8 : w ≤ 8) (b : List Byte) :
    DigitsOk w (wnaf_256bits w b) := wnafLoop_digits h2 h8 257 _

theorem wnaf_spaced {w : ℕ} (h2 : 2 ≤ w) (h8 : w ≤ 8) (b : List Byte) :
    Spaced w (wnaf_256bits w b) := wnafLoop_spaced h2 h8 257 _

end Verif.Ed25519
