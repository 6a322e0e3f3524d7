import Verif.Fp25519.FullLemmas
import Verif.Fp25519.Prime
import Mathlib.FieldTheory.Finite.Basic

/-! # Inversion and inverse square roots, full radix: helper lemmas -/

namespace Verif.Fp25519

set_option exponentiation.threshold 2000
set_option linter.unusedSimpArgs false

theorem fermat_inv (x : Fp) : x ^ (2 ^ 255 - 21) = x⁻¹ := by
  by_cases hx : x = 0
  · subst hx
    rw [inv_zero]; exact zero_pow (by norm_num)
  · apply eq_inv_of_mul_eq_one_left
    rw [← pow_succ]
    have := ZMod.pow_card_sub_one_eq_one hx
    have e : (2 ^ 255 - 21 + 1 : ℕ) = P - 1 := by norm_num
    rw [e]; exact this

namespace Full

theorem inv_pow (isa : Isa) (a : F4) : (inv isa a).toFp = a.toFp ^ (2 ^ 255 - 21) := by
  simp only [inv, mul_toFp, sqrn_toFp]
  generalize a.toFp = x
  simp only [← pow_mul, ← pow_succ, ← pow_succ', ← pow_add]
  norm_num only

theorem inv_toFp (isa : Isa) (a : F4) : (inv isa a).toFp = a.toFp⁻¹ := by
  rw [inv_pow, fermat_inv]

theorem invAliased_pow (isa : Isa) (a : F4) : (invAliased isa a).toFp = a.toFp ^
    63498887646270171683893765972506272048567410945673857699057384778533006576716 := by
  simp only [invAliased, mul_toFp, sqrn_toFp]
  generalize a.toFp = x
  simp only [← pow_mul, ← pow_succ, ← pow_succ', ← pow_add]
  norm_num only

theorem invsqrtPow_fst (isa : Isa) (u v : F4) :
    (invsqrtPow isa u v).1.toFp = u.toFp * v.toFp ^ 3 := by
  simp only [invsqrtPow, mul_toFp, sqrn_toFp, sqr_toFp]
  ring

theorem invsqrtPow_snd (isa : Isa) (u v : F4) :
    (invsqrtPow isa u v).2.toFp = (u.toFp * v.toFp ^ 7) ^ (2 ^ 252 - 3) := by
  have h : u.toFp * v.toFp ^ 7 = u.toFp * v.toFp * v.toFp ^ 2 * (v.toFp ^ 2) ^ 2 := by ring
  rw [h]
  simp only [invsqrtPow, mul_toFp, sqrn_toFp, sqr_toFp]
  generalize u.toFp * v.toFp * v.toFp ^ 2 * (v.toFp ^ 2) ^ 2 = x
  simp only [← pow_mul, ← pow_succ, ← pow_succ', ← pow_add]
  norm_num only

theorem sqrt_minus_one_sq : sqrt_minus_one.toFp ^ 2 = -1 := by
  have h : sqrt_minus_one.val ^ 2 % p25519 = (-1) % p25519 := by decide +kernel
  have h2 : ((sqrt_minus_one.val ^ 2 : ℤ) : Fp) = ((-1 : ℤ) : Fp) := by
    rw [ZMod.intCast_eq_intCast_iff_dvd_sub, P_eq]
    exact Int.ModEq.dvd h
  rw [Int.cast_pow] at h2
  unfold F4.toFp
  simpa using h2

/-- The candidate root `u v^3 (u v^7)^((p-5)/8)`. -/
theorem cand_sq (u v : Fp) :
    v * (u * v ^ 3 * (u * v ^ 7) ^ (2 ^ 252 - 3)) ^ 2 = u * (u * v ^ 7) ^ (2 ^ 253 - 5) := by
  have : (2 ^ 253 - 5 : ℕ) = (2 ^ 252 - 3) * 2 + 1 := by norm_num
  rw [this]
  generalize (2 ^ 252 - 3 : ℕ) = n
  rw [pow_succ (u * v ^ 7), pow_mul]
  ring

/-- For a square `s`, the quartic character is 0 or a sign. -/
theorem quartic_of_square (s : Fp) (h : IsSquare s) :
    s = 0 ∨ s ^ (2 ^ 253 - 5) = 1 ∨ s ^ (2 ^ 253 - 5) = -1 := by
  by_cases h0 : s = 0
  · exact Or.inl h0
  · right
    obtain ⟨r, hr⟩ := h
    have hr0 : r ≠ 0 := by rintro rfl; simp at hr; exact h0 hr
    refine mul_self_eq_one_iff.mp ?_
    rw [← pow_two]
    rw [hr, ← pow_two, ← pow_mul, ← pow_mul]
    have e : 2 * ((2 ^ 253 - 5) * 2) = P - 1 := by norm_num
    rw [e]
    exact ZMod.pow_card_sub_one_eq_one hr0

theorem invsqrt_spec (isa : Isa) (u v : F4) (h : ∃ y : Fp, v.toFp * y ^ 2 = u.toFp) :
    v.toFp * (invsqrt isa u v).1.toFp ^ 2 = u.toFp := by
  obtain ⟨y, hy⟩ := h
  have hsq : IsSquare (u.toFp * v.toFp ^ 7) := ⟨v.toFp ^ 4 * y, by rw [← hy]; ring⟩
  have hx := cand_sq u.toFp v.toFp
  unfold invsqrt
  simp only
  split_ifs with hc
  · rw [cmp_result] at hc
    simp only [mul_toFp, sqr_toFp, invsqrtPow_fst, invsqrtPow_snd, neg_toFp] at hc ⊢
    rw [mul_pow, sqrt_minus_one_sq]
    linear_combination -hc
  · rw [cmp_result] at hc
    simp only [mul_toFp, sqr_toFp, invsqrtPow_fst, invsqrtPow_snd, neg_toFp] at hc ⊢
    rw [mul_comm ((u.toFp * v.toFp ^ 7) ^ (2 ^ 252 - 3))] at hc ⊢
    rw [hx]
    rw [mul_comm, hx] at hc
    rcases quartic_of_square _ hsq with h0 | h0 | h0
    · exfalso
      apply hc
      rw [h0, zero_pow (by norm_num), mul_zero]
      rcases mul_eq_zero.mp h0 with h1 | h1
      · rw [h1, neg_zero]
      · have h2 : v.toFp = 0 := pow_eq_zero_iff (by norm_num) |>.mp h1
        rw [← hy, h2, zero_mul, neg_zero]
    · rw [h0, mul_one]
    · exfalso; apply hc; rw [h0, mul_neg, mul_one]

theorem srt_of_zero (isa : Isa) (c a : F4) (hc : c.toFp = 0) : (srt isa c a).toFp = 0 := by
  unfold srt
  simp only
  split_ifs
  · simp only [mul_toFp, invsqrtPow_fst, cmp, modp_toFp, neg_toFp, hc]; ring
  · simp only [mul_toFp, invsqrtPow_fst, cmp, modp_toFp, neg_toFp, hc]; ring

end Full
end Verif.Fp25519
