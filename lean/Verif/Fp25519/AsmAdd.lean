import Verif.Fp25519.Asm
import Verif.Fp25519.Lemmas

/-! # Addition and subtraction

Helper lemmas: one linear identity per straight-line block. -/

namespace Verif.Fp25519.Asm

set_option maxRecDepth 4000
set_option linter.unusedVariables false
set_option exponentiation.threshold 2000

theorem add_adx_fold (a b : F4) :
    (add_adx a b).val = fold (fold (a.val + b.val)) := by
  generalize h : add_adx a b = X
  unfold add_adx at h
  have hz : iv 0#64 = 0 := rfl
  have hf : bv false = 0 := rfl
  replace h := mov_inv h
  replace h := xor0_inv h
  replace h := mov_inv h
  replace h := adc_inv h; obtain ⟨v2, c2, e2, h⟩ := h
  replace h := mov_inv h
  replace h := adc_inv h; obtain ⟨v3, c3, e3, h⟩ := h
  replace h := mov_inv h
  replace h := adc_inv h; obtain ⟨v4, c4, e4, h⟩ := h
  replace h := mov_inv h
  replace h := adc_inv h; obtain ⟨v5, c5, e5, h⟩ := h
  have EA : iv v2 + (2 ^ 64) * (iv v3) + (2 ^ 128) * (iv v4) + (2 ^ 192) * (iv v5) + (2 ^ 256) * (bv c5) = (2 ^ 192) * (iv b.w3) + (2 ^ 192) * (iv a.w3) + (2 ^ 128) * (iv b.w2) + (2 ^ 128) * (iv a.w2) + (2 ^ 64) * (iv b.w1) + (2 ^ 64) * (iv a.w1) + iv b.w0 + iv a.w0 := by linear_combination (2 ^ 192) * e5 + (2 ^ 128) * e4 + (2 ^ 64) * e3 + e2 + hf
  replace h := cmov0_inv h; obtain ⟨v6, e6, h⟩ := h
  rw [show iv 38#64 = 38 from rfl] at e6
  replace h := xor0_inv h
  replace h := adc_inv h; obtain ⟨v8, c8, e8, h⟩ := h
  replace h := adc_inv h; obtain ⟨v9, c9, e9, h⟩ := h
  replace h := mov_inv h
  replace h := adc_inv h; obtain ⟨v10, c10, e10, h⟩ := h
  replace h := mov_inv h
  replace h := adc_inv h; obtain ⟨v11, c11, e11, h⟩ := h
  replace h := mov_inv h
  replace h := mov_inv h
  have EB : iv v8 + (2 ^ 64) * (iv v9) + (2 ^ 128) * (iv v10) + (2 ^ 192) * (iv v11) + (2 ^ 256) * (bv c11) = (2 ^ 192) * (iv v5) + (2 ^ 128) * (iv v4) + (2 ^ 64) * (iv v3) + iv v2 + (19 * 2 ^ 1) * (bv c5) := by linear_combination (2 ^ 192) * e11 + (2 ^ 128) * e10 + (2 ^ 64) * e9 + e8 + e6 + (340282366920938463481821351505477763073 * 2 ^ 64) * hz + hf
  replace h := cmov0_inv h; obtain ⟨v12, e12, h⟩ := h
  rw [show iv 38#64 = 38 from rfl] at e12
  replace h := add_inv h; obtain ⟨v13, c13, e13, h⟩ := h
  have zd : bv c13 = 0 := by
    refine last_fold (c := c11) (s0 := iv v8) (rest := (2 ^ 64) * (iv v9) + (2 ^ 128) * (iv v10) + (2 ^ 192) * (iv v11)) (S := iv v2 + (2 ^ 64) * (iv v3) + (2 ^ 128) * (iv v4) + (2 ^ 192) * (iv v5)) (m := 38 * bv c5) (r := iv v13) ?_ ?_ ?_ ?_ ?_ (iv_lt _) (iv_nonneg _)
    · linarith only [iv_nonneg v9, iv_nonneg v10, iv_nonneg v11]
    · linarith only [EB]
    · linarith only [iv_le v2, iv_le v3, iv_le v4, iv_le v5]
    · linarith only [bv_le c5]
    · linarith only [e13, e12]
  replace h := mov_inv h
  subst h
  exact fold2_eq (w := iv v2 + (2 ^ 64) * (iv v3) + (2 ^ 128) * (iv v4) + (2 ^ 192) * (iv v5)) (t := bv c5) (v := iv v8 + (2 ^ 64) * (iv v9) + (2 ^ 128) * (iv v10) + (2 ^ 192) * (iv v11)) (c := bv c11)
    (by simp only [F4.val]; linear_combination EA) (by linarith only [iv_nonneg v2, iv_nonneg v3, iv_nonneg v4, iv_nonneg v5]) (by linarith only [iv_le v2, iv_le v3, iv_le v4, iv_le v5])
    (by linear_combination EB) (by linarith only [iv_nonneg v8, iv_nonneg v9, iv_nonneg v10, iv_nonneg v11]) (by linarith only [iv_le v8, iv_le v9, iv_le v10, iv_le v11])
    (by simp only [F4.val]; linear_combination e13 - 2 ^ 64 * zd + e12)

theorem add_adx_val (a b : F4) :
    ∃ q, (add_adx a b).val = a.val + b.val + p25519 * q := fold2_mod (add_adx_fold a b)

theorem add_adc_fold (a b : F4) :
    (add_adc a b).val = fold (fold (a.val + b.val)) := by
  generalize h : add_adc a b = X
  unfold add_adc at h
  have hz : iv 0#64 = 0 := rfl
  have hf : bv false = 0 := rfl
  replace h := mov_inv h
  replace h := mov_inv h
  replace h := add_inv h; obtain ⟨v1, c1, e1, h⟩ := h
  replace h := mov_inv h
  replace h := adc_inv h; obtain ⟨v2, c2, e2, h⟩ := h
  replace h := mov_inv h
  replace h := adc_inv h; obtain ⟨v3, c3, e3, h⟩ := h
  replace h := mov_inv h
  replace h := adc_inv h; obtain ⟨v4, c4, e4, h⟩ := h
  replace h := mov_inv h
  have EA : iv v1 + (2 ^ 64) * (iv v2) + (2 ^ 128) * (iv v3) + (2 ^ 192) * (iv v4) + (2 ^ 256) * (bv c4) = (2 ^ 192) * (iv b.w3) + (2 ^ 192) * (iv a.w3) + (2 ^ 128) * (iv b.w2) + (2 ^ 128) * (iv a.w2) + (2 ^ 64) * (iv b.w1) + (2 ^ 64) * (iv a.w1) + iv b.w0 + iv a.w0 := by linear_combination (2 ^ 192) * e4 + (2 ^ 128) * e3 + (2 ^ 64) * e2 + e1
  replace h := cmov0_inv h; obtain ⟨v5, e5, h⟩ := h
  rw [show iv 38#64 = 38 from rfl] at e5
  replace h := add_inv h; obtain ⟨v6, c6, e6, h⟩ := h
  replace h := adc_inv h; obtain ⟨v7, c7, e7, h⟩ := h
  replace h := mov_inv h
  replace h := adc_inv h; obtain ⟨v8, c8, e8, h⟩ := h
  replace h := mov_inv h
  replace h := adc_inv h; obtain ⟨v9, c9, e9, h⟩ := h
  replace h := mov_inv h
  replace h := mov_inv h
  have EB : iv v6 + (2 ^ 64) * (iv v7) + (2 ^ 128) * (iv v8) + (2 ^ 192) * (iv v9) + (2 ^ 256) * (bv c9) = (2 ^ 192) * (iv v4) + (2 ^ 128) * (iv v3) + (2 ^ 64) * (iv v2) + iv v1 + (19 * 2 ^ 1) * (bv c4) := by linear_combination (2 ^ 192) * e9 + (2 ^ 128) * e8 + (2 ^ 64) * e7 + e6 + e5 + (340282366920938463481821351505477763073 * 2 ^ 64) * hz
  replace h := cmov0_inv h; obtain ⟨v10, e10, h⟩ := h
  rw [show iv 38#64 = 38 from rfl] at e10
  replace h := add_inv h; obtain ⟨v11, c11, e11, h⟩ := h
  have zd : bv c11 = 0 := by
    refine last_fold (c := c9) (s0 := iv v6) (rest := (2 ^ 64) * (iv v7) + (2 ^ 128) * (iv v8) + (2 ^ 192) * (iv v9)) (S := iv v1 + (2 ^ 64) * (iv v2) + (2 ^ 128) * (iv v3) + (2 ^ 192) * (iv v4)) (m := 38 * bv c4) (r := iv v11) ?_ ?_ ?_ ?_ ?_ (iv_lt _) (iv_nonneg _)
    · linarith only [iv_nonneg v7, iv_nonneg v8, iv_nonneg v9]
    · linarith only [EB]
    · linarith only [iv_le v1, iv_le v2, iv_le v3, iv_le v4]
    · linarith only [bv_le c4]
    · linarith only [e11, e10]
  replace h := mov_inv h
  subst h
  exact fold2_eq (w := iv v1 + (2 ^ 64) * (iv v2) + (2 ^ 128) * (iv v3) + (2 ^ 192) * (iv v4)) (t := bv c4) (v := iv v6 + (2 ^ 64) * (iv v7) + (2 ^ 128) * (iv v8) + (2 ^ 192) * (iv v9)) (c := bv c9)
    (by simp only [F4.val]; linear_combination EA) (by linarith only [iv_nonneg v1, iv_nonneg v2, iv_nonneg v3, iv_nonneg v4]) (by linarith only [iv_le v1, iv_le v2, iv_le v3, iv_le v4])
    (by linear_combination EB) (by linarith only [iv_nonneg v6, iv_nonneg v7, iv_nonneg v8, iv_nonneg v9]) (by linarith only [iv_le v6, iv_le v7, iv_le v8, iv_le v9])
    (by simp only [F4.val]; linear_combination e11 - 2 ^ 64 * zd + e10)

theorem add_adc_val (a b : F4) :
    ∃ q, (add_adc a b).val = a.val + b.val + p25519 * q := fold2_mod (add_adc_fold a b)

theorem sub4_fold (a b : F4) :
    (sub4 a b).val = fold (fold (a.val - b.val)) := by
  generalize h : sub4 a b = X
  unfold sub4 at h
  have hz : iv 0#64 = 0 := rfl
  have hf : bv false = 0 := rfl
  replace h := mov_inv h
  replace h := mov_inv h
  replace h := sub_inv h; obtain ⟨v1, c1, e1, h⟩ := h
  replace h := mov_inv h
  replace h := sbb_inv h; obtain ⟨v2, c2, e2, h⟩ := h
  replace h := mov_inv h
  replace h := sbb_inv h; obtain ⟨v3, c3, e3, h⟩ := h
  replace h := mov_inv h
  replace h := sbb_inv h; obtain ⟨v4, c4, e4, h⟩ := h
  replace h := mov_inv h
  have EA : iv v1 + (2 ^ 64) * (iv v2) + (2 ^ 128) * (iv v3) + (2 ^ 192) * (iv v4) + (-2 ^ 256) * (bv c4) = (2 ^ 192) * (iv a.w3) + (-2 ^ 192) * (iv b.w3) + (2 ^ 128) * (iv a.w2) + (-2 ^ 128) * (iv b.w2) + (2 ^ 64) * (iv a.w1) + (-2 ^ 64) * (iv b.w1) + iv a.w0 + (-1) * (iv b.w0) := by linear_combination (2 ^ 192) * e4 + (2 ^ 128) * e3 + (2 ^ 64) * e2 + e1
  replace h := cmov0_inv h; obtain ⟨v5, e5, h⟩ := h
  rw [show iv 38#64 = 38 from rfl] at e5
  replace h := sub_inv h; obtain ⟨v6, c6, e6, h⟩ := h
  replace h := sbb_inv h; obtain ⟨v7, c7, e7, h⟩ := h
  replace h := mov_inv h
  replace h := sbb_inv h; obtain ⟨v8, c8, e8, h⟩ := h
  replace h := mov_inv h
  replace h := sbb_inv h; obtain ⟨v9, c9, e9, h⟩ := h
  replace h := mov_inv h
  replace h := mov_inv h
  have EB : iv v6 + (2 ^ 64) * (iv v7) + (2 ^ 128) * (iv v8) + (2 ^ 192) * (iv v9) + (-2 ^ 256) * (bv c9) = (2 ^ 192) * (iv v4) + (2 ^ 128) * (iv v3) + (2 ^ 64) * (iv v2) + iv v1 + (-19 * 2 ^ 1) * (bv c4) := by linear_combination (2 ^ 192) * e9 + (2 ^ 128) * e8 + (2 ^ 64) * e7 + e6 + (-1) * e5 + (-340282366920938463481821351505477763073 * 2 ^ 64) * hz
  replace h := cmov0_inv h; obtain ⟨v10, e10, h⟩ := h
  rw [show iv 38#64 = 38 from rfl] at e10
  replace h := sub_inv h; obtain ⟨v11, c11, e11, h⟩ := h
  have zd : bv c11 = 0 := by
    refine last_sub (c := c9) (s0 := iv v6) (rest := (2 ^ 64) * (iv v7) + (2 ^ 128) * (iv v8) + (2 ^ 192) * (iv v9)) (S := iv v1 + (2 ^ 64) * (iv v2) + (2 ^ 128) * (iv v3) + (2 ^ 192) * (iv v4)) (m := 38 * bv c4) (r := iv v11) ?_ ?_ ?_ ?_ ?_ (iv_lt _) (iv_nonneg _) (by linarith only [iv_le v7, iv_le v8, iv_le v9])
    · linarith only [iv_nonneg v7, iv_nonneg v8, iv_nonneg v9]
    · linarith only [EB]
    · linarith only [iv_nonneg v1, iv_nonneg v2, iv_nonneg v3, iv_nonneg v4]
    · linarith only [bv_le c4]
    · exact ⟨by linarith only [e11, e10], iv_nonneg _, iv_lt _⟩
  replace h := mov_inv h
  subst h
  exact fold2_eq (w := iv v1 + (2 ^ 64) * (iv v2) + (2 ^ 128) * (iv v3) + (2 ^ 192) * (iv v4)) (t := -bv c4) (v := iv v6 + (2 ^ 64) * (iv v7) + (2 ^ 128) * (iv v8) + (2 ^ 192) * (iv v9)) (c := -bv c9)
    (by simp only [F4.val]; linear_combination EA) (by linarith only [iv_nonneg v1, iv_nonneg v2, iv_nonneg v3, iv_nonneg v4]) (by linarith only [iv_le v1, iv_le v2, iv_le v3, iv_le v4])
    (by linear_combination EB) (by linarith only [iv_nonneg v6, iv_nonneg v7, iv_nonneg v8, iv_nonneg v9]) (by linarith only [iv_le v6, iv_le v7, iv_le v8, iv_le v9])
    (by simp only [F4.val]; linear_combination e11 + 2 ^ 64 * zd - e10)

theorem sub4_val (a b : F4) :
    ∃ q, (sub4 a b).val = a.val - b.val + p25519 * q := fold2_mod (sub4_fold a b)

end Verif.Fp25519.Asm
