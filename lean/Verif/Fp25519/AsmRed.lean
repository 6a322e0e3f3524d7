import Verif.Fp25519.Asm
import Verif.Fp25519.Lemmas

/-! # Reductions

Helper lemmas: one linear identity per straight-line block. -/

namespace Verif.Fp25519.Asm

set_option maxRecDepth 4000
set_option linter.unusedVariables false
set_option exponentiation.threshold 2000

theorem reduce_mulxadx_fold (a : F8) :
    (reduce_mulxadx a).val = fold (fold (fold a.val)) := by
  generalize h : reduce_mulxadx a = X
  unfold reduce_mulxadx at h
  have hz : iv 0#64 = 0 := rfl
  have hf : bv false = 0 := rfl
  replace h := mov_inv h
  replace h := mulx_inv h; obtain ⟨l1, h1, e1, h⟩ := h
  rw [show iv 38#64 = 38 from rfl] at e1
  replace h := xor0_inv h
  replace h := adc_inv h; obtain ⟨v3, c3, e3, h⟩ := h
  replace h := mulx_inv h; obtain ⟨l4, h4, e4, h⟩ := h
  rw [show iv 38#64 = 38 from rfl] at e4
  replace h := adc_inv h; obtain ⟨v5, c5, e5, h⟩ := h
  replace h := adc_inv h; obtain ⟨v6, c6, e6, h⟩ := h
  replace h := mulx_inv h; obtain ⟨l7, h7, e7, h⟩ := h
  rw [show iv 38#64 = 38 from rfl] at e7
  replace h := adc_inv h; obtain ⟨v8, c8, e8, h⟩ := h
  replace h := adc_inv h; obtain ⟨v9, c9, e9, h⟩ := h
  replace h := mulx_inv h; obtain ⟨l10, h10, e10, h⟩ := h
  rw [show iv 38#64 = 38 from rfl] at e10
  replace h := adc_inv h; obtain ⟨v11, c11, e11, h⟩ := h
  replace h := adc_inv h; obtain ⟨v12, c12, e12, h⟩ := h
  replace h := adc_inv h; obtain ⟨v13, c13, e13, h⟩ := h
  have zc13 : bv c13 = 0 := by
    refine dead (K := 2 ^ 320) (rest := iv l1 + (2 ^ 64) * (iv v5) + (2 ^ 128) * (iv v8) + (2 ^ 192) * (iv v11) + (2 ^ 256) * (iv v13)) (P := (19 * 2 ^ 1) * (iv a.w4) + (19 * 2 ^ 65) * (iv a.w5) + (19 * 2 ^ 129) * (iv a.w6) + (19 * 2 ^ 193) * (iv a.w7)) (by linear_combination e1 + (2 ^ 64) * e4 + (2 ^ 64) * e5 + (2 ^ 128) * e7 + (2 ^ 128) * e8 + (2 ^ 192) * e10 + (2 ^ 192) * e11 + (2 ^ 256) * e13 + (2 ^ 64) * hf + (2 ^ 256) * hz) ?_ ?_
    · linarith only [iv_nonneg l1, iv_nonneg v5, iv_nonneg v8, iv_nonneg v11, iv_nonneg v13]
    · linarith only [iv_le a.w4, iv_le a.w5, iv_le a.w6, iv_le a.w7]
  replace h := adc_inv h; obtain ⟨v14, c14, e14, h⟩ := h
  have zc14 : bv c14 = 0 := by
    refine dead (K := 2 ^ 320) (rest := iv v3 + (2 ^ 64) * (iv v6) + (2 ^ 128) * (iv v9) + (2 ^ 192) * (iv v12) + (2 ^ 256) * (iv v14)) (P := (19 * 2 ^ 1) * (iv a.w4) + iv a.w0 + (19 * 2 ^ 65) * (iv a.w5) + (2 ^ 64) * (iv a.w1) + (19 * 2 ^ 129) * (iv a.w6) + (2 ^ 128) * (iv a.w2) + (19 * 2 ^ 193) * (iv a.w7) + (2 ^ 192) * (iv a.w3)) (by linear_combination e1 + e3 + (2 ^ 64) * e4 + (2 ^ 64) * e5 + (2 ^ 64) * e6 + (2 ^ 128) * e7 + (2 ^ 128) * e8 + (2 ^ 128) * e9 + (2 ^ 192) * e10 + (2 ^ 192) * e11 + (2 ^ 192) * e12 + (2 ^ 256) * e13 + (2 ^ 256) * e14 + (18446744073709551617) * hf + (-2 ^ 320) * zc13 + (2 ^ 257) * hz) ?_ ?_
    · linarith only [iv_nonneg v3, iv_nonneg v6, iv_nonneg v9, iv_nonneg v12, iv_nonneg v14]
    · linarith only [iv_le a.w4, iv_le a.w0, iv_le a.w5, iv_le a.w1, iv_le a.w6, iv_le a.w2, iv_le a.w7, iv_le a.w3]
  have EA0 : iv v3 + (2 ^ 64) * (iv v6) + (2 ^ 128) * (iv v9) + (2 ^ 192) * (iv v12) + (2 ^ 256) * (iv v14) = (2 ^ 192) * (iv a.w3) + (19 * 2 ^ 193) * (iv a.w7) + (2 ^ 128) * (iv a.w2) + (19 * 2 ^ 129) * (iv a.w6) + (2 ^ 64) * (iv a.w1) + (19 * 2 ^ 65) * (iv a.w5) + iv a.w0 + (19 * 2 ^ 1) * (iv a.w4) := by linear_combination (2 ^ 256) * e14 + (-2 ^ 320) * zc14 + (2 ^ 256) * e13 + (-2 ^ 320) * zc13 + (2 ^ 192) * e12 + (2 ^ 192) * e11 + (2 ^ 192) * e10 + (2 ^ 128) * e9 + (2 ^ 128) * e8 + (2 ^ 128) * e7 + (2 ^ 64) * e6 + (2 ^ 64) * e5 + (2 ^ 64) * e4 + e3 + e1 + (2 ^ 257) * hz + (18446744073709551617) * hf
  have ht0 : iv v14 ≤ 39 := by
    have := iv_lt v14
    linarith only [this, EA0, iv_nonneg v3, iv_nonneg v6, iv_nonneg v9, iv_nonneg v12, iv_le a.w3, iv_le a.w7, iv_le a.w2, iv_le a.w6, iv_le a.w1, iv_le a.w5, iv_le a.w0, iv_le a.w4]
  replace h := imul_inv h (by linarith only [ht0]) (by rw [show iv 38#64 = 38 from rfl]; norm_num); obtain ⟨v15, e15, h⟩ := h
  rw [show iv 38#64 = 38 from rfl] at e15
  replace h := adc_inv h; obtain ⟨v16, c16, e16, h⟩ := h
  replace h := adc_inv h; obtain ⟨v17, c17, e17, h⟩ := h
  replace h := mov_inv h
  replace h := adc_inv h; obtain ⟨v18, c18, e18, h⟩ := h
  replace h := mov_inv h
  replace h := adc_inv h; obtain ⟨v19, c19, e19, h⟩ := h
  replace h := mov_inv h
  replace h := mov_inv h
  have EB0 : iv v16 + (2 ^ 64) * (iv v17) + (2 ^ 128) * (iv v18) + (2 ^ 192) * (iv v19) + (2 ^ 256) * (bv c19) = (2 ^ 192) * (iv v12) + (2 ^ 128) * (iv v9) + (2 ^ 64) * (iv v6) + iv v3 + iv v15 := by linear_combination (2 ^ 192) * e19 + (2 ^ 128) * e18 + (2 ^ 64) * e17 + e16 + (340282366920938463481821351505477763073 * 2 ^ 64) * hz + hf
  replace h := cmov0_inv h; obtain ⟨v20, e20, h⟩ := h
  rw [show iv 38#64 = 38 from rfl] at e20
  replace h := add_inv h; obtain ⟨v21, c21, e21, h⟩ := h
  have zc0_ : bv c21 = 0 := by
    refine last_fold (c := c19) (s0 := iv v16) (rest := (2 ^ 64) * (iv v17) + (2 ^ 128) * (iv v18) + (2 ^ 192) * (iv v19)) (S := iv v3 + (2 ^ 64) * (iv v6) + (2 ^ 128) * (iv v9) + (2 ^ 192) * (iv v12)) (m := iv v15) (r := iv v21) ?_ ?_ ?_ ?_ ?_ (iv_lt _) (iv_nonneg _)
    · linarith only [iv_nonneg v17, iv_nonneg v18, iv_nonneg v19]
    · linarith only [EB0]
    · linarith only [iv_le v3, iv_le v6, iv_le v9, iv_le v12]
    · linarith only [ht0, e15]
    · linarith only [e21, e20]
  replace h := mov_inv h
  subst h
  exact fold3_eq (lo := iv a.w0 + 2 ^ 64 * iv a.w1 + 2 ^ 128 * iv a.w2 + 2 ^ 192 * iv a.w3) (hi := iv a.w4 + 2 ^ 64 * iv a.w5 + 2 ^ 128 * iv a.w6 + 2 ^ 192 * iv a.w7) (w := iv v3 + (2 ^ 64) * (iv v6) + (2 ^ 128) * (iv v9) + (2 ^ 192) * (iv v12)) (t := iv v14) (v := iv v16 + (2 ^ 64) * (iv v17) + (2 ^ 128) * (iv v18) + (2 ^ 192) * (iv v19)) (c := bv c19)
    (by simp only [F8.val]; ring) (by linarith only [iv_nonneg a.w0, iv_nonneg a.w1, iv_nonneg a.w2, iv_nonneg a.w3]) (by linarith only [iv_le a.w0, iv_le a.w1, iv_le a.w2, iv_le a.w3])
    (by linear_combination EA0) (by linarith only [iv_nonneg v3, iv_nonneg v6, iv_nonneg v9, iv_nonneg v12]) (by linarith only [iv_le v3, iv_le v6, iv_le v9, iv_le v12])
    (by linear_combination EB0 + e15) (by linarith only [iv_nonneg v16, iv_nonneg v17, iv_nonneg v18, iv_nonneg v19]) (by linarith only [iv_le v16, iv_le v17, iv_le v18, iv_le v19])
    (by simp only [F4.val]; linear_combination e21 - 2 ^ 64 * zc0_ + e20)

theorem reduce_mulxadx_val (a : F8) :
    ∃ q, (reduce_mulxadx a).val = a.val + p25519 * q := fold3_mod (reduce_mulxadx_fold a)

theorem reduce_mulx_fold (a : F8) :
    (reduce_mulx a).val = fold (fold (fold a.val)) := by
  generalize h : reduce_mulx a = X
  unfold reduce_mulx at h
  have hz : iv 0#64 = 0 := rfl
  have hf : bv false = 0 := rfl
  replace h := mov_inv h
  replace h := mulx_inv h; obtain ⟨l1, h1, e1, h⟩ := h
  rw [show iv 38#64 = 38 from rfl] at e1
  replace h := mulx_inv h; obtain ⟨l2, h2, e2, h⟩ := h
  rw [show iv 38#64 = 38 from rfl] at e2
  replace h := add_inv h; obtain ⟨v3, c3, e3, h⟩ := h
  replace h := mulx_inv h; obtain ⟨l4, h4, e4, h⟩ := h
  rw [show iv 38#64 = 38 from rfl] at e4
  replace h := adc_inv h; obtain ⟨v5, c5, e5, h⟩ := h
  replace h := mulx_inv h; obtain ⟨l6, h6, e6, h⟩ := h
  rw [show iv 38#64 = 38 from rfl] at e6
  replace h := adc_inv h; obtain ⟨v7, c7, e7, h⟩ := h
  replace h := adc_inv h; obtain ⟨v8, c8, e8, h⟩ := h
  have zc8 : bv c8 = 0 := by
    refine dead (K := 2 ^ 320) (rest := iv l1 + (2 ^ 64) * (iv v3) + (2 ^ 128) * (iv v5) + (2 ^ 192) * (iv v7) + (2 ^ 256) * (iv v8)) (P := (19 * 2 ^ 1) * (iv a.w4) + (19 * 2 ^ 65) * (iv a.w5) + (19 * 2 ^ 129) * (iv a.w6) + (19 * 2 ^ 193) * (iv a.w7)) (by linear_combination e1 + (2 ^ 64) * e2 + (2 ^ 64) * e3 + (2 ^ 128) * e4 + (2 ^ 128) * e5 + (2 ^ 192) * e6 + (2 ^ 192) * e7 + (2 ^ 256) * e8 + (2 ^ 256) * hz) ?_ ?_
    · linarith only [iv_nonneg l1, iv_nonneg v3, iv_nonneg v5, iv_nonneg v7, iv_nonneg v8]
    · linarith only [iv_le a.w4, iv_le a.w5, iv_le a.w6, iv_le a.w7]
  replace h := add_inv h; obtain ⟨v9, c9, e9, h⟩ := h
  replace h := adc_inv h; obtain ⟨v10, c10, e10, h⟩ := h
  replace h := adc_inv h; obtain ⟨v11, c11, e11, h⟩ := h
  replace h := adc_inv h; obtain ⟨v12, c12, e12, h⟩ := h
  replace h := adc_inv h; obtain ⟨v13, c13, e13, h⟩ := h
  have zc13 : bv c13 = 0 := by
    refine dead (K := 2 ^ 320) (rest := iv v9 + (2 ^ 64) * (iv v10) + (2 ^ 128) * (iv v11) + (2 ^ 192) * (iv v12) + (2 ^ 256) * (iv v13)) (P := (19 * 2 ^ 1) * (iv a.w4) + (19 * 2 ^ 65) * (iv a.w5) + (19 * 2 ^ 129) * (iv a.w6) + (19 * 2 ^ 193) * (iv a.w7) + iv a.w0 + (2 ^ 64) * (iv a.w1) + (2 ^ 128) * (iv a.w2) + (2 ^ 192) * (iv a.w3)) (by linear_combination e1 + (2 ^ 64) * e2 + (2 ^ 64) * e3 + (2 ^ 128) * e4 + (2 ^ 128) * e5 + (2 ^ 192) * e6 + (2 ^ 192) * e7 + (2 ^ 256) * e8 + e9 + (2 ^ 64) * e10 + (2 ^ 128) * e11 + (2 ^ 192) * e12 + (2 ^ 256) * e13 + (-2 ^ 320) * zc8 + (2 ^ 257) * hz) ?_ ?_
    · linarith only [iv_nonneg v9, iv_nonneg v10, iv_nonneg v11, iv_nonneg v12, iv_nonneg v13]
    · linarith only [iv_le a.w4, iv_le a.w5, iv_le a.w6, iv_le a.w7, iv_le a.w0, iv_le a.w1, iv_le a.w2, iv_le a.w3]
  have EA0 : iv v9 + (2 ^ 64) * (iv v10) + (2 ^ 128) * (iv v11) + (2 ^ 192) * (iv v12) + (2 ^ 256) * (iv v13) = (2 ^ 192) * (iv a.w3) + (2 ^ 128) * (iv a.w2) + (2 ^ 64) * (iv a.w1) + iv a.w0 + (19 * 2 ^ 193) * (iv a.w7) + (19 * 2 ^ 129) * (iv a.w6) + (19 * 2 ^ 65) * (iv a.w5) + (19 * 2 ^ 1) * (iv a.w4) := by linear_combination (2 ^ 256) * e13 + (-2 ^ 320) * zc13 + (2 ^ 192) * e12 + (2 ^ 128) * e11 + (2 ^ 64) * e10 + e9 + (2 ^ 256) * e8 + (-2 ^ 320) * zc8 + (2 ^ 192) * e7 + (2 ^ 192) * e6 + (2 ^ 128) * e5 + (2 ^ 128) * e4 + (2 ^ 64) * e3 + (2 ^ 64) * e2 + e1 + (2 ^ 257) * hz
  have ht0 : iv v13 ≤ 39 := by
    have := iv_lt v13
    linarith only [this, EA0, iv_nonneg v9, iv_nonneg v10, iv_nonneg v11, iv_nonneg v12, iv_le a.w3, iv_le a.w2, iv_le a.w1, iv_le a.w0, iv_le a.w7, iv_le a.w6, iv_le a.w5, iv_le a.w4]
  replace h := imul_inv h (by linarith only [ht0]) (by rw [show iv 38#64 = 38 from rfl]; norm_num); obtain ⟨v14, e14, h⟩ := h
  rw [show iv 38#64 = 38 from rfl] at e14
  replace h := add_inv h; obtain ⟨v15, c15, e15, h⟩ := h
  replace h := adc_inv h; obtain ⟨v16, c16, e16, h⟩ := h
  replace h := mov_inv h
  replace h := adc_inv h; obtain ⟨v17, c17, e17, h⟩ := h
  replace h := mov_inv h
  replace h := adc_inv h; obtain ⟨v18, c18, e18, h⟩ := h
  replace h := mov_inv h
  replace h := mov_inv h
  have EB0 : iv v15 + (2 ^ 64) * (iv v16) + (2 ^ 128) * (iv v17) + (2 ^ 192) * (iv v18) + (2 ^ 256) * (bv c18) = (2 ^ 192) * (iv v12) + (2 ^ 128) * (iv v11) + (2 ^ 64) * (iv v10) + iv v9 + iv v14 := by linear_combination (2 ^ 192) * e18 + (2 ^ 128) * e17 + (2 ^ 64) * e16 + e15 + (340282366920938463481821351505477763073 * 2 ^ 64) * hz
  replace h := cmov0_inv h; obtain ⟨v19, e19, h⟩ := h
  rw [show iv 38#64 = 38 from rfl] at e19
  replace h := add_inv h; obtain ⟨v20, c20, e20, h⟩ := h
  have zc0_ : bv c20 = 0 := by
    refine last_fold (c := c18) (s0 := iv v15) (rest := (2 ^ 64) * (iv v16) + (2 ^ 128) * (iv v17) + (2 ^ 192) * (iv v18)) (S := iv v9 + (2 ^ 64) * (iv v10) + (2 ^ 128) * (iv v11) + (2 ^ 192) * (iv v12)) (m := iv v14) (r := iv v20) ?_ ?_ ?_ ?_ ?_ (iv_lt _) (iv_nonneg _)
    · linarith only [iv_nonneg v16, iv_nonneg v17, iv_nonneg v18]
    · linarith only [EB0]
    · linarith only [iv_le v9, iv_le v10, iv_le v11, iv_le v12]
    · linarith only [ht0, e14]
    · linarith only [e20, e19]
  replace h := mov_inv h
  subst h
  exact fold3_eq (lo := iv a.w0 + 2 ^ 64 * iv a.w1 + 2 ^ 128 * iv a.w2 + 2 ^ 192 * iv a.w3) (hi := iv a.w4 + 2 ^ 64 * iv a.w5 + 2 ^ 128 * iv a.w6 + 2 ^ 192 * iv a.w7) (w := iv v9 + (2 ^ 64) * (iv v10) + (2 ^ 128) * (iv v11) + (2 ^ 192) * (iv v12)) (t := iv v13) (v := iv v15 + (2 ^ 64) * (iv v16) + (2 ^ 128) * (iv v17) + (2 ^ 192) * (iv v18)) (c := bv c18)
    (by simp only [F8.val]; ring) (by linarith only [iv_nonneg a.w0, iv_nonneg a.w1, iv_nonneg a.w2, iv_nonneg a.w3]) (by linarith only [iv_le a.w0, iv_le a.w1, iv_le a.w2, iv_le a.w3])
    (by linear_combination EA0) (by linarith only [iv_nonneg v9, iv_nonneg v10, iv_nonneg v11, iv_nonneg v12]) (by linarith only [iv_le v9, iv_le v10, iv_le v11, iv_le v12])
    (by linear_combination EB0 + e14) (by linarith only [iv_nonneg v15, iv_nonneg v16, iv_nonneg v17, iv_nonneg v18]) (by linarith only [iv_le v15, iv_le v16, iv_le v17, iv_le v18])
    (by simp only [F4.val]; linear_combination e20 - 2 ^ 64 * zc0_ + e19)

theorem reduce_mulx_val (a : F8) :
    ∃ q, (reduce_mulx a).val = a.val + p25519 * q := fold3_mod (reduce_mulx_fold a)

theorem reduce_mulq_fold (a : F8) :
    (reduce_mulq a).val = fold (fold (fold a.val)) := by
  generalize h : reduce_mulq a = X
  unfold reduce_mulq at h
  have hz : iv 0#64 = 0 := rfl
  have hf : bv false = 0 := rfl
  replace h := mov_inv h
  replace h := mulx_inv h; obtain ⟨l1, h1, e1, h⟩ := h
  rw [show iv 38#64 = 38 from rfl] at e1
  replace h := mov_inv h
  replace h := mov_inv h
  replace h := mov_inv h
  replace h := mulx_inv h; obtain ⟨l2, h2, e2, h⟩ := h
  rw [show iv 38#64 = 38 from rfl] at e2
  replace h := mov_inv h
  replace h := mov_inv h
  replace h := mov_inv h
  replace h := mulx_inv h; obtain ⟨l3, h3, e3, h⟩ := h
  rw [show iv 38#64 = 38 from rfl] at e3
  replace h := mov_inv h
  replace h := mov_inv h
  replace h := mov_inv h
  replace h := mulx_inv h; obtain ⟨l4, h4, e4, h⟩ := h
  rw [show iv 38#64 = 38 from rfl] at e4
  replace h := add_inv h; obtain ⟨v5, c5, e5, h⟩ := h
  replace h := adc_inv h; obtain ⟨v6, c6, e6, h⟩ := h
  replace h := adc_inv h; obtain ⟨v7, c7, e7, h⟩ := h
  replace h := adc_inv h; obtain ⟨v8, c8, e8, h⟩ := h
  have zc8 : bv c8 = 0 := by
    refine dead (K := 2 ^ 320) (rest := iv l1 + (2 ^ 64) * (iv v5) + (2 ^ 128) * (iv v6) + (2 ^ 192) * (iv v7) + (2 ^ 256) * (iv v8)) (P := (19 * 2 ^ 1) * (iv a.w4) + (19 * 2 ^ 65) * (iv a.w5) + (19 * 2 ^ 129) * (iv a.w6) + (19 * 2 ^ 193) * (iv a.w7)) (by linear_combination e1 + (2 ^ 64) * e2 + (2 ^ 128) * e3 + (2 ^ 192) * e4 + (2 ^ 64) * e5 + (2 ^ 128) * e6 + (2 ^ 192) * e7 + (2 ^ 256) * e8 + (2 ^ 256) * hz) ?_ ?_
    · linarith only [iv_nonneg l1, iv_nonneg v5, iv_nonneg v6, iv_nonneg v7, iv_nonneg v8]
    · linarith only [iv_le a.w4, iv_le a.w5, iv_le a.w6, iv_le a.w7]
  replace h := add_inv h; obtain ⟨v9, c9, e9, h⟩ := h
  replace h := adc_inv h; obtain ⟨v10, c10, e10, h⟩ := h
  replace h := adc_inv h; obtain ⟨v11, c11, e11, h⟩ := h
  replace h := adc_inv h; obtain ⟨v12, c12, e12, h⟩ := h
  replace h := adc_inv h; obtain ⟨v13, c13, e13, h⟩ := h
  have zc13 : bv c13 = 0 := by
    refine dead (K := 2 ^ 320) (rest := iv v9 + (2 ^ 64) * (iv v10) + (2 ^ 128) * (iv v11) + (2 ^ 192) * (iv v12) + (2 ^ 256) * (iv v13)) (P := (19 * 2 ^ 1) * (iv a.w4) + (19 * 2 ^ 65) * (iv a.w5) + (19 * 2 ^ 129) * (iv a.w6) + (19 * 2 ^ 193) * (iv a.w7) + iv a.w0 + (2 ^ 64) * (iv a.w1) + (2 ^ 128) * (iv a.w2) + (2 ^ 192) * (iv a.w3)) (by linear_combination e1 + (2 ^ 64) * e2 + (2 ^ 128) * e3 + (2 ^ 192) * e4 + (2 ^ 64) * e5 + (2 ^ 128) * e6 + (2 ^ 192) * e7 + (2 ^ 256) * e8 + e9 + (2 ^ 64) * e10 + (2 ^ 128) * e11 + (2 ^ 192) * e12 + (2 ^ 256) * e13 + (-2 ^ 320) * zc8 + (2 ^ 257) * hz) ?_ ?_
    · linarith only [iv_nonneg v9, iv_nonneg v10, iv_nonneg v11, iv_nonneg v12, iv_nonneg v13]
    · linarith only [iv_le a.w4, iv_le a.w5, iv_le a.w6, iv_le a.w7, iv_le a.w0, iv_le a.w1, iv_le a.w2, iv_le a.w3]
  replace h := mov_inv h
  have EA0 : iv v9 + (2 ^ 64) * (iv v10) + (2 ^ 128) * (iv v11) + (2 ^ 192) * (iv v12) + (2 ^ 256) * (iv v13) = (2 ^ 192) * (iv a.w3) + (2 ^ 128) * (iv a.w2) + (2 ^ 64) * (iv a.w1) + iv a.w0 + (19 * 2 ^ 193) * (iv a.w7) + (19 * 2 ^ 129) * (iv a.w6) + (19 * 2 ^ 65) * (iv a.w5) + (19 * 2 ^ 1) * (iv a.w4) := by linear_combination (2 ^ 256) * e13 + (-2 ^ 320) * zc13 + (2 ^ 192) * e12 + (2 ^ 128) * e11 + (2 ^ 64) * e10 + e9 + (2 ^ 256) * e8 + (-2 ^ 320) * zc8 + (2 ^ 192) * e7 + (2 ^ 128) * e6 + (2 ^ 64) * e5 + (2 ^ 192) * e4 + (2 ^ 128) * e3 + (2 ^ 64) * e2 + e1 + (2 ^ 257) * hz
  have ht0 : iv v13 ≤ 39 := by
    have := iv_lt v13
    linarith only [this, EA0, iv_nonneg v9, iv_nonneg v10, iv_nonneg v11, iv_nonneg v12, iv_le a.w3, iv_le a.w2, iv_le a.w1, iv_le a.w0, iv_le a.w7, iv_le a.w6, iv_le a.w5, iv_le a.w4]
  replace h := imul_inv h (by linarith only [ht0]) (by rw [show iv 38#64 = 38 from rfl]; norm_num); obtain ⟨v14, e14, h⟩ := h
  rw [show iv 38#64 = 38 from rfl] at e14
  replace h := add_inv h; obtain ⟨v15, c15, e15, h⟩ := h
  replace h := adc_inv h; obtain ⟨v16, c16, e16, h⟩ := h
  replace h := mov_inv h
  replace h := adc_inv h; obtain ⟨v17, c17, e17, h⟩ := h
  replace h := mov_inv h
  replace h := adc_inv h; obtain ⟨v18, c18, e18, h⟩ := h
  replace h := mov_inv h
  replace h := mov_inv h
  have EB0 : iv v15 + (2 ^ 64) * (iv v16) + (2 ^ 128) * (iv v17) + (2 ^ 192) * (iv v18) + (2 ^ 256) * (bv c18) = (2 ^ 192) * (iv v12) + (2 ^ 128) * (iv v11) + (2 ^ 64) * (iv v10) + iv v9 + iv v14 := by linear_combination (2 ^ 192) * e18 + (2 ^ 128) * e17 + (2 ^ 64) * e16 + e15 + (340282366920938463481821351505477763073 * 2 ^ 64) * hz
  replace h := cmov0_inv h; obtain ⟨v19, e19, h⟩ := h
  rw [show iv 38#64 = 38 from rfl] at e19
  replace h := add_inv h; obtain ⟨v20, c20, e20, h⟩ := h
  have zc0_ : bv c20 = 0 := by
    refine last_fold (c := c18) (s0 := iv v15) (rest := (2 ^ 64) * (iv v16) + (2 ^ 128) * (iv v17) + (2 ^ 192) * (iv v18)) (S := iv v9 + (2 ^ 64) * (iv v10) + (2 ^ 128) * (iv v11) + (2 ^ 192) * (iv v12)) (m := iv v14) (r := iv v20) ?_ ?_ ?_ ?_ ?_ (iv_lt _) (iv_nonneg _)
    · linarith only [iv_nonneg v16, iv_nonneg v17, iv_nonneg v18]
    · linarith only [EB0]
    · linarith only [iv_le v9, iv_le v10, iv_le v11, iv_le v12]
    · linarith only [ht0, e14]
    · linarith only [e20, e19]
  replace h := mov_inv h
  subst h
  exact fold3_eq (lo := iv a.w0 + 2 ^ 64 * iv a.w1 + 2 ^ 128 * iv a.w2 + 2 ^ 192 * iv a.w3) (hi := iv a.w4 + 2 ^ 64 * iv a.w5 + 2 ^ 128 * iv a.w6 + 2 ^ 192 * iv a.w7) (w := iv v9 + (2 ^ 64) * (iv v10) + (2 ^ 128) * (iv v11) + (2 ^ 192) * (iv v12)) (t := iv v13) (v := iv v15 + (2 ^ 64) * (iv v16) + (2 ^ 128) * (iv v17) + (2 ^ 192) * (iv v18)) (c := bv c18)
    (by simp only [F8.val]; ring) (by linarith only [iv_nonneg a.w0, iv_nonneg a.w1, iv_nonneg a.w2, iv_nonneg a.w3]) (by linarith only [iv_le a.w0, iv_le a.w1, iv_le a.w2, iv_le a.w3])
    (by linear_combination EA0) (by linarith only [iv_nonneg v9, iv_nonneg v10, iv_nonneg v11, iv_nonneg v12]) (by linarith only [iv_le v9, iv_le v10, iv_le v11, iv_le v12])
    (by linear_combination EB0 + e14) (by linarith only [iv_nonneg v15, iv_nonneg v16, iv_nonneg v17, iv_nonneg v18]) (by linarith only [iv_le v15, iv_le v16, iv_le v17, iv_le v18])
    (by simp only [F4.val]; linear_combination e20 - 2 ^ 64 * zc0_ + e19)

theorem reduce_mulq_val (a : F8) :
    ∃ q, (reduce_mulq a).val = a.val + p25519 * q := fold3_mod (reduce_mulq_fold a)

theorem reduce2_mulxadx_fold (a : F8 × F8) :
    (reduce2_mulxadx a).1.val = fold (fold (fold a.1.val)) ∧
    (reduce2_mulxadx a).2.val = fold (fold (fold a.2.val)) := by
  generalize h : reduce2_mulxadx a = X
  unfold reduce2_mulxadx at h
  have hz : iv 0#64 = 0 := rfl
  have hf : bv false = 0 := rfl
  replace h := mov_inv h
  replace h := mulx_inv h; obtain ⟨l1, h1, e1, h⟩ := h
  rw [show iv 38#64 = 38 from rfl] at e1
  replace h := xor0_inv h
  replace h := adc_inv h; obtain ⟨v3, c3, e3, h⟩ := h
  replace h := mulx_inv h; obtain ⟨l4, h4, e4, h⟩ := h
  rw [show iv 38#64 = 38 from rfl] at e4
  replace h := adc_inv h; obtain ⟨v5, c5, e5, h⟩ := h
  replace h := adc_inv h; obtain ⟨v6, c6, e6, h⟩ := h
  replace h := mulx_inv h; obtain ⟨l7, h7, e7, h⟩ := h
  rw [show iv 38#64 = 38 from rfl] at e7
  replace h := adc_inv h; obtain ⟨v8, c8, e8, h⟩ := h
  replace h := adc_inv h; obtain ⟨v9, c9, e9, h⟩ := h
  replace h := mulx_inv h; obtain ⟨l10, h10, e10, h⟩ := h
  rw [show iv 38#64 = 38 from rfl] at e10
  replace h := adc_inv h; obtain ⟨v11, c11, e11, h⟩ := h
  replace h := adc_inv h; obtain ⟨v12, c12, e12, h⟩ := h
  replace h := adc_inv h; obtain ⟨v13, c13, e13, h⟩ := h
  have zc13 : bv c13 = 0 := by
    refine dead (K := 2 ^ 320) (rest := iv l1 + (2 ^ 64) * (iv v5) + (2 ^ 128) * (iv v8) + (2 ^ 192) * (iv v11) + (2 ^ 256) * (iv v13)) (P := (19 * 2 ^ 1) * (iv a.1.w4) + (19 * 2 ^ 65) * (iv a.1.w5) + (19 * 2 ^ 129) * (iv a.1.w6) + (19 * 2 ^ 193) * (iv a.1.w7)) (by linear_combination e1 + (2 ^ 64) * e4 + (2 ^ 64) * e5 + (2 ^ 128) * e7 + (2 ^ 128) * e8 + (2 ^ 192) * e10 + (2 ^ 192) * e11 + (2 ^ 256) * e13 + (2 ^ 64) * hf + (2 ^ 256) * hz) ?_ ?_
    · linarith only [iv_nonneg l1, iv_nonneg v5, iv_nonneg v8, iv_nonneg v11, iv_nonneg v13]
    · linarith only [iv_le a.1.w4, iv_le a.1.w5, iv_le a.1.w6, iv_le a.1.w7]
  replace h := adc_inv h; obtain ⟨v14, c14, e14, h⟩ := h
  have zc14 : bv c14 = 0 := by
    refine dead (K := 2 ^ 320) (rest := iv v3 + (2 ^ 64) * (iv v6) + (2 ^ 128) * (iv v9) + (2 ^ 192) * (iv v12) + (2 ^ 256) * (iv v14)) (P := (19 * 2 ^ 1) * (iv a.1.w4) + iv a.1.w0 + (19 * 2 ^ 65) * (iv a.1.w5) + (2 ^ 64) * (iv a.1.w1) + (19 * 2 ^ 129) * (iv a.1.w6) + (2 ^ 128) * (iv a.1.w2) + (19 * 2 ^ 193) * (iv a.1.w7) + (2 ^ 192) * (iv a.1.w3)) (by linear_combination e1 + e3 + (2 ^ 64) * e4 + (2 ^ 64) * e5 + (2 ^ 64) * e6 + (2 ^ 128) * e7 + (2 ^ 128) * e8 + (2 ^ 128) * e9 + (2 ^ 192) * e10 + (2 ^ 192) * e11 + (2 ^ 192) * e12 + (2 ^ 256) * e13 + (2 ^ 256) * e14 + (18446744073709551617) * hf + (-2 ^ 320) * zc13 + (2 ^ 257) * hz) ?_ ?_
    · linarith only [iv_nonneg v3, iv_nonneg v6, iv_nonneg v9, iv_nonneg v12, iv_nonneg v14]
    · linarith only [iv_le a.1.w4, iv_le a.1.w0, iv_le a.1.w5, iv_le a.1.w1, iv_le a.1.w6, iv_le a.1.w2, iv_le a.1.w7, iv_le a.1.w3]
  have EA0 : iv v3 + (2 ^ 64) * (iv v6) + (2 ^ 128) * (iv v9) + (2 ^ 192) * (iv v12) + (2 ^ 256) * (iv v14) = (2 ^ 192) * (iv a.1.w3) + (19 * 2 ^ 193) * (iv a.1.w7) + (2 ^ 128) * (iv a.1.w2) + (19 * 2 ^ 129) * (iv a.1.w6) + (2 ^ 64) * (iv a.1.w1) + (19 * 2 ^ 65) * (iv a.1.w5) + iv a.1.w0 + (19 * 2 ^ 1) * (iv a.1.w4) := by linear_combination (2 ^ 256) * e14 + (-2 ^ 320) * zc14 + (2 ^ 256) * e13 + (-2 ^ 320) * zc13 + (2 ^ 192) * e12 + (2 ^ 192) * e11 + (2 ^ 192) * e10 + (2 ^ 128) * e9 + (2 ^ 128) * e8 + (2 ^ 128) * e7 + (2 ^ 64) * e6 + (2 ^ 64) * e5 + (2 ^ 64) * e4 + e3 + e1 + (2 ^ 257) * hz + (18446744073709551617) * hf
  have ht0 : iv v14 ≤ 39 := by
    have := iv_lt v14
    linarith only [this, EA0, iv_nonneg v3, iv_nonneg v6, iv_nonneg v9, iv_nonneg v12, iv_le a.1.w3, iv_le a.1.w7, iv_le a.1.w2, iv_le a.1.w6, iv_le a.1.w1, iv_le a.1.w5, iv_le a.1.w0, iv_le a.1.w4]
  replace h := imul_inv h (by linarith only [ht0]) (by rw [show iv 38#64 = 38 from rfl]; norm_num); obtain ⟨v15, e15, h⟩ := h
  rw [show iv 38#64 = 38 from rfl] at e15
  replace h := adc_inv h; obtain ⟨v16, c16, e16, h⟩ := h
  replace h := adc_inv h; obtain ⟨v17, c17, e17, h⟩ := h
  replace h := mov_inv h
  replace h := adc_inv h; obtain ⟨v18, c18, e18, h⟩ := h
  replace h := mov_inv h
  replace h := adc_inv h; obtain ⟨v19, c19, e19, h⟩ := h
  replace h := mov_inv h
  replace h := mov_inv h
  have EB0 : iv v16 + (2 ^ 64) * (iv v17) + (2 ^ 128) * (iv v18) + (2 ^ 192) * (iv v19) + (2 ^ 256) * (bv c19) = (2 ^ 192) * (iv v12) + (2 ^ 128) * (iv v9) + (2 ^ 64) * (iv v6) + iv v3 + iv v15 := by linear_combination (2 ^ 192) * e19 + (2 ^ 128) * e18 + (2 ^ 64) * e17 + e16 + (340282366920938463481821351505477763073 * 2 ^ 64) * hz + hf
  replace h := cmov0_inv h; obtain ⟨v20, e20, h⟩ := h
  rw [show iv 38#64 = 38 from rfl] at e20
  replace h := add_inv h; obtain ⟨v21, c21, e21, h⟩ := h
  have zc0_ : bv c21 = 0 := by
    refine last_fold (c := c19) (s0 := iv v16) (rest := (2 ^ 64) * (iv v17) + (2 ^ 128) * (iv v18) + (2 ^ 192) * (iv v19)) (S := iv v3 + (2 ^ 64) * (iv v6) + (2 ^ 128) * (iv v9) + (2 ^ 192) * (iv v12)) (m := iv v15) (r := iv v21) ?_ ?_ ?_ ?_ ?_ (iv_lt _) (iv_nonneg _)
    · linarith only [iv_nonneg v17, iv_nonneg v18, iv_nonneg v19]
    · linarith only [EB0]
    · linarith only [iv_le v3, iv_le v6, iv_le v9, iv_le v12]
    · linarith only [ht0, e15]
    · linarith only [e21, e20]
  replace h := mov_inv h
  replace h := mulx_inv h; obtain ⟨l22, h22, e22, h⟩ := h
  rw [show iv 38#64 = 38 from rfl] at e22
  replace h := xor0_inv h
  replace h := adc_inv h; obtain ⟨v24, c24, e24, h⟩ := h
  replace h := mulx_inv h; obtain ⟨l25, h25, e25, h⟩ := h
  rw [show iv 38#64 = 38 from rfl] at e25
  replace h := adc_inv h; obtain ⟨v26, c26, e26, h⟩ := h
  replace h := adc_inv h; obtain ⟨v27, c27, e27, h⟩ := h
  replace h := mulx_inv h; obtain ⟨l28, h28, e28, h⟩ := h
  rw [show iv 38#64 = 38 from rfl] at e28
  replace h := adc_inv h; obtain ⟨v29, c29, e29, h⟩ := h
  replace h := adc_inv h; obtain ⟨v30, c30, e30, h⟩ := h
  replace h := mulx_inv h; obtain ⟨l31, h31, e31, h⟩ := h
  rw [show iv 38#64 = 38 from rfl] at e31
  replace h := adc_inv h; obtain ⟨v32, c32, e32, h⟩ := h
  replace h := adc_inv h; obtain ⟨v33, c33, e33, h⟩ := h
  replace h := adc_inv h; obtain ⟨v34, c34, e34, h⟩ := h
  have zc34 : bv c34 = 0 := by
    refine dead (K := 2 ^ 320) (rest := iv l22 + (2 ^ 64) * (iv v26) + (2 ^ 128) * (iv v29) + (2 ^ 192) * (iv v32) + (2 ^ 256) * (iv v34)) (P := (19 * 2 ^ 1) * (iv a.2.w4) + (19 * 2 ^ 65) * (iv a.2.w5) + (19 * 2 ^ 129) * (iv a.2.w6) + (19 * 2 ^ 193) * (iv a.2.w7)) (by linear_combination e22 + (2 ^ 64) * e25 + (2 ^ 64) * e26 + (2 ^ 128) * e28 + (2 ^ 128) * e29 + (2 ^ 192) * e31 + (2 ^ 192) * e32 + (2 ^ 256) * e34 + (2 ^ 64) * hf + (2 ^ 256) * hz) ?_ ?_
    · linarith only [iv_nonneg l22, iv_nonneg v26, iv_nonneg v29, iv_nonneg v32, iv_nonneg v34]
    · linarith only [iv_le a.2.w4, iv_le a.2.w5, iv_le a.2.w6, iv_le a.2.w7]
  replace h := adc_inv h; obtain ⟨v35, c35, e35, h⟩ := h
  have zc35 : bv c35 = 0 := by
    refine dead (K := 2 ^ 320) (rest := iv v24 + (2 ^ 64) * (iv v27) + (2 ^ 128) * (iv v30) + (2 ^ 192) * (iv v33) + (2 ^ 256) * (iv v35)) (P := (19 * 2 ^ 1) * (iv a.2.w4) + iv a.2.w0 + (19 * 2 ^ 65) * (iv a.2.w5) + (2 ^ 64) * (iv a.2.w1) + (19 * 2 ^ 129) * (iv a.2.w6) + (2 ^ 128) * (iv a.2.w2) + (19 * 2 ^ 193) * (iv a.2.w7) + (2 ^ 192) * (iv a.2.w3)) (by linear_combination e22 + e24 + (2 ^ 64) * e25 + (2 ^ 64) * e26 + (2 ^ 64) * e27 + (2 ^ 128) * e28 + (2 ^ 128) * e29 + (2 ^ 128) * e30 + (2 ^ 192) * e31 + (2 ^ 192) * e32 + (2 ^ 192) * e33 + (2 ^ 256) * e34 + (2 ^ 256) * e35 + (18446744073709551617) * hf + (-2 ^ 320) * zc34 + (2 ^ 257) * hz) ?_ ?_
    · linarith only [iv_nonneg v24, iv_nonneg v27, iv_nonneg v30, iv_nonneg v33, iv_nonneg v35]
    · linarith only [iv_le a.2.w4, iv_le a.2.w0, iv_le a.2.w5, iv_le a.2.w1, iv_le a.2.w6, iv_le a.2.w2, iv_le a.2.w7, iv_le a.2.w3]
  have EA1 : iv v24 + (2 ^ 64) * (iv v27) + (2 ^ 128) * (iv v30) + (2 ^ 192) * (iv v33) + (2 ^ 256) * (iv v35) = (2 ^ 192) * (iv a.2.w3) + (19 * 2 ^ 193) * (iv a.2.w7) + (2 ^ 128) * (iv a.2.w2) + (19 * 2 ^ 129) * (iv a.2.w6) + (2 ^ 64) * (iv a.2.w1) + (19 * 2 ^ 65) * (iv a.2.w5) + iv a.2.w0 + (19 * 2 ^ 1) * (iv a.2.w4) := by linear_combination (2 ^ 256) * e35 + (-2 ^ 320) * zc35 + (2 ^ 256) * e34 + (-2 ^ 320) * zc34 + (2 ^ 192) * e33 + (2 ^ 192) * e32 + (2 ^ 192) * e31 + (2 ^ 128) * e30 + (2 ^ 128) * e29 + (2 ^ 128) * e28 + (2 ^ 64) * e27 + (2 ^ 64) * e26 + (2 ^ 64) * e25 + e24 + e22 + (2 ^ 257) * hz + (18446744073709551617) * hf
  have ht1 : iv v35 ≤ 39 := by
    have := iv_lt v35
    linarith only [this, EA1, iv_nonneg v24, iv_nonneg v27, iv_nonneg v30, iv_nonneg v33, iv_le a.2.w3, iv_le a.2.w7, iv_le a.2.w2, iv_le a.2.w6, iv_le a.2.w1, iv_le a.2.w5, iv_le a.2.w0, iv_le a.2.w4]
  replace h := imul_inv h (by linarith only [ht1]) (by rw [show iv 38#64 = 38 from rfl]; norm_num); obtain ⟨v36, e36, h⟩ := h
  rw [show iv 38#64 = 38 from rfl] at e36
  replace h := adc_inv h; obtain ⟨v37, c37, e37, h⟩ := h
  replace h := adc_inv h; obtain ⟨v38, c38, e38, h⟩ := h
  replace h := mov_inv h
  replace h := adc_inv h; obtain ⟨v39, c39, e39, h⟩ := h
  replace h := mov_inv h
  replace h := adc_inv h; obtain ⟨v40, c40, e40, h⟩ := h
  replace h := mov_inv h
  replace h := mov_inv h
  have EB1 : iv v37 + (2 ^ 64) * (iv v38) + (2 ^ 128) * (iv v39) + (2 ^ 192) * (iv v40) + (2 ^ 256) * (bv c40) = (2 ^ 192) * (iv v33) + (2 ^ 128) * (iv v30) + (2 ^ 64) * (iv v27) + iv v24 + iv v36 := by linear_combination (2 ^ 192) * e40 + (2 ^ 128) * e39 + (2 ^ 64) * e38 + e37 + (340282366920938463481821351505477763073 * 2 ^ 64) * hz + hf
  replace h := cmov0_inv h; obtain ⟨v41, e41, h⟩ := h
  rw [show iv 38#64 = 38 from rfl] at e41
  replace h := add_inv h; obtain ⟨v42, c42, e42, h⟩ := h
  have zc1_ : bv c42 = 0 := by
    refine last_fold (c := c40) (s0 := iv v37) (rest := (2 ^ 64) * (iv v38) + (2 ^ 128) * (iv v39) + (2 ^ 192) * (iv v40)) (S := iv v24 + (2 ^ 64) * (iv v27) + (2 ^ 128) * (iv v30) + (2 ^ 192) * (iv v33)) (m := iv v36) (r := iv v42) ?_ ?_ ?_ ?_ ?_ (iv_lt _) (iv_nonneg _)
    · linarith only [iv_nonneg v38, iv_nonneg v39, iv_nonneg v40]
    · linarith only [EB1]
    · linarith only [iv_le v24, iv_le v27, iv_le v30, iv_le v33]
    · linarith only [ht1, e36]
    · linarith only [e42, e41]
  replace h := mov_inv h
  subst h
  exact ⟨fold3_eq (lo := iv a.1.w0 + 2 ^ 64 * iv a.1.w1 + 2 ^ 128 * iv a.1.w2 + 2 ^ 192 * iv a.1.w3) (hi := iv a.1.w4 + 2 ^ 64 * iv a.1.w5 + 2 ^ 128 * iv a.1.w6 + 2 ^ 192 * iv a.1.w7) (w := iv v3 + (2 ^ 64) * (iv v6) + (2 ^ 128) * (iv v9) + (2 ^ 192) * (iv v12)) (t := iv v14) (v := iv v16 + (2 ^ 64) * (iv v17) + (2 ^ 128) * (iv v18) + (2 ^ 192) * (iv v19)) (c := bv c19)
    (by simp only [F8.val]; ring) (by linarith only [iv_nonneg a.1.w0, iv_nonneg a.1.w1, iv_nonneg a.1.w2, iv_nonneg a.1.w3]) (by linarith only [iv_le a.1.w0, iv_le a.1.w1, iv_le a.1.w2, iv_le a.1.w3])
    (by linear_combination EA0) (by linarith only [iv_nonneg v3, iv_nonneg v6, iv_nonneg v9, iv_nonneg v12]) (by linarith only [iv_le v3, iv_le v6, iv_le v9, iv_le v12])
    (by linear_combination EB0 + e15) (by linarith only [iv_nonneg v16, iv_nonneg v17, iv_nonneg v18, iv_nonneg v19]) (by linarith only [iv_le v16, iv_le v17, iv_le v18, iv_le v19])
    (by simp only [F4.val]; linear_combination e21 - 2 ^ 64 * zc0_ + e20), fold3_eq (lo := iv a.2.w0 + 2 ^ 64 * iv a.2.w1 + 2 ^ 128 * iv a.2.w2 + 2 ^ 192 * iv a.2.w3) (hi := iv a.2.w4 + 2 ^ 64 * iv a.2.w5 + 2 ^ 128 * iv a.2.w6 + 2 ^ 192 * iv a.2.w7) (w := iv v24 + (2 ^ 64) * (iv v27) + (2 ^ 128) * (iv v30) + (2 ^ 192) * (iv v33)) (t := iv v35) (v := iv v37 + (2 ^ 64) * (iv v38) + (2 ^ 128) * (iv v39) + (2 ^ 192) * (iv v40)) (c := bv c40)
    (by simp only [F8.val]; ring) (by linarith only [iv_nonneg a.2.w0, iv_nonneg a.2.w1, iv_nonneg a.2.w2, iv_nonneg a.2.w3]) (by linarith only [iv_le a.2.w0, iv_le a.2.w1, iv_le a.2.w2, iv_le a.2.w3])
    (by linear_combination EA1) (by linarith only [iv_nonneg v24, iv_nonneg v27, iv_nonneg v30, iv_nonneg v33]) (by linarith only [iv_le v24, iv_le v27, iv_le v30, iv_le v33])
    (by linear_combination EB1 + e36) (by linarith only [iv_nonneg v37, iv_nonneg v38, iv_nonneg v39, iv_nonneg v40]) (by linarith only [iv_le v37, iv_le v38, iv_le v39, iv_le v40])
    (by simp only [F4.val]; linear_combination e42 - 2 ^ 64 * zc1_ + e41)⟩

theorem reduce2_mulxadx_val (a : F8 × F8) :
    (∃ q, (reduce2_mulxadx a).1.val = a.1.val + p25519 * q) ∧
    ∃ q, (reduce2_mulxadx a).2.val = a.2.val + p25519 * q :=
  (reduce2_mulxadx_fold a).imp fold3_mod fold3_mod

theorem reduce2_mulx_fold (a : F8 × F8) :
    (reduce2_mulx a).1.val = fold (fold (fold a.1.val)) ∧
    (reduce2_mulx a).2.val = fold (fold (fold a.2.val)) := by
  generalize h : reduce2_mulx a = X
  unfold reduce2_mulx at h
  have hz : iv 0#64 = 0 := rfl
  have hf : bv false = 0 := rfl
  replace h := mov_inv h
  replace h := mulx_inv h; obtain ⟨l1, h1, e1, h⟩ := h
  rw [show iv 38#64 = 38 from rfl] at e1
  replace h := mulx_inv h; obtain ⟨l2, h2, e2, h⟩ := h
  rw [show iv 38#64 = 38 from rfl] at e2
  replace h := add_inv h; obtain ⟨v3, c3, e3, h⟩ := h
  replace h := mulx_inv h; obtain ⟨l4, h4, e4, h⟩ := h
  rw [show iv 38#64 = 38 from rfl] at e4
  replace h := adc_inv h; obtain ⟨v5, c5, e5, h⟩ := h
  replace h := mulx_inv h; obtain ⟨l6, h6, e6, h⟩ := h
  rw [show iv 38#64 = 38 from rfl] at e6
  replace h := adc_inv h; obtain ⟨v7, c7, e7, h⟩ := h
  replace h := adc_inv h; obtain ⟨v8, c8, e8, h⟩ := h
  have zc8 : bv c8 = 0 := by
    refine dead (K := 2 ^ 320) (rest := iv l1 + (2 ^ 64) * (iv v3) + (2 ^ 128) * (iv v5) + (2 ^ 192) * (iv v7) + (2 ^ 256) * (iv v8)) (P := (19 * 2 ^ 1) * (iv a.1.w4) + (19 * 2 ^ 65) * (iv a.1.w5) + (19 * 2 ^ 129) * (iv a.1.w6) + (19 * 2 ^ 193) * (iv a.1.w7)) (by linear_combination e1 + (2 ^ 64) * e2 + (2 ^ 64) * e3 + (2 ^ 128) * e4 + (2 ^ 128) * e5 + (2 ^ 192) * e6 + (2 ^ 192) * e7 + (2 ^ 256) * e8 + (2 ^ 256) * hz) ?_ ?_
    · linarith only [iv_nonneg l1, iv_nonneg v3, iv_nonneg v5, iv_nonneg v7, iv_nonneg v8]
    · linarith only [iv_le a.1.w4, iv_le a.1.w5, iv_le a.1.w6, iv_le a.1.w7]
  replace h := add_inv h; obtain ⟨v9, c9, e9, h⟩ := h
  replace h := adc_inv h; obtain ⟨v10, c10, e10, h⟩ := h
  replace h := adc_inv h; obtain ⟨v11, c11, e11, h⟩ := h
  replace h := adc_inv h; obtain ⟨v12, c12, e12, h⟩ := h
  replace h := adc_inv h; obtain ⟨v13, c13, e13, h⟩ := h
  have zc13 : bv c13 = 0 := by
    refine dead (K := 2 ^ 320) (rest := iv v9 + (2 ^ 64) * (iv v10) + (2 ^ 128) * (iv v11) + (2 ^ 192) * (iv v12) + (2 ^ 256) * (iv v13)) (P := (19 * 2 ^ 1) * (iv a.1.w4) + (19 * 2 ^ 65) * (iv a.1.w5) + (19 * 2 ^ 129) * (iv a.1.w6) + (19 * 2 ^ 193) * (iv a.1.w7) + iv a.1.w0 + (2 ^ 64) * (iv a.1.w1) + (2 ^ 128) * (iv a.1.w2) + (2 ^ 192) * (iv a.1.w3)) (by linear_combination e1 + (2 ^ 64) * e2 + (2 ^ 64) * e3 + (2 ^ 128) * e4 + (2 ^ 128) * e5 + (2 ^ 192) * e6 + (2 ^ 192) * e7 + (2 ^ 256) * e8 + e9 + (2 ^ 64) * e10 + (2 ^ 128) * e11 + (2 ^ 192) * e12 + (2 ^ 256) * e13 + (-2 ^ 320) * zc8 + (2 ^ 257) * hz) ?_ ?_
    · linarith only [iv_nonneg v9, iv_nonneg v10, iv_nonneg v11, iv_nonneg v12, iv_nonneg v13]
    · linarith only [iv_le a.1.w4, iv_le a.1.w5, iv_le a.1.w6, iv_le a.1.w7, iv_le a.1.w0, iv_le a.1.w1, iv_le a.1.w2, iv_le a.1.w3]
  have EA0 : iv v9 + (2 ^ 64) * (iv v10) + (2 ^ 128) * (iv v11) + (2 ^ 192) * (iv v12) + (2 ^ 256) * (iv v13) = (2 ^ 192) * (iv a.1.w3) + (2 ^ 128) * (iv a.1.w2) + (2 ^ 64) * (iv a.1.w1) + iv a.1.w0 + (19 * 2 ^ 193) * (iv a.1.w7) + (19 * 2 ^ 129) * (iv a.1.w6) + (19 * 2 ^ 65) * (iv a.1.w5) + (19 * 2 ^ 1) * (iv a.1.w4) := by linear_combination (2 ^ 256) * e13 + (-2 ^ 320) * zc13 + (2 ^ 192) * e12 + (2 ^ 128) * e11 + (2 ^ 64) * e10 + e9 + (2 ^ 256) * e8 + (-2 ^ 320) * zc8 + (2 ^ 192) * e7 + (2 ^ 192) * e6 + (2 ^ 128) * e5 + (2 ^ 128) * e4 + (2 ^ 64) * e3 + (2 ^ 64) * e2 + e1 + (2 ^ 257) * hz
  have ht0 : iv v13 ≤ 39 := by
    have := iv_lt v13
    linarith only [this, EA0, iv_nonneg v9, iv_nonneg v10, iv_nonneg v11, iv_nonneg v12, iv_le a.1.w3, iv_le a.1.w2, iv_le a.1.w1, iv_le a.1.w0, iv_le a.1.w7, iv_le a.1.w6, iv_le a.1.w5, iv_le a.1.w4]
  replace h := imul_inv h (by linarith only [ht0]) (by rw [show iv 38#64 = 38 from rfl]; norm_num); obtain ⟨v14, e14, h⟩ := h
  rw [show iv 38#64 = 38 from rfl] at e14
  replace h := add_inv h; obtain ⟨v15, c15, e15, h⟩ := h
  replace h := adc_inv h; obtain ⟨v16, c16, e16, h⟩ := h
  replace h := mov_inv h
  replace h := adc_inv h; obtain ⟨v17, c17, e17, h⟩ := h
  replace h := mov_inv h
  replace h := adc_inv h; obtain ⟨v18, c18, e18, h⟩ := h
  replace h := mov_inv h
  replace h := mov_inv h
  have EB0 : iv v15 + (2 ^ 64) * (iv v16) + (2 ^ 128) * (iv v17) + (2 ^ 192) * (iv v18) + (2 ^ 256) * (bv c18) = (2 ^ 192) * (iv v12) + (2 ^ 128) * (iv v11) + (2 ^ 64) * (iv v10) + iv v9 + iv v14 := by linear_combination (2 ^ 192) * e18 + (2 ^ 128) * e17 + (2 ^ 64) * e16 + e15 + (340282366920938463481821351505477763073 * 2 ^ 64) * hz
  replace h := cmov0_inv h; obtain ⟨v19, e19, h⟩ := h
  rw [show iv 38#64 = 38 from rfl] at e19
  replace h := add_inv h; obtain ⟨v20, c20, e20, h⟩ := h
  have zc0_ : bv c20 = 0 := by
    refine last_fold (c := c18) (s0 := iv v15) (rest := (2 ^ 64) * (iv v16) + (2 ^ 128) * (iv v17) + (2 ^ 192) * (iv v18)) (S := iv v9 + (2 ^ 64) * (iv v10) + (2 ^ 128) * (iv v11) + (2 ^ 192) * (iv v12)) (m := iv v14) (r := iv v20) ?_ ?_ ?_ ?_ ?_ (iv_lt _) (iv_nonneg _)
    · linarith only [iv_nonneg v16, iv_nonneg v17, iv_nonneg v18]
    · linarith only [EB0]
    · linarith only [iv_le v9, iv_le v10, iv_le v11, iv_le v12]
    · linarith only [ht0, e14]
    · linarith only [e20, e19]
  replace h := mov_inv h
  replace h := mulx_inv h; obtain ⟨l21, h21, e21, h⟩ := h
  rw [show iv 38#64 = 38 from rfl] at e21
  replace h := mulx_inv h; obtain ⟨l22, h22, e22, h⟩ := h
  rw [show iv 38#64 = 38 from rfl] at e22
  replace h := add_inv h; obtain ⟨v23, c23, e23, h⟩ := h
  replace h := mulx_inv h; obtain ⟨l24, h24, e24, h⟩ := h
  rw [show iv 38#64 = 38 from rfl] at e24
  replace h := adc_inv h; obtain ⟨v25, c25, e25, h⟩ := h
  replace h := mulx_inv h; obtain ⟨l26, h26, e26, h⟩ := h
  rw [show iv 38#64 = 38 from rfl] at e26
  replace h := adc_inv h; obtain ⟨v27, c27, e27, h⟩ := h
  replace h := adc_inv h; obtain ⟨v28, c28, e28, h⟩ := h
  have zc28 : bv c28 = 0 := by
    refine dead (K := 2 ^ 320) (rest := iv l21 + (2 ^ 64) * (iv v23) + (2 ^ 128) * (iv v25) + (2 ^ 192) * (iv v27) + (2 ^ 256) * (iv v28)) (P := (19 * 2 ^ 1) * (iv a.2.w4) + (19 * 2 ^ 65) * (iv a.2.w5) + (19 * 2 ^ 129) * (iv a.2.w6) + (19 * 2 ^ 193) * (iv a.2.w7)) (by linear_combination e21 + (2 ^ 64) * e22 + (2 ^ 64) * e23 + (2 ^ 128) * e24 + (2 ^ 128) * e25 + (2 ^ 192) * e26 + (2 ^ 192) * e27 + (2 ^ 256) * e28 + (2 ^ 256) * hz) ?_ ?_
    · linarith only [iv_nonneg l21, iv_nonneg v23, iv_nonneg v25, iv_nonneg v27, iv_nonneg v28]
    · linarith only [iv_le a.2.w4, iv_le a.2.w5, iv_le a.2.w6, iv_le a.2.w7]
  replace h := add_inv h; obtain ⟨v29, c29, e29, h⟩ := h
  replace h := adc_inv h; obtain ⟨v30, c30, e30, h⟩ := h
  replace h := adc_inv h; obtain ⟨v31, c31, e31, h⟩ := h
  replace h := adc_inv h; obtain ⟨v32, c32, e32, h⟩ := h
  replace h := adc_inv h; obtain ⟨v33, c33, e33, h⟩ := h
  have zc33 : bv c33 = 0 := by
    refine dead (K := 2 ^ 320) (rest := iv v29 + (2 ^ 64) * (iv v30) + (2 ^ 128) * (iv v31) + (2 ^ 192) * (iv v32) + (2 ^ 256) * (iv v33)) (P := (19 * 2 ^ 1) * (iv a.2.w4) + (19 * 2 ^ 65) * (iv a.2.w5) + (19 * 2 ^ 129) * (iv a.2.w6) + (19 * 2 ^ 193) * (iv a.2.w7) + iv a.2.w0 + (2 ^ 64) * (iv a.2.w1) + (2 ^ 128) * (iv a.2.w2) + (2 ^ 192) * (iv a.2.w3)) (by linear_combination e21 + (2 ^ 64) * e22 + (2 ^ 64) * e23 + (2 ^ 128) * e24 + (2 ^ 128) * e25 + (2 ^ 192) * e26 + (2 ^ 192) * e27 + (2 ^ 256) * e28 + e29 + (2 ^ 64) * e30 + (2 ^ 128) * e31 + (2 ^ 192) * e32 + (2 ^ 256) * e33 + (-2 ^ 320) * zc28 + (2 ^ 257) * hz) ?_ ?_
    · linarith only [iv_nonneg v29, iv_nonneg v30, iv_nonneg v31, iv_nonneg v32, iv_nonneg v33]
    · linarith only [iv_le a.2.w4, iv_le a.2.w5, iv_le a.2.w6, iv_le a.2.w7, iv_le a.2.w0, iv_le a.2.w1, iv_le a.2.w2, iv_le a.2.w3]
  have EA1 : iv v29 + (2 ^ 64) * (iv v30) + (2 ^ 128) * (iv v31) + (2 ^ 192) * (iv v32) + (2 ^ 256) * (iv v33) = (2 ^ 192) * (iv a.2.w3) + (2 ^ 128) * (iv a.2.w2) + (2 ^ 64) * (iv a.2.w1) + iv a.2.w0 + (19 * 2 ^ 193) * (iv a.2.w7) + (19 * 2 ^ 129) * (iv a.2.w6) + (19 * 2 ^ 65) * (iv a.2.w5) + (19 * 2 ^ 1) * (iv a.2.w4) := by linear_combination (2 ^ 256) * e33 + (-2 ^ 320) * zc33 + (2 ^ 192) * e32 + (2 ^ 128) * e31 + (2 ^ 64) * e30 + e29 + (2 ^ 256) * e28 + (-2 ^ 320) * zc28 + (2 ^ 192) * e27 + (2 ^ 192) * e26 + (2 ^ 128) * e25 + (2 ^ 128) * e24 + (2 ^ 64) * e23 + (2 ^ 64) * e22 + e21 + (2 ^ 257) * hz
  have ht1 : iv v33 ≤ 39 := by
    have := iv_lt v33
    linarith only [this, EA1, iv_nonneg v29, iv_nonneg v30, iv_nonneg v31, iv_nonneg v32, iv_le a.2.w3, iv_le a.2.w2, iv_le a.2.w1, iv_le a.2.w0, iv_le a.2.w7, iv_le a.2.w6, iv_le a.2.w5, iv_le a.2.w4]
  replace h := imul_inv h (by linarith only [ht1]) (by rw [show iv 38#64 = 38 from rfl]; norm_num); obtain ⟨v34, e34, h⟩ := h
  rw [show iv 38#64 = 38 from rfl] at e34
  replace h := add_inv h; obtain ⟨v35, c35, e35, h⟩ := h
  replace h := adc_inv h; obtain ⟨v36, c36, e36, h⟩ := h
  replace h := mov_inv h
  replace h := adc_inv h; obtain ⟨v37, c37, e37, h⟩ := h
  replace h := mov_inv h
  replace h := adc_inv h; obtain ⟨v38, c38, e38, h⟩ := h
  replace h := mov_inv h
  replace h := mov_inv h
  have EB1 : iv v35 + (2 ^ 64) * (iv v36) + (2 ^ 128) * (iv v37) + (2 ^ 192) * (iv v38) + (2 ^ 256) * (bv c38) = (2 ^ 192) * (iv v32) + (2 ^ 128) * (iv v31) + (2 ^ 64) * (iv v30) + iv v29 + iv v34 := by linear_combination (2 ^ 192) * e38 + (2 ^ 128) * e37 + (2 ^ 64) * e36 + e35 + (340282366920938463481821351505477763073 * 2 ^ 64) * hz
  replace h := cmov0_inv h; obtain ⟨v39, e39, h⟩ := h
  rw [show iv 38#64 = 38 from rfl] at e39
  replace h := add_inv h; obtain ⟨v40, c40, e40, h⟩ := h
  have zc1_ : bv c40 = 0 := by
    refine last_fold (c := c38) (s0 := iv v35) (rest := (2 ^ 64) * (iv v36) + (2 ^ 128) * (iv v37) + (2 ^ 192) * (iv v38)) (S := iv v29 + (2 ^ 64) * (iv v30) + (2 ^ 128) * (iv v31) + (2 ^ 192) * (iv v32)) (m := iv v34) (r := iv v40) ?_ ?_ ?_ ?_ ?_ (iv_lt _) (iv_nonneg _)
    · linarith only [iv_nonneg v36, iv_nonneg v37, iv_nonneg v38]
    · linarith only [EB1]
    · linarith only [iv_le v29, iv_le v30, iv_le v31, iv_le v32]
    · linarith only [ht1, e34]
    · linarith only [e40, e39]
  replace h := mov_inv h
  subst h
  exact ⟨fold3_eq (lo := iv a.1.w0 + 2 ^ 64 * iv a.1.w1 + 2 ^ 128 * iv a.1.w2 + 2 ^ 192 * iv a.1.w3) (hi := iv a.1.w4 + 2 ^ 64 * iv a.1.w5 + 2 ^ 128 * iv a.1.w6 + 2 ^ 192 * iv a.1.w7) (w := iv v9 + (2 ^ 64) * (iv v10) + (2 ^ 128) * (iv v11) + (2 ^ 192) * (iv v12)) (t := iv v13) (v := iv v15 + (2 ^ 64) * (iv v16) + (2 ^ 128) * (iv v17) + (2 ^ 192) * (iv v18)) (c := bv c18)
    (by simp only [F8.val]; ring) (by linarith only [iv_nonneg a.1.w0, iv_nonneg a.1.w1, iv_nonneg a.1.w2, iv_nonneg a.1.w3]) (by linarith only [iv_le a.1.w0, iv_le a.1.w1, iv_le a.1.w2, iv_le a.1.w3])
    (by linear_combination EA0) (by linarith only [iv_nonneg v9, iv_nonneg v10, iv_nonneg v11, iv_nonneg v12]) (by linarith only [iv_le v9, iv_le v10, iv_le v11, iv_le v12])
    (by linear_combination EB0 + e14) (by linarith only [iv_nonneg v15, iv_nonneg v16, iv_nonneg v17, iv_nonneg v18]) (by linarith only [iv_le v15, iv_le v16, iv_le v17, iv_le v18])
    (by simp only [F4.val]; linear_combination e20 - 2 ^ 64 * zc0_ + e19), fold3_eq (lo := iv a.2.w0 + 2 ^ 64 * iv a.2.w1 + 2 ^ 128 * iv a.2.w2 + 2 ^ 192 * iv a.2.w3) (hi := iv a.2.w4 + 2 ^ 64 * iv a.2.w5 + 2 ^ 128 * iv a.2.w6 + 2 ^ 192 * iv a.2.w7) (w := iv v29 + (2 ^ 64) * (iv v30) + (2 ^ 128) * (iv v31) + (2 ^ 192) * (iv v32)) (t := iv v33) (v := iv v35 + (2 ^ 64) * (iv v36) + (2 ^ 128) * (iv v37) + (2 ^ 192) * (iv v38)) (c := bv c38)
    (by simp only [F8.val]; ring) (by linarith only [iv_nonneg a.2.w0, iv_nonneg a.2.w1, iv_nonneg a.2.w2, iv_nonneg a.2.w3]) (by linarith only [iv_le a.2.w0, iv_le a.2.w1, iv_le a.2.w2, iv_le a.2.w3])
    (by linear_combination EA1) (by linarith only [iv_nonneg v29, iv_nonneg v30, iv_nonneg v31, iv_nonneg v32]) (by linarith only [iv_le v29, iv_le v30, iv_le v31, iv_le v32])
    (by linear_combination EB1 + e34) (by linarith only [iv_nonneg v35, iv_nonneg v36, iv_nonneg v37, iv_nonneg v38]) (by linarith only [iv_le v35, iv_le v36, iv_le v37, iv_le v38])
    (by simp only [F4.val]; linear_combination e40 - 2 ^ 64 * zc1_ + e39)⟩

theorem reduce2_mulx_val (a : F8 × F8) :
    (∃ q, (reduce2_mulx a).1.val = a.1.val + p25519 * q) ∧
    ∃ q, (reduce2_mulx a).2.val = a.2.val + p25519 * q :=
  (reduce2_mulx_fold a).imp fold3_mod fold3_mod

theorem reduce2_mulq_fold (a : F8 × F8) :
    (reduce2_mulq a).1.val = fold (fold (fold a.1.val)) ∧
    (reduce2_mulq a).2.val = fold (fold (fold a.2.val)) := by
  generalize h : reduce2_mulq a = X
  unfold reduce2_mulq at h
  have hz : iv 0#64 = 0 := rfl
  have hf : bv false = 0 := rfl
  replace h := mov_inv h
  replace h := mulx_inv h; obtain ⟨l1, h1, e1, h⟩ := h
  rw [show iv 38#64 = 38 from rfl] at e1
  replace h := mov_inv h
  replace h := mov_inv h
  replace h := mov_inv h
  replace h := mulx_inv h; obtain ⟨l2, h2, e2, h⟩ := h
  rw [show iv 38#64 = 38 from rfl] at e2
  replace h := mov_inv h
  replace h := mov_inv h
  replace h := mov_inv h
  replace h := mulx_inv h; obtain ⟨l3, h3, e3, h⟩ := h
  rw [show iv 38#64 = 38 from rfl] at e3
  replace h := mov_inv h
  replace h := mov_inv h
  replace h := mov_inv h
  replace h := mulx_inv h; obtain ⟨l4, h4, e4, h⟩ := h
  rw [show iv 38#64 = 38 from rfl] at e4
  replace h := add_inv h; obtain ⟨v5, c5, e5, h⟩ := h
  replace h := adc_inv h; obtain ⟨v6, c6, e6, h⟩ := h
  replace h := adc_inv h; obtain ⟨v7, c7, e7, h⟩ := h
  replace h := adc_inv h; obtain ⟨v8, c8, e8, h⟩ := h
  have zc8 : bv c8 = 0 := by
    refine dead (K := 2 ^ 320) (rest := iv l1 + (2 ^ 64) * (iv v5) + (2 ^ 128) * (iv v6) + (2 ^ 192) * (iv v7) + (2 ^ 256) * (iv v8)) (P := (19 * 2 ^ 1) * (iv a.1.w4) + (19 * 2 ^ 65) * (iv a.1.w5) + (19 * 2 ^ 129) * (iv a.1.w6) + (19 * 2 ^ 193) * (iv a.1.w7)) (by linear_combination e1 + (2 ^ 64) * e2 + (2 ^ 128) * e3 + (2 ^ 192) * e4 + (2 ^ 64) * e5 + (2 ^ 128) * e6 + (2 ^ 192) * e7 + (2 ^ 256) * e8 + (2 ^ 256) * hz) ?_ ?_
    · linarith only [iv_nonneg l1, iv_nonneg v5, iv_nonneg v6, iv_nonneg v7, iv_nonneg v8]
    · linarith only [iv_le a.1.w4, iv_le a.1.w5, iv_le a.1.w6, iv_le a.1.w7]
  replace h := add_inv h; obtain ⟨v9, c9, e9, h⟩ := h
  replace h := adc_inv h; obtain ⟨v10, c10, e10, h⟩ := h
  replace h := adc_inv h; obtain ⟨v11, c11, e11, h⟩ := h
  replace h := adc_inv h; obtain ⟨v12, c12, e12, h⟩ := h
  replace h := adc_inv h; obtain ⟨v13, c13, e13, h⟩ := h
  have zc13 : bv c13 = 0 := by
    refine dead (K := 2 ^ 320) (rest := iv v9 + (2 ^ 64) * (iv v10) + (2 ^ 128) * (iv v11) + (2 ^ 192) * (iv v12) + (2 ^ 256) * (iv v13)) (P := (19 * 2 ^ 1) * (iv a.1.w4) + (19 * 2 ^ 65) * (iv a.1.w5) + (19 * 2 ^ 129) * (iv a.1.w6) + (19 * 2 ^ 193) * (iv a.1.w7) + iv a.1.w0 + (2 ^ 64) * (iv a.1.w1) + (2 ^ 128) * (iv a.1.w2) + (2 ^ 192) * (iv a.1.w3)) (by linear_combination e1 + (2 ^ 64) * e2 + (2 ^ 128) * e3 + (2 ^ 192) * e4 + (2 ^ 64) * e5 + (2 ^ 128) * e6 + (2 ^ 192) * e7 + (2 ^ 256) * e8 + e9 + (2 ^ 64) * e10 + (2 ^ 128) * e11 + (2 ^ 192) * e12 + (2 ^ 256) * e13 + (-2 ^ 320) * zc8 + (2 ^ 257) * hz) ?_ ?_
    · linarith only [iv_nonneg v9, iv_nonneg v10, iv_nonneg v11, iv_nonneg v12, iv_nonneg v13]
    · linarith only [iv_le a.1.w4, iv_le a.1.w5, iv_le a.1.w6, iv_le a.1.w7, iv_le a.1.w0, iv_le a.1.w1, iv_le a.1.w2, iv_le a.1.w3]
  replace h := mov_inv h
  have EA0 : iv v9 + (2 ^ 64) * (iv v10) + (2 ^ 128) * (iv v11) + (2 ^ 192) * (iv v12) + (2 ^ 256) * (iv v13) = (2 ^ 192) * (iv a.1.w3) + (2 ^ 128) * (iv a.1.w2) + (2 ^ 64) * (iv a.1.w1) + iv a.1.w0 + (19 * 2 ^ 193) * (iv a.1.w7) + (19 * 2 ^ 129) * (iv a.1.w6) + (19 * 2 ^ 65) * (iv a.1.w5) + (19 * 2 ^ 1) * (iv a.1.w4) := by linear_combination (2 ^ 256) * e13 + (-2 ^ 320) * zc13 + (2 ^ 192) * e12 + (2 ^ 128) * e11 + (2 ^ 64) * e10 + e9 + (2 ^ 256) * e8 + (-2 ^ 320) * zc8 + (2 ^ 192) * e7 + (2 ^ 128) * e6 + (2 ^ 64) * e5 + (2 ^ 192) * e4 + (2 ^ 128) * e3 + (2 ^ 64) * e2 + e1 + (2 ^ 257) * hz
  have ht0 : iv v13 ≤ 39 := by
    have := iv_lt v13
    linarith only [this, EA0, iv_nonneg v9, iv_nonneg v10, iv_nonneg v11, iv_nonneg v12, iv_le a.1.w3, iv_le a.1.w2, iv_le a.1.w1, iv_le a.1.w0, iv_le a.1.w7, iv_le a.1.w6, iv_le a.1.w5, iv_le a.1.w4]
  replace h := imul_inv h (by linarith only [ht0]) (by rw [show iv 38#64 = 38 from rfl]; norm_num); obtain ⟨v14, e14, h⟩ := h
  rw [show iv 38#64 = 38 from rfl] at e14
  replace h := add_inv h; obtain ⟨v15, c15, e15, h⟩ := h
  replace h := adc_inv h; obtain ⟨v16, c16, e16, h⟩ := h
  replace h := mov_inv h
  replace h := adc_inv h; obtain ⟨v17, c17, e17, h⟩ := h
  replace h := mov_inv h
  replace h := adc_inv h; obtain ⟨v18, c18, e18, h⟩ := h
  replace h := mov_inv h
  replace h := mov_inv h
  have EB0 : iv v15 + (2 ^ 64) * (iv v16) + (2 ^ 128) * (iv v17) + (2 ^ 192) * (iv v18) + (2 ^ 256) * (bv c18) = (2 ^ 192) * (iv v12) + (2 ^ 128) * (iv v11) + (2 ^ 64) * (iv v10) + iv v9 + iv v14 := by linear_combination (2 ^ 192) * e18 + (2 ^ 128) * e17 + (2 ^ 64) * e16 + e15 + (340282366920938463481821351505477763073 * 2 ^ 64) * hz
  replace h := cmov0_inv h; obtain ⟨v19, e19, h⟩ := h
  rw [show iv 38#64 = 38 from rfl] at e19
  replace h := add_inv h; obtain ⟨v20, c20, e20, h⟩ := h
  have zc0_ : bv c20 = 0 := by
    refine last_fold (c := c18) (s0 := iv v15) (rest := (2 ^ 64) * (iv v16) + (2 ^ 128) * (iv v17) + (2 ^ 192) * (iv v18)) (S := iv v9 + (2 ^ 64) * (iv v10) + (2 ^ 128) * (iv v11) + (2 ^ 192) * (iv v12)) (m := iv v14) (r := iv v20) ?_ ?_ ?_ ?_ ?_ (iv_lt _) (iv_nonneg _)
    · linarith only [iv_nonneg v16, iv_nonneg v17, iv_nonneg v18]
    · linarith only [EB0]
    · linarith only [iv_le v9, iv_le v10, iv_le v11, iv_le v12]
    · linarith only [ht0, e14]
    · linarith only [e20, e19]
  replace h := mov_inv h
  replace h := mov_inv h
  replace h := mulx_inv h; obtain ⟨l21, h21, e21, h⟩ := h
  rw [show iv 38#64 = 38 from rfl] at e21
  replace h := mov_inv h
  replace h := mov_inv h
  replace h := mov_inv h
  replace h := mulx_inv h; obtain ⟨l22, h22, e22, h⟩ := h
  rw [show iv 38#64 = 38 from rfl] at e22
  replace h := mov_inv h
  replace h := mov_inv h
  replace h := mov_inv h
  replace h := mulx_inv h; obtain ⟨l23, h23, e23, h⟩ := h
  rw [show iv 38#64 = 38 from rfl] at e23
  replace h := mov_inv h
  replace h := mov_inv h
  replace h := mov_inv h
  replace h := mulx_inv h; obtain ⟨l24, h24, e24, h⟩ := h
  rw [show iv 38#64 = 38 from rfl] at e24
  replace h := add_inv h; obtain ⟨v25, c25, e25, h⟩ := h
  replace h := adc_inv h; obtain ⟨v26, c26, e26, h⟩ := h
  replace h := adc_inv h; obtain ⟨v27, c27, e27, h⟩ := h
  replace h := adc_inv h; obtain ⟨v28, c28, e28, h⟩ := h
  have zc28 : bv c28 = 0 := by
    refine dead (K := 2 ^ 320) (rest := iv l21 + (2 ^ 64) * (iv v25) + (2 ^ 128) * (iv v26) + (2 ^ 192) * (iv v27) + (2 ^ 256) * (iv v28)) (P := (19 * 2 ^ 1) * (iv a.2.w4) + (19 * 2 ^ 65) * (iv a.2.w5) + (19 * 2 ^ 129) * (iv a.2.w6) + (19 * 2 ^ 193) * (iv a.2.w7)) (by linear_combination e21 + (2 ^ 64) * e22 + (2 ^ 128) * e23 + (2 ^ 192) * e24 + (2 ^ 64) * e25 + (2 ^ 128) * e26 + (2 ^ 192) * e27 + (2 ^ 256) * e28 + (2 ^ 256) * hz) ?_ ?_
    · linarith only [iv_nonneg l21, iv_nonneg v25, iv_nonneg v26, iv_nonneg v27, iv_nonneg v28]
    · linarith only [iv_le a.2.w4, iv_le a.2.w5, iv_le a.2.w6, iv_le a.2.w7]
  replace h := add_inv h; obtain ⟨v29, c29, e29, h⟩ := h
  replace h := adc_inv h; obtain ⟨v30, c30, e30, h⟩ := h
  replace h := adc_inv h; obtain ⟨v31, c31, e31, h⟩ := h
  replace h := adc_inv h; obtain ⟨v32, c32, e32, h⟩ := h
  replace h := adc_inv h; obtain ⟨v33, c33, e33, h⟩ := h
  have zc33 : bv c33 = 0 := by
    refine dead (K := 2 ^ 320) (rest := iv v29 + (2 ^ 64) * (iv v30) + (2 ^ 128) * (iv v31) + (2 ^ 192) * (iv v32) + (2 ^ 256) * (iv v33)) (P := (19 * 2 ^ 1) * (iv a.2.w4) + (19 * 2 ^ 65) * (iv a.2.w5) + (19 * 2 ^ 129) * (iv a.2.w6) + (19 * 2 ^ 193) * (iv a.2.w7) + iv a.2.w0 + (2 ^ 64) * (iv a.2.w1) + (2 ^ 128) * (iv a.2.w2) + (2 ^ 192) * (iv a.2.w3)) (by linear_combination e21 + (2 ^ 64) * e22 + (2 ^ 128) * e23 + (2 ^ 192) * e24 + (2 ^ 64) * e25 + (2 ^ 128) * e26 + (2 ^ 192) * e27 + (2 ^ 256) * e28 + e29 + (2 ^ 64) * e30 + (2 ^ 128) * e31 + (2 ^ 192) * e32 + (2 ^ 256) * e33 + (-2 ^ 320) * zc28 + (2 ^ 257) * hz) ?_ ?_
    · linarith only [iv_nonneg v29, iv_nonneg v30, iv_nonneg v31, iv_nonneg v32, iv_nonneg v33]
    · linarith only [iv_le a.2.w4, iv_le a.2.w5, iv_le a.2.w6, iv_le a.2.w7, iv_le a.2.w0, iv_le a.2.w1, iv_le a.2.w2, iv_le a.2.w3]
  replace h := mov_inv h
  have EA1 : iv v29 + (2 ^ 64) * (iv v30) + (2 ^ 128) * (iv v31) + (2 ^ 192) * (iv v32) + (2 ^ 256) * (iv v33) = (2 ^ 192) * (iv a.2.w3) + (2 ^ 128) * (iv a.2.w2) + (2 ^ 64) * (iv a.2.w1) + iv a.2.w0 + (19 * 2 ^ 193) * (iv a.2.w7) + (19 * 2 ^ 129) * (iv a.2.w6) + (19 * 2 ^ 65) * (iv a.2.w5) + (19 * 2 ^ 1) * (iv a.2.w4) := by linear_combination (2 ^ 256) * e33 + (-2 ^ 320) * zc33 + (2 ^ 192) * e32 + (2 ^ 128) * e31 + (2 ^ 64) * e30 + e29 + (2 ^ 256) * e28 + (-2 ^ 320) * zc28 + (2 ^ 192) * e27 + (2 ^ 128) * e26 + (2 ^ 64) * e25 + (2 ^ 192) * e24 + (2 ^ 128) * e23 + (2 ^ 64) * e22 + e21 + (2 ^ 257) * hz
  have ht1 : iv v33 ≤ 39 := by
    have := iv_lt v33
    linarith only [this, EA1, iv_nonneg v29, iv_nonneg v30, iv_nonneg v31, iv_nonneg v32, iv_le a.2.w3, iv_le a.2.w2, iv_le a.2.w1, iv_le a.2.w0, iv_le a.2.w7, iv_le a.2.w6, iv_le a.2.w5, iv_le a.2.w4]
  replace h := imul_inv h (by linarith only [ht1]) (by rw [show iv 38#64 = 38 from rfl]; norm_num); obtain ⟨v34, e34, h⟩ := h
  rw [show iv 38#64 = 38 from rfl] at e34
  replace h := add_inv h; obtain ⟨v35, c35, e35, h⟩ := h
  replace h := adc_inv h; obtain ⟨v36, c36, e36, h⟩ := h
  replace h := mov_inv h
  replace h := adc_inv h; obtain ⟨v37, c37, e37, h⟩ := h
  replace h := mov_inv h
  replace h := adc_inv h; obtain ⟨v38, c38, e38, h⟩ := h
  replace h := mov_inv h
  replace h := mov_inv h
  have EB1 : iv v35 + (2 ^ 64) * (iv v36) + (2 ^ 128) * (iv v37) + (2 ^ 192) * (iv v38) + (2 ^ 256) * (bv c38) = (2 ^ 192) * (iv v32) + (2 ^ 128) * (iv v31) + (2 ^ 64) * (iv v30) + iv v29 + iv v34 := by linear_combination (2 ^ 192) * e38 + (2 ^ 128) * e37 + (2 ^ 64) * e36 + e35 + (340282366920938463481821351505477763073 * 2 ^ 64) * hz
  replace h := cmov0_inv h; obtain ⟨v39, e39, h⟩ := h
  rw [show iv 38#64 = 38 from rfl] at e39
  replace h := add_inv h; obtain ⟨v40, c40, e40, h⟩ := h
  have zc1_ : bv c40 = 0 := by
    refine last_fold (c := c38) (s0 := iv v35) (rest := (2 ^ 64) * (iv v36) + (2 ^ 128) * (iv v37) + (2 ^ 192) * (iv v38)) (S := iv v29 + (2 ^ 64) * (iv v30) + (2 ^ 128) * (iv v31) + (2 ^ 192) * (iv v32)) (m := iv v34) (r := iv v40) ?_ ?_ ?_ ?_ ?_ (iv_lt _) (iv_nonneg _)
    · linarith only [iv_nonneg v36, iv_nonneg v37, iv_nonneg v38]
    · linarith only [EB1]
    · linarith only [iv_le v29, iv_le v30, iv_le v31, iv_le v32]
    · linarith only [ht1, e34]
    · linarith only [e40, e39]
  replace h := mov_inv h
  subst h
  exact ⟨fold3_eq (lo := iv a.1.w0 + 2 ^ 64 * iv a.1.w1 + 2 ^ 128 * iv a.1.w2 + 2 ^ 192 * iv a.1.w3) (hi := iv a.1.w4 + 2 ^ 64 * iv a.1.w5 + 2 ^ 128 * iv a.1.w6 + 2 ^ 192 * iv a.1.w7) (w := iv v9 + (2 ^ 64) * (iv v10) + (2 ^ 128) * (iv v11) + (2 ^ 192) * (iv v12)) (t := iv v13) (v := iv v15 + (2 ^ 64) * (iv v16) + (2 ^ 128) * (iv v17) + (2 ^ 192) * (iv v18)) (c := bv c18)
    (by simp only [F8.val]; ring) (by linarith only [iv_nonneg a.1.w0, iv_nonneg a.1.w1, iv_nonneg a.1.w2, iv_nonneg a.1.w3]) (by linarith only [iv_le a.1.w0, iv_le a.1.w1, iv_le a.1.w2, iv_le a.1.w3])
    (by linear_combination EA0) (by linarith only [iv_nonneg v9, iv_nonneg v10, iv_nonneg v11, iv_nonneg v12]) (by linarith only [iv_le v9, iv_le v10, iv_le v11, iv_le v12])
    (by linear_combination EB0 + e14) (by linarith only [iv_nonneg v15, iv_nonneg v16, iv_nonneg v17, iv_nonneg v18]) (by linarith only [iv_le v15, iv_le v16, iv_le v17, iv_le v18])
    (by simp only [F4.val]; linear_combination e20 - 2 ^ 64 * zc0_ + e19), fold3_eq (lo := iv a.2.w0 + 2 ^ 64 * iv a.2.w1 + 2 ^ 128 * iv a.2.w2 + 2 ^ 192 * iv a.2.w3) (hi := iv a.2.w4 + 2 ^ 64 * iv a.2.w5 + 2 ^ 128 * iv a.2.w6 + 2 ^ 192 * iv a.2.w7) (w := iv v29 + (2 ^ 64) * (iv v30) + (2 ^ 128) * (iv v31) + (2 ^ 192) * (iv v32)) (t := iv v33) (v := iv v35 + (2 ^ 64) * (iv v36) + (2 ^ 128) * (iv v37) + (2 ^ 192) * (iv v38)) (c := bv c38)
    (by simp only [F8.val]; ring) (by linarith only [iv_nonneg a.2.w0, iv_nonneg a.2.w1, iv_nonneg a.2.w2, iv_nonneg a.2.w3]) (by linarith only [iv_le a.2.w0, iv_le a.2.w1, iv_le a.2.w2, iv_le a.2.w3])
    (by linear_combination EA1) (by linarith only [iv_nonneg v29, iv_nonneg v30, iv_nonneg v31, iv_nonneg v32]) (by linarith only [iv_le v29, iv_le v30, iv_le v31, iv_le v32])
    (by linear_combination EB1 + e34) (by linarith only [iv_nonneg v35, iv_nonneg v36, iv_nonneg v37, iv_nonneg v38]) (by linarith only [iv_le v35, iv_le v36, iv_le v37, iv_le v38])
    (by simp only [F4.val]; linear_combination e40 - 2 ^ 64 * zc1_ + e39)⟩

theorem reduce2_mulq_val (a : F8 × F8) :
    (∃ q, (reduce2_mulq a).1.val = a.1.val + p25519 * q) ∧
    ∃ q, (reduce2_mulq a).2.val = a.2.val + p25519 * q :=
  (reduce2_mulq_fold a).imp fold3_mod fold3_mod

theorem mula24_mulx_fold (a : F4) :
    (mula24_mulx a).val = fold (fold (121666 * a.val)) := by
  generalize h : mula24_mulx a = X
  unfold mula24_mulx at h
  have hz : iv 0#64 = 0 := rfl
  have hf : bv false = 0 := rfl
  replace h := mov_inv h
  replace h := mulx_inv h; obtain ⟨l1, h1, e1, h⟩ := h
  rw [show iv 121666#64 = 121666 from rfl] at e1
  replace h := mulx_inv h; obtain ⟨l2, h2, e2, h⟩ := h
  rw [show iv 121666#64 = 121666 from rfl] at e2
  replace h := add_inv h; obtain ⟨v3, c3, e3, h⟩ := h
  replace h := mulx_inv h; obtain ⟨l4, h4, e4, h⟩ := h
  rw [show iv 121666#64 = 121666 from rfl] at e4
  replace h := adc_inv h; obtain ⟨v5, c5, e5, h⟩ := h
  replace h := mulx_inv h; obtain ⟨l6, h6, e6, h⟩ := h
  rw [show iv 121666#64 = 121666 from rfl] at e6
  replace h := adc_inv h; obtain ⟨v7, c7, e7, h⟩ := h
  replace h := adc_inv h; obtain ⟨v8, c8, e8, h⟩ := h
  have zc8 : bv c8 = 0 := by
    refine dead (K := 2 ^ 320) (rest := iv l1 + (2 ^ 64) * (iv v3) + (2 ^ 128) * (iv v5) + (2 ^ 192) * (iv v7) + (2 ^ 256) * (iv v8)) (P := (60833 * 2 ^ 1) * (iv a.w0) + (60833 * 2 ^ 65) * (iv a.w1) + (60833 * 2 ^ 129) * (iv a.w2) + (60833 * 2 ^ 193) * (iv a.w3)) (by linear_combination e1 + (2 ^ 64) * e2 + (2 ^ 64) * e3 + (2 ^ 128) * e4 + (2 ^ 128) * e5 + (2 ^ 192) * e6 + (2 ^ 192) * e7 + (2 ^ 256) * e8 + (2 ^ 256) * hz) ?_ ?_
    · linarith only [iv_nonneg l1, iv_nonneg v3, iv_nonneg v5, iv_nonneg v7, iv_nonneg v8]
    · linarith only [iv_le a.w0, iv_le a.w1, iv_le a.w2, iv_le a.w3]
  replace h := mov_inv h
  have EA0 : iv l1 + (2 ^ 64) * (iv v3) + (2 ^ 128) * (iv v5) + (2 ^ 192) * (iv v7) + (2 ^ 256) * (iv v8) = (60833 * 2 ^ 193) * (iv a.w3) + (60833 * 2 ^ 129) * (iv a.w2) + (60833 * 2 ^ 65) * (iv a.w1) + (60833 * 2 ^ 1) * (iv a.w0) := by linear_combination (2 ^ 256) * e8 + (-2 ^ 320) * zc8 + (2 ^ 192) * e7 + (2 ^ 192) * e6 + (2 ^ 128) * e5 + (2 ^ 128) * e4 + (2 ^ 64) * e3 + (2 ^ 64) * e2 + e1 + (2 ^ 256) * hz
  have ht0 : iv v8 ≤ 121666 := by
    have := iv_lt v8
    linarith only [this, EA0, iv_nonneg l1, iv_nonneg v3, iv_nonneg v5, iv_nonneg v7, iv_le a.w3, iv_le a.w2, iv_le a.w1, iv_le a.w0]
  replace h := imul_inv h (by linarith only [ht0]) (by rw [show iv 38#64 = 38 from rfl]; norm_num); obtain ⟨v9, e9, h⟩ := h
  rw [show iv 38#64 = 38 from rfl] at e9
  replace h := add_inv h; obtain ⟨v10, c10, e10, h⟩ := h
  replace h := adc_inv h; obtain ⟨v11, c11, e11, h⟩ := h
  replace h := mov_inv h
  replace h := adc_inv h; obtain ⟨v12, c12, e12, h⟩ := h
  replace h := mov_inv h
  replace h := adc_inv h; obtain ⟨v13, c13, e13, h⟩ := h
  replace h := mov_inv h
  replace h := mov_inv h
  have EB0 : iv v10 + (2 ^ 64) * (iv v11) + (2 ^ 128) * (iv v12) + (2 ^ 192) * (iv v13) + (2 ^ 256) * (bv c13) = (2 ^ 192) * (iv v7) + (2 ^ 128) * (iv v5) + (2 ^ 64) * (iv v3) + iv l1 + iv v9 := by linear_combination (2 ^ 192) * e13 + (2 ^ 128) * e12 + (2 ^ 64) * e11 + e10 + (340282366920938463481821351505477763073 * 2 ^ 64) * hz
  replace h := cmov0_inv h; obtain ⟨v14, e14, h⟩ := h
  rw [show iv 38#64 = 38 from rfl] at e14
  replace h := add_inv h; obtain ⟨v15, c15, e15, h⟩ := h
  have zc0_ : bv c15 = 0 := by
    refine last_fold (c := c13) (s0 := iv v10) (rest := (2 ^ 64) * (iv v11) + (2 ^ 128) * (iv v12) + (2 ^ 192) * (iv v13)) (S := iv l1 + (2 ^ 64) * (iv v3) + (2 ^ 128) * (iv v5) + (2 ^ 192) * (iv v7)) (m := iv v9) (r := iv v15) ?_ ?_ ?_ ?_ ?_ (iv_lt _) (iv_nonneg _)
    · linarith only [iv_nonneg v11, iv_nonneg v12, iv_nonneg v13]
    · linarith only [EB0]
    · linarith only [iv_le l1, iv_le v3, iv_le v5, iv_le v7]
    · linarith only [ht0, e9]
    · linarith only [e15, e14]
  replace h := mov_inv h
  subst h
  exact fold2_eq (w := iv l1 + (2 ^ 64) * (iv v3) + (2 ^ 128) * (iv v5) + (2 ^ 192) * (iv v7)) (t := iv v8) (v := iv v10 + (2 ^ 64) * (iv v11) + (2 ^ 128) * (iv v12) + (2 ^ 192) * (iv v13)) (c := bv c13)
    (by simp only [F4.val]; linear_combination EA0) (by linarith only [iv_nonneg l1, iv_nonneg v3, iv_nonneg v5, iv_nonneg v7]) (by linarith only [iv_le l1, iv_le v3, iv_le v5, iv_le v7])
    (by linear_combination EB0 + e9) (by linarith only [iv_nonneg v10, iv_nonneg v11, iv_nonneg v12, iv_nonneg v13]) (by linarith only [iv_le v10, iv_le v11, iv_le v12, iv_le v13])
    (by simp only [F4.val]; linear_combination e15 - 2 ^ 64 * zc0_ + e14)

theorem mula24_mulx_val (a : F4) :
    ∃ q, (mula24_mulx a).val = 121666 * a.val + p25519 * q := fold2_mod (mula24_mulx_fold a)

theorem mula24_mulq_fold (a : F4) :
    (mula24_mulq a).val = fold (fold (121666 * a.val)) := by
  generalize h : mula24_mulq a = X
  unfold mula24_mulq at h
  have hz : iv 0#64 = 0 := rfl
  have hf : bv false = 0 := rfl
  replace h := mov_inv h
  replace h := mulx_inv h; obtain ⟨l1, h1, e1, h⟩ := h
  rw [show iv 121666#64 = 121666 from rfl] at e1
  replace h := mov_inv h
  replace h := mov_inv h
  replace h := mov_inv h
  replace h := mulx_inv h; obtain ⟨l2, h2, e2, h⟩ := h
  rw [show iv 121666#64 = 121666 from rfl] at e2
  replace h := mov_inv h
  replace h := mov_inv h
  replace h := mov_inv h
  replace h := mulx_inv h; obtain ⟨l3, h3, e3, h⟩ := h
  rw [show iv 121666#64 = 121666 from rfl] at e3
  replace h := mov_inv h
  replace h := mov_inv h
  replace h := mov_inv h
  replace h := mulx_inv h; obtain ⟨l4, h4, e4, h⟩ := h
  rw [show iv 121666#64 = 121666 from rfl] at e4
  replace h := add_inv h; obtain ⟨v5, c5, e5, h⟩ := h
  replace h := adc_inv h; obtain ⟨v6, c6, e6, h⟩ := h
  replace h := adc_inv h; obtain ⟨v7, c7, e7, h⟩ := h
  replace h := adc_inv h; obtain ⟨v8, c8, e8, h⟩ := h
  have zc8 : bv c8 = 0 := by
    refine dead (K := 2 ^ 320) (rest := iv l1 + (2 ^ 64) * (iv v5) + (2 ^ 128) * (iv v6) + (2 ^ 192) * (iv v7) + (2 ^ 256) * (iv v8)) (P := (60833 * 2 ^ 1) * (iv a.w0) + (60833 * 2 ^ 65) * (iv a.w1) + (60833 * 2 ^ 129) * (iv a.w2) + (60833 * 2 ^ 193) * (iv a.w3)) (by linear_combination e1 + (2 ^ 64) * e2 + (2 ^ 128) * e3 + (2 ^ 192) * e4 + (2 ^ 64) * e5 + (2 ^ 128) * e6 + (2 ^ 192) * e7 + (2 ^ 256) * e8 + (2 ^ 256) * hz) ?_ ?_
    · linarith only [iv_nonneg l1, iv_nonneg v5, iv_nonneg v6, iv_nonneg v7, iv_nonneg v8]
    · linarith only [iv_le a.w0, iv_le a.w1, iv_le a.w2, iv_le a.w3]
  replace h := mov_inv h
  have EA0 : iv l1 + (2 ^ 64) * (iv v5) + (2 ^ 128) * (iv v6) + (2 ^ 192) * (iv v7) + (2 ^ 256) * (iv v8) = (60833 * 2 ^ 193) * (iv a.w3) + (60833 * 2 ^ 129) * (iv a.w2) + (60833 * 2 ^ 65) * (iv a.w1) + (60833 * 2 ^ 1) * (iv a.w0) := by linear_combination (2 ^ 256) * e8 + (-2 ^ 320) * zc8 + (2 ^ 192) * e7 + (2 ^ 128) * e6 + (2 ^ 64) * e5 + (2 ^ 192) * e4 + (2 ^ 128) * e3 + (2 ^ 64) * e2 + e1 + (2 ^ 256) * hz
  have ht0 : iv v8 ≤ 121666 := by
    have := iv_lt v8
    linarith only [this, EA0, iv_nonneg l1, iv_nonneg v5, iv_nonneg v6, iv_nonneg v7, iv_le a.w3, iv_le a.w2, iv_le a.w1, iv_le a.w0]
  replace h := imul_inv h (by linarith only [ht0]) (by rw [show iv 38#64 = 38 from rfl]; norm_num); obtain ⟨v9, e9, h⟩ := h
  rw [show iv 38#64 = 38 from rfl] at e9
  replace h := add_inv h; obtain ⟨v10, c10, e10, h⟩ := h
  replace h := adc_inv h; obtain ⟨v11, c11, e11, h⟩ := h
  replace h := mov_inv h
  replace h := adc_inv h; obtain ⟨v12, c12, e12, h⟩ := h
  replace h := mov_inv h
  replace h := adc_inv h; obtain ⟨v13, c13, e13, h⟩ := h
  replace h := mov_inv h
  replace h := mov_inv h
  have EB0 : iv v10 + (2 ^ 64) * (iv v11) + (2 ^ 128) * (iv v12) + (2 ^ 192) * (iv v13) + (2 ^ 256) * (bv c13) = (2 ^ 192) * (iv v7) + (2 ^ 128) * (iv v6) + (2 ^ 64) * (iv v5) + iv l1 + iv v9 := by linear_combination (2 ^ 192) * e13 + (2 ^ 128) * e12 + (2 ^ 64) * e11 + e10 + (340282366920938463481821351505477763073 * 2 ^ 64) * hz
  replace h := cmov0_inv h; obtain ⟨v14, e14, h⟩ := h
  rw [show iv 38#64 = 38 from rfl] at e14
  replace h := add_inv h; obtain ⟨v15, c15, e15, h⟩ := h
  have zc0_ : bv c15 = 0 := by
    refine last_fold (c := c13) (s0 := iv v10) (rest := (2 ^ 64) * (iv v11) + (2 ^ 128) * (iv v12) + (2 ^ 192) * (iv v13)) (S := iv l1 + (2 ^ 64) * (iv v5) + (2 ^ 128) * (iv v6) + (2 ^ 192) * (iv v7)) (m := iv v9) (r := iv v15) ?_ ?_ ?_ ?_ ?_ (iv_lt _) (iv_nonneg _)
    · linarith only [iv_nonneg v11, iv_nonneg v12, iv_nonneg v13]
    · linarith only [EB0]
    · linarith only [iv_le l1, iv_le v5, iv_le v6, iv_le v7]
    · linarith only [ht0, e9]
    · linarith only [e15, e14]
  replace h := mov_inv h
  subst h
  exact fold2_eq (w := iv l1 + (2 ^ 64) * (iv v5) + (2 ^ 128) * (iv v6) + (2 ^ 192) * (iv v7)) (t := iv v8) (v := iv v10 + (2 ^ 64) * (iv v11) + (2 ^ 128) * (iv v12) + (2 ^ 192) * (iv v13)) (c := bv c13)
    (by simp only [F4.val]; linear_combination EA0) (by linarith only [iv_nonneg l1, iv_nonneg v5, iv_nonneg v6, iv_nonneg v7]) (by linarith only [iv_le l1, iv_le v5, iv_le v6, iv_le v7])
    (by linear_combination EB0 + e9) (by linarith only [iv_nonneg v10, iv_nonneg v11, iv_nonneg v12, iv_nonneg v13]) (by linarith only [iv_le v10, iv_le v11, iv_le v12, iv_le v13])
    (by simp only [F4.val]; linear_combination e15 - 2 ^ 64 * zc0_ + e14)

theorem mula24_mulq_val (a : F4) :
    ∃ q, (mula24_mulq a).val = 121666 * a.val + p25519 * q := fold2_mod (mula24_mulq_fold a)

end Verif.Fp25519.Asm
