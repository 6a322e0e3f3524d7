import Verif.Fp25519.Asm
import Verif.Fp25519.Lemmas

/-! # Integer squares

Helper lemmas: one linear identity per straight-line block. -/

namespace Verif.Fp25519.Asm

set_option maxRecDepth 4000
set_option linter.unusedVariables false
set_option exponentiation.threshold 2000

theorem intsqr_mulxadx_val (a : F4) : (intsqr_mulxadx a).val = a.val ^ 2 := by
  generalize h : intsqr_mulxadx a = X
  unfold intsqr_mulxadx at h
  have hz : iv 0#64 = 0 := rfl
  have hf : bv false = 0 := rfl
  replace h := mov_inv h
  replace h := mulx_inv h; obtain ⟨l1, h1, e1, h⟩ := h
  replace h := xor0_inv h
  replace h := mulx_inv h; obtain ⟨l3, h3, e3, h⟩ := h
  replace h := adc_inv h; obtain ⟨v4, c4, e4, h⟩ := h
  replace h := mulx_inv h; obtain ⟨l5, h5, e5, h⟩ := h
  replace h := adc_inv h; obtain ⟨v6, c6, e6, h⟩ := h
  replace h := mov_inv h
  replace h := mulx_inv h; obtain ⟨l7, h7, e7, h⟩ := h
  replace h := adc_inv h; obtain ⟨v8, c8, e8, h⟩ := h
  replace h := mulx_inv h; obtain ⟨l9, h9, e9, h⟩ := h
  replace h := adc_inv h; obtain ⟨v10, c10, e10, h⟩ := h
  replace h := mov_inv h
  replace h := adc_inv h; obtain ⟨v11, c11, e11, h⟩ := h
  replace h := mulx_inv h; obtain ⟨l12, h12, e12, h⟩ := h
  replace h := mov_inv h
  replace h := adc_inv h; obtain ⟨v13, c13, e13, h⟩ := h
  have zc13 : bv c13 = 0 := by
    refine dead (K := 2 ^ 513) (rest := (2 ^ 129) * (iv v4) + (2 ^ 193) * (iv v6) + (2 ^ 257) * (iv v8) + (2 ^ 321) * (iv v10) + (2 ^ 385) * (iv v11) + (2 ^ 449) * (iv v13)) (P := (2 ^ 129) * (iv l3) + (2 ^ 129) * (iv h1) + (2 ^ 193) * (iv h3) + (2 ^ 193) * (iv l5) + (2 ^ 257) * (iv l7) + (2 ^ 257) * (iv h5) + (2 ^ 321) * (iv h7) + (2 ^ 321) * (iv l9) + (2 ^ 385) * (iv h9)) (by linear_combination (2 ^ 129) * e4 + (2 ^ 193) * e6 + (2 ^ 257) * e8 + (2 ^ 321) * e10 + (2 ^ 385) * e11 + (2 ^ 449) * e13 + (2 ^ 129) * hf + (36893488147419103233 * 2 ^ 385) * hz) ?_ ?_
    · linarith only [iv_nonneg v4, iv_nonneg v6, iv_nonneg v8, iv_nonneg v10, iv_nonneg v11, iv_nonneg v13]
    · linarith only [iv_le l3, iv_le h1, iv_le h3, iv_le l5, iv_le l7, iv_le h5, iv_le h7, iv_le l9, iv_le h9]
  replace h := xor0_inv h
  replace h := adc_inv h; obtain ⟨v15, c15, e15, h⟩ := h
  replace h := adc_inv h; obtain ⟨v16, c16, e16, h⟩ := h
  replace h := adc_inv h; obtain ⟨v17, c17, e17, h⟩ := h
  replace h := adc_inv h; obtain ⟨v18, c18, e18, h⟩ := h
  replace h := adc_inv h; obtain ⟨v19, c19, e19, h⟩ := h
  replace h := adc_inv h; obtain ⟨v20, c20, e20, h⟩ := h
  replace h := adc_inv h; obtain ⟨v21, c21, e21, h⟩ := h
  replace h := adc_inv h; obtain ⟨v22, c22, e22, h⟩ := h
  replace h := adc_inv h; obtain ⟨v23, c23, e23, h⟩ := h
  have zc23 : bv c23 = 0 := by
    refine dead (K := 2 ^ 513) (rest := (2 ^ 129) * (iv v4) + (2 ^ 193) * (iv v15) + (2 ^ 257) * (iv v17) + (2 ^ 321) * (iv v19) + (2 ^ 385) * (iv v21) + (2 ^ 449) * (iv v23)) (P := (2 ^ 129) * (iv l3) + (2 ^ 129) * (iv h1) + (2 ^ 193) * (iv h3) + (2 ^ 193) * (iv l5) + (2 ^ 257) * (iv l7) + (2 ^ 257) * (iv h5) + (2 ^ 321) * (iv h7) + (2 ^ 321) * (iv l9) + (2 ^ 385) * (iv h9) + (2 ^ 193) * (iv a.w1 * iv a.w2)) (by linear_combination (2 ^ 129) * e4 + (2 ^ 193) * e6 + (2 ^ 257) * e8 + (2 ^ 321) * e10 + (2 ^ 385) * e11 + (2 ^ 193) * e12 + (2 ^ 449) * e13 + (2 ^ 193) * e15 + (2 ^ 257) * e17 + (2 ^ 321) * e19 + (2 ^ 385) * e21 + (2 ^ 449) * e23 + (18446744073709551617 * 2 ^ 129) * hf + (1020847100762815390427017310442723737601 * 2 ^ 321) * hz + (-2 ^ 513) * zc13) ?_ ?_
    · linarith only [iv_nonneg v4, iv_nonneg v15, iv_nonneg v17, iv_nonneg v19, iv_nonneg v21, iv_nonneg v23]
    · linarith only [iv_le l3, iv_le h1, iv_le h3, iv_le l5, iv_le l7, iv_le h5, iv_le h7, iv_le l9, iv_le h9, iv_mul_le a.w1 a.w2]
  replace h := adc_inv h; obtain ⟨v24, c24, e24, h⟩ := h
  replace h := adc_inv h; obtain ⟨v25, c25, e25, h⟩ := h
  replace h := adc_inv h; obtain ⟨v26, c26, e26, h⟩ := h
  have zc26 : bv c26 = 0 := by
    refine dead (K := 2 ^ 512) (rest := (2 ^ 64) * (iv v16) + (2 ^ 128) * (iv v18) + (2 ^ 192) * (iv v20) + (2 ^ 256) * (iv v22) + (2 ^ 320) * (iv v24) + (2 ^ 384) * (iv v25) + (2 ^ 448) * (iv v26)) (P := (2 ^ 65) * (iv a.w0 * iv a.w1) + (2 ^ 129) * (iv l3) + (2 ^ 193) * (iv h3) + (2 ^ 193) * (iv l5) + (2 ^ 257) * (iv l7) + (2 ^ 257) * (iv h5) + (2 ^ 321) * (iv h7) + (2 ^ 321) * (iv l9) + (2 ^ 385) * (iv h9) + (2 ^ 193) * (iv a.w1 * iv a.w2)) (by linear_combination (2 ^ 65) * e1 + (2 ^ 129) * e4 + (2 ^ 193) * e6 + (2 ^ 257) * e8 + (2 ^ 321) * e10 + (2 ^ 385) * e11 + (2 ^ 193) * e12 + (2 ^ 449) * e13 + (2 ^ 193) * e15 + (2 ^ 64) * e16 + (2 ^ 257) * e17 + (2 ^ 128) * e18 + (2 ^ 321) * e19 + (2 ^ 192) * e20 + (2 ^ 385) * e21 + (2 ^ 256) * e22 + (2 ^ 449) * e23 + (2 ^ 320) * e24 + (2 ^ 384) * e25 + (2 ^ 448) * e26 + (680564733841876926963642703010955526145 * 2 ^ 64) * hf + (1020847100762815390427017310442723737601 * 2 ^ 321) * hz + (-2 ^ 513) * zc13 + (-2 ^ 513) * zc23) ?_ ?_
    · linarith only [iv_nonneg v16, iv_nonneg v18, iv_nonneg v20, iv_nonneg v22, iv_nonneg v24, iv_nonneg v25, iv_nonneg v26]
    · linarith only [iv_mul_le a.w0 a.w1, iv_le l3, iv_le h3, iv_le l5, iv_le l7, iv_le h5, iv_le h7, iv_le l9, iv_le h9, iv_mul_le a.w1 a.w2]
  replace h := mov_inv h
  replace h := mulx_inv h; obtain ⟨l27, h27, e27, h⟩ := h
  replace h := mov_inv h
  replace h := add_inv h; obtain ⟨v28, c28, e28, h⟩ := h
  replace h := mov_inv h
  replace h := mov_inv h
  replace h := mulx_inv h; obtain ⟨l29, h29, e29, h⟩ := h
  replace h := adc_inv h; obtain ⟨v30, c30, e30, h⟩ := h
  replace h := mov_inv h
  replace h := adc_inv h; obtain ⟨v31, c31, e31, h⟩ := h
  replace h := mov_inv h
  replace h := mov_inv h
  replace h := mulx_inv h; obtain ⟨l32, h32, e32, h⟩ := h
  replace h := adc_inv h; obtain ⟨v33, c33, e33, h⟩ := h
  replace h := mov_inv h
  replace h := adc_inv h; obtain ⟨v34, c34, e34, h⟩ := h
  replace h := mov_inv h
  replace h := mov_inv h
  replace h := mulx_inv h; obtain ⟨l35, h35, e35, h⟩ := h
  replace h := adc_inv h; obtain ⟨v36, c36, e36, h⟩ := h
  replace h := mov_inv h
  replace h := adc_inv h; obtain ⟨v37, c37, e37, h⟩ := h
  have zc37 : bv c37 = 0 := by
    refine dead (K := 2 ^ 512) (rest := iv l27 + (2 ^ 64) * (iv v28) + (2 ^ 128) * (iv v30) + (2 ^ 192) * (iv v31) + (2 ^ 256) * (iv v33) + (2 ^ 320) * (iv v34) + (2 ^ 384) * (iv v36) + (2 ^ 448) * (iv v37)) (P := (2 ^ 65) * (iv a.w0 * iv a.w1) + (2 ^ 129) * (iv a.w0 * iv a.w2) + (2 ^ 193) * (iv a.w0 * iv a.w3) + (2 ^ 257) * (iv a.w3 * iv a.w1) + (2 ^ 321) * (iv a.w3 * iv a.w2) + (2 ^ 193) * (iv a.w1 * iv a.w2) + iv a.w0 * iv a.w0 + (2 ^ 128) * (iv a.w1 * iv a.w1) + (2 ^ 256) * (iv a.w2 * iv a.w2) + (2 ^ 384) * (iv a.w3 * iv a.w3)) (by linear_combination (2 ^ 65) * e1 + (2 ^ 129) * e3 + (2 ^ 129) * e4 + (2 ^ 193) * e5 + (2 ^ 193) * e6 + (2 ^ 257) * e7 + (2 ^ 257) * e8 + (2 ^ 321) * e9 + (2 ^ 321) * e10 + (2 ^ 385) * e11 + (2 ^ 193) * e12 + (2 ^ 449) * e13 + (2 ^ 193) * e15 + (2 ^ 64) * e16 + (2 ^ 257) * e17 + (2 ^ 128) * e18 + (2 ^ 321) * e19 + (2 ^ 192) * e20 + (2 ^ 385) * e21 + (2 ^ 256) * e22 + (2 ^ 449) * e23 + (2 ^ 320) * e24 + (2 ^ 384) * e25 + (2 ^ 448) * e26 + e27 + (2 ^ 64) * e28 + (2 ^ 128) * e29 + (2 ^ 128) * e30 + (2 ^ 192) * e31 + (2 ^ 256) * e32 + (2 ^ 256) * e33 + (2 ^ 320) * e34 + (2 ^ 384) * e35 + (2 ^ 384) * e36 + (2 ^ 448) * e37 + (680564733841876926963642703010955526145 * 2 ^ 64) * hf + (1020847100762815390427017310442723737601 * 2 ^ 321) * hz + (-2 ^ 513) * zc13 + (-2 ^ 513) * zc23 + (-2 ^ 512) * zc26) ?_ ?_
    · linarith only [iv_nonneg l27, iv_nonneg v28, iv_nonneg v30, iv_nonneg v31, iv_nonneg v33, iv_nonneg v34, iv_nonneg v36, iv_nonneg v37]
    · linarith only [iv_mul_le a.w0 a.w1, iv_mul_le a.w0 a.w2, iv_mul_le a.w0 a.w3, iv_mul_le a.w3 a.w1, iv_mul_le a.w3 a.w2, iv_mul_le a.w1 a.w2, iv_mul_le a.w0 a.w0, iv_mul_le a.w1 a.w1, iv_mul_le a.w2 a.w2, iv_mul_le a.w3 a.w3]
  replace h := mov_inv h
  subst h
  simp only [F8.val, F4.val]
  linear_combination (2 ^ 448) * e37 + (-2 ^ 512) * zc37 + (2 ^ 384) * e36 + (2 ^ 384) * e35 + (2 ^ 320) * e34 + (2 ^ 256) * e33 + (2 ^ 256) * e32 + (2 ^ 192) * e31 + (2 ^ 128) * e30 + (2 ^ 128) * e29 + (2 ^ 64) * e28 + e27 + (2 ^ 448) * e26 + (-2 ^ 512) * zc26 + (2 ^ 384) * e25 + (2 ^ 320) * e24 + (2 ^ 449) * e23 + (-2 ^ 513) * zc23 + (2 ^ 256) * e22 + (2 ^ 385) * e21 + (2 ^ 192) * e20 + (2 ^ 321) * e19 + (2 ^ 128) * e18 + (2 ^ 257) * e17 + (2 ^ 64) * e16 + (2 ^ 193) * e15 + (2 ^ 449) * e13 + (-2 ^ 513) * zc13 + (2 ^ 193) * e12 + (2 ^ 385) * e11 + (2 ^ 321) * e10 + (2 ^ 321) * e9 + (2 ^ 257) * e8 + (2 ^ 257) * e7 + (2 ^ 193) * e6 + (2 ^ 193) * e5 + (2 ^ 129) * e4 + (2 ^ 129) * e3 + (2 ^ 65) * e1 + (1020847100762815390427017310442723737601 * 2 ^ 321) * hz + (680564733841876926963642703010955526145 * 2 ^ 64) * hf

theorem intsqr_mulx_val (a : F4) : (intsqr_mulx a).val = a.val ^ 2 := by
  generalize h : intsqr_mulx a = X
  unfold intsqr_mulx at h
  have hz : iv 0#64 = 0 := rfl
  have hf : bv false = 0 := rfl
  replace h := mov_inv h
  replace h := mulx_inv h; obtain ⟨l1, h1, e1, h⟩ := h
  replace h := mulx_inv h; obtain ⟨l2, h2, e2, h⟩ := h
  replace h := mulx_inv h; obtain ⟨l3, h3, e3, h⟩ := h
  replace h := mov_inv h
  replace h := mulx_inv h; obtain ⟨l4, h4, e4, h⟩ := h
  replace h := mulx_inv h; obtain ⟨l5, h5, e5, h⟩ := h
  replace h := add_inv h; obtain ⟨v6, c6, e6, h⟩ := h
  replace h := adc_inv h; obtain ⟨v7, c7, e7, h⟩ := h
  replace h := adc_inv h; obtain ⟨v8, c8, e8, h⟩ := h
  replace h := adc_inv h; obtain ⟨v9, c9, e9, h⟩ := h
  replace h := adc_inv h; obtain ⟨v10, c10, e10, h⟩ := h
  replace h := mov_inv h
  replace h := adc_inv h; obtain ⟨v11, c11, e11, h⟩ := h
  have zc11 : bv c11 = 0 := by
    refine dead (K := 2 ^ 513) (rest := (2 ^ 129) * (iv v6) + (2 ^ 193) * (iv v7) + (2 ^ 257) * (iv v8) + (2 ^ 321) * (iv v9) + (2 ^ 385) * (iv v10) + (2 ^ 449) * (iv v11)) (P := (2 ^ 129) * (iv h1) + (2 ^ 129) * (iv l5) + (2 ^ 193) * (iv l2) + (2 ^ 193) * (iv h5) + (2 ^ 257) * (iv h2) + (2 ^ 257) * (iv l3) + (2 ^ 321) * (iv l4) + (2 ^ 321) * (iv h3) + (2 ^ 385) * (iv h4)) (by linear_combination (2 ^ 129) * e6 + (2 ^ 193) * e7 + (2 ^ 257) * e8 + (2 ^ 321) * e9 + (2 ^ 385) * e10 + (2 ^ 449) * e11 + (36893488147419103233 * 2 ^ 385) * hz) ?_ ?_
    · linarith only [iv_nonneg v6, iv_nonneg v7, iv_nonneg v8, iv_nonneg v9, iv_nonneg v10, iv_nonneg v11]
    · linarith only [iv_le h1, iv_le l5, iv_le l2, iv_le h5, iv_le h2, iv_le l3, iv_le l4, iv_le h3, iv_le h4]
  replace h := mov_inv h
  replace h := mulx_inv h; obtain ⟨l12, h12, e12, h⟩ := h
  replace h := add_inv h; obtain ⟨v13, c13, e13, h⟩ := h
  replace h := adc_inv h; obtain ⟨v14, c14, e14, h⟩ := h
  replace h := adc_inv h; obtain ⟨v15, c15, e15, h⟩ := h
  replace h := adc_inv h; obtain ⟨v16, c16, e16, h⟩ := h
  replace h := adc_inv h; obtain ⟨v17, c17, e17, h⟩ := h
  have zc17 : bv c17 = 0 := by
    refine dead (K := 2 ^ 513) (rest := (2 ^ 129) * (iv v6) + (2 ^ 193) * (iv v13) + (2 ^ 257) * (iv v14) + (2 ^ 321) * (iv v15) + (2 ^ 385) * (iv v16) + (2 ^ 449) * (iv v17)) (P := (2 ^ 129) * (iv h1) + (2 ^ 129) * (iv l5) + (2 ^ 193) * (iv l2) + (2 ^ 193) * (iv h5) + (2 ^ 257) * (iv h2) + (2 ^ 257) * (iv l3) + (2 ^ 321) * (iv l4) + (2 ^ 321) * (iv h3) + (2 ^ 385) * (iv h4) + (2 ^ 193) * (iv a.w0 * iv a.w3)) (by linear_combination (2 ^ 129) * e6 + (2 ^ 193) * e7 + (2 ^ 257) * e8 + (2 ^ 321) * e9 + (2 ^ 385) * e10 + (2 ^ 449) * e11 + (2 ^ 193) * e12 + (2 ^ 193) * e13 + (2 ^ 257) * e14 + (2 ^ 321) * e15 + (2 ^ 385) * e16 + (2 ^ 449) * e17 + (1020847100762815390427017310442723737601 * 2 ^ 321) * hz + (-2 ^ 513) * zc11) ?_ ?_
    · linarith only [iv_nonneg v6, iv_nonneg v13, iv_nonneg v14, iv_nonneg v15, iv_nonneg v16, iv_nonneg v17]
    · linarith only [iv_le h1, iv_le l5, iv_le l2, iv_le h5, iv_le h2, iv_le l3, iv_le l4, iv_le h3, iv_le h4, iv_mul_le a.w0 a.w3]
  have zmv17 : bv (v17).msb = 0 := by
    refine dead_msb (K := 2 ^ 449) (rest := (2 ^ 129) * (iv v6) + (2 ^ 193) * (iv v13) + (2 ^ 257) * (iv v14) + (2 ^ 321) * (iv v15) + (2 ^ 385) * (iv v16)) (P := (2 ^ 129) * (iv h1) + (2 ^ 129) * (iv l5) + (2 ^ 193) * (iv l2) + (2 ^ 193) * (iv h5) + (2 ^ 257) * (iv h2) + (2 ^ 257) * (iv l3) + (2 ^ 321) * (iv l4) + (2 ^ 321) * (iv h3) + (2 ^ 385) * (iv h4) + (2 ^ 193) * (iv a.w0 * iv a.w3)) (by linear_combination (2 ^ 129) * e6 + (2 ^ 193) * e7 + (2 ^ 257) * e8 + (2 ^ 321) * e9 + (2 ^ 385) * e10 + (2 ^ 449) * e11 + (2 ^ 193) * e12 + (2 ^ 193) * e13 + (2 ^ 257) * e14 + (2 ^ 321) * e15 + (2 ^ 385) * e16 + (2 ^ 449) * e17 + (1020847100762815390427017310442723737601 * 2 ^ 321) * hz + (-2 ^ 513) * zc11 + (-2 ^ 513) * zc17) ?_ ?_
    · linarith only [iv_nonneg v6, iv_nonneg v13, iv_nonneg v14, iv_nonneg v15, iv_nonneg v16]
    · linarith only [iv_le h1, iv_le l5, iv_le l2, iv_le h5, iv_le h2, iv_le l3, iv_le l4, iv_le h3, iv_le h4, iv_mul_le a.w0 a.w3]
  replace h := shld_inv h; obtain ⟨v18, e18, h⟩ := h
  replace h := shld_inv h; obtain ⟨v19, e19, h⟩ := h
  replace h := shld_inv h; obtain ⟨v20, e20, h⟩ := h
  replace h := shld_inv h; obtain ⟨v21, e21, h⟩ := h
  replace h := shld_inv h; obtain ⟨v22, e22, h⟩ := h
  replace h := shld_inv h; obtain ⟨v23, e23, h⟩ := h
  replace h := shl_inv h; obtain ⟨v24, e24, h⟩ := h
  replace h := mulx_inv h; obtain ⟨l25, h25, e25, h⟩ := h
  replace h := mov_inv h
  replace h := add_inv h; obtain ⟨v26, c26, e26, h⟩ := h
  replace h := mov_inv h
  replace h := mov_inv h
  replace h := mulx_inv h; obtain ⟨l27, h27, e27, h⟩ := h
  replace h := adc_inv h; obtain ⟨v28, c28, e28, h⟩ := h
  replace h := mov_inv h
  replace h := adc_inv h; obtain ⟨v29, c29, e29, h⟩ := h
  replace h := mov_inv h
  replace h := mov_inv h
  replace h := mulx_inv h; obtain ⟨l30, h30, e30, h⟩ := h
  replace h := adc_inv h; obtain ⟨v31, c31, e31, h⟩ := h
  replace h := mov_inv h
  replace h := adc_inv h; obtain ⟨v32, c32, e32, h⟩ := h
  replace h := mov_inv h
  replace h := mov_inv h
  replace h := mulx_inv h; obtain ⟨l33, h33, e33, h⟩ := h
  replace h := adc_inv h; obtain ⟨v34, c34, e34, h⟩ := h
  replace h := mov_inv h
  replace h := adc_inv h; obtain ⟨v35, c35, e35, h⟩ := h
  have zc35 : bv c35 = 0 := by
    refine dead (K := 2 ^ 512) (rest := iv l25 + (2 ^ 64) * (iv v26) + (2 ^ 128) * (iv v28) + (2 ^ 192) * (iv v29) + (2 ^ 256) * (iv v31) + (2 ^ 320) * (iv v32) + (2 ^ 384) * (iv v34) + (2 ^ 448) * (iv v35)) (P := (2 ^ 65) * (iv a.w1 * iv a.w0) + (2 ^ 193) * (iv a.w1 * iv a.w2) + (2 ^ 257) * (iv a.w1 * iv a.w3) + (2 ^ 321) * (iv a.w2 * iv a.w3) + (2 ^ 129) * (iv a.w2 * iv a.w0) + (2 ^ 193) * (iv a.w0 * iv a.w3) + iv a.w0 * iv a.w0 + (2 ^ 128) * (iv a.w1 * iv a.w1) + (2 ^ 256) * (iv a.w2 * iv a.w2) + (2 ^ 384) * (iv a.w3 * iv a.w3)) (by linear_combination (2 ^ 65) * e1 + (2 ^ 193) * e2 + (2 ^ 257) * e3 + (2 ^ 321) * e4 + (2 ^ 129) * e5 + (2 ^ 129) * e6 + (2 ^ 193) * e7 + (2 ^ 257) * e8 + (2 ^ 321) * e9 + (2 ^ 385) * e10 + (2 ^ 449) * e11 + (2 ^ 193) * e12 + (2 ^ 193) * e13 + (2 ^ 257) * e14 + (2 ^ 321) * e15 + (2 ^ 385) * e16 + (2 ^ 449) * e17 + (2 ^ 448) * e18 + (2 ^ 384) * e19 + (2 ^ 320) * e20 + (2 ^ 256) * e21 + (2 ^ 192) * e22 + (2 ^ 128) * e23 + (2 ^ 64) * e24 + e25 + (2 ^ 64) * e26 + (2 ^ 128) * e27 + (2 ^ 128) * e28 + (2 ^ 192) * e29 + (2 ^ 256) * e30 + (2 ^ 256) * e31 + (2 ^ 320) * e32 + (2 ^ 384) * e33 + (2 ^ 384) * e34 + (2 ^ 448) * e35 + (1020847100762815390427017310442723737601 * 2 ^ 321) * hz + (-2 ^ 513) * zc11 + (-2 ^ 513) * zc17 + (-2 ^ 512) * zmv17) ?_ ?_
    · linarith only [iv_nonneg l25, iv_nonneg v26, iv_nonneg v28, iv_nonneg v29, iv_nonneg v31, iv_nonneg v32, iv_nonneg v34, iv_nonneg v35]
    · linarith only [iv_mul_le a.w1 a.w0, iv_mul_le a.w1 a.w2, iv_mul_le a.w1 a.w3, iv_mul_le a.w2 a.w3, iv_mul_le a.w2 a.w0, iv_mul_le a.w0 a.w3, iv_mul_le a.w0 a.w0, iv_mul_le a.w1 a.w1, iv_mul_le a.w2 a.w2, iv_mul_le a.w3 a.w3]
  replace h := mov_inv h
  subst h
  simp only [F8.val, F4.val]
  linear_combination (2 ^ 448) * e35 + (-2 ^ 512) * zc35 + (2 ^ 384) * e34 + (2 ^ 384) * e33 + (2 ^ 320) * e32 + (2 ^ 256) * e31 + (2 ^ 256) * e30 + (2 ^ 192) * e29 + (2 ^ 128) * e28 + (2 ^ 128) * e27 + (2 ^ 64) * e26 + e25 + (2 ^ 64) * e24 + (2 ^ 128) * e23 + (2 ^ 192) * e22 + (2 ^ 256) * e21 + (2 ^ 320) * e20 + (2 ^ 384) * e19 + (2 ^ 448) * e18 + (-2 ^ 512) * zmv17 + (2 ^ 449) * e17 + (-2 ^ 513) * zc17 + (2 ^ 385) * e16 + (2 ^ 321) * e15 + (2 ^ 257) * e14 + (2 ^ 193) * e13 + (2 ^ 193) * e12 + (2 ^ 449) * e11 + (-2 ^ 513) * zc11 + (2 ^ 385) * e10 + (2 ^ 321) * e9 + (2 ^ 257) * e8 + (2 ^ 193) * e7 + (2 ^ 129) * e6 + (2 ^ 129) * e5 + (2 ^ 321) * e4 + (2 ^ 257) * e3 + (2 ^ 193) * e2 + (2 ^ 65) * e1 + (1020847100762815390427017310442723737601 * 2 ^ 321) * hz

theorem intsqr_mulq_val (a : F4) : (intsqr_mulq a).val = a.val ^ 2 := by
  generalize h : intsqr_mulq a = X
  unfold intsqr_mulq at h
  have hz : iv 0#64 = 0 := rfl
  have hf : bv false = 0 := rfl
  replace h := mov_inv h
  replace h := mov_inv h
  replace h := mulx_inv h; obtain ⟨l1, h1, e1, h⟩ := h
  replace h := mov_inv h
  replace h := mov_inv h
  replace h := mov_inv h
  replace h := mulx_inv h; obtain ⟨l2, h2, e2, h⟩ := h
  replace h := mov_inv h
  replace h := mov_inv h
  replace h := mov_inv h
  replace h := mulx_inv h; obtain ⟨l3, h3, e3, h⟩ := h
  replace h := mov_inv h
  replace h := mov_inv h
  replace h := mov_inv h
  replace h := mov_inv h
  replace h := mulx_inv h; obtain ⟨l4, h4, e4, h⟩ := h
  replace h := mov_inv h
  replace h := mov_inv h
  replace h := mov_inv h
  replace h := mulx_inv h; obtain ⟨l5, h5, e5, h⟩ := h
  replace h := add_inv h; obtain ⟨v6, c6, e6, h⟩ := h
  replace h := adc_inv h; obtain ⟨v7, c7, e7, h⟩ := h
  replace h := mov_inv h
  replace h := adc_inv h; obtain ⟨v8, c8, e8, h⟩ := h
  replace h := adc_inv h; obtain ⟨v9, c9, e9, h⟩ := h
  replace h := adc_inv h; obtain ⟨v10, c10, e10, h⟩ := h
  have zc10 : bv c10 = 0 := by
    refine dead (K := 2 ^ 449) (rest := (2 ^ 65) * (iv l1) + (2 ^ 129) * (iv v6) + (2 ^ 193) * (iv v7) + (2 ^ 257) * (iv v8) + (2 ^ 321) * (iv v9) + (2 ^ 385) * (iv v10)) (P := (2 ^ 65) * (iv a.w1 * iv a.w0) + (2 ^ 129) * (iv a.w2 * iv a.w0) + (2 ^ 193) * (iv a.w3 * iv a.w0) + (2 ^ 257) * (iv a.w1 * iv a.w3) + (2 ^ 321) * (iv a.w2 * iv a.w3)) (by linear_combination (2 ^ 65) * e1 + (2 ^ 129) * e2 + (2 ^ 193) * e3 + (2 ^ 257) * e4 + (2 ^ 321) * e5 + (2 ^ 129) * e6 + (2 ^ 193) * e7 + (2 ^ 257) * e8 + (2 ^ 321) * e9 + (2 ^ 385) * e10 + (2 ^ 385) * hz) ?_ ?_
    · linarith only [iv_nonneg l1, iv_nonneg v6, iv_nonneg v7, iv_nonneg v8, iv_nonneg v9, iv_nonneg v10]
    · linarith only [iv_mul_le a.w1 a.w0, iv_mul_le a.w2 a.w0, iv_mul_le a.w3 a.w0, iv_mul_le a.w1 a.w3, iv_mul_le a.w2 a.w3]
  replace h := mov_inv h
  replace h := mov_inv h
  replace h := mulx_inv h; obtain ⟨l11, h11, e11, h⟩ := h
  replace h := add_inv h; obtain ⟨v12, c12, e12, h⟩ := h
  replace h := adc_inv h; obtain ⟨v13, c13, e13, h⟩ := h
  replace h := adc_inv h; obtain ⟨v14, c14, e14, h⟩ := h
  replace h := adc_inv h; obtain ⟨v15, c15, e15, h⟩ := h
  replace h := adc_inv h; obtain ⟨v16, c16, e16, h⟩ := h
  have zc16 : bv c16 = 0 := by
    refine dead (K := 2 ^ 513) (rest := (2 ^ 193) * (iv v12) + (2 ^ 257) * (iv v13) + (2 ^ 321) * (iv v14) + (2 ^ 385) * (iv v15) + (2 ^ 449) * (iv v16)) (P := (2 ^ 193) * (iv v7) + (2 ^ 193) * (iv l11) + (2 ^ 257) * (iv v8) + (2 ^ 257) * (iv h11) + (2 ^ 321) * (iv v9) + (2 ^ 385) * (iv v10)) (by linear_combination (2 ^ 193) * e12 + (2 ^ 257) * e13 + (2 ^ 321) * e14 + (2 ^ 385) * e15 + (2 ^ 449) * e16 + (680564733841876926945195958937245974529 * 2 ^ 321) * hz) ?_ ?_
    · linarith only [iv_nonneg v12, iv_nonneg v13, iv_nonneg v14, iv_nonneg v15, iv_nonneg v16]
    · linarith only [iv_le v7, iv_le l11, iv_le v8, iv_le h11, iv_le v9, iv_le v10]
  have zmv16 : bv (v16).msb = 0 := by
    refine dead_msb (K := 2 ^ 449) (rest := (2 ^ 193) * (iv v12) + (2 ^ 257) * (iv v13) + (2 ^ 321) * (iv v14) + (2 ^ 385) * (iv v15)) (P := (2 ^ 193) * (iv v7) + (2 ^ 193) * (iv l11) + (2 ^ 257) * (iv v8) + (2 ^ 257) * (iv h11) + (2 ^ 321) * (iv v9) + (2 ^ 385) * (iv v10)) (by linear_combination (2 ^ 193) * e12 + (2 ^ 257) * e13 + (2 ^ 321) * e14 + (2 ^ 385) * e15 + (2 ^ 449) * e16 + (680564733841876926945195958937245974529 * 2 ^ 321) * hz + (-2 ^ 513) * zc16) ?_ ?_
    · linarith only [iv_nonneg v12, iv_nonneg v13, iv_nonneg v14, iv_nonneg v15]
    · linarith only [iv_le v7, iv_le l11, iv_le v8, iv_le h11, iv_le v9, iv_le v10]
  replace h := shld_inv h; obtain ⟨v17, e17, h⟩ := h
  replace h := mov_inv h
  replace h := shld_inv h; obtain ⟨v18, e18, h⟩ := h
  replace h := mov_inv h
  replace h := shld_inv h; obtain ⟨v19, e19, h⟩ := h
  replace h := mov_inv h
  replace h := shld_inv h; obtain ⟨v20, e20, h⟩ := h
  replace h := mov_inv h
  replace h := shld_inv h; obtain ⟨v21, e21, h⟩ := h
  replace h := mov_inv h
  replace h := shld_inv h; obtain ⟨v22, e22, h⟩ := h
  replace h := mov_inv h
  replace h := shl_inv h; obtain ⟨v23, e23, h⟩ := h
  replace h := mov_inv h
  replace h := mov_inv h
  replace h := mulx_inv h; obtain ⟨l24, h24, e24, h⟩ := h
  replace h := mov_inv h
  replace h := mov_inv h
  replace h := mov_inv h
  replace h := mulx_inv h; obtain ⟨l25, h25, e25, h⟩ := h
  replace h := mov_inv h
  replace h := mov_inv h
  replace h := mov_inv h
  replace h := mulx_inv h; obtain ⟨l26, h26, e26, h⟩ := h
  replace h := mov_inv h
  replace h := mov_inv h
  replace h := mov_inv h
  replace h := mulx_inv h; obtain ⟨l27, h27, e27, h⟩ := h
  replace h := mov_inv h
  replace h := mov_inv h
  replace h := add_inv h; obtain ⟨v28, c28, e28, h⟩ := h
  replace h := mov_inv h
  replace h := adc_inv h; obtain ⟨v29, c29, e29, h⟩ := h
  replace h := mov_inv h
  replace h := adc_inv h; obtain ⟨v30, c30, e30, h⟩ := h
  replace h := mov_inv h
  replace h := adc_inv h; obtain ⟨v31, c31, e31, h⟩ := h
  replace h := mov_inv h
  replace h := adc_inv h; obtain ⟨v32, c32, e32, h⟩ := h
  replace h := mov_inv h
  replace h := adc_inv h; obtain ⟨v33, c33, e33, h⟩ := h
  replace h := mov_inv h
  replace h := adc_inv h; obtain ⟨v34, c34, e34, h⟩ := h
  have zc34 : bv c34 = 0 := by
    refine dead (K := 2 ^ 512) (rest := iv l24 + (2 ^ 64) * (iv v28) + (2 ^ 128) * (iv v29) + (2 ^ 192) * (iv v30) + (2 ^ 256) * (iv v31) + (2 ^ 320) * (iv v32) + (2 ^ 384) * (iv v33) + (2 ^ 448) * (iv v34)) (P := (2 ^ 65) * (iv a.w1 * iv a.w0) + (2 ^ 129) * (iv a.w2 * iv a.w0) + (2 ^ 193) * (iv a.w3 * iv a.w0) + (2 ^ 257) * (iv a.w1 * iv a.w3) + (2 ^ 321) * (iv a.w2 * iv a.w3) + (2 ^ 193) * (iv a.w1 * iv a.w2) + iv a.w0 * iv a.w0 + (2 ^ 128) * (iv a.w1 * iv a.w1) + (2 ^ 256) * (iv a.w2 * iv a.w2) + (2 ^ 384) * (iv a.w3 * iv a.w3)) (by linear_combination (2 ^ 65) * e1 + (2 ^ 129) * e2 + (2 ^ 193) * e3 + (2 ^ 257) * e4 + (2 ^ 321) * e5 + (2 ^ 129) * e6 + (2 ^ 193) * e7 + (2 ^ 257) * e8 + (2 ^ 321) * e9 + (2 ^ 385) * e10 + (2 ^ 193) * e11 + (2 ^ 193) * e12 + (2 ^ 257) * e13 + (2 ^ 321) * e14 + (2 ^ 385) * e15 + (2 ^ 449) * e16 + (2 ^ 448) * e17 + (2 ^ 384) * e18 + (2 ^ 320) * e19 + (2 ^ 256) * e20 + (2 ^ 192) * e21 + (2 ^ 128) * e22 + (2 ^ 64) * e23 + e24 + (2 ^ 128) * e25 + (2 ^ 256) * e26 + (2 ^ 384) * e27 + (2 ^ 64) * e28 + (2 ^ 128) * e29 + (2 ^ 192) * e30 + (2 ^ 256) * e31 + (2 ^ 320) * e32 + (2 ^ 384) * e33 + (2 ^ 448) * e34 + (-2 ^ 449) * zc10 + (680564733841876926963642703010955526145 * 2 ^ 321) * hz + (-2 ^ 513) * zc16 + (-2 ^ 512) * zmv16) ?_ ?_
    · linarith only [iv_nonneg l24, iv_nonneg v28, iv_nonneg v29, iv_nonneg v30, iv_nonneg v31, iv_nonneg v32, iv_nonneg v33, iv_nonneg v34]
    · linarith only [iv_mul_le a.w1 a.w0, iv_mul_le a.w2 a.w0, iv_mul_le a.w3 a.w0, iv_mul_le a.w1 a.w3, iv_mul_le a.w2 a.w3, iv_mul_le a.w1 a.w2, iv_mul_le a.w0 a.w0, iv_mul_le a.w1 a.w1, iv_mul_le a.w2 a.w2, iv_mul_le a.w3 a.w3]
  replace h := mov_inv h
  subst h
  simp only [F8.val, F4.val]
  linear_combination (2 ^ 448) * e34 + (-2 ^ 512) * zc34 + (2 ^ 384) * e33 + (2 ^ 320) * e32 + (2 ^ 256) * e31 + (2 ^ 192) * e30 + (2 ^ 128) * e29 + (2 ^ 64) * e28 + (2 ^ 384) * e27 + (2 ^ 256) * e26 + (2 ^ 128) * e25 + e24 + (2 ^ 64) * e23 + (2 ^ 128) * e22 + (2 ^ 192) * e21 + (2 ^ 256) * e20 + (2 ^ 320) * e19 + (2 ^ 384) * e18 + (2 ^ 448) * e17 + (-2 ^ 512) * zmv16 + (2 ^ 449) * e16 + (-2 ^ 513) * zc16 + (2 ^ 385) * e15 + (2 ^ 321) * e14 + (2 ^ 257) * e13 + (2 ^ 193) * e12 + (2 ^ 193) * e11 + (2 ^ 385) * e10 + (-2 ^ 449) * zc10 + (2 ^ 321) * e9 + (2 ^ 257) * e8 + (2 ^ 193) * e7 + (2 ^ 129) * e6 + (2 ^ 321) * e5 + (2 ^ 257) * e4 + (2 ^ 193) * e3 + (2 ^ 129) * e2 + (2 ^ 65) * e1 + (680564733841876926963642703010955526145 * 2 ^ 321) * hz

end Verif.Fp25519.Asm
