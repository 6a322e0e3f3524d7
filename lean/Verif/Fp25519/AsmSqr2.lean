import Verif.Fp25519.Asm
import Verif.Fp25519.Lemmas

/-! # Paired integer squares

Helper lemmas: one linear identity per straight-line block. -/

namespace Verif.Fp25519.Asm

set_option maxRecDepth 4000
set_option linter.unusedVariables false
set_option exponentiation.threshold 2000

theorem intsqr2_mulxadx_val (a : F4 × F4) :
    (intsqr2_mulxadx a).1.val = a.1.val ^ 2 ∧ (intsqr2_mulxadx a).2.val = a.2.val ^ 2 := by
  generalize h : intsqr2_mulxadx a = X
  unfold intsqr2_mulxadx at h
  have hz : iv 0#64 = 0 := rfl
  have hf : bv false = 0 := rfl
  replace h := mov_inv h
  replace h := mulx_inv h; obtain ⟨l1, h1, e1, h⟩ := h
  replace h := xor0_inv h
  replace h := mulx_inv h; obtain ⟨l3, h3, e3, h⟩ := h
  replace h := adc_inv h; obtain ⟨v4, c4, e4, h⟩ := h
  replace h := mulx_inv h; obtain ⟨l5, h5, e5, h⟩ := h
  replace h := adc_inv h; obtain ⟨v6, c6, e6, h⟩ := h
  replace h := mov_inv h
  replace h := mulx_inv h; obtain ⟨l7, h7, e7, h⟩ := h
  replace h := adc_inv h; obtain ⟨v8, c8, e8, h⟩ := h
  replace h := mulx_inv h; obtain ⟨l9, h9, e9, h⟩ := h
  replace h := adc_inv h; obtain ⟨v10, c10, e10, h⟩ := h
  replace h := mov_inv h
  replace h := adc_inv h; obtain ⟨v11, c11, e11, h⟩ := h
  replace h := mulx_inv h; obtain ⟨l12, h12, e12, h⟩ := h
  replace h := mov_inv h
  replace h := adc_inv h; obtain ⟨v13, c13, e13, h⟩ := h
  have zc13 : bv c13 = 0 := by
    refine dead (K := 2 ^ 513) (rest := (2 ^ 129) * (iv v4) + (2 ^ 193) * (iv v6) + (2 ^ 257) * (iv v8) + (2 ^ 321) * (iv v10) + (2 ^ 385) * (iv v11) + (2 ^ 449) * (iv v13)) (P := (2 ^ 129) * (iv l3) + (2 ^ 129) * (iv h1) + (2 ^ 193) * (iv h3) + (2 ^ 193) * (iv l5) + (2 ^ 257) * (iv l7) + (2 ^ 257) * (iv h5) + (2 ^ 321) * (iv h7) + (2 ^ 321) * (iv l9) + (2 ^ 385) * (iv h9)) (by linear_combination (2 ^ 129) * e4 + (2 ^ 193) * e6 + (2 ^ 257) * e8 + (2 ^ 321) * e10 + (2 ^ 385) * e11 + (2 ^ 449) * e13 + (2 ^ 129) * hf + (36893488147419103233 * 2 ^ 385) * hz) ?_ ?_
    · linarith only [iv_nonneg v4, iv_nonneg v6, iv_nonneg v8, iv_nonneg v10, iv_nonneg v11, iv_nonneg v13]
    · linarith only [iv_le l3, iv_le h1, iv_le h3, iv_le l5, iv_le l7, iv_le h5, iv_le h7, iv_le l9, iv_le h9]
  replace h := xor0_inv h
  replace h := adc_inv h; obtain ⟨v15, c15, e15, h⟩ := h
  replace h := adc_inv h; obtain ⟨v16, c16, e16, h⟩ := h
  replace h := adc_inv h; obtain ⟨v17, c17, e17, h⟩ := h
  replace h := adc_inv h; obtain ⟨v18, c18, e18, h⟩ := h
  replace h := adc_inv h; obtain ⟨v19, c19, e19, h⟩ := h
  replace h := adc_inv h; obtain ⟨v20, c20, e20, h⟩ := h
  replace h := adc_inv h; obtain ⟨v21, c21, e21, h⟩ := h
  replace h := adc_inv h; obtain ⟨v22, c22, e22, h⟩ := h
  replace h := adc_inv h; obtain ⟨v23, c23, e23, h⟩ := h
  have zc23 : bv c23 = 0 := by
    refine dead (K := 2 ^ 513) (rest := (2 ^ 129) * (iv v4) + (2 ^ 193) * (iv v15) + (2 ^ 257) * (iv v17) + (2 ^ 321) * (iv v19) + (2 ^ 385) * (iv v21) + (2 ^ 449) * (iv v23)) (P := (2 ^ 129) * (iv l3) + (2 ^ 129) * (iv h1) + (2 ^ 193) * (iv h3) + (2 ^ 193) * (iv l5) + (2 ^ 257) * (iv l7) + (2 ^ 257) * (iv h5) + (2 ^ 321) * (iv h7) + (2 ^ 321) * (iv l9) + (2 ^ 385) * (iv h9) + (2 ^ 193) * (iv a.1.w1 * iv a.1.w2)) (by linear_combination (2 ^ 129) * e4 + (2 ^ 193) * e6 + (2 ^ 257) * e8 + (2 ^ 321) * e10 + (2 ^ 385) * e11 + (2 ^ 193) * e12 + (2 ^ 449) * e13 + (2 ^ 193) * e15 + (2 ^ 257) * e17 + (2 ^ 321) * e19 + (2 ^ 385) * e21 + (2 ^ 449) * e23 + (18446744073709551617 * 2 ^ 129) * hf + (1020847100762815390427017310442723737601 * 2 ^ 321) * hz + (-2 ^ 513) * zc13) ?_ ?_
    · linarith only [iv_nonneg v4, iv_nonneg v15, iv_nonneg v17, iv_nonneg v19, iv_nonneg v21, iv_nonneg v23]
    · linarith only [iv_le l3, iv_le h1, iv_le h3, iv_le l5, iv_le l7, iv_le h5, iv_le h7, iv_le l9, iv_le h9, iv_mul_le a.1.w1 a.1.w2]
  replace h := adc_inv h; obtain ⟨v24, c24, e24, h⟩ := h
  replace h := adc_inv h; obtain ⟨v25, c25, e25, h⟩ := h
  replace h := adc_inv h; obtain ⟨v26, c26, e26, h⟩ := h
  have zc26 : bv c26 = 0 := by
    refine dead (K := 2 ^ 512) (rest := (2 ^ 64) * (iv v16) + (2 ^ 128) * (iv v18) + (2 ^ 192) * (iv v20) + (2 ^ 256) * (iv v22) + (2 ^ 320) * (iv v24) + (2 ^ 384) * (iv v25) + (2 ^ 448) * (iv v26)) (P := (2 ^ 65) * (iv a.1.w0 * iv a.1.w1) + (2 ^ 129) * (iv l3) + (2 ^ 193) * (iv h3) + (2 ^ 193) * (iv l5) + (2 ^ 257) * (iv l7) + (2 ^ 257) * (iv h5) + (2 ^ 321) * (iv h7) + (2 ^ 321) * (iv l9) + (2 ^ 385) * (iv h9) + (2 ^ 193) * (iv a.1.w1 * iv a.1.w2)) (by linear_combination (2 ^ 65) * e1 + (2 ^ 129) * e4 + (2 ^ 193) * e6 + (2 ^ 257) * e8 + (2 ^ 321) * e10 + (2 ^ 385) * e11 + (2 ^ 193) * e12 + (2 ^ 449) * e13 + (2 ^ 193) * e15 + (2 ^ 64) * e16 + (2 ^ 257) * e17 + (2 ^ 128) * e18 + (2 ^ 321) * e19 + (2 ^ 192) * e20 + (2 ^ 385) * e21 + (2 ^ 256) * e22 + (2 ^ 449) * e23 + (2 ^ 320) * e24 + (2 ^ 384) * e25 + (2 ^ 448) * e26 + (680564733841876926963642703010955526145 * 2 ^ 64) * hf + (1020847100762815390427017310442723737601 * 2 ^ 321) * hz + (-2 ^ 513) * zc13 + (-2 ^ 513) * zc23) ?_ ?_
    · linarith only [iv_nonneg v16, iv_nonneg v18, iv_nonneg v20, iv_nonneg v22, iv_nonneg v24, iv_nonneg v25, iv_nonneg v26]
    · linarith only [iv_mul_le a.1.w0 a.1.w1, iv_le l3, iv_le h3, iv_le l5, iv_le l7, iv_le h5, iv_le h7, iv_le l9, iv_le h9, iv_mul_le a.1.w1 a.1.w2]
  replace h := mov_inv h
  replace h := mulx_inv h; obtain ⟨l27, h27, e27, h⟩ := h
  replace h := mov_inv h
  replace h := add_inv h; obtain ⟨v28, c28, e28, h⟩ := h
  replace h := mov_inv h
  replace h := mov_inv h
  replace h := mulx_inv h; obtain ⟨l29, h29, e29, h⟩ := h
  replace h := adc_inv h; obtain ⟨v30, c30, e30, h⟩ := h
  replace h := mov_inv h
  replace h := adc_inv h; obtain ⟨v31, c31, e31, h⟩ := h
  replace h := mov_inv h
  replace h := mov_inv h
  replace h := mulx_inv h; obtain ⟨l32, h32, e32, h⟩ := h
  replace h := adc_inv h; obtain ⟨v33, c33, e33, h⟩ := h
  replace h := mov_inv h
  replace h := adc_inv h; obtain ⟨v34, c34, e34, h⟩ := h
  replace h := mov_inv h
  replace h := mov_inv h
  replace h := mulx_inv h; obtain ⟨l35, h35, e35, h⟩ := h
  replace h := adc_inv h; obtain ⟨v36, c36, e36, h⟩ := h
  replace h := mov_inv h
  replace h := adc_inv h; obtain ⟨v37, c37, e37, h⟩ := h
  have zc37 : bv c37 = 0 := by
    refine dead (K := 2 ^ 512) (rest := iv l27 + (2 ^ 64) * (iv v28) + (2 ^ 128) * (iv v30) + (2 ^ 192) * (iv v31) + (2 ^ 256) * (iv v33) + (2 ^ 320) * (iv v34) + (2 ^ 384) * (iv v36) + (2 ^ 448) * (iv v37)) (P := (2 ^ 65) * (iv a.1.w0 * iv a.1.w1) + (2 ^ 129) * (iv a.1.w0 * iv a.1.w2) + (2 ^ 193) * (iv a.1.w0 * iv a.1.w3) + (2 ^ 257) * (iv a.1.w3 * iv a.1.w1) + (2 ^ 321) * (iv a.1.w3 * iv a.1.w2) + (2 ^ 193) * (iv a.1.w1 * iv a.1.w2) + iv a.1.w0 * iv a.1.w0 + (2 ^ 128) * (iv a.1.w1 * iv a.1.w1) + (2 ^ 256) * (iv a.1.w2 * iv a.1.w2) + (2 ^ 384) * (iv a.1.w3 * iv a.1.w3)) (by linear_combination (2 ^ 65) * e1 + (2 ^ 129) * e3 + (2 ^ 129) * e4 + (2 ^ 193) * e5 + (2 ^ 193) * e6 + (2 ^ 257) * e7 + (2 ^ 257) * e8 + (2 ^ 321) * e9 + (2 ^ 321) * e10 + (2 ^ 385) * e11 + (2 ^ 193) * e12 + (2 ^ 449) * e13 + (2 ^ 193) * e15 + (2 ^ 64) * e16 + (2 ^ 257) * e17 + (2 ^ 128) * e18 + (2 ^ 321) * e19 + (2 ^ 192) * e20 + (2 ^ 385) * e21 + (2 ^ 256) * e22 + (2 ^ 449) * e23 + (2 ^ 320) * e24 + (2 ^ 384) * e25 + (2 ^ 448) * e26 + e27 + (2 ^ 64) * e28 + (2 ^ 128) * e29 + (2 ^ 128) * e30 + (2 ^ 192) * e31 + (2 ^ 256) * e32 + (2 ^ 256) * e33 + (2 ^ 320) * e34 + (2 ^ 384) * e35 + (2 ^ 384) * e36 + (2 ^ 448) * e37 + (680564733841876926963642703010955526145 * 2 ^ 64) * hf + (1020847100762815390427017310442723737601 * 2 ^ 321) * hz + (-2 ^ 513) * zc13 + (-2 ^ 513) * zc23 + (-2 ^ 512) * zc26) ?_ ?_
    · linarith only [iv_nonneg l27, iv_nonneg v28, iv_nonneg v30, iv_nonneg v31, iv_nonneg v33, iv_nonneg v34, iv_nonneg v36, iv_nonneg v37]
    · linarith only [iv_mul_le a.1.w0 a.1.w1, iv_mul_le a.1.w0 a.1.w2, iv_mul_le a.1.w0 a.1.w3, iv_mul_le a.1.w3 a.1.w1, iv_mul_le a.1.w3 a.1.w2, iv_mul_le a.1.w1 a.1.w2, iv_mul_le a.1.w0 a.1.w0, iv_mul_le a.1.w1 a.1.w1, iv_mul_le a.1.w2 a.1.w2, iv_mul_le a.1.w3 a.1.w3]
  replace h := mov_inv h
  replace h := mov_inv h
  replace h := mulx_inv h; obtain ⟨l38, h38, e38, h⟩ := h
  replace h := xor0_inv h
  replace h := mulx_inv h; obtain ⟨l40, h40, e40, h⟩ := h
  replace h := adc_inv h; obtain ⟨v41, c41, e41, h⟩ := h
  replace h := mulx_inv h; obtain ⟨l42, h42, e42, h⟩ := h
  replace h := adc_inv h; obtain ⟨v43, c43, e43, h⟩ := h
  replace h := mov_inv h
  replace h := mulx_inv h; obtain ⟨l44, h44, e44, h⟩ := h
  replace h := adc_inv h; obtain ⟨v45, c45, e45, h⟩ := h
  replace h := mulx_inv h; obtain ⟨l46, h46, e46, h⟩ := h
  replace h := adc_inv h; obtain ⟨v47, c47, e47, h⟩ := h
  replace h := mov_inv h
  replace h := adc_inv h; obtain ⟨v48, c48, e48, h⟩ := h
  replace h := mulx_inv h; obtain ⟨l49, h49, e49, h⟩ := h
  replace h := mov_inv h
  replace h := adc_inv h; obtain ⟨v50, c50, e50, h⟩ := h
  have zc50 : bv c50 = 0 := by
    refine dead (K := 2 ^ 513) (rest := (2 ^ 129) * (iv v41) + (2 ^ 193) * (iv v43) + (2 ^ 257) * (iv v45) + (2 ^ 321) * (iv v47) + (2 ^ 385) * (iv v48) + (2 ^ 449) * (iv v50)) (P := (2 ^ 129) * (iv l40) + (2 ^ 129) * (iv h38) + (2 ^ 193) * (iv h40) + (2 ^ 193) * (iv l42) + (2 ^ 257) * (iv l44) + (2 ^ 257) * (iv h42) + (2 ^ 321) * (iv h44) + (2 ^ 321) * (iv l46) + (2 ^ 385) * (iv h46)) (by linear_combination (2 ^ 129) * e41 + (2 ^ 193) * e43 + (2 ^ 257) * e45 + (2 ^ 321) * e47 + (2 ^ 385) * e48 + (2 ^ 449) * e50 + (2 ^ 129) * hf + (36893488147419103233 * 2 ^ 385) * hz) ?_ ?_
    · linarith only [iv_nonneg v41, iv_nonneg v43, iv_nonneg v45, iv_nonneg v47, iv_nonneg v48, iv_nonneg v50]
    · linarith only [iv_le l40, iv_le h38, iv_le h40, iv_le l42, iv_le l44, iv_le h42, iv_le h44, iv_le l46, iv_le h46]
  replace h := xor0_inv h
  replace h := adc_inv h; obtain ⟨v52, c52, e52, h⟩ := h
  replace h := adc_inv h; obtain ⟨v53, c53, e53, h⟩ := h
  replace h := adc_inv h; obtain ⟨v54, c54, e54, h⟩ := h
  replace h := adc_inv h; obtain ⟨v55, c55, e55, h⟩ := h
  replace h := adc_inv h; obtain ⟨v56, c56, e56, h⟩ := h
  replace h := adc_inv h; obtain ⟨v57, c57, e57, h⟩ := h
  replace h := adc_inv h; obtain ⟨v58, c58, e58, h⟩ := h
  replace h := adc_inv h; obtain ⟨v59, c59, e59, h⟩ := h
  replace h := adc_inv h; obtain ⟨v60, c60, e60, h⟩ := h
  have zc60 : bv c60 = 0 := by
    refine dead (K := 2 ^ 513) (rest := (2 ^ 129) * (iv v41) + (2 ^ 193) * (iv v52) + (2 ^ 257) * (iv v54) + (2 ^ 321) * (iv v56) + (2 ^ 385) * (iv v58) + (2 ^ 449) * (iv v60)) (P := (2 ^ 129) * (iv l40) + (2 ^ 129) * (iv h38) + (2 ^ 193) * (iv h40) + (2 ^ 193) * (iv l42) + (2 ^ 257) * (iv l44) + (2 ^ 257) * (iv h42) + (2 ^ 321) * (iv h44) + (2 ^ 321) * (iv l46) + (2 ^ 385) * (iv h46) + (2 ^ 193) * (iv a.2.w1 * iv a.2.w2)) (by linear_combination (2 ^ 129) * e41 + (2 ^ 193) * e43 + (2 ^ 257) * e45 + (2 ^ 321) * e47 + (2 ^ 385) * e48 + (2 ^ 193) * e49 + (2 ^ 449) * e50 + (2 ^ 193) * e52 + (2 ^ 257) * e54 + (2 ^ 321) * e56 + (2 ^ 385) * e58 + (2 ^ 449) * e60 + (18446744073709551617 * 2 ^ 129) * hf + (1020847100762815390427017310442723737601 * 2 ^ 321) * hz + (-2 ^ 513) * zc50) ?_ ?_
    · linarith only [iv_nonneg v41, iv_nonneg v52, iv_nonneg v54, iv_nonneg v56, iv_nonneg v58, iv_nonneg v60]
    · linarith only [iv_le l40, iv_le h38, iv_le h40, iv_le l42, iv_le l44, iv_le h42, iv_le h44, iv_le l46, iv_le h46, iv_mul_le a.2.w1 a.2.w2]
  replace h := adc_inv h; obtain ⟨v61, c61, e61, h⟩ := h
  replace h := adc_inv h; obtain ⟨v62, c62, e62, h⟩ := h
  replace h := adc_inv h; obtain ⟨v63, c63, e63, h⟩ := h
  have zc63 : bv c63 = 0 := by
    refine dead (K := 2 ^ 512) (rest := (2 ^ 64) * (iv v53) + (2 ^ 128) * (iv v55) + (2 ^ 192) * (iv v57) + (2 ^ 256) * (iv v59) + (2 ^ 320) * (iv v61) + (2 ^ 384) * (iv v62) + (2 ^ 448) * (iv v63)) (P := (2 ^ 65) * (iv a.2.w0 * iv a.2.w1) + (2 ^ 129) * (iv l40) + (2 ^ 193) * (iv h40) + (2 ^ 193) * (iv l42) + (2 ^ 257) * (iv l44) + (2 ^ 257) * (iv h42) + (2 ^ 321) * (iv h44) + (2 ^ 321) * (iv l46) + (2 ^ 385) * (iv h46) + (2 ^ 193) * (iv a.2.w1 * iv a.2.w2)) (by linear_combination (2 ^ 65) * e38 + (2 ^ 129) * e41 + (2 ^ 193) * e43 + (2 ^ 257) * e45 + (2 ^ 321) * e47 + (2 ^ 385) * e48 + (2 ^ 193) * e49 + (2 ^ 449) * e50 + (2 ^ 193) * e52 + (2 ^ 64) * e53 + (2 ^ 257) * e54 + (2 ^ 128) * e55 + (2 ^ 321) * e56 + (2 ^ 192) * e57 + (2 ^ 385) * e58 + (2 ^ 256) * e59 + (2 ^ 449) * e60 + (2 ^ 320) * e61 + (2 ^ 384) * e62 + (2 ^ 448) * e63 + (680564733841876926963642703010955526145 * 2 ^ 64) * hf + (1020847100762815390427017310442723737601 * 2 ^ 321) * hz + (-2 ^ 513) * zc50 + (-2 ^ 513) * zc60) ?_ ?_
    · linarith only [iv_nonneg v53, iv_nonneg v55, iv_nonneg v57, iv_nonneg v59, iv_nonneg v61, iv_nonneg v62, iv_nonneg v63]
    · linarith only [iv_mul_le a.2.w0 a.2.w1, iv_le l40, iv_le h40, iv_le l42, iv_le l44, iv_le h42, iv_le h44, iv_le l46, iv_le h46, iv_mul_le a.2.w1 a.2.w2]
  replace h := mov_inv h
  replace h := mulx_inv h; obtain ⟨l64, h64, e64, h⟩ := h
  replace h := mov_inv h
  replace h := add_inv h; obtain ⟨v65, c65, e65, h⟩ := h
  replace h := mov_inv h
  replace h := mov_inv h
  replace h := mulx_inv h; obtain ⟨l66, h66, e66, h⟩ := h
  replace h := adc_inv h; obtain ⟨v67, c67, e67, h⟩ := h
  replace h := mov_inv h
  replace h := adc_inv h; obtain ⟨v68, c68, e68, h⟩ := h
  replace h := mov_inv h
  replace h := mov_inv h
  replace h := mulx_inv h; obtain ⟨l69, h69, e69, h⟩ := h
  replace h := adc_inv h; obtain ⟨v70, c70, e70, h⟩ := h
  replace h := mov_inv h
  replace h := adc_inv h; obtain ⟨v71, c71, e71, h⟩ := h
  replace h := mov_inv h
  replace h := mov_inv h
  replace h := mulx_inv h; obtain ⟨l72, h72, e72, h⟩ := h
  replace h := adc_inv h; obtain ⟨v73, c73, e73, h⟩ := h
  replace h := mov_inv h
  replace h := adc_inv h; obtain ⟨v74, c74, e74, h⟩ := h
  have zc74 : bv c74 = 0 := by
    refine dead (K := 2 ^ 512) (rest := iv l64 + (2 ^ 64) * (iv v65) + (2 ^ 128) * (iv v67) + (2 ^ 192) * (iv v68) + (2 ^ 256) * (iv v70) + (2 ^ 320) * (iv v71) + (2 ^ 384) * (iv v73) + (2 ^ 448) * (iv v74)) (P := (2 ^ 65) * (iv a.2.w0 * iv a.2.w1) + (2 ^ 129) * (iv a.2.w0 * iv a.2.w2) + (2 ^ 193) * (iv a.2.w0 * iv a.2.w3) + (2 ^ 257) * (iv a.2.w3 * iv a.2.w1) + (2 ^ 321) * (iv a.2.w3 * iv a.2.w2) + (2 ^ 193) * (iv a.2.w1 * iv a.2.w2) + iv a.2.w0 * iv a.2.w0 + (2 ^ 128) * (iv a.2.w1 * iv a.2.w1) + (2 ^ 256) * (iv a.2.w2 * iv a.2.w2) + (2 ^ 384) * (iv a.2.w3 * iv a.2.w3)) (by linear_combination (2 ^ 65) * e38 + (2 ^ 129) * e40 + (2 ^ 129) * e41 + (2 ^ 193) * e42 + (2 ^ 193) * e43 + (2 ^ 257) * e44 + (2 ^ 257) * e45 + (2 ^ 321) * e46 + (2 ^ 321) * e47 + (2 ^ 385) * e48 + (2 ^ 193) * e49 + (2 ^ 449) * e50 + (2 ^ 193) * e52 + (2 ^ 64) * e53 + (2 ^ 257) * e54 + (2 ^ 128) * e55 + (2 ^ 321) * e56 + (2 ^ 192) * e57 + (2 ^ 385) * e58 + (2 ^ 256) * e59 + (2 ^ 449) * e60 + (2 ^ 320) * e61 + (2 ^ 384) * e62 + (2 ^ 448) * e63 + e64 + (2 ^ 64) * e65 + (2 ^ 128) * e66 + (2 ^ 128) * e67 + (2 ^ 192) * e68 + (2 ^ 256) * e69 + (2 ^ 256) * e70 + (2 ^ 320) * e71 + (2 ^ 384) * e72 + (2 ^ 384) * e73 + (2 ^ 448) * e74 + (680564733841876926963642703010955526145 * 2 ^ 64) * hf + (1020847100762815390427017310442723737601 * 2 ^ 321) * hz + (-2 ^ 513) * zc50 + (-2 ^ 513) * zc60 + (-2 ^ 512) * zc63) ?_ ?_
    · linarith only [iv_nonneg l64, iv_nonneg v65, iv_nonneg v67, iv_nonneg v68, iv_nonneg v70, iv_nonneg v71, iv_nonneg v73, iv_nonneg v74]
    · linarith only [iv_mul_le a.2.w0 a.2.w1, iv_mul_le a.2.w0 a.2.w2, iv_mul_le a.2.w0 a.2.w3, iv_mul_le a.2.w3 a.2.w1, iv_mul_le a.2.w3 a.2.w2, iv_mul_le a.2.w1 a.2.w2, iv_mul_le a.2.w0 a.2.w0, iv_mul_le a.2.w1 a.2.w1, iv_mul_le a.2.w2 a.2.w2, iv_mul_le a.2.w3 a.2.w3]
  replace h := mov_inv h
  subst h
  simp only [F8.val, F4.val]
  constructor
  · linear_combination (2 ^ 448) * e37 + (-2 ^ 512) * zc37 + (2 ^ 384) * e36 + (2 ^ 384) * e35 + (2 ^ 320) * e34 + (2 ^ 256) * e33 + (2 ^ 256) * e32 + (2 ^ 192) * e31 + (2 ^ 128) * e30 + (2 ^ 128) * e29 + (2 ^ 64) * e28 + e27 + (2 ^ 448) * e26 + (-2 ^ 512) * zc26 + (2 ^ 384) * e25 + (2 ^ 320) * e24 + (2 ^ 449) * e23 + (-2 ^ 513) * zc23 + (2 ^ 256) * e22 + (2 ^ 385) * e21 + (2 ^ 192) * e20 + (2 ^ 321) * e19 + (2 ^ 128) * e18 + (2 ^ 257) * e17 + (2 ^ 64) * e16 + (2 ^ 193) * e15 + (2 ^ 449) * e13 + (-2 ^ 513) * zc13 + (2 ^ 193) * e12 + (2 ^ 385) * e11 + (2 ^ 321) * e10 + (2 ^ 321) * e9 + (2 ^ 257) * e8 + (2 ^ 257) * e7 + (2 ^ 193) * e6 + (2 ^ 193) * e5 + (2 ^ 129) * e4 + (2 ^ 129) * e3 + (2 ^ 65) * e1 + (1020847100762815390427017310442723737601 * 2 ^ 321) * hz + (680564733841876926963642703010955526145 * 2 ^ 64) * hf
  · linear_combination (2 ^ 448) * e74 + (-2 ^ 512) * zc74 + (2 ^ 384) * e73 + (2 ^ 384) * e72 + (2 ^ 320) * e71 + (2 ^ 256) * e70 + (2 ^ 256) * e69 + (2 ^ 192) * e68 + (2 ^ 128) * e67 + (2 ^ 128) * e66 + (2 ^ 64) * e65 + e64 + (2 ^ 448) * e63 + (-2 ^ 512) * zc63 + (2 ^ 384) * e62 + (2 ^ 320) * e61 + (2 ^ 449) * e60 + (-2 ^ 513) * zc60 + (2 ^ 256) * e59 + (2 ^ 385) * e58 + (2 ^ 192) * e57 + (2 ^ 321) * e56 + (2 ^ 128) * e55 + (2 ^ 257) * e54 + (2 ^ 64) * e53 + (2 ^ 193) * e52 + (2 ^ 449) * e50 + (-2 ^ 513) * zc50 + (2 ^ 193) * e49 + (2 ^ 385) * e48 + (2 ^ 321) * e47 + (2 ^ 321) * e46 + (2 ^ 257) * e45 + (2 ^ 257) * e44 + (2 ^ 193) * e43 + (2 ^ 193) * e42 + (2 ^ 129) * e41 + (2 ^ 129) * e40 + (2 ^ 65) * e38 + (1020847100762815390427017310442723737601 * 2 ^ 321) * hz + (680564733841876926963642703010955526145 * 2 ^ 64) * hf

theorem intsqr2_mulx_val (a : F4 × F4) :
    (intsqr2_mulx a).1.val = a.1.val ^ 2 ∧ (intsqr2_mulx a).2.val = a.2.val ^ 2 := by
  generalize h : intsqr2_mulx a = X
  unfold intsqr2_mulx at h
  have hz : iv 0#64 = 0 := rfl
  have hf : bv false = 0 := rfl
  replace h := mov_inv h
  replace h := mulx_inv h; obtain ⟨l1, h1, e1, h⟩ := h
  replace h := mulx_inv h; obtain ⟨l2, h2, e2, h⟩ := h
  replace h := mulx_inv h; obtain ⟨l3, h3, e3, h⟩ := h
  replace h := mov_inv h
  replace h := mulx_inv h; obtain ⟨l4, h4, e4, h⟩ := h
  replace h := mulx_inv h; obtain ⟨l5, h5, e5, h⟩ := h
  replace h := add_inv h; obtain ⟨v6, c6, e6, h⟩ := h
  replace h := adc_inv h; obtain ⟨v7, c7, e7, h⟩ := h
  replace h := adc_inv h; obtain ⟨v8, c8, e8, h⟩ := h
  replace h := adc_inv h; obtain ⟨v9, c9, e9, h⟩ := h
  replace h := adc_inv h; obtain ⟨v10, c10, e10, h⟩ := h
  replace h := mov_inv h
  replace h := adc_inv h; obtain ⟨v11, c11, e11, h⟩ := h
  have zc11 : bv c11 = 0 := by
    refine dead (K := 2 ^ 513) (rest := (2 ^ 129) * (iv v6) + (2 ^ 193) * (iv v7) + (2 ^ 257) * (iv v8) + (2 ^ 321) * (iv v9) + (2 ^ 385) * (iv v10) + (2 ^ 449) * (iv v11)) (P := (2 ^ 129) * (iv h1) + (2 ^ 129) * (iv l5) + (2 ^ 193) * (iv l2) + (2 ^ 193) * (iv h5) + (2 ^ 257) * (iv h2) + (2 ^ 257) * (iv l3) + (2 ^ 321) * (iv l4) + (2 ^ 321) * (iv h3) + (2 ^ 385) * (iv h4)) (by linear_combination (2 ^ 129) * e6 + (2 ^ 193) * e7 + (2 ^ 257) * e8 + (2 ^ 321) * e9 + (2 ^ 385) * e10 + (2 ^ 449) * e11 + (36893488147419103233 * 2 ^ 385) * hz) ?_ ?_
    · linarith only [iv_nonneg v6, iv_nonneg v7, iv_nonneg v8, iv_nonneg v9, iv_nonneg v10, iv_nonneg v11]
    · linarith only [iv_le h1, iv_le l5, iv_le l2, iv_le h5, iv_le h2, iv_le l3, iv_le l4, iv_le h3, iv_le h4]
  replace h := mov_inv h
  replace h := mulx_inv h; obtain ⟨l12, h12, e12, h⟩ := h
  replace h := add_inv h; obtain ⟨v13, c13, e13, h⟩ := h
  replace h := adc_inv h; obtain ⟨v14, c14, e14, h⟩ := h
  replace h := adc_inv h; obtain ⟨v15, c15, e15, h⟩ := h
  replace h := adc_inv h; obtain ⟨v16, c16, e16, h⟩ := h
  replace h := adc_inv h; obtain ⟨v17, c17, e17, h⟩ := h
  have zc17 : bv c17 = 0 := by
    refine dead (K := 2 ^ 513) (rest := (2 ^ 129) * (iv v6) + (2 ^ 193) * (iv v13) + (2 ^ 257) * (iv v14) + (2 ^ 321) * (iv v15) + (2 ^ 385) * (iv v16) + (2 ^ 449) * (iv v17)) (P := (2 ^ 129) * (iv h1) + (2 ^ 129) * (iv l5) + (2 ^ 193) * (iv l2) + (2 ^ 193) * (iv h5) + (2 ^ 257) * (iv h2) + (2 ^ 257) * (iv l3) + (2 ^ 321) * (iv l4) + (2 ^ 321) * (iv h3) + (2 ^ 385) * (iv h4) + (2 ^ 193) * (iv a.1.w0 * iv a.1.w3)) (by linear_combination (2 ^ 129) * e6 + (2 ^ 193) * e7 + (2 ^ 257) * e8 + (2 ^ 321) * e9 + (2 ^ 385) * e10 + (2 ^ 449) * e11 + (2 ^ 193) * e12 + (2 ^ 193) * e13 + (2 ^ 257) * e14 + (2 ^ 321) * e15 + (2 ^ 385) * e16 + (2 ^ 449) * e17 + (1020847100762815390427017310442723737601 * 2 ^ 321) * hz + (-2 ^ 513) * zc11) ?_ ?_
    · linarith only [iv_nonneg v6, iv_nonneg v13, iv_nonneg v14, iv_nonneg v15, iv_nonneg v16, iv_nonneg v17]
    · linarith only [iv_le h1, iv_le l5, iv_le l2, iv_le h5, iv_le h2, iv_le l3, iv_le l4, iv_le h3, iv_le h4, iv_mul_le a.1.w0 a.1.w3]
  have zmv17 : bv (v17).msb = 0 := by
    refine dead_msb (K := 2 ^ 449) (rest := (2 ^ 129) * (iv v6) + (2 ^ 193) * (iv v13) + (2 ^ 257) * (iv v14) + (2 ^ 321) * (iv v15) + (2 ^ 385) * (iv v16)) (P := (2 ^ 129) * (iv h1) + (2 ^ 129) * (iv l5) + (2 ^ 193) * (iv l2) + (2 ^ 193) * (iv h5) + (2 ^ 257) * (iv h2) + (2 ^ 257) * (iv l3) + (2 ^ 321) * (iv l4) + (2 ^ 321) * (iv h3) + (2 ^ 385) * (iv h4) + (2 ^ 193) * (iv a.1.w0 * iv a.1.w3)) (by linear_combination (2 ^ 129) * e6 + (2 ^ 193) * e7 + (2 ^ 257) * e8 + (2 ^ 321) * e9 + (2 ^ 385) * e10 + (2 ^ 449) * e11 + (2 ^ 193) * e12 + (2 ^ 193) * e13 + (2 ^ 257) * e14 + (2 ^ 321) * e15 + (2 ^ 385) * e16 + (2 ^ 449) * e17 + (1020847100762815390427017310442723737601 * 2 ^ 321) * hz + (-2 ^ 513) * zc11 + (-2 ^ 513) * zc17) ?_ ?_
    · linarith only [iv_nonneg v6, iv_nonneg v13, iv_nonneg v14, iv_nonneg v15, iv_nonneg v16]
    · linarith only [iv_le h1, iv_le l5, iv_le l2, iv_le h5, iv_le h2, iv_le l3, iv_le l4, iv_le h3, iv_le h4, iv_mul_le a.1.w0 a.1.w3]
  replace h := shld_inv h; obtain ⟨v18, e18, h⟩ := h
  replace h := shld_inv h; obtain ⟨v19, e19, h⟩ := h
  replace h := shld_inv h; obtain ⟨v20, e20, h⟩ := h
  replace h := shld_inv h; obtain ⟨v21, e21, h⟩ := h
  replace h := shld_inv h; obtain ⟨v22, e22, h⟩ := h
  replace h := shld_inv h; obtain ⟨v23, e23, h⟩ := h
  replace h := shl_inv h; obtain ⟨v24, e24, h⟩ := h
  replace h := mulx_inv h; obtain ⟨l25, h25, e25, h⟩ := h
  replace h := mov_inv h
  replace h := add_inv h; obtain ⟨v26, c26, e26, h⟩ := h
  replace h := mov_inv h
  replace h := mov_inv h
  replace h := mulx_inv h; obtain ⟨l27, h27, e27, h⟩ := h
  replace h := adc_inv h; obtain ⟨v28, c28, e28, h⟩ := h
  replace h := mov_inv h
  replace h := adc_inv h; obtain ⟨v29, c29, e29, h⟩ := h
  replace h := mov_inv h
  replace h := mov_inv h
  replace h := mulx_inv h; obtain ⟨l30, h30, e30, h⟩ := h
  replace h := adc_inv h; obtain ⟨v31, c31, e31, h⟩ := h
  replace h := mov_inv h
  replace h := adc_inv h; obtain ⟨v32, c32, e32, h⟩ := h
  replace h := mov_inv h
  replace h := mov_inv h
  replace h := mulx_inv h; obtain ⟨l33, h33, e33, h⟩ := h
  replace h := adc_inv h; obtain ⟨v34, c34, e34, h⟩ := h
  replace h := mov_inv h
  replace h := adc_inv h; obtain ⟨v35, c35, e35, h⟩ := h
  have zc35 : bv c35 = 0 := by
    refine dead (K := 2 ^ 512) (rest := iv l25 + (2 ^ 64) * (iv v26) + (2 ^ 128) * (iv v28) + (2 ^ 192) * (iv v29) + (2 ^ 256) * (iv v31) + (2 ^ 320) * (iv v32) + (2 ^ 384) * (iv v34) + (2 ^ 448) * (iv v35)) (P := (2 ^ 65) * (iv a.1.w1 * iv a.1.w0) + (2 ^ 193) * (iv a.1.w1 * iv a.1.w2) + (2 ^ 257) * (iv a.1.w1 * iv a.1.w3) + (2 ^ 321) * (iv a.1.w2 * iv a.1.w3) + (2 ^ 129) * (iv a.1.w2 * iv a.1.w0) + (2 ^ 193) * (iv a.1.w0 * iv a.1.w3) + iv a.1.w0 * iv a.1.w0 + (2 ^ 128) * (iv a.1.w1 * iv a.1.w1) + (2 ^ 256) * (iv a.1.w2 * iv a.1.w2) + (2 ^ 384) * (iv a.1.w3 * iv a.1.w3)) (by linear_combination (2 ^ 65) * e1 + (2 ^ 193) * e2 + (2 ^ 257) * e3 + (2 ^ 321) * e4 + (2 ^ 129) * e5 + (2 ^ 129) * e6 + (2 ^ 193) * e7 + (2 ^ 257) * e8 + (2 ^ 321) * e9 + (2 ^ 385) * e10 + (2 ^ 449) * e11 + (2 ^ 193) * e12 + (2 ^ 193) * e13 + (2 ^ 257) * e14 + (2 ^ 321) * e15 + (2 ^ 385) * e16 + (2 ^ 449) * e17 + (2 ^ 448) * e18 + (2 ^ 384) * e19 + (2 ^ 320) * e20 + (2 ^ 256) * e21 + (2 ^ 192) * e22 + (2 ^ 128) * e23 + (2 ^ 64) * e24 + e25 + (2 ^ 64) * e26 + (2 ^ 128) * e27 + (2 ^ 128) * e28 + (2 ^ 192) * e29 + (2 ^ 256) * e30 + (2 ^ 256) * e31 + (2 ^ 320) * e32 + (2 ^ 384) * e33 + (2 ^ 384) * e34 + (2 ^ 448) * e35 + (1020847100762815390427017310442723737601 * 2 ^ 321) * hz + (-2 ^ 513) * zc11 + (-2 ^ 513) * zc17 + (-2 ^ 512) * zmv17) ?_ ?_
    · linarith only [iv_nonneg l25, iv_nonneg v26, iv_nonneg v28, iv_nonneg v29, iv_nonneg v31, iv_nonneg v32, iv_nonneg v34, iv_nonneg v35]
    · linarith only [iv_mul_le a.1.w1 a.1.w0, iv_mul_le a.1.w1 a.1.w2, iv_mul_le a.1.w1 a.1.w3, iv_mul_le a.1.w2 a.1.w3, iv_mul_le a.1.w2 a.1.w0, iv_mul_le a.1.w0 a.1.w3, iv_mul_le a.1.w0 a.1.w0, iv_mul_le a.1.w1 a.1.w1, iv_mul_le a.1.w2 a.1.w2, iv_mul_le a.1.w3 a.1.w3]
  replace h := mov_inv h
  replace h := mov_inv h
  replace h := mulx_inv h; obtain ⟨l36, h36, e36, h⟩ := h
  replace h := mulx_inv h; obtain ⟨l37, h37, e37, h⟩ := h
  replace h := mulx_inv h; obtain ⟨l38, h38, e38, h⟩ := h
  replace h := mov_inv h
  replace h := mulx_inv h; obtain ⟨l39, h39, e39, h⟩ := h
  replace h := mulx_inv h; obtain ⟨l40, h40, e40, h⟩ := h
  replace h := add_inv h; obtain ⟨v41, c41, e41, h⟩ := h
  replace h := adc_inv h; obtain ⟨v42, c42, e42, h⟩ := h
  replace h := adc_inv h; obtain ⟨v43, c43, e43, h⟩ := h
  replace h := adc_inv h; obtain ⟨v44, c44, e44, h⟩ := h
  replace h := adc_inv h; obtain ⟨v45, c45, e45, h⟩ := h
  replace h := mov_inv h
  replace h := adc_inv h; obtain ⟨v46, c46, e46, h⟩ := h
  have zc46 : bv c46 = 0 := by
    refine dead (K := 2 ^ 513) (rest := (2 ^ 129) * (iv v41) + (2 ^ 193) * (iv v42) + (2 ^ 257) * (iv v43) + (2 ^ 321) * (iv v44) + (2 ^ 385) * (iv v45) + (2 ^ 449) * (iv v46)) (P := (2 ^ 129) * (iv h36) + (2 ^ 129) * (iv l40) + (2 ^ 193) * (iv l37) + (2 ^ 193) * (iv h40) + (2 ^ 257) * (iv h37) + (2 ^ 257) * (iv l38) + (2 ^ 321) * (iv l39) + (2 ^ 321) * (iv h38) + (2 ^ 385) * (iv h39)) (by linear_combination (2 ^ 129) * e41 + (2 ^ 193) * e42 + (2 ^ 257) * e43 + (2 ^ 321) * e44 + (2 ^ 385) * e45 + (2 ^ 449) * e46 + (36893488147419103233 * 2 ^ 385) * hz) ?_ ?_
    · linarith only [iv_nonneg v41, iv_nonneg v42, iv_nonneg v43, iv_nonneg v44, iv_nonneg v45, iv_nonneg v46]
    · linarith only [iv_le h36, iv_le l40, iv_le l37, iv_le h40, iv_le h37, iv_le l38, iv_le l39, iv_le h38, iv_le h39]
  replace h := mov_inv h
  replace h := mulx_inv h; obtain ⟨l47, h47, e47, h⟩ := h
  replace h := add_inv h; obtain ⟨v48, c48, e48, h⟩ := h
  replace h := adc_inv h; obtain ⟨v49, c49, e49, h⟩ := h
  replace h := adc_inv h; obtain ⟨v50, c50, e50, h⟩ := h
  replace h := adc_inv h; obtain ⟨v51, c51, e51, h⟩ := h
  replace h := adc_inv h; obtain ⟨v52, c52, e52, h⟩ := h
  have zc52 : bv c52 = 0 := by
    refine dead (K := 2 ^ 513) (rest := (2 ^ 129) * (iv v41) + (2 ^ 193) * (iv v48) + (2 ^ 257) * (iv v49) + (2 ^ 321) * (iv v50) + (2 ^ 385) * (iv v51) + (2 ^ 449) * (iv v52)) (P := (2 ^ 129) * (iv h36) + (2 ^ 129) * (iv l40) + (2 ^ 193) * (iv l37) + (2 ^ 193) * (iv h40) + (2 ^ 257) * (iv h37) + (2 ^ 257) * (iv l38) + (2 ^ 321) * (iv l39) + (2 ^ 321) * (iv h38) + (2 ^ 385) * (iv h39) + (2 ^ 193) * (iv a.2.w0 * iv a.2.w3)) (by linear_combination (2 ^ 129) * e41 + (2 ^ 193) * e42 + (2 ^ 257) * e43 + (2 ^ 321) * e44 + (2 ^ 385) * e45 + (2 ^ 449) * e46 + (2 ^ 193) * e47 + (2 ^ 193) * e48 + (2 ^ 257) * e49 + (2 ^ 321) * e50 + (2 ^ 385) * e51 + (2 ^ 449) * e52 + (1020847100762815390427017310442723737601 * 2 ^ 321) * hz + (-2 ^ 513) * zc46) ?_ ?_
    · linarith only [iv_nonneg v41, iv_nonneg v48, iv_nonneg v49, iv_nonneg v50, iv_nonneg v51, iv_nonneg v52]
    · linarith only [iv_le h36, iv_le l40, iv_le l37, iv_le h40, iv_le h37, iv_le l38, iv_le l39, iv_le h38, iv_le h39, iv_mul_le a.2.w0 a.2.w3]
  have zmv52 : bv (v52).msb = 0 := by
    refine dead_msb (K := 2 ^ 449) (rest := (2 ^ 129) * (iv v41) + (2 ^ 193) * (iv v48) + (2 ^ 257) * (iv v49) + (2 ^ 321) * (iv v50) + (2 ^ 385) * (iv v51)) (P := (2 ^ 129) * (iv h36) + (2 ^ 129) * (iv l40) + (2 ^ 193) * (iv l37) + (2 ^ 193) * (iv h40) + (2 ^ 257) * (iv h37) + (2 ^ 257) * (iv l38) + (2 ^ 321) * (iv l39) + (2 ^ 321) * (iv h38) + (2 ^ 385) * (iv h39) + (2 ^ 193) * (iv a.2.w0 * iv a.2.w3)) (by linear_combination (2 ^ 129) * e41 + (2 ^ 193) * e42 + (2 ^ 257) * e43 + (2 ^ 321) * e44 + (2 ^ 385) * e45 + (2 ^ 449) * e46 + (2 ^ 193) * e47 + (2 ^ 193) * e48 + (2 ^ 257) * e49 + (2 ^ 321) * e50 + (2 ^ 385) * e51 + (2 ^ 449) * e52 + (1020847100762815390427017310442723737601 * 2 ^ 321) * hz + (-2 ^ 513) * zc46 + (-2 ^ 513) * zc52) ?_ ?_
    · linarith only [iv_nonneg v41, iv_nonneg v48, iv_nonneg v49, iv_nonneg v50, iv_nonneg v51]
    · linarith only [iv_le h36, iv_le l40, iv_le l37, iv_le h40, iv_le h37, iv_le l38, iv_le l39, iv_le h38, iv_le h39, iv_mul_le a.2.w0 a.2.w3]
  replace h := shld_inv h; obtain ⟨v53, e53, h⟩ := h
  replace h := shld_inv h; obtain ⟨v54, e54, h⟩ := h
  replace h := shld_inv h; obtain ⟨v55, e55, h⟩ := h
  replace h := shld_inv h; obtain ⟨v56, e56, h⟩ := h
  replace h := shld_inv h; obtain ⟨v57, e57, h⟩ := h
  replace h := shld_inv h; obtain ⟨v58, e58, h⟩ := h
  replace h := shl_inv h; obtain ⟨v59, e59, h⟩ := h
  replace h := mulx_inv h; obtain ⟨l60, h60, e60, h⟩ := h
  replace h := mov_inv h
  replace h := add_inv h; obtain ⟨v61, c61, e61, h⟩ := h
  replace h := mov_inv h
  replace h := mov_inv h
  replace h := mulx_inv h; obtain ⟨l62, h62, e62, h⟩ := h
  replace h := adc_inv h; obtain ⟨v63, c63, e63, h⟩ := h
  replace h := mov_inv h
  replace h := adc_inv h; obtain ⟨v64, c64, e64, h⟩ := h
  replace h := mov_inv h
  replace h := mov_inv h
  replace h := mulx_inv h; obtain ⟨l65, h65, e65, h⟩ := h
  replace h := adc_inv h; obtain ⟨v66, c66, e66, h⟩ := h
  replace h := mov_inv h
  replace h := adc_inv h; obtain ⟨v67, c67, e67, h⟩ := h
  replace h := mov_inv h
  replace h := mov_inv h
  replace h := mulx_inv h; obtain ⟨l68, h68, e68, h⟩ := h
  replace h := adc_inv h; obtain ⟨v69, c69, e69, h⟩ := h
  replace h := mov_inv h
  replace h := adc_inv h; obtain ⟨v70, c70, e70, h⟩ := h
  have zc70 : bv c70 = 0 := by
    refine dead (K := 2 ^ 512) (rest := iv l60 + (2 ^ 64) * (iv v61) + (2 ^ 128) * (iv v63) + (2 ^ 192) * (iv v64) + (2 ^ 256) * (iv v66) + (2 ^ 320) * (iv v67) + (2 ^ 384) * (iv v69) + (2 ^ 448) * (iv v70)) (P := (2 ^ 65) * (iv a.2.w1 * iv a.2.w0) + (2 ^ 193) * (iv a.2.w1 * iv a.2.w2) + (2 ^ 257) * (iv a.2.w1 * iv a.2.w3) + (2 ^ 321) * (iv a.2.w2 * iv a.2.w3) + (2 ^ 129) * (iv a.2.w2 * iv a.2.w0) + (2 ^ 193) * (iv a.2.w0 * iv a.2.w3) + iv a.2.w0 * iv a.2.w0 + (2 ^ 128) * (iv a.2.w1 * iv a.2.w1) + (2 ^ 256) * (iv a.2.w2 * iv a.2.w2) + (2 ^ 384) * (iv a.2.w3 * iv a.2.w3)) (by linear_combination (2 ^ 65) * e36 + (2 ^ 193) * e37 + (2 ^ 257) * e38 + (2 ^ 321) * e39 + (2 ^ 129) * e40 + (2 ^ 129) * e41 + (2 ^ 193) * e42 + (2 ^ 257) * e43 + (2 ^ 321) * e44 + (2 ^ 385) * e45 + (2 ^ 449) * e46 + (2 ^ 193) * e47 + (2 ^ 193) * e48 + (2 ^ 257) * e49 + (2 ^ 321) * e50 + (2 ^ 385) * e51 + (2 ^ 449) * e52 + (2 ^ 448) * e53 + (2 ^ 384) * e54 + (2 ^ 320) * e55 + (2 ^ 256) * e56 + (2 ^ 192) * e57 + (2 ^ 128) * e58 + (2 ^ 64) * e59 + e60 + (2 ^ 64) * e61 + (2 ^ 128) * e62 + (2 ^ 128) * e63 + (2 ^ 192) * e64 + (2 ^ 256) * e65 + (2 ^ 256) * e66 + (2 ^ 320) * e67 + (2 ^ 384) * e68 + (2 ^ 384) * e69 + (2 ^ 448) * e70 + (1020847100762815390427017310442723737601 * 2 ^ 321) * hz + (-2 ^ 513) * zc46 + (-2 ^ 513) * zc52 + (-2 ^ 512) * zmv52) ?_ ?_
    · linarith only [iv_nonneg l60, iv_nonneg v61, iv_nonneg v63, iv_nonneg v64, iv_nonneg v66, iv_nonneg v67, iv_nonneg v69, iv_nonneg v70]
    · linarith only [iv_mul_le a.2.w1 a.2.w0, iv_mul_le a.2.w1 a.2.w2, iv_mul_le a.2.w1 a.2.w3, iv_mul_le a.2.w2 a.2.w3, iv_mul_le a.2.w2 a.2.w0, iv_mul_le a.2.w0 a.2.w3, iv_mul_le a.2.w0 a.2.w0, iv_mul_le a.2.w1 a.2.w1, iv_mul_le a.2.w2 a.2.w2, iv_mul_le a.2.w3 a.2.w3]
  replace h := mov_inv h
  subst h
  simp only [F8.val, F4.val]
  constructor
  · linear_combination (2 ^ 448) * e35 + (-2 ^ 512) * zc35 + (2 ^ 384) * e34 + (2 ^ 384) * e33 + (2 ^ 320) * e32 + (2 ^ 256) * e31 + (2 ^ 256) * e30 + (2 ^ 192) * e29 + (2 ^ 128) * e28 + (2 ^ 128) * e27 + (2 ^ 64) * e26 + e25 + (2 ^ 64) * e24 + (2 ^ 128) * e23 + (2 ^ 192) * e22 + (2 ^ 256) * e21 + (2 ^ 320) * e20 + (2 ^ 384) * e19 + (2 ^ 448) * e18 + (-2 ^ 512) * zmv17 + (2 ^ 449) * e17 + (-2 ^ 513) * zc17 + (2 ^ 385) * e16 + (2 ^ 321) * e15 + (2 ^ 257) * e14 + (2 ^ 193) * e13 + (2 ^ 193) * e12 + (2 ^ 449) * e11 + (-2 ^ 513) * zc11 + (2 ^ 385) * e10 + (2 ^ 321) * e9 + (2 ^ 257) * e8 + (2 ^ 193) * e7 + (2 ^ 129) * e6 + (2 ^ 129) * e5 + (2 ^ 321) * e4 + (2 ^ 257) * e3 + (2 ^ 193) * e2 + (2 ^ 65) * e1 + (1020847100762815390427017310442723737601 * 2 ^ 321) * hz
  · linear_combination (2 ^ 448) * e70 + (-2 ^ 512) * zc70 + (2 ^ 384) * e69 + (2 ^ 384) * e68 + (2 ^ 320) * e67 + (2 ^ 256) * e66 + (2 ^ 256) * e65 + (2 ^ 192) * e64 + (2 ^ 128) * e63 + (2 ^ 128) * e62 + (2 ^ 64) * e61 + e60 + (2 ^ 64) * e59 + (2 ^ 128) * e58 + (2 ^ 192) * e57 + (2 ^ 256) * e56 + (2 ^ 320) * e55 + (2 ^ 384) * e54 + (2 ^ 448) * e53 + (-2 ^ 512) * zmv52 + (2 ^ 449) * e52 + (-2 ^ 513) * zc52 + (2 ^ 385) * e51 + (2 ^ 321) * e50 + (2 ^ 257) * e49 + (2 ^ 193) * e48 + (2 ^ 193) * e47 + (2 ^ 449) * e46 + (-2 ^ 513) * zc46 + (2 ^ 385) * e45 + (2 ^ 321) * e44 + (2 ^ 257) * e43 + (2 ^ 193) * e42 + (2 ^ 129) * e41 + (2 ^ 129) * e40 + (2 ^ 321) * e39 + (2 ^ 257) * e38 + (2 ^ 193) * e37 + (2 ^ 65) * e36 + (1020847100762815390427017310442723737601 * 2 ^ 321) * hz

theorem intsqr2_mulq_val (a : F4 × F4) :
    (intsqr2_mulq a).1.val = a.1.val ^ 2 ∧ (intsqr2_mulq a).2.val = a.2.val ^ 2 := by
  generalize h : intsqr2_mulq a = X
  unfold intsqr2_mulq at h
  have hz : iv 0#64 = 0 := rfl
  have hf : bv false = 0 := rfl
  replace h := mov_inv h
  replace h := mov_inv h
  replace h := mulx_inv h; obtain ⟨l1, h1, e1, h⟩ := h
  replace h := mov_inv h
  replace h := mov_inv h
  replace h := mov_inv h
  replace h := mulx_inv h; obtain ⟨l2, h2, e2, h⟩ := h
  replace h := mov_inv h
  replace h := mov_inv h
  replace h := mov_inv h
  replace h := mulx_inv h; obtain ⟨l3, h3, e3, h⟩ := h
  replace h := mov_inv h
  replace h := mov_inv h
  replace h := mov_inv h
  replace h := mov_inv h
  replace h := mulx_inv h; obtain ⟨l4, h4, e4, h⟩ := h
  replace h := mov_inv h
  replace h := mov_inv h
  replace h := mov_inv h
  replace h := mulx_inv h; obtain ⟨l5, h5, e5, h⟩ := h
  replace h := add_inv h; obtain ⟨v6, c6, e6, h⟩ := h
  replace h := adc_inv h; obtain ⟨v7, c7, e7, h⟩ := h
  replace h := mov_inv h
  replace h := adc_inv h; obtain ⟨v8, c8, e8, h⟩ := h
  replace h := adc_inv h; obtain ⟨v9, c9, e9, h⟩ := h
  replace h := adc_inv h; obtain ⟨v10, c10, e10, h⟩ := h
  have zc10 : bv c10 = 0 := by
    refine dead (K := 2 ^ 449) (rest := (2 ^ 65) * (iv l1) + (2 ^ 129) * (iv v6) + (2 ^ 193) * (iv v7) + (2 ^ 257) * (iv v8) + (2 ^ 321) * (iv v9) + (2 ^ 385) * (iv v10)) (P := (2 ^ 65) * (iv a.1.w1 * iv a.1.w0) + (2 ^ 129) * (iv a.1.w2 * iv a.1.w0) + (2 ^ 193) * (iv a.1.w3 * iv a.1.w0) + (2 ^ 257) * (iv a.1.w1 * iv a.1.w3) + (2 ^ 321) * (iv a.1.w2 * iv a.1.w3)) (by linear_combination (2 ^ 65) * e1 + (2 ^ 129) * e2 + (2 ^ 193) * e3 + (2 ^ 257) * e4 + (2 ^ 321) * e5 + (2 ^ 129) * e6 + (2 ^ 193) * e7 + (2 ^ 257) * e8 + (2 ^ 321) * e9 + (2 ^ 385) * e10 + (2 ^ 385) * hz) ?_ ?_
    · linarith only [iv_nonneg l1, iv_nonneg v6, iv_nonneg v7, iv_nonneg v8, iv_nonneg v9, iv_nonneg v10]
    · linarith only [iv_mul_le a.1.w1 a.1.w0, iv_mul_le a.1.w2 a.1.w0, iv_mul_le a.1.w3 a.1.w0, iv_mul_le a.1.w1 a.1.w3, iv_mul_le a.1.w2 a.1.w3]
  replace h := mov_inv h
  replace h := mov_inv h
  replace h := mulx_inv h; obtain ⟨l11, h11, e11, h⟩ := h
  replace h := add_inv h; obtain ⟨v12, c12, e12, h⟩ := h
  replace h := adc_inv h; obtain ⟨v13, c13, e13, h⟩ := h
  replace h := adc_inv h; obtain ⟨v14, c14, e14, h⟩ := h
  replace h := adc_inv h; obtain ⟨v15, c15, e15, h⟩ := h
  replace h := adc_inv h; obtain ⟨v16, c16, e16, h⟩ := h
  have zc16 : bv c16 = 0 := by
    refine dead (K := 2 ^ 513) (rest := (2 ^ 193) * (iv v12) + (2 ^ 257) * (iv v13) + (2 ^ 321) * (iv v14) + (2 ^ 385) * (iv v15) + (2 ^ 449) * (iv v16)) (P := (2 ^ 193) * (iv v7) + (2 ^ 193) * (iv l11) + (2 ^ 257) * (iv v8) + (2 ^ 257) * (iv h11) + (2 ^ 321) * (iv v9) + (2 ^ 385) * (iv v10)) (by linear_combination (2 ^ 193) * e12 + (2 ^ 257) * e13 + (2 ^ 321) * e14 + (2 ^ 385) * e15 + (2 ^ 449) * e16 + (680564733841876926945195958937245974529 * 2 ^ 321) * hz) ?_ ?_
    · linarith only [iv_nonneg v12, iv_nonneg v13, iv_nonneg v14, iv_nonneg v15, iv_nonneg v16]
    · linarith only [iv_le v7, iv_le l11, iv_le v8, iv_le h11, iv_le v9, iv_le v10]
  have zmv16 : bv (v16).msb = 0 := by
    refine dead_msb (K := 2 ^ 449) (rest := (2 ^ 193) * (iv v12) + (2 ^ 257) * (iv v13) + (2 ^ 321) * (iv v14) + (2 ^ 385) * (iv v15)) (P := (2 ^ 193) * (iv v7) + (2 ^ 193) * (iv l11) + (2 ^ 257) * (iv v8) + (2 ^ 257) * (iv h11) + (2 ^ 321) * (iv v9) + (2 ^ 385) * (iv v10)) (by linear_combination (2 ^ 193) * e12 + (2 ^ 257) * e13 + (2 ^ 321) * e14 + (2 ^ 385) * e15 + (2 ^ 449) * e16 + (680564733841876926945195958937245974529 * 2 ^ 321) * hz + (-2 ^ 513) * zc16) ?_ ?_
    · linarith only [iv_nonneg v12, iv_nonneg v13, iv_nonneg v14, iv_nonneg v15]
    · linarith only [iv_le v7, iv_le l11, iv_le v8, iv_le h11, iv_le v9, iv_le v10]
  replace h := shld_inv h; obtain ⟨v17, e17, h⟩ := h
  replace h := mov_inv h
  replace h := shld_inv h; obtain ⟨v18, e18, h⟩ := h
  replace h := mov_inv h
  replace h := shld_inv h; obtain ⟨v19, e19, h⟩ := h
  replace h := mov_inv h
  replace h := shld_inv h; obtain ⟨v20, e20, h⟩ := h
  replace h := mov_inv h
  replace h := shld_inv h; obtain ⟨v21, e21, h⟩ := h
  replace h := mov_inv h
  replace h := shld_inv h; obtain ⟨v22, e22, h⟩ := h
  replace h := mov_inv h
  replace h := shl_inv h; obtain ⟨v23, e23, h⟩ := h
  replace h := mov_inv h
  replace h := mov_inv h
  replace h := mulx_inv h; obtain ⟨l24, h24, e24, h⟩ := h
  replace h := mov_inv h
  replace h := mov_inv h
  replace h := mov_inv h
  replace h := mulx_inv h; obtain ⟨l25, h25, e25, h⟩ := h
  replace h := mov_inv h
  replace h := mov_inv h
  replace h := mov_inv h
  replace h := mulx_inv h; obtain ⟨l26, h26, e26, h⟩ := h
  replace h := mov_inv h
  replace h := mov_inv h
  replace h := mov_inv h
  replace h := mulx_inv h; obtain ⟨l27, h27, e27, h⟩ := h
  replace h := mov_inv h
  replace h := mov_inv h
  replace h := add_inv h; obtain ⟨v28, c28, e28, h⟩ := h
  replace h := mov_inv h
  replace h := adc_inv h; obtain ⟨v29, c29, e29, h⟩ := h
  replace h := mov_inv h
  replace h := adc_inv h; obtain ⟨v30, c30, e30, h⟩ := h
  replace h := mov_inv h
  replace h := adc_inv h; obtain ⟨v31, c31, e31, h⟩ := h
  replace h := mov_inv h
  replace h := adc_inv h; obtain ⟨v32, c32, e32, h⟩ := h
  replace h := mov_inv h
  replace h := adc_inv h; obtain ⟨v33, c33, e33, h⟩ := h
  replace h := mov_inv h
  replace h := adc_inv h; obtain ⟨v34, c34, e34, h⟩ := h
  have zc34 : bv c34 = 0 := by
    refine dead (K := 2 ^ 512) (rest := iv l24 + (2 ^ 64) * (iv v28) + (2 ^ 128) * (iv v29) + (2 ^ 192) * (iv v30) + (2 ^ 256) * (iv v31) + (2 ^ 320) * (iv v32) + (2 ^ 384) * (iv v33) + (2 ^ 448) * (iv v34)) (P := (2 ^ 65) * (iv a.1.w1 * iv a.1.w0) + (2 ^ 129) * (iv a.1.w2 * iv a.1.w0) + (2 ^ 193) * (iv a.1.w3 * iv a.1.w0) + (2 ^ 257) * (iv a.1.w1 * iv a.1.w3) + (2 ^ 321) * (iv a.1.w2 * iv a.1.w3) + (2 ^ 193) * (iv a.1.w1 * iv a.1.w2) + iv a.1.w0 * iv a.1.w0 + (2 ^ 128) * (iv a.1.w1 * iv a.1.w1) + (2 ^ 256) * (iv a.1.w2 * iv a.1.w2) + (2 ^ 384) * (iv a.1.w3 * iv a.1.w3)) (by linear_combination (2 ^ 65) * e1 + (2 ^ 129) * e2 + (2 ^ 193) * e3 + (2 ^ 257) * e4 + (2 ^ 321) * e5 + (2 ^ 129) * e6 + (2 ^ 193) * e7 + (2 ^ 257) * e8 + (2 ^ 321) * e9 + (2 ^ 385) * e10 + (2 ^ 193) * e11 + (2 ^ 193) * e12 + (2 ^ 257) * e13 + (2 ^ 321) * e14 + (2 ^ 385) * e15 + (2 ^ 449) * e16 + (2 ^ 448) * e17 + (2 ^ 384) * e18 + (2 ^ 320) * e19 + (2 ^ 256) * e20 + (2 ^ 192) * e21 + (2 ^ 128) * e22 + (2 ^ 64) * e23 + e24 + (2 ^ 128) * e25 + (2 ^ 256) * e26 + (2 ^ 384) * e27 + (2 ^ 64) * e28 + (2 ^ 128) * e29 + (2 ^ 192) * e30 + (2 ^ 256) * e31 + (2 ^ 320) * e32 + (2 ^ 384) * e33 + (2 ^ 448) * e34 + (-2 ^ 449) * zc10 + (680564733841876926963642703010955526145 * 2 ^ 321) * hz + (-2 ^ 513) * zc16 + (-2 ^ 512) * zmv16) ?_ ?_
    · linarith only [iv_nonneg l24, iv_nonneg v28, iv_nonneg v29, iv_nonneg v30, iv_nonneg v31, iv_nonneg v32, iv_nonneg v33, iv_nonneg v34]
    · linarith only [iv_mul_le a.1.w1 a.1.w0, iv_mul_le a.1.w2 a.1.w0, iv_mul_le a.1.w3 a.1.w0, iv_mul_le a.1.w1 a.1.w3, iv_mul_le a.1.w2 a.1.w3, iv_mul_le a.1.w1 a.1.w2, iv_mul_le a.1.w0 a.1.w0, iv_mul_le a.1.w1 a.1.w1, iv_mul_le a.1.w2 a.1.w2, iv_mul_le a.1.w3 a.1.w3]
  replace h := mov_inv h
  replace h := mov_inv h
  replace h := mov_inv h
  replace h := mulx_inv h; obtain ⟨l35, h35, e35, h⟩ := h
  replace h := mov_inv h
  replace h := mov_inv h
  replace h := mov_inv h
  replace h := mulx_inv h; obtain ⟨l36, h36, e36, h⟩ := h
  replace h := mov_inv h
  replace h := mov_inv h
  replace h := mov_inv h
  replace h := mulx_inv h; obtain ⟨l37, h37, e37, h⟩ := h
  replace h := mov_inv h
  replace h := mov_inv h
  replace h := mov_inv h
  replace h := mov_inv h
  replace h := mulx_inv h; obtain ⟨l38, h38, e38, h⟩ := h
  replace h := mov_inv h
  replace h := mov_inv h
  replace h := mov_inv h
  replace h := mulx_inv h; obtain ⟨l39, h39, e39, h⟩ := h
  replace h := add_inv h; obtain ⟨v40, c40, e40, h⟩ := h
  replace h := adc_inv h; obtain ⟨v41, c41, e41, h⟩ := h
  replace h := mov_inv h
  replace h := adc_inv h; obtain ⟨v42, c42, e42, h⟩ := h
  replace h := adc_inv h; obtain ⟨v43, c43, e43, h⟩ := h
  replace h := adc_inv h; obtain ⟨v44, c44, e44, h⟩ := h
  have zc44 : bv c44 = 0 := by
    refine dead (K := 2 ^ 449) (rest := (2 ^ 65) * (iv l35) + (2 ^ 129) * (iv v40) + (2 ^ 193) * (iv v41) + (2 ^ 257) * (iv v42) + (2 ^ 321) * (iv v43) + (2 ^ 385) * (iv v44)) (P := (2 ^ 65) * (iv a.2.w1 * iv a.2.w0) + (2 ^ 129) * (iv a.2.w2 * iv a.2.w0) + (2 ^ 193) * (iv a.2.w3 * iv a.2.w0) + (2 ^ 257) * (iv a.2.w1 * iv a.2.w3) + (2 ^ 321) * (iv a.2.w2 * iv a.2.w3)) (by linear_combination (2 ^ 65) * e35 + (2 ^ 129) * e36 + (2 ^ 193) * e37 + (2 ^ 257) * e38 + (2 ^ 321) * e39 + (2 ^ 129) * e40 + (2 ^ 193) * e41 + (2 ^ 257) * e42 + (2 ^ 321) * e43 + (2 ^ 385) * e44 + (2 ^ 385) * hz) ?_ ?_
    · linarith only [iv_nonneg l35, iv_nonneg v40, iv_nonneg v41, iv_nonneg v42, iv_nonneg v43, iv_nonneg v44]
    · linarith only [iv_mul_le a.2.w1 a.2.w0, iv_mul_le a.2.w2 a.2.w0, iv_mul_le a.2.w3 a.2.w0, iv_mul_le a.2.w1 a.2.w3, iv_mul_le a.2.w2 a.2.w3]
  replace h := mov_inv h
  replace h := mov_inv h
  replace h := mulx_inv h; obtain ⟨l45, h45, e45, h⟩ := h
  replace h := add_inv h; obtain ⟨v46, c46, e46, h⟩ := h
  replace h := adc_inv h; obtain ⟨v47, c47, e47, h⟩ := h
  replace h := adc_inv h; obtain ⟨v48, c48, e48, h⟩ := h
  replace h := adc_inv h; obtain ⟨v49, c49, e49, h⟩ := h
  replace h := adc_inv h; obtain ⟨v50, c50, e50, h⟩ := h
  have zc50 : bv c50 = 0 := by
    refine dead (K := 2 ^ 513) (rest := (2 ^ 193) * (iv v46) + (2 ^ 257) * (iv v47) + (2 ^ 321) * (iv v48) + (2 ^ 385) * (iv v49) + (2 ^ 449) * (iv v50)) (P := (2 ^ 193) * (iv v41) + (2 ^ 193) * (iv l45) + (2 ^ 257) * (iv v42) + (2 ^ 257) * (iv h45) + (2 ^ 321) * (iv v43) + (2 ^ 385) * (iv v44)) (by linear_combination (2 ^ 193) * e46 + (2 ^ 257) * e47 + (2 ^ 321) * e48 + (2 ^ 385) * e49 + (2 ^ 449) * e50 + (680564733841876926945195958937245974529 * 2 ^ 321) * hz) ?_ ?_
    · linarith only [iv_nonneg v46, iv_nonneg v47, iv_nonneg v48, iv_nonneg v49, iv_nonneg v50]
    · linarith only [iv_le v41, iv_le l45, iv_le v42, iv_le h45, iv_le v43, iv_le v44]
  have zmv50 : bv (v50).msb = 0 := by
    refine dead_msb (K := 2 ^ 449) (rest := (2 ^ 193) * (iv v46) + (2 ^ 257) * (iv v47) + (2 ^ 321) * (iv v48) + (2 ^ 385) * (iv v49)) (P := (2 ^ 193) * (iv v41) + (2 ^ 193) * (iv l45) + (2 ^ 257) * (iv v42) + (2 ^ 257) * (iv h45) + (2 ^ 321) * (iv v43) + (2 ^ 385) * (iv v44)) (by linear_combination (2 ^ 193) * e46 + (2 ^ 257) * e47 + (2 ^ 321) * e48 + (2 ^ 385) * e49 + (2 ^ 449) * e50 + (680564733841876926945195958937245974529 * 2 ^ 321) * hz + (-2 ^ 513) * zc50) ?_ ?_
    · linarith only [iv_nonneg v46, iv_nonneg v47, iv_nonneg v48, iv_nonneg v49]
    · linarith only [iv_le v41, iv_le l45, iv_le v42, iv_le h45, iv_le v43, iv_le v44]
  replace h := shld_inv h; obtain ⟨v51, e51, h⟩ := h
  replace h := mov_inv h
  replace h := shld_inv h; obtain ⟨v52, e52, h⟩ := h
  replace h := mov_inv h
  replace h := shld_inv h; obtain ⟨v53, e53, h⟩ := h
  replace h := mov_inv h
  replace h := shld_inv h; obtain ⟨v54, e54, h⟩ := h
  replace h := mov_inv h
  replace h := shld_inv h; obtain ⟨v55, e55, h⟩ := h
  replace h := mov_inv h
  replace h := shld_inv h; obtain ⟨v56, e56, h⟩ := h
  replace h := mov_inv h
  replace h := shl_inv h; obtain ⟨v57, e57, h⟩ := h
  replace h := mov_inv h
  replace h := mov_inv h
  replace h := mulx_inv h; obtain ⟨l58, h58, e58, h⟩ := h
  replace h := mov_inv h
  replace h := mov_inv h
  replace h := mov_inv h
  replace h := mulx_inv h; obtain ⟨l59, h59, e59, h⟩ := h
  replace h := mov_inv h
  replace h := mov_inv h
  replace h := mov_inv h
  replace h := mulx_inv h; obtain ⟨l60, h60, e60, h⟩ := h
  replace h := mov_inv h
  replace h := mov_inv h
  replace h := mov_inv h
  replace h := mulx_inv h; obtain ⟨l61, h61, e61, h⟩ := h
  replace h := mov_inv h
  replace h := mov_inv h
  replace h := add_inv h; obtain ⟨v62, c62, e62, h⟩ := h
  replace h := mov_inv h
  replace h := adc_inv h; obtain ⟨v63, c63, e63, h⟩ := h
  replace h := mov_inv h
  replace h := adc_inv h; obtain ⟨v64, c64, e64, h⟩ := h
  replace h := mov_inv h
  replace h := adc_inv h; obtain ⟨v65, c65, e65, h⟩ := h
  replace h := mov_inv h
  replace h := adc_inv h; obtain ⟨v66, c66, e66, h⟩ := h
  replace h := mov_inv h
  replace h := adc_inv h; obtain ⟨v67, c67, e67, h⟩ := h
  replace h := mov_inv h
  replace h := adc_inv h; obtain ⟨v68, c68, e68, h⟩ := h
  have zc68 : bv c68 = 0 := by
    refine dead (K := 2 ^ 512) (rest := iv l58 + (2 ^ 64) * (iv v62) + (2 ^ 128) * (iv v63) + (2 ^ 192) * (iv v64) + (2 ^ 256) * (iv v65) + (2 ^ 320) * (iv v66) + (2 ^ 384) * (iv v67) + (2 ^ 448) * (iv v68)) (P := (2 ^ 65) * (iv a.2.w1 * iv a.2.w0) + (2 ^ 129) * (iv a.2.w2 * iv a.2.w0) + (2 ^ 193) * (iv a.2.w3 * iv a.2.w0) + (2 ^ 257) * (iv a.2.w1 * iv a.2.w3) + (2 ^ 321) * (iv a.2.w2 * iv a.2.w3) + (2 ^ 193) * (iv a.2.w1 * iv a.2.w2) + iv a.2.w0 * iv a.2.w0 + (2 ^ 128) * (iv a.2.w1 * iv a.2.w1) + (2 ^ 256) * (iv a.2.w2 * iv a.2.w2) + (2 ^ 384) * (iv a.2.w3 * iv a.2.w3)) (by linear_combination (2 ^ 65) * e35 + (2 ^ 129) * e36 + (2 ^ 193) * e37 + (2 ^ 257) * e38 + (2 ^ 321) * e39 + (2 ^ 129) * e40 + (2 ^ 193) * e41 + (2 ^ 257) * e42 + (2 ^ 321) * e43 + (2 ^ 385) * e44 + (2 ^ 193) * e45 + (2 ^ 193) * e46 + (2 ^ 257) * e47 + (2 ^ 321) * e48 + (2 ^ 385) * e49 + (2 ^ 449) * e50 + (2 ^ 448) * e51 + (2 ^ 384) * e52 + (2 ^ 320) * e53 + (2 ^ 256) * e54 + (2 ^ 192) * e55 + (2 ^ 128) * e56 + (2 ^ 64) * e57 + e58 + (2 ^ 128) * e59 + (2 ^ 256) * e60 + (2 ^ 384) * e61 + (2 ^ 64) * e62 + (2 ^ 128) * e63 + (2 ^ 192) * e64 + (2 ^ 256) * e65 + (2 ^ 320) * e66 + (2 ^ 384) * e67 + (2 ^ 448) * e68 + (-2 ^ 449) * zc44 + (680564733841876926963642703010955526145 * 2 ^ 321) * hz + (-2 ^ 513) * zc50 + (-2 ^ 512) * zmv50) ?_ ?_
    · linarith only [iv_nonneg l58, iv_nonneg v62, iv_nonneg v63, iv_nonneg v64, iv_nonneg v65, iv_nonneg v66, iv_nonneg v67, iv_nonneg v68]
    · linarith only [iv_mul_le a.2.w1 a.2.w0, iv_mul_le a.2.w2 a.2.w0, iv_mul_le a.2.w3 a.2.w0, iv_mul_le a.2.w1 a.2.w3, iv_mul_le a.2.w2 a.2.w3, iv_mul_le a.2.w1 a.2.w2, iv_mul_le a.2.w0 a.2.w0, iv_mul_le a.2.w1 a.2.w1, iv_mul_le a.2.w2 a.2.w2, iv_mul_le a.2.w3 a.2.w3]
  replace h := mov_inv h
  subst h
  simp only [F8.val, F4.val]
  constructor
  · linear_combination (2 ^ 448) * e34 + (-2 ^ 512) * zc34 + (2 ^ 384) * e33 + (2 ^ 320) * e32 + (2 ^ 256) * e31 + (2 ^ 192) * e30 + (2 ^ 128) * e29 + (2 ^ 64) * e28 + (2 ^ 384) * e27 + (2 ^ 256) * e26 + (2 ^ 128) * e25 + e24 + (2 ^ 64) * e23 + (2 ^ 128) * e22 + (2 ^ 192) * e21 + (2 ^ 256) * e20 + (2 ^ 320) * e19 + (2 ^ 384) * e18 + (2 ^ 448) * e17 + (-2 ^ 512) * zmv16 + (2 ^ 449) * e16 + (-2 ^ 513) * zc16 + (2 ^ 385) * e15 + (2 ^ 321) * e14 + (2 ^ 257) * e13 + (2 ^ 193) * e12 + (2 ^ 193) * e11 + (2 ^ 385) * e10 + (-2 ^ 449) * zc10 + (2 ^ 321) * e9 + (2 ^ 257) * e8 + (2 ^ 193) * e7 + (2 ^ 129) * e6 + (2 ^ 321) * e5 + (2 ^ 257) * e4 + (2 ^ 193) * e3 + (2 ^ 129) * e2 + (2 ^ 65) * e1 + (680564733841876926963642703010955526145 * 2 ^ 321) * hz
  · linear_combination (2 ^ 448) * e68 + (-2 ^ 512) * zc68 + (2 ^ 384) * e67 + (2 ^ 320) * e66 + (2 ^ 256) * e65 + (2 ^ 192) * e64 + (2 ^ 128) * e63 + (2 ^ 64) * e62 + (2 ^ 384) * e61 + (2 ^ 256) * e60 + (2 ^ 128) * e59 + e58 + (2 ^ 64) * e57 + (2 ^ 128) * e56 + (2 ^ 192) * e55 + (2 ^ 256) * e54 + (2 ^ 320) * e53 + (2 ^ 384) * e52 + (2 ^ 448) * e51 + (-2 ^ 512) * zmv50 + (2 ^ 449) * e50 + (-2 ^ 513) * zc50 + (2 ^ 385) * e49 + (2 ^ 321) * e48 + (2 ^ 257) * e47 + (2 ^ 193) * e46 + (2 ^ 193) * e45 + (2 ^ 385) * e44 + (-2 ^ 449) * zc44 + (2 ^ 321) * e43 + (2 ^ 257) * e42 + (2 ^ 193) * e41 + (2 ^ 129) * e40 + (2 ^ 321) * e39 + (2 ^ 257) * e38 + (2 ^ 193) * e37 + (2 ^ 129) * e36 + (2 ^ 65) * e35 + (680564733841876926963642703010955526145 * 2 ^ 321) * hz

end Verif.Fp25519.Asm
