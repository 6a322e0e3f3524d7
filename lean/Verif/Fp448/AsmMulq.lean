import Verif.Fp448.Asm
import Verif.Fp448.Lemmas

/-! # Integer products, baseline

Helper lemmas: one linear identity per straight-line block. -/

namespace Verif.Fp448.Asm

set_option maxRecDepth 4000
set_option linter.unusedVariables false
set_option exponentiation.threshold 2000

set_option maxHeartbeats 1000000 in
theorem intmul_mulq_val (a b : F7) : (intmul_mulq a b).val = a.val * b.val := by
  generalize h : intmul_mulq a b = X
  unfold intmul_mulq at h
  have hz : iv 0#64 = 0 := rfl
  have hf : bv false = 0 := rfl
  replace h := mov_inv h
  replace h := mov_inv h
  replace h := mulx_inv h; obtain ⟨l1, h1, e1, h⟩ := h
  replace h := mov_inv h
  replace h := mov_inv h
  replace h := mov_inv h
  replace h := mulx_inv h; obtain ⟨l2, h2, e2, h⟩ := h
  replace h := add_inv h; obtain ⟨v3, c3, e3, h⟩ := h
  replace h := adc_inv h; obtain ⟨v4, c4, e4, h⟩ := h
  have zc4 : bv c4 = 0 := by
    refine dead (K := 2 ^ 192) (rest := iv l1 + (2 ^ 64) * (iv v3) + (2 ^ 128) * (iv v4)) (P := iv b.w0 * iv a.w0 + (2 ^ 64) * (iv b.w1 * iv a.w0)) (by linear_combination e1 + (2 ^ 64) * e2 + (2 ^ 64) * e3 + (2 ^ 128) * e4 + (2 ^ 128) * hz) ?_ ?_
    · linarith only [iv_nonneg l1, iv_nonneg v3, iv_nonneg v4]
    · linarith only [iv_mul_le b.w0 a.w0, iv_mul_le b.w1 a.w0]
  replace h := mov_inv h
  replace h := mov_inv h
  replace h := mulx_inv h; obtain ⟨l5, h5, e5, h⟩ := h
  replace h := add_inv h; obtain ⟨v6, c6, e6, h⟩ := h
  replace h := adc_inv h; obtain ⟨v7, c7, e7, h⟩ := h
  have zc7 : bv c7 = 0 := by
    refine dead (K := 2 ^ 256) (rest := (2 ^ 128) * (iv v6) + (2 ^ 192) * (iv v7)) (P := (2 ^ 128) * (iv b.w2 * iv a.w0) + (2 ^ 128) * (iv v4)) (by linear_combination (2 ^ 128) * e5 + (2 ^ 128) * e6 + (2 ^ 192) * e7 + (2 ^ 192) * hz) ?_ ?_
    · linarith only [iv_nonneg v6, iv_nonneg v7]
    · linarith only [iv_mul_le b.w2 a.w0, iv_le v4]
  replace h := mov_inv h
  replace h := mov_inv h
  replace h := mulx_inv h; obtain ⟨l8, h8, e8, h⟩ := h
  replace h := add_inv h; obtain ⟨v9, c9, e9, h⟩ := h
  replace h := adc_inv h; obtain ⟨v10, c10, e10, h⟩ := h
  have zc10 : bv c10 = 0 := by
    refine dead (K := 2 ^ 320) (rest := (2 ^ 192) * (iv v9) + (2 ^ 256) * (iv v10)) (P := (2 ^ 192) * (iv b.w3 * iv a.w0) + (2 ^ 192) * (iv v7)) (by linear_combination (2 ^ 192) * e8 + (2 ^ 192) * e9 + (2 ^ 256) * e10 + (2 ^ 256) * hz) ?_ ?_
    · linarith only [iv_nonneg v9, iv_nonneg v10]
    · linarith only [iv_mul_le b.w3 a.w0, iv_le v7]
  replace h := mov_inv h
  replace h := mov_inv h
  replace h := mulx_inv h; obtain ⟨l11, h11, e11, h⟩ := h
  replace h := add_inv h; obtain ⟨v12, c12, e12, h⟩ := h
  replace h := adc_inv h; obtain ⟨v13, c13, e13, h⟩ := h
  have zc13 : bv c13 = 0 := by
    refine dead (K := 2 ^ 384) (rest := (2 ^ 256) * (iv v12) + (2 ^ 320) * (iv v13)) (P := (2 ^ 256) * (iv b.w4 * iv a.w0) + (2 ^ 256) * (iv v10)) (by linear_combination (2 ^ 256) * e11 + (2 ^ 256) * e12 + (2 ^ 320) * e13 + (2 ^ 320) * hz) ?_ ?_
    · linarith only [iv_nonneg v12, iv_nonneg v13]
    · linarith only [iv_mul_le b.w4 a.w0, iv_le v10]
  replace h := mov_inv h
  replace h := mov_inv h
  replace h := mulx_inv h; obtain ⟨l14, h14, e14, h⟩ := h
  replace h := add_inv h; obtain ⟨v15, c15, e15, h⟩ := h
  replace h := adc_inv h; obtain ⟨v16, c16, e16, h⟩ := h
  have zc16 : bv c16 = 0 := by
    refine dead (K := 2 ^ 448) (rest := (2 ^ 320) * (iv v15) + (2 ^ 384) * (iv v16)) (P := (2 ^ 320) * (iv b.w5 * iv a.w0) + (2 ^ 320) * (iv v13)) (by linear_combination (2 ^ 320) * e14 + (2 ^ 320) * e15 + (2 ^ 384) * e16 + (2 ^ 384) * hz) ?_ ?_
    · linarith only [iv_nonneg v15, iv_nonneg v16]
    · linarith only [iv_mul_le b.w5 a.w0, iv_le v13]
  replace h := mov_inv h
  replace h := mov_inv h
  replace h := mulx_inv h; obtain ⟨l17, h17, e17, h⟩ := h
  replace h := add_inv h; obtain ⟨v18, c18, e18, h⟩ := h
  replace h := adc_inv h; obtain ⟨v19, c19, e19, h⟩ := h
  have zc19 : bv c19 = 0 := by
    refine dead (K := 2 ^ 512) (rest := (2 ^ 384) * (iv v18) + (2 ^ 448) * (iv v19)) (P := (2 ^ 384) * (iv b.w6 * iv a.w0) + (2 ^ 384) * (iv v16)) (by linear_combination (2 ^ 384) * e17 + (2 ^ 384) * e18 + (2 ^ 448) * e19 + (2 ^ 448) * hz) ?_ ?_
    · linarith only [iv_nonneg v18, iv_nonneg v19]
    · linarith only [iv_mul_le b.w6 a.w0, iv_le v16]
  replace h := mov_inv h
  replace h := mov_inv h
  replace h := mov_inv h
  replace h := mulx_inv h; obtain ⟨l20, h20, e20, h⟩ := h
  replace h := add_inv h; obtain ⟨v21, c21, e21, h⟩ := h
  replace h := mov_inv h
  replace h := mov_inv h
  replace h := adc_inv h; obtain ⟨v22, c22, e22, h⟩ := h
  have zc22 : bv c22 = 0 := by
    refine dead (K := 2 ^ 192) (rest := (2 ^ 64) * (iv v21) + (2 ^ 128) * (iv v22)) (P := (2 ^ 64) * (iv b.w0 * iv a.w1) + (2 ^ 64) * (iv v3)) (by linear_combination (2 ^ 64) * e20 + (2 ^ 64) * e21 + (2 ^ 128) * e22 + (2 ^ 128) * hz) ?_ ?_
    · linarith only [iv_nonneg v21, iv_nonneg v22]
    · linarith only [iv_mul_le b.w0 a.w1, iv_le v3]
  replace h := mov_inv h
  replace h := mulx_inv h; obtain ⟨l23, h23, e23, h⟩ := h
  replace h := add_inv h; obtain ⟨v24, c24, e24, h⟩ := h
  replace h := adc_inv h; obtain ⟨v25, c25, e25, h⟩ := h
  have zc25 : bv c25 = 0 := by
    refine dead (K := 2 ^ 256) (rest := (2 ^ 128) * (iv v24) + (2 ^ 192) * (iv v25)) (P := (2 ^ 128) * (iv b.w1 * iv a.w1) + (2 ^ 128) * (iv v6)) (by linear_combination (2 ^ 128) * e23 + (2 ^ 128) * e24 + (2 ^ 192) * e25 + (2 ^ 192) * hz) ?_ ?_
    · linarith only [iv_nonneg v24, iv_nonneg v25]
    · linarith only [iv_mul_le b.w1 a.w1, iv_le v6]
  replace h := add_inv h; obtain ⟨v26, c26, e26, h⟩ := h
  replace h := mov_inv h
  replace h := adc_inv h; obtain ⟨v27, c27, e27, h⟩ := h
  have zc27 : bv c27 = 0 := by
    refine dead (K := 2 ^ 256) (rest := (2 ^ 128) * (iv v26) + (2 ^ 192) * (iv v27)) (P := (2 ^ 128) * (iv b.w1 * iv a.w1) + (2 ^ 128) * (iv v6) + (2 ^ 128) * (iv v22)) (by linear_combination (2 ^ 128) * e23 + (2 ^ 128) * e24 + (2 ^ 192) * e25 + (2 ^ 128) * e26 + (2 ^ 192) * e27 + (-2 ^ 256) * zc25 + (2 ^ 193) * hz) ?_ ?_
    · linarith only [iv_nonneg v26, iv_nonneg v27]
    · linarith only [iv_mul_le b.w1 a.w1, iv_le v6, iv_le v22]
  replace h := mov_inv h
  replace h := mulx_inv h; obtain ⟨l28, h28, e28, h⟩ := h
  replace h := add_inv h; obtain ⟨v29, c29, e29, h⟩ := h
  replace h := adc_inv h; obtain ⟨v30, c30, e30, h⟩ := h
  have zc30 : bv c30 = 0 := by
    refine dead (K := 2 ^ 320) (rest := (2 ^ 192) * (iv v29) + (2 ^ 256) * (iv v30)) (P := (2 ^ 192) * (iv b.w2 * iv a.w1) + (2 ^ 192) * (iv v9)) (by linear_combination (2 ^ 192) * e28 + (2 ^ 192) * e29 + (2 ^ 256) * e30 + (2 ^ 256) * hz) ?_ ?_
    · linarith only [iv_nonneg v29, iv_nonneg v30]
    · linarith only [iv_mul_le b.w2 a.w1, iv_le v9]
  replace h := add_inv h; obtain ⟨v31, c31, e31, h⟩ := h
  replace h := mov_inv h
  replace h := adc_inv h; obtain ⟨v32, c32, e32, h⟩ := h
  have zc32 : bv c32 = 0 := by
    refine dead (K := 2 ^ 320) (rest := (2 ^ 192) * (iv v31) + (2 ^ 256) * (iv v32)) (P := (2 ^ 192) * (iv b.w2 * iv a.w1) + (2 ^ 192) * (iv v9) + (2 ^ 192) * (iv v27)) (by linear_combination (2 ^ 192) * e28 + (2 ^ 192) * e29 + (2 ^ 256) * e30 + (2 ^ 192) * e31 + (2 ^ 256) * e32 + (-2 ^ 320) * zc30 + (2 ^ 257) * hz) ?_ ?_
    · linarith only [iv_nonneg v31, iv_nonneg v32]
    · linarith only [iv_mul_le b.w2 a.w1, iv_le v9, iv_le v27]
  replace h := mov_inv h
  replace h := mulx_inv h; obtain ⟨l33, h33, e33, h⟩ := h
  replace h := add_inv h; obtain ⟨v34, c34, e34, h⟩ := h
  replace h := adc_inv h; obtain ⟨v35, c35, e35, h⟩ := h
  have zc35 : bv c35 = 0 := by
    refine dead (K := 2 ^ 384) (rest := (2 ^ 256) * (iv v34) + (2 ^ 320) * (iv v35)) (P := (2 ^ 256) * (iv b.w3 * iv a.w1) + (2 ^ 256) * (iv v12)) (by linear_combination (2 ^ 256) * e33 + (2 ^ 256) * e34 + (2 ^ 320) * e35 + (2 ^ 320) * hz) ?_ ?_
    · linarith only [iv_nonneg v34, iv_nonneg v35]
    · linarith only [iv_mul_le b.w3 a.w1, iv_le v12]
  replace h := add_inv h; obtain ⟨v36, c36, e36, h⟩ := h
  replace h := mov_inv h
  replace h := adc_inv h; obtain ⟨v37, c37, e37, h⟩ := h
  have zc37 : bv c37 = 0 := by
    refine dead (K := 2 ^ 384) (rest := (2 ^ 256) * (iv v36) + (2 ^ 320) * (iv v37)) (P := (2 ^ 256) * (iv b.w3 * iv a.w1) + (2 ^ 256) * (iv v12) + (2 ^ 256) * (iv v32)) (by linear_combination (2 ^ 256) * e33 + (2 ^ 256) * e34 + (2 ^ 320) * e35 + (2 ^ 256) * e36 + (2 ^ 320) * e37 + (-2 ^ 384) * zc35 + (2 ^ 321) * hz) ?_ ?_
    · linarith only [iv_nonneg v36, iv_nonneg v37]
    · linarith only [iv_mul_le b.w3 a.w1, iv_le v12, iv_le v32]
  replace h := mov_inv h
  replace h := mulx_inv h; obtain ⟨l38, h38, e38, h⟩ := h
  replace h := add_inv h; obtain ⟨v39, c39, e39, h⟩ := h
  replace h := adc_inv h; obtain ⟨v40, c40, e40, h⟩ := h
  have zc40 : bv c40 = 0 := by
    refine dead (K := 2 ^ 448) (rest := (2 ^ 320) * (iv v39) + (2 ^ 384) * (iv v40)) (P := (2 ^ 320) * (iv b.w4 * iv a.w1) + (2 ^ 320) * (iv v15)) (by linear_combination (2 ^ 320) * e38 + (2 ^ 320) * e39 + (2 ^ 384) * e40 + (2 ^ 384) * hz) ?_ ?_
    · linarith only [iv_nonneg v39, iv_nonneg v40]
    · linarith only [iv_mul_le b.w4 a.w1, iv_le v15]
  replace h := add_inv h; obtain ⟨v41, c41, e41, h⟩ := h
  replace h := mov_inv h
  replace h := adc_inv h; obtain ⟨v42, c42, e42, h⟩ := h
  have zc42 : bv c42 = 0 := by
    refine dead (K := 2 ^ 448) (rest := (2 ^ 320) * (iv v41) + (2 ^ 384) * (iv v42)) (P := (2 ^ 320) * (iv b.w4 * iv a.w1) + (2 ^ 320) * (iv v15) + (2 ^ 320) * (iv v37)) (by linear_combination (2 ^ 320) * e38 + (2 ^ 320) * e39 + (2 ^ 384) * e40 + (2 ^ 320) * e41 + (2 ^ 384) * e42 + (-2 ^ 448) * zc40 + (2 ^ 385) * hz) ?_ ?_
    · linarith only [iv_nonneg v41, iv_nonneg v42]
    · linarith only [iv_mul_le b.w4 a.w1, iv_le v15, iv_le v37]
  replace h := mov_inv h
  replace h := mulx_inv h; obtain ⟨l43, h43, e43, h⟩ := h
  replace h := add_inv h; obtain ⟨v44, c44, e44, h⟩ := h
  replace h := adc_inv h; obtain ⟨v45, c45, e45, h⟩ := h
  have zc45 : bv c45 = 0 := by
    refine dead (K := 2 ^ 512) (rest := (2 ^ 384) * (iv v44) + (2 ^ 448) * (iv v45)) (P := (2 ^ 384) * (iv b.w5 * iv a.w1) + (2 ^ 384) * (iv v18)) (by linear_combination (2 ^ 384) * e43 + (2 ^ 384) * e44 + (2 ^ 448) * e45 + (2 ^ 448) * hz) ?_ ?_
    · linarith only [iv_nonneg v44, iv_nonneg v45]
    · linarith only [iv_mul_le b.w5 a.w1, iv_le v18]
  replace h := add_inv h; obtain ⟨v46, c46, e46, h⟩ := h
  replace h := mov_inv h
  replace h := adc_inv h; obtain ⟨v47, c47, e47, h⟩ := h
  have zc47 : bv c47 = 0 := by
    refine dead (K := 2 ^ 512) (rest := (2 ^ 384) * (iv v46) + (2 ^ 448) * (iv v47)) (P := (2 ^ 384) * (iv b.w5 * iv a.w1) + (2 ^ 384) * (iv v18) + (2 ^ 384) * (iv v42)) (by linear_combination (2 ^ 384) * e43 + (2 ^ 384) * e44 + (2 ^ 448) * e45 + (2 ^ 384) * e46 + (2 ^ 448) * e47 + (-2 ^ 512) * zc45 + (2 ^ 449) * hz) ?_ ?_
    · linarith only [iv_nonneg v46, iv_nonneg v47]
    · linarith only [iv_mul_le b.w5 a.w1, iv_le v18, iv_le v42]
  replace h := mov_inv h
  replace h := mulx_inv h; obtain ⟨l48, h48, e48, h⟩ := h
  replace h := add_inv h; obtain ⟨v49, c49, e49, h⟩ := h
  replace h := adc_inv h; obtain ⟨v50, c50, e50, h⟩ := h
  have zc50 : bv c50 = 0 := by
    refine dead (K := 2 ^ 576) (rest := (2 ^ 448) * (iv v49) + (2 ^ 512) * (iv v50)) (P := (2 ^ 448) * (iv b.w6 * iv a.w1) + (2 ^ 448) * (iv v19)) (by linear_combination (2 ^ 448) * e48 + (2 ^ 448) * e49 + (2 ^ 512) * e50 + (2 ^ 512) * hz) ?_ ?_
    · linarith only [iv_nonneg v49, iv_nonneg v50]
    · linarith only [iv_mul_le b.w6 a.w1, iv_le v19]
  replace h := add_inv h; obtain ⟨v51, c51, e51, h⟩ := h
  replace h := mov_inv h
  replace h := adc_inv h; obtain ⟨v52, c52, e52, h⟩ := h
  have zc52 : bv c52 = 0 := by
    refine dead (K := 2 ^ 576) (rest := (2 ^ 448) * (iv v51) + (2 ^ 512) * (iv v52)) (P := (2 ^ 448) * (iv b.w6 * iv a.w1) + (2 ^ 448) * (iv v19) + (2 ^ 448) * (iv v47)) (by linear_combination (2 ^ 448) * e48 + (2 ^ 448) * e49 + (2 ^ 512) * e50 + (2 ^ 448) * e51 + (2 ^ 512) * e52 + (-2 ^ 576) * zc50 + (2 ^ 513) * hz) ?_ ?_
    · linarith only [iv_nonneg v51, iv_nonneg v52]
    · linarith only [iv_mul_le b.w6 a.w1, iv_le v19, iv_le v47]
  replace h := mov_inv h
  replace h := mov_inv h
  replace h := mulx_inv h; obtain ⟨l53, h53, e53, h⟩ := h
  replace h := add_inv h; obtain ⟨v54, c54, e54, h⟩ := h
  replace h := mov_inv h
  replace h := mov_inv h
  replace h := adc_inv h; obtain ⟨v55, c55, e55, h⟩ := h
  have zc55 : bv c55 = 0 := by
    refine dead (K := 2 ^ 256) (rest := (2 ^ 128) * (iv v54) + (2 ^ 192) * (iv v55)) (P := (2 ^ 128) * (iv b.w0 * iv a.w2) + (2 ^ 128) * (iv v26)) (by linear_combination (2 ^ 128) * e53 + (2 ^ 128) * e54 + (2 ^ 192) * e55 + (2 ^ 192) * hz) ?_ ?_
    · linarith only [iv_nonneg v54, iv_nonneg v55]
    · linarith only [iv_mul_le b.w0 a.w2, iv_le v26]
  replace h := mov_inv h
  replace h := mulx_inv h; obtain ⟨l56, h56, e56, h⟩ := h
  replace h := add_inv h; obtain ⟨v57, c57, e57, h⟩ := h
  replace h := adc_inv h; obtain ⟨v58, c58, e58, h⟩ := h
  have zc58 : bv c58 = 0 := by
    refine dead (K := 2 ^ 320) (rest := (2 ^ 192) * (iv v57) + (2 ^ 256) * (iv v58)) (P := (2 ^ 192) * (iv b.w1 * iv a.w2) + (2 ^ 192) * (iv v31)) (by linear_combination (2 ^ 192) * e56 + (2 ^ 192) * e57 + (2 ^ 256) * e58 + (2 ^ 256) * hz) ?_ ?_
    · linarith only [iv_nonneg v57, iv_nonneg v58]
    · linarith only [iv_mul_le b.w1 a.w2, iv_le v31]
  replace h := add_inv h; obtain ⟨v59, c59, e59, h⟩ := h
  replace h := mov_inv h
  replace h := adc_inv h; obtain ⟨v60, c60, e60, h⟩ := h
  have zc60 : bv c60 = 0 := by
    refine dead (K := 2 ^ 320) (rest := (2 ^ 192) * (iv v59) + (2 ^ 256) * (iv v60)) (P := (2 ^ 192) * (iv b.w1 * iv a.w2) + (2 ^ 192) * (iv v31) + (2 ^ 192) * (iv v55)) (by linear_combination (2 ^ 192) * e56 + (2 ^ 192) * e57 + (2 ^ 256) * e58 + (2 ^ 192) * e59 + (2 ^ 256) * e60 + (-2 ^ 320) * zc58 + (2 ^ 257) * hz) ?_ ?_
    · linarith only [iv_nonneg v59, iv_nonneg v60]
    · linarith only [iv_mul_le b.w1 a.w2, iv_le v31, iv_le v55]
  replace h := mov_inv h
  replace h := mulx_inv h; obtain ⟨l61, h61, e61, h⟩ := h
  replace h := add_inv h; obtain ⟨v62, c62, e62, h⟩ := h
  replace h := adc_inv h; obtain ⟨v63, c63, e63, h⟩ := h
  have zc63 : bv c63 = 0 := by
    refine dead (K := 2 ^ 384) (rest := (2 ^ 256) * (iv v62) + (2 ^ 320) * (iv v63)) (P := (2 ^ 256) * (iv b.w2 * iv a.w2) + (2 ^ 256) * (iv v36)) (by linear_combination (2 ^ 256) * e61 + (2 ^ 256) * e62 + (2 ^ 320) * e63 + (2 ^ 320) * hz) ?_ ?_
    · linarith only [iv_nonneg v62, iv_nonneg v63]
    · linarith only [iv_mul_le b.w2 a.w2, iv_le v36]
  replace h := add_inv h; obtain ⟨v64, c64, e64, h⟩ := h
  replace h := mov_inv h
  replace h := adc_inv h; obtain ⟨v65, c65, e65, h⟩ := h
  have zc65 : bv c65 = 0 := by
    refine dead (K := 2 ^ 384) (rest := (2 ^ 256) * (iv v64) + (2 ^ 320) * (iv v65)) (P := (2 ^ 256) * (iv b.w2 * iv a.w2) + (2 ^ 256) * (iv v36) + (2 ^ 256) * (iv v60)) (by linear_combination (2 ^ 256) * e61 + (2 ^ 256) * e62 + (2 ^ 320) * e63 + (2 ^ 256) * e64 + (2 ^ 320) * e65 + (-2 ^ 384) * zc63 + (2 ^ 321) * hz) ?_ ?_
    · linarith only [iv_nonneg v64, iv_nonneg v65]
    · linarith only [iv_mul_le b.w2 a.w2, iv_le v36, iv_le v60]
  replace h := mov_inv h
  replace h := mulx_inv h; obtain ⟨l66, h66, e66, h⟩ := h
  replace h := add_inv h; obtain ⟨v67, c67, e67, h⟩ := h
  replace h := adc_inv h; obtain ⟨v68, c68, e68, h⟩ := h
  have zc68 : bv c68 = 0 := by
    refine dead (K := 2 ^ 448) (rest := (2 ^ 320) * (iv v67) + (2 ^ 384) * (iv v68)) (P := (2 ^ 320) * (iv b.w3 * iv a.w2) + (2 ^ 320) * (iv v41)) (by linear_combination (2 ^ 320) * e66 + (2 ^ 320) * e67 + (2 ^ 384) * e68 + (2 ^ 384) * hz) ?_ ?_
    · linarith only [iv_nonneg v67, iv_nonneg v68]
    · linarith only [iv_mul_le b.w3 a.w2, iv_le v41]
  replace h := add_inv h; obtain ⟨v69, c69, e69, h⟩ := h
  replace h := mov_inv h
  replace h := adc_inv h; obtain ⟨v70, c70, e70, h⟩ := h
  have zc70 : bv c70 = 0 := by
    refine dead (K := 2 ^ 448) (rest := (2 ^ 320) * (iv v69) + (2 ^ 384) * (iv v70)) (P := (2 ^ 320) * (iv b.w3 * iv a.w2) + (2 ^ 320) * (iv v41) + (2 ^ 320) * (iv v65)) (by linear_combination (2 ^ 320) * e66 + (2 ^ 320) * e67 + (2 ^ 384) * e68 + (2 ^ 320) * e69 + (2 ^ 384) * e70 + (-2 ^ 448) * zc68 + (2 ^ 385) * hz) ?_ ?_
    · linarith only [iv_nonneg v69, iv_nonneg v70]
    · linarith only [iv_mul_le b.w3 a.w2, iv_le v41, iv_le v65]
  replace h := mov_inv h
  replace h := mulx_inv h; obtain ⟨l71, h71, e71, h⟩ := h
  replace h := add_inv h; obtain ⟨v72, c72, e72, h⟩ := h
  replace h := adc_inv h; obtain ⟨v73, c73, e73, h⟩ := h
  have zc73 : bv c73 = 0 := by
    refine dead (K := 2 ^ 512) (rest := (2 ^ 384) * (iv v72) + (2 ^ 448) * (iv v73)) (P := (2 ^ 384) * (iv b.w4 * iv a.w2) + (2 ^ 384) * (iv v46)) (by linear_combination (2 ^ 384) * e71 + (2 ^ 384) * e72 + (2 ^ 448) * e73 + (2 ^ 448) * hz) ?_ ?_
    · linarith only [iv_nonneg v72, iv_nonneg v73]
    · linarith only [iv_mul_le b.w4 a.w2, iv_le v46]
  replace h := add_inv h; obtain ⟨v74, c74, e74, h⟩ := h
  replace h := mov_inv h
  replace h := adc_inv h; obtain ⟨v75, c75, e75, h⟩ := h
  have zc75 : bv c75 = 0 := by
    refine dead (K := 2 ^ 512) (rest := (2 ^ 384) * (iv v74) + (2 ^ 448) * (iv v75)) (P := (2 ^ 384) * (iv b.w4 * iv a.w2) + (2 ^ 384) * (iv v46) + (2 ^ 384) * (iv v70)) (by linear_combination (2 ^ 384) * e71 + (2 ^ 384) * e72 + (2 ^ 448) * e73 + (2 ^ 384) * e74 + (2 ^ 448) * e75 + (-2 ^ 512) * zc73 + (2 ^ 449) * hz) ?_ ?_
    · linarith only [iv_nonneg v74, iv_nonneg v75]
    · linarith only [iv_mul_le b.w4 a.w2, iv_le v46, iv_le v70]
  replace h := mov_inv h
  replace h := mulx_inv h; obtain ⟨l76, h76, e76, h⟩ := h
  replace h := add_inv h; obtain ⟨v77, c77, e77, h⟩ := h
  replace h := adc_inv h; obtain ⟨v78, c78, e78, h⟩ := h
  have zc78 : bv c78 = 0 := by
    refine dead (K := 2 ^ 576) (rest := (2 ^ 448) * (iv v77) + (2 ^ 512) * (iv v78)) (P := (2 ^ 448) * (iv b.w5 * iv a.w2) + (2 ^ 448) * (iv v51)) (by linear_combination (2 ^ 448) * e76 + (2 ^ 448) * e77 + (2 ^ 512) * e78 + (2 ^ 512) * hz) ?_ ?_
    · linarith only [iv_nonneg v77, iv_nonneg v78]
    · linarith only [iv_mul_le b.w5 a.w2, iv_le v51]
  replace h := add_inv h; obtain ⟨v79, c79, e79, h⟩ := h
  replace h := mov_inv h
  replace h := adc_inv h; obtain ⟨v80, c80, e80, h⟩ := h
  have zc80 : bv c80 = 0 := by
    refine dead (K := 2 ^ 576) (rest := (2 ^ 448) * (iv v79) + (2 ^ 512) * (iv v80)) (P := (2 ^ 448) * (iv b.w5 * iv a.w2) + (2 ^ 448) * (iv v51) + (2 ^ 448) * (iv v75)) (by linear_combination (2 ^ 448) * e76 + (2 ^ 448) * e77 + (2 ^ 512) * e78 + (2 ^ 448) * e79 + (2 ^ 512) * e80 + (-2 ^ 576) * zc78 + (2 ^ 513) * hz) ?_ ?_
    · linarith only [iv_nonneg v79, iv_nonneg v80]
    · linarith only [iv_mul_le b.w5 a.w2, iv_le v51, iv_le v75]
  replace h := mov_inv h
  replace h := mulx_inv h; obtain ⟨l81, h81, e81, h⟩ := h
  replace h := add_inv h; obtain ⟨v82, c82, e82, h⟩ := h
  replace h := adc_inv h; obtain ⟨v83, c83, e83, h⟩ := h
  have zc83 : bv c83 = 0 := by
    refine dead (K := 2 ^ 640) (rest := (2 ^ 512) * (iv v82) + (2 ^ 576) * (iv v83)) (P := (2 ^ 512) * (iv b.w6 * iv a.w2) + (2 ^ 512) * (iv v52)) (by linear_combination (2 ^ 512) * e81 + (2 ^ 512) * e82 + (2 ^ 576) * e83 + (2 ^ 576) * hz) ?_ ?_
    · linarith only [iv_nonneg v82, iv_nonneg v83]
    · linarith only [iv_mul_le b.w6 a.w2, iv_le v52]
  replace h := add_inv h; obtain ⟨v84, c84, e84, h⟩ := h
  replace h := mov_inv h
  replace h := adc_inv h; obtain ⟨v85, c85, e85, h⟩ := h
  have zc85 : bv c85 = 0 := by
    refine dead (K := 2 ^ 640) (rest := (2 ^ 512) * (iv v84) + (2 ^ 576) * (iv v85)) (P := (2 ^ 512) * (iv b.w6 * iv a.w2) + (2 ^ 512) * (iv v52) + (2 ^ 512) * (iv v80)) (by linear_combination (2 ^ 512) * e81 + (2 ^ 512) * e82 + (2 ^ 576) * e83 + (2 ^ 512) * e84 + (2 ^ 576) * e85 + (-2 ^ 640) * zc83 + (2 ^ 577) * hz) ?_ ?_
    · linarith only [iv_nonneg v84, iv_nonneg v85]
    · linarith only [iv_mul_le b.w6 a.w2, iv_le v52, iv_le v80]
  replace h := mov_inv h
  replace h := mov_inv h
  replace h := mulx_inv h; obtain ⟨l86, h86, e86, h⟩ := h
  replace h := add_inv h; obtain ⟨v87, c87, e87, h⟩ := h
  replace h := mov_inv h
  replace h := mov_inv h
  replace h := adc_inv h; obtain ⟨v88, c88, e88, h⟩ := h
  have zc88 : bv c88 = 0 := by
    refine dead (K := 2 ^ 320) (rest := (2 ^ 192) * (iv v87) + (2 ^ 256) * (iv v88)) (P := (2 ^ 192) * (iv b.w0 * iv a.w3) + (2 ^ 192) * (iv v59)) (by linear_combination (2 ^ 192) * e86 + (2 ^ 192) * e87 + (2 ^ 256) * e88 + (2 ^ 256) * hz) ?_ ?_
    · linarith only [iv_nonneg v87, iv_nonneg v88]
    · linarith only [iv_mul_le b.w0 a.w3, iv_le v59]
  replace h := mov_inv h
  replace h := mulx_inv h; obtain ⟨l89, h89, e89, h⟩ := h
  replace h := add_inv h; obtain ⟨v90, c90, e90, h⟩ := h
  replace h := adc_inv h; obtain ⟨v91, c91, e91, h⟩ := h
  have zc91 : bv c91 = 0 := by
    refine dead (K := 2 ^ 384) (rest := (2 ^ 256) * (iv v90) + (2 ^ 320) * (iv v91)) (P := (2 ^ 256) * (iv b.w1 * iv a.w3) + (2 ^ 256) * (iv v64)) (by linear_combination (2 ^ 256) * e89 + (2 ^ 256) * e90 + (2 ^ 320) * e91 + (2 ^ 320) * hz) ?_ ?_
    · linarith only [iv_nonneg v90, iv_nonneg v91]
    · linarith only [iv_mul_le b.w1 a.w3, iv_le v64]
  replace h := add_inv h; obtain ⟨v92, c92, e92, h⟩ := h
  replace h := mov_inv h
  replace h := adc_inv h; obtain ⟨v93, c93, e93, h⟩ := h
  have zc93 : bv c93 = 0 := by
    refine dead (K := 2 ^ 384) (rest := (2 ^ 256) * (iv v92) + (2 ^ 320) * (iv v93)) (P := (2 ^ 256) * (iv b.w1 * iv a.w3) + (2 ^ 256) * (iv v64) + (2 ^ 256) * (iv v88)) (by linear_combination (2 ^ 256) * e89 + (2 ^ 256) * e90 + (2 ^ 320) * e91 + (2 ^ 256) * e92 + (2 ^ 320) * e93 + (-2 ^ 384) * zc91 + (2 ^ 321) * hz) ?_ ?_
    · linarith only [iv_nonneg v92, iv_nonneg v93]
    · linarith only [iv_mul_le b.w1 a.w3, iv_le v64, iv_le v88]
  replace h := mov_inv h
  replace h := mulx_inv h; obtain ⟨l94, h94, e94, h⟩ := h
  replace h := add_inv h; obtain ⟨v95, c95, e95, h⟩ := h
  replace h := adc_inv h; obtain ⟨v96, c96, e96, h⟩ := h
  have zc96 : bv c96 = 0 := by
    refine dead (K := 2 ^ 448) (rest := (2 ^ 320) * (iv v95) + (2 ^ 384) * (iv v96)) (P := (2 ^ 320) * (iv b.w2 * iv a.w3) + (2 ^ 320) * (iv v69)) (by linear_combination (2 ^ 320) * e94 + (2 ^ 320) * e95 + (2 ^ 384) * e96 + (2 ^ 384) * hz) ?_ ?_
    · linarith only [iv_nonneg v95, iv_nonneg v96]
    · linarith only [iv_mul_le b.w2 a.w3, iv_le v69]
  replace h := add_inv h; obtain ⟨v97, c97, e97, h⟩ := h
  replace h := mov_inv h
  replace h := adc_inv h; obtain ⟨v98, c98, e98, h⟩ := h
  have zc98 : bv c98 = 0 := by
    refine dead (K := 2 ^ 448) (rest := (2 ^ 320) * (iv v97) + (2 ^ 384) * (iv v98)) (P := (2 ^ 320) * (iv b.w2 * iv a.w3) + (2 ^ 320) * (iv v69) + (2 ^ 320) * (iv v93)) (by linear_combination (2 ^ 320) * e94 + (2 ^ 320) * e95 + (2 ^ 384) * e96 + (2 ^ 320) * e97 + (2 ^ 384) * e98 + (-2 ^ 448) * zc96 + (2 ^ 385) * hz) ?_ ?_
    · linarith only [iv_nonneg v97, iv_nonneg v98]
    · linarith only [iv_mul_le b.w2 a.w3, iv_le v69, iv_le v93]
  replace h := mov_inv h
  replace h := mulx_inv h; obtain ⟨l99, h99, e99, h⟩ := h
  replace h := add_inv h; obtain ⟨v100, c100, e100, h⟩ := h
  replace h := adc_inv h; obtain ⟨v101, c101, e101, h⟩ := h
  have zc101 : bv c101 = 0 := by
    refine dead (K := 2 ^ 512) (rest := (2 ^ 384) * (iv v100) + (2 ^ 448) * (iv v101)) (P := (2 ^ 384) * (iv b.w3 * iv a.w3) + (2 ^ 384) * (iv v74)) (by linear_combination (2 ^ 384) * e99 + (2 ^ 384) * e100 + (2 ^ 448) * e101 + (2 ^ 448) * hz) ?_ ?_
    · linarith only [iv_nonneg v100, iv_nonneg v101]
    · linarith only [iv_mul_le b.w3 a.w3, iv_le v74]
  replace h := add_inv h; obtain ⟨v102, c102, e102, h⟩ := h
  replace h := mov_inv h
  replace h := adc_inv h; obtain ⟨v103, c103, e103, h⟩ := h
  have zc103 : bv c103 = 0 := by
    refine dead (K := 2 ^ 512) (rest := (2 ^ 384) * (iv v102) + (2 ^ 448) * (iv v103)) (P := (2 ^ 384) * (iv b.w3 * iv a.w3) + (2 ^ 384) * (iv v74) + (2 ^ 384) * (iv v98)) (by linear_combination (2 ^ 384) * e99 + (2 ^ 384) * e100 + (2 ^ 448) * e101 + (2 ^ 384) * e102 + (2 ^ 448) * e103 + (-2 ^ 512) * zc101 + (2 ^ 449) * hz) ?_ ?_
    · linarith only [iv_nonneg v102, iv_nonneg v103]
    · linarith only [iv_mul_le b.w3 a.w3, iv_le v74, iv_le v98]
  replace h := mov_inv h
  replace h := mulx_inv h; obtain ⟨l104, h104, e104, h⟩ := h
  replace h := add_inv h; obtain ⟨v105, c105, e105, h⟩ := h
  replace h := adc_inv h; obtain ⟨v106, c106, e106, h⟩ := h
  have zc106 : bv c106 = 0 := by
    refine dead (K := 2 ^ 576) (rest := (2 ^ 448) * (iv v105) + (2 ^ 512) * (iv v106)) (P := (2 ^ 448) * (iv b.w4 * iv a.w3) + (2 ^ 448) * (iv v79)) (by linear_combination (2 ^ 448) * e104 + (2 ^ 448) * e105 + (2 ^ 512) * e106 + (2 ^ 512) * hz) ?_ ?_
    · linarith only [iv_nonneg v105, iv_nonneg v106]
    · linarith only [iv_mul_le b.w4 a.w3, iv_le v79]
  replace h := add_inv h; obtain ⟨v107, c107, e107, h⟩ := h
  replace h := mov_inv h
  replace h := adc_inv h; obtain ⟨v108, c108, e108, h⟩ := h
  have zc108 : bv c108 = 0 := by
    refine dead (K := 2 ^ 576) (rest := (2 ^ 448) * (iv v107) + (2 ^ 512) * (iv v108)) (P := (2 ^ 448) * (iv b.w4 * iv a.w3) + (2 ^ 448) * (iv v79) + (2 ^ 448) * (iv v103)) (by linear_combination (2 ^ 448) * e104 + (2 ^ 448) * e105 + (2 ^ 512) * e106 + (2 ^ 448) * e107 + (2 ^ 512) * e108 + (-2 ^ 576) * zc106 + (2 ^ 513) * hz) ?_ ?_
    · linarith only [iv_nonneg v107, iv_nonneg v108]
    · linarith only [iv_mul_le b.w4 a.w3, iv_le v79, iv_le v103]
  replace h := mov_inv h
  replace h := mulx_inv h; obtain ⟨l109, h109, e109, h⟩ := h
  replace h := add_inv h; obtain ⟨v110, c110, e110, h⟩ := h
  replace h := adc_inv h; obtain ⟨v111, c111, e111, h⟩ := h
  have zc111 : bv c111 = 0 := by
    refine dead (K := 2 ^ 640) (rest := (2 ^ 512) * (iv v110) + (2 ^ 576) * (iv v111)) (P := (2 ^ 512) * (iv b.w5 * iv a.w3) + (2 ^ 512) * (iv v84)) (by linear_combination (2 ^ 512) * e109 + (2 ^ 512) * e110 + (2 ^ 576) * e111 + (2 ^ 576) * hz) ?_ ?_
    · linarith only [iv_nonneg v110, iv_nonneg v111]
    · linarith only [iv_mul_le b.w5 a.w3, iv_le v84]
  replace h := add_inv h; obtain ⟨v112, c112, e112, h⟩ := h
  replace h := mov_inv h
  replace h := adc_inv h; obtain ⟨v113, c113, e113, h⟩ := h
  have zc113 : bv c113 = 0 := by
    refine dead (K := 2 ^ 640) (rest := (2 ^ 512) * (iv v112) + (2 ^ 576) * (iv v113)) (P := (2 ^ 512) * (iv b.w5 * iv a.w3) + (2 ^ 512) * (iv v84) + (2 ^ 512) * (iv v108)) (by linear_combination (2 ^ 512) * e109 + (2 ^ 512) * e110 + (2 ^ 576) * e111 + (2 ^ 512) * e112 + (2 ^ 576) * e113 + (-2 ^ 640) * zc111 + (2 ^ 577) * hz) ?_ ?_
    · linarith only [iv_nonneg v112, iv_nonneg v113]
    · linarith only [iv_mul_le b.w5 a.w3, iv_le v84, iv_le v108]
  replace h := mov_inv h
  replace h := mulx_inv h; obtain ⟨l114, h114, e114, h⟩ := h
  replace h := add_inv h; obtain ⟨v115, c115, e115, h⟩ := h
  replace h := adc_inv h; obtain ⟨v116, c116, e116, h⟩ := h
  have zc116 : bv c116 = 0 := by
    refine dead (K := 2 ^ 704) (rest := (2 ^ 576) * (iv v115) + (2 ^ 640) * (iv v116)) (P := (2 ^ 576) * (iv b.w6 * iv a.w3) + (2 ^ 576) * (iv v85)) (by linear_combination (2 ^ 576) * e114 + (2 ^ 576) * e115 + (2 ^ 640) * e116 + (2 ^ 640) * hz) ?_ ?_
    · linarith only [iv_nonneg v115, iv_nonneg v116]
    · linarith only [iv_mul_le b.w6 a.w3, iv_le v85]
  replace h := add_inv h; obtain ⟨v117, c117, e117, h⟩ := h
  replace h := mov_inv h
  replace h := adc_inv h; obtain ⟨v118, c118, e118, h⟩ := h
  have zc118 : bv c118 = 0 := by
    refine dead (K := 2 ^ 704) (rest := (2 ^ 576) * (iv v117) + (2 ^ 640) * (iv v118)) (P := (2 ^ 576) * (iv b.w6 * iv a.w3) + (2 ^ 576) * (iv v85) + (2 ^ 576) * (iv v113)) (by linear_combination (2 ^ 576) * e114 + (2 ^ 576) * e115 + (2 ^ 640) * e116 + (2 ^ 576) * e117 + (2 ^ 640) * e118 + (-2 ^ 704) * zc116 + (2 ^ 641) * hz) ?_ ?_
    · linarith only [iv_nonneg v117, iv_nonneg v118]
    · linarith only [iv_mul_le b.w6 a.w3, iv_le v85, iv_le v113]
  replace h := mov_inv h
  replace h := mov_inv h
  replace h := mulx_inv h; obtain ⟨l119, h119, e119, h⟩ := h
  replace h := add_inv h; obtain ⟨v120, c120, e120, h⟩ := h
  replace h := mov_inv h
  replace h := mov_inv h
  replace h := adc_inv h; obtain ⟨v121, c121, e121, h⟩ := h
  have zc121 : bv c121 = 0 := by
    refine dead (K := 2 ^ 384) (rest := (2 ^ 256) * (iv v120) + (2 ^ 320) * (iv v121)) (P := (2 ^ 256) * (iv b.w0 * iv a.w4) + (2 ^ 256) * (iv v92)) (by linear_combination (2 ^ 256) * e119 + (2 ^ 256) * e120 + (2 ^ 320) * e121 + (2 ^ 320) * hz) ?_ ?_
    · linarith only [iv_nonneg v120, iv_nonneg v121]
    · linarith only [iv_mul_le b.w0 a.w4, iv_le v92]
  replace h := mov_inv h
  replace h := mulx_inv h; obtain ⟨l122, h122, e122, h⟩ := h
  replace h := add_inv h; obtain ⟨v123, c123, e123, h⟩ := h
  replace h := adc_inv h; obtain ⟨v124, c124, e124, h⟩ := h
  have zc124 : bv c124 = 0 := by
    refine dead (K := 2 ^ 448) (rest := (2 ^ 320) * (iv v123) + (2 ^ 384) * (iv v124)) (P := (2 ^ 320) * (iv b.w1 * iv a.w4) + (2 ^ 320) * (iv v97)) (by linear_combination (2 ^ 320) * e122 + (2 ^ 320) * e123 + (2 ^ 384) * e124 + (2 ^ 384) * hz) ?_ ?_
    · linarith only [iv_nonneg v123, iv_nonneg v124]
    · linarith only [iv_mul_le b.w1 a.w4, iv_le v97]
  replace h := add_inv h; obtain ⟨v125, c125, e125, h⟩ := h
  replace h := mov_inv h
  replace h := adc_inv h; obtain ⟨v126, c126, e126, h⟩ := h
  have zc126 : bv c126 = 0 := by
    refine dead (K := 2 ^ 448) (rest := (2 ^ 320) * (iv v125) + (2 ^ 384) * (iv v126)) (P := (2 ^ 320) * (iv b.w1 * iv a.w4) + (2 ^ 320) * (iv v97) + (2 ^ 320) * (iv v121)) (by linear_combination (2 ^ 320) * e122 + (2 ^ 320) * e123 + (2 ^ 384) * e124 + (2 ^ 320) * e125 + (2 ^ 384) * e126 + (-2 ^ 448) * zc124 + (2 ^ 385) * hz) ?_ ?_
    · linarith only [iv_nonneg v125, iv_nonneg v126]
    · linarith only [iv_mul_le b.w1 a.w4, iv_le v97, iv_le v121]
  replace h := mov_inv h
  replace h := mulx_inv h; obtain ⟨l127, h127, e127, h⟩ := h
  replace h := add_inv h; obtain ⟨v128, c128, e128, h⟩ := h
  replace h := adc_inv h; obtain ⟨v129, c129, e129, h⟩ := h
  have zc129 : bv c129 = 0 := by
    refine dead (K := 2 ^ 512) (rest := (2 ^ 384) * (iv v128) + (2 ^ 448) * (iv v129)) (P := (2 ^ 384) * (iv b.w2 * iv a.w4) + (2 ^ 384) * (iv v102)) (by linear_combination (2 ^ 384) * e127 + (2 ^ 384) * e128 + (2 ^ 448) * e129 + (2 ^ 448) * hz) ?_ ?_
    · linarith only [iv_nonneg v128, iv_nonneg v129]
    · linarith only [iv_mul_le b.w2 a.w4, iv_le v102]
  replace h := add_inv h; obtain ⟨v130, c130, e130, h⟩ := h
  replace h := mov_inv h
  replace h := adc_inv h; obtain ⟨v131, c131, e131, h⟩ := h
  have zc131 : bv c131 = 0 := by
    refine dead (K := 2 ^ 512) (rest := (2 ^ 384) * (iv v130) + (2 ^ 448) * (iv v131)) (P := (2 ^ 384) * (iv b.w2 * iv a.w4) + (2 ^ 384) * (iv v102) + (2 ^ 384) * (iv v126)) (by linear_combination (2 ^ 384) * e127 + (2 ^ 384) * e128 + (2 ^ 448) * e129 + (2 ^ 384) * e130 + (2 ^ 448) * e131 + (-2 ^ 512) * zc129 + (2 ^ 449) * hz) ?_ ?_
    · linarith only [iv_nonneg v130, iv_nonneg v131]
    · linarith only [iv_mul_le b.w2 a.w4, iv_le v102, iv_le v126]
  replace h := mov_inv h
  replace h := mulx_inv h; obtain ⟨l132, h132, e132, h⟩ := h
  replace h := add_inv h; obtain ⟨v133, c133, e133, h⟩ := h
  replace h := adc_inv h; obtain ⟨v134, c134, e134, h⟩ := h
  have zc134 : bv c134 = 0 := by
    refine dead (K := 2 ^ 576) (rest := (2 ^ 448) * (iv v133) + (2 ^ 512) * (iv v134)) (P := (2 ^ 448) * (iv b.w3 * iv a.w4) + (2 ^ 448) * (iv v107)) (by linear_combination (2 ^ 448) * e132 + (2 ^ 448) * e133 + (2 ^ 512) * e134 + (2 ^ 512) * hz) ?_ ?_
    · linarith only [iv_nonneg v133, iv_nonneg v134]
    · linarith only [iv_mul_le b.w3 a.w4, iv_le v107]
  replace h := add_inv h; obtain ⟨v135, c135, e135, h⟩ := h
  replace h := mov_inv h
  replace h := adc_inv h; obtain ⟨v136, c136, e136, h⟩ := h
  have zc136 : bv c136 = 0 := by
    refine dead (K := 2 ^ 576) (rest := (2 ^ 448) * (iv v135) + (2 ^ 512) * (iv v136)) (P := (2 ^ 448) * (iv b.w3 * iv a.w4) + (2 ^ 448) * (iv v107) + (2 ^ 448) * (iv v131)) (by linear_combination (2 ^ 448) * e132 + (2 ^ 448) * e133 + (2 ^ 512) * e134 + (2 ^ 448) * e135 + (2 ^ 512) * e136 + (-2 ^ 576) * zc134 + (2 ^ 513) * hz) ?_ ?_
    · linarith only [iv_nonneg v135, iv_nonneg v136]
    · linarith only [iv_mul_le b.w3 a.w4, iv_le v107, iv_le v131]
  replace h := mov_inv h
  replace h := mulx_inv h; obtain ⟨l137, h137, e137, h⟩ := h
  replace h := add_inv h; obtain ⟨v138, c138, e138, h⟩ := h
  replace h := adc_inv h; obtain ⟨v139, c139, e139, h⟩ := h
  have zc139 : bv c139 = 0 := by
    refine dead (K := 2 ^ 640) (rest := (2 ^ 512) * (iv v138) + (2 ^ 576) * (iv v139)) (P := (2 ^ 512) * (iv b.w4 * iv a.w4) + (2 ^ 512) * (iv v112)) (by linear_combination (2 ^ 512) * e137 + (2 ^ 512) * e138 + (2 ^ 576) * e139 + (2 ^ 576) * hz) ?_ ?_
    · linarith only [iv_nonneg v138, iv_nonneg v139]
    · linarith only [iv_mul_le b.w4 a.w4, iv_le v112]
  replace h := add_inv h; obtain ⟨v140, c140, e140, h⟩ := h
  replace h := mov_inv h
  replace h := adc_inv h; obtain ⟨v141, c141, e141, h⟩ := h
  have zc141 : bv c141 = 0 := by
    refine dead (K := 2 ^ 640) (rest := (2 ^ 512) * (iv v140) + (2 ^ 576) * (iv v141)) (P := (2 ^ 512) * (iv b.w4 * iv a.w4) + (2 ^ 512) * (iv v112) + (2 ^ 512) * (iv v136)) (by linear_combination (2 ^ 512) * e137 + (2 ^ 512) * e138 + (2 ^ 576) * e139 + (2 ^ 512) * e140 + (2 ^ 576) * e141 + (-2 ^ 640) * zc139 + (2 ^ 577) * hz) ?_ ?_
    · linarith only [iv_nonneg v140, iv_nonneg v141]
    · linarith only [iv_mul_le b.w4 a.w4, iv_le v112, iv_le v136]
  replace h := mov_inv h
  replace h := mulx_inv h; obtain ⟨l142, h142, e142, h⟩ := h
  replace h := add_inv h; obtain ⟨v143, c143, e143, h⟩ := h
  replace h := adc_inv h; obtain ⟨v144, c144, e144, h⟩ := h
  have zc144 : bv c144 = 0 := by
    refine dead (K := 2 ^ 704) (rest := (2 ^ 576) * (iv v143) + (2 ^ 640) * (iv v144)) (P := (2 ^ 576) * (iv b.w5 * iv a.w4) + (2 ^ 576) * (iv v117)) (by linear_combination (2 ^ 576) * e142 + (2 ^ 576) * e143 + (2 ^ 640) * e144 + (2 ^ 640) * hz) ?_ ?_
    · linarith only [iv_nonneg v143, iv_nonneg v144]
    · linarith only [iv_mul_le b.w5 a.w4, iv_le v117]
  replace h := add_inv h; obtain ⟨v145, c145, e145, h⟩ := h
  replace h := mov_inv h
  replace h := adc_inv h; obtain ⟨v146, c146, e146, h⟩ := h
  have zc146 : bv c146 = 0 := by
    refine dead (K := 2 ^ 704) (rest := (2 ^ 576) * (iv v145) + (2 ^ 640) * (iv v146)) (P := (2 ^ 576) * (iv b.w5 * iv a.w4) + (2 ^ 576) * (iv v117) + (2 ^ 576) * (iv v141)) (by linear_combination (2 ^ 576) * e142 + (2 ^ 576) * e143 + (2 ^ 640) * e144 + (2 ^ 576) * e145 + (2 ^ 640) * e146 + (-2 ^ 704) * zc144 + (2 ^ 641) * hz) ?_ ?_
    · linarith only [iv_nonneg v145, iv_nonneg v146]
    · linarith only [iv_mul_le b.w5 a.w4, iv_le v117, iv_le v141]
  replace h := mov_inv h
  replace h := mulx_inv h; obtain ⟨l147, h147, e147, h⟩ := h
  replace h := add_inv h; obtain ⟨v148, c148, e148, h⟩ := h
  replace h := adc_inv h; obtain ⟨v149, c149, e149, h⟩ := h
  have zc149 : bv c149 = 0 := by
    refine dead (K := 2 ^ 768) (rest := (2 ^ 640) * (iv v148) + (2 ^ 704) * (iv v149)) (P := (2 ^ 640) * (iv b.w6 * iv a.w4) + (2 ^ 640) * (iv v118)) (by linear_combination (2 ^ 640) * e147 + (2 ^ 640) * e148 + (2 ^ 704) * e149 + (2 ^ 704) * hz) ?_ ?_
    · linarith only [iv_nonneg v148, iv_nonneg v149]
    · linarith only [iv_mul_le b.w6 a.w4, iv_le v118]
  replace h := add_inv h; obtain ⟨v150, c150, e150, h⟩ := h
  replace h := mov_inv h
  replace h := adc_inv h; obtain ⟨v151, c151, e151, h⟩ := h
  have zc151 : bv c151 = 0 := by
    refine dead (K := 2 ^ 768) (rest := (2 ^ 640) * (iv v150) + (2 ^ 704) * (iv v151)) (P := (2 ^ 640) * (iv b.w6 * iv a.w4) + (2 ^ 640) * (iv v118) + (2 ^ 640) * (iv v146)) (by linear_combination (2 ^ 640) * e147 + (2 ^ 640) * e148 + (2 ^ 704) * e149 + (2 ^ 640) * e150 + (2 ^ 704) * e151 + (-2 ^ 768) * zc149 + (2 ^ 705) * hz) ?_ ?_
    · linarith only [iv_nonneg v150, iv_nonneg v151]
    · linarith only [iv_mul_le b.w6 a.w4, iv_le v118, iv_le v146]
  replace h := mov_inv h
  replace h := mov_inv h
  replace h := mulx_inv h; obtain ⟨l152, h152, e152, h⟩ := h
  replace h := add_inv h; obtain ⟨v153, c153, e153, h⟩ := h
  replace h := mov_inv h
  replace h := mov_inv h
  replace h := adc_inv h; obtain ⟨v154, c154, e154, h⟩ := h
  have zc154 : bv c154 = 0 := by
    refine dead (K := 2 ^ 448) (rest := (2 ^ 320) * (iv v153) + (2 ^ 384) * (iv v154)) (P := (2 ^ 320) * (iv b.w0 * iv a.w5) + (2 ^ 320) * (iv v125)) (by linear_combination (2 ^ 320) * e152 + (2 ^ 320) * e153 + (2 ^ 384) * e154 + (2 ^ 384) * hz) ?_ ?_
    · linarith only [iv_nonneg v153, iv_nonneg v154]
    · linarith only [iv_mul_le b.w0 a.w5, iv_le v125]
  replace h := mov_inv h
  replace h := mulx_inv h; obtain ⟨l155, h155, e155, h⟩ := h
  replace h := add_inv h; obtain ⟨v156, c156, e156, h⟩ := h
  replace h := adc_inv h; obtain ⟨v157, c157, e157, h⟩ := h
  have zc157 : bv c157 = 0 := by
    refine dead (K := 2 ^ 512) (rest := (2 ^ 384) * (iv v156) + (2 ^ 448) * (iv v157)) (P := (2 ^ 384) * (iv b.w1 * iv a.w5) + (2 ^ 384) * (iv v130)) (by linear_combination (2 ^ 384) * e155 + (2 ^ 384) * e156 + (2 ^ 448) * e157 + (2 ^ 448) * hz) ?_ ?_
    · linarith only [iv_nonneg v156, iv_nonneg v157]
    · linarith only [iv_mul_le b.w1 a.w5, iv_le v130]
  replace h := add_inv h; obtain ⟨v158, c158, e158, h⟩ := h
  replace h := mov_inv h
  replace h := adc_inv h; obtain ⟨v159, c159, e159, h⟩ := h
  have zc159 : bv c159 = 0 := by
    refine dead (K := 2 ^ 512) (rest := (2 ^ 384) * (iv v158) + (2 ^ 448) * (iv v159)) (P := (2 ^ 384) * (iv b.w1 * iv a.w5) + (2 ^ 384) * (iv v130) + (2 ^ 384) * (iv v154)) (by linear_combination (2 ^ 384) * e155 + (2 ^ 384) * e156 + (2 ^ 448) * e157 + (2 ^ 384) * e158 + (2 ^ 448) * e159 + (-2 ^ 512) * zc157 + (2 ^ 449) * hz) ?_ ?_
    · linarith only [iv_nonneg v158, iv_nonneg v159]
    · linarith only [iv_mul_le b.w1 a.w5, iv_le v130, iv_le v154]
  replace h := mov_inv h
  replace h := mulx_inv h; obtain ⟨l160, h160, e160, h⟩ := h
  replace h := add_inv h; obtain ⟨v161, c161, e161, h⟩ := h
  replace h := adc_inv h; obtain ⟨v162, c162, e162, h⟩ := h
  have zc162 : bv c162 = 0 := by
    refine dead (K := 2 ^ 576) (rest := (2 ^ 448) * (iv v161) + (2 ^ 512) * (iv v162)) (P := (2 ^ 448) * (iv b.w2 * iv a.w5) + (2 ^ 448) * (iv v135)) (by linear_combination (2 ^ 448) * e160 + (2 ^ 448) * e161 + (2 ^ 512) * e162 + (2 ^ 512) * hz) ?_ ?_
    · linarith only [iv_nonneg v161, iv_nonneg v162]
    · linarith only [iv_mul_le b.w2 a.w5, iv_le v135]
  replace h := add_inv h; obtain ⟨v163, c163, e163, h⟩ := h
  replace h := mov_inv h
  replace h := adc_inv h; obtain ⟨v164, c164, e164, h⟩ := h
  have zc164 : bv c164 = 0 := by
    refine dead (K := 2 ^ 576) (rest := (2 ^ 448) * (iv v163) + (2 ^ 512) * (iv v164)) (P := (2 ^ 448) * (iv b.w2 * iv a.w5) + (2 ^ 448) * (iv v135) + (2 ^ 448) * (iv v159)) (by linear_combination (2 ^ 448) * e160 + (2 ^ 448) * e161 + (2 ^ 512) * e162 + (2 ^ 448) * e163 + (2 ^ 512) * e164 + (-2 ^ 576) * zc162 + (2 ^ 513) * hz) ?_ ?_
    · linarith only [iv_nonneg v163, iv_nonneg v164]
    · linarith only [iv_mul_le b.w2 a.w5, iv_le v135, iv_le v159]
  replace h := mov_inv h
  replace h := mulx_inv h; obtain ⟨l165, h165, e165, h⟩ := h
  replace h := add_inv h; obtain ⟨v166, c166, e166, h⟩ := h
  replace h := adc_inv h; obtain ⟨v167, c167, e167, h⟩ := h
  have zc167 : bv c167 = 0 := by
    refine dead (K := 2 ^ 640) (rest := (2 ^ 512) * (iv v166) + (2 ^ 576) * (iv v167)) (P := (2 ^ 512) * (iv b.w3 * iv a.w5) + (2 ^ 512) * (iv v140)) (by linear_combination (2 ^ 512) * e165 + (2 ^ 512) * e166 + (2 ^ 576) * e167 + (2 ^ 576) * hz) ?_ ?_
    · linarith only [iv_nonneg v166, iv_nonneg v167]
    · linarith only [iv_mul_le b.w3 a.w5, iv_le v140]
  replace h := add_inv h; obtain ⟨v168, c168, e168, h⟩ := h
  replace h := mov_inv h
  replace h := adc_inv h; obtain ⟨v169, c169, e169, h⟩ := h
  have zc169 : bv c169 = 0 := by
    refine dead (K := 2 ^ 640) (rest := (2 ^ 512) * (iv v168) + (2 ^ 576) * (iv v169)) (P := (2 ^ 512) * (iv b.w3 * iv a.w5) + (2 ^ 512) * (iv v140) + (2 ^ 512) * (iv v164)) (by linear_combination (2 ^ 512) * e165 + (2 ^ 512) * e166 + (2 ^ 576) * e167 + (2 ^ 512) * e168 + (2 ^ 576) * e169 + (-2 ^ 640) * zc167 + (2 ^ 577) * hz) ?_ ?_
    · linarith only [iv_nonneg v168, iv_nonneg v169]
    · linarith only [iv_mul_le b.w3 a.w5, iv_le v140, iv_le v164]
  replace h := mov_inv h
  replace h := mulx_inv h; obtain ⟨l170, h170, e170, h⟩ := h
  replace h := add_inv h; obtain ⟨v171, c171, e171, h⟩ := h
  replace h := adc_inv h; obtain ⟨v172, c172, e172, h⟩ := h
  have zc172 : bv c172 = 0 := by
    refine dead (K := 2 ^ 704) (rest := (2 ^ 576) * (iv v171) + (2 ^ 640) * (iv v172)) (P := (2 ^ 576) * (iv b.w4 * iv a.w5) + (2 ^ 576) * (iv v145)) (by linear_combination (2 ^ 576) * e170 + (2 ^ 576) * e171 + (2 ^ 640) * e172 + (2 ^ 640) * hz) ?_ ?_
    · linarith only [iv_nonneg v171, iv_nonneg v172]
    · linarith only [iv_mul_le b.w4 a.w5, iv_le v145]
  replace h := add_inv h; obtain ⟨v173, c173, e173, h⟩ := h
  replace h := mov_inv h
  replace h := adc_inv h; obtain ⟨v174, c174, e174, h⟩ := h
  have zc174 : bv c174 = 0 := by
    refine dead (K := 2 ^ 704) (rest := (2 ^ 576) * (iv v173) + (2 ^ 640) * (iv v174)) (P := (2 ^ 576) * (iv b.w4 * iv a.w5) + (2 ^ 576) * (iv v145) + (2 ^ 576) * (iv v169)) (by linear_combination (2 ^ 576) * e170 + (2 ^ 576) * e171 + (2 ^ 640) * e172 + (2 ^ 576) * e173 + (2 ^ 640) * e174 + (-2 ^ 704) * zc172 + (2 ^ 641) * hz) ?_ ?_
    · linarith only [iv_nonneg v173, iv_nonneg v174]
    · linarith only [iv_mul_le b.w4 a.w5, iv_le v145, iv_le v169]
  replace h := mov_inv h
  replace h := mulx_inv h; obtain ⟨l175, h175, e175, h⟩ := h
  replace h := add_inv h; obtain ⟨v176, c176, e176, h⟩ := h
  replace h := adc_inv h; obtain ⟨v177, c177, e177, h⟩ := h
  have zc177 : bv c177 = 0 := by
    refine dead (K := 2 ^ 768) (rest := (2 ^ 640) * (iv v176) + (2 ^ 704) * (iv v177)) (P := (2 ^ 640) * (iv b.w5 * iv a.w5) + (2 ^ 640) * (iv v150)) (by linear_combination (2 ^ 640) * e175 + (2 ^ 640) * e176 + (2 ^ 704) * e177 + (2 ^ 704) * hz) ?_ ?_
    · linarith only [iv_nonneg v176, iv_nonneg v177]
    · linarith only [iv_mul_le b.w5 a.w5, iv_le v150]
  replace h := add_inv h; obtain ⟨v178, c178, e178, h⟩ := h
  replace h := mov_inv h
  replace h := adc_inv h; obtain ⟨v179, c179, e179, h⟩ := h
  have zc179 : bv c179 = 0 := by
    refine dead (K := 2 ^ 768) (rest := (2 ^ 640) * (iv v178) + (2 ^ 704) * (iv v179)) (P := (2 ^ 640) * (iv b.w5 * iv a.w5) + (2 ^ 640) * (iv v150) + (2 ^ 640) * (iv v174)) (by linear_combination (2 ^ 640) * e175 + (2 ^ 640) * e176 + (2 ^ 704) * e177 + (2 ^ 640) * e178 + (2 ^ 704) * e179 + (-2 ^ 768) * zc177 + (2 ^ 705) * hz) ?_ ?_
    · linarith only [iv_nonneg v178, iv_nonneg v179]
    · linarith only [iv_mul_le b.w5 a.w5, iv_le v150, iv_le v174]
  replace h := mov_inv h
  replace h := mulx_inv h; obtain ⟨l180, h180, e180, h⟩ := h
  replace h := add_inv h; obtain ⟨v181, c181, e181, h⟩ := h
  replace h := adc_inv h; obtain ⟨v182, c182, e182, h⟩ := h
  have zc182 : bv c182 = 0 := by
    refine dead (K := 2 ^ 832) (rest := (2 ^ 704) * (iv v181) + (2 ^ 768) * (iv v182)) (P := (2 ^ 704) * (iv b.w6 * iv a.w5) + (2 ^ 704) * (iv v151)) (by linear_combination (2 ^ 704) * e180 + (2 ^ 704) * e181 + (2 ^ 768) * e182 + (2 ^ 768) * hz) ?_ ?_
    · linarith only [iv_nonneg v181, iv_nonneg v182]
    · linarith only [iv_mul_le b.w6 a.w5, iv_le v151]
  replace h := add_inv h; obtain ⟨v183, c183, e183, h⟩ := h
  replace h := mov_inv h
  replace h := adc_inv h; obtain ⟨v184, c184, e184, h⟩ := h
  have zc184 : bv c184 = 0 := by
    refine dead (K := 2 ^ 832) (rest := (2 ^ 704) * (iv v183) + (2 ^ 768) * (iv v184)) (P := (2 ^ 704) * (iv b.w6 * iv a.w5) + (2 ^ 704) * (iv v151) + (2 ^ 704) * (iv v179)) (by linear_combination (2 ^ 704) * e180 + (2 ^ 704) * e181 + (2 ^ 768) * e182 + (2 ^ 704) * e183 + (2 ^ 768) * e184 + (-2 ^ 832) * zc182 + (2 ^ 769) * hz) ?_ ?_
    · linarith only [iv_nonneg v183, iv_nonneg v184]
    · linarith only [iv_mul_le b.w6 a.w5, iv_le v151, iv_le v179]
  replace h := mov_inv h
  replace h := mov_inv h
  replace h := mulx_inv h; obtain ⟨l185, h185, e185, h⟩ := h
  replace h := add_inv h; obtain ⟨v186, c186, e186, h⟩ := h
  replace h := mov_inv h
  replace h := mov_inv h
  replace h := adc_inv h; obtain ⟨v187, c187, e187, h⟩ := h
  have zc187 : bv c187 = 0 := by
    refine dead (K := 2 ^ 512) (rest := (2 ^ 384) * (iv v186) + (2 ^ 448) * (iv v187)) (P := (2 ^ 384) * (iv b.w0 * iv a.w6) + (2 ^ 384) * (iv v158)) (by linear_combination (2 ^ 384) * e185 + (2 ^ 384) * e186 + (2 ^ 448) * e187 + (2 ^ 448) * hz) ?_ ?_
    · linarith only [iv_nonneg v186, iv_nonneg v187]
    · linarith only [iv_mul_le b.w0 a.w6, iv_le v158]
  replace h := mov_inv h
  replace h := mulx_inv h; obtain ⟨l188, h188, e188, h⟩ := h
  replace h := add_inv h; obtain ⟨v189, c189, e189, h⟩ := h
  replace h := adc_inv h; obtain ⟨v190, c190, e190, h⟩ := h
  have zc190 : bv c190 = 0 := by
    refine dead (K := 2 ^ 576) (rest := (2 ^ 448) * (iv v189) + (2 ^ 512) * (iv v190)) (P := (2 ^ 448) * (iv b.w1 * iv a.w6) + (2 ^ 448) * (iv v163)) (by linear_combination (2 ^ 448) * e188 + (2 ^ 448) * e189 + (2 ^ 512) * e190 + (2 ^ 512) * hz) ?_ ?_
    · linarith only [iv_nonneg v189, iv_nonneg v190]
    · linarith only [iv_mul_le b.w1 a.w6, iv_le v163]
  replace h := add_inv h; obtain ⟨v191, c191, e191, h⟩ := h
  replace h := mov_inv h
  replace h := adc_inv h; obtain ⟨v192, c192, e192, h⟩ := h
  have zc192 : bv c192 = 0 := by
    refine dead (K := 2 ^ 576) (rest := (2 ^ 448) * (iv v191) + (2 ^ 512) * (iv v192)) (P := (2 ^ 448) * (iv b.w1 * iv a.w6) + (2 ^ 448) * (iv v163) + (2 ^ 448) * (iv v187)) (by linear_combination (2 ^ 448) * e188 + (2 ^ 448) * e189 + (2 ^ 512) * e190 + (2 ^ 448) * e191 + (2 ^ 512) * e192 + (-2 ^ 576) * zc190 + (2 ^ 513) * hz) ?_ ?_
    · linarith only [iv_nonneg v191, iv_nonneg v192]
    · linarith only [iv_mul_le b.w1 a.w6, iv_le v163, iv_le v187]
  replace h := mov_inv h
  replace h := mulx_inv h; obtain ⟨l193, h193, e193, h⟩ := h
  replace h := add_inv h; obtain ⟨v194, c194, e194, h⟩ := h
  replace h := adc_inv h; obtain ⟨v195, c195, e195, h⟩ := h
  have zc195 : bv c195 = 0 := by
    refine dead (K := 2 ^ 640) (rest := (2 ^ 512) * (iv v194) + (2 ^ 576) * (iv v195)) (P := (2 ^ 512) * (iv b.w2 * iv a.w6) + (2 ^ 512) * (iv v168)) (by linear_combination (2 ^ 512) * e193 + (2 ^ 512) * e194 + (2 ^ 576) * e195 + (2 ^ 576) * hz) ?_ ?_
    · linarith only [iv_nonneg v194, iv_nonneg v195]
    · linarith only [iv_mul_le b.w2 a.w6, iv_le v168]
  replace h := add_inv h; obtain ⟨v196, c196, e196, h⟩ := h
  replace h := mov_inv h
  replace h := adc_inv h; obtain ⟨v197, c197, e197, h⟩ := h
  have zc197 : bv c197 = 0 := by
    refine dead (K := 2 ^ 640) (rest := (2 ^ 512) * (iv v196) + (2 ^ 576) * (iv v197)) (P := (2 ^ 512) * (iv b.w2 * iv a.w6) + (2 ^ 512) * (iv v168) + (2 ^ 512) * (iv v192)) (by linear_combination (2 ^ 512) * e193 + (2 ^ 512) * e194 + (2 ^ 576) * e195 + (2 ^ 512) * e196 + (2 ^ 576) * e197 + (-2 ^ 640) * zc195 + (2 ^ 577) * hz) ?_ ?_
    · linarith only [iv_nonneg v196, iv_nonneg v197]
    · linarith only [iv_mul_le b.w2 a.w6, iv_le v168, iv_le v192]
  replace h := mov_inv h
  replace h := mulx_inv h; obtain ⟨l198, h198, e198, h⟩ := h
  replace h := add_inv h; obtain ⟨v199, c199, e199, h⟩ := h
  replace h := adc_inv h; obtain ⟨v200, c200, e200, h⟩ := h
  have zc200 : bv c200 = 0 := by
    refine dead (K := 2 ^ 704) (rest := (2 ^ 576) * (iv v199) + (2 ^ 640) * (iv v200)) (P := (2 ^ 576) * (iv b.w3 * iv a.w6) + (2 ^ 576) * (iv v173)) (by linear_combination (2 ^ 576) * e198 + (2 ^ 576) * e199 + (2 ^ 640) * e200 + (2 ^ 640) * hz) ?_ ?_
    · linarith only [iv_nonneg v199, iv_nonneg v200]
    · linarith only [iv_mul_le b.w3 a.w6, iv_le v173]
  replace h := add_inv h; obtain ⟨v201, c201, e201, h⟩ := h
  replace h := mov_inv h
  replace h := adc_inv h; obtain ⟨v202, c202, e202, h⟩ := h
  have zc202 : bv c202 = 0 := by
    refine dead (K := 2 ^ 704) (rest := (2 ^ 576) * (iv v201) + (2 ^ 640) * (iv v202)) (P := (2 ^ 576) * (iv b.w3 * iv a.w6) + (2 ^ 576) * (iv v173) + (2 ^ 576) * (iv v197)) (by linear_combination (2 ^ 576) * e198 + (2 ^ 576) * e199 + (2 ^ 640) * e200 + (2 ^ 576) * e201 + (2 ^ 640) * e202 + (-2 ^ 704) * zc200 + (2 ^ 641) * hz) ?_ ?_
    · linarith only [iv_nonneg v201, iv_nonneg v202]
    · linarith only [iv_mul_le b.w3 a.w6, iv_le v173, iv_le v197]
  replace h := mov_inv h
  replace h := mulx_inv h; obtain ⟨l203, h203, e203, h⟩ := h
  replace h := add_inv h; obtain ⟨v204, c204, e204, h⟩ := h
  replace h := adc_inv h; obtain ⟨v205, c205, e205, h⟩ := h
  have zc205 : bv c205 = 0 := by
    refine dead (K := 2 ^ 768) (rest := (2 ^ 640) * (iv v204) + (2 ^ 704) * (iv v205)) (P := (2 ^ 640) * (iv b.w4 * iv a.w6) + (2 ^ 640) * (iv v178)) (by linear_combination (2 ^ 640) * e203 + (2 ^ 640) * e204 + (2 ^ 704) * e205 + (2 ^ 704) * hz) ?_ ?_
    · linarith only [iv_nonneg v204, iv_nonneg v205]
    · linarith only [iv_mul_le b.w4 a.w6, iv_le v178]
  replace h := add_inv h; obtain ⟨v206, c206, e206, h⟩ := h
  replace h := mov_inv h
  replace h := adc_inv h; obtain ⟨v207, c207, e207, h⟩ := h
  have zc207 : bv c207 = 0 := by
    refine dead (K := 2 ^ 768) (rest := (2 ^ 640) * (iv v206) + (2 ^ 704) * (iv v207)) (P := (2 ^ 640) * (iv b.w4 * iv a.w6) + (2 ^ 640) * (iv v178) + (2 ^ 640) * (iv v202)) (by linear_combination (2 ^ 640) * e203 + (2 ^ 640) * e204 + (2 ^ 704) * e205 + (2 ^ 640) * e206 + (2 ^ 704) * e207 + (-2 ^ 768) * zc205 + (2 ^ 705) * hz) ?_ ?_
    · linarith only [iv_nonneg v206, iv_nonneg v207]
    · linarith only [iv_mul_le b.w4 a.w6, iv_le v178, iv_le v202]
  replace h := mov_inv h
  replace h := mulx_inv h; obtain ⟨l208, h208, e208, h⟩ := h
  replace h := add_inv h; obtain ⟨v209, c209, e209, h⟩ := h
  replace h := adc_inv h; obtain ⟨v210, c210, e210, h⟩ := h
  have zc210 : bv c210 = 0 := by
    refine dead (K := 2 ^ 832) (rest := (2 ^ 704) * (iv v209) + (2 ^ 768) * (iv v210)) (P := (2 ^ 704) * (iv b.w5 * iv a.w6) + (2 ^ 704) * (iv v183)) (by linear_combination (2 ^ 704) * e208 + (2 ^ 704) * e209 + (2 ^ 768) * e210 + (2 ^ 768) * hz) ?_ ?_
    · linarith only [iv_nonneg v209, iv_nonneg v210]
    · linarith only [iv_mul_le b.w5 a.w6, iv_le v183]
  replace h := add_inv h; obtain ⟨v211, c211, e211, h⟩ := h
  replace h := mov_inv h
  replace h := adc_inv h; obtain ⟨v212, c212, e212, h⟩ := h
  have zc212 : bv c212 = 0 := by
    refine dead (K := 2 ^ 832) (rest := (2 ^ 704) * (iv v211) + (2 ^ 768) * (iv v212)) (P := (2 ^ 704) * (iv b.w5 * iv a.w6) + (2 ^ 704) * (iv v183) + (2 ^ 704) * (iv v207)) (by linear_combination (2 ^ 704) * e208 + (2 ^ 704) * e209 + (2 ^ 768) * e210 + (2 ^ 704) * e211 + (2 ^ 768) * e212 + (-2 ^ 832) * zc210 + (2 ^ 769) * hz) ?_ ?_
    · linarith only [iv_nonneg v211, iv_nonneg v212]
    · linarith only [iv_mul_le b.w5 a.w6, iv_le v183, iv_le v207]
  replace h := mov_inv h
  replace h := mulx_inv h; obtain ⟨l213, h213, e213, h⟩ := h
  replace h := add_inv h; obtain ⟨v214, c214, e214, h⟩ := h
  replace h := adc_inv h; obtain ⟨v215, c215, e215, h⟩ := h
  have zc215 : bv c215 = 0 := by
    refine dead (K := 2 ^ 896) (rest := (2 ^ 768) * (iv v214) + (2 ^ 832) * (iv v215)) (P := (2 ^ 768) * (iv b.w6 * iv a.w6) + (2 ^ 768) * (iv v184)) (by linear_combination (2 ^ 768) * e213 + (2 ^ 768) * e214 + (2 ^ 832) * e215 + (2 ^ 832) * hz) ?_ ?_
    · linarith only [iv_nonneg v214, iv_nonneg v215]
    · linarith only [iv_mul_le b.w6 a.w6, iv_le v184]
  replace h := add_inv h; obtain ⟨v216, c216, e216, h⟩ := h
  replace h := mov_inv h
  replace h := adc_inv h; obtain ⟨v217, c217, e217, h⟩ := h
  have zc217 : bv c217 = 0 := by
    refine dead (K := 2 ^ 896) (rest := (2 ^ 768) * (iv v216) + (2 ^ 832) * (iv v217)) (P := (2 ^ 768) * (iv b.w6 * iv a.w6) + (2 ^ 768) * (iv v184) + (2 ^ 768) * (iv v212)) (by linear_combination (2 ^ 768) * e213 + (2 ^ 768) * e214 + (2 ^ 832) * e215 + (2 ^ 768) * e216 + (2 ^ 832) * e217 + (-2 ^ 896) * zc215 + (2 ^ 833) * hz) ?_ ?_
    · linarith only [iv_nonneg v216, iv_nonneg v217]
    · linarith only [iv_mul_le b.w6 a.w6, iv_le v184, iv_le v212]
  replace h := mov_inv h
  replace h := mov_inv h
  replace h := mov_inv h
  replace h := mov_inv h
  replace h := mov_inv h
  replace h := mov_inv h
  replace h := mov_inv h
  subst h
  simp only [F14.val, F7.val]
  linear_combination (2 ^ 832) * e217 + (-2 ^ 896) * zc217 + (2 ^ 768) * e216 + (2 ^ 832) * e215 + (-2 ^ 896) * zc215 + (2 ^ 768) * e214 + (2 ^ 768) * e213 + (2 ^ 768) * e212 + (-2 ^ 832) * zc212 + (2 ^ 704) * e211 + (2 ^ 768) * e210 + (-2 ^ 832) * zc210 + (2 ^ 704) * e209 + (2 ^ 704) * e208 + (2 ^ 704) * e207 + (-2 ^ 768) * zc207 + (2 ^ 640) * e206 + (2 ^ 704) * e205 + (-2 ^ 768) * zc205 + (2 ^ 640) * e204 + (2 ^ 640) * e203 + (2 ^ 640) * e202 + (-2 ^ 704) * zc202 + (2 ^ 576) * e201 + (2 ^ 640) * e200 + (-2 ^ 704) * zc200 + (2 ^ 576) * e199 + (2 ^ 576) * e198 + (2 ^ 576) * e197 + (-2 ^ 640) * zc197 + (2 ^ 512) * e196 + (2 ^ 576) * e195 + (-2 ^ 640) * zc195 + (2 ^ 512) * e194 + (2 ^ 512) * e193 + (2 ^ 512) * e192 + (-2 ^ 576) * zc192 + (2 ^ 448) * e191 + (2 ^ 512) * e190 + (-2 ^ 576) * zc190 + (2 ^ 448) * e189 + (2 ^ 448) * e188 + (2 ^ 448) * e187 + (-2 ^ 512) * zc187 + (2 ^ 384) * e186 + (2 ^ 384) * e185 + (2 ^ 768) * e184 + (-2 ^ 832) * zc184 + (2 ^ 704) * e183 + (2 ^ 768) * e182 + (-2 ^ 832) * zc182 + (2 ^ 704) * e181 + (2 ^ 704) * e180 + (2 ^ 704) * e179 + (-2 ^ 768) * zc179 + (2 ^ 640) * e178 + (2 ^ 704) * e177 + (-2 ^ 768) * zc177 + (2 ^ 640) * e176 + (2 ^ 640) * e175 + (2 ^ 640) * e174 + (-2 ^ 704) * zc174 + (2 ^ 576) * e173 + (2 ^ 640) * e172 + (-2 ^ 704) * zc172 + (2 ^ 576) * e171 + (2 ^ 576) * e170 + (2 ^ 576) * e169 + (-2 ^ 640) * zc169 + (2 ^ 512) * e168 + (2 ^ 576) * e167 + (-2 ^ 640) * zc167 + (2 ^ 512) * e166 + (2 ^ 512) * e165 + (2 ^ 512) * e164 + (-2 ^ 576) * zc164 + (2 ^ 448) * e163 + (2 ^ 512) * e162 + (-2 ^ 576) * zc162 + (2 ^ 448) * e161 + (2 ^ 448) * e160 + (2 ^ 448) * e159 + (-2 ^ 512) * zc159 + (2 ^ 384) * e158 + (2 ^ 448) * e157 + (-2 ^ 512) * zc157 + (2 ^ 384) * e156 + (2 ^ 384) * e155 + (2 ^ 384) * e154 + (-2 ^ 448) * zc154 + (2 ^ 320) * e153 + (2 ^ 320) * e152 + (2 ^ 704) * e151 + (-2 ^ 768) * zc151 + (2 ^ 640) * e150 + (2 ^ 704) * e149 + (-2 ^ 768) * zc149 + (2 ^ 640) * e148 + (2 ^ 640) * e147 + (2 ^ 640) * e146 + (-2 ^ 704) * zc146 + (2 ^ 576) * e145 + (2 ^ 640) * e144 + (-2 ^ 704) * zc144 + (2 ^ 576) * e143 + (2 ^ 576) * e142 + (2 ^ 576) * e141 + (-2 ^ 640) * zc141 + (2 ^ 512) * e140 + (2 ^ 576) * e139 + (-2 ^ 640) * zc139 + (2 ^ 512) * e138 + (2 ^ 512) * e137 + (2 ^ 512) * e136 + (-2 ^ 576) * zc136 + (2 ^ 448) * e135 + (2 ^ 512) * e134 + (-2 ^ 576) * zc134 + (2 ^ 448) * e133 + (2 ^ 448) * e132 + (2 ^ 448) * e131 + (-2 ^ 512) * zc131 + (2 ^ 384) * e130 + (2 ^ 448) * e129 + (-2 ^ 512) * zc129 + (2 ^ 384) * e128 + (2 ^ 384) * e127 + (2 ^ 384) * e126 + (-2 ^ 448) * zc126 + (2 ^ 320) * e125 + (2 ^ 384) * e124 + (-2 ^ 448) * zc124 + (2 ^ 320) * e123 + (2 ^ 320) * e122 + (2 ^ 320) * e121 + (-2 ^ 384) * zc121 + (2 ^ 256) * e120 + (2 ^ 256) * e119 + (2 ^ 640) * e118 + (-2 ^ 704) * zc118 + (2 ^ 576) * e117 + (2 ^ 640) * e116 + (-2 ^ 704) * zc116 + (2 ^ 576) * e115 + (2 ^ 576) * e114 + (2 ^ 576) * e113 + (-2 ^ 640) * zc113 + (2 ^ 512) * e112 + (2 ^ 576) * e111 + (-2 ^ 640) * zc111 + (2 ^ 512) * e110 + (2 ^ 512) * e109 + (2 ^ 512) * e108 + (-2 ^ 576) * zc108 + (2 ^ 448) * e107 + (2 ^ 512) * e106 + (-2 ^ 576) * zc106 + (2 ^ 448) * e105 + (2 ^ 448) * e104 + (2 ^ 448) * e103 + (-2 ^ 512) * zc103 + (2 ^ 384) * e102 + (2 ^ 448) * e101 + (-2 ^ 512) * zc101 + (2 ^ 384) * e100 + (2 ^ 384) * e99 + (2 ^ 384) * e98 + (-2 ^ 448) * zc98 + (2 ^ 320) * e97 + (2 ^ 384) * e96 + (-2 ^ 448) * zc96 + (2 ^ 320) * e95 + (2 ^ 320) * e94 + (2 ^ 320) * e93 + (-2 ^ 384) * zc93 + (2 ^ 256) * e92 + (2 ^ 320) * e91 + (-2 ^ 384) * zc91 + (2 ^ 256) * e90 + (2 ^ 256) * e89 + (2 ^ 256) * e88 + (-2 ^ 320) * zc88 + (2 ^ 192) * e87 + (2 ^ 192) * e86 + (2 ^ 576) * e85 + (-2 ^ 640) * zc85 + (2 ^ 512) * e84 + (2 ^ 576) * e83 + (-2 ^ 640) * zc83 + (2 ^ 512) * e82 + (2 ^ 512) * e81 + (2 ^ 512) * e80 + (-2 ^ 576) * zc80 + (2 ^ 448) * e79 + (2 ^ 512) * e78 + (-2 ^ 576) * zc78 + (2 ^ 448) * e77 + (2 ^ 448) * e76 + (2 ^ 448) * e75 + (-2 ^ 512) * zc75 + (2 ^ 384) * e74 + (2 ^ 448) * e73 + (-2 ^ 512) * zc73 + (2 ^ 384) * e72 + (2 ^ 384) * e71 + (2 ^ 384) * e70 + (-2 ^ 448) * zc70 + (2 ^ 320) * e69 + (2 ^ 384) * e68 + (-2 ^ 448) * zc68 + (2 ^ 320) * e67 + (2 ^ 320) * e66 + (2 ^ 320) * e65 + (-2 ^ 384) * zc65 + (2 ^ 256) * e64 + (2 ^ 320) * e63 + (-2 ^ 384) * zc63 + (2 ^ 256) * e62 + (2 ^ 256) * e61 + (2 ^ 256) * e60 + (-2 ^ 320) * zc60 + (2 ^ 192) * e59 + (2 ^ 256) * e58 + (-2 ^ 320) * zc58 + (2 ^ 192) * e57 + (2 ^ 192) * e56 + (2 ^ 192) * e55 + (-2 ^ 256) * zc55 + (2 ^ 128) * e54 + (2 ^ 128) * e53 + (2 ^ 512) * e52 + (-2 ^ 576) * zc52 + (2 ^ 448) * e51 + (2 ^ 512) * e50 + (-2 ^ 576) * zc50 + (2 ^ 448) * e49 + (2 ^ 448) * e48 + (2 ^ 448) * e47 + (-2 ^ 512) * zc47 + (2 ^ 384) * e46 + (2 ^ 448) * e45 + (-2 ^ 512) * zc45 + (2 ^ 384) * e44 + (2 ^ 384) * e43 + (2 ^ 384) * e42 + (-2 ^ 448) * zc42 + (2 ^ 320) * e41 + (2 ^ 384) * e40 + (-2 ^ 448) * zc40 + (2 ^ 320) * e39 + (2 ^ 320) * e38 + (2 ^ 320) * e37 + (-2 ^ 384) * zc37 + (2 ^ 256) * e36 + (2 ^ 320) * e35 + (-2 ^ 384) * zc35 + (2 ^ 256) * e34 + (2 ^ 256) * e33 + (2 ^ 256) * e32 + (-2 ^ 320) * zc32 + (2 ^ 192) * e31 + (2 ^ 256) * e30 + (-2 ^ 320) * zc30 + (2 ^ 192) * e29 + (2 ^ 192) * e28 + (2 ^ 192) * e27 + (-2 ^ 256) * zc27 + (2 ^ 128) * e26 + (2 ^ 192) * e25 + (-2 ^ 256) * zc25 + (2 ^ 128) * e24 + (2 ^ 128) * e23 + (2 ^ 128) * e22 + (-2 ^ 192) * zc22 + (2 ^ 64) * e21 + (2 ^ 64) * e20 + (2 ^ 448) * e19 + (-2 ^ 512) * zc19 + (2 ^ 384) * e18 + (2 ^ 384) * e17 + (2 ^ 384) * e16 + (-2 ^ 448) * zc16 + (2 ^ 320) * e15 + (2 ^ 320) * e14 + (2 ^ 320) * e13 + (-2 ^ 384) * zc13 + (2 ^ 256) * e12 + (2 ^ 256) * e11 + (2 ^ 256) * e10 + (-2 ^ 320) * zc10 + (2 ^ 192) * e9 + (2 ^ 192) * e8 + (2 ^ 192) * e7 + (-2 ^ 256) * zc7 + (2 ^ 128) * e6 + (2 ^ 128) * e5 + (2 ^ 128) * e4 + (-2 ^ 192) * zc4 + (2 ^ 64) * e3 + (2 ^ 64) * e2 + e1 + (84162174424773976124980719361326449086829771260990678003994090258375546288419002530535151853563859655281232762711138827217684771898885877829632150258136439892125678400245545835935616791639735511213773737852665857 * 2 ^ 129) * hz

end Verif.Fp448.Asm
