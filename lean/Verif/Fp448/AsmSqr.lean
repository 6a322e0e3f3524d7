import Verif.Fp448.Asm
import Verif.Fp448.Lemmas

/-! # Integer squares

Helper lemmas: one linear identity per straight-line block. -/

namespace Verif.Fp448.Asm

set_option maxRecDepth 4000
set_option linter.unusedVariables false
set_option exponentiation.threshold 2000

set_option maxHeartbeats 1000000 in
theorem intsqr_mulxadx_val (a : F7) : (intsqr_mulxadx a).val = a.val ^ 2 := by
  generalize h : intsqr_mulxadx a = X
  unfold intsqr_mulxadx at h
  have hz : iv 0#64 = 0 := rfl
  have hf : bv false = 0 := rfl
  replace h := mov_inv h
  replace h := mulx_inv h; obtain ⟨l1, h1, e1, h⟩ := h
  replace h := mov_inv h
  replace h := mulx_inv h; obtain ⟨l2, h2, e2, h⟩ := h
  replace h := mov_inv h
  replace h := mov_inv h
  replace h := mov_inv h
  replace h := mov_inv h
  replace h := mov_inv h
  replace h := mulx_inv h; obtain ⟨l3, h3, e3, h⟩ := h
  replace h := mov_inv h
  replace h := mulx_inv h; obtain ⟨l4, h4, e4, h⟩ := h
  replace h := mov_inv h
  replace h := mov_inv h
  replace h := mov_inv h
  replace h := mov_inv h
  replace h := mov_inv h
  replace h := mulx_inv h; obtain ⟨l5, h5, e5, h⟩ := h
  replace h := mov_inv h
  replace h := mulx_inv h; obtain ⟨l6, h6, e6, h⟩ := h
  replace h := mov_inv h
  replace h := mov_inv h
  replace h := mov_inv h
  replace h := mov_inv h
  replace h := mov_inv h
  replace h := mulx_inv h; obtain ⟨l7, h7, e7, h⟩ := h
  replace h := mov_inv h
  replace h := mov_inv h
  replace h := mov_inv h
  replace h := mulx_inv h; obtain ⟨l8, h8, e8, h⟩ := h
  replace h := xor0_inv h
  replace h := adc_inv h; obtain ⟨v10, c10, e10, h⟩ := h
  replace h := mulx_inv h; obtain ⟨l11, h11, e11, h⟩ := h
  replace h := adc_inv h; obtain ⟨v12, c12, e12, h⟩ := h
  replace h := adc_inv h; obtain ⟨v13, c13, e13, h⟩ := h
  replace h := mulx_inv h; obtain ⟨l14, h14, e14, h⟩ := h
  replace h := adc_inv h; obtain ⟨v15, c15, e15, h⟩ := h
  replace h := adc_inv h; obtain ⟨v16, c16, e16, h⟩ := h
  replace h := mulx_inv h; obtain ⟨l17, h17, e17, h⟩ := h
  replace h := adc_inv h; obtain ⟨v18, c18, e18, h⟩ := h
  replace h := adc_inv h; obtain ⟨v19, c19, e19, h⟩ := h
  replace h := mulx_inv h; obtain ⟨l20, h20, e20, h⟩ := h
  replace h := adc_inv h; obtain ⟨v21, c21, e21, h⟩ := h
  replace h := adc_inv h; obtain ⟨v22, c22, e22, h⟩ := h
  replace h := mulx_inv h; obtain ⟨l23, h23, e23, h⟩ := h
  replace h := adc_inv h; obtain ⟨v24, c24, e24, h⟩ := h
  replace h := adc_inv h; obtain ⟨v25, c25, e25, h⟩ := h
  replace h := mov_inv h
  replace h := mov_inv h
  replace h := mov_inv h
  replace h := mulx_inv h; obtain ⟨l26, h26, e26, h⟩ := h
  replace h := adc_inv h; obtain ⟨v27, c27, e27, h⟩ := h
  replace h := adc_inv h; obtain ⟨v28, c28, e28, h⟩ := h
  replace h := adc_inv h; obtain ⟨v29, c29, e29, h⟩ := h
  have zc29 : bv c29 = 0 := by
    refine dead (K := 2 ^ 577) (rest := (2 ^ 65) * (iv l8) + (2 ^ 129) * (iv v12) + (2 ^ 193) * (iv v15) + (2 ^ 257) * (iv v18) + (2 ^ 321) * (iv v21) + (2 ^ 385) * (iv v24) + (2 ^ 449) * (iv v27) + (2 ^ 513) * (iv v29)) (P := (2 ^ 65) * (iv a.w0 * iv a.w1) + (2 ^ 129) * (iv a.w0 * iv a.w2) + (2 ^ 193) * (iv a.w0 * iv a.w3) + (2 ^ 257) * (iv a.w0 * iv a.w4) + (2 ^ 321) * (iv a.w0 * iv a.w5) + (2 ^ 385) * (iv a.w0 * iv a.w6) + (2 ^ 449) * (iv a.w3 * iv a.w4)) (by linear_combination (2 ^ 65) * e8 + (2 ^ 129) * e11 + (2 ^ 129) * e12 + (2 ^ 193) * e14 + (2 ^ 193) * e15 + (2 ^ 257) * e17 + (2 ^ 257) * e18 + (2 ^ 321) * e20 + (2 ^ 321) * e21 + (2 ^ 385) * e23 + (2 ^ 385) * e24 + (2 ^ 449) * e26 + (2 ^ 449) * e27 + (2 ^ 513) * e29 + (2 ^ 129) * hf + (2 ^ 513) * hz) ?_ ?_
    · linarith only [iv_nonneg l8, iv_nonneg v12, iv_nonneg v15, iv_nonneg v18, iv_nonneg v21, iv_nonneg v24, iv_nonneg v27, iv_nonneg v29]
    · linarith only [iv_mul_le a.w0 a.w1, iv_mul_le a.w0 a.w2, iv_mul_le a.w0 a.w3, iv_mul_le a.w0 a.w4, iv_mul_le a.w0 a.w5, iv_mul_le a.w0 a.w6, iv_mul_le a.w3 a.w4]
  replace h := adc_inv h; obtain ⟨v30, c30, e30, h⟩ := h
  replace h := adc_inv h; obtain ⟨v31, c31, e31, h⟩ := h
  have zc31 : bv c31 = 0 := by
    refine dead (K := 2 ^ 640) (rest := (2 ^ 64) * (iv v10) + (2 ^ 128) * (iv v13) + (2 ^ 192) * (iv v16) + (2 ^ 256) * (iv v19) + (2 ^ 320) * (iv v22) + (2 ^ 384) * (iv v25) + (2 ^ 448) * (iv v28) + (2 ^ 512) * (iv v30) + (2 ^ 576) * (iv v31)) (P := (2 ^ 65) * (iv l8) + (2 ^ 129) * (iv v12) + (2 ^ 193) * (iv v15) + (2 ^ 257) * (iv v18) + (2 ^ 321) * (iv v21) + (2 ^ 385) * (iv v24) + (2 ^ 449) * (iv v27) + (2 ^ 513) * (iv v29)) (by linear_combination (2 ^ 64) * e10 + (2 ^ 128) * e13 + (2 ^ 192) * e16 + (2 ^ 256) * e19 + (2 ^ 320) * e22 + (2 ^ 384) * e25 + (2 ^ 448) * e28 + (2 ^ 512) * e30 + (2 ^ 576) * e31 + (2 ^ 64) * hf + (2 ^ 577) * hz) ?_ ?_
    · linarith only [iv_nonneg v10, iv_nonneg v13, iv_nonneg v16, iv_nonneg v19, iv_nonneg v22, iv_nonneg v25, iv_nonneg v28, iv_nonneg v30, iv_nonneg v31]
    · linarith only [iv_le l8, iv_le v12, iv_le v15, iv_le v18, iv_le v21, iv_le v24, iv_le v27, iv_le v29]
  replace h := add_inv h; obtain ⟨v32, c32, e32, h⟩ := h
  replace h := mov_inv h
  replace h := adc_inv h; obtain ⟨v33, c33, e33, h⟩ := h
  replace h := mov_inv h
  replace h := adc_inv h; obtain ⟨v34, c34, e34, h⟩ := h
  replace h := mov_inv h
  replace h := adc_inv h; obtain ⟨v35, c35, e35, h⟩ := h
  replace h := mov_inv h
  replace h := adc_inv h; obtain ⟨v36, c36, e36, h⟩ := h
  replace h := mov_inv h
  replace h := adc_inv h; obtain ⟨v37, c37, e37, h⟩ := h
  replace h := mov_inv h
  replace h := adc_inv h; obtain ⟨v38, c38, e38, h⟩ := h
  replace h := mov_inv h
  replace h := adc_inv h; obtain ⟨v39, c39, e39, h⟩ := h
  replace h := mov_inv h
  replace h := adc_inv h; obtain ⟨v40, c40, e40, h⟩ := h
  have zc40 : bv c40 = 0 := by
    refine dead (K := 2 ^ 640) (rest := iv l1 + (2 ^ 64) * (iv v32) + (2 ^ 128) * (iv v33) + (2 ^ 192) * (iv v34) + (2 ^ 256) * (iv v35) + (2 ^ 320) * (iv v36) + (2 ^ 384) * (iv v37) + (2 ^ 448) * (iv v38) + (2 ^ 512) * (iv v39) + (2 ^ 576) * (iv v40)) (P := iv a.w0 * iv a.w0 + (2 ^ 128) * (iv a.w1 * iv a.w1) + (2 ^ 256) * (iv a.w2 * iv a.w2) + (2 ^ 384) * (iv a.w3 * iv a.w3) + (2 ^ 512) * (iv a.w4 * iv a.w4) + (2 ^ 65) * (iv a.w0 * iv a.w1) + (2 ^ 129) * (iv a.w0 * iv a.w2) + (2 ^ 193) * (iv a.w0 * iv a.w3) + (2 ^ 257) * (iv a.w0 * iv a.w4) + (2 ^ 321) * (iv a.w0 * iv a.w5) + (2 ^ 385) * (iv a.w0 * iv a.w6) + (2 ^ 449) * (iv a.w3 * iv a.w4)) (by linear_combination e1 + (2 ^ 128) * e2 + (2 ^ 256) * e3 + (2 ^ 384) * e4 + (2 ^ 512) * e5 + (2 ^ 65) * e8 + (2 ^ 64) * e10 + (2 ^ 129) * e11 + (2 ^ 129) * e12 + (2 ^ 128) * e13 + (2 ^ 193) * e14 + (2 ^ 193) * e15 + (2 ^ 192) * e16 + (2 ^ 257) * e17 + (2 ^ 257) * e18 + (2 ^ 256) * e19 + (2 ^ 321) * e20 + (2 ^ 321) * e21 + (2 ^ 320) * e22 + (2 ^ 385) * e23 + (2 ^ 385) * e24 + (2 ^ 384) * e25 + (2 ^ 449) * e26 + (2 ^ 449) * e27 + (2 ^ 448) * e28 + (2 ^ 513) * e29 + (2 ^ 512) * e30 + (2 ^ 576) * e31 + (2 ^ 64) * e32 + (2 ^ 128) * e33 + (2 ^ 192) * e34 + (2 ^ 256) * e35 + (2 ^ 320) * e36 + (2 ^ 384) * e37 + (2 ^ 448) * e38 + (2 ^ 512) * e39 + (2 ^ 576) * e40 + (36893488147419103233 * 2 ^ 64) * hf + (-2 ^ 577) * zc29 + (18446744073709551617 * 2 ^ 513) * hz + (-2 ^ 640) * zc31) ?_ ?_
    · linarith only [iv_nonneg l1, iv_nonneg v32, iv_nonneg v33, iv_nonneg v34, iv_nonneg v35, iv_nonneg v36, iv_nonneg v37, iv_nonneg v38, iv_nonneg v39, iv_nonneg v40]
    · linarith only [iv_mul_le a.w0 a.w0, iv_mul_le a.w1 a.w1, iv_mul_le a.w2 a.w2, iv_mul_le a.w3 a.w3, iv_mul_le a.w4 a.w4, iv_mul_le a.w0 a.w1, iv_mul_le a.w0 a.w2, iv_mul_le a.w0 a.w3, iv_mul_le a.w0 a.w4, iv_mul_le a.w0 a.w5, iv_mul_le a.w0 a.w6, iv_mul_le a.w3 a.w4]
  replace h := mov_inv h
  replace h := mov_inv h
  replace h := mulx_inv h; obtain ⟨l41, h41, e41, h⟩ := h
  replace h := xor0_inv h
  replace h := adc_inv h; obtain ⟨v43, c43, e43, h⟩ := h
  replace h := mulx_inv h; obtain ⟨l44, h44, e44, h⟩ := h
  replace h := adc_inv h; obtain ⟨v45, c45, e45, h⟩ := h
  replace h := adc_inv h; obtain ⟨v46, c46, e46, h⟩ := h
  replace h := mulx_inv h; obtain ⟨l47, h47, e47, h⟩ := h
  replace h := adc_inv h; obtain ⟨v48, c48, e48, h⟩ := h
  replace h := adc_inv h; obtain ⟨v49, c49, e49, h⟩ := h
  replace h := mulx_inv h; obtain ⟨l50, h50, e50, h⟩ := h
  replace h := adc_inv h; obtain ⟨v51, c51, e51, h⟩ := h
  replace h := adc_inv h; obtain ⟨v52, c52, e52, h⟩ := h
  replace h := mulx_inv h; obtain ⟨l53, h53, e53, h⟩ := h
  replace h := adc_inv h; obtain ⟨v54, c54, e54, h⟩ := h
  replace h := adc_inv h; obtain ⟨v55, c55, e55, h⟩ := h
  replace h := mov_inv h
  replace h := mulx_inv h; obtain ⟨l56, h56, e56, h⟩ := h
  replace h := adc_inv h; obtain ⟨v57, c57, e57, h⟩ := h
  replace h := adc_inv h; obtain ⟨v58, c58, e58, h⟩ := h
  replace h := mulx_inv h; obtain ⟨l59, h59, e59, h⟩ := h
  replace h := adc_inv h; obtain ⟨v60, c60, e60, h⟩ := h
  replace h := adc_inv h; obtain ⟨v61, c61, e61, h⟩ := h
  replace h := mov_inv h
  replace h := mov_inv h
  replace h := adc_inv h; obtain ⟨v62, c62, e62, h⟩ := h
  have zc62 : bv c62 = 0 := by
    refine dead (K := 2 ^ 705) (rest := (2 ^ 193) * (iv l41) + (2 ^ 257) * (iv v45) + (2 ^ 321) * (iv v48) + (2 ^ 385) * (iv v51) + (2 ^ 449) * (iv v54) + (2 ^ 513) * (iv v57) + (2 ^ 577) * (iv v60) + (2 ^ 641) * (iv v62)) (P := (2 ^ 193) * (iv a.w1 * iv a.w2) + (2 ^ 257) * (iv a.w1 * iv a.w3) + (2 ^ 321) * (iv a.w1 * iv a.w4) + (2 ^ 385) * (iv a.w1 * iv a.w5) + (2 ^ 449) * (iv a.w1 * iv a.w6) + (2 ^ 513) * (iv a.w5 * iv a.w3) + (2 ^ 577) * (iv a.w5 * iv a.w4)) (by linear_combination (2 ^ 193) * e41 + (2 ^ 257) * e44 + (2 ^ 257) * e45 + (2 ^ 321) * e47 + (2 ^ 321) * e48 + (2 ^ 385) * e50 + (2 ^ 385) * e51 + (2 ^ 449) * e53 + (2 ^ 449) * e54 + (2 ^ 513) * e56 + (2 ^ 513) * e57 + (2 ^ 577) * e59 + (2 ^ 577) * e60 + (2 ^ 641) * e62 + (2 ^ 257) * hf + (2 ^ 641) * hz) ?_ ?_
    · linarith only [iv_nonneg l41, iv_nonneg v45, iv_nonneg v48, iv_nonneg v51, iv_nonneg v54, iv_nonneg v57, iv_nonneg v60, iv_nonneg v62]
    · linarith only [iv_mul_le a.w1 a.w2, iv_mul_le a.w1 a.w3, iv_mul_le a.w1 a.w4, iv_mul_le a.w1 a.w5, iv_mul_le a.w1 a.w6, iv_mul_le a.w5 a.w3, iv_mul_le a.w5 a.w4]
  replace h := adc_inv h; obtain ⟨v63, c63, e63, h⟩ := h
  replace h := adc_inv h; obtain ⟨v64, c64, e64, h⟩ := h
  have zc64 : bv c64 = 0 := by
    refine dead (K := 2 ^ 768) (rest := (2 ^ 192) * (iv v43) + (2 ^ 256) * (iv v46) + (2 ^ 320) * (iv v49) + (2 ^ 384) * (iv v52) + (2 ^ 448) * (iv v55) + (2 ^ 512) * (iv v58) + (2 ^ 576) * (iv v61) + (2 ^ 640) * (iv v63) + (2 ^ 704) * (iv v64)) (P := (2 ^ 193) * (iv l41) + (2 ^ 257) * (iv v45) + (2 ^ 321) * (iv v48) + (2 ^ 385) * (iv v51) + (2 ^ 449) * (iv v54) + (2 ^ 513) * (iv v57) + (2 ^ 577) * (iv v60) + (2 ^ 641) * (iv v62)) (by linear_combination (2 ^ 192) * e43 + (2 ^ 256) * e46 + (2 ^ 320) * e49 + (2 ^ 384) * e52 + (2 ^ 448) * e55 + (2 ^ 512) * e58 + (2 ^ 576) * e61 + (2 ^ 640) * e63 + (2 ^ 704) * e64 + (2 ^ 192) * hf + (2 ^ 705) * hz) ?_ ?_
    · linarith only [iv_nonneg v43, iv_nonneg v46, iv_nonneg v49, iv_nonneg v52, iv_nonneg v55, iv_nonneg v58, iv_nonneg v61, iv_nonneg v63, iv_nonneg v64]
    · linarith only [iv_le l41, iv_le v45, iv_le v48, iv_le v51, iv_le v54, iv_le v57, iv_le v60, iv_le v62]
  replace h := add_inv h; obtain ⟨v65, c65, e65, h⟩ := h
  replace h := mov_inv h
  replace h := adc_inv h; obtain ⟨v66, c66, e66, h⟩ := h
  replace h := mov_inv h
  replace h := adc_inv h; obtain ⟨v67, c67, e67, h⟩ := h
  replace h := mov_inv h
  replace h := adc_inv h; obtain ⟨v68, c68, e68, h⟩ := h
  replace h := mov_inv h
  replace h := adc_inv h; obtain ⟨v69, c69, e69, h⟩ := h
  replace h := mov_inv h
  replace h := adc_inv h; obtain ⟨v70, c70, e70, h⟩ := h
  replace h := mov_inv h
  replace h := adc_inv h; obtain ⟨v71, c71, e71, h⟩ := h
  replace h := mov_inv h
  replace h := adc_inv h; obtain ⟨v72, c72, e72, h⟩ := h
  replace h := mov_inv h
  replace h := adc_inv h; obtain ⟨v73, c73, e73, h⟩ := h
  have zc73 : bv c73 = 0 := by
    refine dead (K := 2 ^ 768) (rest := (2 ^ 192) * (iv v65) + (2 ^ 256) * (iv v66) + (2 ^ 320) * (iv v67) + (2 ^ 384) * (iv v68) + (2 ^ 448) * (iv v69) + (2 ^ 512) * (iv v70) + (2 ^ 576) * (iv v71) + (2 ^ 640) * (iv v72) + (2 ^ 704) * (iv v73)) (P := (2 ^ 640) * (iv a.w5 * iv a.w5) + (2 ^ 193) * (iv a.w1 * iv a.w2) + (2 ^ 257) * (iv a.w1 * iv a.w3) + (2 ^ 321) * (iv a.w1 * iv a.w4) + (2 ^ 385) * (iv a.w1 * iv a.w5) + (2 ^ 449) * (iv a.w1 * iv a.w6) + (2 ^ 513) * (iv a.w5 * iv a.w3) + (2 ^ 577) * (iv a.w5 * iv a.w4) + (2 ^ 192) * (iv v34) + (2 ^ 256) * (iv v35) + (2 ^ 320) * (iv v36) + (2 ^ 384) * (iv v37) + (2 ^ 448) * (iv v38) + (2 ^ 512) * (iv v39) + (2 ^ 576) * (iv v40)) (by linear_combination (2 ^ 640) * e6 + (2 ^ 193) * e41 + (2 ^ 192) * e43 + (2 ^ 257) * e44 + (2 ^ 257) * e45 + (2 ^ 256) * e46 + (2 ^ 321) * e47 + (2 ^ 321) * e48 + (2 ^ 320) * e49 + (2 ^ 385) * e50 + (2 ^ 385) * e51 + (2 ^ 384) * e52 + (2 ^ 449) * e53 + (2 ^ 449) * e54 + (2 ^ 448) * e55 + (2 ^ 513) * e56 + (2 ^ 513) * e57 + (2 ^ 512) * e58 + (2 ^ 577) * e59 + (2 ^ 577) * e60 + (2 ^ 576) * e61 + (2 ^ 641) * e62 + (2 ^ 640) * e63 + (2 ^ 704) * e64 + (2 ^ 192) * e65 + (2 ^ 256) * e66 + (2 ^ 320) * e67 + (2 ^ 384) * e68 + (2 ^ 448) * e69 + (2 ^ 512) * e70 + (2 ^ 576) * e71 + (2 ^ 640) * e72 + (2 ^ 704) * e73 + (36893488147419103233 * 2 ^ 192) * hf + (-2 ^ 705) * zc62 + (18446744073709551617 * 2 ^ 641) * hz + (-2 ^ 768) * zc64) ?_ ?_
    · linarith only [iv_nonneg v65, iv_nonneg v66, iv_nonneg v67, iv_nonneg v68, iv_nonneg v69, iv_nonneg v70, iv_nonneg v71, iv_nonneg v72, iv_nonneg v73]
    · linarith only [iv_mul_le a.w5 a.w5, iv_mul_le a.w1 a.w2, iv_mul_le a.w1 a.w3, iv_mul_le a.w1 a.w4, iv_mul_le a.w1 a.w5, iv_mul_le a.w1 a.w6, iv_mul_le a.w5 a.w3, iv_mul_le a.w5 a.w4, iv_le v34, iv_le v35, iv_le v36, iv_le v37, iv_le v38, iv_le v39, iv_le v40]
  replace h := mov_inv h
  replace h := mov_inv h
  replace h := mulx_inv h; obtain ⟨l74, h74, e74, h⟩ := h
  replace h := xor0_inv h
  replace h := adc_inv h; obtain ⟨v76, c76, e76, h⟩ := h
  replace h := mulx_inv h; obtain ⟨l77, h77, e77, h⟩ := h
  replace h := adc_inv h; obtain ⟨v78, c78, e78, h⟩ := h
  replace h := adc_inv h; obtain ⟨v79, c79, e79, h⟩ := h
  replace h := mulx_inv h; obtain ⟨l80, h80, e80, h⟩ := h
  replace h := adc_inv h; obtain ⟨v81, c81, e81, h⟩ := h
  replace h := adc_inv h; obtain ⟨v82, c82, e82, h⟩ := h
  replace h := mulx_inv h; obtain ⟨l83, h83, e83, h⟩ := h
  replace h := adc_inv h; obtain ⟨v84, c84, e84, h⟩ := h
  replace h := adc_inv h; obtain ⟨v85, c85, e85, h⟩ := h
  replace h := mov_inv h
  replace h := mulx_inv h; obtain ⟨l86, h86, e86, h⟩ := h
  replace h := adc_inv h; obtain ⟨v87, c87, e87, h⟩ := h
  replace h := adc_inv h; obtain ⟨v88, c88, e88, h⟩ := h
  replace h := mulx_inv h; obtain ⟨l89, h89, e89, h⟩ := h
  replace h := adc_inv h; obtain ⟨v90, c90, e90, h⟩ := h
  replace h := adc_inv h; obtain ⟨v91, c91, e91, h⟩ := h
  replace h := mulx_inv h; obtain ⟨l92, h92, e92, h⟩ := h
  replace h := adc_inv h; obtain ⟨v93, c93, e93, h⟩ := h
  replace h := adc_inv h; obtain ⟨v94, c94, e94, h⟩ := h
  replace h := mov_inv h
  replace h := mov_inv h
  replace h := adc_inv h; obtain ⟨v95, c95, e95, h⟩ := h
  have zc95 : bv c95 = 0 := by
    refine dead (K := 2 ^ 833) (rest := (2 ^ 321) * (iv l74) + (2 ^ 385) * (iv v78) + (2 ^ 449) * (iv v81) + (2 ^ 513) * (iv v84) + (2 ^ 577) * (iv v87) + (2 ^ 641) * (iv v90) + (2 ^ 705) * (iv v93) + (2 ^ 769) * (iv v95)) (P := (2 ^ 321) * (iv a.w2 * iv a.w3) + (2 ^ 385) * (iv a.w2 * iv a.w4) + (2 ^ 449) * (iv a.w2 * iv a.w5) + (2 ^ 513) * (iv a.w2 * iv a.w6) + (2 ^ 577) * (iv a.w6 * iv a.w3) + (2 ^ 641) * (iv a.w6 * iv a.w4) + (2 ^ 705) * (iv a.w6 * iv a.w5)) (by linear_combination (2 ^ 321) * e74 + (2 ^ 385) * e77 + (2 ^ 385) * e78 + (2 ^ 449) * e80 + (2 ^ 449) * e81 + (2 ^ 513) * e83 + (2 ^ 513) * e84 + (2 ^ 577) * e86 + (2 ^ 577) * e87 + (2 ^ 641) * e89 + (2 ^ 641) * e90 + (2 ^ 705) * e92 + (2 ^ 705) * e93 + (2 ^ 769) * e95 + (2 ^ 385) * hf + (2 ^ 769) * hz) ?_ ?_
    · linarith only [iv_nonneg l74, iv_nonneg v78, iv_nonneg v81, iv_nonneg v84, iv_nonneg v87, iv_nonneg v90, iv_nonneg v93, iv_nonneg v95]
    · linarith only [iv_mul_le a.w2 a.w3, iv_mul_le a.w2 a.w4, iv_mul_le a.w2 a.w5, iv_mul_le a.w2 a.w6, iv_mul_le a.w6 a.w3, iv_mul_le a.w6 a.w4, iv_mul_le a.w6 a.w5]
  replace h := adc_inv h; obtain ⟨v96, c96, e96, h⟩ := h
  replace h := adc_inv h; obtain ⟨v97, c97, e97, h⟩ := h
  have zc97 : bv c97 = 0 := by
    refine dead (K := 2 ^ 896) (rest := (2 ^ 320) * (iv v76) + (2 ^ 384) * (iv v79) + (2 ^ 448) * (iv v82) + (2 ^ 512) * (iv v85) + (2 ^ 576) * (iv v88) + (2 ^ 640) * (iv v91) + (2 ^ 704) * (iv v94) + (2 ^ 768) * (iv v96) + (2 ^ 832) * (iv v97)) (P := (2 ^ 321) * (iv l74) + (2 ^ 385) * (iv v78) + (2 ^ 449) * (iv v81) + (2 ^ 513) * (iv v84) + (2 ^ 577) * (iv v87) + (2 ^ 641) * (iv v90) + (2 ^ 705) * (iv v93) + (2 ^ 769) * (iv v95)) (by linear_combination (2 ^ 320) * e76 + (2 ^ 384) * e79 + (2 ^ 448) * e82 + (2 ^ 512) * e85 + (2 ^ 576) * e88 + (2 ^ 640) * e91 + (2 ^ 704) * e94 + (2 ^ 768) * e96 + (2 ^ 832) * e97 + (2 ^ 320) * hf + (2 ^ 833) * hz) ?_ ?_
    · linarith only [iv_nonneg v76, iv_nonneg v79, iv_nonneg v82, iv_nonneg v85, iv_nonneg v88, iv_nonneg v91, iv_nonneg v94, iv_nonneg v96, iv_nonneg v97]
    · linarith only [iv_le l74, iv_le v78, iv_le v81, iv_le v84, iv_le v87, iv_le v90, iv_le v93, iv_le v95]
  replace h := add_inv h; obtain ⟨v98, c98, e98, h⟩ := h
  replace h := mov_inv h
  replace h := adc_inv h; obtain ⟨v99, c99, e99, h⟩ := h
  replace h := mov_inv h
  replace h := adc_inv h; obtain ⟨v100, c100, e100, h⟩ := h
  replace h := mov_inv h
  replace h := adc_inv h; obtain ⟨v101, c101, e101, h⟩ := h
  replace h := mov_inv h
  replace h := adc_inv h; obtain ⟨v102, c102, e102, h⟩ := h
  replace h := mov_inv h
  replace h := adc_inv h; obtain ⟨v103, c103, e103, h⟩ := h
  replace h := mov_inv h
  replace h := adc_inv h; obtain ⟨v104, c104, e104, h⟩ := h
  replace h := mov_inv h
  replace h := adc_inv h; obtain ⟨v105, c105, e105, h⟩ := h
  replace h := mov_inv h
  replace h := adc_inv h; obtain ⟨v106, c106, e106, h⟩ := h
  have zc106 : bv c106 = 0 := by
    refine dead (K := 2 ^ 896) (rest := (2 ^ 320) * (iv v98) + (2 ^ 384) * (iv v99) + (2 ^ 448) * (iv v100) + (2 ^ 512) * (iv v101) + (2 ^ 576) * (iv v102) + (2 ^ 640) * (iv v103) + (2 ^ 704) * (iv v104) + (2 ^ 768) * (iv v105) + (2 ^ 832) * (iv v106)) (P := (2 ^ 768) * (iv a.w6 * iv a.w6) + (2 ^ 321) * (iv a.w2 * iv a.w3) + (2 ^ 385) * (iv a.w2 * iv a.w4) + (2 ^ 449) * (iv a.w2 * iv a.w5) + (2 ^ 513) * (iv a.w2 * iv a.w6) + (2 ^ 577) * (iv a.w6 * iv a.w3) + (2 ^ 641) * (iv a.w6 * iv a.w4) + (2 ^ 705) * (iv a.w6 * iv a.w5) + (2 ^ 320) * (iv v67) + (2 ^ 384) * (iv v68) + (2 ^ 448) * (iv v69) + (2 ^ 512) * (iv v70) + (2 ^ 576) * (iv v71) + (2 ^ 640) * (iv v72) + (2 ^ 704) * (iv v73)) (by linear_combination (2 ^ 768) * e7 + (2 ^ 321) * e74 + (2 ^ 320) * e76 + (2 ^ 385) * e77 + (2 ^ 385) * e78 + (2 ^ 384) * e79 + (2 ^ 449) * e80 + (2 ^ 449) * e81 + (2 ^ 448) * e82 + (2 ^ 513) * e83 + (2 ^ 513) * e84 + (2 ^ 512) * e85 + (2 ^ 577) * e86 + (2 ^ 577) * e87 + (2 ^ 576) * e88 + (2 ^ 641) * e89 + (2 ^ 641) * e90 + (2 ^ 640) * e91 + (2 ^ 705) * e92 + (2 ^ 705) * e93 + (2 ^ 704) * e94 + (2 ^ 769) * e95 + (2 ^ 768) * e96 + (2 ^ 832) * e97 + (2 ^ 320) * e98 + (2 ^ 384) * e99 + (2 ^ 448) * e100 + (2 ^ 512) * e101 + (2 ^ 576) * e102 + (2 ^ 640) * e103 + (2 ^ 704) * e104 + (2 ^ 768) * e105 + (2 ^ 832) * e106 + (36893488147419103233 * 2 ^ 320) * hf + (-2 ^ 833) * zc95 + (18446744073709551617 * 2 ^ 769) * hz + (-2 ^ 896) * zc97) ?_ ?_
    · linarith only [iv_nonneg v98, iv_nonneg v99, iv_nonneg v100, iv_nonneg v101, iv_nonneg v102, iv_nonneg v103, iv_nonneg v104, iv_nonneg v105, iv_nonneg v106]
    · linarith only [iv_mul_le a.w6 a.w6, iv_mul_le a.w2 a.w3, iv_mul_le a.w2 a.w4, iv_mul_le a.w2 a.w5, iv_mul_le a.w2 a.w6, iv_mul_le a.w6 a.w3, iv_mul_le a.w6 a.w4, iv_mul_le a.w6 a.w5, iv_le v67, iv_le v68, iv_le v69, iv_le v70, iv_le v71, iv_le v72, iv_le v73]
  replace h := mov_inv h
  subst h
  simp only [F14.val, F7.val]
  linear_combination (2 ^ 832) * e106 + (-2 ^ 896) * zc106 + (2 ^ 768) * e105 + (2 ^ 704) * e104 + (2 ^ 640) * e103 + (2 ^ 576) * e102 + (2 ^ 512) * e101 + (2 ^ 448) * e100 + (2 ^ 384) * e99 + (2 ^ 320) * e98 + (2 ^ 832) * e97 + (-2 ^ 896) * zc97 + (2 ^ 768) * e96 + (2 ^ 769) * e95 + (-2 ^ 833) * zc95 + (2 ^ 704) * e94 + (2 ^ 705) * e93 + (2 ^ 705) * e92 + (2 ^ 640) * e91 + (2 ^ 641) * e90 + (2 ^ 641) * e89 + (2 ^ 576) * e88 + (2 ^ 577) * e87 + (2 ^ 577) * e86 + (2 ^ 512) * e85 + (2 ^ 513) * e84 + (2 ^ 513) * e83 + (2 ^ 448) * e82 + (2 ^ 449) * e81 + (2 ^ 449) * e80 + (2 ^ 384) * e79 + (2 ^ 385) * e78 + (2 ^ 385) * e77 + (2 ^ 320) * e76 + (2 ^ 321) * e74 + (2 ^ 704) * e73 + (-2 ^ 768) * zc73 + (2 ^ 640) * e72 + (2 ^ 576) * e71 + (2 ^ 512) * e70 + (2 ^ 448) * e69 + (2 ^ 384) * e68 + (2 ^ 320) * e67 + (2 ^ 256) * e66 + (2 ^ 192) * e65 + (2 ^ 704) * e64 + (-2 ^ 768) * zc64 + (2 ^ 640) * e63 + (2 ^ 641) * e62 + (-2 ^ 705) * zc62 + (2 ^ 576) * e61 + (2 ^ 577) * e60 + (2 ^ 577) * e59 + (2 ^ 512) * e58 + (2 ^ 513) * e57 + (2 ^ 513) * e56 + (2 ^ 448) * e55 + (2 ^ 449) * e54 + (2 ^ 449) * e53 + (2 ^ 384) * e52 + (2 ^ 385) * e51 + (2 ^ 385) * e50 + (2 ^ 320) * e49 + (2 ^ 321) * e48 + (2 ^ 321) * e47 + (2 ^ 256) * e46 + (2 ^ 257) * e45 + (2 ^ 257) * e44 + (2 ^ 192) * e43 + (2 ^ 193) * e41 + (2 ^ 576) * e40 + (-2 ^ 640) * zc40 + (2 ^ 512) * e39 + (2 ^ 448) * e38 + (2 ^ 384) * e37 + (2 ^ 320) * e36 + (2 ^ 256) * e35 + (2 ^ 192) * e34 + (2 ^ 128) * e33 + (2 ^ 64) * e32 + (2 ^ 576) * e31 + (-2 ^ 640) * zc31 + (2 ^ 512) * e30 + (2 ^ 513) * e29 + (-2 ^ 577) * zc29 + (2 ^ 448) * e28 + (2 ^ 449) * e27 + (2 ^ 449) * e26 + (2 ^ 384) * e25 + (2 ^ 385) * e24 + (2 ^ 385) * e23 + (2 ^ 320) * e22 + (2 ^ 321) * e21 + (2 ^ 321) * e20 + (2 ^ 256) * e19 + (2 ^ 257) * e18 + (2 ^ 257) * e17 + (2 ^ 192) * e16 + (2 ^ 193) * e15 + (2 ^ 193) * e14 + (2 ^ 128) * e13 + (2 ^ 129) * e12 + (2 ^ 129) * e11 + (2 ^ 64) * e10 + (2 ^ 65) * e8 + (2 ^ 768) * e7 + (2 ^ 640) * e6 + (2 ^ 512) * e5 + (2 ^ 384) * e4 + (2 ^ 256) * e3 + (2 ^ 128) * e2 + e1 + (2135987035920910082510813795406868310032552609100727358564487664277988894699682310826844728852481 * 2 ^ 513) * hz + (4271974071841820164905835501576420424641534233192766809275365061523416286896443663038344559853569 * 2 ^ 64) * hf

set_option maxHeartbeats 1000000 in
theorem intsqr_mulx_val (a : F7) : (intsqr_mulx a).val = a.val ^ 2 := by
  generalize h : intsqr_mulx a = X
  unfold intsqr_mulx at h
  have hz : iv 0#64 = 0 := rfl
  have hf : bv false = 0 := rfl
  replace h := mov_inv h
  replace h := mulx_inv h; obtain ⟨l1, h1, e1, h⟩ := h
  replace h := mov_inv h
  replace h := mulx_inv h; obtain ⟨l2, h2, e2, h⟩ := h
  replace h := mov_inv h
  replace h := mov_inv h
  replace h := mov_inv h
  replace h := mov_inv h
  replace h := mov_inv h
  replace h := mulx_inv h; obtain ⟨l3, h3, e3, h⟩ := h
  replace h := mov_inv h
  replace h := mulx_inv h; obtain ⟨l4, h4, e4, h⟩ := h
  replace h := mov_inv h
  replace h := mov_inv h
  replace h := mov_inv h
  replace h := mov_inv h
  replace h := mov_inv h
  replace h := mulx_inv h; obtain ⟨l5, h5, e5, h⟩ := h
  replace h := mov_inv h
  replace h := mulx_inv h; obtain ⟨l6, h6, e6, h⟩ := h
  replace h := mov_inv h
  replace h := mov_inv h
  replace h := mov_inv h
  replace h := mov_inv h
  replace h := mov_inv h
  replace h := mulx_inv h; obtain ⟨l7, h7, e7, h⟩ := h
  replace h := mov_inv h
  replace h := mov_inv h
  replace h := mov_inv h
  replace h := mulx_inv h; obtain ⟨l8, h8, e8, h⟩ := h
  replace h := mulx_inv h; obtain ⟨l9, h9, e9, h⟩ := h
  replace h := add_inv h; obtain ⟨v10, c10, e10, h⟩ := h
  replace h := mulx_inv h; obtain ⟨l11, h11, e11, h⟩ := h
  replace h := adc_inv h; obtain ⟨v12, c12, e12, h⟩ := h
  replace h := mulx_inv h; obtain ⟨l13, h13, e13, h⟩ := h
  replace h := adc_inv h; obtain ⟨v14, c14, e14, h⟩ := h
  replace h := mulx_inv h; obtain ⟨l15, h15, e15, h⟩ := h
  replace h := adc_inv h; obtain ⟨v16, c16, e16, h⟩ := h
  replace h := mulx_inv h; obtain ⟨l17, h17, e17, h⟩ := h
  replace h := adc_inv h; obtain ⟨v18, c18, e18, h⟩ := h
  replace h := mov_inv h
  replace h := mulx_inv h; obtain ⟨l19, h19, e19, h⟩ := h
  replace h := adc_inv h; obtain ⟨v20, c20, e20, h⟩ := h
  replace h := adc_inv h; obtain ⟨v21, c21, e21, h⟩ := h
  have zc21 : bv c21 = 0 := by
    refine dead (K := 2 ^ 577) (rest := (2 ^ 65) * (iv l8) + (2 ^ 129) * (iv v10) + (2 ^ 193) * (iv v12) + (2 ^ 257) * (iv v14) + (2 ^ 321) * (iv v16) + (2 ^ 385) * (iv v18) + (2 ^ 449) * (iv v20) + (2 ^ 513) * (iv v21)) (P := (2 ^ 65) * (iv a.w0 * iv a.w1) + (2 ^ 129) * (iv a.w0 * iv a.w2) + (2 ^ 193) * (iv a.w0 * iv a.w3) + (2 ^ 257) * (iv a.w0 * iv a.w4) + (2 ^ 321) * (iv a.w0 * iv a.w5) + (2 ^ 385) * (iv a.w0 * iv a.w6) + (2 ^ 449) * (iv a.w3 * iv a.w4)) (by linear_combination (2 ^ 65) * e8 + (2 ^ 129) * e9 + (2 ^ 129) * e10 + (2 ^ 193) * e11 + (2 ^ 193) * e12 + (2 ^ 257) * e13 + (2 ^ 257) * e14 + (2 ^ 321) * e15 + (2 ^ 321) * e16 + (2 ^ 385) * e17 + (2 ^ 385) * e18 + (2 ^ 449) * e19 + (2 ^ 449) * e20 + (2 ^ 513) * e21 + (2 ^ 513) * hz) ?_ ?_
    · linarith only [iv_nonneg l8, iv_nonneg v10, iv_nonneg v12, iv_nonneg v14, iv_nonneg v16, iv_nonneg v18, iv_nonneg v20, iv_nonneg v21]
    · linarith only [iv_mul_le a.w0 a.w1, iv_mul_le a.w0 a.w2, iv_mul_le a.w0 a.w3, iv_mul_le a.w0 a.w4, iv_mul_le a.w0 a.w5, iv_mul_le a.w0 a.w6, iv_mul_le a.w3 a.w4]
  replace h := xor0_inv h
  replace h := shld0_inv h; obtain ⟨v23, e23, h⟩ := h
  replace h := shld_inv h; obtain ⟨v24, e24, h⟩ := h
  replace h := shld_inv h; obtain ⟨v25, e25, h⟩ := h
  replace h := shld_inv h; obtain ⟨v26, e26, h⟩ := h
  replace h := shld_inv h; obtain ⟨v27, e27, h⟩ := h
  replace h := shld_inv h; obtain ⟨v28, e28, h⟩ := h
  replace h := shld_inv h; obtain ⟨v29, e29, h⟩ := h
  replace h := shld_inv h; obtain ⟨v30, e30, h⟩ := h
  replace h := shl_inv h; obtain ⟨v31, e31, h⟩ := h
  replace h := add_inv h; obtain ⟨v32, c32, e32, h⟩ := h
  replace h := mov_inv h
  replace h := adc_inv h; obtain ⟨v33, c33, e33, h⟩ := h
  replace h := mov_inv h
  replace h := adc_inv h; obtain ⟨v34, c34, e34, h⟩ := h
  replace h := mov_inv h
  replace h := adc_inv h; obtain ⟨v35, c35, e35, h⟩ := h
  replace h := mov_inv h
  replace h := adc_inv h; obtain ⟨v36, c36, e36, h⟩ := h
  replace h := mov_inv h
  replace h := adc_inv h; obtain ⟨v37, c37, e37, h⟩ := h
  replace h := mov_inv h
  replace h := adc_inv h; obtain ⟨v38, c38, e38, h⟩ := h
  replace h := mov_inv h
  replace h := adc_inv h; obtain ⟨v39, c39, e39, h⟩ := h
  replace h := mov_inv h
  replace h := adc_inv h; obtain ⟨v40, c40, e40, h⟩ := h
  have zc40 : bv c40 = 0 := by
    refine dead (K := 2 ^ 640) (rest := iv l1 + (2 ^ 64) * (iv v32) + (2 ^ 128) * (iv v33) + (2 ^ 192) * (iv v34) + (2 ^ 256) * (iv v35) + (2 ^ 320) * (iv v36) + (2 ^ 384) * (iv v37) + (2 ^ 448) * (iv v38) + (2 ^ 512) * (iv v39) + (2 ^ 576) * (iv v40)) (P := iv a.w0 * iv a.w0 + (2 ^ 128) * (iv a.w1 * iv a.w1) + (2 ^ 256) * (iv a.w2 * iv a.w2) + (2 ^ 384) * (iv a.w3 * iv a.w3) + (2 ^ 512) * (iv a.w4 * iv a.w4) + (2 ^ 65) * (iv a.w0 * iv a.w1) + (2 ^ 129) * (iv a.w0 * iv a.w2) + (2 ^ 193) * (iv a.w0 * iv a.w3) + (2 ^ 257) * (iv a.w0 * iv a.w4) + (2 ^ 321) * (iv a.w0 * iv a.w5) + (2 ^ 385) * (iv a.w0 * iv a.w6) + (2 ^ 449) * (iv a.w3 * iv a.w4)) (by linear_combination e1 + (2 ^ 128) * e2 + (2 ^ 256) * e3 + (2 ^ 384) * e4 + (2 ^ 512) * e5 + (2 ^ 65) * e8 + (2 ^ 129) * e9 + (2 ^ 129) * e10 + (2 ^ 193) * e11 + (2 ^ 193) * e12 + (2 ^ 257) * e13 + (2 ^ 257) * e14 + (2 ^ 321) * e15 + (2 ^ 321) * e16 + (2 ^ 385) * e17 + (2 ^ 385) * e18 + (2 ^ 449) * e19 + (2 ^ 449) * e20 + (2 ^ 513) * e21 + (2 ^ 576) * e23 + (2 ^ 512) * e24 + (2 ^ 448) * e25 + (2 ^ 384) * e26 + (2 ^ 320) * e27 + (2 ^ 256) * e28 + (2 ^ 192) * e29 + (2 ^ 128) * e30 + (2 ^ 64) * e31 + (2 ^ 64) * e32 + (2 ^ 128) * e33 + (2 ^ 192) * e34 + (2 ^ 256) * e35 + (2 ^ 320) * e36 + (2 ^ 384) * e37 + (2 ^ 448) * e38 + (2 ^ 512) * e39 + (2 ^ 576) * e40 + (-2 ^ 577) * zc21 + (2 ^ 513) * hz) ?_ ?_
    · linarith only [iv_nonneg l1, iv_nonneg v32, iv_nonneg v33, iv_nonneg v34, iv_nonneg v35, iv_nonneg v36, iv_nonneg v37, iv_nonneg v38, iv_nonneg v39, iv_nonneg v40]
    · linarith only [iv_mul_le a.w0 a.w0, iv_mul_le a.w1 a.w1, iv_mul_le a.w2 a.w2, iv_mul_le a.w3 a.w3, iv_mul_le a.w4 a.w4, iv_mul_le a.w0 a.w1, iv_mul_le a.w0 a.w2, iv_mul_le a.w0 a.w3, iv_mul_le a.w0 a.w4, iv_mul_le a.w0 a.w5, iv_mul_le a.w0 a.w6, iv_mul_le a.w3 a.w4]
  replace h := mov_inv h
  replace h := mov_inv h
  replace h := mulx_inv h; obtain ⟨l41, h41, e41, h⟩ := h
  replace h := mulx_inv h; obtain ⟨l42, h42, e42, h⟩ := h
  replace h := add_inv h; obtain ⟨v43, c43, e43, h⟩ := h
  replace h := mulx_inv h; obtain ⟨l44, h44, e44, h⟩ := h
  replace h := adc_inv h; obtain ⟨v45, c45, e45, h⟩ := h
  replace h := mulx_inv h; obtain ⟨l46, h46, e46, h⟩ := h
  replace h := adc_inv h; obtain ⟨v47, c47, e47, h⟩ := h
  replace h := mulx_inv h; obtain ⟨l48, h48, e48, h⟩ := h
  replace h := adc_inv h; obtain ⟨v49, c49, e49, h⟩ := h
  replace h := mov_inv h
  replace h := mulx_inv h; obtain ⟨l50, h50, e50, h⟩ := h
  replace h := adc_inv h; obtain ⟨v51, c51, e51, h⟩ := h
  replace h := mulx_inv h; obtain ⟨l52, h52, e52, h⟩ := h
  replace h := adc_inv h; obtain ⟨v53, c53, e53, h⟩ := h
  replace h := adc_inv h; obtain ⟨v54, c54, e54, h⟩ := h
  have zc54 : bv c54 = 0 := by
    refine dead (K := 2 ^ 705) (rest := (2 ^ 193) * (iv l41) + (2 ^ 257) * (iv v43) + (2 ^ 321) * (iv v45) + (2 ^ 385) * (iv v47) + (2 ^ 449) * (iv v49) + (2 ^ 513) * (iv v51) + (2 ^ 577) * (iv v53) + (2 ^ 641) * (iv v54)) (P := (2 ^ 193) * (iv a.w1 * iv a.w2) + (2 ^ 257) * (iv a.w1 * iv a.w3) + (2 ^ 321) * (iv a.w1 * iv a.w4) + (2 ^ 385) * (iv a.w1 * iv a.w5) + (2 ^ 449) * (iv a.w1 * iv a.w6) + (2 ^ 513) * (iv a.w5 * iv a.w3) + (2 ^ 577) * (iv a.w5 * iv a.w4)) (by linear_combination (2 ^ 193) * e41 + (2 ^ 257) * e42 + (2 ^ 257) * e43 + (2 ^ 321) * e44 + (2 ^ 321) * e45 + (2 ^ 385) * e46 + (2 ^ 385) * e47 + (2 ^ 449) * e48 + (2 ^ 449) * e49 + (2 ^ 513) * e50 + (2 ^ 513) * e51 + (2 ^ 577) * e52 + (2 ^ 577) * e53 + (2 ^ 641) * e54 + (2 ^ 641) * hz) ?_ ?_
    · linarith only [iv_nonneg l41, iv_nonneg v43, iv_nonneg v45, iv_nonneg v47, iv_nonneg v49, iv_nonneg v51, iv_nonneg v53, iv_nonneg v54]
    · linarith only [iv_mul_le a.w1 a.w2, iv_mul_le a.w1 a.w3, iv_mul_le a.w1 a.w4, iv_mul_le a.w1 a.w5, iv_mul_le a.w1 a.w6, iv_mul_le a.w5 a.w3, iv_mul_le a.w5 a.w4]
  replace h := xor0_inv h
  replace h := shld0_inv h; obtain ⟨v56, e56, h⟩ := h
  replace h := shld_inv h; obtain ⟨v57, e57, h⟩ := h
  replace h := shld_inv h; obtain ⟨v58, e58, h⟩ := h
  replace h := shld_inv h; obtain ⟨v59, e59, h⟩ := h
  replace h := shld_inv h; obtain ⟨v60, e60, h⟩ := h
  replace h := shld_inv h; obtain ⟨v61, e61, h⟩ := h
  replace h := shld_inv h; obtain ⟨v62, e62, h⟩ := h
  replace h := shld_inv h; obtain ⟨v63, e63, h⟩ := h
  replace h := shl_inv h; obtain ⟨v64, e64, h⟩ := h
  replace h := add_inv h; obtain ⟨v65, c65, e65, h⟩ := h
  replace h := mov_inv h
  replace h := adc_inv h; obtain ⟨v66, c66, e66, h⟩ := h
  replace h := mov_inv h
  replace h := adc_inv h; obtain ⟨v67, c67, e67, h⟩ := h
  replace h := mov_inv h
  replace h := adc_inv h; obtain ⟨v68, c68, e68, h⟩ := h
  replace h := mov_inv h
  replace h := adc_inv h; obtain ⟨v69, c69, e69, h⟩ := h
  replace h := mov_inv h
  replace h := adc_inv h; obtain ⟨v70, c70, e70, h⟩ := h
  replace h := mov_inv h
  replace h := adc_inv h; obtain ⟨v71, c71, e71, h⟩ := h
  replace h := mov_inv h
  replace h := adc_inv h; obtain ⟨v72, c72, e72, h⟩ := h
  replace h := mov_inv h
  replace h := adc_inv h; obtain ⟨v73, c73, e73, h⟩ := h
  have zc73 : bv c73 = 0 := by
    refine dead (K := 2 ^ 768) (rest := (2 ^ 192) * (iv v65) + (2 ^ 256) * (iv v66) + (2 ^ 320) * (iv v67) + (2 ^ 384) * (iv v68) + (2 ^ 448) * (iv v69) + (2 ^ 512) * (iv v70) + (2 ^ 576) * (iv v71) + (2 ^ 640) * (iv v72) + (2 ^ 704) * (iv v73)) (P := (2 ^ 640) * (iv a.w5 * iv a.w5) + (2 ^ 193) * (iv a.w1 * iv a.w2) + (2 ^ 257) * (iv a.w1 * iv a.w3) + (2 ^ 321) * (iv a.w1 * iv a.w4) + (2 ^ 385) * (iv a.w1 * iv a.w5) + (2 ^ 449) * (iv a.w1 * iv a.w6) + (2 ^ 513) * (iv a.w5 * iv a.w3) + (2 ^ 577) * (iv a.w5 * iv a.w4) + (2 ^ 192) * (iv v34) + (2 ^ 256) * (iv v35) + (2 ^ 320) * (iv v36) + (2 ^ 384) * (iv v37) + (2 ^ 448) * (iv v38) + (2 ^ 512) * (iv v39) + (2 ^ 576) * (iv v40)) (by linear_combination (2 ^ 640) * e6 + (2 ^ 193) * e41 + (2 ^ 257) * e42 + (2 ^ 257) * e43 + (2 ^ 321) * e44 + (2 ^ 321) * e45 + (2 ^ 385) * e46 + (2 ^ 385) * e47 + (2 ^ 449) * e48 + (2 ^ 449) * e49 + (2 ^ 513) * e50 + (2 ^ 513) * e51 + (2 ^ 577) * e52 + (2 ^ 577) * e53 + (2 ^ 641) * e54 + (2 ^ 704) * e56 + (2 ^ 640) * e57 + (2 ^ 576) * e58 + (2 ^ 512) * e59 + (2 ^ 448) * e60 + (2 ^ 384) * e61 + (2 ^ 320) * e62 + (2 ^ 256) * e63 + (2 ^ 192) * e64 + (2 ^ 192) * e65 + (2 ^ 256) * e66 + (2 ^ 320) * e67 + (2 ^ 384) * e68 + (2 ^ 448) * e69 + (2 ^ 512) * e70 + (2 ^ 576) * e71 + (2 ^ 640) * e72 + (2 ^ 704) * e73 + (-2 ^ 705) * zc54 + (2 ^ 641) * hz) ?_ ?_
    · linarith only [iv_nonneg v65, iv_nonneg v66, iv_nonneg v67, iv_nonneg v68, iv_nonneg v69, iv_nonneg v70, iv_nonneg v71, iv_nonneg v72, iv_nonneg v73]
    · linarith only [iv_mul_le a.w5 a.w5, iv_mul_le a.w1 a.w2, iv_mul_le a.w1 a.w3, iv_mul_le a.w1 a.w4, iv_mul_le a.w1 a.w5, iv_mul_le a.w1 a.w6, iv_mul_le a.w5 a.w3, iv_mul_le a.w5 a.w4, iv_le v34, iv_le v35, iv_le v36, iv_le v37, iv_le v38, iv_le v39, iv_le v40]
  replace h := mov_inv h
  replace h := mov_inv h
  replace h := mulx_inv h; obtain ⟨l74, h74, e74, h⟩ := h
  replace h := mulx_inv h; obtain ⟨l75, h75, e75, h⟩ := h
  replace h := add_inv h; obtain ⟨v76, c76, e76, h⟩ := h
  replace h := mulx_inv h; obtain ⟨l77, h77, e77, h⟩ := h
  replace h := adc_inv h; obtain ⟨v78, c78, e78, h⟩ := h
  replace h := mulx_inv h; obtain ⟨l79, h79, e79, h⟩ := h
  replace h := adc_inv h; obtain ⟨v80, c80, e80, h⟩ := h
  replace h := mov_inv h
  replace h := mulx_inv h; obtain ⟨l81, h81, e81, h⟩ := h
  replace h := adc_inv h; obtain ⟨v82, c82, e82, h⟩ := h
  replace h := mulx_inv h; obtain ⟨l83, h83, e83, h⟩ := h
  replace h := adc_inv h; obtain ⟨v84, c84, e84, h⟩ := h
  replace h := mulx_inv h; obtain ⟨l85, h85, e85, h⟩ := h
  replace h := adc_inv h; obtain ⟨v86, c86, e86, h⟩ := h
  replace h := adc_inv h; obtain ⟨v87, c87, e87, h⟩ := h
  have zc87 : bv c87 = 0 := by
    refine dead (K := 2 ^ 833) (rest := (2 ^ 321) * (iv l74) + (2 ^ 385) * (iv v76) + (2 ^ 449) * (iv v78) + (2 ^ 513) * (iv v80) + (2 ^ 577) * (iv v82) + (2 ^ 641) * (iv v84) + (2 ^ 705) * (iv v86) + (2 ^ 769) * (iv v87)) (P := (2 ^ 321) * (iv a.w2 * iv a.w3) + (2 ^ 385) * (iv a.w2 * iv a.w4) + (2 ^ 449) * (iv a.w2 * iv a.w5) + (2 ^ 513) * (iv a.w2 * iv a.w6) + (2 ^ 577) * (iv a.w6 * iv a.w3) + (2 ^ 641) * (iv a.w6 * iv a.w4) + (2 ^ 705) * (iv a.w6 * iv a.w5)) (by linear_combination (2 ^ 321) * e74 + (2 ^ 385) * e75 + (2 ^ 385) * e76 + (2 ^ 449) * e77 + (2 ^ 449) * e78 + (2 ^ 513) * e79 + (2 ^ 513) * e80 + (2 ^ 577) * e81 + (2 ^ 577) * e82 + (2 ^ 641) * e83 + (2 ^ 641) * e84 + (2 ^ 705) * e85 + (2 ^ 705) * e86 + (2 ^ 769) * e87 + (2 ^ 769) * hz) ?_ ?_
    · linarith only [iv_nonneg l74, iv_nonneg v76, iv_nonneg v78, iv_nonneg v80, iv_nonneg v82, iv_nonneg v84, iv_nonneg v86, iv_nonneg v87]
    · linarith only [iv_mul_le a.w2 a.w3, iv_mul_le a.w2 a.w4, iv_mul_le a.w2 a.w5, iv_mul_le a.w2 a.w6, iv_mul_le a.w6 a.w3, iv_mul_le a.w6 a.w4, iv_mul_le a.w6 a.w5]
  replace h := xor0_inv h
  replace h := shld0_inv h; obtain ⟨v89, e89, h⟩ := h
  replace h := shld_inv h; obtain ⟨v90, e90, h⟩ := h
  replace h := shld_inv h; obtain ⟨v91, e91, h⟩ := h
  replace h := shld_inv h; obtain ⟨v92, e92, h⟩ := h
  replace h := shld_inv h; obtain ⟨v93, e93, h⟩ := h
  replace h := shld_inv h; obtain ⟨v94, e94, h⟩ := h
  replace h := shld_inv h; obtain ⟨v95, e95, h⟩ := h
  replace h := shld_inv h; obtain ⟨v96, e96, h⟩ := h
  replace h := shl_inv h; obtain ⟨v97, e97, h⟩ := h
  replace h := add_inv h; obtain ⟨v98, c98, e98, h⟩ := h
  replace h := mov_inv h
  replace h := adc_inv h; obtain ⟨v99, c99, e99, h⟩ := h
  replace h := mov_inv h
  replace h := adc_inv h; obtain ⟨v100, c100, e100, h⟩ := h
  replace h := mov_inv h
  replace h := adc_inv h; obtain ⟨v101, c101, e101, h⟩ := h
  replace h := mov_inv h
  replace h := adc_inv h; obtain ⟨v102, c102, e102, h⟩ := h
  replace h := mov_inv h
  replace h := adc_inv h; obtain ⟨v103, c103, e103, h⟩ := h
  replace h := mov_inv h
  replace h := adc_inv h; obtain ⟨v104, c104, e104, h⟩ := h
  replace h := mov_inv h
  replace h := adc_inv h; obtain ⟨v105, c105, e105, h⟩ := h
  replace h := mov_inv h
  replace h := adc_inv h; obtain ⟨v106, c106, e106, h⟩ := h
  have zc106 : bv c106 = 0 := by
    refine dead (K := 2 ^ 896) (rest := (2 ^ 320) * (iv v98) + (2 ^ 384) * (iv v99) + (2 ^ 448) * (iv v100) + (2 ^ 512) * (iv v101) + (2 ^ 576) * (iv v102) + (2 ^ 640) * (iv v103) + (2 ^ 704) * (iv v104) + (2 ^ 768) * (iv v105) + (2 ^ 832) * (iv v106)) (P := (2 ^ 768) * (iv a.w6 * iv a.w6) + (2 ^ 321) * (iv a.w2 * iv a.w3) + (2 ^ 385) * (iv a.w2 * iv a.w4) + (2 ^ 449) * (iv a.w2 * iv a.w5) + (2 ^ 513) * (iv a.w2 * iv a.w6) + (2 ^ 577) * (iv a.w6 * iv a.w3) + (2 ^ 641) * (iv a.w6 * iv a.w4) + (2 ^ 705) * (iv a.w6 * iv a.w5) + (2 ^ 320) * (iv v67) + (2 ^ 384) * (iv v68) + (2 ^ 448) * (iv v69) + (2 ^ 512) * (iv v70) + (2 ^ 576) * (iv v71) + (2 ^ 640) * (iv v72) + (2 ^ 704) * (iv v73)) (by linear_combination (2 ^ 768) * e7 + (2 ^ 321) * e74 + (2 ^ 385) * e75 + (2 ^ 385) * e76 + (2 ^ 449) * e77 + (2 ^ 449) * e78 + (2 ^ 513) * e79 + (2 ^ 513) * e80 + (2 ^ 577) * e81 + (2 ^ 577) * e82 + (2 ^ 641) * e83 + (2 ^ 641) * e84 + (2 ^ 705) * e85 + (2 ^ 705) * e86 + (2 ^ 769) * e87 + (2 ^ 832) * e89 + (2 ^ 768) * e90 + (2 ^ 704) * e91 + (2 ^ 640) * e92 + (2 ^ 576) * e93 + (2 ^ 512) * e94 + (2 ^ 448) * e95 + (2 ^ 384) * e96 + (2 ^ 320) * e97 + (2 ^ 320) * e98 + (2 ^ 384) * e99 + (2 ^ 448) * e100 + (2 ^ 512) * e101 + (2 ^ 576) * e102 + (2 ^ 640) * e103 + (2 ^ 704) * e104 + (2 ^ 768) * e105 + (2 ^ 832) * e106 + (-2 ^ 833) * zc87 + (2 ^ 769) * hz) ?_ ?_
    · linarith only [iv_nonneg v98, iv_nonneg v99, iv_nonneg v100, iv_nonneg v101, iv_nonneg v102, iv_nonneg v103, iv_nonneg v104, iv_nonneg v105, iv_nonneg v106]
    · linarith only [iv_mul_le a.w6 a.w6, iv_mul_le a.w2 a.w3, iv_mul_le a.w2 a.w4, iv_mul_le a.w2 a.w5, iv_mul_le a.w2 a.w6, iv_mul_le a.w6 a.w3, iv_mul_le a.w6 a.w4, iv_mul_le a.w6 a.w5, iv_le v67, iv_le v68, iv_le v69, iv_le v70, iv_le v71, iv_le v72, iv_le v73]
  replace h := mov_inv h
  subst h
  simp only [F14.val, F7.val]
  linear_combination (2 ^ 832) * e106 + (-2 ^ 896) * zc106 + (2 ^ 768) * e105 + (2 ^ 704) * e104 + (2 ^ 640) * e103 + (2 ^ 576) * e102 + (2 ^ 512) * e101 + (2 ^ 448) * e100 + (2 ^ 384) * e99 + (2 ^ 320) * e98 + (2 ^ 320) * e97 + (2 ^ 384) * e96 + (2 ^ 448) * e95 + (2 ^ 512) * e94 + (2 ^ 576) * e93 + (2 ^ 640) * e92 + (2 ^ 704) * e91 + (2 ^ 768) * e90 + (2 ^ 832) * e89 + (2 ^ 769) * e87 + (-2 ^ 833) * zc87 + (2 ^ 705) * e86 + (2 ^ 705) * e85 + (2 ^ 641) * e84 + (2 ^ 641) * e83 + (2 ^ 577) * e82 + (2 ^ 577) * e81 + (2 ^ 513) * e80 + (2 ^ 513) * e79 + (2 ^ 449) * e78 + (2 ^ 449) * e77 + (2 ^ 385) * e76 + (2 ^ 385) * e75 + (2 ^ 321) * e74 + (2 ^ 704) * e73 + (-2 ^ 768) * zc73 + (2 ^ 640) * e72 + (2 ^ 576) * e71 + (2 ^ 512) * e70 + (2 ^ 448) * e69 + (2 ^ 384) * e68 + (2 ^ 320) * e67 + (2 ^ 256) * e66 + (2 ^ 192) * e65 + (2 ^ 192) * e64 + (2 ^ 256) * e63 + (2 ^ 320) * e62 + (2 ^ 384) * e61 + (2 ^ 448) * e60 + (2 ^ 512) * e59 + (2 ^ 576) * e58 + (2 ^ 640) * e57 + (115792089237316195423570985008687907853610267032561502502920958615344897851393 * 2 ^ 513) * hz + (2 ^ 704) * e56 + (2 ^ 641) * e54 + (-2 ^ 705) * zc54 + (2 ^ 577) * e53 + (2 ^ 577) * e52 + (2 ^ 513) * e51 + (2 ^ 513) * e50 + (2 ^ 449) * e49 + (2 ^ 449) * e48 + (2 ^ 385) * e47 + (2 ^ 385) * e46 + (2 ^ 321) * e45 + (2 ^ 321) * e44 + (2 ^ 257) * e43 + (2 ^ 257) * e42 + (2 ^ 193) * e41 + (2 ^ 576) * e40 + (-2 ^ 640) * zc40 + (2 ^ 512) * e39 + (2 ^ 448) * e38 + (2 ^ 384) * e37 + (2 ^ 320) * e36 + (2 ^ 256) * e35 + (2 ^ 192) * e34 + (2 ^ 128) * e33 + (2 ^ 64) * e32 + (2 ^ 64) * e31 + (2 ^ 128) * e30 + (2 ^ 192) * e29 + (2 ^ 256) * e28 + (2 ^ 320) * e27 + (2 ^ 384) * e26 + (2 ^ 448) * e25 + (2 ^ 512) * e24 + (2 ^ 576) * e23 + (2 ^ 513) * e21 + (-2 ^ 577) * zc21 + (2 ^ 449) * e20 + (2 ^ 449) * e19 + (2 ^ 385) * e18 + (2 ^ 385) * e17 + (2 ^ 321) * e16 + (2 ^ 321) * e15 + (2 ^ 257) * e14 + (2 ^ 257) * e13 + (2 ^ 193) * e12 + (2 ^ 193) * e11 + (2 ^ 129) * e10 + (2 ^ 129) * e9 + (2 ^ 65) * e8 + (2 ^ 768) * e7 + (2 ^ 640) * e6 + (2 ^ 512) * e5 + (2 ^ 384) * e4 + (2 ^ 256) * e3 + (2 ^ 128) * e2 + e1

set_option maxHeartbeats 1000000 in
theorem intsqr_mulq_val (a : F7) : (intsqr_mulq a).val = a.val ^ 2 := by
  generalize h : intsqr_mulq a = X
  unfold intsqr_mulq at h
  have hz : iv 0#64 = 0 := rfl
  have hf : bv false = 0 := rfl
  replace h := mov_inv h
  replace h := mov_inv h
  replace h := mulx_inv h; obtain ⟨l1, h1, e1, h⟩ := h
  replace h := mov_inv h
  replace h := mov_inv h
  replace h := mov_inv h
  replace h := mulx_inv h; obtain ⟨l2, h2, e2, h⟩ := h
  replace h := add_inv h; obtain ⟨v3, c3, e3, h⟩ := h
  replace h := adc_inv h; obtain ⟨v4, c4, e4, h⟩ := h
  have zc4 : bv c4 = 0 := by
    refine dead (K := 2 ^ 257) (rest := (2 ^ 65) * (iv l1) + (2 ^ 129) * (iv v3) + (2 ^ 193) * (iv v4)) (P := (2 ^ 65) * (iv a.w1 * iv a.w0) + (2 ^ 129) * (iv a.w2 * iv a.w0)) (by linear_combination (2 ^ 65) * e1 + (2 ^ 129) * e2 + (2 ^ 129) * e3 + (2 ^ 193) * e4 + (2 ^ 193) * hz) ?_ ?_
    · linarith only [iv_nonneg l1, iv_nonneg v3, iv_nonneg v4]
    · linarith only [iv_mul_le a.w1 a.w0, iv_mul_le a.w2 a.w0]
  replace h := mov_inv h
  replace h := mov_inv h
  replace h := mulx_inv h; obtain ⟨l5, h5, e5, h⟩ := h
  replace h := add_inv h; obtain ⟨v6, c6, e6, h⟩ := h
  replace h := adc_inv h; obtain ⟨v7, c7, e7, h⟩ := h
  have zc7 : bv c7 = 0 := by
    refine dead (K := 2 ^ 321) (rest := (2 ^ 193) * (iv v6) + (2 ^ 257) * (iv v7)) (P := (2 ^ 193) * (iv a.w3 * iv a.w0) + (2 ^ 193) * (iv v4)) (by linear_combination (2 ^ 193) * e5 + (2 ^ 193) * e6 + (2 ^ 257) * e7 + (2 ^ 257) * hz) ?_ ?_
    · linarith only [iv_nonneg v6, iv_nonneg v7]
    · linarith only [iv_mul_le a.w3 a.w0, iv_le v4]
  replace h := mov_inv h
  replace h := mov_inv h
  replace h := mulx_inv h; obtain ⟨l8, h8, e8, h⟩ := h
  replace h := add_inv h; obtain ⟨v9, c9, e9, h⟩ := h
  replace h := adc_inv h; obtain ⟨v10, c10, e10, h⟩ := h
  have zc10 : bv c10 = 0 := by
    refine dead (K := 2 ^ 385) (rest := (2 ^ 257) * (iv v9) + (2 ^ 321) * (iv v10)) (P := (2 ^ 257) * (iv a.w4 * iv a.w0) + (2 ^ 257) * (iv v7)) (by linear_combination (2 ^ 257) * e8 + (2 ^ 257) * e9 + (2 ^ 321) * e10 + (2 ^ 321) * hz) ?_ ?_
    · linarith only [iv_nonneg v9, iv_nonneg v10]
    · linarith only [iv_mul_le a.w4 a.w0, iv_le v7]
  replace h := mov_inv h
  replace h := mov_inv h
  replace h := mulx_inv h; obtain ⟨l11, h11, e11, h⟩ := h
  replace h := add_inv h; obtain ⟨v12, c12, e12, h⟩ := h
  replace h := adc_inv h; obtain ⟨v13, c13, e13, h⟩ := h
  have zc13 : bv c13 = 0 := by
    refine dead (K := 2 ^ 449) (rest := (2 ^ 321) * (iv v12) + (2 ^ 385) * (iv v13)) (P := (2 ^ 321) * (iv a.w5 * iv a.w0) + (2 ^ 321) * (iv v10)) (by linear_combination (2 ^ 321) * e11 + (2 ^ 321) * e12 + (2 ^ 385) * e13 + (2 ^ 385) * hz) ?_ ?_
    · linarith only [iv_nonneg v12, iv_nonneg v13]
    · linarith only [iv_mul_le a.w5 a.w0, iv_le v10]
  replace h := mov_inv h
  replace h := mov_inv h
  replace h := mulx_inv h; obtain ⟨l14, h14, e14, h⟩ := h
  replace h := add_inv h; obtain ⟨v15, c15, e15, h⟩ := h
  replace h := adc_inv h; obtain ⟨v16, c16, e16, h⟩ := h
  have zc16 : bv c16 = 0 := by
    refine dead (K := 2 ^ 513) (rest := (2 ^ 385) * (iv v15) + (2 ^ 449) * (iv v16)) (P := (2 ^ 385) * (iv a.w6 * iv a.w0) + (2 ^ 385) * (iv v13)) (by linear_combination (2 ^ 385) * e14 + (2 ^ 385) * e15 + (2 ^ 449) * e16 + (2 ^ 449) * hz) ?_ ?_
    · linarith only [iv_nonneg v15, iv_nonneg v16]
    · linarith only [iv_mul_le a.w6 a.w0, iv_le v13]
  replace h := mov_inv h
  replace h := mov_inv h
  replace h := mulx_inv h; obtain ⟨l17, h17, e17, h⟩ := h
  replace h := add_inv h; obtain ⟨v18, c18, e18, h⟩ := h
  replace h := adc_inv h; obtain ⟨v19, c19, e19, h⟩ := h
  have zc19 : bv c19 = 0 := by
    refine dead (K := 2 ^ 577) (rest := (2 ^ 449) * (iv v18) + (2 ^ 513) * (iv v19)) (P := (2 ^ 449) * (iv a.w3 * iv a.w4) + (2 ^ 449) * (iv v16)) (by linear_combination (2 ^ 449) * e17 + (2 ^ 449) * e18 + (2 ^ 513) * e19 + (2 ^ 513) * hz) ?_ ?_
    · linarith only [iv_nonneg v18, iv_nonneg v19]
    · linarith only [iv_mul_le a.w3 a.w4, iv_le v16]
  replace h := mov_inv h
  replace h := xor0_inv h
  replace h := shld0_inv h; obtain ⟨v21, e21, h⟩ := h
  replace h := shld_inv h; obtain ⟨v22, e22, h⟩ := h
  replace h := shld_inv h; obtain ⟨v23, e23, h⟩ := h
  replace h := shld_inv h; obtain ⟨v24, e24, h⟩ := h
  replace h := shld_inv h; obtain ⟨v25, e25, h⟩ := h
  replace h := shld_inv h; obtain ⟨v26, e26, h⟩ := h
  replace h := shld_inv h; obtain ⟨v27, e27, h⟩ := h
  replace h := shld_inv h; obtain ⟨v28, e28, h⟩ := h
  replace h := shl_inv h; obtain ⟨v29, e29, h⟩ := h
  replace h := mov_inv h
  replace h := mov_inv h
  replace h := mov_inv h
  replace h := mov_inv h
  replace h := mov_inv h
  replace h := mov_inv h
  replace h := mov_inv h
  replace h := mov_inv h
  replace h := mov_inv h
  replace h := mov_inv h
  replace h := mov_inv h
  replace h := mulx_inv h; obtain ⟨l30, h30, e30, h⟩ := h
  replace h := mov_inv h
  replace h := mov_inv h
  replace h := mov_inv h
  replace h := mulx_inv h; obtain ⟨l31, h31, e31, h⟩ := h
  replace h := add_inv h; obtain ⟨v32, c32, e32, h⟩ := h
  replace h := adc_inv h; obtain ⟨v33, c33, e33, h⟩ := h
  have zc33 : bv c33 = 0 := by
    refine dead (K := 2 ^ 385) (rest := (2 ^ 193) * (iv l30) + (2 ^ 257) * (iv v32) + (2 ^ 321) * (iv v33)) (P := (2 ^ 193) * (iv a.w2 * iv a.w1) + (2 ^ 257) * (iv a.w3 * iv a.w1)) (by linear_combination (2 ^ 193) * e30 + (2 ^ 257) * e31 + (2 ^ 257) * e32 + (2 ^ 321) * e33 + (2 ^ 321) * hz) ?_ ?_
    · linarith only [iv_nonneg l30, iv_nonneg v32, iv_nonneg v33]
    · linarith only [iv_mul_le a.w2 a.w1, iv_mul_le a.w3 a.w1]
  replace h := mov_inv h
  replace h := mov_inv h
  replace h := mulx_inv h; obtain ⟨l34, h34, e34, h⟩ := h
  replace h := add_inv h; obtain ⟨v35, c35, e35, h⟩ := h
  replace h := adc_inv h; obtain ⟨v36, c36, e36, h⟩ := h
  have zc36 : bv c36 = 0 := by
    refine dead (K := 2 ^ 449) (rest := (2 ^ 321) * (iv v35) + (2 ^ 385) * (iv v36)) (P := (2 ^ 321) * (iv a.w4 * iv a.w1) + (2 ^ 321) * (iv v33)) (by linear_combination (2 ^ 321) * e34 + (2 ^ 321) * e35 + (2 ^ 385) * e36 + (2 ^ 385) * hz) ?_ ?_
    · linarith only [iv_nonneg v35, iv_nonneg v36]
    · linarith only [iv_mul_le a.w4 a.w1, iv_le v33]
  replace h := mov_inv h
  replace h := mov_inv h
  replace h := mulx_inv h; obtain ⟨l37, h37, e37, h⟩ := h
  replace h := add_inv h; obtain ⟨v38, c38, e38, h⟩ := h
  replace h := adc_inv h; obtain ⟨v39, c39, e39, h⟩ := h
  have zc39 : bv c39 = 0 := by
    refine dead (K := 2 ^ 513) (rest := (2 ^ 385) * (iv v38) + (2 ^ 449) * (iv v39)) (P := (2 ^ 385) * (iv a.w5 * iv a.w1) + (2 ^ 385) * (iv v36)) (by linear_combination (2 ^ 385) * e37 + (2 ^ 385) * e38 + (2 ^ 449) * e39 + (2 ^ 449) * hz) ?_ ?_
    · linarith only [iv_nonneg v38, iv_nonneg v39]
    · linarith only [iv_mul_le a.w5 a.w1, iv_le v36]
  replace h := mov_inv h
  replace h := mov_inv h
  replace h := mulx_inv h; obtain ⟨l40, h40, e40, h⟩ := h
  replace h := add_inv h; obtain ⟨v41, c41, e41, h⟩ := h
  replace h := adc_inv h; obtain ⟨v42, c42, e42, h⟩ := h
  have zc42 : bv c42 = 0 := by
    refine dead (K := 2 ^ 577) (rest := (2 ^ 449) * (iv v41) + (2 ^ 513) * (iv v42)) (P := (2 ^ 449) * (iv a.w6 * iv a.w1) + (2 ^ 449) * (iv v39)) (by linear_combination (2 ^ 449) * e40 + (2 ^ 449) * e41 + (2 ^ 513) * e42 + (2 ^ 513) * hz) ?_ ?_
    · linarith only [iv_nonneg v41, iv_nonneg v42]
    · linarith only [iv_mul_le a.w6 a.w1, iv_le v39]
  replace h := mov_inv h
  replace h := mov_inv h
  replace h := mov_inv h
  replace h := mulx_inv h; obtain ⟨l43, h43, e43, h⟩ := h
  replace h := add_inv h; obtain ⟨v44, c44, e44, h⟩ := h
  replace h := adc_inv h; obtain ⟨v45, c45, e45, h⟩ := h
  have zc45 : bv c45 = 0 := by
    refine dead (K := 2 ^ 641) (rest := (2 ^ 513) * (iv v44) + (2 ^ 577) * (iv v45)) (P := (2 ^ 513) * (iv a.w3 * iv a.w5) + (2 ^ 513) * (iv v42)) (by linear_combination (2 ^ 513) * e43 + (2 ^ 513) * e44 + (2 ^ 577) * e45 + (2 ^ 577) * hz) ?_ ?_
    · linarith only [iv_nonneg v44, iv_nonneg v45]
    · linarith only [iv_mul_le a.w3 a.w5, iv_le v42]
  replace h := mov_inv h
  replace h := mov_inv h
  replace h := mulx_inv h; obtain ⟨l46, h46, e46, h⟩ := h
  replace h := add_inv h; obtain ⟨v47, c47, e47, h⟩ := h
  replace h := adc_inv h; obtain ⟨v48, c48, e48, h⟩ := h
  have zc48 : bv c48 = 0 := by
    refine dead (K := 2 ^ 705) (rest := (2 ^ 577) * (iv v47) + (2 ^ 641) * (iv v48)) (P := (2 ^ 577) * (iv a.w4 * iv a.w5) + (2 ^ 577) * (iv v45)) (by linear_combination (2 ^ 577) * e46 + (2 ^ 577) * e47 + (2 ^ 641) * e48 + (2 ^ 641) * hz) ?_ ?_
    · linarith only [iv_nonneg v47, iv_nonneg v48]
    · linarith only [iv_mul_le a.w4 a.w5, iv_le v45]
  replace h := mov_inv h
  replace h := xor0_inv h
  replace h := shld0_inv h; obtain ⟨v50, e50, h⟩ := h
  replace h := shld_inv h; obtain ⟨v51, e51, h⟩ := h
  replace h := shld_inv h; obtain ⟨v52, e52, h⟩ := h
  replace h := shld_inv h; obtain ⟨v53, e53, h⟩ := h
  replace h := shld_inv h; obtain ⟨v54, e54, h⟩ := h
  replace h := shld_inv h; obtain ⟨v55, e55, h⟩ := h
  replace h := shld_inv h; obtain ⟨v56, e56, h⟩ := h
  replace h := shld_inv h; obtain ⟨v57, e57, h⟩ := h
  replace h := shl_inv h; obtain ⟨v58, e58, h⟩ := h
  replace h := add_inv h; obtain ⟨v59, c59, e59, h⟩ := h
  replace h := mov_inv h
  replace h := adc_inv h; obtain ⟨v60, c60, e60, h⟩ := h
  replace h := mov_inv h
  replace h := adc_inv h; obtain ⟨v61, c61, e61, h⟩ := h
  replace h := mov_inv h
  replace h := adc_inv h; obtain ⟨v62, c62, e62, h⟩ := h
  replace h := mov_inv h
  replace h := adc_inv h; obtain ⟨v63, c63, e63, h⟩ := h
  replace h := mov_inv h
  replace h := adc_inv h; obtain ⟨v64, c64, e64, h⟩ := h
  replace h := mov_inv h
  replace h := adc_inv h; obtain ⟨v65, c65, e65, h⟩ := h
  replace h := mov_inv h
  replace h := adc_inv h; obtain ⟨v66, c66, e66, h⟩ := h
  replace h := mov_inv h
  replace h := adc_inv h; obtain ⟨v67, c67, e67, h⟩ := h
  have zc67 : bv c67 = 0 := by
    refine dead (K := 2 ^ 768) (rest := (2 ^ 257) * (iv h30) + (2 ^ 192) * (iv v59) + (2 ^ 256) * (iv v60) + (2 ^ 320) * (iv v61) + (2 ^ 384) * (iv v62) + (2 ^ 448) * (iv v63) + (2 ^ 512) * (iv v64) + (2 ^ 576) * (iv v65) + (2 ^ 640) * (iv v66) + (2 ^ 704) * (iv v67)) (P := (2 ^ 193) * (iv a.w2 * iv a.w1) + (2 ^ 641) * (iv v48) + (2 ^ 577) * (iv v47) + (2 ^ 513) * (iv v44) + (2 ^ 449) * (iv v41) + (2 ^ 385) * (iv v38) + (2 ^ 321) * (iv v35) + (2 ^ 257) * (iv v32) + (2 ^ 192) * (iv v27) + (2 ^ 256) * (iv v26) + (2 ^ 320) * (iv v25) + (2 ^ 384) * (iv v24) + (2 ^ 448) * (iv v23) + (2 ^ 512) * (iv v22) + (2 ^ 576) * (iv v21)) (by linear_combination (2 ^ 193) * e30 + (2 ^ 704) * e50 + (2 ^ 640) * e51 + (2 ^ 576) * e52 + (2 ^ 512) * e53 + (2 ^ 448) * e54 + (2 ^ 384) * e55 + (2 ^ 320) * e56 + (2 ^ 256) * e57 + (2 ^ 192) * e58 + (2 ^ 192) * e59 + (2 ^ 256) * e60 + (2 ^ 320) * e61 + (2 ^ 384) * e62 + (2 ^ 448) * e63 + (2 ^ 512) * e64 + (2 ^ 576) * e65 + (2 ^ 640) * e66 + (2 ^ 704) * e67 + (18446744073709551617 * 2 ^ 640) * hz) ?_ ?_
    · linarith only [iv_nonneg h30, iv_nonneg v59, iv_nonneg v60, iv_nonneg v61, iv_nonneg v62, iv_nonneg v63, iv_nonneg v64, iv_nonneg v65, iv_nonneg v66, iv_nonneg v67]
    · linarith only [iv_mul_le a.w2 a.w1, iv_le v48, iv_le v47, iv_le v44, iv_le v41, iv_le v38, iv_le v35, iv_le v32, iv_le v27, iv_le v26, iv_le v25, iv_le v24, iv_le v23, iv_le v22, iv_le v21]
  replace h := mov_inv h
  replace h := mov_inv h
  replace h := mov_inv h
  replace h := mulx_inv h; obtain ⟨l68, h68, e68, h⟩ := h
  replace h := mov_inv h
  replace h := mov_inv h
  replace h := mov_inv h
  replace h := mulx_inv h; obtain ⟨l69, h69, e69, h⟩ := h
  replace h := add_inv h; obtain ⟨v70, c70, e70, h⟩ := h
  replace h := adc_inv h; obtain ⟨v71, c71, e71, h⟩ := h
  have zc71 : bv c71 = 0 := by
    refine dead (K := 2 ^ 513) (rest := (2 ^ 321) * (iv l68) + (2 ^ 385) * (iv v70) + (2 ^ 449) * (iv v71)) (P := (2 ^ 321) * (iv a.w3 * iv a.w2) + (2 ^ 385) * (iv a.w4 * iv a.w2)) (by linear_combination (2 ^ 321) * e68 + (2 ^ 385) * e69 + (2 ^ 385) * e70 + (2 ^ 449) * e71 + (2 ^ 449) * hz) ?_ ?_
    · linarith only [iv_nonneg l68, iv_nonneg v70, iv_nonneg v71]
    · linarith only [iv_mul_le a.w3 a.w2, iv_mul_le a.w4 a.w2]
  replace h := mov_inv h
  replace h := mov_inv h
  replace h := mulx_inv h; obtain ⟨l72, h72, e72, h⟩ := h
  replace h := add_inv h; obtain ⟨v73, c73, e73, h⟩ := h
  replace h := adc_inv h; obtain ⟨v74, c74, e74, h⟩ := h
  have zc74 : bv c74 = 0 := by
    refine dead (K := 2 ^ 577) (rest := (2 ^ 449) * (iv v73) + (2 ^ 513) * (iv v74)) (P := (2 ^ 449) * (iv a.w5 * iv a.w2) + (2 ^ 449) * (iv v71)) (by linear_combination (2 ^ 449) * e72 + (2 ^ 449) * e73 + (2 ^ 513) * e74 + (2 ^ 513) * hz) ?_ ?_
    · linarith only [iv_nonneg v73, iv_nonneg v74]
    · linarith only [iv_mul_le a.w5 a.w2, iv_le v71]
  replace h := mov_inv h
  replace h := mov_inv h
  replace h := mulx_inv h; obtain ⟨l75, h75, e75, h⟩ := h
  replace h := add_inv h; obtain ⟨v76, c76, e76, h⟩ := h
  replace h := adc_inv h; obtain ⟨v77, c77, e77, h⟩ := h
  have zc77 : bv c77 = 0 := by
    refine dead (K := 2 ^ 641) (rest := (2 ^ 513) * (iv v76) + (2 ^ 577) * (iv v77)) (P := (2 ^ 513) * (iv a.w6 * iv a.w2) + (2 ^ 513) * (iv v74)) (by linear_combination (2 ^ 513) * e75 + (2 ^ 513) * e76 + (2 ^ 577) * e77 + (2 ^ 577) * hz) ?_ ?_
    · linarith only [iv_nonneg v76, iv_nonneg v77]
    · linarith only [iv_mul_le a.w6 a.w2, iv_le v74]
  replace h := mov_inv h
  replace h := mov_inv h
  replace h := mov_inv h
  replace h := mulx_inv h; obtain ⟨l78, h78, e78, h⟩ := h
  replace h := add_inv h; obtain ⟨v79, c79, e79, h⟩ := h
  replace h := adc_inv h; obtain ⟨v80, c80, e80, h⟩ := h
  have zc80 : bv c80 = 0 := by
    refine dead (K := 2 ^ 705) (rest := (2 ^ 577) * (iv v79) + (2 ^ 641) * (iv v80)) (P := (2 ^ 577) * (iv a.w3 * iv a.w6) + (2 ^ 577) * (iv v77)) (by linear_combination (2 ^ 577) * e78 + (2 ^ 577) * e79 + (2 ^ 641) * e80 + (2 ^ 641) * hz) ?_ ?_
    · linarith only [iv_nonneg v79, iv_nonneg v80]
    · linarith only [iv_mul_le a.w3 a.w6, iv_le v77]
  replace h := mov_inv h
  replace h := mov_inv h
  replace h := mulx_inv h; obtain ⟨l81, h81, e81, h⟩ := h
  replace h := add_inv h; obtain ⟨v82, c82, e82, h⟩ := h
  replace h := adc_inv h; obtain ⟨v83, c83, e83, h⟩ := h
  have zc83 : bv c83 = 0 := by
    refine dead (K := 2 ^ 769) (rest := (2 ^ 641) * (iv v82) + (2 ^ 705) * (iv v83)) (P := (2 ^ 641) * (iv a.w4 * iv a.w6) + (2 ^ 641) * (iv v80)) (by linear_combination (2 ^ 641) * e81 + (2 ^ 641) * e82 + (2 ^ 705) * e83 + (2 ^ 705) * hz) ?_ ?_
    · linarith only [iv_nonneg v82, iv_nonneg v83]
    · linarith only [iv_mul_le a.w4 a.w6, iv_le v80]
  replace h := mov_inv h
  replace h := mov_inv h
  replace h := mulx_inv h; obtain ⟨l84, h84, e84, h⟩ := h
  replace h := add_inv h; obtain ⟨v85, c85, e85, h⟩ := h
  replace h := adc_inv h; obtain ⟨v86, c86, e86, h⟩ := h
  have zc86 : bv c86 = 0 := by
    refine dead (K := 2 ^ 833) (rest := (2 ^ 705) * (iv v85) + (2 ^ 769) * (iv v86)) (P := (2 ^ 705) * (iv a.w5 * iv a.w6) + (2 ^ 705) * (iv v83)) (by linear_combination (2 ^ 705) * e84 + (2 ^ 705) * e85 + (2 ^ 769) * e86 + (2 ^ 769) * hz) ?_ ?_
    · linarith only [iv_nonneg v85, iv_nonneg v86]
    · linarith only [iv_mul_le a.w5 a.w6, iv_le v83]
  replace h := mov_inv h
  replace h := xor0_inv h
  replace h := shld0_inv h; obtain ⟨v88, e88, h⟩ := h
  replace h := shld_inv h; obtain ⟨v89, e89, h⟩ := h
  replace h := shld_inv h; obtain ⟨v90, e90, h⟩ := h
  replace h := shld_inv h; obtain ⟨v91, e91, h⟩ := h
  replace h := shld_inv h; obtain ⟨v92, e92, h⟩ := h
  replace h := shld_inv h; obtain ⟨v93, e93, h⟩ := h
  replace h := shld_inv h; obtain ⟨v94, e94, h⟩ := h
  replace h := shld_inv h; obtain ⟨v95, e95, h⟩ := h
  replace h := shl_inv h; obtain ⟨v96, e96, h⟩ := h
  replace h := add_inv h; obtain ⟨v97, c97, e97, h⟩ := h
  replace h := mov_inv h
  replace h := adc_inv h; obtain ⟨v98, c98, e98, h⟩ := h
  replace h := mov_inv h
  replace h := adc_inv h; obtain ⟨v99, c99, e99, h⟩ := h
  replace h := mov_inv h
  replace h := adc_inv h; obtain ⟨v100, c100, e100, h⟩ := h
  replace h := mov_inv h
  replace h := adc_inv h; obtain ⟨v101, c101, e101, h⟩ := h
  replace h := mov_inv h
  replace h := adc_inv h; obtain ⟨v102, c102, e102, h⟩ := h
  replace h := mov_inv h
  replace h := adc_inv h; obtain ⟨v103, c103, e103, h⟩ := h
  replace h := mov_inv h
  replace h := adc_inv h; obtain ⟨v104, c104, e104, h⟩ := h
  replace h := mov_inv h
  replace h := adc_inv h; obtain ⟨v105, c105, e105, h⟩ := h
  have zc105 : bv c105 = 0 := by
    refine dead (K := 2 ^ 896) (rest := (2 ^ 385) * (iv h68) + (2 ^ 320) * (iv v97) + (2 ^ 384) * (iv v98) + (2 ^ 448) * (iv v99) + (2 ^ 512) * (iv v100) + (2 ^ 576) * (iv v101) + (2 ^ 640) * (iv v102) + (2 ^ 704) * (iv v103) + (2 ^ 768) * (iv v104) + (2 ^ 832) * (iv v105)) (P := (2 ^ 321) * (iv a.w3 * iv a.w2) + (2 ^ 769) * (iv v86) + (2 ^ 705) * (iv v85) + (2 ^ 641) * (iv v82) + (2 ^ 577) * (iv v79) + (2 ^ 513) * (iv v76) + (2 ^ 449) * (iv v73) + (2 ^ 385) * (iv v70) + (2 ^ 320) * (iv v61) + (2 ^ 384) * (iv v62) + (2 ^ 448) * (iv v63) + (2 ^ 512) * (iv v64) + (2 ^ 576) * (iv v65) + (2 ^ 640) * (iv v66) + (2 ^ 704) * (iv v67)) (by linear_combination (2 ^ 321) * e68 + (2 ^ 832) * e88 + (2 ^ 768) * e89 + (2 ^ 704) * e90 + (2 ^ 640) * e91 + (2 ^ 576) * e92 + (2 ^ 512) * e93 + (2 ^ 448) * e94 + (2 ^ 384) * e95 + (2 ^ 320) * e96 + (2 ^ 320) * e97 + (2 ^ 384) * e98 + (2 ^ 448) * e99 + (2 ^ 512) * e100 + (2 ^ 576) * e101 + (2 ^ 640) * e102 + (2 ^ 704) * e103 + (2 ^ 768) * e104 + (2 ^ 832) * e105 + (18446744073709551617 * 2 ^ 768) * hz) ?_ ?_
    · linarith only [iv_nonneg h68, iv_nonneg v97, iv_nonneg v98, iv_nonneg v99, iv_nonneg v100, iv_nonneg v101, iv_nonneg v102, iv_nonneg v103, iv_nonneg v104, iv_nonneg v105]
    · linarith only [iv_mul_le a.w3 a.w2, iv_le v86, iv_le v85, iv_le v82, iv_le v79, iv_le v76, iv_le v73, iv_le v70, iv_le v61, iv_le v62, iv_le v63, iv_le v64, iv_le v65, iv_le v66, iv_le v67]
  replace h := mov_inv h
  replace h := mov_inv h
  replace h := mulx_inv h; obtain ⟨l106, h106, e106, h⟩ := h
  replace h := mov_inv h
  replace h := mov_inv h
  replace h := mov_inv h
  replace h := mulx_inv h; obtain ⟨l107, h107, e107, h⟩ := h
  replace h := mov_inv h
  replace h := mov_inv h
  replace h := mov_inv h
  replace h := mulx_inv h; obtain ⟨l108, h108, e108, h⟩ := h
  replace h := mov_inv h
  replace h := mov_inv h
  replace h := mov_inv h
  replace h := mulx_inv h; obtain ⟨l109, h109, e109, h⟩ := h
  replace h := mov_inv h
  replace h := mov_inv h
  replace h := xor0_inv h
  replace h := mov_inv h
  replace h := add_inv h; obtain ⟨v111, c111, e111, h⟩ := h
  replace h := mov_inv h
  replace h := adc_inv h; obtain ⟨v112, c112, e112, h⟩ := h
  replace h := mov_inv h
  replace h := adc_inv h; obtain ⟨v113, c113, e113, h⟩ := h
  replace h := mov_inv h
  replace h := adc_inv h; obtain ⟨v114, c114, e114, h⟩ := h
  replace h := mov_inv h
  replace h := adc_inv h; obtain ⟨v115, c115, e115, h⟩ := h
  replace h := mov_inv h
  replace h := adc_inv h; obtain ⟨v116, c116, e116, h⟩ := h
  replace h := mov_inv h
  replace h := adc_inv h; obtain ⟨v117, c117, e117, h⟩ := h
  replace h := mov_inv h
  replace h := setc_inv h
  replace h := mov_inv h
  replace h := mulx_inv h; obtain ⟨l118, h118, e118, h⟩ := h
  replace h := mov_inv h
  replace h := mov_inv h
  replace h := mov_inv h
  replace h := mulx_inv h; obtain ⟨l119, h119, e119, h⟩ := h
  replace h := mov_inv h
  replace h := mov_inv h
  replace h := mov_inv h
  replace h := mulx_inv h; obtain ⟨l120, h120, e120, h⟩ := h
  replace h := mov_inv h
  replace h := mov_inv h
  replace h := bt0_inv h
  replace h := adc_inv h; obtain ⟨v121, c121, e121, h⟩ := h
  replace h := mov_inv h
  replace h := adc_inv h; obtain ⟨v122, c122, e122, h⟩ := h
  replace h := mov_inv h
  replace h := adc_inv h; obtain ⟨v123, c123, e123, h⟩ := h
  replace h := mov_inv h
  replace h := adc_inv h; obtain ⟨v124, c124, e124, h⟩ := h
  replace h := mov_inv h
  replace h := adc_inv h; obtain ⟨v125, c125, e125, h⟩ := h
  replace h := mov_inv h
  replace h := adc_inv h; obtain ⟨v126, c126, e126, h⟩ := h
  have zc126 : bv c126 = 0 := by
    refine dead (K := 2 ^ 896) (rest := (2 ^ 129) * (iv h1) + iv l106 + (2 ^ 64) * (iv v111) + (2 ^ 128) * (iv v112) + (2 ^ 192) * (iv v113) + (2 ^ 256) * (iv v114) + (2 ^ 320) * (iv v115) + (2 ^ 384) * (iv v116) + (2 ^ 448) * (iv v117) + (2 ^ 512) * (iv v121) + (2 ^ 576) * (iv v122) + (2 ^ 640) * (iv v123) + (2 ^ 704) * (iv v124) + (2 ^ 768) * (iv v125) + (2 ^ 832) * (iv v126)) (P := (2 ^ 65) * (iv a.w1 * iv a.w0) + (2 ^ 385) * (iv a.w6 * iv a.w0) + (2 ^ 385) * (iv v13) + (2 ^ 449) * (iv a.w3 * iv a.w4) + (2 ^ 321) * (iv v12) + (2 ^ 257) * (iv v9) + (2 ^ 193) * (iv v6) + (2 ^ 129) * (iv v3) + (2 ^ 193) * (iv a.w2 * iv a.w1) + (2 ^ 257) * (iv a.w3 * iv a.w1) + (2 ^ 321) * (iv a.w4 * iv a.w1) + (2 ^ 385) * (iv a.w5 * iv a.w1) + (2 ^ 449) * (iv a.w6 * iv a.w1) + (2 ^ 513) * (iv a.w3 * iv a.w5) + (2 ^ 577) * (iv a.w4 * iv a.w5) + (2 ^ 321) * (iv a.w3 * iv a.w2) + (2 ^ 385) * (iv a.w4 * iv a.w2) + (2 ^ 449) * (iv a.w5 * iv a.w2) + (2 ^ 513) * (iv a.w6 * iv a.w2) + (2 ^ 577) * (iv a.w3 * iv a.w6) + (2 ^ 641) * (iv a.w4 * iv a.w6) + (2 ^ 705) * (iv a.w5 * iv a.w6) + iv a.w0 * iv a.w0 + (2 ^ 128) * (iv a.w1 * iv a.w1) + (2 ^ 256) * (iv a.w2 * iv a.w2) + (2 ^ 384) * (iv a.w3 * iv a.w3) + (2 ^ 512) * (iv a.w4 * iv a.w4) + (2 ^ 640) * (iv a.w5 * iv a.w5) + (2 ^ 768) * (iv a.w6 * iv a.w6)) (by linear_combination (2 ^ 65) * e1 + (2 ^ 385) * e14 + (2 ^ 385) * e15 + (2 ^ 449) * e16 + (2 ^ 449) * e17 + (2 ^ 449) * e18 + (2 ^ 513) * e19 + (2 ^ 576) * e21 + (2 ^ 512) * e22 + (2 ^ 448) * e23 + (2 ^ 384) * e24 + (2 ^ 320) * e25 + (2 ^ 256) * e26 + (2 ^ 192) * e27 + (2 ^ 128) * e28 + (2 ^ 64) * e29 + (2 ^ 193) * e30 + (2 ^ 257) * e31 + (2 ^ 257) * e32 + (2 ^ 321) * e33 + (2 ^ 321) * e34 + (2 ^ 321) * e35 + (2 ^ 385) * e36 + (2 ^ 385) * e37 + (2 ^ 385) * e38 + (2 ^ 449) * e39 + (2 ^ 449) * e40 + (2 ^ 449) * e41 + (2 ^ 513) * e42 + (2 ^ 513) * e43 + (2 ^ 513) * e44 + (2 ^ 577) * e45 + (2 ^ 577) * e46 + (2 ^ 577) * e47 + (2 ^ 641) * e48 + (2 ^ 704) * e50 + (2 ^ 640) * e51 + (2 ^ 576) * e52 + (2 ^ 512) * e53 + (2 ^ 448) * e54 + (2 ^ 384) * e55 + (2 ^ 320) * e56 + (2 ^ 256) * e57 + (2 ^ 192) * e58 + (2 ^ 192) * e59 + (2 ^ 256) * e60 + (2 ^ 320) * e61 + (2 ^ 384) * e62 + (2 ^ 448) * e63 + (2 ^ 512) * e64 + (2 ^ 576) * e65 + (2 ^ 640) * e66 + (2 ^ 704) * e67 + (2 ^ 321) * e68 + (2 ^ 385) * e69 + (2 ^ 385) * e70 + (2 ^ 449) * e71 + (2 ^ 449) * e72 + (2 ^ 449) * e73 + (2 ^ 513) * e74 + (2 ^ 513) * e75 + (2 ^ 513) * e76 + (2 ^ 577) * e77 + (2 ^ 577) * e78 + (2 ^ 577) * e79 + (2 ^ 641) * e80 + (2 ^ 641) * e81 + (2 ^ 641) * e82 + (2 ^ 705) * e83 + (2 ^ 705) * e84 + (2 ^ 705) * e85 + (2 ^ 769) * e86 + (2 ^ 832) * e88 + (2 ^ 768) * e89 + (2 ^ 704) * e90 + (2 ^ 640) * e91 + (2 ^ 576) * e92 + (2 ^ 512) * e93 + (2 ^ 448) * e94 + (2 ^ 384) * e95 + (2 ^ 320) * e96 + (2 ^ 320) * e97 + (2 ^ 384) * e98 + (2 ^ 448) * e99 + (2 ^ 512) * e100 + (2 ^ 576) * e101 + (2 ^ 640) * e102 + (2 ^ 704) * e103 + (2 ^ 768) * e104 + (2 ^ 832) * e105 + e106 + (2 ^ 128) * e107 + (2 ^ 256) * e108 + (2 ^ 384) * e109 + (2 ^ 64) * e111 + (2 ^ 128) * e112 + (2 ^ 192) * e113 + (2 ^ 256) * e114 + (2 ^ 320) * e115 + (2 ^ 384) * e116 + (2 ^ 448) * e117 + (2 ^ 512) * e118 + (2 ^ 640) * e119 + (2 ^ 768) * e120 + (2 ^ 512) * e121 + (2 ^ 576) * e122 + (2 ^ 640) * e123 + (2 ^ 704) * e124 + (2 ^ 768) * e125 + (2 ^ 832) * e126 + (-2 ^ 513) * zc16 + (6703903964971298550877270585546333399622771631422795209216001290631876801372847534521492763932843773521786255604000861889399339454869157514701661525770241 * 2 ^ 321) * hz + (-2 ^ 577) * zc19 + (-2 ^ 385) * zc33 + (-2 ^ 449) * zc36 + (-2 ^ 513) * zc39 + (-2 ^ 577) * zc42 + (-2 ^ 641) * zc45 + (-2 ^ 705) * zc48 + (-2 ^ 768) * zc67 + (-2 ^ 513) * zc71 + (-2 ^ 577) * zc74 + (-2 ^ 641) * zc77 + (-2 ^ 705) * zc80 + (-2 ^ 769) * zc83 + (-2 ^ 833) * zc86 + (-2 ^ 896) * zc105) ?_ ?_
    · linarith only [iv_nonneg h1, iv_nonneg l106, iv_nonneg v111, iv_nonneg v112, iv_nonneg v113, iv_nonneg v114, iv_nonneg v115, iv_nonneg v116, iv_nonneg v117, iv_nonneg v121, iv_nonneg v122, iv_nonneg v123, iv_nonneg v124, iv_nonneg v125, iv_nonneg v126]
    · linarith only [iv_mul_le a.w1 a.w0, iv_mul_le a.w6 a.w0, iv_le v13, iv_mul_le a.w3 a.w4, iv_le v12, iv_le v9, iv_le v6, iv_le v3, iv_mul_le a.w2 a.w1, iv_mul_le a.w3 a.w1, iv_mul_le a.w4 a.w1, iv_mul_le a.w5 a.w1, iv_mul_le a.w6 a.w1, iv_mul_le a.w3 a.w5, iv_mul_le a.w4 a.w5, iv_mul_le a.w3 a.w2, iv_mul_le a.w4 a.w2, iv_mul_le a.w5 a.w2, iv_mul_le a.w6 a.w2, iv_mul_le a.w3 a.w6, iv_mul_le a.w4 a.w6, iv_mul_le a.w5 a.w6, iv_mul_le a.w0 a.w0, iv_mul_le a.w1 a.w1, iv_mul_le a.w2 a.w2, iv_mul_le a.w3 a.w3, iv_mul_le a.w4 a.w4, iv_mul_le a.w5 a.w5, iv_mul_le a.w6 a.w6]
  replace h := mov_inv h
  subst h
  simp only [F14.val, F7.val]
  linear_combination (2 ^ 832) * e126 + (-2 ^ 896) * zc126 + (2 ^ 768) * e125 + (2 ^ 704) * e124 + (2 ^ 640) * e123 + (2 ^ 576) * e122 + (2 ^ 512) * e121 + (2 ^ 768) * e120 + (2 ^ 640) * e119 + (2 ^ 512) * e118 + (2 ^ 448) * e117 + (2 ^ 384) * e116 + (2 ^ 320) * e115 + (2 ^ 256) * e114 + (2 ^ 192) * e113 + (2 ^ 128) * e112 + (2 ^ 64) * e111 + (2 ^ 384) * e109 + (2 ^ 256) * e108 + (2 ^ 128) * e107 + e106 + (2 ^ 832) * e105 + (-2 ^ 896) * zc105 + (2 ^ 768) * e104 + (2 ^ 704) * e103 + (2 ^ 640) * e102 + (2 ^ 576) * e101 + (2 ^ 512) * e100 + (2 ^ 448) * e99 + (2 ^ 384) * e98 + (2 ^ 320) * e97 + (2 ^ 320) * e96 + (2 ^ 384) * e95 + (2 ^ 448) * e94 + (2 ^ 512) * e93 + (2 ^ 576) * e92 + (2 ^ 640) * e91 + (2 ^ 704) * e90 + (2 ^ 768) * e89 + (2281220308811097609691581405059802463557479747048664645993471416909503129893104439655303633679383912253404747532333509022822420665511765925537961864323295607403726068655546802260387978872356865 * 2 ^ 193) * hz + (2 ^ 832) * e88 + (2 ^ 769) * e86 + (-2 ^ 833) * zc86 + (2 ^ 705) * e85 + (2 ^ 705) * e84 + (2 ^ 705) * e83 + (-2 ^ 769) * zc83 + (2 ^ 641) * e82 + (2 ^ 641) * e81 + (2 ^ 641) * e80 + (-2 ^ 705) * zc80 + (2 ^ 577) * e79 + (2 ^ 577) * e78 + (2 ^ 577) * e77 + (-2 ^ 641) * zc77 + (2 ^ 513) * e76 + (2 ^ 513) * e75 + (2 ^ 513) * e74 + (-2 ^ 577) * zc74 + (2 ^ 449) * e73 + (2 ^ 449) * e72 + (2 ^ 449) * e71 + (-2 ^ 513) * zc71 + (2 ^ 385) * e70 + (2 ^ 385) * e69 + (2 ^ 321) * e68 + (2 ^ 704) * e67 + (-2 ^ 768) * zc67 + (2 ^ 640) * e66 + (2 ^ 576) * e65 + (2 ^ 512) * e64 + (2 ^ 448) * e63 + (2 ^ 384) * e62 + (2 ^ 320) * e61 + (2 ^ 256) * e60 + (2 ^ 192) * e59 + (2 ^ 192) * e58 + (2 ^ 256) * e57 + (2 ^ 320) * e56 + (2 ^ 384) * e55 + (2 ^ 448) * e54 + (2 ^ 512) * e53 + (2 ^ 576) * e52 + (2 ^ 640) * e51 + (2 ^ 704) * e50 + (2 ^ 641) * e48 + (-2 ^ 705) * zc48 + (2 ^ 577) * e47 + (2 ^ 577) * e46 + (2 ^ 577) * e45 + (-2 ^ 641) * zc45 + (2 ^ 513) * e44 + (2 ^ 513) * e43 + (2 ^ 513) * e42 + (-2 ^ 577) * zc42 + (2 ^ 449) * e41 + (2 ^ 449) * e40 + (2 ^ 449) * e39 + (-2 ^ 513) * zc39 + (2 ^ 385) * e38 + (2 ^ 385) * e37 + (2 ^ 385) * e36 + (-2 ^ 449) * zc36 + (2 ^ 321) * e35 + (2 ^ 321) * e34 + (2 ^ 321) * e33 + (-2 ^ 385) * zc33 + (2 ^ 257) * e32 + (2 ^ 257) * e31 + (2 ^ 193) * e30 + (2 ^ 64) * e29 + (2 ^ 128) * e28 + (2 ^ 192) * e27 + (2 ^ 256) * e26 + (2 ^ 320) * e25 + (2 ^ 384) * e24 + (2 ^ 448) * e23 + (2 ^ 512) * e22 + (2 ^ 576) * e21 + (2 ^ 513) * e19 + (-2 ^ 577) * zc19 + (2 ^ 449) * e18 + (2 ^ 449) * e17 + (2 ^ 449) * e16 + (-2 ^ 513) * zc16 + (2 ^ 385) * e15 + (2 ^ 385) * e14 + (2 ^ 385) * e13 + (-2 ^ 449) * zc13 + (2 ^ 321) * e12 + (2 ^ 321) * e11 + (2 ^ 321) * e10 + (-2 ^ 385) * zc10 + (2 ^ 257) * e9 + (2 ^ 257) * e8 + (2 ^ 257) * e7 + (-2 ^ 321) * zc7 + (2 ^ 193) * e6 + (2 ^ 193) * e5 + (2 ^ 193) * e4 + (-2 ^ 257) * zc4 + (2 ^ 129) * e3 + (2 ^ 129) * e2 + (2 ^ 65) * e1

end Verif.Fp448.Asm
