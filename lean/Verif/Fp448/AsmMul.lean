import Verif.Fp448.Asm
import Verif.Fp448.Lemmas

/-! # Integer products

Helper lemmas: one linear identity per straight-line block. -/

namespace Verif.Fp448.Asm

set_option maxRecDepth 4000
set_option linter.unusedVariables false
set_option exponentiation.threshold 2000

set_option maxHeartbeats 1000000 in
theorem intmul_mulxadx_val (a b : F7) : (intmul_mulxadx a b).val = a.val * b.val := by
  generalize h : intmul_mulxadx a b = X
  unfold intmul_mulxadx at h
  have hz : iv 0#64 = 0 := rfl
  have hf : bv false = 0 := rfl
  replace h := mov_inv h
  replace h := xor0_inv h
  replace h := mov_inv h
  replace h := mulx_inv h; obtain ⟨l2, h2, e2, h⟩ := h
  replace h := mov_inv h
  replace h := mulx_inv h; obtain ⟨l3, h3, e3, h⟩ := h
  replace h := adc_inv h; obtain ⟨v4, c4, e4, h⟩ := h
  replace h := mulx_inv h; obtain ⟨l5, h5, e5, h⟩ := h
  replace h := adc_inv h; obtain ⟨v6, c6, e6, h⟩ := h
  replace h := mulx_inv h; obtain ⟨l7, h7, e7, h⟩ := h
  replace h := adc_inv h; obtain ⟨v8, c8, e8, h⟩ := h
  replace h := mulx_inv h; obtain ⟨l9, h9, e9, h⟩ := h
  replace h := adc_inv h; obtain ⟨v10, c10, e10, h⟩ := h
  replace h := mulx_inv h; obtain ⟨l11, h11, e11, h⟩ := h
  replace h := adc_inv h; obtain ⟨v12, c12, e12, h⟩ := h
  replace h := mulx_inv h; obtain ⟨l13, h13, e13, h⟩ := h
  replace h := adc_inv h; obtain ⟨v14, c14, e14, h⟩ := h
  replace h := adc_inv h; obtain ⟨v15, c15, e15, h⟩ := h
  have zc15 : bv c15 = 0 := by
    refine dead (K := 2 ^ 512) (rest := iv l2 + (2 ^ 64) * (iv v4) + (2 ^ 128) * (iv v6) + (2 ^ 192) * (iv v8) + (2 ^ 256) * (iv v10) + (2 ^ 320) * (iv v12) + (2 ^ 384) * (iv v14) + (2 ^ 448) * (iv v15)) (P := iv a.w0 * iv b.w0 + (2 ^ 64) * (iv a.w0 * iv b.w1) + (2 ^ 128) * (iv a.w0 * iv b.w2) + (2 ^ 192) * (iv a.w0 * iv b.w3) + (2 ^ 256) * (iv a.w0 * iv b.w4) + (2 ^ 320) * (iv a.w0 * iv b.w5) + (2 ^ 384) * (iv a.w0 * iv b.w6)) (by linear_combination e2 + (2 ^ 64) * e3 + (2 ^ 64) * e4 + (2 ^ 128) * e5 + (2 ^ 128) * e6 + (2 ^ 192) * e7 + (2 ^ 192) * e8 + (2 ^ 256) * e9 + (2 ^ 256) * e10 + (2 ^ 320) * e11 + (2 ^ 320) * e12 + (2 ^ 384) * e13 + (2 ^ 384) * e14 + (2 ^ 448) * e15 + (2 ^ 64) * hf + (2 ^ 448) * hz) ?_ ?_
    · linarith only [iv_nonneg l2, iv_nonneg v4, iv_nonneg v6, iv_nonneg v8, iv_nonneg v10, iv_nonneg v12, iv_nonneg v14, iv_nonneg v15]
    · linarith only [iv_mul_le a.w0 b.w0, iv_mul_le a.w0 b.w1, iv_mul_le a.w0 b.w2, iv_mul_le a.w0 b.w3, iv_mul_le a.w0 b.w4, iv_mul_le a.w0 b.w5, iv_mul_le a.w0 b.w6]
  replace h := mov_inv h
  replace h := xor0_inv h
  replace h := mulx_inv h; obtain ⟨l17, h17, e17, h⟩ := h
  replace h := adc_inv h; obtain ⟨v18, c18, e18, h⟩ := h
  replace h := adc_inv h; obtain ⟨v19, c19, e19, h⟩ := h
  replace h := mov_inv h
  replace h := mulx_inv h; obtain ⟨l20, h20, e20, h⟩ := h
  replace h := adc_inv h; obtain ⟨v21, c21, e21, h⟩ := h
  replace h := adc_inv h; obtain ⟨v22, c22, e22, h⟩ := h
  replace h := mov_inv h
  replace h := mulx_inv h; obtain ⟨l23, h23, e23, h⟩ := h
  replace h := adc_inv h; obtain ⟨v24, c24, e24, h⟩ := h
  replace h := adc_inv h; obtain ⟨v25, c25, e25, h⟩ := h
  replace h := mulx_inv h; obtain ⟨l26, h26, e26, h⟩ := h
  replace h := adc_inv h; obtain ⟨v27, c27, e27, h⟩ := h
  replace h := adc_inv h; obtain ⟨v28, c28, e28, h⟩ := h
  replace h := mulx_inv h; obtain ⟨l29, h29, e29, h⟩ := h
  replace h := adc_inv h; obtain ⟨v30, c30, e30, h⟩ := h
  replace h := adc_inv h; obtain ⟨v31, c31, e31, h⟩ := h
  replace h := mulx_inv h; obtain ⟨l32, h32, e32, h⟩ := h
  replace h := adc_inv h; obtain ⟨v33, c33, e33, h⟩ := h
  replace h := adc_inv h; obtain ⟨v34, c34, e34, h⟩ := h
  replace h := mulx_inv h; obtain ⟨l35, h35, e35, h⟩ := h
  replace h := adc_inv h; obtain ⟨v36, c36, e36, h⟩ := h
  replace h := adc_inv h; obtain ⟨v37, c37, e37, h⟩ := h
  have zc37 : bv c37 = 0 := by
    refine dead (K := 2 ^ 576) (rest := (2 ^ 64) * (iv l17) + (2 ^ 128) * (iv v19) + (2 ^ 128) * (iv l20) + (2 ^ 192) * (iv v22) + (2 ^ 192) * (iv l23) + (2 ^ 256) * (iv v25) + (2 ^ 256) * (iv l26) + (2 ^ 320) * (iv v28) + (2 ^ 320) * (iv l29) + (2 ^ 384) * (iv v31) + (2 ^ 384) * (iv l32) + (2 ^ 448) * (iv v34) + (2 ^ 448) * (iv l35) + (2 ^ 512) * (iv v37)) (P := (2 ^ 64) * (iv a.w1 * iv b.w0) + (2 ^ 128) * (iv v6) + (2 ^ 128) * (iv a.w1 * iv b.w1) + (2 ^ 192) * (iv v8) + (2 ^ 192) * (iv a.w1 * iv b.w2) + (2 ^ 256) * (iv v10) + (2 ^ 256) * (iv a.w1 * iv b.w3) + (2 ^ 320) * (iv v12) + (2 ^ 320) * (iv a.w1 * iv b.w4) + (2 ^ 384) * (iv v14) + (2 ^ 384) * (iv a.w1 * iv b.w5) + (2 ^ 448) * (iv v15) + (2 ^ 448) * (iv a.w1 * iv b.w6)) (by linear_combination (2 ^ 64) * e17 + (2 ^ 128) * e19 + (2 ^ 128) * e20 + (2 ^ 192) * e22 + (2 ^ 192) * e23 + (2 ^ 256) * e25 + (2 ^ 256) * e26 + (2 ^ 320) * e28 + (2 ^ 320) * e29 + (2 ^ 384) * e31 + (2 ^ 384) * e32 + (2 ^ 448) * e34 + (2 ^ 448) * e35 + (2 ^ 512) * e37 + (2 ^ 128) * hf + (2 ^ 512) * hz) ?_ ?_
    · linarith only [iv_nonneg l17, iv_nonneg v19, iv_nonneg l20, iv_nonneg v22, iv_nonneg l23, iv_nonneg v25, iv_nonneg l26, iv_nonneg v28, iv_nonneg l29, iv_nonneg v31, iv_nonneg l32, iv_nonneg v34, iv_nonneg l35, iv_nonneg v37]
    · linarith only [iv_mul_le a.w1 b.w0, iv_le v6, iv_mul_le a.w1 b.w1, iv_le v8, iv_mul_le a.w1 b.w2, iv_le v10, iv_mul_le a.w1 b.w3, iv_le v12, iv_mul_le a.w1 b.w4, iv_le v14, iv_mul_le a.w1 b.w5, iv_le v15, iv_mul_le a.w1 b.w6]
  replace h := mov_inv h
  replace h := adc_inv h; obtain ⟨v38, c38, e38, h⟩ := h
  have zc38 : bv c38 = 0 := by
    refine dead (K := 2 ^ 576) (rest := (2 ^ 64) * (iv v18) + (2 ^ 128) * (iv v21) + (2 ^ 192) * (iv v24) + (2 ^ 256) * (iv v27) + (2 ^ 320) * (iv v30) + (2 ^ 384) * (iv v33) + (2 ^ 448) * (iv v36) + (2 ^ 512) * (iv v38)) (P := (2 ^ 64) * (iv a.w1 * iv b.w0) + (2 ^ 64) * (iv v4) + (2 ^ 128) * (iv v6) + (2 ^ 128) * (iv a.w1 * iv b.w1) + (2 ^ 192) * (iv v8) + (2 ^ 192) * (iv a.w1 * iv b.w2) + (2 ^ 256) * (iv v10) + (2 ^ 256) * (iv a.w1 * iv b.w3) + (2 ^ 320) * (iv v12) + (2 ^ 320) * (iv a.w1 * iv b.w4) + (2 ^ 384) * (iv v14) + (2 ^ 384) * (iv a.w1 * iv b.w5) + (2 ^ 448) * (iv v15) + (2 ^ 448) * (iv a.w1 * iv b.w6)) (by linear_combination (2 ^ 64) * e17 + (2 ^ 64) * e18 + (2 ^ 128) * e19 + (2 ^ 128) * e20 + (2 ^ 128) * e21 + (2 ^ 192) * e22 + (2 ^ 192) * e23 + (2 ^ 192) * e24 + (2 ^ 256) * e25 + (2 ^ 256) * e26 + (2 ^ 256) * e27 + (2 ^ 320) * e28 + (2 ^ 320) * e29 + (2 ^ 320) * e30 + (2 ^ 384) * e31 + (2 ^ 384) * e32 + (2 ^ 384) * e33 + (2 ^ 448) * e34 + (2 ^ 448) * e35 + (2 ^ 448) * e36 + (2 ^ 512) * e37 + (2 ^ 512) * e38 + (18446744073709551617 * 2 ^ 64) * hf + (-2 ^ 576) * zc37 + (2 ^ 513) * hz) ?_ ?_
    · linarith only [iv_nonneg v18, iv_nonneg v21, iv_nonneg v24, iv_nonneg v27, iv_nonneg v30, iv_nonneg v33, iv_nonneg v36, iv_nonneg v38]
    · linarith only [iv_mul_le a.w1 b.w0, iv_le v4, iv_le v6, iv_mul_le a.w1 b.w1, iv_le v8, iv_mul_le a.w1 b.w2, iv_le v10, iv_mul_le a.w1 b.w3, iv_le v12, iv_mul_le a.w1 b.w4, iv_le v14, iv_mul_le a.w1 b.w5, iv_le v15, iv_mul_le a.w1 b.w6]
  replace h := mov_inv h
  replace h := xor0_inv h
  replace h := mulx_inv h; obtain ⟨l40, h40, e40, h⟩ := h
  replace h := adc_inv h; obtain ⟨v41, c41, e41, h⟩ := h
  replace h := adc_inv h; obtain ⟨v42, c42, e42, h⟩ := h
  replace h := mov_inv h
  replace h := mulx_inv h; obtain ⟨l43, h43, e43, h⟩ := h
  replace h := adc_inv h; obtain ⟨v44, c44, e44, h⟩ := h
  replace h := adc_inv h; obtain ⟨v45, c45, e45, h⟩ := h
  replace h := mov_inv h
  replace h := mulx_inv h; obtain ⟨l46, h46, e46, h⟩ := h
  replace h := adc_inv h; obtain ⟨v47, c47, e47, h⟩ := h
  replace h := adc_inv h; obtain ⟨v48, c48, e48, h⟩ := h
  replace h := mulx_inv h; obtain ⟨l49, h49, e49, h⟩ := h
  replace h := adc_inv h; obtain ⟨v50, c50, e50, h⟩ := h
  replace h := adc_inv h; obtain ⟨v51, c51, e51, h⟩ := h
  replace h := mulx_inv h; obtain ⟨l52, h52, e52, h⟩ := h
  replace h := adc_inv h; obtain ⟨v53, c53, e53, h⟩ := h
  replace h := adc_inv h; obtain ⟨v54, c54, e54, h⟩ := h
  replace h := mulx_inv h; obtain ⟨l55, h55, e55, h⟩ := h
  replace h := adc_inv h; obtain ⟨v56, c56, e56, h⟩ := h
  replace h := adc_inv h; obtain ⟨v57, c57, e57, h⟩ := h
  replace h := mulx_inv h; obtain ⟨l58, h58, e58, h⟩ := h
  replace h := adc_inv h; obtain ⟨v59, c59, e59, h⟩ := h
  replace h := adc_inv h; obtain ⟨v60, c60, e60, h⟩ := h
  have zc60 : bv c60 = 0 := by
    refine dead (K := 2 ^ 640) (rest := (2 ^ 128) * (iv l40) + (2 ^ 192) * (iv v42) + (2 ^ 192) * (iv l43) + (2 ^ 256) * (iv v45) + (2 ^ 256) * (iv l46) + (2 ^ 320) * (iv v48) + (2 ^ 320) * (iv l49) + (2 ^ 384) * (iv v51) + (2 ^ 384) * (iv l52) + (2 ^ 448) * (iv v54) + (2 ^ 448) * (iv l55) + (2 ^ 512) * (iv v57) + (2 ^ 512) * (iv l58) + (2 ^ 576) * (iv v60)) (P := (2 ^ 128) * (iv a.w2 * iv b.w0) + (2 ^ 192) * (iv v24) + (2 ^ 192) * (iv a.w2 * iv b.w1) + (2 ^ 256) * (iv v27) + (2 ^ 256) * (iv a.w2 * iv b.w2) + (2 ^ 320) * (iv v30) + (2 ^ 320) * (iv a.w2 * iv b.w3) + (2 ^ 384) * (iv v33) + (2 ^ 384) * (iv a.w2 * iv b.w4) + (2 ^ 448) * (iv v36) + (2 ^ 448) * (iv a.w2 * iv b.w5) + (2 ^ 512) * (iv v38) + (2 ^ 512) * (iv a.w2 * iv b.w6)) (by linear_combination (2 ^ 128) * e40 + (2 ^ 192) * e42 + (2 ^ 192) * e43 + (2 ^ 256) * e45 + (2 ^ 256) * e46 + (2 ^ 320) * e48 + (2 ^ 320) * e49 + (2 ^ 384) * e51 + (2 ^ 384) * e52 + (2 ^ 448) * e54 + (2 ^ 448) * e55 + (2 ^ 512) * e57 + (2 ^ 512) * e58 + (2 ^ 576) * e60 + (2 ^ 192) * hf + (2 ^ 576) * hz) ?_ ?_
    · linarith only [iv_nonneg l40, iv_nonneg v42, iv_nonneg l43, iv_nonneg v45, iv_nonneg l46, iv_nonneg v48, iv_nonneg l49, iv_nonneg v51, iv_nonneg l52, iv_nonneg v54, iv_nonneg l55, iv_nonneg v57, iv_nonneg l58, iv_nonneg v60]
    · linarith only [iv_mul_le a.w2 b.w0, iv_le v24, iv_mul_le a.w2 b.w1, iv_le v27, iv_mul_le a.w2 b.w2, iv_le v30, iv_mul_le a.w2 b.w3, iv_le v33, iv_mul_le a.w2 b.w4, iv_le v36, iv_mul_le a.w2 b.w5, iv_le v38, iv_mul_le a.w2 b.w6]
  replace h := mov_inv h
  replace h := adc_inv h; obtain ⟨v61, c61, e61, h⟩ := h
  have zc61 : bv c61 = 0 := by
    refine dead (K := 2 ^ 640) (rest := (2 ^ 128) * (iv v41) + (2 ^ 192) * (iv v44) + (2 ^ 256) * (iv v47) + (2 ^ 320) * (iv v50) + (2 ^ 384) * (iv v53) + (2 ^ 448) * (iv v56) + (2 ^ 512) * (iv v59) + (2 ^ 576) * (iv v61)) (P := (2 ^ 128) * (iv a.w2 * iv b.w0) + (2 ^ 128) * (iv v21) + (2 ^ 192) * (iv v24) + (2 ^ 192) * (iv a.w2 * iv b.w1) + (2 ^ 256) * (iv v27) + (2 ^ 256) * (iv a.w2 * iv b.w2) + (2 ^ 320) * (iv v30) + (2 ^ 320) * (iv a.w2 * iv b.w3) + (2 ^ 384) * (iv v33) + (2 ^ 384) * (iv a.w2 * iv b.w4) + (2 ^ 448) * (iv v36) + (2 ^ 448) * (iv a.w2 * iv b.w5) + (2 ^ 512) * (iv v38) + (2 ^ 512) * (iv a.w2 * iv b.w6)) (by linear_combination (2 ^ 128) * e40 + (2 ^ 128) * e41 + (2 ^ 192) * e42 + (2 ^ 192) * e43 + (2 ^ 192) * e44 + (2 ^ 256) * e45 + (2 ^ 256) * e46 + (2 ^ 256) * e47 + (2 ^ 320) * e48 + (2 ^ 320) * e49 + (2 ^ 320) * e50 + (2 ^ 384) * e51 + (2 ^ 384) * e52 + (2 ^ 384) * e53 + (2 ^ 448) * e54 + (2 ^ 448) * e55 + (2 ^ 448) * e56 + (2 ^ 512) * e57 + (2 ^ 512) * e58 + (2 ^ 512) * e59 + (2 ^ 576) * e60 + (2 ^ 576) * e61 + (18446744073709551617 * 2 ^ 128) * hf + (-2 ^ 640) * zc60 + (2 ^ 577) * hz) ?_ ?_
    · linarith only [iv_nonneg v41, iv_nonneg v44, iv_nonneg v47, iv_nonneg v50, iv_nonneg v53, iv_nonneg v56, iv_nonneg v59, iv_nonneg v61]
    · linarith only [iv_mul_le a.w2 b.w0, iv_le v21, iv_le v24, iv_mul_le a.w2 b.w1, iv_le v27, iv_mul_le a.w2 b.w2, iv_le v30, iv_mul_le a.w2 b.w3, iv_le v33, iv_mul_le a.w2 b.w4, iv_le v36, iv_mul_le a.w2 b.w5, iv_le v38, iv_mul_le a.w2 b.w6]
  replace h := mov_inv h
  replace h := xor0_inv h
  replace h := mulx_inv h; obtain ⟨l63, h63, e63, h⟩ := h
  replace h := adc_inv h; obtain ⟨v64, c64, e64, h⟩ := h
  replace h := adc_inv h; obtain ⟨v65, c65, e65, h⟩ := h
  replace h := mov_inv h
  replace h := mulx_inv h; obtain ⟨l66, h66, e66, h⟩ := h
  replace h := adc_inv h; obtain ⟨v67, c67, e67, h⟩ := h
  replace h := adc_inv h; obtain ⟨v68, c68, e68, h⟩ := h
  replace h := mov_inv h
  replace h := mulx_inv h; obtain ⟨l69, h69, e69, h⟩ := h
  replace h := adc_inv h; obtain ⟨v70, c70, e70, h⟩ := h
  replace h := adc_inv h; obtain ⟨v71, c71, e71, h⟩ := h
  replace h := mulx_inv h; obtain ⟨l72, h72, e72, h⟩ := h
  replace h := adc_inv h; obtain ⟨v73, c73, e73, h⟩ := h
  replace h := adc_inv h; obtain ⟨v74, c74, e74, h⟩ := h
  replace h := mulx_inv h; obtain ⟨l75, h75, e75, h⟩ := h
  replace h := adc_inv h; obtain ⟨v76, c76, e76, h⟩ := h
  replace h := adc_inv h; obtain ⟨v77, c77, e77, h⟩ := h
  replace h := mulx_inv h; obtain ⟨l78, h78, e78, h⟩ := h
  replace h := adc_inv h; obtain ⟨v79, c79, e79, h⟩ := h
  replace h := adc_inv h; obtain ⟨v80, c80, e80, h⟩ := h
  replace h := mulx_inv h; obtain ⟨l81, h81, e81, h⟩ := h
  replace h := adc_inv h; obtain ⟨v82, c82, e82, h⟩ := h
  replace h := adc_inv h; obtain ⟨v83, c83, e83, h⟩ := h
  have zc83 : bv c83 = 0 := by
    refine dead (K := 2 ^ 704) (rest := (2 ^ 192) * (iv l63) + (2 ^ 256) * (iv v65) + (2 ^ 256) * (iv l66) + (2 ^ 320) * (iv v68) + (2 ^ 320) * (iv l69) + (2 ^ 384) * (iv v71) + (2 ^ 384) * (iv l72) + (2 ^ 448) * (iv v74) + (2 ^ 448) * (iv l75) + (2 ^ 512) * (iv v77) + (2 ^ 512) * (iv l78) + (2 ^ 576) * (iv v80) + (2 ^ 576) * (iv l81) + (2 ^ 640) * (iv v83)) (P := (2 ^ 192) * (iv a.w3 * iv b.w0) + (2 ^ 256) * (iv v47) + (2 ^ 256) * (iv a.w3 * iv b.w1) + (2 ^ 320) * (iv v50) + (2 ^ 320) * (iv a.w3 * iv b.w2) + (2 ^ 384) * (iv v53) + (2 ^ 384) * (iv a.w3 * iv b.w3) + (2 ^ 448) * (iv v56) + (2 ^ 448) * (iv a.w3 * iv b.w4) + (2 ^ 512) * (iv v59) + (2 ^ 512) * (iv a.w3 * iv b.w5) + (2 ^ 576) * (iv v61) + (2 ^ 576) * (iv a.w3 * iv b.w6)) (by linear_combination (2 ^ 192) * e63 + (2 ^ 256) * e65 + (2 ^ 256) * e66 + (2 ^ 320) * e68 + (2 ^ 320) * e69 + (2 ^ 384) * e71 + (2 ^ 384) * e72 + (2 ^ 448) * e74 + (2 ^ 448) * e75 + (2 ^ 512) * e77 + (2 ^ 512) * e78 + (2 ^ 576) * e80 + (2 ^ 576) * e81 + (2 ^ 640) * e83 + (2 ^ 256) * hf + (2 ^ 640) * hz) ?_ ?_
    · linarith only [iv_nonneg l63, iv_nonneg v65, iv_nonneg l66, iv_nonneg v68, iv_nonneg l69, iv_nonneg v71, iv_nonneg l72, iv_nonneg v74, iv_nonneg l75, iv_nonneg v77, iv_nonneg l78, iv_nonneg v80, iv_nonneg l81, iv_nonneg v83]
    · linarith only [iv_mul_le a.w3 b.w0, iv_le v47, iv_mul_le a.w3 b.w1, iv_le v50, iv_mul_le a.w3 b.w2, iv_le v53, iv_mul_le a.w3 b.w3, iv_le v56, iv_mul_le a.w3 b.w4, iv_le v59, iv_mul_le a.w3 b.w5, iv_le v61, iv_mul_le a.w3 b.w6]
  replace h := mov_inv h
  replace h := adc_inv h; obtain ⟨v84, c84, e84, h⟩ := h
  have zc84 : bv c84 = 0 := by
    refine dead (K := 2 ^ 704) (rest := (2 ^ 192) * (iv v64) + (2 ^ 256) * (iv v67) + (2 ^ 320) * (iv v70) + (2 ^ 384) * (iv v73) + (2 ^ 448) * (iv v76) + (2 ^ 512) * (iv v79) + (2 ^ 576) * (iv v82) + (2 ^ 640) * (iv v84)) (P := (2 ^ 192) * (iv a.w3 * iv b.w0) + (2 ^ 192) * (iv v44) + (2 ^ 256) * (iv v47) + (2 ^ 256) * (iv a.w3 * iv b.w1) + (2 ^ 320) * (iv v50) + (2 ^ 320) * (iv a.w3 * iv b.w2) + (2 ^ 384) * (iv v53) + (2 ^ 384) * (iv a.w3 * iv b.w3) + (2 ^ 448) * (iv v56) + (2 ^ 448) * (iv a.w3 * iv b.w4) + (2 ^ 512) * (iv v59) + (2 ^ 512) * (iv a.w3 * iv b.w5) + (2 ^ 576) * (iv v61) + (2 ^ 576) * (iv a.w3 * iv b.w6)) (by linear_combination (2 ^ 192) * e63 + (2 ^ 192) * e64 + (2 ^ 256) * e65 + (2 ^ 256) * e66 + (2 ^ 256) * e67 + (2 ^ 320) * e68 + (2 ^ 320) * e69 + (2 ^ 320) * e70 + (2 ^ 384) * e71 + (2 ^ 384) * e72 + (2 ^ 384) * e73 + (2 ^ 448) * e74 + (2 ^ 448) * e75 + (2 ^ 448) * e76 + (2 ^ 512) * e77 + (2 ^ 512) * e78 + (2 ^ 512) * e79 + (2 ^ 576) * e80 + (2 ^ 576) * e81 + (2 ^ 576) * e82 + (2 ^ 640) * e83 + (2 ^ 640) * e84 + (18446744073709551617 * 2 ^ 192) * hf + (-2 ^ 704) * zc83 + (2 ^ 641) * hz) ?_ ?_
    · linarith only [iv_nonneg v64, iv_nonneg v67, iv_nonneg v70, iv_nonneg v73, iv_nonneg v76, iv_nonneg v79, iv_nonneg v82, iv_nonneg v84]
    · linarith only [iv_mul_le a.w3 b.w0, iv_le v44, iv_le v47, iv_mul_le a.w3 b.w1, iv_le v50, iv_mul_le a.w3 b.w2, iv_le v53, iv_mul_le a.w3 b.w3, iv_le v56, iv_mul_le a.w3 b.w4, iv_le v59, iv_mul_le a.w3 b.w5, iv_le v61, iv_mul_le a.w3 b.w6]
  replace h := mov_inv h
  replace h := xor0_inv h
  replace h := mulx_inv h; obtain ⟨l86, h86, e86, h⟩ := h
  replace h := adc_inv h; obtain ⟨v87, c87, e87, h⟩ := h
  replace h := adc_inv h; obtain ⟨v88, c88, e88, h⟩ := h
  replace h := mov_inv h
  replace h := mulx_inv h; obtain ⟨l89, h89, e89, h⟩ := h
  replace h := adc_inv h; obtain ⟨v90, c90, e90, h⟩ := h
  replace h := adc_inv h; obtain ⟨v91, c91, e91, h⟩ := h
  replace h := mov_inv h
  replace h := mulx_inv h; obtain ⟨l92, h92, e92, h⟩ := h
  replace h := adc_inv h; obtain ⟨v93, c93, e93, h⟩ := h
  replace h := adc_inv h; obtain ⟨v94, c94, e94, h⟩ := h
  replace h := mulx_inv h; obtain ⟨l95, h95, e95, h⟩ := h
  replace h := adc_inv h; obtain ⟨v96, c96, e96, h⟩ := h
  replace h := adc_inv h; obtain ⟨v97, c97, e97, h⟩ := h
  replace h := mulx_inv h; obtain ⟨l98, h98, e98, h⟩ := h
  replace h := adc_inv h; obtain ⟨v99, c99, e99, h⟩ := h
  replace h := adc_inv h; obtain ⟨v100, c100, e100, h⟩ := h
  replace h := mulx_inv h; obtain ⟨l101, h101, e101, h⟩ := h
  replace h := adc_inv h; obtain ⟨v102, c102, e102, h⟩ := h
  replace h := adc_inv h; obtain ⟨v103, c103, e103, h⟩ := h
  replace h := mulx_inv h; obtain ⟨l104, h104, e104, h⟩ := h
  replace h := adc_inv h; obtain ⟨v105, c105, e105, h⟩ := h
  replace h := adc_inv h; obtain ⟨v106, c106, e106, h⟩ := h
  have zc106 : bv c106 = 0 := by
    refine dead (K := 2 ^ 768) (rest := (2 ^ 256) * (iv l86) + (2 ^ 320) * (iv v88) + (2 ^ 320) * (iv l89) + (2 ^ 384) * (iv v91) + (2 ^ 384) * (iv l92) + (2 ^ 448) * (iv v94) + (2 ^ 448) * (iv l95) + (2 ^ 512) * (iv v97) + (2 ^ 512) * (iv l98) + (2 ^ 576) * (iv v100) + (2 ^ 576) * (iv l101) + (2 ^ 640) * (iv v103) + (2 ^ 640) * (iv l104) + (2 ^ 704) * (iv v106)) (P := (2 ^ 256) * (iv a.w4 * iv b.w0) + (2 ^ 320) * (iv v70) + (2 ^ 320) * (iv a.w4 * iv b.w1) + (2 ^ 384) * (iv v73) + (2 ^ 384) * (iv a.w4 * iv b.w2) + (2 ^ 448) * (iv v76) + (2 ^ 448) * (iv a.w4 * iv b.w3) + (2 ^ 512) * (iv v79) + (2 ^ 512) * (iv a.w4 * iv b.w4) + (2 ^ 576) * (iv v82) + (2 ^ 576) * (iv a.w4 * iv b.w5) + (2 ^ 640) * (iv v84) + (2 ^ 640) * (iv a.w4 * iv b.w6)) (by linear_combination (2 ^ 256) * e86 + (2 ^ 320) * e88 + (2 ^ 320) * e89 + (2 ^ 384) * e91 + (2 ^ 384) * e92 + (2 ^ 448) * e94 + (2 ^ 448) * e95 + (2 ^ 512) * e97 + (2 ^ 512) * e98 + (2 ^ 576) * e100 + (2 ^ 576) * e101 + (2 ^ 640) * e103 + (2 ^ 640) * e104 + (2 ^ 704) * e106 + (2 ^ 320) * hf + (2 ^ 704) * hz) ?_ ?_
    · linarith only [iv_nonneg l86, iv_nonneg v88, iv_nonneg l89, iv_nonneg v91, iv_nonneg l92, iv_nonneg v94, iv_nonneg l95, iv_nonneg v97, iv_nonneg l98, iv_nonneg v100, iv_nonneg l101, iv_nonneg v103, iv_nonneg l104, iv_nonneg v106]
    · linarith only [iv_mul_le a.w4 b.w0, iv_le v70, iv_mul_le a.w4 b.w1, iv_le v73, iv_mul_le a.w4 b.w2, iv_le v76, iv_mul_le a.w4 b.w3, iv_le v79, iv_mul_le a.w4 b.w4, iv_le v82, iv_mul_le a.w4 b.w5, iv_le v84, iv_mul_le a.w4 b.w6]
  replace h := mov_inv h
  replace h := adc_inv h; obtain ⟨v107, c107, e107, h⟩ := h
  have zc107 : bv c107 = 0 := by
    refine dead (K := 2 ^ 768) (rest := (2 ^ 256) * (iv v87) + (2 ^ 320) * (iv v90) + (2 ^ 384) * (iv v93) + (2 ^ 448) * (iv v96) + (2 ^ 512) * (iv v99) + (2 ^ 576) * (iv v102) + (2 ^ 640) * (iv v105) + (2 ^ 704) * (iv v107)) (P := (2 ^ 256) * (iv a.w4 * iv b.w0) + (2 ^ 256) * (iv v67) + (2 ^ 320) * (iv v70) + (2 ^ 320) * (iv a.w4 * iv b.w1) + (2 ^ 384) * (iv v73) + (2 ^ 384) * (iv a.w4 * iv b.w2) + (2 ^ 448) * (iv v76) + (2 ^ 448) * (iv a.w4 * iv b.w3) + (2 ^ 512) * (iv v79) + (2 ^ 512) * (iv a.w4 * iv b.w4) + (2 ^ 576) * (iv v82) + (2 ^ 576) * (iv a.w4 * iv b.w5) + (2 ^ 640) * (iv v84) + (2 ^ 640) * (iv a.w4 * iv b.w6)) (by linear_combination (2 ^ 256) * e86 + (2 ^ 256) * e87 + (2 ^ 320) * e88 + (2 ^ 320) * e89 + (2 ^ 320) * e90 + (2 ^ 384) * e91 + (2 ^ 384) * e92 + (2 ^ 384) * e93 + (2 ^ 448) * e94 + (2 ^ 448) * e95 + (2 ^ 448) * e96 + (2 ^ 512) * e97 + (2 ^ 512) * e98 + (2 ^ 512) * e99 + (2 ^ 576) * e100 + (2 ^ 576) * e101 + (2 ^ 576) * e102 + (2 ^ 640) * e103 + (2 ^ 640) * e104 + (2 ^ 640) * e105 + (2 ^ 704) * e106 + (2 ^ 704) * e107 + (18446744073709551617 * 2 ^ 256) * hf + (-2 ^ 768) * zc106 + (2 ^ 705) * hz) ?_ ?_
    · linarith only [iv_nonneg v87, iv_nonneg v90, iv_nonneg v93, iv_nonneg v96, iv_nonneg v99, iv_nonneg v102, iv_nonneg v105, iv_nonneg v107]
    · linarith only [iv_mul_le a.w4 b.w0, iv_le v67, iv_le v70, iv_mul_le a.w4 b.w1, iv_le v73, iv_mul_le a.w4 b.w2, iv_le v76, iv_mul_le a.w4 b.w3, iv_le v79, iv_mul_le a.w4 b.w4, iv_le v82, iv_mul_le a.w4 b.w5, iv_le v84, iv_mul_le a.w4 b.w6]
  replace h := mov_inv h
  replace h := xor0_inv h
  replace h := mulx_inv h; obtain ⟨l109, h109, e109, h⟩ := h
  replace h := adc_inv h; obtain ⟨v110, c110, e110, h⟩ := h
  replace h := adc_inv h; obtain ⟨v111, c111, e111, h⟩ := h
  replace h := mov_inv h
  replace h := mulx_inv h; obtain ⟨l112, h112, e112, h⟩ := h
  replace h := adc_inv h; obtain ⟨v113, c113, e113, h⟩ := h
  replace h := adc_inv h; obtain ⟨v114, c114, e114, h⟩ := h
  replace h := mov_inv h
  replace h := mulx_inv h; obtain ⟨l115, h115, e115, h⟩ := h
  replace h := adc_inv h; obtain ⟨v116, c116, e116, h⟩ := h
  replace h := adc_inv h; obtain ⟨v117, c117, e117, h⟩ := h
  replace h := mulx_inv h; obtain ⟨l118, h118, e118, h⟩ := h
  replace h := adc_inv h; obtain ⟨v119, c119, e119, h⟩ := h
  replace h := adc_inv h; obtain ⟨v120, c120, e120, h⟩ := h
  replace h := mulx_inv h; obtain ⟨l121, h121, e121, h⟩ := h
  replace h := adc_inv h; obtain ⟨v122, c122, e122, h⟩ := h
  replace h := adc_inv h; obtain ⟨v123, c123, e123, h⟩ := h
  replace h := mulx_inv h; obtain ⟨l124, h124, e124, h⟩ := h
  replace h := adc_inv h; obtain ⟨v125, c125, e125, h⟩ := h
  replace h := adc_inv h; obtain ⟨v126, c126, e126, h⟩ := h
  replace h := mulx_inv h; obtain ⟨l127, h127, e127, h⟩ := h
  replace h := adc_inv h; obtain ⟨v128, c128, e128, h⟩ := h
  replace h := adc_inv h; obtain ⟨v129, c129, e129, h⟩ := h
  have zc129 : bv c129 = 0 := by
    refine dead (K := 2 ^ 832) (rest := (2 ^ 320) * (iv l109) + (2 ^ 384) * (iv v111) + (2 ^ 384) * (iv l112) + (2 ^ 448) * (iv v114) + (2 ^ 448) * (iv l115) + (2 ^ 512) * (iv v117) + (2 ^ 512) * (iv l118) + (2 ^ 576) * (iv v120) + (2 ^ 576) * (iv l121) + (2 ^ 640) * (iv v123) + (2 ^ 640) * (iv l124) + (2 ^ 704) * (iv v126) + (2 ^ 704) * (iv l127) + (2 ^ 768) * (iv v129)) (P := (2 ^ 320) * (iv a.w5 * iv b.w0) + (2 ^ 384) * (iv v93) + (2 ^ 384) * (iv a.w5 * iv b.w1) + (2 ^ 448) * (iv v96) + (2 ^ 448) * (iv a.w5 * iv b.w2) + (2 ^ 512) * (iv v99) + (2 ^ 512) * (iv a.w5 * iv b.w3) + (2 ^ 576) * (iv v102) + (2 ^ 576) * (iv a.w5 * iv b.w4) + (2 ^ 640) * (iv v105) + (2 ^ 640) * (iv a.w5 * iv b.w5) + (2 ^ 704) * (iv v107) + (2 ^ 704) * (iv a.w5 * iv b.w6)) (by linear_combination (2 ^ 320) * e109 + (2 ^ 384) * e111 + (2 ^ 384) * e112 + (2 ^ 448) * e114 + (2 ^ 448) * e115 + (2 ^ 512) * e117 + (2 ^ 512) * e118 + (2 ^ 576) * e120 + (2 ^ 576) * e121 + (2 ^ 640) * e123 + (2 ^ 640) * e124 + (2 ^ 704) * e126 + (2 ^ 704) * e127 + (2 ^ 768) * e129 + (2 ^ 384) * hf + (2 ^ 768) * hz) ?_ ?_
    · linarith only [iv_nonneg l109, iv_nonneg v111, iv_nonneg l112, iv_nonneg v114, iv_nonneg l115, iv_nonneg v117, iv_nonneg l118, iv_nonneg v120, iv_nonneg l121, iv_nonneg v123, iv_nonneg l124, iv_nonneg v126, iv_nonneg l127, iv_nonneg v129]
    · linarith only [iv_mul_le a.w5 b.w0, iv_le v93, iv_mul_le a.w5 b.w1, iv_le v96, iv_mul_le a.w5 b.w2, iv_le v99, iv_mul_le a.w5 b.w3, iv_le v102, iv_mul_le a.w5 b.w4, iv_le v105, iv_mul_le a.w5 b.w5, iv_le v107, iv_mul_le a.w5 b.w6]
  replace h := mov_inv h
  replace h := adc_inv h; obtain ⟨v130, c130, e130, h⟩ := h
  have zc130 : bv c130 = 0 := by
    refine dead (K := 2 ^ 832) (rest := (2 ^ 320) * (iv v110) + (2 ^ 384) * (iv v113) + (2 ^ 448) * (iv v116) + (2 ^ 512) * (iv v119) + (2 ^ 576) * (iv v122) + (2 ^ 640) * (iv v125) + (2 ^ 704) * (iv v128) + (2 ^ 768) * (iv v130)) (P := (2 ^ 320) * (iv a.w5 * iv b.w0) + (2 ^ 320) * (iv v90) + (2 ^ 384) * (iv v93) + (2 ^ 384) * (iv a.w5 * iv b.w1) + (2 ^ 448) * (iv v96) + (2 ^ 448) * (iv a.w5 * iv b.w2) + (2 ^ 512) * (iv v99) + (2 ^ 512) * (iv a.w5 * iv b.w3) + (2 ^ 576) * (iv v102) + (2 ^ 576) * (iv a.w5 * iv b.w4) + (2 ^ 640) * (iv v105) + (2 ^ 640) * (iv a.w5 * iv b.w5) + (2 ^ 704) * (iv v107) + (2 ^ 704) * (iv a.w5 * iv b.w6)) (by linear_combination (2 ^ 320) * e109 + (2 ^ 320) * e110 + (2 ^ 384) * e111 + (2 ^ 384) * e112 + (2 ^ 384) * e113 + (2 ^ 448) * e114 + (2 ^ 448) * e115 + (2 ^ 448) * e116 + (2 ^ 512) * e117 + (2 ^ 512) * e118 + (2 ^ 512) * e119 + (2 ^ 576) * e120 + (2 ^ 576) * e121 + (2 ^ 576) * e122 + (2 ^ 640) * e123 + (2 ^ 640) * e124 + (2 ^ 640) * e125 + (2 ^ 704) * e126 + (2 ^ 704) * e127 + (2 ^ 704) * e128 + (2 ^ 768) * e129 + (2 ^ 768) * e130 + (18446744073709551617 * 2 ^ 320) * hf + (-2 ^ 832) * zc129 + (2 ^ 769) * hz) ?_ ?_
    · linarith only [iv_nonneg v110, iv_nonneg v113, iv_nonneg v116, iv_nonneg v119, iv_nonneg v122, iv_nonneg v125, iv_nonneg v128, iv_nonneg v130]
    · linarith only [iv_mul_le a.w5 b.w0, iv_le v90, iv_le v93, iv_mul_le a.w5 b.w1, iv_le v96, iv_mul_le a.w5 b.w2, iv_le v99, iv_mul_le a.w5 b.w3, iv_le v102, iv_mul_le a.w5 b.w4, iv_le v105, iv_mul_le a.w5 b.w5, iv_le v107, iv_mul_le a.w5 b.w6]
  replace h := mov_inv h
  replace h := xor0_inv h
  replace h := mulx_inv h; obtain ⟨l132, h132, e132, h⟩ := h
  replace h := adc_inv h; obtain ⟨v133, c133, e133, h⟩ := h
  replace h := adc_inv h; obtain ⟨v134, c134, e134, h⟩ := h
  replace h := mov_inv h
  replace h := mulx_inv h; obtain ⟨l135, h135, e135, h⟩ := h
  replace h := adc_inv h; obtain ⟨v136, c136, e136, h⟩ := h
  replace h := adc_inv h; obtain ⟨v137, c137, e137, h⟩ := h
  replace h := mov_inv h
  replace h := mulx_inv h; obtain ⟨l138, h138, e138, h⟩ := h
  replace h := adc_inv h; obtain ⟨v139, c139, e139, h⟩ := h
  replace h := adc_inv h; obtain ⟨v140, c140, e140, h⟩ := h
  replace h := mulx_inv h; obtain ⟨l141, h141, e141, h⟩ := h
  replace h := adc_inv h; obtain ⟨v142, c142, e142, h⟩ := h
  replace h := adc_inv h; obtain ⟨v143, c143, e143, h⟩ := h
  replace h := mulx_inv h; obtain ⟨l144, h144, e144, h⟩ := h
  replace h := adc_inv h; obtain ⟨v145, c145, e145, h⟩ := h
  replace h := adc_inv h; obtain ⟨v146, c146, e146, h⟩ := h
  replace h := mulx_inv h; obtain ⟨l147, h147, e147, h⟩ := h
  replace h := adc_inv h; obtain ⟨v148, c148, e148, h⟩ := h
  replace h := adc_inv h; obtain ⟨v149, c149, e149, h⟩ := h
  replace h := mulx_inv h; obtain ⟨l150, h150, e150, h⟩ := h
  replace h := adc_inv h; obtain ⟨v151, c151, e151, h⟩ := h
  replace h := adc_inv h; obtain ⟨v152, c152, e152, h⟩ := h
  have zc152 : bv c152 = 0 := by
    refine dead (K := 2 ^ 896) (rest := (2 ^ 384) * (iv l132) + (2 ^ 448) * (iv v134) + (2 ^ 448) * (iv l135) + (2 ^ 512) * (iv v137) + (2 ^ 512) * (iv l138) + (2 ^ 576) * (iv v140) + (2 ^ 576) * (iv l141) + (2 ^ 640) * (iv v143) + (2 ^ 640) * (iv l144) + (2 ^ 704) * (iv v146) + (2 ^ 704) * (iv l147) + (2 ^ 768) * (iv v149) + (2 ^ 768) * (iv l150) + (2 ^ 832) * (iv v152)) (P := (2 ^ 384) * (iv a.w6 * iv b.w0) + (2 ^ 448) * (iv v116) + (2 ^ 448) * (iv a.w6 * iv b.w1) + (2 ^ 512) * (iv v119) + (2 ^ 512) * (iv a.w6 * iv b.w2) + (2 ^ 576) * (iv v122) + (2 ^ 576) * (iv a.w6 * iv b.w3) + (2 ^ 640) * (iv v125) + (2 ^ 640) * (iv a.w6 * iv b.w4) + (2 ^ 704) * (iv v128) + (2 ^ 704) * (iv a.w6 * iv b.w5) + (2 ^ 768) * (iv v130) + (2 ^ 768) * (iv a.w6 * iv b.w6)) (by linear_combination (2 ^ 384) * e132 + (2 ^ 448) * e134 + (2 ^ 448) * e135 + (2 ^ 512) * e137 + (2 ^ 512) * e138 + (2 ^ 576) * e140 + (2 ^ 576) * e141 + (2 ^ 640) * e143 + (2 ^ 640) * e144 + (2 ^ 704) * e146 + (2 ^ 704) * e147 + (2 ^ 768) * e149 + (2 ^ 768) * e150 + (2 ^ 832) * e152 + (2 ^ 448) * hf + (2 ^ 832) * hz) ?_ ?_
    · linarith only [iv_nonneg l132, iv_nonneg v134, iv_nonneg l135, iv_nonneg v137, iv_nonneg l138, iv_nonneg v140, iv_nonneg l141, iv_nonneg v143, iv_nonneg l144, iv_nonneg v146, iv_nonneg l147, iv_nonneg v149, iv_nonneg l150, iv_nonneg v152]
    · linarith only [iv_mul_le a.w6 b.w0, iv_le v116, iv_mul_le a.w6 b.w1, iv_le v119, iv_mul_le a.w6 b.w2, iv_le v122, iv_mul_le a.w6 b.w3, iv_le v125, iv_mul_le a.w6 b.w4, iv_le v128, iv_mul_le a.w6 b.w5, iv_le v130, iv_mul_le a.w6 b.w6]
  replace h := mov_inv h
  replace h := adc_inv h; obtain ⟨v153, c153, e153, h⟩ := h
  have zc153 : bv c153 = 0 := by
    refine dead (K := 2 ^ 896) (rest := (2 ^ 384) * (iv v133) + (2 ^ 448) * (iv v136) + (2 ^ 512) * (iv v139) + (2 ^ 576) * (iv v142) + (2 ^ 640) * (iv v145) + (2 ^ 704) * (iv v148) + (2 ^ 768) * (iv v151) + (2 ^ 832) * (iv v153)) (P := (2 ^ 384) * (iv a.w6 * iv b.w0) + (2 ^ 384) * (iv v113) + (2 ^ 448) * (iv v116) + (2 ^ 448) * (iv a.w6 * iv b.w1) + (2 ^ 512) * (iv v119) + (2 ^ 512) * (iv a.w6 * iv b.w2) + (2 ^ 576) * (iv v122) + (2 ^ 576) * (iv a.w6 * iv b.w3) + (2 ^ 640) * (iv v125) + (2 ^ 640) * (iv a.w6 * iv b.w4) + (2 ^ 704) * (iv v128) + (2 ^ 704) * (iv a.w6 * iv b.w5) + (2 ^ 768) * (iv v130) + (2 ^ 768) * (iv a.w6 * iv b.w6)) (by linear_combination (2 ^ 384) * e132 + (2 ^ 384) * e133 + (2 ^ 448) * e134 + (2 ^ 448) * e135 + (2 ^ 448) * e136 + (2 ^ 512) * e137 + (2 ^ 512) * e138 + (2 ^ 512) * e139 + (2 ^ 576) * e140 + (2 ^ 576) * e141 + (2 ^ 576) * e142 + (2 ^ 640) * e143 + (2 ^ 640) * e144 + (2 ^ 640) * e145 + (2 ^ 704) * e146 + (2 ^ 704) * e147 + (2 ^ 704) * e148 + (2 ^ 768) * e149 + (2 ^ 768) * e150 + (2 ^ 768) * e151 + (2 ^ 832) * e152 + (2 ^ 832) * e153 + (18446744073709551617 * 2 ^ 384) * hf + (-2 ^ 896) * zc152 + (2 ^ 833) * hz) ?_ ?_
    · linarith only [iv_nonneg v133, iv_nonneg v136, iv_nonneg v139, iv_nonneg v142, iv_nonneg v145, iv_nonneg v148, iv_nonneg v151, iv_nonneg v153]
    · linarith only [iv_mul_le a.w6 b.w0, iv_le v113, iv_le v116, iv_mul_le a.w6 b.w1, iv_le v119, iv_mul_le a.w6 b.w2, iv_le v122, iv_mul_le a.w6 b.w3, iv_le v125, iv_mul_le a.w6 b.w4, iv_le v128, iv_mul_le a.w6 b.w5, iv_le v130, iv_mul_le a.w6 b.w6]
  replace h := mov_inv h
  replace h := mov_inv h
  replace h := mov_inv h
  replace h := mov_inv h
  replace h := mov_inv h
  replace h := mov_inv h
  replace h := mov_inv h
  subst h
  simp only [F14.val, F7.val]
  linear_combination (2 ^ 832) * e153 + (-2 ^ 896) * zc153 + (2 ^ 832) * e152 + (-2 ^ 896) * zc152 + (2 ^ 768) * e151 + (2 ^ 768) * e150 + (2 ^ 768) * e149 + (2 ^ 704) * e148 + (2 ^ 704) * e147 + (2 ^ 704) * e146 + (2 ^ 640) * e145 + (2 ^ 640) * e144 + (2 ^ 640) * e143 + (2 ^ 576) * e142 + (2 ^ 576) * e141 + (2 ^ 576) * e140 + (2 ^ 512) * e139 + (2 ^ 512) * e138 + (2 ^ 512) * e137 + (2 ^ 448) * e136 + (2 ^ 448) * e135 + (2 ^ 448) * e134 + (2 ^ 384) * e133 + (2 ^ 384) * e132 + (2 ^ 768) * e130 + (-2 ^ 832) * zc130 + (2 ^ 768) * e129 + (-2 ^ 832) * zc129 + (2 ^ 704) * e128 + (2 ^ 704) * e127 + (2 ^ 704) * e126 + (2 ^ 640) * e125 + (2 ^ 640) * e124 + (2 ^ 640) * e123 + (2 ^ 576) * e122 + (2 ^ 576) * e121 + (2 ^ 576) * e120 + (2 ^ 512) * e119 + (2 ^ 512) * e118 + (2 ^ 512) * e117 + (2 ^ 448) * e116 + (2 ^ 448) * e115 + (2 ^ 448) * e114 + (2 ^ 384) * e113 + (2 ^ 384) * e112 + (2 ^ 384) * e111 + (2 ^ 320) * e110 + (2 ^ 320) * e109 + (2 ^ 704) * e107 + (-2 ^ 768) * zc107 + (2 ^ 704) * e106 + (-2 ^ 768) * zc106 + (2 ^ 640) * e105 + (2 ^ 640) * e104 + (2 ^ 640) * e103 + (2 ^ 576) * e102 + (2 ^ 576) * e101 + (2 ^ 576) * e100 + (2 ^ 512) * e99 + (2 ^ 512) * e98 + (2 ^ 512) * e97 + (2 ^ 448) * e96 + (2 ^ 448) * e95 + (2 ^ 448) * e94 + (2 ^ 384) * e93 + (2 ^ 384) * e92 + (2 ^ 384) * e91 + (2 ^ 320) * e90 + (2 ^ 320) * e89 + (2 ^ 320) * e88 + (2 ^ 256) * e87 + (2 ^ 256) * e86 + (2 ^ 640) * e84 + (-2 ^ 704) * zc84 + (2 ^ 640) * e83 + (-2 ^ 704) * zc83 + (2 ^ 576) * e82 + (2 ^ 576) * e81 + (2 ^ 576) * e80 + (2 ^ 512) * e79 + (2 ^ 512) * e78 + (2 ^ 512) * e77 + (2 ^ 448) * e76 + (2 ^ 448) * e75 + (2 ^ 448) * e74 + (2 ^ 384) * e73 + (2 ^ 384) * e72 + (2 ^ 384) * e71 + (2 ^ 320) * e70 + (2 ^ 320) * e69 + (2 ^ 320) * e68 + (2 ^ 256) * e67 + (2 ^ 256) * e66 + (2 ^ 256) * e65 + (2 ^ 192) * e64 + (2 ^ 192) * e63 + (2 ^ 576) * e61 + (-2 ^ 640) * zc61 + (2 ^ 576) * e60 + (-2 ^ 640) * zc60 + (2 ^ 512) * e59 + (2 ^ 512) * e58 + (2 ^ 512) * e57 + (2 ^ 448) * e56 + (2 ^ 448) * e55 + (2 ^ 448) * e54 + (2 ^ 384) * e53 + (2 ^ 384) * e52 + (2 ^ 384) * e51 + (2 ^ 320) * e50 + (2 ^ 320) * e49 + (2 ^ 320) * e48 + (2 ^ 256) * e47 + (2 ^ 256) * e46 + (2 ^ 256) * e45 + (2 ^ 192) * e44 + (2 ^ 192) * e43 + (2 ^ 192) * e42 + (2 ^ 128) * e41 + (2 ^ 128) * e40 + (2 ^ 512) * e38 + (-2 ^ 576) * zc38 + (2 ^ 512) * e37 + (-2 ^ 576) * zc37 + (2 ^ 448) * e36 + (2 ^ 448) * e35 + (2 ^ 448) * e34 + (2 ^ 384) * e33 + (2 ^ 384) * e32 + (2 ^ 384) * e31 + (2 ^ 320) * e30 + (2 ^ 320) * e29 + (2 ^ 320) * e28 + (2 ^ 256) * e27 + (2 ^ 256) * e26 + (2 ^ 256) * e25 + (2 ^ 192) * e24 + (2 ^ 192) * e23 + (2 ^ 192) * e22 + (2 ^ 128) * e21 + (2 ^ 128) * e20 + (2 ^ 128) * e19 + (2 ^ 64) * e18 + (2 ^ 64) * e17 + (2 ^ 448) * e15 + (-2 ^ 512) * zc15 + (2 ^ 384) * e14 + (2 ^ 384) * e13 + (2 ^ 320) * e12 + (2 ^ 320) * e11 + (2 ^ 256) * e10 + (2 ^ 256) * e9 + (2 ^ 192) * e8 + (2 ^ 192) * e7 + (2 ^ 128) * e6 + (2 ^ 128) * e5 + (2 ^ 64) * e4 + (2 ^ 64) * e3 + e2 + (78804012392788958428830054272129047775181106131744629955961692026692898260123396551384510299169195903266945438318593 * 2 ^ 448) * hz + (19701003098197239608275507085992716985050683430639591644006699311223588244313092969985122022142140131230158724005889 * 2 ^ 65) * hf

set_option maxHeartbeats 1000000 in
theorem intmul_mulx_val (a b : F7) : (intmul_mulx a b).val = a.val * b.val := by
  generalize h : intmul_mulx a b = X
  unfold intmul_mulx at h
  have hz : iv 0#64 = 0 := rfl
  have hf : bv false = 0 := rfl
  replace h := mov_inv h
  replace h := mulx_inv h; obtain ⟨l1, h1, e1, h⟩ := h
  replace h := mov_inv h
  replace h := mulx_inv h; obtain ⟨l2, h2, e2, h⟩ := h
  replace h := add_inv h; obtain ⟨v3, c3, e3, h⟩ := h
  replace h := mulx_inv h; obtain ⟨l4, h4, e4, h⟩ := h
  replace h := adc_inv h; obtain ⟨v5, c5, e5, h⟩ := h
  replace h := mulx_inv h; obtain ⟨l6, h6, e6, h⟩ := h
  replace h := adc_inv h; obtain ⟨v7, c7, e7, h⟩ := h
  replace h := mulx_inv h; obtain ⟨l8, h8, e8, h⟩ := h
  replace h := adc_inv h; obtain ⟨v9, c9, e9, h⟩ := h
  replace h := mulx_inv h; obtain ⟨l10, h10, e10, h⟩ := h
  replace h := adc_inv h; obtain ⟨v11, c11, e11, h⟩ := h
  replace h := mulx_inv h; obtain ⟨l12, h12, e12, h⟩ := h
  replace h := adc_inv h; obtain ⟨v13, c13, e13, h⟩ := h
  replace h := adc_inv h; obtain ⟨v14, c14, e14, h⟩ := h
  have zc14 : bv c14 = 0 := by
    refine dead (K := 2 ^ 512) (rest := iv l1 + (2 ^ 64) * (iv v3) + (2 ^ 128) * (iv v5) + (2 ^ 192) * (iv v7) + (2 ^ 256) * (iv v9) + (2 ^ 320) * (iv v11) + (2 ^ 384) * (iv v13) + (2 ^ 448) * (iv v14)) (P := iv a.w0 * iv b.w0 + (2 ^ 64) * (iv a.w0 * iv b.w1) + (2 ^ 128) * (iv a.w0 * iv b.w2) + (2 ^ 192) * (iv a.w0 * iv b.w3) + (2 ^ 256) * (iv a.w0 * iv b.w4) + (2 ^ 320) * (iv a.w0 * iv b.w5) + (2 ^ 384) * (iv a.w0 * iv b.w6)) (by linear_combination e1 + (2 ^ 64) * e2 + (2 ^ 64) * e3 + (2 ^ 128) * e4 + (2 ^ 128) * e5 + (2 ^ 192) * e6 + (2 ^ 192) * e7 + (2 ^ 256) * e8 + (2 ^ 256) * e9 + (2 ^ 320) * e10 + (2 ^ 320) * e11 + (2 ^ 384) * e12 + (2 ^ 384) * e13 + (2 ^ 448) * e14 + (2 ^ 448) * hz) ?_ ?_
    · linarith only [iv_nonneg l1, iv_nonneg v3, iv_nonneg v5, iv_nonneg v7, iv_nonneg v9, iv_nonneg v11, iv_nonneg v13, iv_nonneg v14]
    · linarith only [iv_mul_le a.w0 b.w0, iv_mul_le a.w0 b.w1, iv_mul_le a.w0 b.w2, iv_mul_le a.w0 b.w3, iv_mul_le a.w0 b.w4, iv_mul_le a.w0 b.w5, iv_mul_le a.w0 b.w6]
  replace h := mov_inv h
  replace h := mulx_inv h; obtain ⟨l15, h15, e15, h⟩ := h
  replace h := add_inv h; obtain ⟨v16, c16, e16, h⟩ := h
  replace h := mov_inv h
  replace h := mulx_inv h; obtain ⟨l17, h17, e17, h⟩ := h
  replace h := adc_inv h; obtain ⟨v18, c18, e18, h⟩ := h
  replace h := adc_inv h; obtain ⟨v19, c19, e19, h⟩ := h
  have zc19 : bv c19 = 0 := by
    refine dead (K := 2 ^ 256) (rest := (2 ^ 128) * (iv h15) + (2 ^ 64) * (iv v16) + (2 ^ 128) * (iv v18) + (2 ^ 192) * (iv v19)) (P := (2 ^ 64) * (iv a.w1 * iv b.w0) + (2 ^ 64) * (iv v3) + (2 ^ 128) * (iv a.w1 * iv b.w1) + (2 ^ 128) * (iv v5)) (by linear_combination (2 ^ 64) * e15 + (2 ^ 64) * e16 + (2 ^ 128) * e17 + (2 ^ 128) * e18 + (2 ^ 192) * e19 + (2 ^ 192) * hz) ?_ ?_
    · linarith only [iv_nonneg h15, iv_nonneg v16, iv_nonneg v18, iv_nonneg v19]
    · linarith only [iv_mul_le a.w1 b.w0, iv_le v3, iv_mul_le a.w1 b.w1, iv_le v5]
  replace h := add_inv h; obtain ⟨v20, c20, e20, h⟩ := h
  replace h := mulx_inv h; obtain ⟨l21, h21, e21, h⟩ := h
  replace h := adc_inv h; obtain ⟨v22, c22, e22, h⟩ := h
  replace h := adc_inv h; obtain ⟨v23, c23, e23, h⟩ := h
  have zc23 : bv c23 = 0 := by
    refine dead (K := 2 ^ 320) (rest := (2 ^ 64) * (iv l15) + (2 ^ 128) * (iv v20) + (2 ^ 192) * (iv v22) + (2 ^ 256) * (iv v23)) (P := (2 ^ 64) * (iv a.w1 * iv b.w0) + (2 ^ 128) * (iv v18) + (2 ^ 192) * (iv a.w1 * iv b.w2) + (2 ^ 192) * (iv v7)) (by linear_combination (2 ^ 64) * e15 + (2 ^ 128) * e20 + (2 ^ 192) * e21 + (2 ^ 192) * e22 + (2 ^ 256) * e23 + (2 ^ 256) * hz) ?_ ?_
    · linarith only [iv_nonneg l15, iv_nonneg v20, iv_nonneg v22, iv_nonneg v23]
    · linarith only [iv_mul_le a.w1 b.w0, iv_le v18, iv_mul_le a.w1 b.w2, iv_le v7]
  replace h := add_inv h; obtain ⟨v24, c24, e24, h⟩ := h
  replace h := mulx_inv h; obtain ⟨l25, h25, e25, h⟩ := h
  replace h := adc_inv h; obtain ⟨v26, c26, e26, h⟩ := h
  replace h := adc_inv h; obtain ⟨v27, c27, e27, h⟩ := h
  have zc27 : bv c27 = 0 := by
    refine dead (K := 2 ^ 384) (rest := (2 ^ 192) * (iv v24) + (2 ^ 256) * (iv v26) + (2 ^ 320) * (iv v27)) (P := (2 ^ 192) * (iv v22) + (2 ^ 192) * (iv v19) + (2 ^ 256) * (iv a.w1 * iv b.w3) + (2 ^ 256) * (iv v9)) (by linear_combination (2 ^ 192) * e24 + (2 ^ 256) * e25 + (2 ^ 256) * e26 + (2 ^ 320) * e27 + (2 ^ 320) * hz) ?_ ?_
    · linarith only [iv_nonneg v24, iv_nonneg v26, iv_nonneg v27]
    · linarith only [iv_le v22, iv_le v19, iv_mul_le a.w1 b.w3, iv_le v9]
  replace h := add_inv h; obtain ⟨v28, c28, e28, h⟩ := h
  replace h := mulx_inv h; obtain ⟨l29, h29, e29, h⟩ := h
  replace h := adc_inv h; obtain ⟨v30, c30, e30, h⟩ := h
  replace h := adc_inv h; obtain ⟨v31, c31, e31, h⟩ := h
  have zc31 : bv c31 = 0 := by
    refine dead (K := 2 ^ 448) (rest := (2 ^ 256) * (iv v28) + (2 ^ 320) * (iv v30) + (2 ^ 384) * (iv v31)) (P := (2 ^ 256) * (iv v26) + (2 ^ 256) * (iv v23) + (2 ^ 320) * (iv a.w1 * iv b.w4) + (2 ^ 320) * (iv v11)) (by linear_combination (2 ^ 256) * e28 + (2 ^ 320) * e29 + (2 ^ 320) * e30 + (2 ^ 384) * e31 + (2 ^ 384) * hz) ?_ ?_
    · linarith only [iv_nonneg v28, iv_nonneg v30, iv_nonneg v31]
    · linarith only [iv_le v26, iv_le v23, iv_mul_le a.w1 b.w4, iv_le v11]
  replace h := add_inv h; obtain ⟨v32, c32, e32, h⟩ := h
  replace h := mulx_inv h; obtain ⟨l33, h33, e33, h⟩ := h
  replace h := adc_inv h; obtain ⟨v34, c34, e34, h⟩ := h
  replace h := adc_inv h; obtain ⟨v35, c35, e35, h⟩ := h
  have zc35 : bv c35 = 0 := by
    refine dead (K := 2 ^ 512) (rest := (2 ^ 320) * (iv v32) + (2 ^ 384) * (iv v34) + (2 ^ 448) * (iv v35)) (P := (2 ^ 320) * (iv v30) + (2 ^ 320) * (iv v27) + (2 ^ 384) * (iv a.w1 * iv b.w5) + (2 ^ 384) * (iv v13)) (by linear_combination (2 ^ 320) * e32 + (2 ^ 384) * e33 + (2 ^ 384) * e34 + (2 ^ 448) * e35 + (2 ^ 448) * hz) ?_ ?_
    · linarith only [iv_nonneg v32, iv_nonneg v34, iv_nonneg v35]
    · linarith only [iv_le v30, iv_le v27, iv_mul_le a.w1 b.w5, iv_le v13]
  replace h := add_inv h; obtain ⟨v36, c36, e36, h⟩ := h
  replace h := mulx_inv h; obtain ⟨l37, h37, e37, h⟩ := h
  replace h := adc_inv h; obtain ⟨v38, c38, e38, h⟩ := h
  replace h := adc_inv h; obtain ⟨v39, c39, e39, h⟩ := h
  have zc39 : bv c39 = 0 := by
    refine dead (K := 2 ^ 576) (rest := (2 ^ 384) * (iv v36) + (2 ^ 448) * (iv v38) + (2 ^ 512) * (iv v39)) (P := (2 ^ 384) * (iv v34) + (2 ^ 384) * (iv v31) + (2 ^ 448) * (iv a.w1 * iv b.w6) + (2 ^ 448) * (iv v14)) (by linear_combination (2 ^ 384) * e36 + (2 ^ 448) * e37 + (2 ^ 448) * e38 + (2 ^ 512) * e39 + (2 ^ 512) * hz) ?_ ?_
    · linarith only [iv_nonneg v36, iv_nonneg v38, iv_nonneg v39]
    · linarith only [iv_le v34, iv_le v31, iv_mul_le a.w1 b.w6, iv_le v14]
  replace h := add_inv h; obtain ⟨v40, c40, e40, h⟩ := h
  replace h := adc_inv h; obtain ⟨v41, c41, e41, h⟩ := h
  have zc41 : bv c41 = 0 := by
    refine dead (K := 2 ^ 576) (rest := (2 ^ 64) * (iv v16) + (2 ^ 128) * (iv v20) + (2 ^ 192) * (iv v24) + (2 ^ 256) * (iv v28) + (2 ^ 320) * (iv v32) + (2 ^ 384) * (iv v36) + (2 ^ 448) * (iv v40) + (2 ^ 512) * (iv v41)) (P := (2 ^ 64) * (iv a.w1 * iv b.w0) + (2 ^ 64) * (iv v3) + (2 ^ 128) * (iv a.w1 * iv b.w1) + (2 ^ 128) * (iv v5) + (2 ^ 192) * (iv a.w1 * iv b.w2) + (2 ^ 192) * (iv v7) + (2 ^ 256) * (iv a.w1 * iv b.w3) + (2 ^ 256) * (iv v9) + (2 ^ 320) * (iv a.w1 * iv b.w4) + (2 ^ 320) * (iv v11) + (2 ^ 384) * (iv a.w1 * iv b.w5) + (2 ^ 384) * (iv v13) + (2 ^ 448) * (iv a.w1 * iv b.w6) + (2 ^ 448) * (iv v14)) (by linear_combination (2 ^ 64) * e15 + (2 ^ 64) * e16 + (2 ^ 128) * e17 + (2 ^ 128) * e18 + (2 ^ 192) * e19 + (2 ^ 128) * e20 + (2 ^ 192) * e21 + (2 ^ 192) * e22 + (2 ^ 256) * e23 + (2 ^ 192) * e24 + (2 ^ 256) * e25 + (2 ^ 256) * e26 + (2 ^ 320) * e27 + (2 ^ 256) * e28 + (2 ^ 320) * e29 + (2 ^ 320) * e30 + (2 ^ 384) * e31 + (2 ^ 320) * e32 + (2 ^ 384) * e33 + (2 ^ 384) * e34 + (2 ^ 448) * e35 + (2 ^ 384) * e36 + (2 ^ 448) * e37 + (2 ^ 448) * e38 + (2 ^ 512) * e39 + (2 ^ 448) * e40 + (2 ^ 512) * e41 + (-2 ^ 256) * zc19 + (4271974071841820164905835501576420424635257131457380128511529272100208620480322860849806815789057 * 2 ^ 192) * hz + (-2 ^ 320) * zc23 + (-2 ^ 384) * zc27 + (-2 ^ 448) * zc31 + (-2 ^ 512) * zc35 + (-2 ^ 576) * zc39) ?_ ?_
    · linarith only [iv_nonneg v16, iv_nonneg v20, iv_nonneg v24, iv_nonneg v28, iv_nonneg v32, iv_nonneg v36, iv_nonneg v40, iv_nonneg v41]
    · linarith only [iv_mul_le a.w1 b.w0, iv_le v3, iv_mul_le a.w1 b.w1, iv_le v5, iv_mul_le a.w1 b.w2, iv_le v7, iv_mul_le a.w1 b.w3, iv_le v9, iv_mul_le a.w1 b.w4, iv_le v11, iv_mul_le a.w1 b.w5, iv_le v13, iv_mul_le a.w1 b.w6, iv_le v14]
  replace h := mov_inv h
  replace h := mulx_inv h; obtain ⟨l42, h42, e42, h⟩ := h
  replace h := add_inv h; obtain ⟨v43, c43, e43, h⟩ := h
  replace h := mov_inv h
  replace h := mulx_inv h; obtain ⟨l44, h44, e44, h⟩ := h
  replace h := adc_inv h; obtain ⟨v45, c45, e45, h⟩ := h
  replace h := adc_inv h; obtain ⟨v46, c46, e46, h⟩ := h
  have zc46 : bv c46 = 0 := by
    refine dead (K := 2 ^ 320) (rest := (2 ^ 192) * (iv h42) + (2 ^ 128) * (iv v43) + (2 ^ 192) * (iv v45) + (2 ^ 256) * (iv v46)) (P := (2 ^ 128) * (iv a.w2 * iv b.w0) + (2 ^ 128) * (iv v20) + (2 ^ 192) * (iv a.w2 * iv b.w1) + (2 ^ 192) * (iv v24)) (by linear_combination (2 ^ 128) * e42 + (2 ^ 128) * e43 + (2 ^ 192) * e44 + (2 ^ 192) * e45 + (2 ^ 256) * e46 + (2 ^ 256) * hz) ?_ ?_
    · linarith only [iv_nonneg h42, iv_nonneg v43, iv_nonneg v45, iv_nonneg v46]
    · linarith only [iv_mul_le a.w2 b.w0, iv_le v20, iv_mul_le a.w2 b.w1, iv_le v24]
  replace h := add_inv h; obtain ⟨v47, c47, e47, h⟩ := h
  replace h := mulx_inv h; obtain ⟨l48, h48, e48, h⟩ := h
  replace h := adc_inv h; obtain ⟨v49, c49, e49, h⟩ := h
  replace h := adc_inv h; obtain ⟨v50, c50, e50, h⟩ := h
  have zc50 : bv c50 = 0 := by
    refine dead (K := 2 ^ 384) (rest := (2 ^ 128) * (iv l42) + (2 ^ 192) * (iv v47) + (2 ^ 256) * (iv v49) + (2 ^ 320) * (iv v50)) (P := (2 ^ 128) * (iv a.w2 * iv b.w0) + (2 ^ 192) * (iv v45) + (2 ^ 256) * (iv a.w2 * iv b.w2) + (2 ^ 256) * (iv v28)) (by linear_combination (2 ^ 128) * e42 + (2 ^ 192) * e47 + (2 ^ 256) * e48 + (2 ^ 256) * e49 + (2 ^ 320) * e50 + (2 ^ 320) * hz) ?_ ?_
    · linarith only [iv_nonneg l42, iv_nonneg v47, iv_nonneg v49, iv_nonneg v50]
    · linarith only [iv_mul_le a.w2 b.w0, iv_le v45, iv_mul_le a.w2 b.w2, iv_le v28]
  replace h := add_inv h; obtain ⟨v51, c51, e51, h⟩ := h
  replace h := mulx_inv h; obtain ⟨l52, h52, e52, h⟩ := h
  replace h := adc_inv h; obtain ⟨v53, c53, e53, h⟩ := h
  replace h := adc_inv h; obtain ⟨v54, c54, e54, h⟩ := h
  have zc54 : bv c54 = 0 := by
    refine dead (K := 2 ^ 448) (rest := (2 ^ 256) * (iv v51) + (2 ^ 320) * (iv v53) + (2 ^ 384) * (iv v54)) (P := (2 ^ 256) * (iv v49) + (2 ^ 256) * (iv v46) + (2 ^ 320) * (iv a.w2 * iv b.w3) + (2 ^ 320) * (iv v32)) (by linear_combination (2 ^ 256) * e51 + (2 ^ 320) * e52 + (2 ^ 320) * e53 + (2 ^ 384) * e54 + (2 ^ 384) * hz) ?_ ?_
    · linarith only [iv_nonneg v51, iv_nonneg v53, iv_nonneg v54]
    · linarith only [iv_le v49, iv_le v46, iv_mul_le a.w2 b.w3, iv_le v32]
  replace h := add_inv h; obtain ⟨v55, c55, e55, h⟩ := h
  replace h := mulx_inv h; obtain ⟨l56, h56, e56, h⟩ := h
  replace h := adc_inv h; obtain ⟨v57, c57, e57, h⟩ := h
  replace h := adc_inv h; obtain ⟨v58, c58, e58, h⟩ := h
  have zc58 : bv c58 = 0 := by
    refine dead (K := 2 ^ 512) (rest := (2 ^ 320) * (iv v55) + (2 ^ 384) * (iv v57) + (2 ^ 448) * (iv v58)) (P := (2 ^ 320) * (iv v53) + (2 ^ 320) * (iv v50) + (2 ^ 384) * (iv a.w2 * iv b.w4) + (2 ^ 384) * (iv v36)) (by linear_combination (2 ^ 320) * e55 + (2 ^ 384) * e56 + (2 ^ 384) * e57 + (2 ^ 448) * e58 + (2 ^ 448) * hz) ?_ ?_
    · linarith only [iv_nonneg v55, iv_nonneg v57, iv_nonneg v58]
    · linarith only [iv_le v53, iv_le v50, iv_mul_le a.w2 b.w4, iv_le v36]
  replace h := add_inv h; obtain ⟨v59, c59, e59, h⟩ := h
  replace h := mulx_inv h; obtain ⟨l60, h60, e60, h⟩ := h
  replace h := adc_inv h; obtain ⟨v61, c61, e61, h⟩ := h
  replace h := adc_inv h; obtain ⟨v62, c62, e62, h⟩ := h
  have zc62 : bv c62 = 0 := by
    refine dead (K := 2 ^ 576) (rest := (2 ^ 384) * (iv v59) + (2 ^ 448) * (iv v61) + (2 ^ 512) * (iv v62)) (P := (2 ^ 384) * (iv v57) + (2 ^ 384) * (iv v54) + (2 ^ 448) * (iv a.w2 * iv b.w5) + (2 ^ 448) * (iv v40)) (by linear_combination (2 ^ 384) * e59 + (2 ^ 448) * e60 + (2 ^ 448) * e61 + (2 ^ 512) * e62 + (2 ^ 512) * hz) ?_ ?_
    · linarith only [iv_nonneg v59, iv_nonneg v61, iv_nonneg v62]
    · linarith only [iv_le v57, iv_le v54, iv_mul_le a.w2 b.w5, iv_le v40]
  replace h := add_inv h; obtain ⟨v63, c63, e63, h⟩ := h
  replace h := mulx_inv h; obtain ⟨l64, h64, e64, h⟩ := h
  replace h := adc_inv h; obtain ⟨v65, c65, e65, h⟩ := h
  replace h := adc_inv h; obtain ⟨v66, c66, e66, h⟩ := h
  have zc66 : bv c66 = 0 := by
    refine dead (K := 2 ^ 640) (rest := (2 ^ 448) * (iv v63) + (2 ^ 512) * (iv v65) + (2 ^ 576) * (iv v66)) (P := (2 ^ 448) * (iv v61) + (2 ^ 448) * (iv v58) + (2 ^ 512) * (iv a.w2 * iv b.w6) + (2 ^ 512) * (iv v41)) (by linear_combination (2 ^ 448) * e63 + (2 ^ 512) * e64 + (2 ^ 512) * e65 + (2 ^ 576) * e66 + (2 ^ 576) * hz) ?_ ?_
    · linarith only [iv_nonneg v63, iv_nonneg v65, iv_nonneg v66]
    · linarith only [iv_le v61, iv_le v58, iv_mul_le a.w2 b.w6, iv_le v41]
  replace h := add_inv h; obtain ⟨v67, c67, e67, h⟩ := h
  replace h := adc_inv h; obtain ⟨v68, c68, e68, h⟩ := h
  have zc68 : bv c68 = 0 := by
    refine dead (K := 2 ^ 640) (rest := (2 ^ 128) * (iv v43) + (2 ^ 192) * (iv v47) + (2 ^ 256) * (iv v51) + (2 ^ 320) * (iv v55) + (2 ^ 384) * (iv v59) + (2 ^ 448) * (iv v63) + (2 ^ 512) * (iv v67) + (2 ^ 576) * (iv v68)) (P := (2 ^ 128) * (iv a.w2 * iv b.w0) + (2 ^ 128) * (iv v20) + (2 ^ 192) * (iv a.w2 * iv b.w1) + (2 ^ 192) * (iv v24) + (2 ^ 256) * (iv a.w2 * iv b.w2) + (2 ^ 256) * (iv v28) + (2 ^ 320) * (iv a.w2 * iv b.w3) + (2 ^ 320) * (iv v32) + (2 ^ 384) * (iv a.w2 * iv b.w4) + (2 ^ 384) * (iv v36) + (2 ^ 448) * (iv a.w2 * iv b.w5) + (2 ^ 448) * (iv v40) + (2 ^ 512) * (iv a.w2 * iv b.w6) + (2 ^ 512) * (iv v41)) (by linear_combination (2 ^ 128) * e42 + (2 ^ 128) * e43 + (2 ^ 192) * e44 + (2 ^ 192) * e45 + (2 ^ 256) * e46 + (2 ^ 192) * e47 + (2 ^ 256) * e48 + (2 ^ 256) * e49 + (2 ^ 320) * e50 + (2 ^ 256) * e51 + (2 ^ 320) * e52 + (2 ^ 320) * e53 + (2 ^ 384) * e54 + (2 ^ 320) * e55 + (2 ^ 384) * e56 + (2 ^ 384) * e57 + (2 ^ 448) * e58 + (2 ^ 384) * e59 + (2 ^ 448) * e60 + (2 ^ 448) * e61 + (2 ^ 512) * e62 + (2 ^ 448) * e63 + (2 ^ 512) * e64 + (2 ^ 512) * e65 + (2 ^ 576) * e66 + (2 ^ 512) * e67 + (2 ^ 576) * e68 + (-2 ^ 320) * zc46 + (4271974071841820164905835501576420424635257131457380128511529272100208620480322860849806815789057 * 2 ^ 256) * hz + (-2 ^ 384) * zc50 + (-2 ^ 448) * zc54 + (-2 ^ 512) * zc58 + (-2 ^ 576) * zc62 + (-2 ^ 640) * zc66) ?_ ?_
    · linarith only [iv_nonneg v43, iv_nonneg v47, iv_nonneg v51, iv_nonneg v55, iv_nonneg v59, iv_nonneg v63, iv_nonneg v67, iv_nonneg v68]
    · linarith only [iv_mul_le a.w2 b.w0, iv_le v20, iv_mul_le a.w2 b.w1, iv_le v24, iv_mul_le a.w2 b.w2, iv_le v28, iv_mul_le a.w2 b.w3, iv_le v32, iv_mul_le a.w2 b.w4, iv_le v36, iv_mul_le a.w2 b.w5, iv_le v40, iv_mul_le a.w2 b.w6, iv_le v41]
  replace h := mov_inv h
  replace h := mulx_inv h; obtain ⟨l69, h69, e69, h⟩ := h
  replace h := add_inv h; obtain ⟨v70, c70, e70, h⟩ := h
  replace h := mov_inv h
  replace h := mulx_inv h; obtain ⟨l71, h71, e71, h⟩ := h
  replace h := adc_inv h; obtain ⟨v72, c72, e72, h⟩ := h
  replace h := adc_inv h; obtain ⟨v73, c73, e73, h⟩ := h
  have zc73 : bv c73 = 0 := by
    refine dead (K := 2 ^ 384) (rest := (2 ^ 256) * (iv h69) + (2 ^ 192) * (iv v70) + (2 ^ 256) * (iv v72) + (2 ^ 320) * (iv v73)) (P := (2 ^ 192) * (iv a.w3 * iv b.w0) + (2 ^ 192) * (iv v47) + (2 ^ 256) * (iv a.w3 * iv b.w1) + (2 ^ 256) * (iv v51)) (by linear_combination (2 ^ 192) * e69 + (2 ^ 192) * e70 + (2 ^ 256) * e71 + (2 ^ 256) * e72 + (2 ^ 320) * e73 + (2 ^ 320) * hz) ?_ ?_
    · linarith only [iv_nonneg h69, iv_nonneg v70, iv_nonneg v72, iv_nonneg v73]
    · linarith only [iv_mul_le a.w3 b.w0, iv_le v47, iv_mul_le a.w3 b.w1, iv_le v51]
  replace h := add_inv h; obtain ⟨v74, c74, e74, h⟩ := h
  replace h := mulx_inv h; obtain ⟨l75, h75, e75, h⟩ := h
  replace h := adc_inv h; obtain ⟨v76, c76, e76, h⟩ := h
  replace h := adc_inv h; obtain ⟨v77, c77, e77, h⟩ := h
  have zc77 : bv c77 = 0 := by
    refine dead (K := 2 ^ 448) (rest := (2 ^ 192) * (iv l69) + (2 ^ 256) * (iv v74) + (2 ^ 320) * (iv v76) + (2 ^ 384) * (iv v77)) (P := (2 ^ 192) * (iv a.w3 * iv b.w0) + (2 ^ 256) * (iv v72) + (2 ^ 320) * (iv a.w3 * iv b.w2) + (2 ^ 320) * (iv v55)) (by linear_combination (2 ^ 192) * e69 + (2 ^ 256) * e74 + (2 ^ 320) * e75 + (2 ^ 320) * e76 + (2 ^ 384) * e77 + (2 ^ 384) * hz) ?_ ?_
    · linarith only [iv_nonneg l69, iv_nonneg v74, iv_nonneg v76, iv_nonneg v77]
    · linarith only [iv_mul_le a.w3 b.w0, iv_le v72, iv_mul_le a.w3 b.w2, iv_le v55]
  replace h := add_inv h; obtain ⟨v78, c78, e78, h⟩ := h
  replace h := mulx_inv h; obtain ⟨l79, h79, e79, h⟩ := h
  replace h := adc_inv h; obtain ⟨v80, c80, e80, h⟩ := h
  replace h := adc_inv h; obtain ⟨v81, c81, e81, h⟩ := h
  have zc81 : bv c81 = 0 := by
    refine dead (K := 2 ^ 512) (rest := (2 ^ 320) * (iv v78) + (2 ^ 384) * (iv v80) + (2 ^ 448) * (iv v81)) (P := (2 ^ 320) * (iv v76) + (2 ^ 320) * (iv v73) + (2 ^ 384) * (iv a.w3 * iv b.w3) + (2 ^ 384) * (iv v59)) (by linear_combination (2 ^ 320) * e78 + (2 ^ 384) * e79 + (2 ^ 384) * e80 + (2 ^ 448) * e81 + (2 ^ 448) * hz) ?_ ?_
    · linarith only [iv_nonneg v78, iv_nonneg v80, iv_nonneg v81]
    · linarith only [iv_le v76, iv_le v73, iv_mul_le a.w3 b.w3, iv_le v59]
  replace h := add_inv h; obtain ⟨v82, c82, e82, h⟩ := h
  replace h := mulx_inv h; obtain ⟨l83, h83, e83, h⟩ := h
  replace h := adc_inv h; obtain ⟨v84, c84, e84, h⟩ := h
  replace h := adc_inv h; obtain ⟨v85, c85, e85, h⟩ := h
  have zc85 : bv c85 = 0 := by
    refine dead (K := 2 ^ 576) (rest := (2 ^ 384) * (iv v82) + (2 ^ 448) * (iv v84) + (2 ^ 512) * (iv v85)) (P := (2 ^ 384) * (iv v80) + (2 ^ 384) * (iv v77) + (2 ^ 448) * (iv a.w3 * iv b.w4) + (2 ^ 448) * (iv v63)) (by linear_combination (2 ^ 384) * e82 + (2 ^ 448) * e83 + (2 ^ 448) * e84 + (2 ^ 512) * e85 + (2 ^ 512) * hz) ?_ ?_
    · linarith only [iv_nonneg v82, iv_nonneg v84, iv_nonneg v85]
    · linarith only [iv_le v80, iv_le v77, iv_mul_le a.w3 b.w4, iv_le v63]
  replace h := add_inv h; obtain ⟨v86, c86, e86, h⟩ := h
  replace h := mulx_inv h; obtain ⟨l87, h87, e87, h⟩ := h
  replace h := adc_inv h; obtain ⟨v88, c88, e88, h⟩ := h
  replace h := adc_inv h; obtain ⟨v89, c89, e89, h⟩ := h
  have zc89 : bv c89 = 0 := by
    refine dead (K := 2 ^ 640) (rest := (2 ^ 448) * (iv v86) + (2 ^ 512) * (iv v88) + (2 ^ 576) * (iv v89)) (P := (2 ^ 448) * (iv v84) + (2 ^ 448) * (iv v81) + (2 ^ 512) * (iv a.w3 * iv b.w5) + (2 ^ 512) * (iv v67)) (by linear_combination (2 ^ 448) * e86 + (2 ^ 512) * e87 + (2 ^ 512) * e88 + (2 ^ 576) * e89 + (2 ^ 576) * hz) ?_ ?_
    · linarith only [iv_nonneg v86, iv_nonneg v88, iv_nonneg v89]
    · linarith only [iv_le v84, iv_le v81, iv_mul_le a.w3 b.w5, iv_le v67]
  replace h := add_inv h; obtain ⟨v90, c90, e90, h⟩ := h
  replace h := mulx_inv h; obtain ⟨l91, h91, e91, h⟩ := h
  replace h := adc_inv h; obtain ⟨v92, c92, e92, h⟩ := h
  replace h := adc_inv h; obtain ⟨v93, c93, e93, h⟩ := h
  have zc93 : bv c93 = 0 := by
    refine dead (K := 2 ^ 704) (rest := (2 ^ 512) * (iv v90) + (2 ^ 576) * (iv v92) + (2 ^ 640) * (iv v93)) (P := (2 ^ 512) * (iv v88) + (2 ^ 512) * (iv v85) + (2 ^ 576) * (iv a.w3 * iv b.w6) + (2 ^ 576) * (iv v68)) (by linear_combination (2 ^ 512) * e90 + (2 ^ 576) * e91 + (2 ^ 576) * e92 + (2 ^ 640) * e93 + (2 ^ 640) * hz) ?_ ?_
    · linarith only [iv_nonneg v90, iv_nonneg v92, iv_nonneg v93]
    · linarith only [iv_le v88, iv_le v85, iv_mul_le a.w3 b.w6, iv_le v68]
  replace h := add_inv h; obtain ⟨v94, c94, e94, h⟩ := h
  replace h := adc_inv h; obtain ⟨v95, c95, e95, h⟩ := h
  have zc95 : bv c95 = 0 := by
    refine dead (K := 2 ^ 704) (rest := (2 ^ 192) * (iv v70) + (2 ^ 256) * (iv v74) + (2 ^ 320) * (iv v78) + (2 ^ 384) * (iv v82) + (2 ^ 448) * (iv v86) + (2 ^ 512) * (iv v90) + (2 ^ 576) * (iv v94) + (2 ^ 640) * (iv v95)) (P := (2 ^ 192) * (iv a.w3 * iv b.w0) + (2 ^ 192) * (iv v47) + (2 ^ 256) * (iv a.w3 * iv b.w1) + (2 ^ 256) * (iv v51) + (2 ^ 320) * (iv a.w3 * iv b.w2) + (2 ^ 320) * (iv v55) + (2 ^ 384) * (iv a.w3 * iv b.w3) + (2 ^ 384) * (iv v59) + (2 ^ 448) * (iv a.w3 * iv b.w4) + (2 ^ 448) * (iv v63) + (2 ^ 512) * (iv a.w3 * iv b.w5) + (2 ^ 512) * (iv v67) + (2 ^ 576) * (iv a.w3 * iv b.w6) + (2 ^ 576) * (iv v68)) (by linear_combination (2 ^ 192) * e69 + (2 ^ 192) * e70 + (2 ^ 256) * e71 + (2 ^ 256) * e72 + (2 ^ 320) * e73 + (2 ^ 256) * e74 + (2 ^ 320) * e75 + (2 ^ 320) * e76 + (2 ^ 384) * e77 + (2 ^ 320) * e78 + (2 ^ 384) * e79 + (2 ^ 384) * e80 + (2 ^ 448) * e81 + (2 ^ 384) * e82 + (2 ^ 448) * e83 + (2 ^ 448) * e84 + (2 ^ 512) * e85 + (2 ^ 448) * e86 + (2 ^ 512) * e87 + (2 ^ 512) * e88 + (2 ^ 576) * e89 + (2 ^ 512) * e90 + (2 ^ 576) * e91 + (2 ^ 576) * e92 + (2 ^ 640) * e93 + (2 ^ 576) * e94 + (2 ^ 640) * e95 + (-2 ^ 384) * zc73 + (4271974071841820164905835501576420424635257131457380128511529272100208620480322860849806815789057 * 2 ^ 320) * hz + (-2 ^ 448) * zc77 + (-2 ^ 512) * zc81 + (-2 ^ 576) * zc85 + (-2 ^ 640) * zc89 + (-2 ^ 704) * zc93) ?_ ?_
    · linarith only [iv_nonneg v70, iv_nonneg v74, iv_nonneg v78, iv_nonneg v82, iv_nonneg v86, iv_nonneg v90, iv_nonneg v94, iv_nonneg v95]
    · linarith only [iv_mul_le a.w3 b.w0, iv_le v47, iv_mul_le a.w3 b.w1, iv_le v51, iv_mul_le a.w3 b.w2, iv_le v55, iv_mul_le a.w3 b.w3, iv_le v59, iv_mul_le a.w3 b.w4, iv_le v63, iv_mul_le a.w3 b.w5, iv_le v67, iv_mul_le a.w3 b.w6, iv_le v68]
  replace h := mov_inv h
  replace h := mulx_inv h; obtain ⟨l96, h96, e96, h⟩ := h
  replace h := add_inv h; obtain ⟨v97, c97, e97, h⟩ := h
  replace h := mov_inv h
  replace h := mulx_inv h; obtain ⟨l98, h98, e98, h⟩ := h
  replace h := adc_inv h; obtain ⟨v99, c99, e99, h⟩ := h
  replace h := adc_inv h; obtain ⟨v100, c100, e100, h⟩ := h
  have zc100 : bv c100 = 0 := by
    refine dead (K := 2 ^ 448) (rest := (2 ^ 320) * (iv h96) + (2 ^ 256) * (iv v97) + (2 ^ 320) * (iv v99) + (2 ^ 384) * (iv v100)) (P := (2 ^ 256) * (iv a.w4 * iv b.w0) + (2 ^ 256) * (iv v74) + (2 ^ 320) * (iv a.w4 * iv b.w1) + (2 ^ 320) * (iv v78)) (by linear_combination (2 ^ 256) * e96 + (2 ^ 256) * e97 + (2 ^ 320) * e98 + (2 ^ 320) * e99 + (2 ^ 384) * e100 + (2 ^ 384) * hz) ?_ ?_
    · linarith only [iv_nonneg h96, iv_nonneg v97, iv_nonneg v99, iv_nonneg v100]
    · linarith only [iv_mul_le a.w4 b.w0, iv_le v74, iv_mul_le a.w4 b.w1, iv_le v78]
  replace h := add_inv h; obtain ⟨v101, c101, e101, h⟩ := h
  replace h := mulx_inv h; obtain ⟨l102, h102, e102, h⟩ := h
  replace h := adc_inv h; obtain ⟨v103, c103, e103, h⟩ := h
  replace h := adc_inv h; obtain ⟨v104, c104, e104, h⟩ := h
  have zc104 : bv c104 = 0 := by
    refine dead (K := 2 ^ 512) (rest := (2 ^ 256) * (iv l96) + (2 ^ 320) * (iv v101) + (2 ^ 384) * (iv v103) + (2 ^ 448) * (iv v104)) (P := (2 ^ 256) * (iv a.w4 * iv b.w0) + (2 ^ 320) * (iv v99) + (2 ^ 384) * (iv a.w4 * iv b.w2) + (2 ^ 384) * (iv v82)) (by linear_combination (2 ^ 256) * e96 + (2 ^ 320) * e101 + (2 ^ 384) * e102 + (2 ^ 384) * e103 + (2 ^ 448) * e104 + (2 ^ 448) * hz) ?_ ?_
    · linarith only [iv_nonneg l96, iv_nonneg v101, iv_nonneg v103, iv_nonneg v104]
    · linarith only [iv_mul_le a.w4 b.w0, iv_le v99, iv_mul_le a.w4 b.w2, iv_le v82]
  replace h := add_inv h; obtain ⟨v105, c105, e105, h⟩ := h
  replace h := mulx_inv h; obtain ⟨l106, h106, e106, h⟩ := h
  replace h := adc_inv h; obtain ⟨v107, c107, e107, h⟩ := h
  replace h := adc_inv h; obtain ⟨v108, c108, e108, h⟩ := h
  have zc108 : bv c108 = 0 := by
    refine dead (K := 2 ^ 576) (rest := (2 ^ 384) * (iv v105) + (2 ^ 448) * (iv v107) + (2 ^ 512) * (iv v108)) (P := (2 ^ 384) * (iv v103) + (2 ^ 384) * (iv v100) + (2 ^ 448) * (iv a.w4 * iv b.w3) + (2 ^ 448) * (iv v86)) (by linear_combination (2 ^ 384) * e105 + (2 ^ 448) * e106 + (2 ^ 448) * e107 + (2 ^ 512) * e108 + (2 ^ 512) * hz) ?_ ?_
    · linarith only [iv_nonneg v105, iv_nonneg v107, iv_nonneg v108]
    · linarith only [iv_le v103, iv_le v100, iv_mul_le a.w4 b.w3, iv_le v86]
  replace h := add_inv h; obtain ⟨v109, c109, e109, h⟩ := h
  replace h := mulx_inv h; obtain ⟨l110, h110, e110, h⟩ := h
  replace h := adc_inv h; obtain ⟨v111, c111, e111, h⟩ := h
  replace h := adc_inv h; obtain ⟨v112, c112, e112, h⟩ := h
  have zc112 : bv c112 = 0 := by
    refine dead (K := 2 ^ 640) (rest := (2 ^ 448) * (iv v109) + (2 ^ 512) * (iv v111) + (2 ^ 576) * (iv v112)) (P := (2 ^ 448) * (iv v107) + (2 ^ 448) * (iv v104) + (2 ^ 512) * (iv a.w4 * iv b.w4) + (2 ^ 512) * (iv v90)) (by linear_combination (2 ^ 448) * e109 + (2 ^ 512) * e110 + (2 ^ 512) * e111 + (2 ^ 576) * e112 + (2 ^ 576) * hz) ?_ ?_
    · linarith only [iv_nonneg v109, iv_nonneg v111, iv_nonneg v112]
    · linarith only [iv_le v107, iv_le v104, iv_mul_le a.w4 b.w4, iv_le v90]
  replace h := add_inv h; obtain ⟨v113, c113, e113, h⟩ := h
  replace h := mulx_inv h; obtain ⟨l114, h114, e114, h⟩ := h
  replace h := adc_inv h; obtain ⟨v115, c115, e115, h⟩ := h
  replace h := adc_inv h; obtain ⟨v116, c116, e116, h⟩ := h
  have zc116 : bv c116 = 0 := by
    refine dead (K := 2 ^ 704) (rest := (2 ^ 512) * (iv v113) + (2 ^ 576) * (iv v115) + (2 ^ 640) * (iv v116)) (P := (2 ^ 512) * (iv v111) + (2 ^ 512) * (iv v108) + (2 ^ 576) * (iv a.w4 * iv b.w5) + (2 ^ 576) * (iv v94)) (by linear_combination (2 ^ 512) * e113 + (2 ^ 576) * e114 + (2 ^ 576) * e115 + (2 ^ 640) * e116 + (2 ^ 640) * hz) ?_ ?_
    · linarith only [iv_nonneg v113, iv_nonneg v115, iv_nonneg v116]
    · linarith only [iv_le v111, iv_le v108, iv_mul_le a.w4 b.w5, iv_le v94]
  replace h := add_inv h; obtain ⟨v117, c117, e117, h⟩ := h
  replace h := mulx_inv h; obtain ⟨l118, h118, e118, h⟩ := h
  replace h := adc_inv h; obtain ⟨v119, c119, e119, h⟩ := h
  replace h := adc_inv h; obtain ⟨v120, c120, e120, h⟩ := h
  have zc120 : bv c120 = 0 := by
    refine dead (K := 2 ^ 768) (rest := (2 ^ 576) * (iv v117) + (2 ^ 640) * (iv v119) + (2 ^ 704) * (iv v120)) (P := (2 ^ 576) * (iv v115) + (2 ^ 576) * (iv v112) + (2 ^ 640) * (iv a.w4 * iv b.w6) + (2 ^ 640) * (iv v95)) (by linear_combination (2 ^ 576) * e117 + (2 ^ 640) * e118 + (2 ^ 640) * e119 + (2 ^ 704) * e120 + (2 ^ 704) * hz) ?_ ?_
    · linarith only [iv_nonneg v117, iv_nonneg v119, iv_nonneg v120]
    · linarith only [iv_le v115, iv_le v112, iv_mul_le a.w4 b.w6, iv_le v95]
  replace h := add_inv h; obtain ⟨v121, c121, e121, h⟩ := h
  replace h := adc_inv h; obtain ⟨v122, c122, e122, h⟩ := h
  have zc122 : bv c122 = 0 := by
    refine dead (K := 2 ^ 768) (rest := (2 ^ 256) * (iv v97) + (2 ^ 320) * (iv v101) + (2 ^ 384) * (iv v105) + (2 ^ 448) * (iv v109) + (2 ^ 512) * (iv v113) + (2 ^ 576) * (iv v117) + (2 ^ 640) * (iv v121) + (2 ^ 704) * (iv v122)) (P := (2 ^ 256) * (iv a.w4 * iv b.w0) + (2 ^ 256) * (iv v74) + (2 ^ 320) * (iv a.w4 * iv b.w1) + (2 ^ 320) * (iv v78) + (2 ^ 384) * (iv a.w4 * iv b.w2) + (2 ^ 384) * (iv v82) + (2 ^ 448) * (iv a.w4 * iv b.w3) + (2 ^ 448) * (iv v86) + (2 ^ 512) * (iv a.w4 * iv b.w4) + (2 ^ 512) * (iv v90) + (2 ^ 576) * (iv a.w4 * iv b.w5) + (2 ^ 576) * (iv v94) + (2 ^ 640) * (iv a.w4 * iv b.w6) + (2 ^ 640) * (iv v95)) (by linear_combination (2 ^ 256) * e96 + (2 ^ 256) * e97 + (2 ^ 320) * e98 + (2 ^ 320) * e99 + (2 ^ 384) * e100 + (2 ^ 320) * e101 + (2 ^ 384) * e102 + (2 ^ 384) * e103 + (2 ^ 448) * e104 + (2 ^ 384) * e105 + (2 ^ 448) * e106 + (2 ^ 448) * e107 + (2 ^ 512) * e108 + (2 ^ 448) * e109 + (2 ^ 512) * e110 + (2 ^ 512) * e111 + (2 ^ 576) * e112 + (2 ^ 512) * e113 + (2 ^ 576) * e114 + (2 ^ 576) * e115 + (2 ^ 640) * e116 + (2 ^ 576) * e117 + (2 ^ 640) * e118 + (2 ^ 640) * e119 + (2 ^ 704) * e120 + (2 ^ 640) * e121 + (2 ^ 704) * e122 + (-2 ^ 448) * zc100 + (4271974071841820164905835501576420424635257131457380128511529272100208620480322860849806815789057 * 2 ^ 384) * hz + (-2 ^ 512) * zc104 + (-2 ^ 576) * zc108 + (-2 ^ 640) * zc112 + (-2 ^ 704) * zc116 + (-2 ^ 768) * zc120) ?_ ?_
    · linarith only [iv_nonneg v97, iv_nonneg v101, iv_nonneg v105, iv_nonneg v109, iv_nonneg v113, iv_nonneg v117, iv_nonneg v121, iv_nonneg v122]
    · linarith only [iv_mul_le a.w4 b.w0, iv_le v74, iv_mul_le a.w4 b.w1, iv_le v78, iv_mul_le a.w4 b.w2, iv_le v82, iv_mul_le a.w4 b.w3, iv_le v86, iv_mul_le a.w4 b.w4, iv_le v90, iv_mul_le a.w4 b.w5, iv_le v94, iv_mul_le a.w4 b.w6, iv_le v95]
  replace h := mov_inv h
  replace h := mulx_inv h; obtain ⟨l123, h123, e123, h⟩ := h
  replace h := add_inv h; obtain ⟨v124, c124, e124, h⟩ := h
  replace h := mov_inv h
  replace h := mulx_inv h; obtain ⟨l125, h125, e125, h⟩ := h
  replace h := adc_inv h; obtain ⟨v126, c126, e126, h⟩ := h
  replace h := adc_inv h; obtain ⟨v127, c127, e127, h⟩ := h
  have zc127 : bv c127 = 0 := by
    refine dead (K := 2 ^ 512) (rest := (2 ^ 384) * (iv h123) + (2 ^ 320) * (iv v124) + (2 ^ 384) * (iv v126) + (2 ^ 448) * (iv v127)) (P := (2 ^ 320) * (iv a.w5 * iv b.w0) + (2 ^ 320) * (iv v101) + (2 ^ 384) * (iv a.w5 * iv b.w1) + (2 ^ 384) * (iv v105)) (by linear_combination (2 ^ 320) * e123 + (2 ^ 320) * e124 + (2 ^ 384) * e125 + (2 ^ 384) * e126 + (2 ^ 448) * e127 + (2 ^ 448) * hz) ?_ ?_
    · linarith only [iv_nonneg h123, iv_nonneg v124, iv_nonneg v126, iv_nonneg v127]
    · linarith only [iv_mul_le a.w5 b.w0, iv_le v101, iv_mul_le a.w5 b.w1, iv_le v105]
  replace h := add_inv h; obtain ⟨v128, c128, e128, h⟩ := h
  replace h := mulx_inv h; obtain ⟨l129, h129, e129, h⟩ := h
  replace h := adc_inv h; obtain ⟨v130, c130, e130, h⟩ := h
  replace h := adc_inv h; obtain ⟨v131, c131, e131, h⟩ := h
  have zc131 : bv c131 = 0 := by
    refine dead (K := 2 ^ 576) (rest := (2 ^ 320) * (iv l123) + (2 ^ 384) * (iv v128) + (2 ^ 448) * (iv v130) + (2 ^ 512) * (iv v131)) (P := (2 ^ 320) * (iv a.w5 * iv b.w0) + (2 ^ 384) * (iv v126) + (2 ^ 448) * (iv a.w5 * iv b.w2) + (2 ^ 448) * (iv v109)) (by linear_combination (2 ^ 320) * e123 + (2 ^ 384) * e128 + (2 ^ 448) * e129 + (2 ^ 448) * e130 + (2 ^ 512) * e131 + (2 ^ 512) * hz) ?_ ?_
    · linarith only [iv_nonneg l123, iv_nonneg v128, iv_nonneg v130, iv_nonneg v131]
    · linarith only [iv_mul_le a.w5 b.w0, iv_le v126, iv_mul_le a.w5 b.w2, iv_le v109]
  replace h := add_inv h; obtain ⟨v132, c132, e132, h⟩ := h
  replace h := mulx_inv h; obtain ⟨l133, h133, e133, h⟩ := h
  replace h := adc_inv h; obtain ⟨v134, c134, e134, h⟩ := h
  replace h := adc_inv h; obtain ⟨v135, c135, e135, h⟩ := h
  have zc135 : bv c135 = 0 := by
    refine dead (K := 2 ^ 640) (rest := (2 ^ 448) * (iv v132) + (2 ^ 512) * (iv v134) + (2 ^ 576) * (iv v135)) (P := (2 ^ 448) * (iv v130) + (2 ^ 448) * (iv v127) + (2 ^ 512) * (iv a.w5 * iv b.w3) + (2 ^ 512) * (iv v113)) (by linear_combination (2 ^ 448) * e132 + (2 ^ 512) * e133 + (2 ^ 512) * e134 + (2 ^ 576) * e135 + (2 ^ 576) * hz) ?_ ?_
    · linarith only [iv_nonneg v132, iv_nonneg v134, iv_nonneg v135]
    · linarith only [iv_le v130, iv_le v127, iv_mul_le a.w5 b.w3, iv_le v113]
  replace h := add_inv h; obtain ⟨v136, c136, e136, h⟩ := h
  replace h := mulx_inv h; obtain ⟨l137, h137, e137, h⟩ := h
  replace h := adc_inv h; obtain ⟨v138, c138, e138, h⟩ := h
  replace h := adc_inv h; obtain ⟨v139, c139, e139, h⟩ := h
  have zc139 : bv c139 = 0 := by
    refine dead (K := 2 ^ 704) (rest := (2 ^ 512) * (iv v136) + (2 ^ 576) * (iv v138) + (2 ^ 640) * (iv v139)) (P := (2 ^ 512) * (iv v134) + (2 ^ 512) * (iv v131) + (2 ^ 576) * (iv a.w5 * iv b.w4) + (2 ^ 576) * (iv v117)) (by linear_combination (2 ^ 512) * e136 + (2 ^ 576) * e137 + (2 ^ 576) * e138 + (2 ^ 640) * e139 + (2 ^ 640) * hz) ?_ ?_
    · linarith only [iv_nonneg v136, iv_nonneg v138, iv_nonneg v139]
    · linarith only [iv_le v134, iv_le v131, iv_mul_le a.w5 b.w4, iv_le v117]
  replace h := add_inv h; obtain ⟨v140, c140, e140, h⟩ := h
  replace h := mulx_inv h; obtain ⟨l141, h141, e141, h⟩ := h
  replace h := adc_inv h; obtain ⟨v142, c142, e142, h⟩ := h
  replace h := adc_inv h; obtain ⟨v143, c143, e143, h⟩ := h
  have zc143 : bv c143 = 0 := by
    refine dead (K := 2 ^ 768) (rest := (2 ^ 576) * (iv v140) + (2 ^ 640) * (iv v142) + (2 ^ 704) * (iv v143)) (P := (2 ^ 576) * (iv v138) + (2 ^ 576) * (iv v135) + (2 ^ 640) * (iv a.w5 * iv b.w5) + (2 ^ 640) * (iv v121)) (by linear_combination (2 ^ 576) * e140 + (2 ^ 640) * e141 + (2 ^ 640) * e142 + (2 ^ 704) * e143 + (2 ^ 704) * hz) ?_ ?_
    · linarith only [iv_nonneg v140, iv_nonneg v142, iv_nonneg v143]
    · linarith only [iv_le v138, iv_le v135, iv_mul_le a.w5 b.w5, iv_le v121]
  replace h := add_inv h; obtain ⟨v144, c144, e144, h⟩ := h
  replace h := mulx_inv h; obtain ⟨l145, h145, e145, h⟩ := h
  replace h := adc_inv h; obtain ⟨v146, c146, e146, h⟩ := h
  replace h := adc_inv h; obtain ⟨v147, c147, e147, h⟩ := h
  have zc147 : bv c147 = 0 := by
    refine dead (K := 2 ^ 832) (rest := (2 ^ 640) * (iv v144) + (2 ^ 704) * (iv v146) + (2 ^ 768) * (iv v147)) (P := (2 ^ 640) * (iv v142) + (2 ^ 640) * (iv v139) + (2 ^ 704) * (iv a.w5 * iv b.w6) + (2 ^ 704) * (iv v122)) (by linear_combination (2 ^ 640) * e144 + (2 ^ 704) * e145 + (2 ^ 704) * e146 + (2 ^ 768) * e147 + (2 ^ 768) * hz) ?_ ?_
    · linarith only [iv_nonneg v144, iv_nonneg v146, iv_nonneg v147]
    · linarith only [iv_le v142, iv_le v139, iv_mul_le a.w5 b.w6, iv_le v122]
  replace h := add_inv h; obtain ⟨v148, c148, e148, h⟩ := h
  replace h := adc_inv h; obtain ⟨v149, c149, e149, h⟩ := h
  have zc149 : bv c149 = 0 := by
    refine dead (K := 2 ^ 832) (rest := (2 ^ 320) * (iv v124) + (2 ^ 384) * (iv v128) + (2 ^ 448) * (iv v132) + (2 ^ 512) * (iv v136) + (2 ^ 576) * (iv v140) + (2 ^ 640) * (iv v144) + (2 ^ 704) * (iv v148) + (2 ^ 768) * (iv v149)) (P := (2 ^ 320) * (iv a.w5 * iv b.w0) + (2 ^ 320) * (iv v101) + (2 ^ 384) * (iv a.w5 * iv b.w1) + (2 ^ 384) * (iv v105) + (2 ^ 448) * (iv a.w5 * iv b.w2) + (2 ^ 448) * (iv v109) + (2 ^ 512) * (iv a.w5 * iv b.w3) + (2 ^ 512) * (iv v113) + (2 ^ 576) * (iv a.w5 * iv b.w4) + (2 ^ 576) * (iv v117) + (2 ^ 640) * (iv a.w5 * iv b.w5) + (2 ^ 640) * (iv v121) + (2 ^ 704) * (iv a.w5 * iv b.w6) + (2 ^ 704) * (iv v122)) (by linear_combination (2 ^ 320) * e123 + (2 ^ 320) * e124 + (2 ^ 384) * e125 + (2 ^ 384) * e126 + (2 ^ 448) * e127 + (2 ^ 384) * e128 + (2 ^ 448) * e129 + (2 ^ 448) * e130 + (2 ^ 512) * e131 + (2 ^ 448) * e132 + (2 ^ 512) * e133 + (2 ^ 512) * e134 + (2 ^ 576) * e135 + (2 ^ 512) * e136 + (2 ^ 576) * e137 + (2 ^ 576) * e138 + (2 ^ 640) * e139 + (2 ^ 576) * e140 + (2 ^ 640) * e141 + (2 ^ 640) * e142 + (2 ^ 704) * e143 + (2 ^ 640) * e144 + (2 ^ 704) * e145 + (2 ^ 704) * e146 + (2 ^ 768) * e147 + (2 ^ 704) * e148 + (2 ^ 768) * e149 + (-2 ^ 512) * zc127 + (4271974071841820164905835501576420424635257131457380128511529272100208620480322860849806815789057 * 2 ^ 448) * hz + (-2 ^ 576) * zc131 + (-2 ^ 640) * zc135 + (-2 ^ 704) * zc139 + (-2 ^ 768) * zc143 + (-2 ^ 832) * zc147) ?_ ?_
    · linarith only [iv_nonneg v124, iv_nonneg v128, iv_nonneg v132, iv_nonneg v136, iv_nonneg v140, iv_nonneg v144, iv_nonneg v148, iv_nonneg v149]
    · linarith only [iv_mul_le a.w5 b.w0, iv_le v101, iv_mul_le a.w5 b.w1, iv_le v105, iv_mul_le a.w5 b.w2, iv_le v109, iv_mul_le a.w5 b.w3, iv_le v113, iv_mul_le a.w5 b.w4, iv_le v117, iv_mul_le a.w5 b.w5, iv_le v121, iv_mul_le a.w5 b.w6, iv_le v122]
  replace h := mov_inv h
  replace h := mulx_inv h; obtain ⟨l150, h150, e150, h⟩ := h
  replace h := add_inv h; obtain ⟨v151, c151, e151, h⟩ := h
  replace h := mov_inv h
  replace h := mulx_inv h; obtain ⟨l152, h152, e152, h⟩ := h
  replace h := adc_inv h; obtain ⟨v153, c153, e153, h⟩ := h
  replace h := adc_inv h; obtain ⟨v154, c154, e154, h⟩ := h
  have zc154 : bv c154 = 0 := by
    refine dead (K := 2 ^ 576) (rest := (2 ^ 448) * (iv h150) + (2 ^ 384) * (iv v151) + (2 ^ 448) * (iv v153) + (2 ^ 512) * (iv v154)) (P := (2 ^ 384) * (iv a.w6 * iv b.w0) + (2 ^ 384) * (iv v128) + (2 ^ 448) * (iv a.w6 * iv b.w1) + (2 ^ 448) * (iv v132)) (by linear_combination (2 ^ 384) * e150 + (2 ^ 384) * e151 + (2 ^ 448) * e152 + (2 ^ 448) * e153 + (2 ^ 512) * e154 + (2 ^ 512) * hz) ?_ ?_
    · linarith only [iv_nonneg h150, iv_nonneg v151, iv_nonneg v153, iv_nonneg v154]
    · linarith only [iv_mul_le a.w6 b.w0, iv_le v128, iv_mul_le a.w6 b.w1, iv_le v132]
  replace h := add_inv h; obtain ⟨v155, c155, e155, h⟩ := h
  replace h := mulx_inv h; obtain ⟨l156, h156, e156, h⟩ := h
  replace h := adc_inv h; obtain ⟨v157, c157, e157, h⟩ := h
  replace h := adc_inv h; obtain ⟨v158, c158, e158, h⟩ := h
  have zc158 : bv c158 = 0 := by
    refine dead (K := 2 ^ 640) (rest := (2 ^ 384) * (iv l150) + (2 ^ 448) * (iv v155) + (2 ^ 512) * (iv v157) + (2 ^ 576) * (iv v158)) (P := (2 ^ 384) * (iv a.w6 * iv b.w0) + (2 ^ 448) * (iv v153) + (2 ^ 512) * (iv a.w6 * iv b.w2) + (2 ^ 512) * (iv v136)) (by linear_combination (2 ^ 384) * e150 + (2 ^ 448) * e155 + (2 ^ 512) * e156 + (2 ^ 512) * e157 + (2 ^ 576) * e158 + (2 ^ 576) * hz) ?_ ?_
    · linarith only [iv_nonneg l150, iv_nonneg v155, iv_nonneg v157, iv_nonneg v158]
    · linarith only [iv_mul_le a.w6 b.w0, iv_le v153, iv_mul_le a.w6 b.w2, iv_le v136]
  replace h := add_inv h; obtain ⟨v159, c159, e159, h⟩ := h
  replace h := mulx_inv h; obtain ⟨l160, h160, e160, h⟩ := h
  replace h := adc_inv h; obtain ⟨v161, c161, e161, h⟩ := h
  replace h := adc_inv h; obtain ⟨v162, c162, e162, h⟩ := h
  have zc162 : bv c162 = 0 := by
    refine dead (K := 2 ^ 704) (rest := (2 ^ 512) * (iv v159) + (2 ^ 576) * (iv v161) + (2 ^ 640) * (iv v162)) (P := (2 ^ 512) * (iv v157) + (2 ^ 512) * (iv v154) + (2 ^ 576) * (iv a.w6 * iv b.w3) + (2 ^ 576) * (iv v140)) (by linear_combination (2 ^ 512) * e159 + (2 ^ 576) * e160 + (2 ^ 576) * e161 + (2 ^ 640) * e162 + (2 ^ 640) * hz) ?_ ?_
    · linarith only [iv_nonneg v159, iv_nonneg v161, iv_nonneg v162]
    · linarith only [iv_le v157, iv_le v154, iv_mul_le a.w6 b.w3, iv_le v140]
  replace h := add_inv h; obtain ⟨v163, c163, e163, h⟩ := h
  replace h := mulx_inv h; obtain ⟨l164, h164, e164, h⟩ := h
  replace h := adc_inv h; obtain ⟨v165, c165, e165, h⟩ := h
  replace h := adc_inv h; obtain ⟨v166, c166, e166, h⟩ := h
  have zc166 : bv c166 = 0 := by
    refine dead (K := 2 ^ 768) (rest := (2 ^ 576) * (iv v163) + (2 ^ 640) * (iv v165) + (2 ^ 704) * (iv v166)) (P := (2 ^ 576) * (iv v161) + (2 ^ 576) * (iv v158) + (2 ^ 640) * (iv a.w6 * iv b.w4) + (2 ^ 640) * (iv v144)) (by linear_combination (2 ^ 576) * e163 + (2 ^ 640) * e164 + (2 ^ 640) * e165 + (2 ^ 704) * e166 + (2 ^ 704) * hz) ?_ ?_
    · linarith only [iv_nonneg v163, iv_nonneg v165, iv_nonneg v166]
    · linarith only [iv_le v161, iv_le v158, iv_mul_le a.w6 b.w4, iv_le v144]
  replace h := add_inv h; obtain ⟨v167, c167, e167, h⟩ := h
  replace h := mulx_inv h; obtain ⟨l168, h168, e168, h⟩ := h
  replace h := adc_inv h; obtain ⟨v169, c169, e169, h⟩ := h
  replace h := adc_inv h; obtain ⟨v170, c170, e170, h⟩ := h
  have zc170 : bv c170 = 0 := by
    refine dead (K := 2 ^ 832) (rest := (2 ^ 640) * (iv v167) + (2 ^ 704) * (iv v169) + (2 ^ 768) * (iv v170)) (P := (2 ^ 640) * (iv v165) + (2 ^ 640) * (iv v162) + (2 ^ 704) * (iv a.w6 * iv b.w5) + (2 ^ 704) * (iv v148)) (by linear_combination (2 ^ 640) * e167 + (2 ^ 704) * e168 + (2 ^ 704) * e169 + (2 ^ 768) * e170 + (2 ^ 768) * hz) ?_ ?_
    · linarith only [iv_nonneg v167, iv_nonneg v169, iv_nonneg v170]
    · linarith only [iv_le v165, iv_le v162, iv_mul_le a.w6 b.w5, iv_le v148]
  replace h := add_inv h; obtain ⟨v171, c171, e171, h⟩ := h
  replace h := mulx_inv h; obtain ⟨l172, h172, e172, h⟩ := h
  replace h := adc_inv h; obtain ⟨v173, c173, e173, h⟩ := h
  replace h := adc_inv h; obtain ⟨v174, c174, e174, h⟩ := h
  have zc174 : bv c174 = 0 := by
    refine dead (K := 2 ^ 896) (rest := (2 ^ 704) * (iv v171) + (2 ^ 768) * (iv v173) + (2 ^ 832) * (iv v174)) (P := (2 ^ 704) * (iv v169) + (2 ^ 704) * (iv v166) + (2 ^ 768) * (iv a.w6 * iv b.w6) + (2 ^ 768) * (iv v149)) (by linear_combination (2 ^ 704) * e171 + (2 ^ 768) * e172 + (2 ^ 768) * e173 + (2 ^ 832) * e174 + (2 ^ 832) * hz) ?_ ?_
    · linarith only [iv_nonneg v171, iv_nonneg v173, iv_nonneg v174]
    · linarith only [iv_le v169, iv_le v166, iv_mul_le a.w6 b.w6, iv_le v149]
  replace h := add_inv h; obtain ⟨v175, c175, e175, h⟩ := h
  replace h := adc_inv h; obtain ⟨v176, c176, e176, h⟩ := h
  have zc176 : bv c176 = 0 := by
    refine dead (K := 2 ^ 896) (rest := (2 ^ 384) * (iv v151) + (2 ^ 448) * (iv v155) + (2 ^ 512) * (iv v159) + (2 ^ 576) * (iv v163) + (2 ^ 640) * (iv v167) + (2 ^ 704) * (iv v171) + (2 ^ 768) * (iv v175) + (2 ^ 832) * (iv v176)) (P := (2 ^ 384) * (iv a.w6 * iv b.w0) + (2 ^ 384) * (iv v128) + (2 ^ 448) * (iv a.w6 * iv b.w1) + (2 ^ 448) * (iv v132) + (2 ^ 512) * (iv a.w6 * iv b.w2) + (2 ^ 512) * (iv v136) + (2 ^ 576) * (iv a.w6 * iv b.w3) + (2 ^ 576) * (iv v140) + (2 ^ 640) * (iv a.w6 * iv b.w4) + (2 ^ 640) * (iv v144) + (2 ^ 704) * (iv a.w6 * iv b.w5) + (2 ^ 704) * (iv v148) + (2 ^ 768) * (iv a.w6 * iv b.w6) + (2 ^ 768) * (iv v149)) (by linear_combination (2 ^ 384) * e150 + (2 ^ 384) * e151 + (2 ^ 448) * e152 + (2 ^ 448) * e153 + (2 ^ 512) * e154 + (2 ^ 448) * e155 + (2 ^ 512) * e156 + (2 ^ 512) * e157 + (2 ^ 576) * e158 + (2 ^ 512) * e159 + (2 ^ 576) * e160 + (2 ^ 576) * e161 + (2 ^ 640) * e162 + (2 ^ 576) * e163 + (2 ^ 640) * e164 + (2 ^ 640) * e165 + (2 ^ 704) * e166 + (2 ^ 640) * e167 + (2 ^ 704) * e168 + (2 ^ 704) * e169 + (2 ^ 768) * e170 + (2 ^ 704) * e171 + (2 ^ 768) * e172 + (2 ^ 768) * e173 + (2 ^ 832) * e174 + (2 ^ 768) * e175 + (2 ^ 832) * e176 + (-2 ^ 576) * zc154 + (4271974071841820164905835501576420424635257131457380128511529272100208620480322860849806815789057 * 2 ^ 512) * hz + (-2 ^ 640) * zc158 + (-2 ^ 704) * zc162 + (-2 ^ 768) * zc166 + (-2 ^ 832) * zc170 + (-2 ^ 896) * zc174) ?_ ?_
    · linarith only [iv_nonneg v151, iv_nonneg v155, iv_nonneg v159, iv_nonneg v163, iv_nonneg v167, iv_nonneg v171, iv_nonneg v175, iv_nonneg v176]
    · linarith only [iv_mul_le a.w6 b.w0, iv_le v128, iv_mul_le a.w6 b.w1, iv_le v132, iv_mul_le a.w6 b.w2, iv_le v136, iv_mul_le a.w6 b.w3, iv_le v140, iv_mul_le a.w6 b.w4, iv_le v144, iv_mul_le a.w6 b.w5, iv_le v148, iv_mul_le a.w6 b.w6, iv_le v149]
  replace h := mov_inv h
  replace h := mov_inv h
  replace h := mov_inv h
  replace h := mov_inv h
  replace h := mov_inv h
  replace h := mov_inv h
  replace h := mov_inv h
  subst h
  simp only [F14.val, F7.val]
  linear_combination (2 ^ 832) * e176 + (-2 ^ 896) * zc176 + (2 ^ 768) * e175 + (2 ^ 832) * e174 + (-2 ^ 896) * zc174 + (2 ^ 768) * e173 + (2 ^ 768) * e172 + (2 ^ 704) * e171 + (2 ^ 768) * e170 + (-2 ^ 832) * zc170 + (2 ^ 704) * e169 + (2 ^ 704) * e168 + (2 ^ 640) * e167 + (2 ^ 704) * e166 + (-2 ^ 768) * zc166 + (2 ^ 640) * e165 + (2 ^ 640) * e164 + (2 ^ 576) * e163 + (2 ^ 640) * e162 + (-2 ^ 704) * zc162 + (2 ^ 576) * e161 + (2 ^ 576) * e160 + (2 ^ 512) * e159 + (2 ^ 576) * e158 + (-2 ^ 640) * zc158 + (2 ^ 512) * e157 + (2 ^ 512) * e156 + (2 ^ 448) * e155 + (2 ^ 512) * e154 + (-2 ^ 576) * zc154 + (2 ^ 448) * e153 + (2 ^ 448) * e152 + (2 ^ 384) * e151 + (2 ^ 384) * e150 + (2 ^ 768) * e149 + (-2 ^ 832) * zc149 + (2 ^ 704) * e148 + (2 ^ 768) * e147 + (-2 ^ 832) * zc147 + (2 ^ 704) * e146 + (2 ^ 704) * e145 + (2 ^ 640) * e144 + (2 ^ 704) * e143 + (-2 ^ 768) * zc143 + (2 ^ 640) * e142 + (2 ^ 640) * e141 + (2 ^ 576) * e140 + (2 ^ 640) * e139 + (-2 ^ 704) * zc139 + (2 ^ 576) * e138 + (2 ^ 576) * e137 + (2 ^ 512) * e136 + (2 ^ 576) * e135 + (-2 ^ 640) * zc135 + (2 ^ 512) * e134 + (2 ^ 512) * e133 + (2 ^ 448) * e132 + (2 ^ 512) * e131 + (-2 ^ 576) * zc131 + (2 ^ 448) * e130 + (2 ^ 448) * e129 + (2 ^ 384) * e128 + (2 ^ 448) * e127 + (-2 ^ 512) * zc127 + (2 ^ 384) * e126 + (2 ^ 384) * e125 + (2 ^ 320) * e124 + (2 ^ 320) * e123 + (2 ^ 704) * e122 + (-2 ^ 768) * zc122 + (2 ^ 640) * e121 + (2 ^ 704) * e120 + (-2 ^ 768) * zc120 + (2 ^ 640) * e119 + (2 ^ 640) * e118 + (2 ^ 576) * e117 + (2 ^ 640) * e116 + (-2 ^ 704) * zc116 + (2 ^ 576) * e115 + (2 ^ 576) * e114 + (2 ^ 512) * e113 + (2 ^ 576) * e112 + (-2 ^ 640) * zc112 + (2 ^ 512) * e111 + (2 ^ 512) * e110 + (2 ^ 448) * e109 + (2 ^ 512) * e108 + (-2 ^ 576) * zc108 + (2 ^ 448) * e107 + (2 ^ 448) * e106 + (2 ^ 384) * e105 + (2 ^ 448) * e104 + (-2 ^ 512) * zc104 + (2 ^ 384) * e103 + (2 ^ 384) * e102 + (2 ^ 320) * e101 + (2 ^ 384) * e100 + (-2 ^ 448) * zc100 + (2 ^ 320) * e99 + (2 ^ 320) * e98 + (2 ^ 256) * e97 + (2 ^ 256) * e96 + (2 ^ 640) * e95 + (-2 ^ 704) * zc95 + (2 ^ 576) * e94 + (2 ^ 640) * e93 + (-2 ^ 704) * zc93 + (2 ^ 576) * e92 + (2 ^ 576) * e91 + (2 ^ 512) * e90 + (2 ^ 576) * e89 + (-2 ^ 640) * zc89 + (2 ^ 512) * e88 + (2 ^ 512) * e87 + (2 ^ 448) * e86 + (2 ^ 512) * e85 + (-2 ^ 576) * zc85 + (2 ^ 448) * e84 + (2 ^ 448) * e83 + (2 ^ 384) * e82 + (2 ^ 448) * e81 + (-2 ^ 512) * zc81 + (2 ^ 384) * e80 + (2 ^ 384) * e79 + (2 ^ 320) * e78 + (2 ^ 384) * e77 + (-2 ^ 448) * zc77 + (2 ^ 320) * e76 + (2 ^ 320) * e75 + (2 ^ 256) * e74 + (2 ^ 320) * e73 + (-2 ^ 384) * zc73 + (2 ^ 256) * e72 + (2 ^ 256) * e71 + (2 ^ 192) * e70 + (2 ^ 192) * e69 + (2 ^ 576) * e68 + (-2 ^ 640) * zc68 + (2 ^ 512) * e67 + (2 ^ 576) * e66 + (-2 ^ 640) * zc66 + (2 ^ 512) * e65 + (2 ^ 512) * e64 + (2 ^ 448) * e63 + (2 ^ 512) * e62 + (-2 ^ 576) * zc62 + (2 ^ 448) * e61 + (2 ^ 448) * e60 + (2 ^ 384) * e59 + (2 ^ 448) * e58 + (-2 ^ 512) * zc58 + (2 ^ 384) * e57 + (2 ^ 384) * e56 + (2 ^ 320) * e55 + (2 ^ 384) * e54 + (-2 ^ 448) * zc54 + (2 ^ 320) * e53 + (2 ^ 320) * e52 + (2 ^ 256) * e51 + (2 ^ 320) * e50 + (-2 ^ 384) * zc50 + (2 ^ 256) * e49 + (2 ^ 256) * e48 + (2 ^ 192) * e47 + (2 ^ 256) * e46 + (-2 ^ 320) * zc46 + (2 ^ 192) * e45 + (2 ^ 192) * e44 + (2 ^ 128) * e43 + (2 ^ 128) * e42 + (2 ^ 512) * e41 + (-2 ^ 576) * zc41 + (2 ^ 448) * e40 + (2 ^ 512) * e39 + (-2 ^ 576) * zc39 + (2 ^ 448) * e38 + (2 ^ 448) * e37 + (2 ^ 384) * e36 + (2 ^ 448) * e35 + (-2 ^ 512) * zc35 + (2 ^ 384) * e34 + (2 ^ 384) * e33 + (2 ^ 320) * e32 + (2 ^ 384) * e31 + (-2 ^ 448) * zc31 + (2 ^ 320) * e30 + (2 ^ 320) * e29 + (2 ^ 256) * e28 + (2 ^ 320) * e27 + (-2 ^ 384) * zc27 + (2 ^ 256) * e26 + (2 ^ 256) * e25 + (2 ^ 192) * e24 + (2 ^ 256) * e23 + (-2 ^ 320) * zc23 + (2 ^ 192) * e22 + (2 ^ 192) * e21 + (2 ^ 128) * e20 + (2 ^ 192) * e19 + (-2 ^ 256) * zc19 + (2 ^ 128) * e18 + (2 ^ 128) * e17 + (2 ^ 64) * e16 + (2 ^ 64) * e15 + (2 ^ 448) * e14 + (-2 ^ 512) * zc14 + (2 ^ 384) * e13 + (2 ^ 384) * e12 + (2 ^ 320) * e11 + (2 ^ 320) * e10 + (2 ^ 256) * e9 + (2 ^ 256) * e8 + (2 ^ 192) * e7 + (2 ^ 192) * e6 + (2 ^ 128) * e5 + (2 ^ 128) * e4 + (2 ^ 64) * e3 + (2 ^ 64) * e2 + e1 + (9124881235244390438024334415819896252021595809275831819665709376716487273122444435649505261012289479796409776806027526833382520796016372568349465002868232576461484525780392133007112585296740353 * 2 ^ 192) * hz

end Verif.Fp448.Asm
