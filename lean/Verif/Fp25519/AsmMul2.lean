import Verif.Fp25519.Asm
import Verif.Fp25519.Lemmas

/-! # Paired integer products

Helper lemmas: one linear identity per straight-line block. -/

namespace Verif.Fp25519.Asm

set_option maxRecDepth 4000
set_option linter.unusedVariables false
set_option exponentiation.threshold 2000

theorem intmul2_mulxadx_val (a b : F4 × F4) :
    (intmul2_mulxadx a b).1.val = a.1.val * b.1.val ∧ (intmul2_mulxadx a b).2.val = a.2.val * b.2.val := by
  generalize h : intmul2_mulxadx a b = X
  unfold intmul2_mulxadx at h
  have hz : iv 0#64 = 0 := rfl
  have hf : bv false = 0 := rfl
  replace h := xor0_inv h
  replace h := mov_inv h
  replace h := mulx_inv h; obtain ⟨l2, h2, e2, h⟩ := h
  replace h := xor0_inv h
  replace h := mov_inv h
  replace h := mulx_inv h; obtain ⟨l4, h4, e4, h⟩ := h
  replace h := adc_inv h; obtain ⟨v5, c5, e5, h⟩ := h
  replace h := mulx_inv h; obtain ⟨l6, h6, e6, h⟩ := h
  replace h := adc_inv h; obtain ⟨v7, c7, e7, h⟩ := h
  replace h := mulx_inv h; obtain ⟨l8, h8, e8, h⟩ := h
  replace h := adc_inv h; obtain ⟨v9, c9, e9, h⟩ := h
  replace h := adc_inv h; obtain ⟨v10, c10, e10, h⟩ := h
  have zc10 : bv c10 = 0 := by
    refine dead (K := 2 ^ 320) (rest := iv l2 + (2 ^ 64) * (iv v5) + (2 ^ 128) * (iv v7) + (2 ^ 192) * (iv v9) + (2 ^ 256) * (iv v10)) (P := iv a.1.w0 * iv b.1.w0 + (2 ^ 64) * (iv a.1.w0 * iv b.1.w1) + (2 ^ 128) * (iv a.1.w0 * iv b.1.w2) + (2 ^ 192) * (iv a.1.w0 * iv b.1.w3)) (by linear_combination e2 + (2 ^ 64) * e4 + (2 ^ 64) * e5 + (2 ^ 128) * e6 + (2 ^ 128) * e7 + (2 ^ 192) * e8 + (2 ^ 192) * e9 + (2 ^ 256) * e10 + (2 ^ 64) * hf + (2 ^ 256) * hz) ?_ ?_
    · linarith only [iv_nonneg l2, iv_nonneg v5, iv_nonneg v7, iv_nonneg v9, iv_nonneg v10]
    · linarith only [iv_mul_le a.1.w0 b.1.w0, iv_mul_le a.1.w0 b.1.w1, iv_mul_le a.1.w0 b.1.w2, iv_mul_le a.1.w0 b.1.w3]
  replace h := mov_inv h
  replace h := mulx_inv h; obtain ⟨l11, h11, e11, h⟩ := h
  replace h := adc_inv h; obtain ⟨v12, c12, e12, h⟩ := h
  replace h := mov_inv h
  replace h := mulx_inv h; obtain ⟨l13, h13, e13, h⟩ := h
  replace h := adc_inv h; obtain ⟨v14, c14, e14, h⟩ := h
  replace h := adc_inv h; obtain ⟨v15, c15, e15, h⟩ := h
  replace h := mulx_inv h; obtain ⟨l16, h16, e16, h⟩ := h
  replace h := adc_inv h; obtain ⟨v17, c17, e17, h⟩ := h
  replace h := adc_inv h; obtain ⟨v18, c18, e18, h⟩ := h
  replace h := mulx_inv h; obtain ⟨l19, h19, e19, h⟩ := h
  replace h := adc_inv h; obtain ⟨v20, c20, e20, h⟩ := h
  replace h := adc_inv h; obtain ⟨v21, c21, e21, h⟩ := h
  replace h := adc_inv h; obtain ⟨v22, c22, e22, h⟩ := h
  have zc22 : bv c22 = 0 := by
    refine dead (K := 2 ^ 384) (rest := (2 ^ 64) * (iv v12) + (2 ^ 128) * (iv v14) + (2 ^ 192) * (iv v17) + (2 ^ 256) * (iv v20) + (2 ^ 320) * (iv v22)) (P := (2 ^ 64) * (iv a.1.w1 * iv b.1.w0) + (2 ^ 64) * (iv v5) + (2 ^ 128) * (iv a.1.w1 * iv b.1.w1) + (2 ^ 192) * (iv a.1.w1 * iv b.1.w2) + (2 ^ 256) * (iv a.1.w1 * iv b.1.w3)) (by linear_combination (2 ^ 64) * e11 + (2 ^ 64) * e12 + (2 ^ 128) * e13 + (2 ^ 128) * e14 + (2 ^ 192) * e16 + (2 ^ 192) * e17 + (2 ^ 256) * e19 + (2 ^ 256) * e20 + (2 ^ 320) * e22 + (2 ^ 64) * zc10 + (2 ^ 320) * hz) ?_ ?_
    · linarith only [iv_nonneg v12, iv_nonneg v14, iv_nonneg v17, iv_nonneg v20, iv_nonneg v22]
    · linarith only [iv_mul_le a.1.w1 b.1.w0, iv_le v5, iv_mul_le a.1.w1 b.1.w1, iv_mul_le a.1.w1 b.1.w2, iv_mul_le a.1.w1 b.1.w3]
  replace h := adc_inv h; obtain ⟨v23, c23, e23, h⟩ := h
  have zc23 : bv c23 = 0 := by
    refine dead (K := 2 ^ 384) (rest := (2 ^ 64) * (iv v12) + (2 ^ 128) * (iv v15) + (2 ^ 192) * (iv v18) + (2 ^ 256) * (iv v21) + (2 ^ 320) * (iv v23)) (P := (2 ^ 64) * (iv a.1.w1 * iv b.1.w0) + (2 ^ 64) * (iv v5) + (2 ^ 128) * (iv a.1.w1 * iv b.1.w1) + (2 ^ 128) * (iv v7) + (2 ^ 192) * (iv a.1.w1 * iv b.1.w2) + (2 ^ 192) * (iv v9) + (2 ^ 256) * (iv a.1.w1 * iv b.1.w3) + (2 ^ 256) * (iv v10)) (by linear_combination (2 ^ 64) * e11 + (2 ^ 64) * e12 + (2 ^ 128) * e13 + (2 ^ 128) * e14 + (2 ^ 128) * e15 + (2 ^ 192) * e16 + (2 ^ 192) * e17 + (2 ^ 192) * e18 + (2 ^ 256) * e19 + (2 ^ 256) * e20 + (2 ^ 256) * e21 + (2 ^ 320) * e22 + (2 ^ 320) * e23 + (2 ^ 64) * zc10 + (2 ^ 128) * hf + (-2 ^ 384) * zc22 + (2 ^ 321) * hz) ?_ ?_
    · linarith only [iv_nonneg v12, iv_nonneg v15, iv_nonneg v18, iv_nonneg v21, iv_nonneg v23]
    · linarith only [iv_mul_le a.1.w1 b.1.w0, iv_le v5, iv_mul_le a.1.w1 b.1.w1, iv_le v7, iv_mul_le a.1.w1 b.1.w2, iv_le v9, iv_mul_le a.1.w1 b.1.w3, iv_le v10]
  replace h := mov_inv h
  replace h := xor0_inv h
  replace h := mulx_inv h; obtain ⟨l25, h25, e25, h⟩ := h
  replace h := adc_inv h; obtain ⟨v26, c26, e26, h⟩ := h
  replace h := mov_inv h
  replace h := mulx_inv h; obtain ⟨l27, h27, e27, h⟩ := h
  replace h := adc_inv h; obtain ⟨v28, c28, e28, h⟩ := h
  replace h := adc_inv h; obtain ⟨v29, c29, e29, h⟩ := h
  replace h := mulx_inv h; obtain ⟨l30, h30, e30, h⟩ := h
  replace h := adc_inv h; obtain ⟨v31, c31, e31, h⟩ := h
  replace h := adc_inv h; obtain ⟨v32, c32, e32, h⟩ := h
  replace h := mulx_inv h; obtain ⟨l33, h33, e33, h⟩ := h
  replace h := adc_inv h; obtain ⟨v34, c34, e34, h⟩ := h
  replace h := adc_inv h; obtain ⟨v35, c35, e35, h⟩ := h
  replace h := adc_inv h; obtain ⟨v36, c36, e36, h⟩ := h
  have zc36 : bv c36 = 0 := by
    refine dead (K := 2 ^ 448) (rest := (2 ^ 128) * (iv v26) + (2 ^ 192) * (iv v28) + (2 ^ 256) * (iv v31) + (2 ^ 320) * (iv v34) + (2 ^ 384) * (iv v36)) (P := (2 ^ 128) * (iv a.1.w2 * iv b.1.w0) + (2 ^ 128) * (iv v15) + (2 ^ 192) * (iv a.1.w2 * iv b.1.w1) + (2 ^ 256) * (iv a.1.w2 * iv b.1.w2) + (2 ^ 320) * (iv a.1.w2 * iv b.1.w3)) (by linear_combination (2 ^ 128) * e25 + (2 ^ 128) * e26 + (2 ^ 192) * e27 + (2 ^ 192) * e28 + (2 ^ 256) * e30 + (2 ^ 256) * e31 + (2 ^ 320) * e33 + (2 ^ 320) * e34 + (2 ^ 384) * e36 + (2 ^ 128) * hf + (2 ^ 384) * hz) ?_ ?_
    · linarith only [iv_nonneg v26, iv_nonneg v28, iv_nonneg v31, iv_nonneg v34, iv_nonneg v36]
    · linarith only [iv_mul_le a.1.w2 b.1.w0, iv_le v15, iv_mul_le a.1.w2 b.1.w1, iv_mul_le a.1.w2 b.1.w2, iv_mul_le a.1.w2 b.1.w3]
  replace h := adc_inv h; obtain ⟨v37, c37, e37, h⟩ := h
  have zc37 : bv c37 = 0 := by
    refine dead (K := 2 ^ 448) (rest := (2 ^ 128) * (iv v26) + (2 ^ 192) * (iv v29) + (2 ^ 256) * (iv v32) + (2 ^ 320) * (iv v35) + (2 ^ 384) * (iv v37)) (P := (2 ^ 128) * (iv a.1.w2 * iv b.1.w0) + (2 ^ 128) * (iv v15) + (2 ^ 192) * (iv a.1.w2 * iv b.1.w1) + (2 ^ 192) * (iv v18) + (2 ^ 256) * (iv a.1.w2 * iv b.1.w2) + (2 ^ 256) * (iv v21) + (2 ^ 320) * (iv a.1.w2 * iv b.1.w3) + (2 ^ 320) * (iv v23)) (by linear_combination (2 ^ 128) * e25 + (2 ^ 128) * e26 + (2 ^ 192) * e27 + (2 ^ 192) * e28 + (2 ^ 192) * e29 + (2 ^ 256) * e30 + (2 ^ 256) * e31 + (2 ^ 256) * e32 + (2 ^ 320) * e33 + (2 ^ 320) * e34 + (2 ^ 320) * e35 + (2 ^ 384) * e36 + (2 ^ 384) * e37 + (18446744073709551617 * 2 ^ 128) * hf + (-2 ^ 448) * zc36 + (2 ^ 385) * hz) ?_ ?_
    · linarith only [iv_nonneg v26, iv_nonneg v29, iv_nonneg v32, iv_nonneg v35, iv_nonneg v37]
    · linarith only [iv_mul_le a.1.w2 b.1.w0, iv_le v15, iv_mul_le a.1.w2 b.1.w1, iv_le v18, iv_mul_le a.1.w2 b.1.w2, iv_le v21, iv_mul_le a.1.w2 b.1.w3, iv_le v23]
  replace h := mov_inv h
  replace h := xor0_inv h
  replace h := mulx_inv h; obtain ⟨l39, h39, e39, h⟩ := h
  replace h := adc_inv h; obtain ⟨v40, c40, e40, h⟩ := h
  replace h := mov_inv h
  replace h := mulx_inv h; obtain ⟨l41, h41, e41, h⟩ := h
  replace h := adc_inv h; obtain ⟨v42, c42, e42, h⟩ := h
  replace h := adc_inv h; obtain ⟨v43, c43, e43, h⟩ := h
  replace h := mov_inv h
  replace h := mulx_inv h; obtain ⟨l44, h44, e44, h⟩ := h
  replace h := adc_inv h; obtain ⟨v45, c45, e45, h⟩ := h
  replace h := adc_inv h; obtain ⟨v46, c46, e46, h⟩ := h
  replace h := mov_inv h
  replace h := mulx_inv h; obtain ⟨l47, h47, e47, h⟩ := h
  replace h := adc_inv h; obtain ⟨v48, c48, e48, h⟩ := h
  replace h := adc_inv h; obtain ⟨v49, c49, e49, h⟩ := h
  replace h := mov_inv h
  replace h := adc_inv h; obtain ⟨v50, c50, e50, h⟩ := h
  have zc50 : bv c50 = 0 := by
    refine dead (K := 2 ^ 512) (rest := (2 ^ 192) * (iv v40) + (2 ^ 256) * (iv v42) + (2 ^ 320) * (iv v45) + (2 ^ 384) * (iv v48) + (2 ^ 448) * (iv v50)) (P := (2 ^ 192) * (iv a.1.w3 * iv b.1.w0) + (2 ^ 192) * (iv v29) + (2 ^ 256) * (iv a.1.w3 * iv b.1.w1) + (2 ^ 320) * (iv a.1.w3 * iv b.1.w2) + (2 ^ 384) * (iv a.1.w3 * iv b.1.w3)) (by linear_combination (2 ^ 192) * e39 + (2 ^ 192) * e40 + (2 ^ 256) * e41 + (2 ^ 256) * e42 + (2 ^ 320) * e44 + (2 ^ 320) * e45 + (2 ^ 384) * e47 + (2 ^ 384) * e48 + (2 ^ 448) * e50 + (2 ^ 192) * hf + (2 ^ 448) * hz) ?_ ?_
    · linarith only [iv_nonneg v40, iv_nonneg v42, iv_nonneg v45, iv_nonneg v48, iv_nonneg v50]
    · linarith only [iv_mul_le a.1.w3 b.1.w0, iv_le v29, iv_mul_le a.1.w3 b.1.w1, iv_mul_le a.1.w3 b.1.w2, iv_mul_le a.1.w3 b.1.w3]
  replace h := adc_inv h; obtain ⟨v51, c51, e51, h⟩ := h
  have zc51 : bv c51 = 0 := by
    refine dead (K := 2 ^ 512) (rest := (2 ^ 192) * (iv v40) + (2 ^ 256) * (iv v43) + (2 ^ 320) * (iv v46) + (2 ^ 384) * (iv v49) + (2 ^ 448) * (iv v51)) (P := (2 ^ 192) * (iv a.1.w3 * iv b.1.w0) + (2 ^ 192) * (iv v29) + (2 ^ 256) * (iv a.1.w3 * iv b.1.w1) + (2 ^ 256) * (iv v32) + (2 ^ 320) * (iv a.1.w3 * iv b.1.w2) + (2 ^ 320) * (iv v35) + (2 ^ 384) * (iv a.1.w3 * iv b.1.w3) + (2 ^ 384) * (iv v37)) (by linear_combination (2 ^ 192) * e39 + (2 ^ 192) * e40 + (2 ^ 256) * e41 + (2 ^ 256) * e42 + (2 ^ 256) * e43 + (2 ^ 320) * e44 + (2 ^ 320) * e45 + (2 ^ 320) * e46 + (2 ^ 384) * e47 + (2 ^ 384) * e48 + (2 ^ 384) * e49 + (2 ^ 448) * e50 + (2 ^ 448) * e51 + (18446744073709551617 * 2 ^ 192) * hf + (-2 ^ 512) * zc50 + (2 ^ 449) * hz) ?_ ?_
    · linarith only [iv_nonneg v40, iv_nonneg v43, iv_nonneg v46, iv_nonneg v49, iv_nonneg v51]
    · linarith only [iv_mul_le a.1.w3 b.1.w0, iv_le v29, iv_mul_le a.1.w3 b.1.w1, iv_le v32, iv_mul_le a.1.w3 b.1.w2, iv_le v35, iv_mul_le a.1.w3 b.1.w3, iv_le v37]
  replace h := mov_inv h
  replace h := mov_inv h
  replace h := mulx_inv h; obtain ⟨l52, h52, e52, h⟩ := h
  replace h := xor0_inv h
  replace h := mov_inv h
  replace h := mulx_inv h; obtain ⟨l54, h54, e54, h⟩ := h
  replace h := adc_inv h; obtain ⟨v55, c55, e55, h⟩ := h
  replace h := mulx_inv h; obtain ⟨l56, h56, e56, h⟩ := h
  replace h := adc_inv h; obtain ⟨v57, c57, e57, h⟩ := h
  replace h := mulx_inv h; obtain ⟨l58, h58, e58, h⟩ := h
  replace h := adc_inv h; obtain ⟨v59, c59, e59, h⟩ := h
  replace h := adc_inv h; obtain ⟨v60, c60, e60, h⟩ := h
  have zc60 : bv c60 = 0 := by
    refine dead (K := 2 ^ 320) (rest := iv l52 + (2 ^ 64) * (iv v55) + (2 ^ 128) * (iv v57) + (2 ^ 192) * (iv v59) + (2 ^ 256) * (iv v60)) (P := iv a.2.w0 * iv b.2.w0 + (2 ^ 64) * (iv a.2.w0 * iv b.2.w1) + (2 ^ 128) * (iv a.2.w0 * iv b.2.w2) + (2 ^ 192) * (iv a.2.w0 * iv b.2.w3)) (by linear_combination e52 + (2 ^ 64) * e54 + (2 ^ 64) * e55 + (2 ^ 128) * e56 + (2 ^ 128) * e57 + (2 ^ 192) * e58 + (2 ^ 192) * e59 + (2 ^ 256) * e60 + (2 ^ 64) * hf + (2 ^ 256) * hz) ?_ ?_
    · linarith only [iv_nonneg l52, iv_nonneg v55, iv_nonneg v57, iv_nonneg v59, iv_nonneg v60]
    · linarith only [iv_mul_le a.2.w0 b.2.w0, iv_mul_le a.2.w0 b.2.w1, iv_mul_le a.2.w0 b.2.w2, iv_mul_le a.2.w0 b.2.w3]
  replace h := mov_inv h
  replace h := xor0_inv h
  replace h := mulx_inv h; obtain ⟨l62, h62, e62, h⟩ := h
  replace h := adc_inv h; obtain ⟨v63, c63, e63, h⟩ := h
  replace h := mov_inv h
  replace h := mulx_inv h; obtain ⟨l64, h64, e64, h⟩ := h
  replace h := adc_inv h; obtain ⟨v65, c65, e65, h⟩ := h
  replace h := adc_inv h; obtain ⟨v66, c66, e66, h⟩ := h
  replace h := mulx_inv h; obtain ⟨l67, h67, e67, h⟩ := h
  replace h := adc_inv h; obtain ⟨v68, c68, e68, h⟩ := h
  replace h := adc_inv h; obtain ⟨v69, c69, e69, h⟩ := h
  replace h := mulx_inv h; obtain ⟨l70, h70, e70, h⟩ := h
  replace h := adc_inv h; obtain ⟨v71, c71, e71, h⟩ := h
  replace h := adc_inv h; obtain ⟨v72, c72, e72, h⟩ := h
  replace h := adc_inv h; obtain ⟨v73, c73, e73, h⟩ := h
  have zc73 : bv c73 = 0 := by
    refine dead (K := 2 ^ 384) (rest := (2 ^ 64) * (iv v63) + (2 ^ 128) * (iv v65) + (2 ^ 192) * (iv v68) + (2 ^ 256) * (iv v71) + (2 ^ 320) * (iv v73)) (P := (2 ^ 64) * (iv a.2.w1 * iv b.2.w0) + (2 ^ 64) * (iv v55) + (2 ^ 128) * (iv a.2.w1 * iv b.2.w1) + (2 ^ 192) * (iv a.2.w1 * iv b.2.w2) + (2 ^ 256) * (iv a.2.w1 * iv b.2.w3)) (by linear_combination (2 ^ 64) * e62 + (2 ^ 64) * e63 + (2 ^ 128) * e64 + (2 ^ 128) * e65 + (2 ^ 192) * e67 + (2 ^ 192) * e68 + (2 ^ 256) * e70 + (2 ^ 256) * e71 + (2 ^ 320) * e73 + (2 ^ 64) * hf + (2 ^ 320) * hz) ?_ ?_
    · linarith only [iv_nonneg v63, iv_nonneg v65, iv_nonneg v68, iv_nonneg v71, iv_nonneg v73]
    · linarith only [iv_mul_le a.2.w1 b.2.w0, iv_le v55, iv_mul_le a.2.w1 b.2.w1, iv_mul_le a.2.w1 b.2.w2, iv_mul_le a.2.w1 b.2.w3]
  replace h := adc_inv h; obtain ⟨v74, c74, e74, h⟩ := h
  have zc74 : bv c74 = 0 := by
    refine dead (K := 2 ^ 384) (rest := (2 ^ 64) * (iv v63) + (2 ^ 128) * (iv v66) + (2 ^ 192) * (iv v69) + (2 ^ 256) * (iv v72) + (2 ^ 320) * (iv v74)) (P := (2 ^ 64) * (iv a.2.w1 * iv b.2.w0) + (2 ^ 64) * (iv v55) + (2 ^ 128) * (iv a.2.w1 * iv b.2.w1) + (2 ^ 128) * (iv v57) + (2 ^ 192) * (iv a.2.w1 * iv b.2.w2) + (2 ^ 192) * (iv v59) + (2 ^ 256) * (iv a.2.w1 * iv b.2.w3) + (2 ^ 256) * (iv v60)) (by linear_combination (2 ^ 64) * e62 + (2 ^ 64) * e63 + (2 ^ 128) * e64 + (2 ^ 128) * e65 + (2 ^ 128) * e66 + (2 ^ 192) * e67 + (2 ^ 192) * e68 + (2 ^ 192) * e69 + (2 ^ 256) * e70 + (2 ^ 256) * e71 + (2 ^ 256) * e72 + (2 ^ 320) * e73 + (2 ^ 320) * e74 + (18446744073709551617 * 2 ^ 64) * hf + (-2 ^ 384) * zc73 + (2 ^ 321) * hz) ?_ ?_
    · linarith only [iv_nonneg v63, iv_nonneg v66, iv_nonneg v69, iv_nonneg v72, iv_nonneg v74]
    · linarith only [iv_mul_le a.2.w1 b.2.w0, iv_le v55, iv_mul_le a.2.w1 b.2.w1, iv_le v57, iv_mul_le a.2.w1 b.2.w2, iv_le v59, iv_mul_le a.2.w1 b.2.w3, iv_le v60]
  replace h := mov_inv h
  replace h := xor0_inv h
  replace h := mulx_inv h; obtain ⟨l76, h76, e76, h⟩ := h
  replace h := adc_inv h; obtain ⟨v77, c77, e77, h⟩ := h
  replace h := mov_inv h
  replace h := mulx_inv h; obtain ⟨l78, h78, e78, h⟩ := h
  replace h := adc_inv h; obtain ⟨v79, c79, e79, h⟩ := h
  replace h := adc_inv h; obtain ⟨v80, c80, e80, h⟩ := h
  replace h := mulx_inv h; obtain ⟨l81, h81, e81, h⟩ := h
  replace h := adc_inv h; obtain ⟨v82, c82, e82, h⟩ := h
  replace h := adc_inv h; obtain ⟨v83, c83, e83, h⟩ := h
  replace h := mulx_inv h; obtain ⟨l84, h84, e84, h⟩ := h
  replace h := adc_inv h; obtain ⟨v85, c85, e85, h⟩ := h
  replace h := adc_inv h; obtain ⟨v86, c86, e86, h⟩ := h
  replace h := adc_inv h; obtain ⟨v87, c87, e87, h⟩ := h
  have zc87 : bv c87 = 0 := by
    refine dead (K := 2 ^ 448) (rest := (2 ^ 128) * (iv v77) + (2 ^ 192) * (iv v79) + (2 ^ 256) * (iv v82) + (2 ^ 320) * (iv v85) + (2 ^ 384) * (iv v87)) (P := (2 ^ 128) * (iv a.2.w2 * iv b.2.w0) + (2 ^ 128) * (iv v66) + (2 ^ 192) * (iv a.2.w2 * iv b.2.w1) + (2 ^ 256) * (iv a.2.w2 * iv b.2.w2) + (2 ^ 320) * (iv a.2.w2 * iv b.2.w3)) (by linear_combination (2 ^ 128) * e76 + (2 ^ 128) * e77 + (2 ^ 192) * e78 + (2 ^ 192) * e79 + (2 ^ 256) * e81 + (2 ^ 256) * e82 + (2 ^ 320) * e84 + (2 ^ 320) * e85 + (2 ^ 384) * e87 + (2 ^ 128) * hf + (2 ^ 384) * hz) ?_ ?_
    · linarith only [iv_nonneg v77, iv_nonneg v79, iv_nonneg v82, iv_nonneg v85, iv_nonneg v87]
    · linarith only [iv_mul_le a.2.w2 b.2.w0, iv_le v66, iv_mul_le a.2.w2 b.2.w1, iv_mul_le a.2.w2 b.2.w2, iv_mul_le a.2.w2 b.2.w3]
  replace h := adc_inv h; obtain ⟨v88, c88, e88, h⟩ := h
  have zc88 : bv c88 = 0 := by
    refine dead (K := 2 ^ 448) (rest := (2 ^ 128) * (iv v77) + (2 ^ 192) * (iv v80) + (2 ^ 256) * (iv v83) + (2 ^ 320) * (iv v86) + (2 ^ 384) * (iv v88)) (P := (2 ^ 128) * (iv a.2.w2 * iv b.2.w0) + (2 ^ 128) * (iv v66) + (2 ^ 192) * (iv a.2.w2 * iv b.2.w1) + (2 ^ 192) * (iv v69) + (2 ^ 256) * (iv a.2.w2 * iv b.2.w2) + (2 ^ 256) * (iv v72) + (2 ^ 320) * (iv a.2.w2 * iv b.2.w3) + (2 ^ 320) * (iv v74)) (by linear_combination (2 ^ 128) * e76 + (2 ^ 128) * e77 + (2 ^ 192) * e78 + (2 ^ 192) * e79 + (2 ^ 192) * e80 + (2 ^ 256) * e81 + (2 ^ 256) * e82 + (2 ^ 256) * e83 + (2 ^ 320) * e84 + (2 ^ 320) * e85 + (2 ^ 320) * e86 + (2 ^ 384) * e87 + (2 ^ 384) * e88 + (18446744073709551617 * 2 ^ 128) * hf + (-2 ^ 448) * zc87 + (2 ^ 385) * hz) ?_ ?_
    · linarith only [iv_nonneg v77, iv_nonneg v80, iv_nonneg v83, iv_nonneg v86, iv_nonneg v88]
    · linarith only [iv_mul_le a.2.w2 b.2.w0, iv_le v66, iv_mul_le a.2.w2 b.2.w1, iv_le v69, iv_mul_le a.2.w2 b.2.w2, iv_le v72, iv_mul_le a.2.w2 b.2.w3, iv_le v74]
  replace h := mov_inv h
  replace h := xor0_inv h
  replace h := mulx_inv h; obtain ⟨l90, h90, e90, h⟩ := h
  replace h := adc_inv h; obtain ⟨v91, c91, e91, h⟩ := h
  replace h := mov_inv h
  replace h := mulx_inv h; obtain ⟨l92, h92, e92, h⟩ := h
  replace h := adc_inv h; obtain ⟨v93, c93, e93, h⟩ := h
  replace h := adc_inv h; obtain ⟨v94, c94, e94, h⟩ := h
  replace h := mov_inv h
  replace h := mulx_inv h; obtain ⟨l95, h95, e95, h⟩ := h
  replace h := adc_inv h; obtain ⟨v96, c96, e96, h⟩ := h
  replace h := adc_inv h; obtain ⟨v97, c97, e97, h⟩ := h
  replace h := mov_inv h
  replace h := mulx_inv h; obtain ⟨l98, h98, e98, h⟩ := h
  replace h := adc_inv h; obtain ⟨v99, c99, e99, h⟩ := h
  replace h := adc_inv h; obtain ⟨v100, c100, e100, h⟩ := h
  replace h := mov_inv h
  replace h := adc_inv h; obtain ⟨v101, c101, e101, h⟩ := h
  have zc101 : bv c101 = 0 := by
    refine dead (K := 2 ^ 512) (rest := (2 ^ 192) * (iv v91) + (2 ^ 256) * (iv v93) + (2 ^ 320) * (iv v96) + (2 ^ 384) * (iv v99) + (2 ^ 448) * (iv v101)) (P := (2 ^ 192) * (iv a.2.w3 * iv b.2.w0) + (2 ^ 192) * (iv v80) + (2 ^ 256) * (iv a.2.w3 * iv b.2.w1) + (2 ^ 320) * (iv a.2.w3 * iv b.2.w2) + (2 ^ 384) * (iv a.2.w3 * iv b.2.w3)) (by linear_combination (2 ^ 192) * e90 + (2 ^ 192) * e91 + (2 ^ 256) * e92 + (2 ^ 256) * e93 + (2 ^ 320) * e95 + (2 ^ 320) * e96 + (2 ^ 384) * e98 + (2 ^ 384) * e99 + (2 ^ 448) * e101 + (2 ^ 192) * hf + (2 ^ 448) * hz) ?_ ?_
    · linarith only [iv_nonneg v91, iv_nonneg v93, iv_nonneg v96, iv_nonneg v99, iv_nonneg v101]
    · linarith only [iv_mul_le a.2.w3 b.2.w0, iv_le v80, iv_mul_le a.2.w3 b.2.w1, iv_mul_le a.2.w3 b.2.w2, iv_mul_le a.2.w3 b.2.w3]
  replace h := adc_inv h; obtain ⟨v102, c102, e102, h⟩ := h
  have zc102 : bv c102 = 0 := by
    refine dead (K := 2 ^ 512) (rest := (2 ^ 192) * (iv v91) + (2 ^ 256) * (iv v94) + (2 ^ 320) * (iv v97) + (2 ^ 384) * (iv v100) + (2 ^ 448) * (iv v102)) (P := (2 ^ 192) * (iv a.2.w3 * iv b.2.w0) + (2 ^ 192) * (iv v80) + (2 ^ 256) * (iv a.2.w3 * iv b.2.w1) + (2 ^ 256) * (iv v83) + (2 ^ 320) * (iv a.2.w3 * iv b.2.w2) + (2 ^ 320) * (iv v86) + (2 ^ 384) * (iv a.2.w3 * iv b.2.w3) + (2 ^ 384) * (iv v88)) (by linear_combination (2 ^ 192) * e90 + (2 ^ 192) * e91 + (2 ^ 256) * e92 + (2 ^ 256) * e93 + (2 ^ 256) * e94 + (2 ^ 320) * e95 + (2 ^ 320) * e96 + (2 ^ 320) * e97 + (2 ^ 384) * e98 + (2 ^ 384) * e99 + (2 ^ 384) * e100 + (2 ^ 448) * e101 + (2 ^ 448) * e102 + (18446744073709551617 * 2 ^ 192) * hf + (-2 ^ 512) * zc101 + (2 ^ 449) * hz) ?_ ?_
    · linarith only [iv_nonneg v91, iv_nonneg v94, iv_nonneg v97, iv_nonneg v100, iv_nonneg v102]
    · linarith only [iv_mul_le a.2.w3 b.2.w0, iv_le v80, iv_mul_le a.2.w3 b.2.w1, iv_le v83, iv_mul_le a.2.w3 b.2.w2, iv_le v86, iv_mul_le a.2.w3 b.2.w3, iv_le v88]
  replace h := mov_inv h
  subst h
  simp only [F8.val, F4.val]
  constructor
  · linear_combination (2 ^ 448) * e51 + (-2 ^ 512) * zc51 + (2 ^ 448) * e50 + (-2 ^ 512) * zc50 + (2 ^ 384) * e49 + (2 ^ 384) * e48 + (2 ^ 384) * e47 + (2 ^ 320) * e46 + (2 ^ 320) * e45 + (2 ^ 320) * e44 + (2 ^ 256) * e43 + (2 ^ 256) * e42 + (2 ^ 256) * e41 + (2 ^ 192) * e40 + (2 ^ 192) * e39 + (2 ^ 384) * e37 + (-2 ^ 448) * zc37 + (2 ^ 384) * e36 + (-2 ^ 448) * zc36 + (2 ^ 320) * e35 + (2 ^ 320) * e34 + (2 ^ 320) * e33 + (2 ^ 256) * e32 + (2 ^ 256) * e31 + (2 ^ 256) * e30 + (2 ^ 192) * e29 + (2 ^ 192) * e28 + (2 ^ 192) * e27 + (2 ^ 128) * e26 + (2 ^ 128) * e25 + (2 ^ 320) * e23 + (-2 ^ 384) * zc23 + (2 ^ 320) * e22 + (-2 ^ 384) * zc22 + (2 ^ 256) * e21 + (2 ^ 256) * e20 + (2 ^ 256) * e19 + (2 ^ 192) * e18 + (2 ^ 192) * e17 + (2 ^ 192) * e16 + (2 ^ 128) * e15 + (2 ^ 128) * e14 + (2 ^ 128) * e13 + (2 ^ 64) * e12 + (2 ^ 64) * e11 + (2 ^ 256) * e10 + (-115792089237316195423570985008687907853269984665640564039457584007913129639935 * 2 ^ 64) * zc10 + (2 ^ 192) * e9 + (2 ^ 192) * e8 + (2 ^ 128) * e7 + (2 ^ 128) * e6 + (2 ^ 64) * e5 + (2 ^ 64) * e4 + e2 + (12554203470773361528352143580257209759168353591939024551937 * 2 ^ 256) * hz + (6277101735386680764516354157049543343065998147474990039041 * 2 ^ 64) * hf
  · linear_combination (2 ^ 448) * e102 + (-2 ^ 512) * zc102 + (2 ^ 448) * e101 + (-2 ^ 512) * zc101 + (2 ^ 384) * e100 + (2 ^ 384) * e99 + (2 ^ 384) * e98 + (2 ^ 320) * e97 + (2 ^ 320) * e96 + (2 ^ 320) * e95 + (2 ^ 256) * e94 + (2 ^ 256) * e93 + (2 ^ 256) * e92 + (2 ^ 192) * e91 + (2 ^ 192) * e90 + (2 ^ 384) * e88 + (-2 ^ 448) * zc88 + (2 ^ 384) * e87 + (-2 ^ 448) * zc87 + (2 ^ 320) * e86 + (2 ^ 320) * e85 + (2 ^ 320) * e84 + (2 ^ 256) * e83 + (2 ^ 256) * e82 + (2 ^ 256) * e81 + (2 ^ 192) * e80 + (2 ^ 192) * e79 + (2 ^ 192) * e78 + (2 ^ 128) * e77 + (2 ^ 128) * e76 + (2 ^ 320) * e74 + (-2 ^ 384) * zc74 + (2 ^ 320) * e73 + (-2 ^ 384) * zc73 + (2 ^ 256) * e72 + (2 ^ 256) * e71 + (2 ^ 256) * e70 + (2 ^ 192) * e69 + (2 ^ 192) * e68 + (2 ^ 192) * e67 + (2 ^ 128) * e66 + (2 ^ 128) * e65 + (2 ^ 128) * e64 + (2 ^ 64) * e63 + (2 ^ 64) * e62 + (2 ^ 256) * e60 + (-2 ^ 320) * zc60 + (2 ^ 192) * e59 + (2 ^ 192) * e58 + (2 ^ 128) * e57 + (2 ^ 128) * e56 + (2 ^ 64) * e55 + (2 ^ 64) * e54 + e52 + (12554203470773361528352143580257209759168353591939024551937 * 2 ^ 256) * hz + (3138550867693340382258177078524771671532999073737495019521 * 2 ^ 65) * hf

theorem intmul2_mulx_val (a b : F4 × F4) :
    (intmul2_mulx a b).1.val = a.1.val * b.1.val ∧ (intmul2_mulx a b).2.val = a.2.val * b.2.val := by
  generalize h : intmul2_mulx a b = X
  unfold intmul2_mulx at h
  have hz : iv 0#64 = 0 := rfl
  have hf : bv false = 0 := rfl
  replace h := mov_inv h
  replace h := mulx_inv h; obtain ⟨l1, h1, e1, h⟩ := h
  replace h := mov_inv h
  replace h := mulx_inv h; obtain ⟨l2, h2, e2, h⟩ := h
  replace h := add_inv h; obtain ⟨v3, c3, e3, h⟩ := h
  replace h := mulx_inv h; obtain ⟨l4, h4, e4, h⟩ := h
  replace h := adc_inv h; obtain ⟨v5, c5, e5, h⟩ := h
  replace h := mulx_inv h; obtain ⟨l6, h6, e6, h⟩ := h
  replace h := adc_inv h; obtain ⟨v7, c7, e7, h⟩ := h
  replace h := adc_inv h; obtain ⟨v8, c8, e8, h⟩ := h
  have zc8 : bv c8 = 0 := by
    refine dead (K := 2 ^ 320) (rest := iv l1 + (2 ^ 64) * (iv v3) + (2 ^ 128) * (iv v5) + (2 ^ 192) * (iv v7) + (2 ^ 256) * (iv v8)) (P := iv a.1.w0 * iv b.1.w0 + (2 ^ 64) * (iv a.1.w0 * iv b.1.w1) + (2 ^ 128) * (iv a.1.w0 * iv b.1.w2) + (2 ^ 192) * (iv a.1.w0 * iv b.1.w3)) (by linear_combination e1 + (2 ^ 64) * e2 + (2 ^ 64) * e3 + (2 ^ 128) * e4 + (2 ^ 128) * e5 + (2 ^ 192) * e6 + (2 ^ 192) * e7 + (2 ^ 256) * e8 + (2 ^ 256) * hz) ?_ ?_
    · linarith only [iv_nonneg l1, iv_nonneg v3, iv_nonneg v5, iv_nonneg v7, iv_nonneg v8]
    · linarith only [iv_mul_le a.1.w0 b.1.w0, iv_mul_le a.1.w0 b.1.w1, iv_mul_le a.1.w0 b.1.w2, iv_mul_le a.1.w0 b.1.w3]
  replace h := mov_inv h
  replace h := mulx_inv h; obtain ⟨l9, h9, e9, h⟩ := h
  replace h := add_inv h; obtain ⟨v10, c10, e10, h⟩ := h
  replace h := mov_inv h
  replace h := mulx_inv h; obtain ⟨l11, h11, e11, h⟩ := h
  replace h := adc_inv h; obtain ⟨v12, c12, e12, h⟩ := h
  replace h := mulx_inv h; obtain ⟨l13, h13, e13, h⟩ := h
  replace h := adc_inv h; obtain ⟨v14, c14, e14, h⟩ := h
  replace h := mulx_inv h; obtain ⟨l15, h15, e15, h⟩ := h
  replace h := adc_inv h; obtain ⟨v16, c16, e16, h⟩ := h
  replace h := adc_inv h; obtain ⟨v17, c17, e17, h⟩ := h
  have zc17 : bv c17 = 0 := by
    refine dead (K := 2 ^ 384) (rest := (2 ^ 64) * (iv v10) + (2 ^ 128) * (iv v12) + (2 ^ 192) * (iv v14) + (2 ^ 256) * (iv v16) + (2 ^ 320) * (iv v17)) (P := (2 ^ 64) * (iv a.1.w1 * iv b.1.w0) + (2 ^ 64) * (iv v3) + (2 ^ 128) * (iv a.1.w1 * iv b.1.w1) + (2 ^ 192) * (iv a.1.w1 * iv b.1.w2) + (2 ^ 256) * (iv a.1.w1 * iv b.1.w3)) (by linear_combination (2 ^ 64) * e9 + (2 ^ 64) * e10 + (2 ^ 128) * e11 + (2 ^ 128) * e12 + (2 ^ 192) * e13 + (2 ^ 192) * e14 + (2 ^ 256) * e15 + (2 ^ 256) * e16 + (2 ^ 320) * e17 + (2 ^ 320) * hz) ?_ ?_
    · linarith only [iv_nonneg v10, iv_nonneg v12, iv_nonneg v14, iv_nonneg v16, iv_nonneg v17]
    · linarith only [iv_mul_le a.1.w1 b.1.w0, iv_le v3, iv_mul_le a.1.w1 b.1.w1, iv_mul_le a.1.w1 b.1.w2, iv_mul_le a.1.w1 b.1.w3]
  replace h := add_inv h; obtain ⟨v18, c18, e18, h⟩ := h
  replace h := adc_inv h; obtain ⟨v19, c19, e19, h⟩ := h
  replace h := adc_inv h; obtain ⟨v20, c20, e20, h⟩ := h
  replace h := adc_inv h; obtain ⟨v21, c21, e21, h⟩ := h
  have zc21 : bv c21 = 0 := by
    refine dead (K := 2 ^ 384) (rest := (2 ^ 64) * (iv v10) + (2 ^ 128) * (iv v18) + (2 ^ 192) * (iv v19) + (2 ^ 256) * (iv v20) + (2 ^ 320) * (iv v21)) (P := (2 ^ 64) * (iv a.1.w1 * iv b.1.w0) + (2 ^ 64) * (iv v3) + (2 ^ 128) * (iv a.1.w1 * iv b.1.w1) + (2 ^ 192) * (iv a.1.w1 * iv b.1.w2) + (2 ^ 256) * (iv a.1.w1 * iv b.1.w3) + (2 ^ 128) * (iv v5) + (2 ^ 192) * (iv v7) + (2 ^ 256) * (iv v8)) (by linear_combination (2 ^ 64) * e9 + (2 ^ 64) * e10 + (2 ^ 128) * e11 + (2 ^ 128) * e12 + (2 ^ 192) * e13 + (2 ^ 192) * e14 + (2 ^ 256) * e15 + (2 ^ 256) * e16 + (2 ^ 320) * e17 + (2 ^ 128) * e18 + (2 ^ 192) * e19 + (2 ^ 256) * e20 + (2 ^ 320) * e21 + (-2 ^ 384) * zc17 + (2 ^ 321) * hz) ?_ ?_
    · linarith only [iv_nonneg v10, iv_nonneg v18, iv_nonneg v19, iv_nonneg v20, iv_nonneg v21]
    · linarith only [iv_mul_le a.1.w1 b.1.w0, iv_le v3, iv_mul_le a.1.w1 b.1.w1, iv_mul_le a.1.w1 b.1.w2, iv_mul_le a.1.w1 b.1.w3, iv_le v5, iv_le v7, iv_le v8]
  replace h := mov_inv h
  replace h := mulx_inv h; obtain ⟨l22, h22, e22, h⟩ := h
  replace h := add_inv h; obtain ⟨v23, c23, e23, h⟩ := h
  replace h := mov_inv h
  replace h := mulx_inv h; obtain ⟨l24, h24, e24, h⟩ := h
  replace h := adc_inv h; obtain ⟨v25, c25, e25, h⟩ := h
  replace h := mulx_inv h; obtain ⟨l26, h26, e26, h⟩ := h
  replace h := adc_inv h; obtain ⟨v27, c27, e27, h⟩ := h
  replace h := mulx_inv h; obtain ⟨l28, h28, e28, h⟩ := h
  replace h := adc_inv h; obtain ⟨v29, c29, e29, h⟩ := h
  replace h := adc_inv h; obtain ⟨v30, c30, e30, h⟩ := h
  have zc30 : bv c30 = 0 := by
    refine dead (K := 2 ^ 448) (rest := (2 ^ 128) * (iv v23) + (2 ^ 192) * (iv v25) + (2 ^ 256) * (iv v27) + (2 ^ 320) * (iv v29) + (2 ^ 384) * (iv v30)) (P := (2 ^ 128) * (iv a.1.w2 * iv b.1.w0) + (2 ^ 128) * (iv v18) + (2 ^ 192) * (iv a.1.w2 * iv b.1.w1) + (2 ^ 256) * (iv a.1.w2 * iv b.1.w2) + (2 ^ 320) * (iv a.1.w2 * iv b.1.w3)) (by linear_combination (2 ^ 128) * e22 + (2 ^ 128) * e23 + (2 ^ 192) * e24 + (2 ^ 192) * e25 + (2 ^ 256) * e26 + (2 ^ 256) * e27 + (2 ^ 320) * e28 + (2 ^ 320) * e29 + (2 ^ 384) * e30 + (2 ^ 384) * hz) ?_ ?_
    · linarith only [iv_nonneg v23, iv_nonneg v25, iv_nonneg v27, iv_nonneg v29, iv_nonneg v30]
    · linarith only [iv_mul_le a.1.w2 b.1.w0, iv_le v18, iv_mul_le a.1.w2 b.1.w1, iv_mul_le a.1.w2 b.1.w2, iv_mul_le a.1.w2 b.1.w3]
  replace h := add_inv h; obtain ⟨v31, c31, e31, h⟩ := h
  replace h := adc_inv h; obtain ⟨v32, c32, e32, h⟩ := h
  replace h := adc_inv h; obtain ⟨v33, c33, e33, h⟩ := h
  replace h := adc_inv h; obtain ⟨v34, c34, e34, h⟩ := h
  have zc34 : bv c34 = 0 := by
    refine dead (K := 2 ^ 448) (rest := (2 ^ 128) * (iv v23) + (2 ^ 192) * (iv v31) + (2 ^ 256) * (iv v32) + (2 ^ 320) * (iv v33) + (2 ^ 384) * (iv v34)) (P := (2 ^ 128) * (iv a.1.w2 * iv b.1.w0) + (2 ^ 128) * (iv v18) + (2 ^ 192) * (iv a.1.w2 * iv b.1.w1) + (2 ^ 256) * (iv a.1.w2 * iv b.1.w2) + (2 ^ 320) * (iv a.1.w2 * iv b.1.w3) + (2 ^ 192) * (iv v19) + (2 ^ 256) * (iv v20) + (2 ^ 320) * (iv v21)) (by linear_combination (2 ^ 128) * e22 + (2 ^ 128) * e23 + (2 ^ 192) * e24 + (2 ^ 192) * e25 + (2 ^ 256) * e26 + (2 ^ 256) * e27 + (2 ^ 320) * e28 + (2 ^ 320) * e29 + (2 ^ 384) * e30 + (2 ^ 192) * e31 + (2 ^ 256) * e32 + (2 ^ 320) * e33 + (2 ^ 384) * e34 + (-2 ^ 448) * zc30 + (2 ^ 385) * hz) ?_ ?_
    · linarith only [iv_nonneg v23, iv_nonneg v31, iv_nonneg v32, iv_nonneg v33, iv_nonneg v34]
    · linarith only [iv_mul_le a.1.w2 b.1.w0, iv_le v18, iv_mul_le a.1.w2 b.1.w1, iv_mul_le a.1.w2 b.1.w2, iv_mul_le a.1.w2 b.1.w3, iv_le v19, iv_le v20, iv_le v21]
  replace h := mov_inv h
  replace h := mulx_inv h; obtain ⟨l35, h35, e35, h⟩ := h
  replace h := add_inv h; obtain ⟨v36, c36, e36, h⟩ := h
  replace h := mov_inv h
  replace h := mulx_inv h; obtain ⟨l37, h37, e37, h⟩ := h
  replace h := adc_inv h; obtain ⟨v38, c38, e38, h⟩ := h
  replace h := mulx_inv h; obtain ⟨l39, h39, e39, h⟩ := h
  replace h := adc_inv h; obtain ⟨v40, c40, e40, h⟩ := h
  replace h := mulx_inv h; obtain ⟨l41, h41, e41, h⟩ := h
  replace h := adc_inv h; obtain ⟨v42, c42, e42, h⟩ := h
  replace h := adc_inv h; obtain ⟨v43, c43, e43, h⟩ := h
  have zc43 : bv c43 = 0 := by
    refine dead (K := 2 ^ 512) (rest := (2 ^ 192) * (iv v36) + (2 ^ 256) * (iv v38) + (2 ^ 320) * (iv v40) + (2 ^ 384) * (iv v42) + (2 ^ 448) * (iv v43)) (P := (2 ^ 192) * (iv a.1.w3 * iv b.1.w0) + (2 ^ 192) * (iv v31) + (2 ^ 256) * (iv a.1.w3 * iv b.1.w1) + (2 ^ 320) * (iv a.1.w3 * iv b.1.w2) + (2 ^ 384) * (iv a.1.w3 * iv b.1.w3)) (by linear_combination (2 ^ 192) * e35 + (2 ^ 192) * e36 + (2 ^ 256) * e37 + (2 ^ 256) * e38 + (2 ^ 320) * e39 + (2 ^ 320) * e40 + (2 ^ 384) * e41 + (2 ^ 384) * e42 + (2 ^ 448) * e43 + (2 ^ 448) * hz) ?_ ?_
    · linarith only [iv_nonneg v36, iv_nonneg v38, iv_nonneg v40, iv_nonneg v42, iv_nonneg v43]
    · linarith only [iv_mul_le a.1.w3 b.1.w0, iv_le v31, iv_mul_le a.1.w3 b.1.w1, iv_mul_le a.1.w3 b.1.w2, iv_mul_le a.1.w3 b.1.w3]
  replace h := add_inv h; obtain ⟨v44, c44, e44, h⟩ := h
  replace h := mov_inv h
  replace h := adc_inv h; obtain ⟨v45, c45, e45, h⟩ := h
  replace h := mov_inv h
  replace h := adc_inv h; obtain ⟨v46, c46, e46, h⟩ := h
  replace h := mov_inv h
  replace h := adc_inv h; obtain ⟨v47, c47, e47, h⟩ := h
  have zc47 : bv c47 = 0 := by
    refine dead (K := 2 ^ 512) (rest := (2 ^ 192) * (iv v36) + (2 ^ 256) * (iv v44) + (2 ^ 320) * (iv v45) + (2 ^ 384) * (iv v46) + (2 ^ 448) * (iv v47)) (P := (2 ^ 192) * (iv a.1.w3 * iv b.1.w0) + (2 ^ 192) * (iv v31) + (2 ^ 256) * (iv a.1.w3 * iv b.1.w1) + (2 ^ 320) * (iv a.1.w3 * iv b.1.w2) + (2 ^ 384) * (iv a.1.w3 * iv b.1.w3) + (2 ^ 256) * (iv v32) + (2 ^ 320) * (iv v33) + (2 ^ 384) * (iv v34)) (by linear_combination (2 ^ 192) * e35 + (2 ^ 192) * e36 + (2 ^ 256) * e37 + (2 ^ 256) * e38 + (2 ^ 320) * e39 + (2 ^ 320) * e40 + (2 ^ 384) * e41 + (2 ^ 384) * e42 + (2 ^ 448) * e43 + (2 ^ 256) * e44 + (2 ^ 320) * e45 + (2 ^ 384) * e46 + (2 ^ 448) * e47 + (-2 ^ 512) * zc43 + (2 ^ 449) * hz) ?_ ?_
    · linarith only [iv_nonneg v36, iv_nonneg v44, iv_nonneg v45, iv_nonneg v46, iv_nonneg v47]
    · linarith only [iv_mul_le a.1.w3 b.1.w0, iv_le v31, iv_mul_le a.1.w3 b.1.w1, iv_mul_le a.1.w3 b.1.w2, iv_mul_le a.1.w3 b.1.w3, iv_le v32, iv_le v33, iv_le v34]
  replace h := mov_inv h
  replace h := mov_inv h
  replace h := mulx_inv h; obtain ⟨l48, h48, e48, h⟩ := h
  replace h := mov_inv h
  replace h := mulx_inv h; obtain ⟨l49, h49, e49, h⟩ := h
  replace h := add_inv h; obtain ⟨v50, c50, e50, h⟩ := h
  replace h := mulx_inv h; obtain ⟨l51, h51, e51, h⟩ := h
  replace h := adc_inv h; obtain ⟨v52, c52, e52, h⟩ := h
  replace h := mulx_inv h; obtain ⟨l53, h53, e53, h⟩ := h
  replace h := adc_inv h; obtain ⟨v54, c54, e54, h⟩ := h
  replace h := adc_inv h; obtain ⟨v55, c55, e55, h⟩ := h
  have zc55 : bv c55 = 0 := by
    refine dead (K := 2 ^ 320) (rest := iv l48 + (2 ^ 64) * (iv v50) + (2 ^ 128) * (iv v52) + (2 ^ 192) * (iv v54) + (2 ^ 256) * (iv v55)) (P := iv a.2.w0 * iv b.2.w0 + (2 ^ 64) * (iv a.2.w0 * iv b.2.w1) + (2 ^ 128) * (iv a.2.w0 * iv b.2.w2) + (2 ^ 192) * (iv a.2.w0 * iv b.2.w3)) (by linear_combination e48 + (2 ^ 64) * e49 + (2 ^ 64) * e50 + (2 ^ 128) * e51 + (2 ^ 128) * e52 + (2 ^ 192) * e53 + (2 ^ 192) * e54 + (2 ^ 256) * e55 + (2 ^ 256) * hz) ?_ ?_
    · linarith only [iv_nonneg l48, iv_nonneg v50, iv_nonneg v52, iv_nonneg v54, iv_nonneg v55]
    · linarith only [iv_mul_le a.2.w0 b.2.w0, iv_mul_le a.2.w0 b.2.w1, iv_mul_le a.2.w0 b.2.w2, iv_mul_le a.2.w0 b.2.w3]
  replace h := mov_inv h
  replace h := mulx_inv h; obtain ⟨l56, h56, e56, h⟩ := h
  replace h := add_inv h; obtain ⟨v57, c57, e57, h⟩ := h
  replace h := mov_inv h
  replace h := mulx_inv h; obtain ⟨l58, h58, e58, h⟩ := h
  replace h := adc_inv h; obtain ⟨v59, c59, e59, h⟩ := h
  replace h := mulx_inv h; obtain ⟨l60, h60, e60, h⟩ := h
  replace h := adc_inv h; obtain ⟨v61, c61, e61, h⟩ := h
  replace h := mulx_inv h; obtain ⟨l62, h62, e62, h⟩ := h
  replace h := adc_inv h; obtain ⟨v63, c63, e63, h⟩ := h
  replace h := adc_inv h; obtain ⟨v64, c64, e64, h⟩ := h
  have zc64 : bv c64 = 0 := by
    refine dead (K := 2 ^ 384) (rest := (2 ^ 64) * (iv v57) + (2 ^ 128) * (iv v59) + (2 ^ 192) * (iv v61) + (2 ^ 256) * (iv v63) + (2 ^ 320) * (iv v64)) (P := (2 ^ 64) * (iv a.2.w1 * iv b.2.w0) + (2 ^ 64) * (iv v50) + (2 ^ 128) * (iv a.2.w1 * iv b.2.w1) + (2 ^ 192) * (iv a.2.w1 * iv b.2.w2) + (2 ^ 256) * (iv a.2.w1 * iv b.2.w3)) (by linear_combination (2 ^ 64) * e56 + (2 ^ 64) * e57 + (2 ^ 128) * e58 + (2 ^ 128) * e59 + (2 ^ 192) * e60 + (2 ^ 192) * e61 + (2 ^ 256) * e62 + (2 ^ 256) * e63 + (2 ^ 320) * e64 + (2 ^ 320) * hz) ?_ ?_
    · linarith only [iv_nonneg v57, iv_nonneg v59, iv_nonneg v61, iv_nonneg v63, iv_nonneg v64]
    · linarith only [iv_mul_le a.2.w1 b.2.w0, iv_le v50, iv_mul_le a.2.w1 b.2.w1, iv_mul_le a.2.w1 b.2.w2, iv_mul_le a.2.w1 b.2.w3]
  replace h := add_inv h; obtain ⟨v65, c65, e65, h⟩ := h
  replace h := adc_inv h; obtain ⟨v66, c66, e66, h⟩ := h
  replace h := adc_inv h; obtain ⟨v67, c67, e67, h⟩ := h
  replace h := adc_inv h; obtain ⟨v68, c68, e68, h⟩ := h
  have zc68 : bv c68 = 0 := by
    refine dead (K := 2 ^ 384) (rest := (2 ^ 64) * (iv v57) + (2 ^ 128) * (iv v65) + (2 ^ 192) * (iv v66) + (2 ^ 256) * (iv v67) + (2 ^ 320) * (iv v68)) (P := (2 ^ 64) * (iv a.2.w1 * iv b.2.w0) + (2 ^ 64) * (iv v50) + (2 ^ 128) * (iv a.2.w1 * iv b.2.w1) + (2 ^ 192) * (iv a.2.w1 * iv b.2.w2) + (2 ^ 256) * (iv a.2.w1 * iv b.2.w3) + (2 ^ 128) * (iv v52) + (2 ^ 192) * (iv v54) + (2 ^ 256) * (iv v55)) (by linear_combination (2 ^ 64) * e56 + (2 ^ 64) * e57 + (2 ^ 128) * e58 + (2 ^ 128) * e59 + (2 ^ 192) * e60 + (2 ^ 192) * e61 + (2 ^ 256) * e62 + (2 ^ 256) * e63 + (2 ^ 320) * e64 + (2 ^ 128) * e65 + (2 ^ 192) * e66 + (2 ^ 256) * e67 + (2 ^ 320) * e68 + (-2 ^ 384) * zc64 + (2 ^ 321) * hz) ?_ ?_
    · linarith only [iv_nonneg v57, iv_nonneg v65, iv_nonneg v66, iv_nonneg v67, iv_nonneg v68]
    · linarith only [iv_mul_le a.2.w1 b.2.w0, iv_le v50, iv_mul_le a.2.w1 b.2.w1, iv_mul_le a.2.w1 b.2.w2, iv_mul_le a.2.w1 b.2.w3, iv_le v52, iv_le v54, iv_le v55]
  replace h := mov_inv h
  replace h := mulx_inv h; obtain ⟨l69, h69, e69, h⟩ := h
  replace h := add_inv h; obtain ⟨v70, c70, e70, h⟩ := h
  replace h := mov_inv h
  replace h := mulx_inv h; obtain ⟨l71, h71, e71, h⟩ := h
  replace h := adc_inv h; obtain ⟨v72, c72, e72, h⟩ := h
  replace h := mulx_inv h; obtain ⟨l73, h73, e73, h⟩ := h
  replace h := adc_inv h; obtain ⟨v74, c74, e74, h⟩ := h
  replace h := mulx_inv h; obtain ⟨l75, h75, e75, h⟩ := h
  replace h := adc_inv h; obtain ⟨v76, c76, e76, h⟩ := h
  replace h := adc_inv h; obtain ⟨v77, c77, e77, h⟩ := h
  have zc77 : bv c77 = 0 := by
    refine dead (K := 2 ^ 448) (rest := (2 ^ 128) * (iv v70) + (2 ^ 192) * (iv v72) + (2 ^ 256) * (iv v74) + (2 ^ 320) * (iv v76) + (2 ^ 384) * (iv v77)) (P := (2 ^ 128) * (iv a.2.w2 * iv b.2.w0) + (2 ^ 128) * (iv v65) + (2 ^ 192) * (iv a.2.w2 * iv b.2.w1) + (2 ^ 256) * (iv a.2.w2 * iv b.2.w2) + (2 ^ 320) * (iv a.2.w2 * iv b.2.w3)) (by linear_combination (2 ^ 128) * e69 + (2 ^ 128) * e70 + (2 ^ 192) * e71 + (2 ^ 192) * e72 + (2 ^ 256) * e73 + (2 ^ 256) * e74 + (2 ^ 320) * e75 + (2 ^ 320) * e76 + (2 ^ 384) * e77 + (2 ^ 384) * hz) ?_ ?_
    · linarith only [iv_nonneg v70, iv_nonneg v72, iv_nonneg v74, iv_nonneg v76, iv_nonneg v77]
    · linarith only [iv_mul_le a.2.w2 b.2.w0, iv_le v65, iv_mul_le a.2.w2 b.2.w1, iv_mul_le a.2.w2 b.2.w2, iv_mul_le a.2.w2 b.2.w3]
  replace h := add_inv h; obtain ⟨v78, c78, e78, h⟩ := h
  replace h := adc_inv h; obtain ⟨v79, c79, e79, h⟩ := h
  replace h := adc_inv h; obtain ⟨v80, c80, e80, h⟩ := h
  replace h := adc_inv h; obtain ⟨v81, c81, e81, h⟩ := h
  have zc81 : bv c81 = 0 := by
    refine dead (K := 2 ^ 448) (rest := (2 ^ 128) * (iv v70) + (2 ^ 192) * (iv v78) + (2 ^ 256) * (iv v79) + (2 ^ 320) * (iv v80) + (2 ^ 384) * (iv v81)) (P := (2 ^ 128) * (iv a.2.w2 * iv b.2.w0) + (2 ^ 128) * (iv v65) + (2 ^ 192) * (iv a.2.w2 * iv b.2.w1) + (2 ^ 256) * (iv a.2.w2 * iv b.2.w2) + (2 ^ 320) * (iv a.2.w2 * iv b.2.w3) + (2 ^ 192) * (iv v66) + (2 ^ 256) * (iv v67) + (2 ^ 320) * (iv v68)) (by linear_combination (2 ^ 128) * e69 + (2 ^ 128) * e70 + (2 ^ 192) * e71 + (2 ^ 192) * e72 + (2 ^ 256) * e73 + (2 ^ 256) * e74 + (2 ^ 320) * e75 + (2 ^ 320) * e76 + (2 ^ 384) * e77 + (2 ^ 192) * e78 + (2 ^ 256) * e79 + (2 ^ 320) * e80 + (2 ^ 384) * e81 + (-2 ^ 448) * zc77 + (2 ^ 385) * hz) ?_ ?_
    · linarith only [iv_nonneg v70, iv_nonneg v78, iv_nonneg v79, iv_nonneg v80, iv_nonneg v81]
    · linarith only [iv_mul_le a.2.w2 b.2.w0, iv_le v65, iv_mul_le a.2.w2 b.2.w1, iv_mul_le a.2.w2 b.2.w2, iv_mul_le a.2.w2 b.2.w3, iv_le v66, iv_le v67, iv_le v68]
  replace h := mov_inv h
  replace h := mulx_inv h; obtain ⟨l82, h82, e82, h⟩ := h
  replace h := add_inv h; obtain ⟨v83, c83, e83, h⟩ := h
  replace h := mov_inv h
  replace h := mulx_inv h; obtain ⟨l84, h84, e84, h⟩ := h
  replace h := adc_inv h; obtain ⟨v85, c85, e85, h⟩ := h
  replace h := mulx_inv h; obtain ⟨l86, h86, e86, h⟩ := h
  replace h := adc_inv h; obtain ⟨v87, c87, e87, h⟩ := h
  replace h := mulx_inv h; obtain ⟨l88, h88, e88, h⟩ := h
  replace h := adc_inv h; obtain ⟨v89, c89, e89, h⟩ := h
  replace h := adc_inv h; obtain ⟨v90, c90, e90, h⟩ := h
  have zc90 : bv c90 = 0 := by
    refine dead (K := 2 ^ 512) (rest := (2 ^ 192) * (iv v83) + (2 ^ 256) * (iv v85) + (2 ^ 320) * (iv v87) + (2 ^ 384) * (iv v89) + (2 ^ 448) * (iv v90)) (P := (2 ^ 192) * (iv a.2.w3 * iv b.2.w0) + (2 ^ 192) * (iv v78) + (2 ^ 256) * (iv a.2.w3 * iv b.2.w1) + (2 ^ 320) * (iv a.2.w3 * iv b.2.w2) + (2 ^ 384) * (iv a.2.w3 * iv b.2.w3)) (by linear_combination (2 ^ 192) * e82 + (2 ^ 192) * e83 + (2 ^ 256) * e84 + (2 ^ 256) * e85 + (2 ^ 320) * e86 + (2 ^ 320) * e87 + (2 ^ 384) * e88 + (2 ^ 384) * e89 + (2 ^ 448) * e90 + (2 ^ 448) * hz) ?_ ?_
    · linarith only [iv_nonneg v83, iv_nonneg v85, iv_nonneg v87, iv_nonneg v89, iv_nonneg v90]
    · linarith only [iv_mul_le a.2.w3 b.2.w0, iv_le v78, iv_mul_le a.2.w3 b.2.w1, iv_mul_le a.2.w3 b.2.w2, iv_mul_le a.2.w3 b.2.w3]
  replace h := add_inv h; obtain ⟨v91, c91, e91, h⟩ := h
  replace h := mov_inv h
  replace h := adc_inv h; obtain ⟨v92, c92, e92, h⟩ := h
  replace h := mov_inv h
  replace h := adc_inv h; obtain ⟨v93, c93, e93, h⟩ := h
  replace h := mov_inv h
  replace h := adc_inv h; obtain ⟨v94, c94, e94, h⟩ := h
  have zc94 : bv c94 = 0 := by
    refine dead (K := 2 ^ 512) (rest := (2 ^ 192) * (iv v83) + (2 ^ 256) * (iv v91) + (2 ^ 320) * (iv v92) + (2 ^ 384) * (iv v93) + (2 ^ 448) * (iv v94)) (P := (2 ^ 192) * (iv a.2.w3 * iv b.2.w0) + (2 ^ 192) * (iv v78) + (2 ^ 256) * (iv a.2.w3 * iv b.2.w1) + (2 ^ 320) * (iv a.2.w3 * iv b.2.w2) + (2 ^ 384) * (iv a.2.w3 * iv b.2.w3) + (2 ^ 256) * (iv v79) + (2 ^ 320) * (iv v80) + (2 ^ 384) * (iv v81)) (by linear_combination (2 ^ 192) * e82 + (2 ^ 192) * e83 + (2 ^ 256) * e84 + (2 ^ 256) * e85 + (2 ^ 320) * e86 + (2 ^ 320) * e87 + (2 ^ 384) * e88 + (2 ^ 384) * e89 + (2 ^ 448) * e90 + (2 ^ 256) * e91 + (2 ^ 320) * e92 + (2 ^ 384) * e93 + (2 ^ 448) * e94 + (-2 ^ 512) * zc90 + (2 ^ 449) * hz) ?_ ?_
    · linarith only [iv_nonneg v83, iv_nonneg v91, iv_nonneg v92, iv_nonneg v93, iv_nonneg v94]
    · linarith only [iv_mul_le a.2.w3 b.2.w0, iv_le v78, iv_mul_le a.2.w3 b.2.w1, iv_mul_le a.2.w3 b.2.w2, iv_mul_le a.2.w3 b.2.w3, iv_le v79, iv_le v80, iv_le v81]
  replace h := mov_inv h
  subst h
  simp only [F8.val, F4.val]
  constructor
  · linear_combination (2 ^ 448) * e47 + (-2 ^ 512) * zc47 + (2 ^ 384) * e46 + (2 ^ 320) * e45 + (2 ^ 256) * e44 + (2 ^ 448) * e43 + (-2 ^ 512) * zc43 + (2 ^ 384) * e42 + (2 ^ 384) * e41 + (2 ^ 320) * e40 + (2 ^ 320) * e39 + (2 ^ 256) * e38 + (2 ^ 256) * e37 + (2 ^ 192) * e36 + (2 ^ 192) * e35 + (2 ^ 384) * e34 + (-2 ^ 448) * zc34 + (2 ^ 320) * e33 + (2 ^ 256) * e32 + (2 ^ 192) * e31 + (2 ^ 384) * e30 + (-2 ^ 448) * zc30 + (2 ^ 320) * e29 + (2 ^ 320) * e28 + (2 ^ 256) * e27 + (2 ^ 256) * e26 + (2 ^ 192) * e25 + (2 ^ 192) * e24 + (2 ^ 128) * e23 + (2 ^ 128) * e22 + (2 ^ 320) * e21 + (-2 ^ 384) * zc21 + (2 ^ 256) * e20 + (2 ^ 192) * e19 + (2 ^ 128) * e18 + (2 ^ 320) * e17 + (-2 ^ 384) * zc17 + (2 ^ 256) * e16 + (2 ^ 256) * e15 + (2 ^ 192) * e14 + (2 ^ 192) * e13 + (2 ^ 128) * e12 + (2 ^ 128) * e11 + (2 ^ 64) * e10 + (2 ^ 64) * e9 + (2 ^ 256) * e8 + (-2 ^ 320) * zc8 + (2 ^ 192) * e7 + (2 ^ 192) * e6 + (2 ^ 128) * e5 + (2 ^ 128) * e4 + (2 ^ 64) * e3 + (2 ^ 64) * e2 + e1 + (12554203470773361528352143580257209759168353591939024551937 * 2 ^ 256) * hz
  · linear_combination (2 ^ 448) * e94 + (-2 ^ 512) * zc94 + (2 ^ 384) * e93 + (2 ^ 320) * e92 + (2 ^ 256) * e91 + (2 ^ 448) * e90 + (-2 ^ 512) * zc90 + (2 ^ 384) * e89 + (2 ^ 384) * e88 + (2 ^ 320) * e87 + (2 ^ 320) * e86 + (2 ^ 256) * e85 + (2 ^ 256) * e84 + (2 ^ 192) * e83 + (2 ^ 192) * e82 + (2 ^ 384) * e81 + (-2 ^ 448) * zc81 + (2 ^ 320) * e80 + (2 ^ 256) * e79 + (2 ^ 192) * e78 + (2 ^ 384) * e77 + (-2 ^ 448) * zc77 + (2 ^ 320) * e76 + (2 ^ 320) * e75 + (2 ^ 256) * e74 + (2 ^ 256) * e73 + (2 ^ 192) * e72 + (2 ^ 192) * e71 + (2 ^ 128) * e70 + (2 ^ 128) * e69 + (2 ^ 320) * e68 + (-2 ^ 384) * zc68 + (2 ^ 256) * e67 + (2 ^ 192) * e66 + (2 ^ 128) * e65 + (2 ^ 320) * e64 + (-2 ^ 384) * zc64 + (2 ^ 256) * e63 + (2 ^ 256) * e62 + (2 ^ 192) * e61 + (2 ^ 192) * e60 + (2 ^ 128) * e59 + (2 ^ 128) * e58 + (2 ^ 64) * e57 + (2 ^ 64) * e56 + (2 ^ 256) * e55 + (-2 ^ 320) * zc55 + (2 ^ 192) * e54 + (2 ^ 192) * e53 + (2 ^ 128) * e52 + (2 ^ 128) * e51 + (2 ^ 64) * e50 + (2 ^ 64) * e49 + e48 + (12554203470773361528352143580257209759168353591939024551937 * 2 ^ 256) * hz

theorem intmul2_mulq_val (a b : F4 × F4) :
    (intmul2_mulq a b).1.val = a.1.val * b.1.val ∧ (intmul2_mulq a b).2.val = a.2.val * b.2.val := by
  generalize h : intmul2_mulq a b = X
  unfold intmul2_mulq at h
  have hz : iv 0#64 = 0 := rfl
  have hf : bv false = 0 := rfl
  replace h := mov_inv h
  replace h := mov_inv h
  replace h := mulx_inv h; obtain ⟨l1, h1, e1, h⟩ := h
  replace h := mov_inv h
  replace h := mov_inv h
  replace h := mov_inv h
  replace h := mulx_inv h; obtain ⟨l2, h2, e2, h⟩ := h
  replace h := mov_inv h
  replace h := mov_inv h
  replace h := mov_inv h
  replace h := mulx_inv h; obtain ⟨l3, h3, e3, h⟩ := h
  replace h := mov_inv h
  replace h := mov_inv h
  replace h := mov_inv h
  replace h := mulx_inv h; obtain ⟨l4, h4, e4, h⟩ := h
  replace h := add_inv h; obtain ⟨v5, c5, e5, h⟩ := h
  replace h := adc_inv h; obtain ⟨v6, c6, e6, h⟩ := h
  replace h := adc_inv h; obtain ⟨v7, c7, e7, h⟩ := h
  replace h := adc_inv h; obtain ⟨v8, c8, e8, h⟩ := h
  have zc8 : bv c8 = 0 := by
    refine dead (K := 2 ^ 320) (rest := iv l1 + (2 ^ 64) * (iv v5) + (2 ^ 128) * (iv v6) + (2 ^ 192) * (iv v7) + (2 ^ 256) * (iv v8)) (P := iv b.1.w0 * iv a.1.w0 + (2 ^ 64) * (iv b.1.w1 * iv a.1.w0) + (2 ^ 128) * (iv b.1.w2 * iv a.1.w0) + (2 ^ 192) * (iv b.1.w3 * iv a.1.w0)) (by linear_combination e1 + (2 ^ 64) * e2 + (2 ^ 128) * e3 + (2 ^ 192) * e4 + (2 ^ 64) * e5 + (2 ^ 128) * e6 + (2 ^ 192) * e7 + (2 ^ 256) * e8 + (2 ^ 256) * hz) ?_ ?_
    · linarith only [iv_nonneg l1, iv_nonneg v5, iv_nonneg v6, iv_nonneg v7, iv_nonneg v8]
    · linarith only [iv_mul_le b.1.w0 a.1.w0, iv_mul_le b.1.w1 a.1.w0, iv_mul_le b.1.w2 a.1.w0, iv_mul_le b.1.w3 a.1.w0]
  replace h := mov_inv h
  replace h := mov_inv h
  replace h := mov_inv h
  replace h := mulx_inv h; obtain ⟨l9, h9, e9, h⟩ := h
  replace h := mov_inv h
  replace h := mov_inv h
  replace h := mov_inv h
  replace h := mulx_inv h; obtain ⟨l10, h10, e10, h⟩ := h
  replace h := mov_inv h
  replace h := add_inv h; obtain ⟨v11, c11, e11, h⟩ := h
  replace h := mov_inv h
  replace h := adc_inv h; obtain ⟨v12, c12, e12, h⟩ := h
  replace h := adc_inv h; obtain ⟨v13, c13, e13, h⟩ := h
  have zc13 : bv c13 = 0 := by
    refine dead (K := 2 ^ 256) (rest := (2 ^ 64) * (iv v11) + (2 ^ 128) * (iv v12) + (2 ^ 192) * (iv v13)) (P := (2 ^ 64) * (iv b.1.w0 * iv a.1.w1) + (2 ^ 128) * (iv b.1.w1 * iv a.1.w1) + (2 ^ 64) * (iv v5)) (by linear_combination (2 ^ 64) * e9 + (2 ^ 128) * e10 + (2 ^ 64) * e11 + (2 ^ 128) * e12 + (2 ^ 192) * e13 + (2 ^ 192) * hz) ?_ ?_
    · linarith only [iv_nonneg v11, iv_nonneg v12, iv_nonneg v13]
    · linarith only [iv_mul_le b.1.w0 a.1.w1, iv_mul_le b.1.w1 a.1.w1, iv_le v5]
  replace h := mov_inv h
  replace h := mulx_inv h; obtain ⟨l14, h14, e14, h⟩ := h
  replace h := mov_inv h
  replace h := mov_inv h
  replace h := mov_inv h
  replace h := mulx_inv h; obtain ⟨l15, h15, e15, h⟩ := h
  replace h := add_inv h; obtain ⟨v16, c16, e16, h⟩ := h
  replace h := adc_inv h; obtain ⟨v17, c17, e17, h⟩ := h
  replace h := adc_inv h; obtain ⟨v18, c18, e18, h⟩ := h
  have zc18 : bv c18 = 0 := by
    refine dead (K := 2 ^ 384) (rest := (2 ^ 192) * (iv v16) + (2 ^ 256) * (iv v17) + (2 ^ 320) * (iv v18)) (P := (2 ^ 192) * (iv b.1.w2 * iv a.1.w1) + (2 ^ 256) * (iv b.1.w3 * iv a.1.w1) + (2 ^ 192) * (iv v13)) (by linear_combination (2 ^ 192) * e14 + (2 ^ 256) * e15 + (2 ^ 192) * e16 + (2 ^ 256) * e17 + (2 ^ 320) * e18 + (2 ^ 320) * hz) ?_ ?_
    · linarith only [iv_nonneg v16, iv_nonneg v17, iv_nonneg v18]
    · linarith only [iv_mul_le b.1.w2 a.1.w1, iv_mul_le b.1.w3 a.1.w1, iv_le v13]
  replace h := add_inv h; obtain ⟨v19, c19, e19, h⟩ := h
  replace h := adc_inv h; obtain ⟨v20, c20, e20, h⟩ := h
  replace h := adc_inv h; obtain ⟨v21, c21, e21, h⟩ := h
  replace h := adc_inv h; obtain ⟨v22, c22, e22, h⟩ := h
  have zc22 : bv c22 = 0 := by
    refine dead (K := 2 ^ 384) (rest := (2 ^ 64) * (iv v11) + (2 ^ 128) * (iv v19) + (2 ^ 192) * (iv v20) + (2 ^ 256) * (iv v21) + (2 ^ 320) * (iv v22)) (P := (2 ^ 64) * (iv b.1.w0 * iv a.1.w1) + (2 ^ 128) * (iv b.1.w1 * iv a.1.w1) + (2 ^ 64) * (iv v5) + (2 ^ 192) * (iv b.1.w2 * iv a.1.w1) + (2 ^ 256) * (iv b.1.w3 * iv a.1.w1) + (2 ^ 128) * (iv v6) + (2 ^ 192) * (iv v7) + (2 ^ 256) * (iv v8)) (by linear_combination (2 ^ 64) * e9 + (2 ^ 128) * e10 + (2 ^ 64) * e11 + (2 ^ 128) * e12 + (2 ^ 192) * e13 + (2 ^ 192) * e14 + (2 ^ 256) * e15 + (2 ^ 192) * e16 + (2 ^ 256) * e17 + (2 ^ 320) * e18 + (2 ^ 128) * e19 + (2 ^ 192) * e20 + (2 ^ 256) * e21 + (2 ^ 320) * e22 + (-2 ^ 256) * zc13 + (680564733841876926926749214863536422913 * 2 ^ 192) * hz + (-2 ^ 384) * zc18) ?_ ?_
    · linarith only [iv_nonneg v11, iv_nonneg v19, iv_nonneg v20, iv_nonneg v21, iv_nonneg v22]
    · linarith only [iv_mul_le b.1.w0 a.1.w1, iv_mul_le b.1.w1 a.1.w1, iv_le v5, iv_mul_le b.1.w2 a.1.w1, iv_mul_le b.1.w3 a.1.w1, iv_le v6, iv_le v7, iv_le v8]
  replace h := mov_inv h
  replace h := mov_inv h
  replace h := mov_inv h
  replace h := mulx_inv h; obtain ⟨l23, h23, e23, h⟩ := h
  replace h := mov_inv h
  replace h := mov_inv h
  replace h := mov_inv h
  replace h := mulx_inv h; obtain ⟨l24, h24, e24, h⟩ := h
  replace h := mov_inv h
  replace h := add_inv h; obtain ⟨v25, c25, e25, h⟩ := h
  replace h := mov_inv h
  replace h := adc_inv h; obtain ⟨v26, c26, e26, h⟩ := h
  replace h := adc_inv h; obtain ⟨v27, c27, e27, h⟩ := h
  have zc27 : bv c27 = 0 := by
    refine dead (K := 2 ^ 320) (rest := (2 ^ 128) * (iv v25) + (2 ^ 192) * (iv v26) + (2 ^ 256) * (iv v27)) (P := (2 ^ 128) * (iv b.1.w0 * iv a.1.w2) + (2 ^ 192) * (iv b.1.w1 * iv a.1.w2) + (2 ^ 128) * (iv v19)) (by linear_combination (2 ^ 128) * e23 + (2 ^ 192) * e24 + (2 ^ 128) * e25 + (2 ^ 192) * e26 + (2 ^ 256) * e27 + (2 ^ 256) * hz) ?_ ?_
    · linarith only [iv_nonneg v25, iv_nonneg v26, iv_nonneg v27]
    · linarith only [iv_mul_le b.1.w0 a.1.w2, iv_mul_le b.1.w1 a.1.w2, iv_le v19]
  replace h := mov_inv h
  replace h := mulx_inv h; obtain ⟨l28, h28, e28, h⟩ := h
  replace h := mov_inv h
  replace h := mov_inv h
  replace h := mov_inv h
  replace h := mulx_inv h; obtain ⟨l29, h29, e29, h⟩ := h
  replace h := add_inv h; obtain ⟨v30, c30, e30, h⟩ := h
  replace h := adc_inv h; obtain ⟨v31, c31, e31, h⟩ := h
  replace h := adc_inv h; obtain ⟨v32, c32, e32, h⟩ := h
  have zc32 : bv c32 = 0 := by
    refine dead (K := 2 ^ 448) (rest := (2 ^ 256) * (iv v30) + (2 ^ 320) * (iv v31) + (2 ^ 384) * (iv v32)) (P := (2 ^ 256) * (iv b.1.w2 * iv a.1.w2) + (2 ^ 320) * (iv b.1.w3 * iv a.1.w2) + (2 ^ 256) * (iv v27)) (by linear_combination (2 ^ 256) * e28 + (2 ^ 320) * e29 + (2 ^ 256) * e30 + (2 ^ 320) * e31 + (2 ^ 384) * e32 + (2 ^ 384) * hz) ?_ ?_
    · linarith only [iv_nonneg v30, iv_nonneg v31, iv_nonneg v32]
    · linarith only [iv_mul_le b.1.w2 a.1.w2, iv_mul_le b.1.w3 a.1.w2, iv_le v27]
  replace h := add_inv h; obtain ⟨v33, c33, e33, h⟩ := h
  replace h := adc_inv h; obtain ⟨v34, c34, e34, h⟩ := h
  replace h := adc_inv h; obtain ⟨v35, c35, e35, h⟩ := h
  replace h := adc_inv h; obtain ⟨v36, c36, e36, h⟩ := h
  have zc36 : bv c36 = 0 := by
    refine dead (K := 2 ^ 448) (rest := (2 ^ 128) * (iv v25) + (2 ^ 192) * (iv v33) + (2 ^ 256) * (iv v34) + (2 ^ 320) * (iv v35) + (2 ^ 384) * (iv v36)) (P := (2 ^ 128) * (iv b.1.w0 * iv a.1.w2) + (2 ^ 192) * (iv b.1.w1 * iv a.1.w2) + (2 ^ 128) * (iv v19) + (2 ^ 256) * (iv b.1.w2 * iv a.1.w2) + (2 ^ 320) * (iv b.1.w3 * iv a.1.w2) + (2 ^ 192) * (iv v20) + (2 ^ 256) * (iv v21) + (2 ^ 320) * (iv v22)) (by linear_combination (2 ^ 128) * e23 + (2 ^ 192) * e24 + (2 ^ 128) * e25 + (2 ^ 192) * e26 + (2 ^ 256) * e27 + (2 ^ 256) * e28 + (2 ^ 320) * e29 + (2 ^ 256) * e30 + (2 ^ 320) * e31 + (2 ^ 384) * e32 + (2 ^ 192) * e33 + (2 ^ 256) * e34 + (2 ^ 320) * e35 + (2 ^ 384) * e36 + (-2 ^ 320) * zc27 + (680564733841876926926749214863536422913 * 2 ^ 256) * hz + (-2 ^ 448) * zc32) ?_ ?_
    · linarith only [iv_nonneg v25, iv_nonneg v33, iv_nonneg v34, iv_nonneg v35, iv_nonneg v36]
    · linarith only [iv_mul_le b.1.w0 a.1.w2, iv_mul_le b.1.w1 a.1.w2, iv_le v19, iv_mul_le b.1.w2 a.1.w2, iv_mul_le b.1.w3 a.1.w2, iv_le v20, iv_le v21, iv_le v22]
  replace h := mov_inv h
  replace h := mov_inv h
  replace h := mov_inv h
  replace h := mulx_inv h; obtain ⟨l37, h37, e37, h⟩ := h
  replace h := mov_inv h
  replace h := mov_inv h
  replace h := mov_inv h
  replace h := mulx_inv h; obtain ⟨l38, h38, e38, h⟩ := h
  replace h := mov_inv h
  replace h := add_inv h; obtain ⟨v39, c39, e39, h⟩ := h
  replace h := mov_inv h
  replace h := adc_inv h; obtain ⟨v40, c40, e40, h⟩ := h
  replace h := adc_inv h; obtain ⟨v41, c41, e41, h⟩ := h
  have zc41 : bv c41 = 0 := by
    refine dead (K := 2 ^ 384) (rest := (2 ^ 192) * (iv v39) + (2 ^ 256) * (iv v40) + (2 ^ 320) * (iv v41)) (P := (2 ^ 192) * (iv b.1.w0 * iv a.1.w3) + (2 ^ 256) * (iv b.1.w1 * iv a.1.w3) + (2 ^ 192) * (iv v33)) (by linear_combination (2 ^ 192) * e37 + (2 ^ 256) * e38 + (2 ^ 192) * e39 + (2 ^ 256) * e40 + (2 ^ 320) * e41 + (2 ^ 320) * hz) ?_ ?_
    · linarith only [iv_nonneg v39, iv_nonneg v40, iv_nonneg v41]
    · linarith only [iv_mul_le b.1.w0 a.1.w3, iv_mul_le b.1.w1 a.1.w3, iv_le v33]
  replace h := mov_inv h
  replace h := mulx_inv h; obtain ⟨l42, h42, e42, h⟩ := h
  replace h := mov_inv h
  replace h := mov_inv h
  replace h := mov_inv h
  replace h := mulx_inv h; obtain ⟨l43, h43, e43, h⟩ := h
  replace h := add_inv h; obtain ⟨v44, c44, e44, h⟩ := h
  replace h := adc_inv h; obtain ⟨v45, c45, e45, h⟩ := h
  replace h := adc_inv h; obtain ⟨v46, c46, e46, h⟩ := h
  have zc46 : bv c46 = 0 := by
    refine dead (K := 2 ^ 512) (rest := (2 ^ 320) * (iv v44) + (2 ^ 384) * (iv v45) + (2 ^ 448) * (iv v46)) (P := (2 ^ 320) * (iv b.1.w2 * iv a.1.w3) + (2 ^ 384) * (iv b.1.w3 * iv a.1.w3) + (2 ^ 320) * (iv v41)) (by linear_combination (2 ^ 320) * e42 + (2 ^ 384) * e43 + (2 ^ 320) * e44 + (2 ^ 384) * e45 + (2 ^ 448) * e46 + (2 ^ 448) * hz) ?_ ?_
    · linarith only [iv_nonneg v44, iv_nonneg v45, iv_nonneg v46]
    · linarith only [iv_mul_le b.1.w2 a.1.w3, iv_mul_le b.1.w3 a.1.w3, iv_le v41]
  replace h := add_inv h; obtain ⟨v47, c47, e47, h⟩ := h
  replace h := mov_inv h
  replace h := adc_inv h; obtain ⟨v48, c48, e48, h⟩ := h
  replace h := mov_inv h
  replace h := adc_inv h; obtain ⟨v49, c49, e49, h⟩ := h
  replace h := mov_inv h
  replace h := adc_inv h; obtain ⟨v50, c50, e50, h⟩ := h
  have zc50 : bv c50 = 0 := by
    refine dead (K := 2 ^ 512) (rest := (2 ^ 192) * (iv v39) + (2 ^ 256) * (iv v47) + (2 ^ 320) * (iv v48) + (2 ^ 384) * (iv v49) + (2 ^ 448) * (iv v50)) (P := (2 ^ 192) * (iv b.1.w0 * iv a.1.w3) + (2 ^ 256) * (iv b.1.w1 * iv a.1.w3) + (2 ^ 192) * (iv v33) + (2 ^ 320) * (iv b.1.w2 * iv a.1.w3) + (2 ^ 384) * (iv b.1.w3 * iv a.1.w3) + (2 ^ 256) * (iv v34) + (2 ^ 320) * (iv v35) + (2 ^ 384) * (iv v36)) (by linear_combination (2 ^ 192) * e37 + (2 ^ 256) * e38 + (2 ^ 192) * e39 + (2 ^ 256) * e40 + (2 ^ 320) * e41 + (2 ^ 320) * e42 + (2 ^ 384) * e43 + (2 ^ 320) * e44 + (2 ^ 384) * e45 + (2 ^ 448) * e46 + (2 ^ 256) * e47 + (2 ^ 320) * e48 + (2 ^ 384) * e49 + (2 ^ 448) * e50 + (-2 ^ 384) * zc41 + (680564733841876926926749214863536422913 * 2 ^ 320) * hz + (-2 ^ 512) * zc46) ?_ ?_
    · linarith only [iv_nonneg v39, iv_nonneg v47, iv_nonneg v48, iv_nonneg v49, iv_nonneg v50]
    · linarith only [iv_mul_le b.1.w0 a.1.w3, iv_mul_le b.1.w1 a.1.w3, iv_le v33, iv_mul_le b.1.w2 a.1.w3, iv_mul_le b.1.w3 a.1.w3, iv_le v34, iv_le v35, iv_le v36]
  replace h := mov_inv h
  replace h := mov_inv h
  replace h := mov_inv h
  replace h := mulx_inv h; obtain ⟨l51, h51, e51, h⟩ := h
  replace h := mov_inv h
  replace h := mov_inv h
  replace h := mov_inv h
  replace h := mulx_inv h; obtain ⟨l52, h52, e52, h⟩ := h
  replace h := mov_inv h
  replace h := mov_inv h
  replace h := mov_inv h
  replace h := mulx_inv h; obtain ⟨l53, h53, e53, h⟩ := h
  replace h := mov_inv h
  replace h := mov_inv h
  replace h := mov_inv h
  replace h := mulx_inv h; obtain ⟨l54, h54, e54, h⟩ := h
  replace h := add_inv h; obtain ⟨v55, c55, e55, h⟩ := h
  replace h := adc_inv h; obtain ⟨v56, c56, e56, h⟩ := h
  replace h := adc_inv h; obtain ⟨v57, c57, e57, h⟩ := h
  replace h := adc_inv h; obtain ⟨v58, c58, e58, h⟩ := h
  have zc58 : bv c58 = 0 := by
    refine dead (K := 2 ^ 320) (rest := iv l51 + (2 ^ 64) * (iv v55) + (2 ^ 128) * (iv v56) + (2 ^ 192) * (iv v57) + (2 ^ 256) * (iv v58)) (P := iv b.2.w0 * iv a.2.w0 + (2 ^ 64) * (iv b.2.w1 * iv a.2.w0) + (2 ^ 128) * (iv b.2.w2 * iv a.2.w0) + (2 ^ 192) * (iv b.2.w3 * iv a.2.w0)) (by linear_combination e51 + (2 ^ 64) * e52 + (2 ^ 128) * e53 + (2 ^ 192) * e54 + (2 ^ 64) * e55 + (2 ^ 128) * e56 + (2 ^ 192) * e57 + (2 ^ 256) * e58 + (2 ^ 256) * hz) ?_ ?_
    · linarith only [iv_nonneg l51, iv_nonneg v55, iv_nonneg v56, iv_nonneg v57, iv_nonneg v58]
    · linarith only [iv_mul_le b.2.w0 a.2.w0, iv_mul_le b.2.w1 a.2.w0, iv_mul_le b.2.w2 a.2.w0, iv_mul_le b.2.w3 a.2.w0]
  replace h := mov_inv h
  replace h := mov_inv h
  replace h := mov_inv h
  replace h := mulx_inv h; obtain ⟨l59, h59, e59, h⟩ := h
  replace h := mov_inv h
  replace h := mov_inv h
  replace h := mov_inv h
  replace h := mulx_inv h; obtain ⟨l60, h60, e60, h⟩ := h
  replace h := mov_inv h
  replace h := add_inv h; obtain ⟨v61, c61, e61, h⟩ := h
  replace h := mov_inv h
  replace h := adc_inv h; obtain ⟨v62, c62, e62, h⟩ := h
  replace h := adc_inv h; obtain ⟨v63, c63, e63, h⟩ := h
  have zc63 : bv c63 = 0 := by
    refine dead (K := 2 ^ 256) (rest := (2 ^ 64) * (iv v61) + (2 ^ 128) * (iv v62) + (2 ^ 192) * (iv v63)) (P := (2 ^ 64) * (iv b.2.w0 * iv a.2.w1) + (2 ^ 128) * (iv b.2.w1 * iv a.2.w1) + (2 ^ 64) * (iv v55)) (by linear_combination (2 ^ 64) * e59 + (2 ^ 128) * e60 + (2 ^ 64) * e61 + (2 ^ 128) * e62 + (2 ^ 192) * e63 + (2 ^ 192) * hz) ?_ ?_
    · linarith only [iv_nonneg v61, iv_nonneg v62, iv_nonneg v63]
    · linarith only [iv_mul_le b.2.w0 a.2.w1, iv_mul_le b.2.w1 a.2.w1, iv_le v55]
  replace h := mov_inv h
  replace h := mulx_inv h; obtain ⟨l64, h64, e64, h⟩ := h
  replace h := mov_inv h
  replace h := mov_inv h
  replace h := mov_inv h
  replace h := mulx_inv h; obtain ⟨l65, h65, e65, h⟩ := h
  replace h := add_inv h; obtain ⟨v66, c66, e66, h⟩ := h
  replace h := adc_inv h; obtain ⟨v67, c67, e67, h⟩ := h
  replace h := adc_inv h; obtain ⟨v68, c68, e68, h⟩ := h
  have zc68 : bv c68 = 0 := by
    refine dead (K := 2 ^ 384) (rest := (2 ^ 192) * (iv v66) + (2 ^ 256) * (iv v67) + (2 ^ 320) * (iv v68)) (P := (2 ^ 192) * (iv b.2.w2 * iv a.2.w1) + (2 ^ 256) * (iv b.2.w3 * iv a.2.w1) + (2 ^ 192) * (iv v63)) (by linear_combination (2 ^ 192) * e64 + (2 ^ 256) * e65 + (2 ^ 192) * e66 + (2 ^ 256) * e67 + (2 ^ 320) * e68 + (2 ^ 320) * hz) ?_ ?_
    · linarith only [iv_nonneg v66, iv_nonneg v67, iv_nonneg v68]
    · linarith only [iv_mul_le b.2.w2 a.2.w1, iv_mul_le b.2.w3 a.2.w1, iv_le v63]
  replace h := add_inv h; obtain ⟨v69, c69, e69, h⟩ := h
  replace h := adc_inv h; obtain ⟨v70, c70, e70, h⟩ := h
  replace h := adc_inv h; obtain ⟨v71, c71, e71, h⟩ := h
  replace h := adc_inv h; obtain ⟨v72, c72, e72, h⟩ := h
  have zc72 : bv c72 = 0 := by
    refine dead (K := 2 ^ 384) (rest := (2 ^ 64) * (iv v61) + (2 ^ 128) * (iv v69) + (2 ^ 192) * (iv v70) + (2 ^ 256) * (iv v71) + (2 ^ 320) * (iv v72)) (P := (2 ^ 64) * (iv b.2.w0 * iv a.2.w1) + (2 ^ 128) * (iv b.2.w1 * iv a.2.w1) + (2 ^ 64) * (iv v55) + (2 ^ 192) * (iv b.2.w2 * iv a.2.w1) + (2 ^ 256) * (iv b.2.w3 * iv a.2.w1) + (2 ^ 128) * (iv v56) + (2 ^ 192) * (iv v57) + (2 ^ 256) * (iv v58)) (by linear_combination (2 ^ 64) * e59 + (2 ^ 128) * e60 + (2 ^ 64) * e61 + (2 ^ 128) * e62 + (2 ^ 192) * e63 + (2 ^ 192) * e64 + (2 ^ 256) * e65 + (2 ^ 192) * e66 + (2 ^ 256) * e67 + (2 ^ 320) * e68 + (2 ^ 128) * e69 + (2 ^ 192) * e70 + (2 ^ 256) * e71 + (2 ^ 320) * e72 + (-2 ^ 256) * zc63 + (680564733841876926926749214863536422913 * 2 ^ 192) * hz + (-2 ^ 384) * zc68) ?_ ?_
    · linarith only [iv_nonneg v61, iv_nonneg v69, iv_nonneg v70, iv_nonneg v71, iv_nonneg v72]
    · linarith only [iv_mul_le b.2.w0 a.2.w1, iv_mul_le b.2.w1 a.2.w1, iv_le v55, iv_mul_le b.2.w2 a.2.w1, iv_mul_le b.2.w3 a.2.w1, iv_le v56, iv_le v57, iv_le v58]
  replace h := mov_inv h
  replace h := mov_inv h
  replace h := mov_inv h
  replace h := mulx_inv h; obtain ⟨l73, h73, e73, h⟩ := h
  replace h := mov_inv h
  replace h := mov_inv h
  replace h := mov_inv h
  replace h := mulx_inv h; obtain ⟨l74, h74, e74, h⟩ := h
  replace h := mov_inv h
  replace h := add_inv h; obtain ⟨v75, c75, e75, h⟩ := h
  replace h := mov_inv h
  replace h := adc_inv h; obtain ⟨v76, c76, e76, h⟩ := h
  replace h := adc_inv h; obtain ⟨v77, c77, e77, h⟩ := h
  have zc77 : bv c77 = 0 := by
    refine dead (K := 2 ^ 320) (rest := (2 ^ 128) * (iv v75) + (2 ^ 192) * (iv v76) + (2 ^ 256) * (iv v77)) (P := (2 ^ 128) * (iv b.2.w0 * iv a.2.w2) + (2 ^ 192) * (iv b.2.w1 * iv a.2.w2) + (2 ^ 128) * (iv v69)) (by linear_combination (2 ^ 128) * e73 + (2 ^ 192) * e74 + (2 ^ 128) * e75 + (2 ^ 192) * e76 + (2 ^ 256) * e77 + (2 ^ 256) * hz) ?_ ?_
    · linarith only [iv_nonneg v75, iv_nonneg v76, iv_nonneg v77]
    · linarith only [iv_mul_le b.2.w0 a.2.w2, iv_mul_le b.2.w1 a.2.w2, iv_le v69]
  replace h := mov_inv h
  replace h := mulx_inv h; obtain ⟨l78, h78, e78, h⟩ := h
  replace h := mov_inv h
  replace h := mov_inv h
  replace h := mov_inv h
  replace h := mulx_inv h; obtain ⟨l79, h79, e79, h⟩ := h
  replace h := add_inv h; obtain ⟨v80, c80, e80, h⟩ := h
  replace h := adc_inv h; obtain ⟨v81, c81, e81, h⟩ := h
  replace h := adc_inv h; obtain ⟨v82, c82, e82, h⟩ := h
  have zc82 : bv c82 = 0 := by
    refine dead (K := 2 ^ 448) (rest := (2 ^ 256) * (iv v80) + (2 ^ 320) * (iv v81) + (2 ^ 384) * (iv v82)) (P := (2 ^ 256) * (iv b.2.w2 * iv a.2.w2) + (2 ^ 320) * (iv b.2.w3 * iv a.2.w2) + (2 ^ 256) * (iv v77)) (by linear_combination (2 ^ 256) * e78 + (2 ^ 320) * e79 + (2 ^ 256) * e80 + (2 ^ 320) * e81 + (2 ^ 384) * e82 + (2 ^ 384) * hz) ?_ ?_
    · linarith only [iv_nonneg v80, iv_nonneg v81, iv_nonneg v82]
    · linarith only [iv_mul_le b.2.w2 a.2.w2, iv_mul_le b.2.w3 a.2.w2, iv_le v77]
  replace h := add_inv h; obtain ⟨v83, c83, e83, h⟩ := h
  replace h := adc_inv h; obtain ⟨v84, c84, e84, h⟩ := h
  replace h := adc_inv h; obtain ⟨v85, c85, e85, h⟩ := h
  replace h := adc_inv h; obtain ⟨v86, c86, e86, h⟩ := h
  have zc86 : bv c86 = 0 := by
    refine dead (K := 2 ^ 448) (rest := (2 ^ 128) * (iv v75) + (2 ^ 192) * (iv v83) + (2 ^ 256) * (iv v84) + (2 ^ 320) * (iv v85) + (2 ^ 384) * (iv v86)) (P := (2 ^ 128) * (iv b.2.w0 * iv a.2.w2) + (2 ^ 192) * (iv b.2.w1 * iv a.2.w2) + (2 ^ 128) * (iv v69) + (2 ^ 256) * (iv b.2.w2 * iv a.2.w2) + (2 ^ 320) * (iv b.2.w3 * iv a.2.w2) + (2 ^ 192) * (iv v70) + (2 ^ 256) * (iv v71) + (2 ^ 320) * (iv v72)) (by linear_combination (2 ^ 128) * e73 + (2 ^ 192) * e74 + (2 ^ 128) * e75 + (2 ^ 192) * e76 + (2 ^ 256) * e77 + (2 ^ 256) * e78 + (2 ^ 320) * e79 + (2 ^ 256) * e80 + (2 ^ 320) * e81 + (2 ^ 384) * e82 + (2 ^ 192) * e83 + (2 ^ 256) * e84 + (2 ^ 320) * e85 + (2 ^ 384) * e86 + (-2 ^ 320) * zc77 + (680564733841876926926749214863536422913 * 2 ^ 256) * hz + (-2 ^ 448) * zc82) ?_ ?_
    · linarith only [iv_nonneg v75, iv_nonneg v83, iv_nonneg v84, iv_nonneg v85, iv_nonneg v86]
    · linarith only [iv_mul_le b.2.w0 a.2.w2, iv_mul_le b.2.w1 a.2.w2, iv_le v69, iv_mul_le b.2.w2 a.2.w2, iv_mul_le b.2.w3 a.2.w2, iv_le v70, iv_le v71, iv_le v72]
  replace h := mov_inv h
  replace h := mov_inv h
  replace h := mov_inv h
  replace h := mulx_inv h; obtain ⟨l87, h87, e87, h⟩ := h
  replace h := mov_inv h
  replace h := mov_inv h
  replace h := mov_inv h
  replace h := mulx_inv h; obtain ⟨l88, h88, e88, h⟩ := h
  replace h := mov_inv h
  replace h := add_inv h; obtain ⟨v89, c89, e89, h⟩ := h
  replace h := mov_inv h
  replace h := adc_inv h; obtain ⟨v90, c90, e90, h⟩ := h
  replace h := adc_inv h; obtain ⟨v91, c91, e91, h⟩ := h
  have zc91 : bv c91 = 0 := by
    refine dead (K := 2 ^ 384) (rest := (2 ^ 192) * (iv v89) + (2 ^ 256) * (iv v90) + (2 ^ 320) * (iv v91)) (P := (2 ^ 192) * (iv b.2.w0 * iv a.2.w3) + (2 ^ 256) * (iv b.2.w1 * iv a.2.w3) + (2 ^ 192) * (iv v83)) (by linear_combination (2 ^ 192) * e87 + (2 ^ 256) * e88 + (2 ^ 192) * e89 + (2 ^ 256) * e90 + (2 ^ 320) * e91 + (2 ^ 320) * hz) ?_ ?_
    · linarith only [iv_nonneg v89, iv_nonneg v90, iv_nonneg v91]
    · linarith only [iv_mul_le b.2.w0 a.2.w3, iv_mul_le b.2.w1 a.2.w3, iv_le v83]
  replace h := mov_inv h
  replace h := mulx_inv h; obtain ⟨l92, h92, e92, h⟩ := h
  replace h := mov_inv h
  replace h := mov_inv h
  replace h := mov_inv h
  replace h := mulx_inv h; obtain ⟨l93, h93, e93, h⟩ := h
  replace h := add_inv h; obtain ⟨v94, c94, e94, h⟩ := h
  replace h := adc_inv h; obtain ⟨v95, c95, e95, h⟩ := h
  replace h := adc_inv h; obtain ⟨v96, c96, e96, h⟩ := h
  have zc96 : bv c96 = 0 := by
    refine dead (K := 2 ^ 512) (rest := (2 ^ 320) * (iv v94) + (2 ^ 384) * (iv v95) + (2 ^ 448) * (iv v96)) (P := (2 ^ 320) * (iv b.2.w2 * iv a.2.w3) + (2 ^ 384) * (iv b.2.w3 * iv a.2.w3) + (2 ^ 320) * (iv v91)) (by linear_combination (2 ^ 320) * e92 + (2 ^ 384) * e93 + (2 ^ 320) * e94 + (2 ^ 384) * e95 + (2 ^ 448) * e96 + (2 ^ 448) * hz) ?_ ?_
    · linarith only [iv_nonneg v94, iv_nonneg v95, iv_nonneg v96]
    · linarith only [iv_mul_le b.2.w2 a.2.w3, iv_mul_le b.2.w3 a.2.w3, iv_le v91]
  replace h := add_inv h; obtain ⟨v97, c97, e97, h⟩ := h
  replace h := mov_inv h
  replace h := adc_inv h; obtain ⟨v98, c98, e98, h⟩ := h
  replace h := mov_inv h
  replace h := adc_inv h; obtain ⟨v99, c99, e99, h⟩ := h
  replace h := mov_inv h
  replace h := adc_inv h; obtain ⟨v100, c100, e100, h⟩ := h
  have zc100 : bv c100 = 0 := by
    refine dead (K := 2 ^ 512) (rest := (2 ^ 192) * (iv v89) + (2 ^ 256) * (iv v97) + (2 ^ 320) * (iv v98) + (2 ^ 384) * (iv v99) + (2 ^ 448) * (iv v100)) (P := (2 ^ 192) * (iv b.2.w0 * iv a.2.w3) + (2 ^ 256) * (iv b.2.w1 * iv a.2.w3) + (2 ^ 192) * (iv v83) + (2 ^ 320) * (iv b.2.w2 * iv a.2.w3) + (2 ^ 384) * (iv b.2.w3 * iv a.2.w3) + (2 ^ 256) * (iv v84) + (2 ^ 320) * (iv v85) + (2 ^ 384) * (iv v86)) (by linear_combination (2 ^ 192) * e87 + (2 ^ 256) * e88 + (2 ^ 192) * e89 + (2 ^ 256) * e90 + (2 ^ 320) * e91 + (2 ^ 320) * e92 + (2 ^ 384) * e93 + (2 ^ 320) * e94 + (2 ^ 384) * e95 + (2 ^ 448) * e96 + (2 ^ 256) * e97 + (2 ^ 320) * e98 + (2 ^ 384) * e99 + (2 ^ 448) * e100 + (-2 ^ 384) * zc91 + (680564733841876926926749214863536422913 * 2 ^ 320) * hz + (-2 ^ 512) * zc96) ?_ ?_
    · linarith only [iv_nonneg v89, iv_nonneg v97, iv_nonneg v98, iv_nonneg v99, iv_nonneg v100]
    · linarith only [iv_mul_le b.2.w0 a.2.w3, iv_mul_le b.2.w1 a.2.w3, iv_le v83, iv_mul_le b.2.w2 a.2.w3, iv_mul_le b.2.w3 a.2.w3, iv_le v84, iv_le v85, iv_le v86]
  replace h := mov_inv h
  subst h
  simp only [F8.val, F4.val]
  constructor
  · linear_combination (2 ^ 448) * e50 + (-2 ^ 512) * zc50 + (2 ^ 384) * e49 + (2 ^ 320) * e48 + (2 ^ 256) * e47 + (2 ^ 448) * e46 + (-2 ^ 512) * zc46 + (2 ^ 384) * e45 + (2 ^ 320) * e44 + (2 ^ 384) * e43 + (2 ^ 320) * e42 + (2 ^ 320) * e41 + (-2 ^ 384) * zc41 + (2 ^ 256) * e40 + (2 ^ 192) * e39 + (2 ^ 256) * e38 + (2 ^ 192) * e37 + (2 ^ 384) * e36 + (-2 ^ 448) * zc36 + (2 ^ 320) * e35 + (2 ^ 256) * e34 + (2 ^ 192) * e33 + (2 ^ 384) * e32 + (-2 ^ 448) * zc32 + (2 ^ 320) * e31 + (2 ^ 256) * e30 + (2 ^ 320) * e29 + (2 ^ 256) * e28 + (2 ^ 256) * e27 + (-2 ^ 320) * zc27 + (2 ^ 192) * e26 + (2 ^ 128) * e25 + (2 ^ 192) * e24 + (2 ^ 128) * e23 + (2 ^ 320) * e22 + (-2 ^ 384) * zc22 + (2 ^ 256) * e21 + (2 ^ 192) * e20 + (2 ^ 128) * e19 + (2 ^ 320) * e18 + (-2 ^ 384) * zc18 + (2 ^ 256) * e17 + (2 ^ 192) * e16 + (2 ^ 256) * e15 + (2 ^ 192) * e14 + (2 ^ 192) * e13 + (-2 ^ 256) * zc13 + (2 ^ 128) * e12 + (2 ^ 64) * e11 + (2 ^ 128) * e10 + (2 ^ 64) * e9 + (2 ^ 256) * e8 + (-2 ^ 320) * zc8 + (2 ^ 192) * e7 + (2 ^ 128) * e6 + (2 ^ 64) * e5 + (2 ^ 192) * e4 + (2 ^ 128) * e3 + (2 ^ 64) * e2 + e1 + (231584178474632390859696173488149177235232395278459276301546896215197052043265 * 2 ^ 192) * hz
  · linear_combination (2 ^ 448) * e100 + (-2 ^ 512) * zc100 + (2 ^ 384) * e99 + (2 ^ 320) * e98 + (2 ^ 256) * e97 + (2 ^ 448) * e96 + (-2 ^ 512) * zc96 + (2 ^ 384) * e95 + (2 ^ 320) * e94 + (2 ^ 384) * e93 + (2 ^ 320) * e92 + (2 ^ 320) * e91 + (-2 ^ 384) * zc91 + (2 ^ 256) * e90 + (2 ^ 192) * e89 + (2 ^ 256) * e88 + (2 ^ 192) * e87 + (2 ^ 384) * e86 + (-2 ^ 448) * zc86 + (2 ^ 320) * e85 + (2 ^ 256) * e84 + (2 ^ 192) * e83 + (2 ^ 384) * e82 + (-2 ^ 448) * zc82 + (2 ^ 320) * e81 + (2 ^ 256) * e80 + (2 ^ 320) * e79 + (2 ^ 256) * e78 + (2 ^ 256) * e77 + (-2 ^ 320) * zc77 + (2 ^ 192) * e76 + (2 ^ 128) * e75 + (2 ^ 192) * e74 + (2 ^ 128) * e73 + (2 ^ 320) * e72 + (-2 ^ 384) * zc72 + (2 ^ 256) * e71 + (2 ^ 192) * e70 + (2 ^ 128) * e69 + (2 ^ 320) * e68 + (-2 ^ 384) * zc68 + (2 ^ 256) * e67 + (2 ^ 192) * e66 + (2 ^ 256) * e65 + (2 ^ 192) * e64 + (2 ^ 192) * e63 + (-2 ^ 256) * zc63 + (2 ^ 128) * e62 + (2 ^ 64) * e61 + (2 ^ 128) * e60 + (2 ^ 64) * e59 + (2 ^ 256) * e58 + (-2 ^ 320) * zc58 + (2 ^ 192) * e57 + (2 ^ 128) * e56 + (2 ^ 64) * e55 + (2 ^ 192) * e54 + (2 ^ 128) * e53 + (2 ^ 64) * e52 + e51 + (231584178474632390859696173488149177235232395278459276301546896215197052043265 * 2 ^ 192) * hz

end Verif.Fp25519.Asm
