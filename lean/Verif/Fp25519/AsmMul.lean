import Verif.Fp25519.Asm
import Verif.Fp25519.Lemmas

/-! # Integer products

Helper lemmas: one linear identity per straight-line block. -/

namespace Verif.Fp25519.Asm

set_option maxRecDepth 4000
set_option linter.unusedVariables false
set_option exponentiation.threshold 2000

theorem intmul_mulxadx_val (a b : F4) : (intmul_mulxadx a b).val = a.val * b.val := by
  generalize h : intmul_mulxadx a b = X
  unfold intmul_mulxadx at h
  have hz : iv 0#64 = 0 := rfl
  have hf : bv false = 0 := rfl
  replace h := mov_inv h
  replace h := mulx_inv h; obtain ⟨l1, h1, e1, h⟩ := h
  replace h := xor0_inv h
  replace h := mov_inv h
  replace h := mulx_inv h; obtain ⟨l3, h3, e3, h⟩ := h
  replace h := adc_inv h; obtain ⟨v4, c4, e4, h⟩ := h
  replace h := mov_inv h
  replace h := mulx_inv h; obtain ⟨l5, h5, e5, h⟩ := h
  replace h := adc_inv h; obtain ⟨v6, c6, e6, h⟩ := h
  replace h := mulx_inv h; obtain ⟨l7, h7, e7, h⟩ := h
  replace h := adc_inv h; obtain ⟨v8, c8, e8, h⟩ := h
  replace h := mov_inv h
  replace h := adc_inv h; obtain ⟨v9, c9, e9, h⟩ := h
  have zc9 : bv c9 = 0 := by
    refine dead (K := 2 ^ 320) (rest := iv l1 + (2 ^ 64) * (iv v4) + (2 ^ 128) * (iv v6) + (2 ^ 192) * (iv v8) + (2 ^ 256) * (iv v9)) (P := iv a.w0 * iv b.w0 + (2 ^ 64) * (iv a.w0 * iv b.w1) + (2 ^ 128) * (iv a.w0 * iv b.w2) + (2 ^ 192) * (iv a.w0 * iv b.w3)) (by linear_combination e1 + (2 ^ 64) * e3 + (2 ^ 64) * e4 + (2 ^ 128) * e5 + (2 ^ 128) * e6 + (2 ^ 192) * e7 + (2 ^ 192) * e8 + (2 ^ 256) * e9 + (2 ^ 64) * hf + (2 ^ 256) * hz) ?_ ?_
    · linarith only [iv_nonneg l1, iv_nonneg v4, iv_nonneg v6, iv_nonneg v8, iv_nonneg v9]
    · linarith only [iv_mul_le a.w0 b.w0, iv_mul_le a.w0 b.w1, iv_mul_le a.w0 b.w2, iv_mul_le a.w0 b.w3]
  replace h := mov_inv h
  replace h := mulx_inv h; obtain ⟨l10, h10, e10, h⟩ := h
  replace h := xor0_inv h
  replace h := adc_inv h; obtain ⟨v12, c12, e12, h⟩ := h
  replace h := mov_inv h
  replace h := mulx_inv h; obtain ⟨l13, h13, e13, h⟩ := h
  replace h := adc_inv h; obtain ⟨v14, c14, e14, h⟩ := h
  replace h := adc_inv h; obtain ⟨v15, c15, e15, h⟩ := h
  replace h := mov_inv h
  replace h := mulx_inv h; obtain ⟨l16, h16, e16, h⟩ := h
  replace h := adc_inv h; obtain ⟨v17, c17, e17, h⟩ := h
  replace h := adc_inv h; obtain ⟨v18, c18, e18, h⟩ := h
  replace h := mov_inv h
  replace h := mulx_inv h; obtain ⟨l19, h19, e19, h⟩ := h
  replace h := adc_inv h; obtain ⟨v20, c20, e20, h⟩ := h
  replace h := adc_inv h; obtain ⟨v21, c21, e21, h⟩ := h
  replace h := mov_inv h
  replace h := adc_inv h; obtain ⟨v22, c22, e22, h⟩ := h
  have zc22 : bv c22 = 0 := by
    refine dead (K := 2 ^ 384) (rest := (2 ^ 64) * (iv l10) + (2 ^ 128) * (iv v14) + (2 ^ 192) * (iv v17) + (2 ^ 256) * (iv v20) + (2 ^ 320) * (iv v22)) (P := (2 ^ 64) * (iv a.w1 * iv b.w0) + (2 ^ 128) * (iv a.w1 * iv b.w1) + (2 ^ 192) * (iv a.w1 * iv b.w2) + (2 ^ 256) * (iv a.w1 * iv b.w3)) (by linear_combination (2 ^ 64) * e10 + (2 ^ 128) * e13 + (2 ^ 128) * e14 + (2 ^ 192) * e16 + (2 ^ 192) * e17 + (2 ^ 256) * e19 + (2 ^ 256) * e20 + (2 ^ 320) * e22 + (2 ^ 128) * hf + (2 ^ 320) * hz) ?_ ?_
    · linarith only [iv_nonneg l10, iv_nonneg v14, iv_nonneg v17, iv_nonneg v20, iv_nonneg v22]
    · linarith only [iv_mul_le a.w1 b.w0, iv_mul_le a.w1 b.w1, iv_mul_le a.w1 b.w2, iv_mul_le a.w1 b.w3]
  replace h := adc_inv h; obtain ⟨v23, c23, e23, h⟩ := h
  have zc23 : bv c23 = 0 := by
    refine dead (K := 2 ^ 384) (rest := (2 ^ 64) * (iv v12) + (2 ^ 128) * (iv v15) + (2 ^ 192) * (iv v18) + (2 ^ 256) * (iv v21) + (2 ^ 320) * (iv v23)) (P := (2 ^ 64) * (iv a.w1 * iv b.w0) + (2 ^ 64) * (iv v4) + (2 ^ 128) * (iv a.w1 * iv b.w1) + (2 ^ 128) * (iv v6) + (2 ^ 192) * (iv a.w1 * iv b.w2) + (2 ^ 192) * (iv v8) + (2 ^ 256) * (iv a.w1 * iv b.w3) + (2 ^ 256) * (iv v9)) (by linear_combination (2 ^ 64) * e10 + (2 ^ 64) * e12 + (2 ^ 128) * e13 + (2 ^ 128) * e14 + (2 ^ 128) * e15 + (2 ^ 192) * e16 + (2 ^ 192) * e17 + (2 ^ 192) * e18 + (2 ^ 256) * e19 + (2 ^ 256) * e20 + (2 ^ 256) * e21 + (2 ^ 320) * e22 + (2 ^ 320) * e23 + (18446744073709551617 * 2 ^ 64) * hf + (-2 ^ 384) * zc22 + (2 ^ 321) * hz) ?_ ?_
    · linarith only [iv_nonneg v12, iv_nonneg v15, iv_nonneg v18, iv_nonneg v21, iv_nonneg v23]
    · linarith only [iv_mul_le a.w1 b.w0, iv_le v4, iv_mul_le a.w1 b.w1, iv_le v6, iv_mul_le a.w1 b.w2, iv_le v8, iv_mul_le a.w1 b.w3, iv_le v9]
  replace h := mov_inv h
  replace h := mulx_inv h; obtain ⟨l24, h24, e24, h⟩ := h
  replace h := xor0_inv h
  replace h := adc_inv h; obtain ⟨v26, c26, e26, h⟩ := h
  replace h := mov_inv h
  replace h := mulx_inv h; obtain ⟨l27, h27, e27, h⟩ := h
  replace h := adc_inv h; obtain ⟨v28, c28, e28, h⟩ := h
  replace h := adc_inv h; obtain ⟨v29, c29, e29, h⟩ := h
  replace h := mov_inv h
  replace h := mulx_inv h; obtain ⟨l30, h30, e30, h⟩ := h
  replace h := adc_inv h; obtain ⟨v31, c31, e31, h⟩ := h
  replace h := adc_inv h; obtain ⟨v32, c32, e32, h⟩ := h
  replace h := mov_inv h
  replace h := mulx_inv h; obtain ⟨l33, h33, e33, h⟩ := h
  replace h := adc_inv h; obtain ⟨v34, c34, e34, h⟩ := h
  replace h := adc_inv h; obtain ⟨v35, c35, e35, h⟩ := h
  replace h := mov_inv h
  replace h := adc_inv h; obtain ⟨v36, c36, e36, h⟩ := h
  have zc36 : bv c36 = 0 := by
    refine dead (K := 2 ^ 448) (rest := (2 ^ 128) * (iv l24) + (2 ^ 192) * (iv v28) + (2 ^ 256) * (iv v31) + (2 ^ 320) * (iv v34) + (2 ^ 384) * (iv v36)) (P := (2 ^ 128) * (iv a.w2 * iv b.w0) + (2 ^ 192) * (iv a.w2 * iv b.w1) + (2 ^ 256) * (iv a.w2 * iv b.w2) + (2 ^ 320) * (iv a.w2 * iv b.w3)) (by linear_combination (2 ^ 128) * e24 + (2 ^ 192) * e27 + (2 ^ 192) * e28 + (2 ^ 256) * e30 + (2 ^ 256) * e31 + (2 ^ 320) * e33 + (2 ^ 320) * e34 + (2 ^ 384) * e36 + (2 ^ 192) * hf + (2 ^ 384) * hz) ?_ ?_
    · linarith only [iv_nonneg l24, iv_nonneg v28, iv_nonneg v31, iv_nonneg v34, iv_nonneg v36]
    · linarith only [iv_mul_le a.w2 b.w0, iv_mul_le a.w2 b.w1, iv_mul_le a.w2 b.w2, iv_mul_le a.w2 b.w3]
  replace h := adc_inv h; obtain ⟨v37, c37, e37, h⟩ := h
  have zc37 : bv c37 = 0 := by
    refine dead (K := 2 ^ 448) (rest := (2 ^ 128) * (iv v26) + (2 ^ 192) * (iv v29) + (2 ^ 256) * (iv v32) + (2 ^ 320) * (iv v35) + (2 ^ 384) * (iv v37)) (P := (2 ^ 128) * (iv a.w2 * iv b.w0) + (2 ^ 128) * (iv v15) + (2 ^ 192) * (iv a.w2 * iv b.w1) + (2 ^ 192) * (iv v18) + (2 ^ 256) * (iv a.w2 * iv b.w2) + (2 ^ 256) * (iv v21) + (2 ^ 320) * (iv a.w2 * iv b.w3) + (2 ^ 320) * (iv v23)) (by linear_combination (2 ^ 128) * e24 + (2 ^ 128) * e26 + (2 ^ 192) * e27 + (2 ^ 192) * e28 + (2 ^ 192) * e29 + (2 ^ 256) * e30 + (2 ^ 256) * e31 + (2 ^ 256) * e32 + (2 ^ 320) * e33 + (2 ^ 320) * e34 + (2 ^ 320) * e35 + (2 ^ 384) * e36 + (2 ^ 384) * e37 + (18446744073709551617 * 2 ^ 128) * hf + (-2 ^ 448) * zc36 + (2 ^ 385) * hz) ?_ ?_
    · linarith only [iv_nonneg v26, iv_nonneg v29, iv_nonneg v32, iv_nonneg v35, iv_nonneg v37]
    · linarith only [iv_mul_le a.w2 b.w0, iv_le v15, iv_mul_le a.w2 b.w1, iv_le v18, iv_mul_le a.w2 b.w2, iv_le v21, iv_mul_le a.w2 b.w3, iv_le v23]
  replace h := mov_inv h
  replace h := mulx_inv h; obtain ⟨l38, h38, e38, h⟩ := h
  replace h := xor0_inv h
  replace h := adc_inv h; obtain ⟨v40, c40, e40, h⟩ := h
  replace h := mov_inv h
  replace h := mulx_inv h; obtain ⟨l41, h41, e41, h⟩ := h
  replace h := adc_inv h; obtain ⟨v42, c42, e42, h⟩ := h
  replace h := adc_inv h; obtain ⟨v43, c43, e43, h⟩ := h
  replace h := mov_inv h
  replace h := mulx_inv h; obtain ⟨l44, h44, e44, h⟩ := h
  replace h := adc_inv h; obtain ⟨v45, c45, e45, h⟩ := h
  replace h := adc_inv h; obtain ⟨v46, c46, e46, h⟩ := h
  replace h := mov_inv h
  replace h := mov_inv h
  replace h := mulx_inv h; obtain ⟨l47, h47, e47, h⟩ := h
  replace h := adc_inv h; obtain ⟨v48, c48, e48, h⟩ := h
  replace h := adc_inv h; obtain ⟨v49, c49, e49, h⟩ := h
  replace h := mov_inv h
  replace h := mov_inv h
  replace h := adc_inv h; obtain ⟨v50, c50, e50, h⟩ := h
  have zc50 : bv c50 = 0 := by
    refine dead (K := 2 ^ 512) (rest := (2 ^ 192) * (iv l38) + (2 ^ 256) * (iv v42) + (2 ^ 320) * (iv v45) + (2 ^ 384) * (iv v48) + (2 ^ 448) * (iv v50)) (P := (2 ^ 192) * (iv a.w3 * iv b.w0) + (2 ^ 256) * (iv a.w3 * iv b.w1) + (2 ^ 320) * (iv a.w3 * iv b.w2) + (2 ^ 384) * (iv a.w3 * iv b.w3)) (by linear_combination (2 ^ 192) * e38 + (2 ^ 256) * e41 + (2 ^ 256) * e42 + (2 ^ 320) * e44 + (2 ^ 320) * e45 + (2 ^ 384) * e47 + (2 ^ 384) * e48 + (2 ^ 448) * e50 + (2 ^ 256) * hf + (2 ^ 448) * hz) ?_ ?_
    · linarith only [iv_nonneg l38, iv_nonneg v42, iv_nonneg v45, iv_nonneg v48, iv_nonneg v50]
    · linarith only [iv_mul_le a.w3 b.w0, iv_mul_le a.w3 b.w1, iv_mul_le a.w3 b.w2, iv_mul_le a.w3 b.w3]
  replace h := adc_inv h; obtain ⟨v51, c51, e51, h⟩ := h
  have zc51 : bv c51 = 0 := by
    refine dead (K := 2 ^ 512) (rest := (2 ^ 192) * (iv v40) + (2 ^ 256) * (iv v43) + (2 ^ 320) * (iv v46) + (2 ^ 384) * (iv v49) + (2 ^ 448) * (iv v51)) (P := (2 ^ 192) * (iv a.w3 * iv b.w0) + (2 ^ 192) * (iv v29) + (2 ^ 256) * (iv a.w3 * iv b.w1) + (2 ^ 256) * (iv v32) + (2 ^ 320) * (iv a.w3 * iv b.w2) + (2 ^ 320) * (iv v35) + (2 ^ 384) * (iv a.w3 * iv b.w3) + (2 ^ 384) * (iv v37)) (by linear_combination (2 ^ 192) * e38 + (2 ^ 192) * e40 + (2 ^ 256) * e41 + (2 ^ 256) * e42 + (2 ^ 256) * e43 + (2 ^ 320) * e44 + (2 ^ 320) * e45 + (2 ^ 320) * e46 + (2 ^ 384) * e47 + (2 ^ 384) * e48 + (2 ^ 384) * e49 + (2 ^ 448) * e50 + (2 ^ 448) * e51 + (18446744073709551617 * 2 ^ 192) * hf + (-2 ^ 512) * zc50 + (2 ^ 449) * hz) ?_ ?_
    · linarith only [iv_nonneg v40, iv_nonneg v43, iv_nonneg v46, iv_nonneg v49, iv_nonneg v51]
    · linarith only [iv_mul_le a.w3 b.w0, iv_le v29, iv_mul_le a.w3 b.w1, iv_le v32, iv_mul_le a.w3 b.w2, iv_le v35, iv_mul_le a.w3 b.w3, iv_le v37]
  replace h := mov_inv h
  subst h
  simp only [F8.val, F4.val]
  linear_combination (2 ^ 448) * e51 + (-2 ^ 512) * zc51 + (2 ^ 448) * e50 + (-2 ^ 512) * zc50 + (2 ^ 384) * e49 + (2 ^ 384) * e48 + (2 ^ 384) * e47 + (2 ^ 320) * e46 + (2 ^ 320) * e45 + (2 ^ 320) * e44 + (2 ^ 256) * e43 + (2 ^ 256) * e42 + (2 ^ 256) * e41 + (2 ^ 192) * e40 + (2 ^ 192) * e38 + (2 ^ 384) * e37 + (-2 ^ 448) * zc37 + (2 ^ 384) * e36 + (-2 ^ 448) * zc36 + (2 ^ 320) * e35 + (2 ^ 320) * e34 + (2 ^ 320) * e33 + (2 ^ 256) * e32 + (2 ^ 256) * e31 + (2 ^ 256) * e30 + (2 ^ 192) * e29 + (2 ^ 192) * e28 + (2 ^ 192) * e27 + (2 ^ 128) * e26 + (2 ^ 128) * e24 + (2 ^ 320) * e23 + (-2 ^ 384) * zc23 + (2 ^ 320) * e22 + (-2 ^ 384) * zc22 + (2 ^ 256) * e21 + (2 ^ 256) * e20 + (2 ^ 256) * e19 + (2 ^ 192) * e18 + (2 ^ 192) * e17 + (2 ^ 192) * e16 + (2 ^ 128) * e15 + (2 ^ 128) * e14 + (2 ^ 128) * e13 + (2 ^ 64) * e12 + (2 ^ 64) * e10 + (2 ^ 256) * e9 + (-2 ^ 320) * zc9 + (2 ^ 192) * e8 + (2 ^ 192) * e7 + (2 ^ 128) * e6 + (2 ^ 128) * e5 + (2 ^ 64) * e4 + (2 ^ 64) * e3 + e1 + (12554203470773361528352143580257209759168353591939024551937 * 2 ^ 256) * hz + (3138550867693340382258177078524771671532999073737495019521 * 2 ^ 65) * hf

theorem intmul_mulx_val (a b : F4) : (intmul_mulx a b).val = a.val * b.val := by
  generalize h : intmul_mulx a b = X
  unfold intmul_mulx at h
  have hz : iv 0#64 = 0 := rfl
  have hf : bv false = 0 := rfl
  replace h := mov_inv h
  replace h := mulx_inv h; obtain ⟨l1, h1, e1, h⟩ := h
  replace h := mov_inv h
  replace h := mulx_inv h; obtain ⟨l2, h2, e2, h⟩ := h
  replace h := add_inv h; obtain ⟨v3, c3, e3, h⟩ := h
  replace h := mulx_inv h; obtain ⟨l4, h4, e4, h⟩ := h
  replace h := adc_inv h; obtain ⟨v5, c5, e5, h⟩ := h
  replace h := mulx_inv h; obtain ⟨l6, h6, e6, h⟩ := h
  replace h := adc_inv h; obtain ⟨v7, c7, e7, h⟩ := h
  replace h := adc_inv h; obtain ⟨v8, c8, e8, h⟩ := h
  have zc8 : bv c8 = 0 := by
    refine dead (K := 2 ^ 320) (rest := iv l1 + (2 ^ 64) * (iv v3) + (2 ^ 128) * (iv v5) + (2 ^ 192) * (iv v7) + (2 ^ 256) * (iv v8)) (P := iv a.w0 * iv b.w0 + (2 ^ 64) * (iv a.w0 * iv b.w1) + (2 ^ 128) * (iv a.w0 * iv b.w2) + (2 ^ 192) * (iv a.w0 * iv b.w3)) (by linear_combination e1 + (2 ^ 64) * e2 + (2 ^ 64) * e3 + (2 ^ 128) * e4 + (2 ^ 128) * e5 + (2 ^ 192) * e6 + (2 ^ 192) * e7 + (2 ^ 256) * e8 + (2 ^ 256) * hz) ?_ ?_
    · linarith only [iv_nonneg l1, iv_nonneg v3, iv_nonneg v5, iv_nonneg v7, iv_nonneg v8]
    · linarith only [iv_mul_le a.w0 b.w0, iv_mul_le a.w0 b.w1, iv_mul_le a.w0 b.w2, iv_mul_le a.w0 b.w3]
  replace h := mov_inv h
  replace h := mulx_inv h; obtain ⟨l9, h9, e9, h⟩ := h
  replace h := add_inv h; obtain ⟨v10, c10, e10, h⟩ := h
  replace h := mov_inv h
  replace h := mulx_inv h; obtain ⟨l11, h11, e11, h⟩ := h
  replace h := adc_inv h; obtain ⟨v12, c12, e12, h⟩ := h
  replace h := mulx_inv h; obtain ⟨l13, h13, e13, h⟩ := h
  replace h := adc_inv h; obtain ⟨v14, c14, e14, h⟩ := h
  replace h := mulx_inv h; obtain ⟨l15, h15, e15, h⟩ := h
  replace h := adc_inv h; obtain ⟨v16, c16, e16, h⟩ := h
  replace h := adc_inv h; obtain ⟨v17, c17, e17, h⟩ := h
  have zc17 : bv c17 = 0 := by
    refine dead (K := 2 ^ 384) (rest := (2 ^ 64) * (iv v10) + (2 ^ 128) * (iv v12) + (2 ^ 192) * (iv v14) + (2 ^ 256) * (iv v16) + (2 ^ 320) * (iv v17)) (P := (2 ^ 64) * (iv a.w1 * iv b.w0) + (2 ^ 64) * (iv v3) + (2 ^ 128) * (iv a.w1 * iv b.w1) + (2 ^ 192) * (iv a.w1 * iv b.w2) + (2 ^ 256) * (iv a.w1 * iv b.w3)) (by linear_combination (2 ^ 64) * e9 + (2 ^ 64) * e10 + (2 ^ 128) * e11 + (2 ^ 128) * e12 + (2 ^ 192) * e13 + (2 ^ 192) * e14 + (2 ^ 256) * e15 + (2 ^ 256) * e16 + (2 ^ 320) * e17 + (2 ^ 320) * hz) ?_ ?_
    · linarith only [iv_nonneg v10, iv_nonneg v12, iv_nonneg v14, iv_nonneg v16, iv_nonneg v17]
    · linarith only [iv_mul_le a.w1 b.w0, iv_le v3, iv_mul_le a.w1 b.w1, iv_mul_le a.w1 b.w2, iv_mul_le a.w1 b.w3]
  replace h := add_inv h; obtain ⟨v18, c18, e18, h⟩ := h
  replace h := adc_inv h; obtain ⟨v19, c19, e19, h⟩ := h
  replace h := adc_inv h; obtain ⟨v20, c20, e20, h⟩ := h
  replace h := adc_inv h; obtain ⟨v21, c21, e21, h⟩ := h
  have zc21 : bv c21 = 0 := by
    refine dead (K := 2 ^ 384) (rest := (2 ^ 64) * (iv v10) + (2 ^ 128) * (iv v18) + (2 ^ 192) * (iv v19) + (2 ^ 256) * (iv v20) + (2 ^ 320) * (iv v21)) (P := (2 ^ 64) * (iv a.w1 * iv b.w0) + (2 ^ 64) * (iv v3) + (2 ^ 128) * (iv a.w1 * iv b.w1) + (2 ^ 192) * (iv a.w1 * iv b.w2) + (2 ^ 256) * (iv a.w1 * iv b.w3) + (2 ^ 128) * (iv v5) + (2 ^ 192) * (iv v7) + (2 ^ 256) * (iv v8)) (by linear_combination (2 ^ 64) * e9 + (2 ^ 64) * e10 + (2 ^ 128) * e11 + (2 ^ 128) * e12 + (2 ^ 192) * e13 + (2 ^ 192) * e14 + (2 ^ 256) * e15 + (2 ^ 256) * e16 + (2 ^ 320) * e17 + (2 ^ 128) * e18 + (2 ^ 192) * e19 + (2 ^ 256) * e20 + (2 ^ 320) * e21 + (-2 ^ 384) * zc17 + (2 ^ 321) * hz) ?_ ?_
    · linarith only [iv_nonneg v10, iv_nonneg v18, iv_nonneg v19, iv_nonneg v20, iv_nonneg v21]
    · linarith only [iv_mul_le a.w1 b.w0, iv_le v3, iv_mul_le a.w1 b.w1, iv_mul_le a.w1 b.w2, iv_mul_le a.w1 b.w3, iv_le v5, iv_le v7, iv_le v8]
  replace h := mov_inv h
  replace h := mulx_inv h; obtain ⟨l22, h22, e22, h⟩ := h
  replace h := add_inv h; obtain ⟨v23, c23, e23, h⟩ := h
  replace h := mov_inv h
  replace h := mulx_inv h; obtain ⟨l24, h24, e24, h⟩ := h
  replace h := adc_inv h; obtain ⟨v25, c25, e25, h⟩ := h
  replace h := mulx_inv h; obtain ⟨l26, h26, e26, h⟩ := h
  replace h := adc_inv h; obtain ⟨v27, c27, e27, h⟩ := h
  replace h := mulx_inv h; obtain ⟨l28, h28, e28, h⟩ := h
  replace h := adc_inv h; obtain ⟨v29, c29, e29, h⟩ := h
  replace h := adc_inv h; obtain ⟨v30, c30, e30, h⟩ := h
  have zc30 : bv c30 = 0 := by
    refine dead (K := 2 ^ 448) (rest := (2 ^ 128) * (iv v23) + (2 ^ 192) * (iv v25) + (2 ^ 256) * (iv v27) + (2 ^ 320) * (iv v29) + (2 ^ 384) * (iv v30)) (P := (2 ^ 128) * (iv a.w2 * iv b.w0) + (2 ^ 128) * (iv v18) + (2 ^ 192) * (iv a.w2 * iv b.w1) + (2 ^ 256) * (iv a.w2 * iv b.w2) + (2 ^ 320) * (iv a.w2 * iv b.w3)) (by linear_combination (2 ^ 128) * e22 + (2 ^ 128) * e23 + (2 ^ 192) * e24 + (2 ^ 192) * e25 + (2 ^ 256) * e26 + (2 ^ 256) * e27 + (2 ^ 320) * e28 + (2 ^ 320) * e29 + (2 ^ 384) * e30 + (2 ^ 384) * hz) ?_ ?_
    · linarith only [iv_nonneg v23, iv_nonneg v25, iv_nonneg v27, iv_nonneg v29, iv_nonneg v30]
    · linarith only [iv_mul_le a.w2 b.w0, iv_le v18, iv_mul_le a.w2 b.w1, iv_mul_le a.w2 b.w2, iv_mul_le a.w2 b.w3]
  replace h := add_inv h; obtain ⟨v31, c31, e31, h⟩ := h
  replace h := adc_inv h; obtain ⟨v32, c32, e32, h⟩ := h
  replace h := adc_inv h; obtain ⟨v33, c33, e33, h⟩ := h
  replace h := adc_inv h; obtain ⟨v34, c34, e34, h⟩ := h
  have zc34 : bv c34 = 0 := by
    refine dead (K := 2 ^ 448) (rest := (2 ^ 128) * (iv v23) + (2 ^ 192) * (iv v31) + (2 ^ 256) * (iv v32) + (2 ^ 320) * (iv v33) + (2 ^ 384) * (iv v34)) (P := (2 ^ 128) * (iv a.w2 * iv b.w0) + (2 ^ 128) * (iv v18) + (2 ^ 192) * (iv a.w2 * iv b.w1) + (2 ^ 256) * (iv a.w2 * iv b.w2) + (2 ^ 320) * (iv a.w2 * iv b.w3) + (2 ^ 192) * (iv v19) + (2 ^ 256) * (iv v20) + (2 ^ 320) * (iv v21)) (by linear_combination (2 ^ 128) * e22 + (2 ^ 128) * e23 + (2 ^ 192) * e24 + (2 ^ 192) * e25 + (2 ^ 256) * e26 + (2 ^ 256) * e27 + (2 ^ 320) * e28 + (2 ^ 320) * e29 + (2 ^ 384) * e30 + (2 ^ 192) * e31 + (2 ^ 256) * e32 + (2 ^ 320) * e33 + (2 ^ 384) * e34 + (-2 ^ 448) * zc30 + (2 ^ 385) * hz) ?_ ?_
    · linarith only [iv_nonneg v23, iv_nonneg v31, iv_nonneg v32, iv_nonneg v33, iv_nonneg v34]
    · linarith only [iv_mul_le a.w2 b.w0, iv_le v18, iv_mul_le a.w2 b.w1, iv_mul_le a.w2 b.w2, iv_mul_le a.w2 b.w3, iv_le v19, iv_le v20, iv_le v21]
  replace h := mov_inv h
  replace h := mulx_inv h; obtain ⟨l35, h35, e35, h⟩ := h
  replace h := add_inv h; obtain ⟨v36, c36, e36, h⟩ := h
  replace h := mov_inv h
  replace h := mulx_inv h; obtain ⟨l37, h37, e37, h⟩ := h
  replace h := adc_inv h; obtain ⟨v38, c38, e38, h⟩ := h
  replace h := mulx_inv h; obtain ⟨l39, h39, e39, h⟩ := h
  replace h := adc_inv h; obtain ⟨v40, c40, e40, h⟩ := h
  replace h := mulx_inv h; obtain ⟨l41, h41, e41, h⟩ := h
  replace h := adc_inv h; obtain ⟨v42, c42, e42, h⟩ := h
  replace h := adc_inv h; obtain ⟨v43, c43, e43, h⟩ := h
  have zc43 : bv c43 = 0 := by
    refine dead (K := 2 ^ 512) (rest := (2 ^ 192) * (iv v36) + (2 ^ 256) * (iv v38) + (2 ^ 320) * (iv v40) + (2 ^ 384) * (iv v42) + (2 ^ 448) * (iv v43)) (P := (2 ^ 192) * (iv a.w3 * iv b.w0) + (2 ^ 192) * (iv v31) + (2 ^ 256) * (iv a.w3 * iv b.w1) + (2 ^ 320) * (iv a.w3 * iv b.w2) + (2 ^ 384) * (iv a.w3 * iv b.w3)) (by linear_combination (2 ^ 192) * e35 + (2 ^ 192) * e36 + (2 ^ 256) * e37 + (2 ^ 256) * e38 + (2 ^ 320) * e39 + (2 ^ 320) * e40 + (2 ^ 384) * e41 + (2 ^ 384) * e42 + (2 ^ 448) * e43 + (2 ^ 448) * hz) ?_ ?_
    · linarith only [iv_nonneg v36, iv_nonneg v38, iv_nonneg v40, iv_nonneg v42, iv_nonneg v43]
    · linarith only [iv_mul_le a.w3 b.w0, iv_le v31, iv_mul_le a.w3 b.w1, iv_mul_le a.w3 b.w2, iv_mul_le a.w3 b.w3]
  replace h := add_inv h; obtain ⟨v44, c44, e44, h⟩ := h
  replace h := mov_inv h
  replace h := adc_inv h; obtain ⟨v45, c45, e45, h⟩ := h
  replace h := mov_inv h
  replace h := adc_inv h; obtain ⟨v46, c46, e46, h⟩ := h
  replace h := mov_inv h
  replace h := adc_inv h; obtain ⟨v47, c47, e47, h⟩ := h
  have zc47 : bv c47 = 0 := by
    refine dead (K := 2 ^ 512) (rest := (2 ^ 192) * (iv v36) + (2 ^ 256) * (iv v44) + (2 ^ 320) * (iv v45) + (2 ^ 384) * (iv v46) + (2 ^ 448) * (iv v47)) (P := (2 ^ 192) * (iv a.w3 * iv b.w0) + (2 ^ 192) * (iv v31) + (2 ^ 256) * (iv a.w3 * iv b.w1) + (2 ^ 320) * (iv a.w3 * iv b.w2) + (2 ^ 384) * (iv a.w3 * iv b.w3) + (2 ^ 256) * (iv v32) + (2 ^ 320) * (iv v33) + (2 ^ 384) * (iv v34)) (by linear_combination (2 ^ 192) * e35 + (2 ^ 192) * e36 + (2 ^ 256) * e37 + (2 ^ 256) * e38 + (2 ^ 320) * e39 + (2 ^ 320) * e40 + (2 ^ 384) * e41 + (2 ^ 384) * e42 + (2 ^ 448) * e43 + (2 ^ 256) * e44 + (2 ^ 320) * e45 + (2 ^ 384) * e46 + (2 ^ 448) * e47 + (-2 ^ 512) * zc43 + (2 ^ 449) * hz) ?_ ?_
    · linarith only [iv_nonneg v36, iv_nonneg v44, iv_nonneg v45, iv_nonneg v46, iv_nonneg v47]
    · linarith only [iv_mul_le a.w3 b.w0, iv_le v31, iv_mul_le a.w3 b.w1, iv_mul_le a.w3 b.w2, iv_mul_le a.w3 b.w3, iv_le v32, iv_le v33, iv_le v34]
  replace h := mov_inv h
  subst h
  simp only [F8.val, F4.val]
  linear_combination (2 ^ 448) * e47 + (-2 ^ 512) * zc47 + (2 ^ 384) * e46 + (2 ^ 320) * e45 + (2 ^ 256) * e44 + (2 ^ 448) * e43 + (-2 ^ 512) * zc43 + (2 ^ 384) * e42 + (2 ^ 384) * e41 + (2 ^ 320) * e40 + (2 ^ 320) * e39 + (2 ^ 256) * e38 + (2 ^ 256) * e37 + (2 ^ 192) * e36 + (2 ^ 192) * e35 + (2 ^ 384) * e34 + (-2 ^ 448) * zc34 + (2 ^ 320) * e33 + (2 ^ 256) * e32 + (2 ^ 192) * e31 + (2 ^ 384) * e30 + (-2 ^ 448) * zc30 + (2 ^ 320) * e29 + (2 ^ 320) * e28 + (2 ^ 256) * e27 + (2 ^ 256) * e26 + (2 ^ 192) * e25 + (2 ^ 192) * e24 + (2 ^ 128) * e23 + (2 ^ 128) * e22 + (2 ^ 320) * e21 + (-2 ^ 384) * zc21 + (2 ^ 256) * e20 + (2 ^ 192) * e19 + (2 ^ 128) * e18 + (2 ^ 320) * e17 + (-2 ^ 384) * zc17 + (2 ^ 256) * e16 + (2 ^ 256) * e15 + (2 ^ 192) * e14 + (2 ^ 192) * e13 + (2 ^ 128) * e12 + (2 ^ 128) * e11 + (2 ^ 64) * e10 + (2 ^ 64) * e9 + (2 ^ 256) * e8 + (-2 ^ 320) * zc8 + (2 ^ 192) * e7 + (2 ^ 192) * e6 + (2 ^ 128) * e5 + (2 ^ 128) * e4 + (2 ^ 64) * e3 + (2 ^ 64) * e2 + e1 + (12554203470773361528352143580257209759168353591939024551937 * 2 ^ 256) * hz

theorem intmul_mulq_val (a b : F4) : (intmul_mulq a b).val = a.val * b.val := by
  generalize h : intmul_mulq a b = X
  unfold intmul_mulq at h
  have hz : iv 0#64 = 0 := rfl
  have hf : bv false = 0 := rfl
  replace h := mov_inv h
  replace h := mov_inv h
  replace h := mulx_inv h; obtain ⟨l1, h1, e1, h⟩ := h
  replace h := mov_inv h
  replace h := mov_inv h
  replace h := mov_inv h
  replace h := mulx_inv h; obtain ⟨l2, h2, e2, h⟩ := h
  replace h := mov_inv h
  replace h := mov_inv h
  replace h := mov_inv h
  replace h := mulx_inv h; obtain ⟨l3, h3, e3, h⟩ := h
  replace h := mov_inv h
  replace h := mov_inv h
  replace h := mov_inv h
  replace h := mulx_inv h; obtain ⟨l4, h4, e4, h⟩ := h
  replace h := add_inv h; obtain ⟨v5, c5, e5, h⟩ := h
  replace h := adc_inv h; obtain ⟨v6, c6, e6, h⟩ := h
  replace h := mov_inv h
  replace h := adc_inv h; obtain ⟨v7, c7, e7, h⟩ := h
  replace h := mov_inv h
  replace h := adc_inv h; obtain ⟨v8, c8, e8, h⟩ := h
  have zc8 : bv c8 = 0 := by
    refine dead (K := 2 ^ 320) (rest := iv l1 + (2 ^ 64) * (iv v5) + (2 ^ 128) * (iv v6) + (2 ^ 192) * (iv v7) + (2 ^ 256) * (iv v8)) (P := iv a.w0 * iv b.w0 + (2 ^ 64) * (iv a.w1 * iv b.w0) + (2 ^ 128) * (iv a.w2 * iv b.w0) + (2 ^ 192) * (iv a.w3 * iv b.w0)) (by linear_combination e1 + (2 ^ 64) * e2 + (2 ^ 128) * e3 + (2 ^ 192) * e4 + (2 ^ 64) * e5 + (2 ^ 128) * e6 + (2 ^ 192) * e7 + (2 ^ 256) * e8 + (2 ^ 256) * hz) ?_ ?_
    · linarith only [iv_nonneg l1, iv_nonneg v5, iv_nonneg v6, iv_nonneg v7, iv_nonneg v8]
    · linarith only [iv_mul_le a.w0 b.w0, iv_mul_le a.w1 b.w0, iv_mul_le a.w2 b.w0, iv_mul_le a.w3 b.w0]
  replace h := mov_inv h
  replace h := mov_inv h
  replace h := mov_inv h
  replace h := mulx_inv h; obtain ⟨l9, h9, e9, h⟩ := h
  replace h := mov_inv h
  replace h := mov_inv h
  replace h := mov_inv h
  replace h := mulx_inv h; obtain ⟨l10, h10, e10, h⟩ := h
  replace h := mov_inv h
  replace h := mov_inv h
  replace h := mov_inv h
  replace h := mulx_inv h; obtain ⟨l11, h11, e11, h⟩ := h
  replace h := mov_inv h
  replace h := mov_inv h
  replace h := mov_inv h
  replace h := mulx_inv h; obtain ⟨l12, h12, e12, h⟩ := h
  replace h := add_inv h; obtain ⟨v13, c13, e13, h⟩ := h
  replace h := mov_inv h
  replace h := adc_inv h; obtain ⟨v14, c14, e14, h⟩ := h
  replace h := adc_inv h; obtain ⟨v15, c15, e15, h⟩ := h
  replace h := adc_inv h; obtain ⟨v16, c16, e16, h⟩ := h
  replace h := adc_inv h; obtain ⟨v17, c17, e17, h⟩ := h
  have zc17 : bv c17 = 0 := by
    refine dead (K := 2 ^ 384) (rest := (2 ^ 64) * (iv v13) + (2 ^ 128) * (iv v14) + (2 ^ 192) * (iv v15) + (2 ^ 256) * (iv v16) + (2 ^ 320) * (iv v17)) (P := (2 ^ 64) * (iv a.w0 * iv b.w1) + (2 ^ 128) * (iv a.w1 * iv b.w1) + (2 ^ 192) * (iv a.w2 * iv b.w1) + (2 ^ 256) * (iv a.w3 * iv b.w1) + (2 ^ 64) * (iv v5)) (by linear_combination (2 ^ 64) * e9 + (2 ^ 128) * e10 + (2 ^ 192) * e11 + (2 ^ 256) * e12 + (2 ^ 64) * e13 + (2 ^ 128) * e14 + (2 ^ 192) * e15 + (2 ^ 256) * e16 + (2 ^ 320) * e17 + (2 ^ 320) * hz) ?_ ?_
    · linarith only [iv_nonneg v13, iv_nonneg v14, iv_nonneg v15, iv_nonneg v16, iv_nonneg v17]
    · linarith only [iv_mul_le a.w0 b.w1, iv_mul_le a.w1 b.w1, iv_mul_le a.w2 b.w1, iv_mul_le a.w3 b.w1, iv_le v5]
  replace h := adc_inv h; obtain ⟨v18, c18, e18, h⟩ := h
  replace h := mov_inv h
  replace h := adc_inv h; obtain ⟨v19, c19, e19, h⟩ := h
  replace h := mov_inv h
  replace h := adc_inv h; obtain ⟨v20, c20, e20, h⟩ := h
  replace h := mov_inv h
  replace h := adc_inv h; obtain ⟨v21, c21, e21, h⟩ := h
  have zc21 : bv c21 = 0 := by
    refine dead (K := 2 ^ 384) (rest := (2 ^ 64) * (iv v13) + (2 ^ 128) * (iv v18) + (2 ^ 192) * (iv v19) + (2 ^ 256) * (iv v20) + (2 ^ 320) * (iv v21)) (P := (2 ^ 64) * (iv a.w0 * iv b.w1) + (2 ^ 128) * (iv a.w1 * iv b.w1) + (2 ^ 192) * (iv a.w2 * iv b.w1) + (2 ^ 256) * (iv a.w3 * iv b.w1) + (2 ^ 64) * (iv v5) + (2 ^ 128) * (iv v6) + (2 ^ 192) * (iv v7) + (2 ^ 256) * (iv v8)) (by linear_combination (2 ^ 64) * e9 + (2 ^ 128) * e10 + (2 ^ 192) * e11 + (2 ^ 256) * e12 + (2 ^ 64) * e13 + (2 ^ 128) * e14 + (2 ^ 192) * e15 + (2 ^ 256) * e16 + (2 ^ 320) * e17 + (2 ^ 128) * e18 + (2 ^ 192) * e19 + (2 ^ 256) * e20 + (2 ^ 320) * e21 + (-115792089237316195423570985008687907853269984665640564039457584007913129639935 * 2 ^ 128) * zc17 + (2 ^ 321) * hz) ?_ ?_
    · linarith only [iv_nonneg v13, iv_nonneg v18, iv_nonneg v19, iv_nonneg v20, iv_nonneg v21]
    · linarith only [iv_mul_le a.w0 b.w1, iv_mul_le a.w1 b.w1, iv_mul_le a.w2 b.w1, iv_mul_le a.w3 b.w1, iv_le v5, iv_le v6, iv_le v7, iv_le v8]
  replace h := mov_inv h
  replace h := mov_inv h
  replace h := mov_inv h
  replace h := mulx_inv h; obtain ⟨l22, h22, e22, h⟩ := h
  replace h := mov_inv h
  replace h := mov_inv h
  replace h := mov_inv h
  replace h := mulx_inv h; obtain ⟨l23, h23, e23, h⟩ := h
  replace h := mov_inv h
  replace h := mov_inv h
  replace h := mov_inv h
  replace h := mulx_inv h; obtain ⟨l24, h24, e24, h⟩ := h
  replace h := mov_inv h
  replace h := mov_inv h
  replace h := mov_inv h
  replace h := mulx_inv h; obtain ⟨l25, h25, e25, h⟩ := h
  replace h := add_inv h; obtain ⟨v26, c26, e26, h⟩ := h
  replace h := mov_inv h
  replace h := adc_inv h; obtain ⟨v27, c27, e27, h⟩ := h
  replace h := adc_inv h; obtain ⟨v28, c28, e28, h⟩ := h
  replace h := adc_inv h; obtain ⟨v29, c29, e29, h⟩ := h
  replace h := adc_inv h; obtain ⟨v30, c30, e30, h⟩ := h
  have zc30 : bv c30 = 0 := by
    refine dead (K := 2 ^ 448) (rest := (2 ^ 128) * (iv v26) + (2 ^ 192) * (iv v27) + (2 ^ 256) * (iv v28) + (2 ^ 320) * (iv v29) + (2 ^ 384) * (iv v30)) (P := (2 ^ 128) * (iv a.w0 * iv b.w2) + (2 ^ 192) * (iv a.w1 * iv b.w2) + (2 ^ 256) * (iv a.w2 * iv b.w2) + (2 ^ 320) * (iv a.w3 * iv b.w2) + (2 ^ 128) * (iv v18)) (by linear_combination (2 ^ 128) * e22 + (2 ^ 192) * e23 + (2 ^ 256) * e24 + (2 ^ 320) * e25 + (2 ^ 128) * e26 + (2 ^ 192) * e27 + (2 ^ 256) * e28 + (2 ^ 320) * e29 + (2 ^ 384) * e30 + (2 ^ 384) * hz) ?_ ?_
    · linarith only [iv_nonneg v26, iv_nonneg v27, iv_nonneg v28, iv_nonneg v29, iv_nonneg v30]
    · linarith only [iv_mul_le a.w0 b.w2, iv_mul_le a.w1 b.w2, iv_mul_le a.w2 b.w2, iv_mul_le a.w3 b.w2, iv_le v18]
  replace h := adc_inv h; obtain ⟨v31, c31, e31, h⟩ := h
  replace h := mov_inv h
  replace h := adc_inv h; obtain ⟨v32, c32, e32, h⟩ := h
  replace h := mov_inv h
  replace h := adc_inv h; obtain ⟨v33, c33, e33, h⟩ := h
  replace h := mov_inv h
  replace h := adc_inv h; obtain ⟨v34, c34, e34, h⟩ := h
  have zc34 : bv c34 = 0 := by
    refine dead (K := 2 ^ 448) (rest := (2 ^ 128) * (iv v26) + (2 ^ 192) * (iv v31) + (2 ^ 256) * (iv v32) + (2 ^ 320) * (iv v33) + (2 ^ 384) * (iv v34)) (P := (2 ^ 128) * (iv a.w0 * iv b.w2) + (2 ^ 192) * (iv a.w1 * iv b.w2) + (2 ^ 256) * (iv a.w2 * iv b.w2) + (2 ^ 320) * (iv a.w3 * iv b.w2) + (2 ^ 128) * (iv v18) + (2 ^ 192) * (iv v19) + (2 ^ 256) * (iv v20) + (2 ^ 320) * (iv v21)) (by linear_combination (2 ^ 128) * e22 + (2 ^ 192) * e23 + (2 ^ 256) * e24 + (2 ^ 320) * e25 + (2 ^ 128) * e26 + (2 ^ 192) * e27 + (2 ^ 256) * e28 + (2 ^ 320) * e29 + (2 ^ 384) * e30 + (2 ^ 192) * e31 + (2 ^ 256) * e32 + (2 ^ 320) * e33 + (2 ^ 384) * e34 + (-115792089237316195423570985008687907853269984665640564039457584007913129639935 * 2 ^ 192) * zc30 + (2 ^ 385) * hz) ?_ ?_
    · linarith only [iv_nonneg v26, iv_nonneg v31, iv_nonneg v32, iv_nonneg v33, iv_nonneg v34]
    · linarith only [iv_mul_le a.w0 b.w2, iv_mul_le a.w1 b.w2, iv_mul_le a.w2 b.w2, iv_mul_le a.w3 b.w2, iv_le v18, iv_le v19, iv_le v20, iv_le v21]
  replace h := mov_inv h
  replace h := mov_inv h
  replace h := mov_inv h
  replace h := mulx_inv h; obtain ⟨l35, h35, e35, h⟩ := h
  replace h := mov_inv h
  replace h := mov_inv h
  replace h := mov_inv h
  replace h := mulx_inv h; obtain ⟨l36, h36, e36, h⟩ := h
  replace h := mov_inv h
  replace h := mov_inv h
  replace h := mov_inv h
  replace h := mulx_inv h; obtain ⟨l37, h37, e37, h⟩ := h
  replace h := mov_inv h
  replace h := mov_inv h
  replace h := mov_inv h
  replace h := mulx_inv h; obtain ⟨l38, h38, e38, h⟩ := h
  replace h := add_inv h; obtain ⟨v39, c39, e39, h⟩ := h
  replace h := mov_inv h
  replace h := adc_inv h; obtain ⟨v40, c40, e40, h⟩ := h
  replace h := adc_inv h; obtain ⟨v41, c41, e41, h⟩ := h
  replace h := adc_inv h; obtain ⟨v42, c42, e42, h⟩ := h
  replace h := adc_inv h; obtain ⟨v43, c43, e43, h⟩ := h
  have zc43 : bv c43 = 0 := by
    refine dead (K := 2 ^ 512) (rest := (2 ^ 192) * (iv v39) + (2 ^ 256) * (iv v40) + (2 ^ 320) * (iv v41) + (2 ^ 384) * (iv v42) + (2 ^ 448) * (iv v43)) (P := (2 ^ 192) * (iv a.w0 * iv b.w3) + (2 ^ 256) * (iv a.w1 * iv b.w3) + (2 ^ 320) * (iv a.w2 * iv b.w3) + (2 ^ 384) * (iv a.w3 * iv b.w3) + (2 ^ 192) * (iv v31)) (by linear_combination (2 ^ 192) * e35 + (2 ^ 256) * e36 + (2 ^ 320) * e37 + (2 ^ 384) * e38 + (2 ^ 192) * e39 + (2 ^ 256) * e40 + (2 ^ 320) * e41 + (2 ^ 384) * e42 + (2 ^ 448) * e43 + (2 ^ 448) * hz) ?_ ?_
    · linarith only [iv_nonneg v39, iv_nonneg v40, iv_nonneg v41, iv_nonneg v42, iv_nonneg v43]
    · linarith only [iv_mul_le a.w0 b.w3, iv_mul_le a.w1 b.w3, iv_mul_le a.w2 b.w3, iv_mul_le a.w3 b.w3, iv_le v31]
  replace h := adc_inv h; obtain ⟨v44, c44, e44, h⟩ := h
  replace h := mov_inv h
  replace h := adc_inv h; obtain ⟨v45, c45, e45, h⟩ := h
  replace h := mov_inv h
  replace h := adc_inv h; obtain ⟨v46, c46, e46, h⟩ := h
  replace h := mov_inv h
  replace h := adc_inv h; obtain ⟨v47, c47, e47, h⟩ := h
  have zc47 : bv c47 = 0 := by
    refine dead (K := 2 ^ 512) (rest := (2 ^ 192) * (iv v39) + (2 ^ 256) * (iv v44) + (2 ^ 320) * (iv v45) + (2 ^ 384) * (iv v46) + (2 ^ 448) * (iv v47)) (P := (2 ^ 192) * (iv a.w0 * iv b.w3) + (2 ^ 256) * (iv a.w1 * iv b.w3) + (2 ^ 320) * (iv a.w2 * iv b.w3) + (2 ^ 384) * (iv a.w3 * iv b.w3) + (2 ^ 192) * (iv v31) + (2 ^ 256) * (iv v32) + (2 ^ 320) * (iv v33) + (2 ^ 384) * (iv v34)) (by linear_combination (2 ^ 192) * e35 + (2 ^ 256) * e36 + (2 ^ 320) * e37 + (2 ^ 384) * e38 + (2 ^ 192) * e39 + (2 ^ 256) * e40 + (2 ^ 320) * e41 + (2 ^ 384) * e42 + (2 ^ 448) * e43 + (2 ^ 256) * e44 + (2 ^ 320) * e45 + (2 ^ 384) * e46 + (2 ^ 448) * e47 + (-115792089237316195423570985008687907853269984665640564039457584007913129639935 * 2 ^ 256) * zc43 + (2 ^ 449) * hz) ?_ ?_
    · linarith only [iv_nonneg v39, iv_nonneg v44, iv_nonneg v45, iv_nonneg v46, iv_nonneg v47]
    · linarith only [iv_mul_le a.w0 b.w3, iv_mul_le a.w1 b.w3, iv_mul_le a.w2 b.w3, iv_mul_le a.w3 b.w3, iv_le v31, iv_le v32, iv_le v33, iv_le v34]
  replace h := mov_inv h
  subst h
  simp only [F8.val, F4.val]
  linear_combination (2 ^ 448) * e47 + (-2 ^ 512) * zc47 + (2 ^ 384) * e46 + (2 ^ 320) * e45 + (2 ^ 256) * e44 + (2 ^ 448) * e43 + (-115792089237316195423570985008687907853269984665640564039457584007913129639935 * 2 ^ 256) * zc43 + (2 ^ 384) * e42 + (2 ^ 320) * e41 + (2 ^ 256) * e40 + (2 ^ 192) * e39 + (2 ^ 384) * e38 + (2 ^ 320) * e37 + (2 ^ 256) * e36 + (2 ^ 192) * e35 + (2 ^ 384) * e34 + (-2 ^ 448) * zc34 + (2 ^ 320) * e33 + (2 ^ 256) * e32 + (2 ^ 192) * e31 + (2 ^ 384) * e30 + (-115792089237316195423570985008687907853269984665640564039457584007913129639935 * 2 ^ 192) * zc30 + (2 ^ 320) * e29 + (2 ^ 256) * e28 + (2 ^ 192) * e27 + (2 ^ 128) * e26 + (2 ^ 320) * e25 + (2 ^ 256) * e24 + (2 ^ 192) * e23 + (2 ^ 128) * e22 + (2 ^ 320) * e21 + (-2 ^ 384) * zc21 + (2 ^ 256) * e20 + (2 ^ 192) * e19 + (2 ^ 128) * e18 + (2 ^ 320) * e17 + (-115792089237316195423570985008687907853269984665640564039457584007913129639935 * 2 ^ 128) * zc17 + (2 ^ 256) * e16 + (2 ^ 192) * e15 + (2 ^ 128) * e14 + (2 ^ 64) * e13 + (2 ^ 256) * e12 + (2 ^ 192) * e11 + (2 ^ 128) * e10 + (2 ^ 64) * e9 + (2 ^ 256) * e8 + (-2 ^ 320) * zc8 + (2 ^ 192) * e7 + (2 ^ 128) * e6 + (2 ^ 64) * e5 + (2 ^ 192) * e4 + (2 ^ 128) * e3 + (2 ^ 64) * e2 + e1 + (12554203470773361528352143580257209759168353591939024551937 * 2 ^ 256) * hz

end Verif.Fp25519.Asm
