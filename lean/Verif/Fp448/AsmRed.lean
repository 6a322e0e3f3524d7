import Verif.Fp448.Asm
import Verif.Fp448.Lemmas

/-! # Reductions

Helper lemmas: one linear identity per straight-line block. -/

namespace Verif.Fp448.Asm

set_option maxRecDepth 4000
set_option linter.unusedVariables false
set_option exponentiation.threshold 2000

theorem reduce_adx_fold (a : F14) : (reduce_adx a).val = fold (fold (spread a.val)) := by
  generalize h : reduce_adx a = X
  unfold reduce_adx at h
  have hz : iv 0#64 = 0 := rfl
  have hf : bv false = 0 := rfl
  replace h := mov_inv h
  replace h := mov_inv h
  replace h := mov_inv h
  replace h := andhi_inv h; obtain ⟨v1, e1, h⟩ := h
  replace h := mov_inv h
  replace h := mov_inv h
  replace h := shld0_inv h; obtain ⟨v2, e2, h⟩ := h
  replace h := mov_inv h
  replace h := shld_inv h; obtain ⟨v3, e3, h⟩ := h
  replace h := mov_inv h
  replace h := shld_inv h; obtain ⟨v4, e4, h⟩ := h
  replace h := mov_inv h
  replace h := shld_inv h; obtain ⟨v5, e5, h⟩ := h
  replace h := mov_inv h
  replace h := shl_inv h; obtain ⟨v6, e6, h⟩ := h
  replace h := mov_inv h
  replace h := andlo_inv h; obtain ⟨v7, e7, h⟩ := h
  replace h := or_inv h ⟨2 * hv a.w10 - 2 ^ 32 * bv (v1).msb, by linear_combination e6 + 2 * e1⟩ (by linarith only [e7, lv_le a.w10]); obtain ⟨v8, e8, h⟩ := h
  replace h := mov_inv h
  replace h := xor0_inv h
  replace h := adc_inv h; obtain ⟨v10, c10, e10, h⟩ := h
  replace h := mov_inv h
  replace h := mov_inv h
  replace h := adc_inv h; obtain ⟨v11, c11, e11, h⟩ := h
  replace h := mov_inv h
  replace h := mov_inv h
  replace h := adc_inv h; obtain ⟨v12, c12, e12, h⟩ := h
  replace h := mov_inv h
  replace h := mov_inv h
  replace h := adc_inv h; obtain ⟨v13, c13, e13, h⟩ := h
  replace h := mov_inv h
  replace h := mov_inv h
  replace h := adc_inv h; obtain ⟨v14, c14, e14, h⟩ := h
  replace h := mov_inv h
  replace h := mov_inv h
  replace h := adc_inv h; obtain ⟨v15, c15, e15, h⟩ := h
  replace h := mov_inv h
  replace h := mov_inv h
  replace h := adc_inv h; obtain ⟨v16, c16, e16, h⟩ := h
  replace h := mov_inv h
  replace h := mov_inv h
  replace h := adc_inv h; obtain ⟨v17, c17, e17, h⟩ := h
  have zc17 : bv c17 = 0 := by
    refine bv_eq_zero ?_
    linarith only [e17, e2, iv_nonneg v17, bv_le (a.w13).msb, hz, bv_le c16]
  have hA : iv v17 ≤ 2 := by
    linarith only [e17, e2, zc17, bv_le (a.w13).msb, hz, bv_le c16]
  replace h := mov_inv h
  replace h := shrd_inv h; obtain ⟨v18, e18, h⟩ := h
  replace h := shrd_inv h; obtain ⟨v19, e19, h⟩ := h
  replace h := shrd_inv h; obtain ⟨v20, e20, h⟩ := h
  replace h := shrd_inv h; obtain ⟨v21, e21, h⟩ := h
  replace h := shrd_inv h; obtain ⟨v22, e22, h⟩ := h
  replace h := shrd_inv h; obtain ⟨v23, e23, h⟩ := h
  replace h := shrd_inv h; obtain ⟨v24, e24, h⟩ := h
  replace h := xor0_inv h
  replace h := adc_inv h; obtain ⟨v26, c26, e26, h⟩ := h
  replace h := adc_inv h; obtain ⟨v27, c27, e27, h⟩ := h
  replace h := adc_inv h; obtain ⟨v28, c28, e28, h⟩ := h
  replace h := adc_inv h; obtain ⟨v29, c29, e29, h⟩ := h
  replace h := adc_inv h; obtain ⟨v30, c30, e30, h⟩ := h
  replace h := adc_inv h; obtain ⟨v31, c31, e31, h⟩ := h
  replace h := adc_inv h; obtain ⟨v32, c32, e32, h⟩ := h
  replace h := adc_inv h; obtain ⟨v33, c33, e33, h⟩ := h
  have zc33 : bv c33 = 0 := by
    refine bv_eq_zero ?_
    linarith only [e33, hA, iv_nonneg v33, hz, bv_le c32]
  have hB : iv v33 ≤ 3 := by
    linarith only [e33, hA, zc33, hz, bv_le c32]
  have EB : iv v26 + (2 ^ 64) * (iv v27) + (2 ^ 128) * (iv v28) + (2 ^ 192) * (iv v29) + (2 ^ 256) * (iv v30) + (2 ^ 320) * (iv v31) + (2 ^ 384) * (iv v32) + (2 ^ 448) * (iv v33) = (2 ^ 384) * (hv a.w9) + (26959946667150639794667015087019630673637144422540572481103610249217 * 2 ^ 192) * (lv a.w10) + (2 ^ 320) * (hv a.w8) + (2 ^ 352) * (lv a.w9) + (2 ^ 256) * (hv a.w7) + (2 ^ 288) * (lv a.w8) + (2 ^ 192) * (hv a.w13) + (2 ^ 224) * (lv a.w7) + (2 ^ 128) * (hv a.w12) + (2 ^ 160) * (lv a.w13) + (2 ^ 64) * (hv a.w11) + (2 ^ 96) * (lv a.w12) + (53919893334301279589334030174039261347274288845081144962207220498433) * (hv a.w10) + (2 ^ 32) * (lv a.w11) + (2 ^ 384) * (iv a.w6) + (2 ^ 320) * (iv a.w5) + (2 ^ 256) * (iv a.w4) + (2 ^ 192) * (iv a.w3) + (2 ^ 128) * (iv a.w9) + (2 ^ 128) * (iv a.w2) + (2 ^ 64) * (iv a.w8) + (2 ^ 64) * (iv a.w1) + iv a.w7 + iv a.w0 + (2 ^ 257) * (iv a.w11) + (2 ^ 321) * (iv a.w12) + (2 ^ 385) * (iv a.w13) := by linear_combination (2 ^ 448) * e33 + (-2 ^ 512) * zc33 + (2 ^ 384) * e32 + (2 ^ 320) * e31 + (2 ^ 256) * e30 + (2 ^ 192) * e29 + (2 ^ 128) * e28 + (2 ^ 64) * e27 + e26 + (2 ^ 449) * hz + (2 ^ 1) * hf + (2 ^ 384) * e24 + (2 ^ 320) * e23 + (2 ^ 256) * e22 + (2 ^ 192) * e21 + (2 ^ 128) * e20 + (2 ^ 64) * e19 + e18 + (2 ^ 448) * e17 + (-2 ^ 512) * zc17 + (2 ^ 384) * e16 + (2 ^ 320) * e15 + (2 ^ 256) * e14 + (2 ^ 192) * e13 + (2 ^ 128) * e12 + (2 ^ 64) * e11 + e10 + (2 ^ 192) * e8 + (2 ^ 192) * e7 + (2 ^ 192) * e6 + (2 ^ 256) * e5 + (2 ^ 320) * e4 + (2 ^ 384) * e3 + (2 ^ 448) * e2 + (2 ^ 193) * e1
  replace h := mov_inv h
  replace h := shl32_inv h (by linarith only [hB]); obtain ⟨v34, e34, h⟩ := h
  replace h := clc_inv h
  replace h := adc_inv h; obtain ⟨v35, c35, e35, h⟩ := h
  replace h := mov_inv h
  replace h := adc_inv h; obtain ⟨v36, c36, e36, h⟩ := h
  replace h := adc_inv h; obtain ⟨v37, c37, e37, h⟩ := h
  replace h := adc_inv h; obtain ⟨v38, c38, e38, h⟩ := h
  replace h := adc_inv h; obtain ⟨v39, c39, e39, h⟩ := h
  replace h := adc_inv h; obtain ⟨v40, c40, e40, h⟩ := h
  replace h := adc_inv h; obtain ⟨v41, c41, e41, h⟩ := h
  replace h := adc_inv h; obtain ⟨v42, c42, e42, h⟩ := h
  replace h := mov_inv h
  have tC : iv v42 = bv c41 := by
    cases c41 <;> cases c42 <;> simp only [bv_true, bv_false] at e42 ⊢ <;> linarith only [e42, hz, iv_nonneg v42, iv_lt v42]
  replace h := shl32_inv h (by linarith only [tC, bv_le c41]); obtain ⟨v43, e43, h⟩ := h
  replace h := clc_inv h
  replace h := adc_inv h; obtain ⟨v44, c44, e44, h⟩ := h
  replace h := mov_inv h
  replace h := mov_inv h
  replace h := adc_inv h; obtain ⟨v45, c45, e45, h⟩ := h
  replace h := mov_inv h
  replace h := adc_inv h; obtain ⟨v46, c46, e46, h⟩ := h
  replace h := mov_inv h
  replace h := adc_inv h; obtain ⟨v47, c47, e47, h⟩ := h
  replace h := mov_inv h
  replace h := adc_inv h; obtain ⟨v48, c48, e48, h⟩ := h
  replace h := mov_inv h
  replace h := adc_inv h; obtain ⟨v49, c49, e49, h⟩ := h
  replace h := mov_inv h
  replace h := adc_inv h; obtain ⟨v50, c50, e50, h⟩ := h
  replace h := mov_inv h
  subst h
  refine fold2_eq (x := spread a.val) (w := iv v26 + (2 ^ 64) * (iv v27) + (2 ^ 128) * (iv v28) + (2 ^ 192) * (iv v29) + (2 ^ 256) * (iv v30) + (2 ^ 320) * (iv v31) + (2 ^ 384) * (iv v32)) (t := iv v33) (v := iv v35 + (2 ^ 64) * (iv v36) + (2 ^ 128) * (iv v37) + (2 ^ 192) * (iv v38) + (2 ^ 256) * (iv v39) + (2 ^ 320) * (iv v40) + (2 ^ 384) * (iv v41)) (c := bv c41) (d := bv c50)
    (by rw [spread_eq a]; simp only [spreadW, F7.val]; linear_combination EB - 2 ^ 224 * hl_split a.w7 - 2 ^ 288 * hl_split a.w8 - 2 ^ 352 * hl_split a.w9 - 2 ^ 32 * hl_split a.w11 - 2 ^ 96 * hl_split a.w12 - 2 ^ 160 * hl_split a.w13) (by linarith only [iv_nonneg v26, iv_nonneg v27, iv_nonneg v28, iv_nonneg v29, iv_nonneg v30, iv_nonneg v31, iv_nonneg v32]) (by linarith only [iv_le v26, iv_le v27, iv_le v28, iv_le v29, iv_le v30, iv_le v31, iv_le v32]) (by linarith only [iv_nonneg v33]) (by linarith only [hB])
    (by linear_combination (2 ^ 384) * e41 + (2 ^ 320) * e40 + (2 ^ 256) * e39 + (2 ^ 192) * e38 + (2 ^ 128) * e37 + (2 ^ 64) * e36 + e35 + (2135987035920910082510813795406868310032552609100727358564147381911067956236218936219412960641025 * 2 ^ 64) * hz + hf + (2 ^ 192) * e34) (by linarith only [iv_nonneg v35, iv_nonneg v36, iv_nonneg v37, iv_nonneg v38, iv_nonneg v39, iv_nonneg v40, iv_nonneg v41]) (by linarith only [iv_le v35, iv_le v36, iv_le v37, iv_le v38, iv_le v39, iv_le v40, iv_le v41])
    (by simp only [F7.val]; linear_combination (2 ^ 384) * e50 + (2 ^ 320) * e49 + (2 ^ 256) * e48 + (2 ^ 192) * e47 + (2 ^ 128) * e46 + (2 ^ 64) * e45 + e44 + (2135987035920910082510813795406868310032552609100727358564147381911067956236218936219412960641025 * 2 ^ 64) * hz + hf + (2 ^ 192) * e43 + (1 + 2 ^ 224) * tC) (F7.val_nonneg _) (F7.val_lt _)

theorem reduce_leg_fold (a : F14) : (reduce_leg a).val = fold (fold (spread a.val)) := by
  generalize h : reduce_leg a = X
  unfold reduce_leg at h
  have hz : iv 0#64 = 0 := rfl
  have hf : bv false = 0 := rfl
  replace h := mov_inv h
  replace h := mov_inv h
  replace h := mov_inv h
  replace h := andhi_inv h; obtain ⟨v1, e1, h⟩ := h
  replace h := mov_inv h
  replace h := mov_inv h
  replace h := shld0_inv h; obtain ⟨v2, e2, h⟩ := h
  replace h := mov_inv h
  replace h := shld_inv h; obtain ⟨v3, e3, h⟩ := h
  replace h := mov_inv h
  replace h := shld_inv h; obtain ⟨v4, e4, h⟩ := h
  replace h := mov_inv h
  replace h := shld_inv h; obtain ⟨v5, e5, h⟩ := h
  replace h := mov_inv h
  replace h := shl_inv h; obtain ⟨v6, e6, h⟩ := h
  replace h := mov_inv h
  replace h := andlo_inv h; obtain ⟨v7, e7, h⟩ := h
  replace h := or_inv h ⟨2 * hv a.w10 - 2 ^ 32 * bv (v1).msb, by linear_combination e6 + 2 * e1⟩ (by linarith only [e7, lv_le a.w10]); obtain ⟨v8, e8, h⟩ := h
  replace h := mov_inv h
  replace h := add_inv h; obtain ⟨v9, c9, e9, h⟩ := h
  replace h := mov_inv h
  replace h := mov_inv h
  replace h := adc_inv h; obtain ⟨v10, c10, e10, h⟩ := h
  replace h := mov_inv h
  replace h := mov_inv h
  replace h := adc_inv h; obtain ⟨v11, c11, e11, h⟩ := h
  replace h := mov_inv h
  replace h := mov_inv h
  replace h := adc_inv h; obtain ⟨v12, c12, e12, h⟩ := h
  replace h := mov_inv h
  replace h := mov_inv h
  replace h := adc_inv h; obtain ⟨v13, c13, e13, h⟩ := h
  replace h := mov_inv h
  replace h := mov_inv h
  replace h := adc_inv h; obtain ⟨v14, c14, e14, h⟩ := h
  replace h := mov_inv h
  replace h := mov_inv h
  replace h := adc_inv h; obtain ⟨v15, c15, e15, h⟩ := h
  replace h := mov_inv h
  replace h := mov_inv h
  replace h := adc_inv h; obtain ⟨v16, c16, e16, h⟩ := h
  have zc16 : bv c16 = 0 := by
    refine bv_eq_zero ?_
    linarith only [e16, e2, iv_nonneg v16, bv_le (a.w13).msb, hz, bv_le c15]
  have hA : iv v16 ≤ 2 := by
    linarith only [e16, e2, zc16, bv_le (a.w13).msb, hz, bv_le c15]
  replace h := mov_inv h
  replace h := shrd_inv h; obtain ⟨v17, e17, h⟩ := h
  replace h := shrd_inv h; obtain ⟨v18, e18, h⟩ := h
  replace h := shrd_inv h; obtain ⟨v19, e19, h⟩ := h
  replace h := shrd_inv h; obtain ⟨v20, e20, h⟩ := h
  replace h := shrd_inv h; obtain ⟨v21, e21, h⟩ := h
  replace h := shrd_inv h; obtain ⟨v22, e22, h⟩ := h
  replace h := shrd_inv h; obtain ⟨v23, e23, h⟩ := h
  replace h := add_inv h; obtain ⟨v24, c24, e24, h⟩ := h
  replace h := adc_inv h; obtain ⟨v25, c25, e25, h⟩ := h
  replace h := adc_inv h; obtain ⟨v26, c26, e26, h⟩ := h
  replace h := adc_inv h; obtain ⟨v27, c27, e27, h⟩ := h
  replace h := adc_inv h; obtain ⟨v28, c28, e28, h⟩ := h
  replace h := adc_inv h; obtain ⟨v29, c29, e29, h⟩ := h
  replace h := adc_inv h; obtain ⟨v30, c30, e30, h⟩ := h
  replace h := adc_inv h; obtain ⟨v31, c31, e31, h⟩ := h
  have zc31 : bv c31 = 0 := by
    refine bv_eq_zero ?_
    linarith only [e31, hA, iv_nonneg v31, hz, bv_le c30]
  have hB : iv v31 ≤ 3 := by
    linarith only [e31, hA, zc31, hz, bv_le c30]
  have EB : iv v24 + (2 ^ 64) * (iv v25) + (2 ^ 128) * (iv v26) + (2 ^ 192) * (iv v27) + (2 ^ 256) * (iv v28) + (2 ^ 320) * (iv v29) + (2 ^ 384) * (iv v30) + (2 ^ 448) * (iv v31) = (2 ^ 384) * (hv a.w9) + (26959946667150639794667015087019630673637144422540572481103610249217 * 2 ^ 192) * (lv a.w10) + (2 ^ 320) * (hv a.w8) + (2 ^ 352) * (lv a.w9) + (2 ^ 256) * (hv a.w7) + (2 ^ 288) * (lv a.w8) + (2 ^ 192) * (hv a.w13) + (2 ^ 224) * (lv a.w7) + (2 ^ 128) * (hv a.w12) + (2 ^ 160) * (lv a.w13) + (2 ^ 64) * (hv a.w11) + (2 ^ 96) * (lv a.w12) + (53919893334301279589334030174039261347274288845081144962207220498433) * (hv a.w10) + (2 ^ 32) * (lv a.w11) + (2 ^ 384) * (iv a.w6) + (2 ^ 320) * (iv a.w5) + (2 ^ 256) * (iv a.w4) + (2 ^ 192) * (iv a.w3) + (2 ^ 128) * (iv a.w9) + (2 ^ 128) * (iv a.w2) + (2 ^ 64) * (iv a.w8) + (2 ^ 64) * (iv a.w1) + iv a.w7 + iv a.w0 + (2 ^ 257) * (iv a.w11) + (2 ^ 321) * (iv a.w12) + (2 ^ 385) * (iv a.w13) := by linear_combination (2 ^ 448) * e31 + (-2 ^ 512) * zc31 + (2 ^ 384) * e30 + (2 ^ 320) * e29 + (2 ^ 256) * e28 + (2 ^ 192) * e27 + (2 ^ 128) * e26 + (2 ^ 64) * e25 + e24 + (2 ^ 449) * hz + (2 ^ 384) * e23 + (2 ^ 320) * e22 + (2 ^ 256) * e21 + (2 ^ 192) * e20 + (2 ^ 128) * e19 + (2 ^ 64) * e18 + e17 + (2 ^ 448) * e16 + (-2 ^ 512) * zc16 + (2 ^ 384) * e15 + (2 ^ 320) * e14 + (2 ^ 256) * e13 + (2 ^ 192) * e12 + (2 ^ 128) * e11 + (2 ^ 64) * e10 + e9 + (2 ^ 192) * e8 + (2 ^ 192) * e7 + (2 ^ 192) * e6 + (2 ^ 256) * e5 + (2 ^ 320) * e4 + (2 ^ 384) * e3 + (2 ^ 448) * e2 + (2 ^ 193) * e1
  replace h := mov_inv h
  replace h := shl32_inv h (by linarith only [hB]); obtain ⟨v32, e32, h⟩ := h
  replace h := add_inv h; obtain ⟨v33, c33, e33, h⟩ := h
  replace h := mov_inv h
  replace h := adc_inv h; obtain ⟨v34, c34, e34, h⟩ := h
  replace h := adc_inv h; obtain ⟨v35, c35, e35, h⟩ := h
  replace h := adc_inv h; obtain ⟨v36, c36, e36, h⟩ := h
  replace h := adc_inv h; obtain ⟨v37, c37, e37, h⟩ := h
  replace h := adc_inv h; obtain ⟨v38, c38, e38, h⟩ := h
  replace h := adc_inv h; obtain ⟨v39, c39, e39, h⟩ := h
  replace h := adc_inv h; obtain ⟨v40, c40, e40, h⟩ := h
  replace h := mov_inv h
  have tC : iv v40 = bv c39 := by
    cases c39 <;> cases c40 <;> simp only [bv_true, bv_false] at e40 ⊢ <;> linarith only [e40, hz, iv_nonneg v40, iv_lt v40]
  replace h := shl32_inv h (by linarith only [tC, bv_le c39]); obtain ⟨v41, e41, h⟩ := h
  replace h := add_inv h; obtain ⟨v42, c42, e42, h⟩ := h
  replace h := mov_inv h
  replace h := adc_inv h; obtain ⟨v43, c43, e43, h⟩ := h
  replace h := mov_inv h
  replace h := adc_inv h; obtain ⟨v44, c44, e44, h⟩ := h
  replace h := mov_inv h
  replace h := adc_inv h; obtain ⟨v45, c45, e45, h⟩ := h
  replace h := mov_inv h
  replace h := adc_inv h; obtain ⟨v46, c46, e46, h⟩ := h
  replace h := mov_inv h
  replace h := adc_inv h; obtain ⟨v47, c47, e47, h⟩ := h
  replace h := mov_inv h
  replace h := adc_inv h; obtain ⟨v48, c48, e48, h⟩ := h
  replace h := mov_inv h
  subst h
  refine fold2_eq (x := spread a.val) (w := iv v24 + (2 ^ 64) * (iv v25) + (2 ^ 128) * (iv v26) + (2 ^ 192) * (iv v27) + (2 ^ 256) * (iv v28) + (2 ^ 320) * (iv v29) + (2 ^ 384) * (iv v30)) (t := iv v31) (v := iv v33 + (2 ^ 64) * (iv v34) + (2 ^ 128) * (iv v35) + (2 ^ 192) * (iv v36) + (2 ^ 256) * (iv v37) + (2 ^ 320) * (iv v38) + (2 ^ 384) * (iv v39)) (c := bv c39) (d := bv c48)
    (by rw [spread_eq a]; simp only [spreadW, F7.val]; linear_combination EB - 2 ^ 224 * hl_split a.w7 - 2 ^ 288 * hl_split a.w8 - 2 ^ 352 * hl_split a.w9 - 2 ^ 32 * hl_split a.w11 - 2 ^ 96 * hl_split a.w12 - 2 ^ 160 * hl_split a.w13) (by linarith only [iv_nonneg v24, iv_nonneg v25, iv_nonneg v26, iv_nonneg v27, iv_nonneg v28, iv_nonneg v29, iv_nonneg v30]) (by linarith only [iv_le v24, iv_le v25, iv_le v26, iv_le v27, iv_le v28, iv_le v29, iv_le v30]) (by linarith only [iv_nonneg v31]) (by linarith only [hB])
    (by linear_combination (2 ^ 384) * e39 + (2 ^ 320) * e38 + (2 ^ 256) * e37 + (2 ^ 192) * e36 + (2 ^ 128) * e35 + (2 ^ 64) * e34 + e33 + (2135987035920910082510813795406868310032552609100727358564147381911067956236218936219412960641025 * 2 ^ 64) * hz + (2 ^ 192) * e32) (by linarith only [iv_nonneg v33, iv_nonneg v34, iv_nonneg v35, iv_nonneg v36, iv_nonneg v37, iv_nonneg v38, iv_nonneg v39]) (by linarith only [iv_le v33, iv_le v34, iv_le v35, iv_le v36, iv_le v37, iv_le v38, iv_le v39])
    (by simp only [F7.val]; linear_combination (2 ^ 384) * e48 + (2 ^ 320) * e47 + (2 ^ 256) * e46 + (2 ^ 192) * e45 + (2 ^ 128) * e44 + (2 ^ 64) * e43 + e42 + (2135987035920910082510813795406868310032552609100727358564147381911067956236218936219412960641025 * 2 ^ 64) * hz + (2 ^ 192) * e41 + (1 + 2 ^ 224) * tC) (F7.val_nonneg _) (F7.val_lt _)

theorem mula24_mulx_fold (a : F7) : (mula24_mulx a).val = fold (fold (39082 * a.val)) := by
  generalize h : mula24_mulx a = X
  unfold mula24_mulx at h
  have hz : iv 0#64 = 0 := rfl
  have hf : bv false = 0 := rfl
  replace h := mov_inv h
  replace h := mulx_inv h; obtain ⟨l1, h1, e1, h⟩ := h
  rw [show iv 39082#64 = 39082 from rfl] at e1
  replace h := mulx_inv h; obtain ⟨l2, h2, e2, h⟩ := h
  rw [show iv 39082#64 = 39082 from rfl] at e2
  replace h := add_inv h; obtain ⟨v3, c3, e3, h⟩ := h
  replace h := mulx_inv h; obtain ⟨l4, h4, e4, h⟩ := h
  rw [show iv 39082#64 = 39082 from rfl] at e4
  replace h := adc_inv h; obtain ⟨v5, c5, e5, h⟩ := h
  replace h := mulx_inv h; obtain ⟨l6, h6, e6, h⟩ := h
  rw [show iv 39082#64 = 39082 from rfl] at e6
  replace h := adc_inv h; obtain ⟨v7, c7, e7, h⟩ := h
  replace h := mulx_inv h; obtain ⟨l8, h8, e8, h⟩ := h
  rw [show iv 39082#64 = 39082 from rfl] at e8
  replace h := adc_inv h; obtain ⟨v9, c9, e9, h⟩ := h
  replace h := mulx_inv h; obtain ⟨l10, h10, e10, h⟩ := h
  rw [show iv 39082#64 = 39082 from rfl] at e10
  replace h := adc_inv h; obtain ⟨v11, c11, e11, h⟩ := h
  replace h := mulx_inv h; obtain ⟨l12, h12, e12, h⟩ := h
  rw [show iv 39082#64 = 39082 from rfl] at e12
  replace h := adc_inv h; obtain ⟨v13, c13, e13, h⟩ := h
  replace h := adc_inv h; obtain ⟨v14, c14, e14, h⟩ := h
  have zc14 : bv c14 = 0 := by
    refine dead (K := 2 ^ 512) (rest := iv l1 + (2 ^ 64) * (iv v3) + (2 ^ 128) * (iv v5) + (2 ^ 192) * (iv v7) + (2 ^ 256) * (iv v9) + (2 ^ 320) * (iv v11) + (2 ^ 384) * (iv v13) + (2 ^ 448) * (iv v14)) (P := (19541 * 2 ^ 1) * (iv a.w0) + (19541 * 2 ^ 65) * (iv a.w1) + (19541 * 2 ^ 129) * (iv a.w2) + (19541 * 2 ^ 193) * (iv a.w3) + (19541 * 2 ^ 257) * (iv a.w4) + (19541 * 2 ^ 321) * (iv a.w5) + (19541 * 2 ^ 385) * (iv a.w6)) (by linear_combination e1 + (2 ^ 64) * e2 + (2 ^ 64) * e3 + (2 ^ 128) * e4 + (2 ^ 128) * e5 + (2 ^ 192) * e6 + (2 ^ 192) * e7 + (2 ^ 256) * e8 + (2 ^ 256) * e9 + (2 ^ 320) * e10 + (2 ^ 320) * e11 + (2 ^ 384) * e12 + (2 ^ 384) * e13 + (2 ^ 448) * e14 + (2 ^ 448) * hz) ?_ ?_
    · linarith only [iv_nonneg l1, iv_nonneg v3, iv_nonneg v5, iv_nonneg v7, iv_nonneg v9, iv_nonneg v11, iv_nonneg v13, iv_nonneg v14]
    · linarith only [iv_le a.w0, iv_le a.w1, iv_le a.w2, iv_le a.w3, iv_le a.w4, iv_le a.w5, iv_le a.w6]
  have EB : iv l1 + (2 ^ 64) * (iv v3) + (2 ^ 128) * (iv v5) + (2 ^ 192) * (iv v7) + (2 ^ 256) * (iv v9) + (2 ^ 320) * (iv v11) + (2 ^ 384) * (iv v13) + (2 ^ 448) * (iv v14) = (19541 * 2 ^ 385) * (iv a.w6) + (19541 * 2 ^ 321) * (iv a.w5) + (19541 * 2 ^ 257) * (iv a.w4) + (19541 * 2 ^ 193) * (iv a.w3) + (19541 * 2 ^ 129) * (iv a.w2) + (19541 * 2 ^ 65) * (iv a.w1) + (19541 * 2 ^ 1) * (iv a.w0) := by linear_combination (2 ^ 448) * e14 + (-2 ^ 512) * zc14 + (2 ^ 384) * e13 + (2 ^ 384) * e12 + (2 ^ 320) * e11 + (2 ^ 320) * e10 + (2 ^ 256) * e9 + (2 ^ 256) * e8 + (2 ^ 192) * e7 + (2 ^ 192) * e6 + (2 ^ 128) * e5 + (2 ^ 128) * e4 + (2 ^ 64) * e3 + (2 ^ 64) * e2 + e1 + (2 ^ 448) * hz
  have hB : iv v14 ≤ 39082 := by
    linarith only [EB, iv_nonneg v14, iv_nonneg l1, iv_nonneg v3, iv_nonneg v5, iv_nonneg v7, iv_nonneg v9, iv_nonneg v11, iv_nonneg v13, iv_le a.w6, iv_le a.w5, iv_le a.w4, iv_le a.w3, iv_le a.w2, iv_le a.w1, iv_le a.w0]
  replace h := mov_inv h
  replace h := shl32_inv h (by linarith only [hB]); obtain ⟨v15, e15, h⟩ := h
  replace h := add_inv h; obtain ⟨v16, c16, e16, h⟩ := h
  replace h := mov_inv h
  replace h := adc_inv h; obtain ⟨v17, c17, e17, h⟩ := h
  replace h := adc_inv h; obtain ⟨v18, c18, e18, h⟩ := h
  replace h := adc_inv h; obtain ⟨v19, c19, e19, h⟩ := h
  replace h := adc_inv h; obtain ⟨v20, c20, e20, h⟩ := h
  replace h := adc_inv h; obtain ⟨v21, c21, e21, h⟩ := h
  replace h := adc_inv h; obtain ⟨v22, c22, e22, h⟩ := h
  replace h := adc_inv h; obtain ⟨v23, c23, e23, h⟩ := h
  replace h := mov_inv h
  have tC : iv v23 = bv c22 := by
    cases c22 <;> cases c23 <;> simp only [bv_true, bv_false] at e23 ⊢ <;> linarith only [e23, hz, iv_nonneg v23, iv_lt v23]
  replace h := shl32_inv h (by linarith only [tC, bv_le c22]); obtain ⟨v24, e24, h⟩ := h
  replace h := add_inv h; obtain ⟨v25, c25, e25, h⟩ := h
  replace h := mov_inv h
  replace h := adc_inv h; obtain ⟨v26, c26, e26, h⟩ := h
  replace h := mov_inv h
  replace h := adc_inv h; obtain ⟨v27, c27, e27, h⟩ := h
  replace h := mov_inv h
  replace h := adc_inv h; obtain ⟨v28, c28, e28, h⟩ := h
  replace h := mov_inv h
  replace h := adc_inv h; obtain ⟨v29, c29, e29, h⟩ := h
  replace h := mov_inv h
  replace h := adc_inv h; obtain ⟨v30, c30, e30, h⟩ := h
  replace h := mov_inv h
  replace h := adc_inv h; obtain ⟨v31, c31, e31, h⟩ := h
  replace h := mov_inv h
  subst h
  refine fold2_eq (x := 39082 * a.val) (w := iv l1 + (2 ^ 64) * (iv v3) + (2 ^ 128) * (iv v5) + (2 ^ 192) * (iv v7) + (2 ^ 256) * (iv v9) + (2 ^ 320) * (iv v11) + (2 ^ 384) * (iv v13)) (t := iv v14) (v := iv v16 + (2 ^ 64) * (iv v17) + (2 ^ 128) * (iv v18) + (2 ^ 192) * (iv v19) + (2 ^ 256) * (iv v20) + (2 ^ 320) * (iv v21) + (2 ^ 384) * (iv v22)) (c := bv c22) (d := bv c31)
    (by simp only [F7.val]; linear_combination EB) (by linarith only [iv_nonneg l1, iv_nonneg v3, iv_nonneg v5, iv_nonneg v7, iv_nonneg v9, iv_nonneg v11, iv_nonneg v13]) (by linarith only [iv_le l1, iv_le v3, iv_le v5, iv_le v7, iv_le v9, iv_le v11, iv_le v13]) (by linarith only [iv_nonneg v14]) (by linarith only [hB])
    (by linear_combination (2 ^ 384) * e22 + (2 ^ 320) * e21 + (2 ^ 256) * e20 + (2 ^ 192) * e19 + (2 ^ 128) * e18 + (2 ^ 64) * e17 + e16 + (2135987035920910082510813795406868310032552609100727358564147381911067956236218936219412960641025 * 2 ^ 64) * hz + (2 ^ 192) * e15) (by linarith only [iv_nonneg v16, iv_nonneg v17, iv_nonneg v18, iv_nonneg v19, iv_nonneg v20, iv_nonneg v21, iv_nonneg v22]) (by linarith only [iv_le v16, iv_le v17, iv_le v18, iv_le v19, iv_le v20, iv_le v21, iv_le v22])
    (by simp only [F7.val]; linear_combination (2 ^ 384) * e31 + (2 ^ 320) * e30 + (2 ^ 256) * e29 + (2 ^ 192) * e28 + (2 ^ 128) * e27 + (2 ^ 64) * e26 + e25 + (2135987035920910082510813795406868310032552609100727358564147381911067956236218936219412960641025 * 2 ^ 64) * hz + (2 ^ 192) * e24 + (1 + 2 ^ 224) * tC) (F7.val_nonneg _) (F7.val_lt _)

theorem mula24_mulq_fold (a : F7) : (mula24_mulq a).val = fold (fold (39082 * a.val)) := by
  generalize h : mula24_mulq a = X
  unfold mula24_mulq at h
  have hz : iv 0#64 = 0 := rfl
  have hf : bv false = 0 := rfl
  replace h := mov_inv h
  replace h := mov_inv h
  replace h := mulx_inv h; obtain ⟨l1, h1, e1, h⟩ := h
  rw [show iv 39082#64 = 39082 from rfl, mul_comm] at e1
  replace h := mov_inv h
  replace h := mov_inv h
  replace h := mov_inv h
  replace h := mulx_inv h; obtain ⟨l2, h2, e2, h⟩ := h
  rw [show iv 39082#64 = 39082 from rfl, mul_comm] at e2
  replace h := add_inv h; obtain ⟨v3, c3, e3, h⟩ := h
  replace h := adc_inv h; obtain ⟨v4, c4, e4, h⟩ := h
  have zc4 : bv c4 = 0 := by
    refine dead (K := 2 ^ 192) (rest := iv l1 + (2 ^ 64) * (iv v3) + (2 ^ 128) * (iv v4)) (P := (19541 * 2 ^ 1) * (iv a.w0) + (19541 * 2 ^ 65) * (iv a.w1)) (by linear_combination e1 + (2 ^ 64) * e2 + (2 ^ 64) * e3 + (2 ^ 128) * e4 + (2 ^ 128) * hz) ?_ ?_
    · linarith only [iv_nonneg l1, iv_nonneg v3, iv_nonneg v4]
    · linarith only [iv_le a.w0, iv_le a.w1]
  replace h := mov_inv h
  replace h := mov_inv h
  replace h := mulx_inv h; obtain ⟨l5, h5, e5, h⟩ := h
  rw [show iv 39082#64 = 39082 from rfl, mul_comm] at e5
  replace h := add_inv h; obtain ⟨v6, c6, e6, h⟩ := h
  replace h := adc_inv h; obtain ⟨v7, c7, e7, h⟩ := h
  have zc7 : bv c7 = 0 := by
    refine dead (K := 2 ^ 256) (rest := (2 ^ 128) * (iv v6) + (2 ^ 192) * (iv v7)) (P := (19541 * 2 ^ 129) * (iv a.w2) + (2 ^ 128) * (iv v4)) (by linear_combination (2 ^ 128) * e5 + (2 ^ 128) * e6 + (2 ^ 192) * e7 + (2 ^ 192) * hz) ?_ ?_
    · linarith only [iv_nonneg v6, iv_nonneg v7]
    · linarith only [iv_le a.w2, iv_le v4]
  replace h := mov_inv h
  replace h := mov_inv h
  replace h := mulx_inv h; obtain ⟨l8, h8, e8, h⟩ := h
  rw [show iv 39082#64 = 39082 from rfl, mul_comm] at e8
  replace h := add_inv h; obtain ⟨v9, c9, e9, h⟩ := h
  replace h := adc_inv h; obtain ⟨v10, c10, e10, h⟩ := h
  have zc10 : bv c10 = 0 := by
    refine dead (K := 2 ^ 320) (rest := (2 ^ 192) * (iv v9) + (2 ^ 256) * (iv v10)) (P := (19541 * 2 ^ 193) * (iv a.w3) + (2 ^ 192) * (iv v7)) (by linear_combination (2 ^ 192) * e8 + (2 ^ 192) * e9 + (2 ^ 256) * e10 + (2 ^ 256) * hz) ?_ ?_
    · linarith only [iv_nonneg v9, iv_nonneg v10]
    · linarith only [iv_le a.w3, iv_le v7]
  replace h := mov_inv h
  replace h := mov_inv h
  replace h := mulx_inv h; obtain ⟨l11, h11, e11, h⟩ := h
  rw [show iv 39082#64 = 39082 from rfl, mul_comm] at e11
  replace h := add_inv h; obtain ⟨v12, c12, e12, h⟩ := h
  replace h := adc_inv h; obtain ⟨v13, c13, e13, h⟩ := h
  have zc13 : bv c13 = 0 := by
    refine dead (K := 2 ^ 384) (rest := (2 ^ 256) * (iv v12) + (2 ^ 320) * (iv v13)) (P := (19541 * 2 ^ 257) * (iv a.w4) + (2 ^ 256) * (iv v10)) (by linear_combination (2 ^ 256) * e11 + (2 ^ 256) * e12 + (2 ^ 320) * e13 + (2 ^ 320) * hz) ?_ ?_
    · linarith only [iv_nonneg v12, iv_nonneg v13]
    · linarith only [iv_le a.w4, iv_le v10]
  replace h := mov_inv h
  replace h := mov_inv h
  replace h := mulx_inv h; obtain ⟨l14, h14, e14, h⟩ := h
  rw [show iv 39082#64 = 39082 from rfl, mul_comm] at e14
  replace h := add_inv h; obtain ⟨v15, c15, e15, h⟩ := h
  replace h := adc_inv h; obtain ⟨v16, c16, e16, h⟩ := h
  have zc16 : bv c16 = 0 := by
    refine dead (K := 2 ^ 448) (rest := (2 ^ 320) * (iv v15) + (2 ^ 384) * (iv v16)) (P := (19541 * 2 ^ 321) * (iv a.w5) + (2 ^ 320) * (iv v13)) (by linear_combination (2 ^ 320) * e14 + (2 ^ 320) * e15 + (2 ^ 384) * e16 + (2 ^ 384) * hz) ?_ ?_
    · linarith only [iv_nonneg v15, iv_nonneg v16]
    · linarith only [iv_le a.w5, iv_le v13]
  replace h := mov_inv h
  replace h := mov_inv h
  replace h := mulx_inv h; obtain ⟨l17, h17, e17, h⟩ := h
  rw [show iv 39082#64 = 39082 from rfl, mul_comm] at e17
  replace h := add_inv h; obtain ⟨v18, c18, e18, h⟩ := h
  replace h := adc_inv h; obtain ⟨v19, c19, e19, h⟩ := h
  have zc19 : bv c19 = 0 := by
    refine dead (K := 2 ^ 512) (rest := (2 ^ 384) * (iv v18) + (2 ^ 448) * (iv v19)) (P := (19541 * 2 ^ 385) * (iv a.w6) + (2 ^ 384) * (iv v16)) (by linear_combination (2 ^ 384) * e17 + (2 ^ 384) * e18 + (2 ^ 448) * e19 + (2 ^ 448) * hz) ?_ ?_
    · linarith only [iv_nonneg v18, iv_nonneg v19]
    · linarith only [iv_le a.w6, iv_le v16]
  have EB : iv l1 + (2 ^ 64) * (iv v3) + (2 ^ 128) * (iv v6) + (2 ^ 192) * (iv v9) + (2 ^ 256) * (iv v12) + (2 ^ 320) * (iv v15) + (2 ^ 384) * (iv v18) + (2 ^ 448) * (iv v19) = (19541 * 2 ^ 385) * (iv a.w6) + (19541 * 2 ^ 321) * (iv a.w5) + (19541 * 2 ^ 257) * (iv a.w4) + (19541 * 2 ^ 193) * (iv a.w3) + (19541 * 2 ^ 129) * (iv a.w2) + (19541 * 2 ^ 65) * (iv a.w1) + (19541 * 2 ^ 1) * (iv a.w0) := by linear_combination (2 ^ 448) * e19 + (-2 ^ 512) * zc19 + (2 ^ 384) * e18 + (2 ^ 384) * e17 + (2 ^ 384) * e16 + (-2 ^ 448) * zc16 + (2 ^ 320) * e15 + (2 ^ 320) * e14 + (2 ^ 320) * e13 + (-2 ^ 384) * zc13 + (2 ^ 256) * e12 + (2 ^ 256) * e11 + (2 ^ 256) * e10 + (-2 ^ 320) * zc10 + (2 ^ 192) * e9 + (2 ^ 192) * e8 + (2 ^ 192) * e7 + (-2 ^ 256) * zc7 + (2 ^ 128) * e6 + (2 ^ 128) * e5 + (2 ^ 128) * e4 + (-2 ^ 192) * zc4 + (2 ^ 64) * e3 + (2 ^ 64) * e2 + e1 + (2135987035920910082510813795406868310032552609100727358564487664277988894699682310826844728852481 * 2 ^ 128) * hz
  have hB : iv v19 ≤ 39082 := by
    linarith only [EB, iv_nonneg v19, iv_nonneg l1, iv_nonneg v3, iv_nonneg v6, iv_nonneg v9, iv_nonneg v12, iv_nonneg v15, iv_nonneg v18, iv_le a.w6, iv_le a.w5, iv_le a.w4, iv_le a.w3, iv_le a.w2, iv_le a.w1, iv_le a.w0]
  replace h := mov_inv h
  replace h := shl32_inv h (by linarith only [hB]); obtain ⟨v20, e20, h⟩ := h
  replace h := add_inv h; obtain ⟨v21, c21, e21, h⟩ := h
  replace h := mov_inv h
  replace h := adc_inv h; obtain ⟨v22, c22, e22, h⟩ := h
  replace h := adc_inv h; obtain ⟨v23, c23, e23, h⟩ := h
  replace h := adc_inv h; obtain ⟨v24, c24, e24, h⟩ := h
  replace h := adc_inv h; obtain ⟨v25, c25, e25, h⟩ := h
  replace h := adc_inv h; obtain ⟨v26, c26, e26, h⟩ := h
  replace h := adc_inv h; obtain ⟨v27, c27, e27, h⟩ := h
  replace h := adc_inv h; obtain ⟨v28, c28, e28, h⟩ := h
  replace h := mov_inv h
  have tC : iv v28 = bv c27 := by
    cases c27 <;> cases c28 <;> simp only [bv_true, bv_false] at e28 ⊢ <;> linarith only [e28, hz, iv_nonneg v28, iv_lt v28]
  replace h := shl32_inv h (by linarith only [tC, bv_le c27]); obtain ⟨v29, e29, h⟩ := h
  replace h := add_inv h; obtain ⟨v30, c30, e30, h⟩ := h
  replace h := mov_inv h
  replace h := adc_inv h; obtain ⟨v31, c31, e31, h⟩ := h
  replace h := mov_inv h
  replace h := adc_inv h; obtain ⟨v32, c32, e32, h⟩ := h
  replace h := mov_inv h
  replace h := adc_inv h; obtain ⟨v33, c33, e33, h⟩ := h
  replace h := mov_inv h
  replace h := adc_inv h; obtain ⟨v34, c34, e34, h⟩ := h
  replace h := mov_inv h
  replace h := adc_inv h; obtain ⟨v35, c35, e35, h⟩ := h
  replace h := mov_inv h
  replace h := adc_inv h; obtain ⟨v36, c36, e36, h⟩ := h
  replace h := mov_inv h
  subst h
  refine fold2_eq (x := 39082 * a.val) (w := iv l1 + (2 ^ 64) * (iv v3) + (2 ^ 128) * (iv v6) + (2 ^ 192) * (iv v9) + (2 ^ 256) * (iv v12) + (2 ^ 320) * (iv v15) + (2 ^ 384) * (iv v18)) (t := iv v19) (v := iv v21 + (2 ^ 64) * (iv v22) + (2 ^ 128) * (iv v23) + (2 ^ 192) * (iv v24) + (2 ^ 256) * (iv v25) + (2 ^ 320) * (iv v26) + (2 ^ 384) * (iv v27)) (c := bv c27) (d := bv c36)
    (by simp only [F7.val]; linear_combination EB) (by linarith only [iv_nonneg l1, iv_nonneg v3, iv_nonneg v6, iv_nonneg v9, iv_nonneg v12, iv_nonneg v15, iv_nonneg v18]) (by linarith only [iv_le l1, iv_le v3, iv_le v6, iv_le v9, iv_le v12, iv_le v15, iv_le v18]) (by linarith only [iv_nonneg v19]) (by linarith only [hB])
    (by linear_combination (2 ^ 384) * e27 + (2 ^ 320) * e26 + (2 ^ 256) * e25 + (2 ^ 192) * e24 + (2 ^ 128) * e23 + (2 ^ 64) * e22 + e21 + (2135987035920910082510813795406868310032552609100727358564147381911067956236218936219412960641025 * 2 ^ 64) * hz + (2 ^ 192) * e20) (by linarith only [iv_nonneg v21, iv_nonneg v22, iv_nonneg v23, iv_nonneg v24, iv_nonneg v25, iv_nonneg v26, iv_nonneg v27]) (by linarith only [iv_le v21, iv_le v22, iv_le v23, iv_le v24, iv_le v25, iv_le v26, iv_le v27])
    (by simp only [F7.val]; linear_combination (2 ^ 384) * e36 + (2 ^ 320) * e35 + (2 ^ 256) * e34 + (2 ^ 192) * e33 + (2 ^ 128) * e32 + (2 ^ 64) * e31 + e30 + (2135987035920910082510813795406868310032552609100727358564147381911067956236218936219412960641025 * 2 ^ 64) * hz + (2 ^ 192) * e29 + (1 + 2 ^ 224) * tC) (F7.val_nonneg _) (F7.val_lt _)

end Verif.Fp448.Asm
