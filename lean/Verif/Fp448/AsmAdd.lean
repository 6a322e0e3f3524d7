import Verif.Fp448.Asm
import Verif.Fp448.Lemmas

/-! # Addition and subtraction

Helper lemmas: one linear identity per straight-line block. -/

namespace Verif.Fp448.Asm

set_option maxRecDepth 4000
set_option linter.unusedVariables false
set_option exponentiation.threshold 2000

theorem add_adx_fold (a b : F7) : (add_adx a b).val = fold (fold (a.val + b.val)) := by
  generalize h : add_adx a b = X
  unfold add_adx at h
  have hz : iv 0#64 = 0 := rfl
  have hf : bv false = 0 := rfl
  replace h := xor0_inv h
  replace h := mov_inv h
  replace h := mov_inv h
  replace h := mov_inv h
  replace h := mov_inv h
  replace h := mov_inv h
  replace h := mov_inv h
  replace h := mov_inv h
  replace h := mov_inv h
  replace h := adc_inv h; obtain ⟨v2, c2, e2, h⟩ := h
  replace h := adc_inv h; obtain ⟨v3, c3, e3, h⟩ := h
  replace h := adc_inv h; obtain ⟨v4, c4, e4, h⟩ := h
  replace h := adc_inv h; obtain ⟨v5, c5, e5, h⟩ := h
  replace h := adc_inv h; obtain ⟨v6, c6, e6, h⟩ := h
  replace h := adc_inv h; obtain ⟨v7, c7, e7, h⟩ := h
  replace h := adc_inv h; obtain ⟨v8, c8, e8, h⟩ := h
  replace h := mov_inv h
  replace h := cmov0_inv h; obtain ⟨v9, e9, h⟩ := h
  rw [show iv 4294967296#64 = 4294967296 from rfl] at e9
  replace h := adc_inv h; obtain ⟨v10, c10, e10, h⟩ := h
  replace h := adc_inv h; obtain ⟨v11, c11, e11, h⟩ := h
  replace h := adc_inv h; obtain ⟨v12, c12, e12, h⟩ := h
  replace h := adc_inv h; obtain ⟨v13, c13, e13, h⟩ := h
  replace h := adc_inv h; obtain ⟨v14, c14, e14, h⟩ := h
  replace h := adc_inv h; obtain ⟨v15, c15, e15, h⟩ := h
  replace h := adc_inv h; obtain ⟨v16, c16, e16, h⟩ := h
  replace h := mov_inv h
  replace h := cmov0_inv h; obtain ⟨v17, e17, h⟩ := h
  rw [show iv 4294967296#64 = 4294967296 from rfl] at e17
  replace h := adc_inv h; obtain ⟨v18, c18, e18, h⟩ := h
  replace h := adc_inv h; obtain ⟨v19, c19, e19, h⟩ := h
  replace h := adc_inv h; obtain ⟨v20, c20, e20, h⟩ := h
  replace h := adc_inv h; obtain ⟨v21, c21, e21, h⟩ := h
  replace h := adc_inv h; obtain ⟨v22, c22, e22, h⟩ := h
  replace h := adc_inv h; obtain ⟨v23, c23, e23, h⟩ := h
  replace h := adc_inv h; obtain ⟨v24, c24, e24, h⟩ := h
  replace h := mov_inv h
  replace h := mov_inv h
  replace h := mov_inv h
  replace h := mov_inv h
  replace h := mov_inv h
  replace h := mov_inv h
  replace h := mov_inv h
  subst h
  refine fold2_eq (w := iv v2 + (2 ^ 64) * (iv v3) + (2 ^ 128) * (iv v4) + (2 ^ 192) * (iv v5) + (2 ^ 256) * (iv v6) + (2 ^ 320) * (iv v7) + (2 ^ 384) * (iv v8)) (t := bv c8) (v := iv v10 + (2 ^ 64) * (iv v11) + (2 ^ 128) * (iv v12) + (2 ^ 192) * (iv v13) + (2 ^ 256) * (iv v14) + (2 ^ 320) * (iv v15) + (2 ^ 384) * (iv v16)) (c := bv c16) (d := bv c24)
    (by simp only [F7.val]; linear_combination (2 ^ 384) * e8 + (2 ^ 320) * e7 + (2 ^ 256) * e6 + (2 ^ 192) * e5 + (2 ^ 128) * e4 + (2 ^ 64) * e3 + e2 + hf) (by linarith only [iv_nonneg v2, iv_nonneg v3, iv_nonneg v4, iv_nonneg v5, iv_nonneg v6, iv_nonneg v7, iv_nonneg v8]) (by linarith only [iv_le v2, iv_le v3, iv_le v4, iv_le v5, iv_le v6, iv_le v7, iv_le v8]) (by linarith only [bv_nonneg c8, bv_le c8]) (by linarith only [bv_nonneg c8, bv_le c8])
    (by linear_combination (2 ^ 384) * e16 + (2 ^ 320) * e15 + (2 ^ 256) * e14 + (2 ^ 192) * e13 + (2 ^ 128) * e12 + (2 ^ 64) * e11 + e10 + (2 ^ 192) * e9 + (39402006196394479214415027136064523887590553065872314977974568911611062449297862486269047483168495596189008684646401) * hz) (by linarith only [iv_nonneg v10, iv_nonneg v11, iv_nonneg v12, iv_nonneg v13, iv_nonneg v14, iv_nonneg v15, iv_nonneg v16]) (by linarith only [iv_le v10, iv_le v11, iv_le v12, iv_le v13, iv_le v14, iv_le v15, iv_le v16])
    (by simp only [F7.val]; linear_combination (2 ^ 384) * e24 + (2 ^ 320) * e23 + (2 ^ 256) * e22 + (2 ^ 192) * e21 + (2 ^ 128) * e20 + (2 ^ 64) * e19 + e18 + (2 ^ 192) * e17 + (39402006196394479214415027136064523887590553065872314977974568911611062449297862486269047483168495596189008684646401) * hz) (F7.val_nonneg _) (F7.val_lt _)

theorem add_adc_fold (a b : F7) : (add_adc a b).val = fold (fold (a.val + b.val)) := by
  generalize h : add_adc a b = X
  unfold add_adc at h
  have hz : iv 0#64 = 0 := rfl
  have hf : bv false = 0 := rfl
  replace h := xor0_inv h
  replace h := mov_inv h
  replace h := mov_inv h
  replace h := mov_inv h
  replace h := mov_inv h
  replace h := mov_inv h
  replace h := mov_inv h
  replace h := mov_inv h
  replace h := mov_inv h
  replace h := add_inv h; obtain ⟨v2, c2, e2, h⟩ := h
  replace h := adc_inv h; obtain ⟨v3, c3, e3, h⟩ := h
  replace h := adc_inv h; obtain ⟨v4, c4, e4, h⟩ := h
  replace h := adc_inv h; obtain ⟨v5, c5, e5, h⟩ := h
  replace h := adc_inv h; obtain ⟨v6, c6, e6, h⟩ := h
  replace h := adc_inv h; obtain ⟨v7, c7, e7, h⟩ := h
  replace h := adc_inv h; obtain ⟨v8, c8, e8, h⟩ := h
  replace h := mov_inv h
  replace h := cmov0_inv h; obtain ⟨v9, e9, h⟩ := h
  rw [show iv 4294967296#64 = 4294967296 from rfl] at e9
  replace h := adc_inv h; obtain ⟨v10, c10, e10, h⟩ := h
  replace h := adc_inv h; obtain ⟨v11, c11, e11, h⟩ := h
  replace h := adc_inv h; obtain ⟨v12, c12, e12, h⟩ := h
  replace h := adc_inv h; obtain ⟨v13, c13, e13, h⟩ := h
  replace h := adc_inv h; obtain ⟨v14, c14, e14, h⟩ := h
  replace h := adc_inv h; obtain ⟨v15, c15, e15, h⟩ := h
  replace h := adc_inv h; obtain ⟨v16, c16, e16, h⟩ := h
  replace h := mov_inv h
  replace h := cmov0_inv h; obtain ⟨v17, e17, h⟩ := h
  rw [show iv 4294967296#64 = 4294967296 from rfl] at e17
  replace h := adc_inv h; obtain ⟨v18, c18, e18, h⟩ := h
  replace h := adc_inv h; obtain ⟨v19, c19, e19, h⟩ := h
  replace h := adc_inv h; obtain ⟨v20, c20, e20, h⟩ := h
  replace h := adc_inv h; obtain ⟨v21, c21, e21, h⟩ := h
  replace h := adc_inv h; obtain ⟨v22, c22, e22, h⟩ := h
  replace h := adc_inv h; obtain ⟨v23, c23, e23, h⟩ := h
  replace h := adc_inv h; obtain ⟨v24, c24, e24, h⟩ := h
  replace h := mov_inv h
  replace h := mov_inv h
  replace h := mov_inv h
  replace h := mov_inv h
  replace h := mov_inv h
  replace h := mov_inv h
  replace h := mov_inv h
  subst h
  refine fold2_eq (w := iv v2 + (2 ^ 64) * (iv v3) + (2 ^ 128) * (iv v4) + (2 ^ 192) * (iv v5) + (2 ^ 256) * (iv v6) + (2 ^ 320) * (iv v7) + (2 ^ 384) * (iv v8)) (t := bv c8) (v := iv v10 + (2 ^ 64) * (iv v11) + (2 ^ 128) * (iv v12) + (2 ^ 192) * (iv v13) + (2 ^ 256) * (iv v14) + (2 ^ 320) * (iv v15) + (2 ^ 384) * (iv v16)) (c := bv c16) (d := bv c24)
    (by simp only [F7.val]; linear_combination (2 ^ 384) * e8 + (2 ^ 320) * e7 + (2 ^ 256) * e6 + (2 ^ 192) * e5 + (2 ^ 128) * e4 + (2 ^ 64) * e3 + e2) (by linarith only [iv_nonneg v2, iv_nonneg v3, iv_nonneg v4, iv_nonneg v5, iv_nonneg v6, iv_nonneg v7, iv_nonneg v8]) (by linarith only [iv_le v2, iv_le v3, iv_le v4, iv_le v5, iv_le v6, iv_le v7, iv_le v8]) (by linarith only [bv_nonneg c8, bv_le c8]) (by linarith only [bv_nonneg c8, bv_le c8])
    (by linear_combination (2 ^ 384) * e16 + (2 ^ 320) * e15 + (2 ^ 256) * e14 + (2 ^ 192) * e13 + (2 ^ 128) * e12 + (2 ^ 64) * e11 + e10 + (2 ^ 192) * e9 + (39402006196394479214415027136064523887590553065872314977974568911611062449297862486269047483168495596189008684646401) * hz) (by linarith only [iv_nonneg v10, iv_nonneg v11, iv_nonneg v12, iv_nonneg v13, iv_nonneg v14, iv_nonneg v15, iv_nonneg v16]) (by linarith only [iv_le v10, iv_le v11, iv_le v12, iv_le v13, iv_le v14, iv_le v15, iv_le v16])
    (by simp only [F7.val]; linear_combination (2 ^ 384) * e24 + (2 ^ 320) * e23 + (2 ^ 256) * e22 + (2 ^ 192) * e21 + (2 ^ 128) * e20 + (2 ^ 64) * e19 + e18 + (2 ^ 192) * e17 + (39402006196394479214415027136064523887590553065872314977974568911611062449297862486269047483168495596189008684646401) * hz) (F7.val_nonneg _) (F7.val_lt _)

theorem sub7_fold (a b : F7) : (sub7 a b).val = fold (fold (a.val - b.val)) := by
  generalize h : sub7 a b = X
  unfold sub7 at h
  have hz : iv 0#64 = 0 := rfl
  have hf : bv false = 0 := rfl
  replace h := xor0_inv h
  replace h := mov_inv h
  replace h := mov_inv h
  replace h := mov_inv h
  replace h := mov_inv h
  replace h := mov_inv h
  replace h := mov_inv h
  replace h := mov_inv h
  replace h := mov_inv h
  replace h := sub_inv h; obtain ⟨v2, c2, e2, h⟩ := h
  replace h := sbb_inv h; obtain ⟨v3, c3, e3, h⟩ := h
  replace h := sbb_inv h; obtain ⟨v4, c4, e4, h⟩ := h
  replace h := sbb_inv h; obtain ⟨v5, c5, e5, h⟩ := h
  replace h := sbb_inv h; obtain ⟨v6, c6, e6, h⟩ := h
  replace h := sbb_inv h; obtain ⟨v7, c7, e7, h⟩ := h
  replace h := sbb_inv h; obtain ⟨v8, c8, e8, h⟩ := h
  replace h := mov_inv h
  replace h := cmov0_inv h; obtain ⟨v9, e9, h⟩ := h
  rw [show iv 4294967296#64 = 4294967296 from rfl] at e9
  replace h := sbb_inv h; obtain ⟨v10, c10, e10, h⟩ := h
  replace h := sbb_inv h; obtain ⟨v11, c11, e11, h⟩ := h
  replace h := sbb_inv h; obtain ⟨v12, c12, e12, h⟩ := h
  replace h := sbb_inv h; obtain ⟨v13, c13, e13, h⟩ := h
  replace h := sbb_inv h; obtain ⟨v14, c14, e14, h⟩ := h
  replace h := sbb_inv h; obtain ⟨v15, c15, e15, h⟩ := h
  replace h := sbb_inv h; obtain ⟨v16, c16, e16, h⟩ := h
  replace h := mov_inv h
  replace h := cmov0_inv h; obtain ⟨v17, e17, h⟩ := h
  rw [show iv 4294967296#64 = 4294967296 from rfl] at e17
  replace h := sbb_inv h; obtain ⟨v18, c18, e18, h⟩ := h
  replace h := sbb_inv h; obtain ⟨v19, c19, e19, h⟩ := h
  replace h := sbb_inv h; obtain ⟨v20, c20, e20, h⟩ := h
  replace h := sbb_inv h; obtain ⟨v21, c21, e21, h⟩ := h
  replace h := sbb_inv h; obtain ⟨v22, c22, e22, h⟩ := h
  replace h := sbb_inv h; obtain ⟨v23, c23, e23, h⟩ := h
  replace h := sbb_inv h; obtain ⟨v24, c24, e24, h⟩ := h
  replace h := mov_inv h
  replace h := mov_inv h
  replace h := mov_inv h
  replace h := mov_inv h
  replace h := mov_inv h
  replace h := mov_inv h
  replace h := mov_inv h
  subst h
  refine fold2_eq (w := iv v2 + (2 ^ 64) * (iv v3) + (2 ^ 128) * (iv v4) + (2 ^ 192) * (iv v5) + (2 ^ 256) * (iv v6) + (2 ^ 320) * (iv v7) + (2 ^ 384) * (iv v8)) (t := -bv c8) (v := iv v10 + (2 ^ 64) * (iv v11) + (2 ^ 128) * (iv v12) + (2 ^ 192) * (iv v13) + (2 ^ 256) * (iv v14) + (2 ^ 320) * (iv v15) + (2 ^ 384) * (iv v16)) (c := -bv c16) (d := -bv c24)
    (by simp only [F7.val]; linear_combination (2 ^ 384) * e8 + (2 ^ 320) * e7 + (2 ^ 256) * e6 + (2 ^ 192) * e5 + (2 ^ 128) * e4 + (2 ^ 64) * e3 + e2) (by linarith only [iv_nonneg v2, iv_nonneg v3, iv_nonneg v4, iv_nonneg v5, iv_nonneg v6, iv_nonneg v7, iv_nonneg v8]) (by linarith only [iv_le v2, iv_le v3, iv_le v4, iv_le v5, iv_le v6, iv_le v7, iv_le v8]) (by linarith only [bv_nonneg c8, bv_le c8]) (by linarith only [bv_nonneg c8, bv_le c8])
    (by linear_combination (2 ^ 384) * e16 + (2 ^ 320) * e15 + (2 ^ 256) * e14 + (2 ^ 192) * e13 + (2 ^ 128) * e12 + (2 ^ 64) * e11 + e10 + (-2 ^ 192) * e9 + (-39402006196394479214415027136064523887590553065872314977974568911611062449297862486269047483168495596189008684646401) * hz) (by linarith only [iv_nonneg v10, iv_nonneg v11, iv_nonneg v12, iv_nonneg v13, iv_nonneg v14, iv_nonneg v15, iv_nonneg v16]) (by linarith only [iv_le v10, iv_le v11, iv_le v12, iv_le v13, iv_le v14, iv_le v15, iv_le v16])
    (by simp only [F7.val]; linear_combination (2 ^ 384) * e24 + (2 ^ 320) * e23 + (2 ^ 256) * e22 + (2 ^ 192) * e21 + (2 ^ 128) * e20 + (2 ^ 64) * e19 + e18 + (-2 ^ 192) * e17 + (-39402006196394479214415027136064523887590553065872314977974568911611062449297862486269047483168495596189008684646401) * hz) (F7.val_nonneg _) (F7.val_lt _)

end Verif.Fp448.Asm
