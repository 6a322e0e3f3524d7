import Verif.Fp25519.Full
import Verif.Fp25519.Lemmas
import Verif.Fp25519.AsmMul
import Verif.Fp25519.AsmSqr
import Verif.Fp25519.AsmMul2
import Verif.Fp25519.AsmSqr2
import Verif.Fp25519.AsmRed
import Verif.Fp25519.AsmAdd
import Verif.Fp25519.Spec

/-! # Helper lemmas on the full-radix operations -/

namespace Verif.Fp25519

set_option exponentiation.threshold 2000

theorem P_eq : (P : ℤ) = p25519 := by norm_num [p25519]

theorem cast_eq {x y : ℤ} (h : ∃ q, x = y + p25519 * q) : ((x : ℤ) : Fp) = (y : Fp) := by
  obtain ⟨q, rfl⟩ := h
  rw [← P_eq, Int.cast_add, Int.cast_mul, Int.cast_natCast, ZMod.natCast_self, zero_mul, add_zero]

theorem F4.val_nonneg (a : F4) : 0 ≤ a.val := by
  unfold F4.val
  linarith [iv_nonneg a.w0, iv_nonneg a.w1, iv_nonneg a.w2, iv_nonneg a.w3]

theorem F4.val_lt (a : F4) : a.val < 2 ^ 256 := by
  unfold F4.val
  linarith [iv_le a.w0, iv_le a.w1, iv_le a.w2, iv_le a.w3]

theorem F4.val_inj {a b : F4} (h : a.val = b.val) : a = b := by
  obtain ⟨a0, a1, a2, a3⟩ := a
  obtain ⟨b0, b1, b2, b3⟩ := b
  simp only [F4.val] at h
  have := iv_nonneg a0; have := iv_nonneg a1; have := iv_nonneg a2; have := iv_nonneg a3
  have := iv_nonneg b0; have := iv_nonneg b1; have := iv_nonneg b2; have := iv_nonneg b3
  have := iv_lt a0; have := iv_lt a1; have := iv_lt a2; have := iv_lt a3
  have := iv_lt b0; have := iv_lt b1; have := iv_lt b2; have := iv_lt b3
  have h0 : iv a0 = iv b0 := by omega
  have h1 : iv a1 = iv b1 := by omega
  have h2 : iv a2 = iv b2 := by omega
  have h3 : iv a3 = iv b3 := by omega
  rw [iv_inj h0, iv_inj h1, iv_inj h2, iv_inj h3]

theorem F8.val_inj {a b : F8} (h : a.val = b.val) : a = b := by
  have ha : a.val = F4.val ⟨a.w0, a.w1, a.w2, a.w3⟩ + 2 ^ 256 * F4.val ⟨a.w4, a.w5, a.w6, a.w7⟩ := by
    unfold F8.val F4.val; ring
  have hb : b.val = F4.val ⟨b.w0, b.w1, b.w2, b.w3⟩ + 2 ^ 256 * F4.val ⟨b.w4, b.w5, b.w6, b.w7⟩ := by
    unfold F8.val F4.val; ring
  have h1 : F4.val ⟨a.w0, a.w1, a.w2, a.w3⟩ = F4.val ⟨b.w0, b.w1, b.w2, b.w3⟩ ∧
      F4.val ⟨a.w4, a.w5, a.w6, a.w7⟩ = F4.val ⟨b.w4, b.w5, b.w6, b.w7⟩ := by
    have := F4.val_nonneg ⟨a.w0, a.w1, a.w2, a.w3⟩
    have := F4.val_nonneg ⟨b.w0, b.w1, b.w2, b.w3⟩
    have := F4.val_lt ⟨a.w0, a.w1, a.w2, a.w3⟩
    have := F4.val_lt ⟨b.w0, b.w1, b.w2, b.w3⟩
    omega
  have h2 := F4.val_inj h1.1
  have h3 := F4.val_inj h1.2
  obtain ⟨a0, a1, a2, a3, a4, a5, a6, a7⟩ := a
  obtain ⟨b0, b1, b2, b3, b4, b5, b6, b7⟩ := b
  simp only [F4.mk.injEq] at h2 h3
  simp only [F8.mk.injEq]
  tauto

/-! ## Words and bytes -/

theorem F4.toBytes_length (a : F4) : a.toBytes.length = 32 := by simp [F4.toBytes]

theorem F4.leNat_toBytes (a : F4) : (leNat a.toBytes : ℤ) = a.val := by
  simp only [F4.toBytes, leNat_append, leNat_wordBytes, List.length_append, wordBytes_length,
    F4.val, iv]
  push_cast
  ring

theorem F4.ofBytes_val {b : List Byte} (h : b.length = 32) : (F4.ofBytes b).val = leNat b := by
  have h0 := leNat_drop b 0 (by omega)
  have h1 := leNat_drop b 1 (by omega)
  have h2 := leNat_drop b 2 (by omega)
  have h3 := leNat_drop b 3 (by omega)
  have h4 : leNat (b.drop (8 * (3 + 1))) = 0 := by
    rw [List.drop_eq_nil_of_le (by omega)]; rfl
  simp only [Nat.mul_zero, List.drop_zero] at h0
  simp only [F4.ofBytes, F4.val, iv]
  norm_num at h0 h1 h2 h3 h4 ⊢
  omega

theorem F4.ofBytes_toBytes (a : F4) : F4.ofBytes a.toBytes = a :=
  F4.val_inj (by rw [F4.ofBytes_val a.toBytes_length, F4.leNat_toBytes])

/-! ## Residues of the operations -/

namespace Full

theorem intmul_val (isa : Isa) (a b : F4) : (intmul isa a b).val = a.val * b.val := by
  unfold intmul
  split_ifs
  · exact Asm.intmul_mulxadx_val a b
  · exact Asm.intmul_mulx_val a b
  · exact Asm.intmul_mulq_val a b

theorem intsqr_val (isa : Isa) (a : F4) : (intsqr isa a).val = a.val ^ 2 := by
  unfold intsqr
  split_ifs
  · exact Asm.intsqr_mulxadx_val a
  · exact Asm.intsqr_mulx_val a
  · exact Asm.intsqr_mulq_val a

theorem reduce_fold (isa : Isa) (a : F8) :
    (reduce isa a).val = fold (fold (fold a.val)) := by
  unfold reduce
  split_ifs
  · exact Asm.reduce_mulxadx_fold a
  · exact Asm.reduce_mulx_fold a
  · exact Asm.reduce_mulq_fold a

theorem reduce2_fold (isa : Isa) (a : F8 × F8) :
    (reduce2 isa a).1.val = fold (fold (fold a.1.val)) ∧
    (reduce2 isa a).2.val = fold (fold (fold a.2.val)) := by
  unfold reduce2
  split_ifs
  · exact Asm.reduce2_mulxadx_fold a
  · exact Asm.reduce2_mulx_fold a
  · exact Asm.reduce2_mulq_fold a

theorem add_fold (isa : Isa) (a b : F4) : (add isa a b).val = fold (fold (a.val + b.val)) := by
  unfold add
  split_ifs
  · exact Asm.add_adx_fold a b
  · exact Asm.add_adc_fold a b

theorem mula24_fold (isa : Isa) (a : F4) :
    (mula24 isa a).val = fold (fold (121666 * a.val)) := by
  unfold mula24
  split_ifs
  · exact Asm.mula24_mulx_fold a
  · exact Asm.mula24_mulq_fold a

theorem reduce_toFp (isa : Isa) (a : F8) : (reduce isa a).toFp = a.toFp := by
  unfold reduce F4.toFp F8.toFp
  split_ifs
  · exact cast_eq (Asm.reduce_mulxadx_val a)
  · exact cast_eq (Asm.reduce_mulx_val a)
  · exact cast_eq (Asm.reduce_mulq_val a)

theorem intmul2_val (isa : Isa) (a b : F4 × F4) :
    (intmul2 isa a b).1.val = a.1.val * b.1.val ∧ (intmul2 isa a b).2.val = a.2.val * b.2.val := by
  unfold intmul2
  split_ifs
  · exact Asm.intmul2_mulxadx_val a b
  · exact Asm.intmul2_mulx_val a b
  · exact Asm.intmul2_mulq_val a b

theorem intsqr2_val (isa : Isa) (a : F4 × F4) :
    (intsqr2 isa a).1.val = a.1.val ^ 2 ∧ (intsqr2 isa a).2.val = a.2.val ^ 2 := by
  unfold intsqr2
  split_ifs
  · exact Asm.intsqr2_mulxadx_val a
  · exact Asm.intsqr2_mulx_val a
  · exact Asm.intsqr2_mulq_val a

theorem reduce2_toFp (isa : Isa) (a : F8 × F8) :
    (reduce2 isa a).1.toFp = a.1.toFp ∧ (reduce2 isa a).2.toFp = a.2.toFp := by
  unfold reduce2 F4.toFp F8.toFp
  split_ifs
  · exact (Asm.reduce2_mulxadx_val a).imp cast_eq cast_eq
  · exact (Asm.reduce2_mulx_val a).imp cast_eq cast_eq
  · exact (Asm.reduce2_mulq_val a).imp cast_eq cast_eq

theorem add_toFp (isa : Isa) (a b : F4) : (add isa a b).toFp = a.toFp + b.toFp := by
  unfold add F4.toFp
  rw [← Int.cast_add]
  split_ifs
  · exact cast_eq (Asm.add_adx_val a b)
  · exact cast_eq (Asm.add_adc_val a b)

theorem sub_toFp (a b : F4) : (sub a b).toFp = a.toFp - b.toFp := by
  unfold sub F4.toFp
  rw [← Int.cast_sub]
  exact cast_eq (Asm.sub4_val a b)

theorem zero_toFp : zero.toFp = 0 := by
  simp [F4.toFp, F4.val, zero, show iv 0#64 = 0 from rfl]

theorem neg_toFp (a : F4) : (neg a).toFp = -a.toFp := by
  rw [neg, sub_toFp, zero_toFp, zero_sub]

theorem mul_toFp (isa : Isa) (a b : F4) : (mul isa a b).toFp = a.toFp * b.toFp := by
  rw [mul, reduce_toFp, F8.toFp, intmul_val, Int.cast_mul]; rfl

theorem sqr_toFp (isa : Isa) (a : F4) : (sqr isa a).toFp = a.toFp ^ 2 := by
  rw [sqr, reduce_toFp, F8.toFp, intsqr_val, Int.cast_pow]; rfl

theorem sqrn_toFp (isa : Isa) (a : F4) (n : ℕ) : (sqrn isa a n).toFp = a.toFp ^ 2 ^ n := by
  induction n generalizing a with
  | zero => simp [sqrn]
  | succ n ih => rw [sqrn, ih, sqr_toFp, ← pow_mul, pow_succ, mul_comm 2]

theorem mula24_toFp (isa : Isa) (a : F4) : (mula24 isa a).toFp = 121666 * a.toFp := by
  have : ((121666 * a.val : ℤ) : Fp) = 121666 * a.toFp := by rw [Int.cast_mul]; rfl
  unfold mula24
  rw [← this]
  split_ifs
  · exact cast_eq (Asm.mula24_mulx_val a)
  · exact cast_eq (Asm.mula24_mulq_val a)

theorem msb_inv (v : W) : ∃ r : ℤ, iv v = r + 2 ^ 63 * bv v.msb ∧ 0 ≤ r ∧ r < 2 ^ 63 := by
  have h := v.isLt
  rw [BitVec.msb_eq_decide]
  unfold iv bv
  by_cases a1 : 2 ^ (64 - 1) ≤ v.toNat
  · simp only [a1, decide_true, Bool.toNat_true]; exact ⟨v.toNat - 2 ^ 63, by omega, by omega, by omega⟩
  · simp only [a1, decide_false, Bool.toNat_false]; exact ⟨v.toNat, by omega, by omega, by omega⟩

theorem modp_val (c : F4) : (modp c).val = c.val % p25519 := by
  have hlt := F4.val_lt c
  have hnn := F4.val_nonneg c
  generalize h : modp c = X
  unfold modp at h
  have hz : iv 0#64 = 0 := rfl
  have h19 : iv 19#64 = 19 := rfl
  have h38 : iv 38#64 = 38 := rfl
  iterate 6 replace h := mov_inv h
  replace h := btr63_inv h; obtain ⟨d3, b, eb, hb, h⟩ := h
  replace h := cmov_inv h; obtain ⟨t, et, h⟩ := h
  have et' : iv t = 19 + 19 * bv b := by rw [et]; cases b <;> simp [h19, h38]
  clear et
  replace h := add_inv h; obtain ⟨v0, c0, e0, h⟩ := h
  replace h := adc_inv h; obtain ⟨v1, c1, e1, h⟩ := h
  replace h := adc_inv h; obtain ⟨v2, c2, e2, h⟩ := h
  replace h := adc_inv h; obtain ⟨v3, c3, e3, h⟩ := h
  have hL : c.val = (iv c.w0 + 2 ^ 64 * iv c.w1 + 2 ^ 128 * iv c.w2 + 2 ^ 192 * iv d3)
      + 2 ^ 255 * bv b := by
    unfold F4.val; linear_combination -2 ^ 192 * eb
  have hlo : 0 ≤ iv c.w0 + 2 ^ 64 * iv c.w1 + 2 ^ 128 * iv c.w2 + 2 ^ 192 * iv d3 := by
    linarith only [iv_nonneg c.w0, iv_nonneg c.w1, iv_nonneg c.w2, iv_nonneg d3]
  have hhi : iv c.w0 + 2 ^ 64 * iv c.w1 + 2 ^ 128 * iv c.w2 + 2 ^ 192 * iv d3 < 2 ^ 255 := by
    linarith only [iv_le c.w0, iv_le c.w1, iv_le c.w2, hb]
  obtain ⟨r3, er3, hr3, hr3'⟩ := msb_inv v3
  have hc3 : bv c3 = 0 := by
    have := bv_le c2; have := iv_nonneg v3
    cases c3
    · rfl
    · exfalso; rw [bv_true] at e3; linarith only [e3, hz, hb, bv_le c2, iv_nonneg v3]
  have E : iv v0 + 2 ^ 64 * iv v1 + 2 ^ 128 * iv v2 + 2 ^ 192 * iv v3 =
      (iv c.w0 + 2 ^ 64 * iv c.w1 + 2 ^ 128 * iv c.w2 + 2 ^ 192 * iv d3) + iv t := by
    linear_combination e0 + 2 ^ 64 * e1 + 2 ^ 128 * e2 + 2 ^ 192 * e3 - 2 ^ 256 * hc3 +
      (2 ^ 64 + 2 ^ 128 + 2 ^ 192) * hz
  clear e0 e1 e2 e3 eb
  dsimp only at h
  replace h := mov_inv h
  replace h := cmov_inv h; obtain ⟨u, eu, h⟩ := h
  have eu' : iv u = 19 - 19 * bv v3.msb := by rw [eu]; cases v3.msb <;> simp [h19, hz]
  clear eu
  replace h := btr63_inv h; obtain ⟨g3, bb, ebb, hbb, h⟩ := h
  have hg3 : iv g3 = r3 := by
    have h1 := iv_nonneg g3
    rw [er3] at ebb
    clear * - h1 ebb hbb hr3 hr3'
    cases v3.msb <;> cases bb <;> simp only [bv_true, bv_false] at ebb <;> omega
  replace h := sub_inv h; obtain ⟨w0, k0, f0, h⟩ := h
  replace h := sbb_inv h; obtain ⟨w1, k1, f1, h⟩ := h
  replace h := sbb_inv h; obtain ⟨w2, k2, f2, h⟩ := h
  replace h := sbb_inv h; obtain ⟨w3, k3, f3, h⟩ := h
  subst h
  generalize iv c.w0 + 2 ^ 64 * iv c.w1 + 2 ^ 128 * iv c.w2 + 2 ^ 192 * iv d3 = L at *
  have F : F4.val ⟨w0, w1, w2, w3⟩ - 2 ^ 256 * bv k3 =
      L + iv t - 2 ^ 255 * bv v3.msb - iv u := by
    unfold F4.val
    linear_combination f0 + 2 ^ 64 * f1 + 2 ^ 128 * f2 + 2 ^ 192 * f3 + E + 2 ^ 192 * hg3
      - (2 ^ 64 + 2 ^ 128 + 2 ^ 192) * hz - 2 ^ 192 * er3
  have l1 := F4.val_lt ⟨w0, w1, w2, w3⟩
  have l2 := F4.val_nonneg ⟨w0, w1, w2, w3⟩
  have E' : iv v0 + 2 ^ 64 * iv v1 + 2 ^ 128 * iv v2 + 2 ^ 192 * r3 =
      L + iv t - 2 ^ 255 * bv v3.msb := by
    linear_combination E - 2 ^ 192 * er3
  have lE : iv v0 + 2 ^ 64 * iv v1 + 2 ^ 128 * iv v2 + 2 ^ 192 * r3 < 2 ^ 255 := by
    linarith only [iv_le v0, iv_le v1, iv_le v2, hr3']
  have lE' : 0 ≤ iv v0 + 2 ^ 64 * iv v1 + 2 ^ 128 * iv v2 + 2 ^ 192 * r3 := by
    linarith only [iv_nonneg v0, iv_nonneg v1, iv_nonneg v2, hr3]
  generalize F4.val ⟨w0, w1, w2, w3⟩ = R at *
  generalize iv v0 + 2 ^ 64 * iv v1 + 2 ^ 128 * iv v2 + 2 ^ 192 * r3 = M at *
  rw [et', eu'] at F
  rw [et'] at E'
  rw [hL]
  unfold p25519
  clear * - F E' hlo hhi l1 l2 lE lE'
  cases b <;> cases v3.msb <;> cases k3 <;> simp only [bv_true, bv_false] at F E' ⊢ <;> omega

theorem modp_toFp (c : F4) : (modp c).toFp = c.toFp := by
  unfold F4.toFp
  rw [modp_val]
  refine cast_eq ⟨-(c.val / p25519), ?_⟩
  have := Int.emod_add_mul_ediv c.val p25519
  linarith

theorem modp_lt (c : F4) : (modp c).val < p25519 := by
  rw [modp_val]; exact Int.emod_lt_of_pos _ (by norm_num [p25519])

theorem modp_val_canon (c : F4) : (modp c).val = (canon c.toFp : ℤ) := by
  rw [modp_val, canon, F4.toFp, ZMod.val_intCast, P_eq]

theorem modp_eq_iff (a b : F4) : modp a = modp b ↔ a.toFp = b.toFp := by
  constructor
  · intro h; rw [← modp_toFp a, ← modp_toFp b, h]
  · intro h
    apply F4.val_inj
    rw [modp_val_canon, modp_val_canon, h]

theorem toBytes_inj {a b : F4} (h : a.toBytes = b.toBytes) : a = b := by
  rw [← F4.ofBytes_toBytes a, h, F4.ofBytes_toBytes]

theorem cmp_result (a b : F4) : (cmp a b).2.2 = 0#32 ↔ a.toFp = b.toFp := by
  rw [← modp_eq_iff]
  unfold cmp
  rw [cmp_bytes_eq_zero (by rw [F4.toBytes_length, F4.toBytes_length])]
  exact ⟨toBytes_inj, fun h => by rw [h]⟩

theorem iv_and_one (w : W) : iv (w &&& 1#64) = iv w % 2 := by
  unfold iv
  rw [BitVec.toNat_and]
  simp [Nat.and_one_is_mod]

theorem cmv_eq (bit : BitVec 32) (a b : F4) : cmv bit a b = if bit = 0#32 then a else b := by
  unfold cmv cmov
  by_cases h : bit = 0#32 <;> simp [h]

end Full

end Verif.Fp25519
