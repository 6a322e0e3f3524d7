import Verif.Fp448.Full
import Verif.Fp448.Lemmas
import Verif.Fp448.AsmMul
import Verif.Fp448.AsmMulq
import Verif.Fp448.AsmSqr
import Verif.Fp448.AsmRed
import Verif.Fp448.AsmAdd
import Verif.Fp448.Spec
import Mathlib.FieldTheory.Finite.Basic

/-! # Helper lemmas on the full-radix Fp448 operations -/

namespace Verif.Fp448

open Fp25519 (Isa)

set_option exponentiation.threshold 2000
set_option linter.unusedSimpArgs false

theorem P_eq : (P : ℤ) = p448 := by norm_num [p448]

theorem cast_eq {x y : ℤ} (h : ∃ q, x = y + p448 * q) : ((x : ℤ) : Fp) = (y : Fp) := by
  obtain ⟨q, rfl⟩ := h
  rw [← P_eq, Int.cast_add, Int.cast_mul, Int.cast_natCast, ZMod.natCast_self, zero_mul, add_zero]

theorem F7.val_inj {a b : F7} (h : a.val = b.val) : a = b := by
  obtain ⟨a0, a1, a2, a3, a4, a5, a6⟩ := a
  obtain ⟨b0, b1, b2, b3, b4, b5, b6⟩ := b
  simp only [F7.val] at h
  have := iv_nonneg a0; have := iv_nonneg a1; have := iv_nonneg a2; have := iv_nonneg a3; have := iv_nonneg a4; have := iv_nonneg a5; have := iv_nonneg a6
  have := iv_nonneg b0; have := iv_nonneg b1; have := iv_nonneg b2; have := iv_nonneg b3; have := iv_nonneg b4; have := iv_nonneg b5; have := iv_nonneg b6
  have := iv_lt a0; have := iv_lt a1; have := iv_lt a2; have := iv_lt a3; have := iv_lt a4; have := iv_lt a5; have := iv_lt a6
  have := iv_lt b0; have := iv_lt b1; have := iv_lt b2; have := iv_lt b3; have := iv_lt b4; have := iv_lt b5; have := iv_lt b6
  have h0 : iv a0 = iv b0 := by omega
  have h1 : iv a1 = iv b1 := by omega
  have h2 : iv a2 = iv b2 := by omega
  have h3 : iv a3 = iv b3 := by omega
  have h4 : iv a4 = iv b4 := by omega
  have h5 : iv a5 = iv b5 := by omega
  have h6 : iv a6 = iv b6 := by omega
  rw [iv_inj h0, iv_inj h1, iv_inj h2, iv_inj h3, iv_inj h4, iv_inj h5, iv_inj h6]

theorem F14.val_inj {a b : F14} (h : a.val = b.val) : a = b := by
  have ha : a.val = F7.val ⟨a.w0, a.w1, a.w2, a.w3, a.w4, a.w5, a.w6⟩ +
      2 ^ 448 * F7.val ⟨a.w7, a.w8, a.w9, a.w10, a.w11, a.w12, a.w13⟩ := by
    unfold F14.val F7.val; ring
  have hb : b.val = F7.val ⟨b.w0, b.w1, b.w2, b.w3, b.w4, b.w5, b.w6⟩ +
      2 ^ 448 * F7.val ⟨b.w7, b.w8, b.w9, b.w10, b.w11, b.w12, b.w13⟩ := by
    unfold F14.val F7.val; ring
  have h1 : F7.val ⟨a.w0, a.w1, a.w2, a.w3, a.w4, a.w5, a.w6⟩ =
        F7.val ⟨b.w0, b.w1, b.w2, b.w3, b.w4, b.w5, b.w6⟩ ∧
      F7.val ⟨a.w7, a.w8, a.w9, a.w10, a.w11, a.w12, a.w13⟩ =
        F7.val ⟨b.w7, b.w8, b.w9, b.w10, b.w11, b.w12, b.w13⟩ := by
    have := F7.val_nonneg ⟨a.w0, a.w1, a.w2, a.w3, a.w4, a.w5, a.w6⟩
    have := F7.val_nonneg ⟨b.w0, b.w1, b.w2, b.w3, b.w4, b.w5, b.w6⟩
    have := F7.val_lt ⟨a.w0, a.w1, a.w2, a.w3, a.w4, a.w5, a.w6⟩
    have := F7.val_lt ⟨b.w0, b.w1, b.w2, b.w3, b.w4, b.w5, b.w6⟩
    omega
  have h2 := F7.val_inj h1.1
  have h3 := F7.val_inj h1.2
  obtain ⟨a0, a1, a2, a3, a4, a5, a6, a7, a8, a9, a10, a11, a12, a13⟩ := a
  obtain ⟨b0, b1, b2, b3, b4, b5, b6, b7, b8, b9, b10, b11, b12, b13⟩ := b
  simp only [F7.mk.injEq] at h2 h3
  simp only [F14.mk.injEq]
  tauto

/-! ## Words and bytes -/

theorem F7.toBytes_length (a : F7) : a.toBytes.length = 56 := by simp [F7.toBytes]

theorem F7.leNat_toBytes (a : F7) : (leNat a.toBytes : ℤ) = a.val := by
  simp only [F7.toBytes, leNat_append, leNat_wordBytes, List.length_append, wordBytes_length,
    F7.val, iv]
  push_cast
  ring

theorem F7.ofBytes_val {b : List Byte} (h : b.length = 56) : (F7.ofBytes b).val = leNat b := by
  have h0 := leNat_drop b 0 (by omega)
  have h1 := leNat_drop b 1 (by omega)
  have h2 := leNat_drop b 2 (by omega)
  have h3 := leNat_drop b 3 (by omega)
  have h4 := leNat_drop b 4 (by omega)
  have h5 := leNat_drop b 5 (by omega)
  have h6 := leNat_drop b 6 (by omega)
  have h7 : leNat (b.drop (8 * (6 + 1))) = 0 := by
    rw [List.drop_eq_nil_of_le (by omega)]; rfl
  simp only [Nat.mul_zero, List.drop_zero] at h0
  simp only [F7.ofBytes, F7.val, iv]
  norm_num at h0 h1 h2 h3 h4 h5 h6 h7 ⊢
  omega

theorem F7.ofBytes_toBytes (a : F7) : F7.ofBytes a.toBytes = a :=
  F7.val_inj (by rw [F7.ofBytes_val a.toBytes_length, F7.leNat_toBytes])

/-! ## Residues of the operations -/

namespace Full

theorem intmul_val (isa : Isa) (a b : F7) : (intmul isa a b).val = a.val * b.val := by
  unfold intmul
  split_ifs
  · exact Asm.intmul_mulxadx_val a b
  · exact Asm.intmul_mulx_val a b
  · exact Asm.intmul_mulq_val a b

theorem intsqr_val (isa : Isa) (a : F7) : (intsqr isa a).val = a.val ^ 2 := by
  unfold intsqr
  split_ifs
  · exact Asm.intsqr_mulxadx_val a
  · exact Asm.intsqr_mulx_val a
  · exact Asm.intsqr_mulq_val a

theorem reduce_fold (isa : Isa) (a : F14) :
    (reduce isa a).val = fold (fold (spread a.val)) := by
  unfold reduce
  split_ifs
  · exact Asm.reduce_adx_fold a
  · exact Asm.reduce_leg_fold a

theorem add_fold (isa : Isa) (a b : F7) : (add isa a b).val = fold (fold (a.val + b.val)) := by
  unfold add
  split_ifs
  · exact Asm.add_adx_fold a b
  · exact Asm.add_adc_fold a b

theorem sub_fold (a b : F7) : (sub a b).val = fold (fold (a.val - b.val)) := Asm.sub7_fold a b

theorem mula24_fold (isa : Isa) (a : F7) : (mula24 isa a).val = fold (fold (39082 * a.val)) := by
  unfold mula24
  split_ifs
  · exact Asm.mula24_mulx_fold a
  · exact Asm.mula24_mulq_fold a

theorem reduce_toFp (isa : Isa) (a : F14) : (reduce isa a).toFp = a.toFp := by
  unfold F7.toFp F14.toFp
  rw [cast_eq (fold2_mod (reduce_fold isa a)), cast_eq (spread_mod a.val)]

theorem add_toFp (isa : Isa) (a b : F7) : (add isa a b).toFp = a.toFp + b.toFp := by
  unfold F7.toFp
  rw [cast_eq (fold2_mod (add_fold isa a b)), Int.cast_add]

theorem sub_toFp (a b : F7) : (sub a b).toFp = a.toFp - b.toFp := by
  unfold F7.toFp
  rw [cast_eq (fold2_mod (sub_fold a b)), Int.cast_sub]

theorem zero_toFp : zero.toFp = 0 := by
  simp [F7.toFp, F7.val, zero, show iv 0#64 = 0 from rfl]

theorem neg_toFp (a : F7) : (neg a).toFp = -a.toFp := by
  rw [neg, sub_toFp, zero_toFp, zero_sub]

theorem mul_toFp (isa : Isa) (a b : F7) : (mul isa a b).toFp = a.toFp * b.toFp := by
  rw [mul, reduce_toFp, F14.toFp, intmul_val, Int.cast_mul, F7.toFp, F7.toFp]

theorem sqr_toFp (isa : Isa) (a : F7) : (sqr isa a).toFp = a.toFp ^ 2 := by
  rw [sqr, reduce_toFp, F14.toFp, intsqr_val, Int.cast_pow, F7.toFp]

theorem sqrn_toFp (isa : Isa) (a : F7) (n : ℕ) : (sqrn isa a n).toFp = a.toFp ^ 2 ^ n := by
  induction n generalizing a with
  | zero => simp [sqrn]
  | succ n ih => rw [sqrn, ih, sqr_toFp, ← pow_mul, pow_succ, mul_comm 2]

theorem mula24_toFp (isa : Isa) (a : F7) : (mula24 isa a).toFp = 39082 * a.toFp := by
  unfold F7.toFp
  rw [cast_eq (fold2_mod (mula24_fold isa a)), Int.cast_mul]; norm_cast

theorem prime_val : prime.val = p448 := by decide +kernel

theorem modp_val (c : F7) : (modp c).val = c.val % p448 := by
  have hlt := F7.val_lt c
  have hnn := F7.val_nonneg c
  rw [modp, sub_fold, prime_val]
  generalize c.val = x at *
  unfold fold p448
  by_cases h : x < 2 ^ 448 - 2 ^ 224 - 1
  · omega
  · omega

theorem modp_toFp (c : F7) : (modp c).toFp = c.toFp := by
  unfold F7.toFp
  rw [modp_val]
  refine cast_eq ⟨-(c.val / p448), ?_⟩
  have := Int.emod_add_mul_ediv c.val p448
  linarith

theorem modp_val_canon (c : F7) : (modp c).val = (canon c.toFp : ℤ) := by
  rw [modp_val, canon, F7.toFp, ZMod.val_intCast, P_eq]

theorem modp_eq_iff (a b : F7) : modp a = modp b ↔ a.toFp = b.toFp := by
  constructor
  · intro h; rw [← modp_toFp a, ← modp_toFp b, h]
  · intro h
    apply F7.val_inj
    rw [modp_val_canon, modp_val_canon, h]

theorem toBytes_inj {a b : F7} (h : a.toBytes = b.toBytes) : a = b := by
  rw [← F7.ofBytes_toBytes a, h, F7.ofBytes_toBytes]

theorem cmp_result (a b : F7) : (cmp a b).2.2 = 0#32 ↔ a.toFp = b.toFp := by
  rw [← modp_eq_iff]
  unfold cmp
  rw [cmp_bytes_eq_zero (by rw [F7.toBytes_length, F7.toBytes_length])]
  exact ⟨toBytes_inj, fun h => by rw [h]⟩

theorem cmv_eq (bit : BitVec 32) (a b : F7) : cmv bit a b = if bit = 0#32 then a else b := by
  unfold cmv cmov
  by_cases h : bit = 0#32 <;> simp [h]

end Full

theorem fermat_inv (x : Fp) : x ^ (P - 2) = x⁻¹ := by
  by_cases hx : x = 0
  · subst hx
    rw [inv_zero]; exact zero_pow (by norm_num)
  · apply eq_inv_of_mul_eq_one_left
    rw [← pow_succ]
    have := ZMod.pow_card_sub_one_eq_one hx
    have e : (P - 2 + 1 : ℕ) = P - 1 := by norm_num
    rw [e]; exact this

namespace Full

theorem srt_pow (isa : Isa) (a : F7) : (srt isa a).toFp = a.toFp ^ ((P - 3) / 4) := by
  simp only [srt, mul_toFp, sqrn_toFp]
  generalize a.toFp = x
  simp only [← pow_mul, ← pow_succ, ← pow_succ', ← pow_add]
  norm_num only

theorem inv_toFp (isa : Isa) (a : F7) : (inv isa a).toFp = a.toFp⁻¹ := by
  rw [← fermat_inv]
  simp only [inv, mul_toFp, sqrn_toFp, srt_pow]
  generalize a.toFp = x
  rw [← pow_mul, ← pow_succ]
  norm_num only

theorem invAliased_pow (isa : Isa) (a : F7) : (invAliased isa a).toFp = a.toFp ^ 4984036966598447249481077539803459664139255044713038127644504222952308079771859858881666625103718835566204285262541389233262210235947872 := by
  simp only [invAliased, mul_toFp, sqrn_toFp]
  generalize a.toFp = x
  simp only [← pow_mul, ← pow_succ, ← pow_succ', ← pow_add]
  norm_num only

end Full

end Verif.Fp448
