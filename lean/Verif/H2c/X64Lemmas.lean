import Verif.H2c.Math
import Verif.H2c.X64
import Verif.Ed25519.PointLemmasFull
import Verif.Sha512.StreamLemmas

/-! # The 64-bit hash to the curve: helper lemmas -/

namespace Verif.H2c

open Verif.Fp25519 Verif.Ed25519

set_option exponentiation.threshold 2000

theorem expoC4_toFp (isa : Isa) (x : F4) : (expoC4 isa x).toFp = x.toFp ^ (2 ^ 252 - 3) := by
  simp only [expoC4, Full.mul_toFp, Full.sqrn_toFp, Full.sqr_toFp]
  generalize x.toFp = x
  simp only [← pow_mul, ← pow_succ, ← pow_succ', ← pow_add]
  norm_num only

theorem const_toFp {c : F4} {n : ℕ} (h : c.val = n) : c.toFp = (n : Fp) := by
  rw [F4.toFp, h, Int.cast_natCast]

theorem one_toFp : one.toFp = 1 := by
  rw [const_toFp (n := 1) (by decide +kernel)]; norm_num

theorem A_toFp : A_full.toFp = A := by
  rw [const_toFp (n := 486662) (by decide +kernel)]; norm_num [A]

theorem c1_toFp : c1_full.toFp = (c1 : Fp) := const_toFp (by decide +kernel)

theorem c2_toFp : c2_full.toFp = ((sqrtM1 + 1 : ℕ) : Fp) := const_toFp (by decide +kernel)

theorem c3_toFp : c3_full.toFp = (sqrtM1 : Fp) := const_toFp (by decide +kernel)

/-- The flag of a comparison. -/
theorem cmv_toFp (e : BitVec 32) (a b : F4) :
    (Full.cmv e a b).toFp = if decide (e ≠ 0#32) then b.toFp else a.toFp := by
  rw [Full.cmv_eq]
  by_cases h : e = 0#32 <;> simp [h]

theorem isZero_ne (x : BitVec 32) : decide (isZero x ≠ 0#32) = decide (x = 0#32) := by
  unfold isZero
  by_cases h : x = 0#32 <;> simp [h]

theorem cmp_snd (a b : F4) : (Full.cmp a b).2.1.toFp = b.toFp := Full.modp_toFp b

theorem sgn_fst (a : F4) : (Full.sgn a).1.toFp = a.toFp := Full.modp_toFp a

theorem sgn_snd (a : F4) : ((Full.sgn a).2.setWidth 32 : BitVec 32) =
    BitVec.ofNat 32 (canon a.toFp % 2) := by
  have h : (Full.sgn a).2.toNat = canon a.toFp % 2 := modp_w0 a
  apply BitVec.eq_of_toNat_eq
  rw [BitVec.toNat_setWidth, h, BitVec.toNat_ofNat]

theorem xor_flags (x : BitVec 32) (n : ℕ) :
    decide ((isZero x ^^^ BitVec.ofNat 32 (n % 2)) ≠ 0#32) =
      (decide (x = 0#32) ^^ decide (n % 2 = 1)) := by
  unfold isZero
  by_cases h : x = 0#32 <;> rcases Nat.mod_two_eq_zero_or_one n with h2 | h2 <;> simp [h, h2]

theorem elligator2_curve25519_spec (isa : Isa) (u : F4) :
    Elligator2 u.toFp ((elligator2_curve25519 isa u).xn.toFp /
        (elligator2_curve25519 isa u).xd.toFp) (elligator2_curve25519 isa u).yn.toFp ∧
      (elligator2_curve25519 isa u).xd.toFp ≠ 0 ∧ (elligator2_curve25519 isa u).yd.toFp = 1 := by
  unfold elligator2_curve25519
  extract_lets v0 v1 tv1 xd v3 x1n v5 tv2 gxd v7 v8 v9 gx1 v10 v11 v12 v13 v14 tv3 tv2' v15 y11' y12
    v16 v17 v18 c1 gx1' e1 y1' x2n v20 y21' y22 gx2 v21 v22 v23 e2 y2' v24 v25 v26 e3 xn y e4 y' v28
    y3 yn
  have htv1 : tv1.toFp = 2 * u.toFp ^ 2 := by
    simp only [tv1, v1, v0, Full.add_toFp, Full.sqr_toFp]; ring
  have hxd : xd.toFp = 2 * u.toFp ^ 2 + 1 := by simp only [xd, Full.add_toFp, htv1, one_toFp]
  have hx1n : x1n.toFp = -A := by simp only [x1n, v3, Full.neg_toFp, A_toFp]
  have hgxd : gxd.toFp = H2c.gxd u.toFp := by
    simp only [gxd, tv2, v5, Full.mul_toFp, Full.sqr_toFp, hxd, H2c.gxd]
  have hgx1 : gx1.toFp = H2c.gx1 u.toFp := by
    simp only [gx1, v9, v8, v7, tv2, v5, Full.mul_toFp, Full.add_toFp, Full.sqr_toFp, hxd, htv1,
      hx1n, A_toFp, H2c.gx1]
  have htv3 : tv3.toFp = H2c.gxd u.toFp ^ 2 * H2c.gxd u.toFp * H2c.gx1 u.toFp := by
    simp only [tv3, v14, v11, v10, Full.mul_toFp, Full.sqr_toFp, hgxd, hgx1]
  have htv2' : tv2'.toFp = arg u.toFp := by
    simp only [tv2', v13, v12, v11, v10, Full.mul_toFp, Full.sqr_toFp, htv3, hgxd, arg]
    ring
  have hy11 : y11'.toFp = H2c.y11 u.toFp := by
    simp only [y11', v15, Full.mul_toFp, expoC4_toFp, htv2', htv3, H2c.y11]
  have hgx1' : gx1'.toFp = H2c.gx1 u.toFp := by simp only [gx1', c1, cmp_snd, hgx1]
  have he1 : c1.2.2 = 0#32 ↔ H2c.y11 u.toFp ^ 2 * H2c.gxd u.toFp = H2c.gx1 u.toFp := by
    rw [Full.cmp_result]
    simp only [v18, v17, v16, Full.mul_toFp, Full.sqr_toFp, hy11, hgxd, hgx1]
  have hy1 : y1'.toFp = H2c.y1 u.toFp (decide (c1.2.2 = 0#32)) := by
    simp only [y1', cmv_toFp, e1, isZero_ne, y12, Full.mul_toFp, hy11, c3_toFp, H2c.y1]
  have hy21 : y21'.toFp = H2c.y21 u.toFp := by
    simp only [y21', v20, Full.mul_toFp, hy11, c2_toFp, H2c.y21]
  have he2 : (Full.cmp v23 gx2).2.2 = 0#32 ↔
      H2c.y21 u.toFp ^ 2 * H2c.gxd u.toFp = H2c.gx1 u.toFp * (2 * u.toFp ^ 2) := by
    rw [Full.cmp_result]
    simp only [v23, v22, v21, gx2, Full.mul_toFp, Full.sqr_toFp, hy21, hgxd, hgx1', htv1]
  have hy2 : y2'.toFp = H2c.y2 u.toFp (decide ((Full.cmp v23 gx2).2.2 = 0#32)) := by
    simp only [y2', cmv_toFp, e2, isZero_ne, y22, Full.mul_toFp, hy21, c3_toFp, H2c.y2]
  have he3 : (Full.cmp v26 gx1').2.2 = 0#32 ↔
      H2c.y1 u.toFp (decide (c1.2.2 = 0#32)) ^ 2 * H2c.gxd u.toFp = H2c.gx1 u.toFp := by
    rw [Full.cmp_result]
    simp only [v26, v25, v24, Full.mul_toFp, Full.sqr_toFp, hy1, hgxd, hgx1']
  have hy : y.toFp = if decide ((Full.cmp v26 gx1').2.2 = 0#32) then
      H2c.y1 u.toFp (decide (c1.2.2 = 0#32)) else
      H2c.y2 u.toFp (decide ((Full.cmp v23 gx2).2.2 = 0#32)) := by
    simp only [y, cmv_toFp, e3, isZero_ne, hy1, hy2]
  have hxn : xn.toFp / xd.toFp = if decide ((Full.cmp v26 gx1').2.2 = 0#32) then
      -A / (2 * u.toFp ^ 2 + 1) else -A * (2 * u.toFp ^ 2) / (2 * u.toFp ^ 2 + 1) := by
    simp only [xn, cmv_toFp, e3, isZero_ne, hx1n, x2n, Full.mul_toFp, htv1, hxd]
    split_ifs <;> rfl
  have hyn : yn.toFp = signed y.toFp (decide ((Full.cmp v26 gx1').2.2 = 0#32))
      (decide (canon y.toFp % 2 = 1)) := by
    simp only [yn, cmv_toFp, e3, e4, sgn_snd, xor_flags, y3, v28, y', Full.neg_toFp, sgn_fst, signed]
  refine ⟨?_, by rw [hxd]; exact xd_ne _, one_toFp⟩
  simp only
  rw [hxn, hyn, hy]
  exact elligator2_spec (fun _ => by rw [decide_eq_true_iff, he1])
    (fun _ => by rw [decide_eq_true_iff, he2]) (by rw [decide_eq_true_iff, he3])
    (by rw [decide_eq_true_iff])

theorem map_to_curve_spec (isa : Isa) (u : F4) :
    ∃ Q : Pt, MapsTo u.toFp Q ∧ Is1full (map_to_curve isa u) Q := by
  obtain ⟨h, hm, hd⟩ := elligator2_curve25519_spec isa u
  have he : (Full.cmp (Full.mul isa (Full.mul isa (elligator2_curve25519 isa u).xd
      (elligator2_curve25519 isa u).yn) (Full.add isa (elligator2_curve25519 isa u).xn
      (elligator2_curve25519 isa u).xd)) Full.zero).2.2 = 0#32 ↔
      (elligator2_curve25519 isa u).xd.toFp * (elligator2_curve25519 isa u).yn.toFp *
        ((elligator2_curve25519 isa u).xn.toFp + (elligator2_curve25519 isa u).xd.toFp) = 0 := by
    rw [Full.cmp_result]
    simp only [Full.mul_toFp, Full.add_toFp, Full.zero_toFp]
  obtain ⟨Q, hQ, hR⟩ := edwards_spec h hm (e := decide _) ((decide_eq_true_iff).trans he)
  refine ⟨Q, hQ, ?_⟩
  unfold Is1full map_to_curve elligator2_edwards25519
  simp only [Full.mul_toFp, cmv_toFp, isZero_ne, Full.add_toFp, Full.sub_toFp, cmp_snd,
    Full.zero_toFp, one_toFp, c1_toFp, hd, mul_one] at hR ⊢
  exact hR

theorem clear_cofactor_spec (isa : Isa) {P : P1full} {Q : Pt} (h : Is1full P Q) :
    Is1full (clear_cofactor isa P) (8 • Q) := by
  have := doubling_1w_full_spec isa (doubling_1w_full_spec isa (doubling_1w_full_spec isa h))
  unfold clear_cofactor
  convert this using 1
  simp only [← two_smul ℕ, smul_smul]
  norm_num

theorem toAffine_spec (isa : Isa) {P : P1full} {Q : Pt} (h : Is1full P Q) :
    (toAffine isa P).X.toFp = Q.x ∧ (toAffine isa P).Y.toFp = Q.y := by
  unfold toAffine
  simp only [Full.mul_toFp, Full.inv_toFp]
  exact ⟨Edw.Rep.x_eq h, Edw.Rep.y_eq h⟩

theorem hash_to_field_eq (ctx : Sha512.Ctx) (hctx : ctx.buf.length = 128) (pfx : Byte)
    (msg : List Byte) (h : msg.length + 1 < 2 ^ 64) :
    hash_to_field ctx pfx msg = F4.ofBytes (reduceBytes (Sha512.sha512 (pfx :: msg))) := by
  have hi := Sha512.update_inv (Sha512.update_inv (Sha512.inv_init ctx hctx) [pfx]) msg
  rw [List.nil_append, List.singleton_append] at hi
  have := Sha512.close_spec hi (by rw [List.length_cons]; exact h)
  unfold hash_to_field
  exact congrArg (fun b => F4.ofBytes (reduceBytes b)) this

end Verif.H2c
