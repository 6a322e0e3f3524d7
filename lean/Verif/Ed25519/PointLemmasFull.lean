import Verif.Ed25519.PointLemmas
import Verif.Fp25519.FullLemmas

/-! # Full-radix point formulas and the two-way doubling: helper lemmas -/

namespace Verif.Ed25519

open Verif.Fp25519

/-! ## Full radix -/

/-- The coordinates represent the point `A`. -/
def Is1full (Q : P1full) (A : Pt) : Prop := Edw.Rep A Q.X.toFp Q.Y.toFp Q.Z.toFp Q.T.toFp

theorem param_2d_full_toFp : param_2d_full.toFp = 2 * d := by
  have h : param_2d_full.val = ((2 * dN % P : ℕ) : ℤ) := by decide +kernel
  rw [F4.toFp, h, Int.cast_natCast, show ((2 * dN % P : ℕ) : Fp) = ((2 * dN : ℕ) : Fp) from
    natEq (by decide +kernel)]
  push_cast; rfl

theorem doubling_1w_full_spec (isa : Isa) {Q : P1full} {A : Pt} (h : Is1full Q A) :
    Is1full (doubling_1w_full isa Q) (A + A) := by
  unfold Is1full
  simp only [doubling_1w_full, Full.mul_toFp, Full.sqr_toFp, Full.add_toFp, Full.sub_toFp,
    Full.neg_toFp]
  exact Edw.Rep.dbl curve_a h (by ring) (by ring) (by ring) (by ring)

theorem fulladd_1w_full_spec (isa : Isa) {Q P : P1full} {A B : Pt} (hQ : Is1full Q A)
    (hP : Is1full P B) : Is1full (fulladd_1w_full isa Q P) (A + B) := by
  unfold Is1full
  simp only [fulladd_1w_full, Full.mul_toFp, Full.add_toFp, Full.sub_toFp, param_2d_full_toFp]
  exact Edw.Rep.add curve_a hQ hP (by ring) (by rw [curve_d]; ring) (by rw [curve_d]; ring)
    (by ring)

/-! ## Two-way doubling -/

/-- The coordinates X, Y, Z of one half represent the point `A`. -/
def Is2wayXYZ (Q : P2way U) (A : Pt) : Prop :=
  ∃ x y z t, Rp tight Q.X.limbs x ∧ Rp tight Q.Y.limbs y ∧ Rp tight Q.Z.limbs z ∧
    Edw.Rep A x y z t

theorem Is2way.xyz {Q : P2way U} {A : Pt} (h : Is2way Q A) : Is2wayXYZ Q A := by
  obtain ⟨x, y, z, t, hx, hy, hz, _, hR⟩ := h
  exact ⟨x, y, z, t, hx, hy, hz, hR⟩

theorem R2_naddsub_lo (a b : Elt5 V) :
    (R2.naddsub a b).1.lo = (R2.naddsub a.lo b.lo).1 ∧
      (R2.naddsub a b).2.lo = (R2.naddsub a.lo b.lo).2 := ⟨rfl, rfl⟩

theorem R2_naddsub_hi (a b : Elt5 V) :
    (R2.naddsub a b).1.hi = (R2.naddsub a.hi b.hi).1 ∧
      (R2.naddsub a b).2.hi = (R2.naddsub a.hi b.hi).2 := ⟨rfl, rfl⟩

theorem doubling_2way_lo (Q : P2way V) (t : Bool) :
    (doubling_2way Q t).lo = doubling_2way Q.lo t := by
  cases t <;> simp only [doubling_2way, P2way.lo, R2_add_lo, R2_sub_lo, R2_mul_lo, R2_sqr_lo,
    R2_compressfast_lo, (R2_naddsub_lo _ _).1, (R2_naddsub_lo _ _).2, Bool.false_eq_true,
    if_true, if_false]

theorem doubling_2way_hi (Q : P2way V) (t : Bool) :
    (doubling_2way Q t).hi = doubling_2way Q.hi t := by
  cases t <;> simp only [doubling_2way, P2way.hi, R2_add_hi, R2_sub_hi, R2_mul_hi, R2_sqr_hi,
    R2_compressfast_hi, (R2_naddsub_hi _ _).1, (R2_naddsub_hi _ _).2, Bool.false_eq_true,
    if_true, if_false]

/-- No limb of `2p - a - b` goes below zero. -/
def NaddOk (a b : Elt10 W) : Prop :=
  let ok (k a b : W) : Prop := a.toNat + b.toNat ≤ k.toNat
  let k : Elt10 W := (R2.twoP : Elt5 U).limbs
  ok k.r0 a.r0 b.r0 ∧ ok k.r1 a.r1 b.r1 ∧ ok k.r2 a.r2 b.r2 ∧ ok k.r3 a.r3 b.r3 ∧
  ok k.r4 a.r4 b.r4 ∧ ok k.r5 a.r5 b.r5 ∧ ok k.r6 a.r6 b.r6 ∧ ok k.r7 a.r7 b.r7 ∧
  ok k.r8 a.r8 b.r8 ∧ ok k.r9 a.r9 b.r9

instance (b a : Elt10 W) : Decidable (NaddOk b a) := by unfold NaddOk; infer_instance

theorem w_naddsub (a b k : W) (M : ℕ) (hk : k.toNat ≤ M) (h : a.toNat + b.toNat ≤ k.toNat) :
    (k - a - b).toNat ≤ M ∧ ((k - a - b).toNat : ℤ) = (k.toNat : ℤ) - (a.toNat + b.toNat) := by
  have := k.isLt
  rw [BitVec.toNat_sub, BitVec.toNat_sub]
  omega

theorem Rp.r2nadd {a b : Elt5 U} {x y : Fp} (ha : a.limbs.toFp = x) (hb : b.limbs.toFp = y)
    (h : NaddOk a.limbs b.limbs) : Rp loose (R2.naddsub a b).1.limbs (-x - y) := by
  obtain ⟨n0, n1, n2, n3, n4, n5, n6, n7, n8, n9⟩ := h
  have e0 := w_naddsub _ _ _ loose.r0 (by decide) n0
  have e1 := w_naddsub _ _ _ loose.r1 (by decide) n1
  have e2 := w_naddsub _ _ _ loose.r2 (by decide) n2
  have e3 := w_naddsub _ _ _ loose.r3 (by decide) n3
  have e4 := w_naddsub _ _ _ loose.r4 (by decide) n4
  have e5 := w_naddsub _ _ _ loose.r5 (by decide) n5
  have e6 := w_naddsub _ _ _ loose.r6 (by decide) n6
  have e7 := w_naddsub _ _ _ loose.r7 (by decide) n7
  have e8 := w_naddsub _ _ _ loose.r8 (by decide) n8
  have e9 := w_naddsub _ _ _ loose.r9 (by decide) n9
  refine ⟨⟨e0.1, e1.1, e2.1, e3.1, e4.1, e5.1, e6.1, e7.1, e8.1, e9.1⟩, ?_⟩
  have hv : (R2.naddsub a b).1.limbs.ints.val =
      2 * (2 ^ 255 - 19) - (a.limbs.ints.val + b.limbs.ints.val) := by
    have c0 : ((R2.twoP : Elt5 U).limbs).ints.val = 2 * (2 ^ 255 - 19) := by decide +kernel
    rw [← c0]
    have d0 : (R2.naddsub a b).1.limbs.ints.r0 = _ := e0.2
    have d1 : (R2.naddsub a b).1.limbs.ints.r1 = _ := e1.2
    have d2 : (R2.naddsub a b).1.limbs.ints.r2 = _ := e2.2
    have d3 : (R2.naddsub a b).1.limbs.ints.r3 = _ := e3.2
    have d4 : (R2.naddsub a b).1.limbs.ints.r4 = _ := e4.2
    have d5 : (R2.naddsub a b).1.limbs.ints.r5 = _ := e5.2
    have d6 : (R2.naddsub a b).1.limbs.ints.r6 = _ := e6.2
    have d7 : (R2.naddsub a b).1.limbs.ints.r7 = _ := e7.2
    have d8 : (R2.naddsub a b).1.limbs.ints.r8 = _ := e8.2
    have d9 : (R2.naddsub a b).1.limbs.ints.r9 = _ := e9.2
    unfold Elt10.val
    rw [d0, d1, d2, d3, d4, d5, d6, d7, d8, d9]
    simp only [Elt10.ints, Elt10.map]
    ring
  unfold Elt10.toFp
  rw [hv, Int.cast_sub, Int.cast_add, two_p_cast, ← ha, ← hb]
  unfold Elt10.toFp
  ring

theorem R2_naddsub_snd (a b : Elt5 U) : (R2.naddsub a b).2.limbs = (R2.sub b a).limbs := by
  have h : ∀ p q r : W, p - q + r = r + (p - q) := fun p q r => BitVec.add_comm _ _
  ext1 <;> exact h _ _ _

/-- The subtraction in `doubling_2way` does not go below zero. -/
def Dbl2Ok (Q : P2way U) : Prop := NaddOk (R2.sqr Q.X).limbs (R2.sqr Q.Y).limbs

instance (Q : P2way U) : Decidable (Dbl2Ok Q) := by unfold Dbl2Ok; infer_instance

/-- The bounds after a fast compression. -/
def fast2 : Elt10 ℕ := bnd (2 ^ 26 + 2 ^ 7) (2 ^ 25 + 2 ^ 7)

theorem doubling_2way_parts {Q : P2way U} {A : Pt} (hQ : Is2wayXYZ Q A) (hok : Dbl2Ok Q) :
    ∃ x y z t, Edw.Rep (A + A) x y z t ∧
      ∀ c, Rp tight (doubling_2way Q c).X.limbs x ∧ Rp tight (doubling_2way Q c).Y.limbs y ∧
        Rp tight (doubling_2way Q c).Z.limbs z ∧ Rp tight (doubling_2way Q true).T.limbs t := by
  obtain ⟨x, y, z, t, hx, hy, hz, hR⟩ := hQ
  have oadd : okLe (R2.add (ivs tight).pack (ivs tight).pack).limbs loose = true := by
    decide +kernel
  have osub : okLe (R2.sub (ivs tight).pack (ivs tight).pack).limbs loose = true := by
    decide +kernel
  have ofast : okLe (R2.compressfast (ivs loose).pack).limbs fast2 = true := by decide +kernel
  have osqr : okLe (R2.intsqr (ivs tight).pack).limbs wide = true := by decide +kernel
  have osqf : okLe (R2.intsqr (ivs fast2).pack).limbs wide = true := by decide +kernel
  have oaddf : okLe (R2.add (ivs tight).pack (ivs fast2).pack).limbs loose = true := by
    decide +kernel
  have osubf : okLe (R2.sub (ivs fast2).pack (ivs fast2).pack).limbs loose = true := by
    decide +kernel
  have omul : okLe (R2.intmul (ivs fast2).pack (ivs fast2).pack).limbs wide = true := by
    decide +kernel
  have hT1 := (((hx.r2add hy oadd).r2compressfast ofast).r2intsqr osqf).r2compress
  have hX1 := (hx.r2intsqr osqr).r2compress
  have hY1 := (hy.r2intsqr osqr).r2compress
  have hZ0 := (hz.r2intsqr osqr).r2compress
  have hZ1 := (hZ0.r2add hZ0 oadd).r2compressfast ofast
  have hH := (Rp.r2nadd hX1.2 hY1.2 hok).r2compressfast ofast
  have hG0 := hY1.r2sub hX1 osub
  rw [← R2_naddsub_snd] at hG0
  have hG := hG0.r2compressfast ofast
  have hE := (hT1.r2add hH oaddf).r2compressfast ofast
  have hF := (hG.r2sub hZ1 osubf).r2compressfast ofast
  simp only [doubling_2way, R2.mul, if_true]
  refine ⟨_, _, _, _, ?_, fun c => ⟨(hE.r2intmul hF omul).r2compress,
    (hG.r2intmul hH omul).r2compress, (hF.r2intmul hG omul).r2compress,
    (hE.r2intmul hH omul).r2compress⟩⟩
  exact Edw.Rep.dbl curve_a hR (by ring) (by ring) (by ring) (by ring)

end Verif.Ed25519
