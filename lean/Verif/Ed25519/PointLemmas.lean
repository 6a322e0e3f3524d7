import Verif.Ed25519.Point
import Verif.Ed25519.Curve
import Verif.Fp25519.RedRep

/-! # The point formulas: helper lemmas -/

namespace Verif.Ed25519

open Verif.Fp25519

theorem R4_compress2_eq {α : Type} [Lane α] (c d : Elt10 α) :
    R4.compress2 c d = (R4.compress c, R4.compress d) := rfl

theorem curve_a : curve.a = -1 := rfl
theorem curve_d : curve.d = d := rfl

/-! ## Four points in four lanes -/

/-- One lane of four points. -/
def P4way.lane (Q : P4way V) (j : ℕ) : P4way W :=
  ⟨Q.X.lane j, Q.Y.lane j, Q.Z.lane j, Q.T.lane j⟩

def Pre4way.lane (Q : Pre4way V) (j : ℕ) : Pre4way W :=
  ⟨Q.addYX.lane j, Q.subYX.lane j, Q.dYX.lane j⟩

theorem R4_intmul_lane (a b : Elt10 V) (j : ℕ) (hj : j < 4) :
    (R4.intmul a b).lane j = R4.intmul (a.lane j) (b.lane j) :=
  lane_cases (p := fun j => (R4.intmul a b).lane j = R4.intmul (a.lane j) (b.lane j))
    rfl rfl rfl rfl j hj

theorem R4_add_lane (a b : Elt10 V) (j : ℕ) (hj : j < 4) :
    (R4.add a b).lane j = R4.add (a.lane j) (b.lane j) :=
  lane_cases (p := fun j => (R4.add a b).lane j = R4.add (a.lane j) (b.lane j))
    rfl rfl rfl rfl j hj

theorem R4_sub_lane (a b : Elt10 V) (j : ℕ) (hj : j < 4) :
    (R4.sub a b).lane j = R4.sub (a.lane j) (b.lane j) :=
  lane_cases (p := fun j => (R4.sub a b).lane j = R4.sub (a.lane j) (b.lane j))
    rfl rfl rfl rfl j hj

theorem subK35_lane (a b : Elt10 V) (j : ℕ) (hj : j < 4) :
    (subK35 a b).lane j = subK35 (a.lane j) (b.lane j) :=
  lane_cases (p := fun j => (subK35 a b).lane j = subK35 (a.lane j) (b.lane j))
    rfl rfl rfl rfl j hj

theorem R4_addsub_eq {α : Type} [Lane α] (a b : Elt10 α) :
    R4.addsub a b = (R4.add a b, R4.sub a b) := rfl

theorem R4_addsublar_eq {α : Type} [Lane α] (a b : Elt10 α) :
    R4.addsublar a b = (R4.add a b, subK35 a b) := rfl

theorem mixadd_4way_lane (Q : P4way V) (P : Pre4way V) (j : ℕ) (hj : j < 4) :
    (mixadd_4way Q P).lane j = mixadd_4way (Q.lane j) (P.lane j) := by
  simp only [mixadd_4way, P4way.lane, Pre4way.lane, R4_compress2_eq, R4_addsub_eq, R4_addsublar_eq,
    R4_compress_lane _ j hj, R4_intmul_lane _ _ j hj, R4_add_lane _ _ j hj, R4_sub_lane _ _ j hj,
    subK35_lane _ _ j hj]

/-- The coordinates of one lane represent the point `A`. -/
def Is4way (m : Elt10 ℕ) (Q : P4way W) (A : Pt) : Prop :=
  ∃ x y z t, Rp m Q.X x ∧ Rp m Q.Y y ∧ Rp m Q.Z z ∧ Rp m Q.T t ∧ Edw.Rep A x y z t

/-- The bounds of 2dxy in a table query. -/
def queryB : Elt10 ℕ := bnd (2 ^ 27) (2 ^ 26)

/-- One lane of the table query is the precomputed form of `A`. -/
def IsPre4way (P : Pre4way W) (A : Pt) : Prop :=
  ∃ a s t, Rp tight P.addYX a ∧ Rp tight P.subYX s ∧ Rp queryB P.dYX t ∧ Edw.Pre A a s t 2

/-- The bounds of the coordinates between two additions. -/
def coordB : Elt10 ℕ := bnd (2 ^ 26 + 2 ^ 14) (2 ^ 25 + 2 ^ 18)

theorem mixadd_4way_spec {Q : P4way W} {P : Pre4way W} {A B : Pt} (hQ : Is4way coordB Q A)
    (hP : IsPre4way P B) : Is4way tight (mixadd_4way Q P) (A + B) := by
  obtain ⟨x, y, z, t, hx, hy, hz, ht, hR⟩ := hQ
  obtain ⟨a, s, t2, ha, hs, ht2, hR2⟩ := hP
  have kadd := hy.r4add hx (m' := loose) (by decide +kernel)
  have ksub := hy.r4sub hx (m' := loose) (by decide +kernel)
  have hA := ksub.r4intmul hs okL4
  have hB := kadd.r4intmul ha okL4
  have hC := (ht2.r4intmul ht (m' := wide) (by decide +kernel)).r4compress
  have hD := (hz.r4add hz (m' := wide) (by decide +kernel)).r4compress
  have hE := (hB.subK35 hA (m' := wide) (by decide +kernel)).r4compress
  have hH := (hB.r4add hA (m' := wide) (by decide +kernel)).r4compress
  have hF := (hD.subK35 hC (m' := wide) (by decide +kernel)).r4compress
  have hG := (hD.r4add hC (m' := wide) (by decide +kernel)).r4compress
  have oT : okLe (R4.intmul (ivs tight) (ivs tight)) wide = true := by decide +kernel
  refine ⟨_, _, _, _, (hE.r4intmul hF oT).r4compress, (hG.r4intmul hH oT).r4compress,
    (hG.r4intmul hF oT).r4compress, (hE.r4intmul hH oT).r4compress, ?_⟩
  have := hR.mixadd curve_a hR2 (E := (y + x) * a - (y - x) * s) (F := z + z - t2 * t)
    (G := z + z + t2 * t) (H := (y + x) * a + (y - x) * s) rfl (by ring) (by ring) rfl
  rwa [mul_comm (z + z - t2 * t) (z + z + t2 * t)] at this

/-! ## Two points in two halves -/

/-- One half of two points. -/
def P2way.lo (Q : P2way V) : P2way U := ⟨Q.X.lo, Q.Y.lo, Q.Z.lo, Q.T.lo⟩
def P2way.hi (Q : P2way V) : P2way U := ⟨Q.X.hi, Q.Y.hi, Q.Z.hi, Q.T.hi⟩

theorem param_2d_lo : (param_2d : Elt5 V).lo = param_2d := rfl
theorem param_2d_hi : (param_2d : Elt5 V).hi = param_2d := rfl

theorem fulladd_2way_lo (Q P : P2way V) : (fulladd_2way Q P).lo = fulladd_2way Q.lo P.lo := by
  simp only [fulladd_2way, P2way.lo, R2_addsub_eq, R2_compress_lo, R2_compressfast_lo,
    R2_intmul_lo, R2_add_lo, R2_sub_lo, param_2d_lo]

theorem fulladd_2way_hi (Q P : P2way V) : (fulladd_2way Q P).hi = fulladd_2way Q.hi P.hi := by
  simp only [fulladd_2way, P2way.hi, R2_addsub_eq, R2_compress_hi, R2_compressfast_hi,
    R2_intmul_hi, R2_add_hi, R2_sub_hi, param_2d_hi]

/-- The coordinates of one half represent the point `A`. -/
def Is2way (Q : P2way U) (A : Pt) : Prop :=
  ∃ x y z t, Rp tight Q.X.limbs x ∧ Rp tight Q.Y.limbs y ∧ Rp tight Q.Z.limbs z ∧
    Rp tight Q.T.limbs t ∧ Edw.Rep A x y z t

theorem param_2d_rp : Rp tight (param_2d : Elt5 U).limbs (2 * d) := by
  refine ⟨by decide +kernel, ?_⟩
  have h : (param_2d : Elt5 U).limbs.ints.val = ((2 * dN % P : ℕ) : ℤ) := by decide +kernel
  rw [Elt10.toFp, h, Int.cast_natCast, show ((2 * dN % P : ℕ) : Fp) = ((2 * dN : ℕ) : Fp) from
    natEq (by decide +kernel)]
  push_cast; rfl

theorem fulladd_2way_spec {Q P : P2way U} {A B : Pt} (hQ : Is2way Q A) (hP : Is2way P B) :
    Is2way (fulladd_2way Q P) (A + B) := by
  obtain ⟨x, y, z, t, hx, hy, hz, ht, hR⟩ := hQ
  obtain ⟨x2, y2, z2, t2, hx2, hy2, hz2, ht2, hR2⟩ := hP
  have oadd : okLe (R2.add (ivs tight).pack (ivs tight).pack).limbs loose = true := by
    decide +kernel
  have osub : okLe (R2.sub (ivs tight).pack (ivs tight).pack).limbs loose = true := by
    decide +kernel
  have ofast : okLe (R2.compressfast (ivs loose).pack).limbs loose = true := by decide +kernel
  have oT : okLe (R2.intmul (ivs tight).pack (ivs tight).pack).limbs wide = true := by
    decide +kernel
  have oLT : okLe (R2.intmul (ivs loose).pack (ivs tight).pack).limbs wide = true := by
    decide +kernel
  have kz := hz.r2add hz oadd
  have ky := hy.r2add hx oadd
  have kx := hy.r2sub hx osub
  have ky2 := (hy2.r2add hx2 oadd).r2compressfast ofast
  have kx2 := (hy2.r2sub hx2 osub).r2compressfast ofast
  have hA := (kx.r2intmul kx2 okW2).r2compress
  have hB := (ky.r2intmul ky2 okW2).r2compress
  have hC := (((ht.r2intmul ht2 oT).r2compress).r2intmul param_2d_rp oT).r2compress
  have hD := (kz.r2intmul hz2 oLT).r2compress
  have hE := hB.r2sub hA osub
  have hH := (hB.r2add hA oadd).r2compressfast ofast
  have hG := hD.r2add hC oadd
  have hF := (hD.r2sub hC osub).r2compressfast ofast
  simp only [fulladd_2way, R2_addsub_eq]
  refine ⟨_, _, _, _, (hE.r2intmul hF okW2).r2compress, (hG.r2intmul hH okW2).r2compress,
    (hG.r2intmul hF okW2).r2compress, (hE.r2intmul hH okW2).r2compress, ?_⟩
  have := hR.add curve_a hR2 (E := (y + x) * (y2 + x2) - (y - x) * (y2 - x2))
    (F := (z + z) * z2 - t * t2 * (2 * d)) (G := (z + z) * z2 + t * t2 * (2 * d))
    (H := (y + x) * (y2 + x2) + (y - x) * (y2 - x2)) rfl (by rw [curve_d]; ring)
    (by rw [curve_d]; ring) rfl
  rwa [mul_comm ((z + z) * z2 - t * t2 * (2 * d)) _] at this

/-! ## One point over two halves -/

theorem w_sub_add (a b k : W) : a - b + k = a + (k - b) := by
  apply BitVec.eq_of_toInt_eq; simp [BitVec.toInt_add, BitVec.toInt_sub]; congr 1; ring

theorem w_add_zero (a k : W) : a + k = a + (k - 0#64) := by simp

theorem w_sub_sub_add (a b c k : W) : a - b - c + k = a + (k - (b + c)) := by
  apply BitVec.eq_of_toInt_eq; simp [BitVec.toInt_add, BitVec.toInt_sub]; congr 1; ring

/-- The element 0. -/
def zero10 : Elt10 W := ⟨0#64, 0#64, 0#64, 0#64, 0#64, 0#64, 0#64, 0#64, 0#64, 0#64⟩

/-- The bounds of 0. -/
def zeroB : Elt10 ℕ := bnd 0 0

theorem zero10_rp : Rp zeroB zero10 0 := ⟨by decide, by simp [Elt10.toFp, Elt10.ints, Elt10.map,
  zero10, Elt10.val]⟩

/-- The coordinates (X|Y), (T|Z) represent the point `A`. -/
def Is2w (Q : P2w) (A : Pt) : Prop :=
  ∃ x y z t, Rp tight Q.XY.lo.limbs x ∧ Rp tight Q.XY.hi.limbs y ∧ Rp tight Q.TZ.hi.limbs z ∧
    Rp tight Q.TZ.lo.limbs t ∧ Edw.Rep A x y z t

theorem permEE_lo (a : Elt5 V) : (a.map (PERM64 · 0xEE)).lo = a.hi := rfl
theorem permEE_hi (a : Elt5 V) : (a.map (PERM64 · 0xEE)).hi = a.hi := rfl

section dbl
variable (XY TZ : Elt5 V)

theorem dbl_EG_lo : ((XY.zip (fun xy tz => BLEND32 (dbl2w_BG xy) tz 0x0F) TZ).zip ADD
    CONST_2_to_35P_2w).lo.limbs = subK35 TZ.lo.limbs zero10 := by
  ext1 <;> exact w_add_zero _ _

theorem dbl_EG_hi : ((XY.zip (fun xy tz => BLEND32 (dbl2w_BG xy) tz 0x0F) TZ).zip ADD
    CONST_2_to_35P_2w).hi.limbs = subK35 XY.hi.limbs XY.lo.limbs := by
  ext1 <;> exact w_sub_add _ _ _

theorem dbl_HF_lo : ((XY.zip (fun xy tz => SUB (dbl2w_BG xy) (BLEND32 xy tz 0xF0)) TZ).zip ADD
    CONST_2_to_35P_2w).lo.limbs = subK35 zero10 (R2.add XY.hi XY.lo).limbs := by
  ext1 <;> exact w_sub_sub_add _ _ _ _

theorem dbl_HF_hi : ((XY.zip (fun xy tz => SUB (dbl2w_BG xy) (BLEND32 xy tz 0xF0)) TZ).zip ADD
    CONST_2_to_35P_2w).hi.limbs = subK35 XY.hi.limbs (R2.add XY.lo TZ.hi).limbs := by
  ext1 <;> exact w_sub_sub_add _ _ _ _

end dbl

theorem oT2w : okLe (R2.intmul (ivs tight).pack (ivs tight).pack).limbs wide = true := by
  decide +kernel

/-- The end of the formulas over two halves. -/
theorem finish_2w {HF EG : Elt5 V} {e f g h : Fp} {A : Pt} (he : Rp wide EG.lo.limbs e)
    (hg : Rp wide EG.hi.limbs g) (hh : Rp wide HF.lo.limbs h) (hf : Rp wide HF.hi.limbs f)
    (hR : Edw.Rep A (e * f) (g * h) (f * g) (e * h)) :
    Is2w ⟨R2.compress (R2.intmul2 (R2.compress HF) (R2.compress EG)).2,
      R2.compress (R2.intmul2 (R2.compress HF) (R2.compress EG)).1⟩ A := by
  have he := he.r2compress
  have hg := hg.r2compress
  have hh := hh.r2compress
  have hf := hf.r2compress
  refine ⟨f * e, h * g, f * g, h * e, ?_, ?_, ?_, ?_, ?_⟩
  · rw [R2_intmul2_snd, R2_compress_lo, R2_intmul_lo, perm4E_lo, R2_compress_hi, R2_compress_lo]
    exact (hf.r2intmul he oT2w).r2compress
  · rw [R2_intmul2_snd, R2_compress_hi, R2_intmul_hi, perm4E_hi, R2_compress_hi, R2_compress_lo]
    exact (hh.r2intmul hg oT2w).r2compress
  · rw [R2_intmul2_fst, R2_compress_hi, R2_intmul_hi, R2_compress_hi, R2_compress_hi]
    exact (hf.r2intmul hg oT2w).r2compress
  · rw [R2_intmul2_fst, R2_compress_lo, R2_intmul_lo, R2_compress_lo, R2_compress_lo]
    exact (hh.r2intmul he oT2w).r2compress
  · rwa [mul_comm f e, mul_comm h g, mul_comm h e]

theorem doubling_2w_spec {Q : P2w} {A : Pt} (hQ : Is2w Q A) : Is2w (doubling_2w Q) (A + A) := by
  obtain ⟨x, y, z, t, hx, hy, hz, ht, hR⟩ := hQ
  have hA := hx.r2intsqr okS2
  have hB := hy.r2intsqr okS2
  have hE := ht.r2intmul hz okT2
  have hC := hz.r2intmul hz okT2
  have o2 : okLe (R2.add (ivs prodT).pack (ivs prodT).pack).limbs
    (bnd (254 * 2 ^ 52) (160 * 2 ^ 52)) = true := by decide +kernel
  have o3 : okLe (R2.add (ivs prodT).pack (ivs (bnd (254 * 2 ^ 52) (160 * 2 ^ 52))).pack).limbs
    (bnd (381 * 2 ^ 52) (240 * 2 ^ 52)) = true := by decide +kernel
  have hE := hE.r2add hE o2
  have hC := hC.r2add hC o2
  simp only [doubling_2w, R2_compress2_eq]
  refine finish_2w (e := t * z + t * z - 0) (f := y * y - (x * x + (z * z + z * z)))
    (g := y * y - x * x) (h := 0 - (y * y + x * x)) ?_ ?_ ?_ ?_ ?_
  · rw [dbl_EG_lo, R2_add_lo, R2_intmul_lo, permEE_lo]
    exact hE.subK35 zero10_rp (by decide +kernel)
  · rw [dbl_EG_hi, R2_intsqr_hi, R2_intsqr_lo]
    exact hB.subK35 hA (by decide +kernel)
  · rw [dbl_HF_lo, R2_intsqr_hi, R2_intsqr_lo]
    exact zero10_rp.subK35 (hB.r2add hA o2) (by decide +kernel)
  · rw [dbl_HF_hi, R2_intsqr_hi, R2_intsqr_lo, R2_add_hi, R2_intmul_hi, permEE_hi]
    exact hB.subK35 (hA.r2add hC o3) (by decide +kernel)
  · refine hR.dbl curve_a ?_ ?_ ?_ ?_
    · linear_combination 2 * hR.tz
    all_goals ring

section egHF
variable (AB CD : Elt5 V)
theorem egHF_E : (egHF AB CD).1.lo = R2.add AB.hi AB.lo := rfl
theorem egHF_G : (egHF AB CD).1.hi = R2.add CD.hi CD.lo := rfl
theorem egHF_H : (egHF AB CD).2.lo.limbs = subK35 AB.hi.limbs AB.lo.limbs := by
  ext1 <;> exact w_sub_add _ _ _
theorem egHF_F : (egHF AB CD).2.hi.limbs = subK35 CD.hi.limbs CD.lo.limbs := by
  ext1 <;> exact w_sub_add _ _ _
end egHF

/-- The vectors (Y-X|Y+X), (2dT|2Z) are the precomputed form of `A`. -/
def IsPre2w (P : Pre2w) (A : Pt) : Prop :=
  ∃ a s t z, Rp tight P.subaddYX.hi.limbs a ∧ Rp tight P.subaddYX.lo.limbs s ∧
    Rp loose P.dT_2Z.lo.limbs t ∧ Rp loose P.dT_2Z.hi.limbs z ∧ Edw.Pre A a s t z

theorem R1_add_eq (a b : Elt5 U) : R1.add a b = R2.add a b := rfl
theorem R1_sub_eq (a b : Elt5 U) : R1.sub a b = R2.sub a b := rfl

theorem oaddT : okLe (R2.add (ivs tight).pack (ivs tight).pack).limbs loose = true := by
  decide +kernel
theorem osubT : okLe (R2.sub (ivs tight).pack (ivs tight).pack).limbs loose = true := by
  decide +kernel
theorem okL2' : okLe (R2.intmul (ivs tight).pack (ivs loose).pack).limbs prodL = true := by
  decide +kernel

theorem mixadd_2w_spec {Q : P2w} {P : Pre2w} {A B : Pt} (hQ : Is2w Q A) (hP : IsPre2w P B) :
    Is2w (mixadd_2w Q P) (A + B) := by
  obtain ⟨x, y, z, t, hx, hy, hz, ht, hR⟩ := hQ
  obtain ⟨a, s, t2, z2, ha, hs, ht2, hz2, hR2⟩ := hP
  have hA := (hx.r2sub hy osubT).r2intmul hs okL2
  have hB := (hy.r2add hx oaddT).r2intmul ha okL2
  have hC := ht.r2intmul ht2 okL2'
  have hD := hz.r2intmul hz2 okL2'
  have o2 : okLe (R2.add (ivs prodL).pack (ivs prodL).pack).limbs wide = true := by decide +kernel
  have o3 : okLe (subK35 (ivs prodL) (ivs prodL)) wide = true := by decide +kernel
  simp only [mixadd_2w, R2_compress2_eq]
  refine finish_2w (e := (y + x) * a + (x - y) * s) (f := z * z2 - t * t2) (g := z * z2 + t * t2)
    (h := (y + x) * a - (x - y) * s) ?_ ?_ ?_ ?_ ?_
  · rw [egHF_E, R2_intmul_lo, R2_intmul_hi, (R2_subadd0 _).1, (R2_subadd0 _).2]
    exact hB.r2add hA o2
  · rw [egHF_G, R2_intmul_lo, R2_intmul_hi]
    exact hD.r2add hC o2
  · rw [egHF_H, R2_intmul_lo, R2_intmul_hi, (R2_subadd0 _).1, (R2_subadd0 _).2]
    exact hB.subK35 hA o3
  · rw [egHF_F, R2_intmul_lo, R2_intmul_hi]
    exact hD.subK35 hC o3
  · exact hR.mixadd curve_a hR2 (by ring) rfl rfl (by ring)

theorem param_02_lo : param_curve_2d_02.lo = (param_2d : Elt5 U) := rfl

theorem param_02_hi : Rp tight param_curve_2d_02.hi.limbs 2 := by
  refine ⟨by decide +kernel, ?_⟩
  have h : param_curve_2d_02.hi.limbs.ints.val = 2 := by decide +kernel
  rw [Elt10.toFp, h]; rfl

theorem fulladd_2w_spec {Q P : P2w} {A B : Pt} (hQ : Is2w Q A) (hP : Is2w P B) :
    Is2w (fulladd_2w Q P) (A + B) := by
  obtain ⟨x, y, z, t, hx, hy, hz, ht, hR⟩ := hQ
  obtain ⟨x2, y2, z2, t2, hx2, hy2, hz2, ht2, hR2⟩ := hP
  have ofast : okLe (R2.compressfast (ivs wide).pack).limbs (bnd (2 ^ 44) (2 ^ 44)) = true := by
    decide +kernel
  have hA := ((hx.r2sub hy osubT).r2intmul (hy2.r2sub hx2 osubT) okW2).r2compressfast ofast
  have hB := ((hy.r2add hx oaddT).r2intmul (hx2.r2add hy2 oaddT) okW2).r2compressfast ofast
  have hC := ((ht.r2intmul ht2 oT2w).r2compress).r2intmul param_2d_rp okT2
  have hD := ((hz.r2intmul hz2 oT2w).r2compress).r2intmul param_02_hi okT2
  simp only [fulladd_2w, R2_compress2_eq]
  refine finish_2w (e := (y + x) * (x2 + y2) + (x - y) * (y2 - x2))
    (f := z * z2 * 2 - t * t2 * (2 * d)) (g := z * z2 * 2 + t * t2 * (2 * d))
    (h := (y + x) * (x2 + y2) - (x - y) * (y2 - x2)) ?_ ?_ ?_ ?_ ?_
  · rw [egHF_E, R2_compressfast_lo, R2_compressfast_hi, R2_intmul_lo, R2_intmul_hi,
      (R2_subadd0 _).1, (R2_subadd0 _).2, (R2_subadd1 _).1, (R2_subadd1 _).2]
    exact hB.r2add hA (by decide +kernel)
  · rw [egHF_G, R2_intmul_lo, R2_intmul_hi, R2_compress_lo, R2_compress_hi, R2_intmul_lo,
      R2_intmul_hi, param_02_lo]
    exact hD.r2add hC (by decide +kernel)
  · rw [egHF_H, R2_compressfast_lo, R2_compressfast_hi, R2_intmul_lo, R2_intmul_hi,
      (R2_subadd0 _).1, (R2_subadd0 _).2, (R2_subadd1 _).1, (R2_subadd1 _).2]
    exact hB.subK35 hA (by decide +kernel)
  · rw [egHF_F, R2_intmul_lo, R2_intmul_hi, R2_compress_lo, R2_compress_hi, R2_intmul_lo,
      R2_intmul_hi, param_02_lo]
    exact hD.subK35 hC (by decide +kernel)
  · refine hR.add curve_a hR2 (by ring) ?_ ?_ (by ring)
    all_goals rw [curve_d]; ring

end Verif.Ed25519
