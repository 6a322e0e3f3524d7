import Verif.Ed448.Point
import Verif.Ed448.Curve
import Verif.Fp448.RedOps

/-! # The point formulas of Ed448: helper lemmas -/

namespace Verif.Ed448

open Verif.Fp448

set_option exponentiation.threshold 2000

/-! ## Words -/

theorem negMask (x : W) : (x ^^^ -1) - -1 = -x := by
  have : (-1 : W) = BitVec.allOnes 64 := by decide
  rw [this, BitVec.xor_allOnes, BitVec.neg_eq_not_add]
  rw [show BitVec.allOnes 64 = -1#64 by decide, BitVec.sub_eq_add_neg, BitVec.neg_neg]

theorem add_negMask (p x : W) : p + ((x ^^^ -1) - -1) = p - x := by
  rw [negMask, BitVec.sub_eq_add_neg]

theorem add_posMask (p x : W) : p + ((x ^^^ 0#64) - 0#64) = p + x := by simp

theorem w_sub_add (a b k : W) : a - b + k = a + (k - b) := by
  apply BitVec.eq_of_toInt_eq; simp [BitVec.toInt_add, BitVec.toInt_sub]; congr 1; ring

theorem w_add_zero (a k : W) : a + k = a + (k - 0#64) := by simp

theorem w_sub_sub_add (a b c k : W) : a - b - c + k = a + (k - (b + c)) := by
  apply BitVec.eq_of_toInt_eq; simp [BitVec.toInt_add, BitVec.toInt_sub]; congr 1; ring

theorem w_mix0 (a k b : W) : a + k + ((b ^^^ -1) - -1) = a + (k - b) := by
  rw [BitVec.add_assoc, add_negMask]
theorem w_mix1 (a b : W) : a + 0#64 + ((b ^^^ 0#64) - 0#64) = a + b := by simp
theorem w_mix2 (a k b : W) : a + k + ((b ^^^ 0#64) - 0#64) = b + (a + (k - 0#64)) := by
  simp [BitVec.add_comm]

/-! ## Subtraction with 2^34 p and 2^35 p -/

/-- 2^35 p in limbs. -/
def twoTo35P {α : Type} [Lane α] : Elt16 α :=
  ⟨LIT 0x7ffffff800000000, LIT 0x7ffffff800000000, LIT 0x7ffffff800000000, LIT 0x7ffffff800000000,
    LIT 0x7ffffff800000000, LIT 0x7ffffff800000000, LIT 0x7ffffff800000000, LIT 0x7ffffff800000000,
    LIT 0x7ffffff000000000, LIT 0x7ffffff800000000, LIT 0x7ffffff800000000, LIT 0x7ffffff800000000,
    LIT 0x7ffffff800000000, LIT 0x7ffffff800000000, LIT 0x7ffffff800000000, LIT 0x7ffffff800000000⟩

/-- a + (2^35 p - b). -/
def subK35 {α : Type} [Lane α] (a b : Elt16 α) : Elt16 α := a.zip ADD (twoTo35P.zip SUB b)

/-- a + (2^34 p - b). -/
def subK34 {α : Type} [Lane α] (a b : Elt16 α) : Elt16 α := a.zip ADD (R4.twoTo34P.zip SUB b)

theorem subK35_int (a b : Elt16 ℤ) : (subK35 a b).val = a.val + 2 ^ 35 * p448 - b.val := by
  simp only [subK35, twoTo35P, Elt16.zip, Lane.ADD, Lane.SUB, Lane.LIT, Elt16.val, p448]
  push_cast; ring

section
variable {m m₁ m₂ m' : Elt16 ℕ} {a b : Elt16 W} {x y : Fp}

theorem _root_.Verif.Fp448.Rp.subK35 (ha : Rp m₁ a x) (hb : Rp m₂ b y)
    (k : okLe (subK35 (ivs m₁) (ivs m₂)) m' = true) : Rp m' (Ed448.subK35 a b) (x - y) := by
  obtain ⟨h1, h2⟩ := run2 (f := fun a b => Ed448.subK35 a b) (fun _ _ => rfl)
    (fun _ _ => rfl) (fun _ _ => rfl) (m' := m') k ha.1 hb.1
  refine ⟨h1, ?_⟩
  unfold Elt16.toFp
  rw [h2, subK35_int, Int.cast_sub, Int.cast_add, p_mul_cast, add_zero, ← ha.2, ← hb.2]; rfl

theorem _root_.Verif.Fp448.Rp.subK34 (ha : Rp m₁ a x) (hb : Rp m₂ b y)
    (k : okLe (subK34 (ivs m₁) (ivs m₂)) m' = true) : Rp m' (Ed448.subK34 a b) (x - y) :=
  ha.r4sublar hb k

end

/-- The element 0. -/
def zero16 : Elt16 W := ⟨0#64, 0#64, 0#64, 0#64, 0#64, 0#64, 0#64, 0#64, 0#64, 0#64, 0#64, 0#64,
  0#64, 0#64, 0#64, 0#64⟩

/-- The bounds of 0. -/
def zeroB : Elt16 ℕ := bnd 0 0

theorem zero16_rp : Rp zeroB zero16 0 := ⟨by decide, by simp [Elt16.toFp, Elt16.ints, Elt16.map,
  zero16, Elt16.val]⟩

/-! ## Bounds of products -/

/-- A product of two elements within `tight`. -/
def prodT : Elt16 ℕ := bnd (39 * 2 ^ 56) (39 * 2 ^ 56)

/-- A product of a sum or a difference with an element within `tight`. -/
def prodL : Elt16 ℕ := bnd (119 * 2 ^ 56) (119 * 2 ^ 56)

theorem oT2 : okMul2 tight tight prodT = true := by decide +kernel
theorem oS2 : okSqr2 tight prodT = true := by decide +kernel
theorem oL2 : okMul2 diff2 tight prodL = true := by decide +kernel

/-- The bounds of the operand of a mixed addition. -/
def preB : Elt16 ℕ := bnd (2 ^ 28 + 2 ^ 10) (2 ^ 28 + 2 ^ 10)

theorem tight_preB : leB tight preB = true := by decide +kernel

theorem oT4 : okMul4 tight tight prodT = true := by decide +kernel
theorem oP4 : okMul4 tight preB prodT = true := by decide +kernel
theorem oL4 : okMul4 diff2 preB prodL = true := by decide +kernel
theorem prodT_wide : leB prodT wide = true := by decide +kernel
theorem prodL_wide : leB prodL wide = true := by decide +kernel

/-! ## One point over two halves -/

/-- The coordinates (X|Y), (T|Z) represent the image of the point `A`. -/
def Is2w (Q : P2w) (A : Pt) : Prop :=
  ∃ x y z t, Rp tight Q.XY.lo.limbs x ∧ Rp tight Q.XY.hi.limbs y ∧ Rp tight Q.TZ.hi.limbs z ∧
    Rp tight Q.TZ.lo.limbs t ∧ Edw.RepI A x y z t

theorem permEE_lo (a : Elt8 V) : (a.map (PERM64 · 0xEE)).lo = a.hi := rfl
theorem permEE_hi (a : Elt8 V) : (a.map (PERM64 · 0xEE)).hi = a.hi := rfl
theorem perm4E_lo (a : Elt8 V) : (a.map (PERM64 · 0x4E)).lo = a.hi := rfl
theorem perm4E_hi (a : Elt8 V) : (a.map (PERM64 · 0x4E)).hi = a.lo := rfl

/-- `subadd` without permutation: (low - high, high + low); with permutation: (high - low,
low + high). -/
theorem subadd0 (a : Elt8 V) : (R2.subadd a false).lo = R2.sub a.lo a.hi ∧
    (R2.subadd a false).hi = R2.add a.hi a.lo := by
  have e : (R2.subadd a false).lo = (R2.twoP : Elt8 U).zip (fun p xy =>
      ⟨xy.1.l + p.l + ((xy.2.l ^^^ -1) - -1), xy.1.h + p.h + ((xy.2.h ^^^ -1) - -1)⟩)
      (a.lo.zip Prod.mk a.hi) := rfl
  have e' : (R2.subadd a false).hi = a.hi.zip (fun x y =>
      ⟨x.l + 0#64 + ((y.l ^^^ 0#64) - 0#64), x.h + 0#64 + ((y.h ^^^ 0#64) - 0#64)⟩) a.lo := rfl
  have k : R2.sub a.lo a.hi = (R2.twoP : Elt8 U).zip (fun p xy =>
      ⟨xy.1.l + (p.l - xy.2.l), xy.1.h + (p.h - xy.2.h)⟩) (a.lo.zip Prod.mk a.hi) := rfl
  have k' : R2.add a.hi a.lo = a.hi.zip (fun x y => ⟨x.l + y.l, x.h + y.h⟩) a.lo := rfl
  rw [e, e', k, k']
  simp only [w_mix0, w_mix1]
  exact ⟨trivial, trivial⟩

theorem subadd1 (a : Elt8 V) : (R2.subadd a true).lo = R2.sub a.hi a.lo ∧
    (R2.subadd a true).hi = R2.add a.lo a.hi := by
  have e : (R2.subadd a true).lo = (R2.twoP : Elt8 U).zip (fun p xy =>
      ⟨xy.1.l + p.l + ((xy.2.l ^^^ -1) - -1), xy.1.h + p.h + ((xy.2.h ^^^ -1) - -1)⟩)
      (a.hi.zip Prod.mk a.lo) := rfl
  have e' : (R2.subadd a true).hi = a.lo.zip (fun x y =>
      ⟨x.l + 0#64 + ((y.l ^^^ 0#64) - 0#64), x.h + 0#64 + ((y.h ^^^ 0#64) - 0#64)⟩) a.hi := rfl
  have k : R2.sub a.hi a.lo = (R2.twoP : Elt8 U).zip (fun p xy =>
      ⟨xy.1.l + (p.l - xy.2.l), xy.1.h + (p.h - xy.2.h)⟩) (a.hi.zip Prod.mk a.lo) := rfl
  have k' : R2.add a.lo a.hi = a.lo.zip (fun x y => ⟨x.l + y.l, x.h + y.h⟩) a.hi := rfl
  rw [e, e', k, k']
  simp only [w_mix0, w_mix1]
  exact ⟨trivial, trivial⟩

section dbl
variable (XY TZ : Elt8 V)

theorem dbl_EG_lo : ((XY.zip (fun xy tz => BLEND32 (dbl2w_BG xy) tz 0x0F) TZ).zip ADD
    CONST_2_to_35P).lo.limbs = subK35 TZ.lo.limbs zero16 := by
  ext1 <;> exact w_add_zero _ _

theorem dbl_EG_hi : ((XY.zip (fun xy tz => BLEND32 (dbl2w_BG xy) tz 0x0F) TZ).zip ADD
    CONST_2_to_35P).hi.limbs = subK35 XY.hi.limbs XY.lo.limbs := by
  ext1 <;> exact w_sub_add _ _ _

theorem dbl_HF_lo : ((XY.zip (fun xy tz => SUB (dbl2w_BG xy) (BLEND32 xy tz 0xF0)) TZ).zip ADD
    CONST_2_to_35P).lo.limbs = subK35 zero16 (R2.add XY.hi XY.lo).limbs := by
  ext1 <;> exact w_sub_sub_add _ _ _ _

theorem dbl_HF_hi : ((XY.zip (fun xy tz => SUB (dbl2w_BG xy) (BLEND32 xy tz 0xF0)) TZ).zip ADD
    CONST_2_to_35P).hi.limbs = subK35 XY.hi.limbs (R2.add XY.lo TZ.hi).limbs := by
  ext1 <;> exact w_sub_sub_add _ _ _ _

end dbl

/-- The end of the formulas over two halves. -/
theorem finish2w_spec {HF EG : Elt8 V} {e f g h : Fp} {A : Pt} (he : Rp wide EG.lo.limbs e)
    (hg : Rp wide EG.hi.limbs g) (hh : Rp wide HF.lo.limbs h) (hf : Rp wide HF.hi.limbs f)
    (hR : Edw.RepI A (e * f) (g * h) (f * g) (e * h)) :
    Is2w (finish2w (R2.compress EG) (R2.compress HF)) A := by
  have he := he.r2compress okC
  have hg := hg.r2compress okC
  have hh := hh.r2compress okC
  have hf := hf.r2compress okC
  simp only [finish2w, R2_compress2_eq]
  refine ⟨f * e, h * g, f * g, h * e, ?_, ?_, ?_, ?_, ?_⟩
  · rw [R2_compress_lo, R2_intmul_lo, perm4E_lo, R2_compress_hi, R2_compress_lo]
    exact (hf.r2intmul he okT).r2compress okC
  · rw [R2_compress_hi, R2_intmul_hi, perm4E_hi, R2_compress_hi, R2_compress_lo]
    exact (hh.r2intmul hg okT).r2compress okC
  · rw [R2_compress_hi, R2_intmul_hi, R2_compress_hi, R2_compress_hi]
    exact (hf.r2intmul hg okT).r2compress okC
  · rw [R2_compress_lo, R2_intmul_lo, R2_compress_lo, R2_compress_lo]
    exact (hh.r2intmul he okT).r2compress okC
  · rwa [mul_comm f e, mul_comm h g, mul_comm h e]

/-- Twice, and three times, `prodT`. -/
def prodT2 : Elt16 ℕ := bnd (78 * 2 ^ 56) (78 * 2 ^ 56)
def prodT3 : Elt16 ℕ := bnd (117 * 2 ^ 56) (117 * 2 ^ 56)

theorem oadd2 : okLe (R2.add (ivs prodT).pack (ivs prodT).pack).limbs prodT2 = true := by
  decide +kernel
theorem oadd3 : okLe (R2.add (ivs prodT).pack (ivs prodT2).pack).limbs prodT3 = true := by
  decide +kernel

theorem doubling_2w_spec {Q : P2w} {A : Pt} (hQ : Is2w Q A) : Is2w (doubling_2w Q) (A + A) := by
  obtain ⟨x, y, z, t, hx, hy, hz, ht, hR⟩ := hQ
  have hA := hx.r2intsqr oS2
  have hB := hy.r2intsqr oS2
  have hE := ht.r2intmul hz oT2
  have hC := hz.r2intmul hz oT2
  have hE := hE.r2add hE oadd2
  have hC := hC.r2add hC oadd2
  simp only [doubling_2w, R2_compress2_eq]
  refine finish2w_spec (e := t * z + t * z - 0) (f := y * y - (x * x + (z * z + z * z)))
    (g := y * y - x * x) (h := 0 - (y * y + x * x)) ?_ ?_ ?_ ?_ ?_
  · rw [dbl_EG_lo, R2_add_lo, R2_intmul_lo, permEE_lo]
    exact hE.subK35 zero16_rp (by decide +kernel)
  · rw [dbl_EG_hi, R2_intsqr_hi, R2_intsqr_lo]
    exact hB.subK35 hA (by decide +kernel)
  · rw [dbl_HF_lo, R2_intsqr_hi, R2_intsqr_lo]
    exact zero16_rp.subK35 (hB.r2add hA oadd2) (by decide +kernel)
  · rw [dbl_HF_hi, R2_intsqr_hi, R2_intsqr_lo, R2_add_hi, R2_intmul_hi, permEE_hi]
    exact hB.subK35 (hA.r2add hC oadd3) (by decide +kernel)
  · refine hR.dbl iso ?_ ?_ ?_ ?_
    · linear_combination 2 * hR.tz
    all_goals ring

section egHF
variable (AB CD : Elt8 V)
theorem egHF_E : (egHF AB CD).1.lo = R2.add AB.hi AB.lo := rfl
theorem egHF_G : (egHF AB CD).1.hi = R2.add CD.hi CD.lo := rfl
theorem egHF_H : (egHF AB CD).2.lo.limbs = subK35 AB.hi.limbs AB.lo.limbs := by
  ext1 <;> exact w_sub_add _ _ _
theorem egHF_F : (egHF AB CD).2.hi.limbs = subK35 CD.hi.limbs CD.lo.limbs := by
  ext1 <;> exact w_sub_add _ _ _
end egHF

/-- The vectors (Y-X|Y+X), (2dT|2Z) are the precomputed form of the image of `A`. -/
def IsPre2w (P : Pre2w) (A : Pt) : Prop :=
  ∃ a s t z, Rp tight P.subaddYX.hi.limbs a ∧ Rp tight P.subaddYX.lo.limbs s ∧
    Rp tight P.dT_2Z.lo.limbs t ∧ Rp tight P.dT_2Z.hi.limbs z ∧ Edw.PreI A a s t z

theorem mixadd_2w_spec {Q : P2w} {P : Pre2w} {A B : Pt} (hQ : Is2w Q A) (hP : IsPre2w P B) :
    Is2w (mixadd_2w Q P) (A + B) := by
  obtain ⟨x, y, z, t, hx, hy, hz, ht, hR⟩ := hQ
  obtain ⟨a, s, t2, z2, ha, hs, ht2, hz2, hR2⟩ := hP
  have hA := (hx.sub hy).r2intmul hs oL2
  have hB := ((hy.add hx).sumdiff).r2intmul ha oL2
  have hC := ht.r2intmul ht2 oT2
  have hD := hz.r2intmul hz2 oT2
  simp only [mixadd_2w, R2_compress2_eq]
  refine finish2w_spec (e := (y + x) * a + (x - y) * s) (f := z * z2 - t * t2)
    (g := z * z2 + t * t2) (h := (y + x) * a - (x - y) * s) ?_ ?_ ?_ ?_ ?_
  · rw [egHF_E, R2_intmul_lo, R2_intmul_hi, (subadd0 _).1, (subadd0 _).2]
    exact hB.r2add hA (by decide +kernel)
  · rw [egHF_G, R2_intmul_lo, R2_intmul_hi]
    exact hD.r2add hC (by decide +kernel)
  · rw [egHF_H, R2_intmul_lo, R2_intmul_hi, (subadd0 _).1, (subadd0 _).2]
    exact hB.subK35 hA (by decide +kernel)
  · rw [egHF_F, R2_intmul_lo, R2_intmul_hi]
    exact hD.subK35 hC (by decide +kernel)
  · exact hR.mixadd iso hR2 (by ring) rfl rfl (by ring)

theorem rp_of_nat {m : Elt16 ℕ} {e : Elt16 W} {n : ℕ} (h : e.Le m) (hv : e.ints.val % P = n % P) :
    Rp m e (n : Fp) := by
  refine ⟨h, ?_⟩
  rw [Elt16.toFp]
  have h2 : ((e.ints.val : ℤ) : Fp) = (((n : ℕ) : ℤ) : Fp) :=
    (ZMod.intCast_eq_intCast_iff _ _ P).2 hv
  rw [h2, Int.cast_natCast]

theorem param_02_lo : Rp tight param_curve_2d_02.lo.limbs (2 * (curve.d - 1)) := by
  have := rp_of_nat (m := tight) (e := param_curve_2d_02.lo.limbs) (n := 2 * dI)
    (by decide +kernel) (by decide +kernel)
  rwa [Nat.cast_mul, dI_cast] at this

theorem param_02_hi : Rp tight param_curve_2d_02.hi.limbs 2 := by
  have := rp_of_nat (m := tight) (e := param_curve_2d_02.hi.limbs) (n := 2)
    (by decide +kernel) (by decide +kernel)
  simpa using this

/-- The bounds of a compressed sum or difference. -/
def fastB : Elt16 ℕ := bnd (2 ^ 28 + 2 ^ 4) (2 ^ 28 + 2 ^ 4)

theorem ofast : okLe (R2.compressfast (ivs diff2).pack).limbs fastB = true := by decide +kernel
theorem oF2 : okMul2 fastB fastB prodT = true := by decide +kernel

theorem fulladd_2w_spec {Q P : P2w} {A B : Pt} (hQ : Is2w Q A) (hP : Is2w P B) :
    Is2w (fulladd_2w Q P) (A + B) := by
  obtain ⟨x, y, z, t, hx, hy, hz, ht, hR⟩ := hQ
  obtain ⟨x2, y2, z2, t2, hx2, hy2, hz2, ht2, hR2⟩ := hP
  have hA := ((hx.sub hy).r2compressfast ofast).r2intmul ((hy2.sub hx2).r2compressfast ofast) oF2
  have hB := ((hy.add hx).sumdiff.r2compressfast ofast).r2intmul
    ((hx2.add hy2).sumdiff.r2compressfast ofast) oF2
  have hC := ((ht.r2intmul ht2 okT).r2compress okC).r2intmul param_02_lo oT2
  have hD := ((hz.r2intmul hz2 okT).r2compress okC).r2intmul param_02_hi oT2
  simp only [fulladd_2w, R2_compress2_eq]
  refine finish2w_spec (e := (y + x) * (x2 + y2) + (x - y) * (y2 - x2))
    (f := z * z2 * 2 - t * t2 * (2 * (curve.d - 1)))
    (g := z * z2 * 2 + t * t2 * (2 * (curve.d - 1)))
    (h := (y + x) * (x2 + y2) - (x - y) * (y2 - x2)) ?_ ?_ ?_ ?_ ?_
  · rw [egHF_E, R2_intmul_lo, R2_intmul_hi, R2_compressfast_lo, R2_compressfast_hi,
      R2_compressfast_lo, R2_compressfast_hi,
      (subadd0 _).1, (subadd0 _).2, (subadd1 _).1, (subadd1 _).2]
    exact hB.r2add hA (by decide +kernel)
  · rw [egHF_G, R2_intmul_lo, R2_intmul_hi, R2_compress_lo, R2_compress_hi, R2_intmul_lo,
      R2_intmul_hi]
    exact hD.r2add hC (by decide +kernel)
  · rw [egHF_H, R2_intmul_lo, R2_intmul_hi, R2_compressfast_lo, R2_compressfast_hi,
      R2_compressfast_lo, R2_compressfast_hi,
      (subadd0 _).1, (subadd0 _).2, (subadd1 _).1, (subadd1 _).2]
    exact hB.subK35 hA (by decide +kernel)
  · rw [egHF_F, R2_intmul_lo, R2_intmul_hi, R2_compress_lo, R2_compress_hi, R2_intmul_lo,
      R2_intmul_hi]
    exact hD.subK35 hC (by decide +kernel)
  · refine hR.add iso hR2 (by ring) ?_ ?_ (by ring)
    all_goals ring

/-! ## The isogeny to Ed448 -/

theorem blend0F_lo (X Y : Elt8 V) : (X.zip (BLEND32 · · 0x0F) Y).lo = Y.lo := rfl

section iso
variable (XY EC : Elt8 V)

theorem iso_F : (((XY.zip iso2w_H EC).zip (BLEND32 · · 0x0F)
    ((XY.zip iso2w_FG EC).zip ADD CONST_2_to_35P))).lo.limbs =
    subK35 XY.hi.limbs (R2.add EC.hi XY.lo).limbs := by
  ext1 <;> exact w_sub_add _ _ _

theorem iso_H : (((XY.zip iso2w_H EC).zip (BLEND32 · · 0x0F)
    ((XY.zip iso2w_FG EC).zip ADD CONST_2_to_35P))).hi = R2.add XY.hi XY.lo := rfl

theorem iso_E : (((XY.zip iso2w_FG EC).zip ADD CONST_2_to_35P).zip (BLEND32 · · 0x0F) EC).lo =
    EC.lo := blend0F_lo _ _

theorem iso_G : (((XY.zip iso2w_FG EC).zip ADD CONST_2_to_35P).zip
    (BLEND32 · · 0x0F) EC).hi.limbs = subK35 XY.lo.limbs XY.hi.limbs := by
  ext1 <;> exact w_sub_add _ _ _

end iso

/-- The vectors (X|Y), (T|Z) give the affine coordinates X/Z and Y/Z of the point `A` of Ed448. -/
def IsProj2w (Q : P2w) (A : Pt) : Prop :=
  ∃ x y z, Rp tight Q.XY.lo.limbs x ∧ Rp tight Q.XY.hi.limbs y ∧ Rp tight Q.TZ.hi.limbs z ∧
    z ≠ 0 ∧ x = A.x * z ∧ y = A.y * z

theorem isogeny_2w_spec {Q : P2w} {A : Pt} (hQ : Is2w Q A) :
    IsProj2w (isogeny_2w Q) (4 • A) := by
  obtain ⟨x, y, z, t, hx, hy, hz, ht, hR⟩ := hQ
  have hA := hx.r2intsqr oS2
  have hB := hy.r2intsqr oS2
  have hE := ht.r2intmul hz oT2
  have hC := hz.r2intmul hz oT2
  have hE := hE.r2add hE oadd2
  have hC := hC.r2add hC oadd2
  have hF := (hB.subK35 (hC.r2add hA (m' := prodT3) (by decide +kernel)) (m' := wide)
    (by decide +kernel))
  have hH := (hB.r2add hA oadd2).mono (m' := wide) (by decide +kernel)
  have hG := (hA.subK35 hB (m' := wide) (by decide +kernel))
  have hE := hE.mono (m' := wide) (by decide +kernel)
  have kF : ∀ {e : Elt8 U} {v : Fp}, Rp wide e.limbs v → Rp tight (R2.compress e).limbs v :=
    fun h => h.r2compress okC
  obtain ⟨d1, d2, d3, d4⟩ := hR.dual iso
  refine ⟨(y * y - (z * z + z * z + x * x)) * (t * z + t * z),
    (y * y + x * x) * (x * x - y * y),
    (y * y - (z * z + z * z + x * x)) * (y * y + x * x), ?_, ?_, ?_, ?_, ?_, ?_⟩
  · simp only [isogeny_2w, R2_compress2_eq]
    rw [R2_compress_lo, R2_intmul_lo, R2_compress_lo, R2_compress_lo]
    refine (Rp.r2intmul (kF ?_) (kF ?_) okT).r2compress okC
    · rw [iso_F, R2_intsqr_lo, R2_intsqr_hi, R2_add_hi, R2_intmul_hi, permEE_hi]
      exact hF
    · rw [iso_E, R2_add_lo, R2_intmul_lo, permEE_lo]
      exact hE
  · simp only [isogeny_2w, R2_compress2_eq]
    rw [R2_compress_hi, R2_intmul_hi, R2_compress_hi, R2_compress_hi]
    refine (Rp.r2intmul (kF ?_) (kF ?_) okT).r2compress okC
    · rw [iso_H, R2_intsqr_lo, R2_intsqr_hi]
      exact hH
    · rw [iso_G, R2_intsqr_lo, R2_intsqr_hi]
      exact hG
  · simp only [isogeny_2w, R2_compress2_eq]
    rw [R2_compress_hi, R2_intmul_hi, perm4E_hi, R2_compress_hi, R2_compress_lo]
    refine (Rp.r2intmul (kF ?_) (kF ?_) okT).r2compress okC
    · rw [iso_F, R2_intsqr_lo, R2_intsqr_hi, R2_add_hi, R2_intmul_hi, permEE_hi]
      exact hF
    · rw [iso_H, R2_intsqr_lo, R2_intsqr_hi]
      exact hH
  · refine mul_ne_zero ?_ ?_
    · intro h; apply d2; linear_combination -h
    · intro h; apply d1; linear_combination h
  · linear_combination (-(y * y - (z * z + z * z + x * x))) * d3 +
      2 * (y * y - (z * z + z * z + x * x)) * hR.tz
  · linear_combination (y * y + x * x) * d4

end Verif.Ed448
