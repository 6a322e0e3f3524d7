import Verif.Vec.Link25519
import Verif.Vec.Link448
import Verif.Vec.AccessLemmas
import Verif.Props.Fp25519Red
import Verif.Props.Fp448Red

/-!
# Properties C73 to C75: the vector functions of the field layers on memory

The programs (`V1`, `V2`, `V4`: one-way, two-way, four-way) are the statements of the C functions
in order, run on a memory with pointers that may be equal.  `R1`, `R2`, `R4` are the functions
on values of the model, whose results are the field operations by C11 to C14, C44, C54.  The
shapes `Combines`, `Maps`, `Updates`, … of Vec/Spec.lean quantify over all memories, all contents
of the registers before the call, and all pointers that are equal or apart: the result is a
function of what the operands held before the call, and no other memory changes. -/

namespace Verif.Vec

set_option exponentiation.threshold 2000

/-! ## C73: operands in place -/

section F25519
open F25519 Fp25519

theorem fp_dvd_iff (x y : ℤ) : ((x : Fp25519.Fp) = (y : Fp25519.Fp)) ↔ p25519 ∣ y - x := by
  rw [ZMod.intCast_eq_intCast_iff_dvd_sub, P_eq]

/-- C73, GF(2^255-19), one-way. -/
theorem C73_oneway_25519 :
    Combines e1 V1.add R1.add ∧ Combines e1 V1.sub R1.sub ∧ Combines e1 V1.mul R1.mul ∧
    Combines e1 V1.intmul R1.intmul ∧ Updates e1 V1.sqr R1.sqr ∧
    (∀ n, Updates e1 (V1.sqrn n) (R1.sqrn · n)) ∧ Updates e1 V1.neg R1.neg ∧
    Updates e1 V1.compress R1.compress ∧ Updates e1 V1.compressfast R1.compressfast ∧
    Updates2 e1 V1.addsub R1.addsub ∧ Combines2 e1 (AnyAlias 3) V1.naddsub R1.naddsub ∧
    Maps e1 V1.copy id ∧ Writes e1 V1.zero R1.zero :=
  ⟨e1_add, e1_sub, e1_mul, e1_intmul, e1_sqr, e1_sqrn, e1_neg, e1_compress, e1_compressfast,
    e1_addsub, fun m ρ C D A B h => e1_naddsub m ρ C D A B
      ⟨h.1, h.2.1.or rfl, h.2.2.1.or rfl, h.2.2.2.1.or rfl, h.2.2.2.2.or rfl⟩, e1_copy, e1_zero⟩

/-- C73, GF(2^255-19), one-way conditional move: `ρ 0` holds the mask that `cmv` makes of its
argument `bit`. -/
theorem C73_cmv_25519 (bit : BitVec 32) (m : Mem) (ρ : Regs) (C A B : Place)
    (hρ : ρ 0 = ⟨-(bit.signExtend 64), -(bit.signExtend 64), -(bit.signExtend 64),
      -(bit.signExtend 64)⟩) (ha : Same 3 C A) (hb : Same 3 C B) :
    e1.at (V1.cmv.call [C, A, B] m ρ) C = R1.cmv bit (e1.at m A) (e1.at m B) ∧
      ∀ o c, ¬In C 3 o c → V1.cmv.call [C, A, B] m ρ o c = m o c := by
  have h := e1_cmv m ρ C A B ha hb
  rw [cmv1_eq bit ρ hρ] at h
  exact h

/-- C73, GF(2^255-19), two-way. -/
theorem C73_twoway_25519 :
    Combines e2 V2.add R2.add ∧ Combines e2 V2.sub R2.sub ∧ Combines e2 V2.mul R2.mul ∧
    Combines e2 V2.intmul R2.intmul ∧ Updates e2 V2.sqr R2.sqr ∧
    (∀ n, Updates e2 (V2.sqrn n) (R2.sqrn · n)) ∧ Updates e2 V2.intsqr R2.intsqr ∧
    Updates e2 V2.neg R2.neg ∧ Updates e2 V2.compress R2.compress ∧
    Updates e2 V2.compressfast R2.compressfast ∧ Updates2 e2 V2.addsub R2.addsub ∧
    Updates2 e2 V2.compress2 R2.compress2 ∧ Maps e2 V2.ngz R2.ngz ∧
    Maps e2 V2.subadd0 (R2.subadd · 0#32) ∧ Maps e2 V2.subadd1 (R2.subadd · 1#32) ∧
    CombinesR e2 V2.cmv (fun ρ => R2.cmv (ρ 0)) ∧
    Maps e2 V2.copy id ∧ Writes e2 V2.zero R2.zero :=
  ⟨e2_add, e2_sub, e2_mul, e2_intmul, e2_sqr, e2_sqrn, e2_intsqr, e2_neg, e2_compress,
    e2_compressfast, e2_addsub, e2_compress2, e2_ngz, e2_subadd0, e2_subadd1, e2_cmv, e2_copy,
    e2_zero⟩

/-- C73, GF(2^255-19), four-way. -/
theorem C73_fourway_25519 :
    Combines e4 V4.add R4.add ∧ Combines e4 V4.sub R4.sub ∧ Combines e4 V4.mul R4.mul ∧
    Combines e4 V4.intmul R4.intmul ∧ Updates e4 V4.sqr R4.sqr ∧
    (∀ n, Updates e4 (V4.sqrn n) (R4.sqrn · n)) ∧ Updates e4 V4.intsqr R4.intsqr ∧
    Updates e4 V4.neg R4.neg ∧ Updates e4 V4.compress R4.compress ∧
    Updates e4 V4.compressfast R4.compressfast ∧ Updates2 e4 V4.addsublar R4.addsublar ∧
    Updates2 e4 V4.compress2 R4.compress2 ∧
    Updates2 e4 V4.new_compressfast2 R4.new_compressfast2 ∧ Maps e4 V4.ngz R4.ngz ∧
    Maps e4 V4.copy id ∧ Writes e4 V4.zero R4.zero :=
  ⟨e4_add, e4_sub, e4_mul, e4_intmul, e4_sqr, e4_sqrn, e4_intsqr, e4_neg, e4_compress,
    e4_compressfast, e4_addsublar, e4_compress2, e4_new_compressfast2, e4_ngz, e4_copy, e4_zero⟩

/-- C73, GF(2^255-19), conversions between the layouts, for parameters that are apart. -/
theorem C73_conversions_25519 :
    Joins2 e2 e1 V2.inter R2.inter ∧ Splits2 e2 e1 V2.deinter R2.deinter ∧
    Joins4 e4 e1 V4.zip R4.zip ∧ Splits4 e4 e1 V4.unzip R4.unzip :=
  ⟨e2_inter, e2_deinter, e4_zip, e4_unzip⟩

/-- C73, GF(2^255-19): what the one-way calls leave in memory are the field operations, also in
place. -/
theorem C73_field_25519 (m : Mem) (ρ : Regs) (C A B : Place) (ha : Same 3 C A)
    (hb : Same 3 C B) :
    ((e1.at m A).Le tight → (e1.at m B).Le tight →
      (e1.at (V1.add.call [C, A, B] m ρ) C).toFp = (e1.at m A).toFp + (e1.at m B).toFp ∧
      (e1.at (V1.sub.call [C, A, B] m ρ) C).toFp = (e1.at m A).toFp - (e1.at m B).toFp) ∧
    ((e1.at m A).Le loose → (e1.at m B).Le loose →
      (e1.at (V1.mul.call [C, A, B] m ρ) C).toFp = (e1.at m A).toFp * (e1.at m B).toFp) ∧
    ((e1.at m C).Le loose →
      (e1.at (V1.sqr.call [C] m ρ) C).toFp = (e1.at m C).toFp ^ 2) := by
  have h := C11_oneway (e1.at m A) (e1.at m B)
  rw [(e1_add m ρ C A B ha hb).1, (e1_sub m ρ C A B ha hb).1, (e1_mul m ρ C A B ha hb).1,
    (e1_sqr m ρ C).1]
  exact ⟨fun x y => ⟨(h.1 x y).1.2, (h.1 x y).2.2⟩, fun x y => (h.2.1 x y).1.2,
    fun x => ((C11_oneway (e1.at m C) (e1.at m C)).2.1 x x).2.2⟩

/-- C73, two-way `naddsub`: the result C may be A and the result D may be A or B.  It is missing
that C may be B. -/
theorem C73_naddsub_2w_25519_partial : Combines2 e2
    (fun C D A B => Apart C 5 D 5 ∧ Same 5 C A ∧ Apart C 5 B 5 ∧ Same 5 D A ∧ Same 5 D B)
    V2.naddsub R2.naddsub :=
  fun m ρ C D A B h => e2_naddsub m ρ C D A B
    ⟨h.1, h.2.1.or rfl, Or.inr h.2.2.1, h.2.2.2.1.or rfl, h.2.2.2.2.or rfl⟩

/-- C73, four-way `addsub`: the result D may be A or B.  It is missing that C may be A or B. -/
theorem C73_addsub_4w_25519_partial : Combines2 e4
    (fun C D A B => Apart C 10 D 10 ∧ Apart C 10 A 10 ∧ Apart C 10 B 10 ∧ Same 10 D A ∧
      Same 10 D B) V4.addsub R4.addsub :=
  fun m ρ C D A B h => e4_addsub m ρ C D A B
    ⟨h.1, Or.inr h.2.1, Or.inr h.2.2.1, h.2.2.2.1.or rfl, h.2.2.2.2.or rfl⟩

/-- C73 is false of two-way `naddsub` with C = B, the result D being apart: D is not B - A. -/
theorem C73_naddsub_2w_25519_wrong : ∃ (m : Mem) (ρ : Regs),
    (e2.at (V2.naddsub.call [(0, 0), (1, 0), (2, 0), (0, 0)] m ρ) (1, 0)).lo.toFp ≠
      (e2.at m (0, 0)).lo.toFp - (e2.at m (2, 0)).lo.toFp := by
  refine ⟨fun _ _ => LIT 1, fun _ => LIT 0, ?_⟩
  rw [Elt5.toFp, Elt5.toFp, Elt5.toFp, Elt10.toFp, Elt10.toFp, Elt10.toFp, ← Int.cast_sub, Ne,
    fp_dvd_iff]
  decide +kernel

/-- C73 is false of four-way `addsub` of the public table, with C = A and with C = B, the result
D being apart: D is not A - B. -/
theorem C73_addsub_4w_25519_wrong :
    (∃ (m : Mem) (ρ : Regs),
      ((e4.at (V4.addsub.call [(0, 0), (1, 0), (0, 0), (2, 0)] m ρ) (1, 0)).lane 0).toFp ≠
        ((e4.at m (0, 0)).lane 0).toFp - ((e4.at m (2, 0)).lane 0).toFp) ∧
    (∃ (m : Mem) (ρ : Regs),
      ((e4.at (V4.addsub.call [(0, 0), (1, 0), (2, 0), (0, 0)] m ρ) (1, 0)).lane 0).toFp ≠
        ((e4.at m (2, 0)).lane 0).toFp - ((e4.at m (0, 0)).lane 0).toFp) := by
  constructor
  all_goals
    refine ⟨fun _ _ => LIT 1, fun _ => LIT 0, ?_⟩
    rw [Elt10.toFp, Elt10.toFp, Elt10.toFp, ← Int.cast_sub, Ne, fp_dvd_iff]
    decide +kernel

/-- A memory that differs from cell to cell. -/
def someMem : Mem := fun o c => ⟨BitVec.ofNat 64 (7 * o + c + 1), BitVec.ofNat 64 (c + 2),
  BitVec.ofNat 64 (c * c + 3), BitVec.ofNat 64 (5 * c + o)⟩

/-- A multiplication in place, as used everywhere in the point formulas. -/
example (ρ : Regs) : e1.at (V1.mul.call [(0, 0), (0, 0), (1, 0)] someMem ρ) (0, 0)
    = R1.mul (e1.at someMem (0, 0)) (e1.at someMem (1, 0)) :=
  (C73_oneway_25519.2.2.1 someMem ρ (0, 0) (0, 0) (1, 0) (Or.inl rfl)
    (Or.inr (by rintro o c ⟨h, h'⟩; exact absurd (h.1.symm.trans h'.1) (by decide)))).1

example : (e1.at someMem (0, 0)).Le loose ∧ (e1.at someMem (1, 0)).Le tight ∧
    (e1.at (V1.mul.call [(0, 0), (0, 0), (1, 0)] someMem fun _ => LIT 0) (0, 0)) ≠
      e1.at someMem (0, 0) := by
  refine ⟨by decide +kernel, by decide +kernel, fun h => ?_⟩
  have h := congrArg (fun x => x.c0.l) h
  revert h
  decide +kernel

end F25519

section F448
open F448 Fp448

/-- C73, GF(2^448-2^224-1), one-way. -/
theorem C73_oneway_448 :
    Combines g1 V1.add R1.add ∧ Combines g1 V1.sub R1.sub ∧ Combines g1 V1.mul R1.mul ∧
    Combines g1 V1.intmul R1.intmul ∧ Updates g1 V1.sqr R1.sqr ∧
    (∀ n, Updates g1 (V1.sqrn n) (R1.sqrn · n)) ∧ Updates g1 V1.neg R1.neg ∧
    Updates g1 V1.compress R1.compress ∧ Updates g1 V1.compressfast R1.compressfast ∧
    Updates g1 V1.new_compressfast R1.new_compressfast ∧
    Updates2 g1 V1.addsub R1.addsub ∧ Combines2 g1 (AnyAlias 4) V1.naddsub R1.naddsub ∧
    Maps g1 V1.copy id ∧ Writes g1 V1.zero R1.zero :=
  ⟨g1_add, g1_sub, g1_mul, g1_intmul, g1_sqr, g1_sqrn, g1_neg, g1_compress, g1_compressfast,
    g1_new_compressfast, g1_addsub, fun m ρ C D A B h => g1_naddsub m ρ C D A B
      ⟨h.1, h.2.1.or rfl, h.2.2.1.or rfl, h.2.2.2.1.or rfl, h.2.2.2.2.or rfl⟩, g1_copy, g1_zero⟩

/-- C73, GF(2^448-2^224-1), two-way. -/
theorem C73_twoway_448 :
    Combines g2 V2.add R2.add ∧ Combines g2 V2.sub R2.sub ∧ Combines g2 V2.mul R2.mul ∧
    Combines g2 V2.intmul R2.intmul ∧ Updates g2 V2.sqr R2.sqr ∧
    Updates g2 V2.intsqr R2.intsqr ∧ Updates g2 V2.compress R2.compress ∧
    Updates g2 V2.compressfast R2.compressfast ∧ Updates2 g2 V2.addsub R2.addsub ∧
    Updates2 g2 V2.compress2 R2.compress2 ∧ Maps g2 V2.ngz R2.ngz ∧
    Maps g2 V2.subadd0 (R2.subadd · false) ∧ Maps g2 V2.subadd1 (R2.subadd · true) ∧
    Maps g2 V2.copy id ∧ Writes g2 V2.zero R2.zero :=
  ⟨g2_add, g2_sub, g2_mul, g2_intmul, g2_sqr, g2_intsqr, g2_compress, g2_compressfast,
    g2_addsub, g2_compress2, g2_ngz, g2_subadd0, g2_subadd1, g2_copy, g2_zero⟩

/-- C73, GF(2^448-2^224-1), four-way. -/
theorem C73_fourway_448 :
    Combines g4 V4.add R4.add ∧ Combines g4 V4.sub R4.sub ∧ Combines g4 V4.mul R4.mul ∧
    Combines g4 V4.intmul R4.intmul ∧ Updates g4 V4.sqr R4.sqr ∧
    Updates g4 V4.intsqr R4.intsqr ∧ Updates g4 V4.compress R4.compress ∧
    Updates g4 V4.compressfast R4.compressfast ∧ Updates2 g4 V4.addsublar R4.addsublar ∧
    Updates2 g4 V4.compress2 R4.compress2 ∧
    Updates2 g4 V4.new_compressfast2 R4.new_compressfast2 ∧ Maps g4 V4.ngz R4.ngz ∧
    Maps g4 V4.copy id ∧
    Writes g4 V4.zero ⟨LIT 0, LIT 0, LIT 0, LIT 0, LIT 0, LIT 0, LIT 0, LIT 0,
      LIT 0, LIT 0, LIT 0, LIT 0, LIT 0, LIT 0, LIT 0, LIT 0⟩ :=
  ⟨g4_add, g4_sub, g4_mul, g4_intmul, g4_sqr, g4_intsqr, g4_compress, g4_compressfast,
    g4_addsublar, g4_compress2, g4_new_compressfast2, g4_ngz, g4_copy, g4_zero⟩

/-- C73, GF(2^448-2^224-1), conversions between the layouts, for parameters that are apart. -/
theorem C73_conversions_448 :
    Joins2 g2 g1 V2.inter R2.inter ∧ Splits2 g2 g1 V2.deinter R2.deinter ∧
    Joins4 g4 g1 V4.zip R4.zip ∧ Splits4 g4 g1 V4.unzip R4.unzip :=
  ⟨g2_inter, g2_deinter, g4_zip, g4_unzip⟩

/-- C73, GF(2^448-2^224-1): what the one-way calls leave in memory are the field operations, also
in place. -/
theorem C73_field_448 (m : Mem) (ρ : Regs) (C A B : Place) (ha : Same 4 C A)
    (hb : Same 4 C B) :
    ((g1.at m A).Le tight → (g1.at m B).Le tight →
      (g1.at (V1.add.call [C, A, B] m ρ) C).toFp = (g1.at m A).toFp + (g1.at m B).toFp ∧
      (g1.at (V1.sub.call [C, A, B] m ρ) C).toFp = (g1.at m A).toFp - (g1.at m B).toFp) ∧
    ((g1.at m A).Le sq1 → (g1.at m B).Le sq1 →
      (g1.at (V1.mul.call [C, A, B] m ρ) C).toFp = (g1.at m A).toFp * (g1.at m B).toFp) ∧
    ((g1.at m C).Le sq1 → ∀ n,
      (g1.at ((V1.sqrn n).call [C] m ρ) C).toFp = (g1.at m C).toFp ^ 2 ^ n) := by
  have h := C54_oneway (g1.at m A) (g1.at m B)
  rw [(g1_add m ρ C A B ha hb).1, (g1_sub m ρ C A B ha hb).1, (g1_mul m ρ C A B ha hb).1]
  refine ⟨fun x y => ⟨(h.1 x y).1.2, (h.1 x y).2.1.2⟩, fun x y => (h.2.1 x y).2, fun x n => ?_⟩
  rw [(g1_sqrn n m ρ C).1]
  exact ((C54_oneway (g1.at m C) (g1.at m C)).2.2.2.1 x n).2

/-- C73, two-way `naddsub`: the result C may be A and the result D may be A or B.  It is missing
that C may be B. -/
theorem C73_naddsub_2w_448_partial : Combines2 g2
    (fun C D A B => Apart C 8 D 8 ∧ Same 8 C A ∧ Apart C 8 B 8 ∧ Same 8 D A ∧ Same 8 D B)
    V2.naddsub R2.naddsub :=
  fun m ρ C D A B h => g2_naddsub m ρ C D A B
    ⟨h.1, h.2.1.or rfl, Or.inr h.2.2.1, h.2.2.2.1.or rfl, h.2.2.2.2.or rfl⟩

/-- C73, four-way `addsub`: the result D may be A or B.  It is missing that C may be A or B. -/
theorem C73_addsub_4w_448_partial : Combines2 g4
    (fun C D A B => Apart C 16 D 16 ∧ Apart C 16 A 16 ∧ Apart C 16 B 16 ∧ Same 16 D A ∧
      Same 16 D B) V4.addsub R4.addsub :=
  fun m ρ C D A B h => g4_addsub m ρ C D A B
    ⟨h.1, Or.inr h.2.1, Or.inr h.2.2.1, h.2.2.2.1.or rfl, h.2.2.2.2.or rfl⟩

/-- C73 is false of two-way `naddsub` with C = B, the result D being apart: D is not B - A. -/
theorem C73_naddsub_2w_448_wrong : ∃ (m : Mem) (ρ : Regs),
    (g2.at (V2.naddsub.call [(0, 0), (1, 0), (2, 0), (0, 0)] m ρ) (1, 0)).lo.toFp ≠
      (g2.at m (0, 0)).lo.toFp - (g2.at m (2, 0)).lo.toFp := by
  refine ⟨fun _ _ => LIT 1, fun _ => LIT 0, ?_⟩
  rw [Elt8.toFp, Elt8.toFp, Elt8.toFp, Elt16.toFp, Elt16.toFp, Elt16.toFp, ← Int.cast_sub, Ne,
    P_dvd_iff]
  decide +kernel

/-- C73 is false of four-way `addsub` of the public table, with C = A and with C = B, the result
D being apart: D is not A - B. -/
theorem C73_addsub_4w_448_wrong :
    (∃ (m : Mem) (ρ : Regs),
      ((g4.at (V4.addsub.call [(0, 0), (1, 0), (0, 0), (2, 0)] m ρ) (1, 0)).lane 0).toFp ≠
        ((g4.at m (0, 0)).lane 0).toFp - ((g4.at m (2, 0)).lane 0).toFp) ∧
    (∃ (m : Mem) (ρ : Regs),
      ((g4.at (V4.addsub.call [(0, 0), (1, 0), (2, 0), (0, 0)] m ρ) (1, 0)).lane 0).toFp ≠
        ((g4.at m (2, 0)).lane 0).toFp - ((g4.at m (0, 0)).lane 0).toFp) := by
  constructor
  all_goals
    refine ⟨fun _ _ => LIT 1, fun _ => LIT 0, ?_⟩
    rw [Elt16.toFp, Elt16.toFp, Elt16.toFp, ← Int.cast_sub, Ne, P_dvd_iff]
    decide +kernel

/-- A multiplication in place, both operands the same element. -/
example (ρ : Regs) : g4.at (V4.mul.call [(0, 16), (0, 16), (0, 16)] someMem ρ) (0, 16)
    = R4.mul (g4.at someMem (0, 16)) (g4.at someMem (0, 16)) :=
  (C73_fourway_448.2.2.1 someMem ρ (0, 16) (0, 16) (0, 16) (Or.inl rfl) (Or.inl rfl)).1

end F448

/-! ## C74: accesses stay inside the operands -/

/-- C74: every access of every function is inside a parameter, and every store is inside an
output.  The accesses are a list that is made from the pointers only: no content of memory can
change an address. -/
theorem C74_bounds (n : ℕ) : ∀ f ∈ allFuns n, ∀ l, ∀ a ∈ f.accesses l, f.Inside l a := by
  intro f hf l
  obtain ⟨D, hD⟩ := checked_all n f hf
  exact inside_of hD l

/-- C74: the memory outside the outputs is not changed, and what is left in the parameters does
not depend on the memory outside them, for all pointers, however they overlap. -/
theorem C74_local (n : ℕ) : ∀ f ∈ allFuns n, ∀ (l : List Place) (ρ : Regs) (m m' : Mem),
    (∀ o c, (∀ k ∈ f.outs, ¬In (args l k) (f.cells.getD k 0) o c) →
      f.call l m ρ o c = m o c) ∧
    ((∀ k < f.cells.length, ∀ o c, In (args l k) (f.cells.getD k 0) o c → m o c = m' o c) →
      ∀ k < f.cells.length, ∀ o c, In (args l k) (f.cells.getD k 0) o c →
        f.call l m ρ o c = f.call l m' ρ o c) := by
  intro f hf l ρ m m'
  obtain ⟨D, hD⟩ := checked_all n f hf
  exact local_of hD l ρ m m'

/-- The list is not empty, its functions do access memory, and a multiplication reads the last
cell of an operand. -/
example : F25519.V4.mul ∈ allFuns 0 ∧
    Access.rd 5 19 ∈ F25519.V4.mul.accesses [(3, 0), (4, 0), (5, 10)] ∧
    Access.wr 3 9 ∈ F25519.V4.mul.accesses [(3, 0), (4, 0), (5, 10)] := by
  refine ⟨by simp [allFuns, funs25519_4w], by decide +kernel, by decide +kernel⟩

/-! ## C75: alignment of the constants -/

/-- C75: wherever the constant arrays are put, as far as their declarations allow, every vector
that is read from them is at a multiple of 32 bytes, for every function but the two four-way
`ngz`, for which this is missing. -/
theorem C75_aligned_partial (n : ℕ) : ∀ f ∈ allFuns n,
    f ∉ [F25519.V4.ngz, F448.V4.ngz] → ∀ l, f.Aligned l :=
  fun f hf hg l => aligned_of (alignOk_all n f hf hg) l

/-- C75 is false of the two four-way `ngz`: their constants are in an array of 64-bit integers,
which may be put at an address that is 8 modulo 32. -/
theorem C75_ngz_wrong (l : List Place) : ¬F25519.V4.ngz.Aligned l ∧ ¬F448.V4.ngz.Aligned l := by
  have pl : ∀ f : Fn, f.aligns = [8] → f.Placed fun _ => 8 := by
    intro f hf j hj
    rw [hf] at hj ⊢
    have : j = 0 := by simpa using hj
    subst this
    decide
  have mem : ∀ (s : Stmt) (t : List Stmt), s ∈ t → ∀ a, a ∈ s.acc (args l) →
      a ∈ t.flatMap (Stmt.acc (args l)) := fun s t hs a ha => List.mem_flatMap.2 ⟨s, hs, ha⟩
  constructor
  · intro h
    have := h (fun _ => 8) (pl _ rfl) 0 0 (mem _ _ (List.mem_cons_of_mem _ List.mem_cons_self) _
      (by simp [Stmt.acc, Ex.acc]))
    revert this
    decide
  · intro h
    have := h (fun _ => 8) (pl _ rfl) 0 0 (mem _ _ (List.mem_cons_of_mem _ List.mem_cons_self) _
      (by simp [Stmt.acc, Ex.acc]))
    revert this
    decide

/-- A function with aligned constants that it does read. -/
example : F25519.V2.mul ∈ allFuns 0 ∧ F25519.V2.mul ∉ [F25519.V4.ngz, F448.V4.ngz] ∧
    Access.const 0 0 ∈ F25519.V2.mul.accesses [] := by
  refine ⟨by simp [allFuns, funs25519_2w], ?_, by decide +kernel⟩
  intro h
  simp only [List.mem_cons, List.not_mem_nil, or_false] at h
  rcases h with h | h <;> exact absurd (congrArg Fn.cells h) (by decide)

end Verif.Vec
