import Verif.X448.Avx2
import Verif.X448.Spec
import Verif.X25519.Avx2Lemmas
import Verif.Fp448.RedSer
import Verif.Fp448.RedOps

/-! Proofs about the X448 implementation. -/

namespace Verif.X448

open Verif.Fp448
open Verif.X25519 (bitW shift_and_one testBit_low testBit_high bitsOf bitsOf_succ bitsVal_bitsOf
  bitsOf_last)
open Verif.X25519.Avx2 (PERMV128_id PERMV128_swap or_one)

set_option exponentiation.threshold 2000

/-! ## Clamping -/

theorem byte_and_252 (b : Byte) : (b &&& ~~~0x3#8).toNat = 4 * (b.toNat / 4) := by
  revert b; decide +kernel

theorem byte_or_128 (b : Byte) : (b ||| 0x80#8).toNat = 128 + b.toNat % 128 := by
  revert b; decide +kernel

theorem split56 {l : List Byte} (h : l.length = 56) :
    ∃ a m c, m.length = 54 ∧ l = a :: (m ++ [c]) := by
  match l with
  | a :: t =>
    have ht : t.length = 55 := by simpa using h
    have hne : t ≠ [] := by rintro rfl; simp at ht
    refine ⟨a, t.dropLast, t.getLast hne, ?_, ?_⟩
    · rw [List.length_dropLast, ht]
    · rw [List.dropLast_append_getLast hne]

theorem modify_last (f : Byte → Byte) (a c : Byte) {m : List Byte} (h : m.length = 54) :
    (a :: (m ++ [c])).modify 55 f = a :: (m ++ [f c]) := by
  rw [List.modify_succ_cons, ← h]
  congr 1
  clear h
  induction m with
  | nil => rfl
  | cons x m ih => rw [List.cons_append, List.length_cons, List.modify_succ_cons, ih, List.cons_append]

theorem leNat_split (a c : Byte) {m : List Byte} (h : m.length = 54) :
    leNat (a :: (m ++ [c])) = a.toNat + 256 * leNat m + 256 ^ 55 * c.toNat := by
  have : a :: (m ++ [c]) = [a] ++ m ++ [c] := by simp
  rw [this, leNat_append, leNat_append]
  simp [leNat, h]

theorem clamp_val {k : List Byte} (h : k.length = 56) :
    (clamp k).length = 56 ∧ leNat (clamp k) = scalar k := by
  obtain ⟨a, m, c, hm, rfl⟩ := split56 h
  unfold clamp scalar
  rw [List.modify_zero_cons, modify_last _ _ _ hm, leNat_split _ _ hm, leNat_split _ _ hm,
    byte_and_252, byte_or_128]
  refine ⟨by simp [hm], ?_⟩
  have h1 := leNat_lt m
  rw [hm] at h1
  have ha := a.isLt
  have hc := c.isLt
  generalize a.toNat = a, c.toNat = c, leNat m = m at *
  clear h hm
  omega

/-! ## Scalar bits -/

/-- Natural number value of seven words. -/
def nval (a : F7) : ℕ :=
  a.w0.toNat + 2 ^ 64 * (a.w1.toNat + 2 ^ 64 * (a.w2.toNat + 2 ^ 64 * (a.w3.toNat +
    2 ^ 64 * (a.w4.toNat + 2 ^ 64 * (a.w5.toNat + 2 ^ 64 * a.w6.toNat)))))

theorem nval_val (a : F7) : (nval a : ℤ) = a.val := by
  simp only [nval, F7.val, iv]; push_cast; ring

theorem keyBit_eq (key : F7) {i j : ℕ} (hi : i < 7) (hj : j < 64) :
    keyBit key i j = bitW ((nval key).testBit (64 * i + j)) := by
  have h0 := key.w0.isLt
  have h1 := key.w1.isLt
  have h2 := key.w2.isLt
  have h3 := key.w3.isLt
  have h4 := key.w4.isLt
  have h5 := key.w5.isLt
  unfold keyBit nval
  rw [shift_and_one]
  congr 1
  match i, hi with
  | 0, _ => rw [show 64 * 0 + j = j by omega, testBit_low h0 hj]; rfl
  | 1, _ =>
    rw [show 64 * 1 + j = 64 + j by omega, testBit_high h0, testBit_low h1 hj]; rfl
  | 2, _ =>
    rw [show 64 * 2 + j = 64 + (64 + j) by omega, testBit_high h0, testBit_high h1, testBit_low h2 hj]; rfl
  | 3, _ =>
    rw [show 64 * 3 + j = 64 + (64 + (64 + j)) by omega, testBit_high h0, testBit_high h1, testBit_high h2, testBit_low h3 hj]; rfl
  | 4, _ =>
    rw [show 64 * 4 + j = 64 + (64 + (64 + (64 + j))) by omega, testBit_high h0, testBit_high h1, testBit_high h2, testBit_high h3, testBit_low h4 hj]; rfl
  | 5, _ =>
    rw [show 64 * 5 + j = 64 + (64 + (64 + (64 + (64 + j)))) by omega, testBit_high h0, testBit_high h1, testBit_high h2, testBit_high h3, testBit_high h4, testBit_low h5 hj]; rfl
  | 6, _ =>
    rw [show 64 * 6 + j = 64 + (64 + (64 + (64 + (64 + (64 + j))))) by omega, testBit_high h0, testBit_high h1, testBit_high h2, testBit_high h3, testBit_high h4, testBit_high h5]; rfl

/-! ## The conditional swap -/

theorem masks_eq (a b : Bool) : masks (bitW a ^^^ bitW b) =
    if xor a b then (SET32 3 2 1 0 7 6 5 4, SET32 7 6 5 4 3 2 1 0)
    else (SET32 7 6 5 4 3 2 1 0, SET32 3 2 1 0 7 6 5 4) := by
  cases a <;> cases b <;> decide

theorem blendF0_lo (a b : Elt8 V) : (a.zip (BLEND32 · · 0xF0) b).lo = a.lo := rfl
theorem blendF0_hi (a b : Elt8 V) : (a.zip (BLEND32 · · 0xF0) b).hi = b.hi := rfl
theorem perm4E_lo (a : Elt8 V) : (a.map (PERM64 · 0x4E)).lo = a.hi := rfl
theorem perm4E_hi (a : Elt8 V) : (a.map (PERM64 · 0x4E)).hi = a.lo := rfl
theorem map_id8 (x : Elt8 V) : x.map (fun v => v) = x := rfl

/-- The element 1. -/
def one8 : Elt8 U :=
  ⟨⟨1#64, 0#64⟩, ⟨0#64, 0#64⟩, ⟨0#64, 0#64⟩, ⟨0#64, 0#64⟩, ⟨0#64, 0#64⟩, ⟨0#64, 0#64⟩,
    ⟨0#64, 0#64⟩, ⟨0#64, 0#64⟩⟩

/-- One step on the four elements in the halves of the registers. -/
def stepU (sw : Bool) (x1 x2 z2 x3 z3 : Elt8 U) : (Elt8 U × Elt8 U) × (Elt8 U × Elt8 U) :=
  let A := R2.add x2 z2
  let B := R2.sub x2 z2
  let C := R2.add x3 z3
  let D := R2.sub x3 z3
  let DA := R2.mul A D
  let CB := R2.mul C B
  let A' := if sw then C else A
  let B' := if sw then D else B
  let AA := R2.sqr (R2.compressfast A')
  let BB := R2.sqr (R2.compressfast B')
  let T0 := R2.sqr (R2.compressfast (R2.sub DA CB))
  let T1 := R2.sqr (R2.compressfast (R2.add DA CB))
  let E := R2.sub AA BB
  let F := (E.map (MUL · (LIT 39081))).zip ADD AA
  ((R2.mul AA BB, R2.mul one8 T1),
    (R2.mul E (R2.compressfast F), R2.mul T0 (R2.compressfast x1)))

/-- `step` with its conditional permutations and the insertion of 1 as parameters. -/
def stepM (f0 f1 g : V → V) (X1 : Elt8 V) (s : St) (bit : W) : St :=
  let a24 : V := LIT 39081
  let prev := bit
  let (X2X3, Z2Z3) := R2.addsub s.X2X3 s.Z2Z3
  let Z2Z3 := Z2Z3.map (PERM64 · 0x4E)
  let t0 := R2.intmul X2X3 Z2Z3
  let t0 := R2.compress t0
  let t1 := t0.map (PERM64 · 0x4E)
  let X2X3 := X2X3.map f0
  let Z2Z3 := Z2Z3.map f1
  let (t1, t0) := R2.addsub t1 t0
  let t0 := X2X3.zip (BLEND32 · · 0xF0) t0
  let t1 := Z2Z3.zip (BLEND32 · · 0xF0) t1
  let t0 := R2.compressfast t0
  let t1 := R2.compressfast t1
  let t0 := R2.intsqr t0
  let t1 := R2.intsqr t1
  let (t0, t1) := R2.compress2 t0 t1
  let t2 := { t0.map (BLEND32 · (LIT 0) 0xF0) with c0 := g t0.c0 }
  let X2X3 := R2.intmul t2 t1
  let X2X3 := R2.compress X2X3
  let t2 := t0.zip ADD (R2.twoP.zip SUB t1)
  let t1 := (t2.map (MUL · a24)).zip ADD t0
  let t2 := t2.zip (BLEND32 · · 0xF0) t0
  let t1 := t1.zip (BLEND32 · · 0xF0) X1
  let t1 := R2.compressfast t1
  let Z2Z3 := R2.intmul t2 t1
  let Z2Z3 := R2.compress Z2Z3
  ⟨X2X3, Z2Z3, prev⟩

theorem mulLit_lo (a : Elt8 V) (n : ℕ) : (a.map (MUL · (LIT n))).lo = a.lo.map (MUL · (LIT n)) := rfl
theorem addV_lo (a b : Elt8 V) : (a.zip ADD b).lo = a.lo.zip ADD b.lo := rfl
theorem subC_eq (a b : Elt8 V) : a.zip ADD (R2.twoP.zip SUB b) = R2.sub a b := rfl

theorem ins_lo (t : Elt8 V) : ({ t.map (BLEND32 · (LIT 0) 0xF0) with
    c0 := ⟨t.c0.q0, t.c0.q1, 1#64, 0#64⟩ } : Elt8 V).lo = t.lo := rfl
theorem ins_hi (t : Elt8 V) : ({ t.map (BLEND32 · (LIT 0) 0xF0) with
    c0 := ⟨t.c0.q0, t.c0.q1, 1#64, 0#64⟩ } : Elt8 V).hi = one8 := rfl

theorem stepM_eq (f0 f1 : V → V) (X1 : Elt8 V) (s : St) (bit : W) :
    let A := R2.add s.X2X3 s.Z2Z3
    let B := (R2.sub s.X2X3 s.Z2Z3).map (PERM64 · 0x4E)
    let t0 := R2.compress (R2.intmul A B)
    let t1 := t0.map (PERM64 · 0x4E)
    let u0 := R2.compress (R2.intsqr (R2.compressfast
      ((A.map f0).zip (BLEND32 · · 0xF0) (R2.sub t1 t0))))
    let u1 := R2.compress (R2.intsqr (R2.compressfast
      ((B.map f1).zip (BLEND32 · · 0xF0) (R2.add t1 t0))))
    let E := R2.sub u0 u1
    let F := ((E.map (MUL · (LIT 39081))).zip ADD u0).zip (BLEND32 · · 0xF0) X1
    stepM f0 f1 (fun x => ⟨x.q0, x.q1, 1#64, 0#64⟩) X1 s bit =
      ⟨R2.compress (R2.intmul { u0.map (BLEND32 · (LIT 0) 0xF0) with
          c0 := ⟨u0.c0.q0, u0.c0.q1, 1#64, 0#64⟩ } u1),
        R2.compress (R2.intmul (E.zip (BLEND32 · · 0xF0) u0) (R2.compressfast F)), bit⟩ := by
  intro A B t0 t1 u0 u1 E F
  simp only [stepM, R2_addsub_eq, R2_compress2_eq, subC_eq]
  rfl

theorem step_stepM (X1 : Elt8 V) (s : St) (bit : W) : step X1 s bit =
    stepM (PERMV128 · (masks (bit ^^^ s.prev)).1) (PERMV128 · (masks (bit ^^^ s.prev)).2)
      (fun x => OR (BLEND32 x (LIT 0) 0xF0) (SET64 0 1 0 0)) X1 s bit := rfl

set_option linter.unusedSimpArgs false in
theorem stepM_false_X2X3_lo (X1 : Elt8 V) (s : St) (bit : W) :
    (stepM (fun v => v) (PERM64 · 0x4E) (fun x => ⟨x.q0, x.q1, 1#64, 0#64⟩) X1 s bit).X2X3.lo =
      (stepU false X1.hi s.X2X3.lo s.Z2Z3.lo s.X2X3.hi s.Z2Z3.hi).1.1 := by
  rw [stepM_eq]
  simp only [R2_compress_lo, R2_compress_hi, R2_intmul_lo, R2_intmul_hi, R2_intsqr_lo, R2_intsqr_hi,
    blendF0_lo, blendF0_hi, perm4E_lo, perm4E_hi, R2_add_lo, R2_add_hi, R2_sub_lo, R2_sub_hi,
    ins_lo, ins_hi, mulLit_lo, addV_lo, R2_compressfast_lo, R2_compressfast_hi, stepU, R2.mul,
    R2.sqr, map_id8, Bool.false_eq_true, if_false, if_true]

set_option linter.unusedSimpArgs false in
theorem stepM_false_X2X3_hi (X1 : Elt8 V) (s : St) (bit : W) :
    (stepM (fun v => v) (PERM64 · 0x4E) (fun x => ⟨x.q0, x.q1, 1#64, 0#64⟩) X1 s bit).X2X3.hi =
      (stepU false X1.hi s.X2X3.lo s.Z2Z3.lo s.X2X3.hi s.Z2Z3.hi).1.2 := by
  rw [stepM_eq]
  simp only [R2_compress_lo, R2_compress_hi, R2_intmul_lo, R2_intmul_hi, R2_intsqr_lo, R2_intsqr_hi,
    blendF0_lo, blendF0_hi, perm4E_lo, perm4E_hi, R2_add_lo, R2_add_hi, R2_sub_lo, R2_sub_hi,
    ins_lo, ins_hi, mulLit_lo, addV_lo, R2_compressfast_lo, R2_compressfast_hi, stepU, R2.mul,
    R2.sqr, map_id8, Bool.false_eq_true, if_false, if_true]

set_option linter.unusedSimpArgs false in
theorem stepM_false_Z2Z3_lo (X1 : Elt8 V) (s : St) (bit : W) :
    (stepM (fun v => v) (PERM64 · 0x4E) (fun x => ⟨x.q0, x.q1, 1#64, 0#64⟩) X1 s bit).Z2Z3.lo =
      (stepU false X1.hi s.X2X3.lo s.Z2Z3.lo s.X2X3.hi s.Z2Z3.hi).2.1 := by
  rw [stepM_eq]
  simp only [R2_compress_lo, R2_compress_hi, R2_intmul_lo, R2_intmul_hi, R2_intsqr_lo, R2_intsqr_hi,
    blendF0_lo, blendF0_hi, perm4E_lo, perm4E_hi, R2_add_lo, R2_add_hi, R2_sub_lo, R2_sub_hi,
    ins_lo, ins_hi, mulLit_lo, addV_lo, R2_compressfast_lo, R2_compressfast_hi, stepU, R2.mul,
    R2.sqr, map_id8, Bool.false_eq_true, if_false, if_true]

set_option linter.unusedSimpArgs false in
theorem stepM_false_Z2Z3_hi (X1 : Elt8 V) (s : St) (bit : W) :
    (stepM (fun v => v) (PERM64 · 0x4E) (fun x => ⟨x.q0, x.q1, 1#64, 0#64⟩) X1 s bit).Z2Z3.hi =
      (stepU false X1.hi s.X2X3.lo s.Z2Z3.lo s.X2X3.hi s.Z2Z3.hi).2.2 := by
  rw [stepM_eq]
  simp only [R2_compress_lo, R2_compress_hi, R2_intmul_lo, R2_intmul_hi, R2_intsqr_lo, R2_intsqr_hi,
    blendF0_lo, blendF0_hi, perm4E_lo, perm4E_hi, R2_add_lo, R2_add_hi, R2_sub_lo, R2_sub_hi,
    ins_lo, ins_hi, mulLit_lo, addV_lo, R2_compressfast_lo, R2_compressfast_hi, stepU, R2.mul,
    R2.sqr, map_id8, Bool.false_eq_true, if_false, if_true]

set_option linter.unusedSimpArgs false in
theorem stepM_true_X2X3_lo (X1 : Elt8 V) (s : St) (bit : W) :
    (stepM (PERM64 · 0x4E) (fun v => v) (fun x => ⟨x.q0, x.q1, 1#64, 0#64⟩) X1 s bit).X2X3.lo =
      (stepU true X1.hi s.X2X3.lo s.Z2Z3.lo s.X2X3.hi s.Z2Z3.hi).1.1 := by
  rw [stepM_eq]
  simp only [R2_compress_lo, R2_compress_hi, R2_intmul_lo, R2_intmul_hi, R2_intsqr_lo, R2_intsqr_hi,
    blendF0_lo, blendF0_hi, perm4E_lo, perm4E_hi, R2_add_lo, R2_add_hi, R2_sub_lo, R2_sub_hi,
    ins_lo, ins_hi, mulLit_lo, addV_lo, R2_compressfast_lo, R2_compressfast_hi, stepU, R2.mul,
    R2.sqr, map_id8, Bool.false_eq_true, if_false, if_true]

set_option linter.unusedSimpArgs false in
theorem stepM_true_X2X3_hi (X1 : Elt8 V) (s : St) (bit : W) :
    (stepM (PERM64 · 0x4E) (fun v => v) (fun x => ⟨x.q0, x.q1, 1#64, 0#64⟩) X1 s bit).X2X3.hi =
      (stepU true X1.hi s.X2X3.lo s.Z2Z3.lo s.X2X3.hi s.Z2Z3.hi).1.2 := by
  rw [stepM_eq]
  simp only [R2_compress_lo, R2_compress_hi, R2_intmul_lo, R2_intmul_hi, R2_intsqr_lo, R2_intsqr_hi,
    blendF0_lo, blendF0_hi, perm4E_lo, perm4E_hi, R2_add_lo, R2_add_hi, R2_sub_lo, R2_sub_hi,
    ins_lo, ins_hi, mulLit_lo, addV_lo, R2_compressfast_lo, R2_compressfast_hi, stepU, R2.mul,
    R2.sqr, map_id8, Bool.false_eq_true, if_false, if_true]

set_option linter.unusedSimpArgs false in
theorem stepM_true_Z2Z3_lo (X1 : Elt8 V) (s : St) (bit : W) :
    (stepM (PERM64 · 0x4E) (fun v => v) (fun x => ⟨x.q0, x.q1, 1#64, 0#64⟩) X1 s bit).Z2Z3.lo =
      (stepU true X1.hi s.X2X3.lo s.Z2Z3.lo s.X2X3.hi s.Z2Z3.hi).2.1 := by
  rw [stepM_eq]
  simp only [R2_compress_lo, R2_compress_hi, R2_intmul_lo, R2_intmul_hi, R2_intsqr_lo, R2_intsqr_hi,
    blendF0_lo, blendF0_hi, perm4E_lo, perm4E_hi, R2_add_lo, R2_add_hi, R2_sub_lo, R2_sub_hi,
    ins_lo, ins_hi, mulLit_lo, addV_lo, R2_compressfast_lo, R2_compressfast_hi, stepU, R2.mul,
    R2.sqr, map_id8, Bool.false_eq_true, if_false, if_true]

set_option linter.unusedSimpArgs false in
theorem stepM_true_Z2Z3_hi (X1 : Elt8 V) (s : St) (bit : W) :
    (stepM (PERM64 · 0x4E) (fun v => v) (fun x => ⟨x.q0, x.q1, 1#64, 0#64⟩) X1 s bit).Z2Z3.hi =
      (stepU true X1.hi s.X2X3.lo s.Z2Z3.lo s.X2X3.hi s.Z2Z3.hi).2.2 := by
  rw [stepM_eq]
  simp only [R2_compress_lo, R2_compress_hi, R2_intmul_lo, R2_intmul_hi, R2_intsqr_lo, R2_intsqr_hi,
    blendF0_lo, blendF0_hi, perm4E_lo, perm4E_hi, R2_add_lo, R2_add_hi, R2_sub_lo, R2_sub_hi,
    ins_lo, ins_hi, mulLit_lo, addV_lo, R2_compressfast_lo, R2_compressfast_hi, stepU, R2.mul,
    R2.sqr, map_id8, Bool.false_eq_true, if_false, if_true]

theorem stepM_prev (f0 f1 g : V → V) (X1 : Elt8 V) (s : St) (bit : W) :
    (stepM f0 f1 g X1 s bit).prev = bit := rfl

theorem step_eq (X1 : Elt8 V) (s : St) (b p : Bool) (hp : s.prev = bitW p) :
    ((step X1 s (bitW b)).X2X3.lo =
        (stepU (xor b p) X1.hi s.X2X3.lo s.Z2Z3.lo s.X2X3.hi s.Z2Z3.hi).1.1 ∧
      (step X1 s (bitW b)).X2X3.hi =
        (stepU (xor b p) X1.hi s.X2X3.lo s.Z2Z3.lo s.X2X3.hi s.Z2Z3.hi).1.2) ∧
    ((step X1 s (bitW b)).Z2Z3.lo =
        (stepU (xor b p) X1.hi s.X2X3.lo s.Z2Z3.lo s.X2X3.hi s.Z2Z3.hi).2.1 ∧
      (step X1 s (bitW b)).Z2Z3.hi =
        (stepU (xor b p) X1.hi s.X2X3.lo s.Z2Z3.lo s.X2X3.hi s.Z2Z3.hi).2.2) ∧
    (step X1 s (bitW b)).prev = bitW b := by
  rw [step_stepM, hp, masks_eq]
  simp only [or_one]
  cases xor b p
  · simp only [Bool.false_eq_true, if_false, PERMV128_id, PERMV128_swap]
    exact ⟨⟨stepM_false_X2X3_lo _ _ _, stepM_false_X2X3_hi _ _ _⟩,
      ⟨stepM_false_Z2Z3_lo _ _ _, stepM_false_Z2Z3_hi _ _ _⟩, stepM_prev _ _ _ _ _ _⟩
  · simp only [if_true, PERMV128_id, PERMV128_swap]
    exact ⟨⟨stepM_true_X2X3_lo _ _ _, stepM_true_X2X3_hi _ _ _⟩,
      ⟨stepM_true_Z2Z3_lo _ _ _, stepM_true_Z2Z3_hi _ _ _⟩, stepM_prev _ _ _ _ _ _⟩

/-! ## Residues and bounds -/

/-- Bounds of `a24·E + AA`. -/
def fB : Elt16 ℕ := bnd (2 ^ 46) (2 ^ 47)

theorem okCF : okLe (R2.compressfast (ivs fB).pack).limbs sum2 = true := by decide +kernel
theorem okED : okMul2 diff2 sum2 wide = true := by decide +kernel
theorem okTS : okMul2 tight sum2 wide = true := by decide +kernel

theorem cfast {a : Elt8 U} {x : Fp} (ha : Rp diff2 a.limbs x) :
    Rp sum2 (R2.compressfast a).limbs x := (ha.mono (m' := fB) (by decide)).r2compressfast okCF

theorem F_int (e a : Elt16 ℤ) :
    (Elt8.zip ADD (e.pack.map (MUL · (LIT 39081))) a.pack).limbs.val =
      39081 * e.val + a.val := by
  simp only [Elt8.zip, Elt8.map, Elt16.pack, Elt8.limbs, ADD, MUL, LIT, Elt16.val]
  push_cast
  ring

theorem F_spec {e a : Elt8 U} {x y : Fp} (he : Rp diff2 e.limbs x) (ha : Rp tight a.limbs y) :
    Rp fB ((e.map (MUL · (LIT 39081))).zip ADD a).limbs (39081 * x + y) := by
  obtain ⟨h1, h2⟩ := run2
    (f := fun e a => (Elt8.zip ADD (e.pack.map (MUL · (LIT 39081))) a.pack).limbs)
    (fun _ _ => rfl) (fun _ _ => rfl) (fun _ _ => rfl) (m' := fB) (by decide +kernel) he.1 ha.1
  refine ⟨h1, ?_⟩
  unfold Elt16.toFp
  rw [show ((e.map (MUL · (LIT 39081))).zip ADD a).limbs.ints = _ from h2, F_int, ← he.2, ← ha.2]
  push_cast
  rfl

/-- The implementation state `s` represents the abstract ladder state `t`. -/
structure Sim (s : St) (t : Mont.LS Fp) : Prop where
  x2 : Rp tight s.X2X3.lo.limbs t.x2
  z2 : Rp tight s.Z2Z3.lo.limbs t.z2
  x3 : Rp tight s.X2X3.hi.limbs t.x3
  z3 : Rp tight s.Z2Z3.hi.limbs t.z3
  prev : s.prev = bitW t.prev

theorem one8_spec : Rp tight one8.limbs 1 := by
  refine ⟨by decide, ?_⟩
  have : one8.limbs.ints.val = 1 := by decide
  rw [Elt16.toFp, this, Int.cast_one]

theorem zero8_spec : Rp tight R1.zero.limbs 0 := by
  refine ⟨by decide, ?_⟩
  have : R1.zero.limbs.ints.val = 0 := by decide
  rw [Elt16.toFp, this, Int.cast_zero]

theorem Rp.ite {m : Elt16 ℕ} {a b : Elt8 U} {x y : Fp} (sw : Bool) (ha : Rp m a.limbs x)
    (hb : Rp m b.limbs y) : Rp m (if sw then a else b).limbs (if sw then x else y) := by
  cases sw
  · exact hb
  · exact ha

theorem step_sim {X1 : Elt8 V} {x1 : Fp} (h1 : Rp tight X1.hi.limbs x1) {s : St} {t : Mont.LS Fp}
    (h : Sim s t) (b : Bool) : Sim (step X1 s (bitW b)) (Mont.step 39082 x1 t b) := by
  obtain ⟨⟨e1, e2⟩, ⟨e3, e4⟩, e5⟩ := step_eq X1 s b t.prev h.prev
  have hA := h.x2.add h.z2
  have hB := h.x2.sub h.z2
  have hC := h.x3.add h.z3
  have hD := h.x3.sub h.z3
  have hDA := hA.r2mulSD hD
  have hCB := hC.r2mulSD hB
  have hT0 := (cfast (hDA.sub hCB)).r2sqr
  have hT1 := (cfast (hDA.add hCB).sumdiff).r2sqr
  have hX1 := cfast h1.diff
  have hAA := (cfast (Rp.ite (xor b t.prev) hC hA).sumdiff).r2sqr
  have hBB := (cfast (Rp.ite (xor b t.prev) hD hB)).r2sqr
  have hE := hAA.sub hBB
  have hcF := (F_spec hE hAA).r2compressfast okCF
  have m1 := hAA.r2mul hBB
  have m2 := one8_spec.r2mul hT1
  have m3 := (hE.r2intmul hcF okED).r2compress okC
  have m4 := (hT0.r2intmul hX1 okTS).r2compress okC
  refine ⟨e1 ▸ Rp.cast m1 ?_, e3 ▸ Rp.cast m3 ?_, e2 ▸ Rp.cast m2 ?_, e4 ▸ Rp.cast m4 ?_, e5⟩ <;>
  · simp only [Mont.step]
    ring

theorem inner_sim {X1 : Elt8 V} {x1 : Fp} (h1 : Rp tight X1.hi.limbs x1) (key : F7) {i : ℕ}
    (hi : i < 7) {m : ℕ} (hm : m ≤ 64) {s : St} {t : Mont.LS Fp} (h : Sim s t) :
    Sim (inner X1 key i m s)
      ((bitsOf (nval key) (64 * i) m).foldl (Mont.step 39082 x1) t) := by
  induction m generalizing s t with
  | zero => exact h
  | succ m ih =>
    rw [bitsOf_succ, List.foldl_cons, inner, keyBit_eq key hi (by omega)]
    exact ih (by omega) (step_sim h1 h _)

/-- The bits the main loop consumes, in order. -/
def loopBits (N : ℕ) : List Bool :=
  bitsOf N (64 * 6) 64 ++ bitsOf N (64 * 5) 64 ++ bitsOf N (64 * 4) 64 ++ bitsOf N (64 * 3) 64 ++
    bitsOf N (64 * 2) 64 ++ bitsOf N (64 * 1) 64 ++ bitsOf N (64 * 0) 64

theorem mainLoop_sim {X1 : Elt8 V} {x1 : Fp} (h1 : Rp tight X1.hi.limbs x1) (key : F7) {s : St}
    {t : Mont.LS Fp} (h : Sim s t) : Sim (mainLoop X1 key s)
      ((loopBits (nval key)).foldl (Mont.step 39082 x1) t) := by
  unfold mainLoop loopBits
  simp only [List.foldl_append]
  have h := inner_sim h1 key (i := 6) (by omega) le_rfl h
  have h := inner_sim h1 key (i := 5) (by omega) le_rfl h
  have h := inner_sim h1 key (i := 4) (by omega) le_rfl h
  have h := inner_sim h1 key (i := 3) (by omega) le_rfl h
  have h := inner_sim h1 key (i := 2) (by omega) le_rfl h
  have h := inner_sim h1 key (i := 1) (by omega) le_rfl h
  exact inner_sim h1 key (i := 0) (by omega) le_rfl h

theorem loopBits_val (N : ℕ) : Mont.bitsVal 0 (loopBits N) = N % 2 ^ 448 := by
  unfold loopBits
  simp only [Mont.bitsVal_append, bitsVal_bitsOf]
  omega

theorem loopBits_last {N : ℕ} (h : N % 2 = 0) : ∃ l, loopBits N = l ++ [false] := by
  refine ⟨bitsOf N (64 * 6) 64 ++ bitsOf N (64 * 5) 64 ++ bitsOf N (64 * 4) 64 ++
    bitsOf N (64 * 3) 64 ++ bitsOf N (64 * 2) 64 ++ bitsOf N (64 * 1) 64 ++ bitsOf N 1 63, ?_⟩
  unfold loopBits
  rw [show 64 * 0 = 0 from rfl, bitsOf_last, show N.testBit 0 = false by simp [h]]
  simp only [List.append_assoc]

theorem curve_two : (2 : Fp) ≠ 0 := by decide +kernel
theorem curve_A : curveA ^ 2 ≠ 4 := by decide +kernel
theorem curve_a24 : 4 * (39082 : Fp) = curveA + 2 := by decide +kernel

theorem affine_spec {s : St} {t : Mont.LS Fp} (h : Sim s t) :
    Rp tight (affine s).limbs (t.x2 * t.z2⁻¹) := h.x2.sq.r1mul h.z2.sq.r1inv.sq

/-- The element that is serialised is tight and represents the X448 function. -/
theorem sharedElt_spec {u k : List Byte} (hu : u.length = 56) (hk : k.length = 56) :
    ∃ v : Fp, IsProduct k u v ∧ Rp tight (sharedElt u k).limbs v := by
  obtain ⟨hl, hv⟩ := clamp_val hk
  have hX1 : Rp tight (R1.unser u).limbs (coord u) := unser_rp u hu
  have hN : nval (F7.ofBytes (clamp k)) = scalar k := by
    have := nval_val (F7.ofBytes (clamp k))
    rw [F7.ofBytes_val hl, hv] at this
    exact_mod_cast this
  have hs : Sim ⟨R2.inter (R1.unser u) (R1.unser u),
      ⟨SET64 0 1 0 0, LIT 0, LIT 0, LIT 0, LIT 0, LIT 0, LIT 0, LIT 0⟩, 0#64⟩
      (Mont.initC (coord u) (coord u)) :=
    ⟨hX1, zero8_spec, hX1, one8_spec, rfl⟩
  have hm := mainLoop_sim (X1 := R2.inter (R1.unser u) (R1.unser u)) hX1
    (F7.ofBytes (clamp k)) hs
  rw [hN] at hm
  obtain ⟨l, hlast⟩ := loopBits_last (N := scalar k) (by rw [scalar]; omega)
  have hval := loopBits_val (scalar k)
  have hlt : scalar k % 2 ^ 448 = scalar k := by
    rw [Nat.mod_eq_of_lt]; unfold scalar; omega
  rw [hlt] at hval
  rw [hlast] at hm hval
  have hX := Mont.ladder_xmulC curve_two curve_A curve_a24 (coord u) (coord u) (fun h => h) l
  rw [hval] at hX
  exact ⟨_, hX, affine_spec hm⟩

end Verif.X448
