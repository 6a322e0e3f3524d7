import Verif.X25519.Avx2
import Verif.X25519.X64Lemmas
import Verif.Fp25519.RedApiLemmas

/-! Proofs about the vector X25519 implementation. -/

namespace Verif.X25519.Avx2

open Verif.Fp25519

set_option exponentiation.threshold 2000

/-! ## The conditional swap -/

theorem dword_append (x : W) :
    (BitVec.setWidth 32 (x >>> (32 * (1 % 2))) ++ BitVec.setWidth 32 (x >>> (32 * (0 % 2))) :
      BitVec 64) = x := by
  apply BitVec.eq_of_toNat_eq
  rw [BitVec.toNat_append, BitVec.toNat_setWidth, BitVec.toNat_setWidth, BitVec.toNat_ushiftRight,
    BitVec.toNat_ushiftRight]
  have := x.isLt
  simp only [Nat.shiftRight_eq_div_pow, Nat.reduceMod, Nat.reduceMul, pow_zero, Nat.div_one]
  rw [← Nat.shiftLeft_add_eq_or_of_lt (Nat.mod_lt _ (by norm_num)), Nat.shiftLeft_eq]
  omega

theorem PERMV128_id (x : V) : PERMV128 x (SET32 7 6 5 4 3 2 1 0) = x := by
  have e : PERMV128 x (SET32 7 6 5 4 3 2 1 0) = ofDwords x.dword := rfl
  rw [e]
  obtain ⟨a, b, c, d⟩ := x
  exact Vec4.ext (dword_append a) (dword_append b) (dword_append c) (dword_append d)

theorem PERMV128_swap (x : V) :
    PERMV128 x (SET32 3 2 1 0 7 6 5 4) = PERM64 x 0x4E := by
  have e : PERMV128 x (SET32 3 2 1 0 7 6 5 4) = ofDwords (PERM64 x 0x4E).dword := rfl
  rw [e]
  obtain ⟨a, b, c, d⟩ := x
  exact Vec4.ext (dword_append c) (dword_append d) (dword_append a) (dword_append b)

theorem masks_eq (a b : Bool) : masks (bitW a ^^^ bitW b) =
    if xor a b then (SET32 3 2 1 0 7 6 5 4, SET32 7 6 5 4 3 2 1 0)
    else (SET32 7 6 5 4 3 2 1 0, SET32 3 2 1 0 7 6 5 4) := by
  cases a <;> cases b <;> decide

theorem map_id5 (x : Elt5 V) : x.map (fun v => v) = x := rfl

/-- The element 1. -/
def one5 : Elt5 U := ⟨⟨1#64, 0#64⟩, ⟨0#64, 0#64⟩, ⟨0#64, 0#64⟩, ⟨0#64, 0#64⟩, ⟨0#64, 0#64⟩⟩

/-- One step on the four elements in the halves of the registers. -/
def stepU (sw : Bool) (x1 x2 z2 x3 z3 : Elt5 U) : (Elt5 U × Elt5 U) × (Elt5 U × Elt5 U) :=
  let A := R2.add x2 z2
  let B := R2.sub x2 z2
  let C := R2.add x3 z3
  let D := R2.sub x3 z3
  let DA := R2.mul A D
  let CB := R2.mul C B
  let A' := if sw then C else A
  let B' := if sw then D else B
  let AA := R2.sqr A'
  let BB := R2.sqr B'
  let T0 := R2.sqr (R2.sub DA CB)
  let T1 := R2.sqr (R2.add DA CB)
  let E := R2.sub AA BB
  let F := (E.map (MUL · (LIT 121665))).zip ADD AA
  ((R2.mul AA BB, R2.mul one5 T1),
    (R2.mul E (R2.compressfast F), R2.mul T0 (R2.compressfast x1)))

theorem join_eq (e : Elt5 V) (x y : Elt5 U) (hx : e.lo = x) (hy : e.hi = y) :
    e = ⟨Vec4.join x.c0 y.c0, Vec4.join x.c1 y.c1, Vec4.join x.c2 y.c2, Vec4.join x.c3 y.c3,
      Vec4.join x.c4 y.c4⟩ := by
  subst hx hy; rfl

theorem or_one (x : V) : OR (BLEND32 x (LIT 0) 0xF0) (SET64 0 1 0 0) = ⟨x.q0, x.q1, 1#64, 0#64⟩ := by
  have e : OR (BLEND32 x (LIT 0) 0xF0) (SET64 0 1 0 0) =
    ⟨x.q0 ||| 0, x.q1 ||| 0, 0#64 ||| 1, 0#64 ||| 0⟩ := rfl
  rw [e]; simp

/-- `step` with its conditional permutations and the insertion of 1 as parameters. -/
def stepM (f0 f1 g : V → V) (X1 : Elt5 V) (s : St) (bit : W) : St :=
  let a24 : V := LIT 121665
  let prev := bit
  let (X2X3, Z2Z3) := R2.addsub s.X2X3 s.Z2Z3
  let Z2Z3 := Z2Z3.map (PERM64 · 0x4E)
  let t0 := R2.intmul X2X3 Z2Z3
  let t0 := R2.compress t0
  let t1 := t0.map (PERM64 · 0x4E)
  let X2X3 := X2X3.map f0
  let Z2Z3 := Z2Z3.map f1
  let (t1, t0) := R2.addsub t1 t0
  let t0 := X2X3.zip (BLEND32 · · 0xF0) t0
  let t1 := Z2Z3.zip (BLEND32 · · 0xF0) t1
  let t0 := R2.intsqr t0
  let t1 := R2.intsqr t1
  let (t0, t1) := R2.compress2 t0 t1
  let t2 := { t0.map (BLEND32 · (LIT 0) 0xF0) with c0 := g t0.c0 }
  let X2X3 := R2.intmul t2 t1
  let X2X3 := R2.compress X2X3
  let t2 := t0.zip ADD (CONST_2P_2P.zip SUB t1)
  let t1 := (t2.map (MUL · a24)).zip ADD t0
  let t2 := t2.zip (BLEND32 · · 0xF0) t0
  let t1 := t1.zip (BLEND32 · · 0xF0) X1
  let t1 := R2.compressfast t1
  let Z2Z3 := R2.intmul t2 t1
  let Z2Z3 := R2.compress Z2Z3
  ⟨X2X3, Z2Z3, prev⟩

theorem mulLit_lo (a : Elt5 V) (n : ℕ) : (a.map (MUL · (LIT n))).lo = a.lo.map (MUL · (LIT n)) := rfl
theorem addV_lo (a b : Elt5 V) : (a.zip ADD b).lo = a.lo.zip ADD b.lo := rfl
theorem subC_eq (a b : Elt5 V) : a.zip ADD (CONST_2P_2P.zip SUB b) = R2.sub a b := rfl

theorem ins_lo (t : Elt5 V) : ({ t.map (BLEND32 · (LIT 0) 0xF0) with
    c0 := ⟨t.c0.q0, t.c0.q1, 1#64, 0#64⟩ } : Elt5 V).lo = t.lo := rfl
theorem ins_hi (t : Elt5 V) : ({ t.map (BLEND32 · (LIT 0) 0xF0) with
    c0 := ⟨t.c0.q0, t.c0.q1, 1#64, 0#64⟩ } : Elt5 V).hi = one5 := rfl

theorem stepM_eq (f0 f1 : V → V) (X1 : Elt5 V) (s : St) (bit : W) :
    let A := R2.add s.X2X3 s.Z2Z3
    let B := (R2.sub s.X2X3 s.Z2Z3).map (PERM64 · 0x4E)
    let t0 := R2.compress (R2.intmul A B)
    let t1 := t0.map (PERM64 · 0x4E)
    let u0 := R2.compress (R2.intsqr ((A.map f0).zip (BLEND32 · · 0xF0) (R2.sub t1 t0)))
    let u1 := R2.compress (R2.intsqr ((B.map f1).zip (BLEND32 · · 0xF0) (R2.add t1 t0)))
    let E := R2.sub u0 u1
    let F := ((E.map (MUL · (LIT 121665))).zip ADD u0).zip (BLEND32 · · 0xF0) X1
    stepM f0 f1 (fun x => ⟨x.q0, x.q1, 1#64, 0#64⟩) X1 s bit =
      ⟨R2.compress (R2.intmul { u0.map (BLEND32 · (LIT 0) 0xF0) with
          c0 := ⟨u0.c0.q0, u0.c0.q1, 1#64, 0#64⟩ } u1),
        R2.compress (R2.intmul (E.zip (BLEND32 · · 0xF0) u0) (R2.compressfast F)), bit⟩ := by
  intro A B t0 t1 u0 u1 E F
  simp only [stepM, R2_addsub_eq, R2_compress2_eq, subC_eq]
  rfl

theorem step_stepM (X1 : Elt5 V) (s : St) (bit : W) : step X1 s bit =
    stepM (PERMV128 · (masks (bit ^^^ s.prev)).1) (PERMV128 · (masks (bit ^^^ s.prev)).2)
      (fun x => OR (BLEND32 x (LIT 0) 0xF0) (SET64 0 1 0 0)) X1 s bit := rfl


set_option linter.unusedSimpArgs false in
theorem stepM_false_X2X3_lo (X1 : Elt5 V) (s : St) (bit : W) :
    (stepM (fun v => v) (PERM64 · 0x4E) (fun x => ⟨x.q0, x.q1, 1#64, 0#64⟩) X1 s bit).X2X3.lo =
      (stepU false X1.hi s.X2X3.lo s.Z2Z3.lo s.X2X3.hi s.Z2Z3.hi).1.1 := by
  rw [stepM_eq]
  simp only [R2_compress_lo, R2_compress_hi, R2_intmul_lo, R2_intmul_hi, R2_intsqr_lo, R2_intsqr_hi,
    blendF0_lo, blendF0_hi, perm4E_lo, perm4E_hi, R2_add_lo, R2_add_hi, R2_sub_lo, R2_sub_hi,
    ins_lo, ins_hi, mulLit_lo, addV_lo, R2_compressfast_lo, R2_compressfast_hi, stepU, R2.mul,
    R2.sqr, map_id5, Bool.false_eq_true, if_false, if_true]

set_option linter.unusedSimpArgs false in
theorem stepM_false_X2X3_hi (X1 : Elt5 V) (s : St) (bit : W) :
    (stepM (fun v => v) (PERM64 · 0x4E) (fun x => ⟨x.q0, x.q1, 1#64, 0#64⟩) X1 s bit).X2X3.hi =
      (stepU false X1.hi s.X2X3.lo s.Z2Z3.lo s.X2X3.hi s.Z2Z3.hi).1.2 := by
  rw [stepM_eq]
  simp only [R2_compress_lo, R2_compress_hi, R2_intmul_lo, R2_intmul_hi, R2_intsqr_lo, R2_intsqr_hi,
    blendF0_lo, blendF0_hi, perm4E_lo, perm4E_hi, R2_add_lo, R2_add_hi, R2_sub_lo, R2_sub_hi,
    ins_lo, ins_hi, mulLit_lo, addV_lo, R2_compressfast_lo, R2_compressfast_hi, stepU, R2.mul,
    R2.sqr, map_id5, Bool.false_eq_true, if_false, if_true]

set_option linter.unusedSimpArgs false in
theorem stepM_false_Z2Z3_lo (X1 : Elt5 V) (s : St) (bit : W) :
    (stepM (fun v => v) (PERM64 · 0x4E) (fun x => ⟨x.q0, x.q1, 1#64, 0#64⟩) X1 s bit).Z2Z3.lo =
      (stepU false X1.hi s.X2X3.lo s.Z2Z3.lo s.X2X3.hi s.Z2Z3.hi).2.1 := by
  rw [stepM_eq]
  simp only [R2_compress_lo, R2_compress_hi, R2_intmul_lo, R2_intmul_hi, R2_intsqr_lo, R2_intsqr_hi,
    blendF0_lo, blendF0_hi, perm4E_lo, perm4E_hi, R2_add_lo, R2_add_hi, R2_sub_lo, R2_sub_hi,
    ins_lo, ins_hi, mulLit_lo, addV_lo, R2_compressfast_lo, R2_compressfast_hi, stepU, R2.mul,
    R2.sqr, map_id5, Bool.false_eq_true, if_false, if_true]

set_option linter.unusedSimpArgs false in
theorem stepM_false_Z2Z3_hi (X1 : Elt5 V) (s : St) (bit : W) :
    (stepM (fun v => v) (PERM64 · 0x4E) (fun x => ⟨x.q0, x.q1, 1#64, 0#64⟩) X1 s bit).Z2Z3.hi =
      (stepU false X1.hi s.X2X3.lo s.Z2Z3.lo s.X2X3.hi s.Z2Z3.hi).2.2 := by
  rw [stepM_eq]
  simp only [R2_compress_lo, R2_compress_hi, R2_intmul_lo, R2_intmul_hi, R2_intsqr_lo, R2_intsqr_hi,
    blendF0_lo, blendF0_hi, perm4E_lo, perm4E_hi, R2_add_lo, R2_add_hi, R2_sub_lo, R2_sub_hi,
    ins_lo, ins_hi, mulLit_lo, addV_lo, R2_compressfast_lo, R2_compressfast_hi, stepU, R2.mul,
    R2.sqr, map_id5, Bool.false_eq_true, if_false, if_true]

set_option linter.unusedSimpArgs false in
theorem stepM_true_X2X3_lo (X1 : Elt5 V) (s : St) (bit : W) :
    (stepM (PERM64 · 0x4E) (fun v => v) (fun x => ⟨x.q0, x.q1, 1#64, 0#64⟩) X1 s bit).X2X3.lo =
      (stepU true X1.hi s.X2X3.lo s.Z2Z3.lo s.X2X3.hi s.Z2Z3.hi).1.1 := by
  rw [stepM_eq]
  simp only [R2_compress_lo, R2_compress_hi, R2_intmul_lo, R2_intmul_hi, R2_intsqr_lo, R2_intsqr_hi,
    blendF0_lo, blendF0_hi, perm4E_lo, perm4E_hi, R2_add_lo, R2_add_hi, R2_sub_lo, R2_sub_hi,
    ins_lo, ins_hi, mulLit_lo, addV_lo, R2_compressfast_lo, R2_compressfast_hi, stepU, R2.mul,
    R2.sqr, map_id5, Bool.false_eq_true, if_false, if_true]

set_option linter.unusedSimpArgs false in
theorem stepM_true_X2X3_hi (X1 : Elt5 V) (s : St) (bit : W) :
    (stepM (PERM64 · 0x4E) (fun v => v) (fun x => ⟨x.q0, x.q1, 1#64, 0#64⟩) X1 s bit).X2X3.hi =
      (stepU true X1.hi s.X2X3.lo s.Z2Z3.lo s.X2X3.hi s.Z2Z3.hi).1.2 := by
  rw [stepM_eq]
  simp only [R2_compress_lo, R2_compress_hi, R2_intmul_lo, R2_intmul_hi, R2_intsqr_lo, R2_intsqr_hi,
    blendF0_lo, blendF0_hi, perm4E_lo, perm4E_hi, R2_add_lo, R2_add_hi, R2_sub_lo, R2_sub_hi,
    ins_lo, ins_hi, mulLit_lo, addV_lo, R2_compressfast_lo, R2_compressfast_hi, stepU, R2.mul,
    R2.sqr, map_id5, Bool.false_eq_true, if_false, if_true]

set_option linter.unusedSimpArgs false in
theorem stepM_true_Z2Z3_lo (X1 : Elt5 V) (s : St) (bit : W) :
    (stepM (PERM64 · 0x4E) (fun v => v) (fun x => ⟨x.q0, x.q1, 1#64, 0#64⟩) X1 s bit).Z2Z3.lo =
      (stepU true X1.hi s.X2X3.lo s.Z2Z3.lo s.X2X3.hi s.Z2Z3.hi).2.1 := by
  rw [stepM_eq]
  simp only [R2_compress_lo, R2_compress_hi, R2_intmul_lo, R2_intmul_hi, R2_intsqr_lo, R2_intsqr_hi,
    blendF0_lo, blendF0_hi, perm4E_lo, perm4E_hi, R2_add_lo, R2_add_hi, R2_sub_lo, R2_sub_hi,
    ins_lo, ins_hi, mulLit_lo, addV_lo, R2_compressfast_lo, R2_compressfast_hi, stepU, R2.mul,
    R2.sqr, map_id5, Bool.false_eq_true, if_false, if_true]

set_option linter.unusedSimpArgs false in
theorem stepM_true_Z2Z3_hi (X1 : Elt5 V) (s : St) (bit : W) :
    (stepM (PERM64 · 0x4E) (fun v => v) (fun x => ⟨x.q0, x.q1, 1#64, 0#64⟩) X1 s bit).Z2Z3.hi =
      (stepU true X1.hi s.X2X3.lo s.Z2Z3.lo s.X2X3.hi s.Z2Z3.hi).2.2 := by
  rw [stepM_eq]
  simp only [R2_compress_lo, R2_compress_hi, R2_intmul_lo, R2_intmul_hi, R2_intsqr_lo, R2_intsqr_hi,
    blendF0_lo, blendF0_hi, perm4E_lo, perm4E_hi, R2_add_lo, R2_add_hi, R2_sub_lo, R2_sub_hi,
    ins_lo, ins_hi, mulLit_lo, addV_lo, R2_compressfast_lo, R2_compressfast_hi, stepU, R2.mul,
    R2.sqr, map_id5, Bool.false_eq_true, if_false, if_true]

theorem stepM_prev (f0 f1 g : V → V) (X1 : Elt5 V) (s : St) (bit : W) :
    (stepM f0 f1 g X1 s bit).prev = bit := rfl

theorem step_eq (X1 : Elt5 V) (s : St) (b p : Bool) (hp : s.prev = bitW p) :
    ((step X1 s (bitW b)).X2X3.lo =
        (stepU (xor b p) X1.hi s.X2X3.lo s.Z2Z3.lo s.X2X3.hi s.Z2Z3.hi).1.1 ∧
      (step X1 s (bitW b)).X2X3.hi =
        (stepU (xor b p) X1.hi s.X2X3.lo s.Z2Z3.lo s.X2X3.hi s.Z2Z3.hi).1.2) ∧
    ((step X1 s (bitW b)).Z2Z3.lo =
        (stepU (xor b p) X1.hi s.X2X3.lo s.Z2Z3.lo s.X2X3.hi s.Z2Z3.hi).2.1 ∧
      (step X1 s (bitW b)).Z2Z3.hi =
        (stepU (xor b p) X1.hi s.X2X3.lo s.Z2Z3.lo s.X2X3.hi s.Z2Z3.hi).2.2) ∧
    (step X1 s (bitW b)).prev = bitW b := by
  rw [step_stepM, hp, masks_eq]
  simp only [or_one]
  cases xor b p
  · simp only [Bool.false_eq_true, if_false, PERMV128_id, PERMV128_swap]
    exact ⟨⟨stepM_false_X2X3_lo _ _ _, stepM_false_X2X3_hi _ _ _⟩,
      ⟨stepM_false_Z2Z3_lo _ _ _, stepM_false_Z2Z3_hi _ _ _⟩, stepM_prev _ _ _ _ _ _⟩
  · simp only [if_true, PERMV128_id, PERMV128_swap]
    exact ⟨⟨stepM_true_X2X3_lo _ _ _, stepM_true_X2X3_hi _ _ _⟩,
      ⟨stepM_true_Z2Z3_lo _ _ _, stepM_true_Z2Z3_hi _ _ _⟩, stepM_prev _ _ _ _ _ _⟩

/-! ## Residues and bounds -/

/-- Bounds of `a24·E + AA`. -/
def fB : Elt10 ℕ := bnd (2 ^ 45) (2 ^ 44)

theorem F_int (e a : Elt10 ℤ) :
    (Elt5.zip ADD (e.pack.map (MUL · (LIT 121665))) a.pack).limbs.val =
      121665 * e.val + a.val := by
  simp only [Elt5.zip, Elt5.map, Elt10.pack, Elt5.limbs, ADD, MUL, LIT, Elt10.val]
  push_cast
  ring

theorem compressfast_run {a : Elt5 U} (ha : a.Le fB) :
    (R2.compressfast a).Le loose ∧ (R2.compressfast a).toFp = a.toFp := by
  obtain ⟨h1, h2⟩ := run1 (f := fun a => (R2.compressfast a.pack).limbs) (fun _ => rfl)
    (fun _ => rfl) (fun _ => rfl) (m' := loose) (by decide +kernel) ha
  have h3 : Cong (R2.compressfast a).limbs.ints a.limbs.ints :=
    h2 ▸ R2_compressfast_int a.limbs.ints
  exact ⟨h1, h3.toFp⟩

theorem F_spec {e a : Elt5 U} (he : e.Le loose) (ha : a.Le tight) :
    ((e.map (MUL · (LIT 121665))).zip ADD a).Le fB ∧
      ((e.map (MUL · (LIT 121665))).zip ADD a).toFp = 121665 * e.toFp + a.toFp := by
  obtain ⟨h1, h2⟩ := run2
    (f := fun e a => (Elt5.zip ADD (e.pack.map (MUL · (LIT 121665))) a.pack).limbs)
    (fun _ _ => rfl) (fun _ _ => rfl) (fun _ _ => rfl) (m' := fB) (by decide +kernel) he ha
  refine ⟨h1, ?_⟩
  unfold Elt5.toFp Elt10.toFp
  rw [show ((e.map (MUL · (LIT 121665))).zip ADD a).limbs.ints = _ from h2, F_int]
  push_cast
  rfl

/-- The implementation state `s` represents the abstract ladder state `t`. -/
structure Sim (s : St) (t : Mont.LS Fp) : Prop where
  b2 : s.X2X3.lo.Le tight
  x2 : s.X2X3.lo.toFp = t.x2
  c2 : s.Z2Z3.lo.Le tight
  z2 : s.Z2Z3.lo.toFp = t.z2
  b3 : s.X2X3.hi.Le tight
  x3 : s.X2X3.hi.toFp = t.x3
  c3 : s.Z2Z3.hi.Le tight
  z3 : s.Z2Z3.hi.toFp = t.z3
  prev : s.prev = bitW t.prev

theorem one5_spec : one5.Le tight ∧ one5.toFp = 1 := by
  refine ⟨by decide, ?_⟩
  have : one5.limbs.ints.val = 1 := by decide
  rw [Elt5.toFp, Elt10.toFp, this, Int.cast_one]

theorem step_sim {X1 : Elt5 V} (h1 : X1.hi.Le tight) {s : St} {t : Mont.LS Fp} (h : Sim s t)
    (b : Bool) : Sim (step X1 s (bitW b)) (Mont.step 121666 X1.hi.toFp t b) := by
  obtain ⟨⟨e1, e2⟩, ⟨e3, e4⟩, e5⟩ := step_eq X1 s b t.prev h.prev
  have hA := R2_add_spec h.b2 h.c2
  have hB := R2_sub_spec h.b2 h.c2
  have hC := R2_add_spec h.b3 h.c3
  have hD := R2_sub_spec h.b3 h.c3
  have hDA := R2_mul_spec hA.1 hD.1
  have hCB := R2_mul_spec hC.1 hB.1
  have hs1 := R2_sub_spec hDA.1 hCB.1
  have hs2 := R2_add_spec hDA.1 hCB.1
  have hT0 := R2_sqr_spec hs1.1
  have hT1 := R2_sqr_spec hs2.1
  have hX1 := compressfast_run (Elt10.Le.mono h1 (by decide) : X1.hi.Le fB)
  have hA' : (if xor b t.prev then R2.add s.X2X3.hi s.Z2Z3.hi else R2.add s.X2X3.lo s.Z2Z3.lo).Le
      loose ∧ (if xor b t.prev then R2.add s.X2X3.hi s.Z2Z3.hi
        else R2.add s.X2X3.lo s.Z2Z3.lo).toFp =
      if xor b t.prev then t.x3 + t.z3 else t.x2 + t.z2 := by
    split
    · exact ⟨hC.1, by rw [hC.2, h.x3, h.z3]⟩
    · exact ⟨hA.1, by rw [hA.2, h.x2, h.z2]⟩
  have hB' : (if xor b t.prev then R2.sub s.X2X3.hi s.Z2Z3.hi else R2.sub s.X2X3.lo s.Z2Z3.lo).Le
      loose ∧ (if xor b t.prev then R2.sub s.X2X3.hi s.Z2Z3.hi
        else R2.sub s.X2X3.lo s.Z2Z3.lo).toFp =
      if xor b t.prev then t.x3 - t.z3 else t.x2 - t.z2 := by
    split
    · exact ⟨hD.1, by rw [hD.2, h.x3, h.z3]⟩
    · exact ⟨hB.1, by rw [hB.2, h.x2, h.z2]⟩
  have hAA := R2_sqr_spec hA'.1
  have hBB := R2_sqr_spec hB'.1
  have hE := R2_sub_spec hAA.1 hBB.1
  have hF := F_spec hE.1 hAA.1
  have hcF := compressfast_run hF.1
  have m1 := R2_mul_spec hAA.1.loose hBB.1.loose
  have m2 := R2_mul_spec one5_spec.1.loose hT1.1.loose
  have m3 := R2_mul_spec hE.1 hcF.1
  have m4 := R2_mul_spec hT0.1.loose hX1.1
  refine ⟨e1 ▸ m1.1, ?_, e3 ▸ m3.1, ?_, e2 ▸ m2.1, ?_, e4 ▸ m4.1, ?_, e5⟩
  · rw [e1]
    refine m1.2.trans ?_
    rw [hAA.2, hBB.2, hA'.2, hB'.2]
    simp only [Mont.step]
    ring
  · rw [e3]
    refine m3.2.trans ?_
    rw [hcF.2, hF.2, hE.2, hAA.2, hBB.2, hA'.2, hB'.2]
    simp only [Mont.step]
    ring
  · rw [e2]
    refine m2.2.trans ?_
    rw [hT1.2, hs2.2, hDA.2, hCB.2, hA.2, hB.2, hC.2, hD.2, h.x2, h.z2, h.x3, h.z3, one5_spec.2]
    simp only [Mont.step]
    ring
  · rw [e4]
    refine m4.2.trans ?_
    rw [hX1.2, hT0.2, hs1.2, hDA.2, hCB.2, hA.2, hB.2, hC.2, hD.2, h.x2, h.z2, h.x3, h.z3]
    simp only [Mont.step]
    ring

theorem inner_sim {X1 : Elt5 V} (h1 : X1.hi.Le tight) (key : F4) {i : ℕ} (hi : i < 4) {m : ℕ}
    (hm : m ≤ 64) {s : St} {t : Mont.LS Fp} (h : Sim s t) :
    Sim (inner X1 key i m s)
      ((bitsOf (nval key) (64 * i) m).foldl (Mont.step 121666 X1.hi.toFp) t) := by
  induction m generalizing s t with
  | zero => exact h
  | succ m ih =>
    rw [bitsOf_succ, List.foldl_cons, inner, keyBit_eq key hi (by omega)]
    exact ih (by omega) (step_sim h1 h _)

theorem mainLoop_sim {X1 : Elt5 V} (h1 : X1.hi.Le tight) (key : F4) {s : St} {t : Mont.LS Fp}
    (h : Sim s t) : Sim (mainLoop X1 key s)
      ((loopBits (nval key)).foldl (Mont.step 121666 X1.hi.toFp) t) := by
  unfold mainLoop loopBits
  rw [List.foldl_append, List.foldl_append, List.foldl_append]
  exact inner_sim h1 key (by omega) (by omega) (inner_sim h1 key (by omega) (by omega)
    (inner_sim h1 key (by omega) (by omega) (inner_sim h1 key (by omega) (by omega) h)))

theorem ser_word {e : Elt5 U} (h : e.Le tight) : (F4.ofBytes (R1.ser e)).toFp = e.toFp := by
  have hv : canon e.toFp < 2 ^ 255 - 19 := ZMod.val_lt _
  rw [ser_of_noCarry (noCarry_of_tight h), ofBytes_toFp (leBytes_length _ _), leNat_leBytes,
    Nat.mod_eq_of_lt (by omega), canon, ZMod.natCast_zmod_val]

theorem shared_spec (isa : Isa) {u k : List Byte} (hu : u.length = 32) (hk : k.length = 32) :
    IsX25519 k u (shared isa u k) := by
  obtain ⟨hl, hv⟩ := clamp_val hk
  obtain ⟨hl', hv'⟩ := mask_val hu
  set X1 := R1.unser (maskTop u) with hX1
  set key := F4.ofBytes (clamp k) with hkey
  have hx1 : X1.toFp = coord u := by rw [hX1, unser_toFp _ hl', hv', coord]
  have ht : X1.Le tight := canonB_tight (unser_spec _ hl').1
  have hN : nval key = scalar k := by
    have := nval_val key
    rw [hkey, F4.ofBytes_val hl, hv] at this
    exact_mod_cast this
  have hz : R1.zero.Le tight ∧ R1.zero.toFp = 0 := by
    refine ⟨by decide, ?_⟩
    have : R1.zero.limbs.ints.val = 0 := by decide
    rw [Elt5.toFp, Elt10.toFp, this, Int.cast_zero]
  have hs : Sim ⟨R2.inter X1 X1, ⟨SET64 0 1 0 0, LIT 0, LIT 0, LIT 0, LIT 0⟩, 0#64⟩
      (Mont.initC X1.toFp X1.toFp) :=
    ⟨ht, rfl, hz.1, hz.2, ht, rfl, one5_spec.1, one5_spec.2, rfl⟩
  have hm := mainLoop_sim (X1 := R2.inter X1 X1) ht key hs
  rw [R2_inter_hi] at hm
  obtain ⟨l, hlast⟩ := loopBits_last (N := nval key) (by rw [hN, scalar]; omega)
  have hval := loopBits_val (nval key)
  have hlt : nval key % 2 ^ 255 = scalar k := by
    rw [hN, Nat.mod_eq_of_lt]; unfold scalar; omega
  rw [hlt] at hval
  rw [hlast] at hm hval
  have hX := Mont.ladder_xmulC curve_two curve_A curve_a24 X1.toFp X1.toFp (fun h => h) l
  rw [hval, hx1] at hX
  refine ⟨_, hX, ?_⟩
  unfold shared
  simp only
  rw [← hX1, ← hkey, ser_encode, Full.mul_toFp, Full.inv_toFp, R2_deinter, R2_deinter,
    ser_word hm.b2, ser_word hm.c2, hm.x2, hm.z2, hx1]

end Verif.X25519.Avx2
