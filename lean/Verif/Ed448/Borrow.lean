import Verif.Ed448.PointLemmas

/-! # When the subtraction of the mixed addition cannot go below zero

The limbs of a product are linear in the limbs of one factor.  With the other factor known, as
it is for a table entry, this gives a bound on `A - B` that is sharper than the bounds on `A`. -/

namespace Verif.Ed448

open Verif.Fp448

set_option exponentiation.threshold 2000

/-- The sum of the products of the limbs. -/
def dot (u v : Elt16 ℤ) : ℤ :=
  u.r0 * v.r0 + u.r1 * v.r1 + u.r2 * v.r2 + u.r3 * v.r3 + u.r4 * v.r4 + u.r5 * v.r5 + u.r6 * v.r6
    + u.r7 * v.r7 + u.r8 * v.r8 + u.r9 * v.r9 + u.r10 * v.r10 + u.r11 * v.r11 + u.r12 * v.r12 +
    u.r13 * v.r13 + u.r14 * v.r14 + u.r15 * v.r15

/-- The largest `dot u v` for `u` with limbs from 0 to those of `t`. -/
def posDot (t v : Elt16 ℤ) : ℤ :=
  t.r0 * max 0 v.r0 + t.r1 * max 0 v.r1 + t.r2 * max 0 v.r2 + t.r3 * max 0 v.r3 + t.r4 * max 0
    v.r4 + t.r5 * max 0 v.r5 + t.r6 * max 0 v.r6 + t.r7 * max 0 v.r7 + t.r8 * max 0 v.r8 + t.r9 *
    max 0 v.r9 + t.r10 * max 0 v.r10 + t.r11 * max 0 v.r11 + t.r12 * max 0 v.r12 + t.r13 * max 0
    v.r13 + t.r14 * max 0 v.r14 + t.r15 * max 0 v.r15

/-- Limb by limb order. -/
def LeZ (a b : Elt16 ℤ) : Prop :=
  a.r0 ≤ b.r0 ∧ a.r1 ≤ b.r1 ∧ a.r2 ≤ b.r2 ∧ a.r3 ≤ b.r3 ∧ a.r4 ≤ b.r4 ∧ a.r5 ≤ b.r5 ∧ a.r6 ≤ b.r6
    ∧ a.r7 ≤ b.r7 ∧ a.r8 ≤ b.r8 ∧ a.r9 ≤ b.r9 ∧ a.r10 ≤ b.r10 ∧ a.r11 ≤ b.r11 ∧ a.r12 ≤ b.r12 ∧
    a.r13 ≤ b.r13 ∧ a.r14 ≤ b.r14 ∧ a.r15 ≤ b.r15

instance (a b : Elt16 ℤ) : Decidable (LeZ a b) := by unfold LeZ; infer_instance

/-- All limbs are zero. -/
def zeroZ : Elt16 ℤ := ⟨0, 0, 0, 0, 0, 0, 0, 0, 0, 0, 0, 0, 0, 0, 0, 0⟩

/-- The coefficients of limb 0 of a product with `v`. -/
def row0 (v : Elt16 ℤ) : Elt16 ℤ :=
  ⟨v.r0, v.r15, v.r14, v.r13, v.r12, v.r11, v.r10, v.r9, v.r8, v.r7 + v.r15, v.r6 + v.r14, v.r5 +
    v.r13, v.r4 + v.r12, v.r3 + v.r11, v.r2 + v.r10, v.r1 + v.r9⟩

/-- The coefficients of limb 1 of a product with `v`. -/
def row1 (v : Elt16 ℤ) : Elt16 ℤ :=
  ⟨v.r1, v.r0, v.r15, v.r14, v.r13, v.r12, v.r11, v.r10, v.r9, v.r8, v.r7 + v.r15, v.r6 + v.r14,
    v.r5 + v.r13, v.r4 + v.r12, v.r3 + v.r11, v.r2 + v.r10⟩

/-- The coefficients of limb 2 of a product with `v`. -/
def row2 (v : Elt16 ℤ) : Elt16 ℤ :=
  ⟨v.r2, v.r1, v.r0, v.r15, v.r14, v.r13, v.r12, v.r11, v.r10, v.r9, v.r8, v.r7 + v.r15, v.r6 +
    v.r14, v.r5 + v.r13, v.r4 + v.r12, v.r3 + v.r11⟩

/-- The coefficients of limb 3 of a product with `v`. -/
def row3 (v : Elt16 ℤ) : Elt16 ℤ :=
  ⟨v.r3, v.r2, v.r1, v.r0, v.r15, v.r14, v.r13, v.r12, v.r11, v.r10, v.r9, v.r8, v.r7 + v.r15,
    v.r6 + v.r14, v.r5 + v.r13, v.r4 + v.r12⟩

/-- The coefficients of limb 4 of a product with `v`. -/
def row4 (v : Elt16 ℤ) : Elt16 ℤ :=
  ⟨v.r4, v.r3, v.r2, v.r1, v.r0, v.r15, v.r14, v.r13, v.r12, v.r11, v.r10, v.r9, v.r8, v.r7 +
    v.r15, v.r6 + v.r14, v.r5 + v.r13⟩

/-- The coefficients of limb 5 of a product with `v`. -/
def row5 (v : Elt16 ℤ) : Elt16 ℤ :=
  ⟨v.r5, v.r4, v.r3, v.r2, v.r1, v.r0, v.r15, v.r14, v.r13, v.r12, v.r11, v.r10, v.r9, v.r8, v.r7
    + v.r15, v.r6 + v.r14⟩

/-- The coefficients of limb 6 of a product with `v`. -/
def row6 (v : Elt16 ℤ) : Elt16 ℤ :=
  ⟨v.r6, v.r5, v.r4, v.r3, v.r2, v.r1, v.r0, v.r15, v.r14, v.r13, v.r12, v.r11, v.r10, v.r9, v.r8,
    v.r7 + v.r15⟩

/-- The coefficients of limb 7 of a product with `v`. -/
def row7 (v : Elt16 ℤ) : Elt16 ℤ :=
  ⟨v.r7, v.r6, v.r5, v.r4, v.r3, v.r2, v.r1, v.r0, v.r15, v.r14, v.r13, v.r12, v.r11, v.r10, v.r9,
    v.r8⟩

/-- The coefficients of limb 8 of a product with `v`. -/
def row8 (v : Elt16 ℤ) : Elt16 ℤ :=
  ⟨v.r8, v.r7 + v.r15, v.r6 + v.r14, v.r5 + v.r13, v.r4 + v.r12, v.r3 + v.r11, v.r2 + v.r10, v.r1
    + v.r9, v.r0 + v.r8, v.r7 + v.r15 + v.r15, v.r6 + v.r14 + v.r14, v.r5 + v.r13 + v.r13, v.r4 +
    v.r12 + v.r12, v.r3 + v.r11 + v.r11, v.r2 + v.r10 + v.r10, v.r1 + v.r9 + v.r9⟩

/-- The coefficients of limb 9 of a product with `v`. -/
def row9 (v : Elt16 ℤ) : Elt16 ℤ :=
  ⟨v.r9, v.r8, v.r7 + v.r15, v.r6 + v.r14, v.r5 + v.r13, v.r4 + v.r12, v.r3 + v.r11, v.r2 + v.r10,
    v.r1 + v.r9, v.r0 + v.r8, v.r7 + v.r15 + v.r15, v.r6 + v.r14 + v.r14, v.r5 + v.r13 + v.r13,
    v.r4 + v.r12 + v.r12, v.r3 + v.r11 + v.r11, v.r2 + v.r10 + v.r10⟩

/-- The coefficients of limb 10 of a product with `v`. -/
def row10 (v : Elt16 ℤ) : Elt16 ℤ :=
  ⟨v.r10, v.r9, v.r8, v.r7 + v.r15, v.r6 + v.r14, v.r5 + v.r13, v.r4 + v.r12, v.r3 + v.r11, v.r2 +
    v.r10, v.r1 + v.r9, v.r0 + v.r8, v.r7 + v.r15 + v.r15, v.r6 + v.r14 + v.r14, v.r5 + v.r13 +
    v.r13, v.r4 + v.r12 + v.r12, v.r3 + v.r11 + v.r11⟩

/-- The coefficients of limb 11 of a product with `v`. -/
def row11 (v : Elt16 ℤ) : Elt16 ℤ :=
  ⟨v.r11, v.r10, v.r9, v.r8, v.r7 + v.r15, v.r6 + v.r14, v.r5 + v.r13, v.r4 + v.r12, v.r3 + v.r11,
    v.r2 + v.r10, v.r1 + v.r9, v.r0 + v.r8, v.r7 + v.r15 + v.r15, v.r6 + v.r14 + v.r14, v.r5 +
    v.r13 + v.r13, v.r4 + v.r12 + v.r12⟩

/-- The coefficients of limb 12 of a product with `v`. -/
def row12 (v : Elt16 ℤ) : Elt16 ℤ :=
  ⟨v.r12, v.r11, v.r10, v.r9, v.r8, v.r7 + v.r15, v.r6 + v.r14, v.r5 + v.r13, v.r4 + v.r12, v.r3 +
    v.r11, v.r2 + v.r10, v.r1 + v.r9, v.r0 + v.r8, v.r7 + v.r15 + v.r15, v.r6 + v.r14 + v.r14,
    v.r5 + v.r13 + v.r13⟩

/-- The coefficients of limb 13 of a product with `v`. -/
def row13 (v : Elt16 ℤ) : Elt16 ℤ :=
  ⟨v.r13, v.r12, v.r11, v.r10, v.r9, v.r8, v.r7 + v.r15, v.r6 + v.r14, v.r5 + v.r13, v.r4 + v.r12,
    v.r3 + v.r11, v.r2 + v.r10, v.r1 + v.r9, v.r0 + v.r8, v.r7 + v.r15 + v.r15, v.r6 + v.r14 +
    v.r14⟩

/-- The coefficients of limb 14 of a product with `v`. -/
def row14 (v : Elt16 ℤ) : Elt16 ℤ :=
  ⟨v.r14, v.r13, v.r12, v.r11, v.r10, v.r9, v.r8, v.r7 + v.r15, v.r6 + v.r14, v.r5 + v.r13, v.r4 +
    v.r12, v.r3 + v.r11, v.r2 + v.r10, v.r1 + v.r9, v.r0 + v.r8, v.r7 + v.r15 + v.r15⟩

/-- The coefficients of limb 15 of a product with `v`. -/
def row15 (v : Elt16 ℤ) : Elt16 ℤ :=
  ⟨v.r15, v.r14, v.r13, v.r12, v.r11, v.r10, v.r9, v.r8, v.r7 + v.r15, v.r6 + v.r14, v.r5 + v.r13,
    v.r4 + v.r12, v.r3 + v.r11, v.r2 + v.r10, v.r1 + v.r9, v.r0 + v.r8⟩

theorem schoolP_rows (u v : Elt16 ℤ) : schoolP u v =
    ⟨dot u (row0 v), dot u (row1 v), dot u (row2 v), dot u (row3 v), dot u (row4 v), dot u (row5
      v), dot u (row6 v), dot u (row7 v), dot u (row8 v), dot u (row9 v), dot u (row10 v), dot u
      (row11 v), dot u (row12 v), dot u (row13 v), dot u (row14 v), dot u (row15 v)⟩ := by
  ext1 <;> simp only [schoolP, conv8, Lane.ADD, Lane.MUL, dot, row0, row1, row2, row3, row4, row5,
    row6, row7, row8, row9, row10, row11, row12, row13, row14, row15] <;> ring

theorem mul_le_pos {y t m : ℤ} (h0 : 0 ≤ y) (h1 : y ≤ t) : y * m ≤ t * max 0 m :=
  le_trans (mul_le_mul_of_nonneg_left (le_max_right 0 m) h0)
    (mul_le_mul_of_nonneg_right h1 (le_max_left 0 m))

theorem dot_le {u t v : Elt16 ℤ} (h0 : LeZ zeroZ u) (h1 : LeZ u t) : dot u v ≤ posDot t v := by
  obtain ⟨a0, a1, a2, a3, a4, a5, a6, a7, a8, a9, a10, a11, a12, a13, a14, a15⟩ := h0
  obtain ⟨b0, b1, b2, b3, b4, b5, b6, b7, b8, b9, b10, b11, b12, b13, b14, b15⟩ := h1
  unfold dot posDot
  have c0 := mul_le_pos (m := v.r0) a0 b0
  have c1 := mul_le_pos (m := v.r1) a1 b1
  have c2 := mul_le_pos (m := v.r2) a2 b2
  have c3 := mul_le_pos (m := v.r3) a3 b3
  have c4 := mul_le_pos (m := v.r4) a4 b4
  have c5 := mul_le_pos (m := v.r5) a5 b5
  have c6 := mul_le_pos (m := v.r6) a6 b6
  have c7 := mul_le_pos (m := v.r7) a7 b7
  have c8 := mul_le_pos (m := v.r8) a8 b8
  have c9 := mul_le_pos (m := v.r9) a9 b9
  have c10 := mul_le_pos (m := v.r10) a10 b10
  have c11 := mul_le_pos (m := v.r11) a11 b11
  have c12 := mul_le_pos (m := v.r12) a12 b12
  have c13 := mul_le_pos (m := v.r13) a13 b13
  have c14 := mul_le_pos (m := v.r14) a14 b14
  have c15 := mul_le_pos (m := v.r15) a15 b15
  linarith

theorem dot_nonneg {u v : Elt16 ℤ} (h0 : LeZ zeroZ u) (h1 : LeZ zeroZ v) : 0 ≤ dot u v := by
  obtain ⟨a0, a1, a2, a3, a4, a5, a6, a7, a8, a9, a10, a11, a12, a13, a14, a15⟩ := h0
  obtain ⟨b0, b1, b2, b3, b4, b5, b6, b7, b8, b9, b10, b11, b12, b13, b14, b15⟩ := h1
  unfold dot
  have c0 := mul_nonneg a0 b0
  have c1 := mul_nonneg a1 b1
  have c2 := mul_nonneg a2 b2
  have c3 := mul_nonneg a3 b3
  have c4 := mul_nonneg a4 b4
  have c5 := mul_nonneg a5 b5
  have c6 := mul_nonneg a6 b6
  have c7 := mul_nonneg a7 b7
  have c8 := mul_nonneg a8 b8
  have c9 := mul_nonneg a9 b9
  have c10 := mul_nonneg a10 b10
  have c11 := mul_nonneg a11 b11
  have c12 := mul_nonneg a12 b12
  have c13 := mul_nonneg a13 b13
  have c14 := mul_nonneg a14 b14
  have c15 := mul_nonneg a15 b15
  linarith

theorem dot_add (u v w : Elt16 ℤ) : dot (u.zip (· + ·) v) w = dot u w + dot v w := by
  simp only [dot, Elt16.zip]; ring
theorem dot_sub (u v w : Elt16 ℤ) : dot (u.zip (· - ·) v) w = dot u w - dot v w := by
  simp only [dot, Elt16.zip]; ring
theorem dot_sub' (u v w : Elt16 ℤ) : dot u (v.zip (· - ·) w) = dot u v - dot u w := by
  simp only [dot, Elt16.zip]; ring

theorem row0_nonneg {v : Elt16 ℤ} (h : LeZ zeroZ v) : LeZ zeroZ (row0 v) := by
  obtain ⟨a0, a1, a2, a3, a4, a5, a6, a7, a8, a9, a10, a11, a12, a13, a14, a15⟩ := h
  simp only [zeroZ] at *
  refine ⟨?_, ?_, ?_, ?_, ?_, ?_, ?_, ?_, ?_, ?_, ?_, ?_, ?_, ?_, ?_, ?_⟩ <;> simp only [row0] <;>
    positivity

theorem row1_nonneg {v : Elt16 ℤ} (h : LeZ zeroZ v) : LeZ zeroZ (row1 v) := by
  obtain ⟨a0, a1, a2, a3, a4, a5, a6, a7, a8, a9, a10, a11, a12, a13, a14, a15⟩ := h
  simp only [zeroZ] at *
  refine ⟨?_, ?_, ?_, ?_, ?_, ?_, ?_, ?_, ?_, ?_, ?_, ?_, ?_, ?_, ?_, ?_⟩ <;> simp only [row1] <;>
    positivity

theorem row2_nonneg {v : Elt16 ℤ} (h : LeZ zeroZ v) : LeZ zeroZ (row2 v) := by
  obtain ⟨a0, a1, a2, a3, a4, a5, a6, a7, a8, a9, a10, a11, a12, a13, a14, a15⟩ := h
  simp only [zeroZ] at *
  refine ⟨?_, ?_, ?_, ?_, ?_, ?_, ?_, ?_, ?_, ?_, ?_, ?_, ?_, ?_, ?_, ?_⟩ <;> simp only [row2] <;>
    positivity

theorem row3_nonneg {v : Elt16 ℤ} (h : LeZ zeroZ v) : LeZ zeroZ (row3 v) := by
  obtain ⟨a0, a1, a2, a3, a4, a5, a6, a7, a8, a9, a10, a11, a12, a13, a14, a15⟩ := h
  simp only [zeroZ] at *
  refine ⟨?_, ?_, ?_, ?_, ?_, ?_, ?_, ?_, ?_, ?_, ?_, ?_, ?_, ?_, ?_, ?_⟩ <;> simp only [row3] <;>
    positivity

theorem row4_nonneg {v : Elt16 ℤ} (h : LeZ zeroZ v) : LeZ zeroZ (row4 v) := by
  obtain ⟨a0, a1, a2, a3, a4, a5, a6, a7, a8, a9, a10, a11, a12, a13, a14, a15⟩ := h
  simp only [zeroZ] at *
  refine ⟨?_, ?_, ?_, ?_, ?_, ?_, ?_, ?_, ?_, ?_, ?_, ?_, ?_, ?_, ?_, ?_⟩ <;> simp only [row4] <;>
    positivity

theorem row5_nonneg {v : Elt16 ℤ} (h : LeZ zeroZ v) : LeZ zeroZ (row5 v) := by
  obtain ⟨a0, a1, a2, a3, a4, a5, a6, a7, a8, a9, a10, a11, a12, a13, a14, a15⟩ := h
  simp only [zeroZ] at *
  refine ⟨?_, ?_, ?_, ?_, ?_, ?_, ?_, ?_, ?_, ?_, ?_, ?_, ?_, ?_, ?_, ?_⟩ <;> simp only [row5] <;>
    positivity

theorem row6_nonneg {v : Elt16 ℤ} (h : LeZ zeroZ v) : LeZ zeroZ (row6 v) := by
  obtain ⟨a0, a1, a2, a3, a4, a5, a6, a7, a8, a9, a10, a11, a12, a13, a14, a15⟩ := h
  simp only [zeroZ] at *
  refine ⟨?_, ?_, ?_, ?_, ?_, ?_, ?_, ?_, ?_, ?_, ?_, ?_, ?_, ?_, ?_, ?_⟩ <;> simp only [row6] <;>
    positivity

theorem row7_nonneg {v : Elt16 ℤ} (h : LeZ zeroZ v) : LeZ zeroZ (row7 v) := by
  obtain ⟨a0, a1, a2, a3, a4, a5, a6, a7, a8, a9, a10, a11, a12, a13, a14, a15⟩ := h
  simp only [zeroZ] at *
  refine ⟨?_, ?_, ?_, ?_, ?_, ?_, ?_, ?_, ?_, ?_, ?_, ?_, ?_, ?_, ?_, ?_⟩ <;> simp only [row7] <;>
    positivity

theorem row8_nonneg {v : Elt16 ℤ} (h : LeZ zeroZ v) : LeZ zeroZ (row8 v) := by
  obtain ⟨a0, a1, a2, a3, a4, a5, a6, a7, a8, a9, a10, a11, a12, a13, a14, a15⟩ := h
  simp only [zeroZ] at *
  refine ⟨?_, ?_, ?_, ?_, ?_, ?_, ?_, ?_, ?_, ?_, ?_, ?_, ?_, ?_, ?_, ?_⟩ <;> simp only [row8] <;>
    positivity

theorem row9_nonneg {v : Elt16 ℤ} (h : LeZ zeroZ v) : LeZ zeroZ (row9 v) := by
  obtain ⟨a0, a1, a2, a3, a4, a5, a6, a7, a8, a9, a10, a11, a12, a13, a14, a15⟩ := h
  simp only [zeroZ] at *
  refine ⟨?_, ?_, ?_, ?_, ?_, ?_, ?_, ?_, ?_, ?_, ?_, ?_, ?_, ?_, ?_, ?_⟩ <;> simp only [row9] <;>
    positivity

theorem row10_nonneg {v : Elt16 ℤ} (h : LeZ zeroZ v) : LeZ zeroZ (row10 v) := by
  obtain ⟨a0, a1, a2, a3, a4, a5, a6, a7, a8, a9, a10, a11, a12, a13, a14, a15⟩ := h
  simp only [zeroZ] at *
  refine ⟨?_, ?_, ?_, ?_, ?_, ?_, ?_, ?_, ?_, ?_, ?_, ?_, ?_, ?_, ?_, ?_⟩ <;> simp only [row10]
    <;> positivity

theorem row11_nonneg {v : Elt16 ℤ} (h : LeZ zeroZ v) : LeZ zeroZ (row11 v) := by
  obtain ⟨a0, a1, a2, a3, a4, a5, a6, a7, a8, a9, a10, a11, a12, a13, a14, a15⟩ := h
  simp only [zeroZ] at *
  refine ⟨?_, ?_, ?_, ?_, ?_, ?_, ?_, ?_, ?_, ?_, ?_, ?_, ?_, ?_, ?_, ?_⟩ <;> simp only [row11]
    <;> positivity

theorem row12_nonneg {v : Elt16 ℤ} (h : LeZ zeroZ v) : LeZ zeroZ (row12 v) := by
  obtain ⟨a0, a1, a2, a3, a4, a5, a6, a7, a8, a9, a10, a11, a12, a13, a14, a15⟩ := h
  simp only [zeroZ] at *
  refine ⟨?_, ?_, ?_, ?_, ?_, ?_, ?_, ?_, ?_, ?_, ?_, ?_, ?_, ?_, ?_, ?_⟩ <;> simp only [row12]
    <;> positivity

theorem row13_nonneg {v : Elt16 ℤ} (h : LeZ zeroZ v) : LeZ zeroZ (row13 v) := by
  obtain ⟨a0, a1, a2, a3, a4, a5, a6, a7, a8, a9, a10, a11, a12, a13, a14, a15⟩ := h
  simp only [zeroZ] at *
  refine ⟨?_, ?_, ?_, ?_, ?_, ?_, ?_, ?_, ?_, ?_, ?_, ?_, ?_, ?_, ?_, ?_⟩ <;> simp only [row13]
    <;> positivity

theorem row14_nonneg {v : Elt16 ℤ} (h : LeZ zeroZ v) : LeZ zeroZ (row14 v) := by
  obtain ⟨a0, a1, a2, a3, a4, a5, a6, a7, a8, a9, a10, a11, a12, a13, a14, a15⟩ := h
  simp only [zeroZ] at *
  refine ⟨?_, ?_, ?_, ?_, ?_, ?_, ?_, ?_, ?_, ?_, ?_, ?_, ?_, ?_, ?_, ?_⟩ <;> simp only [row14]
    <;> positivity

theorem row15_nonneg {v : Elt16 ℤ} (h : LeZ zeroZ v) : LeZ zeroZ (row15 v) := by
  obtain ⟨a0, a1, a2, a3, a4, a5, a6, a7, a8, a9, a10, a11, a12, a13, a14, a15⟩ := h
  simp only [zeroZ] at *
  refine ⟨?_, ?_, ?_, ?_, ?_, ?_, ?_, ?_, ?_, ?_, ?_, ?_, ?_, ?_, ?_, ?_⟩ <;> simp only [row15]
    <;> positivity

/-- 2p in the limbs of the constant of `R4.sub`. -/
def twoPZ : Elt16 ℤ := (R4.twoP : Elt16 ℤ)

/-- The bounds `tight`. -/
def tightZ : Elt16 ℤ := tight.map fun n : ℕ => (n : ℤ)

/-- The largest value of a limb of `A - B`, from the rows of the two factors. -/
def gap (rs ra : Elt16 ℤ) : ℤ := dot twoPZ rs + posDot tightZ (rs.zip (· - ·) ra)

/-- `A - B ≤ 2^34 p` in every limb, whatever the point is: `s` and `a` are the limbs of
y - x and y + x of the table entry. -/
def gapOk (s a : Elt16 ℤ) : Bool :=
  let k : Elt16 ℤ := R4.twoTo34P
  decide (gap (row0 s) (row0 a) ≤ k.r0) && decide (gap (row1 s) (row1 a) ≤ k.r1) && decide (gap
    (row2 s) (row2 a) ≤ k.r2) && decide (gap (row3 s) (row3 a) ≤ k.r3) && decide (gap (row4 s)
    (row4 a) ≤ k.r4) && decide (gap (row5 s) (row5 a) ≤ k.r5) && decide (gap (row6 s) (row6 a) ≤
    k.r6) && decide (gap (row7 s) (row7 a) ≤ k.r7) && decide (gap (row8 s) (row8 a) ≤ k.r8) &&
    decide (gap (row9 s) (row9 a) ≤ k.r9) && decide (gap (row10 s) (row10 a) ≤ k.r10) && decide
    (gap (row11 s) (row11 a) ≤ k.r11) && decide (gap (row12 s) (row12 a) ≤ k.r12) && decide (gap
    (row13 s) (row13 a) ≤ k.r13) && decide (gap (row14 s) (row14 a) ≤ k.r14) && decide (gap (row15
    s) (row15 a) ≤ k.r15)

theorem gap_le {x y rs ra : Elt16 ℤ} (hx : LeZ zeroZ x) (hy0 : LeZ zeroZ y) (hy : LeZ y tightZ)
    (hs : LeZ zeroZ rs) (ha : LeZ zeroZ ra) :
    dot (y.zip (· + ·) (twoPZ.zip (· - ·) x)) rs ≤ dot (y.zip (· + ·) x) ra + gap rs ra := by
  have h1 := dot_le (v := rs.zip (· - ·) ra) hy0 hy
  have h2 := dot_nonneg hx hs
  have h3 := dot_nonneg hx ha
  rw [dot_add, dot_sub, dot_add, gap]
  rw [dot_sub'] at h1
  linarith

theorem gapOk_spec {x y s a : Elt16 ℤ} (hx : LeZ zeroZ x) (hy0 : LeZ zeroZ y) (hy : LeZ y tightZ)
    (hs : LeZ zeroZ s) (ha : LeZ zeroZ a) (h : gapOk s a = true) :
    LeZ (schoolP (R4.sub y x) s) ((schoolP (R4.add y x) a).zip (· + ·) R4.twoTo34P) := by
  have e1 : R4.sub y x = y.zip (· + ·) (twoPZ.zip (· - ·) x) := rfl
  have e2 : R4.add y x = y.zip (· + ·) x := rfl
  rw [e1, e2, schoolP_rows, schoolP_rows]
  simp only [gapOk, Bool.and_eq_true, decide_eq_true_eq, and_assoc] at h
  obtain ⟨h0, h1, h2, h3, h4, h5, h6, h7, h8, h9, h10, h11, h12, h13, h14, h15⟩ := h
  exact ⟨(gap_le hx hy0 hy (row0_nonneg hs) (row0_nonneg ha)).trans (add_le_add le_rfl h0),
    (gap_le hx hy0 hy (row1_nonneg hs) (row1_nonneg ha)).trans (add_le_add le_rfl h1), (gap_le hx
    hy0 hy (row2_nonneg hs) (row2_nonneg ha)).trans (add_le_add le_rfl h2), (gap_le hx hy0 hy
    (row3_nonneg hs) (row3_nonneg ha)).trans (add_le_add le_rfl h3), (gap_le hx hy0 hy
    (row4_nonneg hs) (row4_nonneg ha)).trans (add_le_add le_rfl h4), (gap_le hx hy0 hy
    (row5_nonneg hs) (row5_nonneg ha)).trans (add_le_add le_rfl h5), (gap_le hx hy0 hy
    (row6_nonneg hs) (row6_nonneg ha)).trans (add_le_add le_rfl h6), (gap_le hx hy0 hy
    (row7_nonneg hs) (row7_nonneg ha)).trans (add_le_add le_rfl h7), (gap_le hx hy0 hy
    (row8_nonneg hs) (row8_nonneg ha)).trans (add_le_add le_rfl h8), (gap_le hx hy0 hy
    (row9_nonneg hs) (row9_nonneg ha)).trans (add_le_add le_rfl h9), (gap_le hx hy0 hy
    (row10_nonneg hs) (row10_nonneg ha)).trans (add_le_add le_rfl h10), (gap_le hx hy0 hy
    (row11_nonneg hs) (row11_nonneg ha)).trans (add_le_add le_rfl h11), (gap_le hx hy0 hy
    (row12_nonneg hs) (row12_nonneg ha)).trans (add_le_add le_rfl h12), (gap_le hx hy0 hy
    (row13_nonneg hs) (row13_nonneg ha)).trans (add_le_add le_rfl h13), (gap_le hx hy0 hy
    (row14_nonneg hs) (row14_nonneg ha)).trans (add_le_add le_rfl h14), (gap_le hx hy0 hy
    (row15_nonneg hs) (row15_nonneg ha)).trans (add_le_add le_rfl h15)⟩

/-! ## The sum A + B -/

theorem dot_mono {u v w : Elt16 ℤ} (h0 : LeZ zeroZ u) (h1 : LeZ v w) : dot u v ≤ dot u w := by
  obtain ⟨a0, a1, a2, a3, a4, a5, a6, a7, a8, a9, a10, a11, a12, a13, a14, a15⟩ := h0
  obtain ⟨b0, b1, b2, b3, b4, b5, b6, b7, b8, b9, b10, b11, b12, b13, b14, b15⟩ := h1
  unfold dot
  have c0 := mul_le_mul_of_nonneg_left b0 a0
  have c1 := mul_le_mul_of_nonneg_left b1 a1
  have c2 := mul_le_mul_of_nonneg_left b2 a2
  have c3 := mul_le_mul_of_nonneg_left b3 a3
  have c4 := mul_le_mul_of_nonneg_left b4 a4
  have c5 := mul_le_mul_of_nonneg_left b5 a5
  have c6 := mul_le_mul_of_nonneg_left b6 a6
  have c7 := mul_le_mul_of_nonneg_left b7 a7
  have c8 := mul_le_mul_of_nonneg_left b8 a8
  have c9 := mul_le_mul_of_nonneg_left b9 a9
  have c10 := mul_le_mul_of_nonneg_left b10 a10
  have c11 := mul_le_mul_of_nonneg_left b11 a11
  have c12 := mul_le_mul_of_nonneg_left b12 a12
  have c13 := mul_le_mul_of_nonneg_left b13 a13
  have c14 := mul_le_mul_of_nonneg_left b14 a14
  have c15 := mul_le_mul_of_nonneg_left b15 a15
  linarith

theorem dot_mono' {u v w : Elt16 ℤ} (h0 : LeZ zeroZ w) (h1 : LeZ u v) : dot u w ≤ dot v w := by
  obtain ⟨a0, a1, a2, a3, a4, a5, a6, a7, a8, a9, a10, a11, a12, a13, a14, a15⟩ := h0
  obtain ⟨b0, b1, b2, b3, b4, b5, b6, b7, b8, b9, b10, b11, b12, b13, b14, b15⟩ := h1
  unfold dot
  have c0 := mul_le_mul_of_nonneg_right b0 a0
  have c1 := mul_le_mul_of_nonneg_right b1 a1
  have c2 := mul_le_mul_of_nonneg_right b2 a2
  have c3 := mul_le_mul_of_nonneg_right b3 a3
  have c4 := mul_le_mul_of_nonneg_right b4 a4
  have c5 := mul_le_mul_of_nonneg_right b5 a5
  have c6 := mul_le_mul_of_nonneg_right b6 a6
  have c7 := mul_le_mul_of_nonneg_right b7 a7
  have c8 := mul_le_mul_of_nonneg_right b8 a8
  have c9 := mul_le_mul_of_nonneg_right b9 a9
  have c10 := mul_le_mul_of_nonneg_right b10 a10
  have c11 := mul_le_mul_of_nonneg_right b11 a11
  have c12 := mul_le_mul_of_nonneg_right b12 a12
  have c13 := mul_le_mul_of_nonneg_right b13 a13
  have c14 := mul_le_mul_of_nonneg_right b14 a14
  have c15 := mul_le_mul_of_nonneg_right b15 a15
  linarith

theorem row0_mono {v w : Elt16 ℤ} (h : LeZ v w) : LeZ (row0 v) (row0 w) := by
  obtain ⟨a0, a1, a2, a3, a4, a5, a6, a7, a8, a9, a10, a11, a12, a13, a14, a15⟩ := h
  refine ⟨?_, ?_, ?_, ?_, ?_, ?_, ?_, ?_, ?_, ?_, ?_, ?_, ?_, ?_, ?_, ?_⟩ <;> simp only [row0] <;>
    linarith

theorem row1_mono {v w : Elt16 ℤ} (h : LeZ v w) : LeZ (row1 v) (row1 w) := by
  obtain ⟨a0, a1, a2, a3, a4, a5, a6, a7, a8, a9, a10, a11, a12, a13, a14, a15⟩ := h
  refine ⟨?_, ?_, ?_, ?_, ?_, ?_, ?_, ?_, ?_, ?_, ?_, ?_, ?_, ?_, ?_, ?_⟩ <;> simp only [row1] <;>
    linarith

theorem row2_mono {v w : Elt16 ℤ} (h : LeZ v w) : LeZ (row2 v) (row2 w) := by
  obtain ⟨a0, a1, a2, a3, a4, a5, a6, a7, a8, a9, a10, a11, a12, a13, a14, a15⟩ := h
  refine ⟨?_, ?_, ?_, ?_, ?_, ?_, ?_, ?_, ?_, ?_, ?_, ?_, ?_, ?_, ?_, ?_⟩ <;> simp only [row2] <;>
    linarith

theorem row3_mono {v w : Elt16 ℤ} (h : LeZ v w) : LeZ (row3 v) (row3 w) := by
  obtain ⟨a0, a1, a2, a3, a4, a5, a6, a7, a8, a9, a10, a11, a12, a13, a14, a15⟩ := h
  refine ⟨?_, ?_, ?_, ?_, ?_, ?_, ?_, ?_, ?_, ?_, ?_, ?_, ?_, ?_, ?_, ?_⟩ <;> simp only [row3] <;>
    linarith

theorem row4_mono {v w : Elt16 ℤ} (h : LeZ v w) : LeZ (row4 v) (row4 w) := by
  obtain ⟨a0, a1, a2, a3, a4, a5, a6, a7, a8, a9, a10, a11, a12, a13, a14, a15⟩ := h
  refine ⟨?_, ?_, ?_, ?_, ?_, ?_, ?_, ?_, ?_, ?_, ?_, ?_, ?_, ?_, ?_, ?_⟩ <;> simp only [row4] <;>
    linarith

theorem row5_mono {v w : Elt16 ℤ} (h : LeZ v w) : LeZ (row5 v) (row5 w) := by
  obtain ⟨a0, a1, a2, a3, a4, a5, a6, a7, a8, a9, a10, a11, a12, a13, a14, a15⟩ := h
  refine ⟨?_, ?_, ?_, ?_, ?_, ?_, ?_, ?_, ?_, ?_, ?_, ?_, ?_, ?_, ?_, ?_⟩ <;> simp only [row5] <;>
    linarith

theorem row6_mono {v w : Elt16 ℤ} (h : LeZ v w) : LeZ (row6 v) (row6 w) := by
  obtain ⟨a0, a1, a2, a3, a4, a5, a6, a7, a8, a9, a10, a11, a12, a13, a14, a15⟩ := h
  refine ⟨?_, ?_, ?_, ?_, ?_, ?_, ?_, ?_, ?_, ?_, ?_, ?_, ?_, ?_, ?_, ?_⟩ <;> simp only [row6] <;>
    linarith

theorem row7_mono {v w : Elt16 ℤ} (h : LeZ v w) : LeZ (row7 v) (row7 w) := by
  obtain ⟨a0, a1, a2, a3, a4, a5, a6, a7, a8, a9, a10, a11, a12, a13, a14, a15⟩ := h
  refine ⟨?_, ?_, ?_, ?_, ?_, ?_, ?_, ?_, ?_, ?_, ?_, ?_, ?_, ?_, ?_, ?_⟩ <;> simp only [row7] <;>
    linarith

theorem row8_mono {v w : Elt16 ℤ} (h : LeZ v w) : LeZ (row8 v) (row8 w) := by
  obtain ⟨a0, a1, a2, a3, a4, a5, a6, a7, a8, a9, a10, a11, a12, a13, a14, a15⟩ := h
  refine ⟨?_, ?_, ?_, ?_, ?_, ?_, ?_, ?_, ?_, ?_, ?_, ?_, ?_, ?_, ?_, ?_⟩ <;> simp only [row8] <;>
    linarith

theorem row9_mono {v w : Elt16 ℤ} (h : LeZ v w) : LeZ (row9 v) (row9 w) := by
  obtain ⟨a0, a1, a2, a3, a4, a5, a6, a7, a8, a9, a10, a11, a12, a13, a14, a15⟩ := h
  refine ⟨?_, ?_, ?_, ?_, ?_, ?_, ?_, ?_, ?_, ?_, ?_, ?_, ?_, ?_, ?_, ?_⟩ <;> simp only [row9] <;>
    linarith

theorem row10_mono {v w : Elt16 ℤ} (h : LeZ v w) : LeZ (row10 v) (row10 w) := by
  obtain ⟨a0, a1, a2, a3, a4, a5, a6, a7, a8, a9, a10, a11, a12, a13, a14, a15⟩ := h
  refine ⟨?_, ?_, ?_, ?_, ?_, ?_, ?_, ?_, ?_, ?_, ?_, ?_, ?_, ?_, ?_, ?_⟩ <;> simp only [row10]
    <;> linarith

theorem row11_mono {v w : Elt16 ℤ} (h : LeZ v w) : LeZ (row11 v) (row11 w) := by
  obtain ⟨a0, a1, a2, a3, a4, a5, a6, a7, a8, a9, a10, a11, a12, a13, a14, a15⟩ := h
  refine ⟨?_, ?_, ?_, ?_, ?_, ?_, ?_, ?_, ?_, ?_, ?_, ?_, ?_, ?_, ?_, ?_⟩ <;> simp only [row11]
    <;> linarith

theorem row12_mono {v w : Elt16 ℤ} (h : LeZ v w) : LeZ (row12 v) (row12 w) := by
  obtain ⟨a0, a1, a2, a3, a4, a5, a6, a7, a8, a9, a10, a11, a12, a13, a14, a15⟩ := h
  refine ⟨?_, ?_, ?_, ?_, ?_, ?_, ?_, ?_, ?_, ?_, ?_, ?_, ?_, ?_, ?_, ?_⟩ <;> simp only [row12]
    <;> linarith

theorem row13_mono {v w : Elt16 ℤ} (h : LeZ v w) : LeZ (row13 v) (row13 w) := by
  obtain ⟨a0, a1, a2, a3, a4, a5, a6, a7, a8, a9, a10, a11, a12, a13, a14, a15⟩ := h
  refine ⟨?_, ?_, ?_, ?_, ?_, ?_, ?_, ?_, ?_, ?_, ?_, ?_, ?_, ?_, ?_, ?_⟩ <;> simp only [row13]
    <;> linarith

theorem row14_mono {v w : Elt16 ℤ} (h : LeZ v w) : LeZ (row14 v) (row14 w) := by
  obtain ⟨a0, a1, a2, a3, a4, a5, a6, a7, a8, a9, a10, a11, a12, a13, a14, a15⟩ := h
  refine ⟨?_, ?_, ?_, ?_, ?_, ?_, ?_, ?_, ?_, ?_, ?_, ?_, ?_, ?_, ?_, ?_⟩ <;> simp only [row14]
    <;> linarith

theorem row15_mono {v w : Elt16 ℤ} (h : LeZ v w) : LeZ (row15 v) (row15 w) := by
  obtain ⟨a0, a1, a2, a3, a4, a5, a6, a7, a8, a9, a10, a11, a12, a13, a14, a15⟩ := h
  refine ⟨?_, ?_, ?_, ?_, ?_, ?_, ?_, ?_, ?_, ?_, ?_, ?_, ?_, ?_, ?_, ?_⟩ <;> simp only [row15]
    <;> linarith

theorem sum_le {x y rs ra rt : Elt16 ℤ} (hx : LeZ zeroZ x) (hx1 : LeZ x tightZ)
    (hy0 : LeZ zeroZ y) (hy : LeZ y tightZ)
    (h0 : LeZ zeroZ rt) (hs : LeZ rs rt) (ha : LeZ ra rt) :
    dot (y.zip (· + ·) (twoPZ.zip (· - ·) x)) rs + dot (x.zip (· + ·) y) ra ≤
      dot twoPZ rt + (dot tightZ rt + dot tightZ rt) := by
  have k : LeZ tightZ twoPZ := by decide +kernel
  have h1 : LeZ zeroZ (y.zip (· + ·) (twoPZ.zip (· - ·) x)) := by
    obtain ⟨a0, a1, a2, a3, a4, a5, a6, a7, a8, a9, a10, a11, a12, a13, a14, a15⟩ := hx1
    obtain ⟨b0, b1, b2, b3, b4, b5, b6, b7, b8, b9, b10, b11, b12, b13, b14, b15⟩ := hy0
    obtain ⟨c0, c1, c2, c3, c4, c5, c6, c7, c8, c9, c10, c11, c12, c13, c14, c15⟩ := k
    simp only [zeroZ] at *
    refine ⟨?_, ?_, ?_, ?_, ?_, ?_, ?_, ?_, ?_, ?_, ?_, ?_, ?_, ?_, ?_, ?_⟩ <;> simp only
      [Elt16.zip] <;> linarith
  have h2 : LeZ zeroZ (x.zip (· + ·) y) := by
    obtain ⟨a0, a1, a2, a3, a4, a5, a6, a7, a8, a9, a10, a11, a12, a13, a14, a15⟩ := hx
    obtain ⟨b0, b1, b2, b3, b4, b5, b6, b7, b8, b9, b10, b11, b12, b13, b14, b15⟩ := hy0
    simp only [zeroZ] at *
    refine ⟨?_, ?_, ?_, ?_, ?_, ?_, ?_, ?_, ?_, ?_, ?_, ?_, ?_, ?_, ?_, ?_⟩ <;> simp only
      [Elt16.zip] <;> linarith
  have h3 := dot_mono h1 hs
  have h4 := dot_mono h2 ha
  have h5 := dot_mono' h0 hy
  simp only [dot_add, dot_sub] at h3 h4 ⊢
  linarith

/-- The bounds of the operand y - x, y + x of a mixed addition. -/
def preZ : Elt16 ℤ := preB.map fun n : ℕ => (n : ℤ)

/-- The limbs of A + B. -/
theorem sumOk_spec {x y s a : Elt16 ℤ} (hx : LeZ zeroZ x) (hx1 : LeZ x tightZ)
    (hy0 : LeZ zeroZ y) (hy : LeZ y tightZ) (hs : LeZ s preZ) (ha : LeZ a preZ) :
    LeZ ((schoolP (R4.sub y x) s).zip (· + ·) (schoolP (R4.add x y) a))
      ((bnd (190 * 2 ^ 56) (190 * 2 ^ 56)).map fun n : ℕ => (n : ℤ)) := by
  have e1 : R4.sub y x = y.zip (· + ·) (twoPZ.zip (· - ·) x) := rfl
  have e2 : R4.add x y = x.zip (· + ·) y := rfl
  have h0 : LeZ zeroZ preZ := by decide +kernel
  rw [e1, e2, schoolP_rows, schoolP_rows]
  exact ⟨(sum_le hx hx1 hy0 hy (row0_nonneg h0) (row0_mono hs) (row0_mono ha)).trans (by
    decide +kernel), (sum_le hx hx1 hy0 hy (row1_nonneg h0) (row1_mono hs) (row1_mono ha)).trans
    (by decide +kernel), (sum_le hx hx1 hy0 hy (row2_nonneg h0) (row2_mono hs) (row2_mono
    ha)).trans (by decide +kernel), (sum_le hx hx1 hy0 hy (row3_nonneg h0) (row3_mono hs)
    (row3_mono ha)).trans (by decide +kernel), (sum_le hx hx1 hy0 hy (row4_nonneg h0) (row4_mono
    hs) (row4_mono ha)).trans (by decide +kernel), (sum_le hx hx1 hy0 hy (row5_nonneg h0)
    (row5_mono hs) (row5_mono ha)).trans (by decide +kernel), (sum_le hx hx1 hy0 hy (row6_nonneg
    h0) (row6_mono hs) (row6_mono ha)).trans (by decide +kernel), (sum_le hx hx1 hy0 hy
    (row7_nonneg h0) (row7_mono hs) (row7_mono ha)).trans (by decide +kernel), (sum_le hx hx1 hy0
    hy (row8_nonneg h0) (row8_mono hs) (row8_mono ha)).trans (by decide +kernel), (sum_le hx hx1
    hy0 hy (row9_nonneg h0) (row9_mono hs) (row9_mono ha)).trans (by decide +kernel), (sum_le hx
    hx1 hy0 hy (row10_nonneg h0) (row10_mono hs) (row10_mono ha)).trans (by decide +kernel),
    (sum_le hx hx1 hy0 hy (row11_nonneg h0) (row11_mono hs) (row11_mono ha)).trans (by
    decide +kernel), (sum_le hx hx1 hy0 hy (row12_nonneg h0) (row12_mono hs) (row12_mono
    ha)).trans (by decide +kernel), (sum_le hx hx1 hy0 hy (row13_nonneg h0) (row13_mono hs)
    (row13_mono ha)).trans (by decide +kernel), (sum_le hx hx1 hy0 hy (row14_nonneg h0)
    (row14_mono hs) (row14_mono ha)).trans (by decide +kernel), (sum_le hx hx1 hy0 hy
    (row15_nonneg h0) (row15_mono hs) (row15_mono ha)).trans (by decide +kernel)⟩

/-! ## From words to integers -/

theorem intmul_ints {m₁ m₂ m' : Elt16 ℕ} {a b : Elt16 W} (ha : a.Le m₁) (hb : b.Le m₂)
    (k : okMul4 m₁ m₂ m' = true) : (R4.intmul a b).ints = schoolP a.ints b.ints := by
  rw [okMul4, Bool.and_eq_true] at k
  obtain ⟨h1, h2⟩ := run2 (f := fun a b => schoolP a b) (fun _ _ => rfl)
    (fun _ _ => rfl) (fun _ _ => rfl) (m' := m') k.2 ha hb
  have h3 : R4.intmul a b = schoolP a b :=
    wrap2 (f := fun a b => R4.intmul a b) (g := fun a b => schoolP a b)
      (fun _ _ => rfl) (fun _ _ => rfl) (fun _ _ => rfl) R4_intmul_int k.1 ha hb h2
  rw [h3, h2]

theorem add_ints {a b : Elt16 W} (ha : a.Le tight) (hb : b.Le tight) :
    (R4.add a b).Le sum2 ∧ (R4.add a b).ints = R4.add a.ints b.ints :=
  run2 (f := fun a b => R4.add a b) (fun _ _ => rfl) (fun _ _ => rfl) (fun _ _ => rfl) okAdd4 ha hb

theorem sub_ints {a b : Elt16 W} (ha : a.Le tight) (hb : b.Le tight) :
    (R4.sub a b).Le diff2 ∧ (R4.sub a b).ints = R4.sub a.ints b.ints :=
  run2 (f := fun a b => R4.sub a b) (fun _ _ => rfl) (fun _ _ => rfl) (fun _ _ => rfl) okSub4 ha hb

theorem ints_nonneg (a : Elt16 W) : LeZ zeroZ a.ints :=
  ⟨Int.natCast_nonneg _, Int.natCast_nonneg _, Int.natCast_nonneg _, Int.natCast_nonneg _,
    Int.natCast_nonneg _, Int.natCast_nonneg _, Int.natCast_nonneg _, Int.natCast_nonneg _,
    Int.natCast_nonneg _, Int.natCast_nonneg _, Int.natCast_nonneg _, Int.natCast_nonneg _,
    Int.natCast_nonneg _, Int.natCast_nonneg _, Int.natCast_nonneg _, Int.natCast_nonneg _⟩

theorem ints_le {a : Elt16 W} (h : a.Le tight) : LeZ a.ints tightZ := by
  obtain ⟨h0, h1, h2, h3, h4, h5, h6, h7, h8, h9, h10, h11, h12, h13, h14, h15⟩ := h
  exact ⟨Int.ofNat_le.2 h0, Int.ofNat_le.2 h1, Int.ofNat_le.2 h2, Int.ofNat_le.2 h3,
    Int.ofNat_le.2 h4, Int.ofNat_le.2 h5, Int.ofNat_le.2 h6, Int.ofNat_le.2 h7, Int.ofNat_le.2 h8,
    Int.ofNat_le.2 h9, Int.ofNat_le.2 h10, Int.ofNat_le.2 h11, Int.ofNat_le.2 h12, Int.ofNat_le.2
    h13, Int.ofNat_le.2 h14, Int.ofNat_le.2 h15⟩

theorem ints_le_pre {a : Elt16 W} (h : a.Le preB) : LeZ a.ints preZ := by
  obtain ⟨h0, h1, h2, h3, h4, h5, h6, h7, h8, h9, h10, h11, h12, h13, h14, h15⟩ := h
  exact ⟨Int.ofNat_le.2 h0, Int.ofNat_le.2 h1, Int.ofNat_le.2 h2, Int.ofNat_le.2 h3,
    Int.ofNat_le.2 h4, Int.ofNat_le.2 h5, Int.ofNat_le.2 h6, Int.ofNat_le.2 h7, Int.ofNat_le.2 h8,
    Int.ofNat_le.2 h9, Int.ofNat_le.2 h10, Int.ofNat_le.2 h11, Int.ofNat_le.2 h12, Int.ofNat_le.2
    h13, Int.ofNat_le.2 h14, Int.ofNat_le.2 h15⟩

theorem okSumT : okMul4 sum2 preB prodL = true := by decide +kernel

end Verif.Ed448
