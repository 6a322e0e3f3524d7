import Verif.Fp448.Red
import Verif.Fp448.Spec

/-! # What a reduced-radix element means

The residue represented by sixteen limbs, and bounds on limbs.  A limb is not confined to
28 bits: the additive operations let limbs grow, and each operation states how large its
operands may be. -/

namespace Verif.Fp448

set_option exponentiation.threshold 2000

/-- The limbs of an element in the 1-way layout. -/
def Elt8.limbs {β : Type} (e : Elt8 (Vec2 β)) : Elt16 β :=
  ⟨e.c0.l, e.c1.l, e.c2.l, e.c3.l, e.c4.l, e.c5.l, e.c6.l, e.c7.l,
    e.c0.h, e.c1.h, e.c2.h, e.c3.h, e.c4.h, e.c5.h, e.c6.h, e.c7.h⟩

/-- The value of sixteen limbs: limb i has weight 2^(28 i). -/
def Elt16.val (e : Elt16 ℤ) : ℤ :=
  e.r0 + 2 ^ 28 * e.r1 + 2 ^ 56 * e.r2 + 2 ^ 84 * e.r3 + 2 ^ 112 * e.r4 + 2 ^ 140 * e.r5 + 2 ^ 168
  * e.r6 + 2 ^ 196 * e.r7 + 2 ^ 224 * e.r8 + 2 ^ 252 * e.r9 + 2 ^ 280 * e.r10 + 2 ^ 308 * e.r11 +
  2 ^ 336 * e.r12 + 2 ^ 364 * e.r13 + 2 ^ 392 * e.r14 + 2 ^ 420 * e.r15

/-- The limbs as integers. -/
def Elt16.ints (e : Elt16 W) : Elt16 ℤ := e.map fun w => (w.toNat : ℤ)

/-- The residue represented by sixteen limbs. -/
def Elt16.toFp (e : Elt16 W) : Fp := (e.ints.val : Fp)

/-- The residue represented by a 1-way element. -/
def Elt8.toFp (e : Elt8 U) : Fp := e.limbs.toFp

/-- The low element of a 2-way element. -/
def Elt8.lo (e : Elt8 V) : Elt8 U := e.map Vec4.lo

/-- The high element of a 2-way element. -/
def Elt8.hi (e : Elt8 V) : Elt8 U := e.map Vec4.hi

/-- Every limb is at most the given bound. -/
def Elt16.Le (e : Elt16 W) (m : Elt16 ℕ) : Prop :=
  e.r0.toNat ≤ m.r0 ∧ e.r1.toNat ≤ m.r1 ∧ e.r2.toNat ≤ m.r2 ∧ e.r3.toNat ≤ m.r3 ∧ e.r4.toNat ≤
  m.r4 ∧ e.r5.toNat ≤ m.r5 ∧ e.r6.toNat ≤ m.r6 ∧ e.r7.toNat ≤ m.r7 ∧ e.r8.toNat ≤ m.r8 ∧
  e.r9.toNat ≤ m.r9 ∧ e.r10.toNat ≤ m.r10 ∧ e.r11.toNat ≤ m.r11 ∧ e.r12.toNat ≤ m.r12 ∧
  e.r13.toNat ≤ m.r13 ∧ e.r14.toNat ≤ m.r14 ∧ e.r15.toNat ≤ m.r15

/-- Every limb of a 1-way element is at most the given bound. -/
def Elt8.Le (e : Elt8 U) (m : Elt16 ℕ) : Prop := e.limbs.Le m

instance (e : Elt16 W) (m : Elt16 ℕ) : Decidable (e.Le m) := by unfold Elt16.Le; infer_instance
instance (e : Elt8 U) (m : Elt16 ℕ) : Decidable (e.Le m) := by unfold Elt8.Le; infer_instance

/-- One bound for all limbs but limb 8, and one for limb 8. -/
def bnd (x y : ℕ) : Elt16 ℕ := ⟨x, x, x, x, x, x, x, x, y, x, x, x, x, x, x, x⟩

/-- Bounds that a carry pass establishes: 28 bits, except for a small excess in the limbs 1,
2, 9 and 10. -/
def tight : Elt16 ℕ :=
  ⟨2 ^ 28 - 1, 2 ^ 28 + 2 ^ 10, 2 ^ 28, 2 ^ 28 - 1, 2 ^ 28 - 1,
    2 ^ 28 - 1, 2 ^ 28 - 1, 2 ^ 28 - 1, 2 ^ 28 - 1, 2 ^ 28 + 2 ^ 10,
    2 ^ 28, 2 ^ 28 - 1, 2 ^ 28 - 1, 2 ^ 28 - 1, 2 ^ 28 - 1, 2 ^ 28 - 1⟩

end Verif.Fp448
