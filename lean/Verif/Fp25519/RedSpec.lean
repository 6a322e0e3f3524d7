import Verif.Fp25519.Red
import Verif.Fp25519.Spec

/-! # What a reduced-radix element means

The residue represented by ten limbs, and bounds on limbs.  A limb is not confined to 25
or 26 bits: the additive operations let limbs grow, and each operation states how large
its operands may be. -/

namespace Verif.Fp25519

/-- The limbs of an element in the 1-way layout. -/
def Elt5.limbs {β : Type} (e : Elt5 (Vec2 β)) : Elt10 β :=
  ⟨e.c0.l, e.c1.l, e.c2.l, e.c3.l, e.c4.l, e.c0.h, e.c1.h, e.c2.h, e.c3.h, e.c4.h⟩

/-- The value of ten limbs: limb i has weight 2^⌈25.5 i⌉. -/
def Elt10.val (e : Elt10 ℤ) : ℤ :=
  e.r0 + 2 ^ 26 * e.r1 + 2 ^ 51 * e.r2 + 2 ^ 77 * e.r3 + 2 ^ 102 * e.r4 + 2 ^ 128 * e.r5 +
    2 ^ 153 * e.r6 + 2 ^ 179 * e.r7 + 2 ^ 204 * e.r8 + 2 ^ 230 * e.r9

/-- The limbs as integers. -/
def Elt10.ints (e : Elt10 W) : Elt10 ℤ := e.map fun w => (w.toNat : ℤ)

/-- The residue represented by ten limbs. -/
def Elt10.toFp (e : Elt10 W) : Fp := (e.ints.val : Fp)

/-- The residue represented by a 1-way element. -/
def Elt5.toFp (e : Elt5 U) : Fp := e.limbs.toFp

/-- The low element of a 2-way element. -/
def Elt5.lo (e : Elt5 V) : Elt5 U := e.map Vec4.lo

/-- The high element of a 2-way element. -/
def Elt5.hi (e : Elt5 V) : Elt5 U := e.map Vec4.hi

/-- Every limb is at most the given bound. -/
def Elt10.Le (e : Elt10 W) (m : Elt10 ℕ) : Prop :=
  e.r0.toNat ≤ m.r0 ∧ e.r1.toNat ≤ m.r1 ∧ e.r2.toNat ≤ m.r2 ∧ e.r3.toNat ≤ m.r3 ∧
  e.r4.toNat ≤ m.r4 ∧ e.r5.toNat ≤ m.r5 ∧ e.r6.toNat ≤ m.r6 ∧ e.r7.toNat ≤ m.r7 ∧
  e.r8.toNat ≤ m.r8 ∧ e.r9.toNat ≤ m.r9

/-- Every limb of a 1-way element is at most the given bound. -/
def Elt5.Le (e : Elt5 U) (m : Elt10 ℕ) : Prop := e.limbs.Le m

instance (e : Elt10 W) (m : Elt10 ℕ) : Decidable (e.Le m) := by unfold Elt10.Le; infer_instance
instance (e : Elt5 U) (m : Elt10 ℕ) : Decidable (e.Le m) := by unfold Elt5.Le; infer_instance

/-- One bound for the even limbs (26 bits), one for the odd ones (25 bits). -/
def bnd (x y : ℕ) : Elt10 ℕ := ⟨x, y, x, y, x, y, x, y, x, y⟩

/-- Bounds that a carry pass establishes: 26 and 25 bits, except for a small excess in
the limbs 1, 2, 6 and 7. -/
def tight : Elt10 ℕ :=
  ⟨2 ^ 26 - 1, 2 ^ 25 + 2 ^ 18, 2 ^ 26, 2 ^ 25 - 1, 2 ^ 26 - 1,
    2 ^ 25 - 1, 2 ^ 26 + 2 ^ 14, 2 ^ 25, 2 ^ 26 - 1, 2 ^ 25 - 1⟩

end Verif.Fp25519
