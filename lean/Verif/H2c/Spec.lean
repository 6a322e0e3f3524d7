import Verif.Ed25519.Curve

/-!
# Hashing to edwards25519

Specification: the map Elligator 2 to curve25519 followed by the birational map to edwards25519,
as in draft-irtf-cfrg-hash-to-curve.  This file models no code.
-/

namespace Verif.H2c

open Verif.Fp25519 Verif.Ed25519

/-- The coefficient of curve25519, `y² = x³ + A·x² + x`. -/
def A : Fp := 486662

/-- The right-hand side of the equation of curve25519. -/
def g (x : Fp) : Fp := x ^ 3 + A * x ^ 2 + x

/-- The first candidate for x; the denominator is never zero (`den_ne`). -/
def x1 (u : Fp) : Fp := -A / (1 + 2 * u ^ 2)

/-- Elligator 2 (with the non-square 2): `(x, y)` is on curve25519; x is the first candidate and y
odd if the candidate is the coordinate of a point, otherwise x is `-A - x1` and y is even. -/
def Elligator2 (u x y : Fp) : Prop :=
  y ^ 2 = g x ∧
  (IsSquare (g (x1 u)) → x = x1 u ∧ (y ≠ 0 → canon y % 2 = 1)) ∧
  (¬ IsSquare (g (x1 u)) → x = -A - x1 u ∧ canon y % 2 = 0)

/-- The even square root of -486664. -/
def c1 : ℕ := 0xf26edf460a006bbd27b08dc03fc4f7ec5a1d3d14b7d1a82cc6e04aaff457e06

/-- The birational map from curve25519 to edwards25519, with the neutral point where it is
undefined. -/
noncomputable def toEdwards (x y : Fp) : Fp × Fp :=
  open Classical in
  if y = 0 ∨ x = -1 then (0, 1) else ((c1 : Fp) * x / y, (x - 1) / (x + 1))

/-- The point of edwards25519 to which the field element is mapped. -/
def MapsTo (u : Fp) (Q : Pt) : Prop :=
  ∃ x y, Elligator2 u x y ∧ (Q.x, Q.y) = toEdwards x y

end Verif.H2c
