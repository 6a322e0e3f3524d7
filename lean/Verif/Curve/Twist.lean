import Mathlib.AlgebraicGeometry.EllipticCurve.Affine.Point
import Mathlib.Tactic.LinearCombination
import Mathlib.Tactic.FieldSimp
import Mathlib.Tactic.Ring

/-!
The map `(x, y) ↦ (s²x, s³y)` from a curve `y² = x³ + Ax² + Bx` over a field to its twist over an
extension field.  Mathematics; this file models no code.
-/

namespace Verif.Twist

open WeierstrassCurve.Affine

variable {F K : Type*} [Field F] [Field K]

/-- The curve `y² = x³ + Ax² + Bx`. -/
def W (A B : F) : WeierstrassCurve.Affine F := { a₁ := 0, a₂ := A, a₃ := 0, a₄ := B, a₆ := 0 }

theorem negY_eq (A B x y : F) : (W A B).negY x y = -y := by
  simp [WeierstrassCurve.Affine.negY, W]

theorem nonsing_iff {A B x y : F} : (W A B).Nonsingular x y ↔
    y ^ 2 = x ^ 3 + A * x ^ 2 + B * x ∧ (B + 2 * A * x + 3 * x ^ 2 ≠ 0 ∨ 2 * y ≠ 0) := by
  rw [WeierstrassCurve.Affine.nonsingular_iff, WeierstrassCurve.Affine.equation_iff]
  simp only [W]
  constructor
  · rintro ⟨h1, h2⟩
    refine ⟨by linear_combination h1, h2.imp (fun h k => h (by linear_combination -k))
      (fun h k => h (by linear_combination k))⟩
  · rintro ⟨h1, h2⟩
    refine ⟨by linear_combination h1, h2.imp (fun h k => h (by linear_combination -k))
      (fun h k => h (by linear_combination k))⟩

theorem nonsing_map (f : F →+* K) {s : K} (hs : s ≠ 0) {A B x y : F} {A' B' : K}
    (hA : A' = s ^ 2 * f A) (hB : B' = s ^ 4 * f B) (h : (W A B).Nonsingular x y) :
    (W A' B').Nonsingular (s ^ 2 * f x) (s ^ 3 * f y) := by
  rw [nonsing_iff] at h ⊢
  obtain ⟨h1, h2⟩ := h
  subst hA hB
  have h3 := congrArg f h1
  simp only [map_pow, map_add, map_mul] at h3
  refine ⟨by linear_combination s ^ 6 * h3, h2.imp (fun h k => h ?_) (fun h k => h ?_)⟩
  · have : s ^ 4 * f (B + 2 * A * x + 3 * x ^ 2) = 0 := by
      simp only [map_pow, map_add, map_mul, map_ofNat]; linear_combination k
    exact (map_eq_zero f).1 ((mul_eq_zero.1 this).resolve_left (pow_ne_zero _ hs))
  · have : s ^ 3 * f (2 * y) = 0 := by
      simp only [map_mul, map_ofNat]; linear_combination k
    exact (map_eq_zero f).1 ((mul_eq_zero.1 this).resolve_left (pow_ne_zero _ hs))

variable [DecidableEq F] [DecidableEq K]

/-- The map of points. -/
def mapFun (f : F →+* K) {s : K} (hs : s ≠ 0) {A B : F} {A' B' : K}
    (hA : A' = s ^ 2 * f A) (hB : B' = s ^ 4 * f B) : (W A B).Point → (W A' B').Point
  | .zero => .zero
  | .some _ _ h => .some _ _ (nonsing_map f hs hA hB h)

theorem slope_map (f : F →+* K) {s : K} (hs : s ≠ 0) {A B x₁ x₂ y₁ y₂ : F} {A' B' : K}
    (hA : A' = s ^ 2 * f A) (hB : B' = s ^ 4 * f B) (h : ¬ (x₁ = x₂ ∧ y₁ = (W A B).negY x₂ y₂)) :
    (W A' B').slope (s ^ 2 * f x₁) (s ^ 2 * f x₂) (s ^ 3 * f y₁) (s ^ 3 * f y₂) =
      s * f ((W A B).slope x₁ x₂ y₁ y₂) := by
  have s2 : s ^ 2 ≠ 0 := pow_ne_zero _ hs
  have s3 : s ^ 3 ≠ 0 := pow_ne_zero _ hs
  by_cases hx : x₁ = x₂
  · have hy : y₁ ≠ (W A B).negY x₂ y₂ := fun k => h ⟨hx, k⟩
    have hy' : s ^ 3 * f y₁ ≠ (W A' B').negY (s ^ 2 * f x₂) (s ^ 3 * f y₂) := by
      rw [negY_eq] at hy ⊢
      intro k
      apply hy
      apply f.injective
      rw [map_neg]
      exact mul_left_cancel₀ s3 (by linear_combination k)
    have hx' : s ^ 2 * f x₁ = s ^ 2 * f x₂ := by rw [hx]
    rw [WeierstrassCurve.Affine.slope_of_Y_ne hx hy, WeierstrassCurve.Affine.slope_of_Y_ne hx' hy']
    rw [negY_eq] at hy
    simp only [negY_eq]
    simp only [W]
    subst hA hB
    simp only [map_div₀, map_pow, map_add, map_sub, map_neg, map_mul, map_ofNat, map_zero, zero_mul]
    by_cases h0 : f y₁ - -f y₁ = 0
    · have : s ^ 3 * f y₁ - -(s ^ 3 * f y₁) = 0 := by linear_combination s ^ 3 * h0
      simp [h0, this]
    · have h1 : s ^ 3 * f y₁ - -(s ^ 3 * f y₁) = s ^ 3 * (f y₁ - -f y₁) := by ring
      rw [h1]
      field_simp
      ring
  · have hx' : s ^ 2 * f x₁ ≠ s ^ 2 * f x₂ := fun k =>
      hx (f.injective (mul_left_cancel₀ s2 k))
    rw [WeierstrassCurve.Affine.slope_of_X_ne hx, WeierstrassCurve.Affine.slope_of_X_ne hx']
    have : f x₁ - f x₂ ≠ 0 := by
      rw [← map_sub]; exact (map_ne_zero f).2 (sub_ne_zero.2 hx)
    rw [map_div₀, map_sub, map_sub, ← mul_sub, ← mul_sub]
    field_simp

theorem mapFun_add (f : F →+* K) {s : K} (hs : s ≠ 0) {A B : F} {A' B' : K}
    (hA : A' = s ^ 2 * f A) (hB : B' = s ^ 4 * f B) (P Q : (W A B).Point) :
    mapFun f hs hA hB (P + Q) = mapFun f hs hA hB P + mapFun f hs hA hB Q := by
  cases P with
  | zero =>
    rw [← Point.zero_def, zero_add]
    exact (zero_add _).symm
  | some x₁ y₁ h₁ =>
    cases Q with
    | zero =>
      rw [← Point.zero_def, add_zero]
      exact (add_zero _).symm
    | some x₂ y₂ h₂ =>
      by_cases h : x₁ = x₂ ∧ y₁ = (W A B).negY x₂ y₂
      · have h' : s ^ 2 * f x₁ = s ^ 2 * f x₂ ∧
            s ^ 3 * f y₁ = (W A' B').negY (s ^ 2 * f x₂) (s ^ 3 * f y₂) := by
          obtain ⟨rfl, k⟩ := h
          rw [negY_eq] at k ⊢
          exact ⟨rfl, by rw [k, map_neg]; ring⟩
        rw [Point.add_of_Y_eq h.1 h.2]
        simp only [mapFun]
        rw [Point.add_of_Y_eq h'.1 h'.2]
        rfl
      · have h' : ¬ (s ^ 2 * f x₁ = s ^ 2 * f x₂ ∧
            s ^ 3 * f y₁ = (W A' B').negY (s ^ 2 * f x₂) (s ^ 3 * f y₂)) := by
          rintro ⟨k1, k2⟩
          rw [negY_eq] at k2
          refine h ⟨f.injective (mul_left_cancel₀ (pow_ne_zero _ hs) k1), ?_⟩
          rw [negY_eq]
          apply f.injective
          rw [map_neg]
          exact mul_left_cancel₀ (pow_ne_zero 3 hs) (by linear_combination k2)
        have hsl := slope_map f hs hA hB h
        rw [Point.add_some h]
        simp only [mapFun]
        rw [Point.add_some h']
        simp only [Point.some.injEq]
        subst hA hB
        simp only [WeierstrassCurve.Affine.addX, WeierstrassCurve.Affine.addY,
          WeierstrassCurve.Affine.negAddY, negY_eq, hsl]
        simp only [W, map_sub, map_add, map_mul, map_pow, map_neg, map_zero]
        constructor <;> ring

/-- The map, as a homomorphism. -/
def map (f : F →+* K) {s : K} (hs : s ≠ 0) {A B : F} {A' B' : K}
    (hA : A' = s ^ 2 * f A) (hB : B' = s ^ 4 * f B) : (W A B).Point →+ (W A' B').Point :=
  AddMonoidHom.mk' (mapFun f hs hA hB) (mapFun_add f hs hA hB)

end Verif.Twist
