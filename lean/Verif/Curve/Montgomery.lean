import Mathlib.AlgebraicGeometry.EllipticCurve.Affine.Point
import Mathlib.Tactic.LinearCombination
import Mathlib.Tactic.FieldSimp
import Mathlib.Tactic.Ring

/-!
Montgomery curves `y² = x³ + A·x² + x` over a field, as a Weierstrass curve of Mathlib, and the
x-only formulas for doubling and differential addition.  This file is specification and
mathematics; it models no code.
-/

namespace Verif.Mont

open WeierstrassCurve.Affine

variable {K : Type*} [Field K]

/-- The Montgomery curve `y² = x³ + A x² + x` (RFC 7748, section 4). -/
def curve (A : K) : WeierstrassCurve.Affine K :=
  { a₁ := 0, a₂ := A, a₃ := 0, a₄ := 1, a₆ := 0 }

/-- The points of the Montgomery curve; Mathlib makes them a commutative group. -/
abbrev Pt (A : K) := (curve A).Point

/-- The x-coordinate of a point, with `0` for the point at infinity (Bernstein's `X₀`). -/
def X0 {A : K} : Pt A → K
  | .zero => 0
  | .some x _ _ => x

/-- `(X : Z)` are projective x-coordinates of the point `P`. -/
def Rep {A : K} (P : Pt A) (X Z : K) : Prop :=
  match P with
  | .zero => X ≠ 0 ∧ Z = 0
  | .some x _ _ => Z ≠ 0 ∧ X = x * Z

theorem Rep.x0 {A : K} {P : Pt A} {X Z : K} (h : Rep P X Z) : X * Z⁻¹ = X0 P := by
  cases P with
  | zero => simp [h.2, X0]
  | some x y hn => rw [h.2, X0, mul_assoc, mul_inv_cancel₀ h.1, mul_one]

theorem Rep.scale {A : K} {P : Pt A} {X Z : K} (h : Rep P X Z) {c : K} (hc : c ≠ 0) :
    Rep P (c * X) (c * Z) := by
  cases P with
  | zero => exact ⟨mul_ne_zero hc h.1, by rw [h.2, mul_zero]⟩
  | some x y hn => exact ⟨mul_ne_zero hc h.1, by rw [h.2]; ring⟩

theorem eqn {A x y : K} (h : (curve A).Nonsingular x y) : y ^ 2 = x ^ 3 + A * x ^ 2 + x := by
  have := (WeierstrassCurve.Affine.equation_iff _ _).1 h.1
  simp only [curve] at this
  linear_combination this

theorem nonsing {A x y : K} (h2 : (2 : K) ≠ 0) (hA : A ^ 2 ≠ 4)
    (h : y ^ 2 = x ^ 3 + A * x ^ 2 + x) : (curve A).Nonsingular x y := by
  rw [← WeierstrassCurve.Affine.equation_iff_nonsingular_of_Δ_ne_zero,
    WeierstrassCurve.Affine.equation_iff]
  · simp only [curve]; linear_combination h
  · simp only [curve, WeierstrassCurve.Δ, WeierstrassCurve.b₂, WeierstrassCurve.b₄,
      WeierstrassCurve.b₆, WeierstrassCurve.b₈]
    have : (2 : K) ^ 4 * (A ^ 2 - 4) ≠ 0 :=
      mul_ne_zero (pow_ne_zero _ h2) (sub_ne_zero.2 hA)
    intro hz; apply this; linear_combination hz

theorem negY_eq (A x y : K) : (curve A).negY x y = -y := by
  simp [WeierstrassCurve.Affine.negY, curve]

variable [DecidableEq K]

/-- Doubling: `X₂ = (X² - Z²)²`, `Z₂ = 4XZ(X² + AXZ + Z²)`. -/
theorem rep_dbl {A : K} (h2 : (2 : K) ≠ 0) (hA : A ^ 2 ≠ 4) {P : Pt A} {X Z : K}
    (h : Rep P X Z) :
    Rep (P + P) ((X ^ 2 - Z ^ 2) ^ 2) (4 * X * Z * (X ^ 2 + A * X * Z + Z ^ 2)) := by
  cases P with
  | zero =>
    rw [← Point.zero_def, add_zero]
    refine ⟨?_, ?_⟩
    · rw [h.2]; have := h.1; simpa using this
    · rw [h.2]; ring
  | some x y hn =>
    obtain ⟨hz, rfl⟩ := h
    have he := eqn hn
    by_cases hy : y = (curve A).negY x y
    · rw [Point.add_self_of_Y_eq hy]
      rw [negY_eq] at hy
      have hy0 : y = 0 := by
        have : 2 * y = 0 := by linear_combination hy
        exact (mul_eq_zero.1 this).resolve_left h2
      have hx : x * (x ^ 2 + A * x + 1) = 0 := by rw [hy0] at he; linear_combination -he
      refine ⟨?_, by linear_combination 4 * Z ^ 4 * hx⟩
      have hne : x ^ 2 - 1 ≠ 0 := by
        intro h1
        have hx0 : x ≠ 0 := by rintro rfl; simp at h1
        have h3 := (mul_eq_zero.1 hx).resolve_left hx0
        have h4 : A * x = -2 := by linear_combination h3 - h1
        apply hA
        have h5 : A ^ 2 * x ^ 2 = 4 := by linear_combination (A * x - 2) * h4
        linear_combination h5 - A ^ 2 * h1
      have : ((x * Z) ^ 2 - Z ^ 2) ^ 2 = (x ^ 2 - 1) ^ 2 * Z ^ 4 := by ring
      rw [this]
      exact mul_ne_zero (pow_ne_zero _ hne) (pow_ne_zero _ hz)
    · rw [Point.add_self_of_Y_ne hy]
      have hsl := WeierstrassCurve.Affine.slope_of_Y_ne rfl hy
      rw [negY_eq] at hy
      have hy0 : y ≠ 0 := by rintro rfl; simp at hy
      have hden : 4 * (x * Z) * Z * ((x * Z) ^ 2 + A * (x * Z) * Z + Z ^ 2) = 4 * y ^ 2 * Z ^ 4 := by
        rw [he]; ring
      refine ⟨?_, ?_⟩
      · rw [hden]
        have h4 : (4 : K) ≠ 0 := by
          have : (4 : K) = 2 * 2 := by norm_num
          rw [this]; exact mul_ne_zero h2 h2
        exact mul_ne_zero (mul_ne_zero h4 (pow_ne_zero _ hy0)) (pow_ne_zero _ hz)
      · rw [hden, hsl]
        simp only [WeierstrassCurve.Affine.addX, negY_eq]
        simp only [curve]
        have : y - -y = 2 * y := by ring
        rw [this]
        field_simp
        linear_combination (16 * A + 32 * x) * he

/-- The x-coordinates of `P + Q` and `P - Q` when the x-coordinates of `P` and `Q` differ. -/
theorem x_mul {A x y x' y' : K} (hn : (curve A).Nonsingular x y)
    (hn' : (curve A).Nonsingular x' y') (hx : x ≠ x') :
    X0 (Point.some x y hn + Point.some x' y' hn') * X0 (Point.some x y hn - Point.some x' y' hn') *
      (x - x') ^ 2 = (x * x' - 1) ^ 2 := by
  have he := eqn hn
  have he' := eqn hn'
  rw [sub_eq_add_neg, Point.neg_some, Point.add_of_X_ne hx, Point.add_of_X_ne hx]
  simp only [X0, WeierstrassCurve.Affine.slope_of_X_ne hx, WeierstrassCurve.Affine.addX, negY_eq]
  simp only [curve]
  have hd : x - x' ≠ 0 := sub_ne_zero.2 hx
  field_simp
  linear_combination
    (y ^ 2 + (x ^ 3 + A * x ^ 2 + x) - 2 * y' ^ 2 - 2 * ((A + x + x') * (x - x') ^ 2)) * he +
    (y' ^ 2 + (x' ^ 3 + A * x' ^ 2 + x') - 2 * (x ^ 3 + A * x ^ 2 + x)
      - 2 * ((A + x + x') * (x - x') ^ 2)) * he'

/-- Differential addition: if `P - Q` has x-coordinate `x₁ ≠ 0` then
`X₃ = (X X' - Z Z')²`, `Z₃ = x₁ (X Z' - Z X')²` represent `P + Q`. -/
theorem rep_dadd {A : K} (h2 : (2 : K) ≠ 0) (hA : A ^ 2 ≠ 4) {P Q : Pt A} {X Z X' Z' x₁ : K}
    (h : Rep P X Z) (h' : Rep Q X' Z') (hd : X0 (P - Q) = x₁) (h0 : x₁ ≠ 0) :
    Rep (P + Q) ((X * X' - Z * Z') ^ 2) (x₁ * (X * Z' - Z * X') ^ 2) := by
  cases P with
  | zero =>
    rw [← Point.zero_def] at hd ⊢
    rw [zero_add]
    obtain ⟨hX, rfl⟩ := h
    cases Q with
    | zero => exact absurd (by rw [← hd, ← Point.zero_def, sub_zero]; rfl) h0
    | some x y hn =>
      obtain ⟨hz, rfl⟩ := h'
      have : x₁ = x := by
        rw [← hd, zero_sub, Point.neg_some]; rfl
      subst this
      refine ⟨?_, by ring⟩
      simp only [zero_mul, sub_zero]
      exact mul_ne_zero h0 (pow_ne_zero _ (mul_ne_zero hX hz))
  | some x y hn =>
    obtain ⟨hz, rfl⟩ := h
    cases Q with
    | zero =>
      rw [← Point.zero_def] at hd ⊢
      rw [add_zero]
      obtain ⟨hX, rfl⟩ := h'
      have : x₁ = x := by
        rw [← hd, sub_zero]; rfl
      subst this
      refine ⟨?_, by ring⟩
      simp only [mul_zero, zero_sub, neg_sq]
      exact mul_ne_zero h0 (pow_ne_zero _ (mul_ne_zero hz hX))
    | some x' y' hn' =>
      obtain ⟨hz', rfl⟩ := h'
      by_cases hx : x = x'
      · -- `P = -Q`, since `P ≠ Q`
        subst hx
        rcases Point.X_eq_iff (h₁ := hn) (h₂ := hn') |>.1 rfl with hpq | hpq
        · exact absurd (by rw [← hd, hpq, sub_self]; rfl) h0
        · have hq : Point.some x y' hn' = -Point.some x y hn := by rw [hpq, neg_neg]
          rw [hq, sub_neg_eq_add] at hd
          rw [hq, add_neg_cancel]
          refine ⟨?_, by ring⟩
          have hdb := rep_dbl h2 hA (P := Point.some x y hn) (X := x) (Z := 1)
            ⟨one_ne_zero, by ring⟩
          have hx0 := hdb.x0
          rw [hd] at hx0
          have hne : (x ^ 2 - 1) ^ 2 ≠ 0 := by
            intro h1
            apply h0
            rw [← hx0, one_pow, h1, zero_mul]
          have : (x * Z * (x * Z') - Z * Z') ^ 2 = (x ^ 2 - 1) ^ 2 * (Z * Z') ^ 2 := by ring
          rw [this]
          exact mul_ne_zero hne (pow_ne_zero _ (mul_ne_zero hz hz'))
      · have hm := x_mul hn hn' hx
        rw [hd] at hm
        rw [Point.add_of_X_ne hx] at hm ⊢
        simp only [X0] at hm
        have hne : x - x' ≠ 0 := sub_ne_zero.2 hx
        refine ⟨?_, ?_⟩
        · have : x * Z * Z' - Z * (x' * Z') = (x - x') * (Z * Z') := by ring
          rw [this]
          exact mul_ne_zero h0 (pow_ne_zero _ (mul_ne_zero hne (mul_ne_zero hz hz')))
        · linear_combination -(Z * Z') ^ 2 * hm

end Verif.Mont
