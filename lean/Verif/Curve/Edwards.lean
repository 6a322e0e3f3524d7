import Mathlib.AlgebraicGeometry.EllipticCurve.Affine.Point
import Mathlib.Tactic.LinearCombination
import Mathlib.Tactic.FieldSimp
import Mathlib.Tactic.Ring

/-!
Twisted Edwards curves `a·x² + y² = 1 + d·x²·y²` with `a` a square and `d` not a square, and the
proof that their points form a commutative group under the addition law.  This file is
specification and mathematics; it models no code.

The group axioms are obtained from Mathlib's group of points of the Weierstrass curve
`v² = u³ + 2(a+d)u² + (a-d)²u`, through the map `(u, v) ↦ (2u/v, (u-(a-d))/(u+(a-d)))`.
-/

namespace Verif.Edw

open WeierstrassCurve.Affine

/-- A complete twisted Edwards curve: `a = r²` is a non-zero square, `d` is not a square. -/
structure Curve (K : Type*) [Field K] where
  a : K
  d : K
  r : K
  two : (2 : K) ≠ 0
  r0 : r ≠ 0
  ha : a = r ^ 2
  hd : ∀ t : K, t ^ 2 ≠ d

variable {K : Type*} [Field K]

/-- A point of the curve, in affine coordinates. -/
@[ext] structure Pt (C : Curve K) where
  x : K
  y : K
  on : C.a * x ^ 2 + y ^ 2 = 1 + C.d * x ^ 2 * y ^ 2

variable {C : Curve K}

namespace Curve

theorem d0 (C : Curve K) : C.d ≠ 0 := fun h => C.hd 0 (by rw [h]; ring)

theorem a0 (C : Curve K) : C.a ≠ 0 := by rw [C.ha]; exact pow_ne_zero _ C.r0

theorem ad (C : Curve K) : C.a - C.d ≠ 0 := fun h => C.hd C.r (by rw [← C.ha]; exact sub_eq_zero.1 h)

/-- `a·d` is not a square. -/
theorem had (C : Curve K) (t : K) : t ^ 2 ≠ C.a * C.d := by
  intro h
  apply C.hd (t / C.r)
  have := C.r0
  rw [div_pow, h, C.ha]
  field_simp

end Curve

/-- The denominators of the addition law never vanish. -/
theorem complete (C : Curve K) {x₁ y₁ x₂ y₂ : K}
    (h₁ : C.a * x₁ ^ 2 + y₁ ^ 2 = 1 + C.d * x₁ ^ 2 * y₁ ^ 2)
    (h₂ : C.a * x₂ ^ 2 + y₂ ^ 2 = 1 + C.d * x₂ ^ 2 * y₂ ^ 2) {e : K} (he : e ^ 2 = 1) :
    C.d * x₁ * x₂ * y₁ * y₂ ≠ e := by
  intro hε
  have ha := C.ha
  have e0 : e ≠ 0 := by rintro rfl; simp at he
  have hx : x₁ * y₁ ≠ 0 := by
    intro h; apply e0; rw [← hε]; linear_combination C.d * x₂ * y₂ * h
  have hsq : (C.d * x₁ * x₂ * y₁ * y₂) ^ 2 = 1 := by rw [hε, he]
  have key : ∀ s : K, s ^ 2 = 1 → C.r * x₂ + s * y₂ ≠ 0 → False := by
    intro s hs h0
    apply C.hd ((C.r * x₁ + s * e * y₁) / (x₁ * y₁ * (C.r * x₂ + s * y₂)))
    rw [div_pow, div_eq_iff (pow_ne_zero 2 (mul_ne_zero hx h0))]
    rw [ha] at h₁ h₂
    linear_combination h₁ - C.d * x₁ ^ 2 * y₁ ^ 2 * h₂ - hsq + (y₁ ^ 2 * e ^ 2 - C.d * x₁ ^ 2 * y₁ ^ 2 * y₂ ^ 2) * hs + y₁ ^ 2 * he - 2 * C.r * s * x₁ * y₁ * hε
  have hy2 : y₂ ≠ 0 := by rintro rfl; apply e0; rw [← hε]; ring
  by_cases hp : C.r * x₂ + 1 * y₂ = 0
  · apply key (-1) (by ring)
    intro hm
    apply hy2
    have : 2 * y₂ = 0 := by linear_combination hp - hm
    exact (mul_eq_zero.1 this).resolve_left C.two
  · exact key 1 (by ring) hp

theorem den_pos (C : Curve K) {x₁ y₁ x₂ y₂ : K}
    (h₁ : C.a * x₁ ^ 2 + y₁ ^ 2 = 1 + C.d * x₁ ^ 2 * y₁ ^ 2)
    (h₂ : C.a * x₂ ^ 2 + y₂ ^ 2 = 1 + C.d * x₂ ^ 2 * y₂ ^ 2) :
    1 + C.d * x₁ * x₂ * y₁ * y₂ ≠ 0 := by
  have := complete C h₁ h₂ (e := -1) (by ring)
  intro h; apply this; linear_combination h

theorem den_neg (C : Curve K) {x₁ y₁ x₂ y₂ : K}
    (h₁ : C.a * x₁ ^ 2 + y₁ ^ 2 = 1 + C.d * x₁ ^ 2 * y₁ ^ 2)
    (h₂ : C.a * x₂ ^ 2 + y₂ ^ 2 = 1 + C.d * x₂ ^ 2 * y₂ ^ 2) :
    1 - C.d * x₁ * x₂ * y₁ * y₂ ≠ 0 := by
  have := complete C h₁ h₂ (e := 1) (by ring)
  intro h; apply this; linear_combination -h

namespace Pt

/-- The neutral element `(0, 1)`. -/
instance : Zero (Pt C) := ⟨⟨0, 1, by ring⟩⟩

/-- The opposite `(-x, y)`. -/
instance : Neg (Pt C) := ⟨fun P => ⟨-P.x, P.y, by rw [neg_sq]; exact P.on⟩⟩

theorem add_on {x₁ y₁ x₂ y₂ : K}
    (h₁ : C.a * x₁ ^ 2 + y₁ ^ 2 = 1 + C.d * x₁ ^ 2 * y₁ ^ 2)
    (h₂ : C.a * x₂ ^ 2 + y₂ ^ 2 = 1 + C.d * x₂ ^ 2 * y₂ ^ 2) :
    C.a * ((x₁ * y₂ + y₁ * x₂) / (1 + C.d * x₁ * x₂ * y₁ * y₂)) ^ 2 +
      ((y₁ * y₂ - C.a * x₁ * x₂) / (1 - C.d * x₁ * x₂ * y₁ * y₂)) ^ 2 =
    1 + C.d * ((x₁ * y₂ + y₁ * x₂) / (1 + C.d * x₁ * x₂ * y₁ * y₂)) ^ 2 *
      ((y₁ * y₂ - C.a * x₁ * x₂) / (1 - C.d * x₁ * x₂ * y₁ * y₂)) ^ 2 := by
  have p := den_pos C h₁ h₂
  have n := den_neg C h₁ h₂
  rw [div_pow, div_pow, ← sub_eq_zero]
  have hp : (1 + C.d * x₁ * x₂ * y₁ * y₂) ^ 2 ≠ 0 := pow_ne_zero 2 p
  have hn : (1 - C.d * x₁ * x₂ * y₁ * y₂) ^ 2 ≠ 0 := pow_ne_zero 2 n
  have g : C.a * (x₁ * y₂ + y₁ * x₂) ^ 2 * (1 - C.d * x₁ * x₂ * y₁ * y₂) ^ 2 +
      (y₁ * y₂ - C.a * x₁ * x₂) ^ 2 * (1 + C.d * x₁ * x₂ * y₁ * y₂) ^ 2 -
      (1 + C.d * x₁ * x₂ * y₁ * y₂) ^ 2 * (1 - C.d * x₁ * x₂ * y₁ * y₂) ^ 2 -
      C.d * (x₁ * y₂ + y₁ * x₂) ^ 2 * (y₁ * y₂ - C.a * x₁ * x₂) ^ 2 = 0 := by
    linear_combination (-C.a^2*C.d*x₁^2*x₂^4*y₂^2 - 2*C.a^2*x₂^4*y₂^2 + C.a^2*x₂^4 + C.a*C.d^2*x₁^2*x₂^4*y₂^4 - C.a*C.d*x₁^2*x₂^2*y₂^4 -
      C.a*C.d*y₁^2*x₂^4*y₂^2 + 2*C.a*C.d*x₂^4*y₂^4 - 2*C.a*x₂^2*y₂^4 + 4*C.a*x₂^2*y₂^2 +
      C.d^3*x₁^2*y₁^2*x₂^4*y₂^4 + C.d^2*y₁^2*x₂^4*y₂^4 - C.d^2*x₂^4*y₂^4 - C.d*y₁^2*x₂^2*y₂^4 -
      2*C.d*x₂^2*y₂^2 + y₂^4) * h₁ + (C.a^2*C.d*x₁^4*x₂^2*y₂^2 + 2*C.a^2*x₁^2*x₂^2*y₂^2 - C.a^2*x₁^2*x₂^2 - 2*C.a*C.d*x₁^2*x₂^2*y₂^2 - C.a*x₁^2*y₂^2 +
      2*C.a*y₁^2*x₂^2*y₂^2 - C.a*y₁^2*x₂^2 - 2*C.a*x₂^2*y₂^2 + C.a*x₂^2 + C.d*y₁^4*x₂^2*y₂^2 -
      2*C.d*y₁^2*x₂^2*y₂^2 + C.d*x₂^2*y₂^2 - y₁^2*y₂^2 + y₂^2 + 1) * h₂
  generalize (1 + C.d * x₁ * x₂ * y₁ * y₂) ^ 2 = p' at *
  generalize (1 - C.d * x₁ * x₂ * y₁ * y₂) ^ 2 = n' at *
  field_simp
  linear_combination g

/-- The addition law. -/
instance : Add (Pt C) := ⟨fun P Q =>
  ⟨(P.x * Q.y + P.y * Q.x) / (1 + C.d * P.x * Q.x * P.y * Q.y),
    (P.y * Q.y - C.a * P.x * Q.x) / (1 - C.d * P.x * Q.x * P.y * Q.y), add_on P.on Q.on⟩⟩

theorem add_x (P Q : Pt C) :
    (P + Q).x = (P.x * Q.y + P.y * Q.x) / (1 + C.d * P.x * Q.x * P.y * Q.y) := rfl

theorem add_y (P Q : Pt C) :
    (P + Q).y = (P.y * Q.y - C.a * P.x * Q.x) / (1 - C.d * P.x * Q.x * P.y * Q.y) := rfl

@[simp] theorem zero_x : (0 : Pt C).x = 0 := rfl
@[simp] theorem zero_y : (0 : Pt C).y = 1 := rfl
@[simp] theorem neg_x (P : Pt C) : (-P).x = -P.x := rfl
@[simp] theorem neg_y (P : Pt C) : (-P).y = P.y := rfl

theorem zero_add' (P : Pt C) : 0 + P = P := by
  ext <;> simp [add_x, add_y]

theorem add_comm' (P Q : Pt C) : P + Q = Q + P := by
  ext
  · rw [add_x, add_x]; congr 1 <;> ring
  · rw [add_y, add_y]; congr 1 <;> ring

theorem neg_add' (P : Pt C) : -P + P = 0 := by
  have n := den_neg C (-P).on P.on
  ext
  · rw [add_x, neg_x, neg_y]
    have : -P.x * P.y + P.y * P.x = 0 := by ring
    rw [this, zero_div, zero_x]
  · rw [add_y, div_eq_iff n]
    simp only [neg_x, neg_y, zero_y]
    linear_combination P.on

/-- The point of order two `(0, -1)`. -/
def T : Pt C := ⟨0, -1, by ring⟩

theorem T_add (P : Pt C) : T + P = ⟨-P.x, -P.y, by rw [neg_sq, neg_sq]; exact P.on⟩ := by
  ext
  · simp [add_x, T]
  · simp [add_y, T]

theorem add_T_sub (P : Pt C) : P + (T + -P) = T := by
  have n := den_neg C P.on (T + -P).on
  rw [T_add] at n ⊢
  ext
  · rw [add_x]
    have : P.x * (-(-P).y) + P.y * (-(-P).x) = 0 := by simp only [neg_x, neg_y]; ring
    rw [this, zero_div]; rfl
  · rw [add_y, div_eq_iff n]
    simp only [neg_x, neg_y, T]
    linear_combination -P.on

end Pt

/-- A Weierstrass form `v² = u³ + A·u² + e²·u` of the curve; the map is
`x = c·u/v`, `y = (u-e)/(u+e)`. -/
structure Chart (C : Curve K) where
  A : K
  e : K
  c : K
  c0 : c ≠ 0
  ha : C.a * c ^ 2 = A + 2 * e
  hd : C.d * c ^ 2 = A - 2 * e

/-- The chart that exists for every curve. -/
def Curve.chart (C : Curve K) : Chart C :=
  ⟨2 * (C.a + C.d), C.a - C.d, 2, C.two, by ring, by ring⟩

namespace Chart

variable (h : Chart C)

/-- The Weierstrass curve of the chart. -/
def W : WeierstrassCurve.Affine K := { a₁ := 0, a₂ := h.A, a₃ := 0, a₄ := h.e ^ 2, a₆ := 0 }

theorem e0 : h.e ≠ 0 := by
  intro he
  have h1 := h.ha
  have h2 := h.hd
  rw [he] at h1 h2
  have : (C.a - C.d) * h.c ^ 2 = 0 := by linear_combination h1 - h2
  exact (mul_eq_zero.1 this).elim C.ad (pow_ne_zero 2 h.c0)

theorem negY_eq (u v : K) : h.W.negY u v = -v := by
  simp [WeierstrassCurve.Affine.negY, W]

theorem eqn {u v : K} (hn : h.W.Equation u v) : v ^ 2 = u ^ 3 + h.A * u ^ 2 + h.e ^ 2 * u := by
  have := (WeierstrassCurve.Affine.equation_iff _ _).1 hn
  simp only [W] at this
  linear_combination this

theorem nonsing {u v : K} (hn : v ^ 2 = u ^ 3 + h.A * u ^ 2 + h.e ^ 2 * u) :
    h.W.Nonsingular u v := by
  rw [← WeierstrassCurve.Affine.equation_iff_nonsingular_of_Δ_ne_zero,
    WeierstrassCurve.Affine.equation_iff]
  · simp only [W]; linear_combination hn
  · simp only [W, WeierstrassCurve.Δ, WeierstrassCurve.b₂, WeierstrassCurve.b₄,
      WeierstrassCurve.b₆, WeierstrassCurve.b₈]
    have : (2 : K) ^ 4 * h.e ^ 4 * ((C.a * h.c ^ 2) * (C.d * h.c ^ 2)) ≠ 0 :=
      mul_ne_zero (mul_ne_zero (pow_ne_zero _ C.two) (pow_ne_zero _ h.e0))
        (mul_ne_zero (mul_ne_zero C.a0 (pow_ne_zero 2 h.c0)) (mul_ne_zero C.d0 (pow_ne_zero 2 h.c0)))
    rw [h.ha, h.hd] at this
    intro hz; apply this; linear_combination hz

theorem v_ne {u v : K} (hn : v ^ 2 = u ^ 3 + h.A * u ^ 2 + h.e ^ 2 * u) (hu : u ≠ 0) : v ≠ 0 := by
  rintro rfl
  have h1 : u ^ 2 + h.A * u + h.e ^ 2 = 0 := by
    have : u * (u ^ 2 + h.A * u + h.e ^ 2) = 0 := by linear_combination -hn
    exact (mul_eq_zero.1 this).resolve_left hu
  apply C.had ((2 * u + h.A) / h.c ^ 2)
  have hc := h.c0
  rw [div_pow, div_eq_iff (by positivity)]
  linear_combination 4 * h1 - (C.d * h.c ^ 2) * h.ha - (h.A + 2 * h.e) * h.hd

theorem ue_ne {u v : K} (hn : v ^ 2 = u ^ 3 + h.A * u ^ 2 + h.e ^ 2 * u) : u + h.e ≠ 0 := by
  intro hu
  have hu' : u = -h.e := by linear_combination hu
  subst hu'
  have hc := h.c0
  have he := h.e0
  apply C.hd (v / (h.e * h.c))
  rw [div_pow, div_eq_iff (pow_ne_zero 2 (mul_ne_zero he hc))]
  linear_combination hn - h.e ^ 2 * h.hd

theorem toE_on {u v : K} (hn : v ^ 2 = u ^ 3 + h.A * u ^ 2 + h.e ^ 2 * u) :
    C.a * (h.c * u / v) ^ 2 + ((u - h.e) / (u + h.e)) ^ 2 =
      1 + C.d * (h.c * u / v) ^ 2 * ((u - h.e) / (u + h.e)) ^ 2 := by
  by_cases hu : u = 0
  · subst hu
    have he := h.e0
    simp [neg_div_self he]
  · have hv := h.v_ne hn hu
    have hue := h.ue_ne hn
    field_simp
    linear_combination (u^2 * (u + h.e) ^ 2) * h.ha - (u^2 * (u - h.e) ^ 2) * h.hd
      - 4 * h.e * u * hn

/-- The map from the Weierstrass curve to the Edwards curve. -/
def toE : h.W.Point → Pt C
  | .zero => 0
  | .some u v hn => ⟨h.c * u / v, (u - h.e) / (u + h.e), h.toE_on (h.eqn hn.1)⟩

theorem toE_zero : h.toE 0 = 0 := rfl

theorem toE_neg (P : h.W.Point) : h.toE (-P) = -h.toE P := by
  cases P with
  | zero => simp [← Point.zero_def, toE_zero]; ext <;> simp
  | some u v hn =>
    rw [Point.neg_some]
    ext
    · simp only [toE, Pt.neg_x, negY_eq, div_neg]
    · simp only [toE, Pt.neg_y]

/-- `x` of a sum, in terms of the line `v = L·u + m` through the three points. -/
theorem chord_x {e m L u₁ u₂ u₃ A : K} (hA : A = L ^ 2 - u₁ - u₂ - u₃)
    (hB : e ^ 2 = u₁ * u₂ + u₁ * u₃ + u₂ * u₃ + 2 * L * m) (hm : m ^ 2 = u₁ * u₂ * u₃) :
    u₃ * ((L * u₁ + m) * (L * u₂ + m) * (u₁ + e) * (u₂ + e) +
        (A - 2 * e) * u₁ * u₂ * (u₁ - e) * (u₂ - e)) =
      -(L * u₃ + m) * (u₁ * (L * u₂ + m) * (u₁ + e) * (u₂ - e) +
        u₂ * (L * u₁ + m) * (u₁ - e) * (u₂ + e)) := by
  subst hA
  linear_combination (-2*e*u₁*u₂*u₃ - m^2*u₁ - m^2*u₂ + m^2*u₃ - 2*m*L*u₁*u₂ + u₁^2*u₂*u₃ +
      u₁*u₂^2*u₃ - u₁*u₂*u₃^2) * hB +
    (-e*u₁^2 + 2*e*u₁*u₂ + e*u₁*u₃ - e*u₂^2 + e*u₂*u₃ - 2*m*L*u₁ - 2*m*L*u₂ + 2*m*L*u₃ -
      4*L^2*u₁*u₂ - u₁^2*u₃ + u₁*u₃^2 - u₂^2*u₃ + u₂*u₃^2) * hm

/-- `y` of a sum. -/
theorem chord_y {e m L u₁ u₂ u₃ A : K} (hA : A = L ^ 2 - u₁ - u₂ - u₃)
    (hB : e ^ 2 = u₁ * u₂ + u₁ * u₃ + u₂ * u₃ + 2 * L * m) (hm : m ^ 2 = u₁ * u₂ * u₃) :
    (u₃ - e) * ((L * u₁ + m) * (L * u₂ + m) * (u₁ + e) * (u₂ + e) -
        (A - 2 * e) * u₁ * u₂ * (u₁ - e) * (u₂ - e)) =
      (u₃ + e) * ((L * u₁ + m) * (L * u₂ + m) * (u₁ - e) * (u₂ - e) -
        (A + 2 * e) * u₁ * u₂ * (u₁ + e) * (u₂ + e)) := by
  subst hA
  linear_combination (-2*e*m^2 - 2*e*m*L*u₁ - 2*e*m*L*u₂ + 2*e*u₁^2*u₂ + 2*e*u₁*u₂^2 +
      2*e*u₁*u₂*u₃) * hB + (-4*e*m*L - 4*e*L^2*u₁ - 4*e*L^2*u₂ - 4*e*u₁*u₂) * hm

variable [DecidableEq K]

/-- The line through two points meets the curve in a third one. -/
theorem line {u₁ v₁ u₂ v₂ : K} (h₁ : h.W.Equation u₁ v₁) (h₂ : h.W.Equation u₂ v₂)
    (hxy : ¬(u₁ = u₂ ∧ v₁ = h.W.negY u₂ v₂)) :
    ∃ L m u₃, h.W.addX u₁ u₂ (h.W.slope u₁ u₂ v₁ v₂) = u₃ ∧
      h.W.addY u₁ u₂ v₁ (h.W.slope u₁ u₂ v₁ v₂) = -(L * u₃ + m) ∧
      v₁ = L * u₁ + m ∧ v₂ = L * u₂ + m ∧ h.A = L ^ 2 - u₁ - u₂ - u₃ ∧
      h.e ^ 2 = u₁ * u₂ + u₁ * u₃ + u₂ * u₃ + 2 * L * m ∧ m ^ 2 = u₁ * u₂ * u₃ := by
  have hp := addPolynomial_slope h₁ h₂ hxy
  have hv2 : v₂ = h.W.slope u₁ u₂ v₁ v₂ * u₂ + (v₁ - h.W.slope u₁ u₂ v₁ v₂ * u₁) := by
    by_cases hx : u₁ = u₂
    · have := Y_eq_of_Y_ne h₁ h₂ hx (fun hy => hxy ⟨hx, hy⟩)
      rw [hx, this]; ring
    · rw [slope_of_X_ne hx]
      have := sub_ne_zero.2 hx
      field_simp
      ring
  generalize h.W.slope u₁ u₂ v₁ v₂ = L at hp hv2 ⊢
  have hu3 : h.W.addX u₁ u₂ L = L ^ 2 - h.A - u₁ - u₂ := by
    simp [WeierstrassCurve.Affine.addX, W]
  have ev : ∀ t : K, (L * (t - u₁) + v₁) ^ 2 - (t ^ 3 + h.A * t ^ 2 + h.e ^ 2 * t) =
      -((t - u₁) * (t - u₂) * (t - h.W.addX u₁ u₂ L)) := by
    intro t
    have := congrArg (Polynomial.eval t) hp
    rw [addPolynomial_eq] at this
    simp only [Cubic.toPoly, W, Polynomial.eval_neg, Polynomial.eval_add, Polynomial.eval_mul,
      Polynomial.eval_C, Polynomial.eval_pow, Polynomial.eval_X, Polynomial.eval_sub] at this
    simp only [W]
    linear_combination this
  refine ⟨L, v₁ - L * u₁, _, rfl, ?_, by ring, hv2, by rw [hu3]; ring, ?_, ?_⟩
  · simp only [WeierstrassCurve.Affine.addY, WeierstrassCurve.Affine.negAddY, negY_eq]
    ring
  · have e0 := ev 0
    have e1 := ev 1
    rw [hu3] at e0 e1 ⊢
    linear_combination e0 - e1
  · have e0 := ev 0
    linear_combination e0

/-- The point `(0, 0)`. -/
def T : h.W.Point := .some 0 0 (h.nonsing (by ring))

omit [DecidableEq K] in
theorem toE_T : h.toE h.T = Pt.T := by
  have := h.e0
  ext
  · simp [T, toE, Pt.T]
  · simp [T, toE, Pt.T, neg_div_self this]

theorem toE_T_add (P : h.W.Point) : h.toE (h.T + P) = Pt.T + h.toE P := by
  cases P with
  | zero => rw [← Point.zero_def, add_zero, toE_zero, Pt.add_comm', Pt.zero_add', toE_T]
  | some u v hn =>
    have he := h.eqn hn.1
    by_cases hu : u = 0
    · subst hu
      have hv : v = 0 := by
        have : v ^ 2 = 0 := by rw [he]; ring
        exact pow_eq_zero_iff (two_ne_zero) |>.1 this
      subst hv
      have : h.T + .some 0 0 hn = 0 := Point.add_self_of_Y_eq (by rw [negY_eq, neg_zero])
      rw [this, toE_zero]
      have : h.toE (.some 0 0 hn) = Pt.T := h.toE_T
      rw [this, Pt.T_add]
      ext <;> simp [Pt.T]
    · have hxy : ¬((0 : K) = u ∧ (0 : K) = h.W.negY u v) := fun hh => hu hh.1.symm
      obtain ⟨L, m, u₃, e1, e2, e3, e4, e5, e6, e7⟩ :=
        h.line (h.nonsing (u := 0) (v := 0) (by ring)).1 hn.1 hxy
      have hm : m = 0 := by linear_combination -e3
      subst hm
      have hv := h.v_ne he hu
      have hue := h.ue_ne he
      have hee := h.e0
      have hu3 : u₃ = h.e ^ 2 / u := by
        field_simp
        linear_combination -e6
      have hL : L = v / u := by
        field_simp
        linear_combination -e4
      rw [T, Point.add_some hxy]
      rw [Pt.T_add]
      ext
      · simp only [toE, e1, e2]
        rw [hu3, hL]
        field_simp
        ring
      · simp only [toE, e1]
        rw [hu3]
        have : h.e + u ≠ 0 := by rwa [add_comm]
        have h3 : h.e ^ 2 / u + h.e ≠ 0 := by
          have : h.e ^ 2 / u + h.e = h.e * (h.e + u) / u := by field_simp
          rw [this]
          positivity
        field_simp
        ring

theorem toE_add (P Q : h.W.Point) : h.toE (P + Q) = h.toE P + h.toE Q := by
  cases P with
  | zero => rw [← Point.zero_def, zero_add, toE_zero, Pt.zero_add']
  | some u₁ v₁ h₁ =>
  cases Q with
  | zero => rw [← Point.zero_def, add_zero, toE_zero, Pt.add_comm', Pt.zero_add']
  | some u₂ v₂ h₂ =>
  have q₁ := h.eqn h₁.1
  have q₂ := h.eqn h₂.1
  by_cases hu₁ : u₁ = 0
  · subst hu₁
    have hv : v₁ = 0 := by
      have : v₁ ^ 2 = 0 := by rw [q₁]; ring
      exact pow_eq_zero_iff (two_ne_zero) |>.1 this
    subst hv
    have := h.toE_T_add (.some u₂ v₂ h₂)
    rw [← toE_T] at this
    exact this
  by_cases hu₂ : u₂ = 0
  · subst hu₂
    have hv : v₂ = 0 := by
      have : v₂ ^ 2 = 0 := by rw [q₂]; ring
      exact pow_eq_zero_iff (two_ne_zero) |>.1 this
    subst hv
    have := h.toE_T_add (.some u₁ v₁ h₁)
    rw [← toE_T, add_comm, Pt.add_comm'] at this
    exact this
  by_cases hxy : u₁ = u₂ ∧ v₁ = h.W.negY u₂ v₂
  · have : (.some u₁ v₁ h₁ : h.W.Point) = -.some u₂ v₂ h₂ := by
      rw [Point.neg_some]; obtain ⟨rfl, rfl⟩ := hxy; rfl
    rw [this, neg_add_cancel, toE_zero, toE_neg, Pt.neg_add']
  by_cases hs : (.some u₁ v₁ h₁ + .some u₂ v₂ h₂ : h.W.Point) = h.T
  · have : (.some u₂ v₂ h₂ : h.W.Point) = h.T + -.some u₁ v₁ h₁ := by rw [← hs]; abel
    rw [hs, this, toE_T_add, toE_T, toE_neg, Pt.add_T_sub]
  obtain ⟨L, m, u₃, e1, e2, rfl, rfl, e5, e6, e7⟩ := h.line h₁.1 h₂.1 hxy
  have hadd := Point.add_some hxy (h₁ := h₁) (h₂ := h₂)
  have h₃ := nonsingular_add h₁ h₂ hxy
  have q₃ := h.eqn h₃.1
  rw [e1, e2] at q₃
  have hu₃ : u₃ ≠ 0 := by
    rintro rfl
    apply hs
    rw [hadd]
    have hv : -(L * 0 + m) = 0 := by
      have : (-(L * 0 + m)) ^ 2 = 0 := by rw [q₃]; ring
      exact pow_eq_zero_iff (two_ne_zero) |>.1 this
    simp only [T, Point.some.injEq]
    exact ⟨e1, e2.trans hv⟩
  have v1 := h.v_ne q₁ hu₁
  have v2 := h.v_ne q₂ hu₂
  have v3 := h.v_ne q₃ hu₃
  have w1 := h.ue_ne q₁
  have w2 := h.ue_ne q₂
  have w3 := h.ue_ne q₃
  have gx := chord_x e5 e6 e7
  have gy := chord_y e5 e6 e7
  rw [← h.ha, ← h.hd] at gy
  rw [← h.hd] at gx
  have hp := den_pos C (h.toE_on q₁) (h.toE_on q₂)
  have hn := den_neg C (h.toE_on q₁) (h.toE_on q₂)
  rw [hadd]
  ext
  · rw [Pt.add_x]
    simp only [toE, e1, e2]
    rw [eq_div_iff hp]
    generalize L * u₁ + m = v₁ at *
    generalize L * u₂ + m = v₂ at *
    generalize -(L * u₃ + m) = v₃ at *
    field_simp
    linear_combination h.c * gx
  · rw [Pt.add_y]
    simp only [toE, e1]
    rw [eq_div_iff hn]
    generalize L * u₁ + m = v₁ at *
    generalize L * u₂ + m = v₂ at *
    field_simp
    linear_combination gy

theorem toE_surj (P : Pt C) : ∃ Q, h.toE Q = P := by
  by_cases hx : P.x = 0
  · have hy : (P.y - 1) * (P.y + 1) = 0 := by
      have := P.on; rw [hx] at this; linear_combination this
    rcases mul_eq_zero.1 hy with hy | hy
    · exact ⟨0, by ext <;> simp [toE_zero, hx]; linear_combination -hy⟩
    · exact ⟨h.T, by rw [toE_T]; ext <;> simp [Pt.T, hx]; linear_combination -hy⟩
  · have hon := P.on
    have hy : 1 - P.y ≠ 0 := by
      intro hy
      have hy : P.y = 1 := by linear_combination -hy
      rw [hy] at hon
      have : (C.a - C.d) * P.x ^ 2 = 0 := by linear_combination hon
      exact (mul_eq_zero.1 this).elim C.ad (pow_ne_zero 2 hx)
    have hy' : 1 + P.y ≠ 0 := by
      intro hy
      have hy : P.y = -1 := by linear_combination hy
      rw [hy] at hon
      have : (C.a - C.d) * P.x ^ 2 = 0 := by linear_combination hon
      exact (mul_eq_zero.1 this).elim C.ad (pow_ne_zero 2 hx)
    have he := h.e0
    have hc := h.c0
    have h2 := C.two
    have hn : (h.c * (h.e * (1 + P.y) / (1 - P.y)) / P.x) ^ 2 = (h.e * (1 + P.y) / (1 - P.y)) ^ 3 +
        h.A * (h.e * (1 + P.y) / (1 - P.y)) ^ 2 + h.e ^ 2 * (h.e * (1 + P.y) / (1 - P.y)) := by
      have hA : 2 * h.A = C.a * h.c ^ 2 + C.d * h.c ^ 2 := by linear_combination -h.ha - h.hd
      have h4 : 4 * h.e = C.a * h.c ^ 2 - C.d * h.c ^ 2 := by linear_combination h.hd - h.ha
      field_simp
      apply mul_left_cancel₀ h2
      linear_combination -P.x ^ 2 * (1 + P.y ^ 2) * h4 - P.x ^ 2 * (1 - P.y ^ 2) * hA -
        2 * h.c ^ 2 * hon
    refine ⟨.some _ _ (h.nonsing hn), ?_⟩
    ext
    · simp only [toE]
      field_simp
    · simp only [toE]
      have : h.e * (1 + P.y) / (1 - P.y) + h.e = 2 * h.e / (1 - P.y) := by field_simp; ring
      rw [this]
      field_simp
      ring

theorem toE_inj {P Q : h.W.Point} (hPQ : h.toE P = h.toE Q) : P = Q := by
  have key : ∀ R : h.W.Point, h.toE R = 0 → R = 0 := by
    intro R hR
    cases R with
    | zero => rfl
    | some u v hn =>
      exfalso
      have := congrArg Pt.y hR
      simp only [toE, Pt.zero_y] at this
      rw [div_eq_one_iff_eq (h.ue_ne (h.eqn hn.1))] at this
      have : 2 * h.e = 0 := by linear_combination -this
      exact mul_ne_zero C.two h.e0 this
  have := key (P + -Q) (by rw [toE_add, toE_neg, hPQ, Pt.add_comm', Pt.neg_add'])
  rwa [← sub_eq_add_neg, sub_eq_zero] at this

end Chart

theorem Pt.add_assoc' (P Q R : Pt C) : P + Q + R = P + (Q + R) := by
  classical
  obtain ⟨P, rfl⟩ := C.chart.toE_surj P
  obtain ⟨Q, rfl⟩ := C.chart.toE_surj Q
  obtain ⟨R, rfl⟩ := C.chart.toE_surj R
  rw [← Chart.toE_add, ← Chart.toE_add, ← Chart.toE_add, ← Chart.toE_add, add_assoc]

/-- The points of a complete twisted Edwards curve form a commutative group. -/
instance : AddCommGroup (Pt C) where
  add_assoc := Pt.add_assoc'
  zero_add := Pt.zero_add'
  add_zero P := by rw [Pt.add_comm', Pt.zero_add']
  add_comm := Pt.add_comm'
  neg_add_cancel := Pt.neg_add'
  nsmul := nsmulRec
  zsmul := zsmulRec

/-- The chart as an isomorphism of groups. -/
noncomputable def Chart.equiv (h : Chart C) [DecidableEq K] : h.W.Point ≃+ Pt C :=
  AddEquiv.ofBijective (AddMonoidHom.mk' h.toE h.toE_add)
    ⟨fun _ _ hh => h.toE_inj hh, h.toE_surj⟩

end Verif.Edw
