import Verif.Curve.Extended

/-!
The 4-isogeny from a complete Edwards curve `E : x² + y² = 1 + d·x²·y²` to the twisted Edwards
curve `E' : -x² + y² = 1 + (d-1)·x²·y²`, and its dual (Hamburg, "Ed448-Goldilocks", section 3).
This file is specification and mathematics; it models no code.

The points of `E'` that arise are the images of the points of `E`: on these the addition law of
`E'` has no exception when neither `d` nor `1 - d` is a square, although `d - 1` is one.
-/

namespace Verif.Edw

variable {K : Type*} [Field K] {C : Curve K}

/-- The curves to which the construction applies. -/
structure Iso (C : Curve K) : Prop where
  a1 : C.a = 1
  h1d : ∀ t : K, t ^ 2 ≠ 1 - C.d

namespace Pt

/-- `xy`. -/
def s (P : Pt C) : K := P.x * P.y

/-- `y² - x²`. -/
def t (P : Pt C) : K := P.y ^ 2 - P.x ^ 2

/-- The x-coordinate of the image of `P` on `E'`. -/
def phiX (P : Pt C) : K := 2 * P.s / P.t

/-- The y-coordinate of the image of `P` on `E'`. -/
def phiY (P : Pt C) : K := (1 + C.d * P.s ^ 2) / (1 - C.d * P.s ^ 2)

theorem s_neg (P : Pt C) : (-P).s = -P.s := by simp [s]
theorem t_neg (P : Pt C) : (-P).t = P.t := by simp [t]
theorem phiX_neg (P : Pt C) : (-P).phiX = -P.phiX := by
  simp only [phiX, s_neg, t_neg]; ring
theorem phiY_neg (P : Pt C) : (-P).phiY = P.phiY := by
  simp only [phiY, s_neg]; ring
theorem phiX_zero : (0 : Pt C).phiX = 0 := by simp [phiX, s]
theorem phiY_zero : (0 : Pt C).phiY = 1 := by simp [phiY, s]

theorem den_s (P : Pt C) : 1 - C.d * P.s ^ 2 ≠ 0 := by
  have := den_neg C P.on P.on
  intro h; apply this; unfold s at h; linear_combination h

theorem den_s' (P : Pt C) : 1 + C.d * P.s ^ 2 ≠ 0 := by
  have := den_pos C P.on P.on
  intro h; apply this; unfold s at h; linear_combination h

theorem rel (hI : Iso C) (P : Pt C) : P.t ^ 2 = (1 + C.d * P.s ^ 2) ^ 2 - 4 * P.s ^ 2 := by
  have on := P.on
  rw [hI.a1] at on
  unfold s t
  have e : P.x ^ 2 + P.y ^ 2 = 1 + C.d * (P.x * P.y) ^ 2 := by linear_combination on
  rw [← e]; ring

theorem den_t (hI : Iso C) (P : Pt C) : P.t ≠ 0 := by
  intro h
  have r := P.rel hI
  rw [h] at r
  have s0 : P.s ≠ 0 := by
    intro h0; rw [h0] at r; simp at r
  have f : (1 + C.d * P.s ^ 2 - 2 * P.s) * (1 + C.d * P.s ^ 2 + 2 * P.s) = 0 := by
    linear_combination -r
  rcases mul_eq_zero.1 f with g | g
  · apply hI.h1d (1 / P.s - 1)
    field_simp
    linear_combination g
  · apply hI.h1d (1 / P.s + 1)
    field_simp
    linear_combination g

/-- The image satisfies the equation of `E'`. -/
theorem phi_on (hI : Iso C) (P : Pt C) :
    -P.phiX ^ 2 + P.phiY ^ 2 = 1 + (C.d - 1) * P.phiX ^ 2 * P.phiY ^ 2 := by
  have h1 := P.den_t hI
  have h2 := P.den_s
  have r := P.rel hI
  unfold phiX phiY
  obtain ⟨m, hm⟩ : ∃ m, m = 1 - C.d * P.s ^ 2 := ⟨_, rfl⟩
  rw [← hm] at h2 ⊢
  field_simp
  rw [hm]
  linear_combination (4 * C.d * P.s ^ 2) * r

theorem den_e (P Q : Pt C) : 1 - (C.d * P.s * Q.s) ^ 2 ≠ 0 := by
  have h1 := den_pos C P.on Q.on
  have h2 := den_neg C P.on Q.on
  have : 1 - (C.d * P.s * Q.s) ^ 2 =
      (1 + C.d * P.x * Q.x * P.y * Q.y) * (1 - C.d * P.x * Q.x * P.y * Q.y) := by
    unfold s; ring
  rw [this]; exact mul_ne_zero h1 h2

theorem s_add (hI : Iso C) (P Q : Pt C) :
    (P + Q).s * (1 - (C.d * P.s * Q.s) ^ 2) = P.s * Q.t + Q.s * P.t := by
  have h1 := den_pos C P.on Q.on
  have h2 := den_neg C P.on Q.on
  have e : 1 - (C.d * P.s * Q.s) ^ 2 =
      (1 + C.d * P.x * Q.x * P.y * Q.y) * (1 - C.d * P.x * Q.x * P.y * Q.y) := by
    unfold s; ring
  rw [e]
  simp only [s, t]
  rw [Pt.add_x, Pt.add_y, hI.a1]
  obtain ⟨m, hm⟩ : ∃ m, m = 1 - C.d * P.x * Q.x * P.y * Q.y := ⟨_, rfl⟩
  obtain ⟨n, hn⟩ : ∃ n, n = 1 + C.d * P.x * Q.x * P.y * Q.y := ⟨_, rfl⟩
  rw [← hm] at h2 ⊢
  rw [← hn] at h1 ⊢
  field_simp
  try rw [hm, hn]
  ring

theorem t_add (hI : Iso C) (P Q : Pt C) :
    (P + Q).t * (1 - (C.d * P.s * Q.s) ^ 2) ^ 2 =
      (1 + (C.d * P.s * Q.s) ^ 2) * (P.t * Q.t - 4 * P.s * Q.s)
        + 2 * (C.d * P.s * Q.s) * (1 + C.d * P.s ^ 2) * (1 + C.d * Q.s ^ 2) := by
  have h1 := den_pos C P.on Q.on
  have h2 := den_neg C P.on Q.on
  have on1 := P.on
  have on2 := Q.on
  rw [hI.a1] at on1 on2
  have e : 1 - (C.d * P.s * Q.s) ^ 2 =
      (1 + C.d * P.x * Q.x * P.y * Q.y) * (1 - C.d * P.x * Q.x * P.y * Q.y) := by
    unfold s; ring
  have e1 : 1 + C.d * P.s ^ 2 = P.x ^ 2 + P.y ^ 2 := by unfold s; linear_combination -on1
  have e2 : 1 + C.d * Q.s ^ 2 = Q.x ^ 2 + Q.y ^ 2 := by unfold s; linear_combination -on2
  rw [e, e1, e2]
  simp only [s, t]
  rw [Pt.add_x, Pt.add_y, hI.a1]
  obtain ⟨m, hm⟩ : ∃ m, m = 1 - C.d * P.x * Q.x * P.y * Q.y := ⟨_, rfl⟩
  obtain ⟨n, hn⟩ : ∃ n, n = 1 + C.d * P.x * Q.x * P.y * Q.y := ⟨_, rfl⟩
  rw [← hm] at h2 ⊢
  rw [← hn] at h1 ⊢
  field_simp
  try rw [hm, hn]
  ring

section poly
variable {d s₁ t₁ s₂ t₂ : K} (h₁ : t₁ ^ 2 = (1 + d * s₁ ^ 2) ^ 2 - 4 * s₁ ^ 2)
  (h₂ : t₂ ^ 2 = (1 + d * s₂ ^ 2) ^ 2 - 4 * s₂ ^ 2)
include h₁ h₂

theorem poly_W :
    (t₁ * t₂ * (1 - d * s₁ ^ 2) * (1 - d * s₂ ^ 2)
      + 4 * (d - 1) * s₁ * s₂ * (1 + d * s₁ ^ 2) * (1 + d * s₂ ^ 2)) * (1 - (d * s₁ * s₂) ^ 2) ^ 2 =
    ((1 + (d * s₁ * s₂) ^ 2) * (t₁ * t₂ - 4 * s₁ * s₂)
        + 2 * (d * s₁ * s₂) * (1 + d * s₁ ^ 2) * (1 + d * s₂ ^ 2)) *
      ((1 - (d * s₁ * s₂) ^ 2) ^ 2 - d * (s₁ * t₂ - s₂ * t₁) ^ 2) := by
  linear_combination (1*d*t₁*s₂^2*t₂ + (-2)*d*s₁*s₂*t₂^2 + (-4)*d*s₁*s₂^3 + 2*d^2*s₁*s₂^3 +
    2*d^3*s₁*s₂^5 + 1*d^3*s₁^2*t₁*s₂^4*t₂ + 2*d^3*s₁^3*s₂^3 + (-2)*d^3*s₁^3*s₂^3*t₂^2 +
    (-4)*d^3*s₁^3*s₂^5 + 2*d^4*s₁^3*s₂^5) * h₁ + ((-2)*d*s₁*s₂ + 1*d*s₁^2*t₁*t₂ + 4*d*s₁^3*s₂ +
    (-2)*d^2*s₁^3*s₂ + 1*d^3*s₁^4*t₁*s₂^2*t₂ + 4*d^3*s₁^5*s₂^3 + (-2)*d^4*s₁^5*s₂^3 +
    (-2)*d^5*s₁^7*s₂^3) * h₂

theorem poly_W' :
    (t₁ * t₂ * (1 - d * s₁ ^ 2) * (1 - d * s₂ ^ 2)
      - 4 * (d - 1) * s₁ * s₂ * (1 + d * s₁ ^ 2) * (1 + d * s₂ ^ 2)) * (1 - (d * s₁ * s₂) ^ 2) ^ 2 =
    ((1 + (d * s₁ * s₂) ^ 2) * (t₁ * t₂ + 4 * s₁ * s₂)
        - 2 * (d * s₁ * s₂) * (1 + d * s₁ ^ 2) * (1 + d * s₂ ^ 2)) *
      ((1 - (d * s₁ * s₂) ^ 2) ^ 2 - d * (s₁ * t₂ + s₂ * t₁) ^ 2) := by
  linear_combination (1*d*t₁*s₂^2*t₂ + 2*d*s₁*s₂*t₂^2 + 4*d*s₁*s₂^3 + (-2)*d^2*s₁*s₂^3 +
    (-2)*d^3*s₁*s₂^5 + 1*d^3*s₁^2*t₁*s₂^4*t₂ + (-2)*d^3*s₁^3*s₂^3 + 2*d^3*s₁^3*s₂^3*t₂^2 +
    4*d^3*s₁^3*s₂^5 + (-2)*d^4*s₁^3*s₂^5) * h₁ + (2*d*s₁*s₂ + 1*d*s₁^2*t₁*t₂ + (-4)*d*s₁^3*s₂ +
    2*d^2*s₁^3*s₂ + 1*d^3*s₁^4*t₁*s₂^2*t₂ + (-4)*d^3*s₁^5*s₂^3 + 2*d^4*s₁^5*s₂^3 + 2*d^5*s₁^7*s₂^3)
    * h₂

theorem poly_X :
    (2 * s₁ * t₂ * (1 + d * s₂ ^ 2) * (1 - d * s₁ ^ 2)
      + 2 * s₂ * t₁ * (1 + d * s₁ ^ 2) * (1 - d * s₂ ^ 2)) * (1 - (d * s₁ * s₂) ^ 2) =
    2 * (s₁ * t₂ + s₂ * t₁) * ((1 - (d * s₁ * s₂) ^ 2) ^ 2 - d * (s₁ * t₂ - s₂ * t₁) ^ 2) := by
  linear_combination (2*d*t₁*s₂^3 + (-2)*d*s₁*s₂^2*t₂) * h₁ + ((-2)*d*s₁^2*t₁*s₂ + 2*d*s₁^3*t₂) * h₂

theorem poly_Y :
    (t₁ * t₂ * (1 + d * s₁ ^ 2) * (1 + d * s₂ ^ 2)
      + 4 * s₁ * s₂ * (1 - d * s₁ ^ 2) * (1 - d * s₂ ^ 2)) * (1 - (d * s₁ * s₂) ^ 2) ^ 2 =
    ((1 + (d * s₁ * s₂) ^ 2) * (t₁ * t₂ + 4 * s₁ * s₂)
        - 2 * (d * s₁ * s₂) * (1 + d * s₁ ^ 2) * (1 + d * s₂ ^ 2)) *
      ((1 - (d * s₁ * s₂) ^ 2) ^ 2 + d * (s₁ * t₂ + s₂ * t₁) ^ 2) := by
  linear_combination ((-1)*d*t₁*s₂^2*t₂ + (-2)*d*s₁*s₂*t₂^2 + (-4)*d*s₁*s₂^3 + 2*d^2*s₁*s₂^3 +
    2*d^3*s₁*s₂^5 + (-1)*d^3*s₁^2*t₁*s₂^4*t₂ + 2*d^3*s₁^3*s₂^3 + (-2)*d^3*s₁^3*s₂^3*t₂^2 +
    (-4)*d^3*s₁^3*s₂^5 + 2*d^4*s₁^3*s₂^5) * h₁ + ((-2)*d*s₁*s₂ + (-1)*d*s₁^2*t₁*t₂ + 4*d*s₁^3*s₂ +
    (-2)*d^2*s₁^3*s₂ + (-1)*d^3*s₁^4*t₁*s₂^2*t₂ + 4*d^3*s₁^5*s₂^3 + (-2)*d^4*s₁^5*s₂^3 +
    (-2)*d^5*s₁^7*s₂^3) * h₂

end poly

/-- `W`, up to non-zero factors: the denominator of the x-coordinate of a sum on `E'`. -/
theorem W_eq (hI : Iso C) (P Q : Pt C) :
    P.t * Q.t * (1 - C.d * P.s ^ 2) * (1 - C.d * Q.s ^ 2)
      + 4 * (C.d - 1) * P.s * Q.s * (1 + C.d * P.s ^ 2) * (1 + C.d * Q.s ^ 2) =
    (P + Q).t * ((1 - C.d * (P - Q).s ^ 2) * (1 - (C.d * P.s * Q.s) ^ 2) ^ 2) := by
  have e0 := den_e P Q
  have k := poly_W (P.rel hI) (Q.rel hI)
  have ta := t_add hI P Q
  have sb := s_add hI P (-Q)
  rw [s_neg, t_neg, ← sub_eq_add_neg] at sb
  have sb' : P.s * Q.t - Q.s * P.t = (P - Q).s * (1 - (C.d * P.s * Q.s) ^ 2) := by
    linear_combination -sb
  rw [← ta, sb'] at k
  apply mul_right_cancel₀ (pow_ne_zero 2 e0)
  rw [k]; ring

theorem W'_eq (hI : Iso C) (P Q : Pt C) :
    P.t * Q.t * (1 - C.d * P.s ^ 2) * (1 - C.d * Q.s ^ 2)
      - 4 * (C.d - 1) * P.s * Q.s * (1 + C.d * P.s ^ 2) * (1 + C.d * Q.s ^ 2) =
    (P - Q).t * ((1 - C.d * (P + Q).s ^ 2) * (1 - (C.d * P.s * Q.s) ^ 2) ^ 2) := by
  have := W_eq hI P (-Q)
  simp only [s_neg, t_neg, ← sub_eq_add_neg, sub_neg_eq_add] at this
  linear_combination this

/-- The denominators of the addition law on `E'` do not vanish on images of points of `E`. -/
theorem phi_den_pos (hI : Iso C) (P Q : Pt C) :
    1 + (C.d - 1) * P.phiX * Q.phiX * P.phiY * Q.phiY ≠ 0 := by
  have w := W_eq hI P Q
  have n : P.t * Q.t * (1 - C.d * P.s ^ 2) * (1 - C.d * Q.s ^ 2)
      + 4 * (C.d - 1) * P.s * Q.s * (1 + C.d * P.s ^ 2) * (1 + C.d * Q.s ^ 2) ≠ 0 := by
    rw [w]
    exact mul_ne_zero ((P + Q).den_t hI) (mul_ne_zero (P - Q).den_s (pow_ne_zero 2 (den_e P Q)))
  have h1 := P.den_t hI
  have h2 := Q.den_t hI
  have h3 := P.den_s
  have h4 := Q.den_s
  intro h
  apply n
  unfold phiX phiY at h
  clear n w
  obtain ⟨m1, hm1⟩ : ∃ m, m = 1 - C.d * P.s ^ 2 := ⟨_, rfl⟩
  obtain ⟨m2, hm2⟩ : ∃ m, m = 1 - C.d * Q.s ^ 2 := ⟨_, rfl⟩
  rw [← hm1] at h h3 ⊢
  rw [← hm2] at h h4 ⊢
  field_simp at h
  linear_combination h

theorem phi_den_neg (hI : Iso C) (P Q : Pt C) :
    1 - (C.d - 1) * P.phiX * Q.phiX * P.phiY * Q.phiY ≠ 0 := by
  have := phi_den_pos hI P (-Q)
  rw [phiX_neg, phiY_neg] at this
  intro h; apply this; linear_combination h

theorem phi_add_x (hI : Iso C) (P Q : Pt C) :
    (P + Q).phiX * (1 + (C.d - 1) * P.phiX * Q.phiX * P.phiY * Q.phiY) =
      P.phiX * Q.phiY + P.phiY * Q.phiX := by
  have w := W_eq hI P Q
  have k := poly_X (P.rel hI) (Q.rel hI)
  have e0 := den_e P Q
  have sa := s_add hI P Q
  have sb := s_add hI P (-Q)
  rw [s_neg, t_neg, ← sub_eq_add_neg] at sb
  have sb' : P.s * Q.t - Q.s * P.t = (P - Q).s * (1 - (C.d * P.s * Q.s) ^ 2) := by
    linear_combination -sb
  rw [← sa, sb'] at k
  have k2 : 2 * P.s * Q.t * (1 + C.d * Q.s ^ 2) * (1 - C.d * P.s ^ 2)
      + 2 * Q.s * P.t * (1 + C.d * P.s ^ 2) * (1 - C.d * Q.s ^ 2) =
      2 * (P + Q).s * ((1 - C.d * (P - Q).s ^ 2) * (1 - (C.d * P.s * Q.s) ^ 2) ^ 2) := by
    apply mul_right_cancel₀ e0
    rw [k]; ring
  have h0 := (P + Q).den_t hI
  have h1 := P.den_t hI
  have h2 := Q.den_t hI
  have h3 := P.den_s
  have h4 := Q.den_s
  unfold phiX phiY
  generalize (1 - C.d * (P - Q).s ^ 2) * (1 - (C.d * P.s * Q.s) ^ 2) ^ 2 = D at *
  generalize (P + Q).s = s₃ at *
  generalize (P + Q).t = t₃ at *
  obtain ⟨m1, hm1⟩ : ∃ m, m = 1 - C.d * P.s ^ 2 := ⟨_, rfl⟩
  obtain ⟨m2, hm2⟩ : ∃ m, m = 1 - C.d * Q.s ^ 2 := ⟨_, rfl⟩
  rw [← hm1] at h3 w k2 ⊢
  rw [← hm2] at h4 w k2 ⊢
  field_simp
  linear_combination 2 * s₃ * w - t₃ * k2

theorem phi_add_y (hI : Iso C) (P Q : Pt C) :
    (P + Q).phiY * (1 - (C.d - 1) * P.phiX * Q.phiX * P.phiY * Q.phiY) =
      P.phiY * Q.phiY + P.phiX * Q.phiX := by
  have w := W'_eq hI P Q
  have k := poly_Y (P.rel hI) (Q.rel hI)
  have e0 := den_e P Q
  have sa := s_add hI P Q
  have tb := t_add hI P (-Q)
  rw [s_neg, t_neg, ← sub_eq_add_neg] at tb
  have tb' : (1 + (C.d * P.s * Q.s) ^ 2) * (P.t * Q.t + 4 * P.s * Q.s)
        - 2 * (C.d * P.s * Q.s) * (1 + C.d * P.s ^ 2) * (1 + C.d * Q.s ^ 2) =
      (P - Q).t * (1 - (C.d * P.s * Q.s) ^ 2) ^ 2 := by
    linear_combination -tb
  rw [← sa, tb'] at k
  have k2 : P.t * Q.t * (1 + C.d * P.s ^ 2) * (1 + C.d * Q.s ^ 2)
      + 4 * P.s * Q.s * (1 - C.d * P.s ^ 2) * (1 - C.d * Q.s ^ 2) =
      (P - Q).t * ((1 + C.d * (P + Q).s ^ 2) * (1 - (C.d * P.s * Q.s) ^ 2) ^ 2) := by
    apply mul_right_cancel₀ (pow_ne_zero 2 e0)
    rw [k]; ring
  have h0 := (P + Q).den_s
  have h1 := P.den_t hI
  have h2 := Q.den_t hI
  have h3 := P.den_s
  have h4 := Q.den_s
  unfold phiX phiY
  generalize (P - Q).t = t₄ at *
  generalize (1 - (C.d * P.s * Q.s) ^ 2) ^ 2 = D at *
  generalize (P + Q).s = s₃ at *
  obtain ⟨m1, hm1⟩ : ∃ m, m = 1 - C.d * P.s ^ 2 := ⟨_, rfl⟩
  obtain ⟨m2, hm2⟩ : ∃ m, m = 1 - C.d * Q.s ^ 2 := ⟨_, rfl⟩
  obtain ⟨m3, hm3⟩ : ∃ m, m = 1 - C.d * s₃ ^ 2 := ⟨_, rfl⟩
  rw [← hm1] at h3 w k2 ⊢
  rw [← hm2] at h4 w k2 ⊢
  rw [← hm3] at h0 w ⊢
  field_simp
  linear_combination (1 + C.d * s₃ ^ 2) * w - m3 * k2

end Pt

/-- `(X : Y : Z)` are projective coordinates of the image of `P` on `E'`, and `T = XY/Z`. -/
def RepI (P : Pt C) (X Y Z T : K) : Prop :=
  Z ≠ 0 ∧ X = P.phiX * Z ∧ Y = P.phiY * Z ∧ T = P.phiX * P.phiY * Z

namespace RepI

theorem affine (P : Pt C) : RepI P P.phiX P.phiY 1 (P.phiX * P.phiY) :=
  ⟨one_ne_zero, by ring, by ring, by ring⟩

theorem zero {c : K} (hc : c ≠ 0) : RepI (0 : Pt C) 0 c c 0 :=
  ⟨hc, by simp [Pt.phiX_zero], by simp [Pt.phiY_zero], by simp [Pt.phiX_zero]⟩

theorem neg {P : Pt C} {X Y Z T : K} (h : RepI P X Y Z T) : RepI (-P) (-X) Y Z (-T) := by
  obtain ⟨h1, h2, h3, h4⟩ := h
  exact ⟨h1, by rw [h2, Pt.phiX_neg]; ring, by rw [h3, Pt.phiY_neg],
    by rw [h4, Pt.phiX_neg, Pt.phiY_neg]; ring⟩

theorem scale {P : Pt C} {X Y Z T : K} (h : RepI P X Y Z T) {c : K} (hc : c ≠ 0) :
    RepI P (c * X) (c * Y) (c * Z) (c * T) := by
  obtain ⟨h1, h2, h3, h4⟩ := h
  exact ⟨mul_ne_zero hc h1, by rw [h2]; ring, by rw [h3]; ring, by rw [h4]; ring⟩

/-- Coordinates built from the four factors of the unified formulas. -/
theorem of_factors {P : Pt C} {E F G H : K} (hF : F ≠ 0) (hG : G ≠ 0) (hx : E = P.phiX * G)
    (hy : H = P.phiY * F) : RepI P (E * F) (G * H) (F * G) (E * H) :=
  ⟨mul_ne_zero hF hG, by rw [hx]; ring, by rw [hy]; ring, by rw [hx, hy]; ring⟩

/-- The unified addition. -/
theorem add (hI : Iso C) {P Q : Pt C} {X₁ Y₁ Z₁ T₁ X₂ Y₂ Z₂ T₂ E F G H : K}
    (h₁ : RepI P X₁ Y₁ Z₁ T₁) (h₂ : RepI Q X₂ Y₂ Z₂ T₂)
    (hE : E = (Y₁ + X₁) * (Y₂ + X₂) - (Y₁ - X₁) * (Y₂ - X₂))
    (hF : F = 2 * (Z₁ * Z₂) - 2 * (C.d - 1) * (T₁ * T₂))
    (hG : G = 2 * (Z₁ * Z₂) + 2 * (C.d - 1) * (T₁ * T₂))
    (hH : H = (Y₁ + X₁) * (Y₂ + X₂) + (Y₁ - X₁) * (Y₂ - X₂)) :
    RepI (P + Q) (E * F) (G * H) (F * G) (E * H) := by
  obtain ⟨z1, x1, y1, t1⟩ := h₁
  obtain ⟨z2, x2, y2, t2⟩ := h₂
  have p := Pt.phi_den_pos hI P Q
  have n := Pt.phi_den_neg hI P Q
  have hz : 2 * (Z₁ * Z₂) ≠ 0 := mul_ne_zero C.two (mul_ne_zero z1 z2)
  have eF : F = 2 * (Z₁ * Z₂) * (1 - (C.d - 1) * P.phiX * Q.phiX * P.phiY * Q.phiY) := by
    rw [hF, t1, t2]; ring
  have eG : G = 2 * (Z₁ * Z₂) * (1 + (C.d - 1) * P.phiX * Q.phiX * P.phiY * Q.phiY) := by
    rw [hG, t1, t2]; ring
  have ax := Pt.phi_add_x hI P Q
  have ay := Pt.phi_add_y hI P Q
  refine of_factors (eF ▸ mul_ne_zero hz n) (eG ▸ mul_ne_zero hz p) ?_ ?_
  · rw [eG, hE, x1, y1, x2, y2]; linear_combination -(2 * (Z₁ * Z₂)) * ax
  · rw [eF, hH, x1, y1, x2, y2]; linear_combination -(2 * (Z₁ * Z₂)) * ay

/-- The doubling. -/
theorem dbl (hI : Iso C) {P : Pt C} {X Y Z T E F G H : K}
    (h : RepI P X Y Z T) (hE : E = 2 * (X * Y)) (hG : G = Y ^ 2 - X ^ 2)
    (hF : F = Y ^ 2 - X ^ 2 - 2 * Z ^ 2) (hH : H = -(X ^ 2 + Y ^ 2)) :
    RepI (P + P) (E * F) (G * H) (F * G) (E * H) := by
  obtain ⟨z, x, y, t⟩ := h
  have p := Pt.phi_den_pos hI P P
  have n := Pt.phi_den_neg hI P P
  have on := P.phi_on hI
  have eF : F = -Z ^ 2 * (1 - (C.d - 1) * P.phiX * P.phiX * P.phiY * P.phiY) := by
    rw [hF, x, y]; linear_combination Z ^ 2 * on
  have eG : G = Z ^ 2 * (1 + (C.d - 1) * P.phiX * P.phiX * P.phiY * P.phiY) := by
    rw [hG, x, y]; linear_combination Z ^ 2 * on
  have z2 : Z ^ 2 ≠ 0 := pow_ne_zero 2 z
  have ax := Pt.phi_add_x hI P P
  have ay := Pt.phi_add_y hI P P
  refine of_factors (eF ▸ mul_ne_zero (neg_ne_zero.2 z2) n) (eG ▸ mul_ne_zero z2 p) ?_ ?_
  · rw [eG, hE, x, y]; linear_combination -(Z ^ 2) * ax
  · rw [eF, hH, x, y]; linear_combination (Z ^ 2) * ay

theorem tz {P : Pt C} {X Y Z T : K} (h : RepI P X Y Z T) : T * Z = X * Y := by
  obtain ⟨z, x, y, t⟩ := h
  rw [x, y, t]; ring

/-- The dual isogeny takes the image of `P` to `4P`. -/
theorem dual (hI : Iso C) {P : Pt C} {X Y Z T : K} (h : RepI P X Y Z T) :
    X ^ 2 + Y ^ 2 ≠ 0 ∧ 2 * Z ^ 2 - Y ^ 2 + X ^ 2 ≠ 0 ∧
    (4 • P).x * (X ^ 2 + Y ^ 2) = 2 * (X * Y) ∧
    (4 • P).y * (2 * Z ^ 2 - Y ^ 2 + X ^ 2) = Y ^ 2 - X ^ 2 := by
  obtain ⟨z, x, y, -⟩ := h
  have e4 : 4 • P = (P + P) + (P + P) := by
    rw [← two_nsmul, ← two_nsmul, ← mul_nsmul]
  rw [e4]
  have hp := P.den_s'
  have hm := P.den_s
  have ht := P.den_t hI
  have r := P.rel hI
  have on := P.on
  rw [hI.a1] at on
  have X2 : (P + P).x * (1 + C.d * P.s ^ 2) = 2 * P.s := by
    have h1 := den_pos C P.on P.on
    have e : 1 + C.d * P.s ^ 2 = 1 + C.d * P.x * P.x * P.y * P.y := by unfold Pt.s; ring
    rw [e, Pt.add_x, div_mul_cancel₀ _ h1]; unfold Pt.s; ring
  have Y2 : (P + P).y * (1 - C.d * P.s ^ 2) = P.t := by
    have h1 := den_neg C P.on P.on
    have e : 1 - C.d * P.s ^ 2 = 1 - C.d * P.x * P.x * P.y * P.y := by unfold Pt.s; ring
    rw [e, Pt.add_y, div_mul_cancel₀ _ h1, hI.a1]; unfold Pt.t; ring
  have on2 := (P + P).on
  rw [hI.a1] at on2
  have n1 := den_pos C (P + P).on (P + P).on
  have n2 := den_neg C (P + P).on (P + P).on
  have x4 : ((P + P) + (P + P)).x * (1 + C.d * (P + P).x * (P + P).x * (P + P).y * (P + P).y) =
      2 * (P + P).x * (P + P).y := by
    rw [Pt.add_x, div_mul_cancel₀ _ n1]; ring
  have y4 : ((P + P) + (P + P)).y * (1 - C.d * (P + P).x * (P + P).x * (P + P).y * (P + P).y) =
      (P + P).y ^ 2 - (P + P).x ^ 2 := by
    rw [Pt.add_y, div_mul_cancel₀ _ n2, hI.a1]; ring
  have n1' : (P + P).x ^ 2 + (P + P).y ^ 2 ≠ 0 := by
    intro h; apply n1; linear_combination h - on2
  have n2' : 2 - (P + P).x ^ 2 - (P + P).y ^ 2 ≠ 0 := by
    intro h; apply n2; linear_combination h + on2
  have x4' : ((P + P) + (P + P)).x * ((P + P).x ^ 2 + (P + P).y ^ 2) =
      2 * (P + P).x * (P + P).y := by
    linear_combination x4 + ((P + P) + (P + P)).x * on2
  have y4' : ((P + P) + (P + P)).y * (2 - (P + P).x ^ 2 - (P + P).y ^ 2) =
      (P + P).y ^ 2 - (P + P).x ^ 2 := by
    linear_combination y4 - ((P + P) + (P + P)).y * on2
  clear x4 y4 n1 n2 e4
  generalize ((P + P) + (P + P)).x = u at *
  generalize ((P + P) + (P + P)).y = v at *
  generalize (P + P).x = a at *
  generalize (P + P).y = b at *
  have px : P.phiX * P.t = a * (1 + C.d * P.s ^ 2) := by
    unfold Pt.phiX; rw [div_mul_cancel₀ _ ht, X2]
  have py : P.phiY * P.t = b * (1 + C.d * P.s ^ 2) := by
    unfold Pt.phiY; rw [← Y2]; field_simp
  -- the common factor (1 + d s²)/t
  obtain ⟨l, hl, l0⟩ : ∃ l : K, l * P.t = 1 + C.d * P.s ^ 2 ∧ l ≠ 0 :=
    ⟨(1 + C.d * P.s ^ 2) / P.t, div_mul_cancel₀ _ ht, div_ne_zero hp ht⟩
  have ex : P.phiX = a * l := by
    apply mul_right_cancel₀ ht; rw [px, ← hl]; ring
  have ey : P.phiY = b * l := by
    apply mul_right_cancel₀ ht; rw [py, ← hl]; ring
  -- 2 - y'² + x'² = l² (2 - a² - b²)
  have key : 2 - (b * l) ^ 2 + (a * l) ^ 2 = l ^ 2 * (2 - a ^ 2 - b ^ 2) := by
    have : l ^ 2 * a ^ 2 + 1 = l ^ 2 := by
      apply mul_right_cancel₀ (pow_ne_zero 2 ht)
      have e1 : l ^ 2 * P.t ^ 2 = (1 + C.d * P.s ^ 2) ^ 2 := by rw [← hl]; ring
      have e2 : a ^ 2 * (1 + C.d * P.s ^ 2) ^ 2 = 4 * P.s ^ 2 := by
        rw [← mul_pow, X2]; ring
      linear_combination (a ^ 2 - 1) * e1 + e2 + r
    linear_combination 2 * this
  have lz : l ^ 2 * Z ^ 2 ≠ 0 := mul_ne_zero (pow_ne_zero 2 l0) (pow_ne_zero 2 z)
  rw [x, y, ex, ey]
  have f1 : (a * l * Z) ^ 2 + (b * l * Z) ^ 2 = l ^ 2 * Z ^ 2 * (a ^ 2 + b ^ 2) := by ring
  have f2 : 2 * Z ^ 2 - (b * l * Z) ^ 2 + (a * l * Z) ^ 2 = l ^ 2 * Z ^ 2 * (2 - a ^ 2 - b ^ 2) := by
    linear_combination Z ^ 2 * key
  rw [f1, f2]
  refine ⟨mul_ne_zero lz n1', mul_ne_zero lz n2', ?_, ?_⟩
  · linear_combination l ^ 2 * Z ^ 2 * x4'
  · linear_combination l ^ 2 * Z ^ 2 * y4'

end RepI

/-- A precomputed point of `E'`: `y + x`, `y - x`, `2(d-1)xy` and 2, times a common factor. -/
def PreI (P : Pt C) (a s t z : K) : Prop :=
  ∃ l : K, l ≠ 0 ∧ a = (P.phiY + P.phiX) * l ∧ s = (P.phiY - P.phiX) * l ∧
    t = 2 * (C.d - 1) * (P.phiX * P.phiY * l) ∧ z = 2 * l

theorem PreI.neg {P : Pt C} {a s t z : K} (h : PreI P a s t z) : PreI (-P) s a (-t) z := by
  obtain ⟨l, h0, h1, h2, h3, h4⟩ := h
  exact ⟨l, h0, by rw [h2, Pt.phiX_neg, Pt.phiY_neg]; ring,
    by rw [h1, Pt.phiX_neg, Pt.phiY_neg]; ring, by rw [h3, Pt.phiX_neg, Pt.phiY_neg]; ring, h4⟩

theorem PreI.zero : PreI (0 : Pt C) 1 1 0 2 :=
  ⟨1, one_ne_zero, by simp [Pt.phiX_zero, Pt.phiY_zero], by simp [Pt.phiX_zero, Pt.phiY_zero],
    by simp [Pt.phiX_zero], by simp⟩

theorem RepI.pre {P : Pt C} {X Y Z T : K} (h : RepI P X Y Z T) :
    PreI P (Y + X) (Y - X) (2 * (C.d - 1) * T) (2 * Z) := by
  obtain ⟨z, x, y, t⟩ := h
  exact ⟨Z, z, by rw [x, y]; ring, by rw [x, y]; ring, by rw [t], rfl⟩

theorem RepI.mixadd (hI : Iso C) {P Q : Pt C} {X Y Z T a s t z E F G H : K}
    (h₁ : RepI P X Y Z T) (h₂ : PreI Q a s t z)
    (hE : E = (Y + X) * a - (Y - X) * s) (hF : F = Z * z - T * t) (hG : G = Z * z + T * t)
    (hH : H = (Y + X) * a + (Y - X) * s) :
    RepI (P + Q) (E * F) (G * H) (F * G) (E * H) := by
  obtain ⟨l, h0, h1, h2, h3, h4⟩ := h₂
  refine RepI.add hI h₁ (X₂ := Q.phiX * l) (Y₂ := Q.phiY * l) (Z₂ := l)
    (T₂ := Q.phiX * Q.phiY * l) ⟨h0, rfl, rfl, rfl⟩ ?_ ?_ ?_ ?_
  · rw [hE, h1, h2]; ring
  · rw [hF, h3, h4]; ring
  · rw [hG, h3, h4]; ring
  · rw [hH, h1, h2]; ring

end Verif.Edw
