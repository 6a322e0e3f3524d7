import Verif.Curve.Edwards

/-!
Extended projective coordinates on twisted Edwards curves with `a = -1`
(Hisil, Wong, Carter, Dawson, sections 3.1 and 3.3).  This file is specification and
mathematics; it models no code.
-/

namespace Verif.Edw

variable {K : Type*} [Field K] {C : Curve K}

/-- `(X : Y : Z)` are projective coordinates of `P`, and `T = XY/Z`. -/
def Rep (P : Pt C) (X Y Z T : K) : Prop := Z ≠ 0 ∧ X = P.x * Z ∧ Y = P.y * Z ∧ T = P.x * P.y * Z

namespace Rep

theorem scale {P : Pt C} {X Y Z T : K} (h : Rep P X Y Z T) {c : K} (hc : c ≠ 0) :
    Rep P (c * X) (c * Y) (c * Z) (c * T) := by
  obtain ⟨h1, h2, h3, h4⟩ := h
  exact ⟨mul_ne_zero hc h1, by rw [h2]; ring, by rw [h3]; ring, by rw [h4]; ring⟩

theorem affine (P : Pt C) : Rep P P.x P.y 1 (P.x * P.y) :=
  ⟨one_ne_zero, by ring, by ring, by ring⟩

theorem zero {c : K} (hc : c ≠ 0) : Rep (0 : Pt C) 0 c c 0 :=
  ⟨hc, by simp, by simp, by simp⟩

theorem neg {P : Pt C} {X Y Z T : K} (h : Rep P X Y Z T) : Rep (-P) (-X) Y Z (-T) := by
  obtain ⟨h1, h2, h3, h4⟩ := h
  exact ⟨h1, by rw [h2, Pt.neg_x]; ring, by rw [h3, Pt.neg_y], by rw [h4, Pt.neg_x, Pt.neg_y]; ring⟩

theorem x_eq {P : Pt C} {X Y Z T : K} (h : Rep P X Y Z T) : X * Z⁻¹ = P.x := by
  rw [h.2.1, mul_assoc, mul_inv_cancel₀ h.1, mul_one]

theorem y_eq {P : Pt C} {X Y Z T : K} (h : Rep P X Y Z T) : Y * Z⁻¹ = P.y := by
  rw [h.2.2.1, mul_assoc, mul_inv_cancel₀ h.1, mul_one]

theorem inj {P Q : Pt C} {X Y Z T : K} (h : Rep P X Y Z T) (k : Rep Q X Y Z T) : P = Q :=
  Pt.ext (by rw [← h.x_eq, ← k.x_eq]) (by rw [← h.y_eq, ← k.y_eq])

/-- Coordinates built from the four factors of the unified formulas. -/
theorem of_factors {P : Pt C} {E F G H : K} (hF : F ≠ 0) (hG : G ≠ 0) (hx : E = P.x * G)
    (hy : H = P.y * F) : Rep P (E * F) (G * H) (F * G) (E * H) :=
  ⟨mul_ne_zero hF hG, by rw [hx]; ring, by rw [hy]; ring, by rw [hx, hy]; ring⟩

/-- The unified addition.  `c` is a common factor, as when the second operand is given by
`Y₂ - X₂`, `Y₂ + X₂`, `2dT₂`, `2Z₂`. -/
theorem add (ha : C.a = -1) {P Q : Pt C} {X₁ Y₁ Z₁ T₁ X₂ Y₂ Z₂ T₂ E F G H : K}
    (h₁ : Rep P X₁ Y₁ Z₁ T₁) (h₂ : Rep Q X₂ Y₂ Z₂ T₂)
    (hE : E = (Y₁ + X₁) * (Y₂ + X₂) - (Y₁ - X₁) * (Y₂ - X₂))
    (hF : F = 2 * (Z₁ * Z₂) - 2 * C.d * (T₁ * T₂))
    (hG : G = 2 * (Z₁ * Z₂) + 2 * C.d * (T₁ * T₂))
    (hH : H = (Y₁ + X₁) * (Y₂ + X₂) + (Y₁ - X₁) * (Y₂ - X₂)) :
    Rep (P + Q) (E * F) (G * H) (F * G) (E * H) := by
  obtain ⟨z1, x1, y1, t1⟩ := h₁
  obtain ⟨z2, x2, y2, t2⟩ := h₂
  have p := den_pos C P.on Q.on
  have n := den_neg C P.on Q.on
  have hz : 2 * (Z₁ * Z₂) ≠ 0 := mul_ne_zero C.two (mul_ne_zero z1 z2)
  have eF : F = 2 * (Z₁ * Z₂) * (1 - C.d * P.x * Q.x * P.y * Q.y) := by
    rw [hF, t1, t2]; ring
  have eG : G = 2 * (Z₁ * Z₂) * (1 + C.d * P.x * Q.x * P.y * Q.y) := by
    rw [hG, t1, t2]; ring
  refine of_factors (eF ▸ mul_ne_zero hz n) (eG ▸ mul_ne_zero hz p) ?_ ?_
  · rw [eG, Pt.add_x, hE, x1, y1, x2, y2, div_mul_eq_mul_div, eq_div_iff p]; ring
  · rw [eF, Pt.add_y, hH, x1, y1, x2, y2, ha, div_mul_eq_mul_div, eq_div_iff n]; ring

/-- The doubling. -/
theorem dbl (ha : C.a = -1) {P : Pt C} {X Y Z T E F G H : K}
    (h : Rep P X Y Z T) (hE : E = 2 * (X * Y)) (hG : G = Y ^ 2 - X ^ 2)
    (hF : F = Y ^ 2 - X ^ 2 - 2 * Z ^ 2) (hH : H = -(X ^ 2 + Y ^ 2)) :
    Rep (P + P) (E * F) (G * H) (F * G) (E * H) := by
  obtain ⟨z, x, y, t⟩ := h
  have p := den_pos C P.on P.on
  have n := den_neg C P.on P.on
  have on := P.on
  rw [ha] at on
  have eF : F = -Z ^ 2 * (1 - C.d * P.x * P.x * P.y * P.y) := by
    rw [hF, x, y]; linear_combination Z ^ 2 * on
  have eG : G = Z ^ 2 * (1 + C.d * P.x * P.x * P.y * P.y) := by
    rw [hG, x, y]; linear_combination Z ^ 2 * on
  have z2 : Z ^ 2 ≠ 0 := pow_ne_zero 2 z
  refine of_factors (eF ▸ mul_ne_zero (neg_ne_zero.2 z2) n) (eG ▸ mul_ne_zero z2 p) ?_ ?_
  · rw [eG, Pt.add_x, hE, x, y, div_mul_eq_mul_div, eq_div_iff p]; ring
  · rw [eF, Pt.add_y, hH, x, y, ha, div_mul_eq_mul_div, eq_div_iff n]; ring

/-- `TZ = XY`. -/
theorem tz {P : Pt C} {X Y Z T : K} (h : Rep P X Y Z T) : T * Z = X * Y := by
  obtain ⟨z, x, y, t⟩ := h
  rw [x, y, t]; ring

end Rep

/-- A precomputed point: `y + x`, `y - x`, `2dxy` and 2, times a common factor. -/
def Pre (P : Pt C) (a s t z : K) : Prop :=
  ∃ l : K, l ≠ 0 ∧ a = (P.y + P.x) * l ∧ s = (P.y - P.x) * l ∧ t = 2 * C.d * (P.x * P.y * l) ∧
    z = 2 * l

theorem Pre.neg {P : Pt C} {a s t z : K} (h : Pre P a s t z) : Pre (-P) s a (-t) z := by
  obtain ⟨l, h0, h1, h2, h3, h4⟩ := h
  exact ⟨l, h0, by rw [h2, Pt.neg_x, Pt.neg_y]; ring, by rw [h1, Pt.neg_x, Pt.neg_y]; ring,
    by rw [h3, Pt.neg_x, Pt.neg_y]; ring, h4⟩

theorem Pre.zero : Pre (0 : Pt C) 1 1 0 2 := ⟨1, one_ne_zero, by simp, by simp, by simp, by simp⟩

theorem Rep.pre {P : Pt C} {X Y Z T : K} (h : Rep P X Y Z T) :
    Pre P (Y + X) (Y - X) (2 * C.d * T) (2 * Z) := by
  obtain ⟨z, x, y, t⟩ := h
  exact ⟨Z, z, by rw [x, y]; ring, by rw [x, y]; ring, by rw [t], rfl⟩

theorem Rep.mixadd (ha : C.a = -1) {P Q : Pt C} {X Y Z T a s t z E F G H : K}
    (h₁ : Rep P X Y Z T) (h₂ : Pre Q a s t z)
    (hE : E = (Y + X) * a - (Y - X) * s) (hF : F = Z * z - T * t) (hG : G = Z * z + T * t)
    (hH : H = (Y + X) * a + (Y - X) * s) :
    Rep (P + Q) (E * F) (G * H) (F * G) (E * H) := by
  obtain ⟨l, h0, h1, h2, h3, h4⟩ := h₂
  refine Rep.add ha h₁ (X₂ := Q.x * l) (Y₂ := Q.y * l) (Z₂ := l) (T₂ := Q.x * Q.y * l)
    ⟨h0, rfl, rfl, rfl⟩ ?_ ?_ ?_ ?_
  · rw [hE, h1, h2]; ring
  · rw [hF, h3, h4]; ring
  · rw [hG, h3, h4]; ring
  · rw [hH, h1, h2]; ring

end Verif.Edw
