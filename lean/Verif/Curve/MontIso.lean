import Verif.Curve.Edwards
import Verif.Curve.Ladder

/-!
# From the Edwards curve x² + y² = 1 + d x² y² to the Montgomery curve with A = 2 - 4d

The map (x, y) ↦ y²/x² carries multiplication on the Edwards curve to the x-coordinates of the
multiples on the Montgomery curve: it follows the steps of the Montgomery ladder.  Mathematics; this
file models no code.
-/

namespace Verif.Edw

variable {K : Type} [Field K] {C : Curve K}

/-- (X : Z) = (y² : x²). -/
def IsU (P : Pt C) (X Z : K) : Prop := ∃ c : K, c ≠ 0 ∧ X = c * P.y ^ 2 ∧ Z = c * P.x ^ 2

theorem IsU.dbl (ha : C.a = 1) {a24 : K} (h24 : a24 = 1 - C.d) {P : Pt C} {X Z : K}
    (h : IsU P X Z) :
    IsU (P + P) ((X - Z) ^ 2 * (X + Z) ^ 2)
      (((X + Z) ^ 2 - (X - Z) ^ 2) * (a24 * ((X + Z) ^ 2 - (X - Z) ^ 2) + (X - Z) ^ 2)) := by
  obtain ⟨c, hc, rfl, rfl⟩ := h
  have on := P.on
  rw [ha] at on
  have n1 := den_pos C P.on P.on
  have n2 := den_neg C P.on P.on
  generalize hk : C.d * P.x * P.x * P.y * P.y = k at n1 n2
  have e1 : (P + P).x * (1 + k) = 2 * (P.x * P.y) := by
    rw [Pt.add_x, hk, div_mul_cancel₀ _ n1]; ring
  have e2 : (P + P).y * (1 - k) = P.y ^ 2 - P.x ^ 2 := by
    rw [Pt.add_y, ha, hk, div_mul_cancel₀ _ n2]; ring
  have s : P.x ^ 2 + P.y ^ 2 = 1 + k := by rw [← hk]; linear_combination on
  refine ⟨c ^ 4 * (1 + k) ^ 2 * (1 - k) ^ 2, ?_, ?_, ?_⟩
  · exact mul_ne_zero (mul_ne_zero (pow_ne_zero _ hc) (pow_ne_zero _ n1)) (pow_ne_zero _ n2)
  · rw [show c ^ 4 * (1 + k) ^ 2 * (1 - k) ^ 2 * (P + P).y ^ 2 =
      c ^ 4 * (1 + k) ^ 2 * ((P + P).y * (1 - k)) ^ 2 by ring, e2, ← s]
    ring
  · rw [show c ^ 4 * (1 + k) ^ 2 * (1 - k) ^ 2 * (P + P).x ^ 2 =
      c ^ 4 * (1 - k) ^ 2 * ((P + P).x * (1 + k)) ^ 2 by ring, e1, h24]
    linear_combination (4 * c ^ 4 * P.x ^ 2 * P.y ^ 2) * ((P.x ^ 2 + P.y ^ 2 + 1 + k) * s - 4 * hk)

theorem IsU.dadd (ha : C.a = 1) {P Q D : Pt C} {X Z X' Z' u : K} (h : IsU P X Z) (h' : IsU Q X' Z')
    (hD : P - Q = D) (hx : D.x ≠ 0) (hy : D.y ≠ 0) (hu : u * D.x ^ 2 = D.y ^ 2) :
    IsU (P + Q) (((X + Z) * (X' - Z') + (X - Z) * (X' + Z')) ^ 2)
      (((X + Z) * (X' - Z') - (X - Z) * (X' + Z')) ^ 2 * u) := by
  obtain ⟨c, hc, rfl, rfl⟩ := h
  obtain ⟨c', hc', rfl, rfl⟩ := h'
  have n1 := den_pos C P.on Q.on
  have n2 := den_neg C P.on Q.on
  subst hD
  rw [sub_eq_add_neg] at hx hy hu
  generalize hk : C.d * P.x * Q.x * P.y * Q.y = k at n1 n2
  have e1 : (P + Q).x * (1 + k) = P.x * Q.y + P.y * Q.x := by
    rw [Pt.add_x, hk]; field_simp
  have e2 : (P + Q).y * (1 - k) = P.y * Q.y - P.x * Q.x := by
    rw [Pt.add_y, ha, hk]; field_simp
  have e3 : (P + -Q).x * (1 - k) = P.x * Q.y - P.y * Q.x := by
    rw [Pt.add_x, Pt.neg_x, Pt.neg_y]
    rw [show 1 + C.d * P.x * -Q.x * P.y * Q.y = 1 - k by rw [← hk]; ring]
    field_simp; ring
  have e4 : (P + -Q).y * (1 + k) = P.y * Q.y + P.x * Q.x := by
    rw [Pt.add_y, Pt.neg_x, Pt.neg_y, ha]
    rw [show 1 - C.d * P.x * -Q.x * P.y * Q.y = 1 + k by rw [← hk]; ring]
    field_simp; ring
  generalize (P + -Q).x = dx at *
  generalize (P + -Q).y = dy at *
  refine ⟨4 * c ^ 2 * c' ^ 2 * (1 + k) ^ 2 * (1 - k) ^ 2 * dy ^ 2, ?_, ?_, ?_⟩
  · have h4 : (4 : K) ≠ 0 := Mont.four_ne C.two
    positivity
  · have : P.y ^ 2 * Q.y ^ 2 - P.x ^ 2 * Q.x ^ 2 =
        ((P + Q).y * (1 - k)) * (dy * (1 + k)) := by rw [e2, e4]; ring
    linear_combination (4 * c ^ 2 * c' ^ 2 * (P.y ^ 2 * Q.y ^ 2 - P.x ^ 2 * Q.x ^ 2 +
      ((P + Q).y * (1 - k)) * (dy * (1 + k)))) * this
  · have : P.x ^ 2 * Q.y ^ 2 - P.y ^ 2 * Q.x ^ 2 =
        ((P + Q).x * (1 + k)) * (dx * (1 - k)) := by rw [e1, e3]; ring
    linear_combination (4 * c ^ 2 * c' ^ 2 * u * (P.x ^ 2 * Q.y ^ 2 - P.y ^ 2 * Q.x ^ 2 +
      ((P + Q).x * (1 + k)) * (dx * (1 - k)))) * this +
      4 * c ^ 2 * c' ^ 2 * ((P + Q).x * (1 + k)) ^ 2 * (1 - k) ^ 2 * hu

/-- The ladder state holds (y² : x²) of n P and (n + 1) P. -/
def InvU (P : Pt C) (n : ℕ) (s : Mont.LS K) : Prop :=
  if s.prev then IsU ((n + 1) • P) s.x2 s.z2 ∧ IsU (n • P) s.x3 s.z3
  else IsU (n • P) s.x2 s.z2 ∧ IsU ((n + 1) • P) s.x3 s.z3

theorem InvU.step (ha : C.a = 1) {a24 u : K} (h24 : a24 = 1 - C.d) {P : Pt C} (hx : P.x ≠ 0)
    (hy : P.y ≠ 0) (hu : u * P.x ^ 2 = P.y ^ 2) {n : ℕ} {s : Mont.LS K} (h : InvU P n s) (b : Bool) :
    InvU P (2 * n + b.toNat) (Mont.step a24 u s b) := by
  obtain ⟨x2, z2, x3, z3, prev⟩ := s
  have e1 : n • P + n • P = (2 * n) • P := by rw [← add_smul]; congr 1; ring
  have e2 : (n + 1) • P + (n + 1) • P = (2 * n + 1 + 1) • P := by rw [← add_smul]; congr 1; ring
  have e3 : (n + 1) • P + n • P = (2 * n + 1) • P := by rw [← add_smul]; congr 1; ring
  have e4 : n • P + (n + 1) • P = (2 * n + 1) • P := by rw [← add_smul]; congr 1; ring
  have d1 : (n + 1) • P - n • P = P := by rw [add_smul, one_smul, add_sub_cancel_left]
  have d2 : n • P - (n + 1) • P = -P := by rw [← neg_sub, d1]
  have nx : (-P).x ≠ 0 := by rw [Pt.neg_x]; exact neg_ne_zero.2 hx
  have ny : (-P).y ≠ 0 := by rw [Pt.neg_y]; exact hy
  have nu : u * (-P).x ^ 2 = (-P).y ^ 2 := by rw [Pt.neg_x, Pt.neg_y, neg_sq]; exact hu
  cases prev <;> cases b <;>
    simp only [InvU, Mont.step, Bool.false_eq_true, if_false, if_true, Bool.toNat_false,
      Bool.toNat_true, Bool.xor_false, Bool.xor_true, Bool.not_true, Bool.not_false,
      add_zero] at h ⊢
  · exact ⟨e1 ▸ h.1.dbl ha h24, e4 ▸ h.1.dadd ha h.2 d2 nx ny nu⟩
  · exact ⟨e2 ▸ h.2.dbl ha h24, e4 ▸ h.1.dadd ha h.2 d2 nx ny nu⟩
  · exact ⟨e1 ▸ h.2.dbl ha h24, e3 ▸ h.1.dadd ha h.2 d1 hx hy hu⟩
  · exact ⟨e2 ▸ h.1.dbl ha h24, e3 ▸ h.1.dadd ha h.2 d1 hx hy hu⟩

theorem InvU.fold (ha : C.a = 1) {a24 u : K} (h24 : a24 = 1 - C.d) {P : Pt C} (hx : P.x ≠ 0)
    (hy : P.y ≠ 0) (hu : u * P.x ^ 2 = P.y ^ 2) (l : List Bool) {n : ℕ} {s : Mont.LS K}
    (h : InvU P n s) : InvU P (Mont.bitsVal n l) (l.foldl (Mont.step a24 u) s) := by
  induction l generalizing n s with
  | nil => exact h
  | cons b l ih => exact ih (h.step ha h24 hx hy hu b)

theorem InvU.init {P : Pt C} (hx : P.x ≠ 0) {u : K} (hu : u * P.x ^ 2 = P.y ^ 2) :
    InvU P 0 (Mont.init u) := by
  simp only [InvU, Mont.init, Mont.initC, Bool.false_eq_true, if_false, zero_smul, zero_add, one_smul]
  refine ⟨⟨1, one_ne_zero, by simp, by simp⟩, ⟨(P.x ^ 2)⁻¹, inv_ne_zero (pow_ne_zero _ hx), ?_, ?_⟩⟩
  · rw [← hu]; field_simp
  · field_simp

/-- The multiples of the point with x-coordinate y²/x² on the Montgomery curve have x-coordinates
y²/x² of the multiples on the Edwards curve. -/
theorem xmul_iso (ha : C.a = 1) {A : K} (hA : A = 2 - 4 * C.d) (hA4 : A ^ 2 ≠ 4) {P : Pt C}
    (hx : P.x ≠ 0) (hy : P.y ≠ 0) {u : K} (hu : u * P.x ^ 2 = P.y ^ 2) (l : List Bool) :
    Mont.XMul A (Mont.bitsVal 0 (l ++ [false])) u
      ((Mont.bitsVal 0 (l ++ [false]) • P).y ^ 2 *
        ((Mont.bitsVal 0 (l ++ [false]) • P).x ^ 2)⁻¹) := by
  have h1 := Mont.ladder_xmulC C.two hA4 (a24 := 1 - C.d) (by rw [hA]; ring) 1 u
    (fun _ => one_ne_zero) l
  have h2 := (InvU.init hx hu).fold ha (a24 := 1 - C.d) rfl hx hy hu (l ++ [false])
  have hp : ((l ++ [false]).foldl (Mont.step (1 - C.d) u) (Mont.init u)).prev = false := by
    simp [List.foldl_append, Mont.step]
  rw [InvU, hp] at h2
  obtain ⟨c, hc, e1, e2⟩ := h2.1
  have e : ((l ++ [false]).foldl (Mont.step (1 - C.d) u) (Mont.initC 1 u)).x2 *
      (((l ++ [false]).foldl (Mont.step (1 - C.d) u) (Mont.initC 1 u)).z2)⁻¹ =
      (Mont.bitsVal 0 (l ++ [false]) • P).y ^ 2 *
        ((Mont.bitsVal 0 (l ++ [false]) • P).x ^ 2)⁻¹ := by
    change _ = _ at e1 e2
    rw [show Mont.initC 1 u = Mont.init u from rfl, e1, e2, mul_inv]
    field_simp
  simp only [e] at h1
  exact h1

end Verif.Edw
