import Verif.H2c.Spec
import Verif.Ed25519.EncodeLemmas

/-! # Elligator 2: the mathematics of the straight-line program -/

namespace Verif.H2c

open Verif.Fp25519 Verif.Ed25519

set_option exponentiation.threshold 2000

/-- A field element is a square exactly when its power of exponent (p-1)/2 is 0 or 1. -/
theorem isSquare_iff {s : Fp} (h0 : s ≠ 0) : IsSquare s ↔ s ^ (P / 2) = 1 := ZMod.euler_criterion P h0

theorem quartic_of_nonsquare {s : Fp} (h : ¬ IsSquare s) : (s ^ (2 ^ 253 - 5)) ^ 2 = -1 := by
  have h0 : s ≠ 0 := by rintro rfl; exact h ⟨0, by simp⟩
  rw [← pow_mul, show (2 ^ 253 - 5) * 2 = P / 2 by norm_num]
  rcases ZMod.pow_div_two_eq_neg_one_or_one P h0 with h1 | h1
  · exact absurd ((isSquare_iff h0).2 h1) h
  · exact h1

theorem two_nonsquare : ¬ IsSquare (2 : Fp) := by
  rintro ⟨t, ht⟩
  refine not_square (a := 2) (by decide +kernel) t ?_
  rw [pow_two, ← ht]; norm_num

/-- 1 + 2u² is never zero. -/
theorem den_ne (u : Fp) : 1 + 2 * u ^ 2 ≠ 0 := by
  intro h
  have hu : u ≠ 0 := by
    rintro rfl
    exact one_ne_zero (α := Fp) (by linear_combination h)
  apply two_nonsquare
  refine ⟨(sqrtM1 : Fp) / u, ?_⟩
  have h2 := sqrtM1_sq
  rw [div_mul_div_comm, eq_div_iff (mul_ne_zero hu hu)]
  linear_combination h - h2

/-- The constants of the program, in the field. -/
theorem c2_sq : (((sqrtM1 + 1 : ℕ) : Fp)) ^ 2 = 2 * (sqrtM1 : Fp) := by
  have h := sqrtM1_sq
  push_cast
  linear_combination h

theorem c1_sq : (c1 : Fp) ^ 2 = -486664 := by
  have h : ((c1 ^ 2 + 486664 : ℕ) : Fp) = ((0 : ℕ) : Fp) := natEq (by decide +kernel)
  push_cast at h
  linear_combination h

theorem c1_even : canon (c1 : Fp) % 2 = 0 := by
  rw [canon_natCast (by decide +kernel)]; decide +kernel

/-- Numerator of g(x1). -/
def gx1 (u : Fp) : Fp := (A * (2 * u ^ 2) * -A + (2 * u ^ 2 + 1) ^ 2) * -A

/-- Denominator of g(x1). -/
def gxd (u : Fp) : Fp := (2 * u ^ 2 + 1) ^ 2 * (2 * u ^ 2 + 1)

theorem xd_ne (u : Fp) : 2 * u ^ 2 + 1 ≠ 0 := by rw [add_comm]; exact den_ne u

theorem gxd_ne (u : Fp) : gxd u ≠ 0 := mul_ne_zero (pow_ne_zero 2 (xd_ne u)) (xd_ne u)

theorem g_x1 (u : Fp) : g (x1 u) * gxd u = gx1 u := by
  have h := den_ne u
  unfold g x1 gxd gx1
  field_simp
  ring

theorem g_x2 (u : Fp) : g (-A - x1 u) * gxd u = gx1 u * (2 * u ^ 2) := by
  have h := den_ne u
  unfold g x1 gxd gx1
  field_simp
  ring

/-- The argument of the power. -/
def arg (u : Fp) : Fp := gx1 u * gxd u ^ 7

/-- The candidate y11. -/
def y11 (u : Fp) : Fp := arg u ^ (2 ^ 252 - 3) * (gxd u ^ 2 * gxd u * gx1 u)

theorem y11_sq (u : Fp) : y11 u ^ 2 * gxd u = gx1 u * arg u ^ (2 ^ 253 - 5) := by
  have h : arg u ^ (2 ^ 253 - 5) = (arg u ^ (2 ^ 252 - 3)) ^ 2 * arg u := by
    rw [← pow_mul, ← pow_succ]; norm_num only
  rw [h]
  unfold y11 arg
  ring

theorem arg_square (u : Fp) : IsSquare (arg u) ↔ IsSquare (g (x1 u)) := by
  have h0 := gxd_ne u
  have e : arg u = g (x1 u) * (gxd u ^ 4) ^ 2 := by unfold arg; rw [← g_x1]; ring
  rw [e]
  constructor
  · rintro ⟨r, hr⟩
    refine ⟨r / gxd u ^ 4, ?_⟩
    have := pow_ne_zero 4 h0
    field_simp
    linear_combination hr
  · rintro ⟨r, hr⟩
    exact ⟨r * gxd u ^ 4, by rw [hr]; ring⟩

/-- The candidate y1 chosen with the flag e1. -/
def y1 (u : Fp) (e1 : Bool) : Fp := if e1 then y11 u else y11 u * (sqrtM1 : Fp)

/-- The candidate y21. -/
def y21 (u : Fp) : Fp := y11 u * u * ((sqrtM1 + 1 : ℕ) : Fp)

/-- The candidate y2 chosen with the flag e2. -/
def y2 (u : Fp) (e2 : Bool) : Fp := if e2 then y21 u else y21 u * (sqrtM1 : Fp)

/-- If g(x1) is a square, and e1 tells whether y11 is its root, then y1 is. -/
theorem y1_spec {u : Fp} {e1 : Bool} (h : IsSquare (g (x1 u)))
    (he : e1 = true ↔ y11 u ^ 2 * gxd u = gx1 u) :
    y1 u e1 ^ 2 * gxd u = gx1 u ∧ y1 u e1 ^ 2 = g (x1 u) := by
  have key : y1 u e1 ^ 2 * gxd u = gx1 u := by
    unfold y1
    cases e1 with
    | true => simpa using he
    | false =>
      have hne : y11 u ^ 2 * gxd u ≠ gx1 u := fun hh => by simpa using he.2 hh
      have h2 := sqrtM1_sq
      rw [if_neg Bool.false_ne_true]
      rw [y11_sq] at hne
      rcases Full.quartic_of_square _ ((arg_square u).2 h) with h0 | h0 | h0
      · exfalso
        apply hne
        have : gx1 u = 0 := (mul_eq_zero.1 h0).resolve_right (pow_ne_zero 7 (gxd_ne u))
        rw [this, zero_mul]
      · exfalso; apply hne; rw [h0, mul_one]
      · have h3 := y11_sq u
        rw [h0] at h3
        linear_combination -h3 + y11 u ^ 2 * gxd u * h2
  refine ⟨key, mul_right_cancel₀ (gxd_ne u) ?_⟩
  rw [key, g_x1]

/-- If it is not, y1 is not a root, however e1 was decided. -/
theorem y1_nonsquare {u : Fp} (e1 : Bool) (h : ¬ IsSquare (g (x1 u))) :
    y1 u e1 ^ 2 * gxd u ≠ gx1 u := by
  intro hy
  apply h
  exact ⟨y1 u e1, mul_right_cancel₀ (gxd_ne u) (by rw [g_x1, ← hy]; ring)⟩

/-- If it is not, and e2 tells whether y21 is a root of g(x2), then y2 is. -/
theorem y2_spec {u : Fp} {e2 : Bool} (h : ¬ IsSquare (g (x1 u)))
    (he : e2 = true ↔ y21 u ^ 2 * gxd u = gx1 u * (2 * u ^ 2)) :
    y2 u e2 ^ 2 = g (-A - x1 u) := by
  apply mul_right_cancel₀ (gxd_ne u)
  rw [g_x2]
  have hq := quartic_of_nonsquare (mt (arg_square u).1 h)
  have h2 := sqrtM1_sq
  have h3 := y11_sq u
  have hc := c2_sq
  have h21 : y21 u ^ 2 * gxd u =
      gx1 u * (2 * u ^ 2) * (arg u ^ (2 ^ 253 - 5) * (sqrtM1 : Fp)) := by
    unfold y21
    rw [mul_pow, mul_pow, hc]
    linear_combination (2 * u ^ 2 * (sqrtM1 : Fp)) * h3
  have hs : (arg u ^ (2 ^ 253 - 5) * (sqrtM1 : Fp)) ^ 2 = 1 := by
    rw [mul_pow, hq, h2]; ring
  unfold y2
  cases e2 with
  | true => simpa using he
  | false =>
    have hne : y21 u ^ 2 * gxd u ≠ gx1 u * (2 * u ^ 2) := fun hh => by simpa using he.2 hh
    rw [if_neg Bool.false_ne_true, mul_pow, h2]
    rcases mul_self_eq_one_iff.1 ((pow_two _).symm.trans hs) with h4 | h4
    · exfalso; apply hne; rw [h21, h4, mul_one]
    · rw [h4] at h21
      linear_combination -h21

/-- The root with the wanted sign. -/
def signed (y : Fp) (e3 e4 : Bool) : Fp := if e3 ^^ e4 then -y else y

theorem canon_zero : canon 0 = 0 := by simp [canon]

/-- The whole program: the flags must be right, e1 only if g(x1) is a square and e2 only if it is
not. -/
theorem elligator2_spec {u : Fp} {e1 e2 e3 e4 : Bool}
    (h1 : IsSquare (g (x1 u)) → (e1 = true ↔ y11 u ^ 2 * gxd u = gx1 u))
    (h2 : ¬ IsSquare (g (x1 u)) → (e2 = true ↔ y21 u ^ 2 * gxd u = gx1 u * (2 * u ^ 2)))
    (h3 : e3 = true ↔ y1 u e1 ^ 2 * gxd u = gx1 u)
    (h4 : e4 = true ↔ canon (if e3 then y1 u e1 else y2 u e2) % 2 = 1) :
    Elligator2 u (if e3 then -A / (2 * u ^ 2 + 1) else -A * (2 * u ^ 2) / (2 * u ^ 2 + 1))
      (signed (if e3 then y1 u e1 else y2 u e2) e3 e4) := by
  have hx : -A / (2 * u ^ 2 + 1) = x1 u := by rw [x1, add_comm]
  have hx2 : -A * (2 * u ^ 2) / (2 * u ^ 2 + 1) = -A - x1 u := by
    rw [← hx]
    have := xd_ne u
    field_simp
    ring
  have hsq : ∀ y a b, signed y a b ^ 2 = y ^ 2 := by
    intro y a b; unfold signed; split_ifs <;> ring
  by_cases hs : IsSquare (g (x1 u))
  · obtain ⟨k1, k2⟩ := y1_spec hs (h1 hs)
    have he : e3 = true := h3.2 k1
    subst he
    simp only [if_true] at h4 ⊢
    rw [hx]
    refine ⟨by rw [hsq, k2], fun _ => ⟨rfl, fun hy => ?_⟩, fun h => absurd hs h⟩
    have hy0 : y1 u e1 ≠ 0 := by
      intro h0; apply hy; unfold signed; split_ifs <;> simp [h0]
    unfold signed
    cases e4 with
    | true => simpa using h4
    | false =>
      have := Ed25519.canon_neg_parity hy0
      have h5 : ¬ canon (y1 u e1) % 2 = 1 := fun h => by simpa using h4.2 h
      simp only [Bool.xor_false, if_true]
      omega
  · have he : e3 = false := by
      rw [← Bool.not_eq_true, h3]; exact y1_nonsquare e1 hs
    subst he
    simp only [Bool.false_eq_true, if_false] at h4 ⊢
    rw [hx2]
    refine ⟨by rw [hsq, y2_spec hs (h2 hs)], fun h => absurd h hs, fun _ => ⟨rfl, ?_⟩⟩
    unfold signed
    cases e4 with
    | true =>
      simp only [Bool.xor_true, Bool.not_false, if_true]
      have h5 := h4.1 rfl
      have hy0 : y2 u e2 ≠ 0 := by
        intro h0; rw [h0, canon_zero] at h5; omega
      have := Ed25519.canon_neg_parity hy0
      omega
    | false =>
      have h5 : ¬ canon (y2 u e2) % 2 = 1 := fun h => by simpa using h4.2 h
      simp only [Bool.xor_false, Bool.false_eq_true, if_false]
      omega

theorem A_ne : (486664 : Fp) ≠ 0 := by
  intro h
  have : ((486664 : ℕ) : Fp) = 0 := by exact_mod_cast h
  rw [ZMod.natCast_eq_zero_iff] at this
  revert this; decide +kernel

theorem d_mul : d * 486664 = -486660 := by
  have h : ((dN * 486664 + 486660 : ℕ) : Fp) = ((0 : ℕ) : Fp) := natEq (by decide +kernel)
  push_cast at h
  rw [d]
  linear_combination h

/-- The image of a point of curve25519 is on edwards25519. -/
theorem toEdwards_on {x y : Fp} (h : y ^ 2 = g x) :
    -(toEdwards x y).1 ^ 2 + (toEdwards x y).2 ^ 2 =
      1 + d * (toEdwards x y).1 ^ 2 * (toEdwards x y).2 ^ 2 := by
  unfold toEdwards
  split_ifs with hc
  · ring
  · rw [not_or] at hc
    obtain ⟨hy, hx⟩ := hc
    have hx1 : x + 1 ≠ 0 := fun h => hx (by linear_combination h)
    have h1 := c1_sq
    have hd := d_mul
    have e : d = -486660 / 486664 := by rw [eq_div_iff A_ne]; exact hd
    unfold g A at h
    have hA := A_ne
    simp only [mul_pow, div_pow, h1]
    rw [e]
    field_simp
    linear_combination -4 * x * h

/-- The point that the birational map gives. -/
theorem exists_pt {x y : Fp} (h : y ^ 2 = g x) : ∃ Q : Pt, (Q.x, Q.y) = toEdwards x y :=
  ⟨⟨(toEdwards x y).1, (toEdwards x y).2, by rw [curve_a, curve_d, neg_one_mul]; exact toEdwards_on h⟩,
    rfl⟩

/-- The map in fractions, with e telling whether it is undefined. -/
theorem edwards_spec {u n m y : Fp} (h : Elligator2 u (n / m) y) (hm : m ≠ 0) {e : Bool}
    (he : e = true ↔ m * y * (n + m) = 0) : ∃ Q : Pt, MapsTo u Q ∧
    Edw.Rep Q ((if e then 0 else n * (c1 : Fp)) * (if e then 1 else n + m))
      ((if e then 1 else n - m) * (if e then 1 else m * y))
      ((if e then 1 else m * y) * (if e then 1 else n + m))
      ((if e then 0 else n * (c1 : Fp)) * (if e then 1 else n - m)) := by
  obtain ⟨Q, hQ⟩ := exists_pt h.1
  refine ⟨Q, ⟨_, _, h, hQ⟩, ?_⟩
  have hc : (y = 0 ∨ n / m = -1) ↔ e = true := by
    rw [he, mul_eq_zero, mul_eq_zero, or_iff_right hm, div_eq_iff hm]
    refine or_congr Iff.rfl ⟨fun h => by linear_combination h, fun h => by linear_combination h⟩
  unfold toEdwards at hQ
  cases e with
  | true =>
    rw [if_pos (hc.2 rfl)] at hQ
    obtain ⟨hx, hy⟩ := Prod.mk.inj hQ
    refine ⟨by simp, ?_, ?_, ?_⟩ <;> simp [hx, hy]
  | false =>
    have hn : ¬ (y = 0 ∨ n / m = -1) := fun h => by simpa using hc.1 h
    rw [if_neg hn] at hQ
    obtain ⟨hx, hy⟩ := Prod.mk.inj hQ
    rw [not_or] at hn
    obtain ⟨hy0, hx1⟩ := hn
    have hx1' : n + m ≠ 0 := by
      intro h; apply hx1; rw [div_eq_iff hm]; linear_combination h
    simp only [Bool.false_eq_true, if_false]
    have hd1 : n / m + 1 ≠ 0 := by
      intro h; apply hx1; linear_combination h
    refine ⟨mul_ne_zero (mul_ne_zero hm hy0) hx1', ?_, ?_, ?_⟩
    · rw [hx]; field_simp
    · rw [hy]; field_simp
    · rw [hx, hy]; field_simp

/-- Elligator 2 determines its result. -/
theorem Elligator2.unique {u x y x' y' : Fp} (h : Elligator2 u x y) (h' : Elligator2 u x' y') :
    x = x' ∧ y = y' := by
  obtain ⟨h1, h2, h3⟩ := h
  obtain ⟨h1', h2', h3'⟩ := h'
  have hx : x = x' := by
    by_cases hs : IsSquare (g (x1 u))
    · rw [(h2 hs).1, (h2' hs).1]
    · rw [(h3 hs).1, (h3' hs).1]
  subst hx
  refine ⟨rfl, ?_⟩
  have h4 : (y - y') * (y + y') = 0 := by linear_combination h1 - h1'
  rcases mul_eq_zero.1 h4 with h5 | h5
  · linear_combination h5
  · by_cases h0 : y = 0
    · rw [h0] at h5 ⊢
      linear_combination -h5
    · exfalso
      have h6 : y' = -y := by linear_combination h5
      have h0' : y' ≠ 0 := by rw [h6]; exact neg_ne_zero.2 h0
      have hp := Ed25519.canon_neg_parity h0
      rw [← h6] at hp
      by_cases hs : IsSquare (g (x1 u))
      · have a := (h2 hs).2 h0
        have b := (h2' hs).2 h0'
        omega
      · have a := (h3 hs).2
        have b := (h3' hs).2
        omega

/-- The specification determines the point. -/
theorem MapsTo.unique {u : Fp} {Q R : Pt} (hQ : MapsTo u Q) (hR : MapsTo u R) : Q = R := by
  obtain ⟨x, y, h, hq⟩ := hQ
  obtain ⟨x', y', h', hr⟩ := hR
  obtain ⟨rfl, rfl⟩ := h.unique h'
  rw [← hr] at hq
  obtain ⟨a, b⟩ := Prod.mk.inj hq
  exact Edw.Pt.ext a b

end Verif.H2c
