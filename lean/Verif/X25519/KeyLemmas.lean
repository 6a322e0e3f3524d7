import Verif.X25519.ZeroLemmas

/-!
# Which scalars and which coordinates have the same product

Mathematics; this file models no code.
-/

namespace Verif.X25519

open Verif.Fp25519 WeierstrassCurve.Affine

set_option exponentiation.threshold 2000

/-- Two points with the same coordinate, not 0, are equal or opposite. -/
theorem same_x {K : Type} [Field K] [DecidableEq K] {A : K} {Q Q' : Mont.Pt A}
    (h : Mont.X0 Q = Mont.X0 Q') (h0 : Mont.X0 Q ≠ 0) : Q = Q' ∨ Q = -Q' := by
  cases Q with
  | zero => exact absurd rfl h0
  | some x y hn =>
    cases Q' with
    | zero => exact absurd h h0
    | some x' y' hn' =>
      obtain rfl : x = x' := h
      have e : (y - y') * (y + y') = 0 := by
        linear_combination Mont.eqn hn - Mont.eqn hn'
      rcases mul_eq_zero.1 e with e | e
      · left
        obtain rfl : y = y' := by linear_combination e
        rfl
      · right
        have hy : y = (Mont.curve A).negY x y' := by
          rw [Mont.negY_eq]; linear_combination e
        rw [Point.neg_some]
        simp only [Point.some.injEq, true_and]
        exact hy

theorem X0_neg {K : Type} [Field K] [DecidableEq K] {A : K} (Q : Mont.Pt A) :
    Mont.X0 (-Q) = Mont.X0 Q := by
  cases Q with
  | zero => rfl
  | some x y hn => rfl

theorem coprime_of_lt {q m : ℕ} (hq : q.Prime) (h0 : 0 < m) (hm : m < q) : Nat.Coprime q m := by
  rw [Nat.Prime.coprime_iff_not_dvd hq]
  intro h
  have := Nat.le_of_dvd h0 h
  omega

/-- Dividing by a multiplier that is prime to the orders. -/
theorem eight_cancel {G : Type*} [AddCommGroup G] {q q' m : ℕ} (hq : q.Prime) (hq' : q'.Prime)
    (h0 : 0 < m) (hm : m < q) (hm' : m < q') {R R' : G} (h : (8 * q) • R = 0)
    (h' : (8 * q') • R' = 0) (e : (8 * m) • R = (8 * m) • R') : 8 • R = 8 • R' := by
  have hc : Nat.Coprime (q * q') m :=
    Nat.Coprime.mul_left (coprime_of_lt hq h0 hm) (coprime_of_lt hq' h0 hm')
  have h1 : (q * q') • (8 • R - 8 • R') = 0 := by
    rw [smul_sub, smul_smul, smul_smul, show q * q' * 8 = q' * (8 * q) by ring, mul_smul, h,
      show q' * (8 * q) = q * (8 * q') by ring, mul_smul, h', smul_zero, smul_zero, sub_zero]
  have h2 : m • (8 • R - 8 • R') = 0 := by
    rw [smul_sub, smul_smul, smul_smul, mul_comm m 8, e, sub_self]
  have := Nat.dvd_gcd (addOrderOf_dvd_of_nsmul_eq_zero h1) (addOrderOf_dvd_of_nsmul_eq_zero h2)
  rw [hc, Nat.dvd_one, AddMonoid.addOrderOf_eq_one_iff] at this
  exact sub_eq_zero.1 this

/-- The same result for one multiplier, not 0, is the same result for every multiplier. -/
theorem xmul_transfer {u u' v w w' : Fp} {m n : ℕ} (h0 : 0 < m) (hm : m ≤ 2 ^ 252)
    (h : Mont.XMul curveA (8 * m) u v) (h' : Mont.XMul curveA (8 * m) u' v) (hv : v ≠ 0)
    (k : Mont.XMul curveA (8 * n) u w) (k' : Mont.XMul curveA (8 * n) u' w') : w = w' := by
  classical
  obtain ⟨R, hR, hk⟩ := exists_killed u
  obtain ⟨R', hR', hk'⟩ := exists_killed u'
  have hq := primeOf_prime u
  have hq' := primeOf_prime u'
  have lt := lt_of_le_of_lt hm (primeOf_gt u)
  have lt' := lt_of_le_of_lt hm (primeOf_gt u')
  have x := h _ R hR
  have x' := h' _ R' hR'
  have hne : Mont.X0 ((8 * m) • R) ≠ 0 := by
    rw [x]; exact (map_ne_zero _).2 hv
  apply (algebraMap Fp (AlgebraicClosure Fp)).injective
  rw [← k _ R hR, ← k' _ R' hR', mul_comm 8 n, mul_smul, mul_smul n 8 R']
  rcases same_x (x.trans x'.symm) hne with e | e
  · rw [eight_cancel hq hq' h0 lt lt' hk hk' e]
  · rw [← smul_neg] at e
    have hk'' : (8 * primeOf u') • (-R') = 0 := by rw [smul_neg, hk', neg_zero]
    rw [eight_cancel hq hq' h0 lt lt' hk hk'' e, smul_neg, smul_neg, X0_neg]

/-- Two multipliers give one result, not 0, exactly when they are congruent up to sign. -/
theorem xmul_scalars {u v v' : Fp} {m m' : ℕ} (h : Mont.XMul curveA (8 * m) u v)
    (h' : Mont.XMul curveA (8 * m') u v') (hv : v ≠ 0) :
    v = v' ↔ (primeOf u : ℤ) ∣ m - m' ∨ (primeOf u : ℤ) ∣ m + m' := by
  classical
  obtain ⟨R, hR, hk⟩ := exists_killed u
  have hq := primeOf_prime u
  have := Fact.mk hq
  have x := h _ R hR
  have x' := h' _ R hR
  have hne : Mont.X0 ((8 * m) • R) ≠ 0 := by
    rw [x]; exact (map_ne_zero _).2 hv
  rw [mul_comm 8 m, mul_smul] at x hne
  rw [mul_comm 8 m', mul_smul] at x'
  rw [mul_comm 8, mul_smul] at hk
  generalize 8 • R = S at *
  have hS : S ≠ 0 := by
    rintro rfl
    rw [smul_zero] at hne
    exact hne rfl
  have hord : addOrderOf S = primeOf u := addOrderOf_eq_prime hk hS
  have z1 : m • S = m' • S ↔ (primeOf u : ℤ) ∣ m - m' := by
    rw [← hord, addOrderOf_dvd_iff_zsmul_eq_zero, sub_smul, natCast_zsmul, natCast_zsmul, sub_eq_zero]
  have z2 : m • S = -(m' • S) ↔ (primeOf u : ℤ) ∣ m + m' := by
    rw [← hord, addOrderOf_dvd_iff_zsmul_eq_zero, add_smul, natCast_zsmul, natCast_zsmul,
      add_eq_zero_iff_eq_neg]
  rw [← z1, ← z2]
  constructor
  · rintro rfl
    exact same_x (x.trans x'.symm) hne
  · intro e
    apply (algebraMap Fp (AlgebraicClosure Fp)).injective
    rw [← x, ← x']
    rcases e with e | e
    · rw [e]
    · rw [e, X0_neg]

end Verif.X25519
