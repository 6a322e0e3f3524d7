import Verif.X25519.KeyLemmas
import Verif.X448.ZeroLemmas

/-!
# Which scalars and which coordinates have the same product on Curve448

Mathematics; this file models no code.
-/

namespace Verif.X448

open Verif.Fp448 WeierstrassCurve.Affine
open Verif.X25519 (same_x X0_neg)

set_option exponentiation.threshold 2000

open Classical in
/-- The large prime factor of the order of the curve or twist that a coordinate belongs to. -/
noncomputable def primeOf (u : Fp) : ℕ := if OnCurve u then ell else ellT

theorem primeOf_prime (u : Fp) : (primeOf u).Prime := by
  unfold primeOf
  split_ifs
  · exact ell_prime
  · exact ellT_prime

theorem primeOf_gt (u : Fp) : 2 ^ 446 < 2 * primeOf u := by
  unfold primeOf
  split_ifs <;> decide +kernel

theorem four_of_eight {K : Type} [Field K] [DecidableEq K] [Algebra Fp K]
    {S : Mont.Pt (algebraMap Fp K curveA)} {w : Fp} (hS : Mont.X0 S = algebraMap Fp K w)
    (h : 8 • S = 0) : 4 • S = 0 := four_smul hS (eight_torsion hS h)

/-- Every coordinate is that of a point, over the algebraic closure, that 4·q kills for one of the
two primes. -/
theorem exists_killed [DecidableEq (AlgebraicClosure Fp)] (u : Fp) :
    ∃ R : Mont.Pt (algebraMap Fp (AlgebraicClosure Fp) curveA),
      Mont.X0 R = algebraMap Fp (AlgebraicClosure Fp) u ∧ (4 * primeOf u) • R = 0 := by
  let ι := algebraMap Fp (AlgebraicClosure Fp)
  by_cases hu : OnCurve u
  · obtain ⟨t, h⟩ := hu
    have hn := Mont.nonsing curve_two curve_A h
    have hA : ι curveA = 1 ^ 2 * ι curveA := by ring
    have hB : (1 : AlgebraicClosure Fp) = 1 ^ 4 * ι 1 := by rw [map_one]; ring
    refine ⟨Twist.map ι one_ne_zero hA hB (.some _ _ hn), ?_, ?_⟩
    · show (1 : AlgebraicClosure Fp) ^ 2 * ι u = ι u
      ring
    · rw [primeOf, if_pos ⟨t, h⟩]
      have := map_nsmul (Twist.map ι one_ne_zero hA hB) (4 * ell) (.some _ _ hn)
      have hz : (4 * ell) • (Point.some _ _ hn : (Twist.W curveA 1).Point) = 0 :=
        four_ell (.some _ _ hn)
      rw [hz, map_zero] at this
      exact this.symm
  · obtain ⟨y, hy⟩ := twist_of_not hu
    obtain ⟨s, hs⟩ := IsAlgClosed.exists_pow_nat_eq (-1 : AlgebraicClosure Fp) (n := 2) (by norm_num)
    have hs0 : s ≠ 0 := by
      rintro rfl
      have : (0 : AlgebraicClosure Fp) = -1 := by rw [← hs]; ring
      exact one_ne_zero (α := AlgebraicClosure Fp) (by linear_combination this)
    have hA : ι curveA = s ^ 2 * ι (-curveA) := by rw [hs, map_neg]; ring
    have hB : (1 : AlgebraicClosure Fp) = s ^ 4 * ι 1 := by
      rw [show s ^ 4 = (s ^ 2) ^ 2 by ring, hs, map_one]; ring
    let f : Mont.Pt (-curveA) →+ Mont.Pt (ι curveA) := Twist.map ι hs0 hA hB
    have hf : ∀ Q : Mont.Pt (-curveA), Mont.X0 (f Q : Mont.Pt (ι curveA)) = ι (-Mont.X0 Q) := by
      intro Q
      cases Q with
      | zero =>
        rw [show Mont.X0 (Point.zero : Mont.Pt (-curveA)) = 0 from rfl, neg_zero, map_zero]; rfl
      | some x y hn =>
        show s ^ 2 * ι x = ι (-x)
        rw [hs, map_neg]; ring
    let Q : Mont.Pt (-curveA) := .some (-u) y (Mont.nonsing curve_two twist_A hy)
    refine ⟨f Q, ?_, ?_⟩
    · rw [hf Q, show Mont.X0 Q = -u from rfl, neg_neg]
    · rw [primeOf, if_neg hu]
      have h1 := hf (ellT • Q)
      have h8 : 8 • (f (ellT • Q) : Mont.Pt (ι curveA)) = 0 := by
        have e : 8 • (ellT • Q) = 0 := by rw [smul_smul]; exact twist_annihilate Q
        have := map_nsmul f 8 (ellT • Q)
        rw [← this]
        exact (congrArg f e).trans (map_zero f)
      have h4 := four_of_eight h1 h8
      have e : (4 * ellT) • (f Q : Mont.Pt (ι curveA)) = 4 • f (ellT • Q) := by
        rw [mul_smul]
        exact congrArg (4 • ·) (map_nsmul f ellT Q).symm
      exact e.trans h4

/-- Dividing by a multiplier that is prime to the orders. -/
theorem four_cancel {G : Type*} [AddCommGroup G] {q q' m : ℕ} (hc : Nat.Coprime q m)
    (hc' : Nat.Coprime q' m) {R R' : G} (h : (4 * q) • R = 0)
    (h' : (4 * q') • R' = 0) (e : (4 * m) • R = (4 * m) • R') : 4 • R = 4 • R' := by
  have hc : Nat.Coprime (q * q') m := Nat.Coprime.mul_left hc hc'
  have h1 : (q * q') • (4 • R - 4 • R') = 0 := by
    rw [smul_sub, smul_smul, smul_smul, show q * q' * 4 = q' * (4 * q) by ring, mul_smul, h,
      show q' * (4 * q) = q * (4 * q') by ring, mul_smul, h', smul_zero, smul_zero, sub_zero]
  have h2 : m • (4 • R - 4 • R') = 0 := by
    rw [smul_sub, smul_smul, smul_smul, mul_comm m 4, e, sub_self]
  have := Nat.dvd_gcd (addOrderOf_dvd_of_nsmul_eq_zero h1) (addOrderOf_dvd_of_nsmul_eq_zero h2)
  rw [hc, Nat.dvd_one, AddMonoid.addOrderOf_eq_one_iff] at this
  exact sub_eq_zero.1 this

/-- A multiplier that does not give 0 is prime to the order. -/
theorem coprime_of_ne {u v : Fp} {m : ℕ} (h0 : 0 < m) (hm : m < 2 ^ 446)
    (h : Mont.XMul curveA (4 * m) u v) (hv : v ≠ 0) : Nat.Coprime (primeOf u) m := by
  refine coprime_of_lt (primeOf_prime u) h0 (lt_trans hm (primeOf_gt u)) ?_
  rintro rfl
  apply hv
  rw [zero_iff h0 hm h]
  by_cases hc : OnCurve u
  · exact Or.inr ⟨by rw [primeOf, if_pos hc], hc⟩
  · exfalso
    rw [primeOf, if_neg hc] at hm
    revert hm
    decide +kernel

/-- The same result for one multiplier, not 0, is the same result for every multiplier. -/
theorem xmul_transfer {u u' v w w' : Fp} {m n : ℕ} (h0 : 0 < m) (hm : m < 2 ^ 446)
    (h : Mont.XMul curveA (4 * m) u v) (h' : Mont.XMul curveA (4 * m) u' v) (hv : v ≠ 0)
    (k : Mont.XMul curveA (4 * n) u w) (k' : Mont.XMul curveA (4 * n) u' w') : w = w' := by
  classical
  obtain ⟨R, hR, hk⟩ := exists_killed u
  obtain ⟨R', hR', hk'⟩ := exists_killed u'
  have c := coprime_of_ne h0 hm h hv
  have c' := coprime_of_ne h0 hm h' hv
  have x := h _ R hR
  have x' := h' _ R' hR'
  have hne : Mont.X0 ((4 * m) • R) ≠ 0 := by
    rw [x]; exact (map_ne_zero _).2 hv
  apply (algebraMap Fp (AlgebraicClosure Fp)).injective
  rw [← k _ R hR, ← k' _ R' hR', mul_comm 4 n, mul_smul, mul_smul n 4 R']
  rcases same_x (x.trans x'.symm) hne with e | e
  · rw [four_cancel c c' hk hk' e]
  · rw [← smul_neg] at e
    have hk'' : (4 * primeOf u') • (-R') = 0 := by rw [smul_neg, hk', neg_zero]
    rw [four_cancel c c' hk hk'' e, smul_neg, smul_neg, X0_neg]

/-- Two multipliers give one result, not 0, exactly when they are congruent up to sign. -/
theorem xmul_scalars {u v v' : Fp} {m m' : ℕ} (h : Mont.XMul curveA (4 * m) u v)
    (h' : Mont.XMul curveA (4 * m') u v') (hv : v ≠ 0) :
    v = v' ↔ (primeOf u : ℤ) ∣ m - m' ∨ (primeOf u : ℤ) ∣ m + m' := by
  classical
  obtain ⟨R, hR, hk⟩ := exists_killed u
  have hq := primeOf_prime u
  have := Fact.mk hq
  have x := h _ R hR
  have x' := h' _ R hR
  have hne : Mont.X0 ((4 * m) • R) ≠ 0 := by
    rw [x]; exact (map_ne_zero _).2 hv
  rw [mul_comm 4 m, mul_smul] at x hne
  rw [mul_comm 4 m', mul_smul] at x'
  rw [mul_comm 4, mul_smul] at hk
  generalize 4 • R = S at *
  have hS : S ≠ 0 := by
    rintro rfl
    rw [smul_zero] at hne
    exact hne rfl
  have hord : addOrderOf S = primeOf u := addOrderOf_eq_prime hk hS
  have z1 : m • S = m' • S ↔ (primeOf u : ℤ) ∣ m - m' := by
    rw [← hord, addOrderOf_dvd_iff_zsmul_eq_zero, sub_smul, natCast_zsmul, natCast_zsmul, sub_eq_zero]
  have z2 : m • S = -(m' • S) ↔ (primeOf u : ℤ) ∣ m + m' := by
    rw [← hord, addOrderOf_dvd_iff_zsmul_eq_zero, add_smul, natCast_zsmul, natCast_zsmul,
      add_eq_zero_iff_eq_neg]
  rw [← z1, ← z2]
  constructor
  · rintro rfl
    exact same_x (x.trans x'.symm) hne
  · intro e
    apply (algebraMap Fp (AlgebraicClosure Fp)).injective
    rw [← x, ← x']
    rcases e with e | e
    · rw [e]
    · rw [e, X0_neg]

end Verif.X448
