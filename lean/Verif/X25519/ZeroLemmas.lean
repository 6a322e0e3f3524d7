import Verif.X25519.TwistOrder
import Verif.X25519.KeygenLemmas
import Verif.Curve.Twist
import Mathlib.NumberTheory.LegendreSymbol.Basic

/-!
# When the product of a point of Curve25519 or of its twist by a scalar is zero

Mathematics; this file models no code.
-/

namespace Verif.X25519

open Verif.Fp25519 WeierstrassCurve.Affine

set_option exponentiation.threshold 2000

/-- In a group where 8·q kills an element, q prime, a multiplier 16·m with m < q kills it only if
8 does. -/
theorem eight_of {G : Type*} [AddCommGroup G] {q : ℕ} (hq : q.Prime) (h2 : 2 < q) {m : ℕ}
    (h0 : 0 < m) (hm : m < q) {R : G} (h : (8 * q) • R = 0) (h' : (8 * (2 * m)) • R = 0) :
    8 • R = 0 := by
  rw [mul_comm 8 q, mul_smul] at h
  rw [mul_comm 8 (2 * m), mul_smul] at h'
  have hc : Nat.Coprime q (2 * m) := by
    rw [Nat.Prime.coprime_iff_not_dvd hq, hq.dvd_mul]
    rintro (h | h)
    · have := Nat.le_of_dvd (by norm_num) h; omega
    · have := Nat.le_of_dvd h0 h; omega
  have h1 := addOrderOf_dvd_of_nsmul_eq_zero h
  have h3 := addOrderOf_dvd_of_nsmul_eq_zero h'
  have := Nat.dvd_gcd h1 h3
  rw [hc, Nat.dvd_one, AddMonoid.addOrderOf_eq_one_iff] at this
  exact this

/-- The chart of the twist, `u' = 2·u`. -/
def cT : ℕ := 31006382315501081899463554512741035010749607743680830239850771516455213626632

def twistChart : Edw.Chart Twist.curve where
  A := 2 * curveA
  e := -2
  c := (cT : Fp)
  c0 := by
    intro h
    rw [ZMod.natCast_eq_zero_iff] at h
    revert h; decide +kernel
  ha := by
    have h : ((cT ^ 2 + 973320 : ℕ) : Fp) = ((0 : ℕ) : Fp) := Ed25519.natEq (by decide +kernel)
    push_cast at h
    simp only [Twist.curve, curveA]
    linear_combination -h
  hd := by
    have h : ((Twist.dN * cT ^ 2 : ℕ) : Fp) = ((973328 : ℕ) : Fp) :=
      Ed25519.natEq (by decide +kernel)
    push_cast at h
    simp only [Twist.curve, curveA, Twist.d]
    linear_combination h

theorem twist_annihilate (Q : twistChart.W.Point) : (8 * Twist.ell) • Q = 0 := by
  apply twistChart.toE_inj
  have h : ∀ n : ℕ, twistChart.toE (n • Q) = n • twistChart.toE Q :=
    fun n => map_nsmul (AddMonoidHom.mk' twistChart.toE twistChart.toE_add) n Q
  rw [h, Twist.annihilate]
  rfl

theorem curve_annihilate (Q : Mont.Pt curveA) : (8 * Ed25519.ell) • Q = 0 := by
  have key : ∀ W' : WeierstrassCurve.Affine Fp, chart.W = W' → ∀ Q : W'.Point,
      (8 * Ed25519.ell) • Q = 0 := by
    rintro _ rfl Q
    apply chart.toE_inj
    have h : ∀ n : ℕ, chart.toE (n • Q) = n • chart.toE Q :=
      fun n => map_nsmul (AddMonoidHom.mk' chart.toE chart.toE_add) n Q
    rw [h, ← Ed25519.card_pt, card_nsmul_eq_zero']
    rfl
  exact key _ chart_W Q

theorem two_not_square (t : Fp) : t ^ 2 ≠ 2 := by
  have := Ed25519.not_square (a := 2) (by decide +kernel) t
  exact_mod_cast this

/-- Every element is a square or twice a square. -/
theorem square_or (a : Fp) : ∃ t : Fp, a = t ^ 2 ∨ a = 2 * t ^ 2 := by
  have h2 := Ed25519.two_ne
  by_cases ha : a = 0
  · exact ⟨0, Or.inl (by rw [ha]; ring)⟩
  by_cases h : IsSquare a
  · obtain ⟨t, ht⟩ := h
    exact ⟨t, Or.inl (by rw [ht]; ring)⟩
  · have hn : ¬ IsSquare (2 : Fp) := by
      rintro ⟨t, ht⟩
      exact two_not_square t (by rw [ht]; ring)
    have ho : P % 2 = 1 := by norm_num
    have e1 := (ZMod.euler_criterion P ha).not.1 h
    have e2 := (ZMod.euler_criterion P h2).not.1 hn
    have k1 := (ZMod.pow_div_two_eq_neg_one_or_one P ha).resolve_left e1
    have k2 := (ZMod.pow_div_two_eq_neg_one_or_one P h2).resolve_left e2
    have : IsSquare (a / 2) := by
      rw [ZMod.euler_criterion P (div_ne_zero ha h2), div_pow, k1, k2, div_self (by simp)]
    obtain ⟨t, ht⟩ := this
    refine ⟨t, Or.inr ?_⟩
    rw [div_eq_iff h2] at ht
    rw [ht]; ring

/-- `u` is the coordinate of a point of the curve, over the prime field. -/
def OnCurve (u : Fp) : Prop := ∃ y : Fp, y ^ 2 = u ^ 3 + curveA * u ^ 2 + u

open Classical in
/-- The prime factor of the order of the group, curve or twist, that the coordinate belongs to. -/
noncomputable def primeOf (u : Fp) : ℕ := if OnCurve u then Ed25519.ell else Twist.ell

theorem primeOf_prime (u : Fp) : (primeOf u).Prime := by
  unfold primeOf; split
  · exact Ed25519.ell_prime
  · exact Twist.ell_prime

theorem primeOf_gt (u : Fp) : 2 ^ 252 < primeOf u := by
  unfold primeOf; split
  · norm_num
  · decide +kernel

/-- Every coordinate is that of a point, over the algebraic closure, that 8·q kills for one of the
two primes. -/
theorem exists_killed [DecidableEq (AlgebraicClosure Fp)] (u : Fp) :
    ∃ R : Mont.Pt (algebraMap Fp (AlgebraicClosure Fp) curveA),
      Mont.X0 R = algebraMap Fp (AlgebraicClosure Fp) u ∧ (8 * primeOf u) • R = 0 := by
  let f := algebraMap Fp (AlgebraicClosure Fp)
  by_cases hu : OnCurve u
  · obtain ⟨t, h⟩ := hu
    have hn := Mont.nonsing curve_two curve_A h
    have hk := curve_annihilate (.some u t hn)
    have hA : f curveA = 1 ^ 2 * f curveA := by ring
    have hB : (1 : AlgebraicClosure Fp) = 1 ^ 4 * f 1 := by rw [map_one]; ring
    refine ⟨Twist.map f one_ne_zero hA hB (.some _ _ hn), ?_, ?_⟩
    · show (1 : AlgebraicClosure Fp) ^ 2 * f u = f u
      ring
    · rw [primeOf, if_pos ⟨t, h⟩]
      have := map_nsmul (Twist.map f one_ne_zero hA hB) (8 * Ed25519.ell) (.some _ _ hn)
      have hz : (8 * Ed25519.ell) • (Point.some _ _ hn : (Twist.W curveA 1).Point) = 0 := hk
      rw [hz, map_zero] at this
      exact this.symm
  · obtain ⟨t, h | h⟩ := square_or (u ^ 3 + curveA * u ^ 2 + u)
    · exact absurd ⟨t, h.symm⟩ hu
    have e : (4 * t) ^ 2 = (2 * u) ^ 3 + 2 * curveA * (2 * u) ^ 2 + (-2) ^ 2 * (2 * u) := by
      linear_combination -8 * h
    have hn : twistChart.W.Nonsingular (2 * u) (4 * t) := twistChart.nonsing e
    have hk := twist_annihilate (.some _ _ hn)
    obtain ⟨s, hs⟩ := IsAlgClosed.exists_pow_nat_eq ((f 2)⁻¹) (n := 2) (by norm_num)
    have hf2 : f 2 ≠ 0 := (map_ne_zero f).2 Ed25519.two_ne
    have hs0 : s ≠ 0 := by
      rintro rfl
      exact inv_ne_zero hf2 (by rw [← hs]; ring)
    have hA : f curveA = s ^ 2 * f twistChart.A := by
      rw [hs, show twistChart.A = 2 * curveA from rfl, map_mul, inv_mul_cancel_left₀ hf2]
    have hB : (1 : AlgebraicClosure Fp) = s ^ 4 * f (twistChart.e ^ 2) := by
      rw [show s ^ 4 = (s ^ 2) ^ 2 by ring, hs, show twistChart.e ^ 2 = 2 ^ 2 by
        simp [twistChart], map_pow, ← mul_pow, inv_mul_cancel₀ hf2, one_pow]
    refine ⟨Twist.map f hs0 hA hB (.some _ _ hn), ?_, ?_⟩
    · show s ^ 2 * f (2 * u) = f u
      rw [hs, map_mul, inv_mul_cancel_left₀ hf2]
    · rw [primeOf, if_neg hu]
      have := map_nsmul (Twist.map f hs0 hA hB) (8 * Twist.ell) (.some _ _ hn)
      have hz : (8 * Twist.ell) • (Point.some _ _ hn : (Twist.W twistChart.A (twistChart.e ^ 2)).Point)
        = 0 := hk
      rw [hz, map_zero] at this
      exact this.symm

end Verif.X25519
