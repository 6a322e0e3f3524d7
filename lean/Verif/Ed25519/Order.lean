import Verif.Ed25519.Curve
import Verif.Primes
import Mathlib.GroupTheory.OrderOfElement
import Mathlib.Data.Fintype.Card
import Mathlib.SetTheory.Cardinal.Finite

/-!
# The order of the group of points of edwards25519

The group has 8·ℓ points: it contains a point of order ℓ and one of order 8, so 8·ℓ divides its
order, and it has at most 2p < 16·ℓ points, two for each y.  Mathematics; this file models no code.
-/

namespace Verif.Ed25519

open Verif.Fp25519

set_option exponentiation.threshold 2000

/-- A point of order 8. -/
def T8x : ℕ := 43496726750457979451437558183816721346016168361625936758514574428539776020131
def T8y : ℕ := 55188659117513257062467267217118295137698188065244968500265048394206261417927

def T8 : Pt := ⟨(T8x : Fp), (T8y : Fp), by
  have h : ((T8y ^ 2 + (P - 1) * T8x ^ 2 : ℕ) : Fp) = ((1 + dN * T8x ^ 2 * T8y ^ 2 : ℕ) : Fp) :=
    natEq (by decide +kernel)
  rw [Nat.cast_add, Nat.cast_mul, Nat.cast_sub (by norm_num), ZMod.natCast_self] at h
  push_cast at h
  simp only [curve, d]
  linear_combination h⟩

def nT8 : NPt := ⟨T8x, T8y, 1, T8x * T8y % P⟩

theorem nT8_is : nT8.Is T8 := by
  have := Edw.Rep.affine (C := curve) T8
  unfold NPt.Is nT8
  simp only [ZMod.natCast_mod, Nat.cast_mul, Nat.cast_one]
  exact this

theorem T8_order : addOrderOf T8 = 2 ^ (2 + 1) := by
  apply addOrderOf_eq_prime_pow
  · intro h
    have h4 := nT8_is.mul 4 (2 ^ 2) (by norm_num)
    rw [h] at h4
    obtain ⟨z, x, y, t⟩ := h4
    rw [Edw.Pt.zero_y, one_mul] at y
    have : (nT8.mul 4 (2 ^ 2)).Y % P ≠ (nT8.mul 4 (2 ^ 2)).Z % P := by decide +kernel
    exact this ((ZMod.natCast_eq_natCast_iff _ _ P).1 y)
  · exact (nT8_is.mul 4 (2 ^ 3) (by norm_num)).eq_of_same NPt.Is.zero (by decide +kernel)

theorem pt_of_y (y : Fp) (Q R : Pt) (hQ : Q.y = y) (hR : R.y = y) (hx : Q.x ≠ R.x) :
    Q.x = -R.x := by
  have h1 := Q.on
  have h2 := R.on
  rw [hQ] at h1
  rw [hR] at h2
  have h0 : curve.a - curve.d * y ^ 2 ≠ 0 := by
    intro h
    have hy : y ≠ 0 := by
      rintro rfl
      exact curve.a0 (by linear_combination h)
    apply curve.hd (curve.r / y)
    rw [div_pow, ← curve.ha, div_eq_iff (pow_ne_zero 2 hy)]
    linear_combination h
  have h3 : (curve.a - curve.d * y ^ 2) * ((Q.x - R.x) * (Q.x + R.x)) = 0 := by
    linear_combination h1 - h2
  have := (mul_eq_zero.1 ((mul_eq_zero.1 h3).resolve_left h0)).resolve_left (sub_ne_zero.2 hx)
  linear_combination this

/-- A choice for each y and x: whether x is the smaller of the two. -/
def side (Q : Pt) : Bool := decide (canon Q.x % 2 = 0)

theorem canon_neg_ne {x : Fp} (h : x ≠ 0) : canon (-x) % 2 ≠ canon x % 2 := by
  have h1 : canon (-x) + canon x = P := by
    unfold canon
    have : NeZero x := ⟨h⟩
    rw [ZMod.val_neg_of_ne_zero]
    have := ZMod.val_lt x
    omega
  have : P % 2 = 1 := by norm_num
  omega

theorem side_inj : Function.Injective (fun Q : Pt => (Q.y, side Q)) := by
  intro Q R h
  obtain ⟨hy, hs⟩ := Prod.mk.inj h
  by_cases hx : Q.x = R.x
  · exact Edw.Pt.ext hx hy
  · have hn := pt_of_y R.y Q R hy rfl hx
    have h0 : R.x ≠ 0 := by
      intro h0
      rw [h0, neg_zero] at hn
      exact hx (hn.trans h0.symm)
    have hp := canon_neg_ne h0
    rw [← hn] at hp
    simp only [side, decide_eq_decide] at hs
    omega

noncomputable instance : Finite Pt := Finite.of_injective _ side_inj

theorem card_le : Nat.card Pt ≤ 2 * P := by
  have := Nat.card_le_card_of_injective _ side_inj
  rw [Nat.card_prod, Nat.card_zmod, Nat.card_eq_fintype_card (α := Bool), Fintype.card_bool] at this
  omega

theorem ell_prime : ell.Prime := by
  have h : ell = 7237005577332262213973186563042994240857116359379907606001950938285454250989 := by
    norm_num
  rw [h]; exact Primes.prime_l25519

/-- The group has 8·ℓ elements. -/
theorem card_pt : Nat.card Pt = 8 * ell := by
  have := Fact.mk ell_prime
  have h1 : ell ∣ Nat.card Pt := by
    rw [← addOrderOf_eq_prime ell_B B_ne]; exact addOrderOf_dvd_natCard _
  have h2 : 8 ∣ Nat.card Pt := by
    have := addOrderOf_dvd_natCard T8
    rwa [T8_order] at this
  have h3 : 8 * ell ∣ Nat.card Pt := by
    refine Nat.Coprime.mul_dvd_of_dvd_of_dvd ?_ h2 h1
    decide +kernel
  obtain ⟨k, hk⟩ := h3
  have h4 := card_le
  have h5 : 0 < Nat.card Pt := Nat.card_pos
  have h6 : k = 1 := by
    rcases k with _ | _ | k
    · omega
    · rfl
    · exfalso
      rw [hk] at h4
      have : 8 * ell * 2 ≤ 8 * ell * (k + 1 + 1) := Nat.mul_le_mul_left _ (by omega)
      have h7 : 2 * P < 8 * ell * 2 := by norm_num
      omega
  rw [hk, h6, mul_one]

/-- Every point is annihilated by 8·ℓ. -/
theorem ell_smul_eight (Q : Pt) : ell • (8 • Q) = 0 := by
  rw [smul_smul, mul_comm, ← card_pt]
  exact card_nsmul_eq_zero'

end Verif.Ed25519
