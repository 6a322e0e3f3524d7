import Verif.X448.Order
import Verif.Props.X448

/-!
# When the product of a point of Curve448 or of its twist by a scalar is zero

Mathematics; this file models no code.
-/

namespace Verif.X448

open Verif.Fp448 WeierstrassCurve.Affine
open Verif.Ed448 (natEq natNe not_square)

set_option exponentiation.threshold 2000

/-! ## Points of order dividing 8 -/

theorem ns1 (t : Fp) : t ^ 2 ≠ curveA ^ 2 - 4 := by
  have := not_square (a := 156326 ^ 2 - 4) (by decide +kernel) t
  rw [Nat.cast_sub (by norm_num)] at this
  rw [curveA]; exact_mod_cast this

theorem ns2 (t : Fp) : t ^ 2 ≠ 2 - curveA := by
  have := not_square (a := P - 156324) (by decide +kernel) t
  rw [Nat.cast_sub (by decide +kernel), ZMod.natCast_self] at this
  rw [curveA]
  intro h
  apply this
  push_cast
  rw [h]; ring

theorem ns3 (t : Fp) : t ^ 2 ≠ curveA + 2 := by
  have := not_square (a := 156328) (by decide +kernel) t
  rw [curveA]
  intro h
  apply this
  push_cast
  rw [h]; ring

section
variable {K : Type} [Field K] [DecidableEq K] [Algebra Fp K]

local notation "ι" => algebraMap Fp K

theorem dblRep {R : Mont.Pt (ι curveA)} {u : Fp} (hR : Mont.X0 R = ι u) (h0 : R ≠ 0) :
    Mont.Rep (R + R) (ι ((u ^ 2 - 1) ^ 2)) (ι (4 * u * (u ^ 2 + curveA * u + 1))) := by
  have h2 : (2 : K) ≠ 0 := by
    rw [← map_ofNat ι 2]; exact (map_ne_zero ι).2 curve_two
  have hA : (ι curveA) ^ 2 ≠ 4 := by
    rw [← map_ofNat ι 4, ← map_pow]; exact fun h => curve_A ((ι).injective h)
  have hr : Mont.Rep R (ι u) 1 := by
    cases R with
    | zero => exact absurd rfl h0
    | some x y hn => exact ⟨one_ne_zero, by rw [mul_one]; exact hR.symm⟩
  have := Mont.rep_dbl h2 hA hr
  simpa only [map_pow, map_sub, map_one, map_mul, map_add, map_ofNat, one_pow, mul_one] using this

theorem dblX {R : Mont.Pt (ι curveA)} {u : Fp} (hR : Mont.X0 R = ι u) :
    Mont.X0 (R + R) = ι ((u ^ 2 - 1) ^ 2 * (4 * u * (u ^ 2 + curveA * u + 1))⁻¹) := by
  by_cases h0 : R = 0
  · subst h0
    have : u = 0 := (ι).injective (by rw [map_zero]; exact hR.symm)
    subst this
    rw [add_zero, hR]; simp
  · rw [← (dblRep hR h0).x0, map_mul ι ((u ^ 2 - 1) ^ 2), map_inv₀]

theorem quad_ne (w : Fp) : w ^ 2 + curveA * w + 1 ≠ 0 := by
  intro h
  apply ns1 (2 * w + curveA)
  linear_combination 4 * h

theorem two_torsion {R : Mont.Pt (ι curveA)} {w : Fp} (hR : Mont.X0 R = ι w) (h : R + R = 0) :
    w = 0 := by
  by_cases h0 : R = 0
  · subst h0
    exact (ι).injective (by rw [map_zero]; exact hR.symm)
  · have := dblRep hR h0
    rw [h] at this
    have hz := (map_eq_zero ι).1 this.2
    rcases mul_eq_zero.1 hz with h1 | h1
    · exact (mul_eq_zero.1 h1).resolve_left (Mont.four_ne curve_two)
    · exact absurd h1 (quad_ne w)

/-- The coordinates that double to 0. -/
theorem dbl_zero {u : Fp} (h : (u ^ 2 - 1) ^ 2 * (4 * u * (u ^ 2 + curveA * u + 1))⁻¹ = 0) :
    u = 0 ∨ u = 1 ∨ u = -1 := by
  rcases mul_eq_zero.1 h with h1 | h1
  · have : (u - 1) * (u + 1) = 0 := by
      have := pow_eq_zero_iff (two_ne_zero) |>.1 h1
      linear_combination this
    rcases mul_eq_zero.1 this with h | h
    · exact Or.inr (Or.inl (by linear_combination h))
    · exact Or.inr (Or.inr (by linear_combination h))
  · left
    rcases mul_eq_zero.1 (inv_eq_zero.1 h1) with h1 | h1
    · exact (mul_eq_zero.1 h1).resolve_left (Mont.four_ne curve_two)
    · exact absurd h1 (quad_ne u)

theorem four_torsion {R : Mont.Pt (ι curveA)} {w : Fp} (hR : Mont.X0 R = ι w)
    (h : (R + R) + (R + R) = 0) : w = 0 ∨ w = 1 ∨ w = -1 :=
  dbl_zero (two_torsion (dblX hR) h)

/-- There are no coordinates of points of order 8 in the field. -/
theorem eight_torsion {R : Mont.Pt (ι curveA)} {u : Fp} (hR : Mont.X0 R = ι u)
    (h : 8 • R = 0) : u = 0 ∨ u = 1 ∨ u = -1 := by
  have h8' : ((R + R) + (R + R)) + ((R + R) + (R + R)) = 0 := by
    rw [← h]; module
  have h2 := curve_two
  have key : ∀ {e : Fp}, e ≠ 0 →
      (u ^ 2 - 1) ^ 2 * (4 * u * (u ^ 2 + curveA * u + 1))⁻¹ = e →
      u ≠ 0 ∧ (u ^ 2 - 1) ^ 2 = e * (4 * u * (u ^ 2 + curveA * u + 1)) := by
    intro e he hk
    have hd : 4 * u * (u ^ 2 + curveA * u + 1) ≠ 0 := by
      intro h0; rw [h0, inv_zero, mul_zero] at hk; exact he hk.symm
    refine ⟨by rintro rfl; simp at hd, ?_⟩
    rwa [← div_eq_mul_inv, div_eq_iff hd] at hk
  rcases four_torsion (dblX hR) h8' with h | h | h
  · exact dbl_zero h
  · obtain ⟨hu, e⟩ := key one_ne_zero h
    exfalso
    apply ns3 ((u - 1) ^ 2 / (2 * u))
    rw [div_pow, div_eq_iff (pow_ne_zero 2 (mul_ne_zero h2 hu))]
    linear_combination e
  · obtain ⟨hu, e⟩ := key (neg_ne_zero.2 one_ne_zero) h
    exfalso
    apply ns2 ((u + 1) ^ 2 / (2 * u))
    rw [div_pow, div_eq_iff (pow_ne_zero 2 (mul_ne_zero h2 hu))]
    linear_combination e

/-- The points with the coordinates 0, 1 and -1 are annihilated by 4. -/
theorem four_smul {R : Mont.Pt (ι curveA)} {u : Fp} (hR : Mont.X0 R = ι u)
    (h : u = 0 ∨ u = 1 ∨ u = -1) : 4 • R = 0 := by
  have h2 := dblX hR
  have : (u ^ 2 - 1) ^ 2 * (4 * u * (u ^ 2 + curveA * u + 1))⁻¹ = 0 := by
    rcases h with rfl | rfl | rfl <;> simp
  rw [this, map_zero] at h2
  have e : 4 • R = (R + R) + (R + R) := by module
  rw [e, Mont.two_smul_of_x0 h2]

end

/-! ## Multiples -/

/-- In a group where 8·q kills an element, q prime, a multiplier 8·m with m prime to q kills it only
if 8 does. -/
theorem eight_of {G : Type*} [AddCommGroup G] {q m : ℕ} (hc : Nat.Coprime q m) {R : G}
    (h : (8 * q) • R = 0) (h' : (8 * m) • R = 0) : 8 • R = 0 := by
  rw [mul_comm 8 q, mul_smul] at h
  rw [mul_comm 8 m, mul_smul] at h'
  have h1 := addOrderOf_dvd_of_nsmul_eq_zero h
  have h3 := addOrderOf_dvd_of_nsmul_eq_zero h'
  have := Nat.dvd_gcd h1 h3
  rw [hc, Nat.dvd_one, AddMonoid.addOrderOf_eq_one_iff] at this
  exact this

/-- Every point of Curve448 over the field is annihilated by 4·ℓ. -/
theorem four_ell (Q : Mont.Pt curveA) : (4 * ell) • Q = 0 := by
  have h := curve_annihilate Q
  rw [mul_smul] at h ⊢
  generalize ell • Q = S at h ⊢
  have hR : Mont.X0 (S : Mont.Pt (algebraMap Fp Fp curveA)) = algebraMap Fp Fp (Mont.X0 S) := rfl
  exact four_smul hR (eight_torsion hR h)

theorem coprime_of_lt {q m : ℕ} (hq : q.Prime) (h0 : 0 < m) (hm : m < 2 * q) (hne : m ≠ q) :
    Nat.Coprime q m := by
  rw [Nat.Prime.coprime_iff_not_dvd hq]
  rintro ⟨k, rfl⟩
  rcases k with _ | _ | k
  · omega
  · omega
  · have : q * 2 ≤ q * (k + 1 + 1) := Nat.mul_le_mul_left _ (by omega)
    omega

/-- The product of a coordinate by 4·m is zero exactly for the three coordinates of points of low
order, and for all coordinates of the curve if m = ℓ. -/
theorem zero_iff {u v : Fp} {m : ℕ} (h0 : 0 < m) (hm : m < 2 ^ 446)
    (h : Mont.XMul curveA (4 * m) u v) :
    v = 0 ↔ (u = 0 ∨ u = 1 ∨ u = -1) ∨ (m = ell ∧ OnCurve u) := by
  have kill : ∀ {K : Type} [Field K] [DecidableEq K] [Algebra Fp K]
      {R : Mont.Pt (algebraMap Fp K curveA)}, Mont.X0 R = algebraMap Fp K u → v = 0 →
      (8 * m) • R = 0 := by
    intro K _ _ _ R hR hv
    have hx := h K R hR
    rw [hv, map_zero] at hx
    have h2 := Mont.two_smul_of_x0 hx
    rw [← two_smul ℕ, smul_smul] at h2
    rwa [show 8 * m = 2 * (4 * m) by ring]
  constructor
  · intro hv
    by_cases hc : OnCurve u
    · by_cases hme : m = ell
      · exact Or.inr ⟨hme, hc⟩
      · left
        obtain ⟨y, hy⟩ := hc
        let R : Mont.Pt (algebraMap Fp Fp curveA) := .some u y (Mont.nonsing curve_two curve_A hy)
        have hR : Mont.X0 R = algebraMap Fp Fp u := rfl
        have hlt : m < 2 * ell := lt_trans hm (by decide +kernel)
        exact eight_torsion hR (eight_of (coprime_of_lt ell_prime h0 hlt hme) (curve_annihilate R)
          (kill hR hv))
    · left
      obtain ⟨y, hy⟩ := twist_of_not hc
      obtain ⟨K, _, _, _, f, hf⟩ := exists_twist
      let Q : Mont.Pt (-curveA) := .some (-u) y (Mont.nonsing curve_two twist_A hy)
      have hR : Mont.X0 (f Q) = algebraMap Fp K u := by
        rw [hf Q, show Mont.X0 Q = -u from rfl, neg_neg]
      have hlt : m < ellT := lt_trans hm (by decide +kernel)
      have hk : (8 * ellT) • f Q = 0 := by rw [← map_nsmul, twist_annihilate, map_zero]
      exact eight_torsion hR (eight_of (coprime_of_lt ellT_prime h0 (by omega) (by omega)) hk
        (kill hR hv))
  · rintro (hu | ⟨rfl, y, hy⟩)
    · classical
      obtain ⟨R, hR⟩ := C45_points_exist u
      have hx := h _ R hR
      rw [mul_comm, mul_smul, four_smul hR hu, smul_zero] at hx
      exact (map_eq_zero _).1 hx.symm
    · let R : Mont.Pt (algebraMap Fp Fp curveA) := .some u y (Mont.nonsing curve_two curve_A hy)
      have hx := h Fp R rfl
      rw [four_ell R] at hx
      exact hx.symm

/-! ## A coordinate that is not a product -/

/-- The one number that `ser` can turn into zero by losing carries. -/
def lostN : ℕ := 2 ^ 256 + 2 ^ 64

/-- The second coordinate of the point with that coordinate. -/
def lostY : ℕ := 528964042055384165221598222546266505487310362985344523155367927192453849332612834837632057699392404934392372800021549414710252079502889

theorem lost_on : (lostY : Fp) ^ 2 = (lostN : Fp) ^ 3 + curveA * (lostN : Fp) ^ 2 + (lostN : Fp) := by
  have h : ((lostY ^ 2 : ℕ) : Fp) = ((lostN ^ 3 + 156326 * lostN ^ 2 + lostN : ℕ) : Fp) :=
    natEq (by decide +kernel)
  push_cast at h
  rw [h, curveA]

theorem lost_ne : (lostN : Fp) ≠ 0 := natNe (by decide +kernel)

theorem lost_order {S : Mont.Pt curveA} (h : Mont.X0 S = (lostN : Fp)) : ell • S ≠ 0 := by
  rw [Ne, smul_eq_zero_iff curve_A curve_a24 h lost_ne (by decide +kernel) (by decide +kernel)]
  decide +kernel

theorem lost_twist (y : Fp) : y ^ 2 ≠ (-lostN : Fp) ^ 3 + (-curveA) * (-lostN : Fp) ^ 2 + (-lostN : Fp) := by
  have := not_square (a := P - (lostN ^ 3 + 156326 * lostN ^ 2 + lostN) % P) (by decide +kernel) y
  rw [Nat.cast_sub (le_of_lt (Nat.mod_lt _ (by decide +kernel))), ZMod.natCast_self,
    ZMod.natCast_mod] at this
  intro h
  apply this
  rw [h, curveA]
  push_cast
  ring

/-- No clamped scalar gives that coordinate. -/
theorem lost_not_product {u : Fp} {m : ℕ} : ¬ Mont.XMul curveA (4 * m) u (lostN : Fp) := by
  intro h
  by_cases hc : OnCurve u
  · obtain ⟨y, hy⟩ := hc
    let R : Mont.Pt (algebraMap Fp Fp curveA) := .some u y (Mont.nonsing curve_two curve_A hy)
    have hx := h Fp R rfl
    apply lost_order (S := (4 * m) • R) hx
    have := four_ell R
    rw [smul_smul, show ell * (4 * m) = m * (4 * ell) by ring, mul_smul]
    exact (congrArg (m • ·) this).trans (smul_zero m)
  · obtain ⟨y, hy⟩ := twist_of_not hc
    obtain ⟨K, _, _, _, f, hf⟩ := exists_twist
    let Q : Mont.Pt (-curveA) := .some (-u) y (Mont.nonsing curve_two twist_A hy)
    have hR : Mont.X0 (f Q) = algebraMap Fp K u := by
      rw [hf Q, show Mont.X0 Q = -u from rfl, neg_neg]
    have hx := h K (f Q) hR
    rw [← map_nsmul, hf] at hx
    have hx := (algebraMap Fp K).injective hx
    generalize (4 * m) • Q = S at hx
    cases S with
    | zero => exact lost_ne (by rw [← hx]; exact neg_zero)
    | some x y' hn =>
      have e : x = -(lostN : Fp) := by rw [← hx, neg_neg]; rfl
      have := Mont.eqn hn
      rw [e] at this
      exact lost_twist y' this

end Verif.X448
