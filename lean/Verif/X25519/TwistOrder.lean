import Verif.Ed25519.Order
import Verif.PrimesTwist

/-!
# The order of the twist of Curve25519

The twist `2·y² = x³ + 486662·x² + x` of Curve25519 is, in Edwards form, the curve
`-x² + y² = 1 + d·x²·y²` below.  Its order is a multiple of 4·ℓ' for a prime ℓ' of 253 bits, and
smaller than 12·ℓ'.  Mathematics; this file models no code.
-/

namespace Verif.X25519.Twist

open Verif.Fp25519
open Verif.Ed25519 (natEq natCast_pow not_square sqrtM1 sqrtM1_sq two_ne)

set_option exponentiation.threshold 2000

/-- The curve constant -486664/486660, as a number. -/
def dN : ℕ := 29203323570479832313932222820853031755424015489030106335172286495629888845891

/-- The curve constant. -/
def d : Fp := (dN : Fp)

theorem d_not_square (t : Fp) : t ^ 2 ≠ d := not_square (by decide +kernel) t

/-- The Edwards form of the twist. -/
def curve : Edw.Curve Fp where
  a := -1
  d := d
  r := (sqrtM1 : Fp)
  two := two_ne
  r0 := by
    intro h
    have := sqrtM1_sq
    rw [h] at this
    exact one_ne_zero (α := Fp) (by linear_combination this)
  ha := sqrtM1_sq.symm
  hd := d_not_square

/-- The group of points. -/
abbrev Pt := Edw.Pt curve

/-! ## Computing with numbers -/

/-- Extended coordinates as natural numbers. -/
structure NPt where
  X : ℕ
  Y : ℕ
  Z : ℕ
  T : ℕ

namespace NPt

/-- The numbers are extended coordinates of the point. -/
def Is (n : NPt) (Q : Pt) : Prop := Edw.Rep Q (n.X : Fp) (n.Y : Fp) (n.Z : Fp) (n.T : Fp)

/-- The unified addition. -/
def add (p q : NPt) : NPt :=
  let A := Ed25519.NPt.sub p.Y p.X * Ed25519.NPt.sub q.Y q.X % P
  let B := (p.Y + p.X) * (q.Y + q.X) % P
  let C := 2 * dN * (p.T * q.T % P) % P
  let D := 2 * (p.Z * q.Z) % P
  let E := Ed25519.NPt.sub B A
  let F := Ed25519.NPt.sub D C
  let G := D + C
  let H := B + A
  ⟨E * F % P, G * H % P, F * G % P, E * H % P⟩

theorem Is.add {p q : NPt} {A B : Pt} (hp : p.Is A) (hq : q.Is B) : (p.add q).Is (A + B) := by
  have := Edw.Rep.add (C := curve) rfl hp hq rfl rfl rfl rfl
  unfold Is
  convert this using 1 <;>
  · simp only [NPt.add, ZMod.natCast_mod, Nat.cast_mul, Nat.cast_add, Ed25519.NPt.sub_cast, Nat.cast_ofNat,
      curve, d]

/-- `n` times the point, by double and add from the top of `fuel` bits. -/
def mul (p : NPt) : ℕ → ℕ → NPt
  | 0, _ => ⟨0, 1, 1, 0⟩
  | fuel + 1, n =>
    let q := mul p fuel (n / 2)
    let q := q.add q
    if n % 2 = 1 then q.add p else q

theorem Is.zero : (⟨0, 1, 1, 0⟩ : NPt).Is 0 := by
  have := Edw.Rep.zero (C := curve) (one_ne_zero (α := Fp))
  unfold Is; simpa using this

theorem Is.mul {p : NPt} {A : Pt} (hp : p.Is A) : ∀ (fuel n : ℕ), n < 2 ^ fuel →
    (p.mul fuel n).Is (n • A)
  | 0, n, h => by
    have : n = 0 := by simpa using h
    subst this; simpa [NPt.mul] using Is.zero
  | fuel + 1, n, h => by
    have ih := Is.mul hp fuel (n / 2) (by rw [pow_succ] at h; omega)
    have ih2 := ih.add ih
    rw [← add_smul] at ih2
    rw [NPt.mul]
    rcases Nat.mod_two_eq_zero_or_one n with h0 | h0
    · rw [if_neg (by omega)]
      rwa [show n / 2 + n / 2 = n by omega] at ih2
    · rw [if_pos h0]
      have := ih2.add hp
      have e : (n / 2 + n / 2) • A + A = n • A := by
        conv_rhs => rw [show n = (n / 2 + n / 2) + 1 by omega, add_smul, one_smul]
      rwa [e] at this

/-- Equality of the points that two quadruples represent. -/
def same (p q : NPt) : Bool := decide (p.X * q.Z % P = q.X * p.Z % P) &&
  decide (p.Y * q.Z % P = q.Y * p.Z % P)

theorem Is.eq_of_same {p q : NPt} {A B : Pt} (hp : p.Is A) (hq : q.Is B)
    (h : p.same q = true) : A = B := by
  simp only [same, Bool.and_eq_true, decide_eq_true_eq] at h
  have h1 := natEq h.1
  have h2 := natEq h.2
  obtain ⟨z, x, y, t⟩ := hp
  obtain ⟨z', x', y', t'⟩ := hq
  rw [Nat.cast_mul, Nat.cast_mul, x, x'] at h1
  rw [Nat.cast_mul, Nat.cast_mul, y, y'] at h2
  have zz := mul_ne_zero z z'
  exact Edw.Pt.ext (mul_right_cancel₀ zz (by linear_combination h1))
    (mul_right_cancel₀ zz (by linear_combination h2))

end NPt

/-! ## The number of points -/

theorem pt_of_y (y : Fp) (Q R : Pt) (hQ : Q.y = y) (hR : R.y = y) (hx : Q.x ≠ R.x) :
    Q.x = -R.x := by
  have h1 := Q.on
  have h2 := R.on
  rw [hQ] at h1
  rw [hR] at h2
  have h0 : curve.a - curve.d * y ^ 2 ≠ 0 := by
    intro h
    have hy : y ≠ 0 := by
      rintro rfl
      exact curve.a0 (by linear_combination h)
    apply curve.hd (curve.r / y)
    rw [div_pow, ← curve.ha, div_eq_iff (pow_ne_zero 2 hy)]
    linear_combination h
  have h3 : (curve.a - curve.d * y ^ 2) * ((Q.x - R.x) * (Q.x + R.x)) = 0 := by
    linear_combination h1 - h2
  have := (mul_eq_zero.1 ((mul_eq_zero.1 h3).resolve_left h0)).resolve_left (sub_ne_zero.2 hx)
  linear_combination this

/-- A choice for each y and x: whether x is the smaller of the two. -/
def side (Q : Pt) : Bool := decide (canon Q.x % 2 = 0)

theorem side_inj : Function.Injective (fun Q : Pt => (Q.y, side Q)) := by
  intro Q R h
  obtain ⟨hy, hs⟩ := Prod.mk.inj h
  by_cases hx : Q.x = R.x
  · exact Edw.Pt.ext hx hy
  · have hn := pt_of_y R.y Q R hy rfl hx
    have h0 : R.x ≠ 0 := by
      intro h0
      rw [h0, neg_zero] at hn
      exact hx (hn.trans h0.symm)
    have hp := Ed25519.canon_neg_ne h0
    rw [← hn] at hp
    simp only [side, decide_eq_decide] at hs
    omega

noncomputable instance : Finite Pt := Finite.of_injective _ side_inj

theorem card_le : Nat.card Pt ≤ 2 * P := by
  have := Nat.card_le_card_of_injective _ side_inj
  rw [Nat.card_prod, Nat.card_zmod, Nat.card_eq_fintype_card (α := Bool), Fintype.card_bool] at this
  omega


/-- The large prime factor of the order. -/
def ell : ℕ := 14474011154664524427946373126085988481603263447650325797860494125407373907997

theorem ell_prime : ell.Prime := Primes.prime_t25519

/-- A point of order ℓ'. -/
def Bx : ℕ := 499233786733279659651403537673402217618644112876606671098350919089189292062
def By : ℕ := 19086858129437210180043019786304437153791795188116486686021403990866808495198

def B : Pt := ⟨(Bx : Fp), (By : Fp), by
  have h : ((By ^ 2 + (P - 1) * Bx ^ 2 : ℕ) : Fp) = ((1 + dN * Bx ^ 2 * By ^ 2 : ℕ) : Fp) :=
    natEq (by decide +kernel)
  rw [Nat.cast_add, Nat.cast_mul, Nat.cast_sub (by norm_num), ZMod.natCast_self] at h
  push_cast at h
  simp only [curve, d]
  linear_combination h⟩

def nB : NPt := ⟨Bx, By, 1, Bx * By % P⟩

theorem nB_is : nB.Is B := by
  have := Edw.Rep.affine (C := curve) B
  unfold NPt.Is nB
  simp only [ZMod.natCast_mod, Nat.cast_mul, Nat.cast_one]
  exact this

theorem ell_B : ell • B = 0 :=
  (nB_is.mul 256 ell (by decide +kernel)).eq_of_same NPt.Is.zero (by decide +kernel)

theorem B_ne : B ≠ 0 := by
  intro h
  have := congrArg Edw.Pt.x h
  simp only [B, Edw.Pt.zero_x] at this
  rw [ZMod.natCast_eq_zero_iff] at this
  revert this; decide +kernel

/-- A point of order 4. -/
def T4 : Pt := ⟨(sqrtM1 : Fp), 0, by
  have := sqrtM1_sq
  simp only [curve]
  linear_combination -this⟩

theorem T4_add : T4 + T4 = Edw.Pt.T := by
  have := sqrtM1_sq
  ext
  · rw [Edw.Pt.add_x]; simp [T4, Edw.Pt.T]
  · rw [Edw.Pt.add_y]; simp [T4, Edw.Pt.T, curve]; linear_combination this

theorem T_ne : (Edw.Pt.T : Pt) ≠ 0 := by
  intro h
  have := congrArg Edw.Pt.y h
  simp only [Edw.Pt.T, Edw.Pt.zero_y] at this
  exact two_ne (by linear_combination -this)

theorem T4_order : addOrderOf T4 = 2 ^ (1 + 1) := by
  apply addOrderOf_eq_prime_pow
  · rw [pow_one, two_smul, T4_add]; exact T_ne
  · rw [show 2 ^ (1 + 1) = 2 + 2 from rfl, add_smul, two_smul, T4_add]
    have := Edw.Pt.T_add (Edw.Pt.T : Pt)
    rw [this]
    ext <;> simp [Edw.Pt.T]

/-- Every point is annihilated by 8·ℓ'. -/
theorem annihilate (Q : Pt) : (8 * ell) • Q = 0 := by
  have := Fact.mk ell_prime
  have h1 : ell ∣ Nat.card Pt := by
    rw [← addOrderOf_eq_prime ell_B B_ne]; exact addOrderOf_dvd_natCard _
  have h2 : 4 ∣ Nat.card Pt := by
    have := addOrderOf_dvd_natCard T4
    rwa [T4_order] at this
  have h3 : 4 * ell ∣ Nat.card Pt := by
    refine Nat.Coprime.mul_dvd_of_dvd_of_dvd ?_ h2 h1
    decide +kernel
  obtain ⟨k, hk⟩ := h3
  have h4 := card_le
  have h5 : 0 < Nat.card Pt := Nat.card_pos
  have h6 : k ∣ 2 := by
    rcases k with _ | _ | _ | k
    · omega
    · decide
    · decide
    · exfalso
      rw [hk] at h4
      have : 4 * ell * 3 ≤ 4 * ell * (k + 1 + 1 + 1) := Nat.mul_le_mul_left _ (by omega)
      have h7 : 2 * P < 4 * ell * 3 := by decide +kernel
      omega
  obtain ⟨m, hm⟩ := h6
  have : 8 * ell = m * Nat.card Pt := by
    rw [hk, show m * (4 * ell * k) = 4 * ell * (k * m) by ring, ← hm]; ring
  rw [this, mul_smul, card_nsmul_eq_zero', smul_zero]

end Verif.X25519.Twist
