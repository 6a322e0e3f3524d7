import Verif.Curve.Extended
import Verif.Fp25519.Prime
import Mathlib.NumberTheory.LegendreSymbol.Basic

/-!
# The curve edwards25519 and its base point

Specification (RFC 7748, section 4.1; RFC 8032, section 5.1), with the computations that
establish the order of the base point.  This file models no code.
-/

namespace Verif.Ed25519

open Verif.Fp25519

set_option exponentiation.threshold 2000

/-- An equality of residues from an equality of remainders. -/
theorem natEq {m n : ℕ} (h : m % P = n % P) : (m : Fp) = (n : Fp) :=
  (ZMod.natCast_eq_natCast_iff m n P).2 h

/-- `d`, as a number. -/
def dN : ℕ := 37095705934669439343138083508754565189542113879843219016388785533085940283555

/-- The curve constant of RFC 8032: `d = -121665/121666` (`d_eq`). -/
def d : Fp := (dN : Fp)

theorem d_eq : d = -121665 / 121666 := by
  have h : ((dN * 121666 + 121665 : ℕ) : Fp) = ((0 : ℕ) : Fp) := natEq (by decide +kernel)
  have h0 : (121666 : Fp) ≠ 0 := by
    intro h
    have : ((121666 : ℕ) : Fp) = 0 := by exact_mod_cast h
    rw [ZMod.natCast_eq_zero_iff] at this
    revert this; decide +kernel
  rw [eq_div_iff h0]
  push_cast at h
  rw [d]
  linear_combination h

theorem natCast_pow {a e r : ℕ} (h : Primes.powMod P 450 a e 1 % P = r % P) (he : e < 2 ^ 450) :
    (a : Fp) ^ e = (r : Fp) := by
  have := Primes.powMod_spec P 450 a e 1 he
  rw [natEq h] at this
  rw [this]; simp

/-- A square root of -1. -/
def sqrtM1 : ℕ := 19681161376707505956807079304988542015446066515923890162744021073123829784752

theorem sqrtM1_sq : (sqrtM1 : Fp) ^ 2 = -1 := by
  have h : ((sqrtM1 ^ 2 + 1 : ℕ) : Fp) = ((0 : ℕ) : Fp) := natEq (by decide +kernel)
  push_cast at h
  linear_combination h

theorem one_ne_neg_one : (1 : Fp) ≠ -1 := by
  intro h
  have h2 : ((2 : ℕ) : Fp) = 0 := by push_cast; linear_combination h
  rw [ZMod.natCast_eq_zero_iff] at h2
  revert h2; decide +kernel

theorem two_ne : (2 : Fp) ≠ 0 := by
  intro h; apply one_ne_neg_one; linear_combination h

/-- A number whose power of exponent (p-1)/2 is -1 is not a square. -/
theorem not_square {a : ℕ} (h : Primes.powMod P 450 a (P / 2) 1 % P = (P - 1) % P) (t : Fp) :
    t ^ 2 ≠ (a : Fp) := by
  intro ht
  have h1 := natCast_pow h (by norm_num)
  rw [← ht, ← pow_mul] at h1
  have e : 2 * (P / 2) = P - 1 := by norm_num
  rw [e, Nat.cast_sub (by norm_num), ZMod.natCast_self] at h1
  by_cases h0 : t = 0
  · rw [h0, zero_pow (by norm_num)] at h1
    have : (1 : Fp) = 0 := by push_cast at h1; linear_combination h1
    exact one_ne_zero this
  · rw [ZMod.pow_card_sub_one_eq_one h0] at h1
    exact one_ne_neg_one (by push_cast at h1; linear_combination h1)

theorem d_not_square (t : Fp) : t ^ 2 ≠ d := not_square (by decide +kernel) t

/-- The curve `-x² + y² = 1 + d·x²·y²`. -/
def curve : Edw.Curve Fp where
  a := -1
  d := d
  r := (sqrtM1 : Fp)
  two := two_ne
  r0 := by
    intro h
    have := sqrtM1_sq
    rw [h] at this
    exact one_ne_zero (α := Fp) (by linear_combination this)
  ha := sqrtM1_sq.symm
  hd := d_not_square

/-- The points of edwards25519; a commutative group. -/
abbrev Pt := Edw.Pt curve

/-! ## Computing with numbers -/

/-- Extended coordinates as natural numbers. -/
structure NPt where
  X : ℕ
  Y : ℕ
  Z : ℕ
  T : ℕ

namespace NPt

/-- The numbers are extended coordinates of the point. -/
def Is (n : NPt) (Q : Pt) : Prop := Edw.Rep Q (n.X : Fp) (n.Y : Fp) (n.Z : Fp) (n.T : Fp)

def sub (a b : ℕ) : ℕ := a + (P - b % P)

theorem sub_cast (a b : ℕ) : ((sub a b : ℕ) : Fp) = (a : Fp) - (b : Fp) := by
  rw [sub, Nat.cast_add, Nat.cast_sub (Nat.mod_lt _ (by norm_num)).le, ZMod.natCast_self,
    ZMod.natCast_mod]; ring

/-- The unified addition. -/
def add (p q : NPt) : NPt :=
  let A := sub p.Y p.X * sub q.Y q.X % P
  let B := (p.Y + p.X) * (q.Y + q.X) % P
  let C := 2 * dN * (p.T * q.T % P) % P
  let D := 2 * (p.Z * q.Z) % P
  let E := sub B A
  let F := sub D C
  let G := D + C
  let H := B + A
  ⟨E * F % P, G * H % P, F * G % P, E * H % P⟩

theorem Is.add {p q : NPt} {A B : Pt} (hp : p.Is A) (hq : q.Is B) : (p.add q).Is (A + B) := by
  have := Edw.Rep.add (C := curve) rfl hp hq rfl rfl rfl rfl
  unfold Is
  convert this using 1 <;>
  · simp only [NPt.add, ZMod.natCast_mod, Nat.cast_mul, Nat.cast_add, sub_cast, Nat.cast_ofNat,
      curve, d]

/-- `n` times the point, by double and add from the top of `fuel` bits. -/
def mul (p : NPt) : ℕ → ℕ → NPt
  | 0, _ => ⟨0, 1, 1, 0⟩
  | fuel + 1, n =>
    let q := mul p fuel (n / 2)
    let q := q.add q
    if n % 2 = 1 then q.add p else q

theorem Is.zero : (⟨0, 1, 1, 0⟩ : NPt).Is 0 := by
  have := Edw.Rep.zero (C := curve) (one_ne_zero (α := Fp))
  unfold Is; simpa using this

theorem Is.mul {p : NPt} {A : Pt} (hp : p.Is A) : ∀ (fuel n : ℕ), n < 2 ^ fuel →
    (p.mul fuel n).Is (n • A)
  | 0, n, h => by
    have : n = 0 := by simpa using h
    subst this; simpa [NPt.mul] using Is.zero
  | fuel + 1, n, h => by
    have ih := Is.mul hp fuel (n / 2) (by rw [pow_succ] at h; omega)
    have ih2 := ih.add ih
    rw [← add_smul] at ih2
    rw [NPt.mul]
    rcases Nat.mod_two_eq_zero_or_one n with h0 | h0
    · rw [if_neg (by omega)]
      rwa [show n / 2 + n / 2 = n by omega] at ih2
    · rw [if_pos h0]
      have := ih2.add hp
      have e : (n / 2 + n / 2) • A + A = n • A := by
        conv_rhs => rw [show n = (n / 2 + n / 2) + 1 by omega, add_smul, one_smul]
      rwa [e] at this

/-- Equality of the points that two quadruples represent. -/
def same (p q : NPt) : Bool := decide (p.X * q.Z % P = q.X * p.Z % P) &&
  decide (p.Y * q.Z % P = q.Y * p.Z % P)

theorem Is.eq_of_same {p q : NPt} {A B : Pt} (hp : p.Is A) (hq : q.Is B)
    (h : p.same q = true) : A = B := by
  simp only [same, Bool.and_eq_true, decide_eq_true_eq] at h
  have h1 := natEq h.1
  have h2 := natEq h.2
  obtain ⟨z, x, y, t⟩ := hp
  obtain ⟨z', x', y', t'⟩ := hq
  rw [Nat.cast_mul, Nat.cast_mul, x, x'] at h1
  rw [Nat.cast_mul, Nat.cast_mul, y, y'] at h2
  have zz := mul_ne_zero z z'
  exact Edw.Pt.ext (mul_right_cancel₀ zz (by linear_combination h1))
    (mul_right_cancel₀ zz (by linear_combination h2))

end NPt

/-! ## The base point -/

/-- The coordinates of the base point (RFC 8032, table 1). -/
def Bx : ℕ := 15112221349535400772501151409588531511454012693041857206046113283949847762202
def By : ℕ := 46316835694926478169428394003475163141307993866256225615783033603165251855960

/-- The base point. -/
def B : Pt := ⟨(Bx : Fp), (By : Fp), by
  have h : ((By ^ 2 + (P - 1) * Bx ^ 2 : ℕ) : Fp) = ((1 + dN * Bx ^ 2 * By ^ 2 : ℕ) : Fp) :=
    natEq (by decide +kernel)
  rw [Nat.cast_add, Nat.cast_mul, Nat.cast_sub (by norm_num), ZMod.natCast_self] at h
  push_cast at h
  simp only [curve, d]
  linear_combination h⟩

/-- The base point is the one with `y = 4/5` and even `x`. -/
theorem B_y : B.y = 4 / 5 := by
  have h5 : (5 : Fp) ≠ 0 := by
    intro h
    have : ((5 : ℕ) : Fp) = 0 := by exact_mod_cast h
    rw [ZMod.natCast_eq_zero_iff] at this
    revert this; decide +kernel
  have h : ((By * 5 : ℕ) : Fp) = ((4 : ℕ) : Fp) := natEq (by decide +kernel)
  push_cast at h
  rw [eq_div_iff h5]; exact h

/-- The base point in numbers. -/
def nB : NPt := ⟨Bx, By, 1, Bx * By % P⟩

theorem nB_is : nB.Is B := by
  have := Edw.Rep.affine (C := curve) B
  unfold NPt.Is nB
  simp only [ZMod.natCast_mod, Nat.cast_mul, Nat.cast_one]
  exact this

/-- The group order of RFC 8032. -/
abbrev ell : ℕ := 2 ^ 252 + 27742317777372353535851937790883648493

theorem ell_B : ell • B = 0 := by
  have h := nB_is.mul 253 ell (by decide +kernel)
  exact h.eq_of_same NPt.Is.zero (by decide +kernel)

theorem B_ne : B ≠ 0 := by
  intro h
  have := congrArg Edw.Pt.x h
  rw [Edw.Pt.zero_x] at this
  have h2 : ((Bx : ℕ) : Fp) = 0 := this
  rw [ZMod.natCast_eq_zero_iff] at h2
  revert h2; decide +kernel

end Verif.Ed25519
