import Verif.Curve.Isogeny
import Verif.Fp448.Spec
import Mathlib.NumberTheory.LegendreSymbol.Basic

/-!
# The curve edwards448 and its base point

Specification (RFC 7748, section 4.2; RFC 8032, section 5.2), with the computations that
establish the order of the base point.  This file models no code.

The library computes on the isogenous curve `-x² + y² = 1 + (d-1)·x²·y²`; see
`Verif/Curve/Isogeny.lean`.
-/

namespace Verif.Ed448

open Verif.Fp448

set_option exponentiation.threshold 2000

/-- An equality of residues from an equality of remainders. -/
theorem natEq {m n : ℕ} (h : m % P = n % P) : (m : Fp) = (n : Fp) :=
  (ZMod.natCast_eq_natCast_iff m n P).2 h

/-- A number that is not a multiple of the prime. -/
theorem natNe {m : ℕ} (h : m % P ≠ 0) : (m : Fp) ≠ 0 := by
  intro k
  rw [ZMod.natCast_eq_zero_iff] at k
  exact h (Nat.mod_eq_zero_of_dvd k)

/-- `d`, as a number. -/
def dN : ℕ := P - 39081

/-- The curve constant of RFC 8032: `d = -39081` (`d_eq`). -/
def d : Fp := (dN : Fp)

theorem dN_cast : (dN : Fp) = -39081 := by
  rw [dN, Nat.cast_sub (by decide +kernel), ZMod.natCast_self]; push_cast; ring

theorem d_eq : d = -39081 := dN_cast

theorem natCast_pow {a e r : ℕ} (h : Primes.powMod P 450 a e 1 % P = r % P) (he : e < 2 ^ 450) :
    (a : Fp) ^ e = (r : Fp) := by
  have := Primes.powMod_spec P 450 a e 1 he
  rw [natEq h] at this
  rw [this]; simp

theorem two_ne : (2 : Fp) ≠ 0 := by
  have := natNe (m := 2) (by decide +kernel)
  exact_mod_cast this

theorem one_ne_neg_one : (1 : Fp) ≠ -1 := by
  intro h
  exact two_ne (by linear_combination h)

/-- A number whose power of exponent (p-1)/2 is -1 is not a square. -/
theorem not_square {a : ℕ} (h : Primes.powMod P 450 a (P / 2) 1 % P = (P - 1) % P) (t : Fp) :
    t ^ 2 ≠ (a : Fp) := by
  intro ht
  have h1 := natCast_pow h (by decide +kernel)
  rw [← ht, ← pow_mul] at h1
  have e : 2 * (P / 2) = P - 1 := by decide +kernel
  rw [e, Nat.cast_sub (by decide +kernel), ZMod.natCast_self] at h1
  by_cases h0 : t = 0
  · rw [h0, zero_pow (by decide +kernel)] at h1
    have : (1 : Fp) = 0 := by push_cast at h1; linear_combination h1
    exact one_ne_zero this
  · rw [ZMod.pow_card_sub_one_eq_one h0] at h1
    exact one_ne_neg_one (by push_cast at h1; linear_combination h1)

theorem d_not_square (t : Fp) : t ^ 2 ≠ d := not_square (by decide +kernel) t

/-- The curve `x² + y² = 1 + d·x²·y²`. -/
def curve : Edw.Curve Fp where
  a := 1
  d := d
  r := 1
  two := two_ne
  r0 := one_ne_zero
  ha := by ring
  hd := d_not_square

/-- The points of edwards448; a commutative group. -/
abbrev Pt := Edw.Pt curve

/-- The isogeny applies to edwards448. -/
theorem iso : Edw.Iso curve where
  a1 := rfl
  h1d := by
    intro t
    have := not_square (a := 39082) (by decide +kernel) t
    intro h
    apply this
    rw [h, show curve.d = d from rfl, d_eq]; push_cast; ring

/-- The constant of the isogenous curve: `d - 1`, as a number. -/
def dI : ℕ := P - 39082

theorem dI_cast : (dI : Fp) = curve.d - 1 := by
  rw [dI, Nat.cast_sub (by decide +kernel), ZMod.natCast_self, show curve.d = d from rfl, d_eq]
  push_cast; ring

/-! ## Computing with numbers on the isogenous curve -/

/-- Extended coordinates as natural numbers. -/
structure NPt where
  X : ℕ
  Y : ℕ
  Z : ℕ
  T : ℕ

namespace NPt

/-- The numbers are extended coordinates of the image of the point. -/
def Is (n : NPt) (Q : Pt) : Prop := Edw.RepI Q (n.X : Fp) (n.Y : Fp) (n.Z : Fp) (n.T : Fp)

def sub (a b : ℕ) : ℕ := a + (P - b % P)

theorem sub_cast (a b : ℕ) : ((sub a b : ℕ) : Fp) = (a : Fp) - (b : Fp) := by
  rw [sub, Nat.cast_add, Nat.cast_sub (Nat.mod_lt _ (by decide +kernel)).le, ZMod.natCast_self,
    ZMod.natCast_mod]; ring

/-- The unified addition. -/
def add (p q : NPt) : NPt :=
  let A := sub p.Y p.X * sub q.Y q.X % P
  let B := (p.Y + p.X) * (q.Y + q.X) % P
  let C := 2 * dI * (p.T * q.T % P) % P
  let D := 2 * (p.Z * q.Z) % P
  let E := sub B A
  let F := sub D C
  let G := D + C
  let H := B + A
  ⟨E * F % P, G * H % P, F * G % P, E * H % P⟩

theorem Is.add {p q : NPt} {A B : Pt} (hp : p.Is A) (hq : q.Is B) : (p.add q).Is (A + B) := by
  have := Edw.RepI.add iso hp hq rfl rfl rfl rfl
  unfold Is
  convert this using 1 <;>
  · simp only [NPt.add, ZMod.natCast_mod, Nat.cast_mul, Nat.cast_add, sub_cast, Nat.cast_ofNat,
      dI_cast]

/-- `n` times the point, by double and add from the top of `fuel` bits. -/
def mul (p : NPt) : ℕ → ℕ → NPt
  | 0, _ => ⟨0, 1, 1, 0⟩
  | fuel + 1, n =>
    let q := mul p fuel (n / 2)
    let q := q.add q
    if n % 2 = 1 then q.add p else q

theorem Is.zero : (⟨0, 1, 1, 0⟩ : NPt).Is 0 := by
  have := Edw.RepI.zero (C := curve) (one_ne_zero (α := Fp))
  unfold Is; simpa using this

theorem Is.mul {p : NPt} {A : Pt} (hp : p.Is A) : ∀ (fuel n : ℕ), n < 2 ^ fuel →
    (p.mul fuel n).Is (n • A)
  | 0, n, h => by
    have : n = 0 := by simpa using h
    subst this; simpa [NPt.mul] using Is.zero
  | fuel + 1, n, h => by
    have ih := Is.mul hp fuel (n / 2) (by rw [pow_succ] at h; omega)
    have ih2 := ih.add ih
    rw [← add_smul] at ih2
    rw [NPt.mul]
    rcases Nat.mod_two_eq_zero_or_one n with h0 | h0
    · rw [if_neg (by omega)]
      rwa [show n / 2 + n / 2 = n by omega] at ih2
    · rw [if_pos h0]
      have := ih2.add hp
      have e : (n / 2 + n / 2) • A + A = n • A := by
        conv_rhs => rw [show n = (n / 2 + n / 2) + 1 by omega, add_smul, one_smul]
      rwa [e] at this

/-- The quadruple is the identity. -/
def isZero (p : NPt) : Bool := decide (p.X % P = 0) && decide (p.Y % P = p.Z % P)

/-- A point whose image is the identity vanishes when multiplied by four. -/
theorem Is.four_of_isZero {p : NPt} {A : Pt} (hp : p.Is A) (h : p.isZero = true) : 4 • A = 0 := by
  simp only [isZero, Bool.and_eq_true, decide_eq_true_eq] at h
  have h1 : (p.X : Fp) = 0 := by
    have := natEq (m := p.X) (n := 0) (by rw [h.1]; rfl)
    simpa using this
  have h2 : (p.Y : Fp) = p.Z := natEq h.2
  obtain ⟨n1, n2, ex, ey⟩ := Edw.RepI.dual iso hp
  rw [h1, h2] at n1 n2 ex ey
  refine Edw.Pt.ext ?_ ?_
  · rw [Edw.Pt.zero_x]
    exact mul_right_cancel₀ n1 (by linear_combination ex)
  · rw [Edw.Pt.zero_y]
    exact mul_right_cancel₀ n2 (by linear_combination ey)

end NPt

/-- Equality of two quotients of residues, by numbers. -/
theorem div_nat {a b c : ℕ} (hb : b % P ≠ 0) (h : c * b % P = a % P) : (a : Fp) / b = c := by
  rw [div_eq_iff (natNe hb), ← Nat.cast_mul]
  exact natEq h.symm

/-! ## The base point -/

/-- The coordinates of the base point (RFC 8032, section 5.2). -/
def Bx : ℕ := 224580040295924300187604334099896036246789641632564134246125461686950415467406032909029192869357953282578032075146446173674602635247710
def By : ℕ := 298819210078481492676017930443930673437544040154080242095928241372331506189835876003536878655418784733982303233503462500531545062832660

/-- An equation of the curve, by numbers. -/
theorem on_nat {x y : ℕ} (h : (x ^ 2 + y ^ 2) % P = (1 + dN * x ^ 2 * y ^ 2) % P) :
    curve.a * (x : Fp) ^ 2 + (y : Fp) ^ 2 = 1 + curve.d * (x : Fp) ^ 2 * (y : Fp) ^ 2 := by
  have := natEq h
  push_cast at this
  simp only [curve, d]
  linear_combination this

/-- The base point. -/
def B : Pt := ⟨(Bx : Fp), (By : Fp), on_nat (by decide +kernel)⟩

/-- A quarter of the base point in the subgroup it generates. -/
def Q0x : ℕ := 670759794383789483650236284224712506937833303529211637418727139862327551712562117541183756947299915478247120148676102159033951845264363
def Q0y : ℕ := 720551959359372452498229271423729310904239813044621942059708596666577235600987870801567217617360340876121812133458998973123495172316391

def Q0 : Pt := ⟨(Q0x : Fp), (Q0y : Fp), on_nat (by decide +kernel)⟩

/-- The image of a point on the isogenous curve, by numbers. -/
theorem image_nat {x y u v : ℕ} {Q : Pt} (hx : Q.x = (x : Fp)) (hy : Q.y = (y : Fp))
    (h1 : NPt.sub (y ^ 2) (x ^ 2) % P ≠ 0)
    (h2 : u * NPt.sub (y ^ 2) (x ^ 2) % P = 2 * (x * y) % P)
    (h3 : NPt.sub 1 (dN * (x * y) ^ 2) % P ≠ 0)
    (h4 : v * NPt.sub 1 (dN * (x * y) ^ 2) % P = (1 + dN * (x * y) ^ 2) % P) :
    (⟨u, v, 1, u * v % P⟩ : NPt).Is Q := by
  have e1 := div_nat h1 h2
  have e2 := div_nat h3 h4
  have k := Edw.RepI.affine Q
  have p1 : Q.phiX = (u : Fp) := by
    rw [← e1, Edw.Pt.phiX, Edw.Pt.s, Edw.Pt.t, hx, hy, NPt.sub_cast]; push_cast; rfl
  have p2 : Q.phiY = (v : Fp) := by
    rw [← e2, Edw.Pt.phiY, Edw.Pt.s, hx, hy, NPt.sub_cast]; push_cast; rfl
  rw [p1, p2] at k
  unfold NPt.Is
  simp only [ZMod.natCast_mod, Nat.cast_mul, Nat.cast_one]
  exact k

def nQ0x : ℕ := 468623871031275196647576221932229264989468260617335052939552718534935017194273197704041062150987653124662956965928562226240156709704846
def nQ0y : ℕ := 461764463626932971067378970274091448481212950017290786637002277511151037657422305186102284807950098288091291462808505315522692789321867
/-- The image of `Q0`. -/
def nQ0 : NPt := ⟨nQ0x, nQ0y, 1, nQ0x * nQ0y % P⟩

theorem nQ0_is : nQ0.Is Q0 :=
  image_nat rfl rfl (by decide +kernel) (by decide +kernel) (by decide +kernel) (by decide +kernel)

def nBx : ℕ := 363419362147803445274661903944002267176820680343659030140745099590279204136698235703403524834251253334370805086499278108045645398933504
def nBy : ℕ := 377713777653347146236792104846100366848996148111932555478444627119325414592190554491942001387217559549253112485759360936941341741238884
/-- The image of the base point. -/
def nB : NPt := ⟨nBx, nBy, 1, nBx * nBy % P⟩

theorem nB_is : nB.Is B :=
  image_nat rfl rfl (by decide +kernel) (by decide +kernel) (by decide +kernel) (by decide +kernel)

theorem four_Q0 : 4 • Q0 = B := by
  obtain ⟨n1, n2, ex, ey⟩ := Edw.RepI.dual iso nQ0_is
  refine Edw.Pt.ext (mul_right_cancel₀ n1 (ex.trans ?_)) (mul_right_cancel₀ n2 (ey.trans ?_))
  · have h := natEq (m := 2 * (nQ0.X * nQ0.Y)) (n := Bx * (nQ0.X ^ 2 + nQ0.Y ^ 2))
      (by decide +kernel)
    push_cast at h
    exact h
  · have h := natEq (m := NPt.sub (nQ0.Y ^ 2) (nQ0.X ^ 2))
      (n := By * (NPt.sub (2 * nQ0.Z ^ 2) (nQ0.Y ^ 2) + nQ0.X ^ 2)) (by decide +kernel)
    push_cast [NPt.sub_cast] at h
    exact h

/-- The group order of RFC 8032. -/
abbrev order : ℕ :=
  2 ^ 446 - 13818066809895115352007386748515426880336692474882178609894547503885

theorem order_B : order • B = 0 := by
  have h := (nQ0_is.mul 446 order (by decide +kernel)).four_of_isZero (by decide +kernel)
  rw [← four_Q0, ← mul_nsmul, mul_comm, mul_nsmul]
  exact h

theorem B_ne : B ≠ 0 := by
  intro h
  have := congrArg Edw.Pt.x h
  rw [Edw.Pt.zero_x] at this
  exact natNe (m := Bx) (by decide +kernel) this

end Verif.Ed448
