import Verif.Ed448.EncodeLemmas
import Verif.Ed448.ScalarLemmas
import Verif.Ed448.Curve
import Verif.Primes448
import Verif.Curve.Twist
import Mathlib.NumberTheory.LegendreSymbol.Basic
import Mathlib.GroupTheory.OrderOfElement

/-!
# The orders of Curve448 and of its twist

The twist of Curve448 is `y² = x³ - 156326·x² + x`, as -1 is not a square.  The points of either
curve are annihilated by 8·q for a prime q of 446 or 447 bits.  Mathematics; this file models no
code.
-/

namespace Verif.X448

open Verif.Fp448 WeierstrassCurve.Affine
open Verif.Ed448 (natEq natNe not_square canon_neg_parity canon_lt)

set_option exponentiation.threshold 2000

/-! ## Counting points -/

section
variable {B : Fp}

/-- A choice for each point: its coordinate and the parity of the other coordinate. -/
def side : Mont.Pt B → Option (Fp × Bool)
  | .zero => none
  | .some x y _ => some (x, decide (canon y % 2 = 0))

theorem side_inj : Function.Injective (side (B := B)) := by
  intro Q R h
  cases Q with
  | zero =>
    cases R with
    | zero => rfl
    | some => simp [side] at h
  | some x y hn =>
    cases R with
    | zero => simp [side] at h
    | some x' y' hn' =>
      simp only [side, Option.some.injEq, Prod.mk.injEq, decide_eq_decide] at h
      obtain ⟨rfl, h⟩ := h
      have e := Mont.eqn hn
      have e' := Mont.eqn hn'
      by_cases hy : y = y'
      · subst hy; rfl
      · exfalso
        have hm : (y - y') * (y + y') = 0 := by linear_combination e - e'
        have hs := (mul_eq_zero.1 hm).resolve_left (sub_ne_zero.2 hy)
        have hn : y = -y' := by linear_combination hs
        have h0 : y' ≠ 0 := by
          rintro rfl
          exact hy (by rw [hn, neg_zero])
        have := canon_neg_parity h0
        rw [← hn] at this
        omega

instance : Finite (Mont.Pt B) := Finite.of_injective _ side_inj

theorem card_le : Nat.card (Mont.Pt B) ≤ 2 * P + 1 := by
  have h := Nat.card_le_card_of_injective _ (side_inj (B := B))
  have e : Nat.card (Option (Fp × Bool)) = 2 * P + 1 := by
    rw [Finite.card_option, Nat.card_prod, Nat.card_zmod, Nat.card_eq_fintype_card (α := Bool),
      Fintype.card_bool, Nat.mul_comm]
  rwa [e] at h

theorem rep_zero_iff {Q : Mont.Pt B} {X Z : Fp} (h : Mont.Rep Q X Z) : Q = 0 ↔ Z = 0 := by
  cases Q with
  | zero => exact ⟨fun _ => h.2, fun _ => rfl⟩
  | some x y hn => exact ⟨fun k => absurd k (Point.some_ne_zero hn), fun k => absurd k h.1⟩

/-- A multiple of a point, from the states of the ladder. -/
theorem smul_eq_zero_iff {a24 g : Fp} (hB : B ^ 2 ≠ 4) (ha : 4 * a24 = B + 2) {G : Mont.Pt B}
    (hG : Mont.X0 G = g) (g0 : g ≠ 0) {q : ℕ} (hq : q < 2 ^ 448)
    (hp : ((loopBits q).foldl (Mont.step a24 g) (Mont.initC 1 g)).prev = true) :
    q • G = 0 ↔ ((loopBits q).foldl (Mont.step a24 g) (Mont.initC 1 g)).z3 = 0 := by
  have h := Mont.fold_inv curve_two hB ha hG g0 (loopBits q)
    (Mont.init_inv hG g0 (one_ne_zero (α := Fp)))
  rw [loopBits_val, Nat.mod_eq_of_lt hq] at h
  unfold Mont.Inv at h
  rw [if_pos hp] at h
  exact rep_zero_iff h.2

/-- Every point is annihilated by 8·q, when there are a point of order q and one of order 4. -/
theorem annihilate_of {a24 g y c : Fp} (hB : B ^ 2 ≠ 4) (ha : 4 * a24 = B + 2)
    (hc : c ^ 2 = B - 2) (g0 : g ≠ 0) (hy : y ^ 2 = g ^ 3 + B * g ^ 2 + g) {q : ℕ}
    (hq : q.Prime) (hq2 : q ≠ 2) (hlt : q < 2 ^ 448) (hbig : 2 * P + 1 < 12 * q)
    (hp : ((loopBits q).foldl (Mont.step a24 g) (Mont.initC 1 g)).prev = true)
    (hz : ((loopBits q).foldl (Mont.step a24 g) (Mont.initC 1 g)).z3 = 0) (Q : Mont.Pt B) :
    (8 * q) • Q = 0 := by
  have := Fact.mk hq
  let G : Mont.Pt B := .some g y (Mont.nonsing curve_two hB hy)
  have hG : q • G = 0 := (smul_eq_zero_iff hB ha (G := G) rfl g0 hlt hp).2 hz
  have h1 : q ∣ Nat.card (Mont.Pt B) := by
    rw [← addOrderOf_eq_prime hG (Point.some_ne_zero _)]; exact addOrderOf_dvd_natCard _
  have e4 : c ^ 2 = (-1) ^ 3 + B * (-1) ^ 2 + (-1) := by linear_combination hc
  let T : Mont.Pt B := .some (-1) c (Mont.nonsing curve_two hB e4)
  have hr : Mont.Rep T (-1) 1 := ⟨one_ne_zero, by ring⟩
  have hd := Mont.rep_dbl curve_two hB hr
  have x0 : Mont.X0 (T + T) = 0 := by rw [← hd.x0]; ring
  have t4 : (T + T) + (T + T) = 0 := Mont.two_smul_of_x0 x0
  have tne : T + T ≠ 0 := by
    rw [Ne, rep_zero_iff hd]
    intro k
    have h4 := Mont.four_ne curve_two
    have : (4 : Fp) * (B - 2) = 0 := by linear_combination k
    have := (mul_eq_zero.1 this).resolve_left h4
    exact hB (by linear_combination (B + 2) * this)
  have ho : addOrderOf T = 2 ^ (1 + 1) := by
    apply addOrderOf_eq_prime_pow
    · rw [pow_one, two_smul]; exact tne
    · rw [show 2 ^ (1 + 1) = 2 + 2 from rfl, add_smul, two_smul, t4]
  have h2 : 4 ∣ Nat.card (Mont.Pt B) := by
    have := addOrderOf_dvd_natCard T
    rwa [ho] at this
  have h3 : 4 * q ∣ Nat.card (Mont.Pt B) := by
    refine Nat.Coprime.mul_dvd_of_dvd_of_dvd ?_ h2 h1
    have : Nat.Coprime 2 q := (Nat.coprime_primes Nat.prime_two hq).2 (Ne.symm hq2)
    exact this.pow_left 2
  obtain ⟨k, hk⟩ := h3
  have h4 := card_le (B := B)
  have h5 : 0 < Nat.card (Mont.Pt B) := Nat.card_pos
  have h6 : k ∣ 2 := by
    rcases k with _ | _ | _ | k
    · omega
    · decide
    · decide
    · exfalso
      rw [hk] at h4
      have : 4 * q * 3 ≤ 4 * q * (k + 1 + 1 + 1) := Nat.mul_le_mul_left _ (by omega)
      omega
  obtain ⟨m, hm⟩ := h6
  have : 8 * q = m * Nat.card (Mont.Pt B) := by
    rw [hk, show m * (4 * q * k) = 4 * q * (k * m) by ring, ← hm]; ring
  rw [this, mul_smul, card_nsmul_eq_zero', smul_zero]

end

/-! ## Curve448 -/

/-- The prime factor of the order of Curve448. -/
abbrev ell : ℕ := Ed448.ell

theorem ell_prime : ell.Prime := by
  have h : ell = 181709681073901722637330951972001133588410340171829515070372549795146003961539585716195755291692375963310293709091662304773755859649779 := by
    decide +kernel
  rw [h]; exact Primes.prime_l448

/-- A square root of 156324. -/
def cE : ℕ := 528950257000142451010969798134146496096806208096258258133290419984524923934728256972792120570883515182233459997657945594599653183173011

/-- The second coordinate of the base point. -/
def yE : ℕ := 371544797510038715285196305824221199544664961299603788449609300745443239379763362683463709932811995019946110314575531522067902727759077

theorem curve_annihilate (Q : Mont.Pt curveA) : (8 * ell) • Q = 0 := by
  refine annihilate_of (a24 := 39082) (g := 5) (y := (yE : Fp)) (c := (cE : Fp)) curve_A curve_a24
    ?_ (by decide +kernel) ?_ ell_prime (by decide +kernel) (by decide +kernel)
    (by decide +kernel) (by decide +kernel) (by decide +kernel) Q
  · have h : ((cE ^ 2 : ℕ) : Fp) = ((156324 : ℕ) : Fp) := natEq (by decide +kernel)
    push_cast at h
    rw [h, curveA]; norm_num
  · have h : ((yE ^ 2 : ℕ) : Fp) = ((5 ^ 3 + 156326 * 5 ^ 2 + 5 : ℕ) : Fp) :=
      natEq (by decide +kernel)
    push_cast at h
    rw [h, curveA]; norm_num

/-! ## The twist -/

/-- The prime factor of the order of the twist. -/
def ellT : ℕ := 181709681073901722637330951972001133588410340171829515070372549795160160121825800627002436557645897001734148521830156375752993149532941

theorem ellT_prime : ellT.Prime := Primes.prime_t448

/-- A square root of -156328. -/
def cT : ℕ := 107862461660942256971669910811150161228813835455380792297391689229386734184998221702660701207958159319925743079300045807131496465120908

/-- The second coordinate of a point with first coordinate 5. -/
def yT : ℕ := 571899555807430214591516581753001375812918610881671919163797583717441426790633176405766922791404787779986804061944162167348592795082213

theorem twist_A : (-curveA) ^ 2 ≠ 4 := by
  rw [neg_sq]; exact curve_A

theorem twist_annihilate (Q : Mont.Pt (-curveA)) : (8 * ellT) • Q = 0 := by
  refine annihilate_of (a24 := -39081) (g := 5) (y := (yT : Fp)) (c := (cT : Fp)) twist_A
    (by rw [curveA]; norm_num) ?_ (by decide +kernel) ?_ ellT_prime (by decide +kernel)
    (by decide +kernel) (by decide +kernel) (by decide +kernel) (by decide +kernel) Q
  · have h : ((cT ^ 2 + 156328 : ℕ) : Fp) = ((0 : ℕ) : Fp) := natEq (by decide +kernel)
    push_cast at h
    rw [curveA]; linear_combination h
  · have h : ((yT ^ 2 + 156326 * 5 ^ 2 : ℕ) : Fp) = ((5 ^ 3 + 5 : ℕ) : Fp) :=
      natEq (by decide +kernel)
    push_cast at h
    rw [curveA]; linear_combination h

/-! ## Every coordinate is on the curve or on the twist -/

/-- Every element is a square or the opposite of a square. -/
theorem square_or (a : Fp) : ∃ t : Fp, a = t ^ 2 ∨ a = -t ^ 2 := by
  by_cases ha : a = 0
  · exact ⟨0, Or.inl (by rw [ha]; ring)⟩
  by_cases h : IsSquare a
  · obtain ⟨t, ht⟩ := h
    exact ⟨t, Or.inl (by rw [ht]; ring)⟩
  · have e1 := (ZMod.euler_criterion P ha).not.1 h
    have k1 := (ZMod.pow_div_two_eq_neg_one_or_one P ha).resolve_left e1
    have ho : Odd (P / 2) := by rw [Nat.odd_iff]; decide +kernel
    have : IsSquare (-a) := by
      rw [ZMod.euler_criterion P (neg_ne_zero.2 ha), ho.neg_pow, k1, neg_neg]
    obtain ⟨t, ht⟩ := this
    exact ⟨t, Or.inr (by linear_combination -ht)⟩

/-- A coordinate of the curve: the right-hand side of the equation is a square. -/
def OnCurve (u : Fp) : Prop := ∃ y : Fp, y ^ 2 = u ^ 3 + curveA * u ^ 2 + u

theorem twist_of_not {u : Fp} (h : ¬ OnCurve u) :
    ∃ y : Fp, y ^ 2 = (-u) ^ 3 + (-curveA) * (-u) ^ 2 + (-u) := by
  obtain ⟨t, ht | ht⟩ := square_or (u ^ 3 + curveA * u ^ 2 + u)
  · exact absurd ⟨t, ht.symm⟩ h
  · exact ⟨t, by linear_combination ht⟩

/-- The points of the twist, over an extension where -1 is a square. -/
theorem exists_twist : ∃ (K : Type) (_ : Field K) (_ : DecidableEq K) (_ : Algebra Fp K)
    (f : Mont.Pt (-curveA) →+ Mont.Pt (algebraMap Fp K curveA)),
      ∀ Q, Mont.X0 (f Q) = algebraMap Fp K (-Mont.X0 Q) := by
  classical
  set K := AlgebraicClosure Fp
  let ι := algebraMap Fp K
  obtain ⟨s, hs⟩ := IsAlgClosed.exists_pow_nat_eq (-1 : K) (n := 2) (by norm_num)
  have hs0 : s ≠ 0 := by
    rintro rfl
    have : (0 : K) = -1 := by rw [← hs]; ring
    exact one_ne_zero (α := K) (by linear_combination this)
  have hA : ι curveA = s ^ 2 * ι (-curveA) := by rw [hs, map_neg]; ring
  have hB : (1 : K) = s ^ 4 * ι 1 := by
    rw [show s ^ 4 = (s ^ 2) ^ 2 by ring, hs, map_one]; ring
  refine ⟨K, inferInstance, inferInstance, inferInstance, Twist.map ι hs0 hA hB, ?_⟩
  intro Q
  cases Q with
  | zero =>
    rw [show Mont.X0 (Point.zero : Mont.Pt (-curveA)) = 0 from rfl, neg_zero, map_zero]; rfl
  | some x y hn =>
    show s ^ 2 * ι x = ι (-x)
    rw [hs, map_neg]; ring

end Verif.X448
