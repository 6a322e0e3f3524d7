import Verif.Curve.Montgomery
import Mathlib.FieldTheory.IsAlgClosed.AlgebraicClosure
import Mathlib.Algebra.Module.NatInt
import Mathlib.Tactic.Module

/-!
x-only scalar multiplication on a Montgomery curve: what it means (`XMul`), and a Montgomery
ladder over an arbitrary field computing it.  Specification and mathematics; no code is modelled
here.
-/

namespace Verif.Mont

open WeierstrassCurve.Affine

/-- `XMul A n u v`: on the curve `y² = x³ + Ax² + x` over any extension field of `F`, multiplying
any point with x-coordinate `u` by `n` gives a point with x-coordinate `v` (where the point at
infinity has x-coordinate `0`).  For every `u` there is such a point over some extension field
(`XMul.unique` uses that), so this is the function of Bernstein's "Curve25519: new Diffie-Hellman
speed records", Theorem 2.1, and of RFC 7748. -/
def XMul {F : Type} [Field F] (A : F) (n : ℕ) (u v : F) : Prop :=
  ∀ (K : Type) [Field K] [DecidableEq K] [Algebra F K] (P : Pt (algebraMap F K A)),
    X0 P = algebraMap F K u → X0 (n • P) = algebraMap F K v

section
variable {F : Type} [Field F]

/-- Every field element is the x-coordinate of a point over some extension field. -/
theorem exists_point {A : F} (h2 : (2 : F) ≠ 0) (hA : A ^ 2 ≠ 4) (u : F) :
    ∃ P : Pt (algebraMap F (AlgebraicClosure F) A),
      X0 P = algebraMap F (AlgebraicClosure F) u := by
  set φ := algebraMap F (AlgebraicClosure F)
  obtain ⟨y, hy⟩ := IsAlgClosed.exists_pow_nat_eq
    (φ u ^ 3 + φ A * φ u ^ 2 + φ u) (n := 2) (by norm_num)
  have hinj : Function.Injective φ := φ.injective
  have h2' : (2 : AlgebraicClosure F) ≠ 0 := by
    rw [← map_ofNat φ 2]; exact fun h => h2 (hinj (by rw [h, map_zero]))
  have hA' : φ A ^ 2 ≠ 4 := by
    rw [← map_ofNat φ 4, ← map_pow]; exact fun h => hA (hinj h)
  exact ⟨Point.some (φ u) y (nonsing h2' hA' hy), rfl⟩

theorem XMul.unique {A : F} (h2 : (2 : F) ≠ 0) (hA : A ^ 2 ≠ 4) {n : ℕ} {u v v' : F}
    (h : XMul A n u v) (h' : XMul A n u v') : v = v' := by
  classical
  obtain ⟨P, hP⟩ := exists_point h2 hA u
  exact (algebraMap F (AlgebraicClosure F)).injective ((h _ P hP).symm.trans (h' _ P hP))

/-- Multiplying by `m` and then by `n` is multiplying by `n * m`. -/
theorem XMul.mul {A : F} {m n : ℕ} {u v w : F} (h : XMul A m u v) (h' : XMul A n v w) :
    XMul A (n * m) u w := by
  intro K _ _ _ P hP
  rw [mul_smul]
  exact h' K _ (h K P hP)

end

/-- State of the ladder: two points in projective x-coordinates and the previous scalar bit. -/
structure LS (K : Type*) where
  x2 : K
  z2 : K
  x3 : K
  z3 : K
  prev : Bool

section
variable {K : Type*} [Field K]

/-- One step of the Montgomery ladder with a lazy conditional swap. -/
def step (a24 x1 : K) (s : LS K) (b : Bool) : LS K :=
  let A := s.x2 + s.z2
  let B := s.x2 - s.z2
  let C := s.x3 + s.z3
  let D := s.x3 - s.z3
  let DA := A * D
  let CB := B * C
  let A' := if xor b s.prev then C else A
  let B' := if xor b s.prev then D else B
  let AA := A' ^ 2
  let BB := B' ^ 2
  let E := AA - BB
  ⟨BB * AA, E * (a24 * E + BB), (DA + CB) ^ 2, (DA - CB) ^ 2 * x1, b⟩

/-- The value of a bit list, most significant bit first, on top of the value `n`. -/
def bitsVal (n : ℕ) (l : List Bool) : ℕ := l.foldl (fun n b => 2 * n + b.toNat) n

/-- Initial state of the ladder, with `(c : 0)` for the point at infinity. -/
def initC (c x1 : K) : LS K := ⟨c, 0, x1, 1, false⟩

/-- The usual initial state of the ladder. -/
def init (x1 : K) : LS K := initC 1 x1

variable [DecidableEq K]

/-- What the ladder state holds after the bits of `n` have been consumed. -/
def Inv {A : K} (P : Pt A) (n : ℕ) (s : LS K) : Prop :=
  if s.prev then Rep ((n + 1) • P) s.x2 s.z2 ∧ Rep (n • P) s.x3 s.z3
  else Rep (n • P) s.x2 s.z2 ∧ Rep ((n + 1) • P) s.x3 s.z3

omit [DecidableEq K] in
theorem x0_neg {A : K} (P : Pt A) : X0 (-P) = X0 P := by
  cases P with
  | zero => rfl
  | some x y h => rw [Point.neg_some]; rfl

theorem four_ne {K : Type*} [Field K] (h2 : (2 : K) ≠ 0) : (4 : K) ≠ 0 := by
  have : (4 : K) = 2 * 2 := by norm_num
  rw [this]; exact mul_ne_zero h2 h2

/-- The two halves of a step, for any pair of points with known difference. -/
theorem step_dbl {A a24 : K} (h2 : (2 : K) ≠ 0) (hA : A ^ 2 ≠ 4) (ha : 4 * a24 = A + 2)
    {P : Pt A} {X Z : K} (h : Rep P X Z) :
    Rep (P + P) ((X - Z) ^ 2 * (X + Z) ^ 2)
      (((X + Z) ^ 2 - (X - Z) ^ 2) * (a24 * ((X + Z) ^ 2 - (X - Z) ^ 2) + (X - Z) ^ 2)) := by
  have := rep_dbl h2 hA h
  convert this using 1
  · ring
  · linear_combination (4 * X ^ 2 * Z ^ 2) * ha

theorem step_dadd {A : K} (h2 : (2 : K) ≠ 0) (hA : A ^ 2 ≠ 4) {P Q : Pt A} {X Z X' Z' x₁ : K}
    (h : Rep P X Z) (h' : Rep Q X' Z') (hd : X0 (P - Q) = x₁) (h0 : x₁ ≠ 0) :
    Rep (P + Q) (((X + Z) * (X' - Z') + (X - Z) * (X' + Z')) ^ 2)
      (((X + Z) * (X' - Z') - (X - Z) * (X' + Z')) ^ 2 * x₁) := by
  have := (rep_dadd h2 hA h h' hd h0).scale (four_ne h2)
  convert this using 1 <;> ring

theorem step_inv {A a24 x1 : K} (h2 : (2 : K) ≠ 0) (hA : A ^ 2 ≠ 4) (ha : 4 * a24 = A + 2)
    {P : Pt A} (hP : X0 P = x1) (h0 : x1 ≠ 0) {n : ℕ} {s : LS K} (h : Inv P n s) (b : Bool) :
    Inv P (2 * n + b.toNat) (step a24 x1 s b) := by
  obtain ⟨x2, z2, x3, z3, prev⟩ := s
  have e1 : n • P + n • P = (2 * n) • P := by rw [← add_smul]; congr 1; ring
  have e2 : (n + 1) • P + (n + 1) • P = (2 * n + 1 + 1) • P := by rw [← add_smul]; congr 1; ring
  have e3 : (n + 1) • P + n • P = (2 * n + 1) • P := by rw [← add_smul]; congr 1; ring
  have e4 : n • P + (n + 1) • P = (2 * n + 1) • P := by rw [← add_smul]; congr 1; ring
  have d1 : X0 ((n + 1) • P - n • P) = x1 := by
    rw [add_smul, one_smul, add_sub_cancel_left, hP]
  have d2 : X0 (n • P - (n + 1) • P) = x1 := by
    rw [← neg_sub, x0_neg, d1]
  cases prev <;> cases b <;>
    simp only [Inv, step, Bool.false_eq_true, if_false, if_true, Bool.toNat_false,
      Bool.toNat_true, Bool.xor_false, Bool.xor_true, Bool.not_true, Bool.not_false,
      add_zero] at h ⊢
  · refine ⟨e1 ▸ step_dbl h2 hA ha h.1, e4 ▸ step_dadd h2 hA h.1 h.2 d2 h0⟩
  · refine ⟨e2 ▸ step_dbl h2 hA ha h.2, e4 ▸ step_dadd h2 hA h.1 h.2 d2 h0⟩
  · refine ⟨e1 ▸ step_dbl h2 hA ha h.2, e3 ▸ step_dadd h2 hA h.1 h.2 d1 h0⟩
  · refine ⟨e2 ▸ step_dbl h2 hA ha h.1, e3 ▸ step_dadd h2 hA h.1 h.2 d1 h0⟩

theorem fold_inv {A a24 x1 : K} (h2 : (2 : K) ≠ 0) (hA : A ^ 2 ≠ 4) (ha : 4 * a24 = A + 2)
    {P : Pt A} (hP : X0 P = x1) (h0 : x1 ≠ 0) (l : List Bool) {n : ℕ} {s : LS K}
    (h : Inv P n s) : Inv P (bitsVal n l) (l.foldl (step a24 x1) s) := by
  induction l generalizing n s with
  | nil => exact h
  | cons b l ih => exact ih (step_inv h2 hA ha hP h0 h b)

theorem init_inv {A x1 c : K} {P : Pt A} (hP : X0 P = x1) (h0 : x1 ≠ 0) (hc : c ≠ 0) :
    Inv P 0 (initC c x1) := by
  simp only [Inv, initC, Bool.false_eq_true, if_false, zero_smul, zero_add, one_smul]
  refine ⟨⟨hc, rfl⟩, ?_⟩
  cases P with
  | zero => exact absurd hP.symm h0
  | some x y h => exact ⟨one_ne_zero, by rw [← hP]; simp [X0]⟩

omit [DecidableEq K] in
/-- When `x1 = 0` every intermediate point has `X·Z = 0`. -/
theorem fold_zero (a24 : K) (l : List Bool) {s : LS K} (h : s.x2 * s.z2 = 0)
    (h' : s.x3 * s.z3 = 0) :
    (l.foldl (step a24 0) s).x2 * (l.foldl (step a24 0) s).z2 = 0 := by
  induction l generalizing s with
  | nil => exact h
  | cons b l ih =>
    refine ih ?_ (by simp [step])
    simp only [step]
    generalize xor b s.prev = w
    cases w
    · simp only [Bool.false_eq_true, if_false]
      linear_combination (4 * (s.x2 - s.z2) ^ 2 * (s.x2 + s.z2) ^ 2 *
        (a24 * ((s.x2 + s.z2) ^ 2 - (s.x2 - s.z2) ^ 2) + (s.x2 - s.z2) ^ 2)) * h
    · simp only [if_true]
      linear_combination (4 * (s.x3 - s.z3) ^ 2 * (s.x3 + s.z3) ^ 2 *
        (a24 * ((s.x3 + s.z3) ^ 2 - (s.x3 - s.z3) ^ 2) + (s.x3 - s.z3) ^ 2)) * h'

/-- A point with x-coordinate `0` is killed by doubling. -/
theorem two_smul_of_x0 {A : K} {P : Pt A} (h : X0 P = 0) : P + P = 0 := by
  cases P with
  | zero => rw [← Point.zero_def, add_zero]
  | some x y hn =>
    have hx : x = 0 := h
    subst hx
    have he := eqn hn
    have hy : y = 0 := by
      have : y ^ 2 = 0 := by rw [he]; ring
      exact pow_eq_zero_iff (two_ne_zero) |>.1 this
    subst hy
    exact Point.add_self_of_Y_eq (by rw [negY_eq, neg_zero])

theorem bitsVal_append (n : ℕ) (l l' : List Bool) :
    bitsVal n (l ++ l') = bitsVal (bitsVal n l) l' := by
  simp [bitsVal, List.foldl_append]

/-- The ladder computes x-only scalar multiplication for every even scalar and every `x1`,
including `0`.  (For odd scalars the lazy swap would leave the result in `x3, z3`.) -/
theorem ladder_correct {A a24 x1 c : K} (h2 : (2 : K) ≠ 0) (hA : A ^ 2 ≠ 4)
    (ha : 4 * a24 = A + 2) {P : Pt A} (hP : X0 P = x1) (hc : x1 ≠ 0 → c ≠ 0) (l : List Bool) :
    let r := (l ++ [false]).foldl (step a24 x1) (initC c x1)
    r.x2 * r.z2⁻¹ = X0 (bitsVal 0 (l ++ [false]) • P) := by
  intro r
  by_cases h0 : x1 = 0
  · subst h0
    have hz : r.x2 * r.z2 = 0 :=
      fold_zero a24 (l ++ [false]) (s := initC c 0) (by simp [initC]) (by simp [initC])
    have : bitsVal 0 (l ++ [false]) = bitsVal 0 l * 2 := by
      rw [bitsVal_append]; simp [bitsVal]; ring
    rw [this, mul_smul, two_smul, two_smul_of_x0 hP, smul_zero]
    show _ = (0 : K)
    rcases mul_eq_zero.1 hz with h | h
    · rw [h, zero_mul]
    · rw [h, inv_zero, mul_zero]
  · have := fold_inv h2 hA ha hP h0 (l ++ [false]) (init_inv hP h0 (hc h0))
    have hp : r.prev = false := by simp [r, List.foldl_append, step]
    rw [Inv] at this
    rw [show (List.foldl (step a24 x1) (initC c x1) (l ++ [false])) = r from rfl, hp] at this
    exact this.1.x0

end

section
variable {F : Type} [Field F]

/-- Image of a ladder state under a field homomorphism. -/
def LS.map {K : Type} [Field K] (φ : F →+* K) (s : LS F) : LS K :=
  ⟨φ s.x2, φ s.z2, φ s.x3, φ s.z3, s.prev⟩

theorem step_map {K : Type} [Field K] (φ : F →+* K) (a24 x1 : F) (s : LS F) (b : Bool) :
    (step a24 x1 s b).map φ = step (φ a24) (φ x1) (s.map φ) b := by
  by_cases hw : xor b s.prev = true <;>
    simp [LS.map, step, hw, map_mul, map_add, map_sub, map_pow]

theorem foldl_map {K : Type} [Field K] (φ : F →+* K) (a24 x1 : F) (l : List Bool) (s : LS F) :
    (l.foldl (step a24 x1) s).map φ = l.foldl (step (φ a24) (φ x1)) (s.map φ) := by
  induction l generalizing s with
  | nil => rfl
  | cons b l ih => rw [List.foldl_cons, List.foldl_cons, ih, step_map]

/-- The ladder over `F` computes x-only scalar multiplication in the sense of `XMul`. -/
theorem ladder_xmulC {A a24 : F} (h2 : (2 : F) ≠ 0) (hA : A ^ 2 ≠ 4) (ha : 4 * a24 = A + 2)
    (c x1 : F) (hc : x1 ≠ 0 → c ≠ 0) (l : List Bool) :
    let r := (l ++ [false]).foldl (step a24 x1) (initC c x1)
    XMul A (bitsVal 0 (l ++ [false])) x1 (r.x2 * r.z2⁻¹) := by
  intro r K _ _ _ P hP
  let φ : F →+* K := algebraMap F K
  have hinj : Function.Injective φ := φ.injective
  have h2' : (2 : K) ≠ 0 := by
    rw [← map_ofNat φ 2]; exact fun h => h2 (hinj (by rw [h, map_zero]))
  have hA' : φ A ^ 2 ≠ 4 := by
    rw [← map_ofNat φ 4, ← map_pow]; exact fun h => hA (hinj h)
  have ha' : 4 * φ a24 = φ A + 2 := by
    rw [← map_ofNat φ 4, ← map_ofNat φ 2, ← map_mul, ← map_add, ha]
  have hm : r.map φ = (l ++ [false]).foldl (step (φ a24) (φ x1)) (initC (φ c) (φ x1)) := by
    rw [foldl_map]; simp [LS.map, initC]
  have h : (r.map φ).x2 * (r.map φ).z2⁻¹ = X0 (bitsVal 0 (l ++ [false]) • P) := by
    rw [hm]; exact ladder_correct h2' hA' ha' hP
      (fun hx hc' => hc (fun e => hx (by rw [e, map_zero])) (hinj (by rw [hc', map_zero]))) l
  rw [← h, map_mul, map_inv₀]; rfl

theorem ladder_xmul {A a24 : F} (h2 : (2 : F) ≠ 0) (hA : A ^ 2 ≠ 4) (ha : 4 * a24 = A + 2)
    (x1 : F) (l : List Bool) :
    let r := (l ++ [false]).foldl (step a24 x1) (init x1)
    XMul A (bitsVal 0 (l ++ [false])) x1 (r.x2 * r.z2⁻¹) :=
  ladder_xmulC h2 hA ha 1 x1 (fun _ => one_ne_zero) l

end

end Verif.Mont
