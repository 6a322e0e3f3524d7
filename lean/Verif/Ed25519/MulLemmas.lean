import Verif.Ed25519.Scalar
import Mathlib.Tactic.LinearCombination
import Mathlib.Tactic.Linarith

/-! # The multi-word multiplier: specification and helper lemmas -/

namespace Verif

/-- The number a list of 64-bit words denotes, little endian. -/
def wval : List W → ℕ
  | [] => 0
  | w :: ws => w.toNat + 2 ^ 64 * wval ws

/-- No partial sum of the schoolbook product overflows the three words a step touches.
At step (i, j) the exact running total is
`c + val(A[0..i)) * val(B) + A[i] 2^(64 i) val(B[0..j))`, of which the three words from
position i+j must absorb `A[i] * B[j]`. -/
def NoOverflow (c : ℕ) (A B : List W) : Prop :=
  ∀ i j (x y : W), A[i]? = some x → B[j]? = some y →
    (c + wval (A.take i) * wval B + x.toNat * 2 ^ (64 * i) * wval (B.take j)) / 2 ^ (64 * (i + j))
      % 2 ^ 192 + x.toNat * y.toNat < 2 ^ 192

theorem wval_append (a b : List W) : wval (a ++ b) = wval a + 2 ^ (64 * a.length) * wval b := by
  induction a with
  | nil => simp [wval]
  | cons x xs ih =>
    simp only [List.cons_append, wval, ih, List.length_cons, Nat.mul_add, pow_add]; ring

theorem wval_lt (a : List W) : wval a < 2 ^ (64 * a.length) := by
  induction a with
  | nil => simp [wval]
  | cons x xs ih =>
    have := x.isLt
    simp only [wval, List.length_cons, Nat.mul_add, pow_add, Nat.mul_one]
    omega

theorem wval_set (C : List W) (k : ℕ) (v : W) (h : k < C.length) :
    (wval (C.set k v) : ℤ) = wval C + (v.toNat - (C.getD k 0#64).toNat) * 2 ^ (64 * k) := by
  induction C generalizing k with
  | nil => simp at h
  | cons c cs ih =>
    cases k with
    | zero => simp [wval]; ring
    | succ k =>
      have := ih k (by simpa using h)
      simp only [List.set_cons_succ, wval, List.getD_cons_succ, Nat.mul_add, pow_add]
      push_cast
      rw [this]
      ring

theorem wval_take_succ (A : List W) (i : ℕ) (x : W) (h : A[i]? = some x) :
    wval (A.take (i + 1)) = wval (A.take i) + x.toNat * 2 ^ (64 * i) := by
  have hi : i < A.length := by
    by_contra hc
    rw [List.getElem?_eq_none (by omega)] at h; simp at h
  rw [List.take_add_one, h, wval_append]
  simp only [Option.toList_some, wval, List.length_take]
  rw [Nat.min_eq_left (by omega)]
  ring

theorem wval_window (C : List W) (k : ℕ) (h : k + 2 < C.length) :
    wval C / 2 ^ (64 * k) % 2 ^ 192 = (C.getD k 0#64).toNat + 2 ^ 64 * (C.getD (k + 1) 0#64).toNat
      + 2 ^ 128 * (C.getD (k + 2) 0#64).toNat := by
  induction k generalizing C with
  | zero =>
    match C, h with
    | a :: b :: c :: t, _ =>
      have := a.isLt; have := b.isLt; have := c.isLt
      simp [wval]
      omega
  | succ k ih =>
    match C, h with
    | a :: t, h =>
      have := a.isLt
      have h2 := ih t (by simp at h; omega)
      have e : wval (a :: t) / 2 ^ (64 * (k + 1)) = wval t / 2 ^ (64 * k) := by
        rw [wval, Nat.mul_add, pow_add, Nat.mul_one, mul_comm (2 ^ (64 * k)), ← Nat.div_div_eq_div_mul]
        congr 1
        omega
      rw [e, h2]
      simp

/-- One step: three words at position `k` absorb `x*y` modulo 2^192. -/
theorem mulStep_val (C : List W) (k : ℕ) (x y : W) (h : k + 2 < C.length) :
    ∃ lost : ℕ, (lost = 0 ↔ wval C / 2 ^ (64 * k) % 2 ^ 192 + x.toNat * y.toNat < 2 ^ 192) ∧
      wval (mulStep C k x y) + 2 ^ (64 * (k + 3)) * lost =
        wval C + x.toNat * y.toNat * 2 ^ (64 * k) := by
  rw [wval_window C k h]
  unfold mulStep
  generalize e0 : C.getD k 0#64 = z0
  generalize e1 : C.getD (k + 1) 0#64 = z1
  generalize e2 : C.getD (k + 2) 0#64 = z2
  generalize hX : mul64x64 z0 z1 z2 x y = X
  unfold mul64x64 at hX
  replace hX := mov_inv hX
  replace hX := mulx_inv hX; obtain ⟨l, hh, m1, hX⟩ := hX
  replace hX := add_inv hX; obtain ⟨r0, c0, m2, hX⟩ := hX
  replace hX := adc_inv hX; obtain ⟨r1, c1, m3, hX⟩ := hX
  replace hX := adc_inv hX; obtain ⟨r2, c2, m4, hX⟩ := hX
  subst hX
  have hz : iv 0#64 = 0 := rfl
  have E : iv r0 + 2 ^ 64 * iv r1 + 2 ^ 128 * iv r2 + 2 ^ 192 * bv c2 =
      iv z0 + 2 ^ 64 * iv z1 + 2 ^ 128 * iv z2 + iv x * iv y := by
    linear_combination m1 + m2 + 2 ^ 64 * m3 + 2 ^ 128 * m4 + 2 ^ 128 * hz
  have hr : 0 ≤ iv r0 + 2 ^ 64 * iv r1 + 2 ^ 128 * iv r2 ∧
      iv r0 + 2 ^ 64 * iv r1 + 2 ^ 128 * iv r2 < 2 ^ 192 := by
    constructor
    · linarith only [iv_nonneg r0, iv_nonneg r1, iv_nonneg r2]
    · linarith only [iv_le r0, iv_le r1, iv_le r2]
  refine ⟨c2.toNat, ?_, ?_⟩
  · have E' : iv r0 + 2 ^ 64 * iv r1 + 2 ^ 128 * iv r2 + 2 ^ 192 * bv c2 =
      ((z0.toNat + 2 ^ 64 * z1.toNat + 2 ^ 128 * z2.toNat + x.toNat * y.toNat : ℕ) : ℤ) := by
      rw [E]; push_cast; rfl
    generalize z0.toNat + 2 ^ 64 * z1.toNat + 2 ^ 128 * z2.toNat + x.toNat * y.toNat = T at *
    generalize iv r0 + 2 ^ 64 * iv r1 + 2 ^ 128 * iv r2 = R at *
    clear * - hr E'
    cases c2
    · rw [bv_false] at E'; simp only [Bool.toNat_false, true_iff]; omega
    · rw [bv_true] at E'; simp only [Bool.toNat_true, one_ne_zero, false_iff]; omega
  · zify
    rw [wval_set _ _ _ (by simpa using h), wval_set _ _ _ (by simp; omega),
      wval_set _ _ _ (by omega)]
    have g2 : ((C.set k r0).set (k + 1) r1).getD (k + 2) 0#64 = z2 := by
      rw [← e2]; simp [List.getD_eq_getElem?_getD]
    have g1 : (C.set k r0).getD (k + 1) 0#64 = z1 := by
      rw [← e1]; simp [List.getD_eq_getElem?_getD]
    simp only [g2, g1, e0]
    have p1 : (2 : ℤ) ^ (64 * (k + 1)) = 2 ^ 64 * 2 ^ (64 * k) := by
      rw [Nat.mul_add, pow_add]; ring
    have p2 : (2 : ℤ) ^ (64 * (k + 2)) = 2 ^ 128 * 2 ^ (64 * k) := by
      rw [Nat.mul_add, pow_add]; ring
    have p3 : (2 : ℤ) ^ (64 * (k + 3)) = 2 ^ 192 * 2 ^ (64 * k) := by
      rw [Nat.mul_add, pow_add]; ring
    rw [p1, p2, p3]
    unfold iv bv at E
    linear_combination 2 ^ (64 * k) * E

theorem mulStep_length (C : List W) (k : ℕ) (x y : W) : (mulStep C k x y).length = C.length := by
  simp [mulStep]

/-- Running a row: with exact running total `S ≥ wval C`. -/
theorem mulRow_val (x : W) (B : List W) : ∀ (C : List W) (k S : ℕ),
    k + B.length + 1 < C.length → wval C ≤ S →
    (mulRow C k x B).length = C.length ∧
    wval (mulRow C k x B) ≤ S + x.toNat * 2 ^ (64 * k) * wval B ∧
    (wval (mulRow C k x B) = S + x.toNat * 2 ^ (64 * k) * wval B ↔
      wval C = S ∧ ∀ j (y : W), B[j]? = some y →
        (S + x.toNat * 2 ^ (64 * k) * wval (B.take j)) / 2 ^ (64 * (k + j)) % 2 ^ 192
          + x.toNat * y.toNat < 2 ^ 192) := by
  induction B with
  | nil => intro C k S h h2; simp [mulRow, wval, h2]
  | cons y B ih =>
    intro C k S h h2
    simp only [List.length_cons] at h
    obtain ⟨lost, hl, he⟩ := mulStep_val C k x y (by omega)
    have hpos : 0 < 2 ^ (64 * (k + 3)) := Nat.two_pow_pos _
    obtain ⟨a1, a2, a3⟩ := ih (mulStep C k x y) (k + 1) (S + x.toNat * y.toNat * 2 ^ (64 * k))
      (by rw [mulStep_length]; omega) (by omega)
    have hs : S + x.toNat * 2 ^ (64 * k) * wval (y :: B) =
        S + x.toNat * y.toNat * 2 ^ (64 * k) + x.toNat * 2 ^ (64 * (k + 1)) * wval B := by
      rw [wval, Nat.mul_add 64 k, pow_add]; ring
    rw [mulRow, hs]
    refine ⟨by rw [a1, mulStep_length], a2, ?_⟩
    rw [a3]
    constructor
    · rintro ⟨b1, b2⟩
      have hl0 : lost = 0 := by
        by_contra hc
        have : 0 < 2 ^ (64 * (k + 3)) * lost := Nat.mul_pos hpos (by omega)
        omega
      have hCS : wval C = S := by rw [hl0] at he; omega
      refine ⟨hCS, ?_⟩
      intro j y' hj
      cases j with
      | zero =>
        simp only [List.getElem?_cons_zero, Option.some.injEq] at hj
        subst hj
        have := hl.mp hl0
        simpa [wval, ← hCS] using this
      | succ j =>
        have := b2 j y' (by simpa using hj)
        have e1 : k + (j + 1) = k + 1 + j := by omega
        rw [List.take_succ_cons, wval, e1]
        have e2 : S + x.toNat * 2 ^ (64 * k) * (y.toNat + 2 ^ 64 * wval (B.take j)) =
          S + x.toNat * y.toNat * 2 ^ (64 * k) + x.toNat * 2 ^ (64 * (k + 1)) * wval (B.take j) := by
          rw [Nat.mul_add 64 k, pow_add]; ring
        rw [e2]; exact this
    · rintro ⟨b1, b2⟩
      have hl0 : lost = 0 := by
        apply hl.mpr
        have := b2 0 y (by simp)
        simpa [wval, ← b1] using this
      refine ⟨by rw [hl0] at he; omega, ?_⟩
      intro j y' hj
      have := b2 (j + 1) y' (by simpa using hj)
      have e1 : k + (j + 1) = k + 1 + j := by omega
      rw [List.take_succ_cons, wval, e1] at this
      have e2 : S + x.toNat * 2 ^ (64 * k) * (y.toNat + 2 ^ 64 * wval (B.take j)) =
        S + x.toNat * y.toNat * 2 ^ (64 * k) + x.toNat * 2 ^ (64 * (k + 1)) * wval (B.take j) := by
        rw [Nat.mul_add 64 k, pow_add]; ring
      rw [e2] at this; exact this

/-- Running the rows from row `i`. -/
theorem mulRows_val (B : List W) (A : List W) : ∀ (C : List W) (i S : ℕ),
    i + A.length + B.length ≤ C.length → (A ≠ [] → i + A.length + B.length < C.length) →
    wval C ≤ S →
    (mulRows C i B A).length = C.length ∧
    wval (mulRows C i B A) ≤ S + 2 ^ (64 * i) * wval A * wval B ∧
    (wval (mulRows C i B A) = S + 2 ^ (64 * i) * wval A * wval B ↔
      wval C = S ∧ ∀ i' j (x y : W), A[i']? = some x → B[j]? = some y →
        (S + 2 ^ (64 * i) * wval (A.take i') * wval B + x.toNat * 2 ^ (64 * (i + i')) * wval (B.take j))
          / 2 ^ (64 * (i + i' + j)) % 2 ^ 192 + x.toNat * y.toNat < 2 ^ 192) := by
  induction A with
  | nil => intro C i S h h1 h2; simp [mulRows, wval, h2]
  | cons x A ih =>
    intro C i S h h1 h2
    simp only [List.length_cons] at h h1
    replace h1 := h1 (by simp)
    obtain ⟨r1, r2, r3⟩ := mulRow_val x B C i S (by omega) h2
    obtain ⟨a1, a2, a3⟩ := ih (mulRow C i x B) (i + 1) (S + x.toNat * 2 ^ (64 * i) * wval B)
      (by rw [r1]; omega) (fun _ => by rw [r1]; omega) r2
    have key : ∀ t : ℕ, S + 2 ^ (64 * i) * (x.toNat + 2 ^ 64 * t) * wval B =
        S + x.toNat * 2 ^ (64 * i) * wval B + 2 ^ (64 * (i + 1)) * t * wval B := by
      intro t; rw [Nat.mul_add 64 i, pow_add]; ring
    rw [mulRows, wval, key]
    refine ⟨by rw [a1, r1], a2, ?_⟩
    rw [a3, r3]
    constructor
    · rintro ⟨⟨b1, b2⟩, b3⟩
      refine ⟨b1, ?_⟩
      intro i' j x' y hi hj
      cases i' with
      | zero =>
        simp only [List.getElem?_cons_zero, Option.some.injEq] at hi
        subst hi
        simpa [wval] using b2 j y hj
      | succ i' =>
        have := b3 i' j x' y (by simpa using hi) hj
        have e1 : i + (i' + 1) = i + 1 + i' := by omega
        rw [List.take_succ_cons, wval, key, e1]
        exact this
    · rintro ⟨b1, b2⟩
      refine ⟨⟨b1, ?_⟩, ?_⟩
      · intro j y hj
        simpa [wval] using b2 0 j x y (by simp) hj
      · intro i' j x' y hi hj
        have := b2 (i' + 1) j x' y (by simpa using hi) hj
        have e1 : i + (i' + 1) = i + 1 + i' := by omega
        rw [List.take_succ_cons, wval, key, e1] at this
        exact this

end Verif
