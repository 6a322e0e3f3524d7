import Verif.Ed448.QueryLemmas
import Verif.Props.Ed448Scalar

/-! # Multiples of the base point of Ed448: helper lemmas -/

namespace Verif.Ed448

open Verif.Fp448
open Verif.Ed25519 (sdigit)

set_option exponentiation.threshold 2000

/-! ## Recoding: the same functions as for Ed25519 -/

theorem nibble_eq (r : List Byte) (k : ℕ) : nibble r k = Ed25519.nibble r k := rfl

theorem carryAt_eq (r : List Byte) : ∀ k, carryAt r k = Ed25519.carryAt r k
  | 0 => rfl
  | k + 1 => by rw [carryAt, carryAt_eq r k]; rfl

theorem digitAt_eq (r : List Byte) (k : ℕ) : digitAt r k = Ed25519.digitAt r k := by
  unfold digitAt; rw [carryAt_eq]; rfl

theorem signAt_eq (r : List Byte) (k : ℕ) : signAt r k = Ed25519.signAt r k := by
  unfold signAt; rw [carryAt_eq]; rfl

theorem nibble_take (r : List Byte) (n k : ℕ) (h : k < 2 * n) :
    Ed25519.nibble (r.take n) k = Ed25519.nibble r k := by
  have e : (r.take n).getD (k / 2) 0 = r.getD (k / 2) 0 := by
    simp only [List.getD_eq_getElem?_getD, List.getElem?_take]
    rw [if_pos (by omega)]
  unfold Ed25519.nibble
  rw [e]

/-- The digits of the first 56 bytes add up to the scalar when that is below 2^446. -/
theorem recode_value (r : List Byte) (h : 56 ≤ r.length) (hr : leNat (r.take 56) < 2 ^ 446) :
    (∑ k ∈ Finset.range 112, 16 ^ k * sdigit r k) = (leNat (r.take 56) : ℤ) := by
  have h1 := Ed25519.rec_sum r 112
  have h2 := Ed25519.nibble_sum (r.take 56)
  have h3 := Ed25519.sdigit_sum_bound r 112
  rw [List.length_take, min_eq_left h] at h2
  have h4 : (∑ k ∈ Finset.range 112, 16 ^ k * ((Ed25519.nibble r k).toNat : ℤ)) =
      (leNat (r.take 56) : ℤ) := by
    rw [← h2]; push_cast
    refine Finset.sum_congr rfl fun k hk => ?_
    rw [nibble_take r 56 k (by simpa using hk)]
  rw [h4] at h1
  have e : (16 : ℤ) ^ 112 = 2 ^ 448 := by norm_num
  rw [e] at h1 h3
  generalize (∑ k ∈ Finset.range 112, 16 ^ k * sdigit r k) = S at *
  rcases Ed25519.carryAt_cases r 112 with hc | hc <;> rw [hc] at h1
  · simpa using h1.symm
  · norm_num at h1 h3 hr; omega

/-! ## The first point -/

theorem two16_lane (j : ℕ) (hj : j < 4) : (two16 : Elt16 V).lane j = two16 :=
  lane_cases (p := fun j => (two16 : Elt16 V).lane j = two16) rfl rfl rfl rfl j hj

theorem one_half_lane (j : ℕ) (hj : j < 4) : (one_half : Elt16 V).lane j = one_half :=
  lane_cases (p := fun j => (one_half : Elt16 V).lane j = one_half) rfl rfl rfl rfl j hj

theorem mulInit_lane (P : Pre4way V) (j : ℕ) (hj : j < 4) :
    (mulInit P).lane j = mulInit (P.lane j) := by
  simp only [mulInit, P4way.lane, Pre4way.lane, R4.mul, R4_compress_lane _ _ hj,
    R4_intmul_lane _ _ _ hj, R4_add_lane _ _ _ hj, R4_sub_lane _ _ _ hj, two16_lane _ hj,
    one_half_lane _ hj]

theorem one_half_rp : Rp tight (one_half : Elt16 W) (1 / 2) := by
  refine ⟨by decide +kernel, ?_⟩
  have h : (one_half : Elt16 W).ints.val * 2 = 1 + p448 := by decide +kernel
  have h2 := congrArg (fun z : ℤ => (z : Fp)) h
  have hp := p_mul_cast 1
  rw [one_mul] at hp
  simp only [Int.cast_mul, Int.cast_add, Int.cast_ofNat, Int.cast_one] at h2
  rw [hp, add_zero] at h2
  rw [eq_div_iff two_ne]
  exact h2

theorem two16_rp : Rp tight (two16 : Elt16 W) 2 := by
  refine ⟨by decide +kernel, ?_⟩
  have h : (two16 : Elt16 W).ints.val = 2 := by decide +kernel
  rw [Elt16.toFp, h]; norm_num

theorem mulInit_spec {P : Pre4way W} {A : Pt} (hP : IsPre4way P A) : Is4way (mulInit P) A := by
  obtain ⟨a, s, t, ha, hs, -, l, l0, e1, e2, -, e4⟩ := hP
  have l1 : l = 1 := mul_left_cancel₀ two_ne (by rw [← e4, mul_one])
  subst l1
  have hX : Rp tight (R4.compress (R4.sub P.addYX P.subYX)) (a - s) :=
    (ha.r4sub hs okSub4).r4compress (by decide +kernel)
  have hY : Rp tight (R4.compress (R4.add P.addYX P.subYX)) (a + s) :=
    (ha.r4add hs okAdd4).r4compress (by decide +kernel)
  have hT := (hX.r4mul hY).r4mul one_half_rp
  refine ⟨_, _, _, _, hX, hY, two16_rp, hT, two_ne, ?_, ?_, ?_⟩
  · rw [e1, e2]; ring
  · rw [e1, e2]; ring
  · rw [e1, e2]
    have : (1 / 2 : Fp) * 2 = 1 := by rw [one_div, inv_mul_cancel₀ two_ne]
    linear_combination (2 * A.phiX * A.phiY) * this

/-! ## The loop -/

/-- What lane `l` adds in iteration `i`. -/
def laneTerm (r : List Byte) (l i : ℕ) : Pt := sdigit r (4 * i + l) • signBase i

theorem load4_get (a : ℕ → W) (i l : ℕ) (hl : l < 4) : (load4 a i).get l = a (4 * i + l) :=
  lane_cases (p := fun l => (load4 a i).get l = a (4 * i + l)) rfl rfl rfl rfl l hl

theorem mulQuery_spec (r : List Byte) (i l : ℕ) (hi : i < 28) (hl : l < 4) :
    IsPre4way ((mulQuery r i).lane l) (laneTerm r l i) ∧
    ((mulQuery r i).lane l).addYX.Le tight ∧ ((mulQuery r i).lane l).subYX.Le tight ∧
    (excluded i (sdigit r (4 * i + l)) = false →
      gapOk ((mulQuery r i).lane l).subYX.ints ((mulQuery r i).lane l).addYX.ints = true) := by
  obtain ⟨h1, h2, -⟩ := Ed25519.rec_at r (4 * i + l)
  have hd : (load4 (list_digits r) i).get l =
      BitVec.ofNat 64 (Ed25519.digitAt r (4 * i + l)).toNat := by
    rw [load4_get _ _ _ hl, list_digits, digitAt_eq]; simp
  unfold mulQuery laneTerm
  rcases h1 with ⟨-, h1⟩ | ⟨-, h1⟩
  · have hs : (load4 (list_signs r) i).get l = if (false : Bool) then -1 else 0 := by
      rw [load4_get _ _ _ hl, list_signs, signAt_eq, h1]; rfl
    have := query_spec hi hl hd h2 hs
    rwa [show signed false (Ed25519.digitAt r (4 * i + l)).toNat = sdigit r (4 * i + l) by
      rw [sdigit, if_pos h1]; rfl] at this
  · have hs : (load4 (list_signs r) i).get l = if (true : Bool) then -1 else 0 := by
      rw [load4_get _ _ _ hl, list_signs, signAt_eq, h1]; rfl
    have := query_spec hi hl hd h2 hs
    rwa [show signed true (Ed25519.digitAt r (4 * i + l)).toNat = sdigit r (4 * i + l) by
      rw [sdigit, if_neg (by rw [h1]; decide)]; rfl] at this

/-- No limb of the mixed additions goes below zero in the multiplication by `r`.  Only the four
excluded pairs of sub-table and digit can make one do so. -/
def NoBorrowRun (r : List Byte) : Prop :=
  ∀ n < 27, ∀ l < 4, excluded (n + 1) (sdigit r (4 * (n + 1) + l)) = true →
    MixOk4way ((mulLoop r n).lane l) ((mulQuery r (n + 1)).lane l)

theorem mulLoop_spec (r : List Byte) (hr : NoBorrowRun r) (l : ℕ) (hl : l < 4) : ∀ n, n < 28 →
    Is4way ((mulLoop r n).lane l) (∑ i ∈ Finset.range (n + 1), laneTerm r l i)
  | 0, h => by
    rw [mulLoop, mulInit_lane _ _ hl, Finset.sum_range_one]
    exact mulInit_spec (mulQuery_spec r 0 l h hl).1
  | n + 1, h => by
    rw [mulLoop, mixadd_4way_lane _ _ _ hl, Finset.sum_range_succ]
    obtain ⟨q1, q2, q3, q4⟩ := mulQuery_spec r (n + 1) l h hl
    have ih := mulLoop_spec r hr l hl n (by omega)
    refine mixadd_4way_spec ih q1 ?_
    cases he : excluded (n + 1) (sdigit r (4 * (n + 1) + l)) with
    | true => exact hr n (by omega) l hl he
    | false =>
      obtain ⟨x, y, z, t, hx, hy, -⟩ := ih
      exact mixOk4way_of_gapOk hx.1 hy.1 (q2.mono tight_preB) (q3.mono tight_preB) (q4 he)

/-! ## Joining the four points -/

/-- Lane `j` of the four coordinates, as a point of the two-way code. -/
theorem lane_2w (X Y T Z : Elt8 U) (Q : P4way W) (A : Pt) (h : Is4way Q A) (hX : X.limbs = Q.X)
    (hY : Y.limbs = Q.Y) (hZ : Z.limbs = Q.Z) (hT : T.limbs = Q.T) :
    Is2w ⟨R2.inter X Y, R2.inter T Z⟩ A := by
  obtain ⟨x, y, z, t, hx, hy, hz, ht, hR⟩ := h
  refine ⟨x, y, z, t, ?_, ?_, ?_, ?_, hR⟩
  · rw [R2_inter_lo, hX]; exact hx
  · rw [R2_inter_hi, hY]; exact hy
  · rw [R2_inter_hi, hZ]; exact hz
  · rw [R2_inter_lo, hT]; exact ht

theorem doubling4_spec {Q : P2w} {A : Pt} (h : Is2w Q A) :
    Is2w (doubling_2w (doubling_2w (doubling_2w (doubling_2w Q)))) ((16 : ℕ) • A) := by
  have d := doubling_2w_spec (doubling_2w_spec (doubling_2w_spec (doubling_2w_spec h)))
  have e : ∀ S : Pt, S + S + (S + S) + (S + S + (S + S)) +
      (S + S + (S + S) + (S + S + (S + S))) = (16 : ℕ) • S := fun S => by
    abel
  rwa [e] at d

theorem join_spec {Q : P4way V} {A0 A1 A2 A3 : Pt} (h0 : Is4way (Q.lane 0) A0)
    (h1 : Is4way (Q.lane 1) A1) (h2 : Is4way (Q.lane 2) A2) (h3 : Is4way (Q.lane 3) A3) :
    Is2w (join_points Q) (A0 + (16 : ℕ) • (A1 + (16 : ℕ) • (A2 + (16 : ℕ) • A3))) := by
  obtain ⟨x0, x1, x2, x3⟩ := R4_unzip Q.X
  obtain ⟨y0, y1, y2, y3⟩ := R4_unzip Q.Y
  obtain ⟨z0, z1, z2, z3⟩ := R4_unzip Q.Z
  obtain ⟨t0, t1, t2, t3⟩ := R4_unzip Q.T
  have k0 := lane_2w _ _ _ _ _ _ h0 x0 y0 z0 t0
  have k1 := lane_2w _ _ _ _ _ _ h1 x1 y1 z1 t1
  have k2 := lane_2w _ _ _ _ _ _ h2 x2 y2 z2 t2
  have k3 := lane_2w _ _ _ _ _ _ h3 x3 y3 z3 t3
  exact fulladd_2w_spec k0 (doubling4_spec (fulladd_2w_spec k1 (doubling4_spec
    (fulladd_2w_spec k2 (doubling4_spec k3)))))

theorem sum112 (f : ℕ → ℤ) : ∑ k ∈ Finset.range 112, 16 ^ k * f k =
    ∑ i ∈ Finset.range 28, 16 ^ (4 * i) * f (4 * i + 0) +
    16 * (∑ i ∈ Finset.range 28, 16 ^ (4 * i) * f (4 * i + 1) +
    16 * (∑ i ∈ Finset.range 28, 16 ^ (4 * i) * f (4 * i + 2) +
    16 * ∑ i ∈ Finset.range 28, 16 ^ (4 * i) * f (4 * i + 3))) := by
  have h : ∀ n, ∑ k ∈ Finset.range (4 * n), 16 ^ k * f k =
      ∑ i ∈ Finset.range n, 16 ^ (4 * i) * f (4 * i + 0) +
      16 * (∑ i ∈ Finset.range n, 16 ^ (4 * i) * f (4 * i + 1) +
      16 * (∑ i ∈ Finset.range n, 16 ^ (4 * i) * f (4 * i + 2) +
      16 * ∑ i ∈ Finset.range n, 16 ^ (4 * i) * f (4 * i + 3))) := by
    intro n
    induction n with
    | zero => simp
    | succ n ih =>
      rw [show 4 * (n + 1) = 4 * n + 1 + 1 + 1 + 1 by ring, Finset.sum_range_succ,
        Finset.sum_range_succ, Finset.sum_range_succ, Finset.sum_range_succ, ih,
        Finset.sum_range_succ, Finset.sum_range_succ, Finset.sum_range_succ,
        Finset.sum_range_succ, pow_succ, pow_succ, pow_succ]
      rw [show 4 * n + 1 + 1 = 4 * n + 2 from rfl, show 4 * n + 2 + 1 = 4 * n + 3 from rfl,
        add_zero]
      ring
  exact h 28

theorem laneTerm_eq (r : List Byte) (l i : ℕ) :
    laneTerm r l i = (16 ^ (4 * i) * sdigit r (4 * i + l)) • B := by
  unfold laneTerm signBase
  have e3 : ((2 ^ 16 : ℕ) ^ i) • B = ((16 : ℤ) ^ (4 * i)) • B := by
    rw [← natCast_zsmul]
    congr 1
    push_cast
    rw [pow_mul]
    norm_num
  rw [e3, smul_smul, mul_comm]

theorem lanes_total (r : List Byte) :
    (∑ i ∈ Finset.range 28, laneTerm r 0 i) + (16 : ℕ) • ((∑ i ∈ Finset.range 28, laneTerm r 1 i) +
      (16 : ℕ) • ((∑ i ∈ Finset.range 28, laneTerm r 2 i) +
        (16 : ℕ) • ∑ i ∈ Finset.range 28, laneTerm r 3 i)) =
      (∑ k ∈ Finset.range 112, 16 ^ k * sdigit r k) • B := by
  have e : ∀ A : Pt, (16 : ℕ) • A = (16 : ℤ) • A := fun A => (natCast_zsmul A 16).symm
  rw [sum112]
  simp only [laneTerm_eq, ← Finset.sum_smul]
  simp only [e, add_smul, mul_smul, smul_add]

/-- The multiplication, before the dual isogeny is applied. -/
theorem join_mulLoop_spec (r : List Byte) (h : 56 ≤ r.length) (hr : leNat (r.take 56) < 2 ^ 446)
    (hb : NoBorrowRun r) : Is2w (join_points (mulLoop r 27)) (leNat (r.take 56) • B) := by
  have hj := join_spec (mulLoop_spec r hb 0 (by decide) 27 (by decide))
    (mulLoop_spec r hb 1 (by decide) 27 (by decide))
    (mulLoop_spec r hb 2 (by decide) 27 (by decide))
    (mulLoop_spec r hb 3 (by decide) 27 (by decide))
  rw [lanes_total, recode_value r h hr, natCast_zsmul] at hj
  exact hj

theorem point_multiplication_spec (r : List Byte) (h : 56 ≤ r.length)
    (hr : leNat (r.take 56) < 2 ^ 446) (hb : NoBorrowRun r) :
    IsProj2w (point_multiplication r) ((4 * leNat (r.take 56)) • B) := by
  have := isogeny_2w_spec (join_mulLoop_spec r h hr hb)
  rwa [smul_smul] at this

/-- A scalar without the four excluded digits. -/
theorem noBorrowRun_of_digits {r : List Byte}
    (h : ∀ n < 28, ∀ l < 4, excluded n (sdigit r (4 * n + l)) = false) : NoBorrowRun r := by
  intro n hn l hl he
  rw [h (n + 1) (by omega) l hl] at he
  exact absurd he (by decide)

end Verif.Ed448
