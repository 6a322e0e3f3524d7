import Verif.H2c.Avx2
import Verif.H2c.X64Lemmas
import Verif.Fp25519.RedApiLemmas
import Verif.Fp25519.RedRep
import Verif.Ed25519.PointLemmasFull

/-! # The AVX2 map to the curve, one half at a time -/

namespace Verif.H2c

open Verif.Fp25519 Verif.Ed25519

/-- One half of a two-way element. -/
def half (j : Bool) (a : Elt5 V) : Elt5 U := if j then a.hi else a.lo

/-- One half of a two-way element is within bounds and represents x. -/
def T (m : Elt10 ℕ) (j : Bool) (a : Elt5 V) (x : Fp) : Prop := Rp m (half j a).limbs x

/-- The low bit of the lane that controls one half. -/
def flag (j : Bool) (v : V) : Bool := if j then v.q2.getLsbD 0 else v.q0.getLsbD 0

variable {j : Bool} {a b : Elt5 V} {x y : Fp}

theorem T.relax (h : T tight j a x) : T loose j a x := Rp.mono h (by decide)

theorem T.mul (ha : T loose j a x) (hb : T loose j b y) : T tight j (R2.mul a b) (x * y) := by
  have e : half j (R2.mul a b) = R2.mul (half j a) (half j b) := by cases j <;> rfl
  obtain ⟨h1, h2⟩ := R2_mul_spec ha.1 hb.1
  unfold T
  rw [e]
  exact ⟨h1, h2.trans (by rw [← ha.2, ← hb.2]; rfl)⟩

theorem T.sqr (ha : T loose j a x) : T tight j (R2.sqr a) (x ^ 2) := by
  have e : half j (R2.sqr a) = R2.sqr (half j a) := by cases j <;> rfl
  obtain ⟨h1, h2⟩ := R2_sqr_spec ha.1
  unfold T
  rw [e]
  exact ⟨h1, h2.trans (by rw [← ha.2]; rfl)⟩

theorem half_sqrn (j : Bool) (a : Elt5 V) (n : ℕ) :
    half j (R2.sqrn a n) = R2.sqrn (half j a) n := by
  induction n generalizing a with
  | zero => rfl
  | succ n ih =>
    have e : half j (R2.sqr a) = R2.sqr (half j a) := by cases j <;> rfl
    exact (ih _).trans (congrArg (R2.sqrn · n) e)

theorem T.sqrn (ha : T loose j a x) (n : ℕ) : T loose j (R2.sqrn a n) (x ^ 2 ^ n) := by
  obtain ⟨h1, -, h2⟩ := R2_sqrn_spec ha.1 n
  unfold T
  rw [half_sqrn]
  exact ⟨h1, h2.trans (by rw [← ha.2]; rfl)⟩

theorem T.add (ha : T tight j a x) (hb : T tight j b y) :
    T loose j (R2.add a b) (x + y) := by
  have e : half j (R2.add a b) = R2.add (half j a) (half j b) := by cases j <;> rfl
  obtain ⟨h1, h2⟩ := R2_add_spec ha.1 hb.1
  unfold T
  rw [e]
  exact ⟨h1, h2.trans (by rw [← ha.2, ← hb.2]; rfl)⟩

theorem T.sub (ha : T tight j a x) (hb : T tight j b y) :
    T loose j (R2.sub a b) (x - y) := by
  have e : half j (R2.sub a b) = R2.sub (half j a) (half j b) := by cases j <;> rfl
  obtain ⟨h1, h2⟩ := R2_sub_spec ha.1 hb.1
  unfold T
  rw [e]
  exact ⟨h1, h2.trans (by rw [← ha.2, ← hb.2]; rfl)⟩

theorem T.neg (ha : T tight j a x) : T tight j (R2.neg a) (-x) := by
  have e : half j (R2.neg a) = R2.neg (half j a) := by cases j <;> rfl
  obtain ⟨h1, h2⟩ := R2_neg_spec ha.1
  unfold T
  rw [e]
  exact ⟨h1, h2.trans (by rw [← ha.2]; rfl)⟩

theorem T.compress (ha : T loose j a x) : T tight j (R2.compress a) x := by
  have e : half j (R2.compress a) = R2.compress (half j a) := by cases j <;> rfl
  unfold T
  rw [e]
  exact Rp.r2compress (Rp.mono ha (by decide))

theorem half_cmv (j : Bool) (e : V) (a b : Elt5 V) :
    half j (R2.cmv e a b) = if flag j e then half j b else half j a := by
  cases j
  · exact R2_cmv_lo e a b
  · exact R2_cmv_hi e a b

theorem T.cmv {m : Elt10 ℕ} (e : V) (ha : T m j a x) (hb : T m j b y) :
    T m j (R2.cmv e a b) (if flag j e then y else x) := by
  unfold T
  rw [half_cmv]
  cases flag j e
  · exact ha
  · exact hb

theorem T.noCarry (ha : T tight j a x) : NoCarry (half j a).limbs.ints.val := noCarry_of_tight ha.1

theorem flag_cmp (j : Bool) (a b : Elt5 V) :
    flag j (VEQ (R2.cmp a b) ZEROV) = decide (R1.cmp (half j a) (half j b) = 0#32) := by
  have h : ∀ c : BitVec 32, (if c.signExtend 64 = (0#64 : W) then -1#64 else 0#64 : W).getLsbD 0 =
      decide (c = 0#32) := by
    intro c
    have hc : c.signExtend 64 = 0#64 ↔ c = 0#32 := by
      constructor
      · intro h
        refine BitVec.eq_of_getLsbD_eq fun i hi => ?_
        have := congrArg (fun z => z.getLsbD i) h
        simp only [BitVec.getLsbD_signExtend, if_pos hi] at this
        simpa [show i < 64 by omega] using this
      · rintro rfl; rfl
    by_cases h0 : c = 0#32
    · simp [h0]
    · simp [h0, hc]
  cases j
  · exact h (R1.cmp a.lo b.lo)
  · exact h (R1.cmp a.hi b.hi)

theorem flag_sgn (ha : T tight j a x) :
    flag j (VEQ (R2.sgn a) ONEV) = decide (canon x % 2 = 1) := by
  have h : ∀ c : BitVec 32, c.toNat = canon x % 2 →
      (if c.signExtend 64 = (1#64 : W) then -1#64 else 0#64 : W).getLsbD 0 =
      decide (canon x % 2 = 1) := by
    intro c hc
    rcases Nat.mod_two_eq_zero_or_one (canon x) with h | h
    · obtain rfl : c = 0#32 := BitVec.eq_of_toNat_eq (by rw [hc, h]; rfl)
      rw [h]; decide
    · obtain rfl : c = 1#32 := BitVec.eq_of_toNat_eq (by rw [hc, h]; rfl)
      rw [h]; decide
  have hs : (R1.sgn (half j a)).toNat = canon x % 2 := by
    rw [R1_sgn_spec ha.noCarry]; exact congrArg (fun z => canon z % 2) ha.2
  cases j
  · exact h _ hs
  · exact h _ hs

theorem flag_xor (j : Bool) (a b : V) : flag j (XOR a b) = (flag j a ^^ flag j b) := by
  cases j <;> exact BitVec.getLsbD_xor

theorem expoC4_2w_T (ha : T loose j a x) :
    T loose j (expoC4_2w a) (x ^ (2 ^ 252 - 3)) := by
  unfold expoC4_2w
  extract_lets v0 v1 v2 v3 v4 v5 v6 v7 v8 v9 v10 v11 v12 v13 v14 v15 v16 v17 v18 v19 v20 v21 v22
    v23 v24 v25 v26 v27 v28 v29
  have h1 : T loose j v1 _ := (T.sqr ha).relax
  have h3 := T.sqrn h1 2
  have h4 := (T.mul h3 ha).relax
  have h5 := (T.mul h1 h4).relax
  have h6 := T.sqrn h5 1
  have h7 := (T.mul h6 h4).relax
  have h9 := T.sqrn h7 5
  have h10 := (T.mul h9 h7).relax
  have h12 := T.sqrn h10 5
  have h13 := (T.mul h12 h7).relax
  have h15 := T.sqrn h13 15
  have h16 := (T.mul h15 h13).relax
  have h18 := T.sqrn h16 30
  have h19 := (T.mul h18 h16).relax
  have h21 := T.sqrn h19 60
  have h22 := (T.mul h21 h19).relax
  have h23 := T.sqrn h22 5
  have h24 := (T.mul h23 h7).relax
  have h26 := T.sqrn h24 125
  have h27 := (T.mul h26 h24).relax
  have h28 := T.sqrn h27 2
  have h29 := (T.mul h28 ha).relax
  refine Rp.cast h29 ?_
  simp only [← pow_mul, ← pow_succ, ← pow_succ', ← pow_add]
  norm_num only

/-! ## Comparisons -/

/-- The canonical encodings differ in the lowest bit of some byte. -/
def ToldApart (x y : Fp) : Prop := ∃ i < 32, canon x / 256 ^ i % 2 ≠ canon y / 256 ^ i % 2

theorem leBytes_bits : ∀ (n m k : ℕ), (∀ xy ∈ (leBytes k n).zip (leBytes k m),
    xy.1.getLsbD 0 = xy.2.getLsbD 0) ↔ ∀ i < k, n / 256 ^ i % 2 = m / 256 ^ i % 2 := by
  intro n m k
  induction k generalizing n m with
  | zero => simp [leBytes]
  | succ k ih =>
    have hb : (BitVec.ofNat 8 n).getLsbD 0 = (BitVec.ofNat 8 m).getLsbD 0 ↔ n % 2 = m % 2 := by
      simp only [BitVec.getLsbD_ofNat, Nat.testBit_zero]
      rcases Nat.mod_two_eq_zero_or_one n with h1 | h1 <;>
        rcases Nat.mod_two_eq_zero_or_one m with h2 | h2 <;> simp [h1, h2]
    simp only [leBytes, List.zip_cons_cons, List.mem_cons, forall_eq_or_imp, ih, hb]
    constructor
    · rintro ⟨h0, h1⟩ i hi
      cases i with
      | zero => simpa using h0
      | succ i => rw [pow_succ', ← Nat.div_div_eq_div_mul, ← Nat.div_div_eq_div_mul]
                  exact h1 i (by omega)
    · intro h
      refine ⟨by simpa using h 0 (by omega), fun i hi => ?_⟩
      have := h (i + 1) (by omega)
      rwa [pow_succ', ← Nat.div_div_eq_div_mul, ← Nat.div_div_eq_div_mul] at this

/-- The comparison, for elements that it tells apart. -/
theorem flag_cmp_iff (ha : T tight j a x) (hb : T tight j b y) (h : x ≠ y → ToldApart x y) :
    flag j (VEQ (R2.cmp a b) ZEROV) = true ↔ x = y := by
  rw [flag_cmp, decide_eq_true_iff, R1_cmp_zero_iff, ser_of_noCarry ha.noCarry,
    ser_of_noCarry hb.noCarry, show (half j a).toFp = x from ha.2,
    show (half j b).toFp = y from hb.2, leBytes_bits]
  constructor
  · intro hc
    by_contra hne
    obtain ⟨i, hi, h'⟩ := h hne
    exact h' (hc i hi)
  · rintro rfl i _; rfl

theorem ToldApart.of_neg {x y : Fp} (h : x = y ∨ x = -y) : x ≠ y → ToldApart x y := by
  intro hne
  obtain rfl := h.resolve_left hne
  have hy : y ≠ 0 := by rintro rfl; simp at hne
  have := Fp25519.canon_neg_parity hy
  exact ⟨0, by decide, by simpa using this.symm⟩

/-! ## Constants -/

theorem const_T {c : Elt5 V} {n : ℕ} {m : Elt10 ℕ} (h1 : c.lo.limbs.Le m ∧ c.hi.limbs.Le m)
    (h2 : c.lo.limbs.ints.val = n ∧ c.hi.limbs.ints.val = n) (j : Bool) : T m j c (n : Fp) := by
  cases j
  · exact ⟨h1.1, by rw [Elt10.toFp]; exact (congrArg (Int.cast (R := Fp)) h2.1).trans (by simp)⟩
  · exact ⟨h1.2, by rw [Elt10.toFp]; exact (congrArg (Int.cast (R := Fp)) h2.2).trans (by simp)⟩

theorem one_2w_T1 (j : Bool) : T (bnd 1 0) j one_2w 1 := by
  have := const_T (c := one_2w) (n := 1) (m := bnd 1 0) (by decide +kernel) (by decide +kernel) j
  rwa [Nat.cast_one] at this

theorem one_2w_T (j : Bool) : T tight j one_2w 1 := Rp.mono (one_2w_T1 j) (by decide)

theorem zero_2w_T (j : Bool) : T tight j zero_2w 0 := by
  have := const_T (c := zero_2w) (n := 0) (m := tight) (by decide +kernel) (by decide +kernel) j
  rwa [Nat.cast_zero] at this

theorem A_2w_T (j : Bool) : T tight j A_2w A := by
  have := const_T (c := A_2w) (n := 486662) (m := tight) (by decide +kernel) (by decide +kernel) j
  exact Rp.cast this (by norm_num [A])

theorem c1_2w_T (j : Bool) : T tight j c1_2w (c1 : Fp) :=
  const_T (by decide +kernel) (by decide +kernel) j

theorem c2_2w_T (j : Bool) : T tight j c2_2w ((sqrtM1 + 1 : ℕ) : Fp) :=
  const_T (by decide +kernel) (by decide +kernel) j

theorem c3_2w_T (j : Bool) : T tight j c3_2w (sqrtM1 : Fp) :=
  const_T (by decide +kernel) (by decide +kernel) j

/-- The sum of an element and itself, and one. -/
theorem T.dbl_succ (ha : T tight j a x) :
    T loose j (R2.add (R2.add a a) one_2w) (x + x + 1) := by
  have e : half j (R2.add (R2.add a a) one_2w) =
      R2.add (R2.add (half j a) (half j a)) (half j one_2w) := by cases j <;> rfl
  unfold T
  rw [e]
  exact ((ha : Rp tight _ _).r2add ha (m' := tight.map (2 * ·)) (by decide +kernel)).r2add
    (one_2w_T1 j : Rp (bnd 1 0) _ _) (by decide +kernel)

/-! ## The map -/

/-- The comparisons of the map tell apart what they have to: `u` is not one of the rare field
elements for which the numerator of g(x1), a nonsquare, and a candidate for it, or the denominator
of the result and zero, have encodings that agree in the lowest bit of each byte. -/
structure Clear (u : Fp) : Prop where
  root : ¬ IsSquare (g (x1 u)) →
    ToldApart ((sqrtM1 : Fp) * (g (x1 u) * (2 * u ^ 2 + 1) ^ 3)) (g (x1 u) * (2 * u ^ 2 + 1) ^ 3) ∧
    ToldApart (-(sqrtM1 : Fp) * (g (x1 u) * (2 * u ^ 2 + 1) ^ 3)) (g (x1 u) * (2 * u ^ 2 + 1) ^ 3)
  den : ∀ x y, Elligator2 u x y → (2 * u ^ 2 + 1) ^ 2 * y * (x + 1) ≠ 0 →
    ToldApart ((2 * u ^ 2 + 1) ^ 2 * y * (x + 1)) 0

theorem sq_neg_one {q : Fp} (h : q ^ 2 = -1) : q = (sqrtM1 : Fp) ∨ q = -(sqrtM1 : Fp) := by
  have h2 := sqrtM1_sq
  exact sq_eq_sq_iff_eq_or_eq_neg.1 (h.trans h2.symm)

theorem e1_cases {u : Fp} (h : IsSquare (g (x1 u))) :
    y11 u ^ 2 * gxd u = gx1 u ∨ y11 u ^ 2 * gxd u = -gx1 u := by
  rw [y11_sq]
  rcases Full.quartic_of_square _ ((arg_square u).2 h) with h0 | h0 | h0
  · have : gx1 u = 0 := (mul_eq_zero.1 h0).resolve_right (pow_ne_zero 7 (gxd_ne u))
    left; rw [this, zero_mul]
  · left; rw [h0, mul_one]
  · right; rw [h0, mul_neg_one]

theorem e2_cases {u : Fp} (h : ¬ IsSquare (g (x1 u))) :
    y21 u ^ 2 * gxd u = gx1 u * (2 * u ^ 2) ∨ y21 u ^ 2 * gxd u = -(gx1 u * (2 * u ^ 2)) := by
  have hq := quartic_of_nonsquare (mt (arg_square u).1 h)
  have h2 := sqrtM1_sq
  have h3 := y11_sq u
  have hc := c2_sq
  have h21 : y21 u ^ 2 * gxd u =
      gx1 u * (2 * u ^ 2) * (arg u ^ (2 ^ 253 - 5) * (sqrtM1 : Fp)) := by
    unfold y21
    rw [mul_pow, mul_pow, hc]
    linear_combination (2 * u ^ 2 * (sqrtM1 : Fp)) * h3
  have hs : (arg u ^ (2 ^ 253 - 5) * (sqrtM1 : Fp)) ^ 2 = 1 := by
    rw [mul_pow, hq, h2]; ring
  rw [h21]
  rcases mul_self_eq_one_iff.1 ((pow_two _).symm.trans hs) with h4 | h4
  · left; rw [h4, mul_one]
  · right; rw [h4, mul_neg_one]

theorem e3_cases {u : Fp} (e1 : Bool) (h : ¬ IsSquare (g (x1 u))) :
    y1 u e1 ^ 2 * gxd u = (sqrtM1 : Fp) * gx1 u ∨ y1 u e1 ^ 2 * gxd u = -(sqrtM1 : Fp) * gx1 u := by
  have hq := quartic_of_nonsquare (mt (arg_square u).1 h)
  have h3 := y11_sq u
  have h2 := sqrtM1_sq
  have k : y1 u e1 ^ 2 * gxd u = y11 u ^ 2 * gxd u ∨ y1 u e1 ^ 2 * gxd u = -(y11 u ^ 2 * gxd u) := by
    unfold y1
    cases e1 with
    | true => left; simp
    | false => right; rw [if_neg Bool.false_ne_true]; linear_combination y11 u ^ 2 * gxd u * h2
  rw [h3] at k
  rcases sq_neg_one hq with h4 | h4 <;> rw [h4] at k <;> rcases k with k | k <;> rw [k]
  · left; ring
  · right; ring
  · right; ring
  · left; ring

theorem elligator2_2w_spec {u : Elt5 V} (hu : T loose j u x) (hc : Clear x) :
    ∃ n y, T tight j (elligator2_curve25519_2w u).xn n ∧
      T tight j (elligator2_curve25519_2w u).xd (2 * x ^ 2 + 1) ∧
      T tight j (elligator2_curve25519_2w u).yn y ∧
      T tight j (elligator2_curve25519_2w u).yd 1 ∧ Elligator2 x (n / (2 * x ^ 2 + 1)) y := by
  unfold elligator2_curve25519_2w
  extract_lets v0 v1 tv1 xd v3 x1n v5 tv2 gxd v7 v8 v9 gx1 v10 v11 v12 v13 v14 tv3 tv2' v15 y11' y12
    v16 v17 v18 e1 y1' x2n v20 y21' y22 gx2 v21 v22 v23 e2 y2' v24 v25 v26 e3 xn y e4 v28 y3 yn
  have h1 : T tight j v1 (x ^ 2) := T.sqr hu
  have htv1 : T loose j tv1 (2 * x ^ 2) := Rp.cast (T.add h1 h1) (by ring)
  have hxd : T loose j xd (2 * x ^ 2 + 1) := Rp.cast (T.dbl_succ h1) (by ring)
  have hx1n : T tight j x1n (-A) := T.neg (A_2w_T j)
  have htv2 : T tight j tv2 ((2 * x ^ 2 + 1) ^ 2) := T.sqr hxd
  have hgxd : T tight j gxd (H2c.gxd x) := T.mul htv2.relax hxd
  have h7 := T.mul (A_2w_T j).relax htv1
  have h8 := T.mul h7.relax hx1n.relax
  have h9 := T.add h8 htv2
  have hgx1 : T tight j gx1 (H2c.gx1 x) := T.mul h9 hx1n.relax
  have h11 : T tight j v11 _ := T.sqr hgxd.relax
  have h13 : T tight j v13 _ := T.sqr h11.relax
  have h14 : T tight j v14 _ := T.mul h11.relax hgxd.relax
  have htv3 : T tight j tv3 (H2c.gxd x ^ 2 * H2c.gxd x * H2c.gx1 x) := T.mul h14.relax hgx1.relax
  have htv2' : T tight j tv2' (arg x) := Rp.cast (T.mul h13.relax htv3.relax) (by unfold arg; ring)
  have h15 := expoC4_2w_T htv2'.relax
  have hy11 : T tight j y11' (H2c.y11 x) := T.mul h15 htv3.relax
  have hy12 : T tight j y12 _ := T.mul hy11.relax (c3_2w_T j).relax
  have h17 : T tight j v17 _ := T.sqr hy11.relax
  have h18 : T tight j v18 _ := T.mul h17.relax hgxd.relax
  have hy1 : T tight j y1' (H2c.y1 x (flag j e1)) := T.cmv e1 hy12 hy11
  have hx2n : T tight j x2n _ := T.mul hx1n.relax htv1
  have h20 : T tight j v20 _ := T.mul hy11.relax hu
  have hy21 : T tight j y21' (H2c.y21 x) := T.mul h20.relax (c2_2w_T j).relax
  have hy22 : T tight j y22 _ := T.mul hy21.relax (c3_2w_T j).relax
  have hgx2 : T tight j gx2 _ := T.mul hgx1.relax htv1
  have h22 : T tight j v22 _ := T.sqr hy21.relax
  have h23 : T tight j v23 _ := T.mul h22.relax hgxd.relax
  have hy2 : T tight j y2' (H2c.y2 x (flag j e2)) := T.cmv e2 hy22 hy21
  have h25 : T tight j v25 _ := T.sqr hy1.relax
  have h26 : T tight j v26 _ := T.mul h25.relax hgxd.relax
  have hxn : T tight j xn _ := T.cmv e3 hx2n hx1n
  have hy : T tight j y (if flag j e3 then H2c.y1 x (flag j e1) else H2c.y2 x (flag j e2)) :=
    T.cmv e3 hy2 hy1
  have hyn : T tight j yn _ := T.cmv (XOR e3 e4) hy (T.neg hy)
  refine ⟨_, _, hxn.relax.compress, hxd.compress, hyn.relax.compress,
    (one_2w_T j).relax.compress, ?_⟩
  have he1 : IsSquare (g (x1 x)) → (flag j e1 = true ↔ H2c.y11 x ^ 2 * H2c.gxd x = H2c.gx1 x) :=
    fun hs => flag_cmp_iff h18 hgx1 (ToldApart.of_neg (e1_cases hs))
  have he2 : ¬ IsSquare (g (x1 x)) →
      (flag j e2 = true ↔ H2c.y21 x ^ 2 * H2c.gxd x = H2c.gx1 x * (2 * x ^ 2)) :=
    fun hs => flag_cmp_iff h23 hgx2 (ToldApart.of_neg (e2_cases hs))
  have hg : H2c.gx1 x = g (x1 x) * (2 * x ^ 2 + 1) ^ 3 := by rw [← g_x1, H2c.gxd]; ring
  have he3 : flag j e3 = true ↔ H2c.y1 x (flag j e1) ^ 2 * H2c.gxd x = H2c.gx1 x := by
    refine flag_cmp_iff h26 hgx1 fun hne => ?_
    by_cases hs : IsSquare (g (x1 x))
    · exact absurd (y1_spec hs (he1 hs)).1 hne
    · obtain ⟨r1, r2⟩ := hc.root hs
      rw [← hg] at r1 r2
      rcases e3_cases (flag j e1) hs with h | h <;> rw [h]
      · exact r1
      · exact r2
  have he4 : flag j e4 = true ↔ canon (if flag j e3 then H2c.y1 x (flag j e1) else
      H2c.y2 x (flag j e2)) % 2 = 1 := by
    rw [flag_sgn hy, decide_eq_true_iff]
  have := elligator2_spec he1 he2 he3 he4
  unfold signed at this
  rw [flag_xor]
  simpa only [ite_div] using this

theorem map_to_curve_2w_spec {u : Elt5 V} (hu : T loose j u x) (hc : Clear x) :
    ∃ Q : Pt, MapsTo x Q ∧ ∃ X Y Z U, T tight j (map_to_curve_2w u).X X ∧
      T tight j (map_to_curve_2w u).Y Y ∧ T tight j (map_to_curve_2w u).Z Z ∧
      T tight j (map_to_curve_2w u).T U ∧ Edw.Rep Q X Y Z U := by
  obtain ⟨n, y, hn, hm, hy, hd, hE⟩ := elligator2_2w_spec hu hc
  have hx : T tight j _ _ := T.mul (T.mul hn.relax hd.relax).relax (c1_2w_T j).relax
  have hxd := T.mul hm.relax hy.relax
  have hyn := T.sub hn hm
  have hyd := T.add hn hm
  have htv := T.mul hxd.relax hyd
  have he := flag_cmp_iff htv (zero_2w_T j) (fun hne => by
    have e : (2 * x ^ 2 + 1) * y * (n + (2 * x ^ 2 + 1)) =
        (2 * x ^ 2 + 1) ^ 2 * y * (n / (2 * x ^ 2 + 1) + 1) := by
      have := xd_ne x
      field_simp
    rw [e] at hne ⊢
    exact hc.den _ _ hE hne)
  obtain ⟨Q, hQ, hR⟩ := edwards_spec hE (xd_ne x) he
  have c1 := (T.cmv (VEQ (R2.cmp (R2.mul (R2.mul (elligator2_curve25519_2w u).xd
    (elligator2_curve25519_2w u).yn) (R2.add (elligator2_curve25519_2w u).xn
    (elligator2_curve25519_2w u).xd)) zero_2w) ZEROV) hx (zero_2w_T j)).relax.compress
  have c2 := (T.cmv (VEQ (R2.cmp (R2.mul (R2.mul (elligator2_curve25519_2w u).xd
    (elligator2_curve25519_2w u).yn) (R2.add (elligator2_curve25519_2w u).xn
    (elligator2_curve25519_2w u).xd)) zero_2w) ZEROV) hxd (one_2w_T j)).relax.compress
  have c3 := (T.cmv (VEQ (R2.cmp (R2.mul (R2.mul (elligator2_curve25519_2w u).xd
    (elligator2_curve25519_2w u).yn) (R2.add (elligator2_curve25519_2w u).xn
    (elligator2_curve25519_2w u).xd)) zero_2w) ZEROV) hyn (one_2w_T j).relax).compress
  have c4 := (T.cmv (VEQ (R2.cmp (R2.mul (R2.mul (elligator2_curve25519_2w u).xd
    (elligator2_curve25519_2w u).yn) (R2.add (elligator2_curve25519_2w u).xn
    (elligator2_curve25519_2w u).xd)) zero_2w) ZEROV) hyd (one_2w_T j).relax).compress
  refine ⟨Q, hQ, _, _, _, _, T.mul c1.relax c4.relax, T.mul c3.relax c2.relax,
    T.mul c2.relax c4.relax, T.mul c1.relax c3.relax, ?_⟩
  rw [mul_one]
  exact hR

end Verif.H2c
