import Verif.Ed448.Decode
import Verif.Ed448.EncodeLemmas
import Verif.Ed448.PointLemmas4
import Verif.Ed448.ScalarLemmas

/-! Proofs about the decoding of points of edwards448. -/

namespace Verif.Ed448

open Verif.Fp448
open Verif.X448 (Safe noCarry_of_safe serFold_of_tight)

set_option exponentiation.threshold 2000

/-! ## The first limb -/

theorem value_lt_of_sq1 {a : Elt8 U} (h : a.Le sq1) : a.value < 5 * p448 := by
  obtain ⟨k0, k1, k2, k3, k4, k5, k6, k7, k8, k9, k10, k11, k12, k13, k14, k15⟩ := h
  simp only [sq1, bnd] at k0 k1 k2 k3 k4 k5 k6 k7 k8 k9 k10 k11 k12 k13 k14 k15
  simp only [Elt8.value, Elt16.val, Elt16.ints, Elt16.map, p448]
  have c : ∀ {n m : ℕ}, n ≤ m → (n : ℤ) ≤ (m : ℤ) := fun h => by exact_mod_cast h
  have := c k0; have := c k1; have := c k2; have := c k3; have := c k4; have := c k5
  have := c k6; have := c k7; have := c k8; have := c k9; have := c k10; have := c k11
  have := c k12; have := c k13; have := c k14; have := c k15
  norm_num only at *
  linarith

theorem value_mod (a : Elt8 U) : a.value % 2 ^ 28 = (a.c0.l.toNat : ℤ) % 2 ^ 28 := by
  have : a.value = a.c0.l.toNat + 2 ^ 28 * (a.limbs.r1.toNat + 2 ^ 28 * a.limbs.r2.toNat +
      2 ^ 56 * a.limbs.r3.toNat + 2 ^ 84 * a.limbs.r4.toNat + 2 ^ 112 * a.limbs.r5.toNat +
      2 ^ 140 * a.limbs.r6.toNat + 2 ^ 168 * a.limbs.r7.toNat + 2 ^ 196 * a.limbs.r8.toNat +
      2 ^ 224 * a.limbs.r9.toNat + 2 ^ 252 * a.limbs.r10.toNat + 2 ^ 280 * a.limbs.r11.toNat +
      2 ^ 308 * a.limbs.r12.toNat + 2 ^ 336 * a.limbs.r13.toNat + 2 ^ 364 * a.limbs.r14.toNat +
      2 ^ 392 * a.limbs.r15.toNat) := by
    simp only [Elt8.value, Elt16.val, Elt16.ints, Elt16.map]
    rw [show a.limbs.r0 = a.c0.l from rfl]
    ring
  rw [this, Int.add_mul_emod_self_left]

theorem canon_value' {m : Elt16 ℕ} {a : Elt8 U} {x : Fp} (h : Rp m a.limbs x) :
    (canon x : ℤ) = a.value % p448 := by
  have e : x = a.toFp := h.2.symm
  rw [e, Elt8.toFp_value, canon, ZMod.val_intCast, P_eq]

/-- The first limb is not zero if the residue is not too close to a multiple of 2^28. -/
theorem limb0_pos {a : Elt8 U} {x : Fp} (h : Rp sq1 a.limbs x) (hx : 4 < canon x % 2 ^ 28) :
    1 ≤ a.c0.l.toNat := by
  have h1 := value_lt_of_sq1 h.1
  have h0 := value_nonneg a
  have hc := canon_value' h
  have hm := value_mod a
  by_contra hz
  have hz : a.c0.l.toNat = 0 := by omega
  rw [hz] at hm
  have hk := Int.emod_add_mul_ediv a.value p448
  rw [← hc] at hk
  have k5 : a.value / p448 < 5 := Int.ediv_lt_of_lt_mul (by unfold p448; norm_num) h1
  have k0 : 0 ≤ a.value / p448 := Int.ediv_nonneg h0 (by unfold p448; norm_num)
  generalize a.value / p448 = k at *
  generalize a.value = v at *
  generalize canon x = c at *
  unfold p448 at hk
  have e : v = c - k + 2 ^ 28 * ((2 ^ 420 - 2 ^ 196) * k) := by linear_combination -hk
  have : ((c : ℤ) - k) % 2 ^ 28 = 0 := by
    have := hm
    rw [e, Int.add_mul_emod_self_left] at this
    simpa using this
  omega

theorem addLimb0_limbs (a : Elt8 U) (w : W) :
    (addLimb0 a w).limbs = { a.limbs with r0 := a.c0.l + w } := rfl

theorem addLimb0_rp {m : Elt16 ℕ} {b : ℕ} {a : Elt8 U} {x : Fp} {w : W} {n : ℤ}
    (h : Rp m a.limbs x) (hn : ((a.c0.l + w).toNat : ℤ) = a.c0.l.toNat + n)
    (hb : (a.c0.l + w).toNat ≤ b) : Rp { m with r0 := b } (addLimb0 a w).limbs (x + n) := by
  obtain ⟨⟨k0, k⟩, hx⟩ := h
  refine ⟨⟨hb, k⟩, ?_⟩
  rw [addLimb0_limbs, ← hx]
  simp only [Elt16.toFp, Elt16.ints, Elt16.map, Elt16.val, hn]
  rw [show a.limbs.r0 = a.c0.l from rfl]
  push_cast; ring

theorem addLimb0_neg {m : Elt16 ℕ} {a : Elt8 U} {x : Fp} (h : Rp m a.limbs x)
    (h1 : 1 ≤ a.c0.l.toNat) : Rp m (addLimb0 a (-1#64)).limbs (x - 1) := by
  have e : (a.c0.l + -1#64).toNat = a.c0.l.toNat - 1 := by
    have := a.c0.l.isLt
    rw [← BitVec.sub_eq_add_neg, BitVec.toNat_sub]
    have : (1#64).toNat = 1 := rfl
    omega
  have k0 : a.c0.l.toNat ≤ m.r0 := h.1.1
  exact (addLimb0_rp (n := -1) (b := m.r0) h (by rw [e]; omega) (by rw [e]; omega)).cast
    (by push_cast; ring)

theorem addLimb0_two {m m' : Elt16 ℕ} {a : Elt8 U} {x : Fp} (h : Rp m a.limbs x)
    (hm : m.r0 < 2 ^ 63) (hm' : leB { m with r0 := m.r0 + 2 } m' = true) :
    Rp m' (addLimb0 a 2#64).limbs (x + 2) := by
  have k0 : a.c0.l.toNat ≤ m.r0 := h.1.1
  have e : (a.c0.l + 2#64).toNat = a.c0.l.toNat + 2 := by
    rw [BitVec.toNat_add]
    have : (2#64).toNat = 2 := rfl
    omega
  exact ((addLimb0_rp (n := 2) (b := m.r0 + 2) h (by rw [e]; omega) (by rw [e]; omega)).cast
    (by push_cast; ring)).mono hm'

theorem param_d_rp : Rp tight param_curve_d.limbs d :=
  rp_of_nat (m := tight) (e := param_curve_d.limbs) (n := dN) (by decide +kernel) (by decide +kernel)

theorem decodeU_rp {Y : Elt8 U} {y : Fp} (h : Rp tight Y.limbs y) (hy : 4 < canon (y ^ 2) % 2 ^ 28) :
    Rp sq1 (decodeU Y).limbs (y ^ 2 - 1) := by
  have h1 := (h.sq.r1sqrn 1).cast (y := y ^ 2) (by norm_num)
  exact addLimb0_neg h1 (limb0_pos h1 hy)

theorem decodeV_rp {Y : Elt8 U} {y : Fp} (h : Rp tight Y.limbs y)
    (hy : 4 < canon (d * y ^ 2) % 2 ^ 28) : Rp tight (decodeV Y).limbs (d * y ^ 2 - 1) := by
  have h1 := (h.sq.r1sqrn 1).cast (y := y ^ 2) (by norm_num)
  have h2 := (h1.r1mul param_d_rp.sq).cast (y := d * y ^ 2) (mul_comm _ _)
  exact addLimb0_neg h2 (limb0_pos h2.sq hy)

/-! ## The root -/

/-- The candidate for the x-coordinate. -/
def rootOf (u v : Fp) : Fp := u ^ 3 * v * (u ^ 5 * v ^ 3) ^ ((P - 3) / 4)

theorem decodeRoot_rp {u v : Elt8 U} {x y : Fp} (hu : Rp sq1 u.limbs x) (hv : Rp sq1 v.limbs y) :
    Rp tight (decodeRoot u v).limbs (rootOf x y) := by
  have huv := (hu.r1mul hv).sq
  have hu2 := (hu.r1sqrn 1).cast (y := x ^ 2) (by norm_num)
  have hv2 := (hv.r1sqrn 1).cast (y := y ^ 2) (by norm_num)
  have h3 := (huv.r1mul hu2).sq
  have h5 := (h3.r1mul hu2).sq
  have h53 := (h5.r1mul hv2).sq
  have he := h53.r1srt.sq
  refine (h3.r1mul he).cast ?_
  rw [rootOf, show x * y * x ^ 2 * x ^ 2 * y ^ 2 = x ^ 5 * y ^ 3 by ring]
  ring

theorem root_alg {R : Type*} [CommRing R] (u v : R) (e : ℕ) :
    v * (u ^ 3 * v * (u ^ 5 * v ^ 3) ^ e) ^ 2 = u * (u ^ 5 * v ^ 3) ^ (2 * e + 1) := by
  rw [pow_succ (u ^ 5 * v ^ 3), mul_comm 2 e, pow_mul]; ring

theorem half_exp : 2 * ((P - 3) / 4) + 1 = P / 2 := by decide +kernel
theorem half_two : 2 * (P / 2) = P - 1 := by decide +kernel

theorem root_sq (u v : Fp) : v * rootOf u v ^ 2 = u * (u ^ 5 * v ^ 3) ^ (P / 2) := by
  rw [rootOf, root_alg, half_exp]

theorem eq_or_neg {q : Fp} (h : q ^ 2 = 1) : q = 1 ∨ q = -1 := by
  have : (q - 1) * (q + 1) = 0 := by linear_combination h
  rcases mul_eq_zero.1 this with h | h
  · exact Or.inl (sub_eq_zero.1 h)
  · exact Or.inr (eq_neg_of_add_eq_zero_left h)

theorem euler (z : Fp) (h : z ≠ 0) : z ^ (P / 2) = 1 ∨ z ^ (P / 2) = -1 := by
  refine eq_or_neg ?_
  rw [← pow_mul, mul_comm, half_two]; exact ZMod.pow_card_sub_one_eq_one h

theorem root_or {u v : Fp} (hv : v ≠ 0) : v * rootOf u v ^ 2 = u ∨ v * rootOf u v ^ 2 = -u := by
  rw [root_sq]
  by_cases h : u = 0
  · left; rw [h, zero_mul]
  rcases euler (u ^ 5 * v ^ 3) (mul_ne_zero (pow_ne_zero _ h) (pow_ne_zero _ hv)) with e | e <;> rw [e]
  · left; ring
  · right; ring

theorem root_of_square {u v x : Fp} (hv : v ≠ 0) (h : v * x ^ 2 = u) : v * rootOf u v ^ 2 = u := by
  rw [root_sq]
  by_cases h0 : u = 0
  · rw [h0, zero_mul]
  have hx : x ≠ 0 := by rintro rfl; apply h0; rw [← h]; ring
  rw [show u ^ 5 * v ^ 3 = (v ^ 4 * x ^ 5) ^ 2 by rw [← h]; ring, ← pow_mul, half_two,
    ZMod.pow_card_sub_one_eq_one (mul_ne_zero (pow_ne_zero _ hv) (pow_ne_zero _ hx)), mul_one]

theorem v_ne (y : Fp) : d * y ^ 2 - 1 ≠ 0 := by
  intro h
  have hy : y ≠ 0 := by
    rintro rfl
    have : (1 : Fp) = 0 := by linear_combination -h
    exact one_ne_zero this
  refine d_not_square y⁻¹ ?_
  field_simp
  linear_combination -h

theorem pt_eq (A : Pt) : (d * A.y ^ 2 - 1) * A.x ^ 2 = A.y ^ 2 - 1 := by
  have := A.on
  simp only [show curve.a = 1 from rfl, show curve.d = d from rfl] at this
  linear_combination -this

/-- A point with the given coordinates. -/
def mkPt (x y : Fp) (h : (d * y ^ 2 - 1) * x ^ 2 = y ^ 2 - 1) : Pt :=
  ⟨x, y, by simp only [show curve.a = 1 from rfl, show curve.d = d from rfl]; linear_combination -h⟩

/-- There is a point with coordinate `y` if and only if the candidate gives one. -/
theorem root_iff (y : Fp) : (∃ A : Pt, A.y = y) ↔
    (d * y ^ 2 - 1) * rootOf (y ^ 2 - 1) (d * y ^ 2 - 1) ^ 2 = y ^ 2 - 1 := by
  constructor
  · rintro ⟨A, rfl⟩
    exact root_of_square (v_ne _) (pt_eq A)
  · intro h
    exact ⟨mkPt _ y h, rfl⟩

/-- The candidate is the coordinate of any point up to sign. -/
theorem root_pt (A : Pt) : rootOf (A.y ^ 2 - 1) (d * A.y ^ 2 - 1) = A.x ∨
    rootOf (A.y ^ 2 - 1) (d * A.y ^ 2 - 1) = -A.x := by
  have h1 := root_of_square (v_ne _) (pt_eq A)
  have h2 := pt_eq A
  generalize rootOf (A.y ^ 2 - 1) (d * A.y ^ 2 - 1) = w at *
  have : (w - A.x) * (w + A.x) = 0 := by
    apply mul_left_cancel₀ (v_ne A.y)
    linear_combination h1 - h2
  rcases mul_eq_zero.1 this with h | h
  · exact Or.inl (sub_eq_zero.1 h)
  · exact Or.inr (eq_neg_of_add_eq_zero_left h)

/-! ## The comparison -/

/-- Residues whose serialisation loses no carry, even from the limbs of a square: all but those
strictly between 2^224 and 2^422 that are multiples of 2^64 or have their bits 224 to 255, after
subtracting 1, equal to zero. -/
def SafeSq (c : ℕ) : Prop :=
  c ≤ 2 ^ 224 ∨ 2 ^ 422 ≤ c ∨ (c % 2 ^ 64 ≠ 0 ∧ (c - 1) / 2 ^ 224 % 2 ^ 32 ≠ 0)

instance (c : ℕ) : Decidable (SafeSq c) := by unfold SafeSq; infer_instance

theorem noCarry_of_safeSq {V : ℤ} {c : ℕ} (h0 : 0 ≤ V) (h1 : V < 2 ^ 448 + 2 ^ 422 - 2 ^ 225)
    (hc : (c : ℤ) = V % p448) (hs : SafeSq c) : NoCarry V := by
  by_cases hV : V < 2 ^ 448
  · exact noCarry_of_lt h0 hV
  have e : (c : ℤ) = V - p448 := by
    rw [hc, ← Int.sub_emod_right V p448]
    unfold p448 at *
    exact Int.emod_eq_of_lt (by omega) (by omega)
  obtain ⟨d, hd⟩ : ∃ d : ℤ, d = V - 2 ^ 448 := ⟨_, rfl⟩
  have hcd : (c : ℤ) = d + 2 ^ 224 + 1 := by rw [e, hd]; unfold p448; ring
  have hV' : V = 2 ^ 448 + d := by omega
  have hd0 : 0 ≤ d := by omega
  have hd1 : d < 2 ^ 422 - 2 ^ 225 := by omega
  obtain ⟨e', rfl⟩ : ∃ e' : ℕ, d = e' := ⟨d.toNat, by omega⟩
  have hc' : c = e' + 2 ^ 224 + 1 := by exact_mod_cast hcd
  unfold SafeSq at hs
  have hs : c % 2 ^ 64 ≠ 0 ∧ (c - 1) / 2 ^ 224 % 2 ^ 32 ≠ 0 := by
    rcases hs with hs | hs | hs
    · omega
    · omega
    · exact hs
  have k1 : V / 2 ^ 448 = 1 := by omega
  unfold NoCarry
  rw [k1]
  obtain ⟨s1, s2⟩ := hs
  subst hc'
  have t1 : (e' + 2 ^ 224 + 1 - 1) / 2 ^ 224 = e' / 2 ^ 224 + 1 := by omega
  rw [t1] at s2
  have k2 : V % 2 ^ 64 = ((e' % 2 ^ 64 : ℕ) : ℤ) := by omega
  have k3 : V / 2 ^ 192 % 2 ^ 64 = ((e' / 2 ^ 192 % 2 ^ 64 : ℕ) : ℤ) := by omega
  have k4 : e' / 2 ^ 192 / 2 ^ 32 = e' / 2 ^ 224 := by rw [Nat.div_div_eq_div_mul, ← pow_add]
  rw [k2, k3]
  constructor
  · omega
  · rw [← k4] at s2
    omega

theorem serFold_lt_of_sq1 {a : Elt8 U} (h : a.Le sq1) :
    serFold a.limbs.ints < 2 ^ 448 + 2 ^ 422 - 2 ^ 225 := by
  obtain ⟨k0, k1, k2, k3, k4, k5, k6, k7, k8, k9, k10, k11, k12, k13, k14, k15⟩ := h
  simp only [sq1, bnd] at k0 k1 k2 k3 k4 k5 k6 k7 k8 k9 k10 k11 k12 k13 k14 k15
  simp only [serFold, Elt16.val, Elt16.ints, Elt16.map]
  have c : ∀ {n m : ℕ}, n ≤ m → (n : ℤ) ≤ (m : ℤ) := fun h => by exact_mod_cast h
  obtain ⟨x, hx⟩ : ∃ x, x = ((a.limbs.r15.toNat : ℤ) / 2 ^ 28) := ⟨_, rfl⟩
  have hx0 : (a.limbs.r15.toNat : ℤ) - 2 ^ 28 * x < 2 ^ 28 ∧ 0 ≤ x ∧ x ≤ 2 := by omega
  obtain ⟨x1, x2, x3⟩ := hx0
  rw [← hx]
  have := c k0; have := c k1; have := c k2; have := c k3; have := c k4; have := c k5
  have := c k6; have := c k7; have := c k8; have := c k9; have := c k10; have := c k11
  have := c k12; have := c k13; have := c k14
  clear hx k15
  norm_num only at *
  linarith

theorem ser_safeSq {a : Elt8 U} {x : Fp} (h : Rp sq1 a.limbs x) (hs : SafeSq (canon x)) :
    R1.ser a = leBytes 56 (canon x) := by
  have e : x = a.toFp := h.2.symm
  have hsg : a.Le signedB := h.1.mono (by decide)
  subst e
  rw [ser_eq_iff hsg]
  refine noCarry_of_safeSq (serFold_range hsg).1 (serFold_lt_of_sq1 h.1) ?_ hs
  have e2 : a.toFp = ((serFold a.limbs.ints : ℤ) : Fp) := (serFold_cast _).symm
  rw [e2, canon, ZMod.val_intCast, P_eq]

theorem cmp_iff {a b : Elt8 U} {x y : Fp} (ha : Rp sq1 a.limbs x) (hb : Rp sq1 b.limbs y)
    (hx : SafeSq (canon x)) (hy : SafeSq (canon y)) : R1.cmp a b = 0#32 ↔ x = y := by
  rw [R1.cmp, ser_safeSq ha hx, ser_safeSq hb hy, cmp_bytes_eq_zero (by simp)]
  constructor
  · intro h
    have k : ∀ x : Fp, leNat (leBytes 56 (canon x)) = canon x := fun x => by
      rw [leNat_leBytes, Nat.mod_eq_of_lt]
      exact (canon_lt x).trans (by decide +kernel)
    apply canon_inj
    rw [← k x, h, k y]
  · rintro rfl; rfl

/-- What the decoding needs of y²: that subtracting one from the first limb does not wrap and
that the comparison loses no carry. -/
def DecodeClear (y : Fp) : Prop :=
  4 < canon (y ^ 2) % 2 ^ 28 ∧ 4 < canon (d * y ^ 2) % 2 ^ 28 ∧ SafeSq (canon (y ^ 2 - 1)) ∧
    SafeSq (canon (1 - y ^ 2))

instance (y : Fp) : Decidable (DecodeClear y) := by unfold DecodeClear; infer_instance

theorem decodeCmp_iff {Y : Elt8 U} {y : Fp} (h : Rp tight Y.limbs y) (hc : DecodeClear y) :
    decodeCmp (decodeU Y) (decodeV Y) (decodeRoot (decodeU Y) (decodeV Y)) = 0#32 ↔
      ∃ A : Pt, A.y = y := by
  obtain ⟨h1, h2, h3, h4⟩ := hc
  have hu := decodeU_rp h h1
  have hv := (decodeV_rp h h2).sq
  have hr := (decodeRoot_rp hu hv).sq
  have hx := ((hr.r1sqrn 1).r1mul hv).sq.cast (y := (d * y ^ 2 - 1) *
    rootOf (y ^ 2 - 1) (d * y ^ 2 - 1) ^ 2) (by norm_num; ring)
  rw [root_iff]
  refine cmp_iff hx hu ?_ h3
  rcases root_or (u := y ^ 2 - 1) (v_ne y) with e | e <;> rw [e]
  · exact h3
  · rwa [neg_sub]

/-! ## The coordinates of the result -/

/-- Bounds of a coordinate whose sign was chosen. -/
def xB : Elt16 ℕ := bnd (2 ^ 28 + 2 ^ 10) (2 ^ 28 + 2 ^ 10)

/-- Bounds of its square. -/
def sqB : Elt16 ℕ := bnd (2 * 2 ^ 28 + 2 ^ 8) (3 * 2 ^ 28 + 2 ^ 8)

def sqRawB : Elt16 ℕ := bnd (48 * 2 ^ 56) (48 * 2 ^ 56)

theorem okX1 : okLe (R1.sqrRaw (ivs xB).pack).limbs sqRawB = true := by decide +kernel
theorem okX2 : okLe (R1.compressfast (ivs sqRawB).pack).limbs sqB = true := by decide +kernel
theorem okX3 : okLe (R2.add (ivs xB).pack (ivs xB).pack).limbs sum2 = true := by decide +kernel
theorem okX4 : okLe (R1.compressfast (ivs diff2).pack).limbs fastB = true := by decide +kernel
theorem okX5 : okLe (R2.add (ivs sqB).pack (ivs sqB).pack).limbs (bnd (2 ^ 31) (2 ^ 31)) = true := by
  decide +kernel
theorem okX6 : okLe (R1.new_compressfast (ivs (bnd (2 ^ 31) (2 ^ 31))).pack).limbs fastB = true := by
  decide +kernel
theorem okX7 : okLe (R1.neg (ivs fastB).pack).limbs (bnd (2 ^ 31) (2 ^ 31)) = true := by
  decide +kernel
theorem okX8 : okLe (R1.compressfast (ivs (bnd (2 ^ 31 + 2) (2 ^ 31 + 2))).pack).limbs fastB = true := by
  decide +kernel
theorem fast_sq1 : leB fastB sq1 = true := by decide +kernel
theorem fast_xB : leB fastB xB = true := by decide +kernel
theorem tight_xB : leB tight xB = true := by decide +kernel
theorem tight_diff2 : leB tight diff2 = true := by decide +kernel

theorem sqr_xB {a : Elt8 U} {x : Fp} (h : Rp xB a.limbs x) : Rp sqB (R1.sqr a).limbs (x ^ 2) :=
  ((h.r1sqrRaw okX1).r1compressfast okX2).cast (by ring)

/-- No limb of `b + (2p - a)` goes below zero. -/
def NoBorrow2 (b a : Elt16 W) : Prop :=
  let ok (k a b : W) : Prop := a.toNat ≤ b.toNat + k.toNat
  let k : Elt16 W := (R1.twoP (α := U)).limbs
  ok k.r0 a.r0 b.r0 ∧ ok k.r1 a.r1 b.r1 ∧ ok k.r2 a.r2 b.r2 ∧ ok k.r3 a.r3 b.r3 ∧
  ok k.r4 a.r4 b.r4 ∧ ok k.r5 a.r5 b.r5 ∧ ok k.r6 a.r6 b.r6 ∧ ok k.r7 a.r7 b.r7 ∧
  ok k.r8 a.r8 b.r8 ∧ ok k.r9 a.r9 b.r9 ∧ ok k.r10 a.r10 b.r10 ∧ ok k.r11 a.r11 b.r11 ∧
  ok k.r12 a.r12 b.r12 ∧ ok k.r13 a.r13 b.r13 ∧ ok k.r14 a.r14 b.r14 ∧ ok k.r15 a.r15 b.r15

instance (b a : Elt16 W) : Decidable (NoBorrow2 b a) := by unfold NoBorrow2; infer_instance

theorem w_sub2 (b a : W) (k : ℕ) {M N : ℕ} (hk : k < 2 ^ 30) (hM : M < 2 ^ 30)
    (hN : N < 2 ^ 30) (h : a.toNat ≤ b.toNat + (BitVec.ofNat 64 k).toNat) (hb : b.toNat ≤ M)
    (ha : a.toNat ≤ N) :
    (b + (BitVec.ofNat 64 k - a)).toNat ≤ 2 ^ 31 ∧
      ((b + (BitVec.ofNat 64 k - a)).toNat : ℤ) = b.toNat + ((k : ℤ) - a.toNat) := by
  rw [BitVec.toNat_ofNat, Nat.mod_eq_of_lt (by omega)] at h
  rw [BitVec.toNat_add, BitVec.toNat_sub, BitVec.toNat_ofNat, Nat.mod_eq_of_lt (a := k) (by omega)]
  omega

theorem sub_of {b a : Elt8 U} {x y : Fp} (hb : Rp sqB b.limbs y) (ha : Rp sqB a.limbs x)
    (h : NoBorrow2 b.limbs a.limbs) : Rp (bnd (2 ^ 31) (2 ^ 31)) (R1.sub b a).limbs (y - x) := by
  obtain ⟨hb1, hb2⟩ := hb
  obtain ⟨ha1, ha2⟩ := ha
  obtain ⟨n0, n1, n2, n3, n4, n5, n6, n7, n8, n9, n10, n11, n12, n13, n14, n15⟩ := h
  obtain ⟨a0, a1, a2, a3, a4, a5, a6, a7, a8, a9, a10, a11, a12, a13, a14, a15⟩ := ha1
  obtain ⟨b0, b1, b2, b3, b4, b5, b6, b7, b8, b9, b10, b11, b12, b13, b14, b15⟩ := hb1
  have e0 := w_sub2 _ _ _ (by decide) (by decide) (by decide) n0 b0 a0
  have e1 := w_sub2 _ _ _ (by decide) (by decide) (by decide) n1 b1 a1
  have e2 := w_sub2 _ _ _ (by decide) (by decide) (by decide) n2 b2 a2
  have e3 := w_sub2 _ _ _ (by decide) (by decide) (by decide) n3 b3 a3
  have e4 := w_sub2 _ _ _ (by decide) (by decide) (by decide) n4 b4 a4
  have e5 := w_sub2 _ _ _ (by decide) (by decide) (by decide) n5 b5 a5
  have e6 := w_sub2 _ _ _ (by decide) (by decide) (by decide) n6 b6 a6
  have e7 := w_sub2 _ _ _ (by decide) (by decide) (by decide) n7 b7 a7
  have e8 := w_sub2 _ _ _ (by decide) (by decide) (by decide) n8 b8 a8
  have e9 := w_sub2 _ _ _ (by decide) (by decide) (by decide) n9 b9 a9
  have e10 := w_sub2 _ _ _ (by decide) (by decide) (by decide) n10 b10 a10
  have e11 := w_sub2 _ _ _ (by decide) (by decide) (by decide) n11 b11 a11
  have e12 := w_sub2 _ _ _ (by decide) (by decide) (by decide) n12 b12 a12
  have e13 := w_sub2 _ _ _ (by decide) (by decide) (by decide) n13 b13 a13
  have e14 := w_sub2 _ _ _ (by decide) (by decide) (by decide) n14 b14 a14
  have e15 := w_sub2 _ _ _ (by decide) (by decide) (by decide) n15 b15 a15
  refine ⟨⟨e0.1, e1.1, e2.1, e3.1, e4.1, e5.1, e6.1, e7.1, e8.1, e9.1, e10.1, e11.1, e12.1, e13.1, e14.1, e15.1⟩, ?_⟩
  have hi : (R1.sub b a).limbs.ints = (R2.sub b.limbs.ints.pack a.limbs.ints.pack).limbs := by
    ext1
    · exact e0.2
    · exact e1.2
    · exact e2.2
    · exact e3.2
    · exact e4.2
    · exact e5.2
    · exact e6.2
    · exact e7.2
    · exact e8.2
    · exact e9.2
    · exact e10.2
    · exact e11.2
    · exact e12.2
    · exact e13.2
    · exact e14.2
    · exact e15.2
  unfold Elt16.toFp
  rw [hi, R2_sub_int, Int.cast_sub, Int.cast_add, p_mul_cast, add_zero, ← ha2, ← hb2]; rfl

/-- The condition under which the difference of the squares has no limb below zero. -/
def DecodeNoBorrow (X Y : Elt8 U) : Prop := NoBorrow2 (R1.sqr Y).limbs (R1.sqr X).limbs

instance (X Y : Elt8 U) : Decidable (DecodeNoBorrow X Y) := by
  unfold DecodeNoBorrow; infer_instance

/-- From the affine coordinates of a point to its negative on the isogenous curve. -/
theorem decodeOut_spec {X Y : Elt8 U} {A : Pt} (hX : Rp xB X.limbs A.x) (hY : Rp tight Y.limbs A.y)
    (hn : DecodeNoBorrow X Y) : Is4w (decodeOut X Y).1 (-A) ∧ Is2w (decodeOut X Y).2 (-A) := by
  have hYx := hY.mono tight_xB
  have ha : Rp fastB (decodeA X Y).limbs (-((A.x + A.x) * A.y)) :=
    ((hX.r2add hX okX3).r1mulD (hY.mono tight_diff2)).neg.r1compressfast okX4
  have hXX := sqr_xB hX
  have hYY := sqr_xB hYx
  have hb : Rp fastB (decodeB (R1.sqr X) (R1.sqr Y)).limbs (A.y ^ 2 + A.x ^ 2) :=
    (hYY.r2add hXX okX5).r1new_compressfast okX6
  have hc : Rp fastB (decodeC (R1.sqr X) (R1.sqr Y)).limbs (A.y ^ 2 - A.x ^ 2) :=
    (sub_of hYY hXX hn).r1new_compressfast okX6
  have hd : Rp fastB (decodeD (decodeB (R1.sqr X) (R1.sqr Y))).limbs (-(A.y ^ 2 + A.x ^ 2) + 2) :=
    (addLimb0_two (hb.r1neg okX7) (by decide) (by decide +kernel)).r1compressfast okX8
  have ha := ha.mono fast_sq1
  have hb := hb.mono fast_sq1
  have hc := hc.mono fast_sq1
  have hd := hd.mono fast_sq1
  have key : Edw.RepI (-A) (-((A.x + A.x) * A.y) * (-(A.y ^ 2 + A.x ^ 2) + 2))
      ((A.y ^ 2 + A.x ^ 2) * (A.y ^ 2 - A.x ^ 2)) ((A.y ^ 2 - A.x ^ 2) * (-(A.y ^ 2 + A.x ^ 2) + 2))
      (-((A.x + A.x) * A.y) * (A.y ^ 2 + A.x ^ 2)) := by
    have on := A.on
    simp only [show curve.a = 1 from rfl] at on
    have f1 : -(A.y ^ 2 + A.x ^ 2) + 2 = 1 - curve.d * A.s ^ 2 := by
      rw [Edw.Pt.s]; linear_combination -on
    have f2 : A.y ^ 2 + A.x ^ 2 = 1 + curve.d * A.s ^ 2 := by
      rw [Edw.Pt.s]; linear_combination on
    have t0 : A.y ^ 2 - A.x ^ 2 ≠ 0 := Edw.Pt.den_t iso A
    have s0 : 1 - curve.d * A.s ^ 2 ≠ 0 := A.den_s
    have := Edw.RepI.of_factors (P := -A) (E := -((A.x + A.x) * A.y))
      (F := -(A.y ^ 2 + A.x ^ 2) + 2) (G := A.y ^ 2 - A.x ^ 2) (H := A.y ^ 2 + A.x ^ 2)
      (by rw [f1]; exact s0) t0
      (by rw [Edw.Pt.phiX_neg, Edw.Pt.phiX, Edw.Pt.s, Edw.Pt.t]; field_simp; ring)
      (by rw [Edw.Pt.phiY_neg, Edw.Pt.phiY, f1, f2, div_mul_cancel₀ _ s0])
    rwa [mul_comm (A.y ^ 2 - A.x ^ 2) (A.y ^ 2 + A.x ^ 2),
      mul_comm (-(A.y ^ 2 + A.x ^ 2) + 2) (A.y ^ 2 - A.x ^ 2)] at this
  have hx' := ha.r1mul hd
  have hy' := hb.r1mul hc
  have hz' := hc.r1mul hd
  have ht' := ha.r1mul hb
  constructor
  · obtain ⟨l0, l1, l2, l3⟩ := R4_zip_lanes (R1.mul (decodeA X Y) (decodeD (decodeB (R1.sqr X) (R1.sqr Y))))
      (R1.mul (decodeB (R1.sqr X) (R1.sqr Y)) (decodeC (R1.sqr X) (R1.sqr Y)))
      (R1.mul (decodeA X Y) (decodeB (R1.sqr X) (R1.sqr Y)))
      (R1.mul (decodeC (R1.sqr X) (R1.sqr Y)) (decodeD (decodeB (R1.sqr X) (R1.sqr Y))))
    refine ⟨_, _, _, _, ?_, ?_, ?_, ?_, key⟩
    · exact l0 ▸ hx'
    · exact l1 ▸ hy'
    · exact l2 ▸ ht'
    · exact l3 ▸ hz'
  · exact ⟨_, _, _, _, hx', hy', hz', ht', key⟩

/-! ## The sign -/

/-- After a carry pass the first limb has the parity of the canonical representative, if this is
at least 2^282. -/
theorem parity_tight {X : Elt8 U} {x : Fp} (h : Rp tight X.limbs x) (hx : 2 ^ 282 ≤ canon x) :
    (X.c0.l &&& 1#64).toNat = canon x % 2 := by
  have h1 := (value_lt_of_tight h.1).1
  have h0 := value_nonneg X
  have hc := canon_value h
  have hm := value_mod X
  have hv : X.value < p448 := by
    by_contra hge
    have e : X.value % p448 = X.value - p448 := by
      rw [← Int.sub_emod_right]
      unfold p448 at *
      exact Int.emod_eq_of_lt (by omega) (by omega)
    have : (2 : ℤ) ^ 282 ≤ (canon x : ℤ) := by exact_mod_cast hx
    rw [hc, e] at this
    unfold p448 at *
    omega
  rw [Int.emod_eq_of_lt h0 hv] at hc
  rw [← hc] at hm
  have e1 : (X.c0.l &&& 1#64).toNat = X.c0.l.toNat % 2 := by
    rw [BitVec.toNat_and]
    exact Nat.and_one_is_mod _
  rw [e1]
  generalize canon x = c at *
  omega

theorem decodeSign_rp {X : Elt8 U} {A : Pt} {bit : W} (hX : Rp tight X.limbs A.x ∨ Rp tight X.limbs (-A.x))
    (hb : bit.toNat = canon A.x % 2) (h1 : 2 ^ 282 ≤ canon A.x) (h2 : canon A.x + 2 ^ 282 ≤ P) :
    Rp xB (decodeSign bit X).limbs A.x := by
  have hx0 : A.x ≠ 0 := by
    intro h; rw [h] at h1
    exact absurd h1 (by decide +kernel)
  unfold decodeSign
  rcases hX with hX | hX
  · have hp := parity_tight hX h1
    rw [← hb] at hp
    rw [if_neg (by rw [BitVec.toNat_inj.1 hp]; exact fun h => h rfl)]
    exact hX.mono tight_xB
  · have hp := parity_tight hX (by rw [canon_neg hx0]; generalize canon A.x = c at *; omega)
    rw [canon_neg_parity hx0, ← hb] at hp
    rw [if_pos]
    · exact ((hX.neg.r1compressfast okX4).mono fast_xB).cast (neg_neg _)
    · intro h
      rw [← h] at hp
      omega

/-! ## The parts of the string -/

theorem signBit_eq {b : List Byte} (hb : b.length = 57) :
    ((b.getD 56 0 >>> 7).setWidth 64 : W).toNat = signBit b := by
  have h1 : leNat b = leNat (b.take 56) + 256 ^ 56 * (b.getD 56 0).toNat := by
    conv_lhs => rw [← List.take_append_drop 56 b, leNat_append]
    have e : b.drop 56 = [b.getD 56 0] := by
      rw [List.drop_eq_getElem_cons (by omega), List.drop_eq_nil_of_le (by omega),
        List.getD_eq_getElem _ _ (by omega)]
    rw [e, List.length_take, hb]
    simp [leNat]
  have h2 : leNat (b.take 56) < 256 ^ 56 := by
    have := leNat_lt (b.take 56)
    rwa [List.length_take, hb] at this
  rw [signBit, h1, BitVec.toNat_setWidth, BitVec.toNat_ushiftRight, Nat.shiftRight_eq_div_pow]
  have := (b.getD 56 0).isLt
  generalize (b.getD 56 0).toNat = t at *
  generalize leNat (b.take 56) = l at *
  norm_num at h2 ⊢
  omega

/-- A reduced coordinate fits in 56 bytes. -/
theorem take_of_lt {b : List Byte} (h : yNum b < P) : leNat (b.take 56) = yNum b := by
  rw [leNat_take]
  have h2 : P < 2 ^ 448 := by decide +kernel
  unfold yNum at *
  norm_num at *
  omega

end Verif.Ed448
