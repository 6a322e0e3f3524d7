import Verif.Fp448.RedOps
import Verif.Fp25519.RedSer

/-! # Reduced-radix serialisation -/

namespace Verif.Fp448

set_option exponentiation.threshold 2000

/-- The value of an element, as an integer. -/
def Elt8.value (a : Elt8 U) : ℤ := a.limbs.ints.val

theorem Elt8.toFp_value (a : Elt8 U) : a.toFp = (a.value : Fp) := rfl

/-! ## `unser` -/

theorem toNat_mask28 (x : W) : (x &&& ((1#64 <<< 28) - 1#64)).toNat = x.toNat % 2 ^ 28 := by
  have e : ((1#64 : W) <<< 28) - 1#64 = BitVec.ofNat 64 (2 ^ 28 - 1) := by decide
  rw [e, BitVec.toNat_and, BitVec.toNat_ofNat, Nat.mod_eq_of_lt (by norm_num),
    Nat.and_two_pow_sub_one_eq_mod]

theorem toNat_glue (x y : W) (s t : ℕ) (h : s + t = 64) (ht : 0 < t) (hs : t < 28) :
    (((x >>> s) ||| (y <<< t)) &&& ((1#64 <<< 28) - 1#64)).toNat =
      x.toNat / 2 ^ s + 2 ^ t * (y.toNat % 2 ^ (28 - t)) := by
  rw [toNat_mask28, BitVec.toNat_or, BitVec.toNat_ushiftRight, BitVec.toNat_shiftLeft,
    Nat.shiftRight_eq_div_pow, Nat.shiftLeft_eq]
  have hx : x.toNat / 2 ^ s < 2 ^ t := by
    rw [Nat.div_lt_iff_lt_mul (by positivity), ← pow_add, add_comm t s, h]; exact x.isLt
  have e64 : (2 : ℕ) ^ 64 = 2 ^ s * 2 ^ t := by rw [← pow_add, h]
  have e28 : (2 : ℕ) ^ 28 = 2 ^ (28 - t) * 2 ^ t := by rw [← pow_add]; congr 1; omega
  rw [e64, Nat.mul_mod_mul_right, Nat.or_comm, mul_comm _ (2 ^ t),
    ← Nat.two_pow_add_eq_or_of_lt hx, e28, mul_comm (2 ^ (28 - t)) (2 ^ t), Nat.mod_mul,
    Nat.mul_add_mod, Nat.mod_eq_of_lt hx, Nat.mul_add_div (by positivity), Nat.div_eq_of_lt hx,
    add_zero, Nat.mod_mod_of_dvd]
  exact pow_dvd_pow 2 (by omega)

/-- Limbs of 28 bits. -/
def canonB : Elt16 ℕ := bnd (2 ^ 28 - 1) (2 ^ 28 - 1)

theorem unser_limbs (b : List Byte) :
    (R1.unser b).limbs.map BitVec.toNat =
      let A := F7.ofBytes b
      let w0 := A.w0.toNat
      let w1 := A.w1.toNat
      let w2 := A.w2.toNat
      let w3 := A.w3.toNat
      let w4 := A.w4.toNat
      let w5 := A.w5.toNat
      let w6 := A.w6.toNat
      ⟨w0 % 2 ^ 28, w0 / 2 ^ 28 % 2 ^ 28, w0 / 2 ^ 56 + 2 ^ 8 * (w1 % 2 ^ 20), w1 / 2 ^ 20 % 2 ^ 28,
        w1 / 2 ^ 48 + 2 ^ 16 * (w2 % 2 ^ 12), w2 / 2 ^ 12 % 2 ^ 28,
        w2 / 2 ^ 40 + 2 ^ 24 * (w3 % 2 ^ 4), w3 / 2 ^ 4 % 2 ^ 28, w3 / 2 ^ 32 % 2 ^ 28,
        w3 / 2 ^ 60 + 2 ^ 4 * (w4 % 2 ^ 24), w4 / 2 ^ 24 % 2 ^ 28,
        w4 / 2 ^ 52 + 2 ^ 12 * (w5 % 2 ^ 16), w5 / 2 ^ 16 % 2 ^ 28,
        w5 / 2 ^ 44 + 2 ^ 20 * (w6 % 2 ^ 8), w6 / 2 ^ 8 % 2 ^ 28, w6 / 2 ^ 36 % 2 ^ 28⟩ := by
  have key : ∀ (x : W) (k : ℕ), ((x >>> k) &&& ((1#64 <<< 28) - 1#64)).toNat =
      x.toNat / 2 ^ k % 2 ^ 28 := fun x k => by
    rw [toNat_mask28, BitVec.toNat_ushiftRight, Nat.shiftRight_eq_div_pow]
  simp only [R1.unser, R1.ofMem, Elt8.limbs, Elt16.map, key, Nat.reduceMul, Nat.reduceAdd]
  ext <;> dsimp only
  · simp
  · exact toNat_glue _ _ 56 8 rfl (by norm_num) (by norm_num)
  · exact toNat_glue _ _ 48 16 rfl (by norm_num) (by norm_num)
  · exact toNat_glue _ _ 40 24 rfl (by norm_num) (by norm_num)
  · exact toNat_glue _ _ 60 4 rfl (by norm_num) (by norm_num)
  · exact toNat_glue _ _ 52 12 rfl (by norm_num) (by norm_num)
  · exact toNat_glue _ _ 44 20 rfl (by norm_num) (by norm_num)

theorem split_words (w0 w1 w2 w3 w4 w5 w6 : ℤ) (h6 : 0 ≤ w6 ∧ w6 < 2 ^ 64) :
    w0 % 2 ^ 28 + 2 ^ 28 * (w0 / 2 ^ 28 % 2 ^ 28) + 2 ^ 56 * (w0 / 2 ^ 56 + 2 ^ 8 * (w1 % 2 ^ 20)) +
    2 ^ 84 * (w1 / 2 ^ 20 % 2 ^ 28) + 2 ^ 112 * (w1 / 2 ^ 48 + 2 ^ 16 * (w2 % 2 ^ 12)) +
    2 ^ 140 * (w2 / 2 ^ 12 % 2 ^ 28) + 2 ^ 168 * (w2 / 2 ^ 40 + 2 ^ 24 * (w3 % 2 ^ 4)) +
    2 ^ 196 * (w3 / 2 ^ 4 % 2 ^ 28) + 2 ^ 224 * (w3 / 2 ^ 32 % 2 ^ 28) +
    2 ^ 252 * (w3 / 2 ^ 60 + 2 ^ 4 * (w4 % 2 ^ 24)) + 2 ^ 280 * (w4 / 2 ^ 24 % 2 ^ 28) +
    2 ^ 308 * (w4 / 2 ^ 52 + 2 ^ 12 * (w5 % 2 ^ 16)) + 2 ^ 336 * (w5 / 2 ^ 16 % 2 ^ 28) +
    2 ^ 364 * (w5 / 2 ^ 44 + 2 ^ 20 * (w6 % 2 ^ 8)) + 2 ^ 392 * (w6 / 2 ^ 8 % 2 ^ 28) +
    2 ^ 420 * (w6 / 2 ^ 36 % 2 ^ 28) =
    w0 + 2 ^ 64 * w1 + 2 ^ 128 * w2 + 2 ^ 192 * w3 + 2 ^ 256 * w4 + 2 ^ 320 * w5 + 2 ^ 384 * w6 := by
  have e0 : w0 % 2 ^ 28 + 2 ^ 28 * (w0 / 2 ^ 28 % 2 ^ 28) + 2 ^ 56 * (w0 / 2 ^ 56) = w0 := by omega
  have e1 : w1 % 2 ^ 20 + 2 ^ 20 * (w1 / 2 ^ 20 % 2 ^ 28) + 2 ^ 48 * (w1 / 2 ^ 48) = w1 := by omega
  have e2 : w2 % 2 ^ 12 + 2 ^ 12 * (w2 / 2 ^ 12 % 2 ^ 28) + 2 ^ 40 * (w2 / 2 ^ 40) = w2 := by omega
  have e3 : w3 % 2 ^ 4 + 2 ^ 4 * (w3 / 2 ^ 4 % 2 ^ 28) + 2 ^ 32 * (w3 / 2 ^ 32 % 2 ^ 28) +
      2 ^ 60 * (w3 / 2 ^ 60) = w3 := by omega
  have e4 : w4 % 2 ^ 24 + 2 ^ 24 * (w4 / 2 ^ 24 % 2 ^ 28) + 2 ^ 52 * (w4 / 2 ^ 52) = w4 := by omega
  have e5 : w5 % 2 ^ 16 + 2 ^ 16 * (w5 / 2 ^ 16 % 2 ^ 28) + 2 ^ 44 * (w5 / 2 ^ 44) = w5 := by omega
  have e6 : w6 % 2 ^ 8 + 2 ^ 8 * (w6 / 2 ^ 8 % 2 ^ 28) + 2 ^ 36 * (w6 / 2 ^ 36 % 2 ^ 28) = w6 := by
    omega
  linear_combination e0 + 2 ^ 64 * e1 + 2 ^ 128 * e2 + 2 ^ 192 * e3 + 2 ^ 256 * e4 + 2 ^ 320 * e5 +
    2 ^ 384 * e6

theorem unser_spec (b : List Byte) (h : b.length = 56) :
    (R1.unser b).Le canonB ∧ (R1.unser b).value = (leNat b : ℤ) := by
  have e := unser_limbs b
  rw [← F7.ofBytes_val h]
  simp only [Elt16.map, Elt16.mk.injEq] at e
  obtain ⟨e0, e1, e2, e3, e4, e5, e6, e7, e8, e9, e10, e11, e12, e13, e14, e15⟩ := e
  simp only [Elt8.value, Elt16.val, Elt16.ints, Elt16.map, e0, e1, e2, e3, e4, e5, e6, e7, e8, e9,
    e10, e11, e12, e13, e14, e15, F7.val, iv]
  have l0 := (F7.ofBytes b).w0.isLt; have l1 := (F7.ofBytes b).w1.isLt
  have l2 := (F7.ofBytes b).w2.isLt; have l3 := (F7.ofBytes b).w3.isLt
  have l4 := (F7.ofBytes b).w4.isLt; have l5 := (F7.ofBytes b).w5.isLt
  have l6 := (F7.ofBytes b).w6.isLt
  constructor
  · simp only [Elt8.Le, Elt16.Le, canonB, bnd, e0, e1, e2, e3, e4, e5, e6, e7, e8, e9,
      e10, e11, e12, e13, e14, e15]
    have k : ∀ x : ℕ, x % 2 ^ 28 ≤ 2 ^ 28 - 1 := fun x => by omega
    exact ⟨k _, k _, by omega, k _, by omega, k _, by omega, k _, k _, by omega, k _, by omega,
      k _, by omega, k _, k _⟩
  · push_cast
    exact split_words _ _ _ _ _ _ _ ⟨by omega, by omega⟩

theorem unser_toFp (b : List Byte) (h : b.length = 56) : (R1.unser b).toFp = (leNat b : Fp) := by
  rw [Elt8.toFp_value, (unser_spec b h).2]; norm_cast

theorem unser_rp (b : List Byte) (h : b.length = 56) :
    Rp tight (R1.unser b).limbs (leNat b : Fp) :=
  ⟨(unser_spec b h).1.mono (by decide), unser_toFp b h⟩

/-! ## `ser` -/

/-- Limbs that are not negative as signed words. -/
def signedB : Elt16 ℕ := bnd (2 ^ 63 - 1) (2 ^ 63 - 1)

/-- What `ser` makes of the value at first: the part of limb 15 above 28 bits is added at
weights 1 and 2^224. -/
def serFold (a : Elt16 ℤ) : ℤ :=
  a.val - 2 ^ 448 * (a.r15 / 2 ^ 28) + (1 + 2 ^ 224) * (a.r15 / 2 ^ 28)

/-- The condition under which `ser` does not lose a carry. -/
def NoCarry (v : ℤ) : Prop :=
  v % 2 ^ 64 + v / 2 ^ 448 < 2 ^ 64 ∧ v / 2 ^ 192 % 2 ^ 64 + 2 ^ 32 * (v / 2 ^ 448) < 2 ^ 64

instance (v : ℤ) : Decidable (NoCarry v) := by unfold NoCarry; infer_instance

theorem toInt_of_le {x : W} (h : x.toNat ≤ 2 ^ 63 - 1) : x.toInt = (x.toNat : ℤ) := by
  rw [BitVec.toInt_eq_toNat_cond]; split_ifs <;> omega

theorem iv_ofInt (x : ℤ) : iv (BitVec.ofInt 64 x) = x % 2 ^ 64 := by
  unfold iv
  rw [BitVec.toNat_ofInt]
  omega

/-- The chain of carries of `ser`, on integers. -/
theorem ser_chain {c0 d1 d2 d3 d4 d5 d6 c1 c2 c3 c4 c5 c6 v : ℤ}
    (h1 : c1 = c0 / 2 ^ 64 + d1) (h2 : c2 = c1 / 2 ^ 64 + d2) (h3 : c3 = c2 / 2 ^ 64 + d3)
    (h4 : c4 = c3 / 2 ^ 64 + d4) (h5 : c5 = c4 / 2 ^ 64 + d5) (h6 : c6 = c5 / 2 ^ 64 + d6)
    (hv : v = c0 + 2 ^ 64 * d1 + 2 ^ 128 * d2 + 2 ^ 192 * d3 + 2 ^ 256 * d4 + 2 ^ 320 * d5 +
      2 ^ 384 * d6) :
    v = c0 % 2 ^ 64 + 2 ^ 64 * (c1 % 2 ^ 64) + 2 ^ 128 * (c2 % 2 ^ 64) + 2 ^ 192 * (c3 % 2 ^ 64) +
      2 ^ 256 * (c4 % 2 ^ 64) + 2 ^ 320 * (c5 % 2 ^ 64) + 2 ^ 384 * (c6 % 2 ^ 64) +
      2 ^ 448 * (c6 / 2 ^ 64) := by
  have e0 := Int.emod_add_mul_ediv c0 (2 ^ 64)
  have e1 := Int.emod_add_mul_ediv c1 (2 ^ 64)
  have e2 := Int.emod_add_mul_ediv c2 (2 ^ 64)
  have e3 := Int.emod_add_mul_ediv c3 (2 ^ 64)
  have e4 := Int.emod_add_mul_ediv c4 (2 ^ 64)
  have e5 := Int.emod_add_mul_ediv c5 (2 ^ 64)
  have e6 := Int.emod_add_mul_ediv c6 (2 ^ 64)
  linear_combination hv - e0 - 2 ^ 64 * (e1 + h1) - 2 ^ 128 * (e2 + h2) - 2 ^ 192 * (e3 + h3) -
    2 ^ 256 * (e4 + h4) - 2 ^ 320 * (e5 + h5) - 2 ^ 384 * (e6 + h6)

theorem digits {w0 w1 w2 w3 w4 w5 w6 t v : ℤ}
    (b0 : 0 ≤ w0 ∧ w0 < 2 ^ 64) (b1 : 0 ≤ w1 ∧ w1 < 2 ^ 64) (b2 : 0 ≤ w2 ∧ w2 < 2 ^ 64)
    (b3 : 0 ≤ w3 ∧ w3 < 2 ^ 64) (b4 : 0 ≤ w4 ∧ w4 < 2 ^ 64) (b5 : 0 ≤ w5 ∧ w5 < 2 ^ 64)
    (b6 : 0 ≤ w6 ∧ w6 < 2 ^ 64)
    (hv : v = w0 + 2 ^ 64 * w1 + 2 ^ 128 * w2 + 2 ^ 192 * w3 + 2 ^ 256 * w4 + 2 ^ 320 * w5 +
      2 ^ 384 * w6 + 2 ^ 448 * t) :
    v % 2 ^ 64 = w0 ∧ v / 2 ^ 192 % 2 ^ 64 = w3 ∧ v / 2 ^ 448 = t := by
  obtain ⟨L, hL⟩ : ∃ L, L = w0 + 2 ^ 64 * w1 + 2 ^ 128 * w2 := ⟨_, rfl⟩
  obtain ⟨H, hH⟩ : ∃ H, H = w4 + 2 ^ 64 * w5 + 2 ^ 128 * w6 := ⟨_, rfl⟩
  have l : 0 ≤ L ∧ L < 2 ^ 192 := by omega
  have l' : 0 ≤ H ∧ H < 2 ^ 192 := by omega
  have hv' : v = L + 2 ^ 192 * w3 + 2 ^ 256 * H + 2 ^ 448 * t := by rw [hv, hL, hH]; ring
  refine ⟨?_, ?_, ?_⟩
  · clear hL hH l l' hv'; omega
  · clear hL hH b0 b1 b2 b4 b5 b6 hv; omega
  · clear hL hH b0 b1 b2 b4 b5 b6 hv; omega

/-- What `ser` leaves in memory before the final reduction: the value modulo 2^448 with the part
above 2^448 added into the words 0 and 3 without carries. -/
theorem serWords_val {a : Elt8 U} (h : a.Le signedB) :
    (R1.serWords a).val =
      let v := serFold a.limbs.ints
      v % 2 ^ 448 +
        ((v % 2 ^ 64 + v / 2 ^ 448) % 2 ^ 64 - v % 2 ^ 64) +
        2 ^ 192 * ((v / 2 ^ 192 % 2 ^ 64 + 2 ^ 32 * (v / 2 ^ 448)) % 2 ^ 64 -
          v / 2 ^ 192 % 2 ^ 64) := by
  obtain ⟨k0, k1, k2, k3, k4, k5, k6, k7, k8, k9, k10, k11, k12, k13, k14, k15⟩ := h
  simp only [Elt8.limbs, signedB, bnd] at k0 k1 k2 k3 k4 k5 k6 k7 k8 k9 k10 k11 k12 k13 k14 k15
  unfold R1.serWords
  rw [toInt_of_le k0, toInt_of_le k1, toInt_of_le k2, toInt_of_le k3, toInt_of_le k4,
    toInt_of_le k5, toInt_of_le k6, toInt_of_le k7, toInt_of_le k8, toInt_of_le k9,
    toInt_of_le k10, toInt_of_le k11, toInt_of_le k12, toInt_of_le k13, toInt_of_le k14,
    toInt_of_le k15]
  extract_lets a0 a1 a2 a3 a4 a5 a6 a7 a8 a9 a10 a11 a12 a13 a14 a15 tmp b15 b0 b1 c0 c1 c2 c3 c4 c5
    c6 t2 e0 e3 v
  have hv : v = serFold a.limbs.ints := rfl
  clear_value v
  have hfold : v = c0 + 2 ^ 64 * (a8 * 2 ^ (20 + 28) + a6 * 2 ^ 20) +
      2 ^ 128 * (a12 * 2 ^ (12 + 28) + a10 * 2 ^ 12) +
      2 ^ 192 * (a3 * 2 ^ (4 + 2 * 28) + b1 * 2 ^ (4 + 28) + a14 * 2 ^ 4) +
      2 ^ 256 * (a7 * 2 ^ (24 + 28) + a5 * 2 ^ 24) +
      2 ^ 320 * (a11 * 2 ^ (16 + 28) + a9 * 2 ^ 16) +
      2 ^ 384 * (b15 * 2 ^ (8 + 28) + a13 * 2 ^ 8) := by
    rw [hv]
    have hb : b15 = a15 - 2 ^ 28 * tmp := Int.emod_def _ _
    simp only [serFold, Elt16.val, Elt16.ints, Elt16.map, Elt8.limbs]
    simp only [c0, b0, b1]
    rw [hb]
    simp only [a0, a1, a2, a3, a4, a5, a6, a7, a8, a9, a10, a11, a12, a13, a14, tmp, a15]
    ring
  have hch := ser_chain (c0 := c0) (c1 := c1) (c2 := c2) (c3 := c3) (c4 := c4) (c5 := c5) (c6 := c6)
    (d1 := a8 * 2 ^ (20 + 28) + a6 * 2 ^ 20) (d2 := a12 * 2 ^ (12 + 28) + a10 * 2 ^ 12)
    (d3 := a3 * 2 ^ (4 + 2 * 28) + b1 * 2 ^ (4 + 28) + a14 * 2 ^ 4)
    (d4 := a7 * 2 ^ (24 + 28) + a5 * 2 ^ 24) (d5 := a11 * 2 ^ (16 + 28) + a9 * 2 ^ 16)
    (d6 := b15 * 2 ^ (8 + 28) + a13 * 2 ^ 8)
    (by simp only [c1]; ring) (by simp only [c2]; ring) (by simp only [c3]; ring)
    (by simp only [c4]; ring) (by simp only [c5]; ring) (by simp only [c6]; ring) hfold
  have m : ∀ x : ℤ, 0 ≤ x % 2 ^ 64 ∧ x % 2 ^ 64 < 2 ^ 64 := fun x => by omega
  obtain ⟨g0, g3, gt⟩ := digits (m c0) (m c1) (m c2) (m c3) (m c4) (m c5) (m c6) hch
  simp only [F7.val, iv_ofInt]
  have q0 : e0 % 2 ^ 64 = (v % 2 ^ 64 + v / 2 ^ 448) % 2 ^ 64 := by
    rw [gt, g0]; simp only [e0, t2]; omega
  have q3 : e3 % 2 ^ 64 = (v / 2 ^ 192 % 2 ^ 64 + 2 ^ 32 * (v / 2 ^ 448)) % 2 ^ 64 := by
    rw [gt, g3]; simp only [e3, t2]; omega
  rw [q0, q3]
  have hm : v % 2 ^ 448 = v - 2 ^ 448 * (v / 2 ^ 448) := Int.emod_def _ _
  rw [hm, g0, g3, gt]
  linear_combination -hch

theorem serFold_cast (a : Elt16 ℤ) : ((serFold a : ℤ) : Fp) = (a.val : Fp) :=
  cast_eq ⟨-(a.r15 / 2 ^ 28), by unfold serFold p448; ring⟩

theorem serFold_range {a : Elt8 U} (h : a.Le signedB) :
    0 ≤ serFold a.limbs.ints ∧ serFold a.limbs.ints < 2 ^ 456 := by
  obtain ⟨k0, k1, k2, k3, k4, k5, k6, k7, k8, k9, k10, k11, k12, k13, k14, k15⟩ := h
  simp only [signedB, bnd] at k0 k1 k2 k3 k4 k5 k6 k7 k8 k9 k10 k11 k12 k13 k14 k15
  simp only [serFold, Elt16.val, Elt16.ints, Elt16.map]
  obtain ⟨x, hx⟩ : ∃ x, x = ((a.limbs.r15.toNat : ℤ) / 2 ^ 28) := ⟨_, rfl⟩
  have hx0 : 0 ≤ (a.limbs.r15.toNat : ℤ) - 2 ^ 28 * x ∧
    (a.limbs.r15.toNat : ℤ) - 2 ^ 28 * x < 2 ^ 28 ∧ 0 ≤ x ∧ x < 2 ^ 35 := by omega
  rw [← hx]
  have c : ∀ {n : ℕ}, n ≤ 2 ^ 63 - 1 → 0 ≤ (n : ℤ) ∧ (n : ℤ) ≤ 2 ^ 63 - 1 := fun h => by omega
  obtain ⟨n0, m0⟩ := c k0; obtain ⟨n1, m1⟩ := c k1; obtain ⟨n2, m2⟩ := c k2
  obtain ⟨n3, m3⟩ := c k3; obtain ⟨n4, m4⟩ := c k4; obtain ⟨n5, m5⟩ := c k5
  obtain ⟨n6, m6⟩ := c k6; obtain ⟨n7, m7⟩ := c k7; obtain ⟨n8, m8⟩ := c k8
  obtain ⟨n9, m9⟩ := c k9; obtain ⟨n10, m10⟩ := c k10; obtain ⟨n11, m11⟩ := c k11
  obtain ⟨n12, m12⟩ := c k12; obtain ⟨n13, m13⟩ := c k13; obtain ⟨n14, m14⟩ := c k14
  obtain ⟨x0, x1, x2, x3⟩ := hx0
  constructor <;> linarith

/-- The carries lost by `ser` always change the residue. -/
theorem carry_iff {v : ℤ} (h0 : 0 ≤ v) (h1 : v < 2 ^ 456) :
    p448 ∣ v - (v % 2 ^ 448 + ((v % 2 ^ 64 + v / 2 ^ 448) % 2 ^ 64 - v % 2 ^ 64) +
        2 ^ 192 * ((v / 2 ^ 192 % 2 ^ 64 + 2 ^ 32 * (v / 2 ^ 448)) % 2 ^ 64 -
          v / 2 ^ 192 % 2 ^ 64)) ↔ NoCarry v := by
  unfold NoCarry
  have hm : v % 2 ^ 448 = v - 2 ^ 448 * (v / 2 ^ 448) := Int.emod_def _ _
  rw [hm]
  obtain ⟨t, ht⟩ : ∃ t, t = v / 2 ^ 448 := ⟨_, rfl⟩
  obtain ⟨x, hx⟩ : ∃ x, x = v % 2 ^ 64 := ⟨_, rfl⟩
  obtain ⟨y, hy⟩ : ∃ y, y = v / 2 ^ 192 % 2 ^ 64 := ⟨_, rfl⟩
  have bt : 0 ≤ t ∧ t < 2 ^ 8 := by omega
  have bx : 0 ≤ x ∧ x < 2 ^ 64 := by omega
  have by' : 0 ≤ y ∧ y < 2 ^ 64 := by omega
  rw [← ht, ← hx, ← hy]
  clear ht hx hy hm h0 h1
  obtain ⟨e, he, he'⟩ : ∃ e, (x + t) % 2 ^ 64 = x + t - 2 ^ 64 * e ∧
      ((e = 0 ∧ x + t < 2 ^ 64) ∨ (e = 1 ∧ ¬ x + t < 2 ^ 64)) := by
    refine ⟨(x + t) / 2 ^ 64, Int.emod_def _ _, ?_⟩
    omega
  obtain ⟨f, hf, hf'⟩ : ∃ f, (y + 2 ^ 32 * t) % 2 ^ 64 = y + 2 ^ 32 * t - 2 ^ 64 * f ∧
      ((f = 0 ∧ y + 2 ^ 32 * t < 2 ^ 64) ∨ (f = 1 ∧ ¬ y + 2 ^ 32 * t < 2 ^ 64)) := by
    refine ⟨(y + 2 ^ 32 * t) / 2 ^ 64, Int.emod_def _ _, ?_⟩
    omega
  rw [he, hf]
  have e1 : v - (v - 2 ^ 448 * t + (x + t - 2 ^ 64 * e - x) +
      2 ^ 192 * (y + 2 ^ 32 * t - 2 ^ 64 * f - y)) = p448 * t + (2 ^ 64 * e + 2 ^ 256 * f) := by
    unfold p448; ring
  rw [e1]
  have e2 : p448 ∣ p448 * t + (2 ^ 64 * e + 2 ^ 256 * f) ↔ p448 ∣ 2 ^ 64 * e + 2 ^ 256 * f :=
    ⟨fun h => (Int.dvd_add_right (Dvd.intro _ rfl)).1 h,
      fun h => Int.dvd_add (Dvd.intro _ rfl) h⟩
  rw [e2]
  rcases he' with ⟨rfl, k1⟩ | ⟨rfl, k1⟩ <;> rcases hf' with ⟨rfl, k2⟩ | ⟨rfl, k2⟩ <;>
    simp only [k1, k2, and_true, and_false, iff_true, iff_false, p448] <;> decide

theorem P_dvd_iff (x y : ℤ) : ((x : Fp) = (y : Fp)) ↔ p448 ∣ y - x := by
  rw [ZMod.intCast_eq_intCast_iff_dvd_sub, P_eq]

theorem serWords_toFp {a : Elt8 U} (h : a.Le signedB) :
    (R1.serWords a).toFp = a.toFp ↔ NoCarry (serFold a.limbs.ints) := by
  obtain ⟨h0, h1⟩ := serFold_range h
  have e : a.toFp = ((serFold a.limbs.ints : ℤ) : Fp) := (serFold_cast _).symm
  rw [e, F7.toFp, serWords_val h, P_dvd_iff]
  exact carry_iff h0 h1

theorem ser_eq_iff {a : Elt8 U} (h : a.Le signedB) :
    R1.ser a = leBytes 56 (canon a.toFp) ↔ NoCarry (serFold a.limbs.ints) := by
  rw [← serWords_toFp h]
  have hl : (leNat (R1.ser a) : ℤ) = canon (R1.serWords a).toFp := by
    unfold R1.ser Full.ser
    rw [F7.leNat_toBytes, Full.modp_val_canon]
  have hc : ∀ x : Fp, canon x < 256 ^ 56 := fun x =>
    lt_of_lt_of_le (ZMod.val_lt x) (by norm_num)
  constructor
  · intro h
    rw [h, leNat_leBytes, Nat.mod_eq_of_lt (hc _)] at hl
    exact (ZMod.val_injective P (by unfold canon at hl; exact_mod_cast hl)).symm
  · intro h
    apply leNat_inj
    · simp [R1.ser, Full.ser, F7.toBytes_length]
    · rw [leNat_leBytes, Nat.mod_eq_of_lt (hc _), ← h]
      exact_mod_cast hl

theorem noCarry_of_lt {v : ℤ} (h0 : 0 ≤ v) (h : v < 2 ^ 448) : NoCarry v := by
  unfold NoCarry; omega

theorem value_nonneg (a : Elt8 U) : 0 ≤ a.value := by
  simp only [Elt8.value, Elt16.val, Elt16.ints, Elt16.map]
  positivity

/-- An element of value below 2^448 is serialised canonically, whatever its limbs. -/
theorem serFold_of_lt {a : Elt8 U} (h : a.value < 2 ^ 448) : a.Le signedB →
    serFold a.limbs.ints = a.value := by
  intro _
  have : (a.limbs.ints.r15 / 2 ^ 28 : ℤ) = 0 := by
    simp only [Elt8.value, Elt16.val, Elt16.ints, Elt16.map] at h ⊢
    have : (0 : ℤ) ≤ a.limbs.r0.toNat + 2 ^ 28 * a.limbs.r1.toNat + 2 ^ 56 * a.limbs.r2.toNat +
      2 ^ 84 * a.limbs.r3.toNat + 2 ^ 112 * a.limbs.r4.toNat + 2 ^ 140 * a.limbs.r5.toNat +
      2 ^ 168 * a.limbs.r6.toNat + 2 ^ 196 * a.limbs.r7.toNat + 2 ^ 224 * a.limbs.r8.toNat +
      2 ^ 252 * a.limbs.r9.toNat + 2 ^ 280 * a.limbs.r10.toNat + 2 ^ 308 * a.limbs.r11.toNat +
      2 ^ 336 * a.limbs.r12.toNat + 2 ^ 364 * a.limbs.r13.toNat + 2 ^ 392 * a.limbs.r14.toNat := by
      positivity
    have h15 : (2 : ℤ) ^ 420 * a.limbs.r15.toNat < 2 ^ 448 := by linarith
    have : (a.limbs.r15.toNat : ℤ) < 2 ^ 28 := by
      clear h this; omega
    have := Int.natCast_nonneg a.limbs.r15.toNat
    clear h15 h
    omega
  simp only [serFold, this, Elt8.value]; ring

theorem ser_of_lt {a : Elt8 U} (h : a.Le signedB) (hv : a.value < 2 ^ 448) :
    R1.ser a = leBytes 56 (canon a.toFp) := by
  rw [ser_eq_iff h, serFold_of_lt hv h]
  exact noCarry_of_lt (value_nonneg a) hv

theorem value_lt_of_tight {a : Elt8 U} (h : a.Le tight) :
    a.value < 2 ^ 448 + 2 ^ 281 ∧ a.limbs.ints.r15 < 2 ^ 28 := by
  obtain ⟨k0, k1, k2, k3, k4, k5, k6, k7, k8, k9, k10, k11, k12, k13, k14, k15⟩ := h
  simp only [tight] at k0 k1 k2 k3 k4 k5 k6 k7 k8 k9 k10 k11 k12 k13 k14 k15
  simp only [Elt8.value, Elt16.val, Elt16.ints, Elt16.map]
  have c : ∀ {n m : ℕ}, n ≤ m → (n : ℤ) ≤ (m : ℤ) := fun h => by exact_mod_cast h
  have := c k0; have := c k1; have := c k2; have := c k3; have := c k4; have := c k5
  have := c k6; have := c k7; have := c k8; have := c k9; have := c k10; have := c k11
  have := c k12; have := c k13; have := c k14; have := c k15
  norm_num only at *
  constructor <;> linarith

/-- After a carry pass the value is above 2^448 only for residues below 2^282. -/
theorem ser_of_tight {a : Elt8 U} (h : a.Le tight) (hx : 2 ^ 282 ≤ canon a.toFp) :
    R1.ser a = leBytes 56 (canon a.toFp) := by
  refine ser_of_lt (h.mono (by decide)) ?_
  obtain ⟨h1, -⟩ := value_lt_of_tight h
  by_contra hc
  push Not at hc
  have e : (canon a.toFp : ℤ) = a.value % p448 := by
    rw [canon, Elt8.toFp_value, ZMod.val_intCast, P_eq]
  have e2 : a.value % p448 = a.value - p448 := by
    have : a.value = (a.value - p448) + p448 * 1 := by ring
    rw [this, Int.add_mul_emod_self_left, Int.emod_eq_of_lt]
    · ring
    · unfold p448; linarith
    · unfold p448; linarith
  have : (2 : ℤ) ^ 282 ≤ (canon a.toFp : ℤ) := by exact_mod_cast hx
  rw [e, e2, p448] at this
  norm_num only at *
  linarith

end Verif.Fp448
