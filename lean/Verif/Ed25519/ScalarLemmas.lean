import Verif.Ed25519.ScalarAsmLemmas
import Verif.Ed25519.MulLemmas
import Verif.Fp25519.FullLemmas
import Verif.Ed25519.Curve

/-! # Reduction modulo the group order: helper lemmas -/

namespace Verif.Ed25519

open Verif.Fp25519 (F8 F4)

set_option exponentiation.threshold 2000

theorem split_w4_w3 (w3 w4 : W) :
    iv (((w4 &&& 0x3#64) <<< 4) ||| (w3 >>> 60)) = 16 * (iv w4 % 4) + iv w3 / 2 ^ 60 ∧
    iv (w3 &&& ((1#64 <<< 60) - 1#64)) = iv w3 % 2 ^ 60 := by
  have e1 : (w4 &&& 0x3#64).toNat = w4.toNat % 4 := by
    rw [BitVec.toNat_and]; exact Nat.and_two_pow_sub_one_eq_mod w4.toNat 2
  constructor
  · unfold iv
    have h3 : w3.toNat >>> 60 < 2 ^ 4 := by
      rw [Nat.shiftRight_eq_div_pow]; have := w3.isLt; omega
    have e2 : ((w4 &&& 0x3#64) <<< 4).toNat = 2 ^ 4 * (w4.toNat % 4) := by
      rw [BitVec.toNat_shiftLeft, e1, Nat.shiftLeft_eq]; omega
    rw [BitVec.toNat_or, e2, BitVec.toNat_ushiftRight, ← Nat.two_pow_add_eq_or_of_lt h3,
      Nat.shiftRight_eq_div_pow]
    omega
  · unfold iv
    have : ((1#64 <<< 60) - 1#64).toNat = 2 ^ 60 - 1 := by decide
    rw [BitVec.toNat_and, this, Nat.and_two_pow_sub_one_eq_mod]
    omega

theorem red_arith {lo hi q1 lo1 hi1 q2 W4 l w3 w4 top v q3 : ℤ}
    (hlo : 0 ≤ lo) (hlo' : lo < 2 ^ 256) (hhi : 0 ≤ hi) (hhi' : hi < 2 ^ 256)
    (hlo1 : 0 ≤ lo1) (hlo1' : lo1 < 2 ^ 256)
    (h1 : lo1 + 2 ^ 256 * hi1 = lo - 443877084437957656573631004654138375888 * hi + 2 ^ 512 * q1)
    (hl : 0 ≤ l) (hl' : l < 2 ^ 192) (hw3 : 0 ≤ w3) (hw3' : w3 < 2 ^ 64)
    (h2 : l + 2 ^ 192 * w3 + 2 ^ 256 * w4 + 2 ^ 320 * W4 =
      lo1 - 443877084437957656573631004654138375888 * hi1 + 2 ^ 512 * q2)
    (ht : top = 16 * (w4 % 4) + w3 / 2 ^ 60)
    (hv : 0 ≤ v) (hv' : v < 2 ^ 256)
    (h3 : v = l + 2 ^ 192 * (w3 % 2 ^ 60) - 27742317777372353535851937790883648493 * top
      + 2 ^ 256 * q3) :
    v = (lo + 2 ^ 256 * hi) % (ell : ℤ) ∨
    ((ell : ℤ) - 43 * 27742317777372353535851937790883648493 ≤ (lo + 2 ^ 256 * hi) % (ell : ℤ) ∧
      v = 2 ^ 256 - ell + (lo + 2 ^ 256 * hi) % (ell : ℤ)) := by
  have hell : (ell : ℤ) = 2 ^ 252 + 27742317777372353535851937790883648493 := by norm_num
  -- the floor of the first difference
  obtain ⟨f, hf⟩ : ∃ f, f = hi1 - 2 ^ 256 * q1 := ⟨_, rfl⟩
  have hT : lo1 + 2 ^ 256 * f = lo - 443877084437957656573631004654138375888 * hi := by
    rw [hf]; linarith only [h1]
  have f0 : f ≤ 0 := by omega
  have f1 : -443877084437957656573631004654138375888 ≤ f := by omega
  -- U
  obtain ⟨U, hU⟩ : ∃ U, U = lo1 - 443877084437957656573631004654138375888 * f := ⟨_, rfl⟩
  have U0 : 0 ≤ U := by rw [hU]; linarith only [hlo1, f0]
  have U1 : U < 44 * 2 ^ 252 := by rw [hU]; linarith only [hlo1', f1]
  have hAU : lo + 2 ^ 256 * hi = U + (16 * ell) * (hi + f) := by
    rw [hU, hell]; linear_combination -hT
  have h2' : l + 2 ^ 192 * w3 + 2 ^ 256 * w4 = U +
      2 ^ 258 * (-2 ^ 62 * W4 - 4 * 27742317777372353535851937790883648493 * q1 + 2 ^ 254 * q2) := by
    rw [hU]
    have : hi1 = f + 2 ^ 256 * q1 := by rw [hf]; ring
    rw [this] at h2
    linear_combination h2
  have h2m : l + 2 ^ 192 * w3 + 2 ^ 256 * (w4 % 4) = U := by
    generalize (-2 ^ 62 * W4 - 4 * 27742317777372353535851937790883648493 * q1 + 2 ^ 254 * q2) = Q at *
    clear * - h2' U0 U1 hl hl' hw3 hw3'
    omega
  have hUs : U = (l + 2 ^ 192 * (w3 % 2 ^ 60)) + 2 ^ 252 * top := by
    rw [ht, ← h2m]; clear * - ; omega
  have htop : 0 ≤ top ∧ top ≤ 43 := by
    have : 0 ≤ w3 % 2 ^ 60 ∧ w3 % 2 ^ 60 < 2 ^ 60 := by omega
    have ha : 0 ≤ w4 % 4 := by omega
    have hb : 0 ≤ w3 / 2 ^ 60 := by omega
    constructor
    · rw [ht]; linarith only [ha, hb]
    · by_contra hc
      have : 44 ≤ top := by omega
      linarith only [this, hUs, U1, hl, this, (by omega : 0 ≤ w3 % 2 ^ 60)]
  have hD : l + 2 ^ 192 * (w3 % 2 ^ 60) - 27742317777372353535851937790883648493 * top =
      U - ell * top := by rw [hUs, hell]; ring
  have hlow : l + 2 ^ 192 * (w3 % 2 ^ 60) < 2 ^ 252 ∧ 0 ≤ l + 2 ^ 192 * (w3 % 2 ^ 60) := by omega
  have hmod : (lo + 2 ^ 256 * hi) % (ell : ℤ) = (U - ell * top) % (ell : ℤ) := by
    rw [hAU]
    have e : U + 16 * (ell : ℤ) * (hi + f) = (U - ell * top) + ell * (16 * (hi + f) + top) := by ring
    rw [e, Int.add_mul_emod_self_left]
  rw [hmod]
  generalize l + 2 ^ 192 * (w3 % 2 ^ 60) = low at *
  generalize U - (ell : ℤ) * top = D at *
  have hDl : D < 2 ^ 252 := by rw [← hD]; linarith only [htop.1, hlow.1]
  have hDg : -43 * 27742317777372353535851937790883648493 ≤ D := by
    rw [← hD]; linarith only [htop.2, hlow.2]
  rw [hD] at h3
  rw [hell]
  clear * - hDl hDg h3 hv hv'
  by_cases h0 : 0 ≤ D
  · left; omega
  · right; omega

/-- The low four words after the reduction, as a number. -/
def low4 (a : F8) : ℤ := iv a.w0 + 2 ^ 64 * iv a.w1 + 2 ^ 128 * iv a.w2 + 2 ^ 192 * iv a.w3

theorem low4_bounds (a : F8) : 0 ≤ low4 a ∧ low4 a < 2 ^ 256 := by
  unfold low4
  constructor
  · linarith only [iv_nonneg a.w0, iv_nonneg a.w1, iv_nonneg a.w2, iv_nonneg a.w3]
  · linarith only [iv_le a.w0, iv_le a.w1, iv_le a.w2, iv_le a.w3]

/-- The high four words. -/
def high4 (a : F8) : ℤ := iv a.w4 + 2 ^ 64 * iv a.w5 + 2 ^ 128 * iv a.w6 + 2 ^ 192 * iv a.w7

theorem high4_bounds (a : F8) : 0 ≤ high4 a ∧ high4 a < 2 ^ 256 := by
  unfold high4
  constructor
  · linarith only [iv_nonneg a.w4, iv_nonneg a.w5, iv_nonneg a.w6, iv_nonneg a.w7]
  · linarith only [iv_le a.w4, iv_le a.w5, iv_le a.w6, iv_le a.w7]

theorem val_eq (a : F8) : a.val = low4 a + 2 ^ 256 * high4 a := by
  unfold Fp25519.F8.val low4 high4; ring

theorem modular_reduction_val (a : F8) :
    low4 (modular_reduction a) = a.val % (ell : ℤ) ∨
    ((ell : ℤ) - 43 * 27742317777372353535851937790883648493 ≤ a.val % (ell : ℤ) ∧
      low4 (modular_reduction a) = 2 ^ 256 - ell + a.val % (ell : ℤ)) := by
  obtain ⟨q1, h1⟩ := reduce256bits_val a
  unfold modular_reduction
  simp only
  obtain ⟨q2, h2⟩ := reduce256bits_val (reduce256bits a)
  generalize reduce256bits a = b at *
  generalize reduce256bits b = c at *
  obtain ⟨q3, h3⟩ := reduce64bits_val { c with
    w4 := ((c.w4 &&& 0x3#64) <<< 4) ||| (c.w3 >>> 60), w3 := c.w3 &&& ((1#64 <<< 60) - 1#64) }
  simp only at h3 ⊢
  obtain ⟨s1, s2⟩ := split_w4_w3 c.w3 c.w4
  rw [s1, s2] at h3
  rw [val_eq a]
  refine red_arith (low4_bounds a).1 (low4_bounds a).2 (high4_bounds a).1 (high4_bounds a).2
    (low4_bounds b).1 (low4_bounds b).2 (hi1 := high4 b)
    (q1 := q1) ?_ (l := iv c.w0 + 2 ^ 64 * iv c.w1 + 2 ^ 128 * iv c.w2) ?_ ?_ (iv_nonneg c.w3)
    (iv_lt c.w3) (w4 := iv c.w4) (W4 := iv c.w5 + 2 ^ 64 * iv c.w6 + 2 ^ 128 * iv c.w7) (q2 := q2)
    ?_ (top := 16 * (iv c.w4 % 4) + iv c.w3 / 2 ^ 60) ?_ ?_ ?_ (q3 := q3) ?_
  · rw [← val_eq b, h1]; rfl
  · linarith only [iv_nonneg c.w0, iv_nonneg c.w1, iv_nonneg c.w2]
  · linarith only [iv_le c.w0, iv_le c.w1, iv_le c.w2]
  · have : c.val = low4 b - 443877084437957656573631004654138375888 * high4 b + 2 ^ 512 * q2 := h2
    rw [← this]; unfold Fp25519.F8.val; ring
  · rfl
  · exact (low4_bounds _).1
  · exact (low4_bounds _).2
  · unfold low4; exact h3

theorem F8.lowBytes_length (a : F8) : (F8.lowBytes a).length = 32 := by simp [F8.lowBytes]

theorem F8.lowBytes_val (a : F8) : (leNat (F8.lowBytes a) : ℤ) = low4 a := by
  simp only [F8.lowBytes, leNat_append, leNat_wordBytes, List.length_append, wordBytes_length,
    low4, iv]
  push_cast
  ring

theorem F8.ofBytes_val {b : List Byte} (h : b.length = 64) : (F8.ofBytes b).val = leNat b := by
  have h0 := leNat_drop b 0 (by omega)
  have h1 := leNat_drop b 1 (by omega)
  have h2 := leNat_drop b 2 (by omega)
  have h3 := leNat_drop b 3 (by omega)
  have h4 := leNat_drop b 4 (by omega)
  have h5 := leNat_drop b 5 (by omega)
  have h6 := leNat_drop b 6 (by omega)
  have h7 := leNat_drop b 7 (by omega)
  have h8 : leNat (b.drop (8 * (7 + 1))) = 0 := by
    rw [List.drop_eq_nil_of_le (by omega)]; rfl
  simp only [Nat.mul_zero, List.drop_zero] at h0
  simp only [F8.ofBytes, Fp25519.F8.val, iv]
  rw [h8] at h7
  rw [h0, h1, h2, h3, h4, h5, h6, h7]
  push_cast
  ring

/-- `reduceBytes` on 64 bytes. -/
theorem reduceBytes_val (b : List Byte) (h : b.length = 64) :
    leNat (reduceBytes b) = leNat b % ell ∨
    (ell - 43 * 27742317777372353535851937790883648493 ≤ leNat b % ell ∧
      leNat (reduceBytes b) = 2 ^ 256 - ell + leNat b % ell) := by
  have := modular_reduction_val (F8.ofBytes b)
  rw [← F8.lowBytes_val, F8.ofBytes_val h] at this
  change ((leNat (reduceBytes b) : ℤ) = _) ∨ _ ∧ ((leNat (reduceBytes b) : ℤ) = _) at this
  rw [← Int.natCast_mod] at this
  rcases this with h1 | ⟨h1, h2⟩
  · left; exact_mod_cast h1
  · right
    have h3 : leNat b % ell < ell := Nat.mod_lt _ (by norm_num)
    generalize leNat b % ell = m at *
    generalize leNat (reduceBytes b) = r at *
    have e : (ell : ℤ) = 2 ^ 252 + 27742317777372353535851937790883648493 := by norm_num
    rw [e] at h1 h2
    unfold ell at h3 ⊢
    omega

end Verif.Ed25519
