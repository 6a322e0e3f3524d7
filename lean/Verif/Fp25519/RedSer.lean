import Verif.Fp25519.RedOps
import Verif.Fp25519.Prime

/-! # Reduced-radix serialisation -/

namespace Verif.Fp25519

set_option exponentiation.threshold 2000

section inversion
variable {α : Type} {X : α}

theorem shift_inv {n : ℕ} (hn : n ≤ 64) {x : W} {k : W → W → α}
    (h : shld n x 0#64 (fun hi => shl n x fun lo => k hi lo) = X) :
    ∃ hi lo : W, iv lo + 2 ^ 64 * iv hi = 2 ^ n * iv x ∧ k hi lo = X := by
  refine ⟨_, _, ?_, h⟩
  unfold iv
  rw [BitVec.zero_shiftLeft, BitVec.zero_or, BitVec.toNat_shiftLeft, BitVec.toNat_ushiftRight,
    Nat.shiftLeft_eq, Nat.shiftRight_eq_div_pow]
  have e : x.toNat / 2 ^ (64 - n) = x.toNat * 2 ^ n / 2 ^ 64 := by
    have : (2 : ℕ) ^ 64 = 2 ^ (64 - n) * 2 ^ n := by rw [← pow_add]; congr 1; omega
    rw [this, Nat.mul_div_mul_right _ _ (by positivity)]
  rw [e]
  have := Nat.mod_add_div (x.toNat * 2 ^ n) (2 ^ 64)
  have h2 : ((x.toNat * 2 ^ n : ℕ) : ℤ) = 2 ^ n * (x.toNat : ℤ) := by push_cast; ring
  rw [← h2]
  exact_mod_cast this

theorem acc3_inv {x0 x1 x2 lo hi : W} {v : ℤ} {k : W → W → W → α}
    (h : Verif.add x0 lo (fun x0 c => adc x1 hi c fun x1 c => adc x2 0#64 c fun x2 _ => k x0 x1 x2) = X)
    (hv : iv lo + 2 ^ 64 * iv hi = v)
    (hb : iv x0 + 2 ^ 64 * iv x1 + 2 ^ 128 * iv x2 + v < 2 ^ 192) :
    ∃ y0 y1 y2 : W, iv y0 + 2 ^ 64 * iv y1 + 2 ^ 128 * iv y2 =
      iv x0 + 2 ^ 64 * iv x1 + 2 ^ 128 * iv x2 + v ∧ k y0 y1 y2 = X := by
  obtain ⟨y0, c0, e0, h⟩ := add_inv h
  obtain ⟨y1, c1, e1, h⟩ := adc_inv h
  obtain ⟨y2, c2, e2, h⟩ := adc_inv h
  have z : iv (0#64) = 0 := rfl
  have hd : bv c2 = 0 := dead (K := 2 ^ 192) (rest := iv y0 + 2 ^ 64 * iv y1 + 2 ^ 128 * iv y2)
    (by linear_combination e0 + 2 ^ 64 * e1 + 2 ^ 128 * e2 + hv + 2 ^ 128 * z)
    (by have := iv_nonneg y0; have := iv_nonneg y1; have := iv_nonneg y2; linarith) hb
  exact ⟨y0, y1, y2, by
    linear_combination e0 + 2 ^ 64 * e1 + 2 ^ 128 * e2 + hv + 2 ^ 128 * z - 2 ^ 192 * hd, h⟩

theorem acc2_inv {x0 x1 lo hi : W} {v : ℤ} {k : W → W → α}
    (h : Verif.add x0 lo (fun x0 c => adc x1 hi c fun x1 _ => k x0 x1) = X)
    (hv : iv lo + 2 ^ 64 * iv hi = v) :
    ∃ (y0 y1 : W) (c : Bool), iv y0 + 2 ^ 64 * iv y1 + 2 ^ 128 * bv c =
      iv x0 + 2 ^ 64 * iv x1 + v ∧ k y0 y1 = X := by
  obtain ⟨y0, c0, e0, h⟩ := add_inv h
  obtain ⟨y1, c1, e1, h⟩ := adc_inv h
  exact ⟨y0, y1, c1, by linear_combination e0 + 2 ^ 64 * e1 + hv, h⟩

theorem imul38_inv {x : W} {k : W → α} (h : imul x 38#64 (fun r _ _ => k r) = X)
    (hx : iv x < 2 ^ 56) : ∃ r : W, iv r = 38 * iv x ∧ k r = X := by
  refine ⟨_, ?_, h⟩
  unfold iv at *
  have e : (x * 38#64).toNat = x.toNat * 38 := by
    rw [BitVec.toNat_mul]
    have : (38#64 : W).toNat = 38 := rfl
    rw [this]
    exact Nat.mod_eq_of_lt (by omega)
  rw [e]; push_cast; ring

end inversion

theorem ints_val (a : Elt5 U) : a.limbs.ints.val =
    iv a.c0.l + 2 ^ 26 * iv a.c1.l + 2 ^ 51 * iv a.c2.l + 2 ^ 77 * iv a.c3.l + 2 ^ 102 * iv a.c4.l +
    2 ^ 128 * iv a.c0.h + 2 ^ 153 * iv a.c1.h + 2 ^ 179 * iv a.c2.h + 2 ^ 204 * iv a.c3.h +
    2 ^ 230 * iv a.c4.h := rfl

theorem Elt5.val_nonneg (a : Elt5 U) : 0 ≤ a.limbs.ints.val := by
  rw [ints_val]
  have := iv_nonneg a.c0.l; have := iv_nonneg a.c1.l; have := iv_nonneg a.c2.l
  have := iv_nonneg a.c3.l; have := iv_nonneg a.c4.l
  have := iv_nonneg a.c0.h; have := iv_nonneg a.c1.h; have := iv_nonneg a.c2.h
  have := iv_nonneg a.c3.h; have := iv_nonneg a.c4.h
  linarith

/-- What the assembly of `ser` leaves in memory: the value modulo 2^256, the part above 2^256
being folded into the low two words only. -/
theorem serWords_val (a : Elt5 U) :
    (R1.serWords a).val =
      (a.limbs.ints.val % 2 ^ 128 + 38 * (a.limbs.ints.val / 2 ^ 256)) % 2 ^ 128 +
        2 ^ 128 * (a.limbs.ints.val / 2 ^ 128 % 2 ^ 128) := by
  obtain ⟨X, hX⟩ : ∃ X, R1.serWords a = X := ⟨_, rfl⟩
  have h := hX
  rw [hX, ints_val]
  have n0 := iv_nonneg a.c0.l; have n1 := iv_nonneg a.c1.l; have n2 := iv_nonneg a.c2.l
  have n3 := iv_nonneg a.c3.l; have n4 := iv_nonneg a.c4.l
  have n5 := iv_nonneg a.c0.h; have n6 := iv_nonneg a.c1.h; have n7 := iv_nonneg a.c2.h
  have n8 := iv_nonneg a.c3.h; have n9 := iv_nonneg a.c4.h
  have b0 := iv_lt a.c0.l; have b1 := iv_lt a.c1.l; have b2 := iv_lt a.c2.l
  have b3 := iv_lt a.c3.l; have b4 := iv_lt a.c4.l
  have b5 := iv_lt a.c0.h; have b6 := iv_lt a.c1.h; have b7 := iv_lt a.c2.h
  have b8 := iv_lt a.c3.h; have b9 := iv_lt a.c4.h
  have z : iv (0#64) = 0 := rfl
  unfold R1.serWords at h
  simp only [xor0, mov] at h
  -- limb 0
  obtain ⟨p0, p1, p2, e0, h⟩ := acc3_inv (v := iv a.c0.l) h (by rw [z]; ring) (by rw [z]; linarith)
  obtain ⟨hi, lo, f, h⟩ := shift_inv (by norm_num) h
  obtain ⟨q0, q1, q2, e1, h⟩ := acc3_inv h f (by rw [e0, z]; linarith)
  obtain ⟨hi, lo, f, h⟩ := shift_inv (by norm_num) h
  obtain ⟨s0, s1, s2, e2, h⟩ := acc3_inv h f (by rw [e1, e0, z]; linarith)
  rw [e1, e0, z] at e2
  have m0 := iv_nonneg s0
  obtain ⟨hi, lo, f, h⟩ := shift_inv (by norm_num) h
  obtain ⟨t1, t2, t3, e3, h⟩ := acc3_inv h f (by rw [z]; linarith)
  obtain ⟨hi, lo, f, h⟩ := shift_inv (by norm_num) h
  obtain ⟨u1, u2, u3, e4, h⟩ := acc3_inv h f (by rw [e3, z]; linarith)
  rw [e3, z] at e4
  have m1 := iv_nonneg u1
  obtain ⟨t2, t3, t4, e5, h⟩ := acc3_inv (v := iv a.c0.h) h (by rw [z]; ring) (by rw [z]; linarith)
  obtain ⟨hi, lo, f, h⟩ := shift_inv (by norm_num) h
  obtain ⟨v2, v3, v4, e6, h⟩ := acc3_inv h f (by rw [e5, z]; linarith)
  obtain ⟨hi, lo, f, h⟩ := shift_inv (by norm_num) h
  obtain ⟨w2, w3, w4, e7, h⟩ := acc3_inv h f (by rw [e6, e5, z]; linarith)
  rw [e6, e5, z] at e7
  have m2 := iv_nonneg w2
  obtain ⟨hi, lo, f, h⟩ := shift_inv (by norm_num) h
  obtain ⟨t3, t4, c, e8, h⟩ := acc2_inv h f
  have m3 := iv_nonneg t3; have m4 := iv_nonneg t4
  have hc : bv c = 0 := dead (K := 2 ^ 128) (rest := iv t3 + 2 ^ 64 * iv t4)
    (P := iv w3 + 2 ^ 64 * iv w4 + 2 ^ 12 * iv a.c3.h) (by linear_combination e8)
    (by linarith) (by linarith)
  rw [hc] at e8
  obtain ⟨hi, lo, f, h⟩ := shift_inv (by norm_num) h
  obtain ⟨u3, u4, c, e9, h⟩ := acc2_inv h f
  have m5 := iv_nonneg u3; have m6 := iv_nonneg u4
  have hc : bv c = 0 := dead (K := 2 ^ 128) (rest := iv u3 + 2 ^ 64 * iv u4)
    (P := iv t3 + 2 ^ 64 * iv t4 + 2 ^ 38 * iv a.c4.h) (by linear_combination e9)
    (by linarith) (by linarith)
  rw [hc] at e9
  obtain ⟨r, er, h⟩ := imul38_inv h (by linarith)
  obtain ⟨x0, x1, c, ex, h⟩ := acc2_inv (v := 38 * iv u4) h (by rw [er, z]; ring)
  subst h
  have l0 := iv_nonneg x0; have l1 := iv_nonneg x1
  have k0 := iv_lt x0; have k1 := iv_lt x1
  have j0 := iv_lt s0; have j1 := iv_lt u1; have j2 := iv_lt w2; have j3 := iv_lt u3
  simp only [F4.val]
  have hV : iv a.c0.l + 2 ^ 26 * iv a.c1.l + 2 ^ 51 * iv a.c2.l + 2 ^ 77 * iv a.c3.l +
      2 ^ 102 * iv a.c4.l + 2 ^ 128 * iv a.c0.h + 2 ^ 153 * iv a.c1.h + 2 ^ 179 * iv a.c2.h +
      2 ^ 204 * iv a.c3.h + 2 ^ 230 * iv a.c4.h =
      (iv s0 + 2 ^ 64 * iv u1) + 2 ^ 128 * ((iv w2 + 2 ^ 64 * iv u3) + 2 ^ 128 * iv u4) := by
    linear_combination -(e2 + 2 ^ 64 * e4 + 2 ^ 128 * e7 + 2 ^ 192 * (e8 + e9))
  rw [hV]
  have hlo : iv s0 + 2 ^ 64 * iv u1 < 2 ^ 128 := by linarith
  have hhi : iv w2 + 2 ^ 64 * iv u3 < 2 ^ 128 := by linarith
  have hlo' : 0 ≤ iv s0 + 2 ^ 64 * iv u1 := by linarith
  have hhi' : 0 ≤ iv w2 + 2 ^ 64 * iv u3 := by linarith
  have g1 : iv x0 + 2 ^ 64 * iv x1 = (iv s0 + 2 ^ 64 * iv u1 + 38 * iv u4) % 2 ^ 128 := by
    rw [← ex]
    omega
  have : iv x0 + 2 ^ 64 * iv x1 + 2 ^ 128 * iv w2 + 2 ^ 192 * iv u3 =
    (iv x0 + 2 ^ 64 * iv x1) + 2 ^ 128 * (iv w2 + 2 ^ 64 * iv u3) := by ring
  rw [this, g1]
  generalize iv s0 + 2 ^ 64 * iv u1 = A at *
  generalize iv w2 + 2 ^ 64 * iv u3 = B at *
  have d1 : (A + 2 ^ 128 * (B + 2 ^ 128 * iv u4)) % 2 ^ 128 = A := by omega
  have d2 : (A + 2 ^ 128 * (B + 2 ^ 128 * iv u4)) / 2 ^ 256 = iv u4 := by omega
  have d3 : (A + 2 ^ 128 * (B + 2 ^ 128 * iv u4)) / 2 ^ 128 % 2 ^ 128 = B := by omega
  rw [d1, d2, d3]

theorem Elt5.val_lt (a : Elt5 U) : a.limbs.ints.val < 2 ^ 295 := by
  rw [ints_val]
  have b0 := iv_lt a.c0.l; have b1 := iv_lt a.c1.l; have b2 := iv_lt a.c2.l
  have b3 := iv_lt a.c3.l; have b4 := iv_lt a.c4.l
  have b5 := iv_lt a.c0.h; have b6 := iv_lt a.c1.h; have b7 := iv_lt a.c2.h
  have b8 := iv_lt a.c3.h; have b9 := iv_lt a.c4.h
  linarith

/-- The condition under which `ser` does not lose a carry. -/
def NoCarry (v : ℤ) : Prop := v % 2 ^ 128 + 38 * (v / 2 ^ 256) < 2 ^ 128

theorem noCarry_of_lt {v : ℤ} (h0 : 0 ≤ v) (h : v < 2 ^ 256) : NoCarry v := by
  unfold NoCarry; omega

theorem carry_iff {v A B T : ℤ} (hv : v = A + 2 ^ 128 * B + 2 ^ 256 * T)
    (hA : 0 ≤ A ∧ A < 2 ^ 128) (hT : 0 ≤ T ∧ T < 2 ^ 39) :
    (2 ^ 255 - 19 : ℤ) ∣ v - ((A + 38 * T) % 2 ^ 128 + 2 ^ 128 * B) ↔ A + 38 * T < 2 ^ 128 := by
  constructor
  · rintro ⟨q, hq⟩
    by_contra hc
    have e : (A + 38 * T) % 2 ^ 128 = A + 38 * T - 2 ^ 128 := by clear hq hv; omega
    rw [e] at hq
    have : (2 ^ 255 - 19) * (q - 2 * T) = (2 : ℤ) ^ 128 := by linear_combination hv - hq
    generalize q - 2 * T = m at this
    clear hq hv e hA hT hc
    omega
  · intro hc
    refine ⟨2 * T, ?_⟩
    have e : (A + 38 * T) % 2 ^ 128 = A + 38 * T := Int.emod_eq_of_lt (by clear hv; omega) hc
    rw [e]; linear_combination hv

theorem serWords_toFp (a : Elt5 U) : (R1.serWords a).toFp = a.toFp ↔ NoCarry a.limbs.ints.val := by
  have h0 := a.val_nonneg
  have h1 := a.val_lt
  unfold F4.toFp Elt5.toFp Elt10.toFp NoCarry
  rw [serWords_val, ZMod.intCast_eq_intCast_iff_dvd_sub, P_eq, p25519]
  generalize a.limbs.ints.val = v at *
  exact carry_iff (by omega) (by omega) (by omega)

theorem ser_eq_iff (a : Elt5 U) :
    R1.ser a = leBytes 32 (canon a.toFp) ↔ NoCarry a.limbs.ints.val := by
  rw [← serWords_toFp]
  have hl : (leNat (R1.ser a) : ℤ) = canon (R1.serWords a).toFp := by
    unfold R1.ser Full.ser
    rw [F4.leNat_toBytes, Full.modp_val_canon]
  have hc : ∀ x : Fp, canon x < 256 ^ 32 := fun x =>
    lt_of_lt_of_le (ZMod.val_lt x) (by norm_num)
  constructor
  · intro h
    rw [h, leNat_leBytes, Nat.mod_eq_of_lt (hc _)] at hl
    exact (ZMod.val_injective P (by unfold canon at hl; exact_mod_cast hl)).symm
  · intro h
    apply leNat_inj
    · simp [R1.ser, Full.ser, F4.toBytes_length]
    · rw [leNat_leBytes, Nat.mod_eq_of_lt (hc _), ← h]
      exact_mod_cast hl

theorem val_lt_of_tight {a : Elt5 U} (h : a.Le tight) : a.limbs.ints.val < 2 ^ 256 := by
  obtain ⟨h0, h1, h2, h3, h4, h5, h6, h7, h8, h9⟩ := h
  simp only [tight, Elt5.limbs] at h0 h1 h2 h3 h4 h5 h6 h7 h8 h9
  rw [ints_val]
  unfold iv
  omega

/-! ## Reading -/

/-- Limbs of 26 and 25 bits. -/
def canonB : Elt10 ℕ := bnd (2 ^ 26 - 1) (2 ^ 25 - 1)

theorem toNat_mask26 (x : W) (k : ℕ) :
    ((x >>> k) &&& ((1#64 <<< 26) - 1#64)).toNat = x.toNat / 2 ^ k % 2 ^ 26 := by
  have : ((1#64 <<< 26) - 1#64).toNat = 2 ^ 26 - 1 := by decide
  rw [BitVec.toNat_and, this, BitVec.toNat_ushiftRight, Nat.shiftRight_eq_div_pow,
    Nat.and_two_pow_sub_one_eq_mod]

theorem toNat_mask25 (x : W) (k : ℕ) :
    ((x >>> k) &&& ((1#64 <<< 25) - 1#64)).toNat = x.toNat / 2 ^ k % 2 ^ 25 := by
  have : ((1#64 <<< 25) - 1#64).toNat = 2 ^ 25 - 1 := by decide
  rw [BitVec.toNat_and, this, BitVec.toNat_ushiftRight, Nat.shiftRight_eq_div_pow,
    Nat.and_two_pow_sub_one_eq_mod]

theorem mid_bits (N k j b : ℕ) (h : j + b ≤ 64) :
    N / 2 ^ k % 2 ^ 64 / 2 ^ j % 2 ^ b = N / 2 ^ (k + j) % 2 ^ b := by
  apply Nat.eq_of_testBit_eq
  intro i
  simp only [Nat.testBit_mod_two_pow, Nat.testBit_div_two_pow]
  by_cases hi : i < b
  · have : i + j < 64 := by omega
    simp [hi, Nat.add_comm, Nat.add_left_comm]
    omega
  · simp [hi]

theorem low_bits (x y k b : ℕ) (hx : x < 2 ^ 64) (h : k + b ≤ 64) :
    x / 2 ^ k % 2 ^ b = (x + 2 ^ 64 * y) / 2 ^ k % 2 ^ b := by
  have := mid_bits (x + 2 ^ 64 * y) 0 k b h
  rw [← show 0 + k = k from by omega, ← this]
  simp only [pow_zero, Nat.div_one, Nat.zero_add]
  rw [Nat.add_mul_mod_self_left, Nat.mod_eq_of_lt hx]

theorem unserWords_limbs (a : F4) :
    (R1.unserWords a).limbs.map BitVec.toNat =
      let A := a.w0.toNat + 2 ^ 64 * a.w1.toNat
      let F := a.w2.toNat + 2 ^ 64 * a.w3.toNat
      ⟨A % 2 ^ 26, A / 2 ^ 26 % 2 ^ 25, A / 2 ^ 51 % 2 ^ 26, A / 2 ^ 77 % 2 ^ 25,
        A / 2 ^ 102 % 2 ^ 26, F % 2 ^ 25, F / 2 ^ 25 % 2 ^ 26, F / 2 ^ 51 % 2 ^ 25,
        F / 2 ^ 76 % 2 ^ 26, F / 2 ^ 102 % 2 ^ 25⟩ := by
  have h0 := a.w0.isLt; have h1 := a.w1.isLt; have h2 := a.w2.isLt; have h3 := a.w3.isLt
  have z26 : ∀ x : W, (x &&& ((1#64 <<< 26) - 1#64)).toNat = x.toNat % 2 ^ 26 := fun x => by
    have := toNat_mask26 x 0; simpa using this
  have z25 : ∀ x : W, (x &&& ((1#64 <<< 25) - 1#64)).toNat = x.toNat % 2 ^ 25 := fun x => by
    have := toNat_mask25 x 0; simpa using this
  simp only [R1.unserWords, SHR8N128, UPKL64128, Elt5.limbs, Elt10.map, Lane.SHR, Lane.AND,
    z26, z25, BitVec.toNat_ushiftRight, Nat.shiftRight_eq_div_pow,
    BitVec.toNat_ofNat, Nat.reduceMul, Nat.reduceAdd, Nat.reduceDiv, Nat.reduceMod]
  have l0 : ∀ x y b : ℕ, x < 2 ^ 64 → b ≤ 64 → x % 2 ^ b = (x + 2 ^ 64 * y) % 2 ^ b :=
    fun x y b hx hb => by simpa using low_bits x y 0 b hx (by omega)
  ext <;> dsimp only
  · exact l0 _ _ 26 h0 (by norm_num)
  · exact low_bits _ _ 26 25 h0 (by norm_num)
  · exact mid_bits _ 48 3 26 (by norm_num)
  · rw [Nat.div_div_eq_div_mul, ← pow_add]; exact mid_bits _ 48 29 25 (by norm_num)
  · exact mid_bits _ 96 6 26 (by norm_num)
  · exact l0 _ _ 25 h2 (by norm_num)
  · exact low_bits _ _ 25 26 h2 (by norm_num)
  · exact mid_bits _ 48 3 25 (by norm_num)
  · rw [Nat.div_div_eq_div_mul, ← pow_add]; exact mid_bits _ 48 28 26 (by norm_num)
  · exact mid_bits _ 96 6 25 (by norm_num)

theorem split_low (A : ℕ) (h : A < 2 ^ 128) :
    A % 2 ^ 26 + 2 ^ 26 * (A / 2 ^ 26 % 2 ^ 25) + 2 ^ 51 * (A / 2 ^ 51 % 2 ^ 26) +
      2 ^ 77 * (A / 2 ^ 77 % 2 ^ 25) + 2 ^ 102 * (A / 2 ^ 102 % 2 ^ 26) = A := by
  have e1 := Nat.mod_mul (x := A) (a := 2 ^ 26) (b := 2 ^ 25)
  have e2 := Nat.mod_mul (x := A) (a := 2 ^ 51) (b := 2 ^ 26)
  have e3 := Nat.mod_mul (x := A) (a := 2 ^ 77) (b := 2 ^ 25)
  have e4 := Nat.mod_mul (x := A) (a := 2 ^ 102) (b := 2 ^ 26)
  rw [← pow_add] at e1 e2 e3 e4
  rw [← e1, ← e2, ← e3, ← e4]
  exact Nat.mod_eq_of_lt h

theorem split_high (A : ℕ) (h : A < 2 ^ 127) :
    A % 2 ^ 25 + 2 ^ 25 * (A / 2 ^ 25 % 2 ^ 26) + 2 ^ 51 * (A / 2 ^ 51 % 2 ^ 25) +
      2 ^ 76 * (A / 2 ^ 76 % 2 ^ 26) + 2 ^ 102 * (A / 2 ^ 102 % 2 ^ 25) = A := by
  have e1 := Nat.mod_mul (x := A) (a := 2 ^ 25) (b := 2 ^ 26)
  have e2 := Nat.mod_mul (x := A) (a := 2 ^ 51) (b := 2 ^ 25)
  have e3 := Nat.mod_mul (x := A) (a := 2 ^ 76) (b := 2 ^ 26)
  have e4 := Nat.mod_mul (x := A) (a := 2 ^ 102) (b := 2 ^ 25)
  rw [← pow_add] at e1 e2 e3 e4
  rw [← e1, ← e2, ← e3, ← e4]
  exact Nat.mod_eq_of_lt h

theorem unserWords_val (a : F4) (h : a.val < 2 ^ 255) :
    (R1.unserWords a).Le canonB ∧ (R1.unserWords a).limbs.ints.val = a.val := by
  have e := unserWords_limbs a
  have h0 := a.w0.isLt; have h1 := a.w1.isLt; have h2 := a.w2.isLt; have h3 := a.w3.isLt
  simp only [F4.val, iv] at h ⊢
  simp only [Elt10.map, Elt10.mk.injEq] at e
  obtain ⟨e0, e1, e2, e3, e4, e5, e6, e7, e8, e9⟩ := e
  refine ⟨?_, ?_⟩
  · have m25 : ∀ x : ℕ, x % 2 ^ 25 ≤ 2 ^ 25 - 1 := fun x => Nat.le_pred_of_lt (Nat.mod_lt _ (by norm_num))
    have m26 : ∀ x : ℕ, x % 2 ^ 26 ≤ 2 ^ 26 - 1 := fun x => Nat.le_pred_of_lt (Nat.mod_lt _ (by norm_num))
    exact ⟨e0 ▸ m26 _, e1 ▸ m25 _, e2 ▸ m26 _, e3 ▸ m25 _, e4 ▸ m26 _, e5 ▸ m25 _, e6 ▸ m26 _,
      e7 ▸ m25 _, e8 ▸ m26 _, e9 ▸ m25 _⟩
  · simp only [Elt10.val, Elt10.ints, Elt10.map, e0, e1, e2, e3, e4, e5, e6, e7, e8, e9]
    generalize a.w0.toNat = x0 at *
    generalize a.w1.toNat = x1 at *
    generalize a.w2.toNat = x2 at *
    generalize a.w3.toNat = x3 at *
    have hA : x0 + 2 ^ 64 * x1 < 2 ^ 128 := by omega
    have hF : x2 + 2 ^ 64 * x3 < 2 ^ 127 := by omega
    have : (x0 + 2 ^ 64 * x1 + 2 ^ 128 * x2 + 2 ^ 192 * x3 : ℤ) =
      ((x0 + 2 ^ 64 * x1 : ℕ) : ℤ) + 2 ^ 128 * ((x2 + 2 ^ 64 * x3 : ℕ) : ℤ) := by push_cast; ring
    rw [this]
    have k1 : ((_ : ℕ) : ℤ) = _ := congrArg Nat.cast (split_low _ hA)
    have k2 : ((_ : ℕ) : ℤ) = _ := congrArg Nat.cast (split_high _ hF)
    generalize x0 + 2 ^ 64 * x1 = A at *
    generalize x2 + 2 ^ 64 * x3 = F at *
    simp only [Nat.cast_add, Nat.cast_mul, Nat.cast_pow, Nat.cast_ofNat] at k1 k2
    linear_combination k1 + 2 ^ 128 * k2

theorem canonB_tight {a : Elt5 U} (h : a.Le canonB) : a.Le tight := Elt10.Le.mono h (by decide)

theorem unser_spec (b : List Byte) (h : b.length = 32) :
    (R1.unser b).Le canonB ∧ (R1.unser b).limbs.ints.val = ((leNat b : ℕ) : ℤ) % p25519 := by
  have h1 := Full.modp_lt (F4.ofBytes b)
  obtain ⟨h2, h3⟩ := unserWords_val (Full.modp (F4.ofBytes b)) (h1.trans (by norm_num [p25519]))
  refine ⟨h2, ?_⟩
  unfold R1.unser
  rw [h3, Full.modp_val, F4.ofBytes_val h]

theorem unser_toFp (b : List Byte) (h : b.length = 32) : (R1.unser b).toFp = (leNat b : Fp) := by
  unfold Elt5.toFp Elt10.toFp
  rw [(unser_spec b h).2, ← Int.cast_natCast (R := Fp)]
  apply cast_eq
  refine ⟨-((leNat b : ℤ) / p25519), ?_⟩
  have := Int.emod_def (leNat b : ℤ) p25519
  linarith

end Verif.Fp25519
