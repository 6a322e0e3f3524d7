import Verif.X25519.Keygen
import Verif.X25519.Spec
import Verif.X25519.X64Lemmas
import Verif.Ed25519.MultLemmas
import Verif.Ed25519.EncodeLemmas

/-! Proofs about X25519 key generation. -/

namespace Verif.X25519

open Verif.Fp25519 Verif.Ed25519

set_option exponentiation.threshold 2000

/-! ## The scalar -/

theorem shift_or (a b : W) : ((a >>> 3) ||| (b <<< 61)).toNat = a.toNat / 8 + 2 ^ 61 * (b.toNat % 8) := by
  have ha := a.isLt
  have hb := b.isLt
  rw [BitVec.toNat_or, BitVec.toNat_ushiftRight, BitVec.toNat_shiftLeft, Nat.shiftRight_eq_div_pow,
    Nat.shiftLeft_eq, Nat.or_comm]
  have h1 : b.toNat * 2 ^ 61 % 2 ^ 64 = 2 ^ 61 * (b.toNat % 8) := by omega
  rw [h1, ← Nat.two_pow_add_eq_or_of_lt (by omega)]
  omega

theorem div_8_256_val (r : F4) : (div_8_256 r).val = r.val / 8 := by
  have h0 := shift_or r.w0 r.w1
  have h1 := shift_or r.w1 r.w2
  have h2 := shift_or r.w2 r.w3
  have h3 : (r.w3 >>> 3).toNat = r.w3.toNat / 8 := by
    rw [BitVec.toNat_ushiftRight, Nat.shiftRight_eq_div_pow]
  simp only [div_8_256, F4.val, iv, h0, h1, h2, h3]
  push_cast
  omega

/-! ## From edwards25519 to Curve25519 -/

/-- A square root of -486664. -/
def cN : ℕ := 6853475219497561581579357271197624642482790079785650197046958215289687604742

/-- RFC 7748, section 4.1: the birational map `u = (1+y)/(1-y)`. -/
def chart : Edw.Chart Ed25519.curve where
  A := curveA
  e := 1
  c := (cN : Fp)
  c0 := by
    intro h
    rw [ZMod.natCast_eq_zero_iff] at h
    revert h; decide +kernel
  ha := by
    have h : ((cN ^ 2 + 486664 : ℕ) : Fp) = ((0 : ℕ) : Fp) := natEq (by decide +kernel)
    push_cast at h
    simp only [Ed25519.curve, curveA]
    linear_combination -h
  hd := by
    have h : ((dN * cN ^ 2 : ℕ) : Fp) = ((486660 : ℕ) : Fp) := natEq (by decide +kernel)
    push_cast at h
    simp only [Ed25519.curve, curveA, d]
    linear_combination h

theorem chart_W : chart.W = Mont.curve curveA := by
  simp [Edw.Chart.W, Mont.curve, chart]

/-- The map from Curve25519 to edwards25519, and the u-coordinate in terms of the image. -/
theorem exists_map : ∃ φ : Mont.Pt curveA →+ Ed25519.Pt,
    (∀ Q, Mont.X0 Q = (1 + (φ Q).y) * (1 - (φ Q).y)⁻¹) ∧
    ∀ u v hn, (φ (.some u v hn)).x = cN * u / v ∧ (φ (.some u v hn)).y = (u - 1) / (u + 1) := by
  have key : ∀ W' : WeierstrassCurve.Affine Fp, chart.W = W' → ∃ φ : W'.Point →+ Ed25519.Pt,
      φ 0 = 0 ∧ ∀ u v hn, (φ (.some u v hn)).x = cN * u / v ∧
        (φ (.some u v hn)).y = (u - 1) / (u + 1) ∧ u + 1 ≠ 0 := by
    rintro _ rfl
    exact ⟨AddMonoidHom.mk' chart.toE chart.toE_add, rfl, fun u v hn =>
      ⟨rfl, rfl, chart.ue_ne (chart.eqn hn.1)⟩⟩
  obtain ⟨φ, h0, h⟩ := key _ chart_W
  refine ⟨φ, fun Q => ?_, fun u v hn => ⟨(h u v hn).1, (h u v hn).2.1⟩⟩
  cases Q with
  | zero =>
    have : φ WeierstrassCurve.Affine.Point.zero = 0 := h0
    rw [this]
    simp [Mont.X0]
  | some u v hn =>
    obtain ⟨-, h2, h3⟩ := h u v hn
    rw [h2, Mont.X0]
    have e1 : 1 + (u - 1) / (u + 1) = 2 * u / (u + 1) := by field_simp; ring
    have e2 : 1 - (u - 1) / (u + 1) = 2 / (u + 1) := by field_simp; ring
    have := Ed25519.two_ne
    rw [e1, e2]
    field_simp

/-- The v-coordinate of the base point of Curve25519 (the one the map takes to the base point of
edwards25519). -/
def vN : ℕ := 43114425171068552920764898935933967039370386198203806730763910166200978582548

theorem mul_base {k : ℕ} {v : Fp} (h : Mont.XMul curveA k 9 v) :
    v = (1 + (k • B).y) * (1 - (k • B).y)⁻¹ := by
  obtain ⟨φ, hx, hs⟩ := exists_map
  have hon : (vN : Fp) ^ 2 = 9 ^ 3 + curveA * 9 ^ 2 + 9 := by
    have h : ((vN ^ 2 : ℕ) : Fp) = ((9 ^ 3 + 486662 * 9 ^ 2 + 9 : ℕ) : Fp) :=
      natEq (by decide +kernel)
    push_cast at h
    simp only [curveA]
    exact h
  have hn := Mont.nonsing curve_two curve_A hon
  have hB : φ (.some 9 vN hn) = B := by
    obtain ⟨h1, h2⟩ := hs 9 vN hn
    ext
    · rw [h1]
      have hv : (vN : Fp) ≠ 0 := by
        intro h
        rw [ZMod.natCast_eq_zero_iff] at h
        revert h; decide +kernel
      rw [div_eq_iff hv]
      have h : ((cN * 9 : ℕ) : Fp) = ((Bx * vN : ℕ) : Fp) := natEq (by decide +kernel)
      push_cast at h
      exact h
    · rw [h2, B_y]
      have h5 : (5 : Fp) ≠ 0 := by
        intro h
        have : ((5 : ℕ) : Fp) = 0 := by exact_mod_cast h
        rw [ZMod.natCast_eq_zero_iff] at this
        revert this; decide +kernel
      have h2 := Ed25519.two_ne
      have e1 : (9 : Fp) - 1 = 2 * 4 := by norm_num
      have e2 : (9 : Fp) + 1 = 2 * 5 := by norm_num
      rw [e1, e2, mul_div_mul_left _ _ h2]
  have := h Fp (.some 9 vN hn) rfl
  rw [← hB, ← map_nsmul, ← hx]
  exact this.symm

/-! ## The whole function -/

theorem quotient_ser (isa : Isa) {a s : Elt5 V} {x y : Fp} (ha : Rp tight a.hi.limbs x)
    (hs : Rp tight s.hi.limbs y) :
    Full.ser (Full.mul isa (F4.ofBytes (R1.ser (R2.deinter a).2))
      (Full.inv isa (F4.ofBytes (R1.ser (R2.deinter s).2)))) = encode (x * y⁻¹) := by
  rw [R2_deinter, R2_deinter, ser_encode, Full.mul_toFp, Full.inv_toFp, rp_ser ha, rp_ser hs]

theorem point_Edwards2Montgomery_spec (isa : Isa) {Q : P2w} {A : Ed25519.Pt} (h : Is2w Q A) :
    point_Edwards2Montgomery isa Q = encode ((1 + A.y) * (1 - A.y)⁻¹) := by
  obtain ⟨x, y, z, t, hx, hy, hz, ht, h0, hX, hY, hT⟩ := h
  have oadd : okLe (R2.add (ivs tight).pack (ivs tight).pack).limbs wide = true := by
    decide +kernel
  have osub : okLe (R2.sub (ivs tight).pack (ivs tight).pack).limbs wide = true := by
    decide +kernel
  have h1 := (hz.r2add hy oadd).r2compress
  have h2 := (hz.r2sub hy osub).r2compress
  have e1 : (R2.compress (R2.add Q.TZ Q.XY)).hi = R2.compress (R2.add Q.TZ.hi Q.XY.hi) := by
    rw [R2_compress_hi, R2_add_hi]
  have e2 : (R2.compress (R2.sub Q.TZ Q.XY)).hi = R2.compress (R2.sub Q.TZ.hi Q.XY.hi) := by
    rw [R2_compress_hi, R2_sub_hi]
  rw [← e1] at h1
  rw [← e2] at h2
  refine (quotient_ser isa h1 h2).trans (congrArg encode ?_)
  rw [hY, show z + A.y * z = z * (1 + A.y) by ring, show z - A.y * z = z * (1 - A.y) by ring,
    mul_inv, mul_mul_mul_comm, mul_inv_cancel₀ h0, one_mul]

theorem keygen_spec (isa : Isa) {k : List Byte} (hk : k.length = 32) :
    IsX25519 k (leBytes 32 9) (keygen isa k) := by
  obtain ⟨v, hv, -⟩ := shared_x64_spec ⟨true, true⟩ (u := leBytes 32 9) (by simp) hk
  have h9 : coord (leBytes 32 9) = 9 := by
    rw [coord, leNat_leBytes]; norm_num
  refine ⟨v, hv, ?_⟩
  rw [h9] at hv
  rw [mul_base hv]
  obtain ⟨hl, hc⟩ := clamp_val hk
  set r := (div_8_256 (F4.ofBytes (clamp k))).toBytes with hr
  have hrv : (leNat r : ℤ) = (scalar k : ℤ) / 8 := by
    rw [hr, F4.leNat_toBytes, div_8_256_val, F4.ofBytes_val hl, hc]
  have hs : scalar k = 8 * leNat r := by unfold scalar at *; omega
  have hle : leNat r ≤ recLimit := by
    have : scalar k < 2 ^ 255 := by
      unfold scalar
      omega
    have hl : recLimit = 0x7777777777777777777777777777777777777777777777777777777777777777 := by
      decide +kernel
    rw [hl]; omega
  have hm := point_multiplication_spec r (F4.toBytes_length _)
  rw [if_pos hle, sub_zero, natCast_zsmul] at hm
  have h8 := doubling_2w_spec (doubling_2w_spec (doubling_2w_spec hm))
  have e : leNat r • B + leNat r • B + (leNat r • B + leNat r • B) +
      (leNat r • B + leNat r • B + (leNat r • B + leNat r • B)) = scalar k • B := by
    rw [hs]
    simp only [← add_smul]
    refine congrArg (· • B) ?_
    ring
  rw [e] at h8
  exact point_Edwards2Montgomery_spec isa h8

end Verif.X25519
