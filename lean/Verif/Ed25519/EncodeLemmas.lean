import Verif.Ed25519.Spec
import Verif.Ed25519.Mult
import Verif.Ed25519.Decode
import Verif.Ed25519.PointLemmas4
import Verif.X25519.Avx2Lemmas

/-! Proofs about the encoding and the decoding of points of edwards25519. -/

namespace Verif.Ed25519

open Verif.Fp25519

set_option exponentiation.threshold 2000

theorem canon_lt (x : Fp) : canon x < 2 ^ 255 - 19 := ZMod.val_lt x

theorem canon_cast (x : Fp) : ((canon x : ℕ) : Fp) = x := by rw [canon, ZMod.natCast_zmod_val]

theorem canon_inj {x y : Fp} (h : canon x = canon y) : x = y := by
  rw [← canon_cast x, h, canon_cast]

theorem canon_natCast {n : ℕ} (h : n < 2 ^ 255 - 19) : canon (n : Fp) = n :=
  ZMod.val_cast_of_lt h

theorem canon_neg {x : Fp} (h : x ≠ 0) : canon (-x) = (2 ^ 255 - 19) - canon x := by
  have : NeZero x := ⟨h⟩
  exact ZMod.val_neg_of_ne_zero x

theorem canon_neg_parity {x : Fp} (h : x ≠ 0) : canon (-x) % 2 = 1 - canon x % 2 := by
  have := canon_lt x
  rw [canon_neg h]; omega

/-! ## Encoding -/

theorem rp_ser {e : Elt5 U} {x : Fp} (h : Rp tight e.limbs x) :
    (F4.ofBytes (R1.ser e)).toFp = x := by
  have := X25519.Avx2.ser_word h.1
  exact this.trans h.2

theorem top_byte (b c : Byte) : ((b &&& 0x7F#8) ||| ((c &&& 1#8) <<< 7)).toNat =
    b.toNat % 128 + 128 * (c.toNat % 2) := by
  have h1 : ∀ c : Byte, c &&& 1#8 = if c.toNat % 2 = 1 then 1#8 else 0#8 := by decide +kernel
  rw [h1]
  rcases Nat.mod_two_eq_zero_or_one c.toNat with h | h <;> rw [h] <;> revert b <;> decide +kernel

theorem set_last (a c v : Byte) {m : List Byte} (h : m.length = 30) :
    (a :: (m ++ [c])).set 31 v = a :: (m ++ [v]) := by
  rw [List.set_cons_succ, ← h]
  congr 1
  simp

theorem get_last (a c : Byte) {m : List Byte} (h : m.length = 30) :
    (a :: (m ++ [c])).getD 31 0 = c := by
  rw [List.getD_cons_succ, ← h]
  simp

theorem encode_bytes {x y : ℕ} (hy : y < 2 ^ 255) :
    (leBytes 32 y).set 31 (((leBytes 32 y).getD 31 0 &&& 0x7F#8) |||
      (((leBytes 32 x).getD 0 0 &&& 1#8) <<< 7)) = leBytes 32 (y + 2 ^ 255 * (x % 2)) := by
  obtain ⟨a, m, c, hm, hl⟩ := X25519.split32 (leBytes_length 32 y)
  have h0 : (leBytes 32 x).getD 0 0 = BitVec.ofNat 8 x := rfl
  rw [h0, hl, set_last _ _ _ hm, get_last _ _ hm]
  apply leNat_inj (by simp [hm])
  have hv := leNat_leBytes 32 y
  rw [hl, X25519.leNat_split _ _ hm] at hv
  rw [X25519.leNat_split _ _ hm, leNat_leBytes, top_byte, BitVec.toNat_ofNat]
  have h1 := leNat_lt m
  rw [hm] at h1
  have ha := a.isLt
  have hc := c.isLt
  generalize a.toNat = a, c.toNat = c, leNat m = m at *
  clear hl hm h0
  omega

theorem point_encoding_spec (isa : Isa) {Q : P2w} {A : Pt} (h : Is2w Q A) :
    point_encoding isa Q = encode A := by
  obtain ⟨x, y, z, t, hx, hy, hz, _, hr⟩ := h
  unfold point_encoding
  simp only [R2_deinter, X25519.ser_encode, X25519.encode, Full.mul_toFp, Full.inv_toFp,
    rp_ser hx, rp_ser hy, rp_ser hz, hr.x_eq, hr.y_eq]
  exact encode_bytes ((canon_lt _).trans (by norm_num))

/-! ## Strings and points -/

theorem encode_length (A : Pt) : (encode A).length = 32 := leBytes_length _ _

theorem leNat_encode (A : Pt) : leNat (encode A) = canon A.y + 2 ^ 255 * (canon A.x % 2) := by
  have := canon_lt A.y
  rw [encode, leNat_leBytes, Nat.mod_eq_of_lt]
  omega

theorem decodes_encode (A : Pt) : Decodes (encode A) A := by
  have := canon_lt A.y
  constructor
  · rw [yCoord, leNat_encode, ← canon_cast A.y]
    congr 1
    rw [canon_cast]; omega
  · intro _
    rw [signBit, leNat_encode]; omega

theorem eq_or_neg_of_y {A A' : Pt} (h : A.y = A'.y) : A' = A ∨ A' = -A := by
  have h1 := A.on
  have h2 := A'.on
  rw [← h] at h2
  have h3 : (A.x ^ 2 - A'.x ^ 2) * (curve.d * A.y ^ 2 + 1) = 0 := by
    have ha : curve.a = -1 := rfl
    rw [ha] at h1 h2
    linear_combination h2 - h1
  rcases mul_eq_zero.1 h3 with h4 | h4
  · rcases sq_eq_sq_iff_eq_or_eq_neg.1 (sub_eq_zero.1 h4) with h5 | h5
    · exact Or.inl (Edw.Pt.ext h5.symm h.symm)
    · right
      refine Edw.Pt.ext ?_ h.symm
      rw [Edw.Pt.neg_x, h5, neg_neg]
  · exfalso
    refine curve.had (curve.d * A.y) ?_
    have ha : curve.a = -1 := rfl
    rw [ha]
    linear_combination curve.d * h4

theorem Decodes.unique {b : List Byte} {A A' : Pt} (h : Decodes b A) (h' : Decodes b A') :
    A = A' := by
  rcases eq_or_neg_of_y (h.1.trans h'.1.symm) with e | e
  · exact e.symm
  · by_cases h0 : A.x = 0
    · rw [e]
      refine Edw.Pt.ext ?_ (by rw [Edw.Pt.neg_y])
      rw [Edw.Pt.neg_x, h0, neg_zero]
    · exfalso
      have h1 := h.2 h0
      have h2 := h'.2 (by rw [e, Edw.Pt.neg_x]; exact neg_ne_zero.2 h0)
      rw [e, Edw.Pt.neg_x, canon_neg_parity h0] at h2
      omega

theorem encode_inj {A A' : Pt} (h : encode A = encode A') : A = A' :=
  (decodes_encode A).unique (h ▸ decodes_encode A')

theorem encode_of_decodes {b : List Byte} {A : Pt} (hl : b.length = 32) (h : Decodes b A)
    (hy : leNat b % 2 ^ 255 < 2 ^ 255 - 19) (hx : A.x = 0 → signBit b = 0) : b = encode A := by
  apply leNat_inj (by rw [hl, encode_length])
  rw [leNat_encode, h.1, yCoord, canon_natCast hy]
  have : canon A.x % 2 = leNat b / 2 ^ 255 := by
    by_cases h0 : A.x = 0
    · have := hx h0
      rw [signBit] at this
      rw [this, h0]; rfl
    · exact h.2 h0
  rw [this]; omega

/-! ## Decoding -/

theorem decodeY_val {b : List Byte} (h : b.length = 32) : (decodeY b).toFp = yCoord b := by
  have h1 := F4.ofBytes_val h
  rw [F4.toFp, yCoord, ← Int.cast_natCast (R := Fp)]
  congr 1
  unfold decodeY
  simp only [F4.val, iv] at h1 ⊢
  have h2 : ∀ w : W, (w &&& ((1#64 <<< 63) - 1#64)).toNat = w.toNat % 2 ^ 63 := by
    intro w
    have : (1#64 <<< 63) - 1#64 = BitVec.ofNat 64 (2 ^ 63 - 1) := by decide +kernel
    rw [this, BitVec.toNat_and, BitVec.toNat_ofNat,
      show (2 ^ 63 - 1) % 2 ^ 64 = 2 ^ 63 - 1 by norm_num, Nat.and_two_pow_sub_one_eq_mod]
  rw [h2]
  have a0 := (F4.ofBytes b).w0.isLt
  have a1 := (F4.ofBytes b).w1.isLt
  have a2 := (F4.ofBytes b).w2.isLt
  have a3 := (F4.ofBytes b).w3.isLt
  generalize (F4.ofBytes b).w0.toNat = w0, (F4.ofBytes b).w1.toNat = w1,
    (F4.ofBytes b).w2.toNat = w2, (F4.ofBytes b).w3.toNat = w3 at *
  omega

theorem oneF_toFp : oneF.toFp = 1 := X25519.one_toFp

theorem param_d_toFp : param_curve_d.toFp = curve.d := by
  have : param_curve_d.val = (dN : ℤ) := by decide +kernel
  rw [F4.toFp, this, Int.cast_natCast]; rfl

theorem topBit {b : List Byte} (h : b.length = 32) :
    ((b.getD 31 0 >>> 7).setWidth 64).toNat = signBit b := by
  obtain ⟨a, m, c, hm, rfl⟩ := X25519.split32 h
  rw [get_last _ _ hm, signBit, X25519.leNat_split _ _ hm, BitVec.toNat_setWidth,
    BitVec.toNat_ushiftRight, Nat.shiftRight_eq_div_pow]
  have h1 := leNat_lt m
  rw [hm] at h1
  have ha := a.isLt
  have hc := c.isLt
  generalize a.toNat = a, c.toNat = c, leNat m = m at *
  clear h hm
  omega

theorem modp_w0 (c : F4) : ((Full.modp c).w0 &&& 1#64).toNat = canon c.toFp % 2 := by
  have h := Full.modp_val_canon c
  rw [BitVec.toNat_and, show (1#64 : W).toNat = 1 from rfl, Nat.and_one_is_mod]
  simp only [F4.val, iv] at h
  omega

theorem signBit_lt {b : List Byte} (h : b.length = 32) : signBit b < 2 := by
  have := leNat_lt b
  rw [h] at this
  rw [signBit]; omega

/-- The square root whose parity is not the sign bit. -/
theorem decodeX_spec (isa : Isa) {b : List Byte} {A : Pt} (hl : b.length = 32)
    (h : Decodes b A) : (decodeX isa b).toFp = -A.x := by
  obtain ⟨hy, hx⟩ := h
  unfold decodeX
  simp only
  set u := Full.sub (Full.sqr isa (decodeY b)) oneF with hu
  set v := Full.add isa (Full.mul isa (Full.sqr isa (decodeY b)) param_curve_d) oneF with hv
  have hu' : u.toFp = A.y ^ 2 - 1 := by
    rw [hu, Full.sub_toFp, Full.sqr_toFp, decodeY_val hl, oneF_toFp, hy]
  have hv' : v.toFp = A.y ^ 2 * curve.d + 1 := by
    rw [hv, Full.add_toFp, Full.mul_toFp, Full.sqr_toFp, decodeY_val hl, oneF_toFp, hy,
      param_d_toFp]
  have hon := A.on
  rw [show curve.a = -1 from rfl] at hon
  have hs := Full.invsqrt_spec isa u v ⟨A.x, by rw [hu', hv']; linear_combination -hon⟩
  set X := (Full.invsqrt isa u v).1
  have hX : X.toFp = A.x ∨ X.toFp = -A.x := by
    have h3 : (X.toFp ^ 2 - A.x ^ 2) * (A.y ^ 2 * curve.d + 1) = 0 := by
      rw [hu', hv'] at hs
      linear_combination hs + hon
    rcases mul_eq_zero.1 h3 with h4 | h4
    · exact sq_eq_sq_iff_eq_or_eq_neg.1 (sub_eq_zero.1 h4)
    · exfalso
      refine curve.had (curve.d * A.y) ?_
      rw [show curve.a = -1 from rfl]
      linear_combination curve.d * h4
  have hb := topBit hl
  have hb2 := signBit_lt hl
  have hm := modp_w0 X
  by_cases h0 : A.x = 0
  · have hX0 : X.toFp = 0 := by rcases hX with h | h <;> rw [h, h0] <;> simp
    split_ifs
    · rw [Full.neg_toFp, Full.modp_toFp, hX0, h0]
    · rw [Full.modp_toFp, hX0, h0, neg_zero]
  · have hp := hx h0
    have hn := canon_neg_parity h0
    split_ifs with hc
    · rw [Full.neg_toFp, Full.modp_toFp]
      have hc' := congrArg BitVec.toNat hc
      rw [hb, hm] at hc'
      rcases hX with h | h
      · rw [h]
      · rw [h, hn] at hc'; omega
    · rw [Full.modp_toFp]
      have hc' : signBit b ≠ canon X.toFp % 2 := by
        rw [← hb, ← hm]
        exact fun e => hc (BitVec.eq_of_toNat_eq e)
      rcases hX with h | h
      · rw [h] at hc'; omega
      · exact h

theorem unser_rp {a : F4} {x : Fp} (h : a.toFp = x) : Rp canonB (R1.unser a.toBytes).limbs x := by
  refine ⟨(unser_spec _ a.toBytes_length).1, ?_⟩
  have h1 := unser_toFp _ a.toBytes_length
  rw [← h]
  refine h1.trans ?_
  rw [F4.toFp, ← F4.leNat_toBytes, Int.cast_natCast]

theorem point_decoding_spec (isa : Isa) {b : List Byte} {A : Pt} (hl : b.length = 32)
    (h : Decodes b A) :
    Is4w (point_decoding isa b).1 (-A) ∧ Is2w (point_decoding isa b).2.1 (-A) := by
  have hX := decodeX_spec isa hl h
  have hY : (decodeY b).toFp = A.y := by rw [decodeY_val hl, h.1]
  have hT : (Full.mul isa (decodeX isa b) (decodeY b)).toFp = -A.x * A.y := by
    rw [Full.mul_toFp, hX, hY]
  have hr : Edw.Rep (-A) (-A.x) A.y 1 (-A.x * A.y) := by
    have := Edw.Rep.affine (-A)
    rwa [Edw.Pt.neg_x, Edw.Pt.neg_y] at this
  have t : ∀ {a : F4} {x : Fp}, a.toFp = x → Rp tight (R1.unser a.toBytes).limbs x :=
    fun h => ⟨canonB_tight (unser_rp h).1, (unser_rp h).2⟩
  exact ⟨⟨_, _, _, _, t hX, t hY, t hT, t oneF_toFp, hr⟩,
    ⟨_, _, _, _, t hX, t hY, t oneF_toFp, t hT, hr⟩⟩

end Verif.Ed25519
