import Verif.Ed448.Spec
import Verif.Ed448.Mult
import Verif.Ed448.PointLemmas
import Verif.Props.X448

/-! Proofs about the encoding of points of edwards448. -/

namespace Verif.Ed448

open Verif.Fp448
open Verif.X448 (Safe noCarry_of_safe serFold_of_tight)

set_option exponentiation.threshold 2000

theorem canon_lt (x : Fp) : canon x < P := ZMod.val_lt x

theorem canon_cast (x : Fp) : ((canon x : ℕ) : Fp) = x := by rw [canon, ZMod.natCast_zmod_val]

theorem canon_inj {x y : Fp} (h : canon x = canon y) : x = y := by
  rw [← canon_cast x, h, canon_cast]

theorem canon_natCast {n : ℕ} (h : n < P) : canon (n : Fp) = n := ZMod.val_cast_of_lt h

theorem canon_neg {x : Fp} (h : x ≠ 0) : canon (-x) = P - canon x := by
  have : NeZero x := ⟨h⟩
  exact ZMod.val_neg_of_ne_zero x

theorem P_odd : P % 2 = 1 := by decide +kernel

theorem canon_neg_parity {x : Fp} (h : x ≠ 0) : canon (-x) % 2 = 1 - canon x % 2 := by
  have h1 := canon_lt x
  have h2 := P_odd
  rw [canon_neg h]
  generalize canon x = c at h1 ⊢
  omega

theorem canon_value {a : Elt8 U} {x : Fp} (h : Rp tight a.limbs x) :
    (canon x : ℤ) = a.value % p448 := by
  have e : x = a.toFp := h.2.symm
  rw [e, Elt8.toFp_value, canon, ZMod.val_intCast, P_eq]

theorem ser_safe {a : Elt8 U} {x : Fp} (h : Rp tight a.limbs x) (hs : Safe (canon x)) :
    R1.ser a = leBytes 56 (canon x) := by
  have e : x = a.toFp := h.2.symm
  have hc := canon_value h
  subst e
  rw [ser_eq_iff (h.1.mono (by decide)), serFold_of_tight h.1]
  exact noCarry_of_safe (value_nonneg _) (value_lt_of_tight h.1).1 hc hs

theorem encode_bytes {x y : ℕ} (hy : y < 2 ^ 448) :
    leBytes 56 y ++ [((leBytes 56 x).getD 0 0 &&& 1#8) <<< 7] =
      leBytes 57 (y + 2 ^ 455 * (x % 2)) := by
  have h0 : (leBytes 56 x).getD 0 0 = BitVec.ofNat 8 x := rfl
  have h1 : ∀ c : Byte, ((c &&& 1#8) <<< 7).toNat = 128 * (c.toNat % 2) := by decide +kernel
  apply leNat_inj (by simp)
  rw [leNat_append, leNat_leBytes, leNat_leBytes, leBytes_length, h0, leNat, leNat, h1,
    BitVec.toNat_ofNat]
  have e1 : y % 256 ^ 56 = y := Nat.mod_eq_of_lt (by norm_num; omega)
  have e2 : (y + 2 ^ 455 * (x % 2)) % 256 ^ 57 = y + 2 ^ 455 * (x % 2) :=
    Nat.mod_eq_of_lt (by norm_num; omega)
  have e3 : x % 2 ^ 8 % 2 = x % 2 := by omega
  rw [e1, e2, e3]; norm_num; ring

theorem tight_sq1 : leB tight sq1 = true := by decide +kernel

/-- Encoding any representation of a point. -/
theorem point_encoding_spec {Q : P2w} {A : Pt} (h : IsProj2w Q A) (hx : Safe (canon A.x))
    (hy : Safe (canon A.y)) : point_encoding Q = encode A := by
  obtain ⟨x, y, z, rx, ry, rz, z0, ex, ey⟩ := h
  have ri := (rz.mono tight_sq1).r1inv.mono tight_sq1
  have kx := ((rx.mono tight_sq1).r1mul ri).cast (y := A.x) (by rw [ex]; field_simp)
  have ky := ((ry.mono tight_sq1).r1mul ri).cast (y := A.y) (by rw [ey]; field_simp)
  simp only [point_encoding, R2_deinter]
  rw [ser_safe kx hx, ser_safe ky hy]
  exact encode_bytes ((canon_lt _).trans (by decide +kernel))

/-! ## Decoding, specification -/

theorem encode_length (A : Pt) : (encode A).length = 57 := leBytes_length _ _

theorem leNat_encode (A : Pt) : leNat (encode A) = canon A.y + 2 ^ 455 * (canon A.x % 2) := by
  have h1 := canon_lt A.y
  have h2 : P < 2 ^ 448 := by decide +kernel
  rw [encode, leNat_leBytes, Nat.mod_eq_of_lt]
  norm_num; omega

theorem decodes_encode (A : Pt) : Decodes (encode A) A := by
  have h1 := canon_lt A.y
  have h2 : P < 2 ^ 448 := by decide +kernel
  have e1 : yNum (encode A) = canon A.y := by rw [yNum, leNat_encode]; omega
  have e2 : signBit (encode A) = canon A.x % 2 := by rw [signBit, leNat_encode]; omega
  refine ⟨by rw [e1]; exact h1, by rw [e1, canon_cast], e2.symm, fun h => ?_⟩
  rw [e2, h]; rfl

/-- The strings that decode are the encodings. -/
theorem encode_of_decodes {b : List Byte} {A : Pt} (hl : b.length = 57) (h : Decodes b A) :
    b = encode A := by
  obtain ⟨h1, h2, h3, -⟩ := h
  apply leNat_inj (by rw [hl, encode_length])
  rw [leNat_encode, h2, canon_natCast h1, h3, yNum, signBit]
  omega

end Verif.Ed448
