import Verif.Props.Ed448SignWitness
import Verif.Props.Ed448Decode
import Verif.Props.Fp448Red

/-!
# C56, C57, C59: inputs on which Ed448 multiplication, encoding and verification go wrong
-/

namespace Verif.Ed448

open Verif.Fp448
open Verif.Ed25519 (Status)

set_option exponentiation.threshold 2000

/-! ## C56 -/

theorem proj_unique {Q : P2w} {A C : Pt} (hA : IsProj2w Q A) (hC : IsProj2w Q C) : A = C := by
  obtain ⟨x, y, z, h1, h2, h3, h0, hx, hy⟩ := hA
  obtain ⟨x', y', z', h1', h2', h3', -, hx', hy'⟩ := hC
  have e1 : x = x' := h1.2.symm.trans h1'.2
  have e2 : y = y' := h2.2.symm.trans h2'.2
  have e3 : z = z' := h3.2.symm.trans h3'.2
  subst e1 e2 e3
  exact Edw.Pt.ext (mul_right_cancel₀ h0 (hx.symm.trans hx'))
    (mul_right_cancel₀ h0 (hy.symm.trans hy'))

/-- C56 is false as stated: there is a scalar `r` of 57 bytes, with the last one zero, for which the
result of the multiplication does not represent r·B. -/
theorem C56_multiplication_wrong : ∃ r : List Byte, r.length = 57 ∧ r.getD 56 0 = 0 ∧
    ∀ u13 u14, ¬IsProj2w (fixed_point_multiplication u13 u14 r) (leNat (r.take 56) • B) := by
  refine ⟨leBytes 57 aWrong, by simp, by decide +kernel, fun u v h => ?_⟩
  have e : div4 u v (leBytes 57 aWrong) = div4 u v (leBytes 57 aGood) := by
    rw [div4_junk, div4_junk u]
    decide +kernel
  have e2 : fixed_point_multiplication u v (leBytes 57 aWrong) =
      fixed_point_multiplication u v (leBytes 57 aGood) := by
    unfold fixed_point_multiplication; rw [e]
  have e3 : leNat ((leBytes 57 aGood).take 56) = aGood := by decide +kernel
  have e4 : leNat ((leBytes 57 aWrong).take 56) = aWrong := by decide +kernel
  have hd : 4 * leNat (div4 u v (leBytes 57 aGood)) ≡ leNat ((leBytes 57 aGood).take 56)
      [MOD order] := by
    rw [div4_junk]
    decide +kernel
  have g := C56_digits_partial u v (leBytes 57 aGood) hd (by
    rw [div4_junk]
    decide +kernel)
  rw [e2, e4] at h
  rw [e3] at g
  exact pt_ne aGood_pt.1 aWrong_pt.1 (by decide +kernel) (proj_unique g h)

/-! ## C57 -/

/-- The point with y = 2^225. -/
def lostX : ℕ := 317533484473757282609536466316716868892542145585526468903870794539411398367266445705112505622280621067609718751366364932101981941708369

@[inherit_doc lostX] def lostA : Pt := ⟨(lostX : Fp), ((2 ^ 225 : ℕ) : Fp), on_nat (by decide +kernel)⟩

/-- The number 1/2, and lostX/2. -/
def half : ℕ := (P + 1) / 2
@[inherit_doc half] def lostHalf : ℕ := lostX * half % P

/-- Coordinates (x/2, 2^448 - 1, 1/2) of the point. -/
def lostQ : P2w :=
  ⟨R2.inter (R1.unser (leBytes 56 lostHalf)) (R1.unser ones56),
    R2.inter (R1.unser one56) (R1.unser (leBytes 56 half))⟩

theorem lost_proj : IsProj2w lostQ lostA := by
  have hv : ∀ n : ℕ, n < 256 ^ 56 → (R1.unser (leBytes 56 n)).toFp = (n : Fp) := by
    intro n hn
    rw [unser_toFp _ (by simp), leNat_leBytes, Nat.mod_eq_of_lt hn]
  have hh : (2 : Fp) * ((half : ℕ) : Fp) = 1 := by
    have := natEq (m := 2 * half) (n := 1) (by decide +kernel)
    push_cast at this
    exact this
  refine ⟨_, _, _, Elt8.rp (by decide +kernel), Elt8.rp (by decide +kernel),
    Elt8.rp (by decide +kernel), ?_, ?_, ?_⟩
  · rw [lostQ, R2_inter_hi, hv _ (by decide +kernel)]
    intro h0
    rw [h0, mul_zero] at hh
    exact zero_ne_one hh
  · rw [lostQ, R2_inter_lo, R2_inter_hi, hv _ (by decide +kernel), hv _ (by decide +kernel)]
    have := natEq (m := lostHalf) (n := lostX * half) (by decide +kernel)
    push_cast at this
    exact this
  · rw [lostQ, R2_inter_hi, R2_inter_hi, hv _ (by decide +kernel), unser_toFp _ (by decide)]
    have := natEq (m := leNat ones56) (n := 2 ^ 225 * half) (by decide +kernel)
    push_cast at this
    rw [this]
    simp [lostA]

/-- C57 is false as stated: there are a point and projective coordinates for it whose encoding is
not that of the point (the y-coordinate 2^225 is written as 2^225 - 2^64). -/
theorem C57_encoding_wrong : ∃ (Q : P2w) (A : Pt), IsProj2w Q A ∧ point_encoding Q ≠ encode A ∧
    canon A.y = 2 ^ 225 ∧ leNat ((point_encoding Q).take 56) = 2 ^ 225 - 2 ^ 64 := by
  have h1 : leNat ((point_encoding lostQ).take 56) = 2 ^ 225 - 2 ^ 64 := by decide +kernel
  have h2 : canon lostA.y = 2 ^ 225 := canon_natCast (by decide +kernel)
  have h3 : canon lostA.x = lostX := canon_natCast (by decide +kernel)
  refine ⟨lostQ, lostA, lost_proj, fun h => ?_, h2, h1⟩
  rw [h, encode, h2, h3] at h1
  exact absurd h1 (by decide +kernel)

/-! ## C59 -/

/-- C59 is false as stated: there is a point of the prime-order subgroup with whose encoding as
public key every signature is refused, also those that satisfy the equation R = S·B - k·A. -/
theorem C59_wrong : ∃ A : Pt, A ≠ 0 ∧ order • A = 0 ∧
    ∀ (H : List Byte → ℕ → List Byte) (u : ℕ → W) (mode : Mode) (M C sig : List Byte),
      C.length ≤ 255 → apiVerify H u mode M C (encode A) sig = .ERROR_PUBLICKEY := by
  obtain ⟨A, h0, ho, -, hn⟩ := C47_wrong
  exact ⟨A, h0, ho, fun H u mode M C sig hC => (C59_public_key H u mode M C _ sig hC).2 hn⟩

end Verif.Ed448
