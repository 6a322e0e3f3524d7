import Verif.X448.Keygen
import Verif.Curve.MontIso
import Verif.Ed448.EddsaLemmas

/-! Proofs about X448 key generation. -/

namespace Verif.X448

open Verif.Fp448 Verif.Ed448

set_option exponentiation.threshold 2000

/-! ## From edwards448 to Curve448 -/

/-- RFC 7748, section 4.2: the 4-isogeny map from edwards448 to curve448, u = y²/x². -/
def uOf (A : Ed448.Pt) : Fp := A.y ^ 2 * (A.x ^ 2)⁻¹

theorem curveA_eq : curveA = 2 - 4 * Ed448.curve.d := by
  have h : Ed448.curve.d = -39081 := Ed448.d_eq
  rw [h, curveA]; norm_num

/-- The base point of edwards448 is mapped to the base point u = 5 of curve448. -/
theorem base_u : (5 : Fp) * Ed448.B.x ^ 2 = Ed448.B.y ^ 2 := by
  have h := Ed448.natEq (m := 5 * Ed448.Bx ^ 2) (n := Ed448.By ^ 2) (by decide +kernel)
  have e1 : Ed448.B.x = (Ed448.Bx : Fp) := rfl
  have e2 : Ed448.B.y = (Ed448.By : Fp) := rfl
  rw [e1, e2]
  exact_mod_cast h

theorem base_x : Ed448.B.x ≠ 0 := Ed448.natNe (m := Ed448.Bx) (by decide +kernel)
theorem base_y : Ed448.B.y ≠ 0 := Ed448.natNe (m := Ed448.By) (by decide +kernel)

/-- Multiples of the base point of curve448, by multiples of that of edwards448. -/
theorem xmul_base {n : ℕ} (h2 : n % 2 = 0) (hn : n < 2 ^ 448) :
    Mont.XMul curveA n 5 (uOf (n • Ed448.B)) := by
  obtain ⟨l, hl⟩ := loopBits_last h2
  have hv := loopBits_val n
  rw [Nat.mod_eq_of_lt hn, hl] at hv
  have h := Edw.xmul_iso (C := Ed448.curve) rfl curveA_eq curve_A base_x base_y base_u l
  rw [hv] at h
  exact h

/-! ## The code -/

theorem montElt_spec {Q : P2w} {A : Ed448.Pt} (h : IsProj2w Q A) :
    Rp sq1 (montElt Q).limbs (uOf A) := by
  obtain ⟨x, y, z, rx, ry, rz, z0, ex, ey⟩ := h
  have ri := (rx.mono tight_sq1).r1inv.mono tight_sq1
  have k := (((ry.mono tight_sq1).r1mul ri).mono tight_sq1).r1sqrn 1
  simp only [montElt, R2_deinter]
  refine Rp.cast k ?_
  rw [ex, ey, uOf, mul_inv, pow_one, mul_pow, mul_pow, mul_pow, inv_pow, inv_pow]
  field_simp

/-- The multiplication of the base point by `n` goes right: no carry is dropped in the division by
four and no limb of the additions goes below zero. -/
structure GenOk (n : ℕ) : Prop where
  div : DivOk n
  run : NoBorrowRun (leBytes 57 (quarter n))

theorem fixed_proj (u v : W) (r : List Byte) (h : GenOk (leNat (r.take 56))) :
    IsProj2w (fixed_point_multiplication u v r) (leNat (r.take 56) • Ed448.B) := by
  obtain ⟨e, hlt⟩ := div4_eq u v r h.div
  unfold fixed_point_multiplication
  rw [e]
  have hp := point_multiplication_spec (leBytes 57 (quarter (leNat (r.take 56)))) (by simp)
    (by rw [leBytes57_take hlt]; exact hlt) h.run
  rw [leBytes57_take hlt, modEq_smul (quarter_modEq _) order_B] at hp
  exact hp

theorem clamp_take {k : List Byte} (h : k.length = 56) :
    leNat ((clamp k).take 56) = scalar k := by
  obtain ⟨h1, h2⟩ := clamp_val h
  rw [List.take_of_length_le (by omega)]
  exact_mod_cast h2

theorem keygenElt_spec (u v : W) {k : List Byte} (hk : k.length = 56) (h : GenOk (scalar k)) :
    Rp sq1 (montElt (fixed_point_multiplication u v (clamp k))).limbs
      (uOf (scalar k • Ed448.B)) := by
  have e := clamp_take hk
  rw [← e]
  exact montElt_spec (fixed_proj u v (clamp k) (by rw [e]; exact h))

end Verif.X448
