import Verif.Fp25519.RedSrt
import Verif.Props.Fp25519Red

/-!
# Property C52, the four-way `srt`
-/

namespace Verif.Fp25519

theorem R4_srt_lane (c a : Elt10 V) (j : ℕ) (hj : j < 4) :
    (R4.srt c a).lane j = R4.srt (c.lane j) (a.lane j) := by
  have e : ∀ {α : Type} [Lane α] (u v : Elt10 α), R4.srt u v =
      R4.mul (R4.neg (R4.mul (R4.invsqrtPow u v).2 (R4.invsqrtPow u v).1)) R4.sqrt_minus_one := by
    intros; rfl
  have hs : (R4.sqrt_minus_one : Elt10 V).lane j = R4.sqrt_minus_one :=
    lane_cases (p := fun j => (R4.sqrt_minus_one : Elt10 V).lane j = R4.sqrt_minus_one)
      rfl rfl rfl rfl j hj
  have hn : ∀ x : Elt10 V, (R4.neg x).lane j = R4.neg (x.lane j) := fun x =>
    lane_cases (p := fun j => (R4.neg x).lane j = R4.neg (x.lane j)) rfl rfl rfl rfl j hj
  have h := fun x => powChain_rel (R := fun (x : Elt10 V) y => x.lane j = y) (m := R4.mul)
    (q := R4.sqr) (s := R4.sqrn) (m' := R4.mul) (q' := R4.sqr) (s' := R4.sqrn)
    (fun h1 h2 => by rw [R4_mul_lane _ _ _ hj, h1, h2]) (fun h1 => by rw [R4_sqr_lane _ _ hj, h1])
    (fun n h1 => by rw [R4_sqrn_lane _ _ _ hj, h1]) (rfl : (x : Elt10 V).lane j = _)
  rw [e, e, R4_invsqrtPow_eq, R4_invsqrtPow_eq, R4_mul_lane _ _ _ hj, hs, hn]
  simp only [R4_mul_lane _ _ _ hj, R4_sqr_lane _ _ hj, h]

theorem R4_srt_spec {c a : Elt10 W} (hc : c.Le loose) (ha : a.Le loose) :
    (R4.srt c a).Le tight ∧ (R4.srt c a).toFp =
      -(c.toFp * a.toFp ^ 3 * (c.toFp * a.toFp ^ 7) ^ (2 ^ 252 - 3)) *
        R1.sqrt_minus_one.toFp := by
  have hu : Is4 c c.toFp := ⟨hc, rfl⟩
  have hv : Is4 a a.toFp := ⟨ha, rfl⟩
  have h1 := (hu.mul hv).mul hv.sqr
  have h2 := h1.mul hv.sqr.sqr
  have h3 := (powChain_rel (R := Is4) Is4.mul Is4.sqr Is4.sqrn h2).mul h2
  rw [powChain_pow] at h3
  obtain ⟨g1, g2⟩ := R4_mul_spec h3.1 h1.1
  obtain ⟨n1, n2⟩ := R4_neg_spec g1
  have e : R4.srt c a =
      R4.mul (R4.neg (R4.mul (R4.invsqrtPow c a).2 (R4.invsqrtPow c a).1)) R4.sqrt_minus_one := rfl
  rw [e, R4_invsqrtPow_eq]
  obtain ⟨k1, k2⟩ := R4_mul_spec (n1.mono (by decide)) R4_sqrt_minus_one.1
  refine ⟨k1, ?_⟩
  rw [k2, n2, g2, h3.2, h1.2, R4_sqrt_minus_one.2]
  have e2 : c.toFp * a.toFp * a.toFp ^ 2 * (a.toFp ^ 2) ^ 2 = c.toFp * a.toFp ^ 7 := by ring
  rw [e2]
  ring

/-- C52: what the four-way `srt` leaves in lane `j` depends on what its output held before the
call (`c`), as if that were the numerator of a quotient. -/
theorem C52_srt_fourway (c a : Elt10 V) (j : ℕ) (hj : j < 4) (hc : (c.lane j).Le loose)
    (ha : (a.lane j).Le loose) :
    ((R4.srt c a).lane j).Le tight ∧
    (a.lane j).toFp * ((R4.srt c a).lane j).toFp ^ 2 =
      -((c.lane j).toFp * ((c.lane j).toFp * (a.lane j).toFp ^ 7) ^ ((P - 1) / 4)) := by
  rw [R4_srt_lane _ _ _ hj, (R4_srt_spec hc ha).2, mul_pow, R1_sqrt_minus_one.2]
  refine ⟨(R4_srt_spec hc ha).1, ?_⟩
  have e : (P - 1) / 4 = 2 ^ 253 - 5 := by norm_num
  rw [e, ← Full.cand_sq]
  ring

/-- C52: so the four-way `srt` is no square root: in every lane whose output held 0 before the call
the square of the result differs from the operand, unless that is 0. -/
theorem C52_srt_fourway_wrong (c a : Elt10 V) (j : ℕ) (hj : j < 4) (hc : (c.lane j).Le loose)
    (ha : (a.lane j).Le loose) (h0 : (c.lane j).toFp = 0) (hne : (a.lane j).toFp ≠ 0) :
    ((R4.srt c a).lane j).toFp ^ 2 ≠ (a.lane j).toFp := by
  have h := (C52_srt_fourway c a j hj hc ha).2
  rw [h0, zero_mul, neg_zero, mul_eq_zero] at h
  rcases h with h | h
  · exact absurd h hne
  · rw [h]; exact fun e => hne e.symm

/-- The lanes of the element 0 have the residue 0, and the element 4 in all lanes is a square. -/
example : ∃ c a : Elt10 V, ∀ j < 4, (c.lane j).Le loose ∧ (a.lane j).Le loose ∧
    (c.lane j).ints.val = 0 ∧ (a.lane j).ints.val = 4 ∧
    ((R4.srt c a).lane j).ints.val % p25519 = 0 :=
  ⟨R4.unser (leBytes 128 0), R4.unser (leBytes 32 4 ++ leBytes 32 4 ++ leBytes 32 4 ++ leBytes 32 4),
    by decide +kernel⟩

end Verif.Fp25519
