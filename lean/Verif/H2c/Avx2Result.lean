import Verif.H2c.Avx2Lemmas
import Verif.Sha512.TwoWayLemmas

/-! # The AVX2 code, whole function -/

namespace Verif.H2c

open Verif.Fp25519 Verif.Ed25519

/-- One half of a two-way point. -/
def halfP (j : Bool) (P : P2way V) : P2way U := if j then P.hi else P.lo

theorem halfP_doubling (j : Bool) (P : P2way V) (t : Bool) :
    halfP j (doubling_2way P t) = doubling_2way (halfP j P) t := by
  cases j
  · exact doubling_2way_lo P t
  · exact doubling_2way_hi P t

/-- No subtraction of the three doublings goes below zero. -/
def ClearOk (P : P2way U) : Prop :=
  Dbl2Ok P ∧ Dbl2Ok (doubling_2way P false) ∧ Dbl2Ok (doubling_2way (doubling_2way P false) false)

instance (P : P2way U) : Decidable (ClearOk P) := by unfold ClearOk; infer_instance

theorem clear_cofactor_2w_spec {P : P2way U} {Q : Pt} (h : Is2wayXYZ P Q) (hok : ClearOk P) :
    Is2way (clear_cofactor_2w P) (8 • Q) := by
  obtain ⟨x, y, z, t, hR, h1⟩ := doubling_2way_parts h hok.1
  obtain ⟨x', y', z', t', hR', h2⟩ := doubling_2way_parts
    ⟨x, y, z, t, (h1 false).1, (h1 false).2.1, (h1 false).2.2.1, hR⟩ hok.2.1
  obtain ⟨x'', y'', z'', t'', hR'', h3⟩ := doubling_2way_parts
    ⟨x', y', z', t', (h2 false).1, (h2 false).2.1, (h2 false).2.2.1, hR'⟩ hok.2.2
  refine ⟨x'', y'', z'', t'', (h3 true).1, (h3 true).2.1, (h3 true).2.2.1, (h3 true).2.2.2, ?_⟩
  convert hR'' using 1
  simp only [← two_smul ℕ, smul_smul]
  norm_num

theorem serPoint_spec {P : P2way U} {Q : Pt} (h : Is2way P Q) :
    Is1full (serPoint P.X P.Y P.T P.Z) Q := by
  obtain ⟨x, y, z, t, hx, hy, hz, ht, hR⟩ := h
  have key : ∀ (e : Elt5 U) (v : Fp), Rp tight e.limbs v → (F4.ofBytes (R1.ser e)).toFp = v := by
    intro e v hv
    have h2 : e.toFp = v := hv.2
    rw [ser_of_noCarry (noCarry_of_tight hv.1), h2, F4.toFp, F4.ofBytes_val (leBytes_length _ _),
      leNat_leBytes, Nat.mod_eq_of_lt ((canon_lt v).trans (by norm_num)), Int.cast_natCast, canon_cast]
  unfold Is1full serPoint
  simp only [key _ _ hx, key _ _ hy, key _ _ hz, key _ _ ht]
  exact hR

/-- The condition under which the AVX2 code is right for two field elements. -/
structure Fine (uu0 uu1 : F4) : Prop where
  clear0 : Clear uu0.toFp
  clear1 : Clear uu1.toFp
  dbl0 : ClearOk (map_to_curve_2w (R2.inter (R1.unser uu0.toBytes) (R1.unser uu1.toBytes))).lo
  dbl1 : ClearOk (map_to_curve_2w (R2.inter (R1.unser uu0.toBytes) (R1.unser uu1.toBytes))).hi

theorem unser_rp (u : F4) : Rp loose (R1.unser u.toBytes).limbs u.toFp := by
  refine ⟨(unser_spec _ u.toBytes_length).1.mono (by decide), ?_⟩
  have h := unser_toFp _ u.toBytes_length
  rw [← Int.cast_natCast, F4.leNat_toBytes] at h
  exact h

theorem h2c_fields_eq (isa : Isa) (uu0 uu1 : F4) :
    ∀ P, clear_cofactor_2w (map_to_curve_2w (R2.inter (R1.unser uu0.toBytes)
      (R1.unser uu1.toBytes))) = P →
    h2c_fields isa uu0 uu1 = toAffine isa (fulladd_1w_full isa
      (serPoint P.lo.X P.lo.Y P.lo.T P.lo.Z) (serPoint P.hi.X P.hi.Y P.hi.T P.hi.Z)) := by
  intro P h
  unfold h2c_fields
  simp only [h, R2_deinter, P2way.lo, P2way.hi]

theorem h2c_fields_spec (isa : Isa) {uu0 uu1 : F4} (h : Fine uu0 uu1) :
    ∃ Q0 Q1 : Pt, MapsTo uu0.toFp Q0 ∧ MapsTo uu1.toFp Q1 ∧
      (h2c_fields isa uu0 uu1).X.toFp = (8 • (Q0 + Q1)).x ∧
      (h2c_fields isa uu0 uu1).Y.toFp = (8 • (Q0 + Q1)).y := by
  have t0 : T loose false (R2.inter (R1.unser uu0.toBytes) (R1.unser uu1.toBytes)) uu0.toFp :=
    unser_rp uu0
  have t1 : T loose true (R2.inter (R1.unser uu0.toBytes) (R1.unser uu1.toBytes)) uu1.toFp :=
    unser_rp uu1
  obtain ⟨Q0, m0, x0, y0, z0, u0, hx0, hy0, hz0, hu0, r0⟩ := map_to_curve_2w_spec t0 h.clear0
  obtain ⟨Q1, m1, x1, y1, z1, u1, hx1, hy1, hz1, hu1, r1⟩ := map_to_curve_2w_spec t1 h.clear1
  refine ⟨Q0, Q1, m0, m1, ?_⟩
  have i0 := clear_cofactor_2w_spec (P := (map_to_curve_2w _).lo)
    ⟨x0, y0, z0, u0, hx0, hy0, hz0, r0⟩ h.dbl0
  have i1 := clear_cofactor_2w_spec (P := (map_to_curve_2w _).hi)
    ⟨x1, y1, z1, u1, hx1, hy1, hz1, r1⟩ h.dbl1
  have e0 : ∀ P : P2way V, clear_cofactor_2w P.lo = (clear_cofactor_2w P).lo := by
    intro P; unfold clear_cofactor_2w; simp only [doubling_2way_lo]
  have e1 : ∀ P : P2way V, clear_cofactor_2w P.hi = (clear_cofactor_2w P).hi := by
    intro P; unfold clear_cofactor_2w; simp only [doubling_2way_hi]
  have s0 := serPoint_spec i0
  have s1 := serPoint_spec i1
  rw [e0] at s0
  rw [e1] at s1
  rw [smul_add]
  rw [h2c_fields_eq isa uu0 uu1 _ rfl]
  exact toAffine_spec isa (fulladd_1w_full_spec isa s0 s1)

end Verif.H2c
