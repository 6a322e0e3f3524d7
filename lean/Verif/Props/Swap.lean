import Verif.Props.X448
import Verif.Props.X25519
import Verif.X25519.SwapLemmas
import Verif.X448.SwapLemmas
import Verif.X448.CmovRun

/-!
# The choice of the conditional swap (C69, C70)

The macro `SWAP_METHOD` of include/faz_ecdh_avx2.h selects how the vector ladders swap their two
points: `Method` in `Verif/X25519/Swap.lean`.  `IsX25519` and `IsX448` are the specifications of
`Verif/X25519/Spec.lean` and `Verif/X448/Spec.lean`.
-/

namespace Verif.X25519.Avx2

open Verif.Fp25519

/-- C69: with each of the three conditional swaps, `X25519.shared` of the vector implementation
returns the X25519 function of RFC 7748 for all 32-byte inputs. -/
theorem C69_shared (m : Method) (isa : Isa) (u k : List Byte) (hu : u.length = 32)
    (hk : k.length = 32) : IsX25519 k u (sharedBy m isa u k) := by
  rw [sharedBy_eq m isa k hu]
  exact shared_spec isa hu hk

/-- C69: so the method does not change any result. -/
theorem C69_independent (m m' : Method) (isa : Isa) (u k : List Byte) (hu : u.length = 32) :
    sharedBy m isa u k = sharedBy m' isa u k := by
  rw [sharedBy_eq m isa k hu, sharedBy_eq m' isa k hu]

/-- The selected method is the one of the model of the ladder. -/
theorem C69_selected (isa : Isa) (u k : List Byte) :
    sharedBy .permutation isa u k = shared isa u k := by
  have h : ∀ (X1 : Elt5 V) (key : F4) (i n : ℕ) (s : St),
      innerBy .permutation X1 key i n s = inner X1 key i n s := by
    intro X1 key i n
    induction n with
    | zero => exact fun _ => rfl
    | succ n ih => exact fun s => by rw [inner, innerBy, ih, step_permutation]
  simp only [sharedBy, shared, mainLoopBy, mainLoop, h]

/-- The methods leave different registers behind: agreement is not agreement of the swaps. -/
example : condSwap .logic 1#64 ⟨⟨1, 2, 3, 4⟩, LIT 0, LIT 0, LIT 0, LIT 0⟩
      ⟨⟨5, 6, 7, 8⟩, LIT 0, LIT 0, LIT 0, LIT 0⟩ =
    (⟨⟨3, 4, 5, 6⟩, LIT 0, LIT 0, LIT 0, LIT 0⟩, ⟨⟨5, 6, 3, 4⟩, LIT 0, LIT 0, LIT 0, LIT 0⟩) ∧
  condSwap .cmov 1#64 ⟨⟨1, 2, 3, 4⟩, LIT 0, LIT 0, LIT 0, LIT 0⟩
      ⟨⟨5, 6, 7, 8⟩, LIT 0, LIT 0, LIT 0, LIT 0⟩ =
    (⟨⟨3, 4, 3, 4⟩, LIT 0, LIT 0, LIT 0, LIT 0⟩, ⟨⟨5, 6, 7, 8⟩, LIT 0, LIT 0, LIT 0, LIT 0⟩) ∧
  condSwap .permutation 1#64 ⟨⟨1, 2, 3, 4⟩, LIT 0, LIT 0, LIT 0, LIT 0⟩
      ⟨⟨5, 6, 7, 8⟩, LIT 0, LIT 0, LIT 0, LIT 0⟩ =
    (⟨⟨3, 4, 1, 2⟩, LIT 0, LIT 0, LIT 0, LIT 0⟩, ⟨⟨5, 6, 7, 8⟩, LIT 0, LIT 0, LIT 0, LIT 0⟩) := by
  decide +kernel

/-- The conditional move copies only the low half of a word: with larger words it is wrong. -/
example : cmovLow 1#32 0x100000002#64 0x300000004#64 = 0x100000004#64 := by decide

end Verif.X25519.Avx2

namespace Verif.X448

open Verif.Fp448
open Verif.X25519.Avx2 (Method)

set_option exponentiation.threshold 2000

/-- C70 (`_partial`: the method `CMOV` is excluded, see `C70_cmov_wrong`): with the conditional
swap `LOGIC` the function `X448.shared` returns on all inputs what it returns with the selected
method `PERMUTATION`. -/
theorem C70_independent_partial (m : Method) (hm : m ≠ .cmov) (u k : List Byte) :
    sharedBy m u k = sharedBy .permutation u k := by
  rw [sharedBy_eq hm, sharedBy_eq (by decide)]

/-- C70 (`_partial`, as above), with the specification. -/
theorem C70_shared_partial (m : Method) (hm : m ≠ .cmov) (u k : List Byte) (hu : u.length = 56)
    (hk : k.length = 56) {v : Fp} (hv : IsProduct k u v) (hs : Safe (canon v)) :
    sharedBy m u k = encode v := by
  rw [sharedBy_eq hm]
  exact C45_shared_partial u k hu hk hv hs

theorem ser_of_safe {e : Elt8 U} {v : Fp} (h : Rp tight e.limbs v) (hs : Safe (canon v)) :
    R1.ser e = encode v := by
  have ht : e.Le tight := h.1
  have hv : e.toFp = v := h.2
  have hc : (canon v : ℤ) = e.value % p448 := by
    rw [← hv, Elt8.toFp_value, canon, ZMod.val_intCast, P_eq]
  have hn := noCarry_of_safe (value_nonneg _) (value_lt_of_tight ht).1 hc hs
  rw [← serFold_of_tight ht, ← ser_eq_iff (ht.mono (by decide))] at hn
  rw [hn, hv]
  rfl

/-- C70 is false for the method `CMOV`: the assembly block of `cmov_x448` has no move for the word
at byte offset 224.  For the generator and the all-zero key the X448 function gives
0x405d6ddd…b8e9 (the second number), and the function compiled with `CMOV` returns the first. -/
theorem C70_cmov_wrong :
    sharedBy .cmov (leBytes 56 5) (leBytes 56 0) = leBytes 56
      1721056439302107310012303546744936728325567781191190472820443423148265960505583690528000492106869698012684262542535261198115576040293 ∧
    IsX448 (leBytes 56 0) (leBytes 56 5) (leBytes 56
      182745873951094843183282441802790291976050036032742099286220758881171527646801909784446736920557769519335147293300947718256547657201897) ∧
    ¬ IsX448 (leBytes 56 0) (leBytes 56 5) (sharedBy .cmov (leBytes 56 5) (leBytes 56 0)) := by
  have hr : Rp tight (affine CmovRun.wS0).limbs
      (CmovRun.wS0.X2X3.lo.limbs.toFp * CmovRun.wS0.Z2Z3.lo.limbs.toFp⁻¹) :=
    affine_spec (t := ⟨CmovRun.wS0.X2X3.lo.limbs.toFp, CmovRun.wS0.Z2Z3.lo.limbs.toFp,
      CmovRun.wS0.X2X3.hi.limbs.toFp, CmovRun.wS0.Z2Z3.hi.limbs.toFp, false⟩)
      ⟨⟨by decide, rfl⟩, ⟨by decide, rfl⟩, ⟨by decide, rfl⟩, ⟨by decide, rfl⟩, by decide⟩
  have hz : CmovRun.wS0.Z2Z3.lo.limbs.toFp ≠ 0 ∧
      1721056439302107310012303546744936728325567781191190472820443423148265960505583690528000492106869698012684262542535261198115576040293 *
      CmovRun.wS0.Z2Z3.lo.limbs.toFp = CmovRun.wS0.X2X3.lo.limbs.toFp := by decide +kernel
  rw [← (eq_mul_inv_iff_mul_eq₀ hz.1).2 hz.2] at hr
  have h1 : sharedBy .cmov (leBytes 56 5) (leBytes 56 0) = leBytes 56
      1721056439302107310012303546744936728325567781191190472820443423148265960505583690528000492106869698012684262542535261198115576040293 := by
    have e : sharedBy .cmov (leBytes 56 5) (leBytes 56 0) =
      R1.ser (sharedEltBy .cmov CmovRun.wu CmovRun.wk) := by
      unfold sharedBy CmovRun.wu CmovRun.wk; rfl
    rw [e, CmovRun.w_elt, ser_of_safe hr (by decide +kernel)]
    decide +kernel
  have h2 : IsX448 (leBytes 56 0) (leBytes 56 5) (leBytes 56
      182745873951094843183282441802790291976050036032742099286220758881171527646801909784446736920557769519335147293300947718256547657201897) :=
    ⟨_, product_eval (v := 182745873951094843183282441802790291976050036032742099286220758881171527646801909784446736920557769519335147293300947718256547657201897)
      (by decide +kernel), by decide +kernel⟩
  refine ⟨h1, h2, fun h => ?_⟩
  rw [h1] at h
  exact absurd (C45_spec_unique h h2) (by decide +kernel)

end Verif.X448
