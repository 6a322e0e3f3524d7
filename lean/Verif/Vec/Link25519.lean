import Verif.Vec.Shapes
import Verif.Vec.Prog25519
import Verif.Fp25519.RedApi
import Verif.Fp25519.RedMul2

/-!
# The programs of Fp25519 compute the functions of the model

Each program, run with its parameters apart, leaves what the function of the model returns; the
equation is checked by evaluating both sides.  The programs come from a script and the functions
of the model were transcribed by hand, so this also compares the two readings of the C text. -/

namespace Verif.Vec

open Fp25519 F25519

theorem e1_zero : Writes e1 V1.zero R1.zero :=
  writes_of e1_loc rfl rfl (by decide +kernel) fun _ _ => by kernel_refl

theorem e1_copy : Maps e1 V1.copy id :=
  maps_of e1_loc rfl rfl (by decide +kernel) fun _ _ => by kernel_refl

theorem e1_add : Combines e1 V1.add R1.add :=
  combines_of e1_loc rfl rfl (by decide +kernel) fun _ _ => by kernel_refl

theorem e1_sub : Combines e1 V1.sub R1.sub :=
  combines_of e1_loc rfl rfl (by decide +kernel) fun _ _ => by kernel_refl

theorem e1_intmul : Combines e1 V1.intmul R1.intmul :=
  combines_of e1_loc rfl rfl (by decide +kernel) fun _ _ => by kernel_refl

theorem e1_mul : Combines e1 V1.mul R1.mul :=
  combines_of e1_loc rfl rfl (by decide +kernel) fun _ _ => by kernel_refl

theorem e1_neg : Updates e1 V1.neg R1.neg :=
  updates_of e1_loc rfl rfl (by decide +kernel) fun _ _ => by kernel_refl

theorem e1_compress : Updates e1 V1.compress R1.compress :=
  updates_of e1_loc rfl rfl (by decide +kernel) fun _ _ => by kernel_refl

theorem e1_compressfast : Updates e1 V1.compressfast R1.compressfast :=
  updates_of e1_loc rfl rfl (by decide +kernel) fun _ _ => by kernel_refl

theorem e1_addsub : Updates2 e1 V1.addsub R1.addsub :=
  updates2_of e1_loc rfl rfl (by decide +kernel) fun _ _ => by kernel_refl

theorem e1_naddsub : Combines2 e1 (SomeAlias 3 true true true true) V1.naddsub R1.naddsub :=
  combines2_of e1_loc rfl rfl (by decide +kernel) (fun _ _ => by kernel_refl)
    fun _ _ _ _ h => h

theorem e2_zero : Writes e2 V2.zero R2.zero :=
  writes_of e2_loc rfl rfl (by decide +kernel) fun _ _ => by kernel_refl

theorem e2_copy : Maps e2 V2.copy id :=
  maps_of e2_loc rfl rfl (by decide +kernel) fun _ _ => by kernel_refl

theorem e2_ngz : Maps e2 V2.ngz R2.ngz :=
  maps_of e2_loc rfl rfl (by decide +kernel) fun _ _ => by kernel_refl

theorem e2_subadd0 : Maps e2 V2.subadd0 (R2.subadd · 0#32) :=
  maps_of e2_loc rfl rfl (by decide +kernel) fun _ _ => by kernel_refl

theorem e2_subadd1 : Maps e2 V2.subadd1 (R2.subadd · 1#32) :=
  maps_of e2_loc rfl rfl (by decide +kernel) fun _ _ => by kernel_refl

theorem e2_cmv : CombinesR e2 V2.cmv (fun ρ => R2.cmv (ρ 0)) :=
  combinesR_of e2_loc rfl rfl (by decide +kernel) fun _ _ => by kernel_refl

theorem e2_add : Combines e2 V2.add R2.add :=
  combines_of e2_loc rfl rfl (by decide +kernel) fun _ _ => by kernel_refl

theorem e2_sub : Combines e2 V2.sub R2.sub :=
  combines_of e2_loc rfl rfl (by decide +kernel) fun _ _ => by kernel_refl

theorem e2_intmul : Combines e2 V2.intmul R2.intmul :=
  combines_of e2_loc rfl rfl (by decide +kernel) fun _ _ => by kernel_refl

theorem e2_mul : Combines e2 V2.mul R2.mul :=
  combines_of e2_loc rfl rfl (by decide +kernel) fun _ _ => by kernel_refl

theorem e2_intsqr : Updates e2 V2.intsqr R2.intsqr :=
  updates_of e2_loc rfl rfl (by decide +kernel) fun _ _ => by kernel_refl

theorem e2_compress : Updates e2 V2.compress R2.compress :=
  updates_of e2_loc rfl rfl (by decide +kernel) fun _ _ => by kernel_refl

theorem e2_compressfast : Updates e2 V2.compressfast R2.compressfast :=
  updates_of e2_loc rfl rfl (by decide +kernel) fun _ _ => by kernel_refl

theorem e2_sqr : Updates e2 V2.sqr R2.sqr :=
  updates_of e2_loc rfl rfl (by decide +kernel) fun _ _ => by kernel_refl

theorem e2_neg : Updates e2 V2.neg R2.neg :=
  updates_of e2_loc rfl rfl (by decide +kernel) fun _ _ => by kernel_refl

theorem e2_addsub : Updates2 e2 V2.addsub R2.addsub :=
  updates2_of e2_loc rfl rfl (by decide +kernel) fun _ _ => by kernel_refl

theorem e2_compress2 : Updates2 e2 V2.compress2 R2.compress2 :=
  updates2_of e2_loc rfl rfl (by decide +kernel) fun _ _ => by kernel_refl

theorem e2_naddsub : Combines2 e2 (SomeAlias 5 true false true true) V2.naddsub R2.naddsub :=
  combines2_of e2_loc rfl rfl (by decide +kernel) (fun _ _ => by kernel_refl)
    fun _ _ _ _ h => h

theorem e2_intmul2 : Combines2 e2 (SomeAlias 5 false true false true) V2.intmul2 R2.intmul2 :=
  combines2_of e2_loc rfl rfl (by decide +kernel) (fun _ _ => by kernel_refl)
    fun _ _ _ _ h => h

theorem e4_zero : Writes e4 V4.zero R4.zero :=
  writes_of e4_loc rfl rfl (by decide +kernel) fun _ _ => by kernel_refl

theorem e4_copy : Maps e4 V4.copy id :=
  maps_of e4_loc rfl rfl (by decide +kernel) fun _ _ => by kernel_refl

theorem e4_ngz : Maps e4 V4.ngz R4.ngz :=
  maps_of e4_loc rfl rfl (by decide +kernel) fun _ _ => by kernel_refl

theorem e4_add : Combines e4 V4.add R4.add :=
  combines_of e4_loc rfl rfl (by decide +kernel) fun _ _ => by kernel_refl

theorem e4_sub : Combines e4 V4.sub R4.sub :=
  combines_of e4_loc rfl rfl (by decide +kernel) fun _ _ => by kernel_refl

theorem e4_intmul : Combines e4 V4.intmul R4.intmul :=
  combines_of e4_loc rfl rfl (by decide +kernel) fun _ _ => by kernel_refl

theorem e4_mul : Combines e4 V4.mul R4.mul :=
  combines_of e4_loc rfl rfl (by decide +kernel) fun _ _ => by kernel_refl

theorem e4_intsqr : Updates e4 V4.intsqr R4.intsqr :=
  updates_of e4_loc rfl rfl (by decide +kernel) fun _ _ => by kernel_refl

theorem e4_compress : Updates e4 V4.compress R4.compress :=
  updates_of e4_loc rfl rfl (by decide +kernel) fun _ _ => by kernel_refl

theorem e4_compressfast : Updates e4 V4.compressfast R4.compressfast :=
  updates_of e4_loc rfl rfl (by decide +kernel) fun _ _ => by kernel_refl

theorem e4_sqr : Updates e4 V4.sqr R4.sqr :=
  updates_of e4_loc rfl rfl (by decide +kernel) fun _ _ => by kernel_refl

theorem e4_neg : Updates e4 V4.neg R4.neg :=
  updates_of e4_loc rfl rfl (by decide +kernel) fun _ _ => by kernel_refl

theorem e4_addsublar : Updates2 e4 V4.addsublar R4.addsublar :=
  updates2_of e4_loc rfl rfl (by decide +kernel) fun _ _ => by kernel_refl

theorem e4_compress2 : Updates2 e4 V4.compress2 R4.compress2 :=
  updates2_of e4_loc rfl rfl (by decide +kernel) fun _ _ => by kernel_refl

theorem e4_new_compressfast2 : Updates2 e4 V4.new_compressfast2 R4.new_compressfast2 :=
  updates2_of e4_loc rfl rfl (by decide +kernel) fun _ _ => by kernel_refl

theorem e4_addsub : Combines2 e4 (SomeAlias 10 false false true true) V4.addsub R4.addsub :=
  combines2_of e4_loc rfl rfl (by decide +kernel) (fun _ _ => by kernel_refl)
    fun _ _ _ _ h => h

/-! ## Repeated squaring -/

/-- The variables b0..b4 of `sqrn`. -/
def sqrnVars (ρ : Regs) : Elt5 U := ⟨(ρ 6).lo, (ρ 7).lo, (ρ 8).lo, (ρ 9).lo, (ρ 10).lo⟩

theorem sqrn_pre_mem (m ρ) : (run idp V1.sqrnPre (m, ρ)).1 = m := by kernel_refl

theorem sqrn_pre (m ρ) : sqrnVars (run idp V1.sqrnPre (m, ρ)).2 = e1.get (m 0) := by kernel_refl

theorem sqrn_body_mem (m ρ) : (run idp V1.sqrnBody (m, ρ)).1 = m := by kernel_refl

theorem sqrn_body (m ρ) : sqrnVars (run idp V1.sqrnBody (m, ρ)).2
    = R1.sqrCarry (R1.sqrRaw (sqrnVars ρ)) := by kernel_refl

theorem sqrn_post (m ρ) : e1.get ((run idp V1.sqrnPost (m, ρ)).1 0) = sqrnVars ρ := by
  kernel_refl

theorem sqrn_loop (m : Mem) : ∀ (n : ℕ) (ρ : Regs),
    (run idp (List.replicate n V1.sqrnBody).flatten (m, ρ)).1 = m ∧
      sqrnVars (run idp (List.replicate n V1.sqrnBody).flatten (m, ρ)).2
        = R1.sqrn (sqrnVars ρ) n := by
  intro n
  induction n with
  | zero => intro ρ; exact ⟨rfl, rfl⟩
  | succ n ih =>
    intro ρ
    rw [List.replicate_succ, List.flatten_cons, run_append]
    have hm := sqrn_body_mem m ρ
    have hr := sqrn_body m ρ
    generalize hs : run idp V1.sqrnBody (m, ρ) = s at hm hr
    obtain ⟨s1, s2⟩ := s
    simp only at hm hr
    subst hm
    rw [R1.sqrn, ← hr]
    exact ih s2

theorem e1_sqrn (n : ℕ) : Updates e1 (V1.sqrn n) (R1.sqrn · n) := by
  refine updates_of e1_loc rfl rfl (Fn.ok_of_check _ (check_loop rfl ?_ ?_ ?_)) fun A ρ => ?_
  · kernel_refl
  · kernel_refl
  · kernel_refl
  · have hb : (V1.sqrn n).body
        = V1.sqrnPre ++ (List.replicate n V1.sqrnBody).flatten ++ V1.sqrnPost := rfl
    rw [hb, run_append, run_append]
    have hm := sqrn_pre_mem A ρ
    have hr := sqrn_pre A ρ
    generalize hs : run idp V1.sqrnPre (A, ρ) = s at hm hr
    obtain ⟨s1, s2⟩ := s
    simp only at hm hr
    subst hm
    have h := (sqrn_loop s1 n s2).2
    rw [sqrn_post, h, hr]

theorem e1_sqr : Updates e1 V1.sqr R1.sqr :=
  updates_of e1_loc rfl rfl (by decide +kernel) fun _ _ => by kernel_refl

/-- The body of the loop of `sqrn`, two-way. -/
def sqrnBody2 : List Stmt := V2.intsqr.inl [0] 0 ++ V2.compress.inl [0] 3

theorem sqrn2_step (m ρ) : e2.get ((run idp sqrnBody2 (m, ρ)).1 0)
    = R2.compress (R2.intsqr (e2.get (m 0))) := by kernel_refl

theorem sqrn2_loop : ∀ (n : ℕ) (x : Mem × Regs),
    e2.get ((run idp (List.replicate n sqrnBody2).flatten x).1 0)
      = R2.sqrn (e2.get (x.1 0)) n := by
  intro n
  induction n with
  | zero => intro x; rfl
  | succ n ih =>
    intro x
    rw [List.replicate_succ, List.flatten_cons, run_append, ih, R2.sqrn, ← sqrn2_step x.1 x.2]

theorem e2_sqrn (n : ℕ) : Updates e2 (V2.sqrn n) (R2.sqrn · n) := by
  refine updates_of e2_loc rfl rfl (Fn.ok_of_check _
    (check_loop (pre := []) (post := []) (body := sqrnBody2) (n := n) ?_ rfl ?_ rfl))
    fun A ρ => sqrn2_loop n (A, ρ)
  · rw [List.nil_append, List.append_nil]; rfl
  · kernel_refl

/-- The body of the loop of `sqrn`, four-way. -/
def sqrnBody4 : List Stmt := V4.intsqr.inl [0] 0 ++ V4.compress.inl [0] 0

theorem sqrn4_step (m ρ) : e4.get ((run idp sqrnBody4 (m, ρ)).1 0)
    = R4.compress (R4.intsqr (e4.get (m 0))) := by kernel_refl

theorem sqrn4_loop : ∀ (n : ℕ) (x : Mem × Regs),
    e4.get ((run idp (List.replicate n sqrnBody4).flatten x).1 0)
      = R4.sqrn (e4.get (x.1 0)) n := by
  intro n
  induction n with
  | zero => intro x; rfl
  | succ n ih =>
    intro x
    rw [List.replicate_succ, List.flatten_cons, run_append, ih, R4.sqrn, ← sqrn4_step x.1 x.2]

theorem e4_sqrn (n : ℕ) : Updates e4 (V4.sqrn n) (R4.sqrn · n) := by
  refine updates_of e4_loc rfl rfl (Fn.ok_of_check _
    (check_loop (pre := []) (post := []) (body := sqrnBody4) (n := n) ?_ rfl ?_ rfl))
    fun A ρ => sqrn4_loop n (A, ρ)
  · rw [List.nil_append, List.append_nil]; rfl
  · kernel_refl

/-! ## Conversions between the layouts -/

theorem e2_inter : Joins2 e2 e1 V2.inter R2.inter :=
  joins2_of e2_loc rfl rfl (by decide +kernel) fun _ _ => by kernel_refl

theorem e2_deinter : Splits2 e2 e1 V2.deinter R2.deinter :=
  splits2_of e1_loc rfl rfl (by decide +kernel) fun _ _ => by kernel_refl

theorem e4_zip : Joins4 e4 e1 V4.zip R4.zip :=
  joins4_of e4_loc rfl rfl (by decide +kernel) fun _ _ => by kernel_refl

theorem e4_unzip : Splits4 e4 e1 V4.unzip R4.unzip :=
  splits4_of e1_loc rfl rfl (by decide +kernel) fun _ _ => by kernel_refl

/-- The blends of `cmv`, one-way, with the mask in the register 0. -/
def cmv1 (ρ : Regs) (a b : Elt5 U) : Elt5 U :=
  ⟨⟨blendvW a.c0.l b.c0.l (ρ 0).q0, blendvW a.c0.h b.c0.h (ρ 0).q1⟩,
    ⟨blendvW a.c1.l b.c1.l (ρ 0).q2, blendvW a.c1.h b.c1.h (ρ 0).q3⟩,
    ⟨blendvW a.c2.l b.c2.l (ρ 0).q0, blendvW a.c2.h b.c2.h (ρ 0).q1⟩,
    ⟨blendvW a.c3.l b.c3.l (ρ 0).q2, blendvW a.c3.h b.c3.h (ρ 0).q3⟩,
    ⟨blendvW a.c4.l b.c4.l (ρ 0).q0, blendvW a.c4.h b.c4.h (ρ 0).q1⟩⟩

theorem e1_cmv : CombinesR e1 V1.cmv cmv1 :=
  combinesR_of e1_loc rfl rfl (by decide +kernel) fun _ _ => by kernel_refl

theorem cmv1_eq (bit : BitVec 32) (ρ : Regs)
    (h : ρ 0 = ⟨-(bit.signExtend 64), -(bit.signExtend 64), -(bit.signExtend 64),
      -(bit.signExtend 64)⟩) (a b : Elt5 U) : cmv1 ρ a b = R1.cmv bit a b := by
  simp only [cmv1, R1.cmv, Elt5.zip, h]

end Verif.Vec
