import Verif.Vec.Shapes
import Verif.Vec.Prog448

/-!
# The programs of Fp448 compute the functions of the model

Each program, run with its parameters apart, leaves what the function of the model returns; the
equation is checked by evaluating both sides.  The programs come from a script and the functions
of the model were transcribed by hand, so this also compares the two readings of the C text. -/

namespace Verif.Vec

open Fp448 F448

theorem g1_zero : Writes g1 V1.zero R1.zero :=
  writes_of g1_loc rfl rfl (by decide +kernel) fun _ _ => by kernel_refl

theorem g1_copy : Maps g1 V1.copy id :=
  maps_of g1_loc rfl rfl (by decide +kernel) fun _ _ => by kernel_refl

theorem g1_add : Combines g1 V1.add R1.add :=
  combines_of g1_loc rfl rfl (by decide +kernel) fun _ _ => by kernel_refl

theorem g1_sub : Combines g1 V1.sub R1.sub :=
  combines_of g1_loc rfl rfl (by decide +kernel) fun _ _ => by kernel_refl

theorem g1_intmul : Combines g1 V1.intmul R1.intmul :=
  combines_of g1_loc rfl rfl (by decide +kernel) fun _ _ => by kernel_refl

theorem g1_mul : Combines g1 V1.mul R1.mul :=
  combines_of g1_loc rfl rfl (by decide +kernel) fun _ _ => by kernel_refl

theorem g1_neg : Updates g1 V1.neg R1.neg :=
  updates_of g1_loc rfl rfl (by decide +kernel) fun _ _ => by kernel_refl

theorem g1_compress : Updates g1 V1.compress R1.compress :=
  updates_of g1_loc rfl rfl (by decide +kernel) fun _ _ => by kernel_refl

theorem g1_compressfast : Updates g1 V1.compressfast R1.compressfast :=
  updates_of g1_loc rfl rfl (by decide +kernel) fun _ _ => by kernel_refl

theorem g1_new_compressfast : Updates g1 V1.new_compressfast R1.new_compressfast :=
  updates_of g1_loc rfl rfl (by decide +kernel) fun _ _ => by kernel_refl

theorem g1_addsub : Updates2 g1 V1.addsub R1.addsub :=
  updates2_of g1_loc rfl rfl (by decide +kernel) fun _ _ => by kernel_refl

theorem g1_naddsub : Combines2 g1 (SomeAlias 4 true true true true) V1.naddsub R1.naddsub :=
  combines2_of g1_loc rfl rfl (by decide +kernel) (fun _ _ => by kernel_refl)
    fun _ _ _ _ h => h

theorem g2_zero : Writes g2 V2.zero R2.zero :=
  writes_of g2_loc rfl rfl (by decide +kernel) fun _ _ => by kernel_refl

theorem g2_copy : Maps g2 V2.copy id :=
  maps_of g2_loc rfl rfl (by decide +kernel) fun _ _ => by kernel_refl

theorem g2_ngz : Maps g2 V2.ngz R2.ngz :=
  maps_of g2_loc rfl rfl (by decide +kernel) fun _ _ => by kernel_refl

theorem g2_subadd0 : Maps g2 V2.subadd0 (R2.subadd · false) :=
  maps_of g2_loc rfl rfl (by decide +kernel) fun _ _ => by kernel_refl

theorem g2_subadd1 : Maps g2 V2.subadd1 (R2.subadd · true) :=
  maps_of g2_loc rfl rfl (by decide +kernel) fun _ _ => by kernel_refl

theorem g2_add : Combines g2 V2.add R2.add :=
  combines_of g2_loc rfl rfl (by decide +kernel) fun _ _ => by kernel_refl

theorem g2_sub : Combines g2 V2.sub R2.sub :=
  combines_of g2_loc rfl rfl (by decide +kernel) fun _ _ => by kernel_refl

theorem g2_intmul : Combines g2 V2.intmul R2.intmul :=
  combines_of g2_loc rfl rfl (by decide +kernel) fun _ _ => by kernel_refl

theorem g2_mul : Combines g2 V2.mul R2.mul :=
  combines_of g2_loc rfl rfl (by decide +kernel) fun _ _ => by kernel_refl

theorem g2_intsqr : Updates g2 V2.intsqr R2.intsqr :=
  updates_of g2_loc rfl rfl (by decide +kernel) fun _ _ => by kernel_refl

theorem g2_compress : Updates g2 V2.compress R2.compress :=
  updates_of g2_loc rfl rfl (by decide +kernel) fun _ _ => by kernel_refl

theorem g2_compressfast : Updates g2 V2.compressfast R2.compressfast :=
  updates_of g2_loc rfl rfl (by decide +kernel) fun _ _ => by kernel_refl

theorem g2_sqr : Updates g2 V2.sqr R2.sqr :=
  updates_of g2_loc rfl rfl (by decide +kernel) fun _ _ => by kernel_refl

theorem g2_addsub : Updates2 g2 V2.addsub R2.addsub :=
  updates2_of g2_loc rfl rfl (by decide +kernel) fun _ _ => by kernel_refl

theorem g2_compress2 : Updates2 g2 V2.compress2 R2.compress2 :=
  updates2_of g2_loc rfl rfl (by decide +kernel) fun _ _ => by kernel_refl

theorem g2_naddsub : Combines2 g2 (SomeAlias 8 true false true true) V2.naddsub R2.naddsub :=
  combines2_of g2_loc rfl rfl (by decide +kernel) (fun _ _ => by kernel_refl)
    fun _ _ _ _ h => h

theorem g4_zero : Writes g4 V4.zero (⟨LIT 0, LIT 0, LIT 0, LIT 0, LIT 0, LIT 0, LIT 0, LIT 0,
    LIT 0, LIT 0, LIT 0, LIT 0, LIT 0, LIT 0, LIT 0, LIT 0⟩ : Elt16 V) :=
  writes_of g4_loc rfl rfl (by decide +kernel) fun _ _ => by kernel_refl

theorem g4_copy : Maps g4 V4.copy id :=
  maps_of g4_loc rfl rfl (by decide +kernel) fun _ _ => by kernel_refl

theorem g4_ngz : Maps g4 V4.ngz R4.ngz :=
  maps_of g4_loc rfl rfl (by decide +kernel) fun _ _ => by kernel_refl

theorem g4_add : Combines g4 V4.add R4.add :=
  combines_of g4_loc rfl rfl (by decide +kernel) fun _ _ => by kernel_refl

theorem g4_sub : Combines g4 V4.sub R4.sub :=
  combines_of g4_loc rfl rfl (by decide +kernel) fun _ _ => by kernel_refl

theorem g4_intmul : Combines g4 V4.intmul R4.intmul :=
  combines_of g4_loc rfl rfl (by decide +kernel) fun _ _ => by kernel_refl

theorem g4_mul : Combines g4 V4.mul R4.mul :=
  combines_of g4_loc rfl rfl (by decide +kernel) fun _ _ => by kernel_refl

theorem g4_intsqr : Updates g4 V4.intsqr R4.intsqr :=
  updates_of g4_loc rfl rfl (by decide +kernel) fun _ _ => by kernel_refl

theorem g4_compress : Updates g4 V4.compress R4.compress :=
  updates_of g4_loc rfl rfl (by decide +kernel) fun _ _ => by kernel_refl

theorem g4_compressfast : Updates g4 V4.compressfast R4.compressfast :=
  updates_of g4_loc rfl rfl (by decide +kernel) fun _ _ => by kernel_refl

theorem g4_sqr : Updates g4 V4.sqr R4.sqr :=
  updates_of g4_loc rfl rfl (by decide +kernel) fun _ _ => by kernel_refl

theorem g4_addsublar : Updates2 g4 V4.addsublar R4.addsublar :=
  updates2_of g4_loc rfl rfl (by decide +kernel) fun _ _ => by kernel_refl

theorem g4_compress2 : Updates2 g4 V4.compress2 R4.compress2 :=
  updates2_of g4_loc rfl rfl (by decide +kernel) fun _ _ => by kernel_refl

theorem g4_new_compressfast2 : Updates2 g4 V4.new_compressfast2 R4.new_compressfast2 :=
  updates2_of g4_loc rfl rfl (by decide +kernel) fun _ _ => by kernel_refl

theorem g4_addsub : Combines2 g4 (SomeAlias 16 false false true true) V4.addsub R4.addsub :=
  combines2_of g4_loc rfl rfl (by decide +kernel) (fun _ _ => by kernel_refl)
    fun _ _ _ _ h => h

/-! ## Repeated squaring -/

/-- The variables c0..c3 of `sqrn`. -/
def sqrnVars448 (ρ : Regs) : Elt8 U :=
  ⟨(ρ 12).lo, (ρ 12).hi, (ρ 13).lo, (ρ 13).hi, (ρ 14).lo, (ρ 14).hi, (ρ 15).lo, (ρ 15).hi⟩

theorem sqrn448_pre_mem (m ρ) : (run idp V1.sqrnPre (m, ρ)).1 = m := by kernel_refl

theorem sqrn448_pre (m ρ) : sqrnVars448 (run idp V1.sqrnPre (m, ρ)).2 = g1.get (m 0) := by
  kernel_refl

theorem sqrn448_body_mem (m ρ) : (run idp V1.sqrnBody (m, ρ)).1 = m := by kernel_refl

theorem sqrn448_body (m ρ) : sqrnVars448 (run idp V1.sqrnBody (m, ρ)).2
    = R1.sqrCarry (R1.sqrRaw (sqrnVars448 ρ)) := by kernel_refl

theorem sqrn448_post (m ρ) : g1.get ((run idp V1.sqrnPost (m, ρ)).1 0) = sqrnVars448 ρ := by
  kernel_refl

theorem sqrn448_loop (m : Mem) : ∀ (n : ℕ) (ρ : Regs),
    (run idp (List.replicate n V1.sqrnBody).flatten (m, ρ)).1 = m ∧
      sqrnVars448 (run idp (List.replicate n V1.sqrnBody).flatten (m, ρ)).2
        = R1.sqrn (sqrnVars448 ρ) n := by
  intro n
  induction n with
  | zero => intro ρ; exact ⟨rfl, rfl⟩
  | succ n ih =>
    intro ρ
    rw [List.replicate_succ, List.flatten_cons, run_append]
    have hm := sqrn448_body_mem m ρ
    have hr := sqrn448_body m ρ
    generalize hs : run idp V1.sqrnBody (m, ρ) = s at hm hr
    obtain ⟨s1, s2⟩ := s
    simp only at hm hr
    subst hm
    rw [R1.sqrn, ← hr]
    exact ih s2

theorem g1_sqrn (n : ℕ) : Updates g1 (V1.sqrn n) (R1.sqrn · n) := by
  refine updates_of g1_loc rfl rfl (Fn.ok_of_check _ (check_loop rfl ?_ ?_ ?_)) fun A ρ => ?_
  · kernel_refl
  · kernel_refl
  · kernel_refl
  · have hb : (V1.sqrn n).body
        = V1.sqrnPre ++ (List.replicate n V1.sqrnBody).flatten ++ V1.sqrnPost := rfl
    rw [hb, run_append, run_append]
    have hm := sqrn448_pre_mem A ρ
    have hr := sqrn448_pre A ρ
    generalize hs : run idp V1.sqrnPre (A, ρ) = s at hm hr
    obtain ⟨s1, s2⟩ := s
    simp only at hm hr
    subst hm
    have h := (sqrn448_loop s1 n s2).2
    rw [sqrn448_post, h, hr]

theorem g1_sqr : Updates g1 V1.sqr R1.sqr :=
  updates_of g1_loc rfl rfl (by decide +kernel) fun _ _ => by kernel_refl

/-! ## Conversions between the layouts -/

theorem g2_inter : Joins2 g2 g1 V2.inter R2.inter :=
  joins2_of g2_loc rfl rfl (by decide +kernel) fun _ _ => by kernel_refl

theorem g2_deinter : Splits2 g2 g1 V2.deinter R2.deinter :=
  splits2_of g1_loc rfl rfl (by decide +kernel) fun _ _ => by kernel_refl

theorem g4_zip : Joins4 g4 g1 V4.zip R4.zip :=
  joins4_of g4_loc rfl rfl (by decide +kernel) fun _ _ => by kernel_refl

theorem g4_unzip : Splits4 g4 g1 V4.unzip R4.unzip :=
  splits4_of g1_loc rfl rfl (by decide +kernel) fun _ _ => by kernel_refl

end Verif.Vec
