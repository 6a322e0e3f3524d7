import Verif.Vec.Points25519
import Verif.Vec.Compose
import Verif.Vec.Link25519
import Verif.Ed25519.Mult
import Verif.Ed25519.DoubleMult

/-!
# The point formulas of edwards25519 on memory compute the formulas of the model

The short formulas are evaluated.  In the others each call is replaced by what is known of the
called function. -/

namespace Verif.Vec

open Fp25519 Ed25519

/-! ## One point over two halves -/

theorem p_doubling_2w_ok : P25519.doubling_2w.ok alNone [0] = true := by kernel_refl

theorem p_doubling_2w : UpdatesF p2w 10 P25519.doubling_2w Ed25519.doubling_2w :=
  updatesF_of p2w_loc rfl rfl p_doubling_2w_ok (fun _ _ => by kernel_refl)

theorem p_mixadd_2w_ok : P25519.mixadd_2w.ok alNone [0] = true := by kernel_refl

theorem p_mixadd_2w : ActsF p2w pre2w 20 P25519.mixadd_2w Ed25519.mixadd_2w :=
  actsF_of p2w_loc pre2w_loc rfl rfl p_mixadd_2w_ok (fun _ _ => by kernel_refl)

theorem p_fulladd_2w_ok : P25519.fulladd_2w.ok al01 [0] = true := by kernel_refl

theorem p_fulladd_2w : AddsF p2w 20 P25519.fulladd_2w Ed25519.fulladd_2w :=
  addsF_of p2w_loc rfl rfl p_fulladd_2w_ok (fun _ _ => by kernel_refl)

theorem p_unpack_2w_ok : P25519.unpack_2w.ok alNone [0, 1] = true := by kernel_refl

theorem p_unpack_2w : Splits2 e4 e2 P25519.unpack_2w Ed25519.unpack_2w :=
  splits2_of e2_loc rfl rfl p_unpack_2w_ok (fun _ _ => by kernel_refl)

theorem p_unzip_2w_ok : P25519.unzip_2w.ok alNone [0, 1] = true := by kernel_refl

theorem p_unzip_2w : Splits2 e4 e2 P25519.unzip_2w
    (fun A => ((Ed25519.unzip_2w A).XY, (Ed25519.unzip_2w A).TZ)) :=
  splits2_of e2_loc rfl rfl p_unzip_2w_ok (fun _ _ => by kernel_refl)

/-! ## Four points at once -/

theorem p4way_lk (x : Mem × Regs) (k : ℕ) : p4way.get (x.1 k)
    = ⟨lk e4 x k 0, lk e4 x k 10, lk e4 x k 20, lk e4 x k 30⟩ := by
  simp only [lk, p4way, Nat.zero_add]

theorem pre4way_lk (x : Mem × Regs) (k : ℕ) : pre4way.get (x.1 k)
    = ⟨lk e4 x k 0, lk e4 x k 10, lk e4 x k 20⟩ := by
  simp only [lk, pre4way, Nat.zero_add]

theorem t_mix4way (x : Mem × Regs) : p4way.get ((run idp P25519.mixadd_4way.body x).1 0)
    = Ed25519.mixadd_4way (p4way.get (x.1 0)) (pre4way.get (x.1 1)) := by
  rw [p4way_lk, p4way_lk, pre4way_lk]
  simp (decide := true) only [P25519.mixadd_4way, run_append, e4_addsub.get₁, e4_addsub.get₂,
    e4_addsub.fr e4_loc, e4_add.get, e4_add.fr e4_loc, e4_intmul.get, e4_intmul.fr e4_loc,
    e4_compress2.get₁, e4_compress2.get₂, e4_compress2.fr e4_loc, e4_addsublar.get₁,
    e4_addsublar.get₂, e4_addsublar.fr e4_loc]
  kernel_refl

theorem p_mixadd_4way_ok : P25519.mixadd_4way.ok alNone [0] = true := by kernel_refl

theorem p_mixadd_4way : ActsF p4way pre4way 60 P25519.mixadd_4way Ed25519.mixadd_4way :=
  actsF_of p4way_loc pre4way_loc rfl rfl p_mixadd_4way_ok fun _ _ => t_mix4way _

/-! ## Two points at once -/

theorem p2way_lk (x : Mem × Regs) (k : ℕ) : p2way.get (x.1 k)
    = ⟨lk e2 x k 0, lk e2 x k 5, lk e2 x k 10, lk e2 x k 15⟩ := by
  simp only [lk, p2way, Nat.zero_add]

theorem t2_spares : F25519.V2.intmul.body.all (Stmt.spares 2) = true := by decide +kernel

theorem t_add2way (x : Mem × Regs) : p2way.get ((run idp P25519.fulladd_2way.body x).1 0)
    = Ed25519.fulladd_2way (p2way.get (x.1 0)) (p2way.get (x.1 1)) := by
  simp only [p2way_lk]
  simp (decide := true) only [P25519.fulladd_2way, run_append, e2_addsub.get₁, e2_addsub.get₂,
    e2_addsub.fr e2_loc, e2_add.get, e2_add.fr e2_loc, e2_intmul.get, e2_intmul.fr e2_loc,
    e2_compress.get, e2_compress.fr e2_loc, e2_compressfast.get, e2_compressfast.fr e2_loc,
    e2_intmul.arr e2_loc t2_spares, e2_intmul.arr_fr e2_loc t2_spares]
  kernel_refl

theorem p_fulladd_2way_ok : P25519.fulladd_2way.ok alNone [0] = true := by kernel_refl

theorem p_fulladd_2way : SpoilsF p2way 20 P25519.fulladd_2way Ed25519.fulladd_2way :=
  spoilsF_of p2way_loc rfl rfl p_fulladd_2way_ok fun _ _ => t_add2way _

theorem t_dbl2way0 (x : Mem × Regs) : p2way.get ((run idp P25519.doubling_2way0.body x).1 0)
    = Ed25519.doubling_2way (p2way.get (x.1 0)) false := by
  simp only [p2way_lk]
  simp (decide := true) only [P25519.doubling_2way0, run_append, e2_naddsub.get₁,
    e2_naddsub.get₂, e2_naddsub.fr e2_loc, e2_add.get, e2_add.fr e2_loc, e2_sub.get, e2_sub.fr
    e2_loc, e2_mul.get, e2_mul.fr e2_loc, e2_sqr.get, e2_sqr.fr e2_loc, e2_compressfast.get,
    e2_compressfast.fr e2_loc]
  kernel_refl

theorem p_doubling_2way0_ok : P25519.doubling_2way0.ok alNone [0] = true := by kernel_refl

theorem p_doubling_2way0 : UpdatesF p2way 20 P25519.doubling_2way0
    (fun P => Ed25519.doubling_2way P false) :=
  updatesF_of p2way_loc rfl rfl p_doubling_2way0_ok fun _ _ => t_dbl2way0 _

theorem t_dbl2way1 (x : Mem × Regs) : p2way.get ((run idp P25519.doubling_2way1.body x).1 0)
    = Ed25519.doubling_2way (p2way.get (x.1 0)) true := by
  simp only [p2way_lk]
  simp (decide := true) only [P25519.doubling_2way1, run_append, e2_naddsub.get₁,
    e2_naddsub.get₂, e2_naddsub.fr e2_loc, e2_add.get, e2_add.fr e2_loc, e2_sub.get, e2_sub.fr
    e2_loc, e2_mul.get, e2_mul.fr e2_loc, e2_sqr.get, e2_sqr.fr e2_loc, e2_compressfast.get,
    e2_compressfast.fr e2_loc]
  kernel_refl

theorem p_doubling_2way1_ok : P25519.doubling_2way1.ok alNone [0] = true := by kernel_refl

theorem p_doubling_2way1 : UpdatesF p2way 20 P25519.doubling_2way1
    (fun P => Ed25519.doubling_2way P true) :=
  updatesF_of p2way_loc rfl rfl p_doubling_2way1_ok fun _ _ => t_dbl2way1 _

/-! ## The sum of the four points -/

theorem t_joinA (x : Mem × Regs) :
    let y := run idp P25519.join_pointsA x
    let Q := lk p4way x 1 0
    lk p2way y 2 0
        = ⟨(unpack_2w Q.X).1, (unpack_2w Q.Y).1, (unpack_2w Q.Z).1, (unpack_2w Q.T).1⟩ ∧
      lk p2way y 2 20
        = ⟨(unpack_2w Q.X).2, (unpack_2w Q.Y).2, (unpack_2w Q.Z).2, (unpack_2w Q.T).2⟩ := by
  refine ⟨?_, ?_⟩ <;> kernel_refl

theorem t_joinC (x : Mem × Regs) :
    let y := run idp P25519.join_pointsC x
    let R := lk p2way x 2 0
    lk p2w y 0 0 = ⟨R.X.zip (PERM128 · · 0x20) R.Y, R.T.zip (PERM128 · · 0x20) R.Z⟩ ∧
      lk p2w y 2 40 = ⟨R.X.zip (PERM128 · · 0x31) R.Y, R.T.zip (PERM128 · · 0x31) R.Z⟩ := by
  refine ⟨?_, ?_⟩ <;> kernel_refl

theorem t_join (x : Mem × Regs) :
    lk p2w (run idp P25519.join_points.body x) 0 0 = join_points (lk p4way x 1 0) := by
  change lk p2w (run idp (P25519.join_pointsA ++ P25519.join_pointsB ++ P25519.join_pointsC ++
    P25519.join_pointsD ++ P25519.join_pointsE) x) 0 0 = _
  simp (decide := true) only [P25519.join_pointsB, P25519.join_pointsD, P25519.join_pointsE,
    run_append, p_fulladd_2w.get, p_doubling_2w.get, p_doubling_2w.fr p2w_loc, (t_joinC _).1,
    (t_joinC _).2, p_fulladd_2way.get, (t_joinA _).1, (t_joinA _).2]
  kernel_refl

theorem p_join_points_ok : P25519.join_points.ok alNone [0] = true := by kernel_refl

theorem p_join_points : ActsF p2w p4way 70 P25519.join_points
    (fun _ Q => Ed25519.join_points Q) :=
  actsF_of p2w_loc p4way_loc rfl rfl p_join_points_ok fun A ρ => by
    have h := t_join (A, ρ)
    rwa [lk_zero, lk_zero] at h

/-! ## One point over four lanes -/

theorem t_mixA (x : Mem × Regs) :
    let y := run idp P25519.mixadd_4wA x
    let Q := lk e4 x 0 0
    lk e4 y 2 10 = (Q.zip subYX_addYX CONST_2P_00_00_00).zip (BLEND32 · · 0xF0) Q ∧
      lk e4 y 1 0 = lk e4 x 1 0 := by
  refine ⟨?_, ?_⟩ <;> kernel_refl

theorem t_mixB (x : Mem × Regs) :
    lk e4 (run idp P25519.mixadd_4wB x) 2 10 = (lk e4 x 2 0).zip mix4w_EGHF CONST_2_to_35P_4w := by
  kernel_refl

theorem t_mixC (x : Mem × Regs) :
    let y := run idp P25519.mixadd_4wC x
    lk e4 y 2 0 = (lk e4 x 2 10).map (PERM64 · 0x4B) ∧ lk e4 y 2 10 = lk e4 x 2 10 := by
  refine ⟨?_, ?_⟩ <;> kernel_refl

theorem t_mix (x : Mem × Regs) : lk e4 (run idp P25519.mixadd_4w.body x) 0 0
    = mixadd_4w (lk e4 x 0 0) (lk e4 x 1 0) := by
  simp (decide := true) only [P25519.mixadd_4w, (t_mixA _).1, (t_mixA _).2, t_mixB, (t_mixC
    _).1, (t_mixC _).2, run_append, e4_intmul.get, e4_compress.get]
  kernel_refl

theorem p_mixadd_4w_ok : P25519.mixadd_4w.ok alNone [0] = true := by kernel_refl

theorem p_mixadd_4w : ActsF e4 e4 20 P25519.mixadd_4w Ed25519.mixadd_4w :=
  actsF_of e4_loc e4_loc rfl rfl p_mixadd_4w_ok fun A ρ => by
    have h := t_mix (A, ρ)
    rwa [lk_zero, lk_zero, lk_zero] at h

theorem t_dblA (x : Mem × Regs) :
    let y := run idp P25519.doubling_4wA x
    lk e4 y 1 10 = (lk e4 x 0 0).map (PERM64 · 0xF4) ∧ lk e4 y 0 0 = lk e4 x 0 0 := by
  refine ⟨?_, ?_⟩ <;> kernel_refl

theorem t_dblB (x : Mem × Regs) :
    lk e4 (run idp P25519.doubling_4wB x) 1 0 = (lk e4 x 1 0).zip dbl4w_FHEG CONST_2_to_35P_4w := by
  kernel_refl

theorem t_dblC (x : Mem × Regs) :
    let y := run idp P25519.doubling_4wC x
    lk e4 y 1 10 = (lk e4 x 1 0).map (PERM64 · 0x1E) ∧ lk e4 y 1 0 = lk e4 x 1 0 := by
  refine ⟨?_, ?_⟩ <;> kernel_refl

theorem t_dbl (x : Mem × Regs) : lk e4 (run idp P25519.doubling_4w.body x) 0 0
    = doubling_4w (lk e4 x 0 0) := by
  simp (decide := true) only [P25519.doubling_4w, (t_dblA _).1, (t_dblA _).2, t_dblB, (t_dblC
    _).1, (t_dblC _).2, run_append, e4_intmul.get, e4_compress.get]
  kernel_refl

theorem p_doubling_4w_ok : P25519.doubling_4w.ok alNone [0] = true := by kernel_refl

theorem p_doubling_4w : UpdatesF e4 20 P25519.doubling_4w Ed25519.doubling_4w :=
  updatesF_of e4_loc rfl rfl p_doubling_4w_ok fun A ρ => by
    have h := t_dbl (A, ρ)
    rwa [lk_zero, lk_zero] at h

/-! ## The table of odd multiples -/

/-- What precedes the last step of an entry of the table. -/
def t_pre (P : Elt10 V) : Elt10 V :=
  (P.zip subYX_addYX CONST_2P_00_00_00).zip (BLEND32 · · 0xF0)
    (R4.intmul P CONST_param_curve_1_1_2d_02)

theorem t_A (x : Mem × Regs) :
    let y := run idp P25519.precompute_4wA x
    lk e4 y 2 10 = ((lk e4 x 1 0).zip subYX_addYX CONST_2P_00_00_00).zip (BLEND32 · · 0xF0)
        (lk e4 x 2 10) ∧
      lk e4 y 2 0 = lk e4 x 2 0 ∧ lk e4 y 1 0 = lk e4 x 1 0 := by
  refine ⟨?_, ?_, ?_⟩ <;> kernel_refl

theorem t_B (x : Mem × Regs) :
    let y := run idp P25519.precompute_4wB x
    lk e4 y 0 0 = ((lk e4 x 2 0).zip subYX_addYX CONST_2P_00_00_00).zip (BLEND32 · · 0xF0)
        (lk e4 x 0 0) ∧
      lk e4 y 2 0 = lk e4 x 2 0 ∧ lk e4 y 1 0 = lk e4 x 1 0 ∧
      lk e4 y 2 10 = lk e4 x 2 10 := by
  refine ⟨?_, ?_, ?_, ?_⟩ <;> kernel_refl

theorem t_R (x : Mem × Regs) (j : ℕ) (hj : j < 7) :
    let y := run idp (P25519.precompute_4wR j) x
    lk e4 y 0 (10 + 10 * j)
        = ((lk e4 x 2 0).zip subYX_addYX CONST_2P_00_00_00).zip (BLEND32 · · 0xF0)
          (lk e4 x 0 (10 + 10 * j)) ∧
      lk e4 y 2 0 = lk e4 x 2 0 ∧ lk e4 y 1 0 = lk e4 x 1 0 ∧
      lk e4 y 2 10 = lk e4 x 2 10 ∧
      ∀ k ≤ j, lk e4 y 0 (10 * k) = lk e4 x 0 (10 * k) := by
  interval_cases j <;> refine ⟨?_, ?_, ?_, ?_, ?_⟩
  all_goals first
    | kernel_refl
    | (intro k hk; interval_cases k <;> kernel_refl)

theorem t_const : e4.get (arrCells 
    [1, 1, 0x2b2f159, 2, 0, 0, 0xf3d130, 0, 0, 0, 0x1a6e509, 0, 0, 0, 0x3407977, 0, 0, 0,
      0x22add7a, 0, 0, 0, 0x19ce331, 0, 0, 0, 0xd4141d, 0, 0, 0, 0x1c56dff, 0, 0, 0,
      0x38052, 0, 0, 0, 0x901b67, 0])
    = CONST_param_curve_1_1_2d_02 := by kernel_refl

theorem t_spares : F25519.V4.intmul.body.all (Stmt.spares 2) = true := by decide +kernel

theorem t_L (x : Mem × Regs) (j : ℕ) (hj : j < 7) :
    let y := run idp (P25519.precompute_4wL j) x
    let Q := mixadd_4w (lk e4 x 2 0) (lk e4 x 2 10)
    lk e4 y 2 0 = Q ∧ lk e4 y 1 0 = lk e4 x 1 0 ∧ lk e4 y 2 10 = lk e4 x 2 10 ∧
      lk e4 y 0 (10 + 10 * j) = pre4w Q ∧
      ∀ k ≤ j, lk e4 y 0 (10 * k) = lk e4 x 0 (10 * k) := by
  have sp : ∀ k ≤ j, sep (0, 10 * k) e4.n (0, 10 + 10 * j) e4.n = true := by
    intro k hk
    have h : 10 * k + 10 ≤ 10 + 10 * j := by omega
    simp only [sep, Bool.or_eq_true, decide_eq_true_eq]
    exact Or.inl (Or.inr h)
  have s2 : ∀ i a, sep (2, i) a (0, 10 + 10 * j) e4.n = true := fun _ _ => rfl
  have s1 : ∀ i a, sep (1, i) a (0, 10 + 10 * j) e4.n = true := fun _ _ => rfl
  have e2 : ∀ i, eqsep (0, 10 + 10 * j) (2, i) e4.n = true := fun _ => rfl
  have s3 : ∀ i a b o c, sep (0, i) a (2, o) c = true ∧ sep (0, b) a (2, o) c = true :=
    fun _ _ _ _ _ => ⟨rfl, rfl⟩
  simp only [P25519.precompute_4wL, run_append]
  refine ⟨?_, ?_, ?_, ?_, ?_⟩
  · rw [P25519.precompute_4wS, e4_compress.fr e4_loc (s2 _ _), (t_R _ j hj).2.1,
      P25519.precompute_4wI, e4_intmul.arr_fr e4_loc t_spares (e2 _) (s2 _ _),
      P25519.precompute_4wM, p_mixadd_4w.get rfl rfl rfl]
  · rw [P25519.precompute_4wS, e4_compress.fr e4_loc (s1 _ _), (t_R _ j hj).2.2.1,
      P25519.precompute_4wI, e4_intmul.arr_fr e4_loc t_spares (e2 _) (s1 _ _),
      P25519.precompute_4wM, p_mixadd_4w.fr e4_loc rfl rfl rfl rfl rfl]
  · rw [P25519.precompute_4wS, e4_compress.fr e4_loc (s2 _ _), (t_R _ j hj).2.2.2.1,
      P25519.precompute_4wI, e4_intmul.arr_fr e4_loc t_spares (e2 _) (s2 _ _),
      P25519.precompute_4wM, p_mixadd_4w.fr e4_loc rfl rfl rfl rfl rfl]
  · rw [P25519.precompute_4wS, e4_compress.get, (t_R _ j hj).1,
      P25519.precompute_4wI, e4_intmul.arr e4_loc t_spares (e2 _), t_const,
      e4_intmul.arr_fr e4_loc t_spares (e2 _) (s2 _ _),
      P25519.precompute_4wM, p_mixadd_4w.get rfl rfl rfl]
    rfl
  · intro k hk
    rw [P25519.precompute_4wS, e4_compress.fr e4_loc (sp k hk), (t_R _ j hj).2.2.2.2 k hk,
      P25519.precompute_4wI, e4_intmul.arr_fr e4_loc t_spares (e2 _) (sp k hk),
      P25519.precompute_4wM, p_mixadd_4w.fr e4_loc rfl rfl rfl rfl rfl]

theorem t_loop (x : Mem × Regs) (P : Elt10 V) (h2 : lk e4 x 2 0 = P)
    (hN : lk e4 x 2 10 = pre4w (doubling_4w P)) (h0 : lk e4 x 0 0 = pre4w P) :
    ∀ n ≤ 7,
    let y := run idp ((List.range n).flatMap P25519.precompute_4wL) x
    lk e4 y 2 0 = preIter P n ∧ lk e4 y 1 0 = lk e4 x 1 0 ∧
      lk e4 y 2 10 = lk e4 x 2 10 ∧
      ∀ k ≤ n, lk e4 y 0 (10 * k) = precompute_4w P k := by
  intro n
  induction n with
  | zero =>
    intro _
    refine ⟨h2, rfl, rfl, ?_⟩
    intro k hk
    obtain rfl : k = 0 := by omega
    exact h0
  | succ n ih =>
    intro hn
    obtain ⟨i1, i2, i3, i4⟩ := ih (by omega)
    have hs : (List.range (n + 1)).flatMap P25519.precompute_4wL
        = (List.range n).flatMap P25519.precompute_4wL ++ P25519.precompute_4wL n := by
      rw [List.range_succ, List.flatMap_append, List.flatMap_singleton]
    rw [hs, run_append]
    generalize run idp ((List.range n).flatMap P25519.precompute_4wL) x = z at i1 i2 i3 i4
    obtain ⟨a1, a2, a3, a4, a5⟩ := t_L z n (by omega)
    have hQ : mixadd_4w (lk e4 z 2 0) (lk e4 z 2 10) = preIter P (n + 1) := by
      rw [i1, i3, hN, preIter]
    refine ⟨a1.trans hQ, a2.trans i2, a3.trans i3, ?_⟩
    intro k hk
    by_cases hk' : k = n + 1
    · subst hk'
      rw [show 10 * (n + 1) = 10 + 10 * n by omega, a4, hQ, precompute_4w]
    · rw [a5 k (by omega), i4 k (by omega)]

theorem t_body (x : Mem × Regs) :
    let y := run idp P25519.precompute_4w.body x
    lk tab4w y 0 0 = (List.range 8).map (precompute_4w (lk e4 x 1 0)) ∧
      lk e4 y 1 0 = doubling_4w (lk e4 x 1 0) := by
  have hz : ∀ z : Mem × Regs, lk tab4w z 0 0
      = (List.range 8).map fun j => lk e4 z 0 (10 * j) := fun z => by
    simp only [lk, tab4w, Nat.zero_add]
  have hP : ∃ z, run idp P25519.precompute_4w.body x
        = run idp ((List.range 7).flatMap P25519.precompute_4wL) z ∧
      lk e4 z 2 0 = lk e4 x 1 0 ∧ lk e4 z 1 0 = doubling_4w (lk e4 x 1 0) ∧
      lk e4 z 2 10 = pre4w (doubling_4w (lk e4 x 1 0)) ∧
      lk e4 z 0 0 = pre4w (lk e4 x 1 0) := by
    simp only [P25519.precompute_4w, run_append]
    refine ⟨_, rfl, ?_⟩
    simp (decide := true) only [(t_A _).1, (t_A _).2.1, (t_A _).2.2, (t_B _).1, (t_B _).2.1, (t_B
      _).2.2.1, (t_B _).2.2.2, p_doubling_4w.get, p_doubling_4w.fr e4_loc, e4_intmul.arr e4_loc
      t_spares, e4_intmul.arr_fr e4_loc t_spares, t_const, e4_compress.get, e4_compress.fr e4_loc,
      e4_copy.get, e4_copy.fr e4_loc, id_eq, true_and]
    refine ⟨?_, ?_⟩ <;> kernel_refl
  obtain ⟨z, hz', a1, a2, a3, a4⟩ := hP
  rw [hz']
  obtain ⟨_, c2, _, c4⟩ := t_loop z (lk e4 x 1 0) a1 a3 a4 7 le_rfl
  refine ⟨?_, c2.trans a2⟩
  rw [hz]
  apply List.map_congr_left
  intro k hk
  rw [List.mem_range] at hk
  exact c4 k (by omega)

theorem p_precompute_4w_ok : P25519.precompute_4w.ok alNone [0, 1] = true := by kernel_refl

theorem p_precompute_4w : FillsF tab4w e4 40 P25519.precompute_4w
    (fun P => (List.range 8).map (Ed25519.precompute_4w P)) Ed25519.doubling_4w :=
  fillsF_of tab4w_loc e4_loc rfl rfl p_precompute_4w_ok (fun A ρ => by
    have h := t_body (A, ρ)
    simp only [lk_zero] at h
    exact h)

end Verif.Vec
