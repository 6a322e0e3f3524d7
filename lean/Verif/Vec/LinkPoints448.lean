import Verif.Vec.Points448
import Verif.Vec.Compose
import Verif.Vec.Link448
import Verif.Ed448.Mult
import Verif.Ed448.DoubleMult

/-!
# The point formulas of edwards448 on memory compute the formulas of the model

The short formulas are evaluated.  In the others each call is replaced by what is known of the
called function. -/

namespace Verif.Vec

open Fp448 Ed448

/-! ## One point over two halves -/

theorem q_doubling_2w_ok : P448.doubling_2w.ok alNone [0] = true := by kernel_refl

theorem q_doubling_2w : UpdatesF q2w 24 P448.doubling_2w Ed448.doubling_2w :=
  updatesF_of q2w_loc rfl rfl q_doubling_2w_ok (fun _ _ => by kernel_refl)

theorem q_mixadd_2w_ok : P448.mixadd_2w.ok alNone [0] = true := by kernel_refl

theorem q_mixadd_2w : ActsF q2w qpre2w 40 P448.mixadd_2w Ed448.mixadd_2w :=
  actsF_of q2w_loc qpre2w_loc rfl rfl q_mixadd_2w_ok (fun _ _ => by kernel_refl)

theorem q_fulladd_2w_ok : P448.fulladd_2w.ok al01 [0] = true := by kernel_refl

theorem q_fulladd_2w : AddsF q2w 40 P448.fulladd_2w Ed448.fulladd_2w :=
  addsF_of q2w_loc rfl rfl q_fulladd_2w_ok (fun _ _ => by kernel_refl)

theorem q_isogeny_2w_ok : P448.isogeny_2w.ok alNone [0] = true := by kernel_refl

theorem q_isogeny_2w : UpdatesF q2w 32 P448.isogeny_2w Ed448.isogeny_2w :=
  updatesF_of q2w_loc rfl rfl q_isogeny_2w_ok (fun _ _ => by kernel_refl)

theorem q_unzip_2w_ok : P448.unzip_2w.ok alNone [0, 1] = true := by kernel_refl

theorem q_unzip_2w : Splits2 g4 g2 P448.unzip_2w
    (fun A => ((Ed448.unzip_2w A).XY, (Ed448.unzip_2w A).TZ)) :=
  splits2_of g2_loc rfl rfl q_unzip_2w_ok (fun _ _ => by kernel_refl)

/-! ## Four points at once -/

theorem q4way_lk (x : Mem × Regs) (k : ℕ) : q4way.get (x.1 k)
    = ⟨lk g4 x k 0, lk g4 x k 16, lk g4 x k 32, lk g4 x k 48⟩ := by
  simp only [lk, q4way, Nat.zero_add]

theorem qpre4way_lk (x : Mem × Regs) (k : ℕ) : qpre4way.get (x.1 k)
    = ⟨lk g4 x k 0, lk g4 x k 16, lk g4 x k 32⟩ := by
  simp only [lk, qpre4way, Nat.zero_add]

theorem u_mix4way (x : Mem × Regs) : q4way.get ((run idp P448.mixadd_4way.body x).1 0)
    = Ed448.mixadd_4way (q4way.get (x.1 0)) (qpre4way.get (x.1 1)) := by
  rw [q4way_lk, q4way_lk, qpre4way_lk]
  simp (decide := true) only [P448.mixadd_4way, run_append, g4_sub.get, g4_sub.fr g4_loc,
    g4_add.get, g4_add.fr g4_loc, g4_intmul.get, g4_intmul.fr g4_loc, g4_compress2.get₁,
    g4_compress2.get₂, g4_compress2.fr g4_loc, g4_addsublar.get₁, g4_addsublar.get₂,
    g4_addsublar.fr g4_loc]
  kernel_refl

theorem q_mixadd_4way_ok : P448.mixadd_4way.ok alNone [0] = true := by kernel_refl

theorem q_mixadd_4way : ActsF q4way qpre4way 64 P448.mixadd_4way Ed448.mixadd_4way :=
  actsF_of q4way_loc qpre4way_loc rfl rfl q_mixadd_4way_ok fun _ _ => u_mix4way _

/-! ## The sum of the four points -/

theorem q2w_lk (x : Mem × Regs) (k o : ℕ) :
    lk q2w x k o = ⟨lk g2 x k o, lk g2 x k (o + 8)⟩ := by
  simp only [lk, q2w, Nat.add_assoc]

theorem u_joinA (x : Mem × Regs) :
    let y := run idp P448.join_pointsA x
    let X := R4.unzip (lk g4 x 1 0)
    let Y := R4.unzip (lk g4 x 1 16)
    let Z := R4.unzip (lk g4 x 1 32)
    let T := R4.unzip (lk g4 x 1 48)
    lk q2w y 0 0 = ⟨R2.inter X.1 Y.1, R2.inter T.1 Z.1⟩ ∧
      lk q2w y 2 64 = ⟨R2.inter X.2.1 Y.2.1, R2.inter T.2.1 Z.2.1⟩ ∧
      lk q2w y 2 80 = ⟨R2.inter X.2.2.1 Y.2.2.1, R2.inter T.2.2.1 Z.2.2.1⟩ ∧
      lk q2w y 2 96 = ⟨R2.inter X.2.2.2 Y.2.2.2, R2.inter T.2.2.2 Z.2.2.2⟩ := by
  simp only [q2w_lk, P448.join_pointsA, run_append, Nat.zero_add, Nat.reduceAdd]
  refine ⟨?_, ?_, ?_, ?_⟩
  all_goals
    simp (decide := true) only [g2_inter.get, g2_inter.fr g2_loc, g2_inter.fr g1_loc,
      g4_unzip.get₁, g4_unzip.get₂, g4_unzip.get₃, g4_unzip.get₄, g4_unzip.fr g4_loc,
      g4_unzip.fr g1_loc]

theorem u_join (x : Mem × Regs) :
    lk q2w (run idp P448.join_points.body x) 0 0 = join_points (lk q4way x 1 0) := by
  change lk q2w (run idp (P448.join_pointsA ++ P448.join_pointsB) x) 0 0 = _
  rw [lk_zero q4way, q4way_lk]
  simp (decide := true) only [P448.join_pointsB, run_append, q_fulladd_2w.get,
    q_fulladd_2w.fr q2w_loc, q_doubling_2w.get, q_doubling_2w.fr q2w_loc, (u_joinA _).1,
    (u_joinA _).2.1, (u_joinA _).2.2.1, (u_joinA _).2.2.2]
  kernel_refl

theorem q_join_points_ok : P448.join_points.ok alNone [0] = true := by kernel_refl

theorem q_join_points : ActsF q2w q4way 152 P448.join_points
    (fun _ Q => Ed448.join_points Q) :=
  actsF_of q2w_loc q4way_loc rfl rfl q_join_points_ok fun A ρ => by
    have h := u_join (A, ρ)
    rwa [lk_zero, lk_zero] at h

/-! ## One point over four lanes -/

theorem u_mixA (x : Mem × Regs) :
    let y := run idp P448.mixadd_4wA x
    let Q := lk g4 x 0 0
    lk g4 y 2 16 = (Q.zip subYX_addYX CONST_2P_00_00_00).zip (BLEND32 · · 0xF0) Q ∧
      lk g4 y 1 0 = lk g4 x 1 0 := by
  refine ⟨?_, ?_⟩ <;> kernel_refl

theorem u_mixB (x : Mem × Regs) :
    lk g4 (run idp P448.mixadd_4wB x) 2 16 = (lk g4 x 2 0).zip mix4w_EGHF CONST_2_to_34P := by
  kernel_refl

theorem u_mixC (x : Mem × Regs) :
    let y := run idp P448.mixadd_4wC x
    lk g4 y 2 0 = (lk g4 x 2 16).map (PERM64 · 0x4B) ∧ lk g4 y 2 16 = lk g4 x 2 16 := by
  refine ⟨?_, ?_⟩ <;> kernel_refl

theorem u_mix (x : Mem × Regs) : lk g4 (run idp P448.mixadd_4w.body x) 0 0
    = mixadd_4w (lk g4 x 0 0) (lk g4 x 1 0) := by
  simp (decide := true) only [P448.mixadd_4w, (u_mixA _).1, (u_mixA _).2, u_mixB, (u_mixC _).1,
    (u_mixC _).2, run_append, g4_intmul.get, g4_compress.get]
  kernel_refl

theorem q_mixadd_4w_ok : P448.mixadd_4w.ok alNone [0] = true := by kernel_refl

theorem q_mixadd_4w : ActsF g4 g4 32 P448.mixadd_4w Ed448.mixadd_4w :=
  actsF_of g4_loc g4_loc rfl rfl q_mixadd_4w_ok fun A ρ => by
    have h := u_mix (A, ρ)
    rwa [lk_zero, lk_zero, lk_zero] at h

theorem u_dblA (x : Mem × Regs) :
    let y := run idp P448.doubling_4wA x
    lk g4 y 1 16 = (lk g4 x 0 0).map (PERM64 · 0xF4) ∧ lk g4 y 0 0 = lk g4 x 0 0 := by
  refine ⟨?_, ?_⟩ <;> kernel_refl

theorem u_dblB (x : Mem × Regs) :
    lk g4 (run idp P448.doubling_4wB x) 1 0 = (lk g4 x 1 0).zip dbl4w_FHEG CONST_2_to_34P := by
  kernel_refl

theorem u_dblC (x : Mem × Regs) :
    let y := run idp P448.doubling_4wC x
    lk g4 y 1 16 = (lk g4 x 1 0).map (PERM64 · 0x1E) ∧ lk g4 y 1 0 = lk g4 x 1 0 := by
  refine ⟨?_, ?_⟩ <;> kernel_refl

theorem u_dbl (x : Mem × Regs) : lk g4 (run idp P448.doubling_4w.body x) 0 0
    = doubling_4w (lk g4 x 0 0) := by
  simp (decide := true) only [P448.doubling_4w, (u_dblA _).1, (u_dblA _).2, u_dblB, (u_dblC
    _).1, (u_dblC _).2, run_append, g4_intmul.get, g4_compress.get]
  kernel_refl

theorem q_doubling_4w_ok : P448.doubling_4w.ok alNone [0] = true := by kernel_refl

theorem q_doubling_4w : UpdatesF g4 32 P448.doubling_4w Ed448.doubling_4w :=
  updatesF_of g4_loc rfl rfl q_doubling_4w_ok fun A ρ => by
    have h := u_dbl (A, ρ)
    rwa [lk_zero, lk_zero] at h

/-! ## The table of odd multiples -/

/-- What precedes the last step of an entry of the table. -/
def u_pre (P : Elt16 V) : Elt16 V :=
  (P.zip subYX_addYX CONST_2P_00_00_00).zip (BLEND32 · · 0xF0)
    (R4.intmul P CONST_param_curve_1_1_2d_02)

theorem u_A (x : Mem × Regs) :
    let y := run idp P448.precompute_4wA x
    lk g4 y 2 16 = ((lk g4 x 1 0).zip subYX_addYX CONST_2P_00_00_00).zip (BLEND32 · · 0xF0)
        (lk g4 x 2 16) ∧
      lk g4 y 2 0 = lk g4 x 2 0 ∧ lk g4 y 1 0 = lk g4 x 1 0 := by
  refine ⟨?_, ?_, ?_⟩ <;> kernel_refl

theorem u_B (x : Mem × Regs) :
    let y := run idp P448.precompute_4wB x
    lk g4 y 0 0 = ((lk g4 x 2 0).zip subYX_addYX CONST_2P_00_00_00).zip (BLEND32 · · 0xF0)
        (lk g4 x 0 0) ∧
      lk g4 y 2 0 = lk g4 x 2 0 ∧ lk g4 y 1 0 = lk g4 x 1 0 ∧
      lk g4 y 2 16 = lk g4 x 2 16 := by
  refine ⟨?_, ?_, ?_, ?_⟩ <;> kernel_refl

theorem u_R (x : Mem × Regs) (j : ℕ) (hj : j < 7) :
    let y := run idp (P448.precompute_4wR j) x
    lk g4 y 0 (16 + 16 * j)
        = ((lk g4 x 2 0).zip subYX_addYX CONST_2P_00_00_00).zip (BLEND32 · · 0xF0)
          (lk g4 x 0 (16 + 16 * j)) ∧
      lk g4 y 2 0 = lk g4 x 2 0 ∧ lk g4 y 1 0 = lk g4 x 1 0 ∧
      lk g4 y 2 16 = lk g4 x 2 16 ∧
      ∀ k ≤ j, lk g4 y 0 (16 * k) = lk g4 x 0 (16 * k) := by
  interval_cases j <;> refine ⟨?_, ?_, ?_, ?_, ?_⟩
  all_goals first
    | kernel_refl
    | (intro k hk; interval_cases k <;> kernel_refl)

theorem u_const : g4.get (arrCells 
    [1, 1, 0xffeceab, 2, 0, 0, 0xffffffe, 0, 0, 0, 0xfffffff, 0, 0, 0, 0xfffffff, 0, 0, 0,
      0xfffffff, 0, 0, 0, 0xfffffff, 0, 0, 0, 0xfffffff, 0, 0, 0, 0xfffffff, 0, 0, 0,
      0xfffffff, 0, 0, 0, 0xfffffff, 0, 0, 0, 0xfffffff, 0, 0, 0, 0xfffffff, 0, 0, 0,
      0xfffffff, 0, 0, 0, 0xfffffff, 0, 0, 0, 0xfffffff, 0, 0, 0, 0xfffffff, 0])
    = CONST_param_curve_1_1_2d_02 := by kernel_refl

theorem u_spares : F448.V4.intmul.body.all (Stmt.spares 2) = true := by decide +kernel

theorem u_L (x : Mem × Regs) (j : ℕ) (hj : j < 7) :
    let y := run idp (P448.precompute_4wL j) x
    let Q := mixadd_4w (lk g4 x 2 0) (lk g4 x 2 16)
    lk g4 y 2 0 = Q ∧ lk g4 y 1 0 = lk g4 x 1 0 ∧ lk g4 y 2 16 = lk g4 x 2 16 ∧
      lk g4 y 0 (16 + 16 * j) = pre4w Q ∧
      ∀ k ≤ j, lk g4 y 0 (16 * k) = lk g4 x 0 (16 * k) := by
  have sp : ∀ k ≤ j, sep (0, 16 * k) g4.n (0, 16 + 16 * j) g4.n = true := by
    intro k hk
    have h : 16 * k + 16 ≤ 16 + 16 * j := by omega
    simp only [sep, Bool.or_eq_true, decide_eq_true_eq]
    exact Or.inl (Or.inr h)
  have s2 : ∀ i a, sep (2, i) a (0, 16 + 16 * j) g4.n = true := fun _ _ => rfl
  have s1 : ∀ i a, sep (1, i) a (0, 16 + 16 * j) g4.n = true := fun _ _ => rfl
  have e2 : ∀ i, eqsep (0, 16 + 16 * j) (2, i) g4.n = true := fun _ => rfl
  have s3 : ∀ i a b o c, sep (0, i) a (2, o) c = true ∧ sep (0, b) a (2, o) c = true :=
    fun _ _ _ _ _ => ⟨rfl, rfl⟩
  simp only [P448.precompute_4wL, run_append]
  refine ⟨?_, ?_, ?_, ?_, ?_⟩
  · rw [P448.precompute_4wS, g4_compress.fr g4_loc (s2 _ _), (u_R _ j hj).2.1,
      P448.precompute_4wI, g4_intmul.arr_fr g4_loc u_spares (e2 _) (s2 _ _),
      P448.precompute_4wM, q_mixadd_4w.get rfl rfl rfl]
  · rw [P448.precompute_4wS, g4_compress.fr g4_loc (s1 _ _), (u_R _ j hj).2.2.1,
      P448.precompute_4wI, g4_intmul.arr_fr g4_loc u_spares (e2 _) (s1 _ _),
      P448.precompute_4wM, q_mixadd_4w.fr g4_loc rfl rfl rfl rfl rfl]
  · rw [P448.precompute_4wS, g4_compress.fr g4_loc (s2 _ _), (u_R _ j hj).2.2.2.1,
      P448.precompute_4wI, g4_intmul.arr_fr g4_loc u_spares (e2 _) (s2 _ _),
      P448.precompute_4wM, q_mixadd_4w.fr g4_loc rfl rfl rfl rfl rfl]
  · rw [P448.precompute_4wS, g4_compress.get, (u_R _ j hj).1,
      P448.precompute_4wI, g4_intmul.arr g4_loc u_spares (e2 _), u_const,
      g4_intmul.arr_fr g4_loc u_spares (e2 _) (s2 _ _),
      P448.precompute_4wM, q_mixadd_4w.get rfl rfl rfl]
    rfl
  · intro k hk
    rw [P448.precompute_4wS, g4_compress.fr g4_loc (sp k hk), (u_R _ j hj).2.2.2.2 k hk,
      P448.precompute_4wI, g4_intmul.arr_fr g4_loc u_spares (e2 _) (sp k hk),
      P448.precompute_4wM, q_mixadd_4w.fr g4_loc rfl rfl rfl rfl rfl]

theorem u_loop (x : Mem × Regs) (P : Elt16 V) (h2 : lk g4 x 2 0 = P)
    (hN : lk g4 x 2 16 = pre4w (doubling_4w P)) (h0 : lk g4 x 0 0 = pre4w P) :
    ∀ n ≤ 7,
    let y := run idp ((List.range n).flatMap P448.precompute_4wL) x
    lk g4 y 2 0 = preIter P n ∧ lk g4 y 1 0 = lk g4 x 1 0 ∧
      lk g4 y 2 16 = lk g4 x 2 16 ∧
      ∀ k ≤ n, lk g4 y 0 (16 * k) = precompute_4w P k := by
  intro n
  induction n with
  | zero =>
    intro _
    refine ⟨h2, rfl, rfl, ?_⟩
    intro k hk
    obtain rfl : k = 0 := by omega
    exact h0
  | succ n ih =>
    intro hn
    obtain ⟨i1, i2, i3, i4⟩ := ih (by omega)
    have hs : (List.range (n + 1)).flatMap P448.precompute_4wL
        = (List.range n).flatMap P448.precompute_4wL ++ P448.precompute_4wL n := by
      rw [List.range_succ, List.flatMap_append, List.flatMap_singleton]
    rw [hs, run_append]
    generalize run idp ((List.range n).flatMap P448.precompute_4wL) x = z at i1 i2 i3 i4
    obtain ⟨a1, a2, a3, a4, a5⟩ := u_L z n (by omega)
    have hQ : mixadd_4w (lk g4 z 2 0) (lk g4 z 2 16) = preIter P (n + 1) := by
      rw [i1, i3, hN, preIter]
    refine ⟨a1.trans hQ, a2.trans i2, a3.trans i3, ?_⟩
    intro k hk
    by_cases hk' : k = n + 1
    · subst hk'
      rw [show 16 * (n + 1) = 16 + 16 * n by omega, a4, hQ, precompute_4w]
    · rw [a5 k (by omega), i4 k (by omega)]

theorem u_body (x : Mem × Regs) :
    let y := run idp P448.precompute_4w.body x
    lk qtab4w y 0 0 = (List.range 8).map (precompute_4w (lk g4 x 1 0)) ∧
      lk g4 y 1 0 = doubling_4w (lk g4 x 1 0) := by
  have hz : ∀ z : Mem × Regs, lk qtab4w z 0 0
      = (List.range 8).map fun j => lk g4 z 0 (16 * j) := fun z => by
    simp only [lk, qtab4w, Nat.zero_add]
  have hP : ∃ z, run idp P448.precompute_4w.body x
        = run idp ((List.range 7).flatMap P448.precompute_4wL) z ∧
      lk g4 z 2 0 = lk g4 x 1 0 ∧ lk g4 z 1 0 = doubling_4w (lk g4 x 1 0) ∧
      lk g4 z 2 16 = pre4w (doubling_4w (lk g4 x 1 0)) ∧
      lk g4 z 0 0 = pre4w (lk g4 x 1 0) := by
    simp only [P448.precompute_4w, run_append]
    refine ⟨_, rfl, ?_⟩
    simp (decide := true) only [(u_A _).1, (u_A _).2.1, (u_A _).2.2, (u_B _).1, (u_B _).2.1, (u_B
      _).2.2.1, (u_B _).2.2.2, q_doubling_4w.get, q_doubling_4w.fr g4_loc, g4_intmul.arr g4_loc
      u_spares, g4_intmul.arr_fr g4_loc u_spares, u_const, g4_compress.get, g4_compress.fr g4_loc,
      g4_copy.get, g4_copy.fr g4_loc, id_eq, true_and]
    refine ⟨?_, ?_⟩ <;> kernel_refl
  obtain ⟨z, hz', a1, a2, a3, a4⟩ := hP
  rw [hz']
  obtain ⟨_, c2, _, c4⟩ := u_loop z (lk g4 x 1 0) a1 a3 a4 7 le_rfl
  refine ⟨?_, c2.trans a2⟩
  rw [hz]
  apply List.map_congr_left
  intro k hk
  rw [List.mem_range] at hk
  exact c4 k (by omega)

theorem q_precompute_4w_ok : P448.precompute_4w.ok alNone [0, 1] = true := by kernel_refl

theorem q_precompute_4w : FillsF qtab4w g4 64 P448.precompute_4w
    (fun P => (List.range 8).map (Ed448.precompute_4w P)) Ed448.doubling_4w :=
  fillsF_of qtab4w_loc g4_loc rfl rfl q_precompute_4w_ok (fun A ρ => by
    have h := u_body (A, ρ)
    simp only [lk_zero] at h
    exact h)

end Verif.Vec
