import Verif.Vec.Query
import Verif.Vec.PointShapes
import Verif.Ed25519.Mult
import Verif.Ed448.Mult

/-!
# The table queries on memory compute the queries of the model -/

namespace Verif.Vec

/-! ## The masks -/

theorem t_masks (x : Mem × Regs) :
    let y := run idp (qLoad ++ (List.range 9).flatMap qMask) x
    y.1 = x.1 ∧ y.2 1 = x.1 1 0 ∧ ∀ i < 9, y.2 (10 + i) = Ed25519.queryMask (x.1 2 0) i := by
  refine ⟨by kernel_refl, by kernel_refl, ?_⟩
  intro i hi
  have h : i = 0 ∨ i = 1 ∨ i = 2 ∨ i = 3 ∨ i = 4 ∨ i = 5 ∨ i = 6 ∨ i = 7 ∨ i = 8 := by omega
  rcases h with rfl | rfl | rfl | rfl | rfl | rfl | rfl | rfl | rfl <;>
    (change (run idp (qLoad ++ (List.range 9).flatMap qMask) x).2 _ = _; kernel_refl)

/-! ## The selection -/

section
variable {entry : ℕ → Ex} {e : ℕ → V} (he : ∀ n rd ρ, (entry n).eval rd ρ = e n)
include he

theorem t_acc {i j : ℕ} (hi : i < 8) (hj : j < 10) (x : Mem × Regs) :
    let y := run idp (qAcc entry j i) x
    y.1 = x.1 ∧
    y.2 (20 + j) = XOR (x.2 (20 + j)) (ANDNOT (x.2 (11 + i)) (e (24 * j + 3 * i))) ∧
    y.2 (30 + j) = XOR (x.2 (30 + j)) (ANDNOT (x.2 (11 + i)) (e (24 * j + 3 * i + 1))) ∧
    y.2 (40 + j) = XOR (x.2 (40 + j)) (ANDNOT (x.2 (11 + i)) (e (24 * j + 3 * i + 2))) ∧
    ∀ n < 50, n ≠ 20 + j → n ≠ 30 + j → n ≠ 40 + j → y.2 n = x.2 n := by
  have a1 : 20 + j ≠ 51 := by omega
  have a2 : 20 + j ≠ 52 := by omega
  have a3 : 20 + j ≠ 53 := by omega
  have b1 : 30 + j ≠ 51 := by omega
  have b2 : 30 + j ≠ 52 := by omega
  have b3 : 30 + j ≠ 53 := by omega
  have c1 : 40 + j ≠ 51 := by omega
  have c2 : 40 + j ≠ 52 := by omega
  have c3 : 40 + j ≠ 53 := by omega
  have d1 : 11 + i ≠ 51 := by omega
  have d2 : 11 + i ≠ 52 := by omega
  have d3 : 11 + i ≠ 53 := by omega
  have d4 : 11 + i ≠ 20 + j := by omega
  have d5 : 11 + i ≠ 30 + j := by omega
  refine ⟨rfl, ?_, ?_, ?_, ?_⟩
  · simp only [run, qAcc, List.foldl, step, Ex.eval, he, Bin.sem, Regs.set]
    simp [a1, a2, a3, d1, d2, d3]
  · simp only [run, qAcc, List.foldl, step, Ex.eval, he, Bin.sem, Regs.set]
    simp [b1, b2, b3, d1, d2, d3, d4, a2.symm]
  · simp only [run, qAcc, List.foldl, step, Ex.eval, he, Bin.sem, Regs.set]
    simp [c1, c2, c3, d1, d2, d3, d4, d5, a3.symm, b3.symm]
  · intro n hn h1 h2 h3
    have f1 : n ≠ 51 := by omega
    have f2 : n ≠ 52 := by omega
    have f3 : n ≠ 53 := by omega
    simp only [run, qAcc, List.foldl, step, Regs.set, f1, f2, f3, h1, h2, h3, if_false]

/-- One accumulator after `k` iterations. -/
def selUpTo (e : ℕ → V) (ρ : Regs) (c j k : ℕ) : V :=
  (List.range k).foldl (fun acc i => XOR acc (ANDNOT (ρ (11 + i)) (e (24 * j + 3 * i + c)))) (LIT 0)

omit he in
theorem selUpTo_succ (e : ℕ → V) (ρ : Regs) (c j k : ℕ) : selUpTo e ρ c j (k + 1)
    = XOR (selUpTo e ρ c j k) (ANDNOT (ρ (11 + k)) (e (24 * j + 3 * k + c))) := by
  simp only [selUpTo, List.range_succ, List.foldl_append, List.foldl]

theorem t_accs {j : ℕ} (hj : j < 10) (x : Mem × Regs) (h0 : x.2 (20 + j) = LIT 0)
    (h1 : x.2 (30 + j) = LIT 0) (h2 : x.2 (40 + j) = LIT 0) : ∀ k ≤ 8,
    let y := run idp ((List.range k).flatMap (qAcc entry j)) x
    y.1 = x.1 ∧ y.2 (20 + j) = selUpTo e x.2 0 j k ∧ y.2 (30 + j) = selUpTo e x.2 1 j k ∧
      y.2 (40 + j) = selUpTo e x.2 2 j k ∧
      ∀ n < 50, n ≠ 20 + j → n ≠ 30 + j → n ≠ 40 + j → y.2 n = x.2 n := by
  intro k
  induction k with
  | zero => intro _; exact ⟨rfl, h0, h1, h2, fun _ _ _ _ _ => rfl⟩
  | succ k ih =>
    intro hk
    obtain ⟨i0, i1, i2, i3, i4⟩ := ih (by omega)
    obtain ⟨j0, j1, j2, j3, j4⟩ := t_acc he (i := k) (by omega) hj
      (run idp ((List.range k).flatMap (qAcc entry j)) x)
    have hr : run idp ((List.range (k + 1)).flatMap (qAcc entry j)) x
        = run idp (qAcc entry j k) (run idp ((List.range k).flatMap (qAcc entry j)) x) := by
      rw [List.range_succ, List.flatMap_append, run_append]
      simp only [List.flatMap_cons, List.flatMap_nil, List.append_nil]
    rw [hr]
    have hm := i4 (11 + k) (by omega) (by omega) (by omega) (by omega)
    refine ⟨j0.trans i0, ?_, ?_, ?_, ?_⟩
    · rw [j1, i1, hm, selUpTo_succ]; rfl
    · rw [j2, i2, hm, selUpTo_succ]
    · rw [j3, i3, hm, selUpTo_succ]
    · intro n hn a b c
      rw [j4 n hn a b c, i4 n hn a b c]

theorem t_sel {j : ℕ} (hj : j < 10) (x : Mem × Regs) :
    let y := run idp (qSel entry j) x
    y.1 = x.1 ∧ y.2 (20 + j) = selUpTo e x.2 0 j 8 ∧ y.2 (30 + j) = selUpTo e x.2 1 j 8 ∧
      y.2 (40 + j) = selUpTo e x.2 2 j 8 ∧
      ∀ n < 50, n ≠ 20 + j → n ≠ 30 + j → n ≠ 40 + j → y.2 n = x.2 n := by
  have hz : lit4 0 0 0 0 = LIT 0 := rfl
  let x' : Mem × Regs := run idp [.set (20 + j) (.lit 0 0 0 0), .set (30 + j) (.lit 0 0 0 0),
    .set (40 + j) (.lit 0 0 0 0)] x
  have hx : ∀ n < 50, n ≠ 20 + j → n ≠ 30 + j → n ≠ 40 + j → x'.2 n = x.2 n := by
    intro n _ a b c
    simp only [x', run, List.foldl, step, Regs.set, a, b, c, if_false]
  obtain ⟨i0, i1, i2, i3, i4⟩ := t_accs he hj x'
    (by simp [x', run, step, Regs.set, Ex.eval, hz])
    (by simp [x', run, step, Regs.set, Ex.eval, hz])
    (by simp [x', run, step, Regs.set, Ex.eval, hz]) 8 (le_refl _)
  have hs : ∀ c, selUpTo e x'.2 c j 8 = selUpTo e x.2 c j 8 := by
    intro c
    unfold selUpTo
    refine List.foldl_ext _ _ _ fun a i hi => ?_
    have hi := List.mem_range.1 hi
    rw [hx (11 + i) (by omega) (by omega) (by omega) (by omega)]
  have hr : run idp (qSel entry j) x = run idp ((List.range 8).flatMap (qAcc entry j)) x' := by
    rw [qSel, run_append]
  rw [hr]
  refine ⟨i0.trans rfl, i1.trans (hs 0), i2.trans (hs 1), i3.trans (hs 2), ?_⟩
  intro n hn a b c
  rw [i4 n hn a b c, hx n hn a b c]

theorem t_sels (x : Mem × Regs) : ∀ k ≤ 10,
    let y := run idp ((List.range k).flatMap (qSel entry)) x
    y.1 = x.1 ∧ (∀ j < k, y.2 (20 + j) = selUpTo e x.2 0 j 8 ∧
      y.2 (30 + j) = selUpTo e x.2 1 j 8 ∧ y.2 (40 + j) = selUpTo e x.2 2 j 8) ∧
      ∀ n < 20, y.2 n = x.2 n := by
  intro k
  induction k with
  | zero => intro _; exact ⟨rfl, fun j hj => absurd hj (by omega), fun _ _ => rfl⟩
  | succ k ih =>
    intro hk
    obtain ⟨i0, i1, i2⟩ := ih (by omega)
    obtain ⟨j0, j1, j2, j3, j4⟩ := t_sel he (j := k) (by omega)
      (run idp ((List.range k).flatMap (qSel entry)) x)
    have hr : run idp ((List.range (k + 1)).flatMap (qSel entry)) x
        = run idp (qSel entry k) (run idp ((List.range k).flatMap (qSel entry)) x) := by
      rw [List.range_succ, List.flatMap_append, run_append]
      simp only [List.flatMap_cons, List.flatMap_nil, List.append_nil]
    have hs : ∀ c, selUpTo e (run idp ((List.range k).flatMap (qSel entry)) x).2 c k 8
        = selUpTo e x.2 c k 8 := by
      intro c
      unfold selUpTo
      refine List.foldl_ext _ _ _ fun a i hi => ?_
      have hi := List.mem_range.1 hi
      rw [i2 (11 + i) (by omega)]
    rw [hr]
    refine ⟨j0.trans i0, ?_, ?_⟩
    · intro j hj
      rcases Nat.lt_or_eq_of_le (Nat.lt_succ_iff.1 hj) with h | rfl
      · obtain ⟨a, b, c⟩ := i1 j h
        exact ⟨(j4 _ (by omega) (by omega) (by omega) (by omega)).trans a,
          (j4 _ (by omega) (by omega) (by omega) (by omega)).trans b,
          (j4 _ (by omega) (by omega) (by omega) (by omega)).trans c⟩
      · exact ⟨j1.trans (hs 0), j2.trans (hs 1), j3.trans (hs 2)⟩
    · intro n hn
      rw [j4 n (by omega) (by omega) (by omega) (by omega), i2 n hn]

/-- The registers after the masks and the selection. -/
theorem t_select {k : ℕ} (hk : k ≤ 10) (x : Mem × Regs) :
    let y := run idp ((List.range k).flatMap (qSel entry))
      (run idp (qLoad ++ (List.range 9).flatMap qMask) x)
    let sel (c j : ℕ) : V := (List.range 8).foldl (fun acc i => XOR acc
      (ANDNOT (Ed25519.queryMask (x.1 2 0) (i + 1)) (e (24 * j + 3 * i + c)))) (LIT 0)
    y.1 = x.1 ∧ y.2 1 = x.1 1 0 ∧ y.2 10 = Ed25519.queryMask (x.1 2 0) 0 ∧
      ∀ j < k, y.2 (20 + j) = sel 0 j ∧ y.2 (30 + j) = sel 1 j ∧ y.2 (40 + j) = sel 2 j := by
  obtain ⟨m0, m1, m2⟩ := t_masks x
  obtain ⟨s0, s1, s2⟩ := t_sels he (run idp (qLoad ++ (List.range 9).flatMap qMask) x) k hk
  have hs : ∀ c j, selUpTo e (run idp (qLoad ++ (List.range 9).flatMap qMask) x).2 c j 8
      = (List.range 8).foldl (fun acc i => XOR acc
      (ANDNOT (Ed25519.queryMask (x.1 2 0) (i + 1)) (e (24 * j + 3 * i + c)))) (LIT 0) := by
    intro c j
    unfold selUpTo
    refine List.foldl_ext _ _ _ fun a i hi => ?_
    have hi := List.mem_range.1 hi
    rw [show 11 + i = 10 + (i + 1) by omega, m2 (i + 1) (by omega)]
  refine ⟨s0.trans m0, (s2 1 (by decide)).trans m1, (s2 10 (by decide)).trans
    (m2 0 (by decide)), ?_⟩
  intro j hj
  obtain ⟨a, b, c⟩ := s1 j hj
  exact ⟨a.trans (hs 0 j), b.trans (hs 1 j), c.trans (hs 2 j)⟩

end

/-! ## The rest of the query of Ed25519 -/

/-- `query_table` from the selected words. -/
def fin25519 (signs m0 : V) (a s d : ℕ → V) : Ed25519.Pre4way V :=
  let A (j : ℕ) : V := if j = 0 then XOR (a j) (ANDNOT m0 (XOR (a j) (LIT 1))) else a j
  let S (j : ℕ) : V := if j = 0 then XOR (s j) (ANDNOT m0 (XOR (s j) (LIT 1))) else s j
  let swap (j : ℕ) : V := AND (XOR (A j) (S j)) signs
  { addYX := Ed25519.str_bytes XOR fun j => XOR (A j) (swap j)
    subYX := Ed25519.str_bytes XOR fun j => XOR (S j) (swap j)
    dYX := (Ed25519.str_bytes XOR d).zip (fun x p => ADD (XOR x signs) (SUB p signs)) Ed25519.queryP }

theorem t_fin_eq (signs digits : V) (idx : ℕ) : Ed25519.query_table signs digits idx
    = fin25519 signs (Ed25519.queryMask digits 0) (Ed25519.querySel digits idx 0)
        (Ed25519.querySel digits idx 1) (Ed25519.querySel digits idx 2) := rfl

theorem fin25519_congr {signs signs' m0 m0' : V} {a a' s s' d d' : ℕ → V} (h1 : signs = signs')
    (h2 : m0 = m0') (ha : ∀ j < 4, a j = a' j) (hs : ∀ j < 4, s j = s' j)
    (hd : ∀ j < 4, d j = d' j) : fin25519 signs m0 a s d = fin25519 signs' m0' a' s' d' := by
  subst h1 h2
  simp (decide := true) only [fin25519, Ed25519.str_bytes, ha, hs, hd]

theorem t_finish (x : Mem × Regs) :
    pre4way.get ((run idp queryTail25519 x).1 0)
      = fin25519 (x.2 1) (x.2 10) (fun j => x.2 (20 + j)) (fun j => x.2 (30 + j))
          (fun j => x.2 (40 + j)) := by
  kernel_refl

theorem t_query (idx : ℕ) (x : Mem × Regs) :
    pre4way.get ((run idp (query25519 idx).body x).1 0)
      = Ed25519.query_table (x.1 1 0) (x.1 2 0) idx := by
  have hb : (query25519 idx).body = (qLoad ++ (List.range 9).flatMap qMask) ++
      (List.range 4).flatMap (qSel (entry25519 idx)) ++ queryTail25519 := by
    simp only [query25519, List.append_assoc]
  obtain ⟨-, s1, s2, s3⟩ := t_select (entry := entry25519 idx) (e := Ed25519.signEntry idx)
    (fun _ _ _ => rfl) (k := 4) (by decide) x
  rw [hb, run_append, run_append, t_finish, t_fin_eq]
  exact fin25519_congr s1 s2 (fun j hj => (s3 j hj).1) (fun j hj => (s3 j hj).2.1)
    (fun j hj => (s3 j hj).2.2)

theorem t_query_ok (idx : ℕ) : (query25519 idx).ok alNone [0] = true := by
  kernel_refl

/-! ## The rest of the query of Ed448 -/

/-- `query_table` from the selected words. -/
def fin448 (signs m0 : V) (a s d : ℕ → V) : Ed448.Pre4way V :=
  let A (j : ℕ) : V := if j = 0 then XOR (a j) (ANDNOT m0 (XOR (a j) (LIT 1))) else a j
  let S (j : ℕ) : V := if j = 0 then XOR (s j) (ANDNOT m0 (XOR (s j) (LIT 1))) else s j
  let swap (j : ℕ) : V := AND (XOR (A j) (S j)) signs
  { addYX := Ed448.ofWords7 fun j => XOR (A j) (swap j)
    subYX := Ed448.ofWords7 fun j => XOR (S j) (swap j)
    dYX := (Ed448.ofWords7 d).zip (fun x p => ADD (XOR x signs) (SUB p signs)) Ed448.queryP }

theorem u_fin_eq (signs digits : V) (idx : ℕ) : Ed448.query_table signs digits idx
    = fin448 signs (Ed448.queryMask digits 0) (Ed448.querySel digits idx 0)
        (Ed448.querySel digits idx 1) (Ed448.querySel digits idx 2) := rfl

theorem fin448_congr {signs signs' m0 m0' : V} {a a' s s' d d' : ℕ → V} (h1 : signs = signs')
    (h2 : m0 = m0') (ha : ∀ j < 7, a j = a' j) (hs : ∀ j < 7, s j = s' j)
    (hd : ∀ j < 7, d j = d' j) : fin448 signs m0 a s d = fin448 signs' m0' a' s' d' := by
  subst h1 h2
  simp (decide := true) only [fin448, Ed448.ofWords7, ha, hs, hd]

theorem u_finish (x : Mem × Regs) :
    qpre4way.get ((run idp queryTail448 x).1 0)
      = fin448 (x.2 1) (x.2 10) (fun j => x.2 (20 + j)) (fun j => x.2 (30 + j))
          (fun j => x.2 (40 + j)) := by
  kernel_refl

theorem u_query (idx : ℕ) (x : Mem × Regs) :
    qpre4way.get ((run idp (query448 idx).body x).1 0)
      = Ed448.query_table (x.1 1 0) (x.1 2 0) idx := by
  have hb : (query448 idx).body = (qLoad ++ (List.range 9).flatMap qMask) ++
      (List.range 7).flatMap (qSel (entry448 idx)) ++ queryTail448 := by
    simp only [query448, List.append_assoc]
  obtain ⟨-, s1, s2, s3⟩ := t_select (entry := entry448 idx) (e := Ed448.signEntry idx)
    (fun _ _ _ => rfl) (k := 7) (by decide) x
  rw [hb, run_append, run_append, u_finish, u_fin_eq]
  exact fin448_congr s1 s2 (fun j hj => (s3 j hj).1) (fun j hj => (s3 j hj).2.1)
    (fun j hj => (s3 j hj).2.2)

theorem u_query_ok (idx : ℕ) : (query448 idx).ok alNone [0] = true := by
  kernel_refl

end Verif.Vec
