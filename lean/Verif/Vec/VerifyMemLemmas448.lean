import Verif.Vec.VerifyMemLemmas

/-! # Verification of Ed448 on memory: helper lemmas -/

namespace Verif.Vec

theorem wnafMem448_spec (a w : ℕ) : ∀ (fuel i : ℕ) (r : Ed448.F8) (K : ℕ → Byte)
    (log : List VAcc), wnafMem448 a w fuel i r K log =
      (fun n => if i ≤ n ∧ n < i + (Ed448.wnafLoop w fuel r).1.length then
          (Ed448.wnafLoop w fuel r).1.getD (n - i) 0#8 else K n,
        log ++ (List.range (Ed448.wnafLoop w fuel r).1.length).map fun j => .wr a (i + j),
        i + (Ed448.wnafLoop w fuel r).1.length, (Ed448.wnafLoop w fuel r).2)
  | 0, i, r, K, log => by
    refine Prod.ext (funext fun n => (if_neg ?_).symm) (Prod.ext ?_ rfl)
    · simp only [Ed448.wnafLoop, List.length_nil]; omega
    · simp [Ed448.wnafLoop, wnafMem448]
  | fuel + 1, i, r, K, log => by
    rw [wnafMem448, Ed448.wnafLoop]
    split_ifs with hz
    · simp only [List.length_nil, Nat.add_zero, List.range_zero, List.map_nil, List.append_nil,
        Prod.mk.injEq, and_true]
      funext n
      rw [if_neg (by omega)]
    · simp only
      rw [wnafMem448_spec a w fuel (i + 1)]
      generalize Ed448.wnafLoop w fuel _ = t
      simp only [List.length_cons, Prod.mk.injEq, List.range_succ_eq_map, List.map_cons,
        List.map_map, List.append_assoc, List.cons_append, List.nil_append, Nat.add_zero,
        Function.comp_def, and_true]
      refine ⟨?_, ?_, by omega⟩
      · funext n
        by_cases hn : n = i
        · subst hn
          simp
        · by_cases h : i + 1 ≤ n ∧ n < i + 1 + t.1.length
          · rw [if_pos h, if_pos (by omega), show n - i = (n - (i + 1)) + 1 by omega]; simp
          · rw [if_neg h, if_neg hn, if_neg (by omega)]
      · simp only [Nat.succ_eq_add_one, Nat.add_assoc, Nat.add_comm 1]

theorem wnafMem448_eq (a w : ℕ) (p : List Byte) (log : List VAcc) :
    wnafMem448 a w 457 0 (Ed448.F8.ofBytes p) (fun _ => 0#8) log =
      (fun n => (Ed448.wnaf_448bits w p).getD n 0#8,
        log ++ (List.range (Ed448.wnaf_448bits w p).length).map (.wr a ·),
        (Ed448.wnaf_448bits w p).length,
        (Ed448.wnafLoop w 457 (Ed448.F8.ofBytes p)).2) := by
  rw [wnafMem448_spec]
  simp only [Nat.zero_le, true_and, Nat.zero_add, Nat.sub_zero, Ed448.wnaf_448bits,
    Prod.mk.injEq, and_true]
  funext n
  split_ifs with h
  · rfl
  · rw [List.getD_eq_default _ _ (by omega)]

theorem two448 (m : Mem) (o : ℕ) : g1.at (putTwo448 m o) (o, 0) = Ed448.two_1w := by
  simp [Lay.at, g1, putTwo448, Ed448.two_1w, Vec4.lo, Vec4.hi, LIT]

theorem verf7_eq (i c : ℕ) (hc : c < 3) : verf7 (21 * i + 7 * c) = Ed448.verfBytes i c := by
  have h : ∀ j < 7, verfWord448 (21 * i + 7 * c + j) = Ed448.verfWord i c j := by
    intro j hj
    rw [verfWord448, Ed448.verfWord, show (21 * i + 7 * c + j) / 168 = i / 8 by omega,
      show (21 * i + 7 * c + j) % 168 = 21 * (i % 8) + 7 * c + j by omega]
  have h0 := h 0 (by decide)
  rw [Nat.add_zero] at h0
  rw [verf7, Ed448.verfBytes, h0, h 1 (by decide), h 2 (by decide), h 3 (by decide),
    h 4 (by decide), h 5 (by decide), h 6 (by decide)]

theorem addStatic448_spec (ρ : ℕ → Regs) (b : ℕ) (k : Byte) (s : VSt) :
    g4.at (addStatic448 ρ b k s).loc (b, 0)
        = Ed448.mixadd_4w (g4.at s.loc (b, 0)) (Ed448.read_point_4w k) ∧
      ∀ o c, o ≠ b → (o < b + 3 ∨ o = b + 8 ∨ o = b + 9 ∨ b + 10 < o) →
        (addStatic448 ρ b k s).loc o c = s.loc o c := by
  unfold addStatic448
  extract_lets p m1 m2 m3 m4 mn mc m5 m'
  have p1 : ∀ o c, o ≠ b + 7 → m1 o c = s.loc o c := fun o c h => by
    simp [m1, putTwo448, h]
  have e7 : g1.at m4 (b + 7, 0) = Ed448.two_1w := by
    rw [← two448 s.loc (b + 7)]
    exact at_obj g1_loc fun c => by
      rw [show m4 _ _ = m3 _ _ from putG1_ne (by simp),
        show m3 _ _ = m2 _ _ from putG1_ne (by simp), show m2 _ _ = m1 _ _ from putG1_ne (by simp)]
  have e6 : g1.at m4 (b + 6, 0) = _ := at_putG1 m3 (b + 6) _
  have e5 : g1.at m4 (b + 5, 0) = _ :=
    (at_obj g1_loc fun c => putG1_ne (by simp)).trans (at_putG1 m2 (b + 5) _)
  have g4' : g1.at m4 (b + 4, 0) = _ :=
    (at_obj g1_loc fun c => putG1_ne (by simp)).trans
      ((at_obj g1_loc fun c => putG1_ne (by simp)).trans (at_putG1 m1 (b + 4) _))
  have p4 : ∀ o c, o < b + 4 ∨ b + 7 < o → m4 o c = s.loc o c := fun o c h => by
    rw [show m4 _ _ = m3 _ _ from putG1_ne (by omega),
      show m3 _ _ = m2 _ _ from putG1_ne (by omega),
      show m2 _ _ = m1 _ _ from putG1_ne (by omega), p1 o c (by omega)]
  rw [show p = 21 * Ed448.absIndex k from rfl] at *
  rw [show 21 * Ed448.absIndex k + 14 = 21 * Ed448.absIndex k + 7 * 2 from rfl,
    verf7_eq _ 2 (by decide)] at e6
  rw [show 21 * Ed448.absIndex k + 7 = 21 * Ed448.absIndex k + 7 * 1 from rfl,
    verf7_eq _ 1 (by decide)] at e5
  rw [show 21 * Ed448.absIndex k = 21 * Ed448.absIndex k + 7 * 0 from rfl,
    verf7_eq _ 0 (by decide)] at g4'
  have h5 : g4.at m5 (b + 3, 0) = Ed448.read_point_4w k ∧
      ∀ o c, o ≠ b + 3 → o ≠ b + 6 → m5 o c = m4 o c := by
    clear_value m4
    simp only [m5]
    unfold Ed448.read_point_4w
    split_ifs with hs
    · obtain ⟨n1, n2⟩ := g1_neg m4 (ρ 0) (b + 6, 0)
      change g1.at mn _ = _ at n1
      change ∀ o c, _ → mn o c = _ at n2
      obtain ⟨c1, c2⟩ := g1_compress mn (ρ 1) (b + 6, 0)
      change g1.at mc _ = _ at c1
      change ∀ o c, _ → mc o c = _ at c2
      clear_value mc mn
      rw [n1, e6] at c1
      have k2 : ∀ o c, o ≠ b + 6 → mc o c = m4 o c := fun o c h =>
        (c2 o c (not_in_obj h)).trans (n2 o c (not_in_obj h))
      obtain ⟨z1, z2⟩ := g4_zip mc (ρ 2) (b + 3, 0) (b + 4, 0) (b + 5, 0)
        (b + 6, 0) (b + 7, 0) (by
          intro P hP
          simp only [List.mem_cons, List.not_mem_nil, or_false] at hP
          rcases hP with rfl | rfl | rfl | rfl <;> exact apart_obj (by simp))
      have q : ∀ o, o ≠ b + 6 → g1.at mc (o, 0) = g1.at m4 (o, 0) := fun o h =>
        at_obj g1_loc fun c => k2 o c h
      rw [c1, q (b + 4) (by simp), q (b + 5) (by simp), q (b + 7) (by simp), g4', e5, e7] at z1
      exact ⟨z1, fun o c h3 h6 => (z2 o c (not_in_obj h3)).trans (k2 o c h6)⟩
    · obtain ⟨z1, z2⟩ := g4_zip m4 (ρ 2) (b + 3, 0) (b + 5, 0) (b + 4, 0)
        (b + 6, 0) (b + 7, 0) (by
          intro P hP
          simp only [List.mem_cons, List.not_mem_nil, or_false] at hP
          rcases hP with rfl | rfl | rfl | rfl <;> exact apart_obj (by simp))
      rw [g4', e5, e6, e7] at z1
      exact ⟨z1, fun o c h3 _ => z2 o c (not_in_obj h3)⟩
  obtain ⟨h5, f5⟩ := h5
  clear_value m5
  obtain ⟨a1, -, a3⟩ := q_mixadd_4w m5 (ρ 3) (b, 0) (b + 3, 0) (b + 10, 0)
    (apart_obj (by simp)) (apart_obj (by simp)) (apart_obj (by simp))
  change g4.at m' _ = _ at a1
  change ∀ o c, _ → _ → m' o c = _ at a3
  clear_value m'
  refine ⟨?_, fun o c ho h => ?_⟩
  · change g4.at m' _ = _
    rw [a1, h5, at_obj g4_loc fun c => (f5 b c (by simp) (by simp)).trans (p4 b c (by simp))]
  · change m' o c = _
    exact (a3 o c (not_in_obj ho) (not_in_obj (by omega))).trans
      ((f5 o c (by omega) (by omega)).trans (p4 o c (by omega)))

theorem addDynamic448_spec (ρ : ℕ → Regs) (b : ℕ) (k : Byte) (s : VSt)
    (T : ℕ → Fp448.Elt16 V) (hT : g4.at s.loc (b + 2, 16 * absDigit k) = T (absDigit k)) :
    g4.at (addDynamic448 ρ b k s).loc (b, 0)
        = Ed448.mixadd_4w (g4.at s.loc (b, 0)) (Ed448.dynPoint T k) ∧
      ∀ o c, o ≠ b → o ≠ b + 8 → o ≠ b + 10 → (addDynamic448 ρ b k s).loc o c = s.loc o c := by
  unfold addDynamic448 Ed448.dynPoint
  extract_lets j mn mc m' P
  change g4.at s.loc (b + 2, 16 * j) = P at hT
  change g4.at m' _ = _ ∧ ∀ o c, _ → _ → _ → m' o c = _
  simp only [m']
  clear_value P
  split_ifs with hs
  · obtain ⟨n1, n2⟩ := g4_ngz s.loc (ρ 0) (b + 8, 0) (b + 2, 16 * j)
      (Or.inr (apart_obj (by simp)))
    change g4.at mn _ = _ at n1
    change ∀ o c, _ → mn o c = _ at n2
    obtain ⟨c1, c2⟩ := g4_compressfast mn (ρ 1) (b + 8, 0)
    change g4.at mc _ = _ at c1
    change ∀ o c, _ → mc o c = _ at c2
    clear_value mc mn
    rw [n1, hT] at c1
    have k2 : ∀ o c, o ≠ b + 8 → mc o c = s.loc o c := fun o c h =>
      (c2 o c (not_in_obj h)).trans (n2 o c (not_in_obj h))
    obtain ⟨a1, -, a3⟩ := q_mixadd_4w mc (ρ 2) (b, 0)
      (b + 8, 0) (b + 10, 0) (apart_obj (by simp)) (apart_obj (by simp)) (apart_obj (by simp))
    have q : g4.at mc (b, 0) = g4.at s.loc (b, 0) := at_obj g4_loc fun c => k2 b c (by simp)
    rw [c1, q] at a1
    exact ⟨a1, fun o c h0 h8 h10 => (a3 o c (not_in_obj h0) (not_in_obj h10)).trans (k2 o c h8)⟩
  · obtain ⟨a1, -, a3⟩ := q_mixadd_4w s.loc (ρ 2) (b, 0) (b + 2, 16 * j) (b + 10, 0)
      (apart_obj (by simp)) (apart_obj (by simp)) (apart_obj (by simp))
    rw [hT] at a1
    exact ⟨a1, fun o c h0 _ h10 => a3 o c (not_in_obj h0) (not_in_obj h10)⟩

theorem dmLoop448_spec (ρ : ℕ → ℕ → Regs) (b : ℕ) (T : ℕ → Fp448.Elt16 V) (kr kh : List Byte)
    (hr : Ed25519.DigitsOk 7 kr) (hh : Ed25519.DigitsOk 5 kh) : ∀ (l : ℕ) (s : VSt),
    (∀ n, s.kr n = kr.getD n 0#8) → (∀ n, s.kh n = kh.getD n 0#8) →
    (∀ j < 8, g4.at s.loc (b + 2, 16 * j) = T j) → l ≤ 460 →
    (∀ a ∈ s.log, a.Inside 460 672 8) →
    g4.at (dmLoop448 ρ b l s).loc (b, 0) = Ed448.dmLoop T kr kh l (g4.at s.loc (b, 0)) ∧
      (∀ o c, o < b ∨ o = b + 2 → (dmLoop448 ρ b l s).loc o c = s.loc o c) ∧
      ∀ a ∈ (dmLoop448 ρ b l s).log, a.Inside 460 672 8
  | 0, s, _, _, _, _, hl => ⟨rfl, fun _ _ _ => rfl, hl⟩
  | i + 1, s, h1, h2, hT, hi, hl => by
    unfold dmLoop448
    extract_lets m1 s1 s2 s3 s4
    obtain ⟨d1, d2⟩ := q_doubling_4w s.loc (ρ i 0) (b, 0) (b + 9, 0) (apart_obj (by simp))
    change g4.at m1 _ = _ at d1
    change ∀ o c, _ → _ → m1 o c = _ at d2
    clear_value m1
    have hs1 : s1.loc = m1 ∧ s1.kr = s.kr ∧ s1.kh = s.kh ∧ ∀ a ∈ s1.log, a.Inside 460 672 8 := by
      refine ⟨rfl, rfl, rfl, fun a ha => ?_⟩
      rcases List.mem_append.1 ha with h | h
      · exact hl a h
      · rw [List.mem_singleton.1 h]; change i < 460; omega
    obtain ⟨l1, r1, k1, g1⟩ := hs1
    have hs2 : g4.at s2.loc (b, 0) = (if kr.getD i 0#8 ≠ 0#8 then Ed448.mixadd_4w
          (g4.at m1 (b, 0)) (Ed448.read_point_4w (kr.getD i 0#8)) else g4.at m1 (b, 0)) ∧
        (∀ o c, o < b ∨ o = b + 2 → s2.loc o c = s.loc o c) ∧
        s2.kr = s.kr ∧ s2.kh = s.kh ∧ ∀ a ∈ s2.log, a.Inside 460 672 8 := by
      simp only [s2]
      rw [r1, h1 i]
      split_ifs with h0
      · obtain ⟨a1, a2⟩ := addStatic448_spec (fun n => ρ i (n + 1)) b (kr.getD i 0#8) s1
        rw [l1] at a1
        refine ⟨a1, fun o c ho => ?_, r1, k1, fun a ha => ?_⟩
        · rw [a2 o c (by omega) (by omega), l1]
          exact d2 o c (not_in_obj (by omega)) (not_in_obj (by omega))
        · have hd := digit7 hr i h0
          rcases List.mem_append.1 ha with h | h
          · exact g1 a h
          · rcases List.mem_append.1 h with h | h
            · rcases List.mem_append.1 h with h | h
              · exact loads_inside (by omega) a h
              · exact loads_inside (by omega) a h
            · exact loads_inside (by omega) a h
      · refine ⟨by rw [l1], fun o c ho => ?_, r1, k1, g1⟩
        rw [l1]
        exact d2 o c (not_in_obj (by omega)) (not_in_obj (by omega))
    obtain ⟨v2, f2, r2, k2, g2⟩ := hs2
    have hs3 : s3.loc = s2.loc ∧ s3.kr = s2.kr ∧ s3.kh = s2.kh ∧
        ∀ a ∈ s3.log, a.Inside 460 672 8 := by
      refine ⟨rfl, rfl, rfl, fun a ha => ?_⟩
      rcases List.mem_append.1 ha with h | h
      · exact g2 a h
      · rw [List.mem_singleton.1 h]; change i < 460; omega
    obtain ⟨l3, r3, k3, g3⟩ := hs3
    replace r3 := r3.trans r2
    replace k3 := k3.trans k2
    have e3 : s3.kh i = kh.getD i 0#8 := (congrFun k3 i).trans (h2 i)
    clear_value s3
    have hs4 : g4.at s4.loc (b, 0) = (if kh.getD i 0#8 ≠ 0#8 then Ed448.mixadd_4w
          (g4.at s2.loc (b, 0)) (Ed448.dynPoint T (kh.getD i 0#8)) else g4.at s2.loc (b, 0)) ∧
        (∀ o c, o < b ∨ o = b + 2 → s4.loc o c = s.loc o c) ∧
        s4.kr = s.kr ∧ s4.kh = s.kh ∧ ∀ a ∈ s4.log, a.Inside 460 672 8 := by
      simp only [s4]
      rw [e3]
      split_ifs with h0
      · have hd := digit5 hh i h0
        obtain ⟨a1, a2⟩ := addDynamic448_spec (fun n => ρ i (n + 5)) b (kh.getD i 0#8) s3 T (by
          rw [l3, ← hT _ hd]
          exact at_obj g4_loc fun c => f2 _ _ (Or.inr rfl))
        rw [l3] at a1
        refine ⟨a1, fun o c ho => ?_, r3, k3, fun a ha => ?_⟩
        · rw [a2 o c (by omega) (by omega) (by omega), l3]
          exact f2 o c ho
        · rcases List.mem_append.1 ha with h | h
          · exact g3 a h
          · rw [List.mem_singleton.1 h]; exact hd
      · refine ⟨by rw [l3], fun o c ho => ?_, r3, k3, g3⟩
        rw [l3]
        exact f2 o c ho
    obtain ⟨v4, f4, r4, k4, g4⟩ := hs4
    clear_value s4
    obtain ⟨i1, i2, i3⟩ := dmLoop448_spec ρ b T kr kh hr hh i s4 (by rw [r4]; exact h1)
      (by rw [k4]; exact h2) (fun j hj => by
        rw [← hT j hj]; exact at_obj g4_loc fun c => f4 _ _ (Or.inr rfl)) (by omega) g4
    refine ⟨?_, fun o c ho => (i2 o c ho).trans (f4 o c ho), i3⟩
    rw [i1, v4, v2, d1]
    rfl

theorem qtab4w_at {m : Mem} {o : ℕ} {f : ℕ → Fp448.Elt16 V}
    (h : qtab4w.at m (o, 0) = (List.range 8).map f) : ∀ j < 8, g4.at m (o, 16 * j) = f j := by
  intro j hj
  have := congrArg (fun l => l[j]?) h
  simp only [Lay.at, qtab4w, List.getElem?_map, List.getElem?_range hj, Option.map_some,
    Option.some.injEq, Nat.zero_add] at this
  exact this

theorem neutral448 {m : Mem} {o : ℕ} (h : g4.at m (o, 0) = ⟨LIT 0, LIT 0, LIT 0, LIT 0,
      LIT 0, LIT 0, LIT 0, LIT 0, LIT 0, LIT 0, LIT 0, LIT 0, LIT 0, LIT 0, LIT 0, LIT 0⟩) :
    g4.at (m.set o 0 (SET64 1 0 1 0)) (o, 0) = Ed448.neutral4w := by
  simp only [Lay.at, g4, Mem.set, Nat.zero_add, Fp448.Elt16.mk.injEq] at h ⊢
  simp only [Ed448.neutral4w, Fp448.Elt16.mk.injEq]
  simp [h]

theorem q2w_at_of {m : Mem} {o : ℕ} {A B : Fp448.Elt8 V}
    (h : (g2.at m (o, 0), g2.at m (o, 8)) = (A, B)) : q2w.at m (o, 0) = ⟨A, B⟩ := by
  obtain ⟨rfl, rfl⟩ := Prod.mk.injEq .. ▸ h
  simp [Lay.at, q2w]

theorem wnafLoop_length448 (w : ℕ) : ∀ (fuel : ℕ) (r : Ed448.F8),
    (Ed448.wnafLoop w fuel r).1.length ≤ fuel
  | 0, _ => by simp [Ed448.wnafLoop]
  | fuel + 1, r => by
    rw [Ed448.wnafLoop]
    split_ifs
    · simp
    · simpa using wnafLoop_length448 w fuel _

theorem double448_spec (u13 u14 v13 v14 : W) (ρ : ℕ → ℕ → Regs) (b : ℕ) (s h : List Byte)
    (A : Place) (hA : A.1 < b) (m : Mem) :
    (double448 u13 u14 v13 v14 ρ b s h A m).2
        = Ed448.double_point_mult_4w u13 u14 v13 v14 s h (g4.at m A) ∧
      g4.at (double448 u13 u14 v13 v14 ρ b s h A m).1.loc A = Ed448.doubling_4w (g4.at m A) ∧
      (∀ o c, o < b → ¬In A 16 o c →
        (double448 u13 u14 v13 v14 ρ b s h A m).1.loc o c = m o c) ∧
      ∀ a ∈ (double448 u13 u14 v13 v14 ρ b s h A m).1.log, a.Inside 460 672 8 := by
  unfold double448 Ed448.double_point_mult_4w Ed448.double_point_mult_pt
  generalize Ed448.div4 u13 u14 s = s
  generalize Ed448.div4 v13 v14 h = h
  simp only
  rw [wnafMem448_eq, List.nil_append]
  simp only
  rw [wnafMem448_eq]
  simp only
  have hr := Ed448.wnaf_digits (w := 7) (by decide) (by decide) s
  have hh := Ed448.wnaf_digits (w := 5) (by decide) (by decide) h
  have lr : (Ed448.wnaf_448bits 7 s).length ≤ 457 := wnafLoop_length448 _ _ _
  have lh : (Ed448.wnaf_448bits 5 h).length ≤ 457 := wnafLoop_length448 _ _ _
  have hl : (if (Ed448.wnaf_448bits 7 s).length > (Ed448.wnaf_448bits 5 h).length
      then (Ed448.wnaf_448bits 7 s).length else (Ed448.wnaf_448bits 5 h).length)
      = max (Ed448.wnaf_448bits 7 s).length (Ed448.wnaf_448bits 5 h).length := by
    split_ifs <;> omega
  rw [hl]
  generalize Ed448.wnaf_448bits 7 s = kr at *
  generalize Ed448.wnaf_448bits 5 h = kh at *
  obtain ⟨a1, a2, a3⟩ := q_precompute_4w m (ρ 457 0) (b + 2, 0) A (b + 11, 0)
    (apart_obj (by simp; omega)) (apart_obj (by simp)) (apart_obj (by simp; omega))
  generalize P448.precompute_4w.call [(b + 2, 0), A, (b + 11, 0)] m (ρ 457 0) = m1 at *
  obtain ⟨z1, z2⟩ := g4_zero m1 (ρ 457 1) (b, 0)
  generalize F448.V4.zero.call [(b, 0)] m1 (ρ 457 1) = m2 at *
  have n3 := neutral448 z1
  have f3 : ∀ o c, o ≠ b → (m2.set b 0 (SET64 1 0 1 0)) o c = m1 o c := fun o c ho =>
    (set_obj ho).trans (z2 o c (not_in_obj ho))
  generalize m2.set b 0 (SET64 1 0 1 0) = m3 at *
  have ht := qtab4w_at a1
  obtain ⟨d1, d2, d3⟩ := dmLoop448_spec ρ b (Ed448.precompute_4w (g4.at m A)) kr kh hr hh
    (max kr.length kh.length) ⟨m3, fun n => kr.getD n 0#8, fun n => kh.getD n 0#8,
      (List.range kr.length).map (.wr 0 ·) ++ (List.range kh.length).map (.wr 1 ·)⟩
    (fun _ => rfl) (fun _ => rfl)
    (fun j hj => (at_obj g4_loc fun c => f3 _ c (by simp)).trans (ht j hj)) (by omega)
    (fun a ha => by
      rcases List.mem_append.1 ha with h | h <;>
      · obtain ⟨i, hi, rfl⟩ := List.mem_map.1 h
        rw [List.mem_range] at hi
        change i < 460
        omega)
  generalize dmLoop448 ρ b (max kr.length kh.length) ⟨m3, fun n => kr.getD n 0#8,
    fun n => kh.getD n 0#8, (List.range kr.length).map (.wr 0 ·) ++
      (List.range kh.length).map (.wr 1 ·)⟩ = st at *
  obtain ⟨u1, u2⟩ := q_unzip_2w st.loc (ρ 457 2) (b + 1, 0) (b + 1, 8) (b, 0)
    (apart_cells (by simp [g2])) (by
      intro P hP
      simp only [List.mem_cons, List.not_mem_nil, or_false] at hP
      rcases hP with rfl | rfl <;> exact apart_obj (by simp))
  generalize P448.unzip_2w.call [(b + 1, 0), (b + 1, 8), (b, 0)] st.loc (ρ 457 2) = m5 at *
  obtain ⟨i1, i2⟩ := q_isogeny_2w m5 (ρ 457 3) (b + 1, 0) (b + 12, 0) (apart_obj (by simp))
  generalize P448.isogeny_2w.call [(b + 1, 0), (b + 12, 0)] m5 (ρ 457 3) = m6 at *
  have f5 : ∀ o c, o < b → m6 o c = m1 o c := fun o c ho =>
    (i2 o c (not_in_obj (by simp; omega)) (not_in_obj (by simp; omega))).trans
    ((u2 o c (not_in_obj (by simp; omega)) (not_in_obj (by simp; omega))).trans
      ((d2 o c (Or.inl ho)).trans (f3 o c (by omega))))
  refine ⟨?_, ?_, fun o c ho hn => ?_, d3⟩
  · rw [i1, q2w_at_of u1, d1, n3]
  · rw [← a2]
    exact at_obj g4_loc fun c => f5 _ c hA
  · exact (f5 o c ho).trans (a3 o c (not_in_obj (by simp; omega)) hn (not_in_obj (by simp; omega)))

theorem verify448_spec (H : List Byte → ℕ → List Byte) (u : ℕ → W) (ρ : ℕ → ℕ → Regs)
    (c : ℕ → Byte) (m : Mem) (message ml context cl public_key signature : ℕ) (phflag : Byte) :
    (verify448 H u ρ c m message ml context cl public_key signature phflag).1
        = Ed448.verify_all H u (bytesAt c message ml) (bytesAt c context cl)
          (bytesAt c public_key 57) (bytesAt c signature 114) phflag ∧
      ∀ a ∈ (verify448 H u ρ c m message ml context cl public_key signature phflag).2,
        a.Inside 460 672 8 := by
  obtain ⟨s1, s2⟩ := bytesAt_split c signature 57 57
  have hc : (bytesAt c context cl).length = cl := by simp [bytesAt]
  have hs : bytesAt c signature 114 = bytesAt c signature (57 + 57) := rfl
  unfold verify448 Ed448.verify_all
  by_cases h1 : cl > 255
  · rw [if_pos h1, if_pos (by rwa [hc])]
    exact ⟨rfl, fun a ha => absurd ha (List.not_mem_nil)⟩
  · rw [if_neg h1, if_neg (by rwa [hc]), hs, s1, s2]
    cases hm : Ed448.msgBytes H (bytesAt c message ml) phflag with
    | none => exact ⟨rfl, fun a ha => absurd ha (List.not_mem_nil)⟩
    | some msg =>
      cases hd : Ed448.point_decoding (bytesAt c public_key 57) with
      | none => exact ⟨rfl, fun a ha => absurd ha (List.not_mem_nil)⟩
      | some A =>
        obtain ⟨A, t⟩ := A
        obtain ⟨d1, -, -, d4⟩ := double448_spec (u 2) (u 3) (u 4) (u 5) ρ 1
          (bytesAt c (signature + 57) 57)
          (Ed448.modular_reduction (u 0) (u 1) (H (Ed448.domBytes (bytesAt c context cl) phflag ++
            bytesAt c signature 57 ++ bytesAt c public_key 57 ++ msg) 114)) (0, 0) (by simp)
          (putG4 m 0 A)
        rw [at_putG4] at d1
        simp only
        generalize double448 _ _ _ _ _ _ _ _ _ _ = D at d1 d4 ⊢
        exact ⟨by rw [d1], d4⟩

end Verif.Vec
