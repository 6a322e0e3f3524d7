import Verif.Vec.VerifyMem
import Verif.Vec.MultMemLemmas
import Verif.Ed25519.DoubleMultLemmas
import Verif.Ed448.DoubleMultLemmas

/-!
# Lemmas about signature verification on memory -/

namespace Verif.Vec

/-! ## Common lemmas -/

theorem putE1_obj {m : Mem} {o o' c : ℕ} {e : Fp25519.Elt5 U} (h : o' ≠ o) :
    putE1 m o e o' c = m o' c := by
  rw [putE1, set_obj h, set_obj h, set_obj h]

theorem putG1_ne {m : Mem} {o o' c : ℕ} {e : Fp448.Elt8 U} (h : o' ≠ o) :
    putG1 m o e o' c = m o' c := by
  rw [putG1, set_obj h, set_obj h, set_obj h, set_obj h]

theorem at_putE4 (m : Mem) (o : ℕ) (e : Fp25519.Elt10 V) : e4.at (putE4 m o e) (o, 0) = e := by
  simp [Lay.at, e4, putE4]

theorem at_putG4 (m : Mem) (o : ℕ) (e : Fp448.Elt16 V) : g4.at (putG4 m o e) (o, 0) = e := by
  simp [Lay.at, g4, putG4]

theorem loads_inside {n k words digits entries : ℕ} (h : n + k ≤ words) :
    ∀ a ∈ loads n k, a.Inside digits words entries := by
  intro a ha
  simp only [loads, List.mem_map, List.mem_range] at ha
  obtain ⟨i, hi, rfl⟩ := ha
  simp only [VAcc.Inside]
  omega

/-! ## Ed25519 -/

theorem wnafMem25519_spec (a w : ℕ) : ∀ (fuel i : ℕ) (r : Fp25519.F4) (K : ℕ → Byte)
    (log : List VAcc), wnafMem25519 a w fuel i r K log =
      (fun n => if i ≤ n ∧ n < i + (Ed25519.wnafLoop w fuel r).1.length then
          (Ed25519.wnafLoop w fuel r).1.getD (n - i) 0#8 else K n,
        log ++ (List.range (Ed25519.wnafLoop w fuel r).1.length).map fun j => .wr a (i + j),
        i + (Ed25519.wnafLoop w fuel r).1.length, (Ed25519.wnafLoop w fuel r).2)
  | 0, i, r, K, log => by
    refine Prod.ext (funext fun n => (if_neg ?_).symm) (Prod.ext ?_ rfl)
    · simp only [Ed25519.wnafLoop, List.length_nil]; omega
    · simp [Ed25519.wnafLoop, wnafMem25519]
  | fuel + 1, i, r, K, log => by
    rw [wnafMem25519, Ed25519.wnafLoop]
    split_ifs with hz
    · simp only [List.length_nil, Nat.add_zero, List.range_zero, List.map_nil, List.append_nil,
        Prod.mk.injEq, and_true]
      funext n
      rw [if_neg (by omega)]
    · simp only
      rw [wnafMem25519_spec a w fuel (i + 1)]
      generalize Ed25519.wnafLoop w fuel _ = t
      simp only [List.length_cons, Prod.mk.injEq, List.range_succ_eq_map, List.map_cons,
        List.map_map, List.append_assoc, List.cons_append, List.nil_append, Nat.add_zero,
        Function.comp_def, and_true]
      refine ⟨?_, ?_, by omega⟩
      · funext n
        by_cases hn : n = i
        · subst hn
          simp
        · by_cases h : i + 1 ≤ n ∧ n < i + 1 + t.1.length
          · rw [if_pos h, if_pos (by omega), show n - i = (n - (i + 1)) + 1 by omega]; simp
          · rw [if_neg h, if_neg hn, if_neg (by omega)]
      · simp only [Nat.succ_eq_add_one, Nat.add_assoc, Nat.add_comm 1]

theorem wnafMem25519_eq (a w : ℕ) (p : List Byte) (log : List VAcc) :
    wnafMem25519 a w 257 0 (Fp25519.F4.ofBytes p) (fun _ => 0#8) log =
      (fun n => (Ed25519.wnaf_256bits w p).getD n 0#8,
        log ++ (List.range (Ed25519.wnaf_256bits w p).length).map (.wr a ·),
        (Ed25519.wnaf_256bits w p).length,
        (Ed25519.wnafLoop w 257 (Fp25519.F4.ofBytes p)).2) := by
  rw [wnafMem25519_spec]
  simp only [Nat.zero_le, true_and, Nat.zero_add, Nat.sub_zero, Ed25519.wnaf_256bits,
    Prod.mk.injEq, and_true]
  funext n
  split_ifs with h
  · rfl
  · rw [List.getD_eq_default _ _ (by omega)]

theorem verf4_eq (i c : ℕ) (hc : c < 3) : verf4 (12 * i + 4 * c) = Ed25519.verfF i c := by
  have h : ∀ j < 4, verfWord25519 (12 * i + 4 * c + j)
      = BitVec.ofNat 64 ((Ed25519.tableVerf (i / 8)).getD (12 * (i % 8) + 4 * c + j) 0) := by
    intro j hj
    rw [verfWord25519, show (12 * i + 4 * c + j) / 96 = i / 8 by omega,
      show (12 * i + 4 * c + j) % 96 = 12 * (i % 8) + 4 * c + j by omega]
  have h0 := h 0 (by decide)
  have h1 := h 1 (by decide)
  have h2 := h 2 (by decide)
  have h3 := h 3 (by decide)
  simp only [Nat.add_zero] at h0
  simp only [verf4, Ed25519.verfF, Nat.add_zero, h0, h1, h2, h3]

theorem two25519 (m : Mem) (o : ℕ) : e1.at (putTwo25519 m o) (o, 0) = Ed25519.two_1w := by
  simp [Lay.at, e1, putTwo25519, Ed25519.two_1w, Vec4.lo, Vec4.hi, LIT]

theorem addStatic25519_spec (ρ : ℕ → Regs) (b : ℕ) (k : Byte) (s : VSt) :
    e4.at (addStatic25519 ρ b k s).loc (b, 0)
        = Ed25519.mixadd_4w (e4.at s.loc (b, 0)) (Ed25519.read_point_4w k) ∧
      ∀ o c, o ≠ b → (o < b + 3 ∨ o = b + 8 ∨ o = b + 9 ∨ b + 10 < o) →
        (addStatic25519 ρ b k s).loc o c = s.loc o c := by
  unfold addStatic25519
  extract_lets p m1 m2 m3 m4 mn mc m5 m'
  have p1 : ∀ o c, o ≠ b + 7 → m1 o c = s.loc o c := fun o c h => by
    simp [m1, putTwo25519, h]
  have e7 : e1.at m4 (b + 7, 0) = Ed25519.two_1w := by
    rw [← two25519 s.loc (b + 7)]
    exact at_obj e1_loc fun c => by
      rw [show m4 _ _ = m3 _ _ from putE1_obj (by simp),
        show m3 _ _ = m2 _ _ from putE1_obj (by simp), show m2 _ _ = m1 _ _ from putE1_obj (by simp)]
  have e6 : e1.at m4 (b + 6, 0) = _ := at_putE1 m3 (b + 6) _
  have e5 : e1.at m4 (b + 5, 0) = _ :=
    (at_obj e1_loc fun c => putE1_obj (by simp)).trans (at_putE1 m2 (b + 5) _)
  have e4' : e1.at m4 (b + 4, 0) = _ :=
    (at_obj e1_loc fun c => putE1_obj (by simp)).trans
      ((at_obj e1_loc fun c => putE1_obj (by simp)).trans (at_putE1 m1 (b + 4) _))
  have p4 : ∀ o c, o < b + 4 ∨ b + 7 < o → m4 o c = s.loc o c := fun o c h => by
    rw [show m4 _ _ = m3 _ _ from putE1_obj (by omega),
      show m3 _ _ = m2 _ _ from putE1_obj (by omega),
      show m2 _ _ = m1 _ _ from putE1_obj (by omega), p1 o c (by omega)]
  rw [show p = 12 * Ed25519.absIndex k from rfl] at *
  rw [show 12 * Ed25519.absIndex k + 8 = 12 * Ed25519.absIndex k + 4 * 2 from rfl,
    verf4_eq _ 2 (by decide)] at e6
  rw [show 12 * Ed25519.absIndex k + 4 = 12 * Ed25519.absIndex k + 4 * 1 from rfl,
    verf4_eq _ 1 (by decide)] at e5
  rw [show 12 * Ed25519.absIndex k = 12 * Ed25519.absIndex k + 4 * 0 from rfl,
    verf4_eq _ 0 (by decide)] at e4'
  have h5 : e4.at m5 (b + 3, 0) = Ed25519.read_point_4w k ∧
      ∀ o c, o ≠ b + 3 → o ≠ b + 6 → m5 o c = m4 o c := by
    clear_value m4
    simp only [m5]
    unfold Ed25519.read_point_4w
    split_ifs with hs
    · obtain ⟨n1, n2⟩ := e1_neg m4 (ρ 0) (b + 6, 0)
      change e1.at mn _ = _ at n1
      change ∀ o c, _ → mn o c = _ at n2
      obtain ⟨c1, c2⟩ := e1_compress mn (ρ 1) (b + 6, 0)
      change e1.at mc _ = _ at c1
      change ∀ o c, _ → mc o c = _ at c2
      clear_value mc mn
      rw [n1, e6] at c1
      have k2 : ∀ o c, o ≠ b + 6 → mc o c = m4 o c := fun o c h =>
        (c2 o c (not_in_obj h)).trans (n2 o c (not_in_obj h))
      obtain ⟨z1, z2⟩ := e4_zip mc (ρ 2) (b + 3, 0) (b + 4, 0) (b + 5, 0)
        (b + 6, 0) (b + 7, 0) (by
          intro P hP
          simp only [List.mem_cons, List.not_mem_nil, or_false] at hP
          rcases hP with rfl | rfl | rfl | rfl <;> exact apart_obj (by simp))
      have q : ∀ o, o ≠ b + 6 → e1.at mc (o, 0) = e1.at m4 (o, 0) := fun o h =>
        at_obj e1_loc fun c => k2 o c h
      rw [c1, q (b + 4) (by simp), q (b + 5) (by simp), q (b + 7) (by simp), e4', e5, e7] at z1
      exact ⟨z1, fun o c h3 h6 => (z2 o c (not_in_obj h3)).trans (k2 o c h6)⟩
    · obtain ⟨z1, z2⟩ := e4_zip m4 (ρ 2) (b + 3, 0) (b + 5, 0) (b + 4, 0)
        (b + 6, 0) (b + 7, 0) (by
          intro P hP
          simp only [List.mem_cons, List.not_mem_nil, or_false] at hP
          rcases hP with rfl | rfl | rfl | rfl <;> exact apart_obj (by simp))
      rw [e4', e5, e6, e7] at z1
      exact ⟨z1, fun o c h3 _ => z2 o c (not_in_obj h3)⟩
  obtain ⟨h5, f5⟩ := h5
  clear_value m5
  obtain ⟨a1, -, a3⟩ := p_mixadd_4w m5 (ρ 3) (b, 0) (b + 3, 0) (b + 10, 0)
    (apart_obj (by simp)) (apart_obj (by simp)) (apart_obj (by simp))
  refine ⟨?_, fun o c ho h => ?_⟩
  · change e4.at m' _ = _
    rw [a1, h5, at_obj e4_loc fun c => (f5 b c (by simp) (by simp)).trans (p4 b c (by simp))]
  · change m' o c = _
    exact (a3 o c (not_in_obj ho) (not_in_obj (by omega))).trans
      ((f5 o c (by omega) (by omega)).trans (p4 o c (by omega)))

theorem addDynamic25519_spec (ρ : ℕ → Regs) (b : ℕ) (k : Byte) (s : VSt)
    (T : ℕ → Fp25519.Elt10 V) (hT : e4.at s.loc (b + 2, 10 * absDigit k) = T (absDigit k)) :
    e4.at (addDynamic25519 ρ b k s).loc (b, 0)
        = Ed25519.mixadd_4w (e4.at s.loc (b, 0)) (Ed25519.dynPoint T k) ∧
      ∀ o c, o ≠ b → o ≠ b + 8 → o ≠ b + 10 → (addDynamic25519 ρ b k s).loc o c = s.loc o c := by
  unfold addDynamic25519 Ed25519.dynPoint
  extract_lets j mn mc m' P
  change e4.at s.loc (b + 2, 10 * j) = P at hT
  change e4.at m' _ = _ ∧ ∀ o c, _ → _ → _ → m' o c = _
  simp only [m']
  clear_value P
  split_ifs with hs
  · obtain ⟨n1, n2⟩ := e4_ngz s.loc (ρ 0) (b + 8, 0) (b + 2, 10 * j)
      (Or.inr (apart_obj (by simp)))
    change e4.at mn _ = _ at n1
    change ∀ o c, _ → mn o c = _ at n2
    obtain ⟨c1, c2⟩ := e4_compressfast mn (ρ 1) (b + 8, 0)
    change e4.at mc _ = _ at c1
    change ∀ o c, _ → mc o c = _ at c2
    clear_value mc mn
    rw [n1, hT] at c1
    have k2 : ∀ o c, o ≠ b + 8 → mc o c = s.loc o c := fun o c h =>
      (c2 o c (not_in_obj h)).trans (n2 o c (not_in_obj h))
    obtain ⟨a1, -, a3⟩ := p_mixadd_4w mc (ρ 2) (b, 0)
      (b + 8, 0) (b + 10, 0) (apart_obj (by simp)) (apart_obj (by simp)) (apart_obj (by simp))
    have q : e4.at mc (b, 0) = e4.at s.loc (b, 0) := at_obj e4_loc fun c => k2 b c (by simp)
    rw [c1, q] at a1
    exact ⟨a1, fun o c h0 h8 h10 => (a3 o c (not_in_obj h0) (not_in_obj h10)).trans (k2 o c h8)⟩
  · obtain ⟨a1, -, a3⟩ := p_mixadd_4w s.loc (ρ 2) (b, 0) (b + 2, 10 * j) (b + 10, 0)
      (apart_obj (by simp)) (apart_obj (by simp)) (apart_obj (by simp))
    rw [hT] at a1
    exact ⟨a1, fun o c h0 _ h10 => a3 o c (not_in_obj h0) (not_in_obj h10)⟩

/-- A nonzero digit of a recoding in windows of width 7. -/
theorem digit7 {l : List Byte} (h : Ed25519.DigitsOk 7 l) (i : ℕ) (h0 : l.getD i 0#8 ≠ 0#8) :
    absDigit (l.getD i 0#8) < 32 := by
  obtain ⟨d1, d2, d3⟩ := h.get i rfl h0
  obtain ⟨e1, e2⟩ := Ed25519.digit_index _ d1 (by omega) (by omega)
  change Ed25519.absIndex _ < 32
  cases hs : (l.getD i 0#8).slt 0#8 with
  | true => have := e1 hs; omega
  | false => have := e2 hs; omega

/-- A nonzero digit of a recoding in windows of width 5. -/
theorem digit5 {l : List Byte} (h : Ed25519.DigitsOk 5 l) (i : ℕ) (h0 : l.getD i 0#8 ≠ 0#8) :
    absDigit (l.getD i 0#8) < 8 := by
  obtain ⟨d1, d2, d3⟩ := h.get i rfl h0
  obtain ⟨e1, e2⟩ := Ed25519.digit_index _ d1 (by omega) (by omega)
  change Ed25519.absIndex _ < 8
  cases hs : (l.getD i 0#8).slt 0#8 with
  | true => have := e1 hs; omega
  | false => have := e2 hs; omega

theorem dmLoop25519_spec (ρ : ℕ → ℕ → Regs) (b : ℕ) (T : ℕ → Fp25519.Elt10 V) (kr kh : List Byte)
    (hr : Ed25519.DigitsOk 7 kr) (hh : Ed25519.DigitsOk 5 kh) : ∀ (l : ℕ) (s : VSt),
    (∀ n, s.kr n = kr.getD n 0#8) → (∀ n, s.kh n = kh.getD n 0#8) →
    (∀ j < 8, e4.at s.loc (b + 2, 10 * j) = T j) → l ≤ 260 →
    (∀ a ∈ s.log, a.Inside 260 384 8) →
    e4.at (dmLoop25519 ρ b l s).loc (b, 0) = Ed25519.dmLoop T kr kh l (e4.at s.loc (b, 0)) ∧
      (∀ o c, o < b ∨ o = b + 2 → (dmLoop25519 ρ b l s).loc o c = s.loc o c) ∧
      ∀ a ∈ (dmLoop25519 ρ b l s).log, a.Inside 260 384 8
  | 0, s, _, _, _, _, hl => ⟨rfl, fun _ _ _ => rfl, hl⟩
  | i + 1, s, h1, h2, hT, hi, hl => by
    unfold dmLoop25519
    extract_lets m1 s1 s2 s3 s4
    obtain ⟨d1, d2⟩ := p_doubling_4w s.loc (ρ i 0) (b, 0) (b + 9, 0) (apart_obj (by simp))
    change e4.at m1 _ = _ at d1
    change ∀ o c, _ → _ → m1 o c = _ at d2
    have hs1 : s1.loc = m1 ∧ s1.kr = s.kr ∧ s1.kh = s.kh ∧ ∀ a ∈ s1.log, a.Inside 260 384 8 := by
      refine ⟨rfl, rfl, rfl, fun a ha => ?_⟩
      rcases List.mem_append.1 ha with h | h
      · exact hl a h
      · rw [List.mem_singleton.1 h]; change i < 260; omega
    obtain ⟨l1, r1, k1, g1⟩ := hs1
    have hs2 : e4.at s2.loc (b, 0) = (if kr.getD i 0#8 ≠ 0#8 then Ed25519.mixadd_4w
          (e4.at m1 (b, 0)) (Ed25519.read_point_4w (kr.getD i 0#8)) else e4.at m1 (b, 0)) ∧
        (∀ o c, o < b ∨ o = b + 2 → s2.loc o c = s.loc o c) ∧
        s2.kr = s.kr ∧ s2.kh = s.kh ∧ ∀ a ∈ s2.log, a.Inside 260 384 8 := by
      simp only [s2]
      rw [r1, h1 i]
      split_ifs with h0
      · obtain ⟨a1, a2⟩ := addStatic25519_spec (fun n => ρ i (n + 1)) b (kr.getD i 0#8) s1
        rw [l1] at a1
        refine ⟨a1, fun o c ho => ?_, r1, k1, fun a ha => ?_⟩
        · rw [a2 o c (by omega) (by omega), l1]
          exact d2 o c (not_in_obj (by omega)) (not_in_obj (by omega))
        · have hd := digit7 hr i h0
          rcases List.mem_append.1 ha with h | h
          · exact g1 a h
          · rcases List.mem_append.1 h with h | h
            · rcases List.mem_append.1 h with h | h
              · exact loads_inside (by omega) a h
              · exact loads_inside (by omega) a h
            · exact loads_inside (by omega) a h
      · refine ⟨by rw [l1], fun o c ho => ?_, r1, k1, g1⟩
        rw [l1]
        exact d2 o c (not_in_obj (by omega)) (not_in_obj (by omega))
    obtain ⟨v2, f2, r2, k2, g2⟩ := hs2
    have hs3 : s3.loc = s2.loc ∧ s3.kr = s2.kr ∧ s3.kh = s2.kh ∧
        ∀ a ∈ s3.log, a.Inside 260 384 8 := by
      refine ⟨rfl, rfl, rfl, fun a ha => ?_⟩
      rcases List.mem_append.1 ha with h | h
      · exact g2 a h
      · rw [List.mem_singleton.1 h]; change i < 260; omega
    obtain ⟨l3, r3, k3, g3⟩ := hs3
    replace r3 := r3.trans r2
    replace k3 := k3.trans k2
    have e3 : s3.kh i = kh.getD i 0#8 := (congrFun k3 i).trans (h2 i)
    clear_value s3
    have hs4 : e4.at s4.loc (b, 0) = (if kh.getD i 0#8 ≠ 0#8 then Ed25519.mixadd_4w
          (e4.at s2.loc (b, 0)) (Ed25519.dynPoint T (kh.getD i 0#8)) else e4.at s2.loc (b, 0)) ∧
        (∀ o c, o < b ∨ o = b + 2 → s4.loc o c = s.loc o c) ∧
        s4.kr = s.kr ∧ s4.kh = s.kh ∧ ∀ a ∈ s4.log, a.Inside 260 384 8 := by
      simp only [s4]
      rw [e3]
      split_ifs with h0
      · have hd := digit5 hh i h0
        obtain ⟨a1, a2⟩ := addDynamic25519_spec (fun n => ρ i (n + 5)) b (kh.getD i 0#8) s3 T (by
          rw [l3, ← hT _ hd]
          exact at_obj e4_loc fun c => f2 _ _ (Or.inr rfl))
        rw [l3] at a1
        refine ⟨a1, fun o c ho => ?_, r3, k3, fun a ha => ?_⟩
        · rw [a2 o c (by omega) (by omega) (by omega), l3]
          exact f2 o c ho
        · rcases List.mem_append.1 ha with h | h
          · exact g3 a h
          · rw [List.mem_singleton.1 h]; exact hd
      · refine ⟨by rw [l3], fun o c ho => ?_, r3, k3, g3⟩
        rw [l3]
        exact f2 o c ho
    obtain ⟨v4, f4, r4, k4, g4⟩ := hs4
    clear_value s4
    obtain ⟨i1, i2, i3⟩ := dmLoop25519_spec ρ b T kr kh hr hh i s4 (by rw [r4]; exact h1)
      (by rw [k4]; exact h2) (fun j hj => by
        rw [← hT j hj]; exact at_obj e4_loc fun c => f4 _ _ (Or.inr rfl)) (by omega) g4
    refine ⟨?_, fun o c ho => (i2 o c ho).trans (f4 o c ho), i3⟩
    rw [i1, v4, v2, d1]
    rfl

theorem tab4w_at {m : Mem} {o : ℕ} {f : ℕ → Fp25519.Elt10 V}
    (h : tab4w.at m (o, 0) = (List.range 8).map f) : ∀ j < 8, e4.at m (o, 10 * j) = f j := by
  intro j hj
  have := congrArg (fun l => l[j]?) h
  simp only [Lay.at, tab4w, List.getElem?_map, List.getElem?_range hj, Option.map_some,
    Option.some.injEq, Nat.zero_add] at this
  exact this

theorem neutral25519 {m : Mem} {o : ℕ} (h : e4.at m (o, 0) = Fp25519.R4.zero) :
    e4.at (m.set o 0 (SET64 1 0 1 0)) (o, 0) = Ed25519.neutral4w := by
  simp only [Lay.at, e4, Mem.set, Nat.zero_add, Fp25519.R4.zero, Fp25519.Elt10.mk.injEq] at h ⊢
  simp only [Ed25519.neutral4w, Fp25519.Elt10.mk.injEq]
  simp [h]

theorem p2w_at_of {m : Mem} {o : ℕ} {A B : Fp25519.Elt5 V}
    (h : (e2.at m (o, 0), e2.at m (o, 5)) = (A, B)) : p2w.at m (o, 0) = ⟨A, B⟩ := by
  obtain ⟨rfl, rfl⟩ := Prod.mk.injEq .. ▸ h
  simp [Lay.at, p2w]

theorem wnafLoop_length25519 (w : ℕ) : ∀ (fuel : ℕ) (r : Fp25519.F4),
    (Ed25519.wnafLoop w fuel r).1.length ≤ fuel
  | 0, _ => by simp [Ed25519.wnafLoop]
  | fuel + 1, r => by
    rw [Ed25519.wnafLoop]
    split_ifs
    · simp
    · simpa using wnafLoop_length25519 w fuel _

theorem double25519_spec (isa : Fp25519.Isa) (ρ : ℕ → ℕ → Regs) (b : ℕ) (s h : List Byte)
    (A : Place) (hA : A.1 < b) (m : Mem) :
    (double25519 isa ρ b s h A m).2 = Ed25519.double_point_mult_4w isa s h (e4.at m A) ∧
      e4.at (double25519 isa ρ b s h A m).1.loc A = Ed25519.doubling_4w (e4.at m A) ∧
      (∀ o c, o < b → ¬In A 10 o c → (double25519 isa ρ b s h A m).1.loc o c = m o c) ∧
      ∀ a ∈ (double25519 isa ρ b s h A m).1.log, a.Inside 260 384 8 := by
  unfold double25519
  rw [wnafMem25519_eq, List.nil_append]
  simp only
  rw [wnafMem25519_eq]
  simp only
  have hr := Ed25519.wnaf_digits (w := 7) (by decide) (by decide) s
  have hh := Ed25519.wnaf_digits (w := 5) (by decide) (by decide) h
  have lr : (Ed25519.wnaf_256bits 7 s).length ≤ 257 := wnafLoop_length25519 _ _ _
  have lh : (Ed25519.wnaf_256bits 5 h).length ≤ 257 := wnafLoop_length25519 _ _ _
  have hl : (if (Ed25519.wnaf_256bits 7 s).length > (Ed25519.wnaf_256bits 5 h).length
      then (Ed25519.wnaf_256bits 7 s).length else (Ed25519.wnaf_256bits 5 h).length)
      = max (Ed25519.wnaf_256bits 7 s).length (Ed25519.wnaf_256bits 5 h).length := by
    split_ifs <;> omega
  rw [hl]
  unfold Ed25519.double_point_mult_4w Ed25519.double_point_mult_pt
  generalize Ed25519.wnaf_256bits 7 s = kr at *
  generalize Ed25519.wnaf_256bits 5 h = kh at *
  obtain ⟨a1, a2, a3⟩ := p_precompute_4w m (ρ 257 0) (b + 2, 0) A (b + 11, 0)
    (apart_obj (by simp; omega)) (apart_obj (by simp)) (apart_obj (by simp; omega))
  generalize P25519.precompute_4w.call [(b + 2, 0), A, (b + 11, 0)] m (ρ 257 0) = m1 at *
  obtain ⟨z1, z2⟩ := e4_zero m1 (ρ 257 1) (b, 0)
  generalize F25519.V4.zero.call [(b, 0)] m1 (ρ 257 1) = m2 at *
  have n3 := neutral25519 z1
  have f3 : ∀ o c, o ≠ b → (m2.set b 0 (SET64 1 0 1 0)) o c = m1 o c := fun o c ho =>
    (set_obj ho).trans (z2 o c (not_in_obj ho))
  generalize m2.set b 0 (SET64 1 0 1 0) = m3 at *
  have ht := tab4w_at a1
  obtain ⟨d1, d2, d3⟩ := dmLoop25519_spec ρ b (Ed25519.precompute_4w (e4.at m A)) kr kh hr hh
    (max kr.length kh.length) ⟨m3, fun n => kr.getD n 0#8, fun n => kh.getD n 0#8,
      (List.range kr.length).map (.wr 0 ·) ++ (List.range kh.length).map (.wr 1 ·)⟩
    (fun _ => rfl) (fun _ => rfl)
    (fun j hj => (at_obj e4_loc fun c => f3 _ c (by simp)).trans (ht j hj)) (by omega)
    (fun a ha => by
      rcases List.mem_append.1 ha with h | h <;>
      · obtain ⟨i, hi, rfl⟩ := List.mem_map.1 h
        rw [List.mem_range] at hi
        change i < 260
        omega)
  generalize dmLoop25519 ρ b (max kr.length kh.length) ⟨m3, fun n => kr.getD n 0#8,
    fun n => kh.getD n 0#8, (List.range kr.length).map (.wr 0 ·) ++
      (List.range kh.length).map (.wr 1 ·)⟩ = st at *
  obtain ⟨u1, u2⟩ := p_unzip_2w st.loc (ρ 257 2) (b + 1, 0) (b + 1, 5) (b, 0)
    (apart_cells (by simp [e2])) (by
      intro P hP
      simp only [List.mem_cons, List.not_mem_nil, or_false] at hP
      rcases hP with rfl | rfl <;> exact apart_obj (by simp))
  generalize P25519.unzip_2w.call [(b + 1, 0), (b + 1, 5), (b, 0)] st.loc (ρ 257 2) = m5 at *
  have f5 : ∀ o c, o < b → m5 o c = m1 o c := fun o c ho =>
    (u2 o c (not_in_obj (by simp; omega)) (not_in_obj (by simp; omega))).trans
      ((d2 o c (Or.inl ho)).trans (f3 o c (by omega)))
  refine ⟨?_, ?_, fun o c ho hn => ?_, d3⟩
  · rw [p2w_at_of u1, d1, n3]
  · rw [← a2]
    exact at_obj e4_loc fun c => f5 _ c hA
  · exact (f5 o c ho).trans (a3 o c (not_in_obj (by simp; omega)) hn (not_in_obj (by simp; omega)))

theorem bytesAt_split (c : ℕ → Byte) (p n k : ℕ) :
    (bytesAt c p (n + k)).take n = bytesAt c p n ∧
      (bytesAt c p (n + k)).drop n = bytesAt c (p + n) k := by
  rw [bytesAt, List.range_add, List.map_append, List.map_map]
  refine ⟨List.take_left' (by simp), ?_⟩
  rw [List.drop_left' (by simp)]
  exact List.map_congr_left fun i _ => by simp [Nat.add_assoc]

theorem verify25519_spec (H : List Byte → List Byte) (isa : Fp25519.Isa) (ρ : ℕ → ℕ → Regs)
    (c : ℕ → Byte) (m : Mem) (message ml context cl public_key signature : ℕ)
    (pureEdDSA phflag : Byte) :
    (verify25519 H isa ρ c m message ml context cl public_key signature pureEdDSA phflag).1
        = Ed25519.verify_all H isa (bytesAt c message ml) (bytesAt c context cl)
          (bytesAt c public_key 32) (bytesAt c signature 64) pureEdDSA phflag ∧
      ∀ a ∈ (verify25519 H isa ρ c m message ml context cl public_key signature pureEdDSA
        phflag).2, a.Inside 260 384 8 := by
  obtain ⟨s1, s2⟩ := bytesAt_split c signature 32 32
  have s3 : (bytesAt c (signature + 32) 32).take 32 = bytesAt c (signature + 32) 32 :=
    List.take_of_length_le (by simp [bytesAt])
  unfold verify25519 Ed25519.verify_all
  rw [show (64 : ℕ) = 32 + 32 from rfl, s1, s2, s3,
    show (bytesAt c context cl).length = cl by simp [bytesAt]]
  split_ifs with h1
  · simp
  · simp only
    split_ifs with h2
    · simp
    · cases hm : Ed25519.msgBytes H (bytesAt c message ml) phflag with
      | none => simp
      | some msg =>
        simp only
        obtain ⟨d1, -, -, d4⟩ := double25519_spec isa ρ 1 (bytesAt c (signature + 32) 32)
          (Ed25519.reduceBytes (H (Ed25519.domBytes (bytesAt c context cl) pureEdDSA phflag ++
            bytesAt c signature 32 ++ bytesAt c public_key 32 ++ msg))) (0, 0) (by simp)
          (putE4 m 0 (Ed25519.point_decoding isa (bytesAt c public_key 32)).1)
        rw [at_putE4] at d1
        exact ⟨by rw [d1], d4⟩

end Verif.Vec
