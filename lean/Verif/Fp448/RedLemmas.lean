import Verif.Fp448.RedSpec
import Verif.Simd.Wrap
import Verif.Fp448.Lemmas

/-! # Correctness of the reduced-radix programs

Each program is run on `Sh` (words, integers and intervals together), which reduces it to
an identity on integers and a computation on intervals.  The Karatsuba products wrap around
on the way; they are run on `Sw` and compared with a schoolbook product. -/

namespace Verif.Fp448

set_option exponentiation.threshold 2000

/-- The inverse of `Elt8.limbs`. -/
def Elt16.pack {β : Type} (a : Elt16 β) : Elt8 (Vec2 β) :=
  ⟨⟨a.r0, a.r8⟩, ⟨a.r1, a.r9⟩, ⟨a.r2, a.r10⟩, ⟨a.r3, a.r11⟩, ⟨a.r4, a.r12⟩, ⟨a.r5, a.r13⟩, ⟨a.r6,
  a.r14⟩, ⟨a.r7, a.r15⟩⟩

theorem pack_limbs {β : Type} (e : Elt8 (Vec2 β)) : e.limbs.pack = e := rfl
theorem limbs_pack {β : Type} (e : Elt16 β) : e.pack.limbs = e := rfl

/-- Intervals starting at 0. -/
def ivs (m : Elt16 ℕ) : Elt16 Iv := m.map fun n => ⟨0, n, true⟩

/-- Intervals starting at 0, with the wrap-around flag. -/
def iws (m : Elt16 ℕ) : Elt16 Iw := m.map fun n => ⟨⟨0, n, true⟩, true⟩

/-- All intervals are sound and within the given bounds. -/
def okLe (i : Elt16 Iv) (m : Elt16 ℕ) : Bool :=
  i.r0.ok && i.r1.ok && i.r2.ok && i.r3.ok && i.r4.ok && i.r5.ok && i.r6.ok && i.r7.ok && i.r8.ok
  && i.r9.ok && i.r10.ok && i.r11.ok && i.r12.ok && i.r13.ok && i.r14.ok && i.r15.ok && decide
  (i.r0.hi ≤ m.r0) && decide (i.r1.hi ≤ m.r1) && decide (i.r2.hi ≤ m.r2) && decide (i.r3.hi ≤
  m.r3) && decide (i.r4.hi ≤ m.r4) && decide (i.r5.hi ≤ m.r5) && decide (i.r6.hi ≤ m.r6) && decide
  (i.r7.hi ≤ m.r7) && decide (i.r8.hi ≤ m.r8) && decide (i.r9.hi ≤ m.r9) && decide (i.r10.hi ≤
  m.r10) && decide (i.r11.hi ≤ m.r11) && decide (i.r12.hi ≤ m.r12) && decide (i.r13.hi ≤ m.r13) &&
  decide (i.r14.hi ≤ m.r14) && decide (i.r15.hi ≤ m.r15)

/-- All words agree with the integers modulo 2^64. -/
def okW (i : Elt16 Iw) : Bool :=
  i.r0.wk && i.r1.wk && i.r2.wk && i.r3.wk && i.r4.wk && i.r5.wk && i.r6.wk && i.r7.wk && i.r8.wk
  && i.r9.wk && i.r10.wk && i.r11.wk && i.r12.wk && i.r13.wk && i.r14.wk && i.r15.wk

theorem lift {a : Elt16 W} {m : Elt16 ℕ} (h : a.Le m) :
    ∃ s : Elt16 Sh, s.map Sh.w = a ∧ s.map Sh.n = a.ints ∧ s.map Sh.iv = ivs m := by
  obtain ⟨h0, h1, h2, h3, h4, h5, h6, h7, h8, h9, h10, h11, h12, h13, h14, h15⟩ := h
  exact ⟨⟨.mk' _ 0 _ ⟨by simp, h0⟩, .mk' _ 0 _ ⟨by simp, h1⟩, .mk' _ 0 _ ⟨by simp, h2⟩, .mk' _ 0 _ ⟨by
    simp, h3⟩, .mk' _ 0 _ ⟨by simp, h4⟩, .mk' _ 0 _ ⟨by simp, h5⟩, .mk' _ 0 _ ⟨by simp, h6⟩, .mk'
    _ 0 _ ⟨by simp, h7⟩, .mk' _ 0 _ ⟨by simp, h8⟩, .mk' _ 0 _ ⟨by simp, h9⟩, .mk' _ 0 _ ⟨by simp,
    h10⟩, .mk' _ 0 _ ⟨by simp, h11⟩, .mk' _ 0 _ ⟨by simp, h12⟩, .mk' _ 0 _ ⟨by simp, h13⟩, .mk' _
    0 _ ⟨by simp, h14⟩, .mk' _ 0 _ ⟨by simp, h15⟩⟩, rfl, rfl, rfl⟩

theorem liftw {a : Elt16 W} {m : Elt16 ℕ} (h : a.Le m) :
    ∃ s : Elt16 Sw, s.map Sw.w = a ∧ s.map Sw.n = a.ints ∧ s.map Sw.iw = iws m := by
  obtain ⟨h0, h1, h2, h3, h4, h5, h6, h7, h8, h9, h10, h11, h12, h13, h14, h15⟩ := h
  exact ⟨⟨.mk' _ _ h0, .mk' _ _ h1, .mk' _ _ h2, .mk' _ _ h3, .mk' _ _ h4, .mk' _ _ h5, .mk' _ _ h6,
    .mk' _ _ h7, .mk' _ _ h8, .mk' _ _ h9, .mk' _ _ h10, .mk' _ _ h11, .mk' _ _ h12, .mk' _ _ h13,
    .mk' _ _ h14, .mk' _ _ h15⟩, rfl, rfl, rfl⟩

theorem unlift {s : Elt16 Sh} {m : Elt16 ℕ} (h : okLe (s.map Sh.iv) m = true) :
    (s.map Sh.w).Le m ∧ (s.map Sh.w).ints = s.map Sh.n := by
  simp only [okLe, Elt16.map, Bool.and_eq_true] at h
  obtain ⟨⟨⟨⟨⟨⟨⟨⟨⟨⟨⟨⟨⟨⟨⟨⟨⟨⟨⟨⟨⟨⟨⟨⟨⟨⟨⟨⟨⟨⟨⟨k0, k1⟩, k2⟩, k3⟩, k4⟩, k5⟩, k6⟩, k7⟩, k8⟩, k9⟩, k10⟩, k11⟩, k12⟩, k13⟩, k14⟩, k15⟩, h0⟩, h1⟩, h2⟩, h3⟩, h4⟩, h5⟩, h6⟩, h7⟩, h8⟩, h9⟩, h10⟩, h11⟩, h12⟩, h13⟩, h14⟩, h15⟩ := h
  obtain ⟨a0, -, b0⟩ := s.r0.ok k0
  obtain ⟨a1, -, b1⟩ := s.r1.ok k1
  obtain ⟨a2, -, b2⟩ := s.r2.ok k2
  obtain ⟨a3, -, b3⟩ := s.r3.ok k3
  obtain ⟨a4, -, b4⟩ := s.r4.ok k4
  obtain ⟨a5, -, b5⟩ := s.r5.ok k5
  obtain ⟨a6, -, b6⟩ := s.r6.ok k6
  obtain ⟨a7, -, b7⟩ := s.r7.ok k7
  obtain ⟨a8, -, b8⟩ := s.r8.ok k8
  obtain ⟨a9, -, b9⟩ := s.r9.ok k9
  obtain ⟨a10, -, b10⟩ := s.r10.ok k10
  obtain ⟨a11, -, b11⟩ := s.r11.ok k11
  obtain ⟨a12, -, b12⟩ := s.r12.ok k12
  obtain ⟨a13, -, b13⟩ := s.r13.ok k13
  obtain ⟨a14, -, b14⟩ := s.r14.ok k14
  obtain ⟨a15, -, b15⟩ := s.r15.ok k15
  refine ⟨⟨b0.trans (of_decide_eq_true h0),
    b1.trans (of_decide_eq_true h1),
    b2.trans (of_decide_eq_true h2),
    b3.trans (of_decide_eq_true h3),
    b4.trans (of_decide_eq_true h4),
    b5.trans (of_decide_eq_true h5),
    b6.trans (of_decide_eq_true h6),
    b7.trans (of_decide_eq_true h7),
    b8.trans (of_decide_eq_true h8),
    b9.trans (of_decide_eq_true h9),
    b10.trans (of_decide_eq_true h10),
    b11.trans (of_decide_eq_true h11),
    b12.trans (of_decide_eq_true h12),
    b13.trans (of_decide_eq_true h13),
    b14.trans (of_decide_eq_true h14),
    b15.trans (of_decide_eq_true h15)⟩, ?_⟩
  simp only [Elt16.ints, Elt16.map]
  rw [a0, a1, a2, a3, a4, a5, a6, a7, a8, a9, a10, a11, a12, a13, a14, a15]

/-- A program of one element, run on words: within the given input bounds it stays within
the output bounds and computes what it computes on integers. -/
theorem run1 {f : ∀ {α : Type} [Lane α], Elt16 α → Elt16 α}
    (hw : ∀ s : Elt16 Sh, (f s).map Sh.w = f (s.map Sh.w))
    (hn : ∀ s : Elt16 Sh, (f s).map Sh.n = f (s.map Sh.n))
    (hi : ∀ s : Elt16 Sh, (f s).map Sh.iv = f (s.map Sh.iv))
    {m m' : Elt16 ℕ} (hok : okLe (f (ivs m)) m' = true) {a : Elt16 W} (ha : a.Le m) :
    (f a).Le m' ∧ (f a).ints = f a.ints := by
  obtain ⟨s, rfl, h2, h3⟩ := lift ha
  rw [← hw, ← h2, ← hn]
  exact unlift (by rw [hi, h3, hok])

/-- The same for a program of two elements. -/
theorem run2 {f : ∀ {α : Type} [Lane α], Elt16 α → Elt16 α → Elt16 α}
    (hw : ∀ s t : Elt16 Sh, (f s t).map Sh.w = f (s.map Sh.w) (t.map Sh.w))
    (hn : ∀ s t : Elt16 Sh, (f s t).map Sh.n = f (s.map Sh.n) (t.map Sh.n))
    (hi : ∀ s t : Elt16 Sh, (f s t).map Sh.iv = f (s.map Sh.iv) (t.map Sh.iv))
    {m₁ m₂ m' : Elt16 ℕ} (hok : okLe (f (ivs m₁) (ivs m₂)) m' = true) {a b : Elt16 W}
    (ha : a.Le m₁) (hb : b.Le m₂) :
    (f a b).Le m' ∧ (f a b).ints = f a.ints b.ints := by
  obtain ⟨s, rfl, h2, h3⟩ := lift ha
  obtain ⟨t, rfl, k2, k3⟩ := lift hb
  rw [← hw, ← h2, ← k2, ← hn]
  exact unlift (by rw [hi, h3, k3, hok])

/-- Words that agree with integers modulo 2^64, where the integers are those of words. -/
theorem unliftw {s : Elt16 Sw} {g : Elt16 W} (h : okW (s.map Sw.iw) = true)
    (hg : s.map Sw.n = g.ints) : s.map Sw.w = g := by
  simp only [okW, Elt16.map, Bool.and_eq_true] at h
  obtain ⟨⟨⟨⟨⟨⟨⟨⟨⟨⟨⟨⟨⟨⟨⟨h0, h1⟩, h2⟩, h3⟩, h4⟩, h5⟩, h6⟩, h7⟩, h8⟩, h9⟩, h10⟩, h11⟩, h12⟩, h13⟩, h14⟩, h15⟩ := h
  have key : ∀ (x : Sw) (w : W), x.wk = true → x.n = (w.toNat : ℤ) → x.w = w := by
    intro x w h1 h2
    have h3 := x.eq_of h1 (by rw [h2]; positivity) (by rw [h2]; exact_mod_cast w.isLt)
    exact BitVec.eq_of_toNat_eq (by rw [h2] at h3; exact_mod_cast h3)
  simp only [Elt16.map, Elt16.ints, Elt16.mk.injEq] at hg
  obtain ⟨g0, g1, g2, g3, g4, g5, g6, g7, g8, g9, g10, g11, g12, g13, g14, g15⟩ := hg
  simp only [Elt16.map]
  ext1
  · exact key _ _ h0 g0
  · exact key _ _ h1 g1
  · exact key _ _ h2 g2
  · exact key _ _ h3 g3
  · exact key _ _ h4 g4
  · exact key _ _ h5 g5
  · exact key _ _ h6 g6
  · exact key _ _ h7 g7
  · exact key _ _ h8 g8
  · exact key _ _ h9 g9
  · exact key _ _ h10 g10
  · exact key _ _ h11 g11
  · exact key _ _ h12 g12
  · exact key _ _ h13 g13
  · exact key _ _ h14 g14
  · exact key _ _ h15 g15

/-- A program `f` that may wrap around on the way and equals on integers a program `g` that
does not: they give the same words. -/
theorem wrap2 {f g : ∀ {α : Type} [Lane α], Elt16 α → Elt16 α → Elt16 α}
    (hw : ∀ s t : Elt16 Sw, (f s t).map Sw.w = f (s.map Sw.w) (t.map Sw.w))
    (hn : ∀ s t : Elt16 Sw, (f s t).map Sw.n = f (s.map Sw.n) (t.map Sw.n))
    (hi : ∀ s t : Elt16 Sw, (f s t).map Sw.iw = f (s.map Sw.iw) (t.map Sw.iw))
    (hfg : ∀ a b : Elt16 ℤ, f a b = g a b)
    {m₁ m₂ : Elt16 ℕ} (hok : okW (f (iws m₁) (iws m₂)) = true) {a b : Elt16 W}
    (ha : a.Le m₁) (hb : b.Le m₂) (hg : (g a b).ints = g a.ints b.ints) : f a b = g a b := by
  obtain ⟨s, rfl, h2, h3⟩ := liftw ha
  obtain ⟨t, rfl, k2, k3⟩ := liftw hb
  rw [← hw]
  exact unliftw (by rw [hi, h3, k3, hok]) (by rw [hn, hg, h2, k2, hfg])

/-- The same for programs of one element. -/
theorem wrap1 {f g : ∀ {α : Type} [Lane α], Elt16 α → Elt16 α}
    (hw : ∀ s : Elt16 Sw, (f s).map Sw.w = f (s.map Sw.w))
    (hn : ∀ s : Elt16 Sw, (f s).map Sw.n = f (s.map Sw.n))
    (hi : ∀ s : Elt16 Sw, (f s).map Sw.iw = f (s.map Sw.iw))
    (hfg : ∀ a : Elt16 ℤ, f a = g a)
    {m : Elt16 ℕ} (hok : okW (f (iws m)) = true) {a : Elt16 W}
    (ha : a.Le m) (hg : (g a).ints = g a.ints) : f a = g a := by
  obtain ⟨s, rfl, h2, h3⟩ := liftw ha
  rw [← hw]
  exact unliftw (by rw [hi, h3, hok]) (by rw [hn, hg, h2, hfg])

/-- Product of polynomials of degree 7. -/
def conv8 {α : Type} [Lane α] (a0 a1 a2 a3 a4 a5 a6 a7 b0 b1 b2 b3 b4 b5 b6 b7 : α) : P15 α where
  h0 := MUL a0 b0
  h1 := ADD (MUL a0 b1) (MUL a1 b0)
  h2 := ADD (ADD (MUL a0 b2) (MUL a1 b1)) (MUL a2 b0)
  h3 := ADD (ADD (ADD (MUL a0 b3) (MUL a1 b2)) (MUL a2 b1)) (MUL a3 b0)
  h4 := ADD (ADD (ADD (ADD (MUL a0 b4) (MUL a1 b3)) (MUL a2 b2)) (MUL a3 b1)) (MUL a4 b0)
  h5 := ADD (ADD (ADD (ADD (ADD (MUL a0 b5) (MUL a1 b4)) (MUL a2 b3)) (MUL a3 b2)) (MUL a4 b1)) (MUL a5 b0)
  h6 := ADD (ADD (ADD (ADD (ADD (ADD (MUL a0 b6) (MUL a1 b5)) (MUL a2 b4)) (MUL a3 b3)) (MUL a4 b2)) (MUL a5 b1)) (MUL a6 b0)
  h7 := ADD (ADD (ADD (ADD (ADD (ADD (ADD (MUL a0 b7) (MUL a1 b6)) (MUL a2 b5)) (MUL a3 b4)) (MUL a4 b3)) (MUL a5 b2)) (MUL a6 b1)) (MUL a7 b0)
  h8 := ADD (ADD (ADD (ADD (ADD (ADD (MUL a1 b7) (MUL a2 b6)) (MUL a3 b5)) (MUL a4 b4)) (MUL a5 b3)) (MUL a6 b2)) (MUL a7 b1)
  h9 := ADD (ADD (ADD (ADD (ADD (MUL a2 b7) (MUL a3 b6)) (MUL a4 b5)) (MUL a5 b4)) (MUL a6 b3)) (MUL a7 b2)
  h10 := ADD (ADD (ADD (ADD (MUL a3 b7) (MUL a4 b6)) (MUL a5 b5)) (MUL a6 b4)) (MUL a7 b3)
  h11 := ADD (ADD (ADD (MUL a4 b7) (MUL a5 b6)) (MUL a6 b5)) (MUL a7 b4)
  h12 := ADD (ADD (MUL a5 b7) (MUL a6 b6)) (MUL a7 b5)
  h13 := ADD (MUL a6 b7) (MUL a7 b6)
  h14 := MUL a7 b7

/-- Schoolbook multiplication of limbs, folded by 2^448 = 2^224 + 1. -/
def schoolP {α : Type} [Lane α] (a b : Elt16 α) : Elt16 α :=
  let x := conv8 a.r0 a.r1 a.r2 a.r3 a.r4 a.r5 a.r6 a.r7 b.r0 b.r1 b.r2 b.r3 b.r4 b.r5 b.r6 b.r7
  let y := conv8 a.r8 a.r9 a.r10 a.r11 a.r12 a.r13 a.r14 a.r15 b.r8 b.r9 b.r10 b.r11 b.r12 b.r13 b.r14 b.r15
  let u := conv8 a.r0 a.r1 a.r2 a.r3 a.r4 a.r5 a.r6 a.r7 b.r8 b.r9 b.r10 b.r11 b.r12 b.r13 b.r14 b.r15
  let v := conv8 a.r8 a.r9 a.r10 a.r11 a.r12 a.r13 a.r14 a.r15 b.r0 b.r1 b.r2 b.r3 b.r4 b.r5 b.r6 b.r7
  ⟨ADD (ADD (ADD (ADD x.h0 y.h0) u.h8) v.h8) y.h8,
    ADD (ADD (ADD (ADD x.h1 y.h1) u.h9) v.h9) y.h9,
    ADD (ADD (ADD (ADD x.h2 y.h2) u.h10) v.h10) y.h10,
    ADD (ADD (ADD (ADD x.h3 y.h3) u.h11) v.h11) y.h11,
    ADD (ADD (ADD (ADD x.h4 y.h4) u.h12) v.h12) y.h12,
    ADD (ADD (ADD (ADD x.h5 y.h5) u.h13) v.h13) y.h13,
    ADD (ADD (ADD (ADD x.h6 y.h6) u.h14) v.h14) y.h14,
    ADD x.h7 y.h7,
    ADD (ADD (ADD (ADD (ADD (ADD (ADD u.h0 v.h0) y.h0) x.h8) u.h8) v.h8) y.h8) y.h8,
    ADD (ADD (ADD (ADD (ADD (ADD (ADD u.h1 v.h1) y.h1) x.h9) u.h9) v.h9) y.h9) y.h9,
    ADD (ADD (ADD (ADD (ADD (ADD (ADD u.h2 v.h2) y.h2) x.h10) u.h10) v.h10) y.h10) y.h10,
    ADD (ADD (ADD (ADD (ADD (ADD (ADD u.h3 v.h3) y.h3) x.h11) u.h11) v.h11) y.h11) y.h11,
    ADD (ADD (ADD (ADD (ADD (ADD (ADD u.h4 v.h4) y.h4) x.h12) u.h12) v.h12) y.h12) y.h12,
    ADD (ADD (ADD (ADD (ADD (ADD (ADD u.h5 v.h5) y.h5) x.h13) u.h13) v.h13) y.h13) y.h13,
    ADD (ADD (ADD (ADD (ADD (ADD (ADD u.h6 v.h6) y.h6) x.h14) u.h14) v.h14) y.h14) y.h14,
    ADD (ADD u.h7 v.h7) y.h7⟩

theorem schoolP_val (a b : Elt16 ℤ) : ∃ q : ℤ, (schoolP a b).val + p448 * q = a.val * b.val := by
  refine ⟨
    2 ^ 0 * (a.r8 * b.r8) + 2 ^ 28 * (a.r8 * b.r9) + 2 ^ 56 * (a.r8 * b.r10) + 2 ^ 84 * (a.r8 *
    b.r11) + 2 ^ 112 * (a.r8 * b.r12) + 2 ^ 140 * (a.r8 * b.r13) + 2 ^ 168 * (a.r8 * b.r14) + 2 ^
    196 * (a.r8 * b.r15) + 2 ^ 28 * (a.r9 * b.r8) + 2 ^ 56 * (a.r9 * b.r9) + 2 ^ 84 * (a.r9 *
    b.r10) + 2 ^ 112 * (a.r9 * b.r11) + 2 ^ 140 * (a.r9 * b.r12) + 2 ^ 168 * (a.r9 * b.r13) + 2 ^
    196 * (a.r9 * b.r14) + 2 ^ 224 * (a.r9 * b.r15) + 2 ^ 56 * (a.r10 * b.r8) + 2 ^ 84 * (a.r10 *
    b.r9) + 2 ^ 112 * (a.r10 * b.r10) + 2 ^ 140 * (a.r10 * b.r11) + 2 ^ 168 * (a.r10 * b.r12) + 2
    ^ 196 * (a.r10 * b.r13) + 2 ^ 224 * (a.r10 * b.r14) + 2 ^ 252 * (a.r10 * b.r15) + 2 ^ 84 *
    (a.r11 * b.r8) + 2 ^ 112 * (a.r11 * b.r9) + 2 ^ 140 * (a.r11 * b.r10) + 2 ^ 168 * (a.r11 *
    b.r11) + 2 ^ 196 * (a.r11 * b.r12) + 2 ^ 224 * (a.r11 * b.r13) + 2 ^ 252 * (a.r11 * b.r14) + 2
    ^ 280 * (a.r11 * b.r15) + 2 ^ 112 * (a.r12 * b.r8) + 2 ^ 140 * (a.r12 * b.r9) + 2 ^ 168 *
    (a.r12 * b.r10) + 2 ^ 196 * (a.r12 * b.r11) + 2 ^ 224 * (a.r12 * b.r12) + 2 ^ 252 * (a.r12 *
    b.r13) + 2 ^ 280 * (a.r12 * b.r14) + 2 ^ 308 * (a.r12 * b.r15) + 2 ^ 140 * (a.r13 * b.r8) + 2
    ^ 168 * (a.r13 * b.r9) + 2 ^ 196 * (a.r13 * b.r10) + 2 ^ 224 * (a.r13 * b.r11) + 2 ^ 252 *
    (a.r13 * b.r12) + 2 ^ 280 * (a.r13 * b.r13) + 2 ^ 308 * (a.r13 * b.r14) + 2 ^ 336 * (a.r13 *
    b.r15) + 2 ^ 168 * (a.r14 * b.r8) + 2 ^ 196 * (a.r14 * b.r9) + 2 ^ 224 * (a.r14 * b.r10) + 2 ^
    252 * (a.r14 * b.r11) + 2 ^ 280 * (a.r14 * b.r12) + 2 ^ 308 * (a.r14 * b.r13) + 2 ^ 336 *
    (a.r14 * b.r14) + 2 ^ 364 * (a.r14 * b.r15) + 2 ^ 196 * (a.r15 * b.r8) + 2 ^ 224 * (a.r15 *
    b.r9) + 2 ^ 252 * (a.r15 * b.r10) + 2 ^ 280 * (a.r15 * b.r11) + 2 ^ 308 * (a.r15 * b.r12) + 2
    ^ 336 * (a.r15 * b.r13) + 2 ^ 364 * (a.r15 * b.r14) + 2 ^ 392 * (a.r15 * b.r15) + 2 ^ 0 *
    (a.r1 * b.r15) + 2 ^ 0 * (a.r2 * b.r14) + 2 ^ 28 * (a.r2 * b.r15) + 2 ^ 0 * (a.r3 * b.r13) + 2
    ^ 28 * (a.r3 * b.r14) + 2 ^ 56 * (a.r3 * b.r15) + 2 ^ 0 * (a.r4 * b.r12) + 2 ^ 28 * (a.r4 *
    b.r13) + 2 ^ 56 * (a.r4 * b.r14) + 2 ^ 84 * (a.r4 * b.r15) + 2 ^ 0 * (a.r5 * b.r11) + 2 ^ 28 *
    (a.r5 * b.r12) + 2 ^ 56 * (a.r5 * b.r13) + 2 ^ 84 * (a.r5 * b.r14) + 2 ^ 112 * (a.r5 * b.r15)
    + 2 ^ 0 * (a.r6 * b.r10) + 2 ^ 28 * (a.r6 * b.r11) + 2 ^ 56 * (a.r6 * b.r12) + 2 ^ 84 * (a.r6
    * b.r13) + 2 ^ 112 * (a.r6 * b.r14) + 2 ^ 140 * (a.r6 * b.r15) + 2 ^ 0 * (a.r7 * b.r9) + 2 ^
    28 * (a.r7 * b.r10) + 2 ^ 56 * (a.r7 * b.r11) + 2 ^ 84 * (a.r7 * b.r12) + 2 ^ 112 * (a.r7 *
    b.r13) + 2 ^ 140 * (a.r7 * b.r14) + 2 ^ 168 * (a.r7 * b.r15) + 2 ^ 0 * (a.r9 * b.r7) + 2 ^ 0 *
    (a.r10 * b.r6) + 2 ^ 28 * (a.r10 * b.r7) + 2 ^ 0 * (a.r11 * b.r5) + 2 ^ 28 * (a.r11 * b.r6) +
    2 ^ 56 * (a.r11 * b.r7) + 2 ^ 0 * (a.r12 * b.r4) + 2 ^ 28 * (a.r12 * b.r5) + 2 ^ 56 * (a.r12 *
    b.r6) + 2 ^ 84 * (a.r12 * b.r7) + 2 ^ 0 * (a.r13 * b.r3) + 2 ^ 28 * (a.r13 * b.r4) + 2 ^ 56 *
    (a.r13 * b.r5) + 2 ^ 84 * (a.r13 * b.r6) + 2 ^ 112 * (a.r13 * b.r7) + 2 ^ 0 * (a.r14 * b.r2) +
    2 ^ 28 * (a.r14 * b.r3) + 2 ^ 56 * (a.r14 * b.r4) + 2 ^ 84 * (a.r14 * b.r5) + 2 ^ 112 * (a.r14
    * b.r6) + 2 ^ 140 * (a.r14 * b.r7) + 2 ^ 0 * (a.r15 * b.r1) + 2 ^ 28 * (a.r15 * b.r2) + 2 ^ 56
    * (a.r15 * b.r3) + 2 ^ 84 * (a.r15 * b.r4) + 2 ^ 112 * (a.r15 * b.r5) + 2 ^ 140 * (a.r15 *
    b.r6) + 2 ^ 168 * (a.r15 * b.r7) + 2 ^ 0 * (a.r9 * b.r15) + 2 ^ 0 * (a.r10 * b.r14) + 2 ^ 28 *
    (a.r10 * b.r15) + 2 ^ 0 * (a.r11 * b.r13) + 2 ^ 28 * (a.r11 * b.r14) + 2 ^ 56 * (a.r11 *
    b.r15) + 2 ^ 0 * (a.r12 * b.r12) + 2 ^ 28 * (a.r12 * b.r13) + 2 ^ 56 * (a.r12 * b.r14) + 2 ^
    84 * (a.r12 * b.r15) + 2 ^ 0 * (a.r13 * b.r11) + 2 ^ 28 * (a.r13 * b.r12) + 2 ^ 56 * (a.r13 *
    b.r13) + 2 ^ 84 * (a.r13 * b.r14) + 2 ^ 112 * (a.r13 * b.r15) + 2 ^ 0 * (a.r14 * b.r10) + 2 ^
    28 * (a.r14 * b.r11) + 2 ^ 56 * (a.r14 * b.r12) + 2 ^ 84 * (a.r14 * b.r13) + 2 ^ 112 * (a.r14
    * b.r14) + 2 ^ 140 * (a.r14 * b.r15) + 2 ^ 0 * (a.r15 * b.r9) + 2 ^ 28 * (a.r15 * b.r10) + 2 ^
    56 * (a.r15 * b.r11) + 2 ^ 84 * (a.r15 * b.r12) + 2 ^ 112 * (a.r15 * b.r13) + 2 ^ 140 * (a.r15
    * b.r14) + 2 ^ 168 * (a.r15 * b.r15), ?_⟩
  simp only [schoolP, conv8, Elt16.val, Lane.ADD, Lane.MUL, p448]
  ring

/-- The two elements represent the same residue. -/
def Cong (a b : Elt16 ℤ) : Prop := ∃ q : ℤ, a.val + p448 * q = b.val

theorem R2_intmul_int (a b : Elt16 ℤ) : (R2.intmul a.pack b.pack).limbs = schoolP a b := by
  simp only [R2.intmul, R2.mul_karat_8x8, R2.mul_karate_8x8, R2.mul_school_4x4, Elt16.pack,
    Elt8.limbs, UPKL, UPKH, Simd.BLEND3, Simd.BLENDC, Simd.SHUF4E, Lane.ADD, Lane.MUL, Lane.SUB,
    Lane.LIT, schoolP, conv8]
  ext <;> push_cast <;> ring

theorem R2_intsqr_int (a : Elt16 ℤ) : (R2.intsqr a.pack).limbs = schoolP a a := by
  simp only [R2.intsqr, R2.sqr_karat_8x8, R2.sqr_karate_8x8, R2.sqr_school_4x4, Elt16.pack,
    Elt8.limbs, UPKL, UPKH, Simd.BLEND3, Simd.BLENDC, Simd.SHUF4E, Lane.ADD, Lane.MUL, Lane.SUB,
    Lane.LIT, schoolP, conv8]
  ext <;> push_cast <;> ring

theorem R4_intmul_int (a b : Elt16 ℤ) : R4.intmul a b = schoolP a b := by
  simp only [R4.intmul, R2.mul_karat_8x8, R2.mul_school_4x4, Lane.ADD, Lane.MUL, Lane.SUB,
    schoolP, conv8]
  ext <;> push_cast <;> ring

theorem R4_intsqr_int (a : Elt16 ℤ) : R4.intsqr a = schoolP a a := by
  simp only [R4.intsqr, R2.sqr_karat_8x8, R2.sqr_school_4x4, Lane.ADD, Lane.MUL, Lane.SUB,
    schoolP, conv8]
  ext <;> push_cast <;> ring

theorem R1_intmul_int (a b : Elt16 ℤ) : (R1.intmul a.pack b.pack).limbs = schoolP a b := by
  simp only [R1.intmul, R1.mulInit, R1.mulStep, Elt16.pack, Elt8.limbs, Vec4.join, Vec4.lo, Vec4.hi,
    PERM64, PERM128, half128, Vec4.get, BLEND32, Nat.reduceMod, Nat.reduceDiv, Simd.SHUF4E,
    if_true, if_false, zero_ne_one, Lane.ADD, Lane.MUL, Lane.LIT, schoolP, conv8]
  ext <;> push_cast <;> ring

theorem R1_sqrRaw_int (a : Elt16 ℤ) : (R1.sqrRaw a.pack).limbs = schoolP a a := by
  simp only [R1.sqrRaw, Elt16.pack, Elt8.limbs, Vec4.join, Vec4.lo, Vec4.hi, SHR8,
    PERM64, PERM128, half128, Vec4.get, BLEND32, Nat.reduceMod, Nat.reduceDiv, Simd.SHUF4E,
    if_true, if_false, zero_ne_one, Lane.ADD, Lane.MUL, Lane.LIT, schoolP, conv8]
  ext <;> push_cast <;> ring

/-- The carry out of the upper chain. -/
def h15 (c : Elt16 ℤ) : ℤ :=
  (c.r15 + (c.r14 + (c.r13 + (c.r12 + (c.r11 + (c.r10 + (c.r9 + c.r8 / 2 ^ 28) / 2 ^ 28) / 2 ^ 28) / 2 ^ 28) / 2 ^ 28) / 2 ^ 28) / 2 ^ 28) / 2 ^ 28

theorem R2_compress_int (c : Elt16 ℤ) : Cong (R2.compress c.pack).limbs c := by
  refine ⟨h15 c, ?_⟩
  simp only [R2.compress, h15, Elt16.pack, Elt8.limbs, Simd.SHUF4E, Simd.BLEND3,
    Lane.ADD, Lane.AND, Lane.LIT, Lane.SHR, Elt16.val, Nat.reduceLeDiff, if_false,
    Int.emod_def, p448]
  norm_num only
  ring

theorem R2_compressfast_int (c : Elt16 ℤ) : Cong (R2.compressfast c.pack).limbs c := by
  refine ⟨c.r15 / 2 ^ 28, ?_⟩
  simp only [R2.compressfast, Elt16.pack, Elt8.limbs, Simd.SHUF4E, Simd.BLEND3,
    Lane.ADD, Lane.AND, Lane.LIT, Lane.SHR, Elt16.val, Nat.reduceLeDiff, if_false,
    Int.emod_def, p448]
  norm_num only
  ring

theorem R1_new_compressfast_int (c : Elt16 ℤ) : Cong (R1.new_compressfast c.pack).limbs c := by
  refine ⟨c.r15 / 2 ^ 28, ?_⟩
  simp only [R1.new_compressfast, Elt16.pack, Elt8.limbs, Simd.SHUF4E, Vec4.join, Vec4.lo, Vec4.hi,
    SHR8, PERM128, half128, Nat.reduceMod, Nat.reduceDiv,
    Lane.ADD, Lane.AND, Lane.LIT, Lane.SHR, Elt16.val, Nat.reduceLeDiff, if_false,
    Int.emod_def, p448]
  norm_num only
  ring

private theorem div56 (x : ℤ) : x / 72057594037927936 = x / 268435456 / 268435456 := by
  rw [Int.ediv_ediv_of_nonneg (by norm_num)]; norm_num

theorem R1_compressfast_int (c : Elt16 ℤ) : Cong (R1.compressfast c.pack).limbs c := by
  refine ⟨c.r15 / 2 ^ 28 + c.r14 / 2 ^ 56, ?_⟩
  simp only [R1.compressfast, Elt16.pack, Elt8.limbs, Simd.SHUF4E, Vec4.join, Vec4.lo, Vec4.hi,
    SHR8, PERM128, half128, Nat.reduceMod, Nat.reduceDiv,
    Lane.ADD, Lane.AND, Lane.LIT, Lane.SHR, Elt16.val, Nat.reduceLeDiff, if_false,
    Int.emod_def, p448]
  norm_num only
  simp only [div56]
  ring

/-- The carry out of the chain of all limbs. -/
def h15' (c : Elt16 ℤ) : ℤ :=
  let h := c.r0 / 2 ^ 28
  let h := (c.r1 + h) / 2 ^ 28
  let h := (c.r2 + h) / 2 ^ 28
  let h := (c.r3 + h) / 2 ^ 28
  let h := (c.r4 + h) / 2 ^ 28
  let h := (c.r5 + h) / 2 ^ 28
  let h := (c.r6 + h) / 2 ^ 28
  let h := (c.r7 + h) / 2 ^ 28
  let h := (c.r8 + h) / 2 ^ 28
  let h := (c.r9 + h) / 2 ^ 28
  let h := (c.r10 + h) / 2 ^ 28
  let h := (c.r11 + h) / 2 ^ 28
  let h := (c.r12 + h) / 2 ^ 28
  let h := (c.r13 + h) / 2 ^ 28
  let h := (c.r14 + h) / 2 ^ 28
  let h := (c.r15 + h) / 2 ^ 28
  h

theorem R4_compress_int (c : Elt16 ℤ) : Cong (R4.compress c) c := by
  refine ⟨h15' c, ?_⟩
  simp only [R4.compress, h15', Lane.ADD, Lane.AND, Lane.LIT, Lane.SHR, Elt16.val, Nat.reduceLeDiff,
    if_false, Int.emod_def, p448]
  norm_num only
  ring

theorem R4_compressfast_int (c : Elt16 ℤ) : Cong (R4.compressfast c) c := by
  refine ⟨c.r15 / 2 ^ 28 + c.r14 / 2 ^ 56, ?_⟩
  simp only [R4.compressfast, Lane.ADD, Lane.AND, Lane.LIT, Lane.SHR, Elt16.val, Nat.reduceLeDiff,
    if_false, Int.emod_def, p448]
  norm_num only
  simp only [div56]
  ring

/-- Every limb is below 2^56. -/
def Lt56 (c : Elt16 ℤ) : Prop :=
  c.r0 / 268435456 / 268435456 = 0 ∧
  c.r1 / 268435456 / 268435456 = 0 ∧
  c.r2 / 268435456 / 268435456 = 0 ∧
  c.r3 / 268435456 / 268435456 = 0 ∧
  c.r4 / 268435456 / 268435456 = 0 ∧
  c.r5 / 268435456 / 268435456 = 0 ∧
  c.r6 / 268435456 / 268435456 = 0 ∧
  c.r7 / 268435456 / 268435456 = 0 ∧
  c.r8 / 268435456 / 268435456 = 0 ∧
  c.r9 / 268435456 / 268435456 = 0 ∧
  c.r10 / 268435456 / 268435456 = 0 ∧
  c.r11 / 268435456 / 268435456 = 0 ∧
  c.r12 / 268435456 / 268435456 = 0 ∧
  c.r13 / 268435456 / 268435456 = 0 ∧
  c.r14 / 268435456 / 268435456 = 0 ∧
  c.r15 / 268435456 / 268435456 = 0

theorem lt56 {e : Elt16 W} (h : e.Le (bnd (2 ^ 56 - 1) (2 ^ 56 - 1))) : Lt56 e.ints := by
  have key : ∀ w : W, w.toNat ≤ 2 ^ 56 - 1 → (w.toNat : ℤ) / 268435456 / 268435456 = 0 := by
    intro w h; omega
  obtain ⟨h0, h1, h2, h3, h4, h5, h6, h7, h8, h9, h10, h11, h12, h13, h14, h15⟩ := h
  exact ⟨key _ h0, key _ h1, key _ h2, key _ h3, key _ h4, key _ h5, key _ h6, key _ h7, key _ h8, key _ h9, key _ h10, key _ h11, key _ h12, key _ h13, key _ h14, key _ h15⟩

theorem R4_compressfast2_int (c d : Elt16 ℤ) (h : Lt56 c) :
    Cong (R4.new_compressfast2 c d).1 c := by
  refine ⟨c.r15 / 2 ^ 28, ?_⟩
  obtain ⟨h0, h1, h2, h3, h4, h5, h6, h7, h8, h9, h10, h11, h12, h13, h14, h15⟩ := h
  simp only [R4.new_compressfast2, Lane.ADD, Lane.AND, Lane.LIT, Lane.SHR, Elt16.val,
    Nat.reduceLeDiff, if_false, Int.emod_def, p448]
  norm_num only
  rw [h0, h1, h2, h3, h4, h5, h6, h7, h8, h9, h10, h11, h12, h13, h14, h15]
  ring

theorem R4_compressfast2_int' (c d : Elt16 ℤ) (h : Lt56 d) :
    Cong (R4.new_compressfast2 c d).2 d := by
  refine ⟨d.r15 / 2 ^ 28, ?_⟩
  obtain ⟨h0, h1, h2, h3, h4, h5, h6, h7, h8, h9, h10, h11, h12, h13, h14, h15⟩ := h
  simp only [R4.new_compressfast2, Lane.ADD, Lane.AND, Lane.LIT, Lane.SHR, Elt16.val,
    Nat.reduceLeDiff, if_false, Int.emod_def, p448]
  norm_num only
  rw [h0, h1, h2, h3, h4, h5, h6, h7, h8, h9, h10, h11, h12, h13, h14, h15]
  ring

end Verif.Fp448
