import Verif.Fp25519.RedSpec
import Verif.Simd.Shadow
import Mathlib.Tactic.Ring

/-! # Correctness of the reduced-radix programs

Each program is run on `Sh` (words, integers and intervals together), which reduces it to
an identity on integers and a computation on intervals. -/

namespace Verif.Fp25519

/-- The inverse of `Elt5.limbs`. -/
def Elt10.pack {β : Type} (a : Elt10 β) : Elt5 (Vec2 β) :=
  ⟨⟨a.r0, a.r5⟩, ⟨a.r1, a.r6⟩, ⟨a.r2, a.r7⟩, ⟨a.r3, a.r8⟩, ⟨a.r4, a.r9⟩⟩

theorem pack_limbs {β : Type} (e : Elt5 (Vec2 β)) : e.limbs.pack = e := rfl
theorem limbs_pack {β : Type} (e : Elt10 β) : e.pack.limbs = e := rfl

/-- Intervals starting at 0. -/
def ivs (m : Elt10 ℕ) : Elt10 Iv := m.map fun n => ⟨0, n, true⟩

/-- All intervals are sound and within the given bounds. -/
def okLe (i : Elt10 Iv) (m : Elt10 ℕ) : Bool :=
  i.r0.ok && i.r1.ok && i.r2.ok && i.r3.ok && i.r4.ok && i.r5.ok && i.r6.ok && i.r7.ok &&
  i.r8.ok && i.r9.ok &&
  decide (i.r0.hi ≤ m.r0) && decide (i.r1.hi ≤ m.r1) && decide (i.r2.hi ≤ m.r2) &&
  decide (i.r3.hi ≤ m.r3) && decide (i.r4.hi ≤ m.r4) && decide (i.r5.hi ≤ m.r5) &&
  decide (i.r6.hi ≤ m.r6) && decide (i.r7.hi ≤ m.r7) && decide (i.r8.hi ≤ m.r8) &&
  decide (i.r9.hi ≤ m.r9)

theorem lift {a : Elt10 W} {m : Elt10 ℕ} (h : a.Le m) :
    ∃ s : Elt10 Sh, s.map Sh.w = a ∧ s.map Sh.n = a.ints ∧ s.map Sh.iv = ivs m := by
  obtain ⟨h0, h1, h2, h3, h4, h5, h6, h7, h8, h9⟩ := h
  exact ⟨⟨.mk' _ 0 _ ⟨by simp, h0⟩, .mk' _ 0 _ ⟨by simp, h1⟩, .mk' _ 0 _ ⟨by simp, h2⟩,
    .mk' _ 0 _ ⟨by simp, h3⟩, .mk' _ 0 _ ⟨by simp, h4⟩, .mk' _ 0 _ ⟨by simp, h5⟩,
    .mk' _ 0 _ ⟨by simp, h6⟩, .mk' _ 0 _ ⟨by simp, h7⟩, .mk' _ 0 _ ⟨by simp, h8⟩,
    .mk' _ 0 _ ⟨by simp, h9⟩⟩, rfl, rfl, rfl⟩

theorem unlift {s : Elt10 Sh} {m : Elt10 ℕ} (h : okLe (s.map Sh.iv) m = true) :
    (s.map Sh.w).Le m ∧ (s.map Sh.w).ints = s.map Sh.n := by
  simp only [okLe, Elt10.map, Bool.and_eq_true] at h
  obtain ⟨⟨⟨⟨⟨⟨⟨⟨⟨⟨⟨⟨⟨⟨⟨⟨⟨⟨⟨k0, k1⟩, k2⟩, k3⟩, k4⟩, k5⟩, k6⟩, k7⟩, k8⟩, k9⟩, h0⟩, h1⟩, h2⟩,
    h3⟩, h4⟩, h5⟩, h6⟩, h7⟩, h8⟩, h9⟩ := h
  obtain ⟨a0, -, b0⟩ := s.r0.ok k0
  obtain ⟨a1, -, b1⟩ := s.r1.ok k1
  obtain ⟨a2, -, b2⟩ := s.r2.ok k2
  obtain ⟨a3, -, b3⟩ := s.r3.ok k3
  obtain ⟨a4, -, b4⟩ := s.r4.ok k4
  obtain ⟨a5, -, b5⟩ := s.r5.ok k5
  obtain ⟨a6, -, b6⟩ := s.r6.ok k6
  obtain ⟨a7, -, b7⟩ := s.r7.ok k7
  obtain ⟨a8, -, b8⟩ := s.r8.ok k8
  obtain ⟨a9, -, b9⟩ := s.r9.ok k9
  refine ⟨⟨b0.trans (of_decide_eq_true h0), b1.trans (of_decide_eq_true h1),
    b2.trans (of_decide_eq_true h2), b3.trans (of_decide_eq_true h3),
    b4.trans (of_decide_eq_true h4), b5.trans (of_decide_eq_true h5),
    b6.trans (of_decide_eq_true h6), b7.trans (of_decide_eq_true h7),
    b8.trans (of_decide_eq_true h8), b9.trans (of_decide_eq_true h9)⟩, ?_⟩
  simp only [Elt10.ints, Elt10.map]
  rw [a0, a1, a2, a3, a4, a5, a6, a7, a8, a9]

/-- A program of one element, run on words: within the given input bounds it stays within
the output bounds and computes what it computes on integers. -/
theorem run1 {f : ∀ {α : Type} [Lane α], Elt10 α → Elt10 α}
    (hw : ∀ s : Elt10 Sh, (f s).map Sh.w = f (s.map Sh.w))
    (hn : ∀ s : Elt10 Sh, (f s).map Sh.n = f (s.map Sh.n))
    (hi : ∀ s : Elt10 Sh, (f s).map Sh.iv = f (s.map Sh.iv))
    {m m' : Elt10 ℕ} (hok : okLe (f (ivs m)) m' = true) {a : Elt10 W} (ha : a.Le m) :
    (f a).Le m' ∧ (f a).ints = f a.ints := by
  obtain ⟨s, rfl, h2, h3⟩ := lift ha
  rw [← hw, ← h2, ← hn]
  exact unlift (by rw [hi, h3, hok])

/-- The same for a program of two elements. -/
theorem run2 {f : ∀ {α : Type} [Lane α], Elt10 α → Elt10 α → Elt10 α}
    (hw : ∀ s t : Elt10 Sh, (f s t).map Sh.w = f (s.map Sh.w) (t.map Sh.w))
    (hn : ∀ s t : Elt10 Sh, (f s t).map Sh.n = f (s.map Sh.n) (t.map Sh.n))
    (hi : ∀ s t : Elt10 Sh, (f s t).map Sh.iv = f (s.map Sh.iv) (t.map Sh.iv))
    {m₁ m₂ m' : Elt10 ℕ} (hok : okLe (f (ivs m₁) (ivs m₂)) m' = true) {a b : Elt10 W}
    (ha : a.Le m₁) (hb : b.Le m₂) :
    (f a b).Le m' ∧ (f a b).ints = f a.ints b.ints := by
  obtain ⟨s, rfl, h2, h3⟩ := lift ha
  obtain ⟨t, rfl, k2, k3⟩ := lift hb
  rw [← hw, ← h2, ← k2, ← hn]
  exact unlift (by rw [hi, h3, k3, hok])

/-- Schoolbook multiplication of limbs, folded by 2^255 = 19. -/
def school (a b : Elt10 ℤ) : Elt10 ℤ where
  r0 :=
    (a.r0 * b.r0) + 38 * (a.r1 * b.r9) + 19 * (a.r2 * b.r8) + 38 * (a.r3 * b.r7) + 19 * (a.r4 *
    b.r6) + 38 * (a.r5 * b.r5) + 19 * (a.r6 * b.r4) + 38 * (a.r7 * b.r3) + 19 * (a.r8 * b.r2) +
    38 * (a.r9 * b.r1)
  r1 :=
    (a.r0 * b.r1) + (a.r1 * b.r0) + 19 * (a.r2 * b.r9) + 19 * (a.r3 * b.r8) + 19 * (a.r4 * b.r7)
    + 19 * (a.r5 * b.r6) + 19 * (a.r6 * b.r5) + 19 * (a.r7 * b.r4) + 19 * (a.r8 * b.r3) + 19 *
    (a.r9 * b.r2)
  r2 :=
    (a.r0 * b.r2) + 2 * (a.r1 * b.r1) + (a.r2 * b.r0) + 38 * (a.r3 * b.r9) + 19 * (a.r4 * b.r8)
    + 38 * (a.r5 * b.r7) + 19 * (a.r6 * b.r6) + 38 * (a.r7 * b.r5) + 19 * (a.r8 * b.r4) + 38 *
    (a.r9 * b.r3)
  r3 :=
    (a.r0 * b.r3) + (a.r1 * b.r2) + (a.r2 * b.r1) + (a.r3 * b.r0) + 19 * (a.r4 * b.r9) + 19 *
    (a.r5 * b.r8) + 19 * (a.r6 * b.r7) + 19 * (a.r7 * b.r6) + 19 * (a.r8 * b.r5) + 19 * (a.r9 *
    b.r4)
  r4 :=
    (a.r0 * b.r4) + 2 * (a.r1 * b.r3) + (a.r2 * b.r2) + 2 * (a.r3 * b.r1) + (a.r4 * b.r0) + 38 *
    (a.r5 * b.r9) + 19 * (a.r6 * b.r8) + 38 * (a.r7 * b.r7) + 19 * (a.r8 * b.r6) + 38 * (a.r9 *
    b.r5)
  r5 :=
    (a.r0 * b.r5) + (a.r1 * b.r4) + (a.r2 * b.r3) + (a.r3 * b.r2) + (a.r4 * b.r1) + (a.r5 *
    b.r0) + 19 * (a.r6 * b.r9) + 19 * (a.r7 * b.r8) + 19 * (a.r8 * b.r7) + 19 * (a.r9 * b.r6)
  r6 :=
    (a.r0 * b.r6) + 2 * (a.r1 * b.r5) + (a.r2 * b.r4) + 2 * (a.r3 * b.r3) + (a.r4 * b.r2) + 2 *
    (a.r5 * b.r1) + (a.r6 * b.r0) + 38 * (a.r7 * b.r9) + 19 * (a.r8 * b.r8) + 38 * (a.r9 * b.r7)
  r7 :=
    (a.r0 * b.r7) + (a.r1 * b.r6) + (a.r2 * b.r5) + (a.r3 * b.r4) + (a.r4 * b.r3) + (a.r5 *
    b.r2) + (a.r6 * b.r1) + (a.r7 * b.r0) + 19 * (a.r8 * b.r9) + 19 * (a.r9 * b.r8)
  r8 :=
    (a.r0 * b.r8) + 2 * (a.r1 * b.r7) + (a.r2 * b.r6) + 2 * (a.r3 * b.r5) + (a.r4 * b.r4) + 2 *
    (a.r5 * b.r3) + (a.r6 * b.r2) + 2 * (a.r7 * b.r1) + (a.r8 * b.r0) + 38 * (a.r9 * b.r9)
  r9 :=
    (a.r0 * b.r9) + (a.r1 * b.r8) + (a.r2 * b.r7) + (a.r3 * b.r6) + (a.r4 * b.r5) + (a.r5 *
    b.r4) + (a.r6 * b.r3) + (a.r7 * b.r2) + (a.r8 * b.r1) + (a.r9 * b.r0)

theorem school_val (a b : Elt10 ℤ) : ∃ q : ℤ, (school a b).val + (2 ^ 255 - 19) * q = a.val * b.val := by
  refine ⟨
    2 ^ 1 * (a.r1 * b.r9) + 2 ^ 0 * (a.r2 * b.r8) + 2 ^ 26 * (a.r2 * b.r9) + 2 ^ 1 * (a.r3 *
    b.r7) + 2 ^ 26 * (a.r3 * b.r8) + 2 ^ 52 * (a.r3 * b.r9) + 2 ^ 0 * (a.r4 * b.r6) + 2 ^ 26 *
    (a.r4 * b.r7) + 2 ^ 51 * (a.r4 * b.r8) + 2 ^ 77 * (a.r4 * b.r9) + 2 ^ 1 * (a.r5 * b.r5) + 2
    ^ 26 * (a.r5 * b.r6) + 2 ^ 52 * (a.r5 * b.r7) + 2 ^ 77 * (a.r5 * b.r8) + 2 ^ 103 * (a.r5 *
    b.r9) + 2 ^ 0 * (a.r6 * b.r4) + 2 ^ 26 * (a.r6 * b.r5) + 2 ^ 51 * (a.r6 * b.r6) + 2 ^ 77 *
    (a.r6 * b.r7) + 2 ^ 102 * (a.r6 * b.r8) + 2 ^ 128 * (a.r6 * b.r9) + 2 ^ 1 * (a.r7 * b.r3) +
    2 ^ 26 * (a.r7 * b.r4) + 2 ^ 52 * (a.r7 * b.r5) + 2 ^ 77 * (a.r7 * b.r6) + 2 ^ 103 * (a.r7 *
    b.r7) + 2 ^ 128 * (a.r7 * b.r8) + 2 ^ 154 * (a.r7 * b.r9) + 2 ^ 0 * (a.r8 * b.r2) + 2 ^ 26 *
    (a.r8 * b.r3) + 2 ^ 51 * (a.r8 * b.r4) + 2 ^ 77 * (a.r8 * b.r5) + 2 ^ 102 * (a.r8 * b.r6) +
    2 ^ 128 * (a.r8 * b.r7) + 2 ^ 153 * (a.r8 * b.r8) + 2 ^ 179 * (a.r8 * b.r9) + 2 ^ 1 * (a.r9
    * b.r1) + 2 ^ 26 * (a.r9 * b.r2) + 2 ^ 52 * (a.r9 * b.r3) + 2 ^ 77 * (a.r9 * b.r4) + 2 ^ 103
    * (a.r9 * b.r5) + 2 ^ 128 * (a.r9 * b.r6) + 2 ^ 154 * (a.r9 * b.r7) + 2 ^ 179 * (a.r9 *
    b.r8) + 2 ^ 205 * (a.r9 * b.r9), ?_⟩
  simp only [school, Elt10.val]
  ring

theorem R2_intmul_int (a b : Elt10 ℤ) : (R2.intmul a.pack b.pack).limbs = school a b := by
  simp only [R2.intmul, Elt10.pack, Elt5.limbs, Simd.SHLV, Simd.SHUF44, Simd.SHUFEE, Simd.ALIGNR,
    Lane.ADD, Lane.MUL, Lane.LIT, Lane.SHL, school]
  ext <;> simp only [Nat.reduceLeDiff, if_false] <;> push_cast <;> ring

theorem R2_intsqr_int (a : Elt10 ℤ) : (R2.intsqr a.pack).limbs = school a a := by
  simp only [R2.intsqr, Elt10.pack, Elt5.limbs, Simd.SHLV, Simd.SHUF44, Simd.SHUFEE, Simd.ALIGNR,
    Lane.ADD, Lane.MUL, Lane.LIT, Lane.SHL, school]
  ext <;> simp only [Nat.reduceLeDiff, if_false] <;> push_cast <;> ring

theorem R1_sqrRaw_int (a : Elt10 ℤ) : (R1.sqrRaw a.pack).limbs = school a a := by
  simp only [R1.sqrRaw, Elt10.pack, Elt5.limbs, Simd.SHUF44, Simd.SHUFEE, Simd.SHUF4E,
    Simd.BLEND3, Simd.BLENDC, Simd.LIT2, Lane.ADD, Lane.MUL, Lane.LIT, school]
  ext <;> push_cast <;> ring

theorem R4_intmul_int (a b : Elt10 ℤ) : R4.intmul a b = school a b := by
  simp only [R4.intmul, Lane.ADD, Lane.MUL, Lane.LIT, school]
  ext <;> push_cast <;> ring

theorem R4_intsqr_int (a : Elt10 ℤ) : R4.intsqr a = school a a := by
  simp only [R4.intsqr, Lane.ADD, Lane.MUL, Lane.LIT, school]
  ext <;> push_cast <;> ring

/-- The two elements represent the same residue. -/
def Cong (a b : Elt10 ℤ) : Prop := ∃ q : ℤ, a.val + (2 ^ 255 - 19) * q = b.val

theorem R2_compress_int (c : Elt10 ℤ) : Cong (R2.compress c.pack).limbs c := by
  refine ⟨(c.r9 + (c.r8 + (c.r7 + (c.r6 + c.r5 / 2 ^ 25) / 2 ^ 26) / 2 ^ 25) / 2 ^ 26) / 2 ^ 25, ?_⟩
  simp only [R2.compress, Elt10.pack, Elt5.limbs, Simd.SHLV, Simd.SHRV, Simd.SHUF4E, Simd.LIT2,
    Lane.ADD, Lane.AND, Lane.LIT, Lane.SHL, Lane.SHR, Elt10.val, Nat.reduceLeDiff, if_false, if_true,
    Int.emod_def]
  norm_num only
  ring

theorem R1_sqrCarry_int (c : Elt10 ℤ) : Cong (R1.sqrCarry c.pack).limbs c := by
  refine ⟨(c.r9 + (c.r8 + (c.r7 + (c.r6 + c.r5 / 2 ^ 25) / 2 ^ 26) / 2 ^ 25) / 2 ^ 26) / 2 ^ 25, ?_⟩
  simp only [R1.sqrCarry, Elt10.pack, Elt5.limbs, Simd.SHLV, Simd.SHRV, Simd.SHUF4E, Simd.LIT2,
    Lane.ADD, Lane.AND, Lane.LIT, Lane.SHL, Lane.SHR, Elt10.val, Nat.reduceLeDiff, if_false, if_true,
    Int.emod_def]
  norm_num only
  ring

theorem R2_compressfast_int (c : Elt10 ℤ) : Cong (R2.compressfast c.pack).limbs c := by
  refine ⟨c.r9 / 2 ^ 25, ?_⟩
  simp only [R2.compressfast, Elt10.pack, Elt5.limbs, Simd.SHLV, Simd.SHRV, Simd.SHUF4E, Simd.LIT2,
    Lane.ADD, Lane.AND, Lane.LIT, Lane.SHL, Lane.SHR, Elt10.val, Nat.reduceLeDiff, if_false, if_true,
    Int.emod_def]
  norm_num only
  ring

theorem R4_compress_int (c : Elt10 ℤ) : Cong (R4.compress c) c := by
  refine ⟨(c.r9 + (c.r8 + (c.r7 + (c.r6 + (c.r5 + (c.r4 + (c.r3 + (c.r2 + (c.r1 + c.r0 / 2 ^ 26) / 2 ^ 25) / 2 ^ 26) / 2 ^ 25) / 2 ^ 26) / 2 ^ 25) / 2 ^ 26) / 2 ^ 25) / 2 ^ 26) / 2 ^ 25, ?_⟩
  simp only [R4.compress, Lane.ADD, Lane.AND, Lane.LIT, Lane.SHL, Lane.SHR, Elt10.val,
    Nat.reduceLeDiff, if_false, Int.emod_def]
  norm_num only
  ring

private theorem div51 (x : ℤ) :
    x / 2251799813685248 = x / 67108864 / 33554432 ∧
    x / 2251799813685248 = x / 33554432 / 67108864 := by
  constructor <;> rw [Int.ediv_ediv_of_nonneg (by norm_num)] <;> norm_num

theorem R4_compressfast_int (c : Elt10 ℤ) : Cong (R4.compressfast c) c := by
  refine ⟨c.r9 / 2 ^ 25 + c.r8 / 2 ^ 51, ?_⟩
  simp only [R4.compressfast, Lane.ADD, Lane.AND, Lane.LIT, Lane.MUL, Lane.SHR, Elt10.val,
    Nat.reduceLeDiff, Nat.reduceAdd, if_false, Int.emod_def]
  norm_num only
  rw [(div51 c.r0).1, (div51 c.r1).2, (div51 c.r2).1, (div51 c.r3).2, (div51 c.r4).1,
    (div51 c.r5).2, (div51 c.r6).1, (div51 c.r7).2, (div51 c.r8).1]
  ring

theorem R4_compressfast2_int (c d : Elt10 ℤ) : Cong (R4.new_compressfast2 c d).1 c := by
  refine ⟨c.r9 / 2 ^ 25, ?_⟩
  simp only [R4.new_compressfast2, Lane.ADD, Lane.AND, Lane.LIT, Lane.MUL, Lane.SHR, Elt10.val,
    Nat.reduceLeDiff, if_false, Int.emod_def]
  norm_num only
  ring

end Verif.Fp25519
