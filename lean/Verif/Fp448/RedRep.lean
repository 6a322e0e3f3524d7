import Verif.Fp448.RedLemmas
import Verif.Fp448.FullLemmas

/-! # Residues with limb bounds

`Rp m e x`: the limbs of `e` are within the bounds `m` and `e` stands for the residue `x`.
Each operation has one lemma, for any bounds that a computation on intervals accepts. -/

namespace Verif.Fp448

set_option exponentiation.threshold 2000

theorem Cong.cast {a b : Elt16 ℤ} (h : Cong a b) : ((a.val : ℤ) : Fp) = (b.val : Fp) := by
  obtain ⟨q, h⟩ := h
  apply cast_eq
  exact ⟨-q, by linear_combination h⟩

theorem Cong.toFp {a : Elt16 W} {b : Elt16 ℤ} (h : Cong a.ints b) : a.toFp = (b.val : Fp) := h.cast

theorem schoolP_cast (a b : Elt16 ℤ) :
    (((schoolP a b).val : ℤ) : Fp) = (a.val : Fp) * (b.val : Fp) := by
  obtain ⟨q, h⟩ := schoolP_val a b
  rw [← Int.cast_mul]
  apply cast_eq
  exact ⟨-q, by linear_combination h⟩

theorem p_mul_cast (n : ℤ) : ((n * p448 : ℤ) : Fp) = 0 := by
  have : ((n * p448 : ℤ) : Fp) = ((0 : ℤ) : Fp) := cast_eq ⟨n, by ring⟩
  rw [this]; simp

/-! ## Additive operations on integers -/

theorem R2_add_int (a b : Elt16 ℤ) : (R2.add a.pack b.pack).limbs.val = a.val + b.val := by
  simp only [R2.add, Elt16.pack, Elt8.limbs, Elt8.zip, Lane.ADD, Elt16.val]
  ring

theorem R2_sub_int (a b : Elt16 ℤ) :
    (R2.sub a.pack b.pack).limbs.val = a.val + 2 * p448 - b.val := by
  simp only [R2.sub, R2.twoP, Elt16.pack, Elt8.limbs, Elt8.zip, Simd.LIT2, Lane.ADD, Lane.SUB,
    Lane.LIT, Elt16.val, p448]
  push_cast; ring

theorem R1_neg_int (a : Elt16 ℤ) : (R1.neg a.pack).limbs.val = 2 * p448 - a.val := by
  simp only [R1.neg, R1.twoP, Elt16.pack, Elt8.limbs, Elt8.zip, Simd.LIT2, Lane.SUB,
    Lane.LIT, Elt16.val, p448]
  push_cast; ring

theorem R4_add_int (a b : Elt16 ℤ) : (R4.add a b).val = a.val + b.val := by
  simp only [R4.add, Elt16.zip, Lane.ADD, Elt16.val]
  ring

theorem R4_sub_int (a b : Elt16 ℤ) : (R4.sub a b).val = a.val + 2 * p448 - b.val := by
  simp only [R4.sub, R4.twoP, Elt16.zip, Lane.ADD, Lane.SUB, Lane.LIT, Elt16.val, p448]
  push_cast; ring

theorem R4_sublar_int (a b : Elt16 ℤ) :
    (R4.addsublar a b).2.val = a.val + 2 ^ 34 * p448 - b.val := by
  simp only [R4.addsublar, R4.twoTo34P, Elt16.zip, Lane.ADD, Lane.SUB, Lane.LIT, Elt16.val, p448]
  push_cast; ring

/-! ## Bounds and residues -/

/-- The element `e` is within the bounds `m` and represents `x`. -/
def Rp (m : Elt16 ℕ) (e : Elt16 W) (x : Fp) : Prop := e.Le m ∧ e.toFp = x

/-- The limbs of `m` are at most those of `m'`. -/
def leB (m m' : Elt16 ℕ) : Bool :=
  decide (m.r0 ≤ m'.r0 ∧ m.r1 ≤ m'.r1 ∧ m.r2 ≤ m'.r2 ∧ m.r3 ≤ m'.r3 ∧ m.r4 ≤ m'.r4 ∧
      m.r5 ≤ m'.r5 ∧ m.r6 ≤ m'.r6 ∧ m.r7 ≤ m'.r7 ∧ m.r8 ≤ m'.r8 ∧ m.r9 ≤ m'.r9 ∧
      m.r10 ≤ m'.r10 ∧ m.r11 ≤ m'.r11 ∧ m.r12 ≤ m'.r12 ∧ m.r13 ≤ m'.r13 ∧ m.r14 ≤ m'.r14 ∧
      m.r15 ≤ m'.r15)

theorem Elt16.Le.mono {e : Elt16 W} {m m' : Elt16 ℕ} (h : e.Le m) (k : leB m m' = true) :
    e.Le m' := by
  have k := of_decide_eq_true k
  unfold Elt16.Le at *
  omega

theorem Rp.mono {m m' : Elt16 ℕ} {e : Elt16 W} {x : Fp} (h : Rp m e x) (k : leB m m' = true) :
    Rp m' e x := ⟨h.1.mono k, h.2⟩

theorem Rp.cast {m : Elt16 ℕ} {e : Elt16 W} {x y : Fp} (h : Rp m e x) (k : x = y) : Rp m e y :=
  k ▸ h

section R2
variable {m m₁ m₂ m' : Elt16 ℕ} {a b : Elt8 U} {x y : Fp}

/-- The bounds under which `R2.intmul` is exact. -/
def okMul2 (m₁ m₂ m' : Elt16 ℕ) : Bool :=
  okW (R2.intmul (iws m₁).pack (iws m₂).pack).limbs && okLe (schoolP (ivs m₁) (ivs m₂)) m'

private theorem intmul_w (s t : Elt16 Sw) : (R2.intmul s.pack t.pack).limbs.map Sw.w =
    (R2.intmul (s.map Sw.w).pack (t.map Sw.w).pack).limbs := rfl
private theorem intmul_n (s t : Elt16 Sw) : (R2.intmul s.pack t.pack).limbs.map Sw.n =
    (R2.intmul (s.map Sw.n).pack (t.map Sw.n).pack).limbs := rfl
private theorem intmul_iw (s t : Elt16 Sw) : (R2.intmul s.pack t.pack).limbs.map Sw.iw =
    (R2.intmul (s.map Sw.iw).pack (t.map Sw.iw).pack).limbs := rfl

theorem Rp.r2intmul (ha : Rp m₁ a.limbs x) (hb : Rp m₂ b.limbs y) (k : okMul2 m₁ m₂ m' = true) :
    Rp m' (R2.intmul a b).limbs (x * y) := by
  rw [okMul2, Bool.and_eq_true] at k
  obtain ⟨h1, h2⟩ := run2 (f := fun a b => schoolP a b) (fun _ _ => rfl)
    (fun _ _ => rfl) (fun _ _ => rfl) (m' := m') k.2 ha.1 hb.1
  have h3 := wrap2 (f := fun a b => (R2.intmul a.pack b.pack).limbs) (g := fun a b => schoolP a b)
      intmul_w intmul_n intmul_iw R2_intmul_int k.1 ha.1 hb.1 h2
  simp only [pack_limbs] at h3
  rw [h3]
  refine ⟨h1, ?_⟩
  unfold Elt16.toFp
  rw [h2, schoolP_cast, ← ha.2, ← hb.2]; rfl

/-- The bounds under which `R2.intsqr` is exact. -/
def okSqr2 (m m' : Elt16 ℕ) : Bool :=
  okW (R2.intsqr (iws m).pack).limbs && okLe (schoolP (ivs m) (ivs m)) m'

private theorem intsqr_w (s : Elt16 Sw) : (R2.intsqr s.pack).limbs.map Sw.w =
    (R2.intsqr (s.map Sw.w).pack).limbs := rfl
private theorem intsqr_n (s : Elt16 Sw) : (R2.intsqr s.pack).limbs.map Sw.n =
    (R2.intsqr (s.map Sw.n).pack).limbs := rfl
private theorem intsqr_iw (s : Elt16 Sw) : (R2.intsqr s.pack).limbs.map Sw.iw =
    (R2.intsqr (s.map Sw.iw).pack).limbs := rfl

theorem Rp.r2intsqr (ha : Rp m a.limbs x) (k : okSqr2 m m' = true) :
    Rp m' (R2.intsqr a).limbs (x * x) := by
  rw [okSqr2, Bool.and_eq_true] at k
  obtain ⟨h1, h2⟩ := run2 (f := fun a b => schoolP a b) (fun _ _ => rfl)
    (fun _ _ => rfl) (fun _ _ => rfl) (m' := m') k.2 ha.1 ha.1
  have h3 := wrap1 (f := fun a => (R2.intsqr a.pack).limbs) (g := fun a => schoolP a a)
      intsqr_w intsqr_n intsqr_iw R2_intsqr_int k.1 ha.1 h2
  simp only [pack_limbs] at h3
  rw [h3]
  refine ⟨h1, ?_⟩
  unfold Elt16.toFp
  rw [h2, schoolP_cast, ← ha.2]; rfl

theorem Rp.r2compress (ha : Rp m a.limbs x)
    (k : okLe (R2.compress (ivs m).pack).limbs m' = true) : Rp m' (R2.compress a).limbs x := by
  obtain ⟨h1, h2⟩ := run1 (f := fun a => (R2.compress a.pack).limbs) (fun _ => rfl)
    (fun _ => rfl) (fun _ => rfl) (m' := m') k ha.1
  refine ⟨h1, ?_⟩
  have h3 : Cong (R2.compress a).limbs.ints a.limbs.ints := h2 ▸ R2_compress_int _
  rw [h3.toFp, ← ha.2]; rfl

theorem R1_compress_eq {α : Type} [Simd α] (a : Elt8 α) : R1.compress a = R2.compress a := rfl

theorem Rp.r2compressfast (ha : Rp m a.limbs x)
    (k : okLe (R2.compressfast (ivs m).pack).limbs m' = true) :
    Rp m' (R2.compressfast a).limbs x := by
  obtain ⟨h1, h2⟩ := run1 (f := fun a => (R2.compressfast a.pack).limbs) (fun _ => rfl)
    (fun _ => rfl) (fun _ => rfl) (m' := m') k ha.1
  refine ⟨h1, ?_⟩
  have h3 : Cong (R2.compressfast a).limbs.ints a.limbs.ints := h2 ▸ R2_compressfast_int _
  rw [h3.toFp, ← ha.2]; rfl

theorem Rp.r1compressfast (ha : Rp m a.limbs x)
    (k : okLe (R1.compressfast (ivs m).pack).limbs m' = true) :
    Rp m' (R1.compressfast a).limbs x := by
  obtain ⟨h1, h2⟩ := run1 (f := fun a => (R1.compressfast a.pack).limbs) (fun _ => rfl)
    (fun _ => rfl) (fun _ => rfl) (m' := m') k ha.1
  refine ⟨h1, ?_⟩
  have h3 : Cong (R1.compressfast a).limbs.ints a.limbs.ints := h2 ▸ R1_compressfast_int _
  rw [h3.toFp, ← ha.2]; rfl

theorem Rp.r1new_compressfast (ha : Rp m a.limbs x)
    (k : okLe (R1.new_compressfast (ivs m).pack).limbs m' = true) :
    Rp m' (R1.new_compressfast a).limbs x := by
  obtain ⟨h1, h2⟩ := run1 (f := fun a => (R1.new_compressfast a.pack).limbs) (fun _ => rfl)
    (fun _ => rfl) (fun _ => rfl) (m' := m') k ha.1
  refine ⟨h1, ?_⟩
  have h3 : Cong (R1.new_compressfast a).limbs.ints a.limbs.ints := h2 ▸ R1_new_compressfast_int _
  rw [h3.toFp, ← ha.2]; rfl

/-- The carries of a squaring are those of `compressfast`. -/
theorem R1_sqrCarry_eq {β : Type} [Lane β] (c : Elt8 (Vec2 β)) :
    R1.sqrCarry c = R1.compressfast c := rfl

theorem Rp.r1intmul (ha : Rp m₁ a.limbs x) (hb : Rp m₂ b.limbs y)
    (k : okLe (R1.intmul (ivs m₁).pack (ivs m₂).pack).limbs m' = true) :
    Rp m' (R1.intmul a b).limbs (x * y) := by
  obtain ⟨h1, h2⟩ := run2 (f := fun a b => (R1.intmul a.pack b.pack).limbs) (fun _ _ => rfl)
    (fun _ _ => rfl) (fun _ _ => rfl) (m' := m') k ha.1 hb.1
  refine ⟨h1, ?_⟩
  rw [R1_intmul_int] at h2
  unfold Elt16.toFp
  rw [show (R1.intmul a b).limbs.ints = _ from h2, schoolP_cast, ← ha.2, ← hb.2]; rfl

theorem Rp.r1sqrRaw (ha : Rp m a.limbs x)
    (k : okLe (R1.sqrRaw (ivs m).pack).limbs m' = true) :
    Rp m' (R1.sqrRaw a).limbs (x * x) := by
  obtain ⟨h1, h2⟩ := run1 (f := fun a => (R1.sqrRaw a.pack).limbs) (fun _ => rfl)
    (fun _ => rfl) (fun _ => rfl) (m' := m') k ha.1
  refine ⟨h1, ?_⟩
  rw [R1_sqrRaw_int] at h2
  unfold Elt16.toFp
  rw [show (R1.sqrRaw a).limbs.ints = _ from h2, schoolP_cast, ← ha.2]; rfl

theorem Rp.r2add (ha : Rp m₁ a.limbs x) (hb : Rp m₂ b.limbs y)
    (k : okLe (R2.add (ivs m₁).pack (ivs m₂).pack).limbs m' = true) :
    Rp m' (R2.add a b).limbs (x + y) := by
  obtain ⟨h1, h2⟩ := run2 (f := fun a b => (R2.add a.pack b.pack).limbs) (fun _ _ => rfl)
    (fun _ _ => rfl) (fun _ _ => rfl) (m' := m') k ha.1 hb.1
  refine ⟨h1, ?_⟩
  unfold Elt16.toFp
  rw [show (R2.add a b).limbs.ints = _ from h2, R2_add_int, ← ha.2, ← hb.2]
  push_cast; rfl

theorem Rp.r2sub (ha : Rp m₁ a.limbs x) (hb : Rp m₂ b.limbs y)
    (k : okLe (R2.sub (ivs m₁).pack (ivs m₂).pack).limbs m' = true) :
    Rp m' (R2.sub a b).limbs (x - y) := by
  obtain ⟨h1, h2⟩ := run2 (f := fun a b => (R2.sub a.pack b.pack).limbs) (fun _ _ => rfl)
    (fun _ _ => rfl) (fun _ _ => rfl) (m' := m') k ha.1 hb.1
  refine ⟨h1, ?_⟩
  unfold Elt16.toFp
  rw [show (R2.sub a b).limbs.ints = _ from h2, R2_sub_int, Int.cast_sub, Int.cast_add, p_mul_cast,
    add_zero, ← ha.2, ← hb.2]; rfl

theorem Rp.r1neg (ha : Rp m a.limbs x)
    (k : okLe (R1.neg (ivs m).pack).limbs m' = true) : Rp m' (R1.neg a).limbs (-x) := by
  obtain ⟨h1, h2⟩ := run1 (f := fun a => (R1.neg a.pack).limbs) (fun _ => rfl)
    (fun _ => rfl) (fun _ => rfl) (m' := m') k ha.1
  refine ⟨h1, ?_⟩
  unfold Elt16.toFp
  rw [show (R1.neg a).limbs.ints = _ from h2, R1_neg_int, Int.cast_sub, p_mul_cast, zero_sub,
    ← ha.2]; rfl

end R2

section R4
variable {m m₁ m₂ m' : Elt16 ℕ} {a b : Elt16 W} {x y : Fp}

/-- The bounds under which `R4.intmul` is exact. -/
def okMul4 (m₁ m₂ m' : Elt16 ℕ) : Bool :=
  okW (R4.intmul (iws m₁) (iws m₂)) && okLe (schoolP (ivs m₁) (ivs m₂)) m'

theorem Rp.r4intmul (ha : Rp m₁ a x) (hb : Rp m₂ b y) (k : okMul4 m₁ m₂ m' = true) :
    Rp m' (R4.intmul a b) (x * y) := by
  rw [okMul4, Bool.and_eq_true] at k
  obtain ⟨h1, h2⟩ := run2 (f := fun a b => schoolP a b) (fun _ _ => rfl)
    (fun _ _ => rfl) (fun _ _ => rfl) (m' := m') k.2 ha.1 hb.1
  have h3 : R4.intmul a b = schoolP a b :=
    wrap2 (f := fun a b => R4.intmul a b) (g := fun a b => schoolP a b)
      (fun _ _ => rfl) (fun _ _ => rfl) (fun _ _ => rfl) R4_intmul_int k.1 ha.1 hb.1 h2
  rw [h3]
  refine ⟨h1, ?_⟩
  unfold Elt16.toFp
  rw [h2, schoolP_cast, ← ha.2, ← hb.2]; rfl

/-- The bounds under which `R4.intsqr` is exact. -/
def okSqr4 (m m' : Elt16 ℕ) : Bool :=
  okW (R4.intsqr (iws m)) && okLe (schoolP (ivs m) (ivs m)) m'

theorem Rp.r4intsqr (ha : Rp m a x) (k : okSqr4 m m' = true) : Rp m' (R4.intsqr a) (x * x) := by
  rw [okSqr4, Bool.and_eq_true] at k
  obtain ⟨h1, h2⟩ := run2 (f := fun a b => schoolP a b) (fun _ _ => rfl)
    (fun _ _ => rfl) (fun _ _ => rfl) (m' := m') k.2 ha.1 ha.1
  have h3 : R4.intsqr a = schoolP a a :=
    wrap1 (f := fun a => R4.intsqr a) (g := fun a => schoolP a a)
      (fun _ => rfl) (fun _ => rfl) (fun _ => rfl) R4_intsqr_int k.1 ha.1 h2
  rw [h3]
  refine ⟨h1, ?_⟩
  unfold Elt16.toFp
  rw [h2, schoolP_cast, ← ha.2]; rfl

theorem Rp.r4compress (ha : Rp m a x) (k : okLe (R4.compress (ivs m)) m' = true) :
    Rp m' (R4.compress a) x := by
  obtain ⟨h1, h2⟩ := run1 (f := fun a => R4.compress a) (fun _ => rfl)
    (fun _ => rfl) (fun _ => rfl) (m' := m') k ha.1
  refine ⟨h1, ?_⟩
  have h3 : Cong (R4.compress a).ints a.ints := h2 ▸ R4_compress_int _
  rw [h3.toFp, ← ha.2]; rfl

theorem R4_compress2_eq {α : Type} [Lane α] (a b : Elt16 α) :
    R4.compress2 a b = (R4.compress a, R4.compress b) := rfl

theorem Rp.r4compressfast (ha : Rp m a x)
    (k : okLe (R4.compressfast (ivs m)) m' = true) : Rp m' (R4.compressfast a) x := by
  obtain ⟨h1, h2⟩ := run1 (f := fun a => R4.compressfast a) (fun _ => rfl)
    (fun _ => rfl) (fun _ => rfl) (m' := m') k ha.1
  refine ⟨h1, ?_⟩
  have h3 : Cong (R4.compressfast a).ints a.ints := h2 ▸ R4_compressfast_int _
  rw [h3.toFp, ← ha.2]; rfl

theorem Rp.r4add (ha : Rp m₁ a x) (hb : Rp m₂ b y)
    (k : okLe (R4.add (ivs m₁) (ivs m₂)) m' = true) : Rp m' (R4.add a b) (x + y) := by
  obtain ⟨h1, h2⟩ := run2 (f := fun a b => R4.add a b) (fun _ _ => rfl)
    (fun _ _ => rfl) (fun _ _ => rfl) (m' := m') k ha.1 hb.1
  refine ⟨h1, ?_⟩
  unfold Elt16.toFp
  rw [h2, R4_add_int, ← ha.2, ← hb.2]
  push_cast; rfl

theorem Rp.r4sub (ha : Rp m₁ a x) (hb : Rp m₂ b y)
    (k : okLe (R4.sub (ivs m₁) (ivs m₂)) m' = true) : Rp m' (R4.sub a b) (x - y) := by
  obtain ⟨h1, h2⟩ := run2 (f := fun a b => R4.sub a b) (fun _ _ => rfl)
    (fun _ _ => rfl) (fun _ _ => rfl) (m' := m') k ha.1 hb.1
  refine ⟨h1, ?_⟩
  unfold Elt16.toFp
  rw [h2, R4_sub_int, Int.cast_sub, Int.cast_add, p_mul_cast, add_zero, ← ha.2, ← hb.2]; rfl

theorem Rp.r4sublar (ha : Rp m₁ a x) (hb : Rp m₂ b y)
    (k : okLe (R4.addsublar (ivs m₁) (ivs m₂)).2 m' = true) :
    Rp m' (R4.addsublar a b).2 (x - y) := by
  obtain ⟨h1, h2⟩ := run2 (f := fun a b => (R4.addsublar a b).2) (fun _ _ => rfl)
    (fun _ _ => rfl) (fun _ _ => rfl) (m' := m') k ha.1 hb.1
  refine ⟨h1, ?_⟩
  unfold Elt16.toFp
  rw [h2, R4_sublar_int, Int.cast_sub, Int.cast_add, p_mul_cast, add_zero, ← ha.2, ← hb.2]; rfl

end R4

/-! ## Bounds -/

/-- Any word below 2^64 - 2^40. -/
def wide : Elt16 ℕ := bnd (2 ^ 64 - 2 ^ 40) (2 ^ 64 - 2 ^ 40)

/-- A sum of two elements within `tight`. -/
def sum2 : Elt16 ℕ := bnd (2 * 2 ^ 28 + 2 ^ 11) (2 * 2 ^ 28 + 2 ^ 11)

/-- A difference of two elements within `tight`, or the result of a squaring. -/
def diff2 : Elt16 ℕ := bnd (3 * 2 ^ 28 + 2 ^ 11) (5 * 2 ^ 28 + 2 ^ 11)

/-- The result of a one-way squaring, whose carries are not propagated. -/
def sq1 : Elt16 ℕ := bnd (2 * 2 ^ 28 + 2 ^ 9) (3 * 2 ^ 28 + 2 ^ 9)

theorem okT : okMul2 tight tight wide = true := by decide +kernel
theorem okSD : okMul2 sum2 diff2 wide = true := by decide +kernel
theorem okTD : okMul2 tight diff2 wide = true := by decide +kernel
theorem okST : okSqr2 tight wide = true := by decide +kernel
theorem okSS : okSqr2 sum2 wide = true := by decide +kernel
theorem okC : okLe (R2.compress (ivs wide).pack).limbs tight = true := by decide +kernel
theorem okQ : okLe (R1.sqrRaw (ivs sq1).pack).limbs wide = true := by decide +kernel
theorem okQ2 : okLe (R1.compressfast (ivs wide).pack).limbs sq1 = true := by decide +kernel
theorem okM1 : okLe (R1.intmul (ivs sq1).pack (ivs sq1).pack).limbs wide = true := by decide +kernel
theorem okM1D : okLe (R1.intmul (ivs sum2).pack (ivs diff2).pack).limbs wide = true := by decide +kernel
theorem okT4 : okMul4 tight tight wide = true := by decide +kernel
theorem okSD4 : okMul4 sum2 diff2 wide = true := by decide +kernel
theorem okST4 : okSqr4 tight wide = true := by decide +kernel
theorem okC4 : okLe (R4.compress (ivs wide)) tight = true := by decide +kernel

end Verif.Fp448
