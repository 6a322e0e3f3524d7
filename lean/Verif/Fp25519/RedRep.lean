import Verif.Fp25519.RedMul2

/-! # Residues with limb bounds

`Rp m e x`: the limbs of `e` are within the bounds `m` and `e` stands for the residue `x`.
Each operation has one lemma, for any bounds that a computation on intervals accepts. -/

namespace Verif.Fp25519

/-- The element `e` is within the bounds `m` and represents `x`. -/
def Rp (m : Elt10 ℕ) (e : Elt10 W) (x : Fp) : Prop := e.Le m ∧ e.toFp = x

/-- The limbs of `m` are at most those of `m'`. -/
def leB (m m' : Elt10 ℕ) : Bool :=
  decide (m.r0 ≤ m'.r0 ∧ m.r1 ≤ m'.r1 ∧ m.r2 ≤ m'.r2 ∧ m.r3 ≤ m'.r3 ∧ m.r4 ≤ m'.r4 ∧
      m.r5 ≤ m'.r5 ∧ m.r6 ≤ m'.r6 ∧ m.r7 ≤ m'.r7 ∧ m.r8 ≤ m'.r8 ∧ m.r9 ≤ m'.r9)

theorem Rp.mono {m m' : Elt10 ℕ} {e : Elt10 W} {x : Fp} (h : Rp m e x) (k : leB m m' = true) :
    Rp m' e x := ⟨h.1.mono (of_decide_eq_true k), h.2⟩

theorem Rp.cast {m : Elt10 ℕ} {e : Elt10 W} {x y : Fp} (h : Rp m e x) (k : x = y) : Rp m e y :=
  k ▸ h

section R2
variable {m m₁ m₂ m' : Elt10 ℕ} {a b : Elt5 U} {x y : Fp}

theorem Rp.r2intmul (ha : Rp m₁ a.limbs x) (hb : Rp m₂ b.limbs y)
    (k : okLe (R2.intmul (ivs m₁).pack (ivs m₂).pack).limbs m' = true) :
    Rp m' (R2.intmul a b).limbs (x * y) := by
  obtain ⟨h1, h2⟩ := run2 (f := fun a b => (R2.intmul a.pack b.pack).limbs) (fun _ _ => rfl)
    (fun _ _ => rfl) (fun _ _ => rfl) (m' := m') k ha.1 hb.1
  refine ⟨h1, ?_⟩
  rw [R2_intmul_int] at h2
  unfold Elt10.toFp
  rw [show (R2.intmul a b).limbs.ints = _ from h2, school_cast, ← ha.2, ← hb.2]; rfl

theorem Rp.r2intsqr (ha : Rp m a.limbs x)
    (k : okLe (R2.intsqr (ivs m).pack).limbs m' = true) :
    Rp m' (R2.intsqr a).limbs (x * x) := by
  obtain ⟨h1, h2⟩ := run1 (f := fun a => (R2.intsqr a.pack).limbs) (fun _ => rfl)
    (fun _ => rfl) (fun _ => rfl) (m' := m') k ha.1
  refine ⟨h1, ?_⟩
  rw [R2_intsqr_int] at h2
  unfold Elt10.toFp
  rw [show (R2.intsqr a).limbs.ints = _ from h2, school_cast, ← ha.2]; rfl

theorem Rp.r2compress (ha : Rp wide a.limbs x) : Rp tight (R2.compress a).limbs x := by
  obtain ⟨h1, h2⟩ := R2_compress_run ha.1
  exact ⟨h1, by rw [h2.toFp, ← ha.2]; rfl⟩

theorem Rp.r2compressfast (ha : Rp m a.limbs x)
    (k : okLe (R2.compressfast (ivs m).pack).limbs m' = true) :
    Rp m' (R2.compressfast a).limbs x := by
  obtain ⟨h1, h2⟩ := run1 (f := fun a => (R2.compressfast a.pack).limbs) (fun _ => rfl)
    (fun _ => rfl) (fun _ => rfl) (m' := m') k ha.1
  refine ⟨h1, ?_⟩
  have h3 : Cong (R2.compressfast a).limbs.ints a.limbs.ints := h2 ▸ R2_compressfast_int _
  rw [h3.toFp, ← ha.2]; rfl

theorem Rp.r2add (ha : Rp m₁ a.limbs x) (hb : Rp m₂ b.limbs y)
    (k : okLe (R2.add (ivs m₁).pack (ivs m₂).pack).limbs m' = true) :
    Rp m' (R2.add a b).limbs (x + y) := by
  obtain ⟨h1, h2⟩ := run2 (f := fun a b => (R2.add a.pack b.pack).limbs) (fun _ _ => rfl)
    (fun _ _ => rfl) (fun _ _ => rfl) (m' := m') k ha.1 hb.1
  refine ⟨h1, ?_⟩
  unfold Elt10.toFp
  rw [show (R2.add a b).limbs.ints = _ from h2, R2_add_int, ← ha.2, ← hb.2]
  push_cast; rfl

theorem Rp.r2sub (ha : Rp m₁ a.limbs x) (hb : Rp m₂ b.limbs y)
    (k : okLe (R2.sub (ivs m₁).pack (ivs m₂).pack).limbs m' = true) :
    Rp m' (R2.sub a b).limbs (x - y) := by
  obtain ⟨h1, h2⟩ := run2 (f := fun a b => (R2.sub a.pack b.pack).limbs) (fun _ _ => rfl)
    (fun _ _ => rfl) (fun _ _ => rfl) (m' := m') k ha.1 hb.1
  refine ⟨h1, ?_⟩
  unfold Elt10.toFp
  rw [show (R2.sub a b).limbs.ints = _ from h2, R2_sub_int, Int.cast_sub, Int.cast_add, two_p_cast,
    add_zero, ← ha.2, ← hb.2]; rfl

end R2

section R4
variable {m m₁ m₂ m' : Elt10 ℕ} {a b : Elt10 W} {x y : Fp}

theorem Rp.r4intmul (ha : Rp m₁ a x) (hb : Rp m₂ b y)
    (k : okLe (R4.intmul (ivs m₁) (ivs m₂)) m' = true) : Rp m' (R4.intmul a b) (x * y) := by
  obtain ⟨h1, h2⟩ := run2 (f := fun a b => R4.intmul a b) (fun _ _ => rfl)
    (fun _ _ => rfl) (fun _ _ => rfl) (m' := m') k ha.1 hb.1
  refine ⟨h1, ?_⟩
  rw [R4_intmul_int] at h2
  unfold Elt10.toFp
  rw [h2, school_cast, ← ha.2, ← hb.2]; rfl

theorem Rp.r4compress (ha : Rp wide a x) : Rp tight (R4.compress a) x := by
  obtain ⟨h1, h2⟩ := R4_compress_run ha.1
  exact ⟨h1, by rw [h2.toFp, ← ha.2]; rfl⟩

theorem Rp.r4add (ha : Rp m₁ a x) (hb : Rp m₂ b y)
    (k : okLe (R4.add (ivs m₁) (ivs m₂)) m' = true) : Rp m' (R4.add a b) (x + y) := by
  obtain ⟨h1, h2⟩ := run2 (f := fun a b => R4.add a b) (fun _ _ => rfl)
    (fun _ _ => rfl) (fun _ _ => rfl) (m' := m') k ha.1 hb.1
  refine ⟨h1, ?_⟩
  unfold Elt10.toFp
  rw [h2, R4_add_int, ← ha.2, ← hb.2]
  push_cast; rfl

theorem Rp.r4sub (ha : Rp m₁ a x) (hb : Rp m₂ b y)
    (k : okLe (R4.sub (ivs m₁) (ivs m₂)) m' = true) : Rp m' (R4.sub a b) (x - y) := by
  obtain ⟨h1, h2⟩ := run2 (f := fun a b => R4.sub a b) (fun _ _ => rfl)
    (fun _ _ => rfl) (fun _ _ => rfl) (m' := m') k ha.1 hb.1
  refine ⟨h1, ?_⟩
  unfold Elt10.toFp
  rw [h2, R4_sub_int, Int.cast_sub, Int.cast_add, two_p_cast, add_zero, ← ha.2, ← hb.2]; rfl

/-- The limbs of 2^34 p, a constant of src/edwards255.c. -/
def R4.twoTo34P {α : Type} [Lane α] : Elt10 α :=
  ⟨LIT 0xfffffb400000000, LIT 0x7fffffc00000000, LIT 0xffffffc00000000,
    LIT 0x7fffffc00000000, LIT 0xffffffc00000000, LIT 0x7fffffc00000000,
    LIT 0xffffffc00000000, LIT 0x7fffffc00000000, LIT 0xffffffc00000000,
    LIT 0x7fffffc00000000⟩

/-- a + (2^35 p - b). -/
def subK35 {α : Type} [Lane α] (a b : Elt10 α) : Elt10 α := a.zip ADD (R4.twoTo35P.zip SUB b)

/-- a + (2^34 p - b). -/
def subK34 {α : Type} [Lane α] (a b : Elt10 α) : Elt10 α := a.zip ADD (R4.twoTo34P.zip SUB b)

theorem p_mul_cast (n : ℤ) : ((n * (2 ^ 255 - 19) : ℤ) : Fp) = 0 := by
  have : ((n * (2 ^ 255 - 19) : ℤ) : Fp) = ((0 : ℤ) : Fp) :=
    cast_eq ⟨n, by rw [p25519]; ring⟩
  rw [this]; simp

theorem subK35_int (a b : Elt10 ℤ) : (subK35 a b).val = a.val + 2 ^ 35 * (2 ^ 255 - 19) - b.val :=
  R4_sublar_int a b

theorem subK34_int (a b : Elt10 ℤ) : (subK34 a b).val = a.val + 2 ^ 34 * (2 ^ 255 - 19) - b.val := by
  simp only [subK34, R4.twoTo34P, Elt10.zip, Lane.ADD, Lane.SUB, Lane.LIT, Elt10.val]
  push_cast; ring

theorem Rp.subK35 (ha : Rp m₁ a x) (hb : Rp m₂ b y)
    (k : okLe (subK35 (ivs m₁) (ivs m₂)) m' = true) : Rp m' (subK35 a b) (x - y) := by
  obtain ⟨h1, h2⟩ := run2 (f := fun a b => Fp25519.subK35 a b) (fun _ _ => rfl)
    (fun _ _ => rfl) (fun _ _ => rfl) (m' := m') k ha.1 hb.1
  refine ⟨h1, ?_⟩
  unfold Elt10.toFp
  rw [h2, subK35_int, Int.cast_sub, Int.cast_add, p_mul_cast, add_zero, ← ha.2, ← hb.2]; rfl

theorem Rp.subK34 (ha : Rp m₁ a x) (hb : Rp m₂ b y)
    (k : okLe (subK34 (ivs m₁) (ivs m₂)) m' = true) : Rp m' (subK34 a b) (x - y) := by
  obtain ⟨h1, h2⟩ := run2 (f := fun a b => Fp25519.subK34 a b) (fun _ _ => rfl)
    (fun _ _ => rfl) (fun _ _ => rfl) (m' := m') k ha.1 hb.1
  refine ⟨h1, ?_⟩
  unfold Elt10.toFp
  rw [h2, subK34_int, Int.cast_sub, Int.cast_add, p_mul_cast, add_zero, ← ha.2, ← hb.2]; rfl

/-- The first of two elements that a joint carry pass handles. -/
theorem Rp.r4fast2_fst (ha : Rp m₁ a x)
    (k : okLe (R4.new_compressfast2 (ivs m₁) (ivs m₁)).1 m' = true) :
    Rp m' (R4.new_compressfast2 a b).1 x := by
  obtain ⟨h1, h2⟩ := run2 (f := fun a b => (R4.new_compressfast2 a b).1) (fun _ _ => rfl)
    (fun _ _ => rfl) (fun _ _ => rfl) (m' := m') k ha.1 ha.1
  have e : (R4.new_compressfast2 a b).1 = (R4.new_compressfast2 a a).1 := rfl
  rw [e]
  refine ⟨h1, ?_⟩
  have h3 : Cong (R4.new_compressfast2 a a).1.ints a.ints := h2 ▸ R4_compressfast2_int _ _
  rw [h3.toFp, ← ha.2]; rfl

theorem Rp.r4fast2_snd (hb : Rp m₁ b x)
    (k : okLe (R4.new_compressfast2 (ivs m₁) (ivs m₁)).2 m' = true) :
    Rp m' (R4.new_compressfast2 a b).2 x := by
  obtain ⟨h1, h2⟩ := run2 (f := fun a b => (R4.new_compressfast2 a b).2) (fun _ _ => rfl)
    (fun _ _ => rfl) (fun _ _ => rfl) (m' := m') k hb.1 hb.1
  have e : (R4.new_compressfast2 a b).2 = (R4.new_compressfast2 b b).2 := rfl
  rw [e]
  refine ⟨h1, ?_⟩
  have h3 : Cong (R4.new_compressfast2 b b).2.ints b.ints := h2 ▸ R4_compressfast2_int' _ _
  rw [h3.toFp, ← hb.2]; rfl

theorem Rp.r4compressfast (ha : Rp m a x)
    (k : okLe (R4.compressfast (ivs m)) m' = true) : Rp m' (R4.compressfast a) x := by
  obtain ⟨h1, h2⟩ := run1 (f := fun a => R4.compressfast a) (fun _ => rfl)
    (fun _ => rfl) (fun _ => rfl) (m' := m') k ha.1
  refine ⟨h1, ?_⟩
  have h3 : Cong (R4.compressfast a).ints a.ints := h2 ▸ R4_compressfast_int _
  rw [h3.toFp, ← ha.2]; rfl

end R4

/-! ## Bounds -/

/-- Products of elements within `tight`, before the carries. -/
def prodT : Elt10 ℕ := bnd (127 * 2 ^ 52) (80 * 2 ^ 52)

/-- Products of an element within `tight` and one within `loose`. -/
def prodL : Elt10 ℕ := bnd (381 * 2 ^ 52) (240 * 2 ^ 52)

theorem okT2 : okLe (R2.intmul (ivs tight).pack (ivs tight).pack).limbs prodT = true := by
  decide +kernel
theorem okS2 : okLe (R2.intsqr (ivs tight).pack).limbs prodT = true := by decide +kernel
theorem okL2 : okLe (R2.intmul (ivs loose).pack (ivs tight).pack).limbs prodL = true := by
  decide +kernel
theorem okW2 : okLe (R2.intmul (ivs loose).pack (ivs loose).pack).limbs wide = true := by
  decide +kernel
theorem okT4 : okLe (R4.intmul (ivs tight) (ivs tight)) prodT = true := by decide +kernel
theorem okL4 : okLe (R4.intmul (ivs loose) (ivs tight)) prodL = true := by decide +kernel
theorem okW4 : okLe (R4.intmul (ivs loose) (ivs loose)) wide = true := by decide +kernel

end Verif.Fp25519
