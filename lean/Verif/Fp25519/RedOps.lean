import Verif.Fp25519.RedLemmas
import Verif.Fp25519.RedApi
import Verif.Fp25519.FullLemmas

/-! # Reduced-radix arithmetic: bounds and residues, operation by operation -/

namespace Verif.Fp25519

theorem Cong.cast {a b : Elt10 ℤ} (h : Cong a b) : ((a.val : ℤ) : Fp) = (b.val : Fp) := by
  obtain ⟨q, h⟩ := h
  apply cast_eq
  exact ⟨-q, by rw [p25519]; linear_combination h⟩

theorem Cong.toFp {a : Elt10 W} {b : Elt10 ℤ} (h : Cong a.ints b) : a.toFp = (b.val : Fp) := h.cast

theorem Cong.refl (a : Elt10 ℤ) : Cong a a := ⟨0, by ring⟩

theorem Cong.trans {a b c : Elt10 ℤ} (h : Cong a b) (k : Cong b c) : Cong a c := by
  obtain ⟨q, h⟩ := h; obtain ⟨r, k⟩ := k
  exact ⟨q + r, by linear_combination h + k⟩

theorem school_cast (a b : Elt10 ℤ) :
    (((school a b).val : ℤ) : Fp) = (a.val : Fp) * (b.val : Fp) := by
  obtain ⟨q, h⟩ := school_val a b
  rw [← Int.cast_mul]
  apply cast_eq
  exact ⟨-q, by rw [p25519]; linear_combination h⟩

/-- 2p as limbs on integers. -/
theorem R2_sub_int (a b : Elt10 ℤ) :
    (R2.sub a.pack b.pack).limbs.val = a.val + 2 * (2 ^ 255 - 19) - b.val := by
  simp only [R2.sub, R2.twoP, Elt10.pack, Elt5.limbs, Elt5.zip, Simd.LIT2, Lane.ADD, Lane.SUB,
    Lane.LIT, Elt10.val]
  push_cast; ring

theorem R2_add_int (a b : Elt10 ℤ) : (R2.add a.pack b.pack).limbs.val = a.val + b.val := by
  simp only [R2.add, Elt10.pack, Elt5.limbs, Elt5.zip, Lane.ADD, Elt10.val]
  ring

theorem R1_neg_int (a : Elt10 ℤ) : (R1.neg a.pack).limbs.val = 2 * (2 ^ 255 - 19) - a.val := by
  simp only [R1.neg, R1.twoP, Elt10.pack, Elt5.limbs, Elt5.zip, Simd.LIT2, Lane.SUB,
    Lane.LIT, Elt10.val]
  push_cast; ring

theorem R1_intmul_int (a b : Elt10 ℤ) : (R1.intmul a.pack b.pack).limbs = school a b := by
  simp only [R1.intmul, R1.intmulPad, LIT4, Elt10.pack, Elt5.limbs, Vec4.join, Vec4.lo, Vec4.hi,
    PERM64, Vec4.get, BLEND32, Nat.reduceMod, Nat.reduceDiv, Simd.SHUF4E, if_true, if_false,
    zero_ne_one,
    Lane.ADD, Lane.MUL, Lane.LIT, school]
  ext <;> push_cast <;> ring

theorem R1.intmulPad_eq {β : Type} [Lane β] (a b : Elt5 (Vec2 β)) (pa pb : Vec2 β) :
    R1.intmulPad a b pa pb = R1.intmul a b := rfl

theorem R2.interPad_eq (a b : Elt5 U) (pa pb : U) : R2.interPad a b pa pb = R2.inter a b := rfl

theorem R4.zipPad_eq (a b c d : Elt5 U) (pa pb pc pd : U) :
    R4.zipPad a b c d pa pb pc pd = R4.zip a b c d := rfl

/-- Bounds that let an element be multiplied: those of a sum or of a difference of two
elements within `tight`. -/
def loose : Elt10 ℕ := bnd (3 * 2 ^ 26 + 2 ^ 15) (3 * 2 ^ 25 + 2 ^ 19)

/-- Bounds of a product before the carries. -/
def wide : Elt10 ℕ := bnd (2 ^ 63) (2 ^ 63)

theorem Elt10.Le.mono {e : Elt10 W} {m m' : Elt10 ℕ} (h : e.Le m)
    (k : m.r0 ≤ m'.r0 ∧ m.r1 ≤ m'.r1 ∧ m.r2 ≤ m'.r2 ∧ m.r3 ≤ m'.r3 ∧ m.r4 ≤ m'.r4 ∧
      m.r5 ≤ m'.r5 ∧ m.r6 ≤ m'.r6 ∧ m.r7 ≤ m'.r7 ∧ m.r8 ≤ m'.r8 ∧ m.r9 ≤ m'.r9) : e.Le m' := by
  unfold Elt10.Le at *; omega

theorem Elt5.Le.loose {e : Elt5 U} (h : e.Le tight) : e.Le loose := Elt10.Le.mono h (by decide)
theorem Elt10.Le.loose {e : Elt10 W} (h : e.Le tight) : e.Le loose := Elt10.Le.mono h (by decide)

section R2

theorem R2_intmul_run {a b : Elt5 U} (ha : a.Le loose) (hb : b.Le loose) :
    (R2.intmul a b).Le wide ∧
      (R2.intmul a b).limbs.ints = school a.limbs.ints b.limbs.ints := by
  have := run2 (f := fun a b => (R2.intmul a.pack b.pack).limbs) (fun _ _ => rfl) (fun _ _ => rfl)
    (fun _ _ => rfl) (m' := wide) (by decide +kernel) ha hb
  rwa [R2_intmul_int] at this

theorem R2_intsqr_run {a : Elt5 U} (ha : a.Le loose) :
    (R2.intsqr a).Le wide ∧ (R2.intsqr a).limbs.ints = school a.limbs.ints a.limbs.ints := by
  have := run1 (f := fun a => (R2.intsqr a.pack).limbs) (fun _ => rfl) (fun _ => rfl)
    (fun _ => rfl) (m' := wide) (by decide +kernel) ha
  rwa [R2_intsqr_int] at this

theorem R1_intmul_run {a b : Elt5 U} (ha : a.Le loose) (hb : b.Le loose) :
    (R1.intmul a b).Le wide ∧
      (R1.intmul a b).limbs.ints = school a.limbs.ints b.limbs.ints := by
  have := run2 (f := fun a b => (R1.intmul a.pack b.pack).limbs) (fun _ _ => rfl) (fun _ _ => rfl)
    (fun _ _ => rfl) (m' := wide) (by decide +kernel) ha hb
  rwa [R1_intmul_int] at this

theorem R2_compress_run {a : Elt5 U} (ha : a.Le wide) :
    (R2.compress a).Le tight ∧ Cong (R2.compress a).limbs.ints a.limbs.ints := by
  have := run1 (f := fun a => (R2.compress a.pack).limbs) (fun _ => rfl) (fun _ => rfl)
    (fun _ => rfl) (m' := tight) (by decide +kernel) ha
  exact ⟨this.1, by rw [show (R2.compress a).limbs.ints = _ from this.2]; exact R2_compress_int _⟩

theorem R1_sqr_run {a : Elt5 U} (ha : a.Le loose) :
    (R1.sqrCarry (R1.sqrRaw a)).Le tight ∧
      Cong (R1.sqrCarry (R1.sqrRaw a)).limbs.ints (school a.limbs.ints a.limbs.ints) := by
  have h1 := run1 (f := fun a => (R1.sqrRaw a.pack).limbs) (fun _ => rfl) (fun _ => rfl)
    (fun _ => rfl) (m' := wide) (by decide +kernel) ha
  have h2 := run1 (f := fun a => (R1.sqrCarry a.pack).limbs) (fun _ => rfl) (fun _ => rfl)
    (fun _ => rfl) (m' := tight) (by decide +kernel) h1.1
  refine ⟨h2.1, ?_⟩
  rw [show (R1.sqrCarry (R1.sqrRaw a)).limbs.ints = _ from h2.2, ← R1_sqrRaw_int,
    ← show (R1.sqrRaw a).limbs.ints = _ from h1.2]
  exact R1_sqrCarry_int _

theorem R2_mul_spec {a b : Elt5 U} (ha : a.Le loose) (hb : b.Le loose) :
    (R2.mul a b).Le tight ∧ (R2.mul a b).toFp = a.toFp * b.toFp := by
  obtain ⟨h1, h2⟩ := R2_intmul_run ha hb
  obtain ⟨h3, h4⟩ := R2_compress_run h1
  exact ⟨h3, by unfold R2.mul Elt5.toFp; rw [h4.toFp, h2, school_cast]; rfl⟩

theorem R1_mul_spec {a b : Elt5 U} (ha : a.Le loose) (hb : b.Le loose) :
    (R1.mul a b).Le tight ∧ (R1.mul a b).toFp = a.toFp * b.toFp := by
  obtain ⟨h1, h2⟩ := R1_intmul_run ha hb
  obtain ⟨h3, h4⟩ := R2_compress_run h1
  have e : R1.mul a b = R2.compress (R1.intmul a b) := rfl
  exact ⟨h3, by rw [e]; unfold Elt5.toFp; rw [h4.toFp, h2, school_cast]; rfl⟩

theorem R2_sqr_spec {a : Elt5 U} (ha : a.Le loose) :
    (R2.sqr a).Le tight ∧ (R2.sqr a).toFp = a.toFp ^ 2 := by
  obtain ⟨h1, h2⟩ := R2_intsqr_run ha
  obtain ⟨h3, h4⟩ := R2_compress_run h1
  exact ⟨h3, by unfold R2.sqr Elt5.toFp; rw [h4.toFp, h2, school_cast, pow_two]; rfl⟩

theorem R1_sqr1_spec {a : Elt5 U} (ha : a.Le loose) :
    (R1.sqrCarry (R1.sqrRaw a)).Le tight ∧
      (R1.sqrCarry (R1.sqrRaw a)).toFp = a.toFp ^ 2 := by
  obtain ⟨h3, h4⟩ := R1_sqr_run ha
  exact ⟨h3, by unfold Elt5.toFp; rw [h4.toFp, school_cast, pow_two]; rfl⟩

theorem R1_sqrn_spec {a : Elt5 U} (ha : a.Le loose) (n : ℕ) :
    (R1.sqrn a n).Le loose ∧ (0 < n → (R1.sqrn a n).Le tight) ∧
      (R1.sqrn a n).toFp = a.toFp ^ 2 ^ n := by
  induction n generalizing a with
  | zero => exact ⟨ha, by omega, by simp [R1.sqrn]⟩
  | succ n ih =>
    obtain ⟨h1, h2⟩ := R1_sqr1_spec ha
    obtain ⟨k1, k2, k3⟩ := ih h1.loose
    refine ⟨k1, fun _ => ?_, ?_⟩
    · rcases Nat.eq_zero_or_pos n with rfl | hn
      · exact h1
      · exact k2 hn
    · rw [R1.sqrn, k3, h2, ← pow_mul, pow_succ 2 n, mul_comm]

theorem R2_sqrn_spec {a : Elt5 U} (ha : a.Le loose) (n : ℕ) :
    (R2.sqrn a n).Le loose ∧ (0 < n → (R2.sqrn a n).Le tight) ∧
      (R2.sqrn a n).toFp = a.toFp ^ 2 ^ n := by
  induction n generalizing a with
  | zero => exact ⟨ha, by omega, by simp [R2.sqrn]⟩
  | succ n ih =>
    obtain ⟨h1, h2⟩ := R2_sqr_spec ha
    obtain ⟨k1, k2, k3⟩ := ih h1.loose
    refine ⟨k1, fun _ => ?_, ?_⟩
    · rcases Nat.eq_zero_or_pos n with rfl | hn
      · exact h1
      · exact k2 hn
    · change (R2.sqrn (R2.sqr a) n).toFp = _
      rw [k3, h2, ← pow_mul, pow_succ 2 n, mul_comm]

theorem R2_add_spec {a b : Elt5 U} (ha : a.Le tight) (hb : b.Le tight) :
    (R2.add a b).Le loose ∧ (R2.add a b).toFp = a.toFp + b.toFp := by
  obtain ⟨h1, h2⟩ := run2 (f := fun a b => (R2.add a.pack b.pack).limbs) (fun _ _ => rfl)
    (fun _ _ => rfl) (fun _ _ => rfl) (m' := loose) (by decide +kernel) ha hb
  refine ⟨h1, ?_⟩
  unfold Elt5.toFp Elt10.toFp
  rw [show (R2.add a b).limbs.ints = _ from h2, R2_add_int]
  push_cast; rfl

theorem two_p_cast : ((2 * (2 ^ 255 - 19) : ℤ) : Fp) = 0 := by
  have : ((2 * (2 ^ 255 - 19) : ℤ) : Fp) = ((0 : ℤ) : Fp) := cast_eq ⟨2, by norm_num [p25519]⟩
  rw [this]; simp

theorem R2_sub_spec {a b : Elt5 U} (ha : a.Le tight) (hb : b.Le tight) :
    (R2.sub a b).Le loose ∧ (R2.sub a b).toFp = a.toFp - b.toFp := by
  obtain ⟨h1, h2⟩ := run2 (f := fun a b => (R2.sub a.pack b.pack).limbs) (fun _ _ => rfl)
    (fun _ _ => rfl) (fun _ _ => rfl) (m' := loose) (by decide +kernel) ha hb
  refine ⟨h1, ?_⟩
  unfold Elt5.toFp Elt10.toFp
  rw [show (R2.sub a b).limbs.ints = _ from h2, R2_sub_int, Int.cast_sub, Int.cast_add, two_p_cast,
    add_zero]

/-- Bounds of 2p minus an element. -/
def negB : Elt10 ℕ := bnd (2 ^ 27 - 2) (2 ^ 26 - 2)

theorem R1_neg_spec {a : Elt5 U} (ha : a.Le tight) :
    (R1.neg a).Le negB ∧ (R1.neg a).limbs.ints.val = 2 * (2 ^ 255 - 19) - a.limbs.ints.val := by
  obtain ⟨h1, h2⟩ := run1 (f := fun a => (R1.neg a.pack).limbs) (fun _ => rfl)
    (fun _ => rfl) (fun _ => rfl) (m' := negB) (by decide +kernel) ha
  refine ⟨h1, ?_⟩
  rw [show (R1.neg a).limbs.ints = _ from h2, R1_neg_int]

theorem R1_neg_toFp {a : Elt5 U} (ha : a.Le tight) : (R1.neg a).toFp = -a.toFp := by
  unfold Elt5.toFp Elt10.toFp
  rw [(R1_neg_spec ha).2, Int.cast_sub, two_p_cast, zero_sub]

theorem R2_neg_spec {a : Elt5 U} (ha : a.Le tight) :
    (R2.neg a).Le tight ∧ (R2.neg a).toFp = -a.toFp := by
  obtain ⟨h1, h2⟩ := R2_compress_run (Elt10.Le.mono (R1_neg_spec ha).1 (by decide) :
    (R1.neg a).Le wide)
  refine ⟨h1, ?_⟩
  have e : R2.neg a = R2.compress (R1.neg a) := rfl
  rw [e, Elt5.toFp, h2.toFp]
  exact R1_neg_toFp ha

end R2

section R4

theorem R4_add_int (a b : Elt10 ℤ) : (R4.add a b).val = a.val + b.val := by
  simp only [R4.add, Elt10.zip, Lane.ADD, Elt10.val]
  ring

theorem R4_sub_int (a b : Elt10 ℤ) : (R4.sub a b).val = a.val + 2 * (2 ^ 255 - 19) - b.val := by
  simp only [R4.sub, R4.twoP, Elt10.zip, Lane.ADD, Lane.SUB, Lane.LIT, Elt10.val]
  push_cast; ring

theorem R4_neg_int (a : Elt10 ℤ) : (R4.neg a).val = 2 * (2 ^ 255 - 19) - a.val := by
  simp only [R4.neg, R4.twoP, Elt10.zip, Lane.SUB, Lane.LIT, Elt10.val]
  push_cast; ring

theorem R4_sublar_int (a b : Elt10 ℤ) :
    (R4.addsublar a b).2.val = a.val + 2 ^ 35 * (2 ^ 255 - 19) - b.val := by
  simp only [R4.addsublar, R4.twoTo35P, Elt10.zip, Lane.ADD, Lane.SUB, Lane.LIT, Elt10.val]
  push_cast; ring

theorem R4_addlar_int (a b : Elt10 ℤ) : (R4.addsublar a b).1.val = a.val + b.val := by
  simp only [R4.addsublar, Elt10.zip, Lane.ADD, Elt10.val]
  ring

theorem R4_compressfast2_int' (c d : Elt10 ℤ) : Cong (R4.new_compressfast2 c d).2 d := by
  refine ⟨d.r9 / 2 ^ 25, ?_⟩
  simp only [R4.new_compressfast2, Lane.ADD, Lane.AND, Lane.LIT, Lane.MUL, Lane.SHR, Elt10.val,
    Nat.reduceLeDiff, if_false, Int.emod_def]
  norm_num only
  ring

theorem R4_intmul_run {a b : Elt10 W} (ha : a.Le loose) (hb : b.Le loose) :
    (R4.intmul a b).Le wide ∧ (R4.intmul a b).ints = school a.ints b.ints := by
  have := run2 (f := fun a b => R4.intmul a b) (fun _ _ => rfl) (fun _ _ => rfl)
    (fun _ _ => rfl) (m' := wide) (by decide +kernel) ha hb
  rwa [R4_intmul_int] at this

theorem R4_intsqr_run {a : Elt10 W} (ha : a.Le loose) :
    (R4.intsqr a).Le wide ∧ (R4.intsqr a).ints = school a.ints a.ints := by
  have := run1 (f := fun a => R4.intsqr a) (fun _ => rfl) (fun _ => rfl)
    (fun _ => rfl) (m' := wide) (by decide +kernel) ha
  rwa [R4_intsqr_int] at this

theorem R4_compress_run {a : Elt10 W} (ha : a.Le wide) :
    (R4.compress a).Le tight ∧ Cong (R4.compress a).ints a.ints := by
  have := run1 (f := fun a => R4.compress a) (fun _ => rfl) (fun _ => rfl)
    (fun _ => rfl) (m' := tight) (by decide +kernel) ha
  exact ⟨this.1, by rw [this.2]; exact R4_compress_int _⟩

theorem R4_mul_spec {a b : Elt10 W} (ha : a.Le loose) (hb : b.Le loose) :
    (R4.mul a b).Le tight ∧ (R4.mul a b).toFp = a.toFp * b.toFp := by
  obtain ⟨h1, h2⟩ := R4_intmul_run ha hb
  obtain ⟨h3, h4⟩ := R4_compress_run h1
  exact ⟨h3, by unfold R4.mul; rw [h4.toFp, h2, school_cast]; rfl⟩

theorem R4_sqr_spec {a : Elt10 W} (ha : a.Le loose) :
    (R4.sqr a).Le tight ∧ (R4.sqr a).toFp = a.toFp ^ 2 := by
  obtain ⟨h1, h2⟩ := R4_intsqr_run ha
  obtain ⟨h3, h4⟩ := R4_compress_run h1
  exact ⟨h3, by unfold R4.sqr; rw [h4.toFp, h2, school_cast, pow_two]; rfl⟩

theorem R4_sqrn_spec {a : Elt10 W} (ha : a.Le loose) (n : ℕ) :
    (R4.sqrn a n).Le loose ∧ (0 < n → (R4.sqrn a n).Le tight) ∧
      (R4.sqrn a n).toFp = a.toFp ^ 2 ^ n := by
  induction n generalizing a with
  | zero => exact ⟨ha, by omega, by simp [R4.sqrn]⟩
  | succ n ih =>
    obtain ⟨h1, h2⟩ := R4_sqr_spec ha
    obtain ⟨k1, k2, k3⟩ := ih h1.loose
    refine ⟨k1, fun _ => ?_, ?_⟩
    · rcases Nat.eq_zero_or_pos n with rfl | hn
      · exact h1
      · exact k2 hn
    · change (R4.sqrn (R4.sqr a) n).toFp = _
      rw [k3, h2, ← pow_mul, pow_succ 2 n, mul_comm]

theorem R4_add_spec {a b : Elt10 W} (ha : a.Le tight) (hb : b.Le tight) :
    (R4.add a b).Le loose ∧ (R4.add a b).toFp = a.toFp + b.toFp := by
  obtain ⟨h1, h2⟩ := run2 (f := fun a b => R4.add a b) (fun _ _ => rfl)
    (fun _ _ => rfl) (fun _ _ => rfl) (m' := loose) (by decide +kernel) ha hb
  refine ⟨h1, ?_⟩
  unfold Elt10.toFp
  rw [h2, R4_add_int]
  push_cast; rfl

theorem R4_sub_spec {a b : Elt10 W} (ha : a.Le tight) (hb : b.Le tight) :
    (R4.sub a b).Le loose ∧ (R4.sub a b).toFp = a.toFp - b.toFp := by
  obtain ⟨h1, h2⟩ := run2 (f := fun a b => R4.sub a b) (fun _ _ => rfl)
    (fun _ _ => rfl) (fun _ _ => rfl) (m' := loose) (by decide +kernel) ha hb
  refine ⟨h1, ?_⟩
  unfold Elt10.toFp
  rw [h2, R4_sub_int, Int.cast_sub, Int.cast_add, two_p_cast, add_zero]

theorem R4_neg_spec {a : Elt10 W} (ha : a.Le tight) :
    (R4.neg a).Le negB ∧ (R4.neg a).toFp = -a.toFp := by
  obtain ⟨h1, h2⟩ := run1 (f := fun a => R4.neg a) (fun _ => rfl)
    (fun _ => rfl) (fun _ => rfl) (m' := negB) (by decide +kernel) ha
  refine ⟨h1, ?_⟩
  unfold Elt10.toFp
  rw [h2, R4_neg_int, Int.cast_sub, two_p_cast, zero_sub]

end R4

/-! ## Lanes

Each half of a two-way program and each lane of a four-way program is the same program
run on that half or lane. -/

/-- Element `j` of a four-way element. -/
def Elt10.lane (a : Elt10 V) (j : ℕ) : Elt10 W := a.map (·.get j)

theorem lane_cases {p : ℕ → Prop} (h0 : p 0) (h1 : p 1) (h2 : p 2) (h3 : p 3) :
    ∀ j < 4, p j := by
  intro j hj
  match j, hj with
  | 0, _ => exact h0
  | 1, _ => exact h1
  | 2, _ => exact h2
  | 3, _ => exact h3

theorem R2_mul_lo (a b : Elt5 V) : (R2.mul a b).lo = R2.mul a.lo b.lo := rfl
theorem R2_mul_hi (a b : Elt5 V) : (R2.mul a b).hi = R2.mul a.hi b.hi := rfl
theorem R2_sqr_lo (a : Elt5 V) : (R2.sqr a).lo = R2.sqr a.lo := rfl
theorem R2_sqr_hi (a : Elt5 V) : (R2.sqr a).hi = R2.sqr a.hi := rfl

theorem R2_add_lo (a b : Elt5 V) : (R2.add a b).lo = R2.add a.lo b.lo := rfl
theorem R2_add_hi (a b : Elt5 V) : (R2.add a b).hi = R2.add a.hi b.hi := rfl
theorem R2_sub_lo (a b : Elt5 V) : (R2.sub a b).lo = R2.sub a.lo b.lo := rfl
theorem R2_sub_hi (a b : Elt5 V) : (R2.sub a b).hi = R2.sub a.hi b.hi := rfl
theorem R2_neg_lo (a : Elt5 V) : (R2.neg a).lo = R2.neg a.lo := rfl
theorem R2_neg_hi (a : Elt5 V) : (R2.neg a).hi = R2.neg a.hi := rfl
theorem R2_compress_lo (a : Elt5 V) : (R2.compress a).lo = R2.compress a.lo := rfl
theorem R2_compress_hi (a : Elt5 V) : (R2.compress a).hi = R2.compress a.hi := rfl
theorem R2_intmul_lo (a b : Elt5 V) : (R2.intmul a b).lo = R2.intmul a.lo b.lo := rfl
theorem R2_intmul_hi (a b : Elt5 V) : (R2.intmul a b).hi = R2.intmul a.hi b.hi := rfl
theorem R2_intsqr_lo (a : Elt5 V) : (R2.intsqr a).lo = R2.intsqr a.lo := rfl
theorem R2_intsqr_hi (a : Elt5 V) : (R2.intsqr a).hi = R2.intsqr a.hi := rfl
theorem R2_compressfast_lo (a : Elt5 V) : (R2.compressfast a).lo = R2.compressfast a.lo := rfl
theorem R2_compressfast_hi (a : Elt5 V) : (R2.compressfast a).hi = R2.compressfast a.hi := rfl
theorem R2_compress2_eq {α : Type} [Simd α] (a b : Elt5 α) :
    R2.compress2 a b = (R2.compress a, R2.compress b) := rfl

theorem R2_addsub_eq {α : Type} [Simd α] (a b : Elt5 α) :
    R2.addsub a b = (R2.add a b, R2.sub a b) := rfl

theorem blendF0_lo (a b : Elt5 V) : (a.zip (BLEND32 · · 0xF0) b).lo = a.lo := rfl
theorem blendF0_hi (a b : Elt5 V) : (a.zip (BLEND32 · · 0xF0) b).hi = b.hi := rfl
theorem perm4E_lo (a : Elt5 V) : (a.map (PERM64 · 0x4E)).lo = a.hi := rfl
theorem perm4E_hi (a : Elt5 V) : (a.map (PERM64 · 0x4E)).hi = a.lo := rfl

theorem R4_mul_lane (a b : Elt10 V) (j : ℕ) (hj : j < 4) :
    (R4.mul a b).lane j = R4.mul (a.lane j) (b.lane j) :=
  lane_cases (p := fun j => (R4.mul a b).lane j = R4.mul (a.lane j) (b.lane j)) rfl rfl rfl rfl j hj

theorem R4_sqr_lane (a : Elt10 V) (j : ℕ) (hj : j < 4) :
    (R4.sqr a).lane j = R4.sqr (a.lane j) :=
  lane_cases (p := fun j => (R4.sqr a).lane j = R4.sqr (a.lane j)) rfl rfl rfl rfl j hj

theorem R4_compress_lane (a : Elt10 V) (j : ℕ) (hj : j < 4) :
    (R4.compress a).lane j = R4.compress (a.lane j) :=
  lane_cases (p := fun j => (R4.compress a).lane j = R4.compress (a.lane j)) rfl rfl rfl rfl j hj

end Verif.Fp25519
