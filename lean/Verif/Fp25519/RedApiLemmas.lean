import Verif.Fp25519.RedSer
import Verif.Fp25519.InvLemmas

/-! # Reduced radix: comparison, selection, inversion, square roots -/

namespace Verif.Fp25519

set_option exponentiation.threshold 2000

/-! ## Inversion -/

section chain
variable {α β : Type}

/-- The addition chain of `inv` up to the last multiplication: its two factors. -/
def invChain (mul : α → α → α) (sqrn : α → ℕ → α) (a : α) : α × α :=
  let t1 := sqrn a 1
  let t2 := sqrn t1 2
  let t0 := mul a t2
  let t1 := mul t1 t0
  let t2 := sqrn t1 1
  let t0 := mul t0 t2
  let t2 := sqrn t0 5
  let t0 := mul t0 t2
  let t2 := sqrn t0 10
  let t2 := mul t2 t0
  let t3 := sqrn t2 20
  let t3 := mul t3 t2
  let t3 := sqrn t3 10
  let t3 := mul t3 t0
  let t0 := sqrn t3 50
  let t0 := mul t0 t3
  let t2 := sqrn t0 100
  let t2 := mul t2 t0
  let t2 := sqrn t2 50
  let t2 := mul t2 t3
  let t2 := sqrn t2 5
  (t1, t2)

/-- The addition chain of `inv` on one buffer up to the last multiplication: its two factors. -/
def invAChain (mul : α → α → α) (sqrn : α → ℕ → α) (a : α) : α × α :=
  let t1 := sqrn a 1
  let t2 := sqrn t1 2
  let t0 := mul t1 t2
  let t1 := mul t1 t0
  let t2 := sqrn t1 1
  let t0 := mul t0 t2
  let t2 := sqrn t0 5
  let t0 := mul t0 t2
  let t2 := sqrn t0 10
  let t2 := mul t2 t0
  let t3 := sqrn t2 20
  let t3 := mul t3 t2
  let t3 := sqrn t3 10
  let t3 := mul t3 t0
  let t0 := sqrn t3 50
  let t0 := mul t0 t3
  let t2 := sqrn t0 100
  let t2 := mul t2 t0
  let t2 := sqrn t2 50
  let t2 := mul t2 t3
  let t2 := sqrn t2 5
  (t1, t2)

/-- The addition chain of the power (p-5)/8 up to the last multiplication. -/
def powChain (mul : α → α → α) (sqr : α → α) (sqrn : α → ℕ → α) (x : α) : α :=
  let t0 := sqr x
  let t1 := sqrn t0 2
  let t1 := mul t1 x
  let t0 := mul t0 t1
  let t0 := sqrn t0 1
  let t0 := mul t0 t1
  let t1 := sqrn t0 5
  let t1 := mul t1 t0
  let t2 := sqrn t1 5
  let t2 := mul t2 t0
  let t1 := sqrn t2 15
  let t1 := mul t1 t2
  let t2 := sqrn t1 10
  let t2 := sqrn t2 20
  let t2 := mul t2 t1
  let t1 := sqrn t2 10
  let t1 := sqrn t1 50
  let t1 := mul t1 t2
  let t1 := sqrn t1 5
  let t1 := mul t1 t0
  let t2 := sqrn t1 100
  let t2 := sqrn t2 20
  let t2 := sqrn t2 5
  let t2 := mul t2 t1
  let t2 := sqrn t2 2
  t2

variable {R : α → β → Prop} {m : α → α → α} {s : α → ℕ → α} {q : α → α}
  {m' : β → β → β} {s' : β → ℕ → β} {q' : β → β}

theorem invChain_rel (hm : ∀ {a b x y}, R a x → R b y → R (m a b) (m' x y))
    (hs : ∀ {a x} (n : ℕ), R a x → R (s a n) (s' x n)) {a : α} {x : β} (h : R a x) :
    R (invChain m s a).1 (invChain m' s' x).1 ∧ R (invChain m s a).2 (invChain m' s' x).2 := by
  have h1 := hs 1 h
  have h2 := hs 2 h1
  have h0 := hm h h2
  have h1 := hm h1 h0
  have h2 := hs 1 h1
  have h0 := hm h0 h2
  have h2 := hs 5 h0
  have h0 := hm h0 h2
  have h2 := hs 10 h0
  have h2 := hm h2 h0
  have h3 := hs 20 h2
  have h3 := hm h3 h2
  have h3 := hs 10 h3
  have h3 := hm h3 h0
  have h0 := hs 50 h3
  have h0 := hm h0 h3
  have h2 := hs 100 h0
  have h2 := hm h2 h0
  have h2 := hs 50 h2
  have h2 := hm h2 h3
  have h2 := hs 5 h2
  exact ⟨h1, h2⟩

theorem invAChain_rel (hm : ∀ {a b x y}, R a x → R b y → R (m a b) (m' x y))
    (hs : ∀ {a x} (n : ℕ), R a x → R (s a n) (s' x n)) {a : α} {x : β} (h : R a x) :
    R (invAChain m s a).1 (invAChain m' s' x).1 ∧ R (invAChain m s a).2 (invAChain m' s' x).2 := by
  have h1 := hs 1 h
  have h2 := hs 2 h1
  have h0 := hm h1 h2
  have h1 := hm h1 h0
  have h2 := hs 1 h1
  have h0 := hm h0 h2
  have h2 := hs 5 h0
  have h0 := hm h0 h2
  have h2 := hs 10 h0
  have h2 := hm h2 h0
  have h3 := hs 20 h2
  have h3 := hm h3 h2
  have h3 := hs 10 h3
  have h3 := hm h3 h0
  have h0 := hs 50 h3
  have h0 := hm h0 h3
  have h2 := hs 100 h0
  have h2 := hm h2 h0
  have h2 := hs 50 h2
  have h2 := hm h2 h3
  have h2 := hs 5 h2
  exact ⟨h1, h2⟩

theorem powChain_rel (hm : ∀ {a b x y}, R a x → R b y → R (m a b) (m' x y))
    (hq : ∀ {a x}, R a x → R (q a) (q' x))
    (hs : ∀ {a x} (n : ℕ), R a x → R (s a n) (s' x n)) {a : α} {x : β} (h : R a x) :
    R (powChain m q s a) (powChain m' q' s' x) := by
  have h0 := hq h
  have h1 := hs 2 h0
  have h1 := hm h1 h
  have h0 := hm h0 h1
  have h0 := hs 1 h0
  have h0 := hm h0 h1
  have h1 := hs 5 h0
  have h1 := hm h1 h0
  have h2 := hs 5 h1
  have h2 := hm h2 h0
  have h1 := hs 15 h2
  have h1 := hm h1 h2
  have h2 := hs 10 h1
  have h2 := hs 20 h2
  have h2 := hm h2 h1
  have h1 := hs 10 h2
  have h1 := hs 50 h1
  have h1 := hm h1 h2
  have h1 := hs 5 h1
  have h1 := hm h1 h0
  have h2 := hs 100 h1
  have h2 := hs 20 h2
  have h2 := hs 5 h2
  have h2 := hm h2 h1
  exact hs 2 h2

end chain

/-- The chains raise to a power; the exponent is the value of the chain on exponents. -/
theorem invChain_pow (x : Fp) :
    (invChain (· * ·) (fun x n => x ^ 2 ^ n) x).1 * (invChain (· * ·) (fun x n => x ^ 2 ^ n) x).2 =
      x ^ (2 ^ 255 - 21) := by
  obtain ⟨h1, h2⟩ := invChain_rel (R := fun y (e : ℕ) => y = x ^ e) (m := (· * ·))
    (s := fun x n => x ^ 2 ^ n) (m' := (· + ·)) (s' := fun e n => e * 2 ^ n)
    (fun h1 h2 => by simp only [h1, h2, pow_add]) (fun n h => by simp only [h, pow_mul])
    (pow_one x).symm
  rw [h1, h2, ← pow_add]
  exact congrArg (x ^ ·) (by decide +kernel)

theorem invAChain_pow (x : Fp) :
    (invAChain (· * ·) (fun x n => x ^ 2 ^ n) x).1 * (invAChain (· * ·) (fun x n => x ^ 2 ^ n) x).2 =
      x ^ 63498887646270171683893765972506272048567410945673857699057384778533006576716 := by
  obtain ⟨h1, h2⟩ := invAChain_rel (R := fun y (e : ℕ) => y = x ^ e) (m := (· * ·))
    (s := fun x n => x ^ 2 ^ n) (m' := (· + ·)) (s' := fun e n => e * 2 ^ n)
    (fun h1 h2 => by simp only [h1, h2, pow_add]) (fun n h => by simp only [h, pow_mul])
    (pow_one x).symm
  rw [h1, h2, ← pow_add]
  exact congrArg (x ^ ·) (by decide +kernel)

theorem powChain_pow (x : Fp) :
    powChain (· * ·) (fun x => x ^ 2) (fun x n => x ^ 2 ^ n) x * x = x ^ (2 ^ 252 - 3) := by
  have h := powChain_rel (R := fun y (e : ℕ) => y = x ^ e) (m := (· * ·)) (q := fun x => x ^ 2)
    (s := fun x n => x ^ 2 ^ n) (m' := (· + ·)) (q' := fun e => e * 2) (s' := fun e n => e * 2 ^ n)
    (fun h1 h2 => by simp only [h1, h2, pow_add]) (fun h => by simp only [h, pow_mul])
    (fun n h => by simp only [h, pow_mul]) (pow_one x).symm
  rw [h, ← pow_succ]
  exact congrArg (x ^ ·) (by decide +kernel)

/-- A one-way element that may be multiplied and its residue. -/
def Is (e : Elt5 U) (x : Fp) : Prop := e.Le loose ∧ e.toFp = x

theorem Is.mul {a b : Elt5 U} {x y : Fp} (ha : Is a x) (hb : Is b y) : Is (R1.mul a b) (x * y) := by
  obtain ⟨h1, h2⟩ := R1_mul_spec ha.1 hb.1
  exact ⟨h1.loose, by rw [h2, ha.2, hb.2]⟩

theorem Is.sqrn {a : Elt5 U} {x : Fp} (n : ℕ) (ha : Is a x) : Is (R1.sqrn a n) (x ^ 2 ^ n) := by
  obtain ⟨h1, _, h2⟩ := R1_sqrn_spec ha.1 n
  exact ⟨h1, by rw [h2, ha.2]⟩

theorem Is.sqr {a : Elt5 U} {x : Fp} (ha : Is a x) : Is (R1.sqr a) (x ^ 2) := ha.sqrn 1

theorem R1_inv_eq (a : Elt5 U) :
    R1.inv a = R1.mul (invChain R1.mul R1.sqrn a).1 (invChain R1.mul R1.sqrn a).2 := by
  simp only [R1.inv, invChain, R1.mul]

theorem R1_inv_spec {a : Elt5 U} (ha : a.Le loose) :
    (R1.inv a).Le tight ∧ (R1.inv a).toFp = a.toFp⁻¹ := by
  obtain ⟨h1, h2⟩ := invChain_rel (R := Is) Is.mul Is.sqrn (⟨ha, rfl⟩ : Is a a.toFp)
  obtain ⟨k1, k2⟩ := R1_mul_spec h1.1 h2.1
  rw [R1_inv_eq]
  exact ⟨k1, by rw [k2, h1.2, h2.2, invChain_pow, fermat_inv]⟩

/-! ## Comparison and sign -/

theorem ser_of_noCarry {a : Elt5 U} (h : NoCarry a.limbs.ints.val) :
    R1.ser a = leBytes 32 (canon a.toFp) := (ser_eq_iff a).2 h

theorem noCarry_of_tight {a : Elt5 U} (h : a.Le tight) : NoCarry a.limbs.ints.val :=
  noCarry_of_lt a.val_nonneg (val_lt_of_tight h)

theorem noCarry_neg {a : Elt5 U} (h : a.Le tight) : NoCarry (R1.neg a).limbs.ints.val := by
  apply noCarry_of_lt (R1.neg a).val_nonneg
  rw [(R1_neg_spec h).2]
  have := a.val_nonneg
  linarith

theorem R1_sgn_spec {a : Elt5 U} (h : NoCarry a.limbs.ints.val) :
    (R1.sgn a).toNat = canon a.toFp % 2 := by
  unfold R1.sgn
  rw [ser_of_noCarry h]
  generalize canon a.toFp = n
  simp only [leBytes, List.headD_cons]
  rw [BitVec.toNat_setWidth, BitVec.toNat_and, BitVec.toNat_ofNat]
  have : (0x1#8 : BitVec 8).toNat = 2 ^ 1 - 1 := rfl
  rw [this, Nat.and_two_pow_sub_one_eq_mod]
  omega

theorem cmp_bytes_and_one (l : List (Byte × Byte)) (r : BitVec 32) :
    l.foldl (fun ret xy => ret ||| (xy.1 ^^^ xy.2).setWidth 32) r &&& 1#32 = 0#32 ↔
      r &&& 1#32 = 0#32 ∧ ∀ xy ∈ l, xy.1.getLsbD 0 = xy.2.getLsbD 0 := by
  induction l generalizing r with
  | nil => simp
  | cons x xs ih =>
    rw [List.foldl_cons, ih]
    simp only [List.mem_cons, forall_eq_or_imp]
    have key : ∀ y : BitVec 32, y &&& 1#32 = 0#32 ↔ y.getLsbD 0 = false := by
      intro y
      constructor
      · intro h
        have := congrArg (fun z => z.getLsbD 0) h
        simpa using this
      · intro h
        ext i hi
        rcases Nat.eq_zero_or_pos i with rfl | hp
        · rw [BitVec.getElem_and, ← BitVec.getLsbD_eq_getElem (x := y), h]; simp
        · have : (1#32).getLsbD i = false := by
            rw [BitVec.getLsbD_one]; simp; omega
          simp only [BitVec.getElem_and, BitVec.getElem_zero]
          rw [← BitVec.getLsbD_eq_getElem (x := 1#32), this]; simp
    rw [key, key]
    simp only [BitVec.getLsbD_or, Bool.or_eq_false_iff]
    rw [and_assoc]
    refine and_congr_right fun _ => and_congr_left fun _ => ?_
    simp

theorem R1_cmp_zero_iff (a b : Elt5 U) :
    R1.cmp a b = 0#32 ↔
      ∀ xy ∈ (R1.ser a).zip (R1.ser b), xy.1.getLsbD 0 = xy.2.getLsbD 0 := by
  unfold R1.cmp cmp_bytes
  rw [cmp_bytes_and_one]; simp

theorem R1_cmp_self {a b : Elt5 U} (ha : NoCarry a.limbs.ints.val) (hb : NoCarry b.limbs.ints.val)
    (h : a.toFp = b.toFp) : R1.cmp a b = 0#32 := by
  unfold R1.cmp
  rw [ser_of_noCarry ha, ser_of_noCarry hb, h, (cmp_bytes_eq_zero rfl).2 rfl]; rfl

/-- Two elements whose canonical representatives have different parities are told apart. -/
theorem R1_cmp_parity {a b : Elt5 U} (ha : NoCarry a.limbs.ints.val) (hb : NoCarry b.limbs.ints.val)
    (h : canon a.toFp % 2 ≠ canon b.toFp % 2) : R1.cmp a b ≠ 0#32 := by
  rw [ne_eq, R1_cmp_zero_iff, ser_of_noCarry ha, ser_of_noCarry hb]
  intro hc
  have := hc (BitVec.ofNat 8 (canon a.toFp), BitVec.ofNat 8 (canon b.toFp))
    (by simp only [leBytes]; exact List.mem_cons_self)
  simp only [BitVec.getLsbD_ofNat, Nat.testBit_zero] at this
  apply h
  have h1 := Nat.mod_two_eq_zero_or_one (canon a.toFp)
  have h2 := Nat.mod_two_eq_zero_or_one (canon b.toFp)
  rcases h1 with h1 | h1 <;> rcases h2 with h2 | h2 <;> simp [h1, h2] at this ⊢

theorem canon_neg_parity {x : Fp} (h : x ≠ 0) : canon x % 2 ≠ canon (-x) % 2 := by
  have : canon x + canon (-x) = P := by
    unfold canon
    rw [ZMod.neg_val, if_neg h]
    have := ZMod.val_lt x
    omega
  have hP : P % 2 = 1 := by norm_num
  omega

/-! ## Square roots -/

theorem R1_sqrt_minus_one : R1.sqrt_minus_one.Le tight ∧ R1.sqrt_minus_one.toFp ^ 2 = -1 := by
  refine ⟨by decide, ?_⟩
  have h : R1.sqrt_minus_one.limbs.ints.val ^ 2 % p25519 = (-1) % p25519 := by decide +kernel
  have h2 : ((R1.sqrt_minus_one.limbs.ints.val ^ 2 : ℤ) : Fp) = ((-1 : ℤ) : Fp) := by
    rw [ZMod.intCast_eq_intCast_iff_dvd_sub, P_eq]
    exact Int.ModEq.dvd h
  rw [Int.cast_pow] at h2
  unfold Elt5.toFp Elt10.toFp
  simpa using h2

theorem R1_invsqrtPow_eq (u v : Elt5 U) : R1.invsqrtPow u v =
    (R1.mul (R1.mul u v) (R1.sqr v),
      R1.mul (powChain R1.mul R1.sqr R1.sqrn
        (R1.mul (R1.mul (R1.mul u v) (R1.sqr v)) (R1.sqr (R1.sqr v))))
        (R1.mul (R1.mul (R1.mul u v) (R1.sqr v)) (R1.sqr (R1.sqr v)))) := by
  simp only [R1.invsqrtPow, powChain]

theorem R1_invsqrtPow_spec {u v : Elt5 U} (hu : u.Le loose) (hv : v.Le loose) :
    Is (R1.invsqrtPow u v).1 (u.toFp * v.toFp ^ 3) ∧
      Is (R1.invsqrtPow u v).2 ((u.toFp * v.toFp ^ 7) ^ (2 ^ 252 - 3)) := by
  rw [R1_invsqrtPow_eq]
  have hu : Is u u.toFp := ⟨hu, rfl⟩
  have hv : Is v v.toFp := ⟨hv, rfl⟩
  have h1 := (hu.mul hv).mul hv.sqr
  have h2 := h1.mul hv.sqr.sqr
  have h3 := (powChain_rel (R := Is) Is.mul Is.sqr Is.sqrn h2).mul h2
  rw [powChain_pow] at h3
  have e1 : u.toFp * v.toFp * v.toFp ^ 2 = u.toFp * v.toFp ^ 3 := by ring
  have e2 : u.toFp * v.toFp * v.toFp ^ 2 * (v.toFp ^ 2) ^ 2 = u.toFp * v.toFp ^ 7 := by ring
  rw [e1] at h1
  rw [e2] at h3
  exact ⟨h1, h3⟩

theorem R1_invsqrt_spec {u v : Elt5 U} (hu : u.Le tight) (hv : v.Le loose)
    (h : ∃ y : Fp, v.toFp * y ^ 2 = u.toFp) :
    (R1.invsqrt u v).1.Le tight ∧ v.toFp * (R1.invsqrt u v).1.toFp ^ 2 = u.toFp ∧
      (R1.invsqrt u v).2.toFp = -u.toFp := by
  obtain ⟨y, hy⟩ := h
  have hsq : IsSquare (u.toFp * v.toFp ^ 7) := ⟨v.toFp ^ 4 * y, by rw [← hy]; ring⟩
  have hx := Full.cand_sq u.toFp v.toFp
  obtain ⟨p1, p2⟩ := R1_invsqrtPow_spec hu.loose hv
  have t1 := R1_mul_spec p2.1 p1.1
  have b1 := p2.mul p1
  have hv' : Is v v.toFp := ⟨hv, rfl⟩
  have t2 := R1_mul_spec (b1.sqr).1 hv
  have e2 := (b1.sqr.mul hv').2
  rw [mul_comm ((u.toFp * v.toFp ^ 7) ^ (2 ^ 252 - 3))] at b1 e2
  rw [mul_comm, hx] at e2
  have hn := R1_neg_toFp hu
  refine ⟨?_, ?_, hn⟩
  · simp only [R1.invsqrt]
    split_ifs
    · exact (R1_mul_spec t1.1.loose R1_sqrt_minus_one.1.loose).1
    · exact t1.1
  · simp only [R1.invsqrt]
    have c1 := noCarry_of_tight t2.1
    have c2 := noCarry_neg hu
    have hroot : v.toFp * (R1.mul (R1.invsqrtPow u v).2 (R1.invsqrtPow u v).1).toFp ^ 2 =
        u.toFp * (u.toFp * v.toFp ^ 7) ^ (2 ^ 253 - 5) := by rw [b1.2, hx]
    rcases Full.quartic_of_square _ hsq with h0 | h0 | h0
    · have hu0 : u.toFp = 0 := by
        rcases mul_eq_zero.mp h0 with h1 | h1
        · exact h1
        · have h2 : v.toFp = 0 := pow_eq_zero_iff (by norm_num) |>.mp h1
          rw [← hy, h2, zero_mul]
      rw [hu0, zero_mul] at hroot
      split_ifs
      · rw [(R1_mul_spec t1.1.loose R1_sqrt_minus_one.1.loose).2, mul_pow, ← mul_assoc, hroot,
          zero_mul, hu0]
      · rw [hroot, hu0]
    · rw [h0, mul_one] at hroot e2
      by_cases hu0 : u.toFp = 0
      · rw [hu0] at hroot
        split_ifs
        · rw [(R1_mul_spec t1.1.loose R1_sqrt_minus_one.1.loose).2, mul_pow, ← mul_assoc, hroot,
            zero_mul, hu0]
        · rw [hroot, hu0]
      · rw [if_neg (R1_cmp_parity c1 c2 (by rw [e2, hn]; exact canon_neg_parity hu0))]
        exact hroot
    · rw [h0, mul_neg, mul_one] at hroot e2
      rw [if_pos (R1_cmp_self c1 c2 (by rw [e2, hn]))]
      rw [(R1_mul_spec t1.1.loose R1_sqrt_minus_one.1.loose).2, mul_pow, R1_sqrt_minus_one.2]
      linear_combination -hroot

theorem R1_srt_zero {c a : Elt5 U} (hc : c.Le loose) (ha : a.Le loose) (h : c.toFp = 0) :
    (R1.srt c a).toFp = 0 := by
  obtain ⟨p1, p2⟩ := R1_invsqrtPow_spec hc ha
  have t1 := R1_mul_spec p2.1 p1.1
  have b1 := p2.mul p1
  rw [h] at b1
  have e : (R1.neg (R1.mul (R1.invsqrtPow c a).2 (R1.invsqrtPow c a).1)).toFp = 0 := by
    rw [R1_neg_toFp t1.1, b1.2]; ring
  simp only [R1.srt]
  split_ifs
  · have hl := (R1_neg_spec t1.1).1
    rw [(R1_mul_spec (Elt10.Le.mono hl (by decide)) R1_sqrt_minus_one.1.loose).2, e, zero_mul]
  · exact e

/-! ## Selection -/

theorem blendvW_zero (a b : W) : blendvW a b 0#64 = a := by
  have : byteMask 0#64 = 0#64 := by decide
  rw [blendvW, this, show ~~~(0#64) = BitVec.allOnes 64 from rfl, BitVec.and_allOnes]; simp

theorem blendvW_ones (a b : W) : blendvW a b (-1) = b := by
  have : byteMask (-1) = BitVec.allOnes 64 := by decide
  rw [blendvW, this, BitVec.and_allOnes]; simp

theorem R1_cmv_zero (a b : Elt5 U) : R1.cmv 0#32 a b = a := by
  have : -(BitVec.signExtend 64 0#32) = 0#64 := by decide
  simp only [R1.cmv, this, blendvW_zero, Elt5.zip]

theorem R1_cmv_one (a b : Elt5 U) : R1.cmv 1#32 a b = b := by
  have : -(BitVec.signExtend 64 1#32) = -1 := by decide
  simp only [R1.cmv, this, blendvW_ones, Elt5.zip]

theorem mask_of_bit (b : W) : (0#64 - (b &&& 1#64)) = if b.getLsbD 0 then -1 else 0#64 := by
  have h : b &&& 1#64 = if b.getLsbD 0 then 1#64 else 0#64 := by
    ext i hi
    rcases Nat.eq_zero_or_pos i with rfl | hp
    · rw [BitVec.getElem_and, ← BitVec.getLsbD_eq_getElem (x := b)]
      cases b.getLsbD 0 <;> simp
    · have h1 : (1#64).getLsbD i = false := by
        rw [BitVec.getLsbD_one]; simp; omega
      rw [BitVec.getElem_and, ← BitVec.getLsbD_eq_getElem (x := 1#64), h1]
      split
      · rw [← BitVec.getLsbD_eq_getElem (x := 1#64), h1]; simp
      · simp
  rw [h]; split <;> decide

/-- The two-way selection uses the low bit of each half of the control vector. -/
theorem R2_cmv_lo (bit : V) (a b : Elt5 V) :
    (R2.cmv bit a b).lo = if bit.q0.getLsbD 0 then b.lo else a.lo := by
  have e : (R2.cmv bit a b).lo = a.lo.zip (fun x y =>
      ⟨blendvW x.l y.l (0#64 - (bit.q0 &&& 1#64)), blendvW x.h y.h (0#64 - (bit.q0 &&& 1#64))⟩) b.lo :=
    rfl
  rw [e, mask_of_bit]
  split <;> simp only [blendvW_ones, blendvW_zero, Elt5.zip]

theorem R2_cmv_hi (bit : V) (a b : Elt5 V) :
    (R2.cmv bit a b).hi = if bit.q2.getLsbD 0 then b.hi else a.hi := by
  have e : (R2.cmv bit a b).hi = a.hi.zip (fun x y =>
      ⟨blendvW x.l y.l (0#64 - (bit.q2 &&& 1#64)), blendvW x.h y.h (0#64 - (bit.q2 &&& 1#64))⟩) b.hi :=
    rfl
  rw [e, mask_of_bit]
  split <;> simp only [blendvW_ones, blendvW_zero, Elt5.zip]

/-! ## Masked negation -/

theorem negMask_ones (x : W) : (x ^^^ -1) - -1 = -x := by
  have : x ^^^ -1 = ~~~x := by
    rw [show (-1 : W) = BitVec.allOnes 64 from rfl, BitVec.xor_allOnes]
  rw [this, BitVec.neg_eq_not_add x, BitVec.sub_eq_add_neg]
  congr 1

theorem negMask_zero (x : W) : (x ^^^ 0#64) - 0#64 = x := by simp

theorem zero_add_mask (x : W) : 0#64 + ((x ^^^ 0#64) - 0#64) = x := by simp

theorem add_negMask (p x : W) : p + ((x ^^^ -1) - -1) = p - x := by
  rw [negMask_ones, BitVec.sub_eq_add_neg]

/-- `ngz` negates the low element and keeps the high one. -/
theorem R2_ngz_lo (a : Elt5 V) : (R2.ngz a).lo = R1.neg a.lo := by
  have e : (R2.ngz a).lo = (R1.twoP : Elt5 U).zip (fun p x =>
      ⟨p.l + ((x.l ^^^ -1) - -1), p.h + ((x.h ^^^ -1) - -1)⟩) a.lo := rfl
  rw [e]
  simp only [add_negMask]
  rfl

theorem R2_ngz_hi (a : Elt5 V) : (R2.ngz a).hi = a.hi := by
  have e : (R2.ngz a).hi = a.hi.map (fun x =>
      ⟨0#64 + ((x.l ^^^ 0#64) - 0#64), 0#64 + ((x.h ^^^ 0#64) - 0#64)⟩) := rfl
  rw [e]
  simp only [zero_add_mask, Elt5.map]

/-- `subadd` with permutation 0: (low - high, high + low); with permutation 1: (high - low,
low + high). -/
theorem R2_subadd0 (a : Elt5 V) : (R2.subadd a 0#32).lo = R1.sub a.lo a.hi ∧
    (R2.subadd a 0#32).hi = R1.add a.hi a.lo := by
  have e : (R2.subadd a 0#32).lo = (R1.twoP : Elt5 U).zip (fun p xy =>
      ⟨xy.1.l + p.l + ((xy.2.l ^^^ -1) - -1), xy.1.h + p.h + ((xy.2.h ^^^ -1) - -1)⟩)
      (a.lo.zip Prod.mk a.hi) := rfl
  have e' : (R2.subadd a 0#32).hi = a.hi.zip (fun x y =>
      ⟨x.l + 0#64 + ((y.l ^^^ 0#64) - 0#64), x.h + 0#64 + ((y.h ^^^ 0#64) - 0#64)⟩) a.lo := rfl
  have k : R1.sub a.lo a.hi = (R1.twoP : Elt5 U).zip (fun p xy =>
      ⟨xy.1.l + (p.l - xy.2.l), xy.1.h + (p.h - xy.2.h)⟩) (a.lo.zip Prod.mk a.hi) := rfl
  have k' : R1.add a.hi a.lo = a.hi.zip (fun x y => ⟨x.l + y.l, x.h + y.h⟩) a.lo := rfl
  rw [e, e', k, k']
  simp only [BitVec.add_assoc, add_negMask, zero_add_mask]
  exact ⟨trivial, trivial⟩

theorem R2_subadd1 (a : Elt5 V) : (R2.subadd a 1#32).lo = R1.sub a.hi a.lo ∧
    (R2.subadd a 1#32).hi = R1.add a.lo a.hi := by
  have e : (R2.subadd a 1#32).lo = (R1.twoP : Elt5 U).zip (fun p xy =>
      ⟨xy.1.l + p.l + ((xy.2.l ^^^ -1) - -1), xy.1.h + p.h + ((xy.2.h ^^^ -1) - -1)⟩)
      (a.hi.zip Prod.mk a.lo) := rfl
  have e' : (R2.subadd a 1#32).hi = a.lo.zip (fun x y =>
      ⟨x.l + 0#64 + ((y.l ^^^ 0#64) - 0#64), x.h + 0#64 + ((y.h ^^^ 0#64) - 0#64)⟩) a.hi := rfl
  have k : R1.sub a.hi a.lo = (R1.twoP : Elt5 U).zip (fun p xy =>
      ⟨xy.1.l + (p.l - xy.2.l), xy.1.h + (p.h - xy.2.h)⟩) (a.hi.zip Prod.mk a.lo) := rfl
  have k' : R1.add a.lo a.hi = a.lo.zip (fun x y => ⟨x.l + y.l, x.h + y.h⟩) a.hi := rfl
  rw [e, e', k, k']
  simp only [BitVec.add_assoc, add_negMask, zero_add_mask]
  exact ⟨trivial, trivial⟩

/-- The four-way `ngz` exchanges the first two elements, negates the third, keeps the fourth. -/
theorem R4_ngz_lanes (a : Elt10 V) :
    (R4.ngz a).lane 0 = a.lane 1 ∧ (R4.ngz a).lane 1 = a.lane 0 ∧
      (R4.ngz a).lane 2 = R4.neg (a.lane 2) ∧ (R4.ngz a).lane 3 = a.lane 3 := by
  have e2 : (R4.ngz a).lane 2 = (R4.twoP : Elt10 W).zip (fun p x => p + ((x ^^^ -1) - -1))
      (a.lane 2) := rfl
  have e3 : (R4.ngz a).lane 3 = (a.lane 3).map (fun x => 0#64 + ((x ^^^ 0#64) - 0#64)) := rfl
  refine ⟨rfl, rfl, ?_, ?_⟩
  · rw [e2]; simp only [add_negMask]; rfl
  · rw [e3]; simp only [zero_add_mask, Elt10.map]

/-! ## Layout conversions -/

theorem R2_inter_lo (a b : Elt5 U) : (R2.inter a b).lo = a := rfl
theorem R2_inter_hi (a b : Elt5 U) : (R2.inter a b).hi = b := rfl
theorem R2_deinter (a : Elt5 V) : R2.deinter a = (a.lo, a.hi) := rfl

theorem R4_zip_lanes (a b c d : Elt5 U) : (R4.zip a b c d).lane 0 = a.limbs ∧
    (R4.zip a b c d).lane 1 = b.limbs ∧ (R4.zip a b c d).lane 2 = c.limbs ∧
    (R4.zip a b c d).lane 3 = d.limbs := ⟨rfl, rfl, rfl, rfl⟩

theorem R4_unzip (a : Elt10 V) : (R4.unzip a).1.limbs = a.lane 0 ∧
    (R4.unzip a).2.1.limbs = a.lane 1 ∧ (R4.unzip a).2.2.1.limbs = a.lane 2 ∧
    (R4.unzip a).2.2.2.limbs = a.lane 3 := ⟨rfl, rfl, rfl, rfl⟩

/-! ## In-place inversion -/

theorem R1_invAliased_eq (a : Elt5 U) :
    R1.invAliased a = R1.mul (invAChain R1.mul R1.sqrn a).1 (invAChain R1.mul R1.sqrn a).2 := by
  simp only [R1.invAliased, invAChain, R1.mul]

theorem R1_invAliased_spec {a : Elt5 U} (ha : a.Le loose) :
    (R1.invAliased a).toFp = a.toFp ^
      63498887646270171683893765972506272048567410945673857699057384778533006576716 := by
  obtain ⟨h1, h2⟩ := invAChain_rel (R := Is) Is.mul Is.sqrn (⟨ha, rfl⟩ : Is a a.toFp)
  obtain ⟨k1, k2⟩ := R1_mul_spec h1.1 h2.1
  rw [R1_invAliased_eq, k2, h1.2, h2.2, invAChain_pow]

/-! ## Four-way square root -/

/-- A lane of a four-way element that may be multiplied and its residue. -/
def Is4 (e : Elt10 W) (x : Fp) : Prop := e.Le loose ∧ e.toFp = x

theorem Is4.mul {a b : Elt10 W} {x y : Fp} (ha : Is4 a x) (hb : Is4 b y) :
    Is4 (R4.mul a b) (x * y) := by
  obtain ⟨h1, h2⟩ := R4_mul_spec ha.1 hb.1
  exact ⟨h1.loose, by rw [h2, ha.2, hb.2]⟩

theorem Is4.sqr {a : Elt10 W} {x : Fp} (ha : Is4 a x) : Is4 (R4.sqr a) (x ^ 2) := by
  obtain ⟨h1, h2⟩ := R4_sqr_spec ha.1
  exact ⟨h1.loose, by rw [h2, ha.2]⟩

theorem Is4.sqrn {a : Elt10 W} {x : Fp} (n : ℕ) (ha : Is4 a x) : Is4 (R4.sqrn a n) (x ^ 2 ^ n) := by
  obtain ⟨h1, _, h2⟩ := R4_sqrn_spec ha.1 n
  exact ⟨h1, by rw [h2, ha.2]⟩

theorem R4_invsqrtPow_eq {α : Type} [Lane α] (u v : Elt10 α) : R4.invsqrtPow u v =
    (R4.mul (R4.mul u v) (R4.sqr v),
      R4.mul (powChain R4.mul R4.sqr R4.sqrn
        (R4.mul (R4.mul (R4.mul u v) (R4.sqr v)) (R4.sqr (R4.sqr v))))
        (R4.mul (R4.mul (R4.mul u v) (R4.sqr v)) (R4.sqr (R4.sqr v)))) := by
  simp only [R4.invsqrtPow, powChain]

theorem R4_sqrt_minus_one : Is4 (R4.sqrt_minus_one : Elt10 W) R1.sqrt_minus_one.toFp :=
  ⟨by decide, rfl⟩

theorem R4_invsqrt_spec {u v : Elt10 W} (hu : u.Le loose) (hv : v.Le loose) :
    (R4.invsqrt u v).1.Le tight ∧ (R4.invsqrt u v).1.toFp =
      u.toFp * v.toFp ^ 3 * (u.toFp * v.toFp ^ 7) ^ (2 ^ 252 - 3) * R1.sqrt_minus_one.toFp := by
  have hu : Is4 u u.toFp := ⟨hu, rfl⟩
  have hv : Is4 v v.toFp := ⟨hv, rfl⟩
  have h1 := (hu.mul hv).mul hv.sqr
  have h2 := h1.mul hv.sqr.sqr
  have h3 := (powChain_rel (R := Is4) Is4.mul Is4.sqr Is4.sqrn h2).mul h2
  rw [powChain_pow] at h3
  have h4 := h3.mul h1
  have e : (R4.invsqrt u v).1 = R4.mul (R4.mul (R4.invsqrtPow u v).2 (R4.invsqrtPow u v).1)
    R4.sqrt_minus_one := rfl
  rw [e, R4_invsqrtPow_eq]
  obtain ⟨k1, k2⟩ := R4_mul_spec h4.1 R4_sqrt_minus_one.1
  refine ⟨k1, ?_⟩
  rw [k2, h4.2, R4_sqrt_minus_one.2]
  have e2 : u.toFp * v.toFp * v.toFp ^ 2 * (v.toFp ^ 2) ^ 2 = u.toFp * v.toFp ^ 7 := by ring
  rw [e2]
  ring

end Verif.Fp25519
