import Verif.Fp25519.RedApiLemmas

/-!
# Properties C11 to C14, C51, C52: radix-2^25.5 vector arithmetic

An element has ten 64-bit limbs, limb i with weight 2^⌈25.5 i⌉; `toFp` is the residue modulo
p = 2^255 - 19 that the limbs represent.  A one-way element holds one such ten-limb number, a
two-way element two (`lo`, `hi`), a four-way element four (`lane 0` … `lane 3`).

`Le tight` bounds every limb by its nominal 26 or 25 bits (a few limbs may exceed it by a small
amount); `Le loose` by 3·2^26 + 2^15 and 3·2^25 + 2^19.  Every multiplication and squaring
accepts `loose` limbs and returns `tight` ones, and the sum or difference of `tight` elements is
`loose`, so the bounds are the contract under which the operations compose.
-/

namespace Verif.Fp25519

set_option exponentiation.threshold 2000

/-! ## C11 -/

/-- C11, one-way. -/
theorem C11_oneway (a b : Elt5 U) :
    (a.Le tight → b.Le tight →
      ((R1.add a b).Le loose ∧ (R1.add a b).toFp = a.toFp + b.toFp) ∧
      ((R1.sub a b).Le loose ∧ (R1.sub a b).toFp = a.toFp - b.toFp)) ∧
    (a.Le loose → b.Le loose →
      ((R1.mul a b).Le tight ∧ (R1.mul a b).toFp = a.toFp * b.toFp) ∧
      ((R1.sqr a).Le tight ∧ (R1.sqr a).toFp = a.toFp ^ 2)) ∧
    (a.Le wide → (R1.compress a).Le tight ∧ (R1.compress a).toFp = a.toFp) := by
  refine ⟨fun ha hb => ⟨R2_add_spec ha hb, R2_sub_spec ha hb⟩, fun ha hb => ⟨R1_mul_spec ha hb, ?_⟩,
    fun ha => ?_⟩
  · obtain ⟨_, h2, h3⟩ := R1_sqrn_spec ha 1
    exact ⟨h2 (by norm_num), h3⟩
  · obtain ⟨h1, h2⟩ := R2_compress_run ha
    exact ⟨h1, h2.toFp⟩

/-- C11, two-way: both halves. -/
theorem C11_twoway (a b : Elt5 V) :
    (a.lo.Le tight → b.lo.Le tight →
      ((R2.add a b).lo.Le loose ∧ (R2.add a b).lo.toFp = a.lo.toFp + b.lo.toFp) ∧
      ((R2.sub a b).lo.Le loose ∧ (R2.sub a b).lo.toFp = a.lo.toFp - b.lo.toFp)) ∧
    (a.hi.Le tight → b.hi.Le tight →
      ((R2.add a b).hi.Le loose ∧ (R2.add a b).hi.toFp = a.hi.toFp + b.hi.toFp) ∧
      ((R2.sub a b).hi.Le loose ∧ (R2.sub a b).hi.toFp = a.hi.toFp - b.hi.toFp)) ∧
    (a.lo.Le loose → b.lo.Le loose →
      ((R2.mul a b).lo.Le tight ∧ (R2.mul a b).lo.toFp = a.lo.toFp * b.lo.toFp) ∧
      ((R2.sqr a).lo.Le tight ∧ (R2.sqr a).lo.toFp = a.lo.toFp ^ 2)) ∧
    (a.hi.Le loose → b.hi.Le loose →
      ((R2.mul a b).hi.Le tight ∧ (R2.mul a b).hi.toFp = a.hi.toFp * b.hi.toFp) ∧
      ((R2.sqr a).hi.Le tight ∧ (R2.sqr a).hi.toFp = a.hi.toFp ^ 2)) ∧
    (a.lo.Le wide → (R2.compress a).lo.Le tight ∧ (R2.compress a).lo.toFp = a.lo.toFp) ∧
    (a.hi.Le wide → (R2.compress a).hi.Le tight ∧ (R2.compress a).hi.toFp = a.hi.toFp) := by
  rw [R2_add_lo, R2_add_hi, R2_sub_lo, R2_sub_hi, R2_mul_lo, R2_mul_hi, R2_sqr_lo, R2_sqr_hi,
    R2_compress_lo, R2_compress_hi]
  exact ⟨fun ha hb => ⟨R2_add_spec ha hb, R2_sub_spec ha hb⟩,
    fun ha hb => ⟨R2_add_spec ha hb, R2_sub_spec ha hb⟩,
    fun ha hb => ⟨R2_mul_spec ha hb, R2_sqr_spec ha⟩,
    fun ha hb => ⟨R2_mul_spec ha hb, R2_sqr_spec ha⟩,
    fun ha => ⟨(R2_compress_run ha).1, (R2_compress_run ha).2.toFp⟩,
    fun ha => ⟨(R2_compress_run ha).1, (R2_compress_run ha).2.toFp⟩⟩

theorem R4_add_lane (a b : Elt10 V) (j : ℕ) (hj : j < 4) :
    (R4.add a b).lane j = R4.add (a.lane j) (b.lane j) :=
  lane_cases (p := fun j => (R4.add a b).lane j = R4.add (a.lane j) (b.lane j)) rfl rfl rfl rfl j hj

theorem R4_sub_lane (a b : Elt10 V) (j : ℕ) (hj : j < 4) :
    (R4.sub a b).lane j = R4.sub (a.lane j) (b.lane j) :=
  lane_cases (p := fun j => (R4.sub a b).lane j = R4.sub (a.lane j) (b.lane j)) rfl rfl rfl rfl j hj

theorem R4_sqrn_lane (n : ℕ) (a : Elt10 V) (j : ℕ) (hj : j < 4) :
    (R4.sqrn a n).lane j = R4.sqrn (a.lane j) n := by
  induction n generalizing a with
  | zero => rfl
  | succ n ih =>
    change (R4.sqrn (R4.sqr a) n).lane j = R4.sqrn (R4.sqr (a.lane j)) n
    rw [ih, R4_sqr_lane _ _ hj]

theorem R4_invsqrt_lane (a b : Elt10 V) (j : ℕ) (hj : j < 4) :
    (R4.invsqrt a b).1.lane j = (R4.invsqrt (a.lane j) (b.lane j)).1 := by
  have e : ∀ {α : Type} [Lane α] (u v : Elt10 α), (R4.invsqrt u v).1 =
      R4.mul (R4.mul (R4.invsqrtPow u v).2 (R4.invsqrtPow u v).1) R4.sqrt_minus_one := by
    intros; rfl
  have hs : (R4.sqrt_minus_one : Elt10 V).lane j = R4.sqrt_minus_one :=
    lane_cases (p := fun j => (R4.sqrt_minus_one : Elt10 V).lane j = R4.sqrt_minus_one)
      rfl rfl rfl rfl j hj
  have h := fun x => powChain_rel (R := fun (x : Elt10 V) y => x.lane j = y) (m := R4.mul)
    (q := R4.sqr) (s := R4.sqrn) (m' := R4.mul) (q' := R4.sqr) (s' := R4.sqrn)
    (fun h1 h2 => by rw [R4_mul_lane _ _ _ hj, h1, h2]) (fun h1 => by rw [R4_sqr_lane _ _ hj, h1])
    (fun n h1 => by rw [R4_sqrn_lane _ _ _ hj, h1]) (rfl : (x : Elt10 V).lane j = _)
  rw [e, e, R4_invsqrtPow_eq, R4_invsqrtPow_eq, R4_mul_lane _ _ _ hj, hs]
  simp only [R4_mul_lane _ _ _ hj, R4_sqr_lane _ _ hj, h]

/-- C11, four-way: every lane. -/
theorem C11_fourway (a b : Elt10 V) (j : ℕ) (hj : j < 4) :
    ((a.lane j).Le tight → (b.lane j).Le tight →
      (((R4.add a b).lane j).Le loose ∧
        ((R4.add a b).lane j).toFp = (a.lane j).toFp + (b.lane j).toFp) ∧
      (((R4.sub a b).lane j).Le loose ∧
        ((R4.sub a b).lane j).toFp = (a.lane j).toFp - (b.lane j).toFp)) ∧
    ((a.lane j).Le loose → (b.lane j).Le loose →
      (((R4.mul a b).lane j).Le tight ∧
        ((R4.mul a b).lane j).toFp = (a.lane j).toFp * (b.lane j).toFp) ∧
      (((R4.sqr a).lane j).Le tight ∧ ((R4.sqr a).lane j).toFp = (a.lane j).toFp ^ 2)) ∧
    ((a.lane j).Le wide → ((R4.compress a).lane j).Le tight ∧
      ((R4.compress a).lane j).toFp = (a.lane j).toFp) := by
  rw [R4_add_lane _ _ _ hj, R4_sub_lane _ _ _ hj, R4_mul_lane _ _ _ hj, R4_sqr_lane _ _ hj,
    R4_compress_lane _ _ hj]
  exact ⟨fun ha hb => ⟨R4_add_spec ha hb, R4_sub_spec ha hb⟩,
    fun ha hb => ⟨R4_mul_spec ha hb, R4_sqr_spec ha⟩,
    fun ha => ⟨(R4_compress_run ha).1, (R4_compress_run ha).2.toFp⟩⟩

/-- C11: no lane overflows in a multiplication.  The limbs before the carry pass, read as
integers, are exactly the coefficients of the schoolbook product (`school`, defined over the
integers), in all three layouts. -/
theorem C11_no_overflow :
    (∀ a b : Elt5 U, a.Le loose → b.Le loose →
      (R1.intmul a b).limbs.ints = school a.limbs.ints b.limbs.ints) ∧
    (∀ a b : Elt5 V, a.lo.Le loose → b.lo.Le loose →
      (R2.intmul a b).lo.limbs.ints = school a.lo.limbs.ints b.lo.limbs.ints) ∧
    (∀ a b : Elt5 V, a.hi.Le loose → b.hi.Le loose →
      (R2.intmul a b).hi.limbs.ints = school a.hi.limbs.ints b.hi.limbs.ints) ∧
    (∀ a b : Elt10 V, ∀ j < 4, (a.lane j).Le loose → (b.lane j).Le loose →
      ((R4.intmul a b).lane j).ints = school (a.lane j).ints (b.lane j).ints) := by
  refine ⟨fun a b ha hb => (R1_intmul_run ha hb).2,
    fun a b ha hb => by rw [R2_intmul_lo]; exact (R2_intmul_run ha hb).2,
    fun a b ha hb => by rw [R2_intmul_hi]; exact (R2_intmul_run ha hb).2, fun a b j hj ha hb => ?_⟩
  have e : (R4.intmul a b).lane j = R4.intmul (a.lane j) (b.lane j) :=
    lane_cases (p := fun j => (R4.intmul a b).lane j = R4.intmul (a.lane j) (b.lane j))
      rfl rfl rfl rfl j hj
  rw [e]
  exact (R4_intmul_run ha hb).2

/-- The largest limbs that may be multiplied. -/
def maxLoose : Elt5 U :=
  ⟨⟨0xc008000#64, 0x6080000#64⟩, ⟨0x6080000#64, 0xc008000#64⟩, ⟨0xc008000#64, 0x6080000#64⟩,
    ⟨0x6080000#64, 0xc008000#64⟩, ⟨0xc008000#64, 0x6080000#64⟩⟩

example : maxLoose.Le loose ∧ (R1.mul maxLoose maxLoose).Le tight := by decide +kernel
example : (R2.inter maxLoose maxLoose).hi.Le loose := by decide
example : ((R4.zip maxLoose maxLoose maxLoose maxLoose).lane 3).Le loose := by decide

/-! ## C12 -/

theorem limbs_inj {a b : Elt5 U} (h : a.limbs.ints = b.limbs.ints) : a = b := by
  obtain ⟨⟨a0, a5⟩, ⟨a1, a6⟩, ⟨a2, a7⟩, ⟨a3, a8⟩, ⟨a4, a9⟩⟩ := a
  obtain ⟨⟨b0, b5⟩, ⟨b1, b6⟩, ⟨b2, b7⟩, ⟨b3, b8⟩, ⟨b4, b9⟩⟩ := b
  simp only [Elt10.ints, Elt5.limbs, Elt10.map, Elt10.mk.injEq, Nat.cast_inj,
    BitVec.toNat_inj] at h
  obtain ⟨rfl, rfl, rfl, rfl, rfl, rfl, rfl, rfl, rfl, rfl⟩ := h
  rfl

/-- C12, two-way: each half of a two-way operation is, limb for limb, the one-way operation on
those halves; for squaring, whose carry passes differ, it is the same residue. -/
theorem C12_twoway (a b : Elt5 V) :
    ((R2.add a b).lo = R1.add a.lo b.lo ∧ (R2.add a b).hi = R1.add a.hi b.hi) ∧
    ((R2.sub a b).lo = R1.sub a.lo b.lo ∧ (R2.sub a b).hi = R1.sub a.hi b.hi) ∧
    (a.lo.Le loose → b.lo.Le loose → (R2.mul a b).lo = R1.mul a.lo b.lo ∧
      (R2.sqr a).lo.toFp = (R1.sqr a.lo).toFp) ∧
    (a.hi.Le loose → b.hi.Le loose → (R2.mul a b).hi = R1.mul a.hi b.hi ∧
      (R2.sqr a).hi.toFp = (R1.sqr a.hi).toFp) := by
  have key : ∀ {x y : Elt5 U}, x.Le loose → y.Le loose → R2.mul x y = R1.mul x y := by
    intro x y hx hy
    have : R2.intmul x y = R1.intmul x y :=
      limbs_inj ((R2_intmul_run hx hy).2.trans (R1_intmul_run hx hy).2.symm)
    unfold R2.mul
    rw [this]; rfl
  have key2 : ∀ {x : Elt5 U}, x.Le loose → (R2.sqr x).toFp = (R1.sqr x).toFp := by
    intro x hx
    rw [(R2_sqr_spec hx).2]
    exact (R1_sqrn_spec hx 1).2.2.symm
  rw [R2_mul_lo, R2_mul_hi, R2_sqr_lo, R2_sqr_hi]
  exact ⟨⟨rfl, rfl⟩, ⟨rfl, rfl⟩, fun ha hb => ⟨key ha hb, key2 ha⟩,
    fun ha hb => ⟨key ha hb, key2 ha⟩⟩

/-- C12, four-way: lane j of a four-way operation represents what the one-way operation
computes from the two elements held in lane j. -/
theorem C12_fourway (x y : Elt5 U) (a b : Elt10 V) (j : ℕ) (hj : j < 4)
    (ha : a.lane j = x.limbs) (hb : b.lane j = y.limbs) :
    (R4.add a b).lane j = (R1.add x y).limbs ∧ (R4.sub a b).lane j = (R1.sub x y).limbs ∧
    (x.Le loose → y.Le loose → (R4.intmul a b).lane j = (R1.intmul x y).limbs ∧
      ((R4.mul a b).lane j).toFp = (R1.mul x y).toFp ∧
      ((R4.sqr a).lane j).toFp = (R1.sqr x).toFp) := by
  have e : (R4.intmul a b).lane j = R4.intmul (a.lane j) (b.lane j) :=
    lane_cases (p := fun j => (R4.intmul a b).lane j = R4.intmul (a.lane j) (b.lane j))
      rfl rfl rfl rfl j hj
  rw [R4_add_lane _ _ _ hj, R4_sub_lane _ _ _ hj, R4_mul_lane _ _ _ hj, R4_sqr_lane _ _ hj, e, ha,
    hb]
  refine ⟨rfl, rfl, fun hx hy => ⟨?_, ?_, ?_⟩⟩
  · have h := (R4_intmul_run hx hy).2.trans (R1_intmul_run hx hy).2.symm
    simp only [Elt10.ints, Elt10.map, Elt10.mk.injEq, Nat.cast_inj, BitVec.toNat_inj] at h
    obtain ⟨h0, h1, h2, h3, h4, h5, h6, h7, h8, h9⟩ := h
    rcases hr : R4.intmul x.limbs y.limbs with ⟨r0, r1, r2, r3, r4, r5, r6, r7, r8, r9⟩
    rcases hs : (R1.intmul x y).limbs with ⟨s0, s1, s2, s3, s4, s5, s6, s7, s8, s9⟩
    simp only [hr, hs] at h0 h1 h2 h3 h4 h5 h6 h7 h8 h9
    simp only [h0, h1, h2, h3, h4, h5, h6, h7, h8, h9]
  · rw [(R4_mul_spec hx hy).2, (R1_mul_spec hx hy).2]; rfl
  · rw [(R4_sqr_spec hx).2]
    exact (R1_sqrn_spec hx 1).2.2.symm

/-- C12: packing and unpacking keep the elements apart. -/
theorem C12_pack (a b c d : Elt5 U) :
    ((R2.inter a b).lo = a ∧ (R2.inter a b).hi = b ∧ R2.deinter (R2.inter a b) = (a, b)) ∧
    ((R4.zip a b c d).lane 0 = a.limbs ∧ (R4.zip a b c d).lane 1 = b.limbs ∧
      (R4.zip a b c d).lane 2 = c.limbs ∧ (R4.zip a b c d).lane 3 = d.limbs) ∧
    R4.unzip (R4.zip a b c d) = (a, b, c, d) :=
  ⟨⟨rfl, rfl, rfl⟩, ⟨rfl, rfl, rfl, rfl⟩, rfl⟩

example : (R4.zip maxLoose R1.prime R1.zero maxLoose).lane 1 = R1.prime.limbs := rfl

/-! ## C13 -/

/-- C13, characterisation for every limb vector: the bytes are the canonical encoding of the
residue if and only if folding the part of the value above 2^256 does not carry out of bit 128.
(`leBytes 32 (canon x)` are the 32 little-endian bytes of the representative of x in [0, p).) -/
theorem C13_ser_iff (a : Elt5 U) :
    R1.ser a = leBytes 32 (canon a.toFp) ↔
      a.limbs.ints.val % 2 ^ 128 + 38 * (a.limbs.ints.val / 2 ^ 256) < 2 ^ 128 := ser_eq_iff a

/-- C13: the encoding is canonical for parsed elements, for results of multiplications,
squarings and inversions, and for their negatives.  Not so for unreduced differences
(`C13_ser_wrong`). -/
theorem C13_ser_results (a b : Elt5 U) (ha : a.Le loose) (hb : b.Le loose) (buf : List Byte)
    (h : buf.length = 32) :
    (R1.ser (R1.unser buf) = leBytes 32 (leNat buf % P) ∧
      R1.ser (R1.neg (R1.unser buf)) = leBytes 32 (canon (-(leNat buf : Fp)))) ∧
    (R1.ser (R1.mul a b) = leBytes 32 (canon (a.toFp * b.toFp)) ∧
      R1.ser (R1.neg (R1.mul a b)) = leBytes 32 (canon (-(a.toFp * b.toFp)))) ∧
    (R1.ser (R1.sqr a) = leBytes 32 (canon (a.toFp ^ 2)) ∧
      R1.ser (R1.neg (R1.sqr a)) = leBytes 32 (canon (-a.toFp ^ 2))) ∧
    (R1.ser (R1.inv a) = leBytes 32 (canon a.toFp⁻¹) ∧
      R1.ser (R1.neg (R1.inv a)) = leBytes 32 (canon (-a.toFp⁻¹))) := by
  have key : ∀ {e : Elt5 U} {x : Fp}, e.Le tight → e.toFp = x →
      R1.ser e = leBytes 32 (canon x) ∧ R1.ser (R1.neg e) = leBytes 32 (canon (-x)) := by
    intro e x h1 h2
    exact ⟨by rw [ser_of_noCarry (noCarry_of_tight h1), h2],
      by rw [ser_of_noCarry (noCarry_neg h1), R1_neg_toFp h1, h2]⟩
  refine ⟨?_, key (R1_mul_spec ha hb).1 (R1_mul_spec ha hb).2, ?_,
    key (R1_inv_spec ha).1 (R1_inv_spec ha).2⟩
  · have := key (canonB_tight (unser_spec buf h).1) (unser_toFp buf h)
    refine ⟨?_, this.2⟩
    rw [this.1]; unfold canon; rw [ZMod.val_natCast]
  · exact key ((R1_sqrn_spec ha 1).2.1 (by norm_num)) (R1_sqrn_spec ha 1).2.2

/-- C13: sums and differences of such results encode correctly after one `compress`. -/
theorem C13_ser_compress (a : Elt5 U) (ha : a.Le wide) :
    R1.ser (R1.compress a) = leBytes 32 (canon a.toFp) := by
  obtain ⟨h1, h2⟩ := R2_compress_run ha
  exact (ser_of_noCarry (noCarry_of_tight h1)).trans (by
    rw [show (R2.compress a).toFp = a.toFp from h2.toFp])

/-- C13: not every limb vector is encoded rightly: encoding the difference 2^128 - 0 of two parsed
elements gives the encoding of 0. -/
theorem C13_ser_wrong :
    ∃ x y : List Byte, x.length = 32 ∧ y.length = 32 ∧
      (R1.sub (R1.unser x) (R1.unser y)).toFp ≠ 0 ∧
      R1.ser (R1.sub (R1.unser x) (R1.unser y)) = leBytes 32 0 := by
  refine ⟨leBytes 32 (2 ^ 128), leBytes 32 0, by simp, by simp, ?_, by decide +kernel⟩
  rw [(C11_oneway _ _).1 (canonB_tight (unser_spec _ (by simp)).1)
    (canonB_tight (unser_spec _ (by simp)).1) |>.2.2, unser_toFp _ (by simp),
    unser_toFp _ (by simp), leNat_leBytes, leNat_leBytes]
  rw [Nat.zero_mod, Nat.cast_zero, sub_zero]
  intro h
  rw [ZMod.natCast_eq_zero_iff] at h
  exact absurd h (by norm_num)

/-- C13 for the wider layouts: their encodings are the concatenated one-way encodings. -/
theorem C13_wide (a : Elt5 V) (e : Elt10 V) (buf : List Byte) :
    R2.ser a = R1.ser a.lo ++ R1.ser a.hi ∧
    (R2.unser buf).lo = R1.unser (buf.take 32) ∧ (R2.unser buf).hi = R1.unser (buf.drop 32) ∧
    R4.ser e = R1.ser (R4.unzip e).1 ++ R1.ser (R4.unzip e).2.1 ++ R1.ser (R4.unzip e).2.2.1 ++
      R1.ser (R4.unzip e).2.2.2 ∧
    ((R4.unser buf).lane 0 = (R1.unser (buf.take 32)).limbs ∧
      (R4.unser buf).lane 1 = (R1.unser ((buf.drop 32).take 32)).limbs ∧
      (R4.unser buf).lane 2 = (R1.unser ((buf.drop 64).take 32)).limbs ∧
      (R4.unser buf).lane 3 = (R1.unser ((buf.drop 96).take 32)).limbs) :=
  ⟨rfl, rfl, rfl, rfl, rfl, rfl, rfl, rfl⟩

example : R1.ser (R1.mul maxLoose (R1.unser (leBytes 32 (P + 1)))) =
    leBytes 32 (canon maxLoose.toFp) := by decide +kernel

/-! ## C14 -/

/-- C14: one-way and two-way negation are exact. -/
theorem C14_neg (a : Elt5 U) (b : Elt5 V) :
    (a.Le tight → (R1.neg a).Le loose ∧ (R1.neg a).toFp = -a.toFp) ∧
    (b.lo.Le tight → (R2.neg b).lo.Le tight ∧ (R2.neg b).lo.toFp = -b.lo.toFp) ∧
    (b.hi.Le tight → (R2.neg b).hi.Le tight ∧ (R2.neg b).hi.toFp = -b.hi.toFp) :=
  ⟨fun h => ⟨Elt10.Le.mono (R1_neg_spec h).1 (by decide), R1_neg_toFp h⟩,
    fun h => by rw [R2_neg_lo]; exact R2_neg_spec h, fun h => by rw [R2_neg_hi]; exact R2_neg_spec h⟩

/-- C14: the exception is the four-way negation of the public table, which is wired to the two-way
routine: some element with in-range limbs is not negated in lane 0.  The internal four-way
routine, by contrast, is exact (next theorem). -/
theorem C14_neg_fourway_wrong :
    ∃ a : Elt10 V, (∀ j < 4, (a.lane j).Le tight) ∧
      ((R4.api_neg a).lane 0).toFp ≠ -(a.lane 0).toFp := by
  refine ⟨R4.zip (R1.unser (leBytes 32 (2 ^ 77))) R1.zero R1.zero R1.zero, by decide +kernel, ?_⟩
  intro h
  have h2 : (((R4.api_neg (R4.zip (R1.unser (leBytes 32 (2 ^ 77))) R1.zero R1.zero R1.zero)).lane
      0).ints.val +
      ((R4.zip (R1.unser (leBytes 32 (2 ^ 77))) R1.zero R1.zero R1.zero).lane 0).ints.val) %
      p25519 ≠ 0 := by decide +kernel
  apply h2
  have h3 : (((((R4.api_neg (R4.zip (R1.unser (leBytes 32 (2 ^ 77))) R1.zero R1.zero R1.zero)).lane
      0).ints.val +
      ((R4.zip (R1.unser (leBytes 32 (2 ^ 77))) R1.zero R1.zero R1.zero).lane 0).ints.val) : ℤ) :
      Fp) = 0 := by
    rw [Int.cast_add]
    exact eq_neg_iff_add_eq_zero.mp h
  rw [ZMod.intCast_zmod_eq_zero_iff_dvd, P_eq] at h3
  exact Int.emod_eq_zero_of_dvd h3

/-- C14: the four-way routine that the point arithmetic calls is exact in every lane. -/
theorem C14_neg_fourway_internal (a : Elt10 V) (j : ℕ) (hj : j < 4) (h : (a.lane j).Le tight) :
    ((R4.neg a).lane j).Le loose ∧ ((R4.neg a).lane j).toFp = -(a.lane j).toFp := by
  have e : (R4.neg a).lane j = R4.neg (a.lane j) :=
    lane_cases (p := fun j => (R4.neg a).lane j = R4.neg (a.lane j)) rfl rfl rfl rfl j hj
  rw [e]
  exact ⟨Elt10.Le.mono (R4_neg_spec h).1 (by decide), (R4_neg_spec h).2⟩

/-- C14: `ngz` negates exactly what it should.  Two-way: the low element is negated, the high
one kept.  Four-way: the first two elements are exchanged, the third negated, the fourth kept. -/
theorem C14_ngz (a : Elt5 V) (b : Elt10 V) :
    ((R2.ngz a).hi = a.hi ∧ (a.lo.Le tight → (R2.ngz a).lo.toFp = -a.lo.toFp)) ∧
    ((R4.ngz b).lane 0 = b.lane 1 ∧ (R4.ngz b).lane 1 = b.lane 0 ∧
      (R4.ngz b).lane 3 = b.lane 3 ∧
      ((b.lane 2).Le tight → ((R4.ngz b).lane 2).toFp = -(b.lane 2).toFp)) := by
  obtain ⟨h0, h1, h2, h3⟩ := R4_ngz_lanes b
  refine ⟨⟨R2_ngz_hi a, fun h => ?_⟩, h0, h1, h3, fun h => ?_⟩
  · rw [R2_ngz_lo, R1_neg_toFp h]
  · rw [h2, (R4_neg_spec h).2]

/-- C14: selection.  One-way with a 0/1 selector; two-way with the low bit of each half. -/
theorem C14_cmv (a b : Elt5 U) (c d : Elt5 V) (bit : V) :
    R1.cmv 0#32 a b = a ∧ R1.cmv 1#32 a b = b ∧
    (R2.cmv bit c d).lo = (if bit.q0.getLsbD 0 then d.lo else c.lo) ∧
    (R2.cmv bit c d).hi = (if bit.q2.getLsbD 0 then d.hi else c.hi) :=
  ⟨R1_cmv_zero a b, R1_cmv_one a b, R2_cmv_lo bit c d, R2_cmv_hi bit c d⟩

/-- C14: with a selector other than 0 and 1 the one-way selection can return neither operand. -/
theorem C14_cmv_mixes :
    ∃ a b : Elt5 U, R1.cmv 256#32 a b ≠ a ∧ R1.cmv 256#32 a b ≠ b := by
  refine ⟨R1.zero, R1.prime, ?_, ?_⟩ <;>
  · intro h
    have := congrArg (fun e : Elt5 U => e.c0.l) h
    exact absurd this (by decide)

example : R1.prime.Le tight := by decide

/-! ## C51: comparison and sign in vector form -/

/-- C51: the parity returned for a one-way element is that of its canonical representative. -/
theorem C51_sgn (a : Elt5 U) (h : a.Le tight) : (R1.sgn a).toNat = canon a.toFp % 2 :=
  R1_sgn_spec (noCarry_of_tight h)

/-- C51: equal elements compare as 0.  Different elements may, too (`C51_cmp_wrong`). -/
theorem C51_cmp_equal (a b : Elt5 U) (ha : a.Le tight) (hb : b.Le tight)
    (h : a.toFp = b.toFp) : R1.cmp a b = 0#32 :=
  R1_cmp_self (noCarry_of_tight ha) (noCarry_of_tight hb) h

/-- C51: what the comparison really decides: whether the canonical encodings agree in the
lowest bit of every byte. -/
theorem C51_cmp_iff (a b : Elt5 U) (ha : a.Le tight) (hb : b.Le tight) :
    R1.cmp a b = 0#32 ↔ ∀ xy ∈ (leBytes 32 (canon a.toFp)).zip (leBytes 32 (canon b.toFp)),
      xy.1.getLsbD 0 = xy.2.getLsbD 0 := by
  rw [R1_cmp_zero_iff, ser_of_noCarry (noCarry_of_tight ha), ser_of_noCarry (noCarry_of_tight hb)]

/-- C51: comparison is not equality: the elements 0 and 2 compare as equal in all three layouts. -/
theorem C51_cmp_wrong :
    (R1.unser (leBytes 32 0)).toFp ≠ (R1.unser (leBytes 32 2)).toFp ∧
    R1.cmp (R1.unser (leBytes 32 0)) (R1.unser (leBytes 32 2)) = 0#32 ∧
    R2.cmp (R2.unser (leBytes 64 0)) (R2.unser (leBytes 64 2)) = LIT 0 ∧
    R4.cmp (R4.unser (leBytes 128 0)) (R4.unser (leBytes 128 2)) = LIT 0 := by
  refine ⟨?_, by decide +kernel, by decide +kernel, by decide +kernel⟩
  rw [unser_toFp _ (by simp), unser_toFp _ (by simp), leNat_leBytes, leNat_leBytes]
  intro h
  have h := (ZMod.natCast_eq_natCast_iff _ _ _).mp h
  exact absurd h (by unfold Nat.ModEq; norm_num)

example : (R1.unser (leBytes 32 (2 ^ 255 - 18))).Le tight := by decide +kernel

/-! ## C52: inversion and square roots in vector form -/

/-- C52: one-way inversion into a separate buffer returns the inverse (0 for 0). -/
theorem C52_inv (a : Elt5 U) (ha : a.Le loose) :
    (R1.inv a).Le tight ∧ (R1.inv a).toFp = a.toFp⁻¹ := R1_inv_spec ha

/-- C52: inversion fails when output and input are the same buffer: the in-place inversion of 2 is not an
inverse of 2. -/
theorem C52_inv_in_place_wrong :
    (R1.invAliased (R1.unser (leBytes 32 2))).toFp * (R1.unser (leBytes 32 2)).toFp ≠ 1 := by
  rw [R1_invAliased_spec (canonB_tight (unser_spec _ (by simp)).1).loose, unser_toFp _ (by simp),
    leNat_leBytes, ← pow_succ]
  have h := Primes.powMod_spec P 256 2
    (63498887646270171683893765972506272048567410945673857699057384778533006576716 + 1) 1
    (by norm_num)
  have e : Primes.powMod P 256 2
      (63498887646270171683893765972506272048567410945673857699057384778533006576716 + 1) 1 =
      18302450501131341626928702870986547135215737833508423600396573336204796917354 := by
    decide +kernel
  rw [e, Nat.cast_one, one_mul] at h
  have h2 : 2 % 256 ^ 32 = 2 := by norm_num
  rw [h2, ← h]
  intro h1
  have h3 : ((18302450501131341626928702870986547135215737833508423600396573336204796917354 - 1 : ℕ)
      : Fp) = 0 := by
    rw [Nat.cast_sub (by norm_num), h1, Nat.cast_one, sub_self]
  rw [ZMod.natCast_eq_zero_iff] at h3
  exact absurd h3 (by norm_num)

/-- C52: one-way inverse square root, whenever u/v is a square (the faulty comparison does not
matter here: u and -u have opposite parities).  The buffer of u is left holding -u. -/
theorem C52_invsqrt (u v : Elt5 U) (hu : u.Le tight) (hv : v.Le loose)
    (h : ∃ y : Fp, v.toFp * y ^ 2 = u.toFp) :
    (R1.invsqrt u v).1.Le tight ∧ v.toFp * (R1.invsqrt u v).1.toFp ^ 2 = u.toFp ∧
      (R1.invsqrt u v).2.toFp = -u.toFp := R1_invsqrt_spec hu hv h

/-- C52: the one-way `srt` is no square root: into a buffer holding 0 it returns 0. -/
theorem C52_srt_wrong (a : Elt5 U) (ha : a.Le loose) (h0 : a.toFp ≠ 0) :
    (R1.srt R1.zero a).toFp ^ 2 ≠ a.toFp := by
  have hz : R1.zero.toFp = 0 := by
    have : R1.zero.limbs.ints.val = 0 := by decide
    unfold Elt5.toFp Elt10.toFp; rw [this]; simp
  rw [R1_srt_zero (by decide) ha hz, zero_pow (by norm_num)]
  exact fun h => h0 h.symm

/-- C52: the four-way inverse square root is off by a factor √-1 in every lane whose candidate
root was already right: there v x² = -u. -/
theorem C52_invsqrt_fourway (u v : Elt10 V) (j : ℕ) (hj : j < 4) (hu : (u.lane j).Le loose)
    (hv : (v.lane j).Le loose) :
    (v.lane j).toFp * ((R4.invsqrt u v).1.lane j).toFp ^ 2 =
      -((u.lane j).toFp * ((u.lane j).toFp * (v.lane j).toFp ^ 7) ^ ((P - 1) / 4)) := by
  rw [R4_invsqrt_lane _ _ _ hj, (R4_invsqrt_spec hu hv).2, mul_pow, R1_sqrt_minus_one.2]
  have e : (P - 1) / 4 = 2 ^ 253 - 5 := by norm_num
  rw [e, ← Full.cand_sq]
  ring

/-- The element 1 in all four lanes. -/
def one4 : Elt10 V := R4.unser (leBytes 32 1 ++ leBytes 32 1 ++ leBytes 32 1 ++ leBytes 32 1)

theorem neg_one_ne_one : (-1 : Fp) ≠ 1 := by
  intro h
  have h2 : ((2 : ℕ) : Fp) = 0 := by
    rw [Nat.cast_ofNat, ← one_add_one_eq_two]
    nth_rewrite 1 [← h]
    rw [neg_add_cancel]
  rw [ZMod.natCast_eq_zero_iff] at h2
  exact absurd h2 (by norm_num)

theorem one4_tight : ∀ j < 4, (one4.lane j).Le tight := by decide +kernel

theorem one4_val : ∀ j < 4, (one4.lane j).ints.val = 1 := by decide +kernel

theorem one4_toFp (j : ℕ) (hj : j < 4) : (one4.lane j).toFp = 1 := by
  rw [Elt10.toFp, one4_val j hj, Int.cast_one]

theorem not_root {u v x : Fp} {k : ℕ} (hu : u = 1) (hv : v = 1)
    (h : v * x ^ 2 = -(u * (u * v ^ 7) ^ k)) : v * x ^ 2 ≠ u := by
  rw [h, hu, hv, one_pow, mul_one, one_pow, mul_one]
  exact neg_one_ne_one

/-- C52: so the four-way inverse square root is wrong: for u = v = 1 it returns a square root
of -1. -/
theorem C52_invsqrt_fourway_wrong :
    ∃ u v : Elt10 V, (∀ j < 4, (u.lane j).Le tight ∧ (v.lane j).Le tight) ∧
      ∀ j < 4, (∃ y : Fp, (v.lane j).toFp * y ^ 2 = (u.lane j).toFp) ∧
        (v.lane j).toFp * ((R4.invsqrt u v).1.lane j).toFp ^ 2 ≠ (u.lane j).toFp := by
  refine ⟨one4, one4, fun j hj => ⟨one4_tight j hj, one4_tight j hj⟩, fun j hj => ⟨⟨1, ?_⟩, ?_⟩⟩
  · rw [one4_toFp j hj, one_pow, mul_one]
  · exact not_root (one4_toFp j hj) (one4_toFp j hj)
      (C52_invsqrt_fourway one4 one4 j hj (one4_tight j hj).loose (one4_tight j hj).loose)

example : ∃ y : Fp, (R1.unser (leBytes 32 1)).toFp * y ^ 2 = (R1.unser (leBytes 32 4)).toFp := by
  refine ⟨2, ?_⟩
  rw [unser_toFp _ (by simp), unser_toFp _ (by simp), leNat_leBytes, leNat_leBytes]
  norm_num

end Verif.Fp25519
