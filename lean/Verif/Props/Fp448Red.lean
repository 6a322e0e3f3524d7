import Verif.Fp448.RedSer

/-!
# Properties C44 and C54: radix-2^28 vector arithmetic of Fp448

An element has sixteen 64-bit limbs, limb i with weight 2^(28 i); `value` is the integer and
`toFp` the residue modulo p = 2^448 - 2^224 - 1 that the limbs represent.  A one-way element
holds one such number, a two-way element two (`lo`, `hi`), a four-way element four (`lane 0` …
`lane 3`).

`Le tight`: limbs of 28 bits with a small excess in four of them.  `Le sum2`, `Le diff2`: the
bounds of a sum and of a difference of `tight` elements.  `Le sq1`: the bounds of a one-way
squaring.
-/

namespace Verif.Fp448

set_option exponentiation.threshold 2000

theorem Elt8.rp {m : Elt16 ℕ} {a : Elt8 U} (h : a.Le m) : Rp m a.limbs a.toFp := ⟨h, rfl⟩
theorem Elt16.rp {m : Elt16 ℕ} {a : Elt16 W} (h : a.Le m) : Rp m a a.toFp := ⟨h, rfl⟩

/-! ## C44 -/

/-- 448 ones, as bytes. -/
def ones56 : List Byte := List.replicate 56 0xff#8

/-- The number one, as bytes. -/
def one56 : List Byte := leBytes 56 1

/-- C44, reading: any 56 bytes are read as the number they denote, into limbs of 28 bits, and
writing the result gives the canonical encoding of that number modulo p. -/
theorem C44_unser (b : List Byte) (hb : b.length = 56) :
    (R1.unser b).Le canonB ∧ (R1.unser b).value = leNat b ∧
      R1.ser (R1.unser b) = leBytes 56 (leNat b % P) := by
  obtain ⟨h1, h2⟩ := unser_spec b hb
  refine ⟨h1, h2, ?_⟩
  rw [ser_of_lt (h1.mono (by decide)), unser_toFp b hb, canon, ZMod.val_natCast]
  rw [h2]
  have := leNat_lt b
  rw [hb] at this
  calc (leNat b : ℤ) < ((256 ^ 56 : ℕ) : ℤ) := by exact_mod_cast this
    _ = 2 ^ 448 := by norm_num

example : (R1.unser ones56).value = 2 ^ 448 - 1 := by
  rw [(C44_unser ones56 rfl).2.1]; decide +kernel

/-- C44, decided: for limbs below 2^63, `ser` writes the canonical encoding of the residue
exactly if the additions of what exceeds 2^448 do not carry out of the words 0 and 3. -/
theorem C44_ser_iff (a : Elt8 U) (h : a.Le signedB) :
    R1.ser a = leBytes 56 (canon a.toFp) ↔ NoCarry (serFold a.limbs.ints) := ser_eq_iff h

/-- C44 for elements of value below 2^448, and for the results of multiplications, inversions,
squarings and carry passes unless the residue is below 2^282.

Not so for every residue below 2^282 (`C44_wrong`). -/
theorem C44_ser_safe (a : Elt8 U) :
    (a.Le signedB → a.value < 2 ^ 448 → R1.ser a = leBytes 56 (canon a.toFp)) ∧
    (a.Le tight → 2 ^ 282 ≤ canon a.toFp → R1.ser a = leBytes 56 (canon a.toFp)) :=
  ⟨ser_of_lt, ser_of_tight⟩

/-- C44: with a = ff…ff and b = 1, `ser ((a + a) * b)` is not the canonical encoding of
the residue 2 (2^448 - 1) = 2^225 that the product represents. -/
theorem C44_wrong :
    let a := R1.unser ones56
    let c := R1.mul (R1.add a a) (R1.unser one56)
    c.Le tight ∧ c.toFp = 2 ^ 225 ∧ canon c.toFp = 2 ^ 225 ∧
      R1.ser c = leBytes 56 (2 ^ 225 - 2 ^ 64) := by
  have hc : (R1.mul (R1.add (R1.unser ones56) (R1.unser ones56)) (R1.unser one56)).value =
      2 ^ 225 + p448 := by decide +kernel
  refine ⟨by decide +kernel, ?_, ?_, by decide +kernel⟩
  · rw [Elt8.toFp_value, hc, cast_eq (y := 2 ^ 225) ⟨1, by ring⟩]
    norm_cast
  · rw [canon, Elt8.toFp_value, hc]
    have := ZMod.val_intCast (n := P) (2 ^ 225 + p448)
    rw [P_eq] at this
    have e : (2 ^ 225 + p448) % p448 = 2 ^ 225 := by decide +kernel
    rw [e] at this
    exact_mod_cast this

/-- Every lost carry changes the residue, so a sum of two elements just read can be written
wrongly too. -/
theorem C44_sum_wrong : ∃ a b : List Byte, a.length = 56 ∧ b.length = 56 ∧
    R1.ser (R1.add (R1.unser a) (R1.unser b)) ≠
      leBytes 56 (canon (R1.add (R1.unser a) (R1.unser b)).toFp) := by
  refine ⟨ones56, ones56, by decide, by decide, ?_⟩
  rw [Ne, C44_ser_iff _ (by decide +kernel)]
  decide +kernel

/-- The constant p of the one-way code is not p: limb 4 has the value meant for limb 8, so the
element does not even stand for 0. -/
theorem C44_prime_wrong : R1.prime.toFp ≠ 0 ∧
    R1.prime.value = p448 + 2 ^ 224 - 2 ^ 112 := by
  have hv : R1.prime.value = p448 + 2 ^ 224 - 2 ^ 112 := by decide +kernel
  refine ⟨?_, hv⟩
  rw [Elt8.toFp_value, hv]
  intro h
  have h := (P_dvd_iff 0 _).1 (by rw [h]; simp)
  revert h
  decide +kernel

/-! ## C54 -/

/-- C54, one-way. -/
theorem C54_oneway (a b : Elt8 U) :
    (a.Le tight → b.Le tight →
      ((R1.add a b).Le sum2 ∧ (R1.add a b).toFp = a.toFp + b.toFp) ∧
      ((R1.sub a b).Le diff2 ∧ (R1.sub a b).toFp = a.toFp - b.toFp) ∧
      ((R1.neg a).Le diff2 ∧ (R1.neg a).toFp = -a.toFp)) ∧
    (a.Le sq1 → b.Le sq1 → (R1.mul a b).Le tight ∧ (R1.mul a b).toFp = a.toFp * b.toFp) ∧
    (a.Le sum2 → b.Le diff2 → (R1.mul a b).Le tight ∧ (R1.mul a b).toFp = a.toFp * b.toFp) ∧
    (a.Le sq1 → ∀ n, (R1.sqrn a n).Le sq1 ∧ (R1.sqrn a n).toFp = a.toFp ^ 2 ^ n) ∧
    (a.Le wide → (R1.compress a).Le tight ∧ (R1.compress a).toFp = a.toFp) ∧
    (a.Le wide → (R1.compressfast a).Le sq1 ∧ (R1.compressfast a).toFp = a.toFp) :=
  ⟨fun ha hb => ⟨(Elt8.rp ha).add (Elt8.rp hb), (Elt8.rp ha).sub (Elt8.rp hb), (Elt8.rp ha).neg⟩,
    fun ha hb => (Elt8.rp ha).r1mul (Elt8.rp hb), fun ha hb => (Elt8.rp ha).r1mulD (Elt8.rp hb),
    fun ha n => (Elt8.rp ha).r1sqrn n, fun ha => (Elt8.rp ha).r2compress okC,
    fun ha => (Elt8.rp ha).r1compressfast okQ2⟩

example : (R1.unser ones56).Le tight ∧ (R1.unser ones56).Le sq1 ∧
    (R1.sub (R1.unser ones56) (R1.unser one56)).Le diff2 ∧
    ¬ (R1.sub (R1.unser ones56) (R1.unser one56)).Le tight := by decide +kernel

/-- C54, inversion, output buffer distinct from the input buffer: 1/x, and 0 for 0. -/
theorem C54_inv (a : Elt8 U) (h : a.Le sq1) :
    (R1.inv a).Le tight ∧ (R1.inv a).toFp = a.toFp⁻¹ := (Elt8.rp h).r1inv

/-- C54, the function called `srt`, buffers distinct: a power of its argument, which is the
inverse square root of every non-zero square. -/
theorem C54_invsqrt (a : Elt8 U) (h : a.Le sq1) :
    (R1.srt a).Le tight ∧ (R1.srt a).toFp = a.toFp ^ ((P - 3) / 4) := (Elt8.rp h).r1srt

/-- C54, two-way: both halves. -/
theorem C54_twoway (a b : Elt8 V) :
    (a.lo.Le tight → b.lo.Le tight → a.hi.Le tight → b.hi.Le tight →
      ((R2.add a b).lo.toFp = a.lo.toFp + b.lo.toFp ∧
        (R2.add a b).hi.toFp = a.hi.toFp + b.hi.toFp ∧
        (R2.add a b).lo.Le sum2 ∧ (R2.add a b).hi.Le sum2) ∧
      ((R2.sub a b).lo.toFp = a.lo.toFp - b.lo.toFp ∧
        (R2.sub a b).hi.toFp = a.hi.toFp - b.hi.toFp ∧
        (R2.sub a b).lo.Le diff2 ∧ (R2.sub a b).hi.Le diff2)) ∧
    (a.lo.Le sum2 → b.lo.Le diff2 →
      (R2.mul a b).lo.Le tight ∧ (R2.mul a b).lo.toFp = a.lo.toFp * b.lo.toFp) ∧
    (a.hi.Le sum2 → b.hi.Le diff2 →
      (R2.mul a b).hi.Le tight ∧ (R2.mul a b).hi.toFp = a.hi.toFp * b.hi.toFp) ∧
    (a.lo.Le sum2 → (R2.sqr a).lo.Le tight ∧ (R2.sqr a).lo.toFp = a.lo.toFp ^ 2) ∧
    (a.hi.Le sum2 → (R2.sqr a).hi.Le tight ∧ (R2.sqr a).hi.toFp = a.hi.toFp ^ 2) ∧
    (a.lo.Le wide → (R2.compress a).lo.Le tight ∧ (R2.compress a).lo.toFp = a.lo.toFp) ∧
    (a.hi.Le wide → (R2.compress a).hi.Le tight ∧ (R2.compress a).hi.toFp = a.hi.toFp) := by
  refine ⟨fun ha hb ha' hb' => ?_, fun ha hb => ?_, fun ha hb => ?_, fun ha => ?_, fun ha => ?_,
    fun ha => ?_, fun ha => ?_⟩
  · rw [R2_add_lo, R2_add_hi, R2_sub_lo, R2_sub_hi]
    have h1 := (Elt8.rp ha).add (Elt8.rp hb)
    have h2 := (Elt8.rp ha').add (Elt8.rp hb')
    have h3 := (Elt8.rp ha).sub (Elt8.rp hb)
    have h4 := (Elt8.rp ha').sub (Elt8.rp hb')
    exact ⟨⟨h1.2, h2.2, h1.1, h2.1⟩, ⟨h3.2, h4.2, h3.1, h4.1⟩⟩
  · rw [R2_mul_lo]; exact (Elt8.rp ha).r2mulSD (Elt8.rp hb)
  · rw [R2_mul_hi]; exact (Elt8.rp ha).r2mulSD (Elt8.rp hb)
  · rw [R2_sqr_lo]; exact (Elt8.rp ha).r2sqr
  · rw [R2_sqr_hi]; exact (Elt8.rp ha).r2sqr
  · rw [R2_compress_lo]; exact (Elt8.rp ha).r2compress okC
  · rw [R2_compress_hi]; exact (Elt8.rp ha).r2compress okC

/-- C54, four-way: every lane. -/
theorem C54_fourway (a b : Elt16 V) (i : ℕ) (hi : i < 4) :
    ((a.lane i).Le tight → (b.lane i).Le tight →
      ((R4.add a b).lane i).Le sum2 ∧
      ((R4.add a b).lane i).toFp = (a.lane i).toFp + (b.lane i).toFp ∧
      ((R4.sub a b).lane i).Le diff2 ∧
      ((R4.sub a b).lane i).toFp = (a.lane i).toFp - (b.lane i).toFp) ∧
    ((a.lane i).Le sum2 → (b.lane i).Le diff2 →
      ((R4.mul a b).lane i).Le tight ∧
      ((R4.mul a b).lane i).toFp = (a.lane i).toFp * (b.lane i).toFp) ∧
    ((a.lane i).Le sum2 →
      ((R4.sqr a).lane i).Le tight ∧ ((R4.sqr a).lane i).toFp = (a.lane i).toFp ^ 2) ∧
    ((a.lane i).Le wide →
      ((R4.compress a).lane i).Le tight ∧ ((R4.compress a).lane i).toFp = (a.lane i).toFp) := by
  refine ⟨fun ha hb => ?_, fun ha hb => ?_, fun ha => ?_, fun ha => ?_⟩
  · rw [R4_add_lane _ _ i hi, R4_sub_lane _ _ i hi]
    have h1 := (Elt16.rp ha).add4 (Elt16.rp hb)
    have h2 := (Elt16.rp ha).sub4 (Elt16.rp hb)
    exact ⟨h1.1, h1.2, h2.1, h2.2⟩
  · rw [R4.mul, R4_compress_lane _ i hi, R4_intmul_lane _ _ i hi]
    exact (Elt16.rp ha).r4mulSD (Elt16.rp hb)
  · rw [R4.sqr, R4_compress_lane _ i hi, R4_intsqr_lane _ i hi]
    exact (Elt16.rp ha).r4sqr
  · rw [R4_compress_lane _ i hi]
    exact (Elt16.rp ha).r4compress okC4

/-- C54, packing: `inter`/`deinter` and `zip`/`unzip` place and return the elements unchanged. -/
theorem C54_pack (a b c d : Elt8 U) (e : Elt16 V) :
    R2.deinter (R2.inter a b) = (a, b) ∧
    (R4.zip a b c d).lane 0 = a.limbs ∧ (R4.zip a b c d).lane 1 = b.limbs ∧
    (R4.zip a b c d).lane 2 = c.limbs ∧ (R4.zip a b c d).lane 3 = d.limbs ∧
    R4.unzip (R4.zip a b c d) = (a, b, c, d) ∧
    ((R4.unzip e).1.limbs = e.lane 0 ∧ (R4.unzip e).2.1.limbs = e.lane 1 ∧
      (R4.unzip e).2.2.1.limbs = e.lane 2 ∧ (R4.unzip e).2.2.2.limbs = e.lane 3) :=
  ⟨rfl, rfl, rfl, rfl, rfl, rfl, R4_unzip e⟩

/-- The bounds are needed: the product of two differences of elements just read, without a carry
pass between, is wrong in all three layouts. -/
theorem C54_overflow :
    let x := R1.sub (R1.unser ones56) (R1.unser (List.replicate 56 0#8))
    x.Le diff2 ∧ (R1.mul x x).toFp ≠ x.toFp * x.toFp ∧ (R2.mul x x).toFp ≠ x.toFp * x.toFp ∧
      (R4.mul x.limbs x.limbs).toFp ≠ x.toFp * x.toFp := by
  intro x
  have hx : x.toFp * x.toFp = ((x.value * x.value : ℤ) : Fp) := by
    rw [Elt8.toFp_value]; push_cast; rfl
  refine ⟨by decide +kernel, ?_, ?_, ?_⟩
  · rw [hx, Elt8.toFp_value, Ne, P_dvd_iff]; decide +kernel
  · rw [hx, Elt8.toFp_value, Ne, P_dvd_iff]; decide +kernel
  · rw [hx, Elt16.toFp, Ne, P_dvd_iff]; decide +kernel

end Verif.Fp448
