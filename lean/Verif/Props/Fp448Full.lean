import Verif.Fp448.FullLemmas

/-!
# Properties C40-C43: the full-radix Fp448 API

The specification used here is `Verif.Fp448.Spec`: `P = 2^448 - 2^224 - 1`, `Fp = ZMod P`,
`a.val` the 448-bit (896-bit) number held by the words, `a.toFp` its residue and `canon` the
representative in [0, P).  Every statement ranges over all word vectors and over every build
variant `isa` (BMI2, ADX present or not).
-/

namespace Verif.Fp448

open Full
open Fp25519 (Isa)

set_option exponentiation.threshold 2000

/-- A concrete non-canonical element, `2^448 - 1`. -/
def allOnes : F7 := ⟨-1#64, -1#64, -1#64, -1#64, -1#64, -1#64, -1#64⟩

example : allOnes.val = 2 ^ 448 - 1 := by decide +kernel

/-- The element 2. -/
def two : F7 := ⟨2#64, 0#64, 0#64, 0#64, 0#64, 0#64, 0#64⟩

/-- The element 4. -/
def four : F7 := ⟨4#64, 0#64, 0#64, 0#64, 0#64, 0#64, 0#64⟩

/-- C40: the full-radix arithmetic is exact modulo p for all 448-bit operands, in each build:
products and squares are the exact integers, and every operation returns a representative of
the exact residue. 39082 = (A + 2)/4 for the curve constant A = 156326. -/
theorem C40_exact (isa : Isa) (a b : F7) (x : F14) :
    (Full.add isa a b).toFp = a.toFp + b.toFp ∧
    (Full.sub a b).toFp = a.toFp - b.toFp ∧
    (neg a).toFp = -a.toFp ∧
    (intmul isa a b).val = a.val * b.val ∧
    (intsqr isa a).val = a.val ^ 2 ∧
    (reduce isa x).toFp = x.toFp ∧
    (mul isa a b).toFp = a.toFp * b.toFp ∧
    (sqr isa a).toFp = a.toFp ^ 2 ∧
    (mula24 isa a).toFp = ((156326 + 2) / 4 : ℕ) * a.toFp :=
  ⟨add_toFp isa a b, sub_toFp a b, neg_toFp a, intmul_val isa a b, intsqr_val isa a,
    reduce_toFp isa x, mul_toFp isa a b, sqr_toFp isa a, by rw [mula24_toFp]; norm_num⟩

/-- C40: the build variants (BMI2, ADX) are interchangeable, word for word. -/
theorem C40_builds_agree (isa isa' : Isa) :
    Full.add isa = Full.add isa' ∧ intmul isa = intmul isa' ∧ intsqr isa = intsqr isa' ∧
    reduce isa = reduce isa' ∧ mul isa = mul isa' ∧ sqr isa = sqr isa' ∧
    mula24 isa = mula24 isa' ∧ inv isa = inv isa' := by
  have hm : intmul isa = intmul isa' := by
    funext a b; apply F14.val_inj; rw [intmul_val, intmul_val]
  have hs : intsqr isa = intsqr isa' := by
    funext a; apply F14.val_inj; rw [intsqr_val, intsqr_val]
  have hr : reduce isa = reduce isa' := by
    funext a; apply F7.val_inj; rw [reduce_fold, reduce_fold]
  have hmul : mul isa = mul isa' := by funext a b; rw [mul, mul, hm, hr]
  have hsqr : sqr isa = sqr isa' := by funext a; rw [sqr, sqr, hs, hr]
  have hsqrn : sqrn isa = sqrn isa' := by
    funext a n
    induction n generalizing a with
    | zero => rfl
    | succ n ih => rw [sqrn, sqrn, ih, hsqr]
  refine ⟨?_, hm, hs, hr, hmul, hsqr, ?_, ?_⟩
  · funext a b; apply F7.val_inj; rw [add_fold, add_fold]
  · funext a; apply F7.val_inj; rw [mula24_fold, mula24_fold]
  · funext a; simp only [inv, srt, hmul, hsqrn]

/-- Both folds are taken: 2^448-1 + 2^448-1 leaves a value below 2^448. -/
example : (Full.add ⟨true, true⟩ allOnes allOnes).val = 2 ^ 448 - 2 + 2 ^ 224 + 1 - 2 ^ 448 + 2 ^ 224 + 1 := by
  decide +kernel

example : (intmul ⟨true, true⟩ allOnes allOnes).val = (2 ^ 448 - 1) ^ 2 := by decide +kernel

/-- C41: serialisation gives the 56-byte little-endian encoding of the representative in
[0,p). -/
theorem C41_ser_canonical (a : F7) :
    (ser a).length = 56 ∧ leNat (ser a) = canon a.toFp ∧ leNat (ser a) < P := by
  have h : (leNat (ser a) : ℤ) = canon a.toFp := by
    rw [ser, F7.leNat_toBytes, modp_val_canon]
  have h' : leNat (ser a) = canon a.toFp := by exact_mod_cast h
  exact ⟨F7.toBytes_length _, h', h' ▸ ZMod.val_lt _⟩

/-- C41: equal encodings exactly when congruent. -/
theorem C41_ser_eq_iff (a b : F7) : ser a = ser b ↔ a.toFp = b.toFp := by
  rw [← modp_eq_iff]
  exact ⟨toBytes_inj, fun h => by rw [ser, ser, h]⟩

/-- C41: reading 56 bytes keeps the residue of the number they encode, canonically; writing
it back is reduction mod p; write-then-read keeps the residue. -/
theorem C41_unser (b : List Byte) (hb : b.length = 56) (a : F7) :
    (unser b).val = (leNat b % P : ℕ) ∧
    leNat (ser (unser b)) = leNat b % P ∧
    (unser (ser a)).toFp = a.toFp := by
  have h1 : (unser b).val = (leNat b % P : ℕ) := by
    rw [unser, modp_val, F7.ofBytes_val hb, ← P_eq]; push_cast; rfl
  refine ⟨h1, ?_, ?_⟩
  · have h2 := (C41_ser_canonical (unser b)).2.1
    rw [h2, canon, F7.toFp, h1, Int.cast_natCast, ZMod.val_natCast, Nat.mod_mod]
  · rw [unser, ser, F7.ofBytes_toBytes, modp_toFp, modp_toFp]

/-- C41: comparison reports 0 exactly on congruent arguments, and the sign is the parity of
the representative in [0,p).  The arguments may be rewritten, but keep their residues. -/
theorem C41_cmp_sgn (a b : F7) :
    ((Full.cmp a b).2.2 = 0#32 ↔ a.toFp = b.toFp) ∧
    ((Full.cmp a b).1.toFp = a.toFp ∧ (Full.cmp a b).2.1.toFp = b.toFp) ∧
    (sgn a).2.toNat = canon a.toFp % 2 ∧ (sgn a).1.toFp = a.toFp := by
  refine ⟨cmp_result a b, ⟨modp_toFp a, modp_toFp b⟩, ?_, modp_toFp a⟩
  have h := modp_val_canon a
  have h1 : iv (sgn a).2 = iv (modp a).w0 % 2 := by
    unfold sgn iv
    rw [BitVec.toNat_and]
    simp [Nat.and_one_is_mod]
  unfold F7.val at h
  unfold iv at *
  omega

/-- C41: the conditional move returns one of its operands unchanged. -/
theorem C41_cmv (bit : BitVec 32) (a b : F7) :
    (bit = 0#32 → cmv bit a b = a) ∧ (bit ≠ 0#32 → cmv bit a b = b) := by
  rw [cmv_eq]
  exact ⟨fun h => if_pos h, fun h => if_neg h⟩

example : (modp allOnes).val = 2 ^ 224 := by decide +kernel
example : ser allOnes = leBytes 56 (2 ^ 224) := by decide +kernel
example : (sgn prime).2 = 0#64 ∧ (Full.cmp prime zero).2.2 = 0#32 := by decide +kernel
example : cmv 2#32 prime allOnes = allOnes ∧ cmv 0#32 prime allOnes = prime := by decide +kernel

theorem fp_ne_zero {n : ℕ} (h0 : 0 < n) (h : n < P) : (n : Fp) ≠ 0 := by
  rw [Ne, ZMod.natCast_eq_zero_iff]
  intro hd
  exact absurd (Nat.le_of_dvd h0 hd) (by omega)

theorem two_toFp : two.toFp = ((2 : ℕ) : Fp) := by
  have : two.val = 2 := by decide +kernel
  rw [F7.toFp, this]; norm_cast

theorem four_toFp : four.toFp = ((4 : ℕ) : Fp) := by
  have : four.val = 4 := by decide +kernel
  rw [F7.toFp, this]; norm_cast

/-- C42: inversion returns the field inverse of every representative (0 for 0). -/
theorem C42_inv (isa : Isa) (a : F7) :
    (a.toFp ≠ 0 → (inv isa a).toFp * a.toFp = 1) ∧ (a.toFp = 0 → (inv isa a).toFp = 0) := by
  rw [inv_toFp]
  exact ⟨fun h => inv_mul_cancel₀ h, fun h => by rw [h, inv_zero]⟩

example : two.toFp ≠ 0 := by rw [two_toFp]; exact fp_ne_zero (by norm_num) (by norm_num)

/-- C42: for a nonzero square `a` the exponentiation returns a square root of `1/a`, so that
`a * srt a` is a square root of `a`. -/
theorem C42_invsqrt (isa : Isa) (a : F7) (h0 : a.toFp ≠ 0) (hs : IsSquare a.toFp) :
    (srt isa a).toFp ^ 2 * a.toFp = 1 ∧ (a.toFp * (srt isa a).toFp) ^ 2 = a.toFp := by
  have h : (srt isa a).toFp ^ 2 * a.toFp = 1 := by
    obtain ⟨r, hr⟩ := hs
    have hr0 : r ≠ 0 := by rintro rfl; rw [mul_zero] at hr; exact h0 hr
    rw [srt_pow, hr, ← pow_two, ← pow_mul, ← pow_mul, ← pow_add]
    have := ZMod.pow_card_sub_one_eq_one hr0
    have e : 2 * ((P - 3) / 4 * 2) + 2 = P - 1 := by norm_num
    rw [e]; exact this
  refine ⟨h, ?_⟩
  rw [mul_pow]
  linear_combination a.toFp * h

/-- Without a square root the result is recognisable. -/
theorem C42_nonsquare (isa : Isa) (a : F7) (h : ¬ IsSquare a.toFp) :
    (a.toFp * (srt isa a).toFp) ^ 2 ≠ a.toFp := fun e => h ⟨_, by rw [← pow_two]; exact e.symm⟩

example : four.toFp ≠ 0 ∧ IsSquare four.toFp := by
  rw [four_toFp]
  exact ⟨fp_ne_zero (by norm_num) (by norm_num), ⟨2, by norm_num⟩⟩

/-- C42: the function called `srt` does not return a square root of its
argument.  For 4 the square of its result is 1/4. -/
theorem C42_srt_not_sqrt (isa : Isa) :
    ¬ ∀ a : F7, IsSquare a.toFp → (srt isa a).toFp ^ 2 = a.toFp := by
  intro h
  have h0 : four.toFp ≠ 0 := by rw [four_toFp]; exact fp_ne_zero (by norm_num) (by norm_num)
  have hs : IsSquare four.toFp := by rw [four_toFp]; exact ⟨2, by norm_num⟩
  have h1 := (C42_invsqrt isa four h0 hs).1
  rw [h four hs, four_toFp, ← Nat.cast_mul] at h1
  have h2 : ((15 : ℕ) : Fp) = 0 := by
    have : ((15 : ℕ) : Fp) = ((4 * 4 : ℕ) : Fp) - 1 := by norm_num
    rw [this, h1, sub_self]
  exact fp_ne_zero (by norm_num) (by norm_num) h2

/-- C42: inversion fails when output and input are the same buffer, on every build: the in-place
inversion of 2 is not an inverse of 2. -/
theorem C42_inv_in_place_wrong (isa : Isa) :
    (invAliased isa two).toFp * two.toFp ≠ 1 := by
  rw [invAliased_pow, two_toFp, ← pow_succ]
  have h := Primes.powMod_spec P 512 2
    (4984036966598447249481077539803459664139255044713038127644504222952308079771859858881666625103718835566204285262541389233262210235947872 + 1) 1
    (by norm_num)
  have e : Primes.powMod P 512 2
      (4984036966598447249481077539803459664139255044713038127644504222952308079771859858881666625103718835566204285262541389233262210235947872 + 1) 1 =
      489106553680000426361084016860057113089260829656853131120799636462487394361309213724971645477602610071486306139315813954078350136805879 := by
    decide +kernel
  rw [e, Nat.cast_one, one_mul] at h
  rw [← h]
  intro h1
  have h3 : ((489106553680000426361084016860057113089260829656853131120799636462487394361309213724971645477602610071486306139315813954078350136805879 - 1 : ℕ)
      : Fp) = 0 := by
    rw [Nat.cast_sub (by norm_num), h1, Nat.cast_one, sub_self]
  exact fp_ne_zero (by norm_num) (by norm_num) h3

/-- C43: on two-element buffers (14 words each; the product buffer 28
words) every paired operation accesses memory outside its buffers, in every build. -/
theorem C43_out_of_bounds (isa : Isa) (c28 c14 a b x28 : List W) (ha : a.length = 14)
    (_hc : c14.length = 14) (hx : x28.length = 28) :
    intmul2 isa c28 a b = none ∧ intsqr2 isa c28 a = none ∧ reduce2 isa c14 x28 = none := by
  have h1 : load7 a SIZE_FP448 = none := by
    unfold load7 SIZE_FP448
    rw [ha]; rfl
  have h2 : load14 x28 SIZE_FP448 = none := by
    unfold load14 SIZE_FP448
    rw [hx]; rfl
  refine ⟨?_, ?_, ?_⟩
  · unfold intmul2
    rw [h1]
    cases load7 a 0 <;> cases load7 b 0 <;> try rfl
    next p q => cases h : storeAt c28 0 (F14.words (intmul isa p q)) <;> simp
  · unfold intsqr2
    rw [h1]
    cases load7 a 0 <;> try rfl
    next p => cases h : storeAt c28 0 (F14.words (intsqr isa p)) <;> simp
  · unfold reduce2
    rw [h2]
    cases load14 x28 0 <;> try rfl
    next p => cases h : storeAt c14 0 (F7.words (reduce isa p)) <;> simp

/-- C43: what the code computes: with buffers
long enough for the offsets used (63 words, and 126 for the products) the two results are the
exact products of the elements at word offsets 0 and 56, at word offsets 0 and 112. -/
theorem C43_offsets (isa : Isa) (c a b : List W) (ha : 63 ≤ a.length)
    (hb : 63 ≤ b.length) (hc : 126 ≤ c.length) :
    ∃ c' a0 a1 b0 b1 p0 p1, intmul2 isa c a b = some c' ∧ c'.length = c.length ∧
      load7 a 0 = some a0 ∧ load7 a 56 = some a1 ∧ load7 b 0 = some b0 ∧ load7 b 56 = some b1 ∧
      c'.take 14 = F14.words p0 ∧ (c'.drop 112).take 14 = F14.words p1 ∧
      p0.val = a0.val * b0.val ∧ p1.val = a1.val * b1.val := by
  have la : ∀ (m : List W) i, i + 7 ≤ m.length → ∃ x, load7 m i = some x := by
    intro m i h; unfold load7; rw [if_pos h]; exact ⟨_, rfl⟩
  obtain ⟨a0, ha0⟩ := la a 0 (by omega)
  obtain ⟨a1, ha1⟩ := la a 56 (by omega)
  obtain ⟨b0, hb0⟩ := la b 0 (by omega)
  obtain ⟨b1, hb1⟩ := la b 56 (by omega)
  have lw : ∀ p : F14, (F14.words p).length = 14 := fun p => rfl
  have s0 : storeAt c 0 (F14.words (intmul isa a0 b0)) =
      some (F14.words (intmul isa a0 b0) ++ c.drop 14) := by
    unfold storeAt
    rw [if_pos (by rw [lw]; omega), lw]; simp
  have s1 : storeAt (F14.words (intmul isa a0 b0) ++ c.drop 14) 112 (F14.words (intmul isa a1 b1)) =
      some ((F14.words (intmul isa a0 b0) ++ c.drop 14).take 112 ++
        F14.words (intmul isa a1 b1) ++ (F14.words (intmul isa a0 b0) ++ c.drop 14).drop 126) := by
    unfold storeAt
    rw [if_pos (by simp only [List.length_append, lw, List.length_drop]; omega), lw]
  refine ⟨(F14.words (intmul isa a0 b0) ++ c.drop 14).take 112 ++
        F14.words (intmul isa a1 b1) ++ (F14.words (intmul isa a0 b0) ++ c.drop 14).drop 126,
    a0, a1, b0, b1, intmul isa a0 b0, intmul isa a1 b1, ?_, ?_, ha0, ha1, hb0, hb1, ?_, ?_,
    intmul_val isa a0 b0, intmul_val isa a1 b1⟩
  · unfold intmul2
    simp only [SIZE_FP448, ha0, ha1, hb0, hb1, Option.bind_eq_bind, Option.bind_some, s0, s1,
      Nat.reduceMul]
  · simp only [List.length_append, List.length_take, lw, List.length_drop]; omega
  · rw [List.append_assoc, List.take_append_of_le_length
      (by simp only [List.length_append, List.length_take, lw, List.length_drop]; omega),
      List.take_take, Nat.min_eq_left (by omega), List.take_append_of_le_length (by rw [lw]),
      List.take_of_length_le (by rw [lw])]
  · have hl : ((F14.words (intmul isa a0 b0) ++ c.drop 14).take 112).length = 112 := by
      simp only [List.length_append, List.length_take, lw, List.length_drop]; omega
    rw [List.append_assoc, List.drop_append_of_le_length (by omega),
      List.drop_of_length_le (by omega), List.nil_append,
      List.take_append_of_le_length (by rw [lw]), List.take_of_length_le (by rw [lw])]

example : ∃ c, intmul2 ⟨true, true⟩ (List.replicate 126 0) (List.replicate 63 3) (List.replicate 63 5)
    = some c := by
  obtain ⟨c, _, _, _, _, _, _, h, _⟩ := C43_offsets ⟨true, true⟩ (List.replicate 126 0)
    (List.replicate 63 3) (List.replicate 63 5) (by rw [List.length_replicate])
    (by rw [List.length_replicate]) (by rw [List.length_replicate])
  exact ⟨c, h⟩

end Verif.Fp448
