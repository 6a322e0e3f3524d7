import Verif.Fp25519.InvLemmas

/-!
# Properties C01-C10 and C49: the full-radix Fp25519 API

The specification used here is `Verif.Fp25519.Spec`: `P = 2^255 - 19`, `Fp = ZMod P`,
`a.val` the 256-bit (512-bit) number held by the words, `a.toFp` its residue and `canon`
the representative in [0, P).  Every statement ranges over all word vectors and over every
build variant `isa` (BMI2, ADX present or not).
-/

namespace Verif.Fp25519

open Full

/-- A concrete non-canonical element, `2^256 - 1`, used to show theorems are not vacuous. -/
def allOnes : F4 := ⟨-1#64, -1#64, -1#64, -1#64⟩

example : allOnes.val = 2 ^ 256 - 1 := by decide +kernel

/-- C01: addition, subtraction and negation are exact modulo p for all 256-bit operands, in
both builds. -/
theorem C01_add_sub_neg (isa : Isa) (a b : F4) :
    (Full.add isa a b).toFp = a.toFp + b.toFp ∧
    (Full.sub a b).toFp = a.toFp - b.toFp ∧
    (neg a).toFp = -a.toFp :=
  ⟨add_toFp isa a b, sub_toFp a b, neg_toFp a⟩

/-- Both folds are taken: 2^256-1 + 2^256-1 leaves a value below 2^256. -/
example : (Full.add ⟨true, true⟩ allOnes allOnes).val = 2 ^ 256 - 2 + 38 - 2 ^ 256 + 38 := by
  decide +kernel

/-- C02: products and squares are the exact integers, reduction keeps the residue of every
512-bit number, so modular multiplication and squaring are exact. -/
theorem C02_mul_sqr_reduce (isa : Isa) (a b : F4) (x : F8) :
    (intmul isa a b).val = a.val * b.val ∧
    (intsqr isa a).val = a.val ^ 2 ∧
    (reduce isa x).toFp = x.toFp ∧
    (mul isa a b).toFp = a.toFp * b.toFp ∧
    (sqr isa a).toFp = a.toFp ^ 2 :=
  ⟨intmul_val isa a b, intsqr_val isa a, reduce_toFp isa x, mul_toFp isa a b, sqr_toFp isa a⟩

example : (intmul ⟨true, true⟩ allOnes allOnes).val = (2 ^ 256 - 1) ^ 2 := by
  decide +kernel

/-- C03: the paired operations are two independent single operations. The integer results
are equal; the reductions agree as residues. -/
theorem C03_paired (isa : Isa) (a b : F4 × F4) (x : F8 × F8) :
    ((intmul2 isa a b).1.val = a.1.val * b.1.val ∧
      (intmul2 isa a b).2.val = a.2.val * b.2.val) ∧
    ((intsqr2 isa a).1.val = a.1.val ^ 2 ∧ (intsqr2 isa a).2.val = a.2.val ^ 2) ∧
    ((reduce2 isa x).1.toFp = x.1.toFp ∧ (reduce2 isa x).2.toFp = x.2.toFp) :=
  ⟨intmul2_val isa a b, intsqr2_val isa a, reduce2_toFp isa x⟩

/-- C03: word for word, the paired operations leave the buffers the single ones leave. -/
theorem C03_paired_words (isa : Isa) (a b : F4 × F4) (x : F8 × F8) :
    intmul2 isa a b = (intmul isa a.1 b.1, intmul isa a.2 b.2) ∧
    intsqr2 isa a = (intsqr isa a.1, intsqr isa a.2) ∧
    reduce2 isa x = (reduce isa x.1, reduce isa x.2) := by
  obtain ⟨h1, h2⟩ := intmul2_val isa a b
  obtain ⟨h3, h4⟩ := intsqr2_val isa a
  obtain ⟨h5, h6⟩ := reduce2_fold isa x
  refine ⟨?_, ?_, ?_⟩
  · apply Prod.ext <;> apply F8.val_inj <;> simp only [intmul_val, h1, h2]
  · apply Prod.ext <;> apply F8.val_inj <;> simp only [intsqr_val, h3, h4]
  · apply Prod.ext <;> apply F4.val_inj <;> simp only [reduce_fold, h5, h6]

/-- C01, C02, C03, C10: the build variants (BMI2, ADX) are interchangeable, word for word. -/
theorem C02_builds_agree (isa isa' : Isa) :
    Full.add isa = Full.add isa' ∧ intmul isa = intmul isa' ∧ intsqr isa = intsqr isa' ∧
    reduce isa = reduce isa' ∧ mul isa = mul isa' ∧ sqr isa = sqr isa' ∧
    intmul2 isa = intmul2 isa' ∧ intsqr2 isa = intsqr2 isa' ∧ reduce2 isa = reduce2 isa' ∧
    mula24 isa = mula24 isa' ∧ inv isa = inv isa' ∧ invsqrt isa = invsqrt isa' := by
  have hm : intmul isa = intmul isa' := by
    funext a b; apply F8.val_inj; rw [intmul_val, intmul_val]
  have hs : intsqr isa = intsqr isa' := by
    funext a; apply F8.val_inj; rw [intsqr_val, intsqr_val]
  have hr : reduce isa = reduce isa' := by
    funext a; apply F4.val_inj; rw [reduce_fold, reduce_fold]
  have hmul : mul isa = mul isa' := by funext a b; rw [mul, mul, hm, hr]
  have hsqr : sqr isa = sqr isa' := by funext a; rw [sqr, sqr, hs, hr]
  have hsqrn : sqrn isa = sqrn isa' := by
    funext a n
    induction n generalizing a with
    | zero => rfl
    | succ n ih => rw [sqrn, sqrn, ih, hsqr]
  refine ⟨?_, hm, hs, hr, hmul, hsqr, ?_, ?_, ?_, ?_, ?_, ?_⟩
  · funext a b; apply F4.val_inj; rw [add_fold, add_fold]
  · funext a b; rw [(C03_paired_words isa a b default).1, (C03_paired_words isa' a b default).1, hm]
  · funext a; rw [(C03_paired_words isa a a default).2.1, (C03_paired_words isa' a a default).2.1, hs]
  · funext x
    rw [(C03_paired_words isa default default x).2.2,
      (C03_paired_words isa' default default x).2.2, hr]
  · funext a; apply F4.val_inj; rw [mula24_fold, mula24_fold]
  · funext a; simp only [inv, hmul, hsqrn]
  · have hp : invsqrtPow isa = invsqrtPow isa' := by
      funext a b; simp only [invsqrtPow, hmul, hsqr, hsqrn]
    funext a b
    unfold invsqrt
    rw [hp, hmul, hsqr]

/-- C04: serialisation gives the 32-byte little-endian encoding of the representative in
[0,p). -/
theorem C04_ser_canonical (a : F4) :
    (ser a).length = 32 ∧ leNat (ser a) = canon a.toFp ∧ leNat (ser a) < P := by
  have h : (leNat (ser a) : ℤ) = canon a.toFp := by
    rw [ser, F4.leNat_toBytes, modp_val_canon]
  have h' : leNat (ser a) = canon a.toFp := by exact_mod_cast h
  exact ⟨F4.toBytes_length _, h', h' ▸ ZMod.val_lt _⟩

/-- C04: equal encodings exactly when congruent. -/
theorem C04_ser_eq_iff (a b : F4) : ser a = ser b ↔ a.toFp = b.toFp := by
  rw [← modp_eq_iff]
  exact ⟨toBytes_inj, fun h => by rw [ser, ser, h]⟩

/-- C04: reading 32 bytes keeps the residue of the number they encode, canonically; writing
it back is reduction mod p; write-then-read keeps the residue. -/
theorem C04_unser (b : List Byte) (hb : b.length = 32) (a : F4) :
    (unser b).val = (leNat b % P : ℕ) ∧
    leNat (ser (unser b)) = leNat b % P ∧
    (unser (ser a)).toFp = a.toFp := by
  have h1 : (unser b).val = (leNat b % P : ℕ) := by
    rw [unser, modp_val, F4.ofBytes_val hb, ← P_eq]; push_cast; rfl
  refine ⟨h1, ?_, ?_⟩
  · have h2 := (C04_ser_canonical (unser b)).2.1
    rw [h2, canon, F4.toFp, h1, Int.cast_natCast, ZMod.val_natCast, Nat.mod_mod]
  · rw [unser, ser, F4.ofBytes_toBytes, modp_toFp, modp_toFp]

example : (modp allOnes).val = 37 := by decide +kernel
example : ser allOnes = leBytes 32 37 := by decide +kernel

/-- C05: comparison reports 0 exactly on congruent arguments, and the sign is the parity of
the representative in [0,p).  The arguments may be rewritten, but keep their residues. -/
theorem C05_cmp_sgn (a b : F4) :
    ((Full.cmp a b).2.2 = 0#32 ↔ a.toFp = b.toFp) ∧
    ((Full.cmp a b).1.toFp = a.toFp ∧ (Full.cmp a b).2.1.toFp = b.toFp) ∧
    (sgn a).2.toNat = canon a.toFp % 2 ∧ (sgn a).1.toFp = a.toFp := by
  refine ⟨cmp_result a b, ⟨modp_toFp a, modp_toFp b⟩, ?_, modp_toFp a⟩
  have h := modp_val_canon a
  have h1 : iv (sgn a).2 = iv (modp a).w0 % 2 := iv_and_one _
  unfold F4.val at h
  unfold iv at *
  omega

example : (Full.cmp allOnes ⟨37#64, 0#64, 0#64, 0#64⟩).2.2 = 0#32 := by decide +kernel
example : (sgn allOnes).2 = 1#64 := by decide +kernel

/-- C06: the conditional move returns one of its operands unchanged: the second exactly when
the selector is nonzero. -/
theorem C06_cmv (bit : BitVec 32) (a b : F4) :
    (bit = 0#32 → cmv bit a b = a) ∧ (bit ≠ 0#32 → cmv bit a b = b) := by
  rw [cmv_eq]
  exact ⟨fun h => if_pos h, fun h => if_neg h⟩

example : cmv 2#32 prime allOnes = allOnes ∧ cmv 0#32 prime allOnes = prime := by decide +kernel

/-- C07: inversion returns the field inverse of every representative (0 for 0). -/
theorem C07_inv (isa : Isa) (a : F4) :
    (a.toFp ≠ 0 → (inv isa a).toFp * a.toFp = 1) ∧ (a.toFp = 0 → (inv isa a).toFp = 0) := by
  rw [inv_toFp]
  exact ⟨fun h => inv_mul_cancel₀ h, fun h => by rw [h, inv_zero]⟩

theorem allOnes_toFp : allOnes.toFp = 37 := by
  have h : allOnes.val = 37 + p25519 * 2 := by decide +kernel
  rw [F4.toFp, cast_eq ⟨2, h⟩]; norm_cast

theorem fp_ne_zero {n : ℕ} (h0 : 0 < n) (h : n < P) : (n : Fp) ≠ 0 := by
  rw [Ne, ZMod.natCast_eq_zero_iff]
  intro hd
  exact absurd (Nat.le_of_dvd h0 hd) (by omega)

example : allOnes.toFp ≠ 0 := by
  rw [allOnes_toFp]; exact_mod_cast fp_ne_zero (n := 37) (by norm_num) (by norm_num)

/-- C07 needs distinct buffers: it fails when output and input are the same buffer, on every build: the in-place
inversion of 2 is not an inverse of 2. -/
theorem C07_inv_in_place_wrong (isa : Isa) :
    (invAliased isa ⟨2#64, 0#64, 0#64, 0#64⟩).toFp * (F4.mk 2#64 0#64 0#64 0#64).toFp ≠ 1 := by
  have h2 : (F4.mk 2#64 0#64 0#64 0#64).toFp = ((2 : ℕ) : Fp) := by
    have : (F4.mk 2#64 0#64 0#64 0#64).val = 2 := by decide +kernel
    rw [F4.toFp, this]; norm_cast
  rw [invAliased_pow, h2, ← pow_succ]
  have h := Primes.powMod_spec P 256 2
    (63498887646270171683893765972506272048567410945673857699057384778533006576716 + 1) 1
    (by norm_num)
  have e : Primes.powMod P 256 2
      (63498887646270171683893765972506272048567410945673857699057384778533006576716 + 1) 1 =
      18302450501131341626928702870986547135215737833508423600396573336204796917354 := by
    decide +kernel
  rw [e, Nat.cast_one, one_mul] at h
  rw [← h]
  intro h1
  have h3 : ((18302450501131341626928702870986547135215737833508423600396573336204796917354 - 1 : ℕ)
      : Fp) = 0 := by
    rw [Nat.cast_sub (by norm_num), h1, Nat.cast_one, sub_self]
  exact fp_ne_zero (by norm_num) (by norm_num) h3

/-- C08: whenever u/v has a square root (v y² = u is solvable), the returned x solves
v x² = u.  The argument buffer of u is left holding -u in canonical form. -/
theorem C08_invsqrt (isa : Isa) (u v : F4) :
    ((∃ y : Fp, v.toFp * y ^ 2 = u.toFp) → v.toFp * (invsqrt isa u v).1.toFp ^ 2 = u.toFp) ∧
    (invsqrt isa u v).2.val = canon (-u.toFp) := by
  refine ⟨invsqrt_spec isa u v, ?_⟩
  unfold invsqrt Full.cmp
  simp only
  rw [modp_val_canon, neg_toFp]

/-- When u/v has no square root the result is recognisable: it does not solve v x² = u. -/
theorem C08_invsqrt_nonsquare (isa : Isa) (u v : F4)
    (h : ¬ ∃ y : Fp, v.toFp * y ^ 2 = u.toFp) :
    v.toFp * (invsqrt isa u v).1.toFp ^ 2 ≠ u.toFp := fun e => h ⟨_, e⟩

/-- The hypothesis of C08 is met by u = 4, v = 1. -/
example : ∃ y : Fp, (F4.mk 1#64 0#64 0#64 0#64).toFp * y ^ 2 = (F4.mk 4#64 0#64 0#64 0#64).toFp :=
  ⟨2, by
    rw [F4.toFp, F4.toFp, show (F4.mk 1#64 0#64 0#64 0#64).val = 1 by decide +kernel,
      show (F4.mk 4#64 0#64 0#64 0#64).val = 4 by decide +kernel]
    push_cast; ring⟩

/-- C09: with an output buffer that holds 0 before the call, the
"square root" of every nonzero square is 0. -/
theorem C09_srt_wrong (isa : Isa) (a : F4) (ha : a.toFp ≠ 0) :
    (srt isa zero a).toFp ^ 2 ≠ a.toFp := by
  rw [srt_of_zero isa zero a zero_toFp, zero_pow (by norm_num)]
  exact fun h => ha h.symm

/-- C09: so `srt` is not a square-root function on any build. -/
theorem C09_srt_not_sqrt (isa : Isa) :
    ¬ ∀ c a : F4, IsSquare a.toFp → (srt isa c a).toFp ^ 2 = a.toFp := by
  intro h
  have h4 : (F4.mk 4#64 0#64 0#64 0#64).toFp = ((4 : ℕ) : Fp) := by
    rw [F4.toFp, show (F4.mk 4#64 0#64 0#64 0#64).val = 4 by decide +kernel]; norm_cast
  refine C09_srt_wrong isa ⟨4#64, 0#64, 0#64, 0#64⟩ ?_ (h _ _ ?_)
  · rw [h4]; exact fp_ne_zero (by norm_num) (by norm_num)
  · rw [h4]; exact ⟨2, by norm_num⟩

/-- C10: multiplication by the curve constant (A+2)/4 = 121666 is exact. -/
theorem C10_mula24 (isa : Isa) (a : F4) : (mula24 isa a).toFp = (486662 + 2) / 4 * a.toFp := by
  have h : ((486662 + 2) / 4 : Fp) = 121666 := by
    rw [div_eq_iff (by exact_mod_cast fp_ne_zero (n := 4) (by norm_num) (by norm_num))]
    norm_num
  rw [mula24_toFp, h]

example : (modp (mula24 ⟨true, true⟩ allOnes)).val = 121666 * 37 := by decide +kernel

end Verif.Fp25519

namespace Verif

/-- C49: byte-string comparison returns 0 exactly when the strings are equal. -/
theorem C49_cmp_bytes (a b : List Byte) (h : a.length = b.length) :
    cmp_bytes a b = 0#32 ↔ a = b := cmp_bytes_eq_zero h

example : cmp_bytes [1#8, 2#8] [1#8, 130#8] ≠ 0#32 := by decide +kernel

end Verif
