import Verif.Ed25519.ScalarLemmas
import Verif.Primes

/-!
# Properties C21, C22, C23: Ed25519 scalar arithmetic

`ell = 2^252 + 27742317777372353535851937790883648493`, `leNat` the little-endian value of a
byte string, `wval` that of a list of 64-bit words.  `reduceBytes` is
`modular_reduction_ed25519` followed by reading the first 32 bytes, which is what every
caller does.
-/

namespace Verif.Ed25519

open Verif.Fp25519 (F8)

set_option exponentiation.threshold 2000

/-- The order is prime. -/
theorem C21_ell_prime : ell.Prime := by
  have h : ell = 7237005577332262213973186563042994240857116359379907606001950938285454250989 := by
    norm_num
  rw [h]; exact Primes.prime_l25519

/-- C21, partial: the reduction returns the canonical residue of every 64-byte string whose
residue is below ell - 43·(ell - 2^252), that is, for all but a 2^-121 fraction of the
residues. Missing: the remaining residues, where the result can be wrong (next theorem). -/
theorem C21_reduce_partial (b : List Byte) (h : b.length = 64)
    (hb : leNat b % ell < ell - 43 * (ell - 2 ^ 252)) :
    (reduceBytes b).length = 32 ∧ leNat (reduceBytes b) = leNat b % ell := by
  refine ⟨F8.lowBytes_length _, ?_⟩
  rcases reduceBytes_val b h with h1 | ⟨h1, h2⟩
  · exact h1
  · exfalso
    have e : ell - 2 ^ 252 = 27742317777372353535851937790883648493 := by norm_num
    rw [e] at hb
    omega

/-- C21: in every case the result is one of two explicit values. -/
theorem C21_reduce_cases (b : List Byte) (h : b.length = 64) :
    leNat (reduceBytes b) = leNat b % ell ∨
    leNat (reduceBytes b) + ell = 2 ^ 256 + leNat b % ell := by
  rcases reduceBytes_val b h with h1 | ⟨h1, h2⟩
  · exact Or.inl h1
  · right
    have : ell ≤ 2 ^ 256 := by norm_num
    omega

/-- C21 is false of the code as stated: the digest 2^252 is reduced to a number that is not
congruent to it modulo ell. -/
theorem C21_reduce_wrong :
    ∃ b : List Byte, b.length = 64 ∧ ¬ leNat (reduceBytes b) ≡ leNat b [MOD ell] := by
  refine ⟨leBytes 64 (2 ^ 252), by simp, ?_⟩
  have h : leNat (reduceBytes (leBytes 64 (2 ^ 252))) % ell ≠
      leNat (leBytes 64 (2 ^ 252)) % ell := by decide +kernel
  exact h

example : leNat (leBytes 64 (2 ^ 512 - 1)) % ell < ell - 43 * (ell - 2 ^ 252) := by decide +kernel

end Verif.Ed25519

namespace Verif

/-- C22: the multiply-accumulate result is never too large, and it is exact if and only if no
three-word window overflows on the way. -/
theorem C22_multiplier (C A B : List W) (h : A.length + B.length < C.length) :
    (word64_multiplier C A B).length = C.length ∧
    wval (word64_multiplier C A B) ≤ wval C + wval A * wval B ∧
    (wval (word64_multiplier C A B) = wval C + wval A * wval B ↔ NoOverflow (wval C) A B) := by
  obtain ⟨h1, h2, h3⟩ := mulRows_val B A C 0 (wval C) (by omega) (fun _ => by omega) le_rfl
  refine ⟨h1, by simpa [word64_multiplier] using h2, ?_⟩
  simp only [Nat.mul_zero, pow_zero, one_mul, zero_add, true_and] at h3
  exact h3

/-- C22: overflow does occur, and the result is then not exact, even on an accumulator that is zero. -/
theorem C22_multiplier_wrong :
    ∃ C A B : List W, A.length + B.length < C.length ∧ wval C = 0 ∧
      wval (word64_multiplier C A B) ≠ wval C + wval A * wval B := by
  refine ⟨List.replicate 9 0#64,
    [0#64, 18446744073709551615#64, 18446744073709551614#64, 18446744073709551614#64],
    [9223372036854775808#64, 0#64, 1#64, 1#64], by simp, by decide +kernel, ?_⟩
  decide +kernel

end Verif

namespace Verif.Ed25519

open Verif.Fp25519 (F8)

set_option exponentiation.threshold 2000

theorem wval_words4 {b : List Byte} (h : b.length = 32) : wval (words4 b) = leNat b := by
  have h1 := Fp25519.F4.ofBytes_val h
  zify
  rw [← h1]
  simp only [words4, wval, Fp25519.F4.ofBytes, Fp25519.F4.val, iv]
  push_cast
  ring

theorem wval_drop (p : List W) (i : ℕ) :
    wval (p.drop i) = (p.getD i 0#64).toNat + 2 ^ 64 * wval (p.drop (i + 1)) := by
  induction p generalizing i with
  | nil => simp [wval]
  | cons a t ih =>
    cases i with
    | zero => simp [wval]
    | succ i => simpa using ih i

theorem val_of_words (p : List W) (hb : wval p < 2 ^ 512) :
    (F8.mk (p.getD 0 0#64) (p.getD 1 0#64) (p.getD 2 0#64) (p.getD 3 0#64)
      (p.getD 4 0#64) (p.getD 5 0#64) (p.getD 6 0#64) (p.getD 7 0#64)).val = (wval p : ℤ) := by
  have e0 := wval_drop p 0
  rw [List.drop_zero] at e0
  have e : wval p = (p.getD 0 0#64).toNat + 2 ^ 64 * (p.getD 1 0#64).toNat
      + 2 ^ 128 * (p.getD 2 0#64).toNat + 2 ^ 192 * (p.getD 3 0#64).toNat
      + 2 ^ 256 * (p.getD 4 0#64).toNat + 2 ^ 320 * (p.getD 5 0#64).toNat
      + 2 ^ 384 * (p.getD 6 0#64).toNat + 2 ^ 448 * (p.getD 7 0#64).toNat
      + 2 ^ 512 * wval (p.drop 8) := by
    rw [e0, wval_drop p 1, wval_drop p 2, wval_drop p 3, wval_drop p 4, wval_drop p 5,
      wval_drop p 6, wval_drop p 7]
    ring
  have z : wval (p.drop 8) = 0 := by
    by_contra hc
    have : 1 ≤ wval (p.drop 8) := by omega
    have : 2 ^ 512 * 1 ≤ 2 ^ 512 * wval (p.drop 8) := Nat.mul_le_mul_left _ this
    rw [e] at hb
    omega
  rw [e, z]
  unfold Fp25519.F8.val iv
  push_cast
  ring

/-- C23, partial: S = (r + k a) mod ell whenever the multiplication does not overflow a
window and the residue is not within 43·(ell-2^252) of ell.  Missing: the inputs excluded by
the two hypotheses, on which the code can fail (next theorem). -/
theorem C23_response_partial (r k a : List Byte) (hr : r.length = 32) (hk : k.length = 32)
    (ha : a.length = 32)
    (hov : NoOverflow (leNat r) (words4 k) (words4 a))
    (hres : (leNat r + leNat k * leNat a) % ell < ell - 43 * (ell - 2 ^ 252)) :
    (calculate_s r k a).length = 32 ∧
    leNat (calculate_s r k a) = (leNat r + leNat k * leNat a) % ell := by
  refine ⟨F8.lowBytes_length _, ?_⟩
  have hC : wval (words4 r ++ List.replicate 8 0#64) = leNat r := by
    rw [wval_append, wval_words4 hr]
    simp [wval, List.replicate]
  obtain ⟨h1, -, h3⟩ := C22_multiplier (words4 r ++ List.replicate 8 0#64) (words4 k) (words4 a)
    (by simp [words4])
  rw [hC, wval_words4 hk, wval_words4 ha] at h3
  have hex := h3.mpr hov
  unfold calculate_s
  simp only
  generalize word64_multiplier (words4 r ++ List.replicate 8 0#64) (words4 k) (words4 a) = p at *
  have hb : leNat r + leNat k * leNat a < 2 ^ 512 := by
    have a1 := leNat_lt r; have a2 := leNat_lt k; have a3 := leNat_lt a
    rw [hr] at a1; rw [hk] at a2; rw [ha] at a3
    have : leNat k * leNat a ≤ (256 ^ 32 - 1) * (256 ^ 32 - 1) :=
      Nat.mul_le_mul (by omega) (by omega)
    generalize leNat k * leNat a = t at *
    norm_num at *
    omega
  have hv := val_of_words p (by rw [hex]; exact hb)
  rw [hex] at hv
  generalize F8.mk (p.getD 0 0#64) (p.getD 1 0#64) (p.getD 2 0#64) (p.getD 3 0#64)
      (p.getD 4 0#64) (p.getD 5 0#64) (p.getD 6 0#64) (p.getD 7 0#64) = q at *
  have := modular_reduction_val q
  rw [hv, ← F8.lowBytes_val] at this
  generalize leNat r + leNat k * leNat a = t at *
  generalize leNat (F8.lowBytes (modular_reduction q)) = z at *
  rw [← Int.natCast_mod] at this
  rcases this with h5 | ⟨h5, -⟩
  · exact_mod_cast h5
  · exfalso
    have e : ell - 2 ^ 252 = 27742317777372353535851937790883648493 := by norm_num
    rw [e] at hres
    omega

/-- The hypotheses of C23 are met, for instance, by r = 3^150, k = 5^100, a = 2^254 + 8. -/
example : NoOverflow (leNat (leBytes 32 (3 ^ 150))) (words4 (leBytes 32 (5 ^ 100)))
      (words4 (leBytes 32 (2 ^ 254 + 8))) ∧
    (3 ^ 150 + 5 ^ 100 * (2 ^ 254 + 8)) % ell < ell - 43 * (ell - 2 ^ 252) := by
  refine ⟨?_, by decide +kernel⟩
  have e : leNat (leBytes 32 (3 ^ 150)) =
      wval (words4 (leBytes 32 (3 ^ 150)) ++ List.replicate 8 0#64) := by decide +kernel
  rw [e]
  refine (C22_multiplier _ _ _ (by simp [words4])).2.2.mp ?_
  decide +kernel

/-- C23 is false of the code as stated, already for a reduced nonce r < ell, a reduced
challenge k < ell and a clamped secret scalar a. -/
theorem C23_response_wrong :
    ∃ r k a : List Byte, r.length = 32 ∧ k.length = 32 ∧ a.length = 32 ∧
      leNat r < ell ∧ leNat k < ell ∧ 2 ^ 254 ≤ leNat a ∧ leNat a < 2 ^ 255 ∧ 8 ∣ leNat a ∧
      ¬ leNat (calculate_s r k a) ≡ leNat r + leNat k * leNat a [MOD ell] := by
  refine ⟨leBytes 32 (2 ^ 192 - 1), leBytes 32 1, leBytes 32 (2 ^ 254 + 8), by simp, by simp,
    by simp, by decide +kernel, by decide +kernel, by decide +kernel, by decide +kernel,
    by decide +kernel, ?_⟩
  have h : leNat (calculate_s (leBytes 32 (2 ^ 192 - 1)) (leBytes 32 1) (leBytes 32 (2 ^ 254 + 8)))
      % ell ≠ (leNat (leBytes 32 (2 ^ 192 - 1)) + leNat (leBytes 32 1) *
        leNat (leBytes 32 (2 ^ 254 + 8))) % ell := by decide +kernel
  exact h

end Verif.Ed25519
