import Verif.Props.OneMessage
import Verif.Props.KeyUnique448

/-!
# A signature belongs to one public key (C95)

Specification: `challenge` of RFC 8032 and the order of the group.
-/

namespace Verif.Ed25519

set_option exponentiation.threshold 600

open Verif.Fp25519

/-- C95, partial (`Usual`).  A signature that is accepted under one public key is accepted under
another, for the same message or a different one, exactly when the multiples of the two keys by their
reduced challenges are the same point. -/
theorem C95_keys_partial (H : List Byte → List Byte) (hH : ∀ m, (H m).length = 64)
    (isa isa' : Isa) (mode mode' : Mode) (M M' C C' pk pk' sig : List Byte) (hpk : pk.length = 32)
    (hpk' : pk'.length = 32) (hsig : sig.length = 64) (A A' : Pt) (hA : Decodes pk A)
    (hA' : Decodes pk' A') (u : Usual H isa mode M C pk sig) (u' : Usual H isa' mode' M' C' pk' sig)
    (h : apiVerify H isa mode M C pk sig = .VERIFICATION_OK) :
    apiVerify H isa' mode' M' C' pk' sig = .VERIFICATION_OK ↔
      (challenge H mode (sig.take 32) pk M C % ell) • A =
        (challenge H mode' (sig.take 32) pk' M' C' % ell) • A' := by
  have h1 := (C30_verify_partial H hH isa mode M C pk sig u.context hpk hsig A hA u.even u.small
    u.no_borrow).1 h
  rw [C30_verify_partial H hH isa' mode' M' C' pk' sig u'.context hpk' hsig A' hA' u'.even u'.small
    u'.no_borrow]
  constructor
  · intro h2
    exact sub_right_injective (encode_inj (h1.symm.trans h2))
  · intro h2
    rw [← h2]
    exact h1

/-- C95, partial (`Usual`).  For two generated public keys: exactly when the products of challenge
and secret scalar are congruent modulo the order of the group. -/
theorem C95_generated_partial (H : List Byte → List Byte) (hH : ∀ m, (H m).length = 64)
    (isa isa' i i' : Isa) (mode mode' m m' : Mode) (M M' C C' sk sk' pk pk' sig : List Byte)
    (hpk : pk = (apiKeygen H i m sk).2) (hpk' : pk' = (apiKeygen H i' m' sk').2)
    (hsig : sig.length = 64) (u : Usual H isa mode M C pk sig)
    (u' : Usual H isa' mode' M' C' pk' sig)
    (h : apiVerify H isa mode M C pk sig = .VERIFICATION_OK) :
    apiVerify H isa' mode' M' C' pk' sig = .VERIFICATION_OK ↔
      challenge H mode (sig.take 32) pk M C * secretScalar (H sk) ≡
        challenge H mode' (sig.take 32) pk' M' C' * secretScalar (H sk')
        [MOD 2 ^ 252 + 27742317777372353535851937790883648493] := by
  have e : pk = encode (secretScalar (H sk) • B) := by rw [hpk, C53_keygen H i m sk (hH sk)]
  have e' : pk' = encode (secretScalar (H sk') • B) := by rw [hpk', C53_keygen H i' m' sk' (hH sk')]
  have el : ell = 2 ^ 252 + 27742317777372353535851937790883648493 := by norm_num
  rw [C95_keys_partial H hH isa isa' mode mode' M M' C C' pk pk' sig (by rw [e, encode_length])
    (by rw [e', encode_length]) hsig _ _ (by rw [e]; exact decodes_encode _)
    (by rw [e']; exact decodes_encode _) u u' h, smul_smul, smul_smul, nsmul_eq_nsmul_iff_modEq,
    addOrderOf_B, ← el]
  simp only [Nat.ModEq, Nat.mod_mul_mod]

theorem canon_root : canon (rootN : Fp) = rootN := by
  show (((rootN : ℕ) : Fp)).val = rootN
  rw [ZMod.val_natCast, Nat.mod_eq_of_lt (by norm_num [rootN])]

theorem canon_minus_root : canon (-(rootN : Fp)) = P - rootN := by
  have : (-(rootN : Fp)) = ((P - rootN : ℕ) : Fp) := by
    rw [Nat.cast_sub (by norm_num [rootN]), ZMod.natCast_self, zero_sub]
  rw [this]
  show (((P - rootN : ℕ) : Fp)).val = P - rootN
  rw [ZMod.val_natCast, Nat.mod_eq_of_lt (by norm_num [rootN])]

/-- The other point with y = 0. -/
theorem minus_decodes : Decodes (leBytes 32 (2 ^ 255)) (-T4) := by
  have h2 : leNat (leBytes 32 (2 ^ 255)) % 2 ^ 255 = 0 := by decide +kernel
  refine ⟨?_, fun _ => ?_⟩
  · show (0 : Fp) = yCoord (leBytes 32 (2 ^ 255))
    rw [yCoord, h2, Nat.cast_zero]
  · show canon (-(rootN : Fp)) % 2 = signBit (leBytes 32 (2 ^ 255))
    rw [canon_minus_root]
    decide +kernel

theorem minus_mult (isa : Isa) :
    (double_point_mult_4w isa (leBytes 32 0) (reduceBytes (leBytes 64 4))
      (point_decoding isa (leBytes 32 (2 ^ 255))).1).take 32 = leBytes 32 1 := by
  rw [isa_double_mult isa ⟨true, true⟩, isa_decoding isa ⟨true, true⟩]
  decide +kernel

/-- C95 is false of public keys of small order: for a hash function, two different points are public
keys under which one signature is accepted for one message. -/
theorem C95_wrong : ∃ (H : List Byte → List Byte) (pk pk' sig M : List Byte) (A A' : Pt),
    (∀ m, (H m).length = 64) ∧ pk.length = 32 ∧ pk'.length = 32 ∧ Decodes pk A ∧ Decodes pk' A' ∧
    A ≠ A' ∧ sig.length = 64 ∧
    ∀ isa, apiVerify H isa .Pure M [] pk sig = .VERIFICATION_OK ∧
      apiVerify H isa .Pure M [] pk' sig = .VERIFICATION_OK := by
  have e : ∀ x, countHash (dom2 .Pure [] ++ (leBytes 32 1 ++ leBytes 32 0).take 32 ++
      leBytes 32 x ++ PH countHash .Pure [0]) = leBytes 64 4 := by
    intro x
    simp [countHash, dom2, PH]
  have h2 : ((leBytes 32 1 ++ leBytes 32 0).drop 32).take 32 = leBytes 32 0 := by decide +kernel
  have h1 : (leBytes 32 1 ++ leBytes 32 0).take 32 = leBytes 32 1 := by decide +kernel
  refine ⟨countHash, leBytes 32 0, leBytes 32 (2 ^ 255), leBytes 32 1 ++ leBytes 32 0, [0], T4, -T4,
    fun m => by simp [countHash], by simp, by simp, zero_decodes, minus_decodes, ?_, by simp,
    fun isa => ⟨?_, ?_⟩⟩
  · intro h
    have h : canon (rootN : Fp) = canon (-(rootN : Fp)) :=
      congrArg (fun Q : Pt => canon Q.x) h
    rw [canon_root, canon_minus_root] at h
    exact absurd h (by decide +kernel)
  · rw [verify_short _ _ (by simp [tooLong]), e, h2, zero_mult isa _ (Or.inl rfl), h1, if_pos rfl]
  · rw [verify_short _ _ (by simp [tooLong]), e, h2, minus_mult isa, h1, if_pos rfl]

theorem small_dm (isa : Isa) :
    DmOk (leBytes 32 0) (leBytes 32 4) (point_decoding isa (leBytes 32 0)).1 ∧
    DmOk (leBytes 32 0) (leBytes 32 4) (point_decoding isa (leBytes 32 (2 ^ 255))).1 := by
  rw [isa_decoding isa ⟨true, true⟩]
  decide +kernel

/-- The conditions are met for two different public keys and one message: the keys of
`C95_wrong`. -/
example (isa : Isa) :
    Usual countHash isa .Pure [0] [] (leBytes 32 0) (leBytes 32 1 ++ leBytes 32 0) ∧
    Usual countHash isa .Pure [0] [] (leBytes 32 (2 ^ 255)) (leBytes 32 1 ++ leBytes 32 0) := by
  have e : ∀ x, challenge countHash .Pure ((leBytes 32 1 ++ leBytes 32 0).take 32) (leBytes 32 x)
      [0] [] = 4 := by
    intro x
    have h4 : leNat (leBytes 64 4) = 4 := by decide +kernel
    rw [← h4]
    simp [challenge, countHash, dom2, PH]
  have e4 : 4 % ell = 4 := Nat.mod_eq_of_lt (by norm_num)
  have h2 : (leBytes 32 1 ++ leBytes 32 0).drop 32 = leBytes 32 0 := by decide +kernel
  have h0 : leNat (leBytes 32 0) = 0 := by decide +kernel
  constructor
  · refine ⟨Or.inl rfl, ?_, ?_, ?_⟩
    · rw [h2, h0]; left; rfl
    · rw [e, e4]; norm_num
    · rw [h2, e, e4]; exact (small_dm isa).1
  · refine ⟨Or.inl rfl, ?_, ?_, ?_⟩
    · rw [h2, h0]; left; rfl
    · rw [e, e4]; norm_num
    · rw [h2, e, e4]; exact (small_dm isa).2

end Verif.Ed25519

namespace Verif.Ed448

open Verif.Fp448
open Verif.X448 (Safe)

/-- C95 for Ed448, partial (`Usual`, and the conditions of C59 on keys and signature).  A signature
that is accepted under one public key of prime order is accepted under another exactly when the
multiples of the two keys by their challenges are the same point. -/
theorem C95_ed448_partial (H : List Byte → ℕ → List Byte) (hH : ∀ m n, (H m n).length = n)
    (w w' : ℕ → W) (mode mode' : Mode) (M M' C C' pk pk' sig : List Byte) (hpk : pk.length = 57)
    (hpk' : pk'.length = 57) (A A' : Pt) (hA : Decodes pk A) (hA' : Decodes pk' A')
    (hAo : order • A = 0) (hAo' : order • A' = 0) (hd : DecodeOk pk A) (hd' : DecodeOk pk' A')
    (hs : DivOk (leNat ((sig.drop 57).take 56))) (u : Usual H mode M C pk sig A)
    (u' : Usual H mode' M' C' pk' sig A')
    (h : apiVerify H w mode M C pk sig = .VERIFICATION_OK) :
    apiVerify H w' mode' M' C' pk' sig = .VERIFICATION_OK ↔
      challenge H mode (sig.take 57) pk M C • A = challenge H mode' (sig.take 57) pk' M' C' • A' := by
  have h1 := (C59_verify_prime_partial H hH w mode M C pk sig u.context hpk A hA hAo hd _ _ rfl rfl
    u.reduce hs u.div u.no_borrow u.safe_x u.safe_y).1 h
  rw [C59_verify_prime_partial H hH w' mode' M' C' pk' sig u'.context hpk' A' hA' hAo' hd' _ _ rfl
    rfl u'.reduce hs u'.div u'.no_borrow u'.safe_x u'.safe_y]
  constructor
  · intro h2
    exact sub_right_injective (C57_injective (h1.symm.trans h2))
  · intro h2
    rw [← h2]
    exact h1

/-- The conditions of the theorem are met for every message: the key and signature of C59. -/
example (M M' : List Byte) : Usual (toyHash aGood rGood kNum) .PureContext M [] (encode (aGood • B))
    (encode (rGood • B) ++ leBytes 57 SNum) (aGood • B) ∧
    Usual (toyHash aGood rGood kNum) .PureContext M' [] (encode (aGood • B))
    (encode (rGood • B) ++ leBytes 57 SNum) (aGood • B) ∧ order • aGood • B = 0 ∧
    DecodeOk (encode (aGood • B)) (aGood • B) :=
  ⟨(usual_good M).1, (usual_good M').1, (usual_good M).2.2⟩

/-- For two multiples of the base point: exactly when the products of challenge and scalar are
congruent modulo the order. -/
theorem C95_ed448_scalars {k k' a a' : ℕ} :
    k • a • B = k' • a' • B ↔ k * a ≡ k' * a' [MOD order] := by
  rw [smul_smul, smul_smul, nsmul_eq_nsmul_iff_modEq, addOrderOf_B]
  exact Iff.rfl

end Verif.Ed448
