import Verif.Ed448.EddsaLemmas
import Verif.Props.Ed448Decode

/-!
# Properties of Ed448: C48, C58, C59 and C60

`apiKeygen`, `apiSign` and `apiVerify` model the functions of the two schemes of the structure
`Ed448`; the words of RFC 8032 are in `Verif/Ed448/EddsaSpec.lean`.  `H` is any function of a
string and a length that returns a string of that length, SHAKE256 in the library; `u` gives the
contents of uninitialised words.
-/

namespace Verif.Ed448

open Verif.Fp448
open Verif.X448 (Safe)
open Verif.Ed25519 (Status ascii)

set_option exponentiation.threshold 2000

/-! ## C58: key generation and signing -/

/-- C58, partial: the public key is the encoding of s·B, s the clamped secret scalar, for every
private key and hash function for which the multiplication by s goes right (`MulOk`: no carry is
dropped and no limb goes below zero). -/
theorem C58_keygen_partial (H : List Byte → ℕ → List Byte) (u : ℕ → W) (mode : Mode)
    (sk : List Byte) (hH : (H sk 114).length = 114) (h : MulOk (secretScalar (H sk 114))) :
    apiKeygen H u mode sk = (.KEYGEN_OK, encode (secretScalar (H sk 114) • B)) := by
  unfold apiKeygen keygen
  simp only
  rw [fixed_encoding, (clampDigest_spec _ hH).1]
  rw [(clampDigest_spec _ hH).1]; exact h

theorem div4_junk (u v : W) (b : List Byte) : div4 u v b = div4 0#64 0#64 b := by
  unfold div4
  simp only
  rw [C46_reduce_junk u v 0#64 0#64]
  rw [List.length_take, bytesOf_length, word64_multiplier_length]; rfl

theorem calculate_s_junk (u v : W) (r k a : List Byte) :
    calculate_s u v r k a = calculate_s 0#64 0#64 r k a := by
  unfold calculate_s
  simp only
  rw [C46_reduce_junk u v 0#64 0#64]
  rw [List.length_take, bytesOf_length, word64_multiplier_length]
  simp [words_length]

theorem fixed_junk (u v : W) (r : List Byte) :
    fixed_point_multiplication u v r = fixed_point_multiplication 0#64 0#64 r := by
  unfold fixed_point_multiplication
  rw [div4_junk u v]

theorem double_junk (u v u' v' : W) (s h : List Byte) (A : Elt16 V) :
    double_point_mult_4w u v u' v' s h A = double_point_mult_4w 0#64 0#64 0#64 0#64 s h A := by
  unfold double_point_mult_4w
  rw [div4_junk u v, div4_junk u' v']

/-- C58: for every hash function, the results of the three functions do not depend on the contents
of the uninitialised words that the code reads, and the signature depends on the private key only
through its digest. -/
theorem C58_deterministic (H : List Byte → ℕ → List Byte) (hH : ∀ m n, (H m n).length = n)
    (u u' : ℕ → W) (mode : Mode) (M C pk sk sk' sig : List Byte)
    (h : H sk 114 = H sk' 114) :
    apiKeygen H u mode sk = apiKeygen H u' mode sk' ∧
    apiSign H u mode M C pk sk = apiSign H u' mode M C pk sk' ∧
    apiVerify H u mode M C pk sig = apiVerify H u' mode M C pk sig := by
  refine ⟨?_, ?_, ?_⟩
  · unfold apiKeygen keygen
    simp only
    rw [fixed_junk, fixed_junk (u' 0), h]
  · by_cases hC : 255 < C.length
    · rw [sign_long H u hC, sign_long H u' hC]
    · rw [sign_short hH u hC, sign_short hH u' hC, h]
      simp only
      rw [C46_reduce_junk (u 0) (u 1) 0#64 0#64 _ (hH _ _), C46_reduce_junk (u' 0) (u' 1) 0#64 0#64 _ (hH _ _),
        fixed_junk (u 2), fixed_junk (u' 2),
        C46_reduce_junk (u 4) (u 5) 0#64 0#64 _ (hH _ _),
        C46_reduce_junk (u' 4) (u' 5) 0#64 0#64 _ (hH _ _),
        calculate_s_junk (u 6), calculate_s_junk (u' 6)]
  · by_cases hC : 255 < C.length
    · rw [verify_long H u hC, verify_long H u' hC]
    · rw [verify_short H u hC, verify_short H u' hC]
      rw [C46_reduce_junk (u 0) (u 1) 0#64 0#64 _ (hH _ _), C46_reduce_junk (u' 0) (u' 1) 0#64 0#64 _ (hH _ _)]
      simp only [double_junk (u 2), double_junk (u' 2)]

/-- The computations of signing go right: no carry is dropped in the two reductions, the product
and its reduction, and the multiplication by the nonce goes right. -/
structure SignOk (r k a : ℕ) : Prop where
  nonce : ReduceExact r
  challenge : ReduceExact k
  mult : MulOk (red r)
  product : NoOverflow (red r) (toWords 7 (red k)) (toWords 7 a)
  response : ReduceExact (red r + red k * a)

/-- C58, partial.  For every hash function, key, message and context of at most 255 bytes for which
the computations go right (`SignOk`), signing succeeds and returns R ‖ S where R is the encoding
of r·B, r the nonce of RFC 8032, and S, of 57 bytes, is a number below 2^446 congruent to
r + k s modulo the order, k the challenge of RFC 8032 and s the secret scalar. -/
theorem C58_sign_partial (H : List Byte → ℕ → List Byte) (hH : ∀ m n, (H m n).length = n)
    (u : ℕ → W) (mode : Mode) (M C pk sk : List Byte) (hC : C.length ≤ 255) (r k a : ℕ)
    (hr : r = nonce H mode sk M C) (hk : k = challenge H mode (encode (r • B)) pk M C)
    (ha : a = secretScalar (H sk 114)) (hok : SignOk r k a) :
    ∃ S, S < 2 ^ 446 ∧ S ≡ r + k * a [MOD ell] ∧ S = red (red r + red k * a) ∧
      apiSign H u mode M C pk sk = (.SIGNATURE_OK, some (encode (r • B) ++ leBytes 57 S)) := by
  rw [sign_short hH u (by omega)]
  obtain ⟨ln, lc, hm, hp, hs⟩ := hok
  have e1 := reduce_lo (u 0) (u 1) (hH (dom4 mode C ++ (H sk 114).drop 57 ++ PH H mode M) 114)
    (by rw [hr] at ln; exact ln)
  have e1' : leNat (H (dom4 mode C ++ (H sk 114).drop 57 ++ PH H mode M) 114) = r := hr.symm
  rw [e1'] at e1
  generalize modular_reduction (u 0) (u 1) (H (dom4 mode C ++ (H sk 114).drop 57 ++ PH H mode M)
    114) = rb at *
  have e2 : point_encoding (fixed_point_multiplication (u 2) (u 3) rb) = encode (r • B) := by
    rw [fixed_encoding _ _ _ (by rw [e1.1]; exact hm), e1.1,
      modEq_smul (red_modEq r) order_B]
  simp only [e2]
  have e3 := reduce_lo (u 4) (u 5) (hH (dom4 mode C ++ encode (r • B) ++ pk ++ PH H mode M) 114)
    (by rw [hk] at lc; exact lc)
  have e3' : leNat (H (dom4 mode C ++ encode (r • B) ++ pk ++ PH H mode M) 114) = k := hk.symm
  rw [e3'] at e3
  generalize modular_reduction (u 4) (u 5) (H (dom4 mode C ++ encode (r • B) ++ pk ++ PH H mode M)
    114) = kb at *
  have e4 : leNat ((clampDigest (H sk 114)).take 56) = a := by
    rw [(clampDigest_spec _ (hH sk 114)).1, ha]
  have e5 := calculate_s_eq (u 6) (u 7) rb kb (clampDigest (H sk 114))
    (by rw [e1.1, e3.1, e4]; exact hp) (by rw [e1.1, e3.1, e4]; exact hs)
  rw [e1.1, e3.1, e4] at e5
  refine ⟨red (red r + red k * a), e5.2, ?_, rfl, by rw [e5.1]⟩
  exact (red_modEq _).trans ((red_modEq r).add ((red_modEq k).mul_right a))

/-! ## C48: contexts -/

/-- C48.  Signing and verification return the context error exactly when the context is longer
than 255 bytes, and then no signature is written. -/
theorem C48_context_error (H : List Byte → ℕ → List Byte) (hH : ∀ m n, (H m n).length = n)
    (u : ℕ → W) (mode : Mode) (M C pk sk sig : List Byte) :
    ((apiSign H u mode M C pk sk).1 = .ERROR_CONTEXT ↔ 255 < C.length) ∧
    (255 < C.length → (apiSign H u mode M C pk sk).2 = none) ∧
    (apiVerify H u mode M C pk sig = .ERROR_CONTEXT ↔ 255 < C.length) := by
  by_cases h : 255 < C.length
  · simp [sign_long H u h, verify_long H u h, h]
  · refine ⟨?_, fun hc => absurd hc h, ?_⟩
    · rw [sign_short hH u h]
      simp [h]
    · rw [verify_short H u h]
      generalize point_decoding pk = d
      rcases d with _ | ⟨A, A2⟩
      · simp [h]
      · simp only
        split_ifs <;> simp [h]

/-- C48.  What is hashed after the domain prefix, the mode and the context can be read off the
hashed string: no two different (mode, context, rest) give the same string. -/
theorem C48_separation (m m' : Mode) (C C' x x' : List Byte) (hC : C.length ≤ 255)
    (hC' : C'.length ≤ 255) (h : dom4 m C ++ x = dom4 m' C' ++ x') :
    m = m' ∧ C = C' ∧ x = x' := by
  have key : ∀ (f f' : Byte), ascii "SigEd448" ++ [f] ++ [BitVec.ofNat 8 C.length] ++ C ++ x =
      ascii "SigEd448" ++ [f'] ++ [BitVec.ofNat 8 C'.length] ++ C' ++ x' →
      f = f' ∧ C = C' ∧ x = x' := by
    intro f f' h
    simp only [List.append_assoc] at h
    have h := List.append_cancel_left h
    simp only [List.cons_append, List.nil_append, List.cons.injEq] at h
    obtain ⟨h1, h2, h3⟩ := h
    have hl : C.length = C'.length := by
      have := congrArg BitVec.toNat h2
      rw [BitVec.toNat_ofNat, BitVec.toNat_ofNat] at this
      omega
    obtain ⟨h4, h5⟩ := List.append_inj h3 hl
    exact ⟨h1, h4, h5⟩
  cases m <;> cases m' <;>
    (simp only [dom4] at h
     have := key _ _ h
     simp at this
     try exact ⟨rfl, this⟩)

/-! ## C59: verification -/

/-- Decoding of the encoding of `A` goes right: the conditions of `C47_decodes_partial`. -/
structure DecodeOk (pk : List Byte) (A : Pt) : Prop where
  clear : DecodeClear A.y
  low : 2 ^ 282 ≤ canon A.x
  high : canon A.x + 2 ^ 282 ≤ P
  borrow : DecodeNoBorrow (decodeX pk) (decodeY pk)

/-- C59: the public key is refused exactly when its decoding fails. -/
theorem C59_public_key (H : List Byte → ℕ → List Byte) (u : ℕ → W) (mode : Mode)
    (M C pk sig : List Byte) (hC : C.length ≤ 255) :
    apiVerify H u mode M C pk sig = .ERROR_PUBLICKEY ↔ point_decoding pk = none := by
  rw [verify_short H u (by omega)]
  generalize point_decoding pk = d
  rcases d with _ | ⟨A, A2⟩
  · simp
  · simp only
    split_ifs <;> simp

/-- C59, partial.  When the public key is the encoding of a point A, verification accepts exactly
the signatures whose first 57 bytes are the encoding of S·B - k·A, S the number in the next 56
bytes, for a multiple k of four congruent to the challenge of RFC 8032 modulo the order, provided
decoding goes right (`DecodeOk`), no carry is dropped in the reduction of the challenge and the two
divisions by four, no limb of the additions goes below zero (`DmOk`) and the serialisation drops no
carry (`Safe`).  Missing: the excluded inputs; on some of them the equivalence fails. -/
theorem C59_verify_partial (H : List Byte → ℕ → List Byte) (hH : ∀ m n, (H m n).length = n)
    (u : ℕ → W) (mode : Mode) (M C pk sig : List Byte) (hC : C.length ≤ 255)
    (hpk : pk.length = 57) (A : Pt) (hA : Decodes pk A)
    (hd : DecodeOk pk A) (S c : ℕ) (hS : S = leNat ((sig.drop 57).take 56))
    (hc : c = challenge H mode (sig.take 57) pk M C) (hcr : ReduceExact c) (hs : DivOk S)
    (hk : DivOk (red c))
    (hok : ∀ Q4 Q2, point_decoding pk = some (Q4, Q2) →
      DmOk (leBytes 57 (quarter S)) (leBytes 57 (quarter (red c))) Q4)
    (hx : Safe (canon (S • B - (4 * quarter (red c)) • A).x))
    (hy : Safe (canon (S • B - (4 * quarter (red c)) • A).y)) :
    ∃ k, k ≡ c [MOD ell] ∧ 4 ∣ k ∧
      (apiVerify H u mode M C pk sig = .VERIFICATION_OK ↔ sig.take 57 = encode (S • B - k • A)) := by
  refine ⟨4 * quarter (red c), (quarter_modEq _).trans (red_modEq c), dvd_mul_right _ _, ?_⟩
  obtain ⟨Q4, Q2, e, hQ, -⟩ := C47_decodes_partial pk hpk A hA hd.clear hd.low hd.high hd.borrow
  rw [verify_short H u (by omega)]
  have hok := hok Q4 Q2 e
  rw [e]
  simp only
  obtain ⟨h1, h2, h3⟩ := reduce_lo (u 0) (u 1) (hH (dom4 mode C ++ sig.take 57 ++ pk ++ PH H mode M)
    114) (by rw [hc] at hcr; exact hcr)
  have h4 : leNat (H (dom4 mode C ++ sig.take 57 ++ pk ++ PH H mode M) 114) = c := hc.symm
  rw [h4] at h1 h2
  generalize modular_reduction (u 0) (u 1) (H (dom4 mode C ++ sig.take 57 ++ pk ++ PH H mode M)
    114) = kb at *
  have := double_mult_nat (u 2) (u 3) (u 4) (u 5) (s := sig.drop 57) (h := kb) hQ
  rw [← hS, h1] at this
  rw [this hs hk hok hx hy, List.take_of_length_le (l := encode _) (by rw [encode_length])]
  split_ifs with hif
  · simp [hif]
  · simp [hif]

/-- C59, partial, for a public key of prime order, like all that `keygen` returns: the equation is
the one of RFC 8032, R = S·B - k·A with k the challenge. -/
theorem C59_verify_prime_partial (H : List Byte → ℕ → List Byte) (hH : ∀ m n, (H m n).length = n)
    (u : ℕ → W) (mode : Mode) (M C pk sig : List Byte) (hC : C.length ≤ 255)
    (hpk : pk.length = 57) (A : Pt) (hA : Decodes pk A)
    (hAo : order • A = 0)
    (hd : DecodeOk pk A) (S c : ℕ) (hS : S = leNat ((sig.drop 57).take 56))
    (hc : c = challenge H mode (sig.take 57) pk M C) (hcr : ReduceExact c) (hs : DivOk S)
    (hk : DivOk (red c))
    (hok : ∀ Q4 Q2, point_decoding pk = some (Q4, Q2) →
      DmOk (leBytes 57 (quarter S)) (leBytes 57 (quarter (red c))) Q4)
    (hx : Safe (canon (S • B - c • A).x)) (hy : Safe (canon (S • B - c • A).y)) :
    apiVerify H u mode M C pk sig = .VERIFICATION_OK ↔ sig.take 57 = encode (S • B - c • A) := by
  have e0 : (4 * quarter (red c)) • A = c • A :=
    modEq_smul ((quarter_modEq _).trans (red_modEq c)) hAo
  obtain ⟨k, hk, -, h⟩ := C59_verify_partial H hH u mode M C pk sig hC hpk A hA hd S c hS hc
    hcr hs hk hok (by rw [e0]; exact hx) (by rw [e0]; exact hy)
  rwa [modEq_smul hk hAo] at h

/-! ## C48: signatures verify -/

/-- The computations with a key go right: the multiplication of the base point by the secret
scalar, the decoding of the public key, and the additions of multiples of it. -/
structure KeyGood (a : ℕ) : Prop where
  mult : MulOk a
  decode : DecodeOk (encode (a • B)) (a • B)
  adds : ∀ Q4 Q2, point_decoding (encode (a • B)) = some (Q4, Q2) → KeyOk Q4

theorem sig_take (A : Pt) (S : List Byte) : (encode A ++ S).take 57 = encode A := by
  rw [List.take_append_of_le_length (by rw [encode_length]),
    List.take_of_length_le (by rw [encode_length])]

theorem sig_drop (A : Pt) (S : List Byte) : (encode A ++ S).drop 57 = S := by
  rw [List.drop_append_of_le_length (by rw [encode_length]),
    List.drop_of_length_le (by rw [encode_length]), List.nil_append]

theorem order_mulB (n : ℕ) : order • n • B = 0 := by
  rw [← mul_nsmul, mul_comm, mul_nsmul, order_B, smul_zero]

/-- C48, partial.  For every hash function, private key, message and context of at most 255 bytes
for which the computations with the key go right (`KeyGood`) and no carry is dropped in the
computations with the scalars (`SignOk`, `DivOk`), key generation and signing succeed and the
signature verifies under the public key in the same mode and context.  Missing: the rare
remaining cases, in which verification can fail. -/
theorem C48_verifies_partial (H : List Byte → ℕ → List Byte) (hH : ∀ m n, (H m n).length = n)
    (u u' u'' : ℕ → W) (mode : Mode) (M C sk : List Byte) (hC : C.length ≤ 255) (r k a : ℕ)
    (ha : a = secretScalar (H sk 114)) (hr : r = nonce H mode sk M C)
    (hk : k = challenge H mode (encode (r • B)) (encode (a • B)) M C)
    (hkey : KeyGood a) (hok : SignOk r k a) (hS : DivOk (red (red r + red k * a)))
    (hd : DivOk (red k)) :
    ∃ pk sig, apiKeygen H u mode sk = (.KEYGEN_OK, pk) ∧
      apiSign H u' mode M C pk sk = (.SIGNATURE_OK, some sig) ∧
      apiVerify H u'' mode M C pk sig = .VERIFICATION_OK := by
  obtain ⟨S, hlt, hm, hSe, hs⟩ := C58_sign_partial H hH u' mode M C (encode (a • B)) sk hC r k a hr hk
    ha hok
  refine ⟨encode (a • B), _, ?_, hs, ?_⟩
  · rw [C58_keygen_partial H u mode sk (hH _ _) (by rw [← ha]; exact hkey.mult), ha]
  have e1 : S • B - k • a • B = r • B := by
    rw [modEq_smul hm order_B, add_smul, mul_smul, add_sub_cancel_right]
  have e2 : (red r) • B = r • B := modEq_smul (red_modEq r) order_B
  have h := C59_verify_prime_partial H hH u'' mode M C (encode (a • B))
    (encode (r • B) ++ leBytes 57 S) hC (encode_length _) (a • B) (decodes_encode _) (order_mulB a)
    hkey.decode S k (by rw [sig_drop, leBytes57_take hlt]) (by rw [sig_take]; exact hk)
    hok.challenge (by rw [hSe]; exact hS) hd (fun Q4 Q2 e => by
      obtain ⟨Q4', Q2', e', hQ, -⟩ := C47_decodes_partial _ (encode_length _) _ (decodes_encode _)
        hkey.decode.clear hkey.decode.low hkey.decode.high hkey.decode.borrow
      have := (Prod.mk.inj (Option.some.inj (e'.symm.trans e))).1
      subst this
      exact (hkey.adds _ _ e).dmOk hQ _ _)
    (by rw [e1, ← e2]; exact hok.mult.x) (by rw [e1, ← e2]; exact hok.mult.y)
  refine h.2 ?_
  rw [sig_take, e1]

/-! ## C60: malleability -/

/-- C60 fails, whatever the hash function, the public key, the message and the signature: the
last byte of a signature is not read, so a signature that is accepted remains so with any other
value of it. -/
theorem C60_last_byte (H : List Byte → ℕ → List Byte) (u : ℕ → W) (mode : Mode)
    (M C pk sig : List Byte) (x : Byte) :
    apiVerify H u mode M C pk (sig.set 113 x) = apiVerify H u mode M C pk sig := by
  by_cases hC : 255 < C.length
  · rw [verify_long H u hC, verify_long H u hC]
  have e1 : (sig.set 113 x).take 57 = sig.take 57 := by
    rw [List.take_set, List.set_eq_of_length_le (by simp)]
  have e2 : ((sig.set 113 x).drop 57).take 56 = (sig.drop 57).take 56 := by
    rw [List.drop_set, if_neg (by norm_num), List.take_set, List.set_eq_of_length_le (by simp)]
  have e3 : ∀ a b, div4 a b ((sig.set 113 x).drop 57) = div4 a b (sig.drop 57) := fun a b => by
    unfold div4; rw [e2]
  have e4 : ∀ a b c d k A, double_point_mult_4w a b c d ((sig.set 113 x).drop 57) k A =
      double_point_mult_4w a b c d (sig.drop 57) k A := fun a b c d k A => by
    unfold double_point_mult_4w; rw [e3]
  rw [verify_short H u hC, verify_short H u hC, e1]
  generalize point_decoding pk = o
  rcases o with _ | ⟨A, A2⟩
  · rfl
  · simp only [e4]

/-- C60 fails for S too: S and S + l, both below 2^448, are the same for verification when no carry
is dropped in the division of either by four. -/
theorem C60_plus_order (H : List Byte → ℕ → List Byte) (u : ℕ → W) (mode : Mode)
    (M C pk R : List Byte) (hR : R.length = 57) (S : ℕ) (hS : S + ell < 2 ^ 448) (h1 : DivOk S)
    (h2 : DivOk (S + ell)) (h : quarter (S + ell) = quarter S) :
    apiVerify H u mode M C pk (R ++ leBytes 57 (S + ell)) =
      apiVerify H u mode M C pk (R ++ leBytes 57 S) := by
  by_cases hC : 255 < C.length
  · rw [verify_long H u hC, verify_long H u hC]
  have e : ∀ S, (R ++ leBytes 57 S).take 57 = R ∧ (R ++ leBytes 57 S).drop 57 = leBytes 57 S :=
    fun S => ⟨by rw [List.take_append_of_le_length (by omega), List.take_of_length_le (by omega)],
      by rw [List.drop_append_of_le_length (by omega), List.drop_of_length_le (by omega),
        List.nil_append]⟩
  have e2 : ∀ S, S < 2 ^ 448 → leNat ((leBytes 57 S).take 56) = S := fun S hS => by
    rw [leNat_take, leNat_leBytes, Nat.mod_eq_of_lt, Nat.mod_eq_of_lt]
    · exact hS.trans (by norm_num)
    · exact lt_of_le_of_lt (Nat.mod_le _ _) (hS.trans_eq (by norm_num))
  have e3 : ∀ a b, div4 a b (leBytes 57 (S + ell)) = div4 a b (leBytes 57 S) := fun a b => by
    rw [(div4_eq a b _ (by rw [e2 _ hS]; exact h2)).1, e2 _ hS, h,
      (div4_eq a b _ (by rw [e2 _ (by omega)]; exact h1)).1, e2 _ (by omega)]
  have e4 : ∀ a b c d k A, double_point_mult_4w a b c d (leBytes 57 (S + ell)) k A =
      double_point_mult_4w a b c d (leBytes 57 S) k A := fun a b c d k A => by
    unfold double_point_mult_4w; rw [e3]
  rw [verify_short H u hC, verify_short H u hC, (e _).1, (e _).1, (e _).2, (e _).2]
  generalize point_decoding pk = o
  rcases o with _ | ⟨A, A2⟩
  · rfl
  · simp only [e4]

end Verif.Ed448
