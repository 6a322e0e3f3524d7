import Verif.Ed25519.WitnessSign
import Verif.Props.Ed25519Point
import Mathlib.GroupTheory.OrderOfElement

/-!
# Properties of Ed25519: C28 to C33, C53

`apiKeygen`, `apiSign` and `apiVerify` model the functions of the three schemes of the structure
`Ed25519`; the words of RFC 8032 are in `Verif/Ed25519/EddsaSpec.lean`.  `H` is any function
returning 64 bytes, SHA-512 in the library.
-/

namespace Verif.Ed25519

open Verif.Fp25519

set_option exponentiation.threshold 2000

/-! ## C53: key generation -/

/-- C53.  The public key is the encoding of s·B, s the clamped secret scalar, for every private
key and every hash function. -/
theorem C53_keygen (H : List Byte → List Byte) (isa : Isa) (mode : Mode) (sk : List Byte)
    (hH : (H sk).length = 64) :
    apiKeygen H isa mode sk = (.KEYGEN_OK, encode (secretScalar (H sk) • B)) := by
  unfold apiKeygen keygen
  simp only
  rw [point_encoding_spec isa (keygen_mult hH)]

/-! ## C33: what is hashed and what is returned -/

/-- C33.  For every hash function, message, context, public key and private key, signing
succeeds (unless the context is refused) and returns R ‖ S where R is the encoding of r·B, r the
nonce of RFC 8032, and S, 32 bytes, is (r + k s) mod l, k the challenge of RFC 8032, whenever the
two reductions, the product and the final reduction are not in the rare cases of C21 and C22. -/
theorem C33_sign (H : List Byte → List Byte) (hH : ∀ m, (H m).length = 64) (isa : Isa)
    (mode : Mode) (M C pk sk : List Byte) (hC : mode = .Pure ∨ C.length ≤ 255) :
    ∃ S : List Byte, S.length = 32 ∧
      apiSign H isa mode M C pk sk =
        (.SIGNATURE_OK, some (encode (nonce H mode sk M C • B) ++ S)) ∧
      ∀ r k : ℕ, r = nonce H mode sk M C % ell →
        k = challenge H mode (encode (nonce H mode sk M C • B)) pk M C % ell →
        r < ell - 43 * (ell - 2 ^ 252) → k < ell - 43 * (ell - 2 ^ 252) →
        (r + k * secretScalar (H sk)) % ell < ell - 43 * (ell - 2 ^ 252) →
        NoOverflow r (words4 (leBytes 32 k)) (words4 (leBytes 32 (secretScalar (H sk)))) →
        S = leBytes 32 ((r + k * secretScalar (H sk)) % ell) := by
  have hC' : ¬ tooLong mode C := by
    rintro ⟨h1, h2⟩
    rcases hC with h | h
    · exact h1 h
    · omega
  refine ⟨_, ?_, sign_short hH isa hC', ?_⟩
  · exact F8.lowBytes_length _
  · rintro r k hr hk br bk bs hno
    obtain ⟨c1, c2, -⟩ := clampDigest_take _ (hH sk)
    have ec : (clampDigest (H sk)).take 32 = leBytes 32 (secretScalar (H sk)) := by
      have := leBytes_leNat ((clampDigest (H sk)).take 32)
      rw [c1, c2] at this
      exact this.symm
    have er := reduceBytes_eq (hH (dom2 mode C ++ (H sk).drop 32 ++ PH H mode M))
      (by rw [hr] at br; exact br)
    have ek := reduceBytes_eq (hH (dom2 mode C ++ encode (nonce H mode sk M C • B) ++ pk ++
      PH H mode M)) (by rw [hk] at bk; exact bk)
    change _ = leBytes 32 (nonce H mode sk M C % ell) at er
    change _ = leBytes 32 (challenge H mode (encode (nonce H mode sk M C • B)) pk M C % ell) at ek
    rw [er, ek, ec, ← hr, ← hk]
    have lr : r < ell := lt_of_lt_of_le br (Nat.sub_le _ _)
    have lk : k < ell := lt_of_lt_of_le bk (Nat.sub_le _ _)
    have la : leNat (leBytes 32 (secretScalar (H sk))) = secretScalar (H sk) := by
      rw [← ec, c2]
    have h := C23_response_partial (leBytes 32 r) (leBytes 32 k) (leBytes 32 (secretScalar (H sk)))
      (by simp) (by simp) (by simp) (by rw [leNat_leBytes_ell lr]; exact hno)
      (by rw [leNat_leBytes_ell lr, leNat_leBytes_ell lk, la]; exact bs)
    rw [leNat_leBytes_ell lr, leNat_leBytes_ell lk, la] at h
    rw [← h.2]
    conv_lhs => rw [← leBytes_leNat (calculate_s _ _ _), h.1]

/-- C33.  The signature depends on the private key only through its digest, and on the build not
at all. -/
theorem C33_deterministic (H : List Byte → List Byte) (hH : ∀ m, (H m).length = 64)
    (isa isa' : Isa) (mode : Mode) (M C pk sk sk' : List Byte) (h : H sk = H sk') :
    apiSign H isa mode M C pk sk = apiSign H isa' mode M C pk sk' := by
  by_cases hC : tooLong mode C
  · rw [sign_long H isa hC, sign_long H isa' hC]
  · rw [sign_short hH isa hC, sign_short hH isa' hC]
    unfold nonce
    rw [h]

/-! ## C32: contexts -/

/-- C32.  In the modes with a context, signing and verification return the context error exactly
when the context is longer than 255 bytes, and then no signature is written. -/
theorem C32_context_error (H : List Byte → List Byte) (hH : ∀ m, (H m).length = 64) (isa : Isa)
    (mode : Mode) (hm : mode ≠ .Pure) (M C pk sk sig : List Byte) :
    ((apiSign H isa mode M C pk sk).1 = .ERROR_CONTEXT ↔ 255 < C.length) ∧
    (255 < C.length → (apiSign H isa mode M C pk sk).2 = none) ∧
    (apiVerify H isa mode M C pk sig = .ERROR_CONTEXT ↔ 255 < C.length) := by
  by_cases h : 255 < C.length
  · have hC : tooLong mode C := ⟨hm, h⟩
    simp [sign_long H isa hC, verify_long H isa hC, h]
  · have hC : ¬ tooLong mode C := fun hc => h hc.2
    refine ⟨?_, fun hc => absurd hc h, ?_⟩
    · rw [sign_short hH isa hC]
      simp [h]
    · rw [verify_short H isa hC]
      split <;> simp [h]

/-- C32.  What is hashed after the domain prefix, the mode and the context can be read off the
hashed string: no two different (mode, context, rest) give the same string. -/
theorem C32_separation (m m' : Mode) (hm : m ≠ .Pure) (hm' : m' ≠ .Pure) (C C' x x' : List Byte)
    (hC : C.length ≤ 255) (hC' : C'.length ≤ 255) (h : dom2 m C ++ x = dom2 m' C' ++ x') :
    m = m' ∧ C = C' ∧ x = x' := by
  have key : ∀ (f f' : Byte), prefix32 ++ [f] ++ [BitVec.ofNat 8 C.length] ++ C ++ x =
      prefix32 ++ [f'] ++ [BitVec.ofNat 8 C'.length] ++ C' ++ x' → f = f' ∧ C = C' ∧ x = x' := by
    intro f f' h
    simp only [List.append_assoc] at h
    have h := List.append_cancel_left h
    simp only [List.cons_append, List.nil_append, List.cons.injEq] at h
    obtain ⟨h1, h2, h3⟩ := h
    have hl : C.length = C'.length := by
      have := congrArg BitVec.toNat h2
      rw [BitVec.toNat_ofNat, BitVec.toNat_ofNat] at this
      omega
    obtain ⟨h4, h5⟩ := List.append_inj h3 hl
    exact ⟨h1, h4, h5⟩
  cases m <;> cases m' <;> first
    | exact absurd rfl hm
    | exact absurd rfl hm'
    | (simp only [dom2, ascii_prefix] at h
       have := key _ _ h
       simp at this
       try exact ⟨rfl, this⟩)

/-- C32.  Nor does the string hashed for the challenge of a signature in pure mode, which begins
with the encoding of a point, equal one hashed in another mode: the prefix is not the encoding
of a point. -/
theorem C32_pure_separation (m : Mode) (hm : m ≠ .Pure) (C x x' : List Byte) (R : Pt) :
    dom2 .Pure C ++ encode R ++ x ≠ dom2 m C ++ x' := by
  intro h
  have hnd : encode R = prefix32 := by
    cases m
    · exact absurd rfl hm
    all_goals
      simp only [dom2, ascii_prefix, List.append_assoc, List.nil_append] at h
      exact (List.append_inj h (by rw [encode_length]; rfl)).1
  have hd := decodes_encode R
  rw [hnd] at hd
  exact not_decodes (y := leNat prefix32)
    (t := 45465922347457425197818596107477687857067366787875377523155267782216624485535)
    (by decide +kernel) (by decide +kernel) (by decide +kernel) (by decide +kernel) R hd

/-- Non-vacuity: the two modes do differ in one byte. -/
example : dom2 .PreHash [1, 2] = ascii "SigEd25519 no Ed25519 collisions" ++ [1, 2, 1, 2] ∧
    dom2 .Context [1, 2] = ascii "SigEd25519 no Ed25519 collisions" ++ [0, 2, 1, 2] := by
  decide +kernel

/-! ## Builds -/

/-- The three functions do not depend on the instructions for which the library was compiled. -/
theorem C30_builds_agree (H : List Byte → List Byte) (isa isa' : Isa) (mode : Mode) :
    apiKeygen H isa mode = apiKeygen H isa' mode ∧ apiSign H isa mode = apiSign H isa' mode ∧
      apiVerify H isa mode = apiVerify H isa' mode := by
  refine ⟨?_, ?_, ?_⟩
  · funext sk
    unfold apiKeygen keygen
    rw [isa_encoding isa isa']
  · funext M C pk sk
    rw [apiSign_eq, apiSign_eq]
    unfold sign_all
    rw [isa_encoding isa isa']
  · funext M C pk sig
    rw [apiVerify_eq, apiVerify_eq]
    unfold verify_all
    rw [isa_decoding isa isa', isa_double_mult isa isa']

/-! ## C30: verification -/

/-- C30, partial.  When the public key is the encoding of a point A, verification accepts exactly
the signatures whose first half is the encoding of S·B - k·A, for k the challenge reduced modulo
the order, provided the reduction of the challenge is not in the rare case of C21, S is not an odd
number above 2^256 - 64, and no addition of the double multiplication underflows (`DmOk`, which
can be evaluated).  Missing: the excluded inputs; on some of them the equivalence fails. -/
theorem C30_verify_partial (H : List Byte → List Byte) (hH : ∀ m, (H m).length = 64) (isa : Isa)
    (mode : Mode) (M C pk sig : List Byte) (hC : mode = .Pure ∨ C.length ≤ 255)
    (hpk : pk.length = 32) (hsig : sig.length = 64) (A : Pt) (hA : Decodes pk A)
    (hS : leNat (sig.drop 32) % 2 = 0 ∨ leNat (sig.drop 32) + 64 ≤ 2 ^ 256)
    (hk : challenge H mode (sig.take 32) pk M C % ell < ell - 43 * (ell - 2 ^ 252))
    (hok : DmOk (sig.drop 32) (leBytes 32 (challenge H mode (sig.take 32) pk M C % ell))
      (point_decoding isa pk).1) :
    apiVerify H isa mode M C pk sig = .VERIFICATION_OK ↔
      sig.take 32 = encode (leNat (sig.drop 32) • B -
        (challenge H mode (sig.take 32) pk M C % ell) • A) := by
  refine verify_iff hH isa ?_ hpk hsig hA hS hk hok
  rintro ⟨h1, h2⟩
  rcases hC with h | h
  · exact h1 h
  · omega

/-- A function standing for the hash, which answers by the length of its argument: the digest of
a 32-byte private key, of 32 bytes and a one-byte message, and of the rest. -/
def toyHash (a r k : ℕ) (m : List Byte) : List Byte :=
  if m.length = 32 then leBytes 64 a else if m.length = 33 then leBytes 64 r else leBytes 64 k

theorem toyHash_length (a r k : ℕ) (m : List Byte) : (toyHash a r k m).length = 64 := by
  unfold toyHash; split_ifs <;> simp

theorem toyHash_other {a r k : ℕ} {m : List Byte} (h : 64 ≤ m.length) :
    toyHash a r k m = leBytes 64 k := by
  unfold toyHash; rw [if_neg (by omega), if_neg (by omega)]

theorem toy_challenge {a r k : ℕ} (hk : k < 2 ^ 512) {R pk M C : List Byte} (hR : R.length = 32)
    (hpk : pk.length = 32) : challenge (toyHash a r k) .Pure R pk M C = k := by
  unfold challenge
  rw [toyHash_other (by simp [hR, hpk]; omega), leNat_leBytes, Nat.mod_eq_of_lt (by norm_num at *; exact hk)]

theorem sig_take (A : Pt) (S : List Byte) : (encode A ++ S).take 32 = encode A := by
  rw [List.take_append_of_le_length (by rw [encode_length]),
    List.take_of_length_le (by rw [encode_length])]

theorem sig_drop (A : Pt) (S : List Byte) : (encode A ++ S).drop 32 = S := by
  rw [List.drop_append_of_le_length (by rw [encode_length]),
    List.drop_of_length_le (by rw [encode_length]), List.nil_append]

theorem nsmul_plus (m n : ℕ) (A : Pt) : (m + n) • A = m • A + n • A := add_smul m n A
theorem nsmul_times (m n : ℕ) (A : Pt) : (m * n) • A = m • n • A := mul_smul m n A
theorem nsmul_minus (m : ℕ) (A : Pt) : m • -A = -(m • A) := smul_neg m A
theorem nsmul_null (m : ℕ) : m • (0 : Pt) = 0 := smul_zero m

theorem badR_of {S k : ℕ} (hS : S = 15 * 2 ^ 120) (hk : k = 2 ^ 120) :
    badR = S • B - k • badKey := by
  unfold badR
  rw [← hS, ← hk, nsmul_minus, sub_eq_add_neg]

theorem toy_verify_wrong (isa : Isa) (a r : ℕ) (M : List Byte) :
    apiVerify (toyHash a r (2 ^ 120)) isa .Pure M [] (encode badKey)
      (encode badR ++ leBytes 32 (15 * 2 ^ 120)) = .INVALID_SIGNATURE := by
  rw [verify_short _ isa (by simp [tooLong])]
  rw [sig_take, sig_drop, toyHash_other (by simp [encode_length]; omega)]
  have e3 : reduceBytes (leBytes 64 (2 ^ 120)) = leBytes 32 (2 ^ 120) := by decide +kernel
  rw [e3, List.take_of_length_le (l := leBytes 32 _) (by simp)]
  rw [List.take_of_length_le (by rw [double_point_mult_4w, point_encoding_length]),
    if_neg (badMultLong isa)]

/-- C30 fails without those conditions: for this hash function, public key and message, the
signature satisfies the equation R = S·B - k·A and is refused. -/
theorem C30_verify_wrong (isa : Isa) : ∃ (H : List Byte → List Byte) (M pk sig : List Byte)
    (A : Pt), (∀ m, (H m).length = 64) ∧ pk.length = 32 ∧ sig.length = 64 ∧ pk = encode A ∧
    leNat (sig.drop 32) < ell ∧ challenge H .Pure (sig.take 32) pk M [] < ell ∧
    sig.take 32 = encode (leNat (sig.drop 32) • B -
      challenge H .Pure (sig.take 32) pk M [] • A) ∧
    apiVerify H isa .Pure M [] pk sig = .INVALID_SIGNATURE := by
  have e3 : leNat (leBytes 32 (15 * 2 ^ 120)) = 15 * 2 ^ 120 := by
    rw [leNat_leBytes, Nat.mod_eq_of_lt (by norm_num)]
  have e4 := toy_challenge (a := 0) (r := 0) (k := 2 ^ 120) (by norm_num) (encode_length badR)
    (encode_length badKey) (M := []) (C := [])
  refine ⟨toyHash 0 0 (2 ^ 120), [], encode badKey, encode badR ++ leBytes 32 (15 * 2 ^ 120), badKey,
    toyHash_length _ _ _, encode_length _, by simp [encode_length], rfl, ?_, ?_, ?_,
    toy_verify_wrong isa 0 0 []⟩
  · rw [sig_drop, e3]; norm_num
  · rw [sig_take, e4]; norm_num
  · rw [sig_take, sig_drop]
    exact congrArg encode (badR_of e3 e4)

/-- The conditions of the partial theorem are met for the public key 85629·B, S = 1000 and a
challenge 77, and the signature is accepted. -/
theorem toy_verify_good (isa : Isa) (a r S : ℕ) (M : List Byte) (hS : S + 64 ≤ 2 ^ 256)
    (hok : DmOk (leBytes 32 S) (leBytes 32 77) (point_decoding isa (encode badKey)).1) :
    apiVerify (toyHash a r 77) isa .Pure M [] (encode badKey)
      (encode (S • B - 77 • badKey) ++ leBytes 32 S) = .VERIFICATION_OK := by
  have e4 := toy_challenge (a := a) (r := r) (k := 77) (by norm_num)
    (encode_length (S • B - 77 • badKey)) (encode_length badKey) (M := M) (C := [])
  have e5 : 77 % ell = 77 := Nat.mod_eq_of_lt (by norm_num)
  have e3 : leNat (leBytes 32 S) = S := by
    rw [leNat_leBytes, Nat.mod_eq_of_lt]
    refine lt_of_lt_of_le (Nat.lt_add_of_pos_right (by norm_num : 0 < 64)) (hS.trans (by norm_num))
  have h := C30_verify_partial (toyHash a r 77) (toyHash_length _ _ _) isa .Pure M []
    (encode badKey) (encode (S • B - 77 • badKey) ++ leBytes 32 S) (Or.inl rfl) (encode_length _)
    (by simp [encode_length]) badKey (decodes_encode _)
  rw [sig_take, sig_drop, e4, e5, e3] at h
  exact (h (Or.inr hS) (by norm_num) hok).2 rfl

example (isa : Isa) : apiVerify (toyHash 0 0 77) isa .Pure [] [] (encode badKey)
    (encode (1000 • B - 77 • badKey) ++ leBytes 32 1000) = .VERIFICATION_OK :=
  toy_verify_good isa 0 0 1000 [] (by norm_num) (goodMult isa)

/-! ## C29: signatures verify -/

/-- The rare cases of C21, C22 and of the double multiplication do not occur for this key,
message and context. -/
structure Regular (H : List Byte → List Byte) (isa : Isa) (mode : Mode) (M C sk : List Byte)
    (r k s : ℕ) : Prop where
  hr : r = nonce H mode sk M C % ell
  hk : k = challenge H mode (encode (nonce H mode sk M C • B)) (encode (secretScalar (H sk) • B))
    M C % ell
  hs : s = (r + k * secretScalar (H sk)) % ell
  nonce_small : r < ell - 43 * (ell - 2 ^ 252)
  challenge_small : k < ell - 43 * (ell - 2 ^ 252)
  response_small : s < ell - 43 * (ell - 2 ^ 252)
  no_carry : NoOverflow r (words4 (leBytes 32 k)) (words4 (leBytes 32 (secretScalar (H sk))))
  no_borrow : DmOk (leBytes 32 s) (leBytes 32 k)
    (point_decoding isa (encode (secretScalar (H sk) • B))).1

/-- C29, partial.  For every hash function, private key, message and context (of at most 255
bytes in the modes with a context), outside the rare cases above: signing with the generated
public key succeeds and the signature verifies in the same mode.  Missing: the rare cases; in
some of them the signature does not verify (next theorem). -/
theorem C29_verifies_partial (H : List Byte → List Byte) (hH : ∀ m, (H m).length = 64) (isa : Isa)
    (mode : Mode) (M C sk : List Byte) (hC : mode = .Pure ∨ C.length ≤ 255) (r k s : ℕ)
    (hreg : Regular H isa mode M C sk r k s) :
    ∃ sig, apiSign H isa mode M C (apiKeygen H isa mode sk).2 sk = (.SIGNATURE_OK, some sig) ∧
      apiVerify H isa mode M C (apiKeygen H isa mode sk).2 sig = .VERIFICATION_OK := by
  rw [C53_keygen H isa mode sk (hH sk)]
  simp only
  obtain ⟨S, hSl, hsign, hS⟩ := C33_sign H hH isa mode M C (encode (secretScalar (H sk) • B)) sk hC
  have hS := hS r k hreg.hr hreg.hk hreg.nonce_small hreg.challenge_small
    (hreg.hs ▸ hreg.response_small) hreg.no_carry
  rw [← hreg.hs] at hS
  refine ⟨_, hsign, ?_⟩
  have ls : s < ell := lt_of_lt_of_le hreg.response_small (Nat.sub_le _ _)
  have e1 : (encode (nonce H mode sk M C • B) ++ S).take 32 = encode (nonce H mode sk M C • B) := by
    rw [List.take_append_of_le_length (by rw [encode_length]),
      List.take_of_length_le (by rw [encode_length])]
  have e2 : (encode (nonce H mode sk M C • B) ++ S).drop 32 = leBytes 32 s := by
    rw [List.drop_append_of_le_length (by rw [encode_length]),
      List.drop_of_length_le (by rw [encode_length]), List.nil_append, hS]
  refine (C30_verify_partial H hH isa mode M C _ _ hC (encode_length _)
    (by simp [encode_length, hSl]) _ (decodes_encode _) ?_ ?_ ?_).2 ?_
  · rw [e2, leNat_leBytes_ell ls]
    right
    refine (Nat.add_le_add_right ls.le _).trans (by norm_num)
  · rw [e1, ← hreg.hk]; exact hreg.challenge_small
  · rw [e1, e2, ← hreg.hk]; exact hreg.no_borrow
  · rw [e1, e2, ← hreg.hk, leNat_leBytes_ell ls, hreg.hs, mod_ell_smul, add_smul, mul_smul,
      add_sub_cancel_right, hreg.hr, mod_ell_smul]

theorem toy_key (a r k : ℕ) (ha : a = 7 * ell + 85629) :
    encode (secretScalar (toyHash a r k (leBytes 32 0)) • B) = encode badKey := by
  have hk0 : toyHash a r k (leBytes 32 0) = leBytes 64 a := rfl
  have hsc : secretScalar (leBytes 64 (7 * ell + 85629)) = 7 * ell + 85629 := by decide +kernel
  rw [hk0, ha, hsc]
  refine congrArg encode ?_
  rw [nsmul_plus, nsmul_times, ell_B, nsmul_null, zero_add, badKey]

/-- Non-vacuity: the conditions are met by the private scalar 7 l + 85629, the nonce 1000 and the
challenge 77. -/
example (isa : Isa) : Regular (toyHash (7 * ell + 85629) 1000 77) isa .Pure [0] [] (leBytes 32 0)
    1000 77 6594433 := by
  have hn : nonce (toyHash (7 * ell + 85629) 1000 77) .Pure (leBytes 32 0) [0] [] = 1000 := by
    show leNat (leBytes 64 1000) = 1000
    decide +kernel
  have hs : secretScalar (toyHash (7 * ell + 85629) 1000 77 (leBytes 32 0)) = 7 * ell + 85629 := by
    decide +kernel
  refine ⟨?_, ?_, ?_, by norm_num, by norm_num, by norm_num, ?_, ?_⟩
  · rw [hn]; norm_num
  · rw [toy_challenge (by norm_num) (encode_length _) (encode_length _)]; norm_num
  · rw [hs]; norm_num
  · rw [hs]
    have e : 1000 = wval (words4 (leBytes 32 1000) ++ List.replicate 8 0#64) := by decide +kernel
    rw [e]
    refine (C22_multiplier _ _ _ (by simp [words4])).2.2.mp ?_
    decide +kernel
  · rw [toy_key _ _ _ rfl]
    exact goodMultSign isa

/-- C29 fails without those conditions: there are a function in place of the hash, a private key
and a message such that the signature made with the key pair does not verify.  (The private
scalar is 7 l + 85629, the challenge 2^120 and the nonce such that S = 15·2^120.) -/
theorem C29_verifies_wrong (isa : Isa) : ∃ (H : List Byte → List Byte) (M sk sig : List Byte),
    (∀ m, (H m).length = 64) ∧ sk.length = 32 ∧
    apiSign H isa .Pure M [] (apiKeygen H isa .Pure sk).2 sk = (.SIGNATURE_OK, some sig) ∧
    apiVerify H isa .Pure M [] (apiKeygen H isa .Pure sk).2 sig = .INVALID_SIGNATURE := by
  let a := 7 * ell + 85629
  let r := ell + 15 * 2 ^ 120 - 2 ^ 120 * 85629
  have hpk := toy_key a r (2 ^ 120) rfl
  have hn : nonce (toyHash a r (2 ^ 120)) .Pure (leBytes 32 0) [0] [] = r := by
    show leNat (leBytes 64 r) = r
    decide +kernel
  have hR : encode (nonce (toyHash a r (2 ^ 120)) .Pure (leBytes 32 0) [0] [] • B) =
      encode badR := by
    rw [hn]
    refine congrArg encode ?_
    have e : r + 2 ^ 120 * 85629 = ell + 15 * 2 ^ 120 := by decide +kernel
    rw [badR_of rfl rfl, eq_sub_iff_add_eq, badKey, ← nsmul_times, ← nsmul_plus, e, nsmul_plus,
      ell_B, zero_add]
  refine ⟨toyHash a r (2 ^ 120), [0], leBytes 32 0, encode badR ++ leBytes 32 (15 * 2 ^ 120),
    toyHash_length _ _ _, by simp, ?_, ?_⟩
  · rw [C53_keygen _ _ _ _ (toyHash_length _ _ _ _), sign_short (toyHash_length _ _ _) isa
      (by simp [tooLong]), hpk, hR]
    have e3 : toyHash a r (2 ^ 120) (dom2 .Pure [] ++ encode badR ++ encode badKey ++
        PH (toyHash a r (2 ^ 120)) .Pure [0]) = leBytes 64 (2 ^ 120) :=
      toyHash_other (by simp [encode_length]; omega)
    rw [e3]
    have e4 : calculate_s (reduceBytes (leBytes 64 r)) (reduceBytes (leBytes 64 (2 ^ 120)))
        ((clampDigest (leBytes 64 a)).take 32) = leBytes 32 (15 * 2 ^ 120) := by decide +kernel
    show (Status.SIGNATURE_OK, some (_ ++ calculate_s (reduceBytes (leBytes 64 r))
      (reduceBytes (leBytes 64 (2 ^ 120))) ((clampDigest (leBytes 64 a)).take 32))) = _
    rw [e4]
  · rw [C53_keygen _ _ _ _ (toyHash_length _ _ _ _), hpk]
    exact toy_verify_wrong isa a r [0]

/-! ## C31: malleability -/

/-- C31 fails: S + l is accepted whenever S is, when neither computation underflows. -/
theorem C31_malleable (H : List Byte → List Byte) (hH : ∀ m, (H m).length = 64) (isa : Isa)
    (mode : Mode) (M C pk R : List Byte) (S : ℕ) (hC : mode = .Pure ∨ C.length ≤ 255)
    (hpk : pk.length = 32) (hR : R.length = 32) (A : Pt) (hA : Decodes pk A)
    (hS : S + ell + 64 ≤ 2 ^ 256)
    (hk : challenge H mode R pk M C % ell < ell - 43 * (ell - 2 ^ 252))
    (hok : DmOk (leBytes 32 S) (leBytes 32 (challenge H mode R pk M C % ell))
      (point_decoding isa pk).1)
    (hok' : DmOk (leBytes 32 (S + ell)) (leBytes 32 (challenge H mode R pk M C % ell))
      (point_decoding isa pk).1) :
    apiVerify H isa mode M C pk (R ++ leBytes 32 S) = .VERIFICATION_OK ↔
      apiVerify H isa mode M C pk (R ++ leBytes 32 (S + ell)) = .VERIFICATION_OK := by
  have e1 : ∀ x, (R ++ leBytes 32 x).take 32 = R := fun x => by
    rw [List.take_append_of_le_length (by omega), List.take_of_length_le (by omega)]
  have e2 : ∀ x, (R ++ leBytes 32 x).drop 32 = leBytes 32 x := fun x => by
    rw [List.drop_append_of_le_length (by omega), List.drop_of_length_le (by omega),
      List.nil_append]
  have e3 : leNat (leBytes 32 S) = S := by
    rw [leNat_leBytes, Nat.mod_eq_of_lt]; norm_num at *; omega
  have e4 : leNat (leBytes 32 (S + ell)) = S + ell := by
    rw [leNat_leBytes, Nat.mod_eq_of_lt]; norm_num at *; omega
  have h1 := C30_verify_partial H hH isa mode M C pk (R ++ leBytes 32 S) hC hpk (by simp [hR]) A hA
    (by rw [e2, e3]; right; omega) (by rw [e1]; exact hk) (by rw [e1, e2]; exact hok)
  have h2 := C30_verify_partial H hH isa mode M C pk (R ++ leBytes 32 (S + ell)) hC hpk
    (by simp [hR]) A hA (by rw [e2, e4]; right; omega) (by rw [e1]; exact hk)
    (by rw [e1, e2]; exact hok')
  rw [h1, h2, e1, e1, e2, e2, e3, e4, add_smul, ell_B, add_zero]

/-- C31 fails: two different signatures with the same R are accepted for one key and message. -/
theorem C31_wrong : ∃ (H : List Byte → List Byte) (M pk R : List Byte) (A : Pt) (S : ℕ),
    (∀ m, (H m).length = 64) ∧ R.length = 32 ∧ pk = encode A ∧ S < ell ∧ ∀ isa,
    apiVerify H isa .Pure M [] pk (R ++ leBytes 32 S) = .VERIFICATION_OK ∧
    apiVerify H isa .Pure M [] pk (R ++ leBytes 32 (S + ell)) = .VERIFICATION_OK := by
  refine ⟨toyHash 0 0 77, [], encode badKey, encode (1000 • B - 77 • badKey), badKey, 1000,
    toyHash_length _ _ _, encode_length _, rfl, by norm_num, fun isa => ⟨?_, ?_⟩⟩
  · exact toy_verify_good isa 0 0 1000 [] (by norm_num) (goodMult isa)
  · have := toy_verify_good isa 0 0 (1000 + ell) [] (by norm_num) (goodMultLarge isa)
    rwa [add_smul, ell_B, add_zero] at this

theorem addOrderOf_B : addOrderOf B = ell :=
  haveI := Fact.mk C21_ell_prime
  addOrderOf_eq_prime ell_B B_ne

/-- C31, the part that holds: two accepted S for the same R, key and message are congruent
modulo l, when neither computation underflows. -/
theorem C31_unique_partial (H : List Byte → List Byte) (hH : ∀ m, (H m).length = 64) (isa : Isa)
    (mode : Mode) (M C pk R : List Byte) (S S' : ℕ) (hC : mode = .Pure ∨ C.length ≤ 255)
    (hpk : pk.length = 32) (hR : R.length = 32) (A : Pt) (hA : Decodes pk A)
    (hS : S + 64 ≤ 2 ^ 256) (hS' : S' + 64 ≤ 2 ^ 256)
    (hk : challenge H mode R pk M C % ell < ell - 43 * (ell - 2 ^ 252))
    (hok : DmOk (leBytes 32 S) (leBytes 32 (challenge H mode R pk M C % ell))
      (point_decoding isa pk).1)
    (hok' : DmOk (leBytes 32 S') (leBytes 32 (challenge H mode R pk M C % ell))
      (point_decoding isa pk).1)
    (h : apiVerify H isa mode M C pk (R ++ leBytes 32 S) = .VERIFICATION_OK)
    (h' : apiVerify H isa mode M C pk (R ++ leBytes 32 S') = .VERIFICATION_OK) :
    S ≡ S' [MOD ell] := by
  have e1 : ∀ x, (R ++ leBytes 32 x).take 32 = R := fun x => by
    rw [List.take_append_of_le_length (by omega), List.take_of_length_le (by omega)]
  have e2 : ∀ x, (R ++ leBytes 32 x).drop 32 = leBytes 32 x := fun x => by
    rw [List.drop_append_of_le_length (by omega), List.drop_of_length_le (by omega),
      List.nil_append]
  have e3 : leNat (leBytes 32 S) = S := by
    rw [leNat_leBytes, Nat.mod_eq_of_lt]; norm_num at *; omega
  have e4 : leNat (leBytes 32 S') = S' := by
    rw [leNat_leBytes, Nat.mod_eq_of_lt]; norm_num at *; omega
  have h1 := C30_verify_partial H hH isa mode M C pk (R ++ leBytes 32 S) hC hpk (by simp [hR]) A hA
    (by rw [e2, e3]; right; omega) (by rw [e1]; exact hk) (by rw [e1, e2]; exact hok)
  have h2 := C30_verify_partial H hH isa mode M C pk (R ++ leBytes 32 S') hC hpk
    (by simp [hR]) A hA (by rw [e2, e4]; right; omega) (by rw [e1]; exact hk)
    (by rw [e1, e2]; exact hok')
  have h1 := h1.1 h
  have h2 := h2.1 h'
  rw [e1, e2, e3] at h1
  rw [e1, e2, e4] at h2
  have h3 := sub_left_injective (encode_inj (h1.symm.trans h2))
  have := (nsmul_eq_nsmul_iff_modEq).1 h3
  rwa [addOrderOf_B] at this

/-! ## C28: public keys that are not points -/

/-- C28: verification never returns the public-key error. -/
theorem C28_verify_never_rejects_key (H : List Byte → List Byte) (isa : Isa) (mode : Mode)
    (M C pk sig : List Byte) : apiVerify H isa mode M C pk sig ≠ .ERROR_PUBLICKEY := by
  by_cases h : tooLong mode C
  · rw [verify_long H isa h]; simp
  · rw [verify_short H isa h]; split <;> simp

/-- C28: with a function in place of the hash whose value is zero, a signature under a
string that is not a point is even accepted. -/
theorem C28_accepts_non_point : ∃ (H : List Byte → List Byte) (pk sig : List Byte),
    (∀ m, (H m).length = 64) ∧ pk.length = 32 ∧ sig.length = 64 ∧ (∀ A : Pt, ¬ Decodes pk A) ∧
    ∀ isa M, apiVerify H isa .Pure M [] pk sig = .VERIFICATION_OK := by
  refine ⟨fun _ => leBytes 64 0, leBytes 32 2, leBytes 32 1 ++ leBytes 32 0, by simp, by simp,
    by simp, not_decodes_two, fun isa M => ?_⟩
  rw [verify_short _ isa (by simp [tooLong])]
  have e1 : reduceBytes (leBytes 64 0) = leBytes 32 0 := by decide +kernel
  have e2 : (leBytes 32 1 ++ leBytes 32 0).take 32 = leBytes 32 1 := rfl
  have e3 : ((leBytes 32 1 ++ leBytes 32 0).drop 32).take 32 = leBytes 32 0 := rfl
  rw [e1, e2, e3, zeroMult]
  rfl

end Verif.Ed25519
