import Verif.Props.EddsaMem
import Verif.Props.Ed448SignWitness
import Verif.X448.Order

/-!
# Signing with a public key that is not the signer's: C92

`sign` takes the public key from the caller and hashes it without a check.  Two signatures of one
message made with two public keys share their first half, the point R, and their second halves
give the private scalar away.
-/

namespace Verif.Ed25519

open Verif.Fp25519

set_option exponentiation.threshold 2000

/-- C92.  Whatever public keys are passed, two signatures of one message by one private key begin
with the same 32 bytes, in all builds. -/
theorem C92_same_R (H : List Byte → List Byte) (hH : ∀ m, (H m).length = 64) (isa isa' : Isa)
    (mode : Mode) (M C pk pk' sk : List Byte) (hC : mode = .Pure ∨ C.length ≤ 255) :
    ∃ R S S' : List Byte, R.length = 32 ∧ S.length = 32 ∧ S'.length = 32 ∧
      apiSign H isa mode M C pk sk = (.SIGNATURE_OK, some (R ++ S)) ∧
      apiSign H isa' mode M C pk' sk = (.SIGNATURE_OK, some (R ++ S')) := by
  obtain ⟨S, l, h, -⟩ := C33_sign H hH isa mode M C pk sk hC
  obtain ⟨S', l', h', -⟩ := C33_sign H hH isa' mode M C pk' sk hC
  exact ⟨_, S, S', encode_length _, l, l', h, h'⟩

/-- A difference of two challenges has an inverse. -/
theorem exists_inverse {k k' : ℕ} (hk : k < ell) (hk' : k' < ell) (hne : k ≠ k') :
    ∃ d : ℕ, d * k ≡ 1 + d * k' [MOD ell] := by
  obtain ⟨d, hd, -⟩ := two_responses (r := 0) (s := 0) rfl rfl hk hk' hne
  refine ⟨d.val, ?_⟩
  rw [← ZMod.natCast_eq_natCast_iff]
  push_cast
  rw [ZMod.natCast_zmod_val]
  linear_combination hd

/-- C92: what two such signatures give away.  When the challenges k and k', which anyone can
compute from R, the two public keys and the message, differ, the two responses S and S' determine
a scalar, (S - S') / (k - k'), that has the public key of the private key.  (Outside the rare cases
of C21 and C22.) -/
theorem C92_leak (H : List Byte → List Byte) (hH : ∀ m, (H m).length = 64)
    (mode mode' : Mode) (M C pk pk' sk : List Byte) (hC : mode = .Pure ∨ C.length ≤ 255)
    (R : List Byte) (r k k' s : ℕ) (hR : R = encode (nonce H mode sk M C • B))
    (hr : r = nonce H mode sk M C % ell) (hk : k = challenge H mode R pk M C % ell)
    (hk' : k' = challenge H mode R pk' M C % ell) (hs : s = secretScalar (H sk)) (hne : k ≠ k')
    (br : r < ell - 43 * (ell - 2 ^ 252))
    (bk : k < ell - 43 * (ell - 2 ^ 252)) (bk' : k' < ell - 43 * (ell - 2 ^ 252))
    (bs : (r + k * s) % ell < ell - 43 * (ell - 2 ^ 252))
    (bs' : (r + k' * s) % ell < ell - 43 * (ell - 2 ^ 252))
    (hno : NoOverflow r (words4 (leBytes 32 k)) (words4 (leBytes 32 s)))
    (hno' : NoOverflow r (words4 (leBytes 32 k')) (words4 (leBytes 32 s))) :
    ∃ S S' : ℕ,
      (∀ isa, apiSign H isa mode M C pk sk = (.SIGNATURE_OK, some (R ++ leBytes 32 S))) ∧
      (∀ isa, apiSign H isa mode M C pk' sk = (.SIGNATURE_OK, some (R ++ leBytes 32 S'))) ∧
      (∃ d : ℕ, d * k ≡ 1 + d * k' [MOD ell]) ∧
      ∀ t d : ℕ, d * k ≡ 1 + d * k' [MOD ell] → d * S ≡ t + d * S' [MOD ell] →
        ∀ isa, (apiKeygen H isa mode' sk).2 = encode (t • B) := by
  refine ⟨(r + k * s) % ell, (r + k' * s) % ell, fun isa => ?_, fun isa => ?_,
    exists_inverse (hk ▸ Nat.mod_lt _ (by norm_num)) (hk' ▸ Nat.mod_lt _ (by norm_num)) hne, ?_⟩
  · obtain ⟨S, -, h1, h2⟩ := C33_sign H hH isa mode M C pk sk hC
    rw [← hR, ← hs] at h2
    rw [h1, ← hR, h2 r k hr hk br bk bs hno]
  · obtain ⟨S, -, h1, h2⟩ := C33_sign H hH isa mode M C pk' sk hC
    rw [← hR, ← hs] at h2
    rw [h1, ← hR, h2 r k' hr hk' br bk' bs' hno']
  · intro t d h1 h2 isa
    rw [C53_keygen H isa mode' sk (hH _)]
    refine congrArg encode ?_
    rw [← hs, nsmul_eq_nsmul_iff_modEq, addOrderOf_B]
    rw [← ZMod.natCast_eq_natCast_iff] at h1 h2 ⊢
    push_cast [ZMod.natCast_mod] at h1 h2
    linear_combination (-(s : ZMod ell)) * h1 + h2

/-- The hash of the witness: the challenge is 77 for the right public key and 0 for others. -/
noncomputable def keyHash (m : List Byte) : List Byte :=
  if m.length = 32 then leBytes 64 (7 * ell + 85629) else if m.length = 33 then leBytes 64 1000 else
    if (m.drop 32).take 32 = encode badKey then leBytes 64 77 else leBytes 64 0

theorem keyHash_length (m : List Byte) : (keyHash m).length = 64 := by
  unfold keyHash; split_ifs <;> simp

/-- C92 is false of the code: for a hash function, a private key and a message, the signature made
with the public key of that private key and the one made with another string, both reported as
successful, give a scalar whose public key is that public key. -/
theorem C92_wrong : ∃ (H : List Byte → List Byte) (sk M pk pk' R : List Byte) (S S' k k' d : ℕ),
    (∀ m, (H m).length = 64) ∧ (∀ isa, pk = (apiKeygen H isa .Pure sk).2) ∧
    pk'.length = 32 ∧ pk' ≠ pk ∧
    k = challenge H .Pure R pk M [] ∧ k' = challenge H .Pure R pk' M [] ∧
    (∀ isa, apiSign H isa .Pure M [] pk sk = (.SIGNATURE_OK, some (R ++ leBytes 32 S)) ∧
      apiSign H isa .Pure M [] pk' sk = (.SIGNATURE_OK, some (R ++ leBytes 32 S'))) ∧
    d * k ≡ 1 + d * k' [MOD ell] ∧
    ∀ t : ℕ, d * S ≡ t + d * S' [MOD ell] → encode (t • B) = pk := by
  have hHs : keyHash (leBytes 32 0) = leBytes 64 (7 * ell + 85629) := by
    unfold keyHash; rw [if_pos (by simp)]
  have hsc : secretScalar (leBytes 64 (7 * ell + 85629)) = 7 * ell + 85629 := by decide +kernel
  have hn : nonce keyHash .Pure (leBytes 32 0) [0] [] = 1000 := by
    have e : keyHash (dom2 .Pure [] ++ (keyHash (leBytes 32 0)).drop 32 ++ PH keyHash .Pure [0]) =
        leBytes 64 1000 := by
      conv_lhs => unfold keyHash
      rw [if_neg (by rw [List.length_append, List.length_append, List.length_drop,
          ← keyHash, keyHash_length]; simp [dom2, PH]),
        if_pos (by rw [List.length_append, List.length_append, List.length_drop,
          ← keyHash, keyHash_length]; simp [dom2, PH])]
    rw [nonce, e]
    decide +kernel
  have hch : ∀ R pk : List Byte, R.length = 32 → pk.length = 32 →
      challenge keyHash .Pure R pk [0] [] = if pk = encode badKey then 77 else 0 := by
    intro R pk hR hpk
    have e : challenge keyHash .Pure R pk [0] [] = leNat (keyHash (R ++ pk ++ [0])) := rfl
    have e' : ((R ++ pk ++ [0]).drop 32).take 32 = pk := by
      rw [List.append_assoc, ← hR, List.drop_left, hR, ← hpk, List.take_left]
    rw [e, keyHash, if_neg (by simp [hR, hpk]), if_neg (by simp [hR, hpk]), e']
    split_ifs <;> decide +kernel
  have hno : ∀ k, k = 0 ∨ k = 77 →
      NoOverflow 1000 (words4 (leBytes 32 k)) (words4 (leBytes 32 (7 * ell + 85629))) := by
    intro k hk
    have e : 1000 = wval (words4 (leBytes 32 1000) ++ List.replicate 8 0#64) := by decide +kernel
    rw [e]
    refine (C22_multiplier _ _ _ (by simp [words4])).2.2.mp ?_
    rcases hk with rfl | rfl <;> decide +kernel
  have hg : ∀ isa, (apiKeygen keyHash isa .Pure (leBytes 32 0)).2 = encode badKey := by
    intro isa
    rw [C53_keygen _ _ _ _ (keyHash_length _), hHs, hsc]
    refine congrArg encode ?_
    rw [nsmul_plus, nsmul_times, ell_B, nsmul_null, zero_add, badKey]
  obtain ⟨pk', hl, hp⟩ : ∃ pk' : List Byte, pk'.length = 32 ∧ pk' ≠ encode badKey := by
    by_cases h : leBytes 32 0 = encode badKey
    · exact ⟨leBytes 32 1, leBytes_length _ _, by rw [← h]; decide +kernel⟩
    · exact ⟨leBytes 32 0, leBytes_length _ _, h⟩
  have c1 := hch (encode (1000 • B)) (encode badKey) (encode_length _) (encode_length _)
  have c2 := hch (encode (1000 • B)) pk' (encode_length _) hl
  rw [if_pos rfl] at c1
  rw [if_neg hp] at c2
  obtain ⟨S, S', h1, h2, ⟨d, hd⟩, h3⟩ := C92_leak keyHash keyHash_length .Pure .Pure [0] []
    (encode badKey) pk' (leBytes 32 0) (Or.inl rfl) (encode (1000 • B)) 1000 77 0
    (7 * ell + 85629) (by rw [hn]) (by rw [hn]; norm_num) (by rw [c1]; norm_num)
    (by rw [c2]; norm_num) (by rw [hHs, hsc]) (by norm_num) (by norm_num) (by norm_num)
    (by norm_num) (by norm_num) (by norm_num) (hno 77 (Or.inr rfl)) (hno 0 (Or.inl rfl))
  exact ⟨keyHash, leBytes 32 0, [0], encode badKey, pk', encode (1000 • B), S, S', 77, 0, d,
    keyHash_length, fun isa => (hg isa).symm, hl, hp, c1.symm, c2.symm,
    fun isa => ⟨h1 isa, h2 isa⟩, hd,
    fun t ht => (hg ⟨true, true⟩ ▸ h3 t d hd ht ⟨true, true⟩).symm⟩

end Verif.Ed25519

namespace Verif.Ed448

open Verif.Fp448

set_option exponentiation.threshold 2000

/-- C92 for Ed448, where the computations go right (`SignOk`): two signatures of one message made
with two public keys share R and, when the challenges are not congruent, give a scalar
(S - S') / (k - k') that is congruent to the private one modulo the order. -/
theorem C92_leak_448 (H : List Byte → ℕ → List Byte) (hH : ∀ m n, (H m n).length = n)
    (u u' : ℕ → W) (mode : Mode) (M C pk pk' sk : List Byte) (hC : C.length ≤ 255) (r k k' a : ℕ)
    (hr : r = nonce H mode sk M C) (hk : k = challenge H mode (encode (r • B)) pk M C)
    (hk' : k' = challenge H mode (encode (r • B)) pk' M C)
    (ha : a = secretScalar (H sk 114)) (hok : SignOk r k a) (hok' : SignOk r k' a)
    (hne : ¬ k ≡ k' [MOD ell]) :
    ∃ S S' : ℕ,
      apiSign H u mode M C pk sk = (.SIGNATURE_OK, some (encode (r • B) ++ leBytes 57 S)) ∧
      apiSign H u' mode M C pk' sk = (.SIGNATURE_OK, some (encode (r • B) ++ leBytes 57 S')) ∧
      (∃ d : ℕ, d * k ≡ 1 + d * k' [MOD ell]) ∧
      ∀ t d : ℕ, d * k ≡ 1 + d * k' [MOD ell] → d * S ≡ t + d * S' [MOD ell] →
        t ≡ a [MOD ell] ∧ t • B = a • B := by
  obtain ⟨S, -, c, -, h⟩ := C58_sign_partial H hH u mode M C pk sk hC r k a hr hk ha hok
  obtain ⟨S', -, c', -, h'⟩ := C58_sign_partial H hH u' mode M C pk' sk hC r k' a hr hk' ha hok'
  refine ⟨S, S', h, h', ?_, ?_⟩
  · have hp : Fact ell.Prime := ⟨X448.ell_prime⟩
    rw [← ZMod.natCast_eq_natCast_iff] at hne
    have h3 : (k : ZMod ell) - k' ≠ 0 := sub_ne_zero.2 hne
    refine ⟨(((k : ZMod ell) - k')⁻¹).val, ?_⟩
    rw [← ZMod.natCast_eq_natCast_iff]
    push_cast
    rw [ZMod.natCast_zmod_val]
    linear_combination inv_mul_cancel₀ h3
  · intro t d h1 h2
    have e : t ≡ a [MOD ell] := by
      rw [← ZMod.natCast_eq_natCast_iff] at h1 h2 c c' ⊢
      push_cast at h1 h2 c c'
      rw [c, c'] at h2
      linear_combination (a : ZMod ell) * h1 - h2
    exact ⟨e, modEq_smul e order_B⟩

/-- The hash of the example: the challenge is 5 for the public key of 57 zero bytes. -/
def keyHash (m : List Byte) (n : ℕ) : List Byte :=
  if m.length = 57 then leBytes n aGood else if m.length = 67 then leBytes n rGood else
    if (m.drop 67).take 57 = leBytes 57 0 then leBytes n 5 else leBytes n kNum

theorem keyHash_length (m : List Byte) (n : ℕ) : (keyHash m n).length = n := by
  unfold keyHash; split_ifs <;> simp

theorem sign_five : SignOk rGood 5 aGood := by
  obtain ⟨e1, -, -, -, -⟩ := red_aGood
  have e2 : red 5 = 5 := by decide +kernel
  refine ⟨reduce_small (by run_mult) (by run_mult) (by run_mult) (by run_mult),
    reduce_small (by run_mult) (by run_mult) (by run_mult) (by run_mult), by rw [e1]; exact rGood_mul,
    ?_, ?_⟩
  · rw [e1, e2]; run_mult
  · rw [e1, e2]
    exact reduce_small (by run_mult) (by run_mult) (by run_mult) (by run_mult)

/-- The conditions of C92 are met: the public key of 57 zero bytes beside another. -/
example (u u' : ℕ → W) : ∃ S S' d : ℕ,
    apiSign keyHash u .PureContext [] [] (leBytes 57 1) (leBytes 57 0) =
      (.SIGNATURE_OK, some (encode (rGood • B) ++ leBytes 57 S)) ∧
    apiSign keyHash u' .PureContext [] [] (leBytes 57 0) (leBytes 57 0) =
      (.SIGNATURE_OK, some (encode (rGood • B) ++ leBytes 57 S')) ∧
    d * kNum ≡ 1 + d * 5 [MOD ell] ∧
    ∀ t : ℕ, d * S ≡ t + d * S' [MOD ell] → t • B = aGood • B := by
  have hc : ∀ pk : List Byte, pk.length = 57 →
      challenge keyHash .PureContext (encode (rGood • B)) pk [] [] =
        if pk = leBytes 57 0 then 5 else kNum := by
    intro pk hpk
    have e : challenge keyHash .PureContext (encode (rGood • B)) pk [] [] =
        leNat (keyHash ((dom4 .PureContext [] ++ encode (rGood • B)) ++ pk ++ []) 114) := rfl
    have l : (dom4 .PureContext [] ++ encode (rGood • B)).length = 67 := by
      rw [List.length_append, encode_length]; rfl
    generalize dom4 .PureContext [] ++ encode (rGood • B) = x at *
    rw [e, List.append_nil]
    have e' : ((x ++ pk).drop 67).take 57 = pk := by
      rw [← l, List.drop_left, ← hpk, List.take_length]
    rw [keyHash, if_neg (by simp [l, hpk]), if_neg (by simp [l, hpk]), e']
    split_ifs <;> decide +kernel
  have hn : rGood = nonce keyHash .PureContext (leBytes 57 0) [] [] := by
    have e : (dom4 .PureContext [] ++ (keyHash (leBytes 57 0) 114).drop 57 ++
        PH keyHash .PureContext []).length = 67 := by
      simp only [List.length_append, List.length_drop, keyHash_length]
      rfl
    unfold nonce
    generalize dom4 .PureContext [] ++ (keyHash (leBytes 57 0) 114).drop 57 ++
        PH keyHash .PureContext [] = m at *
    unfold keyHash
    rw [if_neg (by omega), if_pos e]
    decide +kernel
  obtain ⟨S, S', h, h', ⟨d, hd⟩, ht⟩ := C92_leak_448 keyHash keyHash_length u u' .PureContext [] []
    (leBytes 57 1) (leBytes 57 0) (leBytes 57 0) (by simp) rGood kNum 5 aGood hn
    (by rw [hc _ (leBytes_length _ _), if_neg (by decide +kernel)])
    (by rw [hc _ (leBytes_length _ _), if_pos rfl]) (by decide +kernel) sign_good sign_five
    (by decide +kernel)
  exact ⟨S, S', d, h, h', hd, fun t h => (ht t d hd h).2⟩

end Verif.Ed448
