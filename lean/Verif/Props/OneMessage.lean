import Verif.Props.KeyUnique
import Verif.Props.Ed448SignWitness
import Verif.X448.Order

/-!
# A signature belongs to one message (C91)

Specification: `challenge` of RFC 8032 and the order of the group.
-/

namespace Verif.Ed25519

set_option exponentiation.threshold 600

open Verif.Fp25519

/-- The conditions of C30: the computation for this signature, message and key is not one of the
rare cases in which it goes wrong. -/
structure Usual (H : List Byte → List Byte) (isa : Isa) (mode : Mode) (M C pk sig : List Byte) :
    Prop where
  context : mode = .Pure ∨ C.length ≤ 255
  even : leNat (sig.drop 32) % 2 = 0 ∨ leNat (sig.drop 32) + 64 ≤ 2 ^ 256
  small : challenge H mode (sig.take 32) pk M C % ell < ell - 43 * (ell - 2 ^ 252)
  no_borrow : DmOk (sig.drop 32) (leBytes 32 (challenge H mode (sig.take 32) pk M C % ell))
    (point_decoding isa pk).1

/-- C91, partial (`Usual`).  A signature that is accepted for one message, context and mode is
accepted for another exactly when the two challenges, reduced, have the same multiple of the
public key. -/
theorem C91_messages_partial (H : List Byte → List Byte) (hH : ∀ m, (H m).length = 64)
    (isa isa' : Isa) (mode mode' : Mode) (M M' C C' pk sig : List Byte) (hpk : pk.length = 32)
    (hsig : sig.length = 64) (A : Pt) (hA : Decodes pk A) (u : Usual H isa mode M C pk sig)
    (u' : Usual H isa' mode' M' C' pk sig)
    (h : apiVerify H isa mode M C pk sig = .VERIFICATION_OK) :
    apiVerify H isa' mode' M' C' pk sig = .VERIFICATION_OK ↔
      (challenge H mode (sig.take 32) pk M C % ell) • A =
        (challenge H mode' (sig.take 32) pk M' C' % ell) • A := by
  have h1 := (C30_verify_partial H hH isa mode M C pk sig u.context hpk hsig A hA u.even u.small
    u.no_borrow).1 h
  rw [C30_verify_partial H hH isa' mode' M' C' pk sig u'.context hpk hsig A hA u'.even u'.small
    u'.no_borrow]
  constructor
  · intro h2
    exact sub_right_injective (encode_inj (h1.symm.trans h2))
  · intro h2
    rw [← h2]
    exact h1

/-- C91, partial (`Usual`).  Under a public key made by key generation, a signature that is
accepted for one message, context and mode is accepted for another exactly when the two challenges
are congruent modulo the order of the group. -/
theorem C91_generated_partial (H : List Byte → List Byte) (hH : ∀ m, (H m).length = 64)
    (isa isa' isa'' : Isa) (mode mode' mode'' : Mode) (M M' C C' sk pk sig : List Byte)
    (hpk : pk = (apiKeygen H isa'' mode'' sk).2) (hsig : sig.length = 64)
    (u : Usual H isa mode M C pk sig) (u' : Usual H isa' mode' M' C' pk sig)
    (h : apiVerify H isa mode M C pk sig = .VERIFICATION_OK) :
    apiVerify H isa' mode' M' C' pk sig = .VERIFICATION_OK ↔
      challenge H mode (sig.take 32) pk M C ≡ challenge H mode' (sig.take 32) pk M' C'
        [MOD 2 ^ 252 + 27742317777372353535851937790883648493] := by
  obtain ⟨A, hA, ho⟩ := C87_ed25519_order H isa'' mode'' sk (hH sk)
  have e : pk = encode A := by rw [hpk, hA]
  have e' : ell = 2 ^ 252 + 27742317777372353535851937790883648493 := by norm_num
  rw [C91_messages_partial H hH isa isa' mode mode' M M' C C' pk sig (by rw [e, encode_length])
    hsig A (by rw [e]; exact decodes_encode A) u u' h, nsmul_eq_nsmul_iff_modEq, ho, ← e']
  simp only [Nat.ModEq, Nat.mod_mod]

/-- C91 is false of public keys of small order, which verification does not refuse: when n·A = 0
and the reduced challenges are congruent modulo n, a signature for one message is one for the
other (under the conditions `Usual`). -/
theorem C91_small_order (H : List Byte → List Byte) (hH : ∀ m, (H m).length = 64)
    (isa isa' : Isa) (mode mode' : Mode) (M M' C C' pk sig : List Byte) (hpk : pk.length = 32)
    (hsig : sig.length = 64) (A : Pt) (hA : Decodes pk A) (n : ℕ) (hn : n • A = 0)
    (u : Usual H isa mode M C pk sig) (u' : Usual H isa' mode' M' C' pk sig)
    (hk : challenge H mode (sig.take 32) pk M C % ell ≡
      challenge H mode' (sig.take 32) pk M' C' % ell [MOD n])
    (h : apiVerify H isa mode M C pk sig = .VERIFICATION_OK) :
    apiVerify H isa' mode' M' C' pk sig = .VERIFICATION_OK := by
  rw [C91_messages_partial H hH isa isa' mode mode' M M' C C' pk sig hpk hsig A hA u u' h,
    nsmul_eq_nsmul_iff_modEq]
  exact hk.of_dvd (addOrderOf_dvd_iff_nsmul_eq_zero.2 hn)

/-- A hash function: four times the number of bytes after the first 64. -/
def countHash (m : List Byte) : List Byte := leBytes 64 (4 * (m.length - 64))

/-- The square root of -1. -/
def rootN : ℕ := 19681161376707505956807079304988542015446066515923890162744021073123829784752

/-- The point (√-1, 0), of order four. -/
def T4 : Pt := ⟨(rootN : Fp), 0, by
  have h : (((P - 1) * rootN ^ 2 : ℕ) : Fp) = ((1 : ℕ) : Fp) := natEq (by decide +kernel)
  rw [Nat.cast_mul, Nat.cast_sub (by norm_num), ZMod.natCast_self] at h
  push_cast at h
  simp only [curve, d]
  linear_combination h⟩

theorem zero_decodes : Decodes (leBytes 32 0) T4 := by
  have e : canon (rootN : Fp) = rootN := by
    show (((rootN : ℕ) : Fp)).val = rootN
    rw [ZMod.val_natCast, Nat.mod_eq_of_lt (by norm_num [rootN])]
  refine ⟨?_, fun _ => ?_⟩
  · show (0 : Fp) = yCoord (leBytes 32 0)
    have : leNat (leBytes 32 0) = 0 := by decide +kernel
    simp [yCoord, this]
  · show canon (rootN : Fp) % 2 = signBit (leBytes 32 0)
    rw [e]
    decide +kernel

theorem zero_mult (isa : Isa) (h : ℕ) (hh : h = 4 ∨ h = 8) :
    (double_point_mult_4w isa (leBytes 32 0) (reduceBytes (leBytes 64 h))
      (point_decoding isa (leBytes 32 0)).1).take 32 = leBytes 32 1 := by
  rw [isa_double_mult isa ⟨true, true⟩, isa_decoding isa ⟨true, true⟩]
  rcases hh with rfl | rfl <;> decide +kernel

/-- C91 is false: for a hash function, the public key of 32 zero bytes, which is a point, and two
messages whose challenges are not congruent, one signature is accepted for both. -/
theorem C91_wrong : ∃ (H : List Byte → List Byte) (pk sig M M' : List Byte) (A : Pt),
    (∀ m, (H m).length = 64) ∧ pk.length = 32 ∧ Decodes pk A ∧ sig.length = 64 ∧ M ≠ M' ∧
    ¬ challenge H .Pure (sig.take 32) pk M [] ≡ challenge H .Pure (sig.take 32) pk M' []
        [MOD 2 ^ 252 + 27742317777372353535851937790883648493] ∧
    ∀ isa, apiVerify H isa .Pure M [] pk sig = .VERIFICATION_OK ∧
      apiVerify H isa .Pure M' [] pk sig = .VERIFICATION_OK := by
  have e : ∀ M : List Byte, countHash (dom2 .Pure [] ++ (leBytes 32 1 ++ leBytes 32 0).take 32 ++
      leBytes 32 0 ++ PH countHash .Pure M) = leBytes 64 (4 * M.length) := by
    intro M
    simp only [countHash, dom2, PH, List.nil_append, List.length_append, List.length_take,
      leBytes_length]
    congr 2
    omega
  have v : ∀ (isa : Isa) (M : List Byte), 4 * M.length = 4 ∨ 4 * M.length = 8 →
      apiVerify countHash isa .Pure M [] (leBytes 32 0) (leBytes 32 1 ++ leBytes 32 0)
        = .VERIFICATION_OK := by
    intro isa M hM
    rw [verify_short _ _ (by simp [tooLong]), e M]
    have h2 : ((leBytes 32 1 ++ leBytes 32 0).drop 32).take 32 = leBytes 32 0 := by decide +kernel
    have h1 : (leBytes 32 1 ++ leBytes 32 0).take 32 = leBytes 32 1 := by decide +kernel
    rw [h2, zero_mult isa _ hM, h1, if_pos rfl]
  refine ⟨countHash, leBytes 32 0, leBytes 32 1 ++ leBytes 32 0, [0], [0, 0], T4,
    fun m => by simp [countHash], by simp, zero_decodes, by simp, by simp, ?_, fun isa =>
    ⟨v isa _ (by simp), v isa _ (by simp)⟩⟩
  unfold challenge
  rw [e, e]
  unfold Nat.ModEq
  decide +kernel

/-- The conditions of the theorems: the key and signature of the example of C30, for two messages
with the same challenge. -/
example (isa : Isa) (M : List Byte) : Usual (toyHash 0 0 77) isa .Pure M [] (encode badKey)
    (encode (1000 • B - 77 • badKey) ++ leBytes 32 1000) := by
  have e4 := toy_challenge (a := 0) (r := 0) (k := 77) (by norm_num)
    (encode_length (1000 • B - 77 • badKey)) (encode_length badKey) (M := M) (C := [])
  have e5 : 77 % ell = 77 := Nat.mod_eq_of_lt (by norm_num)
  have e3 : leNat (leBytes 32 1000) = 1000 := by decide +kernel
  refine ⟨Or.inl rfl, ?_, ?_, ?_⟩
  · rw [sig_drop, e3]; left; rfl
  · rw [sig_take, e4, e5]; norm_num
  · rw [sig_take, sig_drop, e4, e5]; exact goodMult isa

end Verif.Ed25519

namespace Verif.Ed448

open Verif.Fp448
open Verif.X448 (Safe)

/-- The conditions of C59, for a public key of prime order. -/
structure Usual (H : List Byte → ℕ → List Byte) (mode : Mode) (M C pk sig : List Byte) (A : Pt) :
    Prop where
  context : C.length ≤ 255
  reduce : ReduceExact (challenge H mode (sig.take 57) pk M C)
  div : DivOk (red (challenge H mode (sig.take 57) pk M C))
  no_borrow : ∀ Q4 Q2, point_decoding pk = some (Q4, Q2) →
    DmOk (leBytes 57 (quarter (leNat ((sig.drop 57).take 56))))
      (leBytes 57 (quarter (red (challenge H mode (sig.take 57) pk M C)))) Q4
  safe_x : Safe (canon (leNat ((sig.drop 57).take 56) • B -
    challenge H mode (sig.take 57) pk M C • A).x)
  safe_y : Safe (canon (leNat ((sig.drop 57).take 56) • B -
    challenge H mode (sig.take 57) pk M C • A).y)

/-- C91 for Ed448, partial (`Usual`, and the conditions of C59 on key and signature).  Under a
public key of prime order, a signature that is accepted for one message, context and mode is
accepted for another exactly when the two challenges are congruent modulo the order. -/
theorem C91_ed448_partial (H : List Byte → ℕ → List Byte) (hH : ∀ m n, (H m n).length = n)
    (w w' : ℕ → W) (mode mode' : Mode) (M M' C C' pk sig : List Byte) (hpk : pk.length = 57)
    (A : Pt) (hA : Decodes pk A) (hAo : order • A = 0) (hA0 : A ≠ 0) (hd : DecodeOk pk A)
    (hs : DivOk (leNat ((sig.drop 57).take 56))) (u : Usual H mode M C pk sig A)
    (u' : Usual H mode' M' C' pk sig A) (h : apiVerify H w mode M C pk sig = .VERIFICATION_OK) :
    apiVerify H w' mode' M' C' pk sig = .VERIFICATION_OK ↔
      challenge H mode (sig.take 57) pk M C ≡ challenge H mode' (sig.take 57) pk M' C'
        [MOD order] := by
  have h1 := (C59_verify_prime_partial H hH w mode M C pk sig u.context hpk A hA hAo hd _ _ rfl rfl
    u.reduce hs u.div u.no_borrow u.safe_x u.safe_y).1 h
  rw [C59_verify_prime_partial H hH w' mode' M' C' pk sig u'.context hpk A hA hAo hd _ _ rfl rfl
    u'.reduce hs u'.div u'.no_borrow u'.safe_x u'.safe_y]
  have hp : Fact order.Prime := ⟨X448.ell_prime⟩
  have ho : addOrderOf A = order := addOrderOf_eq_prime hAo hA0
  rw [← ho, ← nsmul_eq_nsmul_iff_modEq]
  constructor
  · intro h2
    exact sub_right_injective (C57_injective (h1.symm.trans h2))
  · intro h2
    rw [← h2]
    exact h1

/-- The conditions are met for the key, signature and challenge of C59. -/
theorem usual_good (M : List Byte) :
    Usual (toyHash aGood rGood kNum) .PureContext M [] (encode (aGood • B))
    (encode (rGood • B) ++ leBytes 57 SNum) (aGood • B) ∧ aGood • B ≠ 0 ∧
    order • aGood • B = 0 ∧ DecodeOk (encode (aGood • B)) (aGood • B) := by
  obtain ⟨e0, e1, e2, e5, e3⟩ := red_aGood
  have hSlt : SNum < 2 ^ 446 := by decide +kernel
  have ec := toy_challenge (a := aGood) (r := rGood) (k := kNum) (M := M)
    (by decide +kernel) (encode_length (rGood • B)) (encode_length (aGood • B))
  obtain ⟨Q4, Q2, e', hQ, -⟩ := C47_decodes_partial _ (encode_length (aGood • B)) _
    (decodes_encode _) key_good.decode.clear key_good.decode.low key_good.decode.high
    key_good.decode.borrow
  have e4 : SNum • B - kNum • aGood • B = rGood • B := by
    have hm : SNum ≡ rGood + kNum * aGood [MOD ell] := by rw [← e5]; exact red_modEq _
    rw [modEq_smul hm order_B, add_smul, mul_smul, add_sub_cancel_right]
  refine ⟨⟨by simp, ?_, ?_, ?_, ?_, ?_⟩, ?_, order_mulB _, key_good.decode⟩
  · rw [sig_take, ec]; exact sign_good.challenge
  · rw [sig_take, ec, e2]; exact kNum_div
  · intro Q4 Q2 e
    have := (Prod.mk.inj (Option.some.inj (e'.symm.trans e))).1
    subst this
    exact (key_good.adds _ _ e).dmOk hQ _ _
  · rw [sig_take, sig_drop, leBytes57_take hSlt, ec, e4]; exact rGood_mul.x
  · rw [sig_take, sig_drop, leBytes57_take hSlt, ec, e4]; exact rGood_mul.y
  · intro h
    have h2 : order ∣ aGood := by
      have hp : Fact order.Prime := ⟨X448.ell_prime⟩
      rw [← addOrderOf_eq_prime order_B B_ne]
      exact addOrderOf_dvd_iff_nsmul_eq_zero.2 h
    exact absurd h2 (by decide +kernel)

end Verif.Ed448
