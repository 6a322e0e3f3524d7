import Verif.Ed25519.EddsaStream
import Verif.Ed25519.EddsaLemmas
import Verif.Sha512.StreamLemmas

/-! # The hash calls of src/sign255.c compute SHA-512 of the concatenation -/

namespace Verif.Ed25519.Stream

open Verif.Fp25519 Verif.Sha512

set_option exponentiation.threshold 2000

theorem sha512_length (m : List Byte) : (sha512 m).length = 64 := by
  simp [sha512, Regs.bytes, beBytes]

theorem close_digest {sc : Ctx} {m : List Byte} (h : Inv sc m) (hm : m.length < 2 ^ 64) :
    (close sc).2 = sha512 m := close_spec h hm

theorem hash_one (hc : Ctx) (h : hc.buf.length = 128) (m : List Byte) (hm : m.length < 2 ^ 64) :
    (close (update (init hc) m)).2 = sha512 m :=
  close_digest (by simpa using update_inv (inv_init hc h) m) hm

theorem updateDom_inv {hc : Ctx} (h : Inv hc []) (context : List Byte) (pureEdDSA phflag : Byte) :
    Inv (updateDom hc context pureEdDSA phflag) (domBytes context pureEdDSA phflag) := by
  unfold updateDom domBytes
  split_ifs
  · exact update_inv (update_inv h _) context
  · exact h

theorem prefix32_length : prefix32.length = 32 := rfl

theorem dom_length (context : List Byte) (p f : Byte) (hC : ¬(p = 0 ∧ context.length > 255)) :
    (domBytes context p f).length ≤ 34 + 255 := by
  unfold domBytes
  split_ifs with h
  · have : context.length ≤ 255 := by
      by_contra hc
      exact hC ⟨h, by omega⟩
    simp only [List.length_append, prefix32_length, List.length_cons, List.length_nil]
    omega
  · simp

theorem signTail_eq {hc : Ctx} (isa : Isa) (last context public_key ah m : List Byte)
    (p f : Byte) (h : Inv hc m) (hm : m.length < 2 ^ 64) (hl : last.length < 2 ^ 63)
    (hpk : public_key.length = 32) (hC : ¬(p = 0 ∧ context.length > 255)) :
    signTail hc isa last context public_key ah p f =
      (.SIGNATURE_OK, some (point_encoding isa (point_multiplication (reduceBytes (sha512 m))) ++
        calculate_s (reduceBytes (sha512 m)) (reduceBytes (sha512 (domBytes context p f ++
          point_encoding isa (point_multiplication (reduceBytes (sha512 m))) ++ public_key ++ last)))
          (ah.take 32))) := by
  unfold signTail
  have e : close hc = ((close hc).1, sha512 m) := by rw [← close_digest h hm]
  have hb : (close hc).1.buf.length = 128 := close_buf h.len
  have hR := point_encoding_length isa (point_multiplication (reduceBytes (sha512 m)))
  rw [e]
  simp only
  generalize point_encoding isa (point_multiplication (reduceBytes (sha512 m))) = R at *
  have hi := update_inv (update_inv (update_inv
    (updateDom_inv (inv_init _ hb) context p f) R) public_key) last
  have hd := dom_length context p f hC
  rw [close_digest hi (by simp only [List.length_append]; omega)]

/-- Signing: the streaming code is the model with H = SHA-512. -/
theorem sign_all_eq (hc pc : Ctx) (h : hc.buf.length = 128) (h' : pc.buf.length = 128) (isa : Isa)
    (message context public_key private_key : List Byte) (p f : Byte)
    (hm : message.length < 2 ^ 63) (hpk : public_key.length = 32)
    (hsk : private_key.length = 32) :
    sign_all hc pc isa message context public_key private_key p f =
      Ed25519.sign_all sha512 isa message context public_key private_key p f := by
  unfold sign_all Ed25519.sign_all
  by_cases hC : p = 0 ∧ context.length > 255
  · rw [if_pos hC, if_pos hC]
  rw [if_neg hC, if_neg hC]
  have hd := dom_length context p f hC
  have e : close (update (init hc) private_key) =
      ((close (update (init hc) private_key)).1, sha512 private_key) := by
    rw [← hash_one hc h private_key (by omega)]
  have hb : (close (update (init hc) private_key)).1.buf.length = 128 :=
    close_buf (update_inv (inv_init hc h) private_key).len
  simp only
  rw [e]
  simp only
  have hi := update_inv (updateDom_inv (inv_init _ hb) context p f)
    ((clampDigest (sha512 private_key)).drop 32)
  have hl : ((clampDigest (sha512 private_key)).drop 32).length = 32 := by
    simp [clampDigest, sha512_length]
  rw [hash_one pc h' message (by omega)]
  unfold msgBytes
  by_cases h1 : f = 1
  · simp only [if_pos h1]
    rw [signTail_eq isa _ context public_key _ _ p f (update_inv hi _)
      (by simp only [List.length_append, sha512_length, hl]; omega)
      (by rw [sha512_length]; decide) hpk hC]
  · simp only [if_neg h1]
    by_cases h0 : f = 0
    · simp only [if_pos h0]
      rw [signTail_eq isa _ context public_key _ _ p f (update_inv hi _)
        (by simp only [List.length_append, hl]; omega) hm hpk hC]
    · simp only [if_neg h0]

/-- Verification: the streaming code is the model with H = SHA-512. -/
theorem verify_all_eq (hc pc : Ctx) (h : hc.buf.length = 128) (h' : pc.buf.length = 128)
    (isa : Isa) (message context public_key signature : List Byte) (p f : Byte)
    (hm : message.length < 2 ^ 63) (hpk : public_key.length = 32) :
    verify_all hc pc isa message context public_key signature p f =
      Ed25519.verify_all sha512 isa message context public_key signature p f := by
  unfold verify_all Ed25519.verify_all
  by_cases hC : p = 0 ∧ context.length > 255
  · rw [if_pos hC, if_pos hC]
  rw [if_neg hC, if_neg hC]
  have hd := dom_length context p f hC
  simp only
  generalize point_decoding isa public_key = d
  by_cases hp : d.2.2 ≠ 0#32
  · rw [if_pos hp, if_pos hp]
  rw [if_neg hp, if_neg hp]
  have hi := update_inv (update_inv (updateDom_inv (inv_init hc h) context p f)
    (signature.take 32)) public_key
  have hs : (signature.take 32).length ≤ 32 := by simp
  rw [hash_one pc h' message (by omega)]
  unfold msgBytes
  by_cases h1 : f = 1
  · simp only [if_pos h1]
    rw [close_digest (update_inv hi _)
      (by simp only [List.length_append, sha512_length]; omega)]
    rfl
  · simp only [if_neg h1]
    by_cases h0 : f = 0
    · simp only [if_pos h0]
      rw [close_digest (update_inv hi _) (by simp only [List.length_append]; omega)]
      rfl
    · simp only [if_neg h0]

end Verif.Ed25519.Stream
