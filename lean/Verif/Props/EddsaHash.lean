import Verif.Ed25519.EddsaStreamLemmas
import Verif.Ed448.EddsaStreamLemmas
import Verif.Props.Eddsa25519
import Verif.Props.Ed448Sign

/-!
# C62: the hash of the signatures is SHA-512 and SHAKE256

`Stream.apiKeygen`, `Stream.apiSign` and `Stream.apiVerify` make the hash calls of the code one by
one on the models of third_party/sha512.c and third_party/sha3.c.  `Sha512.sha512` (FIPS 180-4) and
`Keccak.shake256` (FIPS 202) are specifications.  `hc` and `pc` are the contents of the
uninitialised hash contexts on the stack.
-/

namespace Verif.Ed25519

open Verif.Fp25519 Verif.Sha512

set_option exponentiation.threshold 2000

/-- C62.  For every key, message of less than 2^63 bytes, context and contents of the stack, the
three functions of the three schemes of Ed25519 are those of the properties C28 to C33 and C53
with H = SHA-512. -/
theorem C62_sha512 (hc pc : Ctx) (h : hc.buf.length = 128) (h' : pc.buf.length = 128) (isa : Isa)
    (mode : Mode) (M C pk sk sig : List Byte) (hM : M.length < 2 ^ 63) (hpk : pk.length = 32)
    (hsk : sk.length = 32) :
    Stream.apiKeygen hc isa mode sk = apiKeygen sha512 isa mode sk ∧
    Stream.apiSign hc pc isa mode M C pk sk = apiSign sha512 isa mode M C pk sk ∧
    Stream.apiVerify hc pc isa mode M C pk sig = apiVerify sha512 isa mode M C pk sig := by
  refine ⟨?_, ?_, ?_⟩
  · unfold Stream.apiKeygen apiKeygen Stream.keygen keygen
    simp only
    rw [Stream.hash_one hc h sk (by omega)]
  · cases mode <;> exact Stream.sign_all_eq hc pc h h' isa _ _ _ _ _ _ hM hpk hsk
  · cases mode <;> exact Stream.verify_all_eq hc pc h h' isa _ _ _ _ _ _ hM hpk

/-- C62.  The public key is the one of RFC 8032, section 5.1.5, for every private key. -/
theorem C62_public_key (hc : Ctx) (h : hc.buf.length = 128) (isa : Isa) (mode : Mode)
    (sk : List Byte) (hsk : sk.length = 32) :
    Stream.apiKeygen hc isa mode sk = (.KEYGEN_OK, encode (secretScalar (sha512 sk) • B)) := by
  rw [(C62_sha512 hc hc h h isa mode [] [] sk sk [] (by decide) hsk hsk).1]
  exact C53_keygen sha512 isa mode sk (Stream.sha512_length sk)

/-- The private key of RFC 8032, 7.1, TEST 1: it meets the hypotheses, and its secret scalar. -/
example : let sk := leBytes 32 (leNat (leBytes 32
      0x9d61b19deffd5a60ba844af492ec2cc44449c5697b326919703bac031cae7f60).reverse)
    sk.length = 32 ∧ (List.replicate 128 0xa5#8).length = 128 ∧
    secretScalar (sha512 sk) =
      36144925721603087658594284515452164870581325872720374094707712194495455132720 := by
  refine ⟨by decide +kernel, by decide +kernel, ?_⟩
  rw [← Stream.hash_one ⟨List.replicate 128 0xa5#8, H512, 7⟩ (by decide +kernel) _
    (by decide +kernel)]
  decide +kernel

end Verif.Ed25519

namespace Verif.Ed448

open Verif.Keccak

/-- C62.  For every key, message and context, the three functions of the two schemes of Ed448 are
those of the properties C48 and C58 to C60 with H = SHAKE256. -/
theorem C62_shake256 (u : ℕ → W) (mode : Mode) (M C pk sk sig : List Byte) :
    Stream.apiKeygen u mode sk = apiKeygen shake256 u mode sk ∧
    Stream.apiSign u mode M C pk sk = apiSign shake256 u mode M C pk sk ∧
    Stream.apiVerify u mode M C pk sig = apiVerify shake256 u mode M C pk sig := by
  refine ⟨?_, ?_, ?_⟩
  · unfold Stream.apiKeygen apiKeygen Stream.keygen keygen
    simp only
    rw [Stream.SHAKE256_eq]
  · cases mode <;> exact Stream.sign_all_eq u _ _ _ _ _
  · cases mode <;> exact Stream.verify_all_eq u _ _ _ _ _

end Verif.Ed448
