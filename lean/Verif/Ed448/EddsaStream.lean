import Verif.Ed448.Eddsa
import Verif.Keccak.Model

/-!
# Ed448 with the hash calls of the code: src/sign448.c

`Verif/Ed448/Eddsa.lean` takes the hash as a function of the whole input.  Here the calls of
`SHAKE256`, `Init`, `Update` and `Final2` are made one after the other, in the order of the code,
on the model of third_party/sha3.c.  Simplification: the length in bits, `message_length * 8`, is
a `uint64_t` that wraps for messages of 2^61 bytes or more; the model has no such messages.
-/

namespace Verif.Ed448.Stream

open Verif.Ed25519 (Status)
open Verif.Keccak

/-- src/sign448.c:103-118 `ed448_keygen`. -/
def keygen (u : ℕ → W) (private_key : List Byte) : Status × List Byte :=
  let h := clampDigest (SHAKE256 private_key 114)
  let hB := fixed_point_multiplication (u 0) (u 1) h
  (.KEYGEN_OK, point_encoding hB)

/-- src/sign448.c:146, 153-155: `prefix`, ten bytes. -/
def prefix10 (context : List Byte) (phflag : Byte) : List Byte :=
  [0x53, 0x69, 0x67, 0x45, 0x64, 0x34, 0x34, 0x38] ++ [phflag, BitVec.ofNat 8 context.length]

/-- src/sign448.c:174-197: from the end of the nonce hash on.  `last` is what both hashes end
with: `pre_hash_message` or the message. -/
def signTail (hash : HashState) (u : ℕ → W) (last context public_key ah : List Byte)
    (phflag : Byte) : Status × Option (List Byte) :=
  let r := final2 hash 114
  let r := modular_reduction (u 0) (u 1) r
  let R := point_encoding (fixed_point_multiplication (u 2) (u 3) r)
  let hash := init 256
  let hash := update hash (prefix10 context phflag)
  let hash := update hash context
  let hash := update hash R
  let hash := update hash public_key
  let hash := update hash last
  let H_RAM := modular_reduction (u 4) (u 5) (final2 hash 114)
  (.SIGNATURE_OK, some (R ++ calculate_s (u 6) (u 7) r H_RAM ah))

/-- src/sign448.c:132-198 `ed448_sign_all`. -/
def sign_all (u : ℕ → W) (message context public_key private_key : List Byte) (phflag : Byte) :
    Status × Option (List Byte) :=
  if context.length > 255 then (.ERROR_CONTEXT, none) else
  let ah := clampDigest (SHAKE256 private_key 114)
  let hash := init 256
  let hash := update hash (prefix10 context phflag)
  let hash := update hash context
  let hash := update hash (ah.drop 57)
  if phflag = 1 then
    let pre_hash_message := SHAKE256 message 64
    let hash := update hash pre_hash_message
    signTail hash u pre_hash_message context public_key ah phflag
  else if phflag = 0 then
    let hash := update hash message
    signTail hash u message context public_key ah phflag
  else (.ERROR_PHFLAG, none)

/-- src/sign448.c:275-279 (in `ed448_verify_all`): the hash after the first four updates. -/
def updateRA (context public_key signature : List Byte) (phflag : Byte) : HashState :=
  let hash := init 256
  let hash := update hash (prefix10 context phflag)
  let hash := update hash context
  let hash := update hash (signature.take 57)
  update hash public_key

/-- src/sign448.c:293-301: from the end of the hash on; `decoded` is the result of
`point_decoding_ed448(&A, NULL, public_key)`. -/
def verifyTail (hash : HashState) (u : ℕ → W) (decoded : Option (Fp448.Elt16 V × P2w))
    (signature : List Byte) : Status :=
  let H_RAM := modular_reduction (u 0) (u 1) (final2 hash 114)
  match decoded with
  | none => .ERROR_PUBLICKEY
  | some (A, _) =>
    let Q := double_point_mult_4w (u 2) (u 3) (u 4) (u 5) (signature.drop 57) H_RAM A
    if signature.take 57 = Q.take 57 then .VERIFICATION_OK else .INVALID_SIGNATURE

/-- src/sign448.c:255-302 `ed448_verify_all`. -/
def verify_all (u : ℕ → W) (message context public_key signature : List Byte) (phflag : Byte) :
    Status :=
  if context.length > 255 then .ERROR_CONTEXT else
  let hash := updateRA context public_key signature phflag
  if phflag = 1 then
    let pre_hash_message := SHAKE256 message 64
    verifyTail (update hash pre_hash_message) u (point_decoding public_key) signature
  else if phflag = 0 then verifyTail (update hash message) u (point_decoding public_key) signature
  else .ERROR_PHFLAG

/-- src/ed448.c:34, 48: `.keygen` of the two schemes. -/
def apiKeygen (u : ℕ → W) (_ : Mode) (sk : List Byte) : Status × List Byte := keygen u sk

/-- src/ed448.c:35, 49 and src/sign448.c:209-242: `.sign` of the two schemes. -/
def apiSign (u : ℕ → W) (mode : Mode) (message context public_key private_key : List Byte) :
    Status × Option (List Byte) :=
  match mode with
  | .PureContext => sign_all u message context public_key private_key 0
  | .PreHash => sign_all u message context public_key private_key 1

/-- src/ed448.c:36, 50 and src/sign448.c:314-344: `.verify` of the two schemes. -/
def apiVerify (u : ℕ → W) (mode : Mode) (message context public_key signature : List Byte) :
    Status :=
  match mode with
  | .PureContext => verify_all u message context public_key signature 0
  | .PreHash => verify_all u message context public_key signature 1

end Verif.Ed448.Stream
