import Verif.Ed25519.Eddsa
import Verif.Sha512.Model

/-!
# Ed25519 with the hash calls of the code: src/sign255.c

`Verif/Ed25519/Eddsa.lean` takes the hash as a function of the whole input.  Here the calls of
`sph_sha512_init`, `sph_sha512` and `sph_sha512_close` are made one after the other, in the order
of the code, on the model of third_party/sha512.c.  `hc` and `pc` are the contents of the stack
variables `hash_context` and `prehash_context` before they are initialised.
-/

namespace Verif.Ed25519.Stream

open Verif.Fp25519 Verif.Sha512

/-- src/sign255.c:267-290 `ed25519_keygen`. -/
def keygen (hc : Ctx) (isa : Isa) (private_key : List Byte) : Status × List Byte :=
  let hc := init hc
  let hc := update hc private_key
  let az := (close hc).2
  let azB := point_multiplication (keygenScalar az)
  (.KEYGEN_OK, point_encoding isa azB)

/-- src/sign255.c:338-341, 362-365, 491-494: the prefix and the context, when there is one. -/
def updateDom (hc : Ctx) (context : List Byte) (pureEdDSA phflag : Byte) : Ctx :=
  if pureEdDSA = 0 then
    let hc := update hc (prefix32 ++ [phflag, BitVec.ofNat 8 context.length])
    update hc context
  else hc

/-- src/sign255.c:355-379: from the closing of the nonce hash on.  `last` is what both hashes
end with: `pre_hash_message` or the message. -/
def signTail (hc : Ctx) (isa : Isa) (last context public_key ah : List Byte)
    (pureEdDSA phflag : Byte) : Status × Option (List Byte) :=
  let (hc, r) := close hc
  let r := reduceBytes r
  let R := point_encoding isa (point_multiplication r)
  let hc := init hc
  let hc := updateDom hc context pureEdDSA phflag
  let hc := update hc R
  let hc := update hc public_key
  let hc := update hc last
  let H_RAM := reduceBytes (close hc).2
  (.SIGNATURE_OK, some (R ++ calculate_s r H_RAM (ah.take 32)))

/-- src/sign255.c:305-380 `ed25519_sign_all`. -/
def sign_all (hc pc : Ctx) (isa : Isa) (message context public_key private_key : List Byte)
    (pureEdDSA phflag : Byte) : Status × Option (List Byte) :=
  if pureEdDSA = 0 ∧ context.length > 255 then (.ERROR_CONTEXT, none) else
  let hc := init hc
  let hc := update hc private_key
  let (hc, ah) := close hc
  let ah := clampDigest ah
  let hc := init hc
  let hc := updateDom hc context pureEdDSA phflag
  let hc := update hc (ah.drop 32)
  if phflag = 1 then
    let pre_hash_message := (close (update (init pc) message)).2
    let hc := update hc pre_hash_message
    signTail hc isa pre_hash_message context public_key ah pureEdDSA phflag
  else if phflag = 0 then
    let hc := update hc message
    signTail hc isa message context public_key ah pureEdDSA phflag
  else (.ERROR_PHFLAG, none)

/-- src/sign255.c:462-514 `ed25519_verify_all`. -/
def verify_all (hc pc : Ctx) (isa : Isa) (message context public_key signature : List Byte)
    (pureEdDSA phflag : Byte) : Status :=
  if pureEdDSA = 0 ∧ context.length > 255 then .ERROR_CONTEXT else
  let d := point_decoding isa public_key
  if d.2.2 ≠ 0#32 then .ERROR_PUBLICKEY else
  let hc := init hc
  let hc := updateDom hc context pureEdDSA phflag
  let hc := update hc (signature.take 32)
  let hc := update hc public_key
  if phflag = 1 then
    let pre_hash_message := (close (update (init pc) message)).2
    let hc := update hc pre_hash_message
    verifyTail (close hc).2 d.1
  else if phflag = 0 then
    let hc := update hc message
    verifyTail (close hc).2 d.1
  else .ERROR_PHFLAG
where
  /-- src/sign255.c:509-513. -/
  verifyTail (digest : List Byte) (A : Fp25519.Elt10 V) : Status :=
    let H_RAM := reduceBytes digest
    let Q := double_point_mult_4w isa ((signature.drop 32).take 32) H_RAM A
    if signature.take 32 = Q.take 32 then .VERIFICATION_OK else .INVALID_SIGNATURE

/-- src/ed255.c:34, 48, 62: `.keygen` of the three schemes. -/
def apiKeygen (hc : Ctx) (isa : Isa) (_ : Mode) (sk : List Byte) : Status × List Byte :=
  keygen hc isa sk

/-- src/ed255.c:35, 49, 63 and src/sign255.c:391-448: `.sign` of the three schemes. -/
def apiSign (hc pc : Ctx) (isa : Isa) (mode : Mode)
    (message context public_key private_key : List Byte) : Status × Option (List Byte) :=
  match mode with
  | .Pure => sign_all hc pc isa message [] public_key private_key 1 0
  | .PreHash => sign_all hc pc isa message context public_key private_key 0 1
  | .Context => sign_all hc pc isa message context public_key private_key 0 0

/-- src/ed255.c:36, 50, 64 and src/sign255.c:524-573: `.verify` of the three schemes. -/
def apiVerify (hc pc : Ctx) (isa : Isa) (mode : Mode)
    (message context public_key signature : List Byte) : Status :=
  match mode with
  | .Pure => verify_all hc pc isa message [] public_key signature 1 0
  | .PreHash => verify_all hc pc isa message context public_key signature 0 1
  | .Context => verify_all hc pc isa message context public_key signature 0 0

end Verif.Ed25519.Stream
