import Verif.Ed25519.Decode
import Verif.Ed25519.Mult
import Verif.Ed25519.DoubleMult
import Verif.Ed25519.Scalar

/-!
# Ed25519: src/sign255.c and src/ed255.c

The hash function is a parameter `H` (the code calls `sph_sha512_init`, `sph_sha512`*,
`sph_sha512_close`; a sequence of updates is modelled by the hash of the concatenation, which is
property C34 of the hash).  Buffers are byte lists; the lengths passed in C are the lengths of the
lists.  A function that fills a buffer returns its bytes, `none` when it leaves it untouched.
-/

namespace Verif.Ed25519

open Verif.Fp25519

/-- include/faz_eddsa_avx2.h:174-182, the status codes, in the order of the enumeration. -/
inductive Status
  | KEYGEN_OK | SIGNATURE_OK | VERIFICATION_OK | INVALID_SIGNATURE
  | ERROR_PUBLICKEY | ERROR_CONTEXT | ERROR_PHFLAG
  deriving DecidableEq, Repr

/-- src/sign255.c:278-280 and 333-335: `az[0] &= -((uint8_t)1 << 3); az[31] &= 127;
az[31] |= 64` on the 64-byte digest. -/
def clampDigest (az : List Byte) : List Byte :=
  ((az.modify 0 (· &&& 0xF8#8)).modify 31 (· &&& 127#8)).modify 31 (· ||| 64#8)

/-- src/sign255.c:278-285 (in `ed25519_keygen`): the 32 bytes of the scalar passed to the
multiplication. Simplification: word 4 is stored after byte 31 is masked; they do not overlap. -/
def keygenScalar (az : List Byte) : List Byte :=
  let az := clampDigest az
  let w := F8.ofBytes (az.modify 31 (· &&& 15#8))
  F8.lowBytes (reduce64bits { w with w4 := (az.getD 31 0#8 >>> 4).setWidth 64 })

/-- src/sign255.c:267-290 `ed25519_keygen`: the status and the public key. -/
def keygen (H : List Byte → List Byte) (isa : Isa) (private_key : List Byte) :
    Status × List Byte :=
  let az := H private_key
  let azB := point_multiplication (keygenScalar az)
  (.KEYGEN_OK, point_encoding isa azB)

/-- src/sign255.c:319 and 476: the characters of "SigEd25519 no Ed25519 collisions". -/
def prefix32 : List Byte :=
  [0x53, 0x69, 0x67, 0x45, 0x64, 0x32, 0x35, 0x35, 0x31, 0x39, 0x20, 0x6e, 0x6f, 0x20, 0x45, 0x64,
   0x32, 0x35, 0x35, 0x31, 0x39, 0x20, 0x63, 0x6f, 0x6c, 0x6c, 0x69, 0x73, 0x69, 0x6f, 0x6e, 0x73]

/-- src/sign255.c:326-328, 338-341, 362-365, 483-485 and 491-494: what is hashed first, nothing
for pure signatures. -/
def domBytes (context : List Byte) (pureEdDSA phflag : Byte) : List Byte :=
  if pureEdDSA = 0 then
    prefix32 ++ [phflag, BitVec.ofNat 8 context.length] ++ context
  else []

/-- src/sign255.c:343-354 (and 368-374, 497-508): the last part hashed, `none` standing for
`return EDDSA_ERROR_PHFLAG`. -/
def msgBytes (H : List Byte → List Byte) (message : List Byte) (phflag : Byte) :
    Option (List Byte) :=
  if phflag = 1 then some (H message)
  else if phflag = 0 then some message
  else none

/-- src/sign255.c:305-380 `ed25519_sign_all`: the status and the signature. -/
def sign_all (H : List Byte → List Byte) (isa : Isa)
    (message context public_key private_key : List Byte) (pureEdDSA phflag : Byte) :
    Status × Option (List Byte) :=
  if pureEdDSA = 0 ∧ context.length > 255 then (.ERROR_CONTEXT, none) else
  let dom := domBytes context pureEdDSA phflag
  let ah := clampDigest (H private_key)
  match msgBytes H message phflag with
  | none => (.ERROR_PHFLAG, none)
  | some m =>
    let r := reduceBytes (H (dom ++ ah.drop 32 ++ m))
    let R := point_encoding isa (point_multiplication r)
    let H_RAM := reduceBytes (H (dom ++ R ++ public_key ++ m))
    (.SIGNATURE_OK, some (R ++ calculate_s r H_RAM (ah.take 32)))

/-- src/sign255.c:391-400 `ed25519_sign`. -/
def ed25519_sign (H : List Byte → List Byte) (isa : Isa)
    (message public_key private_key : List Byte) : Status × Option (List Byte) :=
  sign_all H isa message [] public_key private_key 1 0

/-- src/sign255.c:413-424 `ed25519_signctx`. -/
def ed25519_signctx (H : List Byte → List Byte) (isa : Isa)
    (message context public_key private_key : List Byte) : Status × Option (List Byte) :=
  sign_all H isa message context public_key private_key 0 0

/-- src/sign255.c:437-448 `ed25519ph_signctx`. -/
def ed25519ph_signctx (H : List Byte → List Byte) (isa : Isa)
    (message context public_key private_key : List Byte) : Status × Option (List Byte) :=
  sign_all H isa message context public_key private_key 0 1

/-- src/sign255.c:462-514 `ed25519_verify_all`. -/
def verify_all (H : List Byte → List Byte) (isa : Isa)
    (message context public_key signature : List Byte) (pureEdDSA phflag : Byte) : Status :=
  if pureEdDSA = 0 ∧ context.length > 255 then .ERROR_CONTEXT else
  let dom := domBytes context pureEdDSA phflag
  let d := point_decoding isa public_key
  if d.2.2 ≠ 0#32 then .ERROR_PUBLICKEY else
  match msgBytes H message phflag with
  | none => .ERROR_PHFLAG
  | some m =>
    let H_RAM := reduceBytes (H (dom ++ signature.take 32 ++ public_key ++ m))
    let Q := double_point_mult_4w isa ((signature.drop 32).take 32) H_RAM d.1
    if signature.take 32 = Q.take 32 then .VERIFICATION_OK else .INVALID_SIGNATURE

/-- src/sign255.c:524-531 `ed25519_verify`. -/
def ed25519_verify (H : List Byte → List Byte) (isa : Isa)
    (message public_key signature : List Byte) : Status :=
  verify_all H isa message [] public_key signature 1 0

/-- src/sign255.c:543-552 `ed25519_verifyctx`. -/
def ed25519_verifyctx (H : List Byte → List Byte) (isa : Isa)
    (message context public_key signature : List Byte) : Status :=
  verify_all H isa message context public_key signature 0 0

/-- src/sign255.c:564-573 `ed25519ph_verifyctx`. -/
def ed25519ph_verifyctx (H : List Byte → List Byte) (isa : Isa)
    (message context public_key signature : List Byte) : Status :=
  verify_all H isa message context public_key signature 0 1

/-- The three modes of src/ed255.c:32-75 `Ed25519`. -/
inductive Mode | Pure | PreHash | Context
  deriving DecidableEq

/-- src/ed255.c:34, 48, 62: `.keygen` of the three schemes. -/
def apiKeygen (H : List Byte → List Byte) (isa : Isa) (_ : Mode) (sk : List Byte) :
    Status × List Byte := keygen H isa sk

/-- src/ed255.c:35, 49, 63: `.sign` of the three schemes (the pure one has no context). -/
def apiSign (H : List Byte → List Byte) (isa : Isa) (mode : Mode)
    (message context public_key private_key : List Byte) : Status × Option (List Byte) :=
  match mode with
  | .Pure => ed25519_sign H isa message public_key private_key
  | .PreHash => ed25519ph_signctx H isa message context public_key private_key
  | .Context => ed25519_signctx H isa message context public_key private_key

/-- src/ed255.c:36, 50, 64: `.verify` of the three schemes. -/
def apiVerify (H : List Byte → List Byte) (isa : Isa) (mode : Mode)
    (message context public_key signature : List Byte) : Status :=
  match mode with
  | .Pure => ed25519_verify H isa message public_key signature
  | .PreHash => ed25519ph_verifyctx H isa message context public_key signature
  | .Context => ed25519_verifyctx H isa message context public_key signature

end Verif.Ed25519
