import Verif.Ed25519.Eddsa
import Verif.Ed448.DoubleMult

/-!
# Ed448: src/sign448.c and src/ed448.c

The hash function is a parameter `H`: `H m n` is the first `n` bytes of the output of SHAKE256 on
`m` (the code calls `SHAKE256` or `Init`, `Update`*, `Final2`; a sequence of updates is modelled by
the hash of the concatenation, which is a property of the hash, see `Verif/Props/Sha3.lean`).
Simplification: the length in bits, `message_length * 8`, is a `uint64_t` that wraps for messages
of 2^61 bytes or more; the model has no such messages.  Buffers are byte lists; the lengths passed
in C are the lengths of the lists.  A function that fills a buffer returns its bytes, `none` when
it leaves it untouched.

`u` gives the contents of the words that `modular_reduction_ed448` leaves uninitialised, two for
each call.
-/

namespace Verif.Ed448

open Verif.Ed25519 (Status)

/-- src/sign448.c:111-113 and 158-160: `h[0] &= -((uint8_t) 1 << 2); h[55] |= 0x80; h[56] = 0` on
the 114-byte digest. -/
def clampDigest (h : List Byte) : List Byte :=
  ((h.modify 0 (· &&& 0xFC#8)).modify 55 (· ||| 0x80#8)).set 56 0#8

/-- src/sign448.c:103-118 `ed448_keygen`: the status and the public key. -/
def keygen (H : List Byte → ℕ → List Byte) (u : ℕ → W) (private_key : List Byte) :
    Status × List Byte :=
  let h := clampDigest (H private_key 114)
  let hB := fixed_point_multiplication (u 0) (u 1) h
  (.KEYGEN_OK, point_encoding hB)

/-- src/sign448.c:146-155, 163-164, 181-182, 269-282: what is hashed first: the prefix "SigEd448",
the flag, the length of the context and the context. -/
def domBytes (context : List Byte) (phflag : Byte) : List Byte :=
  [0x53, 0x69, 0x67, 0x45, 0x64, 0x34, 0x34, 0x38] ++
    [phflag, BitVec.ofNat 8 context.length] ++ context

/-- src/sign448.c:166-173 (and 185-191, 285-292): the last part hashed, `none` standing for
`return EDDSA_ERROR_PHFLAG`. -/
def msgBytes (H : List Byte → ℕ → List Byte) (message : List Byte) (phflag : Byte) :
    Option (List Byte) :=
  if phflag = 1 then some (H message 64)
  else if phflag = 0 then some message
  else none

/-- src/sign448.c:132-198 `ed448_sign_all`: the status and the signature. -/
def sign_all (H : List Byte → ℕ → List Byte) (u : ℕ → W)
    (message context public_key private_key : List Byte) (phflag : Byte) :
    Status × Option (List Byte) :=
  if context.length > 255 then (.ERROR_CONTEXT, none) else
  let dom := domBytes context phflag
  let ah := clampDigest (H private_key 114)
  match msgBytes H message phflag with
  | none => (.ERROR_PHFLAG, none)
  | some m =>
    let r := modular_reduction (u 0) (u 1) (H (dom ++ ah.drop 57 ++ m) 114)
    let R := point_encoding (fixed_point_multiplication (u 2) (u 3) r)
    let H_RAM := modular_reduction (u 4) (u 5) (H (dom ++ R ++ public_key ++ m) 114)
    (.SIGNATURE_OK, some (R ++ calculate_s (u 6) (u 7) r H_RAM ah))

/-- src/sign448.c:209-219 `ed448_signctx`. -/
def ed448_signctx (H : List Byte → ℕ → List Byte) (u : ℕ → W)
    (message context public_key private_key : List Byte) : Status × Option (List Byte) :=
  sign_all H u message context public_key private_key 0

/-- src/sign448.c:232-242 `ed448ph_signctx`. -/
def ed448ph_signctx (H : List Byte → ℕ → List Byte) (u : ℕ → W)
    (message context public_key private_key : List Byte) : Status × Option (List Byte) :=
  sign_all H u message context public_key private_key 1

/-- src/sign448.c:255-302 `ed448_verify_all`. -/
def verify_all (H : List Byte → ℕ → List Byte) (u : ℕ → W)
    (message context public_key signature : List Byte) (phflag : Byte) : Status :=
  if context.length > 255 then .ERROR_CONTEXT else
  let dom := domBytes context phflag
  match msgBytes H message phflag with
  | none => .ERROR_PHFLAG
  | some m =>
    let H_RAM := modular_reduction (u 0) (u 1)
      (H (dom ++ signature.take 57 ++ public_key ++ m) 114)
    match point_decoding public_key with
    | none => .ERROR_PUBLICKEY
    | some (A, _) =>
      let Q := double_point_mult_4w (u 2) (u 3) (u 4) (u 5) (signature.drop 57) H_RAM A
      if signature.take 57 = Q.take 57 then .VERIFICATION_OK else .INVALID_SIGNATURE

/-- src/sign448.c:314-323 `ed448_verifyctx`. -/
def ed448_verifyctx (H : List Byte → ℕ → List Byte) (u : ℕ → W)
    (message context public_key signature : List Byte) : Status :=
  verify_all H u message context public_key signature 0

/-- src/sign448.c:335-344 `ed448ph_verifyctx`. -/
def ed448ph_verifyctx (H : List Byte → ℕ → List Byte) (u : ℕ → W)
    (message context public_key signature : List Byte) : Status :=
  verify_all H u message context public_key signature 1

/-- The two schemes of src/ed448.c:32-61 `Ed448`. -/
inductive Mode | PureContext | PreHash
  deriving DecidableEq

/-- src/ed448.c:34, 48: `.keygen` of the two schemes. -/
def apiKeygen (H : List Byte → ℕ → List Byte) (u : ℕ → W) (_ : Mode) (sk : List Byte) :
    Status × List Byte := keygen H u sk

/-- src/ed448.c:35, 49: `.sign` of the two schemes. -/
def apiSign (H : List Byte → ℕ → List Byte) (u : ℕ → W) (mode : Mode)
    (message context public_key private_key : List Byte) : Status × Option (List Byte) :=
  match mode with
  | .PureContext => ed448_signctx H u message context public_key private_key
  | .PreHash => ed448ph_signctx H u message context public_key private_key

/-- src/ed448.c:36, 50: `.verify` of the two schemes. -/
def apiVerify (H : List Byte → ℕ → List Byte) (u : ℕ → W) (mode : Mode)
    (message context public_key signature : List Byte) : Status :=
  match mode with
  | .PureContext => ed448_verifyctx H u message context public_key signature
  | .PreHash => ed448ph_verifyctx H u message context public_key signature

end Verif.Ed448
