import Verif.Ed25519.Eddsa
import Verif.Caller

/-!
# Ed25519 on the memory of the caller

`ed25519_keygen` and `ed25519_sign_all` of src/sign255.c with the reads and writes of the buffers
of the caller in the order of the code.  `c` are the bytes of the caller; the pointers are
arbitrary addresses, so buffers may overlap.  The hash is a parameter, as in `Ed25519/Eddsa.lean`;
the strings passed to `sph_sha512` are read at the time of the call.  `ed25519_verify_all` writes
nothing but local objects and is not repeated. -/

namespace Verif.Ed25519

open Verif.Fp25519

/-- src/sign255.c:267-290 `ed25519_keygen`. -/
def keygenMem (H : List Byte → List Byte) (isa : Isa) (c : ℕ → Byte) (public_key private_key : ℕ) :
    Status × (ℕ → Byte) :=
  let az := H (bytesAt c private_key 32)
  let azB := point_multiplication (keygenScalar az)
  (.KEYGEN_OK, storeAt c public_key (point_encoding isa azB))

/-- src/sign255.c:305-380 `ed25519_sign_all`. -/
def sign_allMem (H : List Byte → List Byte) (isa : Isa) (c : ℕ → Byte)
    (signature message message_length context context_length public_key private_key : ℕ)
    (pureEdDSA phflag : Byte) : Status × (ℕ → Byte) :=
  if pureEdDSA = 0 ∧ context_length > 255 then (.ERROR_CONTEXT, c) else
  let ah := clampDigest (H (bytesAt c private_key 32))
  let dom := domBytes (bytesAt c context context_length) pureEdDSA phflag
  match msgBytes H (bytesAt c message message_length) phflag with
  | none => (.ERROR_PHFLAG, c)
  | some m =>
    let r := reduceBytes (H (dom ++ ah.drop 32 ++ m))
    let c := storeAt c signature (point_encoding isa (point_multiplication r))
    let dom := domBytes (bytesAt c context context_length) pureEdDSA phflag
    let m := if phflag = 1 then m else bytesAt c message message_length
    let H_RAM := reduceBytes (H (dom ++ bytesAt c signature 32 ++ bytesAt c public_key 32 ++ m))
    (.SIGNATURE_OK, storeAt c (signature + 32) (calculate_s r H_RAM (ah.take 32)))

/-- src/ed255.c:34, 48, 62: `.keygen` of the three schemes. -/
def apiKeygenMem (H : List Byte → List Byte) (isa : Isa) (_ : Mode) (c : ℕ → Byte)
    (public_key private_key : ℕ) : Status × (ℕ → Byte) := keygenMem H isa c public_key private_key

/-- src/sign255.c:391-448 and src/ed255.c:35, 49, 63: `.sign` of the three schemes (the pure one
has no context). -/
def apiSignMem (H : List Byte → List Byte) (isa : Isa) (mode : Mode) (c : ℕ → Byte)
    (signature message message_length context context_length public_key private_key : ℕ) :
    Status × (ℕ → Byte) :=
  match mode with
  | .Pure => sign_allMem H isa c signature message message_length 0 0 public_key private_key 1 0
  | .PreHash => sign_allMem H isa c signature message message_length context context_length
      public_key private_key 0 1
  | .Context => sign_allMem H isa c signature message message_length context context_length
      public_key private_key 0 0

end Verif.Ed25519
