import Verif.Ed448.Eddsa
import Verif.Caller

/-!
# Ed448 on the memory of the caller

`ed448_keygen` and `ed448_sign_all` of src/sign448.c with the reads and writes of the buffers of
the caller in the order of the code, as in `Ed25519/EddsaMem.lean`. -/

namespace Verif.Ed448

open Verif.Ed25519 (Status)

/-- src/sign448.c:103-118 `ed448_keygen`. -/
def keygenMem (H : List Byte → ℕ → List Byte) (u : ℕ → W) (c : ℕ → Byte)
    (public_key private_key : ℕ) : Status × (ℕ → Byte) :=
  let h := clampDigest (H (bytesAt c private_key 57) 114)
  let hB := fixed_point_multiplication (u 0) (u 1) h
  (.KEYGEN_OK, storeAt c public_key (point_encoding hB))

/-- src/sign448.c:132-198 `ed448_sign_all`. -/
def sign_allMem (H : List Byte → ℕ → List Byte) (u : ℕ → W) (c : ℕ → Byte)
    (signature message message_length context context_length public_key private_key : ℕ)
    (phflag : Byte) : Status × (ℕ → Byte) :=
  if context_length > 255 then (.ERROR_CONTEXT, c) else
  let ah := clampDigest (H (bytesAt c private_key 57) 114)
  let dom := domBytes (bytesAt c context context_length) phflag
  match msgBytes H (bytesAt c message message_length) phflag with
  | none => (.ERROR_PHFLAG, c)
  | some m =>
    let r := modular_reduction (u 0) (u 1) (H (dom ++ ah.drop 57 ++ m) 114)
    let c := storeAt c signature (point_encoding (fixed_point_multiplication (u 2) (u 3) r))
    let dom := domBytes (bytesAt c context context_length) phflag
    let m := if phflag = 1 then m else bytesAt c message message_length
    let H_RAM := modular_reduction (u 4) (u 5)
      (H (dom ++ bytesAt c signature 57 ++ bytesAt c public_key 57 ++ m) 114)
    (.SIGNATURE_OK, storeAt c (signature + 57) (calculate_s (u 6) (u 7) r H_RAM ah))

/-- src/ed448.c:34, 48: `.keygen` of the two schemes. -/
def apiKeygenMem (H : List Byte → ℕ → List Byte) (u : ℕ → W) (_ : Mode) (c : ℕ → Byte)
    (public_key private_key : ℕ) : Status × (ℕ → Byte) := keygenMem H u c public_key private_key

/-- src/sign448.c:209-242 and src/ed448.c:35, 49: `.sign` of the two schemes. -/
def apiSignMem (H : List Byte → ℕ → List Byte) (u : ℕ → W) (mode : Mode) (c : ℕ → Byte)
    (signature message message_length context context_length public_key private_key : ℕ) :
    Status × (ℕ → Byte) :=
  match mode with
  | .PureContext => sign_allMem H u c signature message message_length context context_length
      public_key private_key 0
  | .PreHash => sign_allMem H u c signature message message_length context context_length
      public_key private_key 1

end Verif.Ed448
