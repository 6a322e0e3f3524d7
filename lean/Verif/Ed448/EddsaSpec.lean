import Verif.Ed448.Eddsa
import Verif.Ed25519.EddsaSpec
import Verif.Ed448.Spec

/-!
# Ed448 in words of RFC 8032, sections 5.2.5 to 5.2.7

Specification; this file models no code.  `H` stands for SHAKE256, with the length of the output
in bytes.
-/

namespace Verif.Ed448

open Verif.Ed25519 (ascii)

/-- RFC 8032, 5.2.5: the secret scalar, from the digest of the private key: 57 bytes, with the two
lowest bits cleared, bit 447 set and the last byte cleared. -/
def secretScalar (digest : List Byte) : ℕ := 2 ^ 447 + 4 * (leNat (digest.take 57) / 4 % 2 ^ 445)

/-- RFC 8032, section 2: `dom4(x, y)`. -/
def dom4 : Mode → List Byte → List Byte
  | .PureContext, y => ascii "SigEd448" ++ [0] ++ [BitVec.ofNat 8 y.length] ++ y
  | .PreHash, y => ascii "SigEd448" ++ [1] ++ [BitVec.ofNat 8 y.length] ++ y

/-- RFC 8032, `PH(M)`. -/
def PH (H : List Byte → ℕ → List Byte) : Mode → List Byte → List Byte
  | .PreHash, M => H M 64
  | .PureContext, M => M

/-- RFC 8032, 5.2.6, step 2: the nonce, not reduced. -/
def nonce (H : List Byte → ℕ → List Byte) (mode : Mode) (sk M C : List Byte) : ℕ :=
  leNat (H (dom4 mode C ++ (H sk 114).drop 57 ++ PH H mode M) 114)

/-- RFC 8032, 5.2.6, step 4: the challenge, not reduced. -/
def challenge (H : List Byte → ℕ → List Byte) (mode : Mode) (R pk M C : List Byte) : ℕ :=
  leNat (H (dom4 mode C ++ R ++ pk ++ PH H mode M) 114)

end Verif.Ed448
