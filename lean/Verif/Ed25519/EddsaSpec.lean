import Verif.Ed25519.Eddsa
import Verif.Ed25519.Spec

/-!
# Ed25519 in words of RFC 8032, sections 5.1.5 to 5.1.7

Specification; this file models no code.  `H` stands for SHA-512.
-/

namespace Verif.Ed25519

/-- RFC 8032, 5.1.5: the secret scalar, from the digest of the private key. -/
def secretScalar (digest : List Byte) : ℕ := 2 ^ 254 + 8 * (leNat (digest.take 32) / 8 % 2 ^ 251)

/-- The bytes of a string of ASCII characters. -/
def ascii (s : String) : List Byte := s.toList.map fun c => BitVec.ofNat 8 c.toNat

/-- RFC 8032, section 2: `dom2(x, y)`, empty for Ed25519. -/
def dom2 : Mode → List Byte → List Byte
  | .Pure, _ => []
  | .PreHash, y => ascii "SigEd25519 no Ed25519 collisions" ++ [1] ++ [BitVec.ofNat 8 y.length] ++ y
  | .Context, y => ascii "SigEd25519 no Ed25519 collisions" ++ [0] ++ [BitVec.ofNat 8 y.length] ++ y

/-- RFC 8032, `PH(M)`. -/
def PH (H : List Byte → List Byte) : Mode → List Byte → List Byte
  | .PreHash, M => H M
  | _, M => M

/-- RFC 8032, 5.1.6, step 2: the nonce, not reduced. -/
def nonce (H : List Byte → List Byte) (mode : Mode) (sk M C : List Byte) : ℕ :=
  leNat (H (dom2 mode C ++ (H sk).drop 32 ++ PH H mode M))

/-- RFC 8032, 5.1.6, step 4: the challenge, not reduced. -/
def challenge (H : List Byte → List Byte) (mode : Mode) (R pk M C : List Byte) : ℕ :=
  leNat (H (dom2 mode C ++ R ++ pk ++ PH H mode M))

end Verif.Ed25519
