import Verif.Fp25519.RedApi
import Verif.Fp448.RedWide

/-!
# Printing

The entries `print`, `printKey` and `printSignature` of the public tables.  A stream is the list of
the characters written to it.
-/

namespace Verif.Print

/-- The digits of the conversion `x` of `fprintf`. -/
def digit (n : ℕ) : Char := "0123456789abcdef".toList.getD n '?'

/-- `fprintf(pFile, "%02x", b)`. -/
def hex02 (b : Byte) : List Char := [digit (b.toNat / 16), digit (b.toNat % 16)]

/-- src/bytestring.c:40-44 (in `print_hex_bytes`): the loop, from iteration `i` on, with `k`
iterations to go. -/
def loop (buffer : List Byte) (num_bytes : ℕ) : ℕ → ℕ → List Char
  | 0, _ => []
  | k + 1, i => hex02 (buffer.getD (num_bytes - 1 - i) 0) ++ loop buffer num_bytes k (i + 1)

/-- src/bytestring.c:39-46 `print_hex_bytes`. -/
def print_hex_bytes (buffer : List Byte) (num_bytes : ℕ) : List Char :=
  "0x".toList ++ loop buffer num_bytes num_bytes 0 ++ ['\n']

/-! ## Keys and signatures -/

/-- src/ladder255.c:34-36 `printX25519_Key`. -/
def printX25519_Key (key : List Byte) : List Char := print_hex_bytes key 32

/-- src/ladder448.c:38-40 `printX448_Key`. -/
def printX448_Key (key : List Byte) : List Char := print_hex_bytes key 56

/-- src/sign255.c:37-39 `printEd25519_Key`. -/
def printEd25519_Key (key : List Byte) : List Char := print_hex_bytes key 32

/-- src/sign255.c:46-48 `printEd25519_Signature`. -/
def printEd25519_Signature (sig : List Byte) : List Char := print_hex_bytes sig 64

/-- src/sign448.c:37-39 `printEd448_Key`. -/
def printEd448_Key (key : List Byte) : List Char := print_hex_bytes key 57

/-- src/sign448.c:46-48 `printEd448_Signature`. -/
def printEd448_Signature (sig : List Byte) : List Char := print_hex_bytes sig 114

/-! ## Elements -/

/-- src/eltfp25519_1w_fullradix.c:845-847 `print`. -/
def full25519 (a : Fp25519.F4) : List Char := print_hex_bytes a.toBytes 32

/-- src/eltfp25519_1w_redradix.c:813-817 `print`. -/
def red25519_1w (a : Fp25519.Elt5 U) : List Char := print_hex_bytes (Fp25519.R1.ser a) 32

/-- src/eltfp25519_2w_redradix.c:663-668 `print`. -/
def red25519_2w (a : Fp25519.Elt5 V) : List Char :=
  let d := Fp25519.R2.deinter a
  red25519_1w d.1 ++ red25519_1w d.2

/-- src/eltfp25519_4w_redradix.c:767-774 `print`. -/
def red25519_4w (a : Fp25519.Elt10 V) : List Char :=
  let d := Fp25519.R4.unzip a
  red25519_1w d.1 ++ red25519_1w d.2.1 ++ red25519_1w d.2.2.1 ++ red25519_1w d.2.2.2

/-- src/eltfp448_1w_fullradix.c:180-182 `print`. -/
def full448 (a : Fp448.F7) : List Char := print_hex_bytes a.toBytes 56

/-- src/eltfp448_1w_redradix.c:747-751 `print`. -/
def red448_1w (a : Fp448.Elt8 U) : List Char := print_hex_bytes (Fp448.R1.ser a) 56

/-- src/eltfp448_2w_redradix.c:660-665 `print`. -/
def red448_2w (a : Fp448.Elt8 V) : List Char :=
  let d := Fp448.R2.deinter a
  red448_1w d.1 ++ red448_1w d.2

/-- src/eltfp448_4w_redradix.c:650-657 `print`. -/
def red448_4w (a : Fp448.Elt16 V) : List Char :=
  let d := Fp448.R4.unzip a
  red448_1w d.1 ++ red448_1w d.2.1 ++ red448_1w d.2.2.1 ++ red448_1w d.2.2.2

end Verif.Print
