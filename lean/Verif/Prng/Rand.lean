import Verif.Prng.Model
import Verif.Fp25519.RedApi
import Verif.Fp448.RedWide

/-!
# Random field elements and keys

The entries `rand` of the tables `Fp25519` and `Fp448` and the entries `randKey` of the tables of
the key exchange and of the signatures.  `random_bytes` opens the device anew at every call, so
every call has its own `Sys`.
-/

namespace Verif.Prng

/-- What a buffer with the bytes `old` holds after the writes `buf`. -/
def fill (old : List Byte) (buf : Buffer) : List Byte :=
  old.zipWith (fun o b => b.getD o) buf

/-- src/bytestring.c:29-31 `random_bytes` on a buffer that holds `old`; `none` when it has not
returned after `fuel` iterations of the loop of the generator. -/
def random_bytes (fuel : ℕ) (read : Sys) (old : List Byte) : Option (List Byte) :=
  (prgn_random_bytes read (BitVec.ofNat 64 old.length) fuel).map (fill old)

/-! ## Keys -/

/-- src/ladder255.c:30-32 `randX25519_Key`; `key` is what the buffer of 32 bytes held. -/
def randX25519_Key (fuel : ℕ) (read : Sys) (key : List Byte) : Option (List Byte) :=
  (random_bytes fuel read (key.take 32)).map (· ++ key.drop 32)

/-- src/ladder448.c:34-36 `randX448_Key`. -/
def randX448_Key (fuel : ℕ) (read : Sys) (key : List Byte) : Option (List Byte) :=
  (random_bytes fuel read (key.take 56)).map (· ++ key.drop 56)

/-- src/sign255.c:28-30 `randEd25519_Key`. -/
def randEd25519_Key (fuel : ℕ) (read : Sys) (key : List Byte) : Option (List Byte) :=
  (random_bytes fuel read (key.take 32)).map (· ++ key.drop 32)

/-- src/sign448.c:28-30 `randEd448_Key`. -/
def randEd448_Key (fuel : ℕ) (read : Sys) (key : List Byte) : Option (List Byte) :=
  (random_bytes fuel read (key.take 57)).map (· ++ key.drop 57)

/-! ## Elements of Fp25519 -/

/-- src/eltfp25519_1w_fullradix.c:781-783 `rand` on an element that holds `a`. -/
def rand25519_full (fuel : ℕ) (read : Sys) (a : Fp25519.F4) : Option Fp25519.F4 :=
  (random_bytes fuel read a.toBytes).map Fp25519.F4.ofBytes

/-- src/eltfp25519_1w_redradix.c:807-811 `rand`; `a_bytes` is what the local array held. -/
def rand25519_1w (fuel : ℕ) (read : Sys) (a_bytes : List Byte) : Option (Fp25519.Elt5 U) :=
  (random_bytes fuel read a_bytes).map Fp25519.R1.unser

/-- src/eltfp25519_2w_redradix.c:656-661 `rand`. -/
def rand25519_2w (fuel : ℕ) (read0 read1 : Sys) (s0 s1 : List Byte) :
    Option (Fp25519.Elt5 V) :=
  (rand25519_1w fuel read0 s0).bind fun a0 =>
  (rand25519_1w fuel read1 s1).map fun a1 => Fp25519.R2.inter a0 a1

/-- src/eltfp25519_4w_redradix.c:758-765 `rand`. -/
def rand25519_4w (fuel : ℕ) (read0 read1 read2 read3 : Sys) (s0 s1 s2 s3 : List Byte) :
    Option (Fp25519.Elt10 V) :=
  (rand25519_1w fuel read0 s0).bind fun a0 =>
  (rand25519_1w fuel read1 s1).bind fun a1 =>
  (rand25519_1w fuel read2 s2).bind fun a2 =>
  (rand25519_1w fuel read3 s3).map fun a3 => Fp25519.R4.zip a0 a1 a2 a3

/-! ## Elements of Fp448 -/

/-- src/eltfp448_1w_fullradix.c:48-50 `rand` on an element that holds `a`. -/
def rand448_full (fuel : ℕ) (read : Sys) (a : Fp448.F7) : Option Fp448.F7 :=
  (random_bytes fuel read a.toBytes).map Fp448.F7.ofBytes

/-- src/eltfp448_1w_redradix.c:741-745 `rand`; `a_bytes` is what the local array held. -/
def rand448_1w (fuel : ℕ) (read : Sys) (a_bytes : List Byte) : Option (Fp448.Elt8 U) :=
  (random_bytes fuel read a_bytes).map Fp448.R1.unser

/-- src/eltfp448_2w_redradix.c:653-658 `rand`. -/
def rand448_2w (fuel : ℕ) (read0 read1 : Sys) (s0 s1 : List Byte) : Option (Fp448.Elt8 V) :=
  (rand448_1w fuel read0 s0).bind fun a0 =>
  (rand448_1w fuel read1 s1).map fun a1 => Fp448.R2.inter a0 a1

/-- src/eltfp448_4w_redradix.c:641-648 `rand`. -/
def rand448_4w (fuel : ℕ) (read0 read1 read2 read3 : Sys) (s0 s1 s2 s3 : List Byte) :
    Option (Fp448.Elt16 V) :=
  (rand448_1w fuel read0 s0).bind fun a0 =>
  (rand448_1w fuel read1 s1).bind fun a1 =>
  (rand448_1w fuel read2 s2).bind fun a2 =>
  (rand448_1w fuel read3 s3).map fun a3 => Fp448.R4.zip a0 a1 a2 a3

end Verif.Prng
