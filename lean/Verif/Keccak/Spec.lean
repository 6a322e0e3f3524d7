import Verif.Bytes
import Mathlib.Data.Fin.Basic
import Batteries.Data.BitVec.Lemmas

/-!
# SHA-3 and SHAKE (FIPS 202)

Specification; this file models no code.  Bytes are turned to bits as in appendix B.1: the first
bit of a byte is the least significant one.
-/

namespace Verif.Keccak

/-- A state array, section 3.1.1: `A x y z` is the bit A[x, y, z] for w = 64. -/
abbrev State := Fin 5 → Fin 5 → Fin 64 → Bool

/-! ## The step mappings: section 3.2 -/

/-- Algorithm 1. -/
def theta (A : State) : State :=
  let C := fun x z => A x 0 z ^^ A x 1 z ^^ A x 2 z ^^ A x 3 z ^^ A x 4 z
  let D := fun x z => C (x - 1) z ^^ C (x + 1) (z - 1)
  fun x y z => A x y z ^^ D x z

/-- The coordinates (x, y) of algorithm 2, step 3, for each t. -/
def rhoPos : ℕ → Fin 5 × Fin 5
  | 0 => (1, 0)
  | t + 1 => ((rhoPos t).2, 2 * (rhoPos t).1 + 3 * (rhoPos t).2)

/-- The offset of a lane in algorithm 2: (t + 1)(t + 2)/2, and 0 for x = y = 0. -/
def offset (x y : Fin 5) : ℕ :=
  match (List.range 24).find? fun t => rhoPos t = (x, y) with
  | some t => (t + 1) * (t + 2) / 2
  | none => 0

/-- Algorithm 2. -/
def rho (A : State) : State := fun x y z => A x y (z - Fin.ofNat 64 (offset x y))

/-- Algorithm 3. -/
def pi (A : State) : State := fun x y z => A (x + 3 * y) x z

/-- Algorithm 4. -/
def chi (A : State) : State := fun x y z => A x y z ^^ (A (x + 1) y z ^^ true) && A (x + 2) y z

/-- Algorithm 5, step 3: the register R, eight bits. -/
def lfsr (R : List Bool) : List Bool :=
  let R := false :: R
  let b := R.getD 8 false
  let R := R.set 0 (R.getD 0 false ^^ b)
  let R := R.set 4 (R.getD 4 false ^^ b)
  let R := R.set 5 (R.getD 5 false ^^ b)
  let R := R.set 6 (R.getD 6 false ^^ b)
  R.take 8

/-- Algorithm 5. -/
def rc (t : ℕ) : Bool :=
  if t % 255 = 0 then true
  else (lfsr^[t % 255] [true, false, false, false, false, false, false, false]).getD 0 false

/-- Algorithm 6, steps 2 and 3: the round constant: bit 2^j - 1 is rc(j + 7 i) for j from 0 to 6. -/
def RC (i : ℕ) (z : Fin 64) : Bool :=
  (List.range 7).any fun j => z.val = 2 ^ j - 1 ∧ rc (j + 7 * i)

/-- Algorithm 6. -/
def iota (i : ℕ) (A : State) : State := fun x y z =>
  if x = 0 ∧ y = 0 then A x y z ^^ RC i z else A x y z

/-- Rnd(A, i), section 3.3. -/
def Rnd (A : State) (i : ℕ) : State := iota i (chi (pi (rho (theta A))))

/-- Keccak-f[1600], sections 3.3 and 3.4: rounds 0 to 23. -/
def keccakF (A : State) : State := (List.range 24).foldl Rnd A

/-! ## The sponge: section 4 and appendix B -/

/-- Bit `k` of a byte string, zero beyond its end. -/
def bitAt (b : List Byte) (k : ℕ) : Bool := (b.getD (k / 8) 0).getLsbD (k % 8)

/-- The all-zero state. -/
def zero : State := fun _ _ _ => false

/-- S xor (P || 0^c), where bit 64(5y + x) + z of the string S is A[x, y, z] (section 3.1.2). -/
def xorBlock (A : State) (P : List Byte) : State := fun x y z =>
  A x y z ^^ bitAt P (64 * (5 * y.val + x.val) + z.val)

/-- The state after the first `n` blocks of `r` bytes. -/
def absorb (r : ℕ) (P : List Byte) : ℕ → State
  | 0 => zero
  | n + 1 => keccakF (xorBlock (absorb r P n) ((P.drop (r * n)).take r))

/-- Byte `i` of a state. -/
def stateByte (A : State) (i : ℕ) : Byte :=
  BitVec.ofFnLE fun k : Fin 8 =>
    A (Fin.ofNat 5 ((8 * i + k.val) / 64)) (Fin.ofNat 5 ((8 * i + k.val) / 64 / 5))
      (Fin.ofNat 64 (8 * i + k.val))

/-- The padding with the domain separation bits, appendix B.2: `sfx` is 0x06 for SHA-3 and 0x1F for
SHAKE. -/
def pad (r : ℕ) (sfx : Byte) (m : List Byte) : List Byte :=
  let q := r - m.length % r
  if q = 1 then m ++ [sfx ||| 0x80#8]
  else m ++ [sfx] ++ List.replicate (q - 2) 0#8 ++ [0x80#8]

/-- The first `d` bytes of SPONGE[Keccak-f[1600], pad10*1, 8r](M || bits). -/
def sponge (r : ℕ) (sfx : Byte) (m : List Byte) (d : ℕ) : List Byte :=
  let P := pad r sfx m
  let S := absorb r P (P.length / r)
  (List.range d).map fun i => stateByte (keccakF^[i / r] S) (i % r)

/-! ## Section 6; the capacity is twice the security strength -/

def shake128 (m : List Byte) (d : ℕ) : List Byte := sponge 168 0x1f#8 m d
def shake256 (m : List Byte) (d : ℕ) : List Byte := sponge 136 0x1f#8 m d

/-- SHA3-n for n = 224, 256, 384, 512: the capacity is 2n bits and the digest has n bits. -/
def sha3 (n : ℕ) (m : List Byte) : List Byte := sponge (200 - n / 4) 0x06#8 m (n / 8)

end Verif.Keccak
