import Verif.Fp25519.Spec
import Verif.Primes
import Mathlib.Algebra.Field.ZMod

/-! `2^255 - 19` is prime, so the residues form a field. -/

namespace Verif.Fp25519

instance : Fact (Nat.Prime P) := ⟨by
  have h : P = 57896044618658097711785492504343953926634992332820282019728792003956564819949 := by
    norm_num
  rw [h]; exact Primes.prime_p25519⟩

end Verif.Fp25519
