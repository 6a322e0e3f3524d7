import Verif.Props.X25519
import Verif.X25519.KeygenLemmas

/-!
# Key generation of X25519

The specification is `IsX25519` of `Verif/X25519/Spec.lean` (RFC 7748) at the coordinate u = 9.
`keygen` is the function behind both `X25519.keygen` and `X25519_x64.keygen` (src/dh255.c:30-50).
-/

namespace Verif.X25519

open Verif.Fp25519

/-- C19.  The public key is the X25519 function of the secret key and the base point u = 9, for
every 32-byte secret key. -/
theorem C19_keygen (isa : Isa) (k : List Byte) (hk : k.length = 32) :
    IsX25519 k nine (keygen isa k) := keygen_spec isa hk

/-- C19.  It is what either variant of `shared` returns for u = 9. -/
theorem C19_keygen_eq_shared (isa isa' isa'' : Isa) (k : List Byte) (hk : k.length = 32) :
    keygen isa k = shared_x64 isa' nine k ∧ keygen isa k = Avx2.shared isa'' nine k :=
  ⟨C15_spec_unique (keygen_spec isa hk) (shared_x64_spec isa' (by simp) hk),
    C15_spec_unique (keygen_spec isa hk) (Avx2.shared_spec isa'' (by simp) hk)⟩

/-- The public key is 32 bytes and canonical. -/
theorem C19_keygen_canonical (isa : Isa) (k : List Byte) (hk : k.length = 32) :
    (keygen isa k).length = 32 ∧ leNat (keygen isa k) < 2 ^ 255 - 19 := by
  rw [(C19_keygen_eq_shared isa isa isa k hk).1]
  exact C15_shared_x64_canonical isa nine k (by simp [nine]) hk

/-- C18.  Two parties that run key generation and then `shared`, with any variants, obtain the
same secret. -/
theorem C18_dh_keygen (isa isa' : Isa) (a b : List Byte) (ha : a.length = 32)
    (hb : b.length = 32) :
    shared_x64 isa (keygen isa' b) a = Avx2.shared isa' (keygen isa a) b :=
  C18_dh_spec (keygen_spec isa' hb) (shared_x64_spec isa (C19_keygen_canonical isa' b hb).1 ha)
    (keygen_spec isa ha) (Avx2.shared_spec isa' (C19_keygen_canonical isa a ha).1 hb)

/-- Non-vacuity: Alice's keys of RFC 7748, section 6.1. -/
example : keygen ⟨true, true⟩
      (leBytes 32 0x2a2cb91da5fb77b12a99c0eb872f4cdf4566b25172c1163c7da518730a6d0777) =
    leBytes 32 0x6a4e9baa8ea9a4ebf41a38260d3abf0d5af73eb4dc7d8b7454a7308909f02085 := by
  decide +kernel

end Verif.X25519
