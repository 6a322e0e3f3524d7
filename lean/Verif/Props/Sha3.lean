import Verif.Keccak.StreamLemmas

/-!
# C36: SHA-3 and SHAKE

`keccakF`, `sponge`, `shake128`, `shake256` and `sha3` are the functions of FIPS 202, written
without reference to the code (Verif/Keccak/Spec.lean).
-/

namespace Verif.Keccak

/-- C36: the permutation, unrolled four rounds at a time and in place, is Keccak-f[1600]: bit
64(5y + x) + z of the new state is the bit [x, y, z] of the array Keccak-f gives. -/
theorem C36_permutation (s : List Byte) (x y : Fin 5) (z : Fin 64) :
    bitAt (permute s) (64 * (5 * y.val + x.val) + z.val) =
      keccakF (fun x y z => bitAt s (64 * (5 * y.val + x.val) + z.val)) x y z := by
  have h := permute_bits s
  have e : bits s = fun x y z => bitAt s (64 * (5 * y.val + x.val) + z.val) := by
    funext x y z; exact bits_apply s x y z
  rw [← bits_apply, h, e]

/-- C36: the one-call SHAKE256, for every message and output length. -/
theorem C36_SHAKE256 (m : List Byte) (d : ℕ) : SHAKE256 m d = shake256 m d :=
  shakeCode_spec (by decide) (by decide) (by decide) m d

/-- C36: the one-call SHAKE128. -/
theorem C36_SHAKE128 (m : List Byte) (d : ℕ) : SHAKE128 m d = shake128 m d :=
  shakeCode_spec (by decide) (by decide) (by decide) m d

/-- C36: Init, any number of Updates, Final2: SHAKE128 and SHAKE256 of the concatenation. -/
theorem C36_streaming_shake (chunks : List (List Byte)) (d : ℕ) :
    final2 (chunks.foldl update (init 128)) d = shake128 chunks.flatten d ∧
    final2 (chunks.foldl update (init 256)) d = shake256 chunks.flatten d := by
  refine ⟨?_, ?_⟩
  · have := updates_inv (inv_init (n := 128) (R := 168) (by decide) (by decide)) chunks
    exact final2_spec (by simpa using this) d
  · have := updates_inv (inv_init (n := 256) (R := 136) (by decide) (by decide)) chunks
    exact final2_spec (by simpa using this) d

/-- C36: Init, any number of Updates, Final: the first n/8 bytes written are the SHA3-n digest of
the concatenation. -/
theorem C36_streaming_sha3 (chunks : List (List Byte)) (n : ℕ)
    (hn : n = 224 ∨ n = 256 ∨ n = 384 ∨ n = 512) :
    (final (chunks.foldl update (init n))).take (n / 8) = sha3 n chunks.flatten := by
  have hR : 8 * (200 - n / 4) + 2 * n = 1600 := by omega
  have := updates_inv (inv_init (n := n) (R := 200 - n / 4) (by omega) hR) chunks
  rw [final_spec (m := chunks.flatten) (by simpa using this), sponge_take _ _ _ (by omega)]
  rfl

/-- C36: the result does not depend on how the message is split. -/
theorem C36_split (chunks chunks' : List (List Byte)) (h : chunks.flatten = chunks'.flatten)
    (d : ℕ) : final2 (chunks.foldl update (init 256)) d =
      final2 (chunks'.foldl update (init 256)) d := by
  rw [(C36_streaming_shake chunks d).2, (C36_streaming_shake chunks' d).2, h]

/-- The claim "Final writes the digest" is false: it writes 200 - n/4 bytes, more than the n/8 of
the digest, for every SHA3-n. -/
theorem C36_final_writes_more (chunks : List (List Byte)) (n : ℕ)
    (hn : n = 224 ∨ n = 256 ∨ n = 384 ∨ n = 512) :
    n / 8 < (final (chunks.foldl update (init n))).length := by
  have hR : 8 * (200 - n / 4) + 2 * n = 1600 := by omega
  have := updates_inv (inv_init (n := n) (R := 200 - n / 4) (by omega) hR) chunks
  rw [final_spec (m := chunks.flatten) (by simpa using this), sponge_length]
  omega

/-- SHA3-256 and SHAKE256 of the empty message (FIPS 202 examples). -/
example : (final ([[], []].foldl update (init 256))).take 4 = [0xa7#8, 0xff#8, 0xc6#8, 0xf8#8] ∧
    (SHAKE256 [] 32).take 4 = [0x46#8, 0xb9#8, 0xdd#8, 0x2b#8] ∧
    (SHAKE256 [] 200).length = 200 := by
  decide +kernel

end Verif.Keccak
