import Verif.Sha512.StreamLemmas

/-!
# C34: SHA-512

`Verif.Sha512.sha512` is the function of FIPS 180-4, written without reference to the code
(Verif/Sha512/Spec.lean).
-/

namespace Verif.Sha512

/-- C34: init, any number of updates with any lengths, close: the digest is the SHA-512 digest of
the concatenation, whatever the context held before.  The code counts bytes modulo 2^64. -/
theorem C34_sha512 (ctx : Ctx) (hctx : ctx.buf.length = 128) (chunks : List (List Byte))
    (h : chunks.flatten.length < 2 ^ 64) :
    (close (chunks.foldl update (init ctx))).2 = sha512 chunks.flatten :=
  close_spec (by simpa using updates_inv (inv_init ctx hctx) chunks) h

/-- C34: the way the message is split does not matter. -/
theorem C34_split (ctx ctx' : Ctx) (hctx : ctx.buf.length = 128) (hctx' : ctx'.buf.length = 128)
    (chunks chunks' : List (List Byte)) (h : chunks.flatten = chunks'.flatten)
    (hl : chunks.flatten.length < 2 ^ 64) :
    (close (chunks.foldl update (init ctx))).2 = (close (chunks'.foldl update (init ctx'))).2 := by
  rw [C34_sha512 ctx hctx chunks hl, C34_sha512 ctx' hctx' chunks' (h ▸ hl), h]

/-- C34: close leaves the context ready for the next message. -/
theorem C34_reuse (ctx : Ctx) (hctx : ctx.buf.length = 128) (first second : List (List Byte))
    (h : second.flatten.length < 2 ^ 64) :
    (close (second.foldl update (close (first.foldl update (init ctx))).1)).2 =
      sha512 second.flatten := by
  have hi : Inv (close (first.foldl update (init ctx))).1 [] := by
    have h1 := (updates_inv (inv_init ctx hctx) first).len
    exact inv_init _ (close_buf h1)
  exact close_spec (by simpa using updates_inv hi second) h

/-- The digest has 64 bytes. -/
theorem C34_length (m : List Byte) : (sha512 m).length = 64 := by
  simp [sha512, Regs.bytes, beBytes]

/-- "abc", in two pieces (FIPS 180-4 example). -/
example : (close ([[0x61#8], [0x62#8, 0x63#8]].foldl update (init ⟨List.replicate 128 0xa5#8,
    H512, 7⟩))).2 = leBytes 64 (leNat (leBytes 64
      0xddaf35a193617abacc417349ae20413112e6fa4e89a97ea20a9eeee64b55d39a2192992a274fc1a836ba3c23a3feebbd454d4423643ce80e2a9ac94fa54ca49f).reverse) := by
  decide +kernel

/-- The hypotheses hold of two long pieces. -/
example : ([List.replicate 1000 1#8, List.replicate 777 2#8]).flatten.length < 2 ^ 64 ∧
    (List.replicate 128 0xa5#8).length = 128 := by
  decide +kernel

end Verif.Sha512
