import Verif.Sha512.TwoWayLemmas

/-!
# C35: two-way SHA-512
-/

namespace Verif.Sha512

open TwoWay

/-- C35: for two messages of the same length the two digests are those of FIPS 180-4. -/
theorem C35_two_way (m0 m1 : List Byte) (hl : m0.length = m1.length) :
    sha512_2w m0 m1 = (sha512 m0, sha512 m1) :=
  sha512_2w_spec m0 m1 hl.symm

/-- C35: the two-way hash agrees with the streaming hash. -/
theorem C35_agrees (m0 m1 : List Byte) (hl : m0.length = m1.length) (h : m0.length < 2 ^ 32)
    (ctx : Ctx) (hctx : ctx.buf.length = 128) :
    sha512_2w m0 m1 =
      ((close (update (init ctx) m0)).2, (close (update (init ctx) m1)).2) := by
  have hs : ∀ m : List Byte, m.length < 2 ^ 32 → (close (update (init ctx) m)).2 = sha512 m :=
    fun m hm => close_spec (by simpa using update_inv (inv_init ctx hctx) m) (by omega)
  rw [C35_two_way m0 m1 hl, hs m0 h, hs m1 (by omega)]

/-- The variant for messages of 32 bytes gives the two digests when 128 bytes of each buffer can be
read. -/
theorem C35_256b (m0 m1 : List Byte) (h0 : 128 ≤ m0.length) (h1 : 128 ≤ m1.length) :
    sha512_2w_256b m0 m1 = some (sha512 (m0.take 32), sha512 (m1.take 32)) :=
  sha512_2w_256b_spec m0 m1 h0 h1

/-- The variant for messages of 32 bytes reads outside buffers of 32 bytes. -/
theorem C35_256b_out_of_bounds (m0 m1 : List Byte) (h0 : m0.length = 32) (h1 : m1.length = 32) :
    sha512_2w_256b m0 m1 = none := by
  rw [sha512_2w_256b, if_neg]
  rw [h0, h1]
  decide

/-- Two distinct messages, of 119 bytes: the padding needs a second block. -/
example : (List.replicate 119 1#8 : List Byte) ≠ List.replicate 119 2#8 ∧
    (List.replicate 119 1#8 : List Byte).length = (List.replicate 119 2#8 : List Byte).length := by
  decide +kernel

/-- The lanes are not mixed up: "abc" and "abd". -/
example : (sha512_2w [0x61#8, 0x62#8, 0x63#8] [0x61#8, 0x62#8, 0x64#8]).1 =
    leBytes 64 (leNat (leBytes 64
      0xddaf35a193617abacc417349ae20413112e6fa4e89a97ea20a9eeee64b55d39a2192992a274fc1a836ba3c23a3feebbd454d4423643ce80e2a9ac94fa54ca49f).reverse) ∧
    (sha512_2w [0x61#8, 0x62#8, 0x63#8] [0x61#8, 0x62#8, 0x64#8]).1 ≠
    (sha512_2w [0x61#8, 0x62#8, 0x63#8] [0x61#8, 0x62#8, 0x64#8]).2 := by
  decide +kernel

end Verif.Sha512
