import Verif.H2c.Avx2Result
import Verif.Props.HashToCurve
import Verif.Props.Sha512TwoWay

/-!
# C39: the AVX2 and the 64-bit hash-to-curve

The property is false of the code.  The two functions agree on messages below 2^32 - 1 bytes for
which the comparisons of the AVX2 code, which look at one bit in eight, decide rightly, no
subtraction of the doublings underflows and memory is available.
-/

namespace Verif.H2c

open Verif.Fp25519 Verif.Ed25519

/-- The field element derived from the message, as words. -/
def wordsOf (pfx : Byte) (msg : List Byte) : F4 :=
  F4.ofBytes (reduceBytes (Sha512.sha512 (pfx :: msg)))

theorem wordsOf_toFp (pfx : Byte) (msg : List Byte) : (wordsOf pfx msg).toFp = fieldOf pfx msg := by
  rw [wordsOf, F4.toFp, F4.ofBytes_val (reduceBytes_length _), Int.cast_natCast]
  rfl

theorem hash_to_field_2w_eq (msg : List Byte) (h : msg.length + 1 < 2 ^ 32) :
    hash_to_field_2w true true msg = some (wordsOf 0#8 msg, wordsOf 1#8 msg) := by
  unfold hash_to_field_2w
  have e : ∀ b : Byte, (b :: msg).take ((msg.length + 1) % 2 ^ 32) = b :: msg := by
    intro b
    rw [Nat.mod_eq_of_lt h]
    exact List.take_of_length_le (by simp)
  simp only [Bool.and_self, if_true, e]
  rw [Sha512.C35_two_way _ _ (by simp)]
  rfl

/-- C39, partial: the AVX2 function returns a point with the coordinates of the point that the
64-bit function returns.  Missing: messages of 2^32 - 1 bytes or more, and messages that are not
`Fine`: the comparisons of the two-way code look only at the words they compare, and its
doc comment in H2c/Avx2Lemmas.lean says which values are told apart wrongly. -/
theorem C39_agree_partial (isa isa' : Isa) (ctx0 ctx1 : Sha512.Ctx) (h0 : ctx0.buf.length = 128)
    (h1 : ctx1.buf.length = 128) (msg : List Byte) (h : msg.length + 1 < 2 ^ 32)
    (hf : Fine (wordsOf 0#8 msg) (wordsOf 1#8 msg)) :
    ∃ P, h2c25519_avx2 isa true true msg = some P ∧
      P.X.toFp = (h2c25519_x64 isa' ctx0 ctx1 msg).X.toFp ∧
      P.Y.toFp = (h2c25519_x64 isa' ctx0 ctx1 msg).Y.toFp := by
  obtain ⟨Q0, Q1, m0, m1, hx, hy⟩ := C37_map isa' ctx0 ctx1 h0 h1 msg (by omega)
  obtain ⟨R0, R1, k0, k1, gx, gy⟩ := h2c_fields_spec isa hf
  rw [wordsOf_toFp] at k0 k1
  obtain rfl := m0.unique k0
  obtain rfl := m1.unique k1
  refine ⟨h2c_fields isa (wordsOf 0#8 msg) (wordsOf 1#8 msg), ?_, by rw [gx, hx], by rw [gy, hy]⟩
  unfold h2c25519_avx2
  rw [hash_to_field_2w_eq msg h]
  rfl

/-- C39: the length is cut to 32 bits, so all messages of 2^32 - 1 bytes have the same image. -/
theorem C39_collision (isa : Isa) (a0 a1 : Bool) (m m' : List Byte) (h : m.length = 2 ^ 32 - 1)
    (h' : m'.length = 2 ^ 32 - 1) : h2c25519_avx2 isa a0 a1 m = h2c25519_avx2 isa a0 a1 m' := by
  unfold h2c25519_avx2 hash_to_field_2w
  have e : ∀ l : List Byte, l.length = 2 ^ 32 - 1 → (l.length + 1) % 2 ^ 32 = 0 := by
    intro l hl; omega
  rw [e m h, e m' h']
  simp only [List.take_zero]

/-- C39: more generally, of a message of 2^32 + n bytes only the first n count. -/
theorem C39_truncated (isa : Isa) (a0 a1 : Bool) (m t : List Byte) (h : m.length + 1 < 2 ^ 32)
    (ht : t.length = 2 ^ 32) :
    h2c25519_avx2 isa a0 a1 (m ++ t) = h2c25519_avx2 isa a0 a1 m := by
  unfold h2c25519_avx2 hash_to_field_2w
  have e : ((m ++ t).length + 1) % 2 ^ 32 = m.length + 1 := by
    rw [List.length_append]; omega
  have k : ∀ b : Byte, (b :: (m ++ t)).take (m.length + 1) = (b :: m).take (m.length + 1) := by
    intro b
    rw [List.take_succ_cons, List.take_succ_cons, List.take_left' rfl, List.take_length]
  rw [e, Nat.mod_eq_of_lt h]
  simp only [k]

/-- C39: the hypotheses of `C39_collision` hold of two different messages. -/
example : ∃ m m' : List Byte, m ≠ m' ∧ m.length = 2 ^ 32 - 1 ∧ m'.length = 2 ^ 32 - 1 :=
  ⟨List.replicate (2 ^ 32 - 1) 0#8, List.replicate (2 ^ 32 - 1) 1#8,
    fun h => by simpa using (List.replicate_inj.1 h).2, List.length_replicate, List.length_replicate⟩

/-- C39: an allocation that fails is undefined behaviour. -/
theorem C39_no_memory (isa : Isa) (a0 a1 : Bool) (msg : List Byte) (h : (a0 && a1) = false) :
    h2c25519_avx2 isa a0 a1 msg = none := by
  unfold h2c25519_avx2 hash_to_field_2w
  rw [h]
  rfl

/-! ## "abc" meets the hypotheses of `C39_agree_partial` -/

/-- Numerator of g(x1), in the field arithmetic of the code. -/
def gx1F (u : F4) : F4 :=
  let isa : Isa := ⟨true, true⟩
  let t := Full.sqr isa u
  let t := Full.add isa t t
  let d := Full.add isa t one
  let n := Full.neg A_full
  Full.mul isa (Full.add isa (Full.mul isa (Full.mul isa A_full t) n) (Full.sqr isa d)) n

/-- Denominator of the result, in the field arithmetic of the code. -/
def denF (u : F4) : F4 :=
  let isa : Isa := ⟨true, true⟩
  let M := elligator2_curve25519 isa u
  Full.mul isa (Full.mul isa M.xd M.yn) (Full.add isa M.xn M.xd)

/-- Some byte of the canonical words differs in its lowest bit. -/
def toldB (a b : F4) : Bool :=
  ((Full.modp a).toBytes.zip (Full.modp b).toBytes).any fun xy => xy.1.getLsbD 0 != xy.2.getLsbD 0

theorem toldB_spec {a b : F4} (h : toldB a b = true) : ToldApart a.toFp b.toFp := by
  have e : ∀ c : F4, (Full.modp c).toBytes = leBytes 32 (canon c.toFp) := by
    intro c
    have : leNat (Full.modp c).toBytes = canon c.toFp := by
      have h1 := F4.leNat_toBytes (Full.modp c)
      rw [Full.modp_val] at h1
      have h2 : ((canon c.toFp : ℕ) : ℤ) = c.val % p25519 := by
        unfold canon F4.toFp
        rw [ZMod.val_intCast]; rfl
      omega
    rw [← this]
    exact (leBytes_leNat (Full.modp c).toBytes).symm
  by_contra hn
  unfold ToldApart at hn
  push Not at hn
  have := (leBytes_bits (canon a.toFp) (canon b.toFp) 32).2 hn
  rw [toldB, e, e, List.any_eq_true] at h
  obtain ⟨xy, hm, hxy⟩ := h
  have := this xy hm
  exact (bne_iff_ne.1 hxy) this

theorem Clear.of_code {u : F4}
    (h1 : toldB (Full.mul ⟨true, true⟩ c3_full (gx1F u)) (gx1F u) = true)
    (h2 : toldB (Full.mul ⟨true, true⟩ (Full.neg c3_full) (gx1F u)) (gx1F u) = true)
    (h3 : toldB (denF u) Full.zero = true) : Clear u.toFp := by
  have hg : (gx1F u).toFp = g (x1 u.toFp) * (2 * u.toFp ^ 2 + 1) ^ 3 := by
    rw [show g (x1 u.toFp) * (2 * u.toFp ^ 2 + 1) ^ 3 = gx1 u.toFp by rw [← g_x1, gxd]; ring]
    simp only [gx1F, Full.mul_toFp, Full.add_toFp, Full.sqr_toFp, Full.neg_toFp, A_toFp, one_toFp,
      gx1, two_mul]
  constructor
  · intro _
    have k1 := toldB_spec h1
    have k2 := toldB_spec h2
    rw [Full.mul_toFp, c3_toFp, hg] at k1
    rw [Full.mul_toFp, Full.neg_toFp, c3_toFp, hg] at k2
    exact ⟨k1, k2⟩
  · intro x y hE _
    obtain ⟨hS, hm, -⟩ := elligator2_curve25519_spec ⟨true, true⟩ u
    obtain ⟨rfl, rfl⟩ := hE.unique hS
    have k := toldB_spec h3
    rw [Full.zero_toFp] at k
    have hd : (elligator2_curve25519 ⟨true, true⟩ u).xd.toFp = 2 * u.toFp ^ 2 + 1 := by
      unfold elligator2_curve25519
      simp only [Full.add_toFp, Full.sqr_toFp, one_toFp, two_mul]
    convert k using 1
    simp only [denF, Full.mul_toFp, Full.add_toFp]
    rw [← hd]
    field_simp

theorem wordsOf_code (ctx : Sha512.Ctx) (hctx : ctx.buf.length = 128) (pfx : Byte)
    (msg : List Byte) (h : msg.length + 1 < 2 ^ 64) :
    wordsOf pfx msg = hash_to_field ctx pfx msg := (hash_to_field_eq ctx hctx pfx msg h).symm

/-- "abc" is not one of the rare messages. -/
theorem abc_fine : Fine (wordsOf 0#8 abc) (wordsOf 1#8 abc) := by
  rw [wordsOf_code ctxZero List.length_replicate 0#8 abc (by decide),
    wordsOf_code ctxZero List.length_replicate 1#8 abc (by decide)]
  have h0 : hash_to_field ctxZero 0#8 abc = F4.ofBytes (leBytes 32
    2030722112410391344118719910816093656253978186650419437366954562864231750348) := by decide +kernel
  have h1 : hash_to_field ctxZero 1#8 abc = F4.ofBytes (leBytes 32
    5213026311295288067348143419910708739902921950025799079661211534915194610909) := by decide +kernel
  rw [h0, h1]
  refine ⟨Clear.of_code ?_ ?_ ?_, Clear.of_code ?_ ?_ ?_, ?_, ?_⟩ <;> decide +kernel

/-- A message of five bytes, found by a search over some 2^31 messages. -/
def msg5 : List Byte := [0xd6#8, 0x29#8, 0x9d#8, 0x79#8, 0x00#8]

/-- C39 is false also for short messages: on `msg5` the AVX2 code takes a non-zero denominator for
zero, because its canonical encoding has only even bytes, and the two functions return different
points. -/
theorem C39_wrong :
    ∃ P, h2c25519_avx2 ⟨true, true⟩ true true msg5 = some P ∧
      P.X.toFp ≠ (h2c25519_x64 ⟨true, true⟩ ctxZero ctxZero msg5).X.toFp := by
  have h0 : hash_to_field ctxZero 0#8 msg5 = F4.ofBytes (leBytes 32 
    3512407236070425185941590131868953287540738490194962507790292849467692776342) := by
    decide +kernel
  have h1 : hash_to_field ctxZero 1#8 msg5 = F4.ofBytes (leBytes 32 
    2245154582275752526817029061285874820833881491728602520383837803049550501959) := by
    decide +kernel
  refine ⟨h2c_fields ⟨true, true⟩ (wordsOf 0#8 msg5) (wordsOf 1#8 msg5), ?_, ?_⟩
  · unfold h2c25519_avx2
    rw [hash_to_field_2w_eq msg5 (by decide)]
    rfl
  · rw [wordsOf_code ctxZero List.length_replicate 0#8 msg5 (by decide),
      wordsOf_code ctxZero List.length_replicate 1#8 msg5 (by decide)]
    unfold h2c25519_x64
    rw [h0, h1, Ne, ← Full.modp_eq_iff]
    decide +kernel

end Verif.H2c
