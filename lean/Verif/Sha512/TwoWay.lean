import Verif.Simd.Basic
import Verif.Sha512.Model

/-!
# Two-way SHA-512: third_party/sha512_2way.c

Two messages of the same length are hashed in the two 64-bit lanes of 128-bit registers.  In
`LOAD(p + k)` and `STORE(p + k, y)` the macros cast only `p` (third_party/multi_hash.h:17-18), so
the offset counts 16-byte units.
-/

namespace Verif.Sha512.TwoWay

/-- third_party/multi_hash.h:19-27: the operations on the two 64-bit lanes. -/
def AND (x y : U) : U := ⟨x.l &&& y.l, x.h &&& y.h⟩
def ADD (x y : U) : U := ⟨x.l + y.l, x.h + y.h⟩
def XOR (x y : U) : U := ⟨x.l ^^^ y.l, x.h ^^^ y.h⟩
def OR (x y : U) : U := ⟨x.l ||| y.l, x.h ||| y.h⟩
def SHL (x : U) (k : ℕ) : U := ⟨x.l <<< k, x.h <<< k⟩
def SHR (x : U) (k : ℕ) : U := ⟨x.l >>> k, x.h >>> k⟩

/-- third_party/multi_hash.h:29 `SET1_64_128`. -/
def SET1_64 (x : W) : U := ⟨x, x⟩

/-- The sixteen bytes of a register in memory: third_party/multi_hash.h:18 `STORE_128`. -/
def bytes16 (x : U) : List Byte := wordBytes x.l ++ wordBytes x.h

/-- third_party/multi_hash.h:17 `LOAD_128` of the 16-byte unit `k` of a buffer. -/
def LOAD (p : List Byte) (k : ℕ) : U := ⟨loadWord p (2 * k), loadWord p (2 * k + 1)⟩

/-- third_party/multi_hash.h:28 `SHUF8_128`, the instruction pshufb: byte `k` of the result is
byte `y[k] % 16` of `x`, or zero when the top bit of `y[k]` is set. -/
def SHUF8 (x y : U) : U :=
  LOAD ((bytes16 y).map fun s =>
    if s.msb then 0#8 else (bytes16 x).getD (s.toNat % 16) 0) 0

/-- third_party/sha512_2way.c:270 `big_endian`. -/
def big_endian : U := ⟨0x0001020304050607#64, 0x08090a0b0c0d0e0f#64⟩

/-- third_party/multi_hash.h:81-99 `KSHA512`. -/
def KSHA512 : List W :=
  [0x428a2f98d728ae22#64, 0x7137449123ef65cd#64, 0xb5c0fbcfec4d3b2f#64, 0xe9b5dba58189dbbc#64,
   0x3956c25bf348b538#64, 0x59f111f1b605d019#64, 0x923f82a4af194f9b#64, 0xab1c5ed5da6d8118#64,
   0xd807aa98a3030242#64, 0x12835b0145706fbe#64, 0x243185be4ee4b28c#64, 0x550c7dc3d5ffb4e2#64,
   0x72be5d74f27b896f#64, 0x80deb1fe3b1696b1#64, 0x9bdc06a725c71235#64, 0xc19bf174cf692694#64,
   0xe49b69c19ef14ad2#64, 0xefbe4786384f25e3#64, 0x0fc19dc68b8cd5b5#64, 0x240ca1cc77ac9c65#64,
   0x2de92c6f592b0275#64, 0x4a7484aa6ea6e483#64, 0x5cb0a9dcbd41fbd4#64, 0x76f988da831153b5#64,
   0x983e5152ee66dfab#64, 0xa831c66d2db43210#64, 0xb00327c898fb213f#64, 0xbf597fc7beef0ee4#64,
   0xc6e00bf33da88fc2#64, 0xd5a79147930aa725#64, 0x06ca6351e003826f#64, 0x142929670a0e6e70#64,
   0x27b70a8546d22ffc#64, 0x2e1b21385c26c926#64, 0x4d2c6dfc5ac42aed#64, 0x53380d139d95b3df#64,
   0x650a73548baf63de#64, 0x766a0abb3c77b2a8#64, 0x81c2c92e47edaee6#64, 0x92722c851482353b#64,
   0xa2bfe8a14cf10364#64, 0xa81a664bbc423001#64, 0xc24b8b70d0f89791#64, 0xc76c51a30654be30#64,
   0xd192e819d6ef5218#64, 0xd69906245565a910#64, 0xf40e35855771202a#64, 0x106aa07032bbd1b8#64,
   0x19a4c116b8d2d0c8#64, 0x1e376c085141ab53#64, 0x2748774cdf8eeb99#64, 0x34b0bcb5e19b48a8#64,
   0x391c0cb3c5c95a63#64, 0x4ed8aa4ae3418acb#64, 0x5b9cca4f7763e373#64, 0x682e6ff3d6b2b8a3#64,
   0x748f82ee5defb2fc#64, 0x78a5636f43172f60#64, 0x84c87814a1f0ab72#64, 0x8cc702081a6439ec#64,
   0x90befffa23631e28#64, 0xa4506cebde82bde9#64, 0xbef9a3f7b2c67915#64, 0xc67178f2e372532b#64,
   0xca273eceea26619c#64, 0xd186b8c721c0c207#64, 0xeada7dd6cde0eb1e#64, 0xf57d4f7fee6ed178#64,
   0x06f067aa72176fba#64, 0x0a637dc5a2c898a6#64, 0x113f9804bef90dae#64, 0x1b710b35131c471b#64,
   0x28db77f523047d84#64, 0x32caab7b40c72493#64, 0x3c9ebe0a15c9bebc#64, 0x431d67c49c100d4c#64,
   0x4cc5d4becb3e42b6#64, 0x597f299cfc657e2a#64, 0x5fcb6fab3ad6faec#64, 0x6c44198c4a475817#64]

/-- Eight registers: `state`, or the variables a, ..., h. -/
structure R8 where
  a : U
  b : U
  c : U
  d : U
  e : U
  f : U
  g : U
  h : U

/-- third_party/sha512_2way.c:64-70 `TRANSPOSE_2WAY`: the new values of its two arguments. -/
def unpacklo (x y : U) : U := ⟨x.l, y.l⟩
def unpackhi (x y : U) : U := ⟨x.h, y.h⟩

/-- third_party/sha512_2way.c:72-78 `transpose_state_2way`. -/
def transpose_state (w : R8) : R8 :=
  ⟨unpacklo w.a w.b, unpackhi w.a w.b, unpacklo w.c w.d, unpackhi w.c w.d,
    unpacklo w.e w.f, unpackhi w.e w.f, unpacklo w.g w.h, unpackhi w.g w.h⟩

/-- third_party/sha512_2way.c:80-90 `transpose_msg_2way`: elements 2i and 2i+1 are transposed. -/
def transpose_msg (w : List U) : List U :=
  (List.range 16).map fun k =>
    if k % 2 = 0 then unpacklo (w.getD k ⟨0, 0⟩) (w.getD (k + 1) ⟨0, 0⟩)
    else unpackhi (w.getD (k - 1) ⟨0, 0⟩) (w.getD k ⟨0, 0⟩)

/-- third_party/sha512_2way.c:92-102 `initialize`. -/
def init8 : R8 :=
  ⟨SET1_64 0x6a09e667f3bcc908#64, SET1_64 0xbb67ae8584caa73b#64, SET1_64 0x3c6ef372fe94f82b#64,
    SET1_64 0xa54ff53a5f1d36f1#64, SET1_64 0x510e527fade682d1#64, SET1_64 0x9b05688c2b3e6c1f#64,
    SET1_64 0x1f83d9abfb41bd6b#64, SET1_64 0x5be0cd19137e2179#64⟩

/-- third_party/sha512_2way.c:119-140 `computeT1`. -/
def computeT1 (e f g h : U) : U :=
  let t0 := SHL e (64 - 14)
  let t1 := SHL e (64 - 18)
  let t2 := SHL e (64 - 41)
  let t3 := SHR e 14
  let t4 := SHR e 18
  let t5 := SHR e 41
  let t3 := OR t3 t0
  let t0 := XOR f g
  let t4 := OR t4 t1
  let t5 := OR t5 t2
  let t4 := XOR t3 t4
  let t0 := AND t0 e
  let t4 := XOR t4 t5
  let T1 := ADD h t4
  let t0 := XOR t0 g
  ADD T1 t0

/-- third_party/sha512_2way.c:142-162 `computeT2`. -/
def computeT2 (a b c : U) : U :=
  let s0 := OR b c
  let T2 := AND b c
  let s0 := AND a s0
  let s1 := SHL a (64 - 28)
  let s2 := SHL a (64 - 34)
  let s3 := SHL a (64 - 39)
  let s4 := SHR a 28
  let s5 := SHR a 34
  let s4 := OR s4 s1
  let s5 := OR s5 s2
  let s1 := SHR a 39
  let s0 := OR T2 s0
  let s1 := OR s1 s3
  let s4 := XOR s4 s5
  let T2 := XOR s4 s1
  ADD T2 s0

/-- third_party/sha512_2way.c:164-190 `msg_schedule`. -/
def msg_schedule (W : List U) (i : ℕ) : U :=
  let w := fun k => W.getD k ⟨0, 0⟩
  let t1 := SHL (w (i - 2)) (64 - 19)
  let t2 := SHL (w (i - 2)) (64 - 61)
  let t3 := SHR (w (i - 2)) 19
  let t4 := SHR (w (i - 2)) 61
  let t7 := OR t1 t3
  let t4 := OR t2 t4
  let t5 := SHR (w (i - 2)) 6
  let t7 := XOR t7 t4
  let t1 := SHR (w (i - 15)) 1
  let t2 := SHR (w (i - 15)) 8
  let t3 := SHL (w (i - 15)) (64 - 1)
  let t4 := SHL (w (i - 15)) (64 - 8)
  let t7 := XOR t7 t5
  let t6 := OR t1 t3
  let t4 := OR t2 t4
  let t5 := SHR (w (i - 15)) 7
  let t6 := XOR t6 t4
  let t7 := ADD t7 (w (i - 7))
  let t6 := XOR t6 t5
  let t6 := ADD t6 (w (i - 16))
  ADD t7 t6

/-- third_party/sha512_2way.c:205-210, the body of the first loop of `sha512_permutation`, also
215-220, the end of the body of the second. -/
def round (block : List U) (v : R8) (i : ℕ) : R8 :=
  let T1 := computeT1 v.e v.f v.g v.h
  let T2 := computeT2 v.a v.b v.c
  let Ki := SET1_64 (KSHA512.getD i 0)
  let T1 := ADD T1 (ADD Ki (block.getD i ⟨0, 0⟩))
  ⟨ADD T1 T2, v.a, v.b, v.c, ADD v.d T1, v.e, v.f, v.g⟩

/-- third_party/sha512_2way.c:203-221, the two loops of `sha512_permutation`.  Of `message_block`
only the sixteen elements loaded before the call are read before they are written; the others are
appended in order. -/
def rounds (state : R8) (message_block : List U) : ℕ → R8 × List U
  | 0 => (state, message_block)
  | i + 1 =>
    let (v, block) := rounds state message_block i
    let block := if i < 16 then block else block ++ [msg_schedule block i]
    (round block v i, block)

/-- third_party/sha512_2way.c:192-231 `sha512_permutation`: the new `state`. -/
def sha512_permutation (state : R8) (message_block : List U) : R8 :=
  let v := (rounds state message_block 80).1
  ⟨ADD state.a v.a, ADD state.b v.b, ADD state.c v.c, ADD state.d v.d,
    ADD state.e v.e, ADD state.f v.f, ADD state.g v.g, ADD state.h v.h⟩

/-- third_party/sha512_2way.c:284-290, and the other loops that fill `block`: element 2i+msg is the
16-byte unit `unit + i` of the buffer of message `msg`, with the bytes of its words reversed. -/
def load_block (p0 p1 : List Byte) (unit : ℕ) : List U :=
  (List.range 16).map fun k =>
    SHUF8 (LOAD (if k % 2 = 0 then p0 else p1) (unit + k / 2)) big_endian

/-- third_party/sha512_2way.c:280-293 (in `sha512_2w_avx`): the loop over whole blocks. -/
def blocks (m0 m1 : List Byte) : ℕ → R8
  | 0 => init8
  | b + 1 => sha512_permutation (blocks m0 m1 b) (transpose_msg (load_block m0 m1 (8 * b)))

/-- third_party/sha512_2way.c:299-303 and 324-328: the half of `buffer` of one message after its
last bytes and 0x80 are copied to it. -/
def tailBuf (m : List Byte) (num_blocks : ℕ) : List Byte :=
  blit (blit (List.replicate 128 0#8) 0 (m.drop (128 * num_blocks)))
    (m.drop (128 * num_blocks)).length [0x80#8]

/-- third_party/sha512_2way.c:304-307 and 346-349: the sixteen bytes of `mlen_bits`, the most
significant one first, at the end of the half of `buffer`. -/
def lenBuf (buf : List Byte) (mlen_bits : ℕ) : List Byte :=
  blit buf 112 (leBytes 16 mlen_bits).reverse

/-- third_party/sha512_2way.c:360-367 (in `sha512_2w_avx`): the two digests. -/
def digests (state : R8) : List Byte × List Byte :=
  let s := transpose_state state
  ([s.a, s.c, s.e, s.g].flatMap fun x => bytes16 (SHUF8 x big_endian),
    [s.b, s.d, s.f, s.h].flatMap fun x => bytes16 (SHUF8 x big_endian))

/-- third_party/sha512_2way.c:268-369 `sha512_2w_avx` for two messages of the same length, less
than 2^32 (`unsigned int`): the two digests.  The two halves of `buffer` are two lists. -/
def sha512_2w (m0 m1 : List Byte) : List Byte × List Byte :=
  let num_blocks := m0.length / 128
  let remainder_bytes := m0.length - num_blocks * 128
  let mlen_bits := m0.length * 8
  let state := blocks m0 m1 num_blocks
  if remainder_bytes < 112 then
    digests (sha512_permutation state (transpose_msg (load_block
      (lenBuf (tailBuf m0 num_blocks) mlen_bits) (lenBuf (tailBuf m1 num_blocks) mlen_bits) 0)))
  else if remainder_bytes < 128 then
    let b0 := tailBuf m0 num_blocks
    let b1 := tailBuf m1 num_blocks
    let state := sha512_permutation state (transpose_msg (load_block b0 b1 0))
    let b0 := blit b0 0 (List.replicate 112 0#8)
    let b1 := blit b1 0 (List.replicate 112 0#8)
    digests (sha512_permutation state (transpose_msg (load_block
      (lenBuf b0 mlen_bits) (lenBuf b1 mlen_bits) 0)))
  else digests state

/-- third_party/sha512_2way.c:252-258 (in `sha512_2w_avx_256b`): the block after the padding is
written over its elements 4 to 15. -/
def block_256b (p0 p1 : List Byte) : List U :=
  let block := load_block p0 p1 0
  let block := (block.set 0 (unpacklo (block.getD 0 ⟨0, 0⟩) (block.getD 1 ⟨0, 0⟩))).set 1
    (unpackhi (block.getD 0 ⟨0, 0⟩) (block.getD 1 ⟨0, 0⟩))
  let block := (block.set 2 (unpacklo (block.getD 2 ⟨0, 0⟩) (block.getD 3 ⟨0, 0⟩))).set 3
    (unpackhi (block.getD 2 ⟨0, 0⟩) (block.getD 3 ⟨0, 0⟩))
  let block := block.set 4 (SET1_64 0x8000000000000000#64)
  let block := (List.range 10).foldl (fun block i => block.set (5 + i) ⟨0, 0⟩) block
  block.set 15 (SET1_64 256#64)

/-- third_party/sha512_2way.c:233-266 `sha512_2w_avx_256b`.  `none` is undefined behaviour: the loop
at lines 244-250 reads the 16-byte units 0 to 7 of each message, and one of them is not inside the
buffer. -/
def sha512_2w_256b (m0 m1 : List Byte) : Option (List Byte × List Byte) :=
  if (List.range 8).all fun i => 16 * (i + 1) ≤ m0.length ∧ 16 * (i + 1) ≤ m1.length then
    some (digests (sha512_permutation init8 (block_256b m0 m1)))
  else none

end Verif.Sha512.TwoWay
