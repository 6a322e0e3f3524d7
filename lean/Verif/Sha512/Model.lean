import Verif.Sha512.Spec

/-!
# SHA-512: third_party/sha512.c

`sph_sha512` is `sph_sha384` (third_party/sha512.h:2302), compiled with the options detected for
x86-64 and gcc: `SPH_UPTR` defined, `SPH_UNALIGNED`, `SPH_LITTLE_ENDIAN`, 64-bit words
(third_party/sha512.h:1015-1026).  A buffer passed with its length is a list of bytes; `size_t`
arithmetic on lengths is exact because a buffer has fewer than 2^64 bytes.
-/

namespace Verif.Sha512

/-- third_party/sha512.c:51-92 `K512`. -/
def K512 : List W :=
  [0x428A2F98D728AE22#64, 0x7137449123EF65CD#64, 0xB5C0FBCFEC4D3B2F#64, 0xE9B5DBA58189DBBC#64,
   0x3956C25BF348B538#64, 0x59F111F1B605D019#64, 0x923F82A4AF194F9B#64, 0xAB1C5ED5DA6D8118#64,
   0xD807AA98A3030242#64, 0x12835B0145706FBE#64, 0x243185BE4EE4B28C#64, 0x550C7DC3D5FFB4E2#64,
   0x72BE5D74F27B896F#64, 0x80DEB1FE3B1696B1#64, 0x9BDC06A725C71235#64, 0xC19BF174CF692694#64,
   0xE49B69C19EF14AD2#64, 0xEFBE4786384F25E3#64, 0x0FC19DC68B8CD5B5#64, 0x240CA1CC77AC9C65#64,
   0x2DE92C6F592B0275#64, 0x4A7484AA6EA6E483#64, 0x5CB0A9DCBD41FBD4#64, 0x76F988DA831153B5#64,
   0x983E5152EE66DFAB#64, 0xA831C66D2DB43210#64, 0xB00327C898FB213F#64, 0xBF597FC7BEEF0EE4#64,
   0xC6E00BF33DA88FC2#64, 0xD5A79147930AA725#64, 0x06CA6351E003826F#64, 0x142929670A0E6E70#64,
   0x27B70A8546D22FFC#64, 0x2E1B21385C26C926#64, 0x4D2C6DFC5AC42AED#64, 0x53380D139D95B3DF#64,
   0x650A73548BAF63DE#64, 0x766A0ABB3C77B2A8#64, 0x81C2C92E47EDAEE6#64, 0x92722C851482353B#64,
   0xA2BFE8A14CF10364#64, 0xA81A664BBC423001#64, 0xC24B8B70D0F89791#64, 0xC76C51A30654BE30#64,
   0xD192E819D6EF5218#64, 0xD69906245565A910#64, 0xF40E35855771202A#64, 0x106AA07032BBD1B8#64,
   0x19A4C116B8D2D0C8#64, 0x1E376C085141AB53#64, 0x2748774CDF8EEB99#64, 0x34B0BCB5E19B48A8#64,
   0x391C0CB3C5C95A63#64, 0x4ED8AA4AE3418ACB#64, 0x5B9CCA4F7763E373#64, 0x682E6FF3D6B2B8A3#64,
   0x748F82EE5DEFB2FC#64, 0x78A5636F43172F60#64, 0x84C87814A1F0AB72#64, 0x8CC702081A6439EC#64,
   0x90BEFFFA23631E28#64, 0xA4506CEBDE82BDE9#64, 0xBEF9A3F7B2C67915#64, 0xC67178F2E372532B#64,
   0xCA273ECEEA26619C#64, 0xD186B8C721C0C207#64, 0xEADA7DD6CDE0EB1E#64, 0xF57D4F7FEE6ED178#64,
   0x06F067AA72176FBA#64, 0x0A637DC5A2C898A6#64, 0x113F9804BEF90DAE#64, 0x1B710B35131C471B#64,
   0x28DB77F523047D84#64, 0x32CAAB7B40C72493#64, 0x3C9EBE0A15C9BEBC#64, 0x431D67C49C100D4C#64,
   0x4CC5D4BECB3E42B6#64, 0x597F299CFC657E2A#64, 0x5FCB6FAB3AD6FAEC#64, 0x6C44198C4A475817#64]

/-- third_party/sha512.c:101-106 `H512`. -/
def H512 : Regs :=
  ⟨0x6A09E667F3BCC908#64, 0xBB67AE8584CAA73B#64, 0x3C6EF372FE94F82B#64, 0xA54FF53A5F1D36F1#64,
    0x510E527FADE682D1#64, 0x9B05688C2B3E6C1F#64, 0x1F83D9ABFB41BD6B#64, 0x5BE0CD19137E2179#64⟩

/-- third_party/sha512.h:939-940 `SPH_ROTR64(x, n)`, which is `SPH_ROTL64(x, 64 - n)`. -/
def ROTR64 (x : W) (n : ℕ) : W := (x <<< (64 - n)) ||| (x >>> (64 - (64 - n)))

/-- third_party/sha512.c:41 `CH`. -/
def CH (X Y Z : W) : W := ((Y ^^^ Z) &&& X) ^^^ Z

/-- third_party/sha512.c:42 `MAJ`. -/
def MAJ (X Y Z : W) : W := (X &&& Y) ||| ((X ||| Y) &&& Z)

/-- third_party/sha512.c:46-49. -/
def BSG5_0 (x : W) : W := ROTR64 x 28 ^^^ ROTR64 x 34 ^^^ ROTR64 x 39
def BSG5_1 (x : W) : W := ROTR64 x 14 ^^^ ROTR64 x 18 ^^^ ROTR64 x 41
def SSG5_0 (x : W) : W := ROTR64 x 1 ^^^ ROTR64 x 8 ^^^ x >>> 7
def SSG5_1 (x : W) : W := ROTR64 x 19 ^^^ ROTR64 x 61 ^^^ x >>> 6

/-- third_party/sha512.h:1221-1226 `sph_bswap64` (the instruction bswapq): reverses the bytes. -/
def bswap64 (x : W) : W := BitVec.ofNat 64 (leNat (wordBytes x).reverse)

/-- third_party/sha512.h:1770-1788 `sph_dec64be_aligned` of `data + 8*x`. -/
def dec64be (data : List Byte) (x : ℕ) : W := bswap64 (loadWord data x)

/-- third_party/sha512.h:1653-1688 `sph_enc64be` and 1698-1715 `sph_enc64be_aligned`: the eight
bytes written. -/
def enc64be (val : W) : List Byte := wordBytes (bswap64 val)

/-- third_party/sha512.c:123-129 `SHA3_STEP`: the new values of `D` and `H`; `W` is `W[i]` and `K`
is `K512[i]`. -/
def SHA3_STEP (A B C D E F G H K W : Verif.W) : Verif.W × Verif.W :=
  let T1 := H + BSG5_1 E + CH E F G + K + W
  let T2 := BSG5_0 A + MAJ A B C
  (D + T1, T1 + T2)

/-- third_party/sha512.c:138-140 (in `SHA3_ROUND_BODY`): the value stored in `W[i]`. -/
def nextW (W : List W) (i : ℕ) : Verif.W :=
  SSG5_1 (W.getD (i - 2) 0) + W.getD (i - 7) 0 + SSG5_0 (W.getD (i - 15) 0) + W.getD (i - 16) 0

/-- third_party/sha512.c:136-140 (in `SHA3_ROUND_BODY`): the array `W`.  It is written in order,
so it is a list that grows at its end. -/
def scheduleW (data : List Byte) : List W :=
  (List.range 64).foldl (fun W j => W ++ [nextW W (16 + j)]) ((List.range 16).map (dec64be data))

/-- third_party/sha512.c:150-157 (in `SHA3_ROUND_BODY`): one iteration of the loop over `i`. -/
def eightSteps (W : List W) (r : Regs) (i : ℕ) : Regs :=
  let A := r.a; let B := r.b; let C := r.c; let D := r.d
  let E := r.e; let F := r.f; let G := r.g; let H := r.h
  let k := fun j => K512.getD (i + j) 0
  let w := fun j => W.getD (i + j) 0
  let (D, H) := SHA3_STEP A B C D E F G H (k 0) (w 0)
  let (C, G) := SHA3_STEP H A B C D E F G (k 1) (w 1)
  let (B, F) := SHA3_STEP G H A B C D E F (k 2) (w 2)
  let (A, E) := SHA3_STEP F G H A B C D E (k 3) (w 3)
  let (H, D) := SHA3_STEP E F G H A B C D (k 4) (w 4)
  let (G, C) := SHA3_STEP D E F G H A B C (k 5) (w 5)
  let (F, B) := SHA3_STEP C D E F G H A B (k 6) (w 6)
  let (E, A) := SHA3_STEP B C D E F G H A (k 7) (w 7)
  ⟨A, B, C, D, E, F, G, H⟩

/-- third_party/sha512.c:131-167 `SHA3_ROUND_BODY` and 172-178 `sha3_round`: the new value of
`r`. -/
def sha3_round (data : List Byte) (r : Regs) : Regs :=
  let W := scheduleW data
  let v := (List.range 10).foldl (fun v j => eightSteps W v (8 * j)) r
  ⟨r.a + v.a, r.b + v.b, r.c + v.c, r.d + v.d, r.e + v.e, r.f + v.f, r.g + v.g, r.h + v.h⟩

/-- third_party/sha512.h:2208-2214 `sph_sha384_context`; `buf` has 128 bytes. -/
structure Ctx where
  buf : List Byte
  val : Regs
  count : W

/-- third_party/sha512.c:192-200 `sph_sha512_init`: `buf` keeps what the memory held. -/
def init (sc : Ctx) : Ctx := { sc with val := H512, count := 0#64 }

/-- `memcpy(buf + at, data, n)` with `data` of `n` bytes. -/
def blit (buf : List Byte) (at' : ℕ) (data : List Byte) : List Byte :=
  buf.take at' ++ data ++ buf.drop (at' + data.length)

/-- third_party/sha512.c:341-342: `current = (unsigned)sc->count & (SPH_BLEN - 1U)`. -/
def Ctx.current (sc : Ctx) : ℕ := (sc.count.setWidth 32 &&& 127#32).toNat

/-- third_party/sha512.c:346-373 (in `sha384_short`): the loop, with `current` and the rest of
`data`.  `fuel` bounds the number of iterations; every iteration consumes at least one byte. -/
def shortLoop : ℕ → Ctx → ℕ → List Byte → Ctx
  | 0, sc, _, _ => sc
  | fuel + 1, sc, current, data =>
    if data.length = 0 then sc
    else
      let clen := 128 - current
      let clen := if clen > data.length then data.length else clen
      let sc := { sc with buf := blit sc.buf current (data.take clen) }
      let data := data.drop clen
      let current := current + clen
      let (sc, current) :=
        if current = 128 then ({ sc with val := sha3_round sc.buf sc.val }, 0) else (sc, current)
      let sc := { sc with count := sc.count + BitVec.ofNat 64 clen }
      shortLoop fuel sc current data

/-- third_party/sha512.c:330-374 `sha384_short`. -/
def short (sc : Ctx) (data : List Byte) : Ctx := shortLoop data.length sc sc.current data

/-- third_party/sha512.c:411-415 (in `sph_sha384`): the loop over whole blocks, which takes
`len / 128` iterations; the new `val` and the rest of the data. -/
def longLoop : ℕ → Regs → List Byte → Regs × List Byte
  | 0, val, data => (val, data)
  | n + 1, val, data => longLoop n (sha3_round (data.take 128) val) (data.drop 128)

/-- third_party/sha512.c:376-438 `sph_sha384`, which is `sph_sha512`. -/
def update (sc : Ctx) (data : List Byte) : Ctx :=
  if data.length < 2 * 128 then short sc data
  else
    let current := sc.current
    let (sc, data) :=
      if current > 0 then
        let t := 128 - current
        (short sc (data.take t), data.drop t)
      else (sc, data)
    let orig_len := data.length
    let (val, data) := longLoop (data.length / 128) sc.val data
    let sc := { sc with val := val }
    let sc := if data.length > 0 then { sc with buf := blit sc.buf 0 data } else sc
    { sc with count := sc.count + BitVec.ofNat 64 orig_len }

/-- third_party/sha512.c:444-546 `sha384_addbits_and_close` with `ub = 0`, `n = 0` (548-552
`sha384_close`), `rnum = 8`: the context and the digest. -/
def addbits_and_close (sc : Ctx) : Ctx × List Byte :=
  let current := sc.current
  let sc := { sc with buf := blit sc.buf current [0x80#8] }
  let current := current + 1
  let sc :=
    if current > 112 then
      let sc := { sc with buf := blit sc.buf current (List.replicate (128 - current) 0#8) }
      let sc := { sc with val := sha3_round sc.buf sc.val }
      { sc with buf := blit sc.buf 0 (List.replicate 112 0#8) }
    else { sc with buf := blit sc.buf current (List.replicate (112 - current) 0#8) }
  let sc := { sc with buf := blit sc.buf 112 (enc64be (sc.count >>> 61)) }
  let sc := { sc with buf := blit sc.buf (112 + 8) (enc64be (sc.count <<< 3)) }
  let sc := { sc with val := sha3_round sc.buf sc.val }
  (sc, [sc.val.a, sc.val.b, sc.val.c, sc.val.d, sc.val.e, sc.val.f, sc.val.g, sc.val.h].flatMap
    enc64be)

/-- third_party/sha512.c:572-577 `sph_sha512_close`: the context, ready for another computation,
and the digest. -/
def close (sc : Ctx) : Ctx × List Byte :=
  let (sc, dst) := addbits_and_close sc
  (init sc, dst)

end Verif.Sha512
