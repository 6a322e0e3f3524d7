import Verif.Bytes

/-!
# The source of random bytes: third_party/prng.c
-/

namespace Verif.Prng

/-- The operating system: what the call number `k` of `read` does when it is asked for `n` bytes.
`none` is the result -1 (also of every call when `open` failed), `some b` means that the bytes `b`
were written. -/
abbrev Sys := ℕ → ℕ → Option (List Byte)

/-- `read` does not return more bytes than it was asked for. -/
def Sys.Ok (read : Sys) : Prop := ∀ k n b, read k n = some b → b.length ≤ n

/-- A buffer; `none` is a byte that was not written yet. -/
abbrev Buffer := List (Option Byte)

/-- Bytes written at `buffer + l`. -/
def write (buf : Buffer) (l : ℕ) (b : List Byte) : Buffer :=
  buf.take l ++ b.map some ++ buf.drop (l + b.length)

/-- third_party/prng.c:23-29 (in `prgn_random_bytes`): the loop, for at most `fuel` iterations;
`none` when it has not ended by then.  `l` is a `size_t`, so adding -1 to zero wraps.
Simplification: the messages printed are left out. -/
def loop (read : Sys) (num_bytes : W) : ℕ → ℕ → Buffer → W → Option Buffer
  | 0, _, _, _ => none
  | fuel + 1, k, buf, l =>
    match read k (num_bytes - l).toNat with
    | some b =>
      let buf := write buf l.toNat b
      let l := l + BitVec.ofNat 64 b.length
      if l < num_bytes then loop read num_bytes fuel (k + 1) buf l else some buf
    | none =>
      let l := l + (-1#64)
      if l < num_bytes then loop read num_bytes fuel (k + 1) buf l else some buf

/-- third_party/prng.c:14-32 `prgn_random_bytes` on a buffer that was not written. -/
def prgn_random_bytes (read : Sys) (num_bytes : W) (fuel : ℕ) : Option Buffer :=
  loop read num_bytes fuel 0 (List.replicate num_bytes.toNat none) 0

end Verif.Prng
