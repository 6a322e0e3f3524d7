import Verif.Ed25519.Eddsa
import Verif.Ed448.Eddsa

/-!
# The tables of field operations

The initialisers of `Fp25519` and `Fp448`, the two public tables of field operations.  A member that
an initialiser does not name is a null pointer.
-/

namespace Verif.Tables

/-- The members of the structures of include/faz_fp_avx2.h:89-203. -/
inductive Op
  | add | cmp | cmv | inv | mul | neg | sgn | sqr | srt | sub | prime | alloc | copy
  | free | print | rand | ser | unser | zero | intmul | intmul2 | intsqr | intsqr2
  | mula24 | reduce | reduce2 | addsub | compress | compressfast | ngz | deinter | inter
  | compress2 | addsublar | new_compressfast2
  deriving DecidableEq

/-- The two tables, src/fp255.c and src/fp448.c. -/
inductive Field
  | Fp25519 | Fp448
  deriving DecidableEq

/-- The members of `PrimeField`, include/faz_fp_avx2.h:214-219: `_1w_full`, `_1w_red`, `_2w_red` and
`_4w_red`. -/
inductive Layout
  | full1 | red1 | red2 | red4
  deriving DecidableEq

/-- The last argument of `SUFFIX`. -/
inductive Radix
  | fullradix | redradix
  deriving DecidableEq

/-- The functions that the initialisers name: `SUFFIX(op, ways, radix)`, src/fp255.c:30 and
src/fp448.c:30, and `deallocate_bytes` of src/bytestring.c:61-65. -/
inductive Fn
  | suffix (op : Op) (field : Field) (ways : ℕ) (radix : Radix)
  | deallocate_bytes
  deriving DecidableEq

/-- The members of `Fp_1w_fullradix`, `Fp_1w_redradix`, `Fp_2w_redradix` and `Fp_4w_redradix`, with
those of the structures inside them, include/faz_fp_avx2.h:89-203. -/
def members : Layout → List Op
  | .full1 => [
      .add, .cmp, .cmv, .inv, .mul, .neg, .sgn, .sqr, .srt, .sub, .prime, .alloc, .copy, .free,
      .print, .rand, .ser, .unser, .zero, .intmul, .intmul2, .intsqr, .intsqr2, .mula24, .reduce,
      .reduce2]
  | .red1 => [
      .add, .cmp, .cmv, .inv, .mul, .neg, .sgn, .sqr, .srt, .sub, .prime, .alloc, .copy, .free,
      .print, .rand, .ser, .unser, .zero, .addsub, .intmul, .compress, .compressfast]
  | .red2 => [
      .add, .cmp, .cmv, .mul, .neg, .ngz, .sgn, .sqr, .sub, .alloc, .copy, .free, .print, .rand,
      .ser, .unser, .zero, .addsub, .deinter, .inter, .intmul, .intsqr, .compress, .compress2,
      .compressfast]
  | .red4 => [
      .add, .cmp, .mul, .neg, .ngz, .sqr, .srt, .sub, .alloc, .copy, .free, .print, .rand, .ser,
      .unser, .zero, .addsub, .addsublar, .intmul, .intsqr, .compress, .compress2, .compressfast,
      .new_compressfast2]

open Radix in
/-- The initialisers, src/fp255.c:37-168 and src/fp448.c:37-160, in the order of the source. -/
def initialiser : Field → Layout → List (Op × Fn)
  | .Fp25519, .full1 => [
      (.add, .suffix .add .Fp25519 1 fullradix), (.cmp, .suffix .cmp .Fp25519 1 fullradix),
      (.cmv, .suffix .cmv .Fp25519 1 fullradix), (.inv, .suffix .inv .Fp25519 1 fullradix),
      (.mul, .suffix .mul .Fp25519 1 fullradix), (.neg, .suffix .neg .Fp25519 1 fullradix),
      (.sgn, .suffix .sgn .Fp25519 1 fullradix), (.sqr, .suffix .sqr .Fp25519 1 fullradix),
      (.srt, .suffix .srt .Fp25519 1 fullradix), (.sub, .suffix .sub .Fp25519 1 fullradix),
      (.prime, .suffix .prime .Fp25519 1 fullradix), (.alloc, .suffix .alloc .Fp25519 1 fullradix),
      (.copy, .suffix .copy .Fp25519 1 fullradix), (.free, .deallocate_bytes),
      (.print, .suffix .print .Fp25519 1 fullradix), (.rand, .suffix .rand .Fp25519 1 fullradix),
      (.ser, .suffix .ser .Fp25519 1 fullradix), (.unser, .suffix .unser .Fp25519 1 fullradix),
      (.zero, .suffix .zero .Fp25519 1 fullradix), (.intmul, .suffix .intmul .Fp25519 1 fullradix),
      (.intmul2, .suffix .intmul2 .Fp25519 1 fullradix),
      (.intsqr, .suffix .intsqr .Fp25519 1 fullradix),
      (.intsqr2, .suffix .intsqr2 .Fp25519 1 fullradix),
      (.mula24, .suffix .mula24 .Fp25519 1 fullradix),
      (.reduce, .suffix .reduce .Fp25519 1 fullradix),
      (.reduce2, .suffix .reduce2 .Fp25519 1 fullradix)]
  | .Fp25519, .red1 => [
      (.add, .suffix .add .Fp25519 1 redradix), (.cmp, .suffix .cmp .Fp25519 1 redradix),
      (.cmv, .suffix .cmv .Fp25519 1 redradix), (.inv, .suffix .inv .Fp25519 1 redradix),
      (.mul, .suffix .mul .Fp25519 1 redradix), (.neg, .suffix .neg .Fp25519 1 redradix),
      (.sgn, .suffix .sgn .Fp25519 1 redradix), (.sqr, .suffix .sqr .Fp25519 1 redradix),
      (.srt, .suffix .srt .Fp25519 1 redradix), (.sub, .suffix .sub .Fp25519 1 redradix),
      (.prime, .suffix .prime .Fp25519 1 redradix), (.alloc, .suffix .alloc .Fp25519 1 redradix),
      (.copy, .suffix .copy .Fp25519 1 redradix), (.free, .deallocate_bytes),
      (.print, .suffix .print .Fp25519 1 redradix), (.rand, .suffix .rand .Fp25519 1 redradix),
      (.ser, .suffix .ser .Fp25519 1 redradix), (.unser, .suffix .unser .Fp25519 1 redradix),
      (.zero, .suffix .zero .Fp25519 1 redradix), (.addsub, .suffix .addsub .Fp25519 1 redradix),
      (.intmul, .suffix .intmul .Fp25519 1 redradix),
      (.compress, .suffix .compress .Fp25519 1 redradix),
      (.compressfast, .suffix .compressfast .Fp25519 1 redradix)]
  | .Fp25519, .red2 => [
      (.add, .suffix .add .Fp25519 2 redradix), (.cmp, .suffix .cmp .Fp25519 2 redradix),
      (.cmv, .suffix .cmv .Fp25519 2 redradix), (.mul, .suffix .mul .Fp25519 2 redradix),
      (.neg, .suffix .neg .Fp25519 2 redradix), (.ngz, .suffix .ngz .Fp25519 2 redradix),
      (.sgn, .suffix .sgn .Fp25519 2 redradix), (.sqr, .suffix .sqr .Fp25519 2 redradix),
      (.sub, .suffix .sub .Fp25519 2 redradix), (.alloc, .suffix .alloc .Fp25519 2 redradix),
      (.copy, .suffix .copy .Fp25519 2 redradix), (.free, .deallocate_bytes),
      (.print, .suffix .print .Fp25519 2 redradix), (.rand, .suffix .rand .Fp25519 2 redradix),
      (.ser, .suffix .ser .Fp25519 2 redradix), (.unser, .suffix .unser .Fp25519 2 redradix),
      (.zero, .suffix .zero .Fp25519 2 redradix), (.addsub, .suffix .addsub .Fp25519 2 redradix),
      (.deinter, .suffix .deinter .Fp25519 2 redradix),
      (.inter, .suffix .inter .Fp25519 2 redradix), (.intmul, .suffix .intmul .Fp25519 2 redradix),
      (.intsqr, .suffix .intsqr .Fp25519 2 redradix),
      (.compress, .suffix .compress .Fp25519 2 redradix),
      (.compress2, .suffix .compress2 .Fp25519 2 redradix),
      (.compressfast, .suffix .compressfast .Fp25519 2 redradix)]
  | .Fp25519, .red4 => [
      (.add, .suffix .add .Fp25519 4 redradix), (.cmp, .suffix .cmp .Fp25519 4 redradix),
      (.mul, .suffix .mul .Fp25519 4 redradix), (.neg, .suffix .neg .Fp25519 2 redradix),
      (.ngz, .suffix .ngz .Fp25519 4 redradix), (.sqr, .suffix .sqr .Fp25519 4 redradix),
      (.srt, .suffix .srt .Fp25519 4 redradix), (.sub, .suffix .sub .Fp25519 4 redradix),
      (.alloc, .suffix .alloc .Fp25519 4 redradix), (.copy, .suffix .copy .Fp25519 4 redradix),
      (.free, .deallocate_bytes), (.print, .suffix .print .Fp25519 4 redradix),
      (.rand, .suffix .rand .Fp25519 4 redradix), (.ser, .suffix .ser .Fp25519 4 redradix),
      (.unser, .suffix .unser .Fp25519 4 redradix), (.zero, .suffix .zero .Fp25519 4 redradix),
      (.addsub, .suffix .addsub .Fp25519 4 redradix),
      (.addsublar, .suffix .addsublar .Fp25519 4 redradix),
      (.intmul, .suffix .intmul .Fp25519 4 redradix),
      (.intsqr, .suffix .intsqr .Fp25519 4 redradix),
      (.compress, .suffix .compress .Fp25519 4 redradix),
      (.compress2, .suffix .compress2 .Fp25519 4 redradix),
      (.compressfast, .suffix .compressfast .Fp25519 4 redradix),
      (.new_compressfast2, .suffix .new_compressfast2 .Fp25519 4 redradix)]
  | .Fp448, .full1 => [
      (.add, .suffix .add .Fp448 1 fullradix), (.cmp, .suffix .cmp .Fp448 1 fullradix),
      (.cmv, .suffix .cmv .Fp448 1 fullradix), (.inv, .suffix .inv .Fp448 1 fullradix),
      (.mul, .suffix .mul .Fp448 1 fullradix), (.neg, .suffix .neg .Fp448 1 fullradix),
      (.sgn, .suffix .sgn .Fp448 1 fullradix), (.sqr, .suffix .sqr .Fp448 1 fullradix),
      (.sub, .suffix .sub .Fp448 1 fullradix), (.prime, .suffix .prime .Fp448 1 fullradix),
      (.alloc, .suffix .alloc .Fp448 1 fullradix), (.copy, .suffix .copy .Fp448 1 fullradix),
      (.free, .deallocate_bytes), (.print, .suffix .print .Fp448 1 fullradix),
      (.rand, .suffix .rand .Fp448 1 fullradix), (.ser, .suffix .ser .Fp448 1 fullradix),
      (.unser, .suffix .unser .Fp448 1 fullradix), (.zero, .suffix .zero .Fp448 1 fullradix),
      (.intmul, .suffix .intmul .Fp448 1 fullradix),
      (.intmul2, .suffix .intmul2 .Fp448 1 fullradix),
      (.intsqr, .suffix .intsqr .Fp448 1 fullradix),
      (.intsqr2, .suffix .intsqr2 .Fp448 1 fullradix),
      (.mula24, .suffix .mula24 .Fp448 1 fullradix), (.reduce, .suffix .reduce .Fp448 1 fullradix),
      (.reduce2, .suffix .reduce2 .Fp448 1 fullradix)]
  | .Fp448, .red1 => [
      (.add, .suffix .add .Fp448 1 redradix), (.cmp, .suffix .cmp .Fp448 1 redradix),
      (.inv, .suffix .inv .Fp448 1 redradix), (.mul, .suffix .mul .Fp448 1 redradix),
      (.neg, .suffix .neg .Fp448 1 redradix), (.sqr, .suffix .sqr .Fp448 1 redradix),
      (.srt, .suffix .srt .Fp448 1 redradix), (.sub, .suffix .sub .Fp448 1 redradix),
      (.prime, .suffix .prime .Fp448 1 redradix), (.alloc, .suffix .alloc .Fp448 1 redradix),
      (.copy, .suffix .copy .Fp448 1 redradix), (.free, .deallocate_bytes),
      (.print, .suffix .print .Fp448 1 redradix), (.rand, .suffix .rand .Fp448 1 redradix),
      (.ser, .suffix .ser .Fp448 1 redradix), (.unser, .suffix .unser .Fp448 1 redradix),
      (.zero, .suffix .zero .Fp448 1 redradix), (.addsub, .suffix .addsub .Fp448 1 redradix),
      (.intmul, .suffix .intmul .Fp448 1 redradix),
      (.compress, .suffix .compress .Fp448 1 redradix),
      (.compressfast, .suffix .compressfast .Fp448 1 redradix)]
  | .Fp448, .red2 => [
      (.add, .suffix .add .Fp448 2 redradix), (.cmp, .suffix .cmp .Fp448 2 redradix),
      (.mul, .suffix .mul .Fp448 2 redradix), (.ngz, .suffix .ngz .Fp448 2 redradix),
      (.sqr, .suffix .sqr .Fp448 2 redradix), (.sub, .suffix .sub .Fp448 2 redradix),
      (.alloc, .suffix .alloc .Fp448 2 redradix), (.copy, .suffix .copy .Fp448 2 redradix),
      (.free, .deallocate_bytes), (.print, .suffix .print .Fp448 2 redradix),
      (.rand, .suffix .rand .Fp448 2 redradix), (.ser, .suffix .ser .Fp448 2 redradix),
      (.unser, .suffix .unser .Fp448 2 redradix), (.zero, .suffix .zero .Fp448 2 redradix),
      (.addsub, .suffix .addsub .Fp448 2 redradix), (.deinter, .suffix .deinter .Fp448 2 redradix),
      (.inter, .suffix .inter .Fp448 2 redradix), (.intmul, .suffix .intmul .Fp448 2 redradix),
      (.intsqr, .suffix .intsqr .Fp448 2 redradix),
      (.compress, .suffix .compress .Fp448 2 redradix),
      (.compress2, .suffix .compress2 .Fp448 2 redradix),
      (.compressfast, .suffix .compressfast .Fp448 2 redradix)]
  | .Fp448, .red4 => [
      (.add, .suffix .add .Fp448 4 redradix), (.cmp, .suffix .cmp .Fp448 4 redradix),
      (.mul, .suffix .mul .Fp448 4 redradix), (.ngz, .suffix .ngz .Fp448 4 redradix),
      (.sqr, .suffix .sqr .Fp448 4 redradix), (.sub, .suffix .sub .Fp448 4 redradix),
      (.alloc, .suffix .alloc .Fp448 4 redradix), (.copy, .suffix .copy .Fp448 4 redradix),
      (.free, .deallocate_bytes), (.print, .suffix .print .Fp448 4 redradix),
      (.rand, .suffix .rand .Fp448 4 redradix), (.ser, .suffix .ser .Fp448 4 redradix),
      (.unser, .suffix .unser .Fp448 4 redradix), (.zero, .suffix .zero .Fp448 4 redradix),
      (.addsub, .suffix .addsub .Fp448 4 redradix),
      (.addsublar, .suffix .addsublar .Fp448 4 redradix),
      (.intmul, .suffix .intmul .Fp448 4 redradix), (.intsqr, .suffix .intsqr .Fp448 4 redradix),
      (.compress, .suffix .compress .Fp448 4 redradix),
      (.compress2, .suffix .compress2 .Fp448 4 redradix),
      (.compressfast, .suffix .compressfast .Fp448 4 redradix),
      (.new_compressfast2, .suffix .new_compressfast2 .Fp448 4 redradix)]

/-- What the table holds in a member: a function, or a null pointer if the initialiser does not name
the member. -/
def slot (f : Field) (l : Layout) (o : Op) : Option Fn := (initialiser f l).lookup o

/-- The public tables of the schemes: src/dh255.c:31-49, src/dh448.c:31-40, src/ed255.c:32-75 and
src/ed448.c:32-61. -/
inductive Scheme
  | X25519 | X25519_x64 | X448
  | Ed25519 (mode : Ed25519.Mode) | Ed448 (mode : Ed448.Mode)

/-- The members `key_size`, src/dh255.c:34 and 44, src/dh448.c:34, src/ed255.c:37, 51 and 65,
src/ed448.c:37 and 51, with the values of include/faz_ecdh_avx2.h:87 and 91 and
include/faz_eddsa_avx2.h:143, 147, 159 and 163. -/
def key_size : Scheme → ℕ
  | .X25519 | .X25519_x64 => 32
  | .X448 => 56
  | .Ed25519 _ => 256 / 8
  | .Ed448 _ => 456 / 8

/-- The members `signature_size`, src/ed255.c:38, 52 and 66, src/ed448.c:38 and 52, with the values
of include/faz_eddsa_avx2.h:148 and 164; the schemes for key agreement have no such member. -/
def signature_size : Scheme → Option ℕ
  | .X25519 | .X25519_x64 | .X448 => none
  | .Ed25519 _ => some (2 * 256 / 8)
  | .Ed448 _ => some (2 * 456 / 8)

end Verif.Tables
