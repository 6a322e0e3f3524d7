import Verif.WordHalf

/-!
# Fp448, full radix: inline assembly (generated from the source text)

Transcription, instruction by instruction, of the `__asm__` blocks of
src/eltfp448_1w_fullradix.c, with the assembler macros expanded.  Every line is one
instruction.  `c0, c1, ...` are the words of the output buffer `(%0)`, `a.w0 ...` those of
`(%1)` and `b.w0 ...` those of `(%2)`.  Simplification: the output buffer does not overlap the
input of `intmul*`, `intsqr*` and `reduce*` (one of the two is a local double-size buffer in
every caller); in the other blocks all loads precede all stores, so exact aliasing of output
and input is covered.  The `mula24` blocks do not declare that they write memory; the model
takes them at their instructions.
-/

namespace Verif.Fp448

set_option maxRecDepth 4000
set_option linter.unusedVariables false
set_option exponentiation.threshold 2000

/-- `EltFp448_1w_fullradix`: seven 64-bit words, little endian
(include/faz_fp_avx2.h). -/
structure F7 where
  w0 : W
  w1 : W
  w2 : W
  w3 : W
  w4 : W
  w5 : W
  w6 : W
deriving DecidableEq, Inhabited

/-- The integer the words denote (not necessarily below p). -/
def F7.val (a : F7) : ℤ :=
  iv a.w0 + 2 ^ 64 * iv a.w1 + 2 ^ 128 * iv a.w2 + 2 ^ 192 * iv a.w3 +
  2 ^ 256 * iv a.w4 + 2 ^ 320 * iv a.w5 + 2 ^ 384 * iv a.w6

/-- `EltFp448_1w_fullradix_buffer`: fourteen words (include/faz_fp_avx2.h). -/
structure F14 where
  w0 : W
  w1 : W
  w2 : W
  w3 : W
  w4 : W
  w5 : W
  w6 : W
  w7 : W
  w8 : W
  w9 : W
  w10 : W
  w11 : W
  w12 : W
  w13 : W
deriving DecidableEq, Inhabited

/-- The integer the words denote (not necessarily below p). -/
def F14.val (a : F14) : ℤ :=
  iv a.w0 + 2 ^ 64 * iv a.w1 + 2 ^ 128 * iv a.w2 + 2 ^ 192 * iv a.w3 +
  2 ^ 256 * iv a.w4 + 2 ^ 320 * iv a.w5 + 2 ^ 384 * iv a.w6 + 2 ^ 448 * iv a.w7 +
  2 ^ 512 * iv a.w8 + 2 ^ 576 * iv a.w9 + 2 ^ 640 * iv a.w10 + 2 ^ 704 * iv a.w11 +
  2 ^ 768 * iv a.w12 + 2 ^ 832 * iv a.w13

namespace Asm

/-- `intmul_mulxadx`: src/eltfp448_1w_fullradix.c:201-227. BMI2+ADX variant. -/
def intmul_mulxadx (a b : F7) : F14 :=
  mov a.w0 fun rdx =>
  xor0 fun rax cf ovf =>
  mov 0#64 fun r8 =>
  mulx rdx b.w0 fun rax r9 =>
  mov rax fun c0 =>
  mulx rdx b.w1 fun rax r10 =>
  adc r9 rax cf fun r9 cf =>
  mulx rdx b.w2 fun rax r11 =>
  adc r10 rax cf fun r10 cf =>
  mulx rdx b.w3 fun rax r12 =>
  adc r11 rax cf fun r11 cf =>
  mulx rdx b.w4 fun rax r13 =>
  adc r12 rax cf fun r12 cf =>
  mulx rdx b.w5 fun rax r14 =>
  adc r13 rax cf fun r13 cf =>
  mulx rdx b.w6 fun rax r15 =>
  adc r14 rax cf fun r14 cf =>
  adc r15 r8 cf fun r15 cf =>
  mov a.w1 fun rdx =>
  xor0 fun rax cf ovf =>
  mulx rdx b.w0 fun rax r8 =>
  adc r9 rax ovf fun r9 ovf =>
  adc r10 r8 cf fun r10 cf =>
  mov r9 fun c1 =>
  mulx rdx b.w1 fun rax r8 =>
  adc r10 rax ovf fun r10 ovf =>
  adc r11 r8 cf fun r11 cf =>
  mov 0#64 fun r9 =>
  mulx rdx b.w2 fun rax r8 =>
  adc r11 rax ovf fun r11 ovf =>
  adc r12 r8 cf fun r12 cf =>
  mulx rdx b.w3 fun rax r8 =>
  adc r12 rax ovf fun r12 ovf =>
  adc r13 r8 cf fun r13 cf =>
  mulx rdx b.w4 fun rax r8 =>
  adc r13 rax ovf fun r13 ovf =>
  adc r14 r8 cf fun r14 cf =>
  mulx rdx b.w5 fun rax r8 =>
  adc r14 rax ovf fun r14 ovf =>
  adc r15 r8 cf fun r15 cf =>
  mulx rdx b.w6 fun rax r8 =>
  adc r15 rax ovf fun r15 ovf =>
  adc r9 r8 cf fun r9 cf =>
  mov 0#64 fun rdx =>
  adc r9 rdx ovf fun r9 ovf =>
  mov a.w2 fun rdx =>
  xor0 fun rax cf ovf =>
  mulx rdx b.w0 fun rax r8 =>
  adc r10 rax ovf fun r10 ovf =>
  adc r11 r8 cf fun r11 cf =>
  mov r10 fun c2 =>
  mulx rdx b.w1 fun rax r8 =>
  adc r11 rax ovf fun r11 ovf =>
  adc r12 r8 cf fun r12 cf =>
  mov 0#64 fun r10 =>
  mulx rdx b.w2 fun rax r8 =>
  adc r12 rax ovf fun r12 ovf =>
  adc r13 r8 cf fun r13 cf =>
  mulx rdx b.w3 fun rax r8 =>
  adc r13 rax ovf fun r13 ovf =>
  adc r14 r8 cf fun r14 cf =>
  mulx rdx b.w4 fun rax r8 =>
  adc r14 rax ovf fun r14 ovf =>
  adc r15 r8 cf fun r15 cf =>
  mulx rdx b.w5 fun rax r8 =>
  adc r15 rax ovf fun r15 ovf =>
  adc r9 r8 cf fun r9 cf =>
  mulx rdx b.w6 fun rax r8 =>
  adc r9 rax ovf fun r9 ovf =>
  adc r10 r8 cf fun r10 cf =>
  mov 0#64 fun rdx =>
  adc r10 rdx ovf fun r10 ovf =>
  mov a.w3 fun rdx =>
  xor0 fun rax cf ovf =>
  mulx rdx b.w0 fun rax r8 =>
  adc r11 rax ovf fun r11 ovf =>
  adc r12 r8 cf fun r12 cf =>
  mov r11 fun c3 =>
  mulx rdx b.w1 fun rax r8 =>
  adc r12 rax ovf fun r12 ovf =>
  adc r13 r8 cf fun r13 cf =>
  mov 0#64 fun r11 =>
  mulx rdx b.w2 fun rax r8 =>
  adc r13 rax ovf fun r13 ovf =>
  adc r14 r8 cf fun r14 cf =>
  mulx rdx b.w3 fun rax r8 =>
  adc r14 rax ovf fun r14 ovf =>
  adc r15 r8 cf fun r15 cf =>
  mulx rdx b.w4 fun rax r8 =>
  adc r15 rax ovf fun r15 ovf =>
  adc r9 r8 cf fun r9 cf =>
  mulx rdx b.w5 fun rax r8 =>
  adc r9 rax ovf fun r9 ovf =>
  adc r10 r8 cf fun r10 cf =>
  mulx rdx b.w6 fun rax r8 =>
  adc r10 rax ovf fun r10 ovf =>
  adc r11 r8 cf fun r11 cf =>
  mov 0#64 fun rdx =>
  adc r11 rdx ovf fun r11 ovf =>
  mov a.w4 fun rdx =>
  xor0 fun rax cf ovf =>
  mulx rdx b.w0 fun rax r8 =>
  adc r12 rax ovf fun r12 ovf =>
  adc r13 r8 cf fun r13 cf =>
  mov r12 fun c4 =>
  mulx rdx b.w1 fun rax r8 =>
  adc r13 rax ovf fun r13 ovf =>
  adc r14 r8 cf fun r14 cf =>
  mov 0#64 fun r12 =>
  mulx rdx b.w2 fun rax r8 =>
  adc r14 rax ovf fun r14 ovf =>
  adc r15 r8 cf fun r15 cf =>
  mulx rdx b.w3 fun rax r8 =>
  adc r15 rax ovf fun r15 ovf =>
  adc r9 r8 cf fun r9 cf =>
  mulx rdx b.w4 fun rax r8 =>
  adc r9 rax ovf fun r9 ovf =>
  adc r10 r8 cf fun r10 cf =>
  mulx rdx b.w5 fun rax r8 =>
  adc r10 rax ovf fun r10 ovf =>
  adc r11 r8 cf fun r11 cf =>
  mulx rdx b.w6 fun rax r8 =>
  adc r11 rax ovf fun r11 ovf =>
  adc r12 r8 cf fun r12 cf =>
  mov 0#64 fun rdx =>
  adc r12 rdx ovf fun r12 ovf =>
  mov a.w5 fun rdx =>
  xor0 fun rax cf ovf =>
  mulx rdx b.w0 fun rax r8 =>
  adc r13 rax ovf fun r13 ovf =>
  adc r14 r8 cf fun r14 cf =>
  mov r13 fun c5 =>
  mulx rdx b.w1 fun rax r8 =>
  adc r14 rax ovf fun r14 ovf =>
  adc r15 r8 cf fun r15 cf =>
  mov 0#64 fun r13 =>
  mulx rdx b.w2 fun rax r8 =>
  adc r15 rax ovf fun r15 ovf =>
  adc r9 r8 cf fun r9 cf =>
  mulx rdx b.w3 fun rax r8 =>
  adc r9 rax ovf fun r9 ovf =>
  adc r10 r8 cf fun r10 cf =>
  mulx rdx b.w4 fun rax r8 =>
  adc r10 rax ovf fun r10 ovf =>
  adc r11 r8 cf fun r11 cf =>
  mulx rdx b.w5 fun rax r8 =>
  adc r11 rax ovf fun r11 ovf =>
  adc r12 r8 cf fun r12 cf =>
  mulx rdx b.w6 fun rax r8 =>
  adc r12 rax ovf fun r12 ovf =>
  adc r13 r8 cf fun r13 cf =>
  mov 0#64 fun rdx =>
  adc r13 rdx ovf fun r13 ovf =>
  mov a.w6 fun rdx =>
  xor0 fun rax cf ovf =>
  mulx rdx b.w0 fun rax r8 =>
  adc r14 rax ovf fun r14 ovf =>
  adc r15 r8 cf fun r15 cf =>
  mov r14 fun c6 =>
  mulx rdx b.w1 fun rax r8 =>
  adc r15 rax ovf fun r15 ovf =>
  adc r9 r8 cf fun r9 cf =>
  mov 0#64 fun r14 =>
  mulx rdx b.w2 fun rax r8 =>
  adc r9 rax ovf fun r9 ovf =>
  adc r10 r8 cf fun r10 cf =>
  mulx rdx b.w3 fun rax r8 =>
  adc r10 rax ovf fun r10 ovf =>
  adc r11 r8 cf fun r11 cf =>
  mulx rdx b.w4 fun rax r8 =>
  adc r11 rax ovf fun r11 ovf =>
  adc r12 r8 cf fun r12 cf =>
  mulx rdx b.w5 fun rax r8 =>
  adc r12 rax ovf fun r12 ovf =>
  adc r13 r8 cf fun r13 cf =>
  mulx rdx b.w6 fun rax r8 =>
  adc r13 rax ovf fun r13 ovf =>
  adc r14 r8 cf fun r14 cf =>
  mov 0#64 fun rdx =>
  adc r14 rdx ovf fun r14 ovf =>
  mov r15 fun c7 =>
  mov r9 fun c8 =>
  mov r10 fun c9 =>
  mov r11 fun c10 =>
  mov r12 fun c11 =>
  mov r13 fun c12 =>
  mov r14 fun c13 =>
  ⟨c0, c1, c2, c3, c4, c5, c6, c7, c8, c9, c10, c11, c12, c13⟩

/-- `intsqr_mulxadx`: src/eltfp448_1w_fullradix.c:338-433. BMI2+ADX variant. -/
def intsqr_mulxadx (a : F7) : F14 :=
  mov a.w0 fun rdx =>
  mulx rdx rdx fun rax rbx =>
  mov a.w1 fun rdx =>
  mulx rdx rdx fun r8 r9 =>
  mov rax fun c0 =>
  mov rbx fun c1 =>
  mov r8 fun c2 =>
  mov r9 fun c3 =>
  mov a.w2 fun rdx =>
  mulx rdx rdx fun r10 r11 =>
  mov a.w3 fun rdx =>
  mulx rdx rdx fun r12 r13 =>
  mov r10 fun c4 =>
  mov r11 fun c5 =>
  mov r12 fun c6 =>
  mov r13 fun c7 =>
  mov a.w4 fun rdx =>
  mulx rdx rdx fun rax rbx =>
  mov a.w5 fun rdx =>
  mulx rdx rdx fun r8 r9 =>
  mov rax fun c8 =>
  mov rbx fun c9 =>
  mov r8 fun c10 =>
  mov r9 fun c11 =>
  mov a.w6 fun rdx =>
  mulx rdx rdx fun r10 r11 =>
  mov r10 fun c12 =>
  mov r11 fun c13 =>
  mov a.w0 fun rdx =>
  mulx rdx a.w1 fun r8 r9 =>
  xor0 fun r10 cf ovf =>
  adc r8 r8 ovf fun r8 ovf =>
  mulx rdx a.w2 fun r10 r11 =>
  adc r9 r10 cf fun r9 cf =>
  adc r9 r9 ovf fun r9 ovf =>
  mulx rdx a.w3 fun r12 r13 =>
  adc r11 r12 cf fun r11 cf =>
  adc r11 r11 ovf fun r11 ovf =>
  mulx rdx a.w4 fun r14 rax =>
  adc r13 r14 cf fun r13 cf =>
  adc r13 r13 ovf fun r13 ovf =>
  mulx rdx a.w5 fun r10 rbx =>
  adc rax r10 cf fun rax cf =>
  adc rax rax ovf fun rax ovf =>
  mulx rdx a.w6 fun r12 rcx =>
  adc rbx r12 cf fun rbx cf =>
  adc rbx rbx ovf fun rbx ovf =>
  mov a.w3 fun rdx =>
  mov 0#64 fun r12 =>
  mov 0#64 fun r10 =>
  mulx rdx a.w4 fun r14 rdx =>
  adc rcx r14 cf fun rcx cf =>
  adc rcx rcx ovf fun rcx ovf =>
  adc rdx r12 cf fun rdx cf =>
  adc rdx rdx ovf fun rdx ovf =>
  adc r10 r12 ovf fun r10 ovf =>
  add r8 c1 fun r8 cf =>
  mov r8 fun c1 =>
  adc r9 c2 cf fun r9 cf =>
  mov r9 fun c2 =>
  adc r11 c3 cf fun r11 cf =>
  mov r11 fun c3 =>
  adc r13 c4 cf fun r13 cf =>
  mov r13 fun c4 =>
  adc rax c5 cf fun rax cf =>
  mov rax fun c5 =>
  adc rbx c6 cf fun rbx cf =>
  mov rbx fun c6 =>
  adc rcx c7 cf fun rcx cf =>
  mov rcx fun c7 =>
  adc rdx c8 cf fun rdx cf =>
  mov rdx fun c8 =>
  adc r10 c9 cf fun r10 cf =>
  mov r10 fun c9 =>
  mov a.w1 fun rdx =>
  mulx rdx a.w2 fun r8 r9 =>
  xor0 fun r10 cf ovf =>
  adc r8 r8 ovf fun r8 ovf =>
  mulx rdx a.w3 fun r10 r11 =>
  adc r9 r10 cf fun r9 cf =>
  adc r9 r9 ovf fun r9 ovf =>
  mulx rdx a.w4 fun r12 r13 =>
  adc r11 r12 cf fun r11 cf =>
  adc r11 r11 ovf fun r11 ovf =>
  mulx rdx a.w5 fun r14 rax =>
  adc r13 r14 cf fun r13 cf =>
  adc r13 r13 ovf fun r13 ovf =>
  mulx rdx a.w6 fun r10 rbx =>
  adc rax r10 cf fun rax cf =>
  adc rax rax ovf fun rax ovf =>
  mov a.w5 fun rdx =>
  mulx rdx a.w3 fun r12 rcx =>
  adc rbx r12 cf fun rbx cf =>
  adc rbx rbx ovf fun rbx ovf =>
  mulx rdx a.w4 fun r14 rdx =>
  adc rcx r14 cf fun rcx cf =>
  adc rcx rcx ovf fun rcx ovf =>
  mov 0#64 fun r12 =>
  mov 0#64 fun r10 =>
  adc rdx r12 cf fun rdx cf =>
  adc rdx rdx ovf fun rdx ovf =>
  adc r10 r12 ovf fun r10 ovf =>
  add r8 c3 fun r8 cf =>
  mov r8 fun c3 =>
  adc r9 c4 cf fun r9 cf =>
  mov r9 fun c4 =>
  adc r11 c5 cf fun r11 cf =>
  mov r11 fun c5 =>
  adc r13 c6 cf fun r13 cf =>
  mov r13 fun c6 =>
  adc rax c7 cf fun rax cf =>
  mov rax fun c7 =>
  adc rbx c8 cf fun rbx cf =>
  mov rbx fun c8 =>
  adc rcx c9 cf fun rcx cf =>
  mov rcx fun c9 =>
  adc rdx c10 cf fun rdx cf =>
  mov rdx fun c10 =>
  adc r10 c11 cf fun r10 cf =>
  mov r10 fun c11 =>
  mov a.w2 fun rdx =>
  mulx rdx a.w3 fun r8 r9 =>
  xor0 fun r10 cf ovf =>
  adc r8 r8 ovf fun r8 ovf =>
  mulx rdx a.w4 fun r10 r11 =>
  adc r9 r10 cf fun r9 cf =>
  adc r9 r9 ovf fun r9 ovf =>
  mulx rdx a.w5 fun r12 r13 =>
  adc r11 r12 cf fun r11 cf =>
  adc r11 r11 ovf fun r11 ovf =>
  mulx rdx a.w6 fun r14 rax =>
  adc r13 r14 cf fun r13 cf =>
  adc r13 r13 ovf fun r13 ovf =>
  mov a.w6 fun rdx =>
  mulx rdx a.w3 fun r10 rbx =>
  adc rax r10 cf fun rax cf =>
  adc rax rax ovf fun rax ovf =>
  mulx rdx a.w4 fun r12 rcx =>
  adc rbx r12 cf fun rbx cf =>
  adc rbx rbx ovf fun rbx ovf =>
  mulx rdx a.w5 fun r14 rdx =>
  adc rcx r14 cf fun rcx cf =>
  adc rcx rcx ovf fun rcx ovf =>
  mov 0#64 fun r12 =>
  mov 0#64 fun r10 =>
  adc rdx r12 cf fun rdx cf =>
  adc rdx rdx ovf fun rdx ovf =>
  adc r10 r12 ovf fun r10 ovf =>
  add r8 c5 fun r8 cf =>
  mov r8 fun c5 =>
  adc r9 c6 cf fun r9 cf =>
  mov r9 fun c6 =>
  adc r11 c7 cf fun r11 cf =>
  mov r11 fun c7 =>
  adc r13 c8 cf fun r13 cf =>
  mov r13 fun c8 =>
  adc rax c9 cf fun rax cf =>
  mov rax fun c9 =>
  adc rbx c10 cf fun rbx cf =>
  mov rbx fun c10 =>
  adc rcx c11 cf fun rcx cf =>
  mov rcx fun c11 =>
  adc rdx c12 cf fun rdx cf =>
  mov rdx fun c12 =>
  adc r10 c13 cf fun r10 cf =>
  mov r10 fun c13 =>
  ⟨c0, c1, c2, c3, c4, c5, c6, c7, c8, c9, c10, c11, c12, c13⟩

/-- `intmul_mulx`: src/eltfp448_1w_fullradix.c:237-272. BMI2 variant. -/
def intmul_mulx (a b : F7) : F14 :=
  mov a.w0 fun rdx =>
  mulx rdx b.w0 fun rax r8 =>
  mov rax fun c0 =>
  mulx rdx b.w1 fun rax r9 =>
  add r8 rax fun r8 cf =>
  mulx rdx b.w2 fun rax r10 =>
  adc r9 rax cf fun r9 cf =>
  mulx rdx b.w3 fun rax r11 =>
  adc r10 rax cf fun r10 cf =>
  mulx rdx b.w4 fun rax r12 =>
  adc r11 rax cf fun r11 cf =>
  mulx rdx b.w5 fun rax r13 =>
  adc r12 rax cf fun r12 cf =>
  mulx rdx b.w6 fun rax r14 =>
  adc r13 rax cf fun r13 cf =>
  adc r14 0#64 cf fun r14 cf =>
  mov a.w1 fun rdx =>
  mulx rdx b.w0 fun rax rcx =>
  add r8 rax fun r8 cf =>
  mov r8 fun c1 =>
  mulx rdx b.w1 fun rax rbx =>
  adc r9 rax cf fun r9 cf =>
  adc rbx 0#64 cf fun rbx cf =>
  add r9 rcx fun r9 cf =>
  mulx rdx b.w2 fun rax rcx =>
  adc r10 rax cf fun r10 cf =>
  adc rcx 0#64 cf fun rcx cf =>
  add r10 rbx fun r10 cf =>
  mulx rdx b.w3 fun rax rbx =>
  adc r11 rax cf fun r11 cf =>
  adc rbx 0#64 cf fun rbx cf =>
  add r11 rcx fun r11 cf =>
  mulx rdx b.w4 fun rax rcx =>
  adc r12 rax cf fun r12 cf =>
  adc rcx 0#64 cf fun rcx cf =>
  add r12 rbx fun r12 cf =>
  mulx rdx b.w5 fun rax rbx =>
  adc r13 rax cf fun r13 cf =>
  adc rbx 0#64 cf fun rbx cf =>
  add r13 rcx fun r13 cf =>
  mulx rdx b.w6 fun rax r8 =>
  adc r14 rax cf fun r14 cf =>
  adc r8 0#64 cf fun r8 cf =>
  add r14 rbx fun r14 cf =>
  adc r8 0#64 cf fun r8 cf =>
  mov a.w2 fun rdx =>
  mulx rdx b.w0 fun rax rcx =>
  add r9 rax fun r9 cf =>
  mov r9 fun c2 =>
  mulx rdx b.w1 fun rax rbx =>
  adc r10 rax cf fun r10 cf =>
  adc rbx 0#64 cf fun rbx cf =>
  add r10 rcx fun r10 cf =>
  mulx rdx b.w2 fun rax rcx =>
  adc r11 rax cf fun r11 cf =>
  adc rcx 0#64 cf fun rcx cf =>
  add r11 rbx fun r11 cf =>
  mulx rdx b.w3 fun rax rbx =>
  adc r12 rax cf fun r12 cf =>
  adc rbx 0#64 cf fun rbx cf =>
  add r12 rcx fun r12 cf =>
  mulx rdx b.w4 fun rax rcx =>
  adc r13 rax cf fun r13 cf =>
  adc rcx 0#64 cf fun rcx cf =>
  add r13 rbx fun r13 cf =>
  mulx rdx b.w5 fun rax rbx =>
  adc r14 rax cf fun r14 cf =>
  adc rbx 0#64 cf fun rbx cf =>
  add r14 rcx fun r14 cf =>
  mulx rdx b.w6 fun rax r9 =>
  adc r8 rax cf fun r8 cf =>
  adc r9 0#64 cf fun r9 cf =>
  add r8 rbx fun r8 cf =>
  adc r9 0#64 cf fun r9 cf =>
  mov a.w3 fun rdx =>
  mulx rdx b.w0 fun rax rcx =>
  add r10 rax fun r10 cf =>
  mov r10 fun c3 =>
  mulx rdx b.w1 fun rax rbx =>
  adc r11 rax cf fun r11 cf =>
  adc rbx 0#64 cf fun rbx cf =>
  add r11 rcx fun r11 cf =>
  mulx rdx b.w2 fun rax rcx =>
  adc r12 rax cf fun r12 cf =>
  adc rcx 0#64 cf fun rcx cf =>
  add r12 rbx fun r12 cf =>
  mulx rdx b.w3 fun rax rbx =>
  adc r13 rax cf fun r13 cf =>
  adc rbx 0#64 cf fun rbx cf =>
  add r13 rcx fun r13 cf =>
  mulx rdx b.w4 fun rax rcx =>
  adc r14 rax cf fun r14 cf =>
  adc rcx 0#64 cf fun rcx cf =>
  add r14 rbx fun r14 cf =>
  mulx rdx b.w5 fun rax rbx =>
  adc r8 rax cf fun r8 cf =>
  adc rbx 0#64 cf fun rbx cf =>
  add r8 rcx fun r8 cf =>
  mulx rdx b.w6 fun rax r10 =>
  adc r9 rax cf fun r9 cf =>
  adc r10 0#64 cf fun r10 cf =>
  add r9 rbx fun r9 cf =>
  adc r10 0#64 cf fun r10 cf =>
  mov a.w4 fun rdx =>
  mulx rdx b.w0 fun rax rcx =>
  add r11 rax fun r11 cf =>
  mov r11 fun c4 =>
  mulx rdx b.w1 fun rax rbx =>
  adc r12 rax cf fun r12 cf =>
  adc rbx 0#64 cf fun rbx cf =>
  add r12 rcx fun r12 cf =>
  mulx rdx b.w2 fun rax rcx =>
  adc r13 rax cf fun r13 cf =>
  adc rcx 0#64 cf fun rcx cf =>
  add r13 rbx fun r13 cf =>
  mulx rdx b.w3 fun rax rbx =>
  adc r14 rax cf fun r14 cf =>
  adc rbx 0#64 cf fun rbx cf =>
  add r14 rcx fun r14 cf =>
  mulx rdx b.w4 fun rax rcx =>
  adc r8 rax cf fun r8 cf =>
  adc rcx 0#64 cf fun rcx cf =>
  add r8 rbx fun r8 cf =>
  mulx rdx b.w5 fun rax rbx =>
  adc r9 rax cf fun r9 cf =>
  adc rbx 0#64 cf fun rbx cf =>
  add r9 rcx fun r9 cf =>
  mulx rdx b.w6 fun rax r11 =>
  adc r10 rax cf fun r10 cf =>
  adc r11 0#64 cf fun r11 cf =>
  add r10 rbx fun r10 cf =>
  adc r11 0#64 cf fun r11 cf =>
  mov a.w5 fun rdx =>
  mulx rdx b.w0 fun rax rcx =>
  add r12 rax fun r12 cf =>
  mov r12 fun c5 =>
  mulx rdx b.w1 fun rax rbx =>
  adc r13 rax cf fun r13 cf =>
  adc rbx 0#64 cf fun rbx cf =>
  add r13 rcx fun r13 cf =>
  mulx rdx b.w2 fun rax rcx =>
  adc r14 rax cf fun r14 cf =>
  adc rcx 0#64 cf fun rcx cf =>
  add r14 rbx fun r14 cf =>
  mulx rdx b.w3 fun rax rbx =>
  adc r8 rax cf fun r8 cf =>
  adc rbx 0#64 cf fun rbx cf =>
  add r8 rcx fun r8 cf =>
  mulx rdx b.w4 fun rax rcx =>
  adc r9 rax cf fun r9 cf =>
  adc rcx 0#64 cf fun rcx cf =>
  add r9 rbx fun r9 cf =>
  mulx rdx b.w5 fun rax rbx =>
  adc r10 rax cf fun r10 cf =>
  adc rbx 0#64 cf fun rbx cf =>
  add r10 rcx fun r10 cf =>
  mulx rdx b.w6 fun rax r12 =>
  adc r11 rax cf fun r11 cf =>
  adc r12 0#64 cf fun r12 cf =>
  add r11 rbx fun r11 cf =>
  adc r12 0#64 cf fun r12 cf =>
  mov a.w6 fun rdx =>
  mulx rdx b.w0 fun rax rcx =>
  add r13 rax fun r13 cf =>
  mov r13 fun c6 =>
  mulx rdx b.w1 fun rax rbx =>
  adc r14 rax cf fun r14 cf =>
  adc rbx 0#64 cf fun rbx cf =>
  add r14 rcx fun r14 cf =>
  mulx rdx b.w2 fun rax rcx =>
  adc r8 rax cf fun r8 cf =>
  adc rcx 0#64 cf fun rcx cf =>
  add r8 rbx fun r8 cf =>
  mulx rdx b.w3 fun rax rbx =>
  adc r9 rax cf fun r9 cf =>
  adc rbx 0#64 cf fun rbx cf =>
  add r9 rcx fun r9 cf =>
  mulx rdx b.w4 fun rax rcx =>
  adc r10 rax cf fun r10 cf =>
  adc rcx 0#64 cf fun rcx cf =>
  add r10 rbx fun r10 cf =>
  mulx rdx b.w5 fun rax rbx =>
  adc r11 rax cf fun r11 cf =>
  adc rbx 0#64 cf fun rbx cf =>
  add r11 rcx fun r11 cf =>
  mulx rdx b.w6 fun rax r13 =>
  adc r12 rax cf fun r12 cf =>
  adc r13 0#64 cf fun r13 cf =>
  add r12 rbx fun r12 cf =>
  adc r13 0#64 cf fun r13 cf =>
  mov r14 fun c7 =>
  mov r8 fun c8 =>
  mov r9 fun c9 =>
  mov r10 fun c10 =>
  mov r11 fun c11 =>
  mov r12 fun c12 =>
  mov r13 fun c13 =>
  ⟨c0, c1, c2, c3, c4, c5, c6, c7, c8, c9, c10, c11, c12, c13⟩

/-- `intsqr_mulx`: src/eltfp448_1w_fullradix.c:443-564. BMI2 variant. -/
def intsqr_mulx (a : F7) : F14 :=
  mov a.w0 fun rdx =>
  mulx rdx rdx fun rax rbx =>
  mov a.w1 fun rdx =>
  mulx rdx rdx fun r8 r9 =>
  mov rax fun c0 =>
  mov rbx fun c1 =>
  mov r8 fun c2 =>
  mov r9 fun c3 =>
  mov a.w2 fun rdx =>
  mulx rdx rdx fun r10 r11 =>
  mov a.w3 fun rdx =>
  mulx rdx rdx fun r12 r13 =>
  mov r10 fun c4 =>
  mov r11 fun c5 =>
  mov r12 fun c6 =>
  mov r13 fun c7 =>
  mov a.w4 fun rdx =>
  mulx rdx rdx fun rax rbx =>
  mov a.w5 fun rdx =>
  mulx rdx rdx fun r8 r9 =>
  mov rax fun c8 =>
  mov rbx fun c9 =>
  mov r8 fun c10 =>
  mov r9 fun c11 =>
  mov a.w6 fun rdx =>
  mulx rdx rdx fun r10 r11 =>
  mov r10 fun c12 =>
  mov r11 fun c13 =>
  mov a.w0 fun rdx =>
  mulx rdx a.w1 fun r8 r9 =>
  mulx rdx a.w2 fun r10 r11 =>
  add r9 r10 fun r9 cf =>
  mulx rdx a.w3 fun r12 r13 =>
  adc r11 r12 cf fun r11 cf =>
  mulx rdx a.w4 fun r14 rax =>
  adc r13 r14 cf fun r13 cf =>
  mulx rdx a.w5 fun r10 rbx =>
  adc rax r10 cf fun rax cf =>
  mulx rdx a.w6 fun r12 rcx =>
  adc rbx r12 cf fun rbx cf =>
  mov a.w3 fun rdx =>
  mulx rdx a.w4 fun r14 rdx =>
  adc rcx r14 cf fun rcx cf =>
  adc rdx 0#64 cf fun rdx cf =>
  xor0 fun r10 cf ovf =>
  shld 1 rdx r10 fun r10 =>
  shld 1 rcx rdx fun rdx =>
  shld 1 rbx rcx fun rcx =>
  shld 1 rax rbx fun rbx =>
  shld 1 r13 rax fun rax =>
  shld 1 r11 r13 fun r13 =>
  shld 1 r9 r11 fun r11 =>
  shld 1 r8 r9 fun r9 =>
  shl 1 r8 fun r8 =>
  add r8 c1 fun r8 cf =>
  mov r8 fun c1 =>
  adc r9 c2 cf fun r9 cf =>
  mov r9 fun c2 =>
  adc r11 c3 cf fun r11 cf =>
  mov r11 fun c3 =>
  adc r13 c4 cf fun r13 cf =>
  mov r13 fun c4 =>
  adc rax c5 cf fun rax cf =>
  mov rax fun c5 =>
  adc rbx c6 cf fun rbx cf =>
  mov rbx fun c6 =>
  adc rcx c7 cf fun rcx cf =>
  mov rcx fun c7 =>
  adc rdx c8 cf fun rdx cf =>
  mov rdx fun c8 =>
  adc r10 c9 cf fun r10 cf =>
  mov r10 fun c9 =>
  mov a.w1 fun rdx =>
  mulx rdx a.w2 fun r8 r9 =>
  mulx rdx a.w3 fun r10 r11 =>
  add r9 r10 fun r9 cf =>
  mulx rdx a.w4 fun r12 r13 =>
  adc r11 r12 cf fun r11 cf =>
  mulx rdx a.w5 fun r14 rax =>
  adc r13 r14 cf fun r13 cf =>
  mulx rdx a.w6 fun r10 rbx =>
  adc rax r10 cf fun rax cf =>
  mov a.w5 fun rdx =>
  mulx rdx a.w3 fun r12 rcx =>
  adc rbx r12 cf fun rbx cf =>
  mulx rdx a.w4 fun r14 rdx =>
  adc rcx r14 cf fun rcx cf =>
  adc rdx 0#64 cf fun rdx cf =>
  xor0 fun r10 cf ovf =>
  shld 1 rdx r10 fun r10 =>
  shld 1 rcx rdx fun rdx =>
  shld 1 rbx rcx fun rcx =>
  shld 1 rax rbx fun rbx =>
  shld 1 r13 rax fun rax =>
  shld 1 r11 r13 fun r13 =>
  shld 1 r9 r11 fun r11 =>
  shld 1 r8 r9 fun r9 =>
  shl 1 r8 fun r8 =>
  add r8 c3 fun r8 cf =>
  mov r8 fun c3 =>
  adc r9 c4 cf fun r9 cf =>
  mov r9 fun c4 =>
  adc r11 c5 cf fun r11 cf =>
  mov r11 fun c5 =>
  adc r13 c6 cf fun r13 cf =>
  mov r13 fun c6 =>
  adc rax c7 cf fun rax cf =>
  mov rax fun c7 =>
  adc rbx c8 cf fun rbx cf =>
  mov rbx fun c8 =>
  adc rcx c9 cf fun rcx cf =>
  mov rcx fun c9 =>
  adc rdx c10 cf fun rdx cf =>
  mov rdx fun c10 =>
  adc r10 c11 cf fun r10 cf =>
  mov r10 fun c11 =>
  mov a.w2 fun rdx =>
  mulx rdx a.w3 fun r8 r9 =>
  mulx rdx a.w4 fun r10 r11 =>
  add r9 r10 fun r9 cf =>
  mulx rdx a.w5 fun r12 r13 =>
  adc r11 r12 cf fun r11 cf =>
  mulx rdx a.w6 fun r14 rax =>
  adc r13 r14 cf fun r13 cf =>
  mov a.w6 fun rdx =>
  mulx rdx a.w3 fun r10 rbx =>
  adc rax r10 cf fun rax cf =>
  mulx rdx a.w4 fun r12 rcx =>
  adc rbx r12 cf fun rbx cf =>
  mulx rdx a.w5 fun r14 rdx =>
  adc rcx r14 cf fun rcx cf =>
  adc rdx 0#64 cf fun rdx cf =>
  xor0 fun r10 cf ovf =>
  shld 1 rdx r10 fun r10 =>
  shld 1 rcx rdx fun rdx =>
  shld 1 rbx rcx fun rcx =>
  shld 1 rax rbx fun rbx =>
  shld 1 r13 rax fun rax =>
  shld 1 r11 r13 fun r13 =>
  shld 1 r9 r11 fun r11 =>
  shld 1 r8 r9 fun r9 =>
  shl 1 r8 fun r8 =>
  add r8 c5 fun r8 cf =>
  mov r8 fun c5 =>
  adc r9 c6 cf fun r9 cf =>
  mov r9 fun c6 =>
  adc r11 c7 cf fun r11 cf =>
  mov r11 fun c7 =>
  adc r13 c8 cf fun r13 cf =>
  mov r13 fun c8 =>
  adc rax c9 cf fun rax cf =>
  mov rax fun c9 =>
  adc rbx c10 cf fun rbx cf =>
  mov rbx fun c10 =>
  adc rcx c11 cf fun rcx cf =>
  mov rcx fun c11 =>
  adc rdx c12 cf fun rdx cf =>
  mov rdx fun c12 =>
  adc r10 c13 cf fun r10 cf =>
  mov r10 fun c13 =>
  ⟨c0, c1, c2, c3, c4, c5, c6, c7, c8, c9, c10, c11, c12, c13⟩

/-- `intmul_mulq`: src/eltfp448_1w_fullradix.c:282-316. Baseline x86-64 variant. -/
def intmul_mulq (a b : F7) : F14 :=
  mov a.w0 fun rcx =>
  mov b.w0 fun rax =>
  mulx rax rcx fun rax rdx =>
  mov rax fun c0 =>
  mov rdx fun r8 =>
  mov b.w1 fun rax =>
  mulx rax rcx fun rax rdx =>
  add r8 rax fun r8 cf =>
  adc rdx 0#64 cf fun rdx cf =>
  mov rdx fun r9 =>
  mov b.w2 fun rax =>
  mulx rax rcx fun rax rdx =>
  add r9 rax fun r9 cf =>
  adc rdx 0#64 cf fun rdx cf =>
  mov rdx fun r10 =>
  mov b.w3 fun rax =>
  mulx rax rcx fun rax rdx =>
  add r10 rax fun r10 cf =>
  adc rdx 0#64 cf fun rdx cf =>
  mov rdx fun r11 =>
  mov b.w4 fun rax =>
  mulx rax rcx fun rax rdx =>
  add r11 rax fun r11 cf =>
  adc rdx 0#64 cf fun rdx cf =>
  mov rdx fun r12 =>
  mov b.w5 fun rax =>
  mulx rax rcx fun rax rdx =>
  add r12 rax fun r12 cf =>
  adc rdx 0#64 cf fun rdx cf =>
  mov rdx fun r13 =>
  mov b.w6 fun rax =>
  mulx rax rcx fun rax rdx =>
  add r13 rax fun r13 cf =>
  adc rdx 0#64 cf fun rdx cf =>
  mov rdx fun r14 =>
  mov a.w1 fun rcx =>
  mov b.w0 fun rax =>
  mulx rax rcx fun rax rdx =>
  add r8 rax fun r8 cf =>
  mov r8 fun c1 =>
  mov rdx fun r8 =>
  adc r8 0#64 cf fun r8 cf =>
  mov b.w1 fun rax =>
  mulx rax rcx fun rax rdx =>
  add r9 rax fun r9 cf =>
  adc rdx 0#64 cf fun rdx cf =>
  add r8 r9 fun r8 cf =>
  mov rdx fun r9 =>
  adc r9 0#64 cf fun r9 cf =>
  mov b.w2 fun rax =>
  mulx rax rcx fun rax rdx =>
  add r10 rax fun r10 cf =>
  adc rdx 0#64 cf fun rdx cf =>
  add r9 r10 fun r9 cf =>
  mov rdx fun r10 =>
  adc r10 0#64 cf fun r10 cf =>
  mov b.w3 fun rax =>
  mulx rax rcx fun rax rdx =>
  add r11 rax fun r11 cf =>
  adc rdx 0#64 cf fun rdx cf =>
  add r10 r11 fun r10 cf =>
  mov rdx fun r11 =>
  adc r11 0#64 cf fun r11 cf =>
  mov b.w4 fun rax =>
  mulx rax rcx fun rax rdx =>
  add r12 rax fun r12 cf =>
  adc rdx 0#64 cf fun rdx cf =>
  add r11 r12 fun r11 cf =>
  mov rdx fun r12 =>
  adc r12 0#64 cf fun r12 cf =>
  mov b.w5 fun rax =>
  mulx rax rcx fun rax rdx =>
  add r13 rax fun r13 cf =>
  adc rdx 0#64 cf fun rdx cf =>
  add r12 r13 fun r12 cf =>
  mov rdx fun r13 =>
  adc r13 0#64 cf fun r13 cf =>
  mov b.w6 fun rax =>
  mulx rax rcx fun rax rdx =>
  add r14 rax fun r14 cf =>
  adc rdx 0#64 cf fun rdx cf =>
  add r13 r14 fun r13 cf =>
  mov rdx fun r14 =>
  adc r14 0#64 cf fun r14 cf =>
  mov a.w2 fun rcx =>
  mov b.w0 fun rax =>
  mulx rax rcx fun rax rdx =>
  add r8 rax fun r8 cf =>
  mov r8 fun c2 =>
  mov rdx fun r8 =>
  adc r8 0#64 cf fun r8 cf =>
  mov b.w1 fun rax =>
  mulx rax rcx fun rax rdx =>
  add r9 rax fun r9 cf =>
  adc rdx 0#64 cf fun rdx cf =>
  add r8 r9 fun r8 cf =>
  mov rdx fun r9 =>
  adc r9 0#64 cf fun r9 cf =>
  mov b.w2 fun rax =>
  mulx rax rcx fun rax rdx =>
  add r10 rax fun r10 cf =>
  adc rdx 0#64 cf fun rdx cf =>
  add r9 r10 fun r9 cf =>
  mov rdx fun r10 =>
  adc r10 0#64 cf fun r10 cf =>
  mov b.w3 fun rax =>
  mulx rax rcx fun rax rdx =>
  add r11 rax fun r11 cf =>
  adc rdx 0#64 cf fun rdx cf =>
  add r10 r11 fun r10 cf =>
  mov rdx fun r11 =>
  adc r11 0#64 cf fun r11 cf =>
  mov b.w4 fun rax =>
  mulx rax rcx fun rax rdx =>
  add r12 rax fun r12 cf =>
  adc rdx 0#64 cf fun rdx cf =>
  add r11 r12 fun r11 cf =>
  mov rdx fun r12 =>
  adc r12 0#64 cf fun r12 cf =>
  mov b.w5 fun rax =>
  mulx rax rcx fun rax rdx =>
  add r13 rax fun r13 cf =>
  adc rdx 0#64 cf fun rdx cf =>
  add r12 r13 fun r12 cf =>
  mov rdx fun r13 =>
  adc r13 0#64 cf fun r13 cf =>
  mov b.w6 fun rax =>
  mulx rax rcx fun rax rdx =>
  add r14 rax fun r14 cf =>
  adc rdx 0#64 cf fun rdx cf =>
  add r13 r14 fun r13 cf =>
  mov rdx fun r14 =>
  adc r14 0#64 cf fun r14 cf =>
  mov a.w3 fun rcx =>
  mov b.w0 fun rax =>
  mulx rax rcx fun rax rdx =>
  add r8 rax fun r8 cf =>
  mov r8 fun c3 =>
  mov rdx fun r8 =>
  adc r8 0#64 cf fun r8 cf =>
  mov b.w1 fun rax =>
  mulx rax rcx fun rax rdx =>
  add r9 rax fun r9 cf =>
  adc rdx 0#64 cf fun rdx cf =>
  add r8 r9 fun r8 cf =>
  mov rdx fun r9 =>
  adc r9 0#64 cf fun r9 cf =>
  mov b.w2 fun rax =>
  mulx rax rcx fun rax rdx =>
  add r10 rax fun r10 cf =>
  adc rdx 0#64 cf fun rdx cf =>
  add r9 r10 fun r9 cf =>
  mov rdx fun r10 =>
  adc r10 0#64 cf fun r10 cf =>
  mov b.w3 fun rax =>
  mulx rax rcx fun rax rdx =>
  add r11 rax fun r11 cf =>
  adc rdx 0#64 cf fun rdx cf =>
  add r10 r11 fun r10 cf =>
  mov rdx fun r11 =>
  adc r11 0#64 cf fun r11 cf =>
  mov b.w4 fun rax =>
  mulx rax rcx fun rax rdx =>
  add r12 rax fun r12 cf =>
  adc rdx 0#64 cf fun rdx cf =>
  add r11 r12 fun r11 cf =>
  mov rdx fun r12 =>
  adc r12 0#64 cf fun r12 cf =>
  mov b.w5 fun rax =>
  mulx rax rcx fun rax rdx =>
  add r13 rax fun r13 cf =>
  adc rdx 0#64 cf fun rdx cf =>
  add r12 r13 fun r12 cf =>
  mov rdx fun r13 =>
  adc r13 0#64 cf fun r13 cf =>
  mov b.w6 fun rax =>
  mulx rax rcx fun rax rdx =>
  add r14 rax fun r14 cf =>
  adc rdx 0#64 cf fun rdx cf =>
  add r13 r14 fun r13 cf =>
  mov rdx fun r14 =>
  adc r14 0#64 cf fun r14 cf =>
  mov a.w4 fun rcx =>
  mov b.w0 fun rax =>
  mulx rax rcx fun rax rdx =>
  add r8 rax fun r8 cf =>
  mov r8 fun c4 =>
  mov rdx fun r8 =>
  adc r8 0#64 cf fun r8 cf =>
  mov b.w1 fun rax =>
  mulx rax rcx fun rax rdx =>
  add r9 rax fun r9 cf =>
  adc rdx 0#64 cf fun rdx cf =>
  add r8 r9 fun r8 cf =>
  mov rdx fun r9 =>
  adc r9 0#64 cf fun r9 cf =>
  mov b.w2 fun rax =>
  mulx rax rcx fun rax rdx =>
  add r10 rax fun r10 cf =>
  adc rdx 0#64 cf fun rdx cf =>
  add r9 r10 fun r9 cf =>
  mov rdx fun r10 =>
  adc r10 0#64 cf fun r10 cf =>
  mov b.w3 fun rax =>
  mulx rax rcx fun rax rdx =>
  add r11 rax fun r11 cf =>
  adc rdx 0#64 cf fun rdx cf =>
  add r10 r11 fun r10 cf =>
  mov rdx fun r11 =>
  adc r11 0#64 cf fun r11 cf =>
  mov b.w4 fun rax =>
  mulx rax rcx fun rax rdx =>
  add r12 rax fun r12 cf =>
  adc rdx 0#64 cf fun rdx cf =>
  add r11 r12 fun r11 cf =>
  mov rdx fun r12 =>
  adc r12 0#64 cf fun r12 cf =>
  mov b.w5 fun rax =>
  mulx rax rcx fun rax rdx =>
  add r13 rax fun r13 cf =>
  adc rdx 0#64 cf fun rdx cf =>
  add r12 r13 fun r12 cf =>
  mov rdx fun r13 =>
  adc r13 0#64 cf fun r13 cf =>
  mov b.w6 fun rax =>
  mulx rax rcx fun rax rdx =>
  add r14 rax fun r14 cf =>
  adc rdx 0#64 cf fun rdx cf =>
  add r13 r14 fun r13 cf =>
  mov rdx fun r14 =>
  adc r14 0#64 cf fun r14 cf =>
  mov a.w5 fun rcx =>
  mov b.w0 fun rax =>
  mulx rax rcx fun rax rdx =>
  add r8 rax fun r8 cf =>
  mov r8 fun c5 =>
  mov rdx fun r8 =>
  adc r8 0#64 cf fun r8 cf =>
  mov b.w1 fun rax =>
  mulx rax rcx fun rax rdx =>
  add r9 rax fun r9 cf =>
  adc rdx 0#64 cf fun rdx cf =>
  add r8 r9 fun r8 cf =>
  mov rdx fun r9 =>
  adc r9 0#64 cf fun r9 cf =>
  mov b.w2 fun rax =>
  mulx rax rcx fun rax rdx =>
  add r10 rax fun r10 cf =>
  adc rdx 0#64 cf fun rdx cf =>
  add r9 r10 fun r9 cf =>
  mov rdx fun r10 =>
  adc r10 0#64 cf fun r10 cf =>
  mov b.w3 fun rax =>
  mulx rax rcx fun rax rdx =>
  add r11 rax fun r11 cf =>
  adc rdx 0#64 cf fun rdx cf =>
  add r10 r11 fun r10 cf =>
  mov rdx fun r11 =>
  adc r11 0#64 cf fun r11 cf =>
  mov b.w4 fun rax =>
  mulx rax rcx fun rax rdx =>
  add r12 rax fun r12 cf =>
  adc rdx 0#64 cf fun rdx cf =>
  add r11 r12 fun r11 cf =>
  mov rdx fun r12 =>
  adc r12 0#64 cf fun r12 cf =>
  mov b.w5 fun rax =>
  mulx rax rcx fun rax rdx =>
  add r13 rax fun r13 cf =>
  adc rdx 0#64 cf fun rdx cf =>
  add r12 r13 fun r12 cf =>
  mov rdx fun r13 =>
  adc r13 0#64 cf fun r13 cf =>
  mov b.w6 fun rax =>
  mulx rax rcx fun rax rdx =>
  add r14 rax fun r14 cf =>
  adc rdx 0#64 cf fun rdx cf =>
  add r13 r14 fun r13 cf =>
  mov rdx fun r14 =>
  adc r14 0#64 cf fun r14 cf =>
  mov a.w6 fun rcx =>
  mov b.w0 fun rax =>
  mulx rax rcx fun rax rdx =>
  add r8 rax fun r8 cf =>
  mov r8 fun c6 =>
  mov rdx fun r8 =>
  adc r8 0#64 cf fun r8 cf =>
  mov b.w1 fun rax =>
  mulx rax rcx fun rax rdx =>
  add r9 rax fun r9 cf =>
  adc rdx 0#64 cf fun rdx cf =>
  add r8 r9 fun r8 cf =>
  mov rdx fun r9 =>
  adc r9 0#64 cf fun r9 cf =>
  mov b.w2 fun rax =>
  mulx rax rcx fun rax rdx =>
  add r10 rax fun r10 cf =>
  adc rdx 0#64 cf fun rdx cf =>
  add r9 r10 fun r9 cf =>
  mov rdx fun r10 =>
  adc r10 0#64 cf fun r10 cf =>
  mov b.w3 fun rax =>
  mulx rax rcx fun rax rdx =>
  add r11 rax fun r11 cf =>
  adc rdx 0#64 cf fun rdx cf =>
  add r10 r11 fun r10 cf =>
  mov rdx fun r11 =>
  adc r11 0#64 cf fun r11 cf =>
  mov b.w4 fun rax =>
  mulx rax rcx fun rax rdx =>
  add r12 rax fun r12 cf =>
  adc rdx 0#64 cf fun rdx cf =>
  add r11 r12 fun r11 cf =>
  mov rdx fun r12 =>
  adc r12 0#64 cf fun r12 cf =>
  mov b.w5 fun rax =>
  mulx rax rcx fun rax rdx =>
  add r13 rax fun r13 cf =>
  adc rdx 0#64 cf fun rdx cf =>
  add r12 r13 fun r12 cf =>
  mov rdx fun r13 =>
  adc r13 0#64 cf fun r13 cf =>
  mov b.w6 fun rax =>
  mulx rax rcx fun rax rdx =>
  add r14 rax fun r14 cf =>
  adc rdx 0#64 cf fun rdx cf =>
  add r13 r14 fun r13 cf =>
  mov rdx fun r14 =>
  adc r14 0#64 cf fun r14 cf =>
  mov r8 fun c7 =>
  mov r9 fun c8 =>
  mov r10 fun c9 =>
  mov r11 fun c10 =>
  mov r12 fun c11 =>
  mov r13 fun c12 =>
  mov r14 fun c13 =>
  ⟨c0, c1, c2, c3, c4, c5, c6, c7, c8, c9, c10, c11, c12, c13⟩

/-- `intsqr_mulq`: src/eltfp448_1w_fullradix.c:587-676. Baseline x86-64 variant. -/
def intsqr_mulq (a : F7) : F14 :=
  mov a.w0 fun rcx =>
  mov a.w1 fun rax =>
  mulx rax rcx fun rax rdx =>
  mov rax fun r8 =>
  mov rdx fun r9 =>
  mov a.w2 fun rax =>
  mulx rax rcx fun rax rdx =>
  add r9 rax fun r9 cf =>
  adc rdx 0#64 cf fun rdx cf =>
  mov rdx fun r10 =>
  mov a.w3 fun rax =>
  mulx rax rcx fun rax rdx =>
  add r10 rax fun r10 cf =>
  adc rdx 0#64 cf fun rdx cf =>
  mov rdx fun r11 =>
  mov a.w4 fun rax =>
  mulx rax rcx fun rax rdx =>
  add r11 rax fun r11 cf =>
  adc rdx 0#64 cf fun rdx cf =>
  mov rdx fun r12 =>
  mov a.w5 fun rax =>
  mulx rax rcx fun rax rdx =>
  add r12 rax fun r12 cf =>
  adc rdx 0#64 cf fun rdx cf =>
  mov rdx fun r13 =>
  mov a.w6 fun rax =>
  mulx rax rcx fun rax rdx =>
  add r13 rax fun r13 cf =>
  adc rdx 0#64 cf fun rdx cf =>
  mov rdx fun r14 =>
  mov a.w3 fun rax =>
  mulx rax a.w4 fun rax rdx =>
  add r14 rax fun r14 cf =>
  adc rdx 0#64 cf fun rdx cf =>
  mov rdx fun r15 =>
  xor0 fun rcx cf ovf =>
  shld 1 r15 rcx fun rcx =>
  shld 1 r14 r15 fun r15 =>
  shld 1 r13 r14 fun r14 =>
  shld 1 r12 r13 fun r13 =>
  shld 1 r11 r12 fun r12 =>
  shld 1 r10 r11 fun r11 =>
  shld 1 r9 r10 fun r10 =>
  shld 1 r8 r9 fun r9 =>
  shl 1 r8 fun r8 =>
  mov rcx fun c9 =>
  mov r15 fun c8 =>
  mov r14 fun c7 =>
  mov r13 fun c6 =>
  mov r12 fun c5 =>
  mov r11 fun c4 =>
  mov r10 fun c3 =>
  mov r9 fun c2 =>
  mov r8 fun c1 =>
  mov a.w1 fun rcx =>
  mov a.w2 fun rax =>
  mulx rax rcx fun rax rdx =>
  mov rax fun r8 =>
  mov rdx fun r9 =>
  mov a.w3 fun rax =>
  mulx rax rcx fun rax rdx =>
  add r9 rax fun r9 cf =>
  adc rdx 0#64 cf fun rdx cf =>
  mov rdx fun r10 =>
  mov a.w4 fun rax =>
  mulx rax rcx fun rax rdx =>
  add r10 rax fun r10 cf =>
  adc rdx 0#64 cf fun rdx cf =>
  mov rdx fun r11 =>
  mov a.w5 fun rax =>
  mulx rax rcx fun rax rdx =>
  add r11 rax fun r11 cf =>
  adc rdx 0#64 cf fun rdx cf =>
  mov rdx fun r12 =>
  mov a.w6 fun rax =>
  mulx rax rcx fun rax rdx =>
  add r12 rax fun r12 cf =>
  adc rdx 0#64 cf fun rdx cf =>
  mov rdx fun r13 =>
  mov a.w5 fun rcx =>
  mov a.w3 fun rax =>
  mulx rax rcx fun rax rdx =>
  add r13 rax fun r13 cf =>
  adc rdx 0#64 cf fun rdx cf =>
  mov rdx fun r14 =>
  mov a.w4 fun rax =>
  mulx rax rcx fun rax rdx =>
  add r14 rax fun r14 cf =>
  adc rdx 0#64 cf fun rdx cf =>
  mov rdx fun r15 =>
  xor0 fun rcx cf ovf =>
  shld 1 r15 rcx fun rcx =>
  shld 1 r14 r15 fun r15 =>
  shld 1 r13 r14 fun r14 =>
  shld 1 r12 r13 fun r13 =>
  shld 1 r11 r12 fun r12 =>
  shld 1 r10 r11 fun r11 =>
  shld 1 r9 r10 fun r10 =>
  shld 1 r8 r9 fun r9 =>
  shl 1 r8 fun r8 =>
  add r8 c3 fun r8 cf =>
  mov r8 fun c3 =>
  adc r9 c4 cf fun r9 cf =>
  mov r9 fun c4 =>
  adc r10 c5 cf fun r10 cf =>
  mov r10 fun c5 =>
  adc r11 c6 cf fun r11 cf =>
  mov r11 fun c6 =>
  adc r12 c7 cf fun r12 cf =>
  mov r12 fun c7 =>
  adc r13 c8 cf fun r13 cf =>
  mov r13 fun c8 =>
  adc r14 c9 cf fun r14 cf =>
  mov r14 fun c9 =>
  adc r15 0#64 cf fun r15 cf =>
  mov r15 fun c10 =>
  adc rcx 0#64 cf fun rcx cf =>
  mov rcx fun c11 =>
  mov a.w2 fun rcx =>
  mov a.w3 fun rax =>
  mulx rax rcx fun rax rdx =>
  mov rax fun r8 =>
  mov rdx fun r9 =>
  mov a.w4 fun rax =>
  mulx rax rcx fun rax rdx =>
  add r9 rax fun r9 cf =>
  adc rdx 0#64 cf fun rdx cf =>
  mov rdx fun r10 =>
  mov a.w5 fun rax =>
  mulx rax rcx fun rax rdx =>
  add r10 rax fun r10 cf =>
  adc rdx 0#64 cf fun rdx cf =>
  mov rdx fun r11 =>
  mov a.w6 fun rax =>
  mulx rax rcx fun rax rdx =>
  add r11 rax fun r11 cf =>
  adc rdx 0#64 cf fun rdx cf =>
  mov rdx fun r12 =>
  mov a.w6 fun rcx =>
  mov a.w3 fun rax =>
  mulx rax rcx fun rax rdx =>
  add r12 rax fun r12 cf =>
  adc rdx 0#64 cf fun rdx cf =>
  mov rdx fun r13 =>
  mov a.w4 fun rax =>
  mulx rax rcx fun rax rdx =>
  add r13 rax fun r13 cf =>
  adc rdx 0#64 cf fun rdx cf =>
  mov rdx fun r14 =>
  mov a.w5 fun rax =>
  mulx rax rcx fun rax rdx =>
  add r14 rax fun r14 cf =>
  adc rdx 0#64 cf fun rdx cf =>
  mov rdx fun r15 =>
  xor0 fun rcx cf ovf =>
  shld 1 r15 rcx fun rcx =>
  shld 1 r14 r15 fun r15 =>
  shld 1 r13 r14 fun r14 =>
  shld 1 r12 r13 fun r13 =>
  shld 1 r11 r12 fun r12 =>
  shld 1 r10 r11 fun r11 =>
  shld 1 r9 r10 fun r10 =>
  shld 1 r8 r9 fun r9 =>
  shl 1 r8 fun r8 =>
  add r8 c5 fun r8 cf =>
  mov r8 fun c5 =>
  adc r9 c6 cf fun r9 cf =>
  mov r9 fun c6 =>
  adc r10 c7 cf fun r10 cf =>
  mov r10 fun c7 =>
  adc r11 c8 cf fun r11 cf =>
  mov r11 fun c8 =>
  adc r12 c9 cf fun r12 cf =>
  mov r12 fun c9 =>
  adc r13 c10 cf fun r13 cf =>
  mov r13 fun c10 =>
  adc r14 c11 cf fun r14 cf =>
  mov r14 fun c11 =>
  adc r15 0#64 cf fun r15 cf =>
  mov r15 fun c12 =>
  adc rcx 0#64 cf fun rcx cf =>
  mov rcx fun c13 =>
  mov a.w0 fun rax =>
  mulx rax rax fun rax rdx =>
  mov rax fun r8 =>
  mov rdx fun r9 =>
  mov a.w1 fun rax =>
  mulx rax rax fun rax rdx =>
  mov rax fun r10 =>
  mov rdx fun r11 =>
  mov a.w2 fun rax =>
  mulx rax rax fun rax rdx =>
  mov rax fun r12 =>
  mov rdx fun r13 =>
  mov a.w3 fun rax =>
  mulx rax rax fun rax rdx =>
  mov rax fun r14 =>
  mov rdx fun r15 =>
  xor0 fun rcx cf ovf =>
  mov r8 fun c0 =>
  add r9 c1 fun r9 cf =>
  mov r9 fun c1 =>
  adc r10 c2 cf fun r10 cf =>
  mov r10 fun c2 =>
  adc r11 c3 cf fun r11 cf =>
  mov r11 fun c3 =>
  adc r12 c4 cf fun r12 cf =>
  mov r12 fun c4 =>
  adc r13 c5 cf fun r13 cf =>
  mov r13 fun c5 =>
  adc r14 c6 cf fun r14 cf =>
  mov r14 fun c6 =>
  adc r15 c7 cf fun r15 cf =>
  mov r15 fun c7 =>
  setc rcx cf fun rcx =>
  mov a.w4 fun rax =>
  mulx rax rax fun rax rdx =>
  mov rax fun r8 =>
  mov rdx fun r9 =>
  mov a.w5 fun rax =>
  mulx rax rax fun rax rdx =>
  mov rax fun r10 =>
  mov rdx fun r11 =>
  mov a.w6 fun rax =>
  mulx rax rax fun rax rdx =>
  mov rax fun r12 =>
  mov rdx fun r13 =>
  bt0 rcx fun cf =>
  adc r8 c8 cf fun r8 cf =>
  mov r8 fun c8 =>
  adc r9 c9 cf fun r9 cf =>
  mov r9 fun c9 =>
  adc r10 c10 cf fun r10 cf =>
  mov r10 fun c10 =>
  adc r11 c11 cf fun r11 cf =>
  mov r11 fun c11 =>
  adc r12 c12 cf fun r12 cf =>
  mov r12 fun c12 =>
  adc r13 c13 cf fun r13 cf =>
  mov r13 fun c13 =>
  ⟨c0, c1, c2, c3, c4, c5, c6, c7, c8, c9, c10, c11, c12, c13⟩

/-- `reduce_adx`: src/eltfp448_1w_fullradix.c:702-771. ADX variant. -/
def reduce_adx (a : F14) : F7 :=
  mov a.w10 fun rax =>
  mov rax fun r10 =>
  mov 18446744069414584320#64 fun r8 =>
  and r10 r8 fun r10 cf ovf =>
  mov 0#64 fun r14 =>
  mov a.w13 fun r13 =>
  shld 1 r13 r14 fun r14 =>
  mov a.w12 fun r12 =>
  shld 1 r12 r13 fun r13 =>
  mov a.w11 fun r11 =>
  shld 1 r11 r12 fun r12 =>
  mov a.w9 fun r9 =>
  shld 1 r10 r11 fun r11 =>
  mov a.w8 fun r8 =>
  shl 1 r10 fun r10 =>
  mov 4294967295#64 fun r15 =>
  and rax r15 fun rax cf ovf =>
  or r10 rax fun r10 cf ovf =>
  mov a.w7 fun r15 =>
  xor0 fun rax cf ovf =>
  adc r15 a.w0 cf fun r15 cf =>
  mov r15 fun c0 =>
  mov a.w7 fun r15 =>
  adc r8 a.w1 cf fun r8 cf =>
  mov r8 fun c1 =>
  mov a.w8 fun r8 =>
  adc r9 a.w2 cf fun r9 cf =>
  mov r9 fun c2 =>
  mov a.w9 fun r9 =>
  adc r10 a.w3 cf fun r10 cf =>
  mov r10 fun c3 =>
  mov a.w10 fun r10 =>
  adc r11 a.w4 cf fun r11 cf =>
  mov r11 fun c4 =>
  mov a.w11 fun r11 =>
  adc r12 a.w5 cf fun r12 cf =>
  mov r12 fun c5 =>
  mov a.w12 fun r12 =>
  adc r13 a.w6 cf fun r13 cf =>
  mov r13 fun c6 =>
  mov a.w13 fun r13 =>
  adc r14 rax cf fun r14 cf =>
  mov r10 fun rax =>
  shrd 32 r11 r10 fun r10 =>
  shrd 32 r12 r11 fun r11 =>
  shrd 32 r13 r12 fun r12 =>
  shrd 32 r15 r13 fun r13 =>
  shrd 32 r8 r15 fun r15 =>
  shrd 32 r9 r8 fun r8 =>
  shrd 32 rax r9 fun r9 =>
  xor0 fun rax cf ovf =>
  adc r10 c0 cf fun r10 cf =>
  adc r11 c1 cf fun r11 cf =>
  adc r12 c2 cf fun r12 cf =>
  adc r13 c3 cf fun r13 cf =>
  adc r15 c4 cf fun r15 cf =>
  adc r8 c5 cf fun r8 cf =>
  adc r9 c6 cf fun r9 cf =>
  adc r14 rax cf fun r14 cf =>
  mov r14 fun rax =>
  shl 32 rax fun rax =>
  clc fun cf =>
  adc r10 r14 cf fun r10 cf =>
  mov 0#64 fun r14 =>
  adc r11 r14 cf fun r11 cf =>
  adc r12 r14 cf fun r12 cf =>
  adc r13 rax cf fun r13 cf =>
  adc r15 r14 cf fun r15 cf =>
  adc r8 r14 cf fun r8 cf =>
  adc r9 r14 cf fun r9 cf =>
  adc r14 r14 cf fun r14 cf =>
  mov r14 fun rax =>
  shl 32 rax fun rax =>
  clc fun cf =>
  adc r10 r14 cf fun r10 cf =>
  mov r10 fun c0 =>
  mov 0#64 fun r14 =>
  adc r11 r14 cf fun r11 cf =>
  mov r11 fun c1 =>
  adc r12 r14 cf fun r12 cf =>
  mov r12 fun c2 =>
  adc r13 rax cf fun r13 cf =>
  mov r13 fun c3 =>
  adc r15 r14 cf fun r15 cf =>
  mov r15 fun c4 =>
  adc r8 r14 cf fun r8 cf =>
  mov r8 fun c5 =>
  adc r9 r14 cf fun r9 cf =>
  mov r9 fun c6 =>
  ⟨c0, c1, c2, c3, c4, c5, c6⟩

/-- `reduce_leg`: src/eltfp448_1w_fullradix.c:784-849. Variant without ADX. -/
def reduce_leg (a : F14) : F7 :=
  mov a.w10 fun rax =>
  mov rax fun r10 =>
  mov 18446744069414584320#64 fun r8 =>
  and r10 r8 fun r10 cf ovf =>
  mov 0#64 fun r14 =>
  mov a.w13 fun r13 =>
  shld 1 r13 r14 fun r14 =>
  mov a.w12 fun r12 =>
  shld 1 r12 r13 fun r13 =>
  mov a.w11 fun r11 =>
  shld 1 r11 r12 fun r12 =>
  mov a.w9 fun r9 =>
  shld 1 r10 r11 fun r11 =>
  mov a.w8 fun r8 =>
  shl 1 r10 fun r10 =>
  mov 4294967295#64 fun r15 =>
  and rax r15 fun rax cf ovf =>
  or r10 rax fun r10 cf ovf =>
  mov a.w7 fun r15 =>
  add r15 a.w0 fun r15 cf =>
  mov r15 fun c0 =>
  mov a.w7 fun r15 =>
  adc r8 a.w1 cf fun r8 cf =>
  mov r8 fun c1 =>
  mov a.w8 fun r8 =>
  adc r9 a.w2 cf fun r9 cf =>
  mov r9 fun c2 =>
  mov a.w9 fun r9 =>
  adc r10 a.w3 cf fun r10 cf =>
  mov r10 fun c3 =>
  mov a.w10 fun r10 =>
  adc r11 a.w4 cf fun r11 cf =>
  mov r11 fun c4 =>
  mov a.w11 fun r11 =>
  adc r12 a.w5 cf fun r12 cf =>
  mov r12 fun c5 =>
  mov a.w12 fun r12 =>
  adc r13 a.w6 cf fun r13 cf =>
  mov r13 fun c6 =>
  mov a.w13 fun r13 =>
  adc r14 0#64 cf fun r14 cf =>
  mov r10 fun rax =>
  shrd 32 r11 r10 fun r10 =>
  shrd 32 r12 r11 fun r11 =>
  shrd 32 r13 r12 fun r12 =>
  shrd 32 r15 r13 fun r13 =>
  shrd 32 r8 r15 fun r15 =>
  shrd 32 r9 r8 fun r8 =>
  shrd 32 rax r9 fun r9 =>
  add r10 c0 fun r10 cf =>
  adc r11 c1 cf fun r11 cf =>
  adc r12 c2 cf fun r12 cf =>
  adc r13 c3 cf fun r13 cf =>
  adc r15 c4 cf fun r15 cf =>
  adc r8 c5 cf fun r8 cf =>
  adc r9 c6 cf fun r9 cf =>
  adc r14 0#64 cf fun r14 cf =>
  mov r14 fun rax =>
  shl 32 rax fun rax =>
  add r10 r14 fun r10 cf =>
  mov 0#64 fun r14 =>
  adc r11 0#64 cf fun r11 cf =>
  adc r12 0#64 cf fun r12 cf =>
  adc r13 rax cf fun r13 cf =>
  adc r15 0#64 cf fun r15 cf =>
  adc r8 0#64 cf fun r8 cf =>
  adc r9 0#64 cf fun r9 cf =>
  adc r14 0#64 cf fun r14 cf =>
  mov r14 fun rax =>
  shl 32 rax fun rax =>
  add r10 r14 fun r10 cf =>
  mov r10 fun c0 =>
  adc r11 0#64 cf fun r11 cf =>
  mov r11 fun c1 =>
  adc r12 0#64 cf fun r12 cf =>
  mov r12 fun c2 =>
  adc r13 rax cf fun r13 cf =>
  mov r13 fun c3 =>
  adc r15 0#64 cf fun r15 cf =>
  mov r15 fun c4 =>
  adc r8 0#64 cf fun r8 cf =>
  mov r8 fun c5 =>
  adc r9 0#64 cf fun r9 cf =>
  mov r9 fun c6 =>
  ⟨c0, c1, c2, c3, c4, c5, c6⟩

/-- `mula24_mulx`: src/eltfp448_1w_fullradix.c:1147-1178. BMI2 variant. -/
def mula24_mulx (a : F7) : F7 :=
  mov 39082#64 fun rdx =>
  mulx rdx a.w0 fun rcx r8 =>
  mulx rdx a.w1 fun rax r9 =>
  add r8 rax fun r8 cf =>
  mulx rdx a.w2 fun rax r10 =>
  adc r9 rax cf fun r9 cf =>
  mulx rdx a.w3 fun rax r11 =>
  adc r10 rax cf fun r10 cf =>
  mulx rdx a.w4 fun rax r12 =>
  adc r11 rax cf fun r11 cf =>
  mulx rdx a.w5 fun rax r13 =>
  adc r12 rax cf fun r12 cf =>
  mulx rdx a.w6 fun rax rdx =>
  adc r13 rax cf fun r13 cf =>
  adc rdx 0#64 cf fun rdx cf =>
  mov rdx fun rax =>
  shl 32 rax fun rax =>
  add rcx rdx fun rcx cf =>
  mov 0#64 fun rdx =>
  adc r8 0#64 cf fun r8 cf =>
  adc r9 0#64 cf fun r9 cf =>
  adc r10 rax cf fun r10 cf =>
  adc r11 0#64 cf fun r11 cf =>
  adc r12 0#64 cf fun r12 cf =>
  adc r13 0#64 cf fun r13 cf =>
  adc rdx 0#64 cf fun rdx cf =>
  mov rdx fun rax =>
  shl 32 rax fun rax =>
  add rcx rdx fun rcx cf =>
  mov rcx fun c0 =>
  adc r8 0#64 cf fun r8 cf =>
  mov r8 fun c1 =>
  adc r9 0#64 cf fun r9 cf =>
  mov r9 fun c2 =>
  adc r10 rax cf fun r10 cf =>
  mov r10 fun c3 =>
  adc r11 0#64 cf fun r11 cf =>
  mov r11 fun c4 =>
  adc r12 0#64 cf fun r12 cf =>
  mov r12 fun c5 =>
  adc r13 0#64 cf fun r13 cf =>
  mov r13 fun c6 =>
  ⟨c0, c1, c2, c3, c4, c5, c6⟩

/-- `mula24_mulq`: src/eltfp448_1w_fullradix.c:1188-1225. Baseline x86-64 variant. -/
def mula24_mulq (a : F7) : F7 :=
  mov 39082#64 fun r15 =>
  mov a.w0 fun rax =>
  mulx rax r15 fun rax rdx =>
  mov rax fun rcx =>
  mov rdx fun r8 =>
  mov a.w1 fun rax =>
  mulx rax r15 fun rax rdx =>
  add r8 rax fun r8 cf =>
  adc rdx 0#64 cf fun rdx cf =>
  mov rdx fun r9 =>
  mov a.w2 fun rax =>
  mulx rax r15 fun rax rdx =>
  add r9 rax fun r9 cf =>
  adc rdx 0#64 cf fun rdx cf =>
  mov rdx fun r10 =>
  mov a.w3 fun rax =>
  mulx rax r15 fun rax rdx =>
  add r10 rax fun r10 cf =>
  adc rdx 0#64 cf fun rdx cf =>
  mov rdx fun r11 =>
  mov a.w4 fun rax =>
  mulx rax r15 fun rax rdx =>
  add r11 rax fun r11 cf =>
  adc rdx 0#64 cf fun rdx cf =>
  mov rdx fun r12 =>
  mov a.w5 fun rax =>
  mulx rax r15 fun rax rdx =>
  add r12 rax fun r12 cf =>
  adc rdx 0#64 cf fun rdx cf =>
  mov rdx fun r13 =>
  mov a.w6 fun rax =>
  mulx rax r15 fun rax rdx =>
  add r13 rax fun r13 cf =>
  adc rdx 0#64 cf fun rdx cf =>
  mov rdx fun rax =>
  shl 32 rax fun rax =>
  add rcx rdx fun rcx cf =>
  mov 0#64 fun rdx =>
  adc r8 0#64 cf fun r8 cf =>
  adc r9 0#64 cf fun r9 cf =>
  adc r10 rax cf fun r10 cf =>
  adc r11 0#64 cf fun r11 cf =>
  adc r12 0#64 cf fun r12 cf =>
  adc r13 0#64 cf fun r13 cf =>
  adc rdx 0#64 cf fun rdx cf =>
  mov rdx fun rax =>
  shl 32 rax fun rax =>
  add rcx rdx fun rcx cf =>
  mov rcx fun c0 =>
  adc r8 0#64 cf fun r8 cf =>
  mov r8 fun c1 =>
  adc r9 0#64 cf fun r9 cf =>
  mov r9 fun c2 =>
  adc r10 rax cf fun r10 cf =>
  mov r10 fun c3 =>
  adc r11 0#64 cf fun r11 cf =>
  mov r11 fun c4 =>
  adc r12 0#64 cf fun r12 cf =>
  mov r12 fun c5 =>
  adc r13 0#64 cf fun r13 cf =>
  mov r13 fun c6 =>
  ⟨c0, c1, c2, c3, c4, c5, c6⟩

/-- `add_adx`: src/eltfp448_1w_fullradix.c:938-983. ADX variant. -/
def add_adx (a b : F7) : F7 :=
  xor0 fun rax cf ovf =>
  mov 4294967296#64 fun rdx =>
  mov b.w0 fun r8 =>
  mov b.w1 fun r9 =>
  mov b.w2 fun r10 =>
  mov b.w3 fun r11 =>
  mov b.w4 fun r12 =>
  mov b.w5 fun r13 =>
  mov b.w6 fun r14 =>
  adc r8 a.w0 cf fun r8 cf =>
  adc r9 a.w1 cf fun r9 cf =>
  adc r10 a.w2 cf fun r10 cf =>
  adc r11 a.w3 cf fun r11 cf =>
  adc r12 a.w4 cf fun r12 cf =>
  adc r13 a.w5 cf fun r13 cf =>
  adc r14 a.w6 cf fun r14 cf =>
  mov 0#64 fun rcx =>
  cmov cf rcx rdx fun rcx =>
  adc r8 rax cf fun r8 cf =>
  adc r9 rax cf fun r9 cf =>
  adc r10 rax cf fun r10 cf =>
  adc r11 rcx cf fun r11 cf =>
  adc r12 rax cf fun r12 cf =>
  adc r13 rax cf fun r13 cf =>
  adc r14 rax cf fun r14 cf =>
  mov 0#64 fun rcx =>
  cmov cf rcx rdx fun rcx =>
  adc r8 rax cf fun r8 cf =>
  adc r9 rax cf fun r9 cf =>
  adc r10 rax cf fun r10 cf =>
  adc r11 rcx cf fun r11 cf =>
  adc r12 rax cf fun r12 cf =>
  adc r13 rax cf fun r13 cf =>
  adc r14 rax cf fun r14 cf =>
  mov r8 fun c0 =>
  mov r9 fun c1 =>
  mov r10 fun c2 =>
  mov r11 fun c3 =>
  mov r12 fun c4 =>
  mov r13 fun c5 =>
  mov r14 fun c6 =>
  ⟨c0, c1, c2, c3, c4, c5, c6⟩

/-- `add_adc`: src/eltfp448_1w_fullradix.c:993-1038. Variant without ADX. -/
def add_adc (a b : F7) : F7 :=
  xor0 fun rax cf ovf =>
  mov 4294967296#64 fun rdx =>
  mov b.w0 fun r8 =>
  mov b.w1 fun r9 =>
  mov b.w2 fun r10 =>
  mov b.w3 fun r11 =>
  mov b.w4 fun r12 =>
  mov b.w5 fun r13 =>
  mov b.w6 fun r14 =>
  add r8 a.w0 fun r8 cf =>
  adc r9 a.w1 cf fun r9 cf =>
  adc r10 a.w2 cf fun r10 cf =>
  adc r11 a.w3 cf fun r11 cf =>
  adc r12 a.w4 cf fun r12 cf =>
  adc r13 a.w5 cf fun r13 cf =>
  adc r14 a.w6 cf fun r14 cf =>
  mov 0#64 fun rcx =>
  cmov cf rcx rdx fun rcx =>
  adc r8 rax cf fun r8 cf =>
  adc r9 rax cf fun r9 cf =>
  adc r10 rax cf fun r10 cf =>
  adc r11 rcx cf fun r11 cf =>
  adc r12 rax cf fun r12 cf =>
  adc r13 rax cf fun r13 cf =>
  adc r14 rax cf fun r14 cf =>
  mov 0#64 fun rcx =>
  cmov cf rcx rdx fun rcx =>
  adc r8 rax cf fun r8 cf =>
  adc r9 rax cf fun r9 cf =>
  adc r10 rax cf fun r10 cf =>
  adc r11 rcx cf fun r11 cf =>
  adc r12 rax cf fun r12 cf =>
  adc r13 rax cf fun r13 cf =>
  adc r14 rax cf fun r14 cf =>
  mov r8 fun c0 =>
  mov r9 fun c1 =>
  mov r10 fun c2 =>
  mov r11 fun c3 =>
  mov r12 fun c4 =>
  mov r13 fun c5 =>
  mov r14 fun c6 =>
  ⟨c0, c1, c2, c3, c4, c5, c6⟩

/-- `sub`: src/eltfp448_1w_fullradix.c:64-109.  -/
def sub7 (a b : F7) : F7 :=
  xor0 fun rax cf ovf =>
  mov 4294967296#64 fun rdx =>
  mov a.w0 fun r8 =>
  mov a.w1 fun r9 =>
  mov a.w2 fun r10 =>
  mov a.w3 fun r11 =>
  mov a.w4 fun r12 =>
  mov a.w5 fun r13 =>
  mov a.w6 fun r14 =>
  sub r8 b.w0 fun r8 cf =>
  sbb r9 b.w1 cf fun r9 cf =>
  sbb r10 b.w2 cf fun r10 cf =>
  sbb r11 b.w3 cf fun r11 cf =>
  sbb r12 b.w4 cf fun r12 cf =>
  sbb r13 b.w5 cf fun r13 cf =>
  sbb r14 b.w6 cf fun r14 cf =>
  mov 0#64 fun rcx =>
  cmov cf rcx rdx fun rcx =>
  sbb r8 rax cf fun r8 cf =>
  sbb r9 rax cf fun r9 cf =>
  sbb r10 rax cf fun r10 cf =>
  sbb r11 rcx cf fun r11 cf =>
  sbb r12 rax cf fun r12 cf =>
  sbb r13 rax cf fun r13 cf =>
  sbb r14 rax cf fun r14 cf =>
  mov 0#64 fun rcx =>
  cmov cf rcx rdx fun rcx =>
  sbb r8 rax cf fun r8 cf =>
  sbb r9 rax cf fun r9 cf =>
  sbb r10 rax cf fun r10 cf =>
  sbb r11 rcx cf fun r11 cf =>
  sbb r12 rax cf fun r12 cf =>
  sbb r13 rax cf fun r13 cf =>
  sbb r14 rax cf fun r14 cf =>
  mov r8 fun c0 =>
  mov r9 fun c1 =>
  mov r10 fun c2 =>
  mov r11 fun c3 =>
  mov r12 fun c4 =>
  mov r13 fun c5 =>
  mov r14 fun c6 =>
  ⟨c0, c1, c2, c3, c4, c5, c6⟩

end Asm

end Verif.Fp448
