import Verif.Word

/-!
# Fp25519, full radix: inline assembly (generated from the source text)

Transcription, instruction by instruction, of the `__asm__` blocks of
src/eltfp25519_1w_fullradix.c.  Every line is one instruction.  `c0, c1, ...`
are the words of the output buffer `(%0)`, `a.w0 ...` those of `(%1)` and
`b.w0 ...` those of `(%2)`.  Simplification: the output buffer does not overlap
the input of `intmul*`/`intsqr*` (it is a local double-size buffer in every
caller); in the other blocks all loads precede all stores to the same word, so
exact aliasing of output and input is covered.
-/

namespace Verif.Fp25519

set_option maxRecDepth 4000
set_option linter.unusedVariables false
set_option exponentiation.threshold 2000

/-- `EltFp25519_1w_fullradix`: four 64-bit words, little endian
(include/faz_fp_avx2.h:54). -/
structure F4 where
  w0 : W
  w1 : W
  w2 : W
  w3 : W
deriving DecidableEq, Inhabited

/-- `EltFp25519_1w_fullradix_buffer`: eight words (include/faz_fp_avx2.h:55). -/
structure F8 where
  w0 : W
  w1 : W
  w2 : W
  w3 : W
  w4 : W
  w5 : W
  w6 : W
  w7 : W
deriving DecidableEq, Inhabited

/-- The integer an element's words denote (not necessarily below p). -/
def F4.val (a : F4) : ℤ :=
  iv a.w0 + 2 ^ 64 * iv a.w1 + 2 ^ 128 * iv a.w2 + 2 ^ 192 * iv a.w3

/-- The integer a double-size buffer denotes. -/
def F8.val (a : F8) : ℤ :=
  iv a.w0 + 2 ^ 64 * iv a.w1 + 2 ^ 128 * iv a.w2 + 2 ^ 192 * iv a.w3 +
  2 ^ 256 * iv a.w4 + 2 ^ 320 * iv a.w5 + 2 ^ 384 * iv a.w6 + 2 ^ 448 * iv a.w7

namespace Asm

/-- `intmul_mulxadx`: src/eltfp25519_1w_fullradix.c:851-877. BMI2+ADX variant. -/
def intmul_mulxadx (a b : F4) : F8 :=
  mov a.w0 fun rdx =>
  mulx rdx b.w0 fun r8 r9 =>
  xor0 fun r10 cf ovf =>
  mov r8 fun c0 =>
  mulx rdx b.w1 fun r10 r11 =>
  adc r10 r9 ovf fun r10 ovf =>
  mov r10 fun c1 =>
  mulx rdx b.w2 fun r12 r13 =>
  adc r12 r11 ovf fun r12 ovf =>
  mulx rdx b.w3 fun r14 rdx =>
  adc r14 r13 ovf fun r14 ovf =>
  mov 0#64 fun rax =>
  adc rax rdx ovf fun rax ovf =>
  mov a.w1 fun rdx =>
  mulx rdx b.w0 fun r8 r9 =>
  xor0 fun r10 cf ovf =>
  adc r8 c1 cf fun r8 cf =>
  mov r8 fun c1 =>
  mulx rdx b.w1 fun r10 r11 =>
  adc r10 r9 ovf fun r10 ovf =>
  adc r10 r12 cf fun r10 cf =>
  mov r10 fun c2 =>
  mulx rdx b.w2 fun r12 r13 =>
  adc r12 r11 ovf fun r12 ovf =>
  adc r12 r14 cf fun r12 cf =>
  mov 0#64 fun r8 =>
  mulx rdx b.w3 fun r14 rdx =>
  adc r14 r13 ovf fun r14 ovf =>
  adc r14 rax cf fun r14 cf =>
  mov 0#64 fun rax =>
  adc rax rdx ovf fun rax ovf =>
  adc rax r8 cf fun rax cf =>
  mov a.w2 fun rdx =>
  mulx rdx b.w0 fun r8 r9 =>
  xor0 fun r10 cf ovf =>
  adc r8 c2 cf fun r8 cf =>
  mov r8 fun c2 =>
  mulx rdx b.w1 fun r10 r11 =>
  adc r10 r9 ovf fun r10 ovf =>
  adc r10 r12 cf fun r10 cf =>
  mov r10 fun c3 =>
  mulx rdx b.w2 fun r12 r13 =>
  adc r12 r11 ovf fun r12 ovf =>
  adc r12 r14 cf fun r12 cf =>
  mov 0#64 fun r8 =>
  mulx rdx b.w3 fun r14 rdx =>
  adc r14 r13 ovf fun r14 ovf =>
  adc r14 rax cf fun r14 cf =>
  mov 0#64 fun rax =>
  adc rax rdx ovf fun rax ovf =>
  adc rax r8 cf fun rax cf =>
  mov a.w3 fun rdx =>
  mulx rdx b.w0 fun r8 r9 =>
  xor0 fun r10 cf ovf =>
  adc r8 c3 cf fun r8 cf =>
  mov r8 fun c3 =>
  mulx rdx b.w1 fun r10 r11 =>
  adc r10 r9 ovf fun r10 ovf =>
  adc r10 r12 cf fun r10 cf =>
  mov r10 fun c4 =>
  mulx rdx b.w2 fun r12 r13 =>
  adc r12 r11 ovf fun r12 ovf =>
  adc r12 r14 cf fun r12 cf =>
  mov r12 fun c5 =>
  mov 0#64 fun r8 =>
  mulx rdx b.w3 fun r14 rdx =>
  adc r14 r13 ovf fun r14 ovf =>
  adc r14 rax cf fun r14 cf =>
  mov r14 fun c6 =>
  mov 0#64 fun rax =>
  adc rax rdx ovf fun rax ovf =>
  adc rax r8 cf fun rax cf =>
  mov rax fun c7 =>
  ⟨c0, c1, c2, c3, c4, c5, c6, c7⟩

/-- `intmul2_mulxadx`: src/eltfp25519_1w_fullradix.c:26-81. BMI2+ADX variant. Words 0-3 and 4-7 of each argument are the two elements. -/
def intmul2_mulxadx (a b : F4 × F4) : F8 × F8 :=
  xor0 fun r14 cf ovf =>
  mov a.1.w0 fun rdx =>
  mulx rdx b.1.w0 fun r8 r12 =>
  xor0 fun r10 cf ovf =>
  mov r8 fun c0 =>
  mulx rdx b.1.w1 fun r10 rax =>
  adc r12 r10 ovf fun r12 ovf =>
  mulx rdx b.1.w2 fun r8 rbx =>
  adc rax r8 ovf fun rax ovf =>
  mulx rdx b.1.w3 fun r10 rcx =>
  adc rbx r10 ovf fun rbx ovf =>
  adc rcx r14 ovf fun rcx ovf =>
  mov a.1.w1 fun rdx =>
  mulx rdx b.1.w0 fun r8 r9 =>
  adc r8 r12 ovf fun r8 ovf =>
  mov r8 fun c1 =>
  mulx rdx b.1.w1 fun r10 r11 =>
  adc r9 r10 ovf fun r9 ovf =>
  adc rax r9 cf fun rax cf =>
  mulx rdx b.1.w2 fun r8 r13 =>
  adc r11 r8 ovf fun r11 ovf =>
  adc rbx r11 cf fun rbx cf =>
  mulx rdx b.1.w3 fun r10 r12 =>
  adc r13 r10 ovf fun r13 ovf =>
  adc rcx r13 cf fun rcx cf =>
  adc r12 r14 ovf fun r12 ovf =>
  adc r12 r14 cf fun r12 cf =>
  mov a.1.w2 fun rdx =>
  xor0 fun r10 cf ovf =>
  mulx rdx b.1.w0 fun r8 r9 =>
  adc r8 rax ovf fun r8 ovf =>
  mov r8 fun c2 =>
  mulx rdx b.1.w1 fun r10 r11 =>
  adc r9 r10 ovf fun r9 ovf =>
  adc rbx r9 cf fun rbx cf =>
  mulx rdx b.1.w2 fun r8 r13 =>
  adc r11 r8 ovf fun r11 ovf =>
  adc rcx r11 cf fun rcx cf =>
  mulx rdx b.1.w3 fun r10 rax =>
  adc r13 r10 ovf fun r13 ovf =>
  adc r12 r13 cf fun r12 cf =>
  adc rax r14 ovf fun rax ovf =>
  adc rax r14 cf fun rax cf =>
  mov a.1.w3 fun rdx =>
  xor0 fun r10 cf ovf =>
  mulx rdx b.1.w0 fun r8 r9 =>
  adc r8 rbx ovf fun r8 ovf =>
  mov r8 fun c3 =>
  mulx rdx b.1.w1 fun r10 r11 =>
  adc r9 r10 ovf fun r9 ovf =>
  adc rcx r9 cf fun rcx cf =>
  mov rcx fun c4 =>
  mulx rdx b.1.w2 fun r8 r13 =>
  adc r11 r8 ovf fun r11 ovf =>
  adc r12 r11 cf fun r12 cf =>
  mov r12 fun c5 =>
  mulx rdx b.1.w3 fun r10 rbx =>
  adc r13 r10 ovf fun r13 ovf =>
  adc rax r13 cf fun rax cf =>
  mov rax fun c6 =>
  adc rbx r14 ovf fun rbx ovf =>
  adc rbx r14 cf fun rbx cf =>
  mov rbx fun c7 =>
  mov a.2.w0 fun rdx =>
  mulx rdx b.2.w0 fun r8 r12 =>
  xor0 fun r10 cf ovf =>
  mov r8 fun c8 =>
  mulx rdx b.2.w1 fun r10 rax =>
  adc r12 r10 ovf fun r12 ovf =>
  mulx rdx b.2.w2 fun r8 rbx =>
  adc rax r8 ovf fun rax ovf =>
  mulx rdx b.2.w3 fun r10 rcx =>
  adc rbx r10 ovf fun rbx ovf =>
  adc rcx r14 ovf fun rcx ovf =>
  mov a.2.w1 fun rdx =>
  xor0 fun r10 cf ovf =>
  mulx rdx b.2.w0 fun r8 r9 =>
  adc r8 r12 ovf fun r8 ovf =>
  mov r8 fun c9 =>
  mulx rdx b.2.w1 fun r10 r11 =>
  adc r9 r10 ovf fun r9 ovf =>
  adc rax r9 cf fun rax cf =>
  mulx rdx b.2.w2 fun r8 r13 =>
  adc r11 r8 ovf fun r11 ovf =>
  adc rbx r11 cf fun rbx cf =>
  mulx rdx b.2.w3 fun r10 r12 =>
  adc r13 r10 ovf fun r13 ovf =>
  adc rcx r13 cf fun rcx cf =>
  adc r12 r14 ovf fun r12 ovf =>
  adc r12 r14 cf fun r12 cf =>
  mov a.2.w2 fun rdx =>
  xor0 fun r10 cf ovf =>
  mulx rdx b.2.w0 fun r8 r9 =>
  adc r8 rax ovf fun r8 ovf =>
  mov r8 fun c10 =>
  mulx rdx b.2.w1 fun r10 r11 =>
  adc r9 r10 ovf fun r9 ovf =>
  adc rbx r9 cf fun rbx cf =>
  mulx rdx b.2.w2 fun r8 r13 =>
  adc r11 r8 ovf fun r11 ovf =>
  adc rcx r11 cf fun rcx cf =>
  mulx rdx b.2.w3 fun r10 rax =>
  adc r13 r10 ovf fun r13 ovf =>
  adc r12 r13 cf fun r12 cf =>
  adc rax r14 ovf fun rax ovf =>
  adc rax r14 cf fun rax cf =>
  mov a.2.w3 fun rdx =>
  xor0 fun r10 cf ovf =>
  mulx rdx b.2.w0 fun r8 r9 =>
  adc r8 rbx ovf fun r8 ovf =>
  mov r8 fun c11 =>
  mulx rdx b.2.w1 fun r10 r11 =>
  adc r9 r10 ovf fun r9 ovf =>
  adc rcx r9 cf fun rcx cf =>
  mov rcx fun c12 =>
  mulx rdx b.2.w2 fun r8 r13 =>
  adc r11 r8 ovf fun r11 ovf =>
  adc r12 r11 cf fun r12 cf =>
  mov r12 fun c13 =>
  mulx rdx b.2.w3 fun r10 rbx =>
  adc r13 r10 ovf fun r13 ovf =>
  adc rax r13 cf fun rax cf =>
  mov rax fun c14 =>
  adc rbx r14 ovf fun rbx ovf =>
  adc rbx r14 cf fun rbx cf =>
  mov rbx fun c15 =>
  (⟨c0, c1, c2, c3, c4, c5, c6, c7⟩, ⟨c8, c9, c10, c11, c12, c13, c14, c15⟩)

/-- `intsqr_mulxadx`: src/eltfp25519_1w_fullradix.c:1010-1041. BMI2+ADX variant. -/
def intsqr_mulxadx (a : F4) : F8 :=
  mov a.w0 fun rdx =>
  mulx rdx a.w1 fun r8 r14 =>
  xor0 fun r15 cf ovf =>
  mulx rdx a.w2 fun r9 r10 =>
  adc r9 r14 cf fun r9 cf =>
  mulx rdx a.w3 fun rax rcx =>
  adc r10 rax cf fun r10 cf =>
  mov a.w3 fun rdx =>
  mulx rdx a.w1 fun r11 r12 =>
  adc r11 rcx cf fun r11 cf =>
  mulx rdx a.w2 fun rax r13 =>
  adc r12 rax cf fun r12 cf =>
  mov a.w1 fun rdx =>
  adc r13 r15 cf fun r13 cf =>
  mulx rdx a.w2 fun rax rcx =>
  mov 0#64 fun r14 =>
  adc r14 r15 cf fun r14 cf =>
  xor0 fun r15 cf ovf =>
  adc r10 rax ovf fun r10 ovf =>
  adc r8 r8 cf fun r8 cf =>
  adc r11 rcx ovf fun r11 ovf =>
  adc r9 r9 cf fun r9 cf =>
  adc r12 r15 ovf fun r12 ovf =>
  adc r10 r10 cf fun r10 cf =>
  adc r13 r15 ovf fun r13 ovf =>
  adc r11 r11 cf fun r11 cf =>
  adc r14 r15 ovf fun r14 ovf =>
  adc r12 r12 cf fun r12 cf =>
  adc r13 r13 cf fun r13 cf =>
  adc r14 r14 cf fun r14 cf =>
  mov a.w0 fun rdx =>
  mulx rdx rdx fun rax rcx =>
  mov rax fun c0 =>
  add r8 rcx fun r8 cf =>
  mov r8 fun c1 =>
  mov a.w1 fun rdx =>
  mulx rdx rdx fun rax rcx =>
  adc r9 rax cf fun r9 cf =>
  mov r9 fun c2 =>
  adc r10 rcx cf fun r10 cf =>
  mov r10 fun c3 =>
  mov a.w2 fun rdx =>
  mulx rdx rdx fun rax rcx =>
  adc r11 rax cf fun r11 cf =>
  mov r11 fun c4 =>
  adc r12 rcx cf fun r12 cf =>
  mov r12 fun c5 =>
  mov a.w3 fun rdx =>
  mulx rdx rdx fun rax rcx =>
  adc r13 rax cf fun r13 cf =>
  mov r13 fun c6 =>
  adc r14 rcx cf fun r14 cf =>
  mov r14 fun c7 =>
  ⟨c0, c1, c2, c3, c4, c5, c6, c7⟩

/-- `intsqr2_mulxadx`: src/eltfp25519_1w_fullradix.c:336-401. BMI2+ADX variant. Words 0-3 and 4-7 of each argument are the two elements. -/
def intsqr2_mulxadx (a : F4 × F4) : F8 × F8 :=
  mov a.1.w0 fun rdx =>
  mulx rdx a.1.w1 fun r8 r14 =>
  xor0 fun r15 cf ovf =>
  mulx rdx a.1.w2 fun r9 r10 =>
  adc r9 r14 cf fun r9 cf =>
  mulx rdx a.1.w3 fun rax rcx =>
  adc r10 rax cf fun r10 cf =>
  mov a.1.w3 fun rdx =>
  mulx rdx a.1.w1 fun r11 r12 =>
  adc r11 rcx cf fun r11 cf =>
  mulx rdx a.1.w2 fun rax r13 =>
  adc r12 rax cf fun r12 cf =>
  mov a.1.w1 fun rdx =>
  adc r13 r15 cf fun r13 cf =>
  mulx rdx a.1.w2 fun rax rcx =>
  mov 0#64 fun r14 =>
  adc r14 r15 cf fun r14 cf =>
  xor0 fun r15 cf ovf =>
  adc r10 rax ovf fun r10 ovf =>
  adc r8 r8 cf fun r8 cf =>
  adc r11 rcx ovf fun r11 ovf =>
  adc r9 r9 cf fun r9 cf =>
  adc r12 r15 ovf fun r12 ovf =>
  adc r10 r10 cf fun r10 cf =>
  adc r13 r15 ovf fun r13 ovf =>
  adc r11 r11 cf fun r11 cf =>
  adc r14 r15 ovf fun r14 ovf =>
  adc r12 r12 cf fun r12 cf =>
  adc r13 r13 cf fun r13 cf =>
  adc r14 r14 cf fun r14 cf =>
  mov a.1.w0 fun rdx =>
  mulx rdx rdx fun rax rcx =>
  mov rax fun c0 =>
  add r8 rcx fun r8 cf =>
  mov r8 fun c1 =>
  mov a.1.w1 fun rdx =>
  mulx rdx rdx fun rax rcx =>
  adc r9 rax cf fun r9 cf =>
  mov r9 fun c2 =>
  adc r10 rcx cf fun r10 cf =>
  mov r10 fun c3 =>
  mov a.1.w2 fun rdx =>
  mulx rdx rdx fun rax rcx =>
  adc r11 rax cf fun r11 cf =>
  mov r11 fun c4 =>
  adc r12 rcx cf fun r12 cf =>
  mov r12 fun c5 =>
  mov a.1.w3 fun rdx =>
  mulx rdx rdx fun rax rcx =>
  adc r13 rax cf fun r13 cf =>
  mov r13 fun c6 =>
  adc r14 rcx cf fun r14 cf =>
  mov r14 fun c7 =>
  mov a.2.w0 fun rdx =>
  mulx rdx a.2.w1 fun r8 r14 =>
  xor0 fun r15 cf ovf =>
  mulx rdx a.2.w2 fun r9 r10 =>
  adc r9 r14 cf fun r9 cf =>
  mulx rdx a.2.w3 fun rax rcx =>
  adc r10 rax cf fun r10 cf =>
  mov a.2.w3 fun rdx =>
  mulx rdx a.2.w1 fun r11 r12 =>
  adc r11 rcx cf fun r11 cf =>
  mulx rdx a.2.w2 fun rax r13 =>
  adc r12 rax cf fun r12 cf =>
  mov a.2.w1 fun rdx =>
  adc r13 r15 cf fun r13 cf =>
  mulx rdx a.2.w2 fun rax rcx =>
  mov 0#64 fun r14 =>
  adc r14 r15 cf fun r14 cf =>
  xor0 fun r15 cf ovf =>
  adc r10 rax ovf fun r10 ovf =>
  adc r8 r8 cf fun r8 cf =>
  adc r11 rcx ovf fun r11 ovf =>
  adc r9 r9 cf fun r9 cf =>
  adc r12 r15 ovf fun r12 ovf =>
  adc r10 r10 cf fun r10 cf =>
  adc r13 r15 ovf fun r13 ovf =>
  adc r11 r11 cf fun r11 cf =>
  adc r14 r15 ovf fun r14 ovf =>
  adc r12 r12 cf fun r12 cf =>
  adc r13 r13 cf fun r13 cf =>
  adc r14 r14 cf fun r14 cf =>
  mov a.2.w0 fun rdx =>
  mulx rdx rdx fun rax rcx =>
  mov rax fun c8 =>
  add r8 rcx fun r8 cf =>
  mov r8 fun c9 =>
  mov a.2.w1 fun rdx =>
  mulx rdx rdx fun rax rcx =>
  adc r9 rax cf fun r9 cf =>
  mov r9 fun c10 =>
  adc r10 rcx cf fun r10 cf =>
  mov r10 fun c11 =>
  mov a.2.w2 fun rdx =>
  mulx rdx rdx fun rax rcx =>
  adc r11 rax cf fun r11 cf =>
  mov r11 fun c12 =>
  adc r12 rcx cf fun r12 cf =>
  mov r12 fun c13 =>
  mov a.2.w3 fun rdx =>
  mulx rdx rdx fun rax rcx =>
  adc r13 rax cf fun r13 cf =>
  mov r13 fun c14 =>
  adc r14 rcx cf fun r14 cf =>
  mov r14 fun c15 =>
  (⟨c0, c1, c2, c3, c4, c5, c6, c7⟩, ⟨c8, c9, c10, c11, c12, c13, c14, c15⟩)

/-- `intmul_mulx`: src/eltfp25519_1w_fullradix.c:887-928. BMI2 variant. -/
def intmul_mulx (a b : F4) : F8 :=
  mov a.w0 fun rdx =>
  mulx rdx b.w0 fun r8 r12 =>
  mov r8 fun c0 =>
  mulx rdx b.w1 fun r10 rax =>
  add r12 r10 fun r12 cf =>
  mulx rdx b.w2 fun r8 rbx =>
  adc rax r8 cf fun rax cf =>
  mulx rdx b.w3 fun r10 rcx =>
  adc rbx r10 cf fun rbx cf =>
  adc rcx 0#64 cf fun rcx cf =>
  mov a.w1 fun rdx =>
  mulx rdx b.w0 fun r8 r9 =>
  add r8 r12 fun r8 cf =>
  mov r8 fun c1 =>
  mulx rdx b.w1 fun r10 r11 =>
  adc r9 r10 cf fun r9 cf =>
  mulx rdx b.w2 fun r8 r13 =>
  adc r11 r8 cf fun r11 cf =>
  mulx rdx b.w3 fun r10 r12 =>
  adc r13 r10 cf fun r13 cf =>
  adc r12 0#64 cf fun r12 cf =>
  add rax r9 fun rax cf =>
  adc rbx r11 cf fun rbx cf =>
  adc rcx r13 cf fun rcx cf =>
  adc r12 0#64 cf fun r12 cf =>
  mov a.w2 fun rdx =>
  mulx rdx b.w0 fun r8 r9 =>
  add r8 rax fun r8 cf =>
  mov r8 fun c2 =>
  mulx rdx b.w1 fun r10 r11 =>
  adc r9 r10 cf fun r9 cf =>
  mulx rdx b.w2 fun r8 r13 =>
  adc r11 r8 cf fun r11 cf =>
  mulx rdx b.w3 fun r10 rax =>
  adc r13 r10 cf fun r13 cf =>
  adc rax 0#64 cf fun rax cf =>
  add rbx r9 fun rbx cf =>
  adc rcx r11 cf fun rcx cf =>
  adc r12 r13 cf fun r12 cf =>
  adc rax 0#64 cf fun rax cf =>
  mov a.w3 fun rdx =>
  mulx rdx b.w0 fun r8 r9 =>
  add r8 rbx fun r8 cf =>
  mov r8 fun c3 =>
  mulx rdx b.w1 fun r10 r11 =>
  adc r9 r10 cf fun r9 cf =>
  mulx rdx b.w2 fun r8 r13 =>
  adc r11 r8 cf fun r11 cf =>
  mulx rdx b.w3 fun r10 rbx =>
  adc r13 r10 cf fun r13 cf =>
  adc rbx 0#64 cf fun rbx cf =>
  add rcx r9 fun rcx cf =>
  mov rcx fun c4 =>
  adc r12 r11 cf fun r12 cf =>
  mov r12 fun c5 =>
  adc rax r13 cf fun rax cf =>
  mov rax fun c6 =>
  adc rbx 0#64 cf fun rbx cf =>
  mov rbx fun c7 =>
  ⟨c0, c1, c2, c3, c4, c5, c6, c7⟩

/-- `intmul2_mulx`: src/eltfp25519_1w_fullradix.c:91-175. BMI2 variant. Words 0-3 and 4-7 of each argument are the two elements. -/
def intmul2_mulx (a b : F4 × F4) : F8 × F8 :=
  mov a.1.w0 fun rdx =>
  mulx rdx b.1.w0 fun r8 r12 =>
  mov r8 fun c0 =>
  mulx rdx b.1.w1 fun r10 rax =>
  add r12 r10 fun r12 cf =>
  mulx rdx b.1.w2 fun r8 rbx =>
  adc rax r8 cf fun rax cf =>
  mulx rdx b.1.w3 fun r10 rcx =>
  adc rbx r10 cf fun rbx cf =>
  adc rcx 0#64 cf fun rcx cf =>
  mov a.1.w1 fun rdx =>
  mulx rdx b.1.w0 fun r8 r9 =>
  add r8 r12 fun r8 cf =>
  mov r8 fun c1 =>
  mulx rdx b.1.w1 fun r10 r11 =>
  adc r9 r10 cf fun r9 cf =>
  mulx rdx b.1.w2 fun r8 r13 =>
  adc r11 r8 cf fun r11 cf =>
  mulx rdx b.1.w3 fun r10 r12 =>
  adc r13 r10 cf fun r13 cf =>
  adc r12 0#64 cf fun r12 cf =>
  add rax r9 fun rax cf =>
  adc rbx r11 cf fun rbx cf =>
  adc rcx r13 cf fun rcx cf =>
  adc r12 0#64 cf fun r12 cf =>
  mov a.1.w2 fun rdx =>
  mulx rdx b.1.w0 fun r8 r9 =>
  add r8 rax fun r8 cf =>
  mov r8 fun c2 =>
  mulx rdx b.1.w1 fun r10 r11 =>
  adc r9 r10 cf fun r9 cf =>
  mulx rdx b.1.w2 fun r8 r13 =>
  adc r11 r8 cf fun r11 cf =>
  mulx rdx b.1.w3 fun r10 rax =>
  adc r13 r10 cf fun r13 cf =>
  adc rax 0#64 cf fun rax cf =>
  add rbx r9 fun rbx cf =>
  adc rcx r11 cf fun rcx cf =>
  adc r12 r13 cf fun r12 cf =>
  adc rax 0#64 cf fun rax cf =>
  mov a.1.w3 fun rdx =>
  mulx rdx b.1.w0 fun r8 r9 =>
  add r8 rbx fun r8 cf =>
  mov r8 fun c3 =>
  mulx rdx b.1.w1 fun r10 r11 =>
  adc r9 r10 cf fun r9 cf =>
  mulx rdx b.1.w2 fun r8 r13 =>
  adc r11 r8 cf fun r11 cf =>
  mulx rdx b.1.w3 fun r10 rbx =>
  adc r13 r10 cf fun r13 cf =>
  adc rbx 0#64 cf fun rbx cf =>
  add rcx r9 fun rcx cf =>
  mov rcx fun c4 =>
  adc r12 r11 cf fun r12 cf =>
  mov r12 fun c5 =>
  adc rax r13 cf fun rax cf =>
  mov rax fun c6 =>
  adc rbx 0#64 cf fun rbx cf =>
  mov rbx fun c7 =>
  mov a.2.w0 fun rdx =>
  mulx rdx b.2.w0 fun r8 r12 =>
  mov r8 fun c8 =>
  mulx rdx b.2.w1 fun r10 rax =>
  add r12 r10 fun r12 cf =>
  mulx rdx b.2.w2 fun r8 rbx =>
  adc rax r8 cf fun rax cf =>
  mulx rdx b.2.w3 fun r10 rcx =>
  adc rbx r10 cf fun rbx cf =>
  adc rcx 0#64 cf fun rcx cf =>
  mov a.2.w1 fun rdx =>
  mulx rdx b.2.w0 fun r8 r9 =>
  add r8 r12 fun r8 cf =>
  mov r8 fun c9 =>
  mulx rdx b.2.w1 fun r10 r11 =>
  adc r9 r10 cf fun r9 cf =>
  mulx rdx b.2.w2 fun r8 r13 =>
  adc r11 r8 cf fun r11 cf =>
  mulx rdx b.2.w3 fun r10 r12 =>
  adc r13 r10 cf fun r13 cf =>
  adc r12 0#64 cf fun r12 cf =>
  add rax r9 fun rax cf =>
  adc rbx r11 cf fun rbx cf =>
  adc rcx r13 cf fun rcx cf =>
  adc r12 0#64 cf fun r12 cf =>
  mov a.2.w2 fun rdx =>
  mulx rdx b.2.w0 fun r8 r9 =>
  add r8 rax fun r8 cf =>
  mov r8 fun c10 =>
  mulx rdx b.2.w1 fun r10 r11 =>
  adc r9 r10 cf fun r9 cf =>
  mulx rdx b.2.w2 fun r8 r13 =>
  adc r11 r8 cf fun r11 cf =>
  mulx rdx b.2.w3 fun r10 rax =>
  adc r13 r10 cf fun r13 cf =>
  adc rax 0#64 cf fun rax cf =>
  add rbx r9 fun rbx cf =>
  adc rcx r11 cf fun rcx cf =>
  adc r12 r13 cf fun r12 cf =>
  adc rax 0#64 cf fun rax cf =>
  mov a.2.w3 fun rdx =>
  mulx rdx b.2.w0 fun r8 r9 =>
  add r8 rbx fun r8 cf =>
  mov r8 fun c11 =>
  mulx rdx b.2.w1 fun r10 r11 =>
  adc r9 r10 cf fun r9 cf =>
  mulx rdx b.2.w2 fun r8 r13 =>
  adc r11 r8 cf fun r11 cf =>
  mulx rdx b.2.w3 fun r10 rbx =>
  adc r13 r10 cf fun r13 cf =>
  adc rbx 0#64 cf fun rbx cf =>
  add rcx r9 fun rcx cf =>
  mov rcx fun c12 =>
  adc r12 r11 cf fun r12 cf =>
  mov r12 fun c13 =>
  adc rax r13 cf fun rax cf =>
  mov rax fun c14 =>
  adc rbx 0#64 cf fun rbx cf =>
  mov rbx fun c15 =>
  (⟨c0, c1, c2, c3, c4, c5, c6, c7⟩, ⟨c8, c9, c10, c11, c12, c13, c14, c15⟩)

/-- `intsqr_mulx`: src/eltfp25519_1w_fullradix.c:1051-1096. BMI2 variant. -/
def intsqr_mulx (a : F4) : F8 :=
  mov a.w1 fun rdx =>
  mulx rdx a.w0 fun r8 r9 =>
  mulx rdx a.w2 fun r10 r11 =>
  mulx rdx a.w3 fun rcx r14 =>
  mov a.w2 fun rdx =>
  mulx rdx a.w3 fun r12 r13 =>
  mulx rdx a.w0 fun rax rdx =>
  add r9 rax fun r9 cf =>
  adc r10 rdx cf fun r10 cf =>
  adc r11 rcx cf fun r11 cf =>
  adc r12 r14 cf fun r12 cf =>
  adc r13 0#64 cf fun r13 cf =>
  mov 0#64 fun r14 =>
  adc r14 0#64 cf fun r14 cf =>
  mov a.w0 fun rdx =>
  mulx rdx a.w3 fun rax rcx =>
  add r10 rax fun r10 cf =>
  adc r11 rcx cf fun r11 cf =>
  adc r12 0#64 cf fun r12 cf =>
  adc r13 0#64 cf fun r13 cf =>
  adc r14 0#64 cf fun r14 cf =>
  shld 1 r13 r14 fun r14 =>
  shld 1 r12 r13 fun r13 =>
  shld 1 r11 r12 fun r12 =>
  shld 1 r10 r11 fun r11 =>
  shld 1 r9 r10 fun r10 =>
  shld 1 r8 r9 fun r9 =>
  shl 1 r8 fun r8 =>
  mulx rdx rdx fun rax rcx =>
  mov rax fun c0 =>
  add r8 rcx fun r8 cf =>
  mov r8 fun c1 =>
  mov a.w1 fun rdx =>
  mulx rdx rdx fun rax rcx =>
  adc r9 rax cf fun r9 cf =>
  mov r9 fun c2 =>
  adc r10 rcx cf fun r10 cf =>
  mov r10 fun c3 =>
  mov a.w2 fun rdx =>
  mulx rdx rdx fun rax rcx =>
  adc r11 rax cf fun r11 cf =>
  mov r11 fun c4 =>
  adc r12 rcx cf fun r12 cf =>
  mov r12 fun c5 =>
  mov a.w3 fun rdx =>
  mulx rdx rdx fun rax rcx =>
  adc r13 rax cf fun r13 cf =>
  mov r13 fun c6 =>
  adc r14 rcx cf fun r14 cf =>
  mov r14 fun c7 =>
  ⟨c0, c1, c2, c3, c4, c5, c6, c7⟩

/-- `intsqr2_mulx`: src/eltfp25519_1w_fullradix.c:411-503. BMI2 variant. Words 0-3 and 4-7 of each argument are the two elements. -/
def intsqr2_mulx (a : F4 × F4) : F8 × F8 :=
  mov a.1.w1 fun rdx =>
  mulx rdx a.1.w0 fun r8 r9 =>
  mulx rdx a.1.w2 fun r10 r11 =>
  mulx rdx a.1.w3 fun rcx r14 =>
  mov a.1.w2 fun rdx =>
  mulx rdx a.1.w3 fun r12 r13 =>
  mulx rdx a.1.w0 fun rax rdx =>
  add r9 rax fun r9 cf =>
  adc r10 rdx cf fun r10 cf =>
  adc r11 rcx cf fun r11 cf =>
  adc r12 r14 cf fun r12 cf =>
  adc r13 0#64 cf fun r13 cf =>
  mov 0#64 fun r14 =>
  adc r14 0#64 cf fun r14 cf =>
  mov a.1.w0 fun rdx =>
  mulx rdx a.1.w3 fun rax rcx =>
  add r10 rax fun r10 cf =>
  adc r11 rcx cf fun r11 cf =>
  adc r12 0#64 cf fun r12 cf =>
  adc r13 0#64 cf fun r13 cf =>
  adc r14 0#64 cf fun r14 cf =>
  shld 1 r13 r14 fun r14 =>
  shld 1 r12 r13 fun r13 =>
  shld 1 r11 r12 fun r12 =>
  shld 1 r10 r11 fun r11 =>
  shld 1 r9 r10 fun r10 =>
  shld 1 r8 r9 fun r9 =>
  shl 1 r8 fun r8 =>
  mulx rdx rdx fun rax rcx =>
  mov rax fun c0 =>
  add r8 rcx fun r8 cf =>
  mov r8 fun c1 =>
  mov a.1.w1 fun rdx =>
  mulx rdx rdx fun rax rcx =>
  adc r9 rax cf fun r9 cf =>
  mov r9 fun c2 =>
  adc r10 rcx cf fun r10 cf =>
  mov r10 fun c3 =>
  mov a.1.w2 fun rdx =>
  mulx rdx rdx fun rax rcx =>
  adc r11 rax cf fun r11 cf =>
  mov r11 fun c4 =>
  adc r12 rcx cf fun r12 cf =>
  mov r12 fun c5 =>
  mov a.1.w3 fun rdx =>
  mulx rdx rdx fun rax rcx =>
  adc r13 rax cf fun r13 cf =>
  mov r13 fun c6 =>
  adc r14 rcx cf fun r14 cf =>
  mov r14 fun c7 =>
  mov a.2.w1 fun rdx =>
  mulx rdx a.2.w0 fun r8 r9 =>
  mulx rdx a.2.w2 fun r10 r11 =>
  mulx rdx a.2.w3 fun rcx r14 =>
  mov a.2.w2 fun rdx =>
  mulx rdx a.2.w3 fun r12 r13 =>
  mulx rdx a.2.w0 fun rax rdx =>
  add r9 rax fun r9 cf =>
  adc r10 rdx cf fun r10 cf =>
  adc r11 rcx cf fun r11 cf =>
  adc r12 r14 cf fun r12 cf =>
  adc r13 0#64 cf fun r13 cf =>
  mov 0#64 fun r14 =>
  adc r14 0#64 cf fun r14 cf =>
  mov a.2.w0 fun rdx =>
  mulx rdx a.2.w3 fun rax rcx =>
  add r10 rax fun r10 cf =>
  adc r11 rcx cf fun r11 cf =>
  adc r12 0#64 cf fun r12 cf =>
  adc r13 0#64 cf fun r13 cf =>
  adc r14 0#64 cf fun r14 cf =>
  shld 1 r13 r14 fun r14 =>
  shld 1 r12 r13 fun r13 =>
  shld 1 r11 r12 fun r12 =>
  shld 1 r10 r11 fun r11 =>
  shld 1 r9 r10 fun r10 =>
  shld 1 r8 r9 fun r9 =>
  shl 1 r8 fun r8 =>
  mulx rdx rdx fun rax rcx =>
  mov rax fun c8 =>
  add r8 rcx fun r8 cf =>
  mov r8 fun c9 =>
  mov a.2.w1 fun rdx =>
  mulx rdx rdx fun rax rcx =>
  adc r9 rax cf fun r9 cf =>
  mov r9 fun c10 =>
  adc r10 rcx cf fun r10 cf =>
  mov r10 fun c11 =>
  mov a.2.w2 fun rdx =>
  mulx rdx rdx fun rax rcx =>
  adc r11 rax cf fun r11 cf =>
  mov r11 fun c12 =>
  adc r12 rcx cf fun r12 cf =>
  mov r12 fun c13 =>
  mov a.2.w3 fun rdx =>
  mulx rdx rdx fun rax rcx =>
  adc r13 rax cf fun r13 cf =>
  mov r13 fun c14 =>
  adc r14 rcx cf fun r14 cf =>
  mov r14 fun c15 =>
  (⟨c0, c1, c2, c3, c4, c5, c6, c7⟩, ⟨c8, c9, c10, c11, c12, c13, c14, c15⟩)

/-- `intmul_mulq`: src/eltfp25519_1w_fullradix.c:938-988. Baseline x86-64 variant. -/
def intmul_mulq (a b : F4) : F8 :=
  mov b.w0 fun r8 =>
  mov a.w0 fun rax =>
  mulx rax r8 fun rax rdx =>
  mov rax fun c0 =>
  mov rdx fun r15 =>
  mov a.w1 fun rax =>
  mulx rax r8 fun rax rdx =>
  mov rax fun r13 =>
  mov rdx fun r10 =>
  mov a.w2 fun rax =>
  mulx rax r8 fun rax rdx =>
  mov rax fun r14 =>
  mov rdx fun r11 =>
  mov a.w3 fun rax =>
  mulx rax r8 fun rax rdx =>
  add r15 r13 fun r15 cf =>
  adc r10 r14 cf fun r10 cf =>
  mov r10 fun c2 =>
  adc r11 rax cf fun r11 cf =>
  mov r11 fun c3 =>
  adc rdx 0#64 cf fun rdx cf =>
  mov rdx fun c4 =>
  mov b.w1 fun r8 =>
  mov a.w0 fun rax =>
  mulx rax r8 fun rax rdx =>
  mov rax fun r12 =>
  mov rdx fun r9 =>
  mov a.w1 fun rax =>
  mulx rax r8 fun rax rdx =>
  mov rax fun r13 =>
  mov rdx fun r10 =>
  mov a.w2 fun rax =>
  mulx rax r8 fun rax rdx =>
  mov rax fun r14 =>
  mov rdx fun r11 =>
  mov a.w3 fun rax =>
  mulx rax r8 fun rax rdx =>
  add r15 r12 fun r15 cf =>
  mov r15 fun c1 =>
  adc r9 r13 cf fun r9 cf =>
  adc r10 r14 cf fun r10 cf =>
  adc r11 rax cf fun r11 cf =>
  adc rdx 0#64 cf fun rdx cf =>
  adc r9 c2 cf fun r9 cf =>
  mov r9 fun r15 =>
  adc r10 c3 cf fun r10 cf =>
  mov r10 fun c3 =>
  adc r11 c4 cf fun r11 cf =>
  mov r11 fun c4 =>
  adc rdx 0#64 cf fun rdx cf =>
  mov rdx fun c5 =>
  mov b.w2 fun r8 =>
  mov a.w0 fun rax =>
  mulx rax r8 fun rax rdx =>
  mov rax fun r12 =>
  mov rdx fun r9 =>
  mov a.w1 fun rax =>
  mulx rax r8 fun rax rdx =>
  mov rax fun r13 =>
  mov rdx fun r10 =>
  mov a.w2 fun rax =>
  mulx rax r8 fun rax rdx =>
  mov rax fun r14 =>
  mov rdx fun r11 =>
  mov a.w3 fun rax =>
  mulx rax r8 fun rax rdx =>
  add r15 r12 fun r15 cf =>
  mov r15 fun c2 =>
  adc r9 r13 cf fun r9 cf =>
  adc r10 r14 cf fun r10 cf =>
  adc r11 rax cf fun r11 cf =>
  adc rdx 0#64 cf fun rdx cf =>
  adc r9 c3 cf fun r9 cf =>
  mov r9 fun r15 =>
  adc r10 c4 cf fun r10 cf =>
  mov r10 fun c4 =>
  adc r11 c5 cf fun r11 cf =>
  mov r11 fun c5 =>
  adc rdx 0#64 cf fun rdx cf =>
  mov rdx fun c6 =>
  mov b.w3 fun r8 =>
  mov a.w0 fun rax =>
  mulx rax r8 fun rax rdx =>
  mov rax fun r12 =>
  mov rdx fun r9 =>
  mov a.w1 fun rax =>
  mulx rax r8 fun rax rdx =>
  mov rax fun r13 =>
  mov rdx fun r10 =>
  mov a.w2 fun rax =>
  mulx rax r8 fun rax rdx =>
  mov rax fun r14 =>
  mov rdx fun r11 =>
  mov a.w3 fun rax =>
  mulx rax r8 fun rax rdx =>
  add r15 r12 fun r15 cf =>
  mov r15 fun c3 =>
  adc r9 r13 cf fun r9 cf =>
  adc r10 r14 cf fun r10 cf =>
  adc r11 rax cf fun r11 cf =>
  adc rdx 0#64 cf fun rdx cf =>
  adc r9 c4 cf fun r9 cf =>
  mov r9 fun c4 =>
  adc r10 c5 cf fun r10 cf =>
  mov r10 fun c5 =>
  adc r11 c6 cf fun r11 cf =>
  mov r11 fun c6 =>
  adc rdx 0#64 cf fun rdx cf =>
  mov rdx fun c7 =>
  ⟨c0, c1, c2, c3, c4, c5, c6, c7⟩

/-- `intmul2_mulq`: src/eltfp25519_1w_fullradix.c:185-314. Baseline x86-64 variant. Words 0-3 and 4-7 of each argument are the two elements. -/
def intmul2_mulq (a b : F4 × F4) : F8 × F8 :=
  mov a.1.w0 fun r15 =>
  mov b.1.w0 fun rax =>
  mulx rax r15 fun rax rdx =>
  mov rax fun c0 =>
  mov rdx fun r9 =>
  mov b.1.w1 fun rax =>
  mulx rax r15 fun rax rdx =>
  mov rax fun r10 =>
  mov rdx fun r11 =>
  mov b.1.w2 fun rax =>
  mulx rax r15 fun rax rdx =>
  mov rax fun r12 =>
  mov rdx fun r13 =>
  mov b.1.w3 fun rax =>
  mulx rax r15 fun rax rdx =>
  add r9 r10 fun r9 cf =>
  adc r11 r12 cf fun r11 cf =>
  adc r13 rax cf fun r13 cf =>
  adc rdx 0#64 cf fun rdx cf =>
  mov rdx fun r15 =>
  mov a.1.w1 fun r14 =>
  mov b.1.w0 fun rax =>
  mulx rax r14 fun rax rdx =>
  mov rax fun rcx =>
  mov rdx fun r8 =>
  mov b.1.w1 fun rax =>
  mulx rax r14 fun rax rdx =>
  mov rdx fun r10 =>
  add rcx r9 fun rcx cf =>
  mov rcx fun c1 =>
  adc r8 rax cf fun r8 cf =>
  adc r10 0#64 cf fun r10 cf =>
  mov b.1.w2 fun rax =>
  mulx rax r14 fun rax rdx =>
  mov rax fun rcx =>
  mov rdx fun r12 =>
  mov b.1.w3 fun rax =>
  mulx rax r14 fun rax rdx =>
  add r10 rcx fun r10 cf =>
  adc r12 rax cf fun r12 cf =>
  adc rdx 0#64 cf fun rdx cf =>
  add r8 r11 fun r8 cf =>
  adc r10 r13 cf fun r10 cf =>
  adc r12 r15 cf fun r12 cf =>
  adc rdx 0#64 cf fun rdx cf =>
  mov rdx fun r14 =>
  mov a.1.w2 fun r15 =>
  mov b.1.w0 fun rax =>
  mulx rax r15 fun rax rdx =>
  mov rax fun rcx =>
  mov rdx fun r9 =>
  mov b.1.w1 fun rax =>
  mulx rax r15 fun rax rdx =>
  mov rdx fun r11 =>
  add rcx r8 fun rcx cf =>
  mov rcx fun c2 =>
  adc r9 rax cf fun r9 cf =>
  adc r11 0#64 cf fun r11 cf =>
  mov b.1.w2 fun rax =>
  mulx rax r15 fun rax rdx =>
  mov rax fun rcx =>
  mov rdx fun r13 =>
  mov b.1.w3 fun rax =>
  mulx rax r15 fun rax rdx =>
  add r11 rcx fun r11 cf =>
  adc r13 rax cf fun r13 cf =>
  adc rdx 0#64 cf fun rdx cf =>
  add r9 r10 fun r9 cf =>
  adc r11 r12 cf fun r11 cf =>
  adc r13 r14 cf fun r13 cf =>
  adc rdx 0#64 cf fun rdx cf =>
  mov rdx fun r15 =>
  mov a.1.w3 fun r14 =>
  mov b.1.w0 fun rax =>
  mulx rax r14 fun rax rdx =>
  mov rax fun rcx =>
  mov rdx fun r8 =>
  mov b.1.w1 fun rax =>
  mulx rax r14 fun rax rdx =>
  mov rdx fun r10 =>
  add rcx r9 fun rcx cf =>
  mov rcx fun c3 =>
  adc r8 rax cf fun r8 cf =>
  adc r10 0#64 cf fun r10 cf =>
  mov b.1.w2 fun rax =>
  mulx rax r14 fun rax rdx =>
  mov rax fun rcx =>
  mov rdx fun r12 =>
  mov b.1.w3 fun rax =>
  mulx rax r14 fun rax rdx =>
  add r10 rcx fun r10 cf =>
  adc r12 rax cf fun r12 cf =>
  adc rdx 0#64 cf fun rdx cf =>
  add r8 r11 fun r8 cf =>
  mov r8 fun c4 =>
  adc r10 r13 cf fun r10 cf =>
  mov r10 fun c5 =>
  adc r12 r15 cf fun r12 cf =>
  mov r12 fun c6 =>
  adc rdx 0#64 cf fun rdx cf =>
  mov rdx fun c7 =>
  mov a.2.w0 fun r15 =>
  mov b.2.w0 fun rax =>
  mulx rax r15 fun rax rdx =>
  mov rax fun c8 =>
  mov rdx fun r9 =>
  mov b.2.w1 fun rax =>
  mulx rax r15 fun rax rdx =>
  mov rax fun r10 =>
  mov rdx fun r11 =>
  mov b.2.w2 fun rax =>
  mulx rax r15 fun rax rdx =>
  mov rax fun r12 =>
  mov rdx fun r13 =>
  mov b.2.w3 fun rax =>
  mulx rax r15 fun rax rdx =>
  add r9 r10 fun r9 cf =>
  adc r11 r12 cf fun r11 cf =>
  adc r13 rax cf fun r13 cf =>
  adc rdx 0#64 cf fun rdx cf =>
  mov rdx fun r15 =>
  mov a.2.w1 fun r14 =>
  mov b.2.w0 fun rax =>
  mulx rax r14 fun rax rdx =>
  mov rax fun rcx =>
  mov rdx fun r8 =>
  mov b.2.w1 fun rax =>
  mulx rax r14 fun rax rdx =>
  mov rdx fun r10 =>
  add rcx r9 fun rcx cf =>
  mov rcx fun c9 =>
  adc r8 rax cf fun r8 cf =>
  adc r10 0#64 cf fun r10 cf =>
  mov b.2.w2 fun rax =>
  mulx rax r14 fun rax rdx =>
  mov rax fun rcx =>
  mov rdx fun r12 =>
  mov b.2.w3 fun rax =>
  mulx rax r14 fun rax rdx =>
  add r10 rcx fun r10 cf =>
  adc r12 rax cf fun r12 cf =>
  adc rdx 0#64 cf fun rdx cf =>
  add r8 r11 fun r8 cf =>
  adc r10 r13 cf fun r10 cf =>
  adc r12 r15 cf fun r12 cf =>
  adc rdx 0#64 cf fun rdx cf =>
  mov rdx fun r14 =>
  mov a.2.w2 fun r15 =>
  mov b.2.w0 fun rax =>
  mulx rax r15 fun rax rdx =>
  mov rax fun rcx =>
  mov rdx fun r9 =>
  mov b.2.w1 fun rax =>
  mulx rax r15 fun rax rdx =>
  mov rdx fun r11 =>
  add rcx r8 fun rcx cf =>
  mov rcx fun c10 =>
  adc r9 rax cf fun r9 cf =>
  adc r11 0#64 cf fun r11 cf =>
  mov b.2.w2 fun rax =>
  mulx rax r15 fun rax rdx =>
  mov rax fun rcx =>
  mov rdx fun r13 =>
  mov b.2.w3 fun rax =>
  mulx rax r15 fun rax rdx =>
  add r11 rcx fun r11 cf =>
  adc r13 rax cf fun r13 cf =>
  adc rdx 0#64 cf fun rdx cf =>
  add r9 r10 fun r9 cf =>
  adc r11 r12 cf fun r11 cf =>
  adc r13 r14 cf fun r13 cf =>
  adc rdx 0#64 cf fun rdx cf =>
  mov rdx fun r15 =>
  mov a.2.w3 fun r14 =>
  mov b.2.w0 fun rax =>
  mulx rax r14 fun rax rdx =>
  mov rax fun rcx =>
  mov rdx fun r8 =>
  mov b.2.w1 fun rax =>
  mulx rax r14 fun rax rdx =>
  mov rdx fun r10 =>
  add rcx r9 fun rcx cf =>
  mov rcx fun c11 =>
  adc r8 rax cf fun r8 cf =>
  adc r10 0#64 cf fun r10 cf =>
  mov b.2.w2 fun rax =>
  mulx rax r14 fun rax rdx =>
  mov rax fun rcx =>
  mov rdx fun r12 =>
  mov b.2.w3 fun rax =>
  mulx rax r14 fun rax rdx =>
  add r10 rcx fun r10 cf =>
  adc r12 rax cf fun r12 cf =>
  adc rdx 0#64 cf fun rdx cf =>
  add r8 r11 fun r8 cf =>
  mov r8 fun c12 =>
  adc r10 r13 cf fun r10 cf =>
  mov r10 fun c13 =>
  adc r12 r15 cf fun r12 cf =>
  mov r12 fun c14 =>
  adc rdx 0#64 cf fun rdx cf =>
  mov rdx fun c15 =>
  (⟨c0, c1, c2, c3, c4, c5, c6, c7⟩, ⟨c8, c9, c10, c11, c12, c13, c14, c15⟩)

/-- `intsqr_mulq`: src/eltfp25519_1w_fullradix.c:1106-1146. Baseline x86-64 variant. -/
def intsqr_mulq (a : F4) : F8 :=
  mov a.w0 fun r8 =>
  mov a.w1 fun rax =>
  mulx rax r8 fun rax rdx =>
  mov rax fun r9 =>
  mov rdx fun r10 =>
  mov a.w2 fun rax =>
  mulx rax r8 fun rax rdx =>
  mov rax fun r14 =>
  mov rdx fun r11 =>
  mov a.w3 fun rax =>
  mulx rax r8 fun rax rdx =>
  mov rax fun r15 =>
  mov rdx fun r12 =>
  mov a.w3 fun r8 =>
  mov a.w1 fun rax =>
  mulx rax r8 fun rax rdx =>
  mov rax fun rcx =>
  mov rdx fun r13 =>
  mov a.w2 fun rax =>
  mulx rax r8 fun rax rdx =>
  add r10 r14 fun r10 cf =>
  adc r11 r15 cf fun r11 cf =>
  mov 0#64 fun r15 =>
  adc r12 rcx cf fun r12 cf =>
  adc r13 rax cf fun r13 cf =>
  adc rdx 0#64 cf fun rdx cf =>
  mov rdx fun r14 =>
  mov a.w1 fun rax =>
  mulx rax a.w2 fun rax rdx =>
  add r11 rax fun r11 cf =>
  adc r12 rdx cf fun r12 cf =>
  adc r13 0#64 cf fun r13 cf =>
  adc r14 0#64 cf fun r14 cf =>
  adc r15 0#64 cf fun r15 cf =>
  shld 1 r14 r15 fun r15 =>
  mov r15 fun c7 =>
  shld 1 r13 r14 fun r14 =>
  mov r14 fun c6 =>
  shld 1 r12 r13 fun r13 =>
  mov r13 fun c5 =>
  shld 1 r11 r12 fun r12 =>
  mov r12 fun c4 =>
  shld 1 r10 r11 fun r11 =>
  mov r11 fun c3 =>
  shld 1 r9 r10 fun r10 =>
  mov r10 fun c2 =>
  shl 1 r9 fun r9 =>
  mov r9 fun c1 =>
  mov a.w0 fun rax =>
  mulx rax rax fun rax rdx =>
  mov rax fun c0 =>
  mov rdx fun r9 =>
  mov a.w1 fun rax =>
  mulx rax rax fun rax rdx =>
  mov rax fun r10 =>
  mov rdx fun r11 =>
  mov a.w2 fun rax =>
  mulx rax rax fun rax rdx =>
  mov rax fun r12 =>
  mov rdx fun r13 =>
  mov a.w3 fun rax =>
  mulx rax rax fun rax rdx =>
  mov rax fun r14 =>
  mov rdx fun r15 =>
  add r9 c1 fun r9 cf =>
  mov r9 fun c1 =>
  adc r10 c2 cf fun r10 cf =>
  mov r10 fun c2 =>
  adc r11 c3 cf fun r11 cf =>
  mov r11 fun c3 =>
  adc r12 c4 cf fun r12 cf =>
  mov r12 fun c4 =>
  adc r13 c5 cf fun r13 cf =>
  mov r13 fun c5 =>
  adc r14 c6 cf fun r14 cf =>
  mov r14 fun c6 =>
  adc r15 c7 cf fun r15 cf =>
  mov r15 fun c7 =>
  ⟨c0, c1, c2, c3, c4, c5, c6, c7⟩

/-- `intsqr2_mulq`: src/eltfp25519_1w_fullradix.c:513-595. Baseline x86-64 variant. Words 0-3 and 4-7 of each argument are the two elements. -/
def intsqr2_mulq (a : F4 × F4) : F8 × F8 :=
  mov a.1.w0 fun r8 =>
  mov a.1.w1 fun rax =>
  mulx rax r8 fun rax rdx =>
  mov rax fun r9 =>
  mov rdx fun r10 =>
  mov a.1.w2 fun rax =>
  mulx rax r8 fun rax rdx =>
  mov rax fun r14 =>
  mov rdx fun r11 =>
  mov a.1.w3 fun rax =>
  mulx rax r8 fun rax rdx =>
  mov rax fun r15 =>
  mov rdx fun r12 =>
  mov a.1.w3 fun r8 =>
  mov a.1.w1 fun rax =>
  mulx rax r8 fun rax rdx =>
  mov rax fun rcx =>
  mov rdx fun r13 =>
  mov a.1.w2 fun rax =>
  mulx rax r8 fun rax rdx =>
  add r10 r14 fun r10 cf =>
  adc r11 r15 cf fun r11 cf =>
  mov 0#64 fun r15 =>
  adc r12 rcx cf fun r12 cf =>
  adc r13 rax cf fun r13 cf =>
  adc rdx 0#64 cf fun rdx cf =>
  mov rdx fun r14 =>
  mov a.1.w1 fun rax =>
  mulx rax a.1.w2 fun rax rdx =>
  add r11 rax fun r11 cf =>
  adc r12 rdx cf fun r12 cf =>
  adc r13 0#64 cf fun r13 cf =>
  adc r14 0#64 cf fun r14 cf =>
  adc r15 0#64 cf fun r15 cf =>
  shld 1 r14 r15 fun r15 =>
  mov r15 fun c7 =>
  shld 1 r13 r14 fun r14 =>
  mov r14 fun c6 =>
  shld 1 r12 r13 fun r13 =>
  mov r13 fun c5 =>
  shld 1 r11 r12 fun r12 =>
  mov r12 fun c4 =>
  shld 1 r10 r11 fun r11 =>
  mov r11 fun c3 =>
  shld 1 r9 r10 fun r10 =>
  mov r10 fun c2 =>
  shl 1 r9 fun r9 =>
  mov r9 fun c1 =>
  mov a.1.w0 fun rax =>
  mulx rax rax fun rax rdx =>
  mov rax fun c0 =>
  mov rdx fun r9 =>
  mov a.1.w1 fun rax =>
  mulx rax rax fun rax rdx =>
  mov rax fun r10 =>
  mov rdx fun r11 =>
  mov a.1.w2 fun rax =>
  mulx rax rax fun rax rdx =>
  mov rax fun r12 =>
  mov rdx fun r13 =>
  mov a.1.w3 fun rax =>
  mulx rax rax fun rax rdx =>
  mov rax fun r14 =>
  mov rdx fun r15 =>
  add r9 c1 fun r9 cf =>
  mov r9 fun c1 =>
  adc r10 c2 cf fun r10 cf =>
  mov r10 fun c2 =>
  adc r11 c3 cf fun r11 cf =>
  mov r11 fun c3 =>
  adc r12 c4 cf fun r12 cf =>
  mov r12 fun c4 =>
  adc r13 c5 cf fun r13 cf =>
  mov r13 fun c5 =>
  adc r14 c6 cf fun r14 cf =>
  mov r14 fun c6 =>
  adc r15 c7 cf fun r15 cf =>
  mov r15 fun c7 =>
  mov a.2.w0 fun r8 =>
  mov a.2.w1 fun rax =>
  mulx rax r8 fun rax rdx =>
  mov rax fun r9 =>
  mov rdx fun r10 =>
  mov a.2.w2 fun rax =>
  mulx rax r8 fun rax rdx =>
  mov rax fun r14 =>
  mov rdx fun r11 =>
  mov a.2.w3 fun rax =>
  mulx rax r8 fun rax rdx =>
  mov rax fun r15 =>
  mov rdx fun r12 =>
  mov a.2.w3 fun r8 =>
  mov a.2.w1 fun rax =>
  mulx rax r8 fun rax rdx =>
  mov rax fun rcx =>
  mov rdx fun r13 =>
  mov a.2.w2 fun rax =>
  mulx rax r8 fun rax rdx =>
  add r10 r14 fun r10 cf =>
  adc r11 r15 cf fun r11 cf =>
  mov 0#64 fun r15 =>
  adc r12 rcx cf fun r12 cf =>
  adc r13 rax cf fun r13 cf =>
  adc rdx 0#64 cf fun rdx cf =>
  mov rdx fun r14 =>
  mov a.2.w1 fun rax =>
  mulx rax a.2.w2 fun rax rdx =>
  add r11 rax fun r11 cf =>
  adc r12 rdx cf fun r12 cf =>
  adc r13 0#64 cf fun r13 cf =>
  adc r14 0#64 cf fun r14 cf =>
  adc r15 0#64 cf fun r15 cf =>
  shld 1 r14 r15 fun r15 =>
  mov r15 fun c15 =>
  shld 1 r13 r14 fun r14 =>
  mov r14 fun c14 =>
  shld 1 r12 r13 fun r13 =>
  mov r13 fun c13 =>
  shld 1 r11 r12 fun r12 =>
  mov r12 fun c12 =>
  shld 1 r10 r11 fun r11 =>
  mov r11 fun c11 =>
  shld 1 r9 r10 fun r10 =>
  mov r10 fun c10 =>
  shl 1 r9 fun r9 =>
  mov r9 fun c9 =>
  mov a.2.w0 fun rax =>
  mulx rax rax fun rax rdx =>
  mov rax fun c8 =>
  mov rdx fun r9 =>
  mov a.2.w1 fun rax =>
  mulx rax rax fun rax rdx =>
  mov rax fun r10 =>
  mov rdx fun r11 =>
  mov a.2.w2 fun rax =>
  mulx rax rax fun rax rdx =>
  mov rax fun r12 =>
  mov rdx fun r13 =>
  mov a.2.w3 fun rax =>
  mulx rax rax fun rax rdx =>
  mov rax fun r14 =>
  mov rdx fun r15 =>
  add r9 c9 fun r9 cf =>
  mov r9 fun c9 =>
  adc r10 c10 cf fun r10 cf =>
  mov r10 fun c10 =>
  adc r11 c11 cf fun r11 cf =>
  mov r11 fun c11 =>
  adc r12 c12 cf fun r12 cf =>
  mov r12 fun c12 =>
  adc r13 c13 cf fun r13 cf =>
  mov r13 fun c13 =>
  adc r14 c14 cf fun r14 cf =>
  mov r14 fun c14 =>
  adc r15 c15 cf fun r15 cf =>
  mov r15 fun c15 =>
  (⟨c0, c1, c2, c3, c4, c5, c6, c7⟩, ⟨c8, c9, c10, c11, c12, c13, c14, c15⟩)

/-- `reduce_mulxadx`: src/eltfp25519_1w_fullradix.c:1168-1181. BMI2+ADX variant. -/
def reduce_mulxadx (a : F8) : F4 :=
  mov 38#64 fun rdx =>
  mulx rdx a.w4 fun r8 r10 =>
  xor0 fun rbx cf ovf =>
  adc r8 a.w0 ovf fun r8 ovf =>
  mulx rdx a.w5 fun r9 r11 =>
  adc r9 r10 cf fun r9 cf =>
  adc r9 a.w1 ovf fun r9 ovf =>
  mulx rdx a.w6 fun r10 rax =>
  adc r10 r11 cf fun r10 cf =>
  adc r10 a.w2 ovf fun r10 ovf =>
  mulx rdx a.w7 fun r11 rcx =>
  adc r11 rax cf fun r11 cf =>
  adc r11 a.w3 ovf fun r11 ovf =>
  adc rcx rbx cf fun rcx cf =>
  adc rcx rbx ovf fun rcx ovf =>
  imul rcx rdx fun rcx cf ovf =>
  adc r8 rcx cf fun r8 cf =>
  adc r9 rbx cf fun r9 cf =>
  mov r9 fun c1 =>
  adc r10 rbx cf fun r10 cf =>
  mov r10 fun c2 =>
  adc r11 rbx cf fun r11 cf =>
  mov r11 fun c3 =>
  mov 0#64 fun rcx =>
  cmov cf rcx rdx fun rcx =>
  add r8 rcx fun r8 cf =>
  mov r8 fun c0 =>
  ⟨c0, c1, c2, c3⟩

/-- `reduce2_mulxadx`: src/eltfp25519_1w_fullradix.c:617-644. BMI2+ADX variant. -/
def reduce2_mulxadx (a : F8 × F8) : F4 × F4 :=
  mov 38#64 fun rdx =>
  mulx rdx a.1.w4 fun r8 r10 =>
  xor0 fun rbx cf ovf =>
  adc r8 a.1.w0 ovf fun r8 ovf =>
  mulx rdx a.1.w5 fun r9 r11 =>
  adc r9 r10 cf fun r9 cf =>
  adc r9 a.1.w1 ovf fun r9 ovf =>
  mulx rdx a.1.w6 fun r10 rax =>
  adc r10 r11 cf fun r10 cf =>
  adc r10 a.1.w2 ovf fun r10 ovf =>
  mulx rdx a.1.w7 fun r11 rcx =>
  adc r11 rax cf fun r11 cf =>
  adc r11 a.1.w3 ovf fun r11 ovf =>
  adc rcx rbx cf fun rcx cf =>
  adc rcx rbx ovf fun rcx ovf =>
  imul rcx rdx fun rcx cf ovf =>
  adc r8 rcx cf fun r8 cf =>
  adc r9 rbx cf fun r9 cf =>
  mov r9 fun c1 =>
  adc r10 rbx cf fun r10 cf =>
  mov r10 fun c2 =>
  adc r11 rbx cf fun r11 cf =>
  mov r11 fun c3 =>
  mov 0#64 fun rcx =>
  cmov cf rcx rdx fun rcx =>
  add r8 rcx fun r8 cf =>
  mov r8 fun c0 =>
  mulx rdx a.2.w4 fun r8 r10 =>
  xor0 fun rbx cf ovf =>
  adc r8 a.2.w0 ovf fun r8 ovf =>
  mulx rdx a.2.w5 fun r9 r11 =>
  adc r9 r10 cf fun r9 cf =>
  adc r9 a.2.w1 ovf fun r9 ovf =>
  mulx rdx a.2.w6 fun r10 rax =>
  adc r10 r11 cf fun r10 cf =>
  adc r10 a.2.w2 ovf fun r10 ovf =>
  mulx rdx a.2.w7 fun r11 rcx =>
  adc r11 rax cf fun r11 cf =>
  adc r11 a.2.w3 ovf fun r11 ovf =>
  adc rcx rbx cf fun rcx cf =>
  adc rcx rbx ovf fun rcx ovf =>
  imul rcx rdx fun rcx cf ovf =>
  adc r8 rcx cf fun r8 cf =>
  adc r9 rbx cf fun r9 cf =>
  mov r9 fun c5 =>
  adc r10 rbx cf fun r10 cf =>
  mov r10 fun c6 =>
  adc r11 rbx cf fun r11 cf =>
  mov r11 fun c7 =>
  mov 0#64 fun rcx =>
  cmov cf rcx rdx fun rcx =>
  add r8 rcx fun r8 cf =>
  mov r8 fun c4 =>
  (⟨c0, c1, c2, c3⟩, ⟨c4, c5, c6, c7⟩)

/-- `reduce_mulx`: src/eltfp25519_1w_fullradix.c:1190-1208. BMI2 variant. -/
def reduce_mulx (a : F8) : F4 :=
  mov 38#64 fun rdx =>
  mulx rdx a.w4 fun r8 r10 =>
  mulx rdx a.w5 fun r9 r11 =>
  add r9 r10 fun r9 cf =>
  mulx rdx a.w6 fun r10 rax =>
  adc r10 r11 cf fun r10 cf =>
  mulx rdx a.w7 fun r11 rcx =>
  adc r11 rax cf fun r11 cf =>
  adc rcx 0#64 cf fun rcx cf =>
  add r8 a.w0 fun r8 cf =>
  adc r9 a.w1 cf fun r9 cf =>
  adc r10 a.w2 cf fun r10 cf =>
  adc r11 a.w3 cf fun r11 cf =>
  adc rcx 0#64 cf fun rcx cf =>
  imul rcx rdx fun rcx cf ovf =>
  add r8 rcx fun r8 cf =>
  adc r9 0#64 cf fun r9 cf =>
  mov r9 fun c1 =>
  adc r10 0#64 cf fun r10 cf =>
  mov r10 fun c2 =>
  adc r11 0#64 cf fun r11 cf =>
  mov r11 fun c3 =>
  mov 0#64 fun rcx =>
  cmov cf rcx rdx fun rcx =>
  add r8 rcx fun r8 cf =>
  mov r8 fun c0 =>
  ⟨c0, c1, c2, c3⟩

/-- `reduce2_mulx`: src/eltfp25519_1w_fullradix.c:653-690. BMI2 variant. -/
def reduce2_mulx (a : F8 × F8) : F4 × F4 :=
  mov 38#64 fun rdx =>
  mulx rdx a.1.w4 fun r8 r10 =>
  mulx rdx a.1.w5 fun r9 r11 =>
  add r9 r10 fun r9 cf =>
  mulx rdx a.1.w6 fun r10 rax =>
  adc r10 r11 cf fun r10 cf =>
  mulx rdx a.1.w7 fun r11 rcx =>
  adc r11 rax cf fun r11 cf =>
  adc rcx 0#64 cf fun rcx cf =>
  add r8 a.1.w0 fun r8 cf =>
  adc r9 a.1.w1 cf fun r9 cf =>
  adc r10 a.1.w2 cf fun r10 cf =>
  adc r11 a.1.w3 cf fun r11 cf =>
  adc rcx 0#64 cf fun rcx cf =>
  imul rcx rdx fun rcx cf ovf =>
  add r8 rcx fun r8 cf =>
  adc r9 0#64 cf fun r9 cf =>
  mov r9 fun c1 =>
  adc r10 0#64 cf fun r10 cf =>
  mov r10 fun c2 =>
  adc r11 0#64 cf fun r11 cf =>
  mov r11 fun c3 =>
  mov 0#64 fun rcx =>
  cmov cf rcx rdx fun rcx =>
  add r8 rcx fun r8 cf =>
  mov r8 fun c0 =>
  mulx rdx a.2.w4 fun r8 r10 =>
  mulx rdx a.2.w5 fun r9 r11 =>
  add r9 r10 fun r9 cf =>
  mulx rdx a.2.w6 fun r10 rax =>
  adc r10 r11 cf fun r10 cf =>
  mulx rdx a.2.w7 fun r11 rcx =>
  adc r11 rax cf fun r11 cf =>
  adc rcx 0#64 cf fun rcx cf =>
  add r8 a.2.w0 fun r8 cf =>
  adc r9 a.2.w1 cf fun r9 cf =>
  adc r10 a.2.w2 cf fun r10 cf =>
  adc r11 a.2.w3 cf fun r11 cf =>
  adc rcx 0#64 cf fun rcx cf =>
  imul rcx rdx fun rcx cf ovf =>
  add r8 rcx fun r8 cf =>
  adc r9 0#64 cf fun r9 cf =>
  mov r9 fun c5 =>
  adc r10 0#64 cf fun r10 cf =>
  mov r10 fun c6 =>
  adc r11 0#64 cf fun r11 cf =>
  mov r11 fun c7 =>
  mov 0#64 fun rcx =>
  cmov cf rcx rdx fun rcx =>
  add r8 rcx fun r8 cf =>
  mov r8 fun c4 =>
  (⟨c0, c1, c2, c3⟩, ⟨c4, c5, c6, c7⟩)

/-- `reduce_mulq`: src/eltfp25519_1w_fullradix.c:1218-1239. Baseline x86-64 variant. -/
def reduce_mulq (a : F8) : F4 :=
  mov 38#64 fun rax =>
  mulx rax a.w4 fun rax rdx =>
  mov rax fun r8 =>
  mov rdx fun r9 =>
  mov 38#64 fun rax =>
  mulx rax a.w5 fun rax rdx =>
  mov rax fun r12 =>
  mov rdx fun r10 =>
  mov 38#64 fun rax =>
  mulx rax a.w6 fun rax rdx =>
  mov rax fun r13 =>
  mov rdx fun r11 =>
  mov 38#64 fun rax =>
  mulx rax a.w7 fun rax rdx =>
  add r9 r12 fun r9 cf =>
  adc r10 r13 cf fun r10 cf =>
  adc r11 rax cf fun r11 cf =>
  adc rdx 0#64 cf fun rdx cf =>
  add r8 a.w0 fun r8 cf =>
  adc r9 a.w1 cf fun r9 cf =>
  adc r10 a.w2 cf fun r10 cf =>
  adc r11 a.w3 cf fun r11 cf =>
  adc rdx 0#64 cf fun rdx cf =>
  mov 38#64 fun rax =>
  imul rdx rax fun rdx cf ovf =>
  add r8 rdx fun r8 cf =>
  adc r9 0#64 cf fun r9 cf =>
  mov r9 fun c1 =>
  adc r10 0#64 cf fun r10 cf =>
  mov r10 fun c2 =>
  adc r11 0#64 cf fun r11 cf =>
  mov r11 fun c3 =>
  mov 0#64 fun rdx =>
  cmov cf rdx rax fun rdx =>
  add r8 rdx fun r8 cf =>
  mov r8 fun c0 =>
  ⟨c0, c1, c2, c3⟩

/-- `reduce2_mulq`: src/eltfp25519_1w_fullradix.c:700-744. Baseline x86-64 variant. -/
def reduce2_mulq (a : F8 × F8) : F4 × F4 :=
  mov 38#64 fun rax =>
  mulx rax a.1.w4 fun rax rdx =>
  mov rax fun r8 =>
  mov rdx fun r9 =>
  mov 38#64 fun rax =>
  mulx rax a.1.w5 fun rax rdx =>
  mov rax fun r12 =>
  mov rdx fun r10 =>
  mov 38#64 fun rax =>
  mulx rax a.1.w6 fun rax rdx =>
  mov rax fun r13 =>
  mov rdx fun r11 =>
  mov 38#64 fun rax =>
  mulx rax a.1.w7 fun rax rdx =>
  add r9 r12 fun r9 cf =>
  adc r10 r13 cf fun r10 cf =>
  adc r11 rax cf fun r11 cf =>
  adc rdx 0#64 cf fun rdx cf =>
  add r8 a.1.w0 fun r8 cf =>
  adc r9 a.1.w1 cf fun r9 cf =>
  adc r10 a.1.w2 cf fun r10 cf =>
  adc r11 a.1.w3 cf fun r11 cf =>
  adc rdx 0#64 cf fun rdx cf =>
  mov 38#64 fun rax =>
  imul rdx rax fun rdx cf ovf =>
  add r8 rdx fun r8 cf =>
  adc r9 0#64 cf fun r9 cf =>
  mov r9 fun c1 =>
  adc r10 0#64 cf fun r10 cf =>
  mov r10 fun c2 =>
  adc r11 0#64 cf fun r11 cf =>
  mov r11 fun c3 =>
  mov 0#64 fun rdx =>
  cmov cf rdx rax fun rdx =>
  add r8 rdx fun r8 cf =>
  mov r8 fun c0 =>
  mov 38#64 fun rax =>
  mulx rax a.2.w4 fun rax rdx =>
  mov rax fun r8 =>
  mov rdx fun r9 =>
  mov 38#64 fun rax =>
  mulx rax a.2.w5 fun rax rdx =>
  mov rax fun r12 =>
  mov rdx fun r10 =>
  mov 38#64 fun rax =>
  mulx rax a.2.w6 fun rax rdx =>
  mov rax fun r13 =>
  mov rdx fun r11 =>
  mov 38#64 fun rax =>
  mulx rax a.2.w7 fun rax rdx =>
  add r9 r12 fun r9 cf =>
  adc r10 r13 cf fun r10 cf =>
  adc r11 rax cf fun r11 cf =>
  adc rdx 0#64 cf fun rdx cf =>
  add r8 a.2.w0 fun r8 cf =>
  adc r9 a.2.w1 cf fun r9 cf =>
  adc r10 a.2.w2 cf fun r10 cf =>
  adc r11 a.2.w3 cf fun r11 cf =>
  adc rdx 0#64 cf fun rdx cf =>
  mov 38#64 fun rax =>
  imul rdx rax fun rdx cf ovf =>
  add r8 rdx fun r8 cf =>
  adc r9 0#64 cf fun r9 cf =>
  mov r9 fun c5 =>
  adc r10 0#64 cf fun r10 cf =>
  mov r10 fun c6 =>
  adc r11 0#64 cf fun r11 cf =>
  mov r11 fun c7 =>
  mov 0#64 fun rdx =>
  cmov cf rdx rax fun rdx =>
  add r8 rdx fun r8 cf =>
  mov r8 fun c4 =>
  (⟨c0, c1, c2, c3⟩, ⟨c4, c5, c6, c7⟩)

/-- `mula24_mulx`: src/eltfp25519_1w_fullradix.c:1525-1539. BMI2 variant. -/
def mula24_mulx (a : F4) : F4 :=
  mov 121666#64 fun rdx =>
  mulx rdx a.w0 fun r8 r10 =>
  mulx rdx a.w1 fun r9 r11 =>
  add r9 r10 fun r9 cf =>
  mulx rdx a.w2 fun r10 rax =>
  adc r10 r11 cf fun r10 cf =>
  mulx rdx a.w3 fun r11 rcx =>
  adc r11 rax cf fun r11 cf =>
  adc rcx 0#64 cf fun rcx cf =>
  mov 38#64 fun rdx =>
  imul rcx rdx fun rcx cf ovf =>
  add r8 rcx fun r8 cf =>
  adc r9 0#64 cf fun r9 cf =>
  mov r9 fun c1 =>
  adc r10 0#64 cf fun r10 cf =>
  mov r10 fun c2 =>
  adc r11 0#64 cf fun r11 cf =>
  mov r11 fun c3 =>
  mov 0#64 fun rcx =>
  cmov cf rcx rdx fun rcx =>
  add r8 rcx fun r8 cf =>
  mov r8 fun c0 =>
  ⟨c0, c1, c2, c3⟩

/-- `mula24_mulq`: src/eltfp25519_1w_fullradix.c:1549-1565. Baseline x86-64 variant. -/
def mula24_mulq (a : F4) : F4 :=
  mov 121666#64 fun rax =>
  mulx rax a.w0 fun rax rdx =>
  mov rax fun r8 =>
  mov rdx fun r9 =>
  mov 121666#64 fun rax =>
  mulx rax a.w1 fun rax rdx =>
  mov rax fun r12 =>
  mov rdx fun r10 =>
  mov 121666#64 fun rax =>
  mulx rax a.w2 fun rax rdx =>
  mov rax fun r13 =>
  mov rdx fun r11 =>
  mov 121666#64 fun rax =>
  mulx rax a.w3 fun rax rdx =>
  add r9 r12 fun r9 cf =>
  adc r10 r13 cf fun r10 cf =>
  adc r11 rax cf fun r11 cf =>
  adc rdx 0#64 cf fun rdx cf =>
  mov 38#64 fun rax =>
  imul rdx rax fun rdx cf ovf =>
  add r8 rdx fun r8 cf =>
  adc r9 0#64 cf fun r9 cf =>
  mov r9 fun c1 =>
  adc r10 0#64 cf fun r10 cf =>
  mov r10 fun c2 =>
  adc r11 0#64 cf fun r11 cf =>
  mov r11 fun c3 =>
  mov 0#64 fun rdx =>
  cmov cf rdx rax fun rdx =>
  add r8 rdx fun r8 cf =>
  mov r8 fun c0 =>
  ⟨c0, c1, c2, c3⟩

/-- `add_adx`: src/eltfp25519_1w_fullradix.c:1260-1274. ADX variant. -/
def add_adx (a b : F4) : F4 :=
  mov 38#64 fun rax =>
  xor0 fun rcx cf ovf =>
  mov b.w0 fun r8 =>
  adc r8 a.w0 cf fun r8 cf =>
  mov b.w1 fun r9 =>
  adc r9 a.w1 cf fun r9 cf =>
  mov b.w2 fun r10 =>
  adc r10 a.w2 cf fun r10 cf =>
  mov b.w3 fun r11 =>
  adc r11 a.w3 cf fun r11 cf =>
  cmov cf rcx rax fun rcx =>
  xor0 fun rax cf ovf =>
  adc r8 rcx cf fun r8 cf =>
  adc r9 rax cf fun r9 cf =>
  mov r9 fun c1 =>
  adc r10 rax cf fun r10 cf =>
  mov r10 fun c2 =>
  adc r11 rax cf fun r11 cf =>
  mov r11 fun c3 =>
  mov 38#64 fun rcx =>
  cmov cf rax rcx fun rax =>
  add r8 rax fun r8 cf =>
  mov r8 fun c0 =>
  ⟨c0, c1, c2, c3⟩

/-- `add_adc`: src/eltfp25519_1w_fullradix.c:1283-1296. Variant without ADX. -/
def add_adc (a b : F4) : F4 :=
  mov 38#64 fun rax =>
  mov b.w0 fun r8 =>
  add r8 a.w0 fun r8 cf =>
  mov b.w1 fun r9 =>
  adc r9 a.w1 cf fun r9 cf =>
  mov b.w2 fun r10 =>
  adc r10 a.w2 cf fun r10 cf =>
  mov b.w3 fun r11 =>
  adc r11 a.w3 cf fun r11 cf =>
  mov 0#64 fun rcx =>
  cmov cf rcx rax fun rcx =>
  add r8 rcx fun r8 cf =>
  adc r9 0#64 cf fun r9 cf =>
  mov r9 fun c1 =>
  adc r10 0#64 cf fun r10 cf =>
  mov r10 fun c2 =>
  adc r11 0#64 cf fun r11 cf =>
  mov r11 fun c3 =>
  mov 0#64 fun rcx =>
  cmov cf rcx rax fun rcx =>
  add r8 rcx fun r8 cf =>
  mov r8 fun c0 =>
  ⟨c0, c1, c2, c3⟩

/-- `sub`: src/eltfp25519_1w_fullradix.c:1313-1326.  -/
def sub4 (a b : F4) : F4 :=
  mov 38#64 fun rax =>
  mov a.w0 fun r8 =>
  sub r8 b.w0 fun r8 cf =>
  mov a.w1 fun r9 =>
  sbb r9 b.w1 cf fun r9 cf =>
  mov a.w2 fun r10 =>
  sbb r10 b.w2 cf fun r10 cf =>
  mov a.w3 fun r11 =>
  sbb r11 b.w3 cf fun r11 cf =>
  mov 0#64 fun rcx =>
  cmov cf rcx rax fun rcx =>
  sub r8 rcx fun r8 cf =>
  sbb r9 0#64 cf fun r9 cf =>
  mov r9 fun c1 =>
  sbb r10 0#64 cf fun r10 cf =>
  mov r10 fun c2 =>
  sbb r11 0#64 cf fun r11 cf =>
  mov r11 fun c3 =>
  mov 0#64 fun rcx =>
  cmov cf rcx rax fun rcx =>
  sub r8 rcx fun r8 cf =>
  mov r8 fun c0 =>
  ⟨c0, c1, c2, c3⟩

end Asm

end Verif.Fp25519
