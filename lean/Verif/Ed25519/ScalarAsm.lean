import Verif.Fp25519.Asm

/-!
# Reduction of scalars modulo l: inline assembly (generated from the source text)

Transcription, instruction by instruction, of the `__asm__` blocks of `reduce256bits` and
`reduce64bits` in src/sign255.c.  `a.w0 ... a.w7` are the words of `(%0)` on entry,
`c0 ...` those stored; the constants of `(%1)` are written inline.
-/

namespace Verif.Ed25519

open Verif.Fp25519 (F8)

set_option maxRecDepth 4000
set_option linter.unusedVariables false
set_option exponentiation.threshold 2000

/-- src/sign255.c:77-172 `reduce256bits`, constants {0x812631a5cf5d3ed0, 0x4def9dea2f79cd65, 0x1}. -/
def reduce256bits (a : F8) : F8 :=
  mov a.w0 fun rbx =>
  mov a.w1 fun rcx =>
  mov a.w2 fun r8 =>
  mov a.w3 fun r9 =>
  xor0 fun r10 cf ovf =>
  xor0 fun r11 cf ovf =>
  xor0 fun r12 cf ovf =>
  xor0 fun r13 cf ovf =>
  mov 9306180268226068176#64 fun rax =>
  mulx rax a.w4 fun rax rdx =>
  sub rbx rax fun rbx cf =>
  sbb rcx rdx cf fun rcx cf =>
  sbb r8 0#64 cf fun r8 cf =>
  sbb r9 0#64 cf fun r9 cf =>
  sbb r10 0#64 cf fun r10 cf =>
  sbb r11 0#64 cf fun r11 cf =>
  sbb r12 0#64 cf fun r12 cf =>
  sbb r13 0#64 cf fun r13 cf =>
  mov 9306180268226068176#64 fun rax =>
  mulx rax a.w5 fun rax rdx =>
  sub rcx rax fun rcx cf =>
  sbb r8 rdx cf fun r8 cf =>
  sbb r9 0#64 cf fun r9 cf =>
  sbb r10 0#64 cf fun r10 cf =>
  sbb r11 0#64 cf fun r11 cf =>
  sbb r12 0#64 cf fun r12 cf =>
  sbb r13 0#64 cf fun r13 cf =>
  mov 9306180268226068176#64 fun rax =>
  mulx rax a.w6 fun rax rdx =>
  sub r8 rax fun r8 cf =>
  sbb r9 rdx cf fun r9 cf =>
  sbb r10 0#64 cf fun r10 cf =>
  sbb r11 0#64 cf fun r11 cf =>
  sbb r12 0#64 cf fun r12 cf =>
  sbb r13 0#64 cf fun r13 cf =>
  mov 9306180268226068176#64 fun rax =>
  mulx rax a.w7 fun rax rdx =>
  sub r9 rax fun r9 cf =>
  sbb r10 rdx cf fun r10 cf =>
  sbb r11 0#64 cf fun r11 cf =>
  sbb r12 0#64 cf fun r12 cf =>
  sbb r13 0#64 cf fun r13 cf =>
  mov 5615880889498717541#64 fun rax =>
  mulx rax a.w4 fun rax rdx =>
  sub rcx rax fun rcx cf =>
  sbb r8 rdx cf fun r8 cf =>
  sbb r9 0#64 cf fun r9 cf =>
  sbb r10 0#64 cf fun r10 cf =>
  sbb r11 0#64 cf fun r11 cf =>
  sbb r12 0#64 cf fun r12 cf =>
  sbb r13 0#64 cf fun r13 cf =>
  mov 5615880889498717541#64 fun rax =>
  mulx rax a.w5 fun rax rdx =>
  sub r8 rax fun r8 cf =>
  sbb r9 rdx cf fun r9 cf =>
  sbb r10 0#64 cf fun r10 cf =>
  sbb r11 0#64 cf fun r11 cf =>
  sbb r12 0#64 cf fun r12 cf =>
  sbb r13 0#64 cf fun r13 cf =>
  mov 5615880889498717541#64 fun rax =>
  mulx rax a.w6 fun rax rdx =>
  sub r9 rax fun r9 cf =>
  sbb r10 rdx cf fun r10 cf =>
  sbb r11 0#64 cf fun r11 cf =>
  sbb r12 0#64 cf fun r12 cf =>
  sbb r13 0#64 cf fun r13 cf =>
  mov 5615880889498717541#64 fun rax =>
  mulx rax a.w7 fun rax rdx =>
  sub r10 rax fun r10 cf =>
  sbb r11 rdx cf fun r11 cf =>
  sbb r12 0#64 cf fun r12 cf =>
  sbb r13 0#64 cf fun r13 cf =>
  sub r8 a.w4 fun r8 cf =>
  sbb r9 a.w5 cf fun r9 cf =>
  sbb r10 a.w6 cf fun r10 cf =>
  sbb r11 a.w7 cf fun r11 cf =>
  sbb r12 0#64 cf fun r12 cf =>
  sbb r13 0#64 cf fun r13 cf =>
  mov rbx fun c0 =>
  mov rcx fun c1 =>
  mov r8 fun c2 =>
  mov r9 fun c3 =>
  mov r10 fun c4 =>
  mov r11 fun c5 =>
  mov r12 fun c6 =>
  mov r13 fun c7 =>
  ⟨c0, c1, c2, c3, c4, c5, c6, c7⟩

/-- src/sign255.c:192-213 `reduce64bits`, constants {0x5812631a5cf5d3ed, 0x14def9dea2f79cd6}. -/
def reduce64bits (a : F8) : F8 :=
  mov a.w0 fun rbx =>
  mov a.w1 fun rcx =>
  mov a.w2 fun r8 =>
  mov a.w3 fun r9 =>
  mov 6346243789798364141#64 fun rax =>
  mulx rax a.w4 fun rax rdx =>
  sub rbx rax fun rbx cf =>
  sbb rcx rdx cf fun rcx cf =>
  sbb r8 0#64 cf fun r8 cf =>
  sbb r9 0#64 cf fun r9 cf =>
  mov 1503914060200516822#64 fun rax =>
  mulx rax a.w4 fun rax rdx =>
  sub rcx rax fun rcx cf =>
  sbb r8 rdx cf fun r8 cf =>
  sbb r9 0#64 cf fun r9 cf =>
  mov rbx fun c0 =>
  mov rcx fun c1 =>
  mov r8 fun c2 =>
  mov r9 fun c3 =>
  ⟨c0, c1, c2, c3, a.w4, a.w5, a.w6, a.w7⟩

end Verif.Ed25519
