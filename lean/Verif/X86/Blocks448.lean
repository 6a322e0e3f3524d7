import Verif.X86.Machine

/-!
# The assembly blocks of src/eltfp448_1w_fullradix.c, as data (generated from the source text)

One list per block, one entry per instruction, macros expanded, in the order of
the source; one line here per line of the source.  `clobbers`, `memory` and `cc`
are the block's clobber list.
-/

namespace Verif.X86.Fp448

open Instr Opd Reg Ptr

set_option maxRecDepth 10000

/-- `intmul_mulxadx`: src/eltfp448_1w_fullradix.c:201-227. -/
def intmul_mulxadx : Block where
  clobbers := [rax, rdx, r8, r9, r10, r11, r12, r13, r14, r15]
  memory := true
  cc := true
  code := [
    movq (mem p1 0) (reg rdx),
    xorl rax,
    movq (imm 0) (reg r8),
    mulxq (mem p2 0) rax r9, movq (reg rax) (mem p0 0),
    mulxq (mem p2 1) rax r10, adcx (reg rax) r9,
    mulxq (mem p2 2) rax r11, adcx (reg rax) r10,
    mulxq (mem p2 3) rax r12, adcx (reg rax) r11,
    mulxq (mem p2 4) rax r13, adcx (reg rax) r12,
    mulxq (mem p2 5) rax r14, adcx (reg rax) r13,
    mulxq (mem p2 6) rax r15, adcx (reg rax) r14,
    adcx (reg r8) r15,
    movq (mem p1 1) (reg rdx), xorl rax, mulxq (mem p2 0) rax r8, adox (reg rax) r9,
    adcx (reg r8) r10, movq (reg r9) (mem p0 1), mulxq (mem p2 1) rax r8, adox (reg rax) r10,
    adcx (reg r8) r11, movq (imm 0) (reg r9), mulxq (mem p2 2) rax r8, adox (reg rax) r11,
    adcx (reg r8) r12, mulxq (mem p2 3) rax r8, adox (reg rax) r12, adcx (reg r8) r13,
    mulxq (mem p2 4) rax r8, adox (reg rax) r13, adcx (reg r8) r14, mulxq (mem p2 5) rax r8,
    adox (reg rax) r14, adcx (reg r8) r15, mulxq (mem p2 6) rax r8, adox (reg rax) r15,
    adcx (reg r8) r9, movq (imm 0) (reg rdx), adox (reg rdx) r9,
    movq (mem p1 2) (reg rdx), xorl rax, mulxq (mem p2 0) rax r8, adox (reg rax) r10,
    adcx (reg r8) r11, movq (reg r10) (mem p0 2), mulxq (mem p2 1) rax r8,
    adox (reg rax) r11, adcx (reg r8) r12, movq (imm 0) (reg r10), mulxq (mem p2 2) rax r8,
    adox (reg rax) r12, adcx (reg r8) r13, mulxq (mem p2 3) rax r8, adox (reg rax) r13,
    adcx (reg r8) r14, mulxq (mem p2 4) rax r8, adox (reg rax) r14, adcx (reg r8) r15,
    mulxq (mem p2 5) rax r8, adox (reg rax) r15, adcx (reg r8) r9, mulxq (mem p2 6) rax r8,
    adox (reg rax) r9, adcx (reg r8) r10, movq (imm 0) (reg rdx), adox (reg rdx) r10,
    movq (mem p1 3) (reg rdx), xorl rax, mulxq (mem p2 0) rax r8, adox (reg rax) r11,
    adcx (reg r8) r12, movq (reg r11) (mem p0 3), mulxq (mem p2 1) rax r8,
    adox (reg rax) r12, adcx (reg r8) r13, movq (imm 0) (reg r11), mulxq (mem p2 2) rax r8,
    adox (reg rax) r13, adcx (reg r8) r14, mulxq (mem p2 3) rax r8, adox (reg rax) r14,
    adcx (reg r8) r15, mulxq (mem p2 4) rax r8, adox (reg rax) r15, adcx (reg r8) r9,
    mulxq (mem p2 5) rax r8, adox (reg rax) r9, adcx (reg r8) r10, mulxq (mem p2 6) rax r8,
    adox (reg rax) r10, adcx (reg r8) r11, movq (imm 0) (reg rdx), adox (reg rdx) r11,
    movq (mem p1 4) (reg rdx), xorl rax, mulxq (mem p2 0) rax r8, adox (reg rax) r12,
    adcx (reg r8) r13, movq (reg r12) (mem p0 4), mulxq (mem p2 1) rax r8,
    adox (reg rax) r13, adcx (reg r8) r14, movq (imm 0) (reg r12), mulxq (mem p2 2) rax r8,
    adox (reg rax) r14, adcx (reg r8) r15, mulxq (mem p2 3) rax r8, adox (reg rax) r15,
    adcx (reg r8) r9, mulxq (mem p2 4) rax r8, adox (reg rax) r9, adcx (reg r8) r10,
    mulxq (mem p2 5) rax r8, adox (reg rax) r10, adcx (reg r8) r11, mulxq (mem p2 6) rax r8,
    adox (reg rax) r11, adcx (reg r8) r12, movq (imm 0) (reg rdx), adox (reg rdx) r12,
    movq (mem p1 5) (reg rdx), xorl rax, mulxq (mem p2 0) rax r8, adox (reg rax) r13,
    adcx (reg r8) r14, movq (reg r13) (mem p0 5), mulxq (mem p2 1) rax r8,
    adox (reg rax) r14, adcx (reg r8) r15, movq (imm 0) (reg r13), mulxq (mem p2 2) rax r8,
    adox (reg rax) r15, adcx (reg r8) r9, mulxq (mem p2 3) rax r8, adox (reg rax) r9,
    adcx (reg r8) r10, mulxq (mem p2 4) rax r8, adox (reg rax) r10, adcx (reg r8) r11,
    mulxq (mem p2 5) rax r8, adox (reg rax) r11, adcx (reg r8) r12, mulxq (mem p2 6) rax r8,
    adox (reg rax) r12, adcx (reg r8) r13, movq (imm 0) (reg rdx), adox (reg rdx) r13,
    movq (mem p1 6) (reg rdx), xorl rax, mulxq (mem p2 0) rax r8, adox (reg rax) r14,
    adcx (reg r8) r15, movq (reg r14) (mem p0 6), mulxq (mem p2 1) rax r8,
    adox (reg rax) r15, adcx (reg r8) r9, movq (imm 0) (reg r14), mulxq (mem p2 2) rax r8,
    adox (reg rax) r9, adcx (reg r8) r10, mulxq (mem p2 3) rax r8, adox (reg rax) r10,
    adcx (reg r8) r11, mulxq (mem p2 4) rax r8, adox (reg rax) r11, adcx (reg r8) r12,
    mulxq (mem p2 5) rax r8, adox (reg rax) r12, adcx (reg r8) r13, mulxq (mem p2 6) rax r8,
    adox (reg rax) r13, adcx (reg r8) r14, movq (imm 0) (reg rdx), adox (reg rdx) r14,
    movq (reg r15) (mem p0 7),
    movq (reg r9) (mem p0 8),
    movq (reg r10) (mem p0 9),
    movq (reg r11) (mem p0 10),
    movq (reg r12) (mem p0 11),
    movq (reg r13) (mem p0 12),
    movq (reg r14) (mem p0 13)]

/-- `intsqr_mulxadx`: src/eltfp448_1w_fullradix.c:338-433. -/
def intsqr_mulxadx : Block where
  clobbers := [rax, rbx, rcx, rdx, r8, r9, r10, r11, r12, r13, r14]
  memory := true
  cc := true
  code := [
    movq (mem p1 0) (reg rdx),
    mulxq (reg rdx) rax rbx,
    movq (mem p1 1) (reg rdx),
    mulxq (reg rdx) r8 r9,
    movq (reg rax) (mem p0 0),
    movq (reg rbx) (mem p0 1),
    movq (reg r8) (mem p0 2),
    movq (reg r9) (mem p0 3),
    movq (mem p1 2) (reg rdx),
    mulxq (reg rdx) r10 r11,
    movq (mem p1 3) (reg rdx),
    mulxq (reg rdx) r12 r13,
    movq (reg r10) (mem p0 4),
    movq (reg r11) (mem p0 5),
    movq (reg r12) (mem p0 6),
    movq (reg r13) (mem p0 7),
    movq (mem p1 4) (reg rdx),
    mulxq (reg rdx) rax rbx,
    movq (mem p1 5) (reg rdx),
    mulxq (reg rdx) r8 r9,
    movq (reg rax) (mem p0 8),
    movq (reg rbx) (mem p0 9),
    movq (reg r8) (mem p0 10),
    movq (reg r9) (mem p0 11),
    movq (mem p1 6) (reg rdx),
    mulxq (reg rdx) r10 r11,
    movq (reg r10) (mem p0 12),
    movq (reg r11) (mem p0 13),
    movq (mem p1 0) (reg rdx),
    mulxq (mem p1 1) r8 r9, xorl r10, adox (reg r8) r8,
    mulxq (mem p1 2) r10 r11, adcx (reg r10) r9, adox (reg r9) r9,
    mulxq (mem p1 3) r12 r13, adcx (reg r12) r11, adox (reg r11) r11,
    mulxq (mem p1 4) r14 rax, adcx (reg r14) r13, adox (reg r13) r13,
    mulxq (mem p1 5) r10 rbx, adcx (reg r10) rax, adox (reg rax) rax,
    mulxq (mem p1 6) r12 rcx, adcx (reg r12) rbx, adox (reg rbx) rbx,
    movq (mem p1 3) (reg rdx), movq (imm 0) (reg r12), movq (imm 0) (reg r10),
    mulxq (mem p1 4) r14 rdx, adcx (reg r14) rcx, adox (reg rcx) rcx,
    adcx (reg r12) rdx, adox (reg rdx) rdx,
    adox (reg r12) r10,
    addq (mem p0 1) r8, movq (reg r8) (mem p0 1),
    adcq (mem p0 2) r9, movq (reg r9) (mem p0 2),
    adcq (mem p0 3) r11, movq (reg r11) (mem p0 3),
    adcq (mem p0 4) r13, movq (reg r13) (mem p0 4),
    adcq (mem p0 5) rax, movq (reg rax) (mem p0 5),
    adcq (mem p0 6) rbx, movq (reg rbx) (mem p0 6),
    adcq (mem p0 7) rcx, movq (reg rcx) (mem p0 7),
    adcq (mem p0 8) rdx, movq (reg rdx) (mem p0 8),
    adcq (mem p0 9) r10, movq (reg r10) (mem p0 9),
    movq (mem p1 1) (reg rdx),
    mulxq (mem p1 2) r8 r9, xorl r10, adox (reg r8) r8,
    mulxq (mem p1 3) r10 r11, adcx (reg r10) r9, adox (reg r9) r9,
    mulxq (mem p1 4) r12 r13, adcx (reg r12) r11, adox (reg r11) r11,
    mulxq (mem p1 5) r14 rax, adcx (reg r14) r13, adox (reg r13) r13,
    mulxq (mem p1 6) r10 rbx, adcx (reg r10) rax, adox (reg rax) rax,
    movq (mem p1 5) (reg rdx),
    mulxq (mem p1 3) r12 rcx, adcx (reg r12) rbx, adox (reg rbx) rbx,
    mulxq (mem p1 4) r14 rdx, adcx (reg r14) rcx, adox (reg rcx) rcx,
    movq (imm 0) (reg r12), movq (imm 0) (reg r10),
    adcx (reg r12) rdx, adox (reg rdx) rdx,
    adox (reg r12) r10,
    addq (mem p0 3) r8, movq (reg r8) (mem p0 3),
    adcq (mem p0 4) r9, movq (reg r9) (mem p0 4),
    adcq (mem p0 5) r11, movq (reg r11) (mem p0 5),
    adcq (mem p0 6) r13, movq (reg r13) (mem p0 6),
    adcq (mem p0 7) rax, movq (reg rax) (mem p0 7),
    adcq (mem p0 8) rbx, movq (reg rbx) (mem p0 8),
    adcq (mem p0 9) rcx, movq (reg rcx) (mem p0 9),
    adcq (mem p0 10) rdx, movq (reg rdx) (mem p0 10),
    adcq (mem p0 11) r10, movq (reg r10) (mem p0 11),
    movq (mem p1 2) (reg rdx),
    mulxq (mem p1 3) r8 r9, xorl r10, adox (reg r8) r8,
    mulxq (mem p1 4) r10 r11, adcx (reg r10) r9, adox (reg r9) r9,
    mulxq (mem p1 5) r12 r13, adcx (reg r12) r11, adox (reg r11) r11,
    mulxq (mem p1 6) r14 rax, adcx (reg r14) r13, adox (reg r13) r13,
    movq (mem p1 6) (reg rdx),
    mulxq (mem p1 3) r10 rbx, adcx (reg r10) rax, adox (reg rax) rax,
    mulxq (mem p1 4) r12 rcx, adcx (reg r12) rbx, adox (reg rbx) rbx,
    mulxq (mem p1 5) r14 rdx, adcx (reg r14) rcx, adox (reg rcx) rcx,
    movq (imm 0) (reg r12), movq (imm 0) (reg r10),
    adcx (reg r12) rdx, adox (reg rdx) rdx,
    adox (reg r12) r10,
    addq (mem p0 5) r8, movq (reg r8) (mem p0 5),
    adcq (mem p0 6) r9, movq (reg r9) (mem p0 6),
    adcq (mem p0 7) r11, movq (reg r11) (mem p0 7),
    adcq (mem p0 8) r13, movq (reg r13) (mem p0 8),
    adcq (mem p0 9) rax, movq (reg rax) (mem p0 9),
    adcq (mem p0 10) rbx, movq (reg rbx) (mem p0 10),
    adcq (mem p0 11) rcx, movq (reg rcx) (mem p0 11),
    adcq (mem p0 12) rdx, movq (reg rdx) (mem p0 12),
    adcq (mem p0 13) r10, movq (reg r10) (mem p0 13)]

/-- `intmul_mulx`: src/eltfp448_1w_fullradix.c:237-272. -/
def intmul_mulx : Block where
  clobbers := [rax, rbx, rcx, rdx, r8, r9, r10, r11, r12, r13, r14]
  memory := true
  cc := true
  code := [
    movq (mem p1 0) (reg rdx),
    mulxq (mem p2 0) rax r8, movq (reg rax) (mem p0 0),
    mulxq (mem p2 1) rax r9, addq (reg rax) r8,
    mulxq (mem p2 2) rax r10, adcq (reg rax) r9,
    mulxq (mem p2 3) rax r11, adcq (reg rax) r10,
    mulxq (mem p2 4) rax r12, adcq (reg rax) r11,
    mulxq (mem p2 5) rax r13, adcq (reg rax) r12,
    mulxq (mem p2 6) rax r14, adcq (reg rax) r13,
    adcq (imm 0) r14,
    movq (mem p1 1) (reg rdx), mulxq (mem p2 0) rax rcx, addq (reg rax) r8,
    movq (reg r8) (mem p0 1), mulxq (mem p2 1) rax rbx, adcq (reg rax) r9, adcq (imm 0) rbx,
    addq (reg rcx) r9, mulxq (mem p2 2) rax rcx, adcq (reg rax) r10, adcq (imm 0) rcx,
    addq (reg rbx) r10, mulxq (mem p2 3) rax rbx, adcq (reg rax) r11, adcq (imm 0) rbx,
    addq (reg rcx) r11, mulxq (mem p2 4) rax rcx, adcq (reg rax) r12, adcq (imm 0) rcx,
    addq (reg rbx) r12, mulxq (mem p2 5) rax rbx, adcq (reg rax) r13, adcq (imm 0) rbx,
    addq (reg rcx) r13, mulxq (mem p2 6) rax r8, adcq (reg rax) r14, adcq (imm 0) r8,
    addq (reg rbx) r14, adcq (imm 0) r8,
    movq (mem p1 2) (reg rdx), mulxq (mem p2 0) rax rcx, addq (reg rax) r9,
    movq (reg r9) (mem p0 2), mulxq (mem p2 1) rax rbx, adcq (reg rax) r10, adcq (imm 0) rbx,
    addq (reg rcx) r10, mulxq (mem p2 2) rax rcx, adcq (reg rax) r11, adcq (imm 0) rcx,
    addq (reg rbx) r11, mulxq (mem p2 3) rax rbx, adcq (reg rax) r12, adcq (imm 0) rbx,
    addq (reg rcx) r12, mulxq (mem p2 4) rax rcx, adcq (reg rax) r13, adcq (imm 0) rcx,
    addq (reg rbx) r13, mulxq (mem p2 5) rax rbx, adcq (reg rax) r14, adcq (imm 0) rbx,
    addq (reg rcx) r14, mulxq (mem p2 6) rax r9, adcq (reg rax) r8, adcq (imm 0) r9,
    addq (reg rbx) r8, adcq (imm 0) r9,
    movq (mem p1 3) (reg rdx), mulxq (mem p2 0) rax rcx, addq (reg rax) r10,
    movq (reg r10) (mem p0 3), mulxq (mem p2 1) rax rbx, adcq (reg rax) r11,
    adcq (imm 0) rbx, addq (reg rcx) r11, mulxq (mem p2 2) rax rcx, adcq (reg rax) r12,
    adcq (imm 0) rcx, addq (reg rbx) r12, mulxq (mem p2 3) rax rbx, adcq (reg rax) r13,
    adcq (imm 0) rbx, addq (reg rcx) r13, mulxq (mem p2 4) rax rcx, adcq (reg rax) r14,
    adcq (imm 0) rcx, addq (reg rbx) r14, mulxq (mem p2 5) rax rbx, adcq (reg rax) r8,
    adcq (imm 0) rbx, addq (reg rcx) r8, mulxq (mem p2 6) rax r10, adcq (reg rax) r9,
    adcq (imm 0) r10, addq (reg rbx) r9, adcq (imm 0) r10,
    movq (mem p1 4) (reg rdx), mulxq (mem p2 0) rax rcx, addq (reg rax) r11,
    movq (reg r11) (mem p0 4), mulxq (mem p2 1) rax rbx, adcq (reg rax) r12,
    adcq (imm 0) rbx, addq (reg rcx) r12, mulxq (mem p2 2) rax rcx, adcq (reg rax) r13,
    adcq (imm 0) rcx, addq (reg rbx) r13, mulxq (mem p2 3) rax rbx, adcq (reg rax) r14,
    adcq (imm 0) rbx, addq (reg rcx) r14, mulxq (mem p2 4) rax rcx, adcq (reg rax) r8,
    adcq (imm 0) rcx, addq (reg rbx) r8, mulxq (mem p2 5) rax rbx, adcq (reg rax) r9,
    adcq (imm 0) rbx, addq (reg rcx) r9, mulxq (mem p2 6) rax r11, adcq (reg rax) r10,
    adcq (imm 0) r11, addq (reg rbx) r10, adcq (imm 0) r11,
    movq (mem p1 5) (reg rdx), mulxq (mem p2 0) rax rcx, addq (reg rax) r12,
    movq (reg r12) (mem p0 5), mulxq (mem p2 1) rax rbx, adcq (reg rax) r13,
    adcq (imm 0) rbx, addq (reg rcx) r13, mulxq (mem p2 2) rax rcx, adcq (reg rax) r14,
    adcq (imm 0) rcx, addq (reg rbx) r14, mulxq (mem p2 3) rax rbx, adcq (reg rax) r8,
    adcq (imm 0) rbx, addq (reg rcx) r8, mulxq (mem p2 4) rax rcx, adcq (reg rax) r9,
    adcq (imm 0) rcx, addq (reg rbx) r9, mulxq (mem p2 5) rax rbx, adcq (reg rax) r10,
    adcq (imm 0) rbx, addq (reg rcx) r10, mulxq (mem p2 6) rax r12, adcq (reg rax) r11,
    adcq (imm 0) r12, addq (reg rbx) r11, adcq (imm 0) r12,
    movq (mem p1 6) (reg rdx), mulxq (mem p2 0) rax rcx, addq (reg rax) r13,
    movq (reg r13) (mem p0 6), mulxq (mem p2 1) rax rbx, adcq (reg rax) r14,
    adcq (imm 0) rbx, addq (reg rcx) r14, mulxq (mem p2 2) rax rcx, adcq (reg rax) r8,
    adcq (imm 0) rcx, addq (reg rbx) r8, mulxq (mem p2 3) rax rbx, adcq (reg rax) r9,
    adcq (imm 0) rbx, addq (reg rcx) r9, mulxq (mem p2 4) rax rcx, adcq (reg rax) r10,
    adcq (imm 0) rcx, addq (reg rbx) r10, mulxq (mem p2 5) rax rbx, adcq (reg rax) r11,
    adcq (imm 0) rbx, addq (reg rcx) r11, mulxq (mem p2 6) rax r13, adcq (reg rax) r12,
    adcq (imm 0) r13, addq (reg rbx) r12, adcq (imm 0) r13,
    movq (reg r14) (mem p0 7),
    movq (reg r8) (mem p0 8),
    movq (reg r9) (mem p0 9),
    movq (reg r10) (mem p0 10),
    movq (reg r11) (mem p0 11),
    movq (reg r12) (mem p0 12),
    movq (reg r13) (mem p0 13)]

/-- `intsqr_mulx`: src/eltfp448_1w_fullradix.c:443-564. -/
def intsqr_mulx : Block where
  clobbers := [rax, rbx, rcx, rdx, r8, r9, r10, r11, r12, r13, r14]
  memory := true
  cc := true
  code := [
    movq (mem p1 0) (reg rdx),
    mulxq (reg rdx) rax rbx,
    movq (mem p1 1) (reg rdx),
    mulxq (reg rdx) r8 r9,
    movq (reg rax) (mem p0 0),
    movq (reg rbx) (mem p0 1),
    movq (reg r8) (mem p0 2),
    movq (reg r9) (mem p0 3),
    movq (mem p1 2) (reg rdx),
    mulxq (reg rdx) r10 r11,
    movq (mem p1 3) (reg rdx),
    mulxq (reg rdx) r12 r13,
    movq (reg r10) (mem p0 4),
    movq (reg r11) (mem p0 5),
    movq (reg r12) (mem p0 6),
    movq (reg r13) (mem p0 7),
    movq (mem p1 4) (reg rdx),
    mulxq (reg rdx) rax rbx,
    movq (mem p1 5) (reg rdx),
    mulxq (reg rdx) r8 r9,
    movq (reg rax) (mem p0 8),
    movq (reg rbx) (mem p0 9),
    movq (reg r8) (mem p0 10),
    movq (reg r9) (mem p0 11),
    movq (mem p1 6) (reg rdx),
    mulxq (reg rdx) r10 r11,
    movq (reg r10) (mem p0 12),
    movq (reg r11) (mem p0 13),
    movq (mem p1 0) (reg rdx),
    mulxq (mem p1 1) r8 r9,
    mulxq (mem p1 2) r10 r11, addq (reg r10) r9,
    mulxq (mem p1 3) r12 r13, adcq (reg r12) r11,
    mulxq (mem p1 4) r14 rax, adcq (reg r14) r13,
    mulxq (mem p1 5) r10 rbx, adcq (reg r10) rax,
    mulxq (mem p1 6) r12 rcx, adcq (reg r12) rbx,
    movq (mem p1 3) (reg rdx),
    mulxq (mem p1 4) r14 rdx, adcq (reg r14) rcx,
    adcq (imm 0) rdx,
    xorl r10,
    shldq 1 rdx r10,
    shldq 1 rcx rdx,
    shldq 1 rbx rcx,
    shldq 1 rax rbx,
    shldq 1 r13 rax,
    shldq 1 r11 r13,
    shldq 1 r9 r11,
    shldq 1 r8 r9,
    shlq 1 r8,
    addq (mem p0 1) r8, movq (reg r8) (mem p0 1),
    adcq (mem p0 2) r9, movq (reg r9) (mem p0 2),
    adcq (mem p0 3) r11, movq (reg r11) (mem p0 3),
    adcq (mem p0 4) r13, movq (reg r13) (mem p0 4),
    adcq (mem p0 5) rax, movq (reg rax) (mem p0 5),
    adcq (mem p0 6) rbx, movq (reg rbx) (mem p0 6),
    adcq (mem p0 7) rcx, movq (reg rcx) (mem p0 7),
    adcq (mem p0 8) rdx, movq (reg rdx) (mem p0 8),
    adcq (mem p0 9) r10, movq (reg r10) (mem p0 9),
    movq (mem p1 1) (reg rdx),
    mulxq (mem p1 2) r8 r9,
    mulxq (mem p1 3) r10 r11, addq (reg r10) r9,
    mulxq (mem p1 4) r12 r13, adcq (reg r12) r11,
    mulxq (mem p1 5) r14 rax, adcq (reg r14) r13,
    mulxq (mem p1 6) r10 rbx, adcq (reg r10) rax,
    movq (mem p1 5) (reg rdx),
    mulxq (mem p1 3) r12 rcx, adcq (reg r12) rbx,
    mulxq (mem p1 4) r14 rdx, adcq (reg r14) rcx,
    adcq (imm 0) rdx,
    xorl r10,
    shldq 1 rdx r10,
    shldq 1 rcx rdx,
    shldq 1 rbx rcx,
    shldq 1 rax rbx,
    shldq 1 r13 rax,
    shldq 1 r11 r13,
    shldq 1 r9 r11,
    shldq 1 r8 r9,
    shlq 1 r8,
    addq (mem p0 3) r8, movq (reg r8) (mem p0 3),
    adcq (mem p0 4) r9, movq (reg r9) (mem p0 4),
    adcq (mem p0 5) r11, movq (reg r11) (mem p0 5),
    adcq (mem p0 6) r13, movq (reg r13) (mem p0 6),
    adcq (mem p0 7) rax, movq (reg rax) (mem p0 7),
    adcq (mem p0 8) rbx, movq (reg rbx) (mem p0 8),
    adcq (mem p0 9) rcx, movq (reg rcx) (mem p0 9),
    adcq (mem p0 10) rdx, movq (reg rdx) (mem p0 10),
    adcq (mem p0 11) r10, movq (reg r10) (mem p0 11),
    movq (mem p1 2) (reg rdx),
    mulxq (mem p1 3) r8 r9,
    mulxq (mem p1 4) r10 r11, addq (reg r10) r9,
    mulxq (mem p1 5) r12 r13, adcq (reg r12) r11,
    mulxq (mem p1 6) r14 rax, adcq (reg r14) r13,
    movq (mem p1 6) (reg rdx),
    mulxq (mem p1 3) r10 rbx, adcq (reg r10) rax,
    mulxq (mem p1 4) r12 rcx, adcq (reg r12) rbx,
    mulxq (mem p1 5) r14 rdx, adcq (reg r14) rcx,
    adcq (imm 0) rdx,
    xorl r10,
    shldq 1 rdx r10,
    shldq 1 rcx rdx,
    shldq 1 rbx rcx,
    shldq 1 rax rbx,
    shldq 1 r13 rax,
    shldq 1 r11 r13,
    shldq 1 r9 r11,
    shldq 1 r8 r9,
    shlq 1 r8,
    addq (mem p0 5) r8, movq (reg r8) (mem p0 5),
    adcq (mem p0 6) r9, movq (reg r9) (mem p0 6),
    adcq (mem p0 7) r11, movq (reg r11) (mem p0 7),
    adcq (mem p0 8) r13, movq (reg r13) (mem p0 8),
    adcq (mem p0 9) rax, movq (reg rax) (mem p0 9),
    adcq (mem p0 10) rbx, movq (reg rbx) (mem p0 10),
    adcq (mem p0 11) rcx, movq (reg rcx) (mem p0 11),
    adcq (mem p0 12) rdx, movq (reg rdx) (mem p0 12),
    adcq (mem p0 13) r10, movq (reg r10) (mem p0 13)]

/-- `intmul_mulq`: src/eltfp448_1w_fullradix.c:282-316. -/
def intmul_mulq : Block where
  clobbers := [rax, rcx, rdx, r8, r9, r10, r11, r12, r13, r14]
  memory := true
  cc := true
  code := [
    movq (mem p1 0) (reg rcx),
    movq (mem p2 0) (reg rax), mulq (reg rcx), movq (reg rax) (mem p0 0),
    movq (reg rdx) (reg r8),
    movq (mem p2 1) (reg rax), mulq (reg rcx), addq (reg rax) r8, adcq (imm 0) rdx,
    movq (reg rdx) (reg r9),
    movq (mem p2 2) (reg rax), mulq (reg rcx), addq (reg rax) r9, adcq (imm 0) rdx,
    movq (reg rdx) (reg r10),
    movq (mem p2 3) (reg rax), mulq (reg rcx), addq (reg rax) r10, adcq (imm 0) rdx,
    movq (reg rdx) (reg r11),
    movq (mem p2 4) (reg rax), mulq (reg rcx), addq (reg rax) r11, adcq (imm 0) rdx,
    movq (reg rdx) (reg r12),
    movq (mem p2 5) (reg rax), mulq (reg rcx), addq (reg rax) r12, adcq (imm 0) rdx,
    movq (reg rdx) (reg r13),
    movq (mem p2 6) (reg rax), mulq (reg rcx), addq (reg rax) r13, adcq (imm 0) rdx,
    movq (reg rdx) (reg r14),
    movq (mem p1 1) (reg rcx), movq (mem p2 0) (reg rax), mulq (reg rcx), addq (reg rax) r8,
    movq (reg r8) (mem p0 1), movq (reg rdx) (reg r8), adcq (imm 0) r8,
    movq (mem p2 1) (reg rax), mulq (reg rcx), addq (reg rax) r9, adcq (imm 0) rdx,
    addq (reg r9) r8, movq (reg rdx) (reg r9), adcq (imm 0) r9, movq (mem p2 2) (reg rax),
    mulq (reg rcx), addq (reg rax) r10, adcq (imm 0) rdx, addq (reg r10) r9,
    movq (reg rdx) (reg r10), adcq (imm 0) r10, movq (mem p2 3) (reg rax), mulq (reg rcx),
    addq (reg rax) r11, adcq (imm 0) rdx, addq (reg r11) r10, movq (reg rdx) (reg r11),
    adcq (imm 0) r11, movq (mem p2 4) (reg rax), mulq (reg rcx), addq (reg rax) r12,
    adcq (imm 0) rdx, addq (reg r12) r11, movq (reg rdx) (reg r12), adcq (imm 0) r12,
    movq (mem p2 5) (reg rax), mulq (reg rcx), addq (reg rax) r13, adcq (imm 0) rdx,
    addq (reg r13) r12, movq (reg rdx) (reg r13), adcq (imm 0) r13,
    movq (mem p2 6) (reg rax), mulq (reg rcx), addq (reg rax) r14, adcq (imm 0) rdx,
    addq (reg r14) r13, movq (reg rdx) (reg r14), adcq (imm 0) r14,
    movq (mem p1 2) (reg rcx), movq (mem p2 0) (reg rax), mulq (reg rcx), addq (reg rax) r8,
    movq (reg r8) (mem p0 2), movq (reg rdx) (reg r8), adcq (imm 0) r8,
    movq (mem p2 1) (reg rax), mulq (reg rcx), addq (reg rax) r9, adcq (imm 0) rdx,
    addq (reg r9) r8, movq (reg rdx) (reg r9), adcq (imm 0) r9, movq (mem p2 2) (reg rax),
    mulq (reg rcx), addq (reg rax) r10, adcq (imm 0) rdx, addq (reg r10) r9,
    movq (reg rdx) (reg r10), adcq (imm 0) r10, movq (mem p2 3) (reg rax), mulq (reg rcx),
    addq (reg rax) r11, adcq (imm 0) rdx, addq (reg r11) r10, movq (reg rdx) (reg r11),
    adcq (imm 0) r11, movq (mem p2 4) (reg rax), mulq (reg rcx), addq (reg rax) r12,
    adcq (imm 0) rdx, addq (reg r12) r11, movq (reg rdx) (reg r12), adcq (imm 0) r12,
    movq (mem p2 5) (reg rax), mulq (reg rcx), addq (reg rax) r13, adcq (imm 0) rdx,
    addq (reg r13) r12, movq (reg rdx) (reg r13), adcq (imm 0) r13,
    movq (mem p2 6) (reg rax), mulq (reg rcx), addq (reg rax) r14, adcq (imm 0) rdx,
    addq (reg r14) r13, movq (reg rdx) (reg r14), adcq (imm 0) r14,
    movq (mem p1 3) (reg rcx), movq (mem p2 0) (reg rax), mulq (reg rcx), addq (reg rax) r8,
    movq (reg r8) (mem p0 3), movq (reg rdx) (reg r8), adcq (imm 0) r8,
    movq (mem p2 1) (reg rax), mulq (reg rcx), addq (reg rax) r9, adcq (imm 0) rdx,
    addq (reg r9) r8, movq (reg rdx) (reg r9), adcq (imm 0) r9, movq (mem p2 2) (reg rax),
    mulq (reg rcx), addq (reg rax) r10, adcq (imm 0) rdx, addq (reg r10) r9,
    movq (reg rdx) (reg r10), adcq (imm 0) r10, movq (mem p2 3) (reg rax), mulq (reg rcx),
    addq (reg rax) r11, adcq (imm 0) rdx, addq (reg r11) r10, movq (reg rdx) (reg r11),
    adcq (imm 0) r11, movq (mem p2 4) (reg rax), mulq (reg rcx), addq (reg rax) r12,
    adcq (imm 0) rdx, addq (reg r12) r11, movq (reg rdx) (reg r12), adcq (imm 0) r12,
    movq (mem p2 5) (reg rax), mulq (reg rcx), addq (reg rax) r13, adcq (imm 0) rdx,
    addq (reg r13) r12, movq (reg rdx) (reg r13), adcq (imm 0) r13,
    movq (mem p2 6) (reg rax), mulq (reg rcx), addq (reg rax) r14, adcq (imm 0) rdx,
    addq (reg r14) r13, movq (reg rdx) (reg r14), adcq (imm 0) r14,
    movq (mem p1 4) (reg rcx), movq (mem p2 0) (reg rax), mulq (reg rcx), addq (reg rax) r8,
    movq (reg r8) (mem p0 4), movq (reg rdx) (reg r8), adcq (imm 0) r8,
    movq (mem p2 1) (reg rax), mulq (reg rcx), addq (reg rax) r9, adcq (imm 0) rdx,
    addq (reg r9) r8, movq (reg rdx) (reg r9), adcq (imm 0) r9, movq (mem p2 2) (reg rax),
    mulq (reg rcx), addq (reg rax) r10, adcq (imm 0) rdx, addq (reg r10) r9,
    movq (reg rdx) (reg r10), adcq (imm 0) r10, movq (mem p2 3) (reg rax), mulq (reg rcx),
    addq (reg rax) r11, adcq (imm 0) rdx, addq (reg r11) r10, movq (reg rdx) (reg r11),
    adcq (imm 0) r11, movq (mem p2 4) (reg rax), mulq (reg rcx), addq (reg rax) r12,
    adcq (imm 0) rdx, addq (reg r12) r11, movq (reg rdx) (reg r12), adcq (imm 0) r12,
    movq (mem p2 5) (reg rax), mulq (reg rcx), addq (reg rax) r13, adcq (imm 0) rdx,
    addq (reg r13) r12, movq (reg rdx) (reg r13), adcq (imm 0) r13,
    movq (mem p2 6) (reg rax), mulq (reg rcx), addq (reg rax) r14, adcq (imm 0) rdx,
    addq (reg r14) r13, movq (reg rdx) (reg r14), adcq (imm 0) r14,
    movq (mem p1 5) (reg rcx), movq (mem p2 0) (reg rax), mulq (reg rcx), addq (reg rax) r8,
    movq (reg r8) (mem p0 5), movq (reg rdx) (reg r8), adcq (imm 0) r8,
    movq (mem p2 1) (reg rax), mulq (reg rcx), addq (reg rax) r9, adcq (imm 0) rdx,
    addq (reg r9) r8, movq (reg rdx) (reg r9), adcq (imm 0) r9, movq (mem p2 2) (reg rax),
    mulq (reg rcx), addq (reg rax) r10, adcq (imm 0) rdx, addq (reg r10) r9,
    movq (reg rdx) (reg r10), adcq (imm 0) r10, movq (mem p2 3) (reg rax), mulq (reg rcx),
    addq (reg rax) r11, adcq (imm 0) rdx, addq (reg r11) r10, movq (reg rdx) (reg r11),
    adcq (imm 0) r11, movq (mem p2 4) (reg rax), mulq (reg rcx), addq (reg rax) r12,
    adcq (imm 0) rdx, addq (reg r12) r11, movq (reg rdx) (reg r12), adcq (imm 0) r12,
    movq (mem p2 5) (reg rax), mulq (reg rcx), addq (reg rax) r13, adcq (imm 0) rdx,
    addq (reg r13) r12, movq (reg rdx) (reg r13), adcq (imm 0) r13,
    movq (mem p2 6) (reg rax), mulq (reg rcx), addq (reg rax) r14, adcq (imm 0) rdx,
    addq (reg r14) r13, movq (reg rdx) (reg r14), adcq (imm 0) r14,
    movq (mem p1 6) (reg rcx), movq (mem p2 0) (reg rax), mulq (reg rcx), addq (reg rax) r8,
    movq (reg r8) (mem p0 6), movq (reg rdx) (reg r8), adcq (imm 0) r8,
    movq (mem p2 1) (reg rax), mulq (reg rcx), addq (reg rax) r9, adcq (imm 0) rdx,
    addq (reg r9) r8, movq (reg rdx) (reg r9), adcq (imm 0) r9, movq (mem p2 2) (reg rax),
    mulq (reg rcx), addq (reg rax) r10, adcq (imm 0) rdx, addq (reg r10) r9,
    movq (reg rdx) (reg r10), adcq (imm 0) r10, movq (mem p2 3) (reg rax), mulq (reg rcx),
    addq (reg rax) r11, adcq (imm 0) rdx, addq (reg r11) r10, movq (reg rdx) (reg r11),
    adcq (imm 0) r11, movq (mem p2 4) (reg rax), mulq (reg rcx), addq (reg rax) r12,
    adcq (imm 0) rdx, addq (reg r12) r11, movq (reg rdx) (reg r12), adcq (imm 0) r12,
    movq (mem p2 5) (reg rax), mulq (reg rcx), addq (reg rax) r13, adcq (imm 0) rdx,
    addq (reg r13) r12, movq (reg rdx) (reg r13), adcq (imm 0) r13,
    movq (mem p2 6) (reg rax), mulq (reg rcx), addq (reg rax) r14, adcq (imm 0) rdx,
    addq (reg r14) r13, movq (reg rdx) (reg r14), adcq (imm 0) r14,
    movq (reg r8) (mem p0 7),
    movq (reg r9) (mem p0 8),
    movq (reg r10) (mem p0 9),
    movq (reg r11) (mem p0 10),
    movq (reg r12) (mem p0 11),
    movq (reg r13) (mem p0 12),
    movq (reg r14) (mem p0 13)]

/-- `intsqr_mulq`: src/eltfp448_1w_fullradix.c:587-676. -/
def intsqr_mulq : Block where
  clobbers := [rax, rcx, rdx, r8, r9, r10, r11, r12, r13, r14, r15]
  memory := true
  cc := true
  code := [
    movq (mem p1 0) (reg rcx),
    movq (mem p1 1) (reg rax), mulq (reg rcx), movq (reg rax) (reg r8),
    movq (reg rdx) (reg r9),
    movq (mem p1 2) (reg rax), mulq (reg rcx), addq (reg rax) r9, adcq (imm 0) rdx,
    movq (reg rdx) (reg r10),
    movq (mem p1 3) (reg rax), mulq (reg rcx), addq (reg rax) r10, adcq (imm 0) rdx,
    movq (reg rdx) (reg r11),
    movq (mem p1 4) (reg rax), mulq (reg rcx), addq (reg rax) r11, adcq (imm 0) rdx,
    movq (reg rdx) (reg r12),
    movq (mem p1 5) (reg rax), mulq (reg rcx), addq (reg rax) r12, adcq (imm 0) rdx,
    movq (reg rdx) (reg r13),
    movq (mem p1 6) (reg rax), mulq (reg rcx), addq (reg rax) r13, adcq (imm 0) rdx,
    movq (reg rdx) (reg r14),
    movq (mem p1 3) (reg rax), mulq (mem p1 4), addq (reg rax) r14, adcq (imm 0) rdx,
    movq (reg rdx) (reg r15),
    xorl rcx, shldq 1 r15 rcx, shldq 1 r14 r15, shldq 1 r13 r14, shldq 1 r12 r13,
    shldq 1 r11 r12, shldq 1 r10 r11, shldq 1 r9 r10, shldq 1 r8 r9, shlq 1 r8,
    movq (reg rcx) (mem p0 9),
    movq (reg r15) (mem p0 8),
    movq (reg r14) (mem p0 7),
    movq (reg r13) (mem p0 6),
    movq (reg r12) (mem p0 5),
    movq (reg r11) (mem p0 4),
    movq (reg r10) (mem p0 3),
    movq (reg r9) (mem p0 2),
    movq (reg r8) (mem p0 1),
    movq (mem p1 1) (reg rcx),
    movq (mem p1 2) (reg rax), mulq (reg rcx), movq (reg rax) (reg r8),
    movq (reg rdx) (reg r9),
    movq (mem p1 3) (reg rax), mulq (reg rcx), addq (reg rax) r9, adcq (imm 0) rdx,
    movq (reg rdx) (reg r10),
    movq (mem p1 4) (reg rax), mulq (reg rcx), addq (reg rax) r10, adcq (imm 0) rdx,
    movq (reg rdx) (reg r11),
    movq (mem p1 5) (reg rax), mulq (reg rcx), addq (reg rax) r11, adcq (imm 0) rdx,
    movq (reg rdx) (reg r12),
    movq (mem p1 6) (reg rax), mulq (reg rcx), addq (reg rax) r12, adcq (imm 0) rdx,
    movq (reg rdx) (reg r13),
    movq (mem p1 5) (reg rcx),
    movq (mem p1 3) (reg rax), mulq (reg rcx), addq (reg rax) r13, adcq (imm 0) rdx,
    movq (reg rdx) (reg r14),
    movq (mem p1 4) (reg rax), mulq (reg rcx), addq (reg rax) r14, adcq (imm 0) rdx,
    movq (reg rdx) (reg r15),
    xorl rcx, shldq 1 r15 rcx, shldq 1 r14 r15, shldq 1 r13 r14, shldq 1 r12 r13,
    shldq 1 r11 r12, shldq 1 r10 r11, shldq 1 r9 r10, shldq 1 r8 r9, shlq 1 r8,
    addq (mem p0 3) r8, movq (reg r8) (mem p0 3),
    adcq (mem p0 4) r9, movq (reg r9) (mem p0 4),
    adcq (mem p0 5) r10, movq (reg r10) (mem p0 5),
    adcq (mem p0 6) r11, movq (reg r11) (mem p0 6),
    adcq (mem p0 7) r12, movq (reg r12) (mem p0 7),
    adcq (mem p0 8) r13, movq (reg r13) (mem p0 8),
    adcq (mem p0 9) r14, movq (reg r14) (mem p0 9),
    adcq (imm 0) r15, movq (reg r15) (mem p0 10),
    adcq (imm 0) rcx, movq (reg rcx) (mem p0 11),
    movq (mem p1 2) (reg rcx),
    movq (mem p1 3) (reg rax), mulq (reg rcx), movq (reg rax) (reg r8),
    movq (reg rdx) (reg r9),
    movq (mem p1 4) (reg rax), mulq (reg rcx), addq (reg rax) r9, adcq (imm 0) rdx,
    movq (reg rdx) (reg r10),
    movq (mem p1 5) (reg rax), mulq (reg rcx), addq (reg rax) r10, adcq (imm 0) rdx,
    movq (reg rdx) (reg r11),
    movq (mem p1 6) (reg rax), mulq (reg rcx), addq (reg rax) r11, adcq (imm 0) rdx,
    movq (reg rdx) (reg r12),
    movq (mem p1 6) (reg rcx),
    movq (mem p1 3) (reg rax), mulq (reg rcx), addq (reg rax) r12, adcq (imm 0) rdx,
    movq (reg rdx) (reg r13),
    movq (mem p1 4) (reg rax), mulq (reg rcx), addq (reg rax) r13, adcq (imm 0) rdx,
    movq (reg rdx) (reg r14),
    movq (mem p1 5) (reg rax), mulq (reg rcx), addq (reg rax) r14, adcq (imm 0) rdx,
    movq (reg rdx) (reg r15),
    xorl rcx, shldq 1 r15 rcx, shldq 1 r14 r15, shldq 1 r13 r14, shldq 1 r12 r13,
    shldq 1 r11 r12, shldq 1 r10 r11, shldq 1 r9 r10, shldq 1 r8 r9, shlq 1 r8,
    addq (mem p0 5) r8, movq (reg r8) (mem p0 5),
    adcq (mem p0 6) r9, movq (reg r9) (mem p0 6),
    adcq (mem p0 7) r10, movq (reg r10) (mem p0 7),
    adcq (mem p0 8) r11, movq (reg r11) (mem p0 8),
    adcq (mem p0 9) r12, movq (reg r12) (mem p0 9),
    adcq (mem p0 10) r13, movq (reg r13) (mem p0 10),
    adcq (mem p0 11) r14, movq (reg r14) (mem p0 11),
    adcq (imm 0) r15, movq (reg r15) (mem p0 12),
    adcq (imm 0) rcx, movq (reg rcx) (mem p0 13),
    movq (mem p1 0) (reg rax), mulq (reg rax), movq (reg rax) (reg r8),
    movq (reg rdx) (reg r9),
    movq (mem p1 1) (reg rax), mulq (reg rax), movq (reg rax) (reg r10),
    movq (reg rdx) (reg r11),
    movq (mem p1 2) (reg rax), mulq (reg rax), movq (reg rax) (reg r12),
    movq (reg rdx) (reg r13),
    movq (mem p1 3) (reg rax), mulq (reg rax), movq (reg rax) (reg r14),
    movq (reg rdx) (reg r15),
    xorl rcx, movq (reg r8) (mem p0 0),
    addq (mem p0 1) r9, movq (reg r9) (mem p0 1),
    adcq (mem p0 2) r10, movq (reg r10) (mem p0 2),
    adcq (mem p0 3) r11, movq (reg r11) (mem p0 3),
    adcq (mem p0 4) r12, movq (reg r12) (mem p0 4),
    adcq (mem p0 5) r13, movq (reg r13) (mem p0 5),
    adcq (mem p0 6) r14, movq (reg r14) (mem p0 6),
    adcq (mem p0 7) r15, movq (reg r15) (mem p0 7),
    setcr rcx,
    movq (mem p1 4) (reg rax), mulq (reg rax), movq (reg rax) (reg r8),
    movq (reg rdx) (reg r9),
    movq (mem p1 5) (reg rax), mulq (reg rax), movq (reg rax) (reg r10),
    movq (reg rdx) (reg r11),
    movq (mem p1 6) (reg rax), mulq (reg rax), movq (reg rax) (reg r12),
    movq (reg rdx) (reg r13),
    btl0 rcx,
    adcq (mem p0 8) r8, movq (reg r8) (mem p0 8),
    adcq (mem p0 9) r9, movq (reg r9) (mem p0 9),
    adcq (mem p0 10) r10, movq (reg r10) (mem p0 10),
    adcq (mem p0 11) r11, movq (reg r11) (mem p0 11),
    adcq (mem p0 12) r12, movq (reg r12) (mem p0 12),
    adcq (mem p0 13) r13, movq (reg r13) (mem p0 13)]

/-- `reduce_adx`: src/eltfp448_1w_fullradix.c:702-771. -/
def reduce_adx : Block where
  clobbers := [rax, r8, r9, r10, r11, r12, r13, r14, r15]
  memory := true
  cc := true
  code := [
    movq (mem p1 10) (reg rax), movq (reg rax) (reg r10),
    movq (imm 18446744069414584320) (reg r8),
    andq (reg r8) r10,
    movq (imm 0) (reg r14),
    movq (mem p1 13) (reg r13), shldq 1 r13 r14,
    movq (mem p1 12) (reg r12), shldq 1 r12 r13,
    movq (mem p1 11) (reg r11), shldq 1 r11 r12,
    movq (mem p1 9) (reg r9), shldq 1 r10 r11,
    movq (mem p1 8) (reg r8), shlq 1 r10,
    movq (imm 4294967295) (reg r15), andq (reg r15) rax, orq (reg rax) r10,
    movq (mem p1 7) (reg r15),
    xorl rax,
    adcx (mem p1 0) r15, movq (reg r15) (mem p0 0), movq (mem p1 7) (reg r15),
    adcx (mem p1 1) r8, movq (reg r8) (mem p0 1), movq (mem p1 8) (reg r8),
    adcx (mem p1 2) r9, movq (reg r9) (mem p0 2), movq (mem p1 9) (reg r9),
    adcx (mem p1 3) r10, movq (reg r10) (mem p0 3), movq (mem p1 10) (reg r10),
    adcx (mem p1 4) r11, movq (reg r11) (mem p0 4), movq (mem p1 11) (reg r11),
    adcx (mem p1 5) r12, movq (reg r12) (mem p0 5), movq (mem p1 12) (reg r12),
    adcx (mem p1 6) r13, movq (reg r13) (mem p0 6), movq (mem p1 13) (reg r13),
    adcx (reg rax) r14,
    movq (reg r10) (reg rax),
    shrdq 32 r11 r10,
    shrdq 32 r12 r11,
    shrdq 32 r13 r12,
    shrdq 32 r15 r13,
    shrdq 32 r8 r15,
    shrdq 32 r9 r8,
    shrdq 32 rax r9,
    xorl rax,
    adcx (mem p0 0) r10,
    adcx (mem p0 1) r11,
    adcx (mem p0 2) r12,
    adcx (mem p0 3) r13,
    adcx (mem p0 4) r15,
    adcx (mem p0 5) r8,
    adcx (mem p0 6) r9,
    adcx (reg rax) r14,
    movq (reg r14) (reg rax), shlq 32 rax,
    clcf,
    adcx (reg r14) r10, movq (imm 0) (reg r14),
    adcx (reg r14) r11,
    adcx (reg r14) r12,
    adcx (reg rax) r13,
    adcx (reg r14) r15,
    adcx (reg r14) r8,
    adcx (reg r14) r9,
    adcx (reg r14) r14,
    movq (reg r14) (reg rax), shlq 32 rax,
    clcf,
    adcx (reg r14) r10, movq (reg r10) (mem p0 0), movq (imm 0) (reg r14),
    adcx (reg r14) r11, movq (reg r11) (mem p0 1),
    adcx (reg r14) r12, movq (reg r12) (mem p0 2),
    adcx (reg rax) r13, movq (reg r13) (mem p0 3),
    adcx (reg r14) r15, movq (reg r15) (mem p0 4),
    adcx (reg r14) r8, movq (reg r8) (mem p0 5),
    adcx (reg r14) r9, movq (reg r9) (mem p0 6)]

/-- `reduce_leg`: src/eltfp448_1w_fullradix.c:784-849. -/
def reduce_leg : Block where
  clobbers := [rax, r8, r9, r10, r11, r12, r13, r14, r15]
  memory := true
  cc := true
  code := [
    movq (mem p1 10) (reg rax), movq (reg rax) (reg r10),
    movq (imm 18446744069414584320) (reg r8),
    andq (reg r8) r10,
    movq (imm 0) (reg r14),
    movq (mem p1 13) (reg r13), shldq 1 r13 r14,
    movq (mem p1 12) (reg r12), shldq 1 r12 r13,
    movq (mem p1 11) (reg r11), shldq 1 r11 r12,
    movq (mem p1 9) (reg r9), shldq 1 r10 r11,
    movq (mem p1 8) (reg r8), shlq 1 r10,
    movq (imm 4294967295) (reg r15), andq (reg r15) rax, orq (reg rax) r10,
    movq (mem p1 7) (reg r15),
    addq (mem p1 0) r15, movq (reg r15) (mem p0 0), movq (mem p1 7) (reg r15),
    adcq (mem p1 1) r8, movq (reg r8) (mem p0 1), movq (mem p1 8) (reg r8),
    adcq (mem p1 2) r9, movq (reg r9) (mem p0 2), movq (mem p1 9) (reg r9),
    adcq (mem p1 3) r10, movq (reg r10) (mem p0 3), movq (mem p1 10) (reg r10),
    adcq (mem p1 4) r11, movq (reg r11) (mem p0 4), movq (mem p1 11) (reg r11),
    adcq (mem p1 5) r12, movq (reg r12) (mem p0 5), movq (mem p1 12) (reg r12),
    adcq (mem p1 6) r13, movq (reg r13) (mem p0 6), movq (mem p1 13) (reg r13),
    adcq (imm 0) r14,
    movq (reg r10) (reg rax),
    shrdq 32 r11 r10,
    shrdq 32 r12 r11,
    shrdq 32 r13 r12,
    shrdq 32 r15 r13,
    shrdq 32 r8 r15,
    shrdq 32 r9 r8,
    shrdq 32 rax r9,
    addq (mem p0 0) r10,
    adcq (mem p0 1) r11,
    adcq (mem p0 2) r12,
    adcq (mem p0 3) r13,
    adcq (mem p0 4) r15,
    adcq (mem p0 5) r8,
    adcq (mem p0 6) r9,
    adcq (imm 0) r14,
    movq (reg r14) (reg rax), shlq 32 rax,
    addq (reg r14) r10, movq (imm 0) (reg r14),
    adcq (imm 0) r11,
    adcq (imm 0) r12,
    adcq (reg rax) r13,
    adcq (imm 0) r15,
    adcq (imm 0) r8,
    adcq (imm 0) r9,
    adcq (imm 0) r14,
    movq (reg r14) (reg rax), shlq 32 rax,
    addq (reg r14) r10, movq (reg r10) (mem p0 0),
    adcq (imm 0) r11, movq (reg r11) (mem p0 1),
    adcq (imm 0) r12, movq (reg r12) (mem p0 2),
    adcq (reg rax) r13, movq (reg r13) (mem p0 3),
    adcq (imm 0) r15, movq (reg r15) (mem p0 4),
    adcq (imm 0) r8, movq (reg r8) (mem p0 5),
    adcq (imm 0) r9, movq (reg r9) (mem p0 6)]

/-- `mula24_mulx`: src/eltfp448_1w_fullradix.c:1147-1178. -/
def mula24_mulx : Block where
  clobbers := [rax, rcx, rdx, r8, r9, r10, r11, r12, r13, r15]
  memory := false
  cc := true
  code := [
    movq arg (reg rdx),
    mulxq (mem p1 0) rcx r8,
    mulxq (mem p1 1) rax r9, addq (reg rax) r8,
    mulxq (mem p1 2) rax r10, adcq (reg rax) r9,
    mulxq (mem p1 3) rax r11, adcq (reg rax) r10,
    mulxq (mem p1 4) rax r12, adcq (reg rax) r11,
    mulxq (mem p1 5) rax r13, adcq (reg rax) r12,
    mulxq (mem p1 6) rax rdx, adcq (reg rax) r13,
    adcq (imm 0) rdx,
    movq (reg rdx) (reg rax), shlq 32 rax,
    addq (reg rdx) rcx, movq (imm 0) (reg rdx),
    adcq (imm 0) r8,
    adcq (imm 0) r9,
    adcq (reg rax) r10,
    adcq (imm 0) r11,
    adcq (imm 0) r12,
    adcq (imm 0) r13,
    adcq (imm 0) rdx,
    movq (reg rdx) (reg rax), shlq 32 rax,
    addq (reg rdx) rcx, movq (reg rcx) (mem p0 0),
    adcq (imm 0) r8, movq (reg r8) (mem p0 1),
    adcq (imm 0) r9, movq (reg r9) (mem p0 2),
    adcq (reg rax) r10, movq (reg r10) (mem p0 3),
    adcq (imm 0) r11, movq (reg r11) (mem p0 4),
    adcq (imm 0) r12, movq (reg r12) (mem p0 5),
    adcq (imm 0) r13, movq (reg r13) (mem p0 6)]

/-- `mula24_mulq`: src/eltfp448_1w_fullradix.c:1188-1225. -/
def mula24_mulq : Block where
  clobbers := [rax, rcx, rdx, r8, r9, r10, r11, r12, r13, r15]
  memory := false
  cc := true
  code := [
    movq arg (reg r15),
    movq (mem p1 0) (reg rax), mulq (reg r15),
    movq (reg rax) (reg rcx), movq (reg rdx) (reg r8),
    movq (mem p1 1) (reg rax), mulq (reg r15),
    addq (reg rax) r8, adcq (imm 0) rdx, movq (reg rdx) (reg r9),
    movq (mem p1 2) (reg rax), mulq (reg r15),
    addq (reg rax) r9, adcq (imm 0) rdx, movq (reg rdx) (reg r10),
    movq (mem p1 3) (reg rax), mulq (reg r15),
    addq (reg rax) r10, adcq (imm 0) rdx, movq (reg rdx) (reg r11),
    movq (mem p1 4) (reg rax), mulq (reg r15),
    addq (reg rax) r11, adcq (imm 0) rdx, movq (reg rdx) (reg r12),
    movq (mem p1 5) (reg rax), mulq (reg r15),
    addq (reg rax) r12, adcq (imm 0) rdx, movq (reg rdx) (reg r13),
    movq (mem p1 6) (reg rax), mulq (reg r15),
    addq (reg rax) r13, adcq (imm 0) rdx,
    movq (reg rdx) (reg rax), shlq 32 rax,
    addq (reg rdx) rcx, movq (imm 0) (reg rdx),
    adcq (imm 0) r8,
    adcq (imm 0) r9,
    adcq (reg rax) r10,
    adcq (imm 0) r11,
    adcq (imm 0) r12,
    adcq (imm 0) r13,
    adcq (imm 0) rdx,
    movq (reg rdx) (reg rax), shlq 32 rax,
    addq (reg rdx) rcx, movq (reg rcx) (mem p0 0),
    adcq (imm 0) r8, movq (reg r8) (mem p0 1),
    adcq (imm 0) r9, movq (reg r9) (mem p0 2),
    adcq (reg rax) r10, movq (reg r10) (mem p0 3),
    adcq (imm 0) r11, movq (reg r11) (mem p0 4),
    adcq (imm 0) r12, movq (reg r12) (mem p0 5),
    adcq (imm 0) r13, movq (reg r13) (mem p0 6)]

/-- `add_adx`: src/eltfp448_1w_fullradix.c:938-983. -/
def add_adx : Block where
  clobbers := [rax, rcx, rdx, r8, r9, r10, r11, r12, r13, r14]
  memory := true
  cc := true
  code := [
    xorl rax,
    movq (imm 4294967296) (reg rdx),
    movq (mem p2 0) (reg r8),
    movq (mem p2 1) (reg r9),
    movq (mem p2 2) (reg r10),
    movq (mem p2 3) (reg r11),
    movq (mem p2 4) (reg r12),
    movq (mem p2 5) (reg r13),
    movq (mem p2 6) (reg r14),
    adcx (mem p1 0) r8,
    adcx (mem p1 1) r9,
    adcx (mem p1 2) r10,
    adcx (mem p1 3) r11,
    adcx (mem p1 4) r12,
    adcx (mem p1 5) r13,
    adcx (mem p1 6) r14,
    movq (imm 0) (reg rcx),
    cmovcq (reg rdx) rcx,
    adcx (reg rax) r8,
    adcx (reg rax) r9,
    adcx (reg rax) r10,
    adcx (reg rcx) r11,
    adcx (reg rax) r12,
    adcx (reg rax) r13,
    adcx (reg rax) r14,
    movq (imm 0) (reg rcx),
    cmovcq (reg rdx) rcx,
    adcx (reg rax) r8,
    adcx (reg rax) r9,
    adcx (reg rax) r10,
    adcx (reg rcx) r11,
    adcx (reg rax) r12,
    adcx (reg rax) r13,
    adcx (reg rax) r14,
    movq (reg r8) (mem p0 0),
    movq (reg r9) (mem p0 1),
    movq (reg r10) (mem p0 2),
    movq (reg r11) (mem p0 3),
    movq (reg r12) (mem p0 4),
    movq (reg r13) (mem p0 5),
    movq (reg r14) (mem p0 6)]

/-- `add_adc`: src/eltfp448_1w_fullradix.c:993-1038. -/
def add_adc : Block where
  clobbers := [rax, rcx, rdx, r8, r9, r10, r11, r12, r13, r14]
  memory := true
  cc := true
  code := [
    xorl rax,
    movq (imm 4294967296) (reg rdx),
    movq (mem p2 0) (reg r8),
    movq (mem p2 1) (reg r9),
    movq (mem p2 2) (reg r10),
    movq (mem p2 3) (reg r11),
    movq (mem p2 4) (reg r12),
    movq (mem p2 5) (reg r13),
    movq (mem p2 6) (reg r14),
    addq (mem p1 0) r8,
    adcq (mem p1 1) r9,
    adcq (mem p1 2) r10,
    adcq (mem p1 3) r11,
    adcq (mem p1 4) r12,
    adcq (mem p1 5) r13,
    adcq (mem p1 6) r14,
    movq (imm 0) (reg rcx),
    cmovcq (reg rdx) rcx,
    adcq (reg rax) r8,
    adcq (reg rax) r9,
    adcq (reg rax) r10,
    adcq (reg rcx) r11,
    adcq (reg rax) r12,
    adcq (reg rax) r13,
    adcq (reg rax) r14,
    movq (imm 0) (reg rcx),
    cmovcq (reg rdx) rcx,
    adcq (reg rax) r8,
    adcq (reg rax) r9,
    adcq (reg rax) r10,
    adcq (reg rcx) r11,
    adcq (reg rax) r12,
    adcq (reg rax) r13,
    adcq (reg rax) r14,
    movq (reg r8) (mem p0 0),
    movq (reg r9) (mem p0 1),
    movq (reg r10) (mem p0 2),
    movq (reg r11) (mem p0 3),
    movq (reg r12) (mem p0 4),
    movq (reg r13) (mem p0 5),
    movq (reg r14) (mem p0 6)]

/-- `sub`: src/eltfp448_1w_fullradix.c:64-109. -/
def sub : Block where
  clobbers := [rax, rcx, rdx, r8, r9, r10, r11, r12, r13, r14]
  memory := true
  cc := true
  code := [
    xorl rax,
    movq (imm 4294967296) (reg rdx),
    movq (mem p1 0) (reg r8),
    movq (mem p1 1) (reg r9),
    movq (mem p1 2) (reg r10),
    movq (mem p1 3) (reg r11),
    movq (mem p1 4) (reg r12),
    movq (mem p1 5) (reg r13),
    movq (mem p1 6) (reg r14),
    subq (mem p2 0) r8,
    sbbq (mem p2 1) r9,
    sbbq (mem p2 2) r10,
    sbbq (mem p2 3) r11,
    sbbq (mem p2 4) r12,
    sbbq (mem p2 5) r13,
    sbbq (mem p2 6) r14,
    movq (imm 0) (reg rcx),
    cmovcq (reg rdx) rcx,
    sbbq (reg rax) r8,
    sbbq (reg rax) r9,
    sbbq (reg rax) r10,
    sbbq (reg rcx) r11,
    sbbq (reg rax) r12,
    sbbq (reg rax) r13,
    sbbq (reg rax) r14,
    movq (imm 0) (reg rcx),
    cmovcq (reg rdx) rcx,
    sbbq (reg rax) r8,
    sbbq (reg rax) r9,
    sbbq (reg rax) r10,
    sbbq (reg rcx) r11,
    sbbq (reg rax) r12,
    sbbq (reg rax) r13,
    sbbq (reg rax) r14,
    movq (reg r8) (mem p0 0),
    movq (reg r9) (mem p0 1),
    movq (reg r10) (mem p0 2),
    movq (reg r11) (mem p0 3),
    movq (reg r12) (mem p0 4),
    movq (reg r13) (mem p0 5),
    movq (reg r14) (mem p0 6)]

/-- `cmv`: src/eltfp448_1w_fullradix.c:119-146. -/
def cmv : Block where
  clobbers := [rax]
  memory := true
  cc := true
  code := [
    test arg,
    movq (mem p1 0) (reg rax),
    cmovnz (mem p2 0) rax,
    movq (reg rax) (mem p0 0),
    movq (mem p1 1) (reg rax),
    cmovnz (mem p2 1) rax,
    movq (reg rax) (mem p0 1),
    movq (mem p1 2) (reg rax),
    cmovnz (mem p2 2) rax,
    movq (reg rax) (mem p0 2),
    movq (mem p1 3) (reg rax),
    cmovnz (mem p2 3) rax,
    movq (reg rax) (mem p0 3),
    movq (mem p1 4) (reg rax),
    cmovnz (mem p2 4) rax,
    movq (reg rax) (mem p0 4),
    movq (mem p1 5) (reg rax),
    cmovnz (mem p2 5) rax,
    movq (reg rax) (mem p0 5),
    movq (mem p1 6) (reg rax),
    cmovnz (mem p2 6) rax,
    movq (reg rax) (mem p0 6)]

end Verif.X86.Fp448
