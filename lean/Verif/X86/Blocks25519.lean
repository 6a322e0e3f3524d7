import Verif.X86.Machine

/-!
# The assembly blocks of src/eltfp25519_1w_fullradix.c, as data (generated from the source text)

One list per block, one entry per instruction, macros expanded, in the order of
the source; one line here per line of the source.  `clobbers`, `memory` and `cc`
are the block's clobber list.
-/

namespace Verif.X86.Fp25519

open Instr Opd Reg Ptr

set_option maxRecDepth 10000

/-- `intmul_mulxadx`: src/eltfp25519_1w_fullradix.c:851-877. -/
def intmul_mulxadx : Block where
  clobbers := [rax, rdx, r8, r9, r10, r11, r12, r13, r14]
  memory := true
  cc := true
  code := [
    movq (mem p1 0) (reg rdx),
    mulxq (mem p2 0) r8 r9, xorl r10, movq (reg r8) (mem p0 0),
    mulxq (mem p2 1) r10 r11, adox (reg r9) r10, movq (reg r10) (mem p0 1),
    mulxq (mem p2 2) r12 r13, adox (reg r11) r12,
    mulxq (mem p2 3) r14 rdx, adox (reg r13) r14, movq (imm 0) (reg rax),
    adox (reg rdx) rax,
    movq (mem p1 1) (reg rdx),
    mulxq (mem p2 0) r8 r9, xorl r10, adcx (mem p0 1) r8, movq (reg r8) (mem p0 1),
    mulxq (mem p2 1) r10 r11, adox (reg r9) r10, adcx (reg r12) r10,
    movq (reg r10) (mem p0 2),
    mulxq (mem p2 2) r12 r13, adox (reg r11) r12, adcx (reg r14) r12, movq (imm 0) (reg r8),
    mulxq (mem p2 3) r14 rdx, adox (reg r13) r14, adcx (reg rax) r14, movq (imm 0) (reg rax),
    adox (reg rdx) rax, adcx (reg r8) rax,
    movq (mem p1 2) (reg rdx),
    mulxq (mem p2 0) r8 r9, xorl r10, adcx (mem p0 2) r8, movq (reg r8) (mem p0 2),
    mulxq (mem p2 1) r10 r11, adox (reg r9) r10, adcx (reg r12) r10,
    movq (reg r10) (mem p0 3),
    mulxq (mem p2 2) r12 r13, adox (reg r11) r12, adcx (reg r14) r12, movq (imm 0) (reg r8),
    mulxq (mem p2 3) r14 rdx, adox (reg r13) r14, adcx (reg rax) r14, movq (imm 0) (reg rax),
    adox (reg rdx) rax, adcx (reg r8) rax,
    movq (mem p1 3) (reg rdx),
    mulxq (mem p2 0) r8 r9, xorl r10, adcx (mem p0 3) r8, movq (reg r8) (mem p0 3),
    mulxq (mem p2 1) r10 r11, adox (reg r9) r10, adcx (reg r12) r10,
    movq (reg r10) (mem p0 4),
    mulxq (mem p2 2) r12 r13, adox (reg r11) r12, adcx (reg r14) r12,
    movq (reg r12) (mem p0 5), movq (imm 0) (reg r8),
    mulxq (mem p2 3) r14 rdx, adox (reg r13) r14, adcx (reg rax) r14,
    movq (reg r14) (mem p0 6), movq (imm 0) (reg rax),
    adox (reg rdx) rax, adcx (reg r8) rax, movq (reg rax) (mem p0 7)]

/-- `intsqr_mulxadx`: src/eltfp25519_1w_fullradix.c:1010-1041. -/
def intsqr_mulxadx : Block where
  clobbers := [rax, rcx, rdx, r8, r9, r10, r11, r12, r13, r14, r15]
  memory := true
  cc := true
  code := [
    movq (mem p1 0) (reg rdx),
    mulxq (mem p1 1) r8 r14, xorl r15,
    mulxq (mem p1 2) r9 r10, adcx (reg r14) r9,
    mulxq (mem p1 3) rax rcx, adcx (reg rax) r10,
    movq (mem p1 3) (reg rdx),
    mulxq (mem p1 1) r11 r12, adcx (reg rcx) r11,
    mulxq (mem p1 2) rax r13, adcx (reg rax) r12,
    movq (mem p1 1) (reg rdx), adcx (reg r15) r13,
    mulxq (mem p1 2) rax rcx, movq (imm 0) (reg r14),
    adcx (reg r15) r14,
    xorl r15,
    adox (reg rax) r10, adcx (reg r8) r8,
    adox (reg rcx) r11, adcx (reg r9) r9,
    adox (reg r15) r12, adcx (reg r10) r10,
    adox (reg r15) r13, adcx (reg r11) r11,
    adox (reg r15) r14, adcx (reg r12) r12,
    adcx (reg r13) r13,
    adcx (reg r14) r14,
    movq (mem p1 0) (reg rdx), mulxq (reg rdx) rax rcx,
    movq (reg rax) (mem p0 0),
    addq (reg rcx) r8, movq (reg r8) (mem p0 1),
    movq (mem p1 1) (reg rdx), mulxq (reg rdx) rax rcx,
    adcq (reg rax) r9, movq (reg r9) (mem p0 2),
    adcq (reg rcx) r10, movq (reg r10) (mem p0 3),
    movq (mem p1 2) (reg rdx), mulxq (reg rdx) rax rcx,
    adcq (reg rax) r11, movq (reg r11) (mem p0 4),
    adcq (reg rcx) r12, movq (reg r12) (mem p0 5),
    movq (mem p1 3) (reg rdx), mulxq (reg rdx) rax rcx,
    adcq (reg rax) r13, movq (reg r13) (mem p0 6),
    adcq (reg rcx) r14, movq (reg r14) (mem p0 7)]

/-- `intmul2_mulxadx`: src/eltfp25519_1w_fullradix.c:26-81. -/
def intmul2_mulxadx : Block where
  clobbers := [rax, rbx, rcx, rdx, r8, r9, r10, r11, r12, r13, r14]
  memory := true
  cc := true
  code := [
    xorl r14,
    movq (mem p1 0) (reg rdx),
    mulxq (mem p2 0) r8 r12, xorl r10, movq (reg r8) (mem p0 0),
    mulxq (mem p2 1) r10 rax, adox (reg r10) r12,
    mulxq (mem p2 2) r8 rbx, adox (reg r8) rax,
    mulxq (mem p2 3) r10 rcx, adox (reg r10) rbx,
    adox (reg r14) rcx,
    movq (mem p1 1) (reg rdx),
    mulxq (mem p2 0) r8 r9, adox (reg r12) r8, movq (reg r8) (mem p0 1),
    mulxq (mem p2 1) r10 r11, adox (reg r10) r9, adcx (reg r9) rax,
    mulxq (mem p2 2) r8 r13, adox (reg r8) r11, adcx (reg r11) rbx,
    mulxq (mem p2 3) r10 r12, adox (reg r10) r13, adcx (reg r13) rcx,
    adox (reg r14) r12, adcx (reg r14) r12,
    movq (mem p1 2) (reg rdx), xorl r10,
    mulxq (mem p2 0) r8 r9, adox (reg rax) r8, movq (reg r8) (mem p0 2),
    mulxq (mem p2 1) r10 r11, adox (reg r10) r9, adcx (reg r9) rbx,
    mulxq (mem p2 2) r8 r13, adox (reg r8) r11, adcx (reg r11) rcx,
    mulxq (mem p2 3) r10 rax, adox (reg r10) r13, adcx (reg r13) r12,
    adox (reg r14) rax, adcx (reg r14) rax,
    movq (mem p1 3) (reg rdx), xorl r10,
    mulxq (mem p2 0) r8 r9, adox (reg rbx) r8, movq (reg r8) (mem p0 3),
    mulxq (mem p2 1) r10 r11, adox (reg r10) r9, adcx (reg r9) rcx,
    movq (reg rcx) (mem p0 4),
    mulxq (mem p2 2) r8 r13, adox (reg r8) r11, adcx (reg r11) r12,
    movq (reg r12) (mem p0 5),
    mulxq (mem p2 3) r10 rbx, adox (reg r10) r13, adcx (reg r13) rax,
    movq (reg rax) (mem p0 6),
    adox (reg r14) rbx, adcx (reg r14) rbx, movq (reg rbx) (mem p0 7),
    movq (mem p1 4) (reg rdx),
    mulxq (mem p2 4) r8 r12, xorl r10, movq (reg r8) (mem p0 8),
    mulxq (mem p2 5) r10 rax, adox (reg r10) r12,
    mulxq (mem p2 6) r8 rbx, adox (reg r8) rax,
    mulxq (mem p2 7) r10 rcx, adox (reg r10) rbx,
    adox (reg r14) rcx,
    movq (mem p1 5) (reg rdx), xorl r10,
    mulxq (mem p2 4) r8 r9, adox (reg r12) r8, movq (reg r8) (mem p0 9),
    mulxq (mem p2 5) r10 r11, adox (reg r10) r9, adcx (reg r9) rax,
    mulxq (mem p2 6) r8 r13, adox (reg r8) r11, adcx (reg r11) rbx,
    mulxq (mem p2 7) r10 r12, adox (reg r10) r13, adcx (reg r13) rcx,
    adox (reg r14) r12, adcx (reg r14) r12,
    movq (mem p1 6) (reg rdx), xorl r10,
    mulxq (mem p2 4) r8 r9, adox (reg rax) r8, movq (reg r8) (mem p0 10),
    mulxq (mem p2 5) r10 r11, adox (reg r10) r9, adcx (reg r9) rbx,
    mulxq (mem p2 6) r8 r13, adox (reg r8) r11, adcx (reg r11) rcx,
    mulxq (mem p2 7) r10 rax, adox (reg r10) r13, adcx (reg r13) r12,
    adox (reg r14) rax, adcx (reg r14) rax,
    movq (mem p1 7) (reg rdx), xorl r10,
    mulxq (mem p2 4) r8 r9, adox (reg rbx) r8, movq (reg r8) (mem p0 11),
    mulxq (mem p2 5) r10 r11, adox (reg r10) r9, adcx (reg r9) rcx,
    movq (reg rcx) (mem p0 12),
    mulxq (mem p2 6) r8 r13, adox (reg r8) r11, adcx (reg r11) r12,
    movq (reg r12) (mem p0 13),
    mulxq (mem p2 7) r10 rbx, adox (reg r10) r13, adcx (reg r13) rax,
    movq (reg rax) (mem p0 14),
    adox (reg r14) rbx, adcx (reg r14) rbx, movq (reg rbx) (mem p0 15)]

/-- `intsqr2_mulxadx`: src/eltfp25519_1w_fullradix.c:336-401. -/
def intsqr2_mulxadx : Block where
  clobbers := [rax, rcx, rdx, r8, r9, r10, r11, r12, r13, r14, r15]
  memory := true
  cc := true
  code := [
    movq (mem p1 0) (reg rdx),
    mulxq (mem p1 1) r8 r14, xorl r15,
    mulxq (mem p1 2) r9 r10, adcx (reg r14) r9,
    mulxq (mem p1 3) rax rcx, adcx (reg rax) r10,
    movq (mem p1 3) (reg rdx),
    mulxq (mem p1 1) r11 r12, adcx (reg rcx) r11,
    mulxq (mem p1 2) rax r13, adcx (reg rax) r12,
    movq (mem p1 1) (reg rdx), adcx (reg r15) r13,
    mulxq (mem p1 2) rax rcx, movq (imm 0) (reg r14),
    adcx (reg r15) r14,
    xorl r15,
    adox (reg rax) r10, adcx (reg r8) r8,
    adox (reg rcx) r11, adcx (reg r9) r9,
    adox (reg r15) r12, adcx (reg r10) r10,
    adox (reg r15) r13, adcx (reg r11) r11,
    adox (reg r15) r14, adcx (reg r12) r12,
    adcx (reg r13) r13,
    adcx (reg r14) r14,
    movq (mem p1 0) (reg rdx), mulxq (reg rdx) rax rcx,
    movq (reg rax) (mem p0 0),
    addq (reg rcx) r8, movq (reg r8) (mem p0 1),
    movq (mem p1 1) (reg rdx), mulxq (reg rdx) rax rcx,
    adcq (reg rax) r9, movq (reg r9) (mem p0 2),
    adcq (reg rcx) r10, movq (reg r10) (mem p0 3),
    movq (mem p1 2) (reg rdx), mulxq (reg rdx) rax rcx,
    adcq (reg rax) r11, movq (reg r11) (mem p0 4),
    adcq (reg rcx) r12, movq (reg r12) (mem p0 5),
    movq (mem p1 3) (reg rdx), mulxq (reg rdx) rax rcx,
    adcq (reg rax) r13, movq (reg r13) (mem p0 6),
    adcq (reg rcx) r14, movq (reg r14) (mem p0 7),
    movq (mem p1 4) (reg rdx),
    mulxq (mem p1 5) r8 r14, xorl r15,
    mulxq (mem p1 6) r9 r10, adcx (reg r14) r9,
    mulxq (mem p1 7) rax rcx, adcx (reg rax) r10,
    movq (mem p1 7) (reg rdx),
    mulxq (mem p1 5) r11 r12, adcx (reg rcx) r11,
    mulxq (mem p1 6) rax r13, adcx (reg rax) r12,
    movq (mem p1 5) (reg rdx), adcx (reg r15) r13,
    mulxq (mem p1 6) rax rcx, movq (imm 0) (reg r14),
    adcx (reg r15) r14,
    xorl r15,
    adox (reg rax) r10, adcx (reg r8) r8,
    adox (reg rcx) r11, adcx (reg r9) r9,
    adox (reg r15) r12, adcx (reg r10) r10,
    adox (reg r15) r13, adcx (reg r11) r11,
    adox (reg r15) r14, adcx (reg r12) r12,
    adcx (reg r13) r13,
    adcx (reg r14) r14,
    movq (mem p1 4) (reg rdx), mulxq (reg rdx) rax rcx,
    movq (reg rax) (mem p0 8),
    addq (reg rcx) r8, movq (reg r8) (mem p0 9),
    movq (mem p1 5) (reg rdx), mulxq (reg rdx) rax rcx,
    adcq (reg rax) r9, movq (reg r9) (mem p0 10),
    adcq (reg rcx) r10, movq (reg r10) (mem p0 11),
    movq (mem p1 6) (reg rdx), mulxq (reg rdx) rax rcx,
    adcq (reg rax) r11, movq (reg r11) (mem p0 12),
    adcq (reg rcx) r12, movq (reg r12) (mem p0 13),
    movq (mem p1 7) (reg rdx), mulxq (reg rdx) rax rcx,
    adcq (reg rax) r13, movq (reg r13) (mem p0 14),
    adcq (reg rcx) r14, movq (reg r14) (mem p0 15)]

/-- `reduce_mulxadx`: src/eltfp25519_1w_fullradix.c:1168-1181. -/
def reduce_mulxadx : Block where
  clobbers := [rax, rbx, rcx, rdx, r8, r9, r10, r11]
  memory := true
  cc := true
  code := [
    movq (imm 38) (reg rdx),
    mulxq (mem p1 4) r8 r10, xorl rbx, adox (mem p1 0) r8,
    mulxq (mem p1 5) r9 r11, adcx (reg r10) r9, adox (mem p1 1) r9,
    mulxq (mem p1 6) r10 rax, adcx (reg r11) r10, adox (mem p1 2) r10,
    mulxq (mem p1 7) r11 rcx, adcx (reg rax) r11, adox (mem p1 3) r11,
    adcx (reg rbx) rcx, adox (reg rbx) rcx,
    imulq (reg rdx) rcx,
    adcx (reg rcx) r8,
    adcx (reg rbx) r9, movq (reg r9) (mem p0 1),
    adcx (reg rbx) r10, movq (reg r10) (mem p0 2),
    adcx (reg rbx) r11, movq (reg r11) (mem p0 3),
    movq (imm 0) (reg rcx),
    cmovcq (reg rdx) rcx,
    addq (reg rcx) r8, movq (reg r8) (mem p0 0)]

/-- `reduce2_mulxadx`: src/eltfp25519_1w_fullradix.c:617-644. -/
def reduce2_mulxadx : Block where
  clobbers := [rax, rbx, rcx, rdx, r8, r9, r10, r11]
  memory := true
  cc := true
  code := [
    movq (imm 38) (reg rdx),
    mulxq (mem p1 4) r8 r10, xorl rbx, adox (mem p1 0) r8,
    mulxq (mem p1 5) r9 r11, adcx (reg r10) r9, adox (mem p1 1) r9,
    mulxq (mem p1 6) r10 rax, adcx (reg r11) r10, adox (mem p1 2) r10,
    mulxq (mem p1 7) r11 rcx, adcx (reg rax) r11, adox (mem p1 3) r11,
    adcx (reg rbx) rcx, adox (reg rbx) rcx,
    imulq (reg rdx) rcx,
    adcx (reg rcx) r8,
    adcx (reg rbx) r9, movq (reg r9) (mem p0 1),
    adcx (reg rbx) r10, movq (reg r10) (mem p0 2),
    adcx (reg rbx) r11, movq (reg r11) (mem p0 3),
    movq (imm 0) (reg rcx),
    cmovcq (reg rdx) rcx,
    addq (reg rcx) r8, movq (reg r8) (mem p0 0),
    mulxq (mem p1 12) r8 r10, xorl rbx, adox (mem p1 8) r8,
    mulxq (mem p1 13) r9 r11, adcx (reg r10) r9, adox (mem p1 9) r9,
    mulxq (mem p1 14) r10 rax, adcx (reg r11) r10, adox (mem p1 10) r10,
    mulxq (mem p1 15) r11 rcx, adcx (reg rax) r11, adox (mem p1 11) r11,
    adcx (reg rbx) rcx, adox (reg rbx) rcx,
    imulq (reg rdx) rcx,
    adcx (reg rcx) r8,
    adcx (reg rbx) r9, movq (reg r9) (mem p0 5),
    adcx (reg rbx) r10, movq (reg r10) (mem p0 6),
    adcx (reg rbx) r11, movq (reg r11) (mem p0 7),
    movq (imm 0) (reg rcx),
    cmovcq (reg rdx) rcx,
    addq (reg rcx) r8, movq (reg r8) (mem p0 4)]

/-- `intmul_mulx`: src/eltfp25519_1w_fullradix.c:887-928. -/
def intmul_mulx : Block where
  clobbers := [rax, rbx, rcx, rdx, r8, r9, r10, r11, r12, r13]
  memory := true
  cc := true
  code := [
    movq (mem p1 0) (reg rdx),
    mulxq (mem p2 0) r8 r12, movq (reg r8) (mem p0 0),
    mulxq (mem p2 1) r10 rax, addq (reg r10) r12,
    mulxq (mem p2 2) r8 rbx, adcq (reg r8) rax,
    mulxq (mem p2 3) r10 rcx, adcq (reg r10) rbx,
    adcq (imm 0) rcx,
    movq (mem p1 1) (reg rdx),
    mulxq (mem p2 0) r8 r9, addq (reg r12) r8, movq (reg r8) (mem p0 1),
    mulxq (mem p2 1) r10 r11, adcq (reg r10) r9,
    mulxq (mem p2 2) r8 r13, adcq (reg r8) r11,
    mulxq (mem p2 3) r10 r12, adcq (reg r10) r13,
    adcq (imm 0) r12,
    addq (reg r9) rax,
    adcq (reg r11) rbx,
    adcq (reg r13) rcx,
    adcq (imm 0) r12,
    movq (mem p1 2) (reg rdx),
    mulxq (mem p2 0) r8 r9, addq (reg rax) r8, movq (reg r8) (mem p0 2),
    mulxq (mem p2 1) r10 r11, adcq (reg r10) r9,
    mulxq (mem p2 2) r8 r13, adcq (reg r8) r11,
    mulxq (mem p2 3) r10 rax, adcq (reg r10) r13,
    adcq (imm 0) rax,
    addq (reg r9) rbx,
    adcq (reg r11) rcx,
    adcq (reg r13) r12,
    adcq (imm 0) rax,
    movq (mem p1 3) (reg rdx),
    mulxq (mem p2 0) r8 r9, addq (reg rbx) r8, movq (reg r8) (mem p0 3),
    mulxq (mem p2 1) r10 r11, adcq (reg r10) r9,
    mulxq (mem p2 2) r8 r13, adcq (reg r8) r11,
    mulxq (mem p2 3) r10 rbx, adcq (reg r10) r13,
    adcq (imm 0) rbx,
    addq (reg r9) rcx, movq (reg rcx) (mem p0 4),
    adcq (reg r11) r12, movq (reg r12) (mem p0 5),
    adcq (reg r13) rax, movq (reg rax) (mem p0 6),
    adcq (imm 0) rbx, movq (reg rbx) (mem p0 7)]

/-- `intsqr_mulx`: src/eltfp25519_1w_fullradix.c:1051-1096. -/
def intsqr_mulx : Block where
  clobbers := [rax, rcx, rdx, r8, r9, r10, r11, r12, r13, r14]
  memory := true
  cc := true
  code := [
    movq (mem p1 1) (reg rdx),
    mulxq (mem p1 0) r8 r9,
    mulxq (mem p1 2) r10 r11,
    mulxq (mem p1 3) rcx r14,
    movq (mem p1 2) (reg rdx),
    mulxq (mem p1 3) r12 r13,
    mulxq (mem p1 0) rax rdx,
    addq (reg rax) r9,
    adcq (reg rdx) r10,
    adcq (reg rcx) r11,
    adcq (reg r14) r12,
    adcq (imm 0) r13,
    movq (imm 0) (reg r14),
    adcq (imm 0) r14,
    movq (mem p1 0) (reg rdx),
    mulxq (mem p1 3) rax rcx,
    addq (reg rax) r10,
    adcq (reg rcx) r11,
    adcq (imm 0) r12,
    adcq (imm 0) r13,
    adcq (imm 0) r14,
    shldq 1 r13 r14,
    shldq 1 r12 r13,
    shldq 1 r11 r12,
    shldq 1 r10 r11,
    shldq 1 r9 r10,
    shldq 1 r8 r9,
    shlq 1 r8,
    mulxq (reg rdx) rax rcx,
    movq (reg rax) (mem p0 0),
    addq (reg rcx) r8, movq (reg r8) (mem p0 1),
    movq (mem p1 1) (reg rdx), mulxq (reg rdx) rax rcx,
    adcq (reg rax) r9, movq (reg r9) (mem p0 2),
    adcq (reg rcx) r10, movq (reg r10) (mem p0 3),
    movq (mem p1 2) (reg rdx), mulxq (reg rdx) rax rcx,
    adcq (reg rax) r11, movq (reg r11) (mem p0 4),
    adcq (reg rcx) r12, movq (reg r12) (mem p0 5),
    movq (mem p1 3) (reg rdx), mulxq (reg rdx) rax rcx,
    adcq (reg rax) r13, movq (reg r13) (mem p0 6),
    adcq (reg rcx) r14, movq (reg r14) (mem p0 7)]

/-- `intmul2_mulx`: src/eltfp25519_1w_fullradix.c:91-175. -/
def intmul2_mulx : Block where
  clobbers := [rax, rbx, rcx, rdx, r8, r9, r10, r11, r12, r13]
  memory := true
  cc := true
  code := [
    movq (mem p1 0) (reg rdx),
    mulxq (mem p2 0) r8 r12, movq (reg r8) (mem p0 0),
    mulxq (mem p2 1) r10 rax, addq (reg r10) r12,
    mulxq (mem p2 2) r8 rbx, adcq (reg r8) rax,
    mulxq (mem p2 3) r10 rcx, adcq (reg r10) rbx,
    adcq (imm 0) rcx,
    movq (mem p1 1) (reg rdx),
    mulxq (mem p2 0) r8 r9, addq (reg r12) r8, movq (reg r8) (mem p0 1),
    mulxq (mem p2 1) r10 r11, adcq (reg r10) r9,
    mulxq (mem p2 2) r8 r13, adcq (reg r8) r11,
    mulxq (mem p2 3) r10 r12, adcq (reg r10) r13,
    adcq (imm 0) r12,
    addq (reg r9) rax,
    adcq (reg r11) rbx,
    adcq (reg r13) rcx,
    adcq (imm 0) r12,
    movq (mem p1 2) (reg rdx),
    mulxq (mem p2 0) r8 r9, addq (reg rax) r8, movq (reg r8) (mem p0 2),
    mulxq (mem p2 1) r10 r11, adcq (reg r10) r9,
    mulxq (mem p2 2) r8 r13, adcq (reg r8) r11,
    mulxq (mem p2 3) r10 rax, adcq (reg r10) r13,
    adcq (imm 0) rax,
    addq (reg r9) rbx,
    adcq (reg r11) rcx,
    adcq (reg r13) r12,
    adcq (imm 0) rax,
    movq (mem p1 3) (reg rdx),
    mulxq (mem p2 0) r8 r9, addq (reg rbx) r8, movq (reg r8) (mem p0 3),
    mulxq (mem p2 1) r10 r11, adcq (reg r10) r9,
    mulxq (mem p2 2) r8 r13, adcq (reg r8) r11,
    mulxq (mem p2 3) r10 rbx, adcq (reg r10) r13,
    adcq (imm 0) rbx,
    addq (reg r9) rcx, movq (reg rcx) (mem p0 4),
    adcq (reg r11) r12, movq (reg r12) (mem p0 5),
    adcq (reg r13) rax, movq (reg rax) (mem p0 6),
    adcq (imm 0) rbx, movq (reg rbx) (mem p0 7),
    movq (mem p1 4) (reg rdx),
    mulxq (mem p2 4) r8 r12, movq (reg r8) (mem p0 8),
    mulxq (mem p2 5) r10 rax, addq (reg r10) r12,
    mulxq (mem p2 6) r8 rbx, adcq (reg r8) rax,
    mulxq (mem p2 7) r10 rcx, adcq (reg r10) rbx,
    adcq (imm 0) rcx,
    movq (mem p1 5) (reg rdx),
    mulxq (mem p2 4) r8 r9, addq (reg r12) r8, movq (reg r8) (mem p0 9),
    mulxq (mem p2 5) r10 r11, adcq (reg r10) r9,
    mulxq (mem p2 6) r8 r13, adcq (reg r8) r11,
    mulxq (mem p2 7) r10 r12, adcq (reg r10) r13,
    adcq (imm 0) r12,
    addq (reg r9) rax,
    adcq (reg r11) rbx,
    adcq (reg r13) rcx,
    adcq (imm 0) r12,
    movq (mem p1 6) (reg rdx),
    mulxq (mem p2 4) r8 r9, addq (reg rax) r8, movq (reg r8) (mem p0 10),
    mulxq (mem p2 5) r10 r11, adcq (reg r10) r9,
    mulxq (mem p2 6) r8 r13, adcq (reg r8) r11,
    mulxq (mem p2 7) r10 rax, adcq (reg r10) r13,
    adcq (imm 0) rax,
    addq (reg r9) rbx,
    adcq (reg r11) rcx,
    adcq (reg r13) r12,
    adcq (imm 0) rax,
    movq (mem p1 7) (reg rdx),
    mulxq (mem p2 4) r8 r9, addq (reg rbx) r8, movq (reg r8) (mem p0 11),
    mulxq (mem p2 5) r10 r11, adcq (reg r10) r9,
    mulxq (mem p2 6) r8 r13, adcq (reg r8) r11,
    mulxq (mem p2 7) r10 rbx, adcq (reg r10) r13,
    adcq (imm 0) rbx,
    addq (reg r9) rcx, movq (reg rcx) (mem p0 12),
    adcq (reg r11) r12, movq (reg r12) (mem p0 13),
    adcq (reg r13) rax, movq (reg rax) (mem p0 14),
    adcq (imm 0) rbx, movq (reg rbx) (mem p0 15)]

/-- `intsqr2_mulx`: src/eltfp25519_1w_fullradix.c:411-503. -/
def intsqr2_mulx : Block where
  clobbers := [rax, rcx, rdx, r8, r9, r10, r11, r12, r13, r14]
  memory := true
  cc := true
  code := [
    movq (mem p1 1) (reg rdx),
    mulxq (mem p1 0) r8 r9,
    mulxq (mem p1 2) r10 r11,
    mulxq (mem p1 3) rcx r14,
    movq (mem p1 2) (reg rdx),
    mulxq (mem p1 3) r12 r13,
    mulxq (mem p1 0) rax rdx,
    addq (reg rax) r9,
    adcq (reg rdx) r10,
    adcq (reg rcx) r11,
    adcq (reg r14) r12,
    adcq (imm 0) r13,
    movq (imm 0) (reg r14),
    adcq (imm 0) r14,
    movq (mem p1 0) (reg rdx),
    mulxq (mem p1 3) rax rcx,
    addq (reg rax) r10,
    adcq (reg rcx) r11,
    adcq (imm 0) r12,
    adcq (imm 0) r13,
    adcq (imm 0) r14,
    shldq 1 r13 r14,
    shldq 1 r12 r13,
    shldq 1 r11 r12,
    shldq 1 r10 r11,
    shldq 1 r9 r10,
    shldq 1 r8 r9,
    shlq 1 r8,
    mulxq (reg rdx) rax rcx,
    movq (reg rax) (mem p0 0),
    addq (reg rcx) r8, movq (reg r8) (mem p0 1),
    movq (mem p1 1) (reg rdx), mulxq (reg rdx) rax rcx,
    adcq (reg rax) r9, movq (reg r9) (mem p0 2),
    adcq (reg rcx) r10, movq (reg r10) (mem p0 3),
    movq (mem p1 2) (reg rdx), mulxq (reg rdx) rax rcx,
    adcq (reg rax) r11, movq (reg r11) (mem p0 4),
    adcq (reg rcx) r12, movq (reg r12) (mem p0 5),
    movq (mem p1 3) (reg rdx), mulxq (reg rdx) rax rcx,
    adcq (reg rax) r13, movq (reg r13) (mem p0 6),
    adcq (reg rcx) r14, movq (reg r14) (mem p0 7),
    movq (mem p1 5) (reg rdx),
    mulxq (mem p1 4) r8 r9,
    mulxq (mem p1 6) r10 r11,
    mulxq (mem p1 7) rcx r14,
    movq (mem p1 6) (reg rdx),
    mulxq (mem p1 7) r12 r13,
    mulxq (mem p1 4) rax rdx,
    addq (reg rax) r9,
    adcq (reg rdx) r10,
    adcq (reg rcx) r11,
    adcq (reg r14) r12,
    adcq (imm 0) r13,
    movq (imm 0) (reg r14),
    adcq (imm 0) r14,
    movq (mem p1 4) (reg rdx),
    mulxq (mem p1 7) rax rcx,
    addq (reg rax) r10,
    adcq (reg rcx) r11,
    adcq (imm 0) r12,
    adcq (imm 0) r13,
    adcq (imm 0) r14,
    shldq 1 r13 r14,
    shldq 1 r12 r13,
    shldq 1 r11 r12,
    shldq 1 r10 r11,
    shldq 1 r9 r10,
    shldq 1 r8 r9,
    shlq 1 r8,
    mulxq (reg rdx) rax rcx,
    movq (reg rax) (mem p0 8),
    addq (reg rcx) r8, movq (reg r8) (mem p0 9),
    movq (mem p1 5) (reg rdx), mulxq (reg rdx) rax rcx,
    adcq (reg rax) r9, movq (reg r9) (mem p0 10),
    adcq (reg rcx) r10, movq (reg r10) (mem p0 11),
    movq (mem p1 6) (reg rdx), mulxq (reg rdx) rax rcx,
    adcq (reg rax) r11, movq (reg r11) (mem p0 12),
    adcq (reg rcx) r12, movq (reg r12) (mem p0 13),
    movq (mem p1 7) (reg rdx), mulxq (reg rdx) rax rcx,
    adcq (reg rax) r13, movq (reg r13) (mem p0 14),
    adcq (reg rcx) r14, movq (reg r14) (mem p0 15)]

/-- `reduce_mulx`: src/eltfp25519_1w_fullradix.c:1190-1208. -/
def reduce_mulx : Block where
  clobbers := [rax, rcx, rdx, r8, r9, r10, r11]
  memory := true
  cc := true
  code := [
    movq (imm 38) (reg rdx),
    mulxq (mem p1 4) r8 r10,
    mulxq (mem p1 5) r9 r11, addq (reg r10) r9,
    mulxq (mem p1 6) r10 rax, adcq (reg r11) r10,
    mulxq (mem p1 7) r11 rcx, adcq (reg rax) r11,
    adcq (imm 0) rcx,
    addq (mem p1 0) r8,
    adcq (mem p1 1) r9,
    adcq (mem p1 2) r10,
    adcq (mem p1 3) r11,
    adcq (imm 0) rcx,
    imulq (reg rdx) rcx,
    addq (reg rcx) r8,
    adcq (imm 0) r9, movq (reg r9) (mem p0 1),
    adcq (imm 0) r10, movq (reg r10) (mem p0 2),
    adcq (imm 0) r11, movq (reg r11) (mem p0 3),
    movq (imm 0) (reg rcx),
    cmovcq (reg rdx) rcx,
    addq (reg rcx) r8, movq (reg r8) (mem p0 0)]

/-- `reduce2_mulx`: src/eltfp25519_1w_fullradix.c:653-690. -/
def reduce2_mulx : Block where
  clobbers := [rax, rcx, rdx, r8, r9, r10, r11]
  memory := true
  cc := true
  code := [
    movq (imm 38) (reg rdx),
    mulxq (mem p1 4) r8 r10,
    mulxq (mem p1 5) r9 r11, addq (reg r10) r9,
    mulxq (mem p1 6) r10 rax, adcq (reg r11) r10,
    mulxq (mem p1 7) r11 rcx, adcq (reg rax) r11,
    adcq (imm 0) rcx,
    addq (mem p1 0) r8,
    adcq (mem p1 1) r9,
    adcq (mem p1 2) r10,
    adcq (mem p1 3) r11,
    adcq (imm 0) rcx,
    imulq (reg rdx) rcx,
    addq (reg rcx) r8,
    adcq (imm 0) r9, movq (reg r9) (mem p0 1),
    adcq (imm 0) r10, movq (reg r10) (mem p0 2),
    adcq (imm 0) r11, movq (reg r11) (mem p0 3),
    movq (imm 0) (reg rcx),
    cmovcq (reg rdx) rcx,
    addq (reg rcx) r8, movq (reg r8) (mem p0 0),
    mulxq (mem p1 12) r8 r10,
    mulxq (mem p1 13) r9 r11, addq (reg r10) r9,
    mulxq (mem p1 14) r10 rax, adcq (reg r11) r10,
    mulxq (mem p1 15) r11 rcx, adcq (reg rax) r11,
    adcq (imm 0) rcx,
    addq (mem p1 8) r8,
    adcq (mem p1 9) r9,
    adcq (mem p1 10) r10,
    adcq (mem p1 11) r11,
    adcq (imm 0) rcx,
    imulq (reg rdx) rcx,
    addq (reg rcx) r8,
    adcq (imm 0) r9, movq (reg r9) (mem p0 5),
    adcq (imm 0) r10, movq (reg r10) (mem p0 6),
    adcq (imm 0) r11, movq (reg r11) (mem p0 7),
    movq (imm 0) (reg rcx),
    cmovcq (reg rdx) rcx,
    addq (reg rcx) r8, movq (reg r8) (mem p0 4)]

/-- `intmul_mulq`: src/eltfp25519_1w_fullradix.c:938-988. -/
def intmul_mulq : Block where
  clobbers := [rax, rdx, r8, r9, r10, r11, r12, r13, r14, r15]
  memory := true
  cc := true
  code := [
    movq (mem p2 0) (reg r8),
    movq (mem p1 0) (reg rax), mulq (reg r8), movq (reg rax) (mem p0 0),
    movq (reg rdx) (reg r15),
    movq (mem p1 1) (reg rax), mulq (reg r8), movq (reg rax) (reg r13),
    movq (reg rdx) (reg r10),
    movq (mem p1 2) (reg rax), mulq (reg r8), movq (reg rax) (reg r14),
    movq (reg rdx) (reg r11),
    movq (mem p1 3) (reg rax), mulq (reg r8),
    addq (reg r13) r15,
    adcq (reg r14) r10, movq (reg r10) (mem p0 2),
    adcq (reg rax) r11, movq (reg r11) (mem p0 3),
    adcq (imm 0) rdx, movq (reg rdx) (mem p0 4),
    movq (mem p2 1) (reg r8),
    movq (mem p1 0) (reg rax), mulq (reg r8), movq (reg rax) (reg r12),
    movq (reg rdx) (reg r9),
    movq (mem p1 1) (reg rax), mulq (reg r8), movq (reg rax) (reg r13),
    movq (reg rdx) (reg r10),
    movq (mem p1 2) (reg rax), mulq (reg r8), movq (reg rax) (reg r14),
    movq (reg rdx) (reg r11),
    movq (mem p1 3) (reg rax), mulq (reg r8),
    addq (reg r12) r15, movq (reg r15) (mem p0 1),
    adcq (reg r13) r9,
    adcq (reg r14) r10,
    adcq (reg rax) r11,
    adcq (imm 0) rdx,
    adcq (mem p0 2) r9, movq (reg r9) (reg r15),
    adcq (mem p0 3) r10, movq (reg r10) (mem p0 3),
    adcq (mem p0 4) r11, movq (reg r11) (mem p0 4),
    adcq (imm 0) rdx, movq (reg rdx) (mem p0 5),
    movq (mem p2 2) (reg r8),
    movq (mem p1 0) (reg rax), mulq (reg r8), movq (reg rax) (reg r12),
    movq (reg rdx) (reg r9),
    movq (mem p1 1) (reg rax), mulq (reg r8), movq (reg rax) (reg r13),
    movq (reg rdx) (reg r10),
    movq (mem p1 2) (reg rax), mulq (reg r8), movq (reg rax) (reg r14),
    movq (reg rdx) (reg r11),
    movq (mem p1 3) (reg rax), mulq (reg r8),
    addq (reg r12) r15, movq (reg r15) (mem p0 2),
    adcq (reg r13) r9,
    adcq (reg r14) r10,
    adcq (reg rax) r11,
    adcq (imm 0) rdx,
    adcq (mem p0 3) r9, movq (reg r9) (reg r15),
    adcq (mem p0 4) r10, movq (reg r10) (mem p0 4),
    adcq (mem p0 5) r11, movq (reg r11) (mem p0 5),
    adcq (imm 0) rdx, movq (reg rdx) (mem p0 6),
    movq (mem p2 3) (reg r8),
    movq (mem p1 0) (reg rax), mulq (reg r8), movq (reg rax) (reg r12),
    movq (reg rdx) (reg r9),
    movq (mem p1 1) (reg rax), mulq (reg r8), movq (reg rax) (reg r13),
    movq (reg rdx) (reg r10),
    movq (mem p1 2) (reg rax), mulq (reg r8), movq (reg rax) (reg r14),
    movq (reg rdx) (reg r11),
    movq (mem p1 3) (reg rax), mulq (reg r8),
    addq (reg r12) r15, movq (reg r15) (mem p0 3),
    adcq (reg r13) r9,
    adcq (reg r14) r10,
    adcq (reg rax) r11,
    adcq (imm 0) rdx,
    adcq (mem p0 4) r9, movq (reg r9) (mem p0 4),
    adcq (mem p0 5) r10, movq (reg r10) (mem p0 5),
    adcq (mem p0 6) r11, movq (reg r11) (mem p0 6),
    adcq (imm 0) rdx, movq (reg rdx) (mem p0 7)]

/-- `intsqr_mulq`: src/eltfp25519_1w_fullradix.c:1106-1146. -/
def intsqr_mulq : Block where
  clobbers := [rax, rcx, rdx, r8, r9, r10, r11, r12, r13, r14, r15]
  memory := true
  cc := true
  code := [
    movq (mem p1 0) (reg r8),
    movq (mem p1 1) (reg rax), mulq (reg r8), movq (reg rax) (reg r9),
    movq (reg rdx) (reg r10),
    movq (mem p1 2) (reg rax), mulq (reg r8), movq (reg rax) (reg r14),
    movq (reg rdx) (reg r11),
    movq (mem p1 3) (reg rax), mulq (reg r8), movq (reg rax) (reg r15),
    movq (reg rdx) (reg r12),
    movq (mem p1 3) (reg r8),
    movq (mem p1 1) (reg rax), mulq (reg r8), movq (reg rax) (reg rcx),
    movq (reg rdx) (reg r13),
    movq (mem p1 2) (reg rax), mulq (reg r8),
    addq (reg r14) r10,
    adcq (reg r15) r11, movq (imm 0) (reg r15),
    adcq (reg rcx) r12,
    adcq (reg rax) r13,
    adcq (imm 0) rdx, movq (reg rdx) (reg r14),
    movq (mem p1 1) (reg rax), mulq (mem p1 2),
    addq (reg rax) r11,
    adcq (reg rdx) r12,
    adcq (imm 0) r13,
    adcq (imm 0) r14,
    adcq (imm 0) r15,
    shldq 1 r14 r15, movq (reg r15) (mem p0 7),
    shldq 1 r13 r14, movq (reg r14) (mem p0 6),
    shldq 1 r12 r13, movq (reg r13) (mem p0 5),
    shldq 1 r11 r12, movq (reg r12) (mem p0 4),
    shldq 1 r10 r11, movq (reg r11) (mem p0 3),
    shldq 1 r9 r10, movq (reg r10) (mem p0 2),
    shlq 1 r9, movq (reg r9) (mem p0 1),
    movq (mem p1 0) (reg rax), mulq (reg rax), movq (reg rax) (mem p0 0),
    movq (reg rdx) (reg r9),
    movq (mem p1 1) (reg rax), mulq (reg rax), movq (reg rax) (reg r10),
    movq (reg rdx) (reg r11),
    movq (mem p1 2) (reg rax), mulq (reg rax), movq (reg rax) (reg r12),
    movq (reg rdx) (reg r13),
    movq (mem p1 3) (reg rax), mulq (reg rax), movq (reg rax) (reg r14),
    movq (reg rdx) (reg r15),
    addq (mem p0 1) r9, movq (reg r9) (mem p0 1),
    adcq (mem p0 2) r10, movq (reg r10) (mem p0 2),
    adcq (mem p0 3) r11, movq (reg r11) (mem p0 3),
    adcq (mem p0 4) r12, movq (reg r12) (mem p0 4),
    adcq (mem p0 5) r13, movq (reg r13) (mem p0 5),
    adcq (mem p0 6) r14, movq (reg r14) (mem p0 6),
    adcq (mem p0 7) r15, movq (reg r15) (mem p0 7)]

/-- `intmul2_mulq`: src/eltfp25519_1w_fullradix.c:185-314. -/
def intmul2_mulq : Block where
  clobbers := [rax, rcx, rdx, r8, r9, r10, r11, r12, r13, r14, r15]
  memory := true
  cc := true
  code := [
    movq (mem p1 0) (reg r15),
    movq (mem p2 0) (reg rax), mulq (reg r15), movq (reg rax) (mem p0 0),
    movq (reg rdx) (reg r9),
    movq (mem p2 1) (reg rax), mulq (reg r15), movq (reg rax) (reg r10),
    movq (reg rdx) (reg r11),
    movq (mem p2 2) (reg rax), mulq (reg r15), movq (reg rax) (reg r12),
    movq (reg rdx) (reg r13),
    movq (mem p2 3) (reg rax), mulq (reg r15),
    addq (reg r10) r9,
    adcq (reg r12) r11,
    adcq (reg rax) r13,
    adcq (imm 0) rdx, movq (reg rdx) (reg r15),
    movq (mem p1 1) (reg r14),
    movq (mem p2 0) (reg rax), mulq (reg r14), movq (reg rax) (reg rcx),
    movq (reg rdx) (reg r8),
    movq (mem p2 1) (reg rax), mulq (reg r14), movq (reg rdx) (reg r10),
    addq (reg r9) rcx, movq (reg rcx) (mem p0 1),
    adcq (reg rax) r8,
    adcq (imm 0) r10,
    movq (mem p2 2) (reg rax), mulq (reg r14), movq (reg rax) (reg rcx),
    movq (reg rdx) (reg r12),
    movq (mem p2 3) (reg rax), mulq (reg r14),
    addq (reg rcx) r10,
    adcq (reg rax) r12,
    adcq (imm 0) rdx,
    addq (reg r11) r8,
    adcq (reg r13) r10,
    adcq (reg r15) r12,
    adcq (imm 0) rdx, movq (reg rdx) (reg r14),
    movq (mem p1 2) (reg r15),
    movq (mem p2 0) (reg rax), mulq (reg r15), movq (reg rax) (reg rcx),
    movq (reg rdx) (reg r9),
    movq (mem p2 1) (reg rax), mulq (reg r15), movq (reg rdx) (reg r11),
    addq (reg r8) rcx, movq (reg rcx) (mem p0 2),
    adcq (reg rax) r9,
    adcq (imm 0) r11,
    movq (mem p2 2) (reg rax), mulq (reg r15), movq (reg rax) (reg rcx),
    movq (reg rdx) (reg r13),
    movq (mem p2 3) (reg rax), mulq (reg r15),
    addq (reg rcx) r11,
    adcq (reg rax) r13,
    adcq (imm 0) rdx,
    addq (reg r10) r9,
    adcq (reg r12) r11,
    adcq (reg r14) r13,
    adcq (imm 0) rdx, movq (reg rdx) (reg r15),
    movq (mem p1 3) (reg r14),
    movq (mem p2 0) (reg rax), mulq (reg r14), movq (reg rax) (reg rcx),
    movq (reg rdx) (reg r8),
    movq (mem p2 1) (reg rax), mulq (reg r14), movq (reg rdx) (reg r10),
    addq (reg r9) rcx, movq (reg rcx) (mem p0 3),
    adcq (reg rax) r8,
    adcq (imm 0) r10,
    movq (mem p2 2) (reg rax), mulq (reg r14), movq (reg rax) (reg rcx),
    movq (reg rdx) (reg r12),
    movq (mem p2 3) (reg rax), mulq (reg r14),
    addq (reg rcx) r10,
    adcq (reg rax) r12,
    adcq (imm 0) rdx,
    addq (reg r11) r8, movq (reg r8) (mem p0 4),
    adcq (reg r13) r10, movq (reg r10) (mem p0 5),
    adcq (reg r15) r12, movq (reg r12) (mem p0 6),
    adcq (imm 0) rdx, movq (reg rdx) (mem p0 7),
    movq (mem p1 4) (reg r15),
    movq (mem p2 4) (reg rax), mulq (reg r15), movq (reg rax) (mem p0 8),
    movq (reg rdx) (reg r9),
    movq (mem p2 5) (reg rax), mulq (reg r15), movq (reg rax) (reg r10),
    movq (reg rdx) (reg r11),
    movq (mem p2 6) (reg rax), mulq (reg r15), movq (reg rax) (reg r12),
    movq (reg rdx) (reg r13),
    movq (mem p2 7) (reg rax), mulq (reg r15),
    addq (reg r10) r9,
    adcq (reg r12) r11,
    adcq (reg rax) r13,
    adcq (imm 0) rdx, movq (reg rdx) (reg r15),
    movq (mem p1 5) (reg r14),
    movq (mem p2 4) (reg rax), mulq (reg r14), movq (reg rax) (reg rcx),
    movq (reg rdx) (reg r8),
    movq (mem p2 5) (reg rax), mulq (reg r14), movq (reg rdx) (reg r10),
    addq (reg r9) rcx, movq (reg rcx) (mem p0 9),
    adcq (reg rax) r8,
    adcq (imm 0) r10,
    movq (mem p2 6) (reg rax), mulq (reg r14), movq (reg rax) (reg rcx),
    movq (reg rdx) (reg r12),
    movq (mem p2 7) (reg rax), mulq (reg r14),
    addq (reg rcx) r10,
    adcq (reg rax) r12,
    adcq (imm 0) rdx,
    addq (reg r11) r8,
    adcq (reg r13) r10,
    adcq (reg r15) r12,
    adcq (imm 0) rdx, movq (reg rdx) (reg r14),
    movq (mem p1 6) (reg r15),
    movq (mem p2 4) (reg rax), mulq (reg r15), movq (reg rax) (reg rcx),
    movq (reg rdx) (reg r9),
    movq (mem p2 5) (reg rax), mulq (reg r15), movq (reg rdx) (reg r11),
    addq (reg r8) rcx, movq (reg rcx) (mem p0 10),
    adcq (reg rax) r9,
    adcq (imm 0) r11,
    movq (mem p2 6) (reg rax), mulq (reg r15), movq (reg rax) (reg rcx),
    movq (reg rdx) (reg r13),
    movq (mem p2 7) (reg rax), mulq (reg r15),
    addq (reg rcx) r11,
    adcq (reg rax) r13,
    adcq (imm 0) rdx,
    addq (reg r10) r9,
    adcq (reg r12) r11,
    adcq (reg r14) r13,
    adcq (imm 0) rdx, movq (reg rdx) (reg r15),
    movq (mem p1 7) (reg r14),
    movq (mem p2 4) (reg rax), mulq (reg r14), movq (reg rax) (reg rcx),
    movq (reg rdx) (reg r8),
    movq (mem p2 5) (reg rax), mulq (reg r14), movq (reg rdx) (reg r10),
    addq (reg r9) rcx, movq (reg rcx) (mem p0 11),
    adcq (reg rax) r8,
    adcq (imm 0) r10,
    movq (mem p2 6) (reg rax), mulq (reg r14), movq (reg rax) (reg rcx),
    movq (reg rdx) (reg r12),
    movq (mem p2 7) (reg rax), mulq (reg r14),
    addq (reg rcx) r10,
    adcq (reg rax) r12,
    adcq (imm 0) rdx,
    addq (reg r11) r8, movq (reg r8) (mem p0 12),
    adcq (reg r13) r10, movq (reg r10) (mem p0 13),
    adcq (reg r15) r12, movq (reg r12) (mem p0 14),
    adcq (imm 0) rdx, movq (reg rdx) (mem p0 15)]

/-- `intsqr2_mulq`: src/eltfp25519_1w_fullradix.c:513-595. -/
def intsqr2_mulq : Block where
  clobbers := [rax, rcx, rdx, r8, r9, r10, r11, r12, r13, r14, r15]
  memory := true
  cc := true
  code := [
    movq (mem p1 0) (reg r8),
    movq (mem p1 1) (reg rax), mulq (reg r8), movq (reg rax) (reg r9),
    movq (reg rdx) (reg r10),
    movq (mem p1 2) (reg rax), mulq (reg r8), movq (reg rax) (reg r14),
    movq (reg rdx) (reg r11),
    movq (mem p1 3) (reg rax), mulq (reg r8), movq (reg rax) (reg r15),
    movq (reg rdx) (reg r12),
    movq (mem p1 3) (reg r8),
    movq (mem p1 1) (reg rax), mulq (reg r8), movq (reg rax) (reg rcx),
    movq (reg rdx) (reg r13),
    movq (mem p1 2) (reg rax), mulq (reg r8),
    addq (reg r14) r10,
    adcq (reg r15) r11, movq (imm 0) (reg r15),
    adcq (reg rcx) r12,
    adcq (reg rax) r13,
    adcq (imm 0) rdx, movq (reg rdx) (reg r14),
    movq (mem p1 1) (reg rax), mulq (mem p1 2),
    addq (reg rax) r11,
    adcq (reg rdx) r12,
    adcq (imm 0) r13,
    adcq (imm 0) r14,
    adcq (imm 0) r15,
    shldq 1 r14 r15, movq (reg r15) (mem p0 7),
    shldq 1 r13 r14, movq (reg r14) (mem p0 6),
    shldq 1 r12 r13, movq (reg r13) (mem p0 5),
    shldq 1 r11 r12, movq (reg r12) (mem p0 4),
    shldq 1 r10 r11, movq (reg r11) (mem p0 3),
    shldq 1 r9 r10, movq (reg r10) (mem p0 2),
    shlq 1 r9, movq (reg r9) (mem p0 1),
    movq (mem p1 0) (reg rax), mulq (reg rax), movq (reg rax) (mem p0 0),
    movq (reg rdx) (reg r9),
    movq (mem p1 1) (reg rax), mulq (reg rax), movq (reg rax) (reg r10),
    movq (reg rdx) (reg r11),
    movq (mem p1 2) (reg rax), mulq (reg rax), movq (reg rax) (reg r12),
    movq (reg rdx) (reg r13),
    movq (mem p1 3) (reg rax), mulq (reg rax), movq (reg rax) (reg r14),
    movq (reg rdx) (reg r15),
    addq (mem p0 1) r9, movq (reg r9) (mem p0 1),
    adcq (mem p0 2) r10, movq (reg r10) (mem p0 2),
    adcq (mem p0 3) r11, movq (reg r11) (mem p0 3),
    adcq (mem p0 4) r12, movq (reg r12) (mem p0 4),
    adcq (mem p0 5) r13, movq (reg r13) (mem p0 5),
    adcq (mem p0 6) r14, movq (reg r14) (mem p0 6),
    adcq (mem p0 7) r15, movq (reg r15) (mem p0 7),
    movq (mem p1 4) (reg r8),
    movq (mem p1 5) (reg rax), mulq (reg r8), movq (reg rax) (reg r9),
    movq (reg rdx) (reg r10),
    movq (mem p1 6) (reg rax), mulq (reg r8), movq (reg rax) (reg r14),
    movq (reg rdx) (reg r11),
    movq (mem p1 7) (reg rax), mulq (reg r8), movq (reg rax) (reg r15),
    movq (reg rdx) (reg r12),
    movq (mem p1 7) (reg r8),
    movq (mem p1 5) (reg rax), mulq (reg r8), movq (reg rax) (reg rcx),
    movq (reg rdx) (reg r13),
    movq (mem p1 6) (reg rax), mulq (reg r8),
    addq (reg r14) r10,
    adcq (reg r15) r11, movq (imm 0) (reg r15),
    adcq (reg rcx) r12,
    adcq (reg rax) r13,
    adcq (imm 0) rdx, movq (reg rdx) (reg r14),
    movq (mem p1 5) (reg rax), mulq (mem p1 6),
    addq (reg rax) r11,
    adcq (reg rdx) r12,
    adcq (imm 0) r13,
    adcq (imm 0) r14,
    adcq (imm 0) r15,
    shldq 1 r14 r15, movq (reg r15) (mem p0 15),
    shldq 1 r13 r14, movq (reg r14) (mem p0 14),
    shldq 1 r12 r13, movq (reg r13) (mem p0 13),
    shldq 1 r11 r12, movq (reg r12) (mem p0 12),
    shldq 1 r10 r11, movq (reg r11) (mem p0 11),
    shldq 1 r9 r10, movq (reg r10) (mem p0 10),
    shlq 1 r9, movq (reg r9) (mem p0 9),
    movq (mem p1 4) (reg rax), mulq (reg rax), movq (reg rax) (mem p0 8),
    movq (reg rdx) (reg r9),
    movq (mem p1 5) (reg rax), mulq (reg rax), movq (reg rax) (reg r10),
    movq (reg rdx) (reg r11),
    movq (mem p1 6) (reg rax), mulq (reg rax), movq (reg rax) (reg r12),
    movq (reg rdx) (reg r13),
    movq (mem p1 7) (reg rax), mulq (reg rax), movq (reg rax) (reg r14),
    movq (reg rdx) (reg r15),
    addq (mem p0 9) r9, movq (reg r9) (mem p0 9),
    adcq (mem p0 10) r10, movq (reg r10) (mem p0 10),
    adcq (mem p0 11) r11, movq (reg r11) (mem p0 11),
    adcq (mem p0 12) r12, movq (reg r12) (mem p0 12),
    adcq (mem p0 13) r13, movq (reg r13) (mem p0 13),
    adcq (mem p0 14) r14, movq (reg r14) (mem p0 14),
    adcq (mem p0 15) r15, movq (reg r15) (mem p0 15)]

/-- `reduce_mulq`: src/eltfp25519_1w_fullradix.c:1218-1239. -/
def reduce_mulq : Block where
  clobbers := [rax, rdx, r8, r9, r10, r11, r12, r13]
  memory := true
  cc := true
  code := [
    movq (imm 38) (reg rax), mulq (mem p1 4), movq (reg rax) (reg r8),
    movq (reg rdx) (reg r9),
    movq (imm 38) (reg rax), mulq (mem p1 5), movq (reg rax) (reg r12),
    movq (reg rdx) (reg r10),
    movq (imm 38) (reg rax), mulq (mem p1 6), movq (reg rax) (reg r13),
    movq (reg rdx) (reg r11),
    movq (imm 38) (reg rax), mulq (mem p1 7),
    addq (reg r12) r9,
    adcq (reg r13) r10,
    adcq (reg rax) r11,
    adcq (imm 0) rdx,
    addq (mem p1 0) r8,
    adcq (mem p1 1) r9,
    adcq (mem p1 2) r10,
    adcq (mem p1 3) r11,
    adcq (imm 0) rdx,
    movq (imm 38) (reg rax),
    imulq (reg rax) rdx,
    addq (reg rdx) r8,
    adcq (imm 0) r9, movq (reg r9) (mem p0 1),
    adcq (imm 0) r10, movq (reg r10) (mem p0 2),
    adcq (imm 0) r11, movq (reg r11) (mem p0 3),
    movq (imm 0) (reg rdx),
    cmovcq (reg rax) rdx,
    addq (reg rdx) r8, movq (reg r8) (mem p0 0)]

/-- `reduce2_mulq`: src/eltfp25519_1w_fullradix.c:700-744. -/
def reduce2_mulq : Block where
  clobbers := [rax, rdx, r8, r9, r10, r11, r12, r13]
  memory := true
  cc := true
  code := [
    movq (imm 38) (reg rax), mulq (mem p1 4), movq (reg rax) (reg r8),
    movq (reg rdx) (reg r9),
    movq (imm 38) (reg rax), mulq (mem p1 5), movq (reg rax) (reg r12),
    movq (reg rdx) (reg r10),
    movq (imm 38) (reg rax), mulq (mem p1 6), movq (reg rax) (reg r13),
    movq (reg rdx) (reg r11),
    movq (imm 38) (reg rax), mulq (mem p1 7),
    addq (reg r12) r9,
    adcq (reg r13) r10,
    adcq (reg rax) r11,
    adcq (imm 0) rdx,
    addq (mem p1 0) r8,
    adcq (mem p1 1) r9,
    adcq (mem p1 2) r10,
    adcq (mem p1 3) r11,
    adcq (imm 0) rdx,
    movq (imm 38) (reg rax),
    imulq (reg rax) rdx,
    addq (reg rdx) r8,
    adcq (imm 0) r9, movq (reg r9) (mem p0 1),
    adcq (imm 0) r10, movq (reg r10) (mem p0 2),
    adcq (imm 0) r11, movq (reg r11) (mem p0 3),
    movq (imm 0) (reg rdx),
    cmovcq (reg rax) rdx,
    addq (reg rdx) r8, movq (reg r8) (mem p0 0),
    movq (imm 38) (reg rax), mulq (mem p1 12), movq (reg rax) (reg r8),
    movq (reg rdx) (reg r9),
    movq (imm 38) (reg rax), mulq (mem p1 13), movq (reg rax) (reg r12),
    movq (reg rdx) (reg r10),
    movq (imm 38) (reg rax), mulq (mem p1 14), movq (reg rax) (reg r13),
    movq (reg rdx) (reg r11),
    movq (imm 38) (reg rax), mulq (mem p1 15),
    addq (reg r12) r9,
    adcq (reg r13) r10,
    adcq (reg rax) r11,
    adcq (imm 0) rdx,
    addq (mem p1 8) r8,
    adcq (mem p1 9) r9,
    adcq (mem p1 10) r10,
    adcq (mem p1 11) r11,
    adcq (imm 0) rdx,
    movq (imm 38) (reg rax),
    imulq (reg rax) rdx,
    addq (reg rdx) r8,
    adcq (imm 0) r9, movq (reg r9) (mem p0 5),
    adcq (imm 0) r10, movq (reg r10) (mem p0 6),
    adcq (imm 0) r11, movq (reg r11) (mem p0 7),
    movq (imm 0) (reg rdx),
    cmovcq (reg rax) rdx,
    addq (reg rdx) r8, movq (reg r8) (mem p0 4)]

/-- `mula24_mulx`: src/eltfp25519_1w_fullradix.c:1525-1539. -/
def mula24_mulx : Block where
  clobbers := [rax, rcx, rdx, r8, r9, r10, r11]
  memory := true
  cc := true
  code := [
    movq arg (reg rdx),
    mulxq (mem p1 0) r8 r10,
    mulxq (mem p1 1) r9 r11, addq (reg r10) r9,
    mulxq (mem p1 2) r10 rax, adcq (reg r11) r10,
    mulxq (mem p1 3) r11 rcx, adcq (reg rax) r11,
    adcq (imm 0) rcx,
    movq (imm 38) (reg rdx),
    imulq (reg rdx) rcx,
    addq (reg rcx) r8,
    adcq (imm 0) r9, movq (reg r9) (mem p0 1),
    adcq (imm 0) r10, movq (reg r10) (mem p0 2),
    adcq (imm 0) r11, movq (reg r11) (mem p0 3),
    movq (imm 0) (reg rcx),
    cmovcq (reg rdx) rcx,
    addq (reg rcx) r8, movq (reg r8) (mem p0 0)]

/-- `mula24_mulq`: src/eltfp25519_1w_fullradix.c:1549-1565. -/
def mula24_mulq : Block where
  clobbers := [rax, rdx, r8, r9, r10, r11, r12, r13]
  memory := true
  cc := true
  code := [
    movq arg (reg rax), mulq (mem p1 0), movq (reg rax) (reg r8), movq (reg rdx) (reg r9),
    movq arg (reg rax), mulq (mem p1 1), movq (reg rax) (reg r12), movq (reg rdx) (reg r10),
    movq arg (reg rax), mulq (mem p1 2), movq (reg rax) (reg r13), movq (reg rdx) (reg r11),
    movq arg (reg rax), mulq (mem p1 3),
    addq (reg r12) r9,
    adcq (reg r13) r10,
    adcq (reg rax) r11,
    adcq (imm 0) rdx,
    movq (imm 38) (reg rax),
    imulq (reg rax) rdx,
    addq (reg rdx) r8,
    adcq (imm 0) r9, movq (reg r9) (mem p0 1),
    adcq (imm 0) r10, movq (reg r10) (mem p0 2),
    adcq (imm 0) r11, movq (reg r11) (mem p0 3),
    movq (imm 0) (reg rdx),
    cmovcq (reg rax) rdx,
    addq (reg rdx) r8, movq (reg r8) (mem p0 0)]

/-- `add_adx`: src/eltfp25519_1w_fullradix.c:1260-1274. -/
def add_adx : Block where
  clobbers := [rax, rcx, r8, r9, r10, r11]
  memory := true
  cc := true
  code := [
    movq (imm 38) (reg rax),
    xorl rcx,
    movq (mem p2 0) (reg r8), adcx (mem p1 0) r8,
    movq (mem p2 1) (reg r9), adcx (mem p1 1) r9,
    movq (mem p2 2) (reg r10), adcx (mem p1 2) r10,
    movq (mem p2 3) (reg r11), adcx (mem p1 3) r11,
    cmovcq (reg rax) rcx,
    xorl rax,
    adcx (reg rcx) r8,
    adcx (reg rax) r9, movq (reg r9) (mem p0 1),
    adcx (reg rax) r10, movq (reg r10) (mem p0 2),
    adcx (reg rax) r11, movq (reg r11) (mem p0 3),
    movq (imm 38) (reg rcx),
    cmovcq (reg rcx) rax,
    addq (reg rax) r8, movq (reg r8) (mem p0 0)]

/-- `add_adc`: src/eltfp25519_1w_fullradix.c:1283-1296. -/
def add_adc : Block where
  clobbers := [rax, rcx, r8, r9, r10, r11]
  memory := true
  cc := true
  code := [
    movq (imm 38) (reg rax),
    movq (mem p2 0) (reg r8), addq (mem p1 0) r8,
    movq (mem p2 1) (reg r9), adcq (mem p1 1) r9,
    movq (mem p2 2) (reg r10), adcq (mem p1 2) r10,
    movq (mem p2 3) (reg r11), adcq (mem p1 3) r11,
    movq (imm 0) (reg rcx),
    cmovcq (reg rax) rcx,
    addq (reg rcx) r8,
    adcq (imm 0) r9, movq (reg r9) (mem p0 1),
    adcq (imm 0) r10, movq (reg r10) (mem p0 2),
    adcq (imm 0) r11, movq (reg r11) (mem p0 3),
    movq (imm 0) (reg rcx),
    cmovcq (reg rax) rcx,
    addq (reg rcx) r8, movq (reg r8) (mem p0 0)]

/-- `sub`: src/eltfp25519_1w_fullradix.c:1313-1326. -/
def sub : Block where
  clobbers := [rax, rcx, r8, r9, r10, r11]
  memory := true
  cc := true
  code := [
    movq (imm 38) (reg rax),
    movq (mem p1 0) (reg r8), subq (mem p2 0) r8,
    movq (mem p1 1) (reg r9), sbbq (mem p2 1) r9,
    movq (mem p1 2) (reg r10), sbbq (mem p2 2) r10,
    movq (mem p1 3) (reg r11), sbbq (mem p2 3) r11,
    movq (imm 0) (reg rcx),
    cmovcq (reg rax) rcx,
    subq (reg rcx) r8,
    sbbq (imm 0) r9, movq (reg r9) (mem p0 1),
    sbbq (imm 0) r10, movq (reg r10) (mem p0 2),
    sbbq (imm 0) r11, movq (reg r11) (mem p0 3),
    movq (imm 0) (reg rcx),
    cmovcq (reg rax) rcx,
    subq (reg rcx) r8, movq (reg r8) (mem p0 0)]

/-- `cmv`: src/eltfp25519_1w_fullradix.c:1335-1350. -/
def cmv : Block where
  clobbers := [rax]
  memory := true
  cc := true
  code := [
    test arg,
    movq (mem p1 0) (reg rax),
    cmovnz (mem p2 0) rax,
    movq (reg rax) (mem p0 0),
    movq (mem p1 1) (reg rax),
    cmovnz (mem p2 1) rax,
    movq (reg rax) (mem p0 1),
    movq (mem p1 2) (reg rax),
    cmovnz (mem p2 2) rax,
    movq (reg rax) (mem p0 2),
    movq (mem p1 3) (reg rax),
    cmovnz (mem p2 3) rax,
    movq (reg rax) (mem p0 3)]

/-- `select_cmov_x64`: src/ladder255.c:97-112. -/
def select_cmov_x64 : Block where
  clobbers := [rax]
  memory := true
  cc := true
  code := [
    test arg,
    movq (mem p0 0) (reg rax),
    cmovnz (mem p1 0) rax,
    movq (reg rax) (mem p0 0),
    movq (mem p0 1) (reg rax),
    cmovnz (mem p1 1) rax,
    movq (reg rax) (mem p0 1),
    movq (mem p0 2) (reg rax),
    cmovnz (mem p1 2) rax,
    movq (reg rax) (mem p0 2),
    movq (mem p0 3) (reg rax),
    cmovnz (mem p1 3) rax,
    movq (reg rax) (mem p0 3)]

end Verif.X86.Fp25519
