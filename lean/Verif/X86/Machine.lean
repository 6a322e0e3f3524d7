import Verif.WordHalf

/-!
# A small x86-64 machine

The inline assembly of the library, as data: a block is a list of instructions
over registers, immediate values and 64-bit words at a constant offset from one
of the pointer operands `%0`, `%1`, `%2` of the block.  No instruction of the
blocks jumps, and no address depends on anything but the pointer operands.

`exec` runs a block on any kind of memory.  Two kinds are used:

* `Mem`, a memory of objects in which the operands are arbitrary pointers, so that
  buffers may coincide or overlap;
* `Reg3`, three buffers that have nothing to do with each other.

Simplifications: offsets count 64-bit words (all buffers of the library are
8-byte aligned); of the flags CF and OF are kept, and ZF, which only `test` and
the conditional moves after it use, from the last `test` on: no other
instruction of these blocks changes flags.  Where the manual says that an
instruction leaves OF undefined, OF gets the value `junk`, which is arbitrary.
-/

namespace Verif.X86

/-- The general registers used by the blocks. -/
inductive Reg
  | rax | rbx | rcx | rdx | r8 | r9 | r10 | r11 | r12 | r13 | r14 | r15
deriving DecidableEq

/-- The operands `%0`, `%1`, `%2` of a block, holding the addresses of the
arguments of the C function. -/
inductive Ptr
  | p0 | p1 | p2
deriving DecidableEq

/-- An operand: `$n`, `%%r`, `8i(%p)`, or the operand of the block that is no
pointer (the constant of `mula24`, the selector of `cmv`). -/
inductive Opd
  | imm (n : ℕ)
  | reg (r : Reg)
  | mem (p : Ptr) (i : ℕ)
  | arg
deriving DecidableEq

/-- The instructions of the blocks, operands in the order of the source (AT&T:
source first, destination last). -/
inductive Instr
  /-- `movq`, and `movl $n, r32` which clears the upper half -/
  | movq (src dst : Opd)
  /-- `xorl r, r` -/
  | xorl (r : Reg)
  | addq (src : Opd) (dst : Reg)
  | adcq (src : Opd) (dst : Reg)
  | adcx (src : Opd) (dst : Reg)
  | adox (src : Opd) (dst : Reg)
  | subq (src : Opd) (dst : Reg)
  | sbbq (src : Opd) (dst : Reg)
  /-- `mulx src, lo, hi`, the other factor in rdx -/
  | mulxq (src : Opd) (lo hi : Reg)
  /-- `mulq src`, the other factor in rax, the product in rdx:rax -/
  | mulq (src : Opd)
  | imulq (src : Opd) (dst : Reg)
  /-- `cmovc` (also on 32-bit registers whose upper halves are zero) -/
  | cmovcq (src : Opd) (dst : Reg)
  | shldq (n : ℕ) (src dst : Reg)
  | shlq (n : ℕ) (dst : Reg)
  | shrdq (n : ℕ) (src dst : Reg)
  | andq (src : Opd) (dst : Reg)
  | orq (src : Opd) (dst : Reg)
  /-- `clc` -/
  | clcf
  /-- `setc` on the low byte of a register -/
  | setcr (dst : Reg)
  /-- `btl $0, r32` -/
  | btl0 (src : Reg)
  /-- `test r, r` -/
  | test (src : Opd)
  | cmovnz (src : Opd) (dst : Reg)
deriving DecidableEq

/-- A memory: how a word at an offset of a pointer operand is read and written. -/
structure Memory (M : Type) where
  load : M → Ptr → ℕ → W
  store : M → Ptr → ℕ → W → M

/-- The state of the machine. -/
structure State (M : Type) where
  regs : Reg → W
  cf : Bool
  ovf : Bool
  zf : Bool
  arg : W
  junk : Bool
  mem : M

namespace State
variable {M : Type}

/-- Write a register. -/
def setReg (st : State M) (r : Reg) (v : W) : State M :=
  { st with regs := fun r' => if r' = r then v else st.regs r' }

/-- Set CF. -/
def setCf (st : State M) (c : Bool) : State M := { st with cf := c }

/-- Set OF. -/
def setOvf (st : State M) (c : Bool) : State M := { st with ovf := c }

/-- Read an operand. -/
def get (I : Memory M) (st : State M) : Opd → W
  | .imm n => BitVec.ofNat 64 n
  | .reg r => st.regs r
  | .mem p i => I.load st.mem p i
  | .arg => st.arg

/-- Write an operand (a register or a word of memory). -/
def put (I : Memory M) (st : State M) (o : Opd) (v : W) : State M :=
  match o with
  | .imm _ => st
  | .arg => st
  | .reg r => st.setReg r v
  | .mem p i => { st with mem := I.store st.mem p i v }

end State

/-- Signed overflow of an addition with result `r`. -/
def addOvf (x y r : W) : Bool := x.msb == y.msb && r.msb != x.msb

/-- Signed overflow of a subtraction with result `r`. -/
def subOvf (x y r : W) : Bool := x.msb != y.msb && r.msb != x.msb

/-- Run a block and pass the final state on (Intel SDM vol. 2; the arithmetic is
that of Verif/Word.lean). -/
def exec {M α : Type} (I : Memory M) : List Instr → State M → (State M → α) → α
  | [], st, k => k st
  | .movq s d :: is, st, k => Verif.mov (st.get I s) fun v => exec I is (st.put I d v) k
  | .xorl r :: is, st, k =>
    Verif.xor0 fun v c o => exec I is (((st.setReg r v).setCf c).setOvf o) k
  | .addq s d :: is, st, k =>
    Verif.add (st.regs d) (st.get I s) fun v c =>
      exec I is (((st.setReg d v).setCf c).setOvf (addOvf (st.regs d) (st.get I s) v)) k
  | .adcq s d :: is, st, k =>
    Verif.adc (st.regs d) (st.get I s) st.cf fun v c =>
      exec I is (((st.setReg d v).setCf c).setOvf (addOvf (st.regs d) (st.get I s) v)) k
  | .adcx s d :: is, st, k =>
    Verif.adc (st.regs d) (st.get I s) st.cf fun v c => exec I is ((st.setReg d v).setCf c) k
  | .adox s d :: is, st, k =>
    Verif.adc (st.regs d) (st.get I s) st.ovf fun v c => exec I is ((st.setReg d v).setOvf c) k
  | .subq s d :: is, st, k =>
    Verif.sub (st.regs d) (st.get I s) fun v c =>
      exec I is (((st.setReg d v).setCf c).setOvf (subOvf (st.regs d) (st.get I s) v)) k
  | .sbbq s d :: is, st, k =>
    Verif.sbb (st.regs d) (st.get I s) st.cf fun v c =>
      exec I is (((st.setReg d v).setCf c).setOvf (subOvf (st.regs d) (st.get I s) v)) k
  | .mulxq s lo hi :: is, st, k =>
    Verif.mulx (st.regs .rdx) (st.get I s) fun l h =>
      exec I is ((st.setReg lo l).setReg hi h) k
  | .mulq s :: is, st, k =>
    Verif.mulx (st.regs .rax) (st.get I s) fun l h =>
      exec I is ((((st.setReg .rax l).setReg .rdx h).setCf (h != 0#64)).setOvf (h != 0#64)) k
  | .imulq s d :: is, st, k =>
    Verif.imul (st.regs d) (st.get I s) fun v c o =>
      exec I is (((st.setReg d v).setCf c).setOvf o) k
  | .cmovcq s d :: is, st, k =>
    Verif.cmov st.cf (st.regs d) (st.get I s) fun v => exec I is (st.setReg d v) k
  | .shldq n s d :: is, st, k =>
    Verif.shld n (st.regs s) (st.regs d) fun v =>
      exec I is (((st.setReg d v).setCf ((st.regs d).getLsbD (64 - n))).setOvf st.junk) k
  | .shlq n d :: is, st, k =>
    Verif.shl n (st.regs d) fun v =>
      exec I is (((st.setReg d v).setCf ((st.regs d).getLsbD (64 - n))).setOvf st.junk) k
  | .shrdq n s d :: is, st, k =>
    Verif.shrd n (st.regs s) (st.regs d) fun v =>
      exec I is (((st.setReg d v).setCf ((st.regs d).getLsbD (n - 1))).setOvf st.junk) k
  | .andq s d :: is, st, k =>
    Verif.and (st.regs d) (st.get I s) fun v c o =>
      exec I is (((st.setReg d v).setCf c).setOvf o) k
  | .orq s d :: is, st, k =>
    Verif.or (st.regs d) (st.get I s) fun v c o =>
      exec I is (((st.setReg d v).setCf c).setOvf o) k
  | .clcf :: is, st, k => Verif.clc fun c => exec I is (st.setCf c) k
  | .setcr d :: is, st, k => Verif.setc (st.regs d) st.cf fun v => exec I is (st.setReg d v) k
  | .btl0 s :: is, st, k => Verif.bt0 (st.regs s) fun c => exec I is ((st.setCf c).setOvf st.junk) k
  | .test s :: is, st, k => exec I is { st with cf := false, ovf := false, zf := st.get I s == 0#64 } k
  | .cmovnz s d :: is, st, k =>
    Verif.cmov (!st.zf) (st.regs d) (st.get I s) fun v => exec I is (st.setReg d v) k

/-- A pointer: an object of the program (an array, a local variable) and an offset
in 64-bit words.  Different objects do not overlap; a memory without any structure
is one object. -/
structure Loc where
  obj : ℕ
  off : ℕ
deriving DecidableEq

/-- The memory: the words of every object. -/
abbrev Mem := ℕ → ℕ → W

/-- Word `i` of the buffer at `p`. -/
def Mem.get (m : Mem) (p : Loc) (i : ℕ) : W := m p.obj (p.off + i)

/-- Write one word. -/
def Mem.set (m : Mem) (p : Loc) (i : ℕ) (v : W) : Mem :=
  fun o x => if o = p.obj ∧ x = p.off + i then v else m o x

/-- The memory seen through the addresses held by the pointer operands. -/
def flat (ptr : Ptr → Loc) : Memory Mem where
  load m p i := m.get (ptr p) i
  store m p i v := m.set (ptr p) i v

/-- Three separate buffers. -/
abbrev Reg3 := Ptr → ℕ → W

/-- Separate buffers: a store changes one word of one buffer. -/
def sep : Memory Reg3 where
  load m p i := m p i
  store m p i v := fun q j => if q = p ∧ j = i then v else m q j

/-- A block of assembly with what it tells the compiler: the registers it may
change, whether it accesses memory and whether it changes the flags. -/
structure Block where
  code : List Instr
  clobbers : List Reg
  memory : Bool
  cc : Bool

end Verif.X86
