import Mathlib.Data.Nat.Notation

/-!
# The capability report of the command-line programs

`third_party/cpu_caps.c` asks the processor (instruction `CPUID`) which instruction sets it has.
The processor is a function from the leaf `EAX` and the sub-leaf `ECX` to the four registers that
`CPUID` leaves.
-/

namespace Verif.Cpu

/-- The four registers `CPUID` writes. -/
structure Regs where
  eax : BitVec 32
  ebx : BitVec 32
  ecx : BitVec 32
  edx : BitVec 32
deriving DecidableEq

/-- A processor, as far as `CPUID` shows it: leaf, sub-leaf ↦ registers. -/
abbrev Cpuid := BitVec 32 → BitVec 32 → Regs

/-- `enum Capabilities`. third_party/cpu_caps.c:8-21. -/
inductive Cap where
  | CMOV | SSE | SSE2 | SSE3 | SSSE3 | SSE4_1 | SSE4_2 | AVX | AVX2 | BMI | BMI2 | ADX
deriving DecidableEq, Repr

/-- The values of the enumeration: the constants `bit_…` of the compiler's `<cpuid.h>`.
third_party/cpu_caps.c:8-21. -/
def Cap.mask : Cap → BitVec 32
  | .CMOV => 1#32 <<< 15
  | .SSE => 1#32 <<< 25
  | .SSE2 => 1#32 <<< 26
  | .SSE3 => 1#32 <<< 0
  | .SSSE3 => 1#32 <<< 9
  | .SSE4_1 => 1#32 <<< 19
  | .SSE4_2 => 1#32 <<< 20
  | .AVX => 1#32 <<< 28
  | .AVX2 => 1#32 <<< 5
  | .BMI => 1#32 <<< 3
  | .BMI2 => 1#32 <<< 8
  | .ADX => 1#32 <<< 19

/-- `(REG & CAP) != 0`. third_party/cpu_caps.c:39. -/
def test (reg m : BitVec 32) : Bool := (reg &&& m) != 0

/-- `ret |= b` for a comparison `b`. third_party/cpu_caps.c:52-61. -/
def orInt (ret : ℕ) (b : Bool) : ℕ := ret ||| b.toNat

/-- `int cpu_has(enum Capabilities c)`. third_party/cpu_caps.c:42-63. -/
def cpu_has (cpuid : Cpuid) (c : Cap) : ℕ :=
  let r := cpuid 1 0
  let ret := orInt 0 (test r.edx c.mask)
  let ret := orInt ret (test r.ecx c.mask)
  let r := cpuid 7 0
  orInt ret (test r.ebx c.mask)

/-- What `machine_info` prints: the line of each capability and the verdict. The heading and the
compiler's version are left out. -/
structure Report where
  lines : List (Cap × Bool)
  verdict : Bool
deriving DecidableEq

/-- The tests of `machine_info` in program order. third_party/cpu_caps.c:71-94. -/
def tests (cpuid : Cpuid) : List (Cap × Bool) :=
  let r := cpuid 1 0
  let q := cpuid 7 0
  [(.CMOV, test r.edx Cap.CMOV.mask), (.SSE, test r.edx Cap.SSE.mask),
   (.SSE2, test r.edx Cap.SSE2.mask), (.SSE3, test r.ecx Cap.SSE3.mask),
   (.SSSE3, test r.ecx Cap.SSSE3.mask), (.SSE4_1, test r.ecx Cap.SSE4_1.mask),
   (.SSE4_2, test r.ecx Cap.SSE4_2.mask), (.AVX, test r.ecx Cap.AVX.mask),
   (.AVX2, test q.ebx Cap.AVX2.mask), (.BMI, test q.ebx Cap.BMI.mask),
   (.BMI2, test q.ebx Cap.BMI2.mask), (.ADX, test q.ebx Cap.ADX.mask)]

/-- `void machine_info(void)`: `run` counts the capabilities found.
third_party/cpu_caps.c:38-40, 65-98; the same text is in examples/cpu_id.c:47-80. -/
def machine_info (cpuid : Cpuid) : Report :=
  let ls := tests cpuid
  let run := ls.foldl (fun n l => n + l.2.toNat) 0
  { lines := ls, verdict := run == 11 || run == 12 }

end Verif.Cpu
