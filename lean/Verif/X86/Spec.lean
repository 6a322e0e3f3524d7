import Verif.X86.Api

/-!
# Specification of buffers, declared effects and memory traces
-/

namespace Verif.X86

/-- The number in the `n` words at `p`, least significant word first. -/
def num (m : Mem) (p : Loc) : ℕ → ℕ
  | 0 => 0
  | n + 1 => num m p n + 2 ^ (64 * n) * (m.get p n).toNat

/-- Is the word `x` of object `o` one of the `n` words at `p`? -/
def Within (p : Loc) (n o x : ℕ) : Prop := o = p.obj ∧ p.off ≤ x ∧ x < p.off + n

/-- The memories differ at most in these buffers. -/
def Only (m m' : Mem) (bufs : List (Loc × ℕ)) : Prop :=
  ∀ o x, (∀ b ∈ bufs, ¬Within b.1 b.2 o x) → m' o x = m o x

/-- What a block changes is declared: the registers that it does not list as
clobbered, the flags if it does not list `cc`, and the memory if it does not list
`memory`, are the same after it, whatever its operands are. -/
def Declares (B : Block) : Prop :=
  ∀ (ptr : Ptr → Loc) (st : State Mem),
    (∀ r, r ∉ B.clobbers → (exec (flat ptr) B.code st id).regs r = st.regs r) ∧
    (B.cc = false → (exec (flat ptr) B.code st id).cf = st.cf ∧
      (exec (flat ptr) B.code st id).ovf = st.ovf ∧ (exec (flat ptr) B.code st id).zf = st.zf) ∧
    (B.memory = false → (exec (flat ptr) B.code st id).mem = st.mem)

/-- An access to memory: whether it writes, and the word. -/
structure Access where
  write : Bool
  obj : ℕ
  word : ℕ
deriving DecidableEq

/-- The access made for an operand in memory. -/
def Opd.access (ptr : Ptr → Loc) (write : Bool) : Opd → List Access
  | .mem p i => [⟨write, (ptr p).obj, (ptr p).off + i⟩]
  | _ => []

/-- The accesses of an instruction: it loads its source; `movq` stores to its
destination. -/
def Instr.accesses (ptr : Ptr → Loc) : Instr → List Access
  | .movq s d => s.access ptr false ++ d.access ptr true
  | .addq s _ | .adcq s _ | .adcx s _ | .adox s _ | .subq s _ | .sbbq s _
  | .mulxq s _ _ | .mulq s | .imulq s _ | .cmovcq s _ | .andq s _ | .orq s _
  | .test s | .cmovnz s _ => s.access ptr false
  | .xorl _ | .shldq .. | .shlq .. | .shrdq .. | .clcf | .setcr _ | .btl0 _ => []

/-- The accesses of a block, in order. -/
def Block.accesses (B : Block) (ptr : Ptr → Loc) : List Access :=
  B.code.flatMap (Instr.accesses ptr)

/-- Does a buffer contain the accessed word? -/
def Access.Inside (x : Access) (p : Loc) (n : ℕ) : Prop := Within p n x.obj x.word

/-- A block that writes only the first `n` words at `%0`, and reads only these and
the first `k` words at `%1` and `l` words at `%2`. -/
def InBounds (B : Block) (n k l : ℕ) : Prop :=
  ∀ (c a b : Loc) (x : Access), x ∈ B.accesses (ptrs c a b) →
    x.Inside c n ∨ (x.write = false ∧ (x.Inside a k ∨ x.Inside b l))

end Verif.X86
