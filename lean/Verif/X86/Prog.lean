import Verif.X86.Spec
import Verif.Bytes

/-!
# Straight C with loops around the assembly

A small imperative language, enough for the C functions that call the blocks:
assignments to local variables, to words and bytes of arrays, `while`, and the
blocks themselves.  `wp` says what every execution does: a block may find anything
in registers and flags, and loops must end.  Executions keep a log of what an
observer of timing and caches could see: the outcome of every branch and the
address of every access.

Simplifications: bytes are addressed inside 64-bit words (all arrays are 8-byte
aligned), and the log records the word.
-/

namespace Verif.X86

/-- The `int` variables of the functions modelled (src/ladder255.c:372,
src/eltfp25519_1w_fullradix.c:1383, src/bytestring.c:98). -/
structure Ints where
  i : ℤ
  j : ℤ
  counter : ℤ
  len : ℤ

/-- The `uint64_t` variables (src/ladder255.c:373, 427, 428). -/
structure Words where
  bit : W
  swap : W
  prev : W

/-- The local variables. -/
structure Vars where
  ints : Ints
  words : Words

/-- What an observer sees. -/
inductive Leak
  | access (a : Access)
  | branch (taken : Bool)

/-- Memory, variables and the log so far. -/
structure St where
  mem : Mem
  vars : Vars
  log : List Leak

/-- Replace byte `k` of a word. -/
def setByte (w : W) (k : ℕ) (f : Byte → Byte) : W :=
  (w &&& ~~~(255#64 <<< (8 * k))) |||
    ((f ((w >>> (8 * k)).setWidth 8)).setWidth 64 <<< (8 * k))

/-- The `8 * n` bytes at a place. -/
def bytes (m : Mem) (p : Loc) (n : ℕ) : List Byte := leBytes (8 * n) (num m p n)

/-- Statements. -/
inductive Stmt
  | skip
  | seq (s t : Stmt)
  /-- a block; `arg` is its operand that is no pointer -/
  | asm (B : Block) (c a b : Loc) (arg : Vars → W)
  /-- assignment to `int` variables -/
  | ints (f : Vars → Ints)
  /-- assignment to `uint64_t` variables -/
  | words (f : Vars → Words)
  /-- the same using the word `p[k]` -/
  | load (p : Loc) (k : Vars → ℕ) (f : Vars → W → Words)
  /-- `d[k] = v` -/
  | store (d : Loc) (k : Vars → ℕ) (v : Vars → W)
  /-- `d[k] = a[k]` -/
  | move (d : Loc) (k : Vars → ℕ) (a : Loc)
  /-- `((uint8_t *) d)[k] = f(((uint8_t *) d)[k])` -/
  | byte (d : Loc) (k : Vars → ℕ) (f : Byte → Byte)
  /-- the block of `modp`, whose operands are the words of `c` in registers -/
  | modp (c : Loc)
  | while (cond : Vars → Bool) (body : Stmt)

/-- The observation is the outcome of a branch, or an access inside one of the buffers
(place, number of words, may it be written). -/
def Safe (bufs : List (Loc × ℕ × Bool)) : Leak → Prop
  | .branch _ => True
  | .access x => ∃ b ∈ bufs, x.Inside b.1 b.2.1 ∧ (x.write = true → b.2.2 = true)

/-- The word of `p` at offset `k`, as an access. -/
def acc (write : Bool) (p : Loc) (k : ℕ) : Leak := .access ⟨write, p.obj, p.off + k⟩

/-- The memory and log after a statement that is no composition and no loop. -/
def St.upd (s : St) (m : Mem) (l : List Leak) : St := { s with mem := m, log := s.log ++ l }

/-- Every execution of the statement from `s` ends, with loops entered at most `n`
deep, and in a state with `Q`. -/
def wp : ℕ → Stmt → (St → Prop) → St → Prop
  | _, .skip, Q, s => Q s
  | n, .seq a b, Q, s => wp n a (wp n b Q) s
  | _, .asm B c a b arg, Q, s => ∀ z : Cpu,
      Q (s.upd (callArg z B (arg s.vars) c a b s.mem)
        ((B.accesses (ptrs c a b)).map Leak.access))
  | _, .ints f, Q, s => Q { s with vars.ints := f s.vars }
  | _, .words f, Q, s => Q { s with vars.words := f s.vars }
  | _, .load p k f, Q, s =>
      Q { s with vars.words := f s.vars (s.mem.get p (k s.vars)),
                 log := s.log ++ [acc false p (k s.vars)] }
  | _, .store d k v, Q, s =>
      Q (s.upd (s.mem.set d (k s.vars) (v s.vars)) [acc true d (k s.vars)])
  | _, .move d k a, Q, s =>
      Q (s.upd (s.mem.set d (k s.vars) (s.mem.get a (k s.vars)))
        [acc false a (k s.vars), acc true d (k s.vars)])
  | _, .byte d k f, Q, s =>
      Q (s.upd (s.mem.set d (k s.vars / 8)
          (setByte (s.mem.get d (k s.vars / 8)) (k s.vars % 8) f))
        [acc false d (k s.vars / 8), acc true d (k s.vars / 8)])
  | _, .modp c, Q, s =>
      Q (s.upd (s.mem.put c (Fp25519.l4 (Verif.Fp25519.Full.modp (Fp25519.elt s.mem c))))
        ([acc false c 0, acc false c 1, acc false c 2, acc false c 3] ++
         [acc true c 0, acc true c 1, acc true c 2, acc true c 3]))
  | 0, .while _ _, _, _ => False
  | n + 1, .while cond body, Q, s =>
      if cond s.vars then
        wp n body (wp n (.while cond body) Q) { s with log := s.log ++ [.branch true] }
      else Q { s with log := s.log ++ [.branch false] }
termination_by n st => (n, sizeOf st)

/-- A list of statements in order. -/
def block : List Stmt → Stmt
  | [] => .skip
  | s :: l => .seq s (block l)

end Verif.X86
