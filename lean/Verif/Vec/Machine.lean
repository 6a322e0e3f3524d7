import Verif.Simd.Basic

/-!
# A machine for the vector functions of the field layers

The functions of /repo/src/eltfp{25519,448}_{1,2,4}w_redradix.c are straight-line code over
the macros of /repo/include/simd_avx2.h.  They take pointers to elements and read and write
memory as they go, so that their result can depend on which pointers are equal.  Here such a
function is a list of statements, and it is run on a memory.

* The memory is made of objects; an object is an array of 32-byte cells (`__m256i`).  Elements
  are aligned to 32 bytes (`ALIGN`, /repo/include/faz_fp_avx2.h:56-71), so an element is a run
  of whole cells: 3, 5 and 10 for the 1-way, 2-way and 4-way elements of GF(2^255-19), and
  4, 8 and 16 for those of GF(2^448-2^224-1).
* The local variables of type `__m256i` and `__m128i` are registers; a 128-bit value is in the
  low half of its register, and a `uint64_t` is in all lanes of its register.  The registers
  start with arbitrary contents.
* The addresses used by a statement are written in the program, as the number of a parameter
  and an offset in it. -/

namespace Verif.Vec

/-- Instructions with one register operand. -/
inductive Un where
  /-- `SHL(x,k)`, `SHL128(x,k)` -/
  | shl (k : ℕ)
  /-- `SHR(x,k)`, `SHR128(x,k)` -/
  | shr (k : ℕ)
  /-- `PERM64(x,imm)` -/
  | perm64 (imm : ℕ)
  /-- `SHUF32(x,0x44)` -/
  | shuf44
  /-- `SHUF32(x,0xEE)` -/
  | shufEE
  /-- `SHUF32(x,0x4E)` -/
  | shuf4E
  /-- `SHR8(x)` (simd_avx2.h:81): each half shifted right by eight bytes -/
  | shr8
  /-- `EXTR(x,0)`, `CAST256TO128(x)` (simd_avx2.h:96,99) -/
  | extr0
  /-- `EXTR(x,1)` -/
  | extr1
  /-- the 64-bit word `w` of the vector, as an integer variable: a `uint64_t` is a register with
  the same value in its four lanes -/
  | word (w : ℕ)
  /-- `_mm256_set1_epi32((uint32_t) x << k)` of an integer variable -/
  | set1 (k : ℕ)
  /-- `_mm256_srai_epi32(x,k)` -/
  | srai32 (k : ℕ)
  /-- `SHUF32(x,imm)` -/
  | shuf32 (imm : ℕ)
  /-- `_mm256_broadcastsi128_si256(x)` -/
  | bcast
deriving DecidableEq

/-- Instructions with two register operands. -/
inductive Bin where
  | add | sub | and | xor | mul | alignr | upkl | upkh
  /-- `SHLV`, `SHLV128`: the counts are the lanes of the second operand -/
  | shlv
  /-- `SHRV`, `SHRV128` -/
  | shrv
  /-- `INSR(x,y,1)` (simd_avx2.h:97): the high half replaced by the 128-bit y -/
  | insr
  /-- `CAST128TO256(x)` (simd_avx2.h:100): the high half is undefined; it is taken from the
  second operand, which is a register that is never assigned -/
  | cast
  /-- `PERM128(x,y,imm)` -/
  | perm128 (imm : ℕ)
  /-- `BLEND32(x,y,imm)`, `BLEND32128(x,y,imm)` -/
  | blend (imm : ℕ)
  | or
  /-- `PERMV128(x,y)`: `_mm256_permutevar8x32_epi32`, the indices are the second operand -/
  | permv
  /-- `ANDNOT(x,y)` -/
  | andnot
deriving DecidableEq

/-- Vector expressions. -/
inductive Ex where
  /-- a local variable -/
  | r (n : ℕ)
  /-- the cell `i` of the parameter `k` -/
  | ld (k i : ℕ)
  /-- the 16 bytes at offset `16 * i` of the parameter `k`: `LOAD128` -/
  | ld128 (k i : ℕ)
  /-- `SET164`, `SET64`, `SET32`, `ZERO`: a constant, lowest lane first -/
  | lit (w0 w1 w2 w3 : ℕ)
  /-- a constant that is read from memory: the cell `i` of the array number `j` among the
  constant arrays of the function -/
  | cst (j i : ℕ) (w0 w1 w2 w3 : ℕ)
  | un (o : Un) (x : Ex)
  | bin (o : Bin) (x y : Ex)
  /-- `_mm256_blendv_epi8(x,y,z)` -/
  | blendv (x y z : Ex)
deriving DecidableEq

/-- Statements. -/
inductive Stmt where
  /-- `n = e` for a local variable -/
  | set (n : ℕ) (e : Ex)
  /-- the cell `i` of the parameter `k` is assigned -/
  | st (k i : ℕ) (e : Ex)
  /-- `STORE128` at offset `16 * i` of the parameter `k` -/
  | st128 (k i : ℕ) (e : Ex)
deriving DecidableEq

/-- The memory: objects, each of them an array of cells. -/
abbrev Mem := ℕ → ℕ → V

/-- The local variables. -/
abbrev Regs := ℕ → V

/-- A pointer to an element: the object and the cell where the element starts. -/
abbrev Place := ℕ × ℕ

/-- The word `w` of a vector. -/
def wordOf (x : V) (w : ℕ) : W := match w with | 0 => x.q0 | 1 => x.q1 | 2 => x.q2 | _ => x.q3

/-- An integer variable. -/
def allLanes (w : W) : V := ⟨w, w, w, w⟩

/-- The semantics of the one-operand instructions. -/
def Un.sem : Un → V → V
  | .shl k, x => SHL x k
  | .shr k, x => SHR x k
  | .perm64 imm, x => PERM64 x imm
  | .shuf44, x => SHUF44 x
  | .shufEE, x => SHUFEE x
  | .shuf4E, x => SHUF4E x
  | .shr8, x => ⟨x.q1, 0#64, x.q3, 0#64⟩
  | .extr0, x => x
  | .extr1, x => ⟨x.q2, x.q3, 0#64, 0#64⟩
  | .word w, x => allLanes (wordOf x w)
  | .set1 k, x =>
      let m : BitVec 32 := x.q0.setWidth 32 <<< k
      allLanes (m ++ m)
  | .srai32 k, x => SRAI32 x k
  | .shuf32 imm, x => SHUF32 x imm
  | .bcast, x => BROADCAST128 x.lo

/-- The semantics of the two-operand instructions. -/
def Bin.sem : Bin → V → V → V
  | .add, x, y => ADD x y
  | .sub, x, y => SUB x y
  | .and, x, y => AND x y
  | .xor, x, y => XOR x y
  | .mul, x, y => MUL x y
  | .alignr, x, y => ALIGNR x y
  | .upkl, x, y => UPKL64 x y
  | .upkh, x, y => UPKH64 x y
  | .shlv, x, y => ⟨SHL x.q0 y.q0.toNat, SHL x.q1 y.q1.toNat, SHL x.q2 y.q2.toNat,
      SHL x.q3 y.q3.toNat⟩
  | .shrv, x, y => ⟨SHR x.q0 y.q0.toNat, SHR x.q1 y.q1.toNat, SHR x.q2 y.q2.toNat,
      SHR x.q3 y.q3.toNat⟩
  | .insr, x, y => Vec4.join x.lo y.lo
  | .cast, x, y => Vec4.join x.lo y.hi
  | .perm128 imm, x, y => PERM128 x y imm
  | .blend imm, x, y => BLEND32 x y imm
  | .or, x, y => OR x y
  | .permv, x, y => PERMV128 x y
  | .andnot, x, y => ANDNOT x y

/-- A constant, lowest lane first. -/
def lit4 (w0 w1 w2 w3 : ℕ) : V :=
  ⟨BitVec.ofNat 64 w0, BitVec.ofNat 64 w1, BitVec.ofNat 64 w2, BitVec.ofNat 64 w3⟩

/-- The half `i % 2` of a cell, as a 128-bit value. -/
def half (x : V) (i : ℕ) : V :=
  if i % 2 = 0 then ⟨x.q0, x.q1, 0#64, 0#64⟩ else ⟨x.q2, x.q3, 0#64, 0#64⟩

/-- A cell after 128 bits were stored in its half `i % 2`. -/
def setHalf (x : V) (i : ℕ) (v : V) : V :=
  if i % 2 = 0 then Vec4.join v.lo x.hi else Vec4.join x.lo v.lo

/-- The value of an expression; `rd k i` is the cell `i` of the parameter `k`. -/
def Ex.eval (rd : ℕ → ℕ → V) (ρ : Regs) : Ex → V
  | .r n => ρ n
  | .ld k i => rd k i
  | .ld128 k i => half (rd k (i / 2)) i
  | .lit w0 w1 w2 w3 => lit4 w0 w1 w2 w3
  | .cst _ _ w0 w1 w2 w3 => lit4 w0 w1 w2 w3
  | .un o x => o.sem (x.eval rd ρ)
  | .bin o x y => o.sem (x.eval rd ρ) (y.eval rd ρ)
  | .blendv x y z => BLENDV (x.eval rd ρ) (y.eval rd ρ) (z.eval rd ρ)

/-- The cells of the parameters when the parameter `k` points to the place `p k`. -/
def view (p : ℕ → Place) (m : Mem) : ℕ → ℕ → V := fun k i => m (p k).1 ((p k).2 + i)

/-- The memory after a store to one cell. -/
def Mem.set (m : Mem) (o c : ℕ) (v : V) : Mem :=
  fun o' c' => if o' = o then if c' = c then v else m o' c' else m o' c'

/-- The registers after an assignment. -/
def Regs.set (ρ : Regs) (n : ℕ) (v : V) : Regs := fun n' => if n' = n then v else ρ n'

/-- One statement. -/
def step (p : ℕ → Place) (s : Mem × Regs) : Stmt → Mem × Regs
  | .set n e => (s.1, s.2.set n (e.eval (view p s.1) s.2))
  | .st k i e => (s.1.set (p k).1 ((p k).2 + i) (e.eval (view p s.1) s.2), s.2)
  | .st128 k i e =>
      (s.1.set (p k).1 ((p k).2 + i / 2)
        (setHalf (view p s.1 k (i / 2)) i (e.eval (view p s.1) s.2)), s.2)

/-- A program. -/
def run (p : ℕ → Place) (prog : List Stmt) (s : Mem × Regs) : Mem × Regs :=
  prog.foldl (step p) s

/-- A function: the number of cells of each pointer parameter, the parameters it stores to,
the declared alignment of each constant array it reads, and its body. -/
structure Fn where
  cells : List ℕ
  outs : List ℕ
  aligns : List ℕ
  body : List Stmt

/-- The pointers of a call. -/
def args (l : List Place) : ℕ → Place := fun k => l.getD k (0, 0)

/-- The memory after a call with the given pointers; `ρ` is what the registers hold before. -/
def Fn.call (f : Fn) (l : List Place) (m : Mem) (ρ : Regs) : Mem :=
  (run (args l) f.body (m, ρ)).1

/-! ## Calls of one function from another

The parameter `k` of the called function is the parameter `σ k` of the caller.  The constant
arrays are numbered anew. -/

def Ex.ren (σ : List ℕ) (d : ℕ) : Ex → Ex
  | .r n => .r n
  | .ld k i => .ld (σ.getD k 0) i
  | .ld128 k i => .ld128 (σ.getD k 0) i
  | .lit w0 w1 w2 w3 => .lit w0 w1 w2 w3
  | .cst j i w0 w1 w2 w3 => .cst (d + j) i w0 w1 w2 w3
  | .un o x => .un o (x.ren σ d)
  | .bin o x y => .bin o (x.ren σ d) (y.ren σ d)
  | .blendv x y z => .blendv (x.ren σ d) (y.ren σ d) (z.ren σ d)

def Stmt.ren (σ : List ℕ) (d : ℕ) : Stmt → Stmt
  | .set n e => .set n (e.ren σ d)
  | .st k i e => .st (σ.getD k 0) i (e.ren σ d)
  | .st128 k i e => .st128 (σ.getD k 0) i (e.ren σ d)

/-- The body of `g` in a function that calls it with its own parameters `σ`; the constant
arrays of `g` come after `d` others. -/
def Fn.inl (g : Fn) (σ : List ℕ) (d : ℕ := 0) : List Stmt := g.body.map (Stmt.ren σ d)

/-! ## Accesses -/

/-- A memory access: the cell number `cell` of the object `obj`, or of a constant array. -/
inductive Access where
  | rd (obj cell : ℕ)
  | wr (obj cell : ℕ)
  | const (j cell : ℕ)
deriving DecidableEq

def Ex.acc (p : ℕ → Place) : Ex → List Access
  | .r _ => []
  | .ld k i => [.rd (p k).1 ((p k).2 + i)]
  | .ld128 k i => [.rd (p k).1 ((p k).2 + i / 2)]
  | .lit _ _ _ _ => []
  | .cst j i _ _ _ _ => [.const j i]
  | .un _ x => x.acc p
  | .bin _ x y => x.acc p ++ y.acc p
  | .blendv x y z => x.acc p ++ y.acc p ++ z.acc p

def Stmt.acc (p : ℕ → Place) : Stmt → List Access
  | .set _ e => e.acc p
  | .st k i e => e.acc p ++ [.wr (p k).1 ((p k).2 + i)]
  | .st128 k i e => e.acc p ++ [.wr (p k).1 ((p k).2 + i / 2)]

/-- The accesses of a call, in order. -/
def Fn.accesses (f : Fn) (l : List Place) : List Access := f.body.flatMap (Stmt.acc (args l))

end Verif.Vec
