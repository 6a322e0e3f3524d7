import Verif.Vec.Machine

/-!
# Calls with arguments inside the objects of the caller

A point formula hands to a field function pointers to the coordinates of its points, to its
local arrays and to constant arrays. -/

namespace Verif.Vec

/-- A pointer argument of a call. -/
inductive Arg where
  /-- the cell `off` of the parameter `k` of the caller -/
  | par (k off : ℕ)
  /-- the start of the constant array number `j`, which holds the words `w` -/
  | arr (j : ℕ) (w : List ℕ)
deriving DecidableEq

/-- An expression of the called function, for the caller; `d` is the number of constant arrays
before those of the called function. -/
def Ex.sub (σ : List Arg) (d : ℕ) : Ex → Ex
  | .r n => .r n
  | .ld k i =>
      match σ.getD k (.par 0 0) with
      | .par k' o => .ld k' (o + i)
      | .arr j w =>
          .cst j i (w.getD (4 * i) 0) (w.getD (4 * i + 1) 0) (w.getD (4 * i + 2) 0)
            (w.getD (4 * i + 3) 0)
  | .ld128 k i =>
      match σ.getD k (.par 0 0) with
      | .par k' o => .ld128 k' (2 * o + i)
      | .arr j w => .cst j (i / 2) (w.getD (2 * i) 0) (w.getD (2 * i + 1) 0) 0 0
  | .lit w0 w1 w2 w3 => .lit w0 w1 w2 w3
  | .cst j i w0 w1 w2 w3 => .cst (d + j) i w0 w1 w2 w3
  | .un o x => .un o (x.sub σ d)
  | .bin o x y => .bin o (x.sub σ d) (y.sub σ d)
  | .blendv x y z => .blendv (x.sub σ d) (y.sub σ d) (z.sub σ d)

/-- A statement of the called function, for the caller.  No call has a constant array where the
called function stores; that case is arbitrary. -/
def Stmt.sub (σ : List Arg) (d : ℕ) : Stmt → Stmt
  | .set n e => .set n (e.sub σ d)
  | .st k i e =>
      match σ.getD k (.par 0 0) with
      | .par k' o => .st k' (o + i) (e.sub σ d)
      | .arr _ _ => .set 0 (e.sub σ d)
  | .st128 k i e =>
      match σ.getD k (.par 0 0) with
      | .par k' o => .st128 k' (2 * o + i) (e.sub σ d)
      | .arr _ _ => .set 0 (e.sub σ d)

/-- The body of `g` in a function that calls it with the arguments `σ`. -/
def Fn.at (g : Fn) (σ : List Arg) (d : ℕ) : List Stmt := g.body.map (Stmt.sub σ d)

end Verif.Vec
