import Verif.Vec.Machine
import Verif.Fp25519.Red
import Verif.Fp448.Red

/-!
# What it means for a vector function to compute a field operation on memory

The statements say what a call does for pointers that may be equal.  They use the memory and
`Fn.call` of the machine, and nothing of its programs. -/

namespace Verif.Vec

/-- How an element lies in memory: its number of 32-byte cells, and its value from its
cells. -/
structure Lay (E : Type) where
  n : ℕ
  get : (ℕ → V) → E

/-- The element at a place. -/
def Lay.at {E : Type} (L : Lay E) (m : Mem) (P : Place) : E := L.get fun i => m P.1 (P.2 + i)

/-- The cell `c` of the object `o` is one of the `n` cells at `P`. -/
def In (P : Place) (n o c : ℕ) : Prop := o = P.1 ∧ P.2 ≤ c ∧ c < P.2 + n

instance (P : Place) (n o c : ℕ) : Decidable (In P n o c) := by unfold In; infer_instance

/-- `a` cells at `P` and `b` cells at `Q` have no cell in common. -/
def Apart (P : Place) (a : ℕ) (Q : Place) (b : ℕ) : Prop := ∀ o c, ¬(In P a o c ∧ In Q b o c)

/-- The two elements are the same one, or they have no cell in common. -/
def Same (n : ℕ) (P Q : Place) : Prop := P = Q ∨ Apart P n Q n

/-! ## Layouts -/

/-- `EltFp25519_1w_redradix`: twelve words of which the last two are padding. -/
def e1 : Lay (Fp25519.Elt5 U) :=
  ⟨3, fun c => ⟨(c 0).lo, (c 0).hi, (c 1).lo, (c 1).hi, (c 2).lo⟩⟩

/-- `EltFp25519_2w_redradix`. -/
def e2 : Lay (Fp25519.Elt5 V) := ⟨5, fun c => ⟨c 0, c 1, c 2, c 3, c 4⟩⟩

/-- `EltFp25519_4w_redradix`; the limbs are stored in the order 0 5 1 6 2 7 3 8 4 9. -/
def e4 : Lay (Fp25519.Elt10 V) :=
  ⟨10, fun c => ⟨c 0, c 2, c 4, c 6, c 8, c 1, c 3, c 5, c 7, c 9⟩⟩

/-- `EltFp448_1w_redradix`. -/
def g1 : Lay (Fp448.Elt8 U) :=
  ⟨4, fun c => ⟨(c 0).lo, (c 0).hi, (c 1).lo, (c 1).hi, (c 2).lo, (c 2).hi, (c 3).lo, (c 3).hi⟩⟩

/-- `EltFp448_2w_redradix`. -/
def g2 : Lay (Fp448.Elt8 V) := ⟨8, fun c => ⟨c 0, c 1, c 2, c 3, c 4, c 5, c 6, c 7⟩⟩

/-- `EltFp448_4w_redradix`; the limbs are stored in the order 0 8 1 9 ... 7 15. -/
def g4 : Lay (Fp448.Elt16 V) :=
  ⟨16, fun c => ⟨c 0, c 2, c 4, c 6, c 8, c 10, c 12, c 14,
    c 1, c 3, c 5, c 7, c 9, c 11, c 13, c 15⟩⟩

section shapes
variable {E : Type}

/-- `f(C)` writes the element `e` at C and changes nothing else. -/
def Writes (L : Lay E) (f : Fn) (e : E) : Prop :=
  ∀ (m : Mem) (ρ : Regs) (C : Place),
    L.at (f.call [C] m ρ) C = e ∧ ∀ o c, ¬In C L.n o c → f.call [C] m ρ o c = m o c

/-- `f(C)` replaces the element at C by its image and changes nothing else. -/
def Updates (L : Lay E) (f : Fn) (op : E → E) : Prop :=
  ∀ (m : Mem) (ρ : Regs) (C : Place),
    L.at (f.call [C] m ρ) C = op (L.at m C) ∧
      ∀ o c, ¬In C L.n o c → f.call [C] m ρ o c = m o c

/-- `f(C, A)` writes the image of A at C and changes nothing else, also for C = A. -/
def Maps (L : Lay E) (f : Fn) (op : E → E) : Prop :=
  ∀ (m : Mem) (ρ : Regs) (C A : Place), Same L.n C A →
    L.at (f.call [C, A] m ρ) C = op (L.at m A) ∧
      ∀ o c, ¬In C L.n o c → f.call [C, A] m ρ o c = m o c

/-- `f(C, A, B)` writes the result for A and B at C and changes nothing else, also when C is A
or B or both; `op` may depend on the registers, where a function takes a vector by value. -/
def CombinesR (L : Lay E) (f : Fn) (op : Regs → E → E → E) : Prop :=
  ∀ (m : Mem) (ρ : Regs) (C A B : Place), Same L.n C A → Same L.n C B →
    L.at (f.call [C, A, B] m ρ) C = op ρ (L.at m A) (L.at m B) ∧
      ∀ o c, ¬In C L.n o c → f.call [C, A, B] m ρ o c = m o c

/-- `f(C, A, B)` writes the result for A and B at C and changes nothing else, also when C is A
or B or both. -/
def Combines (L : Lay E) (f : Fn) (op : E → E → E) : Prop := CombinesR L f fun _ => op

/-- `f(C, D)` replaces the two elements by the two results and changes nothing else. -/
def Updates2 (L : Lay E) (f : Fn) (op : E → E → E × E) : Prop :=
  ∀ (m : Mem) (ρ : Regs) (C D : Place), Apart C L.n D L.n →
    (L.at (f.call [C, D] m ρ) C, L.at (f.call [C, D] m ρ) D) = op (L.at m C) (L.at m D) ∧
      ∀ o c, ¬In C L.n o c → ¬In D L.n o c → f.call [C, D] m ρ o c = m o c

/-- `f(C, D, A, B)` writes the two results for A and B at C and D and changes nothing else, when
the pointers satisfy `R`. -/
def Combines2 (L : Lay E) (R : Place → Place → Place → Place → Prop) (f : Fn)
    (op : E → E → E × E) : Prop :=
  ∀ (m : Mem) (ρ : Regs) (C D A B : Place), R C D A B →
    (L.at (f.call [C, D, A, B] m ρ) C, L.at (f.call [C, D, A, B] m ρ) D)
        = op (L.at m A) (L.at m B) ∧
      ∀ o c, ¬In C L.n o c → ¬In D L.n o c → f.call [C, D, A, B] m ρ o c = m o c

/-- The full condition for two results: C and D are apart, and each of them is A, is B, or is
apart from them. -/
def AnyAlias (n : ℕ) (C D A B : Place) : Prop :=
  Apart C n D n ∧ Same n C A ∧ Same n C B ∧ Same n D A ∧ Same n D B

variable {E' : Type}

/-- `f(C, A, B)` writes at C the element of another layout made of A and B, which are apart from
C, and changes nothing else. -/
def Joins2 (L' : Lay E') (L : Lay E) (f : Fn) (op : E → E → E') : Prop :=
  ∀ (m : Mem) (ρ : Regs) (C P₀ P₁ : Place), (∀ P ∈ [P₀, P₁], Apart C L'.n P L.n) →
    L'.at (f.call [C, P₀, P₁] m ρ) C = op (L.at m P₀) (L.at m P₁) ∧
      ∀ o c, ¬In C L'.n o c → f.call [C, P₀, P₁] m ρ o c = m o c

/-- `f(A, B, C)` writes at A and B the two parts of C; the three are apart. -/
def Splits2 (L' : Lay E') (L : Lay E) (f : Fn) (op : E' → E × E) : Prop :=
  ∀ (m : Mem) (ρ : Regs) (P₀ P₁ C : Place), Apart P₀ L.n P₁ L.n →
    (∀ P ∈ [P₀, P₁], Apart P L.n C L'.n) →
    (L.at (f.call [P₀, P₁, C] m ρ) P₀, L.at (f.call [P₀, P₁, C] m ρ) P₁) = op (L'.at m C) ∧
      ∀ o c, ¬In P₀ L.n o c → ¬In P₁ L.n o c → f.call [P₀, P₁, C] m ρ o c = m o c

/-- The same as `Joins2` for four elements. -/
def Joins4 (L' : Lay E') (L : Lay E) (f : Fn) (op : E → E → E → E → E') : Prop :=
  ∀ (m : Mem) (ρ : Regs) (C P₀ P₁ P₂ P₃ : Place),
    (∀ P ∈ [P₀, P₁, P₂, P₃], Apart C L'.n P L.n) →
    L'.at (f.call [C, P₀, P₁, P₂, P₃] m ρ) C
        = op (L.at m P₀) (L.at m P₁) (L.at m P₂) (L.at m P₃) ∧
      ∀ o c, ¬In C L'.n o c → f.call [C, P₀, P₁, P₂, P₃] m ρ o c = m o c

/-- The same as `Splits2` for four elements. -/
def Splits4 (L' : Lay E') (L : Lay E) (f : Fn) (op : E' → E × E × E × E) : Prop :=
  ∀ (m : Mem) (ρ : Regs) (P₀ P₁ P₂ P₃ C : Place),
    [P₀, P₁, P₂, P₃].Pairwise (fun P Q => Apart P L.n Q L.n) →
    (∀ P ∈ [P₀, P₁, P₂, P₃], Apart P L.n C L'.n) →
    let m' := f.call [P₀, P₁, P₂, P₃, C] m ρ
    (L.at m' P₀, L.at m' P₁, L.at m' P₂, L.at m' P₃) = op (L'.at m C) ∧
      ∀ o c, (∀ P ∈ [P₀, P₁, P₂, P₃], ¬In P L.n o c) → m' o c = m o c

end shapes

/-! ## Accesses -/

/-- The access is inside one of the parameters, inside an output if it is a store. -/
def Fn.Inside (f : Fn) (l : List Place) : Access → Prop
  | .rd o c => ∃ k < f.cells.length, In (args l k) (f.cells.getD k 0) o c
  | .wr o c => ∃ k ∈ f.outs, In (args l k) (f.cells.getD k 0) o c
  | .const _ _ => True

/-- A constant array may be put at any address that its declaration allows. -/
def Fn.Placed (f : Fn) (q : ℕ → ℕ) : Prop := ∀ j < f.aligns.length, f.aligns.getD j 0 ∣ q j

/-- Every vector that is read from a constant array is at an address that is a multiple of 32,
as a vector access through `__m256i *` needs, wherever the arrays are. -/
def Fn.Aligned (f : Fn) (l : List Place) : Prop :=
  ∀ q, f.Placed q → ∀ j i, Access.const j i ∈ f.accesses l → 32 ∣ q j + 32 * i

end Verif.Vec
