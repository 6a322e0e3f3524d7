import Verif.Vec.Spec
import Verif.Ed25519.Point
import Verif.Ed448.Point

/-!
# What it means for a point formula to compute a point operation on memory

A point is a structure of elements that follow one another.  The local arrays of a formula are
in a region of the memory, its frame, that is apart from the points and holds arbitrary values
before the call. -/

namespace Verif.Vec

/-! ## Layouts of points -/

/-- include/edwards255.h:80-83 `PointXYZT_2w_H0H5`. -/
def p2w : Lay Ed25519.P2w := ⟨10, fun c => ⟨e2.get c, e2.get fun i => c (5 + i)⟩⟩

/-- include/edwards255.h:75-78 `PointXYZT_precompute_2w_H0H5`. -/
def pre2w : Lay Ed25519.Pre2w := ⟨10, fun c => ⟨e2.get c, e2.get fun i => c (5 + i)⟩⟩

/-- include/edwards255.h:46-51 `PointXYZT_2way`. -/
def p2way : Lay (Ed25519.P2way V) :=
  ⟨20, fun c => ⟨e2.get c, e2.get fun i => c (5 + i), e2.get fun i => c (10 + i),
    e2.get fun i => c (15 + i)⟩⟩

/-- include/edwards255.h:60-65 `PointXYZT_4way`. -/
def p4way : Lay (Ed25519.P4way V) :=
  ⟨40, fun c => ⟨e4.get c, e4.get fun i => c (10 + i), e4.get fun i => c (20 + i),
    e4.get fun i => c (30 + i)⟩⟩

/-- include/edwards255.h:67-71 `Point_precmp_4way`. -/
def pre4way : Lay (Ed25519.Pre4way V) :=
  ⟨30, fun c => ⟨e4.get c, e4.get fun i => c (10 + i), e4.get fun i => c (20 + i)⟩⟩

/-- A table of eight `PointXYTZ_precompute_4w_H0H5`. -/
def tab4w : Lay (List (Fp25519.Elt10 V)) :=
  ⟨80, fun c => (List.range 8).map fun j => e4.get fun i => c (10 * j + i)⟩

/-- include/edwards448.h:51-53 `PointXYZT_2w_H0H8`. -/
def q2w : Lay Ed448.P2w := ⟨16, fun c => ⟨g2.get c, g2.get fun i => c (8 + i)⟩⟩

/-- include/edwards448.h:47-49 `PointXYZT_precompute_2w_H0H8`. -/
def qpre2w : Lay Ed448.Pre2w := ⟨16, fun c => ⟨g2.get c, g2.get fun i => c (8 + i)⟩⟩

/-- include/edwards448.h:36-38 `PointXYZT_4way_Fp448`. -/
def q4way : Lay (Ed448.P4way V) :=
  ⟨64, fun c => ⟨g4.get c, g4.get fun i => c (16 + i), g4.get fun i => c (32 + i),
    g4.get fun i => c (48 + i)⟩⟩

/-- include/edwards448.h:40-42 `Point_precmp_4way_Fp448`. -/
def qpre4way : Lay (Ed448.Pre4way V) :=
  ⟨48, fun c => ⟨g4.get c, g4.get fun i => c (16 + i), g4.get fun i => c (32 + i)⟩⟩

/-- A table of eight `PointXYTZ_precompute_4w_H0H8`. -/
def qtab4w : Lay (List (Fp448.Elt16 V)) :=
  ⟨128, fun c => (List.range 8).map fun j => g4.get fun i => c (16 * j + i)⟩

/-! ## Shapes -/

section
variable {E E' : Type}

/-- `f(Q)` with its frame of `n` cells at S replaces the point at Q by its image; nothing
outside Q and the frame changes. -/
def UpdatesF (L : Lay E) (n : ℕ) (f : Fn) (op : E → E) : Prop :=
  ∀ (m : Mem) (ρ : Regs) (Q S : Place), Apart Q L.n S n →
    L.at (f.call [Q, S] m ρ) Q = op (L.at m Q) ∧
      ∀ o c, ¬In Q L.n o c → ¬In S n o c → f.call [Q, S] m ρ o c = m o c

/-- `f(Q, P)` with its frame of `n` cells at S replaces the point at Q by the result for Q and
P; P keeps its value, and nothing outside Q and the frame changes. -/
def ActsF (L : Lay E) (L' : Lay E') (n : ℕ) (f : Fn) (op : E → E' → E) : Prop :=
  ∀ (m : Mem) (ρ : Regs) (Q P S : Place),
    Apart Q L.n P L'.n → Apart Q L.n S n → Apart P L'.n S n →
    L.at (f.call [Q, P, S] m ρ) Q = op (L.at m Q) (L'.at m P) ∧
      L'.at (f.call [Q, P, S] m ρ) P = L'.at m P ∧
      ∀ o c, ¬In Q L.n o c → ¬In S n o c → f.call [Q, P, S] m ρ o c = m o c

/-- The same with two points of one kind, that may be the same point. -/
def AddsF (L : Lay E) (n : ℕ) (f : Fn) (op : E → E → E) : Prop :=
  ∀ (m : Mem) (ρ : Regs) (Q P S : Place),
    Same L.n Q P → Apart Q L.n S n → Apart P L.n S n →
    L.at (f.call [Q, P, S] m ρ) Q = op (L.at m Q) (L.at m P) ∧
      (Q ≠ P → L.at (f.call [Q, P, S] m ρ) P = L.at m P) ∧
      ∀ o c, ¬In Q L.n o c → ¬In S n o c → f.call [Q, P, S] m ρ o c = m o c

/-- `f(Q, P)` that also overwrites P. -/
def SpoilsF (L : Lay E) (n : ℕ) (f : Fn) (op : E → E → E) : Prop :=
  ∀ (m : Mem) (ρ : Regs) (Q P S : Place),
    Apart Q L.n P L.n → Apart Q L.n S n → Apart P L.n S n →
    L.at (f.call [Q, P, S] m ρ) Q = op (L.at m Q) (L.at m P) ∧
      ∀ o c, ¬In Q L.n o c → ¬In P L.n o c → ¬In S n o c → f.call [Q, P, S] m ρ o c = m o c

/-- `f(T, P)` fills a table at T from the point at P, and replaces this point. -/
def FillsF (L : Lay E') (L' : Lay E) (n : ℕ) (f : Fn) (tab : E → E') (op : E → E) : Prop :=
  ∀ (m : Mem) (ρ : Regs) (T P S : Place),
    Apart T L.n P L'.n → Apart T L.n S n → Apart P L'.n S n →
    L.at (f.call [T, P, S] m ρ) T = tab (L'.at m P) ∧
      L'.at (f.call [T, P, S] m ρ) P = op (L'.at m P) ∧
      ∀ o c, ¬In T L.n o c → ¬In P L'.n o c → ¬In S n o c → f.call [T, P, S] m ρ o c = m o c

end

end Verif.Vec
