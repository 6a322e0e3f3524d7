import Verif.Vec.PointFuns
import Verif.Props.VecInPlace
import Verif.Props.Ed25519Point
import Verif.Props.Ed448Point

/-!
# Property C76: the point formulas on memory; accesses and constants of the point formulas

The programs `P25519` and `P448` are the statements of the static functions of src/edwards255.c
and src/edwards448.c in order, with the bodies of the field functions that they call, run on a
memory.  The shapes `UpdatesF`, `ActsF`, … of Vec/PointSpec.lean quantify over all memories, all
contents of the registers and of the local arrays before the call, and all places of the points
that are apart: the point that the formula leaves in memory is the result of the formula of the
model, which C26 and C55 relate to the group, and no other memory changes. -/

namespace Verif.Vec

set_option exponentiation.threshold 2000

/-! ## C76: the formulas -/

/-- C76, edwards25519. -/
theorem C76_formulas_25519 :
    UpdatesF p2w 10 P25519.doubling_2w Ed25519.doubling_2w ∧
    ActsF p2w pre2w 20 P25519.mixadd_2w Ed25519.mixadd_2w ∧
    AddsF p2w 20 P25519.fulladd_2w Ed25519.fulladd_2w ∧
    UpdatesF e4 20 P25519.doubling_4w Ed25519.doubling_4w ∧
    ActsF e4 e4 20 P25519.mixadd_4w Ed25519.mixadd_4w ∧
    ActsF p4way pre4way 60 P25519.mixadd_4way Ed25519.mixadd_4way ∧
    UpdatesF p2way 20 P25519.doubling_2way0 (Ed25519.doubling_2way · false) ∧
    UpdatesF p2way 20 P25519.doubling_2way1 (Ed25519.doubling_2way · true) ∧
    ActsF p2w p4way 70 P25519.join_points (fun _ Q => Ed25519.join_points Q) ∧
    FillsF tab4w e4 40 P25519.precompute_4w
      (fun P => (List.range 8).map (Ed25519.precompute_4w P)) Ed25519.doubling_4w :=
  ⟨p_doubling_2w, p_mixadd_2w, p_fulladd_2w, p_doubling_4w, p_mixadd_4w, p_mixadd_4way,
    p_doubling_2way0, p_doubling_2way1, p_join_points, p_precompute_4w⟩

/-- C76, edwards448. -/
theorem C76_formulas_448 :
    UpdatesF q2w 24 P448.doubling_2w Ed448.doubling_2w ∧
    ActsF q2w qpre2w 40 P448.mixadd_2w Ed448.mixadd_2w ∧
    AddsF q2w 40 P448.fulladd_2w Ed448.fulladd_2w ∧
    UpdatesF q2w 32 P448.isogeny_2w Ed448.isogeny_2w ∧
    UpdatesF g4 32 P448.doubling_4w Ed448.doubling_4w ∧
    ActsF g4 g4 32 P448.mixadd_4w Ed448.mixadd_4w ∧
    ActsF q4way qpre4way 64 P448.mixadd_4way Ed448.mixadd_4way ∧
    ActsF q2w q4way 152 P448.join_points (fun _ Q => Ed448.join_points Q) ∧
    FillsF qtab4w g4 64 P448.precompute_4w
      (fun P => (List.range 8).map (Ed448.precompute_4w P)) Ed448.doubling_4w :=
  ⟨q_doubling_2w, q_mixadd_2w, q_fulladd_2w, q_isogeny_2w, q_doubling_4w, q_mixadd_4w,
    q_mixadd_4way, q_join_points, q_precompute_4w⟩

section group25519
open Ed25519

/-- C76, edwards25519, in terms of the group: what a doubling leaves in memory. -/
theorem C76_doubling_25519 (m : Mem) (ρ : Regs) (Q S : Place) (A : Pt) (h : Apart Q 10 S 10)
    (hQ : Is2w (p2w.at m Q) A) : Is2w (p2w.at (P25519.doubling_2w.call [Q, S] m ρ) Q) (A + A) := by
  rw [(p_doubling_2w m ρ Q S h).1]
  exact C26_doubling_2w _ A hQ

/-- C76, edwards25519, in terms of the group: a mixed addition changes the first point and not
the second. -/
theorem C76_mixadd_25519 (m : Mem) (ρ : Regs) (Q P S : Place) (A C : Pt) (h : Apart Q 10 P 10)
    (hs : Apart Q 10 S 20) (hs' : Apart P 10 S 20) (hQ : Is2w (p2w.at m Q) A)
    (hP : IsPre2w (pre2w.at m P) C) :
    Is2w (p2w.at (P25519.mixadd_2w.call [Q, P, S] m ρ) Q) (A + C) ∧
      IsPre2w (pre2w.at (P25519.mixadd_2w.call [Q, P, S] m ρ) P) C := by
  obtain ⟨h1, h2, -⟩ := p_mixadd_2w m ρ Q P S h hs hs'
  rw [h1, h2]
  exact ⟨C26_mixadd_2w _ _ A C hQ hP, hP⟩

/-- C76, edwards25519, in terms of the group: an addition, also of a point to itself. -/
theorem C76_add_25519 (m : Mem) (ρ : Regs) (Q P S : Place) (A C : Pt) (h : Same 10 Q P)
    (hs : Apart Q 10 S 20) (hs' : Apart P 10 S 20) (hQ : Is2w (p2w.at m Q) A)
    (hP : Is2w (p2w.at m P) C) :
    Is2w (p2w.at (P25519.fulladd_2w.call [Q, P, S] m ρ) Q) (A + C) := by
  rw [(p_fulladd_2w m ρ Q P S h hs hs').1]
  exact C26_add_2w _ _ A C hQ hP

/-- C76, edwards25519: a doubling of four points spread over lanes, and four mixed additions at
once. -/
theorem C76_lanes_25519 (m : Mem) (ρ : Regs) :
    (∀ (Q S : Place) (A : Pt), Apart Q 10 S 20 → Is4w (e4.at m Q) A →
      Is4w (e4.at (P25519.doubling_4w.call [Q, S] m ρ) Q) (A + A)) ∧
    (∀ (Q P S : Place) (A C : Pt) (j : ℕ), j < 4 → Apart Q 40 P 30 → Apart Q 40 S 60 →
      Apart P 30 S 60 → Is4way coordB ((p4way.at m Q).lane j) A →
      IsPre4way ((pre4way.at m P).lane j) C →
      Is4way Fp25519.tight ((p4way.at (P25519.mixadd_4way.call [Q, P, S] m ρ) Q).lane j) (A + C)) := by
  refine ⟨fun Q S A h hQ => ?_, fun Q P S A C j hj h hs hs' hQ hP => ?_⟩
  · rw [(p_doubling_4w m ρ Q S h).1]
    exact C26_doubling_4w _ A hQ
  · rw [(p_mixadd_4way m ρ Q P S h hs hs').1]
    exact C26_mixadd_4way _ _ j hj A C hQ hP

/-- C76, addition of two pairs of points at once: the sums are right, but the second operand is
overwritten too; it is missing that it keeps its value. -/
theorem C76_add_2way_partial (m : Mem) (ρ : Regs) (Q P S : Place) (A C A' C' : Pt)
    (h : Apart Q 20 P 20) (hs : Apart Q 20 S 20) (hs' : Apart P 20 S 20)
    (h1 : Is2way (p2way.at m Q).lo A) (h2 : Is2way (p2way.at m P).lo C)
    (h3 : Is2way (p2way.at m Q).hi A') (h4 : Is2way (p2way.at m P).hi C') :
    Is2way (p2way.at (P25519.fulladd_2way.call [Q, P, S] m ρ) Q).lo (A + C) ∧
      Is2way (p2way.at (P25519.fulladd_2way.call [Q, P, S] m ρ) Q).hi (A' + C') ∧
      ∀ o c, ¬In Q 20 o c → ¬In P 20 o c → ¬In S 20 o c →
        P25519.fulladd_2way.call [Q, P, S] m ρ o c = m o c := by
  obtain ⟨e, hf⟩ := p_fulladd_2way m ρ Q P S h hs hs'
  rw [e]
  have := C26_add_2way _ _ A C A' C' h1 h2 h3 h4
  exact ⟨this.1, this.2, hf⟩

/-- C76 is false of the addition of two pairs of points at once: the second operand does not keep
its value, not even its field elements. -/
theorem C76_add_2way_wrong : ∃ (m : Mem) (ρ : Regs),
    (p2way.at (P25519.fulladd_2way.call [(0, 0), (1, 0), (2, 0)] m ρ) (1, 0)).X.lo.toFp ≠
      (p2way.at m (1, 0)).X.lo.toFp := by
  refine ⟨fun _ _ => LIT 1, fun _ => LIT 0, ?_⟩
  rw [Fp25519.Elt5.toFp, Fp25519.Elt5.toFp, Fp25519.Elt10.toFp, Fp25519.Elt10.toFp, Ne, fp_dvd_iff]
  decide +kernel

end group25519

section group448
open Ed448

/-- C76, edwards448, in terms of the group: doubling, mixed addition, addition, isogeny. -/
theorem C76_doubling_448 (m : Mem) (ρ : Regs) (Q S : Place) (A : Pt) (h : Apart Q 16 S 24)
    (hQ : Is2w (q2w.at m Q) A) : Is2w (q2w.at (P448.doubling_2w.call [Q, S] m ρ) Q) (A + A) := by
  rw [(q_doubling_2w m ρ Q S h).1]
  exact C55_doubling_2w _ A hQ

theorem C76_mixadd_448 (m : Mem) (ρ : Regs) (Q P S : Place) (A C : Pt) (h : Apart Q 16 P 16)
    (hs : Apart Q 16 S 40) (hs' : Apart P 16 S 40) (hQ : Is2w (q2w.at m Q) A)
    (hP : IsPre2w (qpre2w.at m P) C) :
    Is2w (q2w.at (P448.mixadd_2w.call [Q, P, S] m ρ) Q) (A + C) ∧
      IsPre2w (qpre2w.at (P448.mixadd_2w.call [Q, P, S] m ρ) P) C := by
  obtain ⟨h1, h2, -⟩ := q_mixadd_2w m ρ Q P S h hs hs'
  rw [h1, h2]
  exact ⟨C55_mixadd_2w _ _ A C hQ hP, hP⟩

theorem C76_add_448 (m : Mem) (ρ : Regs) (Q P S : Place) (A C : Pt) (h : Same 16 Q P)
    (hs : Apart Q 16 S 40) (hs' : Apart P 16 S 40) (hQ : Is2w (q2w.at m Q) A)
    (hP : Is2w (q2w.at m P) C) :
    Is2w (q2w.at (P448.fulladd_2w.call [Q, P, S] m ρ) Q) (A + C) := by
  rw [(q_fulladd_2w m ρ Q P S h hs hs').1]
  exact C55_add_2w _ _ A C hQ hP

theorem C76_isogeny_448 (m : Mem) (ρ : Regs) (Q S : Place) (A : Pt) (h : Apart Q 16 S 32)
    (hQ : Is2w (q2w.at m Q) A) :
    IsProj2w (q2w.at (P448.isogeny_2w.call [Q, S] m ρ) Q) (4 • A) := by
  rw [(q_isogeny_2w m ρ Q S h).1]
  exact C55_isogeny _ A hQ

theorem C76_doubling_4w_448 (m : Mem) (ρ : Regs) (Q S : Place) (A : Pt) (h : Apart Q 16 S 32)
    (hQ : Is4w (g4.at m Q) A) : Is4w (g4.at (P448.doubling_4w.call [Q, S] m ρ) Q) (A + A) := by
  rw [(q_doubling_4w m ρ Q S h).1]
  exact C55_doubling_4w _ A hQ

end group448

/-- C76, the shared multiplication `intmul2` of the two-way formulas: both products are right,
also when a result is the second operand.  It is missing that a result may be the first one. -/
theorem C76_intmul2_partial : Combines2 e2
    (fun C D A B => Apart C 5 D 5 ∧ Apart C 5 A 5 ∧ Same 5 C B ∧ Apart D 5 A 5 ∧ Same 5 D B)
    F25519.V2.intmul2 Fp25519.R2.intmul2 :=
  fun m ρ C D A B h => e2_intmul2 m ρ C D A B
    ⟨h.1, Or.inr h.2.1, h.2.2.1.or rfl, Or.inr h.2.2.2.1, h.2.2.2.2.or rfl⟩

/-- C76 is false of `intmul2` with a result in the place of the first operand. -/
theorem C76_intmul2_wrong : ∃ (m : Mem) (ρ : Regs),
    (e2.at (F25519.V2.intmul2.call [(0, 0), (1, 0), (0, 0), (2, 0)] m ρ) (0, 0)).lo.toFp ≠
      (Fp25519.R2.intmul (e2.at m (0, 0)) (e2.at m (2, 0))).lo.toFp := by
  refine ⟨fun _ _ => LIT 1, fun _ => LIT 0, ?_⟩
  rw [Fp25519.Elt5.toFp, Fp25519.Elt5.toFp, Fp25519.Elt10.toFp, Fp25519.Elt10.toFp, Ne, fp_dvd_iff]
  decide +kernel

/-- Places that meet the hypotheses. -/
example : Apart (0, 0) 10 (2, 0) 20 ∧ Apart (0, 0) 10 (1, 0) 10 ∧ Same 10 (0, 0) (0, 0) := by
  refine ⟨?_, ?_, Or.inl rfl⟩ <;>
    (rintro o c ⟨h, h'⟩; exact absurd (h.1.symm.trans h'.1) (by decide))

/-- The decoded base point of Ed25519, negated, lies in some memory. -/
example : ∃ m : Mem, Ed25519.Is2w (p2w.at m (0, 0)) (-Ed25519.B) := by
  obtain ⟨-, h⟩ : Ed25519.Is4w (Ed25519.point_decoding ⟨true, true⟩ (Ed25519.encode Ed25519.B)).1
      (-Ed25519.B) ∧ Ed25519.Is2w (Ed25519.point_decoding ⟨true, true⟩
        (Ed25519.encode Ed25519.B)).2.1 (-Ed25519.B) :=
    Ed25519.point_decoding_spec _ (Ed25519.encode_length _) (Ed25519.decodes_encode Ed25519.B)
  generalize (Ed25519.point_decoding ⟨true, true⟩ (Ed25519.encode Ed25519.B)).2.1 = R at h
  obtain ⟨⟨a0, a1, a2, a3, a4⟩, ⟨b0, b1, b2, b3, b4⟩⟩ := R
  exact ⟨fun _ c => [a0, a1, a2, a3, a4, b0, b1, b2, b3, b4].getD c (LIT 0), h⟩

/-! ## C74 and C75 for the point formulas -/

/-- C74 for the point formulas: every access is inside a point or the local arrays, every store
is inside an output or the local arrays, and the addresses do not depend on the memory. -/
theorem C74_points_bounds : ∀ f ∈ points, ∀ l, ∀ a ∈ f.accesses l, f.Inside l a := by
  intro f hf l
  obtain ⟨al, D, hD⟩ := checked_points f hf
  exact inside_of hD l

/-- C74 for the point formulas: the memory outside the outputs and the local arrays is not
changed, and what is left in the points does not depend on the memory outside. -/
theorem C74_points_local : ∀ f ∈ points, ∀ (l : List Place) (ρ : Regs) (m m' : Mem),
    (∀ o c, (∀ k ∈ f.outs, ¬In (args l k) (f.cells.getD k 0) o c) →
      f.call l m ρ o c = m o c) ∧
    ((∀ k < f.cells.length, ∀ o c, In (args l k) (f.cells.getD k 0) o c → m o c = m' o c) →
      ∀ k < f.cells.length, ∀ o c, In (args l k) (f.cells.getD k 0) o c →
        f.call l m ρ o c = f.call l m' ρ o c) := by
  intro f hf l ρ m m'
  obtain ⟨al, D, hD⟩ := checked_points f hf
  exact local_of hD l ρ m m'

/-- C75 for the point formulas, except the two of `unalignedPoints`: every vector that is read
from a constant array is aligned. -/
theorem C75_points_partial : ∀ f ∈ points25519 ++ points448, ∀ l, f.Aligned l :=
  fun f hf l => aligned_of (alignOk_points f hf) l

/-- C75 is false of the addition over two halves of edwards25519, and of `join_points`, which
every multiplication by the base point ends with: the array `param_curve_2d_02` is a local array
of 64-bit integers, which may be at an address that is 8 modulo 32. -/
theorem C75_fulladd_wrong (l : List Place) :
    ¬P25519.fulladd_2w.Aligned l ∧ ¬P25519.join_points.Aligned l :=
  ⟨not_aligned_of (j := 0) (i := 0) (by kernel_refl) rfl (by decide +kernel) l,
    not_aligned_of (j := 198) (i := 0) (by kernel_refl) rfl (by decide +kernel) l⟩

example : P448.precompute_4w ∈ points25519 ++ points448 := by simp [points448]

end Verif.Vec
