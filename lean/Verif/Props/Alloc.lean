import Verif.Alloc
import Verif.Props.VecInPlace
import Verif.Props.InPlace

/-!
# Elements from `alloc` are large enough (C90)

Specification: every object has a size in bytes; an access to the vector or the word with number
`c` of an object is good if the object has that many bytes.
-/

namespace Verif.Alloc

open Verif.Vec in
/-- The access is inside an object of the heap. -/
def Good (size : ℕ → ℕ) : Vec.Access → Prop
  | .rd o c => 32 * (c + 1) ≤ size o
  | .wr o c => 32 * (c + 1) ≤ size o
  | .const _ _ => True

/-- A call of the vector function with pointers to objects of `n k` bytes stays inside them. -/
def Safe (f : Vec.Fn) (n : ℕ → ℕ) : Prop :=
  ∀ (size : ℕ → ℕ) (l : List Vec.Place),
    (∀ k < f.cells.length, (Vec.args l k).2 = 0 ∧ size (Vec.args l k).1 = n k) →
    ∀ a ∈ f.accesses l, Good size a

/-- A call of the assembly block with pointers to objects of `n` bytes stays inside them. -/
def SafeW (B : X86.Block) (n : ℕ) : Prop :=
  ∀ (size : ℕ → ℕ) (c a b : ℕ), size c = n → size a = n → size b = n →
    ∀ x ∈ B.accesses (X86.ptrs ⟨c, 0⟩ ⟨a, 0⟩ ⟨b, 0⟩), 8 * (x.word + 1) ≤ size x.obj

theorem safe_of {f : Vec.Fn} {m : ℕ} {n : ℕ → ℕ} (hf : f ∈ Vec.allFuns m)
    (ho : ∀ k ∈ f.outs, k < f.cells.length)
    (hc : ∀ k < f.cells.length, 32 * f.cells.getD k 0 ≤ n k) : Safe f n := by
  intro size l h a ha
  have := Vec.C74_bounds m f hf l a ha
  cases a with
  | rd o c =>
    obtain ⟨k, hk, h1, h2, h3⟩ := this
    have := hc k hk
    have := h k hk
    simp only [Good, h1, this.2]
    omega
  | wr o c =>
    obtain ⟨k, hk, h1, h2, h3⟩ := this
    have := hc k (ho k hk)
    have := h k (ho k hk)
    simp only [Good, h1, this.2]
    omega
  | const j i => trivial

/-- Every parameter has at most `c` vectors. -/
def small (c : ℕ) (f : Vec.Fn) : Bool :=
  f.outs.all (· < f.cells.length) && f.cells.all (· ≤ c)

theorem safe_small {f : Vec.Fn} {m c n : ℕ} (hf : f ∈ Vec.allFuns m) (h : small c f = true)
    (hn : 32 * c ≤ n) : Safe f fun _ => n := by
  simp only [small, Bool.and_eq_true, List.all_eq_true, decide_eq_true_eq] at h
  refine safe_of hf h.1 fun k hk => ?_
  have : f.cells.getD k 0 ≤ c := by
    rw [List.getD_eq_getElem?_getD, List.getElem?_eq_getElem hk]
    exact h.2 _ (List.getElem_mem hk)
  omega

theorem safe_list {fs : List Vec.Fn} {c n : ℕ} (hs : ∀ f ∈ fs, f ∈ Vec.allFuns 0)
    (h : fs.all (small c) = true) (hn : 32 * c ≤ n) : ∀ f ∈ fs, Safe f fun _ => n :=
  fun f hf => safe_small (hs f hf) (List.all_eq_true.1 h f hf) hn

theorem mem_all {m : ℕ} {f : Vec.Fn} (h : f ∈ Vec.funs25519_1w ∨ f ∈ Vec.funs25519_2w ∨
    f ∈ Vec.funs25519_4w ∨ f ∈ Vec.funs448_1w ∨ f ∈ Vec.funs448_2w ∨ f ∈ Vec.funs448_4w ∨
    f ∈ Vec.funsRep m) : f ∈ Vec.allFuns m := by
  simp only [Vec.allFuns, List.mem_append]
  tauto

/-- C90: elements of Fp25519 from `alloc` are large enough for every vector function, for every
number of repeated squarings. -/
theorem C90_vector_25519 (n : ℕ) :
    (∀ f ∈ Vec.funs25519_1w ++ [Vec.F25519.V1.sqrn n], Safe f fun _ => red25519_1w) ∧
    (∀ f ∈ Vec.funs25519_2w ++ [Vec.F25519.V2.sqrn n], Safe f fun _ => red25519_2w) ∧
    (∀ f ∈ Vec.funs25519_4w ++ [Vec.F25519.V4.sqrn n], Safe f fun _ => red25519_4w) := by
  refine ⟨fun f hf => ?_, fun f hf => ?_, fun f hf => ?_⟩ <;>
    rcases List.mem_append.1 hf with hf | hf
  · exact safe_list (c := 3) (fun f h => mem_all (by tauto)) (by decide +kernel) (by decide) f hf
  · rw [List.mem_singleton.1 hf]
    exact safe_small (m := n) (c := 3) (mem_all (by simp [Vec.funsRep])) rfl (by decide)
  · exact safe_list (c := 5) (fun f h => mem_all (by tauto)) (by decide +kernel) (by decide) f hf
  · rw [List.mem_singleton.1 hf]
    exact safe_small (m := n) (c := 5) (mem_all (by simp [Vec.funsRep])) rfl (by decide)
  · exact safe_list (c := 10) (fun f h => mem_all (by tauto)) (by decide +kernel) (by decide) f hf
  · rw [List.mem_singleton.1 hf]
    exact safe_small (m := n) (c := 10) (mem_all (by simp [Vec.funsRep])) rfl (by decide)

/-- C90: the same for Fp448. -/
theorem C90_vector_448 (n : ℕ) :
    (∀ f ∈ Vec.funs448_1w ++ [Vec.F448.V1.sqrn n], Safe f fun _ => red448_1w) ∧
    (∀ f ∈ Vec.funs448_2w, Safe f fun _ => red448_2w) ∧
    (∀ f ∈ Vec.funs448_4w, Safe f fun _ => red448_4w) := by
  refine ⟨fun f hf => ?_, ?_, ?_⟩
  · rcases List.mem_append.1 hf with hf | hf
    · exact safe_list (c := 4) (fun f h => mem_all (by tauto)) (by decide +kernel) (by decide) f hf
    · rw [List.mem_singleton.1 hf]
      exact safe_small (m := n) (c := 4) (mem_all (by simp [Vec.funsRep])) rfl (by decide)
  · exact safe_list (c := 8) (fun f h => mem_all (by tauto)) (by decide +kernel) (by decide)
  · exact safe_list (c := 16) (fun f h => mem_all (by tauto)) (by decide +kernel) (by decide)

/-- C90: the functions that go from elements of one width to elements of another are called with
elements from the `alloc` of each. -/
theorem C90_widths :
    (Safe Vec.F25519.V2.inter fun k => [red25519_2w, red25519_1w, red25519_1w].getD k 0) ∧
    (Safe Vec.F25519.V2.deinter fun k => [red25519_1w, red25519_1w, red25519_2w].getD k 0) ∧
    (Safe Vec.F25519.V4.zip fun k =>
      [red25519_4w, red25519_1w, red25519_1w, red25519_1w, red25519_1w].getD k 0) ∧
    (Safe Vec.F25519.V4.unzip fun k =>
      [red25519_1w, red25519_1w, red25519_1w, red25519_1w, red25519_4w].getD k 0) ∧
    (Safe Vec.F448.V2.inter fun k => [red448_2w, red448_1w, red448_1w].getD k 0) ∧
    (Safe Vec.F448.V2.deinter fun k => [red448_1w, red448_1w, red448_2w].getD k 0) ∧
    (Safe Vec.F448.V4.zip fun k =>
      [red448_4w, red448_1w, red448_1w, red448_1w, red448_1w].getD k 0) ∧
    (Safe Vec.F448.V4.unzip fun k =>
      [red448_1w, red448_1w, red448_1w, red448_1w, red448_4w].getD k 0) := by
  refine ⟨safe_of (m := 0) (mem_all ?_) (by decide) (by decide),
    safe_of (m := 0) (mem_all ?_) (by decide) (by decide),
    safe_of (m := 0) (mem_all ?_) (by decide) (by decide),
    safe_of (m := 0) (mem_all ?_) (by decide) (by decide),
    safe_of (m := 0) (mem_all ?_) (by decide) (by decide),
    safe_of (m := 0) (mem_all ?_) (by decide) (by decide),
    safe_of (m := 0) (mem_all ?_) (by decide) (by decide),
    safe_of (m := 0) (mem_all ?_) (by decide) (by decide)⟩ <;>
  simp [Vec.funs25519_2w, Vec.funs25519_4w, Vec.funs448_2w, Vec.funs448_4w]

theorem safeW_of {B : X86.Block} {n k l m : ℕ} (h : X86.InBounds B n k l) (hn : 8 * n ≤ m)
    (hk : 8 * k ≤ m) (hl : 8 * l ≤ m) : SafeW B m := by
  intro size c a b h1 h2 h3 x hx
  rcases h ⟨c, 0⟩ ⟨a, 0⟩ ⟨b, 0⟩ x hx with ⟨e, _, q⟩ | ⟨_, ⟨e, _, q⟩ | ⟨e, _, q⟩⟩ <;>
    simp only [e, h1, h2, h3] at * <;> omega

/-- C90, partial: elements of full radix from `alloc` are large enough for additions, subtractions,
selections and multiplications by a24.  Missing: the products before reduction
(`C90_full_wrong`). -/
theorem C90_full_partial :
    (∀ B ∈ [X86.Fp25519.add_adx, X86.Fp25519.add_adc, X86.Fp25519.sub, X86.Fp25519.cmv,
      X86.Fp25519.mula24_mulx, X86.Fp25519.mula24_mulq], SafeW B full25519) ∧
    (∀ B ∈ [X86.Fp448.add_adx, X86.Fp448.add_adc, X86.Fp448.sub, X86.Fp448.cmv,
      X86.Fp448.mula24_mulx, X86.Fp448.mula24_mulq], SafeW B full448) := by
  obtain ⟨_, _, _, _, _, _, h7, h8, _, _, _, h12, h13⟩ := X86.C65_bounds
  constructor <;> intro B hB <;>
    simp only [List.mem_cons, List.not_mem_nil, or_false] at hB <;>
    rcases hB with rfl | rfl | rfl | rfl | rfl | rfl
  · exact safeW_of (h8 _ (by simp)) (by decide) (by decide) (by decide)
  · exact safeW_of (h8 _ (by simp)) (by decide) (by decide) (by decide)
  · exact safeW_of (h8 _ (by simp)) (by decide) (by decide) (by decide)
  · exact safeW_of (h8 _ (by simp)) (by decide) (by decide) (by decide)
  · exact safeW_of (h7 _ (by simp)) (by decide) (by decide) (by decide)
  · exact safeW_of (h7 _ (by simp)) (by decide) (by decide) (by decide)
  · exact safeW_of (h13 _ (by simp)) (by decide) (by decide) (by decide)
  · exact safeW_of (h13 _ (by simp)) (by decide) (by decide) (by decide)
  · exact safeW_of (h13 _ (by simp)) (by decide) (by decide) (by decide)
  · exact safeW_of (h13 _ (by simp)) (by decide) (by decide) (by decide)
  · exact safeW_of (h12 _ (by simp)) (by decide) (by decide) (by decide)
  · exact safeW_of (h12 _ (by simp)) (by decide) (by decide) (by decide)

/-- C90 fails for the products before reduction: with elements from `alloc` in all arguments they
write behind the result. -/
theorem C90_full_wrong :
    (∀ B ∈ [X86.Fp25519.intmul_mulxadx, X86.Fp25519.intmul_mulx, X86.Fp25519.intmul_mulq,
      X86.Fp25519.intsqr_mulxadx, X86.Fp25519.intsqr_mulx, X86.Fp25519.intsqr_mulq,
      X86.Fp25519.intmul2_mulxadx, X86.Fp25519.intmul2_mulx, X86.Fp25519.intmul2_mulq,
      X86.Fp25519.intsqr2_mulxadx, X86.Fp25519.intsqr2_mulx, X86.Fp25519.intsqr2_mulq,
      X86.Fp25519.reduce2_mulxadx, X86.Fp25519.reduce2_mulx, X86.Fp25519.reduce2_mulq],
      ∃ x ∈ B.accesses (X86.ptrs ⟨3, 0⟩ ⟨1, 0⟩ ⟨2, 0⟩),
        x.write = true ∧ x.obj = 3 ∧ full25519 < 8 * (x.word + 1)) ∧
    (∀ B ∈ [X86.Fp448.intmul_mulxadx, X86.Fp448.intmul_mulx, X86.Fp448.intmul_mulq,
      X86.Fp448.intsqr_mulxadx, X86.Fp448.intsqr_mulx, X86.Fp448.intsqr_mulq],
      ∃ x ∈ B.accesses (X86.ptrs ⟨3, 0⟩ ⟨1, 0⟩ ⟨2, 0⟩),
        x.write = true ∧ x.obj = 3 ∧ full448 < 8 * (x.word + 1)) := by
  decide +kernel

/-- The sizes, and a call with elements from `alloc`. -/
example : full25519 = 32 ∧ red25519_1w = 96 ∧ red25519_2w = 160 ∧ red25519_4w = 320 ∧
    full448 = 56 ∧ red448_1w = 128 ∧ red448_2w = 256 ∧ red448_4w = 512 := by decide

example : ∀ k < Vec.F25519.V2.inter.cells.length,
    (Vec.args [(7, 0), (8, 0), (9, 0)] k).2 = 0 ∧
      (fun o => if o = 7 then red25519_2w else red25519_1w) (Vec.args [(7, 0), (8, 0), (9, 0)] k).1
        = [red25519_2w, red25519_1w, red25519_1w].getD k 0 := by decide

end Verif.Alloc
