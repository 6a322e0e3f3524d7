import Verif.X448.Swap
import Verif.X448.Lemmas
import Verif.X25519.SwapLemmas

/-! Lemmas for the conditional swaps of X448: the methods `PERMUTATION` and `LOGIC` agree on the
lower halves, the only ones that are used afterwards. -/

namespace Verif.X448

open Verif.Fp448
open Verif.X25519.Avx2 (Method swapLogic_lo swapLogic_hi bitW_xor)
open Verif.X25519 (bitW)

set_option exponentiation.threshold 2000

theorem perm_lo0 (sw : Bool) (x : V) :
    (PERMV128 x (masks (bitW sw)).1).lo = if sw then x.hi else x.lo :=
  X25519.Avx2.perm_lo0 sw x

theorem perm_lo1 (sw : Bool) (x : V) :
    (PERMV128 x (masks (bitW sw)).2).lo = if sw then x.lo else x.hi :=
  X25519.Avx2.perm_lo1 sw x

/-- The lower halves after the conditional swap. -/
theorem condSwap_lo {m : Method} (hm : m ≠ .cmov) (sw : Bool) (x z : Elt8 V) :
    (condSwap m (bitW sw) x z).1.lo = (if sw then x.hi else x.lo) ∧
      (condSwap m (bitW sw) x z).2.lo = if sw then z.lo else z.hi := by
  cases m with
  | permutation =>
    simp only [condSwap, Elt8.lo, Elt8.hi, Elt8.map, perm_lo0, perm_lo1]
    cases sw <;> exact ⟨rfl, rfl⟩
  | logic =>
    have e : ∀ y : V, (PERM64 y 0x4E).lo = y.hi := fun _ => rfl
    simp only [condSwap, Elt8.lo, Elt8.hi, Elt8.map, Elt8.zip, e, swapLogic, swapLogic_lo,
      swapLogic_hi]
    cases sw <;> exact ⟨rfl, rfl⟩
  | cmov => exact absurd rfl hm

/-- Blending keeps only the lower halves of its first operand. -/
theorem blend_congr {e e' f : Elt8 V} (h : e.lo = e'.lo) :
    e.zip (BLEND32 · · 0xF0) f = e'.zip (BLEND32 · · 0xF0) f := by
  have key : ∀ e : Elt8 V, e.zip (BLEND32 · · 0xF0) f = ⟨Vec4.join e.lo.c0 f.c0.hi,
      Vec4.join e.lo.c1 f.c1.hi, Vec4.join e.lo.c2 f.c2.hi, Vec4.join e.lo.c3 f.c3.hi,
      Vec4.join e.lo.c4 f.c4.hi, Vec4.join e.lo.c5 f.c5.hi, Vec4.join e.lo.c6 f.c6.hi,
      Vec4.join e.lo.c7 f.c7.hi⟩ := fun _ => rfl
  rw [key, key, h]

/-- The part of an iteration after the blending. -/
def rest (X1 : Elt8 V) (bit : W) (t0 t1 : Elt8 V) : St :=
  let a24 : V := LIT 39081
  let t0 := R2.compressfast t0
  let t1 := R2.compressfast t1
  let t0 := R2.intsqr t0
  let t1 := R2.intsqr t1
  let (t0, t1) := R2.compress2 t0 t1
  let t2 := t0.map (BLEND32 · (LIT 0) 0xF0)
  let t2 := { t2 with c0 := OR t2.c0 (SET64 0 1 0 0) }
  let X2X3 := R2.intmul t2 t1
  let X2X3 := R2.compress X2X3
  let t2 := t0.zip ADD (R2.twoP.zip SUB t1)
  let t1 := (t2.map (MUL · a24)).zip ADD t0
  let t2 := t2.zip (BLEND32 · · 0xF0) t0
  let t1 := t1.zip (BLEND32 · · 0xF0) X1
  let t1 := R2.compressfast t1
  let Z2Z3 := R2.intmul t2 t1
  let Z2Z3 := R2.compress Z2Z3
  ⟨X2X3, Z2Z3, bit⟩

theorem stepBy_rest (m : Method) (X1 : Elt8 V) (s : St) (bit : W) : stepBy m X1 s bit =
    let A := R2.add s.X2X3 s.Z2Z3
    let B := (R2.sub s.X2X3 s.Z2Z3).map (PERM64 · 0x4E)
    let t0 := R2.compress (R2.intmul A B)
    let t1 := t0.map (PERM64 · 0x4E)
    rest X1 bit
      ((condSwap m (bit ^^^ s.prev) A B).1.zip (BLEND32 · · 0xF0) (R2.addsub t1 t0).2)
      ((condSwap m (bit ^^^ s.prev) A B).2.zip (BLEND32 · · 0xF0) (R2.addsub t1 t0).1) := by
  simp only [stepBy, rest, R2_addsub_eq]

theorem step_permutation (X1 : Elt8 V) (s : St) (bit : W) :
    stepBy .permutation X1 s bit = step X1 s bit := rfl

theorem stepBy_eq {m : Method} (hm : m ≠ .cmov) (X1 : Elt8 V) {s : St} {p : Bool}
    (hp : s.prev = bitW p) (b : Bool) : stepBy m X1 s (bitW b) = step X1 s (bitW b) := by
  rw [← step_permutation, stepBy_rest, stepBy_rest, hp, bitW_xor]
  simp only []
  obtain ⟨m1, m2⟩ := condSwap_lo hm (xor b p) (R2.add s.X2X3 s.Z2Z3)
    ((R2.sub s.X2X3 s.Z2Z3).map (PERM64 · 0x4E))
  obtain ⟨p1, p2⟩ := condSwap_lo (m := .permutation) (by decide) (xor b p)
    (R2.add s.X2X3 s.Z2Z3) ((R2.sub s.X2X3 s.Z2Z3).map (PERM64 · 0x4E))
  rw [blend_congr (m1.trans p1.symm), blend_congr (m2.trans p2.symm)]

theorem step_prev (X1 : Elt8 V) (s : St) (b : W) : (step X1 s b).prev = b := rfl

theorem innerBy_eq {m : Method} (hm : m ≠ .cmov) (X1 : Elt8 V) (key : F7) {i : ℕ}
    (hi : i < 7) {n : ℕ} (hn : n ≤ 64) {s : St} (hp : ∃ p, s.prev = bitW p) :
    innerBy m X1 key i n s = inner X1 key i n s ∧ ∃ p, (inner X1 key i n s).prev = bitW p := by
  induction n generalizing s with
  | zero => exact ⟨rfl, hp⟩
  | succ n ih =>
    obtain ⟨p, hp⟩ := hp
    rw [inner, innerBy, keyBit_eq key hi (by omega), stepBy_eq hm X1 hp]
    exact ih (by omega) ⟨_, step_prev _ _ _⟩

theorem mainLoopBy_eq {m : Method} (hm : m ≠ .cmov) (X1 : Elt8 V) (key : F7) {s : St}
    (hp : ∃ p, s.prev = bitW p) : mainLoopBy m X1 key s = mainLoop X1 key s := by
  unfold mainLoop mainLoopBy
  simp only []
  obtain ⟨e, hp⟩ := innerBy_eq hm X1 key (i := 6) (by omega) le_rfl hp
  rw [e]
  obtain ⟨e, hp⟩ := innerBy_eq hm X1 key (i := 5) (by omega) le_rfl hp
  rw [e]
  obtain ⟨e, hp⟩ := innerBy_eq hm X1 key (i := 4) (by omega) le_rfl hp
  rw [e]
  obtain ⟨e, hp⟩ := innerBy_eq hm X1 key (i := 3) (by omega) le_rfl hp
  rw [e]
  obtain ⟨e, hp⟩ := innerBy_eq hm X1 key (i := 2) (by omega) le_rfl hp
  rw [e]
  obtain ⟨e, hp⟩ := innerBy_eq hm X1 key (i := 1) (by omega) le_rfl hp
  rw [e]
  exact (innerBy_eq hm X1 key (i := 0) (by omega) le_rfl hp).1

theorem sharedBy_eq {m : Method} (hm : m ≠ .cmov) (u k : List Byte) :
    sharedBy m u k = shared u k := by
  unfold shared sharedBy sharedElt sharedEltBy
  simp only []
  rw [mainLoopBy_eq hm _ _ ⟨false, rfl⟩]

end Verif.X448
