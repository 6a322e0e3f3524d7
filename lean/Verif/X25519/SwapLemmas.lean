import Verif.X25519.Swap
import Verif.X25519.Avx2Lemmas

/-! Lemmas for the conditional swaps: the three methods agree on the lower halves, the only ones
that are used afterwards. -/

namespace Verif.X25519.Avx2

open Verif.Fp25519

theorem bitW_xor (a b : Bool) : bitW a ^^^ bitW b = bitW (xor a b) := by
  cases a <;> cases b <;> rfl

/-! ## One register -/

theorem cmovLow_small {bit : BitVec 32} {x y : W} (hx : x.toNat < 2 ^ 32) (hy : y.toNat < 2 ^ 32) :
    cmovLow bit x y = if bit = 0#32 then x else y := by
  have h0 : x >>> 32 <<< 32 = 0#64 := by
    apply BitVec.eq_of_toNat_eq
    simp only [BitVec.toNat_shiftLeft, BitVec.toNat_ushiftRight, BitVec.toNat_ofNat,
      Nat.shiftRight_eq_div_pow, Nat.shiftLeft_eq]
    omega
  have h1 : ∀ z : W, z.toNat < 2 ^ 32 → (z.setWidth 32).setWidth 64 = z := by
    intro z hz
    apply BitVec.eq_of_toNat_eq
    simp only [BitVec.toNat_setWidth]
    omega
  unfold cmovLow
  rw [h0]
  split <;> simp only [BitVec.zero_or]
  · exact h1 x hx
  · exact h1 y hy

theorem sel0 (x y : W) : ~~~(-0#64) &&& x ^^^ (-0#64 &&& y) = x := by
  rw [show ~~~(-0#64) = BitVec.allOnes 64 from rfl, show -0#64 = 0#64 from rfl,
    BitVec.allOnes_and, BitVec.zero_and, BitVec.xor_zero]

theorem sel1 (x y : W) : ~~~(-1#64) &&& x ^^^ (-1#64 &&& y) = y := by
  rw [show ~~~(-1#64) = 0#64 from rfl, show -1#64 = BitVec.allOnes 64 from rfl,
    BitVec.allOnes_and, BitVec.zero_and, BitVec.zero_xor]

theorem swapLogic_lo (sw : Bool) (x z : V) :
    (swapLogic (bitW sw) x z).lo = if sw then x.hi else x.lo := by
  cases sw
  · have e : (swapLogic (bitW false) x z).lo =
      ⟨~~~(-0#64) &&& x.q0 ^^^ (-0#64 &&& x.q2), ~~~(-0#64) &&& x.q1 ^^^ (-0#64 &&& x.q3)⟩ := rfl
    rw [e, sel0, sel0]; rfl
  · have e : (swapLogic (bitW true) x z).lo =
      ⟨~~~(-1#64) &&& x.q0 ^^^ (-1#64 &&& x.q2), ~~~(-1#64) &&& x.q1 ^^^ (-1#64 &&& x.q3)⟩ := rfl
    rw [e, sel1, sel1]; rfl

theorem swapLogic_hi (sw : Bool) (x z : V) :
    (swapLogic (bitW sw) x z).hi = if sw then z.lo else z.hi := by
  cases sw
  · have e : (swapLogic (bitW false) x z).hi =
      ⟨~~~(-0#64) &&& z.q2 ^^^ (-0#64 &&& z.q0), ~~~(-0#64) &&& z.q3 ^^^ (-0#64 &&& z.q1)⟩ := rfl
    rw [e, sel0, sel0]; rfl
  · have e : (swapLogic (bitW true) x z).hi =
      ⟨~~~(-1#64) &&& z.q2 ^^^ (-1#64 &&& z.q0), ~~~(-1#64) &&& z.q3 ^^^ (-1#64 &&& z.q1)⟩ := rfl
    rw [e, sel1, sel1]; rfl

/-- The lower halves of the words of a register are below 2^32. -/
def Small (x : V) : Prop :=
  x.q0.toNat < 2 ^ 32 ∧ x.q1.toNat < 2 ^ 32 ∧ x.q2.toNat < 2 ^ 32 ∧ x.q3.toNat < 2 ^ 32

theorem cmovBoth_lo {bit : BitVec 32} {x : V} (h : Small x) :
    (cmovBoth bit x).lo = if bit = 0#32 then x.lo else x.hi := by
  have e : (cmovBoth bit x).lo = ⟨cmovLow bit x.q0 x.q2, cmovLow bit x.q1 x.q3⟩ := rfl
  rw [e, cmovLow_small h.1 h.2.2.1, cmovLow_small h.2.1 h.2.2.2]
  split <;> rfl

theorem perm_lo0 (sw : Bool) (x : V) :
    (PERMV128 x (masks (bitW sw)).1).lo = if sw then x.hi else x.lo := by
  have e := masks_eq sw false
  rw [bitW_xor, Bool.xor_false] at e
  rw [e]
  cases sw
  · simp only [Bool.false_eq_true, if_false, PERMV128_id]
  · simp only [if_true, PERMV128_swap]; rfl

theorem perm_lo1 (sw : Bool) (x : V) :
    (PERMV128 x (masks (bitW sw)).2).lo = if sw then x.lo else x.hi := by
  have e := masks_eq sw false
  rw [bitW_xor, Bool.xor_false] at e
  rw [e]
  cases sw
  · simp only [Bool.false_eq_true, if_false, PERMV128_swap]; rfl
  · simp only [if_true, PERMV128_id]

theorem bit_sel0 (sw : Bool) : ((bitW sw).setWidth 32 = 0#32) = (sw = false) := by
  cases sw <;> decide

theorem bit_sel1 (sw : Bool) : ((1#64 - bitW sw).setWidth 32 = 0#32) = (sw = true) := by
  cases sw <;> decide

/-! ## Elements -/

/-- All words of the element are below 2^32. -/
def Small5 (e : Elt5 V) : Prop :=
  Small e.c0 ∧ Small e.c1 ∧ Small e.c2 ∧ Small e.c3 ∧ Small e.c4

theorem small5_of_le {e : Elt5 V} (hl : e.lo.Le loose) (hh : e.hi.Le loose) : Small5 e := by
  obtain ⟨⟨a0, a1, a2, a3⟩, ⟨b0, b1, b2, b3⟩, ⟨c0, c1, c2, c3⟩, ⟨d0, d1, d2, d3⟩,
    ⟨f0, f1, f2, f3⟩⟩ := e
  simp only [Elt5.Le, Elt10.Le, Elt5.limbs, Elt5.lo, Elt5.hi, Elt5.map, Vec4.lo, Vec4.hi, loose,
    bnd] at hl hh
  simp only [Small5, Small]
  omega

theorem ite_elt (sw : Bool) (x y : Elt5 V) : (⟨if sw then x.c0.hi else y.c0.lo,
    if sw then x.c1.hi else y.c1.lo, if sw then x.c2.hi else y.c2.lo,
    if sw then x.c3.hi else y.c3.lo, if sw then x.c4.hi else y.c4.lo⟩ : Elt5 U) =
    if sw then x.hi else y.lo := by
  cases sw <;> rfl

theorem ite_elt' (sw : Bool) (x y : Elt5 V) : (⟨if sw then x.c0.lo else y.c0.hi,
    if sw then x.c1.lo else y.c1.hi, if sw then x.c2.lo else y.c2.hi,
    if sw then x.c3.lo else y.c3.hi, if sw then x.c4.lo else y.c4.hi⟩ : Elt5 U) =
    if sw then x.lo else y.hi := by
  cases sw <;> rfl

/-- The lower halves after the conditional swap. -/
theorem condSwap_lo (m : Method) (sw : Bool) {x z : Elt5 V} (hx : Small5 x) (hz : Small5 z) :
    (condSwap m (bitW sw) x z).1.lo = (if sw then x.hi else x.lo) ∧
      (condSwap m (bitW sw) x z).2.lo = if sw then z.lo else z.hi := by
  cases m with
  | permutation =>
    rw [← ite_elt sw x x, ← ite_elt' sw z z]
    simp only [condSwap, Elt5.lo, Elt5.map, perm_lo0, perm_lo1, and_self]
  | logic =>
    have e : ∀ y : V, (PERM64 y 0x4E).lo = y.hi := fun _ => rfl
    rw [← ite_elt sw x x, ← ite_elt' sw z z]
    simp only [condSwap, Elt5.lo, Elt5.map, Elt5.zip, e, swapLogic_lo, swapLogic_hi, and_self]
  | cmov =>
    obtain ⟨x0, x1, x2, x3, x4⟩ := hx
    obtain ⟨z0, z1, z2, z3, z4⟩ := hz
    simp only [condSwap, cmov, Elt5.lo, Elt5.map, cmovBoth_lo x0, cmovBoth_lo x1, cmovBoth_lo x2,
      cmovBoth_lo x3, cmovBoth_lo x4, cmovBoth_lo z0, cmovBoth_lo z1, cmovBoth_lo z2,
      cmovBoth_lo z3, cmovBoth_lo z4, bit_sel0, bit_sel1]
    cases sw <;> exact ⟨rfl, rfl⟩

/-- Blending keeps only the lower halves of its first operand. -/
theorem blend_congr {e e' f : Elt5 V} (h : e.lo = e'.lo) :
    e.zip (BLEND32 · · 0xF0) f = e'.zip (BLEND32 · · 0xF0) f := by
  have key : ∀ e : Elt5 V, e.zip (BLEND32 · · 0xF0) f = ⟨Vec4.join e.lo.c0 f.c0.hi,
      Vec4.join e.lo.c1 f.c1.hi, Vec4.join e.lo.c2 f.c2.hi, Vec4.join e.lo.c3 f.c3.hi,
      Vec4.join e.lo.c4 f.c4.hi⟩ := fun _ => rfl
  rw [key, key, h]

/-! ## The ladder -/

/-- The part of an iteration after the blending. -/
def rest (X1 : Elt5 V) (bit : W) (t0 t1 : Elt5 V) : St :=
  let a24 : V := LIT 121665
  let t0 := R2.intsqr t0
  let t1 := R2.intsqr t1
  let (t0, t1) := R2.compress2 t0 t1
  let t2 := t0.map (BLEND32 · (LIT 0) 0xF0)
  let t2 := { t2 with c0 := OR t2.c0 (SET64 0 1 0 0) }
  let X2X3 := R2.intmul t2 t1
  let X2X3 := R2.compress X2X3
  let t2 := t0.zip ADD (CONST_2P_2P.zip SUB t1)
  let t1 := (t2.map (MUL · a24)).zip ADD t0
  let t2 := t2.zip (BLEND32 · · 0xF0) t0
  let t1 := t1.zip (BLEND32 · · 0xF0) X1
  let t1 := R2.compressfast t1
  let Z2Z3 := R2.intmul t2 t1
  let Z2Z3 := R2.compress Z2Z3
  ⟨X2X3, Z2Z3, bit⟩

theorem stepBy_rest (m : Method) (X1 : Elt5 V) (s : St) (bit : W) : stepBy m X1 s bit =
    let A := R2.add s.X2X3 s.Z2Z3
    let B := (R2.sub s.X2X3 s.Z2Z3).map (PERM64 · 0x4E)
    let t0 := R2.compress (R2.intmul A B)
    let t1 := t0.map (PERM64 · 0x4E)
    rest X1 bit
      ((condSwap m (bit ^^^ s.prev) A B).1.zip (BLEND32 · · 0xF0) (R2.addsub t1 t0).2)
      ((condSwap m (bit ^^^ s.prev) A B).2.zip (BLEND32 · · 0xF0) (R2.addsub t1 t0).1) := rfl

theorem step_permutation (X1 : Elt5 V) (s : St) (bit : W) :
    stepBy .permutation X1 s bit = step X1 s bit := rfl

theorem stepBy_eq (m : Method) (X1 : Elt5 V) {s : St} {t : Mont.LS Fp} (h : Sim s t) (b : Bool) :
    stepBy m X1 s (bitW b) = step X1 s (bitW b) := by
  have hA : Small5 (R2.add s.X2X3 s.Z2Z3) :=
    small5_of_le (R2_add_spec h.b2 h.c2).1 (R2_add_spec h.b3 h.c3).1
  have hB : Small5 ((R2.sub s.X2X3 s.Z2Z3).map (PERM64 · 0x4E)) :=
    small5_of_le (R2_sub_spec h.b3 h.c3).1 (R2_sub_spec h.b2 h.c2).1
  rw [← step_permutation, stepBy_rest, stepBy_rest, h.prev, bitW_xor]
  simp only []
  obtain ⟨m1, m2⟩ := condSwap_lo m (xor b t.prev) hA hB
  obtain ⟨p1, p2⟩ := condSwap_lo .permutation (xor b t.prev) hA hB
  rw [blend_congr (m1.trans p1.symm), blend_congr (m2.trans p2.symm)]

theorem innerBy_eq (m : Method) {X1 : Elt5 V} (h1 : X1.hi.Le tight) (key : F4) {i : ℕ}
    (hi : i < 4) {n : ℕ} (hn : n ≤ 64) {s : St} {t : Mont.LS Fp} (h : Sim s t) :
    innerBy m X1 key i n s = inner X1 key i n s := by
  induction n generalizing s t with
  | zero => rfl
  | succ n ih =>
    rw [inner, innerBy, keyBit_eq key hi (by omega), stepBy_eq m X1 h]
    exact ih (by omega) (step_sim h1 h _)

theorem mainLoopBy_eq (m : Method) {X1 : Elt5 V} (h1 : X1.hi.Le tight) (key : F4) {s : St}
    {t : Mont.LS Fp} (h : Sim s t) : mainLoopBy m X1 key s = mainLoop X1 key s := by
  unfold mainLoop mainLoopBy
  simp only []
  rw [innerBy_eq m h1 key (by omega) (by omega) h]
  have h := inner_sim h1 key (i := 3) (m := 63) (by omega) (by omega) h
  rw [innerBy_eq m h1 key (by omega) (by omega) h]
  have h := inner_sim h1 key (i := 2) (m := 64) (by omega) (by omega) h
  rw [innerBy_eq m h1 key (by omega) (by omega) h]
  have h := inner_sim h1 key (i := 1) (m := 64) (by omega) (by omega) h
  rw [innerBy_eq m h1 key (by omega) (by omega) h]

theorem sharedBy_eq (m : Method) (isa : Isa) {u : List Byte} (k : List Byte)
    (hu : u.length = 32) : sharedBy m isa u k = shared isa u k := by
  obtain ⟨hl', -⟩ := mask_val hu
  have ht : (R1.unser (maskTop u)).Le tight := canonB_tight (unser_spec _ hl').1
  have hz : R1.zero.Le tight ∧ R1.zero.toFp = 0 := by
    refine ⟨by decide, ?_⟩
    have : R1.zero.limbs.ints.val = 0 := by decide
    rw [Elt5.toFp, Elt10.toFp, this, Int.cast_zero]
  have hs : Sim ⟨R2.inter (R1.unser (maskTop u)) (R1.unser (maskTop u)),
      ⟨SET64 0 1 0 0, LIT 0, LIT 0, LIT 0, LIT 0⟩, 0#64⟩
      (Mont.initC (R1.unser (maskTop u)).toFp (R1.unser (maskTop u)).toFp) :=
    ⟨ht, rfl, hz.1, hz.2, ht, rfl, one5_spec.1, one5_spec.2, rfl⟩
  unfold shared sharedBy
  simp only []
  rw [mainLoopBy_eq m (X1 := R2.inter (R1.unser (maskTop u)) (R1.unser (maskTop u))) ht _ hs]

end Verif.X25519.Avx2
