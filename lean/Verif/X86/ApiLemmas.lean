import Verif.X86.Api

/-!
# What the full-radix operations do to memory

Helper lemmas.
-/

namespace Verif.X86

open Verif.Fp25519 (Isa)

theorem Mem.get_put_apart (m : Mem) {p q : Loc} {n : ℕ} {l : List W}
    (h : Apart p n q l.length) {i : ℕ} (hi : i < n) : (m.put q l).get p i = m.get p i := by
  unfold Mem.get Mem.put
  rw [if_neg]
  rintro ⟨h1, h2, h3⟩
  rcases h with h | h
  · exact h h1
  · omega

theorem Mem.get_put_self (m : Mem) (p : Loc) {l : List W} {i : ℕ} (hi : i < l.length) :
    (m.put p l).get p i = l.getD i 0#64 := by
  unfold Mem.get Mem.put
  rw [if_pos ⟨rfl, by omega, by omega⟩, show p.off + i - p.off = i by omega]

/-- Outside an object that was written. -/
theorem Mem.put_other (m : Mem) (p : Loc) (l : List W) {o : ℕ} (h : o ≠ p.obj) (x : ℕ) :
    m.put p l o x = m o x := by
  unfold Mem.put
  rw [if_neg fun hh => h hh.1]

/-- Equal or apart. -/
def EqOrApart (p q : Loc) (n : ℕ) : Prop := p = q ∨ Apart p n q n

namespace Fp25519

theorem placed2 {c a b : Loc} (ha : EqOrApart a c 4) (hb : EqOrApart b c 4) :
    Placed (shape 4 4 4 true) (ptrs c a b) := by
  intro p hp
  cases p with
  | p0 => exact absurd rfl hp
  | p1 => exact ha.imp (fun h => ⟨rfl, h⟩) id
  | p2 => exact hb.imp (fun h => ⟨rfl, h⟩) id

theorem placed1 {n k : ℕ} {c a : Loc} (ha : a = c ∨ Apart a k c n) :
    Placed (shape1 n k true) (ptrs c a c) := by
  intro p hp
  cases p with
  | p0 => exact absurd rfl hp
  | p1 => exact ha.imp (fun h => ⟨rfl, h⟩) id
  | p2 => exact Or.inl ⟨rfl, rfl⟩

theorem apart2 {n k : ℕ} {c a b : Loc} (ha : Apart a k c n) (hb : Apart b k c n) :
    Placed (shape n k k false) (ptrs c a b) := by
  intro p hp
  cases p with
  | p0 => exact absurd rfl hp
  | p1 => exact Or.inr ha
  | p2 => exact Or.inr hb

theorem apart1 {n k : ℕ} {c a : Loc} (ha : Apart a k c n) :
    Placed (shape1 n k false) (ptrs c a c) := by
  intro p hp
  cases p with
  | p0 => exact absurd rfl hp
  | p1 => exact Or.inr ha
  | p2 => exact Or.inl ⟨rfl, rfl⟩

theorem intmul_mem (isa : Isa) (z : Cpu) {c a b : Loc} (m : Mem)
    (ha : Apart a 4 c 8) (hb : Apart b 4 c 8) :
    intmul isa z c a b m = m.put c (l8 (Verif.Fp25519.Full.intmul isa (elt m a) (elt m b))) := by
  unfold intmul Verif.Fp25519.Full.intmul call
  cases isa.bmi2 <;> cases isa.adx
  · exact intmul_mulq_run _ (apart2 ha hb)
  · exact intmul_mulq_run _ (apart2 ha hb)
  · exact intmul_mulx_run _ (apart2 ha hb)
  · exact intmul_mulxadx_run _ (apart2 ha hb)

theorem intsqr_mem (isa : Isa) (z : Cpu) {c a : Loc} (m : Mem) (ha : Apart a 4 c 8) :
    intsqr isa z c a m = m.put c (l8 (Verif.Fp25519.Full.intsqr isa (elt m a))) := by
  unfold intsqr Verif.Fp25519.Full.intsqr call
  cases isa.bmi2 <;> cases isa.adx
  · exact intsqr_mulq_run _ (apart1 ha)
  · exact intsqr_mulq_run _ (apart1 ha)
  · exact intsqr_mulx_run _ (apart1 ha)
  · exact intsqr_mulxadx_run _ (apart1 ha)

theorem intmul2_mem (isa : Isa) (z : Cpu) {c a b : Loc} (m : Mem)
    (ha : Apart a 8 c 16) (hb : Apart b 8 c 16) :
    intmul2 isa z c a b m = m.put c
      (l8 (Verif.Fp25519.Full.intmul2 isa (elt2 m a) (elt2 m b)).1 ++
       l8 (Verif.Fp25519.Full.intmul2 isa (elt2 m a) (elt2 m b)).2) := by
  unfold intmul2 Verif.Fp25519.Full.intmul2 call
  cases isa.bmi2 <;> cases isa.adx
  · exact intmul2_mulq_run _ (apart2 ha hb)
  · exact intmul2_mulq_run _ (apart2 ha hb)
  · exact intmul2_mulx_run _ (apart2 ha hb)
  · exact intmul2_mulxadx_run _ (apart2 ha hb)

theorem intsqr2_mem (isa : Isa) (z : Cpu) {c a : Loc} (m : Mem) (ha : Apart a 8 c 16) :
    intsqr2 isa z c a m = m.put c
      (l8 (Verif.Fp25519.Full.intsqr2 isa (elt2 m a)).1 ++
       l8 (Verif.Fp25519.Full.intsqr2 isa (elt2 m a)).2) := by
  unfold intsqr2 Verif.Fp25519.Full.intsqr2 call
  cases isa.bmi2 <;> cases isa.adx
  · exact intsqr2_mulq_run _ (apart1 ha)
  · exact intsqr2_mulq_run _ (apart1 ha)
  · exact intsqr2_mulx_run _ (apart1 ha)
  · exact intsqr2_mulxadx_run _ (apart1 ha)

theorem reduce_mem (isa : Isa) (z : Cpu) {c a : Loc} (m : Mem) (ha : a = c ∨ Apart a 8 c 4) :
    reduce isa z c a m = m.put c (l4 (Verif.Fp25519.Full.reduce isa (dbl m a))) := by
  unfold reduce Verif.Fp25519.Full.reduce call
  cases isa.bmi2 <;> cases isa.adx
  · exact reduce_mulq_run _ (placed1 ha)
  · exact reduce_mulq_run _ (placed1 ha)
  · exact reduce_mulx_run _ (placed1 ha)
  · exact reduce_mulxadx_run _ (placed1 ha)

theorem reduce2_mem (isa : Isa) (z : Cpu) {c a : Loc} (m : Mem) (ha : a = c ∨ Apart a 16 c 8) :
    reduce2 isa z c a m = m.put c
      (l4 (Verif.Fp25519.Full.reduce2 isa (dbl2 m a)).1 ++
       l4 (Verif.Fp25519.Full.reduce2 isa (dbl2 m a)).2) := by
  unfold reduce2 Verif.Fp25519.Full.reduce2 call
  cases isa.bmi2 <;> cases isa.adx
  · exact reduce2_mulq_run _ (placed1 ha)
  · exact reduce2_mulq_run _ (placed1 ha)
  · exact reduce2_mulx_run _ (placed1 ha)
  · exact reduce2_mulxadx_run _ (placed1 ha)

theorem add_mem (isa : Isa) (z : Cpu) {c a b : Loc} (m : Mem)
    (ha : EqOrApart a c 4) (hb : EqOrApart b c 4) :
    add isa z c a b m = m.put c (l4 (Verif.Fp25519.Full.add isa (elt m a) (elt m b))) := by
  unfold add Verif.Fp25519.Full.add call
  cases isa.adx
  · exact add_adc_run _ (placed2 ha hb)
  · exact add_adx_run _ (placed2 ha hb)

theorem sub_mem (z : Cpu) {c a b : Loc} (m : Mem)
    (ha : EqOrApart a c 4) (hb : EqOrApart b c 4) :
    subM z c a b m = m.put c (l4 (Verif.Fp25519.Full.sub (elt m a) (elt m b))) :=
  sub_run _ (placed2 ha hb)

theorem mula24_mem (isa : Isa) (z : Cpu) {c a : Loc} (m : Mem) (ha : EqOrApart a c 4) :
    mula24 isa z c a m = m.put c (l4 (Verif.Fp25519.Full.mula24 isa (elt m a))) := by
  unfold mula24 Verif.Fp25519.Full.mula24 callArg call
  cases isa.bmi2
  · exact mula24_mulq_run _ (placed1 ha) rfl
  · exact mula24_mulx_run _ (placed1 ha) rfl

theorem test_bit (bit : BitVec 32) : (!(bit.setWidth 64 == 0#64)) = (bit != 0#32) := by
  rw [Bool.eq_iff_iff]
  simp only [Bool.not_eq_true', beq_eq_false_iff_ne, bne_iff_ne, ne_eq, not_iff_not]
  constructor
  · intro h
    have := congrArg (BitVec.setWidth 32) h
    simpa using this
  · rintro rfl; rfl

theorem cmv_mem (z : Cpu) (bit : BitVec 32) {c a b : Loc} (m : Mem)
    (ha : EqOrApart a c 4) (hb : EqOrApart b c 4) :
    cmvM z bit c a b m = m.put c (l4 (Verif.Fp25519.Full.cmv bit (elt m a) (elt m b))) := by
  unfold cmvM callArg call
  refine run_w4 (placed2 ha hb) (by decide +kernel) rfl _ _ ?_
  unfold Verif.Fp25519.Full.cmv
  rw [← test_bit]
  rfl

theorem select_mem (z : Cpu) (bit : W) {x y : Loc} (m : Mem) (hy : EqOrApart y x 4) :
    selectM z bit x y m = m.put x (l4 (if bit = 0#64 then elt m x else elt m y)) := by
  unfold selectM callArg call
  refine run_w4 (placed1 hy) (by decide +kernel) rfl _ _ ?_
  by_cases h : bit = 0#64
  · subst h; rfl
  · rw [if_neg h]
    have hz : (bit == 0#64) = false := by simpa using h
    show w4 _ = _
    simp only [State.get, hz]
    rfl

theorem elt_put_apart (m : Mem) {p q : Loc} {l : List W} (h : Apart p 4 q l.length) :
    elt (m.put q l) p = elt m p := by
  simp [elt, w4, m.get_put_apart h]

theorem elt_put_self (m : Mem) (p : Loc) (v : Verif.Fp25519.F4) : elt (m.put p (l4 v)) p = v := by
  simp [elt, w4, Mem.get_put_self, l4]

theorem dbl_put_self (m : Mem) (p : Loc) (v : Verif.Fp25519.F8) : dbl (m.put p (l8 v)) p = v := by
  simp [dbl, w8, Mem.get_put_self, l8]

theorem mul_mem (isa : Isa) (z z' : Cpu) {buf c a b : Loc} (m : Mem)
    (ha : Apart a 4 buf 8) (hb : Apart b 4 buf 8) (hc : Apart buf 8 c 4) :
    mul isa z z' buf c a b m =
      (m.put buf (l8 (Verif.Fp25519.Full.intmul isa (elt m a) (elt m b)))).put c
        (l4 (Verif.Fp25519.Full.mul isa (elt m a) (elt m b))) := by
  rw [mul, intmul_mem isa z m ha hb, reduce_mem isa z' _ (Or.inr hc), dbl_put_self,
    Verif.Fp25519.Full.mul]

theorem sqr_mem (isa : Isa) (z z' : Cpu) {buf a : Loc} (m : Mem)
    (ha : Apart a 4 buf 8) (hc : Apart buf 8 a 4) :
    sqr isa z z' buf a m =
      (m.put buf (l8 (Verif.Fp25519.Full.intsqr isa (elt m a)))).put a
        (l4 (Verif.Fp25519.Full.sqr isa (elt m a))) := by
  rw [sqr, intsqr_mem isa z m ha, reduce_mem isa z' _ (Or.inr hc), dbl_put_self,
    Verif.Fp25519.Full.sqr]

theorem neg_mem (z : Cpu) {zero c : Loc} (m : Mem) (h : Apart zero 4 c 4) (h' : Apart c 4 zero 4) :
    neg z zero c m = (m.put zero [0, 0, 0, 0]).put c (l4 (Verif.Fp25519.Full.neg (elt m c))) := by
  rw [neg, sub_mem z _ (Or.inr h) (Or.inl rfl), Verif.Fp25519.Full.neg,
    elt_put_apart m (l := [0, 0, 0, 0]) h',
    show elt (m.put zero [0, 0, 0, 0]) zero = Verif.Fp25519.Full.zero from
      elt_put_self m zero Verif.Fp25519.Full.zero]

theorem copy_mem {c a : Loc} (m : Mem) (ha : EqOrApart a c 4) :
    copy c a m = m.put c (l4 (elt m a)) := by
  have key : ∀ i < 4, ∀ j < 4, i ≠ j → ∀ (m : Mem) (v : W), (m.set c i v).get a j = m.get a j := by
    intro i hi j hj hij m v
    simp only [Mem.set, Mem.get]
    rw [if_neg]
    rintro ⟨h1, h2⟩
    rcases ha with rfl | h | h
    · omega
    · exact h h1
    · omega
  simp only [copy]
  rw [key 2 (by decide) 3 (by decide) (by decide), key 1 (by decide) 3 (by decide) (by decide),
    key 0 (by decide) 3 (by decide) (by decide), key 1 (by decide) 2 (by decide) (by decide),
    key 0 (by decide) 2 (by decide) (by decide), key 0 (by decide) 1 (by decide) (by decide)]
  funext o x
  by_cases hx : o = c.obj ∧ c.off ≤ x ∧ x < c.off + 4
  · obtain ⟨rfl, h1, h2⟩ := hx
    obtain ⟨i, rfl⟩ := Nat.exists_eq_add_of_le h1
    have hi : i < 4 := by omega
    match i, hi with
    | 0, _ | 1, _ | 2, _ | 3, _ => simp [Mem.set, Mem.put, l4, elt, w4]
  · have e : m.put c (l4 (elt m a)) o x = m o x := by
      exact if_neg hx
    rw [e]
    have h4 : ∀ i < 4, ¬(o = c.obj ∧ x = c.off + i) := fun i hi h => hx ⟨h.1, by omega, by omega⟩
    simp only [Mem.set]
    rw [if_neg (h4 3 (by decide)), if_neg (h4 2 (by decide)), if_neg (h4 1 (by decide)),
      if_neg (h4 0 (by decide))]

end Fp25519

namespace Fp448

open Verif.X86.Fp25519 (placed1 apart1 apart2)

set_option maxRecDepth 2000

theorem placed2 {c a b : Loc} (ha : EqOrApart a c 7) (hb : EqOrApart b c 7) :
    Placed (Fp25519.shape 7 7 7 true) (ptrs c a b) := by
  intro p hp
  cases p with
  | p0 => exact absurd rfl hp
  | p1 => exact ha.imp (fun h => ⟨rfl, h⟩) id
  | p2 => exact hb.imp (fun h => ⟨rfl, h⟩) id

theorem intmul_mem (isa : Isa) (z : Cpu) {c a b : Loc} (m : Mem)
    (ha : Apart a 7 c 14) (hb : Apart b 7 c 14) :
    intmul isa z c a b m = m.put c (l14 (Verif.Fp448.Full.intmul isa (elt m a) (elt m b))) := by
  unfold intmul Verif.Fp448.Full.intmul call
  cases isa.bmi2 <;> cases isa.adx
  · exact intmul_mulq_run _ (apart2 ha hb)
  · exact intmul_mulq_run _ (apart2 ha hb)
  · exact intmul_mulx_run _ (apart2 ha hb)
  · exact intmul_mulxadx_run _ (apart2 ha hb)

theorem intsqr_mem (isa : Isa) (z : Cpu) {c a : Loc} (m : Mem) (ha : Apart a 7 c 14) :
    intsqr isa z c a m = m.put c (l14 (Verif.Fp448.Full.intsqr isa (elt m a))) := by
  unfold intsqr Verif.Fp448.Full.intsqr call
  cases isa.bmi2 <;> cases isa.adx
  · exact intsqr_mulq_run _ (apart1 ha)
  · exact intsqr_mulq_run _ (apart1 ha)
  · exact intsqr_mulx_run _ (apart1 ha)
  · exact intsqr_mulxadx_run _ (apart1 ha)

theorem reduce_mem (isa : Isa) (z : Cpu) {c a : Loc} (m : Mem) (ha : a = c ∨ Apart a 14 c 7) :
    reduce isa z c a m = m.put c (l7 (Verif.Fp448.Full.reduce isa (dbl m a))) := by
  unfold reduce Verif.Fp448.Full.reduce call
  cases isa.adx
  · exact reduce_leg_run _ (placed1 ha)
  · exact reduce_adx_run _ (placed1 ha)

theorem add_mem (isa : Isa) (z : Cpu) {c a b : Loc} (m : Mem)
    (ha : EqOrApart a c 7) (hb : EqOrApart b c 7) :
    add isa z c a b m = m.put c (l7 (Verif.Fp448.Full.add isa (elt m a) (elt m b))) := by
  unfold add Verif.Fp448.Full.add call
  cases isa.adx
  · exact add_adc_run _ (placed2 ha hb)
  · exact add_adx_run _ (placed2 ha hb)

theorem sub_mem (z : Cpu) {c a b : Loc} (m : Mem)
    (ha : EqOrApart a c 7) (hb : EqOrApart b c 7) :
    subM z c a b m = m.put c (l7 (Verif.Fp448.Full.sub (elt m a) (elt m b))) :=
  sub_run _ (placed2 ha hb)

theorem mula24_mem (isa : Isa) (z : Cpu) {c a : Loc} (m : Mem) (ha : EqOrApart a c 7) :
    mula24 isa z c a m = m.put c (l7 (Verif.Fp448.Full.mula24 isa (elt m a))) := by
  unfold mula24 Verif.Fp448.Full.mula24 callArg call
  cases isa.bmi2
  · exact mula24_mulq_run _ (placed1 ha) rfl
  · exact mula24_mulx_run _ (placed1 ha) rfl

theorem cmv_mem (z : Cpu) (bit : BitVec 32) {c a b : Loc} (m : Mem)
    (ha : EqOrApart a c 7) (hb : EqOrApart b c 7) :
    cmvM z bit c a b m = m.put c (l7 (Verif.Fp448.Full.cmv bit (elt m a) (elt m b))) := by
  unfold cmvM callArg call
  refine run_w7 (placed2 ha hb) (by decide +kernel) rfl _ _ ?_
  unfold Verif.Fp448.Full.cmv
  rw [← Fp25519.test_bit]
  rfl

theorem elt_put_apart (m : Mem) {p q : Loc} {l : List W} (h : Apart p 7 q l.length) :
    elt (m.put q l) p = elt m p := by
  simp [elt, w7, m.get_put_apart h]

theorem elt_put_self (m : Mem) (p : Loc) (v : Verif.Fp448.F7) : elt (m.put p (l7 v)) p = v := by
  simp [elt, w7, Mem.get_put_self, l7]

theorem dbl_put_self (m : Mem) (p : Loc) (v : Verif.Fp448.F14) : dbl (m.put p (l14 v)) p = v := by
  simp [dbl, w14, Mem.get_put_self, l14]

theorem mul_mem (isa : Isa) (z z' : Cpu) {buf c a b : Loc} (m : Mem)
    (ha : Apart a 7 buf 14) (hb : Apart b 7 buf 14) (hc : Apart buf 14 c 7) :
    mul isa z z' buf c a b m =
      (m.put buf (l14 (Verif.Fp448.Full.intmul isa (elt m a) (elt m b)))).put c
        (l7 (Verif.Fp448.Full.mul isa (elt m a) (elt m b))) := by
  rw [mul, intmul_mem isa z m ha hb, reduce_mem isa z' _ (Or.inr hc), dbl_put_self,
    Verif.Fp448.Full.mul]

theorem sqr_mem (isa : Isa) (z z' : Cpu) {buf a : Loc} (m : Mem)
    (ha : Apart a 7 buf 14) (hc : Apart buf 14 a 7) :
    sqr isa z z' buf a m =
      (m.put buf (l14 (Verif.Fp448.Full.intsqr isa (elt m a)))).put a
        (l7 (Verif.Fp448.Full.sqr isa (elt m a))) := by
  rw [sqr, intsqr_mem isa z m ha, reduce_mem isa z' _ (Or.inr hc), dbl_put_self,
    Verif.Fp448.Full.sqr]

theorem neg_mem (z : Cpu) {zero c : Loc} (m : Mem) (h : Apart zero 7 c 7) (h' : Apart c 7 zero 7) :
    neg z zero c m =
      (m.put zero [0, 0, 0, 0, 0, 0, 0]).put c (l7 (Verif.Fp448.Full.neg (elt m c))) := by
  rw [neg, sub_mem z _ (Or.inr h) (Or.inl rfl), Verif.Fp448.Full.neg,
    elt_put_apart m (l := [0, 0, 0, 0, 0, 0, 0]) h',
    show elt (m.put zero [0, 0, 0, 0, 0, 0, 0]) zero = Verif.Fp448.Full.zero from
      elt_put_self m zero Verif.Fp448.Full.zero]

end Fp448

end Verif.X86
