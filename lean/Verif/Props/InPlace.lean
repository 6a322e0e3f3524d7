import Verif.X86.SpecLemmas
import Verif.Fp25519.FullLemmas
import Verif.Fp448.FullLemmas

/-!
# Properties C63-C65: the full-radix operations on memory

The functions of Verif/X86/Api.lean take pointers and run the assembly of the
library, as data, on a memory.  Specification (Verif/X86/Spec.lean): `num m p n`
is the number in the `n` words at `p`; `Only m m' bufs` says that nothing outside
the buffers changed; `Declares` says that a block changes only what it tells the
compiler.  `Cpu` is what registers and flags hold before; it is arbitrary.
-/

namespace Verif.X86

open Verif.Fp25519 (Isa)

/-! ## In place -/

namespace Fp25519

open Verif.Fp25519 (Fp)

theorem numFp (m : Mem) (p : Loc) : ((num m p 4 : ℕ) : Fp) = (elt m p).toFp := by
  rw [Verif.Fp25519.F4.toFp, ← num_elt, Int.cast_natCast]

theorem numFp8 (m : Mem) (p : Loc) : ((num m p 8 : ℕ) : Fp) = (dbl m p).toFp := by
  rw [Verif.Fp25519.F8.toFp, ← num_dbl, Int.cast_natCast]

/-- C63, 2^255 - 19.  Addition, subtraction, multiplication by 121666, negation, selection and
copying give the right residue when every input is the output buffer itself or has no word in
common with it, and change nothing but the output (and, for negation, its local zero). -/
theorem C63_linear (isa : Isa) (z : Cpu) (m : Mem) (zero c a b : Loc) (bit : BitVec 32)
    (ha : EqOrApart a c 4) (hb : EqOrApart b c 4) (hz : Apart zero 4 c 4) :
    (((num (add isa z c a b m) c 4 : ℕ) : Fp) = num m a 4 + num m b 4 ∧
      Only m (add isa z c a b m) [(c, 4)]) ∧
    (((num (subM z c a b m) c 4 : ℕ) : Fp) = num m a 4 - num m b 4 ∧
      Only m (subM z c a b m) [(c, 4)]) ∧
    (((num (mula24 isa z c a m) c 4 : ℕ) : Fp) = 121666 * num m a 4 ∧
      Only m (mula24 isa z c a m) [(c, 4)]) ∧
    (((num (neg z zero c m) c 4 : ℕ) : Fp) = - num m c 4 ∧
      Only m (neg z zero c m) [(zero, 4), (c, 4)]) ∧
    (num (cmvM z bit c a b m) c 4 = (if bit = 0 then num m a 4 else num m b 4) ∧
      Only m (cmvM z bit c a b m) [(c, 4)]) ∧
    (num (copy c a m) c 4 = num m a 4 ∧ Only m (copy c a m) [(c, 4)]) := by
  have hz' : Apart c 4 zero 4 := by
    rcases hz with h | h | h
    · exact Or.inl (Ne.symm h)
    · exact Or.inr (Or.inr h)
    · exact Or.inr (Or.inl h)
  rw [add_mem isa z m ha hb, sub_mem z m ha hb, mula24_mem isa z m ha, neg_mem z m hz hz',
    cmv_mem z bit m ha hb, copy_mem m ha]
  simp only [numFp, elt_put_self, Verif.Fp25519.Full.add_toFp, Verif.Fp25519.Full.sub_toFp,
    Verif.Fp25519.Full.mula24_toFp, Verif.Fp25519.Full.neg_toFp]
  refine ⟨⟨trivial, only_put _ _ _ rfl⟩, ⟨trivial, only_put _ _ _ rfl⟩, ⟨trivial, only_put _ _ _ rfl⟩,
    ⟨trivial, only_put_put _ _ _ _ _ rfl rfl⟩, ⟨?_, only_put _ _ _ rfl⟩, ⟨?_, only_put _ _ _ rfl⟩⟩
  · zify
    rw [num_elt, elt_put_self]
    unfold Verif.Fp25519.Full.cmv
    by_cases h : bit = 0
    · subst h; rw [if_pos rfl, num_elt]; rfl
    · have : (bit != 0#32) = true := by simpa using h
      rw [if_neg h, num_elt, this]; rfl
  · zify; rw [num_elt, num_elt, elt_put_self]

/-- C63, 2^255 - 19.  Reduction may write to the low half of its own input. -/
theorem C63_reduce (isa : Isa) (z : Cpu) (m : Mem) (c a : Loc) (h : a = c ∨ Apart a 8 c 4) :
    ((num (reduce isa z c a m) c 4 : ℕ) : Fp) = num m a 8 ∧
      Only m (reduce isa z c a m) [(c, 4)] := by
  rw [reduce_mem isa z m h, numFp, numFp8, elt_put_self]
  exact ⟨Verif.Fp25519.Full.reduce_toFp isa _, only_put _ _ _ rfl⟩

/-- C63, 2^255 - 19.  Multiplication and squaring are right however their arguments overlap;
only the local double-size buffer has to be a place of its own. -/
theorem C63_mul_sqr (isa : Isa) (z z' : Cpu) (m : Mem) (buf c a b : Loc)
    (ha : Apart a 4 buf 8) (hb : Apart b 4 buf 8) (hc : Apart c 4 buf 8) :
    (((num (mul isa z z' buf c a b m) c 4 : ℕ) : Fp) = num m a 4 * num m b 4 ∧
      Only m (mul isa z z' buf c a b m) [(buf, 8), (c, 4)]) ∧
    (((num (sqr isa z z' buf c m) c 4 : ℕ) : Fp) = (num m c 4 : Fp) ^ 2 ∧
      Only m (sqr isa z z' buf c m) [(buf, 8), (c, 4)]) := by
  have hc' : Apart buf 8 c 4 := by
    rcases hc with h | h | h
    · exact Or.inl (Ne.symm h)
    · exact Or.inr (Or.inr h)
    · exact Or.inr (Or.inl h)
  rw [mul_mem isa z z' m ha hb hc', sqr_mem isa z z' m hc hc']
  simp only [numFp, elt_put_self, Verif.Fp25519.Full.mul_toFp, Verif.Fp25519.Full.sqr_toFp]
  exact ⟨⟨trivial, only_put_put _ _ _ _ _ rfl rfl⟩, trivial, only_put_put _ _ _ _ _ rfl rfl⟩

/-- C63, 2^255 - 19.  The double-size product and square are exact when the output has no word
in common with the inputs. -/
theorem C63_intmul (isa : Isa) (z : Cpu) (m : Mem) (c a b : Loc)
    (ha : Apart a 4 c 8) (hb : Apart b 4 c 8) :
    (num (intmul isa z c a b m) c 8 = num m a 4 * num m b 4 ∧
      Only m (intmul isa z c a b m) [(c, 8)]) ∧
    (num (intsqr isa z c a m) c 8 = num m a 4 ^ 2 ∧ Only m (intsqr isa z c a m) [(c, 8)]) := by
  rw [intmul_mem isa z m ha hb, intsqr_mem isa z m ha]
  refine ⟨⟨?_, only_put _ _ _ rfl⟩, ?_, only_put _ _ _ rfl⟩
  · zify; rw [num_dbl, dbl_put_self, num_elt, num_elt, Verif.Fp25519.Full.intmul_val]
  · zify; rw [num_dbl, dbl_put_self, num_elt, Verif.Fp25519.Full.intsqr_val]

/-- A memory with small numbers in two buffers. -/
def demo : Mem := fun o i =>
  if o = 1 ∧ i < 7 then BitVec.ofNat 64 (i * i + 3) else if o = 2 ∧ i < 7 then 7#64 else 0#64

/-- Registers and flags all zero. -/
def rest : Cpu := ⟨fun _ => 0#64, false, false, false, false, 0#64⟩

/-- C63: the double-size product in place of its second factor is wrong in every build; in place
of its first factor it is wrong in the builds with ADX and in the builds without BMI2. -/
theorem C63_intmul_wrong (isa : Isa) :
    (∃ (z : Cpu) (m : Mem) (a c : Loc), Apart a 4 c 8 ∧
      num (intmul isa z c a c m) c 8 ≠ num m a 4 * num m c 4) ∧
    ((isa.bmi2 = false ∨ isa.adx = true) → ∃ (z : Cpu) (m : Mem) (b c : Loc), Apart b 4 c 8 ∧
      num (intmul isa z c c b m) c 8 ≠ num m c 4 * num m b 4) := by
  obtain ⟨b, x⟩ := isa
  refine ⟨⟨rest, demo, ⟨2, 0⟩, ⟨1, 0⟩, Or.inl (by decide), ?_⟩,
    fun h => ⟨rest, demo, ⟨2, 0⟩, ⟨1, 0⟩, Or.inl (by decide), ?_⟩⟩
  · cases b <;> cases x <;> decide +kernel
  · cases b <;> cases x <;> first | decide +kernel | simp at h

/-- The number 7 + 7·2^64 + … added to itself in place. -/
example : num (add ⟨true, true⟩ rest ⟨2, 0⟩ ⟨2, 0⟩ ⟨2, 0⟩ demo) ⟨2, 0⟩ 4 =
    14 * (1 + 2 ^ 64 + 2 ^ 128 + 2 ^ 192) := by decide +kernel

/-- Two overlapping arguments of a multiplication, the output overlapping both. -/
example : Apart ⟨1, 0⟩ 4 ⟨9, 0⟩ 8 ∧ Apart ⟨1, 2⟩ 4 ⟨9, 0⟩ 8 ∧ Apart ⟨1, 1⟩ 4 ⟨9, 0⟩ 8 :=
  ⟨Or.inl (by decide), Or.inl (by decide), Or.inl (by decide)⟩

end Fp25519

namespace Fp448

open Verif.Fp448 (Fp)

theorem numFp (m : Mem) (p : Loc) : ((num m p 7 : ℕ) : Fp) = (elt m p).toFp := by
  rw [Verif.Fp448.F7.toFp, ← num_elt7, Int.cast_natCast]

theorem numFp14 (m : Mem) (p : Loc) : ((num m p 14 : ℕ) : Fp) = (dbl m p).toFp := by
  rw [Verif.Fp448.F14.toFp, ← num_dbl14, Int.cast_natCast]

/-- C63, 2^448 - 2^224 - 1.  Addition, subtraction, multiplication by 39082, negation and
selection give the right residue when every input is the output buffer itself or has no word in
common with it, and change nothing but the output (and, for negation, its local zero). -/
theorem C63_linear (isa : Isa) (z : Cpu) (m : Mem) (zero c a b : Loc) (bit : BitVec 32)
    (ha : EqOrApart a c 7) (hb : EqOrApart b c 7) (hz : Apart zero 7 c 7) :
    (((num (add isa z c a b m) c 7 : ℕ) : Fp) = num m a 7 + num m b 7 ∧
      Only m (add isa z c a b m) [(c, 7)]) ∧
    (((num (subM z c a b m) c 7 : ℕ) : Fp) = num m a 7 - num m b 7 ∧
      Only m (subM z c a b m) [(c, 7)]) ∧
    (((num (mula24 isa z c a m) c 7 : ℕ) : Fp) = 39082 * num m a 7 ∧
      Only m (mula24 isa z c a m) [(c, 7)]) ∧
    (((num (neg z zero c m) c 7 : ℕ) : Fp) = - num m c 7 ∧
      Only m (neg z zero c m) [(zero, 7), (c, 7)]) ∧
    (num (cmvM z bit c a b m) c 7 = (if bit = 0 then num m a 7 else num m b 7) ∧
      Only m (cmvM z bit c a b m) [(c, 7)]) := by
  have hz' : Apart c 7 zero 7 := by
    rcases hz with h | h | h
    · exact Or.inl (Ne.symm h)
    · exact Or.inr (Or.inr h)
    · exact Or.inr (Or.inl h)
  rw [add_mem isa z m ha hb, sub_mem z m ha hb, mula24_mem isa z m ha, neg_mem z m hz hz',
    cmv_mem z bit m ha hb]
  simp only [numFp, elt_put_self, Verif.Fp448.Full.add_toFp, Verif.Fp448.Full.sub_toFp,
    Verif.Fp448.Full.mula24_toFp, Verif.Fp448.Full.neg_toFp]
  refine ⟨⟨trivial, only_put _ _ _ rfl⟩, ⟨trivial, only_put _ _ _ rfl⟩, ⟨trivial, only_put _ _ _ rfl⟩,
    ⟨trivial, only_put_put _ _ _ _ _ rfl rfl⟩, ?_, only_put _ _ _ rfl⟩
  zify
  rw [num_elt7, elt_put_self]
  unfold Verif.Fp448.Full.cmv
  by_cases h : bit = 0
  · subst h; rw [if_pos rfl, num_elt7]; rfl
  · have : (bit != 0#32) = true := by simpa using h
    rw [if_neg h, num_elt7, this]; rfl

/-- C63, 2^448 - 2^224 - 1.  Reduction may write to the low half of its own input. -/
theorem C63_reduce (isa : Isa) (z : Cpu) (m : Mem) (c a : Loc) (h : a = c ∨ Apart a 14 c 7) :
    ((num (reduce isa z c a m) c 7 : ℕ) : Fp) = num m a 14 ∧
      Only m (reduce isa z c a m) [(c, 7)] := by
  rw [reduce_mem isa z m h, numFp, numFp14, elt_put_self]
  exact ⟨Verif.Fp448.Full.reduce_toFp isa _, only_put _ _ _ rfl⟩

/-- C63, 2^448 - 2^224 - 1.  Multiplication and squaring are right however their arguments
overlap; only the local double-size buffer has to be a place of its own. -/
theorem C63_mul_sqr (isa : Isa) (z z' : Cpu) (m : Mem) (buf c a b : Loc)
    (ha : Apart a 7 buf 14) (hb : Apart b 7 buf 14) (hc : Apart c 7 buf 14) :
    (((num (mul isa z z' buf c a b m) c 7 : ℕ) : Fp) = num m a 7 * num m b 7 ∧
      Only m (mul isa z z' buf c a b m) [(buf, 14), (c, 7)]) ∧
    (((num (sqr isa z z' buf c m) c 7 : ℕ) : Fp) = (num m c 7 : Fp) ^ 2 ∧
      Only m (sqr isa z z' buf c m) [(buf, 14), (c, 7)]) := by
  have hc' : Apart buf 14 c 7 := by
    rcases hc with h | h | h
    · exact Or.inl (Ne.symm h)
    · exact Or.inr (Or.inr h)
    · exact Or.inr (Or.inl h)
  rw [mul_mem isa z z' m ha hb hc', sqr_mem isa z z' m hc hc']
  simp only [numFp, elt_put_self, Verif.Fp448.Full.mul_toFp, Verif.Fp448.Full.sqr_toFp]
  exact ⟨⟨trivial, only_put_put _ _ _ _ _ rfl rfl⟩, trivial, only_put_put _ _ _ _ _ rfl rfl⟩

/-- C63, 2^448 - 2^224 - 1.  The double-size product is exact when the output has no word in
common with the inputs. -/
theorem C63_intmul (isa : Isa) (z : Cpu) (m : Mem) (c a b : Loc)
    (ha : Apart a 7 c 14) (hb : Apart b 7 c 14) :
    (num (intmul isa z c a b m) c 14 = num m a 7 * num m b 7 ∧
      Only m (intmul isa z c a b m) [(c, 14)]) ∧
    (num (intsqr isa z c a m) c 14 = num m a 7 ^ 2 ∧ Only m (intsqr isa z c a m) [(c, 14)]) := by
  rw [intmul_mem isa z m ha hb, intsqr_mem isa z m ha]
  refine ⟨⟨?_, only_put _ _ _ rfl⟩, ?_, only_put _ _ _ rfl⟩
  · zify; rw [num_dbl14, dbl_put_self, num_elt7, num_elt7, Verif.Fp448.Full.intmul_val]
  · zify; rw [num_dbl14, dbl_put_self, num_elt7, Verif.Fp448.Full.intsqr_val]

/-- C63: the double-size product in place of its second factor is wrong in every build. -/
theorem C63_intmul_wrong (isa : Isa) : ∃ (z : Cpu) (m : Mem) (a c : Loc), Apart a 7 c 14 ∧
    num (intmul isa z c a c m) c 14 ≠ num m a 7 * num m c 7 := by
  obtain ⟨b, x⟩ := isa
  refine ⟨Fp25519.rest, Fp25519.demo, ⟨2, 0⟩, ⟨1, 0⟩, Or.inl (by decide), ?_⟩
  cases b <;> cases x <;> decide +kernel

/-- Subtraction of an element from itself in place, and the places of a multiplication. -/
example : num (subM Fp25519.rest ⟨2, 0⟩ ⟨2, 0⟩ ⟨2, 0⟩ Fp25519.demo) ⟨2, 0⟩ 7 = 0 ∧
    num Fp25519.demo ⟨2, 0⟩ 7 ≠ 0 := by decide +kernel

example : Apart ⟨1, 0⟩ 7 ⟨9, 0⟩ 14 ∧ Apart ⟨1, 2⟩ 7 ⟨9, 0⟩ 14 ∧ EqOrApart ⟨2, 0⟩ ⟨2, 0⟩ 7 :=
  ⟨Or.inl (by decide), Or.inl (by decide), Or.inl rfl⟩

end Fp448

/-! ## Declared effects -/

/-- The blocks for 2^255 - 19 and the selection of the ladder. -/
def blocks25519 : List Block :=
  [Fp25519.intmul_mulxadx, Fp25519.intsqr_mulxadx, Fp25519.intmul2_mulxadx,
    Fp25519.intsqr2_mulxadx, Fp25519.reduce_mulxadx, Fp25519.reduce2_mulxadx, Fp25519.intmul_mulx,
    Fp25519.intsqr_mulx, Fp25519.intmul2_mulx, Fp25519.intsqr2_mulx, Fp25519.reduce_mulx,
    Fp25519.reduce2_mulx, Fp25519.intmul_mulq, Fp25519.intsqr_mulq, Fp25519.intmul2_mulq,
    Fp25519.intsqr2_mulq, Fp25519.reduce_mulq, Fp25519.reduce2_mulq, Fp25519.mula24_mulx,
    Fp25519.mula24_mulq, Fp25519.add_adx, Fp25519.add_adc, Fp25519.sub, Fp25519.cmv,
    Fp25519.select_cmov_x64]

/-- The blocks for 2^448 - 2^224 - 1, without the multiplication by 39082. -/
def blocks448 : List Block :=
  [Fp448.intmul_mulxadx, Fp448.intsqr_mulxadx, Fp448.intmul_mulx, Fp448.intsqr_mulx,
    Fp448.intmul_mulq, Fp448.intsqr_mulq, Fp448.reduce_adx, Fp448.reduce_leg, Fp448.add_adx,
    Fp448.add_adc, Fp448.sub, Fp448.cmv]

/-- C64, partial: every block but the two of the multiplication by 39082 declares what it
changes.  Missing: those two, which do not (`C64_mula24_wrong`). -/
theorem C64_declares_partial : (∀ B ∈ blocks25519, Declares B) ∧ ∀ B ∈ blocks448, Declares B := by
  have h1 : ∀ B ∈ blocks25519, B.honest = true := by decide +kernel
  have h2 : ∀ B ∈ blocks448, B.honest = true := by decide +kernel
  exact ⟨fun B hB => Block.honest.declares (h1 B hB), fun B hB => Block.honest.declares (h2 B hB)⟩

/-- C64 fails: the multiplication by 39082 modulo 2^448 - 2^224 - 1 does not declare that it
changes memory, and does, in both builds. -/
theorem C64_mula24_wrong : ¬Declares Fp448.mula24_mulx ∧ ¬Declares Fp448.mula24_mulq := by
  have key : ∀ B : Block, B.memory = false →
      (exec (flat (ptrs ⟨3, 0⟩ ⟨1, 0⟩ ⟨3, 0⟩)) B.code
        ⟨fun _ => 0#64, false, false, false, 39082#64, false, Fp25519.demo⟩ id).mem 3 0 ≠ 0#64 →
      ¬Declares B := by
    intro B hB h hd
    refine h ?_
    rw [(hd (ptrs ⟨3, 0⟩ ⟨1, 0⟩ ⟨3, 0⟩)
      ⟨fun _ => 0#64, false, false, false, 39082#64, false, Fp25519.demo⟩).2.2 hB]
    rfl
  exact ⟨key _ rfl (by decide +kernel), key _ rfl (by decide +kernel)⟩

/-- The two blocks declare the registers and flags they change. -/
theorem C64_mula24_registers_partial : ∀ B ∈ [Fp448.mula24_mulx, Fp448.mula24_mulq],
    B.cc = true ∧ ∀ (ptr : Ptr → Loc) (st : State Mem),
      ∀ r, r ∉ B.clobbers → (exec (flat ptr) B.code st id).regs r = st.regs r := by
  have h : ∀ B ∈ [Fp448.mula24_mulx, Fp448.mula24_mulq],
      B.cc = true ∧ ({ B with memory := true } : Block).honest = true := by decide +kernel
  intro B hB
  exact ⟨(h B hB).1, fun ptr st => (Block.honest.declares (h B hB).2 ptr st).1⟩

/-- A block that keeps the register rbx though it changes five others. -/
example : Reg.rbx ∉ Fp25519.add_adx.clobbers ∧ Reg.rax ∈ Fp25519.add_adx.clobbers := by
  decide +kernel

/-! ## Bounds -/

/-- C65: the blocks read only the words of their arguments and write only words of their result. -/
theorem C65_bounds :
    (∀ B ∈ [Fp25519.intmul_mulxadx, Fp25519.intmul_mulx, Fp25519.intmul_mulq], InBounds B 8 4 4) ∧
    (∀ B ∈ [Fp25519.intsqr_mulxadx, Fp25519.intsqr_mulx, Fp25519.intsqr_mulq], InBounds B 8 4 0) ∧
    (∀ B ∈ [Fp25519.intmul2_mulxadx, Fp25519.intmul2_mulx, Fp25519.intmul2_mulq], InBounds B 16 8 8) ∧
    (∀ B ∈ [Fp25519.intsqr2_mulxadx, Fp25519.intsqr2_mulx, Fp25519.intsqr2_mulq], InBounds B 16 8 0) ∧
    (∀ B ∈ [Fp25519.reduce_mulxadx, Fp25519.reduce_mulx, Fp25519.reduce_mulq], InBounds B 4 8 0) ∧
    (∀ B ∈ [Fp25519.reduce2_mulxadx, Fp25519.reduce2_mulx, Fp25519.reduce2_mulq], InBounds B 8 16 0) ∧
    (∀ B ∈ [Fp25519.mula24_mulx, Fp25519.mula24_mulq, Fp25519.select_cmov_x64], InBounds B 4 4 0) ∧
    (∀ B ∈ [Fp25519.add_adx, Fp25519.add_adc, Fp25519.sub, Fp25519.cmv], InBounds B 4 4 4) ∧
    (∀ B ∈ [Fp448.intmul_mulxadx, Fp448.intmul_mulx, Fp448.intmul_mulq], InBounds B 14 7 7) ∧
    (∀ B ∈ [Fp448.intsqr_mulxadx, Fp448.intsqr_mulx, Fp448.intsqr_mulq], InBounds B 14 7 0) ∧
    (∀ B ∈ [Fp448.reduce_adx, Fp448.reduce_leg], InBounds B 7 14 0) ∧
    (∀ B ∈ [Fp448.mula24_mulx, Fp448.mula24_mulq], InBounds B 7 7 0) ∧
    (∀ B ∈ [Fp448.add_adx, Fp448.add_adc, Fp448.sub, Fp448.cmv], InBounds B 7 7 7) := by
  have key : ∀ (l : List Block) (n k i : ℕ), (l.all fun B => B.inside n k i) = true →
      ∀ B ∈ l, InBounds B n k i := by
    intro l n k i h B hB
    exact Block.inside.ok (List.all_eq_true.1 h B hB)
  refine ⟨?_, ?_, ?_, ?_, ?_, ?_, ?_, ?_, ?_, ?_, ?_, ?_, ?_⟩ <;>
    exact key _ _ _ _ (by decide +kernel)

/-- The bounds are the least: a product reads the fourth word of each factor and writes the eighth of
the result. -/
example : ¬InBounds Fp25519.intmul_mulx 8 3 4 ∧ ¬InBounds Fp25519.intmul_mulx 8 4 3 ∧
    ¬InBounds Fp25519.intmul_mulx 7 4 4 := by
  refine ⟨fun h => ?_, fun h => ?_, fun h => ?_⟩
  · have := h ⟨1, 0⟩ ⟨2, 0⟩ ⟨3, 0⟩ ⟨false, 2, 3⟩ (by decide +kernel)
    simp [Access.Inside, Within] at this
  · have := h ⟨1, 0⟩ ⟨2, 0⟩ ⟨3, 0⟩ ⟨false, 3, 3⟩ (by decide +kernel)
    simp [Access.Inside, Within] at this
  · have := h ⟨1, 0⟩ ⟨2, 0⟩ ⟨3, 0⟩ ⟨true, 1, 7⟩ (by decide +kernel)
    simp [Access.Inside, Within] at this

end Verif.X86
