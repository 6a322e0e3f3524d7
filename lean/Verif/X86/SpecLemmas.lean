import Verif.X86.Spec
import Verif.X86.ApiLemmas
import Verif.Fp25519.Spec
import Verif.Fp448.Spec

/-!
# Lemmas on buffers, declared effects and memory traces
-/

namespace Verif.X86

theorem only_put (m : Mem) (p : Loc) (l : List W) {n : ℕ} (h : l.length = n) :
    Only m (m.put p l) [(p, n)] := by
  intro o x hx
  have := hx (p, n) (by simp)
  unfold Within at this
  unfold Mem.put
  rw [h, if_neg this]

theorem only_put_put (m : Mem) (p q : Loc) (l k : List W) {n i : ℕ} (h : l.length = n)
    (h' : k.length = i) : Only m ((m.put p l).put q k) [(p, n), (q, i)] := by
  intro o x hx
  have h1 := hx (p, n) (by simp)
  have h2 := hx (q, i) (by simp)
  unfold Within at h1 h2
  unfold Mem.put
  rw [h, h', if_neg h2, if_neg h1]

set_option exponentiation.threshold 2000 in
theorem num_elt (m : Mem) (p : Loc) : (num m p 4 : ℤ) = (Fp25519.elt m p).val := by
  simp only [num, Fp25519.elt, Fp25519.w4, Verif.Fp25519.F4.val, iv]
  push_cast
  ring

set_option exponentiation.threshold 2000 in
theorem num_dbl (m : Mem) (p : Loc) : (num m p 8 : ℤ) = (Fp25519.dbl m p).val := by
  simp only [num, Fp25519.dbl, Fp25519.w8, Verif.Fp25519.F8.val, iv]
  push_cast
  ring

set_option exponentiation.threshold 2000 in
theorem num_elt7 (m : Mem) (p : Loc) : (num m p 7 : ℤ) = (Fp448.elt m p).val := by
  simp only [num, Fp448.elt, Fp448.w7, Verif.Fp448.F7.val, iv]
  push_cast
  ring

set_option exponentiation.threshold 2000 in
theorem num_dbl14 (m : Mem) (p : Loc) : (num m p 14 : ℤ) = (Fp448.dbl m p).val := by
  simp only [num, Fp448.dbl, Fp448.w14, Verif.Fp448.F14.val, iv]
  push_cast
  ring

/-- The registers an instruction writes. -/
def Instr.defs : Instr → List Reg
  | .movq _ (.reg r) => [r]
  | .movq _ _ => []
  | .xorl r => [r]
  | .addq _ d | .adcq _ d | .adcx _ d | .adox _ d | .subq _ d | .sbbq _ d => [d]
  | .mulxq _ lo hi => [lo, hi]
  | .mulq _ => [.rax, .rdx]
  | .imulq _ d | .cmovcq _ d | .shldq _ _ d | .shlq _ d | .shrdq _ _ d | .andq _ d | .orq _ d
  | .setcr d | .cmovnz _ d => [d]
  | .clcf | .btl0 _ | .test _ => []

theorem step_regs {M : Type} (I : Memory M) (i : Instr) (st : State M) {r : Reg}
    (h : r ∉ i.defs) : (step I i st).regs r = st.regs r := by
  cases i
  case movq s d =>
    cases d with
    | reg r' =>
      simp only [Instr.defs, List.mem_singleton] at h
      exact if_neg h
    | _ => rfl
  all_goals
    simp only [Instr.defs, List.mem_cons, List.not_mem_nil, or_false, not_or] at h
    simp only [step, exec, Verif.xor0, Verif.add, Verif.adc, Verif.sub, Verif.sbb,
      Verif.mulx, Verif.imul, Verif.cmov, Verif.shld, Verif.shl, Verif.shrd, Verif.and, Verif.or,
      Verif.clc, Verif.setc, Verif.bt0, id, State.setReg, State.setCf, State.setOvf]
  all_goals first
    | rfl
    | exact if_neg h
    | (rw [if_neg h.2, if_neg h.1])

theorem exec_regs {M : Type} (I : Memory M) (is : List Instr) (st : State M) {r : Reg}
    (h : r ∉ is.flatMap Instr.defs) : (exec I is st id).regs r = st.regs r := by
  induction is generalizing st with
  | nil => rfl
  | cons i is ih =>
    simp only [List.flatMap_cons, List.mem_append, not_or] at h
    rw [exec_cons, ih _ h.2, step_regs I i st h.1]

/-- A block that lists `memory`, `cc` and every register it writes. -/
def Block.honest (B : Block) : Bool :=
  B.memory && B.cc && B.code.all fun i => i.defs.all fun r => B.clobbers.contains r

theorem Block.honest.declares {B : Block} (h : B.honest = true) : Declares B := by
  simp only [Block.honest, Bool.and_eq_true, List.all_eq_true, List.contains_iff_mem] at h
  intro ptr st
  refine ⟨fun r hr => exec_regs _ _ _ fun hm => ?_, fun hc => ?_, fun hm => ?_⟩
  · obtain ⟨i, hi, hr'⟩ := List.mem_flatMap.1 hm
    exact hr (h.2 i hi r hr')
  · rw [h.1.2] at hc; cases hc
  · rw [h.1.1] at hm; cases hm

/-- The accesses of every instruction are within the bounds. -/
def Opd.inside (n k l : ℕ) (write : Bool) : Opd → Bool
  | .mem .p0 i => decide (i < n)
  | .mem .p1 i => !write && decide (i < k)
  | .mem .p2 i => !write && decide (i < l)
  | _ => true

theorem Opd.inside.ok {n k l : ℕ} {write : Bool} {o : Opd} (h : o.inside n k l write = true)
    (c a b : Loc) {x : Access} (hx : x ∈ o.access (ptrs c a b) write) :
    x.Inside c n ∨ (x.write = false ∧ (x.Inside a k ∨ x.Inside b l)) := by
  cases o with
  | mem p i =>
    simp only [Opd.access, List.mem_singleton] at hx
    subst hx
    cases p <;> simp [Opd.inside] at h <;>
      simp only [Access.Inside, Within, ptrs, true_and]
    · left; exact ⟨by omega, by omega⟩
    · right; exact ⟨h.1, Or.inl ⟨by omega, by omega⟩⟩
    · right; exact ⟨h.1, Or.inr ⟨by omega, by omega⟩⟩
  | _ => simp [Opd.access] at hx

/-- The operands in memory of an instruction, with their use. -/
def Instr.uses : Instr → List (Bool × Opd)
  | .movq s d => [(false, s), (true, d)]
  | .addq s _ | .adcq s _ | .adcx s _ | .adox s _ | .subq s _ | .sbbq s _
  | .mulxq s _ _ | .mulq s | .imulq s _ | .cmovcq s _ | .andq s _ | .orq s _
  | .test s | .cmovnz s _ => [(false, s)]
  | .xorl _ | .shldq .. | .shlq .. | .shrdq .. | .clcf | .setcr _ | .btl0 _ => []

theorem Instr.accesses_eq (ptr : Ptr → Loc) (i : Instr) :
    i.accesses ptr = i.uses.flatMap fun u => u.2.access ptr u.1 := by
  cases i <;> simp [Instr.accesses, Instr.uses]

/-- The check of the bounds. -/
def Block.inside (B : Block) (n k l : ℕ) : Bool :=
  B.code.all fun i => i.uses.all fun u => u.2.inside n k l u.1

theorem Block.inside.ok {B : Block} {n k l : ℕ} (h : B.inside n k l = true) : InBounds B n k l := by
  simp only [Block.inside, List.all_eq_true] at h
  intro c a b x hx
  obtain ⟨i, hi, hx⟩ := List.mem_flatMap.1 hx
  rw [Instr.accesses_eq] at hx
  obtain ⟨u, hu, hx⟩ := List.mem_flatMap.1 hx
  exact Opd.inside.ok (h i hi u hu) c a b hx

end Verif.X86
