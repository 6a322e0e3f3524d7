import Verif.Cpu.Caps
import Mathlib.Tactic.Common
import Mathlib.Tactic.IntervalCases

/-!
# What the capability report says of the processor
-/

namespace Verif.Cpu

/-- Where a processor announces an instruction set (Intel SDM vol. 2, `CPUID`): leaf, register and
bit. -/
def Has (cpuid : Cpuid) : Cap → Prop
  | .CMOV => (cpuid 1 0).edx.getLsbD 15
  | .SSE => (cpuid 1 0).edx.getLsbD 25
  | .SSE2 => (cpuid 1 0).edx.getLsbD 26
  | .SSE3 => (cpuid 1 0).ecx.getLsbD 0
  | .SSSE3 => (cpuid 1 0).ecx.getLsbD 9
  | .SSE4_1 => (cpuid 1 0).ecx.getLsbD 19
  | .SSE4_2 => (cpuid 1 0).ecx.getLsbD 20
  | .AVX => (cpuid 1 0).ecx.getLsbD 28
  | .AVX2 => (cpuid 7 0).ebx.getLsbD 5
  | .BMI => (cpuid 7 0).ebx.getLsbD 3
  | .BMI2 => (cpuid 7 0).ebx.getLsbD 8
  | .ADX => (cpuid 7 0).ebx.getLsbD 19

instance (cpuid : Cpuid) (c : Cap) : Decidable (Has cpuid c) := by
  cases c <;> unfold Has <;> infer_instance

/-- The number of the bit of a capability. -/
def Cap.bit : Cap → ℕ
  | .CMOV => 15 | .SSE => 25 | .SSE2 => 26 | .SSE3 => 0 | .SSSE3 => 9 | .SSE4_1 => 19
  | .SSE4_2 => 20 | .AVX => 28 | .AVX2 => 5 | .BMI => 3 | .BMI2 => 8 | .ADX => 19

theorem test_iff (r : BitVec 32) (n : ℕ) (hn : n < 32) :
    test r (1#32 <<< n) = true ↔ r.getLsbD n = true := by
  unfold test
  rw [bne_iff_ne]
  constructor
  · intro h
    by_contra hb
    apply h
    apply BitVec.eq_of_getLsbD_eq
    intro i hi
    by_cases hin : i = n
    · subst hin; simp at hb; simp [hb]
    · simp only [BitVec.getLsbD_and, BitVec.getLsbD_shiftLeft, BitVec.getLsbD_one]
      by_cases h1 : i < n
      · simp [h1]
      · have : i - n ≠ 0 := by omega
        simp [this]
  · intro h h0
    have := congrArg (fun v : BitVec 32 => v.getLsbD n) h0
    simp [hn] at this
    rw [BitVec.getLsbD_eq_getElem hn] at h
    simp [h] at this

theorem mask_eq (c : Cap) : c.mask = 1#32 <<< c.bit := by cases c <;> rfl

theorem bit_lt (c : Cap) : c.bit < 32 := by cases c <;> decide

theorem orInt_one (n : ℕ) (b : Bool) (hn : n < 2) : orInt n b = 1 ↔ n = 1 ∨ b = true := by
  interval_cases n <;> cases b <;> decide

theorem orInt_lt (n : ℕ) (b : Bool) (hn : n < 2) : orInt n b < 2 := by
  interval_cases n <;> cases b <;> decide

/-- **C71, exactly.** `cpu_has(c)` answers 1 iff the bit of `c` is set in one of three registers,
whichever of them announces `c`. -/
theorem C71_exact (cpuid : Cpuid) (c : Cap) : cpu_has cpuid c = 1 ↔
    (cpuid 1 0).edx.getLsbD c.bit ∨ (cpuid 1 0).ecx.getLsbD c.bit ∨ (cpuid 7 0).ebx.getLsbD c.bit := by
  have h0 : orInt 0 (test (cpuid 1 0).edx c.mask) < 2 := orInt_lt _ _ (by decide)
  have h1 := orInt_lt _ (test (cpuid 1 0).ecx c.mask) h0
  simp only [cpu_has]
  rw [orInt_one _ _ h1, orInt_one _ _ h0, orInt_one _ _ (by decide), mask_eq,
    test_iff _ _ (bit_lt c), test_iff _ _ (bit_lt c), test_iff _ _ (bit_lt c)]
  tauto

/-- The answer is 0 or 1. -/
theorem cpu_has_bool (cpuid : Cpuid) (c : Cap) : cpu_has cpuid c = 0 ∨ cpu_has cpuid c = 1 := by
  have h : cpu_has cpuid c < 2 :=
    orInt_lt _ _ (orInt_lt _ _ (orInt_lt _ _ (by decide)))
  omega

/-- **C71, the half that holds.** An instruction set that the processor has is found. Missing: that
one it lacks is not. -/
theorem C71_found_partial (cpuid : Cpuid) (c : Cap) (h : Has cpuid c) : cpu_has cpuid c = 1 := by
  rw [C71_exact]
  cases c <;> simp only [Has, Cap.bit] at h ⊢ <;> tauto

/-- **C71 is false of the code.** A processor with model-specific registers (leaf 1, `EDX` bit 5:
every 64-bit x86 processor) is said to have AVX2, and one with `CMPXCHG8B` (bit 8) to have BMI2,
whether or not it has them. -/
theorem C71_avx2_bmi2_wrong (cpuid : Cpuid)
    (msr : (cpuid 1 0).edx.getLsbD 5) (cx8 : (cpuid 1 0).edx.getLsbD 8) :
    cpu_has cpuid .AVX2 = 1 ∧ cpu_has cpuid .BMI2 = 1 := by
  rw [C71_exact, C71_exact]
  exact ⟨.inl msr, .inl cx8⟩

/-- A 2011 processor, without the instruction sets of leaf 7 (features of a Xeon E3-1220). -/
def old : Cpuid := fun a _ =>
  if a = 1 then ⟨0x206A7, 0, 0x1FBAE3FF, 0xBFEBFBFF⟩ else if a = 7 then ⟨0, 0, 0, 0⟩ else ⟨0, 0, 0, 0⟩

/-- The answer is wrong for that processor. -/
theorem C71_wrong : ∃ cpuid : Cpuid, ¬Has cpuid .AVX2 ∧ cpu_has cpuid .AVX2 = 1 ∧
    ¬Has cpuid .BMI2 ∧ cpu_has cpuid .BMI2 = 1 :=
  ⟨old, by decide, (C71_avx2_bmi2_wrong old (by decide) (by decide)).1, by decide,
    (C71_avx2_bmi2_wrong old (by decide) (by decide)).2⟩

/-- Any capability can be reported without being there. -/
theorem C71_all_wrong (c : Cap) : ∃ cpuid : Cpuid, ¬Has cpuid c ∧ cpu_has cpuid c = 1 := by
  by_cases h : (c = .AVX2 ∨ c = .BMI ∨ c = .BMI2 ∨ c = .ADX)
  · refine ⟨fun a _ => if a = 1 then ⟨0, 0, 0xFFFFFFFF, 0⟩ else ⟨0, 0, 0, 0⟩, ?_, ?_⟩
    · rcases h with rfl | rfl | rfl | rfl <;> decide
    · rcases h with rfl | rfl | rfl | rfl <;> decide
  · refine ⟨fun a _ => if a = 7 then ⟨0, 0xFFFFFFFF, 0, 0⟩ else ⟨0, 0, 0, 0⟩, ?_, ?_⟩
    · revert h; cases c <;> decide
    · revert h; cases c <;> decide

theorem tests_iff (cpuid : Cpuid) (l : Cap × Bool) (hl : l ∈ tests cpuid) :
    l.2 = true ↔ Has cpuid l.1 := by
  simp only [tests, List.mem_cons, List.not_mem_nil, or_false] at hl
  rcases hl with rfl | rfl | rfl | rfl | rfl | rfl | rfl | rfl | rfl | rfl | rfl | rfl <;>
    simp only [mask_eq, Cap.bit, Has] <;> exact test_iff _ _ (by decide)

/-- **C72, the lines.** Each of the twelve instruction sets is printed once, with "Yes" exactly when
the processor has it. -/
theorem C72_lines (cpuid : Cpuid) :
    (machine_info cpuid).lines.map Prod.fst =
      [.CMOV, .SSE, .SSE2, .SSE3, .SSSE3, .SSE4_1, .SSE4_2, .AVX, .AVX2, .BMI, .BMI2, .ADX] ∧
    ∀ l ∈ (machine_info cpuid).lines, l.2 = true ↔ Has cpuid l.1 :=
  ⟨rfl, fun l hl => tests_iff cpuid l hl⟩

theorem verdict_iff (b0 b1 b2 b3 b4 b5 b6 b7 b8 b9 b10 b11 : Bool) :
    ((b0.toNat + b1.toNat + b2.toNat + b3.toNat + b4.toNat + b5.toNat + b6.toNat + b7.toNat +
      b8.toNat + b9.toNat + b10.toNat + b11.toNat == 11) ||
     (b0.toNat + b1.toNat + b2.toNat + b3.toNat + b4.toNat + b5.toNat + b6.toNat + b7.toNat +
      b8.toNat + b9.toNat + b10.toNat + b11.toNat == 12)) = true ↔
    [b0, b1, b2, b3, b4, b5, b6, b7, b8, b9, b10, b11].countP (· = false) ≤ 1 := by
  cases b0 <;> cases b1 <;> cases b2 <;> cases b3 <;> cases b4 <;> cases b5 <;> cases b6 <;>
    cases b7 <;> cases b8 <;> cases b9 <;> cases b10 <;> cases b11 <;> decide

/-- **C72, the verdict exactly.** The machine is said to support the library iff at most one line
says "No", no matter which one. -/
theorem C72_verdict (cpuid : Cpuid) : (machine_info cpuid).verdict = true ↔
    ((machine_info cpuid).lines.map Prod.snd).countP (· = false) ≤ 1 := by
  simp only [machine_info, tests, List.foldl, List.map, Nat.zero_add]
  exact verdict_iff ..

/-- **C72, the half that holds.** A processor with everything but possibly ADX is said to support
the library. Missing: that a processor said to support it has everything but possibly ADX. -/
theorem C72_supported_partial (cpuid : Cpuid) (h : ∀ c : Cap, c ≠ .ADX → Has cpuid c) :
    (machine_info cpuid).verdict = true := by
  rw [C72_verdict]
  have t : ∀ (c : Cap) (b : Bool), (c, b) ∈ tests cpuid → c ≠ .ADX → b = true :=
    fun c b hm hc => (tests_iff cpuid (c, b) hm).2 (h c hc)
  simp only [machine_info]
  have : (tests cpuid).map Prod.snd = List.replicate 11 true ++ [test (cpuid 7 0).ebx Cap.ADX.mask] := by
    simp only [tests, List.map, List.replicate, List.cons_append, List.nil_append, List.cons.injEq,
      and_true]
    refine ⟨t .CMOV _ ?_ ?_, t .SSE _ ?_ ?_, t .SSE2 _ ?_ ?_, t .SSE3 _ ?_ ?_, t .SSSE3 _ ?_ ?_,
      t .SSE4_1 _ ?_ ?_, t .SSE4_2 _ ?_ ?_, t .AVX _ ?_ ?_, t .AVX2 _ ?_ ?_, t .BMI _ ?_ ?_,
      t .BMI2 _ ?_ ?_⟩ <;> simp [tests]
  rw [this]
  cases test (cpuid 7 0).ebx Cap.ADX.mask <;> decide

/-- A processor with everything of the list except AVX2 (a virtual machine that hides it). -/
def noAvx2 : Cpuid := fun a _ =>
  if a = 1 then ⟨0, 0, 0xFFFFFFFF, 0xFFFFFFFF⟩ else ⟨0, 0xFFFFFFDF, 0, 0⟩

/-- **C72 is false of the code.** A processor without AVX2 is said to support the library, and so is
one without any other single instruction set. -/
theorem C72_verdict_wrong :
    (∃ cpuid : Cpuid, ¬Has cpuid .AVX2 ∧ (machine_info cpuid).verdict = true) ∧
    (∃ cpuid : Cpuid, ¬Has cpuid .BMI2 ∧ (machine_info cpuid).verdict = true) :=
  ⟨⟨noAvx2, by decide, by decide⟩,
   ⟨fun a _ => if a = 1 then ⟨0, 0, 0xFFFFFFFF, 0xFFFFFFFF⟩ else ⟨0, 0xFFFFFEFF, 0, 0⟩,
    by decide, by decide⟩⟩

/-- The hypotheses are met: `old` has AVX and is said to have it; `noAvx2` misses only AVX2. -/
example : Has old .AVX ∧ cpu_has old .AVX = 1 ∧ (machine_info old).verdict = false ∧
    (machine_info noAvx2).lines.countP (fun l => !l.2) = 1 := by decide

example : ∃ cpuid : Cpuid, (∀ c : Cap, c ≠ .ADX → Has cpuid c) ∧ ¬Has cpuid .ADX :=
  ⟨fun a _ => if a = 1 then ⟨0, 0, 0xFFFFFFFF, 0xFFFFFFFF⟩ else ⟨0, 0xFFF7FFFF, 0, 0⟩,
    fun c h => by cases c <;> first | decide | exact absurd rfl h, by decide⟩

end Verif.Cpu
