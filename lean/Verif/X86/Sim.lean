import Verif.X86.Machine

/-!
# When coinciding buffers do no harm

Helper lemmas.  `check` looks at a block as data: it writes only inside the
buffer of `%0`, reads only inside the buffers, and never reads a word of an
input at an offset at which it has already written the output.  For blocks that
pass, running on one flat memory where inputs may coincide with the output gives
what running on separate buffers gives (`sim`), and changes nothing else.
-/

namespace Verif.X86

/-- The buffers of a block: number of words of each, and whether an input may be
the same buffer as the output. -/
structure Shape where
  size : Ptr → ℕ
  inplace : Ptr → Bool

/-- May this operand be read after the words `ws` of the output were written? -/
def readOk (sh : Shape) (ws : List ℕ) : Opd → Bool
  | .mem .p0 i => decide (i < sh.size .p0)
  | .mem p i => decide (i < sh.size p) && (!sh.inplace p || !ws.contains i)
  | _ => true

/-- May this operand be written? -/
def writeOk (sh : Shape) : Opd → Bool
  | .mem .p0 i => decide (i < sh.size .p0)
  | .mem _ _ => false
  | _ => true

/-- The operands an instruction reads. -/
def Instr.reads : Instr → List Opd
  | .movq s _ => [s]
  | .addq s _ | .adcq s _ | .adcx s _ | .adox s _ | .subq s _ | .sbbq s _ => [s]
  | .mulxq s _ _ | .mulq s | .imulq s _ | .cmovcq s _ => [s]
  | .andq s _ | .orq s _ | .test s | .cmovnz s _ => [s]
  | _ => []

/-- The word of the output an instruction writes. -/
def Instr.writes : Instr → List ℕ
  | .movq _ (.mem _ i) => [i]
  | _ => []

/-- Does the instruction write only where it may? -/
def Instr.dstOk (sh : Shape) : Instr → Bool
  | .movq _ d => writeOk sh d
  | _ => true

/-- The block keeps to its buffers and never reads an overwritten input word. -/
def check (sh : Shape) : List ℕ → List Instr → Bool
  | _, [] => true
  | ws, i :: is =>
    i.reads.all (readOk sh ws) &&
    i.dstOk sh &&
    check sh (i.writes ++ ws) is

/-- One instruction. -/
def step {M : Type} (I : Memory M) (i : Instr) (st : State M) : State M := exec I [i] st id

theorem exec_cons {M α : Type} (I : Memory M) (i : Instr) (is : List Instr) (st : State M)
    (k : State M → α) : exec I (i :: is) st k = exec I is (step I i st) k := by
  cases i <;> rfl

theorem exec_id {M α : Type} (I : Memory M) (is : List Instr) (st : State M) (k : State M → α) :
    exec I is st k = k (exec I is st id) := by
  induction is generalizing st with
  | nil => rfl
  | cons i is ih => rw [exec_cons, exec_cons I i is st id, ih]

/-- Two states that agree except for the memory. -/
structure Same {M N : Type} (a : State M) (b : State N) : Prop where
  regs : a.regs = b.regs
  cf : a.cf = b.cf
  ovf : a.ovf = b.ovf
  zf : a.zf = b.zf
  arg : a.arg = b.arg
  junk : a.junk = b.junk

/-- The flat memory and the separate buffers agree wherever the block may still
read, and only output words were changed. -/
structure Rel (sh : Shape) (ptr : Ptr → Loc) (m₀ : Mem) (ws : List ℕ) (m : Mem) (R : Reg3) :
    Prop where
  out : ∀ i < sh.size .p0, m.get (ptr .p0) i = R .p0 i
  inp : ∀ p, p ≠ .p0 → ∀ i < sh.size p, sh.inplace p = false ∨ i ∉ ws → m.get (ptr p) i = R p i
  frame : ∀ o x, (∀ i ∈ ws, ¬(o = (ptr .p0).obj ∧ x = (ptr .p0).off + i)) → m o x = m₀ o x
  lt : ∀ i ∈ ws, i < sh.size .p0

/-- Two buffers without a common word. -/
def Apart (p : Loc) (n : ℕ) (q : Loc) (k : ℕ) : Prop :=
  p.obj ≠ q.obj ∨ p.off + n ≤ q.off ∨ q.off + k ≤ p.off

/-- The buffers in memory: an input is the output buffer itself, where that is
allowed, or has no word in common with it. -/
def Placed (sh : Shape) (ptr : Ptr → Loc) : Prop :=
  ∀ p, p ≠ .p0 → (sh.inplace p = true ∧ ptr p = ptr .p0) ∨
    Apart (ptr p) (sh.size p) (ptr .p0) (sh.size .p0)

variable {sh : Shape} {ptr : Ptr → Loc} {m₀ : Mem}

theorem get_eq {ws : List ℕ} {a : State Mem} {b : State Reg3} (h : Same a b)
    (hr : Rel sh ptr m₀ ws a.mem b.mem) {o : Opd} (ho : readOk sh ws o = true) :
    a.get (flat ptr) o = b.get sep o := by
  cases o with
  | imm n => rfl
  | reg r => simp [State.get, h.regs]
  | arg => simp [State.get, h.arg]
  | mem p i =>
    simp only [State.get, flat, sep]
    cases p with
    | p0 => exact hr.out i (by simpa [readOk] using ho)
    | p1 =>
      simp only [readOk, Bool.and_eq_true, decide_eq_true_eq, Bool.or_eq_true,
        Bool.not_eq_true'] at ho
      exact hr.inp .p1 (by decide) i ho.1 (by simpa using ho.2)
    | p2 =>
      simp only [readOk, Bool.and_eq_true, decide_eq_true_eq, Bool.or_eq_true,
        Bool.not_eq_true'] at ho
      exact hr.inp .p2 (by decide) i ho.1 (by simpa using ho.2)

theorem setReg_same {M N : Type} {a : State M} {b : State N} (h : Same a b) (r : Reg) (v : W) :
    Same (a.setReg r v) (b.setReg r v) := by
  constructor <;> simp [State.setReg, h.regs, h.cf, h.ovf, h.zf, h.arg, h.junk]

theorem setCf_same {M N : Type} {a : State M} {b : State N} (h : Same a b) (c : Bool) :
    Same (a.setCf c) (b.setCf c) := by
  constructor <;> simp [State.setCf, h.regs, h.ovf, h.zf, h.arg, h.junk]

theorem setOvf_same {M N : Type} {a : State M} {b : State N} (h : Same a b) (c : Bool) :
    Same (a.setOvf c) (b.setOvf c) := by
  constructor <;> simp [State.setOvf, h.regs, h.cf, h.zf, h.arg, h.junk]

/-- A store into the output. -/
theorem store_rel (hp : Placed sh ptr) {ws : List ℕ} {m : Mem} {R : Reg3}
    (hr : Rel sh ptr m₀ ws m R) {i : ℕ} (hi : i < sh.size .p0) (v : W) :
    Rel sh ptr m₀ (i :: ws) ((flat ptr).store m .p0 i v) (sep.store R .p0 i v) := by
  constructor
  · intro j hj
    simp only [flat, sep, Mem.set, Mem.get]
    by_cases h : j = i
    · subst h; simp
    · have e : (ptr .p0).off + j ≠ (ptr .p0).off + i := by omega
      simp only [e, h, and_false, if_false]
      exact hr.out j hj
  · intro p hp0 j hj hw
    have hne : ¬((ptr p).obj = (ptr .p0).obj ∧ (ptr p).off + j = (ptr .p0).off + i) := by
      rintro ⟨ho, hx⟩
      rcases hp p hp0 with ⟨ha, he⟩ | h
      · rcases hw with hw | hw
        · rw [ha] at hw; cases hw
        · have : j ≠ i := fun e => hw (by simp [e])
          rw [he] at hx
          omega
      · rcases h with h | h
        · exact h ho
        · omega
    have e1 : Mem.get ((flat ptr).store m .p0 i v) (ptr p) j = m.get (ptr p) j := by
      simp only [flat, Mem.set, Mem.get, if_neg hne]
    have e2 : sep.store R .p0 i v p j = R p j := by
      simp [sep, hp0]
    rw [e1, e2]
    refine hr.inp p hp0 j hj ?_
    rcases hw with hw | hw
    · exact Or.inl hw
    · exact Or.inr fun h => hw (List.mem_cons_of_mem _ h)
  · intro o x hx
    simp only [flat, Mem.set]
    rw [if_neg (hx i (by simp))]
    exact hr.frame o x fun j hj => hx j (List.mem_cons_of_mem _ hj)
  · intro j hj
    rcases List.mem_cons.1 hj with h | h
    · subst h; exact hi
    · exact hr.lt j h

/-- One instruction preserves the agreement. -/
theorem step_sim (hp : Placed sh ptr) {ws : List ℕ} {a : State Mem} {b : State Reg3}
    (h : Same a b) (hr : Rel sh ptr m₀ ws a.mem b.mem) {i : Instr}
    (h1 : i.reads.all (readOk sh ws) = true)
    (h2 : i.dstOk sh = true) :
    Same (step (flat ptr) i a) (step sep i b) ∧
    Rel sh ptr m₀ (i.writes ++ ws) (step (flat ptr) i a).mem (step sep i b).mem := by
  cases i
  case movq s d =>
    have hs := get_eq h hr (o := s) (by simpa [Instr.reads] using h1)
    cases d with
    | imm n =>
      refine ⟨?_, hr⟩
      exact h
    | arg => exact ⟨h, hr⟩
    | reg r =>
      refine ⟨?_, hr⟩
      show Same (a.setReg r (a.get (flat ptr) s)) (b.setReg r (b.get sep s))
      rw [hs]; exact setReg_same h r _
    | mem p j =>
      cases p with
      | p1 => simp [Instr.dstOk, writeOk] at h2
      | p2 => simp [Instr.dstOk, writeOk] at h2
      | p0 =>
        refine ⟨⟨h.regs, h.cf, h.ovf, h.zf, h.arg, h.junk⟩, ?_⟩
        show Rel sh ptr m₀ (j :: ws) ((flat ptr).store a.mem .p0 j (a.get (flat ptr) s))
          (sep.store b.mem .p0 j (b.get sep s))
        rw [hs]
        exact store_rel hp hr (by simpa [Instr.dstOk, writeOk] using h2) _
  all_goals
    simp only [Instr.reads, List.all_cons, List.all_nil, Bool.and_true] at h1
    try have hs := get_eq h hr h1
    refine ⟨?_, hr⟩
    simp only [step, exec, Verif.xor0, Verif.add, Verif.adc, Verif.sub, Verif.sbb,
      Verif.mulx, Verif.imul, Verif.cmov, Verif.shld, Verif.shl, Verif.shrd, Verif.and, Verif.or,
      Verif.clc, Verif.setc, Verif.bt0, id, h.regs, h.cf, h.ovf, h.zf, h.junk]
    try simp only [hs]
    first
      | exact ⟨rfl, rfl, rfl, rfl, h.arg, rfl⟩
      | skip
    repeat first
      | exact h
      | apply setOvf_same
      | apply setCf_same
      | apply setReg_same

/-- The words a block writes. -/
def wrote : List ℕ → List Instr → List ℕ
  | ws, [] => ws
  | ws, i :: is => wrote (i.writes ++ ws) is

theorem sim (hp : Placed sh ptr) {is : List Instr} {ws : List ℕ} {a : State Mem} {b : State Reg3}
    (h : Same a b) (hr : Rel sh ptr m₀ ws a.mem b.mem) (hc : check sh ws is = true) :
    Rel sh ptr m₀ (wrote ws is) (exec (flat ptr) is a id).mem (exec sep is b id).mem := by
  induction is generalizing ws a b with
  | nil => exact hr
  | cons i is ih =>
    simp only [check, Bool.and_eq_true] at hc
    obtain ⟨⟨h1, h2⟩, h3⟩ := hc
    obtain ⟨s1, s2⟩ := step_sim hp h hr h1 h2
    rw [exec_cons, exec_cons]
    exact ih s1 s2 h3

/-- Run a block on memory; the operands point to the arguments, `arg` is the
operand that is no pointer; registers and flags hold anything. -/
def run (code : List Instr) (ptr : Ptr → Loc) (st : State Mem) : Mem :=
  (exec (flat ptr) code st id).mem

/-- Write a list of words at a buffer. -/
def Mem.put (m : Mem) (p : Loc) (l : List W) : Mem :=
  fun o x => if o = p.obj ∧ p.off ≤ x ∧ x < p.off + l.length then l.getD (x - p.off) 0#64 else m o x

/-- What a block that passes the check does to the memory: it writes the words it
would write with separate buffers, and nothing else. -/
theorem run_eq (hp : Placed sh ptr) {code : List Instr} (hc : check sh [] code = true)
    (st : State Mem) (l : List W) (hl : l.length = sh.size .p0)
    (h : ∀ i < sh.size .p0, (exec sep code { st with mem := fun p i => st.mem.get (ptr p) i } id).mem .p0 i
      = l.getD i 0#64) :
    run code ptr st = st.mem.put (ptr .p0) l := by
  have hr : Rel sh ptr st.mem (wrote [] code) (exec (flat ptr) code st id).mem _ :=
    sim hp (b := { st with mem := fun p i => st.mem.get (ptr p) i })
      ⟨rfl, rfl, rfl, rfl, rfl, rfl⟩
      ⟨fun _ _ => rfl, fun _ _ _ _ _ => rfl, fun _ _ _ => rfl, fun _ h => by simp at h⟩ hc
  funext o x
  unfold run Mem.put
  by_cases hx : o = (ptr .p0).obj ∧ (ptr .p0).off ≤ x ∧ x < (ptr .p0).off + l.length
  · rw [if_pos hx, ← h (x - (ptr .p0).off) (by omega), ← hr.out _ (by omega), Mem.get]
    rw [hx.1, show (ptr .p0).off + (x - (ptr .p0).off) = x by omega]
  · rw [if_neg hx]
    refine hr.frame o x fun i hi he => hx ⟨he.1, ?_⟩
    have := hr.lt i hi
    omega

end Verif.X86
