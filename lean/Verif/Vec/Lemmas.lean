import Verif.Vec.Spec

/-!
# Aliasing of the parameters of a vector function

`Fn.check` walks through a program and keeps the set of the cells that are stale: those of a
parameter that may have been overwritten through another one.  A program that never reads a
stale cell computes what it computes with its parameters all apart. -/

namespace Verif.Vec

/-- The parameters are at the start of different objects. -/
def idp : ℕ → Place := fun k => (k, 0)

/-- The cells of a parameter. -/
def Fn.len (f : Fn) (k : ℕ) : ℕ := f.cells.getD k 0

/-- Every load is inside its parameter and not stale. -/
def Ex.ok (len : ℕ → ℕ) (n : ℕ) (D : List (ℕ × ℕ)) : Ex → Bool
  | .r _ => true
  | .ld k i => decide (k < n) && decide (i < len k) && !D.contains (k, i)
  | .ld128 k i => decide (k < n) && decide (i / 2 < len k) && !D.contains (k, i / 2)
  | .lit _ _ _ _ => true
  | .cst _ _ _ _ _ _ => true
  | .un _ x => x.ok len n D
  | .bin _ x y => x.ok len n D && y.ok len n D
  | .blendv x y z => x.ok len n D && y.ok len n D && z.ok len n D

/-- The cells that a store to the cell `i` of the parameter `k` makes stale. -/
def marks (n : ℕ) (al : ℕ → ℕ → Bool) (k i : ℕ) : List (ℕ × ℕ) :=
  ((List.range n).filter fun l => l != k && al k l).map fun l => (l, i)

/-- The check of one statement: the new stale cells, or `none`. -/
def Stmt.chk (len : ℕ → ℕ) (n : ℕ) (outs : List ℕ) (al : ℕ → ℕ → Bool) (D : List (ℕ × ℕ)) :
    Stmt → Option (List (ℕ × ℕ))
  | .set _ e => if e.ok len n D then some D else none
  | .st k i e =>
      if e.ok len n D && outs.contains k && decide (k < n) && decide (i < len k) then
        some (D.filter (· != (k, i)) ++ marks n al k i)
      else none
  | .st128 k i e =>
      if e.ok len n D && outs.contains k && decide (k < n) && decide (i / 2 < len k)
          && !D.contains (k, i / 2) then
        some (D ++ marks n al k (i / 2))
      else none

/-- The check of a program. -/
def chks (len : ℕ → ℕ) (n : ℕ) (outs : List ℕ) (al : ℕ → ℕ → Bool) :
    List Stmt → List (ℕ × ℕ) → Option (List (ℕ × ℕ))
  | [], D => some D
  | s :: t, D => (s.chk len n outs al D).bind (chks len n outs al t)

def Fn.check (f : Fn) (al : ℕ → ℕ → Bool) (D : List (ℕ × ℕ)) : Option (List (ℕ × ℕ)) :=
  chks f.len f.cells.length f.outs al f.body D

/-- Each parameter that is stored to is at the same place as another one, where this is
allowed, or apart from it. -/
def Fits (len : ℕ → ℕ) (n : ℕ) (outs : List ℕ) (al : ℕ → ℕ → Bool) (p : ℕ → Place) : Prop :=
  ∀ k ∈ outs, ∀ l < n, l ≠ k → (p k = p l ∧ al k l = true) ∨ Apart (p k) (len k) (p l) (len l)

section
variable {len : ℕ → ℕ} {n : ℕ} {outs : List ℕ} {al : ℕ → ℕ → Bool} {p : ℕ → Place}

/-- The memory agrees with the memory of the run without aliasing, off the stale cells. -/
def Agree (len : ℕ → ℕ) (n : ℕ) (p : ℕ → Place) (D : List (ℕ × ℕ)) (m A : Mem) : Prop :=
  ∀ k < n, ∀ i < len k, (k, i) ∉ D → view p m k i = A k i

theorem not_apart_cell {P Q : Place} {a b i j : ℕ} (h : Apart P a Q b) (hi : i < a) (hj : j < b)
    (he : Q.1 = P.1) : Q.2 + j ≠ P.2 + i := by
  intro e
  exact h P.1 (P.2 + i) ⟨⟨rfl, by omega, by omega⟩, ⟨he.symm, by omega, by omega⟩⟩

theorem Ex.eval_congr {D : List (ℕ × ℕ)} {m A : Mem} (h : Agree len n p D m A) (ρ : Regs) :
    ∀ e : Ex, e.ok len n D = true → e.eval (view p m) ρ = e.eval (view idp A) ρ := by
  have hv : ∀ k i, view idp A k i = A k i := by intro k i; simp [view, idp]
  intro e
  induction e with
  | r n => intro _; rfl
  | ld k i =>
    intro ho
    simp only [Ex.ok, Bool.and_eq_true, decide_eq_true_eq, Bool.not_eq_true',
      List.contains_eq_mem, decide_eq_false_iff_not] at ho
    simp only [Ex.eval, hv]
    exact h k ho.1.1 i ho.1.2 ho.2
  | ld128 k i =>
    intro ho
    simp only [Ex.ok, Bool.and_eq_true, decide_eq_true_eq, Bool.not_eq_true',
      List.contains_eq_mem, decide_eq_false_iff_not] at ho
    simp only [Ex.eval, hv]
    rw [h k ho.1.1 (i / 2) ho.1.2 ho.2]
  | lit => intro _; rfl
  | cst => intro _; rfl
  | un o x ih => intro ho; simp only [Ex.eval, ih ho]
  | bin o x y ihx ihy =>
    intro ho
    simp only [Ex.ok, Bool.and_eq_true] at ho
    simp only [Ex.eval, ihx ho.1, ihy ho.2]
  | blendv x y z ihx ihy ihz =>
    intro ho
    simp only [Ex.ok, Bool.and_eq_true] at ho
    simp only [Ex.eval, ihx ho.1.1, ihy ho.1.2, ihz ho.2]

/-- A store through the parameter `k`. -/
theorem agree_store (hf : Fits len n outs al p) {D D' : List (ℕ × ℕ)} {m A : Mem} {k i : ℕ}
    {v : V} (h : Agree len n p D m A) (hk : k ∈ outs) (hi : i < len k)
    (hD : ∀ x, x ∈ D → x ≠ (k, i) → x ∈ D') (hM : ∀ x ∈ marks n al k i, x ∈ D') :
    Agree len n p D' (m.set (p k).1 ((p k).2 + i) v) (A.set k i v) := by
  intro l hl j hj hD'
  have hnot : (l, j) ≠ (k, i) → (l, j) ∉ D := fun hne hmem => hD' (hD _ hmem hne)
  by_cases hlk : l = k
  · subst hlk
    by_cases hji : j = i
    · subst hji; simp [view, Mem.set]
    · have := h l hl j hj (hnot (by simp [hji]))
      simp only [view] at this
      simp [view, Mem.set, hji, this]
  · have hA : A.set k i v l j = A l j := by simp [Mem.set, hlk]
    rw [hA, ← h l hl j hj (hnot (by simp [hlk]))]
    simp only [view, Mem.set]
    rcases hf k hk l hl hlk with ⟨he, ha⟩ | hap
    · have hji : j ≠ i := by
        intro e
        apply hD'
        apply hM
        rw [e]
        simp only [marks, List.mem_map, List.mem_filter, List.mem_range]
        exact ⟨l, ⟨hl, by simp [hlk, ha]⟩, rfl⟩
      rw [he]
      simp [hji]
    · by_cases he : (p l).1 = (p k).1
      · rw [if_pos he, if_neg (not_apart_cell hap hi hj he)]
      · rw [if_neg he]

theorem step_agree (hf : Fits len n outs al p) {D D' : List (ℕ × ℕ)} {m A : Mem} {ρ : Regs}
    (s : Stmt) (hc : s.chk len n outs al D = some D') (h : Agree len n p D m A) :
    Agree len n p D' (step p (m, ρ) s).1 (step idp (A, ρ) s).1 ∧
      (step p (m, ρ) s).2 = (step idp (A, ρ) s).2 := by
  cases s with
  | set r e =>
    simp only [Stmt.chk] at hc
    split at hc
    · rename_i he
      cases hc
      exact ⟨h, by simp only [step, Ex.eval_congr h ρ e he]⟩
    · cases hc
  | st k i e =>
    simp only [Stmt.chk] at hc
    split at hc
    · rename_i he
      cases hc
      simp only [Bool.and_eq_true, decide_eq_true_eq, List.contains_eq_mem] at he
      refine ⟨?_, rfl⟩
      simp only [step, Ex.eval_congr h ρ e he.1.1.1]
      have := agree_store (v := e.eval (view idp A) ρ) hf h he.1.1.2 he.2
        (D' := D.filter (· != (k, i)) ++ marks n al k i)
        (fun x hx hne => List.mem_append_left _ (List.mem_filter.2 ⟨hx, by simpa using hne⟩))
        (fun x hx => List.mem_append_right _ hx)
      simpa [idp] using this
    · cases hc
  | st128 k i e =>
    simp only [Stmt.chk] at hc
    split at hc
    · rename_i he
      cases hc
      simp only [Bool.and_eq_true, decide_eq_true_eq, List.contains_eq_mem, Bool.not_eq_true',
        decide_eq_false_iff_not] at he
      refine ⟨?_, rfl⟩
      have hv : view idp A k (i / 2) = A k (i / 2) := by simp [view, idp]
      simp only [step, Ex.eval_congr h ρ e he.1.1.1.1, h k he.1.1.2 _ he.1.2 he.2, hv]
      have := agree_store (v := setHalf (A k (i / 2)) i (e.eval (view idp A) ρ)) hf h
        he.1.1.1.2 he.1.2
        (D' := D ++ marks n al k (i / 2))
        (fun x hx hne => List.mem_append_left _ hx)
        (fun x hx => List.mem_append_right _ hx)
      simpa [idp] using this
    · cases hc

theorem run_agree (hf : Fits len n outs al p) : ∀ (prog : List Stmt) {D D' : List (ℕ × ℕ)}
    {m A : Mem} {ρ : Regs}, chks len n outs al prog D = some D' → Agree len n p D m A →
    Agree len n p D' (run p prog (m, ρ)).1 (run idp prog (A, ρ)).1 ∧
      (run p prog (m, ρ)).2 = (run idp prog (A, ρ)).2 := by
  intro prog
  induction prog with
  | nil =>
    intro D D' m A ρ hc h
    simp only [chks, Option.some.injEq] at hc
    subst hc
    exact ⟨h, rfl⟩
  | cons s t ih =>
    intro D D' m A ρ hc h
    simp only [chks] at hc
    rcases hs : s.chk len n outs al D with _ | D1
    · rw [hs] at hc; cases hc
    · rw [hs] at hc
      simp only [Option.bind_some] at hc
      have h1 := step_agree (ρ := ρ) hf s hs h
      have h2 := ih (ρ := (step p (m, ρ) s).2) hc h1.1
      have e : step idp (A, ρ) s = ((step idp (A, ρ) s).1, (step p (m, ρ) s).2) := by
        rw [h1.2]
      simp only [run, List.foldl_cons] at h2 ⊢
      rw [e]
      exact h2

/-- The stores of a statement that passes the check are in the outputs. -/
theorem step_frame {D D' : List (ℕ × ℕ)} {m : Mem} {ρ : Regs} (s : Stmt)
    (hc : s.chk len n outs al D = some D') {o c : ℕ}
    (ho : ∀ k ∈ outs, ¬In (p k) (len k) o c) :
    (step p (m, ρ) s).1 o c = m o c := by
  cases s with
  | set r e => rfl
  | st k i e =>
    simp only [Stmt.chk] at hc
    split at hc
    · rename_i he
      simp only [Bool.and_eq_true, decide_eq_true_eq, List.contains_eq_mem] at he
      have := ho k he.1.1.2
      simp only [step, Mem.set]
      split
      · rw [if_neg (by intro e; apply this; exact ⟨by assumption, by omega, by omega⟩)]
      · rfl
    · cases hc
  | st128 k i e =>
    simp only [Stmt.chk] at hc
    split at hc
    · rename_i he
      simp only [Bool.and_eq_true, decide_eq_true_eq, List.contains_eq_mem] at he
      have := ho k he.1.1.1.2
      simp only [step, Mem.set]
      split
      · rw [if_neg (by intro e; apply this; exact ⟨by assumption, by omega, by omega⟩)]
      · rfl
    · cases hc

theorem run_frame : ∀ (prog : List Stmt) {D D' : List (ℕ × ℕ)} {m : Mem} {ρ : Regs},
    chks len n outs al prog D = some D' → ∀ {o c : ℕ},
    (∀ k ∈ outs, ¬In (p k) (len k) o c) →
    (run p prog (m, ρ)).1 o c = m o c := by
  intro prog
  induction prog with
  | nil => intros; rfl
  | cons s t ih =>
    intro D D' m ρ hc o c ho
    simp only [chks] at hc
    rcases hs : s.chk len n outs al D with _ | D1
    · rw [hs] at hc; cases hc
    · rw [hs] at hc
      simp only [Option.bind_some] at hc
      have h1 := step_frame (m := m) (ρ := ρ) s hs ho
      have h2 := ih (m := (step p (m, ρ) s).1) (ρ := (step p (m, ρ) s).2) hc ho
      simp only [run, List.foldl_cons] at h2 ⊢
      rw [h2, h1]

/-- An access inside the parameters. -/
def InArgs (len : ℕ → ℕ) (n : ℕ) (outs : List ℕ) (p : ℕ → Place) : Access → Prop
  | .rd o c => ∃ k < n, In (p k) (len k) o c
  | .wr o c => ∃ k ∈ outs, In (p k) (len k) o c
  | .const _ _ => True

theorem Ex.acc_in {D : List (ℕ × ℕ)} : ∀ e : Ex, e.ok len n D = true →
    ∀ a ∈ e.acc p, InArgs len n outs p a := by
  intro e
  induction e with
  | r n => intro _ a ha; simp [Ex.acc] at ha
  | ld k i =>
    intro ho a ha
    simp only [Ex.ok, Bool.and_eq_true, decide_eq_true_eq] at ho
    simp only [Ex.acc, List.mem_singleton] at ha
    subst ha
    exact ⟨k, ho.1.1, rfl, by omega, by omega⟩
  | ld128 k i =>
    intro ho a ha
    simp only [Ex.ok, Bool.and_eq_true, decide_eq_true_eq] at ho
    simp only [Ex.acc, List.mem_singleton] at ha
    subst ha
    exact ⟨k, ho.1.1, rfl, by omega, by omega⟩
  | lit => intro _ a ha; simp [Ex.acc] at ha
  | cst =>
    intro _ a ha
    simp only [Ex.acc, List.mem_singleton] at ha
    subst ha; trivial
  | un o x ih => exact ih
  | bin o x y ihx ihy =>
    intro ho a ha
    simp only [Ex.ok, Bool.and_eq_true] at ho
    simp only [Ex.acc, List.mem_append] at ha
    rcases ha with ha | ha
    · exact ihx ho.1 a ha
    · exact ihy ho.2 a ha
  | blendv x y z ihx ihy ihz =>
    intro ho a ha
    simp only [Ex.ok, Bool.and_eq_true] at ho
    simp only [Ex.acc, List.mem_append] at ha
    rcases ha with (ha | ha) | ha
    · exact ihx ho.1.1 a ha
    · exact ihy ho.1.2 a ha
    · exact ihz ho.2 a ha

theorem Stmt.acc_in {D D' : List (ℕ × ℕ)} (s : Stmt) (hc : s.chk len n outs al D = some D') :
    ∀ a ∈ s.acc p, InArgs len n outs p a := by
  cases s with
  | set r e =>
    simp only [Stmt.chk] at hc
    split at hc
    · rename_i he; exact Ex.acc_in e he
    · cases hc
  | st k i e =>
    simp only [Stmt.chk] at hc
    split at hc
    · rename_i he
      simp only [Bool.and_eq_true, decide_eq_true_eq, List.contains_eq_mem] at he
      intro a ha
      simp only [Stmt.acc, List.mem_append, List.mem_singleton] at ha
      rcases ha with ha | ha
      · exact Ex.acc_in e he.1.1.1 a ha
      · subst ha; exact ⟨k, he.1.1.2, rfl, by omega, by omega⟩
    · cases hc
  | st128 k i e =>
    simp only [Stmt.chk] at hc
    split at hc
    · rename_i he
      simp only [Bool.and_eq_true, decide_eq_true_eq, List.contains_eq_mem] at he
      intro a ha
      simp only [Stmt.acc, List.mem_append, List.mem_singleton] at ha
      rcases ha with ha | ha
      · exact Ex.acc_in e he.1.1.1.1 a ha
      · subst ha; exact ⟨k, he.1.1.1.2, rfl, by omega, by omega⟩
    · cases hc

theorem accs_in : ∀ (prog : List Stmt) {D D' : List (ℕ × ℕ)},
    chks len n outs al prog D = some D' →
    ∀ a ∈ prog.flatMap (Stmt.acc p), InArgs len n outs p a := by
  intro prog
  induction prog with
  | nil => intro D D' _ a ha; simp at ha
  | cons s t ih =>
    intro D D' hc a ha
    simp only [chks] at hc
    rcases hs : s.chk len n outs al D with _ | D1
    · rw [hs] at hc; cases hc
    · rw [hs] at hc
      simp only [Option.bind_some] at hc
      simp only [List.flatMap_cons, List.mem_append] at ha
      rcases ha with ha | ha
      · exact Stmt.acc_in s hs a ha
      · exact ih hc a ha

theorem chks_append : ∀ (s t : List Stmt) (D : List (ℕ × ℕ)),
    chks len n outs al (s ++ t) D = (chks len n outs al s D).bind (chks len n outs al t) := by
  intro s
  induction s with
  | nil => intros; rfl
  | cons x s ih =>
    intro t D
    simp only [List.cons_append, chks]
    cases x.chk len n outs al D with
    | none => rfl
    | some D1 => simp only [Option.bind_some, ih]

theorem chks_replicate {s : List Stmt} {D : List (ℕ × ℕ)}
    (h : chks len n outs al s D = some D) :
    ∀ k, chks len n outs al (List.replicate k s).flatten D = some D := by
  intro k
  induction k with
  | zero => rfl
  | succ k ih =>
    rw [List.replicate_succ, List.flatten_cons, chks_append, h]
    exact ih

end

/-! ## Cells outside the accesses -/

/-- The cell of a read or a write. -/
def Access.cellIn (S : ℕ → ℕ → Prop) : Access → Prop
  | .rd o c => S o c
  | .wr o c => S o c
  | .const _ _ => True

theorem Ex.eval_local {p : ℕ → Place} {S : ℕ → ℕ → Prop} {m m' : Mem}
    (h : ∀ o c, S o c → m o c = m' o c) (ρ : Regs) : ∀ e : Ex,
    (∀ a ∈ e.acc p, a.cellIn S) → e.eval (view p m) ρ = e.eval (view p m') ρ := by
  intro e
  induction e with
  | r n => intro _; rfl
  | ld k i => intro ha; exact h _ _ (ha (.rd _ _) (by simp [Ex.acc]))
  | ld128 k i =>
    intro ha
    have := h _ _ (ha (.rd (p k).1 ((p k).2 + i / 2)) (by simp [Ex.acc]))
    simp only [Ex.eval, view, this]
  | lit => intro _; rfl
  | cst => intro _; rfl
  | un o x ih => intro ha; simp only [Ex.eval, ih ha]
  | bin o x y ihx ihy =>
    intro ha
    simp only [Ex.acc, List.mem_append] at ha
    simp only [Ex.eval, ihx fun a h => ha a (Or.inl h), ihy fun a h => ha a (Or.inr h)]
  | blendv x y z ihx ihy ihz =>
    intro ha
    simp only [Ex.acc, List.mem_append] at ha
    simp only [Ex.eval, ihx fun a h => ha a (Or.inl (Or.inl h)),
      ihy fun a h => ha a (Or.inl (Or.inr h)), ihz fun a h => ha a (Or.inr h)]

theorem Mem.set_congr {S : ℕ → ℕ → Prop} {m m' : Mem} (h : ∀ o c, S o c → m o c = m' o c)
    (o c : ℕ) (v : V) : ∀ o' c', S o' c' → m.set o c v o' c' = m'.set o c v o' c' := by
  intro o' c' hs
  simp only [Mem.set, h o' c' hs]

theorem step_local {p : ℕ → Place} {S : ℕ → ℕ → Prop} {m m' : Mem}
    (h : ∀ o c, S o c → m o c = m' o c) (ρ : Regs) (s : Stmt)
    (ha : ∀ a ∈ s.acc p, a.cellIn S) :
    (∀ o c, S o c → (step p (m, ρ) s).1 o c = (step p (m', ρ) s).1 o c) ∧
      (step p (m, ρ) s).2 = (step p (m', ρ) s).2 := by
  cases s with
  | set r e => exact ⟨h, by simp only [step, Ex.eval_local h ρ e ha]⟩
  | st k i e =>
    simp only [Stmt.acc, List.mem_append] at ha
    refine ⟨?_, rfl⟩
    simp only [step, Ex.eval_local h ρ e fun a h => ha a (Or.inl h)]
    exact Mem.set_congr h _ _ _
  | st128 k i e =>
    simp only [Stmt.acc, List.mem_append] at ha
    refine ⟨?_, rfl⟩
    have hw : view p m k (i / 2) = view p m' k (i / 2) :=
      h _ _ (ha (.wr (p k).1 ((p k).2 + i / 2)) (Or.inr (by simp)))
    simp only [step, Ex.eval_local h ρ e fun a h => ha a (Or.inl h), hw]
    exact Mem.set_congr h _ _ _

/-- What a program leaves in a set of cells is a function of these cells when all its accesses
are in the set. -/
theorem run_local {p : ℕ → Place} {S : ℕ → ℕ → Prop} : ∀ (prog : List Stmt) {m m' : Mem}
    {ρ : Regs}, (∀ o c, S o c → m o c = m' o c) →
    (∀ a ∈ prog.flatMap (Stmt.acc p), a.cellIn S) →
    ∀ o c, S o c → (run p prog (m, ρ)).1 o c = (run p prog (m', ρ)).1 o c := by
  intro prog
  induction prog with
  | nil => intro m m' ρ h _; exact h
  | cons s t ih =>
    intro m m' ρ h ha
    simp only [List.flatMap_cons, List.mem_append] at ha
    have h1 := step_local h ρ s fun a h => ha a (Or.inl h)
    have h2 := ih (ρ := (step p (m, ρ) s).2) h1.1 fun a h => ha a (Or.inr h)
    have e : step p (m', ρ) s = ((step p (m', ρ) s).1, (step p (m, ρ) s).2) := by rw [h1.2]
    simp only [run, List.foldl_cons] at h2 ⊢
    rw [e]
    exact h2

/-- A cell that no access writes keeps its value. -/
theorem run_unwritten {p : ℕ → Place} {o c : ℕ} : ∀ (prog : List Stmt) {x : Mem × Regs},
    Access.wr o c ∉ prog.flatMap (Stmt.acc p) → (run p prog x).1 o c = x.1 o c := by
  intro prog
  induction prog with
  | nil => intros; rfl
  | cons s t ih =>
    intro x ha
    simp only [List.flatMap_cons, List.mem_append, not_or] at ha
    have h2 := ih (x := step p x s) ha.2
    simp only [run, List.foldl_cons] at h2 ⊢
    rw [h2]
    have h1 := ha.1
    cases s with
    | set r e => rfl
    | st k i e =>
      simp only [Stmt.acc, List.mem_append, List.mem_singleton, not_or, Access.wr.injEq,
        not_and] at h1
      simp only [step, Mem.set]
      split
      · rw [if_neg (h1.2 (by assumption))]
      · rfl
    | st128 k i e =>
      simp only [Stmt.acc, List.mem_append, List.mem_singleton, not_or, Access.wr.injEq,
        not_and] at h1
      simp only [step, Mem.set]
      split
      · rw [if_neg (h1.2 (by assumption))]
      · rfl

theorem run_append (p : ℕ → Place) (s t : List Stmt) (x : Mem × Regs) :
    run p (s ++ t) x = run p t (run p s x) := by simp only [run, List.foldl_append]

end Verif.Vec
