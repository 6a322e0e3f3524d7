import Verif.X86.Prog
import Verif.X86.SpecLemmas

/-!
# Reasoning about programs with assembly

Helper lemmas: the rules of `wp`, and programs whose branches and addresses depend
only on the `int` variables (`Stmt.Public`): their log is a function of these.
-/

namespace Verif.X86

section rules
variable (n : ℕ) (Q : St → Prop) (s : St)

theorem wp_skip : wp n .skip Q s ↔ Q s := by rw [wp]
theorem wp_seq (a b : Stmt) : wp n (.seq a b) Q s ↔ wp n a (wp n b Q) s := by rw [wp]
theorem wp_ints (f : Vars → Ints) : wp n (.ints f) Q s ↔ Q { s with vars.ints := f s.vars } := by
  rw [wp]
theorem wp_words (f : Vars → Words) : wp n (.words f) Q s ↔ Q { s with vars.words := f s.vars } := by
  rw [wp]
theorem wp_byte (d : Loc) (k : Vars → ℕ) (f : Byte → Byte) : wp n (.byte d k f) Q s ↔
    Q (s.upd (s.mem.set d (k s.vars / 8) (setByte (s.mem.get d (k s.vars / 8)) (k s.vars % 8) f))
        [acc false d (k s.vars / 8), acc true d (k s.vars / 8)]) := by rw [wp]
theorem wp_store (d : Loc) (k : Vars → ℕ) (v : Vars → W) : wp n (.store d k v) Q s ↔
    Q (s.upd (s.mem.set d (k s.vars) (v s.vars)) [acc true d (k s.vars)]) := by rw [wp]

end rules

theorem wp_mono {n : ℕ} {st : Stmt} {Q R : St → Prop} (h : ∀ s, Q s → R s) {s : St}
    (hw : wp n st Q s) : wp n st R s := by
  induction n, st, Q, s using wp.induct generalizing R with
  | case1 n Q s => simp only [wp] at hw ⊢; exact h _ hw
  | case2 n a b Q s ih1 ih2 =>
    simp only [wp] at hw ⊢
    exact ih2 (fun s' hs' => ih1 s' h hs') hw
  | case3 n B c a b arg Q s => simp only [wp] at hw ⊢; exact fun z => h _ (hw z)
  | case4 n f Q s => simp only [wp] at hw ⊢; exact h _ hw
  | case5 n f Q s => simp only [wp] at hw ⊢; exact h _ hw
  | case6 n p k f Q s => simp only [wp] at hw ⊢; exact h _ hw
  | case7 n d k v Q s => simp only [wp] at hw ⊢; exact h _ hw
  | case8 n d k a Q s => simp only [wp] at hw ⊢; exact h _ hw
  | case9 n d k f Q s => simp only [wp] at hw ⊢; exact h _ hw
  | case10 n c Q s => simp only [wp] at hw ⊢; exact h _ hw
  | case11 c b Q s => simp only [wp] at hw
  | case12 n cond body Q s hc ih1 ih2 =>
    simp only [wp, hc, if_true] at hw ⊢
    exact ih2 (fun s' hs' => ih1 s' h hs') hw
  | case13 n cond body Q s hc =>
    simp only [wp, hc] at hw ⊢
    exact h _ hw

theorem wp_succ {n : ℕ} {st : Stmt} {Q : St → Prop} {s : St} (hw : wp n st Q s) :
    wp (n + 1) st Q s := by
  induction n, st, Q, s using wp.induct with
  | case2 n a b Q s ih1 ih2 =>
    simp only [wp] at hw ⊢
    exact wp_mono (fun s' hs' => ih1 s' hs') (ih2 hw)
  | case11 c b Q s => simp only [wp] at hw
  | case12 n cond body Q s hc ih1 ih2 =>
    rw [wp] at hw ⊢
    rw [if_pos hc] at hw ⊢
    exact wp_mono (fun s' hs' => ih1 s' hs') (ih2 hw)
  | case13 n cond body Q s hc =>
    rw [wp] at hw ⊢
    rw [if_neg hc] at hw ⊢
    exact hw
  | _ => simp only [wp] at hw ⊢; exact hw

theorem wp_le {n k : ℕ} (hk : n ≤ k) {st : Stmt} {Q : St → Prop} {s : St} (hw : wp n st Q s) :
    wp k st Q s := by
  induction hk with
  | refl => exact hw
  | step _ ih => exact wp_succ ih

/-- A loop with a bound on its iterations. -/
theorem wp_while {n : ℕ} {cond : Vars → Bool} {body : Stmt} {Q : St → Prop} (I : ℕ → St → Prop)
    (h0 : ∀ s, I 0 s → cond s.vars = false ∧ Q { s with log := s.log ++ [.branch false] })
    (hs : ∀ k s, I (k + 1) s → cond s.vars = true ∧
      wp n body (I k) { s with log := s.log ++ [.branch true] })
    (k : ℕ) (s : St) (h : I k s) : wp (n + k + 1) (.while cond body) Q s := by
  induction k generalizing s with
  | zero =>
    obtain ⟨h1, h2⟩ := h0 s h
    rw [wp, if_neg (by simp [h1])]
    exact h2
  | succ k ih =>
    obtain ⟨h1, h2⟩ := hs k s h
    rw [wp, if_pos (by simp [h1])]
    exact wp_mono (fun s' hs' => ih s' hs') (wp_le (by omega) h2)

/-- The effect of a statement on memory and variables, whatever registers hold. -/
def Does (n : ℕ) (st : Stmt) (F : Mem × Vars → Mem × Vars) : Prop :=
  ∀ (Q : St → Prop) (s : St), (∀ l, Q ⟨(F (s.mem, s.vars)).1, (F (s.mem, s.vars)).2, l⟩) →
    wp n st Q s

theorem Does.skip (n : ℕ) : Does n .skip id := by
  intro Q s h
  rw [wp]
  exact h s.log

theorem Does.seq {n : ℕ} {a b : Stmt} {F G : Mem × Vars → Mem × Vars} (ha : Does n a F)
    (hb : Does n b G) : Does n (.seq a b) (fun x => G (F x)) := by
  intro Q s h
  rw [wp]
  exact ha _ _ fun l => hb _ _ fun l' => h l'

theorem Does.le {n k : ℕ} (hk : n ≤ k) {st : Stmt} {F : Mem × Vars → Mem × Vars}
    (h : Does n st F) : Does k st F :=
  fun Q s hq => wp_le hk (h Q s hq)

/-- There is always an execution. -/
theorem wp_false {n : ℕ} {st : Stmt} {s : St} (h : wp n st (fun _ => False) s) : False := by
  have key : ∀ (n : ℕ) (st : Stmt) (Q : St → Prop) (s : St), wp n st Q s → ∃ t, Q t := by
    intro n st Q s hw
    induction n, st, Q, s using wp.induct with
    | case2 n a b Q s ih1 ih2 =>
      simp only [wp] at hw
      obtain ⟨t, ht⟩ := ih2 hw
      exact ih1 t ht
    | case3 n B c a b arg Q s =>
      simp only [wp] at hw
      exact ⟨_, hw ⟨fun _ => 0#64, false, false, false, false, 0#64⟩⟩
    | case11 c b Q s => simp only [wp] at hw
    | case12 n cond body Q s hc ih1 ih2 =>
      rw [wp, if_pos hc] at hw
      obtain ⟨t, ht⟩ := ih2 hw
      exact ih1 t ht
    | case13 n cond body Q s hc =>
      rw [wp, if_neg hc] at hw
      exact ⟨_, hw⟩
    | _ => simp only [wp] at hw; exact ⟨_, hw⟩
  obtain ⟨_, ht⟩ := key n st _ s h
  exact ht

/-- The log of a program whose branches and addresses depend on `int` variables only: it can be
computed from these. -/
def leak : ℕ → Stmt → Ints → List Leak × Ints
  | _, .skip, v => ([], v)
  | n, .seq a b, v => ((leak n a v).1 ++ (leak n b (leak n a v).2).1, (leak n b (leak n a v).2).2)
  | _, .asm B c a b _, v => ((B.accesses (ptrs c a b)).map Leak.access, v)
  | _, .ints f, v => ([], f ⟨v, ⟨0, 0, 0⟩⟩)
  | _, .words _, v => ([], v)
  | _, .load p k _, v => ([acc false p (k ⟨v, ⟨0, 0, 0⟩⟩)], v)
  | _, .store d k _, v => ([acc true d (k ⟨v, ⟨0, 0, 0⟩⟩)], v)
  | _, .move d k a, v => ([acc false a (k ⟨v, ⟨0, 0, 0⟩⟩), acc true d (k ⟨v, ⟨0, 0, 0⟩⟩)], v)
  | _, .byte d k _, v =>
    ([acc false d (k ⟨v, ⟨0, 0, 0⟩⟩ / 8), acc true d (k ⟨v, ⟨0, 0, 0⟩⟩ / 8)], v)
  | _, .modp c, v => ([acc false c 0, acc false c 1, acc false c 2, acc false c 3] ++
         [acc true c 0, acc true c 1, acc true c 2, acc true c 3], v)
  | 0, .while _ _, v => ([], v)
  | n + 1, .while cond body, v =>
    if cond ⟨v, ⟨0, 0, 0⟩⟩ then
      (Leak.branch true :: (leak n body v).1 ++ (leak n (.while cond body) (leak n body v).2).1,
        (leak n (.while cond body) (leak n body v).2).2)
    else ([.branch false], v)
termination_by n st => (n, sizeOf st)

/-- A function of the variables that does not look at the `uint64_t` variables. -/
def Pub {α : Type} (f : Vars → α) : Prop := ∀ i w w', f ⟨i, w⟩ = f ⟨i, w'⟩

/-- Branches, addresses and `int` variables depend on `int` variables only. -/
def Stmt.Public : Stmt → Prop
  | .skip => True
  | .seq a b => a.Public ∧ b.Public
  | .asm .. => True
  | .ints f => Pub f
  | .words _ => True
  | .load _ k _ => Pub k
  | .store _ k _ => Pub k
  | .move _ k _ => Pub k
  | .byte _ k _ => Pub k
  | .modp _ => True
  | .while cond body => Pub cond ∧ body.Public

theorem wp_leak {n : ℕ} {st : Stmt} {Q : St → Prop} {s : St} (hp : st.Public)
    (hw : wp n st Q s) : wp n st (fun s' => Q s' ∧ s'.log = s.log ++ (leak n st s.vars.ints).1 ∧
      s'.vars.ints = (leak n st s.vars.ints).2) s := by
  induction n, st, Q, s using wp.induct with
  | case1 n Q s => simp only [wp, leak, List.append_nil, and_self, and_true] at hw ⊢; exact hw
  | case2 n a b Q s ih1 ih2 =>
    simp only [wp] at hw ⊢
    refine wp_mono (fun s' hs' => ?_) (ih2 hp.1 hw)
    obtain ⟨h1, h2, h3⟩ := hs'
    refine wp_mono (fun t ht => ?_) (ih1 s' hp.2 h1)
    obtain ⟨t1, t2, t3⟩ := ht
    refine ⟨t1, ?_, ?_⟩
    · rw [t2, h2, h3, leak, List.append_assoc]
    · rw [t3, h3, leak]
  | case3 n B c a b arg Q s =>
    simp only [wp, leak] at hw ⊢
    exact fun z => ⟨hw z, rfl, rfl⟩
  | case4 n f Q s =>
    simp only [wp, leak, List.append_nil] at hw ⊢
    exact ⟨hw, trivial, hp _ _ _⟩
  | case5 n f Q s =>
    simp only [wp, leak, List.append_nil] at hw ⊢
    exact ⟨hw, trivial, trivial⟩
  | case6 n p k f Q s =>
    simp only [wp, leak] at hw ⊢
    exact ⟨hw, by rw [show k s.vars = k ⟨s.vars.ints, ⟨0, 0, 0⟩⟩ from hp _ _ _], trivial⟩
  | case7 n d k v Q s =>
    simp only [wp, leak] at hw ⊢
    exact ⟨hw, by rw [show k s.vars = k ⟨s.vars.ints, ⟨0, 0, 0⟩⟩ from hp _ _ _]; rfl, rfl⟩
  | case8 n d k a Q s =>
    simp only [wp, leak] at hw ⊢
    exact ⟨hw, by rw [show k s.vars = k ⟨s.vars.ints, ⟨0, 0, 0⟩⟩ from hp _ _ _]; rfl, rfl⟩
  | case9 n d k f Q s =>
    simp only [wp, leak] at hw ⊢
    exact ⟨hw, by rw [show k s.vars = k ⟨s.vars.ints, ⟨0, 0, 0⟩⟩ from hp _ _ _]; rfl, rfl⟩
  | case10 n c Q s =>
    simp only [wp, leak] at hw ⊢
    exact ⟨hw, rfl, rfl⟩
  | case11 c b Q s => simp only [wp] at hw
  | case12 n cond body Q s hc ih1 ih2 =>
    have hc' : cond ⟨s.vars.ints, ⟨0, 0, 0⟩⟩ = true := by
      rw [← hc]; exact hp.1 _ _ _
    rw [wp, if_pos hc] at hw ⊢
    rw [leak, if_pos hc']
    refine wp_mono (fun s' hs' => ?_) (ih2 hp.2 hw)
    obtain ⟨h1, h2, h3⟩ := hs'
    refine wp_mono (fun t ht => ?_) (ih1 s' hp h1)
    obtain ⟨t1, t2, t3⟩ := ht
    refine ⟨t1, ?_, ?_⟩
    · rw [t2, h2, h3]
      simp
    · rw [t3, h3]
  | case13 n cond body Q s hc =>
    have hc' : ¬cond ⟨s.vars.ints, ⟨0, 0, 0⟩⟩ = true := by
      intro h
      exact hc (by rw [← h]; exact hp.1 _ _ _)
    rw [wp, if_neg hc] at hw ⊢
    rw [leak, if_neg hc']
    exact ⟨hw, rfl, rfl⟩

end Verif.X86
