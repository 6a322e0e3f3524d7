import Verif.Vec.Lemmas
import Lean.Elab.Tactic.Basic

/-!
# From one run without aliasing to all calls -/

namespace Verif.Vec

open Lean Elab Tactic Meta in
/-- Closes an equation by reflexivity and leaves the whole check to the kernel. -/
elab "kernel_refl" : tactic => do
  let g ← getMainGoal
  let t ← instantiateMVars (← g.getType)
  let some (α, a, _) := t.eq? | throwError "not an equation"
  let u ← getLevel α
  g.assign (mkApp2 (mkConst ``Eq.refl [u]) α a)

/-- The value of an element is determined by its cells. -/
def Lay.Loc {E : Type} (L : Lay E) : Prop :=
  ∀ c d : ℕ → V, (∀ i < L.n, c i = d i) → L.get c = L.get d

theorem e1_loc : e1.Loc := fun c d h => by
  simp only [e1] at h ⊢
  simp only [h 0 (by decide), h 1 (by decide), h 2 (by decide)]

theorem e2_loc : e2.Loc := fun c d h => by
  simp only [e2] at h ⊢
  simp only [h 0 (by decide), h 1 (by decide), h 2 (by decide), h 3 (by decide),
    h 4 (by decide)]

theorem e4_loc : e4.Loc := fun c d h => by
  simp only [e4] at h ⊢
  simp only [h 0 (by decide), h 1 (by decide), h 2 (by decide), h 3 (by decide),
    h 4 (by decide), h 5 (by decide), h 6 (by decide), h 7 (by decide), h 8 (by decide),
    h 9 (by decide)]

theorem g1_loc : g1.Loc := fun c d h => by
  simp only [g1] at h ⊢
  simp only [h 0 (by decide), h 1 (by decide), h 2 (by decide), h 3 (by decide)]

theorem g2_loc : g2.Loc := fun c d h => by
  simp only [g2] at h ⊢
  simp only [h 0 (by decide), h 1 (by decide), h 2 (by decide), h 3 (by decide),
    h 4 (by decide), h 5 (by decide), h 6 (by decide), h 7 (by decide)]

theorem g4_loc : g4.Loc := fun c d h => by
  simp only [g4] at h ⊢
  simp only [h 0 (by decide), h 1 (by decide), h 2 (by decide), h 3 (by decide),
    h 4 (by decide), h 5 (by decide), h 6 (by decide), h 7 (by decide), h 8 (by decide),
    h 9 (by decide), h 10 (by decide), h 11 (by decide), h 12 (by decide), h 13 (by decide),
    h 14 (by decide), h 15 (by decide)]

/-- The check passes and leaves no stale cell in the parameters `ks`. -/
def Fn.ok (f : Fn) (al : ℕ → ℕ → Bool) (ks : List ℕ) : Bool :=
  match f.check al [] with
  | some D => D.all fun x => !ks.contains x.1
  | none => false

theorem Fn.ok_check {f : Fn} {al : ℕ → ℕ → Bool} {ks : List ℕ} (h : f.ok al ks = true) :
    ∃ D, f.check al [] = some D ∧ ∀ k ∈ ks, ∀ i, (k, i) ∉ D := by
  unfold Fn.ok at h
  split at h
  · rename_i D hD
    refine ⟨D, hD, fun k hk i hm => ?_⟩
    have := List.all_eq_true.1 h _ hm
    simp [hk] at this
  · cases h

theorem Fn.ok_of_check {f : Fn} {al : ℕ → ℕ → Bool} (ks : List ℕ)
    (h : f.check al [] = some []) : f.ok al ks = true := by
  unfold Fn.ok
  rw [h]
  rfl

theorem check_loop {f : Fn} {al : ℕ → ℕ → Bool} {pre body post : List Stmt} {n : ℕ}
    (hb : f.body = pre ++ (List.replicate n body).flatten ++ post)
    (h1 : chks f.len f.cells.length f.outs al pre [] = some [])
    (h2 : chks f.len f.cells.length f.outs al body [] = some [])
    (h3 : chks f.len f.cells.length f.outs al post [] = some []) : f.check al [] = some [] := by
  unfold Fn.check
  rw [hb, chks_append, chks_append, h1]
  simp only [Option.bind_some]
  rw [chks_replicate h2]
  exact h3

section
variable {E : Type} {L : Lay E} {f : Fn} {al : ℕ → ℕ → Bool} {ks : List ℕ} {l : List Place}
  {m : Mem} {ρ : Regs}

theorem call_at (hok : f.ok al ks = true)
    (hf : Fits f.len f.cells.length f.outs al (args l)) (hL : L.Loc) {k : ℕ} (hk : k ∈ ks)
    (hkn : k < f.cells.length) (hn : L.n = f.len k) :
    L.at (f.call l m ρ) (args l k) = L.get ((run idp f.body (view (args l) m, ρ)).1 k) := by
  obtain ⟨D, hD, hs⟩ := Fn.ok_check hok
  have h := (run_agree (ρ := ρ) hf f.body hD (A := view (args l) m) (m := m)
    (fun _ _ _ _ _ => rfl)).1
  apply hL
  intro i hi
  exact h k hkn i (by omega) (hs k hk i)

theorem call_frame (hok : f.ok al ks = true) {o c : ℕ}
    (ho : ∀ k ∈ f.outs, ¬In (args l k) (f.len k) o c) : f.call l m ρ o c = m o c := by
  obtain ⟨D, hD, -⟩ := Fn.ok_check hok
  exact run_frame f.body hD ho

theorem Apart.symm {P Q : Place} {a b : ℕ} (h : Apart P a Q b) : Apart Q b P a :=
  fun o c hh => h o c ⟨hh.2, hh.1⟩

theorem Same.or {n : ℕ} {P Q : Place} (h : Same n P Q) {b : Bool} (hb : b = true) :
    (P = Q ∧ b = true) ∨ Apart P n Q n := h.imp (fun h => ⟨h, hb⟩) id

/-- All pairs of parameters may be the same. -/
def alAll : ℕ → ℕ → Bool := fun _ _ => true

theorem writes_of {e : E} (hL : L.Loc) (hc : f.cells = [L.n]) (ho : f.outs = [0])
    (hok : f.ok alAll [0] = true)
    (h : ∀ A ρ, L.get ((run idp f.body (A, ρ)).1 0) = e) : Writes L f e := by
  intro m ρ C
  have hl : f.len 0 = L.n := by simp [Fn.len, hc]
  constructor
  · have := call_at (l := [C]) (m := m) (ρ := ρ) hok
      (by intro k hk j hj hne; simp [ho] at hk; simp [hc] at hj; omega) hL (k := 0)
      (by simp) (by simp [hc]) hl.symm
    exact this.trans (h _ _)
  · intro o c hn
    exact call_frame hok (by intro k hk; simp [ho] at hk; subst hk; rw [hl]; exact hn)

theorem updates_of {op : E → E} (hL : L.Loc) (hc : f.cells = [L.n]) (ho : f.outs = [0])
    (hok : f.ok alAll [0] = true)
    (h : ∀ A ρ, L.get ((run idp f.body (A, ρ)).1 0) = op (L.get (A 0))) : Updates L f op := by
  intro m ρ C
  have hl : f.len 0 = L.n := by simp [Fn.len, hc]
  constructor
  · have := call_at (l := [C]) (m := m) (ρ := ρ) hok
      (by intro k hk j hj hne; simp [ho] at hk; simp [hc] at hj; omega) hL (k := 0)
      (by simp) (by simp [hc]) hl.symm
    exact this.trans (h _ _)
  · intro o c hn
    exact call_frame hok (by intro k hk; simp [ho] at hk; subst hk; rw [hl]; exact hn)

theorem maps_of {op : E → E} (hL : L.Loc) (hc : f.cells = [L.n, L.n]) (ho : f.outs = [0])
    (hok : f.ok alAll [0] = true)
    (h : ∀ A ρ, L.get ((run idp f.body (A, ρ)).1 0) = op (L.get (A 1))) : Maps L f op := by
  intro m ρ C A hs
  have hl : f.len 0 = L.n := by simp [Fn.len, hc]
  have hl1 : f.len 1 = L.n := by simp [Fn.len, hc]
  constructor
  · have := call_at (l := [C, A]) (m := m) (ρ := ρ) hok
      (by
        intro k hk j hj hne
        simp [ho] at hk; simp [hc] at hj
        subst hk
        have : j = 1 := by omega
        subst this
        rw [hl, hl1]; exact Same.or hs rfl) hL (k := 0) (by simp) (by simp [hc]) hl.symm
    exact this.trans (h _ _)
  · intro o c hn
    exact call_frame hok (by intro k hk; simp [ho] at hk; subst hk; rw [hl]; exact hn)

theorem combinesR_of {op : Regs → E → E → E} (hL : L.Loc) (hc : f.cells = [L.n, L.n, L.n])
    (ho : f.outs = [0]) (hok : f.ok alAll [0] = true)
    (h : ∀ A ρ, L.get ((run idp f.body (A, ρ)).1 0) = op ρ (L.get (A 1)) (L.get (A 2))) :
    CombinesR L f op := by
  intro m ρ C A B hs ht
  have hl : f.len 0 = L.n := by simp [Fn.len, hc]
  have hl1 : f.len 1 = L.n := by simp [Fn.len, hc]
  have hl2 : f.len 2 = L.n := by simp [Fn.len, hc]
  constructor
  · have := call_at (l := [C, A, B]) (m := m) (ρ := ρ) hok
      (by
        intro k hk j hj hne
        simp [ho] at hk; simp [hc] at hj
        subst hk
        have : j = 1 ∨ j = 2 := by omega
        rcases this with rfl | rfl
        · rw [hl, hl1]; exact Same.or hs rfl
        · rw [hl, hl2]; exact Same.or ht rfl) hL (k := 0) (by simp) (by simp [hc]) hl.symm
    exact this.trans (h _ _)
  · intro o c hn
    exact call_frame hok (by intro k hk; simp [ho] at hk; subst hk; rw [hl]; exact hn)

theorem combines_of {op : E → E → E} (hL : L.Loc) (hc : f.cells = [L.n, L.n, L.n])
    (ho : f.outs = [0]) (hok : f.ok alAll [0] = true)
    (h : ∀ A ρ, L.get ((run idp f.body (A, ρ)).1 0) = op (L.get (A 1)) (L.get (A 2))) :
    Combines L f op := combinesR_of hL hc ho hok h

/-- No two parameters may be the same. -/
def alNone : ℕ → ℕ → Bool := fun _ _ => false

theorem updates2_of {op : E → E → E × E} (hL : L.Loc) (hc : f.cells = [L.n, L.n])
    (ho : f.outs = [0, 1]) (hok : f.ok alNone [0, 1] = true)
    (h : ∀ A ρ, (L.get ((run idp f.body (A, ρ)).1 0), L.get ((run idp f.body (A, ρ)).1 1))
      = op (L.get (A 0)) (L.get (A 1))) : Updates2 L f op := by
  intro m ρ C D hs
  have hl : f.len 0 = L.n := by simp [Fn.len, hc]
  have hl1 : f.len 1 = L.n := by simp [Fn.len, hc]
  have hf : Fits f.len f.cells.length f.outs alNone (args [C, D]) := by
    intro k hk j hj hne
    simp [ho] at hk; simp [hc] at hj
    rcases hk with rfl | rfl
    · have : j = 1 := by omega
      subst this
      rw [hl, hl1]; exact Or.inr hs
    · have : j = 0 := by omega
      subst this
      rw [hl, hl1]; exact Or.inr hs.symm
  constructor
  · have h0 := call_at (l := [C, D]) (m := m) (ρ := ρ) hok hf hL (k := 0) (by simp)
      (by simp [hc]) hl.symm
    have h1 := call_at (l := [C, D]) (m := m) (ρ := ρ) hok hf hL (k := 1) (by simp)
      (by simp [hc]) hl1.symm
    have := h (view (args [C, D]) m) ρ
    rw [← h0, ← h1] at this
    exact this
  · intro o c hn hn'
    exact call_frame hok (by
      intro k hk
      simp [ho] at hk
      rcases hk with rfl | rfl
      · rw [hl]; exact hn
      · rw [hl1]; exact hn')

/-- Two results.  The Boolean arguments say which of C = A, C = B, D = A, D = B are allowed. -/
def al4 (ca cb da db : Bool) : ℕ → ℕ → Bool
  | 0, 2 => ca
  | 0, 3 => cb
  | 1, 2 => da
  | 1, 3 => db
  | _, _ => false

/-- The pointers of a function with two results, with the given aliases allowed. -/
def SomeAlias (n : ℕ) (ca cb da db : Bool) (C D A B : Place) : Prop :=
  Apart C n D n ∧ ((C = A ∧ ca = true) ∨ Apart C n A n) ∧ ((C = B ∧ cb = true) ∨ Apart C n B n) ∧
    ((D = A ∧ da = true) ∨ Apart D n A n) ∧ ((D = B ∧ db = true) ∨ Apart D n B n)

theorem combines2_of {op : E → E → E × E} {ca cb da db : Bool}
    {R : Place → Place → Place → Place → Prop} (hL : L.Loc)
    (hc : f.cells = [L.n, L.n, L.n, L.n]) (ho : f.outs = [0, 1])
    (hok : f.ok (al4 ca cb da db) [0, 1] = true)
    (h : ∀ A ρ, (L.get ((run idp f.body (A, ρ)).1 0), L.get ((run idp f.body (A, ρ)).1 1))
      = op (L.get (A 2)) (L.get (A 3)))
    (hR : ∀ C D A B, R C D A B → SomeAlias L.n ca cb da db C D A B) : Combines2 L R f op := by
  intro m ρ C D A B hs
  have hs := hR C D A B hs
  have hl : f.len 0 = L.n := by simp [Fn.len, hc]
  have hl1 : f.len 1 = L.n := by simp [Fn.len, hc]
  have hl2 : f.len 2 = L.n := by simp [Fn.len, hc]
  have hl3 : f.len 3 = L.n := by simp [Fn.len, hc]
  have hf : Fits f.len f.cells.length f.outs (al4 ca cb da db) (args [C, D, A, B]) := by
    intro k hk j hj hne
    simp [ho] at hk; simp [hc] at hj
    rcases hk with rfl | rfl
    · have : j = 1 ∨ j = 2 ∨ j = 3 := by omega
      rcases this with rfl | rfl | rfl
      · rw [hl, hl1]; exact Or.inr hs.1
      · rw [hl, hl2]; exact hs.2.1
      · rw [hl, hl3]; exact hs.2.2.1
    · have : j = 0 ∨ j = 2 ∨ j = 3 := by omega
      rcases this with rfl | rfl | rfl
      · rw [hl, hl1]; exact Or.inr hs.1.symm
      · rw [hl1, hl2]; exact hs.2.2.2.1
      · rw [hl1, hl3]; exact hs.2.2.2.2
  constructor
  · have h0 := call_at (l := [C, D, A, B]) (m := m) (ρ := ρ) hok hf hL (k := 0) (by simp)
      (by simp [hc]) hl.symm
    have h1 := call_at (l := [C, D, A, B]) (m := m) (ρ := ρ) hok hf hL (k := 1) (by simp)
      (by simp [hc]) hl1.symm
    have := h (view (args [C, D, A, B]) m) ρ
    rw [← h0, ← h1] at this
    exact this
  · intro o c hn hn'
    exact call_frame hok (by
      intro k hk
      simp [ho] at hk
      rcases hk with rfl | rfl
      · rw [hl]; exact hn
      · rw [hl1]; exact hn')

section conv
variable {E' : Type} {L' : Lay E'}

theorem joins2_of {op : E → E → E'} (hL' : L'.Loc) (hc : f.cells = [L'.n, L.n, L.n])
    (ho : f.outs = [0]) (hok : f.ok alNone [0] = true)
    (h : ∀ A ρ, L'.get ((run idp f.body (A, ρ)).1 0) = op (L.get (A 1)) (L.get (A 2))) :
    Joins2 L' L f op := by
  intro m ρ C P₀ P₁ hs
  have hl : f.len 0 = L'.n := by simp [Fn.len, hc]
  constructor
  · have := call_at (l := [C, P₀, P₁]) (m := m) (ρ := ρ) hok
      (by
        intro k hk j hj hne
        simp [ho] at hk; simp [hc] at hj
        subst hk
        have : j = 1 ∨ j = 2 := by omega
        right
        rw [hl]
        rcases this with rfl | rfl
        · rw [show f.len 1 = L.n by simp [Fn.len, hc]]; exact hs _ (by simp [args])
        · rw [show f.len 2 = L.n by simp [Fn.len, hc]]; exact hs _ (by simp [args]))
      hL' (k := 0) (by simp) (by simp [hc]) hl.symm
    exact this.trans (h _ _)
  · intro o c hn
    exact call_frame hok (by intro k hk; simp [ho] at hk; subst hk; rw [hl]; exact hn)

theorem joins4_of {op : E → E → E → E → E'} (hL' : L'.Loc)
    (hc : f.cells = [L'.n, L.n, L.n, L.n, L.n]) (ho : f.outs = [0])
    (hok : f.ok alNone [0] = true)
    (h : ∀ A ρ, L'.get ((run idp f.body (A, ρ)).1 0)
      = op (L.get (A 1)) (L.get (A 2)) (L.get (A 3)) (L.get (A 4))) : Joins4 L' L f op := by
  intro m ρ C P₀ P₁ P₂ P₃ hs
  have hl : f.len 0 = L'.n := by simp [Fn.len, hc]
  constructor
  · have := call_at (l := [C, P₀, P₁, P₂, P₃]) (m := m) (ρ := ρ) hok
      (by
        intro k hk j hj hne
        simp [ho] at hk; simp [hc] at hj
        subst hk
        have : j = 1 ∨ j = 2 ∨ j = 3 ∨ j = 4 := by omega
        right
        rw [hl]
        rcases this with rfl | rfl | rfl | rfl
        · rw [show f.len 1 = L.n by simp [Fn.len, hc]]; exact hs _ (by simp [args])
        · rw [show f.len 2 = L.n by simp [Fn.len, hc]]; exact hs _ (by simp [args])
        · rw [show f.len 3 = L.n by simp [Fn.len, hc]]; exact hs _ (by simp [args])
        · rw [show f.len 4 = L.n by simp [Fn.len, hc]]; exact hs _ (by simp [args]))
      hL' (k := 0) (by simp) (by simp [hc]) hl.symm
    exact this.trans (h _ _)
  · intro o c hn
    exact call_frame hok (by intro k hk; simp [ho] at hk; subst hk; rw [hl]; exact hn)

theorem splits2_of {op : E' → E × E} (hL : L.Loc) (hc : f.cells = [L.n, L.n, L'.n])
    (ho : f.outs = [0, 1]) (hok : f.ok alNone [0, 1] = true)
    (h : ∀ A ρ, (L.get ((run idp f.body (A, ρ)).1 0), L.get ((run idp f.body (A, ρ)).1 1))
      = op (L'.get (A 2))) : Splits2 L' L f op := by
  intro m ρ P₀ P₁ C h01 hs
  have hl : f.len 0 = L.n := by simp [Fn.len, hc]
  have hl1 : f.len 1 = L.n := by simp [Fn.len, hc]
  have hl2 : f.len 2 = L'.n := by simp [Fn.len, hc]
  have hf : Fits f.len f.cells.length f.outs alNone (args [P₀, P₁, C]) := by
    intro k hk j hj hne
    simp [ho] at hk; simp [hc] at hj
    right
    rcases hk with rfl | rfl
    · have : j = 1 ∨ j = 2 := by omega
      rcases this with rfl | rfl
      · rw [hl, hl1]; exact h01
      · rw [hl, hl2]; exact hs _ (by simp [args])
    · have : j = 0 ∨ j = 2 := by omega
      rcases this with rfl | rfl
      · rw [hl, hl1]; exact h01.symm
      · rw [hl1, hl2]; exact hs _ (by simp [args])
  constructor
  · have h0 := call_at (l := [P₀, P₁, C]) (m := m) (ρ := ρ) hok hf hL (k := 0) (by simp)
      (by simp [hc]) hl.symm
    have h1 := call_at (l := [P₀, P₁, C]) (m := m) (ρ := ρ) hok hf hL (k := 1) (by simp)
      (by simp [hc]) hl1.symm
    have := h (view (args [P₀, P₁, C]) m) ρ
    rw [← h0, ← h1] at this
    exact this
  · intro o c hn hn'
    exact call_frame hok (by
      intro k hk
      simp [ho] at hk
      rcases hk with rfl | rfl
      · rw [hl]; exact hn
      · rw [hl1]; exact hn')

theorem splits4_of {op : E' → E × E × E × E} (hL : L.Loc)
    (hc : f.cells = [L.n, L.n, L.n, L.n, L'.n])
    (ho : f.outs = [0, 1, 2, 3]) (hok : f.ok alNone [0, 1, 2, 3] = true)
    (h : ∀ A ρ, (L.get ((run idp f.body (A, ρ)).1 0), L.get ((run idp f.body (A, ρ)).1 1),
      L.get ((run idp f.body (A, ρ)).1 2), L.get ((run idp f.body (A, ρ)).1 3))
      = op (L'.get (A 4))) : Splits4 L' L f op := by
  intro m ρ P₀ P₁ P₂ P₃ C hp hs
  have hl : ∀ k < 4, f.len k = L.n := by
    intro k hk
    have : k = 0 ∨ k = 1 ∨ k = 2 ∨ k = 3 := by omega
    rcases this with rfl | rfl | rfl | rfl <;> simp [Fn.len, hc]
  have hl4 : f.len 4 = L'.n := by simp [Fn.len, hc]
  simp only [List.pairwise_cons, List.mem_cons, List.not_mem_nil, or_false, forall_eq_or_imp,
    forall_eq, List.Pairwise.nil, and_true, IsEmpty.forall_iff, implies_true] at hp
  obtain ⟨⟨h01, h02, h03⟩, ⟨h12, h13⟩, h23⟩ := hp
  have hf : Fits f.len f.cells.length f.outs alNone (args [P₀, P₁, P₂, P₃, C]) := by
    intro k hk j hj hne
    simp [ho] at hk; simp [hc] at hj
    right
    by_cases hj4 : j = 4
    · subst hj4
      rw [hl k (by omega), hl4]
      rcases hk with rfl | rfl | rfl | rfl <;> exact hs _ (by simp [args])
    · rw [hl k (by omega), hl j (by omega)]
      have : j = 0 ∨ j = 1 ∨ j = 2 ∨ j = 3 := by omega
      rcases hk with rfl | rfl | rfl | rfl <;> rcases this with rfl | rfl | rfl | rfl <;>
        first
        | exact absurd rfl hne
        | exact h01 | exact h02 | exact h03 | exact h12 | exact h13 | exact h23
        | exact h01.symm | exact h02.symm | exact h03.symm | exact h12.symm | exact h13.symm
        | exact h23.symm
  have hcall : ∀ k < 4, L.at (f.call [P₀, P₁, P₂, P₃, C] m ρ) (args [P₀, P₁, P₂, P₃, C] k)
      = L.get ((run idp f.body (view (args [P₀, P₁, P₂, P₃, C]) m, ρ)).1 k) := by
    intro k hk
    refine call_at hok hf hL (k := k) ?_ (by simp [hc]; omega) (hl k hk).symm
    simp; omega
  constructor
  · have := h (view (args [P₀, P₁, P₂, P₃, C]) m) ρ
    rw [← hcall 0 (by omega), ← hcall 1 (by omega), ← hcall 2 (by omega),
      ← hcall 3 (by omega)] at this
    exact this
  · intro o c hn
    exact call_frame hok (by
      intro k hk
      simp [ho] at hk
      rw [hl k (by omega)]
      rcases hk with rfl | rfl | rfl | rfl <;> exact hn _ (by simp [args]))

end conv

end

end Verif.Vec
