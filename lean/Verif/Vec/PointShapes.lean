import Verif.Vec.PointSpec
import Verif.Vec.Shapes

/-!
# From one run of a point formula without aliasing to all calls -/

namespace Verif.Vec

theorem Lay.Loc.shift {E : Type} {L : Lay E} (h : L.Loc) {c d : ℕ → V} {k n : ℕ}
    (hcd : ∀ i < n, c i = d i) (hk : k + L.n ≤ n) :
    (L.get fun i => c (k + i)) = L.get fun i => d (k + i) :=
  h _ _ fun i hi => hcd (k + i) (by omega)

theorem Lay.Loc.here {E : Type} {L : Lay E} (h : L.Loc) {c d : ℕ → V} {n : ℕ}
    (hcd : ∀ i < n, c i = d i) (hk : L.n ≤ n) : L.get c = L.get d :=
  h _ _ fun i hi => hcd i (by omega)

/-- The view of a layout at a cell of a parameter. -/
def lk {E : Type} (L : Lay E) (x : Mem × Regs) (k o : ℕ) : E := L.get fun i => x.1 k (o + i)

theorem lk_zero {E : Type} (L : Lay E) (x : Mem × Regs) (k : ℕ) : lk L x k 0 = L.get (x.1 k) := by
  simp only [lk, Nat.zero_add]

theorem p2w_loc : p2w.Loc := fun c d h => by
  simp only [p2w] at h ⊢
  rw [e2_loc.here h (by decide), e2_loc.shift h (k := 5) (by decide)]

theorem pre2w_loc : pre2w.Loc := fun c d h => by
  simp only [pre2w] at h ⊢
  rw [e2_loc.here h (by decide), e2_loc.shift h (k := 5) (by decide)]

theorem p2way_loc : p2way.Loc := fun c d h => by
  simp only [p2way] at h ⊢
  rw [e2_loc.here h (by decide), e2_loc.shift h (k := 5) (by decide),
    e2_loc.shift h (k := 10) (by decide), e2_loc.shift h (k := 15) (by decide)]

theorem p4way_loc : p4way.Loc := fun c d h => by
  simp only [p4way] at h ⊢
  rw [e4_loc.here h (by decide), e4_loc.shift h (k := 10) (by decide),
    e4_loc.shift h (k := 20) (by decide), e4_loc.shift h (k := 30) (by decide)]

theorem pre4way_loc : pre4way.Loc := fun c d h => by
  simp only [pre4way] at h ⊢
  rw [e4_loc.here h (by decide), e4_loc.shift h (k := 10) (by decide),
    e4_loc.shift h (k := 20) (by decide)]

theorem tab4w_loc : tab4w.Loc := fun c d h => by
  simp only [tab4w] at h ⊢
  apply List.map_congr_left
  intro j hj
  rw [List.mem_range] at hj
  exact e4_loc.shift h (by simp only [e4]; omega)

theorem q2w_loc : q2w.Loc := fun c d h => by
  simp only [q2w] at h ⊢
  rw [g2_loc.here h (by decide), g2_loc.shift h (k := 8) (by decide)]

theorem qpre2w_loc : qpre2w.Loc := fun c d h => by
  simp only [qpre2w] at h ⊢
  rw [g2_loc.here h (by decide), g2_loc.shift h (k := 8) (by decide)]

theorem q4way_loc : q4way.Loc := fun c d h => by
  simp only [q4way] at h ⊢
  rw [g4_loc.here h (by decide), g4_loc.shift h (k := 16) (by decide),
    g4_loc.shift h (k := 32) (by decide), g4_loc.shift h (k := 48) (by decide)]

theorem qpre4way_loc : qpre4way.Loc := fun c d h => by
  simp only [qpre4way] at h ⊢
  rw [g4_loc.here h (by decide), g4_loc.shift h (k := 16) (by decide),
    g4_loc.shift h (k := 32) (by decide)]

theorem qtab4w_loc : qtab4w.Loc := fun c d h => by
  simp only [qtab4w] at h ⊢
  apply List.map_congr_left
  intro j hj
  rw [List.mem_range] at hj
  exact g4_loc.shift h (by simp only [g4]; omega)

section
variable {E E' : Type} {L : Lay E} {L' : Lay E'} {f : Fn} {n : ℕ}

theorem updatesF_of {op : E → E} (hL : L.Loc) (hc : f.cells = [L.n, n]) (ho : f.outs = [0, 1])
    (hok : f.ok alNone [0] = true)
    (h : ∀ A ρ, L.get ((run idp f.body (A, ρ)).1 0) = op (L.get (A 0))) :
    UpdatesF L n f op := by
  intro m ρ Q S hs
  have hl : f.len 0 = L.n := by simp [Fn.len, hc]
  have hl1 : f.len 1 = n := by simp [Fn.len, hc]
  have hf : Fits f.len f.cells.length f.outs alNone (args [Q, S]) := by
    intro k hk j hj hne
    simp [ho] at hk; simp [hc] at hj
    rcases hk with rfl | rfl
    · have : j = 1 := by omega
      subst this
      rw [hl, hl1]; exact Or.inr hs
    · have : j = 0 := by omega
      subst this
      rw [hl, hl1]; exact Or.inr hs.symm
  constructor
  · have h0 := call_at (l := [Q, S]) (m := m) (ρ := ρ) hok hf hL (k := 0) (by simp)
      (by simp [hc]) hl.symm
    exact h0.trans (h _ _)
  · intro o c hn hn'
    exact call_frame hok (by
      intro k hk
      simp [ho] at hk
      rcases hk with rfl | rfl
      · rw [hl]; exact hn
      · rw [hl1]; exact hn')

theorem at_unchanged (hL : L.Loc) {m m' : Mem} {P : Place}
    (h : ∀ o c, In P L.n o c → m' o c = m o c) : L.at m' P = L.at m P := by
  apply hL
  intro i hi
  exact h _ _ ⟨rfl, by omega, by omega⟩

theorem fits3 {al : ℕ → ℕ → Bool} {Q P S : Place} (hc : f.cells = [L.n, L'.n, n])
    (ho : f.outs = [0, 2])
    (hqp : (Q = P ∧ al 0 1 = true) ∨ Apart Q L.n P L'.n) (hqs : Apart Q L.n S n)
    (hps : Apart P L'.n S n) : Fits f.len f.cells.length f.outs al (args [Q, P, S]) := by
  have hl : f.len 0 = L.n := by simp [Fn.len, hc]
  have hl1 : f.len 1 = L'.n := by simp [Fn.len, hc]
  have hl2 : f.len 2 = n := by simp [Fn.len, hc]
  intro k hk j hj hne
  simp [ho] at hk; simp [hc] at hj
  rcases hk with rfl | rfl
  · have : j = 1 ∨ j = 2 := by omega
    rcases this with rfl | rfl
    · rw [hl, hl1]; exact hqp
    · rw [hl, hl2]; exact Or.inr hqs
  · have : j = 0 ∨ j = 1 := by omega
    rcases this with rfl | rfl
    · rw [hl, hl2]; exact Or.inr hqs.symm
    · rw [hl1, hl2]; exact Or.inr hps.symm

theorem frame3 {al : ℕ → ℕ → Bool} {ks : List ℕ} {Q P S : Place} {m : Mem} {ρ : Regs}
    (hc : f.cells = [L.n, L'.n, n]) (ho : f.outs = [0, 2]) (hok : f.ok al ks = true)
    (o c : ℕ) (hn : ¬In Q L.n o c) (hn' : ¬In S n o c) :
    f.call [Q, P, S] m ρ o c = m o c := by
  have hl : f.len 0 = L.n := by simp [Fn.len, hc]
  have hl2 : f.len 2 = n := by simp [Fn.len, hc]
  exact call_frame hok (by
    intro k hk
    simp [ho] at hk
    rcases hk with rfl | rfl
    · rw [hl]; exact hn
    · rw [hl2]; exact hn')

theorem actsF_of {op : E → E' → E} (hL : L.Loc) (hL' : L'.Loc) (hc : f.cells = [L.n, L'.n, n])
    (ho : f.outs = [0, 2]) (hok : f.ok alNone [0] = true)
    (h : ∀ A ρ, L.get ((run idp f.body (A, ρ)).1 0) = op (L.get (A 0)) (L'.get (A 1))) :
    ActsF L L' n f op := by
  intro m ρ Q P S hqp hqs hps
  have hl : f.len 0 = L.n := by simp [Fn.len, hc]
  refine ⟨?_, ?_, frame3 hc ho hok⟩
  · have h0 := call_at (l := [Q, P, S]) (m := m) (ρ := ρ) hok
      (fits3 hc ho (Or.inr hqp) hqs hps) hL (k := 0) (by simp) (by simp [hc]) hl.symm
    exact h0.trans (h _ _)
  · exact at_unchanged hL' fun o c hi =>
      frame3 hc ho hok o c (fun hq => hqp o c ⟨hq, hi⟩) (fun hs => hps o c ⟨hi, hs⟩)

/-- The first two parameters may be the same. -/
def al01 : ℕ → ℕ → Bool
  | 0, 1 => true
  | 1, 0 => true
  | _, _ => false

theorem addsF_of {op : E → E → E} (hL : L.Loc) (hc : f.cells = [L.n, L.n, n])
    (ho : f.outs = [0, 2]) (hok : f.ok al01 [0] = true)
    (h : ∀ A ρ, L.get ((run idp f.body (A, ρ)).1 0) = op (L.get (A 0)) (L.get (A 1))) :
    AddsF L n f op := by
  intro m ρ Q P S hqp hqs hps
  have hl : f.len 0 = L.n := by simp [Fn.len, hc]
  refine ⟨?_, ?_, frame3 hc ho hok⟩
  · have h0 := call_at (l := [Q, P, S]) (m := m) (ρ := ρ) hok
      (fits3 hc ho (Same.or hqp rfl) hqs hps) hL (k := 0) (by simp) (by simp [hc]) hl.symm
    exact h0.trans (h _ _)
  · intro hne
    have hap := hqp.resolve_left hne
    exact at_unchanged hL fun o c hi =>
      frame3 hc ho hok o c (fun hq => hap o c ⟨hq, hi⟩) (fun hs => hps o c ⟨hi, hs⟩)

theorem fits3' {Q P S : Place} (hc : f.cells = [L.n, L'.n, n]) (ho : f.outs = [0, 1, 2])
    (hqp : Apart Q L.n P L'.n) (hqs : Apart Q L.n S n)
    (hps : Apart P L'.n S n) : Fits f.len f.cells.length f.outs alNone (args [Q, P, S]) := by
  have hl : f.len 0 = L.n := by simp [Fn.len, hc]
  have hl1 : f.len 1 = L'.n := by simp [Fn.len, hc]
  have hl2 : f.len 2 = n := by simp [Fn.len, hc]
  intro k hk j hj hne
  simp [ho] at hk; simp [hc] at hj
  right
  rcases hk with rfl | rfl | rfl
  · have : j = 1 ∨ j = 2 := by omega
    rcases this with rfl | rfl
    · rw [hl, hl1]; exact hqp
    · rw [hl, hl2]; exact hqs
  · have : j = 0 ∨ j = 2 := by omega
    rcases this with rfl | rfl
    · rw [hl, hl1]; exact hqp.symm
    · rw [hl1, hl2]; exact hps
  · have : j = 0 ∨ j = 1 := by omega
    rcases this with rfl | rfl
    · rw [hl, hl2]; exact hqs.symm
    · rw [hl1, hl2]; exact hps.symm

theorem frame3' {ks : List ℕ} {Q P S : Place} {m : Mem} {ρ : Regs}
    (hc : f.cells = [L.n, L'.n, n]) (ho : f.outs = [0, 1, 2]) (hok : f.ok alNone ks = true)
    (o c : ℕ) (hn : ¬In Q L.n o c) (hp : ¬In P L'.n o c) (hn' : ¬In S n o c) :
    f.call [Q, P, S] m ρ o c = m o c := by
  have hl : f.len 0 = L.n := by simp [Fn.len, hc]
  have hl1 : f.len 1 = L'.n := by simp [Fn.len, hc]
  have hl2 : f.len 2 = n := by simp [Fn.len, hc]
  exact call_frame hok (by
    intro k hk
    simp [ho] at hk
    rcases hk with rfl | rfl | rfl
    · rw [hl]; exact hn
    · rw [hl1]; exact hp
    · rw [hl2]; exact hn')

theorem spoilsF_of {op : E → E → E} (hL : L.Loc) (hc : f.cells = [L.n, L.n, n])
    (ho : f.outs = [0, 1, 2]) (hok : f.ok alNone [0] = true)
    (h : ∀ A ρ, L.get ((run idp f.body (A, ρ)).1 0) = op (L.get (A 0)) (L.get (A 1))) :
    SpoilsF L n f op := by
  intro m ρ Q P S hqp hqs hps
  have hl : f.len 0 = L.n := by simp [Fn.len, hc]
  refine ⟨?_, frame3' hc ho hok⟩
  have h0 := call_at (l := [Q, P, S]) (m := m) (ρ := ρ) hok
    (fits3' hc ho hqp hqs hps) hL (k := 0) (by simp) (by simp [hc]) hl.symm
  exact h0.trans (h _ _)

theorem fillsF_of {tab : E' → E} {op : E' → E'} (hL : L.Loc) (hL' : L'.Loc)
    (hc : f.cells = [L.n, L'.n, n]) (ho : f.outs = [0, 1, 2]) (hok : f.ok alNone [0, 1] = true)
    (h : ∀ A ρ, L.get ((run idp f.body (A, ρ)).1 0) = tab (L'.get (A 1)) ∧
      L'.get ((run idp f.body (A, ρ)).1 1) = op (L'.get (A 1))) :
    FillsF L L' n f tab op := by
  intro m ρ Q P S hqp hqs hps
  have hl : f.len 0 = L.n := by simp [Fn.len, hc]
  have hl1 : f.len 1 = L'.n := by simp [Fn.len, hc]
  refine ⟨?_, ?_, frame3' hc ho hok⟩
  · have h0 := call_at (l := [Q, P, S]) (m := m) (ρ := ρ) hok
      (fits3' hc ho hqp hqs hps) hL (k := 0) (by simp) (by simp [hc]) hl.symm
    exact h0.trans (h _ _).1
  · have h0 := call_at (l := [Q, P, S]) (m := m) (ρ := ρ) hok
      (fits3' hc ho hqp hqs hps) hL' (k := 1) (by simp) (by simp [hc]) hl1.symm
    exact h0.trans (h _ _).2

end

end Verif.Vec
