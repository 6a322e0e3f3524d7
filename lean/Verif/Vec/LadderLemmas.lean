import Verif.Vec.Ladder
import Verif.Vec.Compose
import Verif.Vec.AccessLemmas
import Verif.X25519.Avx2

/-!
# Lemmas about the vector ladders on memory -/

namespace Verif.Vec

/-! ## Registers that a program does not assign -/

/-- The statement assigns only registers below 1000. -/
def Stmt.low : Stmt → Bool
  | .set n _ => decide (n < 1000)
  | .st _ _ _ => true
  | .st128 _ _ _ => true

theorem run_low {p : ℕ → Place} {n : ℕ} (hn : 1000 ≤ n) : ∀ (prog : List Stmt) {x : Mem × Regs},
    prog.all Stmt.low = true → (run p prog x).2 n = x.2 n := by
  intro prog
  induction prog with
  | nil => intro x _; rfl
  | cons s t ih =>
    intro x h
    simp only [List.all_cons, Bool.and_eq_true] at h
    have := ih (x := step p x s) h.2
    simp only [run, List.foldl_cons] at this ⊢
    rw [this]
    cases s with
    | set k e =>
      have hk : k < 1000 := by simpa [Stmt.low] using h.1
      simp only [step, Regs.set]
      rw [if_neg (by omega)]
    | st k i e => rfl
    | st128 k i e => rfl

theorem low_sub (σ : List Arg) (d : ℕ) (s : Stmt) (h : s.low = true) : (s.sub σ d).low = true := by
  cases s with
  | set n e => exact h
  | st k i e => simp only [Stmt.sub]; split <;> rfl
  | st128 k i e => simp only [Stmt.sub]; split <;> rfl

theorem run_at_low {f : Fn} (h : f.body.all Stmt.low = true) {σ : List Arg} {d n : ℕ}
    {x : Mem × Regs} (hn : decide (1000 ≤ n) = true) : (run idp (f.at σ d) x).2 n = x.2 n := by
  apply run_low (of_decide_eq_true hn)
  rw [Fn.at, List.all_map]
  rw [List.all_eq_true] at h ⊢
  exact fun s hs => low_sub σ d s (h s hs)

/-! ## Four parameters: key, X2X3, Z2Z3 and the local array -/

section
variable {E : Type} {L : Lay E} {f : Fn} {a n : ℕ} {K X Z S : Place}

theorem fits4 (hc : f.cells = [a, L.n, L.n, n]) (ho : f.outs = [1, 2, 3])
    (hkx : Apart K a X L.n) (hkz : Apart K a Z L.n) (hks : Apart K a S n)
    (hxz : Apart X L.n Z L.n) (hxs : Apart X L.n S n) (hzs : Apart Z L.n S n) :
    Fits f.len f.cells.length f.outs alNone (args [K, X, Z, S]) := by
  intro k hk j hj hne
  simp [ho] at hk; simp [hc] at hj
  have hl0 : f.len 0 = a := by simp [Fn.len, hc]
  have hl : f.len 1 = L.n := by simp [Fn.len, hc]
  have hl2 : f.len 2 = L.n := by simp [Fn.len, hc]
  have hl3 : f.len 3 = n := by simp [Fn.len, hc]
  right
  rcases hk with rfl | rfl | rfl
  · have : j = 0 ∨ j = 2 ∨ j = 3 := by omega
    rcases this with rfl | rfl | rfl
    · rw [hl, hl0]; exact hkx.symm
    · rw [hl, hl2]; exact hxz
    · rw [hl, hl3]; exact hxs
  · have : j = 0 ∨ j = 1 ∨ j = 3 := by omega
    rcases this with rfl | rfl | rfl
    · rw [hl2, hl0]; exact hkz.symm
    · rw [hl2, hl]; exact hxz.symm
    · rw [hl2, hl3]; exact hzs
  · have : j = 0 ∨ j = 1 ∨ j = 2 := by omega
    rcases this with rfl | rfl | rfl
    · rw [hl3, hl0]; exact hks.symm
    · rw [hl3, hl]; exact hxs.symm
    · rw [hl3, hl2]; exact hzs.symm

theorem call4 (hL : L.Loc) (hc : f.cells = [a, L.n, L.n, n]) (ho : f.outs = [1, 2, 3])
    (hok : f.ok alNone [1, 2] = true)
    (hkx : Apart K a X L.n) (hkz : Apart K a Z L.n) (hks : Apart K a S n)
    (hxz : Apart X L.n Z L.n) (hxs : Apart X L.n S n) (hzs : Apart Z L.n S n)
    (m : Mem) (ρ : Regs) :
    L.at (f.call [K, X, Z, S] m ρ) X
        = L.get ((run idp f.body (view (args [K, X, Z, S]) m, ρ)).1 1) ∧
      L.at (f.call [K, X, Z, S] m ρ) Z
        = L.get ((run idp f.body (view (args [K, X, Z, S]) m, ρ)).1 2) ∧
      ∀ o c, ¬In X L.n o c → ¬In Z L.n o c → ¬In S n o c →
        f.call [K, X, Z, S] m ρ o c = m o c := by
  have hl : f.len 1 = L.n := by simp [Fn.len, hc]
  have hl2 : f.len 2 = L.n := by simp [Fn.len, hc]
  have hl3 : f.len 3 = n := by simp [Fn.len, hc]
  have hf := fits4 hc ho hkx hkz hks hxz hxs hzs
  refine ⟨call_at (l := [K, X, Z, S]) hok hf hL (k := 1) (by simp) (by simp [hc]) hl.symm,
    call_at (l := [K, X, Z, S]) hok hf hL (k := 2) (by simp) (by simp [hc]) hl2.symm, ?_⟩
  intro o c h1 h2 h3
  exact call_frame hok (by
    intro k hk
    simp [ho] at hk
    rcases hk with rfl | rfl | rfl
    · rw [hl]; exact h1
    · rw [hl2]; exact h2
    · rw [hl3]; exact h3)

end

/-! ## The loop -/

theorem chks_inner {len : ℕ → ℕ} {n : ℕ} {outs : List ℕ} {al : ℕ → ℕ → Bool}
    {st : ℕ → ℕ → List Stmt} {i : ℕ} (h : ∀ j, chks len n outs al (st i j) [] = some []) :
    ∀ k, chks len n outs al (innerStmts st i k) [] = some [] := by
  intro k
  induction k with
  | zero => rfl
  | succ k ih =>
    rw [innerStmts, chks_append, h]
    exact ih

theorem chks_app {len : ℕ → ℕ} {n : ℕ} {outs : List ℕ} {al : ℕ → ℕ → Bool} {s t : List Stmt}
    (hs : chks len n outs al s [] = some []) (ht : chks len n outs al t [] = some []) :
    chks len n outs al (s ++ t) [] = some [] := by
  rw [chks_append, hs, Option.bind_some, ht]

theorem alignOk_app {al : List ℕ} {s t : List Stmt} (hs : alignOk al s = true)
    (ht : alignOk al t = true) : alignOk al (s ++ t) = true := by
  rw [alignOk_append, hs, ht]
  rfl

theorem alignOk_inner {al : List ℕ} {st : ℕ → ℕ → List Stmt} {i : ℕ}
    (h : ∀ j, alignOk al (st i j) = true) : ∀ k, alignOk al (innerStmts st i k) = true := by
  intro k
  induction k with
  | zero => rfl
  | succ k ih => rw [innerStmts, alignOk_append, h, ih]; rfl

/-- The bit `j` of the word `i` of the key in memory. -/
def memBit (x : Mem × Regs) (i j : ℕ) : W := (wordOf (x.1 0 (i / 4)) (i % 4) >>> j) &&& 1#64

theorem bit_mem (i j : ℕ) (x : Mem × Regs) : (run idp (bitStmts i j) x).1 = x.1 := rfl

theorem bit_lk {E : Type} (L : Lay E) (i j : ℕ) (x : Mem × Regs) (k o : ℕ) :
    lk L (run idp (bitStmts i j) x) k o = lk L x k o := by
  simp only [lk, bit_mem]

theorem bit_prev (i j : ℕ) (x : Mem × Regs) :
    (run idp (bitStmts i j) x).2 1002 = allLanes (memBit x i j) := by
  have h : (run idp (bitStmts i j) x).2 1002
    = AND (SHR (allLanes (wordOf (view idp x.1 0 (i / 4)) (i % 4))) j) (lit4 1 1 1 1) := by
    kernel_refl
  rw [h]
  simp only [view, idp, Nat.zero_add, memBit]
  rfl

theorem bit_swap (i j : ℕ) (x : Mem × Regs) {prev : W}
    (hp : x.2 1002 = allLanes prev) :
    (run idp (bitStmts i j) x).2 1001 = allLanes (memBit x i j ^^^ prev) := by
  have h : (run idp (bitStmts i j) x).2 1001
    = XOR (AND (SHR (allLanes (wordOf (view idp x.1 0 (i / 4)) (i % 4))) j) (lit4 1 1 1 1))
      (x.2 1002) := by
    kernel_refl
  rw [h, hp]
  simp only [view, idp, Nat.zero_add, memBit]
  rfl

theorem mask_regs (x : Mem × Regs) :
    let v := XOR (lit4 0x0000000100000000 0x0000000300000002 0x0000000500000004
      0x0000000700000006) (Un.sem (.set1 2) (x.2 1001))
    (run idp maskStmts x).2 1003 = v ∧ (run idp maskStmts x).2 1004 = PERM64 v 0x4E := by
  simp (decide := true) only [maskStmts, run, List.foldl, step, Regs.set, if_true, if_false,
    Ex.eval, Bin.sem, Un.sem, and_self]

theorem mask_sem (swap : W) :
    XOR (lit4 0x0000000100000000 0x0000000300000002 0x0000000500000004 0x0000000700000006)
      (Un.sem (.set1 2) (allLanes swap)) = (X25519.Avx2.masks swap).1 := by
  have c : lit4 0x0000000100000000 0x0000000300000002 0x0000000500000004 0x0000000700000006
      = SET32 7 6 5 4 3 2 1 0 := by decide
  rw [c, X25519.Avx2.masks, Un.sem]
  simp only [allLanes, SET32]

theorem mask0 (x : Mem × Regs) {swap : W} (h : x.2 1001 = allLanes swap) :
    (run idp maskStmts x).2 1003 = (X25519.Avx2.masks swap).1 := by
  rw [(mask_regs x).1, h, mask_sem]

theorem mask1 (x : Mem × Regs) {swap : W} (h : x.2 1001 = allLanes swap) :
    (run idp maskStmts x).2 1004 = (X25519.Avx2.masks swap).2 := by
  rw [(mask_regs x).2, h, mask_sem]
  simp only [X25519.Avx2.masks]

theorem mask_lk {E : Type} (L : Lay E) (x : Mem × Regs) (k o : ℕ) :
    lk L (run idp maskStmts x) k o = lk L x k o := by
  have h : (run idp maskStmts x).1 = x.1 := rfl
  simp only [lk, h]

theorem mask_low (x : Mem × Regs) : (run idp maskStmts x).2 1002 = x.2 1002 := by
  simp (decide := true) only [maskStmts, run, List.foldl, step, Regs.set, if_false]

/-- The key keeps its value. -/
theorem key_kept {len : ℕ → ℕ} {n : ℕ} {al : ℕ → ℕ → Bool} {prog : List Stmt}
    {D : List (ℕ × ℕ)} (h : chks len n [1, 2, 3] al prog [] = some D) (x : Mem × Regs) (c : ℕ) :
    (run idp prog x).1 0 c = x.1 0 c :=
  run_frame (m := x.1) (ρ := x.2) prog h (by
    intro k hk hin
    have : 0 = k := hin.1
    subst this
    simp at hk)

end Verif.Vec
