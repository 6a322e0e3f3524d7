import Verif.Vec.RecodeLemmas
import Verif.Vec.SharedMemLemmas
import Verif.Vec.LinkQuery
import Verif.Vec.LinkPoints25519
import Verif.Vec.LinkPoints448

/-!
# Lemmas about the multiplication by the base point on memory -/

namespace Verif.Vec

theorem apart_cells {o a b n k : ℕ} (h : a + n ≤ b ∨ b + k ≤ a) : Apart (o, a) n (o, b) k := by
  rintro o' c ⟨h1, h2⟩
  have := h1.2; have := h2.2
  simp only at *
  omega

theorem at_apart {E : Type} {L : Lay E} (hL : L.Loc) {m m' : Mem} {C P : Place} {n : ℕ}
    (h : ∀ o c, ¬In C n o c → m' o c = m o c) (ha : Apart C n P L.n) : L.at m' P = L.at m P :=
  at_unchanged hL fun o c hi => h o c fun hc => ha o c ⟨hc, hi⟩

/-! ## The calls of the queries -/

section
variable {E : Type} {L : Lay E} {f : Fn} {op : V → V → E}

/-- Three parameters: the result and two cells. -/
theorem query_of (hL : L.Loc) (hc : f.cells = [L.n, 1, 1]) (ho : f.outs = [0])
    (hok : f.ok alNone [0] = true)
    (h : ∀ x : Mem × Regs, L.get ((run idp f.body x).1 0) = op (x.1 1 0) (x.1 2 0))
    (m : Mem) (ρ : Regs) {P S K : Place} (hS : Apart P L.n S 1) (hK : Apart P L.n K 1) :
    L.at (f.call [P, S, K] m ρ) P = op (m S.1 S.2) (m K.1 K.2) ∧
      ∀ o c, ¬In P L.n o c → f.call [P, S, K] m ρ o c = m o c := by
  have hl : f.len 0 = L.n := by simp [Fn.len, hc]
  have hl1 : f.len 1 = 1 := by simp [Fn.len, hc]
  have hl2 : f.len 2 = 1 := by simp [Fn.len, hc]
  have hf : Fits f.len f.cells.length f.outs alNone (args [P, S, K]) := by
    intro k hk j hj hne
    simp [ho] at hk; simp [hc] at hj
    subst hk
    have : j = 1 ∨ j = 2 := by omega
    right
    rcases this with rfl | rfl
    · rw [hl, hl1]; exact hS
    · rw [hl, hl2]; exact hK
  constructor
  · have := call_at (l := [P, S, K]) (m := m) (ρ := ρ) hok hf hL (k := 0) (by simp)
      (by simp [hc]) hl.symm
    exact this.trans (h _)
  · intro o c hn
    exact call_frame hok (by intro k hk; simp [ho] at hk; subst hk; rw [hl]; exact hn)

end

theorem query25519_call (idx : ℕ) (m : Mem) (ρ : Regs) {P S K : Place} (hS : Apart P 30 S 1)
    (hK : Apart P 30 K 1) :
    pre4way.at ((query25519 idx).call [P, S, K] m ρ) P
        = Ed25519.query_table (m S.1 S.2) (m K.1 K.2) idx ∧
      ∀ o c, ¬In P 30 o c → (query25519 idx).call [P, S, K] m ρ o c = m o c :=
  query_of (L := pre4way) (op := fun s k => Ed25519.query_table s k idx) pre4way_loc rfl rfl
    (t_query_ok idx) (t_query idx) m ρ hS hK

theorem query448_call (idx : ℕ) (m : Mem) (ρ : Regs) {P S K : Place} (hS : Apart P 48 S 1)
    (hK : Apart P 48 K 1) :
    qpre4way.at ((query448 idx).call [P, S, K] m ρ) P
        = Ed448.query_table (m S.1 S.2) (m K.1 K.2) idx ∧
      ∀ o c, ¬In P 48 o c → (query448 idx).call [P, S, K] m ρ o c = m o c :=
  query_of (L := qpre4way) (op := fun s k => Ed448.query_table s k idx) qpre4way_loc rfl rfl
    (u_query_ok idx) (u_query idx) m ρ hS hK

/-! ## Ed25519 -/

theorem p4way_at (m : Mem) (o : ℕ) : p4way.at m (o, 0)
    = ⟨e4.at m (o, 0), e4.at m (o, 10), e4.at m (o, 20), e4.at m (o, 30)⟩ := by
  simp only [Lay.at, p4way, Nat.zero_add]

theorem pre4way_at (m : Mem) (o : ℕ) : pre4way.at m (o, 0)
    = ⟨e4.at m (o, 0), e4.at m (o, 10), e4.at m (o, 20)⟩ := by
  simp only [Lay.at, pre4way, Nat.zero_add]

theorem mulLoop25519_spec (ρ : ℕ → Regs) (b : ℕ) (r : List Byte) (m : Mem)
    (hQ : p4way.at m (b, 0) = Ed25519.mulLoop r 0)
    (hK : ∀ i < 16, m (b + 2) i = Ed25519.load4 (Ed25519.list_digits r) i)
    (hS : ∀ i < 16, m (b + 3) i = Ed25519.load4 (Ed25519.list_signs r) i) : ∀ n < 16,
    let m' := mulLoop25519 ρ b n m
    p4way.at m' (b, 0) = Ed25519.mulLoop r n ∧
      ∀ o c, o ≠ b → o ≠ b + 1 → o ≠ b + 5 → m' o c = m o c := by
  intro n
  induction n with
  | zero => intro _; exact ⟨hQ, fun _ _ _ _ _ => rfl⟩
  | succ n ih =>
    intro hn
    obtain ⟨h1, h2⟩ := ih (by omega)
    obtain ⟨q1, q2⟩ := query25519_call (n + 1) (mulLoop25519 ρ b n m) (ρ (2 * n))
      (P := (b + 1, 0)) (S := (b + 3, n + 1)) (K := (b + 2, n + 1))
      (apart_obj (by simp)) (apart_obj (by simp))
    obtain ⟨a1, -, a3⟩ := p_mixadd_4way
      ((query25519 (n + 1)).call [(b + 1, 0), (b + 3, n + 1), (b + 2, n + 1)]
        (mulLoop25519 ρ b n m) (ρ (2 * n))) (ρ (2 * n + 1)) (b, 0) (b + 1, 0) (b + 5, 0)
      (apart_obj (by simp)) (apart_obj (by simp)) (apart_obj (by simp))
    refine ⟨?_, fun o c o1 o2 o3 => ?_⟩
    · rw [mulLoop25519, a1, q1, h2 _ _ (by omega) (by omega) (by omega),
        h2 _ _ (by omega) (by omega) (by omega), hK _ (by omega), hS _ (by omega),
        at_obj p4way_loc (fun c => q2 _ _ (not_in_obj (by simp))), h1]
      rfl
    · rw [mulLoop25519, a3 o c (not_in_obj o1) (not_in_obj o3), q2 o c (not_in_obj o2), h2 o c o1 o2 o3]

theorem first25519_spec (ρ : ℕ → Regs) (b : ℕ) (m : Mem)
    (hh : e4.at m (b + 4, 0) = Ed25519.one_half) :
    let m' := first25519 ρ b m
    p4way.at m' (b, 0) = Ed25519.mulInit (Ed25519.query_table (m (b + 3) 0) (m (b + 2) 0) 0) ∧
      ∀ o c, o ≠ b → o ≠ b + 1 → m' o c = m o c := by
  unfold first25519
  extract_lets m1 m2 m3 m4 m5 m6 m7 m'
  obtain ⟨z1, z2⟩ := e4_zero m (ρ 0) (b, 20)
  have s2 : ∀ o c, o ≠ b → m2 o c = m o c := fun o c h => by
    rw [show m2 o c = m1 o c from set_obj h]; exact z2 o c (not_in_obj h)
  have s1 : e4.at m2 (b, 20) = { (Fp25519.R4.zero : Fp25519.Elt10 V) with r0 := LIT 2 } := by
    rw [← z1]; simp [m2, Lay.at, e4, Mem.set]; exact ⟨rfl, rfl, rfl, rfl, rfl, rfl, rfl, rfl, rfl⟩
  obtain ⟨q1, q2⟩ := query25519_call 0 m2 (ρ 1) (P := (b + 1, 0)) (S := (b + 3, 0))
    (K := (b + 2, 0)) (apart_obj (by simp)) (apart_obj (by simp))
  rw [s2 _ _ (by simp), s2 _ _ (by simp)] at q1
  change pre4way.at m3 (b + 1, 0) = _ at q1
  have q3 : ∀ o c, o ≠ b → o ≠ b + 1 → m3 o c = m o c := fun o c h h' => by
    rw [show m3 o c = m2 o c from q2 o c (not_in_obj h'), s2 o c h]
  have q4 : e4.at m3 (b, 20) = { (Fp25519.R4.zero : Fp25519.Elt10 V) with r0 := LIT 2 } := by
    rw [← s1]; exact at_obj e4_loc fun c => q2 _ _ (not_in_obj (by simp))
  rw [pre4way_at] at q1
  clear_value m3
  obtain ⟨a1, a2⟩ := e4_sub m3 (ρ 2) (b, 0) (b + 1, 0) (b + 1, 10)
    (Or.inr (apart_obj (by simp))) (Or.inr (apart_obj (by simp)))
  change e4.at m4 _ = _ at a1
  obtain ⟨b1, b2⟩ := e4_add m4 (ρ 3) (b, 10) (b + 1, 0) (b + 1, 10)
    (Or.inr (apart_obj (by simp))) (Or.inr (apart_obj (by simp)))
  change e4.at m5 _ = _ at b1
  rw [at_apart e4_loc a2 (apart_obj (by simp)), at_apart e4_loc a2 (apart_obj (by simp))] at b1
  have a4 : e4.at m5 (b, 0) = _ := (at_apart e4_loc b2 (apart_cells (by simp [e4]))).trans a1
  obtain ⟨c1, c2⟩ := e4_new_compressfast2 m5 (ρ 4) (b, 0) (b, 10) (apart_cells (by simp [e4]))
  rw [a4, b1] at c1
  change (e4.at m6 _, e4.at m6 _) = _ at c1
  obtain ⟨d1, d2⟩ := e4_mul m6 (ρ 5) (b, 30) (b, 0) (b, 10)
    (Or.inr (apart_cells (by simp [e4]))) (Or.inr (apart_cells (by simp [e4])))
  change e4.at m7 _ = _ at d1
  obtain ⟨f1, f2⟩ := e4_mul m7 (ρ 6) (b, 30) (b, 30) (b + 4, 0) (Or.inl rfl)
    (Or.inr (apart_obj (by simp)))
  change e4.at m' _ = _ at f1
  have k6 : ∀ o c, o ≠ b → m7 o c = m3 o c := fun o c h => by
    rw [show m7 o c = m6 o c from d2 o c (not_in_obj h),
      show m6 o c = m5 o c from c2 o c (not_in_obj h) (not_in_obj h),
      show m5 o c = m4 o c from b2 o c (not_in_obj h),
      show m4 o c = m3 o c from a2 o c (not_in_obj h)]
  have hh' : e4.at m7 (b + 4, 0) = Ed25519.one_half := by
    rw [← hh]
    exact at_obj e4_loc fun c => (k6 _ _ (by simp)).trans (q3 _ _ (by simp) (by simp))
  have hx : e4.at m' (b, 0) = e4.at m6 (b, 0) :=
    (at_apart e4_loc f2 (apart_cells (by simp [e4]))).trans
      (at_apart e4_loc d2 (apart_cells (by simp [e4])))
  have hy : e4.at m' (b, 10) = e4.at m6 (b, 10) :=
    (at_apart e4_loc f2 (apart_cells (by simp [e4]))).trans
      (at_apart e4_loc d2 (apart_cells (by simp [e4])))
  have hz : e4.at m' (b, 20) = e4.at m3 (b, 20) :=
    ((at_apart e4_loc f2 (apart_cells (by simp [e4]))).trans
      (at_apart e4_loc d2 (apart_cells (by simp [e4])))).trans
      ((at_unchanged e4_loc fun o c hi => c2 o c
        (fun h => apart_cells (by simp [e4]) o c ⟨h, hi⟩)
        (fun h => apart_cells (by simp [e4]) o c ⟨h, hi⟩)).trans
      ((at_apart e4_loc b2 (apart_cells (by simp [e4]))).trans
        (at_apart e4_loc a2 (apart_cells (by simp [e4])))))
  refine ⟨?_, fun o c h h' => ?_⟩
  · rw [p4way_at, hx, hy, hz, f1, hh', d1, q4]
    rw [← q1, Ed25519.mulInit]
    simp only [← c1]
  · rw [show m' o c = m7 o c from f2 o c (not_in_obj h), k6 o c h, q3 o c h h']

theorem load4_words {m : Mem} {o i : ℕ} {f : ℕ → W}
    (h : ∀ j < 4, wordAt m o (4 * i + j) = f (4 * i + j)) : m o i = Ed25519.load4 f i := by
  rw [cell_words m o i]
  simp only [Ed25519.load4]
  rw [h 1 (by decide), h 2 (by decide), h 3 (by decide), show 4 * i = 4 * i + 0 from rfl,
    h 0 (by decide)]

theorem wordAt_congr {m m' : Mem} {o : ℕ} (h : ∀ c, m' o c = m o c) (n : ℕ) :
    wordAt m' o n = wordAt m o n := by simp only [wordAt, h]

theorem mult25519_spec (ρ : ℕ → Regs) (b : ℕ) (rB : Place) (hb : rB.1 < b) (r : List Byte)
    (m : Mem) :
    let m' := mult25519 ρ b rB r m
    p2w.at m' rB = Ed25519.point_multiplication r ∧
      (∀ o c, o < b → ¬In rB 10 o c → m' o c = m o c) ∧
      ∀ n < 64, wordAt m' (b + 2) n = Ed25519.list_digits r n ∧
        wordAt m' (b + 3) n = Ed25519.list_signs r n := by
  unfold mult25519
  extract_lets m1 m2 m3 m4 m'
  obtain ⟨r1, r2⟩ := recode25519_spec (show b + 3 ≠ b + 2 by simp) r m1
  change (∀ n < 64, wordAt m2 _ n = _ ∧ wordAt m2 _ n = _) at r1
  change ∀ o c, _ → _ → m2 o c = _ at r2
  have hh : e4.at m2 (b + 4, 0) = Ed25519.one_half := by
    rw [at_obj (m := m1) e4_loc fun c => r2 _ c (by simp) (by simp)]
    simp [m1, Lay.at, e4, putHalf25519, Ed25519.one_half]
  have h1 : ∀ o c, o ≠ b + 4 → m1 o c = m o c := fun o c h => by simp [m1, putHalf25519, h]
  clear_value m1 m2
  obtain ⟨f1, f2⟩ := first25519_spec ρ b m2 hh
  change p4way.at m3 _ = _ at f1
  change ∀ o c, _ → _ → m3 o c = _ at f2
  have hK : ∀ i < 16, m3 (b + 2) i = Ed25519.load4 (Ed25519.list_digits r) i := fun i hi => by
    rw [f2 _ _ (by simp) (by simp)]
    exact load4_words fun j hj => (r1 _ (by omega)).1
  have hS : ∀ i < 16, m3 (b + 3) i = Ed25519.load4 (Ed25519.list_signs r) i := fun i hi => by
    rw [f2 _ _ (by simp) (by simp)]
    exact load4_words fun j hj => (r1 _ (by omega)).2
  rw [← f2 (b + 3) 0 (by simp) (by simp), ← f2 (b + 2) 0 (by simp) (by simp),
    hK 0 (by decide), hS 0 (by decide)] at f1
  clear_value m3
  obtain ⟨l1, l2⟩ := mulLoop25519_spec (fun n => ρ (n + 7)) b r m3 f1 hK hS 15 (by decide)
  change p4way.at m4 _ = _ at l1
  change ∀ o c, _ → _ → _ → m4 o c = _ at l2
  clear_value m4
  obtain ⟨j1, -, j3⟩ := p_join_points m4 (ρ 37) rB (b, 0) (b + 6, 0)
    (apart_obj (by simp; omega)) (apart_obj (by simp; omega)) (apart_obj (by simp))
  rw [l1] at j1
  change ∀ o c, _ → _ → m' o c = _ at j3
  have k : ∀ o c, o ≠ rB.1 → o ≠ b → o ≠ b + 1 → o ≠ b + 5 → o ≠ b + 6 → m' o c = m2 o c :=
    fun o c h h1 h2 h3 h4 => by
      rw [j3 o c (not_in_obj h) (not_in_obj h4), l2 o c h1 h2 h3, f2 o c h1 h2]
  refine ⟨j1, fun o c ho hr => ?_, fun n hn => ?_⟩
  · rw [j3 o c hr (not_in_obj (by simp; omega)), l2 o c (by omega) (by omega) (by omega),
      f2 o c (by omega) (by omega), r2 o c (by omega) (by omega), h1 o c (by omega)]
  · rw [wordAt_congr fun c => k _ c (by omega) (by simp) (by simp) (by simp) (by simp),
      wordAt_congr fun c => k _ c (by omega) (by simp) (by simp) (by simp) (by simp)]
    exact r1 n hn

/-! ## Ed448 -/

theorem q4way_at (m : Mem) (o : ℕ) : q4way.at m (o, 0)
    = ⟨g4.at m (o, 0), g4.at m (o, 16), g4.at m (o, 32), g4.at m (o, 48)⟩ := by
  simp only [Lay.at, q4way, Nat.zero_add]

theorem qpre4way_at (m : Mem) (o : ℕ) : qpre4way.at m (o, 0)
    = ⟨g4.at m (o, 0), g4.at m (o, 16), g4.at m (o, 32)⟩ := by
  simp only [Lay.at, qpre4way, Nat.zero_add]

theorem mulLoop448_spec (ρ : ℕ → Regs) (b : ℕ) (r : List Byte) (m : Mem)
    (hQ : q4way.at m (b, 0) = Ed448.mulLoop r 0)
    (hK : ∀ i < 28, m (b + 2) i = Ed25519.load4 (Ed448.list_digits r) i)
    (hS : ∀ i < 28, m (b + 3) i = Ed25519.load4 (Ed448.list_signs r) i) : ∀ n < 28,
    let m' := mulLoop448 ρ b n m
    q4way.at m' (b, 0) = Ed448.mulLoop r n ∧
      ∀ o c, o ≠ b → o ≠ b + 1 → o ≠ b + 5 → m' o c = m o c := by
  intro n
  induction n with
  | zero => intro _; exact ⟨hQ, fun _ _ _ _ _ => rfl⟩
  | succ n ih =>
    intro hn
    obtain ⟨h1, h2⟩ := ih (by omega)
    obtain ⟨q1, q2⟩ := query448_call (n + 1) (mulLoop448 ρ b n m) (ρ (2 * n))
      (P := (b + 1, 0)) (S := (b + 3, n + 1)) (K := (b + 2, n + 1))
      (apart_obj (by simp)) (apart_obj (by simp))
    obtain ⟨a1, -, a3⟩ := q_mixadd_4way
      ((query448 (n + 1)).call [(b + 1, 0), (b + 3, n + 1), (b + 2, n + 1)]
        (mulLoop448 ρ b n m) (ρ (2 * n))) (ρ (2 * n + 1)) (b, 0) (b + 1, 0) (b + 5, 0)
      (apart_obj (by simp)) (apart_obj (by simp)) (apart_obj (by simp))
    refine ⟨?_, fun o c o1 o2 o3 => ?_⟩
    · rw [mulLoop448, a1, q1, h2 _ _ (by omega) (by omega) (by omega),
        h2 _ _ (by omega) (by omega) (by omega), hK _ (by omega), hS _ (by omega),
        at_obj q4way_loc (fun c => q2 _ _ (not_in_obj (by simp))), h1]
      rfl
    · rw [mulLoop448, a3 o c (not_in_obj o1) (not_in_obj o3), q2 o c (not_in_obj o2), h2 o c o1 o2 o3]

theorem first448_spec (ρ : ℕ → Regs) (b : ℕ) (m : Mem)
    (hh : g4.at m (b + 4, 0) = Ed448.one_half) :
    let m' := first448 ρ b m
    q4way.at m' (b, 0) = Ed448.mulInit (Ed448.query_table (m (b + 3) 0) (m (b + 2) 0) 0) ∧
      ∀ o c, o ≠ b → o ≠ b + 1 → m' o c = m o c := by
  unfold first448
  extract_lets m1 m2 m3 m4 m5 m5a m6 m7 m'
  obtain ⟨z1, z2⟩ := g4_zero m (ρ 0) (b, 32)
  have s2 : ∀ o c, o ≠ b → m2 o c = m o c := fun o c h => by
    rw [show m2 o c = m1 o c from set_obj h]; exact z2 o c (not_in_obj h)
  have s1 : g4.at m2 (b, 32) = Ed448.two16 := by
    have z := z1
    simp only [Lay.at, g4, Nat.add_zero, Nat.reduceAdd, Fp448.Elt16.mk.injEq] at z
    simp only [m2, Lay.at, g4, Mem.set, Ed448.two16, Nat.add_zero, Nat.reduceAdd, Nat.reduceEqDiff,
      if_false, if_true, Fp448.Elt16.mk.injEq, true_and]
    exact z.2
  obtain ⟨q1, q2⟩ := query448_call 0 m2 (ρ 1) (P := (b + 1, 0)) (S := (b + 3, 0))
    (K := (b + 2, 0)) (apart_obj (by simp)) (apart_obj (by simp))
  rw [s2 _ _ (by simp), s2 _ _ (by simp)] at q1
  change qpre4way.at m3 (b + 1, 0) = _ at q1
  have q3 : ∀ o c, o ≠ b → o ≠ b + 1 → m3 o c = m o c := fun o c h h' => by
    rw [show m3 o c = m2 o c from q2 o c (not_in_obj h'), s2 o c h]
  have q4 : g4.at m3 (b, 32) = Ed448.two16 := by
    rw [← s1]; exact at_obj g4_loc fun c => q2 _ _ (not_in_obj (by simp))
  rw [qpre4way_at] at q1
  clear_value m3
  obtain ⟨a1, a2⟩ := g4_sub m3 (ρ 2) (b, 0) (b + 1, 0) (b + 1, 16)
    (Or.inr (apart_obj (by simp))) (Or.inr (apart_obj (by simp)))
  change g4.at m4 _ = _ at a1
  obtain ⟨b1, b2⟩ := g4_add m4 (ρ 3) (b, 16) (b + 1, 0) (b + 1, 16)
    (Or.inr (apart_obj (by simp))) (Or.inr (apart_obj (by simp)))
  change g4.at m5 _ = _ at b1
  rw [at_apart g4_loc a2 (apart_obj (by simp)), at_apart g4_loc a2 (apart_obj (by simp))] at b1
  have a4 : g4.at m5 (b, 0) = _ := (at_apart g4_loc b2 (apart_cells (by simp [g4]))).trans a1
  obtain ⟨c1, c2⟩ := g4_compress m5 (ρ 4) (b, 0)
  rw [a4] at c1
  obtain ⟨e1, e2⟩ := g4_compress m5a (ρ 5) (b, 16)
  rw [show g4.at m5a (b, 16) = _ from at_apart g4_loc c2 (apart_cells (by simp [g4])), b1] at e1
  change g4.at m6 _ = _ at e1
  have c3 : g4.at m6 (b, 0) = _ := (at_apart g4_loc e2 (apart_cells (by simp [g4]))).trans c1
  obtain ⟨d1, d2⟩ := g4_mul m6 (ρ 6) (b, 48) (b, 0) (b, 16)
    (Or.inr (apart_cells (by simp [g4]))) (Or.inr (apart_cells (by simp [g4])))
  change g4.at m7 _ = _ at d1
  obtain ⟨f1, f2⟩ := g4_mul m7 (ρ 7) (b, 48) (b, 48) (b + 4, 0) (Or.inl rfl)
    (Or.inr (apart_obj (by simp)))
  change g4.at m' _ = _ at f1
  have k6 : ∀ o c, o ≠ b → m7 o c = m3 o c := fun o c h => by
    rw [show m7 o c = m6 o c from d2 o c (not_in_obj h),
      show m6 o c = m5a o c from e2 o c (not_in_obj h),
      show m5a o c = m5 o c from c2 o c (not_in_obj h),
      show m5 o c = m4 o c from b2 o c (not_in_obj h),
      show m4 o c = m3 o c from a2 o c (not_in_obj h)]
  have hh' : g4.at m7 (b + 4, 0) = Ed448.one_half := by
    rw [← hh]
    exact at_obj g4_loc fun c => (k6 _ _ (by simp)).trans (q3 _ _ (by simp) (by simp))
  have hx : g4.at m' (b, 0) = g4.at m6 (b, 0) :=
    (at_apart g4_loc f2 (apart_cells (by simp [g4]))).trans
      (at_apart g4_loc d2 (apart_cells (by simp [g4])))
  have hy : g4.at m' (b, 16) = g4.at m6 (b, 16) :=
    (at_apart g4_loc f2 (apart_cells (by simp [g4]))).trans
      (at_apart g4_loc d2 (apart_cells (by simp [g4])))
  have hz : g4.at m' (b, 32) = g4.at m3 (b, 32) :=
    ((at_apart g4_loc f2 (apart_cells (by simp [g4]))).trans
      (at_apart g4_loc d2 (apart_cells (by simp [g4])))).trans
      (((at_apart g4_loc e2 (apart_cells (by simp [g4]))).trans
        (at_apart g4_loc c2 (apart_cells (by simp [g4])))).trans
      ((at_apart g4_loc b2 (apart_cells (by simp [g4]))).trans
        (at_apart g4_loc a2 (apart_cells (by simp [g4])))))
  refine ⟨?_, fun o c h h' => ?_⟩
  · rw [q4way_at, hx, hy, hz, f1, hh', d1, q4, c3, e1]
    rw [← q1, Ed448.mulInit]
  · rw [show m' o c = m7 o c from f2 o c (not_in_obj h), k6 o c h, q3 o c h h']

theorem mult448_spec (ρ : ℕ → Regs) (b : ℕ) (rB : Place) (hb : rB.1 < b) (r : List Byte)
    (m : Mem) :
    let m' := mult448 ρ b rB r m
    q2w.at m' rB = Ed448.point_multiplication r ∧
      (∀ o c, o < b → ¬In rB 16 o c → m' o c = m o c) ∧
      ∀ n < 112, wordAt m' (b + 2) n = Ed448.list_digits r n ∧
        wordAt m' (b + 3) n = Ed448.list_signs r n := by
  unfold mult448
  extract_lets m1 m2 m3 m4 m5 m'
  obtain ⟨r1, r2⟩ := recode448_spec (show b + 3 ≠ b + 2 by simp) r m1
  change (∀ n < 112, wordAt m2 _ n = _ ∧ wordAt m2 _ n = _) at r1
  change ∀ o c, _ → _ → m2 o c = _ at r2
  have hh : g4.at m2 (b + 4, 0) = Ed448.one_half := by
    rw [at_obj (m := m1) g4_loc fun c => r2 _ c (by simp) (by simp)]
    simp [m1, Lay.at, g4, putHalf448, Ed448.one_half]
  have h1 : ∀ o c, o ≠ b + 4 → m1 o c = m o c := fun o c h => by simp [m1, putHalf448, h]
  clear_value m1 m2
  obtain ⟨f1, f2⟩ := first448_spec ρ b m2 hh
  change q4way.at m3 _ = _ at f1
  change ∀ o c, _ → _ → m3 o c = _ at f2
  have hK : ∀ i < 28, m3 (b + 2) i = Ed25519.load4 (Ed448.list_digits r) i := fun i hi => by
    rw [f2 _ _ (by simp) (by simp)]
    exact load4_words fun j hj => (r1 _ (by omega)).1
  have hS : ∀ i < 28, m3 (b + 3) i = Ed25519.load4 (Ed448.list_signs r) i := fun i hi => by
    rw [f2 _ _ (by simp) (by simp)]
    exact load4_words fun j hj => (r1 _ (by omega)).2
  rw [← f2 (b + 3) 0 (by simp) (by simp), ← f2 (b + 2) 0 (by simp) (by simp),
    hK 0 (by decide), hS 0 (by decide)] at f1
  clear_value m3
  obtain ⟨l1, l2⟩ := mulLoop448_spec (fun n => ρ (n + 8)) b r m3 f1 hK hS 27 (by decide)
  change q4way.at m4 _ = _ at l1
  change ∀ o c, _ → _ → _ → m4 o c = _ at l2
  clear_value m4
  obtain ⟨j1, -, j3⟩ := q_join_points m4 (ρ 62) rB (b, 0) (b + 6, 0)
    (apart_obj (by simp; omega)) (apart_obj (by simp; omega)) (apart_obj (by simp))
  rw [l1] at j1
  change q2w.at m5 _ = _ at j1
  change ∀ o c, _ → _ → m5 o c = _ at j3
  clear_value m5
  obtain ⟨i1, i3⟩ := q_isogeny_2w m5 (ρ 63) rB (b + 7, 0) (apart_obj (by simp; omega))
  rw [j1] at i1
  change ∀ o c, _ → _ → m' o c = _ at i3
  have k : ∀ o c, o ≠ rB.1 → o ≠ b → o ≠ b + 1 → o ≠ b + 5 → o ≠ b + 6 → o ≠ b + 7 →
      m' o c = m2 o c := fun o c h h1 h2 h3 h4 h5 => by
    rw [i3 o c (not_in_obj h) (not_in_obj h5), j3 o c (not_in_obj h) (not_in_obj h4),
      l2 o c h1 h2 h3, f2 o c h1 h2]
  refine ⟨i1, fun o c ho hr => ?_, fun n hn => ?_⟩
  · rw [i3 o c hr (not_in_obj (by simp; omega)), j3 o c hr (not_in_obj (by simp; omega)),
      l2 o c (by omega) (by omega) (by omega), f2 o c (by omega) (by omega),
      r2 o c (by omega) (by omega), h1 o c (by omega)]
  · rw [wordAt_congr fun c => k _ c (by omega) (by simp) (by simp) (by simp) (by simp) (by simp),
      wordAt_congr fun c => k _ c (by omega) (by simp) (by simp) (by simp) (by simp) (by simp)]
    exact r1 n hn

end Verif.Vec
