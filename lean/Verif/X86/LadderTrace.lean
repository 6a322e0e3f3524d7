import Verif.X86.TraceLemmas

/-!
# Everything an observer of the ladder sees

Helper lemmas.
-/

namespace Verif.X86.Ladder

open Verif.Fp25519 (Isa)

variable {isa : Isa} {out pt sk : Loc}

theorem safe_branch {bufs : List (Loc × ℕ × Bool)} (b : Bool) : Safe bufs (.branch b) := trivial

/-- The words of a buffer at a place inside a buffer. -/
theorem safe_of {bufs : List (Loc × ℕ × Bool)} {p q : Loc} {n k : ℕ} {w : Bool} (hb : (q, n, w) ∈ bufs)
    (hp : p.obj = q.obj ∧ q.off ≤ p.off ∧ p.off + k ≤ q.off + n) {x : Access} (hx : x.Inside p k)
    (hw : x.write = true → w = true) : Safe bufs (.access x) := by
  refine ⟨_, hb, ⟨?_, ?_, ?_⟩, hw⟩
  · rw [hx.1, hp.1]
  · have := hx.2.1; simp only; omega
  · have := hx.2.2; simp only; omega

/-- `k` words at `p` may be read, and written if `w`. -/
def Has (bufs : List (Loc × ℕ × Bool)) (p : Loc) (k : ℕ) (w : Bool) : Prop :=
  ∃ b ∈ bufs, p.obj = b.1.obj ∧ b.1.off ≤ p.off ∧ p.off + k ≤ b.1.off + b.2.1 ∧ (w = true → b.2.2 = true)

theorem Has.safe {bufs : List (Loc × ℕ × Bool)} {p : Loc} {k : ℕ} {w : Bool} (h : Has bufs p k w)
    {x : Access} (hx : x.Inside p k) (hw : x.write = true → w = true) : Safe bufs (.access x) := by
  obtain ⟨⟨q, n, w'⟩, hb, h1, h2, h3, h4⟩ := h
  exact safe_of hb ⟨h1, h2, h3⟩ hx fun e => h4 (hw e)

theorem Has.acc {bufs : List (Loc × ℕ × Bool)} {p : Loc} {k : ℕ} {w : Bool} (h : Has bufs p k w)
    {i : ℕ} (hi : i < k) {w' : Bool} (hw : w' = true → w = true) : Safe bufs (acc w' p i) :=
  h.safe ⟨rfl, by simp, by simp; omega⟩ hw

/-- The rule for blocks. -/
theorem sees_blk {bufs : List (Loc × ℕ × Bool)} {E : Ints → Ints → Prop} {B : Block} {n k l : ℕ}
    (h : B.inside n k l = true) {c a b : Loc} {arg : Vars → W} (hc : Has bufs c n true)
    (ha : Has bufs a k false) (hb : Has bufs b l false) : Sees (Safe bufs) E (.asm B c a b arg) E := by
  refine Sees.asm fun x hx => ?_
  rcases Block.inside.ok h c a b x hx with h' | ⟨h1, h' | h'⟩
  · exact hc.safe h' fun _ => rfl
  · exact ha.safe h' fun e => by rw [h1] at e; cases e
  · exact hb.safe h' fun e => by rw [h1] at e; cases e

section
variable {bufs : List (Loc × ℕ × Bool)} {E : Ints → Ints → Prop} {c a b : Loc}

theorem Has.none {c : Loc} {k : ℕ} {w : Bool} (hc : Has bufs c k true) : Has bufs c 0 w := by
  obtain ⟨q, hb, h1, h2, h3, h4⟩ := hc
  exact ⟨q, hb, h1, h2, by omega, fun _ => h4 rfl⟩

theorem sees_add (hc : Has bufs c 4 true) (ha : Has bufs a 4 false) (hb : Has bufs b 4 false) :
    Sees (Safe bufs) E (add isa c a b) E := by
  unfold add
  split_ifs <;> exact sees_blk (by decide +kernel) hc ha hb

theorem sees_sub (hc : Has bufs c 4 true) (ha : Has bufs a 4 false) (hb : Has bufs b 4 false) :
    Sees (Safe bufs) E (sub c a b) E :=
  sees_blk (by decide +kernel) hc ha hb

theorem sees_intmul2 (hc : Has bufs c 16 true) (ha : Has bufs a 8 false) (hb : Has bufs b 8 false) :
    Sees (Safe bufs) E (intmul2 isa c a b) E := by
  unfold intmul2
  split_ifs <;> exact sees_blk (by decide +kernel) hc ha hb

theorem sees_intsqr2 (hc : Has bufs c 16 true) (ha : Has bufs a 8 false) :
    Sees (Safe bufs) E (intsqr2 isa c a) E := by
  unfold intsqr2
  split_ifs <;> exact sees_blk (l := 0) (by decide +kernel) hc ha hc.none

theorem sees_reduce2 (hc : Has bufs c 8 true) (ha : Has bufs a 16 false) :
    Sees (Safe bufs) E (reduce2 isa c a) E := by
  unfold reduce2
  split_ifs <;> exact sees_blk (l := 0) (by decide +kernel) hc ha hc.none

theorem sees_mula24 (hc : Has bufs c 4 true) (ha : Has bufs a 4 false) :
    Sees (Safe bufs) E (mula24 isa c a) E := by
  unfold mula24
  split_ifs <;> exact sees_blk (l := 0) (by decide +kernel) hc ha hc.none

theorem sees_select (hc : Has bufs c 4 true) (ha : Has bufs a 4 false) :
    Sees (Safe bufs) E (select c a) E :=
  sees_blk (l := 0) (by decide +kernel) hc ha hc.none

theorem sees_mul (hu : Has bufs buffer_1w 8 true) (hu' : Has bufs buffer_1w 8 false)
    (hc : Has bufs c 4 true) (ha : Has bufs a 4 false) (hb : Has bufs b 4 false) :
    Sees (Safe bufs) E (mul isa c a b) E := by
  refine Sees.seq (E' := E) ?_ ?_
  · unfold intmul
    split_ifs <;> exact sees_blk (by decide +kernel) hu ha hb
  · unfold reduce
    split_ifs <;> exact sees_blk (l := 0) (by decide +kernel) hc hu' hc.none

theorem sees_sqr (hu : Has bufs buffer_1w 8 true) (hu' : Has bufs buffer_1w 8 false)
    (hc : Has bufs c 4 true) (hc' : Has bufs c 4 false) :
    Sees (Safe bufs) E (sqr isa c) E := by
  refine Sees.seq (E' := E) ?_ ?_
  · unfold intsqr
    split_ifs <;> exact sees_blk (l := 0) (by decide +kernel) hu hc' hu.none
  · unfold reduce
    split_ifs <;> exact sees_blk (l := 0) (by decide +kernel) hc hu' hc.none

theorem sees_copy (hc : Has bufs c 4 true) (ha : Has bufs a 4 false) :
    Sees (Safe bufs) E (copy c a) E := by
  refine Sees.seq (E' := E) ?_ (Sees.seq (E' := E) ?_ (Sees.seq (E' := E) ?_ (Sees.seq (E' := E) ?_ Sees.skip))) <;>
    exact Sees.move (hc.acc (by norm_num) (by simp)) (ha.acc (by norm_num) (by simp))

theorem sees_zero (hc : Has bufs c 4 true) : Sees (Safe bufs) E (zero c) E := by
  refine Sees.seq (E' := E) ?_ (Sees.seq (E' := E) ?_ (Sees.seq (E' := E) ?_ (Sees.seq (E' := E) ?_ Sees.skip))) <;>
    exact Sees.store (hc.acc (by norm_num) (by simp))

end

/-- Two runs at the same place. -/
def Same (v v' : Ints) : Prop := v.i = v'.i ∧ v.j = v'.j ∧ v.i ≤ 3

theorem sees_sqrn {bufs : List (Loc × ℕ × Bool)} (hu : Has bufs buffer_1w 8 true)
    (hu' : Has bufs buffer_1w 8 false) {c : Loc} (hc : Has bufs c 4 true) (hc' : Has bufs c 4 false)
    (times : ℕ) : Sees (Safe bufs) Same (sqrn isa c times) Same := by
  refine Sees.seq (E' := fun v v' => Same v v' ∧ v.counter = v'.counter) ?_ (Sees.seq
    (E' := fun v v' => Same v v' ∧ v.counter = v'.counter) ?_ (Sees.seq (E' := Same) ?_ Sees.skip))
  · exact Sees.ints fun v v' h => ⟨h, rfl⟩
  · refine Sees.while (Sees.seq (E' := fun v v' => Same v v' ∧ v.counter = v'.counter) ?_ ?_)
      safe_branch ?_
    · exact Sees.ints fun v v' h => ⟨h.1, by simp [h.2]⟩
    · exact sees_sqr hu hu' hc hc'
    · intro v v' h; simp [h.2]
  · exact Sees.ints fun v v' h => h.1

/-! ## The whole function -/

instance (bufs : List (Loc × ℕ × Bool)) (p : Loc) (k : ℕ) (w : Bool) : Decidable (Has bufs p k w) :=
  inferInstanceAs (Decidable (∃ b ∈ bufs, p.obj = b.1.obj ∧ b.1.off ≤ p.off ∧
    p.off + k ≤ b.1.off + b.2.1 ∧ (w = true → b.2.2 = true)))

/-- The buffers the function may use. -/
def buffers (out pt sk : Loc) : List (Loc × ℕ × Bool) :=
  localArrays ++ [(out, 4, true), (pt, 4, false), (sk, 4, false)]

theorem loc {p : Loc} {k : ℕ} {w : Bool} (h : Has localArrays p k w) : Has (buffers out pt sk) p k w := by
  obtain ⟨b, hb, h⟩ := h
  exact ⟨b, List.mem_append_left _ hb, h⟩

theorem has_out (w : Bool) : Has (buffers out pt sk) out 4 w :=
  ⟨(out, 4, true), by simp [buffers], rfl, le_refl _, le_refl _, fun _ => rfl⟩

theorem has_pt : Has (buffers out pt sk) pt 4 false :=
  ⟨(pt, 4, false), by simp [buffers], rfl, le_refl _, le_refl _, fun h => h⟩

theorem has_sk : Has (buffers out pt sk) sk 4 false :=
  ⟨(sk, 4, false), by simp [buffers], rfl, le_refl _, le_refl _, fun h => h⟩

section
variable {E : Ints → Ints → Prop}

local notation "⟪" st "⟫" => Sees (Safe (buffers out pt sk)) Same st Same

theorem seesMul {c a b : Loc} (hc : Has localArrays c 4 true) (ha : Has localArrays a 4 false)
    (hb : Has localArrays b 4 false) : ⟪mul isa c a b⟫ :=
  sees_mul (loc (by decide)) (loc (by decide)) (loc hc) (loc ha) (loc hb)

theorem seesSqrn {c : Loc} (hc : Has localArrays c 4 true) (hc' : Has localArrays c 4 false)
    (times : ℕ) : ⟪sqrn isa c times⟫ :=
  sees_sqrn (loc (by decide)) (loc (by decide)) (loc hc) (loc hc') times

theorem seesCopy {c a : Loc} (hc : Has localArrays c 4 true) (ha : Has localArrays a 4 false) :
    ⟪copy c a⟫ := sees_copy (loc hc) (loc ha)

theorem sees_block {bufs : List (Loc × ℕ × Bool)} {l : List Stmt} (h : ∀ st ∈ l, Sees (Safe bufs) E st E) :
    Sees (Safe bufs) E (block l) E := by
  induction l with
  | nil => exact Sees.skip
  | cons a l ih =>
    exact Sees.seq (h a (by simp)) (ih fun st hst => h st (by simp [hst]))

theorem sees_inv : ⟪inv isa A Z2⟫ := by
  refine sees_block ?_
  simp only [List.forall_mem_cons, List.not_mem_nil, false_implies, implies_true, and_true]
  repeat' apply And.intro
  all_goals first
    | exact seesMul (by decide) (by decide) (by decide)
    | exact seesSqrn (by decide) (by decide) _
    | exact seesCopy (by decide) (by decide)

theorem sees_body : ⟪body isa⟫ := by
  refine sees_block ?_
  simp only [List.forall_mem_cons, List.not_mem_nil, false_implies, implies_true, and_true]
  repeat' apply And.intro
  all_goals first
    | exact Sees.words
    | exact sees_add (loc (by decide)) (loc (by decide)) (loc (by decide))
    | exact sees_sub (loc (by decide)) (loc (by decide)) (loc (by decide))
    | exact sees_intmul2 (loc (by decide)) (loc (by decide)) (loc (by decide))
    | exact sees_intsqr2 (loc (by decide)) (loc (by decide))
    | exact sees_reduce2 (loc (by decide)) (loc (by decide))
    | exact sees_mula24 (loc (by decide)) (loc (by decide))
    | exact sees_select (loc (by decide)) (loc (by decide))
    | exact seesMul (by decide) (by decide) (by decide)
    | exact seesCopy (by decide) (by decide)
    | exact Sees.ints fun v v' h => ⟨h.1, by simp [h.2.1], h.2.2⟩
    | skip
  refine Sees.load fun v v' h => ⟨by simp [h.1], ?_⟩
  refine Has.acc (k := 4) (w := true) (loc (by decide)) ?_ (by simp)
  have := h.2.2
  simp only; omega

theorem sees_mainLoop : Sees (Safe (buffers out pt sk)) Same (mainLoop isa) Same := by
  refine Sees.seq (E' := Same) ?_ (Sees.seq (E' := Same) ?_ (Sees.seq (E' := Same) ?_ Sees.skip))
  · exact Sees.ints fun v v' h => ⟨h.1, rfl, h.2.2⟩
  · exact Sees.ints fun v v' h => ⟨rfl, h.2.1, by norm_num⟩
  · refine Sees.while (sees_block ?_) safe_branch fun v v' h => by simp [h.1]
    simp only [List.forall_mem_cons, List.not_mem_nil, false_implies, implies_true, and_true]
    refine ⟨Sees.while sees_body safe_branch fun v v' h => by simp [h.2.1], ?_, ?_⟩
    · exact Sees.ints fun v v' h => ⟨h.1, rfl, h.2.2⟩
    · exact Sees.ints fun v v' h => ⟨by simp [h.1], h.2.1, by have := h.2.2; simp only; omega⟩

theorem sees_wipe : ⟪wipe secret⟫ := by
  refine Sees.seq (E' := fun v v' => Same v v' ∧ v.len = v'.len ∧ v.len ≤ 32) ?_ (Sees.seq
    (E' := Same) (Sees.post (E' := fun v v' => Same v v' ∧ v.len = v'.len ∧ v.len ≤ 32) ?_
      fun v v' h => h.1) Sees.skip)
  · exact Sees.ints fun v v' h => ⟨h, rfl, le_refl _⟩
  · refine Sees.while ?_ safe_branch fun v v' h => by simp [h.2.1]
    refine Sees.seq (E' := fun v v' => Same v v' ∧ v.len = v'.len ∧ v.len ≤ 31) ?_
      (Sees.seq (E' := fun v v' => Same v v' ∧ v.len = v'.len ∧ v.len ≤ 32) (Sees.post
        (E' := fun v v' => Same v v' ∧ v.len = v'.len ∧ v.len ≤ 31) ?_
        fun v v' h => ⟨h.1, h.2.1, by omega⟩) Sees.skip)
    · exact Sees.ints fun v v' h => ⟨h.1, by simp [h.2.1], by have := h.2.2; simp only; omega⟩
    · refine Sees.byte fun v v' h => ⟨by simp [h.2.1], ?_, ?_⟩ <;>
      · refine Has.acc (k := 4) (w := true) (loc (by decide)) ?_ (by simp)
        have := h.2.2
        simp only; omega

theorem sees_shared : Sees (Safe (buffers out pt sk)) (fun _ _ => True) (shared isa out pt sk)
    fun _ _ => True := by
  refine Sees.seq (E' := Same) ?_ (Sees.post (E' := Same) (sees_block ?_) fun _ _ _ => trivial)
  · exact Sees.ints fun v v' h => ⟨rfl, rfl, by norm_num⟩
  · simp only [List.forall_mem_cons, List.not_mem_nil, false_implies, implies_true, and_true]
    refine ⟨Sees.words, ?_, ?_, sees_mainLoop, sees_wipe, sees_inv,
      seesMul (by decide) (by decide) (by decide), ?_⟩
    · refine sees_block ?_
      simp only [List.forall_mem_cons, List.not_mem_nil, false_implies, implies_true, and_true]
      refine ⟨sees_copy (loc (by decide)) has_sk, ?_, ?_⟩ <;>
      · exact Sees.byte fun v v' h => ⟨rfl,
          Has.acc (k := 4) (w := true) (loc (by decide)) (by norm_num) (by simp),
          Has.acc (k := 4) (w := true) (loc (by decide)) (by norm_num) (by simp)⟩
    · refine sees_block ?_
      simp only [List.forall_mem_cons, List.not_mem_nil, false_implies, implies_true, and_true]
      refine ⟨sees_copy (loc (by decide)) has_pt, ?_, seesCopy (by decide) (by decide),
        seesCopy (by decide) (by decide), sees_zero (loc (by decide)), sees_zero (loc (by decide)),
        sees_zero (loc (by decide)), ?_, ?_⟩
      · exact Sees.byte fun v v' h => ⟨rfl,
          Has.acc (k := 4) (w := true) (loc (by decide)) (by norm_num) (by simp),
          Has.acc (k := 4) (w := true) (loc (by decide)) (by norm_num) (by simp)⟩
      · exact Sees.store (Has.acc (k := 4) (w := true) (loc (by decide)) (by norm_num) (by simp))
      · exact Sees.store (Has.acc (k := 4) (w := true) (loc (by decide)) (by norm_num) (by simp))
    · refine Sees.seq (E' := Same) (sees_copy (has_out true) (loc (by decide))) ?_
      exact Sees.modp fun w k hk => (has_out true).acc hk fun _ => rfl

end

theorem public_shared : (shared isa out pt sk).Public := by
  simp only [shared, clampKey, start, mainLoop, body, wipe, inv, ser, block, copy, zero, store, sqrn,
    mul, sqr, intmul, intsqr, reduce, intmul2, intsqr2, reduce2, add, sub, mula24, select, blk,
    Stmt.Public, Pub, implies_true, and_self]

end Verif.X86.Ladder
