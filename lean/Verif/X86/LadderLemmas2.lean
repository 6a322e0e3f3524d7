import Verif.X86.LadderLemmas
import Verif.X86.ByteLemmas
import Verif.Fp25519.FullLemmas

/-!
# The parts of the ladder around its loop, on memory

Helper lemmas.
-/

namespace Verif.X86.Ladder

open Verif.Fp25519 (Isa F4 F8)
open Verif.X86.Fp25519 (elt elt2 dbl dbl2 l4 l8)

/-! ## Frames -/

/-- Nothing outside these objects changed. -/
def Frame (objs : List ℕ) (m m' : Mem) : Prop := ∀ o, o ∉ objs → ∀ x, m' o x = m o x

theorem Frame.refl (objs : List ℕ) (m : Mem) : Frame objs m m := fun _ _ _ => rfl

theorem Frame.trans {objs : List ℕ} {a b c : Mem} (h : Frame objs a b) (h' : Frame objs b c) :
    Frame objs a c := fun o ho x => (h' o ho x).trans (h o ho x)

theorem Frame.mono {o o' : List ℕ} (hs : ∀ x ∈ o, x ∈ o') {a b : Mem} (h : Frame o a b) :
    Frame o' a b := fun x hx => h x fun hx' => hx (hs x hx')

theorem Frame.elt {objs : List ℕ} {m m' : Mem} (h : Frame objs m m') {p : Loc}
    (hp : p.obj ∉ objs) : elt m' p = elt m p := by
  simp [Fp25519.elt, Fp25519.w4, Mem.get, h p.obj hp]

theorem Frame.put (objs : List ℕ) (m : Mem) {p : Loc} (l : List W) (h : p.obj ∈ objs) :
    Frame objs m (m.put p l) :=
  fun o ho x => m.put_other p l (fun e => ho (by rw [e]; exact h)) x

theorem bodyMem_frame (isa : Isa) (swap : W) (m : Mem) : Frame [2, 3, 4, 6] m (bodyMem isa swap m) := by
  intro o ho x
  simp only [List.mem_cons, List.not_mem_nil, or_false, not_or] at ho
  obtain ⟨h2, h3, h4, h6⟩ := ho
  have a2 : o ≠ buffer.obj := h2
  have a3 : o ≠ X3.obj := h3
  have b3 : o ≠ Z3.obj := h3
  have c3 : o ≠ X2.obj := h3
  have d3 : o ≠ Z2.obj := h3
  have a4 : o ≠ A.obj := h4
  have b4 : o ≠ B.obj := h4
  have c4 : o ≠ C.obj := h4
  have d4 : o ≠ D.obj := h4
  have e4 : o ≠ DA.obj := h4
  have a6 : o ≠ buffer_1w.obj := h6
  simp (disch := assumption) only [bodyMem, Mem.put_other]

/-! ## The loops -/

/-- The ladder state in memory. -/
def view (m : Mem) (prev : W) : X25519.St := ⟨elt m X2, elt m Z2, elt m X3, elt m Z3, prev⟩

theorem keyBit_eq (m : Mem) {i : ℕ} (hi : i < 4) (j : ℕ) :
    X25519.keyBit (elt m secret) i j = (m.get secret i >>> j) &&& 1#64 := by
  match i, hi with
  | 0, _ | 1, _ | 2, _ | 3, _ => rfl

theorem body_view (isa : Isa) (bit prev : W) (m : Mem) :
    view (bodyMem isa (bit ^^^ prev) m) bit = X25519.step isa (elt m X1) (view m prev) bit :=
  bodyMem_view isa _ prev bit rfl m

attribute [local irreducible] bodyMem X25519.step

/-- The inner loop, entered with `j = k - 1`. -/
theorem wp_inner (isa : Isa) (Q : St → Prop) (i : ℕ) (hi : i < 4) (k : ℕ) (s : St)
    (hsi : s.vars.ints.i = i) (hsj : s.vars.ints.j = k - 1)
    (h : ∀ t : St, t.vars.ints = { s.vars.ints with j := -1 } →
      view t.mem t.vars.words.prev = X25519.inner isa (elt s.mem X1) (elt s.mem secret) i k
        (view s.mem s.vars.words.prev) → Frame [2, 3, 4, 6] s.mem t.mem → Q t) :
    wp (0 + k + 1) (.while (fun v => decide (v.ints.j ≥ 0)) (body isa)) Q s := by
  refine wp_while (n := 0) (fun k' t => t.vars.ints = { s.vars.ints with j := (k' : ℤ) - 1 } ∧
      Frame [2, 3, 4, 6] s.mem t.mem ∧
      X25519.inner isa (elt s.mem X1) (elt s.mem secret) i k (view s.mem s.vars.words.prev) =
        X25519.inner isa (elt s.mem X1) (elt s.mem secret) i k' (view t.mem t.vars.words.prev))
    ?_ ?_ k s ⟨?_, Frame.refl _ _, rfl⟩
  · rintro t ⟨h1, h2, h3⟩
    refine ⟨by simp [h1], h _ ?_ h3.symm h2⟩
    rw [h1]; simp
  · rintro k' t ⟨h1, h2, h3⟩
    refine ⟨by simp [h1], does_body 0 isa _ _ fun l => ⟨?_, ?_, ?_⟩⟩
    · simp [h1]
    · exact h2.trans (bodyMem_frame _ _ _)
    · have e1 : (t.vars.ints.i).toNat = i := by rw [h1]; simp [hsi]
      have e2 : (t.vars.ints.j).toNat = k' := by rw [h1]; simp
      simp only [e1, e2]
      rw [body_view, h3, X25519.inner, ← h2.elt (p := X1) (by decide),
        ← h2.elt (p := secret) (by decide), keyBit_eq _ hi]
  · rw [← hsj]

/-- The rounds of the outer loop that remain when `i + 1 = k`. -/
def rest (isa : Isa) (X key : F4) : ℕ → X25519.St → X25519.St
  | 0, s => s
  | k + 1, s => rest isa X key k (X25519.inner isa X key k (if k = 3 then 63 else 64) s)

theorem rest_four (isa : Isa) (X key : F4) (s : X25519.St) :
    rest isa X key 4 s = X25519.mainLoop isa X key s := by
  simp [rest, X25519.mainLoop]

/-- The main loop. -/
theorem wp_mainLoop (isa : Isa) (Q : St → Prop) (s : St)
    (h : ∀ t : St, view t.mem t.vars.words.prev = X25519.mainLoop isa (elt s.mem X1)
        (elt s.mem secret) (view s.mem s.vars.words.prev) →
      Frame [2, 3, 4, 6] s.mem t.mem → Q t) :
    wp 120 (mainLoop isa) Q s := by
  refine wp_le (n := 100 + 4 + 1) (by norm_num) ?_
  simp only [mainLoop, block, wp_seq, wp_ints]
  rw [← rest_four] at h
  refine wp_while (n := 100) (fun k t => t.vars.ints.i = (k : ℤ) - 1 ∧
      (t.vars.ints.j = if k = 4 then 62 else 63) ∧ k ≤ 4 ∧ Frame [2, 3, 4, 6] s.mem t.mem ∧
      rest isa (elt s.mem X1) (elt s.mem secret) 4 (view s.mem s.vars.words.prev) =
        rest isa (elt s.mem X1) (elt s.mem secret) k (view t.mem t.vars.words.prev))
    ?_ ?_ 4 _ ⟨by norm_num, by norm_num, le_refl _, Frame.refl _ _, rfl⟩
  · rintro t ⟨h1, h2, -, h4, h5⟩
    exact ⟨by simp [h1], (wp_skip _ _ _).2 (h _ h5.symm h4)⟩
  · rintro k t ⟨h1, h2, h3, h4, h5⟩
    refine ⟨by simp [h1], ?_⟩
    simp only [wp_seq]
    refine wp_le ?_ (wp_inner isa _ k (by omega) (if k = 3 then 63 else 64) _ ?_ ?_ ?_)
    · split_ifs <;> norm_num
    · simp [h1]
    · by_cases hk : k = 3
      · subst hk; simp [h2]
      · simp [h2, hk]
    · intro t' g1 g2 g3
      simp only [wp_seq, wp_ints, wp_skip]
      refine ⟨by simp [g1, h1], ?_, by omega, h4.trans g3, ?_⟩
      · rw [if_neg (by omega)]
      · rw [h5, rest, g2, h4.elt (p := X1) (by decide), h4.elt (p := secret) (by decide)]

/-! ## Inversion -/

theorem put_put (m : Mem) {p q : Loc} {x x' : List W} {y y' : List W} (hx : x.length = x'.length)
    (hy : y.length = y'.length) :
    (((m.put p x).put q y).put p x').put q y' = (m.put p x').put q y' := by
  funext o i
  unfold Mem.put
  by_cases h1 : o = q.obj ∧ q.off ≤ i ∧ i < q.off + y'.length
  · rw [if_pos h1, if_pos h1]
  · rw [if_neg h1, if_neg h1]
    by_cases h2 : o = p.obj ∧ p.off ≤ i ∧ i < p.off + x'.length
    · rw [if_pos h2, if_pos h2]
    · rw [if_neg h2, if_neg h2, hy, if_neg h1, hx, if_neg h2]

/-- The memory after `k + 1` squarings of the element at `a`. -/
def sqrnMem (isa : Isa) (a : Loc) (k : ℕ) (m : Mem) : Mem :=
  (m.put buffer_1w (l8 (Verif.Fp25519.Full.intsqr isa
    (Verif.Fp25519.Full.sqrn isa (elt m a) k)))).put a
      (l4 (Verif.Fp25519.Full.sqrn isa (elt m a) (k + 1)))

theorem sqrn_succ (isa : Isa) (a : F4) (k : ℕ) : Verif.Fp25519.Full.sqrn isa a (k + 1) =
    Verif.Fp25519.Full.sqr isa (Verif.Fp25519.Full.sqrn isa a k) := by
  induction k generalizing a with
  | zero => rfl
  | succ k ih => rw [Verif.Fp25519.Full.sqrn, ih, Verif.Fp25519.Full.sqrn]

theorem does_sqrn (isa : Isa) {a : Loc} (ha : Apart a 4 buffer_1w 8) (hc : Apart buffer_1w 8 a 4)
    (times : ℕ) (ht : times < 101) :
    Does 102 (sqrn isa a (times + 1)) (fun x => (sqrnMem isa a times x.1,
      { x.2 with ints := { x.2.ints with counter := -1 } })) := by
  intro Q s h
  refine wp_le (n := 0 + (times + 1) + 1) (by omega) ?_
  simp only [sqrn, block, wp_seq, wp_ints]
  refine wp_while (n := 0) (fun k t => t.vars = { s.vars with ints := { s.vars.ints with
      counter := (k : ℤ) } } ∧ k ≤ times + 1 ∧
      t.mem = if k = times + 1 then s.mem else sqrnMem isa a (times - k) s.mem)
    ?_ ?_ (times + 1) _ ⟨rfl, le_refl _, (if_pos rfl).symm⟩
  · rintro ⟨tm, tv, tl⟩ ⟨h1, -, h3⟩
    simp only at h1 h3
    rw [if_neg (by omega)] at h3
    subst h1 h3
    refine ⟨rfl, ?_⟩
    simp only [wp_seq, wp_ints, wp_skip]
    exact h _
  · rintro k ⟨tm, tv, tl⟩ ⟨h1, h2, h3⟩
    simp only at h1 h3
    subst h1
    refine ⟨by simp, ?_⟩
    simp only [wp_seq, wp_ints]
    refine does_sqr 0 isa ha hc _ _ fun l => ⟨?_, by omega, ?_⟩
    · simp [onMem]
    · simp only [onMem]
      rw [if_neg (by omega), h3]
      by_cases hk : k = times
      · subst hk
        rw [if_pos rfl, Nat.sub_self, sqrnMem]
        rfl
      · rw [if_neg (by omega), show times - k = times - (k + 1) + 1 by omega]
        simp only [sqrnMem, Fp25519.elt_put_self]
        rw [← sqrn_succ]
        exact put_put _ (by simp [l8]) (by simp [l4])

/-- What `inv(A, Qz)` does. -/
theorem wp_inv (isa : Isa) (Q : St → Prop) (s : St)
    (h : ∀ t : St, elt t.mem A = Verif.Fp25519.Full.inv isa (elt s.mem Z2) →
      Frame [4, 6, 7, 8, 9] s.mem t.mem → Q t) :
    wp 102 (inv isa A Z2) Q s := by
  have key := (does_copy 102 (c := A) (a := Z2) (by decide)).seq <|
    (does_sqrn isa (a := A) (by decide) (by decide) 0 (by decide)).seq <|
    (does_copy 102 (c := x1) (a := A) (by decide)).seq <|
    (does_sqrn isa (a := x1) (by decide) (by decide) 1 (by decide)).seq <|
    (does_mul 102 isa (c := x0) (a := Z2) (b := x1) (by decide) (by decide) (by decide)).seq <|
    (does_mul 102 isa (c := A) (a := A) (b := x0) (by decide) (by decide) (by decide)).seq <|
    (does_copy 102 (c := x1) (a := A) (by decide)).seq <|
    (does_sqrn isa (a := x1) (by decide) (by decide) 0 (by decide)).seq <|
    (does_mul 102 isa (c := x0) (a := x0) (b := x1) (by decide) (by decide) (by decide)).seq <|
    (does_copy 102 (c := x1) (a := x0) (by decide)).seq <|
    (does_sqrn isa (a := x1) (by decide) (by decide) 4 (by decide)).seq <|
    (does_mul 102 isa (c := x0) (a := x0) (b := x1) (by decide) (by decide) (by decide)).seq <|
    (does_copy 102 (c := x1) (a := x0) (by decide)).seq <|
    (does_sqrn isa (a := x1) (by decide) (by decide) 9 (by decide)).seq <|
    (does_mul 102 isa (c := x1) (a := x1) (b := x0) (by decide) (by decide) (by decide)).seq <|
    (does_copy 102 (c := x2) (a := x1) (by decide)).seq <|
    (does_sqrn isa (a := x2) (by decide) (by decide) 19 (by decide)).seq <|
    (does_mul 102 isa (c := x2) (a := x2) (b := x1) (by decide) (by decide) (by decide)).seq <|
    (does_sqrn isa (a := x2) (by decide) (by decide) 9 (by decide)).seq <|
    (does_mul 102 isa (c := x2) (a := x2) (b := x0) (by decide) (by decide) (by decide)).seq <|
    (does_copy 102 (c := x0) (a := x2) (by decide)).seq <|
    (does_sqrn isa (a := x0) (by decide) (by decide) 49 (by decide)).seq <|
    (does_mul 102 isa (c := x0) (a := x0) (b := x2) (by decide) (by decide) (by decide)).seq <|
    (does_copy 102 (c := x1) (a := x0) (by decide)).seq <|
    (does_sqrn isa (a := x1) (by decide) (by decide) 99 (by decide)).seq <|
    (does_mul 102 isa (c := x1) (a := x1) (b := x0) (by decide) (by decide) (by decide)).seq <|
    (does_sqrn isa (a := x1) (by decide) (by decide) 49 (by decide)).seq <|
    (does_mul 102 isa (c := x1) (a := x1) (b := x2) (by decide) (by decide) (by decide)).seq <|
    (does_sqrn isa (a := x1) (by decide) (by decide) 4 (by decide)).seq <|
    (does_mul 102 isa (c := A) (a := A) (b := x1) (by decide) (by decide) (by decide)).seq <|
    Does.skip 102
  refine key Q s fun l => h _ ?_ ?_
  · simp (disch := decide) only [onMem, sqrnMem, elt_put4, elt_put8, Fp25519.elt_put_self,
      Verif.Fp25519.Full.inv, id]
  · intro o ho x
    simp only [List.mem_cons, List.not_mem_nil, or_false, not_or] at ho
    obtain ⟨h4, h6, h7, h8, h9⟩ := ho
    have a4 : o ≠ A.obj := h4
    have a6 : o ≠ buffer_1w.obj := h6
    have a7 : o ≠ x0.obj := h7
    have a8 : o ≠ x1.obj := h8
    have a9 : o ≠ x2.obj := h9
    simp (disch := assumption) only [onMem, sqrnMem, Mem.put_other, id]

/-! ## Before and after the loop -/

theorem elt_set (m : Mem) (p : Loc) (v : W) :
    elt (m.set p 0 v) p = { elt m p with w0 := v } ∧
    elt (m.set p 3 v) p = { elt m p with w3 := v } := by
  simp [elt, Fp25519.w4, Mem.get, Mem.set]

theorem elt_set_apart (m : Mem) {p q : Loc} (k : ℕ) (v : W) (h : Apart p 4 ⟨q.obj, q.off + k⟩ 1) :
    elt (m.set q k v) p = elt m p := by
  have key : ∀ i < 4, (m.set q k v).get p i = m.get p i := by
    intro i hi
    unfold Mem.get Mem.set
    rw [if_neg]
    rintro ⟨h1, h2⟩
    rcases h with h | h | h
    · exact h h1
    · simp only at h; omega
    · simp only at h; omega
  simp [elt, Fp25519.w4, key]

theorem Frame.set (objs : List ℕ) (m : Mem) {p : Loc} (k : ℕ) (v : W) (h : p.obj ∈ objs) :
    Frame objs m (m.set p k v) := by
  intro o ho x
  unfold Mem.set
  rw [if_neg]
  rintro ⟨rfl, -⟩
  exact ho h

/-- The 32 bytes of an element, with one byte changed. -/
theorem ofBytes_modify (a : F4) (f : Byte → Byte) :
    F4.ofBytes (a.toBytes.modify 0 f) = { a with w0 := setByte a.w0 0 f } ∧
    F4.ofBytes (a.toBytes.modify 31 f) = { a with w3 := setByte a.w3 7 f } := by
  have h := Verif.Fp25519.F4.ofBytes_toBytes a
  have hl := Verif.Fp25519.F4.toBytes_length a
  have e0 := congrArg F4.w0 h
  have e1 := congrArg F4.w1 h
  have e2 := congrArg F4.w2 h
  have e3 := congrArg F4.w3 h
  simp only [F4.ofBytes] at e0 e1 e2 e3
  constructor
  · simp [F4.ofBytes, loadWord_modify a.toBytes (n := 0) (by omega) f, e0, e1, e2, e3]
  · simp [F4.ofBytes, loadWord_modify a.toBytes (n := 31) (by omega) f, e0, e1, e2, e3]

theorem toBytes_modify (a : F4) (f : Byte → Byte) :
    a.toBytes.modify 0 f = ({ a with w0 := setByte a.w0 0 f } : F4).toBytes ∧
    a.toBytes.modify 31 f = ({ a with w3 := setByte a.w3 7 f } : F4).toBytes := by
  have h := ofBytes_modify a f
  have hl := Verif.Fp25519.F4.toBytes_length a
  have key : ∀ (l : List Byte) (b : F4), l.length = 32 → F4.ofBytes l = b → l = b.toBytes := by
    intro l b h1 h2
    subst h2
    apply leNat_inj (by rw [h1, Verif.Fp25519.F4.toBytes_length])
    zify
    rw [Verif.Fp25519.F4.leNat_toBytes, Verif.Fp25519.F4.ofBytes_val h1]
  exact ⟨key _ _ (by simp [hl]) h.1, key _ _ (by simp [hl]) h.2⟩

/-- The bytes in the first four words at a pointer. -/
def bytesAt (m : Mem) (p : Loc) : List Byte := (elt m p).toBytes

theorem wp_clampKey (n : ℕ) (Q : St → Prop) (s : St) (sk : Loc) (hsk : 10 ≤ sk.obj)
    (h : ∀ t : St, t.vars = s.vars → Frame [1] s.mem t.mem →
      elt t.mem secret = F4.ofBytes (X25519.clamp (bytesAt s.mem sk)) → Q t) :
    wp n (clampKey sk) Q s := by
  simp only [clampKey, block, wp_seq]
  refine does_copy n (c := secret) (a := sk) (Or.inr (Or.inl (by
    have : secret.obj = 1 := rfl
    omega))) _ _ fun l => ?_
  simp only [wp_seq, wp_byte, wp_skip, St.upd]
  refine h _ rfl ?_ ?_
  · exact ((Frame.put _ _ _ (by decide)).trans (Frame.set _ _ _ _ (by decide))).trans
      (Frame.set _ _ _ _ (by decide))
  · simp only [onMem, Nat.zero_div, Nat.zero_mod]
    rw [(elt_set _ _ _).2, (elt_set _ _ _).1, Fp25519.elt_put_self, X25519.clamp, bytesAt,
      (toBytes_modify _ _).1, (ofBytes_modify _ _).2]
    simp [Mem.get, Mem.set, Mem.put, l4, elt, Fp25519.w4]

theorem wp_start (n : ℕ) (Q : St → Prop) (s : St) (pt : Loc) (hpt : 10 ≤ pt.obj)
    (h : ∀ t : St, t.vars = s.vars → Frame [0, 3, 5] s.mem t.mem →
      elt t.mem X1 = F4.ofBytes (X25519.maskTop (bytesAt s.mem pt)) →
      view t.mem t.vars.words.prev = ⟨⟨1#64, 0#64, 0#64, 0#64⟩, Verif.Fp25519.Full.zero,
        F4.ofBytes (X25519.maskTop (bytesAt s.mem pt)), ⟨1#64, 0#64, 0#64, 0#64⟩,
        s.vars.words.prev⟩ → Q t) :
    wp n (start pt) Q s := by
  simp only [start, block, wp_seq]
  refine does_copy n (c := session) (a := pt) (Or.inr (Or.inl (by
    have : session.obj = 0 := rfl
    omega))) _ _ fun l => ?_
  simp only [wp_seq, wp_byte, St.upd]
  refine does_copy n (c := X1) (a := session) (by decide) _ _ fun l => ?_
  simp only [wp_seq]
  refine does_copy n (c := X3) (a := session) (by decide) _ _ fun l => ?_
  simp only [wp_seq]
  refine does_zero n (c := Z3) _ _ fun l => ?_
  simp only [wp_seq]
  refine does_zero n (c := X2) _ _ fun l => ?_
  simp only [wp_seq]
  refine does_zero n (c := Z2) _ _ fun l => ?_
  simp only [store, wp_seq, wp_store, wp_skip, St.upd, onMem]
  have e : ∀ (m : Mem) (p : Loc), m.put p [0, 0, 0, 0] = m.put p (l4 Verif.Fp25519.Full.zero) :=
    fun _ _ => rfl
  simp only [e]
  have e2 : ∀ v, elt (Mem.set (s.mem.put session (l4 (elt s.mem pt))) session (31 / 8) v) session =
      { elt s.mem pt with w3 := v } := by
    intro v
    rw [(elt_set _ _ _).2, Fp25519.elt_put_self]
  have e3 : Mem.get (s.mem.put session (l4 (elt s.mem pt))) session (31 / 8) = (elt s.mem pt).w3 := by
    simp [Mem.get, Mem.put, l4]
  have e4 : F4.ofBytes (X25519.maskTop (bytesAt s.mem pt)) =
      { elt s.mem pt with w3 := setByte (elt s.mem pt).w3 7 (· &&& 0x7F#8) } :=
    (ofBytes_modify _ _).2
  refine h _ rfl ?_ ?_ ?_
  · refine Frame.trans ?_ (Frame.set _ _ _ _ (by decide))
    refine Frame.trans ?_ (Frame.set _ _ _ _ (by decide))
    refine Frame.trans ?_ (Frame.put _ _ _ (by decide))
    refine Frame.trans ?_ (Frame.put _ _ _ (by decide))
    refine Frame.trans ?_ (Frame.put _ _ _ (by decide))
    refine Frame.trans ?_ (Frame.put _ _ _ (by decide))
    refine Frame.trans ?_ (Frame.put _ _ _ (by decide))
    refine Frame.trans ?_ (Frame.set _ _ _ _ (by decide))
    exact Frame.put _ _ _ (by decide)
  · simp (disch := decide) only [elt_set_apart, elt_put4, Fp25519.elt_put_self, e2, e3, e4]
  · simp (disch := decide) only [view, elt_set_apart, elt_put4, Fp25519.elt_put_self, e2, e3, e4,
      (elt_set _ _ _).1, Verif.Fp25519.Full.zero]

/-! ## Wiping -/

/-- `spc_memset` clears every bit and nothing else. -/
theorem wp_wipe (Q : St → Prop) (s : St)
    (h : ∀ t : St, elt t.mem secret = Verif.Fp25519.Full.zero → Frame [1] s.mem t.mem → Q t) :
    wp 40 (wipe secret) Q s := by
  refine wp_le (n := 0 + 32 + 1) (by norm_num) ?_
  simp only [wipe, block, wp_seq, wp_ints]
  refine wp_while (n := 0) (fun k t => t.vars.ints.len = k ∧ k ≤ 32 ∧ Frame [1] s.mem t.mem ∧
      ∀ w < 4, ∀ b < 64, k ≤ 8 * w + b / 8 → (t.mem.get secret w).getLsbD b = false)
    ?_ ?_ 32 _ ⟨rfl, le_refl _, Frame.refl _ _, fun w hw b hb hk => by omega⟩
  · rintro t ⟨h1, -, h3, h4⟩
    refine ⟨by simp [h1], (wp_skip _ _ _).2 (h _ ?_ h3)⟩
    have z : ∀ w < 4, t.mem.get secret w = 0#64 := by
      intro w hw
      apply BitVec.eq_of_getLsbD_eq
      intro i hi
      rw [h4 w hw i hi (by omega)]
      simp
    simp [elt, Fp25519.w4, Verif.Fp25519.Full.zero, z]
  · rintro k t ⟨h1, h2, h3, h4⟩
    refine ⟨by simp [h1]; omega, ?_⟩
    simp only [wp_seq, wp_ints, wp_byte, wp_skip, St.upd]
    have e : (t.vars.ints.len - 1).toNat = k := by rw [h1]; simp
    rw [e]
    refine ⟨by simp [h1], by omega, h3.trans (Frame.set _ _ _ _ (by decide)), ?_⟩
    intro w hw b hb hk
    by_cases hwk : w = k / 8
    · subst hwk
      have : Mem.get (t.mem.set secret (k / 8) (setByte (t.mem.get secret (k / 8)) (k % 8)
          fun _ => 0#8)) secret (k / 8) = setByte (t.mem.get secret (k / 8)) (k % 8)
          fun _ => 0#8 := by simp [Mem.get, Mem.set]
      rw [this, setByte_getLsbD _ _ hb]
      split_ifs with hc
      · simp
      · exact h4 _ hw b hb (by omega)
    · have : Mem.get (t.mem.set secret (k / 8) (setByte (t.mem.get secret (k / 8)) (k % 8)
          fun _ => 0#8)) secret w = t.mem.get secret w := by
        simp [Mem.get, Mem.set, hwk]
      rw [this]
      exact h4 w hw b hb (by omega)

/-! ## The whole function -/

/-- The local arrays. -/
def locals : List ℕ := [0, 1, 2, 3, 4, 5, 6, 7, 8, 9]

theorem wp_shared (isa : Isa) (Q : St → Prop) (s : St) (out pt sk : Loc) (ho : 10 ≤ out.obj)
    (hp : 10 ≤ pt.obj) (hs : 10 ≤ sk.obj)
    (h : ∀ t : St,
      bytesAt t.mem out = X25519.shared_x64 isa (bytesAt s.mem pt) (bytesAt s.mem sk) →
      elt t.mem secret = Verif.Fp25519.Full.zero →
      (∀ o, o ∉ locals → ∀ x, ¬Within out 4 o x → t.mem o x = s.mem o x) → Q t) :
    wp 120 (shared isa out pt sk) Q s := by
  simp only [shared, block, wp_seq, wp_ints, wp_words]
  refine wp_clampKey 120 _ _ sk hs fun t1 v1 f1 k1 => ?_
  simp only [wp_seq]
  refine wp_start 120 _ _ pt hp fun t2 v2 f2 x2 w2 => ?_
  simp only [wp_seq]
  refine wp_mainLoop isa _ _ fun t3 w3 f3 => ?_
  simp only [wp_seq]
  refine wp_le (n := 40) (by norm_num) (wp_wipe _ _ fun t4 z4 f4 => ?_)
  simp only [wp_seq]
  refine wp_le (n := 102) (by norm_num) (wp_inv isa _ _ fun t5 i5 f5 => ?_)
  simp only [wp_seq]
  refine does_mul 120 isa (c := X2) (a := X2) (b := A) (by decide) (by decide) (by decide) _ _
    fun l => ?_
  simp only [ser, wp_seq]
  have ho' : ∀ p : Loc, p.obj < 10 → p.obj ≠ out.obj := fun p hp => by omega
  refine does_copy 120 (c := out) (a := X2) (Or.inr (Or.inl (ho' _ (by decide)))) _ _ fun l => ?_
  rw [wp, wp_skip]
  simp only at v1 k1 f1
  have hs1 : elt t1.mem pt = elt s.mem pt := f1.elt (by simp; omega)
  have hk2 : elt t2.mem secret = elt t1.mem secret := f2.elt (by decide)
  have hz : elt t5.mem X2 = elt t3.mem X2 :=
    (f5.elt (by decide)).trans (f4.elt (by decide))
  have hz2 : elt t4.mem Z2 = elt t3.mem Z2 := f4.elt (by decide)
  rw [x2, hk2, k1, w2] at w3
  have hx := congrArg X25519.St.X2 w3
  have hy := congrArg X25519.St.Z2 w3
  simp only [view] at hx hy
  refine h _ ?_ ?_ ?_
  · simp only [St.upd, onMem, bytesAt, Fp25519.elt_put_self]
    rw [i5, hz, hz2, hx, hy, v1]
    simp only [X25519.shared_x64, Verif.Fp25519.Full.ser, bytesAt, hs1]
  · simp only [St.upd, onMem]
    rw [elt_put4 _ _ (Or.inl (ho' secret (by decide))),
      elt_put4 _ _ (Or.inl (ho' secret (by decide)))]
    rw [elt_put4 _ _ (by decide), elt_put8 _ _ (by decide), f5.elt (by decide), z4]
  · intro o hn x hx
    have hin : ∀ l : List ℕ, (∀ y ∈ l, y ∈ locals) → o ∉ l := fun l hl hy => hn (hl o hy)
    have hw : ∀ (m : Mem) (v : F4), (m.put out (l4 v)) o x = m o x := by
      intro m v
      unfold Mem.put
      rw [if_neg]
      simpa [Within, l4] using hx
    simp only [St.upd, onMem]
    rw [hw, hw, Mem.put_other _ _ _ (by intro e; exact hin [3] (by decide) (by simp [e, X2])),
      Mem.put_other _ _ _ (by intro e; exact hin [6] (by decide) (by simp [e, buffer_1w])),
      f5 o (hin _ (by decide)), f4 o (hin _ (by decide)), f3 o (hin _ (by decide)),
      f2 o (hin _ (by decide)), f1 o (hin _ (by decide))]

end Verif.X86.Ladder
