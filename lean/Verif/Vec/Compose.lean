import Verif.Vec.Inline
import Verif.Vec.PointShapes

/-!
# The calls of a function that calls others

A called function runs on the objects of its caller as it runs on the memory of a call, so that
what is known of it can be used at each place where it is called. -/

namespace Verif.Vec

/-- The arguments that point to the places `l`. -/
def toArgs (l : List Place) : List Arg := l.map fun P => .par P.1 P.2

theorem toArgs_getD (l : List Place) (k : ℕ) :
    (toArgs l).getD k (.par 0 0) = .par (args l k).1 (args l k).2 := by
  simp only [toArgs, args, List.getD_eq_getElem?_getD, List.getElem?_map]
  cases l[k]? <;> rfl

theorem Ex.eval_sub (l : List Place) (d : ℕ) (m : Mem) (ρ : Regs) :
    ∀ e : Ex, (e.sub (toArgs l) d).eval (view idp m) ρ = e.eval (view (args l) m) ρ := by
  intro e
  induction e with
  | r n => rfl
  | ld k i => simp only [Ex.sub, toArgs_getD, Ex.eval, view, idp, Nat.zero_add]
  | ld128 k i =>
    simp only [Ex.sub, toArgs_getD, Ex.eval, view, idp, Nat.zero_add]
    rw [show (2 * (args l k).2 + i) / 2 = (args l k).2 + i / 2 by omega]
    simp only [half, show (2 * (args l k).2 + i) % 2 = i % 2 by omega]
  | lit => rfl
  | cst => rfl
  | un o x ih => simp only [Ex.sub, Ex.eval, ih]
  | bin o x y ihx ihy => simp only [Ex.sub, Ex.eval, ihx, ihy]
  | blendv x y z ihx ihy ihz => simp only [Ex.sub, Ex.eval, ihx, ihy, ihz]

theorem step_sub (l : List Place) (d : ℕ) (x : Mem × Regs) (s : Stmt) :
    step idp x (s.sub (toArgs l) d) = step (args l) x s := by
  cases s with
  | set n e => simp only [Stmt.sub, step, Ex.eval_sub]
  | st k i e => simp only [Stmt.sub, toArgs_getD, step, Ex.eval_sub, idp, Nat.zero_add]
  | st128 k i e =>
    simp only [Stmt.sub, toArgs_getD, step, Ex.eval_sub, idp, Nat.zero_add, view, setHalf,
      show (2 * (args l k).2 + i) / 2 = (args l k).2 + i / 2 by omega,
      show (2 * (args l k).2 + i) % 2 = i % 2 by omega]

theorem run_at (g : Fn) (l : List Place) (d : ℕ) (x : Mem × Regs) :
    run idp (g.at (toArgs l) d) x = run (args l) g.body x := by
  simp only [run, Fn.at, List.foldl_map, step_sub]

theorem at_call (g : Fn) (l : List Place) (d : ℕ) (x : Mem × Regs) :
    (run idp (g.at (toArgs l) d) x).1 = g.call l x.1 x.2 := by
  rw [run_at, Fn.call]

/-- Two regions of the objects of the caller have no cell in common. -/
def sep (P : Place) (a : ℕ) (Q : Place) (b : ℕ) : Bool :=
  P.1 != Q.1 || decide (P.2 + a ≤ Q.2) || decide (Q.2 + b ≤ P.2)

theorem apart_of_sep {P Q : Place} {a b : ℕ} (h : sep P a Q b = true) : Apart P a Q b := by
  intro o c ⟨h1, h2⟩
  simp only [sep, Bool.or_eq_true, bne_iff_ne, ne_eq, decide_eq_true_eq] at h
  rcases h with (h | h) | h
  · exact h (h1.1.symm.trans h2.1)
  · have := h1.2.2; have := h2.2.1; omega
  · have := h2.2.2; have := h1.2.1; omega

/-- Two elements are the same one or have no cell in common. -/
def eqsep (P Q : Place) (n : ℕ) : Bool := P == Q || sep P n Q n

theorem same_of_eqsep {P Q : Place} {n : ℕ} (h : eqsep P Q n = true) : Same n P Q := by
  simp only [eqsep, Bool.or_eq_true, beq_iff_eq] at h
  exact h.imp id apart_of_sep

section
variable {E E' : Type} {L : Lay E} {L' : Lay E'} {f : Fn} {d : ℕ} {x : Mem × Regs}

theorem lk_at (k o : ℕ) : lk L x k o = L.at x.1 (k, o) := rfl

theorem lk_frame (hL : L.Loc) {y : Mem × Regs} {k o : ℕ}
    (h : ∀ o' c, In (k, o) L.n o' c → y.1 o' c = x.1 o' c) : lk L y k o = lk L x k o :=
  at_unchanged hL h

variable {k o k₁ o₁ k₂ o₂ k' o' : ℕ}

theorem Combines.get {op : E → E → E} (h : Combines L f op)
    (h₁ : eqsep (k, o) (k₁, o₁) L.n = true) (h₂ : eqsep (k, o) (k₂, o₂) L.n = true) :
    lk L (run idp (f.at [.par k o, .par k₁ o₁, .par k₂ o₂] d) x) k o
      = op (lk L x k₁ o₁) (lk L x k₂ o₂) := by
  rw [lk_at]
  exact (congrArg (L.at · (k, o)) (at_call f [(k, o), (k₁, o₁), (k₂, o₂)] d x)).trans
    (h x.1 x.2 _ _ _ (same_of_eqsep h₁) (same_of_eqsep h₂)).1

theorem Combines.fr {op : E → E → E} (h : Combines L f op) (hL' : L'.Loc)
    (h₁ : eqsep (k, o) (k₁, o₁) L.n = true) (h₂ : eqsep (k, o) (k₂, o₂) L.n = true)
    (hs : sep (k', o') L'.n (k, o) L.n = true) :
    lk L' (run idp (f.at [.par k o, .par k₁ o₁, .par k₂ o₂] d) x) k' o' = lk L' x k' o' := by
  apply lk_frame hL'
  intro a c hi
  exact (congrFun (congrFun (at_call f [(k, o), (k₁, o₁), (k₂, o₂)] d x) a) c).trans
    ((h x.1 x.2 _ _ _ (same_of_eqsep h₁) (same_of_eqsep h₂)).2 a c
      fun hc => apart_of_sep hs a c ⟨hi, hc⟩)

theorem Updates2.get₁ {op : E → E → E × E} (h : Updates2 L f op)
    (h₁ : sep (k, o) L.n (k₁, o₁) L.n = true) :
    lk L (run idp (f.at [.par k o, .par k₁ o₁] d) x) k o
      = (op (lk L x k o) (lk L x k₁ o₁)).1 := by
  rw [lk_at]
  exact (congrArg (L.at · (k, o)) (at_call f [(k, o), (k₁, o₁)] d x)).trans
    (congrArg Prod.fst (h x.1 x.2 _ _ (apart_of_sep h₁)).1)

theorem Updates2.get₂ {op : E → E → E × E} (h : Updates2 L f op)
    (h₁ : sep (k, o) L.n (k₁, o₁) L.n = true) :
    lk L (run idp (f.at [.par k o, .par k₁ o₁] d) x) k₁ o₁
      = (op (lk L x k o) (lk L x k₁ o₁)).2 := by
  rw [lk_at]
  exact (congrArg (L.at · (k₁, o₁)) (at_call f [(k, o), (k₁, o₁)] d x)).trans
    (congrArg Prod.snd (h x.1 x.2 _ _ (apart_of_sep h₁)).1)

theorem Updates2.fr {op : E → E → E × E} (h : Updates2 L f op) (hL' : L'.Loc)
    (h₁ : sep (k, o) L.n (k₁, o₁) L.n = true)
    (hs : sep (k', o') L'.n (k, o) L.n = true) (hs₁ : sep (k', o') L'.n (k₁, o₁) L.n = true) :
    lk L' (run idp (f.at [.par k o, .par k₁ o₁] d) x) k' o' = lk L' x k' o' := by
  apply lk_frame hL'
  intro a c hi
  exact (congrFun (congrFun (at_call f [(k, o), (k₁, o₁)] d x) a) c).trans
    ((h x.1 x.2 _ _ (apart_of_sep h₁)).2 a c
      (fun hc => apart_of_sep hs a c ⟨hi, hc⟩) (fun hc => apart_of_sep hs₁ a c ⟨hi, hc⟩))

theorem Updates.get {op : E → E} (h : Updates L f op) :
    lk L (run idp (f.at [.par k o] d) x) k o = op (lk L x k o) := by
  rw [lk_at]
  exact (congrArg (L.at · (k, o)) (at_call f [(k, o)] d x)).trans (h x.1 x.2 _).1

theorem Updates.fr {op : E → E} (h : Updates L f op) (hL' : L'.Loc)
    (hs : sep (k', o') L'.n (k, o) L.n = true) :
    lk L' (run idp (f.at [.par k o] d) x) k' o' = lk L' x k' o' := by
  apply lk_frame hL'
  intro a c hi
  exact (congrFun (congrFun (at_call f [(k, o)] d x) a) c).trans
    ((h x.1 x.2 _).2 a c fun hc => apart_of_sep hs a c ⟨hi, hc⟩)

theorem Maps.get {op : E → E} (h : Maps L f op) (h₁ : eqsep (k, o) (k₁, o₁) L.n = true) :
    lk L (run idp (f.at [.par k o, .par k₁ o₁] d) x) k o = op (lk L x k₁ o₁) := by
  rw [lk_at]
  exact (congrArg (L.at · (k, o)) (at_call f [(k, o), (k₁, o₁)] d x)).trans
    (h x.1 x.2 _ _ (same_of_eqsep h₁)).1

theorem Maps.fr {op : E → E} (h : Maps L f op) (hL' : L'.Loc)
    (h₁ : eqsep (k, o) (k₁, o₁) L.n = true) (hs : sep (k', o') L'.n (k, o) L.n = true) :
    lk L' (run idp (f.at [.par k o, .par k₁ o₁] d) x) k' o' = lk L' x k' o' := by
  apply lk_frame hL'
  intro a c hi
  exact (congrFun (congrFun (at_call f [(k, o), (k₁, o₁)] d x) a) c).trans
    ((h x.1 x.2 _ _ (same_of_eqsep h₁)).2 a c fun hc => apart_of_sep hs a c ⟨hi, hc⟩)

/-- The condition of two results, for regions of the objects of the caller. -/
def someB (n : ℕ) (ca cb da db : Bool) (C D A B : Place) : Bool :=
  sep C n D n && ((C == A && ca) || sep C n A n) && ((C == B && cb) || sep C n B n) &&
    ((D == A && da) || sep D n A n) && ((D == B && db) || sep D n B n)

theorem some_of_someB {n : ℕ} {ca cb da db : Bool} {C D A B : Place}
    (h : someB n ca cb da db C D A B = true) : SomeAlias n ca cb da db C D A B := by
  simp only [someB, Bool.and_eq_true, Bool.or_eq_true, beq_iff_eq] at h
  obtain ⟨⟨⟨⟨h1, h2⟩, h3⟩, h4⟩, h5⟩ := h
  exact ⟨apart_of_sep h1, h2.imp id apart_of_sep, h3.imp id apart_of_sep,
    h4.imp id apart_of_sep, h5.imp id apart_of_sep⟩

variable {k₃ o₃ k₄ o₄ n : ℕ} {ca cb da db : Bool}

theorem Combines2.get₁ {op : E → E → E × E}
    (h : Combines2 L (SomeAlias n ca cb da db) f op)
    (h₁ : someB n ca cb da db (k, o) (k₁, o₁) (k₂, o₂) (k₃, o₃) = true) :
    lk L (run idp (f.at [.par k o, .par k₁ o₁, .par k₂ o₂, .par k₃ o₃] d) x) k o
      = (op (lk L x k₂ o₂) (lk L x k₃ o₃)).1 := by
  rw [lk_at]
  exact (congrArg (L.at · (k, o))
    (at_call f [(k, o), (k₁, o₁), (k₂, o₂), (k₃, o₃)] d x)).trans
    (congrArg Prod.fst (h x.1 x.2 _ _ _ _ (some_of_someB h₁)).1)

theorem Combines2.get₂ {op : E → E → E × E}
    (h : Combines2 L (SomeAlias n ca cb da db) f op)
    (h₁ : someB n ca cb da db (k, o) (k₁, o₁) (k₂, o₂) (k₃, o₃) = true) :
    lk L (run idp (f.at [.par k o, .par k₁ o₁, .par k₂ o₂, .par k₃ o₃] d) x) k₁ o₁
      = (op (lk L x k₂ o₂) (lk L x k₃ o₃)).2 := by
  rw [lk_at]
  exact (congrArg (L.at · (k₁, o₁))
    (at_call f [(k, o), (k₁, o₁), (k₂, o₂), (k₃, o₃)] d x)).trans
    (congrArg Prod.snd (h x.1 x.2 _ _ _ _ (some_of_someB h₁)).1)

theorem Combines2.fr {op : E → E → E × E}
    (h : Combines2 L (SomeAlias n ca cb da db) f op) (hL' : L'.Loc)
    (h₁ : someB n ca cb da db (k, o) (k₁, o₁) (k₂, o₂) (k₃, o₃) = true)
    (hs : sep (k', o') L'.n (k, o) L.n = true) (hs₁ : sep (k', o') L'.n (k₁, o₁) L.n = true) :
    lk L' (run idp (f.at [.par k o, .par k₁ o₁, .par k₂ o₂, .par k₃ o₃] d) x) k' o'
      = lk L' x k' o' := by
  apply lk_frame hL'
  intro a c hi
  exact (congrFun (congrFun (at_call f [(k, o), (k₁, o₁), (k₂, o₂), (k₃, o₃)] d x) a) c).trans
    ((h x.1 x.2 _ _ _ _ (some_of_someB h₁)).2 a c
      (fun hc => apart_of_sep hs a c ⟨hi, hc⟩) (fun hc => apart_of_sep hs₁ a c ⟨hi, hc⟩))

/-- Two parts and a whole, apart. -/
theorem Splits2.both {op : E' → E × E} (h : Splits2 L' L f op)
    (h₁ : sep (k, o) L.n (k₁, o₁) L.n = true) (h₂ : sep (k, o) L.n (k₂, o₂) L'.n = true)
    (h₃ : sep (k₁, o₁) L.n (k₂, o₂) L'.n = true) :
    (lk L (run idp (f.at [.par k o, .par k₁ o₁, .par k₂ o₂] d) x) k o,
        lk L (run idp (f.at [.par k o, .par k₁ o₁, .par k₂ o₂] d) x) k₁ o₁)
        = op (lk L' x k₂ o₂) ∧
      ∀ a c, ¬In (k, o) L.n a c → ¬In (k₁, o₁) L.n a c →
        (run idp (f.at [.par k o, .par k₁ o₁, .par k₂ o₂] d) x).1 a c = x.1 a c := by
  have hc := h x.1 x.2 (k, o) (k₁, o₁) (k₂, o₂) (apart_of_sep h₁) (by
    simp only [List.mem_cons, List.not_mem_nil, or_false, forall_eq_or_imp, forall_eq]
    exact ⟨apart_of_sep h₂, apart_of_sep h₃⟩)
  rw [← at_call f [(k, o), (k₁, o₁), (k₂, o₂)] d x] at hc
  exact hc

theorem Splits2.get₁ {op : E' → E × E} (h : Splits2 L' L f op)
    (h₁ : sep (k, o) L.n (k₁, o₁) L.n = true) (h₂ : sep (k, o) L.n (k₂, o₂) L'.n = true)
    (h₃ : sep (k₁, o₁) L.n (k₂, o₂) L'.n = true) :
    lk L (run idp (f.at [.par k o, .par k₁ o₁, .par k₂ o₂] d) x) k o
      = (op (lk L' x k₂ o₂)).1 := congrArg Prod.fst (h.both h₁ h₂ h₃).1

theorem Splits2.get₂ {op : E' → E × E} (h : Splits2 L' L f op)
    (h₁ : sep (k, o) L.n (k₁, o₁) L.n = true) (h₂ : sep (k, o) L.n (k₂, o₂) L'.n = true)
    (h₃ : sep (k₁, o₁) L.n (k₂, o₂) L'.n = true) :
    lk L (run idp (f.at [.par k o, .par k₁ o₁, .par k₂ o₂] d) x) k₁ o₁
      = (op (lk L' x k₂ o₂)).2 := congrArg Prod.snd (h.both h₁ h₂ h₃).1

theorem Splits2.fr {F : Type} {M : Lay F} {op : E' → E × E} (h : Splits2 L' L f op) (hM : M.Loc)
    (h₁ : sep (k, o) L.n (k₁, o₁) L.n = true) (h₂ : sep (k, o) L.n (k₂, o₂) L'.n = true)
    (h₃ : sep (k₁, o₁) L.n (k₂, o₂) L'.n = true)
    (hs : sep (k', o') M.n (k, o) L.n = true) (hs₁ : sep (k', o') M.n (k₁, o₁) L.n = true) :
    lk M (run idp (f.at [.par k o, .par k₁ o₁, .par k₂ o₂] d) x) k' o' = lk M x k' o' :=
  lk_frame hM fun a c hi => (h.both h₁ h₂ h₃).2 a c
    (fun hc => apart_of_sep hs a c ⟨hi, hc⟩) (fun hc => apart_of_sep hs₁ a c ⟨hi, hc⟩)

theorem Joins2.both {op : E → E → E'} (h : Joins2 L' L f op)
    (h₁ : sep (k, o) L'.n (k₁, o₁) L.n = true) (h₂ : sep (k, o) L'.n (k₂, o₂) L.n = true) :
    lk L' (run idp (f.at [.par k o, .par k₁ o₁, .par k₂ o₂] d) x) k o
        = op (lk L x k₁ o₁) (lk L x k₂ o₂) ∧
      ∀ a c, ¬In (k, o) L'.n a c →
        (run idp (f.at [.par k o, .par k₁ o₁, .par k₂ o₂] d) x).1 a c = x.1 a c := by
  have hc := h x.1 x.2 (k, o) (k₁, o₁) (k₂, o₂) (by
    simp only [List.mem_cons, List.not_mem_nil, or_false, forall_eq_or_imp, forall_eq]
    exact ⟨apart_of_sep h₁, apart_of_sep h₂⟩)
  rw [← at_call f [(k, o), (k₁, o₁), (k₂, o₂)] d x] at hc
  exact hc

theorem Joins2.get {op : E → E → E'} (h : Joins2 L' L f op)
    (h₁ : sep (k, o) L'.n (k₁, o₁) L.n = true) (h₂ : sep (k, o) L'.n (k₂, o₂) L.n = true) :
    lk L' (run idp (f.at [.par k o, .par k₁ o₁, .par k₂ o₂] d) x) k o
      = op (lk L x k₁ o₁) (lk L x k₂ o₂) := (h.both h₁ h₂).1

theorem Joins2.fr {F : Type} {M : Lay F} {op : E → E → E'} (h : Joins2 L' L f op) (hM : M.Loc)
    (h₁ : sep (k, o) L'.n (k₁, o₁) L.n = true) (h₂ : sep (k, o) L'.n (k₂, o₂) L.n = true)
    (hs : sep (k', o') M.n (k, o) L'.n = true) :
    lk M (run idp (f.at [.par k o, .par k₁ o₁, .par k₂ o₂] d) x) k' o' = lk M x k' o' :=
  lk_frame hM fun a c hi => (h.both h₁ h₂).2 a c fun hc => apart_of_sep hs a c ⟨hi, hc⟩

/-- The four parts and the whole are apart. -/
def sep4 (n n' : ℕ) (P₀ P₁ P₂ P₃ C : Place) : Bool :=
  sep P₀ n P₁ n && sep P₀ n P₂ n && sep P₀ n P₃ n && sep P₁ n P₂ n && sep P₁ n P₃ n &&
    sep P₂ n P₃ n && sep P₀ n C n' && sep P₁ n C n' && sep P₂ n C n' && sep P₃ n C n'

theorem Splits4.all {op : E' → E × E × E × E} (h : Splits4 L' L f op)
    (h₁ : sep4 L.n L'.n (k, o) (k₁, o₁) (k₂, o₂) (k₃, o₃) (k₄, o₄) = true) :
    let y := run idp (f.at [.par k o, .par k₁ o₁, .par k₂ o₂, .par k₃ o₃, .par k₄ o₄] d) x
    (lk L y k o, lk L y k₁ o₁, lk L y k₂ o₂, lk L y k₃ o₃) = op (lk L' x k₄ o₄) ∧
      ∀ a c, ¬In (k, o) L.n a c → ¬In (k₁, o₁) L.n a c → ¬In (k₂, o₂) L.n a c →
        ¬In (k₃, o₃) L.n a c → y.1 a c = x.1 a c := by
  simp only [sep4, Bool.and_eq_true] at h₁
  obtain ⟨⟨⟨⟨⟨⟨⟨⟨⟨a1, a2⟩, a3⟩, a4⟩, a5⟩, a6⟩, a7⟩, a8⟩, a9⟩, a10⟩ := h₁
  have hc := h x.1 x.2 (k, o) (k₁, o₁) (k₂, o₂) (k₃, o₃) (k₄, o₄) (by
    simp only [List.pairwise_cons, List.mem_cons, List.not_mem_nil, or_false, forall_eq_or_imp,
      forall_eq, false_imp_iff, implies_true, List.Pairwise.nil, and_true]
    exact ⟨⟨apart_of_sep a1, apart_of_sep a2, apart_of_sep a3⟩,
      ⟨apart_of_sep a4, apart_of_sep a5⟩, apart_of_sep a6⟩) (by
    simp only [List.mem_cons, List.not_mem_nil, or_false, forall_eq_or_imp, forall_eq]
    exact ⟨apart_of_sep a7, apart_of_sep a8, apart_of_sep a9, apart_of_sep a10⟩)
  rw [← at_call f [(k, o), (k₁, o₁), (k₂, o₂), (k₃, o₃), (k₄, o₄)] d x] at hc
  refine ⟨hc.1, fun a c b0 b1 b2 b3 => hc.2 a c ?_⟩
  simp only [List.mem_cons, List.not_mem_nil, or_false, forall_eq_or_imp, forall_eq]
  exact ⟨b0, b1, b2, b3⟩

theorem Splits4.get₁ {op : E' → E × E × E × E} (h : Splits4 L' L f op)
    (h₁ : sep4 L.n L'.n (k, o) (k₁, o₁) (k₂, o₂) (k₃, o₃) (k₄, o₄) = true) :
    lk L (run idp (f.at [.par k o, .par k₁ o₁, .par k₂ o₂, .par k₃ o₃, .par k₄ o₄] d) x) k o
      = (op (lk L' x k₄ o₄)).1 := congrArg (·.1) (h.all h₁).1

theorem Splits4.get₂ {op : E' → E × E × E × E} (h : Splits4 L' L f op)
    (h₁ : sep4 L.n L'.n (k, o) (k₁, o₁) (k₂, o₂) (k₃, o₃) (k₄, o₄) = true) :
    lk L (run idp (f.at [.par k o, .par k₁ o₁, .par k₂ o₂, .par k₃ o₃, .par k₄ o₄] d) x) k₁ o₁
      = (op (lk L' x k₄ o₄)).2.1 := congrArg (·.2.1) (h.all h₁).1

theorem Splits4.get₃ {op : E' → E × E × E × E} (h : Splits4 L' L f op)
    (h₁ : sep4 L.n L'.n (k, o) (k₁, o₁) (k₂, o₂) (k₃, o₃) (k₄, o₄) = true) :
    lk L (run idp (f.at [.par k o, .par k₁ o₁, .par k₂ o₂, .par k₃ o₃, .par k₄ o₄] d) x) k₂ o₂
      = (op (lk L' x k₄ o₄)).2.2.1 := congrArg (·.2.2.1) (h.all h₁).1

theorem Splits4.get₄ {op : E' → E × E × E × E} (h : Splits4 L' L f op)
    (h₁ : sep4 L.n L'.n (k, o) (k₁, o₁) (k₂, o₂) (k₃, o₃) (k₄, o₄) = true) :
    lk L (run idp (f.at [.par k o, .par k₁ o₁, .par k₂ o₂, .par k₃ o₃, .par k₄ o₄] d) x) k₃ o₃
      = (op (lk L' x k₄ o₄)).2.2.2 := congrArg (·.2.2.2) (h.all h₁).1

theorem Splits4.fr {F : Type} {M : Lay F} {op : E' → E × E × E × E} (h : Splits4 L' L f op)
    (hM : M.Loc) (h₁ : sep4 L.n L'.n (k, o) (k₁, o₁) (k₂, o₂) (k₃, o₃) (k₄, o₄) = true)
    (hs : sep (k', o') M.n (k, o) L.n = true) (hs₁ : sep (k', o') M.n (k₁, o₁) L.n = true)
    (hs₂ : sep (k', o') M.n (k₂, o₂) L.n = true) (hs₃ : sep (k', o') M.n (k₃, o₃) L.n = true) :
    lk M (run idp (f.at [.par k o, .par k₁ o₁, .par k₂ o₂, .par k₃ o₃, .par k₄ o₄] d) x) k' o'
      = lk M x k' o' :=
  lk_frame hM fun a c hi => (h.all h₁).2 a c
    (fun hc => apart_of_sep hs a c ⟨hi, hc⟩) (fun hc => apart_of_sep hs₁ a c ⟨hi, hc⟩)
    (fun hc => apart_of_sep hs₂ a c ⟨hi, hc⟩) (fun hc => apart_of_sep hs₃ a c ⟨hi, hc⟩)

theorem SpoilsF.get {op : E → E → E} (h : SpoilsF L n f op)
    (h₁ : sep (k, o) L.n (k₁, o₁) L.n = true) (h₂ : sep (k, o) L.n (k₂, o₂) n = true)
    (h₃ : sep (k₁, o₁) L.n (k₂, o₂) n = true) :
    lk L (run idp (f.at [.par k o, .par k₁ o₁, .par k₂ o₂] d) x) k o
      = op (lk L x k o) (lk L x k₁ o₁) := by
  rw [lk_at]
  exact (congrArg (L.at · (k, o)) (at_call f [(k, o), (k₁, o₁), (k₂, o₂)] d x)).trans
    (h x.1 x.2 _ _ _ (apart_of_sep h₁) (apart_of_sep h₂) (apart_of_sep h₃)).1

theorem UpdatesF.get {op : E → E} (h : UpdatesF L n f op)
    (h₁ : sep (k, o) L.n (k₁, o₁) n = true) :
    lk L (run idp (f.at [.par k o, .par k₁ o₁] d) x) k o = op (lk L x k o) := by
  rw [lk_at]
  exact (congrArg (L.at · (k, o)) (at_call f [(k, o), (k₁, o₁)] d x)).trans
    (h x.1 x.2 _ _ (apart_of_sep h₁)).1

theorem UpdatesF.fr {op : E → E} (h : UpdatesF L n f op) (hL' : L'.Loc)
    (h₁ : sep (k, o) L.n (k₁, o₁) n = true)
    (hs : sep (k', o') L'.n (k, o) L.n = true) (hs₁ : sep (k', o') L'.n (k₁, o₁) n = true) :
    lk L' (run idp (f.at [.par k o, .par k₁ o₁] d) x) k' o' = lk L' x k' o' := by
  apply lk_frame hL'
  intro a c hi
  exact (congrFun (congrFun (at_call f [(k, o), (k₁, o₁)] d x) a) c).trans
    ((h x.1 x.2 _ _ (apart_of_sep h₁)).2 a c
      (fun hc => apart_of_sep hs a c ⟨hi, hc⟩) (fun hc => apart_of_sep hs₁ a c ⟨hi, hc⟩))

theorem ActsF.get {op : E → E' → E} (h : ActsF L L' n f op)
    (h₁ : sep (k, o) L.n (k₁, o₁) L'.n = true) (h₂ : sep (k, o) L.n (k₂, o₂) n = true)
    (h₃ : sep (k₁, o₁) L'.n (k₂, o₂) n = true) :
    lk L (run idp (f.at [.par k o, .par k₁ o₁, .par k₂ o₂] d) x) k o
      = op (lk L x k o) (lk L' x k₁ o₁) := by
  rw [lk_at]
  exact (congrArg (L.at · (k, o)) (at_call f [(k, o), (k₁, o₁), (k₂, o₂)] d x)).trans
    (h x.1 x.2 _ _ _ (apart_of_sep h₁) (apart_of_sep h₂) (apart_of_sep h₃)).1

theorem ActsF.fr {F : Type} {M : Lay F} {op : E → E' → E} (h : ActsF L L' n f op) (hM : M.Loc)
    (h₁ : sep (k, o) L.n (k₁, o₁) L'.n = true) (h₂ : sep (k, o) L.n (k₂, o₂) n = true)
    (h₃ : sep (k₁, o₁) L'.n (k₂, o₂) n = true)
    (hs : sep (k', o') M.n (k, o) L.n = true) (hs₂ : sep (k', o') M.n (k₂, o₂) n = true) :
    lk M (run idp (f.at [.par k o, .par k₁ o₁, .par k₂ o₂] d) x) k' o' = lk M x k' o' := by
  apply lk_frame hM
  intro a c hi
  exact (congrFun (congrFun (at_call f [(k, o), (k₁, o₁), (k₂, o₂)] d x) a) c).trans
    ((h x.1 x.2 _ _ _ (apart_of_sep h₁) (apart_of_sep h₂) (apart_of_sep h₃)).2.2 a c
      (fun hc => apart_of_sep hs a c ⟨hi, hc⟩) (fun hc => apart_of_sep hs₂ a c ⟨hi, hc⟩))

theorem AddsF.get {op : E → E → E} (h : AddsF L n f op)
    (h₁ : eqsep (k, o) (k₁, o₁) L.n = true) (h₂ : sep (k, o) L.n (k₂, o₂) n = true)
    (h₃ : sep (k₁, o₁) L.n (k₂, o₂) n = true) :
    lk L (run idp (f.at [.par k o, .par k₁ o₁, .par k₂ o₂] d) x) k o
      = op (lk L x k o) (lk L x k₁ o₁) := by
  rw [lk_at]
  exact (congrArg (L.at · (k, o)) (at_call f [(k, o), (k₁, o₁), (k₂, o₂)] d x)).trans
    (h x.1 x.2 _ _ _ (same_of_eqsep h₁) (apart_of_sep h₂) (apart_of_sep h₃)).1

theorem AddsF.fr {op : E → E → E} (h : AddsF L n f op) (hL' : L'.Loc)
    (h₁ : eqsep (k, o) (k₁, o₁) L.n = true) (h₂ : sep (k, o) L.n (k₂, o₂) n = true)
    (h₃ : sep (k₁, o₁) L.n (k₂, o₂) n = true)
    (hs : sep (k', o') L'.n (k, o) L.n = true) (hs₂ : sep (k', o') L'.n (k₂, o₂) n = true) :
    lk L' (run idp (f.at [.par k o, .par k₁ o₁, .par k₂ o₂] d) x) k' o' = lk L' x k' o' := by
  apply lk_frame hL'
  intro a c hi
  exact (congrFun (congrFun (at_call f [(k, o), (k₁, o₁), (k₂, o₂)] d x) a) c).trans
    ((h x.1 x.2 _ _ _ (same_of_eqsep h₁) (apart_of_sep h₂) (apart_of_sep h₃)).2.2 a c
      (fun hc => apart_of_sep hs a c ⟨hi, hc⟩) (fun hc => apart_of_sep hs₂ a c ⟨hi, hc⟩))

/-! ### A constant array as the last argument -/

/-- The cells of a constant array. -/
def arrCells (w : List ℕ) : ℕ → V := fun i =>
  lit4 (w.getD (4 * i) 0) (w.getD (4 * i + 1) 0) (w.getD (4 * i + 2) 0) (w.getD (4 * i + 3) 0)

/-- A statement does not store through the parameter `k`. -/
def Stmt.spares (k : ℕ) : Stmt → Bool
  | .set _ _ => true
  | .st k' _ _ => k' != k
  | .st128 k' _ _ => k' != k

/-- The memory `m'` is `m` with the array `w` as the object `N`. -/
def WithArr (N : ℕ) (w : List ℕ) (m m' : Mem) : Prop :=
  (∀ o c, o ≠ N → m' o c = m o c) ∧ ∀ c, m' N c = arrCells w c

theorem Ex.eval_arr {N j : ℕ} {w : List ℕ} {m m' : Mem} (h : WithArr N w m m') (hk : k ≠ N)
    (hk₁ : k₁ ≠ N) (h0 : 0 ≠ N) (ρ : Regs) : ∀ e : Ex,
    (e.sub [.par k o, .par k₁ o₁, .arr j w] d).eval (view idp m) ρ
      = e.eval (view (args [(k, o), (k₁, o₁), (N, 0)]) m') ρ := by
  intro e
  induction e with
  | r n => rfl
  | ld q i =>
    match q with
    | 0 => simp [Ex.sub, Ex.eval, view, idp, args, h.1 _ _ hk]
    | 1 => simp [Ex.sub, Ex.eval, view, idp, args, h.1 _ _ hk₁]
    | 2 => simp only [Ex.sub, Ex.eval, view, args, List.getD_cons_succ, List.getD_cons_zero,
        Nat.zero_add, h.2, arrCells]
    | q + 3 => simp [Ex.sub, Ex.eval, view, idp, args, h.1 _ _ h0]
  | ld128 q i =>
    have hd : ∀ a, (2 * a + i) / 2 = a + i / 2 := fun a => by omega
    have hm : ∀ a, (2 * a + i) % 2 = i % 2 := fun a => by omega
    match q with
    | 0 => simp [Ex.sub, Ex.eval, view, idp, args, h.1 _ _ hk, hd, half, hm]
    | 1 => simp [Ex.sub, Ex.eval, view, idp, args, h.1 _ _ hk₁, hd, half, hm]
    | 2 =>
      simp only [Ex.sub, Ex.eval, view, args, List.getD_cons_succ, List.getD_cons_zero,
        Nat.zero_add, h.2, arrCells, half]
      split
      · simp only [lit4, show 4 * (i / 2) = 2 * i by omega]
      · simp only [lit4, show 4 * (i / 2) + 2 = 2 * i by omega,
          show 4 * (i / 2) + 3 = 2 * i + 1 by omega]
    | q + 3 => simp [Ex.sub, Ex.eval, view, idp, args, h.1 _ _ h0, half]
  | lit => rfl
  | cst => rfl
  | un op x ih => simp only [Ex.sub, Ex.eval, ih]
  | bin op x y ihx ihy => simp only [Ex.sub, Ex.eval, ihx, ihy]
  | blendv x y z ihx ihy ihz => simp only [Ex.sub, Ex.eval, ihx, ihy, ihz]

theorem WithArr.set {N : ℕ} {w : List ℕ} {m m' : Mem} (h : WithArr N w m m') {a : ℕ}
    (ha : a ≠ N) (c : ℕ) (v : V) : WithArr N w (m.set a c v) (m'.set a c v) := by
  constructor
  · intro p q hp
    simp only [Mem.set, h.1 p q hp]
  · intro q
    simp only [Mem.set, if_neg (Ne.symm ha), h.2]

theorem run_arr {N j : ℕ} {w : List ℕ} (hk : k ≠ N) (hk₁ : k₁ ≠ N) (h0 : 0 ≠ N) :
    ∀ (b : List Stmt), b.all (Stmt.spares 2) = true → ∀ (m m' : Mem) (ρ : Regs),
    WithArr N w m m' →
    WithArr N w (run idp (b.map (Stmt.sub [.par k o, .par k₁ o₁, .arr j w] d)) (m, ρ)).1
        (run (args [(k, o), (k₁, o₁), (N, 0)]) b (m', ρ)).1 := by
  intro b
  induction b with
  | nil => intro _ m m' ρ h; exact h
  | cons s b ih =>
    intro hb m m' ρ h
    simp only [List.all_cons, Bool.and_eq_true] at hb
    have hd : ∀ a i, (2 * a + i) / 2 = a + i / 2 := fun a i => by omega
    have hm : ∀ a i, (2 * a + i) % 2 = i % 2 := fun a i => by omega
    simp only [run, List.map_cons, List.foldl_cons]
    cases s with
    | set n e =>
      simp only [Stmt.sub, step, Ex.eval_arr h hk hk₁ h0]
      exact ih hb.2 _ _ _ h
    | st q i e =>
      match q with
      | 0 =>
        simp only [Stmt.sub, List.getD_cons_zero, step, Ex.eval_arr h hk hk₁ h0, idp, args,
          Nat.zero_add]
        exact ih hb.2 _ _ _ (h.set hk _ _)
      | 1 =>
        simp only [Stmt.sub, List.getD_cons_zero, List.getD_cons_succ, step,
          Ex.eval_arr h hk hk₁ h0, idp, args, Nat.zero_add]
        exact ih hb.2 _ _ _ (h.set hk₁ _ _)
      | 2 => simp [Stmt.spares] at hb
      | q + 3 =>
        simp only [Stmt.sub, List.getD_cons_succ, List.getD_nil, step,
          Ex.eval_arr h hk hk₁ h0, idp, args, Nat.zero_add]
        exact ih hb.2 _ _ _ (h.set h0 _ _)
    | st128 q i e =>
      match q with
      | 0 =>
        simp only [Stmt.sub, List.getD_cons_zero, step, Ex.eval_arr h hk hk₁ h0, idp, args,
          Nat.zero_add, view, setHalf, hd, hm, ← h.1 _ _ hk]
        exact ih hb.2 _ _ _ (h.set hk _ _)
      | 1 =>
        simp only [Stmt.sub, List.getD_cons_zero, List.getD_cons_succ, step,
          Ex.eval_arr h hk hk₁ h0, idp, args, Nat.zero_add, view, setHalf, hd, hm,
          ← h.1 _ _ hk₁]
        exact ih hb.2 _ _ _ (h.set hk₁ _ _)
      | 2 => simp [Stmt.spares] at hb
      | q + 3 =>
        simp only [Stmt.sub, List.getD_cons_succ, List.getD_nil, step,
          Ex.eval_arr h hk hk₁ h0, idp, args, Nat.zero_add, view, setHalf, hd, hm,
          ← h.1 _ _ h0]
        exact ih hb.2 _ _ _ (h.set h0 _ _)

/-- The memory with the array as an object that no argument points to. -/
theorem arr_call {j : ℕ} {w : List ℕ} (K : ℕ) (hb : f.body.all (Stmt.spares 2) = true) :
    ∃ (N : ℕ) (m' : Mem), K ≠ N ∧ k ≠ N ∧ k₁ ≠ N ∧ WithArr N w x.1 m' ∧
      WithArr N w (run idp (f.at [.par k o, .par k₁ o₁, .arr j w] d) x).1
        (f.call [(k, o), (k₁, o₁), (N, 0)] m' x.2) := by
  refine ⟨K + k + k₁ + 1, fun a c => if a = K + k + k₁ + 1 then arrCells w c else x.1 a c,
    by omega, by omega, by omega, ?_, ?_⟩
  · exact ⟨fun a c ha => by simp only [if_neg ha], fun c => by simp only [if_true]⟩
  · exact run_arr (by omega) (by omega) (by omega) f.body hb _ _ _
      ⟨fun a c ha => by simp only [if_neg ha], fun c => by simp only [if_true]⟩

theorem Combines.arr {op : E → E → E} (h : Combines L f op) (hL : L.Loc) {j : ℕ} {w : List ℕ}
    (hb : f.body.all (Stmt.spares 2) = true) (h₁ : eqsep (k, o) (k₁, o₁) L.n = true) :
    lk L (run idp (f.at [.par k o, .par k₁ o₁, .arr j w] d) x) k o
      = op (lk L x k₁ o₁) (L.get (arrCells w)) := by
  obtain ⟨N, m', _, hk, hk₁, hw, hr⟩ := arr_call (x := x) (k := k) (o := o) (k₁ := k₁)
    (o₁ := o₁) (d := d) (j := j) (w := w) k hb
  have hap : Same L.n (k, o) (N, 0) := Or.inr fun a c ⟨p, q⟩ => hk (p.1.symm.trans q.1)
  have hc := (h m' x.2 (k, o) (k₁, o₁) (N, 0) (same_of_eqsep h₁) hap).1
  have e1 : lk L (run idp (f.at [.par k o, .par k₁ o₁, .arr j w] d) x) k o
      = L.at (f.call [(k, o), (k₁, o₁), (N, 0)] m' x.2) (k, o) :=
    (hL _ _ fun i _ => (hr.1 k (o + i) hk).symm)
  have e2 : L.at m' (k₁, o₁) = lk L x k₁ o₁ := hL _ _ fun i _ => hw.1 k₁ (o₁ + i) hk₁
  have e3 : L.at m' (N, 0) = L.get (arrCells w) :=
    hL _ _ fun i _ => by rw [hw.2, Nat.zero_add]
  rw [e1, hc, e2, e3]

theorem Combines.arr_fr {op : E → E → E} (h : Combines L f op) (hL' : L'.Loc) {j : ℕ}
    {w : List ℕ} (hb : f.body.all (Stmt.spares 2) = true)
    (h₁ : eqsep (k, o) (k₁, o₁) L.n = true) (hs : sep (k', o') L'.n (k, o) L.n = true) :
    lk L' (run idp (f.at [.par k o, .par k₁ o₁, .arr j w] d) x) k' o' = lk L' x k' o' := by
  obtain ⟨N, m', hK, hk, _, hw, hr⟩ := arr_call (x := x) (k := k) (o := o) (k₁ := k₁)
    (o₁ := o₁) (d := d) (j := j) (w := w) k' hb
  have hap : Same L.n (k, o) (N, 0) := Or.inr fun a c ⟨p, q⟩ => hk (p.1.symm.trans q.1)
  have hc := (h m' x.2 (k, o) (k₁, o₁) (N, 0) (same_of_eqsep h₁) hap).2
  apply lk_frame hL'
  intro a c hi
  have ha : a ≠ N := by rw [hi.1]; exact hK
  rw [← hr.1 a c ha, hc a c fun q => apart_of_sep hs a c ⟨hi, q⟩, hw.1 a c ha]

end

end Verif.Vec
