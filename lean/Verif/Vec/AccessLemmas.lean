import Verif.Vec.Shapes
import Verif.Vec.Funs

/-!
# Accesses of the vector functions: the checks behind C74 and C75 -/

namespace Verif.Vec

/-- The cells of constant arrays that are read. -/
def Ex.consts : Ex → List (ℕ × ℕ)
  | .r _ => []
  | .ld _ _ => []
  | .ld128 _ _ => []
  | .lit _ _ _ _ => []
  | .cst j i _ _ _ _ => [(j, i)]
  | .un _ x => x.consts
  | .bin _ x y => x.consts ++ y.consts
  | .blendv x y z => x.consts ++ y.consts ++ z.consts

def Stmt.consts : Stmt → List (ℕ × ℕ)
  | .set _ e => e.consts
  | .st _ _ e => e.consts
  | .st128 _ _ e => e.consts

theorem Ex.consts_acc {p : ℕ → Place} {j i : ℕ} : ∀ e : Ex,
    Access.const j i ∈ e.acc p → (j, i) ∈ e.consts := by
  intro e
  induction e with
  | r n => simp [Ex.acc]
  | ld k i => simp [Ex.acc]
  | ld128 k i => simp [Ex.acc]
  | lit => simp [Ex.acc]
  | cst => intro h; simpa [Ex.acc, Ex.consts] using h
  | un o x ih => exact ih
  | bin o x y ihx ihy =>
    intro h
    simp only [Ex.acc, List.mem_append] at h
    simp only [Ex.consts, List.mem_append]
    exact h.imp ihx ihy
  | blendv x y z ihx ihy ihz =>
    intro h
    simp only [Ex.acc, List.mem_append] at h
    simp only [Ex.consts, List.mem_append]
    exact h.imp (fun h => h.imp ihx ihy) ihz

theorem Stmt.consts_acc {p : ℕ → Place} {j i : ℕ} (s : Stmt)
    (h : Access.const j i ∈ s.acc p) : (j, i) ∈ s.consts := by
  cases s with
  | set r e => exact Ex.consts_acc e h
  | st k i e => exact Ex.consts_acc e (by simpa [Stmt.acc] using h)
  | st128 k i e => exact Ex.consts_acc e (by simpa [Stmt.acc] using h)

theorem Ex.acc_consts {p : ℕ → Place} {j i : ℕ} : ∀ e : Ex,
    (j, i) ∈ e.consts → Access.const j i ∈ e.acc p := by
  intro e
  induction e with
  | r n => simp [Ex.consts]
  | ld k i => simp [Ex.consts]
  | ld128 k i => simp [Ex.consts]
  | lit => simp [Ex.consts]
  | cst => intro h; simpa [Ex.acc, Ex.consts] using h
  | un o x ih => exact ih
  | bin o x y ihx ihy =>
    intro h
    simp only [Ex.consts, List.mem_append] at h
    simp only [Ex.acc, List.mem_append]
    exact h.imp ihx ihy
  | blendv x y z ihx ihy ihz =>
    intro h
    simp only [Ex.consts, List.mem_append] at h
    simp only [Ex.acc, List.mem_append]
    exact h.imp (fun h => h.imp ihx ihy) ihz

theorem Stmt.acc_consts {p : ℕ → Place} {j i : ℕ} (s : Stmt) (h : (j, i) ∈ s.consts) :
    Access.const j i ∈ s.acc p := by
  cases s with
  | set r e => exact Ex.acc_consts e h
  | st k i e => simpa [Stmt.acc] using Ex.acc_consts (p := p) e h
  | st128 k i e => simpa [Stmt.acc] using Ex.acc_consts (p := p) e h

/-- An array that is read and may be put at an address that is 8 modulo 32. -/
theorem not_aligned_of {f : Fn} {j i : ℕ}
    (hb : (f.body.any fun s => s.consts.contains (j, i)) = true)
    (ha : f.aligns.getD j 0 = 8) (hd : f.aligns.all (· ∣ 32) = true) (l : List Place) :
    ¬f.Aligned l := by
  intro h
  obtain ⟨s, hs, hc⟩ := List.any_eq_true.1 hb
  have hm : Access.const j i ∈ f.accesses l :=
    List.mem_flatMap.2 ⟨s, hs, Stmt.acc_consts s (by simpa using hc)⟩
  have := h (fun k => if k = j then 8 else 32) (by
    intro k hk
    by_cases e : k = j
    · subst e
      rw [ha]; simp
    · have := List.all_eq_true.1 hd (f.aligns.getD k 0) (by
        simp only [List.getD_eq_getElem?_getD, List.getElem?_eq_getElem hk, Option.getD_some]
        exact List.getElem_mem hk)
      simp only [e, if_false]
      simpa using this) j i hm
  simp only [if_true] at this
  omega

/-- Every constant array that is read is declared with an alignment that 32 divides. -/
def alignOk (al : List ℕ) (prog : List Stmt) : Bool :=
  prog.all fun s => s.consts.all fun x => decide (x.1 < al.length) && decide (32 ∣ al.getD x.1 0)

theorem alignOk_append (al : List ℕ) (s t : List Stmt) :
    alignOk al (s ++ t) = (alignOk al s && alignOk al t) := by simp [alignOk]

theorem alignOk_replicate {al : List ℕ} {s : List Stmt} (h : alignOk al s = true) :
    ∀ n, alignOk al (List.replicate n s).flatten = true := by
  intro n
  induction n with
  | zero => rfl
  | succ n ih => rw [List.replicate_succ, List.flatten_cons, alignOk_append, h, ih]; rfl

theorem aligned_of {f : Fn} (h : alignOk f.aligns f.body = true) (l : List Place) :
    f.Aligned l := by
  intro q hq j i hm
  simp only [Fn.accesses, List.mem_flatMap] at hm
  obtain ⟨s, hs, hm⟩ := hm
  have := List.all_eq_true.1 (List.all_eq_true.1 h s hs) _ (Stmt.consts_acc s hm)
  simp only [Bool.and_eq_true, decide_eq_true_eq] at this
  exact Nat.dvd_add (this.2.trans (hq j this.1)) (Dvd.intro _ rfl)

theorem inside_of {f : Fn} {al : ℕ → ℕ → Bool} {D : List (ℕ × ℕ)} (h : f.check al [] = some D)
    (l : List Place) : ∀ a ∈ f.accesses l, f.Inside l a := by
  intro a ha
  have := accs_in (p := args l) f.body h a ha
  cases a <;> exact this

theorem local_of {f : Fn} {al : ℕ → ℕ → Bool} {D : List (ℕ × ℕ)} (hD : f.check al [] = some D)
    (l : List Place) (ρ : Regs) (m m' : Mem) :
    (∀ o c, (∀ k ∈ f.outs, ¬In (args l k) (f.cells.getD k 0) o c) →
      f.call l m ρ o c = m o c) ∧
    ((∀ k < f.cells.length, ∀ o c, In (args l k) (f.cells.getD k 0) o c → m o c = m' o c) →
      ∀ k < f.cells.length, ∀ o c, In (args l k) (f.cells.getD k 0) o c →
        f.call l m ρ o c = f.call l m' ρ o c) := by
  refine ⟨fun o c ho => run_frame f.body hD ho, fun h k hk o c hin => ?_⟩
  refine run_local (p := args l)
    (S := fun o c => ∃ k < f.cells.length, In (args l k) (f.cells.getD k 0) o c) f.body
    (fun o c ⟨k, hk, hin⟩ => h k hk o c hin) ?_ o c ⟨k, hk, hin⟩
  intro a ha
  have hi := inside_of hD l a ha
  cases a with
  | rd o c => exact hi
  | wr o c =>
    obtain ⟨k, hk, hin⟩ := hi
    refine ⟨k, ?_, hin⟩
    by_contra hlt
    have : f.cells.getD k 0 = 0 := by
      rw [List.getD_eq_getElem?_getD, List.getElem?_eq_none (by omega)]; rfl
    rw [this] at hin
    exact absurd hin.2.2 (by have := hin.2.1; omega)
  | const j i => trivial

theorem checked_list {fs : List Fn} (h : fs.all (fun f => (f.check alNone []).isSome) = true) :
    ∀ f ∈ fs, ∃ D, f.check alNone [] = some D := by
  intro f hf
  exact Option.isSome_iff_exists.1 (List.all_eq_true.1 h f hf)

theorem checked_25519_1w : ∀ f ∈ funs25519_1w, ∃ D, f.check alNone [] = some D :=
  checked_list (by decide +kernel)

theorem checked_25519_2w : ∀ f ∈ funs25519_2w, ∃ D, f.check alNone [] = some D :=
  checked_list (by decide +kernel)

theorem checked_25519_4w : ∀ f ∈ funs25519_4w, ∃ D, f.check alNone [] = some D :=
  checked_list (by decide +kernel)

theorem checked_448_1w : ∀ f ∈ funs448_1w, ∃ D, f.check alNone [] = some D :=
  checked_list (by decide +kernel)

theorem checked_448_2w : ∀ f ∈ funs448_2w, ∃ D, f.check alNone [] = some D :=
  checked_list (by decide +kernel)

theorem checked_448_4w : ∀ f ∈ funs448_4w, ∃ D, f.check alNone [] = some D :=
  checked_list (by decide +kernel)

theorem checked_rep (n : ℕ) : ∀ f ∈ funsRep n, ∃ D, f.check alNone [] = some D := by
  intro f hf
  simp only [funsRep, List.mem_cons, List.not_mem_nil, or_false] at hf
  rcases hf with rfl | rfl | rfl | rfl
  · exact ⟨[], check_loop (pre := F25519.V1.sqrnPre) (body := F25519.V1.sqrnBody)
      (post := F25519.V1.sqrnPost) (n := n) rfl (by kernel_refl) (by kernel_refl)
      (by kernel_refl)⟩
  · exact ⟨[], check_loop (pre := []) (post := []) (n := n)
      (body := F25519.V2.intsqr.inl [0] 0 ++ F25519.V2.compress.inl [0] 3)
      (by simp [F25519.V2.sqrn]) (by kernel_refl) (by kernel_refl) (by kernel_refl)⟩
  · exact ⟨[], check_loop (pre := []) (post := []) (n := n)
      (body := F25519.V4.intsqr.inl [0] 0 ++ F25519.V4.compress.inl [0] 0)
      (by simp [F25519.V4.sqrn]) (by kernel_refl) (by kernel_refl) (by kernel_refl)⟩
  · exact ⟨[], check_loop (pre := F448.V1.sqrnPre) (body := F448.V1.sqrnBody)
      (post := F448.V1.sqrnPost) (n := n) rfl (by kernel_refl) (by kernel_refl)
      (by kernel_refl)⟩

theorem checked_all (n : ℕ) : ∀ f ∈ allFuns n, ∃ D, f.check alNone [] = some D := by
  intro f hf
  simp only [allFuns, List.mem_append] at hf
  rcases hf with (((((h | h) | h) | h) | h) | h) | h
  · exact checked_25519_1w f h
  · exact checked_25519_2w f h
  · exact checked_25519_4w f h
  · exact checked_448_1w f h
  · exact checked_448_2w f h
  · exact checked_448_4w f h
  · exact checked_rep n f h

/-- The two functions with constants in an array that is not aligned. -/
def unalignedFuns : List Fn := [F25519.V4.ngz, F448.V4.ngz]

theorem alignOk_list {fs gs : List Fn}
    (h : fs.all (fun f => gs.any (fun g => decide (g.body = f.body ∧ g.aligns = f.aligns ∧
      g.cells = f.cells ∧ g.outs = f.outs)) || alignOk f.aligns f.body) = true) :
    ∀ f ∈ fs, f ∉ gs → alignOk f.aligns f.body = true := by
  intro f hf hg
  have := List.all_eq_true.1 h f hf
  simp only [Bool.or_eq_true] at this
  rcases this with h | h
  · obtain ⟨g, hgm, he⟩ := List.any_eq_true.1 h
    simp only [decide_eq_true_eq] at he
    exfalso
    apply hg
    have : g = f := by
      cases g; cases f
      simp only at he
      obtain ⟨h1, h2, h3, h4⟩ := he
      subst h1 h2 h3 h4
      rfl
    exact this ▸ hgm
  · exact h

theorem alignOk_25519_1w : ∀ f ∈ funs25519_1w, f ∉ unalignedFuns →
    alignOk f.aligns f.body = true := alignOk_list (by decide +kernel)

theorem alignOk_25519_2w : ∀ f ∈ funs25519_2w, f ∉ unalignedFuns →
    alignOk f.aligns f.body = true := alignOk_list (by decide +kernel)

theorem alignOk_25519_4w : ∀ f ∈ funs25519_4w, f ∉ unalignedFuns →
    alignOk f.aligns f.body = true := alignOk_list (by decide +kernel)

theorem alignOk_448_1w : ∀ f ∈ funs448_1w, f ∉ unalignedFuns →
    alignOk f.aligns f.body = true := alignOk_list (by decide +kernel)

theorem alignOk_448_2w : ∀ f ∈ funs448_2w, f ∉ unalignedFuns →
    alignOk f.aligns f.body = true := alignOk_list (by decide +kernel)

theorem alignOk_448_4w : ∀ f ∈ funs448_4w, f ∉ unalignedFuns →
    alignOk f.aligns f.body = true := alignOk_list (by decide +kernel)

theorem alignOk_rep (n : ℕ) : ∀ f ∈ funsRep n, alignOk f.aligns f.body = true := by
  intro f hf
  simp only [funsRep, List.mem_cons, List.not_mem_nil, or_false] at hf
  rcases hf with rfl | rfl | rfl | rfl
  · simp only [F25519.V1.sqrn]
    rw [alignOk_append, alignOk_append, alignOk_replicate (by decide +kernel)]
    decide +kernel
  · exact alignOk_replicate (by kernel_refl) n
  · exact alignOk_replicate (by kernel_refl) n
  · simp only [F448.V1.sqrn]
    rw [alignOk_append, alignOk_append, alignOk_replicate (by decide +kernel)]
    decide +kernel

theorem alignOk_all (n : ℕ) : ∀ f ∈ allFuns n, f ∉ unalignedFuns →
    alignOk f.aligns f.body = true := by
  intro f hf
  simp only [allFuns, List.mem_append] at hf
  rcases hf with (((((h | h) | h) | h) | h) | h) | h
  · exact alignOk_25519_1w f h
  · exact alignOk_25519_2w f h
  · exact alignOk_25519_4w f h
  · exact alignOk_448_1w f h
  · exact alignOk_448_2w f h
  · exact alignOk_448_4w f h
  · exact fun _ => alignOk_rep n f h

end Verif.Vec
