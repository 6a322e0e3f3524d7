import Verif.X86.LadderLemmas2
import Verif.X86.SpecLemmas

/-!
# The log of the ladder

Helper lemmas: two runs of a program with the same public variables have the same
log, and every access in it satisfies `Ok`.
-/

namespace Verif.X86

/-- Two runs from related `int` variables see the same, it is all `Ok`, and their variables are
related afterwards. -/
def Sees (Ok : Leak → Prop) (E : Ints → Ints → Prop) (st : Stmt) (E' : Ints → Ints → Prop) : Prop :=
  ∀ n v v', E v v' → (leak n st v).1 = (leak n st v').1 ∧ (∀ x ∈ (leak n st v).1, Ok x) ∧
    E' (leak n st v).2 (leak n st v').2

variable {Ok : Leak → Prop} {E E' E'' : Ints → Ints → Prop}

theorem Sees.skip : Sees Ok E .skip E := by
  intro n v v' h
  simp only [leak, List.not_mem_nil, false_implies, implies_true, true_and]
  exact h

theorem Sees.seq {a b : Stmt} (ha : Sees Ok E a E') (hb : Sees Ok E' b E'') :
    Sees Ok E (.seq a b) E'' := by
  intro n v v' h
  obtain ⟨a1, a2, a3⟩ := ha n v v' h
  obtain ⟨b1, b2, b3⟩ := hb n _ _ a3
  simp only [leak]
  refine ⟨by rw [a1, b1], fun x hx => ?_, b3⟩
  rcases List.mem_append.1 hx with hx | hx
  · exact a2 x hx
  · exact b2 x hx

theorem Sees.post {a : Stmt} (ha : Sees Ok E a E') (h : ∀ v v', E' v v' → E'' v v') :
    Sees Ok E a E'' := fun n v v' hv => ⟨(ha n v v' hv).1, (ha n v v' hv).2.1, h _ _ (ha n v v' hv).2.2⟩

theorem Sees.pre {a : Stmt} (ha : Sees Ok E a E') (h : ∀ v v', E'' v v' → E v v') :
    Sees Ok E'' a E' := fun n v v' hv => ha n v v' (h _ _ hv)

theorem Sees.asm {B : Block} {c a b : Loc} {arg : Vars → W}
    (h : ∀ x ∈ B.accesses (ptrs c a b), Ok (.access x)) : Sees Ok E (.asm B c a b arg) E := by
  intro n v v' hv
  simp only [leak, true_and]
  refine ⟨fun x hx => ?_, hv⟩
  obtain ⟨y, hy, rfl⟩ := List.mem_map.1 hx
  exact h y hy

theorem Sees.ints {f : Vars → Ints} (h : ∀ v v', E v v' → E' (f ⟨v, ⟨0, 0, 0⟩⟩) (f ⟨v', ⟨0, 0, 0⟩⟩)) :
    Sees Ok E (.ints f) E' := by
  intro n v v' hv
  simp only [leak, List.not_mem_nil, false_implies, implies_true, true_and]
  exact h _ _ hv

theorem Sees.words {f : Vars → Words} : Sees Ok E (.words f) E := by
  intro n v v' hv
  simp only [leak, List.not_mem_nil, false_implies, implies_true, true_and]
  exact hv

theorem Sees.load {p : Loc} {k : Vars → ℕ} {f : Vars → W → Words}
    (h : ∀ v v', E v v' → k ⟨v, ⟨0, 0, 0⟩⟩ = k ⟨v', ⟨0, 0, 0⟩⟩ ∧ Ok (acc false p (k ⟨v, ⟨0, 0, 0⟩⟩))) :
    Sees Ok E (.load p k f) E := by
  intro n v v' hv
  simp only [leak, List.mem_singleton, forall_eq]
  exact ⟨by rw [(h _ _ hv).1], (h _ _ hv).2, hv⟩

theorem Sees.store {d : Loc} {k : ℕ} {f : Vars → W} (h : Ok (acc true d k)) :
    Sees Ok E (.store d (fun _ => k) f) E := by
  intro n v v' hv
  simp only [leak, List.mem_singleton, forall_eq]
  exact ⟨trivial, h, hv⟩

theorem Sees.move {d a : Loc} {k : ℕ} (h : Ok (acc true d k)) (h' : Ok (acc false a k)) :
    Sees Ok E (.move d (fun _ => k) a) E := by
  intro n v v' hv
  simp only [leak, List.mem_cons, List.not_mem_nil, or_false, forall_eq_or_imp, forall_eq]
  exact ⟨trivial, ⟨h', h⟩, hv⟩

theorem Sees.byte {d : Loc} {k : Vars → ℕ} {f : Byte → Byte}
    (h : ∀ v v', E v v' → k ⟨v, ⟨0, 0, 0⟩⟩ = k ⟨v', ⟨0, 0, 0⟩⟩ ∧
      Ok (acc false d (k ⟨v, ⟨0, 0, 0⟩⟩ / 8)) ∧ Ok (acc true d (k ⟨v, ⟨0, 0, 0⟩⟩ / 8))) :
    Sees Ok E (.byte d k f) E := by
  intro n v v' hv
  simp only [leak, List.mem_cons, List.not_mem_nil, or_false, forall_eq_or_imp, forall_eq]
  exact ⟨by rw [(h _ _ hv).1], (h _ _ hv).2, hv⟩

theorem Sees.modp {c : Loc} (h : ∀ w, ∀ k < 4, Ok (acc w c k)) : Sees Ok E (.modp c) E := by
  intro n v v' hv
  simp only [leak, List.cons_append, List.nil_append, List.mem_cons, List.not_mem_nil, or_false,
    forall_eq_or_imp, forall_eq]
  refine ⟨trivial, ⟨?_, ?_, ?_, ?_, ?_, ?_, ?_, ?_⟩, hv⟩ <;> exact h _ _ (by norm_num)

theorem Sees.while {cond : Vars → Bool} {body : Stmt} (hb : Sees Ok E body E)
    (hk : ∀ b, Ok (.branch b))
    (hc : ∀ v v', E v v' → cond ⟨v, ⟨0, 0, 0⟩⟩ = cond ⟨v', ⟨0, 0, 0⟩⟩) :
    Sees Ok E (.while cond body) E := by
  intro n
  induction n with
  | zero =>
    intro v v' hv
    simp only [leak, List.not_mem_nil, false_implies, implies_true, true_and]
    exact hv
  | succ n ih =>
    intro v v' hv
    rw [leak, leak, ← hc v v' hv]
    by_cases h : cond ⟨v, ⟨0, 0, 0⟩⟩ = true
    · rw [if_pos h, if_pos h]
      obtain ⟨b1, b2, b3⟩ := hb n v v' hv
      obtain ⟨c1, c2, c3⟩ := ih _ _ b3
      refine ⟨by simp only; rw [b1, c1], fun x hx => ?_, c3⟩
      rcases List.mem_cons.1 (List.mem_append.1 hx |>.elim (fun h => List.mem_append_left _ h)
        (fun h => List.mem_append_right _ h) : x ∈ Leak.branch true :: _ ++ _) with rfl | hx
      · exact hk _
      · rcases List.mem_append.1 hx with hx | hx
        · exact b2 x hx
        · exact c2 x hx
    · rw [if_neg h, if_neg h]
      refine ⟨rfl, fun x hx => ?_, hv⟩
      rw [List.mem_singleton.1 hx]
      exact hk _

end Verif.X86
