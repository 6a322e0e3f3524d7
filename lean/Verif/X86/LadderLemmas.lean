import Verif.X86.ProgLemmas
import Verif.X86.Ladder
import Verif.X25519.X64

/-!
# The ladder on memory computes what the model without memory computes

Helper lemmas.
-/

namespace Verif.X86.Ladder

open Verif.Fp25519 (Isa F4 F8)
open Verif.X86.Fp25519 (elt elt2 dbl dbl2 l4 l8)

instance (p : Loc) (n : ℕ) (q : Loc) (k : ℕ) : Decidable (Apart p n q k) :=
  inferInstanceAs (Decidable (_ ∨ _ ∨ _))

instance (p q : Loc) (n : ℕ) : Decidable (EqOrApart p q n) :=
  inferInstanceAs (Decidable (_ ∨ _))

/-- A change of the memory only. -/
def onMem (f : Mem → Mem) (x : Mem × Vars) : Mem × Vars := (f x.1, x.2)

theorem Does.asm {n : ℕ} {B : Block} {c a b : Loc} {arg : Vars → W} {f : Vars → Mem → Mem}
    (h : ∀ z v m, callArg z B (arg v) c a b m = f v m) :
    Does n (.asm B c a b arg) (fun x => (f x.2 x.1, x.2)) := by
  intro Q s hq
  rw [wp]
  intro z
  rw [h z]
  exact hq _

section
variable (n : ℕ) (isa : Isa) {c a b : Loc}

theorem does_add (ha : EqOrApart a c 4) (hb : EqOrApart b c 4) :
    Does n (add isa c a b) (onMem fun m =>
      m.put c (l4 (Verif.Fp25519.Full.add isa (elt m a) (elt m b)))) :=
  Does.asm (f := fun _ m => m.put c (l4 (Verif.Fp25519.Full.add isa (elt m a) (elt m b))))
    fun z _ m => Fp25519.add_mem isa { z with arg := 0#64 } m ha hb

theorem does_sub (ha : EqOrApart a c 4) (hb : EqOrApart b c 4) :
    Does n (sub c a b) (onMem fun m =>
      m.put c (l4 (Verif.Fp25519.Full.sub (elt m a) (elt m b)))) :=
  Does.asm (f := fun _ m => m.put c (l4 (Verif.Fp25519.Full.sub (elt m a) (elt m b))))
    fun z _ m => Fp25519.sub_mem { z with arg := 0#64 } m ha hb

theorem does_mula24 (ha : EqOrApart a c 4) :
    Does n (mula24 isa c a) (onMem fun m =>
      m.put c (l4 (Verif.Fp25519.Full.mula24 isa (elt m a)))) :=
  Does.asm (f := fun _ m => m.put c (l4 (Verif.Fp25519.Full.mula24 isa (elt m a))))
    fun z _ m => Fp25519.mula24_mem isa z m ha

theorem does_intmul2 (ha : Apart a 8 c 16) (hb : Apart b 8 c 16) :
    Does n (intmul2 isa c a b) (onMem fun m => m.put c
      (l8 (Verif.Fp25519.Full.intmul2 isa (elt2 m a) (elt2 m b)).1 ++
       l8 (Verif.Fp25519.Full.intmul2 isa (elt2 m a) (elt2 m b)).2)) :=
  Does.asm (f := fun _ m => m.put c
      (l8 (Verif.Fp25519.Full.intmul2 isa (elt2 m a) (elt2 m b)).1 ++
       l8 (Verif.Fp25519.Full.intmul2 isa (elt2 m a) (elt2 m b)).2))
    fun z _ m => Fp25519.intmul2_mem isa { z with arg := 0#64 } m ha hb

theorem does_intsqr2 (ha : Apart a 8 c 16) :
    Does n (intsqr2 isa c a) (onMem fun m => m.put c
      (l8 (Verif.Fp25519.Full.intsqr2 isa (elt2 m a)).1 ++
       l8 (Verif.Fp25519.Full.intsqr2 isa (elt2 m a)).2)) :=
  Does.asm (f := fun _ m => m.put c
      (l8 (Verif.Fp25519.Full.intsqr2 isa (elt2 m a)).1 ++
       l8 (Verif.Fp25519.Full.intsqr2 isa (elt2 m a)).2))
    fun z _ m => Fp25519.intsqr2_mem isa { z with arg := 0#64 } m ha

theorem does_reduce2 (ha : a = c ∨ Apart a 16 c 8) :
    Does n (reduce2 isa c a) (onMem fun m => m.put c
      (l4 (Verif.Fp25519.Full.reduce2 isa (dbl2 m a)).1 ++
       l4 (Verif.Fp25519.Full.reduce2 isa (dbl2 m a)).2)) :=
  Does.asm (f := fun _ m => m.put c
      (l4 (Verif.Fp25519.Full.reduce2 isa (dbl2 m a)).1 ++
       l4 (Verif.Fp25519.Full.reduce2 isa (dbl2 m a)).2))
    fun z _ m => Fp25519.reduce2_mem isa { z with arg := 0#64 } m ha

theorem does_select (hb : EqOrApart b a 4) :
    Does n (select a b) (fun x => (x.1.put a
      (l4 (if x.2.words.swap = 0#64 then elt x.1 a else elt x.1 b)), x.2)) :=
  Does.asm (f := fun v m => m.put a (l4 (if v.words.swap = 0#64 then elt m a else elt m b)))
    fun z _ m => Fp25519.select_mem z _ m hb

/-- The memory after a multiplication. -/
theorem does_mul (ha : Apart a 4 buffer_1w 8) (hb : Apart b 4 buffer_1w 8)
    (hc : Apart buffer_1w 8 c 4) :
    Does n (mul isa c a b) (onMem fun m =>
      (m.put buffer_1w (l8 (Verif.Fp25519.Full.intmul isa (elt m a) (elt m b)))).put c
        (l4 (Verif.Fp25519.Full.mul isa (elt m a) (elt m b)))) := by
  have h1 : Does n (intmul isa buffer_1w a b) (onMem fun m => m.put buffer_1w
      (l8 (Verif.Fp25519.Full.intmul isa (elt m a) (elt m b)))) :=
    Does.asm (f := fun _ m => m.put buffer_1w
      (l8 (Verif.Fp25519.Full.intmul isa (elt m a) (elt m b))))
      fun z _ m => Fp25519.intmul_mem isa { z with arg := 0#64 } m ha hb
  have h2 : Does n (reduce isa c buffer_1w) (onMem fun m => m.put c
      (l4 (Verif.Fp25519.Full.reduce isa (dbl m buffer_1w)))) :=
    Does.asm (f := fun _ m => m.put c (l4 (Verif.Fp25519.Full.reduce isa (dbl m buffer_1w))))
      fun z _ m => Fp25519.reduce_mem isa { z with arg := 0#64 } m (Or.inr hc)
  have := h1.seq h2
  simp only [onMem, Fp25519.dbl_put_self] at this
  exact this

/-- The memory after a squaring. -/
theorem does_sqr (ha : Apart a 4 buffer_1w 8) (hc : Apart buffer_1w 8 a 4) :
    Does n (sqr isa a) (onMem fun m =>
      (m.put buffer_1w (l8 (Verif.Fp25519.Full.intsqr isa (elt m a)))).put a
        (l4 (Verif.Fp25519.Full.sqr isa (elt m a)))) := by
  have h1 : Does n (intsqr isa buffer_1w a) (onMem fun m => m.put buffer_1w
      (l8 (Verif.Fp25519.Full.intsqr isa (elt m a)))) :=
    Does.asm (f := fun _ m => m.put buffer_1w
      (l8 (Verif.Fp25519.Full.intsqr isa (elt m a))))
      fun z _ m => Fp25519.intsqr_mem isa { z with arg := 0#64 } m ha
  have h2 : Does n (reduce isa a buffer_1w) (onMem fun m => m.put a
      (l4 (Verif.Fp25519.Full.reduce isa (dbl m buffer_1w)))) :=
    Does.asm (f := fun _ m => m.put a (l4 (Verif.Fp25519.Full.reduce isa (dbl m buffer_1w))))
      fun z _ m => Fp25519.reduce_mem isa { z with arg := 0#64 } m (Or.inr hc)
  have := h1.seq h2
  simp only [onMem, Fp25519.dbl_put_self] at this
  exact this

theorem does_copy (ha : EqOrApart a c 4) :
    Does n (copy c a) (onMem fun m => m.put c (l4 (elt m a))) := by
  intro Q s h
  simp only [copy, block, wp, St.upd]
  have := Fp25519.copy_mem s.mem ha
  unfold Fp25519.copy at this
  simp only [onMem, ← this] at h
  exact h _

theorem does_zero : Does n (zero c) (onMem fun m => m.put c [0, 0, 0, 0]) := by
  intro Q s h
  simp only [zero, store, block, wp, St.upd]
  have e : (((s.mem.set c 0 0#64).set c 1 0#64).set c 2 0#64).set c 3 0#64
      = s.mem.put c [0, 0, 0, 0] := by
    funext o x
    unfold Mem.put
    by_cases hx : o = c.obj ∧ c.off ≤ x ∧ x < c.off + 4
    · obtain ⟨rfl, h1, h2⟩ := hx
      obtain ⟨i, rfl⟩ := Nat.exists_eq_add_of_le h1
      have hi : i < 4 := by omega
      match i, hi with
      | 0, _ | 1, _ | 2, _ | 3, _ => simp [Mem.set]
    · have h4 : ∀ i < 4, ¬(o = c.obj ∧ x = c.off + i) :=
        fun i hi h => hx ⟨h.1, by omega, by omega⟩
      simp only [Mem.set, List.length_cons, List.length_nil]
      rw [if_neg (h4 3 (by decide)), if_neg (h4 2 (by decide)), if_neg (h4 1 (by decide)),
        if_neg (h4 0 (by decide)), if_neg hx]
  rw [e]
  exact h _

end

/-! ## Reading back -/

theorem elt_put4 (m : Mem) {p q : Loc} (v : F4) (h : Apart p 4 q 4) :
    elt (m.put q (l4 v)) p = elt m p := Fp25519.elt_put_apart m h

theorem elt_put44 (m : Mem) {p q : Loc} (v w : F4) (h : Apart p 4 q 8) :
    elt (m.put q (l4 v ++ l4 w)) p = elt m p := Fp25519.elt_put_apart m h

theorem elt_put8 (m : Mem) {p q : Loc} (v : F8) (h : Apart p 4 q 8) :
    elt (m.put q (l8 v)) p = elt m p := Fp25519.elt_put_apart m h

theorem elt_put88 (m : Mem) {p q : Loc} (v w : F8) (h : Apart p 4 q 16) :
    elt (m.put q (l8 v ++ l8 w)) p = elt m p := Fp25519.elt_put_apart m h

theorem elt_put44_fst (m : Mem) (p : Loc) (v w : F4) : elt (m.put p (l4 v ++ l4 w)) p = v := by
  simp [elt, Fp25519.w4, Mem.get_put_self, l4]

theorem elt_put44_snd (m : Mem) {p q : Loc} (v w : F4) (h : q = ⟨p.obj, p.off + 4⟩) :
    elt (m.put p (l4 v ++ l4 w)) q = w := by
  subst h
  simp [elt, Fp25519.w4, Mem.get, Mem.put, l4, Nat.add_assoc]

theorem dbl2_put_self (m : Mem) (p : Loc) (v w : F8) : dbl2 (m.put p (l8 v ++ l8 w)) p = (v, w) := by
  simp [dbl2, Fp25519.w88, Fp25519.w8, Mem.get_put_self, l8]

theorem elt2_eq (m : Mem) (p : Loc) : elt2 m p = (elt m p, elt m ⟨p.obj, p.off + 4⟩) := by
  simp [elt2, Fp25519.w44, elt, Fp25519.w4, Mem.get, Nat.add_assoc]

/-! ## The body of the loop -/

theorem select_eq (bit : W) (px py : F4) :
    X25519.select_cmov_x64 bit px py = if bit = 0#64 then px else py := by
  unfold X25519.select_cmov_x64 Verif.cmov
  by_cases h : bit = 0#64
  · subst h; rfl
  · have : (bit &&& bit != 0#64) = true := by simpa using h
    rw [if_neg h]
    simp only [this, if_true]

theorem does_words (n : ℕ) (f : Vars → Words) :
    Does n (.words f) (fun x => (x.1, { x.2 with words := f x.2 })) := by
  intro Q s h; rw [wp]; exact h _

theorem does_ints (n : ℕ) (f : Vars → Ints) :
    Does n (.ints f) (fun x => (x.1, { x.2 with ints := f x.2 })) := by
  intro Q s h; rw [wp]; exact h _

theorem does_load (n : ℕ) (p : Loc) (k : Vars → ℕ) (f : Vars → W → Words) :
    Does n (.load p k f) (fun x => (x.1, { x.2 with words := f x.2 (x.1.get p (k x.2)) })) := by
  intro Q s h; rw [wp]; exact h _

/-- The effect of the body on memory. -/
def bodyMem (isa : Isa) (swap : W) (m : Mem) : Mem :=
  let m := m.put A (l4 (Verif.Fp25519.Full.add isa (elt m X2) (elt m Z2)))
  let m := m.put B (l4 (Verif.Fp25519.Full.sub (elt m X2) (elt m Z2)))
  let m := m.put C (l4 (Verif.Fp25519.Full.add isa (elt m X3) (elt m Z3)))
  let m := m.put D (l4 (Verif.Fp25519.Full.sub (elt m X3) (elt m Z3)))
  let m := m.put buffer (l8 (Verif.Fp25519.Full.intmul2 isa (elt2 m A) (elt2 m D)).1 ++
       l8 (Verif.Fp25519.Full.intmul2 isa (elt2 m A) (elt2 m D)).2)
  let m := m.put DA (l4 (Verif.Fp25519.Full.reduce2 isa (dbl2 m buffer)).1 ++
       l4 (Verif.Fp25519.Full.reduce2 isa (dbl2 m buffer)).2)
  let m := m.put A (l4 (if swap = 0#64 then elt m A else elt m C))
  let m := m.put B (l4 (if swap = 0#64 then elt m B else elt m D))
  let m := m.put buffer (l8 (Verif.Fp25519.Full.intsqr2 isa (elt2 m A)).1 ++
       l8 (Verif.Fp25519.Full.intsqr2 isa (elt2 m A)).2)
  let m := m.put A (l4 (Verif.Fp25519.Full.reduce2 isa (dbl2 m buffer)).1 ++
       l4 (Verif.Fp25519.Full.reduce2 isa (dbl2 m buffer)).2)
  let m := m.put X3 (l4 (Verif.Fp25519.Full.add isa (elt m DA) (elt m CB)))
  let m := m.put Z3 (l4 (Verif.Fp25519.Full.sub (elt m DA) (elt m CB)))
  let m := m.put buffer (l8 (Verif.Fp25519.Full.intsqr2 isa (elt2 m X3)).1 ++
       l8 (Verif.Fp25519.Full.intsqr2 isa (elt2 m X3)).2)
  let m := m.put X3 (l4 (Verif.Fp25519.Full.reduce2 isa (dbl2 m buffer)).1 ++
       l4 (Verif.Fp25519.Full.reduce2 isa (dbl2 m buffer)).2)
  let m := m.put X2 (l4 (elt m B))
  let m := m.put Z2 (l4 (Verif.Fp25519.Full.sub (elt m A) (elt m B)))
  let m := m.put B (l4 (Verif.Fp25519.Full.mula24 isa (elt m Z2)))
  let m := m.put B (l4 (Verif.Fp25519.Full.add isa (elt m B) (elt m X2)))
  let m := m.put buffer (l8 (Verif.Fp25519.Full.intmul2 isa (elt2 m X2) (elt2 m A)).1 ++
       l8 (Verif.Fp25519.Full.intmul2 isa (elt2 m X2) (elt2 m A)).2)
  let m := m.put X2 (l4 (Verif.Fp25519.Full.reduce2 isa (dbl2 m buffer)).1 ++
       l4 (Verif.Fp25519.Full.reduce2 isa (dbl2 m buffer)).2)
  (m.put buffer_1w (l8 (Verif.Fp25519.Full.intmul isa (elt m Z3) (elt m X1)))).put Z3
        (l4 (Verif.Fp25519.Full.mul isa (elt m Z3) (elt m X1)))

set_option maxRecDepth 20000 in
theorem does_body (n : ℕ) (isa : Isa) : Does n (body isa) (fun x =>
    let bit := (x.1.get secret x.2.ints.i.toNat >>> x.2.ints.j.toNat) &&& 1#64
    (bodyMem isa (bit ^^^ x.2.words.prev) x.1,
      ⟨{ x.2.ints with j := x.2.ints.j - 1 }, ⟨bit, bit ^^^ x.2.words.prev, bit⟩⟩)) := by
  have := (does_load n secret (fun v => v.ints.i.toNat) fun v w =>
      { v.words with bit := (w >>> v.ints.j.toNat) &&& 1#64 }).seq <|
    (does_words n fun v => { v.words with swap := v.words.bit ^^^ v.words.prev }).seq <|
    (does_words n fun v => { v.words with prev := v.words.bit }).seq <|
    (does_add n isa (c := A) (a := X2) (b := Z2) (by decide) (by decide)).seq <|
    (does_sub n (c := B) (a := X2) (b := Z2) (by decide) (by decide)).seq <|
    (does_add n isa (c := C) (a := X3) (b := Z3) (by decide) (by decide)).seq <|
    (does_sub n (c := D) (a := X3) (b := Z3) (by decide) (by decide)).seq <|
    (does_intmul2 n isa (c := buffer) (a := A) (b := D) (by decide) (by decide)).seq <|
    (does_reduce2 n isa (c := DA) (a := buffer) (by decide)).seq <|
    (does_select n (a := A) (b := C) (by decide)).seq <|
    (does_select n (a := B) (b := D) (by decide)).seq <|
    (does_intsqr2 n isa (c := buffer) (a := A) (by decide)).seq <|
    (does_reduce2 n isa (c := A) (a := buffer) (by decide)).seq <|
    (does_add n isa (c := X3) (a := DA) (b := CB) (by decide) (by decide)).seq <|
    (does_sub n (c := Z3) (a := DA) (b := CB) (by decide) (by decide)).seq <|
    (does_intsqr2 n isa (c := buffer) (a := X3) (by decide)).seq <|
    (does_reduce2 n isa (c := X3) (a := buffer) (by decide)).seq <|
    (does_copy n (c := X2) (a := B) (by decide)).seq <|
    (does_sub n (c := Z2) (a := A) (b := B) (by decide) (by decide)).seq <|
    (does_mula24 n isa (c := B) (a := Z2) (by decide)).seq <|
    (does_add n isa (c := B) (a := B) (b := X2) (by decide) (by decide)).seq <|
    (does_intmul2 n isa (c := buffer) (a := X2) (b := A) (by decide) (by decide)).seq <|
    (does_reduce2 n isa (c := X2) (a := buffer) (by decide)).seq <|
    (does_mul n isa (c := Z3) (a := Z3) (b := X1) (by decide) (by decide) (by decide)).seq <|
    (does_ints n fun v => { v.ints with j := v.ints.j - 1 }).seq <|
    Does.skip n
  unfold body
  exact this

/-- Pairs of neighbours. -/
theorem elt2_A (m : Mem) : elt2 m A = (elt m A, elt m B) := elt2_eq m A
theorem elt2_D (m : Mem) : elt2 m D = (elt m D, elt m C) := elt2_eq m D
theorem elt2_X3 (m : Mem) : elt2 m X3 = (elt m X3, elt m Z3) := elt2_eq m X3
theorem elt2_X2 (m : Mem) : elt2 m X2 = (elt m X2, elt m Z2) := elt2_eq m X2

set_option maxRecDepth 4000 in
theorem bodyMem_view (isa : Isa) (swap prev bit : W) (h : swap = bit ^^^ prev) (m : Mem) :
    (⟨elt (bodyMem isa swap m) X2, elt (bodyMem isa swap m) Z2, elt (bodyMem isa swap m) X3,
      elt (bodyMem isa swap m) Z3, bit⟩ : X25519.St) =
    X25519.step isa (elt m X1) ⟨elt m X2, elt m Z2, elt m X3, elt m Z3, prev⟩ bit := by
  subst h
  simp (disch := decide) only [bodyMem, elt_put4, elt_put44, elt_put8, elt_put88, elt_put44_fst,
    elt_put44_snd, dbl2_put_self, elt2_A, elt2_D, elt2_X2, elt2_X3, Fp25519.elt_put_self, X25519.step, select_eq]
end Verif.X86.Ladder
