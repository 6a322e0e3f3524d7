import Verif.Vec.MultMem
import Verif.Ed25519.Mult

/-!
# Lemmas about the recoding on memory -/

namespace Verif.Vec

theorem wordAt_put_self (m : Mem) (o n : ℕ) (v : W) : wordAt (putWord m o n v) o n = v := by
  have h : n % 4 = 0 ∨ n % 4 = 1 ∨ n % 4 = 2 ∨ n % 4 = 3 := by omega
  simp only [wordAt, putWord, Mem.set, if_true]
  rcases h with h | h | h | h <;> simp only [h, setWord, wordOf]

theorem wordAt_put_ne {m : Mem} {o n o' n' : ℕ} {v : W} (h : o' ≠ o ∨ n' ≠ n) :
    wordAt (putWord m o n v) o' n' = wordAt m o' n' := by
  simp only [wordAt, putWord, Mem.set]
  by_cases ho : o' = o
  · subst ho
    have hn : n' ≠ n := h.resolve_left fun k => k rfl
    by_cases hc : n' / 4 = n / 4
    · have hr : n' % 4 ≠ n % 4 := by omega
      rw [if_pos rfl, if_pos hc, hc]
      have h1 : n % 4 = 0 ∨ n % 4 = 1 ∨ n % 4 = 2 ∨ n % 4 = 3 := by omega
      have h2 : n' % 4 = 0 ∨ n' % 4 = 1 ∨ n' % 4 = 2 ∨ n' % 4 = 3 := by omega
      rcases h1 with h1 | h1 | h1 | h1 <;> rcases h2 with h2 | h2 | h2 | h2 <;>
        first
          | exact absurd (h2.trans h1.symm) hr
          | simp only [h1, h2, setWord, wordOf]
    · rw [if_pos rfl, if_neg hc]
  · rw [if_neg ho]

theorem put_obj {m : Mem} {o n o' c : ℕ} {v : W} (h : o' ≠ o) : putWord m o n v o' c = m o' c := by
  simp only [putWord, Mem.set, if_neg h]

/-- A cell is its four words. -/
theorem cell_words (m : Mem) (o c : ℕ) : m o c = Ed25519.load4 (wordAt m o) c := by
  simp only [Ed25519.load4, wordAt]
  rw [show 4 * c / 4 = c by omega, show (4 * c + 1) / 4 = c by omega,
    show (4 * c + 2) / 4 = c by omega, show (4 * c + 3) / 4 = c by omega,
    show 4 * c % 4 = 0 by omega, show (4 * c + 1) % 4 = 1 by omega,
    show (4 * c + 2) % 4 = 2 by omega, show (4 * c + 3) % 4 = 3 by omega]
  rfl

/-- What holds after the nibbles below `q`, when the digit of the nibble `q` goes to the entry
`P q`. -/
structure RecInv (oS oK : ℕ) (r : List Byte) (P : ℕ → ℕ) (m : Mem) (q : ℕ)
    (s : Mem × BitVec 8) : Prop where
  carry : s.2 = Ed25519.carryAt r q
  digit : ∀ k < q, wordAt s.1 oK (P k) = Ed25519.digitAt r k
  sign : ∀ k < q, wordAt s.1 oS (P k) = Ed25519.signAt r k
  frame : ∀ o c, o ≠ oS → o ≠ oK → s.1 o c = m o c

section
variable {oS oK : ℕ} {r : List Byte} {P : ℕ → ℕ} {m : Mem} {N : ℕ}
  (hP : ∀ q < N, ∀ q' < N, P q = P q' → q = q') (ho : oS ≠ oK)
include hP ho

theorem recInv_step {q n : ℕ} {s : Mem × BitVec 8} {nib : BitVec 8}
    (h : RecInv oS oK r P m q s) (hq : q < N) (hnib : nib = Ed25519.nibble r q) (hn : n = P q) :
    RecInv oS oK r P m (q + 1) (recStep oS oK nib n s) := by
  subst hnib hn
  have hc : (recStep oS oK (Ed25519.nibble r q) (P q) s).2 = Ed25519.carryAt r (q + 1) := by
    rw [Ed25519.carryAt, ← h.carry]
    rfl
  have hd : (((Ed25519.nibble r q + s.2 ^^^ -Ed25519.recCarry (Ed25519.nibble r q + s.2))
      + Ed25519.recCarry (Ed25519.nibble r q + s.2)) &&& 0xF#8).signExtend 64
      = Ed25519.digitAt r q := by
    rw [h.carry]
    rfl
  have hs : (-Ed25519.recCarry (Ed25519.nibble r q + s.2)).signExtend 64
      = Ed25519.signAt r q := by
    rw [h.carry]
    rfl
  have hm : (recStep oS oK (Ed25519.nibble r q) (P q) s).1
      = putWord (putWord s.1 oK (P q) (Ed25519.digitAt r q)) oS (P q) (Ed25519.signAt r q) := by
    rw [← hd, ← hs]
    rfl
  refine ⟨hc, ?_, ?_, ?_⟩
  · intro k hk
    rw [hm, wordAt_put_ne (Or.inl ho.symm)]
    rcases Nat.lt_or_eq_of_le (Nat.lt_succ_iff.1 hk) with h' | rfl
    · rw [wordAt_put_ne (Or.inr fun e => by have := hP k (by omega) q hq e; omega)]
      exact h.digit k h'
    · exact wordAt_put_self _ _ _ _
  · intro k hk
    rw [hm]
    rcases Nat.lt_or_eq_of_le (Nat.lt_succ_iff.1 hk) with h' | rfl
    · rw [wordAt_put_ne (Or.inr fun e => by have := hP k (by omega) q hq e; omega),
        wordAt_put_ne (Or.inl ho)]
      exact h.sign k h'
    · exact wordAt_put_self _ _ _ _
  · intro o c h1 h2
    rw [hm, put_obj h1, put_obj h2, h.frame o c h1 h2]

theorem recInv_loop {byte : ℕ → Byte} {pos : ℕ → ℕ} {d : ℕ}
    (hb : ∀ k, byte k = r.getD k 0) (hp0 : ∀ k, pos k = P (2 * k))
    (hp1 : ∀ k, pos k + d = P (2 * k + 1)) : ∀ k, 2 * k ≤ N →
    RecInv oS oK r P m (2 * k) (recLoop oS oK byte pos d k (m, 0#8)) := by
  intro k
  induction k with
  | zero =>
    intro _
    exact ⟨rfl, fun k hk => absurd hk (by omega), fun k hk => absurd hk (by omega),
      fun _ _ _ _ => rfl⟩
  | succ k ih =>
    intro hk
    have h0 : Ed25519.nibble r (2 * k) = byte k &&& 0xF#8 := by
      rw [Ed25519.nibble, if_pos (by omega), show 2 * k / 2 = k by omega, hb]
    have h1 : Ed25519.nibble r (2 * k + 1) = (byte k >>> 4) &&& 0xF#8 := by
      rw [Ed25519.nibble, if_neg (by omega), show (2 * k + 1) / 2 = k by omega, hb]
    have a := recInv_step (q := 2 * k) hP ho (ih (by omega)) (by omega) h0.symm (hp0 k)
    have b := recInv_step (q := 2 * k + 1) hP ho a (by omega) h1.symm (hp1 k)
    exact b

end

/-! ## Ed25519 -/

theorem recode25519_spec {oS oK : ℕ} (ho : oS ≠ oK) (r : List Byte) (m : Mem) :
    (∀ n < 64, wordAt (recode25519 oS oK r m) oK n = Ed25519.list_digits r n ∧
      wordAt (recode25519 oS oK r m) oS n = Ed25519.list_signs r n) ∧
    ∀ o c, o ≠ oS → o ≠ oK → recode25519 oS oK r m o c = m o c := by
  have h := recInv_loop (oS := oS) (oK := oK) (r := r) (m := m) (N := 64)
    (P := fun q => 4 * (q / 2 % 16) + q / 2 / 16 + 2 * (q % 2))
    (fun q hq q' hq' e => by omega) ho (byte := fun k => r.getD k 0)
    (pos := fun k => 4 * (k % 16) + k / 16) (d := 2) (fun _ => rfl)
    (fun k => by omega) (fun k => by omega) 32 (by decide)
  have hi : ∀ n < 64, Ed25519.nibIdx n < 64 ∧ 4 * (Ed25519.nibIdx n / 2 % 16)
      + Ed25519.nibIdx n / 2 / 16 + 2 * (Ed25519.nibIdx n % 2) = n := by
    decide
  refine ⟨fun n hn => ?_, fun o c h1 h2 => ?_⟩
  · obtain ⟨a, b⟩ := hi n hn
    have hd := h.digit _ a
    have hs := h.sign _ a
    simp only [b] at hd hs
    refine ⟨?_, ?_⟩
    · rw [recode25519, wordAt_put_ne (Or.inr (by omega)), hd]
      rfl
    · rw [recode25519, wordAt_put_ne (Or.inl ho), hs]
      rfl
  · rw [recode25519, put_obj h2, h.frame o c h1 h2]

/-! ## Ed448 -/

theorem carryAt_448 (r : List Byte) : ∀ k, Ed448.carryAt r k = Ed25519.carryAt r k
  | 0 => rfl
  | k + 1 => by
    rw [Ed448.carryAt, Ed25519.carryAt, carryAt_448 r k]
    rfl

theorem digitAt_448 (r : List Byte) (k : ℕ) : Ed448.digitAt r k = Ed25519.digitAt r k := by
  rw [Ed448.digitAt, carryAt_448]
  rfl

theorem signAt_448 (r : List Byte) (k : ℕ) : Ed448.signAt r k = Ed25519.signAt r k := by
  rw [Ed448.signAt, carryAt_448]
  rfl

theorem recode448_spec {oS oK : ℕ} (ho : oS ≠ oK) (r : List Byte) (m : Mem) :
    (∀ n < 112, wordAt (recode448 oS oK r m) oK n = Ed448.list_digits r n ∧
      wordAt (recode448 oS oK r m) oS n = Ed448.list_signs r n) ∧
    ∀ o c, o ≠ oS → o ≠ oK → recode448 oS oK r m o c = m o c := by
  have h := recInv_loop (oS := oS) (oK := oK) (r := r) (m := m) (N := 112)
    (P := fun q => q) (fun q hq q' hq' e => e) ho (byte := fun k => r.getD k 0)
    (pos := fun k => 56 * (k / 28) + 2 * (k % 28)) (d := 1) (fun _ => rfl)
    (fun k => by omega) (fun k => by omega) 56 (by decide)
  refine ⟨fun n hn => ⟨?_, ?_⟩, fun o c h1 h2 => ?_⟩
  · rw [recode448, wordAt_put_ne (Or.inr (by omega)), h.digit n hn, Ed448.list_digits, digitAt_448]
  · rw [recode448, wordAt_put_ne (Or.inl ho), h.sign n hn, Ed448.list_signs, signAt_448]
  · rw [recode448, put_obj h2, h.frame o c h1 h2]

end Verif.Vec
