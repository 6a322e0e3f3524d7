import Verif.Bytes
import Mathlib.Data.List.GetD

/-!
# The memory of a caller

The functions of the library that take pointers read and write bytes at addresses of the caller.
-/

namespace Verif

/-- The `n` bytes at `p`. -/
def bytesAt (c : ℕ → Byte) (p n : ℕ) : List Byte := (List.range n).map fun i => c (p + i)

/-- The bytes `l` written at `p`. -/
def storeAt (c : ℕ → Byte) (p : ℕ) (l : List Byte) : ℕ → Byte :=
  fun a => if p ≤ a ∧ a < p + l.length then l.getD (a - p) 0#8 else c a

/-- The `n` bytes at `p` and the `k` bytes at `q` have no byte in common. -/
def NoShare (p n q k : ℕ) : Prop := ∀ a, ¬((p ≤ a ∧ a < p + n) ∧ q ≤ a ∧ a < q + k)

theorem length_bytesAt (c : ℕ → Byte) (p n : ℕ) : (bytesAt c p n).length = n := by
  simp [bytesAt]

theorem storeAt_other {c : ℕ → Byte} {p a : ℕ} {l : List Byte}
    (h : ¬(p ≤ a ∧ a < p + l.length)) : storeAt c p l a = c a := by
  rw [storeAt, if_neg h]

theorem bytesAt_congr {c c' : ℕ → Byte} {p n : ℕ} (h : ∀ i < n, c (p + i) = c' (p + i)) :
    bytesAt c p n = bytesAt c' p n := by
  refine List.map_congr_left fun i hi => h i (List.mem_range.1 hi)

theorem bytesAt_storeAt {c : ℕ → Byte} {p n : ℕ} {l : List Byte} (h : l.length = n) :
    bytesAt (storeAt c p l) p n = l := by
  subst h
  refine List.ext_getElem (by simp [bytesAt]) fun i h1 h2 => ?_
  simp [bytesAt, storeAt, h2]

theorem bytesAt_disjoint {c : ℕ → Byte} {p n q : ℕ} {l : List Byte}
    (h : NoShare p n q l.length) : bytesAt (storeAt c q l) p n = bytesAt c p n :=
  bytesAt_congr fun i hi => storeAt_other fun h' => h (p + i) ⟨⟨by omega, by omega⟩, h'⟩

theorem bytesAt_append (c : ℕ → Byte) (p n k : ℕ) :
    bytesAt c p (n + k) = bytesAt c p n ++ bytesAt c (p + n) k := by
  simp only [bytesAt, List.range_add, List.map_append, List.map_map]
  congr 1
  refine List.map_congr_left fun i _ => ?_
  simp only [Function.comp, Nat.add_assoc]

theorem storeAt_append (c : ℕ → Byte) (p : ℕ) (l l' : List Byte) :
    storeAt (storeAt c p l) (p + l.length) l' = storeAt c p (l ++ l') := by
  funext a
  simp only [storeAt, List.length_append]
  by_cases h : p + l.length ≤ a ∧ a < p + l.length + l'.length
  · rw [if_pos h, if_pos ⟨by omega, by omega⟩, List.getD_append_right _ _ _ _ (by omega)]
    congr 1; omega
  · rw [if_neg h]
    by_cases h' : p ≤ a ∧ a < p + l.length
    · rw [if_pos h', if_pos ⟨by omega, by omega⟩, List.getD_append _ _ _ _ (by omega)]
    · rw [if_neg h', if_neg (by omega)]

end Verif
