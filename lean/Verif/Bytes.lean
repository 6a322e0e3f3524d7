import Verif.Word
import Mathlib.Tactic.Ring
import Mathlib.Algebra.Order.Group.Nat

/-!
# Byte strings

`uint8_t` buffers are lists of `BitVec 8`.  A cast from `uint8_t *` to
`uint64_t *` reads words in little-endian order (x86-64).
-/

namespace Verif

/-- `uint8_t`. -/
abbrev Byte := BitVec 8

/-- The number a byte string denotes, little endian. -/
def leNat : List Byte → ℕ
  | [] => 0
  | b :: bs => b.toNat + 256 * leNat bs

/-- The `n`-byte little-endian encoding of `x` (mod 256^n). -/
def leBytes : ℕ → ℕ → List Byte
  | 0, _ => []
  | n + 1, x => BitVec.ofNat 8 x :: leBytes n (x / 256)

/-- `((uint64_t *) b)[i]`: load of the i-th 64-bit word of a buffer. -/
def loadWord (b : List Byte) (i : ℕ) : W := BitVec.ofNat 64 (leNat ((b.drop (8 * i)).take 8))

/-- The eight bytes of a 64-bit word in memory. -/
def wordBytes (w : W) : List Byte := leBytes 8 w.toNat

/-- src/bytestring.c:48-55 `cmp_bytes`: the OR of the XORs, as `int`.
Simplification: both buffers are given with their `num_bytes` bytes. -/
def cmp_bytes (a b : List Byte) : BitVec 32 :=
  (a.zip b).foldl (fun ret xy => ret ||| (xy.1 ^^^ xy.2).setWidth 32) 0#32

@[simp] theorem leBytes_length (n x : ℕ) : (leBytes n x).length = n := by
  induction n generalizing x with
  | zero => rfl
  | succ n ih => simp [leBytes, ih]

@[simp] theorem wordBytes_length (w : W) : (wordBytes w).length = 8 := leBytes_length 8 _

theorem leNat_append (a b : List Byte) : leNat (a ++ b) = leNat a + 256 ^ a.length * leNat b := by
  induction a with
  | nil => simp [leNat]
  | cons x xs ih => simp only [List.cons_append, leNat, ih, List.length_cons]; ring

theorem leNat_lt (a : List Byte) : leNat a < 256 ^ a.length := by
  induction a with
  | nil => simp [leNat]
  | cons x xs ih =>
    have := x.isLt
    simp only [leNat, List.length_cons, pow_succ]
    omega

theorem leNat_leBytes (n x : ℕ) : leNat (leBytes n x) = x % 256 ^ n := by
  induction n generalizing x with
  | zero => simp [leBytes, leNat, Nat.mod_one]
  | succ n ih =>
    simp only [leBytes, leNat, ih, BitVec.toNat_ofNat]
    rw [pow_succ 256 n, mul_comm (256 ^ n) 256, Nat.mod_mul]

theorem leBytes_leNat (a : List Byte) : leBytes a.length (leNat a) = a := by
  induction a with
  | nil => rfl
  | cons x xs ih =>
    have hx := x.isLt
    simp only [List.length_cons, leBytes, leNat]
    have h1 : (x.toNat + 256 * leNat xs) / 256 = leNat xs := by omega
    rw [h1, ih]
    congr 1
    apply BitVec.eq_of_toNat_eq
    rw [BitVec.toNat_ofNat]; omega

theorem leNat_inj {a b : List Byte} (hl : a.length = b.length) (h : leNat a = leNat b) : a = b := by
  rw [← leBytes_leNat a, ← leBytes_leNat b, h, hl]

theorem leNat_wordBytes (w : W) : leNat (wordBytes w) = w.toNat := by
  rw [wordBytes, leNat_leBytes]; exact Nat.mod_eq_of_lt (by have := w.isLt; norm_num; omega)

theorem loadWord_toNat (b : List Byte) (i : ℕ) :
    (loadWord b i).toNat = leNat ((b.drop (8 * i)).take 8) := by
  rw [loadWord, BitVec.toNat_ofNat]
  apply Nat.mod_eq_of_lt
  refine (leNat_lt _).trans_le ?_
  calc 256 ^ ((b.drop (8 * i)).take 8).length ≤ 256 ^ 8 :=
        Nat.pow_le_pow_right (by norm_num) (by simp)
    _ = 2 ^ 64 := by norm_num

/-- Peel eight bytes. -/
theorem leNat_drop (b : List Byte) (i : ℕ) (h : 8 * (i + 1) ≤ b.length) :
    leNat (b.drop (8 * i)) = (loadWord b i).toNat + 2 ^ 64 * leNat (b.drop (8 * (i + 1))) := by
  rw [loadWord_toNat]
  conv_lhs => rw [← List.take_append_drop 8 (b.drop (8 * i)), leNat_append]
  have : ((b.drop (8 * i)).take 8).length = 8 := by
    simp only [List.length_take, List.length_drop]; omega
  rw [this, List.drop_drop]
  norm_num [Nat.mul_add]

theorem cmp_bytes_foldl (l : List (Byte × Byte)) (r : BitVec 32) :
    l.foldl (fun ret xy => ret ||| (xy.1 ^^^ xy.2).setWidth 32) r = 0#32 ↔
      r = 0#32 ∧ ∀ xy ∈ l, xy.1 = xy.2 := by
  induction l generalizing r with
  | nil => simp
  | cons x xs ih =>
    rw [List.foldl_cons, ih]
    simp only [List.mem_cons, forall_eq_or_imp]
    have : r ||| (x.1 ^^^ x.2).setWidth 32 = 0#32 ↔ r = 0#32 ∧ x.1 = x.2 := by
      rw [BitVec.or_eq_zero_iff]
      refine and_congr_right fun _ => ?_
      constructor
      · intro h
        have h2 : x.1 ^^^ x.2 = 0#8 := by
          have := congrArg (BitVec.setWidth 8) h
          rw [BitVec.setWidth_setWidth_of_le _ (by decide)] at this
          simpa using this
        exact BitVec.xor_eq_zero_iff.mp h2
      · intro h; simp [h]
    rw [this, and_assoc]

theorem cmp_bytes_eq_zero {a b : List Byte} (h : a.length = b.length) :
    cmp_bytes a b = 0#32 ↔ a = b := by
  unfold cmp_bytes
  rw [cmp_bytes_foldl]
  simp only [true_and]
  induction a generalizing b with
  | nil => cases b <;> simp_all
  | cons x xs ih =>
    cases b with
    | nil => simp at h
    | cons y ys =>
      simp only [List.zip_cons_cons, List.mem_cons, forall_eq_or_imp, List.cons.injEq]
      rw [ih (by simpa using h)]

end Verif
