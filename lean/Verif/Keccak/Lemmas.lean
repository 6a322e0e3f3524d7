import Verif.Keccak.Spec
import Verif.Keccak.Model
import Mathlib.Tactic.FinCases
import Mathlib.Data.List.GetD

/-!
# Keccak-f[1600]: the unrolled permutation is the one of FIPS 202
-/

namespace Verif.Keccak

/-! ## Lanes -/

/-- The state array of 25 lanes. -/
def laneBits (L : Fin 5 → Fin 5 → W) : State := fun x y z => (L x y).getLsbD z.val

/-- Rotation offsets modulo 64. -/
def off (x y : Fin 5) : ℕ :=
  match y, x with
  | 0, 0 => 0 | 0, 1 => 1 | 0, 2 => 62 | 0, 3 => 28 | 0, 4 => 27
  | 1, 0 => 36 | 1, 1 => 44 | 1, 2 => 6 | 1, 3 => 55 | 1, 4 => 20
  | 2, 0 => 3 | 2, 1 => 10 | 2, 2 => 43 | 2, 3 => 25 | 2, 4 => 39
  | 3, 0 => 41 | 3, 1 => 45 | 3, 2 => 15 | 3, 3 => 21 | 3, 4 => 8
  | 4, 0 => 18 | 4, 1 => 2 | 4, 2 => 61 | 4, 3 => 56 | 4, 4 => 14

theorem off_eq : ∀ x y : Fin 5, off x y = offset x y % 64 := by decide

def rotL (a : W) : ℕ → W
  | 0 => a
  | n + 1 => ROL64 a (n + 1)

/-- One round on lanes. -/
def colL (A : Fin 5 → Fin 5 → W) (x : Fin 5) : W := A x 0 ^^^ A x 1 ^^^ A x 2 ^^^ A x 3 ^^^ A x 4
def dL (A : Fin 5 → Fin 5 → W) (x : Fin 5) : W := colL A (x - 1) ^^^ rotL (colL A (x + 1)) 1
def bL (A : Fin 5 → Fin 5 → W) (x y : Fin 5) : W :=
  rotL (A (x + 3 * y) x ^^^ dL A (x + 3 * y)) (off (x + 3 * y) x)
def eL (A : Fin 5 → Fin 5 → W) (x y : Fin 5) : W :=
  bL A x y ^^^ ((~~~bL A (x + 1) y) &&& bL A (x + 2) y)
def roundL (rc : W) (A : Fin 5 → Fin 5 → W) (x y : Fin 5) : W :=
  match y, x with
  | 0, 0 => eL A 0 0 ^^^ rc
  | _, _ => eL A x y

/-! ## The four layouts of the lanes -/

def lanes0 (s : KState) (x y : Fin 5) : W :=
  match y, x with
  | 0, 0 => s.Aba | 0, 1 => s.Abe | 0, 2 => s.Abi | 0, 3 => s.Abo | 0, 4 => s.Abu
  | 1, 0 => s.Aga | 1, 1 => s.Age | 1, 2 => s.Agi | 1, 3 => s.Ago | 1, 4 => s.Agu
  | 2, 0 => s.Aka | 2, 1 => s.Ake | 2, 2 => s.Aki | 2, 3 => s.Ako | 2, 4 => s.Aku
  | 3, 0 => s.Ama | 3, 1 => s.Ame | 3, 2 => s.Ami | 3, 3 => s.Amo | 3, 4 => s.Amu
  | 4, 0 => s.Asa | 4, 1 => s.Ase | 4, 2 => s.Asi | 4, 3 => s.Aso | 4, 4 => s.Asu

def lanes1 (s : KState) (x y : Fin 5) : W :=
  match y, x with
  | 0, 0 => s.Aba | 0, 1 => s.Age | 0, 2 => s.Aki | 0, 3 => s.Amo | 0, 4 => s.Asu
  | 1, 0 => s.Aka | 1, 1 => s.Ame | 1, 2 => s.Asi | 1, 3 => s.Abo | 1, 4 => s.Agu
  | 2, 0 => s.Asa | 2, 1 => s.Abe | 2, 2 => s.Agi | 2, 3 => s.Ako | 2, 4 => s.Amu
  | 3, 0 => s.Aga | 3, 1 => s.Ake | 3, 2 => s.Ami | 3, 3 => s.Aso | 3, 4 => s.Abu
  | 4, 0 => s.Ama | 4, 1 => s.Ase | 4, 2 => s.Abi | 4, 3 => s.Ago | 4, 4 => s.Aku

def lanes2 (s : KState) (x y : Fin 5) : W :=
  match y, x with
  | 0, 0 => s.Aba | 0, 1 => s.Ame | 0, 2 => s.Agi | 0, 3 => s.Aso | 0, 4 => s.Aku
  | 1, 0 => s.Asa | 1, 1 => s.Ake | 1, 2 => s.Abi | 1, 3 => s.Amo | 1, 4 => s.Agu
  | 2, 0 => s.Ama | 2, 1 => s.Age | 2, 2 => s.Asi | 2, 3 => s.Ako | 2, 4 => s.Abu
  | 3, 0 => s.Aka | 3, 1 => s.Abe | 3, 2 => s.Ami | 3, 3 => s.Ago | 3, 4 => s.Asu
  | 4, 0 => s.Aga | 4, 1 => s.Ase | 4, 2 => s.Aki | 4, 3 => s.Abo | 4, 4 => s.Amu

def lanes3 (s : KState) (x y : Fin 5) : W :=
  match y, x with
  | 0, 0 => s.Aba | 0, 1 => s.Ake | 0, 2 => s.Asi | 0, 3 => s.Ago | 0, 4 => s.Amu
  | 1, 0 => s.Ama | 1, 1 => s.Abe | 1, 2 => s.Aki | 1, 3 => s.Aso | 1, 4 => s.Agu
  | 2, 0 => s.Aga | 2, 1 => s.Ame | 2, 2 => s.Abi | 2, 3 => s.Ako | 2, 4 => s.Asu
  | 3, 0 => s.Asa | 3, 1 => s.Age | 3, 2 => s.Ami | 3, 3 => s.Abo | 3, 4 => s.Aku
  | 4, 0 => s.Aka | 4, 1 => s.Ase | 4, 2 => s.Agi | 4, 3 => s.Amo | 4, 4 => s.Abu
theorem round1_lanes (rc : W) (s : KState) : lanes1 (round1 rc s) = roundL rc (lanes0 s) := by
  funext x y; fin_cases x <;> fin_cases y <;> rfl

theorem round2_lanes (rc : W) (s : KState) : lanes2 (round2 rc s) = roundL rc (lanes1 s) := by
  funext x y; fin_cases x <;> fin_cases y <;> rfl

theorem round3_lanes (rc : W) (s : KState) : lanes3 (round3 rc s) = roundL rc (lanes2 s) := by
  funext x y; fin_cases x <;> fin_cases y <;> rfl

theorem round4_lanes (rc : W) (s : KState) : lanes0 (round4 rc s) = roundL rc (lanes3 s) := by
  funext x y; fin_cases x <;> fin_cases y <;> rfl

/-! ## Lanes and bits -/

theorem getLsbD_rotL (a : W) {n : ℕ} (hn : n < 64) (z : Fin 64) :
    (rotL a n).getLsbD z.val = a.getLsbD (z - Fin.ofNat 64 n).val := by
  cases n with
  | zero =>
    show a.getLsbD z.val = a.getLsbD (z - 0).val
    have : z - 0 = z := by apply Fin.ext; rw [Fin.sub_def]; simp
    rw [this]
  | succ n =>
    rw [rotL, ROL64, BitVec.getLsbD_xor, BitVec.getLsbD_shiftLeft, BitVec.getLsbD_ushiftRight]
    have hz := z.isLt
    have hv : (z - Fin.ofNat 64 (n + 1)).val = (64 - (n + 1) + z.val) % 64 := by
      rw [Fin.sub_def]
      simp only [Fin.ofNat, Nat.mod_eq_of_lt hn]
    rw [hv]
    by_cases h : z.val < n + 1
    · have e : (64 - (n + 1) + z.val) % 64 = 64 - (n + 1) + z.val := Nat.mod_eq_of_lt (by omega)
      rw [e]; simp [h]
    · have e : (64 - (n + 1) + z.val) % 64 = z.val - (n + 1) := by omega
      have e2 : a.getLsbD (64 - (n + 1) + z.val) = false := BitVec.getLsbD_of_ge _ _ (by omega)
      simp only [h, e, e2, hz, decide_true, decide_false, Bool.not_false, Bool.true_and,
        Bool.xor_false]

theorem ofNat_mod (n : ℕ) : Fin.ofNat 64 (n % 64) = Fin.ofNat 64 n := by
  apply Fin.ext; simp [Fin.ofNat]

theorem theta_bits (A : Fin 5 → Fin 5 → W) (x y : Fin 5) (z : Fin 64) :
    theta (laneBits A) x y z = (A x y ^^^ dL A x).getLsbD z.val := by
  simp only [theta, laneBits, dL, colL, BitVec.getLsbD_xor]
  rw [getLsbD_rotL _ (by decide)]
  simp only [BitVec.getLsbD_xor]
  rfl

theorem pi_bits (A : Fin 5 → Fin 5 → W) (x y : Fin 5) (z : Fin 64) :
    pi (rho (theta (laneBits A))) x y z = (bL A x y).getLsbD z.val := by
  rw [pi, rho, theta_bits, bL, getLsbD_rotL, off_eq, ofNat_mod]
  rw [off_eq]; exact Nat.mod_lt _ (by decide)

theorem chi_bits (A : Fin 5 → Fin 5 → W) (x y : Fin 5) (z : Fin 64) :
    chi (pi (rho (theta (laneBits A)))) x y z = (eL A x y).getLsbD z.val := by
  simp only [chi, pi_bits, eL, BitVec.getLsbD_xor, BitVec.getLsbD_and, BitVec.getLsbD_not, z.isLt,
    decide_true, Bool.true_and, Bool.xor_true]

theorem RC_eq : ∀ i < 24, ∀ z : Fin 64, RC i z = (RoundConstants.getD i 0).getLsbD z.val := by
  decide +kernel

theorem round_bits (A : Fin 5 → Fin 5 → W) {i : ℕ} (hi : i < 24) :
    laneBits (roundL (RoundConstants.getD i 0) A) = Rnd (laneBits A) i := by
  funext x y z
  rw [Rnd, iota, chi_bits]
  by_cases h : x = 0 ∧ y = 0
  · obtain ⟨rfl, rfl⟩ := h
    rw [if_pos ⟨rfl, rfl⟩, RC_eq i hi]
    show (eL A 0 0 ^^^ _).getLsbD _ = _
    rw [BitVec.getLsbD_xor]
  · rw [if_neg h, laneBits]
    congr 1
    unfold roundL
    split
    · exact absurd ⟨rfl, rfl⟩ h
    · rfl

theorem fourRounds_bits (s : KState) {i : ℕ} (hi : i + 3 < 24) :
    laneBits (lanes0 (fourRounds s i)) =
      Rnd (Rnd (Rnd (Rnd (laneBits (lanes0 s)) (i + 0)) (i + 1)) (i + 2)) (i + 3) := by
  rw [fourRounds, round4_lanes, round_bits _ hi, round3_lanes, round_bits _ (by omega),
    round2_lanes, round_bits _ (by omega), round1_lanes, round_bits _ (by omega)]

theorem KeccakF2_bits (s : KState) :
    laneBits (lanes0 (KeccakF2 s)) = keccakF (laneBits (lanes0 s)) := by
  simp only [KeccakF2, List.foldl_cons, List.foldl_nil]
  rw [fourRounds_bits _ (by decide), fourRounds_bits _ (by decide), fourRounds_bits _ (by decide),
    fourRounds_bits _ (by decide), fourRounds_bits _ (by decide), fourRounds_bits _ (by decide)]
  rfl

/-! ## Bytes and bits -/

/-- The state array of a byte string. -/
def bits (s : List Byte) : State := xorBlock zero s

theorem bits_apply (s : List Byte) (x y : Fin 5) (z : Fin 64) :
    bits s x y z = bitAt s (64 * (5 * y.val + x.val) + z.val) := by
  simp [bits, xorBlock, zero]

theorem leNat_testBit (b : List Byte) (k : ℕ) : (leNat b).testBit k = bitAt b k := by
  induction b generalizing k with
  | nil => simp [leNat, bitAt]
  | cons x xs ih =>
    have := x.isLt
    rw [leNat, Nat.add_comm, show 256 = 2 ^ 8 by norm_num,
      Nat.testBit_two_pow_mul_add _ this]
    split
    · rename_i h
      rw [bitAt, Nat.div_eq_of_lt h, Nat.mod_eq_of_lt h]
      rfl
    · rename_i h
      rw [ih, bitAt, bitAt, show k / 8 = (k - 8) / 8 + 1 by omega, List.getD_cons_succ,
        show k % 8 = (k - 8) % 8 by omega]

theorem bitAt_drop (b : List Byte) (i k : ℕ) : bitAt (b.drop i) k = bitAt b (8 * i + k) := by
  rw [bitAt, bitAt, show (8 * i + k) / 8 = i + k / 8 by omega,
    show (8 * i + k) % 8 = k % 8 by omega]
  simp [List.getD_eq_getElem?_getD]

theorem bitAt_take (b : List Byte) {i k : ℕ} (h : k < 8 * i) : bitAt (b.take i) k = bitAt b k := by
  rw [bitAt, bitAt]
  have : k / 8 < i := by omega
  simp [List.getD_eq_getElem?_getD, this]

theorem bitAt_ge (b : List Byte) {k : ℕ} (h : 8 * b.length ≤ k) : bitAt b k = false := by
  rw [bitAt, List.getD_eq_default _ _ (by omega)]
  simp

theorem loadWord_getLsbD (b : List Byte) (i : ℕ) (z : Fin 64) :
    (loadWord b i).getLsbD z.val = bitAt b (64 * i + z.val) := by
  have hz := z.isLt
  rw [BitVec.getLsbD, loadWord_toNat, leNat_testBit, bitAt_take _ (by omega), bitAt_drop]
  congr 1; omega

theorem ofBytes_bits (s : List Byte) : laneBits (lanes0 (ofBytes s)) = bits s := by
  funext x y z
  rw [bits_apply, ← loadWord_getLsbD]
  fin_cases x <;> fin_cases y <;> rfl

theorem bitAt_append (a b : List Byte) (k : ℕ) :
    bitAt (a ++ b) k = if k < 8 * a.length then bitAt a k else bitAt b (k - 8 * a.length) := by
  split
  · rename_i h
    rw [bitAt, bitAt, List.getD_append _ _ _ _ (by omega)]
  · rename_i h
    rw [bitAt, bitAt, List.getD_append_right _ _ _ _ (by omega),
      show (k - 8 * a.length) / 8 = k / 8 - a.length by omega,
      show (k - 8 * a.length) % 8 = k % 8 by omega]

theorem bitAt_words (ws : List W) {i : ℕ} (hi : i < ws.length) (z : Fin 64) :
    bitAt (ws.flatMap wordBytes) (64 * i + z.val) = (ws.getD i 0).getLsbD z.val := by
  have hz := z.isLt
  induction ws generalizing i with
  | nil => simp at hi
  | cons w ws ih =>
    rw [List.flatMap_cons, bitAt_append, wordBytes_length]
    cases i with
    | zero =>
      rw [if_pos (by omega), ← leNat_testBit, leNat_wordBytes, Nat.mul_zero, Nat.zero_add]
      rfl
    | succ i =>
      rw [if_neg (by omega), List.getD_cons_succ, ← ih (by simpa using hi)]
      congr 1; omega

theorem toBytes_length (s : KState) : s.toBytes.length = 200 := by
  simp [KState.toBytes]

theorem toBytes_bits (s : KState) : bits s.toBytes = laneBits (lanes0 s) := by
  funext x y z
  rw [bits_apply, KState.toBytes, bitAt_words _ (by simp; omega)]
  fin_cases x <;> fin_cases y <;> rfl

theorem permute_bits (s : List Byte) : bits (permute s) = keccakF (bits s) := by
  rw [permute, toBytes_bits, KeccakF2_bits, ofBytes_bits]

theorem permute_length (s : List Byte) : (permute s).length = 200 := toBytes_length _

theorem byte_ext {a b : Byte} (h : ∀ k < 8, a.getLsbD k = b.getLsbD k) : a = b :=
  BitVec.eq_of_getLsbD_eq fun k hk => h k hk

theorem stateByte_bits (s : List Byte) {i : ℕ} (hi : i < 200) :
    stateByte (bits s) i = s.getD i 0 := by
  apply byte_ext
  intro k hk
  rw [stateByte, BitVec.getLsbD_ofFnLE, dif_pos hk, bits_apply]
  have e : 64 * (5 * (Fin.ofNat 5 ((8 * i + k) / 64 / 5)).val +
      (Fin.ofNat 5 ((8 * i + k) / 64)).val) + (Fin.ofNat 64 (8 * i + k)).val = 8 * i + k := by
    simp only [Fin.ofNat]; omega
  rw [e, bitAt]
  congr 1
  · congr 1; omega
  · omega

end Verif.Keccak
