import Mathlib.Tactic.LinearCombination
import Mathlib.Tactic.Linarith
import Mathlib.Tactic.Positivity

/-!
# 64-bit words and x86-64 integer instructions

Machine words are `BitVec 64`.  Each instruction is written in continuation
passing style, so that a block of inline assembly is transcribed line by line:
`"adcq %%r10, %%r12"` becomes `adc r12 r10 cf fun r12 cf => ...`.

The semantics follow the Intel SDM (vol. 2).  Of the flags, CF (`cf`), OF
(`ovf`) and SF are modelled, on the instructions whose flags the library reads.
-/

namespace Verif

/-- `uint64_t`, a 64-bit register. -/
abbrev W := BitVec 64

section instructions
variable {α : Type}

/-- Unsigned carry out of `a + b + c`. -/
def carryOut (a b : W) (c : Bool) : Bool := decide (2 ^ 64 ≤ a.toNat + b.toNat + c.toNat)

/-- Unsigned borrow out of `a - b - c`. -/
def borrowOut (a b : W) (c : Bool) : Bool := decide (a.toNat < b.toNat + c.toNat)

/-- `movq src, dst`, `movl $imm, r32` (zero-extending).  Flags unaffected. -/
def mov (src : W) (k : W → α) : α := k src

/-- `xorl r, r`: clears the register and CF, OF. -/
def xor0 (k : W → Bool → Bool → α) : α := k 0#64 false false

/-- `adcq src, dst`; also `adcx` (on CF) and `adox` (on OF): dst ← dst+src+flag. -/
def adc (dst src : W) (cf : Bool) (k : W → Bool → α) : α :=
  k (dst + src + (BitVec.ofBool cf).setWidth 64) (carryOut dst src cf)

/-- `addq src, dst`. -/
def add (dst src : W) (k : W → Bool → α) : α := k (dst + src) (carryOut dst src false)

/-- `sbbq src, dst`: dst ← dst-src-CF. -/
def sbb (dst src : W) (cf : Bool) (k : W → Bool → α) : α :=
  k (dst - src - (BitVec.ofBool cf).setWidth 64) (borrowOut dst src cf)

/-- `subq src, dst`. -/
def sub (dst src : W) (k : W → Bool → α) : α := k (dst - src) (borrowOut dst src false)

/-- `mulx src, lo, hi` (implicit rdx; flags unaffected) and `mulq src` (implicit rax):
the 128-bit product (lo, hi). -/
def mulx (x y : W) (k : W → W → α) : α :=
  k (x * y) (BitVec.ofNat 64 (x.toNat * y.toNat / 2 ^ 64))

/-- `imulq src, dst`: truncated product; CF=OF=1 iff the signed product does not fit. -/
def imul (dst src : W) (k : W → Bool → Bool → α) : α :=
  k (dst * src) (decide ((dst * src).toInt ≠ dst.toInt * src.toInt))
    (decide ((dst * src).toInt ≠ dst.toInt * src.toInt))

/-- `cmovcc src, dst`, the condition being given as a Bool. -/
def cmov (c : Bool) (dst src : W) (k : W → α) : α := k (if c then src else dst)

/-- `shldq $n, src, dst`: shift dst left by n, filling from the top of src. -/
def shld (n : Nat) (src dst : W) (k : W → α) : α := k ((dst <<< n) ||| (src >>> (64 - n)))

/-- `shlq $n, dst`. -/
def shl (n : Nat) (dst : W) (k : W → α) : α := k (dst <<< n)

/-- `btrq $63, dst`: CF ← bit 63, bit 63 ← 0. -/
def btr63 (dst : W) (k : W → Bool → α) : α := k (dst &&& 0x7fffffffffffffff#64) dst.msb

end instructions

/-- A word as an integer. -/
def iv (x : W) : ℤ := x.toNat
/-- A flag as an integer. -/
def bv (c : Bool) : ℤ := c.toNat

theorem iv_nonneg (x : W) : 0 ≤ iv x := by unfold iv; positivity
theorem iv_lt (x : W) : iv x < 2 ^ 64 := by
  have := x.isLt; unfold iv; omega
theorem iv_le (x : W) : iv x ≤ 2 ^ 64 - 1 := by have := iv_lt x; omega
theorem bv_nonneg (c : Bool) : 0 ≤ bv c := by unfold bv; positivity
theorem bv_le (c : Bool) : bv c ≤ 1 := by have := Bool.toNat_le c; unfold bv; omega
@[simp] theorem bv_true : bv true = 1 := rfl
@[simp] theorem bv_false : bv false = 0 := rfl
theorem iv_inj {x y : W} (h : iv x = iv y) : x = y := by
  unfold iv at h; exact BitVec.eq_of_toNat_eq (by exact_mod_cast h)
theorem bv_eq_zero {c : Bool} (h : bv c < 1) : bv c = 0 := by have := bv_nonneg c; omega
theorem iv_ofNat (n : Nat) : iv (BitVec.ofNat 64 n) = (n % 2 ^ 64 : ℕ) := by
  simp [iv, BitVec.toNat_ofNat]
theorem iv_mul_nonneg (x y : W) : 0 ≤ iv x * iv y := mul_nonneg (iv_nonneg x) (iv_nonneg y)
theorem iv_mul_le (x y : W) : iv x * iv y ≤ (2 ^ 64 - 1) * (2 ^ 64 - 1) :=
  mul_le_mul (iv_le x) (iv_le y) (iv_nonneg y) (by norm_num)

theorem ofBool_toNat (c : Bool) : ((BitVec.ofBool c).setWidth 64).toNat = c.toNat := by
  cases c <;> rfl

section inversion
variable {α : Type} {X : α}

theorem mov_inv {src : W} {k : W → α} (h : mov src k = X) : k src = X := h

theorem xor0_inv {k : W → Bool → Bool → α} (h : xor0 k = X) : k 0#64 false false = X := h

theorem adc_inv {dst src : W} {cf : Bool} {k : W → Bool → α} (h : adc dst src cf k = X) :
    ∃ (r : W) (c : Bool), iv r + 2 ^ 64 * bv c = iv dst + iv src + bv cf ∧ k r c = X := by
  refine ⟨_, _, ?_, h⟩
  simp only [iv, bv, BitVec.toNat_add, ofBool_toNat, carryOut]
  have h1 := dst.isLt; have h2 := src.isLt
  have h3 : cf.toNat ≤ 1 := Bool.toNat_le cf
  by_cases hb : 2 ^ 64 ≤ dst.toNat + src.toNat + cf.toNat
  · simp only [hb, decide_true, Bool.toNat_true]; omega
  · simp only [hb, decide_false, Bool.toNat_false]; omega

theorem add_inv {dst src : W} {k : W → Bool → α} (h : add dst src k = X) :
    ∃ (r : W) (c : Bool), iv r + 2 ^ 64 * bv c = iv dst + iv src ∧ k r c = X := by
  have h' : adc dst src false k = X := by
    simpa [add, adc] using h
  simpa using adc_inv h'

theorem sbb_inv {dst src : W} {cf : Bool} {k : W → Bool → α} (h : sbb dst src cf k = X) :
    ∃ (r : W) (c : Bool), iv r - 2 ^ 64 * bv c = iv dst - iv src - bv cf ∧ k r c = X := by
  refine ⟨_, _, ?_, h⟩
  simp only [iv, bv, BitVec.toNat_sub, ofBool_toNat, borrowOut]
  have h1 := dst.isLt; have h2 := src.isLt
  have h3 : cf.toNat ≤ 1 := Bool.toNat_le cf
  by_cases hb : dst.toNat < src.toNat + cf.toNat
  · simp only [hb, decide_true, Bool.toNat_true]; omega
  · simp only [hb, decide_false, Bool.toNat_false]; omega

theorem sub_inv {dst src : W} {k : W → Bool → α} (h : sub dst src k = X) :
    ∃ (r : W) (c : Bool), iv r - 2 ^ 64 * bv c = iv dst - iv src ∧ k r c = X := by
  have h' : sbb dst src false k = X := by
    simpa [sub, sbb] using h
  simpa using sbb_inv h'

theorem mulx_inv {x y : W} {k : W → W → α} (h : mulx x y k = X) :
    ∃ (lo hi : W), iv lo + 2 ^ 64 * iv hi = iv x * iv y ∧ k lo hi = X := by
  have hle : x.toNat * y.toNat ≤ (2 ^ 64 - 1) * (2 ^ 64 - 1) := by
    have h1 := x.isLt; have h2 := y.isLt
    exact Nat.mul_le_mul (by omega) (by omega)
  refine ⟨_, _, ?_, h⟩
  simp only [iv, BitVec.toNat_mul, BitVec.toNat_ofNat]
  have : ((x.toNat : ℤ) * (y.toNat : ℤ)) = ((x.toNat * y.toNat : ℕ) : ℤ) := by push_cast; rfl
  rw [this]
  generalize x.toNat * y.toNat = p at *
  omega

/-- `imul` with both factors small: exact, and both flags are clear. -/
theorem imul_inv {x y : W} {k : W → Bool → Bool → α} (h : imul x y k = X)
    (hx : iv x < 2 ^ 31) (hy : iv y < 2 ^ 31) :
    ∃ r : W, iv r = iv x * iv y ∧ k r false false = X := by
  unfold iv at hx hy
  have hle : x.toNat * y.toNat ≤ (2 ^ 31 - 1) * (2 ^ 31 - 1) :=
    Nat.mul_le_mul (by omega) (by omega)
  have e : (x * y).toNat = x.toNat * y.toNat := by
    rw [BitVec.toNat_mul]; exact Nat.mod_eq_of_lt (by omega)
  refine ⟨x * y, ?_, ?_⟩
  · simp [iv, e]
  · have : (x * y).toInt = x.toInt * y.toInt := by
      rw [BitVec.toInt_eq_toNat_cond, BitVec.toInt_eq_toNat_cond, BitVec.toInt_eq_toNat_cond, e]
      rw [if_pos (by omega), if_pos (by omega), if_pos (by omega)]; push_cast; rfl
    simpa [imul, this] using h

theorem cmov_inv {c : Bool} {dst src : W} {k : W → α} (h : cmov c dst src k = X) :
    ∃ r : W, r = (if c then src else dst) ∧ k r = X := ⟨_, rfl, h⟩

/-- `cmovc` between 0 and `m`: the carry times `m`. -/
theorem cmov0_inv {c : Bool} {m : W} {k : W → α} (h : cmov c 0#64 m k = X) :
    ∃ r : W, iv r = iv m * bv c ∧ k r = X := by
  refine ⟨_, ?_, h⟩
  cases c <;> simp [iv]

theorem shld_inv {src dst : W} {k : W → α} (h : shld 1 src dst k = X) :
    ∃ r : W, iv r + 2 ^ 64 * bv dst.msb = 2 * iv dst + bv src.msb ∧ k r = X := by
  refine ⟨_, ?_, h⟩
  have e : (dst <<< 1 ||| src >>> (64 - 1)).toNat = (dst.toNat * 2) % 2 ^ 64 + src.toNat / 2 ^ 63 := by
    have hd : dst <<< 1 ||| src >>> (64 - 1) = dst <<< 1 + src >>> 63 := by
      rw [BitVec.add_eq_or_of_and_eq_zero]
      ext i hi
      simp only [BitVec.getElem_and, BitVec.getElem_shiftLeft, BitVec.getElem_ushiftRight,
        BitVec.getElem_zero]
      rcases Nat.eq_zero_or_pos i with rfl | hp
      · simp
      · have : src.getLsbD (63 + i) = false := BitVec.getLsbD_of_ge _ _ (by omega)
        simp [this]
    rw [hd, BitVec.toNat_add, BitVec.toNat_shiftLeft, BitVec.toNat_ushiftRight, Nat.shiftLeft_eq,
      Nat.shiftRight_eq_div_pow]
    have := src.isLt
    have := dst.isLt
    omega
  rw [BitVec.msb_eq_decide, BitVec.msb_eq_decide]
  unfold iv bv
  rw [e]
  have h1 := src.isLt
  have h2 := dst.isLt
  by_cases a1 : 2 ^ (64 - 1) ≤ dst.toNat <;> by_cases a2 : 2 ^ (64 - 1) ≤ src.toNat <;>
    simp only [a1, a2, decide_true, decide_false, Bool.toNat_true, Bool.toNat_false] <;> omega

theorem shl_inv {dst : W} {k : W → α} (h : shl 1 dst k = X) :
    ∃ r : W, iv r + 2 ^ 64 * bv dst.msb = 2 * iv dst ∧ k r = X := by
  refine ⟨_, ?_, h⟩
  rw [BitVec.msb_eq_decide]
  unfold iv bv
  rw [BitVec.toNat_shiftLeft, Nat.shiftLeft_eq]
  have h2 := dst.isLt
  by_cases a1 : 2 ^ (64 - 1) ≤ dst.toNat <;>
    simp only [a1, decide_true, decide_false, Bool.toNat_true, Bool.toNat_false] <;> omega

theorem btr63_inv {dst : W} {k : W → Bool → α} (h : btr63 dst k = X) :
    ∃ (r : W) (c : Bool), iv r + 2 ^ 63 * bv c = iv dst ∧ iv r < 2 ^ 63 ∧ k r c = X := by
  refine ⟨_, _, ?_, ?_, h⟩
  all_goals
    have e : (dst &&& 0x7fffffffffffffff#64).toNat = dst.toNat % 2 ^ 63 := by
      rw [BitVec.toNat_and]
      exact Nat.and_two_pow_sub_one_eq_mod dst.toNat 63
    have h2 := dst.isLt
    unfold iv
    rw [e]
  · rw [BitVec.msb_eq_decide]
    unfold bv
    by_cases a1 : 2 ^ (64 - 1) ≤ dst.toNat <;>
      simp only [a1, decide_true, decide_false, Bool.toNat_true, Bool.toNat_false] <;> omega
  · omega

/-- A carry whose weight exceeds the total is zero. -/
theorem dead {c : Bool} {K rest P : ℤ} (e : K * bv c + rest = P) (hr : 0 ≤ rest) (hP : P < K) :
    bv c = 0 := by
  rcases c with _ | _
  · rfl
  · simp at e; omega

/-- A word whose top bit has a weight exceeding the total has a clear top bit. -/
theorem dead_msb {v : W} {K rest P : ℤ} (e : K * iv v + rest = P) (hr : 0 ≤ rest)
    (hP : P < K * 2 ^ 63) (hK : 0 < K := by norm_num) : bv v.msb = 0 := by
  have h : iv v < 2 ^ 63 := by
    by_contra hc
    have : K * 2 ^ 63 ≤ K * iv v := mul_le_mul_of_nonneg_left (not_lt.mp hc) hK.le
    linarith
  unfold iv at h
  rw [BitVec.msb_eq_decide]
  have : ¬ 2 ^ (64 - 1) ≤ v.toNat := by omega
  rw [decide_eq_false this, bv_false]

end inversion

end Verif
