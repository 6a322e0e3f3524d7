import Verif.Word

/-!
# More x86-64 integer instructions

The instructions that only the Fp448 code uses: masks, `shrd`, 32-bit shifts and moving the
carry flag to a register and back.  Same conventions as `Verif.Word`.
-/

namespace Verif

section instructions
variable {α : Type}

/-- `andq src, dst`: CF, OF cleared. -/
def and (dst src : W) (k : W → Bool → Bool → α) : α := k (dst &&& src) false false

/-- `orq src, dst`: CF, OF cleared. -/
def or (dst src : W) (k : W → Bool → Bool → α) : α := k (dst ||| src) false false

/-- `shrdq $n, src, dst`: shift dst right by n, filling from the bottom of src. -/
def shrd (n : Nat) (src dst : W) (k : W → α) : α := k ((dst >>> n) ||| (src <<< (64 - n)))

/-- `clc`. -/
def clc (k : Bool → α) : α := k false

/-- `setc r8`: the low byte of the register becomes the carry flag. -/
def setc (dst : W) (cf : Bool) (k : W → α) : α :=
  k ((dst &&& 0xffffffffffffff00#64) ||| (BitVec.ofBool cf).setWidth 64)

/-- `btl $0, r32`: CF ← bit 0. -/
def bt0 (src : W) (k : Bool → α) : α := k (src.getLsbD 0)

end instructions

/-- The upper half of a word as an integer. -/
def hv (x : W) : ℤ := iv x / 2 ^ 32
/-- The lower half of a word as an integer. -/
def lv (x : W) : ℤ := iv x % 2 ^ 32

theorem hl_split (x : W) : iv x = 2 ^ 32 * hv x + lv x := by unfold hv lv; omega
theorem hv_nonneg (x : W) : 0 ≤ hv x := by have := iv_nonneg x; unfold hv; omega
theorem lv_nonneg (x : W) : 0 ≤ lv x := by unfold lv; omega
theorem hv_le (x : W) : hv x ≤ 2 ^ 32 - 1 := by have := iv_lt x; unfold hv; omega
theorem lv_le (x : W) : lv x ≤ 2 ^ 32 - 1 := by unfold lv; omega

theorem nat_or_disjoint (a b n : ℕ) (hb : b < 2 ^ n) : (2 ^ n * a) ||| b = 2 ^ n * a + b :=
  (Nat.two_pow_add_eq_or_of_lt hb a).symm

section inversion
variable {α : Type} {X : α}

theorem andhi_inv {dst : W} {k : W → Bool → Bool → α}
    (h : and dst 18446744069414584320#64 k = X) :
    ∃ r : W, iv r = 2 ^ 32 * hv dst ∧ k r false false = X := by
  refine ⟨_, ?_, h⟩
  have e : dst &&& 18446744069414584320#64 = (dst >>> 32) <<< 32 := by
    ext i hi
    have hm : (18446744069414584320#64 : W) = (BitVec.allOnes 64) <<< 32 := by decide
    simp only [hm, BitVec.getElem_and, BitVec.getElem_shiftLeft, BitVec.getElem_allOnes,
      BitVec.getElem_ushiftRight]
    by_cases h : i < 32
    · simp [h]
    · simp only [h, decide_false, Bool.not_false, Bool.true_and, Bool.and_true]
      rw [show 32 + (i - 32) = i by omega, BitVec.getLsbD_eq_getElem hi]
  have hlt := dst.isLt
  rw [e]
  unfold hv iv
  rw [BitVec.toNat_shiftLeft, BitVec.toNat_ushiftRight, Nat.shiftLeft_eq,
    Nat.shiftRight_eq_div_pow]
  omega

theorem andlo_inv {dst : W} {k : W → Bool → Bool → α} (h : and dst 4294967295#64 k = X) :
    ∃ r : W, iv r = lv dst ∧ k r false false = X := by
  refine ⟨_, ?_, h⟩
  unfold lv iv
  rw [BitVec.toNat_and]
  have := Nat.and_two_pow_sub_one_eq_mod dst.toNat 32
  rw [show (4294967295#64 : W).toNat = 2 ^ 32 - 1 from rfl, this]
  push_cast; rfl

/-- `orq` of a multiple of 2^32 and a number below 2^32. -/
theorem or_inv {dst src : W} {k : W → Bool → Bool → α} (h : or dst src k = X)
    (hd : ∃ t : ℤ, iv dst = 2 ^ 32 * t) (hs : iv src < 2 ^ 32) :
    ∃ r : W, iv r = iv dst + iv src ∧ k r false false = X := by
  refine ⟨_, ?_, h⟩
  obtain ⟨t, ht⟩ := hd
  unfold iv at *
  rw [BitVec.toNat_or]
  have h1 : dst.toNat = 2 ^ 32 * (dst.toNat / 2 ^ 32) := by omega
  rw [h1, nat_or_disjoint _ _ _ (by omega)]
  push_cast; rfl

theorem shrd_inv {src dst : W} {k : W → α} (h : shrd 32 src dst k = X) :
    ∃ r : W, iv r = hv dst + 2 ^ 32 * lv src ∧ k r = X := by
  refine ⟨_, ?_, h⟩
  unfold hv lv iv
  rw [BitVec.toNat_or, BitVec.toNat_ushiftRight, BitVec.toNat_shiftLeft,
    Nat.shiftLeft_eq, Nat.shiftRight_eq_div_pow]
  have h1 := src.isLt
  have h2 := dst.isLt
  have h3 : src.toNat * 2 ^ (64 - 32) % 2 ^ 64 = 2 ^ 32 * (src.toNat % 2 ^ 32) := by omega
  rw [h3, Nat.or_comm, nat_or_disjoint _ _ _ (by omega)]
  push_cast
  exact add_comm _ _

/-- `shlq $32` of a word below 2^32. -/
theorem shl32_inv {dst : W} {k : W → α} (h : shl 32 dst k = X) (hd : iv dst < 2 ^ 32) :
    ∃ r : W, iv r = 2 ^ 32 * iv dst ∧ k r = X := by
  refine ⟨_, ?_, h⟩
  unfold iv at *
  rw [BitVec.toNat_shiftLeft, Nat.shiftLeft_eq]
  omega

theorem shld0_inv {src : W} {k : W → α} (h : shld 1 src 0#64 k = X) :
    ∃ r : W, iv r = bv src.msb ∧ k r = X := by
  obtain ⟨r, e, h⟩ := shld_inv h
  refine ⟨r, ?_, h⟩
  have h0 : iv 0#64 = 0 := rfl
  have h1 : bv (0#64 : W).msb = 0 := rfl
  rw [h0, h1] at e
  linarith

theorem clc_inv {k : Bool → α} (h : clc k = X) : k false = X := h

theorem setc_inv {cf : Bool} {k : W → α} (h : setc 0#64 cf k = X) :
    k ((BitVec.ofBool cf).setWidth 64) = X := by
  unfold setc at h
  rwa [BitVec.zero_and, BitVec.zero_or] at h

theorem bt0_inv {cf : Bool} {k : Bool → α} (h : bt0 ((BitVec.ofBool cf).setWidth 64) k = X) :
    k cf = X := by
  cases cf <;> exact h

end inversion

end Verif
