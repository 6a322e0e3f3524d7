import Verif.X25519.X64
import Verif.X25519.Spec
import Verif.Fp25519.InvLemmas
import Mathlib.Data.List.Range

/-! Proofs about the scalar X25519 implementation. -/

namespace Verif.X25519

open Verif.Fp25519

/-! ## Clamping -/

theorem byte_and_248 (b : Byte) : (b &&& 0xF8#8).toNat = 8 * (b.toNat / 8) := by
  revert b; decide +kernel

theorem byte_clamp_top (b : Byte) : (64#8 ||| (b &&& 0x7F#8)).toNat = 64 + b.toNat % 64 := by
  revert b; decide +kernel

theorem byte_and_127 (b : Byte) : (b &&& 0x7F#8).toNat = b.toNat % 128 := by
  revert b; decide +kernel

/-- A 32-byte string is its first byte, 30 bytes in the middle and its last byte. -/
theorem split32 {l : List Byte} (h : l.length = 32) :
    ∃ a m c, m.length = 30 ∧ l = a :: (m ++ [c]) := by
  match l with
  | a :: t =>
    have ht : t.length = 31 := by simpa using h
    have hne : t ≠ [] := by rintro rfl; simp at ht
    refine ⟨a, t.dropLast, t.getLast hne, ?_, ?_⟩
    · rw [List.length_dropLast, ht]
    · rw [List.dropLast_append_getLast hne]

theorem modify_last (f : Byte → Byte) (a c : Byte) {m : List Byte} (h : m.length = 30) :
    (a :: (m ++ [c])).modify 31 f = a :: (m ++ [f c]) := by
  rw [List.modify_succ_cons, ← h]
  congr 1
  clear h
  induction m with
  | nil => rfl
  | cons x m ih => rw [List.cons_append, List.length_cons, List.modify_succ_cons, ih, List.cons_append]

theorem leNat_split (a c : Byte) {m : List Byte} (h : m.length = 30) :
    leNat (a :: (m ++ [c])) = a.toNat + 256 * leNat m + 256 ^ 31 * c.toNat := by
  have : a :: (m ++ [c]) = [a] ++ m ++ [c] := by simp
  rw [this, leNat_append, leNat_append]
  simp [leNat, h]

theorem clamp_val {k : List Byte} (h : k.length = 32) :
    (clamp k).length = 32 ∧ leNat (clamp k) = scalar k := by
  obtain ⟨a, m, c, hm, rfl⟩ := split32 h
  unfold clamp scalar
  rw [List.modify_zero_cons, modify_last _ _ _ hm, leNat_split _ _ hm, leNat_split _ _ hm,
    byte_and_248, byte_clamp_top]
  refine ⟨by simp [hm], ?_⟩
  have h1 := leNat_lt m
  rw [hm] at h1
  have ha := a.isLt
  have hc := c.isLt
  generalize a.toNat = a, c.toNat = c, leNat m = m at *
  clear h hm
  omega

theorem mask_val {u : List Byte} (h : u.length = 32) :
    (maskTop u).length = 32 ∧ leNat (maskTop u) = leNat u % 2 ^ 255 := by
  obtain ⟨a, m, c, hm, rfl⟩ := split32 h
  unfold maskTop
  rw [modify_last _ _ _ hm, leNat_split _ _ hm, leNat_split _ _ hm, byte_and_127]
  refine ⟨by simp [hm], ?_⟩
  have h1 := leNat_lt m
  rw [hm] at h1
  have ha := a.isLt
  have hc := c.isLt
  generalize a.toNat = a, c.toNat = c, leNat m = m at *
  clear h hm
  omega

/-! ## Scalar bits -/

/-- A bit as a 64-bit word. -/
def bitW (b : Bool) : W := if b then 1#64 else 0#64

theorem shift_and_one (w : W) (j : ℕ) : (w >>> j) &&& 1#64 = bitW (w.toNat.testBit j) := by
  have h1 : ((w >>> j) &&& 1#64).toNat = (w.toNat.testBit j).toNat := by
    rw [BitVec.toNat_and, BitVec.toNat_ushiftRight]
    show w.toNat >>> j &&& 1 = _
    rw [Nat.testBit_eq_decide_div_mod_eq, Nat.and_one_is_mod, Nat.shiftRight_eq_div_pow]
    rcases Nat.mod_two_eq_zero_or_one (w.toNat / 2 ^ j) with h | h <;> simp [h]
  apply BitVec.eq_of_toNat_eq
  rw [h1, bitW]
  cases w.toNat.testBit j <;> rfl

/-- Natural number value of four words. -/
def nval (a : F4) : ℕ :=
  a.w0.toNat + 2 ^ 64 * (a.w1.toNat + 2 ^ 64 * (a.w2.toNat + 2 ^ 64 * a.w3.toNat))

theorem nval_val (a : F4) : (nval a : ℤ) = a.val := by
  simp only [nval, F4.val, iv]; push_cast; ring

theorem testBit_low {a b : ℕ} (hb : b < 2 ^ 64) {j : ℕ} (hj : j < 64) :
    (b + 2 ^ 64 * a).testBit j = b.testBit j := by
  rw [add_comm, Nat.testBit_two_pow_mul_add _ hb, if_pos hj]

theorem testBit_high {a b : ℕ} (hb : b < 2 ^ 64) (j : ℕ) :
    (b + 2 ^ 64 * a).testBit (64 + j) = a.testBit j := by
  rw [add_comm, Nat.testBit_two_pow_mul_add _ hb, if_neg (by omega), Nat.add_sub_cancel_left]

theorem keyBit_eq (key : F4) {i j : ℕ} (hi : i < 4) (hj : j < 64) :
    keyBit key i j = bitW ((nval key).testBit (64 * i + j)) := by
  have h0 := key.w0.isLt
  have h1 := key.w1.isLt
  have h2 := key.w2.isLt
  unfold keyBit nval
  rw [shift_and_one]
  congr 1
  match i, hi with
  | 0, _ => rw [show 64 * 0 + j = j by omega, testBit_low h0 hj]; rfl
  | 1, _ => rw [show 64 * 1 + j = 64 + j by omega, testBit_high h0, testBit_low h1 hj]; rfl
  | 2, _ =>
    rw [show 64 * 2 + j = 64 + (64 + j) by omega, testBit_high h0, testBit_high h1,
      testBit_low h2 hj]; rfl
  | 3, _ =>
    rw [show 64 * 3 + j = 64 + (64 + (64 + j)) by omega, testBit_high h0, testBit_high h1,
      testBit_high h2]; rfl

/-- Bits `k + m - 1, ..., k` of `N`. -/
def bitsOf (N k m : ℕ) : List Bool := (List.range m).reverse.map fun j => N.testBit (k + j)

theorem bitsOf_succ (N k m : ℕ) : bitsOf N k (m + 1) = N.testBit (k + m) :: bitsOf N k m := by
  simp [bitsOf, List.range_succ]

theorem bitsVal_bitsOf (N k m n : ℕ) :
    Mont.bitsVal n (bitsOf N k m) = n * 2 ^ m + N / 2 ^ k % 2 ^ m := by
  induction m generalizing n with
  | zero => simp [bitsOf, Mont.bitsVal, Nat.mod_one]
  | succ m ih =>
    rw [bitsOf_succ]
    show Mont.bitsVal (2 * n + _) _ = _
    have h1 : (N.testBit (k + m)).toNat = N / 2 ^ k / 2 ^ m % 2 := by
      rw [Nat.testBit_eq_decide_div_mod_eq, Nat.div_div_eq_div_mul, ← pow_add]
      rcases Nat.mod_two_eq_zero_or_one (N / 2 ^ (k + m)) with h | h <;> simp [h]
    rw [ih, Nat.mod_pow_succ, h1]
    ring

theorem bitsOf_last (N m : ℕ) : bitsOf N 0 (m + 1) = bitsOf N 1 m ++ [N.testBit 0] := by
  induction m with
  | zero => rfl
  | succ m ih =>
    rw [bitsOf_succ, ih, bitsOf_succ N 1 m, List.cons_append]
    congr 2
    omega

/-! ## The ladder -/

/-- The implementation state `s` represents the abstract ladder state `t`. -/
structure Sim (s : St) (t : Mont.LS Fp) : Prop where
  x2 : s.X2.toFp = t.x2
  z2 : s.Z2.toFp = t.z2
  x3 : s.X3.toFp = t.x3
  z3 : s.Z3.toFp = t.z3
  prev : s.prev = bitW t.prev

theorem select_eq (a b : Bool) (x y : F4) :
    select_cmov_x64 (bitW a ^^^ bitW b) x y = if xor a b then y else x := by
  obtain ⟨x0, x1, x2, x3⟩ := x
  obtain ⟨y0, y1, y2, y3⟩ := y
  cases a <;> cases b <;> rfl

theorem mul2_toFp (isa : Isa) (a b c d : F4) :
    (Full.reduce2 isa (Full.intmul2 isa (a, b) (c, d))).1.toFp = a.toFp * c.toFp ∧
    (Full.reduce2 isa (Full.intmul2 isa (a, b) (c, d))).2.toFp = b.toFp * d.toFp := by
  have h := Full.reduce2_toFp isa (Full.intmul2 isa (a, b) (c, d))
  have h' := Full.intmul2_val isa (a, b) (c, d)
  rw [h.1, h.2, F8.toFp, F8.toFp, h'.1, h'.2, Int.cast_mul, Int.cast_mul]
  exact ⟨rfl, rfl⟩

theorem sqr2_toFp (isa : Isa) (a b : F4) :
    (Full.reduce2 isa (Full.intsqr2 isa (a, b))).1.toFp = a.toFp ^ 2 ∧
    (Full.reduce2 isa (Full.intsqr2 isa (a, b))).2.toFp = b.toFp ^ 2 := by
  have h := Full.reduce2_toFp isa (Full.intsqr2 isa (a, b))
  have h' := Full.intsqr2_val isa (a, b)
  rw [h.1, h.2, F8.toFp, F8.toFp, h'.1, h'.2, Int.cast_pow, Int.cast_pow]
  exact ⟨rfl, rfl⟩

theorem step_sim (isa : Isa) (X1 : F4) {s : St} {t : Mont.LS Fp} (h : Sim s t) (b : Bool) :
    Sim (step isa X1 s (bitW b)) (Mont.step 121666 X1.toFp t b) := by
  unfold step
  rw [h.prev]
  simp only [select_eq]
  constructor
  · simp only [mul2_toFp, sqr2_toFp, Mont.step]
    split_ifs <;> simp only [Full.add_toFp, Full.sub_toFp, h.x2, h.z2, h.x3, h.z3]
  · simp only [mul2_toFp, sqr2_toFp, Mont.step, Full.add_toFp, Full.sub_toFp, Full.mula24_toFp]
    split_ifs <;> simp only [Full.add_toFp, Full.sub_toFp, h.x2, h.z2, h.x3, h.z3]
  · simp only [mul2_toFp, sqr2_toFp, Mont.step, Full.add_toFp, Full.sub_toFp, h.x2, h.z2, h.x3,
      h.z3]
  · simp only [mul2_toFp, sqr2_toFp, Mont.step, Full.add_toFp, Full.sub_toFp, Full.mul_toFp,
      h.x2, h.z2, h.x3, h.z3]
  · rfl

theorem inner_sim (isa : Isa) (X1 key : F4) {i : ℕ} (hi : i < 4) {m : ℕ} (hm : m ≤ 64) {s : St}
    {t : Mont.LS Fp} (h : Sim s t) :
    Sim (inner isa X1 key i m s)
      ((bitsOf (nval key) (64 * i) m).foldl (Mont.step 121666 X1.toFp) t) := by
  induction m generalizing s t with
  | zero => exact h
  | succ m ih =>
    rw [bitsOf_succ, List.foldl_cons, inner, keyBit_eq key hi (by omega)]
    exact ih (by omega) (step_sim isa X1 h _)

/-- The bits the main loop consumes, in order. -/
def loopBits (N : ℕ) : List Bool :=
  bitsOf N (64 * 3) 63 ++ bitsOf N (64 * 2) 64 ++ bitsOf N (64 * 1) 64 ++ bitsOf N (64 * 0) 64

theorem mainLoop_sim (isa : Isa) (X1 key : F4) {s : St} {t : Mont.LS Fp} (h : Sim s t) :
    Sim (mainLoop isa X1 key s) ((loopBits (nval key)).foldl (Mont.step 121666 X1.toFp) t) := by
  unfold mainLoop loopBits
  rw [List.foldl_append, List.foldl_append, List.foldl_append]
  exact inner_sim isa X1 key (by omega) (by omega) (inner_sim isa X1 key (by omega) (by omega)
    (inner_sim isa X1 key (by omega) (by omega) (inner_sim isa X1 key (by omega) (by omega) h)))

theorem loopBits_val (N : ℕ) : Mont.bitsVal 0 (loopBits N) = N % 2 ^ 255 := by
  unfold loopBits
  rw [Mont.bitsVal_append, Mont.bitsVal_append, Mont.bitsVal_append, bitsVal_bitsOf,
    bitsVal_bitsOf, bitsVal_bitsOf, bitsVal_bitsOf]
  omega

theorem loopBits_last {N : ℕ} (h : N % 2 = 0) : ∃ l, loopBits N = l ++ [false] := by
  refine ⟨bitsOf N (64 * 3) 63 ++ bitsOf N (64 * 2) 64 ++ bitsOf N (64 * 1) 64 ++ bitsOf N 1 63, ?_⟩
  unfold loopBits
  rw [show 64 * 0 = 0 from rfl, bitsOf_last, show N.testBit 0 = false by simp [h]]
  simp only [List.append_assoc]

theorem one_toFp : F4.toFp ⟨1#64, 0#64, 0#64, 0#64⟩ = 1 := by
  simp [F4.toFp, F4.val, show iv 0#64 = 0 from rfl, show iv 1#64 = 1 from rfl]

theorem curve_two : (2 : Fp) ≠ 0 := by decide +kernel
theorem curve_A : curveA ^ 2 ≠ 4 := by decide +kernel
theorem curve_a24 : 4 * (121666 : Fp) = curveA + 2 := by decide +kernel

theorem ofBytes_toFp {b : List Byte} (h : b.length = 32) : (F4.ofBytes b).toFp = (leNat b : Fp) := by
  rw [F4.toFp, F4.ofBytes_val h, Int.cast_natCast]

theorem ser_encode (c : F4) : Full.ser c = encode c.toFp := by
  have h : leNat (Full.modp c).toBytes = canon c.toFp := by
    have := Full.modp_val_canon c
    rw [← F4.leNat_toBytes] at this
    exact_mod_cast this
  rw [Full.ser, encode, ← h]
  have := leBytes_leNat (Full.modp c).toBytes
  rw [F4.toBytes_length] at this
  exact this.symm

theorem shared_x64_spec (isa : Isa) {u k : List Byte} (hu : u.length = 32) (hk : k.length = 32) :
    IsX25519 k u (shared_x64 isa u k) := by
  obtain ⟨hl, hv⟩ := clamp_val hk
  obtain ⟨hl', hv'⟩ := mask_val hu
  set X1 := F4.ofBytes (maskTop u) with hX1
  set key := F4.ofBytes (clamp k) with hkey
  have hx1 : X1.toFp = coord u := by rw [hX1, ofBytes_toFp hl', hv', coord]
  have hN : nval key = scalar k := by
    have := nval_val key
    rw [hkey, F4.ofBytes_val hl, hv] at this
    exact_mod_cast this
  have hs : Sim ⟨⟨1#64, 0#64, 0#64, 0#64⟩, Full.zero, X1, ⟨1#64, 0#64, 0#64, 0#64⟩, 0#64⟩
      (Mont.init X1.toFp) := ⟨one_toFp, Full.zero_toFp, rfl, one_toFp, rfl⟩
  have hm := mainLoop_sim isa X1 key hs
  obtain ⟨l, hlast⟩ := loopBits_last (N := nval key) (by rw [hN, scalar]; omega)
  have hval := loopBits_val (nval key)
  have hlt : nval key % 2 ^ 255 = scalar k := by
    rw [hN, Nat.mod_eq_of_lt]; unfold scalar; omega
  rw [hlt] at hval
  rw [hlast] at hm hval
  have hX := Mont.ladder_xmul curve_two curve_A curve_a24 X1.toFp l
  rw [hval, hx1] at hX
  refine ⟨_, hX, ?_⟩
  unfold shared_x64
  simp only
  rw [← hX1, ← hkey, ser_encode, Full.mul_toFp, Full.inv_toFp, hm.x2, hm.z2, hx1]

end Verif.X25519
