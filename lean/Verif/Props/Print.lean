import Verif.Print
import Verif.Props.Fp448Wide
import Verif.Props.Fp25519Red

/-!
# What is printed (C89)

Specification: `Line w x`, a line with 0x and the number `x` in `w` hexadecimal digits, the most
significant first.
-/

namespace Verif.Print

set_option exponentiation.threshold 2000

/-- The characters of the sixteen digits. -/
def hexDigit (d : ℕ) : Char :=
  ['0', '1', '2', '3', '4', '5', '6', '7', '8', '9', 'a', 'b', 'c', 'd', 'e', 'f'].getD d ' '

/-- The line that shows `x` in `w` hexadecimal digits. -/
def Line (w x : ℕ) : List Char :=
  ['0', 'x'] ++ (List.range w).reverse.map (fun i => hexDigit (x / 16 ^ i % 16)) ++ ['\n']

theorem digit_eq {d : ℕ} (h : d < 16) : digit d = hexDigit d := by
  revert h; revert d; decide

theorem range_two (w : ℕ) : (List.range (w + 2)).reverse
    = (List.range w).reverse.map (· + 2) ++ [1, 0] := by
  rw [show w + 2 = (w + 1) + 1 from rfl, List.range_succ_eq_map, List.range_succ_eq_map]
  simp [Function.comp_def]

theorem loop_shift (x : Byte) (b : List Byte) : ∀ k i : ℕ, i + k ≤ b.length →
    loop (x :: b) (b.length + 1) k i = loop b b.length k i
  | 0, _, _ => rfl
  | k + 1, i, h => by
    rw [loop, loop, loop_shift x b k (i + 1) (by omega)]
    rw [show b.length + 1 - 1 - i = (b.length - 1 - i) + 1 by omega, List.getD_cons_succ]

theorem loop_snoc (b : List Byte) (n : ℕ) : ∀ k i : ℕ,
    loop b n (k + 1) i = loop b n k i ++ hex02 (b.getD (n - 1 - (i + k)) 0)
  | 0, i => by simp [loop]
  | k + 1, i => by
    rw [loop, loop_snoc b n k (i + 1), loop, List.append_assoc,
      show i + 1 + k = i + (k + 1) by omega]

theorem loop_line (b : List Byte) : loop b b.length b.length 0
    = (List.range (2 * b.length)).reverse.map (fun i => hexDigit (leNat b / 16 ^ i % 16)) := by
  induction b with
  | nil => rfl
  | cons x b ih =>
    rw [List.length_cons, loop_snoc, loop_shift _ _ _ _ (by omega), ih,
      show 2 * (b.length + 1) = 2 * b.length + 2 by ring, range_two, List.map_append, List.map_map]
    have hx : x.toNat < 256 := x.isLt
    congr 1
    · apply List.map_congr_left
      intro i _
      have : leNat (x :: b) / 16 ^ (i + 2) = leNat b / 16 ^ i := by
        rw [leNat, pow_add, mul_comm (16 ^ i), ← Nat.div_div_eq_div_mul]
        congr 1
        omega
      simp only [Function.comp_apply, this]
    · rw [Nat.zero_add, Nat.add_sub_cancel, Nat.sub_self, List.getD_cons_zero, hex02,
        digit_eq (by omega), digit_eq (by omega)]
      simp only [List.map_cons, List.map_nil, leNat, pow_one, pow_zero, Nat.div_one]
      have h1 : (x.toNat + 256 * leNat b) / 16 % 16 = x.toNat / 16 := by omega
      have h2 : (x.toNat + 256 * leNat b) % 16 = x.toNat % 16 := by omega
      rw [h1, h2]

/-- C89: a buffer of any length is printed as the little-endian number that it holds, two digits to
a byte. -/
theorem C89_bytes (b : List Byte) : print_hex_bytes b b.length = Line (2 * b.length) (leNat b) := by
  rw [print_hex_bytes, loop_line]; rfl

theorem line_of {b : List Byte} {n : ℕ} (h : b.length = n) :
    print_hex_bytes b n = Line (2 * n) (leNat b) := by
  subst h; exact C89_bytes b

theorem hexDigit_inj {d e : ℕ} (hd : d < 16) (he : e < 16) (h : hexDigit d = hexDigit e) : d = e := by
  have : ∀ d < 16, ∀ e < 16, hexDigit d = hexDigit e → d = e := by decide
  exact this d hd e he h

theorem eq_of_digits : ∀ (w x y : ℕ), x < 16 ^ w → y < 16 ^ w →
    (∀ i < w, x / 16 ^ i % 16 = y / 16 ^ i % 16) → x = y
  | 0, x, y, hx, hy, _ => by simp at hx hy; omega
  | w + 1, x, y, hx, hy, h => by
    have h0 := h 0 (by omega)
    rw [pow_zero, Nat.div_one, Nat.div_one] at h0
    have := eq_of_digits w (x / 16) (y / 16) (by rw [pow_succ] at hx; omega)
      (by rw [pow_succ] at hy; omega) (fun i hi => by
        have := h (i + 1) (by omega)
        rwa [pow_succ, mul_comm, ← Nat.div_div_eq_div_mul, ← Nat.div_div_eq_div_mul] at this)
    omega

/-- Different numbers give different lines. -/
theorem line_inj {w x y : ℕ} (hx : x < 16 ^ w) (hy : y < 16 ^ w) : Line w x = Line w y ↔ x = y := by
  refine ⟨fun h => ?_, fun h => by rw [h]⟩
  unfold Line at h
  have h := List.append_cancel_left (List.append_cancel_right h)
  rw [List.map_inj_left] at h
  apply eq_of_digits w x y hx hy
  intro i hi
  exact hexDigit_inj (Nat.mod_lt _ (by norm_num)) (Nat.mod_lt _ (by norm_num))
    (h i (by simpa using hi))

/-- C89: printing a buffer loses nothing. -/
theorem C89_lossless (b c : List Byte) (h : b.length = c.length) :
    print_hex_bytes b b.length = print_hex_bytes c c.length ↔ b = c := by
  have e : ∀ n : ℕ, (16 : ℕ) ^ (2 * n) = 256 ^ n := fun n => by rw [pow_mul]; norm_num
  rw [C89_bytes, C89_bytes, h, line_inj]
  · exact ⟨leNat_inj h, fun h => by rw [h]⟩
  · rw [e, ← h]; exact leNat_lt b
  · rw [e]; exact leNat_lt c

/-- C89: keys and signatures are printed whole, as the little-endian numbers that they hold. -/
theorem C89_keys (b : List Byte) :
    (b.length = 32 → printX25519_Key b = Line 64 (leNat b) ∧
      printEd25519_Key b = Line 64 (leNat b)) ∧
    (b.length = 56 → printX448_Key b = Line 112 (leNat b)) ∧
    (b.length = 57 → printEd448_Key b = Line 114 (leNat b)) ∧
    (b.length = 64 → printEd25519_Signature b = Line 128 (leNat b)) ∧
    (b.length = 114 → printEd448_Signature b = Line 228 (leNat b)) :=
  ⟨fun h => ⟨line_of h, line_of h⟩, line_of, line_of, line_of, line_of⟩

/-! ## Elements -/

theorem line_canon {b : List Byte} {n x : ℕ} (h : b = leBytes n x) (hx : x < 256 ^ n) :
    print_hex_bytes b n = Line (2 * n) x := by
  rw [line_of (by rw [h]; exact leBytes_length _ _), h, leNat_leBytes, Nat.mod_eq_of_lt hx]

theorem canon25519_lt (x : Fp25519.Fp) : Fp25519.canon x < 256 ^ 32 :=
  lt_of_lt_of_le (ZMod.val_lt x) (by norm_num)

/-- What the encoder of Fp25519 is right for (`C13_ser_iff`). -/
def Fits (e : Fp25519.Elt10 W) : Prop :=
  e.ints.val % 2 ^ 128 + 38 * (e.ints.val / 2 ^ 256) < 2 ^ 128

theorem one_25519 {a : Fp25519.Elt5 U} (h : Fits a.limbs) :
    red25519_1w a = Line 64 (Fp25519.canon a.toFp) :=
  line_canon ((Fp25519.C13_ser_iff a).2 h) (canon25519_lt _)

theorem one_448 {a : Fp448.Elt8 U} (h : Fp448.Plain a.limbs) :
    red448_1w a = Line 112 (Fp448.canon a.toFp) :=
  line_canon (Fp448.ser_plain h) (Fp448.canon_lt256 _)

/-- C89: elements of Fp25519 in vector form are printed as their canonical representatives, one
line for every lane.  Missing: the elements that the encoder gets wrong (`C13_ser_iff`). -/
theorem C89_vector_25519_partial :
    (∀ a : Fp25519.Elt5 U, Fits a.limbs → red25519_1w a = Line 64 (Fp25519.canon a.toFp)) ∧
    (∀ a : Fp25519.Elt5 V, Fits a.lo.limbs → Fits a.hi.limbs →
      red25519_2w a = Line 64 (Fp25519.canon a.lo.toFp) ++ Line 64 (Fp25519.canon a.hi.toFp)) ∧
    (∀ a : Fp25519.Elt10 V, (∀ i < 4, Fits (a.lane i)) →
      red25519_4w a = Line 64 (Fp25519.canon (a.lane 0).toFp) ++
        Line 64 (Fp25519.canon (a.lane 1).toFp) ++ Line 64 (Fp25519.canon (a.lane 2).toFp) ++
        Line 64 (Fp25519.canon (a.lane 3).toFp)) := by
  refine ⟨fun a h => one_25519 h, fun a h h' => ?_, fun a h => ?_⟩
  · have e : red25519_2w a = red25519_1w a.lo ++ red25519_1w a.hi := rfl
    rw [e, one_25519 h, one_25519 h']
  · have h0 : Fits (Fp25519.R4.unzip a).1.limbs := h 0 (by norm_num)
    have h1 : Fits (Fp25519.R4.unzip a).2.1.limbs := h 1 (by norm_num)
    have h2 : Fits (Fp25519.R4.unzip a).2.2.1.limbs := h 2 (by norm_num)
    have h3 : Fits (Fp25519.R4.unzip a).2.2.2.limbs := h 3 (by norm_num)
    have e : red25519_4w a = red25519_1w (Fp25519.R4.unzip a).1 ++ red25519_1w (Fp25519.R4.unzip a).2.1 ++
      red25519_1w (Fp25519.R4.unzip a).2.2.1 ++ red25519_1w (Fp25519.R4.unzip a).2.2.2 := rfl
    rw [e, one_25519 h0, one_25519 h1, one_25519 h2, one_25519 h3]
    rfl

/-- C89: the same for Fp448. -/
theorem C89_vector_448_partial :
    (∀ a : Fp448.Elt8 U, Fp448.Plain a.limbs → red448_1w a = Line 112 (Fp448.canon a.toFp)) ∧
    (∀ a : Fp448.Elt8 V, Fp448.Plain a.lo.limbs → Fp448.Plain a.hi.limbs →
      red448_2w a = Line 112 (Fp448.canon a.lo.toFp) ++ Line 112 (Fp448.canon a.hi.toFp)) ∧
    (∀ a : Fp448.Elt16 V, (∀ i < 4, Fp448.Plain (a.lane i)) →
      red448_4w a = Line 112 (Fp448.canon (a.lane 0).toFp) ++
        Line 112 (Fp448.canon (a.lane 1).toFp) ++ Line 112 (Fp448.canon (a.lane 2).toFp) ++
        Line 112 (Fp448.canon (a.lane 3).toFp)) := by
  refine ⟨fun a h => one_448 h, fun a h h' => ?_, fun a h => ?_⟩
  · have e : red448_2w a = red448_1w a.lo ++ red448_1w a.hi := rfl
    rw [e, one_448 h, one_448 h']
  · have h0 : Fp448.Plain (Fp448.R4.unzip a).1.limbs := h 0 (by norm_num)
    have h1 : Fp448.Plain (Fp448.R4.unzip a).2.1.limbs := h 1 (by norm_num)
    have h2 : Fp448.Plain (Fp448.R4.unzip a).2.2.1.limbs := h 2 (by norm_num)
    have h3 : Fp448.Plain (Fp448.R4.unzip a).2.2.2.limbs := h 3 (by norm_num)
    have e : red448_4w a = red448_1w (Fp448.R4.unzip a).1 ++ red448_1w (Fp448.R4.unzip a).2.1 ++
      red448_1w (Fp448.R4.unzip a).2.2.1 ++ red448_1w (Fp448.R4.unzip a).2.2.2 := rfl
    rw [e, one_448 h0, one_448 h1, one_448 h2, one_448 h3]
    rfl

/-- C89: an element of Fp25519 is printed as its canonical representative exactly if it is not one
of those that the encoder gets wrong. -/
theorem C89_red_iff (a : Fp25519.Elt5 U) :
    red25519_1w a = Line 64 (Fp25519.canon a.toFp) ↔ Fits a.limbs := by
  refine ⟨fun h => (Fp25519.C13_ser_iff a).1 ?_, one_25519⟩
  have hl : (Fp25519.R1.ser a).length = 32 := by simp [Fp25519.R1.ser, Fp25519.Full.ser, Fp25519.F4.toBytes_length]
  have e : red25519_1w a = Line 64 (leNat (Fp25519.R1.ser a)) := line_of hl
  have hb := leNat_lt (Fp25519.R1.ser a)
  rw [hl] at hb
  rw [e, line_inj (by norm_num at hb ⊢; exact hb)
    (by have := canon25519_lt a.toFp; norm_num at this ⊢; exact this)] at h
  rw [← h, ← hl, leBytes_leNat]

example : Fits Fp25519.R1.prime.limbs ∧ Fp448.Plain Fp448.R1.prime.limbs := by
  refine ⟨by unfold Fits; decide +kernel, Or.inl (by decide +kernel)⟩

/-- C89: elements of full radix are printed as the number in their words, which need not be
reduced. -/
theorem C89_full (a : Fp25519.F4) (b : Fp448.F7) :
    full25519 a = Line 64 a.val.toNat ∧ full448 b = Line 112 b.val.toNat := by
  constructor
  · rw [full25519, line_of (Fp25519.F4.toBytes_length a), ← Fp25519.F4.leNat_toBytes]; rfl
  · rw [full448, line_of (Fp448.F7.toBytes_length b), ← Fp448.F7.leNat_toBytes]; rfl

/-- C89 fails for full radix: the prime, as `prime` gives it, is the element 0 and is not printed
as 0. -/
theorem C89_full_wrong :
    (Fp25519.Full.prime.toFp = Fp25519.Full.zero.toFp ∧
      full25519 Fp25519.Full.prime ≠ full25519 Fp25519.Full.zero) ∧
    (Fp448.Full.prime.toFp = Fp448.Full.zero.toFp ∧
      full448 Fp448.Full.prime ≠ full448 Fp448.Full.zero) := by
  refine ⟨⟨?_, by decide +kernel⟩, ?_, by decide +kernel⟩
  · exact (ZMod.intCast_eq_intCast_iff _ _ _).2 (by decide +kernel)
  · exact (ZMod.intCast_eq_intCast_iff _ _ _).2 (by decide +kernel)

/-- The text of a line. -/
example : String.ofList (printX25519_Key (leBytes 32 0x9a)) =
    "0x000000000000000000000000000000000000000000000000000000000000009a\n" := by
  decide +kernel

end Verif.Print
