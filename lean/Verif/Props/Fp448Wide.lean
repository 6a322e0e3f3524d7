import Verif.Fp448.RedWide
import Verif.Fp448.RedSer

/-!
# Property C84: byte strings and comparison of two and four elements of Fp448 at once

A two-way element holds two elements of the field, lane 0 and lane 1, and a four-way element four.
Its byte string is the 56-byte encodings of its lanes, one after the other.
-/

namespace Verif.Fp448

set_option exponentiation.threshold 2000

/-- Lane `i` of a two-way element, as sixteen limbs. -/
def Elt8.half (e : Elt8 V) (i : ℕ) : Elt16 W := if i = 0 then e.lo.limbs else e.hi.limbs

/-- Bytes 56 i, …, 56 i + 55 of a string. -/
def enc (b : List Byte) (i : ℕ) : List Byte := (b.drop (56 * i)).take 56

/-- The elements that the encoder is right for, as far as `C44_ser_safe` says: limbs that are not
negative as signed words, and a value below 2^448, or the bounds of the results of
multiplications and a residue of at least 2^282. -/
def Plain (e : Elt16 W) : Prop :=
  (e.Le signedB ∧ e.ints.val < 2 ^ 448) ∨ (e.Le tight ∧ 2 ^ 282 ≤ canon e.toFp)

theorem ser_plain {a : Elt8 U} (h : Plain a.limbs) : R1.ser a = leBytes 56 (canon a.toFp) := by
  rcases h with ⟨h1, h2⟩ | ⟨h1, h2⟩
  · exact ser_of_lt h1 h2
  · exact ser_of_tight h1 h2

theorem ser_len (a : Elt8 U) : (R1.ser a).length = 56 := by
  simp [R1.ser, Full.ser, F7.toBytes_length]

theorem canon_lt256 (x : Fp) : canon x < 256 ^ 56 := lt_of_lt_of_le (ZMod.val_lt x) (by norm_num)

theorem enc_inj {x y : Fp} : leBytes 56 (canon x) = leBytes 56 (canon y) ↔ x = y := by
  refine ⟨fun h => ?_, fun h => by rw [h]⟩
  have := congrArg leNat h
  rw [leNat_leBytes, leNat_leBytes, Nat.mod_eq_of_lt (canon_lt256 x),
    Nat.mod_eq_of_lt (canon_lt256 y)] at this
  exact ZMod.val_injective P this

theorem cmp_plain {a b : Elt8 U} (ha : Plain a.limbs) (hb : Plain b.limbs) :
    (R1.cmp a b).signExtend 64 = 0#64 ↔ a.toFp = b.toFp := by
  have h0 : (R1.cmp a b).signExtend 64 = 0#64 ↔ R1.cmp a b = 0#32 := by
    constructor
    · intro h
      generalize R1.cmp a b = x at *
      have := congrArg BitVec.toInt h
      rw [BitVec.toInt_signExtend_of_le (by omega)] at this
      exact BitVec.eq_of_toInt_eq this
    · intro h; rw [h]; rfl
  rw [h0, R1.cmp, cmp_bytes_eq_zero (by rw [ser_len, ser_len]), ser_plain ha, ser_plain hb, enc_inj]

/-! ## Decoding -/

/-- C84: decoding 112 bytes gives in lane `i` the element decoded from the `i`-th 56 bytes, every
one of the 2^448 strings being allowed. -/
theorem C84_unser_two (b : List Byte) (h : b.length = 112) : ∀ i < 2,
    ((R2.unser b).half i).Le canonB ∧ ((R2.unser b).half i).toFp = (leNat (enc b i) : Fp) := by
  have g : ∀ i < 2, (enc b i).length = 56 := by
    intro i hi; rw [enc, List.length_take, List.length_drop]; omega
  intro i hi
  interval_cases i
  · exact ⟨(unser_spec (enc b 0) (g 0 hi)).1, unser_toFp (enc b 0) (g 0 hi)⟩
  · exact ⟨(unser_spec (enc b 1) (g 1 hi)).1, unser_toFp (enc b 1) (g 1 hi)⟩

/-- C84: decoding 224 bytes gives in lane `i` the element decoded from the `i`-th 56 bytes. -/
theorem C84_unser_four (b : List Byte) (h : b.length = 224) : ∀ i < 4,
    ((R4.unser b).lane i).Le canonB ∧ ((R4.unser b).lane i).toFp = (leNat (enc b i) : Fp) := by
  have g : ∀ i < 4, (enc b i).length = 56 := by
    intro i hi; rw [enc, List.length_take, List.length_drop]; omega
  intro i hi
  interval_cases i
  · exact ⟨(unser_spec (enc b 0) (g 0 hi)).1, unser_toFp (enc b 0) (g 0 hi)⟩
  · exact ⟨(unser_spec (enc b 1) (g 1 hi)).1, unser_toFp (enc b 1) (g 1 hi)⟩
  · exact ⟨(unser_spec (enc b 2) (g 2 hi)).1, unser_toFp (enc b 2) (g 2 hi)⟩
  · exact ⟨(unser_spec (enc b 3) (g 3 hi)).1, unser_toFp (enc b 3) (g 3 hi)⟩

/-! ## Encoding -/

/-- C84: the encoding of a two-way element has 112 bytes, and its `i`-th 56 bytes are the canonical
encoding of lane `i`, for the lanes that one-way encoding is right for.  The other lane does not
matter.  Missing: the lanes that lose a carry (`C84_wrong`). -/
theorem C84_ser_two_partial (a : Elt8 V) : (R2.ser a).length = 112 ∧ ∀ i < 2,
    Plain (a.half i) → enc (R2.ser a) i = leBytes 56 (canon (a.half i).toFp) := by
  have e : R2.ser a = R1.ser a.lo ++ R1.ser a.hi := rfl
  refine ⟨by rw [e, List.length_append, ser_len, ser_len], fun i hi hp => ?_⟩
  rw [e, enc]
  interval_cases i
  · rw [Nat.mul_zero, List.drop_zero, List.take_left' (ser_len _)]
    exact ser_plain hp
  · rw [Nat.mul_one, List.drop_left' (ser_len _), List.take_of_length_le (ser_len _).le]
    exact ser_plain hp

/-- C84: the same for the four lanes of a four-way element. -/
theorem C84_ser_four_partial (a : Elt16 V) : (R4.ser a).length = 224 ∧ ∀ i < 4,
    Plain (a.lane i) → enc (R4.ser a) i = leBytes 56 (canon (a.lane i).toFp) := by
  have e : R4.ser a = R1.ser (R4.unzip a).1 ++ R1.ser (R4.unzip a).2.1 ++
    R1.ser (R4.unzip a).2.2.1 ++ R1.ser (R4.unzip a).2.2.2 := rfl
  have l1 := ser_len (R4.unzip a).1
  have l2 := ser_len (R4.unzip a).2.1
  have l3 := ser_len (R4.unzip a).2.2.1
  have l4 := ser_len (R4.unzip a).2.2.2
  refine ⟨by rw [e, List.length_append, List.length_append, List.length_append, l1, l2, l3, l4],
    fun i hi hp => ?_⟩
  rw [e, enc]
  interval_cases i
  · rw [Nat.mul_zero, List.drop_zero, List.append_assoc, List.append_assoc, List.take_left' l1]
    exact ser_plain (a := (R4.unzip a).1) hp
  · rw [List.append_assoc, List.append_assoc, List.drop_left' l1, List.take_left' l2]
    exact ser_plain (a := (R4.unzip a).2.1) hp
  · rw [List.append_assoc, List.drop_left' (by rw [List.length_append, l1, l2]), List.take_left' l3]
    exact ser_plain (a := (R4.unzip a).2.2.1) hp
  · rw [List.drop_left' (by rw [List.length_append, List.length_append, l1, l2, l3]),
      List.take_of_length_le l4.le]
    exact ser_plain (a := (R4.unzip a).2.2.2) hp

theorem plain_canonB {e : Elt16 W} (h : e.Le canonB) : Plain e := by
  refine Or.inl ⟨h.mono (by decide), ?_⟩
  obtain ⟨h0, h1, h2, h3, h4, h5, h6, h7, h8, h9, h10, h11, h12, h13, h14, h15⟩ := h
  simp only [canonB, bnd] at h0 h1 h2 h3 h4 h5 h6 h7 h8 h9 h10 h11 h12 h13 h14 h15
  simp only [Elt16.val, Elt16.ints, Elt16.map]
  have c : ∀ {n : ℕ}, n ≤ 2 ^ 28 - 1 → (n : ℤ) ≤ 2 ^ 28 - 1 := fun h => by omega
  have k0 := c h0; have k1 := c h1; have k2 := c h2; have k3 := c h3; have k4 := c h4
  have k5 := c h5; have k6 := c h6; have k7 := c h7; have k8 := c h8; have k9 := c h9
  have k10 := c h10; have k11 := c h11; have k12 := c h12; have k13 := c h13; have k14 := c h14
  have k15 := c h15
  linarith

/-- C84: decoding and encoding again makes every one of the two or four strings canonical. -/
theorem C84_roundtrip (b c : List Byte) (hb : b.length = 112) (hc : c.length = 224) :
    (∀ i < 2, enc (R2.ser (R2.unser b)) i = leBytes 56 (leNat (enc b i) % P)) ∧
    (∀ i < 4, enc (R4.ser (R4.unser c)) i = leBytes 56 (leNat (enc c i) % P)) := by
  constructor
  · intro i hi
    obtain ⟨h1, h2⟩ := C84_unser_two b hb i hi
    rw [(C84_ser_two_partial _).2 i hi (plain_canonB h1), h2, canon, ZMod.val_natCast]
  · intro i hi
    obtain ⟨h1, h2⟩ := C84_unser_four c hc i hi
    rw [(C84_ser_four_partial _).2 i hi (plain_canonB h1), h2, canon, ZMod.val_natCast]

/-! ## Comparison -/

/-- C84: comparing two-way elements gives a vector with the result for lane `i` in its 64-bit lane
`2 i`, zero exactly when the residues of the lanes are the same, and zeros in the other lanes.
Missing: the lanes that lose a carry when encoded (`C84_wrong`). -/
theorem C84_cmp_two_partial (a b : Elt8 V) :
    (R2.cmp a b).get 1 = 0#64 ∧ (R2.cmp a b).get 3 = 0#64 ∧ ∀ i < 2,
      Plain (a.half i) → Plain (b.half i) →
        ((R2.cmp a b).get (2 * i) = 0#64 ↔ (a.half i).toFp = (b.half i).toFp) := by
  refine ⟨rfl, rfl, fun i hi ha hb => ?_⟩
  interval_cases i
  · exact cmp_plain (a := a.lo) (b := b.lo) ha hb
  · exact cmp_plain (a := a.hi) (b := b.hi) ha hb

/-- C84: comparing four-way elements gives the result for lane `i` in 64-bit lane `i`. -/
theorem C84_cmp_four_partial (a b : Elt16 V) : ∀ i < 4, Plain (a.lane i) → Plain (b.lane i) →
    ((R4.cmp a b).get i = 0#64 ↔ (a.lane i).toFp = (b.lane i).toFp) := by
  intro i hi ha hb
  interval_cases i
  · exact cmp_plain (a := (R4.unzip a).1) (b := (R4.unzip b).1) ha hb
  · exact cmp_plain (a := (R4.unzip a).2.1) (b := (R4.unzip b).2.1) ha hb
  · exact cmp_plain (a := (R4.unzip a).2.2.1) (b := (R4.unzip b).2.2.1) ha hb
  · exact cmp_plain (a := (R4.unzip a).2.2.2) (b := (R4.unzip b).2.2.2) ha hb

/-- C84 fails in lanes that lose a carry: with a = ff…ff and b = 1 in every lane, the products
(a + a) b, results of multiplications in range, have the residue 2^225 in every lane; they are
encoded as 2^225 - 2^64, and compare as different from the element 2^225. -/
theorem C84_wrong :
    let ones : List Byte := List.replicate 224 0xff#8
    let one : List Byte := leBytes 56 1
    let z : List Byte := leBytes 56 (2 ^ 225)
    let a2 := R2.mul (R2.add (R2.unser ones) (R2.unser ones)) (R2.unser (one ++ one))
    let a4 := R4.mul (R4.add (R4.unser ones) (R4.unser ones)) (R4.unser (one ++ one ++ one ++ one))
    (∀ i < 2, (a2.half i).Le tight ∧ (a2.half i).toFp = 2 ^ 225 ∧
      enc (R2.ser a2) i ≠ leBytes 56 (canon (a2.half i).toFp) ∧
      (R2.cmp a2 (R2.unser (z ++ z))).get (2 * i) ≠ 0#64) ∧
    (∀ i < 4, (a4.lane i).Le tight ∧ (a4.lane i).toFp = 2 ^ 225 ∧
      enc (R4.ser a4) i ≠ leBytes 56 (canon (a4.lane i).toFp) ∧
      (R4.cmp a4 (R4.unser (z ++ z ++ z ++ z))).get i ≠ 0#64) := by
  intro ones one z a2 a4
  have key : ∀ x : Elt16 W, x.ints.val = 2 ^ 225 + p448 → x.toFp = 2 ^ 225 ∧
      canon x.toFp = 2 ^ 225 := by
    intro x hx
    have h1 : x.toFp = ((2 ^ 225 : ℕ) : Fp) := by
      rw [Elt16.toFp, hx, cast_eq (y := 2 ^ 225) ⟨1, by ring⟩]; norm_cast
    refine ⟨by rw [h1]; norm_cast, ?_⟩
    rw [h1, canon, ZMod.val_natCast]
    decide +kernel
  constructor
  · have hv : ∀ i < 2, (a2.half i).Le tight ∧ (a2.half i).ints.val = 2 ^ 225 + p448 ∧
        enc (R2.ser a2) i ≠ leBytes 56 (2 ^ 225) ∧
        (R2.cmp a2 (R2.unser (z ++ z))).get (2 * i) ≠ 0#64 := by decide +kernel
    intro i hi
    obtain ⟨h1, h2, h3, h4⟩ := hv i hi
    obtain ⟨h5, h6⟩ := key _ h2
    exact ⟨h1, h5, by rw [h6]; exact h3, h4⟩
  · have hv : ∀ i < 4, (a4.lane i).Le tight ∧ (a4.lane i).ints.val = 2 ^ 225 + p448 ∧
        enc (R4.ser a4) i ≠ leBytes 56 (2 ^ 225) ∧
        (R4.cmp a4 (R4.unser (z ++ z ++ z ++ z))).get i ≠ 0#64 := by decide +kernel
    intro i hi
    obtain ⟨h1, h2, h3, h4⟩ := hv i hi
    obtain ⟨h5, h6⟩ := key _ h2
    exact ⟨h1, h5, by rw [h6]; exact h3, h4⟩

/-- Two lanes that are not the same; the second string is p + 5 and is made canonical. -/
example : R2.ser (R2.unser (leBytes 56 3 ++ leBytes 56 (P + 5))) = leBytes 56 3 ++ leBytes 56 5 ∧
    R2.cmp (R2.unser (leBytes 56 3 ++ leBytes 56 (P + 5)))
      (R2.unser (leBytes 56 4 ++ leBytes 56 5)) = SET64 0 0 0 7 := by decide +kernel

end Verif.Fp448
