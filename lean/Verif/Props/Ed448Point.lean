import Verif.Ed448.Witness
import Verif.Ed448.EncodeLemmas

/-!
# Properties C55, C56 and C57: the points of Ed448

`Pt` is the group of points of edwards448, `x² + y² = 1 - 39081 x² y²` over the field of
p = 2^448 - 2^224 - 1 elements (`Verif/Ed448/Curve.lean`); `B` is the base point of RFC 8032.
The code computes on the curve `-x² + y² = 1 - 39082 x² y²`, with the images of the points under
an isogeny: `Edw.RepI A X Y Z T` says that X/Z, Y/Z are the coordinates of the image of `A` and
T/Z their product.  `Is2w`, `Is4way`, `Is4w` say the same of limbs, within the bounds that the
formulas keep; `Edw.PreI` is the precomputed form of an image; `IsProj2w Q A` says that the
limbs of `Q` are projective coordinates of `A` itself.
-/

namespace Verif.Ed448

open Verif.Fp448
open Verif.X448 (Safe)
open Verif.Ed25519 (sdigit)

set_option exponentiation.threshold 2000

/-! ## C55: formulas -/

/-- C55, one point over two halves: doubling, mixed addition and addition, for all points. -/
theorem C55_doubling_2w (Q : P2w) (A : Pt) (h : Is2w Q A) : Is2w (doubling_2w Q) (A + A) :=
  doubling_2w_spec h

theorem C55_mixadd_2w (Q : P2w) (P : Pre2w) (A C : Pt) (hQ : Is2w Q A) (hP : IsPre2w P C) :
    Is2w (mixadd_2w Q P) (A + C) := mixadd_2w_spec hQ hP

theorem C55_add_2w (Q P : P2w) (A C : Pt) (hQ : Is2w Q A) (hP : Is2w P C) :
    Is2w (fulladd_2w Q P) (A + C) := fulladd_2w_spec hQ hP

/-- C55, the dual isogeny: from the image of `A` to `4A` on edwards448. -/
theorem C55_isogeny (Q : P2w) (A : Pt) (h : Is2w Q A) : IsProj2w (isogeny_2w Q) (4 • A) :=
  isogeny_2w_spec h

/-- C55, one point over four lanes: doubling. -/
theorem C55_doubling_4w (Q : Elt16 V) (A : Pt) (h : Is4w Q A) : Is4w (doubling_4w Q) (A + A) :=
  doubling_4w_spec h

/-- C55, mixed additions, partial: when no limb of B - A + 2^34 p goes below zero.  Missing: the
inputs for which one does (`C55_mixadd_4way_wrong`, `C55_mixadd_4w_wrong`). -/
theorem C55_mixadd_4way_partial (Q : P4way V) (P : Pre4way V) (j : ℕ) (hj : j < 4) (A C : Pt)
    (hQ : Is4way (Q.lane j) A) (hP : IsPre4way (P.lane j) C)
    (hok : MixOk4way (Q.lane j) (P.lane j)) : Is4way ((mixadd_4way Q P).lane j) (A + C) := by
  rw [mixadd_4way_lane Q P j hj]
  exact mixadd_4way_spec hQ hP hok

theorem C55_mixadd_4w_partial (Q P : Elt16 V) (A C : Pt) (hQ : Is4w Q A) (hP : IsPre4w P C)
    (hok : MixOk Q P) : Is4w (mixadd_4w Q P) (A + C) := mixadd_4w_spec hQ hP hok

/-- C55 fails for the mixed addition of four points at a time: the constant 2^34 p that the
subtraction B - A adds is not enough for this point, in a representation within the bounds, and
this entry of the table. -/
theorem C55_mixadd_4way_wrong : ∃ (Q : P4way V) (A : Pt), Is4way (Q.lane 0) A ∧
    IsPre4way ((query_table (LIT 0) (LIT 4) 18).lane 0) ((4 : ℕ) • signBase 18) ∧
    ¬ Edw.RepI (A + (4 : ℕ) • signBase 18)
      ((mixadd_4way Q (query_table (LIT 0) (LIT 4) 18)).lane 0).X.toFp
      ((mixadd_4way Q (query_table (LIT 0) (LIT 4) 18)).lane 0).Y.toFp
      ((mixadd_4way Q (query_table (LIT 0) (LIT 4) 18)).lane 0).Z.toFp
      ((mixadd_4way Q (query_table (LIT 0) (LIT 4) 18)).lane 0).T.toFp :=
  ⟨badQ, badA, badQ_spec 0 (by decide), badP_spec 0 (by decide), badMix⟩

/-- C55 fails likewise for the mixed addition over four lanes. -/
theorem C55_mixadd_4w_wrong : ∃ (Q P : Elt16 V) (A C : Pt), Is4w Q A ∧ IsPre4w P C ∧
    ¬ Edw.RepI (A + C) ((mixadd_4w Q P).lane 0).toFp ((mixadd_4w Q P).lane 1).toFp
      ((mixadd_4w Q P).lane 3).toFp ((mixadd_4w Q P).lane 2).toFp :=
  ⟨badQ4, badP4, _, _, badQ4_spec, badP4_spec, badMix4⟩

/-- Non-vacuity of the side condition: the first addition of a multiplication. -/
example : MixOk4way ((mulLoop (leBytes 57 0x12345) 0).lane 0)
    ((mulQuery (leBytes 57 0x12345) 1).lane 0) := by decide +kernel

/-! ## C56: multiples of the base point -/

/-- C56, every entry of the table: the words of entry `m` (1 ≤ m ≤ 8) of sub-table `i` are
y+x, y-x and 2(d-1)xy of the image of m·2^(16i)·B. -/
theorem C56_table_sign (i m : ℕ) (hi : i < 28) (h0 : 0 < m) (h8 : m ≤ 8) :
    Edw.PreI (m • (2 ^ 16) ^ i • B) (num7 (signWords i 0 m) : Fp)
      (num7 (signWords i 1 m) : Fp) (num7 (signWords i 2 m) : Fp) 2 := by
  obtain ⟨n, hn, hok⟩ := table_entry i m hi h0 h8
  simp only [entryOk, Bool.and_eq_true] at hok
  exact isPre_spec hn hok.1

/-- C56, recoding: the signed value of entry `n` of the two arrays. -/
def storedDigit (r : List Byte) (n : ℕ) : ℤ :=
  if list_signs r n = 0 then (list_digits r n).toNat else -((list_digits r n).toNat : ℤ)

theorem storedDigit_eq (r : List Byte) (n : ℕ) : storedDigit r n = sdigit r n := by
  simp only [storedDigit, sdigit, list_signs, list_digits, digitAt_eq, signAt_eq]

/-- C56, recoding.  The 112 digits are in [-8, 8) and add up to the scalar, when it is below
2^446, as the results of `div4` are. -/
theorem C56_recoding (r : List Byte) (h : 56 ≤ r.length) (hr : leNat (r.take 56) < 2 ^ 446) :
    (∀ n, -8 ≤ storedDigit r n ∧ storedDigit r n < 8) ∧
    (∑ n ∈ Finset.range 112, 16 ^ n * storedDigit r n) = (leNat (r.take 56) : ℤ) := by
  constructor
  · intro n
    rw [storedDigit_eq]
    obtain ⟨-, -, -, h1, h2⟩ := Ed25519.rec_at r n
    exact ⟨h1, by omega⟩
  · simp only [storedDigit_eq]
    exact recode_value r h hr

/-- C56, partial: multiplication of the base point by `r`, of 57 bytes with the last one zero.
The result is r·B when the division by four is exact and no limb of the mixed additions goes below
zero.  Missing: scalars on which a carry of the division is dropped (`C46_div4_wrong`) and those
on which a limb goes below zero. -/
theorem C56_multiplication_partial (u13 u14 : W) (r : List Byte)
    (hd : 4 * leNat (div4 u13 u14 r) ≡ leNat (r.take 56) [MOD order])
    (hb : NoBorrowRun (div4 u13 u14 r)) :
    IsProj2w (fixed_point_multiplication u13 u14 r) (leNat (r.take 56) • B) := by
  obtain ⟨h1, h2⟩ := C46_div4_lt u13 u14 r
  have e : leNat ((div4 u13 u14 r).take 56) = leNat (div4 u13 u14 r) := by
    rw [leNat_take, Nat.mod_eq_of_lt (h2.trans (by norm_num))]
  have h := point_multiplication_spec (div4 u13 u14 r) (by rw [h1]; norm_num)
    (by rw [e]; exact h2) hb
  rw [e] at h
  have key : ∀ n, n • B = (n % order) • B := fun n => by
    conv_lhs => rw [← Nat.mod_add_div n order, add_smul, mul_comm order, mul_smul, order_B, smul_zero,
      add_zero]
  rw [key, hd, ← key] at h
  exact h

/-- C56, partial: the additions go right unless one of four digits occurs: +4 among the digits
20 to 23 or 72 to 75, or -3 among the digits 80 to 83 or 108 to 111, counted from 0. -/
theorem C56_digits_partial (u13 u14 : W) (r : List Byte)
    (hd : 4 * leNat (div4 u13 u14 r) ≡ leNat (r.take 56) [MOD order])
    (h : ∀ l < 4, sdigit (div4 u13 u14 r) (20 + l) ≠ 4 ∧ sdigit (div4 u13 u14 r) (72 + l) ≠ 4 ∧
      sdigit (div4 u13 u14 r) (80 + l) ≠ -3 ∧ sdigit (div4 u13 u14 r) (108 + l) ≠ -3) :
    IsProj2w (fixed_point_multiplication u13 u14 r) (leNat (r.take 56) • B) := by
  refine C56_multiplication_partial u13 u14 r hd (noBorrowRun_of_digits fun n hn l hl => ?_)
  obtain ⟨h1, h2, h3, h4⟩ := h l hl
  simp only [excluded, Bool.or_eq_false_iff, decide_eq_false_iff_not]
  refine ⟨⟨⟨?_, ?_⟩, ?_⟩, ?_⟩ <;> rintro ⟨rfl, k⟩
  · exact h1 k
  · exact h2 k
  · exact h3 k
  · exact h4 k

/-- Non-vacuity: a scalar. -/
def sampleNum : ℕ :=
  0x2a1265fb7da0118a6cb7c8c73c5fb0034275f5718b080469281d5ded80fd0505bbd497f6756a8e8c5162020e0a8226aaa45fab7adb0d9d0f

def sampleScalar : List Byte := leBytes 57 sampleNum

theorem sample_mult (u13 u14 : W) : IsProj2w (fixed_point_multiplication u13 u14 sampleScalar)
    (sampleNum • B) := by
  have e : div4 u13 u14 sampleScalar = div4 0#64 0#64 sampleScalar := by
    unfold div4
    simp only
    rw [C46_reduce_junk u13 u14 0#64 0#64]
    rw [List.length_take, bytesOf_length, word64_multiplier_length]; rfl
  have h := C56_digits_partial u13 u14 sampleScalar
  rw [e] at h
  have e2 : leNat (sampleScalar.take 56) = sampleNum := by
    decide +kernel
  rw [e2] at h
  have hd : 4 * leNat (div4 0#64 0#64 sampleScalar) % order =
      sampleNum % order := by
    decide +kernel
  exact h hd (by decide +kernel)

/-! ## C57: encoding -/

/-- C57, partial: the encoding of any projective representation of a point is the RFC 8032
encoding of the point, when the serialisation of its coordinates drops no carry, which `Safe`
ensures.  Missing: the coordinates for which one is dropped, all between 2^224 and 2^282. -/
theorem C57_encoding_partial (Q : P2w) (A : Pt) (h : IsProj2w Q A) (hx : Safe (canon A.x))
    (hy : Safe (canon A.y)) : point_encoding Q = encode A := point_encoding_spec h hx hy

/-- C57, specification: a 57-byte string decodes to a point exactly when it is its encoding. -/
theorem C57_spec (b : List Byte) (A : Pt) (hl : b.length = 57) : Decodes b A ↔ b = encode A :=
  ⟨encode_of_decodes hl, fun h => h ▸ decodes_encode A⟩

/-- C57, specification: the encoding determines the point. -/
theorem C57_injective {A C : Pt} (h : encode A = encode C) : A = C := by
  have hA := decodes_encode A
  have hC := decodes_encode C
  rw [← h] at hC
  have ey : A.y = C.y := hA.2.1.trans hC.2.1.symm
  have ep : canon A.x % 2 = canon C.x % 2 := hA.2.2.1.trans hC.2.2.1.symm
  have h1 := A.on
  have h2 := C.on
  rw [ey] at h1
  have ha : curve.a = 1 := rfl
  rw [ha] at h1 h2
  have hf : (A.x - C.x) * (A.x + C.x) * (1 - curve.d * C.y ^ 2) = 0 := by
    linear_combination h1 - h2
  have hn : 1 - curve.d * C.y ^ 2 ≠ 0 := by
    intro k
    by_cases y0 : C.y = 0
    · rw [y0] at k; simp at k
    · exact d_not_square C.y⁻¹ (by
        have hd : curve.d = d := rfl
        rw [hd] at k
        field_simp
        linear_combination k)
  rcases mul_eq_zero.1 ((mul_eq_zero.1 hf).resolve_right hn) with k | k
  · exact Edw.Pt.ext (sub_eq_zero.1 k) ey
  · have e : A.x = -C.x := eq_neg_of_add_eq_zero_left k
    by_cases x0 : C.x = 0
    · exact Edw.Pt.ext (by rw [e, x0, neg_zero]) ey
    · rw [e, canon_neg_parity x0] at ep
      omega

/-- Non-vacuity: the base point, from a representation with Z = 2. -/
example : Safe (canon B.x) ∧ Safe (canon B.y) := by
  have e1 : canon B.x = Bx := canon_natCast (by decide +kernel)
  have e2 : canon B.y = By := canon_natCast (by decide +kernel)
  rw [e1, e2]; decide +kernel

end Verif.Ed448
