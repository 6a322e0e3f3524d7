import Verif.Ed25519.MultLemmas
import Verif.Ed25519.Witness

/-!
# Properties of the edwards25519 group operations (C24, C25, C26, C27, C28)

The specification: the curve and its base point `B` are in `Verif/Ed25519/Curve.lean`, the group
law in `Verif/Curve/Edwards.lean`, extended coordinates (`Edw.Rep`) and precomputed points
(`Edw.Pre`) in `Verif/Curve/Extended.lean`, byte strings in `Verif/Ed25519/Spec.lean`.
`Rp m e x` says that the limbs of `e` are at most those of `m` and that `e` stands for `x` modulo p.
-/

namespace Verif.Ed25519

open Verif.Fp25519

set_option exponentiation.threshold 2000

/-! ## C24: recodings -/

/-- The signed value of entry `n` of the arrays that the radix-16 recoding writes. -/
def storedDigit (r : List Byte) (n : ℕ) : ℤ :=
  if list_signs r n = 0 then (list_digits r n).toNat else -((list_digits r n).toNat : ℤ)

theorem stored_sum (r : List Byte) : (∑ n ∈ Finset.range 64, (16 : ℤ) ^ nibIdx n * storedDigit r n) =
    ∑ k ∈ Finset.range 64, (16 : ℤ) ^ k * sdigit r k := by
  have h : (Finset.range 64).image nibIdx = Finset.range 64 := by decide +kernel
  have hinj : Set.InjOn nibIdx (Finset.range 64) := by
    have : ∀ a ∈ Finset.range 64, ∀ b ∈ Finset.range 64, nibIdx a = nibIdx b → a = b := by
      decide +kernel
    exact fun a ha b hb => this a ha b hb
  conv_rhs => rw [← h]
  rw [Finset.sum_image hinj]
  rfl

/-- C24, fixed-base recoding.  The 64 stored digits are in [-8, 8) and, with the weights 16^k of
the nibbles k they belong to, add up to the scalar, for every scalar up to 0x77...7 (which covers
every reduced scalar and every scalar of key generation); above that the last carry is lost and
they add up to the scalar less 2^256. -/
theorem C24_radix16 (r : List Byte) (h : r.length = 32) :
    (∀ n, list_signs r n = 0 ∨ list_signs r n = -1) ∧
    (∀ n, -8 ≤ storedDigit r n ∧ storedDigit r n < 8) ∧
    (leNat r ≤ 0x7777777777777777777777777777777777777777777777777777777777777777 →
      ∑ n ∈ Finset.range 64, (16 : ℤ) ^ nibIdx n * storedDigit r n = leNat r) ∧
    (0x7777777777777777777777777777777777777777777777777777777777777777 < leNat r →
      ∑ n ∈ Finset.range 64, (16 : ℤ) ^ nibIdx n * storedDigit r n = leNat r - 2 ^ 256) := by
  have hl : recLimit = 0x7777777777777777777777777777777777777777777777777777777777777777 := by
    decide +kernel
  have hv := recode_value r h
  rw [hl] at hv
  refine ⟨fun n => ?_, fun n => ?_, fun hn => ?_, fun hn => ?_⟩
  · exact (rec_at r (nibIdx n)).1.imp (·.2) (·.2)
  · obtain ⟨-, -, -, h1, h2⟩ := rec_at r (nibIdx n)
    exact ⟨h1, Int.lt_of_le_sub_one h2⟩
  · rw [stored_sum, hv, if_pos hn, sub_zero]
  · rw [stored_sum, hv, if_neg (not_le.2 hn)]

/-- C24, the positions are the 64 nibbles, each once. -/
theorem C24_radix16_positions : (Finset.range 64).image nibIdx = Finset.range 64 := by
  decide +kernel

/-- Non-vacuity: a scalar with both signs. -/
example : storedDigit (leBytes 32 0x8f) 0 = -1 ∧ storedDigit (leBytes 32 0x8f) 2 = -7 ∧
    storedDigit (leBytes 32 0x8f) 4 = 1 := by decide +kernel

/-- C24, verification.  The digits of the width-w form are zero or odd, below 2^(w-1) in absolute
value, with w-1 zeros after each nonzero one; there are at most 257 of them (the code reserves
260), and their sum with weights 2^i is the scalar unless it is odd and above 2^256 - 2^(w-1),
when it is the scalar less 2^256.  The library uses w = 5 and w = 7. -/
theorem C24_wnaf (w : ℕ) (h2 : 2 ≤ w) (h8 : w ≤ 8) (b : List Byte) (h : b.length = 32) :
    (∀ d ∈ wnaf_256bits w b, d.toInt = 0 ∨
      d.toInt % 2 = 1 ∧ -(2 ^ (w - 1)) < d.toInt ∧ d.toInt < 2 ^ (w - 1)) ∧
    Spaced w (wnaf_256bits w b) ∧ (wnaf_256bits w b).length ≤ 257 ∧
    (∑ i ∈ Finset.range (wnaf_256bits w b).length,
      2 ^ i * ((wnaf_256bits w b).getD i 0#8).toInt) =
      (leNat b : ℤ) - if leNat b % 2 = 1 ∧ 2 ^ 256 < leNat b + 2 ^ (w - 1) then 2 ^ 256 else 0 := by
  refine ⟨wnaf_digits h2 h8 b, wnaf_spaced h2 h8 b, wnaf_length h2 h8 h, ?_⟩
  have key : ∀ (l : List Byte) (k : ℕ), k ≤ l.length →
      ∑ i ∈ Finset.range k, 2 ^ i * (l.getD i 0#8).toInt = digitSum (l.take k) := by
    intro l k
    induction k with
    | zero => intro _; simp [digitSum]
    | succ k ih =>
      intro hk
      rw [Finset.sum_range_succ, ih (by omega), digitSum_take]
  rw [key _ _ le_rfl, List.take_length, wnaf_sum h2 h8 h]
  rfl

/-- Non-vacuity: a scalar with a negative digit, and the two widths. -/
example : wnaf_256bits 7 (leBytes 32 127) = [-1#8, 0#8, 0#8, 0#8, 0#8, 0#8, 0#8, 1#8] ∧
    wnaf_256bits 5 (leBytes 32 19) = [-13#8, 0#8, 0#8, 0#8, 0#8, 1#8] := by decide +kernel

/-- The weighted sum is not the scalar for every 256-bit string: the digits of 2^256 - 1 are
those of -1. -/
theorem C24_wnaf_wraps : wnaf_256bits 7 (leBytes 32 (2 ^ 256 - 1)) = [-1#8] := by decide +kernel

/-! ## C25: multiples of the base point -/

/-- C25.  For every scalar up to 0x77...7 the result represents n·B. -/
theorem C25_point_multiplication (r : List Byte) (h : r.length = 32)
    (hr : leNat r ≤ 0x7777777777777777777777777777777777777777777777777777777777777777) :
    Is2w (point_multiplication r) (leNat r • B) := by
  have := point_multiplication_spec r h
  have hl : recLimit = 0x7777777777777777777777777777777777777777777777777777777777777777 := by
    decide +kernel
  rwa [hl, if_pos hr, sub_zero, natCast_zsmul] at this

/-- Above it, the result represents (n - 2^256)·B. -/
theorem C25_point_multiplication_large (r : List Byte) (h : r.length = 32)
    (hr : 0x7777777777777777777777777777777777777777777777777777777777777777 < leNat r) :
    Is2w (point_multiplication r) (((leNat r : ℤ) - 2 ^ 256) • B) := by
  have := point_multiplication_spec r h
  have hl : recLimit = 0x7777777777777777777777777777777777777777777777777777777777777777 := by
    decide +kernel
  rwa [hl, if_neg (not_le.2 hr)] at this

/-- The bytes that multiplication and encoding produce. -/
theorem C25_encoded (isa : Isa) (r : List Byte) (h : r.length = 32)
    (hr : leNat r ≤ 0x7777777777777777777777777777777777777777777777777777777777777777) :
    point_encoding isa (point_multiplication r) = encode (leNat r • B) :=
  point_encoding_spec isa (C25_point_multiplication r h hr)

/-- Which differ from n·B: multiplication by 2^256 - 1 gives the encoding of -B. -/
theorem C25_large_wrong (isa : Isa) :
    point_encoding isa (point_multiplication (leBytes 32 (2 ^ 256 - 1))) ≠
      encode ((2 ^ 256 - 1) • B) := by
  have hl : leNat (leBytes 32 (2 ^ 256 - 1)) = 2 ^ 256 - 1 := by
    rw [leNat_leBytes, Nat.mod_eq_of_lt (by norm_num)]
  have h := C25_point_multiplication_large (leBytes 32 (2 ^ 256 - 1)) (by simp)
    (by rw [hl]; norm_num)
  rw [point_encoding_spec isa h, hl]
  intro he
  have he := encode_inj he
  rw [show (((2 ^ 256 - 1 : ℕ) : ℤ) - 2 ^ 256) = -1 by norm_num, neg_smul, one_smul] at he
  have h2 := nB_is.neg
  rw [he] at h2
  have := h2.same (nB_is.mul 256 (2 ^ 256 - 1) (by norm_num))
  revert this
  decide +kernel

/-- Non-vacuity: multiplication by the group order gives the neutral point. -/
example : Is2w (point_multiplication (leBytes 32 ell)) 0 := by
  have := C25_point_multiplication (leBytes 32 ell) (by simp)
    (by rw [leNat_leBytes, Nat.mod_eq_of_lt (by norm_num)]; norm_num)
  rwa [leNat_leBytes, Nat.mod_eq_of_lt (by norm_num), ell_B] at this

/-- C25, every entry of the table of fixed-base multiplication: the words of entry `m`
(1 ≤ m ≤ 8) of half `b` of sub-table `i` are y+x, y-x and 2dxy of m·256^i·2^(128b)·B. -/
theorem C25_table_sign (i b m : ℕ) (hi : i < 16) (hb : b < 2) (h0 : 0 < m) (h8 : m ≤ 8) :
    Edw.Pre (m • 256 ^ i • (2 ^ 128) ^ b • B) (F4.num (signF i b 0 m) : Fp)
      (F4.num (signF i b 1 m) : Fp) (F4.num (signF i b 2 m) : Fp) 2 := by
  obtain ⟨n, hn, hok⟩ := table_entry i b m hi hb h0 h8
  simp only [entryOk, Bool.and_eq_true] at hok
  exact isPre_spec hn hok.2

/-- C25, every entry of the table of verification: entry `k` is (2k+1)·B. -/
theorem C25_table_verify (k : ℕ) (hk : k < 32) :
    Edw.Pre ((2 * k + 1) • B) (F4.num (verfF k 0) : Fp) (F4.num (verfF k 1) : Fp)
      (F4.num (verfF k 2) : Fp) 2 := verf_entry hk

/-! ## C26: formulas -/

/-- C26, 64-bit code, doubling: for every representation of every point. -/
theorem C26_doubling_full (isa : Isa) (Q : P1full) (A : Pt)
    (h : Edw.Rep A Q.X.toFp Q.Y.toFp Q.Z.toFp Q.T.toFp) :
    Edw.Rep (A + A) (doubling_1w_full isa Q).X.toFp (doubling_1w_full isa Q).Y.toFp
      (doubling_1w_full isa Q).Z.toFp (doubling_1w_full isa Q).T.toFp :=
  doubling_1w_full_spec isa h

/-- C26, 64-bit code, addition: for every pair of points, equal or not. -/
theorem C26_add_full (isa : Isa) (Q R : P1full) (A C : Pt)
    (hQ : Edw.Rep A Q.X.toFp Q.Y.toFp Q.Z.toFp Q.T.toFp)
    (hR : Edw.Rep C R.X.toFp R.Y.toFp R.Z.toFp R.T.toFp) :
    Edw.Rep (A + C) (fulladd_1w_full isa Q R).X.toFp (fulladd_1w_full isa Q R).Y.toFp
      (fulladd_1w_full isa Q R).Z.toFp (fulladd_1w_full isa Q R).T.toFp :=
  fulladd_1w_full_spec isa hQ hR

/-- C26, four points at a time: the mixed addition, in each lane. -/
theorem C26_mixadd_4way (Q : P4way V) (P : Pre4way V) (j : ℕ) (hj : j < 4) (A C : Pt)
    (hQ : Is4way coordB (Q.lane j) A) (hP : IsPre4way (P.lane j) C) :
    Is4way tight ((mixadd_4way Q P).lane j) (A + C) := by
  rw [mixadd_4way_lane Q P j hj]
  exact mixadd_4way_spec hQ hP

/-- C26, two points at a time: the addition, in each half. -/
theorem C26_add_2way (Q P : P2way V) (A C A' C' : Pt) (h1 : Is2way Q.lo A) (h2 : Is2way P.lo C)
    (h3 : Is2way Q.hi A') (h4 : Is2way P.hi C') :
    Is2way (fulladd_2way Q P).lo (A + C) ∧ Is2way (fulladd_2way Q P).hi (A' + C') := by
  rw [fulladd_2way_lo, fulladd_2way_hi]
  exact ⟨fulladd_2way_spec h1 h2, fulladd_2way_spec h3 h4⟩

/-- C26, one point over two halves. -/
theorem C26_doubling_2w (Q : P2w) (A : Pt) (h : Is2w Q A) : Is2w (doubling_2w Q) (A + A) :=
  doubling_2w_spec h

theorem C26_mixadd_2w (Q : P2w) (P : Pre2w) (A C : Pt) (hQ : Is2w Q A) (hP : IsPre2w P C) :
    Is2w (mixadd_2w Q P) (A + C) := mixadd_2w_spec hQ hP

theorem C26_add_2w (Q P : P2w) (A C : Pt) (hQ : Is2w Q A) (hP : Is2w P C) :
    Is2w (fulladd_2w Q P) (A + C) := fulladd_2w_spec hQ hP

/-- C26, one point over four lanes: the doubling. -/
theorem C26_doubling_4w (Q : Elt10 V) (A : Pt) (h : Is4w Q A) : Is4w (doubling_4w Q) (A + A) :=
  doubling_4w_spec h

/-- C26 fails for the mixed addition over four lanes, the one that signature verification uses.
The subtraction B - A adds 2^34 p (the constant is named for 2^35 p) to keep its limbs from going
below zero, which is not enough: here are an accumulator for 15·B and a precomputed public key,
both as the verification computes them, whose "sum" represents another point or none. -/
theorem C26_mixadd_4w_wrong : ∃ (Q P : Elt10 V) (A C : Pt), Is4w Q A ∧ IsPre4w P C ∧
    ¬ Edw.Rep (A + C) ((mixadd_4w Q P).lane 0).toFp ((mixadd_4w Q P).lane 1).toFp
      ((mixadd_4w Q P).lane 3).toFp ((mixadd_4w Q P).lane 2).toFp :=
  ⟨badQ, badP, _, _, badQ_spec, badP_spec, badMix⟩

/-- The part that holds: when no limb of B - A + 2^34 p goes below zero.  Missing: the inputs
for which one does. -/
theorem C26_mixadd_4w_partial (Q P : Elt10 V) (A C : Pt) (hQ : Is4w Q A) (hP : IsPre4w P C)
    (hok : MixOk Q P) : Is4w (mixadd_4w Q P) (A + C) := mixadd_4w_spec hQ hP hok

/-- C26 fails for the doubling two points at a time, used by the hash to the curve: 2p - X² - Y²
goes below zero in the lowest limb for this representation of a point. -/
theorem C26_doubling_2way_wrong : ∃ (Q : P2way U) (A : Pt), Is2way Q A ∧
    ¬ Edw.Rep (A + A) (doubling_2way Q true).X.limbs.toFp (doubling_2way Q true).Y.limbs.toFp
      (doubling_2way Q true).Z.limbs.toFp (doubling_2way Q true).T.limbs.toFp :=
  ⟨bad2way, badPt, bad2way_spec, badDbl⟩

/-- The part that holds: when no limb of 2p - X² - Y² goes below zero.  T is computed when
asked for.  Missing: the inputs for which one does. -/
theorem C26_doubling_2way_partial (Q : P2way V) (A : Pt) (c : Bool) (h : Is2wayXYZ Q.lo A)
    (hok : Dbl2Ok Q.lo) : Is2wayXYZ (doubling_2way Q c).lo (A + A) ∧
      (c = true → Is2way (doubling_2way Q c).lo (A + A)) := by
  obtain ⟨x, y, z, t, hR, h1⟩ := doubling_2way_parts h hok
  rw [doubling_2way_lo]
  obtain ⟨hx, hy, hz, ht⟩ := h1 c
  exact ⟨⟨x, y, z, t, hx, hy, hz, hR⟩, fun hc => by subst hc; exact ⟨x, y, z, t, hx, hy, hz, ht, hR⟩⟩

theorem C26_doubling_2way_hi_partial (Q : P2way V) (A : Pt) (c : Bool) (h : Is2wayXYZ Q.hi A)
    (hok : Dbl2Ok Q.hi) : Is2wayXYZ (doubling_2way Q c).hi (A + A) ∧
      (c = true → Is2way (doubling_2way Q c).hi (A + A)) := by
  obtain ⟨x, y, z, t, hR, h1⟩ := doubling_2way_parts h hok
  rw [doubling_2way_hi]
  obtain ⟨hx, hy, hz, ht⟩ := h1 c
  exact ⟨⟨x, y, z, t, hx, hy, hz, hR⟩, fun hc => by subst hc; exact ⟨x, y, z, t, hx, hy, hz, ht, hR⟩⟩

/-- Non-vacuity: the base point in the layouts, and the side conditions met. -/
example : Is4w (point_decoding ⟨true, true⟩ (encode B)).1 (-B) ∧
    Is2w (point_decoding ⟨true, true⟩ (encode B)).2.1 (-B) :=
  point_decoding_spec _ (encode_length _) (decodes_encode B)

example : MixOk (doubling_4w neutral4w) (read_point_4w 15#8) := by decide +kernel

example : IsPre4w (read_point_4w (-3#8)) ((-3 : ℤ) • B) :=
  read_point_spec (by decide) (by decide) (by decide)

example : Is1full ⟨⟨0#64, 0#64, 0#64, 0#64⟩, oneF, oneF, ⟨0#64, 0#64, 0#64, 0#64⟩⟩ 0 := by
  have h0 : (⟨0#64, 0#64, 0#64, 0#64⟩ : F4).toFp = 0 := by simp [F4.toFp, F4.val, iv]
  have h1 : oneF.toFp = 1 := by simp [F4.toFp, F4.val, iv, oneF]
  unfold Is1full
  rw [h0, h1]
  exact Edw.Rep.zero one_ne_zero

example : Dbl2Ok ⟨(limbsOf Bx).pack, (limbsOf By).pack, (limbsOf 1).pack, (limbsOf 0).pack⟩ := by
  decide +kernel

/-! ## C27: encoding and decoding -/

/-- C27.  The encoding of any representation of a point is the RFC 8032 encoding of the point. -/
theorem C27_encoding (isa : Isa) (Q : P2w) (A : Pt) (h : Is2w Q A) :
    point_encoding isa Q = encode A := point_encoding_spec isa h

/-- C27.  Distinct points have distinct encodings, and equal points equal ones, whatever their
representations. -/
theorem C27_encoding_injective (isa isa' : Isa) (Q Q' : P2w) (A A' : Pt) (h : Is2w Q A)
    (h' : Is2w Q' A') : point_encoding isa Q = point_encoding isa' Q' ↔ A = A' := by
  rw [point_encoding_spec isa h, point_encoding_spec isa' h']
  exact ⟨encode_inj, fun e => by rw [e]⟩

/-- C27.  Decoding the encoding of a point gives its opposite, in both layouts (verification
needs the opposite). -/
theorem C27_decode_encode (isa isa' : Isa) (Q : P2w) (A : Pt) (h : Is2w Q A) :
    Is4w (point_decoding isa' (point_encoding isa Q)).1 (-A) ∧
      Is2w (point_decoding isa' (point_encoding isa Q)).2.1 (-A) := by
  rw [point_encoding_spec isa h]
  exact point_decoding_spec isa' (encode_length _) (decodes_encode A)

/-- C27.  Decoding any string that names a point gives the opposite of that point, and every
string names at most one. -/
theorem C27_decoding (isa : Isa) (b : List Byte) (hb : b.length = 32) (A : Pt) (h : Decodes b A) :
    Is4w (point_decoding isa b).1 (-A) ∧ Is2w (point_decoding isa b).2.1 (-A) ∧
      ∀ A', Decodes b A' → A' = A :=
  ⟨(point_decoding_spec isa hb h).1, (point_decoding_spec isa hb h).2,
    fun _ h' => h'.unique h⟩

/-- C27.  Encoding the point that a canonical string names gives the string back. -/
theorem C27_encode_decode (isa : Isa) (b : List Byte) (hb : b.length = 32) (A : Pt)
    (h : Decodes b A) (hy : leNat b % 2 ^ 255 < 2 ^ 255 - 19) (hx : A.x = 0 → signBit b = 0)
    (Q : P2w) (hQ : Is2w Q A) : point_encoding isa Q = b := by
  rw [point_encoding_spec isa hQ, ← encode_of_decodes hb h hy hx]

/-- Non-vacuity: the encoding of the base point. -/
example : encode B = leBytes 32
    0x6666666666666666666666666666666666666666666666666666666666666658 ∧
    Decodes (encode B) B := by
  refine ⟨?_, decodes_encode B⟩
  rw [nB_is.encode (x := Bx) (y := By) (by decide +kernel) (by decide +kernel) (by decide +kernel)
    (by decide +kernel)]
  decide +kernel

/-! ## C28: strings that are not points -/

/-- C28: decoding reports success for every string. -/
theorem C28_decoding_never_fails (isa : Isa) (b : List Byte) : (point_decoding isa b).2.2 = 0#32 :=
  rfl

/-- Some strings name no point: for instance y = 2. -/
theorem C28_not_a_point : ∃ b : List Byte, b.length = 32 ∧ ∀ A : Pt, ¬ Decodes b A :=
  ⟨leBytes 32 2, by simp, not_decodes_two⟩

/-! ## Double multiplication -/

/-- The double multiplication of verification returns the encoding of s·B + h·A when no
addition of the computation goes below zero in a limb (`DmOk`, which can be evaluated), for the
numbers that the digits of `s` and `h` stand for. -/
theorem C30_double_mult_partial (isa : Isa) (s h : List Byte) (hs : s.length = 32)
    (hh : h.length = 32) (P : Elt10 V) (A : Pt) (hP : Is4w P A) (hok : DmOk s h P) :
    double_point_mult_4w isa s h P = encode (wnafNum 7 s • B + wnafNum 5 h • A) :=
  double_point_mult_spec isa hs hh hP hok

/-- It does not always return it: for the public key A = 85629·B, which decodes to -A, the
multiplication by s = 30 and h = 2 returns something else than the encoding of 30·B - 2·A. -/
theorem C30_double_mult_wrong (isa : Isa) : ∃ (s h : List Byte) (P : Elt10 V) (A : Pt),
    s.length = 32 ∧ h.length = 32 ∧ Is4w P A ∧ wnafNum 7 s = 30 ∧ wnafNum 5 h = 2 ∧
    double_point_mult_4w isa s h P ≠ encode ((30 : ℤ) • B + (2 : ℤ) • A) := by
  refine ⟨leBytes 32 30, leBytes 32 2, (point_decoding isa (encode badKey)).1, -badKey, by simp,
    by simp, (point_decoding_spec isa (encode_length _) (decodes_encode badKey)).1,
    by decide +kernel, by decide +kernel, ?_⟩
  have := badMult isa
  rwa [← natCast_zsmul, ← natCast_zsmul (-badKey)] at this

/-- Non-vacuity of the partial theorem. -/
example : DmOk (leBytes 32 1000) (leBytes 32 77)
    (point_decoding ⟨true, true⟩ (leBytes 32
      0x6666666666666666666666666666666666666666666666666666666666666658)).1 ∧
    wnafNum 7 (leBytes 32 1000) = 1000 ∧ wnafNum 5 (leBytes 32 77) = 77 := by
  decide +kernel

end Verif.Ed25519
