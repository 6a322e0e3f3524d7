import Verif.Ed25519.DoubleMultLemmas
import Verif.Ed25519.PointLemmasFull

/-! # Concrete points, for examples and counterexamples -/

namespace Verif.Ed25519

open Verif.Fp25519

set_option exponentiation.threshold 2000

namespace NPt

/-- The opposite point. -/
def neg (p : NPt) : NPt := ⟨sub 0 p.X, p.Y, p.Z, sub 0 p.T⟩

theorem Is.neg {p : NPt} {A : Pt} (h : p.Is A) : p.neg.Is (-A) := by
  have := Edw.Rep.neg h
  unfold Is NPt.neg
  simpa only [sub_cast, Nat.cast_zero, zero_sub] using this

/-- Two quadruples for the same point are proportional. -/
theorem Is.same {p q : NPt} {A : Pt} (hp : p.Is A) (hq : q.Is A) : p.same q = true := by
  obtain ⟨z, x, y, t⟩ := hp
  obtain ⟨z', x', y', t'⟩ := hq
  simp only [NPt.same, Bool.and_eq_true, decide_eq_true_eq]
  constructor
  · apply (ZMod.natCast_eq_natCast_iff _ _ P).1
    rw [Nat.cast_mul, Nat.cast_mul, x, x']; ring
  · apply (ZMod.natCast_eq_natCast_iff _ _ P).1
    rw [Nat.cast_mul, Nat.cast_mul, y, y']; ring

theorem Is.coords {n : NPt} {A : Pt} (h : n.Is A) {x y : ℕ} (ex : x * n.Z % P = n.X % P)
    (ey : y * n.Z % P = n.Y % P) : A.x = x ∧ A.y = y := by
  obtain ⟨z, hx, hy, -⟩ := h
  have h1 := natEq ex
  have h2 := natEq ey
  rw [Nat.cast_mul, hx] at h1
  rw [Nat.cast_mul, hy] at h2
  exact ⟨(mul_right_cancel₀ z h1).symm, (mul_right_cancel₀ z h2).symm⟩

/-- The encoding of a point computed in numbers. -/
theorem Is.encode {n : NPt} {A : Pt} (h : n.Is A) {x y : ℕ} (ex : x * n.Z % P = n.X % P)
    (ey : y * n.Z % P = n.Y % P) (hx : x < P) (hy : y < P) :
    encode A = leBytes 32 (y + 2 ^ 255 * (x % 2)) := by
  obtain ⟨h1, h2⟩ := h.coords ex ey
  rw [Ed25519.encode, h1, h2, canon_natCast hx, canon_natCast hy]

end NPt

/-- The string of y = 2 is not a point of the curve. -/
theorem not_decodes_two (A : Pt) : ¬ Decodes (leBytes 32 2) A := by
  rintro ⟨h, -⟩
  have hy : A.y = 2 := by
    rw [h, yCoord, leNat_leBytes]
    norm_num
  have on := A.on
  rw [hy, curve_a, curve_d] at on
  have k : ((4 * dN + 1 : ℕ) : Fp) * ((43446857792565604583783486763960003913525092658904367978015407342224011949000 : ℕ) : Fp) = ((3 : ℕ) : Fp) := by
    rw [← Nat.cast_mul]; exact natEq (by decide +kernel)
  have k0 : ((4 * dN + 1 : ℕ) : Fp) ≠ 0 := by
    intro h0
    rw [h0, zero_mul] at k
    have : ((3 : ℕ) : Fp) = ((0 : ℕ) : Fp) := by rw [← k]; simp
    rw [ZMod.natCast_eq_natCast_iff] at this
    revert this; decide +kernel
  refine not_square (a := 43446857792565604583783486763960003913525092658904367978015407342224011949000) (by decide +kernel) A.x (mul_left_cancel₀ k0 ?_)
  rw [k]
  push_cast
  unfold d at on
  linear_combination -on

/-- The public key of the counterexample: 85629 times the base point. -/
def badKey : Pt := 85629 • B

theorem badKey_npt : (nB.mul 17 85629).Is badKey := nB_is.mul 17 85629 (by norm_num)

theorem badKey_encode : encode badKey = leBytes 32
    0x1b68846b5a6157d6107b914bc509d17685523c652b9e2b6769ba7cdddf21a170 := by
  rw [badKey_npt.encode
    (x := 34415812258704949094320649921123975533527131841091781763378822961512316202676)
    (y := 12397112931235365078893776916205652017903943283036999125543400930959943639408)
    (by decide +kernel) (by decide +kernel) (by decide +kernel) (by decide +kernel)]
  rfl

theorem badSum_encode : encode (30 • B + 2 • -badKey) = leBytes 32
    0x12b3ce7b5e176b023a7e388a552ba580c5d32c1af278198d591a5cbdf27d3907 := by
  rw [((nB_is.mul 5 30 (by norm_num)).add (badKey_npt.neg.mul 2 2 (by norm_num))).encode
    (x := 20077058517221014578798809482329227165861778616997879948796661217525227116234)
    (y := 8459321984823993725792308525455165926318923325566273681684230753382634961159)
    (by decide +kernel) (by decide +kernel) (by decide +kernel) (by decide +kernel)]
  rfl

theorem badMult (isa : Isa) : double_point_mult_4w isa (leBytes 32 30) (leBytes 32 2)
    (point_decoding isa (encode badKey)).1 ≠ encode (30 • B + 2 • -badKey) := by
  rw [badKey_encode, badSum_encode]
  obtain ⟨a, b⟩ := isa
  cases a <;> cases b <;> decide +kernel

/-- The accumulator 15 times the base point, as the loop computes it. -/
def badQ : Elt10 V := mixadd_4w (doubling_4w neutral4w) (read_point_4w 15#8)

theorem badQ_spec : Is4w badQ (15 • B) := by
  have h := mixadd_4w_spec (doubling_4w_spec neutral4w_spec)
    (read_point_spec (k := 15#8) (by decide) (by decide) (by decide)) (by decide +kernel)
  rw [show (15#8 : Byte).toInt = ((15 : ℕ) : ℤ) from rfl, natCast_zsmul, zero_add, zero_add] at h
  exact h

/-- The precomputed form of the key, as the loop computes it. -/
def badP : Elt10 V := precompute_4w (point_decoding ⟨true, true⟩ (encode badKey)).1 0

theorem badP_spec : IsPre4w badP (-badKey) := by
  have h := precompute_spec (j := 0) (point_decoding_spec ⟨true, true⟩ (encode_length _)
    (decodes_encode badKey)).1 (by rw [badKey_encode]; decide +kernel) (by norm_num)
  rw [mul_zero, zero_add, one_smul] at h
  exact h.coord

/-- The four lanes as numbers. -/
def lanes4 (Q : Elt10 V) : NPt :=
  let f (e : Elt10 W) : ℕ := (e.ints.val % P).toNat
  ⟨f (Q.lane 0), f (Q.lane 1), f (Q.lane 3), f (Q.lane 2)⟩

theorem lanes4_cast (e : Elt10 W) : (((e.ints.val % P).toNat : ℕ) : Fp) = e.toFp := by
  rw [Elt10.toFp, ← Int.cast_natCast, Int.toNat_of_nonneg (Int.emod_nonneg _ (by decide))]
  exact (ZMod.intCast_eq_intCast_iff' _ _ P).2 (Int.emod_emod _ _)

/-- The formula returns coordinates of another point, or of no point. -/
theorem badMix : ¬ Edw.Rep (15 • B + -badKey) ((mixadd_4w badQ badP).lane 0).toFp
    ((mixadd_4w badQ badP).lane 1).toFp ((mixadd_4w badQ badP).lane 3).toFp
    ((mixadd_4w badQ badP).lane 2).toFp := by
  intro h
  have h1 : (lanes4 (mixadd_4w badQ badP)).Is (15 • B + -badKey) := by
    unfold NPt.Is lanes4
    simp only [lanes4_cast]
    exact h
  have h2 := h1.same ((nB_is.mul 4 15 (by norm_num)).add badKey_npt.neg)
  unfold badP at h2
  rw [badKey_encode] at h2
  revert h2
  decide +kernel

/-! ## The two-way doubling -/

/-- Limbs of a number. -/
def limbsOf (n : ℕ) : Elt10 W :=
  let f (o b : ℕ) : W := BitVec.ofNat 64 (n / 2 ^ o % 2 ^ b)
  ⟨f 0 26, f 26 25, f 51 26, f 77 25, f 102 26, f 128 25, f 153 26, f 179 25, f 204 26, f 230 25⟩

/-- A representation on which the doubling goes wrong. -/
def badX : ℕ := 9258235636132628902342458058189683404978190929731620905904851269521870789420
def badY : ℕ := 9152763185829373285988328102234783801872408039502838560434539254304832506240
def badZ : ℕ := 17451934738424958773904653538424707089833874186084500849549248165483893314468
def badT : ℕ := 42940542194633554931816687858549679152343073772512863664992432492650277245963
def badAx : ℕ := 15374058183579394305878412673406358202329736975243382341085277069201647597105
def badAy : ℕ := 6506215086787962753203326334310256733313070917328183342816514465664811629349

/-- The point of the representation. -/
def badPt : Pt := ⟨(badAx : Fp), (badAy : Fp), by
  have h : ((badAy ^ 2 + (P - 1) * badAx ^ 2 : ℕ) : Fp) =
      ((1 + dN * badAx ^ 2 * badAy ^ 2 : ℕ) : Fp) := natEq (by decide +kernel)
  rw [Nat.cast_add, Nat.cast_mul, Nat.cast_sub (by norm_num), ZMod.natCast_self] at h
  push_cast at h
  simp only [curve, d]
  linear_combination h⟩

theorem badPt_npt : (⟨badX, badY, badZ, badT⟩ : NPt).Is badPt := by
  refine ⟨?_, ?_, ?_, ?_⟩
  · intro h
    have : ((badZ : ℕ) : Fp) = ((0 : ℕ) : Fp) := by rw [Nat.cast_zero]; exact h
    rw [ZMod.natCast_eq_natCast_iff] at this
    revert this; decide +kernel
  · change ((badX : ℕ) : Fp) = ((badAx : ℕ) : Fp) * ((badZ : ℕ) : Fp)
    rw [← Nat.cast_mul]; exact natEq (by decide +kernel)
  · change ((badY : ℕ) : Fp) = ((badAy : ℕ) : Fp) * ((badZ : ℕ) : Fp)
    rw [← Nat.cast_mul]; exact natEq (by decide +kernel)
  · change ((badT : ℕ) : Fp) = ((badAx : ℕ) : Fp) * ((badAy : ℕ) : Fp) * ((badZ : ℕ) : Fp)
    rw [← Nat.cast_mul, ← Nat.cast_mul]; exact natEq (by decide +kernel)

def bad2way : P2way U :=
  ⟨(limbsOf badX).pack, (limbsOf badY).pack, (limbsOf badZ).pack, (limbsOf badT).pack⟩

theorem limbsOf_rp {n : ℕ} (h1 : (limbsOf n).Le tight) (h2 : (limbsOf n).ints.val = n) :
    Rp tight (limbsOf n) (n : Fp) := ⟨h1, by rw [Elt10.toFp, h2, Int.cast_natCast]⟩

theorem bad2way_spec : Is2way bad2way badPt :=
  ⟨_, _, _, _, limbsOf_rp (by decide +kernel) (by decide +kernel),
    limbsOf_rp (by decide +kernel) (by decide +kernel),
    limbsOf_rp (by decide +kernel) (by decide +kernel),
    limbsOf_rp (by decide +kernel) (by decide +kernel), badPt_npt⟩

theorem badDbl : ¬ Edw.Rep (badPt + badPt) (doubling_2way bad2way true).X.limbs.toFp
    (doubling_2way bad2way true).Y.limbs.toFp (doubling_2way bad2way true).Z.limbs.toFp
    (doubling_2way bad2way true).T.limbs.toFp := by
  intro h
  have h1 : (⟨((doubling_2way bad2way true).X.limbs.ints.val % P).toNat,
      ((doubling_2way bad2way true).Y.limbs.ints.val % P).toNat,
      ((doubling_2way bad2way true).Z.limbs.ints.val % P).toNat,
      ((doubling_2way bad2way true).T.limbs.ints.val % P).toNat⟩ : NPt).Is (badPt + badPt) := by
    unfold NPt.Is
    simp only [lanes4_cast]
    exact h
  have h2 := h1.same (badPt_npt.add badPt_npt)
  revert h2
  decide +kernel

end Verif.Ed25519
