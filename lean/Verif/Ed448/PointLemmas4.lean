import Verif.Ed448.Borrow

/-! # The point formulas of Ed448 over four lanes: helper lemmas -/

namespace Verif.Ed448

open Verif.Fp448

set_option exponentiation.threshold 2000

/-! ## Subtraction when no limb goes below zero -/

/-- No limb of `b + (2^34 p - a)` goes below zero. -/
def NoBorrow (b a : Elt16 W) : Prop :=
  let ok (k a b : W) : Prop := a.toNat ≤ b.toNat + k.toNat
  let k : Elt16 W := R4.twoTo34P
  ok k.r0 a.r0 b.r0 ∧ ok k.r1 a.r1 b.r1 ∧ ok k.r2 a.r2 b.r2 ∧ ok k.r3 a.r3 b.r3∧
  ok k.r4 a.r4 b.r4 ∧ ok k.r5 a.r5 b.r5 ∧ ok k.r6 a.r6 b.r6 ∧ ok k.r7 a.r7 b.r7∧
  ok k.r8 a.r8 b.r8 ∧ ok k.r9 a.r9 b.r9 ∧ ok k.r10 a.r10 b.r10 ∧ ok k.r11 a.r11 b.r11∧
  ok k.r12 a.r12 b.r12 ∧ ok k.r13 a.r13 b.r13 ∧ ok k.r14 a.r14 b.r14 ∧ ok k.r15 a.r15 b.r15

instance (b a : Elt16 W) : Decidable (NoBorrow b a) := by unfold NoBorrow; infer_instance

theorem w_subK (b a : W) (k M N : ℕ) (hk : k < 2 ^ 62) (hM : M < 2 ^ 63 - 2 ^ 40)
    (hN : N < 2 ^ 63 - 2 ^ 40)
    (h : a.toNat ≤ b.toNat + (BitVec.ofNat 64 k).toNat) (hb : b.toNat ≤ M) (ha : a.toNat ≤ N) :
    (b + (BitVec.ofNat 64 k - a)).toNat ≤ 2 ^ 64 - 2 ^ 40 ∧
      ((b + (BitVec.ofNat 64 k - a)).toNat : ℤ) = b.toNat + ((k : ℤ) - a.toNat) := by
  rw [BitVec.toNat_ofNat, Nat.mod_eq_of_lt (by omega)] at h
  rw [BitVec.toNat_add, BitVec.toNat_sub, BitVec.toNat_ofNat, Nat.mod_eq_of_lt (a := k) (by omega)]
  omega

theorem w_sumK (a b : W) (k : ℕ) (hk : k < 2 ^ 62) (h : (a.toNat : ℤ) + b.toNat ≤
    ((190 * 2 ^ 56 : ℕ) : ℤ)) :
    (a + (b + (BitVec.ofNat 64 k - 0#64))).toNat ≤ 2 ^ 64 - 2 ^ 40 ∧
      ((a + (b + (BitVec.ofNat 64 k - 0#64))).toNat : ℤ) = a.toNat + (b.toNat + ((k : ℤ) - 0)) := by
  have h' : a.toNat + b.toNat ≤ 190 * 2 ^ 56 := by exact_mod_cast h
  rw [BitVec.sub_zero, BitVec.toNat_add, BitVec.toNat_add, BitVec.toNat_ofNat,
    Nat.mod_eq_of_lt (a := k) (by omega)]
  omega

theorem subK34_int (a b : Elt16 ℤ) : (subK34 a b).val = a.val + 2 ^ 34 * p448 - b.val := by
  simp only [subK34, R4.twoTo34P, Elt16.zip, Lane.ADD, Lane.SUB, Lane.LIT, Elt16.val, p448]
  push_cast; ring

theorem subK34_of {a b : Elt16 W} {x y : Fp} (hb : Rp prodL b y) (ha : Rp prodL a x)
    (h : NoBorrow b a) : Rp wide (subK34 b a) (y - x) := by
  obtain ⟨hb1, hb2⟩ := hb
  obtain ⟨ha1, ha2⟩ := ha
  obtain ⟨n0, n1, n2, n3, n4, n5, n6, n7, n8, n9, n10, n11, n12, n13, n14, n15⟩ := h
  obtain ⟨a0, a1, a2, a3, a4, a5, a6, a7, a8, a9, a10, a11, a12, a13, a14, a15⟩ := ha1
  obtain ⟨b0, b1, b2, b3, b4, b5, b6, b7, b8, b9, b10, b11, b12, b13, b14, b15⟩ := hb1
  have e0 := w_subK _ _ _ _ _ (by decide) (by decide) (by decide) n0 b0 a0
  have e1 := w_subK _ _ _ _ _ (by decide) (by decide) (by decide) n1 b1 a1
  have e2 := w_subK _ _ _ _ _ (by decide) (by decide) (by decide) n2 b2 a2
  have e3 := w_subK _ _ _ _ _ (by decide) (by decide) (by decide) n3 b3 a3
  have e4 := w_subK _ _ _ _ _ (by decide) (by decide) (by decide) n4 b4 a4
  have e5 := w_subK _ _ _ _ _ (by decide) (by decide) (by decide) n5 b5 a5
  have e6 := w_subK _ _ _ _ _ (by decide) (by decide) (by decide) n6 b6 a6
  have e7 := w_subK _ _ _ _ _ (by decide) (by decide) (by decide) n7 b7 a7
  have e8 := w_subK _ _ _ _ _ (by decide) (by decide) (by decide) n8 b8 a8
  have e9 := w_subK _ _ _ _ _ (by decide) (by decide) (by decide) n9 b9 a9
  have e10 := w_subK _ _ _ _ _ (by decide) (by decide) (by decide) n10 b10 a10
  have e11 := w_subK _ _ _ _ _ (by decide) (by decide) (by decide) n11 b11 a11
  have e12 := w_subK _ _ _ _ _ (by decide) (by decide) (by decide) n12 b12 a12
  have e13 := w_subK _ _ _ _ _ (by decide) (by decide) (by decide) n13 b13 a13
  have e14 := w_subK _ _ _ _ _ (by decide) (by decide) (by decide) n14 b14 a14
  have e15 := w_subK _ _ _ _ _ (by decide) (by decide) (by decide) n15 b15 a15
  refine ⟨⟨e0.1, e1.1, e2.1, e3.1, e4.1, e5.1, e6.1, e7.1, e8.1, e9.1, e10.1, e11.1, e12.1, e13.1, e14.1, e15.1⟩, ?_⟩
  have hi : (subK34 b a).ints = subK34 b.ints a.ints := by
    ext1
    · exact e0.2
    · exact e1.2
    · exact e2.2
    · exact e3.2
    · exact e4.2
    · exact e5.2
    · exact e6.2
    · exact e7.2
    · exact e8.2
    · exact e9.2
    · exact e10.2
    · exact e11.2
    · exact e12.2
    · exact e13.2
    · exact e14.2
    · exact e15.2
  unfold Elt16.toFp
  rw [hi, subK34_int, Int.cast_sub, Int.cast_add, p_mul_cast, add_zero, ← ha2, ← hb2]; rfl

/-! ## Four points in four lanes -/

/-- One lane of four points. -/
def P4way.lane (Q : P4way V) (j : ℕ) : P4way W :=
  ⟨Q.X.lane j, Q.Y.lane j, Q.Z.lane j, Q.T.lane j⟩

def Pre4way.lane (Q : Pre4way V) (j : ℕ) : Pre4way W :=
  ⟨Q.addYX.lane j, Q.subYX.lane j, Q.dYX.lane j⟩

theorem subK34_lane (a b : Elt16 V) (j : ℕ) (hj : j < 4) :
    (subK34 a b).lane j = subK34 (a.lane j) (b.lane j) :=
  lane_cases (p := fun j => (subK34 a b).lane j = subK34 (a.lane j) (b.lane j))
    rfl rfl rfl rfl j hj

theorem R4_addsublar_eq {α : Type} [Lane α] (a b : Elt16 α) :
    R4.addsublar a b = (R4.add a b, subK34 a b) := rfl

theorem mixadd_4way_lane (Q : P4way V) (P : Pre4way V) (j : ℕ) (hj : j < 4) :
    (mixadd_4way Q P).lane j = mixadd_4way (Q.lane j) (P.lane j) := by
  simp only [mixadd_4way, P4way.lane, Pre4way.lane, R4_compress2_eq, R4_addsublar_eq,
    R4_compress_lane _ j hj, R4_intmul_lane _ _ j hj, R4_add_lane _ _ j hj, R4_sub_lane _ _ j hj,
    subK34_lane _ _ j hj]

/-- The coordinates of one lane represent the image of the point `A`. -/
def Is4way (Q : P4way W) (A : Pt) : Prop :=
  ∃ x y z t, Rp tight Q.X x ∧ Rp tight Q.Y y ∧ Rp tight Q.Z z ∧ Rp tight Q.T t ∧
    Edw.RepI A x y z t

/-- The bounds of 2dxy in a table query. -/
def queryB : Elt16 ℕ := bnd (2 ^ 29) (2 ^ 29)

/-- One lane of the table query is the precomputed form of the image of `A`. -/
def IsPre4way (P : Pre4way W) (A : Pt) : Prop :=
  ∃ a s t, Rp tight P.addYX a ∧ Rp tight P.subYX s ∧ Rp queryB P.dYX t ∧ Edw.PreI A a s t 2

/-- The subtraction B - A + 2^34 p of the mixed addition of `Q` and `P` does not go below
zero in any limb. -/
def MixOk4way (Q : P4way W) (P : Pre4way W) : Prop :=
  NoBorrow (R4.intmul (R4.add Q.Y Q.X) P.addYX) (R4.intmul (R4.sub Q.Y Q.X) P.subYX)

instance (Q : P4way W) (P : Pre4way W) : Decidable (MixOk4way Q P) := by
  unfold MixOk4way; infer_instance

/-- No limb goes below zero when the limbs of the table entry pass the check, whatever the point
is. -/
theorem mixOk4way_of_gapOk {Q : P4way W} {P : Pre4way W} (hX : Q.X.Le tight) (hY : Q.Y.Le tight)
    (ha : P.addYX.Le preB) (hs : P.subYX.Le preB)
    (h : gapOk P.subYX.ints P.addYX.ints = true) : MixOk4way Q P := by
  obtain ⟨s1, s2⟩ := sub_ints hY hX
  obtain ⟨a1, a2⟩ := add_ints hY hX
  have hA := intmul_ints s1 hs oL4
  have hB := intmul_ints a1 ha okSumT
  rw [s2] at hA
  rw [a2] at hB
  have key := gapOk_spec (ints_nonneg Q.X) (ints_nonneg Q.Y) (ints_le hY) (ints_nonneg P.subYX)
    (ints_nonneg P.addYX) h
  rw [← hA, ← hB] at key
  obtain ⟨k0, k1, k2, k3, k4, k5, k6, k7, k8, k9, k10, k11, k12, k13, k14, k15⟩ := key
  exact ⟨Int.ofNat_le.1 k0, Int.ofNat_le.1 k1, Int.ofNat_le.1 k2, Int.ofNat_le.1 k3, Int.ofNat_le.1 k4, Int.ofNat_le.1 k5, Int.ofNat_le.1 k6, Int.ofNat_le.1 k7, Int.ofNat_le.1 k8, Int.ofNat_le.1 k9, Int.ofNat_le.1 k10, Int.ofNat_le.1 k11, Int.ofNat_le.1 k12, Int.ofNat_le.1 k13, Int.ofNat_le.1 k14, Int.ofNat_le.1 k15⟩

/-- The end of the mixed addition, from the products A, B and the sums C, D. -/
def mixTail (A B C D : Elt16 W) : P4way W :=
  let E := R4.compress (subK34 B A)
  let H := R4.compress (R4.add B A)
  let F := R4.compress (subK34 D C)
  let G := R4.compress (R4.add D C)
  ⟨R4.compress (R4.intmul E F), R4.compress (R4.intmul G H), R4.compress (R4.intmul G F),
    R4.compress (R4.intmul E H)⟩

theorem mixTail_spec {A B C D : Elt16 W} {a b c d : Fp} {Q : Pt} (hA : Rp prodL A a)
    (hB : Rp prodL B b) (hC : Rp tight C c) (hD : Rp tight D d) (hok : NoBorrow B A)
    (hR : Edw.RepI Q ((b - a) * (d - c)) ((d + c) * (b + a)) ((d + c) * (d - c))
      ((b - a) * (b + a))) : Is4way (mixTail A B C D) Q := by
  have hE := (subK34_of hB hA hok).r4compress okC4
  have hH := (hB.r4add hA (m' := wide) (by decide +kernel)).r4compress okC4
  have hF := (hD.subK34 hC (m' := wide) (by decide +kernel)).r4compress okC4
  have hG := (hD.r4add hC (m' := wide) (by decide +kernel)).r4compress okC4
  exact ⟨_, _, _, _, (hE.r4intmul hF okT4).r4compress okC4, (hG.r4intmul hH okT4).r4compress okC4,
    (hG.r4intmul hF okT4).r4compress okC4, (hE.r4intmul hH okT4).r4compress okC4, hR⟩

theorem mixadd_4way_eq (Q : P4way W) (P : Pre4way W) : mixadd_4way Q P =
    mixTail (R4.intmul (R4.sub Q.Y Q.X) P.subYX) (R4.intmul (R4.add Q.Y Q.X) P.addYX)
      (R4.compress (R4.intmul P.dYX Q.T)) (R4.compress (R4.add Q.Z Q.Z)) := by
  simp only [mixadd_4way, R4_compress2_eq, R4_addsublar_eq, mixTail]

theorem mixadd_4way_spec {Q : P4way W} {P : Pre4way W} {A B : Pt} (hQ : Is4way Q A)
    (hP : IsPre4way P B) (hok : MixOk4way Q P) : Is4way (mixadd_4way Q P) (A + B) := by
  obtain ⟨x, y, z, t, hx, hy, hz, ht, hR⟩ := hQ
  obtain ⟨a, s, t2, ha, hs, ht2, hR2⟩ := hP
  have hA := (hy.r4sub hx okSub4).r4intmul (hs.mono tight_preB) oL4
  have hB := (hy.r4add hx okAdd4).r4intmul (ha.mono tight_preB) okSumT
  have hC := (ht2.r4intmul ht (m' := wide) (by decide +kernel)).r4compress okC4
  have hD := (hz.r4add hz (m' := wide) (by decide +kernel)).r4compress okC4
  rw [mixadd_4way_eq]
  refine mixTail_spec hA hB hC hD hok ?_
  have := hR.mixadd iso hR2 (E := (y + x) * a - (y - x) * s) (F := z + z - t2 * t)
    (G := z + z + t2 * t) (H := (y + x) * a + (y - x) * s) rfl (by ring) (by ring) rfl
  rwa [mul_comm (z + z - t2 * t) (z + z + t2 * t)] at this

/-! ## One point over four lanes -/

/-- The lanes X, Y, T, Z represent the image of the point `A`. -/
def Is4w (Q : Elt16 V) (A : Pt) : Prop :=
  ∃ x y z t, Rp tight (Q.lane 0) x ∧ Rp tight (Q.lane 1) y ∧ Rp tight (Q.lane 2) t ∧
    Rp tight (Q.lane 3) z ∧ Edw.RepI A x y z t

section dbl4
variable (X : Elt16 V)
theorem permF4_0 : (X.map (PERM64 · 0xF4)).lane 0 = X.lane 0 := rfl
theorem permF4_1 : (X.map (PERM64 · 0xF4)).lane 1 = X.lane 1 := rfl
theorem permF4_2 : (X.map (PERM64 · 0xF4)).lane 2 = X.lane 3 := rfl
theorem permF4_3 : (X.map (PERM64 · 0xF4)).lane 3 = X.lane 3 := rfl
theorem perm1E_0 : (X.map (PERM64 · 0x1E)).lane 0 = X.lane 2 := rfl
theorem perm1E_1 : (X.map (PERM64 · 0x1E)).lane 1 = X.lane 3 := rfl
theorem perm1E_2 : (X.map (PERM64 · 0x1E)).lane 2 = X.lane 1 := rfl
theorem perm1E_3 : (X.map (PERM64 · 0x1E)).lane 3 = X.lane 0 := rfl
theorem perm4B_0 : (X.map (PERM64 · 0x4B)).lane 0 = X.lane 3 := rfl
theorem perm4B_1 : (X.map (PERM64 · 0x4B)).lane 1 = X.lane 2 := rfl
theorem perm4B_2 : (X.map (PERM64 · 0x4B)).lane 2 = X.lane 0 := rfl
theorem perm4B_3 : (X.map (PERM64 · 0x4B)).lane 3 = X.lane 1 := rfl

theorem w_zero_add (a b k : W) : a + (b + (0#64 + (k - 0#64))) = a + (b + (k - 0#64)) := by simp
theorem w_zero_add2 (a b k : W) : a + (0#64 + (0#64 + (k - b))) = a + (k - b) := by simp

theorem dbl4_0 : (X.zip dbl4w_FHEG CONST_2_to_34P).lane 0 =
    R4.add (X.lane 3) (R4.add (X.lane 3) (subK34 (X.lane 0) (X.lane 1))) := rfl
theorem dbl4_1 : (X.zip dbl4w_FHEG CONST_2_to_34P).lane 1 =
    R4.add (X.lane 1) (subK34 (X.lane 0) zero16) := by
  ext1 <;> exact w_zero_add _ _ _
theorem dbl4_2 : (X.zip dbl4w_FHEG CONST_2_to_34P).lane 2 =
    R4.add (X.lane 2) (subK34 (X.lane 2) zero16) := by
  ext1 <;> exact w_zero_add _ _ _
theorem dbl4_3 : (X.zip dbl4w_FHEG CONST_2_to_34P).lane 3 =
    subK34 (X.lane 1) (X.lane 0) := by
  ext1 <;> exact w_zero_add2 _ _ _
end dbl4

theorem neg_one_ne : (-1 : Fp) ≠ 0 := neg_ne_zero.2 one_ne_zero

theorem doubling_4w_spec {Q : Elt16 V} {A : Pt} (hQ : Is4w Q A) : Is4w (doubling_4w Q) (A + A) := by
  obtain ⟨x, y, z, t, hx, hy, ht, hz, hR⟩ := hQ
  have o2 : okLe (subK34 (ivs prodT) (ivs prodT)) (bnd (104 * 2 ^ 56) (104 * 2 ^ 56)) = true := by
    decide +kernel
  have o2' : okLe (subK34 (ivs prodT) (ivs zeroB)) (bnd (104 * 2 ^ 56) (104 * 2 ^ 56)) = true := by
    decide +kernel
  have o3 : okLe (R4.add (ivs prodT) (ivs (bnd (104 * 2 ^ 56) (104 * 2 ^ 56)))) (bnd (144 * 2 ^ 56) (144 * 2 ^ 56)) = true := by
    decide +kernel
  have o4 : okLe (R4.add (ivs prodT) (ivs (bnd (144 * 2 ^ 56) (144 * 2 ^ 56)))) wide = true := by
    decide +kernel
  have o5 : leB (bnd (144 * 2 ^ 56) (144 * 2 ^ 56)) wide = true := by decide +kernel
  have o6 : leB (bnd (104 * 2 ^ 56) (104 * 2 ^ 56)) wide = true := by decide +kernel
  let ABEC := R4.intmul Q (Q.map (PERM64 · 0xF4))
  have hA : Rp prodT (ABEC.lane 0) (x * x) := by
    rw [R4_intmul_lane _ _ 0 (by decide), permF4_0]; exact hx.r4intmul hx oT4
  have hB : Rp prodT (ABEC.lane 1) (y * y) := by
    rw [R4_intmul_lane _ _ 1 (by decide), permF4_1]; exact hy.r4intmul hy oT4
  have hE : Rp prodT (ABEC.lane 2) (t * z) := by
    rw [R4_intmul_lane _ _ 2 (by decide), permF4_2]; exact ht.r4intmul hz oT4
  have hC : Rp prodT (ABEC.lane 3) (z * z) := by
    rw [R4_intmul_lane _ _ 3 (by decide), permF4_3]; exact hz.r4intmul hz oT4
  let FHEG := R4.compress (ABEC.zip dbl4w_FHEG CONST_2_to_34P)
  have kF : Rp tight (FHEG.lane 0) (z * z + (z * z + (x * x - y * y))) := by
    rw [R4_compress_lane _ 0 (by decide), dbl4_0]
    exact (hC.r4add (hC.r4add (hA.subK34 hB o2) o3) o4).r4compress okC4
  have kH : Rp tight (FHEG.lane 1) (y * y + (x * x - 0)) := by
    rw [R4_compress_lane _ 1 (by decide), dbl4_1]
    exact ((hB.r4add (hA.subK34 zero16_rp o2') o3).mono o5).r4compress okC4
  have kE : Rp tight (FHEG.lane 2) (t * z + (t * z - 0)) := by
    rw [R4_compress_lane _ 2 (by decide), dbl4_2]
    exact ((hE.r4add (hE.subK34 zero16_rp o2') o3).mono o5).r4compress okC4
  have kG : Rp tight (FHEG.lane 3) (y * y - x * x) := by
    rw [R4_compress_lane _ 3 (by decide), dbl4_3]
    exact ((hB.subK34 hA o2).mono o6).r4compress okC4
  have key := (hR.dbl iso (E := 2 * (x * y)) (F := y ^ 2 - x ^ 2 - 2 * z ^ 2)
    (G := y ^ 2 - x ^ 2) (H := -(x ^ 2 + y ^ 2)) rfl rfl rfl rfl).scale neg_one_ne
  have htz := hR.tz
  have hd : doubling_4w Q = R4.compress (R4.intmul (FHEG.map (PERM64 · 0x1E)) FHEG) := rfl
  rw [hd]
  refine ⟨_, _, _, _, ?_, ?_, ?_, ?_, key⟩
  · rw [R4_compress_lane _ 0 (by decide), R4_intmul_lane _ _ 0 (by decide), perm1E_0]
    exact ((kE.r4intmul kF okT4).r4compress okC4).cast (by
      linear_combination 2 * (z * z + (z * z + (x * x - y * y))) * htz)
  · rw [R4_compress_lane _ 1 (by decide), R4_intmul_lane _ _ 1 (by decide), perm1E_1]
    exact ((kG.r4intmul kH okT4).r4compress okC4).cast (by ring)
  · rw [R4_compress_lane _ 2 (by decide), R4_intmul_lane _ _ 2 (by decide), perm1E_2]
    exact ((kH.r4intmul kE okT4).r4compress okC4).cast (by
      linear_combination 2 * (y * y + x * x) * htz)
  · rw [R4_compress_lane _ 3 (by decide), R4_intmul_lane _ _ 3 (by decide), perm1E_3]
    exact ((kF.r4intmul kG okT4).r4compress okC4).cast (by ring)

/-- The limbs of A + B + 2^34 p fit in a word. -/
theorem sumH {X Y S T : Elt16 W} {x y u v : Fp} (hX : Rp tight X x) (hY : Rp tight Y y)
    (hS : Rp preB S u) (hT : Rp preB T v) :
    Rp wide (R4.add (R4.intmul (R4.sub Y X) S) (subK34 (R4.intmul (R4.add X Y) T) zero16))
      ((y - x) * u + ((x + y) * v - 0)) := by
  obtain ⟨s1, s2⟩ := sub_ints hY.1 hX.1
  obtain ⟨a1, a2⟩ := add_ints hX.1 hY.1
  have hA := intmul_ints s1 hS.1 oL4
  have hB := intmul_ints a1 hT.1 okSumT
  rw [s2] at hA
  rw [a2] at hB
  have key := sumOk_spec (ints_nonneg X) (ints_le hX.1) (ints_nonneg Y) (ints_le hY.1)
    (ints_le_pre hS.1) (ints_le_pre hT.1)
  rw [← hA, ← hB] at key
  have rA := ((hY.r4sub hX okSub4).r4intmul hS oL4).2
  have rB := ((hX.r4add hY okAdd4).r4intmul hT okSumT).2
  generalize R4.intmul (R4.sub Y X) S = A at *
  generalize R4.intmul (R4.add X Y) T = B at *
  obtain ⟨k0, k1, k2, k3, k4, k5, k6, k7, k8, k9, k10, k11, k12, k13, k14, k15⟩ := key
  have e0 := w_sumK A.r0 B.r0 0x3ffffffc00000000 (by decide) k0
  have e1 := w_sumK A.r1 B.r1 0x3ffffffc00000000 (by decide) k1
  have e2 := w_sumK A.r2 B.r2 0x3ffffffc00000000 (by decide) k2
  have e3 := w_sumK A.r3 B.r3 0x3ffffffc00000000 (by decide) k3
  have e4 := w_sumK A.r4 B.r4 0x3ffffffc00000000 (by decide) k4
  have e5 := w_sumK A.r5 B.r5 0x3ffffffc00000000 (by decide) k5
  have e6 := w_sumK A.r6 B.r6 0x3ffffffc00000000 (by decide) k6
  have e7 := w_sumK A.r7 B.r7 0x3ffffffc00000000 (by decide) k7
  have e8 := w_sumK A.r8 B.r8 0x3ffffff800000000 (by decide) k8
  have e9 := w_sumK A.r9 B.r9 0x3ffffffc00000000 (by decide) k9
  have e10 := w_sumK A.r10 B.r10 0x3ffffffc00000000 (by decide) k10
  have e11 := w_sumK A.r11 B.r11 0x3ffffffc00000000 (by decide) k11
  have e12 := w_sumK A.r12 B.r12 0x3ffffffc00000000 (by decide) k12
  have e13 := w_sumK A.r13 B.r13 0x3ffffffc00000000 (by decide) k13
  have e14 := w_sumK A.r14 B.r14 0x3ffffffc00000000 (by decide) k14
  have e15 := w_sumK A.r15 B.r15 0x3ffffffc00000000 (by decide) k15
  refine ⟨⟨e0.1, e1.1, e2.1, e3.1, e4.1, e5.1, e6.1, e7.1, e8.1, e9.1, e10.1, e11.1, e12.1, e13.1, e14.1, e15.1⟩, ?_⟩
  have hi : (R4.add A (subK34 B zero16)).ints = R4.add A.ints (subK34 B.ints zeroZ) := by
    ext1
    · exact e0.2
    · exact e1.2
    · exact e2.2
    · exact e3.2
    · exact e4.2
    · exact e5.2
    · exact e6.2
    · exact e7.2
    · exact e8.2
    · exact e9.2
    · exact e10.2
    · exact e11.2
    · exact e12.2
    · exact e13.2
    · exact e14.2
    · exact e15.2
  have hz : zeroZ.val = 0 := by decide
  unfold Elt16.toFp at *
  rw [hi, R4_add_int, subK34_int, hz, Int.cast_add, Int.cast_sub, Int.cast_add, p_mul_cast, rA, rB]
  simp

section mix4
variable (X Y : Elt16 V)

theorem mix4_s : ((X.zip subYX_addYX CONST_2P_00_00_00).zip (BLEND32 · · 0xF0) X).lane 0 =
    R4.sub (X.lane 1) (X.lane 0) := by
  ext1 <;> exact w_mix0 _ _ _
theorem mix4_a : ((X.zip subYX_addYX CONST_2P_00_00_00).zip (BLEND32 · · 0xF0) Y).lane 1 =
    R4.add (X.lane 0) (X.lane 1) := by
  ext1 <;> exact w_mix1 _ _
theorem mix4_t : (X.zip (BLEND32 · · 0xF0) Y).lane 2 = Y.lane 2 := rfl
theorem mix4_z : (X.zip (BLEND32 · · 0xF0) Y).lane 3 = Y.lane 3 := rfl
theorem mix4_E : (X.zip mix4w_EGHF CONST_2_to_34P).lane 0 =
    subK34 (X.lane 1) (X.lane 0) := by
  ext1 <;> exact w_mix0 _ _ _
theorem mix4_G : (X.zip mix4w_EGHF CONST_2_to_34P).lane 1 =
    R4.add (X.lane 2) (subK34 (X.lane 3) zero16) := by
  ext1 <;> exact w_mix2 _ _ _
theorem mix4_H : (X.zip mix4w_EGHF CONST_2_to_34P).lane 2 =
    R4.add (X.lane 0) (subK34 (X.lane 1) zero16) := by
  ext1 <;> exact w_mix2 _ _ _
theorem mix4_F : (X.zip mix4w_EGHF CONST_2_to_34P).lane 3 =
    subK34 (X.lane 3) (X.lane 2) := by
  ext1 <;> exact w_mix0 _ _ _
end mix4

/-- The subtraction B - A + 2^34 p of the mixed addition of `Q` and `P` does not go below
zero in any limb. -/
def MixOk (Q P : Elt16 V) : Prop :=
  NoBorrow (R4.intmul (R4.add (Q.lane 0) (Q.lane 1)) (P.lane 1))
    (R4.intmul (R4.sub (Q.lane 1) (Q.lane 0)) (P.lane 0))

instance (Q P : Elt16 V) : Decidable (MixOk Q P) := by unfold MixOk; infer_instance

theorem R4_add_comm (a b : Elt16 W) : R4.add a b = R4.add b a := by
  ext1 <;> exact BitVec.add_comm _ _

/-- No limb goes below zero when the limbs of the operand pass the check, whatever the point is. -/
theorem mixOk_of_gapOk {Q P : Elt16 V} (hX : (Q.lane 0).Le tight) (hY : (Q.lane 1).Le tight)
    (hs : (P.lane 0).Le preB) (ha : (P.lane 1).Le preB)
    (h : gapOk (P.lane 0).ints (P.lane 1).ints = true) : MixOk Q P := by
  have := mixOk4way_of_gapOk (Q := ⟨Q.lane 0, Q.lane 1, Q.lane 0, Q.lane 0⟩)
    (P := ⟨P.lane 1, P.lane 0, P.lane 0⟩) hX hY ha hs h
  unfold MixOk4way at this
  unfold MixOk
  rwa [R4_add_comm]

/-- The lanes y - x, y + x, 2dxy, 2z represent the image of the point `A`. -/
def IsPre4w (P : Elt16 V) (A : Pt) : Prop :=
  ∃ a s t z, Rp preB (P.lane 0) s ∧ Rp preB (P.lane 1) a ∧ Rp preB (P.lane 2) t ∧
    Rp preB (P.lane 3) z ∧ Edw.PreI A a s t z

theorem mixadd_4w_spec {Q P : Elt16 V} {A B : Pt} (hQ : Is4w Q A) (hP : IsPre4w P B)
    (hok : MixOk Q P) : Is4w (mixadd_4w Q P) (A + B) := by
  obtain ⟨x, y, z, t, hx, hy, ht, hz, hR⟩ := hQ
  obtain ⟨a, s, td, z2, hs, ha, htd, hz2, hPre⟩ := hP
  have o2 : okLe (subK34 (ivs prodT) (ivs prodT)) wide = true := by decide +kernel
  have o2'' : okLe (subK34 (ivs prodT) (ivs zeroB)) (bnd (104 * 2 ^ 56) (104 * 2 ^ 56)) = true := by
    decide +kernel
  have o3' : okLe (R4.add (ivs prodT) (ivs (bnd (104 * 2 ^ 56) (104 * 2 ^ 56)))) wide = true := by
    decide +kernel
  let SA := (Q.zip subYX_addYX CONST_2P_00_00_00).zip (BLEND32 · · 0xF0) Q
  let ABCD := R4.intmul SA P
  have l0 : ABCD.lane 0 = R4.intmul (R4.sub (Q.lane 1) (Q.lane 0)) (P.lane 0) := by
    rw [R4_intmul_lane _ _ 0 (by decide), mix4_s]
  have l1 : ABCD.lane 1 = R4.intmul (R4.add (Q.lane 0) (Q.lane 1)) (P.lane 1) := by
    rw [R4_intmul_lane _ _ 1 (by decide), mix4_a]
  have hA : Rp prodL (ABCD.lane 0) ((y - x) * s) := by
    rw [l0]; exact (hy.r4sub hx okSub4).r4intmul hs oL4
  have hB : Rp prodL (ABCD.lane 1) ((x + y) * a) := by
    rw [l1]; exact (hx.r4add hy okAdd4).r4intmul ha okSumT
  have hC : Rp prodT (ABCD.lane 2) (t * td) := by
    rw [R4_intmul_lane _ _ 2 (by decide), mix4_t]; exact ht.r4intmul htd oP4
  have hD : Rp prodT (ABCD.lane 3) (z * z2) := by
    rw [R4_intmul_lane _ _ 3 (by decide), mix4_z]; exact hz.r4intmul hz2 oP4
  have hok' : NoBorrow (ABCD.lane 1) (ABCD.lane 0) := by rw [l0, l1]; exact hok
  let EGHF := R4.compress (ABCD.zip mix4w_EGHF CONST_2_to_34P)
  have kE : Rp tight (EGHF.lane 0) ((x + y) * a - (y - x) * s) := by
    rw [R4_compress_lane _ 0 (by decide), mix4_E]
    exact (subK34_of hB hA hok').r4compress okC4
  have kG : Rp tight (EGHF.lane 1) (t * td + (z * z2 - 0)) := by
    rw [R4_compress_lane _ 1 (by decide), mix4_G]
    exact (hC.r4add (hD.subK34 zero16_rp o2'') o3').r4compress okC4
  have kH : Rp tight (EGHF.lane 2) ((y - x) * s + ((x + y) * a - 0)) := by
    rw [R4_compress_lane _ 2 (by decide), mix4_H]
    rw [l0, l1]
    exact (sumH hx hy hs ha).r4compress okC4
  have kF : Rp tight (EGHF.lane 3) (z * z2 - t * td) := by
    rw [R4_compress_lane _ 3 (by decide), mix4_F]
    exact (hD.subK34 hC o2).r4compress okC4
  have key := hR.mixadd iso hPre rfl rfl rfl rfl
  have hd : mixadd_4w Q P = R4.compress (R4.intmul EGHF (EGHF.map (PERM64 · 0x4B))) := rfl
  rw [hd]
  refine ⟨_, _, _, _, ?_, ?_, ?_, ?_, key⟩
  · rw [R4_compress_lane _ 0 (by decide), R4_intmul_lane _ _ 0 (by decide), perm4B_0]
    exact ((kE.r4intmul kF okT4).r4compress okC4).cast (by ring)
  · rw [R4_compress_lane _ 1 (by decide), R4_intmul_lane _ _ 1 (by decide), perm4B_1]
    exact ((kG.r4intmul kH okT4).r4compress okC4).cast (by ring)
  · rw [R4_compress_lane _ 2 (by decide), R4_intmul_lane _ _ 2 (by decide), perm4B_2]
    exact ((kH.r4intmul kE okT4).r4compress okC4).cast (by ring)
  · rw [R4_compress_lane _ 3 (by decide), R4_intmul_lane _ _ 3 (by decide), perm4B_3]
    exact ((kF.r4intmul kG okT4).r4compress okC4).cast (by ring)

end Verif.Ed448
