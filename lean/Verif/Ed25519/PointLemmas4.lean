import Verif.Ed25519.PointLemmas

/-! # The point formulas over four lanes: helper lemmas -/

namespace Verif.Ed25519

open Verif.Fp25519

/-- The lanes X, Y, T, Z represent the point `A`. -/
def Is4w (Q : Elt10 V) (A : Pt) : Prop :=
  ∃ x y z t, Rp tight (Q.lane 0) x ∧ Rp tight (Q.lane 1) y ∧ Rp tight (Q.lane 2) t ∧
    Rp tight (Q.lane 3) z ∧ Edw.Rep A x y z t

theorem oT4 : okLe (R4.intmul (ivs tight) (ivs tight)) wide = true := by decide +kernel

section dbl4
variable (X : Elt10 V)
theorem permF4_0 : (X.map (PERM64 · 0xF4)).lane 0 = X.lane 0 := rfl
theorem permF4_1 : (X.map (PERM64 · 0xF4)).lane 1 = X.lane 1 := rfl
theorem permF4_2 : (X.map (PERM64 · 0xF4)).lane 2 = X.lane 3 := rfl
theorem permF4_3 : (X.map (PERM64 · 0xF4)).lane 3 = X.lane 3 := rfl
theorem perm1E_0 : (X.map (PERM64 · 0x1E)).lane 0 = X.lane 2 := rfl
theorem perm1E_1 : (X.map (PERM64 · 0x1E)).lane 1 = X.lane 3 := rfl
theorem perm1E_2 : (X.map (PERM64 · 0x1E)).lane 2 = X.lane 1 := rfl
theorem perm1E_3 : (X.map (PERM64 · 0x1E)).lane 3 = X.lane 0 := rfl
theorem perm4B_0 : (X.map (PERM64 · 0x4B)).lane 0 = X.lane 3 := rfl
theorem perm4B_1 : (X.map (PERM64 · 0x4B)).lane 1 = X.lane 2 := rfl
theorem perm4B_2 : (X.map (PERM64 · 0x4B)).lane 2 = X.lane 0 := rfl
theorem perm4B_3 : (X.map (PERM64 · 0x4B)).lane 3 = X.lane 1 := rfl

theorem w_zero_add (a b k : W) : a + (b + (0#64 + (k - 0#64))) = a + (b + (k - 0#64)) := by simp
theorem w_zero_add2 (a b k : W) : a + (0#64 + (0#64 + (k - b))) = a + (k - b) := by simp

theorem dbl4_0 : (X.zip dbl4w_FHEG CONST_2_to_35P_4w).lane 0 =
    R4.add (X.lane 3) (R4.add (X.lane 3) (subK34 (X.lane 0) (X.lane 1))) := rfl
theorem dbl4_1 : (X.zip dbl4w_FHEG CONST_2_to_35P_4w).lane 1 =
    R4.add (X.lane 1) (subK34 (X.lane 0) zero10) := by
  ext1 <;> exact w_zero_add _ _ _
theorem dbl4_2 : (X.zip dbl4w_FHEG CONST_2_to_35P_4w).lane 2 =
    R4.add (X.lane 2) (subK34 (X.lane 2) zero10) := by
  ext1 <;> exact w_zero_add _ _ _
theorem dbl4_3 : (X.zip dbl4w_FHEG CONST_2_to_35P_4w).lane 3 =
    subK34 (X.lane 1) (X.lane 0) := by
  ext1 <;> exact w_zero_add2 _ _ _
end dbl4

theorem neg_one_ne : (-1 : Fp) ≠ 0 := neg_ne_zero.2 one_ne_zero

theorem doubling_4w_spec {Q : Elt10 V} {A : Pt} (hQ : Is4w Q A) : Is4w (doubling_4w Q) (A + A) := by
  obtain ⟨x, y, z, t, hx, hy, ht, hz, hR⟩ := hQ
  have o2 : okLe (subK34 (ivs prodT) (ivs prodT)) (bnd (2 ^ 61) (2 ^ 61)) = true := by
    decide +kernel
  have o2' : okLe (subK34 (ivs prodT) (ivs zeroB)) (bnd (2 ^ 61) (2 ^ 61)) = true := by
    decide +kernel
  have o3 : okLe (R4.add (ivs prodT) (ivs (bnd (2 ^ 61) (2 ^ 61)))) (bnd (2 ^ 62) (2 ^ 62)) = true := by
    decide +kernel
  have o4 : okLe (R4.add (ivs prodT) (ivs (bnd (2 ^ 62) (2 ^ 62)))) wide = true := by
    decide +kernel
  have o5 : leB (bnd (2 ^ 62) (2 ^ 62)) wide = true := by decide +kernel
  have o6 : leB (bnd (2 ^ 61) (2 ^ 61)) wide = true := by decide +kernel
  let ABEC := R4.intmul Q (Q.map (PERM64 · 0xF4))
  have hA : Rp prodT (ABEC.lane 0) (x * x) := by
    rw [R4_intmul_lane _ _ 0 (by decide), permF4_0]; exact hx.r4intmul hx okT4
  have hB : Rp prodT (ABEC.lane 1) (y * y) := by
    rw [R4_intmul_lane _ _ 1 (by decide), permF4_1]; exact hy.r4intmul hy okT4
  have hE : Rp prodT (ABEC.lane 2) (t * z) := by
    rw [R4_intmul_lane _ _ 2 (by decide), permF4_2]; exact ht.r4intmul hz okT4
  have hC : Rp prodT (ABEC.lane 3) (z * z) := by
    rw [R4_intmul_lane _ _ 3 (by decide), permF4_3]; exact hz.r4intmul hz okT4
  let FHEG := R4.compress (ABEC.zip dbl4w_FHEG CONST_2_to_35P_4w)
  have kF : Rp tight (FHEG.lane 0) (z * z + (z * z + (x * x - y * y))) := by
    rw [R4_compress_lane _ 0 (by decide), dbl4_0]
    exact (hC.r4add (hC.r4add (hA.subK34 hB o2) o3) o4).r4compress
  have kH : Rp tight (FHEG.lane 1) (y * y + (x * x - 0)) := by
    rw [R4_compress_lane _ 1 (by decide), dbl4_1]
    exact ((hB.r4add (hA.subK34 zero10_rp o2') o3).mono o5).r4compress
  have kE : Rp tight (FHEG.lane 2) (t * z + (t * z - 0)) := by
    rw [R4_compress_lane _ 2 (by decide), dbl4_2]
    exact ((hE.r4add (hE.subK34 zero10_rp o2') o3).mono o5).r4compress
  have kG : Rp tight (FHEG.lane 3) (y * y - x * x) := by
    rw [R4_compress_lane _ 3 (by decide), dbl4_3]
    exact ((hB.subK34 hA o2).mono o6).r4compress
  have key := (hR.dbl curve_a (E := 2 * (x * y)) (F := y ^ 2 - x ^ 2 - 2 * z ^ 2)
    (G := y ^ 2 - x ^ 2) (H := -(x ^ 2 + y ^ 2)) rfl rfl rfl rfl).scale neg_one_ne
  have htz := hR.tz
  have hd : doubling_4w Q = R4.compress (R4.intmul (FHEG.map (PERM64 · 0x1E)) FHEG) := rfl
  rw [hd]
  refine ⟨_, _, _, _, ?_, ?_, ?_, ?_, key⟩
  · rw [R4_compress_lane _ 0 (by decide), R4_intmul_lane _ _ 0 (by decide), perm1E_0]
    exact ((kE.r4intmul kF oT4).r4compress).cast (by
      linear_combination 2 * (z * z + (z * z + (x * x - y * y))) * htz)
  · rw [R4_compress_lane _ 1 (by decide), R4_intmul_lane _ _ 1 (by decide), perm1E_1]
    exact ((kG.r4intmul kH oT4).r4compress).cast (by ring)
  · rw [R4_compress_lane _ 2 (by decide), R4_intmul_lane _ _ 2 (by decide), perm1E_2]
    exact ((kH.r4intmul kE oT4).r4compress).cast (by
      linear_combination 2 * (y * y + x * x) * htz)
  · rw [R4_compress_lane _ 3 (by decide), R4_intmul_lane _ _ 3 (by decide), perm1E_3]
    exact ((kF.r4intmul kG oT4).r4compress).cast (by ring)

/-- No limb of `b + (2^34 p - a)` goes below zero. -/
def NoBorrow (b a : Elt10 W) : Prop :=
  let ok (k a b : W) : Prop := a.toNat ≤ b.toNat + k.toNat
  let k : Elt10 W := R4.twoTo34P
  ok k.r0 a.r0 b.r0 ∧ ok k.r1 a.r1 b.r1 ∧ ok k.r2 a.r2 b.r2 ∧ ok k.r3 a.r3 b.r3 ∧
  ok k.r4 a.r4 b.r4 ∧ ok k.r5 a.r5 b.r5 ∧ ok k.r6 a.r6 b.r6 ∧ ok k.r7 a.r7 b.r7 ∧
  ok k.r8 a.r8 b.r8 ∧ ok k.r9 a.r9 b.r9

instance (b a : Elt10 W) : Decidable (NoBorrow b a) := by unfold NoBorrow; infer_instance

theorem w_subK (b a : W) (k M N : ℕ) (hk : k < 2 ^ 62) (hM : M < 2 ^ 62) (hN : N < 2 ^ 62)
    (h : a.toNat ≤ b.toNat + (BitVec.ofNat 64 k).toNat) (hb : b.toNat ≤ M) (ha : a.toNat ≤ N) :
    (b + (BitVec.ofNat 64 k - a)).toNat ≤ 2 ^ 63 ∧
      ((b + (BitVec.ofNat 64 k - a)).toNat : ℤ) = b.toNat + ((k : ℤ) - a.toNat) := by
  rw [BitVec.toNat_ofNat, Nat.mod_eq_of_lt (by omega)] at h
  rw [BitVec.toNat_add, BitVec.toNat_sub, BitVec.toNat_ofNat, Nat.mod_eq_of_lt (a := k) (by omega)]
  omega

/-- Subtraction when no limb goes below zero. -/
theorem subK34_of {a b : Elt10 W} {x y : Fp} (hb : Rp prodL b y) (ha : Rp prodL a x)
    (h : NoBorrow b a) : Rp wide (subK34 b a) (y - x) := by
  obtain ⟨hb1, hb2⟩ := hb
  obtain ⟨ha1, ha2⟩ := ha
  obtain ⟨n0, n1, n2, n3, n4, n5, n6, n7, n8, n9⟩ := h
  obtain ⟨a0, a1, a2, a3, a4, a5, a6, a7, a8, a9⟩ := ha1
  obtain ⟨b0, b1, b2, b3, b4, b5, b6, b7, b8, b9⟩ := hb1
  have e0 := w_subK _ _ _ _ _ (by decide) (by decide) (by decide) n0 b0 a0
  have e1 := w_subK _ _ _ _ _ (by decide) (by decide) (by decide) n1 b1 a1
  have e2 := w_subK _ _ _ _ _ (by decide) (by decide) (by decide) n2 b2 a2
  have e3 := w_subK _ _ _ _ _ (by decide) (by decide) (by decide) n3 b3 a3
  have e4 := w_subK _ _ _ _ _ (by decide) (by decide) (by decide) n4 b4 a4
  have e5 := w_subK _ _ _ _ _ (by decide) (by decide) (by decide) n5 b5 a5
  have e6 := w_subK _ _ _ _ _ (by decide) (by decide) (by decide) n6 b6 a6
  have e7 := w_subK _ _ _ _ _ (by decide) (by decide) (by decide) n7 b7 a7
  have e8 := w_subK _ _ _ _ _ (by decide) (by decide) (by decide) n8 b8 a8
  have e9 := w_subK _ _ _ _ _ (by decide) (by decide) (by decide) n9 b9 a9
  refine ⟨⟨e0.1, e1.1, e2.1, e3.1, e4.1, e5.1, e6.1, e7.1, e8.1, e9.1⟩, ?_⟩
  have hi : (subK34 b a).ints = subK34 b.ints a.ints := by
    ext1
    · exact e0.2
    · exact e1.2
    · exact e2.2
    · exact e3.2
    · exact e4.2
    · exact e5.2
    · exact e6.2
    · exact e7.2
    · exact e8.2
    · exact e9.2
  unfold Elt10.toFp
  rw [hi, subK34_int, Int.cast_sub, Int.cast_add, p_mul_cast, add_zero, ← ha2, ← hb2]; rfl

section mix4
variable (X Y : Elt10 V)

theorem w_mix0 (a k b : W) : a + k + ((b ^^^ -1) - -1) = a + (k - b) := by
  rw [BitVec.add_assoc, add_negMask]
theorem w_mix1 (a b : W) : a + 0#64 + ((b ^^^ 0#64) - 0#64) = a + b := by simp
theorem w_mix2 (a k b : W) : a + k + ((b ^^^ 0#64) - 0#64) = b + (a + (k - 0#64)) := by
  simp [BitVec.add_comm]

theorem mix4_s : ((X.zip subYX_addYX CONST_2P_00_00_00).zip (BLEND32 · · 0xF0) X).lane 0 =
    R4.sub (X.lane 1) (X.lane 0) := by
  ext1 <;> exact w_mix0 _ _ _
theorem mix4_a : ((X.zip subYX_addYX CONST_2P_00_00_00).zip (BLEND32 · · 0xF0) Y).lane 1 =
    R4.add (X.lane 0) (X.lane 1) := by
  ext1 <;> exact w_mix1 _ _
theorem mix4_t : (X.zip (BLEND32 · · 0xF0) Y).lane 2 = Y.lane 2 := rfl
theorem mix4_z : (X.zip (BLEND32 · · 0xF0) Y).lane 3 = Y.lane 3 := rfl
theorem mix4_E : (X.zip mix4w_EGHF CONST_2_to_35P_4w).lane 0 =
    subK34 (X.lane 1) (X.lane 0) := by
  ext1 <;> exact w_mix0 _ _ _
theorem mix4_G : (X.zip mix4w_EGHF CONST_2_to_35P_4w).lane 1 =
    R4.add (X.lane 2) (subK34 (X.lane 3) zero10) := by
  ext1 <;> exact w_mix2 _ _ _
theorem mix4_H : (X.zip mix4w_EGHF CONST_2_to_35P_4w).lane 2 =
    R4.add (X.lane 0) (subK34 (X.lane 1) zero10) := by
  ext1 <;> exact w_mix2 _ _ _
theorem mix4_F : (X.zip mix4w_EGHF CONST_2_to_35P_4w).lane 3 =
    subK34 (X.lane 3) (X.lane 2) := by
  ext1 <;> exact w_mix0 _ _ _
end mix4

/-- The subtraction B - A + 2^34 p of the mixed addition of `Q` and `P` does not go below
zero in any limb. -/
def MixOk (Q P : Elt10 V) : Prop :=
  NoBorrow (R4.intmul (R4.add (Q.lane 0) (Q.lane 1)) (P.lane 1))
    (R4.intmul (R4.sub (Q.lane 1) (Q.lane 0)) (P.lane 0))

instance (Q P : Elt10 V) : Decidable (MixOk Q P) := by unfold MixOk; infer_instance

/-- The lanes y - x, y + x, 2dxy, 2z represent the point `A`. -/
def IsPre4w (P : Elt10 V) (A : Pt) : Prop :=
  ∃ a s t z, Rp coordB (P.lane 0) s ∧ Rp coordB (P.lane 1) a ∧ Rp coordB (P.lane 2) t ∧
    Rp coordB (P.lane 3) z ∧ Edw.Pre A a s t z

theorem mixadd_4w_spec {Q P : Elt10 V} {A B : Pt} (hQ : Is4w Q A) (hP : IsPre4w P B)
    (hok : MixOk Q P) : Is4w (mixadd_4w Q P) (A + B) := by
  obtain ⟨x, y, z, t, hx, hy, ht, hz, hR⟩ := hQ
  obtain ⟨a, s, td, z2, hs, ha, htd, hz2, hPre⟩ := hP
  have oadd : okLe (R4.add (ivs tight) (ivs tight)) loose = true := by decide +kernel
  have osub : okLe (R4.sub (ivs tight) (ivs tight)) loose = true := by decide +kernel
  have oL : okLe (R4.intmul (ivs loose) (ivs coordB)) prodL = true := by decide +kernel
  have oT : okLe (R4.intmul (ivs tight) (ivs coordB)) prodT = true := by decide +kernel
  have o2 : okLe (subK34 (ivs prodT) (ivs prodT)) wide = true := by decide +kernel
  have o2' : okLe (subK34 (ivs prodL) (ivs zeroB)) (bnd (2 ^ 62) (2 ^ 62)) = true := by
    decide +kernel
  have o2'' : okLe (subK34 (ivs prodT) (ivs zeroB)) (bnd (2 ^ 61) (2 ^ 61)) = true := by
    decide +kernel
  have o3 : okLe (R4.add (ivs prodL) (ivs (bnd (2 ^ 62) (2 ^ 62)))) wide = true := by
    decide +kernel
  have o3' : okLe (R4.add (ivs prodT) (ivs (bnd (2 ^ 61) (2 ^ 61)))) wide = true := by
    decide +kernel
  let SA := (Q.zip subYX_addYX CONST_2P_00_00_00).zip (BLEND32 · · 0xF0) Q
  let ABCD := R4.intmul SA P
  have l0 : ABCD.lane 0 = R4.intmul (R4.sub (Q.lane 1) (Q.lane 0)) (P.lane 0) := by
    rw [R4_intmul_lane _ _ 0 (by decide), mix4_s]
  have l1 : ABCD.lane 1 = R4.intmul (R4.add (Q.lane 0) (Q.lane 1)) (P.lane 1) := by
    rw [R4_intmul_lane _ _ 1 (by decide), mix4_a]
  have hA : Rp prodL (ABCD.lane 0) ((y - x) * s) := by
    rw [l0]; exact (hy.r4sub hx osub).r4intmul hs oL
  have hB : Rp prodL (ABCD.lane 1) ((x + y) * a) := by
    rw [l1]; exact (hx.r4add hy oadd).r4intmul ha oL
  have hC : Rp prodT (ABCD.lane 2) (t * td) := by
    rw [R4_intmul_lane _ _ 2 (by decide), mix4_t]; exact ht.r4intmul htd oT
  have hD : Rp prodT (ABCD.lane 3) (z * z2) := by
    rw [R4_intmul_lane _ _ 3 (by decide), mix4_z]; exact hz.r4intmul hz2 oT
  have hok' : NoBorrow (ABCD.lane 1) (ABCD.lane 0) := by rw [l0, l1]; exact hok
  let EGHF := R4.compress (ABCD.zip mix4w_EGHF CONST_2_to_35P_4w)
  have kE : Rp tight (EGHF.lane 0) ((x + y) * a - (y - x) * s) := by
    rw [R4_compress_lane _ 0 (by decide), mix4_E]
    exact (subK34_of hB hA hok').r4compress
  have kG : Rp tight (EGHF.lane 1) (t * td + (z * z2 - 0)) := by
    rw [R4_compress_lane _ 1 (by decide), mix4_G]
    exact (hC.r4add (hD.subK34 zero10_rp o2'') o3').r4compress
  have kH : Rp tight (EGHF.lane 2) ((y - x) * s + ((x + y) * a - 0)) := by
    rw [R4_compress_lane _ 2 (by decide), mix4_H]
    exact (hA.r4add (hB.subK34 zero10_rp o2') o3).r4compress
  have kF : Rp tight (EGHF.lane 3) (z * z2 - t * td) := by
    rw [R4_compress_lane _ 3 (by decide), mix4_F]
    exact (hD.subK34 hC o2).r4compress
  have key := hR.mixadd curve_a hPre rfl rfl rfl rfl
  have hd : mixadd_4w Q P = R4.compress (R4.intmul EGHF (EGHF.map (PERM64 · 0x4B))) := rfl
  rw [hd]
  refine ⟨_, _, _, _, ?_, ?_, ?_, ?_, key⟩
  · rw [R4_compress_lane _ 0 (by decide), R4_intmul_lane _ _ 0 (by decide), perm4B_0]
    exact ((kE.r4intmul kF oT4).r4compress).cast (by ring)
  · rw [R4_compress_lane _ 1 (by decide), R4_intmul_lane _ _ 1 (by decide), perm4B_1]
    exact ((kG.r4intmul kH oT4).r4compress).cast (by ring)
  · rw [R4_compress_lane _ 2 (by decide), R4_intmul_lane _ _ 2 (by decide), perm4B_2]
    exact ((kH.r4intmul kE oT4).r4compress).cast (by ring)
  · rw [R4_compress_lane _ 3 (by decide), R4_intmul_lane _ _ 3 (by decide), perm4B_3]
    exact ((kF.r4intmul kG oT4).r4compress).cast (by ring)

end Verif.Ed25519
