import Verif.Ed448.WnafLemmas
import Verif.Ed448.MultLemmas
import Verif.Ed448.EncodeLemmas
import Verif.Ed25519.DoubleMultLemmas

/-! # The double multiplication of verification, Ed448: helper lemmas -/

namespace Verif.Ed448

open Verif.Fp448
open Verif.X448 (Safe)
open Verif.Ed25519 (digitSum DigitsOk digitSum_take)

set_option exponentiation.threshold 2000

/-! ## The table of odd multiples of the base point -/

/-- The words of component `c` of entry `i`. -/
def verfWords (i c : ℕ) : List W :=
  [verfWord i c 0, verfWord i c 1, verfWord i c 2, verfWord i c 3, verfWord i c 4, verfWord i c 5,
    verfWord i c 6]

/-- The number in component `c` of entry `i`. -/
def verfNum (i c : ℕ) : ℕ := wval (verfWords i c)

theorem verfBytes_num (i c : ℕ) : leNat (verfBytes i c) = verfNum i c := leNat_bytesOf _

theorem verfBytes_length (i c : ℕ) : (verfBytes i c).length = 56 := by
  simp [verfBytes, bytesOf]

/-- The mixed addition of an entry, or of its negative, cannot borrow. -/
def verfGap (i : ℕ) : Bool :=
  gapOk (R1.unser (verfBytes i 1)).limbs.ints (R1.unser (verfBytes i 0)).limbs.ints &&
    gapOk (R1.unser (verfBytes i 0)).limbs.ints (R1.unser (verfBytes i 1)).limbs.ints

/-- Entries `i`, ..., `i + fuel - 1` are right, `n` being `2i + 1` times the base point. -/
def verfOk : ℕ → ℕ → NPt → Bool
  | 0, _, _ => true
  | fuel + 1, i, n =>
    isPre n (verfNum i 0) (verfNum i 1) (verfNum i 2) &&
      verfOk fuel (i + 1) ((n.add nB).add nB)

theorem verf_ok : verfOk 32 0 nB = true := by decide +kernel

theorem verf_gaps : ∀ i < 32, verfGap i = true := by decide +kernel

theorem verfOk_spec (fuel i : ℕ) (n : NPt) (hn : n.Is ((2 * i + 1) • B))
    (h : verfOk fuel i n = true) (k : ℕ) (h1 : i ≤ k) (h2 : k < i + fuel) :
    Edw.PreI ((2 * k + 1) • B) (verfNum k 0 : Fp) (verfNum k 1 : Fp) (verfNum k 2 : Fp) 2 := by
  induction fuel generalizing i n with
  | zero => omega
  | succ fuel ih =>
    rw [verfOk, Bool.and_eq_true] at h
    by_cases hk : k = i
    · subst hk; exact isPre_spec hn h.1
    · refine ih (i + 1) _ ?_ h.2 (by omega) (by omega)
      have := (hn.add nB_is).add nB_is
      rwa [show (2 * i + 1) • B + B + B = (2 * (i + 1) + 1) • B by
        rw [← succ_nsmul, ← succ_nsmul]; rfl] at this

theorem verf_entry {k : ℕ} (hk : k < 32) :
    Edw.PreI ((2 * k + 1) • B) (verfNum k 0 : Fp) (verfNum k 1 : Fp) (verfNum k 2 : Fp) 2 := by
  refine verfOk_spec 32 0 nB ?_ verf_ok k (by omega) (by omega)
  rw [show (2 * 0 + 1) • B = B from one_nsmul B]; exact nB_is

/-! ## Digits -/

/-- A nonzero digit, its index and its sign. -/
theorem digit_index (k : Byte) : k.toInt % 2 = 1 → -64 < k.toInt → k.toInt < 64 →
    (k.slt 0#8 = true → k.toInt = -(2 * (absIndex k : ℤ) + 1)) ∧
    (k.slt 0#8 = false → k.toInt = 2 * (absIndex k : ℤ) + 1) :=
  Ed25519.digit_index k

theorem two_rp : Rp tight two_1w.limbs 2 := by
  refine ⟨by decide +kernel, ?_⟩
  have h : two_1w.limbs.ints.val = 2 := by decide +kernel
  rw [Elt16.toFp, h]; norm_num

theorem pre_of_tight {e : Elt16 W} {x : Fp} (h : Rp tight e x) : Rp preB e x := h.mono tight_preB

theorem R1_neg_compress {e : Elt8 U} {x : Fp} (h : Rp tight e.limbs x) :
    Rp tight (R1.compress (R1.neg e)).limbs (-x) := by
  rw [R1_compress_eq]
  exact (h.neg.mono (m' := wide) (by decide +kernel)).r2compress okC

theorem verf_rp (i c : ℕ) : Rp tight (R1.unser (verfBytes i c)).limbs (verfNum i c : Fp) := by
  rw [← verfBytes_num]; exact unser_rp _ (verfBytes_length i c)

theorem read_point_spec {k : Byte} (ho : k.toInt % 2 = 1) (h1 : -64 < k.toInt)
    (h2 : k.toInt < 64) : IsPre4w (read_point_4w k) (k.toInt • B) ∧
      gapOk ((read_point_4w k).lane 0).ints ((read_point_4w k).lane 1).ints = true := by
  obtain ⟨hn, hp⟩ := digit_index k ho h1 h2
  unfold read_point_4w
  simp only
  split_ifs with hs
  · have e := hn hs
    have hlt : absIndex k < 32 := by omega
    have hpre := (verf_entry hlt).neg
    have hg := verf_gaps _ hlt
    rw [verfGap, Bool.and_eq_true] at hg
    rw [show k.toInt • B = -((2 * absIndex k + 1) • B) by
      rw [e, neg_smul, ← natCast_zsmul]; push_cast; rfl]
    have t := R1_neg_compress (verf_rp (absIndex k) 2)
    obtain ⟨l0, l1, l2, l3⟩ := R4_zip_lanes (R1.unser (verfBytes (absIndex k) 0))
      (R1.unser (verfBytes (absIndex k) 1))
      (R1.compress (R1.neg (R1.unser (verfBytes (absIndex k) 2)))) two_1w
    exact ⟨⟨_, _, _, _, l0 ▸ pre_of_tight (verf_rp _ 0), l1 ▸ pre_of_tight (verf_rp _ 1),
      l2 ▸ pre_of_tight t, l3 ▸ pre_of_tight two_rp, hpre⟩, by rw [l0, l1]; exact hg.2⟩
  · have e := hp (by simpa using hs)
    have hlt : absIndex k < 32 := by omega
    have hpre := verf_entry hlt
    have hg := verf_gaps _ hlt
    rw [verfGap, Bool.and_eq_true] at hg
    rw [show k.toInt • B = (2 * absIndex k + 1) • B by
      rw [e, ← natCast_zsmul]; push_cast; rfl]
    obtain ⟨l0, l1, l2, l3⟩ := R4_zip_lanes (R1.unser (verfBytes (absIndex k) 1))
      (R1.unser (verfBytes (absIndex k) 0)) (R1.unser (verfBytes (absIndex k) 2)) two_1w
    exact ⟨⟨_, _, _, _, l0 ▸ pre_of_tight (verf_rp _ 1), l1 ▸ pre_of_tight (verf_rp _ 0),
      l2 ▸ pre_of_tight (verf_rp _ 2), l3 ▸ pre_of_tight two_rp, hpre⟩, by rw [l0, l1]; exact hg.1⟩

/-! ## The table of odd multiples of the public key -/

theorem const_2d_rp : Rp tight (CONST_param_curve_1_1_2d_02.lane 2) (2 * (curve.d - 1)) := by
  have := rp_of_nat (m := tight) (e := CONST_param_curve_1_1_2d_02.lane 2) (n := 2 * dI)
    (by decide +kernel) (by decide +kernel)
  rwa [Nat.cast_mul, dI_cast] at this

theorem const_2_rp : Rp tight (CONST_param_curve_1_1_2d_02.lane 3) 2 := by
  refine ⟨by decide +kernel, ?_⟩
  have h : (CONST_param_curve_1_1_2d_02.lane 3).ints.val = 2 := by decide +kernel
  rw [Elt16.toFp, h]; norm_num

theorem pre4_s (X Y : Elt16 V) :
    ((X.zip subYX_addYX CONST_2P_00_00_00).zip (BLEND32 · · 0xF0) Y).lane 0 =
      R4.sub (X.lane 1) (X.lane 0) := by
  ext1 <;> exact w_mix0 _ _ _

/-- The precomputed form, with the bounds of a carry pass. -/
def IsPreTight (P : Elt16 V) (A : Pt) : Prop :=
  ∃ a s t z, Rp tight (P.lane 0) s ∧ Rp tight (P.lane 1) a ∧ Rp tight (P.lane 2) t ∧
    Rp tight (P.lane 3) z ∧ Edw.PreI A a s t z

theorem IsPreTight.pre {P : Elt16 V} {A : Pt} (h : IsPreTight P A) : IsPre4w P A := by
  obtain ⟨a, s, t, z, h0, h1, h2, h3, h4⟩ := h
  exact ⟨a, s, t, z, pre_of_tight h0, pre_of_tight h1, pre_of_tight h2, pre_of_tight h3, h4⟩

theorem pre4w_spec {P : Elt16 V} {A : Pt} (h : Is4w P A) : IsPreTight (pre4w P) A := by
  obtain ⟨x, y, z, t, hx, hy, ht, hz, hR⟩ := h
  have oadd : okLe (R4.add (ivs tight) (ivs tight)) wide = true := by decide +kernel
  have osub : okLe (R4.sub (ivs tight) (ivs tight)) wide = true := by decide +kernel
  refine ⟨x + y, y - x, t * (2 * (curve.d - 1)), z * 2, ?_, ?_, ?_, ?_, ?_⟩
  · unfold pre4w
    rw [R4_compress_lane _ 0 (by decide), pre4_s]
    exact (hy.r4sub hx osub).r4compress okC4
  · unfold pre4w
    rw [R4_compress_lane _ 1 (by decide), mix4_a]
    exact (hx.r4add hy oadd).r4compress okC4
  · unfold pre4w
    rw [R4_compress_lane _ 2 (by decide), mix4_t, R4_intmul_lane _ _ 2 (by decide)]
    exact ((ht.r4intmul const_2d_rp oT4).mono prodT_wide).r4compress okC4
  · unfold pre4w
    rw [R4_compress_lane _ 3 (by decide), mix4_z, R4_intmul_lane _ _ 3 (by decide)]
    exact ((hz.r4intmul const_2_rp oT4).mono prodT_wide).r4compress okC4
  · have := hR.pre
    rwa [add_comm y x, mul_comm (2 * (curve.d - 1)) t, mul_comm 2 z] at this

/-- The additions that build the first `n` entries after the initial one do not borrow. -/
def preOk (P : Elt16 V) (n : ℕ) : Prop :=
  ∀ j < n, MixOk (preIter P j) (pre4w (doubling_4w P))

instance (P : Elt16 V) (n : ℕ) : Decidable (preOk P n) := by unfold preOk; infer_instance

theorem preIter_spec {P : Elt16 V} {A : Pt} (h : Is4w P A) : ∀ (j : ℕ), preOk P j →
    Is4w (preIter P j) ((2 * j + 1) • A)
  | 0, _ => by rw [show (2 * 0 + 1) • A = A from one_nsmul A]; exact h
  | j + 1, hok => by
    have ih := preIter_spec h j fun i hi => hok i (by omega)
    have := mixadd_4w_spec ih (pre4w_spec (doubling_4w_spec h)).pre (hok j (by omega))
    rwa [show (2 * j + 1) • A + (A + A) = (2 * (j + 1) + 1) • A by
      rw [← two_nsmul, ← add_nsmul]; rfl] at this

theorem precompute_spec {P : Elt16 V} {A : Pt} (h : Is4w P A) (hok : preOk P 7) {j : ℕ}
    (hj : j < 8) : IsPreTight (precompute_4w P j) ((2 * j + 1) • A) :=
  pre4w_spec (preIter_spec h j fun i hi => hok i (by omega))

/-- Zero, all limbs. -/
def zeroE : Elt16 W :=
  ⟨0#64, 0#64, 0#64, 0#64, 0#64, 0#64, 0#64, 0#64, 0#64, 0#64, 0#64, 0#64, 0#64, 0#64, 0#64, 0#64⟩

theorem w_ngz (k b : W) : k + ((b ^^^ -1) - -1) = 0#64 + (k - b) := by
  rw [add_negMask]; simp

theorem R4_ngz_lanes (a : Elt16 V) : (R4.ngz a).lane 0 = a.lane 1 ∧ (R4.ngz a).lane 1 = a.lane 0 ∧
    (R4.ngz a).lane 2 = R4.sub zeroE (a.lane 2) ∧ (R4.ngz a).lane 3 = a.lane 3 := by
  refine ⟨rfl, rfl, ?_, ?_⟩
  · ext1 <;> exact w_ngz _ _
  · ext1 <;> exact (by simp : ∀ b : W, 0#64 + ((b ^^^ 0#64) - 0#64) = b) _

theorem zeroE_rp : Rp tight zeroE 0 := by
  refine ⟨by decide +kernel, ?_⟩
  have h : zeroE.ints.val = 0 := by decide +kernel
  rw [Elt16.toFp, h]; norm_num

theorem R4_neg_rp {e : Elt16 W} {x : Fp} (h : Rp tight e x) : Rp diff2 (R4.sub zeroE e) (-x) :=
  (zeroE_rp.r4sub h okSub4).cast (by ring)

theorem dynPoint_spec {T : ℕ → Elt16 V} {A : Pt}
    (hT : ∀ j < 8, IsPreTight (T j) ((2 * j + 1) • A)) {k : Byte} (ho : k.toInt % 2 = 1)
    (h1 : -16 < k.toInt) (h2 : k.toInt < 16) : IsPre4w (dynPoint T k) (k.toInt • A) := by
  obtain ⟨hn, hp⟩ := digit_index k ho (by omega) (by omega)
  unfold dynPoint
  simp only
  split_ifs with hs
  · have e := hn hs
    obtain ⟨a, s, t, z, r0, r1, r2, r3, hpre⟩ := hT (absIndex k) (by omega)
    rw [show k.toInt • A = -((2 * absIndex k + 1) • A) by
      rw [e, neg_smul, ← natCast_zsmul]; push_cast; rfl]
    obtain ⟨l0, l1, l2, l3⟩ := R4_ngz_lanes (T (absIndex k))
    have oT : okLe (R4.compressfast (ivs tight)) preB = true := by decide +kernel
    have oN : okLe (R4.compressfast (ivs diff2)) preB = true := by decide +kernel
    refine ⟨_, _, _, _, ?_, ?_, ?_, ?_, hpre.neg⟩
    · rw [R4_compressfast_lane _ 0 (by decide), l0]; exact r1.r4compressfast oT
    · rw [R4_compressfast_lane _ 1 (by decide), l1]; exact r0.r4compressfast oT
    · rw [R4_compressfast_lane _ 2 (by decide), l2]; exact (R4_neg_rp r2).r4compressfast oN
    · rw [R4_compressfast_lane _ 3 (by decide), l3]; exact r3.r4compressfast oT
  · have e := hp (by simpa using hs)
    rw [show k.toInt • A = (2 * absIndex k + 1) • A by
      rw [e, ← natCast_zsmul]; push_cast; rfl]
    exact (hT (absIndex k) (by omega)).pre

/-! ## The loop -/

/-- The addition of a multiple of the public key in an iteration does not borrow; that of a
multiple of the base point never does. -/
def stepOk (T : ℕ → Elt16 V) (dr dh : Byte) (Q : Elt16 V) : Prop :=
  dh ≠ 0#8 → MixOk (if dr ≠ 0#8 then mixadd_4w (doubling_4w Q) (read_point_4w dr)
    else doubling_4w Q) (dynPoint T dh)

instance (T : ℕ → Elt16 V) (dr dh : Byte) (Q : Elt16 V) : Decidable (stepOk T dr dh Q) := by
  unfold stepOk; infer_instance

/-- No addition of the loop borrows. -/
def loopOk (T : ℕ → Elt16 V) (kr kh : List Byte) : ℕ → Elt16 V → Prop
  | 0, _ => True
  | i + 1, Q => stepOk T (kr.getD i 0#8) (kh.getD i 0#8) Q ∧
      loopOk T kr kh i (dmStep T (kr.getD i 0#8) (kh.getD i 0#8) Q)

def loopOk.dec (T : ℕ → Elt16 V) (kr kh : List Byte) : ∀ i Q, Decidable (loopOk T kr kh i Q)
  | 0, _ => isTrue trivial
  | i + 1, Q =>
    have := loopOk.dec T kr kh i (dmStep T (kr.getD i 0#8) (kh.getD i 0#8) Q)
    inferInstanceAs (Decidable (_ ∧ _))

instance (T : ℕ → Elt16 V) (kr kh : List Byte) (i : ℕ) (Q : Elt16 V) :
    Decidable (loopOk T kr kh i Q) := loopOk.dec T kr kh i Q

theorem Is4w.xy {Q : Elt16 V} {A : Pt} (h : Is4w Q A) :
    (Q.lane 0).Le tight ∧ (Q.lane 1).Le tight := by
  obtain ⟨x, y, z, t, hx, hy, -, -, -⟩ := h
  exact ⟨hx.1, hy.1⟩

theorem IsPre4w.sa {Q : Elt16 V} {A : Pt} (h : IsPre4w Q A) :
    (Q.lane 0).Le preB ∧ (Q.lane 1).Le preB := by
  obtain ⟨x, y, z, t, hx, hy, -, -, -⟩ := h
  exact ⟨hx.1, hy.1⟩

theorem dmStep_spec {T : ℕ → Elt16 V} {A C : Pt} {Q : Elt16 V}
    (hT : ∀ j < 8, IsPreTight (T j) ((2 * j + 1) • A)) {dr dh : Byte}
    (hr : dr ≠ 0#8 → dr.toInt % 2 = 1 ∧ -64 < dr.toInt ∧ dr.toInt < 64)
    (hh : dh ≠ 0#8 → dh.toInt % 2 = 1 ∧ -16 < dh.toInt ∧ dh.toInt < 16)
    (hQ : Is4w Q C) (hok : stepOk T dr dh Q) :
    Is4w (dmStep T dr dh Q) ((2 : ℤ) • C + dr.toInt • B + dh.toInt • A) := by
  have hd := doubling_4w_spec hQ
  rw [← two_zsmul] at hd
  unfold dmStep
  have h1 : Is4w (if dr ≠ 0#8 then mixadd_4w (doubling_4w Q) (read_point_4w dr)
      else doubling_4w Q) ((2 : ℤ) • C + dr.toInt • B) := by
    by_cases h : dr ≠ 0#8
    · rw [if_pos h]
      obtain ⟨a, b, c⟩ := hr h
      obtain ⟨hp, hg⟩ := read_point_spec a b c
      exact mixadd_4w_spec hd hp (mixOk_of_gapOk hd.xy.1 hd.xy.2 hp.sa.1 hp.sa.2 hg)
    · rw [if_neg h]
      push Not at h
      have : dr.toInt = 0 := by rw [h]; rfl
      rw [this, zero_smul, add_zero]
      exact hd
  by_cases h : dh ≠ 0#8
  · rw [if_pos h]
    obtain ⟨a, b, c⟩ := hh h
    exact mixadd_4w_spec h1 (dynPoint_spec hT a b c) (hok h)
  · rw [if_neg h]
    push Not at h
    have : dh.toInt = 0 := by rw [h]; rfl
    rw [this, zero_smul, add_zero]
    exact h1

theorem dmLoop_spec {T : ℕ → Elt16 V} {A : Pt}
    (hT : ∀ j < 8, IsPreTight (T j) ((2 * j + 1) • A)) {kr kh : List Byte}
    (hr : DigitsOk 7 kr) (hh : DigitsOk 5 kh) : ∀ (i : ℕ) (Q : Elt16 V) (C : Pt), Is4w Q C →
    loopOk T kr kh i Q → Is4w (dmLoop T kr kh i Q)
      ((2 : ℤ) ^ i • C + digitSum (kr.take i) • B + digitSum (kh.take i) • A)
  | 0, Q, C, hQ, _ => by simpa [digitSum, dmLoop] using hQ
  | i + 1, Q, C, hQ, hok => by
    have hs := dmStep_spec hT (fun h => by simpa using hr.get i rfl h)
      (fun h => by simpa using hh.get i rfl h) hQ hok.1
    have := dmLoop_spec hT hr hh i _ _ hs hok.2
    rw [dmLoop]
    convert this using 1
    rw [digitSum_take, digitSum_take, pow_succ]
    module

theorem neutral4w_spec : Is4w neutral4w 0 := by
  refine ⟨0, 1, 1, 0, ⟨by decide +kernel, ?_⟩, ⟨by decide +kernel, ?_⟩, ⟨by decide +kernel, ?_⟩,
    ⟨by decide +kernel, ?_⟩, Edw.RepI.zero one_ne_zero⟩
  · have h : (neutral4w.lane 0).ints.val = 0 := by decide +kernel
    rw [Elt16.toFp, h]; simp
  · have h : (neutral4w.lane 1).ints.val = 1 := by decide +kernel
    rw [Elt16.toFp, h]; simp
  · have h : (neutral4w.lane 2).ints.val = 0 := by decide +kernel
    rw [Elt16.toFp, h]; simp
  · have h : (neutral4w.lane 3).ints.val = 1 := by decide +kernel
    rw [Elt16.toFp, h]; simp

theorem unzip_2w_lanes (A : Elt16 V) : (unzip_2w A).XY.lo.limbs = A.lane 0 ∧
    (unzip_2w A).XY.hi.limbs = A.lane 1 ∧ (unzip_2w A).TZ.lo.limbs = A.lane 2 ∧
    (unzip_2w A).TZ.hi.limbs = A.lane 3 := ⟨rfl, rfl, rfl, rfl⟩

theorem unzip_2w_spec {Q : Elt16 V} {A : Pt} (h : Is4w Q A) : Is2w (unzip_2w Q) A := by
  obtain ⟨x, y, z, t, hx, hy, ht, hz, hR⟩ := h
  obtain ⟨l0, l1, l2, l3⟩ := unzip_2w_lanes Q
  exact ⟨x, y, z, t, l0 ▸ hx, l1 ▸ hy, l3 ▸ hz, l2 ▸ ht, hR⟩

/-- No addition of the whole computation borrows; `s` and `h` are the scalars divided by four. -/
def DmOk (s h : List Byte) (P : Elt16 V) : Prop :=
  preOk P 7 ∧ loopOk (precompute_4w P) (wnaf_448bits 7 s) (wnaf_448bits 5 h)
    (max (wnaf_448bits 7 s).length (wnaf_448bits 5 h).length) neutral4w

instance (s h : List Byte) (P : Elt16 V) : Decidable (DmOk s h P) := by
  unfold DmOk; infer_instance

/-- The limbs of all the multiples of the public key that the loop adds pass the check: a condition
on the key alone, under which no addition borrows, whatever the scalars. -/
def KeyOk (P : Elt16 V) : Prop :=
  let ok (e : Elt16 V) : Prop := gapOk (e.lane 0).ints (e.lane 1).ints = true
  ok (pre4w (doubling_4w P)) ∧ ∀ j < 8, ok (precompute_4w P j) ∧
    ok (R4.compressfast (R4.ngz (precompute_4w P j)))

instance (P : Elt16 V) : Decidable (KeyOk P) := by unfold KeyOk; infer_instance

theorem KeyOk.pre {P : Elt16 V} {A : Pt} (hP : Is4w P A) (h : KeyOk P) : ∀ n, preOk P n
  | 0 => fun j hj => absurd hj (by omega)
  | n + 1 => fun j hj => by
    have ih := preIter_spec hP j fun i hi => KeyOk.pre hP h n i (by omega)
    have hp := (pre4w_spec (doubling_4w_spec hP)).pre
    exact mixOk_of_gapOk ih.xy.1 ih.xy.2 hp.sa.1 hp.sa.2 h.1

theorem KeyOk.step {P : Elt16 V} {A C : Pt} (hP : Is4w P A) (h : KeyOk P) {dr dh : Byte}
    (hr : dr ≠ 0#8 → dr.toInt % 2 = 1 ∧ -64 < dr.toInt ∧ dr.toInt < 64)
    (hh : dh ≠ 0#8 → dh.toInt % 2 = 1 ∧ -16 < dh.toInt ∧ dh.toInt < 16) {Q : Elt16 V}
    (hQ : Is4w Q C) : stepOk (precompute_4w P) dr dh Q := by
  intro hd
  obtain ⟨a, b, c⟩ := hh hd
  have hT := fun j (hj : j < 8) => precompute_spec hP (h.pre hP 7) hj
  have hp := dynPoint_spec hT a b c
  have hq := dmStep_spec (dh := 0#8) hT hr (fun k => absurd rfl k) hQ (fun k => absurd rfl k)
  unfold dmStep at hq
  simp only at hq
  rw [if_neg (not_not.2 rfl)] at hq
  refine mixOk_of_gapOk hq.xy.1 hq.xy.2 hp.sa.1 hp.sa.2 ?_
  obtain ⟨hn, hpos⟩ := digit_index dh a (by omega) (by omega)
  unfold dynPoint
  simp only
  split_ifs with hs
  · have := hn hs
    exact (h.2 (absIndex dh) (by omega)).2
  · have := hpos (by simpa using hs)
    exact (h.2 (absIndex dh) (by omega)).1

theorem KeyOk.loop {P : Elt16 V} {A : Pt} (hP : Is4w P A) (h : KeyOk P) {kr kh : List Byte}
    (hr : DigitsOk 7 kr) (hh : DigitsOk 5 kh) : ∀ (i : ℕ) (Q : Elt16 V) (C : Pt), Is4w Q C →
    loopOk (precompute_4w P) kr kh i Q
  | 0, _, _, _ => trivial
  | i + 1, Q, C, hQ => by
    have hr' := fun k : kr.getD i 0#8 ≠ 0#8 => by simpa using hr.get i rfl k
    have hh' := fun k : kh.getD i 0#8 ≠ 0#8 => by simpa using hh.get i rfl k
    have hs := h.step hP hr' hh' hQ
    exact ⟨hs, h.loop hP hr hh i _ _ (dmStep_spec
      (fun j hj => precompute_spec hP (h.pre hP 7) hj) hr' hh' hQ hs)⟩

theorem KeyOk.dmOk {P : Elt16 V} {A : Pt} (hP : Is4w P A) (h : KeyOk P) (s r : List Byte) :
    DmOk s r P :=
  ⟨h.pre hP 7, h.loop hP (wnaf_digits (by norm_num) (by norm_num) s)
    (wnaf_digits (by norm_num) (by norm_num) r) _ _ _ neutral4w_spec⟩

theorem double_point_mult_pt_spec {s h : List Byte} (hs : s.length = 57) (hh : h.length = 57)
    {P : Elt16 V} {A : Pt} (hP : Is4w P A) (hok : DmOk s h P) :
    Is4w (double_point_mult_pt s h P) (leNat s • B + leNat h • A) := by
  have := dmLoop_spec (fun j hj => precompute_spec hP hok.1 hj)
    (wnaf_digits (by norm_num) (by norm_num) s) (wnaf_digits (by norm_num) (by norm_num) h) _ _ _
    neutral4w_spec hok.2
  rw [List.take_of_length_le (le_max_left _ _), List.take_of_length_le (le_max_right _ _),
    wnaf_sum (by norm_num) (by norm_num) hs, wnaf_sum (by norm_num) (by norm_num) hh, smul_zero,
    zero_add, natCast_zsmul, natCast_zsmul] at this
  exact this

/-- The complete function: the encoding of four times the combination. -/
theorem double_point_mult_spec {u13 u14 v13 v14 : W} {s h : List Byte}
    (hs : (div4 u13 u14 s).length = 57) (hh : (div4 v13 v14 h).length = 57) {P : Elt16 V} {A : Pt}
    (hP : Is4w P A) (hok : DmOk (div4 u13 u14 s) (div4 v13 v14 h) P)
    (hx : Safe (canon (4 • (leNat (div4 u13 u14 s) • B + leNat (div4 v13 v14 h) • A)).x))
    (hy : Safe (canon (4 • (leNat (div4 u13 u14 s) • B + leNat (div4 v13 v14 h) • A)).y)) :
    double_point_mult_4w u13 u14 v13 v14 s h P =
      encode (4 • (leNat (div4 u13 u14 s) • B + leNat (div4 v13 v14 h) • A)) :=
  point_encoding_spec (isogeny_2w_spec (unzip_2w_spec (double_point_mult_pt_spec hs hh hP hok)))
    hx hy

end Verif.Ed448
