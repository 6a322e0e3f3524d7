import Verif.Ed25519.WnafLemmas
import Verif.Ed25519.EncodeLemmas

/-! # The double multiplication of verification: helper lemmas -/

namespace Verif.Ed25519

open Verif.Fp25519

set_option exponentiation.threshold 2000

/-! ## The table of odd multiples of the base point -/

/-- Entries `i`, ..., `i + fuel - 1` are right, `n` being `2i + 1` times the base point. -/
def verfOk : ℕ → ℕ → NPt → Bool
  | 0, _, _ => true
  | fuel + 1, i, n =>
    isPre n (F4.num (verfF i 0)) (F4.num (verfF i 1)) (F4.num (verfF i 2)) &&
      verfOk fuel (i + 1) ((n.add nB).add nB)

theorem verf_ok : verfOk 32 0 nB = true := by decide +kernel

theorem verfOk_spec (fuel i : ℕ) (n : NPt) (hn : n.Is ((2 * i + 1) • B))
    (h : verfOk fuel i n = true) (k : ℕ) (h1 : i ≤ k) (h2 : k < i + fuel) :
    Edw.Pre ((2 * k + 1) • B) (F4.num (verfF k 0) : Fp)
      (F4.num (verfF k 1) : Fp) (F4.num (verfF k 2) : Fp) 2 := by
  induction fuel generalizing i n with
  | zero => omega
  | succ fuel ih =>
    rw [verfOk, Bool.and_eq_true] at h
    by_cases hk : k = i
    · subst hk; exact isPre_spec hn h.1
    · refine ih (i + 1) _ ?_ h.2 (by omega) (by omega)
      have := (hn.add nB_is).add nB_is
      rwa [show (2 * i + 1) • B + B + B = (2 * (i + 1) + 1) • B by
        rw [← succ_nsmul, ← succ_nsmul]; rfl] at this

theorem verf_entry {k : ℕ} (hk : k < 32) : Edw.Pre ((2 * k + 1) • B) (F4.num (verfF k 0) : Fp)
      (F4.num (verfF k 1) : Fp) (F4.num (verfF k 2) : Fp) 2 := by
  refine verfOk_spec 32 0 nB ?_ verf_ok k (by omega) (by omega)
  rw [show (2 * 0 + 1) • B = B from one_nsmul B]; exact nB_is

theorem num_toFp (a : F4) : a.toFp = (F4.num a : Fp) := by
  rw [F4.toFp, ← F4.num_val, Int.cast_natCast]

/-! ## Digits -/

/-- A nonzero digit, its index and its sign. -/
theorem digit_index : ∀ k : Byte, k.toInt % 2 = 1 → -64 < k.toInt → k.toInt < 64 →
    (k.slt 0#8 = true → k.toInt = -(2 * (absIndex k : ℤ) + 1)) ∧
    (k.slt 0#8 = false → k.toInt = 2 * (absIndex k : ℤ) + 1) := by
  have h : ∀ k : Fin 256, (BitVec.ofNat 8 k).toInt % 2 = 1 → -64 < (BitVec.ofNat 8 k).toInt →
    (BitVec.ofNat 8 k).toInt < 64 →
    ((BitVec.ofNat 8 k).slt 0#8 = true →
      (BitVec.ofNat 8 k).toInt = -(2 * (absIndex (BitVec.ofNat 8 k) : ℤ) + 1)) ∧
    ((BitVec.ofNat 8 k).slt 0#8 = false →
      (BitVec.ofNat 8 k).toInt = 2 * (absIndex (BitVec.ofNat 8 k) : ℤ) + 1) := by decide +kernel
  intro k
  have := h ⟨k.toNat, k.isLt⟩
  simpa only [BitVec.ofNat_toNat, BitVec.setWidth_eq] using this

theorem two_rp : Rp coordB two_1w.limbs 2 := by
  refine ⟨by decide +kernel, ?_⟩
  have h : two_1w.limbs.ints.val = 2 := by decide +kernel
  rw [Elt10.toFp, h]; norm_num

theorem canon_coord {e : Elt10 W} {x : Fp} (h : Rp canonB e x) : Rp coordB e x :=
  h.mono (by decide +kernel)

theorem tight_coord {e : Elt10 W} {x : Fp} (h : Rp tight e x) : Rp coordB e x :=
  h.mono (by decide +kernel)

theorem R1_neg_compress {e : Elt5 U} {x : Fp} (h : Rp tight e.limbs x) :
    Rp tight (R1.compress (R1.neg e)).limbs (-x) := by
  obtain ⟨h1, h2⟩ := R1_neg_spec h.1
  have : Rp wide (R1.neg e).limbs (-x) := by
    refine ⟨Elt10.Le.mono h1 (by decide), ?_⟩
    rw [Elt10.toFp, h2, ← h.2, Elt10.toFp]
    have := p_mul_cast 2
    push_cast at this ⊢
    linear_combination this
  exact this.r2compress

theorem read_point_spec {k : Byte} (ho : k.toInt % 2 = 1) (h1 : -64 < k.toInt)
    (h2 : k.toInt < 64) : IsPre4w (read_point_4w k) (k.toInt • B) := by
  obtain ⟨hn, hp⟩ := digit_index k ho h1 h2
  have u : ∀ i c, Rp canonB (R1.unser (verfF i c).toBytes).limbs (F4.num (verfF i c) : Fp) :=
    fun i c => unser_rp (num_toFp _)
  unfold read_point_4w
  simp only
  split_ifs with hs
  · have e := hn hs
    have hlt : absIndex k < 32 := by omega
    have hpre := (verf_entry hlt).neg
    rw [show k.toInt • B = -((2 * absIndex k + 1) • B) by
      rw [e, neg_smul, ← natCast_zsmul]; push_cast; rfl]
    have t := R1_neg_compress ((u (absIndex k) 2).mono (m' := tight) (by decide +kernel))
    exact ⟨_, _, _, _, canon_coord (u _ 0), canon_coord (u _ 1), tight_coord t, two_rp, hpre⟩
  · have e := hp (by simpa using hs)
    have hlt : absIndex k < 32 := by omega
    have hpre := verf_entry hlt
    rw [show k.toInt • B = (2 * absIndex k + 1) • B by
      rw [e, ← natCast_zsmul]; push_cast; rfl]
    exact ⟨_, _, _, _, canon_coord (u _ 1), canon_coord (u _ 0), canon_coord (u _ 2), two_rp, hpre⟩

/-! ## The table of odd multiples of the public key -/

section pre
variable (X Y : Elt10 V)
theorem pre4_s : ((X.zip subYX_addYX CONST_2P_00_00_00).zip (BLEND32 · · 0xF0) Y).lane 0 =
    R4.sub (X.lane 1) (X.lane 0) := by
  ext1 <;> exact w_mix0 _ _ _
end pre

theorem const_2d_rp : Rp tight (CONST_param_curve_1_1_2d_02.lane 2) (2 * curve.d) := by
  refine ⟨by decide +kernel, ?_⟩
  have h : (CONST_param_curve_1_1_2d_02.lane 2).ints.val = ((2 * dN % P : ℕ) : ℤ) := by
    decide +kernel
  rw [Elt10.toFp, h, Int.cast_natCast, show ((2 * dN % P : ℕ) : Fp) = ((2 * dN : ℕ) : Fp) from
    natEq (by decide +kernel)]
  push_cast; rfl

theorem const_2_rp : Rp tight (CONST_param_curve_1_1_2d_02.lane 3) 2 := by
  refine ⟨by decide +kernel, ?_⟩
  have h : (CONST_param_curve_1_1_2d_02.lane 3).ints.val = 2 := by decide +kernel
  rw [Elt10.toFp, h]; norm_num

/-- The precomputed form, with the bounds of a carry pass. -/
def IsPreTight (P : Elt10 V) (A : Pt) : Prop :=
  ∃ a s t z, Rp tight (P.lane 0) s ∧ Rp tight (P.lane 1) a ∧ Rp tight (P.lane 2) t ∧
    Rp tight (P.lane 3) z ∧ Edw.Pre A a s t z

theorem IsPreTight.coord {P : Elt10 V} {A : Pt} (h : IsPreTight P A) : IsPre4w P A := by
  obtain ⟨a, s, t, z, h0, h1, h2, h3, h4⟩ := h
  exact ⟨a, s, t, z, tight_coord h0, tight_coord h1, tight_coord h2, tight_coord h3, h4⟩

theorem pre4w_spec {P : Elt10 V} {A : Pt} (h : Is4w P A) : IsPreTight (pre4w P) A := by
  obtain ⟨x, y, z, t, hx, hy, ht, hz, hR⟩ := h
  have oadd : okLe (R4.add (ivs tight) (ivs tight)) wide = true := by decide +kernel
  have osub : okLe (R4.sub (ivs tight) (ivs tight)) wide = true := by decide +kernel
  have om : okLe (R4.intmul (ivs tight) (ivs tight)) wide = true := by decide +kernel
  refine ⟨x + y, y - x, t * (2 * curve.d), z * 2, ?_, ?_, ?_, ?_, ?_⟩
  · unfold pre4w
    rw [R4_compress_lane _ 0 (by decide), pre4_s]
    exact (hy.r4sub hx osub).r4compress
  · unfold pre4w
    rw [R4_compress_lane _ 1 (by decide), mix4_a]
    exact (hx.r4add hy oadd).r4compress
  · unfold pre4w
    rw [R4_compress_lane _ 2 (by decide), mix4_t, R4_intmul_lane _ _ 2 (by decide)]
    exact (ht.r4intmul const_2d_rp om).r4compress
  · unfold pre4w
    rw [R4_compress_lane _ 3 (by decide), mix4_z, R4_intmul_lane _ _ 3 (by decide)]
    exact (hz.r4intmul const_2_rp om).r4compress
  · have := hR.pre
    rwa [add_comm y x, mul_comm (2 * curve.d) t, mul_comm 2 z] at this

/-- The additions that build the first `n` entries after the initial one do not underflow. -/
def preOk (P : Elt10 V) (n : ℕ) : Prop :=
  ∀ j < n, MixOk (preIter P j) (pre4w (doubling_4w P))

instance (P : Elt10 V) (n : ℕ) : Decidable (preOk P n) := by unfold preOk; infer_instance

theorem preIter_spec {P : Elt10 V} {A : Pt} (h : Is4w P A) : ∀ (j : ℕ), preOk P j →
    Is4w (preIter P j) ((2 * j + 1) • A)
  | 0, _ => by rw [show (2 * 0 + 1) • A = A from one_nsmul A]; exact h
  | j + 1, hok => by
    have ih := preIter_spec h j fun i hi => hok i (by omega)
    have := mixadd_4w_spec ih (pre4w_spec (doubling_4w_spec h)).coord (hok j (by omega))
    rwa [show (2 * j + 1) • A + (A + A) = (2 * (j + 1) + 1) • A by
      rw [← two_nsmul, ← add_nsmul]; rfl] at this

theorem precompute_spec {P : Elt10 V} {A : Pt} (h : Is4w P A) (hok : preOk P 7) {j : ℕ}
    (hj : j < 8) : IsPreTight (precompute_4w P j) ((2 * j + 1) • A) :=
  pre4w_spec (preIter_spec h j fun i hi => hok i (by omega))

theorem R4_compressfast_lane (a : Elt10 V) (j : ℕ) (hj : j < 4) :
    (R4.compressfast a).lane j = R4.compressfast (a.lane j) :=
  lane_cases (p := fun j => (R4.compressfast a).lane j = R4.compressfast (a.lane j))
    rfl rfl rfl rfl j hj

theorem dynPoint_spec {T : ℕ → Elt10 V} {A : Pt}
    (hT : ∀ j < 8, IsPreTight (T j) ((2 * j + 1) • A)) {k : Byte} (ho : k.toInt % 2 = 1)
    (h1 : -16 < k.toInt) (h2 : k.toInt < 16) : IsPre4w (dynPoint T k) (k.toInt • A) := by
  obtain ⟨hn, hp⟩ := digit_index k ho (by omega) (by omega)
  unfold dynPoint
  simp only
  split_ifs with hs
  · have e := hn hs
    obtain ⟨a, s, t, z, r0, r1, r2, r3, hpre⟩ := hT (absIndex k) (by omega)
    rw [show k.toInt • A = -((2 * absIndex k + 1) • A) by
      rw [e, neg_smul, ← natCast_zsmul]; push_cast; rfl]
    obtain ⟨l0, l1, l2, l3⟩ := R4_ngz_lanes (T (absIndex k))
    have oT : okLe (R4.compressfast (ivs tight)) coordB = true := by decide +kernel
    have oN : okLe (R4.compressfast (ivs negB)) coordB = true := by decide +kernel
    have hneg : Rp negB (R4.neg ((T (absIndex k)).lane 2)) (-t) :=
      ⟨(R4_neg_spec r2.1).1, by rw [(R4_neg_spec r2.1).2, r2.2]⟩
    refine ⟨_, _, _, _, ?_, ?_, ?_, ?_, hpre.neg⟩
    · rw [R4_compressfast_lane _ 0 (by decide), l0]; exact r1.r4compressfast oT
    · rw [R4_compressfast_lane _ 1 (by decide), l1]; exact r0.r4compressfast oT
    · rw [R4_compressfast_lane _ 2 (by decide), l2]; exact hneg.r4compressfast oN
    · rw [R4_compressfast_lane _ 3 (by decide), l3]; exact r3.r4compressfast oT
  · have e := hp (by simpa using hs)
    rw [show k.toInt • A = (2 * absIndex k + 1) • A by
      rw [e, ← natCast_zsmul]; push_cast; rfl]
    exact (hT (absIndex k) (by omega)).coord

/-! ## The loop -/

/-- The one or two additions of an iteration do not underflow. -/
def stepOk (T : ℕ → Elt10 V) (dr dh : Byte) (Q : Elt10 V) : Prop :=
  (dr ≠ 0#8 → MixOk (doubling_4w Q) (read_point_4w dr)) ∧
  (dh ≠ 0#8 → MixOk (if dr ≠ 0#8 then mixadd_4w (doubling_4w Q) (read_point_4w dr)
    else doubling_4w Q) (dynPoint T dh))

instance (T : ℕ → Elt10 V) (dr dh : Byte) (Q : Elt10 V) : Decidable (stepOk T dr dh Q) := by
  unfold stepOk; infer_instance

/-- No addition of the loop underflows. -/
def loopOk (T : ℕ → Elt10 V) (kr kh : List Byte) : ℕ → Elt10 V → Prop
  | 0, _ => True
  | i + 1, Q => stepOk T (kr.getD i 0#8) (kh.getD i 0#8) Q ∧
      loopOk T kr kh i (dmStep T (kr.getD i 0#8) (kh.getD i 0#8) Q)

def loopOk.dec (T : ℕ → Elt10 V) (kr kh : List Byte) : ∀ i Q, Decidable (loopOk T kr kh i Q)
  | 0, _ => isTrue trivial
  | i + 1, Q =>
    have := loopOk.dec T kr kh i (dmStep T (kr.getD i 0#8) (kh.getD i 0#8) Q)
    inferInstanceAs (Decidable (_ ∧ _))

instance (T : ℕ → Elt10 V) (kr kh : List Byte) (i : ℕ) (Q : Elt10 V) :
    Decidable (loopOk T kr kh i Q) := loopOk.dec T kr kh i Q

theorem toInt_ne {k : Byte} (h : k ≠ 0#8) : k.toInt ≠ 0 :=
  fun e => h (BitVec.eq_of_toInt_eq (by rw [e]; rfl))

/-- A digit of a list with good digits. -/
theorem DigitsOk.get {w : ℕ} {l : List Byte} (h : DigitsOk w l) (i : ℕ) {k : Byte}
    (hk : l.getD i 0#8 = k) (h0 : k ≠ 0#8) :
    k.toInt % 2 = 1 ∧ -(2 ^ (w - 1)) < k.toInt ∧ k.toInt < 2 ^ (w - 1) := by
  have hm : k ∈ l := by
    by_cases hi : i < l.length
    · rw [← hk, List.getD_eq_getElem _ _ hi]; exact List.getElem_mem hi
    · exfalso
      rw [List.getD_eq_default _ _ (by omega)] at hk
      exact h0 hk.symm
  rcases h k hm with h1 | h1
  · exact absurd h1 (toInt_ne h0)
  · exact h1

theorem dmStep_spec {T : ℕ → Elt10 V} {A C : Pt} {Q : Elt10 V}
    (hT : ∀ j < 8, IsPreTight (T j) ((2 * j + 1) • A)) {dr dh : Byte}
    (hr : dr ≠ 0#8 → dr.toInt % 2 = 1 ∧ -64 < dr.toInt ∧ dr.toInt < 64)
    (hh : dh ≠ 0#8 → dh.toInt % 2 = 1 ∧ -16 < dh.toInt ∧ dh.toInt < 16)
    (hQ : Is4w Q C) (hok : stepOk T dr dh Q) :
    Is4w (dmStep T dr dh Q) ((2 : ℤ) • C + dr.toInt • B + dh.toInt • A) := by
  have hd := doubling_4w_spec hQ
  rw [← two_zsmul] at hd
  obtain ⟨ok1, ok2⟩ := hok
  unfold dmStep
  have h1 : Is4w (if dr ≠ 0#8 then mixadd_4w (doubling_4w Q) (read_point_4w dr)
      else doubling_4w Q) ((2 : ℤ) • C + dr.toInt • B) := by
    by_cases h : dr ≠ 0#8
    · rw [if_pos h]
      obtain ⟨a, b, c⟩ := hr h
      exact mixadd_4w_spec hd (read_point_spec a b c) (ok1 h)
    · rw [if_neg h]
      push Not at h
      have : dr.toInt = 0 := by rw [h]; rfl
      rw [this, zero_smul, add_zero]
      exact hd
  by_cases h : dh ≠ 0#8
  · rw [if_pos h]
    obtain ⟨a, b, c⟩ := hh h
    exact mixadd_4w_spec h1 (dynPoint_spec hT a b c) (ok2 h)
  · rw [if_neg h]
    push Not at h
    have : dh.toInt = 0 := by rw [h]; rfl
    rw [this, zero_smul, add_zero]
    exact h1

theorem digitSum_take (l : List Byte) (i : ℕ) :
    digitSum (l.take (i + 1)) = digitSum (l.take i) + 2 ^ i * (l.getD i 0#8).toInt := by
  induction l generalizing i with
  | nil => simp [digitSum]
  | cons d l ih =>
    cases i with
    | zero => simp [digitSum]
    | succ i =>
      simp only [List.take_succ_cons, digitSum, List.getD_cons_succ, ih i]
      ring

theorem dmLoop_spec {T : ℕ → Elt10 V} {A : Pt}
    (hT : ∀ j < 8, IsPreTight (T j) ((2 * j + 1) • A)) {kr kh : List Byte}
    (hr : DigitsOk 7 kr) (hh : DigitsOk 5 kh) : ∀ (i : ℕ) (Q : Elt10 V) (C : Pt), Is4w Q C →
    loopOk T kr kh i Q → Is4w (dmLoop T kr kh i Q)
      ((2 : ℤ) ^ i • C + digitSum (kr.take i) • B + digitSum (kh.take i) • A)
  | 0, Q, C, hQ, _ => by simpa [digitSum, dmLoop] using hQ
  | i + 1, Q, C, hQ, hok => by
    have hs := dmStep_spec hT (fun h => by simpa using hr.get i rfl h)
      (fun h => by simpa using hh.get i rfl h) hQ hok.1
    have := dmLoop_spec hT hr hh i _ _ hs hok.2
    rw [dmLoop]
    convert this using 1
    rw [digitSum_take, digitSum_take, pow_succ]
    module

theorem neutral4w_spec : Is4w neutral4w 0 := by
  refine ⟨0, 1, 1, 0, ⟨by decide +kernel, ?_⟩, ⟨by decide +kernel, ?_⟩, ⟨by decide +kernel, ?_⟩,
    ⟨by decide +kernel, ?_⟩, Edw.Rep.zero one_ne_zero⟩
  · have h : (neutral4w.lane 0).ints.val = 0 := by decide +kernel
    rw [Elt10.toFp, h]; simp
  · have h : (neutral4w.lane 1).ints.val = 1 := by decide +kernel
    rw [Elt10.toFp, h]; simp
  · have h : (neutral4w.lane 2).ints.val = 0 := by decide +kernel
    rw [Elt10.toFp, h]; simp
  · have h : (neutral4w.lane 3).ints.val = 1 := by decide +kernel
    rw [Elt10.toFp, h]; simp

theorem unzip_2w_lanes (A : Elt10 V) : (unzip_2w A).XY.lo.limbs = A.lane 0 ∧
    (unzip_2w A).XY.hi.limbs = A.lane 1 ∧ (unzip_2w A).TZ.lo.limbs = A.lane 2 ∧
    (unzip_2w A).TZ.hi.limbs = A.lane 3 := ⟨rfl, rfl, rfl, rfl⟩

theorem unzip_2w_spec {Q : Elt10 V} {A : Pt} (h : Is4w Q A) : Is2w (unzip_2w Q) A := by
  obtain ⟨x, y, z, t, hx, hy, ht, hz, hR⟩ := h
  obtain ⟨l0, l1, l2, l3⟩ := unzip_2w_lanes Q
  exact ⟨x, y, z, t, l0 ▸ hx, l1 ▸ hy, l3 ▸ hz, l2 ▸ ht, hR⟩

/-- No addition of the whole computation underflows. -/
def DmOk (s h : List Byte) (P : Elt10 V) : Prop :=
  preOk P 7 ∧ loopOk (precompute_4w P) (wnaf_256bits 7 s) (wnaf_256bits 5 h)
    (max (wnaf_256bits 7 s).length (wnaf_256bits 5 h).length) neutral4w

instance (s h : List Byte) (P : Elt10 V) : Decidable (DmOk s h P) := by
  unfold DmOk; infer_instance

/-- The number that the signed digits of width `w` stand for. -/
def wnafNum (w : ℕ) (b : List Byte) : ℤ :=
  (leNat b : ℤ) - if wnafWraps w (leNat b) then 2 ^ 256 else 0

theorem double_point_mult_pt_spec {s h : List Byte} (hs : s.length = 32) (hh : h.length = 32)
    {P : Elt10 V} {A : Pt} (hP : Is4w P A) (hok : DmOk s h P) :
    Is4w (double_point_mult_pt s h P) (wnafNum 7 s • B + wnafNum 5 h • A) := by
  have := dmLoop_spec (fun j hj => precompute_spec hP hok.1 hj)
    (wnaf_digits (by norm_num) (by norm_num) s) (wnaf_digits (by norm_num) (by norm_num) h) _ _ _
    neutral4w_spec hok.2
  rw [List.take_of_length_le (le_max_left _ _), List.take_of_length_le (le_max_right _ _),
    wnaf_sum (by norm_num) (by norm_num) hs, wnaf_sum (by norm_num) (by norm_num) hh, smul_zero,
    zero_add] at this
  exact this

theorem double_point_mult_spec (isa : Isa) {s h : List Byte} (hs : s.length = 32)
    (hh : h.length = 32) {P : Elt10 V} {A : Pt} (hP : Is4w P A) (hok : DmOk s h P) :
    double_point_mult_4w isa s h P = encode (wnafNum 7 s • B + wnafNum 5 h • A) :=
  point_encoding_spec isa (unzip_2w_spec (double_point_mult_pt_spec hs hh hP hok))

end Verif.Ed25519
