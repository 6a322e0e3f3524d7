import Verif.Ed448.Mult
import Verif.Ed448.Curve
import Verif.Ed448.PointLemmas4
import Verif.Fp448.RedSer
import Verif.Ed25519.WitnessSign -- only to keep two large evaluations from running at once

/-! # The signing table of Ed448 holds multiples of the base point: helper lemmas -/

namespace Verif.Ed448

open Verif.Fp448

set_option exponentiation.threshold 2000

/-- The number in seven words. -/
def num7 (n : ℕ → W) : ℕ :=
  (n 0).toNat + 2 ^ 64 * (n 1).toNat + 2 ^ 128 * (n 2).toNat + 2 ^ 192 * (n 3).toNat +
  2 ^ 256 * (n 4).toNat + 2 ^ 320 * (n 5).toNat + 2 ^ 384 * (n 6).toNat

/-- The limbs of seven words, in one lane of `ofWords7`. -/
def limbs7 (n : ℕ → W) : Elt16 W :=
  let m : W := LIT (2 ^ 28 - 1)
  ⟨n 0 &&& m, (n 0 >>> 28) &&& m, ((n 0 >>> 56) ^^^ (n 1 <<< 8)) &&& m, (n 1 >>> 20) &&& m,
    ((n 1 >>> 48) ^^^ (n 2 <<< 16)) &&& m, (n 2 >>> 12) &&& m,
    ((n 2 >>> 40) ^^^ (n 3 <<< 24)) &&& m, (n 3 >>> 4) &&& m, (n 3 >>> 32) &&& m,
    ((n 3 >>> 60) ^^^ (n 4 <<< 4)) &&& m, (n 4 >>> 24) &&& m,
    ((n 4 >>> 52) ^^^ (n 5 <<< 12)) &&& m, (n 5 >>> 16) &&& m,
    ((n 5 >>> 44) ^^^ (n 6 <<< 20)) &&& m, (n 6 >>> 8) &&& m, (n 6 >>> 36) &&& m⟩

theorem ofWords7_lane (n : ℕ → V) : ∀ j < 4, (ofWords7 n).lane j = limbs7 fun i => (n i).get j :=
  lane_cases rfl rfl rfl rfl

theorem xor_glue (x y : W) (s t : ℕ) (h : s + t = 64) :
    (x >>> s) ^^^ (y <<< t) = (x >>> s) ||| (y <<< t) := by
  ext i hi
  simp only [BitVec.getElem_xor, BitVec.getElem_or, BitVec.getElem_shiftLeft,
    BitVec.getElem_ushiftRight]
  by_cases k : i < t
  · simp [k]
  · rw [BitVec.getLsbD_of_ge x (s + i) (by omega)]; simp

theorem limbs7_nat (n : ℕ → W) : (limbs7 n).map BitVec.toNat =
    let w0 := (n 0).toNat
    let w1 := (n 1).toNat
    let w2 := (n 2).toNat
    let w3 := (n 3).toNat
    let w4 := (n 4).toNat
    let w5 := (n 5).toNat
    let w6 := (n 6).toNat
    ⟨w0 % 2 ^ 28, w0 / 2 ^ 28 % 2 ^ 28, w0 / 2 ^ 56 + 2 ^ 8 * (w1 % 2 ^ 20), w1 / 2 ^ 20 % 2 ^ 28,
      w1 / 2 ^ 48 + 2 ^ 16 * (w2 % 2 ^ 12), w2 / 2 ^ 12 % 2 ^ 28,
      w2 / 2 ^ 40 + 2 ^ 24 * (w3 % 2 ^ 4), w3 / 2 ^ 4 % 2 ^ 28, w3 / 2 ^ 32 % 2 ^ 28,
      w3 / 2 ^ 60 + 2 ^ 4 * (w4 % 2 ^ 24), w4 / 2 ^ 24 % 2 ^ 28,
      w4 / 2 ^ 52 + 2 ^ 12 * (w5 % 2 ^ 16), w5 / 2 ^ 16 % 2 ^ 28,
      w5 / 2 ^ 44 + 2 ^ 20 * (w6 % 2 ^ 8), w6 / 2 ^ 8 % 2 ^ 28, w6 / 2 ^ 36 % 2 ^ 28⟩ := by
  have em : (LIT (2 ^ 28 - 1) : W) = (1#64 <<< 28) - 1#64 := by decide
  have key : ∀ (x : W) (k : ℕ), ((x >>> k) &&& ((1#64 <<< 28) - 1#64)).toNat =
      x.toNat / 2 ^ k % 2 ^ 28 := fun x k => by
    rw [toNat_mask28, BitVec.toNat_ushiftRight, Nat.shiftRight_eq_div_pow]
  have glue : ∀ (x y : W) (s t : ℕ) (h : s + t = 64) (ht : 0 < t) (hs : t < 28),
      (((x >>> s) ^^^ (y <<< t)) &&& ((1#64 <<< 28) - 1#64)).toNat =
      x.toNat / 2 ^ s + 2 ^ t * (y.toNat % 2 ^ (28 - t)) := fun x y s t h ht hs => by
    rw [xor_glue x y s t h]; exact toNat_glue x y s t h ht hs
  simp only [limbs7, Elt16.map, em, key, toNat_mask28]
  ext <;> dsimp only
  · exact (toNat_mask28 _).symm.trans (glue _ _ 56 8 rfl (by norm_num) (by norm_num))
  · exact (toNat_mask28 _).symm.trans (glue _ _ 48 16 rfl (by norm_num) (by norm_num))
  · exact (toNat_mask28 _).symm.trans (glue _ _ 40 24 rfl (by norm_num) (by norm_num))
  · exact (toNat_mask28 _).symm.trans (glue _ _ 60 4 rfl (by norm_num) (by norm_num))
  · exact (toNat_mask28 _).symm.trans (glue _ _ 52 12 rfl (by norm_num) (by norm_num))
  · exact (toNat_mask28 _).symm.trans (glue _ _ 44 20 rfl (by norm_num) (by norm_num))

/-- The value and the bounds of the limbs. -/
theorem limbs7_rp (n : ℕ → W) : Rp canonB (limbs7 n) ((num7 n : ℕ) : Fp) := by
  have e := limbs7_nat n
  simp only [Elt16.map, Elt16.mk.injEq] at e
  obtain ⟨e0, e1, e2, e3, e4, e5, e6, e7, e8, e9, e10, e11, e12, e13, e14, e15⟩ := e
  have l0 := (n 0).isLt; have l1 := (n 1).isLt
  have l2 := (n 2).isLt; have l3 := (n 3).isLt
  have l4 := (n 4).isLt; have l5 := (n 5).isLt
  have l6 := (n 6).isLt
  constructor
  · simp only [Elt16.Le, canonB, bnd, e0, e1, e2, e3, e4, e5, e6, e7, e8, e9,
      e10, e11, e12, e13, e14, e15]
    have k : ∀ x : ℕ, x % 2 ^ 28 ≤ 2 ^ 28 - 1 := fun x => by omega
    exact ⟨k _, k _, by omega, k _, by omega, k _, by omega, k _, k _, by omega, k _, by omega,
      k _, by omega, k _, k _⟩
  · unfold Elt16.toFp
    rw [← Int.cast_natCast]
    congr 1
    simp only [num7, Elt16.val, Elt16.ints, Elt16.map, e0, e1, e2, e3, e4, e5, e6, e7, e8, e9,
      e10, e11, e12, e13, e14, e15]
    push_cast
    exact split_words _ _ _ _ _ _ _ ⟨by omega, by omega⟩

/-! ## The entries -/

/-- Three numbers are y + x, y - x and 2d'xy of the image of the point. -/
def isPre (n : NPt) (a s t : ℕ) : Bool :=
  decide (NPt.sub a s * n.Z % P = 2 * n.X % P) && decide ((a + s) * n.Z % P = 2 * n.Y % P) &&
  decide (t * n.Z % P = 2 * dI * n.T % P)

theorem isPre_spec {n : NPt} {A : Pt} (hn : n.Is A) {a s t : ℕ} (h : isPre n a s t = true) :
    Edw.PreI A (a : Fp) (s : Fp) (t : Fp) 2 := by
  simp only [isPre, Bool.and_eq_true, decide_eq_true_eq] at h
  obtain ⟨⟨h1, h2⟩, h3⟩ := h
  have h1 := natEq h1
  have h2 := natEq h2
  have h3 := natEq h3
  obtain ⟨z, x, y, t'⟩ := hn
  rw [Nat.cast_mul, NPt.sub_cast, Nat.cast_mul, x] at h1
  rw [Nat.cast_mul, Nat.cast_add, Nat.cast_mul, y] at h2
  rw [Nat.cast_mul, Nat.cast_mul, Nat.cast_mul, t', dI_cast] at h3
  push_cast at h1 h2 h3
  have e1 : (a : Fp) - s = 2 * A.phiX := mul_right_cancel₀ z (by linear_combination h1)
  have e2 : (a : Fp) + s = 2 * A.phiY := mul_right_cancel₀ z (by linear_combination h2)
  have e3 : (t : Fp) = 2 * (curve.d - 1) * (A.phiX * A.phiY) := mul_right_cancel₀ z (by
    rw [h3]; ring)
  have two := two_ne
  refine ⟨1, one_ne_zero, ?_, ?_, ?_, by ring⟩
  · apply mul_left_cancel₀ two; linear_combination e1 + e2
  · apply mul_left_cancel₀ two; linear_combination e2 - e1
  · rw [e3]; ring

/-- The words of component `c` of the multiple `m` in sub-table `idx`. -/
def signWords (idx c m : ℕ) (j : ℕ) : W := signWord idx (24 * j + 3 * (m - 1) + c)

/-- The entry for the multiple `m` is right; limb 8 of its third component is not the largest
one. -/
def entryOk (n : NPt) (idx m : ℕ) : Bool :=
  isPre n (num7 (signWords idx 0 m)) (num7 (signWords idx 1 m)) (num7 (signWords idx 2 m)) &&
  decide ((limbs7 (signWords idx 2 m)).r8.toNat ≤ 0xffffffe)

/-- The entries for the multiples `m + 1`, ..., `m + fuel` are right, `n` being `m` times `base`. -/
def entriesOk (base : NPt) (idx : ℕ) : ℕ → ℕ → NPt → Bool
  | 0, _, _ => true
  | fuel + 1, m, n =>
    let n := n.add base
    entryOk n idx (m + 1) && entriesOk base idx fuel (m + 1) n

theorem entriesOk_spec {base : NPt} {A : Pt} (hb : base.Is A) (idx : ℕ) :
    ∀ (fuel m : ℕ) (n : NPt), n.Is (m • A) → entriesOk base idx fuel m n = true →
      ∀ k, m < k → k ≤ m + fuel → ∃ n' : NPt, n'.Is (k • A) ∧ entryOk n' idx k = true
  | 0, m, n, _, _, k, h1, h2 => by omega
  | fuel + 1, m, n, hn, h, k, h1, h2 => by
    rw [entriesOk, Bool.and_eq_true] at h
    have hn' : (n.add base).Is ((m + 1) • A) := by rw [add_smul, one_smul]; exact hn.add hb
    by_cases hk : k = m + 1
    · subst hk; exact ⟨_, hn', h.1⟩
    · exact entriesOk_spec hb idx fuel (m + 1) _ hn' h.2 k (by omega) (by omega)

/-- All sub-tables from `idx` on are right. -/
def tablesOk : ℕ → ℕ → NPt → Bool
  | 0, _, _ => true
  | fuel + 1, idx, n =>
    entriesOk n idx 8 0 ⟨0, 1, 1, 0⟩ && tablesOk fuel (idx + 1) (n.mul 17 (2 ^ 16))

theorem tablesOk_spec : ∀ (fuel idx : ℕ) (n : NPt) (A : Pt), n.Is A →
    tablesOk fuel idx n = true → ∀ i < fuel, ∀ m, 0 < m → m ≤ 8 →
      (∃ n : NPt, n.Is (m • (2 ^ 16) ^ i • A) ∧ entryOk n (idx + i) m = true)
  | 0, _, _, _, _, _, i, hi, _, _, _ => by omega
  | fuel + 1, idx, n, A, h0, h, i, hi, m, m0, m8 => by
    rw [tablesOk, Bool.and_eq_true] at h
    obtain ⟨k0, k2⟩ := h
    match i with
    | 0 =>
      have z0 : (⟨0, 1, 1, 0⟩ : NPt).Is (0 • A) := by rw [zero_smul]; exact NPt.Is.zero
      rw [pow_zero, one_smul]
      exact entriesOk_spec h0 idx 8 0 _ z0 k0 m m0 (by omega)
    | i + 1 =>
      have := tablesOk_spec fuel (idx + 1) _ _ (h0.mul 17 (2 ^ 16) (by norm_num)) k2 i (by omega) m
        m0 m8
      rw [smul_smul ((2 ^ 16) ^ i), ← pow_succ] at this
      rwa [show idx + (i + 1) = idx + 1 + i by ring]

theorem NPt.ext' : ∀ {p q : NPt}, p.X = q.X → p.Y = q.Y → p.Z = q.Z → p.T = q.T → p = q := by
  rintro ⟨⟩ ⟨⟩ rfl rfl rfl rfl; rfl

/-- Coordinates of 2^112 times the image of the base point. -/
def nB7 : NPt :=
  ⟨52649507061628454811347477701436288618931180476327655644258344966853836980996722016731102290987808077364551737633835631121251773216414,
   159396463282229370277041980847339014561890583961553365808361328293971667177775894468403515088667861141402189044952519228079752148028873,
   634470799275210236719960159436938118052795641372411590915824852875644866616114951638181316147752311676015049182309840654107810443377832,
   514208756163657923748312432407954282475250301894105021955659246347210304157158725061264514128439780988480633684276574416908352990425460⟩

/-- Coordinates of 2^224 times the image of the base point. -/
def nB14 : NPt :=
  ⟨61308886950296419836873142232840065708433811557294476251499571468237809832480385219651373014853827421137148695061719906565265167547181,
   74683772615580148919614044298220011544852460974683811429143193611582097438956227337522739344129324181067210064914981145044065542048630,
   574320097426052134933480676701752807633082743354749767931354968519460309383501794708750133691159493582866021255325278400246636967654818,
   49371891454666763506106846943693569556069262317178937893540106825227545312977144894479077229516137305598642261441904197064161773137888⟩

/-- Coordinates of 2^336 times the image of the base point. -/
def nB21 : NPt :=
  ⟨18442787500720212490100666936122523456205357981943077528923478325356487961887291977596719147154065374529055413302171393568931033062940,
   502184139326565475300269783552305795468317336171992826713414558985583404826479885259173524692102290324027568776350715979804042520838058,
   252273416379141920205950696491209431295772013868412538149337256966241996518168127794372425816770243676963293469474110324036749537407939,
   432266650667528018577544730813797003352453779517666207040979745565040357580996050514824343789875449946065807574546629836017225044335995⟩

theorem nB7_is : nB7.Is ((2 ^ 16) ^ 7 • B) := by
  have h := nB_is.mul 113 (2 ^ 112) (by norm_num)
  have e : nB.mul 113 (2 ^ 112) = nB7 := NPt.ext' (by decide +kernel) (by decide +kernel)
    (by decide +kernel) (by decide +kernel)
  rw [e] at h
  rwa [← pow_mul]

theorem nB14_is : nB14.Is ((2 ^ 16) ^ 14 • B) := by
  have h := nB7_is.mul 113 (2 ^ 112) (by norm_num)
  have e : nB7.mul 113 (2 ^ 112) = nB14 := NPt.ext' (by decide +kernel) (by decide +kernel)
    (by decide +kernel) (by decide +kernel)
  rw [e, ← pow_mul, smul_smul, ← pow_add] at h
  rwa [← pow_mul]

theorem nB21_is : nB21.Is ((2 ^ 16) ^ 21 • B) := by
  have h := nB14_is.mul 113 (2 ^ 112) (by norm_num)
  have e : nB14.mul 113 (2 ^ 112) = nB21 := NPt.ext' (by decide +kernel) (by decide +kernel)
    (by decide +kernel) (by decide +kernel)
  rw [e, ← pow_mul, smul_smul, ← pow_add] at h
  rwa [← pow_mul]

theorem tables_ok_0 : tablesOk 7 0 nB = true := by decide +kernel
theorem tables_ok_7 : tablesOk 7 7 nB7 = true := by decide +kernel
theorem tables_ok_14 : tablesOk 7 14 nB14 = true := by decide +kernel
theorem tables_ok_21 : tablesOk 7 21 nB21 = true := by decide +kernel

/-- The base of sub-table `i`. -/
def signBase (i : ℕ) : Pt := (2 ^ 16) ^ i • B

theorem table_entry (i m : ℕ) (hi : i < 28) (h0 : 0 < m) (h8 : m ≤ 8) :
    ∃ n : NPt, n.Is (m • signBase i) ∧ entryOk n i m = true := by
  have key : ∀ (k : ℕ) (n : NPt), n.Is ((2 ^ 16) ^ k • B) → tablesOk 7 k n = true → k ≤ i →
      i < k + 7 → ∃ n : NPt, n.Is (m • signBase i) ∧ entryOk n i m = true := by
    intro k n hn hk h1 h2
    have h := tablesOk_spec 7 k n _ hn hk (i - k) (by omega) m h0 h8
    rwa [show k + (i - k) = i by omega, smul_smul ((2 ^ 16) ^ (i - k)), ← pow_add,
      show i - k + k = i by omega] at h
  by_cases c1 : i < 7
  · exact key 0 nB (by rw [pow_zero, one_smul]; exact nB_is) tables_ok_0 (by omega) (by omega)
  by_cases c2 : i < 14
  · exact key 7 nB7 nB7_is tables_ok_7 (by omega) (by omega)
  by_cases c3 : i < 21
  · exact key 14 nB14 nB14_is tables_ok_14 (by omega) (by omega)
  · exact key 21 nB21 nB21_is tables_ok_21 (by omega) (by omega)

/-! ## Entries for which the mixed addition cannot go below zero -/

/-- The entry passes the check for the digit `m` (`neg = false`) or `-m` (`neg = true`). -/
def entryGap (idx m : ℕ) (neg : Bool) : Bool :=
  let a := (limbs7 (signWords idx 0 m)).ints
  let s := (limbs7 (signWords idx 1 m)).ints
  if neg then gapOk a s else gapOk s a

/-- The four exceptions: a sub-table and a digit. -/
def excluded (idx : ℕ) (digit : ℤ) : Bool :=
  decide (idx = 5 ∧ digit = 4) || decide (idx = 18 ∧ digit = 4) || decide (idx = 20 ∧ digit = -3) ||
    decide (idx = 27 ∧ digit = -3)

/-- All entries of sub-table `idx`, from `m + 1` on. -/
def subtableGap (idx : ℕ) : ℕ → Bool
  | 0 => true
  | m + 1 => (excluded idx (m + 1) || entryGap idx (m + 1) false) &&
      (excluded idx (-(m + 1)) || entryGap idx (m + 1) true) && subtableGap idx m

theorem subtableGap_spec (idx : ℕ) : ∀ fuel, subtableGap idx fuel = true → ∀ m, 0 < m → m ≤ fuel →
    (excluded idx m = false → entryGap idx m false = true) ∧
    (excluded idx (-m) = false → entryGap idx m true = true)
  | 0, _, m, h1, h2 => by omega
  | fuel + 1, h, m, h1, h2 => by
    rw [subtableGap, Bool.and_eq_true, Bool.and_eq_true, Bool.or_eq_true, Bool.or_eq_true] at h
    by_cases hm : m = fuel + 1
    · subst hm
      refine ⟨fun k => h.1.1.resolve_left ?_, fun k => h.1.2.resolve_left ?_⟩
      · push_cast at k; rw [k]; decide
      · push_cast at k; rw [k]; decide
    · exact subtableGap_spec idx fuel h.2 m h1 (by omega)

theorem gaps_ok_0 : ∀ idx : Fin 4, subtableGap (0 + idx) 8 = true := by decide +kernel
theorem gaps_ok_4 : ∀ idx : Fin 4, subtableGap (4 + idx) 8 = true := by decide +kernel
theorem gaps_ok_8 : ∀ idx : Fin 4, subtableGap (8 + idx) 8 = true := by decide +kernel
theorem gaps_ok_12 : ∀ idx : Fin 4, subtableGap (12 + idx) 8 = true := by decide +kernel
theorem gaps_ok_16 : ∀ idx : Fin 4, subtableGap (16 + idx) 8 = true := by decide +kernel
theorem gaps_ok_20 : ∀ idx : Fin 4, subtableGap (20 + idx) 8 = true := by decide +kernel
theorem gaps_ok_24 : ∀ idx : Fin 4, subtableGap (24 + idx) 8 = true := by decide +kernel

theorem gaps_ok (idx : ℕ) (h : idx < 28) : subtableGap idx 8 = true := by
  have key : ∀ k, (∀ i : Fin 4, subtableGap (k + i) 8 = true) → k ≤ idx → idx < k + 4 →
      subtableGap idx 8 = true := by
    intro k hk h1 h2
    have := hk ⟨idx - k, by omega⟩
    rwa [show k + (idx - k) = idx by omega] at this
  have : idx < 4 ∨ (4 ≤ idx ∧ idx < 8) ∨ (8 ≤ idx ∧ idx < 12) ∨ (12 ≤ idx ∧ idx < 16) ∨
    (16 ≤ idx ∧ idx < 20) ∨ (20 ≤ idx ∧ idx < 24) ∨ 24 ≤ idx := by omega
  rcases this with h | h | h | h | h | h | h
  · exact key 0 gaps_ok_0 (by omega) (by omega)
  · exact key 4 gaps_ok_4 (by omega) (by omega)
  · exact key 8 gaps_ok_8 (by omega) (by omega)
  · exact key 12 gaps_ok_12 (by omega) (by omega)
  · exact key 16 gaps_ok_16 (by omega) (by omega)
  · exact key 20 gaps_ok_20 (by omega) (by omega)
  · exact key 24 gaps_ok_24 (by omega) (by omega)

theorem entryGap_of (idx m : ℕ) (hi : idx < 28) (h0 : 0 < m) (h8 : m ≤ 8) :
    (excluded idx m = false → entryGap idx m false = true) ∧
    (excluded idx (-m) = false → entryGap idx m true = true) :=
  subtableGap_spec idx 8 (gaps_ok idx hi) m h0 h8

end Verif.Ed448
