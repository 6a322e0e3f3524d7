import Verif.Ed448.MultLemmas

/-! # Concrete points of Ed448, for examples and counterexamples -/

namespace Verif.Ed448

open Verif.Fp448

set_option exponentiation.threshold 2000

namespace NPt

/-- Equality of the images that two quadruples represent. -/
def same (p q : NPt) : Bool := decide (p.X * q.Z % P = q.X * p.Z % P) &&
  decide (p.Y * q.Z % P = q.Y * p.Z % P)

/-- Two quadruples for the same point are proportional. -/
theorem Is.same {p q : NPt} {A : Pt} (hp : p.Is A) (hq : q.Is A) : p.same q = true := by
  obtain ⟨z, x, y, t⟩ := hp
  obtain ⟨z', x', y', t'⟩ := hq
  simp only [NPt.same, Bool.and_eq_true, decide_eq_true_eq]
  constructor
  · apply (ZMod.natCast_eq_natCast_iff _ _ P).1
    rw [Nat.cast_mul, Nat.cast_mul, x, x']; ring
  · apply (ZMod.natCast_eq_natCast_iff _ _ P).1
    rw [Nat.cast_mul, Nat.cast_mul, y, y']; ring

end NPt

/-- The residue of an element, as a number. -/
def resNat (e : Elt16 W) : ℕ := (e.ints.val % P).toNat

theorem resNat_cast (e : Elt16 W) : ((resNat e : ℕ) : Fp) = e.toFp := by
  rw [resNat, Elt16.toFp, ← Int.cast_natCast,
    Int.toNat_of_nonneg (Int.emod_nonneg _ (by decide +kernel))]
  exact (ZMod.intCast_eq_intCast_iff' _ _ P).2 (Int.emod_emod _ _)

theorem natCast_inj_mod {m n : ℕ} (h : (m : Fp) = n) : m % P = n % P :=
  (ZMod.natCast_eq_natCast_iff m n P).1 h

/-! ## A point on which the mixed addition goes below zero -/

/-- The coordinates of the point on the curve. -/
def badAx : ℕ := 696855951778805702493476346131074903253563373982146999777754634960253091069889804476316680823011151648337448529616050356914986369459891
def badAy : ℕ := 573218653051362612825789628950587089251690197593475366856294725100241941585594288359417377231846400709009474871990582492304366001659222

def badA : Pt := ⟨(badAx : Fp), (badAy : Fp), on_nat (by decide +kernel)⟩

/-- The coordinates of its image. -/
def badIx : ℕ := 339472819068547693974222164605974971086254408677680519045665911782269432465038984756161646200073032607910748003217001252723506259822610
def badIy : ℕ := 697644928814473422256343044198067097135295172477305996980255863340540834215183887824099970960448293129057627368202044801962382059822858

theorem badI_is : (⟨badIx, badIy, 1, badIx * badIy % P⟩ : NPt).Is badA :=
  image_nat rfl rfl (by decide +kernel) (by decide +kernel) (by decide +kernel) (by decide +kernel)

/-- Limbs within the bounds the formulas keep, in every lane. -/
def badX {α : Type} [Lane α] : Elt16 α :=
  ⟨LIT 10, LIT 17, LIT 21, LIT 21, LIT 27, LIT 34, LIT 42, LIT 32, LIT 47, LIT 43, LIT 43,
    LIT 14, LIT 37, LIT 30, LIT 62, LIT 17⟩

def badY {α : Type} [Lane α] : Elt16 α :=
  ⟨LIT 2, LIT 268436460, LIT 268435431, LIT 268435414, LIT 17, LIT 268435412, LIT 268435401,
    LIT 268435428, LIT 34, LIT 268436468, LIT 268435408, LIT 268435411, LIT 62, LIT 268435425,
    LIT 268435447, LIT 268435450⟩

def badZ {α : Type} [Lane α] : Elt16 α :=
  ⟨LIT 261629497, LIT 252739811, LIT 230824533, LIT 240570562, LIT 243409744, LIT 96401173,
    LIT 10460904, LIT 65169740, LIT 206267975, LIT 117500683, LIT 15791292, LIT 249181907,
    LIT 139695517, LIT 96479553, LIT 125593012, LIT 73763564⟩

def badT {α : Type} [Lane α] : Elt16 α :=
  ⟨LIT 20268251, LIT 86481791, LIT 246535949, LIT 214788700, LIT 263078107, LIT 2420596,
    LIT 87586813, LIT 144451912, LIT 262027420, LIT 188637252, LIT 159459151, LIT 128395601,
    LIT 130341599, LIT 53951544, LIT 95842130, LIT 59822156⟩

/-- The representation, the same in every lane. -/
def badQ : P4way V := ⟨badX, badY, badZ, badT⟩

theorem badQ_lane (j : ℕ) (hj : j < 4) : badQ.lane j = ⟨badX, badY, badZ, badT⟩ :=
  lane_cases (p := fun j => badQ.lane j = ⟨badX, badY, badZ, badT⟩) rfl rfl rfl rfl j hj

theorem rp_nat {e : Elt16 W} (n : ℕ) (h : e.Le tight) (hv : resNat e % P = n % P) :
    Rp tight e (n : Fp) := ⟨h, by rw [← resNat_cast]; exact natEq hv⟩

/-- The numbers of the representation. -/
def badN : NPt :=
  ⟨46030649844191233918693385697080510488670859288922308600611740259366580685154144148262531943186755781867283023642390738514214922,
    726838710757180569029722646259773362268634686655843405705632474835234419933904557623641853605645677049268392610498729799666329135874050,
    199728515361710267618481005182228784983717734599314653647085497957354507395954435566409864251511532747812445184279800237128793099609657,
    161979570281368149887843983299208485360127693006406020895525131679322982751249040972441451453027760543755651340034873272649463161504987⟩

theorem badN_is : badN.Is badA := by
  obtain ⟨-, x, y, t⟩ := badI_is
  have z0 : ((badN.Z : ℕ) : Fp) ≠ 0 := natNe (by decide +kernel)
  rw [Nat.cast_one, mul_one] at x y t
  refine ⟨z0, ?_, ?_, ?_⟩
  · rw [← x, ← Nat.cast_mul]; exact natEq (by decide +kernel)
  · rw [← y, ← Nat.cast_mul]; exact natEq (by decide +kernel)
  · rw [← x, ← y, ← Nat.cast_mul, ← Nat.cast_mul]; exact natEq (by decide +kernel)

theorem badQ_spec (j : ℕ) (hj : j < 4) : Is4way (badQ.lane j) badA := by
  rw [badQ_lane j hj]
  exact ⟨_, _, _, _, rp_nat badN.X (by decide +kernel) (by decide +kernel),
    rp_nat badN.Y (by decide +kernel) (by decide +kernel),
    rp_nat badN.Z (by decide +kernel) (by decide +kernel),
    rp_nat badN.T (by decide +kernel) (by decide +kernel), badN_is⟩

/-- The table entry: digit 4 in sub-table 18, as the multiplication queries it. -/
def badP : Pre4way V := query_table (LIT 0) (LIT 4) 18

theorem badP_spec (j : ℕ) (hj : j < 4) : IsPre4way (badP.lane j) ((4 : ℕ) • signBase 18) := by
  have h := (query_spec (signs := LIT 0) (digits := LIT 4) (idx := 18) (j := j) (d := 4)
    (neg := false) (by decide) hj (Ed25519.LIT_get 4 j) (by decide)
    (by rw [Ed25519.LIT_get]; rfl)).1
  rwa [signed, if_neg (by decide), natCast_zsmul] at h

theorem badBase_is : (nB.mul 291 (4 * (2 ^ 16) ^ 18)).Is ((4 : ℕ) • signBase 18) := by
  have h := nB_is.mul 291 (4 * (2 ^ 16) ^ 18) (by norm_num)
  rwa [← smul_smul] at h

/-- The result, in numbers. -/
def badR : NPt :=
  let R := (mixadd_4way badQ badP).lane 0
  ⟨resNat R.X, resNat R.Y, resNat R.Z, resNat R.T⟩

/-- The formula returns coordinates of the image of another point, or of none. -/
theorem badMix : ¬ Edw.RepI (badA + (4 : ℕ) • signBase 18)
    ((mixadd_4way badQ badP).lane 0).X.toFp ((mixadd_4way badQ badP).lane 0).Y.toFp
    ((mixadd_4way badQ badP).lane 0).Z.toFp ((mixadd_4way badQ badP).lane 0).T.toFp := by
  intro h
  have h1 : badR.Is (badA + (4 : ℕ) • signBase 18) := by
    unfold NPt.Is badR
    simp only [resNat_cast]
    exact h
  have h2 := h1.same (badN_is.add badBase_is)
  revert h2
  decide +kernel

/-! ## The same over four lanes -/

/-- One element in each lane. -/
def ofLanes (a b c d : Elt16 W) : Elt16 V :=
  ⟨⟨a.r0, b.r0, c.r0, d.r0⟩, ⟨a.r1, b.r1, c.r1, d.r1⟩, ⟨a.r2, b.r2, c.r2, d.r2⟩,
    ⟨a.r3, b.r3, c.r3, d.r3⟩, ⟨a.r4, b.r4, c.r4, d.r4⟩, ⟨a.r5, b.r5, c.r5, d.r5⟩,
    ⟨a.r6, b.r6, c.r6, d.r6⟩, ⟨a.r7, b.r7, c.r7, d.r7⟩, ⟨a.r8, b.r8, c.r8, d.r8⟩,
    ⟨a.r9, b.r9, c.r9, d.r9⟩, ⟨a.r10, b.r10, c.r10, d.r10⟩, ⟨a.r11, b.r11, c.r11, d.r11⟩,
    ⟨a.r12, b.r12, c.r12, d.r12⟩, ⟨a.r13, b.r13, c.r13, d.r13⟩, ⟨a.r14, b.r14, c.r14, d.r14⟩,
    ⟨a.r15, b.r15, c.r15, d.r15⟩⟩

/-- The representation [X|Y|T|Z] of the same point. -/
def badQ4 : Elt16 V := ofLanes badX badY badT badZ

/-- The precomputed form [y-x|y+x|2d'xy|2] of the same table entry. -/
def badP4 : Elt16 V := ofLanes (limbs7 (signWords 18 1 4)) (limbs7 (signWords 18 0 4))
  (limbs7 (signWords 18 2 4)) two16

theorem badQ4_spec : Is4w badQ4 badA :=
  ⟨_, _, _, _, rp_nat badN.X (by decide +kernel) (by decide +kernel),
    rp_nat badN.Y (by decide +kernel) (by decide +kernel),
    rp_nat badN.T (by decide +kernel) (by decide +kernel),
    rp_nat badN.Z (by decide +kernel) (by decide +kernel), badN_is⟩

theorem badP4_spec : IsPre4w badP4 ((4 : ℕ) • signBase 18) := by
  obtain ⟨n, hn, ho⟩ := table_entry 18 4 (by decide) (by decide) (by decide)
  simp only [entryOk, Bool.and_eq_true, decide_eq_true_eq] at ho
  have oC : leB canonB preB = true := by decide +kernel
  exact ⟨_, _, _, _, (limbs7_rp _).mono oC, (limbs7_rp _).mono oC, (limbs7_rp _).mono oC,
    two16_rp.mono tight_preB, isPre_spec hn ho.1⟩

/-- The result, in numbers. -/
def badR4 : NPt :=
  let R := mixadd_4w badQ4 badP4
  ⟨resNat (R.lane 0), resNat (R.lane 1), resNat (R.lane 3), resNat (R.lane 2)⟩

theorem badMix4 : ¬ Edw.RepI (badA + (4 : ℕ) • signBase 18)
    ((mixadd_4w badQ4 badP4).lane 0).toFp ((mixadd_4w badQ4 badP4).lane 1).toFp
    ((mixadd_4w badQ4 badP4).lane 3).toFp ((mixadd_4w badQ4 badP4).lane 2).toFp := by
  intro h
  have h1 : badR4.Is (badA + (4 : ℕ) • signBase 18) := by
    unfold NPt.Is badR4
    simp only [resNat_cast]
    exact h
  have h2 := h1.same (badN_is.add badBase_is)
  revert h2
  decide +kernel

end Verif.Ed448
