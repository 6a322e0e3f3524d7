import Verif.Fp448.RedRep

/-! # Reduced-radix operations: bounds and residues, operation by operation -/

namespace Verif.Fp448

set_option exponentiation.threshold 2000

section R1
variable {m : Elt16 ℕ} {a b : Elt8 U} {x y : Fp}

theorem Rp.sq (h : Rp tight a.limbs x) : Rp sq1 a.limbs x := h.mono (by decide)

theorem Rp.r1mul (ha : Rp sq1 a.limbs x) (hb : Rp sq1 b.limbs y) :
    Rp tight (R1.mul a b).limbs (x * y) := (ha.r1intmul hb okM1).r2compress okC

theorem Rp.r1mulD (ha : Rp sum2 a.limbs x) (hb : Rp diff2 b.limbs y) :
    Rp tight (R1.mul a b).limbs (x * y) := (ha.r1intmul hb okM1D).r2compress okC

theorem Rp.r1sqrn (ha : Rp sq1 a.limbs x) (n : ℕ) :
    Rp sq1 (R1.sqrn a n).limbs (x ^ 2 ^ n) := by
  induction n generalizing a x with
  | zero => exact ha.cast (by simp)
  | succ n ih =>
    have h := ih ((ha.r1sqrRaw okQ).r1compressfast okQ2)
    exact h.cast (by rw [← pow_two, ← pow_mul, pow_succ, mul_comm 2])

theorem Rp.r2mul (ha : Rp tight a.limbs x) (hb : Rp tight b.limbs y) :
    Rp tight (R2.mul a b).limbs (x * y) := (ha.r2intmul hb okT).r2compress okC

theorem Rp.r2mulSD (ha : Rp sum2 a.limbs x) (hb : Rp diff2 b.limbs y) :
    Rp tight (R2.mul a b).limbs (x * y) := (ha.r2intmul hb okSD).r2compress okC

theorem Rp.r2sqr (ha : Rp sum2 a.limbs x) : Rp tight (R2.sqr a).limbs (x ^ 2) :=
  ((ha.r2intsqr okSS).r2compress okC).cast (pow_two x).symm

theorem okAdd : okLe (R2.add (ivs tight).pack (ivs tight).pack).limbs sum2 = true := by
  decide +kernel
theorem okSub : okLe (R2.sub (ivs tight).pack (ivs tight).pack).limbs diff2 = true := by
  decide +kernel
theorem okNeg : okLe (R1.neg (ivs tight).pack).limbs diff2 = true := by decide +kernel

theorem Rp.add (ha : Rp tight a.limbs x) (hb : Rp tight b.limbs y) :
    Rp sum2 (R2.add a b).limbs (x + y) := ha.r2add hb okAdd
theorem Rp.sub (ha : Rp tight a.limbs x) (hb : Rp tight b.limbs y) :
    Rp diff2 (R2.sub a b).limbs (x - y) := ha.r2sub hb okSub
theorem Rp.neg (ha : Rp tight a.limbs x) : Rp diff2 (R1.neg a).limbs (-x) := ha.r1neg okNeg

theorem Rp.diff (h : Rp tight a.limbs x) : Rp diff2 a.limbs x := h.mono (by decide)
theorem Rp.sum (h : Rp tight a.limbs x) : Rp sum2 a.limbs x := h.mono (by decide)
theorem Rp.sumdiff (h : Rp sum2 a.limbs x) : Rp diff2 a.limbs x := h.mono (by decide)

/-! ## Inversion -/

variable {α : Type}

/-- The chain of multiplications and squarings of `invsqrt`, over any carrier. -/
def srtChain (m : α → α → α) (s : α → ℕ → α) (a : α) : α :=
  let t1 := m (s a 1) a
  let t0 := m (s t1 1) a
  let t1 := m (s t0 3) t0
  let t2 := m (s t1 6) t1
  let t1 := m (s t2 12) t2
  let t1 := m (s t1 3) t0
  let t2 := m (s t1 27) t1
  let t1 := m (s t2 54) t2
  let t1 := m (s t1 3) t0
  let t2 := m (s t1 111) t1
  let t1 := m (s t2 1) a
  m (s t1 223) t2

theorem srtChain_rel {β : Type} {m : α → α → α} {s : α → ℕ → α} {m' : β → β → β} {s' : β → ℕ → β}
    {R S : α → β → Prop} (hRS : ∀ {a x}, S a x → R a x)
    (hm : ∀ {a b x y}, R a x → R b y → S (m a b) (m' x y))
    (hs : ∀ {a x} n, R a x → R (s a n) (s' x n)) {a : α} {x : β} (h : R a x) :
    S (srtChain m s a) (srtChain m' s' x) := by
  have h1 := hRS (hm (hs 1 h) h)
  have h0 := hRS (hm (hs 1 h1) h)
  have h1 := hRS (hm (hs 3 h0) h0)
  have h2 := hRS (hm (hs 6 h1) h1)
  have h1 := hRS (hm (hs 12 h2) h2)
  have h1 := hRS (hm (hs 3 h1) h0)
  have h2 := hRS (hm (hs 27 h1) h1)
  have h1 := hRS (hm (hs 54 h2) h2)
  have h1 := hRS (hm (hs 3 h1) h0)
  have h2 := hRS (hm (hs 111 h1) h1)
  have h1 := hRS (hm (hs 1 h2) h)
  exact hm (hs 223 h1) h2

theorem srtChain_monoid {M : Type} [Monoid M] (x : M) :
    srtChain (· * ·) (fun y n => y ^ 2 ^ n) x = x ^ 181709681073901722637330951972001133588410340171829515070372549795153082041682693171599095924669136482522221115460909340263374504591359 := by
  simp only [srtChain]
  simp only [← pow_mul, ← pow_succ, ← pow_add]
  norm_num only

theorem srtChain_pow (x : Fp) :
    srtChain (· * ·) (fun y n => y ^ 2 ^ n) x = x ^ ((P - 3) / 4) := by
  rw [srtChain_monoid]
  norm_num only

theorem R1_srt_eq (a : Elt8 U) : R1.srt a = srtChain R1.mul R1.sqrn a := rfl

theorem Rp.r1srt (ha : Rp sq1 a.limbs x) :
    Rp tight (R1.srt a).limbs (x ^ ((P - 3) / 4)) := by
  rw [R1_srt_eq, ← srtChain_pow]
  exact srtChain_rel (R := fun (a : Elt8 U) x => Rp sq1 a.limbs x)
    (S := fun (a : Elt8 U) x => Rp tight a.limbs x)
    (fun h => h.sq) (fun h k => h.r1mul k) (fun n h => h.r1sqrn n) ha

theorem Rp.r1inv (ha : Rp sq1 a.limbs x) : Rp tight (R1.inv a).limbs x⁻¹ := by
  have h := (ha.r1srt.sq.r1sqrn 2).r1mul ha
  refine Rp.cast (e := (R1.inv a).limbs) h ?_
  rw [← fermat_inv, ← pow_mul, ← pow_succ]
  norm_num only

end R1

/-! ## The halves of the two-way operations -/

theorem R2_intmul_lo (a b : Elt8 V) : (R2.intmul a b).lo = R2.intmul a.lo b.lo := rfl
theorem R2_intmul_hi (a b : Elt8 V) : (R2.intmul a b).hi = R2.intmul a.hi b.hi := rfl
theorem R2_intsqr_lo (a : Elt8 V) : (R2.intsqr a).lo = R2.intsqr a.lo := rfl
theorem R2_intsqr_hi (a : Elt8 V) : (R2.intsqr a).hi = R2.intsqr a.hi := rfl
theorem R2_compress_lo (a : Elt8 V) : (R2.compress a).lo = R2.compress a.lo := rfl
theorem R2_compress_hi (a : Elt8 V) : (R2.compress a).hi = R2.compress a.hi := rfl
theorem R2_compressfast_lo (a : Elt8 V) : (R2.compressfast a).lo = R2.compressfast a.lo := rfl
theorem R2_compressfast_hi (a : Elt8 V) : (R2.compressfast a).hi = R2.compressfast a.hi := rfl
theorem R2_compress2_eq (a b : Elt8 V) : R2.compress2 a b = (R2.compress a, R2.compress b) := rfl
theorem R2_add_lo (a b : Elt8 V) : (R2.add a b).lo = R2.add a.lo b.lo := rfl
theorem R2_add_hi (a b : Elt8 V) : (R2.add a b).hi = R2.add a.hi b.hi := rfl
theorem R2_sub_lo (a b : Elt8 V) : (R2.sub a b).lo = R2.sub a.lo b.lo := rfl
theorem R2_sub_hi (a b : Elt8 V) : (R2.sub a b).hi = R2.sub a.hi b.hi := rfl
theorem R2_mul_lo (a b : Elt8 V) : (R2.mul a b).lo = R2.mul a.lo b.lo := rfl
theorem R2_mul_hi (a b : Elt8 V) : (R2.mul a b).hi = R2.mul a.hi b.hi := rfl
theorem R2_sqr_lo (a : Elt8 V) : (R2.sqr a).lo = R2.sqr a.lo := rfl
theorem R2_sqr_hi (a : Elt8 V) : (R2.sqr a).hi = R2.sqr a.hi := rfl
theorem R2_inter_lo (a b : Elt8 U) : (R2.inter a b).lo = a := rfl
theorem R2_inter_hi (a b : Elt8 U) : (R2.inter a b).hi = b := rfl
theorem R2_deinter (a : Elt8 V) : R2.deinter a = (a.lo, a.hi) := rfl
theorem R1_add_eq {α : Type} [Simd α] (a b : Elt8 α) : R1.add a b = R2.add a b := rfl
theorem R1_sub_eq {α : Type} [Simd α] (a b : Elt8 α) : R1.sub a b = R2.sub a b := rfl
theorem R2_addsub_eq {α : Type} [Simd α] (a b : Elt8 α) :
    R2.addsub a b = (R2.add a b, R2.sub a b) := rfl

/-! ## The lanes of the four-way operations -/

/-- The element in lane `i` of a four-way element. -/
def Elt16.lane (e : Elt16 V) (i : ℕ) : Elt16 W := e.map fun v => v.get i

theorem lane_cases {p : ℕ → Prop} (h0 : p 0) (h1 : p 1) (h2 : p 2) (h3 : p 3) :
    ∀ i < 4, p i := by
  intro i hi
  match i, hi with
  | 0, _ => exact h0
  | 1, _ => exact h1
  | 2, _ => exact h2
  | 3, _ => exact h3

theorem R4_intmul_lane (a b : Elt16 V) : ∀ i < 4, (R4.intmul a b).lane i = R4.intmul (a.lane i) (b.lane i) :=
  lane_cases rfl rfl rfl rfl
theorem R4_intsqr_lane (a : Elt16 V) : ∀ i < 4, (R4.intsqr a).lane i = R4.intsqr (a.lane i) :=
  lane_cases rfl rfl rfl rfl
theorem R4_compress_lane (a : Elt16 V) : ∀ i < 4, (R4.compress a).lane i = R4.compress (a.lane i) :=
  lane_cases rfl rfl rfl rfl
theorem R4_compressfast_lane (a : Elt16 V) :
    ∀ i < 4, (R4.compressfast a).lane i = R4.compressfast (a.lane i) :=
  lane_cases rfl rfl rfl rfl
theorem R4_add_lane (a b : Elt16 V) : ∀ i < 4, (R4.add a b).lane i = R4.add (a.lane i) (b.lane i) :=
  lane_cases rfl rfl rfl rfl
theorem R4_sub_lane (a b : Elt16 V) : ∀ i < 4, (R4.sub a b).lane i = R4.sub (a.lane i) (b.lane i) :=
  lane_cases rfl rfl rfl rfl
theorem R4_sublar_lane (a b : Elt16 V) :
    ∀ i < 4, (R4.addsublar a b).2.lane i = (R4.addsublar (a.lane i) (b.lane i)).2 :=
  lane_cases rfl rfl rfl rfl
theorem R4_zip_lanes (a b c d : Elt8 U) : (R4.zip a b c d).lane 0 = a.limbs ∧
    (R4.zip a b c d).lane 1 = b.limbs ∧ (R4.zip a b c d).lane 2 = c.limbs ∧
    (R4.zip a b c d).lane 3 = d.limbs := ⟨rfl, rfl, rfl, rfl⟩
theorem R4_unzip (a : Elt16 V) : (R4.unzip a).1.limbs = a.lane 0 ∧
    (R4.unzip a).2.1.limbs = a.lane 1 ∧ (R4.unzip a).2.2.1.limbs = a.lane 2 ∧
    (R4.unzip a).2.2.2.limbs = a.lane 3 := ⟨rfl, rfl, rfl, rfl⟩

section R4
variable {a b : Elt16 W} {x y : Fp}

theorem okAdd4 : okLe (R4.add (ivs tight) (ivs tight)) sum2 = true := by decide +kernel
theorem okSub4 : okLe (R4.sub (ivs tight) (ivs tight)) diff2 = true := by decide +kernel
theorem okSS4 : okSqr4 sum2 wide = true := by decide +kernel

theorem Rp.r4mul (ha : Rp tight a x) (hb : Rp tight b y) : Rp tight (R4.mul a b) (x * y) :=
  (ha.r4intmul hb okT4).r4compress okC4
theorem Rp.r4mulSD (ha : Rp sum2 a x) (hb : Rp diff2 b y) : Rp tight (R4.mul a b) (x * y) :=
  (ha.r4intmul hb okSD4).r4compress okC4
theorem Rp.r4sqr (ha : Rp sum2 a x) : Rp tight (R4.sqr a) (x ^ 2) :=
  ((ha.r4intsqr okSS4).r4compress okC4).cast (pow_two x).symm
theorem Rp.add4 (ha : Rp tight a x) (hb : Rp tight b y) : Rp sum2 (R4.add a b) (x + y) :=
  ha.r4add hb okAdd4
theorem Rp.sub4 (ha : Rp tight a x) (hb : Rp tight b y) : Rp diff2 (R4.sub a b) (x - y) :=
  ha.r4sub hb okSub4

end R4

end Verif.Fp448
