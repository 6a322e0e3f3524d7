import Verif.Ed25519.QueryLemmas

/-! # Multiples of the base point: helper lemmas -/

namespace Verif.Ed25519

open Verif.Fp25519

theorem R4_fast2_fst_lane (a b : Elt10 V) (j : ℕ) (hj : j < 4) :
    (R4.new_compressfast2 a b).1.lane j = (R4.new_compressfast2 (a.lane j) (b.lane j)).1 :=
  lane_cases (p := fun j => (R4.new_compressfast2 a b).1.lane j =
    (R4.new_compressfast2 (a.lane j) (b.lane j)).1) rfl rfl rfl rfl j hj

theorem R4_fast2_snd_lane (a b : Elt10 V) (j : ℕ) (hj : j < 4) :
    (R4.new_compressfast2 a b).2.lane j = (R4.new_compressfast2 (a.lane j) (b.lane j)).2 :=
  lane_cases (p := fun j => (R4.new_compressfast2 a b).2.lane j =
    (R4.new_compressfast2 (a.lane j) (b.lane j)).2) rfl rfl rfl rfl j hj

theorem two4_lane (j : ℕ) (hj : j < 4) :
    ({ (R4.zero : Elt10 V) with r0 := LIT 2 } : Elt10 V).lane j =
      { (R4.zero : Elt10 W) with r0 := LIT 2 } :=
  lane_cases (p := fun j => ({ (R4.zero : Elt10 V) with r0 := LIT 2 } : Elt10 V).lane j =
      { (R4.zero : Elt10 W) with r0 := LIT 2 }) rfl rfl rfl rfl j hj

theorem one_half_lane (j : ℕ) (hj : j < 4) : (one_half : Elt10 V).lane j = one_half :=
  lane_cases (p := fun j => (one_half : Elt10 V).lane j = one_half) rfl rfl rfl rfl j hj

theorem mulInit_lane (P : Pre4way V) (j : ℕ) (hj : j < 4) :
    (mulInit P).lane j = mulInit (P.lane j) := by
  simp only [mulInit, P4way.lane, Pre4way.lane, R4.mul, R4_fast2_fst_lane _ _ _ hj,
    R4_fast2_snd_lane _ _ _ hj, R4_compress_lane _ _ hj, R4_intmul_lane _ _ _ hj,
    R4_add_lane _ _ _ hj, R4_sub_lane _ _ _ hj, two4_lane _ hj, one_half_lane _ hj]

theorem one_half_rp : Rp tight (one_half : Elt10 W) (1 / 2) := by
  refine ⟨by decide +kernel, ?_⟩
  have h : (one_half : Elt10 W).ints.val * 2 = 1 + (2 ^ 255 - 19) := by decide +kernel
  have h2 := congrArg (fun z : ℤ => (z : Fp)) h
  have hp := p_mul_cast 1
  rw [one_mul] at hp
  simp only [Int.cast_mul, Int.cast_add, Int.cast_ofNat, Int.cast_one] at h2
  rw [hp, add_zero] at h2
  rw [eq_div_iff two_ne]
  exact h2

theorem two4_rp : Rp coordB ({ (R4.zero : Elt10 W) with r0 := LIT 2 } : Elt10 W) 2 := by
  refine ⟨by decide +kernel, ?_⟩
  have h : ({ (R4.zero : Elt10 W) with r0 := LIT 2 } : Elt10 W).ints.val = 2 := by decide +kernel
  rw [Elt10.toFp, h]; norm_num

theorem mulInit_spec {P : Pre4way W} {A : Pt} (hP : IsPre4way P A) :
    Is4way coordB (mulInit P) A := by
  obtain ⟨a, s, t, ha, hs, -, l, l0, e1, e2, -, e4⟩ := hP
  have l1 : l = 1 := mul_left_cancel₀ two_ne (by rw [← e4, mul_one])
  subst l1
  have oadd : okLe (R4.add (ivs tight) (ivs tight)) loose = true := by decide +kernel
  have osub : okLe (R4.sub (ivs tight) (ivs tight)) loose = true := by decide +kernel
  have of1 : okLe (R4.new_compressfast2 (ivs loose) (ivs loose)).1 coordB = true := by
    decide +kernel
  have of2 : okLe (R4.new_compressfast2 (ivs loose) (ivs loose)).2 coordB = true := by
    decide +kernel
  have oC : okLe (R4.intmul (ivs coordB) (ivs coordB)) wide = true := by decide +kernel
  have oT : okLe (R4.intmul (ivs tight) (ivs tight)) wide = true := by decide +kernel
  have oM : leB tight coordB = true := by decide +kernel
  have hX : Rp coordB (R4.new_compressfast2 (R4.sub P.addYX P.subYX) (R4.add P.addYX P.subYX)).1
    (a - s) := (ha.r4sub hs osub).r4fast2_fst of1
  have hY : Rp coordB (R4.new_compressfast2 (R4.sub P.addYX P.subYX) (R4.add P.addYX P.subYX)).2
    (a + s) := (ha.r4add hs oadd).r4fast2_snd of2
  have hT := ((((hX.r4intmul hY oC).r4compress).r4intmul one_half_rp oT).r4compress).mono oM
  refine ⟨_, _, _, _, hX, hY, two4_rp, hT, two_ne, ?_, ?_, ?_⟩
  · rw [e1, e2]; ring
  · rw [e1, e2]; ring
  · rw [e1, e2]
    have : (1 / 2 : Fp) * 2 = 1 := by rw [one_div, inv_mul_cancel₀ two_ne]
    linear_combination (2 * A.x * A.y) * this

/-- What lane `l` adds in iteration `i`. -/
def laneTerm (r : List Byte) (l i : ℕ) : Pt :=
  sdigit r (32 * (l % 2) + 2 * i + l / 2) • signBase i (l % 2)

theorem load4_get (a : ℕ → W) (i l : ℕ) (hl : l < 4) : (load4 a i).get l = a (4 * i + l) :=
  lane_cases (p := fun l => (load4 a i).get l = a (4 * i + l)) rfl rfl rfl rfl l hl

theorem mulQuery_spec (r : List Byte) (i l : ℕ) (hi : i < 16) (hl : l < 4) :
    IsPre4way ((mulQuery r i).lane l) (laneTerm r l i) := by
  have e : nibIdx (4 * i + l) = 32 * (l % 2) + 2 * i + l / 2 := by unfold nibIdx; omega
  obtain ⟨h1, h2, -⟩ := rec_at r (nibIdx (4 * i + l))
  let k := nibIdx (4 * i + l)
  have hd : (load4 (list_digits r) i).get l = BitVec.ofNat 64 (digitAt r k).toNat := by
    rw [load4_get _ _ _ hl, list_digits]; simp [k]
  unfold mulQuery laneTerm
  rw [← e]
  rcases h1 with ⟨-, h1⟩ | ⟨-, h1⟩
  · have hs : (load4 (list_signs r) i).get l = if (false : Bool) then -1 else 0 := by
      rw [load4_get _ _ _ hl, list_signs, h1]; rfl
    have := query_spec hi hl hd h2 hs
    rw [if_neg (by decide)] at this
    rw [sdigit, if_pos h1, natCast_zsmul]; exact this
  · have hs : (load4 (list_signs r) i).get l = if (true : Bool) then -1 else 0 := by
      rw [load4_get _ _ _ hl, list_signs, h1]; rfl
    have := query_spec hi hl hd h2 hs
    rw [if_pos rfl] at this
    rw [sdigit, if_neg (by rw [h1]; decide), neg_smul, natCast_zsmul]; exact this

theorem mulLoop_spec (r : List Byte) (l : ℕ) (hl : l < 4) : ∀ n, n < 16 →
    Is4way coordB ((mulLoop r n).lane l) (∑ i ∈ Finset.range (n + 1), laneTerm r l i)
  | 0, h => by
    rw [mulLoop, mulInit_lane _ _ hl, Finset.sum_range_one]
    exact mulInit_spec (mulQuery_spec r 0 l h hl)
  | n + 1, h => by
    rw [mulLoop, mixadd_4way_lane _ _ _ hl, Finset.sum_range_succ]
    obtain ⟨x, y, z, t, hx, hy, hz, ht, hR⟩ :=
      mixadd_4way_spec (mulLoop_spec r l hl n (by omega)) (mulQuery_spec r (n + 1) l h hl)
    have oM : leB tight coordB = true := by decide +kernel
    exact ⟨x, y, z, t, hx.mono oM, hy.mono oM, hz.mono oM, ht.mono oM, hR⟩

/-- After the last iteration the limbs have the tighter bounds. -/
theorem mulLoop_tight (r : List Byte) (l : ℕ) (hl : l < 4) :
    Is4way tight ((mulLoop r 15).lane l) (∑ i ∈ Finset.range 16, laneTerm r l i) := by
  rw [mulLoop, mixadd_4way_lane _ _ _ hl, Finset.sum_range_succ]
  exact mixadd_4way_spec (mulLoop_spec r l hl 14 (by omega)) (mulQuery_spec r 15 l (by omega) hl)

/-! ## Joining the four points -/

theorem unpack_0 (A : Elt10 V) : (unpack_2w A).1.lo.limbs = A.lane 0 := rfl
theorem unpack_1 (A : Elt10 V) : (unpack_2w A).2.lo.limbs = A.lane 1 := rfl
theorem unpack_2 (A : Elt10 V) : (unpack_2w A).1.hi.limbs = A.lane 2 := rfl
theorem unpack_3 (A : Elt10 V) : (unpack_2w A).2.hi.limbs = A.lane 3 := rfl
theorem perm20_lo (a b : Elt5 V) : (a.zip (PERM128 · · 0x20) b).lo = a.lo := rfl
theorem perm20_hi (a b : Elt5 V) : (a.zip (PERM128 · · 0x20) b).hi = b.lo := rfl
theorem perm31_lo (a b : Elt5 V) : (a.zip (PERM128 · · 0x31) b).lo = a.hi := rfl
theorem perm31_hi (a b : Elt5 V) : (a.zip (PERM128 · · 0x31) b).hi = b.hi := rfl

theorem join_spec {Q : P4way V} {A0 A1 A2 A3 : Pt} (h0 : Is4way tight (Q.lane 0) A0)
    (h1 : Is4way tight (Q.lane 1) A1) (h2 : Is4way tight (Q.lane 2) A2)
    (h3 : Is4way tight (Q.lane 3) A3) :
    Is2w (join_points Q) ((A0 + A1) + (16 : ℕ) • (A2 + A3)) := by
  let R0 : P2way V := ⟨(unpack_2w Q.X).1, (unpack_2w Q.Y).1, (unpack_2w Q.Z).1, (unpack_2w Q.T).1⟩
  let R1 : P2way V := ⟨(unpack_2w Q.X).2, (unpack_2w Q.Y).2, (unpack_2w Q.Z).2, (unpack_2w Q.T).2⟩
  have l0 : Is2way R0.lo A0 := h0
  have l1 : Is2way R1.lo A1 := h1
  have l2 : Is2way R0.hi A2 := h2
  have l3 : Is2way R1.hi A3 := h3
  have hlo := fulladd_2way_spec l0 l1
  have hhi := fulladd_2way_spec l2 l3
  rw [← fulladd_2way_lo] at hlo
  rw [← fulladd_2way_hi] at hhi
  let R := fulladd_2way R0 R1
  let T0 : P2w := ⟨R.X.zip (PERM128 · · 0x20) R.Y, R.T.zip (PERM128 · · 0x20) R.Z⟩
  let T1 : P2w := ⟨R.X.zip (PERM128 · · 0x31) R.Y, R.T.zip (PERM128 · · 0x31) R.Z⟩
  have t0 : Is2w T0 (A0 + A1) := by
    obtain ⟨x, y, z, t, hx, hy, hz, ht, hR⟩ := hlo
    refine ⟨x, y, z, t, ?_, ?_, ?_, ?_, hR⟩
    · rw [perm20_lo]; exact hx
    · rw [perm20_hi]; exact hy
    · rw [perm20_hi]; exact hz
    · rw [perm20_lo]; exact ht
  have t1 : Is2w T1 (A2 + A3) := by
    obtain ⟨x, y, z, t, hx, hy, hz, ht, hR⟩ := hhi
    refine ⟨x, y, z, t, ?_, ?_, ?_, ?_, hR⟩
    · rw [perm31_lo]; exact hx
    · rw [perm31_hi]; exact hy
    · rw [perm31_hi]; exact hz
    · rw [perm31_lo]; exact ht
  have d := doubling_2w_spec (doubling_2w_spec (doubling_2w_spec (doubling_2w_spec t1)))
  have e : ∀ S : Pt, S + S + (S + S) + (S + S + (S + S)) +
      (S + S + (S + S) + (S + S + (S + S))) = (16 : ℕ) • S := fun S => by
    abel
  rw [e] at d
  exact fulladd_2w_spec t0 d

theorem sum64 (f : ℕ → ℤ) : ∑ k ∈ Finset.range 64, f k =
    (∑ i ∈ Finset.range 16, f (2 * i) + ∑ i ∈ Finset.range 16, f (32 + 2 * i)) +
    (∑ i ∈ Finset.range 16, f (2 * i + 1) + ∑ i ∈ Finset.range 16, f (32 + 2 * i + 1)) := by
  simp only [Finset.sum_range_succ, Finset.sum_range_zero, Nat.reduceMul, Nat.reduceAdd]
  ring

theorem laneTerm_eq (r : List Byte) (b h i : ℕ) (hb : b < 2) : laneTerm r (2 * h + b) i =
    (16 ^ (32 * b + 2 * i) * sdigit r (32 * b + 2 * i + h)) • B := by
  have e1 : (2 * h + b) % 2 = b := by omega
  have e2 : (2 * h + b) / 2 = h := by omega
  unfold laneTerm signBase
  rw [e1, e2]
  have e3 : (256 : ℕ) ^ i • (2 ^ 128) ^ b • B = ((16 : ℤ) ^ (32 * b + 2 * i)) • B := by
    rw [smul_smul, ← natCast_zsmul]
    congr 1
    push_cast
    rw [pow_add, pow_mul, pow_mul]
    norm_num
    ring
  rw [e3, smul_smul, mul_comm]

theorem sum_lanes (f : ℕ → ℤ) :
    (∑ i ∈ Finset.range 16, 16 ^ (32 * 0 + 2 * i) * f (32 * 0 + 2 * i + 0) +
      ∑ i ∈ Finset.range 16, 16 ^ (32 * 1 + 2 * i) * f (32 * 1 + 2 * i + 0)) +
    ((16 : ℕ) : ℤ) * (∑ i ∈ Finset.range 16, 16 ^ (32 * 0 + 2 * i) * f (32 * 0 + 2 * i + 1) +
      ∑ i ∈ Finset.range 16, 16 ^ (32 * 1 + 2 * i) * f (32 * 1 + 2 * i + 1)) =
    ∑ k ∈ Finset.range 64, 16 ^ k * f k := by
  rw [sum64]
  have a : ∀ i, (16 : ℤ) ^ (2 * i + 1) * f (2 * i + 1) = 16 * (16 ^ (2 * i) * f (2 * i + 1)) :=
    fun i => by rw [pow_succ]; ring
  have b : ∀ i, (16 : ℤ) ^ (32 + 2 * i + 1) * f (32 + 2 * i + 1) =
      16 * (16 ^ (32 + 2 * i) * f (32 + 2 * i + 1)) :=
    fun i => by rw [pow_succ]; ring
  simp only [a, b, ← Finset.mul_sum, mul_zero, zero_add, mul_one, add_zero]
  rw [mul_add]; rfl

theorem lanes_total (r : List Byte) :
    (∑ i ∈ Finset.range 16, laneTerm r 0 i + ∑ i ∈ Finset.range 16, laneTerm r 1 i) +
      (16 : ℕ) • (∑ i ∈ Finset.range 16, laneTerm r 2 i + ∑ i ∈ Finset.range 16, laneTerm r 3 i) =
      (∑ k ∈ Finset.range 64, 16 ^ k * sdigit r k) • B := by
  have l0 : ∀ i, laneTerm r 0 i = _ := fun i => laneTerm_eq r 0 0 i (by decide)
  have l1 : ∀ i, laneTerm r 1 i = _ := fun i => laneTerm_eq r 1 0 i (by decide)
  have l2 : ∀ i, laneTerm r 2 i = _ := fun i => laneTerm_eq r 0 1 i (by decide)
  have l3 : ∀ i, laneTerm r 3 i = _ := fun i => laneTerm_eq r 1 1 i (by decide)
  rw [← sum_lanes]
  simp only [l0, l1, l2, l3, ← Finset.sum_smul, ← add_smul]
  rw [← natCast_zsmul, smul_smul, ← add_smul]

theorem point_multiplication_spec (r : List Byte) (h : r.length = 32) :
    Is2w (point_multiplication r)
      (((leNat r : ℤ) - if leNat r ≤ recLimit then 0 else 2 ^ 256) • B) := by
  have hj := join_spec (mulLoop_tight r 0 (by decide)) (mulLoop_tight r 1 (by decide))
    (mulLoop_tight r 2 (by decide)) (mulLoop_tight r 3 (by decide))
  rw [lanes_total, recode_value r h] at hj
  exact hj

end Verif.Ed25519
