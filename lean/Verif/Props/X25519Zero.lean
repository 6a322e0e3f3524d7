import Verif.X25519.ZeroLemmas
import Verif.Props.X25519

/-!
# When the X25519 shared secret is zero (C20)

`LowOrder` is in `Verif/Props/X25519.lean`.
-/

namespace Verif.X25519

open Verif.Fp25519 WeierstrassCurve.Affine

set_option exponentiation.threshold 2000

theorem encode_zero_iff (v : Fp) : encode v = List.replicate 32 0#8 ↔ v = 0 := by
  constructor
  · intro h
    have h0 : encode 0 = List.replicate 32 0#8 := by rfl
    have hl := congrArg leNat (h.trans h0.symm)
    have lt : ∀ x : Fp, canon x < 2 ^ (8 * 32) := fun x => by
      have : canon x < P := ZMod.val_lt x
      have : P < 2 ^ (8 * 32) := by norm_num
      omega
    rw [encode, encode, leNat_leBytes, leNat_leBytes, Nat.mod_eq_of_lt (by simpa using lt v),
      Nat.mod_eq_of_lt (by simpa using lt 0)] at hl
    exact ZMod.val_injective P hl
  · rintro rfl; rfl

/-- A result of zero comes only from a coordinate of low order. -/
theorem lowOrder_of_zero {u : Fp} {m : ℕ} (h0 : 0 < m) (hm : m ≤ 2 ^ 252)
    (h : Mont.XMul curveA (8 * m) u 0) : LowOrder u := by
  classical
  obtain ⟨R, hR, hk⟩ := exists_killed u
  have hq := primeOf_prime u
  have hlt := primeOf_gt u
  refine ⟨_, inferInstance, inferInstance, inferInstance, R, hR, ?_⟩
  have hx := h _ R hR
  rw [map_zero] at hx
  have h2 := Mont.two_smul_of_x0 hx
  refine eight_of hq (lt_trans (by norm_num) hlt) h0 (lt_of_le_of_lt hm hlt) hk ?_
  rw [← two_smul ℕ, smul_smul] at h2
  rwa [show 8 * (2 * m) = 2 * (8 * m) by ring]

/-- C20.  The shared secret is all zero exactly when the public key is the coordinate of a point
of order dividing 8, for every private key: 32-byte inputs, every build variant. -/
theorem C20_zero_iff (isa : Isa) (u k : List Byte) (hu : u.length = 32) (hk : k.length = 32) :
    shared_x64 isa u k = List.replicate 32 0#8 ↔ LowOrder (coord u) := by
  refine ⟨fun h => ?_, C20_low_order isa u k hu hk⟩
  obtain ⟨v, hv, hr⟩ := shared_x64_spec isa hu hk
  rw [hr, encode_zero_iff] at h
  subst h
  have hs : scalar k = 8 * (2 ^ 251 + leNat k / 8 % 2 ^ 251) := by unfold scalar; ring
  rw [hs] at hv
  have := Nat.mod_lt (leNat k / 8) (show 2 ^ 251 > 0 by positivity)
  exact lowOrder_of_zero (by positivity) (by omega) hv

/-- C20 for `X25519.shared`. -/
theorem C20_zero_iff_avx2 (isa : Isa) (u k : List Byte) (hu : u.length = 32)
    (hk : k.length = 32) :
    Avx2.shared isa u k = List.replicate 32 0#8 ↔ LowOrder (coord u) := by
  rw [C16_avx2_eq_x64 isa isa u k hu hk]
  exact C20_zero_iff isa u k hu hk

/-! ## The five coordinates -/

/-- The coordinates of the points of order 8. -/
def u8a : ℕ := 325606250916557431795983626356110631294008115727848805560023387167927233504
def u8b : ℕ := 39382357235489614581723060781553021112529911719440698176882885853963445705823

/-- A square root of 486664. -/
def rN : ℕ := 48802004052532134862652268456126542835229456083994414501085850622543968879637

theorem rN_sq : (rN : Fp) ^ 2 = curveA + 2 := by
  have h : ((rN ^ 2 : ℕ) : Fp) = ((486664 : ℕ) : Fp) := Ed25519.natEq (by decide +kernel)
  push_cast at h
  rw [h, curveA]; norm_num

theorem u8_sum : (u8a : Fp) + u8b = 2 + 2 * rN := by
  have h : ((u8a + u8b : ℕ) : Fp) = ((2 + 2 * rN : ℕ) : Fp) := Ed25519.natEq (by decide +kernel)
  push_cast at h
  exact h

theorem u8_prod : (u8a : Fp) * u8b = 1 := by
  have h : ((u8a * u8b : ℕ) : Fp) = ((1 : ℕ) : Fp) := Ed25519.natEq (by decide +kernel)
  push_cast at h
  exact h

theorem ns1 (t : Fp) : t ^ 2 ≠ curveA ^ 2 - 4 := by
  have := Ed25519.not_square (a := 486662 ^ 2 - 4) (by decide +kernel) t
  rw [Nat.cast_sub (by norm_num)] at this
  rw [curveA]; exact_mod_cast this

theorem ns2 (t : Fp) : t ^ 2 ≠ 2 - curveA := by
  have := Ed25519.not_square (a := P - 486660) (by decide +kernel) t
  rw [Nat.cast_sub (by norm_num), ZMod.natCast_self] at this
  rw [curveA]
  intro h
  apply this
  push_cast
  rw [h]; ring

theorem ns3 (t : Fp) : t ^ 2 ≠ (2 - 2 * rN) ^ 2 - 4 := by
  have := Ed25519.not_square (a := (2 * rN) ^ 2 + 8 * (P - rN)) (by decide +kernel) t
  rw [Nat.cast_add, Nat.cast_mul, Nat.cast_sub (by decide +kernel), ZMod.natCast_self] at this
  intro h
  apply this
  push_cast
  rw [h]; ring

section
variable {K : Type} [Field K] [DecidableEq K] [Algebra Fp K]

local notation "ι" => algebraMap Fp K

theorem dblRep {R : Mont.Pt (ι curveA)} {u : Fp} (hR : Mont.X0 R = ι u) (h0 : R ≠ 0) :
    Mont.Rep (R + R) (ι ((u ^ 2 - 1) ^ 2)) (ι (4 * u * (u ^ 2 + curveA * u + 1))) := by
  have h2 : (2 : K) ≠ 0 := by
    rw [← map_ofNat ι 2]; exact (map_ne_zero ι).2 curve_two
  have hA : (ι curveA) ^ 2 ≠ 4 := by
    rw [← map_ofNat ι 4, ← map_pow]; exact fun h => curve_A ((ι).injective h)
  have hr : Mont.Rep R (ι u) 1 := by
    cases R with
    | zero => exact absurd rfl h0
    | some x y hn => exact ⟨one_ne_zero, by rw [mul_one]; exact hR.symm⟩
  have := Mont.rep_dbl h2 hA hr
  simpa only [map_pow, map_sub, map_one, map_mul, map_add, map_ofNat, one_pow, mul_one] using this

theorem dblX {R : Mont.Pt (ι curveA)} {u : Fp} (hR : Mont.X0 R = ι u) :
    Mont.X0 (R + R) = ι ((u ^ 2 - 1) ^ 2 * (4 * u * (u ^ 2 + curveA * u + 1))⁻¹) := by
  by_cases h0 : R = 0
  · subst h0
    have : u = 0 := (ι).injective (by rw [map_zero]; exact hR.symm)
    subst this
    rw [add_zero, hR]; simp
  · rw [← (dblRep hR h0).x0, map_mul ι ((u ^ 2 - 1) ^ 2), map_inv₀]

theorem two_torsion {R : Mont.Pt (ι curveA)} {w : Fp} (hR : Mont.X0 R = ι w) (h : R + R = 0) :
    w = 0 := by
  by_cases h0 : R = 0
  · subst h0
    exact (ι).injective (by rw [map_zero]; exact hR.symm)
  · have := dblRep hR h0
    rw [h] at this
    have hz := (map_eq_zero ι).1 this.2
    have h4 : (4 : Fp) ≠ 0 := by
      have := curve_two
      rw [show (4 : Fp) = 2 * 2 by norm_num]; exact mul_ne_zero this this
    rcases mul_eq_zero.1 hz with h1 | h1
    · exact (mul_eq_zero.1 h1).resolve_left h4
    · exfalso
      apply ns1 (2 * w + curveA)
      linear_combination 4 * h1

theorem four_torsion {R : Mont.Pt (ι curveA)} {w : Fp} (hR : Mont.X0 R = ι w)
    (h : (R + R) + (R + R) = 0) : w = 0 ∨ w = 1 ∨ w = -1 := by
  have := two_torsion (dblX hR) h
  rcases mul_eq_zero.1 this with h1 | h1
  · have : (w - 1) * (w + 1) = 0 := by
      have := pow_eq_zero_iff (two_ne_zero) |>.1 h1
      linear_combination this
    rcases mul_eq_zero.1 this with h | h
    · exact Or.inr (Or.inl (by linear_combination h))
    · exact Or.inr (Or.inr (by linear_combination h))
  · left
    have hz := inv_eq_zero.1 h1
    have h4 : (4 : Fp) ≠ 0 := by
      have := curve_two
      rw [show (4 : Fp) = 2 * 2 by norm_num]; exact mul_ne_zero this this
    rcases mul_eq_zero.1 hz with h1 | h1
    · exact (mul_eq_zero.1 h1).resolve_left h4
    · exfalso
      apply ns1 (2 * w + curveA)
      linear_combination 4 * h1

end

/-- C20.  The coordinates of low order are exactly five. -/
theorem C20_lowOrder_iff (u : Fp) :
    LowOrder u ↔ u = 0 ∨ u = 1 ∨ u = -1 ∨ u = (u8a : Fp) ∨ u = (u8b : Fp) := by
  have h4 : (4 : Fp) ≠ 0 := by
    have := curve_two
    rw [show (4 : Fp) = 2 * 2 by norm_num]; exact mul_ne_zero this this
  constructor
  · rintro ⟨K, _, _, _, R, hR, h8⟩
    have h8' : ((R + R) + (R + R)) + ((R + R) + (R + R)) = 0 := by
      rw [← h8]; module
    rcases four_torsion (dblX hR) h8' with h | h | h
    · rcases mul_eq_zero.1 h with h1 | h1
      · have : (u - 1) * (u + 1) = 0 := by
          have := pow_eq_zero_iff (two_ne_zero) |>.1 h1
          linear_combination this
        rcases mul_eq_zero.1 this with h | h
        · exact Or.inr (Or.inl (by linear_combination h))
        · exact Or.inr (Or.inr (Or.inl (by linear_combination h)))
      · left
        rcases mul_eq_zero.1 (inv_eq_zero.1 h1) with h1 | h1
        · exact (mul_eq_zero.1 h1).resolve_left h4
        · exfalso
          apply ns1 (2 * u + curveA)
          linear_combination 4 * h1
    · have hd : 4 * u * (u ^ 2 + curveA * u + 1) ≠ 0 := by
        intro h0; rw [h0, inv_zero, mul_zero] at h; exact zero_ne_one h
      rw [← div_eq_mul_inv, div_eq_iff hd, one_mul] at h
      have hf : ((u - u8a) * (u - u8b)) * (u ^ 2 - (2 - 2 * rN) * u + 1) = 0 := by
        have e : (u - u8a) * (u - u8b) = u ^ 2 - (2 + 2 * rN) * u + 1 := by
          linear_combination -u * u8_sum + u8_prod
        rw [e]
        linear_combination h - 4 * u ^ 2 * rN_sq
      rcases mul_eq_zero.1 hf with h1 | h1
      · rcases mul_eq_zero.1 h1 with h1 | h1
        · exact Or.inr (Or.inr (Or.inr (Or.inl (by linear_combination h1))))
        · exact Or.inr (Or.inr (Or.inr (Or.inr (by linear_combination h1))))
      · exfalso
        apply ns3 (2 * u - (2 - 2 * rN))
        linear_combination 4 * h1
    · have hd : 4 * u * (u ^ 2 + curveA * u + 1) ≠ 0 := by
        intro h0
        rw [h0, inv_zero, mul_zero] at h
        exact one_ne_zero (α := Fp) (by linear_combination h)
      have hu : u ≠ 0 := by rintro rfl; simp at hd
      rw [← div_eq_mul_inv, div_eq_iff hd] at h
      exfalso
      apply ns2 ((u + 1) ^ 2 / (2 * u))
      have := curve_two
      rw [div_pow, div_eq_iff (by positivity)]
      linear_combination h
  · intro hu
    classical
    obtain ⟨R, hR⟩ := C15_points_exist u
    refine ⟨_, inferInstance, inferInstance, inferInstance, R, hR, ?_⟩
    have h2 := dblX hR
    have h4' := dblX h2
    have e8 : 8 • R = (2 : ℕ) • ((R + R) + (R + R)) := by module
    have main : (u ^ 2 - 1) ^ 2 * (4 * u * (u ^ 2 + curveA * u + 1))⁻¹ = 0 ∨
        (u ^ 2 - 1) ^ 2 * (4 * u * (u ^ 2 + curveA * u + 1))⁻¹ = 1 := by
      rcases hu with h | h | h | h
      · left; rw [h]; simp
      · left; rw [h]; simp
      · left; rw [h]; simp
      · right
        have hf : (u - u8a) * (u - u8b) = 0 := by
          rcases h with h | h <;> rw [h] <;> ring
        have hf2 : u ^ 2 - (2 + 2 * rN) * u + 1 = 0 := by
          linear_combination hf + u * u8_sum - u8_prod
        have e : (u ^ 2 - 1) ^ 2 = 4 * u * (u ^ 2 + curveA * u + 1) := by
          linear_combination (u ^ 2 - (2 - 2 * rN) * u + 1) * hf2 + 4 * u ^ 2 * rN_sq
        have hne : (u ^ 2 - 1) ^ 2 ≠ 0 := by
          intro h0
          have h0 := pow_eq_zero_iff (two_ne_zero) |>.1 h0
          have hu0 : u ≠ 0 := by rintro rfl; simp at h0
          rw [h0] at e
          have h1 : 4 * u * (u ^ 2 + curveA * u + 1) = 0 := by rw [← e]; ring
          have h1 := (mul_eq_zero.1 h1).resolve_left (mul_ne_zero h4 hu0)
          apply ns1 (2 * u + curveA)
          linear_combination 4 * h1
        rw [← e, mul_inv_cancel₀ hne]
    rcases main with h | h
    · rw [h, map_zero] at h2
      rw [e8, Mont.two_smul_of_x0 h2, smul_zero]
    · rw [h] at h4'
      have : Mont.X0 ((R + R) + (R + R)) = 0 := by rw [h4']; simp
      rw [e8, two_smul, Mont.two_smul_of_x0 this]

/-- C20, in numbers: the shared secret is all zero exactly when the 255 low bits of the public key
are, modulo 2^255 - 19, one of five numbers. -/
theorem C20_zero_list (isa : Isa) (u k : List Byte) (hu : u.length = 32) (hk : k.length = 32) :
    shared_x64 isa u k = List.replicate 32 0#8 ↔
      leNat u % 2 ^ 255 % (2 ^ 255 - 19) ∈ [0, 1, 2 ^ 255 - 20,
        325606250916557431795983626356110631294008115727848805560023387167927233504,
        39382357235489614581723060781553021112529911719440698176882885853963445705823] := by
  rw [C20_zero_iff isa u k hu hk, C20_lowOrder_iff, coord]
  have key : ∀ n : ℕ, n < P →
      (((leNat u % 2 ^ 255 : ℕ) : Fp) = (n : Fp) ↔ leNat u % 2 ^ 255 % (2 ^ 255 - 19) = n) := by
    intro n hn
    rw [ZMod.natCast_eq_natCast_iff', Nat.mod_eq_of_lt hn]
  have hm1 : (-1 : Fp) = ((2 ^ 255 - 20 : ℕ) : Fp) := by
    have : ((2 ^ 255 - 20 : ℕ) : Fp) = ((P - 1 : ℕ) : Fp) := Ed25519.natEq (by decide +kernel)
    rw [this, Nat.cast_sub (by norm_num), ZMod.natCast_self]; push_cast; ring
  have h0 := key 0 (by norm_num)
  have h1 := key 1 (by norm_num)
  rw [Nat.cast_zero] at h0
  rw [Nat.cast_one] at h1
  rw [hm1, h0, h1, key _ (by norm_num), key u8a (by decide +kernel), key u8b (by decide +kernel)]
  simp [u8a, u8b]

/-- Both sides occur: the key 1 gives the all-zero secret, the base point does not. -/
example (isa : Isa) (k : List Byte) (hk : k.length = 32) :
    shared_x64 isa (leBytes 32 1) k = List.replicate 32 0#8 ∧
    shared_x64 isa (leBytes 32 9) k ≠ List.replicate 32 0#8 := by
  constructor
  · rw [C20_zero_list isa _ k (by simp) hk]; decide +kernel
  · rw [Ne, C20_zero_list isa _ k (by simp) hk]; decide +kernel

end Verif.X25519
