import Verif.X448.KeyLemmas
import Verif.Props.X448Zero
import Verif.Props.X448Keygen

/-!
# Which X448 private keys and which public values are interchangeable (C93)
-/

namespace Verif.X448

open Verif.Fp448
open Verif.Ed448 (SafeSq)
open Verif.X25519 (same_x X0_neg)

set_option exponentiation.threshold 2000

/-- The large prime factors of the orders of Curve448 and of its twist. -/
theorem ell_num :
    ell = 2 ^ 446 - 0x8335dc163bb124b65129c96fde933d8d723a70aadc873d6d54a7bb0d := by decide +kernel

theorem ellT_num :
    ellT = 2 ^ 446 + 0x335dc163bb124b65129c96fde933d8d723a70aadc873d6d54a7bb0d := by decide +kernel

theorem scalar_four (k : List Byte) : ∃ m, scalar k = 4 * m ∧ 2 ^ 445 ≤ m ∧ m < 2 ^ 446 := by
  refine ⟨_, scalar_eq k, by omega, ?_⟩
  have := Nat.mod_lt (leNat k / 4) (show 2 ^ 445 > 0 by positivity)
  omega

theorem encode_inj' {v v' : Fp} : encode v = encode v' ↔ v = v' := by
  constructor
  · intro h
    have hl := congrArg leNat h
    have lt : ∀ x : Fp, canon x < 256 ^ 56 := fun x => by
      have : canon x < P := ZMod.val_lt x
      have : P < 256 ^ 56 := by decide +kernel
      omega
    rw [encode, encode, leNat_leBytes, leNat_leBytes, Nat.mod_eq_of_lt (lt v),
      Nat.mod_eq_of_lt (lt v')] at hl
    exact ZMod.val_injective P hl
  · rintro rfl; rfl

/-- C93.  Private keys that are clamped to the same scalar give the same bytes, for every public
value. -/
theorem C93_same_scalar (u k k' : List Byte) (hk : k.length = 56) (hk' : k'.length = 56)
    (h : scalar k = scalar k') : shared u k = shared u k' := by
  have e : clamp k = clamp k' := by
    obtain ⟨l, v⟩ := clamp_val hk
    obtain ⟨l', v'⟩ := clamp_val hk'
    rw [← leBytes_leNat (clamp k), ← leBytes_leNat (clamp k'), l, l', v, v', h]
  rw [shared, shared, sharedElt, sharedElt, e]

/-- C93.  Take a coordinate of the curve that is not of low order.  Two private keys have the same
product with it exactly when they are clamped to the same scalar or to two scalars whose sum is
eight times the prime order of the base point. -/
theorem C93_product_curve (u k k' : List Byte) {v v' : Fp} (hv : IsProduct k u v)
    (hv' : IsProduct k' u v') (hl : ¬ (coord u = 0 ∨ coord u = 1 ∨ coord u = -1))
    (hc : ∃ y : Fp, y ^ 2 = coord u ^ 3 + 156326 * coord u ^ 2 + coord u) :
    v = v' ↔ scalar k = scalar k' ∨ scalar k + scalar k' =
      8 * (2 ^ 446 - 0x8335dc163bb124b65129c96fde933d8d723a70aadc873d6d54a7bb0d) := by
  rw [← ell_num]
  have hc : OnCurve (coord u) := hc
  obtain ⟨m, hm, h1, h2⟩ := scalar_four k
  obtain ⟨m', hm', h1', h2'⟩ := scalar_four k'
  rw [IsProduct, hm] at hv
  rw [IsProduct, hm'] at hv'
  rw [hm, hm']
  have z := zero_iff (by omega) h2 hv
  have z' := zero_iff (by omega) h2' hv'
  by_cases h0 : v = 0
  · have e : m = ell := ((z.1 h0).resolve_left hl).1
    subst h0
    rw [eq_comm, z', e]
    constructor
    · rintro (h | ⟨h, -⟩)
      · exact absurd h hl
      · left; rw [h]
    · intro h
      right
      exact ⟨by omega, hc⟩
  · rw [xmul_scalars hv hv' h0, primeOf, if_pos hc]
    have b1 : 2 ^ 445 < ell := by decide +kernel
    have b2 : ell < 2 ^ 446 := by decide +kernel
    have b3 : 2 ^ 447 < 3 * ell := by decide +kernel
    generalize ell = q at *
    constructor
    · rintro (h | h)
      · left
        have : (m : ℤ) - m' = 0 := by
          apply Int.eq_zero_of_abs_lt_dvd h
          rw [abs_lt]; constructor <;> omega
        omega
      · right
        have h : q ∣ m + m' := by exact_mod_cast h
        obtain ⟨c, hc⟩ := h
        have : c = 2 := by
          rcases c with _ | _ | _ | c
          · omega
          · omega
          · rfl
          · exfalso
            have : q * 3 ≤ q * (c + 1 + 1 + 1) := Nat.mul_le_mul_left _ (by omega)
            omega
        subst this
        omega
    · rintro (h | h)
      · left
        have : (m : ℤ) - m' = 0 := by omega
        rw [this]; exact dvd_zero _
      · right
        have : (m : ℤ) + m' = 2 * q := by omega
        rw [this]; exact dvd_mul_left _ _

/-- C93, for a coordinate of the twist. -/
theorem C93_product_twist (u k k' : List Byte) {v v' : Fp} (hv : IsProduct k u v)
    (hv' : IsProduct k' u v') (hl : ¬ (coord u = 0 ∨ coord u = 1 ∨ coord u = -1))
    (hc : ¬ ∃ y : Fp, y ^ 2 = coord u ^ 3 + 156326 * coord u ^ 2 + coord u) :
    v = v' ↔ scalar k = scalar k' ∨ scalar k + scalar k' =
      4 * (2 ^ 446 + 0x335dc163bb124b65129c96fde933d8d723a70aadc873d6d54a7bb0d) := by
  rw [← ellT_num]
  have hc : ¬ OnCurve (coord u) := hc
  obtain ⟨m, hm, h1, h2⟩ := scalar_four k
  obtain ⟨m', hm', h1', h2'⟩ := scalar_four k'
  rw [IsProduct, hm] at hv
  rw [IsProduct, hm'] at hv'
  rw [hm, hm']
  have h0 : v ≠ 0 := by
    rw [Ne, zero_iff (by omega) h2 hv]
    rintro (h | ⟨-, h⟩)
    · exact hl h
    · exact hc h
  rw [xmul_scalars hv hv' h0, primeOf, if_neg hc]
  have b2 : 2 ^ 446 < ellT := by decide +kernel
  generalize ellT = q at *
  constructor
  · rintro (h | h)
    · left
      have : (m : ℤ) - m' = 0 := by
        apply Int.eq_zero_of_abs_lt_dvd h
        rw [abs_lt]; constructor <;> omega
      omega
    · right
      have h : q ∣ m + m' := by exact_mod_cast h
      obtain ⟨c, hc⟩ := h
      have : c = 1 := by
        rcases c with _ | _ | c
        · omega
        · rfl
        · exfalso
          have : q * 2 ≤ q * (c + 1 + 1) := Nat.mul_le_mul_left _ (by omega)
          omega
      subst this
      omega
  · rintro (h | h)
    · left
      have : (m : ℤ) - m' = 0 := by omega
      rw [this]; exact dvd_zero _
    · right
      have : (m : ℤ) + m' = q := by omega
      rw [this]

/-- C93, partial (`Safe`: the serialisation of the two values loses no carry, C45), the secrets with
a coordinate of the curve. -/
theorem C93_shared_curve_partial (u k k' : List Byte) (hu : u.length = 56) (hk : k.length = 56)
    (hk' : k'.length = 56) {v v' : Fp} (hv : IsProduct k u v) (hv' : IsProduct k' u v')
    (hs : Safe (canon v)) (hs' : Safe (canon v'))
    (hl : ¬ (coord u = 0 ∨ coord u = 1 ∨ coord u = -1))
    (hc : ∃ y : Fp, y ^ 2 = coord u ^ 3 + 156326 * coord u ^ 2 + coord u) :
    shared u k = shared u k' ↔ scalar k = scalar k' ∨ scalar k + scalar k' =
      8 * (2 ^ 446 - 0x8335dc163bb124b65129c96fde933d8d723a70aadc873d6d54a7bb0d) := by
  rw [C45_shared_partial u k hu hk hv hs, C45_shared_partial u k' hu hk' hv' hs', encode_inj',
    C93_product_curve u k k' hv hv' hl hc]

/-- C93, partial, the secrets with a coordinate of the twist. -/
theorem C93_shared_twist_partial (u k k' : List Byte) (hu : u.length = 56) (hk : k.length = 56)
    (hk' : k'.length = 56) {v v' : Fp} (hv : IsProduct k u v) (hv' : IsProduct k' u v')
    (hs : Safe (canon v)) (hs' : Safe (canon v'))
    (hl : ¬ (coord u = 0 ∨ coord u = 1 ∨ coord u = -1))
    (hc : ¬ ∃ y : Fp, y ^ 2 = coord u ^ 3 + 156326 * coord u ^ 2 + coord u) :
    shared u k = shared u k' ↔ scalar k = scalar k' ∨ scalar k + scalar k' =
      4 * (2 ^ 446 + 0x335dc163bb124b65129c96fde933d8d723a70aadc873d6d54a7bb0d) := by
  rw [C45_shared_partial u k hu hk hv hs, C45_shared_partial u k' hu hk' hv' hs', encode_inj',
    C93_product_twist u k k' hv hv' hl hc]

/-- The base point. -/
theorem five_coord : coord five = ((5 : ℕ) : Fp) := by
  rw [coord, five, leNat_leBytes]; rfl

theorem five_curve : ∃ y : Fp, y ^ 2 = coord five ^ 3 + 156326 * coord five ^ 2 + coord five := by
  refine ⟨(yE : Fp), ?_⟩
  have h : ((yE ^ 2 : ℕ) : Fp) = ((5 ^ 3 + 156326 * 5 ^ 2 + 5 : ℕ) : Fp) :=
    Ed448.natEq (by decide +kernel)
  push_cast at h
  rw [five_coord, h]; norm_num

theorem five_not_low : ¬ (coord five = 0 ∨ coord five = 1 ∨ coord five = -1) := by
  rw [five_coord]
  rintro (h | h | h)
  · have : ((5 : ℕ) : Fp) = ((0 : ℕ) : Fp) := by rw [h]; simp
    exact (Ed448.natNe (m := 5) (by decide +kernel)) (by rw [this]; simp)
  · refine (Ed448.natNe (m := 4) (by decide +kernel)) ?_
    push_cast at h ⊢
    linear_combination h
  · refine (Ed448.natNe (m := 6) (by decide +kernel)) ?_
    push_cast at h ⊢
    linear_combination h

/-- C93, partial (the conditions of C61): two private keys have the same public key exactly when
they are clamped to the same scalar or to scalars whose sum is eight times the prime order. -/
theorem C93_keygen_partial (a b a' b' : W) (k k' : List Byte) (hk : k.length = 56)
    (hk' : k'.length = 56) (g : GenOk (scalar k)) (g' : GenOk (scalar k')) {v v' : Fp}
    (hv : IsProduct k five v) (hv' : IsProduct k' five v') (hs : SafeSq (canon v))
    (hs' : SafeSq (canon v')) :
    keygen a b k = keygen a' b' k' ↔ scalar k = scalar k' ∨ scalar k + scalar k' =
      8 * (2 ^ 446 - 0x8335dc163bb124b65129c96fde933d8d723a70aadc873d6d54a7bb0d) := by
  rw [C61_keygen_partial a b k hk g hv hs, C61_keygen_partial a' b' k' hk' g' hv' hs', encode_inj',
    C93_product_curve five k k' hv hv' five_not_low five_curve]

/-- C93, partial (`Safe`).  Public values that give the same secret, not the all-zero one, with one
private key give the same secret with every private key. -/
theorem C93_equivalent_partial (u u' k k' : List Byte) (hu : u.length = 56) (hu' : u'.length = 56)
    (hk : k.length = 56) (hk' : k'.length = 56) {v v' w w' : Fp} (hv : IsProduct k u v)
    (hv' : IsProduct k u' v') (hw : IsProduct k' u w) (hw' : IsProduct k' u' w')
    (s1 : Safe (canon v)) (s2 : Safe (canon v')) (s3 : Safe (canon w)) (s4 : Safe (canon w'))
    (h0 : shared u k ≠ List.replicate 56 0#8) (h : shared u k = shared u' k) :
    shared u k' = shared u' k' := by
  rw [Ne, C86_bytes u k hu hk hv] at h0
  rw [C45_shared_partial u k hu hk hv s1, C45_shared_partial u' k hu' hk hv' s2, encode_inj'] at h
  subst h
  obtain ⟨m, hm, h1, h2⟩ := scalar_four k
  obtain ⟨n, hn, -, -⟩ := scalar_four k'
  rw [IsProduct, hm] at hv hv'
  have e : w = w' := by
    rw [IsProduct, hn] at hw hw'
    exact xmul_transfer (by omega) h2 hv hv' h0 hw hw'
  subst e
  rw [C45_shared_partial u k' hu hk' hw s3, C45_shared_partial u' k' hu' hk' hw' s4]

/-- The condition on the all-zero secret is needed: with the private key whose scalar is 4·ℓ, the
base point and the coordinate 1 give the same secret, with the all-zero key they do not. -/
theorem C93_wrong : ∃ u u' k k' : List Byte, u.length = 56 ∧ u'.length = 56 ∧ k.length = 56 ∧
    k'.length = 56 ∧ shared u k = shared u' k ∧ shared u k' ≠ shared u' k' := by
  have l := leBytes_length 56
  have o : ∀ k : List Byte, k.length = 56 →
      shared (leBytes 56 1) k = List.replicate 56 0#8 := by
    intro k hk
    rw [C86_zero_iff _ _ (l 1) hk]
    left; right; left
    rw [coord, leNat_leBytes]; simp
  refine ⟨five, leBytes 56 1, orderKey, leBytes 56 0, l 5, l 1, l _, l 0, ?_, ?_⟩
  · rw [o orderKey (l _)]; exact C86_order_key
  · rw [o _ (l _), Ne, C86_zero_iff five _ (l 5) (l 0)]
    rintro (h | ⟨h, -⟩)
    · exact five_not_low h
    · revert h; decide +kernel

/-- The second case of the theorems on scalars occurs: 4·(ℓ - 1) and 4·(ℓ + 1) are the scalars of
two private keys, which have the same product with every coordinate of the curve. -/
theorem C93_twins : ∃ k k' : List Byte, k.length = 56 ∧ k'.length = 56 ∧ scalar k ≠ scalar k' ∧
    ∀ (u : List Byte) (v v' : Fp), IsProduct k u v → IsProduct k' u v' →
      (∃ y : Fp, y ^ 2 = coord u ^ 3 + 156326 * coord u ^ 2 + coord u) → v = v' := by
  refine ⟨leBytes 56 (4 * (ell - 1)), leBytes 56 (4 * (ell + 1)), leBytes_length _ _,
    leBytes_length _ _, by decide +kernel, fun u v v' hv hv' hc => ?_⟩
  by_cases hl : coord u = 0 ∨ coord u = 1 ∨ coord u = -1
  · obtain ⟨m, hm, h1, h2⟩ := scalar_four (leBytes 56 (4 * (ell - 1)))
    obtain ⟨m', hm', h1', h2'⟩ := scalar_four (leBytes 56 (4 * (ell + 1)))
    rw [IsProduct, hm] at hv
    rw [IsProduct, hm'] at hv'
    rw [(zero_iff (by omega) h2 hv).2 (Or.inl hl), (zero_iff (by omega) h2' hv').2 (Or.inl hl)]
  · rw [C93_product_curve u _ _ hv hv' hl hc]
    right
    decide +kernel

/-- C93 is false of key generation without the conditions of C61: two private keys whose scalars
are neither equal nor of that sum have the same public key. -/
theorem C93_keygen_wrong : ∃ k k' : List Byte, k.length = 56 ∧ k'.length = 56 ∧
    ¬ (scalar k = scalar k' ∨ scalar k + scalar k' =
      8 * (2 ^ 446 - 0x8335dc163bb124b65129c96fde933d8d723a70aadc873d6d54a7bb0d)) ∧
    ∀ a b, keygen a b k = keygen a b k' :=
  ⟨kWrong, kGood, leBytes_length _ _, leBytes_length _ _, by
    rintro (h | h) <;> revert h <;> decide +kernel,
    fun a b => by rw [wrong_run, good_run]⟩

/-- C93.  Different public values that are interchangeable: inverses of each other modulo p. -/
theorem C93_inverse (u u' k : List Byte) {v v' : Fp} (hv : IsProduct k u v)
    (hv' : IsProduct k u' v') (h : coord u * coord u' = 1) : v = v' := by
  classical
  obtain ⟨m, hm, h1, h2⟩ := scalar_four k
  rw [IsProduct, hm, show 4 * m = (2 * m) * 2 by ring] at hv hv'
  obtain ⟨R, hR⟩ := C45_points_exist (coord u)
  obtain ⟨R', hR'⟩ := C45_points_exist (coord u')
  have x := hv _ R hR
  have x' := hv' _ R' hR'
  have d := dblX hR
  have d' := dblX hR'
  have h0 : coord u ≠ 0 := left_ne_zero_of_mul_eq_one h
  have hc : coord u' = (coord u)⁻¹ := eq_inv_of_mul_eq_one_right h
  have ed : (coord u' ^ 2 - 1) ^ 2 * (4 * coord u' * (coord u' ^ 2 + curveA * coord u' + 1))⁻¹
      = (coord u ^ 2 - 1) ^ 2 * (4 * coord u * (coord u ^ 2 + curveA * coord u + 1))⁻¹ := by
    rw [hc]
    generalize coord u = t at h0
    have n1 : ((t⁻¹) ^ 2 - 1) ^ 2 = (t ^ 2 - 1) ^ 2 * (t⁻¹) ^ 4 := by
      field_simp; ring
    have n2 : 4 * t⁻¹ * ((t⁻¹) ^ 2 + curveA * t⁻¹ + 1)
        = 4 * t * (t ^ 2 + curveA * t + 1) * (t⁻¹) ^ 4 := by
      field_simp
      ring
    rw [n1, n2, mul_inv, mul_mul_mul_comm, mul_inv_cancel₀ (pow_ne_zero _ (inv_ne_zero h0)), mul_one]
  rw [ed] at d'
  apply (algebraMap Fp (AlgebraicClosure Fp)).injective
  rw [← x, ← x', mul_smul (2 * m) 2 R, mul_smul (2 * m) 2 R', two_smul, two_smul]
  by_cases hz : Mont.X0 (R + R) = 0
  · have a := Mont.two_smul_of_x0 hz
    have a' := Mont.two_smul_of_x0 ((d'.trans d.symm).trans hz)
    rw [show 2 * m = m * 2 by ring, mul_smul _ 2, mul_smul _ 2, two_smul, two_smul ℕ (R' + R'),
      a, a']
  · rcases same_x (d.trans d'.symm) hz with a | a
    · rw [a]
    · rw [a, smul_neg, X0_neg]

/-! ## The conditions are met -/

/-- A key of RFC 7748 and the all-zero key give different secrets with the base point. -/
example : shared five rfcKey ≠ shared five (leBytes 56 0) := by
  have h : IsProduct rfcKey five
      0xa01fc432e5807f17530d1288da125b0cd453d941726436c8bbd9c5222c3da7fa639ce03db8d23b274a0721a1aed5227de6e3b731ccf7089b :=
    product_eval (by decide +kernel)
  have h' : IsProduct (leBytes 56 0) five
      0x405d6ddddfe440cc63d8c735c68f70ddba89c288fd03eb487cc38c8546de9a9ac6a1a77809b539e29eb0624b21e7be69c53bba4da420b8e9 :=
    product_eval (by decide +kernel)
  rw [Ne, C93_shared_curve_partial five rfcKey (leBytes 56 0) (leBytes_length _ _) (leBytes_length _ _)
    (leBytes_length _ _) h h' (by decide +kernel) (by decide +kernel) five_not_low five_curve]
  rintro (h | h) <;> revert h <;> decide +kernel

/-- The same with 6, a coordinate of the twist. -/
example : shared (leBytes 56 6) rfcKey ≠ shared (leBytes 56 6) (leBytes 56 0) := by
  have h : IsProduct rfcKey (leBytes 56 6)
      0x37fea58e078a80e81151b98056cfcda3469d3928f461cccdfda29ec429763001dd362d463c92098d4027d36d91941d09bd99a65dd8c35654 :=
    product_eval (by decide +kernel)
  have h' : IsProduct (leBytes 56 0) (leBytes 56 6)
      0x33ca7f63be90de31fa1870b0b2fdce4201f5452e277d6f500aaa868d669a82786ffbab3d767c26cb62b2a3e5f4dc20674a35ccebb8bbc5ed :=
    product_eval (by decide +kernel)
  have e : coord (leBytes 56 6) = ((6 : ℕ) : Fp) := by rw [coord, leNat_leBytes]; rfl
  rw [Ne, C93_shared_twist_partial (leBytes 56 6) rfcKey (leBytes 56 0) (leBytes_length _ _)
    (leBytes_length _ _)
    (leBytes_length _ _) h h' (by decide +kernel) (by decide +kernel) ?_ ?_]
  · rintro (h | h) <;> revert h <;> decide +kernel
  · decide +kernel
  · rw [e]
    rintro ⟨y, hy⟩
    refine Ed448.not_square (a := 5627958) (by decide +kernel) y ?_
    rw [hy]; norm_num

/-- 5 and its inverse modulo p are different values that give the same secret. -/
example : shared five rfcKey = shared (leBytes 56
      145367744859121378109864761577600906870728272137463612056298039836122465633346154537279276739735309186017776892368727472210699603673088) rfcKey ∧
    five ≠ leBytes 56
      145367744859121378109864761577600906870728272137463612056298039836122465633346154537279276739735309186017776892368727472210699603673088 := by
  have h : IsProduct rfcKey five
      0xa01fc432e5807f17530d1288da125b0cd453d941726436c8bbd9c5222c3da7fa639ce03db8d23b274a0721a1aed5227de6e3b731ccf7089b :=
    product_eval (by decide +kernel)
  have h' := C45_ladder (leBytes 56
    145367744859121378109864761577600906870728272137463612056298039836122465633346154537279276739735309186017776892368727472210699603673088) rfcKey (leBytes_length _ _) (leBytes_length _ _)
  have e := C93_inverse _ _ _ h h' (by
    rw [five_coord, coord, leNat_leBytes, ← Nat.cast_mul, ← Nat.cast_one]
    exact Ed448.natEq (by decide +kernel))
  rw [← e] at h'
  refine ⟨?_, by decide +kernel⟩
  rw [C45_shared_partial five rfcKey (leBytes_length _ _) (leBytes_length _ _) h (by decide +kernel),
    C45_shared_partial _ rfcKey (leBytes_length _ _) (leBytes_length _ _) h' (by decide +kernel)]

end Verif.X448

namespace Verif.Ed448

open Verif.Fp448

set_option exponentiation.threshold 2000

theorem addOrderOf_B : addOrderOf B = ell := by
  have hp : Fact ell.Prime := ⟨X448.ell_prime⟩
  exact addOrderOf_eq_prime order_B B_ne

/-- C93 for Ed448, partial (`MulOk`, the condition of C58): two private keys have the same public
key exactly when their digests are clamped to the same scalar. -/
theorem C93_ed448_partial (H : List Byte → ℕ → List Byte) (u u' : ℕ → W) (mode mode' : Mode)
    (sk sk' : List Byte) (hH : (H sk 114).length = 114) (hH' : (H sk' 114).length = 114)
    (h : MulOk (secretScalar (H sk 114))) (h' : MulOk (secretScalar (H sk' 114))) :
    (apiKeygen H u mode sk).2 = (apiKeygen H u' mode' sk').2 ↔
      secretScalar (H sk 114) = secretScalar (H sk' 114) := by
  rw [C58_keygen_partial H u mode sk hH h, C58_keygen_partial H u' mode' sk' hH' h']
  constructor
  · intro h
    have h := C57_injective h
    have hd : (ell : ℤ) ∣ (secretScalar (H sk 114) : ℤ) - secretScalar (H sk' 114) := by
      rw [← addOrderOf_B, addOrderOf_dvd_iff_zsmul_eq_zero, sub_smul, natCast_zsmul, natCast_zsmul,
        sub_eq_zero]
      exact h
    unfold secretScalar at hd ⊢
    have a := Nat.mod_lt (leNat ((H sk 114).take 57) / 4) (show 2 ^ 445 > 0 by positivity)
    have b := Nat.mod_lt (leNat ((H sk' 114).take 57) / 4) (show 2 ^ 445 > 0 by positivity)
    generalize leNat ((H sk 114).take 57) / 4 % 2 ^ 445 = x at *
    generalize leNat ((H sk' 114).take 57) / 4 % 2 ^ 445 = y at *
    have hd : (ell : ℤ) ∣ (4 : ℤ) * (x - y) := by
      convert hd using 1; push_cast; ring
    have hc : IsCoprime (ell : ℤ) 4 := by
      rw [Int.isCoprime_iff_gcd_eq_one]; decide +kernel
    have hd := hc.dvd_of_dvd_mul_left hd
    have : (x : ℤ) - y = 0 := by
      apply Int.eq_zero_of_abs_lt_dvd hd
      have : (2 : ℤ) ^ 445 < ell := by
        have : 2 ^ 445 < ell := by decide +kernel
        exact_mod_cast this
      rw [abs_lt]; constructor <;> omega
    omega
  · intro h; rw [h]

/-- C93 is false of Ed448 without that condition: two private keys with different scalars have the
same public key. -/
theorem C93_ed448_wrong : ∃ (H : List Byte → ℕ → List Byte) (sk sk' : List Byte),
    (∀ m n, (H m n).length = n) ∧ sk.length = 57 ∧ sk'.length = 57 ∧
    secretScalar (H sk 114) ≠ secretScalar (H sk' 114) ∧
    ∀ u mode, apiKeygen H u mode sk = apiKeygen H u mode sk' := by
  let H : List Byte → ℕ → List Byte := fun m n =>
    if m = leBytes 57 1 then leBytes n aGood else leBytes n aWrong
  have e1 : H (leBytes 57 1) = fun n => leBytes n aGood := by
    funext n; exact if_pos rfl
  have e0 : H (leBytes 57 0) = fun n => leBytes n aWrong := by
    funext n; exact if_neg (by decide +kernel)
  refine ⟨H, leBytes 57 0, leBytes 57 1, fun m n => ?_, leBytes_length _ _, leBytes_length _ _, ?_,
    fun u mode => ?_⟩
  · show (if m = leBytes 57 1 then leBytes n aGood else leBytes n aWrong).length = n
    split_ifs <;> exact leBytes_length _ _
  · rw [e0, e1]; decide +kernel
  · have k1 := C58_keygen_partial H u mode (leBytes 57 1) (by rw [e1]; exact leBytes_length _ _)
      (by rw [e1]; rw [show secretScalar (leBytes 114 aGood) = aGood by decide +kernel]
          exact aGood_mul)
    have k0 := wrong_key u mode 0 0
    have s0 : apiKeygen H u mode (leBytes 57 0) =
        apiKeygen (toyHash aWrong 0 0) u mode (leBytes 57 0) := by
      unfold apiKeygen keygen
      simp only
      rw [e0, toy_secret]
    rw [s0, k0, k1, e1, show secretScalar (leBytes 114 aGood) = aGood by decide +kernel]

end Verif.Ed448
