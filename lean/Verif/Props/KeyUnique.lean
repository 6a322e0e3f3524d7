import Verif.X25519.KeyLemmas
import Verif.Props.X25519Zero
import Verif.Props.X25519Keygen
import Verif.Props.Eddsa25519

/-!
# Which private keys and which public values are interchangeable (C87, C88)
-/

namespace Verif.X25519

open Verif.Fp25519

set_option exponentiation.threshold 2000

/-- The large prime factors of the orders of Curve25519 and of its twist. -/
theorem ell_num : Ed25519.ell = 2 ^ 252 + 27742317777372353535851937790883648493 := by norm_num

theorem ellT_num : Twist.ell = 2 ^ 253 - 55484635554744707071703875581767296995 := by
  decide +kernel

theorem scalar_eight (k : List Byte) : ∃ m, scalar k = 8 * m ∧ 2 ^ 251 ≤ m ∧ m < 2 ^ 252 := by
  refine ⟨2 ^ 251 + leNat k / 8 % 2 ^ 251, by unfold scalar; ring, by omega, ?_⟩
  have := Nat.mod_lt (leNat k / 8) (show 2 ^ 251 > 0 by positivity)
  omega

theorem encode_inj' {v v' : Fp} : encode v = encode v' ↔ v = v' := by
  constructor
  · intro h
    have hl := congrArg leNat h
    have lt : ∀ x : Fp, canon x < 2 ^ (8 * 32) := fun x => by
      have : canon x < P := ZMod.val_lt x
      have : P < 2 ^ (8 * 32) := by norm_num
      omega
    rw [encode, encode, leNat_leBytes, leNat_leBytes, Nat.mod_eq_of_lt (by simpa using lt v),
      Nat.mod_eq_of_lt (by simpa using lt v')] at hl
    exact ZMod.val_injective P hl
  · rintro rfl; rfl

/-- Low order does not depend on the scalar. -/
theorem spec_zero_iff {u k r : List Byte} (hu : u.length = 32) (hk : k.length = 32)
    (h : IsX25519 k u r) : r = List.replicate 32 0#8 ↔ LowOrder (coord u) := by
  rw [C15_spec_unique h (C15_shared_x64 ⟨true, true⟩ u k hu hk)]
  exact C20_zero_iff _ u k hu hk

theorem scalars_iff {u k k' r r' : List Byte} (hu : u.length = 32) (hk : k.length = 32)
    (hl : ¬ LowOrder (coord u)) (h : IsX25519 k u r) (h' : IsX25519 k' u r') :
    r = r' ↔ scalar k = scalar k' ∨ scalar k + scalar k' = 8 * primeOf (coord u) := by
  have hz := (spec_zero_iff hu hk h).not.2 hl
  obtain ⟨v, hv, rfl⟩ := h
  obtain ⟨v', hv', rfl⟩ := h'
  obtain ⟨m, hm, h1, h2⟩ := scalar_eight k
  obtain ⟨m', hm', h1', h2'⟩ := scalar_eight k'
  have hv0 : v ≠ 0 := fun e => hz (by rw [encode_zero_iff]; exact e)
  rw [hm] at hv ⊢
  rw [hm'] at hv' ⊢
  rw [encode_inj', xmul_scalars hv hv' hv0]
  have hq := primeOf_gt (coord u)
  generalize primeOf (coord u) = q at hq ⊢
  constructor
  · rintro (h | h)
    · left
      have : (m : ℤ) - m' = 0 := by
        apply Int.eq_zero_of_abs_lt_dvd h
        rw [abs_lt]; constructor <;> omega
      omega
    · right
      have h : q ∣ m + m' := by exact_mod_cast h
      obtain ⟨c, hc⟩ := h
      have : c = 1 := by
        rcases c with _ | _ | c
        · omega
        · rfl
        · exfalso
          have : q * 2 ≤ q * (c + 1 + 1) := Nat.mul_le_mul_left _ (by omega)
          omega
      subst this
      omega
  · rintro (h | h)
    · left
      have : (m : ℤ) - m' = 0 := by omega
      rw [this]; exact dvd_zero _
    · right
      have : (m : ℤ) + m' = q := by omega
      rw [this]

/-- C87.  Take a coordinate of the curve that is not of low order.  Two private keys give the same
secret with it exactly when they are clamped to the same scalar or to two scalars whose sum is
eight times the prime order of the base point. -/
theorem C87_shared_curve (isa isa' : Isa) (u k k' : List Byte) (hu : u.length = 32)
    (hk : k.length = 32) (hk' : k'.length = 32) (hl : ¬ LowOrder (coord u))
    (hc : ∃ y : Fp, y ^ 2 = coord u ^ 3 + 486662 * coord u ^ 2 + coord u) :
    shared_x64 isa u k = shared_x64 isa' u k' ↔ scalar k = scalar k' ∨
      scalar k + scalar k' = 8 * (2 ^ 252 + 27742317777372353535851937790883648493) := by
  rw [scalars_iff hu hk hl (C15_shared_x64 isa u k hu hk) (C15_shared_x64 isa' u k' hu hk'),
    primeOf, if_pos (show OnCurve (coord u) from hc), ell_num]

/-- C87, for a coordinate of the twist. -/
theorem C87_shared_twist (isa isa' : Isa) (u k k' : List Byte) (hu : u.length = 32)
    (hk : k.length = 32) (hk' : k'.length = 32) (hl : ¬ LowOrder (coord u))
    (hc : ¬ ∃ y : Fp, y ^ 2 = coord u ^ 3 + 486662 * coord u ^ 2 + coord u) :
    shared_x64 isa u k = shared_x64 isa' u k' ↔ scalar k = scalar k' ∨
      scalar k + scalar k' = 8 * (2 ^ 253 - 55484635554744707071703875581767296995) := by
  rw [scalars_iff hu hk hl (C15_shared_x64 isa u k hu hk) (C15_shared_x64 isa' u k' hu hk'),
    primeOf, if_neg (show ¬ OnCurve (coord u) from hc), ellT_num]

/-- y-coordinate of the base point. -/
def nineY : ℕ := 14781619447589544791020593568409986887264606134616475288964881837755586237401

theorem nine_curve : ∃ y : Fp, y ^ 2 = coord nine ^ 3 + 486662 * coord nine ^ 2 + coord nine := by
  refine ⟨(nineY : Fp), ?_⟩
  have h : ((nineY ^ 2 : ℕ) : Fp) = ((9 ^ 3 + 486662 * 9 ^ 2 + 9 : ℕ) : Fp) :=
    Ed25519.natEq (by decide +kernel)
  have e : coord nine = ((9 : ℕ) : Fp) := by
    rw [coord, nine, leNat_leBytes]; rfl
  push_cast at h
  rw [e, h]; norm_num

theorem nine_not_low : ¬ LowOrder (coord nine) := by
  rw [← C20_zero_iff ⟨true, true⟩ nine (leBytes 32 0) (leBytes_length _ _) (leBytes_length _ _),
    C20_zero_list _ nine _ (leBytes_length _ _) (leBytes_length _ _)]
  decide +kernel

/-- C87.  Two private keys have the same public key exactly when they are clamped to the same
scalar or to two scalars whose sum is eight times the prime order of the base point. -/
theorem C87_keygen (isa isa' : Isa) (k k' : List Byte) (hk : k.length = 32) (hk' : k'.length = 32) :
    keygen isa k = keygen isa' k' ↔ scalar k = scalar k' ∨
      scalar k + scalar k' = 8 * (2 ^ 252 + 27742317777372353535851937790883648493) := by
  rw [(C19_keygen_eq_shared isa isa isa k hk).1, (C19_keygen_eq_shared isa' isa' isa' k' hk').1]
  exact C87_shared_curve isa isa' nine k k' (leBytes_length _ _) hk hk' nine_not_low nine_curve

/-- The second case occurs: the all-zero key and this one are clamped to different scalars and
have the same public key. -/
theorem C87_twins (isa : Isa) :
    scalar (leBytes 32 0) ≠ scalar (leBytes 32 (8 * 27742317777372353535851937790883648493)) ∧
    keygen isa (leBytes 32 0)
      = keygen isa (leBytes 32 (8 * 27742317777372353535851937790883648493)) := by
  constructor
  · decide +kernel
  · rw [C87_keygen isa isa _ _ (leBytes_length _ _) (leBytes_length _ _)]
    right; decide +kernel

/-- C87.  A key whose scalar is at least 2^254 + 2^128, all but one in 2^126, shares its public key
only with the keys that are clamped to the same scalar. -/
theorem C87_keygen_inj (isa isa' : Isa) (k k' : List Byte) (hk : k.length = 32)
    (hk' : k'.length = 32) (hb : 2 ^ 254 + 2 ^ 128 ≤ scalar k)
    (h : keygen isa k = keygen isa' k') : scalar k = scalar k' := by
  rcases (C87_keygen isa isa' k k' hk hk').1 h with h | h
  · exact h
  · exfalso
    obtain ⟨m, hm, h1, h2⟩ := scalar_eight k'
    omega

/-- C87.  Two parties that take each other's public keys from key generation never get the
all-zero secret. -/
theorem C87_honest (isa isa' : Isa) (k k' : List Byte) (hk : k.length = 32) (hk' : k'.length = 32) :
    shared_x64 isa (keygen isa' k') k ≠ List.replicate 32 0#8 := by
  classical
  intro hz
  have hl := (C19_keygen_canonical isa' k' hk').1
  obtain ⟨v, hv, e⟩ := C19_keygen isa' k' hk'
  obtain ⟨w, hw, e'⟩ := C15_shared_x64 isa (keygen isa' k') k hl hk
  rw [hz, eq_comm, encode_zero_iff] at e'
  subst e'
  have hc : coord (keygen isa' k') = v := by
    have : canon v < P := ZMod.val_lt v
    have hP : P < 2 ^ 255 := by norm_num
    rw [e, coord, encode, leNat_leBytes, Nat.mod_eq_of_lt (a := canon v) (by omega),
      Nat.mod_eq_of_lt (by omega)]
    exact ZMod.natCast_zmod_val v
  rw [hc] at hw
  obtain ⟨m, hm, h1, h2⟩ := scalar_eight k
  obtain ⟨m', hm', h1', h2'⟩ := scalar_eight k'
  have hx := hv.mul hw
  obtain ⟨R, hR, hkill⟩ := exists_killed (coord nine)
  have h := hx _ R hR
  rw [map_zero] at h
  have h2 := Mont.two_smul_of_x0 h
  apply nine_not_low
  refine ⟨_, inferInstance, inferInstance, inferInstance, R, hR, ?_⟩
  have hq := primeOf_prime (coord nine)
  have hlt := primeOf_gt (coord nine)
  rw [← two_smul ℕ, smul_smul, hm, hm'] at h2
  rw [mul_comm 8, mul_smul] at hkill
  rw [show 2 * (8 * m * (8 * m')) = (16 * (m * m')) * 8 by ring, mul_smul] at h2
  have hco : Nat.Coprime (primeOf (coord nine)) (16 * (m * m')) := by
    refine Nat.Coprime.mul_right ?_ (Nat.Coprime.mul_right ?_ ?_)
    · exact coprime_of_lt hq (by norm_num) (by omega)
    · exact coprime_of_lt hq (by omega) (by omega)
    · exact coprime_of_lt hq (by omega) (by omega)
  have := Nat.dvd_gcd (addOrderOf_dvd_of_nsmul_eq_zero hkill) (addOrderOf_dvd_of_nsmul_eq_zero h2)
  rw [hco, Nat.dvd_one, AddMonoid.addOrderOf_eq_one_iff] at this
  exact this

/-! ## Public values -/

/-- C88.  Public values that give the same secret with one private key give the same secret with
every private key. -/
theorem C88_equivalent (isa isa' : Isa) (u u' k k' : List Byte) (hu : u.length = 32)
    (hu' : u'.length = 32) (hk : k.length = 32) (hk' : k'.length = 32)
    (h : shared_x64 isa u k = shared_x64 isa u' k) :
    shared_x64 isa' u k' = shared_x64 isa' u' k' := by
  by_cases hl : LowOrder (coord u)
  · have h1 := (C20_zero_iff isa u k hu hk).2 hl
    have hl' := (C20_zero_iff isa u' k hu' hk).1 (h.symm.trans h1)
    rw [(C20_zero_iff isa' u k' hu hk').2 hl, (C20_zero_iff isa' u' k' hu' hk').2 hl']
  · have hz := (C20_zero_iff isa u k hu hk).not.2 hl
    obtain ⟨v, hv, e⟩ := C15_shared_x64 isa u k hu hk
    obtain ⟨v', hv', e'⟩ := C15_shared_x64 isa u' k hu' hk
    obtain ⟨w, hw, f⟩ := C15_shared_x64 isa' u k' hu hk'
    obtain ⟨w', hw', f'⟩ := C15_shared_x64 isa' u' k' hu' hk'
    rw [e, e', encode_inj'] at h
    subst h
    have hv0 : v ≠ 0 := fun x => hz (by rw [e, encode_zero_iff]; exact x)
    obtain ⟨m, hm, h1, h2⟩ := scalar_eight k
    obtain ⟨n, hn, _, _⟩ := scalar_eight k'
    rw [hm] at hv hv'
    rw [hn] at hw hw'
    rw [f, f', xmul_transfer (by omega) (by omega) hv hv' hv0 hw hw']

/-- C88 for `X25519.shared`. -/
theorem C88_equivalent_avx2 (isa isa' : Isa) (u u' k k' : List Byte) (hu : u.length = 32)
    (hu' : u'.length = 32) (hk : k.length = 32) (hk' : k'.length = 32)
    (h : Avx2.shared isa u k = Avx2.shared isa u' k) :
    Avx2.shared isa' u k' = Avx2.shared isa' u' k' := by
  rw [C16_avx2_eq_x64 isa isa u k hu hk, C16_avx2_eq_x64 isa isa u' k hu' hk] at h
  rw [C16_avx2_eq_x64 isa' isa' u k' hu hk', C16_avx2_eq_x64 isa' isa' u' k' hu' hk']
  exact C88_equivalent isa isa' u u' k k' hu hu' hk hk' h

/-- C88.  Different values that are interchangeable: inverses of each other modulo p. -/
theorem C88_inverse (isa : Isa) (u u' k : List Byte) (hu : u.length = 32) (hu' : u'.length = 32)
    (hk : k.length = 32) (h : coord u * coord u' = 1) :
    shared_x64 isa u k = shared_x64 isa u' k := by
  classical
  obtain ⟨v, hv, e⟩ := C15_shared_x64 isa u k hu hk
  obtain ⟨v', hv', e'⟩ := C15_shared_x64 isa u' k hu' hk
  obtain ⟨m, hm, h1, h2⟩ := scalar_eight k
  rw [hm, show 8 * m = (4 * m) * 2 by ring] at hv hv'
  rw [e, e', encode_inj']
  obtain ⟨R, hR⟩ := C15_points_exist (coord u)
  obtain ⟨R', hR'⟩ := C15_points_exist (coord u')
  have x := hv _ R hR
  have x' := hv' _ R' hR'
  have d := dblX hR
  have d' := dblX hR'
  have h0 : coord u ≠ 0 := left_ne_zero_of_mul_eq_one h
  have hc : coord u' = (coord u)⁻¹ := eq_inv_of_mul_eq_one_right h
  have ed : (coord u' ^ 2 - 1) ^ 2 * (4 * coord u' * (coord u' ^ 2 + curveA * coord u' + 1))⁻¹
      = (coord u ^ 2 - 1) ^ 2 * (4 * coord u * (coord u ^ 2 + curveA * coord u + 1))⁻¹ := by
    rw [hc]
    generalize coord u = t at h0
    have n1 : ((t⁻¹) ^ 2 - 1) ^ 2 = (t ^ 2 - 1) ^ 2 * (t⁻¹) ^ 4 := by
      field_simp; ring
    have n2 : 4 * t⁻¹ * ((t⁻¹) ^ 2 + curveA * t⁻¹ + 1)
        = 4 * t * (t ^ 2 + curveA * t + 1) * (t⁻¹) ^ 4 := by
      field_simp
      ring
    rw [n1, n2, mul_inv, mul_mul_mul_comm, mul_inv_cancel₀ (pow_ne_zero _ (inv_ne_zero h0)), mul_one]
  rw [ed] at d'
  apply (algebraMap Fp (AlgebraicClosure Fp)).injective
  rw [← x, ← x', mul_smul (4 * m) 2 R, mul_smul (4 * m) 2 R', two_smul, two_smul]
  by_cases hz : Mont.X0 (R + R) = 0
  · have a := Mont.two_smul_of_x0 hz
    have a' := Mont.two_smul_of_x0 ((d'.trans d.symm).trans hz)
    rw [show 4 * m = (2 * m) * 2 by ring, mul_smul _ 2, mul_smul _ 2, two_smul, two_smul ℕ (R' + R'),
      a, a']
  · rcases same_x (d.trans d'.symm) hz with a | a
    · rw [a]
    · rw [a, smul_neg, X0_neg]

/-- Such a pair: 9 and its inverse. -/
example : coord nine * coord (leBytes 32
    32164469232587832062103051391302196625908329073789045566515995557753647122194) = 1 := by
  rw [coord, coord, nine, leNat_leBytes, leNat_leBytes, ← Nat.cast_mul, ← Nat.cast_one]
  exact Ed25519.natEq (by decide +kernel)

end Verif.X25519

namespace Verif.Ed25519

open Verif.Fp25519

set_option exponentiation.threshold 2000

/-- C87.  Two Ed25519 private keys have the same public key exactly when their digests are clamped
to the same scalar. -/
theorem C87_ed25519 (H : List Byte → List Byte) (isa isa' : Isa) (mode mode' : Mode)
    (sk sk' : List Byte) (hH : (H sk).length = 64) (hH' : (H sk').length = 64) :
    (apiKeygen H isa mode sk).2 = (apiKeygen H isa' mode' sk').2 ↔
      secretScalar (H sk) = secretScalar (H sk') := by
  rw [C53_keygen H isa mode sk hH, C53_keygen H isa' mode' sk' hH']
  constructor
  · intro h
    have h := encode_inj h
    have hd : (ell : ℤ) ∣ (secretScalar (H sk) : ℤ) - secretScalar (H sk') := by
      rw [← addOrderOf_B, addOrderOf_dvd_iff_zsmul_eq_zero, sub_smul, natCast_zsmul, natCast_zsmul,
        sub_eq_zero]
      exact h
    unfold secretScalar at hd ⊢
    have a := Nat.mod_lt (leNat ((H sk).take 32) / 8) (show 2 ^ 251 > 0 by positivity)
    have b := Nat.mod_lt (leNat ((H sk').take 32) / 8) (show 2 ^ 251 > 0 by positivity)
    generalize leNat ((H sk).take 32) / 8 % 2 ^ 251 = x at *
    generalize leNat ((H sk').take 32) / 8 % 2 ^ 251 = y at *
    have hd : (ell : ℤ) ∣ (8 : ℤ) * (x - y) := by
      convert hd using 1; push_cast; ring
    have hc : IsCoprime (ell : ℤ) 8 := by
      rw [Int.isCoprime_iff_gcd_eq_one]; decide +kernel
    have hd := hc.dvd_of_dvd_mul_left hd
    have : (x : ℤ) - y = 0 := by
      apply Int.eq_zero_of_abs_lt_dvd hd
      have : (2 : ℤ) ^ 251 < ell := by norm_num
      rw [abs_lt]; constructor <;> omega
    omega
  · intro h; rw [h]

/-- C87.  An Ed25519 public key is the encoding of a point whose order is the prime ℓ: it is not
the neutral element and not of low order. -/
theorem C87_ed25519_order (H : List Byte → List Byte) (isa : Isa) (mode : Mode) (sk : List Byte)
    (hH : (H sk).length = 64) : ∃ A : Pt, (apiKeygen H isa mode sk).2 = encode A ∧
      addOrderOf A = 2 ^ 252 + 27742317777372353535851937790883648493 := by
  refine ⟨secretScalar (H sk) • B, by rw [C53_keygen H isa mode sk hH], ?_⟩
  have hp := Fact.mk ell_prime
  have e : ell = 2 ^ 252 + 27742317777372353535851937790883648493 := by norm_num
  rw [← e]
  apply addOrderOf_eq_prime
  · rw [smul_smul, mul_comm, mul_smul]
    have := addOrderOf_nsmul_eq_zero B
    rw [addOrderOf_B] at this
    rw [this, smul_zero]
  · intro h
    have := addOrderOf_dvd_of_nsmul_eq_zero h
    rw [addOrderOf_B] at this
    unfold secretScalar at this
    have a := Nat.mod_lt (leNat ((H sk).take 32) / 8) (show 2 ^ 251 > 0 by positivity)
    generalize leNat ((H sk).take 32) / 8 % 2 ^ 251 = x at *
    rw [show 2 ^ 254 + 8 * x = 8 * (2 ^ 251 + x) by ring, ell_prime.dvd_mul] at this
    rcases this with h | h
    · have := Nat.le_of_dvd (by norm_num) h
      revert this; norm_num
    · have := Nat.le_of_dvd (by positivity) h
      have l : 2 ^ 252 < ell := by norm_num
      omega

end Verif.Ed25519
