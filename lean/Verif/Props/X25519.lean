import Verif.X25519.X64Lemmas
import Verif.X25519.Avx2Lemmas

/-!
# Properties of X25519 (C15, C16, C17, C18, C20)

`IsX25519`, `scalar`, `coord` and `encode` are the specification, in `Verif/X25519/Spec.lean`;
`Mont.XMul` is in `Verif/Curve/Ladder.lean`.
-/

namespace Verif.X25519

open Verif.Fp25519

/-- The specification determines the result: there is at most one `r` with `IsX25519 k u r`. -/
theorem C15_spec_unique {k u r r' : List Byte} (h : IsX25519 k u r) (h' : IsX25519 k u r') :
    r = r' := by
  obtain ⟨v, hv, rfl⟩ := h
  obtain ⟨v', hv', rfl⟩ := h'
  rw [hv.unique curve_two curve_A hv']

/-- C15.  `X25519_x64.shared` computes the X25519 function: for all 32-byte inputs, in every
build variant, the output is the encoding of the x-coordinate of `scalar k` times any point with
x-coordinate `coord u`, over every extension field of GF(2^255-19). -/
theorem C15_shared_x64 (isa : Isa) (u k : List Byte) (hu : u.length = 32) (hk : k.length = 32) :
    IsX25519 k u (shared_x64 isa u k) :=
  shared_x64_spec isa hu hk

/-- The output is 32 bytes and canonical. -/
theorem C15_shared_x64_canonical (isa : Isa) (u k : List Byte) (hu : u.length = 32)
    (hk : k.length = 32) :
    (shared_x64 isa u k).length = 32 ∧ leNat (shared_x64 isa u k) < 2 ^ 255 - 19 := by
  obtain ⟨v, -, h⟩ := shared_x64_spec isa hu hk
  have hv : canon v < 2 ^ 255 - 19 := ZMod.val_lt v
  rw [h, encode]
  refine ⟨leBytes_length _ _, ?_⟩
  rw [leNat_leBytes, Nat.mod_eq_of_lt (by omega)]
  exact hv

/-- The vector implementation `X25519.shared` computes the same function. -/
theorem C15_shared_avx2 (isa : Isa) (u k : List Byte) (hu : u.length = 32) (hk : k.length = 32) :
    IsX25519 k u (Avx2.shared isa u k) :=
  Avx2.shared_spec isa hu hk

/-- C16.  `X25519.shared` and `X25519_x64.shared` return the same bytes on every pair of 32-byte
inputs, in every pair of build variants. -/
theorem C16_avx2_eq_x64 (isa isa' : Isa) (u k : List Byte) (hu : u.length = 32)
    (hk : k.length = 32) : Avx2.shared isa u k = shared_x64 isa' u k :=
  C15_spec_unique (Avx2.shared_spec isa hu hk) (shared_x64_spec isa' hu hk)

/-- The base point u = 9 as 32 bytes. -/
def nine : List Byte := leBytes 32 9

/-- Non-vacuity: an instance of the theorem on the curve itself, for the base point and the
key of RFC 7748, section 6.1; Alice's public key is the expected one. -/
example : shared_x64 ⟨true, true⟩ nine
      (leBytes 32 0x2a2cb91da5fb77b12a99c0eb872f4cdf4566b25172c1163c7da518730a6d0777) =
    leBytes 32 0x6a4e9baa8ea9a4ebf41a38260d3abf0d5af73eb4dc7d8b7454a7308909f02085 := by
  decide +kernel

/-- Non-vacuity of C16: the vector implementation on the same vector. -/
example : Avx2.shared ⟨true, true⟩ nine
      (leBytes 32 0x2a2cb91da5fb77b12a99c0eb872f4cdf4566b25172c1163c7da518730a6d0777) =
    leBytes 32 0x6a4e9baa8ea9a4ebf41a38260d3abf0d5af73eb4dc7d8b7454a7308909f02085 := by
  rw [C16_avx2_eq_x64 _ ⟨true, true⟩ _ _ (by simp [nine]) (by simp)]
  decide +kernel

/-- Every `u` is the x-coordinate of a point over some extension field, so the quantification
over points in `IsX25519` is never empty. -/
theorem C15_points_exist (u : Fp) :
    ∃ P : Mont.Pt (algebraMap Fp (AlgebraicClosure Fp) curveA),
      Mont.X0 P = algebraMap Fp (AlgebraicClosure Fp) u :=
  Mont.exists_point curve_two curve_A u

/-- C17.  The result depends only on bits 3..253 of the secret key and on the low 255 bits of the
coordinate modulo p. -/
theorem C17_shared_x64_inputs (isa isa' : Isa) (u u' k k' : List Byte) (hu : u.length = 32)
    (hu' : u'.length = 32) (hk : k.length = 32) (hk' : k'.length = 32)
    (hkk : leNat k / 8 % 2 ^ 251 = leNat k' / 8 % 2 ^ 251)
    (huu : leNat u % 2 ^ 255 % (2 ^ 255 - 19) = leNat u' % 2 ^ 255 % (2 ^ 255 - 19)) :
    shared_x64 isa u k = shared_x64 isa' u' k' := by
  have h := shared_x64_spec isa hu hk
  have h' := shared_x64_spec isa' hu' hk'
  have hs : scalar k = scalar k' := by unfold scalar; rw [hkk]
  have hc : coord u = coord u' := by
    unfold coord
    exact (ZMod.natCast_eq_natCast_iff' _ _ P).2 huu
  unfold IsX25519 at h h'
  rw [hs, hc] at h
  exact C15_spec_unique h h'

/-- C17 for the vector implementation. -/
theorem C17_shared_avx2_inputs (isa isa' : Isa) (u u' k k' : List Byte) (hu : u.length = 32)
    (hu' : u'.length = 32) (hk : k.length = 32) (hk' : k'.length = 32)
    (hkk : leNat k / 8 % 2 ^ 251 = leNat k' / 8 % 2 ^ 251)
    (huu : leNat u % 2 ^ 255 % (2 ^ 255 - 19) = leNat u' % 2 ^ 255 % (2 ^ 255 - 19)) :
    Avx2.shared isa u k = Avx2.shared isa' u' k' := by
  rw [C16_avx2_eq_x64 isa isa u k hu hk, C16_avx2_eq_x64 isa' isa u' k' hu' hk']
  exact C17_shared_x64_inputs _ _ _ _ _ _ hu hu' hk hk' hkk huu

/-- Non-vacuity of C17: the two encodings 2 and p + 2 with different top bits, two different
keys. -/
example : shared_x64 ⟨false, false⟩ (leBytes 32 2) (leBytes 32 (7 + 2 ^ 255)) =
    shared_x64 ⟨true, false⟩ (leBytes 32 (2 ^ 255 - 19 + 2 + 2 ^ 255)) (leBytes 32 (2 ^ 254)) :=
  C17_shared_x64_inputs _ _ _ _ _ _ (by simp) (by simp) (by simp) (by simp)
    (by rw [leNat_leBytes, leNat_leBytes]; norm_num)
    (by rw [leNat_leBytes, leNat_leBytes]; norm_num)

/-- A shared secret, read back as a coordinate, is the x-coordinate it encodes. -/
theorem coord_encode (v : Fp) : coord (encode v) = v := by
  have hv : canon v < 2 ^ 255 - 19 := ZMod.val_lt v
  rw [coord, encode, leNat_leBytes, Nat.mod_eq_of_lt (a := canon v) (by omega),
    Nat.mod_eq_of_lt (by omega), canon, ZMod.natCast_zmod_val]

/-- Applying the X25519 function twice multiplies by the product of the scalars. -/
theorem isX25519_comp {a b u r s : List Byte} (h : IsX25519 a u r) (h' : IsX25519 b r s) :
    ∃ v : Fp, Mont.XMul curveA (scalar b * scalar a) (coord u) v ∧ s = encode v := by
  obtain ⟨v, hv, rfl⟩ := h
  obtain ⟨w, hw, rfl⟩ := h'
  rw [coord_encode] at hw
  exact ⟨w, hv.mul hw, rfl⟩

/-- The X25519 function commutes: both parties obtain the same secret, whatever correct
implementations they use. -/
theorem C18_dh_spec {a b u ra rb s s' : List Byte} (h1 : IsX25519 a u ra) (h2 : IsX25519 b ra s)
    (h3 : IsX25519 b u rb) (h4 : IsX25519 a rb s') : s = s' := by
  obtain ⟨v, hv, rfl⟩ := isX25519_comp h1 h2
  obtain ⟨w, hw, rfl⟩ := isX25519_comp h3 h4
  rw [mul_comm] at hw
  rw [hv.unique curve_two curve_A hw]

/-- C18.  Diffie-Hellman agreement for `X25519_x64.shared`, for all secrets `a`, `b` and all
starting coordinates `u`; the two parties may run different build variants. -/
theorem C18_dh_x64 (isa isa' : Isa) (u a b : List Byte) (hu : u.length = 32) (ha : a.length = 32)
    (hb : b.length = 32) :
    shared_x64 isa' (shared_x64 isa u a) b = shared_x64 isa (shared_x64 isa' u b) a := by
  have hl := (C15_shared_x64_canonical isa u a hu ha).1
  have hl' := (C15_shared_x64_canonical isa' u b hu hb).1
  exact C18_dh_spec (shared_x64_spec isa hu ha) (shared_x64_spec isa' hl hb)
    (shared_x64_spec isa' hu hb) (shared_x64_spec isa hl' ha)

/-- C18 for `X25519.shared`, and for one party using each implementation. -/
theorem C18_dh_avx2 (isa isa' : Isa) (u a b : List Byte) (hu : u.length = 32) (ha : a.length = 32)
    (hb : b.length = 32) :
    Avx2.shared isa' (Avx2.shared isa u a) b = Avx2.shared isa (Avx2.shared isa' u b) a ∧
    Avx2.shared isa' (shared_x64 isa u a) b = shared_x64 isa (Avx2.shared isa' u b) a := by
  have hl := (C15_shared_x64_canonical isa u a hu ha).1
  have hl' := (C15_shared_x64_canonical isa' u b hu hb).1
  rw [C16_avx2_eq_x64 isa isa u a hu ha, C16_avx2_eq_x64 isa' isa' u b hu hb,
    C16_avx2_eq_x64 isa' isa' _ b hl hb, C16_avx2_eq_x64 isa isa _ a hl' ha]
  exact ⟨C18_dh_x64 isa isa' u a b hu ha hb, C18_dh_x64 isa isa' u a b hu ha hb⟩

/-- Non-vacuity of C18: three byte strings of the right length. -/
example : shared_x64 ⟨true, true⟩ (shared_x64 ⟨true, false⟩ nine (leBytes 32 12345))
      (leBytes 32 67890) =
    shared_x64 ⟨true, false⟩ (shared_x64 ⟨true, true⟩ nine (leBytes 32 67890))
      (leBytes 32 12345) :=
  C18_dh_x64 _ _ _ _ _ (by simp [nine]) (by simp) (by simp)

/-- `u` is the x-coordinate of a point whose order divides 8, over some extension field. -/
def LowOrder (u : Fp) : Prop :=
  ∃ (K : Type) (_ : Field K) (_ : DecidableEq K) (_ : Algebra Fp K)
    (P : Mont.Pt (algebraMap Fp K curveA)), Mont.X0 P = algebraMap Fp K u ∧ 8 • P = 0

/-- C20, first half (the converse is in `Verif/Props/X25519Zero.lean`):
coordinates of points of order dividing 8 give the all-zero secret for every private key. -/
theorem C20_low_order (isa : Isa) (u k : List Byte) (hu : u.length = 32)
    (hk : k.length = 32) (h : LowOrder (coord u)) :
    shared_x64 isa u k = List.replicate 32 0#8 := by
  obtain ⟨v, hv, hr⟩ := shared_x64_spec isa hu hk
  obtain ⟨K, _, _, _, P, hP, h8⟩ := h
  have := hv K P hP
  have hs : scalar k = (2 ^ 251 + leNat k / 8 % 2 ^ 251) * 8 := by unfold scalar; ring
  rw [hs, mul_smul, h8, smul_zero] at this
  have hv0 : v = 0 := (algebraMap Fp K).injective (by rw [map_zero]; exact this.symm)
  rw [hr, hv0]
  rfl

/-- Non-vacuity of C20: `u = 1` is the x-coordinate of a point of order 4. -/
example : LowOrder 1 := by
  classical
  obtain ⟨P, hP⟩ := C15_points_exist 1
  refine ⟨_, inferInstance, inferInstance, inferInstance, P, hP, ?_⟩
  have h2 : Mont.X0 (P + P) = 0 := by
    cases P with
    | zero => rfl
    | some x y h =>
      have hx : x = 1 := by rw [map_one] at hP; exact hP
      have hr := Mont.rep_dbl (P := .some x y h) (X := 1) (Z := 1) (by
        have := curve_two
        intro h2
        apply this
        apply (algebraMap Fp (AlgebraicClosure Fp)).injective
        rw [map_ofNat, map_zero, h2]) (by
        intro h4
        apply curve_A
        apply (algebraMap Fp (AlgebraicClosure Fp)).injective
        rw [map_ofNat, map_pow, h4]) ⟨one_ne_zero, by rw [hx, one_mul]⟩
      rw [← hr.x0]
      ring
  have h4 := Mont.two_smul_of_x0 h2
  have : 8 • P = (2 : ℕ) • ((P + P) + (P + P)) := by
    rw [← two_smul ℕ P, ← add_smul, ← mul_smul]; rfl
  rw [this, h4, smul_zero]

end Verif.X25519
