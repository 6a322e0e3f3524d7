import Verif.X448.ZeroLemmas
import Verif.Props.X448

/-!
# When the X448 shared secret is zero (C86)

`X448.shared` loses carries for some products (`C45_wrong`), so it could return zero for a product
that is not zero.  It does not: the one product for which it would, 2^256 + 2^64, is the coordinate
of a point of order 4·ℓ of Curve448, and no multiple by a clamped scalar.
-/

namespace Verif.X448

open Verif.Fp448

set_option exponentiation.threshold 2000

theorem scalar_eq (k : List Byte) : scalar k = 4 * (2 ^ 445 + leNat k / 4 % 2 ^ 445) := by
  unfold scalar; ring

/-- The words that `ser` reduces at the end are zero only for zero and for one more residue. -/
theorem words_zero {V : ℤ} (h0 : 0 ≤ V) (h1 : V < 2 ^ 448 + 2 ^ 281) (hV : 2 ^ 448 ≤ V)
    (h : p448 ∣ V % 2 ^ 448 + ((V % 2 ^ 64 + V / 2 ^ 448) % 2 ^ 64 - V % 2 ^ 64) +
        2 ^ 192 * ((V / 2 ^ 192 % 2 ^ 64 + 2 ^ 32 * (V / 2 ^ 448)) % 2 ^ 64 -
          V / 2 ^ 192 % 2 ^ 64)) :
    V - p448 = 2 ^ 256 + 2 ^ 64 := by
  obtain ⟨d, hd⟩ : ∃ d : ℤ, d = V - 2 ^ 448 := ⟨_, rfl⟩
  have hV' : V = 2 ^ 448 + d := by omega
  have hd0 : 0 ≤ d := by omega
  have hd1 : d < 2 ^ 281 := by omega
  have k1 : V / 2 ^ 448 = 1 := by omega
  have k0 : V % 2 ^ 448 = d := by omega
  have k2 : V % 2 ^ 64 = d % 2 ^ 64 := by omega
  have k3 : V / 2 ^ 192 % 2 ^ 64 = d / 2 ^ 192 % 2 ^ 64 := by omega
  rw [k0, k1, k2, k3] at h
  obtain ⟨a, ha⟩ : ∃ a : ℤ, a = d % 2 ^ 64 := ⟨_, rfl⟩
  obtain ⟨b, hb⟩ : ∃ b : ℤ, b = d / 2 ^ 64 % 2 ^ 128 := ⟨_, rfl⟩
  obtain ⟨c, hc⟩ : ∃ c : ℤ, c = d / 2 ^ 192 % 2 ^ 64 := ⟨_, rfl⟩
  obtain ⟨e, he⟩ : ∃ e : ℤ, e = d / 2 ^ 256 := ⟨_, rfl⟩
  have ba : 0 ≤ a ∧ a < 2 ^ 64 := by omega
  have bb : 0 ≤ b ∧ b < 2 ^ 128 := by omega
  have bc : 0 ≤ c ∧ c < 2 ^ 64 := by omega
  have be : 0 ≤ e ∧ e < 2 ^ 25 := by omega
  have hs : d = a + 2 ^ 64 * b + 2 ^ 192 * c + 2 ^ 256 * e := by omega
  rw [← ha, ← hc] at h
  clear ha hb hc he k0 k1 k2 k3
  obtain ⟨x, hx⟩ : ∃ x : ℤ, x = (a + 1) % 2 ^ 64 := ⟨_, rfl⟩
  obtain ⟨y, hy⟩ : ∃ y : ℤ, y = (c + 2 ^ 32 * 1) % 2 ^ 64 := ⟨_, rfl⟩
  have bx : 0 ≤ x ∧ x < 2 ^ 64 := by omega
  have by' : 0 ≤ y ∧ y < 2 ^ 64 := by omega
  rw [← hx, ← hy] at h
  have e1 : d + (x - a) + 2 ^ 192 * (y - c) = x + 2 ^ 64 * b + 2 ^ 192 * y + 2 ^ 256 * e := by
    rw [hs]; ring
  rw [e1] at h
  have hz : x + 2 ^ 64 * b + 2 ^ 192 * y + 2 ^ 256 * e = 0 := by
    refine Int.eq_zero_of_dvd_of_nonneg_of_lt ?_ ?_ h
    · omega
    · unfold p448; omega
  have z : x = 0 ∧ b = 0 ∧ y = 0 ∧ e = 0 := by omega
  obtain ⟨rfl, rfl, rfl, rfl⟩ := z
  have a1 : a = 2 ^ 64 - 1 := by omega
  have c1 : c = 2 ^ 64 - 2 ^ 32 := by omega
  rw [hV', hs, a1, c1]
  unfold p448; norm_num

/-- The returned bytes are zero exactly if the product is. -/
theorem C86_bytes (u k : List Byte) (hu : u.length = 56) (hk : k.length = 56) {v : Fp}
    (hv : IsProduct k u v) : shared u k = List.replicate 56 0#8 ↔ v = 0 := by
  have hp := C45_ladder u k hu hk
  have e := C45_product_unique hv hp
  have ht := sharedElt_tight u k hu hk
  constructor
  · intro h
    have hl : (leNat (shared u k) : ℤ) = canon (R1.serWords (sharedElt u k)).toFp := by
      unfold shared R1.ser Full.ser
      rw [F7.leNat_toBytes, Full.modp_val_canon]
    have h0 : leNat (List.replicate 56 0#8) = 0 := by decide +kernel
    rw [h, h0] at hl
    have hw : (R1.serWords (sharedElt u k)).toFp = 0 :=
      ZMod.val_injective P (by rw [ZMod.val_zero]; unfold canon at hl; exact_mod_cast hl.symm)
    have hs : (sharedElt u k).Le signedB := ht.mono (by decide)
    obtain ⟨h1, -⟩ := value_lt_of_tight ht
    by_cases hV : (sharedElt u k).value < 2 ^ 448
    · have hn := noCarry_of_lt (value_nonneg _) hV
      rw [← serFold_of_tight ht, ← serWords_toFp hs] at hn
      rw [e, ← hn, hw]
    · exfalso
      rw [F7.toFp, serWords_val hs, serFold_of_tight ht] at hw
      have hd := (ZMod.intCast_zmod_eq_zero_iff_dvd _ P).1 hw
      rw [P_eq] at hd
      have := words_zero (value_nonneg _) h1 (not_lt.1 hV) hd
      have hvl : v = (lostN : Fp) := by
        rw [e, Elt8.toFp_value]
        have : (sharedElt u k).value = ((lostN : ℕ) : ℤ) + p448 := by
          rw [← sub_eq_iff_eq_add, this, lostN]; norm_num
        rw [this, Int.cast_add, ← P_eq, Int.cast_natCast, Int.cast_natCast, ZMod.natCast_self,
          add_zero]
      rw [IsProduct, hvl, scalar_eq] at hv
      exact lost_not_product hv
  · intro h
    subst h
    rw [C45_shared_partial u k hu hk hv (Or.inl (by simp [canon]))]
    decide +kernel

/-- C86.  The shared secret is all zero exactly when the coordinate is 0, 1 or -1 modulo p, the
coordinates of the points of order 1, 2 and 4 of Curve448 and of its twist; and for one scalar, the
order 4·ℓ of Curve448, which clamping allows, for every coordinate of the curve. -/
theorem C86_zero_iff (u k : List Byte) (hu : u.length = 56) (hk : k.length = 56) :
    shared u k = List.replicate 56 0#8 ↔
      (coord u = 0 ∨ coord u = 1 ∨ coord u = -1) ∨
      (scalar k = 4 * (2 ^ 446 - 0x8335dc163bb124b65129c96fde933d8d723a70aadc873d6d54a7bb0d) ∧
        ∃ y : Fp, y ^ 2 = coord u ^ 3 + 156326 * coord u ^ 2 + coord u) := by
  have hp := C45_ladder u k hu hk
  rw [C86_bytes u k hu hk hp]
  have h := hp
  rw [IsProduct, scalar_eq] at h
  have hm := Nat.mod_lt (leNat k / 4) (show 2 ^ 445 > 0 by positivity)
  rw [zero_iff (by positivity) (by omega) h, scalar_eq, Nat.mul_right_inj (by norm_num)]
  rfl

/-- C86, in numbers: with every other scalar, the secret is all zero for exactly three residues of
the public value. -/
theorem C86_zero_list (u k : List Byte) (hu : u.length = 56) (hk : k.length = 56)
    (hs : scalar k ≠ 4 * (2 ^ 446 - 0x8335dc163bb124b65129c96fde933d8d723a70aadc873d6d54a7bb0d)) :
    shared u k = List.replicate 56 0#8 ↔
      leNat u % (2 ^ 448 - 2 ^ 224 - 1) ∈ [0, 1, 2 ^ 448 - 2 ^ 224 - 2] := by
  rw [C86_zero_iff u k hu hk, or_iff_left (fun h => hs h.1), coord]
  have eP : P = 2 ^ 448 - 2 ^ 224 - 1 := by decide +kernel
  have key : ∀ n : ℕ, n < P →
      (((leNat u : ℕ) : Fp) = (n : Fp) ↔ leNat u % (2 ^ 448 - 2 ^ 224 - 1) = n) := by
    intro n hn
    rw [ZMod.natCast_eq_natCast_iff', Nat.mod_eq_of_lt hn, eP]
  have hm1 : (-1 : Fp) = ((P - 1 : ℕ) : Fp) := by
    rw [Nat.cast_sub (by decide +kernel), ZMod.natCast_self]; push_cast; ring
  have h0 := key 0 (by decide +kernel)
  have h1 := key 1 (by decide +kernel)
  rw [Nat.cast_zero] at h0
  rw [Nat.cast_one] at h1
  rw [hm1, h0, h1, key _ (by decide +kernel), eP]
  simp

/-- The private key with the scalar 4·ℓ. -/
def orderKey : List Byte :=
  leBytes 56 (4 * (2 ^ 446 - 0x8335dc163bb124b65129c96fde933d8d723a70aadc873d6d54a7bb0d))

/-- There is such a private key: with it the secret shared with the base point, a point that is not
of low order, is all zero. -/
theorem C86_order_key : shared (leBytes 56 5) orderKey = List.replicate 56 0#8 := by
  rw [C86_zero_iff _ orderKey (leBytes_length _ _) (leBytes_length _ _)]
  right
  refine ⟨by decide +kernel, (yE : Fp), ?_⟩
  have h : ((yE ^ 2 : ℕ) : Fp) = ((5 ^ 3 + 156326 * 5 ^ 2 + 5 : ℕ) : Fp) :=
    Ed448.natEq (by decide +kernel)
  have e : coord (leBytes 56 5) = ((5 : ℕ) : Fp) := by
    rw [coord, leNat_leBytes]; rfl
  push_cast at h
  rw [e, h]; norm_num

/-- Both sides occur: for the all-zero key the coordinate 1 gives the all-zero secret, the base point
does not. -/
example : shared (leBytes 56 1) (leBytes 56 0) = List.replicate 56 0#8 ∧
    shared (leBytes 56 5) (leBytes 56 0) ≠ List.replicate 56 0#8 := by
  constructor
  · rw [C86_zero_list _ _ (leBytes_length _ _) (leBytes_length _ _) (by decide +kernel)]
    decide +kernel
  · rw [Ne, C86_zero_list _ _ (leBytes_length _ _) (leBytes_length _ _) (by decide +kernel)]
    decide +kernel

end Verif.X448
