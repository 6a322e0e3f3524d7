import Verif.X448.Run

/-!
# Properties of X448 (C45)

`IsX448`, `IsProduct`, `scalar`, `coord` and `encode` are the specification, in
`Verif/X448/Spec.lean`; `Mont.XMul` is in `Verif/Curve/Ladder.lean`.
-/

namespace Verif.X448

open Verif.Fp448

set_option exponentiation.threshold 2000

/-- The specification determines the x-coordinate. -/
theorem C45_product_unique {k u : List Byte} {v v' : Fp} (h : IsProduct k u v)
    (h' : IsProduct k u v') : v = v' := h.unique curve_two curve_A h'

/-- The specification determines the bytes: there is at most one `r` with `IsX448 k u r`. -/
theorem C45_spec_unique {k u r r' : List Byte} (h : IsX448 k u r) (h' : IsX448 k u r') :
    r = r' := by
  obtain ⟨v, hv, rfl⟩ := h
  obtain ⟨v', hv', rfl⟩ := h'
  rw [C45_product_unique hv hv']

/-- Every `u` is the x-coordinate of a point over some extension field, so the quantification
over points in `IsProduct` is never empty. -/
theorem C45_points_exist (u : Fp) :
    ∃ P : Mont.Pt (algebraMap Fp (AlgebraicClosure Fp) curveA),
      Mont.X0 P = algebraMap Fp (AlgebraicClosure Fp) u :=
  Mont.exists_point curve_two curve_A u

/-- C45, the ladder and the conversion to affine coordinates: for all 56-byte inputs the element
that is written out represents the x-coordinate of `scalar k` times any point with x-coordinate
`coord u`. -/
theorem C45_ladder (u k : List Byte) (hu : u.length = 56) (hk : k.length = 56) :
    IsProduct k u (sharedElt u k).toFp := by
  obtain ⟨v, hv, h⟩ := sharedElt_spec hu hk
  have e : (sharedElt u k).toFp = v := h.2
  rw [e]; exact hv

theorem sharedElt_tight (u k : List Byte) (hu : u.length = 56) (hk : k.length = 56) :
    (sharedElt u k).Le tight := by
  obtain ⟨v, -, h⟩ := sharedElt_spec hu hk
  exact h.1

theorem serFold_of_tight {a : Elt8 U} (h : a.Le tight) : serFold a.limbs.ints = a.value := by
  have h15 := (value_lt_of_tight h).2
  have h0 : 0 ≤ a.limbs.ints.r15 := by simp only [Elt16.ints, Elt16.map]; positivity
  unfold serFold Elt8.value
  rw [show a.limbs.ints.r15 / 2 ^ 28 = 0 by omega]
  ring

/-- C45, exactly: `X448.shared` returns the bytes of the X448 function if and only if the final
serialisation loses no carry. -/
theorem C45_shared_iff (u k : List Byte) (hu : u.length = 56) (hk : k.length = 56) :
    IsX448 k u (shared u k) ↔ NoCarry (sharedElt u k).value := by
  have ht := sharedElt_tight u k hu hk
  have hp := C45_ladder u k hu hk
  rw [← serFold_of_tight ht, ← ser_eq_iff (ht.mono (by decide))]
  constructor
  · rintro ⟨v, hv, h⟩
    rw [C45_product_unique hp hv]
    exact h
  · intro h
    exact ⟨_, hp, h⟩

/-- The x-coordinates for which the serialisation is right whatever the limbs: all but those
strictly between 2^224 and 2^282 that are multiples of 2^64 or have their bits 224 to 255, after
subtracting 1, equal to zero. -/
def Safe (c : ℕ) : Prop :=
  c ≤ 2 ^ 224 ∨ 2 ^ 282 ≤ c ∨ (c % 2 ^ 64 ≠ 0 ∧ (c - 1) / 2 ^ 224 % 2 ^ 32 ≠ 0)

instance (c : ℕ) : Decidable (Safe c) := by unfold Safe; infer_instance

theorem noCarry_of_safe {V : ℤ} {c : ℕ} (h0 : 0 ≤ V) (h1 : V < 2 ^ 448 + 2 ^ 281)
    (hc : (c : ℤ) = V % p448) (hs : Safe c) : NoCarry V := by
  by_cases hV : V < 2 ^ 448
  · exact noCarry_of_lt h0 hV
  have e : (c : ℤ) = V - p448 := by
    rw [hc, ← Int.sub_emod_right V p448]
    unfold p448 at *
    exact Int.emod_eq_of_lt (by omega) (by omega)
  obtain ⟨d, hd⟩ : ∃ d : ℤ, d = V - 2 ^ 448 := ⟨_, rfl⟩
  have hcd : (c : ℤ) = d + 2 ^ 224 + 1 := by rw [e, hd]; unfold p448; ring
  have hV' : V = 2 ^ 448 + d := by omega
  have hd0 : 0 ≤ d := by omega
  have hd1 : d < 2 ^ 281 := by omega
  obtain ⟨e', rfl⟩ : ∃ e' : ℕ, d = e' := ⟨d.toNat, by omega⟩
  have hc' : c = e' + 2 ^ 224 + 1 := by exact_mod_cast hcd
  unfold Safe at hs
  have hs : c % 2 ^ 64 ≠ 0 ∧ (c - 1) / 2 ^ 224 % 2 ^ 32 ≠ 0 := by
    rcases hs with hs | hs | hs
    · omega
    · omega
    · exact hs
  have k1 : V / 2 ^ 448 = 1 := by omega
  unfold NoCarry
  rw [k1]
  obtain ⟨s1, s2⟩ := hs
  subst hc'
  have t1 : (e' + 2 ^ 224 + 1 - 1) / 2 ^ 224 = e' / 2 ^ 224 + 1 := by omega
  rw [t1] at s2
  have k2 : V % 2 ^ 64 = ((e' % 2 ^ 64 : ℕ) : ℤ) := by omega
  have k3 : V / 2 ^ 192 % 2 ^ 64 = ((e' / 2 ^ 192 % 2 ^ 64 : ℕ) : ℤ) := by omega
  have k4 : e' / 2 ^ 192 / 2 ^ 32 = e' / 2 ^ 224 := by rw [Nat.div_div_eq_div_mul, ← pow_add]
  rw [k2, k3]
  constructor
  · omega
  · rw [← k4] at s2
    omega

/-- C45 (`_partial`: the full statement, without the hypothesis on `v`, is refuted by
`C45_wrong`).  For all 56-byte inputs whose X448 value `v` is `Safe`, `X448.shared` returns its
canonical encoding.  All but about one in 2^198 of the values are `Safe`. -/
theorem C45_shared_partial (u k : List Byte) (hu : u.length = 56) (hk : k.length = 56) {v : Fp}
    (hv : IsProduct k u v) (hs : Safe (canon v)) : shared u k = encode v := by
  have ht := sharedElt_tight u k hu hk
  have hp := C45_ladder u k hu hk
  have hvv := C45_product_unique hv hp
  have hc : (canon v : ℤ) = (sharedElt u k).value % p448 := by
    rw [hvv, Elt8.toFp_value, canon, ZMod.val_intCast, P_eq]
  obtain ⟨w, hw, h⟩ := (C45_shared_iff u k hu hk).2
    (noCarry_of_safe (value_nonneg _) (value_lt_of_tight ht).1 hc hs)
  rw [h, C45_product_unique hv hw]

/-- Diffie-Hellman agreement (`_partial`, as above): for all starting coordinates and all
secrets, if the two public values and the shared value are `Safe`, both parties obtain the same
bytes. -/
theorem C45_dh_partial (u a b : List Byte) (hu : u.length = 56) (ha : a.length = 56)
    (hb : b.length = 56) {va vb w : Fp} (h1 : IsProduct a u va) (h2 : IsProduct b u vb)
    (h3 : Mont.XMul curveA (scalar b * scalar a) (coord u) w)
    (s1 : Safe (canon va)) (s2 : Safe (canon vb)) (s3 : Safe (canon w)) :
    shared (shared u a) b = encode w ∧ shared (shared u b) a = encode w := by
  have key : ∀ {a b : List Byte} {va : Fp}, a.length = 56 → b.length = 56 → IsProduct a u va →
      Safe (canon va) → Mont.XMul curveA (scalar b * scalar a) (coord u) w →
      shared (shared u a) b = encode w := by
    intro a b va ha hb h1 s1 h3
    have e := C45_shared_partial u a hu ha h1 s1
    have hl : (encode va).length = 56 := leBytes_length _ _
    have hc : coord (encode va) = va := by
      have hlt : canon va < 256 ^ 56 := lt_of_lt_of_le (ZMod.val_lt va) (by decide +kernel)
      rw [coord, encode, leNat_leBytes, Nat.mod_eq_of_lt hlt, canon, ZMod.natCast_zmod_val]
    rw [e]
    have hp := C45_ladder (encode va) b hl hb
    have hm : IsProduct b (encode va) w := by
      have h4 : Mont.XMul curveA (scalar b) va (sharedElt (encode va) b).toFp := by
        have := hp
        unfold IsProduct at this
        rwa [hc] at this
      have := (Mont.XMul.mul h1 h4).unique curve_two curve_A h3
      rw [← this]; exact hp
    exact C45_shared_partial _ b hl hb hm s3
  exact ⟨key ha hb h1 s1 h3, key hb ha h2 s2 (by rw [mul_comm]; exact h3)⟩

/-- The bytes returned are always 56 and canonical, even when they are wrong. -/
theorem C45_shared_canonical (u k : List Byte) :
    (shared u k).length = 56 ∧ leNat (shared u k) < 2 ^ 448 - 2 ^ 224 - 1 := by
  unfold shared R1.ser Full.ser
  refine ⟨F7.toBytes_length _, ?_⟩
  have h := Full.modp_val_canon (R1.serWords (sharedElt u k))
  rw [← F7.leNat_toBytes] at h
  have h' : leNat (Full.modp (R1.serWords (sharedElt u k))).toBytes =
    canon (R1.serWords (sharedElt u k)).toFp := by exact_mod_cast h
  rw [h']
  exact lt_of_lt_of_le (ZMod.val_lt _) (by decide +kernel)

/-- C45 is false as stated: for this coordinate and the all-zero key the X448 function gives
2^225 + 2^64, and `X448.shared` returns 2^225. -/
theorem C45_wrong : IsX448 wk wu (leBytes 56 (2 ^ 225 + 2 ^ 64)) ∧
    shared wu wk = leBytes 56 (2 ^ 225) ∧ ¬ IsX448 wk wu (shared wu wk) := by
  have hu : wu.length = 56 := leBytes_length _ _
  have hk : wk.length = 56 := leBytes_length _ _
  have hp := C45_ladder wu wk hu hk
  have hi := C45_shared_iff wu wk hu hk
  have hsh : shared wu wk = R1.ser (sharedElt wu wk) := rfl
  rw [w_elt] at hp hi hsh
  refine ⟨⟨_, hp, ?_⟩, hsh.trans (by decide +kernel), ?_⟩
  · decide +kernel
  · rw [hi]; decide +kernel

/-- The point of the counterexample is not exotic: its coordinate is that of a point of the
prime-order subgroup of Curve448, and 2^225 + 2^64 is not `Safe`. -/
example : ¬ Safe (2 ^ 225 + 2 ^ 64) := by decide

/-- Evaluation of the specification: a way to find the product. -/
theorem product_eval {k u : List Byte} {v : Fp}
    (h : let r := (loopBits (scalar k)).foldl (Mont.step 39082 (coord u))
          (Mont.initC (coord u) (coord u));
      r.z2 ≠ 0 ∧ v * r.z2 = r.x2) : IsProduct k u v := by
  obtain ⟨l, hlast⟩ := loopBits_last (N := scalar k) (by rw [scalar]; omega)
  have hval := loopBits_val (scalar k)
  rw [Nat.mod_eq_of_lt (by unfold scalar; omega), hlast] at hval
  have hX := Mont.ladder_xmulC curve_two curve_A curve_a24 (coord u) (coord u) (fun h => h) l
  rw [hval] at hX
  rw [hlast] at h
  have e := (eq_mul_inv_iff_mul_eq₀ h.1).2 h.2
  rw [e]
  exact hX

/-- The secret key `a` of RFC 7748, section 6.2. -/
def rfcKey : List Byte := leBytes 56
  0x6b7298a5c0d8c29a1dab27f1a6826300917389449741a974f5bac9d98dc298d46555bce8bae89eeed400584bb046cf75579f51d125498f9a

/-- Non-vacuity of `C45_shared_partial`: the generator with the secret key `a` of RFC 7748,
section 6.2, gives the public key printed there. -/
theorem C45_rfc7748 : shared (leBytes 56 5) rfcKey = leBytes 56
    0xa01fc432e5807f17530d1288da125b0cd453d941726436c8bbd9c5222c3da7fa639ce03db8d23b274a0721a1aed5227de6e3b731ccf7089b := by
  have h : IsProduct rfcKey (leBytes 56 5)
      0xa01fc432e5807f17530d1288da125b0cd453d941726436c8bbd9c5222c3da7fa639ce03db8d23b274a0721a1aed5227de6e3b731ccf7089b :=
    product_eval (by decide +kernel)
  have hl : rfcKey.length = 56 := leBytes_length _ _
  rw [C45_shared_partial _ _ (leBytes_length _ _) hl h (by decide +kernel)]
  decide +kernel

/-- Diffie-Hellman agreement fails: with the coordinate `wu` as starting point, a party with the
all-zero key and a party with the key of RFC 7748 compute different secrets. -/
theorem C45_dh_wrong : shared (shared wu wk) rfcKey ≠ shared (shared wu rfcKey) wk := by
  rw [C45_wrong.2.1]
  have h1 : IsProduct rfcKey (leBytes 56 (2 ^ 225))
      0x5f5c253898af0f5f1309e5070389e2d9b3a938d4a8677129aae78c22657d70af9b086bbbf73a9fd115a5ed3ff4eb699820e593251aa47593 :=
    product_eval (by decide +kernel)
  have h2 : IsProduct rfcKey wu
      0x16c0ab98f19f7be2bbf57ae04d6815e319ed7de659e4858d11cd5c64aef0d5645b81fef03cb860114f622f21a9c8fa7e0947bc0ed9d7e2fe :=
    product_eval (by decide +kernel)
  have h3 : IsProduct wk (encode
      0x16c0ab98f19f7be2bbf57ae04d6815e319ed7de659e4858d11cd5c64aef0d5645b81fef03cb860114f622f21a9c8fa7e0947bc0ed9d7e2fe)
      0x62b6724a1167d64877b55f01999724ee02f3f47318731b4c33ffc81c551d31f612741519a29db6eb6d12e0af0cf8620605f882bbb3141848 :=
    product_eval (by decide +kernel)
  have hl : rfcKey.length = 56 := leBytes_length _ _
  have hw : wk.length = 56 := leBytes_length _ _
  have hu : wu.length = 56 := leBytes_length _ _
  rw [C45_shared_partial _ _ (leBytes_length _ _) hl h1 (by decide +kernel),
    C45_shared_partial _ _ hu hl h2 (by decide +kernel),
    C45_shared_partial (encode _) wk (leBytes_length _ _) hw h3 (by decide +kernel)]
  decide +kernel

end Verif.X448
