import Verif.Props.X448
import Verif.Props.Ed448SignWitness
import Verif.X448.KeygenLemmas

/-!
# Key generation of X448 (C61)

The specification is `IsX448` of `Verif/X448/Spec.lean` (RFC 7748) at the coordinate u = 5.
`keygen` is the function behind `X448.keygen` (src/dh448.c).
-/

namespace Verif.X448

open Verif.Fp448
open Verif.Ed448 (SafeSq)

set_option exponentiation.threshold 2000

/-- The base point of RFC 7748, section 4.2. -/
def five : List Byte := leBytes 56 5

theorem coord_five : coord five = 5 := by
  rw [coord, five, leNat_leBytes]; norm_num

/-- The specification, in terms of the multiples of the base point of edwards448. -/
theorem product_five (k : List Byte) : IsProduct k five (uOf (scalar k • Ed448.B)) := by
  unfold IsProduct
  rw [coord_five]
  exact xmul_base (by rw [scalar]; omega) (by unfold scalar; omega)

/-- C61, exactly: for every 56-byte secret key for which the multiplication of the base point goes
right (`GenOk`), the public key is the X448 function of the secret key and u = 5 if and only if the
final serialisation loses no carry. -/
theorem C61_keygen_iff (u v : W) (k : List Byte) (hk : k.length = 56) (h : GenOk (scalar k)) :
    IsX448 k five (keygen u v k) ↔
      NoCarry (serFold (montElt (Ed448.fixed_point_multiplication u v (clamp k))).limbs.ints) := by
  have hr := keygenElt_spec u v hk h
  have hp := product_five k
  rw [← ser_eq_iff (hr.1.mono (by decide))]
  have e : (montElt (Ed448.fixed_point_multiplication u v (clamp k))).toFp =
    uOf (scalar k • Ed448.B) := hr.2
  rw [e]
  constructor
  · rintro ⟨w, hw, h⟩
    rw [C45_product_unique hp hw]
    exact h
  · intro h
    exact ⟨_, hp, h⟩

/-- C61 (`_partial`: false without the conditions, see `C61_wrong` for a scalar that does not meet
them).  For every 56-byte secret key for which the multiplication of the base point goes
right (`GenOk`) and whose X448 value `w` is `SafeSq`, the public key is the encoding of `w`. -/
theorem C61_keygen_partial (u v : W) (k : List Byte) (hk : k.length = 56) (h : GenOk (scalar k))
    {w : Fp} (hw : IsProduct k five w) (hs : SafeSq (canon w)) : keygen u v k = encode w := by
  have e := C45_product_unique hw (product_five k)
  subst e
  exact Ed448.ser_safeSq (keygenElt_spec u v hk h) hs

theorem safe_of_safeSq {c : ℕ} (h : SafeSq c) : Safe c := by
  rcases h with h | h | h
  · exact Or.inl h
  · exact Or.inr (Or.inl (le_trans (by norm_num) h))
  · exact Or.inr (Or.inr h)

/-- C61, partial, same conditions: it is what `shared` returns for u = 5. -/
theorem C61_keygen_eq_shared_partial (u v : W) (k : List Byte) (hk : k.length = 56)
    (h : GenOk (scalar k)) {w : Fp} (hw : IsProduct k five w) (hs : SafeSq (canon w)) :
    keygen u v k = shared five k := by
  rw [C61_keygen_partial u v k hk h hw hs,
    C45_shared_partial five k (leBytes_length _ _) hk hw (safe_of_safeSq hs)]

/-- C61, partial: Diffie-Hellman agreement between two parties that run key generation and then
`shared`, when the two key generations go right and the three values are safe to serialise. -/
theorem C61_dh_partial (u v u' v' : W) (a b : List Byte) (ha : a.length = 56) (hb : b.length = 56)
    (ga : GenOk (scalar a)) (gb : GenOk (scalar b)) {va vb w : Fp} (h1 : IsProduct a five va)
    (h2 : IsProduct b five vb) (h3 : Mont.XMul curveA (scalar b * scalar a) 5 w)
    (s1 : SafeSq (canon va)) (s2 : SafeSq (canon vb)) (s3 : Safe (canon w)) :
    shared (keygen u v a) b = encode w ∧ shared (keygen u' v' b) a = encode w := by
  rw [C61_keygen_eq_shared_partial u v a ha ga h1 s1,
    C61_keygen_eq_shared_partial u' v' b hb gb h2 s2]
  exact C45_dh_partial five a b (leBytes_length _ _) ha hb h1 h2 (by rw [coord_five]; exact h3)
    (safe_of_safeSq s1) (safe_of_safeSq s2) s3

/-- C61: the public key does not depend on the contents of the uninitialised words that the code
reads, for every secret key. -/
theorem C61_deterministic (u v u' v' : W) (k : List Byte) : keygen u v k = keygen u' v' k := by
  unfold keygen
  simp only
  rw [Ed448.fixed_junk, Ed448.fixed_junk u']

/-- C61: the public key is 56 bytes and canonical, even when it is wrong. -/
theorem C61_keygen_canonical (u v : W) (k : List Byte) :
    (keygen u v k).length = 56 ∧ leNat (keygen u v k) < 2 ^ 448 - 2 ^ 224 - 1 := by
  unfold keygen point_Edwards2Montgomery R1.ser Full.ser
  simp only
  generalize montElt (Ed448.fixed_point_multiplication u v (clamp k)) = x
  refine ⟨F7.toBytes_length _, ?_⟩
  have h := Full.modp_val_canon (R1.serWords x)
  rw [← F7.leNat_toBytes] at h
  have h' : leNat (Full.modp (R1.serWords x)).toBytes =
    canon (R1.serWords x).toFp := by exact_mod_cast h
  rw [h']
  exact lt_of_lt_of_le (ZMod.val_lt _) (by decide +kernel)

/-! ## A good key and a bad one -/

/-- The u-coordinate, by numbers. -/
theorem uOf_eq {A : Ed448.Pt} {x y w : ℕ} (hx : canon A.x = x) (hy : canon A.y = y)
    (h0 : x % P ≠ 0) (h : w * x ^ 2 % P = y ^ 2 % P) : uOf A = (w : Fp) := by
  have e1 : A.x = (x : Fp) := by rw [← hx, Ed448.canon_cast]
  have e2 : A.y = (y : Fp) := by rw [← hy, Ed448.canon_cast]
  have e3 := Ed448.natEq h
  push_cast at e3
  rw [uOf, e1, e2, ← e3]
  have := Ed448.natNe h0
  field_simp

/-- The X448 value of the good key. -/
def uGood : ℕ := 105639109491426334218585414076699774142520813484989406717587190131509545457682693170142114477252880272699676862519117188390183714808873
/-- The X448 value of the bad key. -/
def uWrong : ℕ := 107268740836491770622258541802818829380705079442232299693334573073787517472500639130440527327332936678311081006645821903360097805855568

theorem good_val : uOf (Ed448.aGood • Ed448.B) = ((uGood : ℕ) : Fp) :=
  uOf_eq Ed448.aGood_pt.1 Ed448.aGood_pt.2 (by decide +kernel) (by decide +kernel)
theorem wrong_val : uOf (Ed448.aWrong • Ed448.B) = ((uWrong : ℕ) : Fp) :=
  uOf_eq Ed448.aWrong_pt.1 Ed448.aWrong_pt.2 (by decide +kernel) (by decide +kernel)

/-- A secret key with which everything goes right. -/
def kGood : List Byte := leBytes 56 Ed448.aGood
/-- A secret key with which a carry is dropped. -/
def kWrong : List Byte := leBytes 56 Ed448.aWrong

theorem scalar_good : scalar kGood = Ed448.aGood := by decide +kernel
theorem scalar_wrong : scalar kWrong = Ed448.aWrong := by decide +kernel

theorem gen_good : GenOk (scalar kGood) := by
  rw [scalar_good]; exact ⟨Ed448.aGood_div, Ed448.aGood_mul.run⟩

theorem product_good : IsProduct kGood five ((uGood : ℕ) : Fp) := by
  have := product_five kGood
  rwa [scalar_good, good_val] at this

theorem product_wrong : IsProduct kWrong five ((uWrong : ℕ) : Fp) := by
  have := product_five kWrong
  rwa [scalar_wrong, wrong_val] at this

theorem canon_good : canon ((uGood : ℕ) : Fp) = uGood := Ed448.canon_natCast (by decide +kernel)
theorem canon_wrong : canon ((uWrong : ℕ) : Fp) = uWrong := Ed448.canon_natCast (by decide +kernel)

/-- Non-vacuity: the conditions hold of a key, with the result of the code. -/
theorem good_run (u v : W) : keygen u v kGood = leBytes 56 uGood := by
  rw [C61_keygen_partial u v kGood (leBytes_length _ _) gen_good product_good
    (by rw [canon_good]; decide +kernel), encode, canon_good]

example (u v : W) : keygen u v kGood = shared five kGood :=
  C61_keygen_eq_shared_partial u v kGood (leBytes_length _ _) gen_good product_good
    (by rw [canon_good]; decide +kernel)

theorem wrong_run (u v : W) : keygen u v kWrong = leBytes 56 uGood := by
  rw [← good_run u v]
  unfold keygen Ed448.fixed_point_multiplication
  simp only
  have e : Ed448.div4 u v (clamp kWrong) = Ed448.div4 u v (clamp kGood) := by
    rw [Ed448.div4_junk, Ed448.div4_junk u]
    decide +kernel
  rw [e]

/-- C61 is false as stated: there is a secret key, whose X448 value is safe to serialise, for which
the public key is not the X448 function of the key and u = 5, which `shared` does compute; it is
the public key of another secret key. -/
theorem C61_wrong : ∃ k k' : List Byte, k.length = 56 ∧ k'.length = 56 ∧ ∀ u v,
    ¬ IsX448 k five (keygen u v k) ∧ keygen u v k ≠ shared five k ∧
    IsX448 k five (shared five k) ∧ IsX448 k' five (keygen u v k) := by
  refine ⟨kWrong, kGood, leBytes_length _ _, leBytes_length _ _, fun u v => ?_⟩
  have hsh : shared five kWrong = encode ((uWrong : ℕ) : Fp) :=
    C45_shared_partial five kWrong (leBytes_length _ _) (leBytes_length _ _) product_wrong
      (by rw [canon_wrong]; decide +kernel)
  have hx : IsX448 kWrong five (shared five kWrong) := ⟨_, product_wrong, hsh⟩
  have hne : keygen u v kWrong ≠ shared five kWrong := by
    rw [wrong_run, hsh, encode, canon_wrong]
    decide +kernel
  refine ⟨fun h => hne (C45_spec_unique h hx), hne, hx, _, product_good, ?_⟩
  rw [wrong_run, encode, canon_good]

end Verif.X448
