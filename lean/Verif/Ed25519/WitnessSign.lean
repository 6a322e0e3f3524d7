import Verif.Ed25519.EddsaLemmas

/-! # Concrete signatures, for examples and counterexamples -/

namespace Verif.Ed25519

open Verif.Fp25519

set_option exponentiation.threshold 2000

/-- R of the signature with S = 15·2^120 and challenge 2^120. -/
def badR : Pt := (15 * 2 ^ 120) • B + (2 ^ 120) • -badKey

theorem badR_encode : encode badR = leBytes 32
    0xcb7fa44c800bac5a9569d3635d53beb782fc4136526c15269a1415c78d1ce62e := by
  unfold badR
  rw [((nB_is.mul 125 (15 * 2 ^ 120) (by norm_num)).add
    (badKey_npt.neg.mul 121 (2 ^ 120) (by norm_num))).encode
    (x := 16146905151627357825937084250046469974669501599186020139350868233895897710399)
    (y := 34148987169813429726820481897696161185615592549444993907977398870171816093230)
    (by decide +kernel) (by decide +kernel) (by decide +kernel) (by decide +kernel)]
  rfl

theorem badMultLong (isa : Isa) : encode badR ≠
    double_point_mult_4w isa (leBytes 32 (15 * 2 ^ 120)) (leBytes 32 (2 ^ 120))
      (point_decoding isa (encode badKey)).1 := by
  rw [badKey_encode, badR_encode, isa_double_mult isa ⟨true, true⟩,
    isa_decoding isa ⟨true, true⟩]
  decide +kernel

/-- The key 85629·B, S = 1000, challenge 77: nothing underflows. -/
theorem goodMult (isa : Isa) : DmOk (leBytes 32 1000) (leBytes 32 77)
    (point_decoding isa (encode badKey)).1 := by
  rw [badKey_encode, isa_decoding isa ⟨true, true⟩]
  decide +kernel

/-- Nor for S = 1000 + 77·85629. -/
theorem goodMultSign (isa : Isa) : DmOk (leBytes 32 6594433) (leBytes 32 77)
    (point_decoding isa (encode badKey)).1 := by
  rw [badKey_encode, isa_decoding isa ⟨true, true⟩]
  decide +kernel

/-- Nor for S = 1000 + l. -/
theorem goodMultLarge (isa : Isa) : DmOk (leBytes 32 (1000 + ell)) (leBytes 32 77)
    (point_decoding isa (encode badKey)).1 := by
  rw [badKey_encode, isa_decoding isa ⟨true, true⟩]
  decide +kernel

/-- A string that is not a point, and zero digits. -/
theorem zeroMult (isa : Isa) : double_point_mult_4w isa (leBytes 32 0) (leBytes 32 0)
    (point_decoding isa (leBytes 32 2)).1 = leBytes 32 1 := by
  rw [isa_double_mult isa ⟨true, true⟩, isa_decoding isa ⟨true, true⟩]
  decide +kernel

end Verif.Ed25519
