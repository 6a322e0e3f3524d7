import Verif.Props.EddsaMem
import Verif.Props.Fp448Full
import Verif.Props.Ed448SignWitness

/-!
# Public keys and signatures hold canonical encodings (C96)
-/

namespace Verif.Ed25519

open Verif.Fp25519

/-- A canonical encoding: the number without the top bit is below 2^255 - 19. -/
def Canonical (b : List Byte) : Prop :=
  b.length = 32 ∧ leNat b % 2 ^ 255 < 2 ^ 255 - 19

theorem canonical_encoding (isa : Isa) (Q : P2w) : Canonical (point_encoding isa Q) := by
  have h : ∃ x y : Fp, point_encoding isa Q =
      leBytes 32 (canon y + 2 ^ 255 * (canon x % 2)) := by
    unfold point_encoding
    simp only [X25519.ser_encode, X25519.encode]
    refine ⟨_, _, encode_bytes ?_⟩
    have := canon_lt ((Full.mul isa (F4.ofBytes (R1.ser (R2.deinter Q.XY).2))
      (Full.inv isa (F4.ofBytes (R1.ser (R2.deinter Q.TZ).2)))).toFp)
    norm_num at this ⊢
    omega
  obtain ⟨x, y, h⟩ := h
  refine ⟨point_encoding_length isa Q, ?_⟩
  rw [h, leNat_leBytes]
  have := canon_lt y
  norm_num at this ⊢
  omega

/-- C96: the first half of every signature that is accepted is canonical, with no condition on
anything. -/
theorem C96_verify (H : List Byte → List Byte) (isa : Isa) (mode : Mode) (M C pk sig : List Byte)
    (h : apiVerify H isa mode M C pk sig = .VERIFICATION_OK) : Canonical (sig.take 32) := by
  by_cases hC : tooLong mode C
  · rw [verify_long H isa hC] at h
    cases h
  · rw [verify_short H isa hC] at h
    split at h
    · next e =>
      rw [e, double_point_mult_4w, List.take_of_length_le (point_encoding_length _ _).le]
      exact canonical_encoding _ _
    · cases h

/-- C96: public keys and the first halves of signatures are canonical. -/
theorem C96_sign (H : List Byte → List Byte) (isa : Isa) (mode : Mode) (M C pk sk : List Byte) :
    Canonical (apiKeygen H isa mode sk).2 ∧
    ∀ S ∈ (apiSign H isa mode M C pk sk).2, Canonical (S.take 32) := by
  refine ⟨canonical_encoding _ _, ?_⟩
  have key : ∀ p f c, ∀ S ∈ (sign_all H isa M c pk sk p f).2, Canonical (S.take 32) := by
    intro p f c S hS
    unfold sign_all at hS
    split at hS
    · simp at hS
    · simp only at hS
      split at hS
      · simp at hS
      · simp only [Option.mem_def, Option.some.injEq] at hS
        rw [← hS, List.take_left' (point_encoding_length _ _)]
        exact canonical_encoding _ _
  intro S hS
  cases mode <;> exact key _ _ _ S hS

/-- A signature that is accepted (C30), and a string that is not canonical. -/
example (isa : Isa) : apiVerify (toyHash 0 0 77) isa .Pure [] [] (encode badKey)
      (encode (1000 • B - 77 • badKey) ++ leBytes 32 1000) = .VERIFICATION_OK ∧
    ¬ Canonical (leBytes 32 (2 ^ 255 - 19)) :=
  ⟨toy_verify_good isa 0 0 1000 [] (by norm_num) (goodMult isa), fun h => absurd h.2 (by decide +kernel)⟩

end Verif.Ed25519

namespace Verif.Ed448

open Verif.Fp448

set_option exponentiation.threshold 2000

/-- A canonical encoding: 56 bytes with a number below 2^448 - 2^224 - 1, and a byte with the sign in
its top bit. -/
def Canonical (b : List Byte) : Prop :=
  b.length = 57 ∧ leNat (b.take 56) < 2 ^ 448 - 2 ^ 224 - 1 ∧
    (b.getD 56 0#8 = 0#8 ∨ b.getD 56 0#8 = 0x80#8)

theorem canonical_encoding (Q : P2w) : Canonical (point_encoding Q) := by
  refine ⟨point_encoding_length Q, ?_, ?_⟩
  · unfold point_encoding
    simp only
    rw [List.take_left' (by exact F7.toBytes_length _)]
    exact (C41_ser_canonical _).2.2
  · unfold point_encoding
    simp only
    rw [List.getD_append_right _ _ _ _ (by exact (F7.toBytes_length _).le)]
    have e : ∀ X, (R1.ser X).length = 56 := fun X => F7.toBytes_length _
    rw [e]
    have h1 : ∀ c : Byte, (c &&& 1#8) <<< 7 = 0#8 ∨ (c &&& 1#8) <<< 7 = 0x80#8 := by
      decide +kernel
    exact h1 _

/-- C96 for Ed448: the first half of every signature that is accepted is canonical, with no condition
on anything. -/
theorem C96_verify_448 (H : List Byte → ℕ → List Byte) (u : ℕ → W) (mode : Mode)
    (M C pk sig : List Byte) (h : apiVerify H u mode M C pk sig = .VERIFICATION_OK) :
    Canonical (sig.take 57) := by
  by_cases hC : 255 < C.length
  · rw [verify_long H u hC] at h
    cases h
  · rw [verify_short H u hC] at h
    split at h
    · cases h
    · split at h
      · next e =>
        rw [e, double_point_mult_4w, List.take_of_length_le (point_encoding_length _).le]
        exact canonical_encoding _
      · cases h

/-- C96 for Ed448: public keys and the first halves of signatures are canonical. -/
theorem C96_sign_448 (H : List Byte → ℕ → List Byte) (u : ℕ → W) (mode : Mode)
    (M C pk sk : List Byte) :
    Canonical (apiKeygen H u mode sk).2 ∧
    ∀ S ∈ (apiSign H u mode M C pk sk).2, Canonical (S.take 57) := by
  refine ⟨canonical_encoding _, ?_⟩
  have key : ∀ f, ∀ S ∈ (sign_all H u M C pk sk f).2, Canonical (S.take 57) := by
    intro f S hS
    unfold sign_all at hS
    split at hS
    · simp at hS
    · simp only at hS
      split at hS
      · simp at hS
      · simp only [Option.mem_def, Option.some.injEq] at hS
        rw [← hS, List.take_left' (point_encoding_length _)]
        exact canonical_encoding _
  intro S hS
  cases mode <;> exact key _ S hS

/-- A signature that is accepted (C59), and a string that is not canonical. -/
example (u : ℕ → W) : apiVerify (toyHash aGood rGood kNum) u .PureContext [] []
      (encode (aGood • B)) (encode (rGood • B) ++ leBytes 57 SNum) = .VERIFICATION_OK ∧
    ¬ Canonical (leBytes 57 (2 ^ 448 - 2 ^ 224 - 1)) :=
  ⟨toy_verify u, fun h => absurd h.2.1 (by decide +kernel)⟩

end Verif.Ed448
