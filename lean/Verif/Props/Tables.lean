import Verif.Tables
import Verif.X25519.Keygen
import Verif.X448.Keygen
import Verif.X25519.Avx2
import Verif.X448.Avx2
import Verif.X25519.X64
import Verif.Props.EddsaMem

/-!
# The public tables (C94)
-/

namespace Verif.Tables

/-- The number of elements that the functions of a layout work on, and the radix. -/
def width : Layout → ℕ
  | .full1 | .red1 => 1
  | .red2 => 2
  | .red4 => 4

def radix : Layout → Radix
  | .full1 => .fullradix
  | _ => .redradix

/-- What a member should hold: the function of its name, its field and its layout; memory from any
`alloc` is given back by the same function. -/
def right (f : Field) (l : Layout) (o : Op) : Fn :=
  if o = .free then .deallocate_bytes else .suffix o f (width l) (radix l)

/-- C94, partial: every member of the table `Fp25519` but one holds its function. -/
theorem C94_fp25519_partial (l : Layout) (o : Op) (h : o ∈ members l) :
    slot .Fp25519 l o = some (right .Fp25519 l o) ↔ ¬ (l = .red4 ∧ o = .neg) := by
  revert h; cases l <;> cases o <;> decide +kernel

/-- C94, partial: every member of the table `Fp448` but eight holds its function; the eight are null
pointers. -/
theorem C94_fp448_partial (l : Layout) (o : Op) (h : o ∈ members l) :
    slot .Fp448 l o = if (l, o) ∈ [(.full1, .srt), (.red1, .cmv), (.red1, .sgn), (.red2, .cmv),
        (.red2, .neg), (.red2, .sgn), (.red4, .neg), ((.red4, .srt) : Layout × Op)] then none
      else some (right .Fp448 l o) := by
  revert h; cases l <;> cases o <;> decide +kernel

/-- C94: no member of either table holds a function of another name, of the other field or of another
radix, or a function for more elements than its layout has. -/
theorem C94_kind (f : Field) (l : Layout) (o : Op) :
    ∀ fn ∈ slot f l o, fn = .deallocate_bytes ∧ o = .free ∨
      ∃ w, fn = .suffix o f w (radix l) ∧ w ≤ width l := by
  cases f <;> cases l <;> cases o <;> rintro fn ⟨⟩ <;>
    first
      | exact .inl ⟨rfl, rfl⟩
      | exact .inr ⟨_, rfl, by decide⟩

/-- C94 fails of the tables: the four-way negation of Fp25519 is the function for two elements, and
a call of any of these eight members of `Fp448` is a call of a null pointer. -/
theorem C94_wrong :
    (.neg ∈ members .red4 ∧
      slot .Fp25519 .red4 .neg = some (.suffix .neg .Fp25519 2 .redradix)) ∧
    (.srt ∈ members .full1 ∧ slot .Fp448 .full1 .srt = none) ∧
    (.cmv ∈ members .red1 ∧ slot .Fp448 .red1 .cmv = none) ∧
    (.sgn ∈ members .red1 ∧ slot .Fp448 .red1 .sgn = none) ∧
    (.cmv ∈ members .red2 ∧ slot .Fp448 .red2 .cmv = none) ∧
    (.neg ∈ members .red2 ∧ slot .Fp448 .red2 .neg = none) ∧
    (.sgn ∈ members .red2 ∧ slot .Fp448 .red2 .sgn = none) ∧
    (.neg ∈ members .red4 ∧ slot .Fp448 .red4 .neg = none) ∧
    (.srt ∈ members .red4 ∧ slot .Fp448 .red4 .srt = none) := by
  decide +kernel

/-- C94: public keys and shared secrets of X25519 and X448 have exactly `key_size` bytes, whatever
the arguments are. -/
theorem C94_sizes_dh (isa : Fp25519.Isa) (u v : W) (session_key secret_key : List Byte) :
    (X25519.keygen isa secret_key).length = key_size .X25519 ∧
    (X25519.Avx2.shared isa session_key secret_key).length = key_size .X25519 ∧
    (X25519.keygen isa secret_key).length = key_size .X25519_x64 ∧
    (X25519.shared_x64 isa session_key secret_key).length = key_size .X25519_x64 ∧
    (X448.keygen u v secret_key).length = key_size .X448 ∧
    (X448.shared session_key secret_key).length = key_size .X448 := by
  refine ⟨?_, ?_, ?_, ?_, ?_, ?_⟩
  · exact Fp25519.F4.toBytes_length _
  · exact Fp25519.F4.toBytes_length _
  · exact Fp25519.F4.toBytes_length _
  · exact Fp25519.F4.toBytes_length _
  · exact Fp448.F7.toBytes_length _
  · exact Fp448.F7.toBytes_length _

/-- C94: public keys of Ed25519 have exactly `key_size` bytes and signatures exactly
`signature_size`, whatever the arguments and the hash function are. -/
theorem C94_sizes_ed25519 (H : List Byte → List Byte) (isa : Fp25519.Isa) (mode : Ed25519.Mode)
    (message context public_key private_key : List Byte) :
    (Ed25519.apiKeygen H isa mode private_key).2.length = key_size (.Ed25519 mode) ∧
    ∀ S ∈ (Ed25519.apiSign H isa mode message context public_key private_key).2,
      some S.length = signature_size (.Ed25519 mode) := by
  refine ⟨Ed25519.point_encoding_length _ _, ?_⟩
  have key : ∀ p f c, ∀ S ∈ (Ed25519.sign_all H isa message c public_key private_key p f).2,
      S.length = 64 := by
    intro p f c S hS
    unfold Ed25519.sign_all at hS
    split at hS
    · simp at hS
    · simp only at hS
      split at hS
      · simp at hS
      · simp only [Option.mem_def, Option.some.injEq] at hS
        rw [← hS, List.length_append, Ed25519.point_encoding_length, Ed25519.calculate_s,
          Ed25519.F8.lowBytes_length]
  intro S hS
  cases mode <;> exact congrArg some (key _ _ _ S hS)

/-- C94: public keys of Ed448 have exactly `key_size` bytes and signatures exactly
`signature_size`. -/
theorem C94_sizes_ed448 (H : List Byte → ℕ → List Byte) (u : ℕ → W) (mode : Ed448.Mode)
    (message context public_key private_key : List Byte) :
    (Ed448.apiKeygen H u mode private_key).2.length = key_size (.Ed448 mode) ∧
    ∀ S ∈ (Ed448.apiSign H u mode message context public_key private_key).2,
      some S.length = signature_size (.Ed448 mode) := by
  refine ⟨Ed448.point_encoding_length _, ?_⟩
  have key : ∀ f, ∀ S ∈ (Ed448.sign_all H u message context public_key private_key f).2,
      S.length = 114 := by
    intro f S hS
    unfold Ed448.sign_all at hS
    split at hS
    · simp at hS
    · simp only at hS
      split at hS
      · simp at hS
      · simp only [Option.mem_def, Option.some.injEq] at hS
        rw [← hS, List.length_append, Ed448.point_encoding_length, Ed448.calculate_s_length]
  intro S hS
  cases mode <;> exact congrArg some (key _ S hS)

/-- The functions in three members, and a signature that is there. -/
example : slot .Fp25519 .full1 .srt = some (.suffix .srt .Fp25519 1 .fullradix) ∧
    slot .Fp448 .red4 .free = some .deallocate_bytes ∧
    slot .Fp448 .red2 .mul = some (right .Fp448 .red2 .mul) := by decide +kernel

example (isa : Fp25519.Isa) :
    ∃ S, S ∈ (Ed25519.apiSign (fun _ => []) isa .Pure [] [] [] []).2 := ⟨_, rfl⟩

example : ∃ S, S ∈ (Ed448.apiSign (fun _ _ => []) (fun _ => 0) .PreHash [1] [] [] []).2 := ⟨_, rfl⟩

end Verif.Tables
