import Verif.X86.LadderTrace
import Verif.Props.X25519

/-!
# C66–C68: `X25519_x64.shared` on memory

The function as statements and assembly blocks over a memory (Verif.X86.Ladder).  `wp n p Q s`
says that every execution of `p` from `s` ends, in a state with `Q`
(Verif.X86.Prog); registers and flags hold anything when a block starts.
-/

namespace Verif.X86.Ladder

open Verif.Fp25519 (Isa)
open Verif.X25519

/-- Not a place in a local array. -/
def Foreign (p : Loc) : Prop := ∀ b ∈ localArrays, p.obj ≠ b.1.obj

instance (p : Loc) : Decidable (Foreign p) :=
  inferInstanceAs (Decidable (∀ b ∈ localArrays, p.obj ≠ b.1.obj))

theorem Foreign.ge {p : Loc} (h : Foreign p) : 10 ≤ p.obj := by
  have h' := h
  simp only [Foreign, localArrays, List.forall_mem_cons, List.not_mem_nil, false_implies,
    implies_true, and_true, session, secret, buffer, X3, A, X1, buffer_1w, x0, x1, x2] at h'
  omega

theorem bytes_eq (m : Mem) (p : Loc) : bytesAt m p = bytes m p 4 := by
  have h : leNat (bytesAt m p) = num m p 4 := by
    zify
    rw [bytesAt, Verif.Fp25519.F4.leNat_toBytes, num_elt]
  have := leBytes_leNat (bytesAt m p)
  rw [h, bytesAt, Verif.Fp25519.F4.toBytes_length] at this
  exact this.symm

/-- C66.  In every build, from every memory and however the three arguments overlap:
`X25519_x64.shared` ends; the 32 bytes of the shared secret are then what X25519 gives for
the key and the point that the other arguments held at the start; no other memory of the caller
has changed; and nothing is left of the local copy of the key. -/
theorem C66_shared (isa : Isa) (s : St) (shared_secret session_key secret_key : Loc)
    (h1 : Foreign shared_secret) (h2 : Foreign session_key) (h3 : Foreign secret_key) :
    wp 120 (shared isa shared_secret session_key secret_key)
      (fun t =>
        IsX25519 (bytes s.mem secret_key 4) (bytes s.mem session_key 4)
          (bytes t.mem shared_secret 4) ∧
        (∀ p : Loc, Foreign p → ¬Within shared_secret 4 p.obj p.off →
          t.mem p.obj p.off = s.mem p.obj p.off) ∧
        num t.mem secret 4 = 0) s := by
  refine wp_shared isa _ _ _ _ _ h1.ge h2.ge h3.ge fun t ht hz hf => ⟨?_, ?_, ?_⟩
  · rw [bytes_eq, bytes_eq, bytes_eq] at ht
    rw [ht]
    exact C15_shared_x64 isa _ _ (by simp [bytes]) (by simp [bytes])
  · intro p hp hw
    refine hf _ ?_ _ hw
    have := hp.ge
    simp only [locals, List.mem_cons, List.not_mem_nil, or_false]
    omega
  · zify
    rw [num_elt, hz]
    decide

/-- The three arguments may be the same buffer. -/
example : Foreign ⟨10, 0⟩ ∧ Foreign ⟨12, 7⟩ := by decide

/-- Executions exist, so the theorem is not empty. -/
example (isa : Isa) (s : St) : ¬wp 120 (shared isa ⟨10, 0⟩ ⟨10, 0⟩ ⟨10, 0⟩) (fun _ => False) s :=
  fun h => wp_false h

/-- C67.  The branches taken and the addresses read and written, in order, are the same for all
keys, points and contents of memory and registers: they depend only on the build and on the
places of the arguments. -/
theorem C67_constant_time (isa : Isa) (shared_secret session_key secret_key : Loc)
    (h1 : Foreign shared_secret) (h2 : Foreign session_key) (h3 : Foreign secret_key) :
    ∃ seen : List Leak, ∀ s : St, wp 120 (shared isa shared_secret session_key secret_key)
      (fun t => t.log = s.log ++ seen) s := by
  refine ⟨(leak 120 (shared isa shared_secret session_key secret_key) ⟨0, 0, 0, 0⟩).1, fun s => ?_⟩
  refine wp_mono (fun t ht => ?_) (wp_leak public_shared
    (C66_shared isa s shared_secret session_key secret_key h1 h2 h3))
  rw [ht.2.1, (sees_shared 120 s.vars.ints ⟨0, 0, 0, 0⟩ trivial).1]

/-- A program that branches on a word has no such list: the statement can fail. -/
example : ¬∃ seen : List Leak, ∀ s : St,
    wp 5 (.while (fun v => v.words.bit = 1#64) (.words fun v => { v.words with bit := 0#64 }))
      (fun t => t.log = s.log ++ seen) s := by
  rintro ⟨seen, h⟩
  have a := h ⟨fun _ _ => 0#64, ⟨⟨0, 0, 0, 0⟩, ⟨0#64, 0#64, 0#64⟩⟩, []⟩
  have b := h ⟨fun _ _ => 0#64, ⟨⟨0, 0, 0, 0⟩, ⟨1#64, 0#64, 0#64⟩⟩, []⟩
  simp [wp] at a b
  rw [← a] at b
  simp at b

/-- C68.  Every word that is read or written lies in a local array or in the 32 bytes of an
argument, and the point and the key are not written to (unless they overlap the result). -/
theorem C68_bounds (isa : Isa) (s : St) (shared_secret session_key secret_key : Loc)
    (h1 : Foreign shared_secret) (h2 : Foreign session_key) (h3 : Foreign secret_key) :
    wp 120 (shared isa shared_secret session_key secret_key)
      (fun t => ∃ seen, t.log = s.log ++ seen ∧ ∀ x ∈ seen,
        Safe (localArrays ++ [(shared_secret, 4, true), (session_key, 4, false),
          (secret_key, 4, false)]) x) s := by
  refine wp_mono (fun t ht => ⟨_, ht.2.1, ?_⟩) (wp_leak public_shared
    (C66_shared isa s shared_secret session_key secret_key h1 h2 h3))
  exact (sees_shared 120 s.vars.ints s.vars.ints trivial).2.1

/-- A fifth word of an argument would not be in bounds. -/
example : ¬Safe (localArrays ++ [(⟨10, 0⟩, 4, true), (⟨11, 0⟩, 4, false), (⟨12, 0⟩, 4, false)])
    (acc false ⟨11, 0⟩ 4) ∧
    ¬Safe (localArrays ++ [(⟨10, 0⟩, 4, true), (⟨11, 0⟩, 4, false), (⟨12, 0⟩, 4, false)])
      (acc true ⟨11, 0⟩ 0) := by
  constructor <;>
  · rintro ⟨b, hb, h⟩
    revert b
    simp only [localArrays, Access.Inside, Within]
    decide

end Verif.X86.Ladder
