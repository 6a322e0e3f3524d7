import Verif.Vec.VerifyMemLemmas448
import Verif.Props.Ed448Sign

/-!
# Verification of a signature on memory (C82)

A verifier runs on data of an attacker: the message, the key and both halves of the signature.
The digits of the scalars of the signature and of the hash give the number of digits written to
two arrays on the stack, and the indices in a table of constants and in a table on the stack.
Here: for every input all these accesses are inside their objects; the verdict is a function of
the arguments only, whatever the memory and the registers contain; and the double multiplication
changes the point that it is given. -/

namespace Verif.Vec

set_option exponentiation.threshold 2000

/-! ## The digits -/

/-- The loop of the recoding of Ed25519 ends for every 32 bytes after at most 257 digits: its
register is zero when the model stops. -/
theorem C82_recoding_ends_25519 (a w : ℕ) (h2 : 2 ≤ w) (h8 : w ≤ 8) (p : List Byte)
    (K : ℕ → Byte) (log : List VAcc) :
    Ed25519.isZero4 (wnafMem25519 a w 257 0 (Fp25519.F4.ofBytes p) K log).2.2.2 = true ∧
      (wnafMem25519 a w 257 0 (Fp25519.F4.ofBytes p) K log).2.2.1 ≤ 257 := by
  rw [wnafMem25519_spec]
  obtain ⟨h, h'⟩ := Ed25519.wnafLoop_end h2 h8 256 257 (Fp25519.F4.ofBytes p) (by omega)
    (by omega) (Ed25519.F4.num_lt _).le
  exact ⟨(Ed25519.isZero4_iff _).2 h, by simpa using h'⟩

/-- The same for Ed448, for every 57 bytes after at most 457 digits. -/
theorem C82_recoding_ends_448 (a w : ℕ) (h2 : 2 ≤ w) (h8 : w ≤ 8) (p : List Byte)
    (hp : p.length = 57) (K : ℕ → Byte) (log : List VAcc) :
    Ed448.isZero8 (wnafMem448 a w 457 0 (Ed448.F8.ofBytes p) K log).2.2.2 = true ∧
      (wnafMem448 a w 457 0 (Ed448.F8.ofBytes p) K log).2.2.1 ≤ 457 := by
  rw [wnafMem448_spec]
  have hb : leNat p < 2 ^ 456 := by have := leNat_lt p; rwa [hp] at this
  obtain ⟨h, h'⟩ := Ed448.wnafLoop_end h2 h8 456 457 (Ed448.F8.ofBytes p) (by omega)
    (by omega) (by rw [Ed448.ofBytes_num hp]; exact hb.le)
  exact ⟨(Ed448.isZero8_iff _).2 h, by simpa using h'⟩

/-- 257 digits are needed: the scalar 2²⁵⁶ - 2, which a signature may contain, has 257 digits.
So `double_point_mult_2w_ed25519` (src/edwards255.c:1373, not called), whose arrays have 256
entries, writes after the end of `wnaf_r` for this scalar. -/
theorem C82_256_entries_overflow :
    (.wr 0 256 : VAcc) ∈ (wnafMem25519 0 7 257 0
      (Fp25519.F4.ofBytes (0xfe#8 :: List.replicate 31 0xff#8)) (fun _ => 0#8) []).2.1 := by
  rw [wnafMem25519_eq, List.nil_append, List.mem_map]
  refine ⟨256, List.mem_range.2 ?_, rfl⟩
  decide +kernel

/-! ## The double multiplication -/

/-- For every pair of scalars and every point, all the accesses at computed indices are inside:
the two arrays of 260 digits, the 384 words of the table of constants and the eight entries of
the local table. -/
theorem C82_inside_25519 (isa : Fp25519.Isa) (ρ : ℕ → ℕ → Regs) (b : ℕ) (s h : List Byte)
    (A : Place) (hA : A.1 < b) (m : Mem) :
    ∀ a ∈ (double25519 isa ρ b s h A m).1.log, a.Inside 260 384 8 :=
  (double25519_spec isa ρ b s h A hA m).2.2.2

/-- The same for Ed448, with arrays of 460 digits and a table of 672 words. -/
theorem C82_inside_448 (u13 u14 v13 v14 : W) (ρ : ℕ → ℕ → Regs) (b : ℕ) (s h : List Byte)
    (A : Place) (hA : A.1 < b) (m : Mem) :
    ∀ a ∈ (double448 u13 u14 v13 v14 ρ b s h A m).1.log, a.Inside 460 672 8 :=
  (double448_spec u13 u14 v13 v14 ρ b s h A hA m).2.2.2

/-- The bytes written do not depend on the contents of the local objects and of the registers;
the point `A` of the caller is replaced by its double; no other object of the caller changes. -/
theorem C82_memory_25519 (isa : Fp25519.Isa) (ρ : ℕ → ℕ → Regs) (b : ℕ) (s h : List Byte)
    (A : Place) (hA : A.1 < b) (m : Mem) :
    (double25519 isa ρ b s h A m).2 = Ed25519.double_point_mult_4w isa s h (e4.at m A) ∧
      e4.at (double25519 isa ρ b s h A m).1.loc A = Ed25519.doubling_4w (e4.at m A) ∧
      ∀ o c, o < b → ¬In A 10 o c → (double25519 isa ρ b s h A m).1.loc o c = m o c :=
  let ⟨h1, h2, h3, _⟩ := double25519_spec isa ρ b s h A hA m
  ⟨h1, h2, h3⟩

/-- The same for Ed448. -/
theorem C82_memory_448 (u13 u14 v13 v14 : W) (ρ : ℕ → ℕ → Regs) (b : ℕ) (s h : List Byte)
    (A : Place) (hA : A.1 < b) (m : Mem) :
    (double448 u13 u14 v13 v14 ρ b s h A m).2
        = Ed448.double_point_mult_4w u13 u14 v13 v14 s h (g4.at m A) ∧
      g4.at (double448 u13 u14 v13 v14 ρ b s h A m).1.loc A = Ed448.doubling_4w (g4.at m A) ∧
      ∀ o c, o < b → ¬In A 16 o c →
        (double448 u13 u14 v13 v14 ρ b s h A m).1.loc o c = m o c :=
  let ⟨h1, h2, h3, _⟩ := double448_spec u13 u14 v13 v14 ρ b s h A hA m
  ⟨h1, h2, h3⟩

/-! ## The verdict -/

/-- The verdict of Ed25519, Ed25519ctx and Ed25519ph is the one of the model of C28 to C30 for
the bytes of the arguments, wherever the buffers are and whatever the memory and the registers
contain, and every access is inside its object. -/
theorem C82_verify_25519 (H : List Byte → List Byte) (isa : Fp25519.Isa) (ρ : ℕ → ℕ → Regs)
    (c : ℕ → Byte) (m : Mem) (message ml context cl public_key signature : ℕ)
    (pureEdDSA phflag : Byte) :
    (verify25519 H isa ρ c m message ml context cl public_key signature pureEdDSA phflag).1
        = Ed25519.verify_all H isa (bytesAt c message ml) (bytesAt c context cl)
          (bytesAt c public_key 32) (bytesAt c signature 64) pureEdDSA phflag ∧
      ∀ a ∈ (verify25519 H isa ρ c m message ml context cl public_key signature pureEdDSA
        phflag).2, a.Inside 260 384 8 :=
  verify25519_spec H isa ρ c m message ml context cl public_key signature pureEdDSA phflag

/-- The same for Ed448 and Ed448ph, with the model of C48 and C59. -/
theorem C82_verify_448 (H : List Byte → ℕ → List Byte) (u : ℕ → W) (ρ : ℕ → ℕ → Regs)
    (c : ℕ → Byte) (m : Mem) (message ml context cl public_key signature : ℕ) (phflag : Byte) :
    (verify448 H u ρ c m message ml context cl public_key signature phflag).1
        = Ed448.verify_all H u (bytesAt c message ml) (bytesAt c context cl)
          (bytesAt c public_key 57) (bytesAt c signature 114) phflag ∧
      ∀ a ∈ (verify448 H u ρ c m message ml context cl public_key signature phflag).2,
        a.Inside 460 672 8 :=
  verify448_spec H u ρ c m message ml context cl public_key signature phflag

/-- Two calls with the same bytes in their buffers give the same verdict, whatever else differs. -/
theorem C82_stable_25519 (H : List Byte → List Byte) (isa : Fp25519.Isa) (ρ ρ' : ℕ → ℕ → Regs)
    (c c' : ℕ → Byte) (m m' : Mem) (M M' ml C C' cl K K' S S' : ℕ) (pureEdDSA phflag : Byte)
    (hM : bytesAt c M ml = bytesAt c' M' ml) (hC : bytesAt c C cl = bytesAt c' C' cl)
    (hK : bytesAt c K 32 = bytesAt c' K' 32) (hS : bytesAt c S 64 = bytesAt c' S' 64) :
    (verify25519 H isa ρ c m M ml C cl K S pureEdDSA phflag).1
      = (verify25519 H isa ρ' c' m' M' ml C' cl K' S' pureEdDSA phflag).1 := by
  rw [(C82_verify_25519 ..).1, (C82_verify_25519 ..).1, hM, hC, hK, hS]

/-- The words that the code of Ed448 leaves uninitialised do not matter. -/
theorem verify_junk_448 (H : List Byte → ℕ → List Byte) (hH : ∀ x n, (H x n).length = n)
    (u u' : ℕ → W) (M C K S : List Byte) (phflag : Byte) :
    Ed448.verify_all H u M C K S phflag = Ed448.verify_all H u' M C K S phflag := by
  have h : ∀ (u13 u14 v13 v14 : W) (s h : List Byte) (A : Fp448.Elt16 V),
      Ed448.double_point_mult_4w u13 u14 v13 v14 s h A
        = Ed448.double_point_mult_4w 0#64 0#64 0#64 0#64 s h A := fun u13 u14 v13 v14 s h A => by
    unfold Ed448.double_point_mult_4w
    rw [Ed448.div4_junk u13, Ed448.div4_junk v13]
  unfold Ed448.verify_all
  simp only [h, Ed448.C46_reduce_junk (u 0) (u 1) (u' 0) (u' 1) _ (hH _ 114)]

/-- The same for Ed448, whatever words the code finds in what it leaves uninitialised. -/
theorem C82_stable_448 (H : List Byte → ℕ → List Byte) (hH : ∀ x n, (H x n).length = n)
    (u u' : ℕ → W) (ρ ρ' : ℕ → ℕ → Regs)
    (c c' : ℕ → Byte) (m m' : Mem) (M M' ml C C' cl K K' S S' : ℕ) (phflag : Byte)
    (hM : bytesAt c M ml = bytesAt c' M' ml) (hC : bytesAt c C cl = bytesAt c' C' cl)
    (hK : bytesAt c K 57 = bytesAt c' K' 57) (hS : bytesAt c S 114 = bytesAt c' S' 114) :
    (verify448 H u ρ c m M ml C cl K S phflag).1
      = (verify448 H u' ρ' c' m' M' ml C' cl K' S' phflag).1 := by
  rw [(C82_verify_448 ..).1, (C82_verify_448 ..).1, hM, hC, hK, hS, verify_junk_448 H hH u u']

/-! ## Cases -/

/-- The bounds are reached: the digit 63 reads the last word of the table of constants, and the
digit -15 uses the last entry of the local table. -/
example (ρ : ℕ → Regs) (s : VSt) :
    (.table 383 : VAcc) ∈ (addStatic25519 ρ 1 63#8 s).log ∧
      (.dyn 7 : VAcc) ∈ (addDynamic25519 ρ 1 (-15#8) s).log ∧
      (.table 671 : VAcc) ∈ (addStatic448 ρ 1 63#8 s).log := by
  refine ⟨List.mem_append_right _ (List.mem_append_right _ ?_),
    List.mem_append_right _ ?_, List.mem_append_right _ (List.mem_append_right _ ?_)⟩
  · exact List.mem_map.2 ⟨3, by decide, by decide⟩
  · exact List.mem_singleton.2 (by decide)
  · exact List.mem_map.2 ⟨6, by decide, by decide⟩

/-- The digits of 2²⁵⁶ - 2 reach the index 256 of the array; those of 7 only its first entry. -/
example : (wnafMem25519 1 5 257 0 (Fp25519.F4.ofBytes (7#8 :: List.replicate 31 0#8))
    (fun _ => 0#8) []).2.1 = [.wr 1 0] := by
  rw [wnafMem25519_eq, List.nil_append,
    show Ed25519.wnaf_256bits 5 (7#8 :: List.replicate 31 0#8) = [7#8] by decide +kernel]
  rfl

/-- A hash that meets the hypothesis of `C82_stable_448`. -/
example : ∀ (x : List Byte) (n : ℕ), ((fun (_ : List Byte) n => List.replicate n 0#8) x n).length = n :=
  fun _ _ => by simp

/-- What is not inside. -/
example : ¬(VAcc.wr 0 260).Inside 260 384 8 ∧ ¬(VAcc.table 384).Inside 260 384 8 ∧
    ¬(VAcc.dyn 8).Inside 260 384 8 ∧ (VAcc.rd 1 256).Inside 260 384 8 := by
  simp [VAcc.Inside]

end Verif.Vec
