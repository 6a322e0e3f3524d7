import Verif.Vec.KeygenMemLemmas
import Verif.Props.X25519Keygen
import Verif.Props.X448Keygen
import Verif.Props.Ed25519Point
import Verif.Props.Ed448Point

/-!
# Property C81: X25519 and X448 key generation on memory

`keygen25519` and `keygen448` are the functions `X25519.keygen` and `X448.keygen` on the bytes of
the caller and the local objects (Vec/KeygenMem.lean).  The statements quantify over all contents
of the memory of the caller, all pointers with any overlap, and all contents of the registers and
of the local objects before the call. -/

namespace Verif.Vec

set_option exponentiation.threshold 2000

/-! ## The public key and the memory of the caller -/

/-- C81, X25519.  The 32 bytes at `session_key` receive the X25519 function of u = 9 and the bytes
that were at `secret_key` when the function was called, also when the two overlap; no other byte
of the caller changes; and the copy `scalar` of the secret key is zero at the end. -/
theorem C81_x25519_partial (isa : Fp25519.Isa) (ρ : ℕ → Regs) (session_key secret_key : ℕ)
    (w : World) :
    let w' := keygen25519 isa ρ session_key secret_key w
    X25519.IsX25519 (bytesAt w.caller secret_key 32) X25519.nine
        (bytesAt w'.caller session_key 32) ∧
      (∀ a, ¬(session_key ≤ a ∧ a < session_key + 32) → w'.caller a = w.caller a) ∧
      w'.loc 1 0 = LIT 0 := by
  obtain ⟨m, h, hz, -⟩ := keygen25519_spec isa ρ session_key secret_key w
  have hk := length_bytesAt w.caller secret_key 32
  have hl := (X25519.C19_keygen_canonical isa _ hk).1
  rw [h]
  refine ⟨?_, fun a ha => storeAt_other (by rw [hl]; exact ha), hz⟩
  rw [bytesAt_storeAt hl]
  exact X25519.C19_keygen isa _ hk

/-- C81, X448: the same for 56 bytes, the result being that of the function of the model (C61). -/
theorem C81_x448_partial (u13 u14 : W) (ρ : ℕ → Regs) (session_key secret_key : ℕ) (w : World) :
    let w' := keygen448 u13 u14 ρ session_key secret_key w
    bytesAt w'.caller session_key 56 = X448.keygen u13 u14 (bytesAt w.caller secret_key 56) ∧
      (∀ a, ¬(session_key ≤ a ∧ a < session_key + 56) → w'.caller a = w.caller a) ∧
      toF7 (w'.loc 1 0) (w'.loc 1 1) = ⟨0, 0, 0, 0, 0, 0, 0⟩ := by
  obtain ⟨m, h, hz, -⟩ := keygen448_spec u13 u14 ρ session_key secret_key w
  have hl := (X448.C61_keygen_canonical u13 u14 (bytesAt w.caller secret_key 56)).1
  rw [h]
  exact ⟨bytesAt_storeAt hl, fun a ha => storeAt_other (by rw [hl]; exact ha), hz⟩

/-! ## What is left in the local objects -/

/-- The signed digit in the word `n` of the two arrays of the recoding. -/
def digitIn (m : Mem) (oK oS n : ℕ) : ℤ :=
  if wordAt m oS n = 0 then (wordAt m oK n).toNat else -((wordAt m oK n).toNat : ℤ)

/-- A number read from the local objects that `X25519.keygen` leaves behind: eight times the
digits in the arrays `K` and `S` of the multiplication, with their weights. -/
def leftover25519 (m : Mem) : ℤ :=
  8 * ∑ n ∈ Finset.range 64, (16 : ℤ) ^ Ed25519.nibIdx n * digitIn m 13 14 n

/-- C81 is false of X25519 as far as local memory is concerned: the copy `scalar` is erased, but
the recoded digits are not, and the secret scalar can be read from them, for every secret key. -/
theorem C81_x25519_wrong (isa : Fp25519.Isa) (ρ : ℕ → Regs) (session_key secret_key : ℕ)
    (w : World) :
    leftover25519 (keygen25519 isa ρ session_key secret_key w).loc
      = X25519.scalar (bytesAt w.caller secret_key 32) := by
  obtain ⟨m, h, -, hd⟩ := keygen25519_spec isa ρ session_key secret_key w
  have hk := length_bytesAt w.caller secret_key 32
  rw [h]
  generalize bytesAt w.caller secret_key 32 = k at *
  obtain ⟨hl, hc⟩ := X25519.clamp_val hk
  set r := (X25519.div_8_256 (Fp25519.F4.ofBytes (X25519.clamp k))).toBytes with hr
  have hrv : (leNat r : ℤ) = (X25519.scalar k : ℤ) / 8 := by
    rw [hr, Fp25519.F4.leNat_toBytes, X25519.div_8_256_val, Fp25519.F4.ofBytes_val hl, hc]
  have hs : X25519.scalar k = 8 * leNat r := by unfold X25519.scalar at *; omega
  have hle : leNat r ≤ 0x7777777777777777777777777777777777777777777777777777777777777777 := by
    have : X25519.scalar k < 2 ^ 255 := by unfold X25519.scalar; omega
    omega
  have hsum := (Ed25519.C24_radix16 r (Fp25519.F4.toBytes_length _)).2.2.1 hle
  have e : ∑ n ∈ Finset.range 64, (16 : ℤ) ^ Ed25519.nibIdx n * digitIn m 13 14 n
      = ∑ n ∈ Finset.range 64, (16 : ℤ) ^ Ed25519.nibIdx n * Ed25519.storedDigit r n := by
    refine Finset.sum_congr rfl fun n hn => ?_
    rw [digitIn, (hd n (Finset.mem_range.1 hn)).1, (hd n (Finset.mem_range.1 hn)).2]
    rfl
  rw [leftover25519]
  simp only
  rw [e, hsum, hs]
  push_cast
  ring

/-- The same for X448: the digits in `K` and `S`. -/
def leftover448 (m : Mem) : ℤ := ∑ n ∈ Finset.range 112, (16 : ℤ) ^ n * digitIn m 8 9 n

/-- C81 is false of X448 too: the array `r_div_4` and the recoded digits stay in memory, they are
the scalar by which the code multiplies, and the public key can be computed from either; when the
division by four is exact, four times this scalar is the secret scalar modulo the group order. -/
theorem C81_x448_wrong (u13 u14 : W) (ρ : ℕ → Regs) (session_key secret_key : ℕ) (w : World) :
    let w' := keygen448 u13 u14 ρ session_key secret_key w
    let r := Ed448.div4 u13 u14 (X448.clamp (bytesAt w.caller secret_key 56))
    get57 w'.loc 2 = r ∧ leftover448 w'.loc = leNat r ∧
      bytesAt w'.caller session_key 56
        = X448.point_Edwards2Montgomery (Ed448.point_multiplication (get57 w'.loc 2)) ∧
      (4 * leNat r ≡ X448.scalar (bytesAt w.caller secret_key 56) [MOD Ed448.order] →
        4 * leftover448 w'.loc ≡ X448.scalar (bytesAt w.caller secret_key 56)
          [ZMOD Ed448.order]) := by
  obtain ⟨m, h, -, hr, hd⟩ := keygen448_spec u13 u14 ρ session_key secret_key w
  have hb := (C81_x448_partial u13 u14 ρ session_key secret_key w).1
  rw [h] at hb ⊢
  intro w' r
  have hlen : r.length = 57 := (Ed448.C46_div4_lt _ _ _).1
  have hlt : leNat r < 2 ^ 446 := (Ed448.C46_div4_lt _ _ _).2
  have ht : leNat (r.take 56) = leNat r := by
    rw [leNat_take, Nat.mod_eq_of_lt (hlt.trans (by norm_num))]
  have e : leftover448 m = leNat r := by
    have := (Ed448.C56_recoding r (by omega) (by rw [ht]; exact hlt)).2
    rw [ht] at this
    rw [leftover448, ← this]
    refine Finset.sum_congr rfl fun n hn => ?_
    rw [digitIn, (hd n (Finset.mem_range.1 hn)).1, (hd n (Finset.mem_range.1 hn)).2]
    rfl
  refine ⟨hr, e, ?_, fun hm => ?_⟩
  · rw [hb, show get57 w'.loc 2 = r from hr]
    rfl
  · rw [show leftover448 w'.loc = leNat r from e]
    exact_mod_cast (Int.natCast_modEq_iff.2 hm)

/-! ## Non-vacuity -/

/-- The public key written over the secret key. -/
example (isa : Fp25519.Isa) (ρ : ℕ → Regs) (w : World) :
    X25519.IsX25519 (bytesAt w.caller 64 32) X25519.nine
        (bytesAt (keygen25519 isa ρ 64 64 w).caller 64 32) ∧
      (keygen25519 isa ρ 64 64 w).caller 96 = w.caller 96 :=
  ⟨(C81_x25519_partial isa ρ 64 64 w).1, (C81_x25519_partial isa ρ 64 64 w).2.1 96 (by decide)⟩

/-- The key of 32 bytes 7: the number left in memory. -/
example (isa : Fp25519.Isa) (ρ : ℕ → Regs) (m : Mem) :
    leftover25519 (keygen25519 isa ρ 0 32 ⟨fun _ => 7#8, m⟩).loc =
      0x4707070707070707070707070707070707070707070707070707070707070700 := by
  rw [C81_x25519_wrong]
  change ((X25519.scalar (bytesAt (fun _ => 7#8) 32 32) : ℕ) : ℤ) = _
  decide +kernel

/-- A key for which the division by four is exact. -/
example (u13 u14 : W) (ρ : ℕ → Regs) (m : Mem) :
    4 * leftover448 (keygen448 u13 u14 ρ 0 0 ⟨fun a => X448.kGood.getD a 0, m⟩).loc
      ≡ Ed448.aGood [ZMOD Ed448.order] := by
  have h := (C81_x448_wrong u13 u14 ρ 0 0 ⟨fun a => X448.kGood.getD a 0, m⟩).2.2.2
  have e : bytesAt (fun a => X448.kGood.getD a 0) 0 56 = X448.kGood := by decide +kernel
  simp only at h
  rw [e, X448.scalar_good] at h
  refine h ?_
  have ht : leNat ((X448.clamp X448.kGood).take 56) = Ed448.aGood :=
    (X448.clamp_take (leBytes_length _ _)).trans X448.scalar_good
  obtain ⟨e', hlt⟩ := Ed448.div4_eq u13 u14 (X448.clamp X448.kGood) (by
    rw [ht]; exact Ed448.aGood_div)
  rw [e', ht, leNat_leBytes, Nat.mod_eq_of_lt (by rw [ht] at hlt; exact hlt.trans (by norm_num))]
  exact Ed448.quarter_modEq _

end Verif.Vec
