import Verif.Vec.SignMemLemmas
import Verif.Props.EddsaMem
import Verif.Props.VecKeygen

/-!
# Property C83: Ed25519 and Ed448 key generation and signing on memory

`apiKeygenEd25519`, `apiSignEd25519`, `apiKeygenEd448` and `apiSignEd448` are `.keygen` and `.sign`
of the structures `Ed25519` and `Ed448` on the bytes of the caller and the local memory
(Vec/SignMem.lean).  The statements quantify over all contents of the memory of the caller, all
pointers with any overlap, all lengths, all modes, and all contents of the registers and of local
memory before the call. -/

namespace Verif.Vec

set_option exponentiation.threshold 2000

open Verif.Ed25519 (Status)

/-! ## Ed25519 -/

/-- C83, Ed25519 key generation, partial: the status is "ok", the 32 bytes at `public_key` are the
public key of the private key that was there before the call, and no other byte of the caller
changes, whatever the local memory held.  Missing: that nothing is left in local memory, which is
false (`C83_keygen_wrong_25519`). -/
theorem C83_keygen_25519_partial (H : List Byte → List Byte) (hH : ∀ m, (H m).length = 64)
    (isa : Fp25519.Isa) (ρ : ℕ → Regs) (mode : Ed25519.Mode) (public_key private_key : ℕ)
    (s : SignSt) :
    let t := apiKeygenEd25519 H isa ρ mode public_key private_key s
    t.1 = .KEYGEN_OK ∧
      bytesAt t.2.caller public_key 32 = Ed25519.encode
        (Ed25519.secretScalar (H (bytesAt s.caller private_key 32)) • Ed25519.B) ∧
      ∀ a, ¬(public_key ≤ a ∧ a < public_key + 32) → t.2.caller a = s.caller a := by
  intro t
  have h := (keygenEd25519_spec hH isa ρ public_key private_key s).1
  change (t.1, t.2.caller) = (Status.KEYGEN_OK, storeAt s.caller public_key
    (Ed25519.point_encoding isa (Ed25519.point_multiplication
      (Ed25519.keygenScalar (H (bytesAt s.caller private_key 32)))))) at h
  rw [Ed25519.point_encoding_spec isa (Ed25519.keygen_mult (hH _))] at h
  obtain ⟨h1, h2⟩ := Prod.mk.inj h
  refine ⟨h1, ?_, fun a ha => ?_⟩
  · rw [h2, bytesAt_storeAt (Ed25519.encode_length _)]
  · rw [h2]
    exact storeAt_other (by rwa [Ed25519.encode_length])

/-- C83, Ed25519 signing, partial: whatever the local memory and the registers held, the status
and the memory of the caller are those of `Ed25519.apiSignMem`, of which C79 says what they are
for separate and for overlapping buffers.  Missing: that nothing is left in local memory, which
is false (`C83_sign_wrong_25519`). -/
theorem C83_sign_25519_partial (H : List Byte → List Byte) (hH : ∀ m, (H m).length = 64)
    (isa : Fp25519.Isa) (ρ : ℕ → Regs) (mode : Ed25519.Mode)
    (signature message mlen context clen public_key private_key : ℕ) (s : SignSt) :
    let t := apiSignEd25519 H isa ρ mode signature message mlen context clen public_key
      private_key s
    (t.1, t.2.caller) = Ed25519.apiSignMem H isa mode s.caller signature message mlen context clen
      public_key private_key := by
  cases mode
  · exact (signEd25519_ok hH isa ρ signature message mlen 0 0 public_key private_key 1 0 s
      (by simp) (Or.inr rfl)).1
  · by_cases hc : (0 : Byte) = 0 ∧ clen > 255
    · have h := signEd25519_long H isa ρ signature message mlen context clen public_key private_key
        0 1 s hc
      rw [apiSignEd25519, Ed25519.apiSignMem, h.1, h.2]
    · exact (signEd25519_ok hH isa ρ signature message mlen context clen public_key private_key
        0 1 s hc (Or.inl rfl)).1
  · by_cases hc : (0 : Byte) = 0 ∧ clen > 255
    · have h := signEd25519_long H isa ρ signature message mlen context clen public_key private_key
        0 0 s hc
      rw [apiSignEd25519, Ed25519.apiSignMem, h.1, h.2]
    · exact (signEd25519_ok hH isa ρ signature message mlen context clen public_key private_key
        0 0 s hc (Or.inr rfl)).1

/-- C83: signing with Ed25519 depends on nothing but the memory of the caller. -/
theorem C83_stable_25519 (H : List Byte → List Byte) (hH : ∀ m, (H m).length = 64)
    (isa : Fp25519.Isa) (ρ ρ' : ℕ → Regs) (mode : Ed25519.Mode)
    (signature message mlen context clen public_key private_key : ℕ) (s s' : SignSt)
    (h : s.caller = s'.caller) :
    let t := apiSignEd25519 H isa ρ mode signature message mlen context clen public_key
      private_key s
    let t' := apiSignEd25519 H isa ρ' mode signature message mlen context clen public_key
      private_key s'
    t.1 = t'.1 ∧ t.2.caller = t'.2.caller := by
  intro t t'
  have e := (C83_sign_25519_partial H hH isa ρ mode signature message mlen context clen public_key
    private_key s).trans ((congrArg (fun c => Ed25519.apiSignMem H isa mode c signature message mlen
      context clen public_key private_key) h).trans
    (C83_sign_25519_partial H hH isa ρ' mode signature message mlen context clen public_key
      private_key s').symm)
  exact Prod.mk.inj e

/-- The number whose digits are in the arrays `K` and `S` of the multiplication. -/
def digitsLeft25519 (m : Mem) : ℤ :=
  ∑ n ∈ Finset.range 64, (16 : ℤ) ^ Ed25519.nibIdx n * digitIn m 3 4 n

theorem digitsLeft25519_eq {m : Mem} {r : List Byte} (hr : r.length = 32)
    (h : ∀ n < 64, wordAt m 3 n = Ed25519.list_digits r n ∧ wordAt m 4 n = Ed25519.list_signs r n) :
    digitsLeft25519 m = (leNat r : ℤ) - if leNat r ≤ Ed25519.recLimit then 0 else 2 ^ 256 := by
  have e : digitsLeft25519 m
      = ∑ n ∈ Finset.range 64, (16 : ℤ) ^ Ed25519.nibIdx n * Ed25519.storedDigit r n := by
    refine Finset.sum_congr rfl fun n hn => ?_
    rw [digitIn, (h n (Finset.mem_range.1 hn)).1, (h n (Finset.mem_range.1 hn)).2]
    rfl
  rw [e, Ed25519.stored_sum, Ed25519.recode_value r hr]

/-- C83 is false of Ed25519 key generation as far as local memory is concerned: after every call
the recoded digits of the secret scalar are in the arrays of the multiplication, and the first 32
bytes of the array `az` are the scalar reduced as in `reduce64bits`: both give a number equal to
the secret scalar modulo the order of the group. -/
theorem C83_keygen_wrong_25519 (H : List Byte → List Byte) (hH : ∀ m, (H m).length = 64)
    (isa : Fp25519.Isa) (ρ : ℕ → Regs) (mode : Ed25519.Mode) (public_key private_key : ℕ)
    (s : SignSt) :
    let t := apiKeygenEd25519 H isa ρ mode public_key private_key s
    let a := Ed25519.secretScalar (H (bytesAt s.caller private_key 32))
    digitsLeft25519 t.2.loc ≡ a [ZMOD Ed25519.ell] ∧
      ∃ k ∈ ({0, 2 ^ 256} : Finset ℤ),
        (leNat (bytesAt (t.2.arr 0) 0 32) : ℤ) - k ≡ a [ZMOD Ed25519.ell] := by
  intro t a
  obtain ⟨-, ha, hd⟩ := keygenEd25519_spec hH isa ρ public_key private_key s
  obtain ⟨hl, hv⟩ := Ed25519.keygenScalar_val (hH (bytesAt s.caller private_key 32))
  have he := digitsLeft25519_eq hl hd
  have hm : (a : ℤ) - Ed25519.ell * (a / 2 ^ 252 : ℕ) ≡ a [ZMOD Ed25519.ell] :=
    (Int.modEq_iff_dvd.2 ⟨(a / 2 ^ 252 : ℕ), by ring⟩)
  constructor
  · change digitsLeft25519 (keygenEd25519 H isa ρ public_key private_key s).2.loc ≡ _ [ZMOD _]
    rw [he, hv]
    exact hm
  · refine ⟨if leNat (bytesAt (t.2.arr 0) 0 32) ≤ Ed25519.recLimit then 0 else 2 ^ 256, ?_, ?_⟩
    · split_ifs <;> simp
    · rw [show bytesAt (t.2.arr 0) 0 32 = _ from ha, hv]
      exact hm

/-- Signing by someone who has no private key but only 64 bytes `ah`: the nonce, the commitment,
the challenge and the response, computed by the same functions. -/
def signFrom25519 (H : List Byte → List Byte) (isa : Fp25519.Isa) (mode : Ed25519.Mode)
    (ah M C pk : List Byte) : Status × Option (List Byte) :=
  if mode ≠ .Pure ∧ 255 < C.length then (.ERROR_CONTEXT, none) else
  let r := Ed25519.reduceBytes (H (Ed25519.dom2 mode C ++ ah.drop 32 ++ Ed25519.PH H mode M))
  let R := Ed25519.point_encoding isa (Ed25519.point_multiplication r)
  let k := Ed25519.reduceBytes (H (Ed25519.dom2 mode C ++ R ++ pk ++ Ed25519.PH H mode M))
  (.SIGNATURE_OK, some (R ++ Ed25519.calculate_s r k (ah.take 32)))

theorem signFrom25519_eq {H : List Byte → List Byte} (hH : ∀ m, (H m).length = 64)
    (isa : Fp25519.Isa) (mode : Ed25519.Mode) (sk M C pk : List Byte) :
    signFrom25519 H isa mode (Ed25519.clampDigest (H sk)) M C pk =
      Ed25519.apiSign H isa mode M C pk sk := by
  rw [signFrom25519]
  by_cases h : Ed25519.tooLong mode C
  · rw [Ed25519.sign_long H isa h]
    exact if_pos h
  · rw [Ed25519.sign_short hH isa h]
    refine (if_neg h).trans ?_
    simp only [(Ed25519.clampDigest_take _ (hH sk)).2.2]
    rw [Ed25519.point_encoding_spec isa (Ed25519.mult_reduce (hH _))]
    rfl

theorem reduceBytes_signed {d : List Byte} (h : d.length = 64) :
    (leNat (Ed25519.reduceBytes d) : ℤ) -
      (if leNat (Ed25519.reduceBytes d) ≤ Ed25519.recLimit then 0 else 2 ^ 256) ≡ leNat d
        [ZMOD Ed25519.ell] := by
  have hlt : leNat d % Ed25519.ell < Ed25519.ell := Nat.mod_lt _ (by norm_num)
  have hel : Ed25519.ell =
      7237005577332262213973186563042994240857116359379907606001950938285454250989 := by norm_num
  have hm : ((leNat d % Ed25519.ell : ℕ) : ℤ) ≡ leNat d [ZMOD Ed25519.ell] := by
    rw [Int.natCast_mod]; exact Int.mod_modEq _ _
  rw [Ed25519.recLimit_val]
  rcases Ed25519.reduceBytes_val d h with h1 | ⟨h1, h2⟩
  · rw [h1, if_pos (by omega), sub_zero]
    exact hm
  · rw [h2, if_neg (by omega)]
    have e : (((2 ^ 256 - Ed25519.ell + leNat d % Ed25519.ell : ℕ) : ℤ) - 2 ^ 256)
        = ((leNat d % Ed25519.ell : ℕ) : ℤ) - Ed25519.ell := by omega
    rw [e]
    exact (Int.modEq_iff_dvd.2 ⟨1, by ring⟩).trans hm

/-- What every accepted call of `.sign` leaves: the arrays `ah` and `r`, and the digits of `r`. -/
theorem signEd25519_left {H : List Byte → List Byte} (hH : ∀ m, (H m).length = 64)
    (isa : Fp25519.Isa) (ρ : ℕ → Regs) (mode : Ed25519.Mode)
    (signature message mlen context clen public_key private_key : ℕ) (s : SignSt)
    (hc : mode = .Pure ∨ clen ≤ 255) :
    let t := apiSignEd25519 H isa ρ mode signature message mlen context clen public_key
      private_key s
    let sk := bytesAt s.caller private_key 32
    let r := Ed25519.reduceBytes (H (Ed25519.dom2 mode (bytesAt s.caller context clen) ++
      (H sk).drop 32 ++ Ed25519.PH H mode (bytesAt s.caller message mlen)))
    t.1 = .SIGNATURE_OK ∧ bytesAt (t.2.arr 2) 0 64 = Ed25519.clampDigest (H sk) ∧
      bytesAt (t.2.arr 1) 0 32 = r ∧
      ∀ n < 64, wordAt t.2.loc 3 n = Ed25519.list_digits r n ∧
        wordAt t.2.loc 4 n = Ed25519.list_signs r n := by
  intro t sk r
  have hd := (Ed25519.clampDigest_take _ (hH sk)).2.2
  have hx := Ed25519.dom_eq mode (bytesAt s.caller context clen)
  cases mode
  · have h := (signEd25519_ok hH isa ρ signature message mlen 0 0 public_key private_key 1 0 s
      (by simp) (Or.inr rfl)).2
    rw [show bytesAt s.caller 0 0 = [] from rfl] at h
    simp only [Ed25519.Mode.ctx, Ed25519.Mode.flags] at hx
    rw [hx, show bytesAt s.caller private_key 32 = sk from rfl, hd,
      if_neg (show ¬((0 : Byte) = 1) by decide)] at h
    exact h
  · have h := (signEd25519_ok hH isa ρ signature message mlen context clen public_key private_key
      0 1 s (by rcases hc with hc | hc <;> simp_all) (Or.inl rfl)).2
    simp only [Ed25519.Mode.ctx, Ed25519.Mode.flags] at hx
    rw [hx, show bytesAt s.caller private_key 32 = sk from rfl, hd, if_pos rfl] at h
    exact h
  · have h := (signEd25519_ok hH isa ρ signature message mlen context clen public_key private_key
      0 0 s (by rcases hc with hc | hc <;> simp_all) (Or.inr rfl)).2
    simp only [Ed25519.Mode.ctx, Ed25519.Mode.flags] at hx
    rw [hx, show bytesAt s.caller private_key 32 = sk from rfl, hd,
      if_neg (show ¬((0 : Byte) = 1) by decide)] at h
    exact h

/-- C83 is false of Ed25519 signing as far as local memory is concerned.  After every accepted call
the first half of the local array `ah` is the secret scalar and the second half is the secret
prefix; whoever reads these 64 bytes signs every message, in every mode, as the holder of the
private key does; and the digits of the secret nonce of the signature are in the arrays of the
multiplication. -/
theorem C83_sign_wrong_25519 (H : List Byte → List Byte) (hH : ∀ m, (H m).length = 64)
    (isa : Fp25519.Isa) (ρ : ℕ → Regs) (mode : Ed25519.Mode)
    (signature message mlen context clen public_key private_key : ℕ) (s : SignSt)
    (hc : mode = .Pure ∨ clen ≤ 255) :
    let t := apiSignEd25519 H isa ρ mode signature message mlen context clen public_key
      private_key s
    let sk := bytesAt s.caller private_key 32
    let ah := bytesAt (t.2.arr 2) 0 64
    t.1 = .SIGNATURE_OK ∧ leNat (ah.take 32) = Ed25519.secretScalar (H sk) ∧
      ah.drop 32 = (H sk).drop 32 ∧
      (∀ mode' M C pk, signFrom25519 H isa mode' ah M C pk
        = Ed25519.apiSign H isa mode' M C pk sk) ∧
      digitsLeft25519 t.2.loc ≡ Ed25519.nonce H mode sk (bytesAt s.caller message mlen)
        (bytesAt s.caller context clen) [ZMOD Ed25519.ell] := by
  intro t sk ah
  obtain ⟨h1, h2, -, h4⟩ := signEd25519_left hH isa ρ mode signature message mlen context clen
    public_key private_key s hc
  have ha : ah = Ed25519.clampDigest (H sk) := h2
  obtain ⟨-, c2, c3⟩ := Ed25519.clampDigest_take _ (hH sk)
  rw [ha]
  refine ⟨h1, c2, c3, fun mode' M C pk => signFrom25519_eq hH isa mode' sk M C pk, ?_⟩
  have he := digitsLeft25519_eq (Ed25519.F8.lowBytes_length _) h4
  exact he.symm ▸ reduceBytes_signed (hH _)

/-! ## Ed448 -/

/-- C83, Ed448 key generation, partial: the status is "ok", the 57 bytes at `public_key` are the
result of `Ed448.apiKeygen` for the private key that was there before the call (C58), and no other
byte of the caller changes, whatever the local memory held.  Missing: that nothing is left in
local memory, which is false (`C83_keygen_wrong_448`). -/
theorem C83_keygen_448_partial (H : List Byte → ℕ → List Byte) (hH : ∀ m n, (H m n).length = n)
    (u : ℕ → W) (ρ : ℕ → Regs) (mode : Ed448.Mode) (public_key private_key : ℕ) (s : SignSt) :
    let t := apiKeygenEd448 H u ρ mode public_key private_key s
    t.1 = .KEYGEN_OK ∧
      bytesAt t.2.caller public_key 57
        = (Ed448.apiKeygen H u mode (bytesAt s.caller private_key 57)).2 ∧
      ∀ a, ¬(public_key ≤ a ∧ a < public_key + 57) → t.2.caller a = s.caller a := by
  intro t
  have h := (keygenEd448_spec hH u ρ public_key private_key s).1
  obtain ⟨h1, h2⟩ := Prod.mk.inj h
  have hk := Ed448.C79_keygen_448 H u mode s.caller public_key private_key
  have hl : (Ed448.apiKeygen H u mode (bytesAt s.caller private_key 57)).2.length = 57 :=
    Ed448.point_encoding_length _
  have h2' : t.2.caller = storeAt s.caller public_key
      (Ed448.apiKeygen H u mode (bytesAt s.caller private_key 57)).2 := h2
  refine ⟨h1, ?_, fun a ha => ?_⟩
  · rw [h2', bytesAt_storeAt hl]
  · rw [h2']
    exact storeAt_other (by rwa [hl])

/-- C83, Ed448 signing, partial: whatever the local memory and the registers held, the status and
the memory of the caller are those of `Ed448.apiSignMem` (C79).  Missing: that nothing is left in
local memory, which is false (`C83_sign_wrong_448`). -/
theorem C83_sign_448_partial (H : List Byte → ℕ → List Byte) (hH : ∀ m n, (H m n).length = n)
    (u : ℕ → W) (ρ : ℕ → Regs) (mode : Ed448.Mode)
    (signature message mlen context clen public_key private_key : ℕ) (s : SignSt) :
    let t := apiSignEd448 H u ρ mode signature message mlen context clen public_key private_key s
    (t.1, t.2.caller) = Ed448.apiSignMem H u mode s.caller signature message mlen context clen
      public_key private_key := by
  cases mode
  · by_cases hc : clen > 255
    · have h := signEd448_long H u ρ signature message mlen context clen public_key private_key
        0 s hc
      rw [apiSignEd448, Ed448.apiSignMem, h.1, h.2]
    · exact (signEd448_ok hH u ρ signature message mlen context clen public_key private_key
        0 s hc (Or.inr rfl)).1
  · by_cases hc : clen > 255
    · have h := signEd448_long H u ρ signature message mlen context clen public_key private_key
        1 s hc
      rw [apiSignEd448, Ed448.apiSignMem, h.1, h.2]
    · exact (signEd448_ok hH u ρ signature message mlen context clen public_key private_key
        1 s hc (Or.inl rfl)).1

theorem signMem_junk {H : List Byte → ℕ → List Byte} (hH : ∀ m n, (H m n).length = n)
    (u u' : ℕ → W) (mode : Ed448.Mode) (c : ℕ → Byte)
    (signature message mlen context clen public_key private_key : ℕ) :
    Ed448.apiSignMem H u mode c signature message mlen context clen public_key private_key =
      Ed448.apiSignMem H u' mode c signature message mlen context clen public_key private_key := by
  by_cases h : 255 < clen
  · rw [Ed448.signMem_long H u h, Ed448.signMem_long H u' h]
  · rw [Ed448.signMem_short hH u h rfl rfl, Ed448.signMem_short hH u' h
      (Ed448.C46_reduce_junk (u 0) (u 1) (u' 0) (u' 1) _ (hH _ _))
      ((congrArg _ (Ed448.fixed_junk (u 2) (u 3) _)).trans
        (congrArg _ (Ed448.fixed_junk (u' 2) (u' 3) _)).symm),
      Ed448.calculate_s_junk (u 6), Ed448.calculate_s_junk (u' 6),
      Ed448.C46_reduce_junk (u 4) (u 5) (u' 4) (u' 5) _ (hH _ _)]

/-- C83: signing with Ed448 depends on nothing but the memory of the caller; in particular not on
the words `u` that the reduction reads before it writes them. -/
theorem C83_stable_448 (H : List Byte → ℕ → List Byte) (hH : ∀ m n, (H m n).length = n)
    (u u' : ℕ → W) (ρ ρ' : ℕ → Regs) (mode : Ed448.Mode)
    (signature message mlen context clen public_key private_key : ℕ) (s s' : SignSt)
    (h : s.caller = s'.caller) :
    let t := apiSignEd448 H u ρ mode signature message mlen context clen public_key private_key s
    let t' := apiSignEd448 H u' ρ' mode signature message mlen context clen public_key private_key s'
    t.1 = t'.1 ∧ t.2.caller = t'.2.caller := by
  intro t t'
  have e := (C83_sign_448_partial H hH u ρ mode signature message mlen context clen public_key
    private_key s).trans ((congrArg (fun c => Ed448.apiSignMem H u mode c signature message mlen
      context clen public_key private_key) h).trans ((signMem_junk hH u u' mode s'.caller signature
        message mlen context clen public_key private_key).trans
    (C83_sign_448_partial H hH u' ρ' mode signature message mlen context clen public_key
      private_key s').symm))
  exact Prod.mk.inj e

/-- The number whose digits are in the arrays `K` and `S` of the multiplication. -/
def digitsLeft448 (m : Mem) : ℤ := ∑ n ∈ Finset.range 112, (16 : ℤ) ^ n * digitIn m 3 4 n

theorem digitsLeft448_eq {m : Mem} {u13 u14 : W} {n : List Byte}
    (h : ∀ i < 112, wordAt m 3 i = Ed448.list_digits (Ed448.div4 u13 u14 n) i ∧
      wordAt m 4 i = Ed448.list_signs (Ed448.div4 u13 u14 n) i) :
    digitsLeft448 m = leNat (Ed448.div4 u13 u14 n) := by
  obtain ⟨hlen, hlt⟩ := Ed448.C46_div4_lt u13 u14 n
  generalize Ed448.div4 u13 u14 n = r at *
  have ht : leNat (r.take 56) = leNat r := by
    rw [leNat_take, Nat.mod_eq_of_lt (hlt.trans (by norm_num))]
  have := (Ed448.C56_recoding r (by omega) (by rw [ht]; exact hlt)).2
  rw [ht] at this
  rw [digitsLeft448, ← this]
  refine Finset.sum_congr rfl fun i hi => ?_
  rw [digitIn, (h i (Finset.mem_range.1 hi)).1, (h i (Finset.mem_range.1 hi)).2]
  rfl

/-- Signing by someone who has no private key but only 114 bytes `ah`. -/
def signFrom448 (H : List Byte → ℕ → List Byte) (u : ℕ → W) (mode : Ed448.Mode)
    (ah M C pk : List Byte) : Status × Option (List Byte) :=
  if 255 < C.length then (.ERROR_CONTEXT, none) else
  let r := Ed448.modular_reduction (u 0) (u 1)
    (H (Ed448.dom4 mode C ++ ah.drop 57 ++ Ed448.PH H mode M) 114)
  let R := Ed448.point_encoding (Ed448.fixed_point_multiplication (u 2) (u 3) r)
  let k := Ed448.modular_reduction (u 4) (u 5)
    (H (Ed448.dom4 mode C ++ R ++ pk ++ Ed448.PH H mode M) 114)
  (.SIGNATURE_OK, some (R ++ Ed448.calculate_s (u 6) (u 7) r k ah))

theorem signFrom448_eq {H : List Byte → ℕ → List Byte} (hH : ∀ m n, (H m n).length = n)
    (u : ℕ → W) (mode : Ed448.Mode) (sk M C pk : List Byte) :
    signFrom448 H u mode (Ed448.clampDigest (H sk 114)) M C pk
      = Ed448.apiSign H u mode M C pk sk := by
  rw [signFrom448]
  by_cases h : 255 < C.length
  · rw [Ed448.sign_long H u h, if_pos h]
  · rw [Ed448.sign_short hH u h, if_neg h]
    simp only [(Ed448.clampDigest_spec _ (hH sk 114)).2]

/-- C83 is false of Ed448 key generation as far as local memory is concerned: the local array `h`
keeps the secret scalar and the secret prefix, so that whoever reads it signs as the holder of the
private key does, and `r_div_4` and the digits keep the number by which the code multiplies. -/
theorem C83_keygen_wrong_448 (H : List Byte → ℕ → List Byte) (hH : ∀ m n, (H m n).length = n)
    (u : ℕ → W) (ρ : ℕ → Regs) (mode : Ed448.Mode) (public_key private_key : ℕ) (s : SignSt) :
    let t := apiKeygenEd448 H u ρ mode public_key private_key s
    let sk := bytesAt s.caller private_key 57
    let h := bytesAt (t.2.arr 0) 0 114
    let r := bytesAt (t.2.arr 4) 0 57
    leNat (h.take 56) = Ed448.secretScalar (H sk 114) ∧ h.drop 57 = (H sk 114).drop 57 ∧
      (∀ u' mode' M C pk, signFrom448 H u' mode' h M C pk
        = Ed448.apiSign H u' mode' M C pk sk) ∧
      r = Ed448.div4 (u 0) (u 1) h ∧ digitsLeft448 t.2.loc = leNat r := by
  intro t sk h r
  obtain ⟨-, h2, h3, h4⟩ := keygenEd448_spec hH u ρ public_key private_key s
  have ha : h = Ed448.clampDigest (H sk 114) := h2
  have hr : r = Ed448.div4 (u 0) (u 1) (Ed448.clampDigest (H sk 114)) := h3
  obtain ⟨c1, c2⟩ := Ed448.clampDigest_spec _ (hH sk 114)
  rw [ha, hr]
  exact ⟨c1, c2, fun u' mode' M C pk => signFrom448_eq hH u' mode' sk M C pk, rfl,
    digitsLeft448_eq h4⟩

/-- What every accepted call of `.sign` leaves. -/
theorem signEd448_left {H : List Byte → ℕ → List Byte} (hH : ∀ m n, (H m n).length = n)
    (u : ℕ → W) (ρ : ℕ → Regs) (mode : Ed448.Mode)
    (signature message mlen context clen public_key private_key : ℕ) (s : SignSt)
    (hc : clen ≤ 255) :
    let t := apiSignEd448 H u ρ mode signature message mlen context clen public_key private_key s
    let sk := bytesAt s.caller private_key 57
    let r := Ed448.modular_reduction (u 0) (u 1) (H (Ed448.dom4 mode (bytesAt s.caller context clen)
      ++ (H sk 114).drop 57 ++ Ed448.PH H mode (bytesAt s.caller message mlen)) 114)
    t.1 = .SIGNATURE_OK ∧ bytesAt (t.2.arr 2) 0 114 = Ed448.clampDigest (H sk 114) ∧
      bytesAt (t.2.arr 1) 0 114 = r ∧ bytesAt (t.2.arr 4) 0 57 = Ed448.div4 (u 2) (u 3) r ∧
      ∀ n < 112, wordAt t.2.loc 3 n = Ed448.list_digits (Ed448.div4 (u 2) (u 3) r) n ∧
        wordAt t.2.loc 4 n = Ed448.list_signs (Ed448.div4 (u 2) (u 3) r) n := by
  intro t sk r
  have hd := (Ed448.clampDigest_spec _ (hH sk 114)).2
  have hx := Ed448.dom_eq mode (bytesAt s.caller context clen)
  cases mode
  · have h := (signEd448_ok hH u ρ signature message mlen context clen public_key private_key
      0 s (by omega) (Or.inr rfl)).2
    simp only [Ed448.Mode.flag] at hx
    rw [hx, show bytesAt s.caller private_key 57 = sk from rfl, hd,
      if_neg (show ¬((0 : Byte) = 1) by decide)] at h
    exact h
  · have h := (signEd448_ok hH u ρ signature message mlen context clen public_key private_key
      1 s (by omega) (Or.inl rfl)).2
    simp only [Ed448.Mode.flag] at hx
    rw [hx, show bytesAt s.caller private_key 57 = sk from rfl, hd, if_pos rfl] at h
    exact h

/-- C83 is false of Ed448 signing as far as local memory is concerned: `ah` keeps the secret scalar
and the secret prefix, and with them everything that is needed to sign; `r` keeps the reduced
nonce, and the digits keep the number by which the code multiplies to obtain the commitment. -/
theorem C83_sign_wrong_448 (H : List Byte → ℕ → List Byte) (hH : ∀ m n, (H m n).length = n)
    (u : ℕ → W) (ρ : ℕ → Regs) (mode : Ed448.Mode)
    (signature message mlen context clen public_key private_key : ℕ) (s : SignSt)
    (hc : clen ≤ 255) :
    let t := apiSignEd448 H u ρ mode signature message mlen context clen public_key private_key s
    let sk := bytesAt s.caller private_key 57
    let ah := bytesAt (t.2.arr 2) 0 114
    let r := bytesAt (t.2.arr 1) 0 114
    let nonce := Ed448.nonce H mode sk (bytesAt s.caller message mlen)
      (bytesAt s.caller context clen)
    t.1 = .SIGNATURE_OK ∧ leNat (ah.take 56) = Ed448.secretScalar (H sk 114) ∧
      ah.drop 57 = (H sk 114).drop 57 ∧
      (∀ u' mode' M C pk, signFrom448 H u' mode' ah M C pk
        = Ed448.apiSign H u' mode' M C pk sk) ∧
      (Ed448.ReduceExact nonce → leNat r ≡ nonce [MOD Ed448.ell]) ∧
      digitsLeft448 t.2.loc = leNat (Ed448.div4 (u 2) (u 3) r) := by
  intro t sk ah r nonce
  obtain ⟨h1, h2, h3, -, h5⟩ := signEd448_left hH u ρ mode signature message mlen context clen
    public_key private_key s hc
  have ha : ah = Ed448.clampDigest (H sk 114) := h2
  obtain ⟨c1, c2⟩ := Ed448.clampDigest_spec _ (hH sk 114)
  rw [ha, show r = _ from h3]
  refine ⟨h1, c1, c2, fun u' mode' M C pk => signFrom448_eq hH u' mode' sk M C pk, ?_,
    digitsLeft448_eq h5⟩
  exact fun hx => (Ed448.C46_reduce_partial _ _ _ (hH _ _) hx).2.1

/-! ## Non-vacuity -/

/-- The public key written over the private key. -/
example (H : List Byte → List Byte) (hH : ∀ m, (H m).length = 64) (isa : Fp25519.Isa)
    (ρ : ℕ → Regs) (s : SignSt) :
    bytesAt (apiKeygenEd25519 H isa ρ .Pure 64 64 s).2.caller 64 32 = Ed25519.encode
      (Ed25519.secretScalar (H (bytesAt s.caller 64 32)) • Ed25519.B) :=
  (C83_keygen_25519_partial H hH isa ρ .Pure 64 64 s).2.1

/-- Signing in separate buffers, with C79: the signature is that of the values of the arguments. -/
example (H : List Byte → List Byte) (hH : ∀ m, (H m).length = 64) (isa : Fp25519.Isa)
    (ρ : ℕ → Regs) (s : SignSt) :
    let t := apiSignEd25519 H isa ρ .Context 0 100 20 200 3 300 400 s
    (t.1, t.2.caller) = written s.caller 0 (Ed25519.apiSign H isa .Context (bytesAt s.caller 100 20)
      (bytesAt s.caller 200 3) (bytesAt s.caller 300 32) (bytesAt s.caller 400 32)) :=
  (C83_sign_25519_partial H hH isa ρ .Context 0 100 20 200 3 300 400 s).trans
    (Ed25519.C79_sign_25519_partial H hH isa .Context s.caller 0 100 20 200 3 300 400
      (by intro a; omega) (fun _ a => by omega) (fun _ a => by omega))

/-- A hash whose digests all have the byte 7: after a signature of one message the array `ah` has
the clamped bytes, and the signature of another message follows from it. -/
example (isa : Fp25519.Isa) (ρ : ℕ → Regs) (s : SignSt) :
    let H : List Byte → List Byte := fun _ => List.replicate 64 7#8
    let t := apiSignEd25519 H isa ρ .Pure 0 100 20 0 0 300 400 s
    leNat ((bytesAt (t.2.arr 2) 0 64).take 32) =
        0x4707070707070707070707070707070707070707070707070707070707070700 ∧
      signFrom25519 H isa .PreHash (bytesAt (t.2.arr 2) 0 64) [1#8, 2#8] [] (bytesAt s.caller 300 32)
        = Ed25519.apiSign H isa .PreHash [1#8, 2#8] [] (bytesAt s.caller 300 32)
          (bytesAt s.caller 400 32) := by
  intro H t
  obtain ⟨-, h2, -, h4, -⟩ := C83_sign_wrong_25519 H (fun _ => by simp [H]) isa ρ .Pure
    0 100 20 0 0 300 400 s (Or.inl rfl)
  refine ⟨h2.trans ?_, h4 .PreHash _ _ _⟩
  change Ed25519.secretScalar (List.replicate 64 7#8) = _
  decide +kernel

/-- The same for Ed448, with the signature written over the private key. -/
example (u : ℕ → W) (ρ : ℕ → Regs) (s : SignSt) :
    let H : List Byte → ℕ → List Byte := fun _ n => List.replicate n 7#8
    let t := apiSignEd448 H u ρ .PureContext 0 200 20 300 255 600 0 s
    t.1 = .SIGNATURE_OK ∧
      leNat ((bytesAt (t.2.arr 2) 0 114).take 56) = Ed448.secretScalar (List.replicate 114 7#8) :=
  have h := C83_sign_wrong_448 (fun _ n => List.replicate n 7#8) (fun _ n => by simp) u ρ
    .PureContext 0 200 20 300 255 600 0 s (le_refl _)
  ⟨h.1, h.2.1⟩

end Verif.Vec
