import Verif.Ed25519.EddsaMem
import Verif.Ed448.EddsaMem
import Verif.Props.Eddsa25519
import Verif.Props.Ed448Sign
import Mathlib.Data.ZMod.Basic
import Mathlib.Tactic.FieldSimp

/-!
# Ed25519 and Ed448 on buffers that overlap: C79

`apiKeygenMem` and `apiSignMem` are the functions of the structures `Ed25519` and `Ed448` on the
memory `c` of the caller, with the pointers as arguments; `apiKeygen` and `apiSign` are the same
functions on the values of their arguments.
-/

namespace Verif

/-- What a caller sees of a function that returns a status and writes bytes at `p`, or none. -/
def written {α : Type} (c : ℕ → Byte) (p : ℕ) : α × Option (List Byte) → α × (ℕ → Byte)
  | (st, none) => (st, c)
  | (st, some s) => (st, storeAt c p s)

end Verif

namespace Verif.Ed25519

open Verif.Fp25519

set_option exponentiation.threshold 2000

theorem signMem_long (H : List Byte → List Byte) (isa : Isa) {mode : Mode} {c : ℕ → Byte}
    {signature message mlen context clen public_key private_key : ℕ}
    (h : tooLong mode (bytesAt c context clen)) :
    apiSignMem H isa mode c signature message mlen context clen public_key private_key =
      (.ERROR_CONTEXT, c) := by
  obtain ⟨h1, h2⟩ := h
  rw [length_bytesAt] at h2
  cases mode
  · exact absurd rfl h1
  all_goals rw [apiSignMem, sign_allMem, if_pos ⟨rfl, h2⟩]

/-- Signing, for any overlap: the challenge is computed from the bytes found after R is
written. -/
theorem signMem_short {H : List Byte → List Byte} (hH : ∀ m, (H m).length = 64) (isa : Isa)
    {mode : Mode} {c : ℕ → Byte}
    {signature message mlen context clen public_key private_key : ℕ}
    (h : ¬ tooLong mode (bytesAt c context clen)) {R : List Byte}
    (hR : R = encode (nonce H mode (bytesAt c private_key 32) (bytesAt c message mlen)
      (bytesAt c context clen) • B)) :
    apiSignMem H isa mode c signature message mlen context clen public_key private_key =
      (.SIGNATURE_OK, storeAt c signature (R ++
        calculate_s (reduceBytes (H (dom2 mode (bytesAt c context clen) ++
            (H (bytesAt c private_key 32)).drop 32 ++ PH H mode (bytesAt c message mlen))))
          (reduceBytes (H (dom2 mode (bytesAt (storeAt c signature R) context clen) ++ R ++
            bytesAt (storeAt c signature R) public_key 32 ++
            PH H mode (if mode = .PreHash then bytesAt c message mlen else
              bytesAt (storeAt c signature R) message mlen))))
          ((clampDigest (H (bytesAt c private_key 32))).take 32))) := by
  have hRl : R.length = 32 := by rw [hR, encode_length]
  have e0 : bytesAt (storeAt c signature R) signature 32 = R := bytesAt_storeAt hRl
  have key : ∀ M C : List Byte, encode (nonce H mode (bytesAt c private_key 32) M C • B) =
      point_encoding isa (point_multiplication (reduceBytes
        (H (dom2 mode C ++ (H (bytesAt c private_key 32)).drop 32 ++ PH H mode M)))) := by
    intro M C
    rw [point_encoding_spec isa (mult_reduce (hH _))]
    rfl
  rw [key] at hR
  have hd := (clampDigest_take _ (hH (bytesAt c private_key 32))).2.2
  rw [tooLong, length_bytesAt] at h
  rw [← storeAt_append, hRl]
  cases mode
  · rw [apiSignMem, sign_allMem, if_neg (by simp)]
    simp only [msgBytes, domBytes, hd]
    simp only [dom2, PH, List.nil_append] at hR ⊢
    simp only [show ¬((1 : Byte) = 0) by decide, show ¬((0 : Byte) = 1) by decide, if_false, if_true,
      List.nil_append, ← hR, e0, reduceCtorEq]
  · rw [apiSignMem, sign_allMem, if_neg (fun h' => h ⟨by simp, h'.2⟩)]
    have hx := fun C => dom_eq .PreHash C
    simp only [Mode.ctx, Mode.flags] at hx
    simp only [msgBytes, hx, hd, if_true]
    simp only [PH] at hR ⊢
    simp only [← hR, e0]
  · rw [apiSignMem, sign_allMem, if_neg (fun h' => h ⟨by simp, h'.2⟩)]
    have hx := fun C => dom_eq .Context C
    simp only [Mode.ctx, Mode.flags] at hx
    simp only [msgBytes, hx, hd, if_true]
    simp only [PH] at hR ⊢
    simp only [show ¬((0 : Byte) = 1) by decide, if_false, ← hR, e0, reduceCtorEq]

theorem response_eq {d1 d2 d3 : List Byte} (h1 : d1.length = 64) (h2 : d2.length = 64)
    (h3 : d3.length = 64) {r k : ℕ} (hr : r = leNat d1 % ell) (hk : k = leNat d2 % ell)
    (br : r < ell - 43 * (ell - 2 ^ 252)) (bk : k < ell - 43 * (ell - 2 ^ 252))
    (bs : (r + k * secretScalar d3) % ell < ell - 43 * (ell - 2 ^ 252))
    (hno : NoOverflow r (words4 (leBytes 32 k)) (words4 (leBytes 32 (secretScalar d3)))) :
    calculate_s (reduceBytes d1) (reduceBytes d2) ((clampDigest d3).take 32) =
      leBytes 32 ((r + k * secretScalar d3) % ell) := by
  obtain ⟨c1, c2, -⟩ := clampDigest_take _ h3
  have ec : (clampDigest d3).take 32 = leBytes 32 (secretScalar d3) := by
    have := leBytes_leNat ((clampDigest d3).take 32)
    rw [c1, c2] at this
    exact this.symm
  rw [reduceBytes_eq h1 (by rw [hr] at br; exact br), reduceBytes_eq h2 (by rw [hk] at bk; exact bk),
    ec, ← hr, ← hk]
  have lr : r < ell := lt_of_lt_of_le br (Nat.sub_le _ _)
  have lk : k < ell := lt_of_lt_of_le bk (Nat.sub_le _ _)
  have la : leNat (leBytes 32 (secretScalar d3)) = secretScalar d3 := by rw [← ec, c2]
  have h := C23_response_partial (leBytes 32 r) (leBytes 32 k) (leBytes 32 (secretScalar d3))
    (by simp) (by simp) (by simp) (by rw [leNat_leBytes_ell lr]; exact hno)
    (by rw [leNat_leBytes_ell lr, leNat_leBytes_ell lk, la]; exact bs)
  rw [leNat_leBytes_ell lr, leNat_leBytes_ell lk, la] at h
  rw [← h.2]
  conv_lhs => rw [← leBytes_leNat (calculate_s _ _ _), h.1]

/-- C79, Ed25519 key generation: whatever the pointers, the public key is that of the private key
as it was before the call, and nothing else of the caller changes. -/
theorem C79_keygen_25519 (H : List Byte → List Byte) (isa : Isa) (mode : Mode) (c : ℕ → Byte)
    (public_key private_key : ℕ) :
    apiKeygenMem H isa mode c public_key private_key =
      written c public_key ((apiKeygen H isa mode (bytesAt c private_key 32)).1,
        some (apiKeygen H isa mode (bytesAt c private_key 32)).2) ∧
    ∀ a, ¬(public_key ≤ a ∧ a < public_key + 32) →
      (apiKeygenMem H isa mode c public_key private_key).2 a = c a := by
  refine ⟨rfl, fun a ha => storeAt_other ?_⟩
  rwa [point_encoding_length]

/-- C79, Ed25519 signing, partial: when the first half of the signature has no byte in common with
the public key, the context (in the modes that have one) and the message (except in the prehashed
mode), the status is that of signing the values that the arguments had before the call, and the
memory afterwards is that of before with the signature, if there is one, written to its buffer.
The private key, and the second half of the signature, may overlap anything.  Missing: other
overlaps, for which this is false (`C79_sign_wrong_25519`). -/
theorem C79_sign_25519_partial (H : List Byte → List Byte) (hH : ∀ m, (H m).length = 64) (isa : Isa)
    (mode : Mode) (c : ℕ → Byte)
    (signature message mlen context clen public_key private_key : ℕ)
    (hp : NoShare public_key 32 signature 32)
    (hc : mode ≠ .Pure → NoShare context clen signature 32)
    (hm : mode ≠ .PreHash → NoShare message mlen signature 32) :
    apiSignMem H isa mode c signature message mlen context clen public_key private_key =
      written c signature (apiSign H isa mode (bytesAt c message mlen) (bytesAt c context clen)
        (bytesAt c public_key 32) (bytesAt c private_key 32)) := by
  by_cases h : tooLong mode (bytesAt c context clen)
  · rw [signMem_long H isa h, sign_long H isa h, written]
  rw [signMem_short hH isa h rfl, sign_short hH isa h, written]
  generalize hR : encode (nonce H mode (bytesAt c private_key 32) (bytesAt c message mlen)
      (bytesAt c context clen) • B) = R
  have hRl : R.length = 32 := by rw [← hR, encode_length]
  have e1 : dom2 mode (bytesAt (storeAt c signature R) context clen) =
      dom2 mode (bytesAt c context clen) := by
    cases mode
    · rfl
    all_goals rw [bytesAt_disjoint (by rw [hRl]; exact hc (by simp))]
  have e2 : (if mode = .PreHash then bytesAt c message mlen else
      bytesAt (storeAt c signature R) message mlen) = bytesAt c message mlen := by
    split_ifs with h
    · rfl
    · exact bytesAt_disjoint (by rw [hRl]; exact hm h)
  rw [e1, e2, bytesAt_disjoint (p := public_key) (by rw [hRl]; exact hp)]

/-- C79, Ed25519 signing: whatever the pointers, nothing but the 64 bytes of the signature changes,
and nothing at all when the context is refused. -/
theorem C79_rest_25519 (H : List Byte → List Byte) (hH : ∀ m, (H m).length = 64) (isa : Isa)
    (mode : Mode) (c : ℕ → Byte)
    (signature message mlen context clen public_key private_key a : ℕ)
    (h : (mode ≠ .Pure ∧ 255 < clen) ∨ ¬(signature ≤ a ∧ a < signature + 64)) :
    (apiSignMem H isa mode c signature message mlen context clen public_key private_key).2 a =
      c a := by
  by_cases ht : tooLong mode (bytesAt c context clen)
  · rw [signMem_long H isa ht]
  rw [signMem_short hH isa ht rfl]
  refine storeAt_other ?_
  rw [List.length_append, encode_length, show (calculate_s _ _ _).length = 32 from
    F8.lowBytes_length _]
  rcases h with h | h
  · rw [tooLong, length_bytesAt] at ht
    exact absurd h ht
  · exact h

/-- C79, what signing does for any overlap: R is that of the values before the call, but the
challenge is computed from the public key, the context and (except in the prehashed mode) the
message as they are after R was written over them. -/
theorem C79_sign_any_25519 (H : List Byte → List Byte) (hH : ∀ m, (H m).length = 64) (isa : Isa)
    (mode : Mode) (c c' : ℕ → Byte)
    (signature message mlen context clen public_key private_key : ℕ)
    (hC : mode = .Pure ∨ clen ≤ 255) (R : List Byte) (n r k s : ℕ)
    (hn : n = nonce H mode (bytesAt c private_key 32) (bytesAt c message mlen)
      (bytesAt c context clen))
    (hR : R = encode (n • B)) (hc' : c' = storeAt c signature R) (hr : r = n % ell)
    (hk : k = challenge H mode R (bytesAt c' public_key 32)
      (bytesAt (if mode = .PreHash then c else c') message mlen) (bytesAt c' context clen) % ell)
    (hs : s = secretScalar (H (bytesAt c private_key 32)))
    (br : r < ell - 43 * (ell - 2 ^ 252)) (bk : k < ell - 43 * (ell - 2 ^ 252))
    (bs : (r + k * s) % ell < ell - 43 * (ell - 2 ^ 252))
    (hno : NoOverflow r (words4 (leBytes 32 k)) (words4 (leBytes 32 s))) :
    apiSignMem H isa mode c signature message mlen context clen public_key private_key =
      (.SIGNATURE_OK, storeAt c signature (R ++ leBytes 32 ((r + k * s) % ell))) := by
  have h : ¬ tooLong mode (bytesAt c context clen) := by
    rintro ⟨h1, h2⟩
    rw [length_bytesAt] at h2
    rcases hC with h | h
    · exact h1 h
    · omega
  subst hn hc' hs
  rw [signMem_short hH isa h hR]
  rw [response_eq (hH _) (hH _) (hH _) (r := r) (k := k) hr ?_ br bk bs hno]
  rw [hk, challenge]
  split_ifs <;> rfl

/-- The secret scalar from two responses to two challenges with one nonce. -/
theorem two_responses {r k k' s S S' : ℕ} (hS : S = (r + k * s) % ell)
    (hS' : S' = (r + k' * s) % ell) (hk : k < ell) (hk' : k' < ell) (hne : k ≠ k') :
    ∃ d : ZMod ell, d * (k - k') = 1 ∧ (s : ZMod ell) = (S - S') * d := by
  have := Fact.mk C21_ell_prime
  have h1 : (S : ZMod ell) = r + k * s := by
    rw [hS, ZMod.natCast_mod]; push_cast; rfl
  have h2 : (S' : ZMod ell) = r + k' * s := by
    rw [hS', ZMod.natCast_mod]; push_cast; rfl
  have h3 : (k : ZMod ell) - k' ≠ 0 := by
    rw [sub_ne_zero]
    intro h
    rw [ZMod.natCast_eq_natCast_iff'] at h
    rw [Nat.mod_eq_of_lt hk, Nat.mod_eq_of_lt hk'] at h
    exact hne h
  refine ⟨((k : ZMod ell) - k')⁻¹, inv_mul_cancel₀ h3, ?_⟩
  rw [eq_mul_inv_iff_mul_eq₀ h3, h1, h2]
  ring

/-- C79: signing in place gives away the private key.  The signature of a message made in a buffer
of its own and the one made over a buffer that overlaps the message or the public key have the same
R and, when the challenges k and k', which anyone can compute, differ, the two responses S and S'
determine the secret scalar modulo the order: it is (S - S') / (k - k').  (Outside the rare cases of
C21 and C22.) -/
theorem C79_leak_25519 (H : List Byte → List Byte) (hH : ∀ m, (H m).length = 64) (isa : Isa)
    (mode : Mode) (c c' : ℕ → Byte)
    (signature message mlen context clen public_key private_key : ℕ)
    (hC : mode = .Pure ∨ clen ≤ 255) (R : List Byte) (n r k k' s : ℕ)
    (hn : n = nonce H mode (bytesAt c private_key 32) (bytesAt c message mlen)
      (bytesAt c context clen))
    (hR : R = encode (n • B)) (hc' : c' = storeAt c signature R) (hr : r = n % ell)
    (hk : k = challenge H mode R (bytesAt c public_key 32) (bytesAt c message mlen)
      (bytesAt c context clen) % ell)
    (hk' : k' = challenge H mode R (bytesAt c' public_key 32)
      (bytesAt (if mode = .PreHash then c else c') message mlen) (bytesAt c' context clen) % ell)
    (hs : s = secretScalar (H (bytesAt c private_key 32))) (hne : k ≠ k')
    (br : r < ell - 43 * (ell - 2 ^ 252))
    (bk : k < ell - 43 * (ell - 2 ^ 252)) (bk' : k' < ell - 43 * (ell - 2 ^ 252))
    (bs : (r + k * s) % ell < ell - 43 * (ell - 2 ^ 252))
    (bs' : (r + k' * s) % ell < ell - 43 * (ell - 2 ^ 252))
    (hno : NoOverflow r (words4 (leBytes 32 k)) (words4 (leBytes 32 s)))
    (hno' : NoOverflow r (words4 (leBytes 32 k')) (words4 (leBytes 32 s))) :
    ∃ S S' : ℕ,
      apiSign H isa mode (bytesAt c message mlen) (bytesAt c context clen)
        (bytesAt c public_key 32) (bytesAt c private_key 32) =
        (.SIGNATURE_OK, some (R ++ leBytes 32 S)) ∧
      apiSignMem H isa mode c signature message mlen context clen public_key private_key =
        (.SIGNATURE_OK, storeAt c signature (R ++ leBytes 32 S')) ∧
      ∃ d : ZMod ell, d * (k - k') = 1 ∧ (s : ZMod ell) = (S - S') * d := by
  refine ⟨(r + k * s) % ell, (r + k' * s) % ell, ?_, ?_, ?_⟩
  · obtain ⟨S, -, h1, h2⟩ := C33_sign H hH isa mode (bytesAt c message mlen)
      (bytesAt c context clen) (bytesAt c public_key 32) (bytesAt c private_key 32)
      (by rwa [length_bytesAt])
    rw [← hn, ← hR, ← hs] at h2
    rw [h1, ← hn, ← hR, h2 r k hr hk br bk bs hno]
  · exact C79_sign_any_25519 H hH isa mode c c' signature message mlen context clen public_key
      private_key hC R n r k' s hn hR hc' hr hk' hs br bk' bs' hno'
  · exact two_responses rfl rfl (hk ▸ Nat.mod_lt _ (by norm_num)) (hk' ▸ Nat.mod_lt _ (by norm_num))
      hne

/-- The hash of the witness: as `toyHash`, but the challenge is 77 for strings that end in `b` and
0 for the others. -/
def toyHash' (b : Byte) (m : List Byte) : List Byte :=
  if m.length = 32 then leBytes 64 (7 * ell + 85629) else if m.length = 33 then leBytes 64 1000 else
    if m.getLast? = some b then leBytes 64 77 else leBytes 64 0

theorem toyHash'_length (b : Byte) (m : List Byte) : (toyHash' b m).length = 64 := by
  unfold toyHash'; split_ifs <;> simp

theorem toyHash'_end {b x : Byte} {m : List Byte} (h : 64 ≤ m.length) :
    toyHash' b (m ++ [x]) = if x = b then leBytes 64 77 else leBytes 64 0 := by
  unfold toyHash'
  rw [if_neg (by simp; omega), if_neg (by simp; omega), List.getLast?_append]
  simp

theorem key_order : 77 • badKey ≠ 0 := by
  intro h
  rw [badKey, ← nsmul_times] at h
  have := addOrderOf_dvd_of_nsmul_eq_zero h
  rw [addOrderOf_B] at this
  revert this
  decide +kernel

/-- C79 is false of signing in place: there are a hash function, a private key and a message such
that signing in a buffer where the message lies returns success and a signature that differs from
the one made in a buffer of its own; verification accepts the latter and refuses the former.
(Memory: the message at 0, of one byte, the public key at 1000, the private key at 2000.) -/
theorem C79_sign_wrong_25519 (isa : Isa) : ∃ (H : List Byte → List Byte) (c c' : ℕ → Byte)
    (sig : List Byte), (∀ m, (H m).length = 64) ∧
    bytesAt c 1000 32 = (apiKeygen H isa .Pure (bytesAt c 2000 32)).2 ∧
    apiSign H isa .Pure (bytesAt c 0 1) [] (bytesAt c 1000 32) (bytesAt c 2000 32) =
      (.SIGNATURE_OK, some sig) ∧
    apiVerify H isa .Pure (bytesAt c 0 1) [] (bytesAt c 1000 32) sig = .VERIFICATION_OK ∧
    apiSignMem H isa .Pure c 0 0 1 0 0 1000 2000 = (.SIGNATURE_OK, c') ∧
    bytesAt c' 0 64 ≠ sig ∧
    apiVerify H isa .Pure (bytesAt c 0 1) [] (bytesAt c 1000 32) (bytesAt c' 0 64) =
      .INVALID_SIGNATURE := by
  obtain ⟨x, R', hx⟩ : ∃ x R', encode (1000 • B) = x :: R' := by
    have := encode_length (1000 • B)
    cases h : encode (1000 • B) with
    | nil => rw [h] at this; simp at this
    | cons x R' => exact ⟨x, R', rfl⟩
  let b : Byte := x + 1
  have hxb : x ≠ b := by
    intro h
    have : x.toNat = (x.toNat + 1) % 256 := by
      conv_lhs => rw [h]
      rw [BitVec.toNat_add]; rfl
    have := x.isLt
    omega
  let H := toyHash' b
  let c : ℕ → Byte := storeAt (storeAt (fun _ => 0) 0 [b]) 1000 (encode badKey)
  have hH : ∀ m, (H m).length = 64 := toyHash'_length b
  have cM : bytesAt c 0 1 = [b] := by
    rw [bytesAt_disjoint (by rw [encode_length]; intro a; omega)]
    exact bytesAt_storeAt rfl
  have cP : bytesAt c 1000 32 = encode badKey := bytesAt_storeAt (encode_length _)
  have cS : bytesAt c 2000 32 = leBytes 32 0 := by
    rw [bytesAt_disjoint (by rw [encode_length]; intro a; omega),
      bytesAt_disjoint (by intro a; simp only [List.length_singleton]; omega)]
    decide +kernel
  have hHs : H (leBytes 32 0) = leBytes 64 (7 * ell + 85629) := by
    show toyHash' b _ = _
    unfold toyHash'; rw [if_pos (by simp)]
  have hsc : secretScalar (leBytes 64 (7 * ell + 85629)) = 7 * ell + 85629 := by decide +kernel
  have hn : ∀ C, nonce H .Pure (leBytes 32 0) [b] C = 1000 := by
    intro C
    have e : H (dom2 .Pure C ++ (H (leBytes 32 0)).drop 32 ++ PH H .Pure [b]) = leBytes 64 1000 := by
      show toyHash' b _ = _
      unfold toyHash'
      rw [if_neg (by rw [List.length_append, List.length_append, List.length_drop, hH]; simp [dom2, PH]),
        if_pos (by rw [List.length_append, List.length_append, List.length_drop, hH]; simp [dom2, PH])]
    rw [nonce, e]
    decide +kernel
  have hch : ∀ (R : List Byte) C (y : Byte), R.length = 32 →
      challenge H .Pure R (encode badKey) [y] C = if y = b then 77 else 0 := by
    intro R C y hR
    have : challenge H .Pure R (encode badKey) [y] C =
        leNat (toyHash' b (dom2 .Pure C ++ R ++ encode badKey ++ [y])) := rfl
    rw [this, toyHash'_end (by simp [hR, encode_length])]
    split_ifs <;> decide +kernel
  have hkey : encode (secretScalar (H (leBytes 32 0)) • B) = encode badKey := by
    rw [hHs, hsc]
    refine congrArg encode ?_
    rw [nsmul_plus, nsmul_times, ell_B, nsmul_null, zero_add, badKey]
  have hg : apiKeygen H isa .Pure (leBytes 32 0) = (.KEYGEN_OK, encode badKey) := by
    rw [C53_keygen _ _ _ _ (hH _), hkey]
  have hno : ∀ k, k = 0 ∨ k = 77 →
      NoOverflow 1000 (words4 (leBytes 32 k)) (words4 (leBytes 32 (7 * ell + 85629))) := by
    intro k hk
    have e : 1000 = wval (words4 (leBytes 32 1000) ++ List.replicate 8 0#64) := by decide +kernel
    rw [e]
    refine (C22_multiplier _ _ _ (by simp [words4])).2.2.mp ?_
    rcases hk with rfl | rfl <;> decide +kernel
  -- the signature made properly
  have hreg : Regular H isa .Pure [b] [] (leBytes 32 0) 1000 77 6594433 := by
    refine ⟨?_, ?_, ?_, by norm_num, by norm_num, by norm_num, ?_, ?_⟩
    · rw [hn]; norm_num
    · rw [hkey, hch _ _ _ (encode_length _), if_pos rfl]; norm_num
    · rw [hHs, hsc]; norm_num
    · rw [hHs, hsc]; exact hno 77 (Or.inr rfl)
    · rw [hkey]; exact goodMultSign isa
  obtain ⟨sig, hs1, hs2⟩ := C29_verifies_partial H hH isa .Pure [b] [] (leBytes 32 0) (Or.inl rfl)
    1000 77 6594433 hreg
  rw [hg] at hs1 hs2
  -- the signature made in place
  have hin := C79_sign_any_25519 H hH isa .Pure c (storeAt c 0 (encode (1000 • B))) 0 0 1 0 0 1000 2000
    (Or.inl rfl) (encode (1000 • B)) 1000 1000 0 (7 * ell + 85629)
    (by rw [cS, cM, hn]) rfl rfl (by norm_num) (by
      have e1 : bytesAt (storeAt c 0 (encode (1000 • B))) 1000 32 = encode badKey := by
        rw [bytesAt_disjoint (by rw [encode_length]; intro a; omega), cP]
      have e2 : bytesAt (storeAt c 0 (encode (1000 • B))) 0 1 = [x] := by
        rw [hx]
        rfl
      rw [if_neg (by simp), e1, e2, hch _ _ _ (encode_length _), if_neg hxb, Nat.zero_mod])
    (by rw [cS, hHs, hsc]) (by norm_num) (by norm_num) (by norm_num) (hno 0 (Or.inl rfl))
  rw [show (1000 + 0 * (7 * ell + 85629)) % ell = 1000 by norm_num] at hin
  have hc' : bytesAt (storeAt c 0 (encode (1000 • B) ++ leBytes 32 1000)) 0 64 =
      encode (1000 • B) ++ leBytes 32 1000 := bytesAt_storeAt (by simp [encode_length])
  have hbad : apiVerify H isa .Pure [b] [] (encode badKey) (encode (1000 • B) ++ leBytes 32 1000) ≠
      .VERIFICATION_OK := by
    have h := C30_verify_partial H hH isa .Pure [b] [] (encode badKey)
      (encode (1000 • B) ++ leBytes 32 1000) (Or.inl rfl) (encode_length _)
      (by simp [encode_length]) badKey (decodes_encode _)
    have e3 : leNat (leBytes 32 1000) = 1000 := by decide +kernel
    rw [sig_take, sig_drop, hch _ _ _ (encode_length _), if_pos rfl, e3,
      Nat.mod_eq_of_lt (by norm_num : 77 < ell)] at h
    intro hv
    have := (h (Or.inr (by norm_num)) (by norm_num) (goodMult isa)).1 hv
    have := encode_inj this
    exact key_order (by rwa [eq_comm, sub_eq_self] at this)
  refine ⟨H, c, _, sig, hH, ?_, ?_, ?_, hin, ?_, ?_⟩
  · rw [cP, cS, hg]
  · rw [cM, cP, cS]; exact hs1
  · rw [cM, cP]; exact hs2
  · rw [hc']
    rintro rfl
    exact hbad hs2
  · rw [cM, cP, hc']
    rw [verify_short _ isa (by simp [tooLong])] at hbad ⊢
    split_ifs at hbad ⊢ with h
    · exact absurd rfl hbad
    · rfl

/-- Non-vacuity: in the prehashed mode the signature may lie over the message and the private
key. -/
example (H : List Byte → List Byte) (hH : ∀ m, (H m).length = 64) (isa : Isa) (c : ℕ → Byte) :
    apiSignMem H isa .PreHash c 0 5 20 100 3 200 16 =
      written c 0 (apiSign H isa .PreHash (bytesAt c 5 20) (bytesAt c 100 3) (bytesAt c 200 32)
        (bytesAt c 16 32)) :=
  C79_sign_25519_partial H hH isa .PreHash c 0 5 20 100 3 200 16 (by intro a; omega)
    (fun _ a => by omega) (fun h => absurd rfl h)

end Verif.Ed25519

namespace Verif.Ed448

open Verif.Fp448
open Verif.Ed25519 (Status)

set_option exponentiation.threshold 2000

theorem point_encoding_length (P : P2w) : (point_encoding P).length = 57 := by
  unfold point_encoding
  simp [R1.ser, Full.ser, F7.toBytes]

theorem calculate_s_length (u v : W) (r k a : List Byte) : (calculate_s u v r k a).length = 57 := by
  unfold calculate_s
  simp only
  obtain ⟨lo, e, h1, -, -⟩ := modular_reduction_val u v
    ((bytesOf (word64_multiplier (words 7 (r.take 56) ++ List.replicate 9 0#64) (words 7 (k.take 56))
      (words 7 (a.take 56)))).take 114) (by
      rw [List.length_take, bytesOf_length, word64_multiplier_length]
      simp [words_length])
  rw [e]
  simp [h1]

theorem signMem_long (H : List Byte → ℕ → List Byte) (u : ℕ → W) {mode : Mode} {c : ℕ → Byte}
    {signature message mlen context clen public_key private_key : ℕ} (h : 255 < clen) :
    apiSignMem H u mode c signature message mlen context clen public_key private_key =
      (.ERROR_CONTEXT, c) := by
  cases mode
  all_goals rw [apiSignMem, sign_allMem, if_pos h]

/-- Signing, for any overlap: the challenge is computed from the bytes found after R is
written. -/
theorem signMem_short {H : List Byte → ℕ → List Byte} (hH : ∀ m n, (H m n).length = n) (u : ℕ → W)
    {mode : Mode} {c : ℕ → Byte}
    {signature message mlen context clen public_key private_key : ℕ}
    (h : ¬ 255 < clen) {r R : List Byte}
    (hr : r = modular_reduction (u 0) (u 1) (H (dom4 mode (bytesAt c context clen) ++
      (H (bytesAt c private_key 57) 114).drop 57 ++ PH H mode (bytesAt c message mlen)) 114))
    (hR : R = point_encoding (fixed_point_multiplication (u 2) (u 3) r)) :
    apiSignMem H u mode c signature message mlen context clen public_key private_key =
      (.SIGNATURE_OK, storeAt c signature (R ++
        calculate_s (u 6) (u 7) r
          (modular_reduction (u 4) (u 5) (H (dom4 mode (bytesAt (storeAt c signature R) context clen)
            ++ R ++ bytesAt (storeAt c signature R) public_key 57 ++
            PH H mode (if mode = .PreHash then bytesAt c message mlen else
              bytesAt (storeAt c signature R) message mlen)) 114))
          (clampDigest (H (bytesAt c private_key 57) 114)))) := by
  have hRl : R.length = 57 := by rw [hR, point_encoding_length]
  have e0 : bytesAt (storeAt c signature R) signature 57 = R := bytesAt_storeAt hRl
  have hd := (clampDigest_spec _ (hH (bytesAt c private_key 57) 114)).2
  rw [← storeAt_append, hRl]
  cases mode
  · rw [apiSignMem, sign_allMem, if_neg h]
    have hx := fun C => dom_eq .PureContext C
    simp only [Mode.flag] at hx
    simp only [msgBytes, hx, hd, if_true]
    simp only [PH] at hr ⊢
    simp only [show ¬((0 : Byte) = 1) by decide, if_false, ← hr, ← hR, e0, reduceCtorEq]
  · rw [apiSignMem, sign_allMem, if_neg h]
    have hx := fun C => dom_eq .PreHash C
    simp only [Mode.flag] at hx
    simp only [msgBytes, hx, hd, if_true]
    simp only [PH] at hr ⊢
    simp only [← hr, ← hR, e0]

/-- C79, Ed448 key generation: whatever the pointers, the public key is that of the private key
as it was before the call, and nothing else of the caller changes. -/
theorem C79_keygen_448 (H : List Byte → ℕ → List Byte) (u : ℕ → W) (mode : Mode) (c : ℕ → Byte)
    (public_key private_key : ℕ) :
    apiKeygenMem H u mode c public_key private_key =
      written c public_key ((apiKeygen H u mode (bytesAt c private_key 57)).1,
        some (apiKeygen H u mode (bytesAt c private_key 57)).2) ∧
    ∀ a, ¬(public_key ≤ a ∧ a < public_key + 57) →
      (apiKeygenMem H u mode c public_key private_key).2 a = c a := by
  refine ⟨rfl, fun a ha => storeAt_other ?_⟩
  rwa [point_encoding_length]

/-- C79, Ed448 signing, partial: when the first half of the signature has no byte in common with
the public key, the context and (except in the prehashed mode) the message, the status is that of
signing the values that the arguments had before the call, and the memory afterwards is that of
before with the signature, if there is one, written to its buffer.  Missing: other overlaps, for
which this is false (`C79_sign_wrong_448`). -/
theorem C79_sign_448_partial (H : List Byte → ℕ → List Byte) (hH : ∀ m n, (H m n).length = n)
    (u : ℕ → W) (mode : Mode) (c : ℕ → Byte)
    (signature message mlen context clen public_key private_key : ℕ)
    (hp : NoShare public_key 57 signature 57) (hc : NoShare context clen signature 57)
    (hm : mode ≠ .PreHash → NoShare message mlen signature 57) :
    apiSignMem H u mode c signature message mlen context clen public_key private_key =
      written c signature (apiSign H u mode (bytesAt c message mlen) (bytesAt c context clen)
        (bytesAt c public_key 57) (bytesAt c private_key 57)) := by
  by_cases h : 255 < clen
  · rw [signMem_long H u h, sign_long H u (by rwa [length_bytesAt]), written]
  rw [signMem_short hH u h rfl rfl, sign_short hH u (by rwa [length_bytesAt])]
  simp only [written]
  generalize hR : point_encoding (fixed_point_multiplication (u 2) (u 3) _) = R
  have hRl : R.length = 57 := by rw [← hR, point_encoding_length]
  have e2 : (if mode = .PreHash then bytesAt c message mlen else
      bytesAt (storeAt c signature R) message mlen) = bytesAt c message mlen := by
    split_ifs with h
    · rfl
    · exact bytesAt_disjoint (by rw [hRl]; exact hm h)
  rw [e2, bytesAt_disjoint (p := public_key) (by rw [hRl]; exact hp),
    bytesAt_disjoint (p := context) (by rw [hRl]; exact hc)]

/-- C79, Ed448 signing: whatever the pointers, nothing but the 114 bytes of the signature changes,
and nothing at all when the context is refused. -/
theorem C79_rest_448 (H : List Byte → ℕ → List Byte) (hH : ∀ m n, (H m n).length = n) (u : ℕ → W)
    (mode : Mode) (c : ℕ → Byte)
    (signature message mlen context clen public_key private_key a : ℕ)
    (h : 255 < clen ∨ ¬(signature ≤ a ∧ a < signature + 114)) :
    (apiSignMem H u mode c signature message mlen context clen public_key private_key).2 a =
      c a := by
  by_cases ht : 255 < clen
  · rw [signMem_long H u ht]
  rw [signMem_short hH u ht rfl rfl]
  refine storeAt_other ?_
  rw [List.length_append, point_encoding_length, calculate_s_length]
  rcases h with h | h
  · exact absurd h ht
  · exact h

/-- C79, what signing does for any overlap: R is that of the values before the call, but the
challenge is computed from the public key, the context and (except in the prehashed mode) the
message as they are after R was written over them. -/
theorem C79_sign_any_448 (H : List Byte → ℕ → List Byte) (hH : ∀ m n, (H m n).length = n)
    (u : ℕ → W) (mode : Mode) (c c' : ℕ → Byte)
    (signature message mlen context clen public_key private_key : ℕ) (hC : clen ≤ 255)
    (R : List Byte) (r k a : ℕ)
    (hr : r = nonce H mode (bytesAt c private_key 57) (bytesAt c message mlen)
      (bytesAt c context clen))
    (hR : R = encode (r • B)) (hc' : c' = storeAt c signature R)
    (hk : k = challenge H mode R (bytesAt c' public_key 57)
      (bytesAt (if mode = .PreHash then c else c') message mlen) (bytesAt c' context clen))
    (ha : a = secretScalar (H (bytesAt c private_key 57) 114)) (hok : SignOk r k a) :
    ∃ S, S ≡ r + k * a [MOD ell] ∧
      apiSignMem H u mode c signature message mlen context clen public_key private_key =
        (.SIGNATURE_OK, storeAt c signature (R ++ leBytes 57 S)) := by
  obtain ⟨ln, lc, hm, hp, hs⟩ := hok
  have e1 := reduce_lo (u 0) (u 1) (hH (dom4 mode (bytesAt c context clen) ++
    (H (bytesAt c private_key 57) 114).drop 57 ++ PH H mode (bytesAt c message mlen)) 114)
    (by rw [hr] at ln; exact ln)
  have e1' : leNat (H (dom4 mode (bytesAt c context clen) ++
    (H (bytesAt c private_key 57) 114).drop 57 ++ PH H mode (bytesAt c message mlen)) 114) = r :=
    hr.symm
  rw [e1'] at e1
  generalize hrb : modular_reduction (u 0) (u 1) _ = rb at e1
  have e2 : R = point_encoding (fixed_point_multiplication (u 2) (u 3) rb) := by
    rw [hR, fixed_encoding _ _ _ (by rw [e1.1]; exact hm), e1.1, modEq_smul (red_modEq r) order_B]
  rw [signMem_short hH u (by omega) hrb.symm e2]
  rw [← hc']
  have e3 := reduce_lo (u 4) (u 5) (hH (dom4 mode (bytesAt c' context clen) ++ R ++
    bytesAt c' public_key 57 ++ PH H mode (if mode = .PreHash then bytesAt c message mlen else
      bytesAt c' message mlen)) 114)
  have e3' : leNat (H (dom4 mode (bytesAt c' context clen) ++ R ++
    bytesAt c' public_key 57 ++ PH H mode (if mode = .PreHash then bytesAt c message mlen else
      bytesAt c' message mlen)) 114) = k := by
    rw [hk, challenge]
    split_ifs <;> rfl
  rw [e3'] at e3
  have e3 := e3 lc
  generalize modular_reduction (u 4) (u 5) _ = kb at *
  have e4 : leNat ((clampDigest (H (bytesAt c private_key 57) 114)).take 56) = a := by
    rw [(clampDigest_spec _ (hH _ 114)).1, ha]
  have e5 := calculate_s_eq (u 6) (u 7) rb kb (clampDigest (H (bytesAt c private_key 57) 114))
    (by rw [e1.1, e3.1, e4]; exact hp) (by rw [e1.1, e3.1, e4]; exact hs)
  rw [e1.1, e3.1, e4] at e5
  refine ⟨red (red r + red k * a), ?_, by rw [e5.1]⟩
  exact (red_modEq _).trans ((red_modEq r).add ((red_modEq k).mul_right a))

/-- The hash of the witness, by the length of its argument: the digest of the private key, the
nonce of a message of one byte, and the challenge, 77 for strings that end in `b` and 0 for the
others. -/
def memHash (b : Byte) (m : List Byte) (n : ℕ) : List Byte :=
  leBytes n (if m.length = 57 then 2 ^ 447 else if m.length = 68 then 1000 else
    if m.getLast? = some b then 77 else 0)

/-- C79 is false of signing in place: there are a hash function and a memory such that signing in a
buffer where the message lies returns success and a signature with the same R and another S than
signing in a buffer of its own.  (Memory: the message at 0, of one byte, the public key at 1000,
the private key at 2000.) -/
theorem C79_sign_wrong_448 : ∃ (H : List Byte → ℕ → List Byte) (c c' : ℕ → Byte)
    (R S : List Byte), (∀ m n, (H m n).length = n) ∧ R.length = 57 ∧ ∀ u,
    apiSign H u .PureContext (bytesAt c 0 1) [] (bytesAt c 1000 57) (bytesAt c 2000 57) =
      (.SIGNATURE_OK, some (R ++ S)) ∧
    apiSignMem H u .PureContext c 0 0 1 0 0 1000 2000 = (.SIGNATURE_OK, c') ∧
    bytesAt c' 0 57 = R ∧ bytesAt c' 57 57 ≠ S := by
  let R := point_encoding (fixed_point_multiplication 0#64 0#64
    (modular_reduction 0#64 0#64 (leBytes 114 1000)))
  obtain ⟨x, R', hx⟩ : ∃ x R', R = x :: R' := by
    have := point_encoding_length (fixed_point_multiplication 0#64 0#64
      (modular_reduction 0#64 0#64 (leBytes 114 1000)))
    change R.length = 57 at this
    cases h : R with
    | nil => rw [h] at this; simp at this
    | cons x R' => exact ⟨x, R', rfl⟩
  let b : Byte := x + 1
  have hxb : x ≠ b := by
    intro h
    have : x.toNat = (x.toNat + 1) % 256 := by
      conv_lhs => rw [h]
      rw [BitVec.toNat_add]; rfl
    have := x.isLt
    omega
  have hRl : R.length = 57 := point_encoding_length _
  let H := memHash b
  have hH : ∀ m n, (H m n).length = n := fun m n => leBytes_length _ _
  let c : ℕ → Byte := storeAt (fun _ => 0) 0 [b]
  let a := clampDigest (leBytes 114 (2 ^ 447))
  let S := calculate_s 0#64 0#64 (modular_reduction 0#64 0#64 (leBytes 114 1000))
    (modular_reduction 0#64 0#64 (leBytes 114 77)) a
  let S' := calculate_s 0#64 0#64 (modular_reduction 0#64 0#64 (leBytes 114 1000))
    (modular_reduction 0#64 0#64 (leBytes 114 0)) a
  have hSS : S' ≠ S := by decide +kernel
  have cM : bytesAt c 0 1 = [b] := bytesAt_storeAt rfl
  have cz : ∀ p, 0 < p → bytesAt c p 57 = leBytes 57 0 := by
    intro p hp
    rw [bytesAt_disjoint (by intro a; simp only [List.length_singleton]; omega)]
    simp only [bytesAt]
    decide +kernel
  have c0 : ∀ c' : ℕ → Byte, bytesAt c' 0 0 = [] := fun _ => rfl
  have hHs : H (leBytes 57 0) 114 = leBytes 114 (2 ^ 447) := by
    show memHash b _ _ = _
    rw [memHash, if_pos (by simp)]
  have hHn : ∀ m y, m.length = 67 → H (m ++ [y]) 114 = leBytes 114 1000 := by
    intro m y hm
    show memHash b _ _ = _
    rw [memHash, if_neg (by simp [hm]), if_pos (by simp [hm])]
  have hHc : ∀ m y, m.length = 124 → H (m ++ [y]) 114 = leBytes 114 (if y = b then 77 else 0) := by
    intro m y hm
    show memHash b _ _ = _
    rw [memHash, if_neg (by simp [hm]), if_neg (by simp [hm]), List.getLast?_append]
    simp
  have hdl : (dom4 .PureContext []).length = 10 := by decide +kernel
  have hl67 : (dom4 .PureContext [] ++ (leBytes 114 (2 ^ 447)).drop 57).length = 67 := by
    rw [List.length_append, hdl]; simp
  have hl124 : ∀ pk : List Byte, pk.length = 57 →
      (dom4 .PureContext [] ++ R ++ pk).length = 124 := by
    intro pk hpk
    rw [List.length_append, List.length_append, hdl, hRl, hpk]
  refine ⟨H, c, storeAt c 0 (R ++ S'), R, S, hH, hRl, fun u => ⟨?_, ?_, ?_, ?_⟩⟩
  · rw [sign_short hH u (by simp), cM, cz 1000 (by norm_num), cz 2000 (by norm_num), hHs]
    simp only [PH]
    rw [hHn _ _ hl67, C46_reduce_junk (u 0) (u 1) 0#64 0#64 _ (by simp), fixed_junk,
      calculate_s_junk]
    change (Status.SIGNATURE_OK, some (R ++ _)) = _
    rw [show point_encoding (fixed_point_multiplication 0#64 0#64
      (modular_reduction 0#64 0#64 (leBytes 114 1000))) = R from rfl, hHc _ _ (hl124 _ (by simp)),
      if_pos rfl, C46_reduce_junk (u 4) (u 5) 0#64 0#64 _ (by simp)]
  · rw [signMem_short hH u (by simp) (r := modular_reduction 0#64 0#64 (leBytes 114 1000)) (R := R)]
    · have e1 : bytesAt (storeAt c 0 R) 0 1 = [x] := by rw [hx]; rfl
      rw [if_neg (by simp), c0, e1, cz 2000 (by norm_num), hHs]
      simp only [PH]
      rw [hHc _ _ (hl124 _ (length_bytesAt _ _ _)), if_neg hxb, calculate_s_junk,
        C46_reduce_junk (u 4) (u 5) 0#64 0#64 _ (by simp)]
    · rw [c0, cM, cz 2000 (by norm_num), hHs]
      simp only [PH]
      rw [hHn _ _ hl67, C46_reduce_junk (u 0) (u 1) 0#64 0#64 _ (by simp)]
    · rw [fixed_junk]
  · have := bytesAt_append (storeAt c 0 (R ++ S')) 0 57 57
    rw [bytesAt_storeAt (by simp only [List.length_append, hRl]; rw [calculate_s_length])] at this
    exact (List.append_inj this (by rw [hRl, length_bytesAt])).1.symm
  · have := bytesAt_append (storeAt c 0 (R ++ S')) 0 57 57
    rw [bytesAt_storeAt (by simp only [List.length_append, hRl]; rw [calculate_s_length])] at this
    have := (List.append_inj this (by rw [hRl, length_bytesAt])).2
    rw [zero_add] at this
    rw [← this]
    exact hSS

/-- Non-vacuity: the message may lie over the second half of the signature. -/
example (H : List Byte → ℕ → List Byte) (hH : ∀ m n, (H m n).length = n) (u : ℕ → W)
    (c : ℕ → Byte) :
    apiSignMem H u .PureContext c 0 57 20 200 3 300 0 =
      written c 0 (apiSign H u .PureContext (bytesAt c 57 20) (bytesAt c 200 3) (bytesAt c 300 57)
        (bytesAt c 0 57)) :=
  C79_sign_448_partial H hH u .PureContext c 0 57 20 200 3 300 0 (by intro a; omega)
    (by intro a; omega) (fun _ a => by omega)

end Verif.Ed448
