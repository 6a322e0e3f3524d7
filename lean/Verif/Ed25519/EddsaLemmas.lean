import Verif.Ed25519.EddsaSpec
import Verif.Ed25519.MultLemmas
import Verif.Ed25519.EncodeLemmas
import Verif.Ed25519.DoubleMultLemmas
import Verif.Ed25519.Witness
import Verif.X25519.X64Lemmas
import Verif.Props.Ed25519Scalar
import Verif.Props.Fp25519Full

/-! # Lemmas about key generation, signing and verification -/

namespace Verif.Ed25519

open Verif.Fp25519

set_option exponentiation.threshold 2000

/-! ## Scalars -/

theorem ell_zsmul (n : ℤ) : ((n * ell : ℤ)) • B = 0 := by
  rw [mul_smul, natCast_zsmul, ell_B, smul_zero]

theorem mod_ell_smul (n : ℕ) : (n % ell) • B = n • B := by
  conv_rhs => rw [← Nat.mod_add_div n ell, add_smul, mul_comm, mul_smul, ell_B, smul_zero, add_zero]

theorem recLimit_val :
    recLimit = 0x7777777777777777777777777777777777777777777777777777777777777777 := by
  decide +kernel

/-- Whatever the reduction returns, the multiplication of the base point by it is right. -/
theorem mult_reduce {b : List Byte} (h : b.length = 64) :
    Is2w (point_multiplication (reduceBytes b)) (leNat b • B) := by
  have hl : (reduceBytes b).length = 32 := F8.lowBytes_length _
  have := point_multiplication_spec (reduceBytes b) hl
  have hlt : leNat b % ell < ell := Nat.mod_lt _ (by norm_num)
  have hel : ell = 7237005577332262213973186563042994240857116359379907606001950938285454250989 := by
    norm_num
  rw [← mod_ell_smul]
  rw [recLimit_val] at this
  rcases reduceBytes_val b h with h1 | ⟨h1, h2⟩
  · rw [h1, if_pos (by omega), sub_zero, natCast_zsmul] at this
    exact this
  · rw [h2, if_neg (by omega)] at this
    have e : (((2 ^ 256 - ell + leNat b % ell : ℕ) : ℤ) - 2 ^ 256) • B = (leNat b % ell) • B := by
      have e1 : (((2 ^ 256 - ell + leNat b % ell : ℕ) : ℤ) - 2 ^ 256) =
          ((leNat b % ell : ℕ) : ℤ) + (-1) * (ell : ℤ) := by
        have : ell ≤ 2 ^ 256 := by norm_num
        push_cast [this]
        ring
      rw [e1, add_smul, ell_zsmul, add_zero, natCast_zsmul]
    rwa [e] at this

theorem byte_127_64 (b : Byte) : (b &&& 127#8) ||| 64#8 = 64#8 ||| (b &&& 0x7F#8) := by
  revert b; decide +kernel

theorem modify_append_left (f : Byte → Byte) (s t : List Byte) (i : ℕ) (h : i < s.length) :
    (s ++ t).modify i f = s.modify i f ++ t := by
  induction s generalizing i with
  | nil => simp at h
  | cons a s ih =>
    cases i with
    | zero => rfl
    | succ i =>
      rw [List.cons_append, List.modify_succ_cons, List.modify_succ_cons, List.cons_append,
        ih i (by simpa using h)]

theorem clampDigest_eq (d : List Byte) (h : d.length = 64) :
    clampDigest d = X25519.clamp (d.take 32) ++ d.drop 32 := by
  have e : d = d.take 32 ++ d.drop 32 := (List.take_append_drop 32 d).symm
  have hl : (d.take 32).length = 32 := by simp [h]
  obtain ⟨a, m, c, hm, hs⟩ := X25519.split32 hl
  rw [hs] at e ⊢
  generalize d.drop 32 = t at *
  rw [e]
  unfold clampDigest X25519.clamp
  have key : ∀ (f : Byte → Byte) (a c : Byte), ((a :: (m ++ [c])) ++ t).modify 31 f =
      (a :: (m ++ [f c])) ++ t := by
    intro f a c
    rw [← X25519.modify_last f a c hm]
    have : (a :: (m ++ [c])).length = 32 := by simp [hm]
    rw [modify_append_left _ _ _ _ (by omega)]
  rw [List.cons_append, List.modify_zero_cons, List.modify_zero_cons, ← List.cons_append, key, key,
    X25519.modify_last _ _ _ hm, byte_127_64]

theorem clampDigest_take (d : List Byte) (h : d.length = 64) :
    ((clampDigest d).take 32).length = 32 ∧ leNat ((clampDigest d).take 32) = secretScalar d ∧
      (clampDigest d).drop 32 = d.drop 32 := by
  have hl : (d.take 32).length = 32 := by simp [h]
  obtain ⟨h1, h2⟩ := X25519.clamp_val hl
  rw [clampDigest_eq d h]
  rw [List.take_append_of_le_length (by omega), List.take_of_length_le (by omega),
    List.drop_append_of_le_length (by omega), List.drop_of_length_le (by omega), List.nil_append]
  exact ⟨h1, h2, rfl⟩

theorem byte_and_15 (b : Byte) : (b &&& 15#8).toNat = b.toNat % 16 := by revert b; decide +kernel
theorem byte_shr_4 (b : Byte) : ((b >>> 4).setWidth 64 : W).toNat = b.toNat / 16 := by
  revert b; decide +kernel

/-- The value of the four low words of a 64-byte buffer. -/
theorem low4_ofBytes {b : List Byte} (h : b.length = 64) :
    low4 (F8.ofBytes b) = leNat (b.take 32) := by
  have e : b = b.take 32 ++ b.drop 32 := (List.take_append_drop 32 b).symm
  have hl : (b.take 32).length = 32 := by simp [h]
  have hv := F8.ofBytes_val h
  rw [val_eq] at hv
  have hb := low4_bounds (F8.ofBytes b)
  have h2 : (leNat b : ℤ) = leNat (b.take 32) + 2 ^ 256 * leNat (b.drop 32) := by
    conv_lhs => rw [e, leNat_append, hl]
    norm_num
  have h3 := leNat_lt (b.take 32)
  rw [hl] at h3
  have h3 : (leNat (b.take 32) : ℤ) < 2 ^ 256 := by
    have : (256 : ℕ) ^ 32 = 2 ^ 256 := by norm_num
    rw [this] at h3
    exact_mod_cast h3
  rw [h2] at hv
  have hx : (0 : ℤ) ≤ leNat (b.take 32) := Int.natCast_nonneg _
  clear h2 e hl h
  generalize (leNat (b.take 32) : ℤ) = x at *
  generalize low4 (F8.ofBytes b) = w at *
  generalize high4 (F8.ofBytes b) = y at *
  generalize (leNat (b.drop 32) : ℤ) = z at *
  omega

/-- Key generation: the scalar handed to the multiplication is the secret scalar less a multiple
of the order, possibly negative and then wrapped. -/
theorem keygenScalar_val {d : List Byte} (h : d.length = 64) :
    (keygenScalar d).length = 32 ∧
    (leNat (keygenScalar d) : ℤ) - (if leNat (keygenScalar d) ≤ recLimit then 0 else 2 ^ 256) =
      secretScalar d - ell * (secretScalar d / 2 ^ 252 : ℕ) := by
  refine ⟨F8.lowBytes_length _, ?_⟩
  obtain ⟨h1, h2, -⟩ := clampDigest_take d h
  have hl : (clampDigest d).length = 64 := by simp [clampDigest, h]
  obtain ⟨a, m, c, hm, hs⟩ := X25519.split32 h1
  have hsplit : clampDigest d = (a :: (m ++ [c])) ++ (clampDigest d).drop 32 := by
    rw [← hs, List.take_append_drop]
  have hlen : (a :: (m ++ [c])).length = 32 := by simp [hm]
  rw [hs, X25519.leNat_split _ _ hm] at h2
  have hc : (clampDigest d).getD 31 0#8 = c := by
    rw [hsplit, List.getD_append _ _ _ _ (by omega)]
    simp [hm]
  have ht : ((clampDigest d).modify 31 (· &&& 15#8)).take 32 = a :: (m ++ [c &&& 15#8]) := by
    rw [hsplit, modify_append_left _ _ _ _ (by omega), X25519.modify_last _ _ _ hm,
      List.take_append_of_le_length (by simp [hm]), List.take_of_length_le (by simp [hm])]
  have hv : (leNat (keygenScalar d) : ℤ) = low4 (reduce64bits { F8.ofBytes ((clampDigest d).modify 31
      (· &&& 15#8)) with w4 := (c >>> 4).setWidth 64 }) := by
    rw [← hc]; exact F8.lowBytes_val _
  obtain ⟨q, hq⟩ := reduce64bits_val { F8.ofBytes ((clampDigest d).modify 31 (· &&& 15#8)) with
    w4 := (c >>> 4).setWidth 64 }
  have hb := low4_bounds (reduce64bits { F8.ofBytes ((clampDigest d).modify 31
      (· &&& 15#8)) with w4 := (c >>> 4).setWidth 64 })
  change low4 _ = low4 (F8.ofBytes ((clampDigest d).modify 31 (· &&& 15#8))) - _ * iv _ + _ at hq
  rw [low4_ofBytes (by simp [hl]), ht, X25519.leNat_split _ _ hm, byte_and_15] at hq
  have hi : iv ((c >>> 4).setWidth 64 : W) = ((c.toNat / 16 : ℕ) : ℤ) := by
    unfold iv; rw [byte_shr_4]
  rw [hi, ← hv] at hq
  rw [← hv] at hb
  have hss : secretScalar d < 2 ^ 255 := by unfold secretScalar; omega
  have h4 := leNat_lt m
  rw [hm] at h4
  have ha := a.isLt
  have hcl := c.isLt
  have hel : ell = 7237005577332262213973186563042994240857116359379907606001950938285454250989 := by
    norm_num
  have hrl := recLimit_val
  clear hv hi hsplit hlen hc ht hs h1 hl h
  generalize ell = L at *
  generalize recLimit = RL at *
  generalize leNat (keygenScalar d) = v at *
  generalize secretScalar d = s at *
  generalize leNat m = M at *
  generalize a.toNat = A at *
  generalize c.toNat = C at *
  subst hel hrl
  have e1 : s / 2 ^ 252 = C / 16 := by omega
  rw [e1]
  have e2 : (s : ℤ) - 2 ^ 252 * (C / 16 : ℕ) = ((A + 256 * M + 256 ^ 31 * (C % 16) : ℕ) : ℤ) := by
    push_cast; omega
  have e3 : (C / 16 : ℕ) ≤ 7 := by omega
  have e4 : ((A + 256 * M + 256 ^ 31 * (C % 16) : ℕ) : ℤ) < 2 ^ 252 := by push_cast; omega
  have e5 : 0 ≤ ((A + 256 * M + 256 ^ 31 * (C % 16) : ℕ) : ℤ) := Int.natCast_nonneg _
  generalize ((A + 256 * M + 256 ^ 31 * (C % 16) : ℕ) : ℤ) = lo at *
  generalize C / 16 = Q at *
  clear h2 h4 hcl ha e1
  split
  · omega
  · omega

theorem keygen_mult {d : List Byte} (h : d.length = 64) :
    Is2w (point_multiplication (keygenScalar d)) (secretScalar d • B) := by
  obtain ⟨h1, h2⟩ := keygenScalar_val h
  have := point_multiplication_spec _ h1
  rwa [h2, sub_smul, mul_comm (ell : ℤ), ell_zsmul, sub_zero, natCast_zsmul] at this

theorem point_encoding_length (isa : Isa) (P : P2w) : (point_encoding isa P).length = 32 := by
  unfold point_encoding
  simp [Full.ser, F4.toBytes]

/-! ## Builds -/

theorem isa_encoding (isa isa' : Isa) : point_encoding isa = point_encoding isa' := by
  obtain ⟨-, -, -, -, hm, -, -, -, -, -, hi, -⟩ := C02_builds_agree isa isa'
  funext P
  unfold point_encoding
  rw [hm, hi]

theorem isa_decoding (isa isa' : Isa) : point_decoding isa = point_decoding isa' := by
  obtain ⟨ha, -, -, -, hm, hs, -, -, -, -, -, hq⟩ := C02_builds_agree isa isa'
  funext b
  unfold point_decoding decodeX
  simp only [ha, hm, hs, hq]

theorem isa_double_mult (isa isa' : Isa) :
    double_point_mult_4w isa = double_point_mult_4w isa' := by
  funext s h A
  rw [double_point_mult_4w, double_point_mult_4w, isa_encoding isa isa']

/-! ## Modes -/

/-- The two flags of a mode. -/
def Mode.flags : Mode → Byte × Byte
  | .Pure => (1, 0)
  | .PreHash => (0, 1)
  | .Context => (0, 0)

/-- The context that a mode uses. -/
def Mode.ctx : Mode → List Byte → List Byte
  | .Pure, _ => []
  | _, C => C

theorem ascii_prefix : ascii "SigEd25519 no Ed25519 collisions" = prefix32 := by decide +kernel

theorem apiSign_eq (H : List Byte → List Byte) (isa : Isa) (mode : Mode) (M C pk sk : List Byte) :
    apiSign H isa mode M C pk sk =
      sign_all H isa M (mode.ctx C) pk sk mode.flags.1 mode.flags.2 := by
  cases mode <;> rfl

theorem apiVerify_eq (H : List Byte → List Byte) (isa : Isa) (mode : Mode) (M C pk s : List Byte) :
    apiVerify H isa mode M C pk s =
      verify_all H isa M (mode.ctx C) pk s mode.flags.1 mode.flags.2 := by
  cases mode <;> rfl

theorem dom_eq (mode : Mode) (C : List Byte) :
    domBytes (mode.ctx C) mode.flags.1 mode.flags.2 = dom2 mode C := by
  cases mode
  · rfl
  · simp only [Mode.ctx, Mode.flags, domBytes, dom2, ascii_prefix, List.append_assoc,
      List.cons_append, List.nil_append, if_true]
  · simp only [Mode.ctx, Mode.flags, domBytes, dom2, ascii_prefix, List.append_assoc,
      List.cons_append, List.nil_append, if_true]

theorem msg_eq (H : List Byte → List Byte) (mode : Mode) (M : List Byte) :
    msgBytes H M mode.flags.2 = some (PH H mode M) := by
  cases mode <;> rfl

/-- The context is refused. -/
def tooLong (mode : Mode) (C : List Byte) : Prop := mode ≠ .Pure ∧ 255 < C.length

theorem ctx_cond (mode : Mode) (C : List Byte) :
    (mode.flags.1 = 0 ∧ (mode.ctx C).length > 255) ↔ tooLong mode C := by
  cases mode <;> simp [Mode.flags, Mode.ctx, tooLong]

theorem sign_long (H : List Byte → List Byte) (isa : Isa) {mode : Mode} {M C pk sk : List Byte}
    (h : tooLong mode C) : apiSign H isa mode M C pk sk = (.ERROR_CONTEXT, none) := by
  rw [apiSign_eq, sign_all, if_pos ((ctx_cond mode C).2 h)]

theorem verify_long (H : List Byte → List Byte) (isa : Isa) {mode : Mode} {M C pk s : List Byte}
    (h : tooLong mode C) : apiVerify H isa mode M C pk s = .ERROR_CONTEXT := by
  rw [apiVerify_eq, verify_all, if_pos ((ctx_cond mode C).2 h)]

theorem sign_short {H : List Byte → List Byte} (hH : ∀ m, (H m).length = 64) (isa : Isa)
    {mode : Mode} {M C pk sk : List Byte} (h : ¬ tooLong mode C) :
    apiSign H isa mode M C pk sk = (.SIGNATURE_OK, some (encode (nonce H mode sk M C • B) ++
      calculate_s (reduceBytes (H (dom2 mode C ++ (H sk).drop 32 ++ PH H mode M)))
        (reduceBytes (H (dom2 mode C ++ encode (nonce H mode sk M C • B) ++ pk ++ PH H mode M)))
        ((clampDigest (H sk)).take 32))) := by
  rw [apiSign_eq, sign_all, if_neg (mt (ctx_cond mode C).1 h)]
  simp only [dom_eq, msg_eq, (clampDigest_take _ (hH sk)).2.2]
  rw [point_encoding_spec isa (mult_reduce (hH _))]
  rfl

theorem verify_short (H : List Byte → List Byte) (isa : Isa)
    {mode : Mode} {M C pk sig : List Byte} (h : ¬ tooLong mode C) :
    apiVerify H isa mode M C pk sig =
      if sig.take 32 = (double_point_mult_4w isa ((sig.drop 32).take 32)
        (reduceBytes (H (dom2 mode C ++ sig.take 32 ++ pk ++ PH H mode M)))
        (point_decoding isa pk).1).take 32 then .VERIFICATION_OK else .INVALID_SIGNATURE := by
  rw [apiVerify_eq, verify_all, if_neg (mt (ctx_cond mode C).1 h)]
  have hd : (point_decoding isa pk).2.2 = 0#32 := rfl
  simp only [dom_eq, msg_eq, hd, ne_eq, not_true_eq_false, if_false]

/-- The result of the reduction, when it is right, as bytes. -/
theorem reduceBytes_eq {b : List Byte} (h : b.length = 64)
    (hb : leNat b % ell < ell - 43 * (ell - 2 ^ 252)) :
    reduceBytes b = leBytes 32 (leNat b % ell) := by
  obtain ⟨h1, h2⟩ := C21_reduce_partial b h hb
  rw [← leBytes_leNat (reduceBytes b), h1, h2]

theorem leNat_leBytes_ell {n : ℕ} (h : n < ell) : leNat (leBytes 32 n) = n := by
  rw [leNat_leBytes, Nat.mod_eq_of_lt (h.trans (by norm_num))]

theorem wnafNum_small {w : ℕ} {b : List Byte} (h : leNat b + 2 ^ (w - 1) ≤ 2 ^ 256) :
    wnafNum w b = leNat b := by
  unfold wnafNum
  rw [if_neg (by unfold wnafWraps; omega), sub_zero]

theorem wnafNum_even {w : ℕ} {b : List Byte} (h : leNat b % 2 = 0) :
    wnafNum w b = leNat b := by
  unfold wnafNum
  rw [if_neg (by unfold wnafWraps; omega), sub_zero]

/-- What verification accepts, when its computation does not underflow. -/
theorem verify_iff {H : List Byte → List Byte} (hH : ∀ m, (H m).length = 64) (isa : Isa)
    {mode : Mode} {M C pk sig : List Byte} (h : ¬ tooLong mode C) (hpk : pk.length = 32)
    (hsig : sig.length = 64) {A : Pt} (hA : Decodes pk A)
    (hS : leNat (sig.drop 32) % 2 = 0 ∨ leNat (sig.drop 32) + 64 ≤ 2 ^ 256)
    (hk : challenge H mode (sig.take 32) pk M C % ell < ell - 43 * (ell - 2 ^ 252))
    (hok : DmOk (sig.drop 32) (leBytes 32 (challenge H mode (sig.take 32) pk M C % ell))
      (point_decoding isa pk).1) :
    apiVerify H isa mode M C pk sig = .VERIFICATION_OK ↔
      sig.take 32 = encode (leNat (sig.drop 32) • B -
        (challenge H mode (sig.take 32) pk M C % ell) • A) := by
  have hl : (sig.drop 32).length = 32 := by simp [hsig]
  have hlt : challenge H mode (sig.take 32) pk M C % ell < ell := Nat.mod_lt _ (by norm_num)
  have hr : reduceBytes (H (dom2 mode C ++ sig.take 32 ++ pk ++ PH H mode M)) =
      leBytes 32 (challenge H mode (sig.take 32) pk M C % ell) := reduceBytes_eq (hH _) hk
  rw [verify_short H isa h, List.take_of_length_le (l := sig.drop 32) (by omega), hr]
  generalize challenge H mode (sig.take 32) pk M C % ell = k at *
  have hP := (point_decoding_spec isa hpk hA).1
  rw [double_point_mult_spec isa hl (by simp) hP hok]
  have hS' : wnafNum 7 (sig.drop 32) = leNat (sig.drop 32) := by
    rcases hS with hS | hS
    · exact wnafNum_even hS
    · exact wnafNum_small (by simpa using hS)
  have hk' : wnafNum 5 (leBytes 32 k) = k := by
    rw [wnafNum_small, leNat_leBytes_ell hlt]
    rw [leNat_leBytes_ell hlt]
    refine (Nat.add_le_add_right hlt.le _).trans (by norm_num)
  rw [hS', hk', natCast_zsmul, natCast_zsmul, smul_neg, ← sub_eq_add_neg,
    List.take_of_length_le (l := encode _) (by rw [encode_length])]
  constructor
  · intro e
    by_contra hc
    rw [if_neg hc] at e
    cases e
  · intro e
    rw [if_pos e]

/-- A string whose y is not the ordinate of a point. -/
theorem not_decodes {b : List Byte} {y t : ℕ} (hy : leNat b % 2 ^ 255 = y)
    (ht : (dN * y ^ 2 + 1) * t % P = (y ^ 2 + (P - 1)) % P) (hv : (dN * y ^ 2 + 1) % P ≠ 0)
    (hns : Primes.powMod P 450 t (P / 2) 1 % P = (P - 1) % P) (A : Pt) : ¬ Decodes b A := by
  rintro ⟨h, -⟩
  rw [yCoord, hy] at h
  have on := A.on
  rw [h, curve_a, curve_d] at on
  have k := natEq ht
  have k0 : ((dN * y ^ 2 + 1 : ℕ) : Fp) ≠ 0 := by
    intro h0
    rw [← Nat.cast_zero, ZMod.natCast_eq_natCast_iff] at h0
    exact hv h0
  refine not_square hns A.x (mul_left_cancel₀ k0 ?_)
  have hp : ((P - 1 : ℕ) : Fp) = -1 := by
    rw [Nat.cast_sub (by norm_num), ZMod.natCast_self]; simp
  rw [← Nat.cast_mul, k, Nat.cast_add (y ^ 2), hp]
  push_cast
  unfold d at on
  linear_combination -on

end Verif.Ed25519
