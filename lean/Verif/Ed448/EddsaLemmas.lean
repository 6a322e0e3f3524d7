import Verif.Ed448.EddsaSpec
import Verif.Ed448.DoubleMultLemmas
import Verif.Ed25519.EddsaLemmas
import Verif.Props.Ed448Scalar
import Verif.X448.Lemmas

/-! # Lemmas about key generation, signing and verification, Ed448 -/

namespace Verif.Ed448

open Verif.Fp448
open Verif.X448 (Safe)
open Verif.Ed25519 (Status ascii)

set_option exponentiation.threshold 2000

/-! ## Scalars -/

theorem ell_order : ell = order := by decide +kernel

theorem mod_order_smul (n : ℕ) {A : Pt} (hA : order • A = 0) : (n % order) • A = n • A := by
  conv_rhs => rw [← Nat.mod_add_div n order, add_smul, mul_comm order, mul_smul, hA, smul_zero,
    add_zero]

theorem modEq_smul {m n : ℕ} (h : m ≡ n [MOD ell]) {A : Pt} (hA : order • A = 0) :
    m • A = n • A := by
  rw [← mod_order_smul m hA, ← mod_order_smul n hA]
  rw [ell_order] at h
  rw [h]

/-- What `modular_reduction_ed448` computes when no carry is dropped. -/
def red (x : ℕ) : ℕ := fold446 (fold448 (fold448 (fold448 x)))

theorem red_modEq (x : ℕ) : red x ≡ x [MOD ell] :=
  (fold446_modEq _).trans ((fold448_modEq _).trans ((fold448_modEq _).trans (fold448_modEq _)))

/-- What `div4` computes when no carry is dropped. -/
def quarter (n : ℕ) : ℕ := red (wval ifour * n)

theorem quarter_modEq (n : ℕ) : 4 * quarter n ≡ n [MOD ell] := by
  have h1 := (red_modEq (wval ifour * n)).mul_left 4
  refine h1.trans ?_
  rw [← mul_assoc]
  have h2 : 4 * wval ifour ≡ 1 [MOD ell] := by
    rw [Nat.ModEq, wval_ifour]; decide +kernel
  have := h2.mul_right n
  rwa [one_mul] at this

/-- No carry is dropped in `div4`. -/
def DivOk (n : ℕ) : Prop := NoOverflow 0 ifour (toWords 7 n) ∧ ReduceExact (wval ifour * n)

theorem words7_eq (b : List Byte) : words 7 (b.take 56) = toWords 7 (leNat (b.take 56)) := by
  rw [← wval_words7]; exact eq_toWords (words_length _ _)

theorem leNat_take56_lt (b : List Byte) : leNat (b.take 56) < 2 ^ 448 :=
  (leNat_lt _).trans_le
    ((Nat.pow_le_pow_right (by norm_num) (by simp : (b.take 56).length ≤ 56)).trans (by norm_num))

theorem reduce_lo (u v : W) {a : List Byte} (h : a.length = 114) (hx : ReduceExact (leNat a)) :
    leNat ((modular_reduction u v a).take 56) = red (leNat a) ∧ red (leNat a) < 2 ^ 446 ∧
    ((modular_reduction u v a).take 56).length = 56 := by
  obtain ⟨lo, e, h1, h2, h3⟩ := modular_reduction_val u v a h
  have h3 := h3 hx
  have e2 : (modular_reduction u v a).take 56 = lo := by
    rw [e, List.take_append_of_le_length (by omega), List.take_of_length_le (by omega)]
  rw [e2]
  refine ⟨h3, ?_, h1⟩
  unfold red
  rw [← h3]; exact h2

/-- The end of `div4` and `calculate_s_ed448`, as bytes. -/
theorem tail_eq (u v : W) (p : List W) (hp : p.length = 16) {x : ℕ} (hx : wval p = x)
    (hb : x < 2 ^ 912) (hr : ReduceExact x) :
    (modular_reduction u v ((bytesOf p).take 114)).take 56 ++ [0#8] = leBytes 57 (red x) ∧
      red x < 2 ^ 446 := by
  have hl : ((bytesOf p).take 114).length = 114 := by
    rw [List.length_take, bytesOf_length, hp]; norm_num
  have hv : leNat ((bytesOf p).take 114) = x := by
    rw [leNat_take, leNat_bytesOf, hx]
    exact Nat.mod_eq_of_lt (hb.trans_le (by norm_num))
  obtain ⟨h1, h2, h3⟩ := reduce_lo u v hl (by rw [hv]; exact hr)
  rw [hv] at h1 h2
  refine ⟨?_, h2⟩
  generalize (modular_reduction u v ((bytesOf p).take 114)).take 56 = lo at *
  have := leBytes_leNat (lo ++ [0#8])
  rw [← this]
  have e : leNat (lo ++ [0#8]) = red x := by rw [leNat_append, h1]; simp [leNat]
  rw [e]
  simp [h3]

theorem div4_bound {n : ℕ} (hn : n < 2 ^ 448) : wval ifour * n < 2 ^ 912 := by
  have a1 : wval ifour < 2 ^ 448 := by decide +kernel
  calc wval ifour * n ≤ 2 ^ 448 * 2 ^ 448 := Nat.mul_le_mul a1.le hn.le
    _ < 2 ^ 912 := by norm_num

theorem div4_eq (u v : W) (b : List Byte) (h : DivOk (leNat (b.take 56))) :
    div4 u v b = leBytes 57 (quarter (leNat (b.take 56))) ∧
      quarter (leNat (b.take 56)) < 2 ^ 446 := by
  obtain ⟨h1, h2⟩ := h
  rw [← words7_eq] at h1
  have hm := (C22_multiplier (List.replicate 16 0#64) ifour (words 7 (b.take 56))
    (by simp [ifour, words_length]))
  rw [wval_replicate_zero, wval_words7, zero_add] at hm
  have hv := hm.2.2.2 h1
  exact tail_eq u v _ (by rw [word64_multiplier_length]; rfl) hv (div4_bound (leNat_take56_lt b)) h2

theorem leNat_leBytes57 {n : ℕ} (h : n < 2 ^ 446) : leNat (leBytes 57 n) = n := by
  rw [leNat_leBytes, Nat.mod_eq_of_lt (h.trans (by norm_num))]

theorem leBytes57_take {n : ℕ} (h : n < 2 ^ 446) : leNat ((leBytes 57 n).take 56) = n := by
  rw [leNat_take, leNat_leBytes57 h, Nat.mod_eq_of_lt (h.trans (by norm_num))]

/-- Everything goes right when the base point is multiplied by the number `n` and the product
encoded: no carry is dropped in the division by four, no limb of the additions goes below zero and
the serialisation drops no carry. -/
structure MulOk (n : ℕ) : Prop where
  div : DivOk n
  run : NoBorrowRun (leBytes 57 (quarter n))
  x : Safe (canon (n • B).x)
  y : Safe (canon (n • B).y)

theorem fixed_encoding (u v : W) (r : List Byte) (h : MulOk (leNat (r.take 56))) :
    point_encoding (fixed_point_multiplication u v r) = encode (leNat (r.take 56) • B) := by
  obtain ⟨e, hlt⟩ := div4_eq u v r h.div
  refine point_encoding_spec ?_ h.x h.y
  unfold fixed_point_multiplication
  rw [e]
  have hp := point_multiplication_spec (leBytes 57 (quarter (leNat (r.take 56)))) (by simp)
    (by rw [leBytes57_take hlt]; exact hlt) h.run
  rw [leBytes57_take hlt, modEq_smul (quarter_modEq _) order_B] at hp
  exact hp

/-! ## Digests -/

theorem clampDigest_eq (d : List Byte) (h : d.length = 114) :
    clampDigest d = X448.clamp (d.take 56) ++ 0#8 :: d.drop 57 := by
  have e : d = d.take 56 ++ (d.getD 56 0#8 :: d.drop 57) := by
    rw [List.getD_eq_getElem _ _ (by omega), List.getElem_cons_drop, List.take_append_drop]
  have hl : (d.take 56).length = 56 := by simp [h]
  unfold clampDigest X448.clamp
  conv_lhs => rw [e]
  rw [Ed25519.modify_append_left _ _ _ _ (by omega),
    Ed25519.modify_append_left _ _ _ _ (by simp [h])]
  have : (((d.take 56).modify 0 (· &&& 0xFC#8)).modify 55 (· ||| 0x80#8)).length = 56 := by
    simp [h]
  rw [List.set_append_right _ _ (by omega), this]
  rfl

theorem clampDigest_spec (d : List Byte) (h : d.length = 114) :
    leNat ((clampDigest d).take 56) = secretScalar d ∧ (clampDigest d).drop 57 = d.drop 57 := by
  have hl : (d.take 56).length = 56 := by simp [h]
  obtain ⟨h1, h2⟩ := X448.clamp_val hl
  rw [clampDigest_eq d h]
  constructor
  · rw [List.take_append_of_le_length (by omega), List.take_of_length_le (by omega), h2]
    unfold X448.scalar secretScalar
    rw [leNat_take, leNat_take]
    generalize leNat d = x
    omega
  · rw [List.drop_append, h1, List.drop_of_length_le (by omega)]
    rfl

theorem secretScalar_lt (d : List Byte) : secretScalar d < 2 ^ 448 := by
  unfold secretScalar; omega

/-! ## Modes -/

/-- The flag of a mode. -/
def Mode.flag : Mode → Byte
  | .PureContext => 0
  | .PreHash => 1

theorem apiSign_eq (H : List Byte → ℕ → List Byte) (u : ℕ → W) (mode : Mode)
    (M C pk sk : List Byte) :
    apiSign H u mode M C pk sk = sign_all H u M C pk sk mode.flag := by
  cases mode <;> rfl

theorem apiVerify_eq (H : List Byte → ℕ → List Byte) (u : ℕ → W) (mode : Mode)
    (M C pk s : List Byte) :
    apiVerify H u mode M C pk s = verify_all H u M C pk s mode.flag := by
  cases mode <;> rfl

theorem ascii_prefix : ascii "SigEd448" = [0x53, 0x69, 0x67, 0x45, 0x64, 0x34, 0x34, 0x38] := by
  decide +kernel

theorem dom_eq (mode : Mode) (C : List Byte) : domBytes C mode.flag = dom4 mode C := by
  cases mode <;>
  simp only [Mode.flag, domBytes, dom4, ascii_prefix, List.append_assoc, List.cons_append,
    List.nil_append]

theorem msg_eq (H : List Byte → ℕ → List Byte) (mode : Mode) (M : List Byte) :
    msgBytes H M mode.flag = some (PH H mode M) := by
  cases mode <;> rfl

theorem sign_long (H : List Byte → ℕ → List Byte) (u : ℕ → W) {mode : Mode}
    {M C pk sk : List Byte} (h : 255 < C.length) :
    apiSign H u mode M C pk sk = (.ERROR_CONTEXT, none) := by
  rw [apiSign_eq, sign_all, if_pos h]

theorem verify_long (H : List Byte → ℕ → List Byte) (u : ℕ → W) {mode : Mode}
    {M C pk s : List Byte} (h : 255 < C.length) :
    apiVerify H u mode M C pk s = .ERROR_CONTEXT := by
  rw [apiVerify_eq, verify_all, if_pos h]

/-- Signing, with the words of the specification for what is hashed. -/
theorem sign_short {H : List Byte → ℕ → List Byte} (hH : ∀ m n, (H m n).length = n) (u : ℕ → W)
    {mode : Mode} {M C pk sk : List Byte} (h : ¬ 255 < C.length) :
    apiSign H u mode M C pk sk =
      let r := modular_reduction (u 0) (u 1) (H (dom4 mode C ++ (H sk 114).drop 57 ++
        PH H mode M) 114)
      let R := point_encoding (fixed_point_multiplication (u 2) (u 3) r)
      let k := modular_reduction (u 4) (u 5) (H (dom4 mode C ++ R ++ pk ++ PH H mode M) 114)
      (.SIGNATURE_OK, some (R ++ calculate_s (u 6) (u 7) r k (clampDigest (H sk 114)))) := by
  rw [apiSign_eq, sign_all, if_neg h]
  simp only [dom_eq, msg_eq, (clampDigest_spec _ (hH sk 114)).2]

theorem verify_short (H : List Byte → ℕ → List Byte) (u : ℕ → W) {mode : Mode}
    {M C pk sig : List Byte} (h : ¬ 255 < C.length) :
    apiVerify H u mode M C pk sig =
      match point_decoding pk with
      | none => .ERROR_PUBLICKEY
      | some (A, _) =>
        if sig.take 57 = (double_point_mult_4w (u 2) (u 3) (u 4) (u 5) (sig.drop 57)
          (modular_reduction (u 0) (u 1) (H (dom4 mode C ++ sig.take 57 ++ pk ++ PH H mode M) 114))
          A).take 57 then .VERIFICATION_OK else .INVALID_SIGNATURE := by
  rw [apiVerify_eq, verify_all, if_neg h]
  generalize point_decoding pk = d
  rw [dom_eq, msg_eq]
  rcases d with _ | ⟨A, A2⟩
  · rfl
  · simp only

/-! ## The response -/

theorem calculate_s_eq (u v : W) (r k a : List Byte)
    (hov : NoOverflow (leNat (r.take 56)) (toWords 7 (leNat (k.take 56)))
      (toWords 7 (leNat (a.take 56))))
    (hx : ReduceExact (leNat (r.take 56) + leNat (k.take 56) * leNat (a.take 56))) :
    calculate_s u v r k a =
      leBytes 57 (red (leNat (r.take 56) + leNat (k.take 56) * leNat (a.take 56))) ∧
    red (leNat (r.take 56) + leNat (k.take 56) * leNat (a.take 56)) < 2 ^ 446 := by
  rw [← words7_eq, ← words7_eq] at hov
  have hm := (C22_multiplier (words 7 (r.take 56) ++ List.replicate 9 0#64)
    (words 7 (k.take 56)) (words 7 (a.take 56)) (by simp [words_length]))
  rw [wval_append, wval_replicate_zero, mul_zero, add_zero, wval_words7, wval_words7,
    wval_words7] at hm
  have hv := hm.2.2.2 hov
  refine tail_eq u v _ ?_ hv ?_ hx
  · rw [word64_multiplier_length]; simp [words_length]
  · have h1 := leNat_take56_lt r
    have h2 := leNat_take56_lt k
    have h3 := leNat_take56_lt a
    calc leNat (r.take 56) + leNat (k.take 56) * leNat (a.take 56)
        ≤ 2 ^ 448 + 2 ^ 448 * 2 ^ 448 := Nat.add_le_add h1.le (Nat.mul_le_mul h2.le h3.le)
      _ < 2 ^ 912 := by norm_num

/-- The double multiplication, with the scalars as numbers. -/
theorem double_mult_nat (u13 u14 v13 v14 : W) {s h : List Byte} {P : Elt16 V} {A : Pt}
    (hP : Is4w P (-A)) (hs : DivOk (leNat (s.take 56))) (hh : DivOk (leNat (h.take 56)))
    (hok : DmOk (leBytes 57 (quarter (leNat (s.take 56))))
      (leBytes 57 (quarter (leNat (h.take 56)))) P)
    (hx : Safe (canon (leNat (s.take 56) • B - (4 * quarter (leNat (h.take 56))) • A).x))
    (hy : Safe (canon (leNat (s.take 56) • B - (4 * quarter (leNat (h.take 56))) • A).y)) :
    double_point_mult_4w u13 u14 v13 v14 s h P =
      encode (leNat (s.take 56) • B - (4 * quarter (leNat (h.take 56))) • A) := by
  obtain ⟨es, ls⟩ := div4_eq u13 u14 s hs
  obtain ⟨eh, lh⟩ := div4_eq v13 v14 h hh
  have e : 4 • (quarter (leNat (s.take 56)) • B + quarter (leNat (h.take 56)) • -A) =
      leNat (s.take 56) • B - (4 * quarter (leNat (h.take 56))) • A := by
    rw [smul_add, ← mul_smul, ← mul_smul, modEq_smul (quarter_modEq _) order_B, smul_neg,
      sub_eq_add_neg]
  have := double_point_mult_spec (u13 := u13) (u14 := u14) (v13 := v13) (v14 := v14) (s := s)
    (h := h) (P := P) (A := -A)
  rw [es, eh, leNat_leBytes57 ls, leNat_leBytes57 lh, e] at this
  exact this (by simp) (by simp) hP hok hx hy

end Verif.Ed448
