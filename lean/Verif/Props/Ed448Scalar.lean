import Verif.Ed448.ScalarLemmas

/-!
# Property C46: scalar arithmetic of Ed448

`ell = 2^446 - 0x8335…bb0d` is the order of the group; `leNat` is the little-endian value of a
byte string, `wval` that of a list of 64-bit words.  `ReduceExact x` and `NoOverflow` say that
the multi-word multiplier, whose additions stop after three words (C22), drops no carry.
`u13`, `u14` are the two words of a local buffer that the source leaves uninitialised.
-/

namespace Verif.Ed448

set_option exponentiation.threshold 2000

/-- C46, reduction, partial: whatever the uninitialised words hold, the result is congruent
to the digest modulo `ell`, has at most 446 bits and is followed by zeros, provided no carry
is dropped.  Missing: digests on which a carry is dropped, where the result can be wrong
(next theorem); and the result is not always the canonical residue
(`C46_reduce_not_canonical`). -/
theorem C46_reduce_partial (u13 u14 : W) (a : List Byte) (h : a.length = 114)
    (hx : ReduceExact (leNat a)) :
    (modular_reduction u13 u14 a).length = 114 ∧
    leNat (modular_reduction u13 u14 a) ≡ leNat a [MOD ell] ∧
    leNat (modular_reduction u13 u14 a) < 2 ^ 446 := by
  obtain ⟨lo, e, hl, hb, hv⟩ := modular_reduction_val u13 u14 a h
  have e2 : leNat (modular_reduction u13 u14 a) = leNat lo := by
    rw [e, leNat_append]
    have : ∀ n, leNat (List.replicate n 0#8) = 0 := by
      intro n
      induction n with
      | zero => rfl
      | succ n ih => simp [List.replicate_succ, leNat, ih]
    rw [this]; omega
  refine ⟨by simp [e, hl], ?_, by rw [e2]; exact hb⟩
  rw [e2, hv hx]
  exact (fold446_modEq _).trans ((fold448_modEq _).trans ((fold448_modEq _).trans
    (fold448_modEq _)))

/-- C46, reduction: even when a carry is dropped the result has at most 446 bits, so every
caller gets a 56-byte scalar below 2^446. -/
theorem C46_reduce_lt (u13 u14 : W) (a : List Byte) (h : a.length = 114) :
    ∃ lo : List Byte, modular_reduction u13 u14 a = lo ++ List.replicate 58 0#8 ∧
      lo.length = 56 ∧ leNat lo < 2 ^ 446 := by
  obtain ⟨lo, e, hl, hb, -⟩ := modular_reduction_val u13 u14 a h
  exact ⟨lo, e, hl, hb⟩

/-- C46, reduction: the uninitialised words never influence the result. -/
theorem C46_reduce_junk (u13 u14 v13 v14 : W) (a : List Byte) (h : a.length = 114) :
    modular_reduction u13 u14 a = modular_reduction v13 v14 a := by
  rw [modular_reduction_eq u13 u14 a h rfl rfl rfl rfl,
    modular_reduction_eq v13 v14 a h rfl rfl rfl rfl]

/-- C46 is false of the code as stated: the digest 2^448 + 2^192 - 1 is reduced to a number
that is not congruent to it. -/
theorem C46_reduce_wrong :
    ∃ a : List Byte, a.length = 114 ∧
      ∀ u13 u14, ¬ leNat (modular_reduction u13 u14 a) ≡ leNat a [MOD ell] := by
  refine ⟨leBytes 114 (2 ^ 448 + 2 ^ 192 - 1), by simp, fun u13 u14 => ?_⟩
  rw [C46_reduce_junk u13 u14 0#64 0#64 _ (by simp)]
  have h : leNat (modular_reduction 0#64 0#64 (leBytes 114 (2 ^ 448 + 2 ^ 192 - 1))) % ell ≠
      leNat (leBytes 114 (2 ^ 448 + 2 ^ 192 - 1)) % ell := by decide +kernel
  exact h

/-- The result is not always below `ell`: the number `ell` itself is left unchanged. -/
theorem C46_reduce_not_canonical :
    ∃ a : List Byte, a.length = 114 ∧ leNat a = ell ∧
      ∀ u13 u14, leNat (modular_reduction u13 u14 a) = ell := by
  refine ⟨leBytes 114 ell, by simp, by decide +kernel, fun u13 u14 => ?_⟩
  rw [C46_reduce_junk u13 u14 0#64 0#64 _ (by simp)]
  decide +kernel

theorem wval_words7 {b : List Byte} : wval (words 7 (b.take 56)) = leNat (b.take 56) := by
  rw [wval_words]
  apply Nat.mod_eq_of_lt
  refine (leNat_lt _).trans_le ?_
  calc 256 ^ (b.take 56).length ≤ 256 ^ 56 :=
        Nat.pow_le_pow_right (by norm_num) (by simp)
    _ = 2 ^ (64 * 7) := by norm_num

/-- What follows the multiplication in `div4` and `calculate_s_ed448`. -/
theorem tail_val (u13 u14 : W) (p : List W) (hp : p.length = 16) {x : ℕ} (hx : wval p = x)
    (hb : x < 2 ^ 912) :
    ((modular_reduction u13 u14 ((bytesOf p).take 114)).take 56 ++ [0#8]).length = 57 ∧
    leNat ((modular_reduction u13 u14 ((bytesOf p).take 114)).take 56 ++ [0#8]) < 2 ^ 446 ∧
    (ReduceExact x →
      leNat ((modular_reduction u13 u14 ((bytesOf p).take 114)).take 56 ++ [0#8]) ≡ x
        [MOD ell]) := by
  have hl : ((bytesOf p).take 114).length = 114 := by
    rw [List.length_take, bytesOf_length, hp]; norm_num
  have hv : leNat ((bytesOf p).take 114) = x := by
    rw [leNat_take, leNat_bytesOf, hx]
    exact Nat.mod_eq_of_lt (hb.trans_le (by norm_num))
  obtain ⟨lo, e, h1, h2, h3⟩ := modular_reduction_val u13 u14 _ hl
  have e2 : leNat ((lo ++ List.replicate 58 0#8).take 56 ++ [0#8]) = leNat lo := by
    rw [List.take_append_of_le_length (by omega), List.take_of_length_le (by omega),
      leNat_append]
    simp [leNat]
  rw [e, e2]
  rw [hv] at h3
  refine ⟨by simp [h1], h2, fun hx => ?_⟩
  rw [h3 hx]
  exact (fold446_modEq _).trans ((fold448_modEq _).trans ((fold448_modEq _).trans
    (fold448_modEq _)))

/-- `ifour` is the inverse of four. -/
theorem wval_ifour : 4 * wval ifour % ell = 1 := by decide +kernel

/-- C46, division by four, partial: four times the result is the input modulo `ell`, provided
no carry is dropped.  Missing: inputs on which a carry is dropped (`C46_div4_wrong`). -/
theorem C46_div4_partial (u13 u14 : W) (n : List Byte) (h : n.length = 57)
    (hov : NoOverflow 0 ifour (words 7 (n.take 56)))
    (hx : ReduceExact (wval ifour * leNat (n.take 56))) :
    (div4 u13 u14 n).length = 57 ∧
    4 * leNat (div4 u13 u14 n) ≡ leNat (n.take 56) [MOD ell] ∧
    leNat (div4 u13 u14 n) < 2 ^ 446 := by
  have hm := (C22_multiplier (List.replicate 16 0#64) ifour (words 7 (n.take 56))
    (by simp [ifour, words_length]))
  rw [wval_replicate_zero, wval_words7, zero_add] at hm
  have hb : wval ifour * leNat (n.take 56) < 2 ^ 912 := by
    have a1 : wval ifour < 2 ^ 448 := by decide +kernel
    have a2 := leNat_lt (n.take 56)
    rw [List.length_take, h] at a2
    norm_num at a2
    calc wval ifour * leNat (n.take 56) ≤ 2 ^ 448 * 2 ^ 448 :=
          Nat.mul_le_mul a1.le (a2.le.trans (by norm_num))
      _ < 2 ^ 912 := by norm_num
  obtain ⟨t1, t2, t3⟩ := tail_val u13 u14 _ (by rw [hm.1]; simp) (hm.2.2.mpr hov) hb
  refine ⟨t1, ?_, t2⟩
  have := (t3 hx).mul_left 4
  refine this.trans ?_
  rw [← mul_assoc]
  have e : 4 * wval ifour ≡ 1 [MOD ell] := by
    rw [Nat.ModEq, wval_ifour]; decide +kernel
  simpa using e.mul_right (leNat (n.take 56))

/-- The result of the division is below 2^446 even if a carry is dropped. -/
theorem C46_div4_lt (u13 u14 : W) (n : List Byte) :
    (div4 u13 u14 n).length = 57 ∧ leNat (div4 u13 u14 n) < 2 ^ 446 := by
  have hm := (C22_multiplier (List.replicate 16 0#64) ifour (words 7 (n.take 56))
    (by simp [ifour, words_length]))
  rw [wval_replicate_zero, wval_words7, zero_add] at hm
  have hb : wval ifour * leNat (n.take 56) < 2 ^ 912 := by
    have a1 : wval ifour < 2 ^ 448 := by decide +kernel
    have a2 := leNat_lt (n.take 56)
    have a3 : leNat (n.take 56) < 2 ^ 448 := a2.trans_le
      ((Nat.pow_le_pow_right (by norm_num) (by simp : (n.take 56).length ≤ 56)).trans (by norm_num))
    calc wval ifour * leNat (n.take 56) ≤ 2 ^ 448 * 2 ^ 448 :=
          Nat.mul_le_mul a1.le a3.le
      _ < 2 ^ 912 := by norm_num
  obtain ⟨t1, t2, -⟩ := tail_val u13 u14 _ (by rw [hm.1]; simp) rfl (hm.2.1.trans_lt hb)
  exact ⟨t1, t2⟩

/-- C46 is false of the code as stated for the division too, already on a reduced scalar. -/
theorem C46_div4_wrong :
    ∃ n : List Byte, n.length = 57 ∧ leNat n < ell ∧
      ∀ u13 u14, ¬ 4 * leNat (div4 u13 u14 n) ≡ leNat n [MOD ell] := by
  refine ⟨leBytes 57 0x18419ba0b997f62fee0422c8157a1564b675d771d9c8d297d2c66e420752b65644ccf79f5379f780c6b07dc7a086fc8066edb0475d0fb1eb,
    by simp, by decide +kernel, fun u13 u14 => ?_⟩
  have e : ∀ n, div4 u13 u14 n = div4 0#64 0#64 n := by
    intro n
    unfold div4
    simp only
    rw [C46_reduce_junk u13 u14 0#64 0#64]
    rw [List.length_take, bytesOf_length, word64_multiplier_length]; rfl
  rw [e]
  have h : 4 * leNat (div4 0#64 0#64 (leBytes 57 0x18419ba0b997f62fee0422c8157a1564b675d771d9c8d297d2c66e420752b65644ccf79f5379f780c6b07dc7a086fc8066edb0475d0fb1eb)) % ell ≠
      leNat (leBytes 57 0x18419ba0b997f62fee0422c8157a1564b675d771d9c8d297d2c66e420752b65644ccf79f5379f780c6b07dc7a086fc8066edb0475d0fb1eb) % ell := by
    decide +kernel
  exact h

/-- C46, response, partial: S = r + k a modulo `ell` for every 57-byte r, k, a with last byte
zero on which no carry is dropped.  Missing: the other inputs, on which the code can fail
(`C46_response_wrong`). -/
theorem C46_response_partial (u13 u14 : W) (r k a : List Byte) (hr : r.length = 57)
    (hk : k.length = 57) (ha : a.length = 57)
    (hov : NoOverflow (leNat (r.take 56)) (words 7 (k.take 56)) (words 7 (a.take 56)))
    (hx : ReduceExact (leNat (r.take 56) + leNat (k.take 56) * leNat (a.take 56))) :
    (calculate_s u13 u14 r k a).length = 57 ∧
    leNat (calculate_s u13 u14 r k a) ≡
      leNat (r.take 56) + leNat (k.take 56) * leNat (a.take 56) [MOD ell] ∧
    leNat (calculate_s u13 u14 r k a) < 2 ^ 446 := by
  have hm := (C22_multiplier (words 7 (r.take 56) ++ List.replicate 9 0#64)
    (words 7 (k.take 56)) (words 7 (a.take 56)) (by simp [words_length]))
  rw [wval_append, wval_replicate_zero, mul_zero, add_zero, wval_words7, wval_words7,
    wval_words7] at hm
  have a1 := leNat_lt (r.take 56)
  have a2 := leNat_lt (k.take 56)
  have a3 := leNat_lt (a.take 56)
  rw [List.length_take, hr] at a1
  rw [List.length_take, hk] at a2
  rw [List.length_take, ha] at a3
  have hb : leNat (r.take 56) + leNat (k.take 56) * leNat (a.take 56) < 2 ^ 912 := by
    have := Nat.mul_le_mul a2.le a3.le
    calc _ ≤ 256 ^ min 56 57 + 256 ^ min 56 57 * 256 ^ min 56 57 := Nat.add_le_add a1.le this
      _ < 2 ^ 912 := by norm_num
  obtain ⟨t1, t2, t3⟩ := tail_val u13 u14 _ (by rw [hm.1]; simp [words_length])
    (hm.2.2.mpr hov) hb
  exact ⟨t1, t3 hx, t2⟩

/-- C46 is false of the code as stated for the response too, already for a reduced nonce, a
reduced challenge and a clamped secret scalar. -/
theorem C46_response_wrong :
    ∃ r k a : List Byte, r.length = 57 ∧ k.length = 57 ∧ a.length = 57 ∧
      leNat r < ell ∧ leNat k < ell ∧ 2 ^ 447 ≤ leNat a ∧ leNat a < 2 ^ 448 ∧ 4 ∣ leNat a ∧
      ∀ u13 u14, ¬ leNat (calculate_s u13 u14 r k a) ≡ leNat r + leNat k * leNat a [MOD ell] := by
  refine ⟨leBytes 57 (2 ^ 192 - 1), leBytes 57 1, leBytes 57 (2 ^ 447 + 4), by simp, by simp,
    by simp, by decide +kernel, by decide +kernel, by decide +kernel, by decide +kernel,
    by decide +kernel, fun u13 u14 => ?_⟩
  have e : ∀ r k a, calculate_s u13 u14 r k a = calculate_s 0#64 0#64 r k a := by
    intro r k a
    unfold calculate_s
    simp only
    rw [C46_reduce_junk u13 u14 0#64 0#64]
    rw [List.length_take, bytesOf_length, word64_multiplier_length]; simp [words_length]
  rw [e]
  have h : leNat (calculate_s 0#64 0#64 (leBytes 57 (2 ^ 192 - 1)) (leBytes 57 1)
      (leBytes 57 (2 ^ 447 + 4))) % ell ≠ (leNat (leBytes 57 (2 ^ 192 - 1)) +
        leNat (leBytes 57 1) * leNat (leBytes 57 (2 ^ 447 + 4))) % ell := by decide +kernel
  exact h

/-- Decides `NoOverflow` by running the multiplier. -/
theorem noOverflow_of_exact (n c : ℕ) (A B : List W) (hl : A.length + B.length < n)
    (hc : c < 2 ^ (64 * n))
    (h : wval (word64_multiplier (toWords n c) A B) = c + wval A * wval B) : NoOverflow c A B := by
  have e : wval (toWords n c) = c := by rw [wval_toWords]; exact Nat.mod_eq_of_lt hc
  have := (C22_multiplier (toWords n c) A B (by rw [toWords_length]; exact hl)).2.2
  rw [e] at this
  exact this.mp h

/-- The hypotheses of C46 are met by concrete digests and scalars: the digest 3^570
(904 bits), the scalar 5^190, and the response for r = 3^280, k = 5^190, a = 2^447 + 4·7^100. -/
example : ReduceExact (leNat (leBytes 114 (3 ^ 570))) ∧
    NoOverflow 0 ifour (words 7 ((leBytes 57 (5 ^ 190)).take 56)) ∧
    ReduceExact (wval ifour * leNat ((leBytes 57 (5 ^ 190)).take 56)) ∧
    NoOverflow (3 ^ 280) (words 7 ((leBytes 57 (5 ^ 190)).take 56))
      (words 7 ((leBytes 57 (2 ^ 447 + 4 * 7 ^ 100)).take 56)) ∧
    ReduceExact (3 ^ 280 + 5 ^ 190 * (2 ^ 447 + 4 * 7 ^ 100)) := by
  refine ⟨⟨?_, ?_, ?_, ?_⟩, ?_, ⟨?_, ?_, ?_, ?_⟩, ?_, ⟨?_, ?_, ?_, ?_⟩⟩ <;>
  exact noOverflow_of_exact 16 _ _ _ (by decide) (by decide +kernel) (by decide +kernel)

end Verif.Ed448
