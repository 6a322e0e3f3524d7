import Verif.Ed448.Scalar
import Verif.Ed25519.MulLemmas
import Verif.Ed25519.ScalarLemmas
import Verif.Props.Ed25519Scalar

/-! # Scalars modulo the order of Ed448: helper lemmas -/

namespace Verif

set_option exponentiation.threshold 2000

theorem leNat_take (b : List Byte) (k : ℕ) : leNat (b.take k) = leNat b % 256 ^ k := by
  induction k generalizing b with
  | zero => simp [leNat, Nat.mod_one]
  | succ k ih =>
    cases b with
    | nil => simp [leNat]
    | cons x xs =>
      have := x.isLt
      simp only [List.take_succ_cons, leNat, ih]
      rw [pow_succ, mul_comm (256 ^ k) 256, Nat.mod_mul]
      have e1 : (x.toNat + 256 * leNat xs) % 256 = x.toNat := by omega
      have e2 : (x.toNat + 256 * leNat xs) / 256 = leNat xs := by omega
      rw [e1, e2]

theorem leNat_drop' (b : List Byte) (k : ℕ) : leNat (b.drop k) = leNat b / 256 ^ k := by
  induction k generalizing b with
  | zero => simp
  | succ k ih =>
    cases b with
    | nil => simp [leNat]
    | cons x xs =>
      have := x.isLt
      simp only [List.drop_succ_cons, leNat, ih]
      rw [pow_succ, mul_comm (256 ^ k) 256, ← Nat.div_div_eq_div_mul]
      congr 1
      omega

theorem words_length (n : ℕ) (b : List Byte) : (words n b).length = n := by
  induction n generalizing b with
  | zero => rfl
  | succ n ih => simp [words, ih]

theorem wval_words (n : ℕ) (b : List Byte) : wval (words n b) = leNat b % 2 ^ (64 * n) := by
  induction n generalizing b with
  | zero => simp [words, wval, Nat.mod_one]
  | succ n ih =>
    simp only [words, wval, ih, leNat_drop', leNat_take, BitVec.toNat_ofNat]
    rw [Nat.mul_add, pow_add, mul_comm (2 ^ (64 * n)), Nat.mul_one, Nat.mod_mul]
    norm_num

theorem bytesOf_length (l : List W) : (bytesOf l).length = 8 * l.length := by
  induction l with
  | nil => rfl
  | cons x xs ih =>
    have : bytesOf (x :: xs) = wordBytes x ++ bytesOf xs := rfl
    simp [this, ih]; omega

theorem leNat_bytesOf (l : List W) : leNat (bytesOf l) = wval l := by
  induction l with
  | nil => rfl
  | cons x xs ih =>
    have : bytesOf (x :: xs) = wordBytes x ++ bytesOf xs := rfl
    rw [this, leNat_append, ih, leNat_wordBytes, wordBytes_length, wval]
    norm_num

/-- The `n` words of a number. -/
def toWords : ℕ → ℕ → List W
  | 0, _ => []
  | n + 1, x => BitVec.ofNat 64 x :: toWords n (x / 2 ^ 64)

theorem toWords_length (n x : ℕ) : (toWords n x).length = n := by
  induction n generalizing x with
  | zero => rfl
  | succ n ih => simp [toWords, ih]

theorem wval_toWords (n x : ℕ) : wval (toWords n x) = x % 2 ^ (64 * n) := by
  induction n generalizing x with
  | zero => simp [toWords, wval, Nat.mod_one]
  | succ n ih =>
    simp only [toWords, wval, ih, BitVec.toNat_ofNat]
    rw [Nat.mul_add, pow_add, mul_comm (2 ^ (64 * n)), Nat.mul_one, Nat.mod_mul]

theorem toWords_wval (l : List W) : toWords l.length (wval l) = l := by
  induction l with
  | nil => rfl
  | cons x xs ih =>
    have := x.isLt
    simp only [List.length_cons, toWords, wval]
    have h1 : (x.toNat + 2 ^ 64 * wval xs) / 2 ^ 64 = wval xs := by omega
    rw [h1, ih]
    congr 1
    apply BitVec.eq_of_toNat_eq
    rw [BitVec.toNat_ofNat]; omega

theorem eq_toWords {l : List W} {n : ℕ} (hn : l.length = n) : l = toWords n (wval l) := by
  subst hn; exact (toWords_wval l).symm

theorem wval_take (l : List W) (k : ℕ) : wval (l.take k) = wval l % 2 ^ (64 * k) := by
  induction k generalizing l with
  | zero => simp [wval, Nat.mod_one]
  | succ k ih =>
    cases l with
    | nil => simp [wval]
    | cons x xs =>
      have := x.isLt
      simp only [List.take_succ_cons, wval, ih]
      rw [Nat.mul_add, pow_add, mul_comm (2 ^ (64 * k)), Nat.mul_one, Nat.mod_mul]
      have e1 : (x.toNat + 2 ^ 64 * wval xs) % 2 ^ 64 = x.toNat := by omega
      have e2 : (x.toNat + 2 ^ 64 * wval xs) / 2 ^ 64 = wval xs := by omega
      rw [e1, e2]

theorem wval_drop_div (l : List W) (k : ℕ) : wval (l.drop k) = wval l / 2 ^ (64 * k) := by
  induction k generalizing l with
  | zero => simp
  | succ k ih =>
    cases l with
    | nil => simp [wval]
    | cons x xs =>
      have := x.isLt
      simp only [List.drop_succ_cons, wval, ih]
      rw [Nat.mul_add, pow_add, mul_comm (2 ^ (64 * k)), Nat.mul_one, ← Nat.div_div_eq_div_mul]
      congr 1
      omega

theorem wval_replicate_zero (n : ℕ) : wval (List.replicate n 0#64) = 0 := by
  induction n with
  | zero => rfl
  | succ n ih => simp [List.replicate_succ, wval, ih]

theorem mulStep_append (C J : List W) (k : ℕ) (x y : W) (h : k + 2 < C.length) :
    mulStep (C ++ J) k x y = mulStep C k x y ++ J := by
  unfold mulStep
  have g : ∀ m, m < C.length → (C ++ J).getD m 0#64 = C.getD m 0#64 := by
    intro m hm
    simp [List.getD_eq_getElem?_getD, List.getElem?_append_left hm]
  rw [g k (by omega), g (k + 1) (by omega), g (k + 2) h]
  simp only
  rw [List.set_append_left _ _ (by omega), List.set_append_left _ _ (by simp; omega),
    List.set_append_left _ _ (by simp; omega)]

theorem mulRow_append (J : List W) (x : W) (B : List W) : ∀ (C : List W) (k : ℕ),
    k + B.length + 1 < C.length → mulRow (C ++ J) k x B = mulRow C k x B ++ J := by
  induction B with
  | nil => intro C k _; rfl
  | cons y B ih =>
    intro C k h
    simp only [List.length_cons] at h
    simp only [mulRow]
    rw [mulStep_append C J k x y (by omega), ih _ _ (by rw [mulStep_length]; omega)]

theorem mulRow_length (x : W) (B : List W) : ∀ (C : List W) (k : ℕ),
    (mulRow C k x B).length = C.length := by
  induction B with
  | nil => intro C k; rfl
  | cons y B ih => intro C k; simp only [mulRow]; rw [ih, mulStep_length]

theorem mulRows_append (J : List W) (B A : List W) : ∀ (C : List W) (i : ℕ),
    i + A.length + B.length < C.length → mulRows (C ++ J) i B A = mulRows C i B A ++ J := by
  induction A with
  | nil => intro C i _; rfl
  | cons x A ih =>
    intro C i h
    simp only [List.length_cons] at h
    simp only [mulRows]
    rw [mulRow_append J x B C i (by omega), ih _ _ (by rw [mulRow_length]; omega)]

/-- The multiplier touches only the first `numA + numB + 1` words. -/
theorem word64_multiplier_append (C J A B : List W) (h : A.length + B.length < C.length) :
    word64_multiplier (C ++ J) A B = word64_multiplier C A B ++ J :=
  mulRows_append J B A C 0 (by omega)

theorem word64_multiplier_length (C A B : List W) :
    (word64_multiplier C A B).length = C.length := by
  have : ∀ (A : List W) (C : List W) (i : ℕ), (mulRows C i B A).length = C.length := by
    intro A
    induction A with
    | nil => intro C i; rfl
    | cons x A ih => intro C i; simp only [mulRows]; rw [ih, mulRow_length]
  exact this A C 0

/-- C22 with the value of the accumulator and of the second factor given. -/
theorem mul_exact {C A B : List W} {c n v : ℕ} (h : A.length + B.length < C.length)
    (hc : wval C = c) (hB : B.length = n) (hv : wval B = v)
    (hn : NoOverflow c A (toWords n v)) :
    wval (word64_multiplier C A B) = c + wval A * v := by
  subst hc hB hv
  rw [toWords_wval] at hn
  exact (C22_multiplier C A B h).2.2.mpr hn

namespace Ed448

/-- The order of the prime-order subgroup of edwards448. -/
def ell : ℕ := 2 ^ 446 - 0x8335dc163bb124b65129c96fde933d8d723a70aadc873d6d54a7bb0d

/-- 2^446 - ell. -/
def c0 : ℕ := 0x8335dc163bb124b65129c96fde933d8d723a70aadc873d6d54a7bb0d

theorem wval_ellx4 : wval ellx4 = 4 * c0 := by decide +kernel
theorem wval_ellc : wval ellc = c0 := by decide +kernel

/-- One folding of the bits above 2^448. -/
def fold448 (x : ℕ) : ℕ := x % 2 ^ 448 + 4 * c0 * (x / 2 ^ 448)

/-- One folding of the bits above 2^446. -/
def fold446 (x : ℕ) : ℕ := x % 2 ^ 446 + c0 * (x / 2 ^ 446)

/-- No carry is dropped by the four multiplications of `modular_reduction_ed448` on the number
`x`.  `NoOverflow` is the condition of C22. -/
def ReduceExact (x : ℕ) : Prop :=
  NoOverflow (x % 2 ^ 448) ellx4 (toWords 8 (x / 2 ^ 448)) ∧
  NoOverflow (fold448 x % 2 ^ 448) ellx4 (toWords 4 (fold448 x / 2 ^ 448)) ∧
  NoOverflow (fold448 (fold448 x) % 2 ^ 448) ellx4 (toWords 1 (fold448 (fold448 x) / 2 ^ 448)) ∧
  NoOverflow (fold448 (fold448 (fold448 x)) % 2 ^ 446) ellc
    (toWords 1 (fold448 (fold448 (fold448 x)) / 2 ^ 446))

theorem fold448_modEq (x : ℕ) : fold448 x ≡ x [MOD ell] := by
  have h : 2 ^ 448 = 4 * c0 + 4 * ell := by decide +kernel
  have e : x = x % 2 ^ 448 + 2 ^ 448 * (x / 2 ^ 448) := (Nat.mod_add_div _ _).symm
  conv_rhs => rw [e]
  unfold fold448
  generalize x % 2 ^ 448 = u
  generalize x / 2 ^ 448 = v
  rw [h]
  have : u + (4 * c0 + 4 * ell) * v = u + 4 * c0 * v + ell * (4 * v) := by ring
  rw [this]
  exact (Nat.ModEq.symm (by simp [Nat.ModEq]))

theorem fold446_modEq (x : ℕ) : fold446 x ≡ x [MOD ell] := by
  have h : 2 ^ 446 = c0 + ell := by decide +kernel
  have e : x = x % 2 ^ 446 + 2 ^ 446 * (x / 2 ^ 446) := (Nat.mod_add_div _ _).symm
  conv_rhs => rw [e]
  unfold fold446
  generalize x % 2 ^ 446 = u
  generalize x / 2 ^ 446 = v
  rw [h]
  have : u + (c0 + ell) * v = u + c0 * v + ell * v := by ring
  rw [this]
  exact (Nat.ModEq.symm (by simp [Nat.ModEq]))

theorem splitHigh_length (p h : List W) (hp : p.length = 15) :
    (splitHigh p h).1.length = 15 ∧ (splitHigh p h).2.length = 8 := by
  simp [splitHigh, hp]

/-- What `splitHigh` leaves, on a product whose words 13, 14 are irrelevant. -/
theorem splitHigh_eq (C J h : List W) (hC : C.length = 13) (hJ : J.length = 2) (n : ℕ)
    (hn : n ≤ 6) :
    ∃ z, (splitHigh (C ++ J) h).1 = (C.take 7 ++ List.replicate 6 0#64) ++ [0#64, z] ∧
      (splitHigh (C ++ J) h).2.take n = (C.drop 7).take n := by
  refine ⟨(C ++ J).getD 14 0#64 &&& ~~~0xFFFF#64, ?_, ?_⟩
  · simp [splitHigh, List.take_append, hC, List.replicate_succ]
  · simp only [splitHigh]
    rw [List.take_append_of_le_length (by simp [hC, hJ]; omega), List.drop_append_of_le_length
      (by omega), List.take_take, Nat.min_eq_left (by omega),
      List.take_append_of_le_length (by simp [hC]; omega)]

theorem shr62 (w : W) : (w >>> 62).toNat = w.toNat / 2 ^ 62 := by
  simp [BitVec.toNat_ushiftRight, Nat.shiftRight_eq_div_pow]

theorem and62 (w : W) : (w &&& ((1#64 <<< 62) - 1#64)).toNat = w.toNat % 2 ^ 62 := by
  have : (((1#64 <<< 62) - 1#64 : W)).toNat = 2 ^ 62 - 1 := by decide
  rw [BitVec.toNat_and, this, Nat.and_two_pow_sub_one_eq_mod]

/-- The value of the words that step 1 produces. -/
theorem step1 (a : List Byte) (h : a.length = 114) :
    let M := word64_multiplier (words 7 a ++ List.replicate 6 0#64) ellx4
      (words 8 ((a.drop 56).take 58))
    M.length = 13 ∧ (NoOverflow (leNat a % 2 ^ 448) ellx4 (toWords 8 (leNat a / 2 ^ 448)) →
      wval M = fold448 (leNat a)) := by
  intro M
  have hl : (words 7 a ++ List.replicate 6 0#64).length = 13 := by simp [words_length]
  have hh : (words 8 ((a.drop 56).take 58)).length = 8 := words_length _ _
  refine ⟨by rw [word64_multiplier_length, hl], fun hn => ?_⟩
  have e1 : wval (words 7 a ++ List.replicate 6 0#64) = leNat a % 2 ^ 448 := by
    rw [wval_append, wval_replicate_zero, wval_words]; simp
  have hlt := leNat_lt a
  rw [h] at hlt
  have e2 : wval (words 8 ((a.drop 56).take 58)) = leNat a / 2 ^ 448 := by
    rw [wval_words, leNat_take, leNat_drop']
    have : (256 : ℕ) ^ 56 = 2 ^ 448 := by norm_num
    rw [this]
    generalize leNat a = x at *
    norm_num at hlt ⊢
    omega
  have := mul_exact (A := ellx4) (by rw [hl, hh]; decide) e1 hh e2 hn
  rw [wval_ellx4] at this
  exact this

/-- Step 2. -/
theorem step2 (M1 : List W) (h : M1.length = 13) (hb : wval M1 < 2 ^ 700) :
    let M := word64_multiplier (M1.take 7 ++ List.replicate 6 0#64) ellx4 ((M1.drop 7).take 4)
    M.length = 13 ∧ (NoOverflow (wval M1 % 2 ^ 448) ellx4 (toWords 4 (wval M1 / 2 ^ 448)) →
      wval M = fold448 (wval M1)) := by
  intro M
  have hl : (M1.take 7 ++ List.replicate 6 0#64).length = 13 := by simp [h]
  have hh : ((M1.drop 7).take 4).length = 4 := by simp [h]
  refine ⟨by rw [word64_multiplier_length, hl], fun hn => ?_⟩
  have e1 : wval (M1.take 7 ++ List.replicate 6 0#64) = wval M1 % 2 ^ 448 := by
    rw [wval_append, wval_replicate_zero, wval_take]; simp
  have e2 : wval ((M1.drop 7).take 4) = wval M1 / 2 ^ 448 := by
    rw [wval_take, wval_drop_div]
    generalize wval M1 = x at *
    norm_num at hb ⊢
    omega
  have := mul_exact (A := ellx4) (by rw [hl, hh]; decide) e1 hh e2 hn
  rw [wval_ellx4] at this
  exact this

/-- Step 3: only six words are touched. -/
theorem step3 (M2 : List W) (h : M2.length = 13) (hb : wval M2 < 2 ^ 512) :
    let M := word64_multiplier (M2.take 6) ellx4 ((M2.drop 7).take 1)
    M.length = 6 ∧ (NoOverflow (wval M2 % 2 ^ 448) ellx4 (toWords 1 (wval M2 / 2 ^ 448)) →
      wval (M ++ [M2.getD 6 0#64]) = fold448 (wval M2)) := by
  intro M
  have hl6 : (M2.take 6).length = 6 := by simp [h]
  have hl : (M2.take 6 ++ [M2.getD 6 0#64]).length = 7 := by simp [h]
  have hh : ((M2.drop 7).take 1).length = 1 := by simp [h]
  refine ⟨by rw [word64_multiplier_length, hl6], fun hn => ?_⟩
  have e0 : M2.take 6 ++ [M2.getD 6 0#64] = M2.take 7 := by
    rw [List.take_add_one (i := 6)]
    simp [List.getD_eq_getElem?_getD, List.getElem?_eq_getElem (show 6 < M2.length by omega)]
  have e1 : wval (M2.take 6 ++ [M2.getD 6 0#64]) = wval M2 % 2 ^ 448 := by
    rw [e0, wval_take]
  have e2 : wval ((M2.drop 7).take 1) = wval M2 / 2 ^ 448 := by
    rw [wval_take, wval_drop_div]
    generalize wval M2 = x at *
    norm_num at hb ⊢
    omega
  have := mul_exact (A := ellx4) (by rw [hl, hh]; decide) e1 hh e2 hn
  rw [wval_ellx4, word64_multiplier_append _ _ _ _ (by rw [hl6, hh]; decide)] at this
  exact this

/-- Step 4. -/
theorem step4 (M3 : List W) (w : W) (h : M3.length = 6) :
    let M := word64_multiplier M3 ellc [w >>> 62] ++ [w &&& ((1#64 <<< 62) - 1#64)]
    M.length = 7 ∧ wval M < 2 ^ 446 ∧
    (NoOverflow (wval (M3 ++ [w]) % 2 ^ 446) ellc (toWords 1 (wval (M3 ++ [w]) / 2 ^ 446)) →
      wval M = fold446 (wval (M3 ++ [w]))) := by
  intro M
  have hM3 := wval_lt M3
  rw [h] at hM3
  have hML : (word64_multiplier M3 ellc [w >>> 62]).length = 6 := by
    rw [word64_multiplier_length, h]
  have hw := w.isLt
  refine ⟨by simp [M, hML], ?_, fun hn => ?_⟩
  · have hm := wval_lt (word64_multiplier M3 ellc [w >>> 62])
    rw [hML] at hm
    simp only [M]
    rw [wval_append, hML, wval, wval, and62]
    omega
  · have hl : (M3 ++ [w &&& ((1#64 <<< 62) - 1#64)]).length = 7 := by simp [h]
    have e0 : wval (M3 ++ [w]) = wval M3 + 2 ^ 384 * w.toNat := by
      rw [wval_append, h]; simp [wval]
    have e1 : wval (M3 ++ [w &&& ((1#64 <<< 62) - 1#64)]) = wval (M3 ++ [w]) % 2 ^ 446 := by
      rw [e0, wval_append, h, wval, wval, and62]
      omega
    have e2 : wval [w >>> 62] = wval (M3 ++ [w]) / 2 ^ 446 := by
      rw [e0, wval, wval, shr62]
      omega
    have := mul_exact (A := ellc) (B := [w >>> 62]) (by rw [hl]; simp [ellc]) e1 rfl e2 hn
    rw [wval_ellc, word64_multiplier_append _ _ _ _ (by rw [h]; simp [ellc])] at this
    exact this

theorem fold448_lt {x m : ℕ} (h : x < 2 ^ (448 + m)) : fold448 x < 2 ^ 448 + 2 ^ (226 + m) := by
  unfold fold448
  have h1 : x % 2 ^ 448 < 2 ^ 448 := Nat.mod_lt _ (by positivity)
  have h2 : x / 2 ^ 448 < 2 ^ m := Nat.div_lt_of_lt_mul (by rwa [← pow_add])
  have h3 : 4 * c0 ≤ 2 ^ 226 := by decide +kernel
  have h4 : 4 * c0 * (x / 2 ^ 448) ≤ 2 ^ 226 * 2 ^ m := Nat.mul_le_mul h3 h2.le
  rw [← pow_add] at h4
  generalize 4 * c0 * (x / 2 ^ 448) = u at *
  generalize x % 2 ^ 448 = v at *
  exact Nat.add_lt_add_of_lt_of_le h1 h4

theorem fold448_lt1 {x : ℕ} (h : x < 2 ^ 912) : fold448 x < 2 ^ 700 :=
  (fold448_lt (m := 464) h).trans_le (by decide +kernel)
theorem fold448_lt2 {x : ℕ} (h : x < 2 ^ 700) : fold448 x < 2 ^ 512 :=
  (fold448_lt (m := 252) h).trans_le (by decide +kernel)

/-- `modular_reduction_ed448` in terms of the four products. -/
theorem modular_reduction_eq (u13 u14 : W) (a : List Byte) (h : a.length = 114) {M1 M2 M3 : List W}
    {w : W}
    (h1 : M1 = word64_multiplier (words 7 a ++ List.replicate 6 0#64) ellx4
      (words 8 ((a.drop 56).take 58)))
    (h2 : M2 = word64_multiplier (M1.take 7 ++ List.replicate 6 0#64) ellx4 ((M1.drop 7).take 4))
    (h3 : M3 = word64_multiplier (M2.take 6) ellx4 ((M2.drop 7).take 1))
    (hw : w = M2.getD 6 0#64) :
    modular_reduction u13 u14 a =
      bytesOf (word64_multiplier M3 ellc [w >>> 62] ++ [w &&& ((1#64 <<< 62) - 1#64)])
        ++ List.replicate 58 0#8 := by
  have l1 : M1.length = 13 := by rw [h1]; exact (step1 a h).1
  have l2 : M2.length = 13 := by
    rw [h2, word64_multiplier_length]; simp [l1]
  have l3 : M3.length = 6 := by
    rw [h3, word64_multiplier_length]; simp [l2]
  have l4 : (word64_multiplier M3 ellc [w >>> 62]).length = 6 := by
    rw [word64_multiplier_length, l3]
  have p1 : word64_multiplier (words 7 a ++ List.replicate 6 0#64 ++ [u13, u14]) ellx4
      (words 8 ((a.drop 56).take 58)) = M1 ++ [u13, u14] := by
    rw [word64_multiplier_append _ _ _ _ (by simp [words_length, ellx4]), h1]
  unfold modular_reduction
  simp only [p1]
  generalize words 8 ((a.drop 56).take 58) = high
  obtain ⟨z, s1, s2⟩ := splitHigh_eq M1 [u13, u14] high l1 rfl 4 (by norm_num)
  have p2 : word64_multiplier (M1.take 7 ++ List.replicate 6 0#64 ++ [0#64, z]) ellx4
      ((M1.drop 7).take 4) = M2 ++ [0#64, z] := by
    rw [word64_multiplier_append _ _ _ _ (by simp [ellx4, l1]), h2]
  simp only [s1, s2, p2]
  generalize (splitHigh (M1 ++ [u13, u14]) high).2 = high2
  obtain ⟨z', s3, s4⟩ := splitHigh_eq M2 [0#64, z] high2 l2 rfl 1 (by norm_num)
  have e0 : M2.take 7 = M2.take 6 ++ [w] := by
    rw [List.take_add_one (i := 6), hw]
    simp [List.getD_eq_getElem?_getD, List.getElem?_eq_getElem (show 6 < M2.length by omega)]
  have e1 : (M2.take 7 ++ List.replicate 6 0#64) ++ [0#64, z'] =
      M2.take 6 ++ (w :: (List.replicate 6 0#64 ++ [0#64, z'])) := by
    rw [e0]; simp
  generalize List.replicate 6 0#64 ++ [0#64, z'] = J at e1
  have p3 : word64_multiplier (M2.take 6 ++ (w :: J)) ellx4
      ((M2.drop 7).take 1) = M3 ++ (w :: J) := by
    rw [word64_multiplier_append _ _ _ _ (by simp [ellx4, l2]), h3]
  have g : (M3 ++ w :: J).getD 6 0#64 = w := by
    simp [List.getD_eq_getElem?_getD, l3]
  have st : ∀ v, (M3 ++ w :: J).set 6 v = M3 ++ v :: J := by
    intro v
    rw [List.set_append_right _ _ (by omega), l3]; rfl
  simp only [s3, s4, e1, p3, g, st]
  rw [word64_multiplier_append _ _ _ _ (by simp [ellc, l3])]
  generalize word64_multiplier M3 ellc [w >>> 62] = X at l4 ⊢
  generalize w &&& ((1#64 <<< 62) - 1#64) = v
  have e : (X ++ v :: J).take 7 = X ++ [v] := by
    rw [List.take_append, l4, List.take_of_length_le (by omega)]; rfl
  rw [e]

/-- `modular_reduction_ed448`: the length and size of the result, and its value when no carry
is dropped. -/
theorem modular_reduction_val (u13 u14 : W) (a : List Byte) (h : a.length = 114) :
    ∃ lo : List Byte, modular_reduction u13 u14 a = lo ++ List.replicate 58 0#8 ∧
      lo.length = 56 ∧ leNat lo < 2 ^ 446 ∧
      (ReduceExact (leNat a) →
        leNat lo = fold446 (fold448 (fold448 (fold448 (leNat a))))) := by
  have hlt := leNat_lt a
  rw [h] at hlt
  have hlt' : leNat a < 2 ^ 912 := hlt.trans_le (by norm_num)
  refine ⟨_, modular_reduction_eq u13 u14 a h rfl rfl rfl rfl, ?_⟩
  obtain ⟨l1, v1⟩ := step1 a h
  generalize word64_multiplier (words 7 a ++ List.replicate 6 0#64) ellx4
      (words 8 ((a.drop 56).take 58)) = M1 at *
  have l2 : (word64_multiplier (M1.take 7 ++ List.replicate 6 0#64) ellx4
      ((M1.drop 7).take 4)).length = 13 := by
    rw [word64_multiplier_length]; simp [l1]
  have v2 := fun hb => (step2 M1 l1 hb).2
  generalize word64_multiplier (M1.take 7 ++ List.replicate 6 0#64) ellx4
      ((M1.drop 7).take 4) = M2 at *
  have l3 : (word64_multiplier (M2.take 6) ellx4 ((M2.drop 7).take 1)).length = 6 := by
    rw [word64_multiplier_length]; simp [l2]
  have v3 := fun hb => (step3 M2 l2 hb).2
  generalize word64_multiplier (M2.take 6) ellx4 ((M2.drop 7).take 1) = M3 at *
  generalize M2.getD 6 0#64 = w at *
  obtain ⟨l4, b4, v4⟩ := step4 M3 w l3
  rw [bytesOf_length, leNat_bytesOf, l4]
  refine ⟨rfl, b4, ?_⟩
  rintro ⟨e1, e2, e3, e4⟩
  have w1 := v1 e1
  have b1 := fold448_lt1 hlt'
  have w2 := v2 (by rw [w1]; exact b1) (by rw [w1]; exact e2)
  rw [w1] at w2
  have b2 := fold448_lt2 b1
  have w3 := v3 (by rw [w2]; exact b2) (by rw [w2]; exact e3)
  rw [w2] at w3
  rw [w3] at v4
  exact v4 e4

end Ed448
end Verif
