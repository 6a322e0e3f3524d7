import Verif.Keccak.Lemmas

/-!
# The sponge of third_party/sha3.c
-/

namespace Verif.Keccak

theorem xorAt_length (s : List Byte) (i : ℕ) (d : List Byte) : (xorAt s i d).length = s.length := by
  induction d generalizing s i with
  | nil => rfl
  | cons b bs ih => rw [xorAt, ih, List.length_set]

theorem getD_set (s : List Byte) {i : ℕ} (hi : i < s.length) (b : Byte) (k : ℕ) :
    (s.set i b).getD k 0 = if k = i then b else s.getD k 0 := by
  rw [List.getD_eq_getElem?_getD, List.getElem?_set, List.getD_eq_getElem?_getD]
  by_cases h : i = k
  · subst h; simp [hi]
  · have h' : ¬k = i := fun e => h e.symm
    simp [h, h']

theorem getD_xorAt (s d : List Byte) (i k : ℕ) (h : i + d.length ≤ s.length) :
    (xorAt s i d).getD k 0 = s.getD k 0 ^^^ (if i ≤ k then d.getD (k - i) 0 else 0) := by
  induction d generalizing s i with
  | nil => simp [xorAt]
  | cons b bs ih =>
    rw [List.length_cons] at h
    rw [xorAt, ih _ _ (by rw [List.length_set]; omega), getD_set _ (by omega)]
    by_cases h1 : k = i
    · subst h1
      simp
    · by_cases h2 : i + 1 ≤ k
      · have h3 : i ≤ k := by omega
        rw [if_neg h1, if_pos h2, if_pos h3, show k - i = (k - (i + 1)) + 1 by omega,
          List.getD_cons_succ]
      · have h3 : ¬i ≤ k := by omega
        rw [if_neg h1, if_neg h2, if_neg h3]

theorem bitAt_xorAt (s d : List Byte) (i k : ℕ) (h : i + d.length ≤ s.length) :
    bitAt (xorAt s i d) k = (bitAt s k ^^ if 8 * i ≤ k then bitAt d (k - 8 * i) else false) := by
  rw [bitAt, getD_xorAt _ _ _ _ h, BitVec.getLsbD_xor, ← bitAt]
  congr 1
  by_cases h1 : 8 * i ≤ k
  · rw [if_pos (by omega), if_pos h1, bitAt, show (k - 8 * i) / 8 = k / 8 - i by omega,
      show (k - 8 * i) % 8 = k % 8 by omega]
  · rw [if_neg (by omega), if_neg h1]; simp

theorem xorByte_eq (s : List Byte) (i : ℕ) (b : Byte) : xorByte s i b = xorAt s i [b] := rfl

/-- XORing bytes after those of a partial block. -/
theorem bits_xorAt {s t d : List Byte} {A : State} (hs : bits s = xorBlock A t)
    (h : t.length + d.length ≤ s.length) :
    bits (xorAt s t.length d) = xorBlock A (t ++ d) := by
  funext x y z
  have e := congrFun (congrFun (congrFun hs x) y) z
  rw [bits_apply, xorBlock] at e
  rw [bits_apply, xorBlock, bitAt_xorAt _ _ _ _ h, e, bitAt_append]
  generalize 64 * (5 * y.val + x.val) + z.val = k
  by_cases hk : k < 8 * t.length
  · rw [if_neg (by omega), if_pos hk, Bool.xor_false]
  · rw [if_pos (by omega), if_neg hk, bitAt_ge t (by omega), Bool.xor_false]

theorem bits_eq_xorBlock_nil (s : List Byte) : bits s = xorBlock (bits s) [] := by
  funext x y z
  simp [xorBlock, bitAt]

theorem xorBlock_zeros (A : State) (p : List Byte) (n : ℕ) :
    xorBlock A (p ++ List.replicate n 0#8) = xorBlock A p := by
  funext x y z
  rw [xorBlock, xorBlock, bitAt_append]
  congr 1
  split
  · rfl
  · rename_i h
    rw [bitAt_ge p (by omega), bitAt]
    have : ∀ j, (List.replicate n 0#8).getD j (0 : Byte) = 0 := by
      intro j
      rw [List.getD_eq_getElem?_getD, List.getElem?_replicate]
      split <;> rfl
    rw [this]; simp

theorem absorb_congr {r : ℕ} {m m' : List Byte} {n : ℕ} (h : m.take (r * n) = m'.take (r * n)) :
    absorb r m n = absorb r m' n := by
  induction n with
  | zero => rfl
  | succ n ih =>
    have h1 : m.take (r * n) = m'.take (r * n) := by
      have := congrArg (List.take (r * n)) h
      rwa [List.take_take, List.take_take,
        Nat.min_eq_left (Nat.mul_le_mul_left r (Nat.le_succ n))] at this
    have h2 : (m.drop (r * n)).take r = (m'.drop (r * n)).take r := by
      have := congrArg (List.drop (r * n)) h
      rwa [List.drop_take, List.drop_take, show r * (n + 1) - r * n = r by
        rw [Nat.mul_succ]; omega] at this
    rw [absorb, absorb, ih h1, h2]

theorem absorb_append {r : ℕ} (m d : List Byte) {n : ℕ} (h : r * n ≤ m.length) :
    absorb r (m ++ d) n = absorb r m n :=
  absorb_congr (List.take_append_of_le_length h)

/-- The state after `m`: whole blocks absorbed, the rest XORed. -/
structure Inv (st : HashState) (R : ℕ) (m : List Byte) : Prop where
  rpos : 0 < R
  rle : R ≤ 200
  r : st.r = 8 * R
  len : st.s.length = 200
  bitlen : st.statebitlen = 8 * (m.length % R)
  bits : bits st.s = xorBlock (absorb R m (m.length / R)) (m.drop (R * (m.length / R)))

theorem bits_zero : bits (List.replicate 200 0#8) = zero := by
  have := xorBlock_zeros zero [] 200
  rw [List.nil_append] at this
  rw [bits, this]
  funext x y z
  simp [xorBlock, bitAt]

theorem inv_init {n R : ℕ} (h0 : 0 < R) (h : 8 * R + 2 * n = 1600) : Inv (init n) R [] := by
  refine ⟨h0, by omega, ?_, List.length_replicate, by simp [init], ?_⟩
  · show 1600 - n * 2 = 8 * R
    omega
  · rw [List.length_nil, Nat.zero_div, absorb, List.drop_nil]
    show bits (List.replicate 200 0#8) = xorBlock zero []
    rw [bits, ← List.nil_append (List.replicate 200 0#8), xorBlock_zeros]

theorem tail_length (R : ℕ) (m : List Byte) :
    (m.drop (R * (m.length / R))).length = m.length % R := by
  rw [List.length_drop]
  have := Nat.div_add_mod m.length R
  omega

/-- One more block. -/
theorem absorb_step {s : List Byte} {R : ℕ} {m d : List Byte} (hR : 0 < R) (hR' : R ≤ 200)
    (hs : s.length = 200)
    (hb : bits s = xorBlock (absorb R m (m.length / R)) (m.drop (R * (m.length / R))))
    (hd : m.length % R + d.length = R) :
    bits (permute (xorAt s (m.length % R) d)) = absorb R (m ++ d) (m.length / R + 1) := by
  have ht := tail_length R m
  have hx := bits_xorAt (d := d) hb (by omega)
  have hdm := Nat.div_add_mod m.length R
  rw [ht] at hx
  rw [permute_bits, hx, absorb, absorb_append _ _ (by omega), List.drop_append_of_le_length
    (by omega), List.take_of_length_le]
  rw [List.length_append, ht]; omega

theorem div_step {m d : List Byte} {R : ℕ} (hR : 0 < R) (hd : m.length % R + d.length = R) :
    (m ++ d).length / R = m.length / R + 1 ∧ (m ++ d).length % R = 0 := by
  have hdm := Nat.div_add_mod m.length R
  have e : (m ++ d).length = R * (m.length / R + 1) := by
    rw [List.length_append, Nat.mul_add]; omega
  rw [e]
  exact ⟨Nat.mul_div_cancel_left _ hR, Nat.mul_mod_right _ _⟩

theorem updateLoop_inv (fuel : ℕ) {st : HashState} {R : ℕ} {m data : List Byte} (h : Inv st R m)
    (hf : data.length < fuel) :
    ∃ d1, data = d1 ++ (updateLoop fuel st data).2 ∧
      Inv (updateLoop fuel st data).1 R (m ++ d1) ∧
      (m ++ d1).length % R + (updateLoop fuel st data).2.length < R := by
  induction fuel generalizing st m data with
  | zero => omega
  | succ fuel ih =>
    have hR := h.rpos
    have hmod : m.length % R < R := Nat.mod_lt _ hR
    rw [updateLoop]
    by_cases hc : st.statebitlen + 8 * data.length ≥ st.r
    · rw [if_pos hc]
      rw [h.r, h.bitlen] at hc
      have e1 : 8 * (m.length % R) / 8 = m.length % R := Nat.mul_div_cancel_left _ (by norm_num)
      have e2 : 8 * R / 8 = R := Nat.mul_div_cancel_left _ (by norm_num)
      have e3 : (8 * R - 8 * (m.length % R)) / 8 = R - m.length % R := by omega
      simp only [h.r, h.bitlen, e1, e2, e3]
      set c := R - m.length % R with hcd
      have hlt : (data.take c).length = c := by rw [List.length_take]; omega
      have hd : m.length % R + (data.take c).length = R := by omega
      obtain ⟨q1, q2⟩ := div_step hR hd
      have hinv : Inv { st with
          s := permute (xorAt st.s (m.length % R) (data.take c)), statebitlen := 0 } R
          (m ++ data.take c) := by
        refine ⟨hR, h.rle, h.r, permute_length _, by rw [q2], ?_⟩
        have hab := absorb_step hR h.rle h.len h.bits hd
        show bits (permute _) = _
        rw [q1, bits_eq_xorBlock_nil, hab, List.drop_of_length_le]
        have := Nat.div_add_mod (m ++ data.take c).length R
        rw [q1, q2] at this; omega
      obtain ⟨d1, g1, g2, g3⟩ := ih hinv (data := data.drop c) (by rw [List.length_drop]; omega)
      have hr : ({ st with
          s := permute (xorAt st.s (m.length % R) (data.take c)), statebitlen := 0 } : HashState) =
          { s := permute (xorAt st.s (m.length % R) (data.take c)), hashbitlen := st.hashbitlen,
            statebitlen := 0, r := 8 * R } := by rw [← h.r]
      rw [hr] at g1 g2 g3
      refine ⟨data.take c ++ d1, ?_, ?_, ?_⟩
      · rw [List.append_assoc, ← g1, List.take_append_drop]
      · rw [← List.append_assoc]; exact g2
      · rw [← List.append_assoc]; exact g3
    · rw [if_neg hc]
      rw [h.r, h.bitlen] at hc
      exact ⟨[], rfl, by rw [List.append_nil]; exact h, by rw [List.append_nil]; show _ + data.length < R; omega⟩

theorem update_inv {st : HashState} {R : ℕ} {m : List Byte} (h : Inv st R m) (data : List Byte) :
    Inv (update st data) R (m ++ data) := by
  obtain ⟨d1, g1, g2, g3⟩ := updateLoop_inv (data.length + 1) h (Nat.lt_succ_self _)
  rw [update]
  generalize updateLoop (data.length + 1) st data = p at g1 g2 g3
  obtain ⟨st', tmp⟩ := p
  simp only at g1 g2 g3 ⊢
  have hR := h.rpos
  have hle := h.rle
  have ht := tail_length R (m ++ d1)
  have hx := bits_xorAt (d := tmp) g2.bits (by rw [ht, g2.len]; omega)
  have e : m ++ data = (m ++ d1) ++ tmp := by rw [g1, List.append_assoc]
  have hdm := Nat.div_add_mod (m ++ d1).length R
  have hlen : (m ++ data).length = R * ((m ++ d1).length / R) +
      ((m ++ d1).length % R + tmp.length) := by rw [e, List.length_append]; omega
  have hdiv : (m ++ data).length / R = (m ++ d1).length / R := by
    rw [hlen, Nat.mul_add_div hR, Nat.div_eq_of_lt g3, Nat.add_zero]
  have hmod : (m ++ data).length % R = (m ++ d1).length % R + tmp.length := by
    rw [hlen, Nat.mul_add_mod, Nat.mod_eq_of_lt g3]
  refine ⟨hR, hle, g2.r, ?_, ?_, ?_⟩
  · show (xorAt _ _ _).length = 200
    rw [xorAt_length, g2.len]
  · show 8 * tmp.length + st'.statebitlen = _
    rw [g2.bitlen, hmod]; omega
  · show bits (xorAt st'.s (st'.statebitlen / 8) tmp) = _
    rw [g2.bitlen, Nat.mul_div_cancel_left _ (by norm_num), ← ht, hx, hdiv, e,
      absorb_append (m ++ d1) tmp (by omega),
      List.drop_append_of_le_length (l₁ := m ++ d1) (by omega)]

theorem updates_inv {st : HashState} {R : ℕ} {m : List Byte} (h : Inv st R m)
    (chunks : List (List Byte)) : Inv (chunks.foldl update st) R (m ++ chunks.flatten) := by
  induction chunks generalizing st m with
  | nil => simpa using h
  | cons c cs ih =>
    rw [List.foldl_cons, List.flatten_cons, ← List.append_assoc]
    exact ih (update_inv h c)

/-! ## Padding -/

theorem pad_length {R : ℕ} (hR : 0 < R) (sfx : Byte) (m : List Byte) :
    (pad R sfx m).length = R * (m.length / R + 1) := by
  have hm := Nat.mod_lt m.length hR
  have hdm := Nat.div_add_mod m.length R
  rw [pad]
  split
  · rw [List.length_append, Nat.mul_add]; simp; omega
  · simp only [List.length_append, List.length_replicate, List.length_cons, List.length_nil,
      Nat.mul_add]
    omega

theorem or_eq_xor : ∀ b : Byte, b &&& 0x80#8 = 0 → b ||| 0x80#8 = b ^^^ 0x80#8 := by decide +kernel

/-- The last block: the tail, the suffix, zeros, and the last bit. -/
theorem xorBlock_pad {R : ℕ} (hR : 0 < R) (sfx : Byte) (m : List Byte) (A : State) (s : List Byte)
    (hsfx : sfx &&& 0x80#8 = 0) (hs : s.length = 200) (hR' : R ≤ 200)
    (hb : bits s = xorBlock A (m.drop (R * (m.length / R)))) :
    bits (xorByte (xorByte s (m.length % R) sfx) (R - 1) 0x80#8) =
      xorBlock A ((pad R sfx m).drop (R * (m.length / R))) := by
  have hm := Nat.mod_lt m.length hR
  have ht := tail_length R m
  have hdm := Nat.div_add_mod m.length R
  set t := m.drop (R * (m.length / R)) with htd
  have h1 : bits (xorByte s (m.length % R) sfx) = xorBlock A (t ++ [sfx]) := by
    rw [xorByte_eq, ← ht]
    exact bits_xorAt hb (by simp; omega)
  have hl1 : (xorByte s (m.length % R) sfx).length = 200 := by rw [xorByte_eq, xorAt_length, hs]
  rw [pad]
  by_cases hq : R - m.length % R = 1
  · rw [if_pos hq, List.drop_append_of_le_length (by omega), ← htd]
    have e : R - 1 = m.length % R := by omega
    rw [e]
    have h2 : xorByte (xorByte s (m.length % R) sfx) (m.length % R) 0x80#8 =
        xorByte s (m.length % R) (sfx ||| 0x80#8) := by
      have hor : sfx ||| 0x80#8 = sfx ^^^ 0x80#8 := by
        exact or_eq_xor sfx hsfx
      rw [xorByte, xorByte, xorByte, List.set_set, getD_set _ (by omega), if_pos rfl, hor,
        BitVec.xor_assoc]
    rw [h2, xorByte_eq, ← ht]
    exact bits_xorAt hb (by simp; omega)
  · rw [if_neg hq]
    simp only [List.append_assoc]
    rw [List.drop_append_of_le_length (by omega), ← htd]
    rw [← xorBlock_zeros A (t ++ [sfx]) (R - m.length % R - 2)] at h1
    have hl : (t ++ [sfx] ++ List.replicate (R - m.length % R - 2) 0#8).length = R - 1 := by
      simp only [List.length_append, List.length_replicate, List.length_cons, List.length_nil, ht]
      omega
    have h3 := bits_xorAt (d := [0x80#8]) h1 (by rw [hl, hl1]; simp; omega)
    rw [hl] at h3
    rw [xorByte_eq _ (R - 1), h3]
    simp only [List.append_assoc]

/-- The state when the padded message is absorbed. -/
theorem final_bits {st : HashState} {R : ℕ} {m : List Byte} (h : Inv st R m) (sfx : Byte)
    (hsfx : sfx &&& 0x80#8 = 0) :
    bits (permute (xorByte (xorByte st.s (st.statebitlen / 8) sfx) (R - 1) 0x80#8)) =
      absorb R (pad R sfx m) ((pad R sfx m).length / R) := by
  have hR := h.rpos
  have hdm := Nat.div_add_mod m.length R
  have hp := xorBlock_pad hR sfx m _ st.s hsfx h.len h.rle h.bits
  have hpre : absorb R (pad R sfx m) (m.length / R) = absorb R m (m.length / R) := by
    rw [pad]
    split
    · rw [absorb_append _ _ (by omega)]
    · rw [List.append_assoc, List.append_assoc, absorb_append _ _ (by omega)]
  rw [h.bitlen, Nat.mul_div_cancel_left _ (by norm_num), permute_bits, hp, pad_length hR,
    Nat.mul_div_cancel_left _ hR, absorb, hpre, List.take_of_length_le]
  rw [List.length_drop, pad_length hR, Nat.mul_add]; omega

/-! ## Squeezing -/

theorem take_bits {s : List Byte} (hs : s.length = 200) {d : ℕ} (hd : d ≤ 200) :
    s.take d = (List.range d).map fun i => stateByte (bits s) i := by
  apply List.ext_getElem
  · simp [hs, hd]
  · intro i h1 h2
    rw [List.length_take] at h1
    rw [List.getElem_map, List.getElem_range, stateByte_bits _ (by omega), List.getElem_take,
      List.getD_eq_getElem _ _ (by omega)]

theorem squeezeLoop_eq (fuel : ℕ) {s : List Byte} (hs : s.length = 200) {R d : ℕ} (hR : 0 < R)
    (hR' : R ≤ 200) (hd : d ≤ fuel) :
    squeezeLoop fuel s R d =
      (List.range d).map fun i => stateByte (keccakF^[i / R] (bits s)) (i % R) := by
  induction fuel generalizing s d with
  | zero =>
    have : d = 0 := by omega
    subst this; rfl
  | succ fuel ih =>
    rw [squeezeLoop]
    by_cases h : d > R
    · rw [if_pos h, ih (permute_length s) (by omega), take_bits hs hR']
      conv_rhs => rw [show d = R + (d - R) by omega, List.range_add, List.map_append,
        List.map_map]
      congr 1
      · apply List.map_congr_left
        intro i hi
        rw [List.mem_range] at hi
        rw [Nat.div_eq_of_lt hi, Nat.mod_eq_of_lt hi]; rfl
      · apply List.map_congr_left
        intro i hi
        show _ = stateByte (keccakF^[(R + i) / R] (bits s)) ((R + i) % R)
        rw [Nat.add_div_left _ hR, Nat.add_mod_left, Function.iterate_succ_apply, permute_bits]
    · rw [if_neg h, take_bits hs (by omega)]
      apply List.map_congr_left
      intro i hi
      rw [List.mem_range] at hi
      by_cases hi' : i < R
      · rw [Nat.div_eq_of_lt hi', Nat.mod_eq_of_lt hi']; rfl
      · omega

/-- `Final2`: the output of the sponge with the suffix of SHAKE. -/
theorem final2_spec {st : HashState} {R : ℕ} {m : List Byte} (h : Inv st R m) (d : ℕ) :
    final2 st d = sponge R 0x1f#8 m d := by
  have e2 : 8 * R / 8 = R := Nat.mul_div_cancel_left _ (by norm_num)
  rw [final2]
  simp only [h.r, e2]
  rw [squeezeLoop_eq _ (permute_length _) h.rpos h.rle le_rfl, final_bits h _ (by decide)]
  rfl

/-- `Final`: a whole block of the output of the sponge with the suffix of SHA-3. -/
theorem final_spec {st : HashState} {R : ℕ} {m : List Byte} (h : Inv st R m) :
    final st = sponge R 0x06#8 m R := by
  have e2 : 8 * R / 8 = R := Nat.mul_div_cancel_left _ (by norm_num)
  rw [final]
  simp only [h.r, e2]
  rw [take_bits (permute_length _) h.rle, final_bits h _ (by decide)]
  apply List.map_congr_left
  intro i hi
  rw [List.mem_range] at hi
  rw [Nat.div_eq_of_lt hi, Nat.mod_eq_of_lt hi]; rfl

theorem sponge_take (R : ℕ) (sfx : Byte) (m : List Byte) {d d' : ℕ} (h : d ≤ d') :
    (sponge R sfx m d').take d = sponge R sfx m d := by
  rw [sponge, sponge]
  rw [← List.map_take, List.take_range, Nat.min_eq_left h]

theorem sponge_length (R : ℕ) (sfx : Byte) (m : List Byte) (d : ℕ) :
    (sponge R sfx m d).length = d := by simp [sponge]

/-! ## The one-call SHAKE functions -/

theorem shakeLoop_inv (fuel : ℕ) {R : ℕ} (hR : 0 < R) (hR' : R ≤ 200) (h8 : R % 8 = 0)
    {s m data : List Byte} (hs : s.length = 200) (hb : bits s = absorb R m (m.length / R))
    (hm : m.length % R = 0) (hf : data.length < fuel) :
    ∃ d1, data = d1 ++ (shakeLoop fuel s data R).2 ∧ (shakeLoop fuel s data R).1.length = 200 ∧
      bits (shakeLoop fuel s data R).1 = absorb R (m ++ d1) ((m ++ d1).length / R) ∧
      (m ++ d1).length % R = 0 ∧ (shakeLoop fuel s data R).2.length < R := by
  induction fuel generalizing s m data with
  | zero => omega
  | succ fuel ih =>
    rw [shakeLoop]
    have hdm := Nat.div_add_mod m.length R
    by_cases hc : data.length ≥ R
    · rw [if_pos hc]
      have hlt : (data.take R).length = R := by rw [List.length_take]; omega
      have hd : m.length % R + (data.take R).length = R := by omega
      obtain ⟨q1, q2⟩ := div_step hR hd
      have hnil : m.drop (R * (m.length / R)) = [] := List.drop_of_length_le (by omega)
      have hab := absorb_step hR hR' hs (by rw [hnil, ← hb, ← bits_eq_xorBlock_nil]) hd
      have hxw : xorWords s data (R / 8) = xorAt s (m.length % R) (data.take R) := by
        rw [xorWords, hm, show 8 * (R / 8) = R by omega]
      obtain ⟨d1, g1, g2, g3, g4, g5⟩ := ih (s := permute (xorWords s data (R / 8)))
        (m := m ++ data.take R) (data := data.drop R) (permute_length _) (by rw [hxw, hab, q1]) q2
        (by rw [List.length_drop]; omega)
      refine ⟨data.take R ++ d1, ?_, g2, ?_, ?_, g5⟩
      · rw [List.append_assoc, ← g1, List.take_append_drop]
      · rw [← List.append_assoc]; exact g3
      · rw [← List.append_assoc]; exact g4
    · rw [if_neg hc]
      exact ⟨[], rfl, hs, by rw [List.append_nil]; exact hb, by rw [List.append_nil]; exact hm,
        by show data.length < R; omega⟩

theorem padTemp_eq {R : ℕ} {t : List Byte} (ht : t.length < R) :
    padTemp t R = if R - t.length = 1 then t ++ [0x1f#8 ||| 0x80#8]
      else t ++ [0x1f#8] ++ List.replicate (R - t.length - 2) 0#8 ++ [0x80#8] := by
  rw [padTemp]
  split
  · rename_i hq
    have e : R - (t.length + 1) = 0 := by omega
    have e2 : R - 1 = t.length := by omega
    rw [e, List.replicate_zero, List.append_nil, e2, List.getD_append_right _ _ _ _ le_rfl,
      Nat.sub_self, List.set_append_right _ _ le_rfl, Nat.sub_self]
    rfl
  · rename_i hq
    have e : R - (t.length + 1) = (R - t.length - 2) + 1 := by omega
    have hl : (t ++ [0x1f#8] ++ List.replicate (R - t.length - 2) 0#8).length = R - 1 := by
      simp only [List.length_append, List.length_replicate, List.length_cons, List.length_nil]
      omega
    rw [e, List.replicate_succ', ← List.append_assoc, List.getD_append_right _ _ _ _ (by omega),
      List.set_append_right _ _ (by omega), hl, Nat.sub_self]
    rfl

theorem shakeCode_spec {R : ℕ} (hR : 0 < R) (hR' : R ≤ 200) (h8 : R % 8 = 0) (data : List Byte)
    (d : ℕ) : shakeCode R data d = sponge R 0x1f#8 data d := by
  obtain ⟨d1, g1, g2, g3, g4, g5⟩ := shakeLoop_inv (data.length + 1) hR hR' h8
    (s := List.replicate 200 0#8) (m := []) (data := data) List.length_replicate
    (by rw [bits_zero, List.length_nil, Nat.zero_div]; rfl) (by simp) (Nat.lt_succ_self _)
  rw [shakeCode]
  simp only
  generalize shakeLoop (data.length + 1) (List.replicate 200 0#8) data R = p at g1 g2 g3 g4 g5
  obtain ⟨s, tmp⟩ := p
  simp only at g1 g2 g3 g4 g5 ⊢
  rw [List.nil_append] at g3 g4
  rw [squeezeLoop_eq _ (permute_length _) hR hR' le_rfl, sponge]
  have hdm := Nat.div_add_mod d1.length R
  have hlen : data.length = R * (d1.length / R) + tmp.length := by
    rw [g1, List.length_append]; omega
  have hmod : data.length % R = tmp.length := by
    rw [hlen, Nat.mul_add_mod, Nat.mod_eq_of_lt g5]
  have hpad : pad R 0x1f#8 data = d1 ++ padTemp tmp R := by
    rw [pad, padTemp_eq g5]
    simp only [hmod]
    split
    · rw [g1, List.append_assoc]
    · rw [g1]; simp only [List.append_assoc]
  have hpl : (padTemp tmp R).length = R := by
    rw [padTemp_eq g5]
    split
    · simp; omega
    · simp only [List.length_append, List.length_replicate, List.length_cons, List.length_nil]
      omega
  have hd : d1.length % R + (padTemp tmp R).length = R := by omega
  obtain ⟨q1, q2⟩ := div_step hR hd
  have hnil : d1.drop (R * (d1.length / R)) = [] := List.drop_of_length_le (by omega)
  have hab := absorb_step hR hR' g2 (by rw [hnil, ← g3, ← bits_eq_xorBlock_nil]) hd
  have hxw : xorWords s (padTemp tmp R) (R / 8) = xorAt s (d1.length % R) (padTemp tmp R) := by
    rw [xorWords, g4, show 8 * (R / 8) = R by omega, List.take_of_length_le (by omega)]
  rw [hxw, hab, hpad, q1]

end Verif.Keccak
