import Verif.Sha512.Lemmas

/-! # SHA-512: streaming -/

namespace Verif.Sha512

theorem blockWord_congr {m m' : List Byte} {n : ℕ}
    (h : (m.drop (128 * n)).take 128 = (m'.drop (128 * n)).take 128) {t : ℕ} (ht : t < 16) :
    blockWord m n t = blockWord m' n t := by
  have e : ∀ l : List Byte, (l.drop (128 * n + 8 * t)).take 8 =
      ((((l.drop (128 * n)).take 128).drop (8 * t)).take 8) := by
    intro l
    rw [List.drop_take, List.take_take, List.drop_drop, Nat.min_eq_left (by omega)]
  rw [blockWord, blockWord, e, e, h]

theorem absorb_congr {m m' : List Byte} {n : ℕ} (h : m.take (128 * n) = m'.take (128 * n)) :
    absorb m n = absorb m' n := by
  induction n with
  | zero => rfl
  | succ n ih =>
    have h1 : m.take (128 * n) = m'.take (128 * n) := by
      have := congrArg (List.take (128 * n)) h
      rwa [List.take_take, List.take_take, Nat.min_eq_left (by omega)] at this
    have h2 : (m.drop (128 * n)).take 128 = (m'.drop (128 * n)).take 128 := by
      have := congrArg (List.drop (128 * n)) h
      rwa [List.drop_take, List.drop_take, show 128 * (n + 1) - 128 * n = 128 by omega] at this
    rw [absorb, absorb, ih h1, compress_congr fun t ht => blockWord_congr h2 ht]

theorem absorb_append (m d : List Byte) {n : ℕ} (h : 128 * n ≤ m.length) :
    absorb (m ++ d) n = absorb m n :=
  absorb_congr (List.take_append_of_le_length h)

/-- One more block. -/
theorem absorb_block {m blk : List Byte} {n : ℕ} (hb : blk.length = 128)
    (h : (m.drop (128 * n)).take 128 = blk) (r : Regs) (hr : r = absorb m n) :
    sha3_round blk r = absorb m (n + 1) := by
  rw [sha3_round_eq, absorb, hr]
  apply compress_congr
  intro t ht
  rw [dec64be_eq (by omega), blockWord, ← h, List.drop_take, List.take_take, List.drop_drop,
    Nat.min_eq_left (by omega)]

theorem blit_length {buf data : List Byte} {i : ℕ} (h : i + data.length ≤ buf.length) :
    (blit buf i data).length = buf.length := by
  simp only [blit, List.length_append, List.length_take, List.length_drop]; omega

theorem blit_take {buf data : List Byte} {i : ℕ} (h : i + data.length ≤ buf.length) :
    (blit buf i data).take (i + data.length) = buf.take i ++ data := by
  rw [blit, List.take_append_of_le_length]
  · rw [List.take_of_length_le]
    simp only [List.length_append, List.length_take]; omega
  · simp only [List.length_append, List.length_take]; omega

/-- The context after absorbing `m`. -/
structure Inv (sc : Ctx) (m : List Byte) : Prop where
  len : sc.buf.length = 128
  count : sc.count = BitVec.ofNat 64 m.length
  val : sc.val = absorb m (m.length / 128)
  buf : sc.buf.take (m.length % 128) = m.drop (128 * (m.length / 128))

theorem Inv.current {sc : Ctx} {m : List Byte} (h : Inv sc m) : sc.current = m.length % 128 := by
  rw [Ctx.current, h.count, BitVec.toNat_and, BitVec.toNat_setWidth, BitVec.toNat_ofNat]
  rw [show (127#32).toNat = 2 ^ 7 - 1 from rfl, Nat.and_two_pow_sub_one_eq_mod]
  omega

theorem count_add (a b : ℕ) : BitVec.ofNat 64 a + BitVec.ofNat 64 b = BitVec.ofNat 64 (a + b) := by
  apply BitVec.eq_of_toNat_eq; simp

theorem inv_init (sc : Ctx) (h : sc.buf.length = 128) : Inv (init sc) [] :=
  ⟨h, rfl, H512_eq, by simp⟩

theorem shortLoop_inv (fuel : ℕ) {sc : Ctx} {m data : List Byte} (h : Inv sc m)
    (hf : data.length ≤ fuel) : Inv (shortLoop fuel sc (m.length % 128) data) (m ++ data) := by
  induction fuel generalizing sc m data with
  | zero =>
    have : data = [] := List.eq_nil_of_length_eq_zero (by omega)
    subst this
    rw [List.append_nil]; exact h
  | succ fuel ih =>
    rw [shortLoop]
    by_cases hd : data.length = 0
    · have : data = [] := List.eq_nil_of_length_eq_zero hd
      rw [if_pos hd, this, List.append_nil]; exact h
    · rw [if_neg hd]
      have hcur : m.length % 128 < 128 := Nat.mod_lt _ (by norm_num)
      set clen := if 128 - m.length % 128 > data.length then data.length
        else 128 - m.length % 128 with hclen
      have hc1 : 0 < clen := by rw [hclen]; split <;> omega
      have hc2 : clen ≤ data.length := by rw [hclen]; split <;> omega
      have hc3 : m.length % 128 + clen ≤ 128 := by rw [hclen]; split <;> omega
      have hlt : (data.take clen).length = clen := by rw [List.length_take]; omega
      have hblen : (blit sc.buf (m.length % 128) (data.take clen)).length = 128 := by
        rw [blit_length (by rw [hlt, h.len]; exact hc3), h.len]
      have htake := blit_take (buf := sc.buf) (data := data.take clen) (i := m.length % 128)
        (by rw [hlt, h.len]; exact hc3)
      rw [hlt, h.buf] at htake
      have hml : (m ++ data.take clen).length = m.length + clen := by
        rw [List.length_append, hlt]
      have hdrop : (m ++ data.take clen).drop (128 * (m.length / 128)) =
          m.drop (128 * (m.length / 128)) ++ data.take clen := by
        rw [List.drop_append_of_le_length (by omega)]
      have key : m ++ data = (m ++ data.take clen) ++ data.drop clen := by
        rw [List.append_assoc, List.take_append_drop]
      rw [key]
      by_cases h128 : m.length % 128 + clen = 128
      · have hdiv : (m.length + clen) / 128 = m.length / 128 + 1 := by omega
        have hmod : (m.length + clen) % 128 = 0 := by omega
        have hI : Inv ⟨blit sc.buf (m.length % 128) (data.take clen),
            sha3_round (blit sc.buf (m.length % 128) (data.take clen)) sc.val,
            sc.count + BitVec.ofNat 64 clen⟩ (m ++ data.take clen) := by
          refine ⟨hblen, ?_, ?_, ?_⟩
          · rw [hml, ← count_add, h.count]
          · rw [hml, hdiv]
            apply absorb_block hblen
            · rw [hdrop, ← htake, h128, List.take_take, Nat.min_self,
                List.take_of_length_le (by rw [hblen])]
            · rw [absorb_append _ _ (by omega), h.val]
          · rw [hml, hmod, hdiv, List.take_zero, List.drop_of_length_le]
            rw [hml]; omega
        have := ih (data := data.drop clen) hI (by rw [List.length_drop]; omega)
        rw [hml, hmod] at this
        simp only [← hclen, h128, if_true]
        exact this
      · have hdiv : (m.length + clen) / 128 = m.length / 128 := by omega
        have hmod : (m.length + clen) % 128 = m.length % 128 + clen := by omega
        have hI : Inv ⟨blit sc.buf (m.length % 128) (data.take clen), sc.val,
            sc.count + BitVec.ofNat 64 clen⟩ (m ++ data.take clen) := by
          refine ⟨hblen, ?_, ?_, ?_⟩
          · rw [hml, ← count_add, h.count]
          · rw [hml, hdiv, absorb_append _ _ (by omega), h.val]
          · rw [hml, hmod, hdiv, hdrop, htake]
        have := ih (data := data.drop clen) hI (by rw [List.length_drop]; omega)
        rw [hml, hmod] at this
        simp only [← hclen, h128, if_false]
        exact this

theorem short_inv {sc : Ctx} {m : List Byte} (h : Inv sc m) (data : List Byte) :
    Inv (short sc data) (m ++ data) := by
  rw [short, h.current]; exact shortLoop_inv _ h le_rfl

theorem longLoop_eq (n : ℕ) {m data : List Byte} {k : ℕ} (hm : m.length = 128 * k) {v : Regs}
    (hv : v = absorb m k) (hd : 128 * n ≤ data.length) :
    longLoop n v data = (absorb (m ++ data) (k + n), data.drop (128 * n)) := by
  induction n generalizing m data k v with
  | zero => simp [longLoop, hv, absorb_append m data hm.ge]
  | succ n ih =>
    have hl : (data.take 128).length = 128 := by rw [List.length_take]; omega
    have hm' : (m ++ data.take 128).length = 128 * (k + 1) := by
      rw [List.length_append, hl, hm]; ring
    have hv' : sha3_round (data.take 128) v = absorb (m ++ data.take 128) (k + 1) := by
      apply absorb_block hl
      · rw [← hm, List.drop_left, List.take_take, Nat.min_self]
      · rw [absorb_append _ _ hm.ge, hv]
    rw [longLoop, ih hm' hv' (by rw [List.length_drop]; omega), List.append_assoc,
      List.take_append_drop, List.drop_drop, show 128 + 128 * n = 128 * (n + 1) by ring,
      show k + 1 + n = k + (n + 1) by ring]

theorem update_inv {sc : Ctx} {m : List Byte} (h : Inv sc m) (data : List Byte) :
    Inv (update sc data) (m ++ data) := by
  rw [update]
  by_cases hs : data.length < 2 * 128
  · rw [if_pos hs]; exact short_inv h data
  rw [if_neg hs]
  -- the part after the alignment to a block
  have main : ∀ (sc : Ctx) (m data : List Byte), Inv sc m → m.length % 128 = 0 →
      Inv (let orig_len := data.length
        let (val, data) := longLoop (data.length / 128) sc.val data
        let sc := { sc with val := val }
        let sc := if data.length > 0 then { sc with buf := blit sc.buf 0 data } else sc
        { sc with count := sc.count + BitVec.ofNat 64 orig_len }) (m ++ data) := by
    intro sc m data h h0
    have hm : m.length = 128 * (m.length / 128) := by omega
    have e := longLoop_eq (data.length / 128) hm h.val (data := data) (by omega)
    simp only [e]
    have hrest : (data.drop (128 * (data.length / 128))).length = data.length % 128 := by
      rw [List.length_drop]; omega
    have hml : (m ++ data).length = m.length + data.length := List.length_append
    have hdiv : (m.length + data.length) / 128 = m.length / 128 + data.length / 128 := by omega
    have hmod : (m.length + data.length) % 128 = data.length % 128 := by omega
    have hdrop : (m ++ data).drop (128 * (m.length / 128 + data.length / 128)) =
        data.drop (128 * (data.length / 128)) := by
      rw [Nat.mul_add, ← hm, List.drop_append, List.drop_of_length_le (by omega)]
      simp
    by_cases hz : (data.drop (128 * (data.length / 128))).length > 0
    · simp only [hz, if_true]
      refine ⟨?_, ?_, ?_, ?_⟩
      · rw [blit_length (by rw [hrest, h.len]; omega)]; exact h.len
      · rw [hml, ← count_add, h.count]
      · rw [hml, hdiv]
      · rw [hml, hmod, hdiv, hdrop]
        have := blit_take (buf := sc.buf) (data := data.drop (128 * (data.length / 128))) (i := 0)
          (by rw [hrest, h.len]; omega)
        rwa [hrest, Nat.zero_add, List.take_zero, List.nil_append] at this
    · simp only [hz, if_false]
      refine ⟨h.len, ?_, ?_, ?_⟩
      · rw [hml, ← count_add, h.count]
      · rw [hml, hdiv]
      · rw [hml, hmod, hdiv, hdrop]
        have h1 : data.length % 128 = 0 := by omega
        rw [h1, List.take_zero, List.eq_nil_of_length_eq_zero (by omega :
          (data.drop (128 * (data.length / 128))).length = 0)]
  simp only [h.current]
  by_cases hc : m.length % 128 > 0
  · simp only [hc, if_true]
    have hlt : (data.take (128 - m.length % 128)).length = 128 - m.length % 128 := by
      rw [List.length_take]; omega
    have := main _ _ (data.drop (128 - m.length % 128))
      (short_inv h (data.take (128 - m.length % 128))) (by rw [List.length_append, hlt]; omega)
    rw [List.append_assoc, List.take_append_drop] at this
    exact this
  · simp only [hc, if_false]
    exact main sc m data h (by omega)

/-! ## Padding -/

theorem leBytes_add (a b x : ℕ) : leBytes (a + b) x = leBytes a x ++ leBytes b (x / 256 ^ a) := by
  induction a generalizing x with
  | zero => simp [leBytes]
  | succ a ih =>
    rw [Nat.succ_add, leBytes, leBytes, ih, List.cons_append, Nat.div_div_eq_div_mul, pow_succ']

theorem leBytes_mod (n x : ℕ) : leBytes n (x % 256 ^ n) = leBytes n x := by
  apply leNat_inj (by simp)
  rw [leNat_leBytes, leNat_leBytes, Nat.mod_mod]

theorem length_field {L : ℕ} (h : L < 2 ^ 64) :
    enc64be (BitVec.ofNat 64 L >>> 61) ++ enc64be (BitVec.ofNat 64 L <<< 3) =
      beBytes 16 (8 * L) := by
  rw [enc64be_eq, enc64be_eq, beBytes, beBytes, beBytes, show 16 = 8 + 8 from rfl, leBytes_add,
    List.reverse_append]
  have h1 : (BitVec.ofNat 64 L >>> 61).toNat = 8 * L / 256 ^ 8 := by
    rw [BitVec.toNat_ushiftRight, BitVec.toNat_ofNat, Nat.mod_eq_of_lt h,
      Nat.shiftRight_eq_div_pow]
    norm_num; omega
  have h2 : (BitVec.ofNat 64 L <<< 3).toNat = 8 * L % 256 ^ 8 := by
    rw [BitVec.toNat_shiftLeft, BitVec.toNat_ofNat, Nat.mod_eq_of_lt h, Nat.shiftLeft_eq]
    norm_num; omega
  rw [h1, h2, leBytes_mod]

/-- The last two stores. -/
theorem last_block {buf p a b : List Byte} (hl : buf.length = 128) (hp : buf.take 112 = p)
    (ha : a.length = 8) (hb : b.length = 8) :
    blit (blit buf 112 a) (112 + 8) b = p ++ (a ++ b) := by
  have l1 : (blit buf 112 a).length = 128 := by rw [blit_length (by omega), hl]
  have l2 : (blit (blit buf 112 a) (112 + 8) b).length = 128 := by rw [blit_length (by omega), l1]
  have t1 := blit_take (buf := buf) (data := a) (i := 112) (by omega)
  have t2 := blit_take (buf := blit buf 112 a) (data := b) (i := 112 + 8) (by omega)
  rw [ha, hp] at t1
  rw [hb, t1, List.take_of_length_le (by omega)] at t2
  rw [t2, List.append_assoc]

theorem close_spec {sc : Ctx} {m : List Byte} (h : Inv sc m) (hm : m.length < 2 ^ 64) :
    (addbits_and_close sc).2 = sha512 m := by
  have hc : m.length % 128 < 128 := Nat.mod_lt _ (by norm_num)
  set c := m.length % 128 with hcd
  set n := m.length / 128 with hnd
  have htl : (m.drop (128 * n)).length = c := by rw [List.length_drop]; omega
  -- the byte 0x80
  set buf1 := blit sc.buf c [0x80#8] with hb1
  have l1 : buf1.length = 128 := by rw [hb1, blit_length (by simp [h.len]; omega), h.len]
  have t1 : buf1.take (c + 1) = m.drop (128 * n) ++ [0x80#8] := by
    have := blit_take (buf := sc.buf) (data := [0x80#8]) (i := c) (by simp [h.len]; omega)
    rw [h.buf] at this
    exact this
  have lf := length_field hm
  have l16 : (beBytes 16 (8 * m.length)).length = 16 := by simp [beBytes]
  have hdig : ∀ v : Regs, [v.a, v.b, v.c, v.d, v.e, v.f, v.g, v.h].flatMap enc64be = v.bytes := by
    intro v
    rw [Regs.bytes]
    congr 1
    funext w
    exact enc64be_eq w
  have he8 : ∀ w, (enc64be w).length = 8 := by intro w; simp [enc64be]
  rw [addbits_and_close]
  simp only [h.current, ← hcd, ← hb1, h.count, hdig]
  rw [sha512]
  refine congrArg Regs.bytes ?_
  by_cases hbig : c + 1 > 112
  · simp only [hbig, if_true]
    set buf2 := blit buf1 (c + 1) (List.replicate (128 - (c + 1)) 0#8) with hb2
    have l2 : buf2.length = 128 := by rw [hb2, blit_length (by simp [l1]; omega), l1]
    have t2 : buf2 = m.drop (128 * n) ++ [0x80#8] ++ List.replicate (128 - (c + 1)) 0#8 := by
      have := blit_take (buf := buf1) (data := List.replicate (128 - (c + 1)) 0#8) (i := c + 1)
        (by simp [l1]; omega)
      rw [List.length_replicate, List.take_of_length_le (by rw [← hb2]; omega), t1] at this
      exact this
    have t3 := blit_take (buf := buf2) (data := List.replicate 112 0#8) (i := 0) (by simp [l2])
    have l3 : (blit buf2 0 (List.replicate 112 0#8)).length = 128 := by
      rw [blit_length (by simp [l2]), l2]
    rw [List.length_replicate, Nat.zero_add, List.take_zero, List.nil_append] at t3
    rw [last_block l3 t3 (he8 _) (he8 _), lf]
    have hz : (128 - (m.length + 17) % 128) % 128 = (128 - (c + 1)) + 112 := by omega
    have hpad : pad m = m ++ [0x80#8] ++ List.replicate (128 - (c + 1)) 0#8 ++
        (List.replicate 112 0#8 ++ beBytes 16 (8 * m.length)) := by
      rw [pad, hz, List.replicate_add]
      simp only [List.append_assoc]
    have hpl : (pad m).length = 128 * (n + 2) := by
      rw [hpad]
      simp only [List.length_append, List.length_replicate, List.length_cons, List.length_nil, l16]
      omega
    rw [hpl, Nat.mul_div_cancel_left _ (by norm_num)]
    have hd1 : (pad m).drop (128 * n) = buf2 ++
        (List.replicate 112 0#8 ++ beBytes 16 (8 * m.length)) := by
      rw [hpad, t2]
      simp only [List.append_assoc]
      rw [List.drop_append_of_le_length (by omega)]
    have hd2 : (pad m).drop (128 * (n + 1)) =
        List.replicate 112 0#8 ++ beBytes 16 (8 * m.length) := by
      rw [Nat.mul_add, Nat.mul_one, ← List.drop_drop, hd1, ← l2, List.drop_left]
    apply absorb_block (by simp [l16])
    · rw [hd2, List.take_of_length_le (by simp [l16])]
    · apply absorb_block l2
      · rw [hd1, ← l2, List.take_left]
      · rw [h.val, pad, List.append_assoc, List.append_assoc, absorb_append _ _ (by omega)]
  · simp only [hbig, if_false]
    set buf2 := blit buf1 (c + 1) (List.replicate (112 - (c + 1)) 0#8) with hb2
    have l2 : buf2.length = 128 := by rw [hb2, blit_length (by simp [l1]; omega), l1]
    have t2 : buf2.take 112 =
        m.drop (128 * n) ++ [0x80#8] ++ List.replicate (112 - (c + 1)) 0#8 := by
      have := blit_take (buf := buf1) (data := List.replicate (112 - (c + 1)) 0#8) (i := c + 1)
        (by simp [l1]; omega)
      rw [List.length_replicate, t1, show c + 1 + (112 - (c + 1)) = 112 by omega] at this
      exact this
    rw [last_block l2 t2 (he8 _) (he8 _), lf]
    have hz : (128 - (m.length + 17) % 128) % 128 = 112 - (c + 1) := by omega
    have hpl : (pad m).length = 128 * (n + 1) := by
      rw [pad]
      simp only [List.length_append, List.length_replicate, List.length_cons, List.length_nil, l16]
      omega
    rw [hpl, Nat.mul_div_cancel_left _ (by norm_num)]
    apply absorb_block
    · simp only [List.length_append, List.length_replicate, List.length_cons, List.length_nil, l16,
        htl]
      omega
    · rw [pad, hz]
      simp only [List.append_assoc]
      rw [List.drop_append_of_le_length (by omega), List.take_of_length_le]
      simp only [List.length_append, List.length_replicate, List.length_cons, List.length_nil, l16,
        htl]
      omega
    · rw [h.val, pad, List.append_assoc, List.append_assoc, absorb_append _ _ (by omega)]

theorem blit_length' {buf : List Byte} {i : ℕ} {data : List Byte} (h : buf.length = 128)
    (hi : i + data.length ≤ 128) : (blit buf i data).length = 128 := by
  rw [blit_length (by omega), h]

theorem close_buf {sc : Ctx} (h : sc.buf.length = 128) : (close sc).1.buf.length = 128 := by
  have hc : sc.current < 128 := by
    rw [Ctx.current, BitVec.toNat_and, show (127#32).toNat = 2 ^ 7 - 1 from rfl,
      Nat.and_two_pow_sub_one_eq_mod]
    exact Nat.mod_lt _ (by norm_num)
  have he8 : ∀ w, (enc64be w).length = 8 := by intro w; simp [enc64be]
  have l1 : (blit sc.buf sc.current [0x80#8]).length = 128 := blit_length' h (by simp; omega)
  simp only [close, init, addbits_and_close]
  apply blit_length' _ (by simp [he8])
  apply blit_length' _ (by simp [he8])
  split
  · apply blit_length' _ (by simp)
    apply blit_length' l1
    rw [List.length_replicate]; omega
  · apply blit_length' l1
    rw [List.length_replicate]; omega

theorem updates_inv {sc : Ctx} {m : List Byte} (h : Inv sc m) (chunks : List (List Byte)) :
    Inv (chunks.foldl update sc) (m ++ chunks.flatten) := by
  induction chunks generalizing sc m with
  | nil => simpa using h
  | cons d ds ih =>
    rw [List.foldl_cons, List.flatten_cons, ← List.append_assoc]
    exact ih (update_inv h d)

end Verif.Sha512
