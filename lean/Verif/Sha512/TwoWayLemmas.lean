import Verif.Sha512.TwoWay
import Verif.Sha512.StreamLemmas
import Mathlib.Data.List.GetD

/-!
# Lemmas for the two-way SHA-512
-/

namespace Verif.Sha512.TwoWay

/-- One lane of a register. -/
def ln (j : Bool) (x : U) : W := if j then x.h else x.l

def R8.ln (j : Bool) (r : R8) : Regs :=
  ⟨TwoWay.ln j r.a, TwoWay.ln j r.b, TwoWay.ln j r.c, TwoWay.ln j r.d,
    TwoWay.ln j r.e, TwoWay.ln j r.f, TwoWay.ln j r.g, TwoWay.ln j r.h⟩

section lanes
variable (j : Bool) (x y : U) (k : ℕ)

theorem ln_AND : ln j (AND x y) = ln j x &&& ln j y := by cases j <;> rfl
theorem ln_ADD : ln j (ADD x y) = ln j x + ln j y := by cases j <;> rfl
theorem ln_XOR : ln j (XOR x y) = ln j x ^^^ ln j y := by cases j <;> rfl
theorem ln_OR : ln j (OR x y) = ln j x ||| ln j y := by cases j <;> rfl
theorem ln_SHL : ln j (SHL x k) = ln j x <<< k := by cases j <;> rfl
theorem ln_SHR : ln j (SHR x k) = ln j x >>> k := by cases j <;> rfl
theorem ln_SET1 (w : W) : ln j (SET1_64 w) = w := by cases j <;> rfl

end lanes

theorem rot (x : W) (n : ℕ) (h : n < 64) : x >>> n ||| x <<< (64 - n) = ROTR n x := by
  rw [ROTR, BitVec.rotateRight_def, Nat.mod_eq_of_lt h]

theorem rot' (x : W) (n : ℕ) (h : n < 64) : x <<< (64 - n) ||| x >>> n = ROTR n x := by
  rw [BitVec.or_comm, rot x n h]

theorem computeT1_ln (j : Bool) (e f g h : U) : ln j (computeT1 e f g h) =
    ln j h + Sigma1 (ln j e) + Ch (ln j e) (ln j f) (ln j g) := by
  simp only [computeT1, ln_AND, ln_ADD, ln_XOR, ln_OR, ln_SHL, ln_SHR]
  rw [rot _ 14 (by decide), rot _ 18 (by decide),
    rot _ 41 (by decide), ← CH_eq]
  rfl

theorem computeT2_ln (j : Bool) (a b c : U) : ln j (computeT2 a b c) =
    Sigma0 (ln j a) + Maj (ln j a) (ln j b) (ln j c) := by
  simp only [computeT2, ln_AND, ln_ADD, ln_XOR, ln_OR, ln_SHL, ln_SHR]
  rw [rot _ 28 (by decide), rot _ 34 (by decide),
    rot _ 39 (by decide)]
  have : ln j b &&& ln j c ||| ln j a &&& (ln j b ||| ln j c) =
      Maj (ln j a) (ln j b) (ln j c) := by
    unfold Maj
    apply BitVec.eq_of_getLsbD_eq
    intro i hi
    simp only [BitVec.getLsbD_xor, BitVec.getLsbD_and, BitVec.getLsbD_or]
    cases (ln j a).getLsbD i <;> cases (ln j b).getLsbD i <;> cases (ln j c).getLsbD i <;> rfl
  rw [this]
  rfl

theorem msg_schedule_ln (j : Bool) (w : List U) (i : ℕ) : ln j (msg_schedule w i) =
    sigma1 (ln j (w.getD (i - 2) ⟨0, 0⟩)) + ln j (w.getD (i - 7) ⟨0, 0⟩) +
      sigma0 (ln j (w.getD (i - 15) ⟨0, 0⟩)) + ln j (w.getD (i - 16) ⟨0, 0⟩) := by
  simp only [msg_schedule, ln_ADD, ln_XOR, ln_OR, ln_SHL, ln_SHR]
  rw [rot' _ 19 (by decide), rot' _ 61 (by decide),
    rot _ 1 (by decide), rot _ 8 (by decide), ← BitVec.add_assoc]
  rfl

theorem KSHA512_eq : KSHA512 = K512 := by decide +kernel

theorem round_ln (j : Bool) (block : List U) (v : R8) {i : ℕ} (hi : i < 80) :
    (round block v i).ln j = stepS (K i) (ln j (block.getD i ⟨0, 0⟩)) (v.ln j) := by
  have hT1 : ∀ a b c d e : W, a + b + c + (d + e) = a + b + c + d + e := by
    intro a b c d e; rw [BitVec.add_assoc (a + b + c)]
  simp only [round, R8.ln, stepS, ln_ADD, ln_SET1, computeT1_ln, computeT2_ln, KSHA512_eq,
    K512_getD hi, hT1]

theorem rounds_ln (j : Bool) (st : R8) (blk : List U) (M : ℕ → W) (hl : blk.length = 16)
    (hM : ∀ t < 16, ln j (blk.getD t ⟨0, 0⟩) = M t) (n : ℕ) (hn : n ≤ 80) :
    (rounds st blk n).2.length = max 16 n ∧
    (∀ t < max 16 n, ln j ((rounds st blk n).2.getD t ⟨0, 0⟩) = sched M t) ∧
    (rounds st blk n).1.ln j = steps M (st.ln j) n := by
  induction n with
  | zero =>
    refine ⟨hl, fun t ht => ?_, rfl⟩
    rw [sched_lt _ (by simpa using ht)]
    exact hM t (by simpa using ht)
  | succ n ih =>
    obtain ⟨h1, h2, h3⟩ := ih (by omega)
    rw [rounds]
    generalize rounds st blk n = r at h1 h2 h3
    obtain ⟨v, block⟩ := r
    simp only at h1 h2 h3 ⊢
    by_cases h16 : n < 16
    · simp only [h16, if_true]
      refine ⟨by omega, fun t ht => h2 t (by omega), ?_⟩
      rw [round_ln j _ _ (by omega), h3, h2 n (by omega), steps]
    · simp only [h16, if_false]
      have hlast : ∀ t < n + 1, ln j ((block ++ [msg_schedule block n]).getD t ⟨0, 0⟩) =
          sched M t := by
        intro t ht
        by_cases htn : t < n
        · rw [List.getD_append _ _ _ _ (by omega)]; exact h2 t (by omega)
        · have : t = n := by omega
          subst this
          rw [List.getD_append_right _ _ _ _ (by omega), h1, Nat.max_eq_right (by omega),
            Nat.sub_self, List.getD_cons_zero, msg_schedule_ln, h2 _ (by omega), h2 _ (by omega),
            h2 _ (by omega), h2 _ (by omega), sched_ge M (by omega : 16 ≤ t)]
      refine ⟨by simp only [List.length_append, List.length_cons, List.length_nil]; omega,
        fun t ht => hlast t (by omega), ?_⟩
      rw [round_ln j _ _ (by omega), h3, hlast n (by omega), steps]

theorem permutation_ln (j : Bool) (st : R8) (blk : List U) (M : ℕ → W) (hl : blk.length = 16)
    (hM : ∀ t < 16, ln j (blk.getD t ⟨0, 0⟩) = M t) :
    (sha512_permutation st blk).ln j = compress M (st.ln j) := by
  have h := (rounds_ln j st blk M hl hM 80 le_rfl).2.2
  rw [compress, ← h]
  simp only [sha512_permutation, R8.ln, ln_ADD, BitVec.add_comm]

theorem exists8 (w : W) : ∃ a b c d e f g h, wordBytes w = [a, b, c, d, e, f, g, h] :=
  ⟨_, _, _, _, _, _, _, _, rfl⟩

theorem SHUF8_be (x : U) : SHUF8 x big_endian = ⟨bswap64 x.l, bswap64 x.h⟩ := by
  have hb : bytes16 big_endian = [7#8, 6#8, 5#8, 4#8, 3#8, 2#8, 1#8, 0#8,
    15#8, 14#8, 13#8, 12#8, 11#8, 10#8, 9#8, 8#8] := by decide
  rw [SHUF8, hb, bytes16, bswap64, bswap64]
  obtain ⟨a0, a1, a2, a3, a4, a5, a6, a7, ha⟩ := exists8 x.l
  obtain ⟨b0, b1, b2, b3, b4, b5, b6, b7, hb⟩ := exists8 x.h
  rw [ha, hb]
  rfl

theorem getD_map16 {α : Type} (f : ℕ → α) (d : α) {i : ℕ} (h : i < 16) :
    ((List.range 16).map f).getD i d = f i := getD_map_range f d h

/-- The words of a block that reach the permutation. -/
theorem loaded_ln (j : Bool) (p0 p1 : List Byte) (u : ℕ) {t : ℕ} (ht : t < 16) :
    ln j ((transpose_msg (load_block p0 p1 u)).getD t ⟨0, 0⟩) =
      dec64be (if j then p1 else p0) (2 * u + t) := by
  rw [transpose_msg, getD_map16 _ _ ht]
  by_cases hp : t % 2 = 0
  · rw [if_pos hp, load_block, getD_map16 _ _ ht, getD_map16 _ _ (by omega), SHUF8_be, SHUF8_be,
      if_pos hp, if_neg (by omega)]
    cases j
    · show bswap64 (loadWord p0 (2 * (u + t / 2))) = bswap64 (loadWord p0 (2 * u + t))
      congr 2; omega
    · show bswap64 (loadWord p1 (2 * (u + (t + 1) / 2))) = bswap64 (loadWord p1 (2 * u + t))
      congr 2; omega
  · rw [if_neg hp, load_block, getD_map16 _ _ ht, getD_map16 _ _ (by omega), SHUF8_be, SHUF8_be,
      if_pos (by omega), if_neg hp]
    cases j
    · show bswap64 (loadWord p0 (2 * (u + (t - 1) / 2) + 1)) = bswap64 (loadWord p0 (2 * u + t))
      congr 2; omega
    · show bswap64 (loadWord p1 (2 * (u + t / 2) + 1)) = bswap64 (loadWord p1 (2 * u + t))
      congr 2; omega

theorem transpose_length (w : List U) : (transpose_msg w).length = 16 := by simp [transpose_msg]

/-- One block of a buffer of 128 bytes. -/
theorem absorb_buf (j : Bool) (st : R8) (p0 p1 : List Byte) {m : List Byte} {n : ℕ}
    (hl : (if j then p1 else p0).length = 128)
    (h : (m.drop (128 * n)).take 128 = if j then p1 else p0) (hst : st.ln j = absorb m n) :
    (sha512_permutation st (transpose_msg (load_block p0 p1 0))).ln j = absorb m (n + 1) := by
  rw [permutation_ln j _ _ _ (transpose_length _) (fun t ht => loaded_ln j p0 p1 0 ht), hst,
    ← absorb_block hl h _ rfl, sha3_round_eq]
  simp only [Nat.mul_zero, Nat.zero_add]

theorem blocks_ln (j : Bool) (m0 m1 : List Byte) (n : ℕ)
    (h : 128 * n ≤ (if j then m1 else m0).length) :
    (blocks m0 m1 n).ln j = absorb (if j then m1 else m0) n := by
  induction n with
  | zero =>
    have : init8.ln j = H512 := by cases j <;> rfl
    rw [blocks, this, H512_eq]; rfl
  | succ n ih =>
    rw [blocks, permutation_ln j _ _ _ (transpose_length _) (fun t ht => loaded_ln j m0 m1 _ ht),
      ih (by omega), absorb]
    apply compress_congr
    intro t ht
    rw [dec64be_eq (by omega), blockWord]
    congr 4; omega

theorem digests_fst (st : R8) : (digests st).1 = (st.ln false).bytes := by
  simp only [digests, Regs.bytes, List.flatMap_cons, List.flatMap_nil, List.append_nil, SHUF8_be,
    bytes16, ← enc64be_eq, enc64be, List.append_assoc]
  rfl

theorem digests_snd (st : R8) : (digests st).2 = (st.ln true).bytes := by
  simp only [digests, Regs.bytes, List.flatMap_cons, List.flatMap_nil, List.append_nil, SHUF8_be,
    bytes16, ← enc64be_eq, enc64be, List.append_assoc]
  rfl

theorem tailBuf_eq {m : List Byte} {n : ℕ} (h : (m.drop (128 * n)).length < 128) :
    tailBuf m n = m.drop (128 * n) ++ [0x80#8] ++
      List.replicate (127 - (m.drop (128 * n)).length) 0#8 := by
  unfold tailBuf
  generalize m.drop (128 * n) = t at h
  simp only [blit, List.take_zero, List.nil_append, Nat.zero_add, List.drop_replicate,
    List.length_cons, List.length_nil]
  rw [List.take_left' rfl, List.drop_append, List.drop_of_length_le (by omega), List.nil_append,
    List.drop_replicate]
  congr 2; omega

theorem lenBuf_eq {p b : List Byte} (hp : p.length = 112) (hb : b.length = 16) (x : ℕ) :
    lenBuf (p ++ b) x = p ++ beBytes 16 x := by
  rw [lenBuf, blit, List.take_left' hp, List.drop_of_length_le (by simp [hp, hb]), beBytes,
    List.append_nil]

/-- The state before the digests, one lane. -/
def final (m0 m1 : List Byte) : R8 :=
  let n := m0.length / 128
  let st := blocks m0 m1 n
  let bits := m0.length * 8
  if m0.length - n * 128 < 112 then
    sha512_permutation st (transpose_msg (load_block
      (lenBuf (tailBuf m0 n) bits) (lenBuf (tailBuf m1 n) bits) 0))
  else
    sha512_permutation
      (sha512_permutation st (transpose_msg (load_block (tailBuf m0 n) (tailBuf m1 n) 0)))
      (transpose_msg (load_block (lenBuf (blit (tailBuf m0 n) 0 (List.replicate 112 0#8)) bits)
        (lenBuf (blit (tailBuf m1 n) 0 (List.replicate 112 0#8)) bits) 0))

theorem sha512_2w_final (m0 m1 : List Byte) : sha512_2w m0 m1 = digests (final m0 m1) := by
  rw [sha512_2w, final]
  by_cases h : m0.length - m0.length / 128 * 128 < 112
  · simp only [h, if_true]
  · have h' : m0.length - m0.length / 128 * 128 < 128 := by omega
    simp only [h, h', if_true, if_false]

theorem final_ln (j : Bool) (m0 m1 : List Byte) (hl : m1.length = m0.length) :
    (final m0 m1).ln j = absorb (pad (if j then m1 else m0))
      ((pad (if j then m1 else m0)).length / 128) := by
  have hm : (if j then m1 else m0).length = m0.length := by cases j <;> simp [hl]
  have hit : ∀ f : List Byte → List Byte, (if j then f m1 else f m0) = f (if j then m1 else m0) :=
    fun f => by cases j <;> rfl
  set m := if j then m1 else m0 with hmd
  set n := m0.length / 128 with hn
  have htl : (m.drop (128 * n)).length = m0.length - 128 * n := by rw [List.length_drop, hm]
  have hst : (blocks m0 m1 n).ln j = absorb m n := blocks_ln j m0 m1 n (by rw [← hmd]; omega)
  have l16 : (beBytes 16 (8 * m.length)).length = 16 := by simp [beBytes]
  have hpre : absorb (pad m) n = absorb m n := by
    rw [pad, List.append_assoc, List.append_assoc, absorb_append _ _ (by omega)]
  have hdrop : ∀ x, (m ++ x).drop (128 * n) = m.drop (128 * n) ++ x :=
    fun x => List.drop_append_of_le_length (by omega)
  have htb := tailBuf_eq (m := m) (n := n) (by omega)
  have ltb : (tailBuf m n).length = 128 := by
    rw [htb]
    simp only [List.length_append, List.length_replicate, List.length_cons, List.length_nil, htl]
    omega
  have hbits : m0.length * 8 = 8 * m.length := by omega
  rw [final]
  simp only [← hn, hbits]
  by_cases h : m0.length - n * 128 < 112
  · simp only [h, if_true]
    have hz : (128 - (m.length + 17) % 128) % 128 = 111 - (m0.length - 128 * n) := by omega
    have hpl : (pad m).length = 128 * (n + 1) := by
      rw [pad]
      simp only [List.length_append, List.length_replicate, List.length_cons, List.length_nil, l16]
      omega
    have hblk : lenBuf (tailBuf m n) (8 * m.length) = (pad m).drop (128 * n) := by
      rw [htb, show 127 - (m.drop (128 * n)).length = (111 - (m0.length - 128 * n)) + 16 by omega,
        List.replicate_add, ← List.append_assoc, lenBuf_eq _ (by simp), pad, hz]
      · simp only [List.append_assoc, hdrop]
      · simp only [List.length_append, List.length_replicate, List.length_cons, List.length_nil,
          htl]
        omega
    rw [hpl, Nat.mul_div_cancel_left _ (by norm_num)]
    apply absorb_buf
    · rw [hit (fun m => lenBuf (tailBuf m n) _), hblk, List.length_drop, hpl]; omega
    · rw [hit (fun m => lenBuf (tailBuf m n) _), hblk, List.take_of_length_le]
      rw [List.length_drop, hpl]; omega
    · rw [hst, hpre]
  · simp only [h, if_false]
    have hz : (128 - (m.length + 17) % 128) % 128 = (127 - (m.drop (128 * n)).length) + 112 := by
      omega
    have hpl : (pad m).length = 128 * (n + 2) := by
      rw [pad]
      simp only [List.length_append, List.length_replicate, List.length_cons, List.length_nil, l16]
      omega
    have hd1 : (pad m).drop (128 * n) = tailBuf m n ++
        (List.replicate 112 0#8 ++ beBytes 16 (8 * m.length)) := by
      rw [pad, hz, List.replicate_add, htb]
      simp only [List.append_assoc, hdrop]
    have hd2 : (pad m).drop (128 * (n + 1)) =
        List.replicate 112 0#8 ++ beBytes 16 (8 * m.length) := by
      rw [Nat.mul_add, Nat.mul_one, ← List.drop_drop, hd1, ← ltb, List.drop_left]
    have hlast : lenBuf (blit (tailBuf m n) 0 (List.replicate 112 0#8)) (8 * m.length) =
        List.replicate 112 0#8 ++ beBytes 16 (8 * m.length) := by
      rw [blit, List.take_zero, List.nil_append, lenBuf_eq (by simp)]
      rw [List.length_drop, List.length_replicate, ltb]
    rw [hpl, Nat.mul_div_cancel_left _ (by norm_num)]
    apply absorb_buf
    · rw [hit (fun m => lenBuf (blit (tailBuf m n) 0 (List.replicate 112 0#8)) _), hlast]
      simp [l16]
    · rw [hit (fun m => lenBuf (blit (tailBuf m n) 0 (List.replicate 112 0#8)) _), hlast,
        hd2, List.take_of_length_le (by simp [l16])]
    · apply absorb_buf
      · rw [hit (fun m => tailBuf m n), ltb]
      · rw [hit (fun m => tailBuf m n), hd1, ← ltb, List.take_left]
      · rw [hst, hpre]

/-- Two-way SHA-512 is SHA-512 in each lane. -/
theorem sha512_2w_spec (m0 m1 : List Byte) (hl : m1.length = m0.length) :
    sha512_2w m0 m1 = (sha512 m0, sha512 m1) := by
  rw [sha512_2w_final]
  have h0 := final_ln false m0 m1 hl
  have h1 := final_ln true m0 m1 hl
  simp only [Bool.false_eq_true, if_false] at h0
  simp only [if_true] at h1
  rw [← Prod.mk.eta (p := digests (final m0 m1)), digests_fst, digests_snd, h0, h1]
  rfl

theorem block_256b_eq (p0 p1 : List Byte) : block_256b p0 p1 =
    [unpacklo (SHUF8 (LOAD p0 0) big_endian) (SHUF8 (LOAD p1 0) big_endian),
     unpackhi (SHUF8 (LOAD p0 0) big_endian) (SHUF8 (LOAD p1 0) big_endian),
     unpacklo (SHUF8 (LOAD p0 1) big_endian) (SHUF8 (LOAD p1 1) big_endian),
     unpackhi (SHUF8 (LOAD p0 1) big_endian) (SHUF8 (LOAD p1 1) big_endian),
     SET1_64 0x8000000000000000#64, ⟨0, 0⟩, ⟨0, 0⟩, ⟨0, 0⟩, ⟨0, 0⟩, ⟨0, 0⟩, ⟨0, 0⟩, ⟨0, 0⟩, ⟨0, 0⟩,
     ⟨0, 0⟩, ⟨0, 0⟩, SET1_64 256#64] := rfl

theorem pad32 {m : List Byte} (h : m.length = 32) :
    pad m = m ++ (0x80#8 :: (List.replicate 93 0#8 ++ [1#8, 0#8])) := by
  rw [pad, h]
  simp only [List.append_assoc]
  refine congrArg (m ++ ·) ?_
  decide +kernel

theorem block_256b_ln (j : Bool) (p0 p1 : List Byte) (h : 32 ≤ (if j then p1 else p0).length)
    {t : ℕ} (ht : t < 16) : ln j ((block_256b p0 p1).getD t ⟨0, 0⟩) =
      blockWord (pad ((if j then p1 else p0).take 32)) 0 t := by
  set p := if j then p1 else p0 with hp
  have hl : (p.take 32).length = 32 := by rw [List.length_take]; omega
  rw [blockWord, pad32 hl, Nat.mul_zero, Nat.zero_add]
  by_cases h4 : t < 4
  · have : ln j ((block_256b p0 p1).getD t ⟨0, 0⟩) = dec64be p t := by
      have e : (block_256b p0 p1).getD t ⟨0, 0⟩ =
          (transpose_msg (load_block p0 p1 0)).getD t ⟨0, 0⟩ := by
        rw [block_256b_eq, transpose_msg, getD_map16 _ _ ht, load_block]
        obtain rfl | rfl | rfl | rfl : t = 0 ∨ t = 1 ∨ t = 2 ∨ t = 3 := by omega
        · rw [if_pos rfl, getD_map16 _ _ (by decide), getD_map16 _ _ (by decide)]
          simp
        · rw [if_neg (by decide), getD_map16 _ _ (by decide), getD_map16 _ _ (by decide)]
          simp
        · rw [if_pos rfl, getD_map16 _ _ (by decide), getD_map16 _ _ (by decide)]
          simp
        · rw [if_neg (by decide), getD_map16 _ _ (by decide), getD_map16 _ _ (by decide)]
          simp
      rw [e, loaded_ln j p0 p1 0 ht, Nat.mul_zero, Nat.zero_add]
    rw [this, dec64be_eq (by omega)]
    congr 2
    rw [List.drop_append_of_le_length (by omega), List.take_append_of_le_length
      (by rw [List.length_drop]; omega), List.drop_take, List.take_take,
      Nat.min_eq_left (by omega)]
  · rw [List.drop_append, List.drop_of_length_le (by omega), List.nil_append, hl, block_256b_eq]
    obtain rfl | rfl | rfl | rfl | rfl | rfl | rfl | rfl | rfl | rfl | rfl | rfl : t = 4 ∨ t = 5 ∨
      t = 6 ∨ t = 7 ∨ t = 8 ∨ t = 9 ∨ t = 10 ∨ t = 11 ∨ t = 12 ∨ t = 13 ∨ t = 14 ∨ t = 15 := by
      omega
    all_goals (cases j <;> with_unfolding_all rfl)

theorem sha512_2w_256b_spec (m0 m1 : List Byte) (h0 : 128 ≤ m0.length) (h1 : 128 ≤ m1.length) :
    sha512_2w_256b m0 m1 = some (sha512 (m0.take 32), sha512 (m1.take 32)) := by
  have hall : ((List.range 8).all fun i =>
      decide (16 * (i + 1) ≤ m0.length ∧ 16 * (i + 1) ≤ m1.length)) = true := by
    rw [List.all_eq_true]
    intro i hi
    rw [List.mem_range] at hi
    exact decide_eq_true ⟨by omega, by omega⟩
  have hln : ∀ j : Bool, (sha512_permutation init8 (block_256b m0 m1)).ln j =
      absorb (pad ((if j then m1 else m0).take 32)) 1 := by
    intro j
    have hj : 32 ≤ (if j then m1 else m0).length := by cases j <;> simp <;> omega
    have hi : init8.ln j = H512 := by cases j <;> rfl
    rw [permutation_ln j _ _ _ (by rw [block_256b_eq]; rfl)
      (fun t ht => block_256b_ln j m0 m1 hj ht), hi, H512_eq]
    rfl
  have hlen : ∀ m : List Byte, 128 ≤ m.length → (pad (m.take 32)).length / 128 = 1 := by
    intro m hm
    have hl : (m.take 32).length = 32 := by rw [List.length_take]; omega
    rw [pad32 hl]
    simp [hl]
  rw [sha512_2w_256b, if_pos hall, ← Prod.mk.eta (p := digests _), digests_fst, digests_snd,
    hln false, hln true, sha512, sha512, hlen m0 h0, hlen m1 h1]
  rfl

end Verif.Sha512.TwoWay
