import Verif.Vec.SignMem
import Verif.Vec.KeygenMemLemmas
import Verif.Ed25519.EddsaLemmas
import Verif.Props.Ed448Scalar

/-!
# Lemmas about signing on memory -/

namespace Verif.Vec

set_option exponentiation.threshold 2000

@[simp] theorem put_arr (s : SignSt) (k : ℕ) (a : ℕ → Byte) : (s.put k a).arr k = a := by
  simp [SignSt.put]

theorem put_arr_ne (s : SignSt) {k k' : ℕ} (a : ℕ → Byte) (h : k' ≠ k) :
    (s.put k a).arr k' = s.arr k' := by
  simp [SignSt.put, h]

@[simp] theorem put_caller (s : SignSt) (k : ℕ) (a : ℕ → Byte) :
    (s.put k a).caller = s.caller := rfl

@[simp] theorem put_loc (s : SignSt) (k : ℕ) (a : ℕ → Byte) : (s.put k a).loc = s.loc := rfl

theorem bytesAt_upd (a : ℕ → Byte) (i n : ℕ) (f : Byte → Byte) :
    bytesAt (upd a i f) 0 n = (bytesAt a 0 n).modify i f := by
  refine List.ext_getElem (by simp [bytesAt]) fun j h1 h2 => ?_
  simp only [bytesAt, List.getElem_map, List.getElem_range, upd, List.getElem_modify, Nat.zero_add]
  by_cases h : j = i
  · subst h; simp
  · rw [if_neg h, if_neg (Ne.symm h)]

theorem bytesAt_take (a : ℕ → Byte) (p n k : ℕ) (h : k ≤ n) :
    (bytesAt a p n).take k = bytesAt a p k := by
  refine List.ext_getElem (by simp [bytesAt, h]) fun j h1 h2 => ?_
  simp [bytesAt]

theorem bytesAt_drop (a : ℕ → Byte) (p n k : ℕ) :
    (bytesAt a p n).drop k = bytesAt a (p + k) (n - k) := by
  refine List.ext_getElem (by simp [bytesAt]) fun j h1 h2 => ?_
  simp [bytesAt, Nat.add_assoc]

theorem bytesAt_clamp25519 (a : ℕ → Byte) :
    bytesAt (clamp25519 a) 0 64 = Ed25519.clampDigest (bytesAt a 0 64) := by
  simp only [clamp25519, bytesAt_upd, Ed25519.clampDigest]

theorem bytesAt_clamp448 (a : ℕ → Byte) :
    bytesAt (clamp448 a) 0 114 = Ed448.clampDigest (bytesAt a 0 114) := by
  simp only [clamp448, bytesAt_upd, Ed448.clampDigest]
  rw [List.set_eq_modify]

theorem bytes8_length (a : Fp25519.F8) : (bytes8 a).length = 64 := by
  simp [bytes8, Ed25519.F8.lowBytes]

theorem bytes8_take (a : Fp25519.F8) : (bytes8 a).take 32 = Ed25519.F8.lowBytes a := by
  rw [bytes8, List.take_append_of_le_length (by simp [Ed25519.F8.lowBytes]),
    List.take_of_length_le (by simp [Ed25519.F8.lowBytes])]

theorem bytesAt_bytes8 (a : ℕ → Byte) (x : Fp25519.F8) :
    bytesAt (storeAt a 0 (bytes8 x)) 0 32 = Ed25519.F8.lowBytes x := by
  rw [← bytesAt_take _ _ 64 _ (by decide), bytesAt_storeAt (bytes8_length x), bytes8_take]

theorem bytesAt_reduce25519 (a : ℕ → Byte) :
    bytesAt (reduce25519 a) 0 32 = Ed25519.reduceBytes (bytesAt a 0 64) := bytesAt_bytes8 _ _

theorem bytesAt_reduce448 (u13 u14 : W) (a : ℕ → Byte) :
    bytesAt (reduce448 u13 u14 a) 0 114 = Ed448.modular_reduction u13 u14 (bytesAt a 0 114) := by
  obtain ⟨lo, e, hl, -⟩ := Ed448.modular_reduction_val u13 u14 _ (length_bytesAt a 0 114)
  exact bytesAt_storeAt (by rw [e]; simp [hl])

theorem loadWord_store_other (a : ℕ → Byte) (l : List Byte) (i : ℕ) (hl : l.length = 8)
    (hi : i < 8) (h : i ≠ 4) :
    loadWord (bytesAt (storeAt a 32 l) 0 64) i = loadWord (bytesAt a 0 64) i := by
  rw [loadWord, loadWord, bytesAt_drop, bytesAt_drop, bytesAt_take _ _ _ _ (by omega),
    bytesAt_take _ _ _ _ (by omega)]
  congr 2
  exact bytesAt_congr fun j hj => storeAt_other (by omega)

theorem loadWord_store_self (a : ℕ → Byte) (w : W) :
    loadWord (bytesAt (storeAt a 32 (wordBytes w)) 0 64) 4 = w := by
  rw [loadWord, bytesAt_drop, bytesAt_take _ _ _ _ (by omega)]
  rw [show 0 + 8 * 4 = 32 from rfl, bytesAt_storeAt (wordBytes_length w), wordBytes, leNat_leBytes,
    Nat.mod_eq_of_lt (by have := w.isLt; omega), BitVec.ofNat_toNat, BitVec.setWidth_eq]

/-- The scalar of key generation. -/
theorem keygen_arr (az : ℕ → Byte) :
    let b := clamp25519 az
    let c := storeAt b 32 (wordBytes ((b 31 >>> 4).setWidth 64))
    Ed25519.F8.lowBytes (Ed25519.reduce64bits
      (Ed25519.F8.ofBytes (bytesAt (upd c 31 (· &&& 15#8)) 0 64)))
      = Ed25519.keygenScalar (bytesAt az 0 64) := by
  intro b c
  have hb : bytesAt b 0 64 = Ed25519.clampDigest (bytesAt az 0 64) := bytesAt_clamp25519 az
  have e31 : (Ed25519.clampDigest (bytesAt az 0 64)).getD 31 0#8 = b 31 := by
    rw [← hb]; rfl
  have hc : upd c 31 (· &&& 15#8)
      = storeAt (upd b 31 (· &&& 15#8)) 32 (wordBytes ((b 31 >>> 4).setWidth 64)) := by
    funext j
    simp only [upd, c, storeAt, wordBytes_length]
    by_cases h : j = 31
    · subst h; simp
    · simp [h]
  have key : Ed25519.F8.ofBytes (bytesAt (upd c 31 (· &&& 15#8)) 0 64) =
      { Ed25519.F8.ofBytes (bytesAt (upd b 31 (· &&& 15#8)) 0 64) with
        w4 := (b 31 >>> 4).setWidth 64 } := by
    rw [hc]
    generalize upd b 31 (· &&& 15#8) = x
    generalize ((b 31 >>> 4).setWidth 64 : W) = w
    rw [Ed25519.F8.ofBytes, loadWord_store_self,
      loadWord_store_other _ _ 0 (by simp) (by decide) (by decide),
      loadWord_store_other _ _ 1 (by simp) (by decide) (by decide),
      loadWord_store_other _ _ 2 (by simp) (by decide) (by decide),
      loadWord_store_other _ _ 3 (by simp) (by decide) (by decide),
      loadWord_store_other _ _ 5 (by simp) (by decide) (by decide),
      loadWord_store_other _ _ 6 (by simp) (by decide) (by decide),
      loadWord_store_other _ _ 7 (by simp) (by decide) (by decide)]
    rfl
  rw [key, bytesAt_upd, hb, ← e31]
  rfl

/-! ## Ed25519 -/

theorem keygenEd25519_spec {H : List Byte → List Byte} (hH : ∀ x, (H x).length = 64)
    (isa : Fp25519.Isa) (ρ : ℕ → Regs) (public_key private_key : ℕ) (s : SignSt) :
    let t := keygenEd25519 H isa ρ public_key private_key s
    let k := Ed25519.keygenScalar (H (bytesAt s.caller private_key 32))
    (t.1, t.2.caller) = Ed25519.keygenMem H isa s.caller public_key private_key ∧
      bytesAt (t.2.arr 0) 0 32 = k ∧
      ∀ n < 64, wordAt t.2.loc 3 n = Ed25519.list_digits k n ∧
        wordAt t.2.loc 4 n = Ed25519.list_signs k n := by
  delta keygenEd25519
  extract_lets s1 s2 s3 s4 s5 s6 t k
  have h5 : bytesAt (s5.arr 0) 0 32 = k := by
    simp only [s5, s4, s3, s2, s1, put_arr]
    rw [bytesAt_bytes8, keygen_arr, bytesAt_storeAt (hH _)]
  have c5 : s5.caller = s.caller := rfl
  clear_value s5
  obtain ⟨x6, -, d6⟩ := mult25519_spec ρ 1 (0, 0) (by decide) (bytesAt (s5.arr 0) 0 32) s5.loc
  have e6 : s6 = ⟨s5.caller, s5.arr, mult25519 ρ 1 (0, 0) (bytesAt (s5.arr 0) 0 32) s5.loc⟩ := rfl
  generalize mult25519 ρ 1 (0, 0) (bytesAt (s5.arr 0) 0 32) s5.loc = m6 at x6 d6 e6
  clear_value s6
  subst e6
  rw [h5] at x6 d6
  refine ⟨?_, h5, d6⟩
  change (_, storeAt s5.caller public_key (Ed25519.point_encoding isa (p2w.at m6 (0, 0)))) = _
  rw [x6, c5]
  rfl

theorem signEd25519_ok {H : List Byte → List Byte} (hH : ∀ x, (H x).length = 64)
    (isa : Fp25519.Isa) (ρ : ℕ → Regs)
    (signature message mlen context clen public_key private_key : ℕ) (pure ph : Byte) (s : SignSt)
    (hc : ¬(pure = 0 ∧ clen > 255)) (hp : ph = 1 ∨ ph = 0) :
    let t := signEd25519 H isa ρ signature message mlen context clen public_key private_key pure ph s
    let ah := Ed25519.clampDigest (H (bytesAt s.caller private_key 32))
    let r := Ed25519.reduceBytes (H (Ed25519.domBytes (bytesAt s.caller context clen) pure ph ++
      ah.drop 32 ++ if ph = 1 then H (bytesAt s.caller message mlen) else
        bytesAt s.caller message mlen))
    (t.1, t.2.caller) = Ed25519.sign_allMem H isa s.caller signature message mlen context clen
        public_key private_key pure ph ∧
      t.1 = .SIGNATURE_OK ∧ bytesAt (t.2.arr 2) 0 64 = ah ∧ bytesAt (t.2.arr 1) 0 32 = r ∧
      ∀ n < 64, wordAt t.2.loc 3 n = Ed25519.list_digits r n ∧
        wordAt t.2.loc 4 n = Ed25519.list_signs r n := by
  delta signEd25519
  rw [if_neg hc]
  extract_lets s1 s2 s3 dom msg s4 s5 s6 s7 s8 s9 t ah r
  have hp' : ¬(ph ≠ 1 ∧ ph ≠ 0) := by rcases hp with h | h <;> simp [h]
  have et : t = (.SIGNATURE_OK, { s9 with
    caller := storeAt s9.caller (signature + 32) (Ed25519.calculate_s (bytesAt (s9.arr 1) 0 32)
      (bytesAt (s9.arr 0) 0 32) (bytesAt (s9.arr 2) 0 32)) }) := if_neg hp'
  clear_value t
  subst et
  have ha2 : bytesAt (s2.arr 2) 0 64 = ah := by
    simp only [s2, s1, put_arr]
    rw [bytesAt_clamp25519, bytesAt_storeAt (hH _)]
  have hc2 : s2.caller = s.caller := rfl
  clear_value s2
  have ha3 : bytesAt (s3.arr 2) 0 64 = ah := by
    simp only [s3]
    split
    · rw [put_arr_ne _ _ (by decide), ha2]
    · exact ha2
  have hc3 : s3.caller = s.caller := by
    simp only [s3]
    split
    · exact hc2
    · exact hc2
  have hm3 : ph = 1 → bytesAt (s3.arr 3) 0 64 = H (bytesAt s.caller message mlen) := fun h => by
    simp only [s3]
    rw [if_pos h, put_arr, bytesAt_storeAt (hH _), hc2]
  clear_value s3
  have hmsg : ∀ s' : SignSt, s'.arr 3 = s3.arr 3 → msg s' =
      if ph = 1 then H (bytesAt s.caller message mlen) else bytesAt s'.caller message mlen :=
    fun s' h => by
      simp only [msg]
      by_cases h1 : ph = 1
      · rw [if_pos h1, if_pos h1, h, hm3 h1]
      · rw [if_neg h1, if_neg h1]
  have hr5 : bytesAt (s5.arr 1) 0 32 = r := by
    simp only [s5, s4, put_arr]
    rw [bytesAt_reduce25519, bytesAt_storeAt (hH _), hmsg s3 rfl, hc3]
    simp only [dom, r]
    rw [hc3, ← ha3, bytesAt_drop]
  have ha5 : s5.arr 2 = s3.arr 2 := by
    simp only [s5, s4]
    rw [put_arr_ne _ _ (by decide), put_arr_ne _ _ (by decide)]
  have hp5 : s5.arr 3 = s3.arr 3 := by
    simp only [s5, s4]
    rw [put_arr_ne _ _ (by decide), put_arr_ne _ _ (by decide)]
  have hc5 : s5.caller = s.caller := by simp only [s5, s4, put_caller]; exact hc3
  clear_value s5
  obtain ⟨x6, -, d6⟩ := mult25519_spec ρ 1 (0, 0) (by decide) (bytesAt (s5.arr 1) 0 32) s5.loc
  have e6 : s6 = ⟨s5.caller, s5.arr, mult25519 ρ 1 (0, 0) (bytesAt (s5.arr 1) 0 32) s5.loc⟩ := rfl
  generalize mult25519 ρ 1 (0, 0) (bytesAt (s5.arr 1) 0 32) s5.loc = m6 at x6 d6 e6
  clear_value s6
  subst e6
  rw [hr5] at x6 d6
  have hc7 : s7.caller = storeAt s.caller signature
      (Ed25519.point_encoding isa (Ed25519.point_multiplication r)) := by
    simp only [s7]; rw [x6, hc5]
  have h7 : s7.arr = s5.arr := rfl
  have l7 : s7.loc = m6 := rfl
  clear_value s7
  have hk9 : bytesAt (s9.arr 0) 0 32 = Ed25519.reduceBytes (H (dom s7 ++
      bytesAt s7.caller signature 32 ++ bytesAt s7.caller public_key 32 ++ msg s7)) := by
    simp only [s9, s8, put_arr]
    rw [bytesAt_reduce25519, bytesAt_storeAt (hH _)]
  have h9 : ∀ k, k ≠ 0 → s9.arr k = s5.arr k := fun k h => by
    simp only [s9, s8]
    rw [put_arr_ne _ _ h, put_arr_ne _ _ h, h7]
  have hc9 : s9.caller = s7.caller := rfl
  have l9 : s9.loc = m6 := l7
  clear_value s9
  refine ⟨?_, rfl, ?_, ?_, ?_⟩
  · simp only
    rw [hk9, h9 1 (by decide), h9 2 (by decide), hr5, ha5, ← bytesAt_take (s3.arr 2) 0 64 32 (by decide), ha3,
      hc9, hmsg s7 (by rw [h7, hp5])]
    simp only [dom]
    rw [hc7, Ed25519.sign_allMem, if_neg hc]
    rcases hp with h | h
    · subst h; rfl
    · subst h; rfl
  · simp only
    rw [h9 2 (by decide), ha5, ha3]
  · simp only
    rw [h9 1 (by decide), hr5]
  · simp only
    rw [l9]
    exact d6

theorem signEd25519_long (H : List Byte → List Byte) (isa : Fp25519.Isa) (ρ : ℕ → Regs)
    (signature message mlen context clen public_key private_key : ℕ) (pure ph : Byte) (s : SignSt)
    (hc : pure = 0 ∧ clen > 255) :
    signEd25519 H isa ρ signature message mlen context clen public_key private_key pure ph s =
        (.ERROR_CONTEXT, s) ∧
      Ed25519.sign_allMem H isa s.caller signature message mlen context clen
        public_key private_key pure ph = (.ERROR_CONTEXT, s.caller) := by
  rw [signEd25519, if_pos hc, Ed25519.sign_allMem, if_pos hc]
  exact ⟨rfl, rfl⟩

/-! ## Ed448 -/

theorem fixed448_spec (u13 u14 : W) (ρ : ℕ → Regs) (k : ℕ) (s : SignSt) :
    let t := fixed448 u13 u14 ρ k s
    let r := Ed448.div4 u13 u14 (bytesAt (s.arr k) 0 114)
    q2w.at t.loc (0, 0)
        = Ed448.fixed_point_multiplication u13 u14 (bytesAt (s.arr k) 0 114) ∧
      t.caller = s.caller ∧ (∀ k', k' ≠ 4 → t.arr k' = s.arr k') ∧
      bytesAt (t.arr 4) 0 57 = r ∧
      ∀ n < 112, wordAt t.loc 3 n = Ed448.list_digits r n ∧
        wordAt t.loc 4 n = Ed448.list_signs r n := by
  delta fixed448
  extract_lets s1 t r
  have h1 : bytesAt (s1.arr 4) 0 57 = r := by
    simp only [s1, put_arr]
    rw [bytesAt_storeAt (Ed448.C46_div4_lt _ _ _).1]
  have a1 : ∀ k', k' ≠ 4 → s1.arr k' = s.arr k' := fun k' h => put_arr_ne _ _ h
  have c1 : s1.caller = s.caller := rfl
  clear_value s1
  obtain ⟨x6, -, d6⟩ := mult448_spec ρ 1 (0, 0) (by decide) (bytesAt (s1.arr 4) 0 57) s1.loc
  have e6 : t = ⟨s1.caller, s1.arr, mult448 ρ 1 (0, 0) (bytesAt (s1.arr 4) 0 57) s1.loc⟩ := rfl
  generalize mult448 ρ 1 (0, 0) (bytesAt (s1.arr 4) 0 57) s1.loc = m6 at x6 d6 e6
  clear_value t
  subst e6
  rw [h1] at x6 d6
  exact ⟨x6, c1, a1, h1, d6⟩

theorem keygenEd448_spec {H : List Byte → ℕ → List Byte} (hH : ∀ x n, (H x n).length = n)
    (u : ℕ → W) (ρ : ℕ → Regs) (public_key private_key : ℕ) (s : SignSt) :
    let t := keygenEd448 H u ρ public_key private_key s
    let h := Ed448.clampDigest (H (bytesAt s.caller private_key 57) 114)
    let r := Ed448.div4 (u 0) (u 1) h
    (t.1, t.2.caller) = Ed448.keygenMem H u s.caller public_key private_key ∧
      bytesAt (t.2.arr 0) 0 114 = h ∧ bytesAt (t.2.arr 4) 0 57 = r ∧
      ∀ n < 112, wordAt t.2.loc 3 n = Ed448.list_digits r n ∧
        wordAt t.2.loc 4 n = Ed448.list_signs r n := by
  delta keygenEd448
  extract_lets s1 s2 s3 t h r
  have h2 : bytesAt (s2.arr 0) 0 114 = h := by
    simp only [s2, s1, put_arr]
    rw [bytesAt_clamp448, bytesAt_storeAt (hH _ _)]
  have c2 : s2.caller = s.caller := rfl
  clear_value s2
  obtain ⟨x3, c3, a3, r3, d3⟩ := fixed448_spec (u 0) (u 1) ρ 0 s2
  have e3 : s3 = fixed448 (u 0) (u 1) ρ 0 s2 := rfl
  rw [← e3] at x3 c3 a3 r3 d3
  clear_value s3
  rw [h2] at x3 r3 d3
  refine ⟨?_, ?_, r3, d3⟩
  · change (_, storeAt s3.caller public_key (Ed448.point_encoding (q2w.at s3.loc (0, 0)))) = _
    rw [x3, c3, c2]
    rfl
  · change bytesAt (s3.arr 0) 0 114 = h
    rw [a3 0 (by decide), h2]

theorem signEd448_ok {H : List Byte → ℕ → List Byte} (hH : ∀ x n, (H x n).length = n)
    (u : ℕ → W) (ρ : ℕ → Regs)
    (signature message mlen context clen public_key private_key : ℕ) (ph : Byte) (s : SignSt)
    (hc : ¬clen > 255) (hp : ph = 1 ∨ ph = 0) :
    let t := signEd448 H u ρ signature message mlen context clen public_key private_key ph s
    let ah := Ed448.clampDigest (H (bytesAt s.caller private_key 57) 114)
    let r := Ed448.modular_reduction (u 0) (u 1)
      (H (Ed448.domBytes (bytesAt s.caller context clen) ph ++ ah.drop 57 ++
        if ph = 1 then H (bytesAt s.caller message mlen) 64 else
          bytesAt s.caller message mlen) 114)
    (t.1, t.2.caller) = Ed448.sign_allMem H u s.caller signature message mlen context clen
        public_key private_key ph ∧
      t.1 = .SIGNATURE_OK ∧ bytesAt (t.2.arr 2) 0 114 = ah ∧ bytesAt (t.2.arr 1) 0 114 = r ∧
      bytesAt (t.2.arr 4) 0 57 = Ed448.div4 (u 2) (u 3) r ∧
      ∀ n < 112, wordAt t.2.loc 3 n = Ed448.list_digits (Ed448.div4 (u 2) (u 3) r) n ∧
        wordAt t.2.loc 4 n = Ed448.list_signs (Ed448.div4 (u 2) (u 3) r) n := by
  delta signEd448
  rw [if_neg hc]
  extract_lets s1 s2 s3 dom msg s4 s5 s6 s7 s8 s9 t ah r
  have hp' : ¬(ph ≠ 1 ∧ ph ≠ 0) := by rcases hp with h | h <;> simp [h]
  have et : t = (.SIGNATURE_OK, { s9 with
    caller := storeAt s9.caller (signature + 57) (Ed448.calculate_s (u 6) (u 7)
      (bytesAt (s9.arr 1) 0 114) (bytesAt (s9.arr 0) 0 114) (bytesAt (s9.arr 2) 0 114)) }) :=
    if_neg hp'
  clear_value t
  subst et
  have ha2 : bytesAt (s2.arr 2) 0 114 = ah := by
    simp only [s2, s1, put_arr]
    rw [bytesAt_clamp448, bytesAt_storeAt (hH _ _)]
  have hc2 : s2.caller = s.caller := rfl
  clear_value s2
  have ha3 : bytesAt (s3.arr 2) 0 114 = ah := by
    simp only [s3]
    split
    · rw [put_arr_ne _ _ (by decide), ha2]
    · exact ha2
  have hc3 : s3.caller = s.caller := by
    simp only [s3]
    split
    · exact hc2
    · exact hc2
  have hm3 : ph = 1 → bytesAt (s3.arr 3) 0 64 = H (bytesAt s.caller message mlen) 64 := fun h => by
    simp only [s3]
    rw [if_pos h, put_arr, bytesAt_storeAt (hH _ _), hc2]
  clear_value s3
  have hmsg : ∀ s' : SignSt, s'.arr 3 = s3.arr 3 → msg s' =
      if ph = 1 then H (bytesAt s.caller message mlen) 64 else bytesAt s'.caller message mlen :=
    fun s' h => by
      simp only [msg]
      by_cases h1 : ph = 1
      · rw [if_pos h1, if_pos h1, h, hm3 h1]
      · rw [if_neg h1, if_neg h1]
  have hr5 : bytesAt (s5.arr 1) 0 114 = r := by
    simp only [s5, s4, put_arr]
    rw [bytesAt_reduce448, bytesAt_storeAt (hH _ _), hmsg s3 rfl, hc3]
    simp only [dom, r]
    rw [hc3, ← ha3, bytesAt_drop]
  have h5 : ∀ k, k ≠ 1 → s5.arr k = s3.arr k := fun k h => by
    simp only [s5, s4]
    rw [put_arr_ne _ _ h, put_arr_ne _ _ h]
  have hc5 : s5.caller = s.caller := by simp only [s5, s4, put_caller]; exact hc3
  clear_value s5
  obtain ⟨x6, c6, a6, r6, d6⟩ := fixed448_spec (u 2) (u 3) ρ 1 s5
  have e6 : s6 = fixed448 (u 2) (u 3) ρ 1 s5 := rfl
  rw [← e6] at x6 c6 a6 r6 d6
  clear_value s6
  rw [hr5] at x6 r6 d6
  have hc7 : s7.caller = storeAt s.caller signature
      (Ed448.point_encoding (Ed448.fixed_point_multiplication (u 2) (u 3) r)) := by
    simp only [s7]; rw [x6, c6, hc5]
  have h7 : s7.arr = s6.arr := rfl
  have l7 : s7.loc = s6.loc := rfl
  clear_value s7
  have hk9 : bytesAt (s9.arr 0) 0 114 = Ed448.modular_reduction (u 4) (u 5) (H (dom s7 ++
      bytesAt s7.caller signature 57 ++ bytesAt s7.caller public_key 57 ++ msg s7) 114) := by
    simp only [s9, s8, put_arr]
    rw [bytesAt_reduce448, bytesAt_storeAt (hH _ _)]
  have h9 : ∀ k, k ≠ 0 → s9.arr k = s6.arr k := fun k h => by
    simp only [s9, s8]
    rw [put_arr_ne _ _ h, put_arr_ne _ _ h, h7]
  have hc9 : s9.caller = s7.caller := rfl
  have l9 : s9.loc = s6.loc := l7
  clear_value s9
  refine ⟨?_, rfl, ?_, ?_, ?_, ?_⟩
  · simp only
    rw [hk9, h9 1 (by decide), h9 2 (by decide), a6 1 (by decide), a6 2 (by decide), hr5,
      h5 2 (by decide), ha3, hc9, hmsg s7 (by rw [h7, a6 3 (by decide), h5 3 (by decide)])]
    simp only [dom]
    rw [hc7, Ed448.sign_allMem, if_neg hc]
    rcases hp with h | h
    · subst h; rfl
    · subst h; rfl
  · simp only
    rw [h9 2 (by decide), a6 2 (by decide), h5 2 (by decide), ha3]
  · simp only
    rw [h9 1 (by decide), a6 1 (by decide), hr5]
  · simp only
    rw [h9 4 (by decide), r6]
  · simp only
    rw [l9]
    exact d6

theorem signEd448_long (H : List Byte → ℕ → List Byte) (u : ℕ → W) (ρ : ℕ → Regs)
    (signature message mlen context clen public_key private_key : ℕ) (ph : Byte) (s : SignSt)
    (hc : clen > 255) :
    signEd448 H u ρ signature message mlen context clen public_key private_key ph s =
        (.ERROR_CONTEXT, s) ∧
      Ed448.sign_allMem H u s.caller signature message mlen context clen
        public_key private_key ph = (.ERROR_CONTEXT, s.caller) := by
  rw [signEd448, if_pos hc, Ed448.sign_allMem, if_pos hc]
  exact ⟨rfl, rfl⟩

end Verif.Vec
