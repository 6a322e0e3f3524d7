import Verif.Ed25519.TableSignLemmas
import Verif.Ed25519.RecodeLemmas
import Verif.Ed25519.PointLemmas

/-! # The table query: helper lemmas -/

namespace Verif.Ed25519

open Verif.Fp25519

/-! ## Lanes -/

theorem XOR_get (x y : V) (j : ℕ) : (XOR x y).get j = x.get j ^^^ y.get j := by
  match j with
  | 0 => rfl
  | 1 => rfl
  | 2 => rfl
  | _ + 3 => rfl

theorem ANDNOT_get (x y : V) (j : ℕ) : (ANDNOT x y).get j = ~~~(x.get j) &&& y.get j := by
  match j with
  | 0 => rfl
  | 1 => rfl
  | 2 => rfl
  | _ + 3 => rfl

theorem AND_get (x y : V) (j : ℕ) : (AND x y : V).get j = x.get j &&& y.get j := by
  match j with
  | 0 => rfl
  | 1 => rfl
  | 2 => rfl
  | _ + 3 => rfl

theorem LIT_get (n j : ℕ) : (LIT n : V).get j = BitVec.ofNat 64 n := by
  match j with
  | 0 => rfl
  | 1 => rfl
  | 2 => rfl
  | _ + 3 => rfl

theorem signEntry_get (idx n j : ℕ) (hj : j < 4) :
    (signEntry idx n).get j = signWord idx (2 * n + j % 2) :=
  lane_cases (p := fun j => (signEntry idx n).get j = signWord idx (2 * n + j % 2))
    rfl rfl rfl rfl j hj

/-- The mask in an even lane. -/
def maskE (d i : W) : W :=
  let m := (d - i) ||| (i - d)
  let s := (BitVec.setWidth 32 (m >>> 32)).sshiftRight 31
  s ++ s

/-- The mask in an odd lane. -/
def maskO (d i : W) : W :=
  let m := (d - i) ||| (i - d)
  (BitVec.setWidth 32 (m >>> 32)).sshiftRight 31 ++ (BitVec.setWidth 32 (m >>> 0)).sshiftRight 31

theorem dword_ofDwords (f : ℕ → BitVec 32) (j : ℕ) (hj : j < 8) : (ofDwords f).dword j = f j := by
  have hh : ∀ a b : BitVec 32, BitVec.setWidth 32 ((a ++ b) >>> 32) = a := fun a b => by
    apply BitVec.eq_of_toNat_eq
    rw [BitVec.toNat_setWidth, BitVec.toNat_ushiftRight, BitVec.toNat_append,
      Nat.shiftRight_eq_div_pow]
    have := a.isLt; have := b.isLt
    rw [Nat.shiftLeft_eq, Nat.mul_comm, ← Nat.two_pow_add_eq_or_of_lt b.isLt]
    omega
  have hl : ∀ a b : BitVec 32, BitVec.setWidth 32 ((a ++ b) >>> 0) = b := fun a b => by
    apply BitVec.eq_of_toNat_eq
    rw [BitVec.toNat_setWidth, BitVec.toNat_ushiftRight, BitVec.toNat_append,
      Nat.shiftRight_eq_div_pow]
    have := a.isLt; have := b.isLt
    rw [Nat.shiftLeft_eq, Nat.mul_comm, ← Nat.two_pow_add_eq_or_of_lt b.isLt]
    omega
  match j, hj with
  | 0, _ => exact hl _ _
  | 1, _ => exact hh _ _
  | 2, _ => exact hl _ _
  | 3, _ => exact hh _ _
  | 4, _ => exact hl _ _
  | 5, _ => exact hh _ _
  | 6, _ => exact hl _ _
  | 7, _ => exact hh _ _

theorem signs_get (m : V) (j : ℕ) (hj : j < 4) : (SHUF32 (SRAI32 m 32) 0xE5).get j =
    (BitVec.setWidth 32 (m.get j >>> 32)).sshiftRight 31 ++
      (BitVec.setWidth 32 (m.get j >>> if j % 2 = 0 then 32 else 0)).sshiftRight 31 := by
  unfold SHUF32
  have hw : ∀ j < 8, (SRAI32 m 32).dword j = _ :=
    dword_ofDwords fun j => (m.dword j).sshiftRight (min 32 31)
  generalize SRAI32 m 32 = z at hw ⊢
  match j, hj with
  | 0, _ => exact congrArg₂ (· ++ ·) (hw 1 (by decide)) (hw 1 (by decide))
  | 1, _ => exact congrArg₂ (· ++ ·) (hw 3 (by decide)) (hw 2 (by decide))
  | 2, _ => exact congrArg₂ (· ++ ·) (hw 5 (by decide)) (hw 5 (by decide))
  | 3, _ => exact congrArg₂ (· ++ ·) (hw 7 (by decide)) (hw 6 (by decide))

theorem queryMask_lane (digits : V) (i j : ℕ) (hj : j < 4) : (queryMask digits i).get j =
    if j % 2 = 0 then maskE (digits.get j) (BitVec.ofNat 64 i)
    else maskO (digits.get j) (BitVec.ofNat 64 i) := by
  have h0 : (OR (SUB digits (LIT i)) (SUB (LIT i) digits)).get j =
      (digits.get j - BitVec.ofNat 64 i) ||| (BitVec.ofNat 64 i - digits.get j) := by
    revert j
    exact lane_cases rfl rfl rfl rfl
  have h := signs_get (OR (SUB digits (LIT i)) (SUB (LIT i) digits)) j hj
  rw [h0] at h
  refine Eq.trans h ?_
  split <;> rfl

theorem mask_table : ∀ d i : Fin 9,
    maskE (BitVec.ofNat 64 d) (BitVec.ofNat 64 i) = (if d = i then 0 else -1) ∧
    maskO (BitVec.ofNat 64 d) (BitVec.ofNat 64 i) = (if d = i then 0 else -1) := by
  decide +kernel

theorem queryMask_get {digits : V} {j d i : ℕ} (hj : j < 4) (hd : digits.get j = BitVec.ofNat 64 d)
    (h8 : d ≤ 8) (hi : i ≤ 8) : (queryMask digits i).get j = if d = i then 0 else -1 := by
  have h := mask_table ⟨d, by omega⟩ ⟨i, by omega⟩
  simp only [Fin.mk.injEq] at h
  rw [queryMask_lane _ _ _ hj, hd]
  split
  · exact h.1
  · exact h.2

/-- The selection in one lane. -/
def selW (m t : ℕ → W) : W :=
  (List.range 8).foldl (fun acc i => acc ^^^ (~~~(m (i + 1)) &&& t i)) 0

theorem selW_eq (m t : ℕ → W) (d : ℕ) (h8 : d ≤ 8)
    (hm : ∀ i, i ≤ 8 → m i = if d = i then 0 else -1) :
    selW m t = if d = 0 then 0 else t (d - 1) := by
  have e : selW m t = 0 ^^^ (~~~(m 1) &&& t 0) ^^^ (~~~(m 2) &&& t 1) ^^^ (~~~(m 3) &&& t 2) ^^^
    (~~~(m 4) &&& t 3) ^^^ (~~~(m 5) &&& t 4) ^^^ (~~~(m 6) &&& t 5) ^^^ (~~~(m 7) &&& t 6) ^^^
    (~~~(m 8) &&& t 7) := rfl
  rw [e, hm 1 (by omega), hm 2 (by omega), hm 3 (by omega), hm 4 (by omega), hm 5 (by omega),
    hm 6 (by omega), hm 7 (by omega), hm 8 (by omega)]
  have z : ∀ (p : Prop) [Decidable p] (x : W), ~~~(if p then 0 else -1 : W) &&& x =
      if p then x else 0 := fun p _ x => by
    split
    · rw [show ~~~(0 : W) = BitVec.allOnes 64 by decide]; exact BitVec.allOnes_and
    · rw [show ~~~(-1 : W) = 0#64 by decide]; exact BitVec.zero_and
  simp only [z]
  match d, h8 with
  | 0, _ => simp
  | 1, _ => simp
  | 2, _ => simp
  | 3, _ => simp
  | 4, _ => simp
  | 5, _ => simp
  | 6, _ => simp
  | 7, _ => simp
  | 8, _ => simp

theorem foldl_get (M T : ℕ → V) (j : ℕ) : ∀ (l : List ℕ) (acc : V),
    (l.foldl (fun acc i => XOR acc (ANDNOT (M i) (T i))) acc).get j =
      l.foldl (fun a i => a ^^^ (~~~((M i).get j) &&& (T i).get j)) (acc.get j)
  | [], _ => rfl
  | i :: l, acc => by
    rw [List.foldl_cons, foldl_get M T j l, XOR_get, ANDNOT_get, List.foldl_cons]

theorem querySel_get {digits : V} {j d : ℕ} (idx c w : ℕ) (hj : j < 4)
    (hd : digits.get j = BitVec.ofNat 64 d) (h8 : d ≤ 8) :
    (querySel digits idx c w).get j =
      if d = 0 then 0 else signWord idx (2 * (24 * w + 3 * (d - 1) + c) + j % 2) := by
  unfold querySel
  rw [foldl_get, LIT_get]
  have := selW_eq (fun i => (queryMask digits i).get j)
    (fun i => signWord idx (2 * (24 * w + 3 * i + c) + j % 2)) d h8
    (fun i hi => queryMask_get hj hd h8 hi)
  rw [← this]
  simp only [signEntry_get _ _ _ hj]
  rfl

theorem queryFix_get {digits : V} {j d : ℕ} (x : V) (hj : j < 4)
    (hd : digits.get j = BitVec.ofNat 64 d) (h8 : d ≤ 8) :
    (queryFix digits x).get j = if d = 0 then 1 else x.get j := by
  unfold queryFix
  rw [XOR_get, ANDNOT_get, XOR_get, LIT_get, queryMask_get hj hd h8 (by omega)]
  split
  · rw [show ~~~(0 : W) = BitVec.allOnes 64 by decide, BitVec.allOnes_and, ← BitVec.xor_assoc,
      BitVec.xor_self, BitVec.zero_xor]; rfl
  · rw [show ~~~(-1 : W) = 0#64 by decide, BitVec.zero_and, BitVec.xor_zero]

/-! ## From words to limbs -/

theorem str_bytes_lane (n : ℕ → V) (j : ℕ) (hj : j < 4) :
    (str_bytes XOR n).lane j = str_bytes (· ^^^ ·) (fun i => (n i).get j) :=
  lane_cases (p := fun j => (str_bytes XOR n).lane j = str_bytes (· ^^^ ·) (fun i => (n i).get j))
    rfl rfl rfl rfl j hj

theorem xor13 (a b : W) : ((a <<< 13) ^^^ (b >>> 51)).toNat =
    a.toNat * 2 ^ 13 % 2 ^ 64 + b.toNat / 2 ^ 51 := by
  have h : (a <<< 13) &&& (b >>> 51) = 0#64 := by
    ext i hi
    simp only [BitVec.getElem_and, BitVec.getElem_shiftLeft, BitVec.getElem_zero]
    by_cases h : i < 13
    · simp [h]
    · simp only [BitVec.getElem_ushiftRight]
      rw [BitVec.getLsbD_of_ge b (51 + i) (by omega)]; simp
  have e : (a <<< 13) ^^^ (b >>> 51) = (a <<< 13) + (b >>> 51) := by
    rw [BitVec.add_eq_or_of_and_eq_zero _ _ h]
    ext i hi
    have := congrArg (fun x : W => x[i]) h
    simp only [BitVec.getElem_and, BitVec.getElem_zero] at this
    simp only [BitVec.getElem_xor, BitVec.getElem_or]
    cases h1 : (a <<< 13)[i] <;> cases h2 : (b >>> 51)[i] <;> simp_all
  have ha := a.isLt; have hb := b.isLt
  rw [e, BitVec.toNat_add, BitVec.toNat_shiftLeft, BitVec.toNat_ushiftRight,
    Nat.shiftLeft_eq, Nat.shiftRight_eq_div_pow]
  omega

theorem toNat_inj10 {a b : Elt10 W} (h : a.map BitVec.toNat = b.map BitVec.toNat) : a = b := by
  simp only [Elt10.map, Elt10.mk.injEq] at h
  obtain ⟨h0, h1, h2, h3, h4, h5, h6, h7, h8, h9⟩ := h
  exact Elt10.ext (BitVec.eq_of_toNat_eq h0) (BitVec.eq_of_toNat_eq h1) (BitVec.eq_of_toNat_eq h2)
    (BitVec.eq_of_toNat_eq h3) (BitVec.eq_of_toNat_eq h4) (BitVec.eq_of_toNat_eq h5)
    (BitVec.eq_of_toNat_eq h6) (BitVec.eq_of_toNat_eq h7) (BitVec.eq_of_toNat_eq h8)
    (BitVec.eq_of_toNat_eq h9)

theorem and26 (x : W) : (x &&& BitVec.ofNat 64 (2 ^ 26 - 1)).toNat = x.toNat % 2 ^ 26 := by
  rw [BitVec.toNat_and]; exact Nat.and_two_pow_sub_one_eq_mod x.toNat 26

theorem and25 (x : W) : (x &&& BitVec.ofNat 64 (2 ^ 25 - 1)).toNat = x.toNat % 2 ^ 25 := by
  rw [BitVec.toNat_and]; exact Nat.and_two_pow_sub_one_eq_mod x.toNat 25

theorem str_bytes_eq (n : ℕ → W) :
    str_bytes (· ^^^ ·) n = (R1.unserWords ⟨n 0, n 1, n 2, n 3⟩).limbs := by
  apply toNat_inj10
  rw [unserWords_limbs ⟨n 0, n 1, n 2, n 3⟩]
  have h0 := (n 0).isLt; have h1 := (n 1).isLt; have h2 := (n 2).isLt; have h3 := (n 3).isLt
  simp only [str_bytes, Elt10.map, Lane.SHR, Lane.SHL, Lane.AND, Lane.LIT, and26, and25,
    Nat.reduceAdd, xor13, BitVec.toNat_ushiftRight, Nat.shiftRight_eq_div_pow]
  generalize (n 0).toNat = x0 at *
  generalize (n 1).toNat = x1 at *
  generalize (n 2).toNat = x2 at *
  generalize (n 3).toNat = x3 at *
  ext <;> dsimp only <;> omega

/-- The value and the bounds of the limbs. -/
theorem str_bytes_rp (n : ℕ → W) (h : F4.num ⟨n 0, n 1, n 2, n 3⟩ < 2 ^ 255) :
    Rp canonB (str_bytes (· ^^^ ·) n) ((F4.num ⟨n 0, n 1, n 2, n 3⟩ : ℕ) : Fp) := by
  have hv := F4.num_val ⟨n 0, n 1, n 2, n 3⟩
  obtain ⟨h1, h2⟩ := unserWords_val ⟨n 0, n 1, n 2, n 3⟩ (by rw [← hv]; exact_mod_cast h)
  rw [str_bytes_eq]
  refine ⟨h1, ?_⟩
  unfold Elt10.toFp
  rw [h2, ← hv, Int.cast_natCast]

/-- Bounds of 2dxy in the table. -/
def tableB : Elt10 ℕ := { canonB with r0 := 0x3ffffed }

theorem str_bytes_rpT (n : ℕ → W) (h : F4.num ⟨n 0, n 1, n 2, n 3⟩ < 2 ^ 255)
    (h2 : F4.num ⟨n 0, n 1, n 2, n 3⟩ % 2 ^ 26 ≤ 0x3ffffed) :
    Rp tableB (str_bytes (· ^^^ ·) n) ((F4.num ⟨n 0, n 1, n 2, n 3⟩ : ℕ) : Fp) := by
  obtain ⟨⟨-, k1, k2, k3, k4, k5, k6, k7, k8, k9⟩, kv⟩ := str_bytes_rp n h
  refine ⟨⟨?_, k1, k2, k3, k4, k5, k6, k7, k8, k9⟩, kv⟩
  have e : (str_bytes (· ^^^ ·) n).r0.toNat = (n 0).toNat % 2 ^ 26 := and26 _
  rw [e]
  refine le_trans (le_of_eq ?_) h2
  simp only [F4.num]; omega

theorem queryP_rp : Rp canonB (queryP : Elt10 W) 0 := by
  refine ⟨by decide +kernel, ?_⟩
  have h : (queryP : Elt10 W).ints.val = ((1 : ℤ) * (2 ^ 255 - 19)) := by decide +kernel
  rw [Elt10.toFp, h, p_mul_cast]

theorem neg_query {e : Elt10 W} {x : Fp} (h : Rp tableB e x) :
    Rp queryB ((queryP : Elt10 W).zip SUB e) (-x) := by
  obtain ⟨h1, h2⟩ := run1 (f := fun {α} _ e => (queryP : Elt10 α).zip SUB e) (fun _ => rfl)
    (fun _ => rfl) (fun _ => rfl) (m := tableB) (m' := queryB) (by decide +kernel) h.1
  refine ⟨h1, ?_⟩
  have hv : ((queryP : Elt10 ℤ).zip SUB e.ints).val = (1 : ℤ) * (2 ^ 255 - 19) - e.ints.val := by
    simp only [queryP, Elt10.zip, Lane.SUB, Lane.LIT, Elt10.val]
    push_cast; ring
  unfold Elt10.toFp
  rw [h2, hv, Int.cast_sub, p_mul_cast, zero_sub, ← h.2]; rfl

theorem query_sign0 (x : Elt10 W) :
    x.zip (fun x p => (x ^^^ 0#64) + (p - 0#64)) queryP = R4.add x queryP := by
  ext1 <;> simp only [Elt10.zip, R4.add, BitVec.xor_zero, BitVec.sub_zero] <;> rfl

theorem query_sign1 (x : Elt10 W) :
    x.zip (fun x p => (x ^^^ -1) + (p - -1)) queryP = (queryP : Elt10 W).zip SUB x := by
  have h : ∀ x p : W, (x ^^^ -1) + (p - -1) = p - x := fun x p => by
    have e : (x ^^^ -1) + (p - -1) = p + ((x ^^^ -1) - -1) := by
      rw [BitVec.sub_eq_add_neg, BitVec.sub_eq_add_neg]; ac_rfl
    rw [e, add_negMask]
  ext1 <;> exact h _ _

theorem query_rp0 {e : Elt10 W} {x : Fp} (h : Rp tableB e x) :
    Rp queryB (e.zip (fun x p => (x ^^^ (0 : W)) + (p - (0 : W))) queryP) x := by
  have := query_sign0 e
  exact this ▸ (h.r4add queryP_rp (m' := queryB) (by decide +kernel)).cast (add_zero _)

theorem query_rp1 {e : Elt10 W} {x : Fp} (h : Rp tableB e x) :
    Rp queryB (e.zip (fun x p => (x ^^^ (-1 : W)) + (p - (-1 : W))) queryP) (-x) := by
  rw [query_sign1 e]; exact neg_query h

/-! ## The query -/

/-- The words selected for the digit `d`: component `c`, word `w`. -/
def selWord (idx b d c w : ℕ) : W :=
  if d = 0 then (if w = 0 ∧ c < 2 then 1 else 0)
  else signWord idx (2 * (24 * w + 3 * (d - 1) + c) + b)

/-- The number selected for the digit `d`: component `c`. -/
def selNum (idx b d c : ℕ) : ℕ :=
  F4.num ⟨selWord idx b d c 0, selWord idx b d c 1, selWord idx b d c 2, selWord idx b d c 3⟩

theorem selNum_spec (idx b d : ℕ) (hi : idx < 16) (hb : b < 2) (h8 : d ≤ 8) :
    selNum idx b d 0 < 2 ^ 255 ∧ selNum idx b d 1 < 2 ^ 255 ∧ selNum idx b d 2 < 2 ^ 255 ∧
    selNum idx b d 2 % 2 ^ 26 ≤ 0x3ffffed ∧
    Edw.Pre (d • signBase idx b) (selNum idx b d 0 : Fp) (selNum idx b d 1 : Fp)
      (selNum idx b d 2 : Fp) 2 := by
  by_cases h : d = 0
  · subst h
    have e0 : selNum idx b 0 0 = 1 := rfl
    have e1 : selNum idx b 0 1 = 1 := rfl
    have e2 : selNum idx b 0 2 = 0 := rfl
    rw [e0, e1, e2, zero_smul]
    refine ⟨by norm_num, by norm_num, by norm_num, by norm_num, ?_⟩
    push_cast
    exact Edw.Pre.zero
  · obtain ⟨n, hn, ho⟩ := table_entry idx b d hi hb (by omega) h8
    have e : ∀ c, selNum idx b d c = F4.num (signF idx b c d) := fun c => by
      simp only [selNum, selWord, if_neg h, signF]
    rw [e, e, e]
    simp only [entryOk, Bool.and_eq_true, decide_eq_true_eq] at ho
    obtain ⟨⟨⟨⟨h1, h2⟩, h3⟩, h4⟩, h5⟩ := ho
    exact ⟨h1, h2, h3, h4, isPre_spec hn h5⟩

theorem swap0 (x y : W) : x ^^^ ((x ^^^ y) &&& 0) = x := by
  rw [show (x ^^^ y) &&& (0 : W) = 0#64 from BitVec.and_zero, BitVec.xor_zero]
theorem swap1 (x y : W) : x ^^^ ((x ^^^ y) &&& -1) = y := by
  rw [show (-1 : W) = BitVec.allOnes 64 by decide, BitVec.and_allOnes, ← BitVec.xor_assoc,
    BitVec.xor_self, BitVec.zero_xor]
theorem swap0' (x y : W) : y ^^^ ((x ^^^ y) &&& 0) = y := by
  rw [show (x ^^^ y) &&& (0 : W) = 0#64 from BitVec.and_zero, BitVec.xor_zero]
theorem swap1' (x y : W) : y ^^^ ((x ^^^ y) &&& -1) = x := by
  rw [show (-1 : W) = BitVec.allOnes 64 by decide, BitVec.and_allOnes, BitVec.xor_comm x y,
    ← BitVec.xor_assoc, BitVec.xor_self, BitVec.zero_xor]

theorem zip_sign_lane (x : Elt10 V) (signs : V) (j : ℕ) (hj : j < 4) :
    (x.zip (fun x p => ADD (XOR x signs) (SUB p signs)) queryP).lane j =
      (x.lane j).zip (fun x p => (x ^^^ signs.get j) + (p - signs.get j)) queryP :=
  lane_cases (p := fun j => (x.zip (fun x p => ADD (XOR x signs) (SUB p signs)) queryP).lane j =
      (x.lane j).zip (fun x p => (x ^^^ signs.get j) + (p - signs.get j)) queryP)
    rfl rfl rfl rfl j hj

theorem query_spec {signs digits : V} {idx j d : ℕ} {neg : Bool} (hi : idx < 16) (hj : j < 4)
    (hd : digits.get j = BitVec.ofNat 64 d) (h8 : d ≤ 8)
    (hs : signs.get j = if neg then -1 else 0) :
    IsPre4way ((query_table signs digits idx).lane j)
      (if neg then -(d • signBase idx (j % 2)) else d • signBase idx (j % 2)) := by
  obtain ⟨k0, k1, k2, k3, kp⟩ := selNum_spec idx (j % 2) d hi (Nat.mod_lt _ (by norm_num)) h8
  have hA : ∀ w, (if w = 0 then queryFix digits (querySel digits idx 0 w)
      else querySel digits idx 0 w).get j = selWord idx (j % 2) d 0 w := fun w => by
    unfold selWord
    split
    · rw [queryFix_get _ hj hd h8, querySel_get _ _ _ hj hd h8]; split <;> simp_all
    · rw [querySel_get _ _ _ hj hd h8]; split <;> simp_all
  have hS : ∀ w, (if w = 0 then queryFix digits (querySel digits idx 1 w)
      else querySel digits idx 1 w).get j = selWord idx (j % 2) d 1 w := fun w => by
    unfold selWord
    split
    · rw [queryFix_get _ hj hd h8, querySel_get _ _ _ hj hd h8]; split <;> simp_all
    · rw [querySel_get _ _ _ hj hd h8]; split <;> simp_all
  have hT : ∀ w, (querySel digits idx 2 w).get j = selWord idx (j % 2) d 2 w := fun w => by
    unfold selWord
    rw [querySel_get _ _ _ hj hd h8]; split <;> simp_all
  have rA := str_bytes_rp (selWord idx (j % 2) d 0) k0
  have rS := str_bytes_rp (selWord idx (j % 2) d 1) k1
  have rT := str_bytes_rpT (selWord idx (j % 2) d 2) k2 k3
  have oC : leB canonB tight = true := by decide +kernel
  simp only [query_table, Pre4way.lane, str_bytes_lane _ _ hj, zip_sign_lane _ _ _ hj, XOR_get,
    AND_get, hA, hS, hT, hs]
  cases neg with
  | false =>
    simp only [Bool.false_eq_true, if_false, swap0, swap0']
    exact ⟨_, _, _, rA.mono oC, rS.mono oC, query_rp0 rT, kp⟩
  | true =>
    simp only [if_true, swap1, swap1']
    exact ⟨_, _, _, rS.mono oC, rA.mono oC, query_rp1 rT, kp.neg⟩

end Verif.Ed25519
