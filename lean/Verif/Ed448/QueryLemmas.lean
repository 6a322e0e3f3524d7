import Verif.Ed448.TableSignLemmas
import Verif.Ed25519.QueryLemmas

/-! # The table query of Ed448: helper lemmas -/

namespace Verif.Ed448

open Verif.Fp448

set_option exponentiation.threshold 2000
open Verif.Ed25519 (XOR_get ANDNOT_get AND_get LIT_get selW_eq foldl_get swap0 swap1 swap0' swap1')

theorem signEntry_get (idx n j : ℕ) (hj : j < 4) : (signEntry idx n).get j = signWord idx n :=
  lane_cases (p := fun j => (signEntry idx n).get j = signWord idx n) rfl rfl rfl rfl j hj

theorem queryMask_eq (digits : V) (i : ℕ) : queryMask digits i = Ed25519.queryMask digits i := rfl

theorem queryMask_get {digits : V} {j d i : ℕ} (hj : j < 4) (hd : digits.get j = BitVec.ofNat 64 d)
    (h8 : d ≤ 8) (hi : i ≤ 8) : (queryMask digits i).get j = if d = i then 0 else -1 := by
  rw [queryMask_eq]; exact Ed25519.queryMask_get hj hd h8 hi

theorem querySel_get {digits : V} {j d : ℕ} (idx c w : ℕ) (hj : j < 4)
    (hd : digits.get j = BitVec.ofNat 64 d) (h8 : d ≤ 8) :
    (querySel digits idx c w).get j =
      if d = 0 then 0 else signWord idx (24 * w + 3 * (d - 1) + c) := by
  unfold querySel
  rw [foldl_get, LIT_get]
  have := selW_eq (fun i => (queryMask digits i).get j)
    (fun i => signWord idx (24 * w + 3 * i + c)) d h8
    (fun i hi => queryMask_get hj hd h8 hi)
  rw [← this]
  simp only [signEntry_get _ _ _ hj]
  rfl

theorem queryFix_get {digits : V} {j d : ℕ} (x : V) (hj : j < 4)
    (hd : digits.get j = BitVec.ofNat 64 d) (h8 : d ≤ 8) :
    (queryFix digits x).get j = if d = 0 then 1 else x.get j := by
  unfold queryFix
  rw [XOR_get, ANDNOT_get, XOR_get, LIT_get, queryMask_get hj hd h8 (by omega)]
  split
  · rw [show ~~~(0 : W) = BitVec.allOnes 64 by decide, BitVec.allOnes_and, ← BitVec.xor_assoc,
      BitVec.xor_self, BitVec.zero_xor]; rfl
  · rw [show ~~~(-1 : W) = 0#64 by decide, BitVec.zero_and, BitVec.xor_zero]

/-- Bounds of 2d'xy in the table. -/
def tableB : Elt16 ℕ := { canonB with r8 := 0xffffffe }

theorem limbs7_rpT (n : ℕ → W) (h : (limbs7 n).r8.toNat ≤ 0xffffffe) :
    Rp tableB (limbs7 n) ((num7 n : ℕ) : Fp) := by
  obtain ⟨⟨k0, k1, k2, k3, k4, k5, k6, k7, -, k9, k10, k11, k12, k13, k14, k15⟩, kv⟩ := limbs7_rp n
  exact ⟨⟨k0, k1, k2, k3, k4, k5, k6, k7, h, k9, k10, k11, k12, k13, k14, k15⟩, kv⟩

theorem queryP_rp : Rp canonB (queryP : Elt16 W) 0 := by
  refine ⟨by decide +kernel, ?_⟩
  have h : (queryP : Elt16 W).ints.val = ((1 : ℤ) * p448) := by decide +kernel
  rw [Elt16.toFp, h, p_mul_cast]

theorem neg_query {e : Elt16 W} {x : Fp} (h : Rp tableB e x) :
    Rp queryB ((queryP : Elt16 W).zip SUB e) (-x) := by
  obtain ⟨h1, h2⟩ := run1 (f := fun {α} _ e => (queryP : Elt16 α).zip SUB e) (fun _ => rfl)
    (fun _ => rfl) (fun _ => rfl) (m := tableB) (m' := queryB) (by decide +kernel) h.1
  refine ⟨h1, ?_⟩
  have hv : ((queryP : Elt16 ℤ).zip SUB e.ints).val = (1 : ℤ) * p448 - e.ints.val := by
    simp only [queryP, Elt16.zip, Lane.SUB, Lane.LIT, Elt16.val, p448]
    push_cast; ring
  unfold Elt16.toFp
  rw [h2, hv, Int.cast_sub, p_mul_cast, zero_sub, ← h.2]; rfl

theorem query_sign0 (x : Elt16 W) :
    x.zip (fun x p => (x ^^^ 0#64) + (p - 0#64)) queryP = R4.add x queryP := by
  ext1 <;> simp only [Elt16.zip, R4.add, BitVec.xor_zero, BitVec.sub_zero] <;> rfl

theorem query_sign1 (x : Elt16 W) :
    x.zip (fun x p => (x ^^^ -1) + (p - -1)) queryP = (queryP : Elt16 W).zip SUB x := by
  have h : ∀ x p : W, (x ^^^ -1) + (p - -1) = p - x := fun x p => by
    have e : (x ^^^ -1) + (p - -1) = p + ((x ^^^ -1) - -1) := by
      rw [BitVec.sub_eq_add_neg, BitVec.sub_eq_add_neg]; ac_rfl
    rw [e, add_negMask]
  ext1 <;> exact h _ _

theorem query_rp0 {e : Elt16 W} {x : Fp} (h : Rp tableB e x) :
    Rp queryB (e.zip (fun x p => (x ^^^ (0 : W)) + (p - (0 : W))) queryP) x := by
  have := query_sign0 e
  exact this ▸ (h.r4add queryP_rp (m' := queryB) (by decide +kernel)).cast (add_zero _)

theorem query_rp1 {e : Elt16 W} {x : Fp} (h : Rp tableB e x) :
    Rp queryB (e.zip (fun x p => (x ^^^ (-1 : W)) + (p - (-1 : W))) queryP) (-x) := by
  rw [query_sign1 e]; exact neg_query h

/-! ## The query -/

/-- The words selected for the digit `d`: component `c`, word `w`. -/
def selWord (idx d c w : ℕ) : W :=
  if d = 0 then (if w = 0 ∧ c < 2 then 1 else 0) else signWords idx c d w

theorem num7_congr {m n : ℕ → W} (h : ∀ i, m i = n i) : num7 m = num7 n := by
  rw [show m = n from funext h]

theorem selWord_pos {idx d c : ℕ} (h : d ≠ 0) : selWord idx d c = signWords idx c d := by
  funext w; rw [selWord, if_neg h]

theorem selNum_spec (idx d : ℕ) (hi : idx < 28) (h8 : d ≤ 8) :
    (limbs7 (selWord idx d 2)).r8.toNat ≤ 0xffffffe ∧
    Edw.PreI (d • signBase idx) (num7 (selWord idx d 0) : Fp) (num7 (selWord idx d 1) : Fp)
      (num7 (selWord idx d 2) : Fp) 2 := by
  by_cases h : d = 0
  · subst h
    have e0 : num7 (selWord idx 0 0) = 1 := rfl
    have e1 : num7 (selWord idx 0 1) = 1 := rfl
    have e2 : num7 (selWord idx 0 2) = 0 := rfl
    have e3 : (limbs7 (selWord idx 0 2)).r8.toNat = 0 := by
      have : selWord idx 0 2 = fun _ => 0 := by funext w; simp [selWord]
      rw [this]; decide +kernel
    rw [e0, e1, e2, e3, zero_smul]
    refine ⟨by norm_num, ?_⟩
    push_cast
    exact Edw.PreI.zero
  · obtain ⟨n, hn, ho⟩ := table_entry idx d hi (by omega) h8
    rw [selWord_pos h, selWord_pos h, selWord_pos h]
    simp only [entryOk, Bool.and_eq_true, decide_eq_true_eq] at ho
    exact ⟨ho.2, isPre_spec hn ho.1⟩

theorem zip_sign_lane (x : Elt16 V) (signs : V) (j : ℕ) (hj : j < 4) :
    (x.zip (fun x p => ADD (XOR x signs) (SUB p signs)) queryP).lane j =
      (x.lane j).zip (fun x p => (x ^^^ signs.get j) + (p - signs.get j)) queryP :=
  lane_cases (p := fun j => (x.zip (fun x p => ADD (XOR x signs) (SUB p signs)) queryP).lane j =
      (x.lane j).zip (fun x p => (x ^^^ signs.get j) + (p - signs.get j)) queryP)
    rfl rfl rfl rfl j hj

/-- The signed digit. -/
def signed (neg : Bool) (d : ℕ) : ℤ := if neg then -(d : ℤ) else d

theorem gap_one : gapOk (limbs7 (selWord 0 0 0)).ints (limbs7 (selWord 0 0 0)).ints = true := by
  decide +kernel

theorem query_spec {signs digits : V} {idx j d : ℕ} {neg : Bool} (hi : idx < 28) (hj : j < 4)
    (hd : digits.get j = BitVec.ofNat 64 d) (h8 : d ≤ 8)
    (hs : signs.get j = if neg then -1 else 0) :
    IsPre4way ((query_table signs digits idx).lane j) (signed neg d • signBase idx) ∧
    ((query_table signs digits idx).lane j).addYX.Le tight ∧
    ((query_table signs digits idx).lane j).subYX.Le tight ∧
    (excluded idx (signed neg d) = false →
      gapOk ((query_table signs digits idx).lane j).subYX.ints
        ((query_table signs digits idx).lane j).addYX.ints = true) := by
  obtain ⟨k3, kp⟩ := selNum_spec idx d hi h8
  have hA : ∀ w, (if w = 0 then queryFix digits (querySel digits idx 0 w)
      else querySel digits idx 0 w).get j = selWord idx d 0 w := fun w => by
    unfold selWord signWords
    split
    · rw [queryFix_get _ hj hd h8, querySel_get _ _ _ hj hd h8]; split <;> simp_all
    · rw [querySel_get _ _ _ hj hd h8]; split <;> simp_all
  have hS : ∀ w, (if w = 0 then queryFix digits (querySel digits idx 1 w)
      else querySel digits idx 1 w).get j = selWord idx d 1 w := fun w => by
    unfold selWord signWords
    split
    · rw [queryFix_get _ hj hd h8, querySel_get _ _ _ hj hd h8]; split <;> simp_all
    · rw [querySel_get _ _ _ hj hd h8]; split <;> simp_all
  have hT : ∀ w, (querySel digits idx 2 w).get j = selWord idx d 2 w := fun w => by
    unfold selWord signWords
    rw [querySel_get _ _ _ hj hd h8]; split <;> simp_all
  have rA := limbs7_rp (selWord idx d 0)
  have rS := limbs7_rp (selWord idx d 1)
  have rT := limbs7_rpT (selWord idx d 2) k3
  have oC : leB canonB tight = true := by decide +kernel
  have hg : ∀ b, excluded idx (signed b d) = false → (if b then
      gapOk (limbs7 (selWord idx d 0)).ints (limbs7 (selWord idx d 1)).ints else
      gapOk (limbs7 (selWord idx d 1)).ints (limbs7 (selWord idx d 0)).ints) = true := by
    intro b hb
    by_cases h : d = 0
    · subst h
      have e0 : selWord idx 0 0 = selWord 0 0 0 := rfl
      have e1 : selWord idx 0 1 = selWord 0 0 0 := by
        funext w; unfold selWord; simp
      rw [e0, e1]
      cases b <;> exact gap_one
    · have := entryGap_of idx d hi (by omega) h8
      rw [selWord_pos h, selWord_pos h]
      cases b with
      | false => exact this.1 hb
      | true => exact this.2 hb
  simp only [query_table, Pre4way.lane, ofWords7_lane _ _ hj, zip_sign_lane _ _ _ hj, XOR_get,
    AND_get, hA, hS, hT, hs]
  cases neg with
  | false =>
    have := hg false
    simp only [Bool.false_eq_true, if_false, swap0, swap0', signed, natCast_zsmul] at this ⊢
    exact ⟨⟨_, _, _, rA.mono oC, rS.mono oC, query_rp0 rT, kp⟩, (rA.mono oC).1, (rS.mono oC).1, this⟩
  | true =>
    have := hg true
    simp only [if_true, swap1, swap1', signed, neg_smul, natCast_zsmul] at this ⊢
    exact ⟨⟨_, _, _, rS.mono oC, rA.mono oC, query_rp1 rT, kp.neg⟩, (rS.mono oC).1, (rA.mono oC).1,
      this⟩

end Verif.Ed448
