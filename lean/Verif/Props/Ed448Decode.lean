import Verif.Ed448.DecodeLemmas

/-!
# C47: decoding of Ed448 public keys

The property: decoding succeeds exactly on the encodings of points of Ed448 (`Decodes`, RFC 8032
section 5.2.3), and gives the point.  It is false of the code in both directions.  Valid keys are
rejected when a limb of y² is zero, because 1 is subtracted from that limb only (`C47_wrong`);
strings that are no encodings are accepted (`C47_noncanonical`, `C47_ignored`).  For all other
keys, in the sense of `DecodeClear`, the decoding is right.
-/

namespace Verif.Ed448

open Verif.Fp448

set_option exponentiation.threshold 2000

/-- The y-coordinate read from a string. -/
def readY (b : List Byte) : Fp := (leNat (b.take 56) : Fp)

/-- C47, partial: for all 57-byte strings with a `DecodeClear` coordinate, decoding succeeds if and
only if a point with this y-coordinate exists. -/
theorem C47_accept_partial (b : List Byte) (hb : b.length = 57) (h : DecodeClear (readY b)) :
    (point_decoding b).isSome ↔ ∃ A : Pt, A.y = readY b := by
  have hY : Rp tight (decodeY b).limbs (readY b) := unser_rp _ (by rw [List.length_take, hb]; rfl)
  rw [← decodeCmp_iff hY h]
  unfold point_decoding
  simp only
  split <;> simp_all

/-- C47, partial: and the result represents the negative of the point with the x-coordinate
selected by the top bit, in both layouts.  The hypotheses: `DecodeClear`, x not within 2^282 of 0,
and no limb of the difference of the squares below zero. -/
theorem C47_point_partial (b : List Byte) (hb : b.length = 57) (A : Pt) (hA : A.y = readY b)
    (hs : canon A.x % 2 = signBit b) (h : DecodeClear (readY b)) (h1 : 2 ^ 282 ≤ canon A.x)
    (h2 : canon A.x + 2 ^ 282 ≤ P)
    (hn : DecodeNoBorrow (decodeX b) (decodeY b)) :
    ∃ Q4 Q2, point_decoding b = some (Q4, Q2) ∧ Is4w Q4 (-A) ∧ Is2w Q2 (-A) := by
  have hY : Rp tight (decodeY b).limbs (readY b) := unser_rp _ (by rw [List.length_take, hb]; rfl)
  have hc := (decodeCmp_iff hY h).2 ⟨A, hA⟩
  obtain ⟨c1, c2, -, -⟩ := h
  rw [← hA] at hY c1 c2
  have hr := decodeRoot_rp (decodeU_rp hY c1) (decodeV_rp hY c2).sq
  have hX : Rp xB (decodeX b).limbs A.x := by
    refine decodeSign_rp ?_ ?_ h1 h2
    · rcases root_pt A with e | e <;> rw [e] at hr
      · exact Or.inl hr
      · exact Or.inr hr
    · rw [hs, signBit_eq hb]
  have := decodeOut_spec hX hY hn
  refine ⟨_, _, ?_, this⟩
  unfold point_decoding
  simp only
  rw [if_neg (not_not.2 hc)]

/-- C47, partial: the same in terms of the encodings of RFC 8032. -/
theorem C47_decodes_partial (b : List Byte) (hb : b.length = 57) (A : Pt) (hA : Decodes b A)
    (h : DecodeClear A.y) (h1 : 2 ^ 282 ≤ canon A.x) (h2 : canon A.x + 2 ^ 282 ≤ P)
    (hn : DecodeNoBorrow (decodeX b) (decodeY b)) :
    ∃ Q4 Q2, point_decoding b = some (Q4, Q2) ∧ Is4w Q4 (-A) ∧ Is2w Q2 (-A) := by
  have e : A.y = readY b := by rw [hA.2.1, readY, take_of_lt hA.1]
  rw [e] at h
  exact C47_point_partial b hb A e hA.2.2.1 h h1 h2 hn

/-- C47: what is read of the string: 56 bytes and the top bit. -/
theorem C47_ignored (b b' : List Byte) (h : b.take 56 = b'.take 56)
    (h' : b.getD 56 0 >>> 7 = b'.getD 56 0 >>> 7) : point_decoding b = point_decoding b' := by
  have e : decodeY b = decodeY b' := by rw [decodeY, decodeY, h]
  simp only [point_decoding, decodeX, e, h']

/-! ## Witnesses -/

/-- `DecodeClear`, by numbers. -/
theorem decodeClear_nat {n : ℕ} (h1 : 4 < n ^ 2 % P % 2 ^ 28) (h2 : 4 < dN * n ^ 2 % P % 2 ^ 28)
    (h3 : SafeSq (NPt.sub (n ^ 2) 1 % P)) (h4 : SafeSq (NPt.sub 1 (n ^ 2) % P)) :
    DecodeClear (n : Fp) := by
  have c : ∀ m : ℕ, canon (m : Fp) = m % P := fun m => ZMod.val_natCast P m
  have e1 : ((n : Fp)) ^ 2 = ((n ^ 2 : ℕ) : Fp) := by push_cast; rfl
  have e2 : d * ((n ^ 2 : ℕ) : Fp) = ((dN * n ^ 2 : ℕ) : Fp) := by push_cast; rfl
  have e3 : ((n ^ 2 : ℕ) : Fp) - 1 = ((NPt.sub (n ^ 2) 1 : ℕ) : Fp) := by
    rw [NPt.sub_cast, Nat.cast_one]
  have e4 : 1 - ((n ^ 2 : ℕ) : Fp) = ((NPt.sub 1 (n ^ 2) : ℕ) : Fp) := by
    rw [NPt.sub_cast, Nat.cast_one]
  unfold DecodeClear
  rw [e1, e2, e3, e4, c, c, c, c]
  exact ⟨h1, h2, h3, h4⟩

theorem B_canon : canon B.x = Bx ∧ canon B.y = By :=
  ⟨canon_natCast (by decide +kernel), canon_natCast (by decide +kernel)⟩

theorem encode_B : encode B = leBytes 57 By := by
  rw [encode, B_canon.1, B_canon.2, show Bx % 2 = 0 by decide +kernel, mul_zero, add_zero]

/-- The base point meets the hypotheses: its encoding is decoded to its negative. -/
example : ∃ Q4 Q2, point_decoding (encode B) = some (Q4, Q2) ∧ Is4w Q4 (-B) ∧ Is2w Q2 (-B) := by
  refine C47_decodes_partial _ (encode_length _) B (decodes_encode B) ?_ ?_ ?_ ?_
  · exact decodeClear_nat (n := By) (by decide +kernel) (by decide +kernel) (by decide +kernel)
      (by decide +kernel)
  · rw [B_canon.1]; decide +kernel
  · rw [B_canon.1]; decide +kernel
  · rw [encode_B]; decide +kernel

/-- A y-coordinate without a point, which is rejected. -/
example : ¬ (point_decoding (leBytes 57 6)).isSome ∧ DecodeClear (readY (leBytes 57 6)) := by
  have h : DecodeClear (readY (leBytes 57 6)) := by
    have : readY (leBytes 57 6) = ((6 : ℕ) : Fp) := by
      rw [readY, show leNat ((leBytes 57 6).take 56) = 6 by decide +kernel]
    rw [this]
    exact decodeClear_nat (by decide +kernel) (by decide +kernel) (by decide +kernel)
      (by decide +kernel)
  exact ⟨by decide +kernel, h⟩

/-- The point with y = 10·2^14. -/
def rejX : ℕ := 186172424386234475236136614480372635257086600202835890442010192776503807042324543479561819317974816179688299289680294000920311370656034

def rejA : Pt := ⟨(rejX : Fp), ((163840 : ℕ) : Fp), on_nat (by decide +kernel)⟩

/-- A quarter of it, and its image. -/
def rejQx : ℕ := 487424247855768014766376579826126589035520413246992547203256059520591708431611072984899651946764359702401216177276323360444826257040971
def rejQy : ℕ := 649074834776317812854328614955684734584082576606002261331406106944788421276096070324216463885309855862183399189850586888243466478563763

def rejQ : Pt := ⟨(rejQx : Fp), (rejQy : Fp), on_nat (by decide +kernel)⟩

def nRejX : ℕ := 421081055792792009196965214665504830326657347952431800581960979614414943220387421770986127956361977936524081506936506903811727099457735
def nRejY : ℕ := 517819370105264641528205256159075420255310720892904944639718645408744864683665661635542121733128126456759027799847253733800723356902432

def nRej : NPt := ⟨nRejX, nRejY, 1, nRejX * nRejY % P⟩

theorem nRej_is : nRej.Is rejQ :=
  image_nat rfl rfl (by decide +kernel) (by decide +kernel) (by decide +kernel) (by decide +kernel)

theorem four_rejQ : 4 • rejQ = rejA := by
  obtain ⟨n1, n2, ex, ey⟩ := Edw.RepI.dual iso nRej_is
  refine Edw.Pt.ext (mul_right_cancel₀ n1 (ex.trans ?_)) (mul_right_cancel₀ n2 (ey.trans ?_))
  · have h := natEq (m := 2 * (nRej.X * nRej.Y)) (n := rejX * (nRej.X ^ 2 + nRej.Y ^ 2))
      (by decide +kernel)
    push_cast at h
    exact h
  · have h := natEq (m := NPt.sub (nRej.Y ^ 2) (nRej.X ^ 2))
      (n := 163840 * (NPt.sub (2 * nRej.Z ^ 2) (nRej.Y ^ 2) + nRej.X ^ 2)) (by decide +kernel)
    push_cast [NPt.sub_cast] at h
    exact h

theorem order_rejA : order • rejA = 0 := by
  have h := (nRej_is.mul 446 order (by decide +kernel)).four_of_isZero (by decide +kernel)
  rw [← four_rejQ, ← mul_nsmul, mul_comm, mul_nsmul]
  exact h

theorem rejA_ne : rejA ≠ 0 := by
  intro h
  have := congrArg Edw.Pt.x h
  rw [Edw.Pt.zero_x] at this
  exact natNe (m := rejX) (by decide +kernel) this

theorem encode_rejA : encode rejA = leBytes 57 163840 := by
  have e1 : canon rejA.x = rejX := canon_natCast (by decide +kernel)
  have e2 : canon rejA.y = 163840 := canon_natCast (by decide +kernel)
  rw [encode, e1, e2, show rejX % 2 = 0 by decide +kernel, mul_zero, add_zero]

/-- C47 is false: there is a point of the prime-order subgroup, with y = 163840, whose encoding is
rejected. -/
theorem C47_wrong : ∃ A : Pt, A ≠ 0 ∧ order • A = 0 ∧ Decodes (encode A) A ∧
    point_decoding (encode A) = none := by
  refine ⟨rejA, rejA_ne, order_rejA, decodes_encode _, ?_⟩
  rw [encode_rejA, ← Option.isNone_iff_eq_none]
  decide +kernel

/-- C47 is false in the other direction: a y-coordinate that is not reduced, and the point (0, 1)
with the sign bit set, are accepted although they are no encodings. -/
theorem C47_noncanonical :
    ((point_decoding (leBytes 57 (P + 3))).isSome ∧ ∀ A, ¬ Decodes (leBytes 57 (P + 3)) A) ∧
    ((point_decoding (leBytes 57 (1 + 2 ^ 455))).isSome ∧
      ∀ A, ¬ Decodes (leBytes 57 (1 + 2 ^ 455)) A) := by
  refine ⟨⟨by decide +kernel, fun A h => ?_⟩, ⟨by decide +kernel, fun A h => ?_⟩⟩
  · exact absurd h.1 (by decide +kernel)
  · obtain ⟨-, hy, hs, h0⟩ := h
    have e1 : yNum (leBytes 57 (1 + 2 ^ 455)) = 1 := by decide +kernel
    have e2 : signBit (leBytes 57 (1 + 2 ^ 455)) = 1 := by decide +kernel
    rw [e1, Nat.cast_one] at hy
    have hx : A.x = 0 := by
      have := pt_eq A
      rw [hy] at this
      have k := v_ne 1
      have : (d * 1 ^ 2 - 1) * A.x ^ 2 = 0 := by rw [this]; ring
      exact pow_eq_zero_iff (two_ne_zero) |>.1 ((mul_eq_zero.1 this).resolve_left k)
    have := h0 hx
    rw [e2] at this
    exact one_ne_zero this

/-- C47: neither are all the strings with the low bits of the last byte set; they give the same
point. -/
theorem C47_ignored_bits (y c : ℕ) (hy : y < 2 ^ 448) (hc : c < 2 ^ 7) (s : ℕ) (hs : s < 2) :
    point_decoding (leBytes 57 (y + 2 ^ 448 * c + 2 ^ 455 * s)) =
      point_decoding (leBytes 57 (y + 2 ^ 455 * s)) ∧
    (c ≠ 0 → ∀ A, ¬ Decodes (leBytes 57 (y + 2 ^ 448 * c + 2 ^ 455 * s)) A) := by
  have key : ∀ c < 2 ^ 7, leNat (leBytes 57 (y + 2 ^ 448 * c + 2 ^ 455 * s)) =
      y + 2 ^ 448 * c + 2 ^ 455 * s := fun c hc => by
    rw [leNat_leBytes, Nat.mod_eq_of_lt]
    norm_num; omega
  have k0 := key 0 (by norm_num)
  rw [mul_zero, add_zero] at k0
  constructor
  · refine C47_ignored _ _ (leNat_inj (by simp) ?_) ?_
    · rw [leNat_take, leNat_take, key c hc, k0]
      norm_num; omega
    · have e : ∀ b b' : Byte, (b >>> 7).setWidth 64 = ((b' >>> 7).setWidth 64 : W) → b >>> 7 = b' >>> 7 := by
        intro b b' h
        have := congrArg BitVec.toNat h
        simp only [BitVec.toNat_setWidth] at this
        apply BitVec.eq_of_toNat_eq
        have := (b >>> 7).isLt
        have := (b' >>> 7).isLt
        omega
      apply e
      apply BitVec.eq_of_toNat_eq
      rw [signBit_eq (leBytes_length _ _), signBit_eq (leBytes_length _ _), signBit, signBit, key c hc,
        k0]
      omega
  · intro h0 A h
    have h1 := h.1
    rw [yNum, key c hc] at h1
    have h2 : P < 2 ^ 448 := by decide +kernel
    omega

end Verif.Ed448
