import Verif.H2c.X64Lemmas
import Verif.Ed25519.Order
import Verif.Props.Sha512

/-!
# C37, C38: hashing to edwards25519, 64-bit code

`MapsTo` (Verif/H2c/Spec.lean) is Elligator 2 followed by the birational map; `Pt` is the group of
points of edwards25519.
-/

namespace Verif.H2c

open Verif.Fp25519 Verif.Ed25519

/-- The field element derived from the message: the reduced SHA-512 digest of the prefix byte and
the message. -/
def fieldOf (pfx : Byte) (msg : List Byte) : Fp :=
  (leNat (reduceBytes (Sha512.sha512 (pfx :: msg))) : Fp)

theorem reduceBytes_length (b : List Byte) : (reduceBytes b).length = 32 := rfl

theorem hash_to_field_toFp (ctx : Sha512.Ctx) (hctx : ctx.buf.length = 128) (pfx : Byte)
    (msg : List Byte) (h : msg.length + 1 < 2 ^ 64) :
    (hash_to_field ctx pfx msg).toFp = fieldOf pfx msg := by
  rw [hash_to_field_eq ctx hctx pfx msg h, F4.toFp, F4.ofBytes_val (reduceBytes_length _),
    Int.cast_natCast]
  rfl

/-- C37: the result is eight times the sum of the images, under the map, of the two field elements
derived from the message. -/
theorem C37_map (isa : Isa) (ctx0 ctx1 : Sha512.Ctx) (h0 : ctx0.buf.length = 128)
    (h1 : ctx1.buf.length = 128) (msg : List Byte) (h : msg.length + 1 < 2 ^ 64) :
    ∃ Q0 Q1 : Pt, MapsTo (fieldOf 0#8 msg) Q0 ∧ MapsTo (fieldOf 1#8 msg) Q1 ∧
      (h2c25519_x64 isa ctx0 ctx1 msg).X.toFp = (8 • (Q0 + Q1)).x ∧
      (h2c25519_x64 isa ctx0 ctx1 msg).Y.toFp = (8 • (Q0 + Q1)).y := by
  obtain ⟨Q0, m0, i0⟩ := map_to_curve_spec isa (hash_to_field ctx0 0#8 msg)
  obtain ⟨Q1, m1, i1⟩ := map_to_curve_spec isa (hash_to_field ctx1 1#8 msg)
  rw [hash_to_field_toFp _ h0 _ _ h] at m0
  rw [hash_to_field_toFp _ h1 _ _ h] at m1
  refine ⟨Q0, Q1, m0, m1, ?_⟩
  rw [smul_add]
  exact toAffine_spec isa (fulladd_1w_full_spec isa (clear_cofactor_spec isa i0)
    (clear_cofactor_spec isa i1))

/-- C37: every field element is mapped to exactly one point, so `C37_map` determines the result. -/
theorem C37_map_function (u : Fp) : ∃! Q : Pt, MapsTo u Q := by
  obtain ⟨n, hn, rfl⟩ : ∃ n : ℕ, n < 2 ^ 256 ∧ u = (n : Fp) :=
    ⟨u.val, u.val_lt.trans (by norm_num [p25519]), (ZMod.natCast_zmod_val u).symm⟩
  obtain ⟨Q, hQ, -⟩ := map_to_curve_spec ⟨true, true⟩ (F4.ofBytes (leBytes 32 n))
  rw [F4.toFp, F4.ofBytes_val (leBytes_length _ _), leNat_leBytes,
    Nat.mod_eq_of_lt (hn.trans_le (by norm_num)),
    Int.cast_natCast] at hQ
  exact ⟨Q, hQ, fun R hR => hR.unique hQ⟩

/-- C37: for every message the result satisfies the equation of edwards25519. -/
theorem C37_on_curve (isa : Isa) (ctx0 ctx1 : Sha512.Ctx) (h0 : ctx0.buf.length = 128)
    (h1 : ctx1.buf.length = 128) (msg : List Byte) (h : msg.length + 1 < 2 ^ 64) :
    let P := h2c25519_x64 isa ctx0 ctx1 msg
    P.Y.toFp ^ 2 - P.X.toFp ^ 2 = 1 + d * P.X.toFp ^ 2 * P.Y.toFp ^ 2 := by
  obtain ⟨Q0, Q1, -, -, hx, hy⟩ := C37_map isa ctx0 ctx1 h0 h1 msg h
  have := (8 • (Q0 + Q1)).on
  rw [curve_a, curve_d, ← hx, ← hy] at this
  linear_combination this

/-- C38: for every message the result is a point of the curve that the group order kills. -/
theorem C38_subgroup (isa : Isa) (ctx0 ctx1 : Sha512.Ctx) (h0 : ctx0.buf.length = 128)
    (h1 : ctx1.buf.length = 128) (msg : List Byte) (h : msg.length + 1 < 2 ^ 64) :
    ∃ Q : Pt, (h2c25519_x64 isa ctx0 ctx1 msg).X.toFp = Q.x ∧
      (h2c25519_x64 isa ctx0 ctx1 msg).Y.toFp = Q.y ∧ ell • Q = 0 := by
  obtain ⟨Q0, Q1, -, -, hx, hy⟩ := C37_map isa ctx0 ctx1 h0 h1 msg h
  exact ⟨_, hx, hy, ell_smul_eight _⟩

/-- C38: the group order is prime, so the result is the neutral point or generates the subgroup of
that order; the whole group has 8 times as many points. -/
theorem C38_order : ell.Prime ∧ Nat.card Pt = 8 * ell := ⟨ell_prime, card_pt⟩

/-- C37: the public check accepts exactly the points of the curve. -/
theorem C37_isOnCurve (isa : Isa) (P : Point) :
    isOnCurve isa P = true ↔
      P.Y.toFp ^ 2 - P.X.toFp ^ 2 = 1 + d * P.X.toFp ^ 2 * P.Y.toFp ^ 2 := by
  have hd : paramD.toFp = d := by
    rw [const_toFp (n := dN) (by decide +kernel)]; rfl
  unfold isOnCurve
  simp only [beq_iff_eq, Full.cmp_result, Full.sub_toFp, Full.mul_toFp, Full.sqr_toFp, hd,
    one_toFp, Full.zero_toFp]
  constructor <;> intro h <;> linear_combination h

/-- C37: the public check accepts the result for every message. -/
theorem C37_check (isa : Isa) (ctx0 ctx1 : Sha512.Ctx) (h0 : ctx0.buf.length = 128)
    (h1 : ctx1.buf.length = 128) (msg : List Byte) (h : msg.length + 1 < 2 ^ 64) :
    isOnCurve isa (h2c25519_x64 isa ctx0 ctx1 msg) = true :=
  (C37_isOnCurve isa _).2 (C37_on_curve isa ctx0 ctx1 h0 h1 msg h)

/-- C37: the public comparison tells whether two points have the same coordinates. -/
theorem C37_areEqual (P Q : Point) :
    areEqual P Q = true ↔ P.X.toFp = Q.X.toFp ∧ P.Y.toFp = Q.Y.toFp := by
  unfold areEqual
  rw [Bool.and_eq_true, beq_iff_eq, beq_iff_eq, Full.cmp_result, Full.cmp_result]

/-- C37: the internal check on extended coordinates. -/
theorem C37_isOnCurveProy (isa : Isa) (P : P1full) :
    isOnCurveProy isa P = true ↔
      P.Y.toFp ^ 2 - P.X.toFp ^ 2 = P.Z.toFp ^ 2 + d * P.T.toFp ^ 2 ∧
      P.X.toFp * P.Y.toFp = P.T.toFp * P.Z.toFp := by
  have hd : paramD.toFp = d := by
    rw [const_toFp (n := dN) (by decide +kernel)]; rfl
  unfold isOnCurveProy
  simp only [Bool.and_eq_true, beq_iff_eq, Full.cmp_result, cmp_snd, Full.sub_toFp, Full.mul_toFp,
    Full.sqr_toFp, hd, Full.zero_toFp]
  constructor <;> rintro ⟨h1, h2⟩ <;> constructor <;> first | linear_combination h1 | linear_combination h2

/-- A context, and "abc". -/
def ctxZero : Sha512.Ctx := { buf := List.replicate 128 0#8, val := Sha512.H512, count := 0#64 }

def abc : List Byte := [0x61#8, 0x62#8, 0x63#8]

example : ctxZero.buf.length = 128 ∧ abc.length + 1 < 2 ^ 64 :=
  ⟨List.length_replicate, by decide⟩

/-- The point to which the model hashes "abc". -/
example : (let P := h2c25519_x64 ⟨true, true⟩ ctxZero ctxZero abc; (P.X.val, P.Y.val)) =
    (10984699007506484268615704902710621483764229225329773912565455978160725388688,
      62811096179062008830064496123058677340854304420975008607697244471111731431774) := by
  decide +kernel

/-- The digest is reduced modulo the group order, not modulo the field prime as in the draft: the
field element is not the digest modulo p. -/
theorem C37_field_not_digest_mod_p :
    ∃ msg : List Byte, fieldOf 0#8 msg ≠ (leNat (Sha512.sha512 (0#8 :: msg)) : Fp) := by
  refine ⟨abc, fun h => ?_⟩
  have e := Sha512.C34_sha512 ctxZero List.length_replicate [0#8 :: abc] (by decide)
  rw [show [0#8 :: abc].flatten = 0#8 :: abc from rfl] at e
  unfold fieldOf at h
  rw [← e] at h
  have h := (ZMod.natCast_eq_natCast_iff _ _ _).1 h
  revert h
  unfold Nat.ModEq
  decide +kernel

end Verif.H2c
