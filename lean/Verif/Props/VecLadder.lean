import Verif.Vec.SharedMemLemmas
import Verif.Vec.AccessLemmas
import Verif.Props.X25519
import Verif.Props.X448
import Verif.Props.Fp25519Full
import Verif.Props.Fp448Full

/-!
# Properties C77 and C78: the vector ladders on memory

`shared25519` and `shared448` of Vec/SharedMem.lean are the functions `X25519.shared` and
`X448.shared` of the vector implementation, statement by statement, on the bytes of the caller and
the local objects; `L25519.ladder` and `L448.ladder` of Vec/Ladder.lean are the programs of their
main loops.  The three pointers are arbitrary numbers: the ranges may overlap in any way. -/

namespace Verif.Vec

set_option exponentiation.threshold 2000

/-! ## C77 -/

/-- C77, X25519: for all memories and all three pointers, overlapping or not, `shared_secret`
receives the X25519 function of the bytes that were at `secret_key` and `session_key` when the
function was called; no other byte of the caller changes, so the keys keep their values where
`shared_secret` does not cover them; and the local copy of the secret key is zero at the end. -/
theorem C77_x25519 (isa : Fp25519.Isa) (ρ : ℕ → Regs) (shared_secret session_key secret_key : ℕ)
    (w : World) :
    let w' := shared25519 isa ρ shared_secret session_key secret_key w
    X25519.IsX25519 (bytesAt w.caller secret_key 32) (bytesAt w.caller session_key 32)
        (bytesAt w'.caller shared_secret 32) ∧
      (∀ a, ¬(shared_secret ≤ a ∧ a < shared_secret + 32) → w'.caller a = w.caller a) ∧
      w'.loc 0 0 = LIT 0 := by
  obtain ⟨m, h, hz⟩ := shared25519_spec isa ρ shared_secret session_key secret_key w
  have hl : (X25519.Avx2.shared isa (bytesAt w.caller session_key 32)
      (bytesAt w.caller secret_key 32)).length = 32 := (Fp25519.C04_ser_canonical _).1
  rw [h]
  refine ⟨?_, fun a ha => storeAt_other (by rw [hl]; exact ha), hz⟩
  rw [bytesAt_storeAt hl]
  exact X25519.C15_shared_avx2 isa _ _ (length_bytesAt _ _ _) (length_bytesAt _ _ _)

/-- C77, X448: the same for 56 bytes, the result being that of the function of the model. -/
theorem C77_x448 (ρ : ℕ → Regs) (shared_secret session_key secret_key : ℕ) (w : World) :
    let w' := shared448 ρ shared_secret session_key secret_key w
    bytesAt w'.caller shared_secret 56
        = X448.shared (bytesAt w.caller session_key 56) (bytesAt w.caller secret_key 56) ∧
      (∀ a, ¬(shared_secret ≤ a ∧ a < shared_secret + 56) → w'.caller a = w.caller a) ∧
      toF7 (w'.loc 0 0) (w'.loc 0 1) = ⟨0, 0, 0, 0, 0, 0, 0⟩ := by
  obtain ⟨m, h, hz⟩ := shared448_spec ρ shared_secret session_key secret_key w
  have hl : (X448.shared (bytesAt w.caller session_key 56)
      (bytesAt w.caller secret_key 56)).length = 56 := (Fp448.C41_ser_canonical _).1
  rw [h]
  exact ⟨bytesAt_storeAt hl, fun a ha => storeAt_other (by rw [hl]; exact ha), hz⟩

/-- C77, X448, in terms of the curve: where the final serialisation is right (`Safe`, C45), the
bytes are the encoding of the X448 value. -/
theorem C77_x448_value (ρ : ℕ → Regs) (shared_secret session_key secret_key : ℕ) (w : World)
    {v : Fp448.Fp} (hv : X448.IsProduct (bytesAt w.caller secret_key 56)
      (bytesAt w.caller session_key 56) v) (hs : X448.Safe (Fp448.canon v)) :
    bytesAt (shared448 ρ shared_secret session_key secret_key w).caller shared_secret 56
      = X448.encode v := by
  rw [(C77_x448 ρ shared_secret session_key secret_key w).1]
  exact X448.C45_shared_partial _ _ (length_bytesAt _ _ _) (length_bytesAt _ _ _) hv hs

/-- In place, over the session key and half of the secret key. -/
example (isa : Fp25519.Isa) (ρ : ℕ → Regs) (w : World) :
    X25519.IsX25519 (bytesAt w.caller 16 32) (bytesAt w.caller 0 32)
        (bytesAt (shared25519 isa ρ 0 0 16 w).caller 0 32) ∧
      (shared25519 isa ρ 0 0 16 w).caller 40 = w.caller 40 :=
  ⟨(C77_x25519 isa ρ 0 0 16 w).1, (C77_x25519 isa ρ 0 0 16 w).2.1 40 (by decide)⟩

/-- Two bytes written at the address 5. -/
example : bytesAt (storeAt (fun _ => 0#8) 5 [1#8, 2#8]) 4 4 = [0#8, 1#8, 2#8, 0#8] := by
  decide +kernel

/-! ## C78 -/

/-- C78, X25519: the main loop leaves the two points of the ladder of the model in memory, reads
the key without changing it, and changes nothing but the points and its local arrays. -/
theorem C78_ladder_25519 (m : Mem) (ρ : Regs) (K X Z S : Place) (hkx : Apart K 1 X 5)
    (hkz : Apart K 1 Z 5) (hks : Apart K 1 S 20) (hxz : Apart X 5 Z 5) (hxs : Apart X 5 S 20)
    (hzs : Apart Z 5 S 20) :
    let m' := L25519.ladder.call [K, X, Z, S] m ρ
    let s := X25519.Avx2.mainLoop (e2.at m X) (toF4 (m K.1 K.2)) ⟨e2.at m X, e2.at m Z, 0#64⟩
    e2.at m' X = s.X2X3 ∧ e2.at m' Z = s.Z2Z3 ∧ m' K.1 K.2 = m K.1 K.2 ∧
      ∀ o c, ¬In X 5 o c → ¬In Z 5 o c → ¬In S 20 o c → m' o c = m o c := by
  obtain ⟨h1, h2, h3⟩ := ladder25519_call m ρ hkx hkz hks hxz hxs hzs
  have hk : In K 1 K.1 K.2 := ⟨rfl, le_refl _, Nat.lt_succ_self _⟩
  exact ⟨h1, h2, h3 _ _ (fun h => hkx _ _ ⟨hk, h⟩) (fun h => hkz _ _ ⟨hk, h⟩)
    (fun h => hks _ _ ⟨hk, h⟩), h3⟩

/-- C78, X448. -/
theorem C78_ladder_448 (m : Mem) (ρ : Regs) (K X Z S : Place) (hkx : Apart K 2 X 8)
    (hkz : Apart K 2 Z 8) (hks : Apart K 2 S 32) (hxz : Apart X 8 Z 8) (hxs : Apart X 8 S 32)
    (hzs : Apart Z 8 S 32) :
    let m' := L448.ladder.call [K, X, Z, S] m ρ
    let s := X448.mainLoop (g2.at m X) (toF7 (m K.1 K.2) (m K.1 (K.2 + 1)))
      ⟨g2.at m X, g2.at m Z, 0#64⟩
    g2.at m' X = s.X2X3 ∧ g2.at m' Z = s.Z2Z3 ∧
      (m' K.1 K.2 = m K.1 K.2 ∧ m' K.1 (K.2 + 1) = m K.1 (K.2 + 1)) ∧
      ∀ o c, ¬In X 8 o c → ¬In Z 8 o c → ¬In S 32 o c → m' o c = m o c := by
  obtain ⟨h1, h2, h3⟩ := ladder448_call m ρ hkx hkz hks hxz hxs hzs
  have hk : ∀ i < 2, In K 2 K.1 (K.2 + i) := fun i hi => ⟨rfl, by omega, by omega⟩
  have hq : ∀ i < 2, L448.ladder.call [K, X, Z, S] m ρ K.1 (K.2 + i) = m K.1 (K.2 + i) :=
    fun i hi => h3 _ _ (fun h => hkx _ _ ⟨hk i hi, h⟩) (fun h => hkz _ _ ⟨hk i hi, h⟩)
      (fun h => hks _ _ ⟨hk i hi, h⟩)
  exact ⟨h1, h2, ⟨hq 0 (by decide), hq 1 (by decide)⟩, h3⟩

/-- C78: every access of the two main loops is inside the key, a point or the local arrays, every
store is inside a point or the local arrays, and every vector that is read from a constant array
is aligned.  The accesses are a list that is made from the pointers only: no bit of the key can
change an address. -/
theorem C78_accesses : ∀ f ∈ [L25519.ladder, L448.ladder], ∀ l,
    (∀ a ∈ f.accesses l, f.Inside l a) ∧ f.Aligned l := by
  intro f hf l
  rcases List.mem_pair.1 hf with rfl | rfl
  · exact ⟨inside_of l_check l, aligned_of l_align l⟩
  · exact ⟨inside_of k_check l, aligned_of k_align l⟩

/-- C78: what is left in memory does not depend on the registers, on what the local arrays held,
or on other memory. -/
theorem C78_local_25519 (m m' : Mem) (ρ ρ' : Regs) (K X Z S : Place) (hkx : Apart K 1 X 5)
    (hkz : Apart K 1 Z 5) (hks : Apart K 1 S 20) (hxz : Apart X 5 Z 5) (hxs : Apart X 5 S 20)
    (hzs : Apart Z 5 S 20) (hk : m K.1 K.2 = m' K.1 K.2) (hx : e2.at m X = e2.at m' X)
    (hz : e2.at m Z = e2.at m' Z) :
    e2.at (L25519.ladder.call [K, X, Z, S] m ρ) X = e2.at (L25519.ladder.call [K, X, Z, S] m' ρ') X ∧
      e2.at (L25519.ladder.call [K, X, Z, S] m ρ) Z
        = e2.at (L25519.ladder.call [K, X, Z, S] m' ρ') Z := by
  obtain ⟨h1, h2, -⟩ := ladder25519_call m ρ hkx hkz hks hxz hxs hzs
  obtain ⟨h1', h2', -⟩ := ladder25519_call m' ρ' hkx hkz hks hxz hxs hzs
  rw [hk, hx, hz] at h1 h2
  exact ⟨h1.trans h1'.symm, h2.trans h2'.symm⟩

/-- The places of `x25519_shared_avx2` meet the hypotheses. -/
example : Apart (0, 0) 1 (2, 0) 5 ∧ Apart (2, 0) 5 (3, 0) 5 ∧ Apart (3, 0) 5 (10, 0) 20 :=
  ⟨apart_obj (by decide), apart_obj (by decide), apart_obj (by decide)⟩

end Verif.Vec
