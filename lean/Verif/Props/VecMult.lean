import Verif.Vec.MultMemLemmas
import Verif.Vec.QueryAccess
import Verif.Props.Ed25519Point
import Verif.Props.Ed448Point

/-!
# Property C80: the multiplication by the base point on memory, and its table accesses

`query25519 idx` and `query448 idx` are the table queries of src/edwards255.c and
src/edwards448.c as programs, and `mult25519` and `mult448` the multiplications that use them.
The statements quantify over all memories, all contents of the registers and of the local objects
before the call, and all scalars. -/

namespace Verif.Vec

set_option exponentiation.threshold 2000

/-! ## The queries -/

/-- C80, edwards25519.  A query reads the vectors of signs and of digits, writes the selected
points of the sub-table `idx` at P, and changes nothing else. -/
theorem C80_query_25519 (idx : ℕ) (m : Mem) (ρ : Regs) (P S K : Place) (hS : Apart P 30 S 1)
    (hK : Apart P 30 K 1) :
    pre4way.at ((query25519 idx).call [P, S, K] m ρ) P
        = Ed25519.query_table (m S.1 S.2) (m K.1 K.2) idx ∧
      ∀ o c, ¬In P 30 o c → (query25519 idx).call [P, S, K] m ρ o c = m o c :=
  query25519_call idx m ρ hS hK

/-- C80, edwards448. -/
theorem C80_query_448 (idx : ℕ) (m : Mem) (ρ : Regs) (P S K : Place) (hS : Apart P 48 S 1)
    (hK : Apart P 48 K 1) :
    qpre4way.at ((query448 idx).call [P, S, K] m ρ) P
        = Ed448.query_table (m S.1 S.2) (m K.1 K.2) idx ∧
      ∀ o c, ¬In P 48 o c → (query448 idx).call [P, S, K] m ρ o c = m o c :=
  query448_call idx m ρ hS hK

/-- C80, edwards25519.  Which parts of the table are read: the 48 cells of the sub-table `idx`,
all of them whatever the digits and signs are, and nothing else. -/
theorem C80_reads_25519 (idx : ℕ) (l : List Place) (j c : ℕ) :
    Access.const j c ∈ (query25519 idx).accesses l ↔ j = 0 ∧ 48 * idx ≤ c ∧ c < 48 * idx + 48 :=
  t_query_reads idx j c l

/-- C80, edwards448: the 42 cells of the sub-table `idx`. -/
theorem C80_reads_448 (idx : ℕ) (l : List Place) (j c : ℕ) :
    Access.const j c ∈ (query448 idx).accesses l ↔ j = 0 ∧ 42 * idx ≤ c ∧ c < 42 * idx + 42 :=
  u_query_reads idx j c l

/-- C80.  The 16 and 28 queries of a multiplication stay in the tables, of 768 and 1176 cells, and
read every cell. -/
theorem C80_table (l : List Place) (c : ℕ) :
    ((∃ idx < 16, Access.const 0 c ∈ (query25519 idx).accesses l) ↔ c < 768) ∧
      ((∃ idx < 28, Access.const 0 c ∈ (query448 idx).accesses l) ↔ c < 1176) := by
  simp only [C80_reads_25519, C80_reads_448]
  exact ⟨⟨fun ⟨i, hi, h⟩ => by omega, fun h => ⟨c / 48, by omega, trivial, by omega, by omega⟩⟩,
    ⟨fun ⟨i, hi, h⟩ => by omega, fun h => ⟨c / 42, by omega, trivial, by omega, by omega⟩⟩⟩

/-- C80.  The other accesses of a query are inside its parameters, and the table is read at
aligned addresses. -/
theorem C80_accesses (idx : ℕ) (l : List Place) (f : Fn) (hf : f ∈ [query25519 idx, query448 idx]) :
    (∀ a ∈ f.accesses l, f.Inside l a) ∧ f.Aligned l := by
  simp only [List.mem_cons, List.not_mem_nil, or_false] at hf
  rcases hf with rfl | rfl
  · obtain ⟨D, hD, -⟩ := Fn.ok_check (t_query_ok idx)
    exact ⟨inside_of hD l, aligned_of (t_query_align idx) l⟩
  · obtain ⟨D, hD, -⟩ := Fn.ok_check (u_query_ok idx)
    exact ⟨inside_of hD l, aligned_of (u_query_align idx) l⟩

/-! ## The multiplication -/

/-- C80, edwards25519.  The objects from `b` on are the local ones of the function: it leaves in
`rB` the point of the value-level model and changes no other object of its caller. -/
theorem C80_memory_25519 (ρ : ℕ → Regs) (b : ℕ) (rB : Place) (hb : rB.1 < b) (r : List Byte)
    (m : Mem) :
    p2w.at (mult25519 ρ b rB r m) rB = Ed25519.point_multiplication r ∧
      ∀ o c, o < b → ¬In rB 10 o c → mult25519 ρ b rB r m o c = m o c :=
  let h := mult25519_spec ρ b rB hb r m
  ⟨h.1, h.2.1⟩

/-- C80, edwards25519, in terms of the group: it leaves n·B in `rB` for every scalar n up to
0x77...7. -/
theorem C80_multiple_25519 (ρ : ℕ → Regs) (b : ℕ) (rB : Place) (hb : rB.1 < b) (r : List Byte)
    (h : r.length = 32)
    (hr : leNat r ≤ 0x7777777777777777777777777777777777777777777777777777777777777777) (m : Mem) :
    Ed25519.Is2w (p2w.at (mult25519 ρ b rB r m) rB) (leNat r • Ed25519.B) := by
  rw [(C80_memory_25519 ρ b rB hb r m).1]
  exact Ed25519.C25_point_multiplication r h hr

/-- C80, edwards448.  `r` is the scalar after the division by four. -/
theorem C80_memory_448 (ρ : ℕ → Regs) (b : ℕ) (rB : Place) (hb : rB.1 < b) (r : List Byte)
    (m : Mem) :
    q2w.at (mult448 ρ b rB r m) rB = Ed448.point_multiplication r ∧
      ∀ o c, o < b → ¬In rB 16 o c → mult448 ρ b rB r m o c = m o c :=
  let h := mult448_spec ρ b rB hb r m
  ⟨h.1, h.2.1⟩

/-! ## Non-vacuity -/

/-- Multiplication by the group order leaves the neutral point, for any contents of memory. -/
example (ρ : ℕ → Regs) (m : Mem) :
    Ed25519.Is2w (p2w.at (mult25519 ρ 1 (0, 0) (leBytes 32 Ed25519.ell) m) (0, 0)) 0 := by
  have := C80_multiple_25519 ρ 1 (0, 0) (by decide) (leBytes 32 Ed25519.ell) (by simp)
    (by rw [leNat_leBytes, Nat.mod_eq_of_lt (by norm_num)]; norm_num) m
  rwa [leNat_leBytes, Nat.mod_eq_of_lt (by norm_num), Ed25519.ell_B] at this

/-- A multiple of the base point of Ed448. -/
example (ρ : ℕ → Regs) (m : Mem) (u13 u14 : W) :
    Ed448.IsProj2w (q2w.at (mult448 ρ 5 (3, 2) (Ed448.div4 u13 u14 Ed448.sampleScalar) m) (3, 2))
      (Ed448.sampleNum • Ed448.B) := by
  rw [(C80_memory_448 ρ 5 (3, 2) (by decide) _ m).1]
  exact Ed448.sample_mult u13 u14

/-- The digits 1, -2, 8 and 0 of the sub-table 3. -/
example (m : Mem) (ρ : Regs) (hS : m 1 3 = ⟨0, -1, 0, 0⟩) (hK : m 2 3 = ⟨1, 2, 8, 0⟩) :
    ((pre4way.at ((query25519 3).call [(0, 0), (1, 3), (2, 3)] m ρ) (0, 0)).lane 3).addYX.r0 = 1 ∧
      ((pre4way.at ((query25519 3).call [(0, 0), (1, 3), (2, 3)] m ρ) (0, 0)).lane 3).dYX.r5
        = 0x1ffffff ∧
      ((pre4way.at ((query25519 3).call [(0, 0), (1, 3), (2, 3)] m ρ) (0, 0)).lane 0).addYX.r0 ≠
        ((pre4way.at ((query25519 3).call [(0, 0), (1, 3), (2, 3)] m ρ) (0, 0)).lane 1).addYX.r0
      := by
  rw [(C80_query_25519 3 m ρ (0, 0) (1, 3) (2, 3) (apart_obj (by simp)) (apart_obj (by simp))).1,
    hS, hK]
  decide +kernel

end Verif.Vec
