import Verif.Vec.LinkQuery
import Verif.Vec.AccessLemmas

/-!
# Accesses of the table queries -/

namespace Verif.Vec

theorem t_query_consts (idx : ℕ) : (query25519 idx).body.flatMap Stmt.consts
    = (List.range 96).map fun n => (0, 48 * idx + n / 2) := by kernel_refl

theorem u_query_consts (idx : ℕ) : (query448 idx).body.flatMap Stmt.consts
    = (List.range 168).map fun n => (0, 42 * idx + n / 4) := by kernel_refl

theorem const_mem {f : Fn} {l : List Place} {j i : ℕ} :
    Access.const j i ∈ f.accesses l ↔ (j, i) ∈ f.body.flatMap Stmt.consts := by
  simp only [Fn.accesses, List.mem_flatMap]
  exact ⟨fun ⟨s, hs, h⟩ => ⟨s, hs, Stmt.consts_acc s h⟩,
    fun ⟨s, hs, h⟩ => ⟨s, hs, Stmt.acc_consts s h⟩⟩

theorem t_query_reads (idx j c : ℕ) (l : List Place) :
    Access.const j c ∈ (query25519 idx).accesses l ↔ j = 0 ∧ 48 * idx ≤ c ∧ c < 48 * idx + 48 := by
  rw [const_mem, t_query_consts]
  simp only [List.mem_map, List.mem_range, Prod.mk.injEq]
  exact ⟨fun ⟨n, hn, h1, h2⟩ => by omega, fun h => ⟨2 * (c - 48 * idx), by omega⟩⟩

theorem u_query_reads (idx j c : ℕ) (l : List Place) :
    Access.const j c ∈ (query448 idx).accesses l ↔ j = 0 ∧ 42 * idx ≤ c ∧ c < 42 * idx + 42 := by
  rw [const_mem, u_query_consts]
  simp only [List.mem_map, List.mem_range, Prod.mk.injEq]
  exact ⟨fun ⟨n, hn, h1, h2⟩ => by omega, fun h => ⟨4 * (c - 42 * idx), by omega⟩⟩

theorem t_query_align (idx : ℕ) : alignOk (query25519 idx).aligns (query25519 idx).body = true := by
  kernel_refl

theorem u_query_align (idx : ℕ) : alignOk (query448 idx).aligns (query448 idx).body = true := by
  kernel_refl

end Verif.Vec
