import Verif.Vec.AccessLemmas
import Verif.Vec.LinkPoints25519
import Verif.Vec.LinkPoints448

/-!
# The point formulas in a list, and the checks of their accesses -/

namespace Verif.Vec

/-- The modelled functions of src/edwards255.c without the two of `unalignedPoints`. -/
def points25519 : List Fn := [
  P25519.mixadd_4way, P25519.fulladd_2way, P25519.doubling_2way0, P25519.doubling_2way1,
  P25519.doubling_2w, P25519.mixadd_2w, P25519.mixadd_4w, P25519.doubling_4w,
  P25519.unpack_2w, P25519.unzip_2w, P25519.precompute_4w]

/-- The two functions of src/edwards255.c with a constant in an array that is not aligned. -/
def unalignedPoints : List Fn := [P25519.fulladd_2w, P25519.join_points]

/-- The modelled functions of src/edwards448.c. -/
def points448 : List Fn := [
  P448.mixadd_4way, P448.doubling_2w, P448.mixadd_2w, P448.fulladd_2w, P448.mixadd_4w,
  P448.doubling_4w, P448.isogeny_2w, P448.unzip_2w, P448.join_points, P448.precompute_4w]

/-- All of them. -/
def points : List Fn := points25519 ++ unalignedPoints ++ points448

theorem checked_points : ∀ f ∈ points, ∃ al D, f.check al [] = some D := by
  have k : ∀ {f : Fn} {al : ℕ → ℕ → Bool} {ks : List ℕ}, f.ok al ks = true →
      ∃ al D, f.check al [] = some D := fun h =>
    let ⟨D, hD, _⟩ := Fn.ok_check h
    ⟨_, D, hD⟩
  intro f hf
  simp only [points, points25519, unalignedPoints, points448, List.mem_append, List.mem_cons,
    List.not_mem_nil, or_false] at hf
  rcases hf with
    ((rfl | rfl | rfl | rfl | rfl | rfl | rfl | rfl | rfl | rfl | rfl) | rfl | rfl) |
    rfl | rfl | rfl | rfl | rfl | rfl | rfl | rfl | rfl | rfl
  exacts [k p_mixadd_4way_ok, k p_fulladd_2way_ok, k p_doubling_2way0_ok, k p_doubling_2way1_ok,
    k p_doubling_2w_ok, k p_mixadd_2w_ok, k p_mixadd_4w_ok, k p_doubling_4w_ok, k p_unpack_2w_ok,
    k p_unzip_2w_ok, k p_precompute_4w_ok, k p_fulladd_2w_ok, k p_join_points_ok,
    k q_mixadd_4way_ok, k q_doubling_2w_ok, k q_mixadd_2w_ok, k q_fulladd_2w_ok,
    k q_mixadd_4w_ok, k q_doubling_4w_ok, k q_isogeny_2w_ok, k q_unzip_2w_ok, k q_join_points_ok,
    k q_precompute_4w_ok]

theorem alignOk_points25519 : points25519.all (fun f => alignOk f.aligns f.body) = true := by
  kernel_refl

theorem alignOk_points448 : points448.all (fun f => alignOk f.aligns f.body) = true := by
  kernel_refl

theorem alignOk_points : ∀ f ∈ points25519 ++ points448, alignOk f.aligns f.body = true := by
  intro f hf
  rcases List.mem_append.1 hf with h | h
  · exact List.all_eq_true.1 alignOk_points25519 f h
  · exact List.all_eq_true.1 alignOk_points448 f h

end Verif.Vec
