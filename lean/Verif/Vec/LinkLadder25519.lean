import Verif.Vec.LadderLemmas
import Verif.Vec.Link25519

/-!
# The ladder of X25519 on memory computes the main loop of the model -/

namespace Verif.Vec

open Fp25519 X25519

theorem low2_addsub : F25519.V2.addsub.body.all Stmt.low = true := by decide +kernel
theorem low2_intmul : F25519.V2.intmul.body.all Stmt.low = true := by decide +kernel
theorem low2_intsqr : F25519.V2.intsqr.body.all Stmt.low = true := by decide +kernel
theorem low2_compress : F25519.V2.compress.body.all Stmt.low = true := by decide +kernel
theorem low2_compress2 : F25519.V2.compress2.body.all Stmt.low = true := by decide +kernel
theorem low2_compressfast : F25519.V2.compressfast.body.all Stmt.low = true := by decide +kernel

/-- The statements of the ladder between the calls. -/
theorem l_permZ (x : Mem × Regs) :
    let y := run idp L25519.permZ x
    lk e2 y 1 0 = lk e2 x 1 0 ∧ lk e2 y 2 0 = (lk e2 x 2 0).map (PERM64 · 0x4E) ∧
      lk e2 y 3 0 = lk e2 x 3 0 ∧ y.2 = x.2 := by
  refine ⟨?_, ?_, ?_, ?_⟩ <;> kernel_refl

theorem l_permT (x : Mem × Regs) :
    let y := run idp L25519.permT x
    lk e2 y 1 0 = lk e2 x 1 0 ∧ lk e2 y 2 0 = lk e2 x 2 0 ∧ lk e2 y 3 0 = lk e2 x 3 0 ∧
      lk e2 y 3 5 = lk e2 x 3 5 ∧ lk e2 y 3 10 = (lk e2 x 3 5).map (PERM64 · 0x4E) ∧
      y.2 = x.2 := by
  refine ⟨?_, ?_, ?_, ?_, ?_, ?_⟩ <;> kernel_refl

theorem l_swapXZ (x : Mem × Regs) :
    let y := run idp L25519.swapXZ x
    lk e2 y 1 0 = (lk e2 x 1 0).map (PERMV128 · (x.2 1003)) ∧
      lk e2 y 2 0 = (lk e2 x 2 0).map (PERMV128 · (x.2 1004)) ∧
      lk e2 y 3 0 = lk e2 x 3 0 ∧ lk e2 y 3 5 = lk e2 x 3 5 ∧ lk e2 y 3 10 = lk e2 x 3 10 ∧
      y.2 = x.2 := by
  refine ⟨?_, ?_, ?_, ?_, ?_, ?_⟩ <;> kernel_refl

theorem l_blends (x : Mem × Regs) :
    let y := run idp L25519.blends x
    lk e2 y 3 0 = lk e2 x 3 0 ∧
      lk e2 y 3 5 = (lk e2 x 1 0).zip (BLEND32 · · 0xF0) (lk e2 x 3 5) ∧
      lk e2 y 3 10 = (lk e2 x 2 0).zip (BLEND32 · · 0xF0) (lk e2 x 3 10) ∧ y.2 = x.2 := by
  refine ⟨?_, ?_, ?_, ?_⟩ <;> kernel_refl

theorem l_setT2 (x : Mem × Regs) :
    let y := run idp L25519.setT2 x
    lk e2 y 3 0 = lk e2 x 3 0 ∧ lk e2 y 3 5 = lk e2 x 3 5 ∧ lk e2 y 3 10 = lk e2 x 3 10 ∧
      lk e2 y 3 15 = { (lk e2 x 3 5).map (BLEND32 · (LIT 0) 0xF0) with
        c0 := OR ((lk e2 x 3 5).map (BLEND32 · (LIT 0) 0xF0)).c0 (SET64 0 1 0 0) } ∧
      y.2 = x.2 := by
  refine ⟨?_, ?_, ?_, ?_, ?_⟩ <;> kernel_refl

theorem l_setT12 (x : Mem × Regs) :
    let y := run idp L25519.setT12 x
    let t2 := (lk e2 x 3 5).zip ADD (Avx2.CONST_2P_2P.zip SUB (lk e2 x 3 10))
    lk e2 y 1 0 = lk e2 x 1 0 ∧ lk e2 y 3 0 = lk e2 x 3 0 ∧
      lk e2 y 3 10 = ((t2.map (MUL · (LIT 121665))).zip ADD (lk e2 x 3 5)).zip
        (BLEND32 · · 0xF0) (lk e2 x 3 0) ∧
      lk e2 y 3 15 = t2.zip (BLEND32 · · 0xF0) (lk e2 x 3 5) ∧ y.2 = x.2 := by
  refine ⟨?_, ?_, ?_, ?_, ?_⟩ <;> kernel_refl

theorem l_body (x : Mem × Regs) {prev bit : W} (h : x.2 1001 = allLanes (bit ^^^ prev)) :
    let y := run idp L25519.body x
    let s := Avx2.step (lk e2 x 3 0) ⟨lk e2 x 1 0, lk e2 x 2 0, prev⟩ bit
    lk e2 y 1 0 = s.X2X3 ∧ lk e2 y 2 0 = s.Z2Z3 ∧ lk e2 y 3 0 = lk e2 x 3 0 ∧
      y.2 1002 = x.2 1002 := by
  have m0 : ∀ z : Mem × Regs, z.2 1001 = x.2 1001 →
      (run idp maskStmts z).2 1003 = (Avx2.masks (bit ^^^ prev)).1 :=
    fun z hz => mask0 z (hz.trans h)
  have m1 : ∀ z : Mem × Regs, z.2 1001 = x.2 1001 →
      (run idp maskStmts z).2 1004 = (Avx2.masks (bit ^^^ prev)).2 :=
    fun z hz => mask1 z (hz.trans h)
  have r : ∀ z : Mem × Regs, (run idp L25519.permT (run idp (F25519.V2.compress.at [.par 3 5] 5)
      (run idp (F25519.V2.intmul.at [.par 3 5, .par 1 0, .par 2 0] 2) (run idp L25519.permZ
      (run idp (F25519.V2.addsub.at [.par 1 0, .par 2 0] 1) z))))).2 1001 = z.2 1001 := by
    intro z
    rw [(l_permT _).2.2.2.2.2, run_at_low low2_compress rfl, run_at_low low2_intmul rfl,
      (l_permZ _).2.2.2, run_at_low low2_addsub rfl]
  refine ⟨?_, ?_, ?_, ?_⟩
  · delta L25519.body
    simp (decide := true) only [run_append, e2_addsub.get₁, e2_addsub.get₂,
      e2_addsub.fr e2_loc, e2_intmul.get, e2_intmul.fr e2_loc, e2_compress.get,
      e2_compress.fr e2_loc, e2_compressfast.get, e2_compressfast.fr e2_loc, e2_intsqr.get,
      e2_intsqr.fr e2_loc, e2_compress2.get₁, e2_compress2.get₂, e2_compress2.fr e2_loc,
      l_permZ, l_permT, l_swapXZ, l_blends, l_setT2, l_setT12, mask_lk, m0 _ (r _), m1 _ (r _)]
    simp only [Avx2.step]
  · delta L25519.body
    simp (decide := true) only [run_append, e2_addsub.get₁, e2_addsub.get₂,
      e2_addsub.fr e2_loc, e2_intmul.get, e2_intmul.fr e2_loc, e2_compress.get,
      e2_compress.fr e2_loc, e2_compressfast.get, e2_compressfast.fr e2_loc, e2_intsqr.get,
      e2_intsqr.fr e2_loc, e2_compress2.get₁, e2_compress2.get₂, e2_compress2.fr e2_loc,
      l_permZ, l_permT, l_swapXZ, l_blends, l_setT2, l_setT12, mask_lk, m0 _ (r _), m1 _ (r _)]
    simp only [Avx2.step]
  · delta L25519.body
    simp (decide := true) only [run_append,
      e2_addsub.fr e2_loc, e2_intmul.fr e2_loc,
      e2_compress.fr e2_loc, e2_compressfast.fr e2_loc,
      e2_intsqr.fr e2_loc, e2_compress2.fr e2_loc,
      l_permZ, l_permT, l_swapXZ, l_blends, l_setT2, l_setT12, mask_lk]
  · delta L25519.body
    simp (decide := true) only [run_append, l_permZ, l_permT, l_swapXZ, l_blends,
      l_setT2, l_setT12, mask_low, run_at_low low2_addsub, run_at_low low2_intmul,
      run_at_low low2_intsqr, run_at_low low2_compress, run_at_low low2_compress2,
      run_at_low low2_compressfast]

theorem l_body_chk : chks L25519.ladder.len 4 [1, 2, 3] alNone L25519.body [] = some [] := by
  kernel_refl

theorem l_bit_chk (i j : ℕ) (hi : i < 4) :
    chks L25519.ladder.len 4 [1, 2, 3] alNone (bitStmts i j) [] = some [] := by
  have h : i = 0 ∨ i = 1 ∨ i = 2 ∨ i = 3 := by omega
  rcases h with rfl | rfl | rfl | rfl <;> rfl

theorem l_step_chk (i : ℕ) (hi : i < 4) (j : ℕ) :
    chks L25519.ladder.len 4 [1, 2, 3] alNone (L25519.step i j) [] = some [] := by
  rw [L25519.step, chks_append, l_bit_chk i j hi, Option.bind_some, l_body_chk]

/-- What holds between two iterations of the main loop. -/
structure Inv25519 (X1 : Elt5 V) (key : F4) (s : Avx2.St) (x : Mem × Regs) : Prop where
  X : lk e2 x 1 0 = s.X2X3
  Z : lk e2 x 2 0 = s.Z2Z3
  X1 : lk e2 x 3 0 = X1
  prev : x.2 1002 = allLanes s.prev
  key : x.1 0 0 = ⟨key.w0, key.w1, key.w2, key.w3⟩

theorem l_memBit {X1 : Elt5 V} {key : F4} {s : Avx2.St} {x : Mem × Regs}
    (h : Inv25519 X1 key s x) (i j : ℕ) (hi : i < 4) : memBit x i j = keyBit key i j := by
  have e : i = 0 ∨ i = 1 ∨ i = 2 ∨ i = 3 := by omega
  have hk := h.key
  rcases e with rfl | rfl | rfl | rfl <;>
    simp only [memBit, keyBit, Nat.reduceDiv, Nat.reduceMod, hk, wordOf]

theorem l_step {X1 : Elt5 V} {key : F4} {s : Avx2.St} {x : Mem × Regs}
    (h : Inv25519 X1 key s x) (i j : ℕ) (hi : i < 4) :
    Inv25519 X1 key (Avx2.step X1 s (keyBit key i j)) (run idp (L25519.step i j) x) := by
  have hb := l_memBit h i j hi
  obtain ⟨b1, b2, b3, b4⟩ := l_body (run idp (bitStmts i j) x)
    (bit_swap i j x h.prev)
  simp only [bit_lk, h.X, h.Z, h.X1, bit_prev, hb] at b1 b2 b3 b4
  have e : run idp (L25519.step i j) x = run idp L25519.body (run idp (bitStmts i j) x) :=
    run_append _ _ _ _
  rw [e]
  refine ⟨b1, b2, b3, b4, ?_⟩
  rw [key_kept l_body_chk, bit_mem, h.key]

theorem l_inner {X1 : Elt5 V} {key : F4} (i : ℕ) (hi : i < 4) : ∀ (n : ℕ) {s : Avx2.St}
    {x : Mem × Regs}, Inv25519 X1 key s x →
    Inv25519 X1 key (Avx2.inner X1 key i n s) (run idp (innerStmts L25519.step i n) x) := by
  intro n
  induction n with
  | zero => intro s x h; exact h
  | succ n ih =>
    intro s x h
    rw [innerStmts, run_append]
    exact ih (l_step h i n hi)

/-- The copy of `X2X3` to `X1`, and `prev = 0`. -/
theorem l_start (x : Mem × Regs) :
    Inv25519 (lk e2 x 1 0) ⟨(x.1 0 0).q0, (x.1 0 0).q1, (x.1 0 0).q2, (x.1 0 0).q3⟩
      ⟨lk e2 x 1 0, lk e2 x 2 0, 0#64⟩
      (run idp L25519.start x) := by
  refine ⟨?_, ?_, ?_, ?_, ?_⟩ <;> kernel_refl

theorem l_ladder_body : L25519.ladder.body = L25519.start ++ innerStmts L25519.step 3 63 ++
    innerStmts L25519.step 2 64 ++ innerStmts L25519.step 1 64 ++ innerStmts L25519.step 0 64 := by
  rw [L25519.ladder]

theorem l_run (x : Mem × Regs) :
    let s := Avx2.mainLoop (lk e2 x 1 0)
      ⟨(x.1 0 0).q0, (x.1 0 0).q1, (x.1 0 0).q2, (x.1 0 0).q3⟩
      ⟨lk e2 x 1 0, lk e2 x 2 0, 0#64⟩
    e2.get ((run idp L25519.ladder.body x).1 1) = s.X2X3 ∧
      e2.get ((run idp L25519.ladder.body x).1 2) = s.Z2Z3 := by
  have h := l_inner 0 (by decide) 64 (l_inner 1 (by decide) 64 (l_inner 2 (by decide) 64
    (l_inner 3 (by decide) 63 (l_start x))))
  rw [← lk_zero, ← lk_zero, l_ladder_body, run_append, run_append, run_append, run_append]
  exact ⟨h.X, h.Z⟩

theorem l_check : L25519.ladder.check alNone [] = some [] := by
  have h : chks L25519.ladder.len 4 [1, 2, 3] alNone L25519.start [] = some [] := by kernel_refl
  have k : ∀ i < 4, ∀ n, chks L25519.ladder.len 4 [1, 2, 3] alNone (innerStmts L25519.step i n) []
      = some [] := fun i hi => chks_inner (l_step_chk i hi)
  have e : L25519.ladder.cells.length = 4 ∧ L25519.ladder.outs = [1, 2, 3] := ⟨rfl, rfl⟩
  rw [Fn.check, e.1, e.2, l_ladder_body]
  exact chks_app (chks_app (chks_app (chks_app h (k 3 (by decide) _)) (k 2 (by decide) _))
    (k 1 (by decide) _)) (k 0 (by decide) _)

theorem l_body_align : alignOk (List.replicate 48 32) L25519.body = true := by kernel_refl

theorem l_align : alignOk L25519.ladder.aligns L25519.ladder.body = true := by
  have k : ∀ i n, alignOk (List.replicate 48 32) (innerStmts L25519.step i n) = true :=
    fun i => alignOk_inner fun j => by
      rw [L25519.step, alignOk_append, l_body_align]
      rfl
  have h : alignOk (List.replicate 48 32) L25519.start = true := by kernel_refl
  have e : L25519.ladder.aligns = List.replicate 48 32 := by simp only [L25519.ladder]
  rw [e, l_ladder_body]
  exact alignOk_app (alignOk_app (alignOk_app (alignOk_app h (k 3 _)) (k 2 _)) (k 1 _)) (k 0 _)

end Verif.Vec
