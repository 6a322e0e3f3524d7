import Verif.Vec.LadderLemmas
import Verif.Vec.Link448
import Verif.X448.Avx2

/-!
# The ladder of X448 on memory computes the main loop of the model -/

namespace Verif.Vec

open Fp448 X448

set_option exponentiation.threshold 2000

theorem masks_eq (swap : W) : X25519.Avx2.masks swap = X448.masks swap := by
  simp only [X25519.Avx2.masks, X448.masks]

theorem low8_addsub : F448.V2.addsub.body.all Stmt.low = true := by decide +kernel
theorem low8_intmul : F448.V2.intmul.body.all Stmt.low = true := by decide +kernel
theorem low8_intsqr : F448.V2.intsqr.body.all Stmt.low = true := by decide +kernel
theorem low8_compress : F448.V2.compress.body.all Stmt.low = true := by decide +kernel
theorem low8_compress2 : F448.V2.compress2.body.all Stmt.low = true := by decide +kernel
theorem low8_compressfast : F448.V2.compressfast.body.all Stmt.low = true := by decide +kernel

/-- The statements of the ladder between the calls. -/
theorem k_permZ (x : Mem × Regs) :
    let y := run idp L448.permZ x
    lk g2 y 1 0 = lk g2 x 1 0 ∧ lk g2 y 2 0 = (lk g2 x 2 0).map (PERM64 · 0x4E) ∧
      lk g2 y 3 0 = lk g2 x 3 0 ∧ y.2 = x.2 := by
  refine ⟨?_, ?_, ?_, ?_⟩ <;> kernel_refl

theorem k_permT (x : Mem × Regs) :
    let y := run idp L448.permT x
    lk g2 y 1 0 = lk g2 x 1 0 ∧ lk g2 y 2 0 = lk g2 x 2 0 ∧ lk g2 y 3 0 = lk g2 x 3 0 ∧
      lk g2 y 3 8 = lk g2 x 3 8 ∧ lk g2 y 3 16 = (lk g2 x 3 8).map (PERM64 · 0x4E) ∧
      y.2 = x.2 := by
  refine ⟨?_, ?_, ?_, ?_, ?_, ?_⟩ <;> kernel_refl

theorem k_swapXZ (x : Mem × Regs) :
    let y := run idp L448.swapXZ x
    lk g2 y 1 0 = (lk g2 x 1 0).map (PERMV128 · (x.2 1003)) ∧
      lk g2 y 2 0 = (lk g2 x 2 0).map (PERMV128 · (x.2 1004)) ∧
      lk g2 y 3 0 = lk g2 x 3 0 ∧ lk g2 y 3 8 = lk g2 x 3 8 ∧ lk g2 y 3 16 = lk g2 x 3 16 ∧
      y.2 = x.2 := by
  refine ⟨?_, ?_, ?_, ?_, ?_, ?_⟩ <;> kernel_refl

theorem k_blends (x : Mem × Regs) :
    let y := run idp L448.blends x
    lk g2 y 3 0 = lk g2 x 3 0 ∧
      lk g2 y 3 8 = (lk g2 x 1 0).zip (BLEND32 · · 0xF0) (lk g2 x 3 8) ∧
      lk g2 y 3 16 = (lk g2 x 2 0).zip (BLEND32 · · 0xF0) (lk g2 x 3 16) ∧ y.2 = x.2 := by
  refine ⟨?_, ?_, ?_, ?_⟩ <;> kernel_refl

theorem k_setT2 (x : Mem × Regs) :
    let y := run idp L448.setT2 x
    lk g2 y 3 0 = lk g2 x 3 0 ∧ lk g2 y 3 8 = lk g2 x 3 8 ∧ lk g2 y 3 16 = lk g2 x 3 16 ∧
      lk g2 y 3 24 = { (lk g2 x 3 8).map (BLEND32 · (LIT 0) 0xF0) with
        c0 := OR ((lk g2 x 3 8).map (BLEND32 · (LIT 0) 0xF0)).c0 (SET64 0 1 0 0) } ∧
      y.2 = x.2 := by
  refine ⟨?_, ?_, ?_, ?_, ?_⟩ <;> kernel_refl

theorem k_setT12 (x : Mem × Regs) :
    let y := run idp L448.setT12 x
    let t2 := (lk g2 x 3 8).zip ADD ((R2.twoP : Elt8 V).zip SUB (lk g2 x 3 16))
    lk g2 y 1 0 = lk g2 x 1 0 ∧ lk g2 y 3 0 = lk g2 x 3 0 ∧
      lk g2 y 3 16 = ((t2.map (MUL · (LIT 39081))).zip ADD (lk g2 x 3 8)).zip
        (BLEND32 · · 0xF0) (lk g2 x 3 0) ∧
      lk g2 y 3 24 = t2.zip (BLEND32 · · 0xF0) (lk g2 x 3 8) ∧ y.2 = x.2 := by
  refine ⟨?_, ?_, ?_, ?_, ?_⟩ <;> kernel_refl

/-- The swap chosen before the calls is the one used after them. -/
theorem k_r (z : Mem × Regs) :
    (run idp L448.permT (run idp (F448.V2.compress.at [.par 3 8] 2)
      (run idp (F448.V2.intmul.at [.par 3 8, .par 1 0, .par 2 0] 2) (run idp L448.permZ
      (run idp (F448.V2.addsub.at [.par 1 0, .par 2 0] 1) z))))).2 1001 = z.2 1001 := by
  rw [(k_permT _).2.2.2.2.2, run_at_low low8_compress rfl, run_at_low low8_intmul rfl,
    (k_permZ _).2.2.2, run_at_low low8_addsub rfl]

theorem k_bodyX (x : Mem × Regs) {prev bit : W} (h : x.2 1001 = allLanes (bit ^^^ prev)) :
    lk g2 (run idp L448.body x) 1 0
      = (X448.step (lk g2 x 3 0) ⟨lk g2 x 1 0, lk g2 x 2 0, prev⟩ bit).X2X3 := by
  have m0 : ∀ z : Mem × Regs, z.2 1001 = x.2 1001 →
      (run idp maskStmts z).2 1003 = (X448.masks (bit ^^^ prev)).1 :=
    fun z hz => (mask0 z (hz.trans h)).trans (by rw [masks_eq])
  have m1 : ∀ z : Mem × Regs, z.2 1001 = x.2 1001 →
      (run idp maskStmts z).2 1004 = (X448.masks (bit ^^^ prev)).2 :=
    fun z hz => (mask1 z (hz.trans h)).trans (by rw [masks_eq])
  delta L448.body
  simp (decide := true) only [run_append, g2_addsub.get₁, g2_addsub.get₂,
    g2_addsub.fr g2_loc, g2_intmul.get, g2_intmul.fr g2_loc, g2_compress.get,
    g2_compress.fr g2_loc, g2_compressfast.get, g2_compressfast.fr g2_loc, g2_intsqr.get,
    g2_intsqr.fr g2_loc, g2_compress2.get₁, g2_compress2.get₂,
    k_permZ, k_permT, k_swapXZ, k_blends, k_setT2, k_setT12, mask_lk, m0 _ (k_r _),
    m1 _ (k_r _)]
  simp only [X448.step]

theorem k_bodyZ (x : Mem × Regs) {prev bit : W} (h : x.2 1001 = allLanes (bit ^^^ prev)) :
    lk g2 (run idp L448.body x) 2 0
      = (X448.step (lk g2 x 3 0) ⟨lk g2 x 1 0, lk g2 x 2 0, prev⟩ bit).Z2Z3 := by
  have m0 : ∀ z : Mem × Regs, z.2 1001 = x.2 1001 →
      (run idp maskStmts z).2 1003 = (X448.masks (bit ^^^ prev)).1 :=
    fun z hz => (mask0 z (hz.trans h)).trans (by rw [masks_eq])
  have m1 : ∀ z : Mem × Regs, z.2 1001 = x.2 1001 →
      (run idp maskStmts z).2 1004 = (X448.masks (bit ^^^ prev)).2 :=
    fun z hz => (mask1 z (hz.trans h)).trans (by rw [masks_eq])
  delta L448.body
  simp (decide := true) only [run_append, g2_addsub.get₁, g2_addsub.get₂,
    g2_addsub.fr g2_loc, g2_intmul.get, g2_intmul.fr g2_loc, g2_compress.get,
    g2_compress.fr g2_loc, g2_compressfast.get, g2_compressfast.fr g2_loc, g2_intsqr.get,
    g2_intsqr.fr g2_loc, g2_compress2.get₁, g2_compress2.get₂, g2_compress2.fr g2_loc,
    k_permZ, k_permT, k_swapXZ, k_blends, k_setT2, k_setT12, mask_lk, m0 _ (k_r _),
    m1 _ (k_r _)]
  simp only [X448.step]

theorem k_bodyX1 (x : Mem × Regs) : lk g2 (run idp L448.body x) 3 0 = lk g2 x 3 0 := by
  delta L448.body
  simp (decide := true) only [run_append,
    g2_addsub.fr g2_loc, g2_intmul.fr g2_loc,
    g2_compress.fr g2_loc, g2_compressfast.fr g2_loc,
    g2_intsqr.fr g2_loc, g2_compress2.fr g2_loc,
    k_permZ, k_permT, k_swapXZ, k_blends, k_setT2, k_setT12, mask_lk]

theorem k_body_prev (x : Mem × Regs) : (run idp L448.body x).2 1002 = x.2 1002 := by
  delta L448.body
  simp (decide := true) only [run_append, k_permZ, k_permT, k_swapXZ, k_blends,
    k_setT2, k_setT12, mask_low, run_at_low low8_addsub, run_at_low low8_intmul,
    run_at_low low8_intsqr, run_at_low low8_compress, run_at_low low8_compress2,
    run_at_low low8_compressfast]

theorem k_body_chk : chks L448.ladder.len 4 [1, 2, 3] alNone L448.body [] = some [] := by
  kernel_refl

theorem k_bit_chk (i j : ℕ) (hi : i < 7) :
    chks L448.ladder.len 4 [1, 2, 3] alNone (bitStmts i j) [] = some [] := by
  have h : i = 0 ∨ i = 1 ∨ i = 2 ∨ i = 3 ∨ i = 4 ∨ i = 5 ∨ i = 6 := by omega
  rcases h with rfl | rfl | rfl | rfl | rfl | rfl | rfl <;> rfl

theorem k_step_chk (i : ℕ) (hi : i < 7) (j : ℕ) :
    chks L448.ladder.len 4 [1, 2, 3] alNone (L448.step i j) [] = some [] := by
  rw [L448.step, chks_append, k_bit_chk i j hi, Option.bind_some, k_body_chk]

/-- What holds between two iterations of the main loop. -/
structure Inv448 (X1 : Elt8 V) (key : F7) (s : X448.St) (x : Mem × Regs) : Prop where
  X : lk g2 x 1 0 = s.X2X3
  Z : lk g2 x 2 0 = s.Z2Z3
  X1 : lk g2 x 3 0 = X1
  prev : x.2 1002 = allLanes s.prev
  key4 : (x.1 0 1).q0 = key.w4
  key5 : (x.1 0 1).q1 = key.w5
  key6 : (x.1 0 1).q2 = key.w6
  key : x.1 0 0 = ⟨key.w0, key.w1, key.w2, key.w3⟩

theorem k_memBit {X1 : Elt8 V} {key : F7} {s : X448.St} {x : Mem × Regs}
    (h : Inv448 X1 key s x) (i j : ℕ) (hi : i < 7) : memBit x i j = keyBit key i j := by
  have e : i = 0 ∨ i = 1 ∨ i = 2 ∨ i = 3 ∨ i = 4 ∨ i = 5 ∨ i = 6 := by omega
  rcases e with rfl | rfl | rfl | rfl | rfl | rfl | rfl <;>
    simp only [memBit, keyBit, Nat.reduceDiv, Nat.reduceMod, h.key, h.key4, h.key5,
      h.key6, wordOf]

theorem k_step {X1 : Elt8 V} {key : F7} {s : X448.St} {x : Mem × Regs}
    (h : Inv448 X1 key s x) (i j : ℕ) (hi : i < 7) :
    Inv448 X1 key (X448.step X1 s (keyBit key i j)) (run idp (L448.step i j) x) := by
  have hb := k_memBit h i j hi
  have b1 := k_bodyX (run idp (bitStmts i j) x) (bit_swap i j x h.prev)
  have b2 := k_bodyZ (run idp (bitStmts i j) x) (bit_swap i j x h.prev)
  have b3 := k_bodyX1 (run idp (bitStmts i j) x)
  have b4 := k_body_prev (run idp (bitStmts i j) x)
  simp only [bit_lk, h.X, h.Z, h.X1, bit_prev, hb] at b1 b2 b3 b4
  have e : run idp (L448.step i j) x = run idp L448.body (run idp (bitStmts i j) x) :=
    run_append _ _ _ _
  rw [e]
  refine ⟨b1, b2, b3, b4, ?_, ?_, ?_, ?_⟩ <;> rw [key_kept k_body_chk, bit_mem]
  exacts [h.key4, h.key5, h.key6, h.key]

theorem k_inner {X1 : Elt8 V} {key : F7} (i : ℕ) (hi : i < 7) : ∀ (n : ℕ) {s : X448.St}
    {x : Mem × Regs}, Inv448 X1 key s x →
    Inv448 X1 key (X448.inner X1 key i n s) (run idp (innerStmts L448.step i n) x) := by
  intro n
  induction n with
  | zero => intro s x h; exact h
  | succ n ih =>
    intro s x h
    rw [innerStmts, run_append]
    exact ih (k_step h i n hi)

/-- The copy of `X2X3` to `X1`, and `prev = 0`. -/
theorem k_start (x : Mem × Regs) :
    Inv448 (lk g2 x 1 0) ⟨(x.1 0 0).q0, (x.1 0 0).q1, (x.1 0 0).q2, (x.1 0 0).q3, (x.1 0 1).q0, (x.1 0 1).q1,
        (x.1 0 1).q2⟩
      ⟨lk g2 x 1 0, lk g2 x 2 0, 0#64⟩
      (run idp L448.start x) := by
  refine ⟨?_, ?_, ?_, ?_, ?_, ?_, ?_, ?_⟩ <;> kernel_refl

theorem k_ladder_body : L448.ladder.body = L448.start ++ innerStmts L448.step 6 64 ++
    innerStmts L448.step 5 64 ++ innerStmts L448.step 4 64 ++ innerStmts L448.step 3 64 ++
    innerStmts L448.step 2 64 ++ innerStmts L448.step 1 64 ++ innerStmts L448.step 0 64 := by
  rw [L448.ladder]

theorem k_run (x : Mem × Regs) :
    let s := X448.mainLoop (lk g2 x 1 0)
      ⟨(x.1 0 0).q0, (x.1 0 0).q1, (x.1 0 0).q2, (x.1 0 0).q3, (x.1 0 1).q0, (x.1 0 1).q1,
        (x.1 0 1).q2⟩
      ⟨lk g2 x 1 0, lk g2 x 2 0, 0#64⟩
    g2.get ((run idp L448.ladder.body x).1 1) = s.X2X3 ∧
      g2.get ((run idp L448.ladder.body x).1 2) = s.Z2Z3 := by
  have h := k_inner 0 (by decide) 64 (k_inner 1 (by decide) 64 (k_inner 2 (by decide) 64
    (k_inner 3 (by decide) 64 (k_inner 4 (by decide) 64 (k_inner 5 (by decide) 64
    (k_inner 6 (by decide) 64 (k_start x)))))))
  rw [← lk_zero, ← lk_zero, k_ladder_body, run_append, run_append, run_append, run_append,
    run_append, run_append, run_append]
  exact ⟨h.X, h.Z⟩

theorem k_check : L448.ladder.check alNone [] = some [] := by
  have h : chks L448.ladder.len 4 [1, 2, 3] alNone L448.start [] = some [] := by kernel_refl
  have k : ∀ i < 7, ∀ n, chks L448.ladder.len 4 [1, 2, 3] alNone (innerStmts L448.step i n) []
      = some [] := fun i hi => chks_inner (k_step_chk i hi)
  have e : L448.ladder.cells.length = 4 ∧ L448.ladder.outs = [1, 2, 3] := ⟨rfl, rfl⟩
  rw [Fn.check, e.1, e.2, k_ladder_body]
  exact chks_app (chks_app (chks_app (chks_app (chks_app (chks_app (chks_app h
    (k 6 (by decide) _)) (k 5 (by decide) _)) (k 4 (by decide) _)) (k 3 (by decide) _)) (k 2 (by decide) _))
    (k 1 (by decide) _)) (k 0 (by decide) _)

theorem k_body_align : alignOk (List.replicate 3 32) L448.body = true := by kernel_refl

theorem k_align : alignOk L448.ladder.aligns L448.ladder.body = true := by
  have k : ∀ i n, alignOk (List.replicate 3 32) (innerStmts L448.step i n) = true :=
    fun i => alignOk_inner fun j => by
      rw [L448.step, alignOk_append, k_body_align]
      rfl
  have h : alignOk (List.replicate 3 32) L448.start = true := by kernel_refl
  have e : L448.ladder.aligns = List.replicate 3 32 := by simp only [L448.ladder]
  rw [e, k_ladder_body]
  exact alignOk_app (alignOk_app (alignOk_app (alignOk_app (alignOk_app (alignOk_app (alignOk_app h
    (k 6 _)) (k 5 _)) (k 4 _)) (k 3 _)) (k 2 _)) (k 1 _)) (k 0 _)

end Verif.Vec
