import Verif.X86.Sim
import Verif.X86.Link25519
import Verif.X86.Blocks448
import Verif.Fp448.Full

/-!
# The Fp448 blocks on memory

Helper lemmas: what each block, run on memory, writes, in terms of the functions of
Verif/Fp448/Asm.lean.
-/

namespace Verif.X86.Fp448

open Verif.Fp448 (F7 F14)
open Verif.X86.Fp25519 (shape shape1)

set_option maxRecDepth 20000

/-- The words of an element. -/
def l7 (a : F7) : List W := [a.w0, a.w1, a.w2, a.w3, a.w4, a.w5, a.w6]

/-- The words of a double-size buffer. -/
def l14 (a : F14) : List W :=
  [a.w0, a.w1, a.w2, a.w3, a.w4, a.w5, a.w6, a.w7, a.w8, a.w9, a.w10, a.w11, a.w12, a.w13]

/-- The element formed by the first words of a buffer. -/
def w7 (m : ℕ → W) : F7 := ⟨m 0, m 1, m 2, m 3, m 4, m 5, m 6⟩

/-- The double-size element formed by the first words of a buffer. -/
def w14 (m : ℕ → W) : F14 := ⟨m 0, m 1, m 2, m 3, m 4, m 5, m 6, m 7, m 8, m 9, m 10, m 11, m 12, m 13⟩

theorem run_w7 {sh : Shape} {ptr : Ptr → Loc} (hp : Placed sh ptr) {code : List Instr}
    (hc : check sh [] code = true) (hs : sh.size .p0 = 7) (st : State Mem) (F : F7)
    (h : exec sep code { st with mem := fun p i => st.mem.get (ptr p) i }
      (fun st => w7 (st.mem .p0)) = F) :
    run code ptr st = st.mem.put (ptr .p0) (l7 F) := by
  rw [exec_id] at h
  subst h
  refine run_eq hp hc st _ (by rw [hs]; rfl) fun i hi => ?_
  rw [hs] at hi
  match i, hi with
  | 0, _ | 1, _ | 2, _ | 3, _ | 4, _ | 5, _ | 6, _ => rfl
  | n + 7, h => omega

theorem run_w14 {sh : Shape} {ptr : Ptr → Loc} (hp : Placed sh ptr) {code : List Instr}
    (hc : check sh [] code = true) (hs : sh.size .p0 = 14) (st : State Mem) (F : F14)
    (h : exec sep code { st with mem := fun p i => st.mem.get (ptr p) i }
      (fun st => w14 (st.mem .p0)) = F) :
    run code ptr st = st.mem.put (ptr .p0) (l14 F) := by
  rw [exec_id] at h
  subst h
  refine run_eq hp hc st _ (by rw [hs]; rfl) fun i hi => ?_
  rw [hs] at hi
  match i, hi with
  | 0, _ | 1, _ | 2, _ | 3, _ | 4, _ | 5, _ | 6, _ | 7, _ | 8, _ | 9, _ | 10, _ | 11, _ | 12, _ | 13, _ => rfl
  | n + 14, h => omega

theorem intmul_mulxadx_run (st : State Mem) {ptr : Ptr → Loc} (hp : Placed (shape 14 7 7 false) ptr) :
    run intmul_mulxadx.code ptr st = st.mem.put (ptr .p0)
      (l14 (Verif.Fp448.Asm.intmul_mulxadx (w7 (st.mem.get (ptr .p1))) (w7 (st.mem.get (ptr .p2))))) :=
  run_w14 hp (by decide +kernel) rfl st _ rfl

theorem intsqr_mulxadx_run (st : State Mem) {ptr : Ptr → Loc} (hp : Placed (shape1 14 7 false) ptr) :
    run intsqr_mulxadx.code ptr st = st.mem.put (ptr .p0)
      (l14 (Verif.Fp448.Asm.intsqr_mulxadx (w7 (st.mem.get (ptr .p1))))) :=
  run_w14 hp (by decide +kernel) rfl st _ rfl

theorem intmul_mulx_run (st : State Mem) {ptr : Ptr → Loc} (hp : Placed (shape 14 7 7 false) ptr) :
    run intmul_mulx.code ptr st = st.mem.put (ptr .p0)
      (l14 (Verif.Fp448.Asm.intmul_mulx (w7 (st.mem.get (ptr .p1))) (w7 (st.mem.get (ptr .p2))))) :=
  run_w14 hp (by decide +kernel) rfl st _ rfl

theorem intsqr_mulx_run (st : State Mem) {ptr : Ptr → Loc} (hp : Placed (shape1 14 7 false) ptr) :
    run intsqr_mulx.code ptr st = st.mem.put (ptr .p0)
      (l14 (Verif.Fp448.Asm.intsqr_mulx (w7 (st.mem.get (ptr .p1))))) :=
  run_w14 hp (by decide +kernel) rfl st _ rfl

theorem intmul_mulq_run (st : State Mem) {ptr : Ptr → Loc} (hp : Placed (shape 14 7 7 false) ptr) :
    run intmul_mulq.code ptr st = st.mem.put (ptr .p0)
      (l14 (Verif.Fp448.Asm.intmul_mulq (w7 (st.mem.get (ptr .p1))) (w7 (st.mem.get (ptr .p2))))) :=
  run_w14 hp (by decide +kernel) rfl st _ rfl

theorem intsqr_mulq_run (st : State Mem) {ptr : Ptr → Loc} (hp : Placed (shape1 14 7 false) ptr) :
    run intsqr_mulq.code ptr st = st.mem.put (ptr .p0)
      (l14 (Verif.Fp448.Asm.intsqr_mulq (w7 (st.mem.get (ptr .p1))))) :=
  run_w14 hp (by decide +kernel) rfl st _ rfl

theorem reduce_adx_run (st : State Mem) {ptr : Ptr → Loc} (hp : Placed (shape1 7 14 true) ptr) :
    run reduce_adx.code ptr st = st.mem.put (ptr .p0)
      (l7 (Verif.Fp448.Asm.reduce_adx (w14 (st.mem.get (ptr .p1))))) :=
  run_w7 hp (by decide +kernel) rfl st _ rfl

theorem reduce_leg_run (st : State Mem) {ptr : Ptr → Loc} (hp : Placed (shape1 7 14 true) ptr) :
    run reduce_leg.code ptr st = st.mem.put (ptr .p0)
      (l7 (Verif.Fp448.Asm.reduce_leg (w14 (st.mem.get (ptr .p1))))) :=
  run_w7 hp (by decide +kernel) rfl st _ rfl

theorem mula24_mulx_run (st : State Mem) {ptr : Ptr → Loc} (hp : Placed (shape1 7 7 true) ptr) (ha : st.arg = 39082#64) :
    run mula24_mulx.code ptr st = st.mem.put (ptr .p0)
      (l7 (Verif.Fp448.Asm.mula24_mulx (w7 (st.mem.get (ptr .p1))))) := by
  obtain ⟨r, c, o, z, a, j, m⟩ := st
  obtain rfl : a = _ := ha
  exact run_w7 hp (by decide +kernel) rfl _ _ rfl

theorem mula24_mulq_run (st : State Mem) {ptr : Ptr → Loc} (hp : Placed (shape1 7 7 true) ptr) (ha : st.arg = 39082#64) :
    run mula24_mulq.code ptr st = st.mem.put (ptr .p0)
      (l7 (Verif.Fp448.Asm.mula24_mulq (w7 (st.mem.get (ptr .p1))))) := by
  obtain ⟨r, c, o, z, a, j, m⟩ := st
  obtain rfl : a = _ := ha
  exact run_w7 hp (by decide +kernel) rfl _ _ rfl

theorem add_adx_run (st : State Mem) {ptr : Ptr → Loc} (hp : Placed (shape 7 7 7 true) ptr) :
    run add_adx.code ptr st = st.mem.put (ptr .p0)
      (l7 (Verif.Fp448.Asm.add_adx (w7 (st.mem.get (ptr .p1))) (w7 (st.mem.get (ptr .p2))))) :=
  run_w7 hp (by decide +kernel) rfl st _ rfl

theorem add_adc_run (st : State Mem) {ptr : Ptr → Loc} (hp : Placed (shape 7 7 7 true) ptr) :
    run add_adc.code ptr st = st.mem.put (ptr .p0)
      (l7 (Verif.Fp448.Asm.add_adc (w7 (st.mem.get (ptr .p1))) (w7 (st.mem.get (ptr .p2))))) :=
  run_w7 hp (by decide +kernel) rfl st _ rfl

theorem sub_run (st : State Mem) {ptr : Ptr → Loc} (hp : Placed (shape 7 7 7 true) ptr) :
    run sub.code ptr st = st.mem.put (ptr .p0)
      (l7 (Verif.Fp448.Asm.sub7 (w7 (st.mem.get (ptr .p1))) (w7 (st.mem.get (ptr .p2))))) :=
  run_w7 hp (by decide +kernel) rfl st _ rfl

end Verif.X86.Fp448
