import Verif.X86.Sim
import Verif.X86.Blocks25519
import Verif.Fp25519.Full

/-!
# The Fp25519 blocks on memory

Helper lemmas: what each block, run on memory, writes, in terms of the functions of
Verif/Fp25519/Asm.lean.
-/

namespace Verif.X86.Fp25519

open Verif.Fp25519 (F4 F8)

set_option maxRecDepth 20000

/-- The words of an element. -/
def l4 (a : F4) : List W := [a.w0, a.w1, a.w2, a.w3]

/-- The words of a double-size buffer. -/
def l8 (a : F8) : List W := [a.w0, a.w1, a.w2, a.w3, a.w4, a.w5, a.w6, a.w7]

/-- The element formed by the first words of a buffer. -/
def w4 (m : ℕ → W) : F4 := ⟨m 0, m 1, m 2, m 3⟩

/-- The double-size element formed by the first words of a buffer. -/
def w8 (m : ℕ → W) : F8 := ⟨m 0, m 1, m 2, m 3, m 4, m 5, m 6, m 7⟩

/-- Two consecutive elements. -/
def w44 (m : ℕ → W) : F4 × F4 := (w4 m, ⟨m 4, m 5, m 6, m 7⟩)

/-- Two consecutive double-size elements. -/
def w88 (m : ℕ → W) : F8 × F8 :=
  (w8 m, ⟨m 8, m 9, m 10, m 11, m 12, m 13, m 14, m 15⟩)

theorem run_w4 {sh : Shape} {ptr : Ptr → Loc} (hp : Placed sh ptr) {code : List Instr}
    (hc : check sh [] code = true) (hs : sh.size .p0 = 4) (st : State Mem) (F : F4)
    (h : exec sep code { st with mem := fun p i => st.mem.get (ptr p) i }
      (fun st => w4 (st.mem .p0)) = F) :
    run code ptr st = st.mem.put (ptr .p0) (l4 F) := by
  rw [exec_id] at h
  subst h
  refine run_eq hp hc st _ (by rw [hs]; rfl) fun i hi => ?_
  rw [hs] at hi
  match i, hi with
  | 0, _ | 1, _ | 2, _ | 3, _ => rfl

theorem run_w8 {sh : Shape} {ptr : Ptr → Loc} (hp : Placed sh ptr) {code : List Instr}
    (hc : check sh [] code = true) (hs : sh.size .p0 = 8) (st : State Mem) (F : F8)
    (h : exec sep code { st with mem := fun p i => st.mem.get (ptr p) i }
      (fun st => w8 (st.mem .p0)) = F) :
    run code ptr st = st.mem.put (ptr .p0) (l8 F) := by
  rw [exec_id] at h
  subst h
  refine run_eq hp hc st _ (by rw [hs]; rfl) fun i hi => ?_
  rw [hs] at hi
  match i, hi with
  | 0, _ | 1, _ | 2, _ | 3, _ | 4, _ | 5, _ | 6, _ | 7, _ => rfl

theorem run_w44 {sh : Shape} {ptr : Ptr → Loc} (hp : Placed sh ptr) {code : List Instr}
    (hc : check sh [] code = true) (hs : sh.size .p0 = 8) (st : State Mem) (F : F4 × F4)
    (h : exec sep code { st with mem := fun p i => st.mem.get (ptr p) i }
      (fun st => w44 (st.mem .p0)) = F) :
    run code ptr st = st.mem.put (ptr .p0) (l4 F.1 ++ l4 F.2) := by
  rw [exec_id] at h
  subst h
  refine run_eq hp hc st _ (by rw [hs]; rfl) fun i hi => ?_
  rw [hs] at hi
  match i, hi with
  | 0, _ | 1, _ | 2, _ | 3, _ | 4, _ | 5, _ | 6, _ | 7, _ => rfl

theorem run_w88 {sh : Shape} {ptr : Ptr → Loc} (hp : Placed sh ptr) {code : List Instr}
    (hc : check sh [] code = true) (hs : sh.size .p0 = 16) (st : State Mem) (F : F8 × F8)
    (h : exec sep code { st with mem := fun p i => st.mem.get (ptr p) i }
      (fun st => w88 (st.mem .p0)) = F) :
    run code ptr st = st.mem.put (ptr .p0) (l8 F.1 ++ l8 F.2) := by
  rw [exec_id] at h
  subst h
  refine run_eq hp hc st _ (by rw [hs]; rfl) fun i hi => ?_
  rw [hs] at hi
  match i, hi with
  | 0, _ | 1, _ | 2, _ | 3, _ | 4, _ | 5, _ | 6, _ | 7, _ | 8, _ | 9, _ | 10, _ | 11, _
  | 12, _ | 13, _ | 14, _ | 15, _ => rfl
  | n + 16, h => omega

/-- The sizes of the buffers of a block with two inputs, and whether an input may be
the output. -/
def shape (n0 n1 n2 : ℕ) (b : Bool) : Shape where
  size | .p0 => n0 | .p1 => n1 | .p2 => n2
  inplace _ := b

/-- The sizes of the buffers of a block with one input; `%2` is no buffer. -/
def shape1 (n0 n1 : ℕ) (b : Bool) : Shape where
  size | .p0 => n0 | .p1 => n1 | .p2 => 0
  inplace | .p2 => true | _ => b

theorem intmul_mulxadx_run (st : State Mem) {ptr : Ptr → Loc} (hp : Placed (shape 8 4 4 false) ptr) :
    run intmul_mulxadx.code ptr st = st.mem.put (ptr .p0)
      (l8 (Verif.Fp25519.Asm.intmul_mulxadx (w4 (st.mem.get (ptr .p1))) (w4 (st.mem.get (ptr .p2))))) :=
  run_w8 hp (by decide +kernel) rfl st _ rfl

theorem intmul2_mulxadx_run (st : State Mem) {ptr : Ptr → Loc} (hp : Placed (shape 16 8 8 false) ptr) :
    run intmul2_mulxadx.code ptr st = st.mem.put (ptr .p0)
      (l8 (Verif.Fp25519.Asm.intmul2_mulxadx (w44 (st.mem.get (ptr .p1))) (w44 (st.mem.get (ptr .p2)))).1 ++ l8 (Verif.Fp25519.Asm.intmul2_mulxadx (w44 (st.mem.get (ptr .p1))) (w44 (st.mem.get (ptr .p2)))).2) :=
  run_w88 hp (by decide +kernel) rfl st _ rfl

theorem intsqr_mulxadx_run (st : State Mem) {ptr : Ptr → Loc} (hp : Placed (shape1 8 4 false) ptr) :
    run intsqr_mulxadx.code ptr st = st.mem.put (ptr .p0)
      (l8 (Verif.Fp25519.Asm.intsqr_mulxadx (w4 (st.mem.get (ptr .p1))))) :=
  run_w8 hp (by decide +kernel) rfl st _ rfl

theorem intsqr2_mulxadx_run (st : State Mem) {ptr : Ptr → Loc} (hp : Placed (shape1 16 8 false) ptr) :
    run intsqr2_mulxadx.code ptr st = st.mem.put (ptr .p0)
      (l8 (Verif.Fp25519.Asm.intsqr2_mulxadx (w44 (st.mem.get (ptr .p1)))).1 ++ l8 (Verif.Fp25519.Asm.intsqr2_mulxadx (w44 (st.mem.get (ptr .p1)))).2) :=
  run_w88 hp (by decide +kernel) rfl st _ rfl

theorem reduce_mulxadx_run (st : State Mem) {ptr : Ptr → Loc} (hp : Placed (shape1 4 8 true) ptr) :
    run reduce_mulxadx.code ptr st = st.mem.put (ptr .p0)
      (l4 (Verif.Fp25519.Asm.reduce_mulxadx (w8 (st.mem.get (ptr .p1))))) :=
  run_w4 hp (by decide +kernel) rfl st _ rfl

theorem reduce2_mulxadx_run (st : State Mem) {ptr : Ptr → Loc} (hp : Placed (shape1 8 16 true) ptr) :
    run reduce2_mulxadx.code ptr st = st.mem.put (ptr .p0)
      (l4 (Verif.Fp25519.Asm.reduce2_mulxadx (w88 (st.mem.get (ptr .p1)))).1 ++ l4 (Verif.Fp25519.Asm.reduce2_mulxadx (w88 (st.mem.get (ptr .p1)))).2) :=
  run_w44 hp (by decide +kernel) rfl st _ rfl

theorem intmul_mulx_run (st : State Mem) {ptr : Ptr → Loc} (hp : Placed (shape 8 4 4 false) ptr) :
    run intmul_mulx.code ptr st = st.mem.put (ptr .p0)
      (l8 (Verif.Fp25519.Asm.intmul_mulx (w4 (st.mem.get (ptr .p1))) (w4 (st.mem.get (ptr .p2))))) :=
  run_w8 hp (by decide +kernel) rfl st _ rfl

theorem intmul2_mulx_run (st : State Mem) {ptr : Ptr → Loc} (hp : Placed (shape 16 8 8 false) ptr) :
    run intmul2_mulx.code ptr st = st.mem.put (ptr .p0)
      (l8 (Verif.Fp25519.Asm.intmul2_mulx (w44 (st.mem.get (ptr .p1))) (w44 (st.mem.get (ptr .p2)))).1 ++ l8 (Verif.Fp25519.Asm.intmul2_mulx (w44 (st.mem.get (ptr .p1))) (w44 (st.mem.get (ptr .p2)))).2) :=
  run_w88 hp (by decide +kernel) rfl st _ rfl

theorem intsqr_mulx_run (st : State Mem) {ptr : Ptr → Loc} (hp : Placed (shape1 8 4 false) ptr) :
    run intsqr_mulx.code ptr st = st.mem.put (ptr .p0)
      (l8 (Verif.Fp25519.Asm.intsqr_mulx (w4 (st.mem.get (ptr .p1))))) :=
  run_w8 hp (by decide +kernel) rfl st _ rfl

theorem intsqr2_mulx_run (st : State Mem) {ptr : Ptr → Loc} (hp : Placed (shape1 16 8 false) ptr) :
    run intsqr2_mulx.code ptr st = st.mem.put (ptr .p0)
      (l8 (Verif.Fp25519.Asm.intsqr2_mulx (w44 (st.mem.get (ptr .p1)))).1 ++ l8 (Verif.Fp25519.Asm.intsqr2_mulx (w44 (st.mem.get (ptr .p1)))).2) :=
  run_w88 hp (by decide +kernel) rfl st _ rfl

theorem reduce_mulx_run (st : State Mem) {ptr : Ptr → Loc} (hp : Placed (shape1 4 8 true) ptr) :
    run reduce_mulx.code ptr st = st.mem.put (ptr .p0)
      (l4 (Verif.Fp25519.Asm.reduce_mulx (w8 (st.mem.get (ptr .p1))))) :=
  run_w4 hp (by decide +kernel) rfl st _ rfl

theorem reduce2_mulx_run (st : State Mem) {ptr : Ptr → Loc} (hp : Placed (shape1 8 16 true) ptr) :
    run reduce2_mulx.code ptr st = st.mem.put (ptr .p0)
      (l4 (Verif.Fp25519.Asm.reduce2_mulx (w88 (st.mem.get (ptr .p1)))).1 ++ l4 (Verif.Fp25519.Asm.reduce2_mulx (w88 (st.mem.get (ptr .p1)))).2) :=
  run_w44 hp (by decide +kernel) rfl st _ rfl

theorem intmul_mulq_run (st : State Mem) {ptr : Ptr → Loc} (hp : Placed (shape 8 4 4 false) ptr) :
    run intmul_mulq.code ptr st = st.mem.put (ptr .p0)
      (l8 (Verif.Fp25519.Asm.intmul_mulq (w4 (st.mem.get (ptr .p1))) (w4 (st.mem.get (ptr .p2))))) :=
  run_w8 hp (by decide +kernel) rfl st _ rfl

theorem intmul2_mulq_run (st : State Mem) {ptr : Ptr → Loc} (hp : Placed (shape 16 8 8 false) ptr) :
    run intmul2_mulq.code ptr st = st.mem.put (ptr .p0)
      (l8 (Verif.Fp25519.Asm.intmul2_mulq (w44 (st.mem.get (ptr .p1))) (w44 (st.mem.get (ptr .p2)))).1 ++ l8 (Verif.Fp25519.Asm.intmul2_mulq (w44 (st.mem.get (ptr .p1))) (w44 (st.mem.get (ptr .p2)))).2) :=
  run_w88 hp (by decide +kernel) rfl st _ rfl

theorem intsqr_mulq_run (st : State Mem) {ptr : Ptr → Loc} (hp : Placed (shape1 8 4 false) ptr) :
    run intsqr_mulq.code ptr st = st.mem.put (ptr .p0)
      (l8 (Verif.Fp25519.Asm.intsqr_mulq (w4 (st.mem.get (ptr .p1))))) :=
  run_w8 hp (by decide +kernel) rfl st _ rfl

theorem intsqr2_mulq_run (st : State Mem) {ptr : Ptr → Loc} (hp : Placed (shape1 16 8 false) ptr) :
    run intsqr2_mulq.code ptr st = st.mem.put (ptr .p0)
      (l8 (Verif.Fp25519.Asm.intsqr2_mulq (w44 (st.mem.get (ptr .p1)))).1 ++ l8 (Verif.Fp25519.Asm.intsqr2_mulq (w44 (st.mem.get (ptr .p1)))).2) :=
  run_w88 hp (by decide +kernel) rfl st _ rfl

theorem reduce_mulq_run (st : State Mem) {ptr : Ptr → Loc} (hp : Placed (shape1 4 8 true) ptr) :
    run reduce_mulq.code ptr st = st.mem.put (ptr .p0)
      (l4 (Verif.Fp25519.Asm.reduce_mulq (w8 (st.mem.get (ptr .p1))))) :=
  run_w4 hp (by decide +kernel) rfl st _ rfl

theorem reduce2_mulq_run (st : State Mem) {ptr : Ptr → Loc} (hp : Placed (shape1 8 16 true) ptr) :
    run reduce2_mulq.code ptr st = st.mem.put (ptr .p0)
      (l4 (Verif.Fp25519.Asm.reduce2_mulq (w88 (st.mem.get (ptr .p1)))).1 ++ l4 (Verif.Fp25519.Asm.reduce2_mulq (w88 (st.mem.get (ptr .p1)))).2) :=
  run_w44 hp (by decide +kernel) rfl st _ rfl

theorem mula24_mulx_run (st : State Mem) {ptr : Ptr → Loc} (hp : Placed (shape1 4 4 true) ptr) (ha : st.arg = 121666#64) :
    run mula24_mulx.code ptr st = st.mem.put (ptr .p0)
      (l4 (Verif.Fp25519.Asm.mula24_mulx (w4 (st.mem.get (ptr .p1))))) := by
  obtain ⟨r, c, o, z, a, j, m⟩ := st
  obtain rfl : a = _ := ha
  exact run_w4 hp (by decide +kernel) rfl _ _ rfl

theorem mula24_mulq_run (st : State Mem) {ptr : Ptr → Loc} (hp : Placed (shape1 4 4 true) ptr) (ha : st.arg = 121666#64) :
    run mula24_mulq.code ptr st = st.mem.put (ptr .p0)
      (l4 (Verif.Fp25519.Asm.mula24_mulq (w4 (st.mem.get (ptr .p1))))) := by
  obtain ⟨r, c, o, z, a, j, m⟩ := st
  obtain rfl : a = _ := ha
  exact run_w4 hp (by decide +kernel) rfl _ _ rfl

theorem add_adx_run (st : State Mem) {ptr : Ptr → Loc} (hp : Placed (shape 4 4 4 true) ptr) :
    run add_adx.code ptr st = st.mem.put (ptr .p0)
      (l4 (Verif.Fp25519.Asm.add_adx (w4 (st.mem.get (ptr .p1))) (w4 (st.mem.get (ptr .p2))))) :=
  run_w4 hp (by decide +kernel) rfl st _ rfl

theorem add_adc_run (st : State Mem) {ptr : Ptr → Loc} (hp : Placed (shape 4 4 4 true) ptr) :
    run add_adc.code ptr st = st.mem.put (ptr .p0)
      (l4 (Verif.Fp25519.Asm.add_adc (w4 (st.mem.get (ptr .p1))) (w4 (st.mem.get (ptr .p2))))) :=
  run_w4 hp (by decide +kernel) rfl st _ rfl

theorem sub_run (st : State Mem) {ptr : Ptr → Loc} (hp : Placed (shape 4 4 4 true) ptr) :
    run sub.code ptr st = st.mem.put (ptr .p0)
      (l4 (Verif.Fp25519.Asm.sub4 (w4 (st.mem.get (ptr .p1))) (w4 (st.mem.get (ptr .p2))))) :=
  run_w4 hp (by decide +kernel) rfl st _ rfl

end Verif.X86.Fp25519
