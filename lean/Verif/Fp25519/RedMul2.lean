import Verif.Fp25519.RedApiLemmas

/-! # `intmul2` of the two-way arithmetic

Two products at once, used by the point formulas of src/edwards255.c. -/

namespace Verif.Fp25519

namespace R2

/-- src/eltfp25519_2w_redradix.c:193-302 `intmul2`: the arrays (d, c).  The outputs are
stored before the last reads of `a`, so the model is for outputs that do not overlap `a`, as
in every call (src/edwards255.c:374, 415, 470). -/
def intmul2 {β : Type} [Lane β] (a b : Elt5 (Vec4 β)) : Elt5 (Vec4 β) × Elt5 (Vec4 β) :=
  let b0 := b.c0
  let b1 := b.c1
  let b2 := b.c2
  let b3 := b.c3
  let b4 := b.c4
  let e0 := MUL b0 (LIT 19)
  let d0 := ALIGNR b0 e0
  let e1 := MUL b1 (LIT 19)
  let d1 := ALIGNR b1 e1
  let e2 := MUL b2 (LIT 19)
  let d2 := ALIGNR b2 e2
  let e3 := MUL b3 (LIT 19)
  let d3 := ALIGNR b3 e3
  let e4 := MUL b4 (LIT 19)
  let d4 := ALIGNR b4 e4
  let ai := SHUF44 a.c0
  let ak := PERM64 a.c0 0x0A
  let c0 := MUL b0 ai
  let p0 := MUL b0 ak
  let c1 := MUL b1 ai
  let p1 := MUL b1 ak
  let c2 := MUL b2 ai
  let p2 := MUL b2 ak
  let c3 := MUL b3 ai
  let p3 := MUL b3 ak
  let c4 := MUL b4 ai
  let p4 := MUL b4 ak
  let ai := SHUF44 a.c2
  let ak := PERM64 a.c2 0x0A
  let c0 := ADD c0 (MUL d3 ai)
  let p0 := ADD p0 (MUL d3 ak)
  let c1 := ADD c1 (MUL d4 ai)
  let p1 := ADD p1 (MUL d4 ak)
  let c2 := ADD c2 (MUL b0 ai)
  let p2 := ADD p2 (MUL b0 ak)
  let c3 := ADD c3 (MUL b1 ai)
  let p3 := ADD p3 (MUL b1 ak)
  let c4 := ADD c4 (MUL b2 ai)
  let p4 := ADD p4 (MUL b2 ak)
  let ai := SHUF44 a.c4
  let ak := PERM64 a.c4 0x0A
  let c0 := ADD c0 (MUL d1 ai)
  let p0 := ADD p0 (MUL d1 ak)
  let c1 := ADD c1 (MUL d2 ai)
  let p1 := ADD p1 (MUL d2 ak)
  let c2 := ADD c2 (MUL d3 ai)
  let p2 := ADD p2 (MUL d3 ak)
  let c3 := ADD c3 (MUL d4 ai)
  let p3 := ADD p3 (MUL d4 ak)
  let c4 := ADD c4 (MUL b0 ai)
  let p4 := ADD p4 (MUL b0 ak)
  let ai := SHUFEE a.c1
  let ak := PERM64 a.c1 0x5F
  let c0 := ADD c0 (MUL e4 ai)
  let p0 := ADD p0 (MUL e4 ak)
  let c1 := ADD c1 (MUL d0 ai)
  let p1 := ADD p1 (MUL d0 ak)
  let c2 := ADD c2 (MUL d1 ai)
  let p2 := ADD p2 (MUL d1 ak)
  let c3 := ADD c3 (MUL d2 ai)
  let p3 := ADD p3 (MUL d2 ak)
  let c4 := ADD c4 (MUL d3 ai)
  let p4 := ADD p4 (MUL d3 ak)
  let ai := SHUFEE a.c3
  let ak := PERM64 a.c3 0x5F
  let c0 := ADD c0 (MUL e2 ai)
  let p0 := ADD p0 (MUL e2 ak)
  let c1 := ADD c1 (MUL e3 ai)
  let p1 := ADD p1 (MUL e3 ak)
  let c2 := ADD c2 (MUL e4 ai)
  let p2 := ADD p2 (MUL e4 ak)
  let c3 := ADD c3 (MUL d0 ai)
  let p3 := ADD p3 (MUL d0 ak)
  let c4 := ADD c4 (MUL d1 ai)
  let p4 := ADD p4 (MUL d1 ak)
  let od0 := c0
  let oc0 := p0
  let od1 := c1
  let oc1 := p1
  let od2 := c2
  let oc2 := p2
  let od3 := c3
  let oc3 := p3
  let od4 := c4
  let oc4 := p4
  let aj := SHUF44 a.c1
  let al := PERM64 a.c1 0x0A
  let k0 := MUL d4 aj
  let m0 := MUL d4 al
  let k1 := MUL b0 aj
  let m1 := MUL b0 al
  let k2 := MUL b1 aj
  let m2 := MUL b1 al
  let k3 := MUL b2 aj
  let m3 := MUL b2 al
  let k4 := MUL b3 aj
  let m4 := MUL b3 al
  let aj := SHUF44 a.c3
  let al := PERM64 a.c3 0x0A
  let k0 := ADD k0 (MUL d2 aj)
  let m0 := ADD m0 (MUL d2 al)
  let k1 := ADD k1 (MUL d3 aj)
  let m1 := ADD m1 (MUL d3 al)
  let k2 := ADD k2 (MUL d4 aj)
  let m2 := ADD m2 (MUL d4 al)
  let k3 := ADD k3 (MUL b0 aj)
  let m3 := ADD m3 (MUL b0 al)
  let k4 := ADD k4 (MUL b1 aj)
  let m4 := ADD m4 (MUL b1 al)
  let aj := SHUFEE a.c0
  let al := PERM64 a.c0 0x5F
  let k0 := ADD k0 (MUL d0 aj)
  let m0 := ADD m0 (MUL d0 al)
  let k1 := ADD k1 (MUL d1 aj)
  let m1 := ADD m1 (MUL d1 al)
  let k2 := ADD k2 (MUL d2 aj)
  let m2 := ADD m2 (MUL d2 al)
  let k3 := ADD k3 (MUL d3 aj)
  let m3 := ADD m3 (MUL d3 al)
  let k4 := ADD k4 (MUL d4 aj)
  let m4 := ADD m4 (MUL d4 al)
  let aj := SHUFEE a.c2
  let al := PERM64 a.c2 0x5F
  let k0 := ADD k0 (MUL e3 aj)
  let m0 := ADD m0 (MUL e3 al)
  let k1 := ADD k1 (MUL e4 aj)
  let m1 := ADD m1 (MUL e4 al)
  let k2 := ADD k2 (MUL d0 aj)
  let m2 := ADD m2 (MUL d0 al)
  let k3 := ADD k3 (MUL d1 aj)
  let m3 := ADD m3 (MUL d1 al)
  let k4 := ADD k4 (MUL d2 aj)
  let m4 := ADD m4 (MUL d2 al)
  let aj := SHUFEE a.c4
  let al := PERM64 a.c4 0x5F
  let k0 := ADD k0 (MUL e1 aj)
  let m0 := ADD m0 (MUL e1 al)
  let k1 := ADD k1 (MUL e2 aj)
  let m1 := ADD m1 (MUL e2 al)
  let k2 := ADD k2 (MUL e3 aj)
  let m2 := ADD m2 (MUL e3 al)
  let k3 := ADD k3 (MUL e4 aj)
  let m3 := ADD m3 (MUL e4 al)
  let k4 := ADD k4 (MUL d0 aj)
  let m4 := ADD m4 (MUL d0 al)
  let od0 := ADD od0 (SHLV k0 1 0)
  let oc0 := ADD oc0 (SHLV m0 1 0)
  let od1 := ADD od1 (SHLV k1 0 1)
  let oc1 := ADD oc1 (SHLV m1 0 1)
  let od2 := ADD od2 (SHLV k2 1 0)
  let oc2 := ADD oc2 (SHLV m2 1 0)
  let od3 := ADD od3 (SHLV k3 0 1)
  let oc3 := ADD oc3 (SHLV m3 0 1)
  let od4 := ADD od4 (SHLV k4 1 0)
  let oc4 := ADD oc4 (SHLV m4 1 0)
  (⟨od0, od1, od2, od3, od4⟩, ⟨oc0, oc1, oc2, oc3, oc4⟩)

end R2

theorem R2_intmul2_fst (a b : Elt5 V) : (R2.intmul2 a b).1 = R2.intmul a b := rfl

theorem R2_intmul2_snd (a b : Elt5 V) :
    (R2.intmul2 a b).2 = R2.intmul (a.map (PERM64 · 0x4E)) b := rfl

end Verif.Fp25519
