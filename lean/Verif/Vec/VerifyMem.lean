import Verif.Vec.MultMem
import Verif.Vec.SharedMem
import Verif.Vec.KeygenMem
import Verif.Vec.PointSpec
import Verif.Ed25519.Eddsa
import Verif.Ed448.Eddsa

/-!
# Signature verification on memory

`double_point_mult_4w_ed25519`, `double_point_mult_4w_ed448` and the functions that verify a
signature, on the objects of the function, as in Vec/MultMem.lean.  Here the addresses depend on
the data, which is not secret: the digits of the two scalars are written to two local arrays of
bytes by loops that run as long as the scalar is not zero, and they select the entries of a table
of constants and of a local table.  So the arrays of digits are separate from the other objects,
and every access to them and to the two tables is recorded.  Simplification: `unser`, `div4`,
`point_decoding_*` and `point_encoding_*` are replaced by their value-level models. -/

namespace Verif.Vec

/-- An access at an index that depends on data. -/
inductive VAcc where
  /-- a store to the entry `i` of `wnaf_r` (array 0) or `wnaf_h` (array 1) -/
  | wr (arr i : ℕ)
  /-- a load from it -/
  | rd (arr i : ℕ)
  /-- a load of the 64-bit word `n` of the table of constants -/
  | table (n : ℕ)
  /-- an access to the entry `j` of the local table -/
  | dyn (j : ℕ)
deriving DecidableEq

/-- The access is inside arrays of `digits` bytes, a table of `words` words and a local table of
`entries` entries. -/
def VAcc.Inside (digits words entries : ℕ) : VAcc → Prop
  | .wr _ i => i < digits
  | .rd _ i => i < digits
  | .table n => n < words
  | .dyn j => j < entries

/-- The local objects, the two arrays of digits, and the accesses so far. -/
structure VSt where
  loc : Mem
  kr : ℕ → Byte
  kh : ℕ → Byte
  log : List VAcc

/-! ## Ed25519 -/

/-- src/edwards255.c:1178-1197: the loop of `wnaf_256bits` from the iteration `i` on, which writes
to the array `a`.  The loop has ended before `fuel` iterations: see `C82_recoding_ends_25519`. -/
def wnafMem25519 (a w : ℕ) : ℕ → ℕ → Fp25519.F4 → (ℕ → Byte) → List VAcc →
    (ℕ → Byte) × List VAcc × ℕ × Fp25519.F4
  | 0, i, r, K, log => (K, log, i, r)
  | fuel + 1, i, r, K, log =>
    if Ed25519.isZero4 r then (K, log, i, r)
    else
      let t := Ed25519.wnafStep w r
      wnafMem25519 a w fuel (i + 1) t.2 (fun n => if n = i then t.1 else K n) (log ++ [.wr a i])

/-- The word `n` of `TableVerif_static_w7_Ed25519`. -/
def verfWord25519 (n : ℕ) : W := BitVec.ofNat 64 ((Ed25519.tableVerf (n / 96)).getD (n % 96) 0)

/-- The four words at `n`. -/
def verf4 (n : ℕ) : Fp25519.F4 :=
  ⟨verfWord25519 n, verfWord25519 (n + 1), verfWord25519 (n + 2), verfWord25519 (n + 3)⟩

/-- The loads of `k` words at `n`. -/
def loads (n k : ℕ) : List VAcc := (List.range k).map fun i => .table (n + i)

/-- src/edwards255.c:1487-1491 `two`, an initialised local element. -/
def putTwo25519 (m : Mem) (o : ℕ) : Mem := fun o' c =>
  if o' = o ∧ c < 3 then (if c = 0 then ⟨2, 0, 0, 0⟩ else LIT 0) else m o' c

/-- src/edwards255.c:1493-1494 and 1554-1555: `abs_index`, before and after the shift. -/
def absDigit (k : Byte) : ℕ := ((if BitVec.slt 0#8 k then k else -k) >>> 1).toNat

/-- src/edwards255.c:1546-1550 with 1486-1509 `read_point_4w_ed25519`; local objects as in
`double25519`. -/
def addStatic25519 (ρ : ℕ → Regs) (b : ℕ) (index : Byte) (s : VSt) : VSt :=
  let p := 12 * absDigit index
  let m := putTwo25519 s.loc (b + 7)
  let m := putE1 m (b + 4) (Fp25519.R1.unser (verf4 p).toBytes)
  let m := putE1 m (b + 5) (Fp25519.R1.unser (verf4 (p + 4)).toBytes)
  let m := putE1 m (b + 6) (Fp25519.R1.unser (verf4 (p + 8)).toBytes)
  let m :=
    if BitVec.slt index 0#8 then
      let m := F25519.V1.neg.call [(b + 6, 0)] m (ρ 0)
      let m := F25519.V1.compress.call [(b + 6, 0)] m (ρ 1)
      F25519.V4.zip.call [(b + 3, 0), (b + 4, 0), (b + 5, 0), (b + 6, 0), (b + 7, 0)] m (ρ 2)
    else
      F25519.V4.zip.call [(b + 3, 0), (b + 5, 0), (b + 4, 0), (b + 6, 0), (b + 7, 0)] m (ρ 2)
  let m := P25519.mixadd_4w.call [(b, 0), (b + 3, 0), (b + 10, 0)] m (ρ 3)
  { s with loc := m, log := s.log ++ (loads p 4 ++ loads (p + 4) 4 ++ loads (p + 8) 4) }

/-- src/edwards255.c:1552-1565. -/
def addDynamic25519 (ρ : ℕ → Regs) (b : ℕ) (index : Byte) (s : VSt) : VSt :=
  let j := absDigit index
  let m :=
    if BitVec.slt index 0#8 then
      let m := F25519.V4.ngz.call [(b + 8, 0), (b + 2, 10 * j)] s.loc (ρ 0)
      let m := F25519.V4.compressfast.call [(b + 8, 0)] m (ρ 1)
      P25519.mixadd_4w.call [(b, 0), (b + 8, 0), (b + 10, 0)] m (ρ 2)
    else P25519.mixadd_4w.call [(b, 0), (b + 2, 10 * j), (b + 10, 0)] s.loc (ρ 2)
  { s with loc := m, log := s.log ++ [.dyn j] }

/-- src/edwards255.c:1543-1566: the iterations i-1, ..., 0. -/
def dmLoop25519 (ρ : ℕ → ℕ → Regs) (b : ℕ) : ℕ → VSt → VSt
  | 0, s => s
  | i + 1, s =>
      let m := P25519.doubling_4w.call [(b, 0), (b + 9, 0)] s.loc (ρ i 0)
      let s := { s with loc := m, log := s.log ++ [.rd 0 i] }
      let s := if s.kr i ≠ 0#8 then addStatic25519 (fun n => ρ i (n + 1)) b (s.kr i) s else s
      let s := { s with log := s.log ++ [.rd 1 i] }
      let s := if s.kh i ≠ 0#8 then addDynamic25519 (fun n => ρ i (n + 5)) b (s.kh i) s else s
      dmLoop25519 ρ b i s

/-- src/edwards255.c:1521-1570 `double_point_mult_4w_ed25519` up to the encoding: the state after
the function and the bytes that it writes to `sB_hA`.  `s` and `h` are the bytes of the scalars,
which are only read.  Local objects: b `Q`, b+1 `QQ`, b+2 `tableA`, b+3 `P` of line 1547, b+4
`add`, b+5 `sub`, b+6 `_2dT`, b+7 `two`, b+8 `_P`, b+9 the arrays of `_1way_doubling_4w_H0H5`,
b+10 those of `_1way_mixadd_4w_H0H5`, b+11 those of `precompute_points_4w_ed25519`. -/
def double25519 (isa : Fp25519.Isa) (ρ : ℕ → ℕ → Regs) (b : ℕ) (s h : List Byte) (A : Place)
    (m : Mem) : VSt × List Byte :=
  let (kr, log, l_r, _) := wnafMem25519 0 7 257 0 (Fp25519.F4.ofBytes s) (fun _ => 0#8) []
  let (kh, log, l_h, _) := wnafMem25519 1 5 257 0 (Fp25519.F4.ofBytes h) (fun _ => 0#8) log
  let l := if l_r > l_h then l_r else l_h
  let m := P25519.precompute_4w.call [(b + 2, 0), A, (b + 11, 0)] m (ρ 257 0)
  let m := F25519.V4.zero.call [(b, 0)] m (ρ 257 1)
  let m := m.set b 0 (SET64 1 0 1 0)
  let st := dmLoop25519 ρ b l ⟨m, kr, kh, log⟩
  let m := P25519.unzip_2w.call [(b + 1, 0), (b + 1, 5), (b, 0)] st.loc (ρ 257 2)
  ({ st with loc := m }, Ed25519.point_encoding isa (p2w.at m (b + 1, 0)))

/-- An element of `EltFp25519_4w_redradix` written over the object `o`. -/
def putE4 (m : Mem) (o : ℕ) (e : Fp25519.Elt10 V) : Mem := fun o' c =>
  if o' = o ∧ c < 10 then
    [e.r0, e.r5, e.r1, e.r6, e.r2, e.r7, e.r3, e.r8, e.r4, e.r9].getD c (LIT 0) else m o' c

/-- src/sign255.c:462-514 `ed25519_verify_all` on the bytes `c` of the caller: the returned status
and the accesses at computed indices.  The local object 0 is `A`; those of the double
multiplication are numbered from 1. -/
def verify25519 (H : List Byte → List Byte) (isa : Fp25519.Isa) (ρ : ℕ → ℕ → Regs) (c : ℕ → Byte)
    (m : Mem) (message message_length context context_length public_key signature : ℕ)
    (pureEdDSA phflag : Byte) : Ed25519.Status × List VAcc :=
  if pureEdDSA = 0 ∧ context_length > 255 then (.ERROR_CONTEXT, []) else
  let dom := Ed25519.domBytes (bytesAt c context context_length) pureEdDSA phflag
  let d := Ed25519.point_decoding isa (bytesAt c public_key 32)
  let m := putE4 m 0 d.1
  if d.2.2 ≠ 0#32 then (.ERROR_PUBLICKEY, []) else
  match Ed25519.msgBytes H (bytesAt c message message_length) phflag with
  | none => (.ERROR_PHFLAG, [])
  | some msg =>
    let H_RAM := Ed25519.reduceBytes
      (H (dom ++ bytesAt c signature 32 ++ bytesAt c public_key 32 ++ msg))
    let r := double25519 isa ρ 1 (bytesAt c (signature + 32) 32) H_RAM (0, 0) m
    (if bytesAt c signature 32 = r.2.take 32 then .VERIFICATION_OK else .INVALID_SIGNATURE, r.1.log)

/-! ## Ed448 -/

/-- src/edwards448.c:946-966: the loop of `wnaf_448bits`, as `wnafMem25519`. -/
def wnafMem448 (a w : ℕ) : ℕ → ℕ → Ed448.F8 → (ℕ → Byte) → List VAcc →
    (ℕ → Byte) × List VAcc × ℕ × Ed448.F8
  | 0, i, r, K, log => (K, log, i, r)
  | fuel + 1, i, r, K, log =>
    if Ed448.isZero8 r then (K, log, i, r)
    else
      let t := Ed448.wnafStep w r
      wnafMem448 a w fuel (i + 1) t.2 (fun n => if n = i then t.1 else K n) (log ++ [.wr a i])

/-- The word `n` of `TableVerif_static_w7_Ed448`. -/
def verfWord448 (n : ℕ) : W := BitVec.ofNat 64 ((Ed448.tableVerf (n / 168)).getD (n % 168) 0)

/-- The seven words at `n`, as bytes. -/
def verf7 (n : ℕ) : List Byte :=
  bytesOf [verfWord448 n, verfWord448 (n + 1), verfWord448 (n + 2), verfWord448 (n + 3),
    verfWord448 (n + 4), verfWord448 (n + 5), verfWord448 (n + 6)]

/-- src/edwards448.c:1175-1180 `two`, an initialised local element. -/
def putTwo448 (m : Mem) (o : ℕ) : Mem := fun o' c =>
  if o' = o ∧ c < 4 then (if c = 0 then ⟨2, 0, 0, 0⟩ else LIT 0) else m o' c

/-- src/edwards448.c:1246-1250 with 1174-1199 `read_point_4w_ed448`; local objects as in
`double448`. -/
def addStatic448 (ρ : ℕ → Regs) (b : ℕ) (index : Byte) (s : VSt) : VSt :=
  let p := 21 * absDigit index
  let m := putTwo448 s.loc (b + 7)
  let m := putG1 m (b + 4) (Fp448.R1.unser (verf7 p))
  let m := putG1 m (b + 5) (Fp448.R1.unser (verf7 (p + 7)))
  let m := putG1 m (b + 6) (Fp448.R1.unser (verf7 (p + 14)))
  let m :=
    if BitVec.slt index 0#8 then
      let m := F448.V1.neg.call [(b + 6, 0)] m (ρ 0)
      let m := F448.V1.compress.call [(b + 6, 0)] m (ρ 1)
      F448.V4.zip.call [(b + 3, 0), (b + 4, 0), (b + 5, 0), (b + 6, 0), (b + 7, 0)] m (ρ 2)
    else
      F448.V4.zip.call [(b + 3, 0), (b + 5, 0), (b + 4, 0), (b + 6, 0), (b + 7, 0)] m (ρ 2)
  let m := P448.mixadd_4w.call [(b, 0), (b + 3, 0), (b + 10, 0)] m (ρ 3)
  { s with loc := m, log := s.log ++ (loads p 7 ++ loads (p + 7) 7 ++ loads (p + 14) 7) }

/-- src/edwards448.c:1252-1265. -/
def addDynamic448 (ρ : ℕ → Regs) (b : ℕ) (index : Byte) (s : VSt) : VSt :=
  let j := absDigit index
  let m :=
    if BitVec.slt index 0#8 then
      let m := F448.V4.ngz.call [(b + 8, 0), (b + 2, 16 * j)] s.loc (ρ 0)
      let m := F448.V4.compressfast.call [(b + 8, 0)] m (ρ 1)
      P448.mixadd_4w.call [(b, 0), (b + 8, 0), (b + 10, 0)] m (ρ 2)
    else P448.mixadd_4w.call [(b, 0), (b + 2, 16 * j), (b + 10, 0)] s.loc (ρ 2)
  { s with loc := m, log := s.log ++ [.dyn j] }

/-- src/edwards448.c:1243-1266: the iterations i-1, ..., 0. -/
def dmLoop448 (ρ : ℕ → ℕ → Regs) (b : ℕ) : ℕ → VSt → VSt
  | 0, s => s
  | i + 1, s =>
      let m := P448.doubling_4w.call [(b, 0), (b + 9, 0)] s.loc (ρ i 0)
      let s := { s with loc := m, log := s.log ++ [.rd 0 i] }
      let s := if s.kr i ≠ 0#8 then addStatic448 (fun n => ρ i (n + 1)) b (s.kr i) s else s
      let s := { s with log := s.log ++ [.rd 1 i] }
      let s := if s.kh i ≠ 0#8 then addDynamic448 (fun n => ρ i (n + 5)) b (s.kh i) s else s
      dmLoop448 ρ b i s

/-- src/edwards448.c:1211-1273 `double_point_mult_4w_ed448`; `u13` and `u14`, `v13` and `v14` are
words that the two calls of `div4` leave uninitialised.  Local objects as in `double25519`, and
b+12 the arrays of `isogeny_2w_H0H8`; the arrays `s_div_4` and `h_div_4` are only their bytes. -/
def double448 (u13 u14 v13 v14 : W) (ρ : ℕ → ℕ → Regs) (b : ℕ) (s h : List Byte) (A : Place)
    (m : Mem) : VSt × List Byte :=
  let s_div_4 := Ed448.div4 u13 u14 s
  let h_div_4 := Ed448.div4 v13 v14 h
  let (kr, log, l_r, _) := wnafMem448 0 7 457 0 (Ed448.F8.ofBytes s_div_4) (fun _ => 0#8) []
  let (kh, log, l_h, _) := wnafMem448 1 5 457 0 (Ed448.F8.ofBytes h_div_4) (fun _ => 0#8) log
  let l := if l_r > l_h then l_r else l_h
  let m := P448.precompute_4w.call [(b + 2, 0), A, (b + 11, 0)] m (ρ 457 0)
  let m := F448.V4.zero.call [(b, 0)] m (ρ 457 1)
  let m := m.set b 0 (SET64 1 0 1 0)
  let st := dmLoop448 ρ b l ⟨m, kr, kh, log⟩
  let m := P448.unzip_2w.call [(b + 1, 0), (b + 1, 8), (b, 0)] st.loc (ρ 457 2)
  let m := P448.isogeny_2w.call [(b + 1, 0), (b + 12, 0)] m (ρ 457 3)
  ({ st with loc := m }, Ed448.point_encoding (q2w.at m (b + 1, 0)))

/-- An element of `EltFp448_4w_redradix` written over the object `o`. -/
def putG4 (m : Mem) (o : ℕ) (e : Fp448.Elt16 V) : Mem := fun o' c =>
  if o' = o ∧ c < 16 then
    [e.r0, e.r8, e.r1, e.r9, e.r2, e.r10, e.r3, e.r11, e.r4, e.r12, e.r5, e.r13, e.r6, e.r14,
      e.r7, e.r15].getD c (LIT 0) else m o' c

/-- src/sign448.c:255-302 `ed448_verify_all` on the bytes `c` of the caller, as `verify25519`. -/
def verify448 (H : List Byte → ℕ → List Byte) (u : ℕ → W) (ρ : ℕ → ℕ → Regs) (c : ℕ → Byte)
    (m : Mem) (message message_length context context_length public_key signature : ℕ)
    (phflag : Byte) : Ed25519.Status × List VAcc :=
  if context_length > 255 then (.ERROR_CONTEXT, []) else
  let dom := Ed448.domBytes (bytesAt c context context_length) phflag
  match Ed448.msgBytes H (bytesAt c message message_length) phflag with
  | none => (.ERROR_PHFLAG, [])
  | some msg =>
    let H_RAM := Ed448.modular_reduction (u 0) (u 1)
      (H (dom ++ bytesAt c signature 57 ++ bytesAt c public_key 57 ++ msg) 114)
    match Ed448.point_decoding (bytesAt c public_key 57) with
    | none => (.ERROR_PUBLICKEY, [])
    | some (A, _) =>
      let m := putG4 m 0 A
      let r := double448 (u 2) (u 3) (u 4) (u 5) ρ 1 (bytesAt c (signature + 57) 57) H_RAM
        (0, 0) m
      (if bytesAt c signature 57 = r.2.take 57 then .VERIFICATION_OK else .INVALID_SIGNATURE,
        r.1.log)

end Verif.Vec
