import Verif.Vec.MultMem
import Verif.Vec.SharedMem
import Verif.Vec.PointSpec
import Verif.Ed25519.EddsaMem
import Verif.Ed448.EddsaMem

/-!
# Key generation and signing of Ed25519 and Ed448 on memory

`ed25519_keygen`, `ed25519_sign_all`, `ed448_keygen` and `ed448_sign_all` statement by statement,
on the bytes of the caller, the local arrays of bytes and the other local objects of the function
and of the functions it calls; what local memory holds before the call is arbitrary, and the
functions return what it holds afterwards.  The multiplication by the base point is run on memory
(Vec/MultMem.lean).  Simplification: `point_encoding_*`, `reduce64bits`, `modular_reduction_*`,
`calculate_s_*` and `div4` are replaced by their value-level models, and a hash, which is a
parameter as in Ed25519/Eddsa.lean, by its value: what those functions leave in their own local
memory is not modelled. -/

namespace Verif.Vec

/-- The bytes of the caller, the local arrays of bytes, and the other local objects. -/
structure SignSt where
  caller : ℕ → Byte
  arr : ℕ → ℕ → Byte
  loc : Mem

/-- One of the local arrays gets new contents. -/
def SignSt.put (s : SignSt) (k : ℕ) (a : ℕ → Byte) : SignSt :=
  { s with arr := fun k' => if k' = k then a else s.arr k' }

/-- `a[i] = f(a[i])`. -/
def upd (a : ℕ → Byte) (i : ℕ) (f : Byte → Byte) : ℕ → Byte := fun j => if j = i then f (a i) else a j

/-- The 64 bytes of eight words. -/
def bytes8 (a : Fp25519.F8) : List Byte :=
  Ed25519.F8.lowBytes a ++ (wordBytes a.w4 ++ wordBytes a.w5 ++ wordBytes a.w6 ++ wordBytes a.w7)

/-! ## Ed25519 -/

/-- src/sign255.c:278-280 and 333-335: the clamping of a digest. -/
def clamp25519 (az : ℕ → Byte) : ℕ → Byte :=
  let az := upd az 0 (· &&& 0xF8#8)
  let az := upd az 31 (· &&& 127#8)
  upd az 31 (· ||| 64#8)

/-- src/sign255.c:267-290 `ed25519_keygen`.  Local array: 0 `az`.  Local objects: 0 `azB`, and from
1 on those of the multiplication. -/
def keygenEd25519 (H : List Byte → List Byte) (isa : Fp25519.Isa) (ρ : ℕ → Regs)
    (public_key private_key : ℕ) (s : SignSt) : Ed25519.Status × SignSt :=
  let s := s.put 0 (storeAt (s.arr 0) 0 (H (bytesAt s.caller private_key 32)))
  let s := s.put 0 (clamp25519 (s.arr 0))
  let s := s.put 0 (storeAt (s.arr 0) 32 (wordBytes ((s.arr 0 31 >>> 4).setWidth 64)))
  let s := s.put 0 (upd (s.arr 0) 31 (· &&& 15#8))
  let s := s.put 0 (storeAt (s.arr 0) 0
    (bytes8 (Ed25519.reduce64bits (Ed25519.F8.ofBytes (bytesAt (s.arr 0) 0 64)))))
  let s := { s with loc := mult25519 ρ 1 (0, 0) (bytesAt (s.arr 0) 0 32) s.loc }
  (.KEYGEN_OK, { s with
    caller := storeAt s.caller public_key (Ed25519.point_encoding isa (p2w.at s.loc (0, 0))) })

/-- src/sign255.c:227-234 `modular_reduction_ed25519` on an array. -/
def reduce25519 (a : ℕ → Byte) : ℕ → Byte :=
  storeAt a 0 (bytes8 (Ed25519.modular_reduction (Ed25519.F8.ofBytes (bytesAt a 0 64))))

/-- src/sign255.c:305-380 `ed25519_sign_all`.  Local arrays: 0 `H_RAM`, 1 `r`, 2 `ah`,
3 `pre_hash_message`.  Local objects: 0 `rB`, and from 1 on those of the multiplication. -/
def signEd25519 (H : List Byte → List Byte) (isa : Fp25519.Isa) (ρ : ℕ → Regs)
    (signature message message_length context context_length public_key private_key : ℕ)
    (pureEdDSA phflag : Byte) (s : SignSt) : Ed25519.Status × SignSt :=
  if pureEdDSA = 0 ∧ context_length > 255 then (.ERROR_CONTEXT, s) else
  let s := s.put 2 (storeAt (s.arr 2) 0 (H (bytesAt s.caller private_key 32)))
  let s := s.put 2 (clamp25519 (s.arr 2))
  if phflag ≠ 1 ∧ phflag ≠ 0 then (.ERROR_PHFLAG, s) else
  let s := if phflag = 1 then
    s.put 3 (storeAt (s.arr 3) 0 (H (bytesAt s.caller message message_length))) else s
  let dom := fun s : SignSt =>
    Ed25519.domBytes (bytesAt s.caller context context_length) pureEdDSA phflag
  let msg := fun s : SignSt =>
    if phflag = 1 then bytesAt (s.arr 3) 0 64 else bytesAt s.caller message message_length
  let s := s.put 1 (storeAt (s.arr 1) 0 (H (dom s ++ bytesAt (s.arr 2) 32 32 ++ msg s)))
  let s := s.put 1 (reduce25519 (s.arr 1))
  let s := { s with loc := mult25519 ρ 1 (0, 0) (bytesAt (s.arr 1) 0 32) s.loc }
  let s := { s with
    caller := storeAt s.caller signature (Ed25519.point_encoding isa (p2w.at s.loc (0, 0))) }
  let s := s.put 0 (storeAt (s.arr 0) 0
    (H (dom s ++ bytesAt s.caller signature 32 ++ bytesAt s.caller public_key 32 ++ msg s)))
  let s := s.put 0 (reduce25519 (s.arr 0))
  (.SIGNATURE_OK, { s with
    caller := storeAt s.caller (signature + 32) (Ed25519.calculate_s (bytesAt (s.arr 1) 0 32)
      (bytesAt (s.arr 0) 0 32) (bytesAt (s.arr 2) 0 32)) })

/-- src/ed255.c:34, 48, 62: `.keygen` of the three schemes. -/
def apiKeygenEd25519 (H : List Byte → List Byte) (isa : Fp25519.Isa) (ρ : ℕ → Regs)
    (_ : Ed25519.Mode) (public_key private_key : ℕ) (s : SignSt) : Ed25519.Status × SignSt :=
  keygenEd25519 H isa ρ public_key private_key s

/-- src/sign255.c:391-448 and src/ed255.c:35, 49, 63: `.sign` of the three schemes. -/
def apiSignEd25519 (H : List Byte → List Byte) (isa : Fp25519.Isa) (ρ : ℕ → Regs)
    (mode : Ed25519.Mode)
    (signature message message_length context context_length public_key private_key : ℕ)
    (s : SignSt) : Ed25519.Status × SignSt :=
  match mode with
  | .Pure => signEd25519 H isa ρ signature message message_length 0 0 public_key private_key 1 0 s
  | .PreHash => signEd25519 H isa ρ signature message message_length context context_length
      public_key private_key 0 1 s
  | .Context => signEd25519 H isa ρ signature message message_length context context_length
      public_key private_key 0 0 s

/-! ## Ed448 -/

/-- src/sign448.c:111-113 and 158-160: the clamping of a digest. -/
def clamp448 (h : ℕ → Byte) : ℕ → Byte :=
  let h := upd h 0 (· &&& 0xFC#8)
  let h := upd h 55 (· ||| 0x80#8)
  upd h 56 fun _ => 0#8

/-- src/edwards448.c:757-761 `fixed_point_multiplication_ed448` of the array `k`.  Local array:
4 `r_div_4`. -/
def fixed448 (u13 u14 : W) (ρ : ℕ → Regs) (k : ℕ) (s : SignSt) : SignSt :=
  let s := s.put 4 (storeAt (s.arr 4) 0 (Ed448.div4 u13 u14 (bytesAt (s.arr k) 0 114)))
  { s with loc := mult448 ρ 1 (0, 0) (bytesAt (s.arr 4) 0 57) s.loc }

/-- src/sign448.c:103-118 `ed448_keygen`.  Local array: 0 `h`; local objects as for Ed25519. -/
def keygenEd448 (H : List Byte → ℕ → List Byte) (u : ℕ → W) (ρ : ℕ → Regs)
    (public_key private_key : ℕ) (s : SignSt) : Ed25519.Status × SignSt :=
  let s := s.put 0 (storeAt (s.arr 0) 0 (H (bytesAt s.caller private_key 57) 114))
  let s := s.put 0 (clamp448 (s.arr 0))
  let s := fixed448 (u 0) (u 1) ρ 0 s
  (.KEYGEN_OK, { s with
    caller := storeAt s.caller public_key (Ed448.point_encoding (q2w.at s.loc (0, 0))) })

/-- src/edwards448.c:37-92 `modular_reduction_ed448` on an array. -/
def reduce448 (u13 u14 : W) (a : ℕ → Byte) : ℕ → Byte :=
  storeAt a 0 (Ed448.modular_reduction u13 u14 (bytesAt a 0 114))

/-- src/sign448.c:132-198 `ed448_sign_all`.  Local arrays and objects as for Ed25519. -/
def signEd448 (H : List Byte → ℕ → List Byte) (u : ℕ → W) (ρ : ℕ → Regs)
    (signature message message_length context context_length public_key private_key : ℕ)
    (phflag : Byte) (s : SignSt) : Ed25519.Status × SignSt :=
  if context_length > 255 then (.ERROR_CONTEXT, s) else
  let s := s.put 2 (storeAt (s.arr 2) 0 (H (bytesAt s.caller private_key 57) 114))
  let s := s.put 2 (clamp448 (s.arr 2))
  if phflag ≠ 1 ∧ phflag ≠ 0 then (.ERROR_PHFLAG, s) else
  let s := if phflag = 1 then
    s.put 3 (storeAt (s.arr 3) 0 (H (bytesAt s.caller message message_length) 64)) else s
  let dom := fun s : SignSt => Ed448.domBytes (bytesAt s.caller context context_length) phflag
  let msg := fun s : SignSt =>
    if phflag = 1 then bytesAt (s.arr 3) 0 64 else bytesAt s.caller message message_length
  let s := s.put 1 (storeAt (s.arr 1) 0 (H (dom s ++ bytesAt (s.arr 2) 57 57 ++ msg s) 114))
  let s := s.put 1 (reduce448 (u 0) (u 1) (s.arr 1))
  let s := fixed448 (u 2) (u 3) ρ 1 s
  let s := { s with
    caller := storeAt s.caller signature (Ed448.point_encoding (q2w.at s.loc (0, 0))) }
  let s := s.put 0 (storeAt (s.arr 0) 0
    (H (dom s ++ bytesAt s.caller signature 57 ++ bytesAt s.caller public_key 57 ++ msg s) 114))
  let s := s.put 0 (reduce448 (u 4) (u 5) (s.arr 0))
  (.SIGNATURE_OK, { s with
    caller := storeAt s.caller (signature + 57) (Ed448.calculate_s (u 6) (u 7)
      (bytesAt (s.arr 1) 0 114) (bytesAt (s.arr 0) 0 114) (bytesAt (s.arr 2) 0 114)) })

/-- src/ed448.c:34, 48: `.keygen` of the two schemes. -/
def apiKeygenEd448 (H : List Byte → ℕ → List Byte) (u : ℕ → W) (ρ : ℕ → Regs)
    (_ : Ed448.Mode) (public_key private_key : ℕ) (s : SignSt) : Ed25519.Status × SignSt :=
  keygenEd448 H u ρ public_key private_key s

/-- src/sign448.c:209-242 and src/ed448.c:35, 49: `.sign` of the two schemes. -/
def apiSignEd448 (H : List Byte → ℕ → List Byte) (u : ℕ → W) (ρ : ℕ → Regs) (mode : Ed448.Mode)
    (signature message message_length context context_length public_key private_key : ℕ)
    (s : SignSt) : Ed25519.Status × SignSt :=
  match mode with
  | .PureContext => signEd448 H u ρ signature message message_length context context_length
      public_key private_key 0 s
  | .PreHash => signEd448 H u ρ signature message message_length context context_length
      public_key private_key 1 s

end Verif.Vec
