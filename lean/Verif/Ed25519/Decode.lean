import Verif.Ed25519.Point
import Verif.Fp25519.RedApi

/-! # Decoding of points of edwards25519: src/edwards255.c -/

namespace Verif.Ed25519

open Verif.Fp25519

/-- src/edwards255.c:1089-1094 `param_curve_d`. -/
def param_curve_d : F4 :=
  ⟨0x75eb4dca135978a3#64, 0x00700a4d4141d8ab#64, 0x8cc740797779e898#64, 0x52036cee2b6ffe73#64⟩

/-- The local `one` of src/edwards255.c:1096-1099. -/
def oneF : F4 := ⟨1#64, 0#64, 0#64, 0#64⟩

/-- src/edwards255.c:1102-1105: `Y`, the first 255 bits of the string. -/
def decodeY (A : List Byte) : F4 :=
  let u := F4.ofBytes A
  { u with w3 := u.w3 &&& ((1#64 <<< 63) - 1#64) }

/-- src/edwards255.c:1100 and 1105-1123: `X`, computed from the string.  The comparison of
`uint8_t bit_X` with `X[0] & 0x1` is made in 64 bits. -/
def decodeX (isa : Isa) (A : List Byte) : F4 :=
  let bit_X := (A.getD 31 0 >>> 7).setWidth 64
  let u := decodeY A
  let u := Full.sqr isa u
  let v := Full.mul isa u param_curve_d
  let u := Full.sub u oneF
  let v := Full.add isa v oneF
  let X := (Full.invsqrt isa u v).1
  let X := Full.modp X
  if bit_X = X.w0 &&& 1#64 then Full.neg X else X

/-- src/edwards255.c:1085-1139 `point_decoding_ed25519`: the 4-way point, the 2-way point and
the returned value.  Simplification: both pointers are given; each result does not depend on
whether the other is asked for. -/
def point_decoding (isa : Isa) (A : List Byte) : Elt10 V × P2w × BitVec 32 :=
  let Y := decodeY A
  let X := decodeX isa A
  let T := Full.mul isa X Y
  let XX := R1.unser X.toBytes
  let YY := R1.unser Y.toBytes
  let TT := R1.unser T.toBytes
  let ONE := R1.unser oneF.toBytes
  (R4.zip XX YY TT ONE, ⟨R2.inter XX YY, R2.inter TT ONE⟩, 0#32)

end Verif.Ed25519
