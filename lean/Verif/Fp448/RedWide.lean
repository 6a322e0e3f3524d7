import Verif.Fp448.Red

/-!
# Byte strings and comparison of the two- and four-way layouts of Fp448

As wired in the table `Fp448` (src/fp448.c:103-155).
-/

namespace Verif.Fp448

/-! ## Two-way -/

namespace R2

/-- src/eltfp448_2w_redradix.c:667-675 `cmp`. -/
def cmp (a b : Elt8 V) : V :=
  let d := deinter a
  let e := deinter b
  SET64 0 ((R1.cmp d.2 e.2).signExtend 64) 0 ((R1.cmp d.1 e.1).signExtend 64)

/-- src/eltfp448_2w_redradix.c:681-686 `unser`. -/
def unser (buf : List Byte) : Elt8 V :=
  inter (R1.unser (buf.take 56)) (R1.unser ((buf.drop 56).take 56))

/-- src/eltfp448_2w_redradix.c:688-693 `ser`. -/
def ser (a : Elt8 V) : List Byte :=
  let d := deinter a
  R1.ser d.1 ++ R1.ser d.2

end R2

/-! ## Four-way -/

namespace R4

/-- src/eltfp448_4w_redradix.c:658-670 `cmp`. -/
def cmp (a b : Elt16 V) : V :=
  let d := unzip a
  let e := unzip b
  SET64 ((R1.cmp d.2.2.2 e.2.2.2).signExtend 64) ((R1.cmp d.2.2.1 e.2.2.1).signExtend 64)
    ((R1.cmp d.2.1 e.2.1).signExtend 64) ((R1.cmp d.1 e.1).signExtend 64)

/-- src/eltfp448_4w_redradix.c:672-679 `unser`. -/
def unser (buf : List Byte) : Elt16 V :=
  zip (R1.unser (buf.take 56)) (R1.unser ((buf.drop 56).take 56))
    (R1.unser ((buf.drop 112).take 56)) (R1.unser ((buf.drop 168).take 56))

/-- src/eltfp448_4w_redradix.c:681-688 `ser`. -/
def ser (a : Elt16 V) : List Byte :=
  let d := unzip a
  R1.ser d.1 ++ R1.ser d.2.1 ++ R1.ser d.2.2.1 ++ R1.ser d.2.2.2

end R4

end Verif.Fp448
