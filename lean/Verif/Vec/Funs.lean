import Verif.Vec.Prog25519
import Verif.Vec.Prog448

/-!
# The vector functions of the field layers, in lists

All functions of the two files of programs; those that repeat a squaring take the number of
repetitions. -/

namespace Verif.Vec

/-- src/eltfp25519_1w_redradix.c, all modelled functions without a repetition count. -/
def funs25519_1w : List Fn := [
  F25519.V1.compress, F25519.V1.compressfast, F25519.V1.cmv, F25519.V1.add, F25519.V1.sub,
  F25519.V1.addsub, F25519.V1.neg, F25519.V1.intmul_sb, F25519.V1.intmul, F25519.V1.mul,
  F25519.V1.sqr, F25519.V1.copy, F25519.V1.zero, F25519.V1.naddsub]

/-- src/eltfp25519_2w_redradix.c, all modelled functions without a repetition count. -/
def funs25519_2w : List Fn := [
  F25519.V2.copy, F25519.V2.zero, F25519.V2.inter, F25519.V2.deinter, F25519.V2.cmv,
  F25519.V2.add, F25519.V2.sub, F25519.V2.subadd0, F25519.V2.subadd1, F25519.V2.ngz,
  F25519.V2.addsub, F25519.V2.intmul2, F25519.V2.intmul, F25519.V2.intsqr, F25519.V2.compress,
  F25519.V2.compress2, F25519.V2.compressfast, F25519.V2.neg, F25519.V2.mul, F25519.V2.sqr,
  F25519.V2.naddsub]

/-- src/eltfp25519_4w_redradix.c, all modelled functions without a repetition count. -/
def funs25519_4w : List Fn := [
  F25519.V4.copy, F25519.V4.zero, F25519.V4.zip, F25519.V4.unzip, F25519.V4.add, F25519.V4.sub,
  F25519.V4.neg, F25519.V4.addsub, F25519.V4.addsublar, F25519.V4.ngz, F25519.V4.intmul_sb,
  F25519.V4.intmul, F25519.V4.intsqr, F25519.V4.compress, F25519.V4.compress2,
  F25519.V4.compressfast, F25519.V4.new_compressfast2, F25519.V4.mul, F25519.V4.sqr]

/-- src/eltfp448_1w_redradix.c, all modelled functions without a repetition count. -/
def funs448_1w : List Fn := [
  F448.V1.compress, F448.V1.compressfast, F448.V1.new_compressfast, F448.V1.add, F448.V1.sub,
  F448.V1.addsub, F448.V1.neg, F448.V1.intmul_sb, F448.V1.intmul, F448.V1.mul, F448.V1.sqr,
  F448.V1.copy, F448.V1.zero, F448.V1.naddsub]

/-- src/eltfp448_2w_redradix.c, all modelled functions without a repetition count. -/
def funs448_2w : List Fn := [
  F448.V2.copy, F448.V2.zero, F448.V2.inter, F448.V2.deinter, F448.V2.add, F448.V2.sub,
  F448.V2.subadd0, F448.V2.subadd1, F448.V2.ngz, F448.V2.addsub, F448.V2.intmul_karat,
  F448.V2.intmul, F448.V2.intsqr_karat, F448.V2.intsqr, F448.V2.compress, F448.V2.compress2,
  F448.V2.compressfast, F448.V2.mul, F448.V2.sqr, F448.V2.naddsub]

/-- src/eltfp448_4w_redradix.c, all modelled functions without a repetition count. -/
def funs448_4w : List Fn := [
  F448.V4.copy, F448.V4.zero, F448.V4.zip, F448.V4.unzip, F448.V4.add, F448.V4.sub,
  F448.V4.addsub, F448.V4.addsublar, F448.V4.ngz, F448.V4.intmul_karat, F448.V4.intmul,
  F448.V4.intsqr_karat, F448.V4.intsqr, F448.V4.compress, F448.V4.compress2,
  F448.V4.compressfast, F448.V4.new_compressfast2, F448.V4.mul, F448.V4.sqr]

/-- The functions with a repetition count. -/
def funsRep (n : ℕ) : List Fn :=
  [F25519.V1.sqrn n, F25519.V2.sqrn n, F25519.V4.sqrn n, F448.V1.sqrn n]

/-- All of them. -/
def allFuns (n : ℕ) : List Fn :=
  funs25519_1w ++ funs25519_2w ++ funs25519_4w ++ funs448_1w ++ funs448_2w ++ funs448_4w ++
    funsRep n

end Verif.Vec
