import Verif.Props.Fp25519Red
import Verif.Props.Fp25519Full
import Verif.Props.Ed25519Scalar
import Verif.Props.X25519
import Verif.Props.Ed25519Point
import Verif.Props.Eddsa25519
import Verif.Props.X25519Keygen
import Verif.Props.Sha512
import Verif.Props.Sha512TwoWay
import Verif.Props.Sha3
import Verif.Props.Prng
import Verif.Props.HashToCurve
import Verif.Props.HashToCurveAvx2
import Verif.Props.Fp448Full
import Verif.Props.Fp448Red
import Verif.Props.X448
import Verif.Props.Ed448Scalar
import Verif.Props.Ed448Point
import Verif.Props.Ed448Decode
import Verif.Props.Ed448Sign
import Verif.Props.Ed448SignWitness
import Verif.Curve.MontIso
import Verif.X448.Keygen
import Verif.X448.KeygenLemmas
import Verif.Props.X448Keygen
import Verif.PrimesTwist
import Verif.Curve.Twist
import Verif.X25519.TwistOrder
import Verif.X25519.ZeroLemmas
import Verif.Props.X25519Zero
import Verif.Ed25519.EddsaStream
import Verif.Ed25519.EddsaStreamLemmas
import Verif.Ed448.EddsaStream
import Verif.Ed448.EddsaStreamLemmas
import Verif.Props.EddsaHash
import Verif.X86.Machine
import Verif.X86.Sim
import Verif.X86.Blocks25519
import Verif.X86.Blocks448
import Verif.X86.Link25519
import Verif.X86.Link448
import Verif.X86.Api
import Verif.X86.ApiLemmas
import Verif.X86.Spec
import Verif.X86.SpecLemmas
import Verif.X86.Prog
import Verif.X86.ProgLemmas
import Verif.X86.Ladder
import Verif.X86.LadderLemmas
import Verif.X86.ByteLemmas
import Verif.X86.LadderLemmas2
import Verif.X86.TraceLemmas
import Verif.X86.LadderTrace
import Verif.Props.InPlace
import Verif.Props.LadderMem
import Verif.Props.Ed448Witness
import Verif.Props.Swap
import Verif.Cpu.Caps
import Verif.Props.Cpu
import Verif.Vec.Machine
import Verif.Vec.Spec
import Verif.Vec.Lemmas
import Verif.Vec.Shapes
import Verif.Vec.Prog25519
import Verif.Vec.Prog448
import Verif.Vec.Link25519
import Verif.Vec.Link448
import Verif.Vec.Funs
import Verif.Vec.AccessLemmas
import Verif.Props.VecInPlace
import Verif.Vec.Inline
import Verif.Vec.Points25519
import Verif.Vec.Points448
import Verif.Vec.PointSpec
import Verif.Vec.PointShapes
import Verif.Vec.Compose
import Verif.Vec.LinkPoints25519
import Verif.Vec.LinkPoints448
import Verif.Vec.PointFuns
import Verif.Vec.Ladder
import Verif.Vec.LadderLemmas
import Verif.Vec.LinkLadder25519
import Verif.Vec.LinkLadder448
import Verif.Vec.SharedMem
import Verif.Vec.SharedMemLemmas
import Verif.Props.VecPoints
import Verif.Props.VecLadder
import Verif.Caller
import Verif.Ed25519.EddsaMem
import Verif.Ed448.EddsaMem
import Verif.Props.EddsaMem
import Verif.Vec.Query
import Verif.Vec.LinkQuery
import Verif.Vec.QueryAccess
import Verif.Vec.MultMem
import Verif.Vec.RecodeLemmas
import Verif.Vec.MultMemLemmas
import Verif.Props.VecMult
import Verif.Vec.KeygenMem
import Verif.Vec.KeygenMemLemmas
import Verif.Props.VecKeygen
import Verif.Vec.VerifyMem
import Verif.Vec.VerifyMemLemmas
import Verif.Vec.VerifyMemLemmas448
import Verif.Props.VecVerify
import Verif.Vec.SignMem
import Verif.Vec.SignMemLemmas
import Verif.Props.VecSign
import Verif.Fp448.RedWide
import Verif.Props.Fp448Wide
import Verif.Prng.Rand
import Verif.Props.Rand
import Verif.Fp25519.RedSrt
import Verif.Props.Fp25519Srt
import Verif.PrimesTwist448
import Verif.Primes448
import Verif.X448.Order
import Verif.X448.ZeroLemmas
import Verif.Props.X448Zero
import Verif.X25519.KeyLemmas
import Verif.Props.KeyUnique
import Verif.Print
import Verif.Props.Print
import Verif.Alloc
import Verif.Props.Alloc
import Verif.Props.OneMessage
import Verif.Props.PublicKeyArg
import Verif.X448.KeyLemmas
import Verif.Props.KeyUnique448
import Verif.Tables
import Verif.Props.Tables
import Verif.Props.OneKey
import Verif.Props.CanonicalR
