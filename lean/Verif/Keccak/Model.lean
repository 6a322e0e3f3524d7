import Verif.Bytes

/-!
# SHA-3 and SHAKE: third_party/sha3.c

The state of 25 words is the structure `KState`; as an array of 200 bytes it is a list.  Messages
are whole bytes: `databitlen` is eight times the length of the list, and is less than 2^64 - 1600,
so the sums of lengths are exact.
-/

namespace Verif.Keccak

/-- third_party/sha3.c:10 `ROL64`. -/
def ROL64 (a : W) (offset : ℕ) : W := (a <<< offset) ^^^ (a >>> (64 - offset))

/-- third_party/sha3.c:12-38 `KeccakF21600RoundConstants`. -/
def RoundConstants : List W :=
  [0x0000000000000001#64, 0x0000000000008082#64, 0x800000000000808a#64, 0x8000000080008000#64,
   0x000000000000808b#64, 0x0000000080000001#64, 0x8000000080008081#64, 0x8000000000008009#64,
   0x000000000000008a#64, 0x0000000000000088#64, 0x0000000080008009#64, 0x000000008000000a#64,
   0x000000008000808b#64, 0x800000000000008b#64, 0x8000000000008089#64, 0x8000000000008003#64,
   0x8000000000008002#64, 0x8000000000000080#64, 0x000000000000800a#64, 0x800000008000000a#64,
   0x8000000080008081#64, 0x8000000000008080#64, 0x0000000080000001#64, 0x8000000080008008#64]

/-- third_party/sha3.c:46-70: the names of `state[0]`, ..., `state[24]`. -/
structure KState where
  Aba : W
  Abe : W
  Abi : W
  Abo : W
  Abu : W
  Aga : W
  Age : W
  Agi : W
  Ago : W
  Agu : W
  Aka : W
  Ake : W
  Aki : W
  Ako : W
  Aku : W
  Ama : W
  Ame : W
  Ami : W
  Amo : W
  Amu : W
  Asa : W
  Ase : W
  Asi : W
  Aso : W
  Asu : W
deriving DecidableEq

/-- third_party/sha3.c:75-140, the first of the four rounds of the loop body of `KeccakF2`;
`rc` is `KeccakF21600RoundConstants[i + 0]`. -/
def round1 (rc : W) (s : KState) : KState :=
  let Aba := s.Aba; let Abe := s.Abe; let Abi := s.Abi; let Abo := s.Abo; let Abu := s.Abu
  let Aga := s.Aga; let Age := s.Age; let Agi := s.Agi; let Ago := s.Ago; let Agu := s.Agu
  let Aka := s.Aka; let Ake := s.Ake; let Aki := s.Aki; let Ako := s.Ako; let Aku := s.Aku
  let Ama := s.Ama; let Ame := s.Ame; let Ami := s.Ami; let Amo := s.Amo; let Amu := s.Amu
  let Asa := s.Asa; let Ase := s.Ase; let Asi := s.Asi; let Aso := s.Aso; let Asu := s.Asu
  let Ca := Aba ^^^ Aga ^^^ Aka ^^^ Ama ^^^ Asa
  let Ce := Abe ^^^ Age ^^^ Ake ^^^ Ame ^^^ Ase
  let Ci := Abi ^^^ Agi ^^^ Aki ^^^ Ami ^^^ Asi
  let Co := Abo ^^^ Ago ^^^ Ako ^^^ Amo ^^^ Aso
  let Cu := Abu ^^^ Agu ^^^ Aku ^^^ Amu ^^^ Asu
  let Da := Cu ^^^ ROL64 Ce 1
  let De := Ca ^^^ ROL64 Ci 1
  let Di := Ce ^^^ ROL64 Co 1
  let Do := Ci ^^^ ROL64 Cu 1
  let Du := Co ^^^ ROL64 Ca 1
  let Ba := Aba ^^^ Da
  let Be := ROL64 (Age ^^^ De) 44
  let Bi := ROL64 (Aki ^^^ Di) 43
  let Bo := ROL64 (Amo ^^^ Do) 21
  let Bu := ROL64 (Asu ^^^ Du) 14
  let Aba := Ba ^^^ ((~~~Be) &&& Bi)
  let Aba := Aba ^^^ rc
  let Age := Be ^^^ ((~~~Bi) &&& Bo)
  let Aki := Bi ^^^ ((~~~Bo) &&& Bu)
  let Amo := Bo ^^^ ((~~~Bu) &&& Ba)
  let Asu := Bu ^^^ ((~~~Ba) &&& Be)
  let Bi := ROL64 (Aka ^^^ Da) 3
  let Bo := ROL64 (Ame ^^^ De) 45
  let Bu := ROL64 (Asi ^^^ Di) 61
  let Ba := ROL64 (Abo ^^^ Do) 28
  let Be := ROL64 (Agu ^^^ Du) 20
  let Aka := Ba ^^^ ((~~~Be) &&& Bi)
  let Ame := Be ^^^ ((~~~Bi) &&& Bo)
  let Asi := Bi ^^^ ((~~~Bo) &&& Bu)
  let Abo := Bo ^^^ ((~~~Bu) &&& Ba)
  let Agu := Bu ^^^ ((~~~Ba) &&& Be)
  let Bu := ROL64 (Asa ^^^ Da) 18
  let Ba := ROL64 (Abe ^^^ De) 1
  let Be := ROL64 (Agi ^^^ Di) 6
  let Bi := ROL64 (Ako ^^^ Do) 25
  let Bo := ROL64 (Amu ^^^ Du) 8
  let Asa := Ba ^^^ ((~~~Be) &&& Bi)
  let Abe := Be ^^^ ((~~~Bi) &&& Bo)
  let Agi := Bi ^^^ ((~~~Bo) &&& Bu)
  let Ako := Bo ^^^ ((~~~Bu) &&& Ba)
  let Amu := Bu ^^^ ((~~~Ba) &&& Be)
  let Be := ROL64 (Aga ^^^ Da) 36
  let Bi := ROL64 (Ake ^^^ De) 10
  let Bo := ROL64 (Ami ^^^ Di) 15
  let Bu := ROL64 (Aso ^^^ Do) 56
  let Ba := ROL64 (Abu ^^^ Du) 27
  let Aga := Ba ^^^ ((~~~Be) &&& Bi)
  let Ake := Be ^^^ ((~~~Bi) &&& Bo)
  let Ami := Bi ^^^ ((~~~Bo) &&& Bu)
  let Aso := Bo ^^^ ((~~~Bu) &&& Ba)
  let Abu := Bu ^^^ ((~~~Ba) &&& Be)
  let Bo := ROL64 (Ama ^^^ Da) 41
  let Bu := ROL64 (Ase ^^^ De) 2
  let Ba := ROL64 (Abi ^^^ Di) 62
  let Be := ROL64 (Ago ^^^ Do) 55
  let Bi := ROL64 (Aku ^^^ Du) 39
  let Ama := Ba ^^^ ((~~~Be) &&& Bi)
  let Ase := Be ^^^ ((~~~Bi) &&& Bo)
  let Abi := Bi ^^^ ((~~~Bo) &&& Bu)
  let Ago := Bo ^^^ ((~~~Bu) &&& Ba)
  let Aku := Bu ^^^ ((~~~Ba) &&& Be)
  ⟨Aba, Abe, Abi, Abo, Abu, Aga, Age, Agi, Ago, Agu,
    Aka, Ake, Aki, Ako, Aku, Ama, Ame, Ami, Amo, Amu,
    Asa, Ase, Asi, Aso, Asu⟩

/-- third_party/sha3.c:142-207, the second of the four rounds of the loop body of `KeccakF2`;
`rc` is `KeccakF21600RoundConstants[i + 1]`. -/
def round2 (rc : W) (s : KState) : KState :=
  let Aba := s.Aba; let Abe := s.Abe; let Abi := s.Abi; let Abo := s.Abo; let Abu := s.Abu
  let Aga := s.Aga; let Age := s.Age; let Agi := s.Agi; let Ago := s.Ago; let Agu := s.Agu
  let Aka := s.Aka; let Ake := s.Ake; let Aki := s.Aki; let Ako := s.Ako; let Aku := s.Aku
  let Ama := s.Ama; let Ame := s.Ame; let Ami := s.Ami; let Amo := s.Amo; let Amu := s.Amu
  let Asa := s.Asa; let Ase := s.Ase; let Asi := s.Asi; let Aso := s.Aso; let Asu := s.Asu
  let Ca := Aba ^^^ Aka ^^^ Asa ^^^ Aga ^^^ Ama
  let Ce := Age ^^^ Ame ^^^ Abe ^^^ Ake ^^^ Ase
  let Ci := Aki ^^^ Asi ^^^ Agi ^^^ Ami ^^^ Abi
  let Co := Amo ^^^ Abo ^^^ Ako ^^^ Aso ^^^ Ago
  let Cu := Asu ^^^ Agu ^^^ Amu ^^^ Abu ^^^ Aku
  let Da := Cu ^^^ ROL64 Ce 1
  let De := Ca ^^^ ROL64 Ci 1
  let Di := Ce ^^^ ROL64 Co 1
  let Do := Ci ^^^ ROL64 Cu 1
  let Du := Co ^^^ ROL64 Ca 1
  let Ba := Aba ^^^ Da
  let Be := ROL64 (Ame ^^^ De) 44
  let Bi := ROL64 (Agi ^^^ Di) 43
  let Bo := ROL64 (Aso ^^^ Do) 21
  let Bu := ROL64 (Aku ^^^ Du) 14
  let Aba := Ba ^^^ ((~~~Be) &&& Bi)
  let Aba := Aba ^^^ rc
  let Ame := Be ^^^ ((~~~Bi) &&& Bo)
  let Agi := Bi ^^^ ((~~~Bo) &&& Bu)
  let Aso := Bo ^^^ ((~~~Bu) &&& Ba)
  let Aku := Bu ^^^ ((~~~Ba) &&& Be)
  let Bi := ROL64 (Asa ^^^ Da) 3
  let Bo := ROL64 (Ake ^^^ De) 45
  let Bu := ROL64 (Abi ^^^ Di) 61
  let Ba := ROL64 (Amo ^^^ Do) 28
  let Be := ROL64 (Agu ^^^ Du) 20
  let Asa := Ba ^^^ ((~~~Be) &&& Bi)
  let Ake := Be ^^^ ((~~~Bi) &&& Bo)
  let Abi := Bi ^^^ ((~~~Bo) &&& Bu)
  let Amo := Bo ^^^ ((~~~Bu) &&& Ba)
  let Agu := Bu ^^^ ((~~~Ba) &&& Be)
  let Bu := ROL64 (Ama ^^^ Da) 18
  let Ba := ROL64 (Age ^^^ De) 1
  let Be := ROL64 (Asi ^^^ Di) 6
  let Bi := ROL64 (Ako ^^^ Do) 25
  let Bo := ROL64 (Abu ^^^ Du) 8
  let Ama := Ba ^^^ ((~~~Be) &&& Bi)
  let Age := Be ^^^ ((~~~Bi) &&& Bo)
  let Asi := Bi ^^^ ((~~~Bo) &&& Bu)
  let Ako := Bo ^^^ ((~~~Bu) &&& Ba)
  let Abu := Bu ^^^ ((~~~Ba) &&& Be)
  let Be := ROL64 (Aka ^^^ Da) 36
  let Bi := ROL64 (Abe ^^^ De) 10
  let Bo := ROL64 (Ami ^^^ Di) 15
  let Bu := ROL64 (Ago ^^^ Do) 56
  let Ba := ROL64 (Asu ^^^ Du) 27
  let Aka := Ba ^^^ ((~~~Be) &&& Bi)
  let Abe := Be ^^^ ((~~~Bi) &&& Bo)
  let Ami := Bi ^^^ ((~~~Bo) &&& Bu)
  let Ago := Bo ^^^ ((~~~Bu) &&& Ba)
  let Asu := Bu ^^^ ((~~~Ba) &&& Be)
  let Bo := ROL64 (Aga ^^^ Da) 41
  let Bu := ROL64 (Ase ^^^ De) 2
  let Ba := ROL64 (Aki ^^^ Di) 62
  let Be := ROL64 (Abo ^^^ Do) 55
  let Bi := ROL64 (Amu ^^^ Du) 39
  let Aga := Ba ^^^ ((~~~Be) &&& Bi)
  let Ase := Be ^^^ ((~~~Bi) &&& Bo)
  let Aki := Bi ^^^ ((~~~Bo) &&& Bu)
  let Abo := Bo ^^^ ((~~~Bu) &&& Ba)
  let Amu := Bu ^^^ ((~~~Ba) &&& Be)
  ⟨Aba, Abe, Abi, Abo, Abu, Aga, Age, Agi, Ago, Agu,
    Aka, Ake, Aki, Ako, Aku, Ama, Ame, Ami, Amo, Amu,
    Asa, Ase, Asi, Aso, Asu⟩

/-- third_party/sha3.c:209-274, the third of the four rounds of the loop body of `KeccakF2`;
`rc` is `KeccakF21600RoundConstants[i + 2]`. -/
def round3 (rc : W) (s : KState) : KState :=
  let Aba := s.Aba; let Abe := s.Abe; let Abi := s.Abi; let Abo := s.Abo; let Abu := s.Abu
  let Aga := s.Aga; let Age := s.Age; let Agi := s.Agi; let Ago := s.Ago; let Agu := s.Agu
  let Aka := s.Aka; let Ake := s.Ake; let Aki := s.Aki; let Ako := s.Ako; let Aku := s.Aku
  let Ama := s.Ama; let Ame := s.Ame; let Ami := s.Ami; let Amo := s.Amo; let Amu := s.Amu
  let Asa := s.Asa; let Ase := s.Ase; let Asi := s.Asi; let Aso := s.Aso; let Asu := s.Asu
  let Ca := Aba ^^^ Asa ^^^ Ama ^^^ Aka ^^^ Aga
  let Ce := Ame ^^^ Ake ^^^ Age ^^^ Abe ^^^ Ase
  let Ci := Agi ^^^ Abi ^^^ Asi ^^^ Ami ^^^ Aki
  let Co := Aso ^^^ Amo ^^^ Ako ^^^ Ago ^^^ Abo
  let Cu := Aku ^^^ Agu ^^^ Abu ^^^ Asu ^^^ Amu
  let Da := Cu ^^^ ROL64 Ce 1
  let De := Ca ^^^ ROL64 Ci 1
  let Di := Ce ^^^ ROL64 Co 1
  let Do := Ci ^^^ ROL64 Cu 1
  let Du := Co ^^^ ROL64 Ca 1
  let Ba := Aba ^^^ Da
  let Be := ROL64 (Ake ^^^ De) 44
  let Bi := ROL64 (Asi ^^^ Di) 43
  let Bo := ROL64 (Ago ^^^ Do) 21
  let Bu := ROL64 (Amu ^^^ Du) 14
  let Aba := Ba ^^^ ((~~~Be) &&& Bi)
  let Aba := Aba ^^^ rc
  let Ake := Be ^^^ ((~~~Bi) &&& Bo)
  let Asi := Bi ^^^ ((~~~Bo) &&& Bu)
  let Ago := Bo ^^^ ((~~~Bu) &&& Ba)
  let Amu := Bu ^^^ ((~~~Ba) &&& Be)
  let Bi := ROL64 (Ama ^^^ Da) 3
  let Bo := ROL64 (Abe ^^^ De) 45
  let Bu := ROL64 (Aki ^^^ Di) 61
  let Ba := ROL64 (Aso ^^^ Do) 28
  let Be := ROL64 (Agu ^^^ Du) 20
  let Ama := Ba ^^^ ((~~~Be) &&& Bi)
  let Abe := Be ^^^ ((~~~Bi) &&& Bo)
  let Aki := Bi ^^^ ((~~~Bo) &&& Bu)
  let Aso := Bo ^^^ ((~~~Bu) &&& Ba)
  let Agu := Bu ^^^ ((~~~Ba) &&& Be)
  let Bu := ROL64 (Aga ^^^ Da) 18
  let Ba := ROL64 (Ame ^^^ De) 1
  let Be := ROL64 (Abi ^^^ Di) 6
  let Bi := ROL64 (Ako ^^^ Do) 25
  let Bo := ROL64 (Asu ^^^ Du) 8
  let Aga := Ba ^^^ ((~~~Be) &&& Bi)
  let Ame := Be ^^^ ((~~~Bi) &&& Bo)
  let Abi := Bi ^^^ ((~~~Bo) &&& Bu)
  let Ako := Bo ^^^ ((~~~Bu) &&& Ba)
  let Asu := Bu ^^^ ((~~~Ba) &&& Be)
  let Be := ROL64 (Asa ^^^ Da) 36
  let Bi := ROL64 (Age ^^^ De) 10
  let Bo := ROL64 (Ami ^^^ Di) 15
  let Bu := ROL64 (Abo ^^^ Do) 56
  let Ba := ROL64 (Aku ^^^ Du) 27
  let Asa := Ba ^^^ ((~~~Be) &&& Bi)
  let Age := Be ^^^ ((~~~Bi) &&& Bo)
  let Ami := Bi ^^^ ((~~~Bo) &&& Bu)
  let Abo := Bo ^^^ ((~~~Bu) &&& Ba)
  let Aku := Bu ^^^ ((~~~Ba) &&& Be)
  let Bo := ROL64 (Aka ^^^ Da) 41
  let Bu := ROL64 (Ase ^^^ De) 2
  let Ba := ROL64 (Agi ^^^ Di) 62
  let Be := ROL64 (Amo ^^^ Do) 55
  let Bi := ROL64 (Abu ^^^ Du) 39
  let Aka := Ba ^^^ ((~~~Be) &&& Bi)
  let Ase := Be ^^^ ((~~~Bi) &&& Bo)
  let Agi := Bi ^^^ ((~~~Bo) &&& Bu)
  let Amo := Bo ^^^ ((~~~Bu) &&& Ba)
  let Abu := Bu ^^^ ((~~~Ba) &&& Be)
  ⟨Aba, Abe, Abi, Abo, Abu, Aga, Age, Agi, Ago, Agu,
    Aka, Ake, Aki, Ako, Aku, Ama, Ame, Ami, Amo, Amu,
    Asa, Ase, Asi, Aso, Asu⟩

/-- third_party/sha3.c:276-341, the fourth of the four rounds of the loop body of `KeccakF2`;
`rc` is `KeccakF21600RoundConstants[i + 3]`. -/
def round4 (rc : W) (s : KState) : KState :=
  let Aba := s.Aba; let Abe := s.Abe; let Abi := s.Abi; let Abo := s.Abo; let Abu := s.Abu
  let Aga := s.Aga; let Age := s.Age; let Agi := s.Agi; let Ago := s.Ago; let Agu := s.Agu
  let Aka := s.Aka; let Ake := s.Ake; let Aki := s.Aki; let Ako := s.Ako; let Aku := s.Aku
  let Ama := s.Ama; let Ame := s.Ame; let Ami := s.Ami; let Amo := s.Amo; let Amu := s.Amu
  let Asa := s.Asa; let Ase := s.Ase; let Asi := s.Asi; let Aso := s.Aso; let Asu := s.Asu
  let Ca := Aba ^^^ Ama ^^^ Aga ^^^ Asa ^^^ Aka
  let Ce := Ake ^^^ Abe ^^^ Ame ^^^ Age ^^^ Ase
  let Ci := Asi ^^^ Aki ^^^ Abi ^^^ Ami ^^^ Agi
  let Co := Ago ^^^ Aso ^^^ Ako ^^^ Abo ^^^ Amo
  let Cu := Amu ^^^ Agu ^^^ Asu ^^^ Aku ^^^ Abu
  let Da := Cu ^^^ ROL64 Ce 1
  let De := Ca ^^^ ROL64 Ci 1
  let Di := Ce ^^^ ROL64 Co 1
  let Do := Ci ^^^ ROL64 Cu 1
  let Du := Co ^^^ ROL64 Ca 1
  let Ba := Aba ^^^ Da
  let Be := ROL64 (Abe ^^^ De) 44
  let Bi := ROL64 (Abi ^^^ Di) 43
  let Bo := ROL64 (Abo ^^^ Do) 21
  let Bu := ROL64 (Abu ^^^ Du) 14
  let Aba := Ba ^^^ ((~~~Be) &&& Bi)
  let Aba := Aba ^^^ rc
  let Abe := Be ^^^ ((~~~Bi) &&& Bo)
  let Abi := Bi ^^^ ((~~~Bo) &&& Bu)
  let Abo := Bo ^^^ ((~~~Bu) &&& Ba)
  let Abu := Bu ^^^ ((~~~Ba) &&& Be)
  let Bi := ROL64 (Aga ^^^ Da) 3
  let Bo := ROL64 (Age ^^^ De) 45
  let Bu := ROL64 (Agi ^^^ Di) 61
  let Ba := ROL64 (Ago ^^^ Do) 28
  let Be := ROL64 (Agu ^^^ Du) 20
  let Aga := Ba ^^^ ((~~~Be) &&& Bi)
  let Age := Be ^^^ ((~~~Bi) &&& Bo)
  let Agi := Bi ^^^ ((~~~Bo) &&& Bu)
  let Ago := Bo ^^^ ((~~~Bu) &&& Ba)
  let Agu := Bu ^^^ ((~~~Ba) &&& Be)
  let Bu := ROL64 (Aka ^^^ Da) 18
  let Ba := ROL64 (Ake ^^^ De) 1
  let Be := ROL64 (Aki ^^^ Di) 6
  let Bi := ROL64 (Ako ^^^ Do) 25
  let Bo := ROL64 (Aku ^^^ Du) 8
  let Aka := Ba ^^^ ((~~~Be) &&& Bi)
  let Ake := Be ^^^ ((~~~Bi) &&& Bo)
  let Aki := Bi ^^^ ((~~~Bo) &&& Bu)
  let Ako := Bo ^^^ ((~~~Bu) &&& Ba)
  let Aku := Bu ^^^ ((~~~Ba) &&& Be)
  let Be := ROL64 (Ama ^^^ Da) 36
  let Bi := ROL64 (Ame ^^^ De) 10
  let Bo := ROL64 (Ami ^^^ Di) 15
  let Bu := ROL64 (Amo ^^^ Do) 56
  let Ba := ROL64 (Amu ^^^ Du) 27
  let Ama := Ba ^^^ ((~~~Be) &&& Bi)
  let Ame := Be ^^^ ((~~~Bi) &&& Bo)
  let Ami := Bi ^^^ ((~~~Bo) &&& Bu)
  let Amo := Bo ^^^ ((~~~Bu) &&& Ba)
  let Amu := Bu ^^^ ((~~~Ba) &&& Be)
  let Bo := ROL64 (Asa ^^^ Da) 41
  let Bu := ROL64 (Ase ^^^ De) 2
  let Ba := ROL64 (Asi ^^^ Di) 62
  let Be := ROL64 (Aso ^^^ Do) 55
  let Bi := ROL64 (Asu ^^^ Du) 39
  let Asa := Ba ^^^ ((~~~Be) &&& Bi)
  let Ase := Be ^^^ ((~~~Bi) &&& Bo)
  let Asi := Bi ^^^ ((~~~Bo) &&& Bu)
  let Aso := Bo ^^^ ((~~~Bu) &&& Ba)
  let Asu := Bu ^^^ ((~~~Ba) &&& Be)
  ⟨Aba, Abe, Abi, Abo, Abu, Aga, Age, Agi, Ago, Agu,
    Aka, Ake, Aki, Ako, Aku, Ama, Ame, Ami, Amo, Amu,
    Asa, Ase, Asi, Aso, Asu⟩

/-- third_party/sha3.c:72-342, the loop body of `KeccakF2`. -/
def fourRounds (s : KState) (i : ℕ) : KState :=
  let s := round1 (RoundConstants.getD (i + 0) 0) s
  let s := round2 (RoundConstants.getD (i + 1) 0) s
  let s := round3 (RoundConstants.getD (i + 2) 0) s
  round4 (RoundConstants.getD (i + 3) 0) s

/-- third_party/sha3.c:40-369 `KeccakF2`. -/
def KeccakF2 (s : KState) : KState := [0, 4, 8, 12, 16, 20].foldl fourRounds s

/-- The 25 words of a buffer of 200 bytes, `(uint64_t *) s`. -/
def ofBytes (s : List Byte) : KState :=
  let w := loadWord s
  ⟨w 0, w 1, w 2, w 3, w 4, w 5, w 6, w 7, w 8, w 9, w 10, w 11, w 12, w 13, w 14, w 15, w 16, w 17, w 18, w 19, w 20, w 21, w 22, w 23, w 24⟩

/-- The 200 bytes of the state in memory. -/
def KState.toBytes (s : KState) : List Byte :=
  [s.Aba, s.Abe, s.Abi, s.Abo, s.Abu, s.Aga, s.Age, s.Agi, s.Ago, s.Agu, s.Aka, s.Ake, s.Aki, s.Ako, s.Aku, s.Ama, s.Ame, s.Ami, s.Amo, s.Amu, s.Asa, s.Ase, s.Asi, s.Aso, s.Asu].flatMap wordBytes

/-- `KeccakF2((uint64_t *) state->s)`. -/
def permute (s : List Byte) : List Byte := (KeccakF2 (ofBytes s)).toBytes

/-- third_party/sha3.h:16-21 `hashState`. -/
structure HashState where
  s : List Byte
  hashbitlen : ℕ
  statebitlen : ℕ
  r : ℕ

/-- third_party/sha3.c:374-386 `Init`. -/
def init (hashbitlen : ℕ) : HashState :=
  { s := List.replicate 200 0#8, statebitlen := 0, r := 1600 - hashbitlen * 2,
    hashbitlen := hashbitlen }

/-- `for (...) s[i++] ^= data[j++]`: third_party/sha3.c:398-400 and 413-415. -/
def xorAt (s : List Byte) (i : ℕ) : List Byte → List Byte
  | [] => s
  | b :: bs => xorAt (s.set i (s.getD i 0 ^^^ b)) (i + 1) bs

/-- third_party/sha3.c:397-407 (in `Update`): the loop, with the bytes that remain.  Every
iteration consumes at least one byte when `statebitlen < r`; `fuel` bounds their number. -/
def updateLoop : ℕ → HashState → List Byte → HashState × List Byte
  | 0, st, tmp => (st, tmp)
  | fuel + 1, st, tmp =>
    if st.statebitlen + 8 * tmp.length ≥ st.r then
      let s := xorAt st.s (st.statebitlen / 8) (tmp.take (st.r / 8 - st.statebitlen / 8))
      let s := permute s
      updateLoop fuel { st with s := s, statebitlen := 0 }
        (tmp.drop ((st.r - st.statebitlen) / 8))
    else (st, tmp)

/-- third_party/sha3.c:391-421 `Update`. -/
def update (st : HashState) (data : List Byte) : HashState :=
  let (st, tmp) := updateLoop (data.length + 1) st data
  let start := st.statebitlen / 8
  { st with s := xorAt st.s start tmp, statebitlen := 8 * tmp.length + st.statebitlen }

/-- third_party/sha3.c:429-430, 447-448: `s[i] ^= b`. -/
def xorByte (s : List Byte) (i : ℕ) (b : Byte) : List Byte := s.set i (s.getD i 0 ^^^ b)

/-- third_party/sha3.c:426-437 `Final`: the bytes written to `hashval`. -/
def final (st : HashState) : List Byte :=
  let sbytelen := st.statebitlen / 8
  let s := xorByte st.s sbytelen 0x06#8
  let s := xorByte s (st.r / 8 - 1) 0x80#8
  let s := permute s
  s.take (st.r / 8)

/-- third_party/sha3.c:453-462 (in `Final2`), also 526-535 and 575-584: the loop that copies the
output, and the last copy.  Every iteration decreases `d_byte`; `fuel` bounds their number. -/
def squeezeLoop : ℕ → List Byte → ℕ → ℕ → List Byte
  | 0, s, _, d_byte => s.take d_byte
  | fuel + 1, s, r, d_byte =>
    if d_byte > r then s.take r ++ squeezeLoop fuel (permute s) r (d_byte - r)
    else s.take d_byte

/-- third_party/sha3.c:442-465 `Final2`: the bytes written to `hashval`. -/
def final2 (st : HashState) (d_byte : ℕ) : List Byte :=
  let sbytelen := st.statebitlen / 8
  let r := st.r / 8
  let s := xorByte st.s sbytelen 0x1f#8
  let s := xorByte s (r - 1) 0x80#8
  let s := permute s
  squeezeLoop d_byte s r d_byte

/-- third_party/sha3.c:467-476 `Hash2`. -/
def Hash2 (hashbitlen : ℕ) (data : List Byte) (d : ℕ) : List Byte :=
  final2 (update (init hashbitlen) data) d

/-- third_party/sha3.c:481-490 `Hash`. -/
def Hash (hashbitlen : ℕ) (data : List Byte) : List Byte := final (update (init hashbitlen) data)

/-- third_party/sha3.c:508-510, 520-522, 557-559, 569-571: `s[j] ^= ((uint64_t *) tmp)[j]` for
`j < nr`, where the words of `s` are kept as bytes: the first `8 * nr` bytes are changed.
Simplification: XOR of words is XOR of their bytes. -/
def xorWords (s tmp : List Byte) (nr : ℕ) : List Byte := xorAt s 0 (tmp.take (8 * nr))

/-- third_party/sha3.c:507-512 and 556-561: the loop over whole blocks, with the bytes that remain.
`fuel` bounds the number of iterations. -/
def shakeLoop : ℕ → List Byte → List Byte → ℕ → List Byte × List Byte
  | 0, s, tmp, _ => (s, tmp)
  | fuel + 1, s, tmp, r =>
    if tmp.length ≥ r then shakeLoop fuel (permute (xorWords s tmp (r / 8))) (tmp.drop r) r
    else (s, tmp)

/-- third_party/sha3.c:515-518 and 564-567: the first `r` bytes of `temp`. -/
def padTemp (tmp : List Byte) (r : ℕ) : List Byte :=
  let temp := tmp ++ [0x1f#8] ++ List.replicate (r - (tmp.length + 1)) 0#8
  temp.set (r - 1) (temp.getD (r - 1) 0 ||| 0x80#8)

/-- third_party/sha3.c:493-539 `SHAKE128` (`r = 168`) and 541-588 `SHAKE256` (`r = 136`). -/
def shakeCode (r : ℕ) (data : List Byte) (d_byte : ℕ) : List Byte :=
  let nr := r / 8
  let s := List.replicate 200 0#8
  let (s, tmp) := shakeLoop (data.length + 1) s data r
  let s := permute (xorWords s (padTemp tmp r) nr)
  squeezeLoop d_byte s r d_byte

def SHAKE128 (data : List Byte) (d_byte : ℕ) : List Byte := shakeCode 168 data d_byte
def SHAKE256 (data : List Byte) (d_byte : ℕ) : List Byte := shakeCode 136 data d_byte

end Verif.Keccak
