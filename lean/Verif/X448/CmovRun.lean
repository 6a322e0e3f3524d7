import Verif.X448.Swap
import Verif.X448.Run -- only to keep two large evaluations from running at once

/-! A run of the X448 ladder with the conditional swap `CMOV`, evaluated by the kernel word by
word of the key. -/

namespace Verif.X448.CmovRun

open Verif.Fp448

/-- The peer's public value, the generator. -/
def wu : List Byte := leBytes 56 5

/-- The secret key, 56 zero bytes. -/
def wk : List Byte := leBytes 56 0

/-- Limbs of the coordinate. -/
def wX : Elt8 V :=
  ⟨⟨5, 0, 5, 0⟩, ⟨0, 0, 0, 0⟩, ⟨0, 0, 0, 0⟩, ⟨0, 0, 0, 0⟩, ⟨0, 0, 0, 0⟩, ⟨0, 0, 0, 0⟩, ⟨0, 0, 0,
  0⟩, ⟨0, 0, 0, 0⟩⟩

/-- Words of the clamped key. -/
def wK : F7 := ⟨0, 0, 0, 0, 0, 0, 9223372036854775808⟩

/-- Initial state. -/
def wS7 : St :=
  ⟨⟨⟨5, 0, 5, 0⟩, ⟨0, 0, 0, 0⟩, ⟨0, 0, 0, 0⟩, ⟨0, 0, 0, 0⟩, ⟨0, 0, 0, 0⟩, ⟨0, 0, 0, 0⟩, ⟨0, 0, 0,
  0⟩, ⟨0, 0, 0, 0⟩⟩, ⟨⟨0, 0, 1, 0⟩, ⟨0, 0, 0, 0⟩, ⟨0, 0, 0, 0⟩, ⟨0, 0, 0, 0⟩, ⟨0, 0, 0, 0⟩, ⟨0, 0,
  0, 0⟩, ⟨0, 0, 0, 0⟩, ⟨0, 0, 0, 0⟩⟩, 0⟩

/-- State after word 6 of the key. -/
def wS6 : St :=
  ⟨⟨⟨253886776, 115730734, 81375925, 232091888⟩, ⟨108338108, 78795401, 39764811, 85959732⟩,
  ⟨117938274, 127035139, 101448825, 40488778⟩, ⟨250788094, 233951777, 141077753, 62304238⟩,
  ⟨48680222, 180948542, 119929749, 174234511⟩, ⟨224374596, 56876709, 36890278, 183037730⟩,
  ⟨164361104, 39380044, 199642824, 101183068⟩, ⟨194452692, 152672561, 79749683, 192532686⟩⟩,
  ⟨⟨94954593, 6589795, 141131758, 1208115⟩, ⟨229933079, 136164519, 47816696, 216966216⟩,
  ⟨242731843, 95340663, 197635932, 55232952⟩, ⟨84803334, 259226856, 27768765, 195549398⟩,
  ⟨261843058, 84046535, 43206615, 44027188⟩, ⟨145455166, 23671898, 75864221, 85682265⟩, ⟨11289226,
  44694738, 32062381, 11676235⟩, ⟨21164896, 44536944, 81156051, 150110002⟩⟩, 0⟩

/-- State after word 5 of the key. -/
def wS5 : St :=
  ⟨⟨⟨56056138, 246974293, 94292232, 114693551⟩, ⟨267860237, 137630600, 37918106, 25429759⟩,
  ⟨64518526, 247023747, 22766182, 91962396⟩, ⟨230686846, 66276918, 128101904, 137217714⟩,
  ⟨170277154, 195573304, 243467091, 149600025⟩, ⟨221069133, 90062903, 36154186, 81267503⟩,
  ⟨146817241, 186805504, 198995946, 143163338⟩, ⟨240664647, 133618400, 30435591, 69128288⟩⟩,
  ⟨⟨206620929, 237758092, 208656524, 21740701⟩, ⟨238685962, 133037355, 108662603, 103359216⟩,
  ⟨104871534, 119311353, 199736116, 238444146⟩, ⟨98556893, 107692054, 261680442, 252582962⟩,
  ⟨140079296, 155573983, 265410517, 218332808⟩, ⟨28949388, 75968056, 260171326, 92284537⟩,
  ⟨222046713, 222641141, 67781254, 122111292⟩, ⟨200310601, 113740361, 110288337, 174917588⟩⟩, 0⟩

/-- State after word 4 of the key. -/
def wS4 : St :=
  ⟨⟨⟨26394235, 233869282, 107264851, 175789077⟩, ⟨237826297, 136788017, 114741794, 96842352⟩,
  ⟨220442853, 168304686, 139687788, 64337656⟩, ⟨218474529, 97701495, 202753135, 141716878⟩,
  ⟨121275481, 266594216, 218100727, 135730630⟩, ⟨46811599, 166097482, 225567622, 184275533⟩,
  ⟨166434916, 114819762, 231207699, 20756674⟩, ⟨95423051, 164110295, 123124393, 11138944⟩⟩,
  ⟨⟨56379709, 37532398, 90904463, 202864587⟩, ⟨66350615, 247553751, 92927635, 252985025⟩,
  ⟨67386272, 255748849, 19636890, 9008104⟩, ⟨49275131, 151686305, 186380353, 204821624⟩,
  ⟨107857254, 166601890, 25650723, 201294599⟩, ⟨17023080, 211096317, 145580244, 11516485⟩,
  ⟨29902185, 224866391, 199885711, 35022783⟩, ⟨84100671, 16601010, 228097556, 96671529⟩⟩, 0⟩

/-- State after word 3 of the key. -/
def wS3 : St :=
  ⟨⟨⟨108210215, 12435937, 80662969, 218449097⟩, ⟨76629459, 156962585, 260627280, 216191433⟩,
  ⟨151615124, 180927006, 212747892, 233825965⟩, ⟨163665239, 177656118, 96846006, 28998108⟩,
  ⟨158039602, 207455743, 186689791, 45971397⟩, ⟨97936674, 91076185, 151014556, 114992458⟩,
  ⟨228583952, 88697329, 153647777, 67290576⟩, ⟨82935508, 144650131, 13673315, 114955488⟩⟩,
  ⟨⟨77822104, 75282841, 89999815, 39562863⟩, ⟨126491379, 198467689, 15742575, 192363010⟩,
  ⟨187335094, 149837617, 216862850, 259478438⟩, ⟨98798930, 211584626, 203116577, 46267373⟩,
  ⟨131215050, 232249287, 184863843, 57817554⟩, ⟨162423446, 118513357, 58898673, 78727026⟩,
  ⟨162092114, 151042450, 99415542, 62191740⟩, ⟨244726876, 15342881, 177239167, 117311574⟩⟩, 0⟩

/-- State after word 2 of the key. -/
def wS2 : St :=
  ⟨⟨⟨51376710, 155974880, 241008540, 258281663⟩, ⟨132026600, 230010252, 230736302, 31990452⟩,
  ⟨27557822, 33944776, 219300735, 179947501⟩, ⟨231501993, 222662927, 204110237, 71786480⟩,
  ⟨218956650, 127393446, 220509402, 45330478⟩, ⟨264301372, 174652490, 181273289, 265738127⟩,
  ⟨113641060, 211456624, 265098044, 201986116⟩, ⟨225605731, 137812240, 27531098, 77082837⟩⟩,
  ⟨⟨264376743, 161508201, 157795319, 242479790⟩, ⟨159846130, 219551421, 106472708, 104332016⟩,
  ⟨29428551, 2542168, 103732868, 168855529⟩, ⟨64862033, 71956269, 83598328, 80037128⟩, ⟨121753997,
  100431796, 165535666, 93126256⟩, ⟨29929764, 1365547, 109812069, 32469902⟩, ⟨115498423,
  257494115, 100370427, 99723197⟩, ⟨50427778, 94932219, 162665382, 56651359⟩⟩, 0⟩

/-- State after word 1 of the key. -/
def wS1 : St :=
  ⟨⟨⟨125189075, 60971810, 2866605, 208461166⟩, ⟨168411252, 92541145, 230992708, 88485566⟩,
  ⟨219891925, 81841815, 252224891, 33937094⟩, ⟨39086581, 159729155, 95573108, 117867336⟩,
  ⟨96176322, 47817440, 88625046, 64710517⟩, ⟨150632619, 110164483, 19191596, 52283448⟩,
  ⟨171594038, 172815201, 118322149, 214813179⟩, ⟨31878008, 217919912, 102583888, 129680051⟩⟩,
  ⟨⟨245380848, 75274639, 109738264, 78570325⟩, ⟨198203056, 211886204, 94822342, 200172296⟩,
  ⟨203532377, 255254465, 156379139, 121071525⟩, ⟨162963778, 239782978, 48054899, 266846505⟩,
  ⟨142329381, 187577705, 30652326, 183235453⟩, ⟨190722715, 210306333, 246965671, 94672644⟩,
  ⟨51406689, 230675313, 102102040, 104506777⟩, ⟨227940633, 267331175, 141584410, 45921720⟩⟩, 0⟩

/-- State after word 0 of the key. -/
def wS0 : St :=
  ⟨⟨⟨120057715, 206552302, 34997074, 111015608⟩, ⟨54380082, 88216787, 75422967, 73551207⟩,
  ⟨126718969, 98404444, 128885630, 105929595⟩, ⟨60224218, 69754512, 62227086, 69032410⟩,
  ⟨83151300, 220037836, 228360712, 213197126⟩, ⟨253724035, 80172044, 117511868, 155670474⟩,
  ⟨138543117, 176129280, 3508609, 233817914⟩, ⟨65792645, 119261923, 233507641, 33844489⟩⟩,
  ⟨⟨7460377, 243006855, 7330069, 107777843⟩, ⟨208423977, 200804471, 219544105, 90151358⟩,
  ⟨236477059, 35747244, 134001263, 79497073⟩, ⟨197289966, 181511100, 104098185, 24190613⟩,
  ⟨182871078, 26556587, 220977128, 200284333⟩, ⟨5768720, 217736137, 253876232, 15272607⟩,
  ⟨237852687, 79285903, 214157540, 175887500⟩, ⟨106403107, 230336063, 38167256, 33822758⟩⟩, 0⟩

theorem w_step6 : innerBy .cmov wX wK 6 64 wS7 = wS6 := by decide +kernel
theorem w_step5 : innerBy .cmov wX wK 5 64 wS6 = wS5 := by decide +kernel
theorem w_step4 : innerBy .cmov wX wK 4 64 wS5 = wS4 := by decide +kernel
theorem w_step3 : innerBy .cmov wX wK 3 64 wS4 = wS3 := by decide +kernel
theorem w_step2 : innerBy .cmov wX wK 2 64 wS3 = wS2 := by decide +kernel
theorem w_step1 : innerBy .cmov wX wK 1 64 wS2 = wS1 := by decide +kernel
theorem w_step0 : innerBy .cmov wX wK 0 64 wS1 = wS0 := by decide +kernel

theorem w_init : R2.inter (R1.unser wu) (R1.unser wu) = wX := by decide +kernel
theorem w_key : F7.ofBytes (clamp wk) = wK := by decide +kernel

theorem w_elt : sharedEltBy .cmov wu wk = affine wS0 := by
  have e : sharedEltBy .cmov wu wk = affine (mainLoopBy .cmov (R2.inter (R1.unser wu) (R1.unser wu))
    (F7.ofBytes (clamp wk)) ⟨R2.inter (R1.unser wu) (R1.unser wu),
      ⟨SET64 0 1 0 0, LIT 0, LIT 0, LIT 0, LIT 0, LIT 0, LIT 0, LIT 0⟩, 0#64⟩) := by
    unfold sharedEltBy; rfl
  have i : (⟨wX, ⟨SET64 0 1 0 0, LIT 0, LIT 0, LIT 0, LIT 0, LIT 0, LIT 0, LIT 0⟩, 0#64⟩ : St) =
    wS7 := by decide +kernel
  rw [e, w_init, w_key, i]
  unfold mainLoopBy
  simp only []
  rw [w_step6, w_step5, w_step4, w_step3, w_step2, w_step1, w_step0]

end Verif.X448.CmovRun
