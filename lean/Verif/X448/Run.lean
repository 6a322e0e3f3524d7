import Verif.X448.Lemmas
import Verif.Ed25519.WitnessSign -- only to keep two large evaluations from running at once

/-! A run of the X448 model, evaluated by the kernel word by word of the key. -/

namespace Verif.X448

open Verif.Fp448

set_option exponentiation.threshold 2000

/-- The peer's public value of the counterexample. -/
def wu : List Byte := leBytes 56
  16287759385251261347438341052398341610351258987650992091908024085767163071084539831986846647619938508482238705597908385806457338264269

/-- The secret key of the counterexample, 56 zero bytes. -/
def wk : List Byte := leBytes 56 0

/-- Limbs of the coordinate. -/
def wX : Elt8 V :=
  ⟨⟨209910477, 47918918, 209910477, 47918918⟩, ⟨86043139, 32106136, 86043139, 32106136⟩,
  ⟨36734468, 241595222, 36734468, 241595222⟩, ⟨264879950, 74423155, 264879950, 74423155⟩,
  ⟨183711823, 192620666, 183711823, 192620666⟩, ⟨239796978, 137672927, 239796978, 137672927⟩,
  ⟨86839823, 98093443, 86839823, 98093443⟩, ⟨132692118, 6015381, 132692118, 6015381⟩⟩

/-- Words of the clamped key. -/
def wK : F7 := ⟨0, 0, 0, 0, 0, 0, 9223372036854775808⟩

/-- Initial state. -/
def wSi : St :=
  ⟨⟨⟨209910477, 47918918, 209910477, 47918918⟩, ⟨86043139, 32106136, 86043139, 32106136⟩,
  ⟨36734468, 241595222, 36734468, 241595222⟩, ⟨264879950, 74423155, 264879950, 74423155⟩,
  ⟨183711823, 192620666, 183711823, 192620666⟩, ⟨239796978, 137672927, 239796978, 137672927⟩,
  ⟨86839823, 98093443, 86839823, 98093443⟩, ⟨132692118, 6015381, 132692118, 6015381⟩⟩, ⟨⟨0, 0,
  1, 0⟩, ⟨0, 0, 0, 0⟩, ⟨0, 0, 0, 0⟩, ⟨0, 0, 0, 0⟩, ⟨0, 0, 0, 0⟩, ⟨0, 0, 0, 0⟩, ⟨0, 0, 0, 0⟩, ⟨0,
  0, 0, 0⟩⟩, 0⟩

/-- State after word 6 of the key. -/
def wS6 : St :=
  ⟨⟨⟨86150147, 261616697, 82912588, 126439441⟩, ⟨127681272, 189435628, 112256651, 131246158⟩,
  ⟨109430848, 66441407, 231619347, 139139066⟩, ⟨47739704, 135469507, 145573428, 229987423⟩,
  ⟨26683022, 174880967, 268427889, 85036507⟩, ⟨164945594, 126972790, 50856970, 24448230⟩,
  ⟨226813427, 59215050, 13967707, 11501902⟩, ⟨191038259, 15266931, 41096639, 193138801⟩⟩,
  ⟨⟨132848120, 258092794, 51985769, 4444568⟩, ⟨105270808, 169689880, 162015580, 75809182⟩,
  ⟨220750567, 120022256, 134566819, 236475413⟩, ⟨59494378, 245058169, 84679717, 200680309⟩,
  ⟨52205888, 119802364, 250467567, 242209511⟩, ⟨94973842, 147456020, 82788598, 196023550⟩,
  ⟨135025949, 201682683, 247801620, 98616281⟩, ⟨65226114, 246901748, 151265660, 87518256⟩⟩, 0⟩

/-- State after word 5 of the key. -/
def wS5 : St :=
  ⟨⟨⟨54216949, 254474947, 200619388, 49787244⟩, ⟨20368619, 78244685, 239501665, 243451199⟩,
  ⟨228329426, 38483248, 245659921, 20582827⟩, ⟨77393154, 115221084, 112256658, 157749384⟩,
  ⟨187287053, 224207045, 23870432, 76556311⟩, ⟨168641122, 268292525, 20103136, 256393173⟩,
  ⟨236734060, 148030738, 236278617, 247775101⟩, ⟨94688917, 114659468, 110793907, 22619408⟩⟩,
  ⟨⟨106122722, 243798367, 35227648, 122881637⟩, ⟨216200400, 214490430, 167460570, 121269259⟩,
  ⟨114712433, 256289823, 68936168, 149852226⟩, ⟨29655381, 55271982, 44187559, 60318538⟩,
  ⟨106436663, 218026607, 233458587, 157407936⟩, ⟨22639257, 70894431, 159091328, 84643729⟩,
  ⟨248144803, 90991140, 110553741, 158853185⟩, ⟨173580416, 109093374, 260447080, 189484874⟩⟩, 0⟩

/-- State after word 4 of the key. -/
def wS4 : St :=
  ⟨⟨⟨260187716, 48982260, 105187335, 210622412⟩, ⟨263992329, 108528155, 183915650, 78992691⟩,
  ⟨116180125, 136111609, 75831964, 240150170⟩, ⟨51388698, 128760086, 119427238, 117055070⟩,
  ⟨239384015, 144541534, 193835908, 76754497⟩, ⟨148367261, 163412639, 511283, 140438428⟩,
  ⟨14199921, 46384809, 257371202, 268217921⟩, ⟨181912868, 189209242, 221715152, 192206648⟩⟩,
  ⟨⟨200667165, 114735225, 73520085, 170349187⟩, ⟨37639344, 233243738, 89855226, 111393700⟩,
  ⟨189645740, 245723633, 133647701, 104806637⟩, ⟨182009272, 29010710, 60618872, 187637877⟩,
  ⟨197364313, 38404065, 38743749, 105493155⟩, ⟨61638130, 26266368, 61079066, 219771983⟩,
  ⟨54309530, 124088169, 152968384, 243444822⟩, ⟨77744134, 156382171, 107204319, 207818493⟩⟩, 0⟩

/-- State after word 3 of the key. -/
def wS3 : St :=
  ⟨⟨⟨189203707, 33023786, 14426385, 199353514⟩, ⟨40970017, 106327316, 100337346, 83524268⟩,
  ⟨51836757, 47713961, 229267100, 83732125⟩, ⟨226351406, 169579529, 253138617, 223565866⟩,
  ⟨226100503, 81827401, 62666888, 29908428⟩, ⟨226696514, 155341136, 261975281, 117150091⟩,
  ⟨36444137, 267630400, 262444470, 4206445⟩, ⟨143431180, 54883863, 265676458, 255898514⟩⟩,
  ⟨⟨265634344, 43105486, 187935856, 82203382⟩, ⟨223655802, 130106514, 202345930, 129030939⟩,
  ⟨242208035, 115910435, 141172981, 144462371⟩, ⟨7366842, 236409557, 84589745, 233660061⟩,
  ⟨147859153, 42713099, 172899746, 202630252⟩, ⟨185943236, 216885614, 193662212, 261227874⟩,
  ⟨157825751, 88395767, 10735728, 2671510⟩, ⟨161689729, 124972923, 216726235, 104529631⟩⟩, 0⟩

/-- State after word 2 of the key. -/
def wS2 : St :=
  ⟨⟨⟨143061625, 32304277, 212396491, 213054556⟩, ⟨192737980, 76798853, 245301650, 112180334⟩,
  ⟨217702848, 156081805, 223545870, 244667752⟩, ⟨179091245, 165651527, 131394573, 188616756⟩,
  ⟨109016941, 122276745, 90017715, 78553992⟩, ⟨130292138, 206061781, 54372748, 44045214⟩,
  ⟨232792276, 188441616, 73749735, 257373121⟩, ⟨240841525, 54720074, 107451284, 164721621⟩⟩,
  ⟨⟨50483008, 53597922, 133610118, 237618668⟩, ⟨223526586, 49449028, 245468524, 83447368⟩,
  ⟨21399521, 115064916, 206830617, 48455806⟩, ⟨148902137, 90427379, 64827857, 154200489⟩,
  ⟨75251951, 152362736, 38538796, 149220358⟩, ⟨14088188, 226875022, 53736566, 60296869⟩,
  ⟨88796119, 222034574, 96081294, 241248619⟩, ⟨19643779, 220319584, 60609018, 198458918⟩⟩, 0⟩

/-- State after word 1 of the key. -/
def wS1 : St :=
  ⟨⟨⟨75521299, 169751071, 142089882, 81677042⟩, ⟨95173049, 54066066, 105780495, 108042421⟩,
  ⟨104235663, 125974040, 22353259, 119296230⟩, ⟨191683952, 224836425, 254406915, 87009582⟩,
  ⟨193731005, 197445227, 161989449, 204119833⟩, ⟨50115121, 203812790, 181638060, 15533963⟩,
  ⟨2626356, 221500903, 15381796, 38912405⟩, ⟨127623280, 63452178, 80925365, 27135808⟩⟩,
  ⟨⟨157665092, 95213697, 115373202, 35937802⟩, ⟨188158835, 67878742, 171427601, 86876718⟩,
  ⟨189752667, 203092179, 102203482, 215758303⟩, ⟨233296389, 140349791, 66713057, 1356082⟩,
  ⟨49368088, 155524016, 245840544, 222419110⟩, ⟨57723364, 256707474, 55137197, 32867119⟩,
  ⟨173510791, 34255735, 124365668, 179174861⟩, ⟨226610300, 130074232, 989697, 31708728⟩⟩, 0⟩

/-- State after word 0 of the key. -/
def wS0 : St :=
  ⟨⟨⟨58141824, 249745265, 75009792, 16829384⟩, ⟨207489817, 126810378, 45465835, 224275175⟩,
  ⟨110505550, 145712433, 105329402, 13315774⟩, ⟨122563873, 154941707, 135170607, 118609530⟩,
  ⟨123435961, 157709717, 142560183, 205968800⟩, ⟨78764235, 33662064, 195798108, 156049385⟩,
  ⟨91578404, 13189374, 22354506, 162131732⟩, ⟨139268312, 18734401, 16846779, 193721121⟩⟩,
  ⟨⟨194600582, 19928843, 38456775, 13053435⟩, ⟨124820913, 250453142, 203359552, 231857226⟩,
  ⟨95443134, 245093393, 184031202, 54599450⟩, ⟨41391048, 56114611, 76926389, 207605634⟩,
  ⟨55038770, 58810017, 226184264, 77765921⟩, ⟨240316427, 110037048, 91529917, 104923650⟩,
  ⟨149174501, 248583934, 23106895, 49591864⟩, ⟨106713010, 44991185, 191865378, 37377160⟩⟩, 0⟩

theorem w_step6 : inner wX wK 6 64 wSi = wS6 := by decide +kernel
theorem w_step5 : inner wX wK 5 64 wS6 = wS5 := by decide +kernel
theorem w_step4 : inner wX wK 4 64 wS5 = wS4 := by decide +kernel
theorem w_step3 : inner wX wK 3 64 wS4 = wS3 := by decide +kernel
theorem w_step2 : inner wX wK 2 64 wS3 = wS2 := by decide +kernel
theorem w_step1 : inner wX wK 1 64 wS2 = wS1 := by decide +kernel
theorem w_step0 : inner wX wK 0 64 wS1 = wS0 := by decide +kernel

/-- The element that is serialised. -/
def wE : Elt8 U :=
  ⟨⟨268435455, 1⟩, ⟨268435455, 268435456⟩, ⟨255, 268435455⟩, ⟨0, 268435455⟩, ⟨0, 268435455⟩, ⟨0,
  268435455⟩, ⟨0, 268435455⟩, ⟨0, 268435455⟩⟩

theorem w_affine : affine wS0 = wE := by decide +kernel
theorem w_init : R2.inter (R1.unser wu) (R1.unser wu) = wX := by decide +kernel
theorem w_key : F7.ofBytes (clamp wk) = wK := by decide +kernel

theorem w_elt : sharedElt wu wk = wE := by
  have e : sharedElt wu wk = affine (mainLoop (R2.inter (R1.unser wu) (R1.unser wu))
    (F7.ofBytes (clamp wk)) ⟨R2.inter (R1.unser wu) (R1.unser wu),
      ⟨SET64 0 1 0 0, LIT 0, LIT 0, LIT 0, LIT 0, LIT 0, LIT 0, LIT 0⟩, 0#64⟩) := by
    unfold sharedElt; rfl
  have i : (⟨wX, ⟨SET64 0 1 0 0, LIT 0, LIT 0, LIT 0, LIT 0, LIT 0, LIT 0, LIT 0⟩, 0#64⟩ : St) =
    wSi := by decide +kernel
  rw [e, w_init, w_key, i]
  unfold mainLoop
  simp only []
  rw [w_step6, w_step5, w_step4, w_step3, w_step2, w_step1, w_step0, w_affine]

end Verif.X448
