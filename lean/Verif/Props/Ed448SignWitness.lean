import Verif.Props.Ed448Sign
import Verif.Props.Ed448Point

/-!
# Ed448 signatures: a case in which all goes right and one in which verification fails

The hash function is replaced by one that answers by the length of its argument; key, nonce and
challenge are then arbitrary numbers.  The two cases share the public key, the challenge and S.
-/

namespace Verif.Ed448

open Verif.Fp448
open Verif.X448 (Safe)
open Verif.Ed25519 (Status)

set_option exponentiation.threshold 2000

/-! ## Multiples of the base point by numbers -/

theorem smulB_eq {n q x y : ℕ} (hq : q < 2 ^ 446) (h4 : 4 * q % order = n % order)
    (hx : 2 * ((nB.mul 446 q).X * (nB.mul 446 q).Y) % P =
      x * ((nB.mul 446 q).X ^ 2 + (nB.mul 446 q).Y ^ 2) % P)
    (hy : NPt.sub ((nB.mul 446 q).Y ^ 2) ((nB.mul 446 q).X ^ 2) % P =
      y * (NPt.sub (2 * (nB.mul 446 q).Z ^ 2) ((nB.mul 446 q).Y ^ 2) + (nB.mul 446 q).X ^ 2) % P) :
    (n • B).x = (x : Fp) ∧ (n • B).y = (y : Fp) := by
  have e : n • B = 4 • q • B := by
    rw [← mul_smul]
    exact modEq_smul (m := n) (n := 4 * q) (by rw [ell_order]; exact h4.symm) order_B
  have hQ := nB_is.mul 446 q hq
  generalize nB.mul 446 q = Q at *
  obtain ⟨n1, n2, ex, ey⟩ := Edw.RepI.dual iso hQ
  rw [e]
  refine ⟨mul_right_cancel₀ n1 (ex.trans ?_), mul_right_cancel₀ n2 (ey.trans ?_)⟩
  · have h := natEq hx
    push_cast at h
    exact h
  · have h := natEq hy
    push_cast [NPt.sub_cast] at h
    exact h

theorem canon_smulB {n q x y : ℕ} (hq : q < 2 ^ 446) (h4 : 4 * q % order = n % order)
    (hx : 2 * ((nB.mul 446 q).X * (nB.mul 446 q).Y) % P =
      x * ((nB.mul 446 q).X ^ 2 + (nB.mul 446 q).Y ^ 2) % P)
    (hy : NPt.sub ((nB.mul 446 q).Y ^ 2) ((nB.mul 446 q).X ^ 2) % P =
      y * (NPt.sub (2 * (nB.mul 446 q).Z ^ 2) ((nB.mul 446 q).Y ^ 2) + (nB.mul 446 q).X ^ 2) % P)
    (lx : x < P) (ly : y < P) : canon (n • B).x = x ∧ canon (n • B).y = y := by
  obtain ⟨h1, h2⟩ := smulB_eq hq h4 hx hy
  rw [h1, h2]
  exact ⟨canon_natCast lx, canon_natCast ly⟩

theorem pt_ne {A C : Pt} {x y : ℕ} (hA : canon A.x = x) (hC : canon C.x = y) (h : x ≠ y) : A ≠ C :=
  fun e => h (by rw [← hA, ← hC, e])

/-! ## The numbers -/

def aGood : ℕ := 453626978176871324141391630393157783220853026853737844708920184797452940805606273635908920329534212874522629527795932702785762523641952
def aWrong : ℕ := 388900080326845021119223391906389118893158801074887072632504867538965911672212481951282972233936184798446721787278160418182332413987832
def qWrong : ℕ := 113406744544217831035347907598289445805213256713434461177230046199363235201401568408977230082383553218630657381948983175696440630910488
def kNum : ℕ := 15193939508351332736471895382749752329106997267756793111847708417030966731611636517093894720207886257476317591228405666376253802746519
def rGood : ℕ := 118428505691478544993011950209114982246800645919656728946511190596641874504237748727809117353133675650853992633741335739752660513839605
def rWrong : ℕ := 60491784282473783154916875064185699727386710334213277013593258785580696348969861098183339379173249953766652038655429432912986962717806
def SNum : ℕ := 6787327831105003448550761210483840774728647129898302264567845042106306804487256867832205776768028384420726590471528357579971588012850
def aGoodX : ℕ := 226067862750055981003199711036369855054128054199674462072882653771939974967731662389139011782150475352627306722715708903564055491579052
def aGoodY : ℕ := 113600909888733787326014183111287008659267960438733537684317316216511097061920820581003201149678522788357687015688067597301568147060966
def rGoodX : ℕ := 25953291120606754794706777730162703102290378258514554894060568017592057455425348389790206324547702443991807913782911094578801046303115
def rGoodY : ℕ := 360830035413017356089956785424354751950385172139722876194483194926818139448133413307979018478803987562449890297652175334339826294671921
def rWrongX : ℕ := 73901428168039395580949871823738845292919724700324988930858227461076841254509633393321095959195555194909916169094546945497652588399791
def rWrongY : ℕ := 197217215114544509354927438539586888798830525901457188036689053395430104624120683306126466616470197138769330924838507558061774656642367

def aWrongX : ℕ := 474717281771909265423313627525936186874740575356044524957051924751772245171973702833154824936496073258603626890748437193842208067048250
def aWrongY : ℕ := 168649388719452832769072332133319900322402585416632637589240575849466507981070755896356672098419428546861706745271588717399664010913040

theorem aGood_pt : canon (aGood • B).x = aGoodX ∧ canon (aGood • B).y = aGoodY :=
  canon_smulB (q := quarter aGood) (by decide +kernel) (by decide +kernel) (by decide +kernel)
    (by decide +kernel) (by decide +kernel) (by decide +kernel)

theorem rGood_pt : canon (rGood • B).x = rGoodX ∧ canon (rGood • B).y = rGoodY :=
  canon_smulB (q := quarter rGood) (by decide +kernel) (by decide +kernel) (by decide +kernel)
    (by decide +kernel) (by decide +kernel) (by decide +kernel)

theorem rWrong_pt : canon (rWrong • B).x = rWrongX ∧ canon (rWrong • B).y = rWrongY :=
  canon_smulB (q := quarter rWrong) (by decide +kernel) (by decide +kernel) (by decide +kernel)
    (by decide +kernel) (by decide +kernel) (by decide +kernel)

theorem aWrong_pt : canon (aWrong • B).x = aWrongX ∧ canon (aWrong • B).y = aWrongY :=
  canon_smulB (q := quarter aWrong) (by decide +kernel) (by decide +kernel) (by decide +kernel)
    (by decide +kernel) (by decide +kernel) (by decide +kernel)

/-- No carry is dropped: decided by running the multiplier. -/
macro "run_mult" : tactic =>
  `(tactic| exact noOverflow_of_exact 16 _ _ _ (by decide) (by decide +kernel) (by decide +kernel))

theorem reduce_small {n : ℕ} (h : NoOverflow (n % 2 ^ 448) ellx4 (toWords 8 (n / 2 ^ 448)))
    (h2 : NoOverflow (fold448 n % 2 ^ 448) ellx4 (toWords 4 (fold448 n / 2 ^ 448)))
    (h3 : NoOverflow (fold448 (fold448 n) % 2 ^ 448) ellx4
      (toWords 1 (fold448 (fold448 n) / 2 ^ 448)))
    (h4 : NoOverflow (fold448 (fold448 (fold448 n)) % 2 ^ 446) ellc
      (toWords 1 (fold448 (fold448 (fold448 n)) / 2 ^ 446))) : ReduceExact n := ⟨h, h2, h3, h4⟩

theorem aGood_div : DivOk aGood :=
  ⟨by run_mult, reduce_small (by run_mult) (by run_mult) (by run_mult) (by run_mult)⟩

theorem rGood_div : DivOk rGood :=
  ⟨by run_mult, reduce_small (by run_mult) (by run_mult) (by run_mult) (by run_mult)⟩

theorem rWrong_div : DivOk rWrong :=
  ⟨by run_mult, reduce_small (by run_mult) (by run_mult) (by run_mult) (by run_mult)⟩

theorem SNum_div : DivOk SNum :=
  ⟨by run_mult, reduce_small (by run_mult) (by run_mult) (by run_mult) (by run_mult)⟩

theorem kNum_div : DivOk kNum :=
  ⟨by run_mult, reduce_small (by run_mult) (by run_mult) (by run_mult) (by run_mult)⟩

theorem aGood_mul : MulOk aGood :=
  ⟨aGood_div, noBorrowRun_of_digits (by decide +kernel), by rw [aGood_pt.1]; decide +kernel,
    by rw [aGood_pt.2]; decide +kernel⟩

theorem rGood_mul : MulOk rGood :=
  ⟨rGood_div, noBorrowRun_of_digits (by decide +kernel), by rw [rGood_pt.1]; decide +kernel,
    by rw [rGood_pt.2]; decide +kernel⟩

theorem rWrong_mul : MulOk rWrong :=
  ⟨rWrong_div, noBorrowRun_of_digits (by decide +kernel), by rw [rWrong_pt.1]; decide +kernel,
    by rw [rWrong_pt.2]; decide +kernel⟩

theorem red_aGood : red rGood = rGood ∧ red rWrong = rWrong ∧ red kNum = kNum ∧
    red (rGood + kNum * aGood) = SNum ∧ red (rWrong + kNum * aWrong) = SNum := by
  decide +kernel

theorem key_encode : encode (aGood • B) = leBytes 57 aGoodY := by
  rw [encode, aGood_pt.1, aGood_pt.2, show aGoodX % 2 = 0 by decide +kernel, mul_zero, add_zero]

theorem key_y : (aGood • B).y = ((aGoodY : ℕ) : Fp) := by
  rw [← aGood_pt.2, canon, ZMod.natCast_val, ZMod.cast_id]

/-- The decoded public key, what it is increased by, and its odd multiples. -/
def keyQ : Elt16 V :=
  ⟨⟨179041117#64, 150109645#64, 236453665#64, 138310522#64⟩,
    ⟨105718616#64, 195873136#64, 41683831#64, 41252010#64⟩,
    ⟨255627332#64, 95178616#64, 160787808#64, 133105352#64⟩,
    ⟨147837360#64, 98207008#64, 97969655#64, 171196105#64⟩,
    ⟨209345716#64, 67832610#64, 231690207#64, 33754771#64⟩,
    ⟨2961579#64, 153776104#64, 31238426#64, 4208022#64⟩,
    ⟨141372583#64, 203090935#64, 196919990#64, 124333614#64⟩,
    ⟨241348214#64, 170197442#64, 103669231#64, 62998168#64⟩,
    ⟨207247246#64, 202338774#64, 176253316#64, 12672671#64⟩,
    ⟨172179679#64, 114024545#64, 183177287#64, 44432654#64⟩,
    ⟨175302179#64, 30433613#64, 226135578#64, 240627526#64⟩,
    ⟨243366505#64, 90529967#64, 140183800#64, 11578552#64⟩,
    ⟨170334716#64, 134757876#64, 44399153#64, 254302476#64⟩,
    ⟨253992032#64, 133114447#64, 101526416#64, 165914055#64⟩,
    ⟨207046419#64, 29188826#64, 42134114#64, 81044767#64⟩,
    ⟨218465007#64, 88573364#64, 177365552#64, 92365938#64⟩⟩

def keyD : Elt16 V :=
  ⟨⟨33847838#64, 129961007#64, 170519807#64, 234993698#64⟩,
    ⟨146059213#64, 176134069#64, 238137092#64, 52768483#64⟩,
    ⟨228263404#64, 6926097#64, 228802404#64, 163772182#64⟩,
    ⟨131229681#64, 22297264#64, 69755923#64, 47382176#64⟩,
    ⟨127064998#64, 38742290#64, 241075250#64, 10946064#64⟩,
    ⟨101761519#64, 49824269#64, 21516093#64, 67122567#64⟩,
    ⟨5930942#64, 57392422#64, 115765102#64, 66523997#64⟩,
    ⟨183543636#64, 5063467#64, 150041837#64, 156132073#64⟩,
    ⟨37381790#64, 91830652#64, 228541632#64, 11529295#64⟩,
    ⟨249271817#64, 211369087#64, 78867175#64, 25482156#64⟩,
    ⟨67128694#64, 120803174#64, 91682043#64, 128677885#64⟩,
    ⟨139891165#64, 49380041#64, 142198137#64, 238258413#64⟩,
    ⟨52866444#64, 201446095#64, 131831840#64, 138591627#64⟩,
    ⟨111852460#64, 213283439#64, 35277813#64, 146435545#64⟩,
    ⟨177510767#64, 177518788#64, 149327446#64, 199739688#64⟩,
    ⟨187293765#64, 136184449#64, 231971358#64, 140875383#64⟩⟩

def keyI0 : Elt16 V :=
  ⟨⟨179041117#64, 150109645#64, 236453665#64, 138310522#64⟩,
    ⟨105718616#64, 195873136#64, 41683831#64, 41252010#64⟩,
    ⟨255627332#64, 95178616#64, 160787808#64, 133105352#64⟩,
    ⟨147837360#64, 98207008#64, 97969655#64, 171196105#64⟩,
    ⟨209345716#64, 67832610#64, 231690207#64, 33754771#64⟩,
    ⟨2961579#64, 153776104#64, 31238426#64, 4208022#64⟩,
    ⟨141372583#64, 203090935#64, 196919990#64, 124333614#64⟩,
    ⟨241348214#64, 170197442#64, 103669231#64, 62998168#64⟩,
    ⟨207247246#64, 202338774#64, 176253316#64, 12672671#64⟩,
    ⟨172179679#64, 114024545#64, 183177287#64, 44432654#64⟩,
    ⟨175302179#64, 30433613#64, 226135578#64, 240627526#64⟩,
    ⟨243366505#64, 90529967#64, 140183800#64, 11578552#64⟩,
    ⟨170334716#64, 134757876#64, 44399153#64, 254302476#64⟩,
    ⟨253992032#64, 133114447#64, 101526416#64, 165914055#64⟩,
    ⟨207046419#64, 29188826#64, 42134114#64, 81044767#64⟩,
    ⟨218465007#64, 88573364#64, 177365552#64, 92365938#64⟩⟩

def keyI1 : Elt16 V :=
  ⟨⟨87879439#64, 170868461#64, 179522577#64, 97053316#64⟩,
    ⟨105618351#64, 100052009#64, 150716379#64, 189653455#64⟩,
    ⟨93340605#64, 251357057#64, 196597998#64, 178868581#64⟩,
    ⟨30099662#64, 230847341#64, 43261162#64, 256277111#64⟩,
    ⟨43438105#64, 5906091#64, 204070593#64, 197932441#64⟩,
    ⟨153424002#64, 94228569#64, 186865932#64, 129976740#64⟩,
    ⟨81556604#64, 265078872#64, 122737566#64, 143770883#64⟩,
    ⟨198634485#64, 416438#64, 1720904#64, 220179865#64⟩,
    ⟨210162328#64, 122647746#64, 151241257#64, 192891107#64⟩,
    ⟨190107468#64, 137604313#64, 192749707#64, 211801726#64⟩,
    ⟨90997278#64, 260442124#64, 31680097#64, 222695691#64⟩,
    ⟨52438501#64, 87980808#64, 26724003#64, 52809486#64⟩,
    ⟨186799101#64, 74032143#64, 211076412#64, 117167299#64⟩,
    ⟨38134519#64, 74596465#64, 133253746#64, 158521415#64⟩,
    ⟨63749895#64, 189138975#64, 220721570#64, 202792333#64⟩,
    ⟨161550737#64, 19398275#64, 225314822#64, 7449851#64⟩⟩

def keyI2 : Elt16 V :=
  ⟨⟨120365649#64, 211248748#64, 169394961#64, 187831106#64⟩,
    ⟨177579101#64, 84931484#64, 129278773#64, 148681481#64⟩,
    ⟨30957675#64, 221051629#64, 79084845#64, 157770767#64⟩,
    ⟨78289429#64, 166667683#64, 239559112#64, 99137210#64⟩,
    ⟨205275552#64, 218950810#64, 183652419#64, 176656397#64⟩,
    ⟨63392146#64, 171210425#64, 80791003#64, 157345020#64⟩,
    ⟨196268417#64, 135067049#64, 226763413#64, 213059980#64⟩,
    ⟨4018976#64, 218709134#64, 11214300#64, 217832001#64⟩,
    ⟨51717905#64, 214879891#64, 12937608#64, 38684983#64⟩,
    ⟨225337383#64, 210308497#64, 176289522#64, 50137480#64⟩,
    ⟨98109605#64, 80677990#64, 185297208#64, 140747651#64⟩,
    ⟨139078223#64, 32353740#64, 177545818#64, 172349959#64⟩,
    ⟨18140635#64, 248702618#64, 187999913#64, 127916988#64⟩,
    ⟨29828711#64, 73641350#64, 72281277#64, 28798974#64⟩,
    ⟨41749474#64, 55896936#64, 76362880#64, 119516936#64⟩,
    ⟨132066979#64, 259714141#64, 47444244#64, 163163480#64⟩⟩

def keyI3 : Elt16 V :=
  ⟨⟨63544122#64, 253201016#64, 43304431#64, 106217611#64⟩,
    ⟨30463233#64, 127983122#64, 158138767#64, 81494339#64⟩,
    ⟨117000073#64, 70242384#64, 196761797#64, 165675183#64⟩,
    ⟨168837224#64, 143407872#64, 231579133#64, 225653378#64⟩,
    ⟨265001947#64, 154625744#64, 181974299#64, 211867980#64⟩,
    ⟨98007854#64, 110035255#64, 155654968#64, 167254286#64⟩,
    ⟨205268686#64, 95893897#64, 39328663#64, 250457380#64⟩,
    ⟨255078522#64, 53299491#64, 64877448#64, 88444346#64⟩,
    ⟨17150609#64, 68525973#64, 264937562#64, 88545547#64⟩,
    ⟨42041011#64, 199498286#64, 134580833#64, 97935704#64⟩,
    ⟨10234350#64, 189199587#64, 141291840#64, 178844119#64⟩,
    ⟨148862421#64, 92698575#64, 234914525#64, 57662492#64⟩,
    ⟨60902465#64, 45844049#64, 252646088#64, 156557642#64⟩,
    ⟨132672622#64, 128318995#64, 78958308#64, 183614338#64⟩,
    ⟨224397214#64, 252763469#64, 169191698#64, 228910202#64⟩,
    ⟨245898092#64, 10357880#64, 188910623#64, 228049122#64⟩⟩

def keyI4 : Elt16 V :=
  ⟨⟨44084132#64, 129889831#64, 32580726#64, 56470708#64⟩,
    ⟨241337670#64, 222635573#64, 86193799#64, 254939245#64⟩,
    ⟨266414915#64, 105152654#64, 158313308#64, 57148279#64⟩,
    ⟨46419437#64, 171672378#64, 226385410#64, 221285603#64⟩,
    ⟨193922662#64, 48088941#64, 196851376#64, 257579029#64⟩,
    ⟨114573245#64, 111285406#64, 265758476#64, 101795656#64⟩,
    ⟨47418702#64, 223136239#64, 242731476#64, 237570392#64⟩,
    ⟨235357728#64, 164320481#64, 35697492#64, 6516376#64⟩,
    ⟨23391145#64, 265375668#64, 267014147#64, 183047165#64⟩,
    ⟨231065642#64, 202910315#64, 54992500#64, 185271741#64⟩,
    ⟨266070133#64, 259165813#64, 217014048#64, 107962208#64⟩,
    ⟨174129559#64, 163635269#64, 104567375#64, 131010181#64⟩,
    ⟨248281381#64, 103269963#64, 37941558#64, 52582682#64⟩,
    ⟨225728673#64, 136395145#64, 125016495#64, 31359994#64⟩,
    ⟨108557145#64, 120708333#64, 15900527#64, 25274#64⟩,
    ⟨122621327#64, 10572974#64, 142309246#64, 44808850#64⟩⟩

def keyI5 : Elt16 V :=
  ⟨⟨9426860#64, 207887637#64, 114732068#64, 249988763#64⟩,
    ⟨241429606#64, 256227490#64, 178708367#64, 257042890#64⟩,
    ⟨74173027#64, 240042717#64, 8751607#64, 131579068#64⟩,
    ⟨152803268#64, 233238399#64, 133032513#64, 172772089#64⟩,
    ⟨164135042#64, 27894581#64, 92201028#64, 180503570#64⟩,
    ⟨234614772#64, 75554578#64, 197101394#64, 56929423#64⟩,
    ⟨139434322#64, 75503785#64, 79087215#64, 113698028#64⟩,
    ⟨217549053#64, 39066733#64, 130479045#64, 115411292#64⟩,
    ⟨217555443#64, 147243577#64, 225809174#64, 253629171#64⟩,
    ⟨219779313#64, 200688284#64, 176710402#64, 166780558#64⟩,
    ⟨212686524#64, 235537222#64, 14407708#64, 152872236#64⟩,
    ⟨262036949#64, 169953676#64, 196424000#64, 127783045#64⟩,
    ⟨60150865#64, 180804502#64, 189653417#64, 58930160#64⟩,
    ⟨253183360#64, 174092132#64, 250996017#64, 44736878#64⟩,
    ⟨6231608#64, 69276786#64, 109645565#64, 263169096#64⟩,
    ⟨227147123#64, 185871443#64, 39868335#64, 114295701#64⟩⟩

def keyI6 : Elt16 V :=
  ⟨⟨62470150#64, 96796927#64, 100650297#64, 87585562#64⟩,
    ⟨164273372#64, 267949741#64, 195613157#64, 138427454#64⟩,
    ⟨229752026#64, 254232343#64, 150766798#64, 32005481#64⟩,
    ⟨46110251#64, 94722016#64, 59178329#64, 65980323#64⟩,
    ⟨176806410#64, 91389326#64, 259319164#64, 97577716#64⟩,
    ⟨198989309#64, 216921219#64, 43875736#64, 79374477#64⟩,
    ⟨224897400#64, 77285050#64, 23148457#64, 231822651#64⟩,
    ⟨238772489#64, 224417585#64, 145982899#64, 113117007#64⟩,
    ⟨69585918#64, 235145864#64, 151402021#64, 121074582#64⟩,
    ⟨87343373#64, 265467299#64, 93194939#64, 164990907#64⟩,
    ⟨65938013#64, 56134944#64, 60567142#64, 59876796#64⟩,
    ⟨231809908#64, 173664695#64, 81681781#64, 110546419#64⟩,
    ⟨132365672#64, 252621663#64, 81184152#64, 1190261#64⟩,
    ⟨168856241#64, 227043904#64, 207095313#64, 208839894#64⟩,
    ⟨193249309#64, 102733509#64, 28846844#64, 194105720#64⟩,
    ⟨166664256#64, 55189291#64, 4457972#64, 244314093#64⟩⟩

def keyI7 : Elt16 V :=
  ⟨⟨67658327#64, 15545936#64, 15648362#64, 233157279#64⟩,
    ⟨50747119#64, 12274905#64, 134520807#64, 41649544#64⟩,
    ⟨37038552#64, 109244671#64, 146298489#64, 234904839#64⟩,
    ⟨143405908#64, 146751573#64, 257881276#64, 20192627#64⟩,
    ⟨257774862#64, 238281735#64, 176857869#64, 171949254#64⟩,
    ⟨40343611#64, 213395731#64, 31730302#64, 80974125#64⟩,
    ⟨86077052#64, 160691348#64, 257688218#64, 137096054#64⟩,
    ⟨150140435#64, 138334661#64, 113310534#64, 154967189#64⟩,
    ⟨97662358#64, 223044749#64, 50623366#64, 234864899#64⟩,
    ⟨187888027#64, 141067916#64, 144180746#64, 1310945#64⟩,
    ⟨209420563#64, 68712926#64, 88191889#64, 75245089#64⟩,
    ⟨76760989#64, 245891711#64, 39991797#64, 16457163#64⟩,
    ⟨73539870#64, 174007138#64, 112283849#64, 107158328#64⟩,
    ⟨154756455#64, 92561859#64, 79917748#64, 127380650#64⟩,
    ⟨10659798#64, 96739078#64, 136950139#64, 63943434#64⟩,
    ⟨35175901#64, 159565728#64, 16947597#64, 29069501#64⟩⟩

theorem keyQ_eq : (point_decoding (leBytes 57 aGoodY)).map Prod.fst = some keyQ := by
  decide +kernel

theorem keyD_eq : pre4w (doubling_4w keyQ) = keyD := by decide +kernel

theorem keyI0_eq : preIter keyQ 0 = keyI0 := by decide +kernel

theorem keyI1_eq : preIter keyQ 1 = keyI1 := by
  have h : mixadd_4w keyI0 keyD = keyI1 := by decide +kernel
  rw [preIter, keyI0_eq, keyD_eq, h]

theorem keyI2_eq : preIter keyQ 2 = keyI2 := by
  have h : mixadd_4w keyI1 keyD = keyI2 := by decide +kernel
  rw [preIter, keyI1_eq, keyD_eq, h]

theorem keyI3_eq : preIter keyQ 3 = keyI3 := by
  have h : mixadd_4w keyI2 keyD = keyI3 := by decide +kernel
  rw [preIter, keyI2_eq, keyD_eq, h]

theorem keyI4_eq : preIter keyQ 4 = keyI4 := by
  have h : mixadd_4w keyI3 keyD = keyI4 := by decide +kernel
  rw [preIter, keyI3_eq, keyD_eq, h]

theorem keyI5_eq : preIter keyQ 5 = keyI5 := by
  have h : mixadd_4w keyI4 keyD = keyI5 := by decide +kernel
  rw [preIter, keyI4_eq, keyD_eq, h]

theorem keyI6_eq : preIter keyQ 6 = keyI6 := by
  have h : mixadd_4w keyI5 keyD = keyI6 := by decide +kernel
  rw [preIter, keyI5_eq, keyD_eq, h]

theorem keyI7_eq : preIter keyQ 7 = keyI7 := by
  have h : mixadd_4w keyI6 keyD = keyI7 := by decide +kernel
  rw [preIter, keyI6_eq, keyD_eq, h]

/-- The check on an operand of the mixed addition. -/
def operandOk (e : Elt16 V) : Prop := gapOk (e.lane 0).ints (e.lane 1).ints = true

instance (e : Elt16 V) : Decidable (operandOk e) := by unfold operandOk; infer_instance

def multOk (e : Elt16 V) : Prop := operandOk (pre4w e) ∧ operandOk (R4.compressfast (R4.ngz (pre4w e)))

instance (e : Elt16 V) : Decidable (multOk e) := by unfold multOk; infer_instance

theorem keyI0_ok : multOk keyI0 := by decide +kernel
theorem keyI1_ok : multOk keyI1 := by decide +kernel
theorem keyI2_ok : multOk keyI2 := by decide +kernel
theorem keyI3_ok : multOk keyI3 := by decide +kernel
theorem keyI4_ok : multOk keyI4 := by decide +kernel
theorem keyI5_ok : multOk keyI5 := by decide +kernel
theorem keyI6_ok : multOk keyI6 := by decide +kernel
theorem keyI7_ok : multOk keyI7 := by decide +kernel

theorem key_ok : KeyOk keyQ := by
  refine ⟨?_, fun j hj => ?_⟩
  · rw [keyD_eq]
    have : operandOk keyD := by decide +kernel
    exact this
  · have key : ∀ I, preIter keyQ j = I → multOk I → multOk (preIter keyQ j) := fun I e h => e ▸ h
    have : multOk (preIter keyQ j) := by
      obtain rfl | rfl | rfl | rfl | rfl | rfl | rfl | rfl : j = 0 ∨ j = 1 ∨ j = 2 ∨ j = 3 ∨ j = 4 ∨
          j = 5 ∨ j = 6 ∨ j = 7 := by omega
      · exact key _ keyI0_eq keyI0_ok
      · exact key _ keyI1_eq keyI1_ok
      · exact key _ keyI2_eq keyI2_ok
      · exact key _ keyI3_eq keyI3_ok
      · exact key _ keyI4_eq keyI4_ok
      · exact key _ keyI5_eq keyI5_ok
      · exact key _ keyI6_eq keyI6_ok
      · exact key _ keyI7_eq keyI7_ok
    exact this

theorem key_good : KeyGood aGood := by
  refine ⟨aGood_mul, ⟨?_, ?_, ?_, ?_⟩, ?_⟩
  · rw [key_y]
    exact decodeClear_nat (by decide +kernel) (by decide +kernel) (by decide +kernel)
      (by decide +kernel)
  · rw [aGood_pt.1]; decide +kernel
  · rw [aGood_pt.1]; decide +kernel
  · rw [key_encode]; decide +kernel
  · rw [key_encode]
    intro Q4 Q2 e
    have h := keyQ_eq
    rw [e] at h
    rw [show Q4 = keyQ from Option.some.inj h]
    exact key_ok

theorem sign_good : SignOk rGood kNum aGood := by
  obtain ⟨e1, -, e2, e3, -⟩ := red_aGood
  refine ⟨reduce_small (by run_mult) (by run_mult) (by run_mult) (by run_mult),
    reduce_small (by run_mult) (by run_mult) (by run_mult) (by run_mult), by rw [e1]; exact rGood_mul,
    ?_, ?_⟩
  · rw [e1, e2]; run_mult
  · rw [e1, e2]
    exact reduce_small (by run_mult) (by run_mult) (by run_mult) (by run_mult)

theorem sign_wrong : SignOk rWrong kNum aWrong := by
  obtain ⟨-, e1, e2, -, e3⟩ := red_aGood
  refine ⟨reduce_small (by run_mult) (by run_mult) (by run_mult) (by run_mult),
    reduce_small (by run_mult) (by run_mult) (by run_mult) (by run_mult), by rw [e1]; exact rWrong_mul,
    ?_, ?_⟩
  · rw [e1, e2]; run_mult
  · rw [e1, e2]
    exact reduce_small (by run_mult) (by run_mult) (by run_mult) (by run_mult)

/-! ## A function standing for the hash -/

/-- A function standing for the hash, which answers by the length of its argument: the digest of
a 57-byte private key, of what the nonce is derived from when message and context are empty, and
of the rest. -/
def toyHash (a r k : ℕ) (m : List Byte) (n : ℕ) : List Byte :=
  if m.length = 57 then leBytes n a else if m.length = 67 then leBytes n r else leBytes n k

theorem toyHash_length (a r k : ℕ) (m : List Byte) (n : ℕ) : (toyHash a r k m n).length = n := by
  unfold toyHash; split_ifs <;> simp

theorem toy_challenge {a r k : ℕ} (hk : k < 2 ^ 912) {R pk M : List Byte} (hR : R.length = 57)
    (hpk : pk.length = 57) : challenge (toyHash a r k) .PureContext R pk M [] = k := by
  unfold challenge toyHash
  have : (dom4 .PureContext [] ++ R ++ pk ++ PH (toyHash a r k) .PureContext M).length =
      124 + M.length := by
    simp only [List.length_append, hR, hpk]
    show 10 + 57 + 57 + M.length = _
    omega
  rw [if_neg (by unfold toyHash at this; omega), if_neg (by unfold toyHash at this; omega),
    leNat_leBytes, Nat.mod_eq_of_lt (by norm_num at *; exact hk)]

theorem toy_nonce {a r k : ℕ} (hr : r < 2 ^ 912) :
    nonce (toyHash a r k) .PureContext (leBytes 57 0) [] [] = r := by
  have e : (dom4 .PureContext [] ++ (toyHash a r k (leBytes 57 0) 114).drop 57 ++
      PH (toyHash a r k) .PureContext []).length = 67 := by
    simp only [List.length_append, List.length_drop, toyHash_length]
    rfl
  unfold nonce
  generalize dom4 .PureContext [] ++ (toyHash a r k (leBytes 57 0) 114).drop 57 ++
      PH (toyHash a r k) .PureContext [] = m at *
  unfold toyHash
  rw [if_neg (by omega), if_pos e, leNat_leBytes, Nat.mod_eq_of_lt (by norm_num at *; exact hr)]

theorem toy_secret (a r k : ℕ) : toyHash a r k (leBytes 57 0) 114 = leBytes 114 a := by
  unfold toyHash; rw [if_pos (by simp)]

/-- Non-vacuity of C48, C58 and C59: all their conditions are met for the secret scalar `aGood`,
the nonce `rGood` and the challenge `kNum`. -/
example (u u' u'' : ℕ → W) : ∃ pk sig,
    apiKeygen (toyHash aGood rGood kNum) u .PureContext (leBytes 57 0) = (.KEYGEN_OK, pk) ∧
    apiSign (toyHash aGood rGood kNum) u' .PureContext [] [] pk (leBytes 57 0) =
      (.SIGNATURE_OK, some sig) ∧
    apiVerify (toyHash aGood rGood kNum) u'' .PureContext [] [] pk sig = .VERIFICATION_OK := by
  obtain ⟨e1, -, e2, e3, -⟩ := red_aGood
  refine C48_verifies_partial _ (toyHash_length _ _ _) u u' u'' .PureContext [] [] _ (by simp) rGood
    kNum aGood ?_ ?_ ?_ key_good sign_good ?_ ?_
  · rw [toy_secret]; decide +kernel
  · rw [toy_nonce (by decide +kernel)]
  · rw [toy_challenge (by decide +kernel) (encode_length _) (encode_length _)]
  · rw [e1, e2, e3]; exact SNum_div
  · rw [e2]; exact kNum_div

theorem toy_verify (u : ℕ → W) : apiVerify (toyHash aGood rGood kNum) u .PureContext [] []
    (encode (aGood • B)) (encode (rGood • B) ++ leBytes 57 SNum) = .VERIFICATION_OK := by
  obtain ⟨e1, -, e2, e3, -⟩ := red_aGood
  have hs : aGood = secretScalar (toyHash aGood rGood kNum (leBytes 57 0) 114) := by
    rw [toy_secret]; decide +kernel
  have hn : rGood = nonce (toyHash aGood rGood kNum) .PureContext (leBytes 57 0) [] [] := by
    rw [toy_nonce (by decide +kernel)]
  have hc : kNum = challenge (toyHash aGood rGood kNum) .PureContext (encode (rGood • B))
      (encode (aGood • B)) [] [] := by
    rw [toy_challenge (by decide +kernel) (encode_length _) (encode_length _)]
  obtain ⟨pk, sig, h1, h2, h3⟩ := C48_verifies_partial _ (toyHash_length aGood rGood kNum) u u u
    .PureContext [] [] (leBytes 57 0) (by simp) rGood kNum aGood hs hn hc key_good sign_good
    (by rw [e1, e2, e3]; exact SNum_div) (by rw [e2]; exact kNum_div)
  have hpk : pk = encode (aGood • B) := by
    rw [C58_keygen_partial _ _ _ _ (toyHash_length _ _ _ _ _) (by rw [← hs]; exact key_good.mult),
      ← hs] at h1
    exact (Prod.mk.inj h1).2.symm
  subst hpk
  obtain ⟨S, -, -, hS, h⟩ := C58_sign_partial (toyHash aGood rGood kNum) (toyHash_length _ _ _) u
    .PureContext [] [] (encode (aGood • B)) (leBytes 57 0) (by simp) rGood kNum aGood hn hc hs
    sign_good
  rw [h] at h2
  rw [e1, e2, e3] at hS
  rw [← hS, Option.some.inj (Prod.mk.inj h2).2]
  exact h3

/-! ## A key with which verification fails -/

theorem wrong_key (u : ℕ → W) (mode : Mode) (r k : ℕ) :
    apiKeygen (toyHash aWrong r k) u mode (leBytes 57 0) = (.KEYGEN_OK, encode (aGood • B)) := by
  unfold apiKeygen keygen
  simp only
  rw [toy_secret]
  have e : div4 (u 0) (u 1) (clampDigest (leBytes 114 aWrong)) =
      div4 (u 0) (u 1) (leBytes 57 aGood) := by
    rw [div4_junk, div4_junk (u 0)]
    decide +kernel
  have e2 : fixed_point_multiplication (u 0) (u 1) (clampDigest (leBytes 114 aWrong)) =
      fixed_point_multiplication (u 0) (u 1) (leBytes 57 aGood) := by
    unfold fixed_point_multiplication; rw [e]
  have e3 : leNat ((leBytes 57 aGood).take 56) = aGood := by decide +kernel
  rw [e2, fixed_encoding, e3]
  rw [e3]; exact aGood_mul

/-- C58 fails without its conditions: there are a hash function and a private key whose public
key is not the encoding of s·B, s the secret scalar. -/
theorem C58_keygen_wrong : ∃ (H : List Byte → ℕ → List Byte) (sk : List Byte),
    (∀ m n, (H m n).length = n) ∧ sk.length = 57 ∧ ∀ u mode,
    apiKeygen H u mode sk ≠ (.KEYGEN_OK, encode (secretScalar (H sk 114) • B)) := by
  refine ⟨toyHash aWrong 0 0, leBytes 57 0, toyHash_length _ _ _, by simp, fun u mode h => ?_⟩
  rw [wrong_key, toy_secret, show secretScalar (leBytes 114 aWrong) = aWrong by decide +kernel] at h
  exact pt_ne aGood_pt.1 aWrong_pt.1 (by decide +kernel) (C57_injective (Prod.mk.inj h).2)

theorem verify_some (H : List Byte → ℕ → List Byte) (u : ℕ → W) {mode : Mode}
    {M C pk sig : List Byte} (hC : C.length ≤ 255) {q} (hd : point_decoding pk = some q)
    (h : apiVerify H u mode M C pk sig ≠ .VERIFICATION_OK) :
    apiVerify H u mode M C pk sig = .INVALID_SIGNATURE := by
  rw [verify_short H u (by omega)] at h ⊢
  rw [hd] at h ⊢
  obtain ⟨A, A2⟩ := q
  simp only at h ⊢
  split_ifs at h ⊢ with h1
  · exact absurd rfl h
  · rfl

/-- C48 is false: there are a hash function, a private key and a message such that the signature
made with the public key that key generation returns does not verify. -/
theorem C48_verifies_wrong : ∃ (H : List Byte → ℕ → List Byte) (sk M pk sig : List Byte),
    (∀ m n, (H m n).length = n) ∧ sk.length = 57 ∧ ∀ u u' u'',
    apiKeygen H u .PureContext sk = (.KEYGEN_OK, pk) ∧
    apiSign H u' .PureContext M [] pk sk = (.SIGNATURE_OK, some sig) ∧
    apiVerify H u'' .PureContext M [] pk sig = .INVALID_SIGNATURE := by
  obtain ⟨e0, e1, e2, e5, e3⟩ := red_aGood
  have hSlt : SNum < 2 ^ 446 := by decide +kernel
  refine ⟨toyHash aWrong rWrong kNum, leBytes 57 0, [], encode (aGood • B),
    encode (rWrong • B) ++ leBytes 57 SNum, toyHash_length _ _ _, by simp, fun u u' u'' =>
    ⟨wrong_key u _ _ _, ?_, ?_⟩⟩
  · obtain ⟨S, -, -, hS, h⟩ := C58_sign_partial (toyHash aWrong rWrong kNum) (toyHash_length _ _ _) u'
      .PureContext [] [] (encode (aGood • B)) (leBytes 57 0) (by simp) rWrong kNum aWrong
      (by rw [toy_nonce (by decide +kernel)])
      (by rw [toy_challenge (by decide +kernel) (encode_length _) (encode_length _)])
      (by rw [toy_secret]; decide +kernel) sign_wrong
    rw [e1, e2, e3] at hS
    rw [h, hS]
  obtain ⟨Q4, Q2, e', hQ, -⟩ := C47_decodes_partial _ (encode_length (aGood • B)) _
    (decodes_encode _) key_good.decode.clear key_good.decode.low key_good.decode.high
    key_good.decode.borrow
  refine verify_some _ _ (by simp) e' ?_
  have e4 : SNum • B - kNum • aGood • B = rGood • B := by
    have hm : SNum ≡ rGood + kNum * aGood [MOD ell] := by rw [← e5]; exact red_modEq _
    rw [modEq_smul hm order_B, add_smul, mul_smul, add_sub_cancel_right]
  have h := C59_verify_prime_partial (toyHash aWrong rWrong kNum) (toyHash_length _ _ _) u''
    .PureContext [] [] (encode (aGood • B)) (encode (rWrong • B) ++ leBytes 57 SNum) (by simp)
    (encode_length _) (aGood • B) (decodes_encode _) (order_mulB _) key_good.decode SNum kNum
    (by rw [sig_drop, leBytes57_take hSlt])
    (by rw [sig_take, toy_challenge (by decide +kernel) (encode_length _) (encode_length _)])
    sign_wrong.challenge SNum_div (by rw [e2]; exact kNum_div)
    (fun Q4 Q2 e => by
      have := (Prod.mk.inj (Option.some.inj (e'.symm.trans e))).1
      subst this
      exact (key_good.adds _ _ e).dmOk hQ _ _)
    (by rw [e4]; exact rGood_mul.x) (by rw [e4]; exact rGood_mul.y)
  intro hv
  have h := h.1 hv
  rw [sig_take, e4] at h
  exact pt_ne rWrong_pt.1 rGood_pt.1 (by decide +kernel) (C57_injective h)

/-! ## A second signature -/

/-- C60 is false: there are a hash function, a public key, a message and two signatures with the
same R, the second with S + l in place of S, that are both accepted. -/
theorem C60_wrong : ∃ (H : List Byte → ℕ → List Byte) (M pk R : List Byte) (S : ℕ),
    (∀ m n, (H m n).length = n) ∧ pk.length = 57 ∧ R.length = 57 ∧ S < ell ∧ ∀ u,
    apiVerify H u .PureContext M [] pk (R ++ leBytes 57 S) = .VERIFICATION_OK ∧
    apiVerify H u .PureContext M [] pk (R ++ leBytes 57 (S + ell)) = .VERIFICATION_OK := by
  have hSlt : SNum < 2 ^ 446 := by decide +kernel
  have main : ∀ u, apiVerify (toyHash aGood rGood kNum) u .PureContext [] [] (encode (aGood • B))
      (encode (rGood • B) ++ leBytes 57 SNum) = .VERIFICATION_OK := toy_verify
  refine ⟨toyHash aGood rGood kNum, [], encode (aGood • B), encode (rGood • B), SNum,
    toyHash_length _ _ _, encode_length _, encode_length _, by decide +kernel, fun u => ⟨main u, ?_⟩⟩
  rw [C60_plus_order _ u .PureContext [] [] _ _ (encode_length _) SNum (by decide +kernel) SNum_div
    ⟨by run_mult, reduce_small (by run_mult) (by run_mult) (by run_mult) (by run_mult)⟩
    (by decide +kernel)]
  exact main u

end Verif.Ed448
