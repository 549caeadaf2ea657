import Verif.Lab.BesselIOde
import Verif.Lab.BesselNAcc
import Verif.Lab.BesselMod
import Mathlib.Analysis.Complex.ExponentialBounds

/-!
# Modified Bessel functions `I₀` and `I₁` (property C119)

/repo/russell_lab/src/math/bessel_mod.rs. Arithmetic, `exp` and `sqrt` are the real ones; the coefficients are the decimals of the source.
-/

set_option linter.unusedSimpArgs false

namespace Russell.Lab

open Russell Real Set Filter Topology

/-- the loop of `poly` (bessel_mod.rs:295-298) -/
noncomputable def modPolyLoop (cof : List ℝ) (x : ℝ) : ℕ → ℝ → Res ℝ
  | 0, ans => .ok ans
  | i + 1, ans => match cof[i]? with
    | some c => modPolyLoop cof x i (ans * x + c)
    | none => .panic

/-- `poly` (bessel_mod.rs:292-300) -/
noncomputable def modPoly (cof : List ℝ) (n : ℕ) (x : ℝ) : Res ℝ := match cof[n]? with
  | some c => modPolyLoop cof x n c
  | none => .panic

/-- bessel_mod.rs:302 -/
noncomputable def modI0P : List ℝ := [9.999999999999997e-1, 2.466405579426905e-1, 1.478980363444585e-2, 3.826993559940360e-4, 5.395676869878828e-6, 4.700912200921704e-8, 2.733894920915608e-10, 1.115830108455192e-12, 3.301093025084127e-15, 7.209167098020555e-18, 1.166898488777214e-20, 1.378948246502109e-23, 1.124884061857506e-26, 5.498556929587117e-30]

/-- bessel_mod.rs:319 -/
noncomputable def modI0Q : List ℝ := [4.463598170691436e-1, 1.702205745042606e-3, 2.792125684538934e-6, 2.369902034785866e-9, 8.965900179621208e-13]

/-- bessel_mod.rs:327 -/
noncomputable def modI0PP : List ℝ := [1.192273748120670e-1, 1.947452015979746e-1, 7.629241821600588e-2, 8.474903580801549e-3, 2.023821945835647e-4]

/-- bessel_mod.rs:335 -/
noncomputable def modI0QQ : List ℝ := [2.962898424533095e-1, 4.866115913196384e-1, 1.938352806477617e-1, 2.261671093400046e-2, 6.450448095075585e-4, 1.529835782400450e-6]

/-- bessel_mod.rs:344 -/
noncomputable def modI1P : List ℝ := [5.000000000000000e-1, 6.090824836578078e-2, 2.407288574545340e-3, 4.622311145544158e-5, 5.161743818147913e-7, 3.712362374847555e-9, 1.833983433811517e-11, 6.493125133990706e-14, 1.693074927497696e-16, 3.299609473102338e-19, 4.813071975603122e-22, 5.164275442089090e-25, 3.846870021788629e-28, 1.712948291408736e-31]

/-- bessel_mod.rs:361 -/
noncomputable def modI1Q : List ℝ := [4.665973211630446e-1, 1.677754477613006e-3, 2.583049634689725e-6, 2.045930934253556e-9, 7.166133240195285e-13]

/-- bessel_mod.rs:369 -/
noncomputable def modI1PP : List ℝ := [1.286515211317124e-1, 1.930915272916783e-1, 6.965689298161343e-2, 7.345978783504595e-3, 1.963602129240502e-4]

/-- bessel_mod.rs:377 -/
noncomputable def modI1QQ : List ℝ := [3.309385098860755e-1, 4.878218424097628e-1, 1.663088501568696e-1, 1.473541892809522e-2, 1.964131438571051e-4, (-1.034524660214173e-6)]

/-- `bessel_i0_scaled` (bessel_mod.rs:41-44) -/
noncomputable def besI0Scaled (x : ℝ) : Res ℝ := do
  let z := 1 - 15 / x
  let p ← modPoly modI0PP 4 z
  let q ← modPoly modI0QQ 5 z
  .ok (p / (q * √x))

/-- `bessel_i1_scaled` (bessel_mod.rs:47-50) -/
noncomputable def besI1Scaled (x : ℝ) : Res ℝ := do
  let z := 1 - 15 / x
  let p ← modPoly modI1PP 4 z
  let q ← modPoly modI1QQ 5 z
  .ok (p / (q * √x))

/-- `bessel_i0` for `|x| < 15` (bessel_mod.rs:31-33) -/
noncomputable def besI0Small (x : ℝ) : Res ℝ := do
  let y := x * x
  let p ← modPoly modI0P 13 y
  let q ← modPoly modI0Q 4 (225 - y)
  .ok (p / q)

/-- `bessel_i0` for `|x| ≥ 15` (bessel_mod.rs:36-37) -/
noncomputable def besI0Large (x : ℝ) : Res ℝ := do
  let ax := |x|
  let e := exp (ax / 2)
  let s ← besI0Scaled ax
  .ok (e * s * e)

/-- `bessel_i0` (bessel_mod.rs:23-38). For an infinite argument the source computes `(exp(∞) * (poly / (poly * √∞))) * exp(∞)`, which is
`(∞ * 0) * ∞`, a NaN -/
noncomputable def besselI0F : FArg → Res FArg
  | .nan => .ok .nan
  | .posInf => .ok .nan
  | .negInf => .ok .nan
  | .negZero => .ok (.fin 1)
  | .fin x =>
    if x = 0 then .ok (.fin 1)
    else if |x| < 15 then (do let y ← besI0Small x; .ok (.fin y))
    else (do let y ← besI0Large x; .ok (.fin y))

/-- `bessel_i1` for `|x| < 15` (bessel_mod.rs:80-82) -/
noncomputable def besI1Small (x : ℝ) : Res ℝ := do
  let y := x * x
  let p ← modPoly modI1P 13 y
  let q ← modPoly modI1Q 4 (225 - y)
  .ok (x * p / q)

/-- `bessel_i1` for `|x| ≥ 15` (bessel_mod.rs:85-87) -/
noncomputable def besI1Large (x : ℝ) : Res ℝ := do
  let ax := |x|
  let e := exp (ax / 2)
  let s ← besI1Scaled ax
  let ans := e * s * e
  .ok (if x > 0 then ans else -ans)

/-- `bessel_i1` (bessel_mod.rs:72-88). Infinite arguments give `(∞ * 0) * ∞` as in `bessel_i0` -/
noncomputable def besselI1F : FArg → Res FArg
  | .nan => .ok .nan
  | .posInf => .ok .nan
  | .negInf => .ok .nan
  | .negZero => .ok (.fin 0)
  | .fin x =>
    if x = 0 then .ok (.fin 0)
    else if |x| < 15 then (do let y ← besI1Small x; .ok (.fin y))
    else (do let y ← besI1Large x; .ok (.fin y))

/-! ## Arguments below fifteen -/

def bIS0 : RF := ([999999999999999700000000000000000000000000000, 246640557942690500000000000000000000000000000, 14789803634445850000000000000000000000000000, 382699355994036000000000000000000000000000, 5395676869878828000000000000000000000000, 47009122009217040000000000000000000000, 273389492091560800000000000000000000, 1115830108455192000000000000000000, 3301093025084127000000000000000, 7209167098020555000000000000, 11668984887772140000000000, 13789482465021090000000, 11248840618575060000, 5498556929587117], [999999999999999939659687500000000000000000000, -3359442057311628827700000000000000000000000, 4664148775975387743000000000000000000000, -3176833050951774720000000000000000000, 896590017962120800000000000000000])

/-- thirty-six terms of the power series in `x²` -/
def bIT0 : List ℤ := [126056427015434537062364351255539470784786367991447338352625481901876491755393394933760000000000000000, 31514106753858634265591087813884867696196591997861834588156370475469122938848348733440000000000000000, 1969631672116164641599442988367804231012286999866364661759773154716820183678021795840000000000000000, 54711990892115684488873416343550117528119083329621240604438143186578338435500605440000000000000000, 854874857689307570138647130367970586376860677025331884444345987290286538054696960000000000000000, 8548748576893075701386471303679705863768606770253318844443459872902865380546969600000000000000, 59366309561757470148517161831109068498393102571203603086412915784047676253798400000000000000, 302889334498762602798556948117903410706087258016344913706188345836977940070400000000000000, 1183161462885791417181863078585560198070653351626347319164798225925695078400000000000000, 3651732910141331534511923082054198142193374542056627528286414277548441600000000000000, 9129332275353328836279807705135495355483436355141568820716035693871104000000000000, 18862256767258943876611172944494825114635199080871009960157098541056000000000000, 32746973554268999785783286361970182490686109515401058958606073856000000000000, 48442268571403845836957524204097903092730931235800383074861056000000000000, 61788607871688578873670311484818753944809861270153549840384000000000000, 68654008746320643192967012760909726605344290300170610933760000000000, 67044930416328753118131848399325904888031533496260362240000000000, 57997344650803419652363190656856319107293714097111040000000000, 44751037539200169484848140938932344990195767050240000000000, 30991023226592915155712008960479463289609256960000000000, 19369389516620571972320005600299664556005785600000000, 10980379544569485245079368254138131834470400000000, 5671683649054486180309591040360605286400000000, 2680379796339549234550846427391590400000000, 1163359286605707133051582650777600000000, 465343714642282853220633060311040000, 172094569024512889504671989760000, 59017341915127877059215360000, 18819305457630062837760000, 5594323857797283840000, 1553978849388134400, 404260886937600, 98696505600, 22657600, 4900, 1]

def bIZ0p : List ℤ := [832401404080054776813987288266566408218032012280952118202992246050114657605690518909053311683000903349043200000000000000000000000000000000000000000, 2982355493853852536054036147389012291930487646510465709462100396823036078039114306262175205153111569105682432000000000000000000000000000000000000000, -2778191853784719230147939262990015643141594137633105325721676692858886853037790589391343648781027425137857658880000000000000000000000000000000000000, 1020928623457156665387169248248895223027558400774022322750741043731157214802782742756537072032738003347062338355200000000000000000000000000000000000, -179841843118562396671709672251661896283533796509459580161091529424946540675312514278537384696262374898846639587328000000000000000000000000000000000, 17912102598923996316530521655166216041739092770838965753148368877393698555953344702189860022874845415082209312768000000000000000000000000000000000, -1107839041052434862690192117773475942836672315364632767284693463519872816288923182970465985827943219677680893952000000000000000000000000000000000, 45248945987464522988957802813406726502817952936686882534036151909785246955155384265495219667777311843987488768000000000000000000000000000000000, -1271891477657522371412519298411021837733762843290859198882947794362971803869138066771977321161427326280400896000000000000000000000000000000000, 25279315609959360927620913052811768581502336372161397051893899995377448130039066363232854740179758993238917120000000000000000000000000000000, -360939457709203642189130376625946051280128938897632075513115875531370393721024500657763314077370875924971520000000000000000000000000000000, 3722266925659984567220717150528222366550877285998793716296322837722742072448185195755751760859035997306880000000000000000000000000000000, -27551307221561342988478871955894004299173573668581240531991196795759026257450851412726347990983791083520000000000000000000000000000000, 143054935862804800570483484091885734458423304835776074950169508922488270522006088192336276541459660800000000000000000000000000000000, -493975763455487811454694622060621331488312036869463222868376723517653851023272645504326853796770611200000000000000000000000000000, 992483098647387638847709095115032509108851121498483350609460398799145019561560262788278662673203200000000000000000000000000000, -646355513672494888371177603775009826726411553954176563562288475265078779400257287932164754636800000000000000000000000000000, -1170593300935249746896407403632098767657573997192075163277010512411273182534963084978343116800000000000000000000000000000, 834261805436008282215968175333903849836082854820666680828242363055207081085526018621440000000000000000000000000000000, 2753022383800521651718911793492339863006301178887547244484954644976718070606123522588672000000000000000000000000000, 1537263356961899494556191959523141707269084623248220348728375531190925744721654448128000000000000000000000000000, -2900459898260045378105563351936065381835248484802215217906937689736322400504512512000000000000000000000000000, -7954758891603336005667847468885203490138909480688558596616019118221080943132672000000000000000000000000000, -10937363007245610084394817849139441694384173231890788629183591422990091288576000000000000000000000000000, -10959236641103649813060391772640434980948579004154391247703289604637122887680000000000000000000000000, -8857023679386845845578499005907985810806840997286035590575300541541253120000000000000000000000000, -6049359342575771598261330438109305600095739586165396475441762449489920000000000000000000000000, -3587114638805969872839939563452729085585608041122216050216811888640000000000000000000000000, -1879656693308380635197907251068398042789881897268981454811116339200000000000000000000000, -881444353721154666306117943203657757822333645105737070503002112000000000000000000000, -373462428717659578083938550081165274702681702420750666825728000000000000000000000, -144050858318902961135759786188294280103834119031614865408000000000000000000000, -50895625172737576916540864352564907736832165217177728000000000000000000000, -16557088880945496906480638672062412925431629279264000000000000000000000, -4981308690847605667979159152286063958717176378320000000000000000000, -1391311061029515896976258249234565759408141780000000000000000000, -360057761384253639370059554171432920159680000000000000000000, -94122448172902313820596644387841322280000000000000000000, -12164580370626161051877666436445200000000000000000000, -8965900179621199930689838340912800000000000000000]

theorem bIZ0p_0 : chkPiece bIZ0p 16 0 450 = true := by decide +kernel

theorem bIZ0p_1 : chkPiece bIZ0p 16 450 900 = true := by decide +kernel

theorem bIZ0p_2 : chkPiece bIZ0p 16 900 1800 = true := by decide +kernel

theorem bIZ0p_3 : chkPiece bIZ0p 16 1800 2700 = true := by decide +kernel

theorem bIZ0p_4 : chkPiece bIZ0p 16 2700 3600 = true := by decide +kernel

theorem bIZ0p_chk : chkChain bIZ0p 16 0 [450, 900, 1800, 2700, 3600] = true := chk_cons bIZ0p_0 (chk_cons bIZ0p_1 (chk_cons bIZ0p_2 (chk_cons bIZ0p_3 (chk_cons bIZ0p_4 rfl))))

theorem bIZ0p_lit : addL (smulL 9 (mulL bIT0 bIS0.2)) (smulL (10000000000000000) (addL (smulL 126056427015434537062364351255539470784786367991447338352625481901876491755393394933760000000000000000 bIS0.1) (smulL (-1) (mulL bIT0 bIS0.2)))) = bIZ0p := by decide +kernel

def bIZ0m : List ℤ := [1436614282197766753395455456927422852461977626422757553848932001992927171159568668296833407683000903349043200000000000000000000000000000000000000000, -2422724199009578676094900506235526880185584677192983078682182759015342683759567919432078833886888430894317568000000000000000000000000000000000000000, 2811750150228250632565482992856140820147334344719015676058723754754390515723396159637096667532572574862142341120000000000000000000000000000000000000, -1020060272615279614297638024926838308847705709570166392496498621644673088174660800737132211659805996652937661644800000000000000000000000000000000000, 179854085994018561875640413945714017580048247321630416264227598586015901959230553682625401615765785101153360412672000000000000000000000000000000000, -17911995934488791496766216668808690068351779739572933152029480584781371787848232396981889364430114584917790687232000000000000000000000000000000000, 1107839661377482876078952194075136490048656911431949670174283049062825304600809226668163360025496780322319106048000000000000000000000000000000000, -45248943455628585131144644498925531951435186941993761672589787838825485834939746007862391995582688156012511232000000000000000000000000000000000, 1271891485147756516595376623333664447119715990671153408920410599446621088480204310106429939408172673719599104000000000000000000000000000000000, -25279315593601693199982394590597587007239608679864135655357258763138148426583616686413174534956241006761082880000000000000000000000000000000, 360939457735681401633448109111422326666010206785538070320923511072635055069026774961606874853701124075028480000000000000000000000000000000, -3722266925628702715282397493808769435099669053739352128510725475293665366303915673631186190200932002693120000000000000000000000000000000, 27551307221586916376647856715089672546600606622815786244447578021693956012162935954059388923255696916480000000000000000000000000000000, -143054935862792581757442912345300366141799425052871025133684897081003383515206999435880680985827737600000000000000000000000000000000, 493975763455488700611068841939482190675429636962633170235883172404407644857178975359673146203229388800000000000000000000000000000, -992483098647389425317286660414390257605031097978973393103457928510214361188054841211721337326796800000000000000000000000000000, 646355513672496051811102214266855990778247791633412317755699504095071965589438712067835245363200000000000000000000000000000, 1170593300935251853964349087083539542338415641266554159667685125177663832761036915021656883200000000000000000000000000000, -834261805436009783887217960150163342703604790481139966547123134681189718914473981378560000000000000000000000000000000, -2753022383800526607159202634435772853309286314188991928513698413861973769393876477411328000000000000000000000000000, -1537263356961902261630234490944722275052890044325804438505576347813234255278345551872000000000000000000000000000, 2900459898260050598933380220022444716884463247461304065647496726903677599495487488000000000000000000000000000, 7954758891603350324233852354902900401668750889982061223510352721778919056867328000000000000000000000000000, 10937363007245629771648230891255312133128039587169233390175128577009908711424000000000000000000000000000, 10959236641103669539686345759227852453012357685613081812546310395362877112320000000000000000000000000, 8857023679386861788221121902244856230465658334843872735824699458458746880000000000000000000000000, 6049359342575782487108147074507982432625500941724625924558237550510080000000000000000000000000, 3587114638805976329646289414204311323191687932458583949783188111360000000000000000000000000, 1879656693308384018579955206156586442866093399755018545188883660800000000000000000000000, 881444353721156252905954641283485048687659683534262929496997888000000000000000000000, 373462428717660250316310241869010834926594457579249333174272000000000000000000000, 144050858318903220427304760213857686861925880968385134592000000000000000000000, 50895625172737668528666175280285808423167834782822272000000000000000000000, 16557088880945526709240624373983667074568370720736000000000000000000000, 4981308690847614634334802677984336041282823621680000000000000000000, 1391311061029518401336168102365434240591858220000000000000000000, 360057761384254287474030045828567079840320000000000000000000, 94122448172902483241003355612158677720000000000000000000, 12164580370626182948122333563554800000000000000000000, 8965900179621216069310161659087200000000000000000]

theorem bIZ0m_0 : chkPiece bIZ0m 16 0 225 = true := by decide +kernel

theorem bIZ0m_1 : chkPiece bIZ0m 16 225 450 = true := by decide +kernel

theorem bIZ0m_2 : chkPiece bIZ0m 16 450 900 = true := by decide +kernel

theorem bIZ0m_3 : chkPiece bIZ0m 16 900 1800 = true := by decide +kernel

theorem bIZ0m_4 : chkPiece bIZ0m 16 1800 2700 = true := by decide +kernel

theorem bIZ0m_5 : chkPiece bIZ0m 16 2700 3600 = true := by decide +kernel

theorem bIZ0m_chk : chkChain bIZ0m 16 0 [225, 450, 900, 1800, 2700, 3600] = true := chk_cons bIZ0m_0 (chk_cons bIZ0m_1 (chk_cons bIZ0m_2 (chk_cons bIZ0m_3 (chk_cons bIZ0m_4 (chk_cons bIZ0m_5 rfl)))))

theorem bIZ0m_lit : addL (smulL 9 (mulL bIT0 bIS0.2)) (smulL (-10000000000000000) (addL (smulL 126056427015434537062364351255539470784786367991447338352625481901876491755393394933760000000000000000 bIS0.1) (smulL (-1) (mulL bIT0 bIS0.2)))) = bIZ0m := by decide +kernel

theorem bIS0_pos {z : ℝ} (h0 : 0 ≤ z) (h1 : z ≤ 225) : 0 < polyEval bIS0.2 z :=
  chk_pos (d := 16) (p := 0) (q := 3600) (by norm_num) (by decide +kernel) (by norm_num; linarith) (by norm_num; linarith)

theorem bIS0_near {z : ℝ} (h0 : 0 ≤ z) (h1 : z ≤ 225) : |rfEval bIS0 z - polyEval bIT0 z / 126056427015434537062364351255539470784786367991447338352625481901876491755393394933760000000000000000| ≤ 9 / 10 ^ 16 * (polyEval bIT0 z / 126056427015434537062364351255539470784786367991447338352625481901876491755393394933760000000000000000) := by
  have hq := bIS0_pos h0 h1
  have c1 := chkChain_sound (by norm_num) 0 [450, 900, 1800, 2700, 3600] (by simp) (bIZ0p_lit ▸ bIZ0p_chk) (x := z) (by norm_num; linarith) (by norm_num; linarith)
  have c2 := chkChain_sound (by norm_num) 0 [225, 450, 900, 1800, 2700, 3600] (by simp) (bIZ0m_lit ▸ bIZ0m_chk) (x := z) (by norm_num; linarith) (by norm_num; linarith)
  simp only [polyEval_add, polyEval_smul, polyEval_mul] at c1 c2
  unfold rfEval
  generalize polyEval bIS0.2 z = Q at *
  generalize polyEval bIS0.1 z = P at *
  generalize polyEval bIT0 z = T at *
  rw [div_sub_div _ _ hq.ne' (by norm_num), abs_div, abs_of_pos (show (0 : ℝ) < Q * 126056427015434537062364351255539470784786367991447338352625481901876491755393394933760000000000000000 by positivity), div_le_iff₀ (by positivity), abs_le]
  push_cast at c1 c2
  have e : 9 / 10 ^ 16 * (T / 126056427015434537062364351255539470784786367991447338352625481901876491755393394933760000000000000000) * (Q * 126056427015434537062364351255539470784786367991447338352625481901876491755393394933760000000000000000) = 9 / 10 ^ 16 * (T * Q) := by field_simp
  rw [e]
  constructor <;> linarith

theorem bIT0_near {x : ℝ} (h : |x| ≤ 15) : |(polyEval bIT0 (x ^ 2) / 126056427015434537062364351255539470784786367991447338352625481901876491755393394933760000000000000000) - besselI 0 x| ≤ 1 / 10 ^ 19 := by
  unfold besselI bes
  have hs := besTerm_summable 1 0 (x / 2)
  rw [← hs.sum_add_tsum_nat_add 36]
  have hh : (x / 2) ^ 2 ≤ 225 / 4 := by
    rw [← sq_abs, abs_div, Nat.abs_ofNat, div_pow]
    have := pow_le_pow_left₀ (abs_nonneg x) h 2
    norm_num at this ⊢
    linarith
  have ht := bes_tail (σ := 1) (by simp) 0 36 (h := x / 2) (by push_cast; linarith)
  have e : |besTerm 1 0 (x / 2) 36| ≤ ((225 / 4) ^ 36 / (371993326789901217467999448150835200000000 * 371993326789901217467999448150835200000000)) := by
    unfold besTerm
    rw [one_pow, one_mul, pow_add, pow_mul, abs_div, abs_mul, abs_pow, abs_pow, sq_abs, show ((Nat.factorial 36 : ℕ) : ℝ) = 371993326789901217467999448150835200000000 by norm_num [Nat.factorial], 
      abs_of_pos (a := (371993326789901217467999448150835200000000 * 371993326789901217467999448150835200000000 : ℝ)) (by norm_num), pow_zero, abs_one, mul_one]
    have h1 := pow_le_pow_left₀ (sq_nonneg (x / 2)) hh 36
    exact div_le_div_of_nonneg_right h1 (by norm_num)
  have e2 : ∑ i ∈ Finset.range 36, besTerm 1 0 (x / 2) i = (polyEval bIT0 (x ^ 2) / 126056427015434537062364351255539470784786367991447338352625481901876491755393394933760000000000000000) := by
    simp only [Finset.sum_range_succ, Finset.sum_range_zero, besTerm, bIT0, polyEval, Nat.factorial]
    push_cast
    norm_num only
    ring
  rw [e2, sub_add_cancel_left, abs_neg]
  refine ht.trans ?_
  have := hh
  norm_num at e ⊢
  linarith

def bIS1 : RF := ([625000000000000000000000000000000000000000000, 76135310457225975000000000000000000000000000, 3009110718181675000000000000000000000000000, 57778889319301975000000000000000000000000, 645217977268489125000000000000000000000, 4640452968559443750000000000000000000, 22924792922643962500000000000000000, 81164064174883825000000000000000, 211634365937212000000000000000, 412451184137792250000000000, 601633996950390250000000, 645534430261136250000, 480858752723578625, 214118536426092], [1249999999999999907933837890625000000000000000, -3979379085548476043476562500000000000000000, 5227155390602258852343750000000000000000, -3363603657338914562500000000000000000, 895766655024410625000000000000000])

/-- thirty-six terms of the power series in `x²` -/
def bIT1 : List ℤ := [4538031372555643334245116645199420948252309247692104180694517348467553703194162217615360000000000000000, 567253921569455416780639580649927618531538655961513022586814668558444212899270277201920000000000000000, 23635580065393975699193315860413650772147443998396375941117277856601842204136261550080000000000000000, 492407918029041160399860747091951057753071749966591165439943288679205045919505448960000000000000000, 6155098975363014504998259338649388221913396874582389567999291108490063073993818112000000000000000, 51292491461358454208318827822078235182611640621519913066660759237417192283281817600000000000000, 305312449174752703620945403702846637991735956080475673015837852603673763590963200000000000000, 1363002005244431712593506266530565348177392661073552111677847556266400730316800000000000000, 4732645851543165668727452314342240792282613406505389276659192903702780313600000000000000, 13146238476508793524242923095395113311896148351403859101831091399174389760000000000000, 29877814719338167100552097944079802981582155344099679776888844089032704000000000000, 56586770301776831629833518833484475343905597242613029880471295623168000000000000, 90683926765667999406784485310071274589592303273418317116139896832000000000000, 124565833469324175009319347953394607952736680320629556478214144000000000000, 148292658892052589296808747563565009467543667048368519616921600000000000, 154471519679221447184175778712046884862024653175383874600960000000000, 141977499705166771308985090727984269174655012109727825920000000000, 115994689301606839304726381313712638214587428194222080000000000, 84791439547958215866028056515871811560370927042560000000000, 55783841807867247280281616128863033921296662528000000000, 33204667742778123381120009600513710667438489600000000, 17967893800204612219220784415862397547315200000000, 8877417885476587064832403367520947404800000000, 4020569694509323851826269641087385600000000, 1675237372712218271594279017119744000000, 644322066427776258305491929661440000, 229459425366017186006229319680000, 75879439605164413361848320000, 23361896430161457315840000, 6713188629356740608000, 1804620599289446400, 454793497804800, 107668915200, 23990400, 5040, 1]

def bIZ1p : List ℤ := [55230844261282357696046419694745794728864334859433929598587069600111427737437035059270191064488917786951680000000000000000000000000000000000000000000, 26075315235591697133832830896799151407065831884237059501510099291475814933105053280441145379592938114043084800000000000000000000000000000000000000000, -16043037920532566058042603034723090927840440562492433487926263892945276758445680386341752142110136713611313152000000000000000000000000000000000000000, 5092172836557098839361392812775041701886538901252367139570534109801840224198478609838089277353342159092061306880000000000000000000000000000000000000, -787199000335275956632304080615065401136547745448151029502106877042936444376103175376035008971570727893624632115200000000000000000000000000000000000, 70285281545726288038489169553530926732285840953156427606053203408536387475805886290898048490532335943612471705600000000000000000000000000000000000, -3961061218702810198457979365048308108137802993204726375931098672718421754193144450284222595736010713103702425600000000000000000000000000000000000, 149390523129135852949674451890363848810475447831333302827570710489826137731052329836581686388164253857926348800000000000000000000000000000000000, -3919994917122399626610426360178250341054641653488685496615413808567605466696315430535457835059669210538967040000000000000000000000000000000000, 73398886664253900645370882009797646597541228301600419025275397643324934449352536340855945103898175097274368000000000000000000000000000000000, -995024465229647562890886142856936848725742277788402358856127230214457828009026179863821162876512736641024000000000000000000000000000000000, 9809614707204692646160302633602718619738789221386961464887603277173834335303213669434219388974477082624000000000000000000000000000000000, -69847818249371373100085395467763771975478303962655700198507631638585452552897927524999572600045699072000000000000000000000000000000000, 351063788485489237501929362461432786364916246828200300607965366631961049833389556818497444481545011200000000000000000000000000000000, -1182103739917088812413116167142606570101947510630934382162941258166316573797056219978310960315105280000000000000000000000000000000, 2345836113382622228088393505275993011876444311707244772062431872822936821336010043871992207114240000000000000000000000000000000, -1614559278815504959889653301854801536312012362011920562093782821218242713202723363244726026240000000000000000000000000000000, -2418956388923555651836545114885522464433911366395822230444004266415347671491542194092769280000000000000000000000000000000, 2044378057864574241497759815320926063197514663368399681973952954978982046247689983623168000000000000000000000000000000, 5508142352704441842404069110861471398699208346117993867844959087026816589570908146892800000000000000000000000000000, 2426395804129606932346445183581644445206978241670000522043418203776066880280304025600000000000000000000000000000, -6160949683077248938740314539210862524896868018021414216062291279541262714771865600000000000000000000000000000, -14802793949963105642950908730264723670223755633511977473994773687223069127475200000000000000000000000000000, -19020375068177294738190809200744392665824157294397732491282171740572258140160000000000000000000000000000, -18050793703675553365203735065689022201000544195666151290047525546121756672000000000000000000000000000, -13900654306092192826538264766725999005542078397349909068527176635121664000000000000000000000000000, -9080405850081637630162679426296692626485060430957548528400792027136000000000000000000000000000, -5163725368123739540443443889023042995767572863749188826272104448000000000000000000000000000, -2600471063619153829633160824525979857545891171720381943051714560000000000000000000000000, -1174109253321795430865709723294911175685417867425015012576460800000000000000000000000, -479714575309001494730435277200750715307786227763912645017600000000000000000000000, -178682140595463820182803922882014106206587080362697062400000000000000000000000, -61041246983219458452254801117854977560622586124674800000000000000000000000, -19222309295383125059666307606893976229793893450110000000000000000000000, -5604091397375066245521526343403339716594417129250000000000000000000, -1518287713985638575556789001830302185841569984375000000000000000, -381175109208742998594801087130992512840562500000000000000000, -97643933183117413273897635194248961906250000000000000000, -11510602839841139515457444142965112500000000000000000, -8957666550244098188100104780304375000000000000000]

theorem bIZ1p_0 : chkPiece bIZ1p 16 0 900 = true := by decide +kernel

theorem bIZ1p_1 : chkPiece bIZ1p 16 900 1800 = true := by decide +kernel

theorem bIZ1p_2 : chkPiece bIZ1p 16 1800 3600 = true := by decide +kernel

theorem bIZ1p_chk : chkChain bIZ1p 16 0 [900, 1800, 3600] = true := chk_cons bIZ1p_0 (chk_cons bIZ1p_1 (chk_cons bIZ1p_2 rfl))

theorem bIZ1p_lit : addL (smulL 9 (mulL bIT1 bIS1.2)) (smulL (10000000000000000) (addL (smulL 9076062745111286668490233290398841896504618495384208361389034696935107406388324435230720000000000000000 bIS1.1) (smulL (-1) (mulL bIT1 bIS1.2)))) = bIZ1p := by decide +kernel

def bIZ1m : List ℤ := [46874861621219609804084328765768073840930787133689615326846617570525686018024788209907861464488917786951680000000000000000000000000000000000000000000, -13637155848682145084673804610505026242031946387593239676938114550704120010591720218677798876407061885956915200000000000000000000000000000000000000000, 16534633718866263211237644697472668726078068208021286381104455334402138879953964537606880495329863286388686848000000000000000000000000000000000000000, -5082733549710621145250671470254644950973361433254975927030496215777461059929761118866795137520257840907938693120000000000000000000000000000000000000, 787304409034504700398414339994013182220904524585890031279179303609231461002271004424430995668173272106375367884800000000000000000000000000000000000, -70284523438964863649316463591191859157250481646552808870749765472135403160421830970008579367899664056387528294400000000000000000000000000000000000, 3961064963906279051167201674327207826992834613751847258801753162046144755124124885900491570535989286896297574400000000000000000000000000000000000, -149390509869433618061879063005388813757697934749515005036885749163604225956615497663249005369915746142073651200000000000000000000000000000000000, 3919994951696928799424928963596267953635217483696891911694657059540377076933536721470992722687530789461032960000000000000000000000000000000000, -73398886596872241885825889933825012411501130192073813883741273704426737825210409448646769859660224902725632000000000000000000000000000000000, 995024465327937776241372663963073618169602121018784424802220288617917656868575116782279374067717663358976000000000000000000000000000000000, -9809614707099249905589540210260612033659903574315346959251454087622972038417977903427870393387634917376000000000000000000000000000000000, 69847818249450056301960837150431058245595646959485200952257313467700181311135128488263184208235593728000000000000000000000000000000000, -351063788485454889057861733374603668896953897200419378487219950953267928611567508866353033163413913600000000000000000000000000000000, 1182103739917090940199848017904383921769714052922377066658348456146620512957799101621689039684894720000000000000000000000000000000, -2345836113382626450593397593999803825488433659924398400452606341301792084870402756128007792885760000000000000000000000000000000, 1614559278815507866096355169766344923719636821043734590578047571307880117850076636755273973760000000000000000000000000000000, 2418956388923560005958045177289614479565174324019071829621125639820001730108457805907230720000000000000000000000000000000, -2044378057864577921378263971557872651618922854287243016767718845057410913752310016376832000000000000000000000000000000, -5508142352704451757060303978865710916634989100582077668622661117091199410429091853107200000000000000000000000000000, -2426395804129611299858892616878053430010998655398088218222625565055933119719695974400000000000000000000000000000, 6160949683077260028449744078268932995949623749837382977904882352458737285228134400000000000000000000000000000, 14802793949963132287980018663878861508058410362738637927944170312776930872524800000000000000000000000000000, 19020375068177328974865931919905734416891165879512106935073028259427741859840000000000000000000000000000, 18050793703675585856632401681714321853523616858675800361792474453878243328000000000000000000000000000, 13900654306092217847716015732695605834394527876794265011472823364878336000000000000000000000000000, 9080405850081653974893209573259137176785160031204371471599207972864000000000000000000000000000, 5163725368123748835149106511762581029062933570810811173727895552000000000000000000000000000, 2600471063619158510481075339007085960358438351479618056948285440000000000000000000000000, 1174109253321797544262365702528588790953301108574984987423539200000000000000000000000, 479714575309002358216670833404218367703285772236087354982400000000000000000000000, 178682140595464141810656994717179900321412919637302937600000000000000000000000, 61041246983219568326499370912979078439377413875325200000000000000000000000, 19222309295383159659823039296550223770206106549890000000000000000000000, 5604091397375076332886041618531660283405582870750000000000000000000, 1518287713985641308474674175982197814158430015625000000000000000, 381175109208743684709997662869007487159437500000000000000000, 97643933183117589032977364805751038093750000000000000000, 11510602839841160234542555857034887500000000000000000, 8957666550244114311899895219695625000000000000000]

theorem bIZ1m_0 : chkPiece bIZ1m 16 0 900 = true := by decide +kernel

theorem bIZ1m_1 : chkPiece bIZ1m 16 900 1800 = true := by decide +kernel

theorem bIZ1m_2 : chkPiece bIZ1m 16 1800 3600 = true := by decide +kernel

theorem bIZ1m_chk : chkChain bIZ1m 16 0 [900, 1800, 3600] = true := chk_cons bIZ1m_0 (chk_cons bIZ1m_1 (chk_cons bIZ1m_2 rfl))

theorem bIZ1m_lit : addL (smulL 9 (mulL bIT1 bIS1.2)) (smulL (-10000000000000000) (addL (smulL 9076062745111286668490233290398841896504618495384208361389034696935107406388324435230720000000000000000 bIS1.1) (smulL (-1) (mulL bIT1 bIS1.2)))) = bIZ1m := by decide +kernel

theorem bIS1_pos {z : ℝ} (h0 : 0 ≤ z) (h1 : z ≤ 225) : 0 < polyEval bIS1.2 z :=
  chk_pos (d := 16) (p := 0) (q := 3600) (by norm_num) (by decide +kernel) (by norm_num; linarith) (by norm_num; linarith)

theorem bIS1_near {z : ℝ} (h0 : 0 ≤ z) (h1 : z ≤ 225) : |rfEval bIS1 z - polyEval bIT1 z / 9076062745111286668490233290398841896504618495384208361389034696935107406388324435230720000000000000000| ≤ 9 / 10 ^ 16 * (polyEval bIT1 z / 9076062745111286668490233290398841896504618495384208361389034696935107406388324435230720000000000000000) := by
  have hq := bIS1_pos h0 h1
  have c1 := chkChain_sound (by norm_num) 0 [900, 1800, 3600] (by simp) (bIZ1p_lit ▸ bIZ1p_chk) (x := z) (by norm_num; linarith) (by norm_num; linarith)
  have c2 := chkChain_sound (by norm_num) 0 [900, 1800, 3600] (by simp) (bIZ1m_lit ▸ bIZ1m_chk) (x := z) (by norm_num; linarith) (by norm_num; linarith)
  simp only [polyEval_add, polyEval_smul, polyEval_mul] at c1 c2
  unfold rfEval
  generalize polyEval bIS1.2 z = Q at *
  generalize polyEval bIS1.1 z = P at *
  generalize polyEval bIT1 z = T at *
  rw [div_sub_div _ _ hq.ne' (by norm_num), abs_div, abs_of_pos (show (0 : ℝ) < Q * 9076062745111286668490233290398841896504618495384208361389034696935107406388324435230720000000000000000 by positivity), div_le_iff₀ (by positivity), abs_le]
  push_cast at c1 c2
  have e : 9 / 10 ^ 16 * (T / 9076062745111286668490233290398841896504618495384208361389034696935107406388324435230720000000000000000) * (Q * 9076062745111286668490233290398841896504618495384208361389034696935107406388324435230720000000000000000) = 9 / 10 ^ 16 * (T * Q) := by field_simp
  rw [e]
  constructor <;> linarith

theorem bIT1_near {x : ℝ} (h : |x| ≤ 15) : |(x * (polyEval bIT1 (x ^ 2) / 9076062745111286668490233290398841896504618495384208361389034696935107406388324435230720000000000000000)) - besselI 1 x| ≤ |x| * (1 / 10 ^ 19) := by
  unfold besselI bes
  have hs := besTerm_summable 1 1 (x / 2)
  rw [← hs.sum_add_tsum_nat_add 36]
  have hh : (x / 2) ^ 2 ≤ 225 / 4 := by
    rw [← sq_abs, abs_div, Nat.abs_ofNat, div_pow]
    have := pow_le_pow_left₀ (abs_nonneg x) h 2
    norm_num at this ⊢
    linarith
  have ht := bes_tail (σ := 1) (by simp) 1 36 (h := x / 2) (by push_cast; linarith)
  have e : |besTerm 1 1 (x / 2) 36| ≤ |x| * ((225 / 4) ^ 36 / (371993326789901217467999448150835200000000 * 13763753091226345046315979581580902400000000)) := by
    unfold besTerm
    rw [one_pow, one_mul, pow_add, pow_mul, abs_div, abs_mul, abs_pow, abs_pow, sq_abs, show ((Nat.factorial 36 : ℕ) : ℝ) = 371993326789901217467999448150835200000000 by norm_num [Nat.factorial], show ((Nat.factorial (36 + 1) : ℕ) : ℝ) = 13763753091226345046315979581580902400000000 by norm_num [Nat.factorial],
      abs_of_pos (a := (371993326789901217467999448150835200000000 * 13763753091226345046315979581580902400000000 : ℝ)) (by norm_num), pow_one, abs_div, Nat.abs_ofNat]
    have h1 := pow_le_pow_left₀ (sq_nonneg (x / 2)) hh 36
    have h2 := mul_le_mul h1 (show |x| / 2 ≤ |x| by linarith [abs_nonneg x]) (by positivity) (by positivity)
    exact le_trans (div_le_div_of_nonneg_right h2 (by norm_num)) (le_of_eq (by ring))
  have e2 : ∑ i ∈ Finset.range 36, besTerm 1 1 (x / 2) i = (x * (polyEval bIT1 (x ^ 2) / 9076062745111286668490233290398841896504618495384208361389034696935107406388324435230720000000000000000)) := by
    simp only [Finset.sum_range_succ, Finset.sum_range_zero, besTerm, bIT1, polyEval, Nat.factorial]
    push_cast
    norm_num only
    ring
  rw [e2, sub_add_cancel_left, abs_neg]
  refine ht.trans ?_
  have := abs_nonneg x
  norm_num at e ⊢
  linarith

theorem bIS0_eq (x : ℝ) : besI0Small x = .ok (rfEval bIS0 (x ^ 2)) := by
  simp only [besI0Small, modPoly, modPolyLoop, modI0P, modI0Q, List.getElem?_cons_succ, List.getElem?_cons_zero]
  show Res.ok _ = _
  congr 1
  unfold rfEval
  have e1 : polyEval bIS0.1 (x ^ 2) = 1000000000000000000000000000000000000000000000 * ((((((((((((((5.498556929587117e-30) * (x * x) + 1.124884061857506e-26) * (x * x) + 1.378948246502109e-23) * (x * x) + 1.166898488777214e-20) * (x * x) + 7.209167098020555e-18) * (x * x) + 3.301093025084127e-15) * (x * x) + 1.115830108455192e-12) * (x * x) + 2.733894920915608e-10) * (x * x) + 4.700912200921704e-8) * (x * x) + 5.395676869878828e-6) * (x * x) + 3.826993559940360e-4) * (x * x) + 1.478980363444585e-2) * (x * x) + 2.466405579426905e-1) * (x * x) + 9.999999999999997e-1) := by
    simp only [bIS0, polyEval]; push_cast; norm_num only; ring
  have e2 : polyEval bIS0.2 (x ^ 2) = 1000000000000000000000000000000000000000000000 * (((((8.965900179621208e-13) * (225 - x * x) + 2.369902034785866e-9) * (225 - x * x) + 2.792125684538934e-6) * (225 - x * x) + 1.702205745042606e-3) * (225 - x * x) + 4.463598170691436e-1) := by
    simp only [bIS0, polyEval]; push_cast; norm_num only; ring
  rw [e1, e2, mul_div_mul_left _ _ (by norm_num)]

theorem bIS1_eq (x : ℝ) : besI1Small x = .ok (x * rfEval bIS1 (x ^ 2)) := by
  simp only [besI1Small, modPoly, modPolyLoop, modI1P, modI1Q, List.getElem?_cons_succ, List.getElem?_cons_zero]
  show Res.ok _ = _
  congr 1
  unfold rfEval
  have e1 : polyEval bIS1.1 (x ^ 2) = 1250000000000000000000000000000000000000000000 * ((((((((((((((1.712948291408736e-31) * (x * x) + 3.846870021788629e-28) * (x * x) + 5.164275442089090e-25) * (x * x) + 4.813071975603122e-22) * (x * x) + 3.299609473102338e-19) * (x * x) + 1.693074927497696e-16) * (x * x) + 6.493125133990706e-14) * (x * x) + 1.833983433811517e-11) * (x * x) + 3.712362374847555e-9) * (x * x) + 5.161743818147913e-7) * (x * x) + 4.622311145544158e-5) * (x * x) + 2.407288574545340e-3) * (x * x) + 6.090824836578078e-2) * (x * x) + 5.000000000000000e-1) := by
    simp only [bIS1, polyEval]; push_cast; norm_num only; ring
  have e2 : polyEval bIS1.2 (x ^ 2) = 1250000000000000000000000000000000000000000000 * (((((7.166133240195285e-13) * (225 - x * x) + 2.045930934253556e-9) * (225 - x * x) + 2.583049634689725e-6) * (225 - x * x) + 1.677754477613006e-3) * (225 - x * x) + 4.665973211630446e-1) := by
    simp only [bIS1, polyEval]; push_cast; norm_num only; ring
  rw [e1, e2, mul_div_mul_left _ _ (by norm_num), mul_div_assoc]

theorem bIT0_ge {z : ℝ} (h : 0 ≤ z) : 1 / 2 ≤ polyEval bIT0 z / 126056427015434537062364351255539470784786367991447338352625481901876491755393394933760000000000000000 := by
  rw [le_div_iff₀ (by norm_num)]
  simp only [bIT0, polyEval]
  push_cast
  rw [← sub_nonneg]
  ring_nf
  positivity

theorem bIT1_ge {z : ℝ} (h : 0 ≤ z) : 1 / 4 ≤ polyEval bIT1 z / 9076062745111286668490233290398841896504618495384208361389034696935107406388324435230720000000000000000 := by
  rw [le_div_iff₀ (by norm_num)]
  simp only [bIT1, polyEval]
  push_cast
  rw [← sub_nonneg]
  ring_nf
  positivity

theorem besI0Small_acc {x : ℝ} (h : |x| ≤ 15) : ∃ y, besI0Small x = .ok y ∧ |y - besselI 0 x| ≤ 1 / 10 ^ 15 * besselI 0 x := by
  refine ⟨_, bIS0_eq x, ?_⟩
  have hz : x ^ 2 ≤ 225 := by
    have := pow_le_pow_left₀ (abs_nonneg x) h 2
    rw [sq_abs] at this
    linarith
  have a := abs_le.1 (bIS0_near (sq_nonneg x) hz)
  have b := abs_le.1 (bIT0_near h)
  have c := bIT0_ge (sq_nonneg x)
  generalize polyEval bIT0 (x ^ 2) / 126056427015434537062364351255539470784786367991447338352625481901876491755393394933760000000000000000 = T at *
  rw [abs_le]
  norm_num only at a b ⊢
  constructor <;> linarith [a.1, a.2, b.1, b.2]

theorem besI1Small_acc {x : ℝ} (h : |x| ≤ 15) : ∃ y, besI1Small x = .ok y ∧ |y - besselI 1 x| ≤ 1 / 10 ^ 15 * |besselI 1 x| := by
  refine ⟨_, bIS1_eq x, ?_⟩
  have hz : x ^ 2 ≤ 225 := by
    have := pow_le_pow_left₀ (abs_nonneg x) h 2
    rw [sq_abs] at this
    linarith
  have a := mul_le_mul_of_nonneg_left (bIS1_near (sq_nonneg x) hz) (abs_nonneg x)
  rw [← abs_mul, mul_sub] at a
  have b := bIT1_near h
  have c := bIT1_ge (sq_nonneg x)
  generalize polyEval bIT1 (x ^ 2) / 9076062745111286668490233290398841896504618495384208361389034696935107406388324435230720000000000000000 = T at *
  have hT : |x * T| = |x| * T := by rw [abs_mul, abs_of_nonneg (a := T) (by linarith)]
  have d1 := abs_sub_abs_le_abs_sub (x * T) (besselI 1 x)
  have d2 := abs_sub_le (x * rfEval bIS1 (x ^ 2)) (x * T) (besselI 1 x)
  rw [hT] at d1
  have hx := abs_nonneg x
  have hxc := mul_le_mul_of_nonneg_left c hx
  rw [show |x| * (9 / 10 ^ 16 * T) = 9 / 10 ^ 16 * (|x| * T) by ring] at a
  generalize |x| * T = u at *
  norm_num at a b hxc ⊢
  linarith

/-! ## Arguments from fifteen on -/

/-- the derivative as a quotient -/
def rfDer (f : RF) : RF := (quotD 1 f.1 f.2, mulL f.2 f.2)

theorem rfDer_eval (f : RF) (t : ℝ) : rfEval (rfDer f) t = rfD f t := by
  simp only [rfDer, rfEval, rfD, polyEval_mul, sq]

/-- `2 t f' + t² f'' - 2 f' - c f / 4` -/
def iGam (c : ℤ) (f : RF) : RF :=
  (addL (addL (smulL 8 (mulL [-1, 1] (mulL (quotD 1 f.1 f.2) (mulL f.2 f.2)))) (smulL 4 (0 :: 0 :: quotD 1 (quotD 1 f.1 f.2) (mulL f.2 f.2))))
    (smulL (-c) (mulL (mulL f.1 f.2) (mulL f.2 f.2))), smulL 4 (mulL (mulL f.2 f.2) (mulL f.2 f.2)))

theorem iGam_eval (c : ℤ) {f : RF} {t : ℝ} (hf : 0 < polyEval f.2 t) :
    rfEval (iGam c f) t = 2 * t * rfD f t + t ^ 2 * rfD (rfDer f) t - 2 * rfD f t - c / 4 * rfEval f t ∧ 0 < polyEval (iGam c f).2 t := by
  simp only [iGam, rfEval, rfD, rfDer, polyEval_add, polyEval_mul, polyEval_smul, polyEval]
  generalize polyEval f.2 t = a at *
  refine ⟨?_, by push_cast; positivity⟩
  push_cast
  field_simp
  ring

theorem rf_boundP (f : RF) (B : List ℤ) (b d p : ℤ) {l m : List ℤ} (r r' : List ℤ) (hr : r ≠ []) (hr' : r' ≠ []) (hd : 0 < d) (hb : 0 < b)
    (e1 : addL (mulL B f.2) (smulL b f.1) = l) (e2 : addL (mulL B f.2) (smulL (-b) f.1) = m) (h1 : chkChain l d p r = true) (h2 : chkChain m d p r' = true)
    {x : ℝ} (hp : 0 < polyEval f.2 x) (hx1 : (p : ℝ) / d ≤ x) (hx2 : x ≤ ((r.getLast hr : ℤ) : ℝ) / d) (hx3 : x ≤ ((r'.getLast hr' : ℤ) : ℝ) / d) : |rfEval f x| ≤ polyEval B x / b := by
  subst e1 e2
  have e1 := chkChain_sound hd p r hr h1 hx1 hx2
  have e2 := chkChain_sound hd p r' hr' h2 hx1 hx3
  simp only [polyEval_add, polyEval_smul, polyEval_mul] at e1 e2
  push_cast at e1 e2
  have hb' : (0 : ℝ) < b := by exact_mod_cast hb
  rw [rfEval, abs_le]
  constructor
  · rw [neg_le_iff_add_nonneg, div_add_div _ _ hp.ne' hb'.ne']
    exact div_nonneg (by linarith) (by positivity)
  · rw [div_le_div_iff₀ hp hb']
    linarith

theorem besG15_near : |besG 15 - 118475459286977494744365860 / 10 ^ 32| ≤ 1 / 10 ^ 25 := by
  have he := abs_le.1 exp_one_near_20
  have e1 : 27182818284590452353452 / 10 ^ 22 ≤ exp 1 := by norm_num at he ⊢; linarith [he.1]
  have e2 : exp 1 ≤ 27182818284590452353753 / 10 ^ 22 := by norm_num at he ⊢; linarith [he.2]
  have p1 := pow_le_pow_left₀ (by norm_num) e1 15
  have p2 := pow_le_pow_left₀ (exp_pos 1).le e2 15
  have s1 : 3872983346207416885179265399782 / 10 ^ 30 ≤ √15 := by apply le_sqrt_of_sq_le; norm_num
  have s2 : √15 ≤ 3872983346207416885179265399783 / 10 ^ 30 := by rw [sqrt_le_left (by norm_num)]; norm_num
  have hg : besG 15 = √15 / exp 1 ^ 15 := by
    unfold besG
    rw [exp_neg, ← exp_nat_mul, div_eq_mul_inv]
    norm_num
  have hp : 0 < exp 1 ^ 15 := by positivity
  rw [hg, abs_le]
  constructor
  · rw [neg_le_sub_iff_le_add, ← sub_le_iff_le_add, le_div_iff₀ hp]
    refine le_trans (mul_le_mul_of_nonneg_left p2 (by norm_num)) (le_trans ?_ s1)
    norm_num
  · rw [sub_le_iff_le_add, div_le_iff₀ hp]
    refine le_trans (s2.trans ?_) (mul_le_mul_of_nonneg_left p1 (by norm_num))
    norm_num

theorem besselI_0_15_near : |besselI 0 15 - 3396493732979138795217016223 / 10 ^ 22| ≤ 2 / 10 ^ 18 := by
  have h := abs_le.1 (bIT0_near (x := 15) (by norm_num))
  have e : |polyEval bIT0 (15 ^ 2) / 126056427015434537062364351255539470784786367991447338352625481901876491755393394933760000000000000000 - 339649373297913879521701622303 / 10 ^ 24| ≤ 1 / 10 ^ 22 := by
    simp only [bIT0, polyEval]
    norm_num [abs_le]
  have e := abs_le.1 e
  generalize polyEval bIT0 (15 ^ 2) / 126056427015434537062364351255539470784786367991447338352625481901876491755393394933760000000000000000 = T at *
  norm_num at h e
  norm_num [abs_le]
  constructor <;> linarith [h.1, h.2, e.1, e.2]

theorem besselI_1_15_near : |besselI 1 15 - 3281249219702063967336981487 / 10 ^ 22| ≤ 2 / 10 ^ 18 := by
  have h := abs_le.1 (bIT1_near (x := 15) (by norm_num))
  have e : |polyEval bIT1 (15 ^ 2) / 9076062745111286668490233290398841896504618495384208361389034696935107406388324435230720000000000000000 - 21874994798013759782246543247 / 10 ^ 24| ≤ 1 / 10 ^ 22 := by
    simp only [bIT1, polyEval]
    norm_num [abs_le]
  have e := abs_le.1 e
  generalize polyEval bIT1 (15 ^ 2) / 9076062745111286668490233290398841896504618495384208361389034696935107406388324435230720000000000000000 = T at *
  norm_num at h e
  norm_num [abs_le]
  constructor <;> linarith [h.1, h.2, e.1, e.2]

def bIR0 : RF := ([7978845608028651874, -112069283265217579740, 463191399566603618400, -626699184241667026500, 204911972015859258750], [20000000000000000379, -283416034150231624875, 1195069412990845959750, -1701822725765192148750, 660852663274805259375, -23234380945206834375])

def bIB0 : List ℤ := [430, -86400, 9072000, -544320000, 20412000000, -489888000000, 7348320000000, -62985600000000, 236196000000000]

theorem bIB0_eval (t : ℝ) : polyEval bIB0 t / 1000000000000000 = 70 / 10 ^ 15 + 360 / 10 ^ 15 * (30 * t - 1) ^ 8 := by
  simp only [bIB0, polyEval]; push_cast; norm_num only; ring

def bIg0p : List ℤ := [112814465941553970182030629584895447188098593936886787357296316566035488307435320, 62202724617061742539910984238545926228822199712848242573030022365980590152861466400, -24880837235600251414018436465765895964201939434606396499812525870501218785005498102000, 3490974481336955788697293591621474717694944290341869394197078834508275741346640469620000, -262958249747623676244284082554610097404380791868420489735108842716182309099453194013625000, 12187715076469710785230992020433965114122478775465272467231560072673897324025634921066000000, -370733766077513914406672979654083194267851028503815031571572613547778106225058441972085000000, 7638978569927095561828118895098171418143330988039384711028622680664544448336779221689050000000, -107701027097548580593484007739762381358748910195775886336018984018550993695971717213044406250000, 1027608379514207596929081394138280508940435271788422896626458472756592399959112204865159375000000, -6328770146869346136577959568436214246881246819421314441887899950813040823269746132435826562500000, 21136620479441477304627042398960236262170604747405960786179004895512363870143117042989984375000000, 4667125965781173929215698411612710429994224291795360320055167361509667752755860629065996093750000, -441205242611177859755258936306804303176423728578626611595554336448373124220024164373258593750000000, 2528407300088327575881776688119399778218194121336750658470513716803824401783654393639482421875000000, -8705702763085853069866077608589265866818691619021315236480399739615589331240391647237949218750000000, 21514759512501545398035830917608951517547390439818826412174386417097396849771821726113470458984375000, -40145259036258812167235458664806679752237114516332051831977593675806966191338311123080932617187500000, 56918509353537931413041720119727216173275954494841116776200080888560462642513426124933166503906250000, -60601951134316020282530319609501373667582819609692511890120114756576698100955950706588745117187500000, 47500737441778085805862114821429953354160380379547557998780855225389150516192931535381317138671875000, -26674944111960457984554098624328538183673225724353047542163707440925201818381966239013671875000000000, 10336288501060682515054787654686876694187032277465427570664905661369784551881040789794921875000000000, -2616355736795959456398939161120896623375759416524019237725205624725677591099723999023437500000000000, 398341104980637798281640474389004363530881667097246973576481979608319797965708923339843750000000000, -32660600798864434724420938682804967201504678583065133918997638162056488637561035156250000000000000, 1425487571785775988620297700705718789643606871629886589542457141860919694641113281250000000000000, -31398378856240375440969238329158214221382662418727501068885666650384970703125000000000000000000, 275332166760182046712428919834219888063250468651823093775442063330213928222656250000000000000]

theorem bIg0p_0 : chkPiece bIg0p 3840 0 128 = true := by decide +kernel

theorem bIg0p_1 : chkPiece bIg0p 3840 128 192 = true := by decide +kernel

theorem bIg0p_2 : chkPiece bIg0p 3840 192 256 = true := by decide +kernel

theorem bIg0p_chk : chkChain bIg0p 3840 0 [128, 192, 256] = true := chk_cons bIg0p_0 (chk_cons bIg0p_1 (chk_cons bIg0p_2 rfl))

theorem bIg0p_lit : addL (mulL bIB0 (iGam (-1) bIR0).2) (smulL (1000000000000000) (iGam (-1) bIR0).1) = bIg0p := by decide +kernel

def bIg0m : List ℤ := [437585534058446071538289370415105738711997406063128194513916483434035488307435320, -203993161656319249962655729920334917708058490382747701338871930430839409847138533600, 43556419983632172233338211622768430621221638959604430290313259070476281214994501898000, -5017645514461970663927208615252032989870034725567282540433218086635753758653359530380000, 347886563234995297338785593870821804334895155138934346152660700675780420900546805986375000, -15581097946202022237574386462222118779143846471337500703618700110831805525974365078934000000, 471390783582924775952258426258014363559461360352112289284886461195023951524941558027915000000, -9902445919892524001331194780042436165961630810830344462066077011940503770413220778310950000000, 146816155664730210147809178351450962010755560390499956362245330478866921063403282786955593750000, -1551825586966501888749359714758653160044143591766651157949549685494867695025262795134840625000000, 11810846121269904968342217174475580642462050185475152750390573904887595928058378867564173437500000, -66050783525108730169610723313345340796721341837679074787287872349542576591185007957010015625000000, 284252242466400920023975024866128801233084256767654853473970420228662479959787110629065996093750000, -1018693291958140386286626379024987780908630401021998432406738763833255707755180414373258593750000000, 3258362129839341518455402992404554726344024169947622757948789629033579176295373143639482421875000000, -9228315478085003990367125365407351311685425395582664615424390854606439024111485397237949218750000000, 21701077342445919149860509010919335415093744180215009883987282838716848068643892038613470458984375000, -40171339908313499615621128874109760674970427319974815499189666798976445027397881435580932617187500000, 56919140014701342761517167768647030566038241976046315055765974266233511089168699562433166503906250000, -60601945993990225519867690087722392470647603885797085112750153101505392177494036644088745117187500000, 47500737441778085805862114821429953354160380379547557998780855225389150516192931535381317138671875000, -26674944111960457984554098624328538183673225724353047542163707440925201818381966239013671875000000000, 10336288501060682515054787654686876694187032277465427570664905661369784551881040789794921875000000000, -2616355736795959456398939161120896623375759416524019237725205624725677591099723999023437500000000000, 398341104980637798281640474389004363530881667097246973576481979608319797965708923339843750000000000, -32660600798864434724420938682804967201504678583065133918997638162056488637561035156250000000000000, 1425487571785775988620297700705718789643606871629886589542457141860919694641113281250000000000000, -31398378856240375440969238329158214221382662418727501068885666650384970703125000000000000000000, 275332166760182046712428919834219888063250468651823093775442063330213928222656250000000000000]

theorem bIg0m_0 : chkPiece bIg0m 3840 0 128 = true := by decide +kernel

theorem bIg0m_1 : chkPiece bIg0m 3840 128 192 = true := by decide +kernel

theorem bIg0m_2 : chkPiece bIg0m 3840 192 256 = true := by decide +kernel

theorem bIg0m_chk : chkChain bIg0m 3840 0 [128, 192, 256] = true := chk_cons bIg0m_0 (chk_cons bIg0m_1 (chk_cons bIg0m_2 rfl))

theorem bIg0m_lit : addL (mulL bIB0 (iGam (-1) bIR0).2) (smulL (-1000000000000000) (iGam (-1) bIR0).1) = bIg0m := by decide +kernel

theorem bIR0_pos {t : ℝ} (h0 : 0 ≤ t) (h1 : t ≤ 1 / 15) : 0 < polyEval bIR0.2 t :=
  chk_pos (d := 3840) (p := 0) (q := 256) (by norm_num) (by decide +kernel) (by norm_num; linarith) (by norm_num; linarith)

theorem bIR0_ge {t : ℝ} (h0 : 0 ≤ t) (h1 : t ≤ 1 / 15) : 38 / 100 ≤ rfEval bIR0 t := by
  have hp := bIR0_pos h0 h1
  have h := chk_pos (l := addL (smulL 100 bIR0.1) (smulL (-38) bIR0.2)) (d := 3840) (p := 0) (q := 256) (x := t) (by norm_num) (by decide +kernel) (by norm_num; linarith) (by norm_num; linarith)
  simp only [polyEval_add, polyEval_smul] at h
  push_cast at h
  rw [rfEval, le_div_iff₀ hp]
  linarith

theorem bIR0_res {t : ℝ} (h0 : 0 ≤ t) (h1 : t ≤ 1 / 15) :
    |2 * t * rfD bIR0 t + t ^ 2 * rfD (rfDer bIR0) t - 2 * rfD bIR0 t - (-(1 / 4)) * rfEval bIR0 t| ≤ 70 / 10 ^ 15 + 360 / 10 ^ 15 * (30 * t - 1) ^ 8 := by
  have hp := bIR0_pos h0 h1
  have g := iGam_eval (-1) hp
  have h := rf_boundP (iGam (-1) bIR0) bIB0 1000000000000000 3840 0 [128, 192, 256] [128, 192, 256] (by simp) (by simp) (by norm_num) (by norm_num) bIg0p_lit bIg0m_lit bIg0p_chk bIg0m_chk g.2
    (by norm_num; linarith) (by norm_num; linarith) (by norm_num; linarith)
  rw [g.1] at h
  rw [← bIB0_eval]
  convert h using 2
  · push_cast; ring
  · norm_num

theorem bIR0_at : |rfEval bIR0 (1 / 15) - 402401154980043945065703 / 10 ^ 24| ≤ 1 / 10 ^ 20 := by
  simp only [rfEval, bIR0, polyEval]
  norm_num [abs_le]

theorem bIR0_quot : quotD 1 bIR0.1 bIR0.2 = [19947114020122375542391075069271044290, -542892691598635729697119047698789395800, 5788494337251131019730352097085921407000, -30909319154438952993495014130062727285000, 88205379195138797687539978876116761437500, -132849921474131236340219742536894516625000, 97717870504525083603695715724076266875000, -29121935169442511139264090181768471875000, 4761002818050036438964742258621519531250] := by decide +kernel

theorem bIRd0_at : |rfD bIR0 (1 / 15) - 54061831830767044853275 / 10 ^ 24| ≤ 1 / 10 ^ 20 := by
  simp only [rfD]
  rw [bIR0_quot]
  simp only [bIR0, polyEval]
  norm_num [abs_le]

theorem bIR0_deriv {x : ℝ} (h : 15 ≤ x) : HasDerivAt (fun x => rfEval bIR0 (1 / x)) (-(1 / x) ^ 2 * rfD bIR0 (1 / x)) x := by
  have hx : 0 < x := by linarith
  have hp := bIR0_pos (t := 1 / x) (by positivity) (one_div_le_one_div_of_le (by norm_num) h)
  refine ((rfD_deriv bIR0 hp).comp x (inv_deriv' hx)).congr_deriv ?_
  ring

theorem bIR0_deriv2 {x : ℝ} (h : 15 ≤ x) : HasDerivAt (fun x => -(1 / x) ^ 2 * rfD bIR0 (1 / x)) (2 * (1 / x) ^ 3 * rfD bIR0 (1 / x) + (1 / x) ^ 4 * rfD (rfDer bIR0) (1 / x)) x := by
  have hx : 0 < x := by linarith
  have hp := bIR0_pos (t := 1 / x) (by positivity) (one_div_le_one_div_of_le (by norm_num) h)
  have hp2 : 0 < polyEval (rfDer bIR0).2 (1 / x) := by
    simp only [rfDer, polyEval_mul]
    positivity
  have hd : HasDerivAt (fun x => rfD bIR0 (1 / x)) (rfD (rfDer bIR0) (1 / x) * -(1 / x) ^ 2) x := by
    have := (rfD_deriv (rfDer bIR0) hp2).comp x (inv_deriv' hx)
    refine this.congr_of_eventuallyEq (Eventually.of_forall fun y => ?_)
    simp only [Function.comp, rfDer_eval]
  refine ((((inv_deriv' hx).pow 2).neg).mul hd).congr_deriv ?_
  simp only [Pi.neg_apply, Pi.pow_apply]
  push_cast
  ring

theorem bIe0_15 : |rfEval bIR0 (1 / 15) - besG 15 * besselI 0 15| + |-(1 / 15) ^ 2 * rfD bIR0 (1 / 15) - besP0 15| ≤ 2 / 10 ^ 15 := by
  have a := abs_le.1 bIR0_at
  have b := abs_le.1 bIRd0_at
  have c := abs_le.1 (mul_near besG15_near besselI_0_15_near)
  have i0 := abs_le.1 besselI_0_15_near
  have i1 := abs_le.1 besselI_1_15_near
  have hin : |(besselI 1 15 - besselI 0 15 + besselI 0 15 * (1 / (2 * 15))) - (-2028055511103534706134195) / 10 ^ 22| ≤ 1 / 10 ^ 17 := by
    norm_num at i0 i1
    norm_num [abs_le]
    constructor <;> linarith [i0.1, i0.2, i1.1, i1.2]
  have f := abs_le.1 (mul_near besG15_near hin)
  have x1 : |rfEval bIR0 (1 / 15) - besG 15 * besselI 0 15| ≤ 5 / 10 ^ 16 := by
    generalize besG 15 * besselI 0 15 = v at *
    norm_num [abs_div] at a c
    norm_num [abs_le]
    constructor <;> linarith [a.1, a.2, c.1, c.2]
  have x2 : |-(1 / 15) ^ 2 * rfD bIR0 (1 / 15) - besP0 15| ≤ 15 / 10 ^ 16 := by
    unfold besP0
    generalize besG 15 * (besselI 1 15 - besselI 0 15 + besselI 0 15 * (1 / (2 * 15))) = v at *
    norm_num [abs_div] at b f
    norm_num [abs_le]
    constructor <;> linarith [b.1, b.2, f.1, f.2]
  norm_num at x1 x2 ⊢
  linarith

theorem bIR0_err {x : ℝ} (h : 15 ≤ x) : |rfEval bIR0 (1 / x) - besG x * besselI 0 x| ≤ 65 / 10 ^ 16 := by
  have hd := damp_bound (e := fun x => rfEval bIR0 (1 / x) - besG x * besselI 0 x) (p := fun x => -(1 / x) ^ 2 * rfD bIR0 (1 / x) - besP0 x)
    (γ := fun x => 2 * (1 / x) * rfD bIR0 (1 / x) + (1 / x) ^ 2 * rfD (rfDer bIR0) (1 / x) - 2 * rfD bIR0 (1 / x) - (-(1 / 4)) * rfEval bIR0 (1 / x)) (c := -(1 / 4)) (α := 70 / 10 ^ 15) (β := 360 / 10 ^ 15)
    h (fun y hy => (bIR0_deriv hy).sub (besW0_deriv (by linarith))) (fun y hy => ?_) (by norm_num [abs_div]) (by norm_num) (by norm_num)
    (fun y hy => bIR0_res (by positivity) (one_div_le_one_div_of_le (by norm_num) hy)) bIe0_15
  · refine hd.trans ?_
    norm_num
  · refine ((bIR0_deriv2 hy).sub (besP0_deriv (by linarith))).congr_deriv ?_
    ring

def bIR1 : RF := ([398942280401432775200, -5328430356856727187000, 20896422887176091145000, -27443541268802685825000, 9940735779280041375000], [1000000000000000010927, -12981394191898725143025, 47628729125481543495750, -52348701117110058011250, 9681551353149233146875, 785592163850137621875])

def bIB1 : List ℤ := [895, -187200, 19656000, -1179360000, 44226000000, -1061424000000, 15921360000000, -136468800000000, 511758000000000]

theorem bIB1_eval (t : ℝ) : polyEval bIB1 t / 1000000000000000 = 115 / 10 ^ 15 + 780 / 10 ^ 15 * (30 * t - 1) ^ 8 := by
  simp only [bIB1, polyEval]; push_cast; norm_num only; ring

def bIg1p : List ℤ := [5163350546051673287031773954213266592740214044316585667297815809437994237195161027862780, -2243052029419244593144128853501088030938032514730179567398867274180071002889173157306454800, 457705280626918526158181895887777226281920024510729209466112860746561679386849557679048669000, -51203944594786854354590400445048242000373346478376985165315933445992865025379191721987408490000, 3466738353999156806747501001438770350086501925457631733666387240914088542590602415483096410687500, -151670469244918152306399308847333946477184776205269814031826532251256911567304830924286779209000000, 4471348186377880231373482619239817915490989999710549613610986852191864325061413044316175100957500000, -91130875317422424194773222259113215168992644418323686098511164202927771494729814335926594416225000000, 1302987805683548787879388472481785289757876797830355345979133254978831180266295241397851955667171875000, -13179256070371028455497993503458628950086540947907266500204261162910617876044774332005145956729687500000, 95094770390964097909967197597717963308303264782816956222442922660613692578938315321008396682380468750000, -498995403010360226874203125525414375757006664144497695450209481019100753639133151276899772147742187500000, 1994008903431499734515263315055401753911158243236302442922172086145529471657237218986666129174794921875000, -6554645808033271475134357873550876549618738964381670119824194282653661068899554917138415040000390625000000, 18820300013471646373385800864939036849485760990499852915655213111907691764680975633073109007788085937500000, -46221052725089844160858662439452882552309749027850572213216661342680468079347274622022093775205078125000000, 90413182559137910972414528658981335470086463259595453279637729124131592157496548250121545951144409179687500, -133013978864654898874499010690718279057103090626115428858198189136109022997171277351962391057678222656250000, 141751518463903206970117926018737987640716172678788046166366352371142365165300207626392904184112548828125000, -105218216078351850753763008601415214720356058301696345259659467548318742681072764268937214881896972656250000, 51160575378750260450803296080350763414723959610903870438817712099598800445555643046607393468856811523437500, -14458262839390987827965343890816047928102047294278126366109685421807052572221716865663252563476562500000000, 1611768320825745809881708574149622073694212480180021799417775324049691029605034789294351196289062500000000, 182473302262759272974509640327382246744936642266303767495801790208980909456090893102478027343750000000000, -48535458288677162299495752891672912310859615699770074229352454738494432196026448918914794921875000000000, -1789768317036039237840143660877555856324812262287617649279223744319086931023879266357421875000000000000, 492451079192640967078104169729548268955002428095008156154875819725059527986336273193359375000000000000, 38226566436958293691323081804236782864501907802372522153886543863787854651990966796875000000000000000, 779674271073107361863671802349074359042644593280074657781892030601684223662567138671875000000000000]

theorem bIg1p_0 : chkPiece bIg1p 3840 0 128 = true := by decide +kernel

theorem bIg1p_1 : chkPiece bIg1p 3840 128 192 = true := by decide +kernel

theorem bIg1p_2 : chkPiece bIg1p 3840 192 256 = true := by decide +kernel

theorem bIg1p_chk : chkChain bIg1p 3840 0 [128, 192, 256] = true := chk_cons bIg1p_0 (chk_cons bIg1p_1 (chk_cons bIg1p_2 rfl))

theorem bIg1p_lit : addL (mulL bIB1 (iGam (3) bIR1).2) (smulL (1000000000000000) (iGam (3) bIR1).1) = bIg1p := by decide +kernel

def bIg1m : List ℤ := [1996649453948327025917506045786738536654959795683451698636227223682107837195161027862780, 373664899763265027403238156248423225607308101050316117440836830783857247110826842693545200, -214089977129306356435896382554400815913436326439858367141675182897930293133150442320951331000, 31687058829275896480772576688404321362562034507004303897007006244967855031370808278012591510000, -2408488795561576059533860685892540598156894705206207470323215188322790260693397584516903589312500, 110668792421135725485477713572781450469968171885936122967977797141199933030200169075713220791000000, -3298953482910412293953653510110567179571972427529715473609371143646382158270086955683824899042500000, 65895712736101840513633882202578629408425179452889118415876302636506496525748560664073405583775000000, -889022374384783364897020524582971462572916025949600737315396619114376629075748508602148044332828125000, 7963581506167062184577663555264277817330640823610549901880293994641537445171205355494854043270312500000, -44385135242454345263829691533847153204406325113456215106358760767706413582008528428991603317619531250000, 117623424574790250059399662377792070616727776861288182547654672648527097051083450285600227852257812500000, 225276413603166339730180631146273915535021321219408307626631333131859912121598156486666129174794921875000, -3418690439477746770515340332992691307686182184008544046778303709628149666502943589013415040000390625000000, 15636108492629457984341139732939603428794570216978441123668151143572271939479920945573109007788085937500000, -44599355572822672766106118868353443485971483080661794191373816344076794078969198450147093775205078125000000, 90109336443892665049851854193000347371314978683581225001947666198281086052719936921996545951144409179687500, -133012515969290502788301327520673139334489814077804571044300675054250100375714673348056141057678222656250000, 141753593872258832094876173738865510770181656361520437828056336356908474771348791610767904184112548828125000, -105218187160820884213673318302270318091849273086069499977717497284449898230946116319718464881896972656250000, 51160575378750260450803296080350763414723959610903870438817712099598800445555643046607393468856811523437500, -14458262839390987827965343890816047928102047294278126366109685421807052572221716865663252563476562500000000, 1611768320825745809881708574149622073694212480180021799417775324049691029605034789294351196289062500000000, 182473302262759272974509640327382246744936642266303767495801790208980909456090893102478027343750000000000, -48535458288677162299495752891672912310859615699770074229352454738494432196026448918914794921875000000000, -1789768317036039237840143660877555856324812262287617649279223744319086931023879266357421875000000000000, 492451079192640967078104169729548268955002428095008156154875819725059527986336273193359375000000000000, 38226566436958293691323081804236782864501907802372522153886543863787854651990966796875000000000000000, 779674271073107361863671802349074359042644593280074657781892030601684223662567138671875000000000000]

theorem bIg1m_0 : chkPiece bIg1m 3840 0 128 = true := by decide +kernel

theorem bIg1m_1 : chkPiece bIg1m 3840 128 192 = true := by decide +kernel

theorem bIg1m_2 : chkPiece bIg1m 3840 192 256 = true := by decide +kernel

theorem bIg1m_chk : chkChain bIg1m 3840 0 [128, 192, 256] = true := chk_cons bIg1m_0 (chk_cons bIg1m_1 (chk_cons bIg1m_2 rfl))

theorem bIg1m_lit : addL (mulL bIB1 (iGam (3) bIR1).2) (smulL (-1000000000000000) (iGam (3) bIR1).1) = bIg1m := by decide +kernel

theorem bIR1_pos {t : ℝ} (h0 : 0 ≤ t) (h1 : t ≤ 1 / 15) : 0 < polyEval bIR1.2 t :=
  chk_pos (d := 3840) (p := 0) (q := 256) (by norm_num) (by decide +kernel) (by norm_num; linarith) (by norm_num; linarith)

theorem bIR1_ge {t : ℝ} (h0 : 0 ≤ t) (h1 : t ≤ 1 / 15) : 38 / 100 ≤ rfEval bIR1 t := by
  have hp := bIR1_pos h0 h1
  have h := chk_pos (l := addL (smulL 100 bIR1.1) (smulL (-38) bIR1.2)) (d := 3840) (p := 0) (q := 256) (x := t) (by norm_num) (by decide +kernel) (by norm_num; linarith) (by norm_num; linarith)
  simp only [polyEval_add, polyEval_smul] at h
  push_cast at h
  rw [rfEval, le_div_iff₀ hp]
  linarith

theorem bIR1_res {t : ℝ} (h0 : 0 ≤ t) (h1 : t ≤ 1 / 15) :
    |2 * t * rfD bIR1 t + t ^ 2 * rfD (rfDer bIR1) t - 2 * rfD bIR1 t - (3 / 4) * rfEval bIR1 t| ≤ 115 / 10 ^ 15 + 780 / 10 ^ 15 * (30 * t - 1) ^ 8 := by
  have hp := bIR1_pos h0 h1
  have g := iGam_eval (3) hp
  have h := rf_boundP (iGam (3) bIR1) bIB1 1000000000000000 3840 0 [128, 192, 256] [128, 192, 256] (by simp) (by simp) (by norm_num) (by norm_num) bIg1p_lit bIg1m_lit bIg1p_chk bIg1m_chk g.2
    (by norm_num; linarith) (by norm_num; linarith) (by norm_num; linarith)
  rw [g.1] at h
  rw [← bIB1_eval]
  convert h using 2
  · push_cast; ring
  · norm_num

theorem bIR1_at : |rfEval bIR1 (1 / 15) - 388747508339238807577255 / 10 ^ 24| ≤ 1 / 10 ^ 20 := by
  simp only [rfEval, bIR1, polyEval]
  norm_num [abs_le]

theorem bIR1_quot : quotD 1 bIR1.1 bIR1.2 = [-149603355150735211152972320866915299369000, 3790618154468690802260825072589432072030000, -37156629775594586637365536889872120124700000, 178951460533602949404360640831549083122250000, -447138839575091552699541817372384332956250000, 559053533455858317827641940663591283131250000, -303936750305502176319949670477539147312500000, 43118861938138506575119049861756544843750000, -7809364131107091761600603399194105078125000] := by decide +kernel

theorem bIRd1_at : |rfD bIR1 (1 / 15) - (-156464181636697557972078) / 10 ^ 24| ≤ 1 / 10 ^ 20 := by
  simp only [rfD]
  rw [bIR1_quot]
  simp only [bIR1, polyEval]
  norm_num [abs_le]

theorem bIR1_deriv {x : ℝ} (h : 15 ≤ x) : HasDerivAt (fun x => rfEval bIR1 (1 / x)) (-(1 / x) ^ 2 * rfD bIR1 (1 / x)) x := by
  have hx : 0 < x := by linarith
  have hp := bIR1_pos (t := 1 / x) (by positivity) (one_div_le_one_div_of_le (by norm_num) h)
  refine ((rfD_deriv bIR1 hp).comp x (inv_deriv' hx)).congr_deriv ?_
  ring

theorem bIR1_deriv2 {x : ℝ} (h : 15 ≤ x) : HasDerivAt (fun x => -(1 / x) ^ 2 * rfD bIR1 (1 / x)) (2 * (1 / x) ^ 3 * rfD bIR1 (1 / x) + (1 / x) ^ 4 * rfD (rfDer bIR1) (1 / x)) x := by
  have hx : 0 < x := by linarith
  have hp := bIR1_pos (t := 1 / x) (by positivity) (one_div_le_one_div_of_le (by norm_num) h)
  have hp2 : 0 < polyEval (rfDer bIR1).2 (1 / x) := by
    simp only [rfDer, polyEval_mul]
    positivity
  have hd : HasDerivAt (fun x => rfD bIR1 (1 / x)) (rfD (rfDer bIR1) (1 / x) * -(1 / x) ^ 2) x := by
    have := (rfD_deriv (rfDer bIR1) hp2).comp x (inv_deriv' hx)
    refine this.congr_of_eventuallyEq (Eventually.of_forall fun y => ?_)
    simp only [Function.comp, rfDer_eval]
  refine ((((inv_deriv' hx).pow 2).neg).mul hd).congr_deriv ?_
  simp only [Pi.neg_apply, Pi.pow_apply]
  push_cast
  ring

theorem bIe1_15 : |rfEval bIR1 (1 / 15) - besG 15 * besselI 1 15| + |-(1 / 15) ^ 2 * rfD bIR1 (1 / 15) - besP1 15| ≤ 2 / 10 ^ 15 := by
  have a := abs_le.1 bIR1_at
  have b := abs_le.1 bIRd1_at
  have c := abs_le.1 (mul_near besG15_near besselI_1_15_near)
  have i0 := abs_le.1 besselI_0_15_near
  have i1 := abs_le.1 besselI_1_15_near
  have hin : |(besselI 0 15 - besselI 1 15 - besselI 1 15 * (1 / (2 * 15))) - 5869539287006028968802020 / 10 ^ 22| ≤ 1 / 10 ^ 17 := by
    norm_num at i0 i1
    norm_num [abs_le]
    constructor <;> linarith [i0.1, i0.2, i1.1, i1.2]
  have f := abs_le.1 (mul_near besG15_near hin)
  have x1 : |rfEval bIR1 (1 / 15) - besG 15 * besselI 1 15| ≤ 5 / 10 ^ 16 := by
    generalize besG 15 * besselI 1 15 = v at *
    norm_num [abs_div] at a c
    norm_num [abs_le]
    constructor <;> linarith [a.1, a.2, c.1, c.2]
  have x2 : |-(1 / 15) ^ 2 * rfD bIR1 (1 / 15) - besP1 15| ≤ 15 / 10 ^ 16 := by
    unfold besP1
    generalize besG 15 * (besselI 0 15 - besselI 1 15 - besselI 1 15 * (1 / (2 * 15))) = v at *
    norm_num [abs_div] at b f
    norm_num [abs_le]
    constructor <;> linarith [b.1, b.2, f.1, f.2]
  norm_num at x1 x2 ⊢
  linarith

theorem bIR1_err {x : ℝ} (h : 15 ≤ x) : |rfEval bIR1 (1 / x) - besG x * besselI 1 x| ≤ 102 / 10 ^ 16 := by
  have hd := damp_bound (e := fun x => rfEval bIR1 (1 / x) - besG x * besselI 1 x) (p := fun x => -(1 / x) ^ 2 * rfD bIR1 (1 / x) - besP1 x)
    (γ := fun x => 2 * (1 / x) * rfD bIR1 (1 / x) + (1 / x) ^ 2 * rfD (rfDer bIR1) (1 / x) - 2 * rfD bIR1 (1 / x) - (3 / 4) * rfEval bIR1 (1 / x)) (c := 3 / 4) (α := 115 / 10 ^ 15) (β := 780 / 10 ^ 15)
    h (fun y hy => (bIR1_deriv hy).sub (besW1_deriv (by linarith))) (fun y hy => ?_) (by norm_num [abs_div]) (by norm_num) (by norm_num)
    (fun y hy => bIR1_res (by positivity) (one_div_le_one_div_of_le (by norm_num) hy)) bIe1_15
  · refine hd.trans ?_
    norm_num
  · refine ((bIR1_deriv2 hy).sub (besP1_deriv (by linarith))).congr_deriv ?_
    ring

theorem bIR0_eq (x : ℝ) : besI0Scaled x = .ok (rfEval bIR0 (1 / x) / √x) := by
  simp only [besI0Scaled, modPoly, modPolyLoop, modI0PP, modI0QQ, List.getElem?_cons_succ, List.getElem?_cons_zero]
  show Res.ok _ = _
  congr 1
  unfold rfEval
  have e1 : polyEval bIR0.1 (1 / x) = 20000000000000000000 * (((((2.023821945835647e-4) * (1 - 15 / x) + 8.474903580801549e-3) * (1 - 15 / x) + 7.629241821600588e-2) * (1 - 15 / x) + 1.947452015979746e-1) * (1 - 15 / x) + 1.192273748120670e-1) := by
    simp only [bIR0, polyEval]; push_cast; norm_num only; ring
  have e2 : polyEval bIR0.2 (1 / x) = 20000000000000000000 * ((((((1.529835782400450e-6) * (1 - 15 / x) + 6.450448095075585e-4) * (1 - 15 / x) + 2.261671093400046e-2) * (1 - 15 / x) + 1.938352806477617e-1) * (1 - 15 / x) + 4.866115913196384e-1) * (1 - 15 / x) + 2.962898424533095e-1) := by
    simp only [bIR0, polyEval]; push_cast; norm_num only; ring
  rw [e1, e2, mul_div_mul_left _ _ (by norm_num), div_div]

theorem bIR1_eq (x : ℝ) : besI1Scaled x = .ok (rfEval bIR1 (1 / x) / √x) := by
  simp only [besI1Scaled, modPoly, modPolyLoop, modI1PP, modI1QQ, List.getElem?_cons_succ, List.getElem?_cons_zero]
  show Res.ok _ = _
  congr 1
  unfold rfEval
  have e1 : polyEval bIR1.1 (1 / x) = 1000000000000000000000 * (((((1.963602129240502e-4) * (1 - 15 / x) + 7.345978783504595e-3) * (1 - 15 / x) + 6.965689298161343e-2) * (1 - 15 / x) + 1.930915272916783e-1) * (1 - 15 / x) + 1.286515211317124e-1) := by
    simp only [bIR1, polyEval]; push_cast; norm_num only; ring
  have e2 : polyEval bIR1.2 (1 / x) = 1000000000000000000000 * ((((((-1.034524660214173e-6) * (1 - 15 / x) + 1.964131438571051e-4) * (1 - 15 / x) + 1.473541892809522e-2) * (1 - 15 / x) + 1.663088501568696e-1) * (1 - 15 / x) + 4.878218424097628e-1) * (1 - 15 / x) + 3.309385098860755e-1) := by
    simp only [bIR1, polyEval]; push_cast; norm_num only; ring
  rw [e1, e2, mul_div_mul_left _ _ (by norm_num), div_div]

theorem bes_large {x R w b c : ℝ} (hx : 0 < x) (hw : w = besG x * b) (hR : 38 / 100 ≤ R) (he : |R - w| ≤ c) (hc : c ≤ 1 / 100) :
    |exp (x / 2) * (R / √x) * exp (x / 2) - b| ≤ c / (37 / 100) * b := by
  have hs : 0 < √x := sqrt_pos.2 hx
  obtain ⟨k, hk⟩ : ∃ k, k = exp x / √x := ⟨_, rfl⟩
  have hk0 : 0 < k := by rw [hk]; positivity
  have e1 : exp (x / 2) * (R / √x) * exp (x / 2) = R * k := by
    rw [hk, show exp x = exp (x / 2) * exp (x / 2) by rw [← exp_add]; congr 1; ring]
    ring
  have e2 : b = w * k := by
    rw [hw, hk, besG, exp_neg]
    field_simp
  have hw2 := abs_le.1 he
  have hc0 : 0 ≤ c := (abs_nonneg _).trans he
  have hw3 : 37 / 100 ≤ w := by linarith [hw2.2]
  rw [e1, e2, ← sub_mul, abs_mul, abs_of_pos hk0, ← mul_assoc]
  refine mul_le_mul_of_nonneg_right (he.trans ?_) hk0.le
  rw [div_mul_eq_mul_div, le_div_iff₀ (by norm_num)]
  exact mul_le_mul_of_nonneg_left hw3 hc0

theorem besI0Large_eq (x : ℝ) : besI0Large x = .ok (exp (|x| / 2) * (rfEval bIR0 (1 / |x|) / √|x|) * exp (|x| / 2)) := by
  show (do let s ← besI0Scaled |x|; Res.ok (exp (|x| / 2) * s * exp (|x| / 2))) = _
  rw [bIR0_eq]
  rfl

theorem besI1Large_eq (x : ℝ) : besI1Large x =
    .ok (if x > 0 then exp (|x| / 2) * (rfEval bIR1 (1 / |x|) / √|x|) * exp (|x| / 2) else -(exp (|x| / 2) * (rfEval bIR1 (1 / |x|) / √|x|) * exp (|x| / 2))) := by
  show (do let s ← besI1Scaled |x|; Res.ok (if x > 0 then exp (|x| / 2) * s * exp (|x| / 2) else -(exp (|x| / 2) * s * exp (|x| / 2)))) = _
  rw [bIR1_eq]
  rfl

theorem besI0Large_acc {x : ℝ} (h : 15 ≤ |x|) : ∃ y, besI0Large x = .ok y ∧ |y - besselI 0 (|x|)| ≤ 2 / 10 ^ 14 * besselI 0 (|x|) := by
  refine ⟨_, besI0Large_eq x, ?_⟩
  have hx : 0 < |x| := by linarith
  refine (bes_large hx rfl (bIR0_ge (by positivity) (one_div_le_one_div_of_le (by norm_num) h)) (bIR0_err h) (by norm_num)).trans ?_
  have := besselI_pos 0 hx
  refine mul_le_mul_of_nonneg_right (by norm_num) this.le

theorem besI1Large_acc {x : ℝ} (h : 15 ≤ |x|) : ∃ y, besI1Large x = .ok (if x > 0 then y else -y) ∧ |y - besselI 1 (|x|)| ≤ 3 / 10 ^ 14 * besselI 1 (|x|) := by
  refine ⟨_, besI1Large_eq x, ?_⟩
  have hx : 0 < |x| := by linarith
  refine (bes_large hx rfl (bIR1_ge (by positivity) (one_div_le_one_div_of_le (by norm_num) h)) (bIR1_err h) (by norm_num)).trans ?_
  have := besselI_pos 1 hx
  refine mul_le_mul_of_nonneg_right (by norm_num) this.le

theorem besselI_zero_at : besselI 0 0 = 1 := by
  unfold besselI bes
  rw [tsum_eq_single 0]
  · simp [besTerm]
  · intro m hm
    simp [besTerm, hm]

theorem besselI_one_at : besselI 1 0 = 0 := by
  unfold besselI bes
  simp [besTerm]

theorem besselI_zero_abs (x : ℝ) : besselI 0 (|x|) = besselI 0 x := by
  rcases abs_choice x with h | h <;> rw [h]
  unfold besselI
  rw [bes_neg]
  simp

theorem besselI_zero_pos (x : ℝ) : 0 < besselI 0 x := by
  rcases eq_or_ne x 0 with rfl | hx
  · rw [besselI_zero_at]; norm_num
  · rw [← besselI_zero_abs]; exact besselI_pos 0 (abs_pos.2 hx)

/-! ## C119 -/

/-- C119: `bessel_i0` is within `10⁻¹⁵` of `I₀(x)`, relatively, for `|x| < 15` and within `2 · 10⁻¹⁴` for all other real arguments -/
theorem C119_i0_accurate (x : ℝ) : ∃ y, besselI0F (.fin x) = .ok (.fin y) ∧ |y - besselI 0 x| ≤ (if |x| < 15 then 1 / 10 ^ 15 else 2 / 10 ^ 14) * besselI 0 x := by
  rcases eq_or_ne x 0 with rfl | hx
  · exact ⟨1, by simp [besselI0F], by rw [besselI_zero_at]; norm_num⟩
  by_cases h : |x| < 15
  · obtain ⟨y, e, hy⟩ := besI0Small_acc h.le
    refine ⟨y, ?_, by rw [if_pos h]; exact hy⟩
    simp only [besselI0F, hx, h, e, if_true, if_false]
    rfl
  · obtain ⟨y, e, hy⟩ := besI0Large_acc (not_lt.1 h)
    rw [besselI_zero_abs] at hy
    refine ⟨y, ?_, by rw [if_neg h]; exact hy⟩
    simp only [besselI0F, hx, h, e, if_false]
    rfl

/-- C119: `bessel_i1` is within `10⁻¹⁵` of `I₁(x)`, relatively, for `|x| < 15` and within `3 · 10⁻¹⁴` for all other real arguments -/
theorem C119_i1_accurate (x : ℝ) : ∃ y, besselI1F (.fin x) = .ok (.fin y) ∧ |y - besselI 1 x| ≤ (if |x| < 15 then 1 / 10 ^ 15 else 3 / 10 ^ 14) * |besselI 1 x| := by
  rcases eq_or_ne x 0 with rfl | hx
  · exact ⟨0, by simp [besselI1F], by rw [besselI_one_at]; norm_num⟩
  by_cases h : |x| < 15
  · obtain ⟨y, e, hy⟩ := besI1Small_acc h.le
    refine ⟨y, ?_, by rw [if_pos h]; exact hy⟩
    simp only [besselI1F, hx, h, e, if_true, if_false]
    rfl
  · obtain ⟨y, e, hy⟩ := besI1Large_acc (not_lt.1 h)
    refine ⟨if x > 0 then y else -y, ?_, ?_⟩
    · simp only [besselI1F, hx, h, e, if_false]
      rfl
    · rw [if_neg h]
      rcases lt_or_gt_of_ne hx with h0 | h0
      · rw [if_neg (not_lt.2 h0.le)]
        have e1 : besselI 1 x = -besselI 1 (|x|) := by
          rw [abs_of_neg h0]
          unfold besselI
          rw [bes_neg]
          simp
        rw [e1, abs_neg, abs_of_pos (besselI_pos 1 (abs_pos.2 hx)), neg_sub_neg]
        exact (abs_sub_comm _ _).trans_le hy
      · rw [if_pos h0]
        rw [abs_of_pos h0] at hy
        rw [abs_of_pos (besselI_pos 1 h0)]
        exact hy

/-- C119: `bessel_i0` is even and `bessel_i1` odd on the nonzero numbers -/
theorem C119_parity (x : ℝ) : besselI0F (.fin (-x)) = besselI0F (.fin x) ∧
    ∀ y, besselI1F (.fin x) = .ok (.fin y) → besselI1F (.fin (-x)) = .ok (.fin (-y)) := by
  constructor
  · simp only [besselI0F, besI0Small, besI0Large, neg_eq_zero, abs_neg, neg_mul_neg]
  · intro y hy
    rcases eq_or_ne x 0 with rfl | hx
    · simp only [besselI1F, if_true, neg_zero] at hy ⊢
      injection hy with hy
      injection hy with hy
      rw [← hy, neg_zero]
    · by_cases h : |x| < 15
      · simp only [besselI1F, neg_eq_zero, abs_neg, hx, h, if_true, if_false, bIS1_eq, neg_sq] at hy ⊢
        injection hy with hy
        injection hy with hy
        rw [← hy, neg_mul]
        rfl
      · have e := besI1Large_eq x
        have e' := besI1Large_eq (-x)
        rw [abs_neg] at e'
        generalize exp (|x| / 2) * (rfEval bIR1 (1 / |x|) / √|x|) * exp (|x| / 2) = z at e e'
        simp only [besselI1F, neg_eq_zero, abs_neg, hx, h, if_false, e, e'] at hy ⊢
        injection hy with hy
        injection hy with hy
        rw [← hy]
        show Res.ok _ = _
        congr 2
        rcases lt_or_gt_of_ne hx with h0 | h0
        · rw [if_pos (by linarith), if_neg (by linarith), neg_neg]
        · rw [if_neg (by linarith), if_pos h0]

/-- C119: the documented special values: NaN for NaN, `I₀(0) = 1` and `I₁(0) = 0` (also for `-0`) -/
theorem C119_special : besselI0F .nan = .ok .nan ∧ besselI1F .nan = .ok .nan ∧ besselI0F (.fin 0) = .ok (.fin 1) ∧ besselI0F .negZero = .ok (.fin 1) ∧
    besselI1F (.fin 0) = .ok (.fin 0) ∧ besselI1F .negZero = .ok (.fin 0) := by
  simp [besselI0F, besselI1F]

/-- `bessel_i0(x)` (bessel_mod.rs:23-38) -/
noncomputable def codeI0 (x : ℝ) : ℝ := finVal (besselI0F (.fin x))

/-- `bessel_i1(x)` (bessel_mod.rs:72-88) -/
noncomputable def codeI1 (x : ℝ) : ℝ := finVal (besselI1F (.fin x))

/-- C119: `bessel_in`, which scales its backward recurrence with the value of `bessel_i0`, returns `I_n(x)` with a relative error of at most
`3 · 10⁻¹⁴` -/
theorem C119_in_accurate (n : ℕ) (x : ℝ) (hsmall : 8 * f64MinPos < x * x) (hx : |x| ≤ 1400 ∨ |x| ≤ n + 1) :
    |besselIn codeI0 codeI1 n x - besselI n x| ≤ 3 / 10 ^ 14 * |besselI n x| := by
  obtain ⟨y, e, hy⟩ := C119_i0_accurate x
  have ey : codeI0 x = y := by unfold codeI0; rw [e]; rfl
  have hI := besselI_zero_pos x
  have hy2 : |y - besselI 0 x| ≤ 2 / 10 ^ 14 * besselI 0 x := hy.trans (mul_le_mul_of_nonneg_right (by split_ifs <;> norm_num) hI.le)
  match n with
  | 0 =>
    rw [abs_of_pos hI]
    simp only [besselIn, if_true, ey]
    exact hy2.trans (mul_le_mul_of_nonneg_right (by norm_num) hI.le)
  | 1 =>
    obtain ⟨z, e1, hz⟩ := C119_i1_accurate x
    have ez : codeI1 x = z := by unfold codeI1; rw [e1]; rfl
    simp only [besselIn, one_ne_zero, if_true, if_false, ez]
    exact hz.trans (mul_le_mul_of_nonneg_right (by split_ifs <;> norm_num) (abs_nonneg _))
  | n + 2 =>
    have h := C109_in_accurate codeI0 codeI1 (n + 2) (by omega) x hsmall hx
    have eI : ∀ k, (∑' m : ℕ, (x / 2) ^ (2 * m + k) / ((m.factorial : ℝ) * ((m + k).factorial : ℝ))) = besselI k x := by
      intro k; unfold besselI bes besTerm; simp
    rw [eI, eI, ey] at h
    obtain ⟨r, hr⟩ : ∃ r, r = y / besselI 0 x := ⟨_, rfl⟩
    have hr1 : |r - 1| ≤ 2 / 10 ^ 14 := by
      rw [hr, div_sub_one hI.ne', abs_div, abs_of_pos hI, div_le_iff₀ hI]
      exact hy2
    rw [← hr] at h
    generalize besselI (n + 2) x = v at *
    generalize besselIn codeI0 codeI1 (n + 2) x = u at *
    have hr2 := abs_le.1 hr1
    rw [abs_mul] at h
    have a1 : |r| ≤ 2 := by rw [abs_le]; norm_num at hr2 ⊢; constructor <;> linarith [hr2.1, hr2.2]
    have a2 := abs_sub_le u (r * v) v
    have a3 : |r * v - v| ≤ 2 / 10 ^ 14 * |v| := by
      rw [← sub_one_mul, abs_mul]
      exact mul_le_mul_of_nonneg_right hr1 (abs_nonneg v)
    have a4 := mul_le_mul_of_nonneg_right a1 (abs_nonneg v)
    have hv := abs_nonneg v
    norm_num at h a3 ⊢
    linarith

/-- C119: what is meant by `I_n(x)`: the sum of the power series -/
theorem C119_spec (n : ℕ) (x : ℝ) : HasSum (fun m : ℕ => (x / 2) ^ (2 * m + n) / ((m.factorial : ℝ) * ((m + n).factorial : ℝ))) (besselI n x) := by
  have := (besTerm_summable 1 n (x / 2)).hasSum
  unfold besselI bes
  convert this using 2 with m
  unfold besTerm
  rw [one_pow, one_mul]

example : ∃ y, besselI0F (.fin 2) = .ok (.fin y) ∧ |y - besselI 0 2| ≤ 1 / 10 ^ 15 * besselI 0 2 := by
  obtain ⟨y, e, h⟩ := C119_i0_accurate 2
  exact ⟨y, e, by rw [if_pos (by norm_num)] at h; exact h⟩

example : ∃ y, besselI1F (.fin (-30)) = .ok (.fin y) ∧ |y - besselI 1 (-30)| ≤ 3 / 10 ^ 14 * |besselI 1 (-30)| := by
  obtain ⟨y, e, h⟩ := C119_i1_accurate (-30)
  exact ⟨y, e, by rw [if_neg (by norm_num)] at h; exact h⟩

example : |besselIn codeI0 codeI1 7 20 - besselI 7 20| ≤ 3 / 10 ^ 14 * |besselI 7 20| :=
  C119_in_accurate 7 20 (by
    have h : f64MinPos ≤ 1 := by
      unfold f64MinPos
      rw [div_le_one (by positivity)]
      exact one_le_pow₀ (by norm_num)
    linarith) (Or.inl (by norm_num))

end Russell.Lab
