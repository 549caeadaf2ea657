import Verif.Lab.BesselKOde
import Verif.Lab.BesselI01

/-!
# Modified Bessel functions `K₀` and `K₁`: model and arguments above one (for property C120)

/repo/russell_lab/src/math/bessel_mod.rs. Arithmetic, `exp` and `sqrt` are the real ones; the coefficients are the decimals of the source.
-/

set_option linter.unusedSimpArgs false

namespace Russell.Lab

open Russell Real Set Filter Topology

/-- bessel_mod.rs:386 -/
noncomputable def modK0PI : List ℝ := [1, 2.346487949187396e-1, 1.187082088663404e-2, 2.150707366040937e-4, 1.425433617130587e-6]

/-- bessel_mod.rs:394 -/
noncomputable def modK0QI : List ℝ := [9.847324170755358e-1, 1.518396076767770e-2, 8.362215678646257e-5]

/-- bessel_mod.rs:396 -/
noncomputable def modK0P : List ℝ := [1.159315156584126e-1, 2.770731240515333e-1, 2.066458134619875e-2, 4.574734709978264e-4, 3.454715527986737e-6]

/-- bessel_mod.rs:404 -/
noncomputable def modK0Q : List ℝ := [9.836249671709183e-1, 1.627693622304549e-2, 9.809660603621949e-5]

/-- bessel_mod.rs:406 -/
noncomputable def modK0PP : List ℝ := [1.253314137315499, 1.475731032429900e1, 6.123767403223466e1, 1.121012633939949e2, 9.285288485892228e1, 3.198289277679660e1, 3.595376024148513, 6.160228690102976e-2]

/-- bessel_mod.rs:417 -/
noncomputable def modK0QQ : List ℝ := [1, 1.189963006673403e1, 5.027773590829784e1, 9.496513373427093e1, 8.318077493230258e1, 3.181399777449301e1, 4.443672926432041, 1.408295601966600e-1]

/-- bessel_mod.rs:428 -/
noncomputable def modK1PI : List ℝ := [0.5, 5.598072040178741e-2, 1.818666382168295e-3, 2.397509908859959e-5, 1.239567816344855e-7]

/-- bessel_mod.rs:436 -/
noncomputable def modK1QI : List ℝ := [9.870202601341150e-1, 1.292092053534579e-2, 5.881933053917096e-5]

/-- bessel_mod.rs:438 -/
noncomputable def modK1P : List ℝ := [(-3.079657578292062e-1), (-8.109417631822442e-2), (-3.477550948593604e-3), (-5.385594871975406e-5), (-3.110372465429008e-7)]

/-- bessel_mod.rs:446 -/
noncomputable def modK1Q : List ℝ := [9.861813171751389e-1, 1.375094061153160e-2, 6.774221332947002e-5]

/-- bessel_mod.rs:448 -/
noncomputable def modK1PP : List ℝ := [1.253314137315502, 1.457171340220454e1, 6.063161173098803e1, 1.147386690867892e2, 1.040442011439181e2, 4.356596656837691e1, 7.265230396353690, 3.144418558991021e-1]

/-- bessel_mod.rs:459 -/
noncomputable def modK1QQ : List ℝ := [1, 1.125154514806458e1, 4.427488496597630e1, 7.616113213117645e1, 5.863377227890893e1, 1.850303673841586e1, 1.857244676566022, 2.538540887654872e-2]

/-- `bessel_k0` for `x > 1` (bessel_mod.rs:203-204) -/
noncomputable def besK0Large (x : ℝ) : Res ℝ := do
  let z := 1 / x
  let p ← modPoly modK0PP 7 z
  let q ← modPoly modK0QQ 7 z
  .ok (exp (-x) * p / (q * √x))

/-- `bessel_k1` for `x > 1` (bessel_mod.rs:241-242) -/
noncomputable def besK1Large (x : ℝ) : Res ℝ := do
  let z := 1 / x
  let p ← modPoly modK1PP 7 z
  let q ← modPoly modK1QQ 7 z
  .ok (exp (-x) * p / (q * √x))

/-- `bessel_k0` for `x ≤ 1` (bessel_mod.rs:198-200) -/
noncomputable def besK0Small (x : ℝ) : Res ℝ := do
  let z := x * x
  let pi ← modPoly modK0PI 4 z
  let qi ← modPoly modK0QI 2 (1 - z)
  let term := pi * log x / qi
  let p ← modPoly modK0P 4 z
  let q ← modPoly modK0Q 2 (1 - z)
  .ok (p / q - term)

/-- `bessel_k1` for `x ≤ 1` (bessel_mod.rs:236-238) -/
noncomputable def besK1Small (x : ℝ) : Res ℝ := do
  let z := x * x
  let pi ← modPoly modK1PI 4 z
  let qi ← modPoly modK1QI 2 (1 - z)
  let term := pi * log x / qi
  let p ← modPoly modK1P 4 z
  let q ← modPoly modK1Q 2 (1 - z)
  .ok (x * (p / q + term) + 1 / x)

/-- `bessel_k0` (bessel_mod.rs:190-205). At `∞` the source computes `0 * poly(0) / (poly(0) * ∞)`, which is 0 -/
noncomputable def besselK0F : FArg → Res FArg
  | .nan => .ok .nan
  | .negInf => .ok .nan
  | .posInf => .ok (.fin 0)
  | .negZero => .ok .posInf
  | .fin x =>
    if x < 0 then .ok .nan
    else if x = 0 then .ok .posInf
    else if x ≤ 1 then (do let y ← besK0Small x; .ok (.fin y))
    else (do let y ← besK0Large x; .ok (.fin y))

/-- `bessel_k1` (bessel_mod.rs:228-243). At `∞` the source computes `0 * poly(0) / (poly(0) * ∞)`, which is 0 -/
noncomputable def besselK1F : FArg → Res FArg
  | .nan => .ok .nan
  | .negInf => .ok .nan
  | .posInf => .ok (.fin 0)
  | .negZero => .ok .posInf
  | .fin x =>
    if x < 0 then .ok .nan
    else if x = 0 then .ok .posInf
    else if x ≤ 1 then (do let y ← besK1Small x; .ok (.fin y))
    else (do let y ← besK1Large x; .ok (.fin y))

/-- `2 t f' + t² f'' + 2 f' - c f / 4` -/
def kGam (c : ℤ) (f : RF) : RF :=
  (addL (addL (smulL 8 (mulL [1, 1] (mulL (quotD 1 f.1 f.2) (mulL f.2 f.2)))) (smulL 4 (0 :: 0 :: quotD 1 (quotD 1 f.1 f.2) (mulL f.2 f.2))))
    (smulL (-c) (mulL (mulL f.1 f.2) (mulL f.2 f.2))), smulL 4 (mulL (mulL f.2 f.2) (mulL f.2 f.2)))

theorem kGam_eval (c : ℤ) {f : RF} {t : ℝ} (hf : 0 < polyEval f.2 t) :
    rfEval (kGam c f) t = 2 * t * rfD f t + t ^ 2 * rfD (rfDer f) t + 2 * rfD f t - c / 4 * rfEval f t ∧ 0 < polyEval (kGam c f).2 t := by
  simp only [kGam, rfEval, rfD, rfDer, polyEval_add, polyEval_mul, polyEval_smul, polyEval]
  generalize polyEval f.2 t = a at *
  refine ⟨?_, by push_cast; positivity⟩
  push_cast
  field_simp
  ring

theorem sqrt_half_pi_near : |√(π / 2) - 12533141373155002512 / 10 ^ 19| ≤ 1 / 10 ^ 18 := by
  have h1 := pi_gt_d20
  have h2 := pi_lt_d20
  have a : 12533141373155002503 / 10 ^ 19 ≤ √(π / 2) := by
    apply le_sqrt_of_sq_le
    norm_num at h1 ⊢
    linarith
  have b : √(π / 2) ≤ 12533141373155002521 / 10 ^ 19 := by
    rw [sqrt_le_left (by norm_num)]
    norm_num at h2 ⊢
    linarith
  norm_num [abs_le] at a b ⊢
  constructor <;> linarith

theorem kSize_deriv (a d b t : ℝ) : HasDerivAt (fun t : ℝ => a + d * (1 - t) ^ 40 + b * t ^ 40) (-40 * d * (1 - t) ^ 39 + 40 * b * t ^ 39) t := by
  have h1 := (((hasDerivAt_id t).const_sub 1).pow 40).const_mul d
  have h2 := ((hasDerivAt_id t).pow 40).const_mul b
  refine ((h1.const_add a).add h2).congr_deriv ?_
  simp only [id_eq]
  push_cast
  ring

theorem kInt_deriv (a d b t : ℝ) : HasDerivAt (fun t : ℝ => a * t - d * (1 - t) ^ 41 / 41 + b * t ^ 41 / 41) (a + d * (1 - t) ^ 40 + b * t ^ 40) t := by
  have h0 := (hasDerivAt_id t).const_mul a
  have h1 := ((((hasDerivAt_id t).const_sub 1).pow 41).const_mul d).div_const 41
  have h2 := (((hasDerivAt_id t).pow 41).const_mul b).div_const 41
  refine ((h0.sub h1).add h2).congr_deriv ?_
  simp only [id_eq]
  push_cast
  ring

def kR0 : RF := ([31332853432887475, 368932758107475000, 1530941850805866500, 2802531584849872500, 2321322121473057000, 799572319419915000, 89884400603712825, 1540057172525744], [25000000000000000, 297490751668350750, 1256943397707446000, 2374128343356773250, 2079519373307564500, 795349944362325250, 111091823160801025, 3520739004916500])

def kB0 : List ℤ := [2430, -81570, 1512000, -17472000, 140049000, -806059800, 3224239200, -6909084000, -14681803500, 233277544500, -1378131955200, 5825739628800, -19823697348000, 56856978108000, -140788707696000, 305403196694400, -586032995784600, 1001566725705000, -1532112407280000, 2105292440160000, -2605299394698000, 2908561758102000, -2932371613080000, 2670844601880000, -2197235530035000, 1631389150427400, -1091653979673600, 657013969248000, -354679244388000, 171131101596000, -73469049763200, 27907172092800, -9313157353500, 2706345778500, -677090232000, 143708947200, -25371691800, 3625713000, -402948000, 32676000, -1718900, 65100]

theorem kB0_eval (t : ℝ) : polyEval kB0 t / 1000000000000000 = 2 * (1 + t) * (165 / 10 ^ 15 + 1050 / 10 ^ 15 * (1 - t) ^ 40 + 500 / 10 ^ 15 * t ^ 40) + t ^ 2 * (-40 * (1050 / 10 ^ 15) * (1 - t) ^ 39 + 40 * (500 / 10 ^ 15) * t ^ 39) := by
  simp only [kB0, polyEval]; push_cast; norm_num only; ring

def kg0p : List ℤ := [7243033104282090718750000000000000000000000000000000000000000000000000, -1094197538451862851505167284024431875000000000000000000000000000000000000, 94723867924981348573312323081064699289625646260396875000000000000000000000, -2777078354527986476784366818074409555255941982864287109375000000000000000000, 28266404890827172156398529188693797812020608596247864361081726450468750000000, 53874499491035050441288541702384430295737127494714976068523654152968750000000, -2259229724063877160349529250848568876819759942085681388321363412371875000000000, 5159143119539629131925323281316874606255665660076810848124152005854375000000000, 61274655773884621382845802890987309877647918528011897831664260101822812500000000, -211127074188857311357546734061614344264195315902337671739243601610892125000000000, -766450969526746956158610372802695549872981525971176335477107444693415937500000000, 3132211137934203100679452918792657728926535286626278908955677698632140562500000000, 4887433566053409716678038384936278372065384441140409419017485922417546906250000000, -22749867018399957691552360249573703656880276590756422356804986370799879406250000000, -16458418875692419940431081124955057273311906818439349536275148867565623496875000000, 88142724587661047311774442129528509949896080901506521990422902521490817740625000000, 31672873500929514905912399243011294355598797115957962889942125666926203693750000000, -187623393198113886938626105567802084806832737271329327870148804966566449081250000000, -44413053497849844416335059112912931788724412543650102541327739140583835378125000000, 217739146875590333044427108746745308888698632492490904065907252803638795240000000000, 54759782527599898842183230074476796105267829772680582116056829909118902563125000000, -125075015184691617125462957747245967033896906688598589011122476851030964543125000000, -33539611880183826995207655982381499267760185385345181808697544229185713595000000000, -3049839470543704760548717350900429731249604234093533316909800005490839742500000000, -7453705295847498219559397296960087360401293685680792713752892176911537861828125000, 120806634564021080451031656402805159057717604508587627243305365248693832041296875000, -86485644911751522665742545428099377660258989858608062004754075016997014570000000000, -177160319831066409833266123205405036053358086827068743192548299720870788837500000000, 425218521984430314413386834286858964416945503724487306961387391874921088532812500000, -164339630683046643132832437361157662496079319301286281098803148768549476537187500000, -602973372541647092093001426167053067874364408645374217276101200698455844901250000000, 991319226531202941393420618513219585066507686908237712178299376395075611106250000000, -184603184417798154396467275110618455116168483158569258582725299273862666736718750000, -1208320797801228713715309528432678555298589944746198750577917042751685786449218750000, 1519862614597521145342907412807952177511239506978631128384809262975313638645000000000, -128237780608470445465254278731676273376310073510005495115009095063024098030000000000, -1501587949154067948283347225768712411211540391924889166681295088866964416131250000000, 1540895587490199948569681260633229693938977304263576442870752196369816668693750000000, -68139327748286310523885850709233121757167822365725840177818575966381054737500000000, -1174047387463536899468929548303195047866623949750469996895986781175800183352500000000, 1021149988114216543882588440840677260848071196902246560460071560068517234399062500000, -37652506674146660128908488745719708456396359081475583104353953530955828435937500000, -574674213936678625962162658763637959420441361255258562654631529723636567062500000000, 429757644914994916953218806028252339535115117572291255087972005091469328625000000000, -15522875417139375967470611547517374177069266848380479135414132527152238953125000000, -174130284713416466797679007977000886564558008748212907116780383216887774228125000000, 110129975437653036281650865568641360444749517323028729812538238575158706831250000000, -2090130157419128481771575072652841365707826512596999229028353691746922318750000000, -32619342820526535504115546321597369468489498374015340470539056738408358454687500000, 16562393266364010596182709648836394779975900028945300685502786023467475505312500000, 347084755376708947802751857566469002302725246872427452585378295343292328750000000, -3670443894011219044353206874386061880692578603992206752457609964671380612500000000, 1391660654698980033714271405530358415025183937335007395123116415620044725000000000, 150036860352890100208893691885417066901921463662930586358117970044843162500000000, -196825281019263350623870404620887867496665157756765115803420765496142498750000000, 87643917461406801886903538557683944663028549808971489447374097604829263750000000, 37284610042461309509833967183583816575944283393263339704215249077561241406250000, 9170720744629354422517850007757314228289387650030876592101172039038541406250000, 8711520475668080626628804181996044598696928924149196282240159425550718750000000, 3652315895592854812918181973481431859361155390688417106538363693875655000000000, 959551645941578092568439174804450376236746213049848901706096531756900312500000, 247481498254240853142919399421817145163117484465952645502242922012045312500000, 52220797583300202697848107996290213430330403342794483463245935447056250000000, 7080271140755616705619948225808504972702910988883928778037956362643750000000, 655845905008105787731307005949019666865028784396454617038143449407968750000, 52429668870205396860757044341519010674653834408739570415496153039218750000, 3566287131456745893050591696101496952215550846454251021059425162500000000, 161913493465869942731983840267167123168051839948435615934757125000000000, 3993478065148795755374170478469267336872536860308984003610000000000000, 40010714468799914969242952103654795591592147293822124275000000000000]

theorem kg0p_0 : chkPiece kg0p 4096 0 1024 = true := by decide +kernel

theorem kg0p_1 : chkPiece kg0p 4096 1024 2048 = true := by decide +kernel

theorem kg0p_2 : chkPiece kg0p 4096 2048 3072 = true := by decide +kernel

theorem kg0p_3 : chkPiece kg0p 4096 3072 3584 = true := by decide +kernel

theorem kg0p_4 : chkPiece kg0p 4096 3584 4096 = true := by decide +kernel

theorem kg0p_chk : chkChain kg0p 4096 0 [1024, 2048, 3072, 3584, 4096] = true := chk_cons kg0p_0 (chk_cons kg0p_1 (chk_cons kg0p_2 (chk_cons kg0p_3 (chk_cons kg0p_4 rfl))))

theorem kg0p_lit : addL (mulL kB0 (kGam (-1) kR0).2) (smulL (1000000000000000) (kGam (-1) kR0).1) = kg0p := by decide +kernel

def kg0m : List ℤ := [350716895717909281250000000000000000000000000000000000000000000000000, 1200742551728909012755167284024431875000000000000000000000000000000000000, -94153137523334682633766871576701193039625646260396875000000000000000000000, 2788132098016777866048022138567028607794893220859412109375000000000000000000, -28086276868681842727258954487229183271423800331194941888918273549531250000000, -52596864582087982198065192677482963423750608759378424712726345847031250000000, 2264329217599044264981910968079031116681793234544439306991136587628125000000000, -5136923420074071198010435111904951835492632158917894187500847994145625000000000, -61161861995345502894951229188009120259502350892990015999663864898177187500000000, 211415206728312788952773323431634094543853681410619724217193898389107875000000000, 766603746435501389777624427534758712434972552798995565674423805306584062500000000, -3131109668702220560974454024957952061718140860743731552260541051367859437500000000, -4880987030815626232369132241678080915412860044146492064914310952582453093750000000, 22744292626218520939493070895165572990646215852911517296188458941700120593750000000, 16427383825022389210880793372693034940780402445814680842670573007434376503125000000, -88026986382056811146337364128643669815414177661097476263166817791009182259375000000, -31601224139780553584278048318008363188382206429905874421827855583073796306250000000, 186758496172606732991895130456448914427201393145392585039819724720933550918750000000, 45321556116722633022709144092055559258845206074633760568243530390666164621875000000, -214445855519254374581223528335656505432404927901346913132871354383861204760000000000, -64170219629062295407815513257320237776231162111154102707081273215881097436875000000, 124527022249285510345723899883856362391081588892624169808385449086469035456875000000, 72122961647751857892578401364921729579263775334413751056181173270814286405000000000, -50612397010083463876086503378770633243118863937139202762456313442990839742500000000, -44472335869947873578589661603783244670492600055834178496117780208161537861828125000, 112823844361488319419918750807883578221165958481129851856070297873693832041296875000, -87167501157048023439784530348456638324318361484822200383456382516997014570000000000, -177180889659967813884010665542838727602650971768631614181919149720870788837500000000, 425218387563055025293823284264052711601814214828673030148255391874921088532812500000, -164339630683046643132832437361157662496079319301286281098803148768549476537187500000, -602973372541647092093001426167053067874364408645374217276101200698455844901250000000, 991319226531202941393420618513219585066507686908237712178299376395075611106250000000, -184603184417798154396467275110618455116168483158569258582725299273862666736718750000, -1208320797801228713715309528432678555298589944746198750577917042751685786449218750000, 1519862614597521145342907412807952177511239506978631128384809262975313638645000000000, -128237780608470445465254278731676273376310073510005495115009095063024098030000000000, -1501587949154067948283347225768712411211540391924889166681295088866964416131250000000, 1540895587490199948569681260633229693938977304263576442870752196369816668693750000000, -68139327748286310523885850709233121757167822365725840177818575966381054737500000000, -1174047387463536899468929548303195047866623949750469996895986781175800183352500000000, 1021149988114216543882588440840677260848071196902246560460071560068517234399062500000, -37652506674146660128908488745719708456396359081475583104353953530955828435937500000, -574674213936678625962162658763637959420441361255258562654631529723636567062500000000, 429757644914994916953218806028252339535115117572291255087972005091469328625000000000, -15522875417139375967470611547517374177069266848380479135414132527152238953125000000, -174130284713416466797679007977000886564558008748212907116780383216887774228125000000, 110129975437653036281650865568641360444749517323028729812538238575158706831250000000, -2090130157419128481771575072652841365707826512596999229028353691746922318750000000, -32619342820526535504115546321597369468489498374015340470539056738408358454687500000, 16562393266364010596182709648836394779975900028945300685502786023467475505312500000, 347084755376708947802751857566469002302725246872427452585378295343292328750000000, -3670443894011219044353206874386061880692578603992206752457609964671380612500000000, 1391660654698980033714271405530358415025183937335007395123116415620044725000000000, 150036860352890100208893691885417066901921463662930586358117970044843162500000000, -196825281019263350623870404620887867496665157756765115803420765496142498750000000, 87643917461406801886903538557683944663028549808971489447374097604829263750000000, 37284610042461309509833967183583816575944283393263339704215249077561241406250000, 9170720744629354422517850007757314228289387650030876592101172039038541406250000, 8711520475668080626628804181996044598696928924149196282240159425550718750000000, 3652315895592854812918181973481431859361155390688417106538363693875655000000000, 959551645941578092568439174804450376236746213049848901706096531756900312500000, 247481498254240853142919399421817145163117484465952645502242922012045312500000, 52220797583300202697848107996290213430330403342794483463245935447056250000000, 7080271140755616705619948225808504972702910988883928778037956362643750000000, 655845905008105787731307005949019666865028784396454617038143449407968750000, 52429668870205396860757044341519010674653834408739570415496153039218750000, 3566287131456745893050591696101496952215550846454251021059425162500000000, 161913493465869942731983840267167123168051839948435615934757125000000000, 3993478065148795755374170478469267336872536860308984003610000000000000, 40010714468799914969242952103654795591592147293822124275000000000000]

theorem kg0m_0 : chkPiece kg0m 4096 0 1024 = true := by decide +kernel

theorem kg0m_1 : chkPiece kg0m 4096 1024 2048 = true := by decide +kernel

theorem kg0m_2 : chkPiece kg0m 4096 2048 3072 = true := by decide +kernel

theorem kg0m_3 : chkPiece kg0m 4096 3072 4096 = true := by decide +kernel

theorem kg0m_chk : chkChain kg0m 4096 0 [1024, 2048, 3072, 4096] = true := chk_cons kg0m_0 (chk_cons kg0m_1 (chk_cons kg0m_2 (chk_cons kg0m_3 rfl)))

theorem kg0m_lit : addL (mulL kB0 (kGam (-1) kR0).2) (smulL (-1000000000000000) (kGam (-1) kR0).1) = kg0m := by decide +kernel

theorem kR0_pos {t : ℝ} (h0 : 0 ≤ t) (_ : t ≤ 1) : 0 < polyEval kR0.2 t := by
  simp only [kR0, polyEval]
  push_cast
  positivity

theorem kR0_ge {t : ℝ} (h0 : 0 ≤ t) (h1 : t ≤ 1) : 114 / 100 ≤ rfEval kR0 t := by
  have hp := kR0_pos h0 h1
  have h := chkChain_sound (l := addL (smulL 100 kR0.1) (smulL (-114) kR0.2)) (d := 4096) (by norm_num) 0 [4096] (by simp) (by decide +kernel) (x := t) (by norm_num; linarith) (by norm_num; linarith)
  simp only [polyEval_add, polyEval_smul] at h
  push_cast at h
  rw [rfEval, le_div_iff₀ hp]
  linarith

theorem kR0_res {t : ℝ} (h0 : 0 ≤ t) (h1 : t ≤ 1) :
    |2 * t * rfD kR0 t + t ^ 2 * rfD (rfDer kR0) t + 2 * rfD kR0 t - (-(1 / 4)) * rfEval kR0 t| ≤ 2 * (1 + t) * (165 / 10 ^ 15 + 1050 / 10 ^ 15 * (1 - t) ^ 40 + 500 / 10 ^ 15 * t ^ 40) + t ^ 2 * (-40 * (1050 / 10 ^ 15) * (1 - t) ^ 39 + 40 * (500 / 10 ^ 15) * t ^ 39) := by
  have hp := kR0_pos h0 h1
  have g := kGam_eval (-1) hp
  have h := rf_boundP (kGam (-1) kR0) kB0 1000000000000000 4096 0 [1024, 2048, 3072, 3584, 4096] [1024, 2048, 3072, 4096] (by simp) (by simp) (by norm_num) (by norm_num) kg0p_lit kg0m_lit kg0p_chk kg0m_chk g.2
    (by norm_num; linarith) (by norm_num; linarith) (by norm_num; linarith)
  rw [g.1] at h
  rw [← kB0_eval]
  convert h using 2
  · push_cast; ring
  · norm_num

theorem kR0_deriv {x : ℝ} (h : 1 ≤ x) : HasDerivAt (fun x => rfEval kR0 (1 / x)) (-(1 / x) ^ 2 * rfD kR0 (1 / x)) x := by
  have hx : 0 < x := by linarith
  have hp := kR0_pos (t := 1 / x) (by positivity) (by rw [div_le_one hx]; exact h)
  refine ((rfD_deriv kR0 hp).comp x (inv_deriv' hx)).congr_deriv ?_
  ring

theorem kR0_der {t : ℝ} (h0 : 0 ≤ t) (h1 : t ≤ 1) : HasDerivAt (rfD kR0) (rfD (rfDer kR0) t) t := by
  have hp := kR0_pos h0 h1
  have hp2 : 0 < polyEval (rfDer kR0).2 t := by
    simp only [rfDer, polyEval_mul]
    positivity
  refine (rfD_deriv (rfDer kR0) hp2).congr_of_eventuallyEq (Eventually.of_forall fun y => ?_)
  rw [rfDer_eval]

theorem kR0_deriv2 {x : ℝ} (h : 1 ≤ x) : HasDerivAt (fun x => -(1 / x) ^ 2 * rfD kR0 (1 / x)) (2 * (1 / x) ^ 3 * rfD kR0 (1 / x) + (1 / x) ^ 4 * rfD (rfDer kR0) (1 / x)) x := by
  have hx : 0 < x := by linarith
  have hd : HasDerivAt (fun x => rfD kR0 (1 / x)) (rfD (rfDer kR0) (1 / x) * -(1 / x) ^ 2) x :=
    (kR0_der (by positivity) (by rw [div_le_one hx]; exact h)).comp x (inv_deriv' hx)
  refine ((((inv_deriv' hx).pow 2).neg).mul hd).congr_deriv ?_
  simp only [Pi.neg_apply, Pi.pow_apply]
  push_cast
  ring

theorem kR0_err {x : ℝ} (h : 1 ≤ x) : |rfEval kR0 (1 / x) - kW 0 x| ≤ 330 / 10 ^ 15 := by
  have l1 : Tendsto (fun x : ℝ => rfEval kR0 (1 / x)) atTop (𝓝 (rfEval kR0 0)) := ((rfD_deriv kR0 (kR0_pos le_rfl zero_le_one)).continuousAt.tendsto).comp inv_tendsto
  have l2 : Tendsto (fun x : ℝ => rfD kR0 (1 / x)) atTop (𝓝 (rfD kR0 0)) := ((kR0_der le_rfl zero_le_one).continuousAt.tendsto).comp inv_tendsto
  have l3 : Tendsto (fun x : ℝ => -(1 / x) ^ 2 * rfD kR0 (1 / x) - kP0 x) atTop (𝓝 0) := by
    have := ((inv_tendsto.pow 2).neg.mul l2).sub kP0_tendsto
    simpa using this
  have hd := damp_back (e := fun x => rfEval kR0 (1 / x) - kW 0 x) (p := fun x => -(1 / x) ^ 2 * rfD kR0 (1 / x) - kP0 x)
    (γ := fun x => 2 * (1 / x) * rfD kR0 (1 / x) + (1 / x) ^ 2 * rfD (rfDer kR0) (1 / x) + 2 * rfD kR0 (1 / x) - (-(1 / 4)) * rfEval kR0 (1 / x)) (c := -(1 / 4))
    (fun y hy => (kR0_deriv hy).sub (kW0_deriv (by linarith))) (fun y hy => ?_) (by norm_num [abs_div]) (l1.sub (kW_tendsto (by norm_num))) l3
    (kSize_deriv (165 / 10 ^ 15) (1050 / 10 ^ 15) (500 / 10 ^ 15)) (kInt_deriv (165 / 10 ^ 15) (1050 / 10 ^ 15) (500 / 10 ^ 15))
    (fun t h0 h1 => by have : 0 ≤ 1 - t := by linarith
                       positivity)
    (fun y hy => kR0_res (by positivity) (by rw [div_le_one (by linarith)]; exact hy)) h
  · refine hd.trans ?_
    have hs := abs_le.1 sqrt_half_pi_near
    have hE : |rfEval kR0 0 - √(π / 2)| ≤ 2 / 10 ^ 15 := by
      have : rfEval kR0 0 = 31332853432887475 / 25000000000000000 := by simp [rfEval, kR0, polyEval]
      rw [this]
      norm_num at hs
      norm_num [abs_le]
      constructor <;> linarith [hs.1, hs.2]
    norm_num at hE ⊢
    linarith
  · refine ((kR0_deriv2 hy).sub (kP0_deriv (by linarith))).congr_deriv ?_
    ring

theorem kR0_eq (x : ℝ) : besK0Large x = .ok (rfEval kR0 (1 / x) * (exp (-x) / √x)) := by
  simp only [besK0Large, modPoly, modPolyLoop, modK0PP, modK0QQ, List.getElem?_cons_succ, List.getElem?_cons_zero]
  show Res.ok _ = _
  congr 1
  unfold rfEval
  have e1 : polyEval kR0.1 (1 / x) = 25000000000000000 * ((((((((6.160228690102976e-2) * (1 / x) + 3.595376024148513) * (1 / x) + 3.198289277679660e1) * (1 / x) + 9.285288485892228e1) * (1 / x) + 1.121012633939949e2) * (1 / x) + 6.123767403223466e1) * (1 / x) + 1.475731032429900e1) * (1 / x) + 1.253314137315499) := by
    simp only [kR0, polyEval]; push_cast; norm_num only; ring
  have e2 : polyEval kR0.2 (1 / x) = 25000000000000000 * ((((((((1.408295601966600e-1) * (1 / x) + 4.443672926432041) * (1 / x) + 3.181399777449301e1) * (1 / x) + 8.318077493230258e1) * (1 / x) + 9.496513373427093e1) * (1 / x) + 5.027773590829784e1) * (1 / x) + 1.189963006673403e1) * (1 / x) + 1) := by
    simp only [kR0, polyEval]; push_cast; norm_num only; ring
  rw [e1, e2, mul_div_mul_left _ _ (by norm_num), div_mul_div_comm, mul_comm (exp (-x))]

theorem besK0Large_acc {x : ℝ} (h : 1 ≤ x) : ∃ y, besK0Large x = .ok y ∧ |y - besselK 0 x| ≤ 3 / 10 ^ 13 * besselK 0 x := by
  refine ⟨_, kR0_eq x, ?_⟩
  have hx : 0 < x := by linarith
  have hs : 0 < √x := sqrt_pos.2 hx
  have he := kR0_err h
  have hR := kR0_ge (t := 1 / x) (by positivity) (by rw [div_le_one hx]; exact h)
  obtain ⟨q, hq⟩ : ∃ q, q = exp (-x) / √x := ⟨_, rfl⟩
  have hq0 : 0 < q := by rw [hq]; positivity
  have hK : besselK 0 x = kW 0 x * q := by
    rw [hq, kW, exp_neg]
    field_simp
  rw [hK, ← hq, ← sub_mul, abs_mul, abs_of_pos hq0, ← mul_assoc]
  refine mul_le_mul_of_nonneg_right (he.trans ?_) hq0.le
  have h2 := abs_le.1 he
  norm_num at h2 hR ⊢
  linarith [h2.1, h2.2]

def kR1 : RF := ([62665706865775100, 728585670110227000, 3031580586549401500, 5736933454339460000, 5202210057195905000, 2178298328418845500, 363261519817684500, 15722092794955105], [50000000000000000, 562577257403229000, 2213744248298815000, 3808056606558822500, 2931688613945446500, 925151836920793000, 92862233828301100, 1269270443827436])

def kB1 : List ℤ := [4160, -131840, 2448000, -28288000, 226746000, -1305049200, 5220196800, -11186136000, -23770539000, 377687453000, -2231261260800, 9432149875200, -32095509992000, 92054155032000, -227943621984000, 494462318457600, -948815326508400, 1621584222570000, -2480562945120000, 3408568712640000, -4218103781892000, 4709099989308000, -4747649278320000, 4324224593520000, -3557428953390000, 2641296719739600, -1767439776614400, 1063736902592000, -574242586152000, 277069402584000, -118949890092800, 45183040531200, -15078445239000, 4381702689000, -1096241328000, 232671628800, -41077977200, 5870202000, -652392000, 52904000, -2782700, 111300]

theorem kB1_eval (t : ℝ) : polyEval kB1 t / 1000000000000000 = 2 * (1 + t) * (380 / 10 ^ 15 + 1700 / 10 ^ 15 * (1 - t) ^ 40 + 950 / 10 ^ 15 * t ^ 40) + t ^ 2 * (-40 * (1700 / 10 ^ 15) * (1 - t) ^ 39 + 40 * (950 / 10 ^ 15) * t ^ 39) := by
  simp only [kB1, polyEval]; push_cast; norm_num only; ring

def kg1p : List ℤ := [16272486393444042000000000000000000000000000000000000000000000000000000, 30520357878887162351641793664464720000000000000000000000000000000000000000, -2369635292805675606724007548892900623815985154191200000000000000000000000000, 70805822202241847400637735213523370798076197326842300000000000000000000000000, -749726965810748998176968741573939324154667123608413292765127356160000000000000, -441158898280289403488012447271809703030809899343793871051894210560000000000000, 52612401771258159676107443911879750172868643894484458533933930304000000000000000, -166261935730933789240101306291895306568370111887276449148577587927040000000000000, -1199888393009855768165278398757881498428793442029399175902994934643520000000000000, 5609565030283641426352091769317147177529999210635331341834772392372544000000000000, 11620615892119824145455670999455283103913377580809051899357436875466122240000000000, -73635295561436963268429226994230945034615939686672084725224350845747906560000000000, -44983363813318550765025573472076639794030541715417395234920530487560368000000000000, 477824707378298842843440406325893337720556524560660381129175121166823953920000000000, 11790592179509099975628057122743377404169988351613783102027548046664380160000000000, -1649398298300138850469644320594057515580325169407040882330220082082579936512000000000, 322719740498753267535881863032225631569347983434511175755025509107217981354240000000, 3135595942506325868523655356203596667521388451875484146357313639217992161655040000000, -642898470301309908691022508031195249563612984450545668639694229636760315584000000000, -3323450336319777240286499413191668914986861266929231608006475641135260641630720000000, 174277673184377996749909908547280907935747784859152525167718865670403342842240000000, 2015742355031144215940124194739998466576909687640990606048878380730219247057792000000, 388511528509566084351686817029110072542799461954285225929433468638011549653309440000, -1127859744365784016706751918506235987572736671847321899402990974455337699862108160000, 503421909356577522375564971399182270616464828329265014376940037420751928859776000000, 1072990814223248223212416005104670096198345639341265947500443074676657261103395840000, -3353834275195568781660139469950668173254829229533966512325650205805648659547002880000, 1936152204088523849850337878752988310483750479236895618710416559727192392728958976000, 4769650767093463369284411232128592499558963438701107289259287549414338772387669770240, -10008009108621154879227964693775064812549881289754837090052750967214361544056797429760, 3866931971522314081901005119414428624916275975040250079789871192141201088916457472000, 11804948785212397041680962485333483006838736654022410164208362703536042255618234368000, -19574411552176880907546745912813272195073483149803691667291182915141838457489099776000, 6006092834013943504760911406176765406812498189799012335743914561614481175617406771200, 17631444831668948021498663905377696866895300178848340416363085348437529606974806835200, -25095664016181689237365190728681044331942565121045289122216006538306936900889135104000, 7204872147973250221731962459157299874771002536877925991144409784725467760503061504000, 16182177082395358827296322933266546793368137216821329531831816907435951532475558912000, -20858521308238679264482655554426726122796601835913867173178340906408876972295484211200, 6106807404994902078941350787053161637999932668443286327554527011688094731067706572800, 9086899409159179705335072329258018962645089687113425257634870015410155058439360512000, -11000489129106875638078227128364269743088587479502281798749725862927683432785047552000, 3327287717592214497291659226211462576974701984684000977130927254878564506038493184000, 3057626591064056342019091850804231855229184441950536309870496030400888551130433126400, -3554087830386167669904728292151855585940424057748915003243221468514891536139394457600, 1066395508560587608812539232761145244547728198385068339682081426253928093362580480000, 609833846908558609520733530624470329570558022787560879011226588090975345622456320000, -674546815355772690045685806742218731441623948228349013128303793986765541093283840000, 182657299022758969927109121975243863418598370909204211312341783464595044126528512000, 77272034777760513462378361539180157883946940914796406319253586556516967148762112000, -74162143018118652817190369398117673167575541333441046838909956798886695324334080000, 16174045477743736870462953592842112723969775323664297490606462994788710745364480000, 6639779433160017112441694473743664319688497724359827131496630980344283858342400000, -4152793386121614251239078639606457572649731451923082076279464935511116631472025600, 1006816261426546682156064239995613841642254278471928683041218517262337292653158400, 621015944862446427315974947066839564191226440035272506348315236218856919385088000, 72835225135239415005211292262763035342884027373491054953704681078906589353472000, 114804728863061701424628344443894854214588462501830393599074419909914469981696000, 53095044113595131649903208404195443111741399698606023344508125753298206683340800, 13708955433173734331205469486194981026771271157810054287335122888790683646156800, 3652132197621951270002263403717010291540510364340522133917103323156150959104000, 789938297235553347211441519999631501842202870723815272448688985720989572096000, 105081693514516851081552406266385164882334179021267837396881957703545279488000, 9315753894795292355838411565043602283302266999486107776776163052454944563200, 721846273841033636417464316651256525356388819772650839095107855316053299200, 46556399116343932502156835453614455948309803215958005855860489724502528000, 1702050917368449485585126812075489514638760156960900117101757924109312000, 32573836421227826194857537079535212420361020045061007765931790734336000, 309266047821669280781082145623213193517256627003471751244847877427200, 1155504987848179735709389540807896712642525719571108690251488563200]

theorem kg1p_0 : chkPiece kg1p 4096 0 2048 = true := by decide +kernel

theorem kg1p_1 : chkPiece kg1p 4096 2048 3072 = true := by decide +kernel

theorem kg1p_2 : chkPiece kg1p 4096 3072 4096 = true := by decide +kernel

theorem kg1p_chk : chkChain kg1p 4096 0 [2048, 3072, 4096] = true := chk_cons kg1p_0 (chk_cons kg1p_1 (chk_cons kg1p_2 rfl))

theorem kg1p_lit : addL (mulL kB1 (kGam (3) kR1).2) (smulL (1000000000000000) (kGam (3) kR1).1) = kg1p := by decide +kernel

def kg1m : List ℤ := [191727513606555958000000000000000000000000000000000000000000000000000000, -27751072315697431791641793664464720000000000000000000000000000000000000000, 2390184645370432661045206722412247823815985154191200000000000000000000000000, -70394192251545674026045098010101245388134020632058300000000000000000000000000, 755041795843957147447262638978719222206677310048125707234872643840000000000000, 473459745267723174775800626493351971869659195744790028948105789440000000000000, -52487539772550168852960372715662718326203029105889977966066069696000000000000000, 166846371028267572582091809312370976977027459199945598081422412072960000000000000, 1202441570710396881317657885261071673387351893217522412101405065356480000000000000, -5605015283184484988471345057650467210791394660449197270227427607627456000000000000, -11618889410747827746938015405727446266900180234323691587575563124533877760000000000, 73671996734790198772176107376552847481964772923493156332226049154252093440000000000, 45075997664434550142638514792903836685030114181558012274166269512439632000000000000, -478105623028606583098427699132612628505014631059133962807833558833176046080000000000, -11872995997734357124291892480561385135914421472868398929963895953335619840000000000, 1652086009635599638360363096585696999493574654369725777167635782717420063488000000000, -326360620014210786002464343388112996939032362857147115207086752892782018645760000000, -3146850983261732449631773662879903041732696429722940342624657255582007838344960000000, 682640499590481084167398628786047291986134539993958039643697357163239684416000000000, 3318338216028756617562355631568168247572862592736975473140904006064739358369280000000, -354907274885440862240618398439322113573584535127140956355481280822396657157760000000, -1710177278365472938718290495151475688530901866669508154916684308885780752942208000000, -155971751609092047400641746077313047055430988767208047424864317889988450346690560000, -302437116762657729323848090136824451832972130953098901632418387751337699862108160000, 862254282472839813596593762568532191084059919486644068833568106300751928859776000000, 1125598812409335215543380411479328564584956233258424451243834135892657261103395840000, -3350915907232008923659251794777390295385076334377224100336455395421648659547002880000, 1936198998989483994680573972052575215128794573374964615298879087903192392728958976000, 4769650959989856577190800572912538520526032693134043550916146094743618772387669770240, -10008009108621154879227964693775064812549881289754837090052750967214361544056797429760, 3866931971522314081901005119414428624916275975040250079789871192141201088916457472000, 11804948785212397041680962485333483006838736654022410164208362703536042255618234368000, -19574411552176880907546745912813272195073483149803691667291182915141838457489099776000, 6006092834013943504760911406176765406812498189799012335743914561614481175617406771200, 17631444831668948021498663905377696866895300178848340416363085348437529606974806835200, -25095664016181689237365190728681044331942565121045289122216006538306936900889135104000, 7204872147973250221731962459157299874771002536877925991144409784725467760503061504000, 16182177082395358827296322933266546793368137216821329531831816907435951532475558912000, -20858521308238679264482655554426726122796601835913867173178340906408876972295484211200, 6106807404994902078941350787053161637999932668443286327554527011688094731067706572800, 9086899409159179705335072329258018962645089687113425257634870015410155058439360512000, -11000489129106875638078227128364269743088587479502281798749725862927683432785047552000, 3327287717592214497291659226211462576974701984684000977130927254878564506038493184000, 3057626591064056342019091850804231855229184441950536309870496030400888551130433126400, -3554087830386167669904728292151855585940424057748915003243221468514891536139394457600, 1066395508560587608812539232761145244547728198385068339682081426253928093362580480000, 609833846908558609520733530624470329570558022787560879011226588090975345622456320000, -674546815355772690045685806742218731441623948228349013128303793986765541093283840000, 182657299022758969927109121975243863418598370909204211312341783464595044126528512000, 77272034777760513462378361539180157883946940914796406319253586556516967148762112000, -74162143018118652817190369398117673167575541333441046838909956798886695324334080000, 16174045477743736870462953592842112723969775323664297490606462994788710745364480000, 6639779433160017112441694473743664319688497724359827131496630980344283858342400000, -4152793386121614251239078639606457572649731451923082076279464935511116631472025600, 1006816261426546682156064239995613841642254278471928683041218517262337292653158400, 621015944862446427315974947066839564191226440035272506348315236218856919385088000, 72835225135239415005211292262763035342884027373491054953704681078906589353472000, 114804728863061701424628344443894854214588462501830393599074419909914469981696000, 53095044113595131649903208404195443111741399698606023344508125753298206683340800, 13708955433173734331205469486194981026771271157810054287335122888790683646156800, 3652132197621951270002263403717010291540510364340522133917103323156150959104000, 789938297235553347211441519999631501842202870723815272448688985720989572096000, 105081693514516851081552406266385164882334179021267837396881957703545279488000, 9315753894795292355838411565043602283302266999486107776776163052454944563200, 721846273841033636417464316651256525356388819772650839095107855316053299200, 46556399116343932502156835453614455948309803215958005855860489724502528000, 1702050917368449485585126812075489514638760156960900117101757924109312000, 32573836421227826194857537079535212420361020045061007765931790734336000, 309266047821669280781082145623213193517256627003471751244847877427200, 1155504987848179735709389540807896712642525719571108690251488563200]

theorem kg1m_0 : chkPiece kg1m 4096 0 1024 = true := by decide +kernel

theorem kg1m_1 : chkPiece kg1m 4096 1024 2048 = true := by decide +kernel

theorem kg1m_2 : chkPiece kg1m 4096 2048 3072 = true := by decide +kernel

theorem kg1m_3 : chkPiece kg1m 4096 3072 3584 = true := by decide +kernel

theorem kg1m_4 : chkPiece kg1m 4096 3584 3712 = true := by decide +kernel

theorem kg1m_5 : chkPiece kg1m 4096 3712 3840 = true := by decide +kernel

theorem kg1m_6 : chkPiece kg1m 4096 3840 4096 = true := by decide +kernel

theorem kg1m_chk : chkChain kg1m 4096 0 [1024, 2048, 3072, 3584, 3712, 3840, 4096] = true := chk_cons kg1m_0 (chk_cons kg1m_1 (chk_cons kg1m_2 (chk_cons kg1m_3 (chk_cons kg1m_4 (chk_cons kg1m_5 (chk_cons kg1m_6 rfl))))))

theorem kg1m_lit : addL (mulL kB1 (kGam (3) kR1).2) (smulL (-1000000000000000) (kGam (3) kR1).1) = kg1m := by decide +kernel

theorem kR1_pos {t : ℝ} (h0 : 0 ≤ t) (_ : t ≤ 1) : 0 < polyEval kR1.2 t := by
  simp only [kR1, polyEval]
  push_cast
  positivity

theorem kR1_ge {t : ℝ} (h0 : 0 ≤ t) (h1 : t ≤ 1) : 125 / 100 ≤ rfEval kR1 t := by
  have hp := kR1_pos h0 h1
  have h := chkChain_sound (l := addL (smulL 100 kR1.1) (smulL (-125) kR1.2)) (d := 4096) (by norm_num) 0 [4096] (by simp) (by decide +kernel) (x := t) (by norm_num; linarith) (by norm_num; linarith)
  simp only [polyEval_add, polyEval_smul] at h
  push_cast at h
  rw [rfEval, le_div_iff₀ hp]
  linarith

theorem kR1_res {t : ℝ} (h0 : 0 ≤ t) (h1 : t ≤ 1) :
    |2 * t * rfD kR1 t + t ^ 2 * rfD (rfDer kR1) t + 2 * rfD kR1 t - (3 / 4) * rfEval kR1 t| ≤ 2 * (1 + t) * (380 / 10 ^ 15 + 1700 / 10 ^ 15 * (1 - t) ^ 40 + 950 / 10 ^ 15 * t ^ 40) + t ^ 2 * (-40 * (1700 / 10 ^ 15) * (1 - t) ^ 39 + 40 * (950 / 10 ^ 15) * t ^ 39) := by
  have hp := kR1_pos h0 h1
  have g := kGam_eval (3) hp
  have h := rf_boundP (kGam (3) kR1) kB1 1000000000000000 4096 0 [2048, 3072, 4096] [1024, 2048, 3072, 3584, 3712, 3840, 4096] (by simp) (by simp) (by norm_num) (by norm_num) kg1p_lit kg1m_lit kg1p_chk kg1m_chk g.2
    (by norm_num; linarith) (by norm_num; linarith) (by norm_num; linarith)
  rw [g.1] at h
  rw [← kB1_eval]
  convert h using 2
  · push_cast; ring
  · norm_num

theorem kR1_deriv {x : ℝ} (h : 1 ≤ x) : HasDerivAt (fun x => rfEval kR1 (1 / x)) (-(1 / x) ^ 2 * rfD kR1 (1 / x)) x := by
  have hx : 0 < x := by linarith
  have hp := kR1_pos (t := 1 / x) (by positivity) (by rw [div_le_one hx]; exact h)
  refine ((rfD_deriv kR1 hp).comp x (inv_deriv' hx)).congr_deriv ?_
  ring

theorem kR1_der {t : ℝ} (h0 : 0 ≤ t) (h1 : t ≤ 1) : HasDerivAt (rfD kR1) (rfD (rfDer kR1) t) t := by
  have hp := kR1_pos h0 h1
  have hp2 : 0 < polyEval (rfDer kR1).2 t := by
    simp only [rfDer, polyEval_mul]
    positivity
  refine (rfD_deriv (rfDer kR1) hp2).congr_of_eventuallyEq (Eventually.of_forall fun y => ?_)
  rw [rfDer_eval]

theorem kR1_deriv2 {x : ℝ} (h : 1 ≤ x) : HasDerivAt (fun x => -(1 / x) ^ 2 * rfD kR1 (1 / x)) (2 * (1 / x) ^ 3 * rfD kR1 (1 / x) + (1 / x) ^ 4 * rfD (rfDer kR1) (1 / x)) x := by
  have hx : 0 < x := by linarith
  have hd : HasDerivAt (fun x => rfD kR1 (1 / x)) (rfD (rfDer kR1) (1 / x) * -(1 / x) ^ 2) x :=
    (kR1_der (by positivity) (by rw [div_le_one hx]; exact h)).comp x (inv_deriv' hx)
  refine ((((inv_deriv' hx).pow 2).neg).mul hd).congr_deriv ?_
  simp only [Pi.neg_apply, Pi.pow_apply]
  push_cast
  ring

theorem kR1_err {x : ℝ} (h : 1 ≤ x) : |rfEval kR1 (1 / x) - kW 1 x| ≤ 718 / 10 ^ 15 := by
  have l1 : Tendsto (fun x : ℝ => rfEval kR1 (1 / x)) atTop (𝓝 (rfEval kR1 0)) := ((rfD_deriv kR1 (kR1_pos le_rfl zero_le_one)).continuousAt.tendsto).comp inv_tendsto
  have l2 : Tendsto (fun x : ℝ => rfD kR1 (1 / x)) atTop (𝓝 (rfD kR1 0)) := ((kR1_der le_rfl zero_le_one).continuousAt.tendsto).comp inv_tendsto
  have l3 : Tendsto (fun x : ℝ => -(1 / x) ^ 2 * rfD kR1 (1 / x) - kP1 x) atTop (𝓝 0) := by
    have := ((inv_tendsto.pow 2).neg.mul l2).sub kP1_tendsto
    simpa using this
  have hd := damp_back (e := fun x => rfEval kR1 (1 / x) - kW 1 x) (p := fun x => -(1 / x) ^ 2 * rfD kR1 (1 / x) - kP1 x)
    (γ := fun x => 2 * (1 / x) * rfD kR1 (1 / x) + (1 / x) ^ 2 * rfD (rfDer kR1) (1 / x) + 2 * rfD kR1 (1 / x) - (3 / 4) * rfEval kR1 (1 / x)) (c := 3 / 4)
    (fun y hy => (kR1_deriv hy).sub (kW1_deriv (by linarith))) (fun y hy => ?_) (by norm_num [abs_div]) (l1.sub (kW_tendsto (by norm_num))) l3
    (kSize_deriv (380 / 10 ^ 15) (1700 / 10 ^ 15) (950 / 10 ^ 15)) (kInt_deriv (380 / 10 ^ 15) (1700 / 10 ^ 15) (950 / 10 ^ 15))
    (fun t h0 h1 => by have : 0 ≤ 1 - t := by linarith
                       positivity)
    (fun y hy => kR1_res (by positivity) (by rw [div_le_one (by linarith)]; exact hy)) h
  · refine hd.trans ?_
    have hs := abs_le.1 sqrt_half_pi_near
    have hE : |rfEval kR1 0 - √(π / 2)| ≤ 2 / 10 ^ 15 := by
      have : rfEval kR1 0 = 62665706865775100 / 50000000000000000 := by simp [rfEval, kR1, polyEval]
      rw [this]
      norm_num at hs
      norm_num [abs_le]
      constructor <;> linarith [hs.1, hs.2]
    norm_num at hE ⊢
    linarith
  · refine ((kR1_deriv2 hy).sub (kP1_deriv (by linarith))).congr_deriv ?_
    ring

theorem kR1_eq (x : ℝ) : besK1Large x = .ok (rfEval kR1 (1 / x) * (exp (-x) / √x)) := by
  simp only [besK1Large, modPoly, modPolyLoop, modK1PP, modK1QQ, List.getElem?_cons_succ, List.getElem?_cons_zero]
  show Res.ok _ = _
  congr 1
  unfold rfEval
  have e1 : polyEval kR1.1 (1 / x) = 50000000000000000 * ((((((((3.144418558991021e-1) * (1 / x) + 7.265230396353690) * (1 / x) + 4.356596656837691e1) * (1 / x) + 1.040442011439181e2) * (1 / x) + 1.147386690867892e2) * (1 / x) + 6.063161173098803e1) * (1 / x) + 1.457171340220454e1) * (1 / x) + 1.253314137315502) := by
    simp only [kR1, polyEval]; push_cast; norm_num only; ring
  have e2 : polyEval kR1.2 (1 / x) = 50000000000000000 * ((((((((2.538540887654872e-2) * (1 / x) + 1.857244676566022) * (1 / x) + 1.850303673841586e1) * (1 / x) + 5.863377227890893e1) * (1 / x) + 7.616113213117645e1) * (1 / x) + 4.427488496597630e1) * (1 / x) + 1.125154514806458e1) * (1 / x) + 1) := by
    simp only [kR1, polyEval]; push_cast; norm_num only; ring
  rw [e1, e2, mul_div_mul_left _ _ (by norm_num), div_mul_div_comm, mul_comm (exp (-x))]

theorem besK1Large_acc {x : ℝ} (h : 1 ≤ x) : ∃ y, besK1Large x = .ok y ∧ |y - besselK 1 x| ≤ 6 / 10 ^ 13 * besselK 1 x := by
  refine ⟨_, kR1_eq x, ?_⟩
  have hx : 0 < x := by linarith
  have hs : 0 < √x := sqrt_pos.2 hx
  have he := kR1_err h
  have hR := kR1_ge (t := 1 / x) (by positivity) (by rw [div_le_one hx]; exact h)
  obtain ⟨q, hq⟩ : ∃ q, q = exp (-x) / √x := ⟨_, rfl⟩
  have hq0 : 0 < q := by rw [hq]; positivity
  have hK : besselK 1 x = kW 1 x * q := by
    rw [hq, kW, exp_neg]
    field_simp
  rw [hK, ← hq, ← sub_mul, abs_mul, abs_of_pos hq0, ← mul_assoc]
  refine mul_le_mul_of_nonneg_right (he.trans ?_) hq0.le
  have h2 := abs_le.1 he
  norm_num at h2 hR ⊢
  linarith [h2.1, h2.2]

end Russell.Lab
