import Verif.Lab.ErfBasic

/-!
# The tails of `erf` and `erfc` (background of property C115)

The approximation is `exp(-x² - 0.5625 + R(y)/S(y)) / x` with `y = 1/x²`. Its derivative is that of the complementary error function times
`exp H(y)`, where the derivative of `H` is a rational function; the total variation of `H` is bounded by kernel evaluation.
-/

namespace Russell.Lab

open Real Set Filter Topology

/-- `S² (2 + y) + 2 y² (R' S - R S')` -/
def etN (r s : List ℤ) : List ℤ := addL (mulL (mulL s s) [2, 1]) (mulL [0, 0, 2] (quotD 1 r s))

/-- the logarithm of the quotient of the derivatives, up to a constant -/
noncomputable def etH (r s : List ℤ) (y : ℝ) : ℝ := polyEval r y / polyEval s y ^ 1 + log (polyEval (etN r s) y) - 2 * log (polyEval s y)

/-- the constant -/
noncomputable def etK : ℝ := -0.5625 + log √π - log 2

/-- the derivative of `etH` -/
def etRF (r s : List ℤ) : RF :=
  rfSub (addL (quotD 1 r s) (smulL (-2) (mulL (derivL s) s)), powL s 2) (smulL (-1) (derivL (etN r s)), etN r s)

theorem etH_deriv {r s : List ℤ} {y : ℝ} (hs : 0 < polyEval s y) (hn : 0 < polyEval (etN r s) y) :
    0 < polyEval (etRF r s).2 y ∧ HasDerivAt (etH r s) (rfEval (etRF r s) y) y := by
  have e1 := rfSub_eval (f := (addL (quotD 1 r s) (smulL (-2) (mulL (derivL s) s)), powL s 2)) (g := (smulL (-1) (derivL (etN r s)), etN r s))
    (x := y) (by simp only [polyEval_pow]; positivity) hn
  refine ⟨e1.2, ?_⟩
  have d := ((quotD_deriv 0 r s hs).add ((polyEval_deriv (etN r s) y).log hn.ne')).sub (((polyEval_deriv s y).log hs.ne').const_mul 2)
  refine d.congr_deriv ?_
  rw [etRF, e1.1]
  simp only [rfEval, polyEval_pow, polyEval_smul, polyEval_add, polyEval_mul]
  norm_num
  have := hs.ne'
  field_simp
  ring

/-- the approximation of the complementary error function -/
noncomputable def etG (r s : List ℤ) (x : ℝ) : ℝ := exp (-x ^ 2 - 0.5625 + polyEval r (1 / x ^ 2) / polyEval s (1 / x ^ 2)) / x

theorem etG_deriv {r s : List ℤ} {x : ℝ} (hx : 0 < x) (hs : 0 < polyEval s (1 / x ^ 2)) (hn : 0 < polyEval (etN r s) (1 / x ^ 2)) :
    HasDerivAt (etG r s) (-(2 / √π * exp (-x ^ 2)) * exp (etH r s (1 / x ^ 2) + etK)) x := by
  have hy : HasDerivAt (fun x : ℝ => 1 / x ^ 2) (-2 / x ^ 3) x := by
    have := (hasDerivAt_pow 2 x).inv (pow_ne_zero 2 hx.ne')
    simp only [one_div]
    refine this.congr_deriv ?_
    norm_num
    field_simp
  have hq := (quotD_deriv 0 r s hs).comp x hy
  have hphi := (((hasDerivAt_pow 2 x).neg).sub_const 0.5625).add hq
  have h := (hphi.exp).div (hasDerivAt_id x) hx.ne'
  have hp := sqrt_pos.2 pi_pos
  obtain ⟨R, hR⟩ : ∃ R, R = polyEval r (1 / x ^ 2) := ⟨_, rfl⟩
  obtain ⟨S, hS⟩ : ∃ S, S = polyEval s (1 / x ^ 2) := ⟨_, rfl⟩
  obtain ⟨Q, hQ⟩ : ∃ Q, Q = polyEval (quotD 1 r s) (1 / x ^ 2) := ⟨_, rfl⟩
  obtain ⟨N, hN⟩ : ∃ N, N = polyEval (etN r s) (1 / x ^ 2) := ⟨_, rfl⟩
  have eN : N = S ^ 2 * (2 + 1 / x ^ 2) + 2 * (1 / x ^ 2) ^ 2 * Q := by
    rw [hN, hS, hQ, etN]
    simp only [polyEval_add, polyEval_mul, polyEval]
    push_cast
    ring
  have eH : exp (etH r s (1 / x ^ 2) + etK) = exp (-0.5625 + R / S) * (√π / 2) * (N / S ^ 2) := by
    have e : etH r s (1 / x ^ 2) + etK = (-0.5625 + R / S) + (log √π - log 2) + (log N - 2 * log S) := by
      rw [etH, etK, ← hR, ← hS, ← hN]; ring
    rw [← hS] at hs
    rw [← hN] at hn
    rw [e, exp_add, exp_add, exp_sub, exp_log hp, exp_log (by norm_num), exp_sub, exp_log hn, show 2 * log S = log (S ^ 2) by
      rw [log_pow]; norm_num, exp_log (by positivity)]
  have h' : HasDerivAt (etG r s) _ x := h.congr_of_eventuallyEq (Eventually.of_forall fun z => by
    show etG r s z = exp (-z ^ 2 - 0.5625 + polyEval r (1 / z ^ 2) / polyEval s (1 / z ^ 2) ^ (0 + 1)) / z
    rw [etG, zero_add, pow_one])
  refine h'.congr_deriv ?_
  rw [eH]
  simp only [Pi.add_apply, Pi.neg_apply, Function.comp_apply, id]
  push_cast
  rw [← hQ, ← hR, ← hS, pow_one, pow_one]
  have eE : exp (-x ^ 2 - 0.5625 + R / S) = exp (-x ^ 2) * exp (-0.5625 + R / S) := by
    rw [← exp_add]; congr 1; ring
  rw [eE, eN]
  rw [← hS] at hs
  generalize exp (-x ^ 2) = E1
  generalize exp (-0.5625 + R / S) = E2
  field_simp
  ring

/-- numerator and denominator for `1/0.35 ≤ x` (erf.rs:150-164), scaled by `10 ^ 23` -/
def rBl : List ℤ := [-986494292470009928597, -79928323768052300657400, -1775795491775475198890000, -16063638485582191606200000, -63756644336838962772200000, -102509513161107724954000000, -48351919160865139701900000]

def sBl : List ℤ := [100000000000000000000000, 3033806074348245829240000, 32579251299657391882600000, 153672958608443695994000000, 319985821950859553908000000, 255305040643316442583000000, 47452854120695536721500000, -2244095244658581833620000]

/-- the same for `1.25 ≤ x < 1/0.35` (erf.rs:131-147), scaled by `10 ^ 23` -/
def rAl : List ℤ := [-986494403484714822705, -69385857270718176437200, -1055862622532329098140000, -6237533245032600603960000, -16239666946257347035500000, -18460509290671103599400000, -8128743550630659342460000, -981432934416914548592000]

def sAl : List ℤ := [100000000000000000000000, 1965127166743925712920000, 13765775414351904260000000, 43456587747522922882100000, 64538727173326788033600000, 42900814002756783338600000, 10863500554177943513400000, 657024977031928170135000, -6042441521485809874380]

def nBl : List ℤ := [20000000000000000000000000000000000000000000000, 1223522429739298331696000000000000000000000000000, 32036420328237234441187264791393297068864752560000, 471963773747665625464762627968223798441500448800000, 4329782806613775709964440651222413755220005788000000, 25874969603629294120683375677591444424712287008000000, 102445239987192561663749366585514725042083007710000000, 268144150313883755023283882343728497262613410426000000, 455079605019229056945211090502746882893710849364040000, 481051216372531521642693242093127781790896552944000000, 294448119580514502811307065802061940042859438000000000, 90372565991654885085031826437676627185071448000000000, 9186884475585734417825454701514434709096156000000000, -240203632269406994764749412946850063239910000000000, -419918145339289219717673744971351988224807200000000, 5035963467099260257656612638134281362304400000000]

def nAl : List ℤ := [20000000000000000000000000000000000000000000000, 796050866697570285168000000000000000000000000000, 13612785164489678149615976522988727926908497200000, 131835486308119360253986332733167330548619600000000, 803469026783348863455874475852983526953042883000000, 3241070328669735626422844466235432479204538784000000, 8868273682346518057097457094049173683572488650000000, 16604888339063068688810629939455273738132006324000000, 21211507508181074313393482989937140861171514412450000, 18230548657113394277969912785231358961810240676833600, 10268543381663480486152666316400539877761378395696000, 3631141386595280490244965313043097973882718369600000, 750838787757377386341974742641388533936848484000000, 80436933925249188042362584282682813851226672000000, 3046227806512685152766444428630552404595914000000, 88047716610461240126971647224488191753576600000, -19727550031609663588437322970500272864267751200, 36511099540575748953767023498005111380384400]

theorem nBl_lit : etN rBl sBl = nBl := by decide +kernel

theorem nAl_lit : etN rAl sAl = nAl := by decide +kernel

theorem sBl_pos {y : ℝ} (h0 : 0 ≤ y) (h1 : y ≤ 49 / 400) : 0 < polyEval sBl y := by
  have h : chkChain (addL sBl [-1]) 10000 0 [1225] = true := by decide +kernel
  have := chkChain_sound (by norm_num) 0 [1225] (by simp) h (x := y) (by push_cast; norm_num; linarith) (by norm_num; linarith)
  rw [polyEval_add] at this
  simp only [polyEval] at this
  push_cast at this
  linarith

theorem nBl_pos {y : ℝ} (h0 : 0 ≤ y) (h1 : y ≤ 49 / 400) : 0 < polyEval nBl y := by
  have h : chkChain (addL nBl [-1]) 10000 0 [1225] = true := by decide +kernel
  have := chkChain_sound (by norm_num) 0 [1225] (by simp) h (x := y) (by push_cast; norm_num; linarith) (by norm_num; linarith)
  rw [polyEval_add] at this
  simp only [polyEval] at this
  push_cast at this
  linarith

theorem sAl_pos {y : ℝ} (h0 : 49 / 400 ≤ y) (h1 : y ≤ 16 / 25) : 0 < polyEval sAl y := by
  have h : chkChain (addL sAl [-1]) 10000 1225 [6400] = true := by decide +kernel
  have := chkChain_sound (by norm_num) 1225 [6400] (by simp) h (x := y) (by push_cast; norm_num; linarith) (by norm_num; linarith)
  rw [polyEval_add] at this
  simp only [polyEval] at this
  push_cast at this
  linarith

theorem nAl_pos {y : ℝ} (h0 : 49 / 400 ≤ y) (h1 : y ≤ 16 / 25) : 0 < polyEval nAl y := by
  have h : chkChain (addL nAl [-1]) 10000 1225 [6400] = true := by decide +kernel
  have := chkChain_sound (by norm_num) 1225 [6400] (by simp) h (x := y) (by push_cast; norm_num; linarith) (by norm_num; linarith)
  rw [polyEval_add] at this
  simp only [polyEval] at this
  push_cast at this
  linarith

theorem etHB_deriv {y : ℝ} (h0 : 0 ≤ y) (h1 : y ≤ 49 / 400) :
    0 < polyEval (etRF rBl sBl).2 y ∧ HasDerivAt (etH rBl sBl) (rfEval (etRF rBl sBl) y) y :=
  etH_deriv (sBl_pos h0 h1) (by rw [nBl_lit]; exact nBl_pos h0 h1)

theorem etHA_deriv {y : ℝ} (h0 : 49 / 400 ≤ y) (h1 : y ≤ 16 / 25) :
    0 < polyEval (etRF rAl sAl).2 y ∧ HasDerivAt (etH rAl sAl) (rfEval (etRF rAl sAl) y) y :=
  etH_deriv (sAl_pos h0 h1) (by rw [nAl_lit]; exact nAl_pos h0 h1)

def etBRF : RF := etRF rBl sBl

def etBRFl : RF := ([3220827992611871865909095525600000000000000000000000000000000000000000000000000, -2878848663941161902043665923721527168956581087029120000000000000000000000000000000, 885427170525964725196473225358748447022367483638102531642839363301192357276800000000, -125751564812456340937927589958435298827599418851008724301732473676408484139072000000000, 9118932822557400285255002338898635219016838562261697521039301734070370157648000000000000, -330195445596955885902832679183642047694788036835552816633400264097477635726805120000000000, 3997131916194424146108943908906157134199360627053811514995117573903618877477100000000000000, 93324447821519117388541398150748457705966292398045231508219207091502545544195142560000000000, -3144963881618985766513926074901668868942126697615526891271265307377741498877085385257600000000, 8087680404283628867443990297043802828487149427376492474633202786492635018255389821792000000000, 641423054073636513605132420324446306788327774253285820799829819302770166152059890348720000000000, -5055194665054082770049938141325190408940599760088634607029116520702046130116384862395680000000000, -63292135062998672444682218631577901109056884338472914498748041522083875891539710566401600000000000, 656567927525222934869081798939417755026672084166153859839933878303829476510308048267321040000000000, 3924314583435614317123814652234048431550654147565052947163430559458574348643800760546174560800000000, -39632371961667407861665271326147841868029910187176503718891707673763655382827360665387370240000000000, -188165431562370731619266413566821087259969004266884522867860850590242183567108821111067632000000000000, 1121791697712493304516698025054911626704131835381269157078780752185605549311886273424917520000000000000, 6507768390978452455631163525865033470927279975459420783682495163199100895326331897335852640000000000000, -6379332398913040869909453129324037287470201838502914806255151117757158601453635209162217000000000000000, -101514450380547738418776830986089544104552545856538950012084273790490461021799459838481305264000000000000, -253395996430964031815342857756556037715581406413113313527583079784133449109169341815078186168000000000000, -274732741088519716852915511496852478043315123019084989447209263458542783095855435227711651200000000000000, -134149945549569638121268932039598309527731980948958326709104454735245872813555700527710800000000000000000, -23691496314918908612893275201669021229238452450353949989765400454876012701107059325901600000000000000000, -382734541794393789711315168175948303319040410198687082088082433266493901132409661509600000000000000000, 150597617207978502983576818924273438059736485036612262280329790324037973823825374009600000000000000000, -2691527122954294108995992770483022365095184256655812203763579622049281543698578271200000000000000000, 25360928041958402151577269151979521089580352360332550435553483170276725537278259360000000000000000], [200000000000000000000000000000000000000000000000000000000000000000000000000000000000000000000, 24370448594785966633920000000000000000000000000000000000000000000000000000000000000000000000000, 1377146750304929813611575924424238494586407525600000000000000000000000000000000000000000000000000, 47959916164252513944998252527848285310835366293030975588846932170880000000000000000000000000000000, 1153899110292975610962195005225363338642381491402242798022541204695312275079404091382656000000000000, 20380532877668022922606996641587497959522640208574825884356374629483098020122910004533760000000000000, 274125744624374655761315537557209434585924060364189414707315641318932619175321776427024000000000000000, 2875028354099475424351361026568702037090417971480026053258261312909632027533382130228307200000000000000, 23883226258634110159671985425415294978255147911324106176270556881510164189363953692358038400000000000000, 158767365850705401814189503237834871732422862079166436811363256925281191826147562277617804800000000000000, 849946583694776030582670152361523176132607068966273468833964602135269667362269556903127507648000000000000, 3675989553647261532066718805907502605297675569213750920692329757315145045694201843655923280000000000000000, 12851198533121811432892034883012882550898512576452567364762704334076208982177815352746693713600000000000000, 36246726665397468630483349498961815333858090623974127497708585946325038201449458949825028249600000000000000, 82121435933643632765012888771155126934536755557517013255033919485593454333083267108101355138400000000000000, 148412093287580208056919390090024547701266793233552161738320454480083496499412480043795891073600000000000000, 211806839373380962014911295440168764324251086345810861374205318582043181124988468747849204188960000000000000, 235416396174950407424558017434582547894144515594470698801815329009770982377920725998885972943360000000000000, 199927831979147998576547420966893649016876981912867702738968744777245687958010265161059866728800000000000000, 126306330116952900900167311289418982103177303598397858965468808104823943839669095925071072698400000000000000, 57056286078765438694018130951204513556618158197394848068378542149932652799055160058656807057200000000000000, 17262012175379608728499091394202379135805657514023285201953632697313129550359927221228690808000000000000000, 3037493501358172735721745943424153063513274023137704050060510837729966678930803726127724573776000000000000, 152527986302932093077604317418168905407233199516439561694550809590644990371480430523267513600000000000000, -52017380042110517566267513012338339246671346978629271119319063572944659279290427602146400000000000000000, -10860931158441552015914344500089516009539704576155600803946719850521117663063870838728800000000000000000, -252182817951945027689231407680635202908623300707751225054264960214818115846538394737600000000000000000, 93792789587491242083516160842738671249062832039214189603511909984525266234120282600000000000000000000, -3187239089342049146927080864393358307925224111659041451745843876961275357586891815680000000000000000, 25360928041958402151577269151979521089580352360332550435553483170276725537278259360000000000000000])

theorem etBRF_lit : etBRF = etBRFl := by decide +kernel

def etBTv : List (ℤ × ℤ) := [(2, 16105), (6, 13076), (12, 8304), (22, 3641), (40, 680), (80, 502), (160, 383), (300, 269), (500, 211), (700, 215), (850, 273), (1000, 389), (1100, 652), (1160, 1456), (1195, 2179), (1211, 7770), (1219, 12149), (1223, 14839), (1225, 16324)]

theorem etBTv_0 : pieceOk etBRFl 10000 (10 ^ 18) (0) (2) 16105 = true := by decide +kernel

theorem etBTv_1 : pieceOk etBRFl 10000 (10 ^ 18) (2) (6) 13076 = true := by decide +kernel

theorem etBTv_2 : pieceOk etBRFl 10000 (10 ^ 18) (6) (12) 8304 = true := by decide +kernel

theorem etBTv_3 : pieceOk etBRFl 10000 (10 ^ 18) (12) (22) 3641 = true := by decide +kernel

theorem etBTv_4 : pieceOk etBRFl 10000 (10 ^ 18) (22) (40) 680 = true := by decide +kernel

theorem etBTv_5 : pieceOk etBRFl 10000 (10 ^ 18) (40) (80) 502 = true := by decide +kernel

theorem etBTv_6 : pieceOk etBRFl 10000 (10 ^ 18) (80) (160) 383 = true := by decide +kernel

theorem etBTv_7 : pieceOk etBRFl 10000 (10 ^ 18) (160) (300) 269 = true := by decide +kernel

theorem etBTv_8 : pieceOk etBRFl 10000 (10 ^ 18) (300) (500) 211 = true := by decide +kernel

theorem etBTv_9 : pieceOk etBRFl 10000 (10 ^ 18) (500) (700) 215 = true := by decide +kernel

theorem etBTv_10 : pieceOk etBRFl 10000 (10 ^ 18) (700) (850) 273 = true := by decide +kernel

theorem etBTv_11 : pieceOk etBRFl 10000 (10 ^ 18) (850) (1000) 389 = true := by decide +kernel

theorem etBTv_12 : pieceOk etBRFl 10000 (10 ^ 18) (1000) (1100) 652 = true := by decide +kernel

theorem etBTv_13 : pieceOk etBRFl 10000 (10 ^ 18) (1100) (1160) 1456 = true := by decide +kernel

theorem etBTv_14 : pieceOk etBRFl 10000 (10 ^ 18) (1160) (1195) 2179 = true := by decide +kernel

theorem etBTv_15 : pieceOk etBRFl 10000 (10 ^ 18) (1195) (1211) 7770 = true := by decide +kernel

theorem etBTv_16 : pieceOk etBRFl 10000 (10 ^ 18) (1211) (1219) 12149 = true := by decide +kernel

theorem etBTv_17 : pieceOk etBRFl 10000 (10 ^ 18) (1219) (1223) 14839 = true := by decide +kernel

theorem etBTv_18 : pieceOk etBRFl 10000 (10 ^ 18) (1223) (1225) 16324 = true := by decide +kernel

theorem etBTv_chk : tvChk etBRFl 10000 (10 ^ 18) (0) etBTv = true :=
  tvChk_cons etBTv_0 (tvChk_cons etBTv_1 (tvChk_cons etBTv_2 (tvChk_cons etBTv_3 (tvChk_cons etBTv_4 (tvChk_cons etBTv_5 (tvChk_cons etBTv_6 (tvChk_cons etBTv_7 (tvChk_cons etBTv_8 (tvChk_cons etBTv_9 (tvChk_cons etBTv_10 (tvChk_cons etBTv_11 (tvChk_cons etBTv_12 (tvChk_cons etBTv_13 (tvChk_cons etBTv_14 (tvChk_cons etBTv_15 (tvChk_cons etBTv_16 (tvChk_cons etBTv_17 (tvChk_cons etBTv_18 rfl))))))))))))))))))

theorem etB_var {x : ℝ} (h0 : 0 ≤ x) (h1 : x ≤ 49 / 400) : |etH rBl sBl x - etH rBl sBl (0)| + |etH rBl sBl (49 / 400) - etH rBl sBl x| ≤ 998209 / (10 ^ 18 * 10000) := by
  have e64 : tvEnd (0) etBTv = 1225 := by decide +kernel
  have es : tvSum (0) etBTv = 998209 := by decide +kernel
  have z : (((0 : ℤ) : ℝ) / ((10000 : ℤ) : ℝ)) = 0 := by norm_num
  have o : (((tvEnd (0) etBTv : ℤ) : ℝ) / ((10000 : ℤ) : ℝ)) = 49 / 400 := by rw [e64]; norm_num
  have := tvChk_sound (f := etBRFl) (d := 10000) (b := 10 ^ 18) (by norm_num) (by norm_num) etBTv (0) etBTv_chk (F := etH rBl sBl)
    (by rw [z, o, ← etBRF_lit]; exact fun x hx => etHB_deriv hx.1 hx.2) (x := x) (by rw [z, o]; exact ⟨h0, h1⟩)
  rw [es, z, o] at this
  refine this.trans (le_of_eq ?_)
  norm_num

def etARF : RF := etRF rAl sAl

def etARFl : RF := ([24501136781450888514216674170556972000000000000000000000000000000000000000000000000000, -716196207513763495963506711351913531688314058628470435200000000000000000000000000000000, 3393988461481561973874053248712881716651193726765336581568097893383170175123920000000000, 90682317505554182681530218248632617461116852036023475311150502563394032242080000000000000, -1057744719225124285568071031818245967509899130700495146858343307502336486346572400000000000, -1340150334154139744185859570134668860917926545843868368625338910206196766143395200000000000, 71528553318781043148641734039165654854080526141220465379755946782090988608601424500000000000, -232141657589610241965475154162929743708632193810007216584923861873180063844105835200000000000, -1741950201536541545450143189146126491616724384927861014021382548755017962183720411860000000000, 11803510745265701370348047000687098212789423381463454926058241578128244982078247273665920000000, 6810973877567036754020023172407865222574947247339730634186886934783350524007824434121200000000, -220438138537293423107299317855015574717679662532143658177461300400321050476227808294811200000000, 353252142024382146943597332752717394260899806372832143420592602434650169480521269080810400000000, 1780575409823519380540540659749622427192722909505954526846519297024318498367421110385704000000000, -5770847079188043903303022118233663850046142091778766040552969580094127912964608877492412350000000, -4681034453630753733039412838425467377123635437820256704651500098006403461088984977037637680000000, 36557222466427544241370584839031225548966618235308871345644432755249653694333808386713397044480000, -13918972604581098890263441697960818045405948191745894616890139354110586253170609232063987734400000, -111873645502475773000129253621369633348467425646539646449240953326600026826965281395651270032000000, 102988947103405327132127327423650106775878439114398471362531558857240393089508719130197693400000000, 178419465811913958278732938314386048707513846393368238696502875245425205946407032941336815600000000, -212062007119918907443678619110125655253050670643524966787576568507373002525942037434774465400000000, -166745112831522077747243655958155370852079357502007858683124213159303700605851474686206274500000000, 185042158501424139970389122302330495345333324648323330126919397204715240279608487875631691213840000, 114142188341211267308040194143631022160635504613246769913077523833778386572866330903903302229440000, -55299545565920465299569313438120773354890888925888583661658285982189573484067919185091887043200000, -47470511179961537640625860466600778198107742144555881021825144804102740495105850063583426880000000, -9981703952108988111065571319413017991231860790330083071713846297776994922826548721118873600000000, -657985702086834685805666202324290222676433762888077529110459636319399403623474962877857600000000, -8856274375803815594611392901111574509961193771572991721812653868798037374733299370702080000000, 299729619620035031312437500399401193136316710835799830385360478310391736180577295986592000000, -796321361236200082994953984290057049838277820674617871763920003652590355348251628704000000, 1333060389661830666322408792668131048237397269704653403176790528271471834029091763360000], [200000000000000000000000000000000000000000000000000000000000000000000000000000000000000000000, 15821017333951405703360000000000000000000000000000000000000000000000000000000000000000000000000, 581293685783293131206344148808240304761724972000000000000000000000000000000000000000000000000000, 13190192821062749991591760105832167605568490936130015111074799964800000000000000000000000000000000, 207347792793044523662423414731380661355352584668076319353200726375059027797362320606080000000000000, 2401335116503306598273428402316120181826050471983464641354062485024995149743769777920000000000000000, 21274054826160715069754271456818378590623754251102680347332974258196879491142268415112000000000000000, 147791899106970441978551468337550212966192239822381889003905734918265782683292062794470400000000000000, 818902996359338797140224684707434213259036160328805220607512393571609839857035867617936800000000000000, 3662199783044054481928627313358676606335181716678690838901709625326041240429959417483468800000000000000, 13327393549004984163497191241320789994952036317396119672401669036772493695250673785406200160000000000000, 39684348483648218320710749459634803795035937017752302315274683163088905328700818116666650588800000000000, 97005298571788889176775654650181673082146729736183845429524144123638122497819323733681792374400000000000, 194943946552405477454168882134066542110730738493043189214397250533432984637843188798812127545600000000000, 322026206869635320528064435497947494251274379936860005829392007086153646708509473554110851618400000000000, 436520726387612341189360925486470159918800249023834496221536063699557029708368084906340442559200000000000, 484012468196234880742033671841212737267446581586094968472255619681186244720201098582357587010000000000000, 436879437203980095629774933595853693827021723214840106017539251194594182384790947437127331892480000000000, 318914125159707532246640107926777217821084649965288223531532025908152187844612104420661883510582560000000, 186665444890823610552915686424137344611440340361704522683868334702344314032053774548758175074716800000000, 86642099178466894597590077075025555040211886365152271491381694167183781617567332318086773276119600000000, 31440670621793070161171685432916520950006080028317906126064837679946772889013821545424979531264000000000, 8756217559300128607348063144515353796556138034780350164676771245309330467500924490924060535484400000000, 1825914907315812233950279900041883452500290787202749291527788482907288266205166835373621679377200000000, 275463543297470269298718956133205853897858805431066365444573579077792984058818902904451920306420000000, 28562374058596536821079861688795218906600662564706462571679515706230623969879318846598779388275840000, 1857130964301409540620757784205760101360932861027518810427242940873314987583828415858377541062400000, 55595620560925238317258243525055562629097864183894899670569335336495489242339711198694669440000000, -1872713320557657884239535561476872432149157816057330687978603298612588758219052872452889600000000, -259849017225886876174401694578693831260090779304249129783018040360423915331686057494078400000000, -6011720924820482896155967966895102627319267552004118300743508990108752790864745222456000000000, 170820697043641071541955433059147924275914822697843018103646168923668072455398790214560000000, -1010175229161551294882044095114995977526226563813930951183595399395273231267583811001280000, 1333060389661830666322408792668131048237397269704653403176790528271471834029091763360000])

theorem etARF_lit : etARF = etARFl := by decide +kernel

def etATv : List (ℤ × ℤ) := [(1228, 5873), (1236, 5360), (1250, 4136), (1275, 2443), (1330, 623), (1450, 623), (1625, 313), (1925, 243), (2225, 179), (2525, 181), (2825, 165), (3125, 171), (3425, 180), (3725, 198), (4025, 190), (4325, 236), (4625, 208), (4925, 311), (5225, 389), (5525, 438), (5750, 736), (5950, 744), (6100, 1576), (6210, 1698), (6290, 2931), (6335, 7424), (6362, 11275), (6380, 14431), (6391, 16620), (6397, 17904), (6400, 18570)]

theorem etATv_0 : pieceOk etARFl 10000 (10 ^ 18) (1225) (1228) 5873 = true := by decide +kernel

theorem etATv_1 : pieceOk etARFl 10000 (10 ^ 18) (1228) (1236) 5360 = true := by decide +kernel

theorem etATv_2 : pieceOk etARFl 10000 (10 ^ 18) (1236) (1250) 4136 = true := by decide +kernel

theorem etATv_3 : pieceOk etARFl 10000 (10 ^ 18) (1250) (1275) 2443 = true := by decide +kernel

theorem etATv_4 : pieceOk etARFl 10000 (10 ^ 18) (1275) (1330) 623 = true := by decide +kernel

theorem etATv_5 : pieceOk etARFl 10000 (10 ^ 18) (1330) (1450) 623 = true := by decide +kernel

theorem etATv_6 : pieceOk etARFl 10000 (10 ^ 18) (1450) (1625) 313 = true := by decide +kernel

theorem etATv_7 : pieceOk etARFl 10000 (10 ^ 18) (1625) (1925) 243 = true := by decide +kernel

theorem etATv_8 : pieceOk etARFl 10000 (10 ^ 18) (1925) (2225) 179 = true := by decide +kernel

theorem etATv_9 : pieceOk etARFl 10000 (10 ^ 18) (2225) (2525) 181 = true := by decide +kernel

theorem etATv_10 : pieceOk etARFl 10000 (10 ^ 18) (2525) (2825) 165 = true := by decide +kernel

theorem etATv_11 : pieceOk etARFl 10000 (10 ^ 18) (2825) (3125) 171 = true := by decide +kernel

theorem etATv_12 : pieceOk etARFl 10000 (10 ^ 18) (3125) (3425) 180 = true := by decide +kernel

theorem etATv_13 : pieceOk etARFl 10000 (10 ^ 18) (3425) (3725) 198 = true := by decide +kernel

theorem etATv_14 : pieceOk etARFl 10000 (10 ^ 18) (3725) (4025) 190 = true := by decide +kernel

theorem etATv_15 : pieceOk etARFl 10000 (10 ^ 18) (4025) (4325) 236 = true := by decide +kernel

theorem etATv_16 : pieceOk etARFl 10000 (10 ^ 18) (4325) (4625) 208 = true := by decide +kernel

theorem etATv_17 : pieceOk etARFl 10000 (10 ^ 18) (4625) (4925) 311 = true := by decide +kernel

theorem etATv_18 : pieceOk etARFl 10000 (10 ^ 18) (4925) (5225) 389 = true := by decide +kernel

theorem etATv_19 : pieceOk etARFl 10000 (10 ^ 18) (5225) (5525) 438 = true := by decide +kernel

theorem etATv_20 : pieceOk etARFl 10000 (10 ^ 18) (5525) (5750) 736 = true := by decide +kernel

theorem etATv_21 : pieceOk etARFl 10000 (10 ^ 18) (5750) (5950) 744 = true := by decide +kernel

theorem etATv_22 : pieceOk etARFl 10000 (10 ^ 18) (5950) (6100) 1576 = true := by decide +kernel

theorem etATv_23 : pieceOk etARFl 10000 (10 ^ 18) (6100) (6210) 1698 = true := by decide +kernel

theorem etATv_24 : pieceOk etARFl 10000 (10 ^ 18) (6210) (6290) 2931 = true := by decide +kernel

theorem etATv_25 : pieceOk etARFl 10000 (10 ^ 18) (6290) (6335) 7424 = true := by decide +kernel

theorem etATv_26 : pieceOk etARFl 10000 (10 ^ 18) (6335) (6362) 11275 = true := by decide +kernel

theorem etATv_27 : pieceOk etARFl 10000 (10 ^ 18) (6362) (6380) 14431 = true := by decide +kernel

theorem etATv_28 : pieceOk etARFl 10000 (10 ^ 18) (6380) (6391) 16620 = true := by decide +kernel

theorem etATv_29 : pieceOk etARFl 10000 (10 ^ 18) (6391) (6397) 17904 = true := by decide +kernel

theorem etATv_30 : pieceOk etARFl 10000 (10 ^ 18) (6397) (6400) 18570 = true := by decide +kernel

theorem etATv_chk : tvChk etARFl 10000 (10 ^ 18) (1225) etATv = true :=
  tvChk_cons etATv_0 (tvChk_cons etATv_1 (tvChk_cons etATv_2 (tvChk_cons etATv_3 (tvChk_cons etATv_4 (tvChk_cons etATv_5 (tvChk_cons etATv_6 (tvChk_cons etATv_7 (tvChk_cons etATv_8 (tvChk_cons etATv_9 (tvChk_cons etATv_10 (tvChk_cons etATv_11 (tvChk_cons etATv_12 (tvChk_cons etATv_13 (tvChk_cons etATv_14 (tvChk_cons etATv_15 (tvChk_cons etATv_16 (tvChk_cons etATv_17 (tvChk_cons etATv_18 (tvChk_cons etATv_19 (tvChk_cons etATv_20 (tvChk_cons etATv_21 (tvChk_cons etATv_22 (tvChk_cons etATv_23 (tvChk_cons etATv_24 (tvChk_cons etATv_25 (tvChk_cons etATv_26 (tvChk_cons etATv_27 (tvChk_cons etATv_28 (tvChk_cons etATv_29 (tvChk_cons etATv_30 rfl))))))))))))))))))))))))))))))

theorem etA_var {x : ℝ} (h0 : 49 / 400 ≤ x) (h1 : x ≤ 16 / 25) : |etH rAl sAl x - etH rAl sAl (49 / 400)| + |etH rAl sAl (16 / 25) - etH rAl sAl x| ≤ 3486255 / (10 ^ 18 * 10000) := by
  have e64 : tvEnd (1225) etATv = 6400 := by decide +kernel
  have es : tvSum (1225) etATv = 3486255 := by decide +kernel
  have z : (((1225 : ℤ) : ℝ) / ((10000 : ℤ) : ℝ)) = 49 / 400 := by norm_num
  have o : (((tvEnd (1225) etATv : ℤ) : ℝ) / ((10000 : ℤ) : ℝ)) = 16 / 25 := by rw [e64]; norm_num
  have := tvChk_sound (f := etARFl) (d := 10000) (b := 10 ^ 18) (by norm_num) (by norm_num) etATv (1225) etATv_chk (F := etH rAl sAl)
    (by rw [z, o, ← etARF_lit]; exact fun x hx => etHA_deriv hx.1 hx.2) (x := x) (by rw [z, o]; exact ⟨h0, h1⟩)
  rw [es, z, o] at this
  refine this.trans (le_of_eq ?_)
  norm_num

end Russell.Lab
