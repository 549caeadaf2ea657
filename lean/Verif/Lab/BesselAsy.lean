import Verif.Lab.BesselOde
import Verif.Lab.GammaCore

/-!
# The rational functions of `bessel_j0` and `bessel_j1` for `x ≥ 2` (background of property C117)

`pzero`, `x qzero`, `pone`, `x qone` as quotients of polynomials in `1 / x²` with integer coefficients, one quadruple for each of the four branches, and the
residuals of the approximations in the differential equations of `√x J₀` and `√x J₁`.
-/

namespace Russell.Lab

open Real Set

/-- `-2 t u' - g - s u / 2 + h` -/
def brkA (s : ℤ) (u g h : RF) : RF :=
  (addL (addL (smulL (-4) (mulL (mulL (0 :: quotD 1 u.1 u.2) g.2) h.2)) (smulL (-2) (mulL (mulL g.1 (mulL u.2 u.2)) h.2)))
    (addL (smulL (-s) (mulL (mulL u.1 u.2) (mulL g.2 h.2))) (smulL 2 (mulL (mulL h.1 (mulL u.2 u.2)) g.2))),
   smulL 2 (mulL (mulL u.2 u.2) (mulL g.2 h.2)))

/-- `v - u + s t (c g / 2 + 2 t g')` -/
def brkB (s c : ℤ) (u v g : RF) : RF :=
  (addL (smulL 2 (mulL (addL (mulL v.1 u.2) (smulL (-1) (mulL u.1 v.2))) (mulL g.2 g.2)))
    (smulL s (mulL (mulL u.2 v.2) (0 :: addL (smulL c (mulL g.1 g.2)) (smulL 4 (0 :: quotD 1 g.1 g.2))))),
   smulL 2 (mulL (mulL u.2 v.2) (mulL g.2 g.2)))

/-- derivative of a quotient -/
noncomputable def rfD (f : RF) (x : ℝ) : ℝ := polyEval (quotD 1 f.1 f.2) x / polyEval f.2 x ^ 2

theorem rfD_deriv (f : RF) {x : ℝ} (h : 0 < polyEval f.2 x) : HasDerivAt (rfEval f) (rfD f x) x := by
  have := quotD_deriv 0 f.1 f.2 h
  simp only [zero_add, pow_one] at this
  exact this

theorem brkA_eval (s : ℤ) {u g h : RF} {t : ℝ} (hu : 0 < polyEval u.2 t) (hg : 0 < polyEval g.2 t) (hh : 0 < polyEval h.2 t) :
    rfEval (brkA s u g h) t = -2 * t * rfD u t - rfEval g t - s * rfEval u t / 2 + rfEval h t ∧ 0 < polyEval (brkA s u g h).2 t := by
  simp only [brkA, rfEval, rfD, polyEval_add, polyEval_mul, polyEval_smul, polyEval]
  generalize polyEval u.2 t = a at *
  generalize polyEval g.2 t = b at *
  generalize polyEval h.2 t = c at *
  refine ⟨?_, by push_cast; positivity⟩
  push_cast
  field_simp
  ring

theorem brkB_eval (s c : ℤ) {u v g : RF} {t : ℝ} (hu : 0 < polyEval u.2 t) (hv : 0 < polyEval v.2 t) (hg : 0 < polyEval g.2 t) :
    rfEval (brkB s c u v g) t = rfEval v t - rfEval u t + s * (t * (c / 2 * rfEval g t + 2 * t * rfD g t)) ∧ 0 < polyEval (brkB s c u v g).2 t := by
  simp only [brkB, rfEval, rfD, polyEval_add, polyEval_mul, polyEval_smul, polyEval]
  generalize polyEval u.2 t = a at *
  generalize polyEval g.2 t = b at *
  generalize polyEval v.2 t = d at *
  refine ⟨?_, by push_cast; positivity⟩
  push_cast
  field_simp
  ring

theorem chk_cons {l : List ℤ} {d p q : ℤ} {r : List ℤ} (h : chkPiece l d p q = true) (h2 : chkChain l d q r = true) : chkChain l d p (q :: r) = true := by
  rw [chkChain, h, h2]; rfl

theorem rf_bound2 (f : RF) (a b d p : ℤ) {l m : List ℤ} (r r' : List ℤ) (hr : r ≠ []) (hr' : r' ≠ []) (hd : 0 < d) (hb : 0 < b)
    (e1 : addL (smulL a f.2) (smulL b f.1) = l) (e2 : addL (smulL a f.2) (smulL (-b) f.1) = m) (h1 : chkChain l d p r = true) (h2 : chkChain m d p r' = true)
    {x : ℝ} (hp : 0 < polyEval f.2 x) (hx1 : (p : ℝ) / d ≤ x) (hx2 : x ≤ ((r.getLast hr : ℤ) : ℝ) / d) (hx3 : x ≤ ((r'.getLast hr' : ℤ) : ℝ) / d) : |rfEval f x| ≤ a / b := by
  subst e1 e2
  have e1 := chkChain_sound hd p r hr h1 hx1 hx2
  have e2 := chkChain_sound hd p r' hr' h2 hx1 hx3
  simp only [polyEval_add, polyEval_smul] at e1 e2
  push_cast at e1 e2
  have hb' : (0 : ℝ) < b := by exact_mod_cast hb
  rw [rfEval, abs_le]
  constructor
  · rw [neg_le_iff_add_nonneg, div_add_div _ _ hp.ne' hb'.ne']
    exact div_nonneg (by linarith) (by positivity)
  · rw [div_le_div_iff₀ hp hb']
    linarith

theorem rf_bound2t (f : RF) (a b d p : ℤ) {l m : List ℤ} (r r' : List ℤ) (hr : r ≠ []) (hr' : r' ≠ []) (hd : 0 < d) (hb : 0 < b)
    (e1 : addL (0 :: smulL a f.2) (smulL b f.1) = l) (e2 : addL (0 :: smulL a f.2) (smulL (-b) f.1) = m) (h1 : chkChain l d p r = true) (h2 : chkChain m d p r' = true)
    {x : ℝ} (hp : 0 < polyEval f.2 x) (hx1 : (p : ℝ) / d ≤ x) (hx2 : x ≤ ((r.getLast hr : ℤ) : ℝ) / d) (hx3 : x ≤ ((r'.getLast hr' : ℤ) : ℝ) / d) : |rfEval f x| ≤ a / b * x := by
  subst e1 e2
  have e1 := chkChain_sound hd p r hr h1 hx1 hx2
  have e2 := chkChain_sound hd p r' hr' h2 hx1 hx3
  simp only [polyEval_add, polyEval_smul, polyEval] at e1 e2
  push_cast at e1 e2
  have hb' : (0 : ℝ) < b := by exact_mod_cast hb
  rw [rfEval, abs_le, div_mul_eq_mul_div]
  constructor
  · rw [neg_le_iff_add_nonneg, div_add_div _ _ hp.ne' hb'.ne']
    exact div_nonneg (by linarith) (by positivity)
  · rw [div_le_div_iff₀ hp hb']
    linarith

theorem chk_pos {l : List ℤ} {d p q : ℤ} (hd : 0 < d) (h : chkPiece (addL l [-1]) d p q = true) {x : ℝ} (h1 : (p : ℝ) / d ≤ x) (h2 : x ≤ (q : ℝ) / d) : 0 < polyEval l x := by
  have := chkPiece_sound hd h h1 h2
  rw [polyEval_add] at this
  simp only [polyEval] at this
  push_cast at this
  linarith

def bU08 : RF := ([2500000000000000000000, 291160130299170479203129, 9564157708071161922984350, 100851985397918874269845000, 285669390385704068648900000, 105936711524414502036950000], [2500000000000000000000, 291335911549170454292500, 9584361884103045667875000, 101494643162118136388000000, 291882431410939789202500000, 119069321036682740668750000])

def bG08 : RF := ([-1250000000000000000000, -203987611744612345465547, -10005249118523369880051000, -172596130471336576874410000, -915544599323746133449550000, -680480706996937806251500000, 429874116922333269031250000], [10000000000000000000000, 1637760268956898244140000, 80983449465644980591600000, 1425382914191204763480000000, 8033092571195143973450000000, 8405015798190605128180000000, -3438992935378666152250000000])

def bU18 : RF := ([100000000000000000000, 11432455787567839708397, 366417031486784199145290, 3736825788121072491772500, 10147753898263468545337000, 3871875160310779847354000], [100000000000000000000, 11420737037567840843600, 365093083420853463394000, 3695620602690334635550000, 9760279359349508013110000, 3080427206278888115780000])

def bG18 : RF := ([375000000000000000000, 60420724575271098369339, 2918247996258097746389950, 49443649385204641703229000, 258021839710972393731925000, 201536949803091105423000000, -110433849113937991205625000], [1000000000000000000000, 161395369700722909556000, 7825385999233484653810000, 133875336287249578163000000, 719657723683240939863000000, 666601232617776375264000000, -294490264303834643215000000])

def bk1p8 : List ℤ := [0, 733751837500000000000000000000000000000000000000000000000000000000000000000000000000000, 15379920791232653540429074799550000000000000000000000000000000000000000000000000000000000000, -27801481357138685046467368468301595705580660900749487500000000000000000000000000000000000000000, 20700659233898983942192777360513212449912369382588424079944964848093515800000000000000000000000000, -6614742415461255082878982106541880947725146978456849753852283037676068196256144739701000000000000000, 800103873474445204560045401595041066970473528203273899047792454072239288518786592590087500000000000000, 34895316611621986852878975020752060356448831879824018764846897614655846990869943428933150000000000000000, -15440318879997156215286535357019409494279887271548400840247130198753344591224743316865356500000000000000000, 619262924285592588869282431114056608694136419286349276649321182936521616144506641224971435250000000000000000, 82846339557920436841466270701170668576134720052469301727924020971355651902983751583268747091250000000000000000, -5037259649834929109485937923191547777232664277229315869676735449018732746600679948708285962381250000000000000000, -219492143750195884424627883418431293500277959190750425277824065502360527992664077042992512676875000000000000000000, 12506287306431790718318815110614060272674999420433110353487352271437905594902714080509014452490125000000000000000000, 420242046336007442396092254046151130911353120695845013597484067808904288870561681285098914399951875000000000000000000, -8836090850425748462656029958073283761111741414185369548183918618156457879085003210851433887907084375000000000000000000, -461599953973463080123416017301751440881700323745765903707710498573321738333086618157961777713999812500000000000000000000, -6155035018410091650572376896029101855637446692123071524755830082769048408617998940964387989502483750000000000000000000000, -33960147696877611188962298772124522985635733802195512509143249972799267750640369570184139827073701562500000000000000000000, -73950939499836285073412017550235058907664253762564520910585187423252701160385549338629743512352023437500000000000000000000, -44494149370402011231775069390752056581569705890867772814954482370181572035086294113372454281783437500000000000000000000000, 17521697489416281839142579795405793767251562916896340242644079799499149255458424769225947215767187500000000000000000000000, 1583627860815770271396769699379161633344253166490869451668477229263777086454606826986837822179687500000000000000000000000, 488181027199671766904370108572228852549532920403938746969667666340496444770993261718750000000000000000000000]

theorem bk1p8_lit : addL (0 :: smulL 17 (brkA 1 bU08 bG08 bG18).2) (smulL 1000000000000000 (brkA 1 bU08 bG08 bG18).1) = bk1p8 := by decide +kernel

theorem bk1p8_0 : chkPiece bk1p8 4096 0 32 = true := by decide +kernel

theorem bk1p8_1 : chkPiece bk1p8 4096 32 64 = true := by decide +kernel

theorem bk1p8_chk : chkChain bk1p8 4096 0 [32, 64] = true := chk_cons bk1p8_0 (chk_cons bk1p8_1 rfl)

def bk1m8 : List ℤ := [0, 3516248162500000000000000000000000000000000000000000000000000000000000000000000000000000, -13007400256430719876462074799550000000000000000000000000000000000000000000000000000000000000, 28393895041692112567899633901833579532620986150749487500000000000000000000000000000000000000000, -20613020413543285565361231699637647019518241424634981011347155307593515800000000000000000000000000, 6623322763658308570475468976108917780369964451363098045867537142651902987993855260299000000000000000, -799515341902735161882808444144603774211764693149092531086520472997839918901213407409912500000000000000, -34866101290657527867983078116697484299043326264484199190045651891619958195580056571066850000000000000000, 15441388592954973010936055603319681251003542744957487571383490235876137182895556683134643500000000000000000, -619233736186138145361588800459076409961097504359249590436472719158013891011975733775028564750000000000000000, -82845743696162962318248392914345218595560332722969375357855687125484044094000350916731252908750000000000000000, 5037268739437724754674237409296305679980525876296023133265060825304755199946610913791714037618750000000000000000, 219492246730635384829623557850952121843196285289285404299306905265541089097673464507007487323125000000000000000000, -12506286449596280251710078445682768205093634510005819334919230536213615142354145500303485547509875000000000000000000, -420242041190451801668016448766965882021708094111837821086433387380616062314831841662401085600048125000000000000000000, 8836090872163861777891246277008673544831791668998746235951928232564759234620222988692316112092915625000000000000000000, 461599954035627736948888100619724898748526078623975632390925533311919856608982323719163222286000187500000000000000000000, 6155035018523120649820867374490536624038628563980469905782110743817351956183939591275455760497516250000000000000000000000, 33960147696993065693492589354858536560576997458520663128783391479495463103498198580612735172926298437500000000000000000000, 73950939499880369840152016054890245249911529310673782995534334870853018467722135117776506487647976562500000000000000000000, 44494149370384540716614698719036236567070552806537535523365711562110144745930103174127545718216562500000000000000000000000, -17521697489430549929129463148764123724699790488947668805247470384624362128398439824524052784232812500000000000000000000000, -1583627860815579763059821457445344800676711601084393065925583920607411293376115048013162177820312500000000000000000000000, 488181027199671766904370108572228852549532920403938746969667666340496444770993261718750000000000000000000000]

theorem bk1m8_lit : addL (0 :: smulL 17 (brkA 1 bU08 bG08 bG18).2) (smulL (-1000000000000000) (brkA 1 bU08 bG08 bG18).1) = bk1m8 := by decide +kernel

theorem bk1m8_0 : chkPiece bk1m8 4096 0 16 = true := by decide +kernel

theorem bk1m8_1 : chkPiece bk1m8 4096 16 32 = true := by decide +kernel

theorem bk1m8_2 : chkPiece bk1m8 4096 32 64 = true := by decide +kernel

theorem bk1m8_chk : chkChain bk1m8 4096 0 [16, 32, 64] = true := chk_cons bk1m8_0 (chk_cons bk1m8_1 (chk_cons bk1m8_2 rfl))

def bk2p8 : List ℤ := [0, 34185920000000000000000000000000000000000000000000000000000000000000000000000000000000, 4671980036653951151970727001380000000000000000000000000000000000000000000000000000000000000, -4620405143406528239444435539104438842188422629170320000000000000000000000000000000000000000000, 2431280164798277957094381810469520973058061920947034544643015424031909520000000000000000000000000, -551035099390047884040051598919782237447512392803868661857474982682218654773280707412800000000000000, 41271842528679744610225518345057178104159857010926463590415691978630407806387295390664000000000000000, 4965917739857120539015191473029090119680464925448449288765843265098772786147266157617880000000000000000, -961993243934584191075759545555111977003916072867250462210568751917972144155768798707309480000000000000000, 15905297622435936189743375043662413290100903782852261650012099770434145698895465948793792960000000000000000, 5281751285041328981918611319411607310518830030121392332693869610899776983994430603046677932800000000000000000, -225388826332121457270118127626687315400372632157759318895354629527895206679410438846253227068000000000000000000, -11774252093678996806580767827606228972574443731363702690827202999174613310266565658047586878460000000000000000000, 575908768196452304238137885398185647679269533979908237132235469717888667889914167886238422549840000000000000000000, 15989682935107536000351298299907235530554956718642446143819939789218160026051838855158107868403600000000000000000000, -481163589861865376715754888016965175325938531910628965531037819319396915744768732541431658807226000000000000000000000, -14161672592327409476737443203120681817832181385344506985610578620461745456121218463643362860493190000000000000000000000, -22488076463132507977567905525953237257452481521512043944258139177642409731282562714442595680395710000000000000000000000, 1690504833530205317985185339163258174668593413244399925867911713905153429270199265357434235788487750000000000000000000000, 13798845841387676194863774835911611974462413398541697771684324094266504675030438641925231299336574000000000000000000000000, 36230002205881547494484558543518605467556361222931577142506701939931482577587739561034542859296370000000000000000000000000, 27668441371089703556014337605276985243893935589479404985605250567010305667121467912946777863413725000000000000000000000000, 2462410199587010660711670581050232003829799951384091553293666150649036789281445613198757296631875000000000000000000000000, -1626689497262933051718075032775512419635564165151940202557184074173376196113366418484739503343750000000000000000000000000]

theorem bk2p8_lit : addL (0 :: smulL 22 (brkB 1 3 bU08 bU18 bG08).2) (smulL 1000000000000000 (brkB 1 3 bU08 bU18 bG08).1) = bk2p8 := by decide +kernel

theorem bk2p8_0 : chkPiece bk2p8 4096 0 64 = true := by decide +kernel

theorem bk2p8_chk : chkChain bk2p8 4096 0 [64] = true := chk_cons bk2p8_0 rfl

def bk2m8 : List ℤ := [0, 2165814080000000000000000000000000000000000000000000000000000000000000000000000000000000, -3443733701323153426212527001380000000000000000000000000000000000000000000000000000000000000, 4927069666409699094958062045711621721585545029170320000000000000000000000000000000000000000000, -2385925092384217319199747988550850913610243596386448716722475911231909520000000000000000000000000, 555473809879755349264586682973477517632994180249385638625378871936803656866719292587200000000000000, -40967561038210264031553637712489298523669316136037363023385416503840383406212704609336000000000000000, -4950823995636070610295897740973455414083948888016700546297477056837576047525733842382120000000000000000, 962545387668902201861118365213732410913132855074860790332423016897976855351138201292690520000000000000000, -15890249098687516949054181235545266168421066949113671093740265788468213029569782051206207040000000000000000, -5281444508851965938989929548689866576061960174106658426022168953522315637832835756953322067200000000000000000, 225393497928715019693898208142469446226029780590615837269770466835291923948130514853746772932000000000000000000, 11774304905854381910430507330763944571144410497621562379645971496517882750159104615952413121540000000000000000000, -575908329981600783121955598427354131759026227156312836576121385210992905580963947645261577450160000000000000000000, -15989680312806895460950519992941086541421831214513300118652155097891001546566571855391892131596400000000000000000000, 481163600887778519423041989886836197600867076616700911642263416270727170545870573732918341192774000000000000000000000, 14161672623649839645659497724006562794663914951629789895311113635218728454119318000232887139506810000000000000000000000, 22488076519506456766333261493801962605858033189282117538464943984062085382474839558366154319604290000000000000000000000, -1690504833473735219129227227210757275275515245669273188144540258850837744330631107279878264211512250000000000000000000000, -13798845841367540607463134513757562627252801154886221356936217125225112266371615923099768700663426000000000000000000000000, -36230002205890805521909989243389072869786015657700479350908763823150305079830951906990457140703630000000000000000000000000, -27668441371095944627815021489703311526844776724795320275714256741258646589192281361740722136586275000000000000000000000000, -2462410199586731318531217022297375491853351622098300429047050320406413231292086644613742703368125000000000000000000000000, 1626689497263314781520099445854612365441056766460055859413159881711314049804190222140260496656250000000000000000000000000]

theorem bk2m8_lit : addL (0 :: smulL 22 (brkB 1 3 bU08 bU18 bG08).2) (smulL (-1000000000000000) (brkB 1 3 bU08 bU18 bG08).1) = bk2m8 := by decide +kernel

theorem bk2m8_0 : chkPiece bk2m8 4096 0 32 = true := by decide +kernel

theorem bk2m8_1 : chkPiece bk2m8 4096 32 64 = true := by decide +kernel

theorem bk2m8_chk : chkChain bk2m8 4096 0 [32, 64] = true := chk_cons bk2m8_0 (chk_cons bk2m8_1 rfl)

def bk3p8 : List ℤ := [0, 341859200000000000000000000000000000000000000000000000000000000000000000000000000000, 46720431276886220252627622026600000000000000000000000000000000000000000000000000000000000, -46433831613614760923462098000834367078491935205374400000000000000000000000000000000000000000, 24549586410765662132505208676576901545268658365584514609903329044018883200000000000000000000000, -5637481650391593771053985451727555844148902048910056486426732014486657036118480496448000000000000, 443632023600908667800714662328227451433817103113503478664323395240229440322607950859520000000000000, 46707813812896324716074603319306634785234995716835830273188635783751580623475442226830000000000000000, -9758563621308691251262804284832306340535647166982155219234778717129123039595757214790906800000000000000, 204941454124652032504423743592913075656855323691168290898264873281229519006571857641645319600000000000000, 51195488364168851663580094496027835713995727267242960343197438701283946534111624993715780742000000000000000, -2448667181233615007395017416487029586324449558616077715008221684750775436043720733001620742080000000000000000, -106085977722138891411800520165083668963903283525209832703253502314608886565876956564684601404800000000000000000, 6117747368167714974692573284044747164220420808646909204342254743670338213699462749267993067363800000000000000000, 135961327700327983457598116989941133200556320277587974405821420946453110242827112645330835584405000000000000000000, -5346009337942641347402898498871255823960880699807421201453961723210602608009283679254700174706250000000000000000000, -125428070949372696137611367940002600597152486988627881440706655126797551521515323796731228500427500000000000000000000, 316738212445218589163834681850661217524376124051672856352799500407757080289936928447529908369274100000000000000000000, 22051600731726009317734806726713250339766406013799959273569464063916027223375483457963000450532650500000000000000000000, 155584757872136548351403671352179646187464618433238556512804883767734593308992948123645184880935170000000000000000000000, 376695328738114009164522829642729865519517581648226968977902012696664913164921370996608358911269100000000000000000000000, 260407797425276966048611639868982584724444386452621501674340346424027668414441807268538390152190250000000000000000000000, 26024079341945459841364382476943683009358428987006648396795080900015754727324681306840065983868750000000000000000000000, -11928449023710745929576561375656949928241990360616035364868129278880425827197048857969433880037500000000000000000000000]

theorem bk3p8_lit : addL (0 :: smulL 22 (brkB (-1) 1 bU08 bU18 bG18).2) (smulL 1000000000000000 (brkB (-1) 1 bU08 bU18 bG18).1) = bk3p8 := by decide +kernel

theorem bk3p8_0 : chkPiece bk3p8 4096 0 64 = true := by decide +kernel

theorem bk3p8_chk : chkChain bk3p8 4096 0 [64] = true := chk_cons bk3p8_0 rfl

def bk3m8 : List ℤ := [0, 21658140800000000000000000000000000000000000000000000000000000000000000000000000000000, -34542716840156787248797622026600000000000000000000000000000000000000000000000000000000000, 49447266027465785580339154949358098820781383205374400000000000000000000000000000000000000000, -24108082603477280920957221143961203660995421097764058751460749300018883200000000000000000000000, 5680259623109030009912812175537624833070946446707186246786558733051131723881519503552000000000000, -440730763236535904843975767298036696359631392071695412791436632767869709297392049140480000000000000, -46565550802405308476182772581838212662794032623875718634878093930898807103064557773170000000000000000, 9763702886411945433468576437986641123291636910085450735981977479029396628981422785209093200000000000000, -204803292485685369142443127727354598864906101803030015634936663804995871105782842358354680400000000000000, -51192714064441288580266902390236627082576274084598509361241044495630493663409678006284219258000000000000000, 2448708724971758111663831654140775472394785009477401004879946728481878905971909546998379257920000000000000000, 106086438607196058448436058409638171958936621740788135673502662214358542579063736375315398595200000000000000000, -6117743624843986492811659904181526962288620897324022040708982034141947803857591865732006932636200000000000000000, -135961305845219222403717313526840902785312958644916230051198577541297103068549981871669164415595000000000000000000, 5346009427213868313605243917716410952369180985142077609969279500870178905533647937575299825293750000000000000000000, 125428071194235381414948815893381158207130347084189472329304319812142984884457620429773771499572500000000000000000000, -316738212023812458339235975354874529613943700755082572663152329561298464209935092232445091630725900000000000000000000, -22051600731330367061510516897572421660659389331186644975248401484552872387949134540046499549467349500000000000000000000, -155584757872017600842083699243631969652775808553108852738815730591695490305198709469779815119064830000000000000000000000, -376695328738189952847157595084871580682125722172424141017064584054333885446930719940641641088730900000000000000000000000, -260407797425320035788712178740756732231679083179129873336381965434918554890087002170836609847809750000000000000000000000, -26024079341942401159278367311031319786500188443033037298604881712687309508791714621284934016131250000000000000000000000, 11928449023713545138947459159142323413318073475354778412358216521030287051770905048280566119962500000000000000000000000]

theorem bk3m8_lit : addL (0 :: smulL 22 (brkB (-1) 1 bU08 bU18 bG18).2) (smulL (-1000000000000000) (brkB (-1) 1 bU08 bU18 bG18).1) = bk3m8 := by decide +kernel

theorem bk3m8_0 : chkPiece bk3m8 4096 0 32 = true := by decide +kernel

theorem bk3m8_1 : chkPiece bk3m8 4096 32 64 = true := by decide +kernel

theorem bk3m8_chk : chkChain bk3m8 4096 0 [32, 64] = true := chk_cons bk3m8_0 (chk_cons bk3m8_1 rfl)

def bk4p8 : List ℤ := [0, 4649480260000000000000000000000000000000000000000000000000000000000000000000000000000, -16750870448591460915576902291120000000000000000000000000000000000000000000000000000000000, 43944330408199420899643601793859560089350414691532480000000000000000000000000000000000000000, -33836174382012839190587723478335555332330038329216831853882484516594448640000000000000000000000, 11311996758552948203585194228951184248734543164637733822088894473505630716078867846656000000000000, -1433086783682140653019286721474962436934906117347668153165852447005990132754285636824320000000000000, -49964208369083982403158827364288617909451645027607097229070144440707847075972022988032000000000000000, 26595984426000084363826305545342292713843698592255924557995998106996060786344782676355411200000000000000, -1178313385179001321129954574667474152140538461373678155853864726506011356152738958789058598400000000000000, -137378280917945890830836832068556364669428647669331041492814814048939843383455665400852526176000000000000000, 9059901027105242828780550439915652893862329793555001318443743388900714430306998181513124377600000000000000000, 352637038163977986518493168885772691773247449674213584452859632871066568635432756726614648731360000000000000000, -22208126935396856187891960422059003201469219489365332423980667249985808313524321767667611176012160000000000000000, -680257702925462005622930733135458309820378572526918589385310794582079178423508152396961491923760000000000000000000, 16125569248411119123503956146259430695442036827947212478251957222324707830056329886741293346319296000000000000000000, 771553493533761141800758901747582575148760062900291311734346761825953961620748792512663930209851280000000000000000000, 9835558482282040751534168657188265237330422243516001361734595820003846471137831021235464723424683440000000000000000000, 51465792138760605215524486705013729573588039694980641336942584983845750905969415067652722949166593600000000000000000000, 102110965572596071799396053851514494741425301928168720728999675490861171740098239931213340193693136000000000000000000000, 46141400832543267302268019463359785733725474344529129441844651073095781229162386969767168248072320000000000000000000000, -34279234367029360973087421522229874427072551212785056677619645817889381242003826017886503097275080000000000000000000000, 2469082132042302034570108115528976560670982918777443171888648570954558516422034273066419747912800000000000000000000000, 384400653780540560163673285409168325313328096372101576002955084279935792962896540000000000000000000000000]

theorem bk4p8_lit : addL (0 :: smulL 20 (brkA (-1) bU18 bG18 bG08).2) (smulL 1000000000000000 (brkA (-1) bU18 bG18 bG08).1) = bk4p8 := by decide +kernel

theorem bk4p8_0 : chkPiece bk4p8 4096 0 16 = true := by decide +kernel

theorem bk4p8_1 : chkPiece bk4p8 4096 16 32 = true := by decide +kernel

theorem bk4p8_2 : chkPiece bk4p8 4096 32 64 = true := by decide +kernel

theorem bk4p8_chk : chkChain bk4p8 4096 0 [16, 32, 64] = true := chk_cons bk4p8_0 (chk_cons bk4p8_1 (chk_cons bk4p8_2 rfl))

def bk4m8 : List ℤ := [0, 3350519740000000000000000000000000000000000000000000000000000000000000000000000000000, 21179559547373617322312902291120000000000000000000000000000000000000000000000000000000000, -42848526018402508251978247228261855911685454691532480000000000000000000000000000000000000000, 33996681599471552513025403955699407200039681195074312280091969060594448640000000000000000000000, -11296451427153932363863312497363300752533234697023087744773555850451424016721132153344000000000000, 1434140482720168287594861803619806538948097195744961061613732039081564785997714363175680000000000000, 50015837829637126571356321767587162003303240867467315350182330733116144091003977011968000000000000000, -26594121056657965044169128609548828613662423179670353194378539718941167222789009323644588800000000000000, 1178363420933708117380440381301304290298364480083498251598156736423642327251047441210941401600000000000000, 137379284201237686227932501888377664130121368127473135341371317904053323168697222599147473824000000000000000, -9059886030073834708054514262627318304005363896467144066191140179530420923329891873686875622400000000000000000, -352636872155390746902126555012213740866820947233062270216441074952730584965761542102185351268640000000000000000, 22208128279942298050597552850401137028618895630519894560213954656502916719258747498284388823987840000000000000000, 680257710746879553169502007623518966405127092808086616825064944623681867009503792677438508076240000000000000000000, -16125569216619562983117547649006944829754778177600781340073389999842983365941294307451906653680704000000000000000000, -771553493447162810376548486195799233536439190552292680472957700640766856825488056460827269790148720000000000000000000, -9835558482134615637480642649711363289636191626713507310280235797295081436454137885097063276575316560000000000000000000, -51465792138625184119914591587715419783835661524665072868372642374766976206637226955975277050833406400000000000000000000, -102110965572559009015131010684561360576617203623020032285289131614201177121170883125306659806306864000000000000000000000, -46141400832570603286656170772013464641885580598070342589679020187058283460934651976632831751927680000000000000000000000, 34279234367016567636507021341729030183990579999586321560653356806892729928280043974113496902724920000000000000000000000, -2469082132041049384874950353191926134204672672487946839035070643365585956919819826933580252087200000000000000000000000, 384400653780540560163673285409168325313328096372101576002955084279935792962896540000000000000000000000000]

theorem bk4m8_lit : addL (0 :: smulL 20 (brkA (-1) bU18 bG18 bG08).2) (smulL (-1000000000000000) (brkA (-1) bU18 bG18 bG08).1) = bk4m8 := by decide +kernel

theorem bk4m8_0 : chkPiece bk4m8 4096 0 32 = true := by decide +kernel

theorem bk4m8_1 : chkPiece bk4m8 4096 32 64 = true := by decide +kernel

theorem bk4m8_chk : chkChain bk4m8 4096 0 [32, 64] = true := chk_cons bk4m8_0 (chk_cons bk4m8_1 rfl)

theorem bPos8 {t : ℝ} (h1 : 0 / 4096 ≤ t) (h2 : t ≤ 64 / 4096) : 0 < polyEval bU08.2 t ∧ 0 < polyEval bG08.2 t ∧ 0 < polyEval bU18.2 t ∧ 0 < polyEval bG18.2 t := by
  refine ⟨?_, ?_, ?_, ?_⟩ <;> exact chk_pos (d := 4096) (p := 0) (q := 64) (by norm_num) (by decide +kernel) (by norm_num at *; linarith) (by norm_num at *; linarith)

theorem bRes8 {t : ℝ} (h1 : 0 / 4096 ≤ t) (h2 : t ≤ 64 / 4096) :
    |-2 * t * rfD bU08 t - rfEval bG08 t - rfEval bU08 t / 2 + rfEval bG18 t| ≤ 17 / 10 ^ 15 * t ∧
    |rfEval bU18 t - rfEval bU08 t + t * (3 / 2 * rfEval bG08 t + 2 * t * rfD bG08 t)| ≤ 22 / 10 ^ 15 * t ∧
    |rfEval bU18 t - rfEval bU08 t - t * (1 / 2 * rfEval bG18 t + 2 * t * rfD bG18 t)| ≤ 22 / 10 ^ 15 * t ∧
    |-2 * t * rfD bU18 t - rfEval bG18 t + rfEval bG08 t + rfEval bU18 t / 2| ≤ 20 / 10 ^ 15 * t := by
  obtain ⟨p1, p2, p3, p4⟩ := bPos8 h1 h2
  have k1 := brkA_eval 1 p1 p2 p4
  have k1b := rf_bound2t (brkA 1 bU08 bG08 bG18) 17 1000000000000000 4096 0 [32, 64] [16, 32, 64] (by simp) (by simp) (by norm_num) (by norm_num) bk1p8_lit bk1m8_lit bk1p8_chk bk1m8_chk k1.2 (by norm_num at *; linarith) (by norm_num at *; linarith) (by norm_num at *; linarith)
  rw [k1.1] at k1b
  have k2 := brkB_eval 1 3 p1 p3 p2
  have k2b := rf_bound2t (brkB 1 3 bU08 bU18 bG08) 22 1000000000000000 4096 0 [64] [32, 64] (by simp) (by simp) (by norm_num) (by norm_num) bk2p8_lit bk2m8_lit bk2p8_chk bk2m8_chk k2.2 (by norm_num at *; linarith) (by norm_num at *; linarith) (by norm_num at *; linarith)
  rw [k2.1] at k2b
  have k3 := brkB_eval (-1) 1 p1 p3 p4
  have k3b := rf_bound2t (brkB (-1) 1 bU08 bU18 bG18) 22 1000000000000000 4096 0 [64] [32, 64] (by simp) (by simp) (by norm_num) (by norm_num) bk3p8_lit bk3m8_lit bk3p8_chk bk3m8_chk k3.2 (by norm_num at *; linarith) (by norm_num at *; linarith) (by norm_num at *; linarith)
  rw [k3.1] at k3b
  have k4 := brkA_eval (-1) p3 p4 p2
  have k4b := rf_bound2t (brkA (-1) bU18 bG18 bG08) 20 1000000000000000 4096 0 [16, 32, 64] [32, 64] (by simp) (by simp) (by norm_num) (by norm_num) bk4p8_lit bk4m8_lit bk4p8_chk bk4m8_chk k4.2 (by norm_num at *; linarith) (by norm_num at *; linarith) (by norm_num at *; linarith)
  rw [k4.1] at k4b
  norm_num only [Int.cast_one, Int.cast_neg, Int.cast_ofNat] at k1b k2b k3b k4b ⊢
  refine ⟨?_, ?_, ?_, ?_⟩
  · convert k1b using 2; ring
  · convert k2b using 2; ring
  · convert k3b using 2; ring
  · convert k4b using 2; ring

def bU05 : RF := ([1249999999985734316913513187177, 75854532218928342086865250000000, 1308865869140424892382025000000000, 7389120222640051398597375000000000, 11617767304910714543103750000000000, 2574530963579732727448750000000000], [1250000000000000000000000000000, 75942422836537541996875000000000, 1314065382446307239662500000000000, 7473713679173197306225000000000000, 12031806429472180752787500000000000, 3007572699036738868012500000000000])

def bG05 : RF := ([-1249999999815914036405484468619, -102738341012954535469479000000000, -2538911354371206643422300000000000, -22207995200350262337040000000000000, -60666452702252006474725000000000000, -25071163716678770470025000000000000, 6692928445024309667137500000000000], [10000000000000000000000000000000, 827766102236537761883000000000000, 20778141642139298710400000000000000, 188472887785718085070000000000000000, 567511122894947329769000000000000000, 359767538425114471465000000000000000, -53543427560194477337100000000000000])

def bU15 : RF := ([10000000000131990519556243522749, 593977862153037472897380000000000, 9982041700122987064603600000000000, 54615751359050688762430000000000000, 83623264570287120704950000000000000, 20327620894669481685970000000000000], [10000000000000000000000000000000, 592805987221131331921000000000000, 9914014187336143777430000000000000, 53532669529148797664700000000000000, 78446903174955123176900000000000000, 15040468881036106267900000000000000])

def bG15 : RF := ([3749999999791020068858235895703, 303761672516712162434065000000000, 7388680771955830071091000000000000, 63670123397091956576485000000000000, 173210913984831288417000000000000000, 78680837819272728665800000000000000, -17696938304817317657587500000000000], [10000000000000000000000000000000, 812765501384335777857000000000000, 19917987346048596464200000000000000, 174684851924908907677000000000000000, 498514270910352279316000000000000000, 279480751638918118260000000000000000, -47191835479512847086900000000000000])

def bk1p5 : List ℤ := [-1049991132469788701206250000000000000000000000000000000000000000000000000000000000000000000000000000000000000000000000000000000000, 6559726248583162033529915412107620150347500000000000000000000000000000000000000000000000000000000000000000000000000000000000000000, 39302434183549325067986057352204930234122689806916555215748815687500000000000000000000000000000000000000000000000000000000000000000000, -4599473473965048783889215235481803381184167954503068374504007941204617179734791053437500000000000000000000000000000000000000000000000000, 109968743890365695482485454047836656461721824301783156561603687615435671653067858356856640625000000000000000000000000000000000000000000000, 10841722655114952617176706092044828677853972206837038519986419685473005399628040296972487500000000000000000000000000000000000000000000000000, -703887791079678054119439934258807413254714432021485681477188726916317166646011225153806515625000000000000000000000000000000000000000000000000, 3545456777861320453487256255493154951403326978709638154471533964451615782928115044133534637500000000000000000000000000000000000000000000000000, 771350703458590837606020602074711693356792506968958617860488530364485924464925999655173848793750000000000000000000000000000000000000000000000000, -17878711075701485234588101515757320416488718920308328066571206504295488600310000003734729305596875000000000000000000000000000000000000000000000000, -238443755629777629960530870879441741796361502686129750794454539159302318506542377478632169190031250000000000000000000000000000000000000000000000000, 11243257044674027645947391122195006559329336326955861279689531829812602900420719105649784560947800000000000000000000000000000000000000000000000000000, -8576412315220670073231560881918208885731290867878657006367302017272667847217824453124833520434481250000000000000000000000000000000000000000000000000, -2770512183726702630405708765982465362155961872741720224485869663211336625236759467525475335572130312500000000000000000000000000000000000000000000000000, 9234882988772291775665901406430706937891904940647970475763831022402647958044326118013939385255639531250000000000000000000000000000000000000000000000000, 345586314170866227900544387769081675044739328096345275493596668802718456243671058883778912418344156250000000000000000000000000000000000000000000000000000, -348614073915876477197527783305068333874718012440780017112904168584413583501564676215415418607111463750000000000000000000000000000000000000000000000000000, -20675064854201158321936340393423084659739609867913452217074016981530550427621142285625204153083168895000000000000000000000000000000000000000000000000000000, -86969345873625759962227912558662042212904617479874521453346655796504381788320278459812070414568649281250000000000000000000000000000000000000000000000000000, -120396634678366074071875197932639317068266430170610110404141817527137095631078967223449392299980000125000000000000000000000000000000000000000000000000000000, -47999138682517370359220404085600449963972471485669613203226860797680243319974811781431537097573606562500000000000000000000000000000000000000000000000000000, 5708029275727973342506413613596189944483614758133982111464427483272960442469957653879985306252424500000000000000000000000000000000000000000000000000000000, 329093213550390859392635958847662120921933778871826426469555200589047742019163417979867869751672312500000000000000000000000000000000000000000000000000000]

theorem bk1p5_lit : addL (smulL 60 (brkA 1 bU05 bG05 bG15).2) (smulL 100000000000000000 (brkA 1 bU05 bG05 bG15).1) = bk1p5 := by decide +kernel

theorem bk1p5_0 : chkPiece bk1p5 4096 64 131 = true := by decide +kernel

theorem bk1p5_1 : chkPiece bk1p5 4096 131 199 = true := by decide +kernel

theorem bk1p5_chk : chkChain bk1p5 4096 64 [131, 199] = true := chk_cons bk1p5_0 (chk_cons bk1p5_1 rfl)

def bk1m5 : List ℤ := [1050028632469788701206250000000000000000000000000000000000000000000000000000000000000000000000000000000000000000000000000000000000, -6549017709699391505236077912107620150347500000000000000000000000000000000000000000000000000000000000000000000000000000000000000000, -39301064507037121041783388671184633759038620423416555215748815687500000000000000000000000000000000000000000000000000000000000000000000, 4599577430749639329844759844525923885419582099154917320497461253690242179734791053437500000000000000000000000000000000000000000000000000, -109963512173232942593602456492864112107552398969819161114947673513425266188416395504393359375000000000000000000000000000000000000000000000, -10841537779733611799743595244570781664338251185851122197943303011916607146011371038273762500000000000000000000000000000000000000000000000000, 703892532247513191890707784408456087234897378532944382784210224551235873691154250672312234375000000000000000000000000000000000000000000000000, -3545366796008892447967340632403545711234718727675667212159537487124382083602775598928491612500000000000000000000000000000000000000000000000000, -771349425678044767749035310871827997022240882247645372489548916087808335669693599411251463706250000000000000000000000000000000000000000000000000, 17878724717503678415428400505703301614328139662602478600485461965885170080627302307515615194403125000000000000000000000000000000000000000000000000, 238443865101731713781125742667363748001324968026433694598421579000012619578510997435906699809968750000000000000000000000000000000000000000000000000, -11243256387539149514801776541067719793075446090975528246643112275546635353553854782960306392302200000000000000000000000000000000000000000000000000000, 8576415237833700920249528514803406736079843284095409577277879632168474304518415480848878890065518750000000000000000000000000000000000000000000000000, 2770512193213312100713720559456019615535645169381110637888819983649562452825578747417582409184119687500000000000000000000000000000000000000000000000000, -9234882966792097059749398651933316945348994424431597250002026475489601347283380617642561459256860468750000000000000000000000000000000000000000000000000, -345586314135683261894598067540174824424034100393537941200142282805415908092274328974080866393043343750000000000000000000000000000000000000000000000000000, 348614073952859090557669445265290061364270863115300594746790199376172064935517415382620707354788536250000000000000000000000000000000000000000000000000000, 20675064854224507860335389198603512099843623506103274553770408564472512434194755400790309198988906105000000000000000000000000000000000000000000000000000000, 86969345873632931119201760811301932069956389052454854578035591220091097070505696076163335835431350718750000000000000000000000000000000000000000000000000000, 120396634678366245220346782146575608762518833710256256197994121184143918508848689870854357700019999875000000000000000000000000000000000000000000000000000000, 47999138682517032780410357891891468099317281469399959040976029012445236403795165574515337902426393437500000000000000000000000000000000000000000000000000000, -5708029275727998797393927154848407336216043096744561598490705040995749181183380458182514693747575500000000000000000000000000000000000000000000000000000000, -329093213550385373888490907133106570845590690728693051110358630720640962993044254176382130248327687500000000000000000000000000000000000000000000000000000]

theorem bk1m5_lit : addL (smulL 60 (brkA 1 bU05 bG05 bG15).2) (smulL (-100000000000000000) (brkA 1 bU05 bG05 bG15).1) = bk1m5 := by decide +kernel

theorem bk1m5_0 : chkPiece bk1m5 4096 64 131 = true := by decide +kernel

theorem bk1m5_1 : chkPiece bk1m5 4096 131 199 = true := by decide +kernel

theorem bk1m5_chk : chkChain bk1m5 4096 64 [131, 199] = true := chk_cons bk1m5_0 (chk_cons bk1m5_1 rfl)

def bk2p5 : List ℤ := [6152902106203450633325000000000000000000000000000000000000000000000000000000000000000000000000000000000000000000000000000000000000, -1785360967247947699107768870850155241641957500000000000000000000000000000000000000000000000000000000000000000000000000000000000000000, 191861247308003131986053663600206059968586962998436181666934227750000000000000000000000000000000000000000000000000000000000000000000000, -7121999248830645844156139439845495184117559262404178581525024191705678417743954455725000000000000000000000000000000000000000000000000000, -271313731625151617593269908072423031479607589202903071425310001937033544394933437517257556250000000000000000000000000000000000000000000000, 33206057989428588746318044509098922773084820649387134054050862214745350492791825510994905487500000000000000000000000000000000000000000000000, -810496450029705361423919206107185674118033554892304357745993192457288653648480552320107407575000000000000000000000000000000000000000000000000, -21900861552728067277880635914314950165995271915102362562592240355606411234530119352994273076950000000000000000000000000000000000000000000000000, 1491366370800912935928417487701927559471046836676641395620334638680012968160535987622186540294100000000000000000000000000000000000000000000000000, -16362760757279187011765465116877913897260524234841391800332990989043850317235119364475343220947000000000000000000000000000000000000000000000000000, -574784917820175786966878607883305697365869911358033410087431718406756261507928532234335113689047500000000000000000000000000000000000000000000000000, 15252495840114142472114277929785218065270060567980865172078003311258844616574320544421902817372640000000000000000000000000000000000000000000000000000, 16248818905337830001697849776976911081588260324516475227819135744162446303741050632100872009842607500000000000000000000000000000000000000000000000000, -3750597342747694895001444189677991750958637884850300464757685485441155227158769345501722216899165590000000000000000000000000000000000000000000000000000, 20138098463538047489142771831375654774343054760254856556649449967563750887840405784001162189309839987500000000000000000000000000000000000000000000000000, 366169448917725188716263728537905101552410310453181002697789041283240414422437078511742194634826764875000000000000000000000000000000000000000000000000000, -2318779439245892989611096003117312282732103913196245699056875981921607833945689182682489375429532135750000000000000000000000000000000000000000000000000000, -19528816311304911318229162117091975491808234187682000588865577201357692293709801244570863062015474134000000000000000000000000000000000000000000000000000000, 57666333414816576899441330396332606693786738624547618572311739357498881090586842271024396056789390204000000000000000000000000000000000000000000000000000000, 500178633123920746888102597976845795756427674804874033695609067017456968451659813994004786810259253207500000000000000000000000000000000000000000000000000000, 853585372203705711902269078588764515865290726790523985178168476575626851727768346727088915222468181900000000000000000000000000000000000000000000000000000000, 404729798029071166142403930077336297364665104753577185771943344203761122069548639677777996697747357150000000000000000000000000000000000000000000000000000000, 38204899224333051727856157407889004992521415702621199989621797119176674717457926218354974210345759975000000000000000000000000000000000000000000000000000000, -4863188628880579047617899444626551908485056218430320722056255163790640141443982999531250000000000000000000000000000000000000000000000000000000000000000000]

theorem bk2p5_lit : addL (smulL 1 (brkB 1 3 bU05 bU15 bG05).2) (smulL 100000000000000000 (brkB 1 3 bU05 bU15 bG05).1) = bk2p5 := by decide +kernel

theorem bk2p5_0 : chkPiece bk2p5 4096 64 131 = true := by decide +kernel

theorem bk2p5_1 : chkPiece bk2p5 4096 131 199 = true := by decide +kernel

theorem bk2p5_chk : chkChain bk2p5 4096 64 [131, 199] = true := chk_cons bk2p5_0 (chk_cons bk2p5_1 rfl)

def bk2m5 : List ℤ := [-6152897106203450633325000000000000000000000000000000000000000000000000000000000000000000000000000000000000000000000000000000000000, 1785362395186734892361364701850155241641957500000000000000000000000000000000000000000000000000000000000000000000000000000000000000000, -191861064688586870077007600845560529394711108998436181666934227750000000000000000000000000000000000000000000000000000000000000000000000, 7122013105182877556979710521630126248975681767582147249228771175676648417743954455725000000000000000000000000000000000000000000000000000, 271314428621045770665982518442940760742122761941169116733444423187737858107076914389367443750000000000000000000000000000000000000000000000, -33206033375656355063923092268316868698373254260509930201113965698441060580643267310563844512500000000000000000000000000000000000000000000000, 810497080720580797585708988590812660731139052391505353810362195056656835163808180447805092425000000000000000000000000000000000000000000000000, 21900873509903435711486314833353130961935830106618329772064083856676156362850283057529461923050000000000000000000000000000000000000000000000000, -1491366201223048105301694602069708121292052471096916953512221345111165374555377711732120944705900000000000000000000000000000000000000000000000000, 16362762564872346357104285197074343417987200352292129976254732998931146172741026318490913541553000000000000000000000000000000000000000000000000000, 574784932297758002891612155314087394865263100421856681987332696920074480384181998902128513185952500000000000000000000000000000000000000000000000000, -15252495753414162478898083433237525319688807066241586075927515148750684691595098324613115309877360000000000000000000000000000000000000000000000000000, -16248818520875923028576176391990093307369712211026935801198691440065323419411473912496079820407392500000000000000000000000000000000000000000000000000, 3750597343990956516914780699317051799420748221749799158933651980044263237885890734118853640552334410000000000000000000000000000000000000000000000000000, -20138098460671535748309371121018847042249548224011622269268852122116371225622434515220704014182660012500000000000000000000000000000000000000000000000000, -366169448913167267006664028116202570163797114603784645565095219216209843752176990955809641411323235125000000000000000000000000000000000000000000000000000, 2318779439250638014510340142128347564252109536443566063662097647546218376061913058426896455187917864250000000000000000000000000000000000000000000000000000, 19528816311307859179573766590737365291690080908669626078390879479568401017692187736594019968080550866000000000000000000000000000000000000000000000000000000, -57666333414815702961557750969238643864614055375549397079338434707966009824912721362631903943210609796000000000000000000000000000000000000000000000000000000, -500178633123920735066960692375141199002458606394888846703540526289092166932920662074607713189740746792500000000000000000000000000000000000000000000000000000, -853585372203705749766139238522629725723806057437067571600747556386655763340706651373329834777531818100000000000000000000000000000000000000000000000000000000, -404729798029071168332586763952895455531038721146092483840449533373771171929396134399972003302252642850000000000000000000000000000000000000000000000000000000, -38204899224333051209116036993960573246612141609122329751215800486609131031457375414020025789654240025000000000000000000000000000000000000000000000000000000, 4863188628880579047617899444626551908485056218430320722056255163790640141443982999531250000000000000000000000000000000000000000000000000000000000000000000]

theorem bk2m5_lit : addL (smulL 1 (brkB 1 3 bU05 bU15 bG05).2) (smulL (-100000000000000000) (brkB 1 3 bU05 bU15 bG05).1) = bk2m5 := by decide +kernel

theorem bk2m5_0 : chkPiece bk2m5 4096 64 131 = true := by decide +kernel

theorem bk2m5_1 : chkPiece bk2m5 4096 131 199 = true := by decide +kernel

theorem bk2m5_chk : chkChain bk2m5 4096 64 [131, 199] = true := chk_cons bk2m5_0 (chk_cons bk2m5_1 rfl)

def bk3p5 : List ℤ := [6152902106203450633325000000000000000000000000000000000000000000000000000000000000000000000000000000000000000000000000000000000000, -1808111387459036153029761828275537488295247500000000000000000000000000000000000000000000000000000000000000000000000000000000000000000, 198582337647453702673111847001707435391233008597451808947080190750000000000000000000000000000000000000000000000000000000000000000000000, -7876783651450237077437097223638462652510887364747707564322431085211838311496074964725000000000000000000000000000000000000000000000000000, -238004736269923587567871696958843769527757615501261279797754064541701827641918228622779806250000000000000000000000000000000000000000000000, 33672336180418798220681967451823020308132490409685642426745747844675649856513294149868062487500000000000000000000000000000000000000000000000, -915224257701433585515763390644381650440416441571307293358382308493738411530346584409407703075000000000000000000000000000000000000000000000000, -18673684118133256482196336610050199910390468231597506603576499296391566754117457090815727272450000000000000000000000000000000000000000000000000, 1529698743238150034755401521179320912188286449312192558814213906715564205113283276244324971380600000000000000000000000000000000000000000000000000, -20550734541154858386685604200503505593318525407622304832083054931184915091769512613571345589017000000000000000000000000000000000000000000000000000, -514982851626139364249488356903256851549154176565443610609595129589885324076138150633680250024747500000000000000000000000000000000000000000000000000, 16472970366746083812907600538655355649503536597077298746481485925339521003314446427484955563119190000000000000000000000000000000000000000000000000000, -21663882681521677417632365367237410213883044881276313748021334608890041249073054152605935521639392500000000000000000000000000000000000000000000000000, -3757186238962771735566849704763270051577505577361589865289689905716738155880039485173076638721837040000000000000000000000000000000000000000000000000000, 28066373216799002104392743257097830215222852962236878438871687856361950321492454382718083133455694487500000000000000000000000000000000000000000000000000, 335999128206954861992295435443578439211636439013729301115306711789759085390489659637573585857591784875000000000000000000000000000000000000000000000000000, -3069574728255846013253875384425180487674670562545190444734882997190517434254501204948321043282624040750000000000000000000000000000000000000000000000000000, -17909371128926270447163014411704271680620877463772392195363710176910795663377845692376434346653068324000000000000000000000000000000000000000000000000000000, 94886685901229620806893526327854914476671279214152253143463801483139200258948505884312410201685920534000000000000000000000000000000000000000000000000000000, 606387652747860949957883882839839874426977523026040920991117519581444479594708339128558294560108674107500000000000000000000000000000000000000000000000000000, 939033331620949537694001030450077434954041224514315718933955664310983353222501797369370696008918599900000000000000000000000000000000000000000000000000000000, 400709707382265275272955488890139936542706793106932309842895771116245915772880234709737150784594817650000000000000000000000000000000000000000000000000000000, 36643438666316597088600869258880582436572429881204955517132990733984169497278139324104209875375691975000000000000000000000000000000000000000000000000000000, -3777830907022038667758896735483949948664957956227675324412806867527344560163294224531250000000000000000000000000000000000000000000000000000000000000000000]

theorem bk3p5_lit : addL (smulL 1 (brkB (-1) 1 bU05 bU15 bG15).2) (smulL 100000000000000000 (brkB (-1) 1 bU05 bU15 bG15).1) = bk3p5 := by decide +kernel

theorem bk3p5_0 : chkPiece bk3p5 4096 64 131 = true := by decide +kernel

theorem bk3p5_1 : chkPiece bk3p5 4096 131 199 = true := by decide +kernel

theorem bk3p5_chk : chkChain bk3p5 4096 64 [131, 199] = true := chk_cons bk3p5_0 (chk_cons bk3p5_1 rfl)

def bk3m5 : List ℤ := [-6152897106203450633325000000000000000000000000000000000000000000000000000000000000000000000000000000000000000000000000000000000000, 1808112800397222494081373633275537488295247500000000000000000000000000000000000000000000000000000000000000000000000000000000000000000, -198582158919229903307759068020455193215987867189051808947080190750000000000000000000000000000000000000000000000000000000000000000000000, 7876797057324976241718571565344124133075288785397642809290384482994108311496074964725000000000000000000000000000000000000000000000000000, 238005402447153954347737532327946515947310508594753017672941866604626634497456977641345193750000000000000000000000000000000000000000000000, -33672312958001319845708955532758253368134995818676790541701176928381581745551232176110687512500000000000000000000000000000000000000000000000, 915224844528161029132485978158465125686623860332102339373037303092490912979689913201159796925000000000000000000000000000000000000000000000000, 18673695078108186977801105087760830744465479361225351830940202309556243488761566428547062727550000000000000000000000000000000000000000000000000, -1529698590313605883498986060451711697324378964880794866060059223808000044826785256812343378619400000000000000000000000000000000000000000000000000, 20550736142455183889425232038578618670247870300193925552545818274657214586652087212706404723483000000000000000000000000000000000000000000000000000, 514982864202095354790027678287402307767562471420257373430286491992850731944828621472970069350252500000000000000000000000000000000000000000000000000, -16472970293060892421142717295517126808490586630293627557864848180810718989369033629652549154130810000000000000000000000000000000000000000000000000000, 21663883000347822005451992008510755259104595280755264492331515573428413079772681490116688406110607500000000000000000000000000000000000000000000000000, 3757186239965355038012369488294535162684320171891463623098554857123164655561927473802575277572662960000000000000000000000000000000000000000000000000000, -28066373214561126730238168258800323733072884667694893305671828316543106871205002778448490213446805512500000000000000000000000000000000000000000000000000, -335999128203531070717277001766052795200352286311238894143475683003455494989103563131598794782008215125000000000000000000000000000000000000000000000000000, 3069574728259243902631152467175796215510099076127350219663837206073510711287158712684669806784875959250000000000000000000000000000000000000000000000000000, 17909371128928249000122327024955635333286935480407023820556304570560046742047343874137530943669156676000000000000000000000000000000000000000000000000000000, -94886685901229099590709855786282284726534018150791644262688881817939457690005448671830439798314079466000000000000000000000000000000000000000000000000000000, -606387652747860967766130496491464076543524238434714609859449472374843924773245726731056705439891325892500000000000000000000000000000000000000000000000000000, -939033331620949565219098199680904653748935516865582002711249766993873341789064993628298053991081400100000000000000000000000000000000000000000000000000000000, -400709707382265276332048802542123051417421725311321988463008854570211130412845740680512849215405182350000000000000000000000000000000000000000000000000000000, -36643438666316596685632239176529791208956778096250294326204142069698801559912073454520790124624308025000000000000000000000000000000000000000000000000000000, 3777830907022038667758896735483949948664957956227675324412806867527344560163294224531250000000000000000000000000000000000000000000000000000000000000000000]

theorem bk3m5_lit : addL (smulL 1 (brkB (-1) 1 bU05 bU15 bG15).2) (smulL (-100000000000000000) (brkB (-1) 1 bU05 bU15 bG15).1) = bk3m5 := by decide +kernel

theorem bk3m5_0 : chkPiece bk3m5 4096 64 131 = true := by decide +kernel

theorem bk3m5_1 : chkPiece bk3m5 4096 131 199 = true := by decide +kernel

theorem bk3m5_chk : chkChain bk3m5 4096 64 [131, 199] = true := chk_cons bk3m5_0 (chk_cons bk3m5_1 rfl)

def bk4p5 : List ℤ := [91813830902880279410500000000000000000000000000000000000000000000000000000000000000000000000000000000000000000000000000000000000000, -3915940502932532114125794541393751170073070000000000000000000000000000000000000000000000000000000000000000000000000000000000000000000, -2653071330042588619961190981925055130180171501359214006556770073000000000000000000000000000000000000000000000000000000000000000000000000, 343367925434602527468043165936205062709652187619827977845359096335314188135391579217100000000000000000000000000000000000000000000000000000, -9500203588988596664101078840711350625626040707156345861062329014058478460785604001169372640000000000000000000000000000000000000000000000000, -746058442192998678008609499586035559052338406242867579849366307523435643022352534755772038400000000000000000000000000000000000000000000000000, 53066670365360104555444656419802259337408122145028252156275593039811773367952233700278577408000000000000000000000000000000000000000000000000000, -392061623801151384946258747352144864515620470394328336312943604570611484080724842525655580112000000000000000000000000000000000000000000000000000, -54695318234847544293983921389162390443728255954762367044737601529342362082716384866425701756832000000000000000000000000000000000000000000000000000, 1386204544689377308935406737094352274913344593950760571722540571629980973694023676981846625126496000000000000000000000000000000000000000000000000000, 14971787007251559063487868974415878652556371354233141122306869587520531016466127847316629204615360000000000000000000000000000000000000000000000000000, -826816526478493546764379633761779327885798969432592426910973864133796038625873468802924456938176000000000000000000000000000000000000000000000000000000, 1562424251170713683837453856864979477770420988777116007897217162939182489807410294566656088241710400000000000000000000000000000000000000000000000000000, 196469230790760306586630390696474492280381795233480056475600814387170141401169271792775460181282772800000000000000000000000000000000000000000000000000000, -818087701469256637192489513031872242839792592931706470823800990852150659367581037073458997559569521600000000000000000000000000000000000000000000000000000, -24064383763862350553114526990338600884663647201849612502866987621712822151823218915793000634220674176000000000000000000000000000000000000000000000000000000, 37970600757011692630182130505701032133519128970672163148265779719598550495224052415356332646502855040000000000000000000000000000000000000000000000000000000, 1450982600262861846581921419094902817905761033933485339614810218329829807528197145071395682533198747680000000000000000000000000000000000000000000000000000000, 5683687773958407241104478612026315863297549938662510889993350753053682478218945261190889098271140870720000000000000000000000000000000000000000000000000000000, 7155682162896952712566144679991092015698662910404511021468234405826818368725357183870039624674433833600000000000000000000000000000000000000000000000000000000, 2262749815464553229250954849286467775746364085997155312994153362027746748253620140853640474029026288000000000000000000000000000000000000000000000000000000000, -575828631257991474815668488485649896039970876215873759533105892832343803670706743326025418943407232000000000000000000000000000000000000000000000000000000000, 20093528661114315922151416649943836801205087004342814689520170789211660365102822071084056747973744000000000000000000000000000000000000000000000000000000000]

theorem bk4p5_lit : addL (smulL 80 (brkA (-1) bU15 bG15 bG05).2) (smulL 100000000000000000 (brkA (-1) bU15 bG15 bG05).1) = bk4p5 := by decide +kernel

theorem bk4p5_0 : chkPiece bk4p5 4096 64 131 = true := by decide +kernel

theorem bk4p5_1 : chkPiece bk4p5 4096 131 199 = true := by decide +kernel

theorem bk4p5_chk : chkChain bk4p5 4096 64 [131, 199] = true := chk_cons bk4p5_0 (chk_cons bk4p5_1 rfl)

def bk4m5 : List ℤ := [-91810630902880279410500000000000000000000000000000000000000000000000000000000000000000000000000000000000000000000000000000000000000, 3916844868877512317710940781393751170073070000000000000000000000000000000000000000000000000000000000000000000000000000000000000000000, 2653185713215610409856129044691314152144064495023214006556770073000000000000000000000000000000000000000000000000000000000000000000000000, -343359348574467583694866410482394435131167807711875246540009849763019788135391579217100000000000000000000000000000000000000000000000000000, 9500629588199584719556630045867712348449154727339140578691465559258428671243834087892627360000000000000000000000000000000000000000000000000, 746073282209996652624245247157848961603518099850761292027057370986881455248659788071287961600000000000000000000000000000000000000000000000000, -53066295683679436534529395084878224202914164663624347544178360108870833947118151778234722592000000000000000000000000000000000000000000000000000, 392068614109450725673032227294620912616582318912291554112568110437260807546957868470277239888000000000000000000000000000000000000000000000000000, 54695415642393055590664044096140312848786236838248167092850791829313112807389753899899586683168000000000000000000000000000000000000000000000000000, -1386203526354986420030522140672796397021028550790754412339547808071712930780717219880239444073504000000000000000000000000000000000000000000000000000, -14971779025386732960397063765642751395859141389933051305727031302458926419660602761247242195384640000000000000000000000000000000000000000000000000000, 826816573132564355815636087129034551532592333423333936250833445668091081647068176826496715577824000000000000000000000000000000000000000000000000000000, -1562424049916566677860332670240579303678163304871637885071693176490581090903823957728630553158289600000000000000000000000000000000000000000000000000000, -196469230160343608073999899409992933442398144310302681087331510638253982909823134349806122001667227200000000000000000000000000000000000000000000000000000, 818087702869267113794371192147958575739421975936103237959526184718189063278769760442848036338490478400000000000000000000000000000000000000000000000000000, 24064383765989395368276207477505083047882233795781804508381503437910654423423555771352344911691925824000000000000000000000000000000000000000000000000000000, -37970600754922339966457736611998966983654672297230107317862441865404843064842301765846182722605344960000000000000000000000000000000000000000000000000000000, -1450982600261666707936914250446614141894864230728386221753795670660043152294637085075845163758683052320000000000000000000000000000000000000000000000000000000, -5683687773958105478510933615823875812828568916209736030330779258155592629615319846012502901728859129280000000000000000000000000000000000000000000000000000000, -7155682162896966352776690555313477998838817576563216608271282991922038936618983897482720375325566166400000000000000000000000000000000000000000000000000000000, -2262749815464567664052278620885977002259955927627459410464167239561439895049961974516359525970973712000000000000000000000000000000000000000000000000000000000, 575828631257991070584934502515976666453979784792307418254791357351217999113288193465974581056592768000000000000000000000000000000000000000000000000000000000, -20093528661114133008648338452564207911903379378567613241349919502003627624671772422915943252026256000000000000000000000000000000000000000000000000000000000]

theorem bk4m5_lit : addL (smulL 80 (brkA (-1) bU15 bG15 bG05).2) (smulL (-100000000000000000) (brkA (-1) bU15 bG15 bG05).1) = bk4m5 := by decide +kernel

theorem bk4m5_0 : chkPiece bk4m5 4096 64 131 = true := by decide +kernel

theorem bk4m5_1 : chkPiece bk4m5 4096 131 199 = true := by decide +kernel

theorem bk4m5_chk : chkChain bk4m5 4096 64 [131, 199] = true := chk_cons bk4m5_0 (chk_cons bk4m5_1 rfl)

theorem bPos5 {t : ℝ} (h1 : 64 / 4096 ≤ t) (h2 : t ≤ 199 / 4096) : 0 < polyEval bU05.2 t ∧ 0 < polyEval bG05.2 t ∧ 0 < polyEval bU15.2 t ∧ 0 < polyEval bG15.2 t := by
  refine ⟨?_, ?_, ?_, ?_⟩ <;> exact chk_pos (d := 4096) (p := 64) (q := 199) (by norm_num) (by decide +kernel) (by norm_num at *; linarith) (by norm_num at *; linarith)

theorem bRes5 {t : ℝ} (h1 : 64 / 4096 ≤ t) (h2 : t ≤ 199 / 4096) :
    |-2 * t * rfD bU05 t - rfEval bG05 t - rfEval bU05 t / 2 + rfEval bG15 t| ≤ 60 / 10 ^ 17 ∧
    |rfEval bU15 t - rfEval bU05 t + t * (3 / 2 * rfEval bG05 t + 2 * t * rfD bG05 t)| ≤ 1 / 10 ^ 17 ∧
    |rfEval bU15 t - rfEval bU05 t - t * (1 / 2 * rfEval bG15 t + 2 * t * rfD bG15 t)| ≤ 1 / 10 ^ 17 ∧
    |-2 * t * rfD bU15 t - rfEval bG15 t + rfEval bG05 t + rfEval bU15 t / 2| ≤ 80 / 10 ^ 17 := by
  obtain ⟨p1, p2, p3, p4⟩ := bPos5 h1 h2
  have k1 := brkA_eval 1 p1 p2 p4
  have k1b := rf_bound2 (brkA 1 bU05 bG05 bG15) 60 100000000000000000 4096 64 [131, 199] [131, 199] (by simp) (by simp) (by norm_num) (by norm_num) bk1p5_lit bk1m5_lit bk1p5_chk bk1m5_chk k1.2 (by norm_num at *; linarith) (by norm_num at *; linarith) (by norm_num at *; linarith)
  rw [k1.1] at k1b
  have k2 := brkB_eval 1 3 p1 p3 p2
  have k2b := rf_bound2 (brkB 1 3 bU05 bU15 bG05) 1 100000000000000000 4096 64 [131, 199] [131, 199] (by simp) (by simp) (by norm_num) (by norm_num) bk2p5_lit bk2m5_lit bk2p5_chk bk2m5_chk k2.2 (by norm_num at *; linarith) (by norm_num at *; linarith) (by norm_num at *; linarith)
  rw [k2.1] at k2b
  have k3 := brkB_eval (-1) 1 p1 p3 p4
  have k3b := rf_bound2 (brkB (-1) 1 bU05 bU15 bG15) 1 100000000000000000 4096 64 [131, 199] [131, 199] (by simp) (by simp) (by norm_num) (by norm_num) bk3p5_lit bk3m5_lit bk3p5_chk bk3m5_chk k3.2 (by norm_num at *; linarith) (by norm_num at *; linarith) (by norm_num at *; linarith)
  rw [k3.1] at k3b
  have k4 := brkA_eval (-1) p3 p4 p2
  have k4b := rf_bound2 (brkA (-1) bU15 bG15 bG05) 80 100000000000000000 4096 64 [131, 199] [131, 199] (by simp) (by simp) (by norm_num) (by norm_num) bk4p5_lit bk4m5_lit bk4p5_chk bk4m5_chk k4.2 (by norm_num at *; linarith) (by norm_num at *; linarith) (by norm_num at *; linarith)
  rw [k4.1] at k4b
  norm_num only [Int.cast_one, Int.cast_neg, Int.cast_ofNat] at k1b k2b k3b k4b ⊢
  refine ⟨?_, ?_, ?_, ?_⟩
  · convert k1b using 2; ring
  · convert k2b using 2; ring
  · convert k3b using 2; ring
  · convert k4b using 2; ring

def bU03 : RF := ([4999999987264769911402404219, 178928609219414122347173000000, 1795524754174042838528850000000, 5858209302238135123266500000000, 5349588140494501935482000000000, 710664918769234521533000000000], [5000000000000000000000000000, 179280169027604863174500000000, 1807569915251519319100000000000, 5968039189605576666500000000000, 5639983992845370721600000000000, 867904654066678773460000000000])

def bG03 : RF := ([-6249999781129492955130689547, -301080900177652431571060000000, -4268346062845702237885500000000, -21019834210029896937040000000000, -31837252730007277534725000000000, -7390388122690501404562500000000, 932796573975977416637500000000], [50000000000000000000000000000, 2437943648622935910455000000000, 35484461052830300786800000000000, 185207411310055681497000000000000, 323021258376284458791000000000000, 125816684460184478666500000000000, -7462372591807819333100000000000])

def bU13 : RF := ([12500000037812989517171702253, 436356204571155069892387500000, 4258692953101986289343750000000, 13524885041461437484795000000000, 12273329468416681997672500000000, 1904337511992197118356250000000], [12500000000000000000000000000, 434891368751564399986250000000, 4209530734347821834262500000000, 13085892496971891318875000000000, 11135141829978205407775000000000, 1297349155495490968800000000000])

def bG13 : RF := ([37499999492168773538233438631, 1777189530731901950799250000000, 24808930144236765702462000000000, 120971010339194542382255000000000, 185215387071507873883825000000000, 49445956904163116973925000000000, -5070044679161525280637500000000], [100000000000000000000000000000, 4766515503237295092730000000000, 67386511267669970948200000000000, 338015286679526343505000000000000, 554772909720722782367000000000000, 190311919338810798763000000000000, -13520119144430734081700000000000])

def bk1p3 : List ℤ := [-204554884916382306116250000000000000000000000000000000000000000000000000000000000000000000000000000000000000000000000000000, -4806835981633607493500061899222141777152425000000000000000000000000000000000000000000000000000000000000000000000000000000000, 954587363772344995472350478486342034556266871280643295576462522500000000000000000000000000000000000000000000000000000000000000, -13824233165148139508893512670627656751309057785884771271074799239916975123509475131750000000000000000000000000000000000000000000, -741349891165997346860190938201822457207117103433501805527322775213906410383639507905287570000000000000000000000000000000000000000, 21577520882731247992072301954764888261009371498221996576374996741802590220992897773639027000000000000000000000000000000000000000000, 44631178353463889062495685794103414954480774540427615707337878169647446215898787425043489000000000000000000000000000000000000000000, -7460872245482501412377408998744006008158448864857941200377717925317869739829629793959275189000000000000000000000000000000000000000000, 60215670473512257322674931353351020778873902088353726659198627594751485922958316581503325350800000000000000000000000000000000000000000, 797913436752797575237807217272329893556316441925958100543402318694203727483752280902434773572700000000000000000000000000000000000000000, -12777643838207834424629325066203644639636332523392150517741337436470685940783194239964599577736000000000000000000000000000000000000000000, -5109586607816690677585794358879422280995460202401631884282188352647431528824996394633620495060000000000000000000000000000000000000000000, 864293103946787433330353536077792793409610398689418509332515760544199149132155438748771910874812000000000000000000000000000000000000000000, -2295569456289713339814140972151027704749121371961824282531804652025207535149563990110135217113438000000000000000000000000000000000000000000, -25480783711896130319113875964766504872345332498444000010895586052819070106662877799879233404632106000000000000000000000000000000000000000000, 85679271560340136899529077465044925707919244004914967949861744021074748655550343906390303148028800000000000000000000000000000000000000000000, 395612924814765049419880910314364589723992870339136077426242037225816756909383559699795134403421600000000000000000000000000000000000000000000, -756345068672691961078023053042618392791995921138982696183667658591068030914899607346379549682075520000000000000000000000000000000000000000000, -3676010911546899643609739535186703240562958141095462237969485261293861659839929332828570314992937760000000000000000000000000000000000000000000, -3480531939987451087901450223744345922941456897213181785785544274848289438327169352835342403321120000000000000000000000000000000000000000000000, -912812377318591055178504780802488601420844846832711590947379875298001645852447941089541119165632000000000000000000000000000000000000000000000, 36137779476355539267920008912228913286986319236073084301028046875156061860459616115731776818064000000000000000000000000000000000000000000000, 1376866297011587112273774779382833191411152871229789208364368143074836030615420488299803314185600000000000000000000000000000000000000000000]

theorem bk1p3_lit : addL (smulL 400 (brkA 1 bU03 bG03 bG13).2) (smulL 100000000000000000 (brkA 1 bU03 bG03 bG13).1) = bk1p3 := by decide +kernel

theorem bk1p3_0 : chkPiece bk1p3 4096 198 350 = true := by decide +kernel

theorem bk1p3_1 : chkPiece bk1p3 4096 350 502 = true := by decide +kernel

theorem bk1p3_chk : chkChain bk1p3 4096 198 [350, 502] = true := chk_cons bk1p3_0 (chk_cons bk1p3_1 rfl)

def bk1m3 : List ℤ := [204555084916382306116250000000000000000000000000000000000000000000000000000000000000000000000000000000000000000000000000000, 4806869608852730668222943139222141777152425000000000000000000000000000000000000000000000000000000000000000000000000000000000, -954584837551721966654147298590634276660562871848643295576462522500000000000000000000000000000000000000000000000000000000000000, 13824345495068916798101813459773322989502857591169057222025847232912575123509475131750000000000000000000000000000000000000000000, 741353194712401861149833988587732163936366001597193234915649410408103817669942440574712430000000000000000000000000000000000000000, -21577452826493360654737879638130659653020942874725527624306718263947473104861936537060973000000000000000000000000000000000000000000, -44630163066626182135957007940946746188738873974014772810706738251350051898288251995856511000000000000000000000000000000000000000000, 7460883434231112761819923028941832547128152629156188501307449083363811100293309652016034811000000000000000000000000000000000000000000, -60215578342878931491847933702447839532649582401835317690500494060683018286198685758050824649200000000000000000000000000000000000000000, -797912866883988383669336101566074615979055774280191822297682461344598683379292177251863226427300000000000000000000000000000000000000000, 12777646487246075129647874054472794452358556166610091134600664824487325326525977233767868422264000000000000000000000000000000000000000000, 5109595825382748036473651103712656484861931815029269418046806987078882384303618795130683904940000000000000000000000000000000000000000000, -864293080141236905687287427208844520135662776476125316632814934972581860881728967213996048125188000000000000000000000000000000000000000000, 2295569501306609714155137339518911323842526312924536592113857359124005268889449380133362351886562000000000000000000000000000000000000000000, 25480783772990696949488246278710025988230328453041842878478688217823226650220412934973939395367894000000000000000000000000000000000000000000, -85679271502547661794205977585731281925348361474687314674339076235082524648830446762445892651971200000000000000000000000000000000000000000000, -395612924778302971663873689546084473304933273964608663944240801679008909603429081382593826756578400000000000000000000000000000000000000000000, 756345068686956334704811857768568752494028494185877307832613688190652148592160024017798221077924480000000000000000000000000000000000000000000, 3676010911549884491048349440057908618850722878750802734596089088033862687463847193446629685007062240000000000000000000000000000000000000000000, 3480531939987645834335245339248231924662105618813496772827313189660457097766261664430657596678880000000000000000000000000000000000000000000000, 912812377318567576802532865976359332087707091023400604489724926949548420315387969090458880834368000000000000000000000000000000000000000000000, -36137779476357720658071373905115212829915929195686602852132217661454867037211007924268223181936000000000000000000000000000000000000000000000, -1376866297011465515664373895368071017676518796013530628184248820549389777935656191700196685814400000000000000000000000000000000000000000000]

theorem bk1m3_lit : addL (smulL 400 (brkA 1 bU03 bG03 bG13).2) (smulL (-100000000000000000) (brkA 1 bU03 bG03 bG13).1) = bk1m3 := by decide +kernel

theorem bk1m3_0 : chkPiece bk1m3 4096 198 350 = true := by decide +kernel

theorem bk1m3_1 : chkPiece bk1m3 4096 350 502 = true := by decide +kernel

theorem bk1m3_chk : chkChain bk1m3 4096 198 [350, 502] = true := chk_cons bk1m3_0 (chk_cons bk1m3_1 rfl)

def bk2p3 : List ℤ := [174127664971664229263750000000000000000000000000000000000000000000000000000000000000000000000000000000000000000000000000000, -13305322080910943974475268953261752656819875000000000000000000000000000000000000000000000000000000000000000000000000000000000, 203329040664827056337578871742970323158159160912029913952784862500000000000000000000000000000000000000000000000000000000000000, 9827387732240647285623601232107590601548930098018754629015833669474373248782109448750000000000000000000000000000000000000000000, -387817538736789617549061511323230839513150239563735029061356052448661145109158035112503987187500000000000000000000000000000000000, 1957717690209899414429749596345046482791947713726473961153831546385888411307759730030593065625000000000000000000000000000000000000, 125258467482841375711199831213251533284218619896998732917712283124380850042455496494177380656250000000000000000000000000000000000000, -2383593373365896081316186316173370228541358447695854041753469611414349117859086450006085351131250000000000000000000000000000000000000, 2516740264755018141655752921230835213763261139846942584768524070188240936387634418176288244450000000000000000000000000000000000000000, 345062038851709870881348739961470823932326069930790809536192229499223231482442465749315110125237500000000000000000000000000000000000000, -3205556415918680425949997865122957899051212141498577690593202060858195284892140055901174971890625000000000000000000000000000000000000000, -7673154720249143921168138248703426127816937494206259464463818282773036677959538332318483055369250000000000000000000000000000000000000000, 256721209506402364880909214814828117915980351515745928127196548210811346330722612975091730666327375000000000000000000000000000000000000000, -872368516981272171925057816521926475342536731264084443742473004636024314897342886703427528689273000000000000000000000000000000000000000000, -5607878203198569615131247475963887020594468350685416236146543392329089900102319705666882194878904875000000000000000000000000000000000000000, 36568565579337965433187181442276311289431850976067739795905056133781915621959737966163035588715398750000000000000000000000000000000000000000, 34105672518717444737507747127186133174589156914450248470598117493679836083053456619402989333872382500000000000000000000000000000000000000000, -488730347884299899874249873947563814799423591161391202238442757389522759955171246242762317108897562500000000000000000000000000000000000000000, -107363306248838838488872065749792441449606535562440552133673443343024514398073912849468131103302695000000000000000000000000000000000000000000, 2393157785974559086404479128390725536719782442041618776588002643872544547853817550688325860966934650000000000000000000000000000000000000000000, 2877785020422277624994825277827627694456309796869352533732465519957216453377689180157804525292638500000000000000000000000000000000000000000000, 854097505775664471805518572861266805363482983712065193902792526573706227890880670624237310711766300000000000000000000000000000000000000000000, 58970367482063436098595195984993781531049265606586835990553393776632076877185397001161748166985600000000000000000000000000000000000000000000, -2351332339512441065007913871607443860005860407662382593671302138806865777813098000000000000000000000000000000000000000000000000000000000000]

theorem bk2p3_lit : addL (smulL 10 (brkB 1 3 bU03 bU13 bG03).2) (smulL 100000000000000000 (brkB 1 3 bU03 bU13 bG03).1) = bk2p3 := by decide +kernel

theorem bk2p3_0 : chkPiece bk2p3 4096 198 350 = true := by decide +kernel

theorem bk2p3_1 : chkPiece bk2p3 4096 350 502 = true := by decide +kernel

theorem bk2p3_chk : chkChain bk2p3 4096 198 [350, 502] = true := chk_cons bk2p3_0 (chk_cons bk2p3_1 rfl)

def bk2m3 : List ℤ := [-174127658721664229263750000000000000000000000000000000000000000000000000000000000000000000000000000000000000000000000000000, 13305323131942751790497525528261752656819875000000000000000000000000000000000000000000000000000000000000000000000000000000000, -203328961715260661375705678104967947252946005414654913952784862500000000000000000000000000000000000000000000000000000000000000, -9827384222937711507513526137577999159088618476417014063328375340410123248782109448750000000000000000000000000000000000000000000, 387817641883741268503443616758153106943072938724175181294182138520241954777970045376871012812500000000000000000000000000000000000, -1957715566956219131855323952573488883786132043573896869047787955278014510177870437800656934375000000000000000000000000000000000000, -125258435839283238143950678513650817116559180738339917838722212438097511726084983999010119343750000000000000000000000000000000000000, 2383593721652743629006542381325972096827572887828665013054820787088930249760840208690952148868750000000000000000000000000000000000000, -2516737401228728541058541162042188098787256567757100784646183269977224115187700407039924255550000000000000000000000000000000000000000, -345062021171996424507729884953943375561701295277386668812189935917576455395382865744999052374762500000000000000000000000000000000000000, 3205556497920431458575411347801121224241048658571242905095477296317098569089046157569515403109375000000000000000000000000000000000000000, 7673155004809089868593211462764298006718570808121154367374442184149052743348719733853066444630750000000000000000000000000000000000000000, -256721208773943965590550340897392699079633685631688125933081114487481509613749475139099510083672625000000000000000000000000000000000000000, 872368518360560996486645537843462309602108018219719726897288880650827627498562980728499655810727000000000000000000000000000000000000000000, 5607878205060368880925817370591952688841992653025061686686824371600601916262609007496792260121095125000000000000000000000000000000000000000, -36568565577589424993319496462941287484662082388846076470719684605075940023895323800348906011284601250000000000000000000000000000000000000000, -34105672517625381293871278947440207220836892941900116222366726897107359351112669579131400856127617500000000000000000000000000000000000000000, 488730347884720410960475681357749327795014621517519541734892505915716362113516215396529436091102437500000000000000000000000000000000000000000, 107363306248924300287905691865286441323911984324833663972171103348456577637894383566456868896697305000000000000000000000000000000000000000000, -2393157785974553898216599832698030940568289001879668964985905920410205368789785320857924139033065350000000000000000000000000000000000000000000, -2877785020422278222217948097649581559867136374251402553643234134520499101489693062104695474707361500000000000000000000000000000000000000000000, -854097505775664518553525612276091826169005534804455926513561268727384798121343322200762689288233700000000000000000000000000000000000000000000, -58970367482063433590507367171723312189274469225313385317635625603423976961129782273838251833014400000000000000000000000000000000000000000000, 2351332339512441065007913871607443860005860407662382593671302138806865777813098000000000000000000000000000000000000000000000000000000000000]

theorem bk2m3_lit : addL (smulL 10 (brkB 1 3 bU03 bU13 bG03).2) (smulL (-100000000000000000) (brkB 1 3 bU03 bU13 bG03).1) = bk2m3 := by decide +kernel

theorem bk2m3_0 : chkPiece bk2m3 4096 198 350 = true := by decide +kernel

theorem bk2m3_1 : chkPiece bk2m3 4096 350 502 = true := by decide +kernel

theorem bk2m3_chk : chkChain bk2m3 4096 198 [350, 502] = true := chk_cons bk2m3_0 (chk_cons bk2m3_1 rfl)

def bk3p3 : List ℤ := [696510659886656917055000000000000000000000000000000000000000000000000000000000000000000000000000000000000000000000000000000, -55248230616881457436946897466176961449477500000000000000000000000000000000000000000000000000000000000000000000000000000000000, 971831055553869327395458042041267608315429108262154144965165650000000000000000000000000000000000000000000000000000000000000000, 36368680425835970986563523970131549156579394168020684332748878029029272428145550155000000000000000000000000000000000000000000000, -1634292529822761621561896540874628495084732602048630930563995443514388759027313570897671038750000000000000000000000000000000000000, 11716828820198244343515010768869159075750337430858665980414463750742244828734098085554853412500000000000000000000000000000000000000, 472495987877760811354603191079290036209994009519982139466658227065426314608295534471355485375000000000000000000000000000000000000000, -10502248453562924618548001315662976082133752263260342830186732981471454309285087634920517954975000000000000000000000000000000000000000, 30235048707426962156137582397493778812591728888308751793596063702320984484881872299561019347200000000000000000000000000000000000000000, 1340309024988820927743659542611857320946344558880657022159955769976602206521080789219685085036975000000000000000000000000000000000000000, -15201905338740411108768823182364856469756827795629793918011857561030408743509630427760013123633250000000000000000000000000000000000000000, -9605072022843249837273872760924794795573409890573461502893072148570196247004722350052384258158000000000000000000000000000000000000000000, 1083631849778716530459121919787877659608685248908206482877201873564511983379996690867577469300754500000000000000000000000000000000000000000, -4930947731181838446819621606206255461115609301248992005924579749487182966139271724882182056154048500000000000000000000000000000000000000000, -19497718465395646832738123726911810102338611735687782443186942581668720218639224408800044786277328875000000000000000000000000000000000000000, 179202166773995754949997644814477232300732254388468883040139752161427592092870782779752001678242726250000000000000000000000000000000000000000, 30701175784355807559088607876097229614298502386037064731335848187825488475849324444556876204285302500000000000000000000000000000000000000000, -2334974625779071698737487188668422757947302093372839433032280282650044801820606881249465195123553642500000000000000000000000000000000000000000, 465363143001384587722982421898613110134138630899105350740814997630239735691393525242911850176572545000000000000000000000000000000000000000000, 12295786921054243043919426295034102289206950053064432756038374851609367705037791699392758483753611350000000000000000000000000000000000000000000, 13223077584301875556564086446359641238339738520044950412025098287457944934178900125049129882045921500000000000000000000000000000000000000000000, 3529413550785592474129802629796240677116247470106914579681436762550028421470982113508528243717808700000000000000000000000000000000000000000000, 227716322513767000026634701725895294810292262805269522189435006570182042413515715747728948102294400000000000000000000000000000000000000000000, -7718291842689890292223855209719582670650429576212054457209907025019179277691802000000000000000000000000000000000000000000000000000000000000]

theorem bk3p3_lit : addL (smulL 10 (brkB (-1) 1 bU03 bU13 bG13).2) (smulL 100000000000000000 (brkB (-1) 1 bU03 bU13 bG13).1) = bk3p3 := by decide +kernel

theorem bk3p3_0 : chkPiece bk3p3 4096 198 350 = true := by decide +kernel

theorem bk3p3_1 : chkPiece bk3p3 4096 350 502 = true := by decide +kernel

theorem bk3p3_chk : chkChain bk3p3 4096 198 [350, 502] = true := chk_cons bk3p3_0 (chk_cons bk3p3_1 rfl)

def bk3m3 : List ℤ := [-696510634886656917055000000000000000000000000000000000000000000000000000000000000000000000000000000000000000000000000000000, 55248234766322791696747559676176961449477500000000000000000000000000000000000000000000000000000000000000000000000000000000000, -971830748046739738287866350368404272031478342452654144965165650000000000000000000000000000000000000000000000000000000000000000, -36368666948224260888248704053446752739058246465896167055769426909461572428145550155000000000000000000000000000000000000000000000, 1634292920147131163362835243434490235162763274715592463766731156262228415512284925766078961250000000000000000000000000000000000000, -11716820910247000375535365474265362614446333223667125178823102920423654023407969094882646587500000000000000000000000000000000000000, -472495871942073796689475372187667412018394148961170566226177225904108558545643442445144514625000000000000000000000000000000000000000, 10502249707021584365211754261734928921681041808529346775524946324477292039233037646489782045025000000000000000000000000000000000000000, -30235038598439143354557903663054558314479188870278682423483970858952374581705321056660255652800000000000000000000000000000000000000000, -1340308963866316681702208186197715317993122944226195775557246867621023394250707896536626152463025000000000000000000000000000000000000000, 15201905615831636580129104044389306232883466469193465664355852373579023390819142656403590501366750000000000000000000000000000000000000000, 9605072960478541553264613917168389732464764618855989904299049050587109374114439662976282491842000000000000000000000000000000000000000000, -1083631847431945424300067505497380636982106075274875458485690008054694528346312406711118105949245500000000000000000000000000000000000000000, 4930947735463763923976989601205469960507542021187106226296693710232913299976204802568520913345951500000000000000000000000000000000000000000, 19497718470970732830631946062665645738671289095589010286928480356575424185678971951727553578722671125000000000000000000000000000000000000000, -179202166768975869630026232535308143913729491424389967325121108083949577711074664353519254371757273750000000000000000000000000000000000000000, -30701175781376279954413397208534523530124227761203960374555834464045599082136708905273507065714697500000000000000000000000000000000000000000, 2334974625780146066171917507598118183565169048646234884083358776182376148535949321949835960956446357500000000000000000000000000000000000000000, -465363143001187491257686876060523399939186727756546312147264077264318293931998000991563149823427455000000000000000000000000000000000000000000, -12295786921054235322749146597929788387865750888352115428480545270081054893769051133683491516246388650000000000000000000000000000000000000000000, -13223077584301877497584183348254622393959414480212801640385526073935517389139910679988370117954078500000000000000000000000000000000000000000000, -3529413550785592581741447122553011284556340164783965284884287231936407370662188159166471756282191300000000000000000000000000000000000000000000, -227716322513766991793790069523345649771513372437714673495643458610657288056281555727271051897705600000000000000000000000000000000000000000000, 7718291842689890292223855209719582670650429576212054457209907025019179277691802000000000000000000000000000000000000000000000000000000000000]

theorem bk3m3_lit : addL (smulL 10 (brkB (-1) 1 bU03 bU13 bG13).2) (smulL (-100000000000000000) (brkB (-1) 1 bU03 bU13 bG13).1) = bk3m3 := by decide +kernel

theorem bk3m3_0 : chkPiece bk3m3 4096 198 350 = true := by decide +kernel

theorem bk3m3_1 : chkPiece bk3m3 4096 350 502 = true := by decide +kernel

theorem bk3m3_chk : chkChain bk3m3 4096 198 [350, 502] = true := chk_cons bk3m3_0 (chk_cons bk3m3_1 rfl)

def bk4p3 : List ℤ := [1713788591594049986385937500000000000000000000000000000000000000000000000000000000000000000000000000000000000000000000000000, 26976193392899982303070846309275738182902343750000000000000000000000000000000000000000000000000000000000000000000000000000000, -7300623079075446069565723524064345027645305723929362859788844109375000000000000000000000000000000000000000000000000000000000000, 120025844871023738060825468736860919395075276693522501201694868903825875475499238401562500000000000000000000000000000000000000000, 5352332084011386590581029686983558089513375133691980748218051667622309732836119272725859609375000000000000000000000000000000000000, -168842523260362214188560188372758083361991944515921954454662916504985954079051425531933590625000000000000000000000000000000000000000, -121451692336219506738635393257349064955906599061396254544882152922732715106877219873951515625000000000000000000000000000000000000000, 55250315669388011821946383371152726501445582928541042909278254256497459633163180506435893295312500000000000000000000000000000000000000, -493700735820079699488496942457120193652883829680197817183095757488451354006395352119669161128125000000000000000000000000000000000000000, -5454127644815090349247280024304124140498140316326259270471289611955221795804940072717342515932031250000000000000000000000000000000000000, 97091573351556558698625872611846271425897147712694571458402175239025278801719818583148946812828125000000000000000000000000000000000000000, -22318116174488822997518285828512788855279430914175401019063932928305817978474273791060226847515625000000000000000000000000000000000000000, -6242142042544278020593460727758457314587495180514629141438812774525458169399324920563346688400937500000000000000000000000000000000000000000, 19374369375433711021921937238221729122604992726181912921628717660549107264220666736991849710703703125000000000000000000000000000000000000000, 175600293181325971302811247027952858143632306891130907318857978679163204852950185632441702020573234375000000000000000000000000000000000000000, -670419614368754856868183157073610665612517092298861363666257137538328068314943405064212584904585937500000000000000000000000000000000000000000, -2642600634540032403829102578219915819383514826124199190500928971140505839865343795059920751367686562500000000000000000000000000000000000000000, 5946410023528408311459676234186800406159898777933256075234984001531752125445353326568440000295429375000000000000000000000000000000000000000000, 25077446349951264960236993318898633491292411324066977431474075537124786834507858695422842838502035000000000000000000000000000000000000000000000, 21512726670701810387863776515976493117763429167941839829441370502580949858107775256588573041904868750000000000000000000000000000000000000000000, 4628365872613186299810020759993293291300605388125797578012370760852832873417369895782140656146918750000000000000000000000000000000000000000000, -468883287871633856312702247994917214264502496559852998718594203238445313765711825512335371157200000000000000000000000000000000000000000000000, 7945014275884348800151764611890258164830829757881589260715805874789988017598599486438978988800000000000000000000000000000000000000000000000]

theorem bk4p3_lit : addL (smulL 500 (brkA (-1) bU13 bG13 bG03).2) (smulL 100000000000000000 (brkA (-1) bU13 bG13 bG03).1) = bk4p3 := by decide +kernel

theorem bk4p3_0 : chkPiece bk4p3 4096 198 350 = true := by decide +kernel

theorem bk4p3_1 : chkPiece bk4p3 4096 350 502 = true := by decide +kernel

theorem bk4p3_chk : chkChain bk4p3 4096 198 [350, 502] = true := chk_cons bk4p3_0 (chk_cons bk4p3_1 rfl)

def bk4m3 : List ℤ := [-1713787029094049986385937500000000000000000000000000000000000000000000000000000000000000000000000000000000000000000000000000, -26975934007514036862487824121775738182902343750000000000000000000000000000000000000000000000000000000000000000000000000000000, 7300642299466243769796225786979685233847961035741862859788844109375000000000000000000000000000000000000000000000000000000000000, -120025002773400864861760182502045302223013848384806558010970178968672750475499238401562500000000000000000000000000000000000000000, -5352307710402436539482700266910169990585336935150038898866142026593526602840355060586640390625000000000000000000000000000000000000, 168843016796106682250110456215881969786602659991721724393159017400081074163458845475878909375000000000000000000000000000000000000000, 121458918628557302357762075006967995107752929307574625087899881804679003231169370971173484375000000000000000000000000000000000000000, -55250237640356971740809027760652822532319898484637977757833413971009573802943425829684044204687500000000000000000000000000000000000000, 493701364140766250935599112432474767089290190400319043374863776184388265612879209549025213871875000000000000000000000000000000000000000, 5454131436742141276262088465983844773606938535067992700670371414766953721584530312198681234067968750000000000000000000000000000000000000, -97091556200437976385557779204844518955479549001569669697501714607018254810593269477596388187171875000000000000000000000000000000000000000, 22318174049929272996218165630045835082810140335687676993495925284354865990300365621808495652484375000000000000000000000000000000000000000, 6242142186899980503056584628849062693105064767967528900770043300227902985254398583514202769099062500000000000000000000000000000000000000000, -19374369113185180777448497585310813224803620140330398521789584668221770835815147995562109626796296875000000000000000000000000000000000000000, -175600292841795134247230462969488391797293861700102088993879128606746527924950580469426042704426765625000000000000000000000000000000000000000, 670419614672171638545043706190856347232312738694039004731800791193294566209393078836954087095414062500000000000000000000000000000000000000000, 2642600634718191387507513486880116564243419634651489689616687314912673333685043867425737175782313437500000000000000000000000000000000000000000, -5946410023465272810265283547964190522534138200375418544871233352390168488000786981676367377304570625000000000000000000000000000000000000000000, -25077446349940065253924206724981384554496900790741158708896523239132513697133661246947782161497965000000000000000000000000000000000000000000000, -21512726670701418333719665935963392131767981089113150513827026098112580796279116751442676958095131250000000000000000000000000000000000000000000, -4628365872613282823261887991303628337449187595722693643431825262249448892970881320592859343853081250000000000000000000000000000000000000000000, 468883287871629179539097571677972160582162639494398670209099265392251427753162571675164628842800000000000000000000000000000000000000000000000, -7945014275884009173948036142406725373740934909931217395698963373119796878907530513561021011200000000000000000000000000000000000000000000000]

theorem bk4m3_lit : addL (smulL 500 (brkA (-1) bU13 bG13 bG03).2) (smulL (-100000000000000000) (brkA (-1) bU13 bG13 bG03).1) = bk4m3 := by decide +kernel

theorem bk4m3_0 : chkPiece bk4m3 4096 198 350 = true := by decide +kernel

theorem bk4m3_1 : chkPiece bk4m3 4096 350 502 = true := by decide +kernel

theorem bk4m3_chk : chkChain bk4m3 4096 198 [350, 502] = true := chk_cons bk4m3_0 (chk_cons bk4m3_1 rfl)

theorem bPos3 {t : ℝ} (h1 : 198 / 4096 ≤ t) (h2 : t ≤ 502 / 4096) : 0 < polyEval bU03.2 t ∧ 0 < polyEval bG03.2 t ∧ 0 < polyEval bU13.2 t ∧ 0 < polyEval bG13.2 t := by
  refine ⟨?_, ?_, ?_, ?_⟩ <;> exact chk_pos (d := 4096) (p := 198) (q := 502) (by norm_num) (by decide +kernel) (by norm_num at *; linarith) (by norm_num at *; linarith)

theorem bRes3 {t : ℝ} (h1 : 198 / 4096 ≤ t) (h2 : t ≤ 502 / 4096) :
    |-2 * t * rfD bU03 t - rfEval bG03 t - rfEval bU03 t / 2 + rfEval bG13 t| ≤ 400 / 10 ^ 17 ∧
    |rfEval bU13 t - rfEval bU03 t + t * (3 / 2 * rfEval bG03 t + 2 * t * rfD bG03 t)| ≤ 10 / 10 ^ 17 ∧
    |rfEval bU13 t - rfEval bU03 t - t * (1 / 2 * rfEval bG13 t + 2 * t * rfD bG13 t)| ≤ 10 / 10 ^ 17 ∧
    |-2 * t * rfD bU13 t - rfEval bG13 t + rfEval bG03 t + rfEval bU13 t / 2| ≤ 500 / 10 ^ 17 := by
  obtain ⟨p1, p2, p3, p4⟩ := bPos3 h1 h2
  have k1 := brkA_eval 1 p1 p2 p4
  have k1b := rf_bound2 (brkA 1 bU03 bG03 bG13) 400 100000000000000000 4096 198 [350, 502] [350, 502] (by simp) (by simp) (by norm_num) (by norm_num) bk1p3_lit bk1m3_lit bk1p3_chk bk1m3_chk k1.2 (by norm_num at *; linarith) (by norm_num at *; linarith) (by norm_num at *; linarith)
  rw [k1.1] at k1b
  have k2 := brkB_eval 1 3 p1 p3 p2
  have k2b := rf_bound2 (brkB 1 3 bU03 bU13 bG03) 10 100000000000000000 4096 198 [350, 502] [350, 502] (by simp) (by simp) (by norm_num) (by norm_num) bk2p3_lit bk2m3_lit bk2p3_chk bk2m3_chk k2.2 (by norm_num at *; linarith) (by norm_num at *; linarith) (by norm_num at *; linarith)
  rw [k2.1] at k2b
  have k3 := brkB_eval (-1) 1 p1 p3 p4
  have k3b := rf_bound2 (brkB (-1) 1 bU03 bU13 bG13) 10 100000000000000000 4096 198 [350, 502] [350, 502] (by simp) (by simp) (by norm_num) (by norm_num) bk3p3_lit bk3m3_lit bk3p3_chk bk3m3_chk k3.2 (by norm_num at *; linarith) (by norm_num at *; linarith) (by norm_num at *; linarith)
  rw [k3.1] at k3b
  have k4 := brkA_eval (-1) p3 p4 p2
  have k4b := rf_bound2 (brkA (-1) bU13 bG13 bG03) 500 100000000000000000 4096 198 [350, 502] [350, 502] (by simp) (by simp) (by norm_num) (by norm_num) bk4p3_lit bk4m3_lit bk4p3_chk bk4m3_chk k4.2 (by norm_num at *; linarith) (by norm_num at *; linarith) (by norm_num at *; linarith)
  rw [k4.1] at k4b
  norm_num only [Int.cast_one, Int.cast_neg, Int.cast_ofNat] at k1b k2b k3b k4b ⊢
  refine ⟨?_, ?_, ?_, ?_⟩
  · convert k1b using 2; ring
  · convert k2b using 2; ring
  · convert k3b using 2; ring
  · convert k4b using 2; ring

def bU02 : RF := ([4999999556232833483736794373, 110749983268302591848876500000, 673780278752028390922150000000, 1314172912599241045405450000000, 713411136611423275512000000000, 57119859506561330153350000000], [5000000000000000000000000000, 111101498766044404220500000000, 681033971091076040240000000000, 1352351393290417433945000000000, 769376971041601649405000000000, 73288088474128096905000000000])

def bG02 : RF := ([-124999849555555113016727621, -3722474677843931878397800000, -31670323085068070589840000000, -91102366764626443895700000000, -78700748888582914730700000000, -10330590992881926837275000000, 663869367353333683646250000], [1000000000000000000000000000, 30365584835521918449800000000, 269348118608049844624000000000, 844783757595320139444000000000, 882935845112488550512000000000, 212666388511798828631000000000, -5310954938826669469170000000])

def bU12 : RF := ([500000053855415053436871541, 10776831077922412148447000000, 63829371067539419470870000000, 122259539985994468480350000000, 67686672207157936753500000000, 6719081029802183913090000000], [500000000000000000000000000, 10718242968191070474400000000, 62645113584201375545000000000, 116138234528581406834500000000, 58839686643573550384000000000, 4182319466858091416840000000])

def bG12 : RF := ([93749955404568122260283607, 2743123511790414748022500000, 23028968890134893454700000000, 66099986702842916663725000000, 58736784664473042028025000000, 9277238770219847552331250000, -464953030146213946994062500], [250000000000000000000000000, 7383340726513096363700000000, 63245387495547632284000000000, 189375708717161359118000000000, 184848301330116811414000000000, 38987250834166530921750000000, -1239874747056570525317500000])

def bk1p2 : List ℤ := [-355561815932894771735375000000000000000000000000000000000000000000000000000000000000000000000000000000000000000000000000, -9366792979323194706156339442851062602424737500000000000000000000000000000000000000000000000000000000000000000000000000000, 299167366917931588168020422847371285212147787282859986410007715000000000000000000000000000000000000000000000000000000000000, 2367081730700064731284579067892449753415289697546995409261927725820633433509786142000000000000000000000000000000000000000000, -92501506842668945380016935808599697033523033958242947160888020427266416562222363199258441000000000000000000000000000000000000, 200312455975803652757745663958385469233322687026920762444853876852228405185080436950526840000000000000000000000000000000000000, 9241881245653140754168432811628940212898339074666507997599054678168183001350566606674593500000000000000000000000000000000000000, -63069722028568839759375795165779357847719768972221736793194783757072738273312976294572796080000000000000000000000000000000000000, -252162943758528454335632267105452217237811443472139896215506764127077228427671747630055276242500000000000000000000000000000000000, 3675227710130695374840607518875700516518082456141844138521589586254764128564342667165026771042925000000000000000000000000000000000, -4694220808252909150102611121211824438843001242565122149071294959365900105846618670990996547772000000000000000000000000000000000000, -68972114808606453106259777072078888026407107850367167179222547273467828280667344529865933656723000000000000000000000000000000000000, 228514436149212387635326531489267765323392848798572744931085361232802053449879965630559683895165000000000000000000000000000000000000, 437704581624791043437148325545732512030604295305630774577531532903391770297342154890805101133602500000000000000000000000000000000000, -2546299576293542699994655875511457548021027013183631383323278381270023970220375087594367528865589578750000000000000000000000000000000, -457633995655879515231835774253895791050250216623263888387058242416993453101647445437179009985074100000000000000000000000000000000000, 10690045395854787464228950755947410621219823471024845772369641015642771259841028732199381635977015325000000000000000000000000000000000, 980449814479563919796904731461303808619897364164965969668728095212920503546123940117010972765118925000000000000000000000000000000000, -18841931623365510854374283886832126972077924924265335204289502632052453780496784729951338315607680950000000000000000000000000000000000, -12674628198983780810118502437008946730038751716779408944082787444942238923882590370550851198060132750000000000000000000000000000000000, -2171414374255707904771468048644438258676001164975741298144558983347222007599150180470255591725689625000000000000000000000000000000000, 29203850251462665769434845368441523953505225796299359442769442508733928848314389784702591538449250000000000000000000000000000000000, 780272456336751353292299785178215576159082374746911766619633512826971030713852878601858677087125000000000000000000000000000000000]

theorem bk1p2_lit : addL (smulL 300 (brkA 1 bU02 bG02 bG12).2) (smulL 100000000000000000 (brkA 1 bU02 bG02 bG12).1) = bk1p2 := by decide +kernel

theorem bk1p2_0 : chkPiece bk1p2 4096 501 762 = true := by decide +kernel

theorem bk1p2_1 : chkPiece bk1p2 4096 762 1024 = true := by decide +kernel

theorem bk1p2_chk : chkChain bk1p2 4096 501 [762, 1024] = true := chk_cons bk1p2_0 (chk_cons bk1p2_1 rfl)

def bk1m2 : List ℤ := [355561823432894771735375000000000000000000000000000000000000000000000000000000000000000000000000000000000000000000000000, 9366793761869799066096831388851062602424737500000000000000000000000000000000000000000000000000000000000000000000000000000, -299167330563721870241028388615058391064757085636084986410007715000000000000000000000000000000000000000000000000000000000000, -2367080734761556036684114684282777442197652495671739056704106452212228433509786142000000000000000000000000000000000000000000, 92501524819815714512174896385760379244534287878386194394568534362155732384719602720741559000000000000000000000000000000000000, -200312229523297723442504517884472845369180429416363131221299457634262146918320662549473160000000000000000000000000000000000000, -9241879187382880052511548948837589183873300864361855866614332612570420151166612778865406500000000000000000000000000000000000000, 63069735802241521447874306829449525297455127702962350175604042760774710327822019156617203920000000000000000000000000000000000000, 252163012422516988644838147334075521332667431526173541662300451425132458926089181172990423757500000000000000000000000000000000000, -3675227453654452220708447270172664756784089397409478304260256881225750316585145683439459228957075000000000000000000000000000000000, 4694221526754531317864964626995949791309577591501560199060255246413719717312982067615588952228000000000000000000000000000000000000, 68972116313215105744541321245121292841637915240243705319984874447905528997569685169213619843277000000000000000000000000000000000000, -228514433811962708944947411228347298777215288170358195195269894771763006303288315401335301604835000000000000000000000000000000000000, -437704578965082381885909027341669920650130471298834329869360648923431505592694572423518711018897500000000000000000000000000000000000, 2546299578469997159793798459605880097067070419621045058358606049953692134061880593787489597334410421250000000000000000000000000000000, 457633996902569944815007244909970031891148473001263343838454468468063534518596955591817181189925900000000000000000000000000000000000, -10690045395374503294771164529296448783678373269551506647753136100975966916709065840075750046647984675000000000000000000000000000000000, -980449814362809677009363949385926624077580257885909035919674329506346374773079549711456639059881075000000000000000000000000000000000, 18841931623381414567241059243310205832008881057254897444206528465926509511748928444374974184392319050000000000000000000000000000000000, 12674628198984654733046574050247676711557447877688683803664917932893095671055422512414148801939867250000000000000000000000000000000000, 2171414374255690501809182243024519919604104520295038693631119727621693835600602412074744408274310375000000000000000000000000000000000, -29203850251464808743112514286828784128073785919829908578570045194105181604629266359047408461550750000000000000000000000000000000000, -780272456336708911035751852935890906936614946808322629310316206076387023508238380148141322912875000000000000000000000000000000000]

theorem bk1m2_lit : addL (smulL 300 (brkA 1 bU02 bG02 bG12).2) (smulL (-100000000000000000) (brkA 1 bU02 bG02 bG12).1) = bk1m2 := by decide +kernel

theorem bk1m2_0 : chkPiece bk1m2 4096 501 762 = true := by decide +kernel

theorem bk1m2_1 : chkPiece bk1m2 4096 762 1024 = true := by decide +kernel

theorem bk1m2_chk : chkChain bk1m2 4096 501 [762, 1024] = true := chk_cons bk1m2_0 (chk_cons bk1m2_1 rfl)

def bk2p2 : List ℤ := [98232131755063192103700000000000000000000000000000000000000000000000000000000000000000000000000000000000000000000000000, -2113944552249390030227365939431764114663620000000000000000000000000000000000000000000000000000000000000000000000000000000, -22250613002628076703227761283707117325456991875033101386596996000000000000000000000000000000000000000000000000000000000000, 930070200345937317340301772427365680189071515827576028241107715337738132947869114400000000000000000000000000000000000000000, -4633558090582190550089603347516653431656690274920299093489439883996738818930877415629755840000000000000000000000000000000000, -97353861223177321218338917899822932332032051361879495719290882764725579974940105502255935600000000000000000000000000000000000, 1301946000399417224523219533981295142483156508964376039623643899831669791179767059206767013800000000000000000000000000000000000, -2129188380245416061753788204915021632064807417711232373527958425367335345491696868434691724000000000000000000000000000000000000, -57580078748280160862502700520145320046937458524157600381013211925753282672591519883549839191424000000000000000000000000000000000, 389183587043155346585291262398357000670426706571956561413803923235172437721143873036622065430512000000000000000000000000000000000, 3777311961116925384638334556116307447743221490586124863936137323591759981942910365406191496920000000000000000000000000000000000, -9078203002553042984884370410308502499044908473470055271547662912398949263256962728981761120442260000000000000000000000000000000000, 30570834247699505993022058340310339352689120740893036578982891147325183537963269245876792111828720000000000000000000000000000000000, 28715289181485035153071998696491275674946023067568484088860316599457616738350689920118568943636179200000000000000000000000000000000, -336531945225884663659126621542426172939483415058140538431844955615507392851769436609448340012091882400000000000000000000000000000000, 352729261741205588701516342925001025236475203414009858253230485408946239490270154571784050007124597000000000000000000000000000000000, 1200018260416498891953812325683472421586527766901873885929269745430228233978143195105588107401699554500000000000000000000000000000000, -2133355760496510112622861276931040822228412345300295320442591602371400865838311848763490276353976262000000000000000000000000000000000, -1752459516078519208937131899268886449755655750730612190822049976018899546202364316047108484378121023840000000000000000000000000000000, 2835067533674100166699861601477975825297489854891111035540137022820898618264265506673834897949528159800000000000000000000000000000000, 2558122326486124072010531295463805632368923051047688334280452669513448071458639683850149961275486981400000000000000000000000000000000, 478358311547693534161923841878642442304132417879747427071812718558740714379481463171935820249068795600000000000000000000000000000000, 22075939024782267909336353040395345231871249252310115647976373322251646280589302526137267467430595600000000000000000000000000000000, -324210517038159989553596843080992646460474502650864249204028998695888626501432366750000000000000000000000000000000000000000000000]

theorem bk2p2_lit : addL (smulL 10 (brkB 1 3 bU02 bU12 bG02).2) (smulL 100000000000000000 (brkB 1 3 bU02 bU12 bG02).1) = bk2p2 := by decide +kernel

theorem bk2p2_0 : chkPiece bk2p2 4096 501 1024 = true := by decide +kernel

theorem bk2p2_chk : chkChain bk2p2 4096 501 [1024] = true := chk_cons bk2p2_0 rfl

def bk2m2 : List ℤ := [-98232131655063192103700000000000000000000000000000000000000000000000000000000000000000000000000000000000000000000000000, 2113944562688185566290851808681764114663620000000000000000000000000000000000000000000000000000000000000000000000000000000, 22250613487619557020708254912621369736005884204529101386596996000000000000000000000000000000000000000000000000000000000000, -930070187062434446585390444831110837712477105729116776212536186065849732947869114400000000000000000000000000000000000000000, 4633558330234271078401433474761670169207178370149994513108325179793354498784154584370244160000000000000000000000000000000000, 97353864239698726952070584823395917859277233535226020175508398226233250898057753365744064400000000000000000000000000000000000, -1301945973009636721561352109224638295786984329947811674585362562941709152030889013315232986200000000000000000000000000000000000, 2129188563296870746306025216146991481670709569783851192204687503542993323481440991594428276000000000000000000000000000000000000, 57580079659359005931827483610458572280510519599192016020347794025708908180397327765445200808576000000000000000000000000000000000, -389183583646733455797458535911575538642991926423346625634305478318532161140094405771290734569488000000000000000000000000000000000, -3777302469042664691233186769543199658149875310048410234813627665862781587435807818794808503080000000000000000000000000000000000, 9078203022371983243260846512308830081916030845918953411304196139114821951829044502438208179557740000000000000000000000000000000000, -30570834217024682480498029462244081481080987926668468372569141642165522389528104196871996384171280000000000000000000000000000000000, -28715289146737469563907585251623484217438292926258276652238136968603927691932800115835321364363820800000000000000000000000000000000, 336531945254152072423235518133671234055901729208669751431617019977451463161998128318101718707908117600000000000000000000000000000000, -352729261725139353475758793979597627086636609884146650763014780131525614571264623257088318372875403000000000000000000000000000000000, -1200018260410375995103492072108852278315420639560891438784634919481593796108565503515857718798300445500000000000000000000000000000000, 2133355760497974310605115158600060198629187969350595216849884554934060345155007181829794353185223738000000000000000000000000000000000, 1752459516078713120212228469121628018441545365285062904945108896629089377630017413776317115621878976160000000000000000000000000000000, -2835067533674090046344424291405264726135286880522619980387872658646909604822214958294205102050471840200000000000000000000000000000000, -2558122326486124245817216295322320618069968961916833569768276292608484786314215732873920038724513018600000000000000000000000000000000, -478358311547693553361853127594963171810546470316616806752412017676616831708886390265014179750931204400000000000000000000000000000000, -22075939024782267563511801533024689708034616632584626090136903827996447129625037250522732532569404400000000000000000000000000000000, 324210517038159989553596843080992646460474502650864249204028998695888626501432366750000000000000000000000000000000000000000000000]

theorem bk2m2_lit : addL (smulL 10 (brkB 1 3 bU02 bU12 bG02).2) (smulL (-100000000000000000) (brkB 1 3 bU02 bU12 bG02).1) = bk2m2 := by decide +kernel

theorem bk2m2_0 : chkPiece bk2m2 4096 501 1024 = true := by decide +kernel

theorem bk2m2_chk : chkChain bk2m2 4096 501 [1024] = true := chk_cons bk2m2_0 rfl

def bk3p2 : List ℤ := [6139508234691449506481250000000000000000000000000000000000000000000000000000000000000000000000000000000000000000000000, -146605270155443494542117022344486583614163750000000000000000000000000000000000000000000000000000000000000000000000000000, -1075515883903861159117626700711067602375111899622099960000206000000000000000000000000000000000000000000000000000000000000, 60500661916803252518908443136061160199090149086779322445637613237184710115118243400000000000000000000000000000000000000000, -401538157379595569210911492685471457470328539053344744725841474132207623201072360092160240000000000000000000000000000000000, -5497811586172538030595254477540436767226355764613727847628821789560855245362436769420130300000000000000000000000000000000000, 91046949562603207796792709569130778286539092020732539973988681917112700744918801428092624250000000000000000000000000000000000, -257597206967428893922299317762585803107055435419366610863922579690364704281454067878154693400000000000000000000000000000000000, -3430081837378711433758305521315279859690415062428510577706378554358303828534997541317966622864000000000000000000000000000000000, 29146021982535592277501899893238048429033312964347359974359448558489769082648502672450381117372000000000000000000000000000000000, -26801534786224663055755354594071578205192027383221391051408593979316622270958010725500183319205000000000000000000000000000000000, -589385751242589857690062484371426446332651985468678372835552997374571439394553995400587831466917500000000000000000000000000000000, 2495706582881027292684194292123698736861724953766232269039277687363416695983565492993196880016870000000000000000000000000000000000, 559722178907807938340751830252812461225068859730349131471601708796127490571903228613021573965252200000000000000000000000000000000, -24230979279445856639129206508473205735383204750420013834999197884113825874966574778173325814035571150000000000000000000000000000000, 35298272265947486843897669958252400911751992306959713426138936663496466525455842439795728566586306812500000000000000000000000000000, 77764192737756685768988820986390673985269681603280251178053061264849694656204876212859181216737344406250000000000000000000000000000, -180778143396519608754736709222703509410636645986572276142168966632129519687623860173529815487443142375000000000000000000000000000000, -104559257803237483017530128130096540573654088218925900996174712240397584520722430646349719581573757390000000000000000000000000000000, 240538537620892674346592774824633371643142248955113393188308991317432900305206972016459074228193110487500000000000000000000000000000, 190446559496046581533625870458649493750280845676594046743774959857202958711412372951961716223958237837500000000000000000000000000000, 32097152698703394887192956786990740745560908414437424358106937761515687205827190178745779918055970725000000000000000000000000000000, 1364271560827989986731011609485412373043328504761916935940568052514748043386185761723790093129593225000000000000000000000000000000, -17670038463323745397189287299551377984031918870990356296451572966771559549617987296875000000000000000000000000000000000000000000]

theorem bk3p2_lit : addL (smulL 10 (brkB (-1) 1 bU02 bU12 bG12).2) (smulL 100000000000000000 (brkB (-1) 1 bU02 bU12 bG12).1) = bk3p2 := by decide +kernel

theorem bk3p2_0 : chkPiece bk3p2 4096 501 762 = true := by decide +kernel

theorem bk3p2_1 : chkPiece bk3p2 4096 762 1024 = true := by decide +kernel

theorem bk3p2_chk : chkChain bk3p2 4096 501 [762, 1024] = true := chk_cons bk3p2_0 (chk_cons bk3p2_1 rfl)

def bk3m2 : List ℤ := [-6139508228441449506481250000000000000000000000000000000000000000000000000000000000000000000000000000000000000000000000, 146605270797465441427715726735111583614163750000000000000000000000000000000000000000000000000000000000000000000000000000, 1075515913245537279232251318594967806259241134290599960000206000000000000000000000000000000000000000000000000000000000000, -60500661126727698338220954041089018999758068607976653805128260519519810115118243400000000000000000000000000000000000000000, 401538171382503743787069426908980330813353690278233794950763177858751998015568099907839760000000000000000000000000000000000, 5497811759164132125968950855652998596313309636325583237784942381944502057762346562579869700000000000000000000000000000000000, -91046948022626571801260809414421663055834173377046417431727678423267673094183159576907375750000000000000000000000000000000000, 257597217044864917107730593335765550329881042657650064198212030362662146683820491048165306600000000000000000000000000000000000, 3430081886417007881645666545803015844334556998880496241784684941186621790150619994684173377136000000000000000000000000000000000, -29146021804115066780118299047871789427277127343945091936589420893241234590236122983759018882628000000000000000000000000000000000, 26801535271888145162180688038030455793489792493436602666616381015433017067026326550153166680795000000000000000000000000000000000, 589385752227836482484120336843805625842758958106873810257149245567143995719962483568439843533082500000000000000000000000000000000, -2495706581403763153565470391107685029849551265228226714837366448583837646368556027301432105983130000000000000000000000000000000000, -559722177292545163250967222935439576483378437557370621807903227574047894705290520553686200284747800000000000000000000000000000000, 24230979280708471470123133347186996348589259697980135138828534653468601164475703887769102758464428850000000000000000000000000000000, -35298272265262049685067698304800208653636795582974830935655354530347594495613707448731053724663693187500000000000000000000000000000, -77764192737509261070963248183380543251027134469768546123966460877350194317196379535271519965762655593750000000000000000000000000000, 180778143396574917791174503468910135093928870405061583137826214512639820766703740159534031225756857625000000000000000000000000000000, 104559257803244138122914043200350237398539602711800502749904968513229531020798376849190380418426242610000000000000000000000000000000, -240538537620892402631526832581056854222845710663680850401636653604861935954969278162943425771806889512500000000000000000000000000000, -190446559496046593982269330860690311176612828827036665623133221806246217955369615814367658776041762162500000000000000000000000000000, -32097152698703395609494380407503440147646325716455245655568847835009548154093190083938595081944029275000000000000000000000000000000, -1364271560827989967882970581940083949374755385240447086306521256791701327171174597167459906870406775000000000000000000000000000000, 17670038463323745397189287299551377984031918870990356296451572966771559549617987296875000000000000000000000000000000000000000000]

theorem bk3m2_lit : addL (smulL 10 (brkB (-1) 1 bU02 bU12 bG12).2) (smulL (-100000000000000000) (brkB (-1) 1 bU02 bU12 bG12).1) = bk3m2 := by decide +kernel

theorem bk3m2_0 : chkPiece bk3m2 4096 501 1024 = true := by decide +kernel

theorem bk3m2_chk : chkChain bk3m2 4096 501 [1024] = true := chk_cons bk3m2_0 rfl

def bk4p2 : List ℤ := [4783519893142237618650000000000000000000000000000000000000000000000000000000000000000000000000000000000000000000000000, 113697483956526354844476070078039681107062500000000000000000000000000000000000000000000000000000000000000000000000000000, -3934009032679980810745195863172995833820710337252069254160163000000000000000000000000000000000000000000000000000000000000, -26435362117156412750340325728547635206724172769486345664350355725723930591515761600000000000000000000000000000000000000000, 1179071513580043049382194702310684998689907793510955918030203639916725956615262767433210880000000000000000000000000000000000, -3269023500147303373179603477638612622661646491669597105775907202426193214329541668367936000000000000000000000000000000000000, -112282949045533248806785150466193524738355335996272485998935944914647016557694309489396873600000000000000000000000000000000000, 831357312087473664140774797840005928364575506457801586157654841714751490498483710114508598400000000000000000000000000000000000, 2709915232338720410900913652975335190677916669359087504168018463179808596289251021286250248736000000000000000000000000000000000, -45751894137022033273366658128815366050149774234332329858920501462830157247757248674260410356864000000000000000000000000000000000, 72896676039910650376767577839229869649018431846067309615399381638766152177194595124182811596800000000000000000000000000000000000, 806900057953720032070958805656314477980937549515470697247777873023819236965347232922419799632240000000000000000000000000000000000, -2952881334428508877181483498722090199636481599669320243339821706414717319960967764549934120757875200000000000000000000000000000000, -4530000020856223605078698556802506564721707334767945888557480618850387793354323768752508574706160800000000000000000000000000000000, 31137032755306073860755217272744945150647538733565013202534254581654717589499587951027258680438220800000000000000000000000000000000, 137929358145410016342213604391513449814606473021570999477846312416991299318250999826259486368176000000000000000000000000000000000, -125928642428257419963187690099368941580284305683317932013339364596937063627058268063610830751391876000000000000000000000000000000000, 2747890253211021967634375990755280291259547072218663268065413847451856157615292784132630541206286560000000000000000000000000000000, 220289268498646392594390198153750686890751025487031449503338122096283652700337651975875280669424033560000000000000000000000000000000, 133358657873050161486184272086693992421551962024808981153221844288448753944437200171402098386390833600000000000000000000000000000000, 19181401486084652172638225182018982521113784371826041079233315422151275252168888475845479151746581600000000000000000000000000000000, -842240072680736256481084516008739993521310644516905568833767233404122742123600023646628032019417600000000000000000000000000000000, 6986300844308147357010755980470704894212608870728952144754271537640611664057710939511395332211808000000000000000000000000000000]

theorem bk4p2_lit : addL (smulL 400 (brkA (-1) bU12 bG12 bG02).2) (smulL 100000000000000000 (brkA (-1) bU12 bG12 bG02).1) = bk4p2 := by decide +kernel

theorem bk4p2_0 : chkPiece bk4p2 4096 501 762 = true := by decide +kernel

theorem bk4p2_1 : chkPiece bk4p2 4096 762 1024 = true := by decide +kernel

theorem bk4p2_chk : chkChain bk4p2 4096 501 [762, 1024] = true := chk_cons bk4p2_0 (chk_cons bk4p2_1 rfl)

def bk4m2 : List ℤ := [-4783519793142237618650000000000000000000000000000000000000000000000000000000000000000000000000000000000000000000000000, -113697473679334393410617489858039681107062500000000000000000000000000000000000000000000000000000000000000000000000000000, 3934009502407659886988973902814413901952492893196069254160163000000000000000000000000000000000000000000000000000000000000, 26435374762331558629070331687809431356438007775930062254739627914216730591515761600000000000000000000000000000000000000000, -1179071289580467054268140938529103830183027685561671551765416683076834181429716564566789120000000000000000000000000000000000, 3269026265263663626383062165500085099723172998173472097076493182256382707417679505632064000000000000000000000000000000000000, 112282973634932881265585361077745516508521287367910087641366337868890382545917754870603126400000000000000000000000000000000000, -831357151390772537141065827727106038840981366690095800843051762956519271816456897652131401600000000000000000000000000000000000, -2709914451649612441063898517396608022158895790667288407922507565856133282209845889817429751264000000000000000000000000000000000, 45751896971757741355383867182683638997276046294955396376980678603879085552468343839381489643136000000000000000000000000000000000, -72896668342711671976322485274488058079521947930192230128642992984111943920912552759453138403200000000000000000000000000000000000, -806900042385945795329430090230249278319567220310379464473550897182607230446647577138422888367760000000000000000000000000000000000, 2952881357682950466448454472922272627067746220957204294740148944874987439675901677481423197242124800000000000000000000000000000000, 4530000046162444574801970130089080632427685396672271171043858934462328348675592445760158125293839200000000000000000000000000000000, -31137032735645927513238536961779287816825320854798825228083788069577094369360109702507237914561779200000000000000000000000000000000, -137929347559622607446243530896119016411094332848039294358161179576041829114713124092366211131824000000000000000000000000000000000, 125928642432034750067261694222238755507859721006689072329871871712093946216726025662992671547808124000000000000000000000000000000000, -2747890252381673249958306543179692001092810432302425335171992136767848705623323983662213514593713440000000000000000000000000000000, -220289268498549729195146116709784414063999188613920904640366942484101602244795604824159919330575966440000000000000000000000000000000, -133358657873046451095603246667047155757552939941976786479374070404275856095400806042535901613609166400000000000000000000000000000000, -19181401486084802223625854015539877241868631802489177727953495105949182163288714473959520848253418400000000000000000000000000000000, 842240072680728267430093730088366419195670060263398441011028193439497755544853595933371967980582400000000000000000000000000000000, -6986300844307963065716221756854885672151497100090044133045715354585901171366609810488604667788192000000000000000000000000000000]

theorem bk4m2_lit : addL (smulL 400 (brkA (-1) bU12 bG12 bG02).2) (smulL (-100000000000000000) (brkA (-1) bU12 bG12 bG02).1) = bk4m2 := by decide +kernel

theorem bk4m2_0 : chkPiece bk4m2 4096 501 762 = true := by decide +kernel

theorem bk4m2_1 : chkPiece bk4m2 4096 762 1024 = true := by decide +kernel

theorem bk4m2_chk : chkChain bk4m2 4096 501 [762, 1024] = true := chk_cons bk4m2_0 (chk_cons bk4m2_1 rfl)

theorem bPos2 {t : ℝ} (h1 : 501 / 4096 ≤ t) (h2 : t ≤ 1024 / 4096) : 0 < polyEval bU02.2 t ∧ 0 < polyEval bG02.2 t ∧ 0 < polyEval bU12.2 t ∧ 0 < polyEval bG12.2 t := by
  refine ⟨?_, ?_, ?_, ?_⟩ <;> exact chk_pos (d := 4096) (p := 501) (q := 1024) (by norm_num) (by decide +kernel) (by norm_num at *; linarith) (by norm_num at *; linarith)

theorem bRes2 {t : ℝ} (h1 : 501 / 4096 ≤ t) (h2 : t ≤ 1024 / 4096) :
    |-2 * t * rfD bU02 t - rfEval bG02 t - rfEval bU02 t / 2 + rfEval bG12 t| ≤ 300 / 10 ^ 17 ∧
    |rfEval bU12 t - rfEval bU02 t + t * (3 / 2 * rfEval bG02 t + 2 * t * rfD bG02 t)| ≤ 10 / 10 ^ 17 ∧
    |rfEval bU12 t - rfEval bU02 t - t * (1 / 2 * rfEval bG12 t + 2 * t * rfD bG12 t)| ≤ 10 / 10 ^ 17 ∧
    |-2 * t * rfD bU12 t - rfEval bG12 t + rfEval bG02 t + rfEval bU12 t / 2| ≤ 400 / 10 ^ 17 := by
  obtain ⟨p1, p2, p3, p4⟩ := bPos2 h1 h2
  have k1 := brkA_eval 1 p1 p2 p4
  have k1b := rf_bound2 (brkA 1 bU02 bG02 bG12) 300 100000000000000000 4096 501 [762, 1024] [762, 1024] (by simp) (by simp) (by norm_num) (by norm_num) bk1p2_lit bk1m2_lit bk1p2_chk bk1m2_chk k1.2 (by norm_num at *; linarith) (by norm_num at *; linarith) (by norm_num at *; linarith)
  rw [k1.1] at k1b
  have k2 := brkB_eval 1 3 p1 p3 p2
  have k2b := rf_bound2 (brkB 1 3 bU02 bU12 bG02) 10 100000000000000000 4096 501 [1024] [1024] (by simp) (by simp) (by norm_num) (by norm_num) bk2p2_lit bk2m2_lit bk2p2_chk bk2m2_chk k2.2 (by norm_num at *; linarith) (by norm_num at *; linarith) (by norm_num at *; linarith)
  rw [k2.1] at k2b
  have k3 := brkB_eval (-1) 1 p1 p3 p4
  have k3b := rf_bound2 (brkB (-1) 1 bU02 bU12 bG12) 10 100000000000000000 4096 501 [762, 1024] [1024] (by simp) (by simp) (by norm_num) (by norm_num) bk3p2_lit bk3m2_lit bk3p2_chk bk3m2_chk k3.2 (by norm_num at *; linarith) (by norm_num at *; linarith) (by norm_num at *; linarith)
  rw [k3.1] at k3b
  have k4 := brkA_eval (-1) p3 p4 p2
  have k4b := rf_bound2 (brkA (-1) bU12 bG12 bG02) 400 100000000000000000 4096 501 [762, 1024] [762, 1024] (by simp) (by simp) (by norm_num) (by norm_num) bk4p2_lit bk4m2_lit bk4p2_chk bk4m2_chk k4.2 (by norm_num at *; linarith) (by norm_num at *; linarith) (by norm_num at *; linarith)
  rw [k4.1] at k4b
  norm_num only [Int.cast_one, Int.cast_neg, Int.cast_ofNat] at k1b k2b k3b k4b ⊢
  refine ⟨?_, ?_, ?_, ?_⟩
  · convert k1b using 2; ring
  · convert k2b using 2; ring
  · convert k3b using 2; ring
  · convert k4b using 2; ring

end Russell.Lab
