import Verif.Lab.GammaStir

/-!
# The polynomials of `ln_gamma` for `0 < x < 2` and `8 ≤ x` (background of property C112)
-/

namespace Russell.Lab

open Real Set

/-- `p - 0.5 y` in the case `i = 0` of `ln_gamma` (ln_gamma.rs:300-304 with LA) -/
noncomputable def lgF0 (y : ℝ) : ℝ :=
  let z := y * y
  let p1 := 7.72156649015328655494e-02 + z * (6.73523010531292681824e-02 + z * (7.38555086081402883957e-03 + z * (1.19270763183362067845e-03 + z * (2.20862790713908385557e-04 + z * 2.52144565451257326939e-05))))
  let p2 := z * (3.22467033424113591611e-01 + z * (2.05808084325167332806e-02 + z * (2.89051383673415629091e-03 + z * (5.10069792153511336608e-04 + z * (1.08011567247583939954e-04 + z * 4.48640949618915160150e-05)))))
  let p := y * p1 + p2
  p - 0.5 * y

/-- `TF + p` in the case `i = 1` of `ln_gamma` (ln_gamma.rs:306-312 with LT, TF, TT) -/
noncomputable def lgF1 (y : ℝ) : ℝ :=
  let z := y * y
  let w := z * y
  let p1 := 4.83836122723810047042e-01 + w * ((-3.27885410759859649565e-02) + w * (6.10053870246291332635e-03 + w * ((-1.40346469989232843813e-03) + w * 3.15632070903625950361e-04)))
  let p2 := (-1.47587722994593911752e-01) + w * (1.79706750811820387126e-02 + w * ((-3.68452016781138256760e-03) + w * (8.81081882437654011382e-04 + w * (-3.12754168375120860518e-04))))
  let p3 := 6.46249402391333854778e-02 + w * ((-1.03142241298341437450e-02) + w * (2.25964780900612472250e-03 + w * ((-5.38595305356740546715e-04) + w * 3.35529192635519073543e-04)))
  let p := z * p1 - ((-3.63867699703950536541e-18) - w * (p2 + y * p3))
  (-1.21486290535849611461e-01) + p

/-- `-0.5 y + p1 / p2` in the case `i = 2` of `ln_gamma` (ln_gamma.rs:314-316 with LU, LV) -/
noncomputable def lgF2 (y : ℝ) : ℝ :=
  let p1 := y * ((-7.72156649015328655494e-02) + y * (6.32827064025093366517e-01 + y * (1.45492250137234768737e+00 + y * (9.77717527963372745603e-01 + y * (2.28963728064692451092e-01 + y * 1.33810918536787660377e-02)))))
  let p2 := 1 + y * (2.45597793713041134822e+00 + y * (2.12848976379893395361e+00 + y * (7.69285150456672783825e-01 + y * (1.04222645593369134254e-01 + y * 3.21709242282423911810e-03))));
  -0.5 * y + p1 / p2

def lgF0l : List ℤ := [0, -4227843350984671344506000, 3224670334241135916110000, 673523010531292681824000, 205808084325167332806000, 73855508608140288395700, 28905138367341562909100, 11927076318336206784500, 5100697921535113366080, 2208627907139083855570, 1080115672475839399540, 252144565451257326939, 448640949618915160150]

def lgF1l : List ℤ := [-12148629053584960782232300296049463459, 0, 48383612272381004704200000000000000000, -14758772299459391175200000000000000000, 6462494023913338547780000000000000000, -3278854107598596495650000000000000000, 1797067508118203871260000000000000000, -1031422412983414374500000000000000000, 610053870246291332635000000000000000, -368452016781138256760000000000000000, 225964780900612472250000000000000000, -140346469989232843813000000000000000, 88108188243765401138200000000000000, -53859530535674054671500000000000000, 31563207090362595036100000000000000, -31275416837512086051800000000000000, 33552919263551907354300000000000000]

def lgF2n : List ℤ := [0, -1154431329803065731098800, -1190323809080224615186000, 781355238945761421130000, 1186149905470072707381000, 353704810536015767930000, 23545091284533292957300]

def lgF2d : List ℤ := [2000000000000000000000000, 4911955874260822696440000, 4256979527597867907220000, 1538570300913345567650000, 208445291186738268508000, 6434184845648478236200]

theorem lgF0_eq (y : ℝ) : lgF0 y = polyEval lgF0l y / 10 ^ 25 := by
  simp only [lgF0, lgF0l, polyEval]
  push_cast
  ring

theorem lgF1_eq (y : ℝ) : lgF1 y = polyEval lgF1l y / 10 ^ 38 := by
  simp only [lgF1, lgF1l, polyEval]
  push_cast
  ring

theorem lgF2d_pos {y : ℝ} (hy : -1 / 10 ≤ y) (hy1 : y ≤ 1) : 0 < polyEval lgF2d y := by
  have h : chkChain (addL lgF2d [-1]) 10 (-1) [10] = true := by decide +kernel
  have := chkChain_sound (by norm_num) (-1) [10] (by simp) h (by push_cast; exact hy) (by push_cast; norm_num; exact hy1)
  rw [polyEval_add] at this
  simp only [polyEval] at this
  push_cast at this
  linarith

theorem lgF2_eq {y : ℝ} (hy : -1 / 10 ≤ y) (hy1 : y ≤ 1) : lgF2 y = polyEval lgF2n y / polyEval lgF2d y ^ 1 := by
  have hd := lgF2d_pos hy hy1
  have e : (1 + y * (2.45597793713041134822e+00 + y * (2.12848976379893395361e+00 + y * (7.69285150456672783825e-01 + y * (1.04222645593369134254e-01 + y * 3.21709242282423911810e-03))))) = polyEval lgF2d y / (2 * 10 ^ 24) := by
    simp only [lgF2d, polyEval]
    push_cast
    ring
  have e2 : polyEval lgF2n y = 2 * 10 ^ 24 * (y * ((-7.72156649015328655494e-02) + y * (6.32827064025093366517e-01 + y * (1.45492250137234768737e+00 + y * (9.77717527963372745603e-01 + y * (2.28963728064692451092e-01 + y * 1.33810918536787660377e-02)))))) - 1 / 2 * y * polyEval lgF2d y := by
    simp only [lgF2n, lgF2d, polyEval]
    push_cast
    ring
  unfold lgF2
  dsimp only
  rw [e, e2]
  field_simp
  norm_num
  ring

/-- the derivative of `f - u/w + log l` when `fd` is the one of `f` -/
def lnRF (fd : RF) (u w l : List ℤ) : RF := rfSub (rfSub fd (quotD 1 u w, powL w 2)) (smulL (-1) (derivL l), l)

theorem lnRF_deriv {f : ℝ → ℝ} {fd : RF} {u w l : List ℤ} {y : ℝ} (hf : HasDerivAt f (rfEval fd y) y) (h1 : 0 < polyEval fd.2 y)
    (hw : 0 < polyEval w y) (hl : 0 < polyEval l y) : 0 < polyEval (lnRF fd u w l).2 y ∧
      HasDerivAt (fun y => f y - polyEval u y / polyEval w y ^ 1 + log (polyEval l y)) (rfEval (lnRF fd u w l) y) y := by
  have e1 := rfSub_eval (f := fd) (g := (quotD 1 u w, powL w 2)) h1 (by simp only [polyEval_pow]; positivity)
  have e2 := rfSub_eval (g := (smulL (-1) (derivL l), l)) e1.2 hl
  refine ⟨e2.2, ?_⟩
  have d := (hf.sub (quotD_deriv 0 u w hw)).add ((polyEval_deriv l y).log hl.ne')
  refine d.congr_deriv ?_
  rw [lnRF, e2.1, e1.1]
  simp only [rfEval, polyEval_pow, polyEval_smul]
  norm_num
  ring

/-- `lgCore` of a shifted argument -/
theorem lgCore_shift (p r : ℤ) {d : ℤ} (hd : 0 < d) {y : ℝ} (h : 0 ≤ (p + r * y) / d) :
    polyEval (affL p r d lgU) y / polyEval (smulL d (affL p r d lgW)) y ^ 1 = lgCore ((p + r * y) / d) ∧ 0 < polyEval (smulL d (affL p r d lgW)) y := by
  have hd' : (0 : ℝ) < d := by exact_mod_cast hd
  have e1 := affL_eval p r hd lgU y
  have e2 := affL_eval p r hd lgW y
  have hw := lgW_pos h
  have l1 : lgU.length = 8 := rfl
  have l2 : lgW.length = 7 := rfl
  rw [l1] at e1
  rw [l2] at e2
  rw [polyEval_smul, e2, lgCore_eq h]
  refine ⟨?_, by positivity⟩
  have e3 : polyEval (affL p r d lgU) y = (d : ℝ) ^ 7 * polyEval lgU ((p + r * y) / d) := by
    have : (d : ℝ) * polyEval (affL p r d lgU) y = d * ((d : ℝ) ^ 7 * polyEval lgU ((p + r * y) / d)) := by rw [e1]; ring
    exact mul_left_cancel₀ hd'.ne' this
  rw [e3]
  field_simp

/-- one step of `tvChk` -/
def pieceOk (f : RF) (d b p q a : ℤ) : Bool :=
  decide (p ≤ q) && chkPiece (addL (smulL a f.2) (smulL (-b) f.1)) d p q && chkPiece (addL (smulL a f.2) (smulL b f.1)) d p q

theorem tvChk_cons {f : RF} {d b p q a : ℤ} {l : List (ℤ × ℤ)} (h : pieceOk f d b p q a = true) (h2 : tvChk f d b q l = true) : tvChk f d b p ((q, a) :: l) = true := by
  rw [tvChk, Bool.and_eq_true]
  exact ⟨h, h2⟩

/-! ### the case `i = 0` -/

def ln0RF : RF := lnRF (derivL lgF0l, [10 ^ 25]) (affL 1 (-1) 1 lgU) (smulL 1 (affL 1 (-1) 1 lgW)) [2, -1]

noncomputable def ln0Err (y : ℝ) : ℝ :=
  polyEval lgF0l y / 10 ^ 25 - polyEval (affL 1 (-1) 1 lgU) y / polyEval (smulL 1 (affL 1 (-1) 1 lgW)) y ^ 1 + log (polyEval [2, -1] y)

theorem ln0Err_deriv {y : ℝ} (h0 : 0 ≤ y) (h1 : y ≤ 671 / 2500) : 0 < polyEval ln0RF.2 y ∧ HasDerivAt ln0Err (rfEval ln0RF y) y := by
  refine lnRF_deriv (f := fun y => polyEval lgF0l y / 10 ^ 25) (((polyEval_deriv lgF0l y).div_const _).congr_deriv ?_) ?_ (lgCore_shift 1 (-1) one_pos ?_).2 ?_
  · simp only [rfEval, polyEval]
    push_cast
    norm_num
  · simp only [polyEval]; push_cast; norm_num
  · norm_num at *; linarith
  · simp only [polyEval]; push_cast; norm_num at *; linarith

def ln0RFl : RF := ([132702680903170239073300668545971350619436640605904922735792000, 9157595099224854793271117142998947831347997253987862725349960000, -1916417339936291371758663939223932627206590747516303415514816880000, 171455640394841238837303300307218792613500139779469230520454375376000, -7777881329936146338903875972733931111300448990890718013886330417820000, 203293973680567527554743192369085495606715130710789465638025472072674800, -3327005622115850396828303918300977859784753894598659758487175180109288000, 35834114148908716074661416495859908613309268978469396638633035290277107120, -261049110864927099836979249679262688037323178364931898440336860653334428560, 1299839073130851520528746394016316097400308319819569257468213997514903249640, -4407193632582578665895588397259162790410039181882573583655152264807652851608, 10007638986215176338452823734324001044474413360660621976437902094243743648380, -14837924409405795552115166435549034095288234080361477444653410205015065275056, 14112139989955673352701175154673929946816037168980137558194752043783378080304, -8831081444591759463779606231298463580209962988082262463925064981726426155320, 3751605045410936299115041915327389463414401417746262627311890973849214004916, -1106004052148293382429999128401589226723849957237135369010430130404008333520, 228538757318560800333780399777889178969011995878833463124728597820707837032, -33023903140559354479611279942820393588017943415350657234082549070784780808, 3285786036638069767617506387482172835162827955895049352851038575764703780, -218096077881432074459859473350556434115868739942738931510432680663060208, 9143835612037609448555441663777881009760991471395887178235141150681040, -220794271027459337032212417853938173890611560901058437579663053806696, 2610734396535840054921219754260683143113448764273562912613151635964, -11559927401890543524726319545735741692112136617945761360492071200], [8740037865653392868141619125980669815570545583738313680000000000000000000000000, -22510571154681970118611239931235093467691368905531705000000000000000000000000000, 25662403354536068199704642211393898198982339248877000960000000000000000000000000, -17092080653921667172661258213715717318235721054876993040000000000000000000000000, 7388483957362281231950668566310054142936113821311696400000000000000000000000000, -2176522194232031093475947445981931005557294877941470360000000000000000000000000, 446171205678779275095847116693723415454693971263625600000000000000000000000000, -63809084116243801822218262076660551432166471323466720000000000000000000000000, 6283073951129027087121298860874883382298468581712880000000000000000000000000, -413149695693876635770301963013324871397036596365400000000000000000000000000, 17187204825747573822621990601753058588855702007680000000000000000000000000, -412577799125909807482287679031715145330155299600000000000000000000000000, 4860400960738912387716798848702908646408691760000000000000000000000000, -21472121176391691686526358584394919457748840000000000000000000000000])

theorem ln0RF_lit : ln0RF = ln0RFl := by decide +kernel

def ln0Tv : List (ℤ × ℤ) := [(400, 21), (800, 19), (1200, 18), (1600, 16), (2000, 15), (2400, 18), (2684, 106)]

theorem ln0Tv_0 : pieceOk ln0RFl 10000 (10 ^ 18) (0) (400) 21 = true := by decide +kernel

theorem ln0Tv_1 : pieceOk ln0RFl 10000 (10 ^ 18) (400) (800) 19 = true := by decide +kernel

theorem ln0Tv_2 : pieceOk ln0RFl 10000 (10 ^ 18) (800) (1200) 18 = true := by decide +kernel

theorem ln0Tv_3 : pieceOk ln0RFl 10000 (10 ^ 18) (1200) (1600) 16 = true := by decide +kernel

theorem ln0Tv_4 : pieceOk ln0RFl 10000 (10 ^ 18) (1600) (2000) 15 = true := by decide +kernel

theorem ln0Tv_5 : pieceOk ln0RFl 10000 (10 ^ 18) (2000) (2400) 18 = true := by decide +kernel

theorem ln0Tv_6 : pieceOk ln0RFl 10000 (10 ^ 18) (2400) (2684) 106 = true := by decide +kernel

theorem ln0Tv_chk : tvChk ln0RFl 10000 (10 ^ 18) (0) ln0Tv = true :=
  tvChk_cons ln0Tv_0 (tvChk_cons ln0Tv_1 (tvChk_cons ln0Tv_2 (tvChk_cons ln0Tv_3 (tvChk_cons ln0Tv_4 (tvChk_cons ln0Tv_5 (tvChk_cons ln0Tv_6 rfl))))))


theorem ln0_var {x : ℝ} (h0 : 0 ≤ x) (h1 : x ≤ 671 / 2500) : |ln0Err x - ln0Err (0)| + |ln0Err (671 / 2500) - ln0Err x| ≤ 72904 / (10 ^ 18 * 10000) := by
  have e64 : tvEnd (0) ln0Tv = 2684 := by decide +kernel
  have es : tvSum (0) ln0Tv = 72904 := by decide +kernel
  have z : (((0 : ℤ) : ℝ) / ((10000 : ℤ) : ℝ)) = 0 := by norm_num
  have o : (((tvEnd (0) ln0Tv : ℤ) : ℝ) / ((10000 : ℤ) : ℝ)) = 671 / 2500 := by rw [e64]; norm_num
  have := tvChk_sound (f := ln0RFl) (d := 10000) (b := 10 ^ 18) (by norm_num) (by norm_num) ln0Tv (0) ln0Tv_chk (F := ln0Err)
    (by rw [z, o, ← ln0RF_lit]; exact fun x hx => ln0Err_deriv (by have := hx.1; norm_num at this ⊢; linarith) (by have := hx.2; norm_num at this ⊢; linarith)) (x := x) (by rw [z, o]; exact ⟨h0, h1⟩)
  rw [es, z, o] at this
  refine this.trans (le_of_eq ?_)
  norm_num

theorem ln0Err_eq {y : ℝ} (h1 : y ≤ 1) : ln0Err y = lgF0 y - lgCore (1 - y) + log (2 - y) := by
  rw [ln0Err, ← lgF0_eq, (lgCore_shift 1 (-1) one_pos (y := y) (by push_cast; linarith)).1]
  congr 2
  · push_cast; ring_nf
  · simp only [polyEval]; push_cast; ring

theorem ln0Err_bound {y : ℝ} (h0 : 0 ≤ y) (h1 : y ≤ 671 / 2500) : |lgF0 y - lgCore (1 - y) + log (2 - y)| ≤ 125 / 10 ^ 19 := by
  have h := ln0_var h0 h1
  rw [ln0Err_eq (y := y) (by norm_num at h1; linarith), ln0Err_eq (y := 0) (by norm_num)] at h
  have e0 : lgF0 0 = 0 := by simp [lgF0]
  have hc := lgCore_one
  rw [e0, sub_zero, sub_zero, zero_sub] at h
  have hn := abs_nonneg (ln0Err (671 / 2500) - (lgF0 y - lgCore (1 - y) + log (2 - y)))
  generalize ln0Err (671 / 2500) - (lgF0 y - lgCore (1 - y) + log (2 - y)) = r at *
  generalize lgF0 y - lgCore (1 - y) + log (2 - y) = t at *
  have h3 : |t| ≤ |t - (-lgCore 1 + log 2)| + |lgCore 1 - log 2| := by
    have := abs_add_le (t - (-lgCore 1 + log 2)) (-(lgCore 1 - log 2))
    rw [abs_neg] at this
    have e : t - (-lgCore 1 + log 2) + -(lgCore 1 - log 2) = t := by ring
    rwa [e] at this
  norm_num at h hc h3 ⊢
  linarith

/-! ### the case `i = 2` -/

def ln2RF : RF := lnRF (quotD 1 lgF2n lgF2d, powL lgF2d 2) (affL 0 1 1 lgU) (smulL 1 (affL 0 1 1 lgW)) [1, 1]

noncomputable def ln2Err (y : ℝ) : ℝ :=
  polyEval lgF2n y / polyEval lgF2d y ^ 1 - polyEval (affL 0 1 1 lgU) y / polyEval (smulL 1 (affL 0 1 1 lgW)) y ^ 1 + log (polyEval [1, 1] y)

theorem ln2Err_deriv {y : ℝ} (h0 : 0 ≤ y) (h1 : y ≤ 2317 / 10000) : 0 < polyEval ln2RF.2 y ∧ HasDerivAt ln2Err (rfEval ln2RF y) y := by
  have hd := lgF2d_pos (y := y) (by norm_num; linarith) (by norm_num at h1; linarith)
  refine lnRF_deriv (f := fun y => polyEval lgF2n y / polyEval lgF2d y ^ 1) ((quotD_deriv 0 lgF2n lgF2d hd).congr_deriv ?_) ?_ (lgCore_shift 0 1 one_pos ?_).2 ?_
  · simp only [rfEval, polyEval_pow]
    norm_num
  · simp only [polyEval_pow]; positivity
  · norm_num at *; linarith
  · simp only [polyEval]; push_cast; norm_num at *; linarith

def ln2RFl : RF := ([0, -20998938891785759001017978880000000000000000000000000000000000000000000000000000000000, -1361466870164484898064513934258083780322243909632000000000000000000000000000000000000000, 62610788933703901536816040002157141405089990498112000000000000000000000000000000000000000, 908305020941821303695580571275311800348702592153694012182814917934990016000000000000000000, -21950674769555074015854189895374321225768232981290574897117789273421585753600000000000000000, -160043780199321811320181687081377546232132534525444261172443853111687867968320000000000000000, 3385528271915694227604455762707872334672574281249993317675875875540707277606630400000000000000, 2271941334349579736579136025494588906001699350809169954416644235806509862713930880000000000000, -179808577148769060439631402516296611725588565918800208809053971151406294559936665984000000000000, 558545453192455796521185230427379393157151235474846386320238666156810836522260844416000000000000, 590490783110242505081612672772959519484094369960547899864681499386008002985981547436800000000000, -1781416510168558998669260003714265268765633926729475646283731225712581802755606833701440000000000, -3788816170538664398996233859275967794992950235562953254683532873299135756388387741024563200000000, -3276777875376914305443001562682017728472531270140795691711106320406619709726736014882541536000000, -1636389496485754348741701241059880821438919014413925336694767655557917646678989978654556416000000, -519909299481335163125144101234379479429757558875523017975968498939224013793390830860508867200000, -108627949534725652588881503047635757588941368233649003367521661432148826660720514342910247040000, -14955088974667875930306736707619771046097746246096931652092586260929710075830289229474021440000, -1326826284514312544049581693104310626114880296276653933379766601571779840909463645955921600000, -72075268448571359905019719453067316800058695137873079698647005178898682470467666653644800000, -2169866402596426676464143440185093034399214126003945194029727278879577464815550508835200000, -29607851584340525153641110836493384360332048245602008606741286328059947858504196155680000, -106764540532411878601712738499238393464491358774769934517775712748297003353763797440000], [160000000000000000000000000000000000000000000000000000000000000000000000000000000000000000000000000000, 1391354646978118978496000000000000000000000000000000000000000000000000000000000000000000000000000000000, 5606601793138271358118452446036340379317632000000000000000000000000000000000000000000000000000000000000, 13911492765160812132027915974815221618106146646502601668566809600000000000000000000000000000000000000000, 23824040798308724695416227484755891996757821979275775360331606796969279720664119321600000000000000000000, 29916066669676946740978326618441663283942679141214553449765459874476478690132069619200000000000000000000, 28565218834324858983171825434611257204236771740413250309904360882511765592278607206720000000000000000000, 21227373367036704894013612868365840590373861432804922497359229318131405247951056953856000000000000000000, 12462834625844915663210099026983354421691708802657582592256014881139027571411753106239360000000000000000, 5835789988474708821509577076246818527693206788378103291458368972401862365097910374758425600000000000000, 2190853698304010718099626146805080389405038463426747671146695034872039897314664255228275200000000000000, 660580799665300595863843625732515100439485184191296195558716534489484929127274862351842560000000000000, 159760434595901333694965101160426639553653603836922756901767863728590802775115852430551232000000000000, 30859413931013696461915900039120399288116860434142213262634341998423255156540551463906490880000000000, 4725983517485574253298155742132025053761855796122499761725537404415299354084887021279039622400000000, 567703941161196580530416792917333982296080325487503630912669131438758991153743302102854604800000000, 52710545583620238810701780087185458531785840443528276607633746842621243591026865448766008000000000, 3709548163764275069427036834706685740999074667340580199962516698560964816668999405118357760000000, 192801242327207359404384976151776781648577436795466733149786174991483574817314105560086544000000, 7144860098456968897211200940789901626985801891553178784714040222030297583670044161618736000000, 179610168081055390537966716423262537879818690351992545674855283115618626121561720145328000000, 2838159363525017628524697048201372808524435260521476623143428231473955258242822305340800000, 24725427431177624046103737017416414620858165378782690335810118192863177908205988473760000, 88891864648110902015062345701398620575566851574040352132076727649858520116084108960000])

theorem ln2RF_lit : ln2RF = ln2RFl := by decide +kernel

def ln2Tv : List (ℤ × ℤ) := [(600, 12), (1200, 12), (1800, 36), (2317, 228)]

theorem ln2Tv_0 : pieceOk ln2RFl 10000 (10 ^ 18) (0) (600) 12 = true := by decide +kernel

theorem ln2Tv_1 : pieceOk ln2RFl 10000 (10 ^ 18) (600) (1200) 12 = true := by decide +kernel

theorem ln2Tv_2 : pieceOk ln2RFl 10000 (10 ^ 18) (1200) (1800) 36 = true := by decide +kernel

theorem ln2Tv_3 : pieceOk ln2RFl 10000 (10 ^ 18) (1800) (2317) 228 = true := by decide +kernel

theorem ln2Tv_chk : tvChk ln2RFl 10000 (10 ^ 18) (0) ln2Tv = true :=
  tvChk_cons ln2Tv_0 (tvChk_cons ln2Tv_1 (tvChk_cons ln2Tv_2 (tvChk_cons ln2Tv_3 rfl)))


theorem ln2_var {x : ℝ} (h0 : 0 ≤ x) (h1 : x ≤ 2317 / 10000) : |ln2Err x - ln2Err (0)| + |ln2Err (2317 / 10000) - ln2Err x| ≤ 153876 / (10 ^ 18 * 10000) := by
  have e64 : tvEnd (0) ln2Tv = 2317 := by decide +kernel
  have es : tvSum (0) ln2Tv = 153876 := by decide +kernel
  have z : (((0 : ℤ) : ℝ) / ((10000 : ℤ) : ℝ)) = 0 := by norm_num
  have o : (((tvEnd (0) ln2Tv : ℤ) : ℝ) / ((10000 : ℤ) : ℝ)) = 2317 / 10000 := by rw [e64]; norm_num
  have := tvChk_sound (f := ln2RFl) (d := 10000) (b := 10 ^ 18) (by norm_num) (by norm_num) ln2Tv (0) ln2Tv_chk (F := ln2Err)
    (by rw [z, o, ← ln2RF_lit]; exact fun x hx => ln2Err_deriv (by have := hx.1; norm_num at this ⊢; linarith) (by have := hx.2; norm_num at this ⊢; linarith)) (x := x) (by rw [z, o]; exact ⟨h0, h1⟩)
  rw [es, z, o] at this
  refine this.trans (le_of_eq ?_)
  norm_num

theorem ln2Err_eq {y : ℝ} (h0 : 0 ≤ y) (h1 : y ≤ 1) : ln2Err y = lgF2 y - lgCore y + log (1 + y) := by
  rw [ln2Err, ← lgF2_eq (by norm_num; linarith) h1, (lgCore_shift 0 1 one_pos (y := y) (by push_cast; simpa using h0)).1]
  congr 2
  · push_cast; ring_nf
  · simp only [polyEval]; push_cast; ring

theorem ln2Err_bound {y : ℝ} (h0 : 0 ≤ y) (h1 : y ≤ 2317 / 10000) : |lgF2 y - lgCore y + log (1 + y)| ≤ 16 / 10 ^ 18 := by
  have h := ln2_var h0 h1
  rw [ln2Err_eq (y := y) h0 (by norm_num at h1; linarith), ln2Err_eq (y := 0) le_rfl (by norm_num)] at h
  have e0 : lgF2 0 = 0 := by simp [lgF2]
  have e1 : lgCore 0 = 0 := by simp [lgCore, lgP]
  rw [e0, e1, add_zero, log_one, sub_zero, add_zero, sub_zero] at h
  have hn := abs_nonneg (ln2Err (2317 / 10000) - (lgF2 y - lgCore y + log (1 + y)))
  generalize ln2Err (2317 / 10000) - (lgF2 y - lgCore y + log (1 + y)) = r at *
  generalize lgF2 y - lgCore y + log (1 + y) = t at *
  norm_num at h ⊢
  linarith

def ln3RF : RF := lnRF (quotD 1 lgF2n lgF2d, powL lgF2d 2) (affL 1 1 1 lgU) (smulL 1 (affL 1 1 1 lgW)) [2, 3, 1]

noncomputable def ln3Err (y : ℝ) : ℝ :=
  polyEval lgF2n y / polyEval lgF2d y ^ 1 - polyEval (affL 1 1 1 lgU) y / polyEval (smulL 1 (affL 1 1 1 lgW)) y ^ 1 + log (polyEval [2, 3, 1] y)

theorem ln3Err_deriv {y : ℝ} (h0 : -1 / 10 ≤ y) (h1 : y ≤ 0) : 0 < polyEval ln3RF.2 y ∧ HasDerivAt ln3Err (rfEval ln3RF y) y := by
  have hd := lgF2d_pos (y := y) h0 (by linarith)
  refine lnRF_deriv (f := fun y => polyEval lgF2n y / polyEval lgF2d y ^ 1) ((quotD_deriv 0 lgF2n lgF2d hd).congr_deriv ?_) ?_ (lgCore_shift 1 1 one_pos ?_).2 ?_
  · simp only [rfEval, polyEval_pow]
    norm_num
  · simp only [polyEval_pow]; positivity
  · norm_num at *; linarith
  · simp only [polyEval]; push_cast; norm_num at *; nlinarith

def ln3RFl : RF := ([-53081072361268095629320267418388540247774656242361969094316800000000000000000000000000, 336633501387464904317232979768140531011482733297074390366371200000000000000000000000000, 18153369883806802718472396523907755125508486294357121534715551809560912925413419328000000, 2037760306803367248969806220071604571826539942736749841373601132562955252785258882848000000, 29336476625279644755298043095668288301739330766382944595834497894908972274496753507897600000, -436624145994202173902618644004685382107904996203617201689827127564782508749867806034334080000, -3068821686485610221390209325361845920369104151221373120090352801937844547272615531731095680000, 75713587293418404640547256956200475264113718992349767966086000296578084745178858100114811840000, 36907497735204812747350160262382829707310482883012659320577376014976754599812439082252388800000, -3921297335956510877416084032848180278280848935589719077291067890415381182232631207542910099840000, 13038356211468413441671596548145800492525449367251691416161949400408875596353833094158955132640000, 9846927265819125628822943030759609510029020387698698681519361197609795773177751942074461717440000, -39671206523092213103017292549197754224022937013236424967874239554078485753681212336031485876160000, -73885265291299466053400118260304803751705911457732238883771972635156875161916192302020110218880000, -59978303039190935990710779819877166032108937581211810532135914797529293279254028142827159613920000, -29102063613567150932895357074277092570680431414680890068323864440644431573634858450756197842880000, -9299901706360838373492291180254404375984196794941587244973415539480757191456468414822126225280000, -2035170543768725483095093444895723799498372401185775126276604040066718042616154417665159399040000, -308528457762091589367811435606701534314587694654788565179231965232279808531705686594576206560000, -32153620863866113266093029632809484766121478042970297761391564966569640045225953057249257920000, -2243096331971200466216501066277021342179406483563459880684902529263481771573002326189745600000, -99444098328823474094286240396562386083383557177498974269854777545504740186125653267302400000, -2545520626946368006518567651590903735946384155661546779759512467043198337878329376475040000, -31013663287146180552050026829781323248259360416874747337858069578886247385340805210880000, -106764540532411878601712738499238393464491358774769934517775712748297003353763797440000], [3496015146261357147256647650392267926228218233495325472000000000000000000000000000000000000000000000000, 29672515742317427670623285190900249146613562756525045854209246843742455719680000000000000000000000000000, 116639660476136446684710850502633373906511388541772489522957678532238983157908385010508559593484800000000, 282293670064189909009563704569535300228905701107581176688471812668685239673963907871745629526329600000000, 471753296263898257948293898248371606207079271777840970900874387938972360026357298010525917664137600000000, 578722620054219265579937079402212507418079769940349431306201237591833717126667133529998606820259520000000, 540923584261786272789316989937331937924372505252764952239749969521676131578816386287593910162989088000000, 394674232259756283711285688857204687438571093174199435937141726920034040340498009323853851724422512000000, 228476477202305202979072927321856321356085838989869516366371009779307824213769517928001913103244432000000, 106086227881505142422915674271713078074056317118352599438871509974001345630528779631239518516642825600000, 39780811709511216490136852976983033692042488266309382160563890052715896006152467343624303038353955520000, 12091537729316335024388351475002626668288939273707704243328572813776677798282387171134324550631393120000, 2981805279373681381093690534450846814604056515955357231065314485984455971548308816417215901171742240000, 595584952795813346806307641318241014175160884652267931835844970883720418849821560491468918212644800000, 95946590102420614020003993905264881510535206321731940894069645061910757114867995141080882597314560000, 12379181953068486418579344137626967991956004836153972863471670134609892768958742521002557951076640000, 1266272365946854280703045850226144826666906914438969885812485002661119228244994643605867342588640000, 101275799971398675816064073200621695352944063583158179493750367867707429977755234472496675438080000, 6216450922154756949547133093034916113579633787488731131114147599735657280167203557467146392000000, 285616001635081504708841949931662722443692829057436056163399901045149492526494700308980757920000, 9491550050878669740615817688730364594460836977411476852128672272305017944782841415195121120000, 217204365757049362120149097030388807789808459066494628587993481298162312412130747988003520000, 3173438656528990601599329711028125007935117635176833425987523374508238021470787512627840000, 25969913536251176674314609857235995308916101300819255265659192379961197189831165999200000, 88891864648110902015062345701398620575566851574040352132076727649858520116084108960000])

theorem ln3RF_lit : ln3RF = ln3RFl := by decide +kernel

def ln3Tv : List (ℤ × ℤ) := [(-800, 124), (-500, 29), (0, 30)]

theorem ln3Tv_0 : pieceOk ln3RFl 10000 (10 ^ 18) (-1000) (-800) 124 = true := by decide +kernel

theorem ln3Tv_1 : pieceOk ln3RFl 10000 (10 ^ 18) (-800) (-500) 29 = true := by decide +kernel

theorem ln3Tv_2 : pieceOk ln3RFl 10000 (10 ^ 18) (-500) (0) 30 = true := by decide +kernel

theorem ln3Tv_chk : tvChk ln3RFl 10000 (10 ^ 18) (-1000) ln3Tv = true :=
  tvChk_cons ln3Tv_0 (tvChk_cons ln3Tv_1 (tvChk_cons ln3Tv_2 rfl))


theorem ln3_var {x : ℝ} (h0 : -1 / 10 ≤ x) (h1 : x ≤ 0) : |ln3Err x - ln3Err (-1 / 10)| + |ln3Err (0) - ln3Err x| ≤ 48500 / (10 ^ 18 * 10000) := by
  have e64 : tvEnd (-1000) ln3Tv = 0 := by decide +kernel
  have es : tvSum (-1000) ln3Tv = 48500 := by decide +kernel
  have z : (((-1000 : ℤ) : ℝ) / ((10000 : ℤ) : ℝ)) = -1 / 10 := by norm_num
  have o : (((tvEnd (-1000) ln3Tv : ℤ) : ℝ) / ((10000 : ℤ) : ℝ)) = 0 := by rw [e64]; norm_num
  have := tvChk_sound (f := ln3RFl) (d := 10000) (b := 10 ^ 18) (by norm_num) (by norm_num) ln3Tv (-1000) ln3Tv_chk (F := ln3Err)
    (by rw [z, o, ← ln3RF_lit]; exact fun x hx => ln3Err_deriv (by have := hx.1; norm_num at this ⊢; linarith) (by have := hx.2; norm_num at this ⊢; linarith)) (x := x) (by rw [z, o]; exact ⟨h0, h1⟩)
  rw [es, z, o] at this
  refine this.trans (le_of_eq ?_)
  norm_num

theorem ln3Err_eq {y : ℝ} (h0 : -1 / 10 ≤ y) (h1 : y ≤ 1) : ln3Err y = lgF2 y - lgCore (1 + y) + log ((1 + y) * (2 + y)) := by
  rw [ln3Err, ← lgF2_eq h0 h1, (lgCore_shift 1 1 one_pos (y := y) (by push_cast; norm_num at h0 ⊢; linarith)).1]
  congr 2
  · push_cast; ring_nf
  · simp only [polyEval]; push_cast; ring

theorem ln3Err_bound {y : ℝ} (h0 : -1 / 10 ≤ y) (h1 : y ≤ 0) : |lgF2 y - lgCore (1 + y) + log ((1 + y) * (2 + y))| ≤ 12 / 10 ^ 18 := by
  have h := ln3_var h0 h1
  rw [ln3Err_eq (y := y) h0 (by linarith), ln3Err_eq (y := 0) (by norm_num) (by norm_num)] at h
  have e0 : lgF2 0 = 0 := by simp [lgF2]
  have hc := lgCore_one
  rw [e0, add_zero, add_zero, one_mul, zero_sub] at h
  have hn := abs_nonneg (lgF2 y - lgCore (1 + y) + log ((1 + y) * (2 + y)) - ln3Err (-1 / 10))
  generalize lgF2 y - lgCore (1 + y) + log ((1 + y) * (2 + y)) - ln3Err (-1 / 10) = r at *
  generalize lgF2 y - lgCore (1 + y) + log ((1 + y) * (2 + y)) = t at *
  have h3 : |t| ≤ |-lgCore 1 + log 2 - t| + |lgCore 1 - log 2| := by
    have := abs_add_le (-lgCore 1 + log 2 - t) (lgCore 1 - log 2)
    have e : -lgCore 1 + log 2 - t + (lgCore 1 - log 2) = -t := by ring
    rwa [e, abs_neg] at this
  norm_num at h hc h3 ⊢
  linarith

/-! ### the case `i = 1` -/

def ln1RF : RF := lnRF (derivL lgF1l, [10 ^ 38]) (affL 46163214496836224576 (10 ^ 20) (10 ^ 20) lgU) (smulL (10 ^ 20) (affL 46163214496836224576 (10 ^ 20) (10 ^ 20) lgW)) [146163214496836224576, 10 ^ 20]

noncomputable def ln1Err (y : ℝ) : ℝ :=
  polyEval lgF1l y / 10 ^ 38 - polyEval (affL 46163214496836224576 (10 ^ 20) (10 ^ 20) lgU) y / polyEval (smulL (10 ^ 20) (affL 46163214496836224576 (10 ^ 20) (10 ^ 20) lgW)) y ^ 1
    + log (polyEval [146163214496836224576, 10 ^ 20] y)

theorem ln1Err_deriv {y : ℝ} (h0 : -3 / 10 ≤ y) (h1 : y ≤ 3 / 10) : 0 < polyEval ln1RF.2 y ∧ HasDerivAt ln1Err (rfEval ln1RF y) y := by
  refine lnRF_deriv (f := fun y => polyEval lgF1l y / 10 ^ 38) (((polyEval_deriv lgF1l y).div_const _).congr_deriv ?_) ?_ (lgCore_shift 46163214496836224576 (10 ^ 20) (by norm_num) ?_).2 ?_
  · simp only [rfEval, polyEval]
    push_cast
    norm_num
  · simp only [polyEval]; push_cast; norm_num
  · refine div_nonneg ?_ (by norm_num)
    norm_num at *; linarith
  · simp only [polyEval]; push_cast; norm_num at *; linarith

def ln1RFl : RF := ([1722697043346307828825930033924191869189122750465565870451333893928552271520909673899949618805818347355953267441260739622267112302990659666122801225753273387855877527447697748919709683002327314366295266214815304432955492229375506379148191923156103023809594406414765685864451717500458775812230873088000000000000000000000000000000000000000000000000000000000000000000000000000000, -17370194727611149470331715895017443260283191522022204453292615739975167459974444608504167160264688999673554914129410727007586608640622346979123384753040158706190436482020435996227916832014296347345061432635370268688361442824613975329093590114064717544050918312212563153001402610309501926567685159356110772352239108358144000000000000000000000000000000000000000000000000000000000, -3711661972074519767316379496160961887613650816158264865702004471732855128790759896733937748357801609754083966242850291679193762782404330159777424502091472648562715234762621796690328785021454058530960961240274194138647439155274089452870226246912037868527819708292009142467289724981226142790810085551390653589145490716360704000000000000000000000000000000000000000000000000000000000, 5643617255552735898056184985600427876862841778281756011721761873612215208888332756996901588017974812689736774114377062750294107094246060364984960659466463427080966825327056685613678134733668715457888128275445289155481474166826168352752768714572071077203211947597108011773660381956912427892356769842234746545561830184242380800000000000000000000000000000000000000000000000000000000, 1239401409971997417368620313228884868526889933429091350319700334849511792762150848192939588929903029240410069928751834267614117387201864814827502251003511121895803043567169065703721761991013624433970832183118183714880884822062797767448359115445385687422853393765180368755869823125563795662685067381388021123588888211247595520000000000000000000000000000000000000000000000000000000000, -163380948918666377374582627036586847265751122372852891167581403942741533481277875389177956780835228034099339922201309032542465784662439025938947744534359800810357116022852768663064322031913561356551581003492081821284431683424070043685903163917037877674502446239382831558173302885359202226611025170822709567433316832493803929600000000000000000000000000000000000000000000000000000000, -154313152951479182357664786612042649469449027038108518025597607132145316663354499637099120113051576548069200112412915832557747397961955584632663595641257779180808230229488120519884767363691228959874941315280448944425009310406258004351700505694974770697368134921742601477120036939288755744407803621007617903627981717210985922560000000000000000000000000000000000000000000000000000000000, -53538661717232835280221006593166177551070676468635104954169891105530210896237301951741828445460552199837313756250234826611944599345687956980319611763392098995312844769129923709342535561292259531721787704705182282499075290475291146196747539311414617829990153229602178823678116824765686411882520036672209651470403966103582461132800000000000000000000000000000000000000000000000000000000, 9211255148474164989881855604152441143469981008673511551038393995443491348979879493649095353515703731078924424195208059988705804317781601709770101275191984005625736233914639350724108747684681026642970992894865524163831453981458414037449943873938128083862187348911119908051865738547074167078700930934812990954472623662701251815014400000000000000000000000000000000000000000000000000000000, 5114968857510090947492243612727075694627578227076357313201555681613801716752765313495742500934481669023779246913799852196119526117164938576540610752080201026922439840588346131737940690277718606338426205182676612794489126230254569111003734762214963989013792879948444857560238042147337577593143930888523912920302494325768873574400000000000000000000000000000000000000000000000000000000000, -289469412667281455730835720629836673878630284612082133684243021982422897134283506684032447421795226400561732102127108032371627177627802798878617710678220590619935244860613467777749259948357585772876130481581608338257594642681253305483310758839930748027787705284982962204578744583964923612476950684567196007411269736488753985350533120000000000000000000000000000000000000000000000000000000, -199108931544894975587899295828339761943294746456520025827924458703276957844004931540397050871697692699622297051009553235251084020709379283206963069752874869460140152566947624346156205570098393224406486752337513964485556993956164693388944058121709125647575388455858849421916449951568689659673194139411507190912978483132199446348038144000000000000000000000000000000000000000000000000000000, 4802046321130579834874799691846428672187345344810787879555032891289012347353905805752201158002192752235792846617450806808345331723012462062559004621214954536874064033872934359170480822041909893826157439541590749795290195787211096922448982984345420490496957972568066631365040488076900960561187225839344111084867277076103478175827230720000000000000000000000000000000000000000000000000000000, 4128483965145556937097005280999224835806563140234190325131226120052070349464949994471161391898429359741668400721859605597378087409153490077337069605088581254860048425489406398697592856894619596452415155579640337464703781017477655743954261432487873342379665361622966175594711885920754037763602506820120303452998305945002096733596942336000000000000000000000000000000000000000000000000000000, -37598165941618853016078638910566411457098813412788765892054065880788782939401282521547777107148608150329198171292063510823046898572408502469307058755054316303242200575595888581505331179768212284372260662791622291261986793422036650418043730829576159616071475028844070520196897424590390609363201106267940556799148359932595554678923591680000000000000000000000000000000000000000000000000000000, -46516095038091711276689950694491510497633079767614132180554461874703158824166594618313305646927015928543129015293282502150344749878644580694543341016295141912612290327764553400155425697436548469300650137089640987557792828286865188323407834843486091486997421253794486142363545357737301971912877980178587423380080817642018061893509316608000000000000000000000000000000000000000000000000000000, 81045705550552348375467388951765306602017597729191786345308196388460576393040844734131058703785277094165814797013529508217604742973985753421587196257032283563979915523410968663600167759542845906643070494927292601996498169976928217549828557501895658198159325032593031838848243976961580969200658744845877324723886489600000000000000000000000000000000000000000000000000000000000000000000000000, 221701008517677713174041830391858193493403504915031869445737356735139342367699975065994938016100908094651402846953799793932351492347478545580714336404138548060380444237149853980639524943869271849517866074711994545061745874547252966165050587958482452984190057338551456879914824890765695044561141760000000000000000000000000000000000000000000000000000000000000000000000000000000000000000000000, 222030695718370732210650797864884618258202287569773698433766458590000027471454576678583447975531099087100663373664670323740479208227738658105476152370300543381418016560550841693663650249710066985088504870662131159167222525497721283318504506967936286206714757514638238691622912000000000000000000000000000000000000000000000000000000000000000000000000000000000000000000000000000000000000000000, 127763026959482035839241963919898119231831026840615141335185296814827672019992005346574674460539559690271629191289429519889582959784637125834459483191673573951591062082557809728687508282939547553998677404853737208464133157676926756278086332846034154160128000000000000000000000000000000000000000000000000000000000000000000000000000000000000000000000000000000000000000000000000000000000000000, 47317662904461171810781091500370418136166813127797741533097213402925670723845606596232432684432089966174460988536592210892617871078345326845159732145124345940364676583404208869502983788140739285284117759380992241094675904149582816215040000000000000000000000000000000000000000000000000000000000000000000000000000000000000000000000000000000000000000000000000000000000000000000000000000000000, 11771138202046145224989677587622162557767701975870918124627077778850218161355764424331500526766269990474176933374855360766203162016298555651608933120542675970052453800540340925014169612500057793671981028618400694272000000000000000000000000000000000000000000000000000000000000000000000000000000000000000000000000000000000000000000000000000000000000000000000000000000000000000000000000000000, 1990152392513838000342594942944934828760964448498915284656379594809148707906597622165129845369953899374016908132875475798731428444913883721049554110132563732850944812715780756352504140919943987200000000000000000000000000000000000000000000000000000000000000000000000000000000000000000000000000000000000000000000000000000000000000000000000000000000000000000000000000000000000000000000000000, 226598992086027473475427047616431482252247036284015295962771179264561697115368264623530299281716236239511264811967171019190845910847090851324457046308386823736759495467991040000000000000000000000000000000000000000000000000000000000000000000000000000000000000000000000000000000000000000000000000000000000000000000000000000000000000000000000000000000000000000000000000000000000000000000000, 16877075445602540784616407797985591766518929631625512344572338020826619347058554467139520625409636911924060150139041406999301110290453572611311172321280000000000000000000000000000000000000000000000000000000000000000000000000000000000000000000000000000000000000000000000000000000000000000000000000000000000000000000000000000000000000000000000000000000000000000000000000000000000000000000, 778763021974190252328133552393156673595887655714189222873223848285577465900135953094673637911606583340076924668940951760741282611200000000000000000000000000000000000000000000000000000000000000000000000000000000000000000000000000000000000000000000000000000000000000000000000000000000000000000000000000000000000000000000000000000000000000000000000000000000000000000000000000000000000000, 20269436221796311567051457162510227596117318641448048659047567115431121123942089922278982019133177551792373760000000000000000000000000000000000000000000000000000000000000000000000000000000000000000000000000000000000000000000000000000000000000000000000000000000000000000000000000000000000000000000000000000000000000000000000000000000000000000000000000000000000000000000000000000000000, 251854038912508516671691526441029927669373689370788191727687673289025911449324232093696000000000000000000000000000000000000000000000000000000000000000000000000000000000000000000000000000000000000000000000000000000000000000000000000000000000000000000000000000000000000000000000000000000000000000000000000000000000000000000000000000000000000000000000000000000000000000000000000000000, 1152723757197877815058685690692482834874817698425908276669270419200000000000000000000000000000000000000000000000000000000000000000000000000000000000000000000000000000000000000000000000000000000000000000000000000000000000000000000000000000000000000000000000000000000000000000000000000000000000000000000000000000000000000000000000000000000000000000000000000000000000000000000000000], [19243213616834556508762372975292456112966227907514296350812747713020887158233943966485106725707501263792749513405750571478713801033813661418933549711118466004959984596839820317162157365575582063762218827865261235804285142867809554262810318569488940149302209233263784628868092994544847776740180483233944172478070784000000000000000000000000000000000000000000000000000000000000000000000000000000, 59326237575518675127438206901982066852670716816078024792173160994429526214559173370617741267574916888196577898447103910247788249615614859150233926560579698214691698161669123276391190239964405517812051465555339577123248035283705641920225630569854333731583324530592387904513858003375731810448179200000000000000000000000000000000000000000000000000000000000000000000000000000000000000000000000000, 80152477925137291192781638663591757173060479195583124981748147949509810410713262064368933762061415585250535842213973465680033185580983111825769954443575230649417444066961565502603753991091044992065935415119107727969308487513634512469105649040994455594549869987779281703403520000000000000000000000000000000000000000000000000000000000000000000000000000000000000000000000000000000000000000000000, 62697268276346605203165425012100038894112928910156159372325310917227979268144519973218223217038618293861949732404899503691570235547202518998254432574772420912109288200566138802711895235111424304736890384840655147143279521725028771584602266191893914189824000000000000000000000000000000000000000000000000000000000000000000000000000000000000000000000000000000000000000000000000000000000000000000, 31556009298412150116043881248058408954864620564291531503172029302653795386133383250363380490653083205256069383533527873651427239114910048350135585329644739826707270578630410381353262316588751845097044128742485744016699710044693856256000000000000000000000000000000000000000000000000000000000000000000000000000000000000000000000000000000000000000000000000000000000000000000000000000000000000000, 10729583063883435961981705073747390285139713039157962141910871592934392773871933377704013406573880354879371941259486121076332226251417855435734016430135037965491396475104477985782344296861311789907894219019732910080000000000000000000000000000000000000000000000000000000000000000000000000000000000000000000000000000000000000000000000000000000000000000000000000000000000000000000000000000000000, 2515716673853218899577375519237693133760985483708540953123654944202609727405556141271780898297086410717605090870742243961475992947274079168756895537678906345306790227373666794651682065868652544000000000000000000000000000000000000000000000000000000000000000000000000000000000000000000000000000000000000000000000000000000000000000000000000000000000000000000000000000000000000000000000000000000, 407485824544831971763757495847932624750649129517849544340621854299858964076898371239106746486496073043208024107664565461783240317585549076105144118895349720274188521334374400000000000000000000000000000000000000000000000000000000000000000000000000000000000000000000000000000000000000000000000000000000000000000000000000000000000000000000000000000000000000000000000000000000000000000000000000, 44949828988215052835903123814509699753688766027528061310465146568877927381048540394217713560031016362444591742915234041072291112760808786985354348462080000000000000000000000000000000000000000000000000000000000000000000000000000000000000000000000000000000000000000000000000000000000000000000000000000000000000000000000000000000000000000000000000000000000000000000000000000000000000000000000, 3270307311973098358260928987127353785245601899035110350015093229118846903624919054124013068320680125216381488354792989314840002560000000000000000000000000000000000000000000000000000000000000000000000000000000000000000000000000000000000000000000000000000000000000000000000000000000000000000000000000000000000000000000000000000000000000000000000000000000000000000000000000000000000000000000, 148359184362306120813747112701634132380638670575729924209079452303556342152540227603033561774537204739499622400000000000000000000000000000000000000000000000000000000000000000000000000000000000000000000000000000000000000000000000000000000000000000000000000000000000000000000000000000000000000000000000000000000000000000000000000000000000000000000000000000000000000000000000000000000000000, 3816630267687161025465351789084763450496181147652458039039065968399225499768286949867520000000000000000000000000000000000000000000000000000000000000000000000000000000000000000000000000000000000000000000000000000000000000000000000000000000000000000000000000000000000000000000000000000000000000000000000000000000000000000000000000000000000000000000000000000000000000000000000000000000000, 47101222630696381697002716433561385293326560705541883257736539392000000000000000000000000000000000000000000000000000000000000000000000000000000000000000000000000000000000000000000000000000000000000000000000000000000000000000000000000000000000000000000000000000000000000000000000000000000000000000000000000000000000000000000000000000000000000000000000000000000000000000000000000000000, 214721211763916916865263585843949194577488400000000000000000000000000000000000000000000000000000000000000000000000000000000000000000000000000000000000000000000000000000000000000000000000000000000000000000000000000000000000000000000000000000000000000000000000000000000000000000000000000000000000000000000000000000000000000000000000000000000000000000000000000000000000000000000000000])

theorem ln1RF_lit : ln1RF = ln1RFl := by decide +kernel

def ln1Tv : List (ℤ × ℤ) := [(-2260, 1539), (-2200, 329), (-2130, 329), (-2050, 167), (-1900, 203), (-1600, 155), (-1300, 127), (-1000, 103), (-600, 106), (-200, 103), (200, 96), (600, 103), (1000, 96), (1300, 90), (1600, 115), (1900, 121), (2200, 163), (2400, 191), (2500, 199), (2570, 271), (2640, 350), (2701, 1570)]

theorem ln1Tv_0 : pieceOk ln1RFl 10000 (10 ^ 18) (-2301) (-2260) 1539 = true := by decide +kernel

theorem ln1Tv_1 : pieceOk ln1RFl 10000 (10 ^ 18) (-2260) (-2200) 329 = true := by decide +kernel

theorem ln1Tv_2 : pieceOk ln1RFl 10000 (10 ^ 18) (-2200) (-2130) 329 = true := by decide +kernel

theorem ln1Tv_3 : pieceOk ln1RFl 10000 (10 ^ 18) (-2130) (-2050) 167 = true := by decide +kernel

theorem ln1Tv_4 : pieceOk ln1RFl 10000 (10 ^ 18) (-2050) (-1900) 203 = true := by decide +kernel

theorem ln1Tv_5 : pieceOk ln1RFl 10000 (10 ^ 18) (-1900) (-1600) 155 = true := by decide +kernel

theorem ln1Tv_6 : pieceOk ln1RFl 10000 (10 ^ 18) (-1600) (-1300) 127 = true := by decide +kernel

theorem ln1Tv_7 : pieceOk ln1RFl 10000 (10 ^ 18) (-1300) (-1000) 103 = true := by decide +kernel

theorem ln1Tv_8 : pieceOk ln1RFl 10000 (10 ^ 18) (-1000) (-600) 106 = true := by decide +kernel

theorem ln1Tv_9 : pieceOk ln1RFl 10000 (10 ^ 18) (-600) (-200) 103 = true := by decide +kernel

theorem ln1Tv_10 : pieceOk ln1RFl 10000 (10 ^ 18) (-200) (200) 96 = true := by decide +kernel

theorem ln1Tv_11 : pieceOk ln1RFl 10000 (10 ^ 18) (200) (600) 103 = true := by decide +kernel

theorem ln1Tv_12 : pieceOk ln1RFl 10000 (10 ^ 18) (600) (1000) 96 = true := by decide +kernel

theorem ln1Tv_13 : pieceOk ln1RFl 10000 (10 ^ 18) (1000) (1300) 90 = true := by decide +kernel

theorem ln1Tv_14 : pieceOk ln1RFl 10000 (10 ^ 18) (1300) (1600) 115 = true := by decide +kernel

theorem ln1Tv_15 : pieceOk ln1RFl 10000 (10 ^ 18) (1600) (1900) 121 = true := by decide +kernel

theorem ln1Tv_16 : pieceOk ln1RFl 10000 (10 ^ 18) (1900) (2200) 163 = true := by decide +kernel

theorem ln1Tv_17 : pieceOk ln1RFl 10000 (10 ^ 18) (2200) (2400) 191 = true := by decide +kernel

theorem ln1Tv_18 : pieceOk ln1RFl 10000 (10 ^ 18) (2400) (2500) 199 = true := by decide +kernel

theorem ln1Tv_19 : pieceOk ln1RFl 10000 (10 ^ 18) (2500) (2570) 271 = true := by decide +kernel

theorem ln1Tv_20 : pieceOk ln1RFl 10000 (10 ^ 18) (2570) (2640) 350 = true := by decide +kernel

theorem ln1Tv_21 : pieceOk ln1RFl 10000 (10 ^ 18) (2640) (2701) 1570 = true := by decide +kernel

theorem ln1Tv_chk : tvChk ln1RFl 10000 (10 ^ 18) (-2301) ln1Tv = true :=
  tvChk_cons ln1Tv_0 (tvChk_cons ln1Tv_1 (tvChk_cons ln1Tv_2 (tvChk_cons ln1Tv_3 (tvChk_cons ln1Tv_4 (tvChk_cons ln1Tv_5 (tvChk_cons ln1Tv_6 (tvChk_cons ln1Tv_7 (tvChk_cons ln1Tv_8 (tvChk_cons ln1Tv_9 (tvChk_cons ln1Tv_10 (tvChk_cons ln1Tv_11 (tvChk_cons ln1Tv_12 (tvChk_cons ln1Tv_13 (tvChk_cons ln1Tv_14 (tvChk_cons ln1Tv_15 (tvChk_cons ln1Tv_16 (tvChk_cons ln1Tv_17 (tvChk_cons ln1Tv_18 (tvChk_cons ln1Tv_19 (tvChk_cons ln1Tv_20 (tvChk_cons ln1Tv_21 rfl)))))))))))))))))))))


theorem ln1_var {x : ℝ} (h0 : -2301 / 10000 ≤ x) (h1 : x ≤ 2701 / 10000) : |ln1Err x - ln1Err (-2301 / 10000)| + |ln1Err (2701 / 10000) - ln1Err x| ≤ 810819 / (10 ^ 18 * 10000) := by
  have e64 : tvEnd (-2301) ln1Tv = 2701 := by decide +kernel
  have es : tvSum (-2301) ln1Tv = 810819 := by decide +kernel
  have z : (((-2301 : ℤ) : ℝ) / ((10000 : ℤ) : ℝ)) = -2301 / 10000 := by norm_num
  have o : (((tvEnd (-2301) ln1Tv : ℤ) : ℝ) / ((10000 : ℤ) : ℝ)) = 2701 / 10000 := by rw [e64]; norm_num
  have := tvChk_sound (f := ln1RFl) (d := 10000) (b := 10 ^ 18) (by norm_num) (by norm_num) ln1Tv (-2301) ln1Tv_chk (F := ln1Err)
    (by rw [z, o, ← ln1RF_lit]; exact fun x hx => ln1Err_deriv (by have := hx.1; norm_num at this ⊢; linarith) (by have := hx.2; norm_num at this ⊢; linarith)) (x := x) (by rw [z, o]; exact ⟨h0, h1⟩)
  rw [es, z, o] at this
  refine this.trans (le_of_eq ?_)
  norm_num


def ln1xTv : List (ℤ × ℤ) := [(-2650, 560601), (-2600, 341691), (-2550, 204176), (-2500, 117263), (-2400, 63456), (-2300, 14350)]

theorem ln1xTv_0 : pieceOk ln1RFl 10000 (10 ^ 18) (-2701) (-2650) 560601 = true := by decide +kernel

theorem ln1xTv_1 : pieceOk ln1RFl 10000 (10 ^ 18) (-2650) (-2600) 341691 = true := by decide +kernel

theorem ln1xTv_2 : pieceOk ln1RFl 10000 (10 ^ 18) (-2600) (-2550) 204176 = true := by decide +kernel

theorem ln1xTv_3 : pieceOk ln1RFl 10000 (10 ^ 18) (-2550) (-2500) 117263 = true := by decide +kernel

theorem ln1xTv_4 : pieceOk ln1RFl 10000 (10 ^ 18) (-2500) (-2400) 63456 = true := by decide +kernel

theorem ln1xTv_5 : pieceOk ln1RFl 10000 (10 ^ 18) (-2400) (-2300) 14350 = true := by decide +kernel

theorem ln1xTv_chk : tvChk ln1RFl 10000 (10 ^ 18) (-2701) ln1xTv = true :=
  tvChk_cons ln1xTv_0 (tvChk_cons ln1xTv_1 (tvChk_cons ln1xTv_2 (tvChk_cons ln1xTv_3 (tvChk_cons ln1xTv_4 (tvChk_cons ln1xTv_5 rfl)))))


theorem ln1x_var {x : ℝ} (h0 : -2701 / 10000 ≤ x) (h1 : x ≤ -23 / 100) : |ln1Err x - ln1Err (-2701 / 10000)| + |ln1Err (-23 / 100) - ln1Err x| ≤ 69527751 / (10 ^ 18 * 10000) := by
  have e64 : tvEnd (-2701) ln1xTv = -2300 := by decide +kernel
  have es : tvSum (-2701) ln1xTv = 69527751 := by decide +kernel
  have z : (((-2701 : ℤ) : ℝ) / ((10000 : ℤ) : ℝ)) = -2701 / 10000 := by norm_num
  have o : (((tvEnd (-2701) ln1xTv : ℤ) : ℝ) / ((10000 : ℤ) : ℝ)) = -23 / 100 := by rw [e64]; norm_num
  have := tvChk_sound (f := ln1RFl) (d := 10000) (b := 10 ^ 18) (by norm_num) (by norm_num) ln1xTv (-2701) ln1xTv_chk (F := ln1Err)
    (by rw [z, o, ← ln1RF_lit]; exact fun x hx => ln1Err_deriv (by have := hx.1; norm_num at this ⊢; linarith) (by have := hx.2; norm_num at this ⊢; linarith)) (x := x) (by rw [z, o]; exact ⟨h0, h1⟩)
  rw [es, z, o] at this
  refine this.trans (le_of_eq ?_)
  norm_num

/-- `TC` (ln_gamma.rs:186) -/
noncomputable def lgTC : ℝ := 1.46163214496836224576

theorem ln1Err_eq {y : ℝ} (h0 : -3 / 10 ≤ y) : ln1Err y = lgF1 y - lgCore (lgTC - 1 + y) + log (lgTC + y) + log (10 ^ 20) := by
  have hy : 0 < lgTC + y := by unfold lgTC; norm_num at *; linarith
  rw [ln1Err, ← lgF1_eq, (lgCore_shift 46163214496836224576 (10 ^ 20) (by norm_num) (y := y) (div_nonneg (by norm_num at *; linarith) (by norm_num))).1, add_assoc, ← log_mul hy.ne' (by norm_num)]
  congr 2
  · congr 1
    unfold lgTC
    push_cast
    ring
  · simp only [polyEval]
    unfold lgTC
    push_cast
    ring

theorem ln_join : |lgF1 (17316 / 10000 - lgTC) - lgF0 (671 / 2500)| ≤ 2 / 10 ^ 18 := by
  rw [lgF1_eq, lgF0_eq, abs_le]
  simp only [lgF1l, lgF0l, polyEval, lgTC]
  norm_num

/-- the error at the join of the cases `i = 0` and `i = 1` -/
theorem ln1Err_join : |ln1Err (17316 / 10000 - lgTC) - log (10 ^ 20)| ≤ 145 / 10 ^ 19 := by
  have h0 := ln0Err_bound (y := 671 / 2500) (by norm_num) le_rfl
  have h1 := ln_join
  rw [ln1Err_eq (by unfold lgTC; norm_num), add_sub_cancel_right, show lgTC - 1 + (17316 / 10000 - lgTC) = 1 - 671 / 2500 by ring,
    show lgTC + (17316 / 10000 - lgTC) = 2 - 671 / 2500 by ring]
  have e : lgF1 (17316 / 10000 - lgTC) - lgCore (1 - 671 / 2500) + log (2 - 671 / 2500)
      = (lgF1 (17316 / 10000 - lgTC) - lgF0 (671 / 2500)) + (lgF0 (671 / 2500) - lgCore (1 - 671 / 2500) + log (2 - 671 / 2500)) := by ring
  rw [e]
  have h2 := abs_add_le (lgF1 (17316 / 10000 - lgTC) - lgF0 (671 / 2500)) (lgF0 (671 / 2500) - lgCore (1 - 671 / 2500) + log (2 - 671 / 2500))
  refine h2.trans ((add_le_add h1 h0).trans ?_)
  norm_num

theorem abs_tri_of {a b c e1 e2 e3 e4 : ℝ} (h1 : |b - e1| + |e2 - b| ≤ e3) (h2 : |a - e1| + |e2 - a| ≤ e3) (h3 : |b - c| ≤ e4) : |a - c| ≤ e3 + e4 := by
  have t1 := abs_le.1 h3
  have p1 := abs_le.1 (le_refl |b - e1|)
  have p2 := abs_le.1 (le_refl |e2 - b|)
  have p3 := abs_le.1 (le_refl |a - e1|)
  have p4 := abs_le.1 (le_refl |e2 - a|)
  have key : |a - b| ≤ e3 := by
    rw [abs_le]; constructor <;> linarith
  have k := abs_le.1 key
  rw [abs_le]; constructor <;> linarith

theorem ln1Err_bound {y : ℝ} (h0 : -2301 / 10000 ≤ y) (h1 : y ≤ 2701 / 10000) :
    |lgF1 y - lgCore (lgTC - 1 + y) + log (lgTC + y)| ≤ 100 / 10 ^ 18 := by
  have hj := ln1_var (x := 17316 / 10000 - lgTC) (by unfold lgTC; norm_num) (by unfold lgTC; norm_num)
  have hy := ln1_var h0 h1
  have := abs_tri_of hj hy ln1Err_join
  rw [ln1Err_eq (y := y) (by norm_num at h0 ⊢; linarith), add_sub_cancel_right] at this
  refine this.trans ?_
  norm_num

theorem ln1Err_bound_x {y : ℝ} (h0 : -2701 / 10000 ≤ y) (h1 : y ≤ -23 / 100) :
    |lgF1 y - lgCore (lgTC - 1 + y) + log (lgTC + y)| ≤ 7100 / 10 ^ 18 := by
  have hj := ln1x_var (x := -23 / 100) (by norm_num) (by norm_num)
  have hy := ln1x_var h0 h1
  have hb := ln1Err_bound (y := -23 / 100) (by norm_num) (by norm_num)
  have hb2 : |ln1Err (-23 / 100) - log (10 ^ 20)| ≤ 100 / 10 ^ 18 := by
    rw [ln1Err_eq (by norm_num), add_sub_cancel_right]
    exact hb
  have := abs_tri_of hj hy hb2
  rw [ln1Err_eq (y := y) (by norm_num at h0 ⊢; linarith), add_sub_cancel_right] at this
  refine this.trans ?_
  norm_num

/-- the two cases differ at 1.192 -/
theorem ln12_apart : 49 / 10 ^ 16 ≤ lgF1 (1192 / 1000 - lgTC) - lgF2 (192 / 1000) := by
  rw [lgF1_eq, lgF2_eq (by norm_num) (by norm_num)]
  simp only [lgF1l, lgF2n, lgF2d, polyEval, lgTC]
  norm_num

/-! ### large arguments -/

/-- `w` without `LW[0]` (ln_gamma.rs:353 with LW), as a function of `z = 1/x` -/
noncomputable def lgW8 (z : ℝ) : ℝ :=
  let y := z * z
  z * (8.33333333333329678849e-02 + y * ((-2.77777777728775536470e-03) + y * (7.93650558643019558500e-04 + y * ((-5.95187557450339963135e-04) + y * (8.36339918996282139126e-04 + y * (-1.63092934096575273989e-03))))))

def lgW8l : List ℤ := [0, -3190262862887100, 0, 4277758949915751300, 0, -2051552300656751821500, 0, 441180787060766681164665, 0, -47235845999856888146836154, 0, 2501916882655108025774729310, 0, -55959750000000000000000000000, 0, 257968961250000000000000000000, 0, -1568245250000000000000000000000]

theorem lgW8_eq (x : ℝ) : lgW8 x⁻¹ - invSum (stirCoef.take 9) 0 x = polyEval lgW8l x⁻¹ / 8729721000000000000000000000000 := by
  simp only [lgW8, stirCoef, List.take_succ_cons, List.take_zero, invSum, lgW8l, polyEval]
  push_cast
  ring

theorem lgW8_accurate {x : ℝ} (hx : 8 ≤ x) : |lgW8 x⁻¹ - stirMu x| ≤ 3 / 10 ^ 17 := by
  have h0 : 0 < x := by linarith
  have h1 := stirMu_lt_9 h0
  have h2 := stirMu_gt_10 h0
  have e : invSum (stirCoef.take 9) 0 x - invSum (stirCoef.take 10) 0 x = 174611 / 125400 * x⁻¹ ^ 19 := by
    simp only [stirCoef, List.take_succ_cons, List.take_zero, invSum]
    ring
  have h3 : x⁻¹ ^ 19 ≤ (8 : ℝ)⁻¹ ^ 19 := by gcongr
  have hw0 : 0 ≤ x⁻¹ := by positivity
  have hw1 : x⁻¹ ≤ 1 / 8 := by rw [← one_div]; exact one_div_le_one_div_of_le (by norm_num) hx
  have c1 : chkChain (addL [2 * 8729721000000000000000000000000] (smulL (-10 ^ 17) lgW8l)) 512 0 [32, 64] = true := by decide +kernel
  have c2 : chkChain (addL [2 * 8729721000000000000000000000000] (smulL (10 ^ 17) lgW8l)) 512 0 [32, 64] = true := by decide +kernel
  have q1 := chkChain_sound (by norm_num) 0 [32, 64] (by simp) c1 (x := x⁻¹) (by simpa using hw0) (by norm_num at hw1 ⊢; linarith)
  have q2 := chkChain_sound (by norm_num) 0 [32, 64] (by simp) c2 (x := x⁻¹) (by simpa using hw0) (by norm_num at hw1 ⊢; linarith)
  rw [polyEval_add, polyEval_smul] at q1 q2
  simp only [polyEval] at q1 q2
  have e2 := lgW8_eq x
  generalize polyEval lgW8l x⁻¹ = t at *
  generalize lgW8 x⁻¹ = v at *
  generalize invSum (stirCoef.take 9) 0 x = s9 at *
  generalize invSum (stirCoef.take 10) 0 x = s10 at *
  generalize x⁻¹ ^ 19 = g at *
  push_cast at q1 q2
  have e3 : t = 8729721000000000000000000000000 * (v - s9) := by rw [e2]; ring
  rw [e3] at q1 q2
  rw [abs_le]
  norm_num at *
  constructor <;> linarith

end Russell.Lab
