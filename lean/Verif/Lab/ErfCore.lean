import Verif.Lab.ErfBasic

/-!
# The rational approximations of `erf` for `|x| < 1.25` (background of property C115)
-/

namespace Russell.Lab

open Real Set

theorem two_div_sqrt_pi_near : |2 / √π - 112837916709551257390 / 10 ^ 20| ≤ 1 / 10 ^ 19 := by
  have h1 := pi_gt_d20
  have h2 := pi_lt_d20
  have hp := sqrt_pos.2 pi_pos
  have hs := mul_self_sqrt pi_pos.le
  rw [abs_le]
  constructor
  · have : (112837916709551257390 / 10 ^ 20 - 1 / 10 ^ 19) * √π ≤ 2 := by
      by_contra hc
      nlinarith
    have := (le_div_iff₀ hp).2 this
    linarith
  · have : 2 ≤ (112837916709551257390 / 10 ^ 20 + 1 / 10 ^ 19) * √π := by
      by_contra hc
      nlinarith
    have := (div_le_iff₀ hp).2 this
    linarith

theorem chkChain_cons {l : List ℤ} {d p q : ℤ} {r : List ℤ} (h : chkPiece l d p q = true) (h2 : chkChain l d q r = true) : chkChain l d p (q :: r) = true := by
  rw [chkChain, h, h2]; rfl

/-- `y` for `|x| < 0.84375` (erf.rs:226-229), `z = x²` -/
noncomputable def erY (z : ℝ) : ℝ :=
  let r := 1.28379167095512558561e-01 + z * ((-3.25042107247001499370e-01) + z * ((-2.84817495755985104766e-02) + z * ((-5.77027029648944159157e-03) + z * (-2.37630166566501626084e-05))))
  let s := 1 + z * (3.97917223959155352819e-01 + z * (6.50222499887672944485e-02 + z * (5.08130628187576562776e-03 + z * (1.32494738004321644526e-04 + z * (-3.96022827877536812320e-06)))));
  r / s

/-- `pp / qq` for `0.84375 ≤ |x| < 1.25` (erf.rs:239-241) -/
noncomputable def erA (s : ℝ) : ℝ :=
  let pp := (-2.36211856075265944077e-03) + s * (4.14856118683748331666e-01 + s * ((-3.72207876035701323847e-01) + s * (3.18346619901161753674e-01 + s * ((-1.10894694282396677476e-01) + s * (3.54783043256182359371e-02 + s * (-2.16637559486879084300e-03))))))
  let qq := 1 + s * (1.06420880400844228286e-01 + s * (5.40397917702171048937e-01 + s * (7.18286544141962662868e-02 + s * (1.26171219808761642112e-01 + s * (1.36370839120290507362e-02 + s * 1.19844998467991074170e-02)))));
  pp / qq

def epP : List ℤ := [1283791670955125585610000, -3250421072470014993700000, -284817495755985104766000, -57702702964894415915700, -237630166566501626084]

def epQ : List ℤ := [10000000000000000000000000, 3979172239591553528190000, 650222499887672944485000, 50813062818757656277600, 1324947380043216445260, -39602282787753681232]

def erT1 : List ℤ := [484186730172033208320000, -161395576724011069440000, 48418673017203320832000, -11528255480286504960000, 2241605232277931520000, -366808128918206976000, 51729351514106112000, -6404586377936947200, 706388203448928000, -70225727828256000, 6353756327318400, -527386888828800, 40432994810208, -2879842935200, 191516648400, -11944049040, 701260455, -38893437]

theorem epQ_pos {y : ℝ} (h0 : 0 ≤ y) (h1 : y ≤ 729 / 1024) : 0 < polyEval epQ y := by
  have h : chkChain (addL epQ [-1]) 1024 0 [729] = true := by decide +kernel
  have := chkChain_sound (by norm_num) 0 [729] (by simp) h (x := y) (by push_cast; norm_num; linarith) (by norm_num; linarith)
  rw [polyEval_add] at this
  simp only [polyEval] at this
  push_cast at this
  linarith

theorem erY_eq (z : ℝ) : erY z = polyEval epP z / polyEval epQ z := by
  have e1 : polyEval epP z = 10 ^ 25 * (1.28379167095512558561e-01 + z * ((-3.25042107247001499370e-01) + z * ((-2.84817495755985104766e-02) + z * ((-5.77027029648944159157e-03) + z * (-2.37630166566501626084e-05))))) := by
    simp only [epP, polyEval]
    push_cast
    ring
  have e2 : polyEval epQ z = 10 ^ 25 * (1 + z * (3.97917223959155352819e-01 + z * (6.50222499887672944485e-02 + z * (5.08130628187576562776e-03 + z * (1.32494738004321644526e-04 + z * (-3.96022827877536812320e-06)))))) := by
    simp only [epQ, polyEval]
    push_cast
    ring
  rw [e1, e2, mul_div_mul_left _ _ (by norm_num), erY]

theorem erT1_eq (x : ℝ) : erfSum 18 x = x * (polyEval erT1 (x ^ 2) / 484186730172033208320000) := by
  simp only [erfSum, Finset.sum_range_succ, Finset.sum_range_zero, erT1, polyEval, Nat.factorial]
  push_cast
  ring

def erD1 : List ℤ := addL (smulL (48418673017203320832000000000000000000000000) (addL epP epQ)) (smulL (-112837916709551257390) (mulL erT1 epQ))

def erU1 : List ℤ := [77954063557697346539520000000000000000000000000000, 545655724105886060290468845585363956210761728000000000, -26062884865703700025834591685815015762327947264000000000, 493317714506126237692090742575899304008666376273920000000, -4753848682396571575771418348137974738402997550665728000000, 26486079506384459326131106475012139771967615356969369600000, -91004366673322665266456746323919598001546850032608256000000, 198281066187866299918937767708001550908419570754318991360000, -273935305131665072480051719944375151771676544769193164800000, 233628625909446768989184799618767702632903172866183808000000, -116816377590461479786933410592339951717630208798888148480000, 33187729066136153495361431400959410066608793399748259840000, -6578577382633997985466699062972642715573378791509638656000, 1014814596250912534367710629997725470665635665090445440000, -129489092719423791968553178853093789661532116253880640000, 14190525573645327083310943118337030452733920636778240000, -1369545993519932581193649381336918448646211323028275200, 118493287726013065032462979172650831243039671910311840, -7006756529603421341110105784246796812545097277446000, 1474332234672092473669536134579058491710157759718000, 64785872640015798264111420143978677227200156581800, 8948416034673065290629611491972583367502054540200, -173800732794795805488627919092819761645101697760]

def erV1 : List ℤ := [14931834571775332111380480000000000000000000000000000, -539683070679900662414134655429928578296885248000000000, 26063860835932625208373130977605972471308304384000000000, -493317638236792955346892664521633848610785072414720000000, 4753848684385289588510112599803671160306814266011648000000, -26486079506443901515543193479862608427287133100745113600000, 91004366673322665266456746323919598001546850032608256000000, -198281066187866299918937767708001550908419570754318991360000, 273935305131665072480051719944375151771676544769193164800000, -233628625909446768989184799618767702632903172866183808000000, 116816377590461479786933410592339951717630208798888148480000, -33187729066136153495361431400959410066608793399748259840000, 6578577382633997985466699062972642715573378791509638656000, -1014814596250912534367710629997725470665635665090445440000, 129489092719423791968553178853093789661532116253880640000, -14190525573645327083310943118337030452733920636778240000, 1369545993519932581193649381336918448646211323028275200, -118493287726013065032462979172650831243039671910311840, 7006756529603421341110105784246796812545097277446000, -1474332234672092473669536134579058491710157759718000, -64785872640015798264111420143978677227200156581800, -8948416034673065290629611491972583367502054540200, 173800732794795805488627919092819761645101697760]

theorem erU1_lit : addL (smulL (750489431766651472896000000) epQ) erD1 = erU1 := by decide +kernel

theorem erV1_lit : addL (smulL (750489431766651472896000000) epQ) (smulL (-1) erD1) = erV1 := by decide +kernel

theorem erU1_0 : chkPiece erU1 1024 0 91 = true := by decide +kernel

theorem erU1_1 : chkPiece erU1 1024 91 182 = true := by decide +kernel

theorem erU1_2 : chkPiece erU1 1024 182 364 = true := by decide +kernel

theorem erU1_3 : chkPiece erU1 1024 364 729 = true := by decide +kernel

theorem erU1_chk : chkChain erU1 1024 0 [91, 182, 364, 729] = true := chkChain_cons erU1_0 (chkChain_cons erU1_1 (chkChain_cons erU1_2 (chkChain_cons erU1_3 rfl)))

theorem erV1_0 : chkPiece erV1 1024 0 364 = true := by decide +kernel

theorem erV1_1 : chkPiece erV1 1024 364 729 = true := by decide +kernel

theorem erV1_chk : chkChain erV1 1024 0 [364, 729] = true := chkChain_cons erV1_0 (chkChain_cons erV1_1 rfl)


theorem erY_near {z : ℝ} (h0 : 0 ≤ z) (h1 : z ≤ 729 / 1024) :
    |1 + erY z - 112837916709551257390 / 10 ^ 20 * (polyEval erT1 z / 484186730172033208320000)| ≤ 155 / 10 ^ 19 := by
  have hq := epQ_pos h0 h1
  have c1 := chkChain_sound (by norm_num) 0 [91, 182, 364, 729] (by simp) (erU1_lit ▸ erU1_chk) (x := z) (by norm_num; linarith) (by norm_num; linarith)
  have c2 := chkChain_sound (by norm_num) 0 [364, 729] (by simp) (erV1_lit ▸ erV1_chk) (x := z) (by norm_num; linarith) (by norm_num; linarith)
  simp only [erD1, polyEval_add, polyEval_smul, polyEval_mul] at c1 c2
  rw [erY_eq]
  generalize polyEval epQ z = Q at *
  generalize polyEval epP z = P at *
  generalize polyEval erT1 z = T at *
  have e : 1 + P / Q - 112837916709551257390 / 10 ^ 20 * (T / 484186730172033208320000) = (48418673017203320832000000000000000000000000 * (P + Q) - 112837916709551257390 * (T * Q)) / (48418673017203320832000000000000000000000000 * Q) := by
    field_simp
    ring
  rw [e, abs_div, abs_of_pos (show (0 : ℝ) < 48418673017203320832000000000000000000000000 * Q by positivity), div_le_iff₀ (by positivity), abs_le]
  push_cast at c1 c2
  constructor <;> linarith

def eqP : List ℤ := [-125631210738424777288387, 274828028278552687502950, -237989457861278087174100, 116003595218430663980900, -32078184983351971980650, 4847655789483098099510, -216637559486879084300]

def eqQ : List ℤ := [148666701863066225315700, -126729545051660502999660, 112533593189384820664160, -53617538263654194313920, 23775329795060299968600, -5826991516876559376580, 1198449984679910741700]

/-- odd coefficients only -/
def erT2 : List ℤ := [0, 886878287451521301790767513600000, 0, -295626095817173767263589171200000, 0, 88687828745152130179076751360000, 0, -21116149701226697661684940800000, 0, 4105917997460746767549849600000, 0, -671877490493576743780884480000, 0, 94751953787555694635765760000, 0, -11731194278459276478713856000, 0, 1293881721888890788093440000, 0, -128631516211176277178880000, 0, 11638089561963567935232000, 0, -966007433996975994624000, 0, 74060569939768159587840, 0, -5274969368929356096000, 0, 350798455569193632000, 0, -21877753143024979200, 0, 1284489294382148400, 0, -71240582713631760, 0, 3743874466932600, 0, -186941100238200, 0, 8891101108890, 0, -403693405830, 0, 17534158031]

theorem eqQ_pos {y : ℝ} (h0 : 27 / 32 ≤ y) (h1 : y ≤ 5 / 4) : 0 < polyEval eqQ y := by
  have h : chkChain (addL eqQ [-1]) 32 27 [40] = true := by decide +kernel
  have := chkChain_sound (by norm_num) 27 [40] (by simp) h (x := y) (by push_cast; norm_num; linarith) (by norm_num; linarith)
  rw [polyEval_add] at this
  simp only [polyEval] at this
  push_cast at this
  linarith

theorem erA_eq (x : ℝ) : erA (x - 1) = polyEval eqP x / polyEval eqQ x := by
  have e1 : polyEval eqP x = 10 ^ 23 * ((-2.36211856075265944077e-03) + (x - 1) * (4.14856118683748331666e-01 + (x - 1) * ((-3.72207876035701323847e-01) + (x - 1) * (3.18346619901161753674e-01 + (x - 1) * ((-1.10894694282396677476e-01) + (x - 1) * (3.54783043256182359371e-02 + (x - 1) * (-2.16637559486879084300e-03))))))) := by
    simp only [eqP, polyEval]
    push_cast
    ring
  have e2 : polyEval eqQ x = 10 ^ 23 * (1 + (x - 1) * (1.06420880400844228286e-01 + (x - 1) * (5.40397917702171048937e-01 + (x - 1) * (7.18286544141962662868e-02 + (x - 1) * (1.26171219808761642112e-01 + (x - 1) * (1.36370839120290507362e-02 + (x - 1) * 1.19844998467991074170e-02)))))) := by
    simp only [eqQ, polyEval]
    push_cast
    ring
  rw [e1, e2, mul_div_mul_left _ _ (by norm_num), erA]

theorem erT2_eq (x : ℝ) : erfSum 23 x = polyEval erT2 x / 886878287451521301790767513600000 := by
  simp only [erfSum, Finset.sum_range_succ, Finset.sum_range_zero, erT2, polyEval, Nat.factorial]
  push_cast
  ring

def erD2 : List ℤ := addL (smulL (88687828745152130179076751360000000000000000000000000) (addL (smulL (100000000000000000000000) eqP) (smulL (84506291151046752929700) eqQ))) (smulL (-11283791670955125739000000000000000000000000) (mulL erT2 eqQ))

def erU2 : List ℤ := [13349137990627989407421106655135196919626322755274039475802179174400000000000000000000000000000, -166903933318275062704877144343330017816534772413018409650376467742720000000000000000000000000000, 953274730773019970462928171517653714156343318979527886112101172510720000000000000000000000000000, -3278701998918762900476752868983604401441712202708686124249879788912640000000000000000000000000000, 7521184079873527769515971897398296092921325065506025139935600014131200000000000000000000000000000, -11994960813276434469749676968800763681326600071815195699363359957647360000000000000000000000000000, 13339631232134442849700029682023005771905627203263079121278706330828800000000000000000000000000000, -9877414345216891438382310128389624392803910471869627676364645082726400000000000000000000000000000, 4023487028541966074004066151239567565951096991319653846611737251020800000000000000000000000000000, 130594386698874651625081958257562443691307445798911528731908681728000000000000000000000000000000, -1072768342624821287100332338377825259989649368559226421150481964236800000000000000000000000000000, 378995493766336939938700703881037708531282178474357222513876529152000000000000000000000000000000, 134941301307479717375392400728883171521967422253770811438911470796800000000000000000000000000000, -121758628423807990783940760487255164505271460838192725236346447052800000000000000000000000000000, -1031290248072303185934979400182957505882418148817490516075030528000000000000000000000000000000, 24086739375280898874844186938078828103186687345568454234883821158400000000000000000000000000000, -3626010836713606878210706112636940803606641149243637590422531850240000000000000000000000000000, -3608004409363231849349963937937976508794364105081259666044697282560000000000000000000000000000, 982751847051575102747724700103502129674920896000843556483136747520000000000000000000000000000, 438664162904789624491153007544150227413419258505363324911832012800000000000000000000000000000, -172464071009034968497163243407228126822801510932335113997293086720000000000000000000000000000, -44661752100479543647791344032128158529420598114958818411758105600000000000000000000000000000, 23892552906807370902640590263956393229891164311266862579386926080000000000000000000000000000, 3853880798413072465401286553596738305736260967153481021877611520000000000000000000000000000, -2797824314143498846876782355277966070324980571551317636776883200000000000000000000000000000, -280323597147649173990345394307608986565948892507157991791267072000000000000000000000000000, 286673426410038407003551570667284587138913922303481791805094041600000000000000000000000000, 16580260403398065034132181878057059286094701283982237123865958400000000000000000000000000, -26251359353179500082618826634527128795358151097349191322066380800000000000000000000000000, -695574364103594983742395134459846389115051459485464260583296000000000000000000000000000, 2179757395390773102070591104051736371927311645880010600356940800000000000000000000000000, 4876067251905075407414913793996435101368494013444682665088000000000000000000000000000, -165880875773219394810050654607554959440688895172993903389568000000000000000000000000000, 2848698956159213177486753639344460639987980704586396474488000000000000000000000000000, 11665760457895913253335801685255509948515949294025843915960000000000000000000000000000, -386139258566307128943221209952667953689299693205990298088000000000000000000000000000, -763220037394997488091643509784355477484958792165135804494400000000000000000000000000, 35437939439801412440812774025947126573895743796981342882400000000000000000000000000, 46708387449642207448186811231266892475384505674496048423200000000000000000000000000, -2698491197856620296130698448168265387871961616677689380000000000000000000000000000, -2686353713611393892873498775615441972953725012113971191200000000000000000000000000, 181463321458978899676692504840689343852032610488453169000000000000000000000000000, 145774947606490004039068696435776965637996796464927894600000000000000000000000000, -11089617646259874798058450028122121078638650368302284600000000000000000000000000, -7489561803301445398804421921120252414423750757916875000000000000000000000000000, 625946019904394535159152123483905181689337810306301900000000000000000000000000, 365430332156815165660083710016584773445771354925512340000000000000000000000000, -34198666817395061813640418131739742536220442406886440000000000000000000000000, -15934741108445289208124038971098990044074242234341320000000000000000000000000, 755178659601467512247742739103580779031782934171600000000000000000000000000, 1152880680645224121739731915002446116684316219531220000000000000000000000000, -237115470316944962616622447375529206309029344505300000000000000000000000000]

def erV2 : List ℤ := [-13349137990619814752684244967090707790299910406557814001031480934400000000000000000000000000000, 166903933318268094296600278864211113410421639711011916008626054430720000000000000000000000000000, -953274730773013782639702840314622471397746971769506901050463552798720000000000000000000000000000, 3278701998918759952238461085548697276253425762728429663763751091568640000000000000000000000000000, -7521184079873526462194898018629415132349970772499573895856835490611200000000000000000000000000000, 11994960813276434149344077004915191015433469666768166430265534325391360000000000000000000000000000, -13339631232134442783801514941451292666118789958098975352668174429388800000000000000000000000000000, 9877414345216891438382310128389624392803910471869627676364645082726400000000000000000000000000000, -4023487028541966074004066151239567565951096991319653846611737251020800000000000000000000000000000, -130594386698874651625081958257562443691307445798911528731908681728000000000000000000000000000000, 1072768342624821287100332338377825259989649368559226421150481964236800000000000000000000000000000, -378995493766336939938700703881037708531282178474357222513876529152000000000000000000000000000000, -134941301307479717375392400728883171521967422253770811438911470796800000000000000000000000000000, 121758628423807990783940760487255164505271460838192725236346447052800000000000000000000000000000, 1031290248072303185934979400182957505882418148817490516075030528000000000000000000000000000000, -24086739375280898874844186938078828103186687345568454234883821158400000000000000000000000000000, 3626010836713606878210706112636940803606641149243637590422531850240000000000000000000000000000, 3608004409363231849349963937937976508794364105081259666044697282560000000000000000000000000000, -982751847051575102747724700103502129674920896000843556483136747520000000000000000000000000000, -438664162904789624491153007544150227413419258505363324911832012800000000000000000000000000000, 172464071009034968497163243407228126822801510932335113997293086720000000000000000000000000000, 44661752100479543647791344032128158529420598114958818411758105600000000000000000000000000000, -23892552906807370902640590263956393229891164311266862579386926080000000000000000000000000000, -3853880798413072465401286553596738305736260967153481021877611520000000000000000000000000000, 2797824314143498846876782355277966070324980571551317636776883200000000000000000000000000000, 280323597147649173990345394307608986565948892507157991791267072000000000000000000000000000, -286673426410038407003551570667284587138913922303481791805094041600000000000000000000000000, -16580260403398065034132181878057059286094701283982237123865958400000000000000000000000000, 26251359353179500082618826634527128795358151097349191322066380800000000000000000000000000, 695574364103594983742395134459846389115051459485464260583296000000000000000000000000000, -2179757395390773102070591104051736371927311645880010600356940800000000000000000000000000, -4876067251905075407414913793996435101368494013444682665088000000000000000000000000000, 165880875773219394810050654607554959440688895172993903389568000000000000000000000000000, -2848698956159213177486753639344460639987980704586396474488000000000000000000000000000, -11665760457895913253335801685255509948515949294025843915960000000000000000000000000000, 386139258566307128943221209952667953689299693205990298088000000000000000000000000000, 763220037394997488091643509784355477484958792165135804494400000000000000000000000000, -35437939439801412440812774025947126573895743796981342882400000000000000000000000000, -46708387449642207448186811231266892475384505674496048423200000000000000000000000000, 2698491197856620296130698448168265387871961616677689380000000000000000000000000000, 2686353713611393892873498775615441972953725012113971191200000000000000000000000000, -181463321458978899676692504840689343852032610488453169000000000000000000000000000, -145774947606490004039068696435776965637996796464927894600000000000000000000000000, 11089617646259874798058450028122121078638650368302284600000000000000000000000000, 7489561803301445398804421921120252414423750757916875000000000000000000000000000, -625946019904394535159152123483905181689337810306301900000000000000000000000000, -365430332156815165660083710016584773445771354925512340000000000000000000000000, 34198666817395061813640418131739742536220442406886440000000000000000000000000, 15934741108445289208124038971098990044074242234341320000000000000000000000000, -755178659601467512247742739103580779031782934171600000000000000000000000000, -1152880680645224121739731915002446116684316219531220000000000000000000000000, 237115470316944962616622447375529206309029344505300000000000000000000000000]

theorem erU2_lit : addL (smulL (27493226910997160355513792921600000000000000000000000000000) eqQ) erD2 = erU2 := by decide +kernel

theorem erV2_lit : addL (smulL (27493226910997160355513792921600000000000000000000000000000) eqQ) (smulL (-1) erD2) = erV2 := by decide +kernel

theorem erU2_0 : chkPiece erU2 256 216 242 = true := by decide +kernel

theorem erU2_1 : chkPiece erU2 256 242 268 = true := by decide +kernel

theorem erU2_2 : chkPiece erU2 256 268 294 = true := by decide +kernel

theorem erU2_3 : chkPiece erU2 256 294 307 = true := by decide +kernel

theorem erU2_4 : chkPiece erU2 256 307 313 = true := by decide +kernel

theorem erU2_5 : chkPiece erU2 256 313 320 = true := by decide +kernel

theorem erU2_chk : chkChain erU2 256 216 [242, 268, 294, 307, 313, 320] = true := chkChain_cons erU2_0 (chkChain_cons erU2_1 (chkChain_cons erU2_2 (chkChain_cons erU2_3 (chkChain_cons erU2_4 (chkChain_cons erU2_5 rfl)))))

theorem erV2_0 : chkPiece erV2 256 216 242 = true := by decide +kernel

theorem erV2_1 : chkPiece erV2 256 242 268 = true := by decide +kernel

theorem erV2_2 : chkPiece erV2 256 268 320 = true := by decide +kernel

theorem erV2_chk : chkChain erV2 256 216 [242, 268, 320] = true := chkChain_cons erV2_0 (chkChain_cons erV2_1 (chkChain_cons erV2_2 rfl))


theorem erA_near {x : ℝ} (h0 : 27 / 32 ≤ x) (h1 : x ≤ 5 / 4) :
    |8.45062911510467529297e-1 + erA (x - 1) - 112837916709551257390 / 10 ^ 20 * erfSum 23 x| ≤ 31 / 10 ^ 19 := by
  have hq := eqQ_pos h0 h1
  have c1 := chkChain_sound (by norm_num) 216 [242, 268, 294, 307, 313, 320] (by simp) (erU2_lit ▸ erU2_chk) (x := x) (by norm_num; linarith) (by norm_num; linarith)
  have c2 := chkChain_sound (by norm_num) 216 [242, 268, 320] (by simp) (erV2_lit ▸ erV2_chk) (x := x) (by norm_num; linarith) (by norm_num; linarith)
  simp only [erD2, polyEval_add, polyEval_smul, polyEval_mul] at c1 c2
  rw [erA_eq, erT2_eq]
  generalize polyEval eqQ x = Q at *
  generalize polyEval eqP x = P at *
  generalize polyEval erT2 x = T at *
  have e : 8.45062911510467529297e-1 + P / Q - 112837916709551257390 / 10 ^ 20 * (T / 886878287451521301790767513600000) =
      (88687828745152130179076751360000000000000000000000000 * (100000000000000000000000 * P + 84506291151046752929700 * Q) - 11283791670955125739000000000000000000000000 * (T * Q)) / (8868782874515213017907675136000000000000000000000000000000000000000000000000 * Q) := by
    field_simp
    ring
  rw [e, abs_div, abs_of_pos (show (0 : ℝ) < 8868782874515213017907675136000000000000000000000000000000000000000000000000 * Q by positivity), div_le_iff₀ (by positivity), abs_le]
  push_cast at c1 c2
  constructor <;> linarith

end Russell.Lab
