import Verif.Lab.ErfBasic

/-!
# The approximations of `erf_inv` (background of property C116)

In each of the three ranges the error function of the approximation has, up to a factor `exp H`, the right derivative. The derivative of `H` is a
rational function; the total variation of `H` is bounded by kernel evaluation.
-/

namespace Russell.Lab

open Real Set Filter Topology

/-- `10⁵ (N D - (0.36125 - 2 r) (N' D - N D'))` -/
def ivP (n d : List ℤ) : List ℤ := addL (smulL 100000 (mulL n d)) (smulL (-1) (mulL [36125, -200000] (quotD 1 n d)))

/-- the logarithm of the derivative in the central range, up to a constant -/
noncomputable def ivH (n d : List ℤ) (r : ℝ) : ℝ :=
  log (polyEval (ivP n d) r) - 2 * log (polyEval d r) - polyEval (mulL [7225, -40000] (mulL n n)) r / polyEval d r ^ 2 / 10000

/-- the derivative of `ivH` -/
def ivRF (n d : List ℤ) : RF :=
  rfSub (addL (smulL (-20000) (mulL (derivL d) (mulL d d))) (smulL (-1) (quotD 2 (mulL [7225, -40000] (mulL n n)) d)), smulL 10000 (powL d 3))
    (smulL (-1) (derivL (ivP n d)), ivP n d)

theorem ivH_deriv {n d : List ℤ} {r : ℝ} (hd : 0 < polyEval d r) (hp : 0 < polyEval (ivP n d) r) :
    0 < polyEval (ivRF n d).2 r ∧ HasDerivAt (ivH n d) (rfEval (ivRF n d) r) r := by
  have e1 := rfSub_eval (f := (addL (smulL (-20000) (mulL (derivL d) (mulL d d))) (smulL (-1) (quotD 2 (mulL [7225, -40000] (mulL n n)) d)),
    smulL 10000 (powL d 3))) (g := (smulL (-1) (derivL (ivP n d)), ivP n d)) (x := r)
    (by simp only [polyEval_pow, polyEval_smul]; positivity) hp
  refine ⟨e1.2, ?_⟩
  have q := quotD_deriv 1 (mulL [7225, -40000] (mulL n n)) d hd
  have h := ((((polyEval_deriv (ivP n d) r).log hp.ne').sub (((polyEval_deriv d r).log hd.ne').const_mul 2))).sub (q.div_const 10000)
  refine h.congr_deriv ?_
  rw [ivRF, e1.1]
  simp only [rfEval, polyEval_pow, polyEval_smul, polyEval_add, polyEval_mul]
  norm_num
  generalize polyEval (quotD 2 _ d) r = z
  have := hd.ne'
  field_simp
  ring

/-- the logarithm of the quotient of the derivatives in the tails, up to a constant; `w` is ten times the root `r` -/
noncomputable def itH (n d w : List ℤ) (s : ℝ) : ℝ :=
  polyEval w s ^ 2 / 100 - polyEval (mulL n n) s / polyEval d s ^ 2 + log (polyEval (quotD 1 n d) s) - 2 * log (polyEval d s) - log (polyEval w s)

/-- the derivative of `itH` if the leading coefficient of `w` is ten -/
def itRF (n d w : List ℤ) : RF :=
  rfSub (addL (mulL w (powL d 3)) (smulL (-5) (addL (quotD 2 (mulL n n) d) (smulL 2 (mulL (derivL d) (mulL d d))))), smulL 5 (powL d 3))
    (addL (smulL 10 (quotD 1 n d)) (smulL (-1) (mulL (derivL (quotD 1 n d)) w)), mulL (quotD 1 n d) w)

theorem itH_deriv {n d : List ℤ} {t : ℤ} {s : ℝ} (hd : 0 < polyEval d s) (hq : 0 < polyEval (quotD 1 n d) s) (hw : 0 < polyEval [t, 10] s) :
    0 < polyEval (itRF n d [t, 10]).2 s ∧ HasDerivAt (itH n d [t, 10]) (rfEval (itRF n d [t, 10]) s) s := by
  have e1 := rfSub_eval (f := (addL (mulL [t, 10] (powL d 3)) (smulL (-5) (addL (quotD 2 (mulL n n) d) (smulL 2 (mulL (derivL d) (mulL d d))))),
    smulL 5 (powL d 3))) (g := (addL (smulL 10 (quotD 1 n d)) (smulL (-1) (mulL (derivL (quotD 1 n d)) [t, 10])), mulL (quotD 1 n d) [t, 10])) (x := s)
    (by simp only [polyEval_pow, polyEval_smul]; positivity) (by rw [polyEval_mul]; positivity)
  refine ⟨e1.2, ?_⟩
  have q := quotD_deriv 1 (mulL n n) d hd
  have dw : HasDerivAt (fun s => polyEval [t, 10] s) 10 s := by
    refine (polyEval_deriv [t, 10] s).congr_deriv ?_
    norm_num [derivL, derivAux, polyEval]
  have h := (((((dw.pow 2).div_const 100).sub q).add ((polyEval_deriv (quotD 1 n d) s).log hq.ne')).sub
    (((polyEval_deriv d s).log hd.ne').const_mul 2)).sub (dw.log hw.ne')
  refine h.congr_deriv ?_
  rw [itRF, e1.1]
  simp only [rfEval, polyEval_pow, polyEval_smul, polyEval_add, polyEval_mul]
  norm_num
  generalize polyEval (quotD 2 _ d) s = z
  generalize polyEval (derivL (quotD 1 n d)) s = z1
  generalize polyEval (quotD 1 n d) s = z2 at *
  generalize polyEval [t, 10] s = z3 at *
  have := hd.ne'
  have := hq.ne'
  have := hw.ne'
  field_simp
  ring

/-- numerator and denominator for `|x| ≤ 0.85` (erf_inv.rs:17-32), scaled by `10 ^ 22` -/
def iAl : List ℤ := [11975323115670912564578, 470726881123839780122850, 6970626653438959823846500, 48548868893843886794648000, 162358625151675753842520000, 237820413821143857312520000, 118194933470622944042780000, 8870940696254551483020000]

def iBl : List ℤ := [10000000000000000000000, 423133307016009112520000, 6871870074920579083000000, 53941960214247511077000000, 212137943015865958670000000, 393078958000927106100000000, 287290857357219426740000000, 52264952788528545610000000]

/-- the same for `r ≤ 5` (erf_inv.rs:35-50), scaled by `10 ^ 34` -/
def iCl : List ℤ := [14234371107496835773400000000000000, 46303378461565452959000000000000000, 57694972214606914055000000000000000, 36478483247632046050400000000000000, 12704582524523683825800000000000000, 2417807251774506117700000000000000, 227238449892691845833000000000000, 7745450142783414076400000000000]

def iDl : List ℤ := [14142135623730950488016887000000000, 29036514445419946173133295000000000, 23707661626024532365971225000000000, 9754783200178742718689483700000000, 2094506521051274912828844200000000, 214941603842528767770972970000000, 7744145906515770916557721800000, 14859850019840355905497876]

/-- the same for `5 < r` (erf_inv.rs:53-68), scaled by `10 ^ 39` -/
def iEl : List ℤ := [6657904643501103777200000000000000000000, 5463784911164114369900000000000000000000, 1784826539917291335800000000000000000000, 296560571828504891230000000000000000000, 26532189526576123093000000000000000000, 1242660947388078438600000000000000000, 27115555687434875781500000000000000, 201033439929228813265000000000000]

def iFl : List ℤ := [1414213562373095048801689000000000000000, 848290841659516458811202600000000000000, 193648094695065910617671200000000000000, 21036937682720689687196790000000000000, 1112800997078859844711555000000000000, 26110884050805936251380200000000000, 201032120768394306227993100000000, 2891024605872965461538222]

def iPl : List ℤ := [24976322679435956262421342905150721230435730000000, 1814846543187003051437575386687566335130965500000000, 57781085077168819769211244156349196206533204000000000, 1061073316141379477053808602226024998282974472500000000, 12455672157176502807066507700352170536086026650000000000, 97939523022915530529983891773717344884020955760000000000, 525947532378498124988789951996703886078367273292500000000, 1932539352407506954253049999655987289852595584175000000000, 4798791152271473806981962798503961479071924725625000000000, 7837535256465804457412137059406887488368094380000000000000, 8051784689726540501565138163459922794024411225000000000000, 4826200106229718405191663661768539119831898200000000000000, 1541315092337432668522968007566938650796391125000000000000, 146816785689067683904846990875093671066860000000000000000, 46363929667958067845173137028862921054220000000000000000]

def iQ2l : List ℤ := [241512135756101016321242255640979933873503280000000000000000000000000, 956932936381129502225727971157295310765252740000000000000000000000000, 1708607425303460054710722550138990617403807183660000000000000000000000, 1814480958864881398444341452202938130271206320680000000000000000000000, 1273426786912862167407133160791956016053582180610000000000000000000000, 620336010745421045072892267059857772843277982065280000000000000000000, 214249467191488000764589979873289557021757835299978911200000000000000, 52600260835462503137747355942825044411266046021509496000000000000000, 9053999330643980747322511343781953537456411408904100000000000000000, 1057351128228511858819001362012013848396873045484198400000000000000, 78787265876091137201340546969353152067718096427997600000000000000, 3329567095838144432947755550702009127435777103989600000000000000, 59978519288074023075104783724735247806195844569292000000000000, 0]

def iQ3l : List ℤ := [2079119189533412646530596967372044295756300380000000000000000000000000000000000, 2469670700718113846429501520358368537437019120000000000000000000000000000000000, 1294014642878588733376970898550886640674773046000000000000000000000000000000000, 393709666151735021471557730165037925281955278000000000000000000000000000000000, 77079550209665993690227182742143513368141355700000000000000000000000000000000, 10171449383491914740315967992527376635877059217080000000000000000000000000000, 921757231395097119586479222276878216089505620580395031200000000000000000000, 57388126196563480983425925129143189705458930284222093200000000000000000000, 2417134267817354944147822772425781167124873450315262000000000000000000000, 66597298514617599740301089649060454678237359409627760000000000000000000, 1129326771960974414020318523044051072178348875918062000000000000000000, 10498314495526756459429618154910424965205610039661600000000000000000, 40414100382599774605934967075041262058151987129507000000000000000, 0]

theorem iPl_lit : ivP iAl iBl = iPl := by decide +kernel

theorem iQ2l_lit : quotD 1 iCl iDl = iQ2l := by decide +kernel

theorem iQ3l_lit : quotD 1 iEl iFl = iQ3l := by decide +kernel

theorem iAl_pos {y : ℝ} (h0 : 0 ≤ y) (h1 : y ≤ 289 / 1600) : 0 < polyEval iAl y := by
  have h : chkChain (addL iAl [-1]) 1000000 0 [180625] = true := by decide +kernel
  have := chkChain_sound (by norm_num) 0 [180625] (by simp) h (x := y) (by push_cast; norm_num; linarith) (by norm_num; linarith)
  rw [polyEval_add] at this
  simp only [polyEval] at this
  push_cast at this
  linarith

theorem iBl_pos {y : ℝ} (h0 : 0 ≤ y) (h1 : y ≤ 289 / 1600) : 0 < polyEval iBl y := by
  have h : chkChain (addL iBl [-1]) 1000000 0 [180625] = true := by decide +kernel
  have := chkChain_sound (by norm_num) 0 [180625] (by simp) h (x := y) (by push_cast; norm_num; linarith) (by norm_num; linarith)
  rw [polyEval_add] at this
  simp only [polyEval] at this
  push_cast at this
  linarith

theorem iPl_pos {y : ℝ} (h0 : 0 ≤ y) (h1 : y ≤ 289 / 1600) : 0 < polyEval iPl y := by
  have h : chkChain (addL iPl [-1]) 1000000 0 [180625] = true := by decide +kernel
  have := chkChain_sound (by norm_num) 0 [180625] (by simp) h (x := y) (by push_cast; norm_num; linarith) (by norm_num; linarith)
  rw [polyEval_add] at this
  simp only [polyEval] at this
  push_cast at this
  linarith

theorem iCl_pos {y : ℝ} (h0 : 0 ≤ y) (h1 : y ≤ 17 / 5) : 0 < polyEval iCl y := by
  have h : chkChain (addL iCl [-1]) 10000 0 [34000] = true := by decide +kernel
  have := chkChain_sound (by norm_num) 0 [34000] (by simp) h (x := y) (by push_cast; norm_num; linarith) (by norm_num; linarith)
  rw [polyEval_add] at this
  simp only [polyEval] at this
  push_cast at this
  linarith

theorem iDl_pos {y : ℝ} (h0 : 0 ≤ y) (h1 : y ≤ 17 / 5) : 0 < polyEval iDl y := by
  have h : chkChain (addL iDl [-1]) 10000 0 [34000] = true := by decide +kernel
  have := chkChain_sound (by norm_num) 0 [34000] (by simp) h (x := y) (by push_cast; norm_num; linarith) (by norm_num; linarith)
  rw [polyEval_add] at this
  simp only [polyEval] at this
  push_cast at this
  linarith

theorem iQ2l_pos {y : ℝ} (h0 : 0 ≤ y) (h1 : y ≤ 17 / 5) : 0 < polyEval iQ2l y := by
  have h : chkChain (addL iQ2l [-1]) 10000 0 [34000] = true := by decide +kernel
  have := chkChain_sound (by norm_num) 0 [34000] (by simp) h (x := y) (by push_cast; norm_num; linarith) (by norm_num; linarith)
  rw [polyEval_add] at this
  simp only [polyEval] at this
  push_cast at this
  linarith

theorem iEl_pos {y : ℝ} (h0 : 0 ≤ y) (h1 : y ≤ 28 / 25) : 0 < polyEval iEl y := by
  have h : chkChain (addL iEl [-1]) 10000 0 [11200] = true := by decide +kernel
  have := chkChain_sound (by norm_num) 0 [11200] (by simp) h (x := y) (by push_cast; norm_num; linarith) (by norm_num; linarith)
  rw [polyEval_add] at this
  simp only [polyEval] at this
  push_cast at this
  linarith

theorem iFl_pos {y : ℝ} (h0 : 0 ≤ y) (h1 : y ≤ 28 / 25) : 0 < polyEval iFl y := by
  have h : chkChain (addL iFl [-1]) 10000 0 [11200] = true := by decide +kernel
  have := chkChain_sound (by norm_num) 0 [11200] (by simp) h (x := y) (by push_cast; norm_num; linarith) (by norm_num; linarith)
  rw [polyEval_add] at this
  simp only [polyEval] at this
  push_cast at this
  linarith

theorem iQ3l_pos {y : ℝ} (h0 : 0 ≤ y) (h1 : y ≤ 28 / 25) : 0 < polyEval iQ3l y := by
  have h : chkChain (addL iQ3l [-1]) 10000 0 [11200] = true := by decide +kernel
  have := chkChain_sound (by norm_num) 0 [11200] (by simp) h (x := y) (by push_cast; norm_num; linarith) (by norm_num; linarith)
  rw [polyEval_add] at this
  simp only [polyEval] at this
  push_cast at this
  linarith

theorem iv1_deriv {y : ℝ} (h0 : 0 ≤ y) (h1 : y ≤ 289 / 1600) : 0 < polyEval (ivRF iAl iBl).2 y ∧ HasDerivAt (ivH iAl iBl) (rfEval (ivRF iAl iBl) y) y :=
  ivH_deriv (iBl_pos h0 h1) (by rw [iPl_lit]; exact iPl_pos h0 h1)

theorem it2_deriv {y : ℝ} (h0 : 0 ≤ y) (h1 : y ≤ 17 / 5) :
    0 < polyEval (itRF iCl iDl [16, 10]).2 y ∧ HasDerivAt (itH iCl iDl [16, 10]) (rfEval (itRF iCl iDl [16, 10]) y) y :=
  itH_deriv (iDl_pos h0 h1) (by rw [iQ2l_lit]; exact iQ2l_pos h0 h1) (by simp only [polyEval]; push_cast; linarith)

theorem it3_deriv {y : ℝ} (h0 : 0 ≤ y) (h1 : y ≤ 28 / 25) :
    0 < polyEval (itRF iEl iFl [50, 10]).2 y ∧ HasDerivAt (itH iEl iFl [50, 10]) (rfEval (itRF iEl iFl [50, 10]) y) y :=
  itH_deriv (iFl_pos h0 h1) (by rw [iQ3l_lit]; exact iQ3l_pos h0 h1) (by simp only [polyEval]; push_cast; linarith)

def iv1RF : RF := ivRF iAl iBl

def iv1RFl : RF := ([25778150397304334196989584524228749713304050916001711035466434225625738084632130275124765440566480000000000000, -20337166443963567989964072819858954090120827082891837459177914879382515000711903394761604290972838000000000000000, 4527209169956876889177138715887805562702491447259400581909621143011441105527629316968111505334040548000000000000000, -362467854013689613551591961521963924571120032788845427188212080041435863085231810929835201706414981600000000000000000, 6846500773913772691594509384566236708464442062179373521835872790948053927896041434708515604741184304200000000000000000, 357981185970972976761344522937694007373905726977446039137588634813407840892839566664748028975806136706720000000000000000, -11207884375274203430129827308225896528162054339079065231526574427112265063848006122699422769361795865604240000000000000000, -180890421562416837170330091029202154425066749964906831176995920964587724687438895014370688336211797400613200000000000000000, 6175710978665646447467927244330376039374990914177023186705104297134217666434961108713586107501499557566918000000000000000000, 68227604799521859162293452704071171969549790193898309537976013957758371251847558153411069681662833891022740000000000000000000, -1765597624066825425915295303921256660193103797841699916344718023785263544843636443564794662892946219661582330000000000000000000, -19042753312531771624416799557303327305486139105070383474739427883240925694979540127693826756288822423229923980000000000000000000, 283116230767779271187399727163521805130272849796959689675144677692475055204814063755791402224445191472111719705000000000000000000, 3521401166209751650992764244684112118351815133242284435228029874304131181545697883022817234408662563884872238625000000000000000000, -24597228565850034853211424392018324289232382644536575518062880624195950322862347395088777760441077644265648649250000000000000000000, -408059331169692105940654091336814983468714596991388190894825773372409216991338573331301683340078012324628556265000000000000000000000, 852641345480831501706087356162530094313881232095565420803158772106766758345319774289095807458311099344704688737500000000000000000000, 28832684221943935550396377211047425084019812249549243118673313036325798929367667644800325717253097001381194715662500000000000000000000, 31554475747202276216743148412869698589673299694452000463638332917578127314012248285748295936051687470863055245475000000000000000000000, -1179571153233698402317327400160364010309877610153790049473281386781399009333519874147545625302422876628471105836550000000000000000000000, -4253199308965597244251331149978565213371809244749249085076692416376882850248146588674148975989631710725852013616000000000000000000000000, 23419984893815954809992274038340968550462142772428383828464607269341820105243132856000000251689255766473842541145000000000000000000000000, 163756905839363940485495543074340447916492873461485874021343859777356975696024150345936772164502269741464493559275000000000000000000000000, -17122711031895258407487615755208032552257656523203323651467651667021926286011206099160922089382482841776392420125000000000000000000000000, -2594941685596140315774074887519309301937413456577649004764236231438657744600764877089383396561226635493360198926500000000000000000000000000, -6892200527058325095230482432740624196161226899062166087450148307401271040832693111118680445602255351281444897112500000000000000000000000000, 6020103294586335557123403564965840990836628818373905193403033473802450819319868345337243536380312355905666839425000000000000000000000000000, 69129084096098469260681645841296185024117251265569582216456165794332073317460130869326280130251030605701103191350000000000000000000000000000, 168399640257642341742226719224249127650939363209467643112085701048124398671480660097238327160282653401377417716000000000000000000000000000000, 215895112394465126606500117431655248517542147059234336806542277529961937438790494285023173678761743035287690520000000000000000000000000000000, 161592115747115620397202562930429495949071373837506926486698495462205818134700723587565808319775203499390786575000000000000000000000000000000, 70528054940710457016474514030428527424291459577542653487353284819140352593797152724762269723550061002409898875000000000000000000000000000000, 16842986147907659689336181813673610185160374979413065687583316017614766893032774688599011714160456622551184000000000000000000000000000000000, 1949854897615187554781567516531667567122029351911724639089125740454914635260937557481558638895867807267560000000000000000000000000000000000, 149937009108148225928457444534982322418299703410139356140126688387217612192888683457548107046330614608000000000000000000000000000000000000, 7627639234183750899333194796190635184194419101523645531962018577233291492206768331002951586399781347200000000000000000000000000000000000], [249763226794359562624213429051507212304357300000000000000000000000000000000000000000000000000000000000000000000000000000, 49853407469216087998785616161204605152971978208788925350595018800000000000000000000000000000000000000000000000000000000000, 4738020739915995855898370710844663634771383753052599305305472358143872770492071537600000000000000000000000000000000000000000, 285390185104879347041398533295465125113699498904773568958058806447506225077957170457221151740444260358400000000000000000000000, 12234735620745343863710847731834973545633578535594012598675700607525872340057567773506505696535371204320000000000000000000000000, 397433930364393713330081104581248217291216468887839049787363462570937303334214277260893486357785356275840000000000000000000000000, 10169478005593427960837268986658247688783135182399529438318610497111199279706080393061624093969594812804000000000000000000000000000, 210374108446960197054000386348657248800186476852433235827103736862456643824941722711335653406408513540456000000000000000000000000000, 3583434472430464007955866388315818470112497418849044854733132006124122030321383742893216555246055441700943200000000000000000000000000, 50931778613824321793728096627270075942054207293353031694032426109153325877048111718138431262951102984110452000000000000000000000000000, 609969219133333312185690406834689035273100338862450109910341408577677881836438522343456454493283916163059144000000000000000000000000000, 6199962168551015767191959090746190205469592056302639018444698013246635708302753372633930631550874533631201120000000000000000000000000000, 53766221157268688910425448969423421073762801560160388142663758418156003402477183393003202241920595941607417200000000000000000000000000000, 399267323848988256945030461085339106152809629961779978127081030606635844939366723536297896129503649023779986600000000000000000000000000000, 2544950553601208019059318528545938384574470935231415220764968088462668386742990604451718400481061141431264753000000000000000000000000000000, 13941041354271142145716692365963375349715584525472237641535721966783658513185440355111261270128356322808683417400000000000000000000000000000, 65646768976379873906373032194339309482077656676290042034291567901967434186869361954757010164654351872603032946000000000000000000000000000000, 265540268419847018111873311017389062213591383945715883860034289834331894836998843425190193536819484556775509190000000000000000000000000000000, 921198398488680649506472933869865596640463345023365599631959471279743323509431467647159203215639748478641801700000000000000000000000000000000, 2734013004862590892563092257948006161508432443082929211992921942195730710760946468488481418698496206378142991750000000000000000000000000000000, 6918186420698599063341781890824334956062707622188158177998586220922598343317332085646842109793775835662478973600000000000000000000000000000000, 14860184252790364762719123542281315807882762822927584600641557174571943573199167321185688375383550558059180465100000000000000000000000000000000, 26948180257218936685308708255389418032444340077252120392907718762064641038529829824791520051138022355401987140500000000000000000000000000000000, 40984673597717463483471410350914436747033202603756650623716693837243132280168510991308900162377231713231937757500000000000000000000000000000000, 51857938774440455369197736544157160704969371219803938841524855884860892870957619229565980779477661009279762000000000000000000000000000000000000, 54065286579816422364456222026502884918805256864215614181938080879063022318891716629525176002434411509352128975000000000000000000000000000000000, 45907539005671611602080798246167851166071858587413435270994231022879047870156068378433142523677803508028256700000000000000000000000000000000000, 31305553080179156283320403907287513468247132459223883998708269738898927104515818103334368370300294842354867925000000000000000000000000000000000, 16858512547211224133257363770866498516204774713977698120714380567482476427270050783199168135260353408223194250000000000000000000000000000000000, 7030952718695605192734275840814177343532367747044877156241914084582072654439452644531085321225520709708431250000000000000000000000000000000000, 2226554460917660607529210829924922556229475928372476597345863790345752492592221417850694782684678258124550000000000000000000000000000000000000, 529015400979113924542848536730853814375812443306252398985562355815026057460944054549560628724217655798750000000000000000000000000000000000000, 95125506547251819488163310452515470745816128991274899993896739805468148329462150791808171655320454389500000000000000000000000000000000000000, 13150586724451799939522098345442843501384525872881238057823271054233225513457057235054892544435058111250000000000000000000000000000000000000, 1301159764221664221652835731669651025349896313476008637852643233541092709089177480067484072938373000000000000000000000000000000000000000000, 66192978815255622038687448080088600682916622965723706883828176995192021256149797581837991342798200000000000000000000000000000000000000000])

theorem iv1RF_lit : iv1RF = iv1RFl := by decide +kernel

def iv1Tv : List (ℤ × ℤ) := [(176, 103210352), (352, 86348296), (528, 71533765), (705, 58567131), (1058, 47205438), (1411, 28909118), (2822, 15455987), (5644, 8782023), (11289, 3558111), (22578, 1919211), (33867, 1109882), (45156, 711587), (67734, 506210), (90312, 348578), (135468, 253919), (180625, 311795)]

theorem iv1Tv_0 : pieceOk iv1RFl 1000000 (10 ^ 18) (0) (176) 103210352 = true := by decide +kernel

theorem iv1Tv_1 : pieceOk iv1RFl 1000000 (10 ^ 18) (176) (352) 86348296 = true := by decide +kernel

theorem iv1Tv_2 : pieceOk iv1RFl 1000000 (10 ^ 18) (352) (528) 71533765 = true := by decide +kernel

theorem iv1Tv_3 : pieceOk iv1RFl 1000000 (10 ^ 18) (528) (705) 58567131 = true := by decide +kernel

theorem iv1Tv_4 : pieceOk iv1RFl 1000000 (10 ^ 18) (705) (1058) 47205438 = true := by decide +kernel

theorem iv1Tv_5 : pieceOk iv1RFl 1000000 (10 ^ 18) (1058) (1411) 28909118 = true := by decide +kernel

theorem iv1Tv_6 : pieceOk iv1RFl 1000000 (10 ^ 18) (1411) (2822) 15455987 = true := by decide +kernel

theorem iv1Tv_7 : pieceOk iv1RFl 1000000 (10 ^ 18) (2822) (5644) 8782023 = true := by decide +kernel

theorem iv1Tv_8 : pieceOk iv1RFl 1000000 (10 ^ 18) (5644) (11289) 3558111 = true := by decide +kernel

theorem iv1Tv_9 : pieceOk iv1RFl 1000000 (10 ^ 18) (11289) (22578) 1919211 = true := by decide +kernel

theorem iv1Tv_10 : pieceOk iv1RFl 1000000 (10 ^ 18) (22578) (33867) 1109882 = true := by decide +kernel

theorem iv1Tv_11 : pieceOk iv1RFl 1000000 (10 ^ 18) (33867) (45156) 711587 = true := by decide +kernel

theorem iv1Tv_12 : pieceOk iv1RFl 1000000 (10 ^ 18) (45156) (67734) 506210 = true := by decide +kernel

theorem iv1Tv_13 : pieceOk iv1RFl 1000000 (10 ^ 18) (67734) (90312) 348578 = true := by decide +kernel

theorem iv1Tv_14 : pieceOk iv1RFl 1000000 (10 ^ 18) (90312) (135468) 253919 = true := by decide +kernel

theorem iv1Tv_15 : pieceOk iv1RFl 1000000 (10 ^ 18) (135468) (180625) 311795 = true := by decide +kernel

theorem iv1Tv_chk : tvChk iv1RFl 1000000 (10 ^ 18) (0) iv1Tv = true :=
  tvChk_cons iv1Tv_0 (tvChk_cons iv1Tv_1 (tvChk_cons iv1Tv_2 (tvChk_cons iv1Tv_3 (tvChk_cons iv1Tv_4 (tvChk_cons iv1Tv_5 (tvChk_cons iv1Tv_6 (tvChk_cons iv1Tv_7 (tvChk_cons iv1Tv_8 (tvChk_cons iv1Tv_9 (tvChk_cons iv1Tv_10 (tvChk_cons iv1Tv_11 (tvChk_cons iv1Tv_12 (tvChk_cons iv1Tv_13 (tvChk_cons iv1Tv_14 (tvChk_cons iv1Tv_15 rfl)))))))))))))))

theorem iv1_var {x : ℝ} (h0 : 0 ≤ x) (h1 : x ≤ 289 / 1600) : |ivH iAl iBl x - ivH iAl iBl (0)| + |ivH iAl iBl (289 / 1600) - ivH iAl iBl x| ≤ 236937521464 / (10 ^ 18 * 1000000) := by
  have e64 : tvEnd (0) iv1Tv = 180625 := by decide +kernel
  have es : tvSum (0) iv1Tv = 236937521464 := by decide +kernel
  have z : (((0 : ℤ) : ℝ) / ((1000000 : ℤ) : ℝ)) = 0 := by norm_num
  have o : (((tvEnd (0) iv1Tv : ℤ) : ℝ) / ((1000000 : ℤ) : ℝ)) = 289 / 1600 := by rw [e64]; norm_num
  have := tvChk_sound (f := iv1RFl) (d := 1000000) (b := 10 ^ 18) (by norm_num) (by norm_num) iv1Tv (0) iv1Tv_chk (F := ivH iAl iBl)
    (by rw [z, o, ← iv1RF_lit]; exact fun x hx => iv1_deriv hx.1 hx.2) (x := x) (by rw [z, o]; exact ⟨h0, h1⟩)
  rw [es, z, o] at this
  refine this.trans (le_of_eq ?_)
  norm_num

def it2RF : RF := itRF iCl iDl [16, 10]

def it2RFl : RF := ([20171001639753207754182372649504707066052974789398780725375056317485436454553786230207160225994615429678948640000000000000000000000000000000000000000000000000000, -907684416797337388675952006973448895121915984651356028867871444301345375611978719816945723226007022354821495363200000000000000000000000000000000000000000000000000, 11359981651630093543247170169630113446934461343013824723702261163667096983769531511127259059534777092506671078621480000000000000000000000000000000000000000000000000, -49385289399162782726133022523361537268749576511327452695546753724695209242308041025835554955072345068807237393103160000000000000000000000000000000000000000000000000, 39303391337624904163983335807566139309410628864527222853137680230652599398120711017195906151040365448945333365368516000000000000000000000000000000000000000000000000, 183500808999396133071992096593354758620893277878640602835099421303283705960721273638183238012602129681027959979078856185728000000000000000000000000000000000000000000, -213272591962818235934136457426727174091082255154765198360223797234254665471917062479863967311566243154889478228194094242718400000000000000000000000000000000000000000, -391442479982807544297496655001779916297107116487166566362196246509104717128001624247765529619731571809264633249011113835992000000000000000000000000000000000000000000, 331493678203234735134292374597724513377344096817402089043667737578956322015511710659481961329675546526099285318048388367064000000000000000000000000000000000000000000, 568953532035345239572352641355001528853830731968994159400517531831134849780993282151002207696657787717519629508906270812622400000000000000000000000000000000000000000, -190155908795766549763591015733120599311504992303319654963563209258102690643543424909940313530586427814593844533598586192734720000000000000000000000000000000000000000, -509620052055463777109884965056116019901197477802728632145303790549553675538529162833406932531524806598056939885375920008861747200000000000000000000000000000000000000, -31634852389594281227371337023009550754914023210495456479196375173944083083393728257882560735909408087697588996437698519893940475904000000000000000000000000000000000, 257179351002314082450525968559805573760149036706269974628210863256526819455746850694668905088680752686447429444419249614396813068870400000000000000000000000000000000, 91647615962850512600358410798364151952721009076663029481321833625559978785901385155626728047098107364497048618300225621753493188928000000000000000000000000000000000, -64421408691477325040260052181362424703248740551481518416329647209614516518185261707522453836643486611744246363131926264768314796684800000000000000000000000000000000, -45676022479535825047508238644870194186278541557152791698648155220624091414173531584934746182530076413619614442230004347896072327512960000000000000000000000000000000, 3370086463260169460762112576316836195111472994165225399805776408779518889714151874969900272521361525347591822544431757902835365438080000000000000000000000000000000, 10415064713695066721993787808839403052663256726820262219034972891554199495659145020332691556082381596069214914285956219515058427932096000000000000000000000000000000, 2052940336194683299724657636118197027231240855681627130949991963744377358079569613906502099967870596833754196679035156355457087624929812480000000000000000000000000, -1040349046011129393029992892071556026430658298521104462338369219220980971966820839495968442217659676369476092313317443374214714612520685900800000000000000000000000, -497273681437580988925632273443012924529399154331626862079507981698026214711955737893143355202564189590897408459469274754987200935361724288000000000000000000000000, -1890992381004426254961334566058015648712909988165831994299543629129923999285089728535746147396648571055981808674655245977441313614221260800000000000000000000000, 43176017298708348122488720111371791045914862920411685361629214883909596428731893973847277909986405942791421622314743890407668972579221601280000000000000000000000, 8996252249558028664204341446337788441222821118125209621125702966154179449891586394667571380419855825544129152871123010283446353465133235200000000000000000000000, -834937838296860648554563905767058272057498255240161396242585451807596805172818290285922826254713408712494238701842465228223137603770835251200000000000000000000, -606142457787190605914272867963567310489789631974303837429522747433246551382894877785272904747975368322298416557364446237085478778520589082247168000000000000000, -78583887316319970836339550604123236624889556721149496087549868861473287393168873294953961881612826857808280030930913519548601632352403784329932800000000000000, 5304397441277724263241071476700392605107136679057171999121456273856960623710416383585630719448516183350372401634119354027995876986595573596160000000000000000, 2902791538804842311652356100038290501264322478930140400729907068687789790646026586500207744560242984888830091758386180422769922652920346990080000000000000000, 401110580459435867184555313229094089813361290834077462775549445724584160304714166464145832379779864954061740615210728816967392738201802292838400000000000000, 28420544734679686558663954636383135447544158105474329202265841414160441999172703925207421090547864227864010534614358626317287060605453775769600000000000000, 1050234453823892193518351835120904883768263271177921435389263974011213408035434588499634642742082134405419591494496459732680309517900958842880000000000000, 16038011742617435237850953681935286240218176638650660625228253074959544908982184825203694403729275467235168872244982369752514966308768957952000000000000, 30770580027517656973151584536316956844340830965423680590515392179495126695332889872356963100638118736203191828157089787453651195453440000000000000, 19680630985126309373734503753264141008815868506445501471276649373901937822397643766026276827756076106342991892845952078745779200000000000000, 0], [54647958058235226175937073607492456184568584114487878829635077397741731333574591784866978080640768340011005962226889427200000000000000000000000000000000000000000000000000000, 587292369386329585938373604017985066109571030781548717143593180687215822267569783275660755109502513119911192180050102325600000000000000000000000000000000000000000000000000000, 3032006596902601675941037759118960507989565024328692298133129570898584471568396389916250361406657347270692877518517325365158400000000000000000000000000000000000000000000000000, 10012893117313471746949144965676569851640062750778418169044280350832232017045096809301770391801264107854194322823348740892044200000000000000000000000000000000000000000000000000, 23761420513748177756243941452048871947971713734807749304736851993624888906807075421508223855318790221713439862683234761408579400000000000000000000000000000000000000000000000000, 43154656468923368486334027630971235659120929375146617197481638390328899971627606280208704969009862677906850964479384145978919327200000000000000000000000000000000000000000000000, 62378147196716821451848437841439237263269693269410400666132624119817730603686190102590415946494369267070063283809731667639209625524288000000000000000000000000000000000000000000, 73678661728676502796495809552190573147177949444741416066836389750781274513361923947012732416329681574900173689678597928125631541878760000000000000000000000000000000000000000000, 72454622193697583817899943135481271243227780044641584492612984606692422278896192793448658455753046246416855031262255699990641049349000000000000000000000000000000000000000000000, 60135146506920068826909662372030605887080226008371359961097946098305933105553964613392601896057709945663016695545190843596387729804232000000000000000000000000000000000000000000, 42552536658501935544594444359174729132002765780555430649363902581609527048162737358982196922065647105064172899267907851769327520760699200000000000000000000000000000000000000000, 25866154802410862330572398803895014334984321718385627642245446560427343272433546146734739232843855542839487553450473331023597338834877440000000000000000000000000000000000000000, 13581784022825170309507113406670617811892335745603509364139368885245973563351572967495822172492967063241419922754048346147736332898764486400000000000000000000000000000000000000, 6184609383351262001913566562575168267937536301386059151926134206747459053984098387933256047975965177822406020693883896927925159775177013283072000000000000000000000000000000000, 2448633455293351965770224921954607109013638669376068498802556765105189062185327994744457645175958572715875187188502924506945957814873624137120000000000000000000000000000000000, 844115482634539356433405296974995809165118246320602122623738688212274872169781645217789554666925703559075845000305996838160737113037198076800000000000000000000000000000000000, 253445476020970917554692426056524417098143162191227864813464066756373056497842088913526353257255566593620554313913406100928260861913429990899200000000000000000000000000000000, 66230282227687159946615722081778438745909740085910061334572110420406088472588761268036994454536113031534821978224987326780624348766713000860800000000000000000000000000000000, 15036557894445193249623983132901867200602667346190472450869861184379123466306065504087231153680700697067795178530704641517848699967555144141440000000000000000000000000000000, 2957429376464880612152371781665611509300168905425512174565031485075991743741007495108650021452031561280414947909904715219919522419236778279488000000000000000000000000000000, 501866769731410688794996349528006408221530335679057592439691908282938982922713064928292998541394902965780385114821563876694535640484019994925536256000000000000000000000000, 73082194746792109995534249489527204120317319805667545175958752738030296765236486777264930584906704584342930839861200658826276446029581409032368000000000000000000000000000, 9068195622203871948071614925905531406064397598906246844899759369788406827487520792455279732886030263160762310100486989644218093001489888227779200000000000000000000000000, 950129507433424002728840333394353340404304436097512060462441902796083795516963124835379158811174030901672252106290704193353868845323552818452070400000000000000000000000, 83088266823559511709106502569914750626801757769079246653487880747027671800182623071551117837221801484577497451468643333748720249716799608206464000000000000000000000000, 5973273959282836365679895837245840049520051034962280996759255748938630131118624458158900184959934217968533452395270025848483700743542527871708160000000000000000000000, 345977558900188882004959575109671676748614268256963676945128843100445315408108723187664277379064753870203832101496949716696808115254899572376780800000000000000000000, 15702755879782659052962123122283909280969601335362383237103274866461139335161335860250575757535845896822637583807651909038116764570056194463035600896000000000000000, 536311950128329245321558125104611168078366834527007193098631907224696891596458079041445722890017927050350849851802215547350173092604697584175050240000000000000000, 12927234639801473442555064719349454049038426770082698516012593346974437892336379951804816939351405033571738523693452132520013375324165483762252800000000000000000, 195565615085728602783957655477923519291990494686272979231688073307886840874573492427305107026231760546726775234275824156773774713888521170831872000000000000000, 1393695224572005367752160355157271350500654821222312306614818977286651006267926007616500232666161627356639453412217462931228688147643804233728000000000000000, 8018981254884647285699704727728695109162739052908454186737738493152720456618757080069416533139190565082940308064904932746904802953282048000000000000000, 15385274269254040385528293280555475810857608430017035138856519068428064226116187018063468729297597163240710839685030616965162601103360000000000000, 9840315492563154686867251876632070504407934253222750735638324686950968911198821883013138413878038053171495946422976039372889600000000000000, 0])

theorem it2RF_lit : it2RF = it2RFl := by decide +kernel

def it2Tv : List (ℤ × ℤ) := [(265, 369109), (531, 44081), (1062, 33447), (2125, 14998), (4250, 9161), (8500, 6268), (17000, 4730), (25500, 5608), (29750, 6969), (31875, 11185), (32937, 23492), (34000, 65753)]

theorem it2Tv_0 : pieceOk it2RFl 10000 (10 ^ 18) (0) (265) 369109 = true := by decide +kernel

theorem it2Tv_1 : pieceOk it2RFl 10000 (10 ^ 18) (265) (531) 44081 = true := by decide +kernel

theorem it2Tv_2 : pieceOk it2RFl 10000 (10 ^ 18) (531) (1062) 33447 = true := by decide +kernel

theorem it2Tv_3 : pieceOk it2RFl 10000 (10 ^ 18) (1062) (2125) 14998 = true := by decide +kernel

theorem it2Tv_4 : pieceOk it2RFl 10000 (10 ^ 18) (2125) (4250) 9161 = true := by decide +kernel

theorem it2Tv_5 : pieceOk it2RFl 10000 (10 ^ 18) (4250) (8500) 6268 = true := by decide +kernel

theorem it2Tv_6 : pieceOk it2RFl 10000 (10 ^ 18) (8500) (17000) 4730 = true := by decide +kernel

theorem it2Tv_7 : pieceOk it2RFl 10000 (10 ^ 18) (17000) (25500) 5608 = true := by decide +kernel

theorem it2Tv_8 : pieceOk it2RFl 10000 (10 ^ 18) (25500) (29750) 6969 = true := by decide +kernel

theorem it2Tv_9 : pieceOk it2RFl 10000 (10 ^ 18) (29750) (31875) 11185 = true := by decide +kernel

theorem it2Tv_10 : pieceOk it2RFl 10000 (10 ^ 18) (31875) (32937) 23492 = true := by decide +kernel

theorem it2Tv_11 : pieceOk it2RFl 10000 (10 ^ 18) (32937) (34000) 65753 = true := by decide +kernel

theorem it2Tv_chk : tvChk it2RFl 10000 (10 ^ 18) (0) it2Tv = true :=
  tvChk_cons it2Tv_0 (tvChk_cons it2Tv_1 (tvChk_cons it2Tv_2 (tvChk_cons it2Tv_3 (tvChk_cons it2Tv_4 (tvChk_cons it2Tv_5 (tvChk_cons it2Tv_6 (tvChk_cons it2Tv_7 (tvChk_cons it2Tv_8 (tvChk_cons it2Tv_9 (tvChk_cons it2Tv_10 (tvChk_cons it2Tv_11 rfl)))))))))))

theorem it2_var {x : ℝ} (h0 : 0 ≤ x) (h1 : x ≤ 17 / 5) : |itH iCl iDl [16, 10] x - itH iCl iDl [16, 10] (0)| + |itH iCl iDl [16, 10] (17 / 5) - itH iCl iDl [16, 10] x| ≤ 425452105 / (10 ^ 18 * 10000) := by
  have e64 : tvEnd (0) it2Tv = 34000 := by decide +kernel
  have es : tvSum (0) it2Tv = 425452105 := by decide +kernel
  have z : (((0 : ℤ) : ℝ) / ((10000 : ℤ) : ℝ)) = 0 := by norm_num
  have o : (((tvEnd (0) it2Tv : ℤ) : ℝ) / ((10000 : ℤ) : ℝ)) = 17 / 5 := by rw [e64]; norm_num
  have := tvChk_sound (f := it2RFl) (d := 10000) (b := 10 ^ 18) (by norm_num) (by norm_num) it2Tv (0) it2Tv_chk (F := itH iCl iDl [16, 10])
    (by rw [z, o, ← it2RF_lit]; exact fun x hx => it2_deriv hx.1 hx.2) (x := x) (by rw [z, o]; exact ⟨h0, h1⟩)
  rw [es, z, o] at this
  refine this.trans (le_of_eq ?_)
  norm_num

def it3RF : RF := itRF iEl iFl [50, 10]

def it3RFl : RF := ([253073652012184632566756567168910987342201035113193262678655878426761102041851674109807552291721752129585000000000000000000000000000000000000000000000000000000000000000000000000000000000, -2257038055809219653884868790906444568065821715002480227999209131569415805256772451261268884401047241419161200000000000000000000000000000000000000000000000000000000000000000000000000000000, 3698762806279797150475573148076603810819098050428136543713323277171880929544108336156622989659220863797112740000000000000000000000000000000000000000000000000000000000000000000000000000000, 2220379591805863306513194572757371485284284962563239172633817317950007953845925451341560919986117470525483638000000000000000000000000000000000000000000000000000000000000000000000000000000, -4927192483537508469281286411364501670614711675891163270562292525944650571615154597394911371756109865174980051850000000000000000000000000000000000000000000000000000000000000000000000000000, -730127473727469729776225478534616934353813062856392051640175815684386597129327603628470451070899702846978011636045510800000000000000000000000000000000000000000000000000000000000000000000, 1658447587159799215482597222547831838202195260382413814404143267869896558552578477925503850922635460670786915124710681720000000000000000000000000000000000000000000000000000000000000000000, 307279177622065394682723440851909111769199016062621752935747323992211102822871625987161521025990342134663743874219230558000000000000000000000000000000000000000000000000000000000000000000, -224927223892008814744084242034516861829063172882672893129528490306986432908543990906489563304562668194512458774016008351200000000000000000000000000000000000000000000000000000000000000000, -60813549193204878772266311852176320325587528546113768814658737616587882712865359052111450977558743461508156856417446092000000000000000000000000000000000000000000000000000000000000000000, 11654392362947943868559352124756625450373656452405446482044904411327006780596877052845375285490231608461075215123238465620000000000000000000000000000000000000000000000000000000000000000, 5079993651306156817785005895887229511973962728250785439875942537034503509510926884902779980448169639509634367763659394460420000000000000000000000000000000000000000000000000000000000000, -45585962127235583387540873155964654970451200970314920043796779379493845245313163592145165294258382140240575171095474153936645665600000000000000000000000000000000000000000000000000000, -193724173298604031332684278332770428357807993388121313187278820689203672455409614000182513561518098657494341030587667179493402588280000000000000000000000000000000000000000000000000000, -14848754246963839681604705411902203886337964623076571402435345941265243986851103304184773046628140214593034974843294657407001817620000000000000000000000000000000000000000000000000000, 3382398249145517471238438523370306600572225439814016980049822096414196089508236081102020134510314145501779756305014947285053651113600000000000000000000000000000000000000000000000000, 502358723798094343661460306005850755051630922357902143994158149268538764078015775880315596129139621408095039022632161140049599015600000000000000000000000000000000000000000000000000, -20115075927260077281258531274079911385756687418903072245071762315994868987147909261064889965777996199586863823357692035773857938000000000000000000000000000000000000000000000000000, -7091464622394363381335441680102606829468427668736242598453114043119251358643262863933105581798060976079755572327586186669816901292800000000000000000000000000000000000000000000000, -144541145150367896546547111202609430884554673375025292683231541772920204581851346682215671875552817480134160885370943518258623228488946728000000000000000000000000000000000000000, 49315285401189324004436713420003913930639978344894897082392953031823748843748346917280012394804682991913493859497642510381672124304338351040000000000000000000000000000000000000, 2811410649343569269517518701585156982411022547021741485985511784428896184848373186275061426972839158425192362685758603058435626102855351400000000000000000000000000000000000000, -154891505007002636125098642174779015314783352762045886386037392635340986583719519739394462755913190028581821193226780216721106637449971568000000000000000000000000000000000000, -16501767471281175744037680101013106961858579243367409914235091186343046559932985369201844894425859757046833334576398971928517049554922401600000000000000000000000000000000000, 34620148699936241739438408083691150227715935727160693510368920241687555574699386086975857616686818414551093657351214219763430862291409200000000000000000000000000000000000, 44571813575221895154764250155825648993491698611696234839832733490638787699884667639626470917125686819470870842188274450291984526317533392720000000000000000000000000000000, 1054855946925444830420979882268940194160842549268615084716861326501585594042133962255499787865944773033351236855909575446236493463499581897896204800000000000000000000000, -47561734850583506679897051934665871620582662917685127552508082884891709566598299607322410342597861767918166588409366592196321797451770970302138720000000000000000000000, -2434747096023516642597467922229495688971273613405535577807295539705597500909187131680143724321058210489264771776460074761897670940218297377731840000000000000000000000, -9920999295031306836643864886639076606531343930598168639665231002057515386411388941061942189000631486986945733853951381937252225791840316363840000000000000000000000, 1481395012845103168767567770655949344808034826929960568300207993273969085273073695846800971343133085565258844567524851695957148913960983857840000000000000000000000, 38208775841220268745258830012514634929222910345105103142216526626202784641543589764483892359466428446541480855537794815714778541711696109058400000000000000000000, 382899156311999668065183544032244660515861274195850851186348459689224207855689241856847921706373003855541179380075240622636098866024100956972000000000000000000, 1416574315274439914702752770789047690832385536221370566919796292543251433755805484920380052183524110114961263634565178988654953208312452439600000000000000000, 20371535376771350593867001667792355915696575328095105864439502938663152488105626583592571351281359766316565481316604341380416031016000000000000000000, 97653604886211036749912927741394645100327689683566059715113501377438114534377894075258039138638460235485833295098915293533600000000000000000, 0], [1470159277814154846174690149457213363518447414303173376649070411434788454524225401217637746832113334758195238925023055000000000000000000000000000000000000000000000000000000000000000000000000000000000, 4685899406137967300158950544380037192372661487448804377790464268417247369499916385575679639889652406379778476754713692000000000000000000000000000000000000000000000000000000000000000000000000000000000, 7126688884691511782155656119737018760586482065182528051188481963530394546816348052758535292675907368950527510281146333100000000000000000000000000000000000000000000000000000000000000000000000000000000, 6884355674730197716972772547613737084471882570554350028766399656368506587160720641880857774030085343982914207188973858650000000000000000000000000000000000000000000000000000000000000000000000000000000, 4743531161315879467602651710223026235359865489257861613633080638815715489061152833739647768486353199213985130835233901854000000000000000000000000000000000000000000000000000000000000000000000000000000, 2482055863418665546124215153514578623315156159299357554938533237499431466784917892282590254002889493698159663982051455488630000000000000000000000000000000000000000000000000000000000000000000000000000, 1025288715822876085342033318722052358787225572465264456372026284429803931301644929128876491768164036478250749116363930101626825748200000000000000000000000000000000000000000000000000000000000000000000, 343166136124399239809456568875134093593979526641910876069652545613190853254279383821700538300248562008082864522376277818875150080650000000000000000000000000000000000000000000000000000000000000000000, 94784823225664006707413324894119704933595639315431200256880857497304178891697165430721539892536033293009126230697980442671383603534000000000000000000000000000000000000000000000000000000000000000000, 21893364791984815054928439192980680196990737718903315959750372709499237744621494047283149363441346168957516216285056111032440896925400000000000000000000000000000000000000000000000000000000000000000, 4270336130436003809890697782418021345048441864154564170130269444439741729996492082110196716020663172337500088030155358817290542328900000000000000000000000000000000000000000000000000000000000000000, 708437602026509134500685707984187095534173156521041745612096419059320370345370326558154825241687356242457675911521473789359100878210000000000000000000000000000000000000000000000000000000000000000, 100480292999415969617185688482247137125090157653384091170821524487231901873825240439056936037366168123663848900403785886411957847361310000000000000000000000000000000000000000000000000000000000000, 12227972719119919860031462661711596191310273640509181037669851977164905017901487577584539692384838952752817504804626747338707470613095515750800000000000000000000000000000000000000000000000000000, 1279657205538995614196236731746415813107189267413723845761486239924344368034484442503168821789580602426584757779730249698795234896909293186060000000000000000000000000000000000000000000000000000, 115281452902986445459971297316383036220457296166092277322592886693036173077445345802227913768796666170408251968454945059774962135709650587432000000000000000000000000000000000000000000000000000, 8940187099550412549948518120274083670184852296263811180232516130469293130477599103875617161532234367104586297656045437008706131017348225932400000000000000000000000000000000000000000000000000, 596217696580384138289321606216462008167461021161889569011553037543739510485185453293590445253527180393694833361933651968882674146765237087200000000000000000000000000000000000000000000000000, 34122418305152447818650411523720120203051039640748719807537135425956829503646933199659891778876128085400709831566062467990621580800569747240000000000000000000000000000000000000000000000000, 1670681764391074440486447909930024780822816022534426251504127791186149441377509007976141434454206801061605769174129157263172614887391388973700000000000000000000000000000000000000000000000, 69679341747212999142860116343495813051157820609243179078688655997675735588211844055364379455561729091603210883411867418414841509331026314762684018400000000000000000000000000000000000000, 2461691874078575064219216048980739359121382878958949007562094226403856253256932139416908428347214979143484627077182210323045780096494290046281614200000000000000000000000000000000000000, 73141502533305096480666768479259137774192421270047049666485931094649604482616697517164597374485894445480089421497918164146714641727024520411366424000000000000000000000000000000000000, 1811053650264026168737214690740483141985883776686919774360930199240712441288997838898513131891452087487451134879842928913414993735692145939400380000000000000000000000000000000000000, 36938504864718507913602109347568155615736457768617320411598154310456279536479814896612764771126243666029445786434936178509400255030553956976133200000000000000000000000000000000000, 611315707275039694406685216380165887504893897966761561037211182512092131284322010650595242338140598599188474540069859351187894600794776123877320000000000000000000000000000000000, 8046651019906080525098186453269408389195593190341002255292322806478103663143052591662376331924519346301395304081322755159549869387022946347093320000000000000000000000000000000, 81956376683199610011783499404528681949469970275792850797385014260583225744920487764228023997264783403336594122003466879096729493424906800549786762974400000000000000000000000, 620532869506796848367059548032775386390195532691749419285076608599377770698966199103008351035130153604749568579776454390103530563406567633918403813280000000000000000000000, 3277321644051694716012932026362969288439582945500879856305436015631389924472947543428250437675689360147042565015441156822262705073129171813566887680000000000000000000000, 10743854856057536811019220855273857492479146299213542588156564331957419306199635659054577020042028733397318565550082925363797593650446342014841920000000000000000000000, 16417578851978638827000881567575539821398279195676310470162931386077516965233912913354651055503060574746646091310551101467402456012589109032868000000000000000000000, 708287106708382809333264643023256612281595552348294542564021792423159595473914773251141147617430174023099802985467006390107783213743788000000000000000000000, 10185767444251663081405908959113858604361674913228328723304602181547822800457526955851550487495582036562132151943718932942919781674000000000000000000, 48826802443105518374956463870697322550163844841783029857556750688719057267188947037629019569319230117742916647549457646766800000000000000000, 0])

theorem it3RF_lit : it3RF = it3RFl := by decide +kernel

def it3Tv : List (ℤ × ℤ) := [(175, 172141), (350, 138139), (700, 108749), (1400, 62023), (2800, 20448), (4200, 20103), (5600, 8340), (8400, 12166), (11200, 7184)]

theorem it3Tv_0 : pieceOk it3RFl 10000 (10 ^ 18) (0) (175) 172141 = true := by decide +kernel

theorem it3Tv_1 : pieceOk it3RFl 10000 (10 ^ 18) (175) (350) 138139 = true := by decide +kernel

theorem it3Tv_2 : pieceOk it3RFl 10000 (10 ^ 18) (350) (700) 108749 = true := by decide +kernel

theorem it3Tv_3 : pieceOk it3RFl 10000 (10 ^ 18) (700) (1400) 62023 = true := by decide +kernel

theorem it3Tv_4 : pieceOk it3RFl 10000 (10 ^ 18) (1400) (2800) 20448 = true := by decide +kernel

theorem it3Tv_5 : pieceOk it3RFl 10000 (10 ^ 18) (2800) (4200) 20103 = true := by decide +kernel

theorem it3Tv_6 : pieceOk it3RFl 10000 (10 ^ 18) (4200) (5600) 8340 = true := by decide +kernel

theorem it3Tv_7 : pieceOk it3RFl 10000 (10 ^ 18) (5600) (8400) 12166 = true := by decide +kernel

theorem it3Tv_8 : pieceOk it3RFl 10000 (10 ^ 18) (8400) (11200) 7184 = true := by decide +kernel

theorem it3Tv_chk : tvChk it3RFl 10000 (10 ^ 18) (0) it3Tv = true :=
  tvChk_cons it3Tv_0 (tvChk_cons it3Tv_1 (tvChk_cons it3Tv_2 (tvChk_cons it3Tv_3 (tvChk_cons it3Tv_4 (tvChk_cons it3Tv_5 (tvChk_cons it3Tv_6 (tvChk_cons it3Tv_7 (tvChk_cons it3Tv_8 rfl))))))))

theorem it3_var {x : ℝ} (h0 : 0 ≤ x) (h1 : x ≤ 28 / 25) : |itH iEl iFl [50, 10] x - itH iEl iFl [50, 10] (0)| + |itH iEl iFl [50, 10] (28 / 25) - itH iEl iFl [50, 10] x| ≤ 258404650 / (10 ^ 18 * 10000) := by
  have e64 : tvEnd (0) it3Tv = 11200 := by decide +kernel
  have es : tvSum (0) it3Tv = 258404650 := by decide +kernel
  have z : (((0 : ℤ) : ℝ) / ((10000 : ℤ) : ℝ)) = 0 := by norm_num
  have o : (((tvEnd (0) it3Tv : ℤ) : ℝ) / ((10000 : ℤ) : ℝ)) = 28 / 25 := by rw [e64]; norm_num
  have := tvChk_sound (f := it3RFl) (d := 10000) (b := 10 ^ 18) (by norm_num) (by norm_num) it3Tv (0) it3Tv_chk (F := itH iEl iFl [50, 10])
    (by rw [z, o, ← it3RF_lit]; exact fun x hx => it3_deriv hx.1 hx.2) (x := x) (by rw [z, o]; exact ⟨h0, h1⟩)
  rw [es, z, o] at this
  refine this.trans (le_of_eq ?_)
  norm_num

end Russell.Lab
