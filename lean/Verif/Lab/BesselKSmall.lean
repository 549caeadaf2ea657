import Verif.Lab.BesselKLarge
import Mathlib.Analysis.Complex.ExponentialBounds
import Mathlib.Analysis.Calculus.MeanValue

/-!
# Modified Bessel functions `K₀` and `K₁` for arguments up to one (for property C120)

The two approximations almost satisfy the equations of `K₀` and `K₁`; their difference from these functions is followed from 1 to the left by two
Wronskians.
-/

set_option linter.unusedSimpArgs false

namespace Russell.Lab

open Russell Real Set

def kA0 : RF := ([115931515658412600000, 277073124051533300000, 20664581346198750000, 457473470997826400, 3454715527986737], [1000000000000000009490, -16473129435117928980, 98096606036219490])

theorem kA0_pos {z : ℝ} (h0 : 0 ≤ z) (h1 : z ≤ 1) : 0 < polyEval kA0.2 z := by
  simp only [kA0, polyEval]
  push_cast
  nlinarith

theorem kA0_code (z : ℝ) : rfEval kA0 z = (((((3.454715527986737e-6) * (z) + 4.574734709978264e-4) * (z) + 2.066458134619875e-2) * (z) + 2.770731240515333e-1) * (z) + 1.159315156584126e-1) / (((9.809660603621949e-5) * (1 - z) + 1.627693622304549e-2) * (1 - z) + 9.836249671709183e-1) := by
  unfold rfEval
  have e1 : polyEval kA0.1 z = 1000000000000000000000 * (((((3.454715527986737e-6) * (z) + 4.574734709978264e-4) * (z) + 2.066458134619875e-2) * (z) + 2.770731240515333e-1) * (z) + 1.159315156584126e-1) := by
    simp only [kA0, polyEval]; push_cast; norm_num only; ring
  have e2 : polyEval kA0.2 z = 1000000000000000000000 * (((9.809660603621949e-5) * (1 - z) + 1.627693622304549e-2) * (1 - z) + 9.836249671709183e-1) := by
    simp only [kA0, polyEval]; push_cast; norm_num only; ring
  rw [e1, e2, mul_div_mul_left _ _ (by norm_num)]

def kA1 : RF := ([-384957197286507750000, -101367720397780525000, -4346938685742005000, -67319935899692575, -388796558178626], [1249999999999999962525, -17358031297738175050, 84677766661837525])

theorem kA1_pos {z : ℝ} (h0 : 0 ≤ z) (h1 : z ≤ 1) : 0 < polyEval kA1.2 z := by
  simp only [kA1, polyEval]
  push_cast
  nlinarith

theorem kA1_code (z : ℝ) : rfEval kA1 z = (((((-3.110372465429008e-7) * (z) + (-5.385594871975406e-5)) * (z) + (-3.477550948593604e-3)) * (z) + (-8.109417631822442e-2)) * (z) + (-3.079657578292062e-1)) / (((6.774221332947002e-5) * (1 - z) + 1.375094061153160e-2) * (1 - z) + 9.861813171751389e-1) := by
  unfold rfEval
  have e1 : polyEval kA1.1 z = 1250000000000000000000 * (((((-3.110372465429008e-7) * (z) + (-5.385594871975406e-5)) * (z) + (-3.477550948593604e-3)) * (z) + (-8.109417631822442e-2)) * (z) + (-3.079657578292062e-1)) := by
    simp only [kA1, polyEval]; push_cast; norm_num only; ring
  have e2 : polyEval kA1.2 z = 1250000000000000000000 * (((6.774221332947002e-5) * (1 - z) + 1.375094061153160e-2) * (1 - z) + 9.861813171751389e-1) := by
    simp only [kA1, polyEval]; push_cast; norm_num only; ring
  rw [e1, e2, mul_div_mul_left _ _ (by norm_num)]

def kL0 : RF := ([1000000000000000000000, 234648794918739600000, 11870820886634040000, 215070736604093700, 1425433617130587], [999999999999999962570, -15351205081250625140, 83622156786462570])

theorem kL0_pos {z : ℝ} (h0 : 0 ≤ z) (h1 : z ≤ 1) : 0 < polyEval kL0.2 z := by
  simp only [kL0, polyEval]
  push_cast
  nlinarith

theorem kL0_code (z : ℝ) : rfEval kL0 z = (((((1.425433617130587e-6) * (z) + 2.150707366040937e-4) * (z) + 1.187082088663404e-2) * (z) + 2.346487949187396e-1) * (z) + 1) / (((8.362215678646257e-5) * (1 - z) + 1.518396076767770e-2) * (1 - z) + 9.847324170755358e-1) := by
  unfold rfEval
  have e1 : polyEval kL0.1 z = 1000000000000000000000 * (((((1.425433617130587e-6) * (z) + 2.150707366040937e-4) * (z) + 1.187082088663404e-2) * (z) + 2.346487949187396e-1) * (z) + 1) := by
    simp only [kL0, polyEval]; push_cast; norm_num only; ring
  have e2 : polyEval kL0.2 z = 1000000000000000000000 * (((8.362215678646257e-5) * (1 - z) + 1.518396076767770e-2) * (1 - z) + 9.847324170755358e-1) := by
    simp only [kL0, polyEval]; push_cast; norm_num only; ring
  rw [e1, e2, mul_div_mul_left _ _ (by norm_num)]

def kL1 : RF := ([1000000000000000000000, 111961440803574820000, 3637332764336590000, 47950198177199180, 247913563268971], [1999999999999999921920, -26077118392848263840, 117638661078341920])

theorem kL1_pos {z : ℝ} (h0 : 0 ≤ z) (h1 : z ≤ 1) : 0 < polyEval kL1.2 z := by
  simp only [kL1, polyEval]
  push_cast
  nlinarith

theorem kL1_code (z : ℝ) : rfEval kL1 z = (((((1.239567816344855e-7) * (z) + 2.397509908859959e-5) * (z) + 1.818666382168295e-3) * (z) + 5.598072040178741e-2) * (z) + 0.5) / (((5.881933053917096e-5) * (1 - z) + 1.292092053534579e-2) * (1 - z) + 9.870202601341150e-1) := by
  unfold rfEval
  have e1 : polyEval kL1.1 z = 2000000000000000000000 * (((((1.239567816344855e-7) * (z) + 2.397509908859959e-5) * (z) + 1.818666382168295e-3) * (z) + 5.598072040178741e-2) * (z) + 0.5) := by
    simp only [kL1, polyEval]; push_cast; norm_num only; ring
  have e2 : polyEval kL1.2 z = 2000000000000000000000 * (((5.881933053917096e-5) * (1 - z) + 1.292092053534579e-2) * (1 - z) + 9.870202601341150e-1) := by
    simp only [kL1, polyEval]; push_cast; norm_num only; ring
  rw [e1, e2, mul_div_mul_left _ _ (by norm_num)]

/-- `z (2 f' + g) + 1 - h` -/
def kF0 (f g h : RF) : RF :=
  (addL (addL (0 :: addL (smulL 2 (mulL (quotD 1 f.1 f.2) (mulL g.2 h.2))) (mulL g.1 (mulL (mulL f.2 f.2) h.2))) (mulL (mulL f.2 f.2) (mulL g.2 h.2)))
    (smulL (-1) (mulL h.1 (mulL (mulL f.2 f.2) g.2))), mulL (mulL f.2 f.2) (mulL g.2 h.2))

/-- `g - 2 f'` -/
def kG0 (f g : RF) : RF := (addL (mulL g.1 (mulL f.2 f.2)) (smulL (-2) (mulL (quotD 1 f.1 f.2) g.2)), mulL (mulL f.2 f.2) g.2)

/-- `2 f + 2 z f' + g + h` -/
def kF1 (f g h : RF) : RF :=
  (addL (addL (smulL 2 (mulL f.1 (mulL f.2 (mulL g.2 h.2)))) (0 :: smulL 2 (mulL (quotD 1 f.1 f.2) (mulL g.2 h.2))))
    (mulL (mulL f.2 f.2) (addL (mulL g.1 h.2) (mulL h.1 g.2))), mulL (mulL f.2 f.2) (mulL g.2 h.2))

/-- `2 f + 2 z f' - g` -/
def kG1 (f g : RF) : RF :=
  (addL (addL (smulL 2 (mulL f.1 (mulL f.2 g.2))) (0 :: smulL 2 (mulL (quotD 1 f.1 f.2) g.2))) (smulL (-1) (mulL (mulL f.2 f.2) g.1)), mulL (mulL f.2 f.2) g.2)

theorem kF0_eval {f g h : RF} {z : ℝ} (hf : 0 < polyEval f.2 z) (hg : 0 < polyEval g.2 z) (hh : 0 < polyEval h.2 z) : rfEval (kF0 f g h) z = z * (2 * rfD f z + rfEval g z) + 1 - rfEval h z ∧ 0 < polyEval (kF0 f g h).2 z := by
  simp only [kF0, rfEval, rfD, polyEval_add, polyEval_mul, polyEval_smul, polyEval]
  generalize polyEval f.2 z = af at *
  generalize polyEval g.2 z = ag at *
  generalize polyEval h.2 z = ah at *
  refine ⟨?_, by positivity⟩
  push_cast
  field_simp
  try ring

theorem kG0_eval {f g : RF} {z : ℝ} (hf : 0 < polyEval f.2 z) (hg : 0 < polyEval g.2 z) : rfEval (kG0 f g) z = rfEval g z - 2 * rfD f z ∧ 0 < polyEval (kG0 f g).2 z := by
  simp only [kG0, rfEval, rfD, polyEval_add, polyEval_mul, polyEval_smul, polyEval]
  generalize polyEval f.2 z = af at *
  generalize polyEval g.2 z = ag at *
  refine ⟨?_, by positivity⟩
  push_cast
  field_simp
  try ring

theorem kF1_eval {f g h : RF} {z : ℝ} (hf : 0 < polyEval f.2 z) (hg : 0 < polyEval g.2 z) (hh : 0 < polyEval h.2 z) : rfEval (kF1 f g h) z = 2 * rfEval f z + 2 * z * rfD f z + rfEval g z + rfEval h z ∧ 0 < polyEval (kF1 f g h).2 z := by
  simp only [kF1, rfEval, rfD, polyEval_add, polyEval_mul, polyEval_smul, polyEval]
  generalize polyEval f.2 z = af at *
  generalize polyEval g.2 z = ag at *
  generalize polyEval h.2 z = ah at *
  refine ⟨?_, by positivity⟩
  push_cast
  field_simp
  try ring

theorem kG1_eval {f g : RF} {z : ℝ} (hf : 0 < polyEval f.2 z) (hg : 0 < polyEval g.2 z) : rfEval (kG1 f g) z = 2 * rfEval f z + 2 * z * rfD f z - rfEval g z ∧ 0 < polyEval (kG1 f g).2 z := by
  simp only [kG1, rfEval, rfD, polyEval_add, polyEval_mul, polyEval_smul, polyEval]
  generalize polyEval f.2 z = af at *
  generalize polyEval g.2 z = ag at *
  refine ⟨?_, by positivity⟩
  push_cast
  field_simp
  try ring

def kF0p : List ℤ := [156203212499999992433327162499999989517674980036252379420424927873940790791765490625000, -45946138974120624819627015568981313859592576850388825165109214451011235212267675000000, 1599857511418122183947703824473523286603977693462427042849835460781742396881518112500000, -16895426454057983859803809760608399071985917244490672482560288040277649147045354975000000, 71863908825186598837957505570545062981294240717748363950875577365258792633072287468750000, -143699148020343835777656197429359235922589348141051563366262081664817290363875461225000000, 135692387116047457091354773725629644946641670141753302970222241974546255920211624362500000, -50081564799967732846930582927966241739402137312075980166442374940963914606996598925000000, 1457936622886409781546764668928583837289134084661048207084164354476451112172487365625000, -18650736837189754791644886868598244898052924049355736742301437394395000000000000000000, 116776099644105872223963074818613958462704410792362139524420748909500000000000000000, -312861224010573579147738226776684882686419277178781244610188082000000000000000000]

theorem kF0p_0 : chkPiece kF0p 4096 0 4096 = true := by decide +kernel

theorem kF0p_chk : chkChain kF0p 4096 0 [4096] = true := chk_cons kF0p_0 rfl

theorem kF0p_lit : addL (mulL [125] (kF0 kA0 kA1 kL0).2) (smulL (1000000000000000) (kF0 kA0 kA1 kL0).1) = kF0p := by decide +kernel

def kF0m : List ℤ := [156296787499999992432297837499999989472856269963752379167772259626090790791765490625000, 26513673664846555817537987947866699295260808170525238600571858331788764787732325000000, -1599296459710357024461116287874860631956077842930993917213029761458057603118481887500000, 16895416731097793445110113165870745784537728031963711492335858719734450852954645025000000, -71863908714954489816857491537288003506914821578065830616241374905710362366927712531250000, 143699148019507805326366624824984448724784214837438267254188019835075083636124538775000000, -135692387116043310087447671572296185409380674280528878171439314505891253079788375637500000, 50081564799967720506486987109151227828222954078596177667028120826913745393003401075000000, -1457936622886409764511898254207938962328789911524702979623777357861303887827512634375000, 18650736837189754791644886868598244898052924049355736742301437394395000000000000000000, -116776099644105872223963074818613958462704410792362139524420748909500000000000000000, 312861224010573579147738226776684882686419277178781244610188082000000000000000000]

theorem kF0m_0 : chkPiece kF0m 4096 0 2048 = true := by decide +kernel

theorem kF0m_1 : chkPiece kF0m 4096 2048 4096 = true := by decide +kernel

theorem kF0m_chk : chkChain kF0m 4096 0 [2048, 4096] = true := chk_cons kF0m_0 (chk_cons kF0m_1 rfl)

theorem kF0m_lit : addL (mulL [125] (kF0 kA0 kA1 kL0).2) (smulL (-1000000000000000) (kF0 kA0 kA1 kL0).1) = kF0m := by decide +kernel

theorem kF0_small {z : ℝ} (h0 : 0 ≤ z) (h1 : z ≤ 1) : |z * (2 * rfD kA0 z + rfEval kA1 z) + 1 - rfEval kL0 z| ≤ 125 / 10 ^ 15 := by
  have g := kF0_eval (kA0_pos h0 h1) (kA1_pos h0 h1) (kL0_pos h0 h1)
  have h := rf_boundP (kF0 kA0 kA1 kL0) [125] 1000000000000000 4096 0 [4096] [2048, 4096] (by simp) (by simp) (by norm_num) (by norm_num) kF0p_lit kF0m_lit kF0p_chk kF0m_chk g.2
    (by norm_num; linarith) (by norm_num; linarith) (by norm_num; linarith)
  rw [g.1] at h
  refine h.trans (le_of_eq ?_)
  simp only [polyEval]
  norm_num

def kG0p : List ℤ := [99098751617575225332499328949863136041073519999996718286122240000, -1286052512855930550608942910695395349446380941272401097479273440000, 11752842385731469334424835551199467164599099590867927557605733600000, -45451545632452818284165304547639664195021353574130512164552644800000, 84545702980605846907172201795327322186287947028899972612524433600000, -75061814333363127746913418806360647884819206475601357784134233440000, 25859605765154364680781070142586227413622405129015274157749862240000, -357283134261826562528202944568568885564922727820800000000000000000, 1733576523080782230567472688860122707212698957900000000000000000]

theorem kG0p_0 : chkPiece kG0p 4096 0 2048 = true := by decide +kernel

theorem kG0p_1 : chkPiece kG0p 4096 2048 4096 = true := by decide +kernel

theorem kG0p_chk : chkChain kG0p 4096 0 [2048, 4096] = true := chk_cons kG0p_0 (chk_cons kG0p_1 rfl)

theorem kG0p_lit : addL (mulL [30] (kG0 kL0 kL1).2) (smulL (1000000000000000) (kG0 kL0 kL1).1) = kG0p := by decide +kernel

def kG0m : List ℤ := [20901248382424760999500671050137382783642479999996718286122240000, 1280803596532859505143808492283889076803735710727598902520726560000, -11752738941131397089127907483993017637375088591772072442394266400000, 45451544477262959267587772070497627462843689873790287835447355200000, -84545702972905876828484891266410644265613389143316627387475566400000, 75061814333334065291259074274277218805692667495439442215865766560000, -25859605765154315324315446481754617181246373604815525842250137760000, 357283134261826562528202944568568885564922727820800000000000000000, -1733576523080782230567472688860122707212698957900000000000000000]

theorem kG0m_0 : chkPiece kG0m 4096 0 2048 = true := by decide +kernel

theorem kG0m_1 : chkPiece kG0m 4096 2048 4096 = true := by decide +kernel

theorem kG0m_chk : chkChain kG0m 4096 0 [2048, 4096] = true := chk_cons kG0m_0 (chk_cons kG0m_1 rfl)

theorem kG0m_lit : addL (mulL [30] (kG0 kL0 kL1).2) (smulL (-1000000000000000) (kG0 kL0 kL1).1) = kG0m := by decide +kernel

theorem kG0_small {z : ℝ} (h0 : 0 ≤ z) (h1 : z ≤ 1) : |rfEval kL1 z - 2 * rfD kL0 z| ≤ 30 / 10 ^ 15 := by
  have g := kG0_eval (kL0_pos h0 h1) (kL1_pos h0 h1)
  have h := rf_boundP (kG0 kL0 kL1) [30] 1000000000000000 4096 0 [2048, 4096] [2048, 4096] (by simp) (by simp) (by norm_num) (by norm_num) kG0p_lit kG0m_lit kG0p_chk kG0m_chk g.2
    (by norm_num; linarith) (by norm_num; linarith) (by norm_num; linarith)
  rw [g.1] at h
  refine h.trans (le_of_eq ?_)
  simp only [polyEval]
  norm_num

def kF1p : List ℤ := [16249856822115506235765634950087696797524577536224734783561372499994796934364440000000, -43856848279794984120439580937254465514522752110227444765334376459728779851606145000000, 677602180669597861575892096251988860573684911731653166106520396637926448008251195000000, -3842807569863582741484259708464898419058640357919673823032331089131901844727686765000000, 9964517643508952148483436628993736144856951954831173655426600359463771484665370175000000, -12698475089349028193950282336817285432513603694799214360403133000280324863192830515000000, 7622029700107623552898038017714791432943931501308155758316320187979842783960894945000000, -1705753197477302662239620453236827869295108098933135434368361369085374547929524895000000, 35138432367375162068429425120720745241537833025087452615907901505333272132767565000000, -273828045210329163556884455093981803811169634018171952221084011937500000000000000000, 808916988617046109800436777841213279437708626692927757535960523750000000000000000]

theorem kF1p_0 : chkPiece kF1p 4096 0 4096 = true := by decide +kernel

theorem kF1p_chk : chkChain kF1p 4096 0 [4096] = true := chk_cons kF1p_0 rfl

theorem kF1p_lit : addL (mulL [5] (kF1 kA1 kL1 kA0).2) (smulL (1000000000000000) (kF1 kA1 kL1 kA0).1) = kF1p := by decide +kernel

def kF1m : List ℤ := [15000143177884490967046865049912375081500422463775129435332252499994796934364440000000, 42066706445172386088008757867478419645875531801316012525276595290271220148393855000000, -677554691833950036104952095082641833112604889543053441007835552537073551991748805000000, 3842806815432782779334783480628381549983026110206401471029000227309348155272313235000000, -9964517635685485289853314952373966464183932225375880033450523637886116015334629825000000, 12698475089294870529506300777479358947421095756103133538628919194496410136807169485000000, -7622029700107378882396807758170583833052381967711639907702007225549269716039105055000000, 1705753197477302000627619974509464967501280721677660530443567657817725452070475105000000, -35138432367375161240977358325005967561198012464107301561531224414579227867232435000000, 273828045210329163556884455093981803811169634018171952221084011937500000000000000000, -808916988617046109800436777841213279437708626692927757535960523750000000000000000]

theorem kF1m_0 : chkPiece kF1m 4096 0 4096 = true := by decide +kernel

theorem kF1m_chk : chkChain kF1m 4096 0 [4096] = true := chk_cons kF1m_0 rfl

theorem kF1m_lit : addL (mulL [5] (kF1 kA1 kL1 kA0).2) (smulL (-1000000000000000) (kF1 kA1 kL1 kA0).1) = kF1m := by decide +kernel

theorem kF1_small {z : ℝ} (h0 : 0 ≤ z) (h1 : z ≤ 1) : |2 * rfEval kA1 z + 2 * z * rfD kA1 z + rfEval kL1 z + rfEval kA0 z| ≤ 5 / 10 ^ 15 := by
  have g := kF1_eval (kA1_pos h0 h1) (kL1_pos h0 h1) (kA0_pos h0 h1)
  have h := rf_boundP (kF1 kA1 kL1 kA0) [5] 1000000000000000 4096 0 [4096] [4096] (by simp) (by simp) (by norm_num) (by norm_num) kF1p_lit kF1m_lit kF1p_chk kF1m_chk g.2
    (by norm_num; linarith) (by norm_num; linarith) (by norm_num; linarith)
  rw [g.1] at h
  refine h.trans (le_of_eq ?_)
  simp only [polyEval]
  norm_num

def kG1p : List ℤ := [8006439999999999075668582400000035573247999999999543617028096000, 30386490434187495646309634151850803023339863773202277474279424000, -436538368269856133988728704969889317388790437152640072936578560000, 2262568653609642363754699720155594388352804104205912888182958080000, -5405478381605124552065489982692079542329746683671036795927618560000, 6333689184729455387487436277475803235600987487538966569979111424000, -3428551497043006951817498284098386056612791604440004410389179904000, 644903132492343421099883644465658815427056003488000000000000000000, -5093718854530991209573367627596477239761798102400000000000000000]

theorem kG1p_0 : chkPiece kG1p 4096 0 4096 = true := by decide +kernel

theorem kG1p_chk : chkChain kG1p 4096 0 [4096] = true := chk_cons kG1p_0 rfl

theorem kG1p_lit : addL (mulL [2] (kG1 kL1 kL0).2) (smulL (1000000000000000) (kG1 kL1 kL0).1) = kG1p := by decide +kernel

def kG1m : List ℤ := [7993559999999999076171417600000035573247999999999543617028096000, -31049343609773077818905804771928315258967720226797722525720576000, 436550713550434696023297695124891254255391194847359927063421440000, -2262568783691648879864188292401651191537113093106087111817041920000, 5405478382422073146239467022918763048494953460226563204072381440000, -6333689184732357366198644144398067003441667718886633430020888576000, 3428551497043011580756968121379271922807139018171195589610820096000, -644903132492343421099883644465658815427056003488000000000000000000, 5093718854530991209573367627596477239761798102400000000000000000]

theorem kG1m_0 : chkPiece kG1m 4096 0 2048 = true := by decide +kernel

theorem kG1m_1 : chkPiece kG1m 4096 2048 4096 = true := by decide +kernel

theorem kG1m_chk : chkChain kG1m 4096 0 [2048, 4096] = true := chk_cons kG1m_0 (chk_cons kG1m_1 rfl)

theorem kG1m_lit : addL (mulL [2] (kG1 kL1 kL0).2) (smulL (-1000000000000000) (kG1 kL1 kL0).1) = kG1m := by decide +kernel

theorem kG1_small {z : ℝ} (h0 : 0 ≤ z) (h1 : z ≤ 1) : |2 * rfEval kL1 z + 2 * z * rfD kL1 z - rfEval kL0 z| ≤ 2 / 10 ^ 15 := by
  have g := kG1_eval (kL1_pos h0 h1) (kL0_pos h0 h1)
  have h := rf_boundP (kG1 kL1 kL0) [2] 1000000000000000 4096 0 [4096] [2048, 4096] (by simp) (by simp) (by norm_num) (by norm_num) kG1p_lit kG1m_lit kG1p_chk kG1m_chk g.2
    (by norm_num; linarith) (by norm_num; linarith) (by norm_num; linarith)
  rw [g.1] at h
  refine h.trans (le_of_eq ?_)
  simp only [polyEval]
  norm_num


/-- the approximations for `x ≤ 1` -/
noncomputable def skS0 (x : ℝ) : ℝ := rfEval kA0 (x ^ 2) - rfEval kL0 (x ^ 2) * log x
noncomputable def skS1 (x : ℝ) : ℝ := x * (rfEval kA1 (x ^ 2) + rfEval kL1 (x ^ 2) * log x) + 1 / x

theorem besK0Small_eq (x : ℝ) : besK0Small x = .ok (skS0 x) := by
  simp only [besK0Small, modPoly, modPolyLoop, modK0PI, modK0QI, modK0P, modK0Q, List.getElem?_cons_succ, List.getElem?_cons_zero]
  show Res.ok _ = _
  congr 1
  rw [skS0, kA0_code, kL0_code, sq]
  ring

theorem besK1Small_eq (x : ℝ) : besK1Small x = .ok (skS1 x) := by
  simp only [besK1Small, modPoly, modPolyLoop, modK1PI, modK1QI, modK1P, modK1Q, List.getElem?_cons_succ, List.getElem?_cons_zero]
  show Res.ok _ = _
  congr 1
  rw [skS1, kA1_code, kL1_code, sq]
  ring

theorem rf_sq_deriv (f : RF) {x : ℝ} (h : 0 < polyEval f.2 (x ^ 2)) : HasDerivAt (fun x => rfEval f (x ^ 2)) (2 * x * rfD f (x ^ 2)) x := by
  have h2 : HasDerivAt (fun x : ℝ => x ^ 2) (2 * x) x := by simpa using hasDerivAt_pow 2 x
  refine (HasDerivAt.comp (h₂ := rfEval f) (h := fun x : ℝ => x ^ 2) x (rfD_deriv f h) h2).congr_deriv ?_
  ring

noncomputable def kRho0 (x : ℝ) : ℝ := 1 / x * (x ^ 2 * (2 * rfD kA0 (x ^ 2) + rfEval kA1 (x ^ 2)) + 1 - rfEval kL0 (x ^ 2) + x ^ 2 * log x * (rfEval kL1 (x ^ 2) - 2 * rfD kL0 (x ^ 2)))
noncomputable def kRho1 (x : ℝ) : ℝ := 2 * rfEval kA1 (x ^ 2) + 2 * x ^ 2 * rfD kA1 (x ^ 2) + rfEval kL1 (x ^ 2) + rfEval kA0 (x ^ 2) + log x * (2 * rfEval kL1 (x ^ 2) + 2 * x ^ 2 * rfD kL1 (x ^ 2) - rfEval kL0 (x ^ 2))

theorem skS0_deriv {x : ℝ} (h0 : 0 < x) (h1 : x ≤ 1) : HasDerivAt skS0 (-skS1 x + kRho0 x) x := by
  have z0 := sq_nonneg x
  have z1 : x ^ 2 ≤ 1 := pow_le_one₀ h0.le h1
  refine HasDerivAt.congr_deriv (f := skS0) ((rf_sq_deriv kA0 (kA0_pos z0 z1)).sub ((rf_sq_deriv kL0 (kL0_pos z0 z1)).mul (hasDerivAt_log h0.ne'))) ?_
  unfold skS1 kRho0
  field_simp
  ring

theorem skS1_deriv {x : ℝ} (h0 : 0 < x) (h1 : x ≤ 1) : HasDerivAt skS1 (-skS0 x - skS1 x * (1 / x) + kRho1 x) x := by
  have z0 := sq_nonneg x
  have z1 : x ^ 2 ≤ 1 := pow_le_one₀ h0.le h1
  refine HasDerivAt.congr_deriv (f := skS1) (((hasDerivAt_id x).mul ((rf_sq_deriv kA1 (kA1_pos z0 z1)).add ((rf_sq_deriv kL1 (kL1_pos z0 z1)).mul (hasDerivAt_log h0.ne')))).add (inv_deriv' h0)) ?_
  unfold skS0 skS1 kRho1
  simp only [id_eq, Pi.add_apply, Pi.mul_apply]
  field_simp
  ring

theorem mul_log_small {x : ℝ} (h0 : 0 < x) (h1 : x ≤ 1) : |x * log x| ≤ 1 := by
  have h := log_le_sub_one_of_pos (inv_pos.2 h0)
  rw [log_inv] at h
  have h2 := mul_le_mul_of_nonneg_left h h0.le
  rw [mul_sub, mul_inv_cancel₀ h0.ne'] at h2
  have h3 := mul_nonpos_of_nonneg_of_nonpos h0.le (log_nonpos h0.le h1)
  rw [abs_le]
  constructor <;> linarith

theorem kRho0_small {x : ℝ} (h0 : 0 < x) (h1 : x ≤ 1) : |x * kRho0 x| ≤ 155 / 10 ^ 15 := by
  have z0 := sq_nonneg x
  have z1 : x ^ 2 ≤ 1 := pow_le_one₀ h0.le h1
  have a := kF0_small z0 z1
  have b := kG0_small z0 z1
  have c : |x ^ 2 * log x| ≤ 1 := by
    rw [sq, mul_assoc, abs_mul, abs_of_pos h0]
    exact mul_le_one₀ h1 (abs_nonneg _) (mul_log_small h0 h1)
  have d := mul_le_mul c b (abs_nonneg _) zero_le_one
  rw [← abs_mul] at d
  rw [kRho0, ← mul_assoc, mul_one_div_cancel h0.ne', one_mul]
  refine (abs_add_le _ _).trans ((add_le_add a d).trans ?_)
  norm_num

theorem kRho1_small {x : ℝ} (h0 : 0 < x) (h1 : x ≤ 1) : |x * kRho1 x| ≤ 7 / 10 ^ 15 := by
  have z0 := sq_nonneg x
  have z1 : x ^ 2 ≤ 1 := pow_le_one₀ h0.le h1
  have a := mul_le_mul ((abs_of_pos h0).le.trans h1) (kF1_small z0 z1) (abs_nonneg _) zero_le_one
  have d := mul_le_mul (mul_log_small h0 h1) (kG1_small z0 z1) (abs_nonneg _) zero_le_one
  rw [← abs_mul] at a d
  rw [kRho1, mul_add, ← mul_assoc x (log x)]
  refine (abs_add_le _ _).trans ((add_le_add a d).trans ?_)
  norm_num

theorem besselI_zero_small {x : ℝ} (h0 : 0 < x) (h1 : x ≤ 1) : besselI 0 x ≤ 13 / 10 := by
  have a := abs_le.1 (bIT0_near (x := x) (by rw [abs_of_pos h0]; linarith))
  have z1 : x ^ 2 ≤ 1 := pow_le_one₀ h0.le h1
  have c := chkChain_sound (l := addL [127 * 126056427015434537062364351255539470784786367991447338352625481901876491755393394933760000000000000000] (smulL (-100) bIT0)) (d := 4096) (by norm_num) 0 [4096] (by simp) (by decide +kernel) (x := x ^ 2) (by rw [Int.cast_zero, zero_div]; exact sq_nonneg x) (by norm_num only [List.getLast_singleton]; push_cast; linarith)
  simp only [polyEval_add, polyEval_smul, polyEval] at c
  have e : polyEval bIT0 (x ^ 2) / 126056427015434537062364351255539470784786367991447338352625481901876491755393394933760000000000000000 ≤ 127 / 100 := by
    rw [div_le_iff₀ (by norm_num)]
    push_cast at c
    linarith
  generalize polyEval bIT0 (x ^ 2) / 126056427015434537062364351255539470784786367991447338352625481901876491755393394933760000000000000000 = T at *
  norm_num at a
  linarith [a.1]

theorem besselI_ones : 5 / 4 ≤ besselI 0 1 ∧ 1 / 2 ≤ besselI 1 1 := by
  have hs := fun n => (besTerm_summable 1 n ((1 : ℝ) / 2))
  constructor
  · have := (hs 0).sum_le_tsum (Finset.range 2) (fun m _ => by unfold besTerm; positivity)
    unfold besselI bes
    refine le_trans (le_of_eq ?_) this
    norm_num [Finset.sum_range_succ, besTerm]
  · have := (hs 1).sum_le_tsum (Finset.range 1) (fun m _ => by unfold besTerm; positivity)
    unfold besselI bes
    refine le_trans (le_of_eq ?_) this
    norm_num [Finset.sum_range_succ, besTerm]

theorem besselK_zero_le_one {x : ℝ} (hx : 0 < x) : besselK 0 x ≤ besselK 1 x := by
  have hi : ∀ k : ℕ, MeasureTheory.IntegrableOn (fun t => exp (-x * cosh t) * cosh (k * t)) (Ioi 0) := fun k =>
    kn_integrable hx k _ (by fun_prop) fun t ht => abs_cosh_le k ht
  unfold besselK
  refine MeasureTheory.integral_mono (hi 0) (hi 1) fun t => ?_
  simp only [Nat.cast_zero, zero_mul, cosh_zero, Nat.cast_one, one_mul]
  exact mul_le_mul_of_nonneg_left (one_le_cosh t) (exp_pos _).le

theorem besselK_zero_anti {x : ℝ} (h0 : 0 < x) (h1 : x ≤ 1) : besselK 0 1 ≤ besselK 0 x := by
  have : AntitoneOn (besselK 0) (Icc x 1) := antitoneOn_of_hasDerivWithinAt_nonpos (convex_Icc x 1)
    (fun y hy => (besselK_zero_deriv (h0.trans_le hy.1)).continuousAt.continuousWithinAt)
    (fun y hy => (besselK_zero_deriv (h0.trans_le (interior_subset hy).1)).hasDerivWithinAt)
    (fun y hy => neg_nonpos.2 (besselK_pos (h0.trans_le (interior_subset hy).1) 1).le)
  exact this ⟨le_rfl, h1⟩ ⟨h1, le_rfl⟩ h1

theorem skS0_one : |skS0 1 - besselK 0 1| ≤ 125 / 10 ^ 15 ∧ 42 / 100 ≤ besselK 0 1 ∧ besselK 0 1 ≤ 43 / 100 := by
  have h := kR0_err (le_refl (1 : ℝ))
  have e := abs_le.1 exp_one_near_20
  have hr : rfEval kR0 (1 / 1) = 7946057945865312044 / 6943044372568177275 := by
    simp only [rfEval, kR0, polyEval]
    norm_num
  have hs : skS0 1 = 414130149242670463137 / 983624967170918300000 := by
    simp only [skS0, rfEval, kA0, polyEval, log_one]
    norm_num
  have hw : kW 0 1 = exp 1 * besselK 0 1 := by rw [kW, sqrt_one, one_mul]
  rw [hr, hw] at h
  rw [hs]
  have hK := besselK_pos one_pos 0
  generalize exp 1 = E at *
  generalize besselK 0 1 = κ at *
  have h' := abs_le.1 h
  obtain ⟨a, b⟩ := h'
  obtain ⟨c, d⟩ := e
  norm_num at a b c d ⊢
  have up : κ ≤ 43 / 100 := by
    by_contra hc
    norm_num at hc
    nlinarith
  have lw : 42 / 100 ≤ κ := by
    by_contra hc
    norm_num at hc
    nlinarith
  norm_num at up lw
  refine ⟨abs_le.2 ⟨?_, ?_⟩, lw, up⟩
  · by_contra hc
    nlinarith
  · by_contra hc
    nlinarith

theorem skS1_one : |skS1 1 - besselK 1 1| ≤ 270 / 10 ^ 15 ∧ 6 / 10 ≤ besselK 1 1 ∧ besselK 1 1 ≤ 61 / 100 := by
  have h := kR1_err (le_refl (1 : ℝ))
  have e := abs_le.1 exp_one_near_20
  have hr : rfEval kR1 (1 / 1) = 17319257416092253705 / 10585350067399234536 := by
    simp only [rfEval, kR1, polyEval]
    norm_num
  have hs : skS1 1 = 247329027122145157933 / 410908882156307875000 := by
    simp only [skS1, rfEval, kA1, polyEval, log_one]
    norm_num
  have hw : kW 1 1 = exp 1 * besselK 1 1 := by rw [kW, sqrt_one, one_mul]
  rw [hr, hw] at h
  rw [hs]
  have hK := besselK_pos one_pos 1
  generalize exp 1 = E at *
  generalize besselK 1 1 = κ at *
  have h' := abs_le.1 h
  obtain ⟨a, b⟩ := h'
  obtain ⟨c, d⟩ := e
  norm_num at a b c d ⊢
  have up : κ ≤ 61 / 100 := by
    by_contra hc
    norm_num at hc
    nlinarith
  have lw : 6 / 10 ≤ κ := by
    by_contra hc
    norm_num at hc
    nlinarith
  norm_num at up lw
  refine ⟨abs_le.2 ⟨?_, ?_⟩, lw, up⟩
  · by_contra hc
    nlinarith
  · by_contra hc
    nlinarith

/-- the Wronskian of the error with `I₀`, `I₁` -/
noncomputable def kWa (x : ℝ) : ℝ := x * ((skS0 x - besselK 0 x) * besselI 1 x + (skS1 x - besselK 1 x) * besselI 0 x)
/-- the Wronskian of the error with `K₀`, `K₁` -/
noncomputable def kWb (x : ℝ) : ℝ := x * ((skS0 x - besselK 0 x) * besselK 1 x - (skS1 x - besselK 1 x) * besselK 0 x)
noncomputable def kWc (x : ℝ) : ℝ := x * (besselI 1 x * besselK 0 x + besselI 0 x * besselK 1 x)

theorem kWa_deriv {x : ℝ} (h0 : 0 < x) (h1 : x ≤ 1) : HasDerivAt kWa (x * kRho0 x * besselI 1 x + x * kRho1 x * besselI 0 x) x := by
  have d0 := (skS0_deriv h0 h1).sub (besselK_zero_deriv h0)
  have d1 := (skS1_deriv h0 h1).sub (besselK_one_deriv h0)
  refine HasDerivAt.congr_deriv (f := kWa) ((hasDerivAt_id x).mul ((d0.mul (besselI_one_deriv h0)).add (d1.mul (besselI_zero_deriv x)))) ?_
  simp only [id_eq, Pi.add_apply, Pi.mul_apply, Pi.sub_apply]
  field_simp
  ring

theorem kWb_deriv {x : ℝ} (h0 : 0 < x) (h1 : x ≤ 1) : HasDerivAt kWb (x * kRho0 x * besselK 1 x - x * kRho1 x * besselK 0 x) x := by
  have d0 := (skS0_deriv h0 h1).sub (besselK_zero_deriv h0)
  have d1 := (skS1_deriv h0 h1).sub (besselK_one_deriv h0)
  refine HasDerivAt.congr_deriv (f := kWb) ((hasDerivAt_id x).mul ((d0.mul (besselK_one_deriv h0)).sub (d1.mul (besselK_zero_deriv h0)))) ?_
  simp only [id_eq, Pi.add_apply, Pi.mul_apply, Pi.sub_apply]
  field_simp
  ring

theorem kWc_deriv {x : ℝ} (h0 : 0 < x) : HasDerivAt kWc 0 x := by
  refine HasDerivAt.congr_deriv (f := kWc) ((hasDerivAt_id x).mul (((besselI_one_deriv h0).mul (besselK_zero_deriv h0)).add ((besselI_zero_deriv x).mul (besselK_one_deriv h0)))) ?_
  simp only [id_eq, Pi.add_apply, Pi.mul_apply, Pi.sub_apply]
  field_simp
  ring

theorem kWc_ge {x : ℝ} (h0 : 0 < x) (h1 : x ≤ 1) : 95 / 100 ≤ kWc x := by
  have : kWc 1 = kWc x := by
    have := constant_of_has_deriv_right_zero (f := kWc) (a := x) (b := 1) (fun y hy => (kWc_deriv (h0.trans_le hy.1)).continuousAt.continuousWithinAt)
      (fun y hy => (kWc_deriv (h0.trans_le hy.1)).hasDerivWithinAt)
    exact this 1 ⟨h1, le_rfl⟩
  rw [← this, kWc, one_mul]
  obtain ⟨a, b⟩ := besselI_ones
  have c := skS0_one.2.1
  have d := skS1_one.2.1
  have p := mul_le_mul b c (by norm_num) (by linarith)
  have q := mul_le_mul a d (by norm_num) (by linarith)
  norm_num at p q
  linarith

theorem kWa_le {x : ℝ} (h0 : 0 < x) (h1 : x ≤ 1) : |kWa x| ≤ 645 / 10 ^ 15 := by
  have hI1 : ∀ y, 0 < y → y ≤ 1 → |besselI 1 y| ≤ 65 / 100 ∧ |besselI 0 y| ≤ 13 / 10 := by
    intro y y0 y1
    have a := besselI_zero_small y0 y1
    have b := besselI_ratio 0 y0
    have c := besselI_pos 0 y0
    have d := besselI_pos 1 y0
    rw [abs_of_pos c, abs_of_pos d]
    refine ⟨?_, a⟩
    norm_num at b
    nlinarith
  have hd : ∀ y ∈ Icc x 1, ‖x * 0 + (y * kRho0 y * besselI 1 y + y * kRho1 y * besselI 0 y)‖ ≤ 120 / 10 ^ 15 := by
    intro y hy
    have y0 := h0.trans_le hy.1
    obtain ⟨a, b⟩ := hI1 y y0 hy.2
    have p := mul_le_mul (kRho0_small y0 hy.2) a (abs_nonneg _) (by norm_num)
    have q := mul_le_mul (kRho1_small y0 hy.2) b (abs_nonneg _) (by norm_num)
    rw [← abs_mul] at p q
    rw [mul_zero, zero_add, norm_eq_abs]
    refine (abs_add_le _ _).trans ((add_le_add p q).trans ?_)
    norm_num
  have m := (convex_Icc x 1).norm_image_sub_le_of_norm_hasDerivWithin_le (f := kWa) (fun y hy => (kWa_deriv (h0.trans_le hy.1) hy.2).hasDerivWithinAt)
    (fun y hy => by have := hd y hy; rwa [mul_zero, zero_add] at this) (⟨h1, le_rfl⟩ : (1 : ℝ) ∈ Icc x 1) (⟨le_rfl, h1⟩ : x ∈ Icc x 1)
  rw [norm_eq_abs, norm_eq_abs, abs_sub_comm x 1, abs_of_nonneg (a := 1 - x) (by linarith)] at m
  obtain ⟨a, b⟩ := hI1 1 one_pos le_rfl
  have p := mul_le_mul skS0_one.1 a (abs_nonneg _) (by norm_num)
  have q := mul_le_mul skS1_one.1 b (abs_nonneg _) (by norm_num)
  rw [← abs_mul] at p q
  have r : |kWa 1| ≤ 125 / 10 ^ 15 * (65 / 100) + 270 / 10 ^ 15 * (13 / 10) := by
    rw [kWa, one_mul]
    exact (abs_add_le _ _).trans (add_le_add p q)
  have s := abs_sub_abs_le_abs_sub (kWa x) (kWa 1)
  norm_num at m r ⊢
  linarith

theorem kWb_le {x : ℝ} (h0 : 0 < x) (h1 : x ≤ 1) : |kWb x| ≤ 195 / 10 ^ 15 + 162 / 10 ^ 15 * besselK 0 x := by
  have hd : ∀ y, 0 < y → y ≤ 1 → |y * kRho0 y * besselK 1 y - y * kRho1 y * besselK 0 y| ≤ 162 / 10 ^ 15 * besselK 1 y := by
    intro y y0 y1
    have a := besselK_pos y0 0
    have b := besselK_pos y0 1
    have c := besselK_zero_le_one y0
    have p := mul_le_mul_of_nonneg_right (kRho0_small y0 y1) b.le
    have q := mul_le_mul (kRho1_small y0 y1) c a.le (by norm_num)
    refine (abs_sub _ _).trans ?_
    rw [abs_mul _ (besselK 1 y), abs_mul _ (besselK 0 y), abs_of_pos a, abs_of_pos b]
    norm_num at p q ⊢
    linarith
  have cB : ∀ y ∈ Icc x 1, ContinuousAt kWb y := fun y hy => (kWb_deriv (h0.trans_le hy.1) hy.2).continuousAt
  have cK : ∀ y ∈ Icc x 1, ContinuousAt (besselK 0) y := fun y hy => (besselK_zero_deriv (h0.trans_le hy.1)).continuousAt
  have up : AntitoneOn (fun y => kWb y + 162 / 10 ^ 15 * besselK 0 y) (Icc x 1) := antitoneOn_of_hasDerivWithinAt_nonpos (convex_Icc x 1)
    (fun y hy => ((cB y hy).add ((cK y hy).const_mul _)).continuousWithinAt)
    (fun y hy => ((kWb_deriv (h0.trans_le (interior_subset hy).1) (interior_subset hy).2).add ((besselK_zero_deriv (h0.trans_le (interior_subset hy).1)).const_mul _)).hasDerivWithinAt)
    (fun y hy => by
      have := (abs_le.1 (hd y (h0.trans_le (interior_subset hy).1) (interior_subset hy).2)).2
      linarith)
  have dn : MonotoneOn (fun y => kWb y - 162 / 10 ^ 15 * besselK 0 y) (Icc x 1) := monotoneOn_of_hasDerivWithinAt_nonneg (convex_Icc x 1)
    (fun y hy => ((cB y hy).sub ((cK y hy).const_mul _)).continuousWithinAt)
    (fun y hy => ((kWb_deriv (h0.trans_le (interior_subset hy).1) (interior_subset hy).2).sub ((besselK_zero_deriv (h0.trans_le (interior_subset hy).1)).const_mul _)).hasDerivWithinAt)
    (fun y hy => by
      have := (abs_le.1 (hd y (h0.trans_le (interior_subset hy).1) (interior_subset hy).2)).1
      linarith)
  have u := up ⟨le_rfl, h1⟩ ⟨h1, le_rfl⟩ h1
  have d := dn ⟨le_rfl, h1⟩ ⟨h1, le_rfl⟩ h1
  obtain ⟨a0, a1, a2⟩ := skS0_one
  obtain ⟨b0, b1, b2⟩ := skS1_one
  have k0 := besselK_pos one_pos 0
  have k1 := besselK_pos one_pos 1
  have p := mul_le_mul a0 b2 k1.le (by norm_num)
  have q := mul_le_mul b0 a2 k0.le (by norm_num)
  have r : |kWb 1| ≤ 125 / 10 ^ 15 * (61 / 100) + 270 / 10 ^ 15 * (43 / 100) := by
    rw [kWb, one_mul]
    refine (abs_sub _ _).trans ?_
    rw [abs_mul _ (besselK 1 1), abs_mul _ (besselK 0 1), abs_of_pos k0, abs_of_pos k1]
    exact add_le_add p q
  have r' := abs_le.1 r
  simp only at u d
  rw [abs_le]
  norm_num at r' u d ⊢
  constructor <;> linarith [r'.1, r'.2]

theorem besK0Small_acc {x : ℝ} (h0 : 0 < x) (h1 : x ≤ 1) : ∃ y, besK0Small x = .ok y ∧ |y - besselK 0 x| ≤ 16 / 10 ^ 13 * besselK 0 x := by
  refine ⟨_, besK0Small_eq x, ?_⟩
  have c := kWc_ge h0 h1
  have e : kWc x * (skS0 x - besselK 0 x) = kWa x * besselK 0 x + kWb x * besselI 0 x := by
    unfold kWa kWb kWc
    ring
  have k0 := besselK_pos h0 0
  have i0 := besselI_pos 0 h0
  have hk : 42 / 100 ≤ besselK 0 x := skS0_one.2.1.trans (besselK_zero_anti h0 h1)
  have p := mul_le_mul_of_nonneg_right (kWa_le h0 h1) k0.le
  have q := mul_le_mul (kWb_le h0 h1) (besselI_zero_small h0 h1) i0.le (by positivity)
  have r : kWc x * |skS0 x - besselK 0 x| ≤ 645 / 10 ^ 15 * besselK 0 x + (195 / 10 ^ 15 + 162 / 10 ^ 15 * besselK 0 x) * (13 / 10) := by
    rw [← abs_of_pos (a := kWc x) (by linarith), ← abs_mul, e]
    refine (abs_add_le _ _).trans ?_
    rw [abs_mul, abs_mul, abs_of_pos k0, abs_of_pos i0]
    exact add_le_add p q
  have s := mul_le_mul_of_nonneg_right c (abs_nonneg (skS0 x - besselK 0 x))
  generalize |skS0 x - besselK 0 x| = t at *
  norm_num at r s hk ⊢
  linarith

theorem besK1Small_acc {x : ℝ} (h0 : 0 < x) (h1 : x ≤ 1) : ∃ y, besK1Small x = .ok y ∧ |y - besselK 1 x| ≤ 12 / 10 ^ 13 * besselK 1 x := by
  refine ⟨_, besK1Small_eq x, ?_⟩
  have c := kWc_ge h0 h1
  have e : kWc x * (skS1 x - besselK 1 x) = kWa x * besselK 1 x - kWb x * besselI 1 x := by
    unfold kWa kWb kWc
    ring
  have k1 := besselK_pos h0 1
  have i1 := besselI_pos 1 h0
  have k01 := besselK_zero_le_one h0
  have hk : 42 / 100 ≤ besselK 0 x := skS0_one.2.1.trans (besselK_zero_anti h0 h1)
  have hi : besselI 1 x ≤ 65 / 100 := by
    have a := besselI_zero_small h0 h1
    have b := besselI_ratio 0 h0
    have i0 := besselI_pos 0 h0
    norm_num at b
    nlinarith
  have p := mul_le_mul_of_nonneg_right (kWa_le h0 h1) k1.le
  have q := mul_le_mul (kWb_le h0 h1) hi i1.le (by positivity)
  have r : kWc x * |skS1 x - besselK 1 x| ≤ 645 / 10 ^ 15 * besselK 1 x + (195 / 10 ^ 15 + 162 / 10 ^ 15 * besselK 0 x) * (65 / 100) := by
    rw [← abs_of_pos (a := kWc x) (by linarith), ← abs_mul, e]
    refine (abs_sub _ _).trans ?_
    rw [abs_mul, abs_mul, abs_of_pos k1, abs_of_pos i1]
    exact add_le_add p q
  have s := mul_le_mul_of_nonneg_right c (abs_nonneg (skS1 x - besselK 1 x))
  generalize |skS1 x - besselK 1 x| = t at *
  norm_num at r s hk ⊢
  linarith

end Russell.Lab
