import Verif.Lab.BesselAcc
import Verif.Lab.Gamma
import Verif.Prelude

/-!
# Bessel functions `J₀` and `J₁` (property C117)

/repo/russell_lab/src/math/bessel_0.rs and bessel_1.rs. Arithmetic, `sin`, `cos` and `sqrt` are the real ones; `SQRT_PI` is `√π`. The coefficients are the
decimals of the source. The array accesses `p[0] … p[5]` and `q[0] … q[5]` of the nested forms are the evaluation of the whole list.
-/

namespace Russell.Lab

open Russell Real Set Filter Topology

/-- nested evaluation `c₀ + z (c₁ + z (…))` (bessel_0.rs:350-351, 457-458, bessel_1.rs:353-354, 460-461) -/
noncomputable def nestL : List ℝ → ℝ → ℝ
  | [], _ => 0
  | c :: l, z => c + z * nestL l z

/-- `P0R8` (bessel_0.rs:270-277) -/
noncomputable def besP0R8 : List ℝ := [0.00000000000000000000e+00, (-7.03124999999900357484e-02), (-8.08167041275349795626e+00), (-2.57063105679704847262e+02), (-2.48521641009428822144e+03), (-5.25304380490729545272e+03)]

/-- `P0S8` (bessel_0.rs:278-284) -/
noncomputable def besP0S8 : List ℝ := [1.16534364619668181717e+02, 3.83374475364121826715e+03, 4.05978572648472545552e+04, 1.16752972564375915681e+05, 4.76277284146730962675e+04]

/-- `P0R5` (bessel_0.rs:287-294) -/
noncomputable def besP0R5 : List ℝ := [(-1.14125464691894502584e-11), (-7.03124940873599280078e-02), (-4.15961064470587782438e+00), (-6.76747652265167261021e+01), (-3.31231299649172967747e+02), (-3.46433388365604912451e+02)]

/-- `P0S5` (bessel_0.rs:295-301) -/
noncomputable def besP0S5 : List ℝ := [6.07539382692300335975e+01, 1.05125230595704579173e+03, 5.97897094333855784498e+03, 9.62544514357774460223e+03, 2.40605815922939109441e+03]

/-- `P0R3` (bessel_0.rs:304-311) -/
noncomputable def besP0R3 : List ℝ := [(-2.54704601771951915620e-09), (-7.03119616381481654654e-02), (-2.40903221549529611423e+00), (-2.19659774734883086467e+01), (-5.80791704701737572236e+01), (-3.14479470594888503854e+01)]

/-- `P0S3` (bessel_0.rs:312-318) -/
noncomputable def besP0S3 : List ℝ := [3.58560338055209726349e+01, 3.61513983050303863820e+02, 1.19360783792111533330e+03, 1.12799679856907414432e+03, 1.73580930813335754692e+02]

/-- `P0R2` (bessel_0.rs:321-328) -/
noncomputable def besP0R2 : List ℝ := [(-8.87534333032526411254e-08), (-7.03030995483624743247e-02), (-1.45073846780952986357e+00), (-7.63569613823527770791e+00), (-1.11931668860356747786e+01), (-3.23364579351335335033e+00)]

/-- `P0S2` (bessel_0.rs:329-335) -/
noncomputable def besP0S2 : List ℝ := [2.22202997532088808441e+01, 1.36206794218215208048e+02, 2.70470278658083486789e+02, 1.53875394208320329881e+02, 1.46576176948256193810e+01]

/-- `Q0R8` (bessel_0.rs:373-380) -/
noncomputable def besQ0R8 : List ℝ := [0.00000000000000000000e+00, 7.32421874999935051953e-02, 1.17682064682252693899e+01, 5.57673380256401856059e+02, 8.85919720756468632317e+03, 3.70146267776887834771e+04]

/-- `Q0S8` (bessel_0.rs:381-388) -/
noncomputable def besQ0S8 : List ℝ := [1.63776026895689824414e+02, 8.09834494656449805916e+03, 1.42538291419120476348e+05, 8.03309257119514397345e+05, 8.40501579819060512818e+05, (-3.43899293537866615225e+05)]

/-- `Q0R5` (bessel_0.rs:391-398) -/
noncomputable def besQ0R5 : List ℝ := [1.84085963594515531381e-11, 7.32421766612684765896e-02, 5.83563508962056953777e+00, 1.35111577286449829671e+02, 1.02724376596164097464e+03, 1.98997785864605384631e+03]

/-- `Q0S5` (bessel_0.rs:399-406) -/
noncomputable def besQ0S5 : List ℝ := [8.27766102236537761883e+01, 2.07781416421392987104e+03, 1.88472887785718085070e+04, 5.67511122894947329769e+04, 3.59767538425114471465e+04, (-5.35434275601944773371e+03)]

/-- `Q0R3` (bessel_0.rs:409-416) -/
noncomputable def besQ0R3 : List ℝ := [4.37741014089738620906e-09, 7.32411180042911447163e-02, 3.34423137516170720929e+00, 4.26218440745412650017e+01, 1.70808091340565596283e+02, 1.66733948696651168575e+02]

/-- `Q0S3` (bessel_0.rs:417-424) -/
noncomputable def besQ0S3 : List ℝ := [4.87588729724587182091e+01, 7.09689221056606015736e+02, 3.70414822620111362994e+03, 6.46042516752568917582e+03, 2.51633368920368957333e+03, (-1.49247451836156386662e+02)]

/-- `Q0R2` (bessel_0.rs:427-434) -/
noncomputable def besQ0R2 : List ℝ := [1.50444444886983272379e-07, 7.32234265963079278272e-02, 1.99819174093815998816e+00, 1.44956029347885735348e+01, 3.16662317504781540833e+01, 1.62527075710929267416e+01]

/-- `Q0S2` (bessel_0.rs:435-442) -/
noncomputable def besQ0S2 : List ℝ := [3.03655848355219184498e+01, 2.69348118608049844624e+02, 8.44783757595320139444e+02, 8.82935845112488550512e+02, 2.12666388511798828631e+02, (-5.31095493882666946917e+00)]

/-- `P1R8` (bessel_1.rs:273-280) -/
noncomputable def besP1R8 : List ℝ := [0.00000000000000000000e+00, 1.17187499999988647970e-01, 1.32394806593073575129e+01, 4.12051854307378562225e+02, 3.87474538913960532227e+03, 7.91447954031891731574e+03]

/-- `P1S8` (bessel_1.rs:281-287) -/
noncomputable def besP1S8 : List ℝ := [1.14207370375678408436e+02, 3.65093083420853463394e+03, 3.69562060269033463555e+04, 9.76027935934950801311e+04, 3.08042720627888811578e+04]

/-- `P1R5` (bessel_1.rs:290-297) -/
noncomputable def besP1R5 : List ℝ := [1.31990519556243522749e-11, 1.17187493190614097638e-01, 6.80275127868432871736e+00, 1.08308182990189109773e+02, 5.17636139533199752805e+02, 5.28715201363337541807e+02]

/-- `P1S5` (bessel_1.rs:298-304) -/
noncomputable def besP1S5 : List ℝ := [5.92805987221131331921e+01, 9.91401418733614377743e+02, 5.35326695291487976647e+03, 7.84469031749551231769e+03, 1.50404688810361062679e+03]

/-- `P1R3` (bessel_1.rs:307-314) -/
noncomputable def besP1R3 : List ℝ := [3.02503916137373618024e-09, 1.17186865567253592491e-01, 3.93297750033315640650e+00, 3.51194035591636932736e+01, 9.10550110750781271918e+01, 4.85590685197364919645e+01]

/-- `P1S3` (bessel_1.rs:315-321) -/
noncomputable def besP1S3 : List ℝ := [3.47913095001251519989e+01, 3.36762458747825746741e+02, 1.04687139975775130551e+03, 8.90811346398256432622e+02, 1.03787932439639277504e+02]

/-- `P1R2` (bessel_1.rs:324-331) -/
noncomputable def besP1R2 : List ℝ := [1.07710830106873743082e-07, 1.17176219462683348094e-01, 2.36851496667608785174e+00, 1.22426109148261232917e+01, 1.76939711271687727390e+01, 5.07352312588818499250e+00]

/-- `P1S2` (bessel_1.rs:332-338) -/
noncomputable def besP1S2 : List ℝ := [2.14364859363821409488e+01, 1.25290227168402751090e+02, 2.32276469057162813669e+02, 1.17679373287147100768e+02, 8.36463893371618283368e+00]

/-- `Q1R8` (bessel_1.rs:376-383) -/
noncomputable def besQ1R8 : List ℝ := [0.00000000000000000000e+00, (-1.02539062499992714161e-01), (-1.62717534544589987888e+01), (-7.59601722513950107896e+02), (-1.18498066702429587167e+04), (-4.84385124285750353010e+04)]

/-- `Q1S8` (bessel_1.rs:384-391) -/
noncomputable def besQ1S8 : List ℝ := [1.61395369700722909556e+02, 7.82538599923348465381e+03, 1.33875336287249578163e+05, 7.19657723683240939863e+05, 6.66601232617776375264e+05, (-2.94490264303834643215e+05)]

/-- `Q1R5` (bessel_1.rs:394-401) -/
noncomputable def besQ1R5 : List ℝ := [(-2.08979931141764104297e-11), (-1.02539050241375426231e-01), (-8.05644828123936029840e+00), (-1.83669607474888380239e+02), (-1.37319376065508163265e+03), (-2.61244440453215656817e+03)]

/-- `Q1S5` (bessel_1.rs:402-409) -/
noncomputable def besQ1S5 : List ℝ := [8.12765501384335777857e+01, 1.99179873460485964642e+03, 1.74684851924908907677e+04, 4.98514270910352279316e+04, 2.79480751638918118260e+04, (-4.71918354795128470869e+03)]

/-- `Q1R3` (bessel_1.rs:412-419) -/
noncomputable def besQ1R3 : List ℝ := [(-5.07831226461766561369e-09), (-1.02537829820837089745e-01), (-4.61011581139473403113e+00), (-5.78472216562783643212e+01), (-2.28244540737631695038e+02), (-2.19210128478909325622e+02)]

/-- `Q1S3` (bessel_1.rs:420-427) -/
noncomputable def besQ1S3 : List ℝ := [4.76651550323729509273e+01, 6.73865112676699709482e+02, 3.38015286679526343505e+03, 5.54772909720722782367e+03, 1.90311919338810798763e+03, (-1.35201191444307340817e+02)]

/-- `Q1R2` (bessel_1.rs:430-437) -/
noncomputable def besQ1R2 : List ℝ := [(-1.78381727510958865572e-07), (-1.02517042607985553460e-01), (-2.75220568278187460720e+00), (-1.96636162643703720221e+01), (-4.23253133372830490089e+01), (-2.13719211703704061733e+01)]

/-- `Q1S2` (bessel_1.rs:438-445) -/
noncomputable def besQ1S2 : List ℝ := [2.95333629060523854548e+01, 2.52981549982190529136e+02, 7.57502834868645436472e+02, 7.39393205320467245656e+02, 1.55949003336666123687e+02, (-4.95949898822628210127e+00)]

/-- `1 + r / s` (bessel_0.rs:349-352, bessel_1.rs:352-355) -/
noncomputable def besP (p q : List ℝ) (x : ℝ) : ℝ :=
  let z := 1 / (x * x)
  1 + nestL p z / (1 + z * nestL q z)

/-- `(c + r / s) / x` (bessel_0.rs:456-459, bessel_1.rs:459-462) -/
noncomputable def besQ (c : ℝ) (p q : List ℝ) (x : ℝ) : ℝ :=
  let z := 1 / (x * x)
  (c + nestL p z / (1 + z * nestL q z)) / x

/-- `pzero` (bessel_0.rs:337-353) -/
noncomputable def besPzero (x : ℝ) : Res ℝ :=
  if 8 ≤ x then .ok (besP besP0R8 besP0S8 x)
  else if 4.5454 ≤ x then .ok (besP besP0R5 besP0S5 x)
  else if 2.8571 ≤ x then .ok (besP besP0R3 besP0S3 x)
  else if 2 ≤ x then .ok (besP besP0R2 besP0S2 x)
  else .panic

/-- `qzero` (bessel_0.rs:444-460) -/
noncomputable def besQzero (x : ℝ) : Res ℝ :=
  if 8 ≤ x then .ok (besQ (-0.125) besQ0R8 besQ0S8 x)
  else if 4.5454 ≤ x then .ok (besQ (-0.125) besQ0R5 besQ0S5 x)
  else if 2.8571 ≤ x then .ok (besQ (-0.125) besQ0R3 besQ0S3 x)
  else if 2 ≤ x then .ok (besQ (-0.125) besQ0R2 besQ0S2 x)
  else .panic

/-- `pone` (bessel_1.rs:340-356) -/
noncomputable def besPone (x : ℝ) : Res ℝ :=
  if 8 ≤ x then .ok (besP besP1R8 besP1S8 x)
  else if 4.5454 ≤ x then .ok (besP besP1R5 besP1S5 x)
  else if 2.8571 ≤ x then .ok (besP besP1R3 besP1S3 x)
  else if 2 ≤ x then .ok (besP besP1R2 besP1S2 x)
  else .panic

/-- `qone` (bessel_1.rs:447-463) -/
noncomputable def besQone (x : ℝ) : Res ℝ :=
  if 8 ≤ x then .ok (besQ 0.375 besQ1R8 besQ1S8 x)
  else if 4.5454 ≤ x then .ok (besQ 0.375 besQ1R5 besQ1S5 x)
  else if 2.8571 ≤ x then .ok (besQ 0.375 besQ1R3 besQ1S3 x)
  else if 2 ≤ x then .ok (besQ 0.375 besQ1R2 besQ1S2 x)
  else .panic

/-- the largest `f64` -/
noncomputable def besMax : ℝ := 2 ^ 1024 - 2 ^ 971

/-- `bessel_j0` for `x ≥ 2` (bessel_0.rs:100-124) -/
noncomputable def besJ0Large (x : ℝ) : Res ℝ := do
  let s := sin x
  let c := cos x
  let ss := s - c
  let cc := s + c
  let z := -cos (x + x)
  let cc' := if x < besMax / 2 ∧ s * c < 0 then z / ss else cc
  let ss' := if x < besMax / 2 ∧ ¬ s * c < 0 then z / cc else ss
  if 2 ^ 129 < x then .ok (1 / √π * cc' / √x)
  else do
    let u ← besPzero x
    let v ← besQzero x
    .ok (1 / √π * (u * cc' - v * ss') / √x)

/-- `bessel_j0` for `0 < x < 2` (bessel_0.rs:126-141) -/
noncomputable def besJ0Small (x : ℝ) : ℝ :=
  if x < 1 / 2 ^ 13 then
    if x < 1 / 2 ^ 27 then 1 else 1 - 0.25 * x * x
  else
    let z := x * x
    let r := z * (1.56249999999999947958e-02 + z * ((-1.89979294238854721751e-04) + z * (1.82954049532700665670e-06 + z * (-4.61832688532103189199e-09))))
    let s := 1 + z * (1.56191029464890010492e-02 + z * (1.16926784663337450260e-04 + z * (5.13546550207318111446e-07 + z * 1.16614003333790000205e-09)))
    if x < 1 then 1 + z * (-0.25 + r / s)
    else (1 + 0.5 * x) * (1 - 0.5 * x) + z * (r / s)

/-- `bessel_j0` (bessel_0.rs:62-142) -/
noncomputable def besselJ0F : FArg → Res FArg
  | .nan => .ok .nan
  | .posInf => .ok (.fin 0)
  | .negInf => .ok (.fin 0)
  | .negZero => .ok (.fin 1)
  | .fin x =>
    if x = 0 then .ok (.fin 1)
    else if 2 ≤ |x| then (do let y ← besJ0Large |x|; .ok (.fin y))
    else .ok (.fin (besJ0Small |x|))

/-- `bessel_j1` for `x ≥ 2` (bessel_1.rs:98-120) -/
noncomputable def besJ1Large (x : ℝ) : Res ℝ := do
  let s := sin x
  let c := cos x
  let ss := -s - c
  let cc := s - c
  let z := cos (x + x)
  let cc' := if x < besMax / 2 ∧ s * c > 0 then z / ss else cc
  let ss' := if x < besMax / 2 ∧ ¬ s * c > 0 then z / cc else ss
  if 2 ^ 129 < x then .ok (1 / √π * cc' / √x)
  else do
    let u ← besPone x
    let v ← besQone x
    .ok (1 / √π * (u * cc' - v * ss') / √x)

/-- `bessel_j1` for `0 < x < 2` (bessel_1.rs:128-136) -/
noncomputable def besJ1Small (x : ℝ) : ℝ :=
  if x < 1 / 2 ^ 27 then 0.5 * x
  else
    let z := x * x
    let r := z * ((-6.25000000000000000000e-02) + z * (1.40705666955189706048e-03 + z * ((-1.59955631084035597520e-05) + z * 4.96727999609584448412e-08)))
    let s := 1 + z * (1.91537599538363460805e-02 + z * (1.85946785588630915560e-04 + z * (1.17718464042623683263e-06 + z * (5.04636257076217042715e-09 + z * 1.23542274426137913908e-11))))
    0.5 * x + r * x / s

/-- the value before the sign (bessel_1.rs:97-136) -/
noncomputable def besJ1Pos (x : ℝ) : Res ℝ := if 2 ≤ x then besJ1Large x else .ok (besJ1Small x)

/-- `bessel_j1` (bessel_1.rs:58-143) -/
noncomputable def besselJ1F : FArg → Res FArg
  | .nan => .ok .nan
  | .posInf => .ok (.fin 0)
  | .negInf => .ok (.fin 0)
  | .negZero => .ok (.fin 0)
  | .fin x =>
    if x = 0 then .ok (.fin 0)
    else if x < 0 then (do
      let y ← besJ1Pos (-x)
      .ok (.fin (-y)))
    else (do
      let y ← besJ1Pos x
      .ok (.fin y))

/-! ## The rational functions -/

theorem bU08_code (z : ℝ) (h : 0 < polyEval bU08.2 z) : 1 + nestL besP0R8 z / (1 + z * nestL besP0S8 z) = rfEval bU08 z := by
  have e2 : polyEval bU08.2 z = 2500000000000000000000 * (1 + z * nestL besP0S8 z) := by
    simp only [bU08, besP0S8, polyEval, nestL]; push_cast; norm_num only; ring
  have e1 : polyEval bU08.1 z = 2500000000000000000000 * (1 * (1 + z * nestL besP0S8 z) + nestL besP0R8 z) := by
    simp only [bU08, besP0R8, besP0S8, polyEval, nestL]; push_cast; norm_num only; ring
  have h3 : 0 < 1 + z * nestL besP0S8 z := by rw [e2] at h; exact pos_of_mul_pos_right h (by norm_num)
  rw [rfEval, e1, e2, mul_div_mul_left _ _ (by norm_num), add_div, mul_div_cancel_right₀ _ h3.ne']

theorem bG08_code (z : ℝ) (h : 0 < polyEval bG08.2 z) : -0.125 + nestL besQ0R8 z / (1 + z * nestL besQ0S8 z) = rfEval bG08 z := by
  have e2 : polyEval bG08.2 z = 10000000000000000000000 * (1 + z * nestL besQ0S8 z) := by
    simp only [bG08, besQ0S8, polyEval, nestL]; push_cast; norm_num only; ring
  have e1 : polyEval bG08.1 z = 10000000000000000000000 * ((-0.125) * (1 + z * nestL besQ0S8 z) + nestL besQ0R8 z) := by
    simp only [bG08, besQ0R8, besQ0S8, polyEval, nestL]; push_cast; norm_num only; ring
  have h3 : 0 < 1 + z * nestL besQ0S8 z := by rw [e2] at h; exact pos_of_mul_pos_right h (by norm_num)
  rw [rfEval, e1, e2, mul_div_mul_left _ _ (by norm_num), add_div, mul_div_cancel_right₀ _ h3.ne']

theorem bU05_code (z : ℝ) (h : 0 < polyEval bU05.2 z) : 1 + nestL besP0R5 z / (1 + z * nestL besP0S5 z) = rfEval bU05 z := by
  have e2 : polyEval bU05.2 z = 1250000000000000000000000000000 * (1 + z * nestL besP0S5 z) := by
    simp only [bU05, besP0S5, polyEval, nestL]; push_cast; norm_num only; ring
  have e1 : polyEval bU05.1 z = 1250000000000000000000000000000 * (1 * (1 + z * nestL besP0S5 z) + nestL besP0R5 z) := by
    simp only [bU05, besP0R5, besP0S5, polyEval, nestL]; push_cast; norm_num only; ring
  have h3 : 0 < 1 + z * nestL besP0S5 z := by rw [e2] at h; exact pos_of_mul_pos_right h (by norm_num)
  rw [rfEval, e1, e2, mul_div_mul_left _ _ (by norm_num), add_div, mul_div_cancel_right₀ _ h3.ne']

theorem bG05_code (z : ℝ) (h : 0 < polyEval bG05.2 z) : -0.125 + nestL besQ0R5 z / (1 + z * nestL besQ0S5 z) = rfEval bG05 z := by
  have e2 : polyEval bG05.2 z = 10000000000000000000000000000000 * (1 + z * nestL besQ0S5 z) := by
    simp only [bG05, besQ0S5, polyEval, nestL]; push_cast; norm_num only; ring
  have e1 : polyEval bG05.1 z = 10000000000000000000000000000000 * ((-0.125) * (1 + z * nestL besQ0S5 z) + nestL besQ0R5 z) := by
    simp only [bG05, besQ0R5, besQ0S5, polyEval, nestL]; push_cast; norm_num only; ring
  have h3 : 0 < 1 + z * nestL besQ0S5 z := by rw [e2] at h; exact pos_of_mul_pos_right h (by norm_num)
  rw [rfEval, e1, e2, mul_div_mul_left _ _ (by norm_num), add_div, mul_div_cancel_right₀ _ h3.ne']

theorem bU03_code (z : ℝ) (h : 0 < polyEval bU03.2 z) : 1 + nestL besP0R3 z / (1 + z * nestL besP0S3 z) = rfEval bU03 z := by
  have e2 : polyEval bU03.2 z = 5000000000000000000000000000 * (1 + z * nestL besP0S3 z) := by
    simp only [bU03, besP0S3, polyEval, nestL]; push_cast; norm_num only; ring
  have e1 : polyEval bU03.1 z = 5000000000000000000000000000 * (1 * (1 + z * nestL besP0S3 z) + nestL besP0R3 z) := by
    simp only [bU03, besP0R3, besP0S3, polyEval, nestL]; push_cast; norm_num only; ring
  have h3 : 0 < 1 + z * nestL besP0S3 z := by rw [e2] at h; exact pos_of_mul_pos_right h (by norm_num)
  rw [rfEval, e1, e2, mul_div_mul_left _ _ (by norm_num), add_div, mul_div_cancel_right₀ _ h3.ne']

theorem bG03_code (z : ℝ) (h : 0 < polyEval bG03.2 z) : -0.125 + nestL besQ0R3 z / (1 + z * nestL besQ0S3 z) = rfEval bG03 z := by
  have e2 : polyEval bG03.2 z = 50000000000000000000000000000 * (1 + z * nestL besQ0S3 z) := by
    simp only [bG03, besQ0S3, polyEval, nestL]; push_cast; norm_num only; ring
  have e1 : polyEval bG03.1 z = 50000000000000000000000000000 * ((-0.125) * (1 + z * nestL besQ0S3 z) + nestL besQ0R3 z) := by
    simp only [bG03, besQ0R3, besQ0S3, polyEval, nestL]; push_cast; norm_num only; ring
  have h3 : 0 < 1 + z * nestL besQ0S3 z := by rw [e2] at h; exact pos_of_mul_pos_right h (by norm_num)
  rw [rfEval, e1, e2, mul_div_mul_left _ _ (by norm_num), add_div, mul_div_cancel_right₀ _ h3.ne']

theorem bU02_code (z : ℝ) (h : 0 < polyEval bU02.2 z) : 1 + nestL besP0R2 z / (1 + z * nestL besP0S2 z) = rfEval bU02 z := by
  have e2 : polyEval bU02.2 z = 5000000000000000000000000000 * (1 + z * nestL besP0S2 z) := by
    simp only [bU02, besP0S2, polyEval, nestL]; push_cast; norm_num only; ring
  have e1 : polyEval bU02.1 z = 5000000000000000000000000000 * (1 * (1 + z * nestL besP0S2 z) + nestL besP0R2 z) := by
    simp only [bU02, besP0R2, besP0S2, polyEval, nestL]; push_cast; norm_num only; ring
  have h3 : 0 < 1 + z * nestL besP0S2 z := by rw [e2] at h; exact pos_of_mul_pos_right h (by norm_num)
  rw [rfEval, e1, e2, mul_div_mul_left _ _ (by norm_num), add_div, mul_div_cancel_right₀ _ h3.ne']

theorem bG02_code (z : ℝ) (h : 0 < polyEval bG02.2 z) : -0.125 + nestL besQ0R2 z / (1 + z * nestL besQ0S2 z) = rfEval bG02 z := by
  have e2 : polyEval bG02.2 z = 1000000000000000000000000000 * (1 + z * nestL besQ0S2 z) := by
    simp only [bG02, besQ0S2, polyEval, nestL]; push_cast; norm_num only; ring
  have e1 : polyEval bG02.1 z = 1000000000000000000000000000 * ((-0.125) * (1 + z * nestL besQ0S2 z) + nestL besQ0R2 z) := by
    simp only [bG02, besQ0R2, besQ0S2, polyEval, nestL]; push_cast; norm_num only; ring
  have h3 : 0 < 1 + z * nestL besQ0S2 z := by rw [e2] at h; exact pos_of_mul_pos_right h (by norm_num)
  rw [rfEval, e1, e2, mul_div_mul_left _ _ (by norm_num), add_div, mul_div_cancel_right₀ _ h3.ne']

theorem bU18_code (z : ℝ) (h : 0 < polyEval bU18.2 z) : 1 + nestL besP1R8 z / (1 + z * nestL besP1S8 z) = rfEval bU18 z := by
  have e2 : polyEval bU18.2 z = 100000000000000000000 * (1 + z * nestL besP1S8 z) := by
    simp only [bU18, besP1S8, polyEval, nestL]; push_cast; norm_num only; ring
  have e1 : polyEval bU18.1 z = 100000000000000000000 * (1 * (1 + z * nestL besP1S8 z) + nestL besP1R8 z) := by
    simp only [bU18, besP1R8, besP1S8, polyEval, nestL]; push_cast; norm_num only; ring
  have h3 : 0 < 1 + z * nestL besP1S8 z := by rw [e2] at h; exact pos_of_mul_pos_right h (by norm_num)
  rw [rfEval, e1, e2, mul_div_mul_left _ _ (by norm_num), add_div, mul_div_cancel_right₀ _ h3.ne']

theorem bG18_code (z : ℝ) (h : 0 < polyEval bG18.2 z) : 0.375 + nestL besQ1R8 z / (1 + z * nestL besQ1S8 z) = rfEval bG18 z := by
  have e2 : polyEval bG18.2 z = 1000000000000000000000 * (1 + z * nestL besQ1S8 z) := by
    simp only [bG18, besQ1S8, polyEval, nestL]; push_cast; norm_num only; ring
  have e1 : polyEval bG18.1 z = 1000000000000000000000 * (0.375 * (1 + z * nestL besQ1S8 z) + nestL besQ1R8 z) := by
    simp only [bG18, besQ1R8, besQ1S8, polyEval, nestL]; push_cast; norm_num only; ring
  have h3 : 0 < 1 + z * nestL besQ1S8 z := by rw [e2] at h; exact pos_of_mul_pos_right h (by norm_num)
  rw [rfEval, e1, e2, mul_div_mul_left _ _ (by norm_num), add_div, mul_div_cancel_right₀ _ h3.ne']

theorem bU15_code (z : ℝ) (h : 0 < polyEval bU15.2 z) : 1 + nestL besP1R5 z / (1 + z * nestL besP1S5 z) = rfEval bU15 z := by
  have e2 : polyEval bU15.2 z = 10000000000000000000000000000000 * (1 + z * nestL besP1S5 z) := by
    simp only [bU15, besP1S5, polyEval, nestL]; push_cast; norm_num only; ring
  have e1 : polyEval bU15.1 z = 10000000000000000000000000000000 * (1 * (1 + z * nestL besP1S5 z) + nestL besP1R5 z) := by
    simp only [bU15, besP1R5, besP1S5, polyEval, nestL]; push_cast; norm_num only; ring
  have h3 : 0 < 1 + z * nestL besP1S5 z := by rw [e2] at h; exact pos_of_mul_pos_right h (by norm_num)
  rw [rfEval, e1, e2, mul_div_mul_left _ _ (by norm_num), add_div, mul_div_cancel_right₀ _ h3.ne']

theorem bG15_code (z : ℝ) (h : 0 < polyEval bG15.2 z) : 0.375 + nestL besQ1R5 z / (1 + z * nestL besQ1S5 z) = rfEval bG15 z := by
  have e2 : polyEval bG15.2 z = 10000000000000000000000000000000 * (1 + z * nestL besQ1S5 z) := by
    simp only [bG15, besQ1S5, polyEval, nestL]; push_cast; norm_num only; ring
  have e1 : polyEval bG15.1 z = 10000000000000000000000000000000 * (0.375 * (1 + z * nestL besQ1S5 z) + nestL besQ1R5 z) := by
    simp only [bG15, besQ1R5, besQ1S5, polyEval, nestL]; push_cast; norm_num only; ring
  have h3 : 0 < 1 + z * nestL besQ1S5 z := by rw [e2] at h; exact pos_of_mul_pos_right h (by norm_num)
  rw [rfEval, e1, e2, mul_div_mul_left _ _ (by norm_num), add_div, mul_div_cancel_right₀ _ h3.ne']

theorem bU13_code (z : ℝ) (h : 0 < polyEval bU13.2 z) : 1 + nestL besP1R3 z / (1 + z * nestL besP1S3 z) = rfEval bU13 z := by
  have e2 : polyEval bU13.2 z = 12500000000000000000000000000 * (1 + z * nestL besP1S3 z) := by
    simp only [bU13, besP1S3, polyEval, nestL]; push_cast; norm_num only; ring
  have e1 : polyEval bU13.1 z = 12500000000000000000000000000 * (1 * (1 + z * nestL besP1S3 z) + nestL besP1R3 z) := by
    simp only [bU13, besP1R3, besP1S3, polyEval, nestL]; push_cast; norm_num only; ring
  have h3 : 0 < 1 + z * nestL besP1S3 z := by rw [e2] at h; exact pos_of_mul_pos_right h (by norm_num)
  rw [rfEval, e1, e2, mul_div_mul_left _ _ (by norm_num), add_div, mul_div_cancel_right₀ _ h3.ne']

theorem bG13_code (z : ℝ) (h : 0 < polyEval bG13.2 z) : 0.375 + nestL besQ1R3 z / (1 + z * nestL besQ1S3 z) = rfEval bG13 z := by
  have e2 : polyEval bG13.2 z = 100000000000000000000000000000 * (1 + z * nestL besQ1S3 z) := by
    simp only [bG13, besQ1S3, polyEval, nestL]; push_cast; norm_num only; ring
  have e1 : polyEval bG13.1 z = 100000000000000000000000000000 * (0.375 * (1 + z * nestL besQ1S3 z) + nestL besQ1R3 z) := by
    simp only [bG13, besQ1R3, besQ1S3, polyEval, nestL]; push_cast; norm_num only; ring
  have h3 : 0 < 1 + z * nestL besQ1S3 z := by rw [e2] at h; exact pos_of_mul_pos_right h (by norm_num)
  rw [rfEval, e1, e2, mul_div_mul_left _ _ (by norm_num), add_div, mul_div_cancel_right₀ _ h3.ne']

theorem bU12_code (z : ℝ) (h : 0 < polyEval bU12.2 z) : 1 + nestL besP1R2 z / (1 + z * nestL besP1S2 z) = rfEval bU12 z := by
  have e2 : polyEval bU12.2 z = 500000000000000000000000000 * (1 + z * nestL besP1S2 z) := by
    simp only [bU12, besP1S2, polyEval, nestL]; push_cast; norm_num only; ring
  have e1 : polyEval bU12.1 z = 500000000000000000000000000 * (1 * (1 + z * nestL besP1S2 z) + nestL besP1R2 z) := by
    simp only [bU12, besP1R2, besP1S2, polyEval, nestL]; push_cast; norm_num only; ring
  have h3 : 0 < 1 + z * nestL besP1S2 z := by rw [e2] at h; exact pos_of_mul_pos_right h (by norm_num)
  rw [rfEval, e1, e2, mul_div_mul_left _ _ (by norm_num), add_div, mul_div_cancel_right₀ _ h3.ne']

theorem bG12_code (z : ℝ) (h : 0 < polyEval bG12.2 z) : 0.375 + nestL besQ1R2 z / (1 + z * nestL besQ1S2 z) = rfEval bG12 z := by
  have e2 : polyEval bG12.2 z = 250000000000000000000000000 * (1 + z * nestL besQ1S2 z) := by
    simp only [bG12, besQ1S2, polyEval, nestL]; push_cast; norm_num only; ring
  have e1 : polyEval bG12.1 z = 250000000000000000000000000 * (0.375 * (1 + z * nestL besQ1S2 z) + nestL besQ1R2 z) := by
    simp only [bG12, besQ1R2, besQ1S2, polyEval, nestL]; push_cast; norm_num only; ring
  have h3 : 0 < 1 + z * nestL besQ1S2 z := by rw [e2] at h; exact pos_of_mul_pos_right h (by norm_num)
  rw [rfEval, e1, e2, mul_div_mul_left _ _ (by norm_num), add_div, mul_div_cancel_right₀ _ h3.ne']

theorem nest_sq (x : ℝ) : 1 / (x * x) = 1 / x ^ 2 := by rw [sq]

/-- the values of `pzero` and `qzero` in the four branches -/
theorem besPzero_cases {x : ℝ} (h : 2 ≤ x) :
    (8 ≤ x ∧ besPzero x = .ok (rfEval bU08 (1 / x ^ 2)) ∧ besQzero x = .ok (rfEval bG08 (1 / x ^ 2) / x)) ∨
    ((45454 / 10000 ≤ x ∧ x ≤ 8) ∧ besPzero x = .ok (rfEval bU05 (1 / x ^ 2)) ∧ besQzero x = .ok (rfEval bG05 (1 / x ^ 2) / x)) ∨
    ((28571 / 10000 ≤ x ∧ x ≤ 45454 / 10000) ∧ besPzero x = .ok (rfEval bU03 (1 / x ^ 2)) ∧ besQzero x = .ok (rfEval bG03 (1 / x ^ 2) / x)) ∨
    (x ≤ 28571 / 10000 ∧ besPzero x = .ok (rfEval bU02 (1 / x ^ 2)) ∧ besQzero x = .ok (rfEval bG02 (1 / x ^ 2) / x)) := by
  have n1 : (4.5454 : ℝ) = 45454 / 10000 := by norm_num
  have n2 : (2.8571 : ℝ) = 28571 / 10000 := by norm_num
  have hx0 : 0 < 1 / x ^ 2 := by positivity
  simp only [besPzero, besQzero, besP, besQ, n1, n2, nest_sq]
  by_cases h8 : 8 ≤ x
  · have ht := (one_div_sq_bounds (a := 8) (by norm_num) h8 le_rfl).2
    have hp := bPos8 (t := 1 / x ^ 2) (by linarith) (ht.trans (by norm_num))
    refine .inl ⟨h8, ?_, ?_⟩
    · rw [if_pos h8, bU08_code _ hp.1]
    · rw [if_pos h8, bG08_code _ hp.2.1]
  · refine .inr ?_
    have h8' := (not_le.1 h8).le
    by_cases h5 : 45454 / 10000 ≤ x
    · have ht := one_div_sq_bounds (a := 45454 / 10000) (by norm_num) h5 h8'
      have hp := bPos5 (t := 1 / x ^ 2) (le_trans (by norm_num) ht.1) (ht.2.trans (by norm_num))
      refine .inl ⟨⟨h5, h8'⟩, ?_, ?_⟩
      · rw [if_neg h8, if_pos h5, bU05_code _ hp.1]
      · rw [if_neg h8, if_pos h5, bG05_code _ hp.2.1]
    · refine .inr ?_
      have h5' := (not_le.1 h5).le
      by_cases h3 : 28571 / 10000 ≤ x
      · have ht := one_div_sq_bounds (a := 28571 / 10000) (by norm_num) h3 h5'
        have hp := bPos3 (t := 1 / x ^ 2) (le_trans (by norm_num) ht.1) (ht.2.trans (by norm_num))
        refine .inl ⟨⟨h3, h5'⟩, ?_, ?_⟩
        · rw [if_neg h8, if_neg h5, if_pos h3, bU03_code _ hp.1]
        · rw [if_neg h8, if_neg h5, if_pos h3, bG03_code _ hp.2.1]
      · have h3' := (not_le.1 h3).le
        have ht := one_div_sq_bounds (a := 2) (by norm_num) h h3'
        have hp := bPos2 (t := 1 / x ^ 2) (le_trans (by norm_num) ht.1) (ht.2.trans (by norm_num))
        refine .inr ⟨h3', ?_, ?_⟩
        · rw [if_neg h8, if_neg h5, if_neg h3, if_pos h, bU02_code _ hp.1]
        · rw [if_neg h8, if_neg h5, if_neg h3, if_pos h, bG02_code _ hp.2.1]

/-- the values of `pone` and `qone` in the four branches -/
theorem besPone_cases {x : ℝ} (h : 2 ≤ x) :
    (8 ≤ x ∧ besPone x = .ok (rfEval bU18 (1 / x ^ 2)) ∧ besQone x = .ok (rfEval bG18 (1 / x ^ 2) / x)) ∨
    ((45454 / 10000 ≤ x ∧ x ≤ 8) ∧ besPone x = .ok (rfEval bU15 (1 / x ^ 2)) ∧ besQone x = .ok (rfEval bG15 (1 / x ^ 2) / x)) ∨
    ((28571 / 10000 ≤ x ∧ x ≤ 45454 / 10000) ∧ besPone x = .ok (rfEval bU13 (1 / x ^ 2)) ∧ besQone x = .ok (rfEval bG13 (1 / x ^ 2) / x)) ∨
    (x ≤ 28571 / 10000 ∧ besPone x = .ok (rfEval bU12 (1 / x ^ 2)) ∧ besQone x = .ok (rfEval bG12 (1 / x ^ 2) / x)) := by
  have n1 : (4.5454 : ℝ) = 45454 / 10000 := by norm_num
  have n2 : (2.8571 : ℝ) = 28571 / 10000 := by norm_num
  have hx0 : 0 < 1 / x ^ 2 := by positivity
  simp only [besPone, besQone, besP, besQ, n1, n2, nest_sq]
  by_cases h8 : 8 ≤ x
  · have ht := (one_div_sq_bounds (a := 8) (by norm_num) h8 le_rfl).2
    have hp := bPos8 (t := 1 / x ^ 2) (by linarith) (ht.trans (by norm_num))
    refine .inl ⟨h8, ?_, ?_⟩
    · rw [if_pos h8, bU18_code _ hp.2.2.1]
    · rw [if_pos h8, bG18_code _ hp.2.2.2]
  · refine .inr ?_
    have h8' := (not_le.1 h8).le
    by_cases h5 : 45454 / 10000 ≤ x
    · have ht := one_div_sq_bounds (a := 45454 / 10000) (by norm_num) h5 h8'
      have hp := bPos5 (t := 1 / x ^ 2) (le_trans (by norm_num) ht.1) (ht.2.trans (by norm_num))
      refine .inl ⟨⟨h5, h8'⟩, ?_, ?_⟩
      · rw [if_neg h8, if_pos h5, bU15_code _ hp.2.2.1]
      · rw [if_neg h8, if_pos h5, bG15_code _ hp.2.2.2]
    · refine .inr ?_
      have h5' := (not_le.1 h5).le
      by_cases h3 : 28571 / 10000 ≤ x
      · have ht := one_div_sq_bounds (a := 28571 / 10000) (by norm_num) h3 h5'
        have hp := bPos3 (t := 1 / x ^ 2) (le_trans (by norm_num) ht.1) (ht.2.trans (by norm_num))
        refine .inl ⟨⟨h3, h5'⟩, ?_, ?_⟩
        · rw [if_neg h8, if_neg h5, if_pos h3, bU13_code _ hp.2.2.1]
        · rw [if_neg h8, if_neg h5, if_pos h3, bG13_code _ hp.2.2.2]
      · have h3' := (not_le.1 h3).le
        have ht := one_div_sq_bounds (a := 2) (by norm_num) h h3'
        have hp := bPos2 (t := 1 / x ^ 2) (le_trans (by norm_num) ht.1) (ht.2.trans (by norm_num))
        refine .inr ⟨h3', ?_, ?_⟩
        · rw [if_neg h8, if_neg h5, if_neg h3, if_pos h, bU12_code _ hp.2.2.1]
        · rw [if_neg h8, if_neg h5, if_neg h3, if_pos h, bG12_code _ hp.2.2.2]

/-! ## Large arguments -/

theorem b8_far {t : ℝ} (h0 : 0 ≤ t) (h1 : t ≤ 1 / 64) : |rfEval bU08 t - 1| ≤ t ∧ |rfEval bG08 t| ≤ 1 ∧ |rfEval bU18 t - 1| ≤ t ∧ |rfEval bG18 t| ≤ 1 := by
  obtain ⟨p1, p2, p3, p4⟩ := bPos8 (t := t) (by linarith) (by linarith)
  have s1 : ∀ f : RF, 0 < polyEval f.2 t → chkPiece (addL (0 :: f.2) (addL f.1 (smulL (-1) f.2))) 4096 0 64 = true →
      chkPiece (addL (0 :: f.2) (addL (smulL (-1) f.1) f.2)) 4096 0 64 = true → |rfEval f t - 1| ≤ t := by
    intro f hp c1 c2
    have e1 := chkPiece_sound (by norm_num) c1 (x := t) (by norm_num; linarith) (by norm_num; linarith)
    have e2 := chkPiece_sound (by norm_num) c2 (x := t) (by norm_num; linarith) (by norm_num; linarith)
    simp only [polyEval_add, polyEval_smul, polyEval] at e1 e2
    push_cast at e1 e2
    rw [rfEval, div_sub_one hp.ne', abs_div, abs_of_pos hp, div_le_iff₀ hp, abs_le]
    constructor <;> linarith
  have s2 : ∀ f : RF, 0 < polyEval f.2 t → chkPiece (addL f.2 f.1) 4096 0 64 = true → chkPiece (addL f.2 (smulL (-1) f.1)) 4096 0 64 = true → |rfEval f t| ≤ 1 := by
    intro f hp c1 c2
    have e1 := chkPiece_sound (by norm_num) c1 (x := t) (by norm_num; linarith) (by norm_num; linarith)
    have e2 := chkPiece_sound (by norm_num) c2 (x := t) (by norm_num; linarith) (by norm_num; linarith)
    simp only [polyEval_add, polyEval_smul] at e1 e2
    push_cast at e1 e2
    rw [rfEval, abs_div, abs_of_pos hp, div_le_one hp, abs_le]
    constructor <;> linarith
  exact ⟨s1 _ p1 (by decide +kernel) (by decide +kernel), s2 _ p2 (by decide +kernel) (by decide +kernel), s1 _ p3 (by decide +kernel) (by decide +kernel), s2 _ p4 (by decide +kernel) (by decide +kernel)⟩

theorem sc_ne {x : ℝ} : (sin x * cos x < 0 → sin x - cos x ≠ 0) ∧ (¬ sin x * cos x < 0 → sin x + cos x ≠ 0) := by
  have h := sin_sq_add_cos_sq x
  constructor
  · intro h1 h2
    rw [sub_eq_zero] at h2
    rw [h2] at h1
    nlinarith [sq_nonneg (cos x)]
  · intro h1 h2
    rw [add_eq_zero_iff_eq_neg] at h2
    rw [h2] at h1 h
    nlinarith

theorem sc_prod (x : ℝ) : -cos (x + x) = (sin x - cos x) * (sin x + cos x) := by rw [cos_add]; ring

theorem j0_cc (x : ℝ) : (if x < besMax / 2 ∧ sin x * cos x < 0 then -cos (x + x) / (sin x - cos x) else sin x + cos x) = sin x + cos x ∧
    (if x < besMax / 2 ∧ ¬ sin x * cos x < 0 then -cos (x + x) / (sin x + cos x) else sin x - cos x) = sin x - cos x := by
  rw [sc_prod]
  constructor
  · split_ifs with h
    · exact mul_div_cancel_left₀ _ (sc_ne.1 h.2)
    · rfl
  · split_ifs with h
    · exact mul_div_cancel_right₀ _ (sc_ne.2 h.2)
    · rfl

theorem sc_ne' {x : ℝ} : (sin x * cos x > 0 → sin x + cos x ≠ 0) ∧ (¬ sin x * cos x > 0 → sin x - cos x ≠ 0) := by
  have h := sin_sq_add_cos_sq x
  constructor
  · intro h1 h2
    rw [add_eq_zero_iff_eq_neg] at h2
    rw [h2] at h1
    nlinarith [sq_nonneg (cos x)]
  · intro h1 h2
    rw [sub_eq_zero] at h2
    rw [h2] at h1 h
    nlinarith

theorem j1_cc (x : ℝ) : (if x < besMax / 2 ∧ sin x * cos x > 0 then cos (x + x) / (-sin x - cos x) else sin x - cos x) = sin x - cos x ∧
    (if x < besMax / 2 ∧ ¬ sin x * cos x > 0 then cos (x + x) / (sin x - cos x) else -sin x - cos x) = -sin x - cos x := by
  rw [show cos (x + x) = (sin x - cos x) * (-sin x - cos x) by linear_combination -sc_prod x]
  constructor
  · split_ifs with h
    · exact mul_div_cancel_right₀ _ (fun h0 => sc_ne'.1 h.2 (by linarith))
    · rfl
  · split_ifs with h
    · exact mul_div_cancel_left₀ _ (sc_ne'.2 h.2)
    · rfl

theorem sc_abs (x : ℝ) : |sin x + cos x| ≤ 2 ∧ |sin x - cos x| ≤ 2 := by
  have h1 := abs_le.1 (abs_sin_le_one x)
  have h2 := abs_le.1 (abs_cos_le_one x)
  constructor <;> rw [abs_le] <;> constructor <;> linarith [h1.1, h1.2, h2.1, h2.2]

theorem asy_far (ph : ℝ) {x : ℝ} (h : 8 ≤ x) :
    |asyA ph (rfEval bU08) (rfEval bG08) x - (sin (x - ph) + cos (x - ph))| ≤ 4 / x ∧ |asyB ph (rfEval bU18) (rfEval bG18) x - (sin (x - ph) - cos (x - ph))| ≤ 4 / x := by
  have hx : 0 < x := by linarith
  have ht := (one_div_sq_bounds (a := 8) (by norm_num) h le_rfl).2
  obtain ⟨f1, f2, f3, f4⟩ := b8_far (t := 1 / x ^ 2) (by positivity) (ht.trans (by norm_num))
  obtain ⟨s1, s2⟩ := sc_abs (x - ph)
  have hxx : 1 / x ^ 2 ≤ 1 / x := one_div_le_one_div_of_le hx (by nlinarith)
  have e4 : 4 / x = 1 / x * 2 + 1 / x * 2 := by ring
  rw [e4]
  constructor
  · rw [show asyA ph (rfEval bU08) (rfEval bG08) x - (sin (x - ph) + cos (x - ph)) = (rfEval bU08 (1 / x ^ 2) - 1) * (sin (x - ph) + cos (x - ph)) - rfEval bG08 (1 / x ^ 2) / x * (sin (x - ph) - cos (x - ph)) by unfold asyA; ring]
    refine (abs_sub _ _).trans ?_
    rw [abs_mul, abs_mul, abs_div, abs_of_pos hx]
    have := f1.trans hxx
    gcongr
  · rw [show asyB ph (rfEval bU18) (rfEval bG18) x - (sin (x - ph) - cos (x - ph)) = (rfEval bU18 (1 / x ^ 2) - 1) * (sin (x - ph) - cos (x - ph)) + rfEval bG18 (1 / x ^ 2) / x * (sin (x - ph) + cos (x - ph)) by unfold asyB; ring]
    refine (abs_add_le _ _).trans ?_
    rw [abs_mul, abs_mul, abs_div, abs_of_pos hx]
    have := f3.trans hxx
    gcongr

theorem besselJ_two : asyEn besselJ 0 bU02 bG02 bU12 bG12 2 ≤ 4 / 10 ^ 30 := asyEn_two asy_two

theorem sqrt_pi_gt : 177 / 100 < √π := by
  rw [lt_sqrt (by norm_num)]
  have := pi_gt_d2
  norm_num at this ⊢
  linarith

/-- from the scaled to the actual error -/
theorem bess_unscale {F : ℕ → ℝ → ℝ} {n : ℕ} {x y η : ℝ} (hx : 0 < x) (h : |y - bessW F n (√π) x| ≤ η) (hη : η ≤ 354 / 10 ^ 16) : |1 / √π * y / √x - F n x| ≤ 2 / 10 ^ 14 / √x := by
  have hs := sqrt_pos.2 hx
  have hp := sqrt_pos.2 pi_pos
  have e : 1 / √π * y / √x - F n x = (y - bessW F n (√π) x) / √π / √x := by
    unfold bessW
    field_simp
  rw [e, abs_div, abs_div, abs_of_pos hp, abs_of_pos hs]
  refine div_le_div_of_nonneg_right ?_ hs.le
  rw [div_le_iff₀ hp]
  have := sqrt_pi_gt
  linarith

theorem big_four {x : ℝ} (h : 2 ^ 129 < x) : 4 / x ≤ 4 / 10 ^ 16 ∧ 8 ≤ x := by
  have : (10 : ℝ) ^ 16 ≤ x := le_trans (by norm_num) h.le
  exact ⟨by gcongr, le_trans (by norm_num) this⟩

theorem besJ0Large_acc {x : ℝ} (h : 2 ≤ x) : ∃ y, besJ0Large x = .ok y ∧ |y - besselJ 0 x| ≤ 2 / 10 ^ 14 / √x := by
  have hx : 0 < x := by linarith
  obtain ⟨k1, k2⟩ := j0_cc x
  have main : ∀ U G : RF, besPzero x = .ok (rfEval U (1 / x ^ 2)) → besQzero x = .ok (rfEval G (1 / x ^ 2) / x) → |asyA 0 (rfEval U) (rfEval G) x - bessW besselJ 0 (√π) x| ≤ 35 / 10 ^ 15 →
      (2 ^ 129 < x → U = bU08 ∧ G = bG08) → ∃ y, besJ0Large x = .ok y ∧ |y - besselJ 0 x| ≤ 2 / 10 ^ 14 / √x := by
    intro U G e1 e2 hb h8
    simp only [besJ0Large, k1, k2, e1, e2]
    by_cases hl : 2 ^ 129 < x
    · obtain ⟨rfl, rfl⟩ := h8 hl
      obtain ⟨b1, b2⟩ := big_four hl
      refine ⟨_, if_pos hl, bess_unscale hx (η := 354 / 10 ^ 16) ?_ le_rfl⟩
      have a1 := abs_le.1 ((asy_far 0 b2).1.trans b1)
      rw [sub_zero] at a1
      have a2 := abs_le.1 hb
      rw [abs_le]
      constructor <;> linarith [a1.1, a1.2, a2.1, a2.2]
    · refine ⟨_, if_neg hl, bess_unscale hx ?_ (show (35 / 10 ^ 15 : ℝ) ≤ _ by norm_num)⟩
      convert hb using 3
      unfold asyA
      rw [sub_zero]
  rcases besPzero_cases h with ⟨c, e1, e2⟩ | ⟨c, e1, e2⟩ | ⟨c, e1, e2⟩ | ⟨c, e1, e2⟩
  · exact main _ _ e1 e2 (asy_err besselJ_pair besselJ_two h (.inl ⟨c, rfl, rfl, rfl, rfl⟩)).1 (fun _ => ⟨rfl, rfl⟩)
  · exact main _ _ e1 e2 (asy_err besselJ_pair besselJ_two h (.inr (.inl ⟨c.1, c.2, rfl, rfl, rfl, rfl⟩))).1 (fun hl => absurd hl (not_lt.2 (c.2.trans (by norm_num))))
  · exact main _ _ e1 e2 (asy_err besselJ_pair besselJ_two h (.inr (.inr (.inl ⟨c.1, c.2, rfl, rfl, rfl, rfl⟩)))).1 (fun hl => absurd hl (not_lt.2 (c.2.trans (by norm_num))))
  · exact main _ _ e1 e2 (asy_err besselJ_pair besselJ_two h (.inr (.inr (.inr ⟨c, rfl, rfl, rfl, rfl⟩)))).1 (fun hl => absurd hl (not_lt.2 (c.trans (by norm_num))))

theorem besJ1Large_acc {x : ℝ} (h : 2 ≤ x) : ∃ y, besJ1Large x = .ok y ∧ |y - besselJ 1 x| ≤ 2 / 10 ^ 14 / √x := by
  have hx : 0 < x := by linarith
  obtain ⟨k1, k2⟩ := j1_cc x
  have main : ∀ U G : RF, besPone x = .ok (rfEval U (1 / x ^ 2)) → besQone x = .ok (rfEval G (1 / x ^ 2) / x) → |asyB 0 (rfEval U) (rfEval G) x - bessW besselJ 1 (√π) x| ≤ 35 / 10 ^ 15 →
      (2 ^ 129 < x → U = bU18 ∧ G = bG18) → ∃ y, besJ1Large x = .ok y ∧ |y - besselJ 1 x| ≤ 2 / 10 ^ 14 / √x := by
    intro U G e1 e2 hb h8
    simp only [besJ1Large, k1, k2, e1, e2]
    by_cases hl : 2 ^ 129 < x
    · obtain ⟨rfl, rfl⟩ := h8 hl
      obtain ⟨b1, b2⟩ := big_four hl
      refine ⟨_, if_pos hl, bess_unscale hx (η := 354 / 10 ^ 16) ?_ le_rfl⟩
      have a1 := abs_le.1 ((asy_far 0 b2).2.trans b1)
      rw [sub_zero] at a1
      have a2 := abs_le.1 hb
      rw [abs_le]
      constructor <;> linarith [a1.1, a1.2, a2.1, a2.2]
    · refine ⟨_, if_neg hl, bess_unscale hx ?_ (show (35 / 10 ^ 15 : ℝ) ≤ _ by norm_num)⟩
      convert hb using 3
      unfold asyB
      rw [sub_zero]
      ring
  rcases besPone_cases h with ⟨c, e1, e2⟩ | ⟨c, e1, e2⟩ | ⟨c, e1, e2⟩ | ⟨c, e1, e2⟩
  · exact main _ _ e1 e2 (asy_err besselJ_pair besselJ_two h (.inl ⟨c, rfl, rfl, rfl, rfl⟩)).2 (fun _ => ⟨rfl, rfl⟩)
  · exact main _ _ e1 e2 (asy_err besselJ_pair besselJ_two h (.inr (.inl ⟨c.1, c.2, rfl, rfl, rfl, rfl⟩))).2 (fun hl => absurd hl (not_lt.2 (c.2.trans (by norm_num))))
  · exact main _ _ e1 e2 (asy_err besselJ_pair besselJ_two h (.inr (.inr (.inl ⟨c.1, c.2, rfl, rfl, rfl, rfl⟩)))).2 (fun hl => absurd hl (not_lt.2 (c.2.trans (by norm_num))))
  · exact main _ _ e1 e2 (asy_err besselJ_pair besselJ_two h (.inr (.inr (.inr ⟨c, rfl, rfl, rfl, rfl⟩)))).2 (fun hl => absurd hl (not_lt.2 (c.trans (by norm_num))))

/-! ## Arguments below two -/

def bS0 : RF := ([400000000000000000000000000000, -93752358821404399580320000000, 4734860419216432793504000000, -87478977541792706481821600, 680927999123406011536220, -1963944757462202757001], [400000000000000000000000000000, 6247641178595600419680000000, 46770713865334980104000000, 205418620082927244578400, 466456013335160000820])

/-- thirteen terms of the power series in `x²` -/
def bT0 : List ℤ := [3849406932415634472960000, -962351733103908618240000, 60146983318994288640000, -1670749536638730240000, 26105461509980160000, -261054615099801600, 1812879271526400, -9249384038400, 36130406400, -111513600, 278784, -576, 1]

def bZ0p : List ℤ := [230964415944938068377600000000000000000000000000000000000, 3607456989619693399309061525275267741777920000000000000, -80105328304181692420525457827530393281101824000000000000, 499108570966325290163143740073547139475245210009600000000, -1054068017330564933219697660409917653547285919825920000000, 1157520001899908456111833453323878400000000000000000000000, -737890088074155150429576587378688000000000000000000000000, 284209412192040889514625784086528000000000000000000000000, -65583481443292134990123303016857600000000000000000000000, 8472561548715597570239067869675520000000000000000000000, -502942721082020023560099468410880000000000000000000000, 5968008579943863827701955297280000000000000000000000, -37865608724061159092109230080000000000000000000000, 154410547152902574351204864000000000000000000000, -584900619191981328954444800000000000000000000, 632600435981249158939200000000000000000000, -4664560133351600008200000000000000000000]

theorem bZ0p_lit : addL (smulL 577411039862345170944000000 bS0.2) (smulL (10000000000000000000) (addL (smulL 3849406932415634472960000 bS0.1) (smulL (-1) (mulL bT0 bS0.2)))) = bZ0p := by decide +kernel

theorem bZ0p_chk : chkChain bZ0p 16 0 [64] = true := by decide +kernel

def bZ0m : List ℤ := [230964415944938068377600000000000000000000000000000000000, 3607456989619693399309061525275267741777920000000000000, 80159340157237866972901998172469606718898176000000000000, -499108333744367231821060732246452860524754789990400000000, 1054068017869238636639495024134082346452714080174080000000, -1157520001899908456111833453323878400000000000000000000000, 737890088074155150429576587378688000000000000000000000000, -284209412192040889514625784086528000000000000000000000000, 65583481443292134990123303016857600000000000000000000000, -8472561548715597570239067869675520000000000000000000000, 502942721082020023560099468410880000000000000000000000, -5968008579943863827701955297280000000000000000000000, 37865608724061159092109230080000000000000000000000, -154410547152902574351204864000000000000000000000, 584900619191981328954444800000000000000000000, -632600435981249158939200000000000000000000, 4664560133351600008200000000000000000000]

theorem bZ0m_lit : addL (smulL 577411039862345170944000000 bS0.2) (smulL (-10000000000000000000) (addL (smulL 3849406932415634472960000 bS0.1) (smulL (-1) (mulL bT0 bS0.2)))) = bZ0m := by decide +kernel

theorem bZ0m_chk : chkChain bZ0m 16 0 [64] = true := by decide +kernel

theorem bS0_pos {z : ℝ} (h0 : 0 ≤ z) : 0 < polyEval bS0.2 z := by
  simp only [bS0, polyEval]
  push_cast
  positivity

theorem bS0_near {z : ℝ} (h0 : 0 ≤ z) (h1 : z ≤ 4) : |rfEval bS0 z - polyEval bT0 z / 3849406932415634472960000| ≤ 150 / 10 ^ 19 := by
  have hq := bS0_pos h0
  have c1 := chkChain_sound (by norm_num) 0 [64] (by simp) (bZ0p_lit ▸ bZ0p_chk) (x := z) (by norm_num; linarith) (by norm_num; linarith)
  have c2 := chkChain_sound (by norm_num) 0 [64] (by simp) (bZ0m_lit ▸ bZ0m_chk) (x := z) (by norm_num; linarith) (by norm_num; linarith)
  simp only [polyEval_add, polyEval_smul, polyEval_mul] at c1 c2
  unfold rfEval
  generalize polyEval bS0.2 z = Q at *
  generalize polyEval bS0.1 z = P at *
  generalize polyEval bT0 z = T at *
  rw [div_sub_div _ _ hq.ne' (by norm_num), abs_div, abs_of_pos (show (0 : ℝ) < Q * 3849406932415634472960000 by positivity), div_le_iff₀ (by positivity), abs_le]
  push_cast at c1 c2
  constructor <;> linarith

theorem bT0_near {x : ℝ} (h : |x| ≤ 2) : |(polyEval bT0 (x ^ 2) / 3849406932415634472960000) - besselJ 0 x| ≤ 1 / 10 ^ 19 := by
  unfold besselJ bes
  have hs := besTerm_summable (-1) 0 (x / 2)
  rw [← hs.sum_add_tsum_nat_add 13]
  have hh : (x / 2) ^ 2 ≤ 1 := by
    rw [← sq_abs, abs_div, Nat.abs_ofNat]
    have := abs_nonneg x
    exact pow_le_one₀ (by positivity) (by linarith)
  have ht := bes_tail (σ := -1) (by simp) 0 13 (h := x / 2) (by push_cast; linarith)
  have e : |besTerm (-1) 0 (x / 2) 13| ≤ 1 / (6227020800 * 6227020800) := by
    unfold besTerm
    rw [abs_div, abs_mul, abs_pow, abs_neg, abs_one, one_pow, one_mul, pow_add, pow_mul, abs_mul, abs_pow, abs_of_nonneg (sq_nonneg (x / 2))]
    have := pow_le_one₀ (n := 13) (sq_nonneg (x / 2)) hh
    rw [abs_of_pos (a := ((Nat.factorial 13 : ℕ) : ℝ) * ((Nat.factorial (13 + 0) : ℕ) : ℝ)) (by positivity)]
    norm_num [Nat.factorial] at this ⊢
    linarith
  have e2 : ∑ i ∈ Finset.range 13, besTerm (-1) 0 (x / 2) i = (polyEval bT0 (x ^ 2) / 3849406932415634472960000) := by
    simp only [Finset.sum_range_succ, Finset.sum_range_zero, besTerm, bT0, polyEval, Nat.factorial]
    push_cast
    norm_num only
    ring
  rw [e2, sub_add_cancel_left, abs_neg]
  refine ht.trans ?_
  linarith

def bS1 : RF := ([2500000000000000000000000000000, -264615600115409134798750000000, 7500150311731062591300000000, -77034853940952206678425000, 260979906231697650273875, 30885568606534478477], [5000000000000000000000000000000, 95768799769181730402500000000, 929733927943154577800000000, 5885923202131184163150000, 25231812853810852135750, 61771137213068956954])

/-- thirteen terms of the power series in `x²` -/
def bT1 : List ℤ := [50042290121403248148480000, -6255286265175406018560000, 260636927715641917440000, -5429935994075873280000, 67874199925948416000, -565618332716236800, 3366775789977600, -15030249062400, 52188364800, -144967680, 329472, -624, 1]

def bZ1p : List ℤ := [5004229012140324814848000000000000000000000000000000000000, 95849801252559371575275709757039013003264000000000000000, 10128712300278870813043975819614639765722234880000000000000, -36980705617687279433626233476244599099797285109760000000000, 63387177805761478910090550219808141339232444822323200000000, -61520656637758046025443504557297167949288314693589401600000, 36155390123394506444719223768245862400000000000000000000000, -13157774207898819981628310560545177600000000000000000000000, 2916885179497062466899811323032371200000000000000000000000, -367204977382737719054745188711792640000000000000000000000, 21706499976651427169697041219715072000000000000000000000, -295576125036540624359870171234304000000000000000000000, 2133355890199128163238597303296000000000000000000000, -10207989893605784425847830592000000000000000000000, 33847247583562076347770227200000000000000000000, -104931321012174678159902880000000000000000000, 133133767671441770035460000000000000000000, -617711372130689569540000000000000000000]

theorem bZ1p_lit : addL (smulL 1000845802428064962969600000 bS1.2) (smulL (10000000000000000000) (addL (smulL 100084580242806496296960000 bS1.1) (smulL (-1) (mulL bT1 bS1.2)))) = bZ1p := by decide +kernel

theorem bZ1p_chk : chkChain bZ1p 16 0 [64] = true := by decide +kernel

def bZ1m : List ℤ := [5004229012140324814848000000000000000000000000000000000000, 95849801252559371575275709757039013003264000000000000000, -10126851259680557086497446260385360234277765120000000000000, 36980717399490339967527474555755400900202714890240000000000, -63387177755255170945316378025747058660767555177676800000000, 61520656637881692792225320766632432050711685306410598400000, -36155390123394506444719223768245862400000000000000000000000, 13157774207898819981628310560545177600000000000000000000000, -2916885179497062466899811323032371200000000000000000000000, 367204977382737719054745188711792640000000000000000000000, -21706499976651427169697041219715072000000000000000000000, 295576125036540624359870171234304000000000000000000000, -2133355890199128163238597303296000000000000000000000, 10207989893605784425847830592000000000000000000000, -33847247583562076347770227200000000000000000000, 104931321012174678159902880000000000000000000, -133133767671441770035460000000000000000000, 617711372130689569540000000000000000000]

theorem bZ1m_lit : addL (smulL 1000845802428064962969600000 bS1.2) (smulL (-10000000000000000000) (addL (smulL 100084580242806496296960000 bS1.1) (smulL (-1) (mulL bT1 bS1.2)))) = bZ1m := by decide +kernel

theorem bZ1m_chk : chkChain bZ1m 16 0 [64] = true := by decide +kernel

theorem bS1_pos {z : ℝ} (h0 : 0 ≤ z) : 0 < polyEval bS1.2 z := by
  simp only [bS1, polyEval]
  push_cast
  positivity

theorem bS1_near {z : ℝ} (h0 : 0 ≤ z) (h1 : z ≤ 4) : |rfEval bS1 z - polyEval bT1 z / 100084580242806496296960000| ≤ 10 / 10 ^ 19 := by
  have hq := bS1_pos h0
  have c1 := chkChain_sound (by norm_num) 0 [64] (by simp) (bZ1p_lit ▸ bZ1p_chk) (x := z) (by norm_num; linarith) (by norm_num; linarith)
  have c2 := chkChain_sound (by norm_num) 0 [64] (by simp) (bZ1m_lit ▸ bZ1m_chk) (x := z) (by norm_num; linarith) (by norm_num; linarith)
  simp only [polyEval_add, polyEval_smul, polyEval_mul] at c1 c2
  unfold rfEval
  generalize polyEval bS1.2 z = Q at *
  generalize polyEval bS1.1 z = P at *
  generalize polyEval bT1 z = T at *
  rw [div_sub_div _ _ hq.ne' (by norm_num), abs_div, abs_of_pos (show (0 : ℝ) < Q * 100084580242806496296960000 by positivity), div_le_iff₀ (by positivity), abs_le]
  push_cast at c1 c2
  constructor <;> linarith

theorem bT1_near {x : ℝ} (h : |x| ≤ 2) : |x * (polyEval bT1 (x ^ 2) / 100084580242806496296960000) - besselJ 1 x| ≤ |x| * (1 / 10 ^ 19) := by
  unfold besselJ bes
  have hs := besTerm_summable (-1) 1 (x / 2)
  rw [← hs.sum_add_tsum_nat_add 13]
  have hh : (x / 2) ^ 2 ≤ 1 := by
    rw [← sq_abs, abs_div, Nat.abs_ofNat]
    have := abs_nonneg x
    exact pow_le_one₀ (by positivity) (by linarith)
  have ht := bes_tail (σ := -1) (by simp) 1 13 (h := x / 2) (by push_cast; linarith)
  have e : |besTerm (-1) 1 (x / 2) 13| ≤ |x| / 2 * (1 / (6227020800 * 87178291200)) := by
    unfold besTerm
    rw [abs_div, abs_mul, abs_pow, abs_neg, abs_one, one_pow, one_mul, pow_add, pow_mul, abs_mul, abs_pow, abs_of_nonneg (sq_nonneg (x / 2))]
    have := pow_le_one₀ (n := 13) (sq_nonneg (x / 2)) hh
    rw [abs_of_pos (a := ((Nat.factorial 13 : ℕ) : ℝ) * ((Nat.factorial (13 + 1) : ℕ) : ℝ)) (by positivity)]
    norm_num [Nat.factorial] at this ⊢
    rw [abs_div, Nat.abs_ofNat, div_le_iff₀ (by norm_num)]; nlinarith [abs_nonneg x]
  have e2 : ∑ i ∈ Finset.range 13, besTerm (-1) 1 (x / 2) i = x * (polyEval bT1 (x ^ 2) / 100084580242806496296960000) := by
    simp only [Finset.sum_range_succ, Finset.sum_range_zero, besTerm, bT1, polyEval, Nat.factorial]
    push_cast
    norm_num only
    ring
  rw [e2, sub_add_cancel_left, abs_neg]
  refine ht.trans ?_
  nlinarith [abs_nonneg x]

theorem besJ0Small_acc {x : ℝ} (h0 : 0 < x) (h2 : x < 2) : |besJ0Small x - besselJ 0 x| ≤ 2 / 10 ^ 17 := by
  have hz : x ^ 2 ≤ 4 := by nlinarith
  have lead := bT0_near (x := x) (by rw [abs_of_pos h0]; exact h2.le)
  unfold besJ0Small
  by_cases h13 : x < 1 / 2 ^ 13
  · rw [if_pos h13]
    have hx2 : x ^ 2 ≤ 1 / 2 ^ 26 := by
      have : x ^ 2 ≤ (1 / 2 ^ 13) ^ 2 := by gcongr
      exact this.trans (by norm_num)
    have hs := besTerm_summable (-1) 0 (x / 2)
    have hJ : besselJ 0 x = ∑ i ∈ Finset.range 2, besTerm (-1) 0 (x / 2) i + ∑' m, besTerm (-1) 0 (x / 2) (m + 2) := (hs.sum_add_tsum_nat_add 2).symm
    have ht := abs_le.1 (bes_tail (σ := -1) (by simp) 0 2 (h := x / 2) (by push_cast; linarith [show (x / 2) ^ 2 = x ^ 2 / 4 by ring]))
    have e : |besTerm (-1) 0 (x / 2) 2| = x ^ 4 / 64 := by
      unfold besTerm
      rw [abs_of_nonneg (by positivity)]
      norm_num [Nat.factorial]
      ring
    have e2 : ∑ i ∈ Finset.range 2, besTerm (-1) 0 (x / 2) i = 1 - x ^ 2 / 4 := by
      simp [Finset.sum_range_succ, besTerm, Nat.factorial]
      ring
    have h4 : x ^ 4 ≤ 1 / 2 ^ 52 := by
      have : (x ^ 2) ^ 2 ≤ (1 / 2 ^ 26) ^ 2 := by gcongr
      calc x ^ 4 = (x ^ 2) ^ 2 := by ring
        _ ≤ _ := this.trans (by norm_num)
    rw [e] at ht
    rw [hJ, e2]
    split_ifs with h27
    · have hx3 : x ^ 2 ≤ 1 / 2 ^ 54 := by
        have : x ^ 2 ≤ (1 / 2 ^ 27) ^ 2 := by gcongr
        exact this.trans (by norm_num)
      have h5 : x ^ 4 ≤ 1 / 2 ^ 100 := by
        have : (x ^ 2) ^ 2 ≤ (1 / 2 ^ 54) ^ 2 := by gcongr
        calc x ^ 4 = (x ^ 2) ^ 2 := by ring
          _ ≤ _ := this.trans (by norm_num)
      have := sq_nonneg x
      rw [abs_le]
      norm_num at hx3 h5 ⊢
      constructor <;> linarith [ht.1, ht.2]
    · rw [abs_le]
      norm_num at h4 ⊢
      constructor <;> linarith [ht.1, ht.2, show 1 / 4 * x * x = x ^ 2 / 4 by ring]
  · rw [if_neg h13]
    have near := bS0_near (sq_nonneg x) hz
    have hp := bS0_pos (sq_nonneg x)
    have e2 : polyEval bS0.2 (x ^ 2) = 400000000000000000000000000000 * (1 + x * x * (1.56191029464890010492e-02 + x * x * (1.16926784663337450260e-04 + x * x * (5.13546550207318111446e-07 + x * x * 1.16614003333790000205e-09)))) := by
      simp only [bS0, polyEval]; push_cast; norm_num only; ring
    have e1 : polyEval bS0.1 (x ^ 2) = 400000000000000000000000000000 * ((1 - x ^ 2 / 4) * (1 + x * x * (1.56191029464890010492e-02 + x * x * (1.16926784663337450260e-04 + x * x * (5.13546550207318111446e-07 + x * x * 1.16614003333790000205e-09)))) +
        x * x * (x * x * (1.56249999999999947958e-02 + x * x * ((-1.89979294238854721751e-04) + x * x * (1.82954049532700665670e-06 + x * x * (-4.61832688532103189199e-09)))))) := by
      simp only [bS0, polyEval]; push_cast; norm_num only; ring
    have e3 : 0 < 1 + x * x * (1.56191029464890010492e-02 + x * x * (1.16926784663337450260e-04 + x * x * (5.13546550207318111446e-07 + x * x * 1.16614003333790000205e-09))) := by positivity
    have fin : |1 - x ^ 2 / 4 + x * x * (x * x * (1.56249999999999947958e-02 + x * x * ((-1.89979294238854721751e-04) + x * x * (1.82954049532700665670e-06 + x * x * (-4.61832688532103189199e-09)))) /
        (1 + x * x * (1.56191029464890010492e-02 + x * x * (1.16926784663337450260e-04 + x * x * (5.13546550207318111446e-07 + x * x * 1.16614003333790000205e-09))))) - besselJ 0 x| ≤ 2 / 10 ^ 17 := by
      rw [rfEval, e1, e2, mul_div_mul_left _ _ (by norm_num), add_div, mul_div_cancel_right₀ _ e3.ne'] at near
      rw [← mul_div_assoc]
      refine (abs_sub_le _ _ _).trans ((add_le_add near lead).trans ?_)
      norm_num
    simp only
    split_ifs with h1
    · convert fin using 2
      ring
    · convert fin using 2
      ring

theorem besJ1Small_acc {x : ℝ} (h0 : 0 < x) (h2 : x < 2) : |besJ1Small x - besselJ 1 x| ≤ 5 / 10 ^ 18 * x := by
  have hz : x ^ 2 ≤ 4 := by nlinarith
  have lead := bT1_near (x := x) (by rw [abs_of_pos h0]; exact h2.le)
  rw [abs_of_pos h0] at lead
  unfold besJ1Small
  by_cases h27 : x < 1 / 2 ^ 27
  · rw [if_pos h27]
    have hx2 : x ^ 2 ≤ 1 / 2 ^ 54 := by
      have : x ^ 2 ≤ (1 / 2 ^ 27) ^ 2 := by gcongr
      exact this.trans (by norm_num)
    have hs := besTerm_summable (-1) 1 (x / 2)
    have hJ : besselJ 1 x = ∑ i ∈ Finset.range 2, besTerm (-1) 1 (x / 2) i + ∑' m, besTerm (-1) 1 (x / 2) (m + 2) := (hs.sum_add_tsum_nat_add 2).symm
    have ht := abs_le.1 (bes_tail (σ := -1) (by simp) 1 2 (h := x / 2) (by push_cast; linarith [show (x / 2) ^ 2 = x ^ 2 / 4 by ring]))
    have e : |besTerm (-1) 1 (x / 2) 2| = x * (x ^ 2 * x ^ 2) / 384 := by
      unfold besTerm
      rw [abs_of_nonneg (by positivity)]
      norm_num [Nat.factorial]
      ring
    have e2 : ∑ i ∈ Finset.range 2, besTerm (-1) 1 (x / 2) i = x / 2 - x * x ^ 2 / 16 := by
      simp [Finset.sum_range_succ, besTerm, Nat.factorial]
      ring
    have h4 : x ^ 2 * x ^ 2 ≤ 1 / 2 ^ 54 * (1 / 2 ^ 54) := by gcongr
    have h5 : x * (x ^ 2 * x ^ 2) ≤ x * (1 / 2 ^ 54 * (1 / 2 ^ 54)) := by gcongr
    have h6 : x * x ^ 2 ≤ x * (1 / 2 ^ 54) := by gcongr
    have h7 : 0 ≤ x * x ^ 2 := by positivity
    rw [e] at ht
    rw [hJ, e2, abs_le]
    norm_num at h5 h6 ⊢
    constructor <;> linarith [ht.1, ht.2]
  · rw [if_neg h27]
    have near := bS1_near (sq_nonneg x) hz
    have hp := bS1_pos (sq_nonneg x)
    have e2 : polyEval bS1.2 (x ^ 2) = 5000000000000000000000000000000 * (1 + x * x * (1.91537599538363460805e-02 + x * x * (1.85946785588630915560e-04 + x * x * (1.17718464042623683263e-06 + x * x * (5.04636257076217042715e-09 + x * x * 1.23542274426137913908e-11))))) := by
      simp only [bS1, polyEval]; push_cast; norm_num only; ring
    have e1 : polyEval bS1.1 (x ^ 2) = 5000000000000000000000000000000 * (1 / 2 * (1 + x * x * (1.91537599538363460805e-02 + x * x * (1.85946785588630915560e-04 + x * x * (1.17718464042623683263e-06 + x * x * (5.04636257076217042715e-09 + x * x * 1.23542274426137913908e-11))))) +
        (x * x * ((-6.25000000000000000000e-02) + x * x * (1.40705666955189706048e-03 + x * x * ((-1.59955631084035597520e-05) + x * x * 4.96727999609584448412e-08))))) := by
      simp only [bS1, polyEval]; push_cast; norm_num only; ring
    have e3 : 0 < 1 + x * x * (1.91537599538363460805e-02 + x * x * (1.85946785588630915560e-04 + x * x * (1.17718464042623683263e-06 + x * x * (5.04636257076217042715e-09 + x * x * 1.23542274426137913908e-11)))) := by positivity
    rw [rfEval, e1, e2, mul_div_mul_left _ _ (by norm_num), add_div, mul_div_cancel_right₀ _ e3.ne'] at near
    have near' := mul_le_mul_of_nonneg_left near h0.le
    rw [← abs_of_pos h0, ← abs_mul, abs_of_pos h0, mul_sub] at near'
    simp only
    have := (abs_sub_le _ _ _).trans (add_le_add near' lead)
    refine le_trans (le_of_eq ?_) (this.trans ?_)
    · congr 1
      ring
    · norm_num
      linarith

/-! ## Property C117 -/

/-- `bessel_j0` returns a number that is close to `J₀` for every real argument -/
theorem C117_j0_accurate (x : ℝ) : ∃ y, besselJ0F (.fin x) = .ok (.fin y) ∧ (|x| < 2 → |y - besselJ 0 x| ≤ 2 / 10 ^ 17) ∧ (2 ≤ |x| → |y - besselJ 0 x| ≤ 2 / 10 ^ 14 / √|x|) := by
  have hJ : besselJ 0 |x| = besselJ 0 x := by
    rcases abs_choice x with e | e <;> rw [e]
    rw [besselJ_neg]; simp
  by_cases h0 : x = 0
  · subst h0
    refine ⟨1, by simp [besselJ0F], fun _ => ?_, fun h => absurd h (by norm_num)⟩
    have : besselJ 0 0 = 1 := by
      unfold besselJ bes
      rw [tsum_eq_single 0 (fun m hm => by simp [besTerm, hm])]
      simp [besTerm]
    rw [this]; norm_num
  · have hp : 0 < |x| := abs_pos.2 h0
    by_cases h2 : 2 ≤ |x|
    · obtain ⟨y, hy, ha⟩ := besJ0Large_acc h2
      refine ⟨y, ?_, fun h => absurd h2 (not_le.2 h), fun _ => by rw [← hJ]; exact ha⟩
      simp only [besselJ0F, if_neg h0, if_pos h2, hy]
      rfl
    · refine ⟨besJ0Small |x|, ?_, fun h => by rw [← hJ]; exact besJ0Small_acc hp h, fun h => absurd h h2⟩
      simp only [besselJ0F, if_neg h0, if_neg h2]

example : ∃ y, besselJ0F (.fin (-5)) = .ok (.fin y) ∧ |y - besselJ 0 (-5)| ≤ 2 / 10 ^ 14 / √5 := by
  obtain ⟨y, h1, _, h3⟩ := C117_j0_accurate (-5)
  rw [show |(-5 : ℝ)| = 5 by norm_num] at h3
  exact ⟨y, h1, h3 (by norm_num)⟩

/-- `bessel_j1` returns a number that is close to `J₁` for every real argument, with a small relative error at zero -/
theorem C117_j1_accurate (x : ℝ) : ∃ y, besselJ1F (.fin x) = .ok (.fin y) ∧ (|x| < 2 → |y - besselJ 1 x| ≤ 5 / 10 ^ 18 * |x|) ∧ (2 ≤ |x| → |y - besselJ 1 x| ≤ 2 / 10 ^ 14 / √|x|) := by
  have pos : ∀ x : ℝ, 0 < x → ∃ y, besJ1Pos x = .ok y ∧ (x < 2 → |y - besselJ 1 x| ≤ 5 / 10 ^ 18 * x) ∧
      (2 ≤ x → |y - besselJ 1 x| ≤ 2 / 10 ^ 14 / √x) := by
    intro x hx
    by_cases h2 : 2 ≤ x
    · obtain ⟨y, hy, ha⟩ := besJ1Large_acc h2
      exact ⟨y, by rw [besJ1Pos, if_pos h2, hy], fun h => absurd h2 (not_le.2 h), fun _ => ha⟩
    · exact ⟨_, by rw [besJ1Pos, if_neg h2], fun h => besJ1Small_acc hx h, fun h => absurd h h2⟩
  rcases lt_trichotomy x 0 with h | h | h
  · obtain ⟨y, e, a1, a2⟩ := pos (-x) (by linarith)
    refine ⟨-y, ?_, ?_, ?_⟩
    · simp only [besselJ1F, if_neg h.ne, if_pos h, e]
      rfl
    all_goals
      rw [abs_of_neg h, show -y - besselJ 1 x = -(y - besselJ 1 (-x)) by rw [besselJ_neg]; ring, abs_neg]
    · exact a1
    · exact a2
  · subst h
    refine ⟨0, by simp [besselJ1F], fun _ => ?_, fun h => absurd h (by norm_num)⟩
    have : besselJ 1 0 = 0 := by
      unfold besselJ bes
      rw [show besTerm (-1) 1 (0 / 2) = fun _ => 0 by funext m; simp [besTerm], tsum_zero]
    rw [this]; norm_num
  · obtain ⟨y, e, a1, a2⟩ := pos x h
    refine ⟨y, ?_, ?_, ?_⟩
    · simp only [besselJ1F, if_neg h.ne', if_neg (not_lt.2 h.le), e]
      rfl
    all_goals rw [abs_of_pos h]
    · exact a1
    · exact a2

example : ∃ y, besselJ1F (.fin (-5)) = .ok (.fin y) ∧ |y - besselJ 1 (-5)| ≤ 2 / 10 ^ 14 / √5 := by
  obtain ⟨y, h1, _, h3⟩ := C117_j1_accurate (-5)
  rw [show |(-5 : ℝ)| = 5 by norm_num] at h3
  exact ⟨y, h1, h3 (by norm_num)⟩

/-- the symmetries hold exactly -/
theorem C117_symmetry (x : ℝ) : besselJ0F (.fin (-x)) = besselJ0F (.fin x) ∧ ∃ y, besselJ1F (.fin x) = .ok (.fin y) ∧ besselJ1F (.fin (-x)) = .ok (.fin (-y)) := by
  constructor
  · simp only [besselJ0F, abs_neg, neg_eq_zero]
  · obtain ⟨y, e, _⟩ := C117_j1_accurate x
    refine ⟨y, e, ?_⟩
    rcases lt_trichotomy x 0 with h | h | h
    · simp only [besselJ1F, if_neg h.ne, if_pos h, if_neg (neg_ne_zero.2 h.ne), if_neg (not_lt.2 (neg_nonneg.2 h.le))] at e ⊢
      generalize besJ1Pos (-x) = r at *
      cases r <;> simp_all
      linarith
    · subst h
      simp [besselJ1F] at e ⊢
      linarith
    · simp only [besselJ1F, if_neg h.ne', if_neg (not_lt.2 h.le), if_neg (neg_ne_zero.2 h.ne'), if_pos (neg_lt_zero.2 h), neg_neg] at e ⊢
      generalize besJ1Pos x = r at *
      cases r <;> simp_all

/-- the documented special values -/
theorem C117_special : besselJ0F .nan = .ok .nan ∧ besselJ0F .posInf = .ok (.fin 0) ∧ besselJ0F .negInf = .ok (.fin 0) ∧ besselJ0F (.fin 0) = .ok (.fin 1) ∧ besselJ0F .negZero = .ok (.fin 1) ∧
    besselJ1F .nan = .ok .nan ∧ besselJ1F .posInf = .ok (.fin 0) ∧ besselJ1F .negInf = .ok (.fin 0) ∧ besselJ1F (.fin 0) = .ok (.fin 0) ∧ besselJ1F .negZero = .ok (.fin 0) := by
  simp [besselJ0F, besselJ1F]

theorem besselJ_bound {x : ℝ} (h : 8 ≤ x) : |besselJ 0 x| ≤ 4 / √x ∧ |besselJ 1 x| ≤ 4 / √x := by
  have hx : 0 < x := by linarith
  have hs := sqrt_pos.2 hx
  have hp := sqrt_pos.2 pi_pos
  have hpi := sqrt_pi_gt
  obtain ⟨a1, a2⟩ := asy_err besselJ_pair besselJ_two (by linarith) (.inl ⟨h, rfl, rfl, rfl, rfl⟩)
  obtain ⟨f1, f2⟩ := asy_far 0 h
  rw [sub_zero] at f1 f2
  obtain ⟨s1, s2⟩ := sc_abs x
  have h4 : 4 / x ≤ 1 := by rw [div_le_one hx]; linarith
  have key : ∀ n a c, |a - bessW besselJ n (√π) x| ≤ 35 / 10 ^ 15 → |a - c| ≤ 4 / x → |c| ≤ 2 → |besselJ n x| ≤ 4 / √x := by
    intro n a c h1 h2 h3
    have hb : |bessW besselJ n (√π) x| ≤ 4 := by
      have h1 := abs_le.1 h1
      have h2 := abs_le.1 (h2.trans h4)
      have h3 := abs_le.1 h3
      rw [abs_le]
      constructor <;> linarith [h1.1, h1.2, h2.1, h2.2, h3.1, h3.2]
    unfold bessW at hb
    rw [abs_mul, abs_mul, abs_of_pos hp, abs_of_pos hs] at hb
    rw [le_div_iff₀ hs]
    have : 0 ≤ √x * |besselJ n x| := by positivity
    nlinarith
  exact ⟨key 0 _ _ a1 f1 s1, key 1 _ _ a2 f2 s2⟩

/-- the values returned at infinity are the limits of `J₀` and `J₁` -/
theorem C117_limits : Tendsto (besselJ 0) atTop (𝓝 0) ∧ Tendsto (besselJ 0) atBot (𝓝 0) ∧ Tendsto (besselJ 1) atTop (𝓝 0) ∧ Tendsto (besselJ 1) atBot (𝓝 0) := by
  have h4 : Tendsto (fun x : ℝ => 4 / √x) atTop (𝓝 0) := tendsto_sqrt_atTop.const_div_atTop 4
  have t0 : Tendsto (besselJ 0) atTop (𝓝 0) := squeeze_zero_norm' (eventually_atTop.2 ⟨8, fun x hx => (besselJ_bound hx).1⟩) h4
  have t1 : Tendsto (besselJ 1) atTop (𝓝 0) := squeeze_zero_norm' (eventually_atTop.2 ⟨8, fun x hx => (besselJ_bound hx).2⟩) h4
  refine ⟨t0, ?_, t1, ?_⟩
  · refine (t0.comp tendsto_neg_atBot_atTop).congr fun x => ?_
    simp [besselJ_neg]
  · have := (t1.comp tendsto_neg_atBot_atTop).neg
    rw [neg_zero] at this
    refine this.congr fun x => ?_
    simp [besselJ_neg]

/-- at a zero of `J₀` the returned value is tiny -/
theorem C117_zero : ∃ x, 2 < x ∧ x < 3 ∧ besselJ 0 x = 0 ∧ ∃ y, besselJ0F (.fin x) = .ok (.fin y) ∧ |y| ≤ 2 / 10 ^ 14 := by
  obtain ⟨x, h1, h2, h3⟩ := besselJ_zero_exists
  obtain ⟨y, e, _, a⟩ := C117_j0_accurate x
  have hx : |x| = x := abs_of_pos (by linarith)
  rw [hx, h3, sub_zero] at a
  refine ⟨x, h1, h2, h3, y, e, (a h1.le).trans ?_⟩
  have : 1 ≤ √x := one_le_sqrt.2 (by linarith)
  exact div_le_self (by norm_num) this

end Russell.Lab
