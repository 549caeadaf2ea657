import Mathlib.Data.Rat.Defs

/-!
# Methods and Runge-Kutta coefficients (russell_ode/src/enums.rs, constants.rs)

The coefficients are the exact values of the expressions in the source (quotients of integers, or decimal numbers).
-/

namespace Russell.Ode

/-- `Method` (enums.rs:53-126). -/
inductive Method where
  | Radau5 | BwEuler | FwEuler | Rk2 | Rk3 | Heun3 | Rk4 | Rk4alt | MdEuler | Merson4 | Zonneveld4 | Fehlberg4 | DoPri5
  | Verner6 | Fehlberg7 | DoPri8
  deriving DecidableEq

/-- `Information` (enums.rs:2-27). -/
structure Information where
  order : Nat
  order_of_estimator : Nat
  implicit : Bool
  embedded : Bool
  multiple_stages : Bool
  first_step_same_as_last : Bool

/-- `Method::information` (enums.rs:131-150). -/
def Method.information : Method → Information
  | .Radau5 => ⟨5, 4, true, true, true, false⟩
  | .BwEuler => ⟨1, 0, true, false, false, false⟩
  | .FwEuler => ⟨1, 0, false, false, false, false⟩
  | .Rk2 => ⟨2, 0, false, false, true, false⟩
  | .Rk3 => ⟨3, 0, false, false, true, false⟩
  | .Heun3 => ⟨3, 0, false, false, true, false⟩
  | .Rk4 => ⟨4, 0, false, false, true, false⟩
  | .Rk4alt => ⟨4, 0, false, false, true, false⟩
  | .MdEuler => ⟨2, 1, false, true, true, false⟩
  | .Merson4 => ⟨4, 3, false, true, true, false⟩
  | .Zonneveld4 => ⟨4, 3, false, true, true, false⟩
  | .Fehlberg4 => ⟨4, 4, false, true, true, false⟩
  | .DoPri5 => ⟨5, 4, false, true, true, true⟩
  | .Verner6 => ⟨6, 5, false, true, true, false⟩
  | .Fehlberg7 => ⟨7, 8, false, true, true, false⟩
  | .DoPri8 => ⟨8, 7, false, true, true, false⟩

/-- The coefficients of an explicit Runge-Kutta method: matrix `A`, weights `B`, nodes `C`, and the weights `E` of the error
estimate. -/
structure Tableau where
  aa : List (List ℚ)
  bb : List ℚ
  cc : List ℚ
  ee : Option (List ℚ)
  deriving DecidableEq

/-- `RUNGE_KUTTA_2_A`, `_B`, `_C` (constants.rs:22, 28, 31). -/
def rk2 : Tableau where
  aa :=
    [[0, 0],
     [1 / 2, 0]]
  bb := [0, 1]
  cc := [0, 1 / 2]
  ee := none

/-- `RUNGE_KUTTA_3_A`, `_B`, `_C` (constants.rs:38, 46, 49). -/
def rk3 : Tableau where
  aa :=
    [[0, 0, 0, 0],
     [1 / 2, 0, 0, 0],
     [0, 1, 0, 0],
     [0, 0, 1, 0]]
  bb := [1 / 6, 2 / 3, 0, 1 / 6]
  cc := [0, 1 / 2, 1, 1]
  ee := none

/-- `HEUN_3_A`, `_B`, `_C` (constants.rs:56, 63, 66). -/
def heun3 : Tableau where
  aa :=
    [[0, 0, 0],
     [1 / 3, 0, 0],
     [0, 2 / 3, 0]]
  bb := [1 / 4, 0, 3 / 4]
  cc := [0, 1 / 3, 2 / 3]
  ee := none

/-- `RUNGE_KUTTA_4_A`, `_B`, `_C` (constants.rs:73, 81, 84). -/
def rk4 : Tableau where
  aa :=
    [[0, 0, 0, 0],
     [1 / 2, 0, 0, 0],
     [0, 1 / 2, 0, 0],
     [0, 0, 1, 0]]
  bb := [1 / 6, 1 / 3, 1 / 3, 1 / 6]
  cc := [0, 1 / 2, 1 / 2, 1]
  ee := none

/-- `RUNGE_KUTTA_ALT_4_A`, `_B`, `_C` (constants.rs:91, 99, 102). -/
def rk4alt : Tableau where
  aa :=
    [[0, 0, 0, 0],
     [1 / 3, 0, 0, 0],
     [-1 / 3, 1, 0, 0],
     [1, -1, 1, 0]]
  bb := [1 / 8, 3 / 8, 3 / 8, 1 / 8]
  cc := [0, 1 / 3, 2 / 3, 1]
  ee := none

/-- `MODIFIED_EULER_A`, `_B`, `_C`, `_E` (constants.rs:109, 115, 122, 125). -/
def mdEuler : Tableau where
  aa :=
    [[0, 0],
     [1, 0]]
  bb := [1 / 2, 1 / 2]
  cc := [0, 1]
  ee := some [-1 / 2, 1 / 2]

/-- `MERSON_4_A`, `_B`, `_C`, `_E` (constants.rs:134, 143, 150, 153). -/
def merson4 : Tableau where
  aa :=
    [[0, 0, 0, 0, 0],
     [1 / 3, 0, 0, 0, 0],
     [1 / 6, 1 / 6, 0, 0, 0],
     [1 / 8, 0, 3 / 8, 0, 0],
     [1 / 2, 0, -3 / 2, 2, 0]]
  bb := [1 / 6, 0, 0, 2 / 3, 1 / 6]
  cc := [0, 1 / 3, 1 / 3, 1 / 2, 1]
  ee := some [1 / 15, 0, -3 / 10, 4 / 15, -1 / 30]

/-- `ZONNEVELD_4_A`, `_B`, `_C`, `_E` (constants.rs:160, 169, 176, 179). -/
def zonneveld4 : Tableau where
  aa :=
    [[0, 0, 0, 0, 0],
     [1 / 2, 0, 0, 0, 0],
     [0, 1 / 2, 0, 0, 0],
     [0, 0, 1, 0, 0],
     [5 / 32, 7 / 32, 13 / 32, -1 / 32, 0]]
  bb := [1 / 6, 1 / 3, 1 / 3, 1 / 6, 0]
  cc := [0, 1 / 2, 1 / 2, 1, 3 / 4]
  ee := some [2 / 3, -2, -2, -2, 16 / 3]

/-- `FEHLBERG_4_A`, `_B`, `_C`, `_E` (constants.rs:186, 196, 203, 206). -/
def fehlberg4 : Tableau where
  aa :=
    [[0, 0, 0, 0, 0, 0],
     [1 / 4, 0, 0, 0, 0, 0],
     [3 / 32, 9 / 32, 0, 0, 0, 0],
     [1932 / 2197, -7200 / 2197, 7296 / 2197, 0, 0, 0],
     [439 / 216, -8, 3680 / 513, -845 / 4104, 0, 0],
     [-8 / 27, 2, -3544 / 2565, 1859 / 4104, -11 / 40, 0]]
  bb := [25 / 216, 0, 1408 / 2565, 2197 / 4104, -1 / 5, 0]
  cc := [0, 1 / 4, 3 / 8, 12 / 13, 1, 1 / 2]
  ee := some [-1 / 360, 0, 128 / 4275, 2197 / 75240, -1 / 50, -2 / 55]

/-- `DORMAND_PRINCE_5_A`, `_B`, `_C`, `_E` (constants.rs:213, 224, 231, 234). -/
def doPri5 : Tableau where
  aa :=
    [[0, 0, 0, 0, 0, 0, 0],
     [1 / 5, 0, 0, 0, 0, 0, 0],
     [3 / 40, 9 / 40, 0, 0, 0, 0, 0],
     [44 / 45, -56 / 15, 32 / 9, 0, 0, 0, 0],
     [19372 / 6561, -25360 / 2187, 64448 / 6561, -212 / 729, 0, 0, 0],
     [9017 / 3168, -355 / 33, 46732 / 5247, 49 / 176, -5103 / 18656, 0, 0],
     [35 / 384, 0, 500 / 1113, 125 / 192, -2187 / 6784, 11 / 84, 0]]
  bb := [35 / 384, 0, 500 / 1113, 125 / 192, -2187 / 6784, 11 / 84, 0]
  cc := [0, 1 / 5, 3 / 10, 4 / 5, 8 / 9, 1, 1]
  ee := some [71 / 57600, 0, -71 / 16695, 71 / 1920, -17253 / 339200, 22 / 525, -1 / 40]

/-- `VERNER_6_A`, `_B`, `_C`, `_E` (constants.rs:255, 267, 274, 277). -/
def verner6 : Tableau where
  aa :=
    [[0, 0, 0, 0, 0, 0, 0, 0],
     [1 / 6, 0, 0, 0, 0, 0, 0, 0],
     [4 / 75, 16 / 75, 0, 0, 0, 0, 0, 0],
     [5 / 6, -8 / 3, 5 / 2, 0, 0, 0, 0, 0],
     [-165 / 64, 55 / 6, -425 / 64, 85 / 96, 0, 0, 0, 0],
     [12 / 5, -8, 4015 / 612, -11 / 36, 88 / 255, 0, 0, 0],
     [-8263 / 15000, 124 / 75, -643 / 680, -81 / 250, 2484 / 10625, 0, 0, 0],
     [3501 / 1720, -300 / 43, 297275 / 52632, -319 / 2322, 24068 / 84065, 0, 3850 / 26703, 0]]
  bb := [3 / 40, 0, 875 / 2244, 23 / 72, 264 / 1955, 0, 125 / 11592, 43 / 616]
  cc := [0, 1 / 6, 4 / 15, 2 / 3, 5 / 6, 1, 1 / 15, 1]
  ee := some [-1 / 160, 0, -125 / 17952, 1 / 144, -12 / 1955, -3 / 44, 125 / 11592, 43 / 616]

/-- `FEHLBERG_7_A`, `_B`, `_C`, `_E` (constants.rs:284, 301, 308, 311). -/
def fehlberg7 : Tableau where
  aa :=
    [[0, 0, 0, 0, 0, 0, 0, 0, 0, 0, 0, 0, 0],
     [2 / 27, 0, 0, 0, 0, 0, 0, 0, 0, 0, 0, 0, 0],
     [1 / 36, 1 / 12, 0, 0, 0, 0, 0, 0, 0, 0, 0, 0, 0],
     [1 / 24, 0, 1 / 8, 0, 0, 0, 0, 0, 0, 0, 0, 0, 0],
     [5 / 12, 0, -25 / 16, 25 / 16, 0, 0, 0, 0, 0, 0, 0, 0, 0],
     [1 / 20, 0, 0, 1 / 4, 1 / 5, 0, 0, 0, 0, 0, 0, 0, 0],
     [-25 / 108, 0, 0, 125 / 108, -65 / 27, 125 / 54, 0, 0, 0, 0, 0, 0, 0],
     [31 / 300, 0, 0, 0, 61 / 225, -2 / 9, 13 / 900, 0, 0, 0, 0, 0, 0],
     [2, 0, 0, -53 / 6, 704 / 45, -107 / 9, 67 / 90, 3, 0, 0, 0, 0, 0],
     [-91 / 108, 0, 0, 23 / 108, -976 / 135, 311 / 54, -19 / 60, 17 / 6, -1 / 12, 0, 0, 0, 0],
     [2383 / 4100, 0, 0, -341 / 164, 4496 / 1025, -301 / 82, 2133 / 4100, 45 / 82, 45 / 164, 18 / 41, 0, 0, 0],
     [3 / 205, 0, 0, 0, 0, -6 / 41, -3 / 205, -3 / 41, 3 / 41, 6 / 41, 0, 0, 0],
     [-1777 / 4100, 0, 0, -341 / 164, 4496 / 1025, -289 / 82, 2193 / 4100, 51 / 82, 33 / 164, 12 / 41, 0, 1, 0]]
  bb := [41 / 840, 0, 0, 0, 0, 34 / 105, 9 / 35, 9 / 35, 9 / 280, 9 / 280, 41 / 840, 0, 0]
  cc := [0, 2 / 27, 1 / 9, 1 / 6, 5 / 12, 1 / 2, 5 / 6, 1 / 6, 2 / 3, 1 / 3, 1, 0, 1]
  ee := some [41 / 840, 0, 0, 0, 0, 0, 0, 0, 0, 0, 41 / 840, -41 / 840, -41 / 840]

/-- `DORMAND_PRINCE_8_A`, `_B`, `_C`, `_E` (constants.rs:318, 334, 350, 366). -/
def doPri8 : Tableau where
  aa :=
    [[0, 0, 0, 0, 0, 0, 0, 0, 0, 0, 0, 0],
     [65750189948459664848198443061 / 1250000000000000000000000000000, 0, 0, 0, 0, 0, 0, 0, 0, 0, 0, 0],
     [197250569845378994544595329183 / 10000000000000000000000000000000,
      591751709536136983633785987549 / 10000000000000000000000000000000, 0, 0, 0, 0, 0, 0, 0, 0, 0, 0],
     [11835034190722739672675719751 / 400000000000000000000000000000, 0,
      221906891076051368862669745331 / 2500000000000000000000000000000, 0, 0, 0, 0, 0, 0, 0, 0, 0],
     [48273026831853337100473959733 / 200000000000000000000000000000, 0,
      -884549479328286085344864962717 / 1000000000000000000000000000000,
      924834003261792003115737966543 / 1000000000000000000000000000000, 0, 0, 0, 0, 0, 0, 0, 0],
     [37037037037037037037037037037 / 1000000000000000000000000000000, 0, 0,
      170828608729473871279604482173 / 1000000000000000000000000000000,
      125467687566822425016691814123 / 1000000000000000000000000000000, 0, 0, 0, 0, 0, 0, 0],
     [19 / 512, 0, 0, 10640763188721502457186128767 / 62500000000000000000000000000,
      602165389804559606850219397283 / 10000000000000000000000000000000, -9 / 512, 0, 0, 0, 0, 0, 0],
     [92730000296261981777194829959 / 2500000000000000000000000000000, 0, 0,
      34076785142447998762042810941 / 200000000000000000000000000000,
      1675969225724582572684518737 / 15625000000000000000000000000,
      -38298594371561004381984039559 / 2500000000000000000000000000000,
      413689458190701144379236883001 / 50000000000000000000000000000000, 0, 0, 0, 0, 0],
     [156027739679018929278607394453 / 250000000000000000000000000000, 0, 0,
      -13443570517787765176274284393 / 4000000000000000000000000000,
      -868219346841726006818189891453 / 1000000000000000000000000000000,
      275920996994467083049415600797 / 10000000000000000000000000000,
      201540675504778934086186788979 / 10000000000000000000000000000,
      -54362355226337448559670781893 / 1250000000000000000000000000, 0, 0, 0, 0],
     [477662536438264365890433908527 / 1000000000000000000000000000000, 0, 0,
      -62202865499291691048160646617 / 25000000000000000000000000000,
      -590290826836842996371446475743 / 1000000000000000000000000000000,
      212300514481811942347288949897 / 10000000000000000000000000000,
      76396168164412117916298461469 / 5000000000000000000000000000,
      -332882109689848629194453265587 / 10000000000000000000000000000,
      -203312017085086261358222928593 / 10000000000000000000000000000000, 0, 0, 0],
     [-46857121504299366285852010829 / 50000000000000000000000000000, 0, 0,
      518637242884406370830023853209 / 100000000000000000000000000000,
      54571867449836478909250127327 / 50000000000000000000000000000,
      -814978701074692612513997267357 / 100000000000000000000000000000,
      -185200656599969598641566180701 / 10000000000000000000000000000,
      113697435496752521409485028367 / 5000000000000000000000000000,
      124680277633982619493544698381 / 50000000000000000000000000000,
      -15233822359491097501911834511 / 5000000000000000000000000000, 0, 0],
     [227331014751653820792359768449 / 100000000000000000000000000000, 0, 0,
      -105344954667372501984066689879 / 10000000000000000000000000000,
      -50021801455621562477418929611 / 25000000000000000000000000000,
      -89794659315593994586382975267 / 5000000000000000000000000000,
      279488845294199600508499808837 / 10000000000000000000000000000,
      -142949913856751184737032754337 / 50000000000000000000000000000,
      -443642846676531477216774644629 / 50000000000000000000000000000,
      15450708969742878830908275191 / 1250000000000000000000000000,
      321696373007881765177985242023 / 500000000000000000000000000000, 0]]
  bb := [542937341165687622380535766363 / 10000000000000000000000000000000, 0, 0, 0, 0,
      222515644637620444072056975283 / 50000000000000000000000000000,
      47287947482862509576070399761 / 25000000000000000000000000000,
      -58012039600105847814672114227 / 10000000000000000000000000000,
      31116436695781989440891606237 / 100000000000000000000000000000,
      -30432189932503215711235761361 / 200000000000000000000000000000,
      201365400804030348374776537501 / 1000000000000000000000000000000,
      447106157277725905176885569043 / 10000000000000000000000000000000]
  cc := [0,
      355051025721682190180271592529410860803405251934333 / 6750000000000000000000000000000000000000000000000000,
      355051025721682190180271592529410860803405251934333 / 4500000000000000000000000000000000000000000000000000,
      355051025721682190180271592529410860803405251934333 / 3000000000000000000000000000000000000000000000000000,
      844948974278317809819728407470589139196594748065667 / 3000000000000000000000000000000000000000000000000000,
      1 / 3, 1 / 4, 4 / 13, 127 / 195, 3 / 5, 6 / 7, 1]
  ee := some [328001124854872018312525749 / 25000000000000000000000000000, 0, 0, 0, 0,
      -1225156446376204440720569753 / 1000000000000000000000000000,
      -309849343535781369700879997 / 625000000000000000000000000,
      332875436490997307392306083 / 200000000000000000000000000,
      -350328848749973681688648729 / 1000000000000000000000000000,
      3341791187130174790297318841 / 10000000000000000000000000000,
      8192320648511571246570742613 / 100000000000000000000000000000,
      -447106157277725905176885569 / 20000000000000000000000000000]

/-- The coefficients selected by `ExplicitRungeKutta::new` (explicit_runge_kutta.rs:83-120); `none` is the error. -/
def Method.tableau : Method → Option Tableau
  | .Radau5 => none
  | .BwEuler => none
  | .FwEuler => none
  | .Rk2 => some rk2
  | .Rk3 => some rk3
  | .Heun3 => some heun3
  | .Rk4 => some rk4
  | .Rk4alt => some rk4alt
  | .MdEuler => some mdEuler
  | .Merson4 => some merson4
  | .Zonneveld4 => some zonneveld4
  | .Fehlberg4 => some fehlberg4
  | .DoPri5 => some doPri5
  | .Verner6 => some verner6
  | .Fehlberg7 => some fehlberg7
  | .DoPri8 => some doPri8

/-- `DORMAND_PRINCE_5_D` (constants.rs:237). -/
def doPri5D : List (List ℚ) :=
  [[-12715105075 / 11282082432, 0, 87487479700 / 32700410799, -10690763975 / 1880347072, 701980252875 / 199316789632,
    -1453857185 / 822651844, 69997945 / 29380423]]

/-- `DORMAND_PRINCE_8_AD` (constants.rs:458). -/
def doPri8AD : List (List ℚ) :=
  [[561675022830479523392909219681 / 10000000000000000000000000000000, 0, 0, 0, 0, 0,
    253500210216624811088794765333 / 1000000000000000000000000000000,
    -246239037470802489917441475441 / 1000000000000000000000000000000,
    -62095711631908180234505070313 / 500000000000000000000000000000,
    3065835965575313946241264537 / 20000000000000000000000000000,
    820105229563468988491666602057 / 100000000000000000000000000000000,
    47299360378410623508662724349 / 6250000000000000000000000000000, -4149 / 500000, 0, 0],
   [318346481635021405060768473261 / 10000000000000000000000000000000, 0, 0, 0, 0,
    141504548361833877644161480701 / 5000000000000000000000000000000,
    133854970768596419055949346093 / 2500000000000000000000000000000,
    -274618742856954942323284670153 / 5000000000000000000000000000000, 0, 0,
    -54173664348624661429254658497 / 500000000000000000000000000000000,
    382571090835658412954920192323 / 1000000000000000000000000000000000,
    -85116252171851140200744278623 / 250000000000000000000000000000000,
    70656221837316250139037309183 / 500000000000000000000000000000, 0],
   [-107224075395947980852143384673 / 250000000000000000000000000000, 0, 0, 0, 0,
    -234881070768058192157224723603 / 50000000000000000000000000000,
    384171059803129952092120476939 / 50000000000000000000000000000,
    406898981839711007970213554331 / 100000000000000000000000000000,
    356727187455281109270669543021 / 1000000000000000000000000000000, 0, 0, 0,
    -69951208257950731064709004867 / 50000000000000000000000000000000,
    29475147891527723389556272149 / 10000000000000000000000000000,
    -457547923608993500540935093569 / 50000000000000000000000000000]]

/-- `DORMAND_PRINCE_8_CD` (constants.rs:513). -/
def doPri8CD : List ℚ := [1 / 10, 1 / 5, 7 / 9]

/-- `DORMAND_PRINCE_8_D` (constants.rs:382). -/
def doPri8D : List (List ℚ) :=
  [[-42144691380545064325676745571 / 5000000000000000000000000000, 0, 0, 0, 0,
    5667149535193777696253178359 / 10000000000000000000000000000,
    -30689499459498916912797304727 / 10000000000000000000000000000,
    298083457064008728596601871 / 125000000000000000000000000,
    10585172912225141383577574973 / 5000000000000000000000000000,
    -8713915837779729920678990749 / 10000000000000000000000000000,
    448087486052157655170835433 / 200000000000000000000000000,
    6315787787694688181557024929 / 10000000000000000000000000000,
    -444951682256666554103490587 / 5000000000000000000000000000,
    9074252760427363628328202481 / 500000000000000000000000000,
    -22986580981195888500112996109 / 2500000000000000000000000000,
    -11090090968987234916077643 / 2500000000000000000000000],
   [10427508642579134603413151009 / 1000000000000000000000000000, 0, 0, 0, 0,
    24228349177525818288430175319 / 100000000000000000000000000,
    16520045171727028198505394887 / 100000000000000000000000000,
    -4681834434033627534939789019 / 12500000000000000000000000,
    -11056833426562653018135469289 / 500000000000000000000000000,
    9666790835590329798700487351 / 1250000000000000000000000000,
    -15337042365544699091030606813 / 500000000000000000000000000,
    -46660652632151139364783610853 / 5000000000000000000000000000,
    627889524870833755445243643 / 40000000000000000000000000,
    -31139403219565177677282850411 / 1000000000000000000000000000,
    -11691155448555597983214232833 / 1250000000000000000000000000,
    1790842074319704187623294927 / 50000000000000000000000000],
   [19985053242002433820987653617 / 1000000000000000000000000000, 0, 0, 0, 0,
    -19351865437467588277552950871 / 50000000000000000000000000,
    -2364726727439594610353854791 / 12500000000000000000000000,
    26390407960271182450280508343 / 50000000000000000000000000,
    -5786951269979815063070935567 / 500000000000000000000000000,
    68812326946963000169666922661 / 10000000000000000000000000000,
    -500302548345541920159193049 / 500000000000000000000000000,
    3888568899026721604643463287 / 5000000000000000000000000000,
    -27782057523535084065932004339 / 10000000000000000000000000000,
    -30098347615632060379133690423 / 500000000000000000000000000,
    10540050688334645127269987973 / 125000000000000000000000000,
    1199229113618278932803513003 / 100000000000000000000000000],
   [-25693933462703749003312586129 / 1000000000000000000000000000, 0, 0, 0, 0,
    -15418974869023643374053993627 / 100000000000000000000000000,
    -23152937917604549567536039109 / 100000000000000000000000000,
    3576391179106141237828534991 / 10000000000000000000000000,
    11675665522953038750488461463 / 125000000000000000000000000,
    -37458323136451633156875139351 / 1000000000000000000000000000,
    1301245618862028755643405773 / 12500000000000000000000000,
    29840293426660503123344363579 / 1000000000000000000000000000,
    -21766728295005571877216087529 / 500000000000000000000000000,
    481622769795941414741974753 / 5000000000000000000000000,
    -9794315418903859791307871543 / 250000000000000000000000000,
    -3743170906449640645355531319 / 25000000000000000000000000]]

/-- `DORMAND_PRINCE_8_BHH1` (constants.rs:519). -/
def doPri8Bhh1 : ℚ := 30511811023622047244094488189 / 125000000000000000000000000000

/-- `DORMAND_PRINCE_8_BHH2` (constants.rs:520). -/
def doPri8Bhh2 : ℚ := 733846688281611857341361741547 / 1000000000000000000000000000000

/-- `DORMAND_PRINCE_8_BHH3` (constants.rs:521). -/
def doPri8Bhh3 : ℚ := 55147058823529411764705882353 / 2500000000000000000000000000000

end Russell.Ode
