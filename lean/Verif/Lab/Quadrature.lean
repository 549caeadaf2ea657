import Verif.Lab.BrentRoot
import Mathlib.Analysis.SpecialFunctions.Integrals.Basic
import Mathlib.Analysis.SpecialFunctions.Log.Deriv
import Mathlib.Analysis.SpecialFunctions.Pow.Real
import Mathlib.Tactic.Linarith
import Mathlib.Tactic.Ring
import Mathlib.Tactic.FieldSimp
import Mathlib.Tactic.NormNum

/-!
# Model of the adaptive Gauss quadrature (C86)

Model of russell_lab/src/algo/quadrature.rs with real numbers; exact arithmetic. The conversion of a float to `usize` is the
rounding towards zero (`Nat.floor`). The stopwatch is left out; the counters of `Stats` are modelled, and `error_estimate` is
only set when the statistics are enabled.
-/

namespace Russell.Lab

open Russell Russell.Res

/-! ### Gauss points: abscissae and weights -/

/-- `G6_A` and `G6_W` (/repo/russell_lab/src/algo/quadrature.rs:405-415) -/
def gauss6 : List (ℚ × ℚ) := [
  (6.612093864662644815410885712481103837490081787109375e-1, 3.607615730481386062677984227775596082210540771484375e-1),
  (2.386191860831969047129774708082550205290317535400390625e-1, 4.67913934572691037061531460494734346866607666015625e-1),
  (9.324695142031520500580654697841964662075042724609375e-1, 1.713244923791703566706701167277060449123382568359375e-1)]

/-- `G8_A` and `G8_W` (/repo/russell_lab/src/algo/quadrature.rs:417-429) -/
def gauss8 : List (ℚ × ℚ) := [
  (1.834346424956498078362443493460887111723423004150390625e-1, 3.62683783378361990212823684487375430762767791748046875e-1),
  (5.25532409916328990817646626965142786502838134765625e-1, 3.13706645877887269069361764195491559803485870361328125e-1),
  (7.966664774136267279658341067261062562465667724609375e-1, 2.22381034453374482051657423653523437678813934326171875e-1),
  (9.6028985649753628717206765941227786242961883544921875e-1, 1.01228536290376258666157127663609571754932403564453125e-1)]

/-- `G10_A` and `G10_W` (/repo/russell_lab/src/algo/quadrature.rs:431-445) -/
def gauss10 : List (ℚ × ℚ) := [
  (1.48874338981631215705903059642878361046314239501953125e-1, 2.95524224714752870024625508449389599263668060302734375e-1),
  (4.333953941292472133994806426926515996456146240234375e-1, 2.6926671930999634962944355720537714660167694091796875e-1),
  (6.7940956829902443558921731892041862010955810546875e-1, 2.190863625159820415877476307286997325718402862548828125e-1),
  (8.6506336668898453634568568304530344903469085693359375e-1, 1.494513491505805868886369580650352872908115386962890625e-1),
  (9.7390652851717174343093574861995875835418701171875e-1, 6.667134430868813799175853773704147897660732269287109375e-2)]

/-- `G12_A` and `G12_W` (/repo/russell_lab/src/algo/quadrature.rs:447-463) -/
def gauss12 : List (ℚ × ℚ) := [
  (1.2523340851146891328227184203569777309894561767578125e-1, 2.491470458134027732288728884668671526014804840087890625e-1),
  (3.67831498998180184134554338015732355415821075439453125e-1, 2.334925365383548057085505433860816992819309234619140625e-1),
  (5.8731795428661748292853417297010309994220733642578125e-1, 2.03167426723065924765165846110903657972812652587890625e-1),
  (7.699026741943046925342741815256886184215545654296875e-1, 1.600783285433462210800570346691529266536235809326171875e-1),
  (9.04117256370474908777623568312264978885650634765625e-1, 1.0693932599531842664308811663431697525084018707275390625e-1),
  (9.8156063424671924355635610481840558350086212158203125e-1, 4.7175336386511827757583859010992455296218395233154296875e-2)]

/-- `G14_A` and `G14_W` (/repo/russell_lab/src/algo/quadrature.rs:465-483) -/
def gauss14 : List (ℚ × ℚ) := [
  (1.080549487073436676354276642086915671825408935546875e-1, 2.1526385346315779489856367945321835577487945556640625e-1),
  (3.1911236892788974461865336706978268921375274658203125e-1, 2.051984637212956041896205761076998896896839141845703125e-1),
  (5.152486363581540995681962158414535224437713623046875e-1, 1.85538397477937821999915968262939713895320892333984375e-1),
  (6.8729290481168547888302100545843131840229034423828125e-1, 1.57203167158193546359967740499996580183506011962890625e-1),
  (8.27201315069765019671876871143467724323272705078125e-1, 1.2151857068790318516793291792055242694914340972900390625e-1),
  (9.2843488366357351804225572777795605361461639404296875e-1, 8.015808715976020792925993418975849635899066925048828125e-2),
  (9.8628380869681231413181876632734201848506927490234375e-1, 3.5119460331751860271420895287519670091569423675537109375e-2)]

/-- the table used for a number of points (/repo/russell_lab/src/algo/quadrature.rs:372-399) -/
def gaussTable (n : Nat) : Option (List (ℚ × ℚ)) :=
  if n = 6 then some gauss6
  else if n = 8 then some gauss8
  else if n = 10 then some gauss10
  else if n = 12 then some gauss12
  else if n = 14 then some gauss14
  else none

section model
variable {A : Type}

/-- the loop of `gauss` -/
noncomputable def gaussSum (f : Callback ℝ A) (x h : ℝ) : List (ℚ × ℚ) → ℝ → A → Res (ℝ × A)
  | [], sum, args => ok (sum, args)
  | (p, w) :: t, sum, args => do
    let (u, args) ← f (x - p * h) args
    let (v, args) ← f (x + p * h) args
    gaussSum f x h t (sum + w * (u + v)) args

/-- `gauss` (/repo/russell_lab/src/algo/quadrature.rs:367-401) -/
noncomputable def gauss (n : Nat) (x h : ℝ) (args : A) (f : Callback ℝ A) : Res (ℝ × A) :=
  match gaussTable n with
  | none => err "n_gauss must be 6, 8, 10, 12, or 14"
  | some t => do
    let (s, args) ← gaussSum f x h t 0 args
    ok (h * s, args)

/-- the constants `SQRT_2` and `LN2` (/repo/russell_lab/src/math/constants.rs:17-19, 57-58) -/
noncomputable def SQRT_2 : ℝ :=
  1.41421356237309504880168872420969807856967187537694807317667973799073247846210703885038753432764157
noncomputable def LN2 : ℝ :=
  0.693147180559945309417232121458176568075500134360255254120680009493393621969694715605863326996418687

/-- the parameters of `Quadrature` (/repo/russell_lab/src/algo/quadrature.rs:74-107); `stats` is `stats.enabled` -/
structure Quadrature where
  n_iteration_max : Nat
  tolerance : ℝ
  n_gauss : Nat
  stats : Bool

/-- `Quadrature::new` (/repo/russell_lab/src/algo/quadrature.rs:111-123) -/
noncomputable def Quadrature.new : Quadrature := ⟨300, 1e-10, 10, false⟩

open Classical in
/-- `Quadrature::validate` (/repo/russell_lab/src/algo/quadrature.rs:126-141) -/
noncomputable def Quadrature.validate (q : Quadrature) : Res Unit :=
  if q.n_iteration_max < 2 then err "n_iteration_max must be ≥ 2"
  else if q.tolerance < 10 * f64Eps then err "the tolerance must be ≥ 10.0 * f64::EPSILON"
  else if ¬ (q.n_gauss = 6 ∨ q.n_gauss = 8 ∨ q.n_gauss = 10 ∨ q.n_gauss = 12 ∨ q.n_gauss = 14) then
    err "n_gauss must be 6, 8, 10, 12, or 14"
  else ok ()

/-- the variables of `integrate`. The work vectors have `N_WORK + 1` = 61 components (/repo/russell_lab/src/algo/quadrature.rs:60,
116-120); they are represented by functions and the accesses are checked by `wget` and `wset`. -/
structure QState where
  l : Nat
  lmx : Nat
  k : Nat
  est : ℝ
  eps : ℝ
  ef : ℝ
  area : ℝ
  error : ℝ
  mxl : Bool
  aa : Nat → ℝ
  hh : Nat → ℝ
  vl : Nat → ℝ
  gr : Nat → ℝ
  lr : Nat → Int
  n_function : Nat
  n_iterations : Nat

/-- indexing of a work vector -/
def wget {β : Type} (v : Nat → β) (i : Nat) : Res β := if i < 61 then ok (v i) else panic

/-- assignment to a component of a work vector -/
def wset {β : Type} (v : Nat → β) (i : Nat) (x : β) : Res (Nat → β) := if i < 61 then ok (Function.update v i x) else panic

/-- `D1MACH5 * f64::MANTISSA_DIGITS / MAGIC as usize` (/repo/russell_lab/src/algo/quadrature.rs:54, 63, 226-228) -/
noncomputable def nBit : Nat := ⌊(0.30102999566398119521373889472449 * 53 / 0.30102000 : ℝ)⌋₊

open Classical in
/-- the maximum level (/repo/russell_lab/src/algo/quadrature.rs:229-257) -/
noncomputable def maxLevel (a b : ℝ) : Res Nat :=
  let n_lmx := min 60 (nBit * 5 / 8)
  if b ≠ 0 ∧ (if b < 0 then -1 else 1) * a > 0 ∧ |1 - a / b| ≤ 0.1 then do
    let nib := ⌊0.5 - Real.log |1 - a / b| / LN2⌋₊
    let d ← subUsize nBit nib
    let d ← subUsize d 7
    let lmx := min n_lmx d
    if lmx < 1 then err "the lower and upper bounds must not be so close one from another" else ok lmx
  else ok n_lmx

/-- `tol` (/repo/russell_lab/src/algo/quadrature.rs:259) -/
noncomputable def Quadrature.tol (q : Quadrature) : ℝ := max |q.tolerance| ((2 : ℝ) ^ (5 - (nBit : ℝ))) / 2

/-- what the `inc_*` functions of `Stats` add -/
def Quadrature.inc (q : Quadrature) (n : Nat) : Nat := if q.stats then n else 0

/-- the loop that returns to higher levels (/repo/russell_lab/src/algo/quadrature.rs:320-336); the result is `ans` if the first
level is reached -/
noncomputable def qReturn : (l : Nat) → ℝ → QState → Res (QState × Option ℝ)
  | 0, ans, s => ok (s, some ans)
  | 1, ans, s => ok (s, some ans)
  | l + 2, ans, s => do
    let s := { s with l := l + 1, eps := s.eps * 2, ef := s.ef * SQRT_2 }
    let lr ← wget s.lr (l + 1)
    let left ← wget s.vl (l + 2)
    if lr ≤ 0 then do
      let vl ← wset s.vl (l + 1) (left + ans)
      let est ← wget s.gr l
      let lr ← wset s.lr (l + 1) 1
      let aa ← wset s.aa (l + 1) ((← wget s.aa (l + 1)) + 4 * (← wget s.hh (l + 1)))
      ok ({ s with vl := vl, est := est, lr := lr, aa := aa }, none)
    else qReturn (l + 1) (ans + left) s

open Classical in
/-- one iteration (/repo/russell_lab/src/algo/quadrature.rs:282-348); the result is `ans` upon convergence -/
noncomputable def qStep (q : Quadrature) (f : Callback ℝ A) (s : QState) (args : A) : Res ((QState × Option ℝ) × A) := do
  let aal ← wget s.aa s.l
  let hhl ← wget s.hh s.l
  let (gl, args) ← gauss q.n_gauss (aal + hhl) hhl args f
  let (grl, args) ← gauss q.n_gauss (aal + 3 * hhl) hhl args f
  let gr ← wset s.gr s.l grl
  let glr := gl + grl
  let s := { s with
    gr := gr
    n_iterations := s.n_iterations + q.inc 1
    n_function := s.n_function + q.inc q.n_gauss + q.inc q.n_gauss
    k := s.k + 16
    area := s.area + (|gl| + |grl| - |s.est|) }
  let fails : Prop := |s.est - glr| * s.ef - max (s.eps * s.area) (q.tol * |glr|) > 0
  let s := { s with lmx := if fails ∧ s.k > 5000 then 6 else s.lmx }
  if fails ∧ ¬ s.l ≥ s.lmx then do
    let hh ← wset s.hh (s.l + 1) (hhl * 0.5)
    let lr ← wset s.lr (s.l + 1) (-1)
    let aa ← wset s.aa (s.l + 1) aal
    ok (({ s with l := s.l + 1, eps := s.eps * 0.5, ef := s.ef / SQRT_2, hh := hh, lr := lr, aa := aa, est := gl }, none), args)
  else do
    let s := { s with mxl := s.mxl || decide fails, error := s.error + (s.est - glr) }
    let lrl ← wget s.lr s.l
    if lrl > 0 then do
      let r ← qReturn s.l glr s
      ok (r, args)
    else do
      let vl ← wset s.vl s.l glr
      let prev ← subUsize s.l 1
      let est ← wget s.gr prev
      let lr ← wset s.lr s.l 1
      let aa ← wset s.aa s.l (aal + 4 * hhl)
      ok (({ s with vl := vl, est := est, lr := lr, aa := aa }, none), args)

/-- the iterations (/repo/russell_lab/src/algo/quadrature.rs:281-353); the first argument counts the iterations left -/
noncomputable def qLoop (q : Quadrature) (f : Callback ℝ A) : Nat → QState → A → Res ((QState × ℝ) × A)
  | 0, _, _ => err "integrate failed to converge"
  | n + 1, s, args => do
    let ((s, r), args) ← qStep q f s args
    match r with
    | some ans => ok ((s, ans), args)
    | none => qLoop q f n s args

/-- what is returned: the integral and the values of `Stats` (`none` if the error estimate is not set) -/
structure QResult where
  ans : ℝ
  n_function : Nat
  n_iterations : Nat
  error_estimate : Option ℝ

/-- the variables before the iterations (/repo/russell_lab/src/algo/quadrature.rs:216-278) -/
noncomputable def qStart (q : Quadrature) (a b : ℝ) (lmx : Nat) (est : ℝ) : QState where
  l := 1
  lmx := lmx
  k := 8
  est := est
  eps := q.tol
  ef := 0.5
  area := |est|
  error := 0
  mxl := false
  aa := Function.update (fun _ => 0) 1 a
  hh := Function.update (fun _ => 0) 1 ((b - a) / 4)
  vl := fun _ => 0
  gr := fun _ => 0
  lr := Function.update (fun _ => 0) 1 1
  n_function := q.inc q.n_gauss
  n_iterations := 0

open Classical in
/-- `Quadrature::integrate` (/repo/russell_lab/src/algo/quadrature.rs:201-363). The counters after an error are not modelled. -/
noncomputable def Quadrature.integrate (q : Quadrature) (a b : ℝ) (args : A) (f : Callback ℝ A) : Res (QResult × A) := do
  if |b - a| < 10 * f64Eps then err "the lower and upper bounds must be different from each other"
  else do
    q.validate
    let lmx ← maxLevel a b
    let (est, args) ← gauss q.n_gauss (a + 2 * ((b - a) / 4)) (2 * ((b - a) / 4)) args f
    let ((s, ans), args) ← qLoop q f q.n_iteration_max (qStart q a b lmx est) args
    if s.mxl = true ∧ |s.error| > 3 * q.tol * s.area then
      err "quadrature.integrate cannot achieve the desired tolerance"
    else ok (⟨ans, s.n_function, s.n_iterations, if q.stats then some s.error else none⟩, args)

end model

end Russell.Lab
