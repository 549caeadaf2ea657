import Verif.Ode.EulerForward
import Verif.Ode.Tableaux

/-!
# Model of the explicit Runge-Kutta methods (russell_ode/src/explicit_runge_kutta.rs, erk_dense_out.rs, detect_stiffness.rs)

Generic in the type `K` of the numbers, like the rest of the ODE model. `sqrt` and `powf` are parameters (`MathFns`). A matrix
of coefficients is a list of rows. Debug messages are left out. The fields of `Params` that the methods read are collected in
`ErkParams`.
-/

namespace Russell.Ode

open Russell Russell.Res Russell.Lab

variable {K σ : Type}

/-- `f64::sqrt` and `f64::powf`. -/
structure MathFns (K : Type) where
  sqrt : K → K
  powf : K → K → K

/-- The parameters read by the explicit methods (params.rs:5-15, 58-109, 112-144, 189-203, 221-248). -/
structure ErkParams (K : Type) where
  method : Method
  tol_abs : K
  tol_rel : K
  m_min : K
  m_max : K
  m_safety : K
  lund_beta : K
  lund_m : K
  stiff_enabled : Bool
  stop_with_error : Bool
  ratified_after_nstep : Nat
  ignored_after_nstep : Nat
  skip_first_n_accepted_step : Nat
  h_times_rho_max : K

/-- `ErkDenseOut` (erk_dense_out.rs:7-22). -/
structure ErkDense (K : Type) where
  method : Method
  ndim : Nat
  d : List (List K)
  kd : List (List K)
  yd : List K

/-- `ExplicitRungeKutta` (explicit_runge_kutta.rs:23-76), without the system. -/
structure Erk (K : Type) where
  params : ErkParams K
  info : Information
  aa : List (List K)
  bb : List K
  cc : List K
  ee : Option (List K)
  nstage : Nat
  lund_factor : K
  d_min : K
  d_max : K
  v : List (List K)
  k : List (List K)
  w : List K
  dense_out : Option (ErkDense K)

/-- `a[i][j]`. -/
def get2 (a : List (List K)) (i j : Nat) : Res K := do
  let r ← vget a i
  vget r j

/-- `a[i][j] = x`. -/
def set2 (a : List (List K)) (i j : Nat) (x : K) : Res (List (List K)) := do
  let r ← vget a i
  let r ← vset r j x
  vset a i r

/-- A vector of zeros (`Vector::new`). -/
def zeros [F64Ops K] (n : Nat) : List K := List.replicate n (lit 0)

section
variable [Add K] [Sub K] [Mul K] [Div K] [LE K] [LT K] [DecidableLE K] [DecidableLT K] [F64Ops K]

/-- `vec_update(v, α, u).unwrap()`: `v += α u`; panics when the lengths differ. -/
def vecUpdate (v : List K) (α : K) (u : List K) : Res (List K) :=
  if u.length ≠ v.length then Res.panic else ok (List.zipWith (fun a b => a + α * b) v u)

/-- `f64::abs`. -/
def fabs (a : K) : K := if a ≤ lit 0 then lit 0 - a else a

/-! ### Dense output -/

/-- The message of `ErkDenseOut::new` (erk_dense_out.rs:28-48). -/
def denseRefusal : Method → String
  | .Radau5 => "INTERNAL ERROR: cannot use Radau5 with ErkDenseOut"
  | .BwEuler => "INTERNAL ERROR: cannot use BwEuler with ErkDenseOut"
  | .FwEuler => "INTERNAL ERROR: cannot use FwEuler with ErkDenseOut"
  | .Rk2 => "dense output is not available for the Rk2 method"
  | .Rk3 => "dense output is not available for the Rk3 method"
  | .Heun3 => "dense output is not available for the Heun3 method"
  | .Rk4 => "dense output is not available for the Rk4 method"
  | .Rk4alt => "dense output is not available for the Rk4alt method"
  | .MdEuler => "dense output is not available for the MdEuler method"
  | .Merson4 => "dense output is not available for the Merson4 method"
  | .Zonneveld4 => "dense output is not available for the Zonneveld4 method"
  | .Fehlberg4 => "dense output is not available for the Fehlberg4 method"
  | .Verner6 => "dense output is not available for the Verner6 method"
  | .Fehlberg7 => "dense output is not available for the Fehlberg7 method"
  | .DoPri5 => ""
  | .DoPri8 => ""

/-- `ErkDenseOut::new` (erk_dense_out.rs:26-57). -/
def ErkDense.new (method : Method) (ndim : Nat) : Res (ErkDense K) :=
  if method = .DoPri5 then
    ok { method := method, ndim := ndim, d := List.replicate 5 (zeros ndim), kd := [], yd := [] }
  else if method = .DoPri8 then
    ok { method := method, ndim := ndim, d := List.replicate 8 (zeros ndim), kd := List.replicate 3 (zeros ndim),
         yd := zeros ndim }
  else Res.err (denseRefusal method)

/-- The sum of `coef * k[i][m]` over the pairs `(coef, i)`, from left to right. -/
def sumTerms (k : List (List K)) (m : Nat) : List (K × Nat) → Res K
  | [] => ok (lit 0)
  | (c, i) :: l => do
    let a ← get2 k i m
    forList l (c * a) fun t s => do
      let a ← get2 k t.2 m
      ok (s + t.1 * a)

/-- An entry of a table of constants. -/
def coef (t : List (List ℚ)) (i j : Nat) : K := lit ((t.getD i []).getD j 0)

/-- The body of the loop of `update` for DoPri5 (erk_dense_out.rs:75-87). -/
def dense5Body (y : List K) (h : K) (w : List K) (k : List (List K)) (m : Nat) (d : List (List K)) :
    Res (List (List K)) := do
  let wm ← vget w m
  let ym ← vget y m
  let y_diff := wm - ym
  let k0 ← get2 k 0 m
  let b_spl := h * k0 - y_diff
  let d ← set2 d 0 m ym
  let d ← set2 d 1 m y_diff
  let d ← set2 d 2 m b_spl
  let k6 ← get2 k 6 m
  let d ← set2 d 3 m (y_diff - h * k6 - b_spl)
  let s ← sumTerms k m [(coef doPri5D 0 0, 0), (coef doPri5D 0 2, 2), (coef doPri5D 0 3, 3), (coef doPri5D 0 4, 4),
    (coef doPri5D 0 5, 5), (coef doPri5D 0 6, 6)]
  set2 d 4 m (s * h)

/-- `yd[m] = y[m] + h * (sum)` for all components (erk_dense_out.rs:97-107, 112-122, 127-137). -/
def denseStage (ndim : Nat) (y : List K) (h : K) (k : List (List K)) (terms : List (K × Nat)) (yd : List K) : Res (List K) :=
  forRange 0 ndim yd fun m yd => do
    let ym ← vget y m
    let s ← sumTerms k m terms
    vset yd m (ym + h * s)

/-- The terms of the three additional stages of DoPri8; the vectors `kd` have the numbers 12, 13, 14. The code takes `k[11]`
with the coefficient of column 12 (erk_dense_out.rs:99-106, 114-121, 129-136). -/
def dense8Stage : Nat → List (K × Nat)
  | 0 => [(coef doPri8AD 0 0, 0), (coef doPri8AD 0 6, 6), (coef doPri8AD 0 7, 7), (coef doPri8AD 0 8, 8),
      (coef doPri8AD 0 9, 9), (coef doPri8AD 0 10, 10), (coef doPri8AD 0 11, 11), (coef doPri8AD 0 12, 11)]
  | 1 => [(coef doPri8AD 1 0, 0), (coef doPri8AD 1 5, 5), (coef doPri8AD 1 6, 6), (coef doPri8AD 1 7, 7),
      (coef doPri8AD 1 10, 10), (coef doPri8AD 1 11, 11), (coef doPri8AD 1 12, 11), (coef doPri8AD 1 13, 12)]
  | _ => [(coef doPri8AD 2 0, 0), (coef doPri8AD 2 5, 5), (coef doPri8AD 2 6, 6), (coef doPri8AD 2 7, 7),
      (coef doPri8AD 2 8, 8), (coef doPri8AD 2 12, 11), (coef doPri8AD 2 13, 12), (coef doPri8AD 2 14, 13)]

/-- The terms of `d[4 + r]` (erk_dense_out.rs:149-200). -/
def dense8Terms (r : Nat) : List (K × Nat) :=
  [(coef doPri8D r 0, 0), (coef doPri8D r 5, 5), (coef doPri8D r 6, 6), (coef doPri8D r 7, 7), (coef doPri8D r 8, 8),
    (coef doPri8D r 9, 9), (coef doPri8D r 10, 10), (coef doPri8D r 11, 11), (coef doPri8D r 12, 11),
    (coef doPri8D r 13, 12), (coef doPri8D r 14, 13), (coef doPri8D r 15, 14)]

/-- The body of the last loop of `update` for DoPri8 (erk_dense_out.rs:143-200); `kk` is `k` followed by `kd`. -/
def dense8Body (y : List K) (h : K) (w : List K) (kk : List (List K)) (m : Nat) (d : List (List K)) :
    Res (List (List K)) := do
  let wm ← vget w m
  let ym ← vget y m
  let y_diff := wm - ym
  let k0 ← get2 kk 0 m
  let b_spl := h * k0 - y_diff
  let d ← set2 d 0 m ym
  let d ← set2 d 1 m y_diff
  let d ← set2 d 2 m b_spl
  let k11 ← get2 kk 11 m
  let d ← set2 d 3 m (y_diff - h * k11 - b_spl)
  let s ← sumTerms kk m (dense8Terms 0)
  let d ← set2 d 4 m (h * s)
  let s ← sumTerms kk m (dense8Terms 1)
  let d ← set2 d 5 m (h * s)
  let s ← sumTerms kk m (dense8Terms 2)
  let d ← set2 d 6 m (h * s)
  let s ← sumTerms kk m (dense8Terms 3)
  set2 d 7 m (h * s)

/-- One additional stage of DoPri8 (erk_dense_out.rs:97-109, 112-124, 127-139). -/
def dense8Eval (sys : System K σ) (x : K) (y : List K) (h : K) (k : List (List K)) (i : Nat) (o : ErkDense K) (args : σ) :
    Res (ErkDense K × σ) := do
  let yd ← denseStage o.ndim y h (k ++ o.kd) (dense8Stage i) o.yd
  let kdi ← vget o.kd i
  let (kdi, args) ← sys.function kdi (x + lit (doPri8CD.getD i 0) * h) yd args
  let kd ← vset o.kd i kdi
  ok ({ o with yd := yd, kd := kd }, args)

/-- `ErkDenseOut::update` (erk_dense_out.rs:60-206); gives the number of function evaluations. -/
def ErkDense.update (sys : System K σ) (o : ErkDense K) (x : K) (y : List K) (h : K) (w : List K) (k : List (List K))
    (args : σ) : Res (ErkDense K × Nat × σ) :=
  if o.method = .DoPri5 then do
    let d ← forRange 0 o.ndim o.d (dense5Body y h w k)
    ok ({ o with d := d }, 0, args)
  else if o.method = .DoPri8 then do
    let (o, args) ← dense8Eval sys x y h k 0 o args
    let (o, args) ← dense8Eval sys x y h k 1 o args
    let (o, args) ← dense8Eval sys x y h k 2 o args
    let d ← forRange 0 o.ndim o.d (dense8Body y h w (k ++ o.kd))
    ok ({ o with d := d }, 3, args)
  else ok (o, 0, args)

/-- The body of the loop of `calculate` for DoPri5 (erk_dense_out.rs:215-217). -/
def calc5Body (d : List (List K)) (theta u_theta : K) (m : Nat) (y_out : List K) : Res (List K) := do
  let d0 ← get2 d 0 m
  let d1 ← get2 d 1 m
  let d2 ← get2 d 2 m
  let d3 ← get2 d 3 m
  let d4 ← get2 d 4 m
  vset y_out m (d0 + theta * (d1 + u_theta * (d2 + theta * (d3 + u_theta * d4))))

/-- The body of the loop of `calculate` for DoPri8 (erk_dense_out.rs:225-227). -/
def calc8Body (d : List (List K)) (theta u_theta : K) (m : Nat) (y_out : List K) : Res (List K) := do
  let d4 ← get2 d 4 m
  let d5 ← get2 d 5 m
  let d6 ← get2 d 6 m
  let d7 ← get2 d 7 m
  let par := d4 + theta * (d5 + u_theta * (d6 + theta * d7))
  let d0 ← get2 d 0 m
  let d1 ← get2 d 1 m
  let d2 ← get2 d 2 m
  let d3 ← get2 d 3 m
  vset y_out m (d0 + theta * (d1 + u_theta * (d2 + theta * (d3 + u_theta * par))))

/-- `ErkDenseOut::calculate` (erk_dense_out.rs:209-230). -/
def ErkDense.calculate (o : ErkDense K) (y_out : List K) (x_out x h : K) : Res (List K) :=
  let x_prev := x - h
  let theta := (x_out - x_prev) / h
  let u_theta := lit 1 - theta
  if o.method = .DoPri5 then forRange 0 o.ndim y_out (calc5Body o.d theta u_theta)
  else if o.method = .DoPri8 then forRange 0 o.ndim y_out (calc8Body o.d theta u_theta)
  else ok y_out

/-! ### Stiffness -/

/-- `detect_stiffness` (detect_stiffness.rs:5-28). In case of the error the workspace is lost, but `solve` returns then. -/
def detectStiffness (work : Workspace K) (x : K) (p : ErkParams K) : Res (Workspace K) :=
  let work : Workspace K := { work with stiff_detected := false }
  if work.stats.n_accepted ≤ p.skip_first_n_accepted_step then ok work
  else if p.h_times_rho_max < work.stiff_h_times_rho then
    let work : Workspace K :=
      { work with
        stiff_x_first_detect := fmin x work.stiff_x_first_detect
        stiff_n_detection_no := 0
        stiff_n_detection_yes := work.stiff_n_detection_yes + 1 }
    if work.stiff_n_detection_yes = p.ratified_after_nstep then
      if p.stop_with_error then Res.err "stiffness detected" else ok { work with stiff_detected := true }
    else ok work
  else
    let work : Workspace K := { work with stiff_n_detection_no := work.stiff_n_detection_no + 1 }
    if work.stiff_n_detection_no = p.ignored_after_nstep then
      ok { work with stiff_x_first_detect := f64Max, stiff_n_detection_yes := 0 }
    else ok work

/-! ### The method -/

/-- `ExplicitRungeKutta::new` (explicit_runge_kutta.rs:80-147). -/
def Erk.new (sys : System K σ) (p : ErkParams K) : Res (Erk K) :=
  match p.method.tableau with
  | none => Res.err "cannot use this method with ExplicitRungeKutta"
  | some t =>
    let info := p.method.information
    let nstage := t.bb.length
    ok {
      params := p
      info := info
      aa := t.aa.map fun r => r.map lit
      bb := t.bb.map lit
      cc := t.cc.map lit
      ee := if info.embedded then t.ee.map fun r => r.map lit else none
      nstage := nstage
      lund_factor := lit 1 / lit ((info.order_of_estimator + 1 : Nat) : ℚ) - p.lund_beta * p.lund_m
      d_min := lit 1 / p.m_min
      d_max := lit 1 / p.m_max
      v := List.replicate nstage (zeros sys.ndim)
      k := List.replicate nstage (zeros sys.ndim)
      w := zeros sys.ndim
      dense_out := none }

/-- The computation of `k0` (explicit_runge_kutta.rs:164-167). -/
def Erk.first (sys : System K σ) (e : Erk K) (work : Workspace K) (x : K) (y : List K) (args : σ) :
    Res (List (List K) × Workspace K × σ) :=
  if (work.stats.n_accepted = 0 ∨ ¬ e.info.first_step_same_as_last = true) ∧ ¬ work.follows_reject_step = true then do
    let k0 ← vget e.k 0
    let (k0, args) ← sys.function k0 x y args
    let k ← vset e.k 0 k0
    ok (k, work.addFunction 1, args)
  else ok (e.k, work, args)

/-- The vector `v[i]` (explicit_runge_kutta.rs:172-175). -/
def Erk.stageVector (e : Erk K) (y : List K) (h : K) (i : Nat) (k : List (List K)) (vi : List K) : Res (List K) := do
  let vi ← copyInto vi y
  forRange 0 i vi fun j vi => do
    let a ← get2 e.aa i j
    let kj ← vget k j
    vecUpdate vi (h * a) kj

/-- The variables of the loop over the stages. -/
structure ErkStages (K σ : Type) where
  v : List (List K)
  k : List (List K)
  work : Workspace K
  args : σ

/-- One turn of the loop over the stages (explicit_runge_kutta.rs:171-177). -/
def Erk.stage (sys : System K σ) (e : Erk K) (x : K) (y : List K) (h : K) (i : Nat) (s : ErkStages K σ) :
    Res (ErkStages K σ) := do
  let ci ← vget e.cc i
  let ui := x + h * ci
  let vi ← vget s.v i
  let vi ← e.stageVector y h i s.k vi
  let v ← vset s.v i vi
  let ki ← vget s.k i
  let (ki, args) ← sys.function ki ui vi s.args
  let k ← vset s.k i ki
  ok { v := v, k := k, work := s.work.addFunction 1, args := args }

/-- The update of a component without error estimate (explicit_runge_kutta.rs:183-186). -/
def Erk.plainBody (e : Erk K) (y : List K) (h : K) (k : List (List K)) (m : Nat) (w : List K) : Res (List K) := do
  let ym ← vget y m
  let w ← vset w m ym
  forRange 0 e.nstage w fun i w => do
    let b ← vget e.bb i
    let kim ← get2 k i m
    let wm ← vget w m
    vset w m (wm + b * kim * h)

/-- The scaling of the error of a component (explicit_runge_kutta.rs:210, 231). -/
def Erk.scale (e : Erk K) (ym wm : K) : K := e.params.tol_abs + e.params.tol_rel * fmax (fabs ym) (fabs wm)

/-- The update of a component with error estimate (explicit_runge_kutta.rs:224-233). -/
def Erk.errorBody (e : Erk K) (ee : List K) (y : List K) (h : K) (k : List (List K)) (m : Nat) (s : List K × K) :
    Res (List K × K) := do
  let ym ← vget y m
  let w ← vset s.1 m ym
  let (w, err_m) ← forRange 0 e.nstage (w, (lit 0 : K)) fun i t => do
    let kim ← get2 k i m
    let kh := kim * h
    let b ← vget e.bb i
    let wm ← vget t.1 m
    let w ← vset t.1 m (wm + b * kh)
    let ei ← vget ee i
    ok (w, t.2 + ei * kh)
  let wm ← vget w m
  let ratio := err_m / e.scale ym wm
  ok (w, s.2 + ratio * ratio)

/-- The update of a component with the error estimates of DoPri8 (explicit_runge_kutta.rs:202-213). -/
def Erk.errorBody8 (e : Erk K) (ee : List K) (y : List K) (h : K) (k : List (List K)) (m : Nat) (s : List K × K × K) :
    Res (List K × K × K) := do
  let ym ← vget y m
  let w ← vset s.1 m ym
  let (w, err_a, err_b) ← forRange 0 e.nstage (w, (lit 0 : K), (lit 0 : K)) fun i t => do
    let kim ← get2 k i m
    let b ← vget e.bb i
    let wm ← vget t.1 m
    let w ← vset t.1 m (wm + b * kim * h)
    let ei ← vget ee i
    ok (w, t.2.1 + b * kim, t.2.2 + ei * kim)
  let wm ← vget w m
  let sk := e.scale ym wm
  let k0 ← get2 k 0 m
  let k8 ← get2 k 8 m
  let k11 ← get2 k 11 m
  let err_a := err_a - (lit doPri8Bhh1 * k0 + lit doPri8Bhh2 * k8 + lit doPri8Bhh3 * k11)
  ok (w, s.2.1 + (err_a / sk) * (err_a / sk), s.2.2 + (err_b / sk) * (err_b / sk))

/-- The update and the error estimate (explicit_runge_kutta.rs:181-236): the new `w` and, for the embedded methods, the new
`rel_error`. -/
def Erk.update (fns : MathFns K) (ndim : Nat) (e : Erk K) (y : List K) (h : K) (k : List (List K)) (rel_error : K) :
    Res (List K × K) :=
  if ¬ e.info.embedded = true then do
    let w ← forRange 0 ndim e.w (e.plainBody y h k)
    ok (w, rel_error)
  else
    match e.ee with
    | none => Res.panic
    | some ee =>
      if e.params.method = .DoPri8 then do
        let (w, err_3, err_5) ← forRange 0 ndim (e.w, (lit 0 : K), (lit 0 : K)) (e.errorBody8 ee y h k)
        let den := err_5 + lit (1 / 100) * err_3
        let den := if den ≤ lit 0 then lit 1 else den
        ok (w, fabs h * err_5 * fns.sqrt (lit 1 / (lit (ndim : ℚ) * den)))
      else do
        let (w, sum) ← forRange 0 ndim (e.w, (lit 0 : K)) (e.errorBody ee y h k)
        ok (w, fmax (fns.sqrt (sum / lit (ndim : ℚ))) (lit (1 / 10000000000)))

/-- `ExplicitRungeKutta::step` (explicit_runge_kutta.rs:158-238). -/
def Erk.step (fns : MathFns K) (sys : System K σ) (e : Erk K) (work : Workspace K) (x : K) (y : List K) (h : K) (args : σ) :
    Res (Erk K × Workspace K × σ) := do
  let (k, work, args) ← e.first sys work x y args
  let s ← forRange 1 e.nstage ({ v := e.v, k := k, work := work, args := args } : ErkStages K σ) (e.stage sys x y h)
  let (w, rel_error) ← e.update fns sys.ndim y h s.k s.work.rel_error
  ok ({ e with v := s.v, k := s.k, w := w }, { s.work with rel_error := rel_error }, s.args)

/-- The call of `out.update` (explicit_runge_kutta.rs:250-252). -/
def Erk.saveDense (sys : System K σ) (e : Erk K) (work : Workspace K) (x : K) (y : List K) (h : K) (args : σ) :
    Res (Erk K × Workspace K × σ) :=
  match e.dense_out with
  | none => ok (e, work, args)
  | some o => do
    let (o, n, args) ← o.update sys x y h e.w e.k args
    ok ({ e with dense_out := some o }, work.addFunction n, args)

/-- `k0 := ks` (explicit_runge_kutta.rs:259-263). -/
def Erk.shift (ndim : Nat) (e : Erk K) : Res (Erk K) :=
  if e.info.first_step_same_as_last then do
    let k ← forRange 0 ndim e.k fun m k => do
      let last ← subUsize e.nstage 1
      let a ← get2 k last m
      set2 k 0 m a
    ok { e with k := k }
  else ok e

/-- The new stepsize after an accepted step (explicit_runge_kutta.rs:271-277). -/
def Erk.acceptedStep (fns : MathFns K) (e : Erk K) (work : Workspace K) (h : K) : K :=
  let fac := fns.powf work.rel_error e.lund_factor
  let fac := if lit 0 < e.params.lund_beta ∧ lit 0 < work.rel_error_prev then
    fac / fns.powf work.rel_error_prev e.params.lund_beta else fac
  let fac := fmax e.d_max (fmin e.d_min (fac / e.params.m_safety))
  h / fac

/-- The sums `num` and `den` of the stiffness detection (explicit_runge_kutta.rs:282-289, 298-305): squares of the differences
of two `k` and of two vectors. -/
def stiffSums (ndim : Nat) (ka kb va vb : List K) : Res (K × K) :=
  forRange 0 ndim ((lit 0 : K), (lit 0 : K)) fun m s => do
    let ka ← vget ka m
    let kb ← vget kb m
    let va ← vget va m
    let vb ← vget vb m
    ok (s.1 + (ka - kb) * (ka - kb), s.2 + (va - vb) * (va - vb))

/-- `if den > EPSILON { stiff_h_times_rho = h * sqrt(num / den) }` (explicit_runge_kutta.rs:290-292, 306-308). -/
def setRho (fns : MathFns K) (work : Workspace K) (h : K) (s : K × K) : Workspace K :=
  if f64Epsilon < s.2 then { work with stiff_h_times_rho := h * fns.sqrt (s.1 / s.2) } else work

/-- Stiffness detection (explicit_runge_kutta.rs:280-311); `x` and `y` are the new ones. -/
def Erk.stiffness (fns : MathFns K) (sys : System K σ) (e : Erk K) (work : Workspace K) (x : K) (y : List K) (h : K)
    (args : σ) : Res (Erk K × Workspace K × σ) :=
  if e.params.stiff_enabled then
    if e.params.method = .DoPri5 then do
      let k6 ← vget e.k 6
      let k5 ← vget e.k 5
      let v6 ← vget e.v 6
      let v5 ← vget e.v 5
      let s ← stiffSums sys.ndim k6 k5 v6 v5
      let work ← detectStiffness (setRho fns work h s) (x - h) e.params
      ok (e, work, args)
    else if e.params.method = .DoPri8 then do
      let k10 ← vget e.k 10
      let (k10, args) ← sys.function k10 x y args
      let k ← vset e.k 10 k10
      let k11 ← vget k 11
      let v11 ← vget e.v 11
      let s ← stiffSums sys.ndim k10 k11 y v11
      let work ← detectStiffness (setRho fns (work.addFunction 1) h s) (x - h) e.params
      ok ({ e with k := k }, work, args)
    else ok (e, work, args)
  else ok (e, work, args)

/-- `ExplicitRungeKutta::accept` (explicit_runge_kutta.rs:241-333). -/
def Erk.accept (fns : MathFns K) (sys : System K σ) (e : Erk K) (work : Workspace K) (x : K) (y : List K) (h : K) (args : σ) :
    Res (Erk K × Workspace K × K × List K × σ) := do
  let (e, work, args) ← e.saveDense sys work x y h args
  let x := x + h
  let y ← copyInto y e.w
  let e ← e.shift sys.ndim
  if ¬ e.info.embedded = true then ok (e, work, x, y, args)
  else do
    let work : Workspace K := { work with h_new := e.acceptedStep fns work h }
    let (e, work, args) ← e.stiffness fns sys work x y h args
    ok (e, work, x, y, args)

/-- The new stepsize after a rejected step (explicit_runge_kutta.rs:338-339). -/
def Erk.rejectedStep (fns : MathFns K) (e : Erk K) (work : Workspace K) (h : K) : K :=
  let d := fns.powf work.rel_error e.lund_factor / e.params.m_safety
  h / fmin e.d_min d

/-- `ExplicitRungeKutta::reject` (explicit_runge_kutta.rs:336-350). -/
def Erk.reject (fns : MathFns K) (e : Erk K) (work : Workspace K) (h : K) : Erk K × Workspace K :=
  (e, { work with h_new := e.rejectedStep fns work h })

/-- `ExplicitRungeKutta::enable_dense_output` (explicit_runge_kutta.rs:152-155). -/
def Erk.enableDenseOutput (sys : System K σ) (e : Erk K) : Res (Erk K) := do
  let o ← ErkDense.new e.params.method sys.ndim
  ok { e with dense_out := some o }

/-- `ExplicitRungeKutta::dense_output` (explicit_runge_kutta.rs:353-357). -/
def Erk.denseOutput (e : Erk K) (y_out : List K) (x_out x : K) (_y : List K) (h : K) : Res (List K) :=
  match e.dense_out with
  | none => ok y_out
  | some o => o.calculate y_out x_out x h

/-- `ExplicitRungeKutta::update_params` (explicit_runge_kutta.rs:360-362). -/
def Erk.updateParams (e : Erk K) (p : ErkParams K) : Erk K := { e with params := p }

/-- `ExplicitRungeKutta` as an `OdeSolverTrait` (explicit_runge_kutta.rs:150-363). -/
def erk (fns : MathFns K) (sys : System K σ) : Stepper K σ (Erk K) where
  enable_dense_output := Erk.enableDenseOutput sys
  step := Erk.step fns sys
  accept := Erk.accept fns sys
  reject := Erk.reject fns
  dense_output := Erk.denseOutput

end

end Russell.Ode
