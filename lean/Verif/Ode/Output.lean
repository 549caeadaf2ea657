import Verif.Prelude
import Mathlib.Data.Rat.Defs

/-!
# Model of the output of the ODE solver (russell_ode/src/output.rs) and of its workspace (workspace.rs, stats.rs)

Numbers. The model is generic in the type `K` of the numbers: it uses only the operations and comparisons the Rust code
performs, so it can be run in exact arithmetic (any ordered field with a floor) and with rounding (`Verif/Ode/F64.lean`).

Simplifications. Stopwatches and messages are left out. Files: a file key is a flag, and what would be written is added to a
list (`step_written`, `dense_written`), with the number in the name of the file; writing never fails. The lists `step_calls`
and `dense_calls` are not in the Rust structure: they collect the arguments `(h, x, y)` given to the callbacks, so that
theorems can speak about the calls. The counters of the statistics do not overflow. A `HashMap` is a list of pairs with
distinct keys. The callbacks receive `args` (the type `σ`) and give its new value, as they hold a mutable reference to it.
-/

namespace Russell.Ode

open Russell Russell.Res

/-- What the code uses of `f64` besides the four operations and the comparisons: literals (and conversions of integers),
and the conversions `x as usize` and `f64::ceil(x) as usize`. -/
class F64Ops (K : Type) where
  lit : ℚ → K
  truncU : K → Nat
  ceilU : K → Nat

export F64Ops (lit truncU ceilU)

variable {K σ : Type}

/-- `f64::EPSILON`. -/
def f64Epsilon [F64Ops K] : K := lit (1 / 4503599627370496)

/-- `f64::MAX`. -/
def f64Max [F64Ops K] : K := lit (2 ^ 1024 - 2 ^ 971)

/-- `f64::min` (numbers that are not NaN). -/
def fmin [LE K] [DecidableLE K] (a b : K) : K := if a ≤ b then a else b

/-- `f64::max` (numbers that are not NaN). -/
def fmax [LE K] [DecidableLE K] (a b : K) : K := if a ≤ b then b else a

/-- `Stats` (stats.rs:7-70), without the times. -/
structure Stats (K : Type) where
  n_function : Nat
  n_jacobian : Nat
  n_factor : Nat
  n_lin_sol : Nat
  n_steps : Nat
  n_accepted : Nat
  n_rejected : Nat
  n_iterations : Nat
  n_iterations_max : Nat
  h_accepted : K
  deriving DecidableEq

/-- `Stats::reset` (stats.rs:101-117). -/
def Stats.reset (h : K) : Stats K where
  n_function := 0
  n_jacobian := 0
  n_factor := 0
  n_lin_sol := 0
  n_steps := 0
  n_accepted := 0
  n_rejected := 0
  n_iterations := 0
  n_iterations_max := 0
  h_accepted := h

/-- `Workspace` (workspace.rs:4-43). -/
structure Workspace (K : Type) where
  stats : Stats K
  follows_reject_step : Bool
  iterations_diverging : Bool
  h_multiplier_diverging : K
  h_prev : K
  h_new : K
  rel_error_prev : K
  rel_error : K
  stiff_x_first_detect : K
  stiff_h_times_rho : K
  stiff_n_detection_no : Nat
  stiff_n_detection_yes : Nat
  stiff_detected : Bool
  deriving DecidableEq

/-- `Workspace::reset` (workspace.rs:66-80); every field is written, so the previous content does not matter. -/
def Workspace.reset [F64Ops K] (h rel_error_prev_min : K) : Workspace K where
  stats := Stats.reset h
  follows_reject_step := false
  iterations_diverging := false
  h_multiplier_diverging := lit 1
  h_prev := h
  h_new := h
  rel_error_prev := rel_error_prev_min
  rel_error := lit 0
  stiff_x_first_detect := f64Max
  stiff_h_times_rho := lit 0
  stiff_n_detection_no := 0
  stiff_n_detection_yes := 0
  stiff_detected := false

/-- A callback: statistics, stepsize, station, solution, args; gives the flag "stop" and the new args. -/
abbrev OutCallback (K σ : Type) := Stats K → K → K → List K → σ → Res (Bool × σ)

/-- One report: stepsize, station, solution. -/
abbrev Report (K : Type) := K × K × List K

/-- `Output` (output.rs:48-133). -/
structure Output (K σ : Type) where
  initialized : Bool
  x0 : K
  x1 : K
  step_callback : Option (OutCallback K σ)
  step_file : Bool
  step_file_count : Nat
  step_recording : Bool
  step_h : List K
  step_x : List K
  step_y : List (Nat × List K)
  step_global_error : List K
  dense_callback : Option (OutCallback K σ)
  dense_file : Bool
  dense_file_count : Nat
  dense_recording : Bool
  dense_h_out : Option K
  dense_index : Nat
  dense_x : List K
  dense_y : List (Nat × List K)
  stiff_recording : Bool
  stiff_step_index : List Nat
  stiff_x : List K
  stiff_h_times_rho : List K
  y_aux : List K
  yx_function : Option (List K → K → σ → List K × σ)
  /-- Collected arguments of the calls of `step_callback` (not in the Rust structure). -/
  step_calls : List (Report K)
  /-- Files written for the steps: number in the name and content. -/
  step_written : List (Nat × Report K)
  /-- Collected arguments of the calls of `dense_callback` (not in the Rust structure). -/
  dense_calls : List (Report K)
  /-- Files written for the dense output: number in the name and content. -/
  dense_written : List (Nat × Report K)

/-- `Output::new` (output.rs:183-216). -/
def Output.new [F64Ops K] : Output K σ where
  initialized := false
  x0 := lit 0
  x1 := lit 0
  step_callback := none
  step_file := false
  step_file_count := 0
  step_recording := false
  step_h := []
  step_x := []
  step_y := []
  step_global_error := []
  dense_callback := none
  dense_file := false
  dense_file_count := 0
  dense_recording := false
  dense_h_out := none
  dense_index := 0
  dense_x := []
  dense_y := []
  stiff_recording := false
  stiff_step_index := []
  stiff_x := []
  stiff_h_times_rho := []
  y_aux := []
  yx_function := none
  step_calls := []
  step_written := []
  dense_calls := []
  dense_written := []

/-- `HashMap::insert` on a list of pairs. -/
def mapInsert (m : Nat) (v : List K) : List (Nat × List K) → List (Nat × List K)
  | [] => [(m, v)]
  | (k, w) :: r => if k = m then (k, v) :: r else (k, w) :: mapInsert m v r

/-- `set_step_callback` (output.rs:227-233). -/
def Output.setStepCallback (o : Output K σ) (cb : OutCallback K σ) : Output K σ := { o with step_callback := some cb }

/-- `set_step_file_writing` (output.rs:240-243). -/
def Output.setStepFileWriting (o : Output K σ) : Output K σ := { o with step_file := true }

/-- `set_step_recording` (output.rs:256-262). -/
def Output.setStepRecording (o : Output K σ) (sel : List Nat) : Output K σ :=
  { o with step_recording := true, step_y := sel.foldl (fun d m => mapInsert m [] d) o.step_y }

/-- `set_dense_callback` (output.rs:316-322). -/
def Output.setDenseCallback (o : Output K σ) (cb : OutCallback K σ) : Output K σ := { o with dense_callback := some cb }

/-- `set_dense_file_writing` (output.rs:334-340); `len` is the length of the path. -/
def Output.setDenseFileWriting (o : Output K σ) (len : Nat) : Res (Output K σ) :=
  if len < 4 then .err "the length of the filepath without extension must be at least 4"
  else .ok { o with dense_file := true }

/-- `set_dense_recording` (output.rs:355-361). -/
def Output.setDenseRecording (o : Output K σ) (sel : List Nat) : Output K σ :=
  { o with dense_recording := true, dense_y := sel.foldl (fun d m => mapInsert m [] d) o.dense_y }

/-- `step_y` (output.rs:384-387) and `dense_y` (output.rs:400-403): the series of a component, empty if not selected. -/
def seriesOf (m : Nat) : List (Nat × List K) → List K
  | [] => []
  | (k, w) :: r => if k = m then w else seriesOf m r

/-- `with_dense_output` (output.rs:488-490). -/
def Output.withDenseOutput (o : Output K σ) : Bool := o.dense_callback.isSome || o.dense_file || o.dense_recording

section
variable [Add K] [Sub K] [Mul K] [Div K] [LE K] [LT K] [DecidableLE K] [DecidableLT K] [F64Ops K]

/-- `10.0 * f64::EPSILON`. -/
def tenEps : K := lit 10 * f64Epsilon

/-- `EPS_X1_H_OUT` (output.rs:14). -/
def epsX1HOut : K := lit (1 / 10000000000000)

/-- `set_dense_h_out` (output.rs:269-275). -/
def Output.setDenseHOut (o : Output K σ) (h_out : K) : Res (Output K σ) :=
  if h_out ≤ tenEps then .err "h_out must be > 10.0 * EPSILON" else .ok { o with dense_h_out := some h_out }

/-- One turn of the loop of `set_dense_x_out` (output.rs:290-298). -/
def xOutTurn (ix : List K) (k : Nat) (dx : List K) : Res (List K) := do
  if k > 0 then
    let a ← vget ix k
    let b ← vget ix (k - 1)
    if a < b then Res.err "the dense output stations x must be sorted in ascending order in (x0, x1)"
    else if a - b ≤ tenEps then Res.err "the x spacing must be > 10.0 * EPSILON"
    else
      let v ← vget ix k
      vset dx (1 + k) v
  else
    let v ← vget ix k
    vset dx (1 + k) v

/-- `set_dense_x_out` (output.rs:285-302). (After an error the Rust structure keeps the stations stored so far; this is
not modelled.) -/
def Output.setDenseXOut (o : Output K σ) (ix : List K) : Res (Output K σ) := do
  let dx ← forRange 0 ix.length (List.replicate (ix.length + 2) (lit 0)) (xOutTurn ix)
  ok { o with dense_x := dx, dense_h_out := none }

/-- The uniform stations of `initialize` (output.rs:446-454). -/
def uniformStations (x0 x1 h_out : K) (dx : List K) : Res (List K) := do
  let n := max 2 (truncU ((x1 + epsX1HOut - x0) / h_out) + 1)
  -- `resize`: shorter lists are filled with zeros, longer ones are cut
  let dx := if dx.length ≠ n then (dx ++ List.replicate (n - dx.length) (lit 0)).take n else dx
  let dx ← vset dx 0 x0
  let dx ← vset dx (n - 1) x1
  forRange 1 (n - 1) dx (fun i dx => do
    let p ← vget dx (i - 1)
    vset dx i (p + h_out))

/-- The stations of the user in `initialize` (output.rs:457-470). -/
def userStations (x0 x1 : K) (dx : List K) : Res (List K) := do
  let dx := if dx.length = 0 then List.replicate 2 (lit 0) else dx
  let n := dx.length
  let dx ← vset dx 0 x0
  let dx ← vset dx (n - 1) x1
  if n > 2 then
    let a ← vget dx 1
    if a ≤ x0 then Res.err "the first interior x_out for dense output must be > x0"
    else
      let b ← vget dx (n - 2)
      if x1 ≤ b then Res.err "the last interior x_out for dense output must be < x1"
      else ok dx
  else ok dx

/-- The stations of `initialize` (output.rs:444-471). -/
def stations (x0 x1 : K) (h_out : Option K) (dx : List K) : Res (List K) :=
  match h_out with
  | some h_out => uniformStations x0 x1 h_out dx
  | none => userStations x0 x1 dx

/-- `Vec::resize(n, 0.0)` when the length differs (output.rs:474-478). -/
def resizeTo (n : Nat) (l : List K) : List K :=
  if l.length ≠ n then (l ++ List.replicate (n - l.length) (lit 0)).take n else l

/-- The beginning of `initialize` (output.rs:425-441): the previous results are cleared. -/
def Output.cleared (o : Output K σ) (stiff : Bool) : Output K σ :=
  let o : Output K σ := { o with stiff_recording := stiff }
  if o.initialized then
    let o : Output K σ :=
      if o.step_recording then
        { o with step_h := [], step_x := [], step_global_error := [], step_y := o.step_y.map fun p => (p.1, []) }
      else o
    if o.stiff_recording then { o with stiff_step_index := [], stiff_x := [], stiff_h_times_rho := [] } else o
  else o

/-- `Output::initialize` (output.rs:423-485). -/
def Output.initialize (o : Output K σ) (x0 x1 : K) (stiff : Bool) : Res (Output K σ) := do
  if ¬ x0 < x1 then Res.panic
  else
    let o := o.cleared stiff
    if o.withDenseOutput then
      let dx ← stations x0 x1 o.dense_h_out o.dense_x
      ok { o with
        dense_x := dx
        dense_y := o.dense_y.map fun p => (p.1, resizeTo dx.length p.2)
        x0 := x0
        x1 := x1
        initialized := true }
    else ok { o with x0 := x0, x1 := x1, initialized := true }

/-- `for (m, ym) in step_y.iter_mut() { ym.push(y[*m]) }` (output.rs:526-528). -/
def pushAll (y : List K) : List (Nat × List K) → Res (List (Nat × List K))
  | [] => ok []
  | (m, ym) :: r => do
    let v ← vget y m
    let r ← pushAll y r
    ok ((m, ym ++ [v]) :: r)

/-- `for (m, ym) in dense_y.iter_mut() { ym[idx] = y[*m] }` (output.rs:564-566, 610-612, 679-681). -/
def setAll (idx : Nat) (y : List K) : List (Nat × List K) → Res (List (Nat × List K))
  | [] => ok []
  | (m, ym) :: r => do
    let v ← vget y m
    let ym ← vset ym idx v
    let r ← setAll idx y r
    ok ((m, ym) :: r)

/-- `vec_max_abs_diff(y, z).unwrap()`, the second component (`russell_lab/src/vector/vec_max_abs_diff.rs`). -/
def maxAbsDiff (y z : List K) : Res K :=
  if y.length ≠ z.length then Res.panic
  else ok ((List.zipWith (fun a b => fmax (a - b) (b - a)) y z).foldl fmax (lit 0))

/-- The call of the step callback (output.rs:507-512). -/
def Output.callStep (o : Output K σ) (stats : Stats K) (h x : K) (y : List K) (args : σ) : Res (Output K σ × σ × Bool) :=
  match o.step_callback with
  | some cb => do
    let (stop, args) ← cb stats h x y args
    ok (({ o with step_calls := o.step_calls ++ [(h, x, y)] } : Output K σ), args, stop)
  | none => ok (o, args, false)

/-- The call of the dense callback (output.rs:547-552, 593-598, 658-660). -/
def Output.callDense (o : Output K σ) (stats : Stats K) (h x : K) (y : List K) (args : σ) : Res (Output K σ × σ × Bool) :=
  match o.dense_callback with
  | some cb => do
    let (stop, args) ← cb stats h x y args
    ok (({ o with dense_calls := o.dense_calls ++ [(h, x, y)] } : Output K σ), args, stop)
  | none => ok (o, args, false)

/-- The global error (output.rs:529-536). -/
def Output.globalError (o : Output K σ) (x : K) (y : List K) (args : σ) : Res (Output K σ × σ × Bool) :=
  match o.yx_function with
  | some f => do
    let aux := if o.y_aux.length ≠ y.length then List.replicate y.length (lit 0) else o.y_aux
    let r := f aux x args
    let err ← maxAbsDiff y r.1
    ok (({ o with y_aux := r.1, step_global_error := o.step_global_error ++ [err] } : Output K σ), r.2, false)
  | none => ok (o, args, false)

/-- The step part of `execute` (output.rs:507-537). -/
def Output.executeStep (o : Output K σ) (work : Workspace K) (h x : K) (y : List K) (args : σ) :
    Res (Output K σ × σ × Bool) := do
  let (o, args, stop) ← o.callStep work.stats h x y args
  if stop then ok (o, args, true)
  else
    let o : Output K σ :=
      if o.step_file then
        { o with step_written := o.step_written ++ [(o.step_file_count, h, x, y)], step_file_count := o.step_file_count + 1 }
      else o
    if o.step_recording then
      let sy ← pushAll y o.step_y
      let o : Output K σ := { o with step_h := o.step_h ++ [h], step_x := o.step_x ++ [x], step_y := sy }
      o.globalError x y args
    else ok (o, args, false)

/-- Report of one station of the dense output: callback, file, recording (output.rs:547-567, 593-613 and, with the
result of the callback ignored, 658-682). The flag says that the callback asks to stop; then the file and the record are
not written. -/
def Output.report (o : Output K σ) (stats : Stats K) (h x : K) (y : List K) (args : σ) : Res (Output K σ × σ × Bool) := do
  let (o, args, stop) ← o.callDense stats h x y args
  if stop then ok (o, args, true)
  else
    let o : Output K σ :=
      if o.dense_file then
        { o with
          dense_written := o.dense_written ++ [(o.dense_file_count, h, x, y)]
          dense_file_count := o.dense_file_count + 1 }
      else o
    if o.dense_recording then
      let dy ← setAll o.dense_index y o.dense_y
      ok (({ o with dense_y := dy } : Output K σ), args, false)
    else ok (o, args, false)

/-- The loop over the stations (output.rs:580-617). The first argument is the number of stations left
(`n_out - dense_index`, the loop runs while it is positive and `dense_index` grows by one in every turn).
`dense y_out x_out` is the call `solver.dense_output(y_out, x_out, x, y, h)`. -/
def Output.stationLoop (stats : Stats K) (h x : K) (dense : List K → K → Res (List K)) :
    Nat → Output K σ → σ → Res (Output K σ × σ × Bool)
  | 0, o, args => ok (o, args, false)
  | k + 1, o, args => do
    let x_out ← vget o.dense_x o.dense_index
    if x < x_out then ok (o, args, false)
    else
      let y_out ← dense o.y_aux x_out
      let o : Output K σ := { o with y_aux := y_out }
      let (o, args, stop) ← o.report stats h x_out y_out args
      if stop then ok (o, args, true)
      else stationLoop stats h x dense k { o with dense_index := o.dense_index + 1 } args

/-- The dense part of `execute` (output.rs:541-619). -/
def Output.executeDense (o : Output K σ) (work : Workspace K) (h x : K) (y : List K) (dense : List K → K → Res (List K))
    (args : σ) : Res (Output K σ × σ × Bool) := do
  if work.stats.n_accepted = 0 then
    let o : Output K σ := { o with dense_index := 0 }
    let (o, args, stop) ← o.report work.stats h x y args
    if stop then ok (o, args, true)
    else ok (({ o with dense_index := o.dense_index + 1 } : Output K σ), args, false)
  else
    let aux := if o.y_aux.length ≠ y.length then List.replicate y.length (lit 0) else o.y_aux
    let o : Output K σ := { o with y_aux := aux }
    let n_out ← subUsize o.dense_x.length 1
    o.stationLoop work.stats h x dense (n_out - o.dense_index) args

/-- The dense part of `execute`, when there is dense output (output.rs:541). -/
def Output.maybeDense (o : Output K σ) (work : Workspace K) (h x : K) (y : List K) (dense : List K → K → Res (List K))
    (args : σ) : Res (Output K σ × σ × Bool) :=
  if o.withDenseOutput then o.executeDense work h x y dense args else ok (o, args, false)

/-- The stiffness part of `execute` (output.rs:622-628). -/
def Output.executeStiff (o : Output K σ) (work : Workspace K) : Output K σ :=
  if o.stiff_recording then
    let o : Output K σ := { o with stiff_h_times_rho := o.stiff_h_times_rho ++ [work.stiff_h_times_rho] }
    if work.stiff_detected then
      { o with
        stiff_step_index := o.stiff_step_index ++ [work.stats.n_accepted]
        stiff_x := o.stiff_x ++ [work.stiff_x_first_detect] }
    else o
  else o

/-- `Output::execute` (output.rs:493-632); the flag is "stop gracefully". -/
def Output.execute (o : Output K σ) (work : Workspace K) (h x : K) (y : List K) (dense : List K → K → Res (List K))
    (args : σ) : Res (Output K σ × σ × Bool) := do
  if ¬ o.initialized then Res.panic
  else
    let (o, args, stop) ← o.executeStep work h x y args
    if stop then ok (o, args, true)
    else
      let (o, args, stop) ← o.maybeDense work h x y dense args
      if stop then ok (o, args, true) else ok (o.executeStiff work, args, false)

/-- `Output::last` (output.rs:635-685). The file with the number of files is not modelled. The flag given by the callback
is ignored by the code (output.rs:659), so the file and the record are always written. -/
def Output.last (o : Output K σ) (work : Workspace K) (h x : K) (y : List K) (args : σ) : Res (Output K σ × σ) := do
  if o.withDenseOutput then
    let n_out ← subUsize o.dense_x.length 1
    if o.dense_index ≠ n_out then Res.panic
    else
      let (o, args, _) ← o.callDense work.stats h x y args
      let o : Output K σ :=
        if o.dense_file then
          { o with
            dense_written := o.dense_written ++ [(o.dense_file_count, h, x, y)]
            dense_file_count := o.dense_file_count + 1 }
        else o
      if o.dense_recording then
        let dy ← setAll o.dense_index y o.dense_y
        ok (({ o with dense_y := dy } : Output K σ), args)
      else ok (o, args)
  else ok (o, args)

end

end Russell.Ode
