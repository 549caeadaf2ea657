import Verif.Lab.Norms
import Mathlib.Data.Real.Basic
import Mathlib.Analysis.SpecialFunctions.Pow.Real
import Mathlib.Analysis.SpecialFunctions.Trigonometric.Arctan
import Mathlib.LinearAlgebra.Matrix.Notation
import Mathlib.Data.Matrix.Mul

/-!
# Continuation methods: enums, configuration, iteration control and workspace (russell_nonlin/src)

Numbers are real; `is_finite` is an arbitrary predicate `fin` on the numbers, so that the branches for NaN or infinite
values are present in the model (they are taken for numbers declared not finite). Vectors of the problem dimension `n` are
functions on `Fin n`. Logging, stopwatches and file writing are left out.
-/

namespace Russell.Nonlin

open Russell Russell.Res

/-- `CONFIG_H_MIN` (/repo/russell_nonlin/src/config.rs:6) -/
noncomputable def hMin : ℝ := 1 / 10 ^ 10

/-- `CONFIG_TOL_MIN` (/repo/russell_nonlin/src/config.rs:9) -/
noncomputable def tolMin : ℝ := 1 / 10 ^ 12

abbrev Vec (n : Nat) := Fin n → ℝ

/-- `u[i]` (panics when out of bounds) -/
def Vec.at {n : Nat} (u : Vec n) (i : Nat) : Res ℝ := if h : i < n then ok (u ⟨i, h⟩) else panic

/-- `enum RdiffType` (/repo/russell_nonlin/src/enums.rs:8-38) -/
inductive RdiffType where
  | ave | max
  deriving DecidableEq, Repr

/-- `enum IniDir` (/repo/russell_nonlin/src/enums.rs:46-84) -/
inductive IniDir where
  | pos | neg
  deriving DecidableEq, Repr

/-- the `±1.0` the solvers derive from the direction (/repo/russell_nonlin/src/solver_natural.rs:231-234,
solver_arclength.rs:668-671) -/
def IniDir.sign : IniDir → ℝ
  | .pos => 1
  | .neg => -1

/-- `enum Stop` (/repo/russell_nonlin/src/enums.rs:88-116) -/
inductive Stop where
  | minCompU (i : Nat) (u1 : ℝ)
  | maxCompU (i : Nat) (u1 : ℝ)
  | maxNormU (normU1 : ℝ) (kind : Lab.Norm) (begin stop : Nat)
  | minLambda (l1 : ℝ)
  | maxLambda (l1 : ℝ)
  | steps (n : Nat)

open Classical in
/-- `Stop::validate` (/repo/russell_nonlin/src/enums.rs:120-166) -/
noncomputable def Stop.validate {n : Nat} (u : Vec n) (l : ℝ) : Stop → Res Unit
  | .minCompU i u1 =>
    if h : i < n then
      if u1 ≥ u ⟨i, h⟩ then err "Stop enum error: MinCompU value must be less than the initial u value" else ok ()
    else err "Stop enum error: MinCompU index is out of bounds"
  | .maxCompU i u1 =>
    if h : i < n then
      if u1 ≤ u ⟨i, h⟩ then err "Stop enum error: MaxCompU value must be greater than the initial u value" else ok ()
    else err "Stop enum error: MaxCompU index is out of bounds"
  | .maxNormU normU1 _ b e =>
    if b ≥ e then err "Stop enum error: MaxNormU: begin must be < end"
    else if e > n then err "Stop enum error: MaxNormU: end must be ≤ u.dim"
    else if normU1 ≤ 0 then err "Stop enum error: MaxNormU value must be greater than 0.0"
    else ok ()
  | .minLambda l1 =>
    if l1 ≥ l then err "Stop enum error: MinLambda value must be less than the initial lambda value" else ok ()
  | .maxLambda l1 =>
    if l1 ≤ l then err "Stop enum error: MaxLambda value must be greater than the initial lambda value" else ok ()
  | .steps k => if k < 1 then err "Stop enum error: number of steps must be greater than 0" else ok ()

/-- `Stop::lambda` (/repo/russell_nonlin/src/enums.rs:171-180) -/
def Stop.lambda : Stop → Option (ℝ × Bool)
  | .minLambda l1 => some (l1, true)
  | .maxLambda l1 => some (l1, false)
  | _ => none

/-- `Stop::u_comp` (/repo/russell_nonlin/src/enums.rs:185-194) -/
def Stop.uComp : Stop → Option (Nat × ℝ × Bool)
  | .minCompU i u1 => some (i, u1, true)
  | .maxCompU i u1 => some (i, u1, false)
  | _ => none

open Classical in
/-- `Stop::now` (/repo/russell_nonlin/src/enums.rs:197-209) -/
noncomputable def Stop.now {n : Nat} (step : Nat) (u : Vec n) (l : ℝ) : Stop → Res Bool
  | .minCompU i u1 => do
    let x ← u.at i
    ok (decide (x < u1 ∨ |x - u1| < hMin))
  | .maxCompU i u1 => do
    let x ← u.at i
    ok (decide (x > u1 ∨ |u1 - x| < hMin))
  | .maxNormU normU1 kind b e => do
    let normU ← Lab.vecNormChunk Real.sqrt (List.ofFn u) kind b e
    ok (decide (normU > normU1 ∨ |normU - normU1| < hMin))
  | .minLambda l1 => ok (decide (l < l1 ∨ |l1 - l| < hMin))
  | .maxLambda l1 => ok (decide (l > l1 ∨ |l - l1| < hMin))
  | .steps k => ok (decide (step + 1 = k))

/-- `enum Status` (/repo/russell_nonlin/src/enums.rs:306-377) -/
inductive Status where
  | borderingSmallDenominator
  | largeDelta
  | reachedMaxIterations
  | continuedResidualDivergence
  | continuedDeltaDivergence
  | rejection
  | secondaryUpdateError (msg : String)
  | unmetStopCriterion
  | smallStepsize
  | secondaryUpdateTerminate
  | continuedFailure
  | continuedRejection
  | nanOrInfResidual
  | nanOrInfDelta
  | success
  deriving DecidableEq, Repr

/-- `Status::failure` (/repo/russell_nonlin/src/enums.rs:386-388) -/
def Status.failure (s : Status) : Bool := decide (s ≠ .success)

/-- `Status::try_again` (/repo/russell_nonlin/src/enums.rs:391-412) -/
def Status.tryAgain : Status → Bool
  | .borderingSmallDenominator => true
  | .largeDelta => true
  | .reachedMaxIterations => true
  | .continuedResidualDivergence => true
  | .continuedDeltaDivergence => true
  | .rejection => true
  | .secondaryUpdateError _ => true
  | .unmetStopCriterion => true
  | .smallStepsize => false
  | .secondaryUpdateTerminate => false
  | .continuedFailure => false
  | .continuedRejection => false
  | .nanOrInfResidual => false
  | .nanOrInfDelta => false
  | .success => false

/-- `Status::from_sup` (/repo/russell_nonlin/src/enums.rs:415-426) -/
def Status.fromSup : Except String Bool → Status
  | .ok terminate => if terminate then .secondaryUpdateTerminate else .success
  | .error e => .secondaryUpdateError e

/-- The fields of `Config` that influence the computation (/repo/russell_nonlin/src/config.rs:13-215); `arclength` is
`method == Method::Arclength`. -/
structure Config where
  arclength : Bool
  recordResiduals : Bool
  preciseStop : Bool
  mFailure : ℝ
  nStepMax : Nat
  nContFailureMax : Nat
  nContRejectionMax : Nat
  writeMatrix : Option Nat
  tolAbsResidual : ℝ
  tolAbsDelta : ℝ
  tolRelDelta : ℝ
  deltaMaxAllowed : ℝ
  disableRelDelta : Bool
  nIterationMax : Nat
  nContResDivMax : Nat
  nContDeltaDivMax : Nat
  eulerPredictor : Bool
  bordering : Bool
  debugPredictor : Bool
  nrEnabled : Bool
  tgEnabled : Bool
  tgPid : Bool
  rdiffMin : ℝ
  rhoTiny : ℝ
  nOpt : Nat
  nrBeta : ℝ
  rdiffType : RdiffType
  tgTol : ℝ
  beta1 : ℝ
  beta2 : ℝ
  beta3 : ℝ
  alpha2 : ℝ
  alpha3 : ℝ

/-- `Config::new` (/repo/russell_nonlin/src/config.rs:221-273), with the parameters of `SoderlindClass::H211PI`
(enums.rs:292) -/
noncomputable def Config.new : Config where
  arclength := false
  recordResiduals := false
  preciseStop := false
  mFailure := 1 / 2
  nStepMax := 100000
  nContFailureMax := 5
  nContRejectionMax := 5
  writeMatrix := none
  tolAbsResidual := 1 / 10 ^ 10
  tolAbsDelta := 1 / 10 ^ 10
  tolRelDelta := 1 / 10 ^ 7
  deltaMaxAllowed := 10 ^ 8
  disableRelDelta := false
  nIterationMax := 20
  nContResDivMax := 3
  nContDeltaDivMax := 5
  eulerPredictor := true
  bordering := true
  debugPredictor := false
  nrEnabled := false
  tgEnabled := true
  tgPid := true
  rdiffMin := 1 / 10 ^ 6
  rhoTiny := 6 / 5
  nOpt := 3
  nrBeta := 1 / 2
  rdiffType := .ave
  tgTol := 1 / 2
  beta1 := 1 / 6
  beta2 := 1 / 6
  beta3 := 0
  alpha2 := 0
  alpha3 := 0

open Classical in
/-- `Config::validate` (/repo/russell_nonlin/src/config.rs:1017-1070) -/
noncomputable def Config.validate (c : Config) : Res Unit :=
  if c.mFailure < 1 / 1000 then err "requirement: m_failure ≥ 0.001"
  else if c.nStepMax < 1 then err "requirement: n_step_max ≥ 1"
  else if c.nContFailureMax < 1 then err "requirement: n_cont_failure_max ≥ 1"
  else if c.nContRejectionMax < 1 then err "requirement: n_cont_rejection_max ≥ 1"
  else if c.tolAbsResidual < tolMin then err "requirement: tol_abs_residual ≥ 1e-12"
  else if c.tolAbsDelta < tolMin then err "requirement: tol_abs_delta ≥ 1e-12"
  else if c.tolRelDelta < tolMin then err "requirement: tol_rel_delta ≥ 1e-12"
  else if c.deltaMaxAllowed ≤ 0 then err "requirement: allowed_delta_max > 0.0"
  else if c.nIterationMax < 1 then err "requirement: allowed_iterations ≥ 1"
  else if c.nContResDivMax < 1 then err "requirement: n_cont_residual_div_max ≥ 1"
  else if c.nContDeltaDivMax < 1 then err "requirement: n_cont_delta_div_max ≥ 1"
  else if c.nOpt < 1 then err "requirement: nr_control_n_opt ≥ 1"
  else if c.nrBeta ≤ 0 then err "requirement: nr_control_beta > 0.0"
  else if c.tgTol < tolMin then err "requirement: tg_control_tol ≥ 1e-12"
  else ok ()

/-- `DeltaLambda` (/repo/russell_nonlin/src/delta_lambda.rs:15-70) -/
structure DeltaLambda where
  auto : Bool
  ddlIni : ℝ
  list : List ℝ

/-- `DeltaLambda::auto` (/repo/russell_nonlin/src/delta_lambda.rs:35-41) -/
def DeltaLambda.mkAuto (ddlIni : ℝ) : DeltaLambda := ⟨true, ddlIni, []⟩

/-- `DeltaLambda::constant` (/repo/russell_nonlin/src/delta_lambda.rs:50-56) -/
def DeltaLambda.mkConstant (ddl : ℝ) : DeltaLambda := ⟨false, ddl, []⟩

/-- `DeltaLambda::list` (/repo/russell_nonlin/src/delta_lambda.rs:63-70) -/
def DeltaLambda.mkList : List ℝ → Res DeltaLambda
  | [] => panic
  | x :: xs => ok ⟨false, x, x :: xs⟩

open Classical in
/-- the last part of `DeltaLambda::ini` (/repo/russell_nonlin/src/delta_lambda.rs:95-99) -/
noncomputable def checkIni (ddlIni : ℝ) : Res ℝ :=
  if ddlIni ≤ hMin then err "requirement: ddl_ini > 1e-10" else ok ddlIni

/-- `DeltaLambda::ini` (/repo/russell_nonlin/src/delta_lambda.rs:81-100) -/
noncomputable def DeltaLambda.ini (d : DeltaLambda) (stop : Stop) (l0 : ℝ) : Res ℝ :=
  match stop with
  | .minLambda l1 => checkIni (min d.ddlIni |l0 - l1|)
  | .maxLambda l1 => checkIni (min d.ddlIni |l1 - l0|)
  | _ => checkIni d.ddlIni

/-! ## Iteration control -/

/-- The maximum norm `vec_norm(_, Norm::Max)` as a function on vectors: the largest absolute value, zero for the empty
vector (/repo/russell_lab/src/vector/vec_norm.rs:36-51; the model of the function itself is `Lab.vecNorm`, property C56) -/
noncomputable def normMax {n : Nat} (u : Vec n) : ℝ := (List.ofFn u).foldl (fun m x => max m |x|) 0

/-- `IterationError` (/repo/russell_nonlin/src/iteration_error.rs:5-74); the copies of the configuration are read from the
configuration (they never change); `scaling` has the dimension `n + 1`, here a function of the index. -/
structure IterErr where
  residualMax : ℝ
  deltaMax : ℝ
  deltaRms : ℝ
  residualConverged : Bool
  residualDiverging : Bool
  deltaConverged : Bool
  deltaDiverging : Bool
  residualMaxPrev : ℝ
  deltaMaxPrev : ℝ
  prevResidualDiverging : Bool
  prevDeltaDiverging : Bool
  nLargeDelta : Nat
  nContResDiv : Nat
  nContDeltaDiv : Nat
  scaling : Nat → ℝ

/-- `IterationError::new` (/repo/russell_nonlin/src/iteration_error.rs:78-104) -/
def IterErr.new : IterErr := ⟨0, 0, 0, false, false, false, false, 0, 0, false, false, 0, 0, 0, fun _ => 0⟩

/-- `IterationError::reset` (/repo/russell_nonlin/src/iteration_error.rs:107-122) -/
noncomputable def IterErr.reset {n : Nat} (c : Config) (u : Vec n) (l : ℝ) (e : IterErr) : IterErr :=
  { e with
    residualConverged := false
    residualDiverging := false
    deltaConverged := false
    deltaDiverging := false
    prevResidualDiverging := false
    prevDeltaDiverging := false
    nLargeDelta := 0
    nContResDiv := 0
    nContDeltaDiv := 0
    scaling := fun i =>
      if h : i < n then c.tolAbsDelta + c.tolRelDelta * |u ⟨i, h⟩|
      else if i = n then c.tolAbsDelta + c.tolRelDelta * |l|
      else e.scaling i }

/-- `IterationError::converged` (/repo/russell_nonlin/src/iteration_error.rs:125-127) -/
def IterErr.converged (e : IterErr) : Bool := e.residualConverged || e.deltaConverged

open Classical in
/-- `IterationError::analyze_residual` (/repo/russell_nonlin/src/iteration_error.rs:132-162) -/
noncomputable def IterErr.analyzeResidual {n : Nat} (c : Config) (fin : ℝ → Bool) (iteration : Nat) (gg : Vec n) (nn : ℝ)
    (e : IterErr) : Bool × IterErr :=
  let residualMax := max (normMax gg) |nn|
  if !fin residualMax then (true, { e with residualMax := residualMax })
  else
    let diverging := if iteration = 0 then false else decide (residualMax > e.residualMaxPrev)
    (false, { e with
      residualMax := residualMax
      residualConverged := decide (residualMax < c.tolAbsResidual)
      prevResidualDiverging := e.residualDiverging
      residualDiverging := diverging
      nContResDiv := if e.residualDiverging && diverging then e.nContResDiv + 1 else e.nContResDiv
      residualMaxPrev := residualMax })

/-- the scaled root mean square of the correction (/repo/russell_nonlin/src/iteration_error.rs:183-187) -/
noncomputable def rms (scaling : Nat → ℝ) {m : Nat} (x : Vec m) : ℝ :=
  Real.sqrt ((∑ i : Fin m, x i / scaling i * (x i / scaling i)) / m)

open Classical in
/-- `IterationError::analyze_delta` (/repo/russell_nonlin/src/iteration_error.rs:169-210) -/
noncomputable def IterErr.analyzeDelta {m : Nat} (c : Config) (fin : ℝ → Bool) (iteration : Nat) (x : Vec m)
    (e : IterErr) : Bool × IterErr :=
  if c.disableRelDelta then (false, e)
  else
    let deltaMax := normMax x
    if !fin deltaMax then (true, { e with deltaMax := deltaMax })
    else
      let diverging := if iteration = 0 then false else decide (deltaMax > e.deltaMaxPrev)
      (false, { e with
        deltaMax := deltaMax
        deltaRms := rms e.scaling x
        deltaConverged := decide (rms e.scaling x ≤ 1)
        prevDeltaDiverging := e.deltaDiverging
        deltaDiverging := diverging
        nContDeltaDiv := if e.deltaDiverging && diverging then e.nContDeltaDiv + 1 else e.nContDeltaDiv
        deltaMaxPrev := deltaMax })

open Classical in
/-- `IterationError::capture_failures` (/repo/russell_nonlin/src/iteration_error.rs:213-237); `n_iteration_max ≥ 1` has been
validated, so that the subtraction does not underflow -/
noncomputable def IterErr.captureFailures (c : Config) (iteration : Nat) (e : IterErr) : Status × IterErr :=
  if e.deltaMax > c.deltaMaxAllowed then (.largeDelta, { e with nLargeDelta := e.nLargeDelta + 1 })
  else if e.nContResDiv ≥ c.nContResDivMax then (.continuedResidualDivergence, e)
  else if e.nContDeltaDiv ≥ c.nContDeltaDivMax then (.continuedDeltaDivergence, e)
  else if iteration = c.nIterationMax - 1 then (.reachedMaxIterations, e)
  else (.success, e)

/-! ## Statistics and workspace -/

/-- the counters of `Stats` (/repo/russell_nonlin/src/stats.rs:8-94); timings left out -/
structure Stats where
  nFunction : Nat
  nJacobian : Nat
  nFactor : Nat
  nLinSol : Nat
  nSteps : Nat
  nAccepted : Nat
  nRejected : Nat
  nIterTotal : Nat
  hAccepted : ℝ
  residuals : Option (List (List ℝ))
  temp : List ℝ

/-- `Stats::new` (/repo/russell_nonlin/src/stats.rs:98-127) -/
def Stats.new : Stats := ⟨0, 0, 0, 0, 0, 0, 0, 0, 0, none, []⟩

/-- `Stats::reset` (/repo/russell_nonlin/src/stats.rs:192-209) -/
def Stats.reset (s : Stats) : Stats := { Stats.new with temp := s.temp }

/-- `Stats::record_iterations_residuals_start` (/repo/russell_nonlin/src/stats.rs:212-219) -/
def Stats.recStart (c : Config) (s : Stats) : Stats :=
  if c.recordResiduals then { s with temp := [], residuals := some (s.residuals.getD []) } else s

/-- `Stats::record_iterations_residuals_append` (/repo/russell_nonlin/src/stats.rs:222-226) -/
def Stats.recAppend (c : Config) (x : ℝ) (s : Stats) : Stats :=
  if c.recordResiduals then { s with temp := s.temp ++ [x] } else s

/-- `Stats::record_iterations_residuals_stop` (/repo/russell_nonlin/src/stats.rs:229-237) -/
def Stats.recStop (c : Config) (converged : Bool) (s : Stats) : Stats :=
  if c.recordResiduals && converged then { s with residuals := s.residuals.map (· ++ [s.temp]) } else s

/-- `Workspace` (/repo/russell_nonlin/src/workspace.rs:5-81). `duds` has the dimension zero for the natural method; there it
is neither read nor written. -/
structure Work (n : Nat) where
  err : IterErr
  stats : Stats
  auto : Bool
  nIter : Nat
  nContFailure : Nat
  nContRejection : Nat
  followsFailure : Bool
  followsRejection : Bool
  targetReached : Bool
  h : ℝ
  u : Vec n
  l : ℝ
  gg : Vec n
  duds : Vec n
  dlds : ℝ
  debug : Option (List ℝ × List ℝ × List ℝ)

/-- `Workspace::new` (/repo/russell_nonlin/src/workspace.rs:85-120) -/
def Work.new (n : Nat) : Work n :=
  ⟨IterErr.new, Stats.new, false, 0, 0, 0, false, false, false, 0, 0, 0, 0, 0, 0, none⟩

/-- `Workspace::reset_stats_and_flags` (/repo/russell_nonlin/src/workspace.rs:123-133) -/
def Work.resetStats {n : Nat} (auto : Bool) (w : Work n) : Work n :=
  { w with
    stats := w.stats.reset
    auto := auto
    nIter := 0
    nContFailure := 0
    nContRejection := 0
    followsFailure := false
    followsRejection := false
    targetReached := false }

/-! ## Output -/

/-- `Output` (/repo/russell_nonlin/src/output.rs:21-52). The hash maps are association lists with distinct keys. -/
structure Output (n : Nat) (A : Type) where
  recording : Bool
  normKind : Option (Lab.Norm × Nat × Nat)
  callback : Option (Stats → Vec n → ℝ → ℝ → A → Res (Bool × A))
  normU : List ℝ
  u : List (Nat × List ℝ)
  l : List ℝ
  h : List ℝ
  duds : List (Nat × List ℝ)
  dlds : List ℝ

/-- `Output::new` (/repo/russell_nonlin/src/output.rs:56-68) -/
def Output.new (n : Nat) (A : Type) : Output n A := ⟨false, none, none, [], [], [], [], [], []⟩

/-- `HashMap::insert(m, Vec::new())` on an association list -/
def insertEmpty (xs : List (Nat × List ℝ)) (m : Nat) : List (Nat × List ℝ) :=
  xs.filter (fun p => p.1 ≠ m) ++ [(m, [])]

/-- `Output::set_recording` (/repo/russell_nonlin/src/output.rs:98-107) -/
def Output.setRecording {n : Nat} {A : Type} (recording : Bool) (us duds : List Nat) (o : Output n A) : Output n A :=
  { o with recording := recording, u := us.foldl insertEmpty o.u, duds := duds.foldl insertEmpty o.duds }

/-- `for (m, xm) in map.iter_mut() { xm.push(x[*m]) }` (/repo/russell_nonlin/src/output.rs:206-208, 213-215) -/
def pushAll {n : Nat} (x : Vec n) : List (Nat × List ℝ) → Res (List (Nat × List ℝ))
  | [] => ok []
  | (m, xs) :: rest => do
    let y ← x.at m
    let rest' ← pushAll x rest
    ok ((m, xs ++ [y]) :: rest')

/-- the recording of the norm (/repo/russell_nonlin/src/output.rs:202-205) -/
noncomputable def Output.pushNorm {n : Nat} {A : Type} (u : Vec n) (o : Output n A) : Res (Output n A) :=
  match o.normKind with
  | none => ok o
  | some (kind, start, stop) => do
    let norm ← Lab.vecNormChunk Real.sqrt (List.ofFn u) kind start stop
    ok { o with normU := o.normU ++ [norm] }

/-- the recording of the tangent vector (/repo/russell_nonlin/src/output.rs:211-217); `work.duds.dim() == u.dim()` holds
exactly for the arclength method, because the dimension of a system is positive (system.rs:155-157) -/
def Output.pushTangent {n : Nat} {A : Type} (c : Config) (w : Work n) (o : Output n A) : Res (Output n A) :=
  if c.arclength then do
    let duds ← pushAll w.duds o.duds
    ok { o with duds := duds, dlds := o.dlds ++ [w.dlds] }
  else ok o

/-- the recording of the results (/repo/russell_nonlin/src/output.rs:201-218) -/
noncomputable def Output.record {n : Nat} {A : Type} (c : Config) (w : Work n) (u : Vec n) (l : ℝ) (o : Output n A) :
    Res (Output n A) :=
  if o.recording then do
    let o ← o.pushNorm u
    let us ← pushAll u o.u
    { o with u := us, l := o.l ++ [l], h := o.h ++ [w.h] }.pushTangent c w
  else ok o

/-- `Output::execute` (/repo/russell_nonlin/src/output.rs:191-222) -/
noncomputable def Output.execute {n : Nat} {A : Type} (c : Config) (w : Work n) (u : Vec n) (l : ℝ) (a : A)
    (o : Output n A) : Res (Bool × Output n A × A) :=
  match o.callback with
  | none => do
    let o ← o.record c w u l
    ok (false, o, a)
  | some cb => do
    let (gracefully, a) ← cb w.stats u l w.h a
    if gracefully then ok (true, o, a)
    else do
      let o ← o.record c w u l
      ok (false, o, a)

/-! ## The system and the linear solver -/

/-- `System` (/repo/russell_nonlin/src/system.rs:67-109). The callbacks fill the whole vectors and matrices, depend on the
previous content of their arguments only through `args`, and an error of the state update may change `args`. The sparse
matrix is represented by the dense matrix it stands for. -/
structure System (n : Nat) (A : Type) where
  calcG : ℝ → Vec n → A → Res (Vec n × A)
  calcJ : ℝ → Vec n → A → Res (Matrix (Fin n) (Fin n) ℝ × Vec n × A)
  backup : Option (A → A)
  restore : Option (A → A)
  prepare : Option (A → A)
  update : Option (Bool → Vec n → Vec n → ℝ → ℝ → A → Except String Bool × A)

/-- a callback `Option<Fn(&mut A)>` -/
def callOpt {A : Type} (f : Option (A → A)) (a : A) : A :=
  match f with
  | none => a
  | some f => f a

/-- a call of `update_secondary_state` followed by `Status::from_sup` (/repo/russell_nonlin/src/solver_natural.rs:156-162,
222-228, solver_arclength.rs:630-636, 736-742) -/
def System.supdate {n : Nat} {A : Type} (s : System n A) (doBackup : Bool) (u0 u1 : Vec n) (l0 l1 : ℝ) (a : A) :
    Status × A :=
  match s.update with
  | none => (.success, a)
  | some f =>
    let r := f doBackup u0 u1 l0 l1 a
    (Status.fromSup r.1, r.2)

/-- a sparse direct solver for square systems of dimension `m`: factorization and solution; the factors are opaque -/
structure LinSol (m : Nat) where
  F : Type
  factorize : Matrix (Fin m) (Fin m) ℝ → Res F
  solve : F → Vec m → Res (Vec m)

/-- what is assumed of a solver: the returned vectors solve the linear system -/
def LinSol.Exact {m : Nat} (L : LinSol m) : Prop :=
  ∀ M f, L.factorize M = ok f → ∀ b x, L.solve f b = ok x → M.mulVec x = b

/-- `ls.actual.solve`, refused when nothing has been factorized (e.g. /repo/russell_sparse/src/solver_umfpack.rs:353-355) -/
def LinSol.run {m : Nat} (L : LinSol m) (f : Option L.F) (b : Vec m) : Res (Vec m) :=
  match f with
  | none => err "the function factorize must be called before solve"
  | some f => L.solve f b

/-- the debug record of the predictor (/repo/russell_nonlin/src/solver_natural.rs:231-241, solver_arclength.rs:745-755:
`record the predictor for debugging`) -/
def Work.pushDebug {n : Nat} (c : Config) (w : Work n) : Res (Work n) :=
  if c.debugPredictor then do
    let d := w.debug.getD ([], [], [])
    let u0 ← w.u.at 0
    if h : 1 < n then ok { w with debug := some (d.1 ++ [w.l], d.2.1 ++ [u0], d.2.2 ++ [w.u ⟨1, h⟩]) }
    else ok { w with debug := some (d.1 ++ [w.l], d.2.1 ++ [u0], d.2.2) }
  else ok w

/-- the removal of the predictor values of `reject` (/repo/russell_nonlin/src/solver_natural.rs:379-386,
solver_arclength.rs:886-893) -/
def Work.popDebug {n : Nat} (c : Config) (w : Work n) : Res (Work n) :=
  if c.debugPredictor then
    match w.debug with
    | none => panic
    | some d =>
      ok { w with debug := some (d.1.dropLast, d.2.1.dropLast, if 1 < n then d.2.2.dropLast else d.2.2) }
  else ok w

end Russell.Nonlin
