import Verif.Nonlin.Arclength

/-!
# The continuation driver (russell_nonlin/src/solver.rs)

The driver is modelled for an arbitrary implementation of `trait SolverTrait`; the two implementations of the crate are the
instances `natural` and `arclength`. An `Err` leaves the solver in an unspecified state, which is not modelled.
-/

namespace Russell.Nonlin

open Russell Russell.Res

variable {n : Nat} {A σ : Type}

/-- `trait SolverTrait` (/repo/russell_nonlin/src/solver_trait.rs:6-31). Neither implementation of `accept` changes the
workspace or `args`. -/
structure Method (n : Nat) (A σ : Type) where
  init : σ → Work n → ℝ → Vec n → ℝ → IniDir → A → Res (σ × Work n × A)
  step : σ → Work n → Vec n → ℝ → Stop → A → Res (σ × Work n × A × Status)
  accept : σ → Work n → Vec n → ℝ → Res (σ × Vec n × ℝ × ℝ)
  reject : σ → Work n → A → Res (σ × Work n × A)

/-- `impl SolverTrait for SolverNatural` (/repo/russell_nonlin/src/solver_natural.rs:213-388) -/
noncomputable def natural (c : Config) (fin : ℝ → Bool) (sys : System n A) (L : LinSol n) : Method n A (Nat' n L.F) where
  init s w ddlIni _ _ dir a := ok ((natInit s w ddlIni dir).1, (natInit s w ddlIni dir).2, a)
  step s w u l stop a := natStep c fin sys L s w u l stop a
  accept s w u _ := ok (natAccept c s w u)
  reject s w a := do
    let (w, a) ← rejectStep c sys w a
    ok (s, w, a)

/-- `impl SolverTrait for SolverArclength` (/repo/russell_nonlin/src/solver_arclength.rs:643-895) -/
noncomputable def arclength (c : Config) (fin : ℝ → Bool) (sys : System n A) (L : LinSols n) : Method n A (ArcS L) where
  init s w ddlIni u l dir a := arcInit c sys L s w ddlIni u l dir a
  step s w u l stop a := arcStep c fin sys L s w u l stop a
  accept s w _ _ := ok (s, w.u, w.l, arcRdiff c s w)
  reject s w a := do
    let (w, a) ← rejectStep c sys w a
    ok (s, w, a)

/-! ## Stepsize adaptation -/

/-- Values of the factor ρ: numbers, positive infinity and NaN; only nonnegative quantities are divided and raised. -/
inductive Ext where
  | nan
  | inf
  | num (r : ℝ)

open Classical in
/-- `a / b` for nonnegative `a` (and a divisor zero without sign) -/
noncomputable def Ext.div (a b : ℝ) : Ext := if b = 0 then (if a = 0 then .nan else .inf) else .num (a / b)

open Classical in
/-- `f64::powf` for bases without sign bit; a negative base is declared NaN (exact for exponents that are not integers) -/
noncomputable def Ext.powf : Ext → ℝ → Ext
  | .num r, y =>
    if 0 < r then .num (r ^ y)
    else if y = 0 then .num 1
    else if r < 0 then .nan
    else if 0 < y then .num 0
    else .inf
  | .inf, y => if y = 0 then .num 1 else if 0 < y then .inf else .num 0
  | .nan, y => if y = 0 then .num 1 else .nan

open Classical in
/-- multiplication of nonnegative values -/
noncomputable def Ext.mul : Ext → Ext → Ext
  | .num a, .num b => .num (a * b)
  | .num a, .inf => if a = 0 then .nan else .inf
  | .inf, .num b => if b = 0 then .nan else .inf
  | .inf, .inf => .inf
  | .nan, _ => .nan
  | _, .nan => .nan

/-- `Solver` (/repo/russell_nonlin/src/solver.rs:15-33) -/
structure Solver (n : Nat) (σ : Type) where
  st : σ
  w : Work n
  rerrPrev : ℝ
  rerrAnc : ℝ
  hPrev : ℝ
  hAnc : ℝ

/-- `Solver::new` after the construction of the method (/repo/russell_nonlin/src/solver.rs:47-68) -/
noncomputable def Solver.new (c : Config) (n : Nat) (st : Res σ) : Res (Solver n σ) := do
  let _ ← c.validate
  let st ← st
  ok ⟨st, Work.new n, 0, 0, 0, 0⟩

/-- the relative convergence behavior ξ (/repo/russell_nonlin/src/solver.rs:356-362) -/
noncomputable def ksi (c : Config) (w : Work n) : ℝ :=
  if c.nrEnabled then ((c.nOpt : ℝ) / max 1 (w.nIter : ℝ)) ^ c.nrBeta else 1

open Classical in
/-- the PID controller (/repo/russell_nonlin/src/solver.rs:378-390) -/
noncomputable def rhoPid (sv : Solver n σ) (rdiff : ℝ) : Ext :=
  let i := Ext.div 1 rdiff
  let p := if sv.w.stats.nAccepted > 1 then Ext.div sv.rerrPrev rdiff else .num 1
  let d := if sv.w.stats.nAccepted > 2 ∧ sv.rerrAnc > 0 then Ext.div (sv.rerrPrev * sv.rerrPrev) (rdiff * sv.rerrAnc)
    else .num 1
  ((p.powf (3 / 40)).mul (i.powf (7 / 40))).mul (d.powf (1 / 100))

/-- the digital filter (/repo/russell_nonlin/src/solver.rs:391-402) -/
noncomputable def rhoFilter (c : Config) (sv : Solver n σ) (rdiff : ℝ) : Ext :=
  let rho := (Ext.div 1 rdiff).powf c.beta1
  let rho := if sv.w.stats.nAccepted > 1 then
      (rho.mul ((Ext.div 1 sv.rerrPrev).powf c.beta2)).mul ((Ext.div sv.w.h sv.hPrev).powf (-c.alpha2))
    else rho
  if sv.w.stats.nAccepted > 2 then
    (rho.mul ((Ext.div 1 sv.rerrAnc).powf c.beta3)).mul ((Ext.div sv.hPrev sv.hAnc).powf (-c.alpha3))
  else rho

open Classical in
/-- the factor ρ (/repo/russell_nonlin/src/solver.rs:373-405) -/
noncomputable def rhoOf (c : Config) (sv : Solver n σ) (rdiff : ℝ) : Ext :=
  if c.tgEnabled then
    if rdiff = 0 then .num c.rhoTiny
    else if c.tgPid then rhoPid sv rdiff
    else rhoFilter c sv rdiff
  else .num 1

/-- the smoothing formula `h·(1 + atan(ξρ − 1))` (/repo/russell_nonlin/src/solver.rs:414-415); ξ is positive. A NaN stepsize
cannot be represented; it is reported as the error below (the code continues with it). -/
noncomputable def smooth (ksi : ℝ) (h : ℝ) : Ext → Res ℝ
  | .nan => err "not modelled: NaN stepsize"
  | .inf => ok (h * (1 + Real.pi / 2))
  | .num rho => ok (h * (1 + Real.arctan (ksi * rho - 1)))

open Classical in
/-- tiny differences are set to zero (/repo/russell_nonlin/src/solver.rs:367-371) -/
noncomputable def cutTiny (c : Config) (rdiff : ℝ) : ℝ := if rdiff < c.rdiffMin then 0 else rdiff

open Classical in
/-- `Solver::adapt_stepsize` (/repo/russell_nonlin/src/solver.rs:354-416) -/
noncomputable def adaptStepsize (c : Config) (sv : Solver n σ) (rdiff : ℝ) : Res (Solver n σ × ℝ) :=
  if ¬ rdiff ≥ 0 then panic
  else do
    let h ← smooth (ksi c sv.w) sv.w.h (rhoOf c sv (cutTiny c rdiff))
    ok ({ sv with rerrAnc := sv.rerrPrev, rerrPrev := cutTiny c rdiff, hAnc := sv.hPrev, hPrev := sv.w.h }, h)

/-! ## The loops -/

/-- the variables of `solve` -/
structure Run (n : Nat) (A σ : Type) where
  sv : Solver n σ
  u : Vec n
  l : ℝ
  a : A
  out : Option (Output n A)

/-- the workspace replaced -/
def Run.setW (r : Run n A σ) (w : Work n) : Run n A σ := { r with sv := { r.sv with w := w } }

open Classical in
/-- `vec_all_finite` (/repo/russell_lab/src/vector/vec_all_finite.rs:33-43) -/
noncomputable def allFinite (fin : ℝ → Bool) (u : Vec n) : Res Unit :=
  if ∀ i, fin (u i) = true then ok () else err "an element of the vector is either infinite or NaN"

/-- the output (/repo/russell_nonlin/src/solver.rs:134-139, 198-204, 296-302): the flag to stop gracefully -/
noncomputable def doOutput (c : Config) (r : Run n A σ) : Res (Bool × Run n A σ) :=
  match r.out with
  | none => ok (false, r)
  | some o => do
    let (g, o, a) ← o.execute c r.sv.w r.u r.l r.a
    ok (g, { r with out := some o, a := a })

/-- `self.work.stats.n_steps += 1; status = self.actual.step(...)?`
(/repo/russell_nonlin/src/solver.rs:163-164, 220-221) -/
def doStep (M : Method n A σ) (stop : Stop) (r : Run n A σ) : Res (Run n A σ × Status) := do
  let w := { r.sv.w with stats := { r.sv.w.stats with nSteps := r.sv.w.stats.nSteps + 1 } }
  let (st, w, a, status) ← M.step r.sv.st w r.u r.l stop r.a
  ok ({ r with sv := { r.sv with st := st, w := w }, a := a }, status)

/-- `n_accepted += 1` and `accept` (/repo/russell_nonlin/src/solver.rs:172-173, 269-270) -/
def doAccept (M : Method n A σ) (r : Run n A σ) : Res (Run n A σ × ℝ) := do
  let w := { r.sv.w with stats := { r.sv.w.stats with nAccepted := r.sv.w.stats.nAccepted + 1 } }
  let (st, u, l, rdiff) ← M.accept r.sv.st w r.u r.l
  ok ({ r with sv := { r.sv with st := st, w := w }, u := u, l := l }, rdiff)

open Classical in
/-- the next stepsize of the list (/repo/russell_nonlin/src/solver.rs:176-191) -/
noncomputable def nextListed (c : Config) (ddl : DeltaLambda) (i : Nat) (w : Work n) : Res ℝ :=
  match ddl.list[i + 1]? with
  | none => ok w.h
  | some next =>
    if next ≤ hMin then err "requirement: ddl > 1e-10"
    else if c.arclength then
      if |w.dlds| < hMin then err "dλ/ds is too small to calculate the stepsize" else ok (next / |w.dlds|)
    else ok next

/-- the end of an accepted step: output and exit point (/repo/russell_nonlin/src/solver.rs:197-210, 295-308); the flag tells
whether the loop is left -/
noncomputable def stepExit (c : Config) (stop : Stop) (i : Nat) (r : Run n A σ) : Res (Run n A σ × Bool) := do
  let (g, r) ← doOutput c r
  if g then ok (r, true)
  else do
    let now ← stop.now i r.u r.l
    ok (r, now)

/-- the acceptance in the fixed-stepsize loop (/repo/russell_nonlin/src/solver.rs:171-210) -/
noncomputable def fixedAccept (c : Config) (fin : ℝ → Bool) (M : Method n A σ) (stop : Stop) (ddl : DeltaLambda) (i : Nat)
    (r : Run n A σ) : Res (Run n A σ × Bool) := do
  let (r, _) ← doAccept M r
  let h ← nextListed c ddl i r.sv.w
  let r := r.setW { r.sv.w with h := h, stats := { r.sv.w.stats with hAccepted := h } }
  let _ ← allFinite fin r.u
  stepExit c stop i r

/-- the body of the fixed-stepsize loop (/repo/russell_nonlin/src/solver.rs:158-210) -/
noncomputable def fixedBody (c : Config) (fin : ℝ → Bool) (M : Method n A σ) (stop : Stop) (ddl : DeltaLambda) (i : Nat)
    (r : Run n A σ) : Res (Run n A σ × Status × Bool) := do
  let (r, status) ← doStep M stop r
  if status.failure then ok (r, status, true)
  else do
    let (r, leave) ← fixedAccept c fin M stop ddl i r
    ok (r, status, leave)

open Classical in
/-- the redo of steps that pass a prescribed component of u (/repo/russell_nonlin/src/solver.rs:224-232) -/
noncomputable def preciseStop (c : Config) (stop : Stop) (w : Work n) (status : Status) : Res Status :=
  if c.preciseStop then
    match stop.uComp with
    | none => ok status
    | some (i, u1, isMin) => do
      let x ← w.u.at i
      if (isMin = true ∧ x < u1 - hMin) ∨ (isMin = false ∧ x > u1 + hMin) then ok .unmetStopCriterion else ok status
  else ok status

/-- the rejection of a step (/repo/russell_nonlin/src/solver.rs:258-266) -/
def autoReject (c : Config) (M : Method n A σ) (r : Run n A σ) : Res (Run n A σ) := do
  let w := { r.sv.w with
    stats := { r.sv.w.stats with nRejected := r.sv.w.stats.nRejected + 1 }, followsRejection := true }
  let (st, w, a) ← M.reject r.sv.st w r.a
  ok { r with sv := { r.sv with st := st, w := { w with h := w.h * c.mFailure } }, a := a }

/-- the new stepsize and flags of an accepted step (/repo/russell_nonlin/src/solver.rs:280-293) -/
noncomputable def autoAdapt (c : Config) (r : Run n A σ) (rdiff : ℝ) : Res (Run n A σ) := do
  let (sv, hEst) ← adaptStepsize c r.sv rdiff
  let h := if sv.w.followsFailure || sv.w.followsRejection then min hEst sv.w.h else hEst
  let w := { sv.w with
    h := h, stats := { sv.w.stats with hAccepted := h }, nContFailure := 0, nContRejection := 0,
    followsFailure := false, followsRejection := false }
  ok { r with sv := { sv with w := w } }

/-- the acceptance of a step (/repo/russell_nonlin/src/solver.rs:267-309) -/
noncomputable def autoAccept (c : Config) (fin : ℝ → Bool) (M : Method n A σ) (stop : Stop) (i : Nat) (r : Run n A σ) :
    Res (Run n A σ × Bool) := do
  let (r, rdiff) ← doAccept M r
  let _ ← allFinite fin r.u
  if r.sv.w.targetReached then ok (r, true)
  else do
    let r ← autoAdapt c r rdiff
    stepExit c stop i r

/-- the counting of failures (/repo/russell_nonlin/src/solver.rs:235-242) -/
def countFailure (status : Status) (w : Work n) : Work n :=
  if status.failure then { w with nContFailure := w.nContFailure + 1, followsFailure := true } else w

open Classical in
/-- the last check of the body (/repo/russell_nonlin/src/solver.rs:311-315) -/
noncomputable def checkSmall (r : Run n A σ) (status : Status) : Run n A σ × Status × Bool :=
  if r.sv.w.h < hMin then (r, .smallStepsize, true) else (r, status, false)

/-- rejection or acceptance (/repo/russell_nonlin/src/solver.rs:208-315) -/
noncomputable def autoDecide (c : Config) (fin : ℝ → Bool) (M : Method n A σ) (stop : Stop) (i : Nat) (r : Run n A σ)
    (status : Status) : Res (Run n A σ × Status × Bool) :=
  if status.failure then do
    let r ← autoReject c M r
    ok (checkSmall r status)
  else do
    let (r, leave) ← autoAccept c fin M stop i r
    if leave then ok (r, status, true) else ok (checkSmall r status)

/-- the body of the variable-stepsize loop (/repo/russell_nonlin/src/solver.rs:215-315) -/
noncomputable def autoBody (c : Config) (fin : ℝ → Bool) (M : Method n A σ) (stop : Stop) (i : Nat) (r : Run n A σ) :
    Res (Run n A σ × Status × Bool) := do
  let (r, status) ← doStep M stop r
  let status ← preciseStop c stop r.sv.w status
  if status.failure && !status.tryAgain then ok (r, status, true)
  else
    let r := r.setW (countFailure status r.sv.w)
    if r.sv.w.nContFailure ≥ c.nContFailureMax then ok (r, .continuedFailure, true)
    else if r.sv.w.nContRejection ≥ c.nContRejectionMax then ok (r, .continuedRejection, true)
    else autoDecide c fin M stop i r status

/-- `for i in 0..n_step_max` with `break`: `k` passes left, the next index is `i` -/
def loopUntil (body : Nat → Run n A σ → Res (Run n A σ × Status × Bool)) :
    Nat → Nat → Run n A σ → Status → Res (Run n A σ × Status)
  | 0, _, r, status => ok (r, status)
  | k + 1, i, r, _ => do
    let (r, status, leave) ← body i r
    if leave then ok (r, status) else loopUntil body k (i + 1) r status

/-- the continuation (/repo/russell_nonlin/src/solver.rs:150-317) -/
noncomputable def continuation (c : Config) (fin : ℝ → Bool) (M : Method n A σ) (stop : Stop) (ddl : DeltaLambda)
    (r : Run n A σ) : Res (Run n A σ × Status) :=
  if ddl.auto then loopUntil (autoBody c fin M stop) c.nStepMax 0 r .success
  else loopUntil (fixedBody c fin M stop ddl) (if ddl.list.length > 0 then ddl.list.length else c.nStepMax) 0 r .success

/-- `Solver::solve` (/repo/russell_nonlin/src/solver.rs:108-330); `u` has the dimension of the system by its type (lines
119-121) -/
noncomputable def solve (c : Config) (fin : ℝ → Bool) (M : Method n A σ) (sv : Solver n σ) (a : A) (u : Vec n) (l : ℝ)
    (dir : IniDir) (stop : Stop) (ddl : DeltaLambda) (out : Option (Output n A)) : Res (Run n A σ × Status) := do
  let _ ← stop.validate u l
  let w := sv.w.resetStats ddl.auto
  let ddlIni ← ddl.ini stop l
  let (st, w, a) ← M.init sv.st w ddlIni u l dir a
  let r : Run n A σ := ⟨{ sv with st := st, w := w }, u, l, a, out⟩
  let (g, r) ← doOutput c r
  if g then ok (r, .success) else continuation c fin M stop ddl r

end Russell.Nonlin
