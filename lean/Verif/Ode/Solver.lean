import Verif.Ode.Output

/-!
# Model of `OdeSolver::solve` (russell_ode/src/ode_solver.rs:177-380)

The numerical method is a parameter: a state and the operations of `OdeSolverTrait` (ode_solver_trait.rs). Stopwatches and
messages are left out. The final station `x`, a local variable of the Rust function, is kept in the result.
-/

namespace Russell.Ode

open Russell Russell.Res

variable {K σ M : Type}

/-- `OdeSolverTrait` (ode_solver_trait.rs): the methods change their own state `M`, the workspace and the arguments. -/
structure Stepper (K σ M : Type) where
  enable_dense_output : M → Res M
  /-- `step(work, x, y, h, args)` -/
  step : M → Workspace K → K → List K → K → σ → Res (M × Workspace K × σ)
  /-- `accept(work, &mut x, &mut y, h, args)` -/
  accept : M → Workspace K → K → List K → K → σ → Res (M × Workspace K × K × List K × σ)
  /-- `reject(work, h)` -/
  reject : M → Workspace K → K → M × Workspace K
  /-- `dense_output(y_out, x_out, x, y, h)` -/
  dense_output : M → List K → K → K → List K → K → Res (List K)

/-- The parameters read by `solve` (params.rs:58-109, 125) and the flag `embedded` of `Method::information`. -/
structure SolveParams (K : Type) where
  ndim : Nat
  embedded : Bool
  h_ini : K
  n_step_max : Nat
  m_first_reject : K
  rel_error_prev_min : K
  save_results : Bool

/-- The variables of `solve`. -/
structure State (K σ M : Type) where
  m : M
  work : Workspace K
  x : K
  y : List K
  h : K
  last_step : Bool
  out : Option (Output K σ)
  args : σ

/-- The end of a turn of a loop: go on, leave the loop (with the flag `success`), or return because of a callback. -/
inductive Turn (S : Type) where
  | next (s : S)
  | finished (s : S) (success : Bool)
  | stopped (s : S)

/-- The result of `solve`: the flag says that a callback stopped the solution. -/
structure Solved (K σ M : Type) where
  state : State K σ M
  stopped : Bool

section
variable [Add K] [Sub K] [Mul K] [Div K] [LE K] [LT K] [DecidableLE K] [DecidableLT K] [F64Ops K]
variable (st : Stepper K σ M) (p : SolveParams K) (fin : List K → Res Unit)

/-- The call of `out.execute` (ode_solver.rs:231-236, 256-263, 329-336): the flag says "stop". -/
def runOutput (s : State K σ M) : Res (State K σ M × Bool) :=
  match s.out with
  | none => ok (s, false)
  | some o => do
    let (o, args, stop) ←
      o.execute s.work s.h s.x s.y (fun y_out x_out => st.dense_output s.m y_out x_out s.x s.y s.h) s.args
    ok (({ s with out := some o, args := args } : State K σ M), stop)

/-- The call of `out.last` (ode_solver.rs:266-268, 369-371). -/
def runLast (s : State K σ M) : Res (State K σ M) :=
  match s.out with
  | none => ok s
  | some o => do
    let (o, args) ← o.last s.work s.h s.x s.y s.args
    ok ({ s with out := some o, args := args } : State K σ M)

/-- `stats.n_steps += 1`. -/
def Workspace.addStep (w : Workspace K) : Workspace K := { w with stats := { w.stats with n_steps := w.stats.n_steps + 1 } }

/-- `stats.n_accepted += 1`. -/
def Workspace.addAccepted (w : Workspace K) : Workspace K :=
  { w with stats := { w.stats with n_accepted := w.stats.n_accepted + 1 } }

/-- One turn of the loop with equal steps (ode_solver.rs:241-265). `fin` is `vec_all_finite`. -/
def equalTurn (s : State K σ M) : Res (Turn (State K σ M)) := do
  let work := s.work.addStep
  let (m, work, args) ← st.step s.m work s.x s.y s.h s.args
  let work := work.addAccepted
  let (m, work, x, y, args) ← st.accept m work s.x s.y s.h args
  fin y
  let s : State K σ M := { s with m := m, work := work, x := x, y := y, args := args }
  let (s, stop) ← runOutput st s
  if stop then ok (.stopped s) else ok (.next s)

/-- What follows an accepted step (ode_solver.rs:311-348). -/
def acceptTurn (x1 : K) (s : State K σ M) : Res (Turn (State K σ M)) := do
  let work := s.work.addAccepted
  let (m, work, x, y, args) ← st.accept s.m work s.x s.y s.h s.args
  fin y
  let work : Workspace K := if work.follows_reject_step then { work with h_new := fmin work.h_new s.h } else work
  let work : Workspace K :=
    { work with
      follows_reject_step := false
      h_prev := s.h
      rel_error_prev := fmax p.rel_error_prev_min work.rel_error
      stats := { work.stats with h_accepted := work.h_new } }
  let s : State K σ M := { s with m := m, work := work, x := x, y := y, args := args }
  let (s, stop) ← runOutput st s
  if stop then ok (.stopped s)
  else if s.last_step then ok (.finished s true)
  else if x1 ≤ s.x + s.work.h_new then ok (.next { s with last_step := true })
  else ok (.next s)

/-- What follows a rejected step (ode_solver.rs:352-364). -/
def rejectTurn (s : State K σ M) : State K σ M :=
  let work : Workspace K :=
    if 0 < s.work.stats.n_accepted then
      { s.work with stats := { s.work.stats with n_rejected := s.work.stats.n_rejected + 1 } }
    else s.work
  let work : Workspace K := { work with follows_reject_step := true }
  if work.stats.n_accepted = 0 ∧ lit 0 < p.m_first_reject then
    { s with last_step := false, work := { work with h_new := s.h * p.m_first_reject } }
  else
    let r := st.reject s.m work s.h
    { s with last_step := false, m := r.1, work := r.2 }

/-- One turn of the loop with variable steps (ode_solver.rs:278-366). -/
def variableTurn (x1 : K) (s : State K σ M) : Res (Turn (State K σ M)) := do
  let dx := x1 - s.x
  if dx ≤ tenEps then ok (.finished s true)
  else
    let h := fmin s.work.h_new dx
    if h ≤ tenEps then Res.err "the stepsize becomes too small"
    else
      let (m, work, args) ← st.step s.m s.work.addStep s.x s.y h s.args
      let s : State K σ M := { s with m := m, work := work, h := h, args := args }
      if work.iterations_diverging then
        ok (.next { s with
          last_step := false
          work := { work with
            iterations_diverging := false
            follows_reject_step := true
            h_new := h * work.h_multiplier_diverging } })
      else if work.rel_error < lit 1 then acceptTurn st p fin x1 s
      else ok (.next (rejectTurn st p s))

/-- A loop of `n` turns; when the turns are used up the flag is `fallthrough`. -/
def turns {S : Type} (turn : S → Res (Turn S)) (fallthrough : Bool) : Nat → S → Res (Turn S)
  | 0, s => ok (.finished s fallthrough)
  | n + 1, s => do
    let t ← turn s
    match t with
    | .next s => turns turn fallthrough n s
    | .finished s b => ok (.finished s b)
    | .stopped s => ok (.stopped s)

/-- The end of `solve` after a loop (ode_solver.rs:266-270, 368-379). -/
def finish (t : Turn (State K σ M)) : Res (Solved K σ M) :=
  match t with
  | .next _ => Res.panic
  | .stopped s => ok ⟨s, true⟩
  | .finished s success => do
    let s ← runLast s
    if success then ok ⟨s, false⟩ else Res.err "variable stepping did not converge"

/-- The initial stepsize (ode_solver.rs:198-216). -/
def initialStep (x0 x1 : K) (h_equal : Option K) : Res (Bool × K) :=
  match h_equal with
  | some h_eq =>
    if h_eq < tenEps then Res.err "h_equal must be ≥ 10.0 * f64::EPSILON"
    else ok (true, (x1 - x0) / lit (ceilU ((x1 - x0) / h_eq)))
  | none =>
    if p.embedded then ok (false, fmin p.h_ini (x1 - x0))
    else ok (true, (x1 - x0) / lit 10)

/-- `enable_dense_output`, when there is dense output (ode_solver.rs:229-231). -/
def enableDense (o : Output K σ) (m : M) : Res M := if o.withDenseOutput then st.enable_dense_output m else ok m

/-- The beginning of `solve` for the output (ode_solver.rs:227-236). -/
def firstOutput (x0 x1 : K) (s : State K σ M) : Res (State K σ M × Bool) :=
  match s.out with
  | none => ok (s, false)
  | some o => do
    let o ← o.initialize x0 x1 p.save_results
    let m ← enableDense st o s.m
    runOutput st { s with out := some o, m := m }

/-- `OdeSolver::solve` (ode_solver.rs:177-380). -/
def solve (m : M) (y0 : List K) (x0 x1 : K) (h_equal : Option K) (args : σ) (out : Option (Output K σ)) :
    Res (Solved K σ M) := do
  if y0.length ≠ p.ndim then Res.err "y0.dim() must be equal to ndim"
  else if x1 ≤ x0 then Res.err "x1 must be greater than x0"
  else
    let (equal, h) ← initialStep p x0 x1 h_equal
    if ¬ lit 0 < h then Res.panic
    else
      let s : State K σ M :=
        { m := m, work := Workspace.reset h p.rel_error_prev_min, x := x0, y := y0, h := h, last_step := false,
          out := out, args := args }
      let (s, stop) ← firstOutput st p x0 x1 s
      if stop then ok ⟨s, true⟩
      else if equal then
        let t ← turns (equalTurn st fin) true (ceilU ((x1 - s.x) / h)) s
        finish t
      else
        let t ← turns (variableTurn st p fin x1) false p.n_step_max s
        finish t

end

end Russell.Ode
