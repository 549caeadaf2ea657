import Verif.Nonlin.Control

/-!
# Natural parameter continuation (russell_nonlin/src/solver_natural.rs)

`L` is the sparse linear solver of dimension `n`; `fin` the finiteness test.
-/

namespace Russell.Nonlin

open Russell Russell.Res

variable {n : Nat} {A : Type}

/-- `SolverNatural` (/repo/russell_nonlin/src/solver_natural.rs:15-45). The matrix is kept only through its factors. -/
structure Nat' (n : Nat) (F : Type) where
  sign0 : ℝ
  iterJac : Bool
  ggl : Vec n
  mdu : Vec n
  ls : Option F
  uPrev : Vec n

/-- `SolverNatural::new` (/repo/russell_nonlin/src/solver_natural.rs:63-79) -/
def Nat'.new (n : Nat) (F : Type) : Nat' n F := ⟨1, false, 0, 0, none, 0⟩

/-- the test `nstep > work.stats.n_accepted` of the option to write matrix files
(/repo/russell_nonlin/src/solver_natural.rs:93-94, solver_arclength.rs:292-293, 373-374) -/
def writes (c : Config) (w : Work n) : Bool :=
  match c.writeMatrix with
  | none => false
  | some k => decide (k > w.stats.nAccepted)

/-- `SolverNatural::assemble_and_factorize_jac` (/repo/russell_nonlin/src/solver_natural.rs:84-109). The files are assumed to
be writable and the matrix to have entries (otherwise the `unwrap` of line 95 panics). -/
def natJac (c : Config) (sys : System n A) (L : LinSol n) (s : Nat' n L.F) (w : Work n) (a : A) :
    Res (Nat' n L.F × Work n × A) := do
  let w := { w with stats := { w.stats with nJacobian := w.stats.nJacobian + 1 } }
  let (ggu, ggl, a) ← sys.calcJ w.l w.u a
  if writes c w then err "MATRIX FILES GENERATED in /tmp/russell_nonlin/"
  else do
    let w := { w with stats := { w.stats with nFactor := w.stats.nFactor + 1 } }
    let f ← L.factorize ggu
    ok ({ s with ggl := ggl, ls := some f }, w, a)

/-- the last part of `iterate`: update of the trial state (/repo/russell_nonlin/src/solver_natural.rs:146-166) -/
noncomputable def natUpdate (c : Config) (sys : System n A) {F : Type} (s : Nat' n F) (w : Work n) (u : Vec n) (l : ℝ)
    (a : A) : Nat' n F × Work n × A × Status :=
  let (status, e) := w.err.captureFailures c w.nIter
  let w := { w with err := e }
  if status.failure then (s, w, a, status)
  else
    let w := { w with u := fun i => w.u i + (-1) * s.mdu i }
    let (status, a) := sys.supdate false u w.u l w.l a
    (s, w, a, status)

/-- the middle part of `iterate`: linear system and analysis of the correction
(/repo/russell_nonlin/src/solver_natural.rs:127-166) -/
noncomputable def natCorrect (c : Config) (fin : ℝ → Bool) (sys : System n A) (L : LinSol n) (s : Nat' n L.F) (w : Work n)
    (u : Vec n) (l : ℝ) (a : A) : Res (Nat' n L.F × Work n × A × Status) := do
  let (s, w, a) ← natJac c sys L s w a
  let w := { w with stats := { w.stats with nLinSol := w.stats.nLinSol + 1 } }
  let mdu ← L.run s.ls w.gg
  let s := { s with mdu := mdu }
  let (nan, e) := w.err.analyzeDelta c fin w.nIter mdu
  let w := { w with err := e }
  if nan then ok (s, w, a, .nanOrInfDelta)
  else if w.err.converged then ok (s, w, a, .success)
  else ok (natUpdate c sys s w u l a)

/-- `SolverNatural::iterate` (/repo/russell_nonlin/src/solver_natural.rs:112-166) -/
noncomputable def natIterate (c : Config) (fin : ℝ → Bool) (sys : System n A) (L : LinSol n) (s : Nat' n L.F) (w : Work n)
    (u : Vec n) (l : ℝ) (a : A) : Res (Nat' n L.F × Work n × A × Status) := do
  let w := { w with stats := { w.stats with nFunction := w.stats.nFunction + 1 } }
  let (gg, a) ← sys.calcG w.l w.u a
  let w := { w with gg := gg }
  let (nan, e) := w.err.analyzeResidual c fin w.nIter gg 0
  let w := { w with err := e }
  if nan then ok (s, w, a, .nanOrInfResidual)
  else if w.err.converged then ok (s, w, a, .success)
  else natCorrect c fin sys L s w u l a

/-- the iteration loop, common to both methods; `k` iterations are left
(/repo/russell_nonlin/src/solver_natural.rs:314-334, solver_arclength.rs:761-781) -/
noncomputable def iterLoop {σ : Type} (c : Config) (it : σ → Work n → A → Res (σ × Work n × A × Status)) :
    Nat → σ → Work n → A → Status → Res (σ × Work n × A × Status)
  | 0, s, w, a, status => ok (s, w, a, status)
  | k + 1, s, w, a, _ => do
    let w := { w with stats := { w.stats with nIterTotal := w.stats.nIterTotal + 1 } }
    let (s, w, a, status) ← it s w a
    if status.failure then ok (s, w, a, status)
    else
      let w := { w with stats := w.stats.recAppend c w.err.residualMax }
      if w.err.converged then ok (s, w, a, status)
      else iterLoop c it k s { w with nIter := w.nIter + 1 } a status

open Classical in
/-- the predicted λ and the "targeting lambda" mode (/repo/russell_nonlin/src/solver_natural.rs:261-270) -/
noncomputable def natLambda {F : Type} (s : Nat' n F) (w : Work n) (l : ℝ) (stop : Stop) : Work n :=
  let w := { w with l := l + s.sign0 * w.h }
  match stop.lambda with
  | none => w
  | some (l1, isMin) =>
    if (w.l ≤ l1 ∧ isMin = true) ∨ (w.l ≥ l1 ∧ isMin = false) then
      { w with h := (l1 - l) * s.sign0, l := l + s.sign0 * ((l1 - l) * s.sign0) }
    else w

/-- the first evaluation of the Jacobian for the Euler predictor (/repo/russell_nonlin/src/solver_natural.rs:275-279) -/
def natFirstJac (c : Config) (sys : System n A) (L : LinSol n) (s : Nat' n L.F) (w : Work n) (u : Vec n) (a : A) :
    Res (Nat' n L.F × Work n × A) :=
  if s.iterJac then ok (s, w, a)
  else do
    let (s, w, a) ← natJac c sys L s { w with u := u } a
    ok ({ s with iterJac := true }, w, a)

/-- the predictor of u (/repo/russell_nonlin/src/solver_natural.rs:272-287) -/
def natPredict (c : Config) (sys : System n A) (L : LinSol n) (s : Nat' n L.F) (w : Work n) (u : Vec n) (l : ℝ) (a : A) :
    Res (Nat' n L.F × Work n × A) :=
  if c.eulerPredictor then do
    let (s, w, a) ← natFirstJac c sys L s w u a
    let ddl := w.l - l
    let mdu ← L.run s.ls s.ggl
    ok ({ s with mdu := mdu }, { w with u := fun i => 1 * u i + (-ddl) * mdu i }, a)
  else ok (s, { w with u := u }, a)

/-- the end of `step` after the predictor (/repo/russell_nonlin/src/solver_natural.rs:298-346) -/
noncomputable def natNewton (c : Config) (fin : ℝ → Bool) (sys : System n A) (L : LinSol n) (s : Nat' n L.F) (w : Work n)
    (u : Vec n) (l : ℝ) (a : A) : Res (Nat' n L.F × Work n × A × Status) := do
  let w ← w.pushDebug c
  let (s, w, a, status) ←
    iterLoop c (fun s w a => natIterate c fin sys L s w u l a) c.nIterationMax s { w with nIter := 0 } a .success
  ok (s, { w with stats := w.stats.recStop c w.err.converged }, a, status)

/-- the beginning of `step`, common to both methods: callbacks and resets
(/repo/russell_nonlin/src/solver_natural.rs:243-259, solver_arclength.rs:683-699) -/
noncomputable def stepBegin (c : Config) (sys : System n A) (w : Work n) (u : Vec n) (l : ℝ) (a : A) : Work n × A :=
  let a := if w.auto then callOpt sys.backup a else a
  let a := callOpt sys.prepare a
  ({ w with err := w.err.reset c u l, stats := w.stats.recStart c }, a)

/-- `SolverNatural::step` (/repo/russell_nonlin/src/solver_natural.rs:242-346) -/
noncomputable def natStep (c : Config) (fin : ℝ → Bool) (sys : System n A) (L : LinSol n) (s : Nat' n L.F) (w : Work n)
    (u : Vec n) (l : ℝ) (stop : Stop) (a : A) : Res (Nat' n L.F × Work n × A × Status) := do
  let (w, a) := stepBegin c sys w u l a
  let w := natLambda s w l stop
  let (s, w, a) ← natPredict c sys L s w u l a
  let (status, a) := sys.supdate true u w.u l w.l a
  if status.failure then ok (s, w, a, status)
  else natNewton c fin sys L s w u l a

/-- `SolverNatural::initialize` (/repo/russell_nonlin/src/solver_natural.rs:218-239) -/
def natInit {F : Type} (s : Nat' n F) (w : Work n) (ddlIni : ℝ) (dir : IniDir) : Nat' n F × Work n :=
  ({ s with iterJac := false, sign0 := dir.sign }, { w with h := ddlIni })

open Classical in
/-- the loop of `calculate_rerr`: the largest ratio (/repo/russell_nonlin/src/solver_natural.rs:195-205) -/
noncomputable def natRatio (u1 u0 uPrev : Vec n) : ℝ :=
  (List.finRange n).foldl (fun m i =>
    let den := |u1 i - u0 i|
    if den > hMin then
      let ratio := |u1 i - 2 * u0 i + uPrev i| / den
      if ratio > m then ratio else m
    else m) 0

/-- `SolverNatural::calculate_rerr` (/repo/russell_nonlin/src/solver_natural.rs:192-210) -/
noncomputable def natRerr (c : Config) {F : Type} (s : Nat' n F) (w : Work n) (u : Vec n) : ℝ :=
  if w.stats.nAccepted > 1 then natRatio w.u u s.uPrev / c.tgTol else 0

/-- `SolverNatural::accept` (/repo/russell_nonlin/src/solver_natural.rs:351-364): the solver, the new u and λ, and rdiff -/
noncomputable def natAccept (c : Config) {F : Type} (s : Nat' n F) (w : Work n) (u : Vec n) :
    Nat' n F × Vec n × ℝ × ℝ :=
  ({ s with uPrev := u }, w.u, w.l, natRerr c s w u)

/-- `reject` of both methods (/repo/russell_nonlin/src/solver_natural.rs:370-387, solver_arclength.rs:877-894) -/
def rejectStep (c : Config) (sys : System n A) (w : Work n) (a : A) : Res (Work n × A) := do
  let a := if w.auto then callOpt sys.restore a else a
  let w ← w.popDebug c
  ok (w, a)

end Russell.Nonlin
