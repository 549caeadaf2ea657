import Verif.Nonlin.Natural

/-!
# Pseudo-arclength continuation (russell_nonlin/src/solver_arclength.rs)

The bordering algorithm uses a linear solver of dimension `n`, the augmented system one of dimension `n + 1`; only one of
them is used, depending on the configuration.
-/

namespace Russell.Nonlin

open Russell Russell.Res

variable {n : Nat} {A : Type}

/-- `SolverArclength` (/repo/russell_nonlin/src/solver_arclength.rs:148-206); work vectors that are always overwritten
before being read (`u_aux`, `b`) are left out, `x = (δu, δλ)` as well -/
structure Arc (n : Nat) (F G : Type) where
  theta : ℝ
  iterJac : Bool
  ggl : Vec n
  dudsPrev : Vec n
  dldsPrev : ℝ
  ls : Option F
  la : Option G

/-- the two linear solvers -/
structure LinSols (n : Nat) where
  small : LinSol n
  large : LinSol (n + 1)

/-- the solver state for given linear solvers -/
abbrev ArcS {n : Nat} (L : LinSols n) := Arc n L.small.F L.large.F

/-- `SolverArclength::new` (/repo/russell_nonlin/src/solver_arclength.rs:227-275); `symmetric` is `sym_ggu != Sym::No` -/
def Arc.new (c : Config) (symmetric : Bool) (n : Nat) (F G : Type) : Res (Arc n F G) :=
  if !c.bordering && symmetric then
    err "The Arclength method requires `sym_ggu = Sym::No` when not using bordering (even if Gu is symmetric) because the augmented matrix A is not symmetric in general."
  else ok ⟨1, false, 0, 0, 0, none, none⟩

/-- `vec_inner` (/repo/russell_lab/src/vector/vec_inner.rs) -/
noncomputable def dot {m : Nat} (x y : Vec m) : ℝ := ∑ i, x i * y i

/-- the augmented matrix with the blocks `Gu`, column, row and corner
(/repo/russell_nonlin/src/solver_arclength.rs:349-369) -/
def aug (gu : Matrix (Fin n) (Fin n) ℝ) (col row : Vec n) (corner : ℝ) : Matrix (Fin (n + 1)) (Fin (n + 1)) ℝ :=
  fun i j =>
    if hi : i.1 < n then if hj : j.1 < n then gu ⟨i, hi⟩ ⟨j, hj⟩ else col ⟨i, hi⟩
    else if hj : j.1 < n then row ⟨j, hj⟩ else corner

/-- the vector `(x, y)` of dimension `n + 1` -/
def vcat (x : Vec n) (y : ℝ) : Vec (n + 1) := fun i => if hi : i.1 < n then x ⟨i, hi⟩ else y

/-- the first `n` components -/
def vhead (x : Vec (n + 1)) : Vec n := fun i => x i.castSucc

/-- the last component -/
def vlast (x : Vec (n + 1)) : ℝ := x (Fin.last n)

/-- `assemble_and_factorize_jac` (/repo/russell_nonlin/src/solver_arclength.rs:280-308) -/
def arcJac (c : Config) (sys : System n A) (L : LinSols n) (s : ArcS L) (w : Work n) (a : A) :
    Res (ArcS L × Work n × A) :=
  if !c.bordering then panic
  else do
    let w := { w with stats := { w.stats with nJacobian := w.stats.nJacobian + 1 } }
    let (ggu, ggl, a) ← sys.calcJ w.l w.u a
    if writes c w then err "MATRIX FILES GENERATED in /tmp/russell_nonlin/"
    else do
      let w := { w with stats := { w.stats with nFactor := w.stats.nFactor + 1 } }
      let f ← L.small.factorize ggu
      ok ({ s with ggl := ggl, ls := some f }, w, a)

/-- `assemble_and_factorize_aa` (/repo/russell_nonlin/src/solver_arclength.rs:335-389). With the option to write the matrix,
`CscMatrix::from_coo(&self.ggu).unwrap()` (line 375) is called on the matrix `ggu` allocated without entries (line 249), and
`from_coo` refuses matrices without entries (/repo/russell_sparse/src/csc_matrix.rs:338-340), so that it panics. -/
noncomputable def arcAug (c : Config) (sys : System n A) (L : LinSols n) (s : ArcS L) (w : Work n) (a : A)
    (initial : Bool) : Res (ArcS L × Work n × A) :=
  if c.bordering then panic
  else do
    let w := { w with stats := { w.stats with nJacobian := w.stats.nJacobian + 1 } }
    let (ggu, ggl, a) ← sys.calcJ w.l w.u a
    let aa := if initial then aug ggu 0 0 1
      else aug ggu ggl (fun i => s.theta * w.duds i) ((2 - s.theta) * w.dlds)
    if writes c w then panic
    else do
      let w := { w with stats := { w.stats with nFactor := w.stats.nFactor + 1 } }
      let f ← L.large.factorize aa
      ok ({ s with ggl := ggl, la := some f }, w, a)

/-- one more linear solution counted -/
def Work.countSol (w : Work n) : Work n := { w with stats := { w.stats with nLinSol := w.stats.nLinSol + 1 } }

open Classical in
/-- the checks at the end of `calc_initial_tangent` (/repo/russell_nonlin/src/solver_arclength.rs:449-456) -/
noncomputable def checkTangent (w : Work n) : Res Unit :=
  if |w.dlds| < hMin then err "Initial dλ/ds is zero"
  else if normMax w.duds < hMin then err "Initial du/ds vector is zero"
  else ok ()

/-- the tangent vector by bordering (/repo/russell_nonlin/src/solver_arclength.rs:404-415) -/
noncomputable def initTangentBord (c : Config) (sys : System n A) (L : LinSols n) (s : ArcS L) (w : Work n)
    (sign0 : ℝ) (a : A) : Res (ArcS L × Work n × A) := do
  let (s, w, a) ← arcJac c sys L s w a
  let w := w.countSol
  let mdu ← L.small.run s.ls s.ggl
  let dlds := sign0 / Real.sqrt (1 + dot mdu mdu)
  ok (s, { w with dlds := dlds, duds := fun i => (-dlds) * mdu i }, a)

open Classical in
/-- the tangent vector by the augmented system (/repo/russell_nonlin/src/solver_arclength.rs:417-446) -/
noncomputable def initTangentAug (c : Config) (sys : System n A) (L : LinSols n) (s : ArcS L) (w : Work n)
    (sign0 : ℝ) (a : A) : Res (ArcS L × Work n × A) := do
  let (s, w, a) ← arcAug c sys L s w a true
  let w := w.countSol
  let x ← L.large.run s.la (vcat (fun i => -s.ggl i) 0)
  if vlast x ≠ 0 then panic
  else
    let dlds := sign0 / Real.sqrt (1 + dot x x)
    ok (s, { w with dlds := dlds, duds := fun i => dlds * vhead x i }, a)

/-- the branch of `calc_initial_tangent` (/repo/russell_nonlin/src/solver_arclength.rs:403-447) -/
noncomputable def initTangentRaw (c : Config) (sys : System n A) (L : LinSols n) (s : ArcS L) (w : Work n)
    (sign0 : ℝ) (a : A) : Res (ArcS L × Work n × A) :=
  if c.bordering then initTangentBord c sys L s w sign0 a else initTangentAug c sys L s w sign0 a

/-- `calc_initial_tangent` (/repo/russell_nonlin/src/solver_arclength.rs:402-457) -/
noncomputable def initTangent (c : Config) (sys : System n A) (L : LinSols n) (s : ArcS L) (w : Work n)
    (sign0 : ℝ) (a : A) : Res (ArcS L × Work n × A) := do
  let (s, w, a) ← initTangentRaw c sys L s w sign0 a
  let _ ← checkTangent w
  ok (s, w, a)

open Classical in
/-- the sign of the updated tangent vector (/repo/russell_nonlin/src/solver_arclength.rs:486-493) -/
noncomputable def fixSign {F G : Type} (s : Arc n F G) (w : Work n) : Work n :=
  if dot w.duds s.dudsPrev + w.dlds * s.dldsPrev < 0 then
    { w with duds := fun i => -w.duds i, dlds := -w.dlds }
  else w

/-- the Jacobian is evaluated if no iteration has done so (/repo/russell_nonlin/src/solver_arclength.rs:468-473) -/
def needJac (c : Config) (sys : System n A) (L : LinSols n) (s : ArcS L) (w : Work n) (a : A) :
    Res (ArcS L × Work n × A) :=
  if s.iterJac then ok (s, w, a) else arcJac c sys L s w a

/-- the augmented matrix is evaluated if no iteration has done so (/repo/russell_nonlin/src/solver_arclength.rs:495-500) -/
noncomputable def needAug (c : Config) (sys : System n A) (L : LinSols n) (s : ArcS L) (w : Work n) (a : A) :
    Res (ArcS L × Work n × A) :=
  if s.iterJac then ok (s, w, a) else arcAug c sys L s w a false

/-- the updated tangent vector by bordering (/repo/russell_nonlin/src/solver_arclength.rs:467-493) -/
noncomputable def tangentBord (c : Config) (sys : System n A) (L : LinSols n) (s : ArcS L) (w : Work n) (a : A) :
    Res (ArcS L × Work n × A) := do
  let (s, w, a) ← needJac c sys L s w a
  let w := w.countSol
  let mdu ← L.small.run s.ls s.ggl
  let dlds := 1 / Real.sqrt (1 + dot mdu mdu)
  let w := { w with dlds := dlds, duds := fun i => (-dlds) * mdu i }
  ok (s, fixSign s w, a)

/-- the updated tangent vector by the augmented system (/repo/russell_nonlin/src/solver_arclength.rs:494-520) -/
noncomputable def tangentAug (c : Config) (sys : System n A) (L : LinSols n) (s : ArcS L) (w : Work n) (a : A) :
    Res (ArcS L × Work n × A) := do
  let (s, w, a) ← needAug c sys L s w a
  let w := w.countSol
  let x ← L.large.run s.la (vcat 0 1)
  let norm := Real.sqrt (dot x x)
  ok (s, { w with duds := fun i => vhead x i / norm, dlds := vlast x / norm }, a)

/-- `update_tangent_vector` (/repo/russell_nonlin/src/solver_arclength.rs:460-524) -/
noncomputable def updateTangent (c : Config) (sys : System n A) (L : LinSols n) (s : ArcS L) (w : Work n) (a : A) :
    Res (ArcS L × Work n × A) :=
  let s := { s with dudsPrev := w.duds, dldsPrev := w.dlds }
  if c.bordering then tangentBord c sys L s w a else tangentAug c sys L s w a

open Classical in
/-- the constraint N (/repo/russell_nonlin/src/solver_arclength.rs:532-541) -/
noncomputable def constraintN (theta : ℝ) (w : Work n) (u : Vec n) (l : ℝ) : ℝ :=
  let duPart := if theta > 0 then ∑ i, (w.u i - u i) * w.duds i else 0
  theta * duPart + (2 - theta) * (w.l - l) * w.dlds - w.h

open Classical in
/-- the correction by bordering (/repo/russell_nonlin/src/solver_arclength.rs:554-588); `none` stands for
`Status::BorderingSmallDenominator` -/
noncomputable def correctBord (c : Config) (sys : System n A) (L : LinSols n) (s : ArcS L) (w : Work n) (nn : ℝ) (a : A) :
    Res (ArcS L × Work n × A × Option (Vec (n + 1))) := do
  let (s, w, a) ← arcJac c sys L s w a
  let s := { s with iterJac := true }
  let w := w.countSol
  let dua ← L.small.run s.ls s.ggl
  let w := w.countSol
  let dub ← L.small.run s.ls w.gg
  let den := s.theta * dot w.duds dua - (2 - s.theta) * w.dlds
  if |den| < hMin then ok (s, w, a, none)
  else
    let dl := (nn - s.theta * dot w.duds dub) / den
    ok (s, w, a, some (vcat (fun i => -dl * dua i - dub i) dl))

/-- the correction by the augmented system (/repo/russell_nonlin/src/solver_arclength.rs:589-605) -/
noncomputable def correctAug (c : Config) (sys : System n A) (L : LinSols n) (s : ArcS L) (w : Work n) (nn : ℝ) (a : A) :
    Res (ArcS L × Work n × A × Option (Vec (n + 1))) := do
  let (s, w, a) ← arcAug c sys L s w a false
  let s := { s with iterJac := true }
  let w := w.countSol
  let x ← L.large.run s.la (vcat (fun i => -w.gg i) (-nn))
  ok (s, w, a, some x)

/-- the end of `iterate`: update of the trial state (/repo/russell_nonlin/src/solver_arclength.rs:617-639) -/
noncomputable def arcUpdate (c : Config) (sys : System n A) {σ : Type} (s : σ) (w : Work n) (x : Vec (n + 1)) (u : Vec n)
    (l : ℝ) (a : A) : σ × Work n × A × Status :=
  let (status, e) := w.err.captureFailures c w.nIter
  let w := { w with err := e }
  if status.failure then (s, w, a, status)
  else
    let w := { w with u := fun i => w.u i + vhead x i, l := w.l + vlast x }
    let (status, a) := sys.supdate false u w.u l w.l a
    (s, w, a, status)

/-- the analysis of the correction (/repo/russell_nonlin/src/solver_arclength.rs:607-639) -/
noncomputable def arcAnalyze (c : Config) (fin : ℝ → Bool) (sys : System n A) {σ : Type} (s : σ) (w : Work n)
    (x : Vec (n + 1)) (u : Vec n) (l : ℝ) (a : A) : σ × Work n × A × Status :=
  let (nan, e) := w.err.analyzeDelta c fin w.nIter x
  let w := { w with err := e }
  if nan then (s, w, a, .nanOrInfDelta)
  else if w.err.converged then (s, w, a, .success)
  else arcUpdate c sys s w x u l a

/-- the correction (/repo/russell_nonlin/src/solver_arclength.rs:553-605) -/
noncomputable def arcSolve (c : Config) (sys : System n A) (L : LinSols n) (s : ArcS L) (w : Work n) (nn : ℝ) (a : A) :
    Res (ArcS L × Work n × A × Option (Vec (n + 1))) :=
  if c.bordering then correctBord c sys L s w nn a else correctAug c sys L s w nn a

/-- the second half of `iterate` (/repo/russell_nonlin/src/solver_arclength.rs:553-639) -/
noncomputable def arcCorrect (c : Config) (fin : ℝ → Bool) (sys : System n A) (L : LinSols n) (s : ArcS L) (w : Work n)
    (nn : ℝ) (u : Vec n) (l : ℝ) (a : A) : Res (ArcS L × Work n × A × Status) := do
  let (s, w, a, x) ← arcSolve c sys L s w nn a
  match x with
  | none => ok (s, w, a, .borderingSmallDenominator)
  | some x => ok (arcAnalyze c fin sys s w x u l a)

/-- `SolverArclength::iterate` (/repo/russell_nonlin/src/solver_arclength.rs:527-640) -/
noncomputable def arcIterate (c : Config) (fin : ℝ → Bool) (sys : System n A) (L : LinSols n) (s : ArcS L) (w : Work n)
    (u : Vec n) (l : ℝ) (a : A) : Res (ArcS L × Work n × A × Status) := do
  let w := { w with stats := { w.stats with nFunction := w.stats.nFunction + 1 } }
  let (gg, a) ← sys.calcG w.l w.u a
  let w := { w with gg := gg }
  let nn := constraintN s.theta w u l
  let (nan, e) := w.err.analyzeResidual c fin w.nIter gg nn
  let w := { w with err := e }
  if nan then ok (s, w, a, .nanOrInfResidual)
  else if w.err.converged then ok (s, w, a, .success)
  else arcCorrect c fin sys L s w nn u l a

open Classical in
/-- the predicted λ and the "targeting lambda" mode (/repo/russell_nonlin/src/solver_arclength.rs:701-711) -/
noncomputable def arcLambda {F G : Type} (s : Arc n F G) (w : Work n) (l : ℝ) (stop : Stop) : Arc n F G × Work n :=
  let w := { w with l := l + (2 - s.theta) * w.h * w.dlds }
  match stop.lambda with
  | none => (s, w)
  | some (l1, isMin) =>
    if (w.l ≤ l1 ∧ isMin = true) ∨ (w.l ≥ l1 ∧ isMin = false) then
      let h := 2 * (l1 - l) * w.dlds
      ({ s with theta := 0 }, { w with h := h, l := l + 2 * h * w.dlds })
    else (s, w)

open Classical in
/-- the predicted u (/repo/russell_nonlin/src/solver_arclength.rs:713-720) -/
noncomputable def arcU {F G : Type} (s : Arc n F G) (w : Work n) (u : Vec n) : Work n :=
  if s.theta > 0 then { w with u := fun i => 1 * u i + s.theta * w.h * w.duds i }
  else { w with u := u }

open Classical in
/-- the truncation of the stepsize at a prescribed component of u (/repo/russell_nonlin/src/solver_arclength.rs:722-733) -/
noncomputable def arcTruncate {F G : Type} (s : Arc n F G) (w : Work n) (u : Vec n) (l : ℝ) (stop : Stop) :
    Res (Work n) :=
  match stop.uComp with
  | none => ok w
  | some (i, u1, isMin) => do
    let wi ← w.u.at i
    if (wi < u1 ∧ isMin = true) ∨ (wi > u1 ∧ isMin = false) then do
      let di ← w.duds.at i
      if |di| > hMin then do
        let ui ← u.at i
        let h := (u1 - ui) / di
        ok { w with h := h, l := l + (2 - s.theta) * h * w.dlds, u := fun j => 1 * u j + s.theta * h * w.duds j }
      else err "INTERNAL ERROR: duds[i] is too small"
    else ok w

/-- the update of the tangent vector at the end of `step` (/repo/russell_nonlin/src/solver_arclength.rs:791-797) -/
noncomputable def arcFinish (c : Config) (sys : System n A) (L : LinSols n) (s : ArcS L) (w : Work n) (a : A)
    (status : Status) : Res (ArcS L × Work n × A × Status) :=
  if status.failure then ok (s, w, a, status)
  else do
    let (s, w, a) ← updateTangent c sys L s w a
    ok (s, w, a, status)

/-- the end of `step` after the predictor (/repo/russell_nonlin/src/solver_arclength.rs:744-798) -/
noncomputable def arcNewton (c : Config) (fin : ℝ → Bool) (sys : System n A) (L : LinSols n) (s : ArcS L) (w : Work n)
    (u : Vec n) (l : ℝ) (a : A) : Res (ArcS L × Work n × A × Status) := do
  let w ← w.pushDebug c
  let (s, w, a, status) ←
    iterLoop c (fun s w a => arcIterate c fin sys L s w u l a) c.nIterationMax { s with iterJac := false }
      { w with nIter := 0 } a .success
  let w := { w with stats := w.stats.recStop c w.err.converged }
  arcFinish c sys L s w a status

/-- `SolverArclength::step` (/repo/russell_nonlin/src/solver_arclength.rs:682-798) -/
noncomputable def arcStep (c : Config) (fin : ℝ → Bool) (sys : System n A) (L : LinSols n) (s : ArcS L) (w : Work n)
    (u : Vec n) (l : ℝ) (stop : Stop) (a : A) : Res (ArcS L × Work n × A × Status) := do
  let (w, a) := stepBegin c sys w u l a
  let (s, w) := arcLambda s w l stop
  let w := arcU s w u
  let w ← arcTruncate s w u l stop
  let (status, a) := sys.supdate true u w.u l w.l a
  if status.failure then ok (s, w, a, status)
  else arcNewton c fin sys L s w u l a

open Classical in
/-- `SolverArclength::initialize` (/repo/russell_nonlin/src/solver_arclength.rs:650-679) -/
noncomputable def arcInit (c : Config) (sys : System n A) (L : LinSols n) (s : ArcS L) (w : Work n) (ddlIni : ℝ)
    (u : Vec n) (l : ℝ) (dir : IniDir) (a : A) : Res (ArcS L × Work n × A) := do
  let s := { s with theta := 1, iterJac := false }
  let w := { w with u := u, l := l }
  let (s, w, a) ← initTangent c sys L s w dir.sign a
  if |w.dlds| < hMin then err "initial dλ/ds₀ is too small"
  else ok (s, { w with h := ddlIni / |w.dlds| }, a)

open Classical in
/-- the average of the relative changes (/repo/russell_nonlin/src/solver_arclength.rs:828-846): sum and count -/
noncomputable def avePush (tol x0 x1 : ℝ) (acc : ℝ × Nat) : ℝ × Nat :=
  let den := |x0|
  if den > hMin then (acc.1 + |x1 - x0| / den / tol, acc.2 + 1) else acc

open Classical in
/-- the maximum of the relative changes (/repo/russell_nonlin/src/solver_arclength.rs:847-865) -/
noncomputable def maxPush (x0 x1 : ℝ) (m : ℝ) : ℝ :=
  let den := |x0|
  if den > hMin then
    let ratio := |x1 - x0| / den
    if ratio > m then ratio else m
  else m

/-- the relative change of the tangent vector (/repo/russell_nonlin/src/solver_arclength.rs:828-867) -/
noncomputable def arcRdiff (c : Config) {F G : Type} (s : Arc n F G) (w : Work n) : ℝ :=
  match c.rdiffType with
  | .ave =>
    let acc := (List.finRange n).foldl (fun acc i => avePush c.tgTol (s.dudsPrev i) (w.duds i) acc) (0, 0)
    let acc := avePush c.tgTol s.dldsPrev w.dlds acc
    if acc.2 > 0 then acc.1 / acc.2 else 0
  | .max =>
    let m := (List.finRange n).foldl (fun m i => maxPush (s.dudsPrev i) (w.duds i) m) 0
    maxPush s.dldsPrev w.dlds m / c.tgTol

end Russell.Nonlin
