import Verif.Ode.SolveProps
import Verif.Ode.F64

/-!
# The forward Euler method, and evaluations of `solve` (C50, C58)

Model of russell_ode/src/euler_forward.rs and of the part of russell_ode/src/system.rs used by the explicit methods.
-/

namespace Russell.Ode

open Russell Russell.Res Russell.Lab

variable {K σ M : Type}

/-- `System` (system.rs:64-92), the part used by the explicit methods. The closure gets the old content of the vector it
fills, like the `&mut Vector` of the Rust code. -/
structure System (K σ : Type) where
  ndim : Nat
  function : List K → K → List K → σ → Res (List K × σ)

/-- `stats.n_function += n`. -/
def Workspace.addFunction (w : Workspace K) (n : Nat) : Workspace K :=
  { w with stats := { w.stats with n_function := w.stats.n_function + n } }

/-- `vec_copy(u, v).unwrap()`. -/
def copyInto (u v : List K) : Res (List K) := if u.length ≠ v.length then Res.panic else ok v

/-- The vectors `k` and `w` of `EulerForward` (euler_forward.rs:9-20). -/
structure FwEuler (K : Type) where
  k : List K
  w : List K

/-- `EulerForward::new` (euler_forward.rs:24-31). -/
def FwEuler.new [F64Ops K] (s : System K σ) : FwEuler K :=
  { k := List.replicate s.ndim (F64Ops.lit 0), w := List.replicate s.ndim (F64Ops.lit 0) }

section
variable [Add K] [Mul K] [F64Ops K]

/-- `vec_add(w, 1.0, y, h, k).unwrap()`: panics when the lengths differ. -/
def addScaled (w y : List K) (h : K) (k : List K) : Res (List K) :=
  if y.length ≠ w.length ∨ k.length ≠ w.length then Res.panic
  else ok (List.zipWith (fun a b => F64Ops.lit 1 * a + h * b) y k)

/-- `EulerForward::step` (euler_forward.rs:41-46). -/
def FwEuler.step (sys : System K σ) (m : FwEuler K) (work : Workspace K) (x : K) (y : List K) (h : K) (args : σ) :
    Res (FwEuler K × Workspace K × σ) := do
  let (k, args) ← sys.function m.k x y args
  let w ← addScaled m.w y h k
  ok ({ k := k, w := w }, work.addFunction 1, args)

/-- `EulerForward::accept` (euler_forward.rs:49-60). -/
def FwEuler.accept (m : FwEuler K) (work : Workspace K) (x : K) (y : List K) (h : K) (args : σ) :
    Res (FwEuler K × Workspace K × K × List K × σ) := do
  let y ← copyInto y m.w
  ok (m, work, x + h, y, args)

/-- `EulerForward` as an `OdeSolverTrait` (euler_forward.rs:34-70). -/
def fwEuler (sys : System K σ) : Stepper K σ (FwEuler K) where
  enable_dense_output _ := Res.err "dense output is not available for the FwEuler method"
  step := FwEuler.step sys
  accept := FwEuler.accept
  reject m work _ := (m, work)
  dense_output _ y_out _ _ _ _ := ok y_out

end

theorem fwEuler_regular [Field K] [LinearOrder K] [FloorSemiring K] (sys : System K σ) : (fwEuler sys).Regular where
  step := by
    intro m w x y h a m' w' a' he _
    unfold fwEuler FwEuler.step at he
    dsimp only at he
    rw [bind_eq_ok] at he
    obtain ⟨⟨k, a1⟩, -, he⟩ := he
    dsimp only at he
    rw [bind_eq_ok] at he
    obtain ⟨w1, -, he⟩ := he
    cases he
    exact ⟨⟨trivial, fun _ _ _ _ => trivial⟩, rfl, rfl, rfl, rfl⟩
  accept := by
    intro m w x y h a m' w' x' y' a' he _ _
    unfold fwEuler FwEuler.accept at he
    dsimp only at he
    rw [bind_eq_ok] at he
    obtain ⟨y1, -, he⟩ := he
    cases he
    exact ⟨⟨rfl, trivial, fun _ _ => trivial, trivial, rfl⟩, rfl, rfl, rfl, rfl⟩
  reject _ _ _ := ⟨⟨fun _ => trivial, fun _ _ => trivial⟩, rfl, rfl, rfl, rfl, rfl⟩
  keep _ _ := trivial
  mono _ _ := trivial

/-! ### Evaluations -/

/-- `y' = -2 y`, one component. -/
def sampleSystem : System ℚ Unit where
  ndim := 1
  function _ _ y _ := ok (y.map (fun a => -2 * a), ())

/-- The parameters of a method without error estimator. -/
def plainParams (K : Type) [F64Ops K] (ndim : Nat) : SolveParams K where
  ndim := ndim
  embedded := false
  h_ini := F64Ops.lit (1 / 10000)
  n_step_max := 100000
  m_first_reject := F64Ops.lit (1 / 10)
  rel_error_prev_min := F64Ops.lit (1 / 10000)
  save_results := false

/-- A finished solution, reduced to what can be compared: station, solution, stepsize, number of steps, recorded stations. -/
def summary (r : Res (Solved K σ M)) : Option (K × List K × K × Nat × List K) :=
  match r with
  | ok r => some (r.state.x, r.state.y, r.state.h, r.state.work.stats.n_steps,
      match r.state.out with | none => [] | some o => o.step_x)
  | _ => none

/-- **C58**, a case: three equal steps, recorded. -/
example : summary (solve (fwEuler sampleSystem) (plainParams ℚ 1) (fun _ => ok ()) (FwEuler.new sampleSystem) [8] 0 1
    (some (2 / 5)) () (some (Output.new.setStepRecording [0]))) =
      some (1, [8 / 27], 1 / 3, 3, [0, 1 / 3, 2 / 3, 1]) := by
  decide +kernel

/-- The hypotheses of the theorems about the steps hold for this output. -/
example : (Output.new.setStepRecording [0] : Output ℚ Unit).Fresh ∧
    (Output.new.setStepRecording [0] : Output ℚ Unit).step_recording = true ∧
    StationsSet (Output.new.setStepRecording [0] : Output ℚ Unit) :=
  ⟨Or.inr ⟨rfl, rfl, by decide +kernel⟩, rfl, (stationsSet_setters stationsSet_new (fun _ _ _ _ _ => ok (false, ())) [0]).2.2.1⟩

/-! ### A method with error estimator, for the evaluations

`y' = 1`, solved exactly; the interpolation is linear, the stepsize grows by the factor `factor` after each step. -/

/-- The method. -/
def ramp [Add K] [Sub K] [Mul K] [F64Ops K] (factor : K) : Stepper K Unit Unit where
  enable_dense_output _ := ok ()
  step _ w _ _ _ _ := ok ((), { w with rel_error := F64Ops.lit 0 }, ())
  accept _ w x y h _ := ok ((), { w with h_new := factor * h }, x + h, y.map (· + h), ())
  reject _ w _ := ((), w)
  dense_output _ _ x_out x y _ := ok (y.map (fun a => a - (x - x_out)))

theorem ramp_regular [Field K] [LinearOrder K] [FloorSemiring K] (factor : K) : (ramp factor).Regular where
  step := by
    intro m w x y h a m' w' a' he _
    cases he
    exact ⟨⟨trivial, fun _ _ _ _ => trivial⟩, rfl, rfl, rfl, rfl⟩
  accept := by
    intro m w x y h a m' w' x' y' a' he _ _
    cases he
    exact ⟨⟨rfl, trivial, fun _ _ => trivial, trivial, rfl⟩, rfl, rfl, rfl, rfl⟩
  reject _ _ _ := ⟨⟨fun _ => trivial, fun _ _ => trivial⟩, rfl, rfl, rfl, rfl, rfl⟩
  keep _ _ := trivial
  mono _ _ := trivial

/-- Parameters of the evaluations with variable steps. -/
def rampParams (h_ini : ℚ) (n : Nat) : SolveParams ℚ where
  ndim := 1
  embedded := true
  h_ini := h_ini
  n_step_max := n
  m_first_reject := 1 / 10
  rel_error_prev_min := 1 / 10000
  save_results := false

/-- An output with uniform stations. -/
def denseOutput (h_out : ℚ) : Output ℚ Unit :=
  { (Output.new.setDenseRecording [0] : Output ℚ Unit).setStepRecording [0] with dense_h_out := some h_out }

/-- The dense record of a finished solution. -/
def denseSummary (r : Res (Solved ℚ Unit M)) : Option (List ℚ × List ℚ × List ℚ) :=
  match r with
  | ok r => match r.state.out with | none => none | some o => some (o.step_x, o.dense_x, seriesOf 0 o.dense_y)
  | _ => none

/-- **C50**, a case: steps 1/4, 1/2, then the rest; stations every 1/3: two of them in one step, none in another. -/
example : denseSummary (solve (ramp 2) (rampParams (1 / 4) 100) (fun _ => ok ()) () [5] 0 2 none ()
    (some (denseOutput (1 / 3)))) =
      some ([0, 1 / 4, 3 / 4, 7 / 4, 2], [0, 1 / 3, 2 / 3, 1, 4 / 3, 5 / 3, 2],
        [5, 16 / 3, 17 / 3, 6, 19 / 3, 20 / 3, 7]) := by
  decide +kernel

example : StationsSet (denseOutput (1 / 3)) ∧ (denseOutput (1 / 3)).withDenseOutput = true :=
  ⟨Or.inl ⟨1 / 3, rfl, by norm_num⟩, rfl⟩

/-- The kind of a result. -/
def kindOf {α : Type} : Res α → String
  | ok _ => "ok"
  | .err e => e
  | .panic => "panic"

/-- **C50**: the code panics (failed assertion in `Output::last`) instead of returning the error when the steps are used up
before the last interior station has been passed: `n_step_max = 2`, one interior station. -/
theorem C50_n_step_max_counterexample :
    kindOf (solve (ramp 1) (rampParams (1 / 4) 2) (fun _ => ok ()) () [5] 0 2 none () (some (denseOutput 1))) = "panic" ∧
    kindOf (solve (ramp 1) (rampParams (1 / 4) 2) (fun _ => ok ()) () [5] 0 2 none () none) =
      "variable stepping did not converge" := by
  decide +kernel

/-- **C50**: an interior station within `10 ε` of `x1` may also end in the failed assertion: the steps stop before it. -/
theorem C50_station_near_end_counterexample :
    kindOf (solve (ramp 1) (rampParams (1 - 1 / 1000000000000000) 100) (fun _ => ok ()) () [5] 0 1 none ()
      (some { (Output.new.setDenseRecording [0] : Output ℚ Unit) with
        dense_x := [0, 1 - 5 / 10000000000000000, 0] })) = "panic" := by
  decide +kernel

/-- **C58**: a solution that reaches `x1` with the last step allowed is reported as not converged. Here one step of size 1
leads from 0 to 1 with `n_step_max = 1`. -/
theorem C58_one_step_counterexample :
    kindOf (solve (ramp 1) (rampParams 1 1) (fun _ => ok ()) () [5] 0 1 none () none) =
      "variable stepping did not converge" ∧
    summary (solve (ramp 1) (rampParams 1 2) (fun _ => ok ()) () [5] 0 1 none () none) = some (1, [6], 1, 1, []) := by
  decide +kernel

/-! ### Equal steps in the arithmetic of `f64`

The number of steps is computed twice: `n = ⌈(x1 - x0) / h_equal⌉`, then, from the rounded stepsize `h = (x1 - x0) / n`,
`⌈(x1 - x) / h⌉` (ode_solver.rs:203, 239). In `f64` the second may be `n + 1`. -/

instance : F64Ops F64 := ⟨F64.ofRat, F64.truncU, F64.ceilU⟩

/-- `y' = 1` in `f64`. -/
def sampleSystemF64 : System F64 Unit where
  ndim := 1
  function _ _ _ _ := ok ([⟨1⟩], ())

/-- **C58**: in `f64` the solution may overshoot `x1` by a whole step: from 0 to 1 with `h_equal = 0.0205`, the stepsize
is 1/49, but 50 steps are made and the solution ends beyond 1.02. -/
theorem C58_overshoot_counterexample :
    (summary (solve (fwEuler sampleSystemF64) (plainParams F64 1) (fun _ => ok ()) (FwEuler.new sampleSystemF64) [⟨0⟩] ⟨0⟩ ⟨1⟩
      (some (F64.ofRat (205 / 10000))) () none)).map (fun r => (decide ((102 : ℚ) / 100 < r.1.val), r.2.2.2.1)) =
      some (true, 50) := by
  decide +kernel

/-- With `h_equal = 1/48` the second number is right. -/
example :
    (summary (solve (fwEuler sampleSystemF64) (plainParams F64 1) (fun _ => ok ()) (FwEuler.new sampleSystemF64) [⟨0⟩] ⟨0⟩ ⟨1⟩
      (some (F64.ofRat 1 / F64.ofRat 48)) () none)).map (fun r => (decide (|r.1.val - 1| < 1 / 1000000000000000), r.2.2.2.1)) =
      some (true, 48) := by
  decide +kernel

end Russell.Ode
