import Verif.Ode.ErkSolve
import Verif.Ode.RadauProp

/-!
# Parameters of the ODE solvers (russell_ode/src/params.rs) and the construction of a solver

`f64` is ℝ. The linear solver options (`genie`, `lin_sol_params`) are left out.
-/

namespace Russell.Ode

open Russell Russell.Res

/-- `f64::EPSILON` -/
noncomputable def epsilon : ℝ := 1 / 2 ^ 52

/-- `ParamsTol` (/repo/russell_ode/src/params.rs:6-15) -/
structure ParamsTol where
  abs : ℝ
  rel : ℝ
  newton : ℝ

/-- `ParamsNewton` (/repo/russell_ode/src/params.rs:19-54) -/
structure ParamsNewton where
  n_iteration_max : Nat
  use_numerical_jacobian : Bool
  write_matrix_after_nstep_and_stop : Option Nat

/-- `ParamsStep` (/repo/russell_ode/src/params.rs:58-109) -/
structure ParamsStep where
  m_min : ℝ
  m_max : ℝ
  m_safety : ℝ
  m_first_reject : ℝ
  h_ini : ℝ
  n_step_max : Nat
  rel_error_prev_min : ℝ

/-- `ParamsStiffness` (/repo/russell_ode/src/params.rs:113-144); `none` is negative infinity -/
structure ParamsStiffness where
  enabled : Bool
  stop_with_error : Bool
  save_results : Bool
  ratified_after_nstep : Nat
  ignored_after_nstep : Nat
  skip_first_n_accepted_step : Nat
  h_times_rho_max : Option ℝ

/-- `ParamsRadau5` (/repo/russell_ode/src/params.rs:155-185) -/
structure ParamsRadau5 where
  zero_trial : Bool
  theta_max : ℝ
  c1h : ℝ
  c2h : ℝ
  concurrent : Bool
  use_pred_control : Bool

/-- `ParamsERK` (/repo/russell_ode/src/params.rs:189-203) -/
structure ParamsERK where
  lund_beta : ℝ
  lund_m : ℝ

/-- `Params` (/repo/russell_ode/src/params.rs:221-248); `bweuler` has the single field `use_modified_newton` (148-151) -/
structure Params where
  method : Method
  tol : ParamsTol
  newton : ParamsNewton
  step : ParamsStep
  stiffness : ParamsStiffness
  use_modified_newton : Bool
  radau5 : ParamsRadau5
  erk : ParamsERK
  debug : Bool

open Classical in
/-- `calc_tolerances` (/repo/russell_ode/src/params.rs:486-510) -/
noncomputable def calcTolerances (radau5 : Bool) (abs_tol rel_tol : ℝ) : Res ParamsTol :=
  if abs_tol ≤ 10 * epsilon then Res.err "the absolute tolerance must be > 10 · EPSILON"
  else if rel_tol ≤ 10 * epsilon then Res.err "the relative tolerance must be > 10 · EPSILON"
  else
    let quot := abs_tol / rel_tol
    let rel := if radau5 then 1 / 10 * rel_tol ^ (2 / 3 : ℝ) else rel_tol
    let abs := if radau5 then rel * quot else abs_tol
    ok ⟨abs, rel, max (10 * epsilon / rel) (min (3 / 100) (Real.sqrt rel))⟩

/-- `.unwrap()` -/
def unwrap {α : Type} : Res α → Res α
  | .err _ => Res.panic
  | r => r

/-- `ParamsTol::new` (/repo/russell_ode/src/params.rs:254-258) -/
noncomputable def ParamsTol.new (m : Method) : Res ParamsTol := unwrap (calcTolerances (decide (m = .Radau5)) 1e-4 1e-4)

/-- `ParamsNewton::new` (/repo/russell_ode/src/params.rs:263-271) -/
def ParamsNewton.new : ParamsNewton := ⟨7, false, none⟩

open Classical in
/-- `ParamsNewton::validate` (/repo/russell_ode/src/params.rs:274-279) -/
noncomputable def ParamsNewton.validate (p : ParamsNewton) : Res Unit :=
  if p.n_iteration_max < 1 then Res.err "parameter must satisfy: n_iteration_max ≥ 1" else ok ()

/-- `ParamsStep::new` (/repo/russell_ode/src/params.rs:284-300) -/
noncomputable def ParamsStep.new (m : Method) : ParamsStep :=
  let (m_min, m_max, m_safety, rel_error_prev_min) : ℝ × ℝ × ℝ × ℝ := match m with
    | .Radau5 => (0.125, 5, 0.9, 1e-2)
    | .DoPri5 => (0.2, 10, 0.9, 1e-4)
    | .DoPri8 => (0.333, 6, 0.9, 1e-4)
    | _ => (0.2, 10, 0.9, 1e-4)
  ⟨m_min, m_max, m_safety, 0.1, 1e-4, 100000, rel_error_prev_min⟩

open Classical in
/-- `ParamsStep::validate` (/repo/russell_ode/src/params.rs:303-326) -/
noncomputable def ParamsStep.validate (p : ParamsStep) : Res Unit :=
  if p.m_min < 0.001 ∨ p.m_min > 0.5 ∨ p.m_min ≥ p.m_max then
    Res.err "parameter must satisfy: 0.001 ≤ m_min < 0.5 and m_min < m_max"
  else if p.m_max < 0.01 ∨ p.m_max > 20 then Res.err "parameter must satisfy: 0.01 ≤ m_max ≤ 20 and m_max > m_min"
  else if p.m_safety < 0.1 ∨ p.m_safety > 1 then Res.err "parameter must satisfy: 0.1 ≤ m_safety ≤ 1"
  else if p.m_first_reject < 0 then Res.err "parameter must satisfy: m_first_rejection ≥ 0"
  else if p.h_ini < 1e-8 then Res.err "parameter must satisfy: h_ini ≥ 1e-8"
  else if p.n_step_max < 1 then Res.err "parameter must satisfy: n_step_max ≥ 1"
  else if p.rel_error_prev_min < 1e-8 then Res.err "parameter must satisfy: rel_error_prev_min ≥ 1e-8"
  else ok ()

/-- `ParamsStiffness::new` (/repo/russell_ode/src/params.rs:331-346) -/
noncomputable def ParamsStiffness.new (m : Method) : ParamsStiffness :=
  ⟨false, true, false, 15, 6, 10, match m with
    | .DoPri5 => some 3.25
    | .DoPri8 => some 6.1
    | _ => none⟩

/-- `ParamsRadau5::new` (/repo/russell_ode/src/params.rs:375-384) -/
noncomputable def ParamsRadau5.new : ParamsRadau5 := ⟨false, 1e-3, 1, 1.2, true, true⟩

open Classical in
/-- `ParamsRadau5::validate` (/repo/russell_ode/src/params.rs:387-398) -/
noncomputable def ParamsRadau5.validate (p : ParamsRadau5) : Res Unit :=
  if p.theta_max < 1e-7 then Res.err "parameter must satisfy: theta_max ≥ 1e-7"
  else if p.c1h < 0.5 ∨ p.c1h > 1.5 ∨ p.c1h ≥ p.c2h then
    Res.err "parameter must satisfy: 0.5 ≤ c1h ≤ 1.5 and c1h < c2h"
  else if p.c2h < 1 ∨ p.c2h > 2 then Res.err "parameter must satisfy: 1 ≤ c2h ≤ 2 and c2h > c1h"
  else ok ()

/-- `ParamsERK::new` (/repo/russell_ode/src/params.rs:403-410) -/
noncomputable def ParamsERK.new (m : Method) : ParamsERK :=
  match m with
  | .DoPri5 => ⟨0.04, 0.75⟩
  | .DoPri8 => ⟨0, 0.2⟩
  | _ => ⟨0, 0⟩

open Classical in
/-- `ParamsERK::validate` (/repo/russell_ode/src/params.rs:413-421) -/
noncomputable def ParamsERK.validate (p : ParamsERK) : Res Unit :=
  if p.lund_beta < 0 ∨ p.lund_beta > 0.1 then Res.err "parameter must satisfy: 0 ≤ lund_beta ≤ 0.1"
  else if p.lund_m < 0 ∨ p.lund_m > 1 then Res.err "parameter must satisfy: 0 ≤ lund_m ≤ 1"
  else ok ()

/-- `Params::new` (/repo/russell_ode/src/params.rs:426-438) -/
noncomputable def Params.new (m : Method) : Res Params := do
  let tol ← ParamsTol.new m
  ok ⟨m, tol, ParamsNewton.new, ParamsStep.new m, ParamsStiffness.new m, false, ParamsRadau5.new, ParamsERK.new m, false⟩

/-- `Params::set_tolerances` (/repo/russell_ode/src/params.rs:452-459) -/
noncomputable def Params.setTolerances (p : Params) (absolute relative : ℝ) (newton : Option ℝ) : Res Params := do
  let t ← calcTolerances (decide (p.method = .Radau5)) absolute relative
  ok { p with tol := ⟨t.abs, t.rel, match newton with | some n => n | none => t.newton⟩ }

/-- `Params::validate` (/repo/russell_ode/src/params.rs:462-468) -/
noncomputable def Params.validate (p : Params) : Res Unit := do
  let _ ← p.newton.validate
  let _ ← p.step.validate
  let _ ← p.radau5.validate
  let _ ← p.erk.validate
  ok ()

/-! ## What the solvers read -/

/-- the fields read by the explicit methods -/
noncomputable def Params.toErk (p : Params) : ErkParams ℝ where
  method := p.method
  tol_abs := p.tol.abs
  tol_rel := p.tol.rel
  m_min := p.step.m_min
  m_max := p.step.m_max
  m_safety := p.step.m_safety
  lund_beta := p.erk.lund_beta
  lund_m := p.erk.lund_m
  stiff_enabled := p.stiffness.enabled
  stop_with_error := p.stiffness.stop_with_error
  ratified_after_nstep := p.stiffness.ratified_after_nstep
  ignored_after_nstep := p.stiffness.ignored_after_nstep
  skip_first_n_accepted_step := p.stiffness.skip_first_n_accepted_step
  h_times_rho_max := p.stiffness.h_times_rho_max.getD 0

/-- the fields read by the backward Euler method -/
noncomputable def Params.toBw (p : Params) : BwParams where
  n_iteration_max := p.newton.n_iteration_max
  use_numerical_jacobian := p.newton.use_numerical_jacobian
  use_modified_newton := p.use_modified_newton
  tol_abs := p.tol.abs
  tol_rel := p.tol.rel
  tol_newton := p.tol.newton

/-- the fields read by Radau5 -/
noncomputable def Params.toRadau (p : Params) : RdParams where
  tol_abs := p.tol.abs
  tol_rel := p.tol.rel
  tol_newton := p.tol.newton
  n_iteration_max := p.newton.n_iteration_max
  use_numerical_jacobian := p.newton.use_numerical_jacobian
  write_matrix_after_nstep_and_stop := p.newton.write_matrix_after_nstep_and_stop
  m_min := p.step.m_min
  m_max := p.step.m_max
  m_safety := p.step.m_safety
  zero_trial := p.radau5.zero_trial
  theta_max := p.radau5.theta_max
  c1h := p.radau5.c1h
  c2h := p.radau5.c2h
  concurrent := p.radau5.concurrent
  use_pred_control := p.radau5.use_pred_control

/-- the fields read by `OdeSolver::solve` -/
noncomputable def Params.toSolve (p : Params) (ndim : Nat) : SolveParams ℝ where
  ndim := ndim
  embedded := p.method.information.embedded
  h_ini := p.step.h_ini
  n_step_max := p.step.n_step_max
  m_first_reject := p.step.m_first_reject
  rel_error_prev_min := p.step.rel_error_prev_min
  save_results := p.stiffness.save_results

/-- the solver behind the trait object -/
inductive Actual where
  | radau5 | bweuler | fweuler
  | erk (e : Erk ℝ)

/-- `OdeSolver` (/repo/russell_ode/src/ode_solver.rs:106-118) without the workspace -/
structure OdeSolver where
  params : Params
  ndim : Nat
  actual : Actual

/-- `OdeSolver::new` (/repo/russell_ode/src/ode_solver.rs:132-156); `mass` tells whether the system has a mass matrix -/
noncomputable def OdeSolver.new {σ : Type} (p : Params) (sys : System ℝ σ) (mass : Bool) : Res OdeSolver := do
  let _ ← p.validate
  if mass = true ∧ p.method ≠ .Radau5 then Res.err "the method must be Radau5 for systems with a mass matrix"
  else do
    let a ← if p.method = .Radau5 then ok Actual.radau5
      else if p.method = .BwEuler then ok Actual.bweuler
      else if p.method = .FwEuler then ok Actual.fweuler
      else do
        let e ← unwrap (Erk.new sys p.toErk)
        ok (Actual.erk e)
    ok ⟨p, sys.ndim, a⟩

/-- `OdeSolver::update_params` (/repo/russell_ode/src/ode_solver.rs:383-391) with `ExplicitRungeKutta::update_params`
(explicit_runge_kutta.rs:360-362) -/
noncomputable def OdeSolver.updateParams (s : OdeSolver) (p : Params) : Res OdeSolver := do
  if p.method ≠ s.params.method then Res.err "update_params must not change the method"
  else do
    let _ ← p.validate
    ok { s with params := p, actual := match s.actual with
      | .erk e => .erk (e.updateParams p.toErk)
      | a => a }

/-! ## Tolerances -/

/-- **C83**: tolerances are refused exactly if one of them is not above `10 ε`. -/
theorem C83_tolerances_ok (radau5 : Bool) (a r : ℝ) :
    (∃ t, calcTolerances radau5 a r = ok t) ↔ 10 * epsilon < a ∧ 10 * epsilon < r := by
  unfold calcTolerances
  by_cases h1 : a ≤ 10 * epsilon
  · rw [if_pos h1]
    simp [h1]
  · rw [if_neg h1]
    by_cases h2 : r ≤ 10 * epsilon
    · rw [if_pos h2]
      simp [h2]
    · rw [if_neg h2]
      exact ⟨fun _ => ⟨not_le.1 h1, not_le.1 h2⟩, fun _ => ⟨_, rfl⟩⟩

theorem epsilon_pos : 0 < epsilon := by unfold epsilon; positivity

/-- **C83**: what the accepted tolerances become. All are positive; the explicit methods and backward Euler use the given
ones; Radau5 keeps their quotient and replaces the relative one by `0.1 rel^(2/3)`. The tolerance of the iterations is at
least `10 ε / rel`, and between this and 0.03 it is the square root of the relative tolerance. -/
theorem C83_tolerances {radau5 : Bool} {a r : ℝ} {t : ParamsTol} (h : calcTolerances radau5 a r = ok t) :
    0 < t.abs ∧ 0 < t.rel ∧ 0 < t.newton ∧ t.abs / t.rel = a / r ∧ 10 * epsilon / t.rel ≤ t.newton ∧
    (radau5 = false → t.abs = a ∧ t.rel = r) ∧ (radau5 = true → (10 * t.rel) ^ 3 = r ^ 2) ∧
    (10 * epsilon / t.rel ≤ 3 / 100 → t.newton ≤ 3 / 100) ∧
    (10 * epsilon / t.rel ≤ Real.sqrt t.rel → t.newton = min (3 / 100) (Real.sqrt t.rel) ∨ 3 / 100 < 10 * epsilon / t.rel) := by
  have he := epsilon_pos
  obtain ⟨ha, hr⟩ := (C83_tolerances_ok radau5 a r).1 ⟨t, h⟩
  have ha0 : 0 < a := by linarith
  have hr0 : 0 < r := by linarith
  unfold calcTolerances at h
  rw [if_neg (not_le.2 ha), if_neg (not_le.2 hr)] at h
  have ht := ok.inj h
  have hrel : t.rel = if radau5 then 1 / 10 * r ^ (2 / 3 : ℝ) else r := by rw [← ht]
  have hpos : 0 < t.rel := by
    rw [hrel]
    split
    · positivity
    · exact hr0
  have habs : t.abs = if radau5 then t.rel * (a / r) else a := by rw [hrel, ← ht]
  have hnew : t.newton = max (10 * epsilon / t.rel) (min (3 / 100) (Real.sqrt t.rel)) := by rw [hrel, ← ht]
  have hq : 0 < 10 * epsilon / t.rel := by positivity
  refine ⟨?_, hpos, ?_, ?_, ?_, ?_, ?_, ?_, ?_⟩
  · rw [habs]
    split
    · positivity
    · exact ha0
  · rw [hnew]; exact lt_max_of_lt_left hq
  · rw [habs]
    split
    · field_simp
    · next h => rw [hrel, if_neg h]
  · rw [hnew]; exact le_max_left _ _
  · rintro rfl; rw [habs, hrel]; exact ⟨rfl, rfl⟩
  · rintro rfl
    rw [hrel, if_pos rfl]
    have : (10 * (1 / 10 * r ^ (2 / 3 : ℝ))) ^ 3 = (r ^ (2 / 3 : ℝ)) ^ (3 : ℕ) := by ring
    rw [this, ← Real.rpow_natCast, ← Real.rpow_mul hr0.le]
    norm_num
  · intro h; rw [hnew]; exact max_le h (min_le_left _ _)
  · intro h
    rw [hnew]
    rcases le_or_gt (10 * epsilon / t.rel) (3 / 100) with h1 | h1
    · exact Or.inl (max_eq_right (le_min h1 h))
    · exact Or.inr h1

/-- **C83**: Radau5 works with a smaller relative tolerance than the given one only above `1e-3`; below, with a larger one. -/
theorem C83_radau_tolerance {a r : ℝ} {t : ParamsTol} (h : calcTolerances true a r = ok t) :
    (t.rel < r ↔ 1 / 1000 < r) ∧ (r < t.rel ↔ r < 1 / 1000) ∧ (t.abs < a ↔ 1 / 1000 < r) := by
  obtain ⟨ha, hr⟩ := (C83_tolerances_ok true a r).1 ⟨t, h⟩
  have he := epsilon_pos
  have ha0 : 0 < a := by linarith
  have hr0 : 0 < r := by linarith
  obtain ⟨h1, h2, -, h4, -, -, h7, -⟩ := C83_tolerances h
  have h7 := h7 rfl
  -- s = 10 t.rel, s^3 = r^2
  have k1 : t.rel < r ↔ 1 / 1000 < r := by
    constructor
    · intro hl
      have : (10 * t.rel) ^ 3 < (10 * r) ^ 3 := by gcongr
      rw [h7] at this
      have : r ^ 2 * 1 < r ^ 2 * (1000 * r) := by nlinarith
      have := lt_of_mul_lt_mul_left this (by positivity)
      linarith
    · intro hl
      by_contra hn
      have : (10 * r) ^ 3 ≤ (10 * t.rel) ^ 3 := by gcongr; exact not_lt.1 hn
      rw [h7] at this
      have : r ^ 2 * (1000 * r) ≤ r ^ 2 * 1 := by nlinarith
      have := le_of_mul_le_mul_left this (by positivity)
      linarith
  have k2 : r < t.rel ↔ r < 1 / 1000 := by
    constructor
    · intro hl
      have : (10 * r) ^ 3 < (10 * t.rel) ^ 3 := by gcongr
      rw [h7] at this
      have : r ^ 2 * (1000 * r) < r ^ 2 * 1 := by nlinarith
      have := lt_of_mul_lt_mul_left this (by positivity)
      linarith
    · intro hl
      by_contra hn
      have : (10 * t.rel) ^ 3 ≤ (10 * r) ^ 3 := by gcongr; exact not_lt.1 hn
      rw [h7] at this
      have : r ^ 2 * 1 ≤ r ^ 2 * (1000 * r) := by nlinarith
      have := le_of_mul_le_mul_left this (by positivity)
      linarith
  refine ⟨k1, k2, ?_⟩
  rw [← k1]
  have : t.abs = t.rel * (a / r) := by rw [← h4]; field_simp
  rw [this]
  constructor
  · intro hl
    by_contra hn
    have : r * (a / r) ≤ t.rel * (a / r) := mul_le_mul_of_nonneg_right (not_lt.1 hn) (by positivity)
    rw [mul_div_cancel₀ _ hr0.ne'] at this
    linarith
  · intro hl
    calc t.rel * (a / r) < r * (a / r) := mul_lt_mul_of_pos_right hl (by positivity)
      _ = a := mul_div_cancel₀ _ hr0.ne'

example : ∃ t, calcTolerances true 1e-4 1e-4 = ok t ∧ 1e-4 < t.rel := by
  obtain ⟨t, ht⟩ := (C83_tolerances_ok true 1e-4 1e-4).2 (by unfold epsilon; norm_num)
  exact ⟨t, ht, (C83_radau_tolerance ht).2.1.2 (by norm_num)⟩

/-- **C83**: `set_tolerances` changes nothing but the tolerances; without a given one, the tolerance of the iterations is the
calculated (positive) one. -/
theorem C83_set_tolerances {p p' : Params} {a r : ℝ} {newton : Option ℝ} (h : p.setTolerances a r newton = ok p') :
    p' = { p with tol := p'.tol } ∧ 10 * epsilon < a ∧ 10 * epsilon < r ∧ 0 < p'.tol.abs ∧ 0 < p'.tol.rel ∧
    (p.method ≠ .Radau5 → p'.tol.abs = a ∧ p'.tol.rel = r) ∧ (newton = none → 0 < p'.tol.newton) ∧
    (∀ x, newton = some x → p'.tol.newton = x) := by
  unfold Params.setTolerances at h
  obtain ⟨t, h1, h⟩ := bind_eq_ok.1 h
  obtain ⟨ha, hr⟩ := (C83_tolerances_ok _ a r).1 ⟨t, h1⟩
  obtain ⟨g1, g2, g3, -, -, g4, -⟩ := C83_tolerances h1
  cases ok.inj h
  refine ⟨rfl, ha, hr, g1, g2, fun hm => g4 (by simp [hm]), ?_, ?_⟩
  · rintro rfl; exact g3
  · rintro x rfl; rfl

/-- **C83**, not so: a given tolerance of the iterations is not checked at all; zero or a negative one is accepted by
`set_tolerances` and by `validate`. -/
theorem C83_newton_tolerance_counterexample (p : Params) (hp : p.validate = ok ()) (x : ℝ) :
    ∃ p', p.setTolerances 1e-4 1e-4 (some x) = ok p' ∧ p'.tol.newton = x ∧ p'.validate = ok () := by
  obtain ⟨t, ht⟩ := (C83_tolerances_ok (decide (p.method = .Radau5)) 1e-4 1e-4).2 (by unfold epsilon; norm_num)
  refine ⟨{ p with tol := ⟨t.abs, t.rel, x⟩ }, ?_, rfl, hp⟩
  unfold Params.setTolerances
  rw [ht]; rfl

/-! ## Validation -/

/-- the ranges of the parameters -/
structure Params.Ranges (p : Params) : Prop where
  iter : 1 ≤ p.newton.n_iteration_max
  min : 1 / 1000 ≤ p.step.m_min ∧ p.step.m_min ≤ 1 / 2 ∧ p.step.m_min < p.step.m_max
  max : 1 / 100 ≤ p.step.m_max ∧ p.step.m_max ≤ 20
  safety : 1 / 10 ≤ p.step.m_safety ∧ p.step.m_safety ≤ 1
  reject : 0 ≤ p.step.m_first_reject
  ini : 1 / 10 ^ 8 ≤ p.step.h_ini
  steps : 1 ≤ p.step.n_step_max
  prev : 1 / 10 ^ 8 ≤ p.step.rel_error_prev_min
  theta : 1 / 10 ^ 7 ≤ p.radau5.theta_max
  c1h : 1 / 2 ≤ p.radau5.c1h ∧ p.radau5.c1h ≤ 3 / 2 ∧ p.radau5.c1h < p.radau5.c2h
  c2h : 1 ≤ p.radau5.c2h ∧ p.radau5.c2h ≤ 2
  beta : 0 ≤ p.erk.lund_beta ∧ p.erk.lund_beta ≤ 1 / 10
  lm : 0 ≤ p.erk.lund_m ∧ p.erk.lund_m ≤ 1

theorem ite_err {c : Prop} [Decidable c] {m : String} {x : Res Unit} : (if c then Res.err m else x) = ok () ↔ ¬ c ∧ x = ok () := by
  by_cases h : c
  · rw [if_pos h]; simp [h]
  · rw [if_neg h]; simp [h]

theorem unit_bind {x : Res Unit} {y : Res Unit} : (do let _ ← x; y) = ok () ↔ x = ok () ∧ y = ok () := by
  constructor
  · intro h
    obtain ⟨⟨⟩, h1, h2⟩ := bind_eq_ok.1 h
    exact ⟨h1, h2⟩
  · rintro ⟨h1, h2⟩
    rw [h1]; exact h2

/-- a check passes or fails with a message -/
def Checks (x : Res Unit) : Prop := x = ok () ∨ ∃ m, x = Res.err m

theorem Checks.ite {c : Prop} [Decidable c] {m : String} {x : Res Unit} (h : Checks x) :
    Checks (if c then Res.err m else x) := by
  by_cases hc : c
  · rw [if_pos hc]; exact Or.inr ⟨_, rfl⟩
  · rw [if_neg hc]; exact h

theorem Checks.bind {x y : Res Unit} (hx : Checks x) (hy : Checks y) : Checks (do let _ ← x; y) := by
  rcases hx with rfl | ⟨m, rfl⟩
  · exact hy
  · exact Or.inr ⟨m, rfl⟩

theorem validate_cases (p : Params) : Checks p.validate := by
  have h0 : Checks (ok ()) := Or.inl rfl
  unfold Params.validate
  refine Checks.bind ?_ (Checks.bind ?_ (Checks.bind ?_ (Checks.bind ?_ h0)))
  · exact h0.ite
  · exact h0.ite.ite.ite.ite.ite.ite.ite
  · exact h0.ite.ite.ite
  · exact h0.ite.ite

/-- **C83**: parameters are accepted if and only if they are in the stated ranges (for all methods, whatever the method
reads). -/
theorem C83_validate_iff (p : Params) : p.validate = ok () ↔ p.Ranges := by
  unfold Params.validate
  rw [unit_bind, unit_bind, unit_bind, unit_bind]
  unfold ParamsNewton.validate ParamsStep.validate ParamsRadau5.validate ParamsERK.validate
  simp only [ite_err, not_or, not_lt, and_true, gt_iff_lt, ge_iff_le, not_le]
  constructor
  · rintro ⟨h1, ⟨h2, h3, h4, h5, h6, h7, h8⟩, ⟨h9, h10, h11⟩, h12, h13⟩
    norm_num at *
    constructor <;> norm_num <;> tauto
  · rintro ⟨h1, h2, h3, h4, h5, h6, h7, h8, h9, h10, h11, h12, h13⟩
    norm_num at *
    tauto

/-- **C83**: validation and construction of parameters never panic, and the parameters of `Params::new` are valid for every
method; their tolerances are positive. -/
theorem C83_defaults (m : Method) : ∃ p, Params.new m = ok p ∧ p.method = m ∧ p.validate = ok () ∧
    0 < p.tol.abs ∧ 0 < p.tol.rel ∧ 0 < p.tol.newton := by
  obtain ⟨t, ht⟩ := (C83_tolerances_ok (decide (m = .Radau5)) 1e-4 1e-4).2 (by unfold epsilon; norm_num)
  obtain ⟨g1, g2, g3, -⟩ := C83_tolerances ht
  refine ⟨⟨m, t, ParamsNewton.new, ParamsStep.new m, ParamsStiffness.new m, false, ParamsRadau5.new, ParamsERK.new m, false⟩,
    ?_, rfl, ?_, g1, g2, g3⟩
  · unfold Params.new ParamsTol.new
    rw [ht]; rfl
  · rw [C83_validate_iff]
    cases m <;> constructor <;> norm_num [ParamsNewton.new, ParamsStep.new, ParamsRadau5.new, ParamsERK.new]

/-- **C83**: valid parameters satisfy what the theorems about the explicit methods (C59, C61) and Radau5 (C85) require. -/
theorem C83_valid_suffices {p : Params} (h : p.validate = ok ()) :
    p.toErk.Valid ∧ (0 < p.toRadau.m_min ∧ p.toRadau.m_min ≤ p.toRadau.m_max ∧ 0 < p.toRadau.m_safety ∧
      p.toRadau.m_safety ≤ 1 ∧ 0 < p.toRadau.n_iteration_max) ∧ 0 < p.toBw.n_iteration_max ∧
      ∀ n, 0 < (p.toSolve n).h_ini ∧ 0 < (p.toSolve n).n_step_max := by
  have r := (C83_validate_iff p).1 h
  have h1 := r.min
  have h2 := r.safety
  have h3 := r.iter
  have h4 := r.ini
  have h5 := r.steps
  refine ⟨⟨r.min, r.max, r.safety, r.beta, r.lm⟩, ⟨?_, ?_, ?_, h2.2, h3⟩, h3, fun n => ⟨?_, h5⟩⟩
  · show 0 < p.step.m_min
    linarith
  · exact h1.2.2.le
  · show 0 < p.step.m_safety
    linarith
  · show 0 < p.step.h_ini
    have : (0 : ℝ) < 1 / 10 ^ 8 := by positivity
    linarith

/-- **C83**, not so: the message says that `m_min` must be below 0.5, but 0.5 is accepted. -/
theorem C83_m_min_counterexample {p : Params} (h : p.validate = ok ()) :
    { p with step := { p.step with m_min := 1 / 2, m_max := 1 } }.validate = ok () := by
  rw [C83_validate_iff] at h ⊢
  obtain ⟨h1, h2, h3, h4, h5, h6, h7, h8, h9, h10, h11, h12, h13⟩ := h
  exact ⟨h1, by norm_num, by norm_num, h4, h5, h6, h7, h8, h9, h10, h11, h12, h13⟩

/-- **C83**, not so: valid parameters do not guarantee that a rejected step of Radau5 is repeated with a smaller stepsize: with
`m_max < 1`, which is accepted, it is always repeated with a larger one. -/
theorem C83_m_max_counterexample {p : Params} (h : p.validate = ok ()) :
    ∃ p' : Params, p'.method = p.method ∧ p'.validate = ok () ∧
      ∀ (work : Workspace ℝ) (h : ℝ), 0 < h → h < (Radau.reject p'.toRadau work h).h_new := by
  refine ⟨{ p with step := { p.step with m_min := 1 / 4, m_max := 1 / 2 } }, rfl, ?_, ?_⟩
  · rw [C83_validate_iff] at h ⊢
    obtain ⟨h1, h2, h3, h4, h5, h6, h7, h8, h9, h10, h11, h12, h13⟩ := h
    exact ⟨h1, by norm_num, by norm_num, h4, h5, h6, h7, h8, h9, h10, h11, h12, h13⟩
  · intro work hh hpos
    have hs := ((C83_validate_iff p).1 h).safety.1
    refine C85_reject_counterexample ?_ ?_ ?_ ?_ work hpos
    · show (0 : ℝ) < 1 / 4
      norm_num
    · show (1 / 4 : ℝ) ≤ 1 / 2
      norm_num
    · show (1 / 2 : ℝ) < 1
      norm_num
    · show (0 : ℝ) ≤ p.step.m_safety
      linarith

/-! ## Construction of a solver -/

theorem tableau_some {m : Method} (h1 : m ≠ .Radau5) (h2 : m ≠ .BwEuler) (h3 : m ≠ .FwEuler) : ∃ t, m.tableau = some t := by
  cases m <;> simp_all [Method.tableau]

/-- **C83**: `OdeSolver::new` succeeds if and only if the parameters are valid and the method is Radau5 in case of a mass
matrix; it never panics (the `unwrap` is safe). -/
theorem C83_new {σ : Type} (p : Params) (sys : System ℝ σ) (mass : Bool) :
    OdeSolver.new p sys mass ≠ Res.panic ∧
    ((∃ s, OdeSolver.new p sys mass = ok s) ↔ p.Ranges ∧ (mass = true → p.method = .Radau5)) ∧
    ∀ s, OdeSolver.new p sys mass = ok s → s.params = p ∧ s.ndim = sys.ndim ∧
      (s.actual = .radau5 ↔ p.method = .Radau5) ∧ (s.actual = .bweuler ↔ p.method = .BwEuler) ∧
      (s.actual = .fweuler ↔ p.method = .FwEuler) ∧ ∀ e, s.actual = .erk e → Erk.new sys p.toErk = ok e := by
  have hval := validate_cases p
  unfold OdeSolver.new
  rcases hval with hv | ⟨m, hv⟩
  · have hr := (C83_validate_iff p).1 hv
    rw [hv, ok_bind]
    by_cases hm : mass = true ∧ p.method ≠ .Radau5
    · rw [if_pos hm]
      refine ⟨by simp, ⟨?_, ?_⟩, ?_⟩
      · rintro ⟨s, hs⟩; cases hs
      · rintro ⟨-, h⟩; exact absurd (h hm.1) hm.2
      · intro s hs; cases hs
    · rw [if_neg hm]
      have hmass : mass = true → p.method = .Radau5 := fun h => by
        by_contra hn; exact hm ⟨h, hn⟩
      by_cases h1 : p.method = .Radau5
      · rw [if_pos h1, ok_bind]
        refine ⟨by simp, ⟨fun _ => ⟨hr, hmass⟩, fun _ => ⟨_, rfl⟩⟩, ?_⟩
        intro s hs
        cases ok.inj hs
        simp [h1]
      rw [if_neg h1]
      by_cases h2 : p.method = .BwEuler
      · rw [if_pos h2, ok_bind]
        refine ⟨by simp, ⟨fun _ => ⟨hr, hmass⟩, fun _ => ⟨_, rfl⟩⟩, ?_⟩
        intro s hs
        cases ok.inj hs
        simp [h2]
      rw [if_neg h2]
      by_cases h3 : p.method = .FwEuler
      · rw [if_pos h3, ok_bind]
        refine ⟨by simp, ⟨fun _ => ⟨hr, hmass⟩, fun _ => ⟨_, rfl⟩⟩, ?_⟩
        intro s hs
        cases ok.inj hs
        simp [h3]
      rw [if_neg h3]
      obtain ⟨t, ht⟩ := tableau_some h1 h2 h3
      obtain ⟨e, he⟩ : ∃ e, Erk.new sys p.toErk = ok e := by
        unfold Erk.new
        have : p.toErk.method.tableau = some t := ht
        rw [this]
        exact ⟨_, rfl⟩
      rw [he]
      simp only [unwrap, ok_bind]
      refine ⟨by simp, ⟨fun _ => ⟨hr, hmass⟩, fun _ => ⟨_, rfl⟩⟩, ?_⟩
      intro s hs
      cases ok.inj hs
      simp [h1, h2, h3]
  · rw [hv]
    have hnr : ¬ p.Ranges := fun h => by
      rw [(C83_validate_iff p).2 h] at hv; cases hv
    refine ⟨by rintro ⟨⟩, ⟨?_, ?_⟩, ?_⟩
    · rintro ⟨s, hs⟩; cases hs
    · rintro ⟨h, -⟩; exact absurd h hnr
    · intro s hs; cases hs

/-- **C83**: from parameters to solutions: for every explicit method with several stages and parameters accepted by
`OdeSolver::new`, `solve` without output never panics. -/
theorem C83_solve_no_panic {σ : Type} {p : Params} {sys : System ℝ σ} {mass : Bool} {s : OdeSolver} {e : Erk ℝ}
    (h : OdeSolver.new p sys mass = ok s) (he : s.actual = .erk e) {fns : MathFns ℝ} (hf : fns.Good) {F : ℝ → List ℝ → List ℝ}
    (hF : Computes sys F) {fin : List ℝ → Res Unit} (hfin : ∀ y, fin y ≠ Res.panic) (y0 : List ℝ) (x0 x1 : ℝ)
    (h_equal : Option ℝ) (args : σ) :
    solve (erk fns sys) (p.toSolve sys.ndim) fin e y0 x0 x1 h_equal args none ≠ Res.panic := by
  obtain ⟨-, h2, h3⟩ := C83_new p sys mass
  have hv := (C83_validate_iff p).2 (h2.1 ⟨s, h⟩).1
  obtain ⟨g1, -, -, g4⟩ := C83_valid_suffices hv
  obtain ⟨-, -, -, -, -, g5⟩ := h3 s h
  exact C59_no_panic (g5 e he) hF hf g1 rfl (g4 _).1 hfin

/-- **C83**: `update_params` succeeds if and only if the method is the same and the parameters are valid; the method of the
solver never changes. -/
theorem C83_update (s : OdeSolver) (p : Params) :
    s.updateParams p ≠ Res.panic ∧
    ((∃ s', s.updateParams p = ok s') ↔ p.method = s.params.method ∧ p.Ranges) ∧
    ∀ s', s.updateParams p = ok s' → s'.params = p ∧ s'.ndim = s.ndim ∧ s'.params.method = s.params.method := by
  have hval := validate_cases p
  unfold OdeSolver.updateParams
  by_cases hm : p.method ≠ s.params.method
  · rw [if_pos hm]
    refine ⟨by simp, ⟨?_, ?_⟩, ?_⟩
    · rintro ⟨s', hs⟩; cases hs
    · rintro ⟨h, -⟩; exact absurd h hm
    · intro s' hs; cases hs
  · rw [if_neg hm]
    have hm : p.method = s.params.method := not_not.1 hm
    rcases hval with hv | ⟨m, hv⟩
    · rw [hv, ok_bind]
      refine ⟨by simp, ⟨fun _ => ⟨hm, (C83_validate_iff p).1 hv⟩, fun _ => ⟨_, rfl⟩⟩, ?_⟩
      intro s' hs
      cases ok.inj hs
      exact ⟨rfl, rfl, hm⟩
    · rw [hv]
      refine ⟨by rintro ⟨⟩, ⟨?_, ?_⟩, ?_⟩
      · rintro ⟨s', hs⟩; cases hs
      · rintro ⟨-, h⟩
        rw [(C83_validate_iff p).2 h] at hv; cases hv
      · intro s' hs; cases hs

/-- the hypotheses of C83: the default parameters of DoPri5 make a solver -/
example : ∃ p s e, Params.new .DoPri5 = ok p ∧
    OdeSolver.new p (⟨1, fun _ _ y a => ok (y, a)⟩ : System ℝ Unit) false = ok s ∧ s.actual = .erk e := by
  obtain ⟨p, h1, h2, h3, -⟩ := C83_defaults .DoPri5
  obtain ⟨-, g2, g3⟩ := C83_new p (⟨1, fun _ _ y a => ok (y, a)⟩ : System ℝ Unit) false
  obtain ⟨s, hs⟩ := g2.2 ⟨(C83_validate_iff p).1 h3, by simp⟩
  obtain ⟨-, -, k1, k2, k3, -⟩ := g3 s hs
  cases ha : s.actual with
  | erk e => exact ⟨p, s, e, h1, hs, ha⟩
  | radau5 => rw [h2] at k1; simp [ha] at k1
  | bweuler => rw [h2] at k2; simp [ha] at k2
  | fweuler => rw [h2] at k3; simp [ha] at k3

end Russell.Ode
