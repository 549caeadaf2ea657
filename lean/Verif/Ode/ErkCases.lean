import Verif.Ode.DenseProps
import Verif.Ode.LocalError
import Verif.Ode.EulerForward
import Mathlib.Analysis.SpecialFunctions.ExpDeriv
import Mathlib.RingTheory.PowerSeries.Exp

/-!
# Cases of the explicit Runge-Kutta methods (C59-C62)
-/

namespace Russell.Ode

open Russell Russell.Res Russell.Lab

/-- Stand-ins for `sqrt` and `powf` in the rational numbers; only `Good` is used of them. -/
def fnsQ : MathFns ℚ where
  sqrt a := a
  powf a _ := a

theorem fnsQ_good : fnsQ.Good := ⟨fun _ _ h _ => h, fun _ _ h => h⟩

/-- Parameters like those of `Params::new`. -/
def paramsQ (m : Method) : ErkParams ℚ where
  method := m
  tol_abs := 1 / 100
  tol_rel := 1 / 100
  m_min := 1 / 5
  m_max := 10
  m_safety := 9 / 10
  lund_beta := 4 / 100
  lund_m := 3 / 4
  stiff_enabled := false
  stop_with_error := true
  ratified_after_nstep := 15
  ignored_after_nstep := 6
  skip_first_n_accepted_step := 10
  h_times_rho_max := 13 / 4

theorem paramsQ_valid (m : Method) : (paramsQ m).Valid := by
  constructor <;> norm_num [paramsQ]

def solveParamsQ (emb : Bool) : SolveParams ℚ where
  ndim := 1
  embedded := emb
  h_ini := 1 / 10
  n_step_max := 1000
  m_first_reject := 1 / 10
  rel_error_prev_min := 1 / 10000
  save_results := false

theorem sampleSystem_computes : Computes sampleSystem fun _ y => y.map fun a => -2 * a :=
  ⟨fun _ _ y _ _ _ => post_ok rfl, fun _ y h => by simpa using h⟩

def runQ (m : Method) (x1 : ℚ) (hq : Option ℚ) : Option (ℚ × List ℚ × ℚ × Nat × List ℚ) :=
  match Erk.new sampleSystem (paramsQ m) with
  | ok e => summary (solve (erk fnsQ sampleSystem) (solveParamsQ (m.information.embedded)) (fun _ => ok ()) e [1] 0 x1 hq ()
      (some (Output.new.setStepRecording [0])))
  | _ => none

/-- **C59**, a case of variable steps: the first step is rejected (and the next one is a tenth of it), seven are accepted. -/
example : (runQ .MdEuler (1 / 10) none).map (fun r => (r.1, r.2.2.2.1, r.2.2.2.2.length, r.2.2.2.2.take 3)) =
    some (1 / 10, 8, 8, [0, 1 / 100, 19 / 1000]) := by
  decide +kernel

/-- A case of DoPri5. -/
example : runQ .DoPri5 (1 / 2) none = some (1 / 2, [4042639263887 / 10986328125000], 2 / 5, 2, [0, 1 / 10, 1 / 2]) := by
  decide +kernel

/-- **C59**, a case of equal steps. -/
example : runQ .Rk4 1 (some (1 / 2)) = some (1, [9 / 64], 1 / 2, 2, [0, 1 / 2, 1]) := by decide +kernel

/-- The hypotheses of `C59_no_panic` and of the theorems about the steps hold for these cases. -/
example (e : Erk ℚ) (m : Method) (he : Erk.new sampleSystem (paramsQ m) = ok e) :
    solve (erk fnsQ sampleSystem) (solveParamsQ m.information.embedded) (fun _ => ok ()) e [1] 0 1 none () none ≠ Res.panic :=
  C59_no_panic he sampleSystem_computes fnsQ_good (paramsQ_valid m) rfl (by norm_num [solveParamsQ]) (fun _ => by simp)

/-! ### Dense output -/

/-- One accepted step with dense output. -/
def oneStep (sys : System ℚ Unit) (m : Method) (y : List ℚ) (h : ℚ) : Res (Erk ℚ × Workspace ℚ × ℚ × List ℚ × Unit) := do
  let e ← Erk.new sys (paramsQ m)
  let e ← e.enableDenseOutput sys
  let (e, w, a) ← e.step fnsQ sys (Workspace.reset h (1 / 10000)) 0 y h ()
  e.accept fnsQ sys w 0 y h a

theorem oneStep_relation {sys : System ℚ Unit} {F : ℚ → List ℚ → List ℚ} (hF : Computes sys F) {m : Method} {t : Tableau}
    (ht : m.tableau = some t) {y : List ℚ} (hy : y.length = sys.ndim) {h : ℚ} (hh : 0 < h)
    {r : Erk ℚ × Workspace ℚ × ℚ × List ℚ × Unit} (he : oneStep sys m y h = ok r) :
    ∃ err, ErkRelation fnsQ sys.ndim F (paramsQ m) t 0 y h err r.1 r.2.2.2.1 := by
  unfold oneStep at he
  obtain ⟨e, h1, he⟩ := Res.bind_eq_ok.1 he
  obtain ⟨e1, h2, he⟩ := Res.bind_eq_ok.1 he
  obtain ⟨⟨e2, w, a⟩, h3, he⟩ := Res.bind_eq_ok.1 he
  obtain ⟨e3, w3, x3, y3, a3⟩ := r
  obtain ⟨t', hM, -⟩ := made_new h1
  have : t' = t := Option.some.inj (hM.tab.symm.trans ht)
  subst this
  have hm := erk_meets (t := t') (sys := sys) fnsQ_good hF (paramsQ_valid m)
  have hJ : (erkContract fnsQ sys.ndim F (paramsQ m) t').J e1 0 false 0 y := by
    refine ⟨(made_enable hM h2).1, hy, ?_⟩
    rintro (⟨h, -⟩ | h)
    · omega
    · cases h
  have s1 := (hm.step h3 hJ).1.1
  exact ⟨w.rel_error, (hm.accept he hh s1).1.2.1⟩

/-- `y' = y`, one component. -/
def growthSystem : System ℚ Unit where
  ndim := 1
  function _ _ y _ := ok (y, ())

theorem growthSystem_computes : Computes growthSystem fun _ y => y :=
  ⟨fun _ _ _ _ _ _ => post_ok rfl, fun _ _ h => h⟩

/-- The result of the dense output after one step. -/
def denseAfter (sys : System ℚ Unit) (m : Method) (y : List ℚ) (h θ : ℚ) : Option (List ℚ × List ℚ) :=
  match oneStep sys m y h with
  | ok (e, _, x, y', _) =>
    match e.denseOutput (y.map fun _ => 0) (θ * h) x y' h with
    | ok r => some (r, y')
    | _ => none
  | _ => none

/-- **C62**, cases: the two ends and the middle of a step of DoPri5. -/
example : denseAfter sampleSystem .DoPri5 [1] (1 / 10) 0 = some ([1], [7675601 / 9375000]) ∧
    denseAfter sampleSystem .DoPri5 [1] (1 / 10) (1 / 2) = some ([2492297125062737 / 2754414656250000], [7675601 / 9375000]) ∧
    denseAfter sampleSystem .DoPri5 [1] (1 / 10) 1 = some ([7675601 / 9375000], [7675601 / 9375000]) := by
  decide +kernel

/-- The hypotheses of `C62_smooth8_counterexample` are met by an execution. -/
example : ∃ (err : ℚ) (e' : Erk ℚ) (y' : List ℚ) (o : ErkDense ℚ),
    ErkRelation fnsQ 1 (fun _ y => y) (paramsQ .DoPri8) doPri8 0 [1] 1 err e' y' ∧ e'.dense_out = some o := by
  have hk : (match oneStep growthSystem .DoPri8 [1] 1 with
    | ok r => r.1.dense_out.isSome
    | _ => false) = true := by decide +kernel
  match hr : oneStep growthSystem .DoPri8 [1] 1 with
  | ok r =>
    rw [hr] at hk
    obtain ⟨err, h⟩ := oneStep_relation growthSystem_computes rfl rfl one_pos hr
    obtain ⟨o, ho⟩ := Option.isSome_iff_exists.1 hk
    exact ⟨err, r.1, r.2.2.2.1, o, h, ho⟩
  | Res.err _ => rw [hr] at hk; cases hk
  | Res.panic => rw [hr] at hk; cases hk

/-! ### Stepsizes -/

/-- A case of `C61_accepted_step` and `C61_rejected_step`. -/
example : ∃ e, Erk.new sampleSystem (paramsQ .DoPri5) = ok e ∧
    e.acceptedStep fnsQ { Workspace.reset 1 (1 / 10000) with rel_error := 1 / 2 } (1 / 10) = 1 / 50 ∧
    e.rejectedStep fnsQ { Workspace.reset 1 (1 / 10000) with rel_error := 3 } (1 / 10) = 3 / 100 := by
  refine ⟨_, rfl, ?_, ?_⟩ <;> decide +kernel

/-- **C61**, violated after `update_params`: the bounds of the stepsize are computed by `new` only (explicit_runge_kutta.rs:138-139,
360-362). With `m_max` changed from 10 to 2, the next stepsize may still be ten times the previous one. -/
theorem C61_update_params_counterexample : ∃ e, Erk.new sampleSystem (paramsQ .DoPri5) = ok e ∧
    { paramsQ .DoPri5 with m_max := 2 }.Valid ∧
    ¬ (e.updateParams { paramsQ .DoPri5 with m_max := 2 }).acceptedStep fnsQ
      { Workspace.reset 1 (1 / 10000) with rel_error := 1 / 1000000000 } (1 / 10) ≤ 2 * (1 / 10) := by
  refine ⟨_, rfl, ?_, ?_⟩
  · constructor <;> norm_num [paramsQ]
  · decide +kernel

/-! ### Order -/

/-- The exponential function is a solution of `y' = y`; so `C60_local_error` applies to it. -/
example : ∃ C δ : ℝ, 0 < δ ∧ ∀ h, |h| < δ → ∀ fns p err e' y',
    ErkRelation fns 1 growth.field p rk4 0 [1] h err e' y' → |comp y' 0 - Real.exp h| ≤ C * |h| ^ 5 := by
  obtain ⟨C, δ, hδ, h⟩ := C60_local_error (m := .Rk4) rfl (by decide) (f := growth) (x := 0) (y := [1])
    (u := fun ξ _ => Real.exp ξ)
    ⟨fun i => by fin_cases i; simp [comp], fun i => Filter.Eventually.of_forall fun ξ => by
      simpa [growth, vars] using Real.hasDerivAt_exp ξ⟩
  refine ⟨C, δ, hδ, ?_⟩
  intro s hs fns p err e' y' hR
  have := h s hs fns p err e' y' hR 0
  simpa [Method.information] using this

/-- A formal solution. -/
example : FormalSolution (growth (K := ℚ)) 0 [1] fun _ => PowerSeries.exp ℚ := by
  refine ⟨fun i => by fin_cases i; simp [comp], fun i => ?_⟩
  simp only [growth, vars, MvPolynomial.aeval_X]
  exact PowerSeries.derivative_exp ℚ

end Russell.Ode
