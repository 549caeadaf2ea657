import Verif.Ode.SamplesProps
import Verif.Lab.FiniteDiff
import Verif.Lab.BsplineDeriv

/-!
# `System` and the sample problems of russell_nonlin: model (C100)

Model of /repo/russell_nonlin/src/system.rs and /repo/russell_nonlin/src/samples.rs. The samples use real numbers; the decimal constants
have their decimal values and the named constants (`SQRT_2`, ...) the exact ones. The optional callbacks for the secondary state play no
role here and are left out. A sequence of `put(..).unwrap()` is `putAll`.
-/

namespace Russell.Nonlin.Samples

open Russell Russell.Res Russell.Sparse Russell.Lab
open Russell.Ode.Samples (V Fits putAll lin NoArgs)

/-- the type of `calc_gg` -/
abbrev FnG (α A : Type) := List α → α → List α → A → Res (List α × A)

/-- the type of `calc_jac` -/
abbrev FnJ (α A : Type) := Coo α → List α → α → List α → A → Res (Coo α × List α × A)

/-- `System` (/repo/russell_nonlin/src/system.rs:67-109) -/
structure Sys (α A : Type) where
  ndim : Nat
  nnz_ggu : Nat
  sym_ggu : Sym
  calc_gg : FnG α A
  calc_jac : FnJ α A

section system

variable {α A : Type} [Field α] [LinearOrder α]

/-- `System::new` (/repo/russell_nonlin/src/system.rs:148-184) -/
def Sys.new (ndim : Nat) (nnz_ggu : Option Nat) (sym_ggu : Sym) (calc_gg : FnG α A) (calc_jac : FnJ α A) : Res (Sys α A) :=
  if ndim < 1 then err "ndim must be at least 1"
  else
    match nnz_ggu with
    | some nnz => if nnz < 1 then err "nnz_ggu must be at least 1" else ok ⟨ndim, nnz, sym_ggu, calc_gg, calc_jac⟩
    | none => ok ⟨ndim, if sym_ggu.triangular then (ndim + ndim * ndim) / 2 else ndim * ndim, sym_ggu, calc_gg, calc_jac⟩

/-- `mat_approx_eq` (/repo/russell_lab/src/matrix/mat_approx_eq.rs:49-78) for a second matrix that is `mm × nn`; no NaN nor infinity -/
def matApproxEq (a : NumMatrix α) (mm nn : Nat) (b : Arr2 α) (tol : α) : Res Unit :=
  if a.nrow ≠ mm then panic
  else if a.ncol ≠ nn then panic
  else forRange 0 a.nrow () fun i _ => forRange 0 a.ncol () fun j _ => do
    let x ← a.get i j
    let y ← Arr2.get mm nn b i j
    if |x - y| > tol then panic else ok ()

/-- `System::check_ggu` (/repo/russell_nonlin/src/system.rs:258-271); returns the extra arguments -/
def Sys.checkGgu (cbrt : α → α) (S : Sys α A) (l_at : α) (u_at : List α) (args : A) (tol : α) : Res A := do
  let ggu ← (Coo.new S.ndim S.ndim S.nnz_ggu S.sym_ggu).unwrap
  let ggl := List.replicate S.ndim (0 : α)
  let (ggu, _, args) ← (S.calc_jac ggu ggl l_at u_at args).unwrap
  let (num, args) ← (numJacobianDense cbrt S.ndim 0 u_at 1 args S.calc_gg).unwrap
  let ana ← ggu.asDense
  let _ ← matApproxEq ana S.ndim S.ndim num tol
  ok args

end system

/-! ## The samples -/

/-- `Samples::simple_linear_problem` (/repo/russell_nonlin/src/samples.rs:28-55) -/
def simpleLinearProblem (sym : Sym) : Res (Sys ℝ NoArgs × List ℝ × ℝ × NoArgs) := do
  let system ← (Sys.new 1 (some 1) sym
    (fun gg l u a => do
      let u0 ← vget u 0
      let gg ← vset gg 0 (u0 - l)
      ok (gg, a))
    (fun ggu ggl _l _u a => do
      let ggu ← putAll ggu [(0, 0, 1)]
      let ggl ← vset ggl 0 (-1)
      ok (ggu, ggl, a))).unwrap
  ok (system, [0], 0, 0)

/-- `Samples::cubic_poly_1` (/repo/russell_nonlin/src/samples.rs:65-96): system, `u_ok`, `u_oscillation`, `u_indeterminate`, `u_reference`, args -/
noncomputable def cubicPoly1 : Res (Sys ℝ NoArgs × List ℝ × List ℝ × List ℝ × List ℝ × NoArgs) := do
  let system ← (Sys.new 1 (some 1) Sym.no
    (fun gg _l u a => do
      let u0 ← vget u 0
      let gg ← vset gg 0 (u0 * u0 * u0 - 2 * u0 - 2)
      ok (gg, a))
    (fun ggu ggl _l u a => do
      let u0 ← vget u 0
      let ggu ← putAll ggu [(0, 0, 3 * u0 * u0 - 2)]
      ok (ggu, ggl, a))).unwrap
  ok (system, [1], [0], [Real.sqrt (2 / 3)], [1.76929235423863], 0)

/-- `Samples::cubic_poly_2` (/repo/russell_nonlin/src/samples.rs:106-135) -/
noncomputable def cubicPoly2 : Res (Sys ℝ NoArgs × List ℝ × List ℝ × NoArgs) := do
  let system ← (Sys.new 1 (some 1) Sym.no
    (fun gg _l u a => do
      let u0 ← vget u 0
      let gg ← vset gg 0 ((u0 - 1) ^ 3 + 0.512)
      ok (gg, a))
    (fun ggu ggl _l u a => do
      let u0 ← vget u 0
      let ggu ← putAll ggu [(0, 0, 3 * (u0 - 1) ^ 2)]
      ok (ggu, ggl, a))).unwrap
  ok (system, [5], [0.2], 0)

/-- `Samples::two_eq_ref` (/repo/russell_nonlin/src/samples.rs:147-180); `powf(3.0)` is the cube, also of negative numbers -/
noncomputable def twoEqRef : Res (Sys ℝ NoArgs × List ℝ × List ℝ × NoArgs) := do
  let system ← (Sys.new 2 (some 4) Sym.no
    (fun gg _l u a => do
      let u0 ← vget u 0
      let u1 ← vget u 1
      let gg ← vset gg 0 (u0 ^ 3 + u1 - 1)
      let gg ← vset gg 1 (-u0 + u1 ^ 3 + 1)
      ok (gg, a))
    (fun ggu ggl _l u a => do
      let u0 ← vget u 0
      let u1 ← vget u 1
      let ggu ← putAll ggu [(0, 0, 3 * u0 * u0), (0, 1, 1), (1, 0, -1), (1, 1, 3 * u1 * u1)]
      ok (ggu, ggl, a))).unwrap
  ok (system, [0.5, 0.5], [1, 0], 0)

/-- `Samples::two_eq_nr_prob_1` (/repo/russell_nonlin/src/samples.rs:187-221) -/
noncomputable def twoEqNrProb1 : Res (Sys ℝ NoArgs × List ℝ × List ℝ × NoArgs) := do
  let system ← (Sys.new 2 (some 4) Sym.no
    (fun gg _l u a => do
      let u0 ← vget u 0
      let u1 ← vget u 1
      let gg ← vset gg 0 (u0 * u0 + u1 * u1)
      let gg ← vset gg 1 (u0 * u0 - u1 * u1)
      ok (gg, a))
    (fun ggu ggl _l u a => do
      let u0 ← vget u 0
      let u1 ← vget u 1
      let ggu ← putAll ggu [(0, 0, 2 * u0), (0, 1, 2 * u1), (1, 0, 2 * u0), (1, 1, -2 * u1)]
      ok (ggu, ggl, a))).unwrap
  ok (system, [0, 1e-5], [0, 0], 0)

/-- `Samples::two_eq_nr_prob_2` (/repo/russell_nonlin/src/samples.rs:226-263): system, `u_ok1`, `u_ok2`, `u_bad`, `u_ref1`, `u_ref2`, args -/
noncomputable def twoEqNrProb2 : Res (Sys ℝ NoArgs × List ℝ × List ℝ × List ℝ × List ℝ × List ℝ × NoArgs) := do
  let system ← (Sys.new 2 (some 4) Sym.no
    (fun gg _l u a => do
      let u0 ← vget u 0
      let u1 ← vget u 1
      let gg ← vset gg 0 (u0 ^ 2 + u1 ^ 2 - 2)
      let gg ← vset gg 1 ((u0 - 1) ^ 2 + (u1 - 1) ^ 2 - 2)
      ok (gg, a))
    (fun ggu ggl _l u a => do
      let u0 ← vget u 0
      let u1 ← vget u 1
      let ggu ← putAll ggu [(0, 0, 2 * u0), (0, 1, 2 * u1), (1, 0, 2 * (u0 - 1)), (1, 1, 2 * (u1 - 1))]
      ok (ggu, ggl, a))).unwrap
  ok (system, [-0.1, 0.1], [0.1, -0.1], [0, 0], [(1 - Real.sqrt 3) / 2, (1 + Real.sqrt 3) / 2], [(1 + Real.sqrt 3) / 2, (1 - Real.sqrt 3) / 2], 0)

/-- `Samples::one_eq_with_fold_point` (/repo/russell_nonlin/src/samples.rs:273-304) -/
noncomputable def oneEqWithFoldPoint : Res (Sys ℝ NoArgs × List ℝ × ℝ × (ℝ → ℝ) × NoArgs) := do
  let system ← (Sys.new 1 (some 1) Sym.no
    (fun gg l u a => do
      let u0 ← vget u 0
      let gg ← vset gg 0 (u0 - l * Real.exp u0)
      ok (gg, a))
    (fun ggu ggl l u a => do
      let u0 ← vget u 0
      let ggu ← putAll ggu [(0, 0, 1 - l * Real.exp u0)]
      let ggl ← vset ggl 0 (-Real.exp u0)
      ok (ggu, ggl, a))).unwrap
  ok (system, [0], 0, fun u => Real.exp (-u) * u, 0)

/-- `Samples::singular_initial_state` (/repo/russell_nonlin/src/samples.rs:309-343); `powf` of a negative number (NaN in general) is
outside of the model -/
noncomputable def singularInitialState (alpha perturbation : ℝ) : Res (Sys ℝ NoArgs × List ℝ × ℝ × (ℝ → ℝ) × NoArgs) := do
  let system ← (Sys.new 1 (some 1) Sym.no
    (fun gg l u a => do
      let u0 ← vget u 0
      let gg ← vset gg 0 (Real.rpow u0 alpha - l)
      ok (gg, a))
    (fun ggu ggl _l u a => do
      let u0 ← vget u 0
      let ggu ← putAll ggu [(0, 0, alpha * Real.rpow u0 (alpha - 1))]
      let ggl ← vset ggl 0 (-1)
      ok (ggu, ggl, a))).unwrap
  ok (system, [perturbation], 0, fun u => Real.rpow u alpha, 0)

/-- `SampleBsplineArgs` (/repo/russell_nonlin/src/samples.rs:10-16) -/
structure BsplineArgs where
  bspline : BsplineD ℝ
  coords : List ℝ

/-- `calc_gg` of `bspline_problem_1` (/repo/russell_nonlin/src/samples.rs:359-365) -/
noncomputable def bsplineGg : FnG ℝ BsplineArgs := fun gg l u args => do
  let t := min 1 (max 0 l)
  let (b, coords) ← args.bspline.toBspline.calcPoint args.coords t false
  let args := { args with bspline := { args.bspline with toBspline := b }, coords }
  let u0 ← vget u 0
  let c0 ← vget args.coords 0
  let gg ← vset gg 0 (u0 - c0)
  let u1 ← vget u 1
  let c1 ← vget args.coords 1
  let gg ← vset gg 1 (u1 - c1)
  ok (gg, args)

/-- `calc_jac` of `bspline_problem_1` (/repo/russell_nonlin/src/samples.rs:366-377) -/
noncomputable def bsplineJac : FnJ ℝ BsplineArgs := fun ggu ggl l _u args => do
  let ggu ← putAll ggu [(0, 0, 1), (1, 1, 1)]
  let t := min 1 (max 0 l)
  let b ← args.bspline.calcCurveDerivs t 1 false
  let coords ← b.getCurveDeriv args.coords 1
  let c0 ← vget coords 0
  let ggl ← vset ggl 0 (-c0)
  let c1 ← vget coords 1
  let ggl ← vset ggl 1 (-c1)
  ok (ggu, ggl, { bspline := b, coords })

/-- the knots and the control points of `bspline_problem_1` (/repo/russell_nonlin/src/samples.rs:382-395) -/
noncomputable def bsKnots : List ℝ := [0, 0, 0, 2 / 5, 3 / 5, 1, 1, 1]
noncomputable def bsControl (delta : ℝ) : List (List ℝ) := [[0, 0], [0.5, 1], [1.75, 1], [2 - delta, 0], [2.5, 0.5]]

/-- `Samples::bspline_problem_1` (/repo/russell_nonlin/src/samples.rs:348-403) -/
noncomputable def bsplineProblem1 (snap_back_delta : ℝ) : Res (Sys ℝ BsplineArgs × List ℝ × ℝ × BsplineArgs) := do
  let system ← (Sys.new 2 (some 2) Sym.no bsplineGg bsplineJac).unwrap
  let b ← (BsplineD.new 2 bsKnots).unwrap
  let b ← (b.setControlPoints (bsControl snap_back_delta) 2).unwrap
  ok (system, [0, 0], 0, ⟨b, [0, 0]⟩)

/-- `Samples::circle_ul` (/repo/russell_nonlin/src/samples.rs:408-436) -/
noncomputable def circleUl (radius : ℝ) : Res (Sys ℝ NoArgs × List ℝ × ℝ × NoArgs) := do
  let system ← (Sys.new 1 (some 1) Sym.no
    (fun gg l u a => do
      let u0 ← vget u 0
      let gg ← vset gg 0 (u0 * u0 + l * l - radius * radius)
      ok (gg, a))
    (fun ggu ggl l u a => do
      let u0 ← vget u 0
      let ggu ← putAll ggu [(0, 0, 2 * u0)]
      let ggl ← vset ggl 0 (2 * l)
      ok (ggu, ggl, a))).unwrap
  ok (system, [radius / Real.sqrt 2], radius / Real.sqrt 2, 0)

end Russell.Nonlin.Samples
