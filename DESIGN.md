# Formal model of russell: design

The subject is the pinned source in /repo (Rust workspace `russell`). The model is written in Lean 4 (4.33.0) with
Mathlib, under `lean/Verif/`. Nothing in /repo is built or run; the model is a transcription of the text.

## Trusted base

* Lean's kernel. Every theorem rests at most on Lean's three standard axioms `propext`, `Quot.sound`,
  `Classical.choice` (checked by `vcheck`). No own axioms, no `sorry`, no `native_decide`, no `bv_decide`.
* The transcription from Rust to Lean, function by function; every model definition cites file and lines.
* The semantics chosen for Rust primitives, all in `Verif/Prelude.lean`:
  * `Res` = `ok v | err msg | panic`. Out-of-range indexing, `unwrap` on an error, `assert!`, `to_i32` on a number
    that does not fit, `usize` underflow and `i32` overflow are `panic` (i.e. the debug-build semantics).
  * `Vec<T>`/slices are Lean lists with checked access. `for k in lo..hi` is `forRange`.
  * `while`/`loop` become either well-founded recursion (termination is then part of what is proved) or a step
    function with fuel where the Rust code has an iteration limit.
  * `slice::sort_by` is a stable merge sort (`List.mergeSort`).
* Numbers. `f64` values are modelled by an abstract type with the algebraic structure that each theorem states.
  Where a theorem holds for arbitrary (rounding) addition it is stated that way (conversions between sparse formats);
  elsewhere (`commutative semiring`, `ordered field`, `ℝ`) it is a statement about exact arithmetic and rounding is
  outside the model. Comparison-only code is modelled over a linear order, and over an order extended by NaN where NaN
  matters.

## Not modelled

External C/Fortran libraries (BLAS/LAPACK/MUMPS/UMFPACK/cuDSS), file system access, text formatting of numbers,
random sampling, wall-clock measurement, serde, rounding errors of `f64` (unless stated; `Verif/Ode/F64.lean` models rounding of normal numbers for evaluations), special functions computed by
rational approximations (Bessel, gamma, erf).

## Method

For each area: `Model.lean` (transcription), `Spec.lean` (small independent specification), `Lemmas*.lean`, and
`Props.lean` with the property theorems named `Cnn_...` and an `example` beside each one that meets its hypotheses.
When the code does not have the property as stated in `properties.jsonl`, the negation is proved on a concrete witness
(`Cnn_..._counterexample`) and the strongest true version is proved as `Cnn_..._partial`.
`seeded/LOG.jsonl` records mutations of the model and the theorems that caught them.

## Plan per property

* C01, C02 COO: model `put`/`reset`/`to_dense` on the arrays including stale tails; invariant over histories
  (list of operations), `dense` specified as an ordered sum over the accepted entries.
* C03, C05, C06 CSR: literal model of `update_from_coo` (count, prefix sum, scatter, in-place duplicate summation with a
  reused workspace, sort, compress); loop invariants give a closed form (row lists, first-occurrence duplicate merge,
  sorted by column) from which everything follows; independence of the workspace is by quantifying over its content.
* C04, C05, C06 CSC: the same with the second counting pass.
* C07, C08: the counting transposition; invariant on destinations; round trip by stability of the counting sort.
* C09: fold of `v[i] += alpha*a*u[j]` equals a finite sum over entries; compared with `Matrix.mulVec` of the dense form.
* C10, C11, C12: from C01/C02 by induction on the put loop.
* C13: model of the validation loop, acceptance theorem, counterexamples for the panic and the unchecked first pointer.
* C14, C15, C57: model of writer and reader on characters (`Verif/Text.lean`: lines, words, integers); previously planned as a token-level model of writer and reader (number formatting is an abstract injective token function).
* C16: model over an ordered field.
* C17: function as an abstract callback with error; affine case over a field.
* C18: state machine of the Rust side of the solver front-ends, external calls abstract.
* C19, C20, C21, C22: linear orders, induction; comparator of argsort shown to be a total preorder, sort by mergeSort.
* C23, C24, C25: index arithmetic.
* C26, C27: fields; 1..3 by ring identities, Gauss-Jordan by an invariant on the augmented matrix.
* C28: selection sort invariant.
* C29, C30: induction on unrolling; table checked against `Nat.factorial`.
* C31, C32: polynomials over a field / real trigonometric identities.
* C33: binary search invariant; Cox-de Boor triangle invariant.
* C34: Lagrange basis from Mathlib; barycentric form; numbers are reals extended with one infinity and NaN (`Ext`), because `psi` divides
  by zero at nodes and uses the infinity.
* C35, C36, C37: step functions with invariants over an ordered field; for ℝ the intermediate value theorem.
* C38: real radicals/trigonometric identities.
* C39: completing the square over an ordered field.
* C40: fold over the lines of a text (characters); the table is a function from labels to columns.
* C41-C44: binary search invariant; interpolation inequalities over an ordered field with floor; sums.
* C45-C47: induction over call histories.
* C48, C49: stencil sums; linear algebra with blocks; discrete maximum principle for uniqueness.
* C55: second differences of quadratics are exact; uniqueness.
* C50, C58: the method is an arbitrary `Stepper` (the operations of `OdeSolverTrait`) with `Stepper.Regular`; invariant over the turns of
  the loops of `solve`; the reports are compared with a list of accepted steps. Callback calls and files are collected in ghost fields.
* C59, C61, C62: `erk` is a `Stepper`; the stages held by it are described by an invariant (`ErkRelation`), so that the steps of `solve`
  are those of the tableau. The tableaux are lists of rationals with the digits of constants.rs.
* C64: lists of calls; the counters by induction.
* C60, C63: B-series. Rooted trees, elementary weights, order conditions computed over ℚ by the kernel (`decide +kernel`, no
  compiled code) for all trees up to the order; the Taylor polynomial of a step is a sum over trees with elementary differentials that do
  not depend on the method; the solution is the unique formal power series (and over ℝ any differentiable solution has that expansion).
* C65-C68: tensors over ℝ. The specification is the matrix `Tensor2.std = Σ vec_m E_m` over an explicit orthonormal basis `E`; each
  function is compared with the matrix operation of Mathlib. Polynomial identities with √2 by `kelvin`. Derivatives along curves.
* C69-C70: fourth order tensors likewise: `Tensor4.std = Σ mat_mn E_m ⊗ E_n` is an array with four indices and each function is compared
  with the index expression of its documentation; constants and inverse by their action (`contr`) on every matrix.
* C71: `IsGradT` (derivative of a matrix-valued function along curves) and `IsHess` (there is a gradient around the tensor and the result is its
  derivative). The buffers of the auxiliary structures are arbitrary except for the constants made by `new` (`AuxJ3.Ok`, ...).
* C72: objects reachable by `new` and setters (`Reach`); invariant on the coefficients that `calc_rigidity` does not set.
* C73: third order tensors likewise (`Tensor3.std`), for both positions of the pair of indices.
* C74: the symmetric matrix `sym` with diagonal `l` and the upper triangle of `a`; a rotation is an orthogonal similarity but for an error matrix
  that is zero unless the branch for nearly equal diagonal elements is taken (then of norm within the tolerance); invariant
  `A = V sym Vᵀ + E`, `‖E‖ ≤ (number of rotations) tol`. Eigenvalues by the bound of Bauer and Fike for symmetric matrices.
* C75: projectors are `v vᵀ` for the columns of an orthogonal matrix.
* C76: the driver `solve` is modelled over an arbitrary stepping method (`Method`: init, step, accept, reject) of which only `Keeps` (the counters
  of the driver are left alone) is assumed; an arbitrary invariant `J` of the method and relation `R` between accepted points are carried
  along (`Guide`), so that the results of C77 and C78 follow from one induction over the loop.
* C77: `NatStep` relates consecutive accepted points (Newton iteration converged, λ moved as chosen, target not passed).
* C78: `ArcStep` relates consecutive accepted points (unit tangent of derivatives evaluated during the run, arclength constraint and residual
  within tolerance); corrections by bordering are compared with the augmented linear system, for exact linear solvers.
* C79: the trial steps are the powers of ρ; for differentiable functions by the limit of the difference quotient.
* C80: `NwPath`: the points visited are linked by `NwStep` (direction from the linear system, full step or first sufficient decrease); the outcome
  of `solve` is described by `NwOutcome` for all ways of ending.
* C81: `Expands` (polynomial plus remainder) turns each formula into a linear combination of remainders; polynomials by Taylor shift. `Lab/VecDeriv.lean`: the vector versions.
* C82: `BwPath` (the Newton iterates) and `BwSolved` (residual within tolerance); `solve` through the contract of C58.
* C83: `Params` over ℝ; validation is compared with `Params.Ranges`, a plain list of inequalities; `toErk`, `toBw`, `toRadau`, `toSolve`
  project to the parameter records of the methods (C58-C61, C82, C85); `h_times_rho_max` is an option (`none`: negative infinity).
* C84: the constants of radau5.rs are rational numbers (the decimals as written) compared with the algebraic ones; `RdNewton` is the
  simplified Newton step of the transformed equations, `rdResidual` their residual.
* C85: `RdRun` (outcome of the iterations), `RdEstimate` (error estimate), `RdReady` (what holds between steps); `solve` through the
  contract of C58, which also tells that accepted steps are not flagged as diverging. The cases are in `RadauCases`.
* C86: ghost list `D` of accepted dyadic intervals; `Inv` relates it to the level stacks (`Geo`, `pend`, `doneSum`), the estimates are
  over `Chain`s from `a` to `b`. Moments of the tables are computed over ℚ; polynomials by linearity and the shifted binomial sum.
* C87: discrete orthogonality of the cosines (`Cheb.ortho`) gives `series_node`; `Interp` is stated with a polynomial and the nodes
  only; `Trailing` defines the trailing coefficient through the interpolating polynomial.
* C88: `charmatrix_row` (the Chebyshev polynomials are annihilated by all rows of X − A but the last) and the adjugate give the
  characteristic polynomial; `Found` and `Refined` state the outcomes with the polynomial and the Newton iterates only. LAPACK's
  eigenvalue routine is a parameter with the contract `EigContract`.
* C89: cofactor formulas by `fin_cases`/`field_simp` up to order three; from order four on the contract of dgetrf (P·A = L·U with the
  interchanges given by the pivots) and the sign of the product of transpositions; dgetri by contract.
* C90: `finish_spec` reduces the coefficients to C89; the Laplacian follows from the second derivative of a composition (`HasFDerivAt.clm_comp`)
  and the symmetry of second derivatives.
* C91: `HasDerivAt` of the blending formula term by term; the triangulation by an explicit list of the cells.
* C92: every derivative is a combination of eight functions plus a linear part (`lin8`); the formulas are compared by `ring`.
* C93: the assembly (`Spc.lean`) is shared by all collocation solvers: rows `V`, right-hand sides `R`, prescribed values `D`; both systems are
  equivalent to `IsColl`. The differentiation matrices act on nodal values of polynomials as derivatives (C34), so `IsColl` is the
  collocation problem for polynomials; uniqueness for zero data gives existence by counting dimensions.
* C94: as C93 with polynomials in two variables (`BiPoly`). Unique solvability with prescribed values (also C93 with `α ≥ 0`) by an energy
  argument (`SpcEnergy.lean`): with `p = (1 - x²) q`, `-p p'' = (x q - (1 - x²) q')² + q²/2 + (x r - (1 - x²) r')`, and the last term sums to
  zero over the nodes with the trapezoidal weights.
* C95: the calculus of the mapping is in `MapCalc.lean`: the transfinite mapping is twice differentiable with the derivatives that
  `point_and_derivs` computes, C90 turns the metric coefficients into gradient and Laplacian of the function on the physical domain, whose
  existence near a regular node is the inverse function theorem. Rows: `SpcMap2dRows.lean`; theorems: `SpcMap2dProps.lean`.
* C96: the samples are modelled with their callbacks (`Ode/Samples.lean`); Jacobians are compared with Fréchet derivatives, solutions are unique by
  Gronwall's inequality (Mathlib's `ODE_solution_unique`), invariants follow from the mean value theorem. The Brusselator with diffusion
  (`Ode/SamplesPde.lean`) uses the finite difference model of C48.
* C97: the sample mappings (`Pde/TransfiniteSamples.lean`) are compared with closed forms; derivatives through `deriv` of these, bijectivity of the rings.
* C98: the sample problems (`Pde/ProblemSamples*.lean`) are checked against the definition of a classical solution; uniqueness from the maximum principle of `Pde/MaxPrinciple.lean`; problem 4 with an error bound of the truncated series.
* C99: the triangular tables of `ders_basis_funs` (`Lab/BsplineDeriv.lean`) are related to the derivatives of the polynomial pieces of the B-splines; both curve algorithms against the same polynomial.
* C100: the sample problems of russell_nonlin (`Nonlin/Samples.lean`, `Nonlin/SamplesProps.lean`): function, matrix and λ-derivative of every problem against calculus; `check_ggu` via the error bound of the numerical Jacobian (C81).
* C101: dense products and norms (`Lab/BlasOps.lean`, `Lab/DenseNorms.lean`): the BLAS and LAPACK kernels by contract (column-major, leading dimension, flags), then each wrapper against the sum formula.
* C102: LAPACK wrappers (`Lab/Lapack.lean`, `Lab/LapackEigen.lean`, `Lab/LapackMore.lean`, `Lab/PseudoInverse.lean`, `Lab/LapackExamples.lean`): LAPACK by contract with an arbitrary numerical part; expansion of conjugate pairs by induction over the columns; the pseudo-inverse through Mathlib's matrices (Penrose's equations, uniqueness); positive definiteness from the triangular factor.
* C103: f64 as bit patterns (`Lab/Ieee.lean`): fields, value in units of 2^-1074, rounding to nearest even; `float_split`, `float_decompose`, `float_compose`, `modulo` on the patterns.
* C104: the comparison functions of the tests on bit patterns (`Lab/Checks.lean`): monotone rounding, no false alarm, exact acceptance condition.
* C105: text output of russell_lab (`Lab/Durations.lean`, `Lab/CodeText.lean`): durations, scientific notation, matrices as program text, VisMatrix, mesh grids.
* C106: options, error messages and statistics of the linear solvers, complex COO matrices from real ones (`Sparse/Options.lean`,
  `Sparse/Stats.lean`, `Sparse/ComplexCoo.lean`)
* C107, C108: elliptic integrals of the first, second and third kind (`Lab/CarlsonDup.lean`, `Lab/CarlsonSeries.lean`, `Lab/CarlsonLoop.lean`,
  `Lab/CarlsonConv.lean`, `Lab/Elliptic.lean`, `Lab/CarlsonRJ.lean`, `Lab/EllipticPi.lean`). The iterations are modelled over ℝ with exact `sqrt`, `sin` and
  `cos`; the constants `f64::EPSILON`, `MIN_POSITIVE` and `MAX` keep their values. Proved: the duplication theorems, an explicit error bound of the truncated
  series, a bound on the number of iterations, and the reduction of Legendre's integrals to Carlson's. Rounding errors are not covered.
* C109, C110: Bessel functions of integer order (`Lab/Bessel.lean`, `Lab/BesselMod.lean`, `Lab/BesselK.lean`, `Lab/BesselPos.lean`, `Lab/BesselJn.lean`):
  power series and integral as specification; Miller's recurrence, continued fraction, forward and backward recurrences of the code in exact arithmetic;
  the rational approximations of orders 0 and 1 are parameters.
* C111, C112: gamma and its logarithm (`Lab/Stirling.lean`, `Lab/Bernstein.lean`, `Lab/GammaCore.lean`, `Lab/GammaTv.lean`, `Lab/GammaStir.lean`,
  `Lab/Gamma.lean`, `Lab/LnGammaCore.lean`, `Lab/LnGamma.lean`): specification is Mathlib's `Real.Gamma`. Stirling's series is bounded from both sides; the minimax
  approximations are compared with it through the second differences and certified piecewise by Bernstein coefficients of integer polynomials (`decide +kernel`).
* C113: the beta function (`Lab/BetaAsy.lean`, `Lab/Beta.lean`) on top of the models of C111 and C112; the recursion of the negative integers has a depth bound which is
  proved irrelevant.
* C114: dense linear systems and the complex inverse (`Lab/SolveLinSys.lean`) on top of the factors of C89 and the arrays of C102; `gesv` is a parameter with
  its published contract.
* C115: error function and complement (`Lab/ErfBasic`, `ErfTail`, `ErfcTail`, `ErfCore`, `Erf`): real-number model, accuracy against the integral
  in every branch, underflow threshold, symmetry, ranges.
* C116: inverse of the error function (`Lab/ErfInvCore.lean`, `Lab/ErfInvAcc.lean`, `Lab/ErfInv.lean`). The logarithm of the derivative of
  `erf(approximation)` is bounded through its total variation, so the stated bounds (2.4e-13 and 4.7e-14) are larger than the true errors.
* C117: Bessel functions J0 and J1 (`Lab/BesselOde.lean`, `Lab/BesselAsy.lean`, `Lab/BesselAcc.lean`, `Lab/Bessel01.lean`). For x ≥ 2 no asymptotic
  expansion is assumed: the residuals of the approximations in `J₀' = -J₁`, `J₁' = J₀ - J₁/x` are bounded on the four ranges, the values are compared
  at 2, and an energy estimate carries the error to all larger arguments. The bound 2e-14/√x is larger than the true error.
* C118: Bessel functions Y0 and Y1 (`Lab/EulerGamma.lean`, `Lab/BesselYOde.lean`, `Lab/BesselYSer.lean`, `Lab/BesselY01.lean`, `Lab/BesselNAcc.lean`).
  `Yₙ` is defined by its series with logarithm for n = 0, 1 and by the recurrence for larger n. The differential equations and the Wronskian are proved
  from the series. For x ≥ 2 the energy argument of C117 is used. `Lab/BesselNAcc.lean` inserts the models of `bessel_j0` … `bessel_y1` into the
  recurrences of C110 and bounds the error for all orders.
* C119: modified Bessel functions I0 and I1 (`Lab/BesselIOde.lean`, `Lab/BesselI01.lean`). Below 15 the quotients are compared with 36 terms of the
  series. From 15 on, `√x e⁻ˣ Iₙ(x)` satisfies a damped linear equation; the residual of the approximation in it is bounded as a rational function of
  1/x, and the difference at 15 is carried to all larger arguments. `bessel_i0(±Inf)` and `bessel_i1(±Inf)` are evaluated by hand in the model.
* C120: `Lab/BesselKOde.lean` (differential equations and limits of the scaled `K₀`, `K₁` from the integral; damping lemma), `Lab/BesselKLarge.lean` (model; approximation above 1), `Lab/BesselKSmall.lean` (approximation up to 1; error followed by Wronskians from 1 to the left), `Lab/BesselK01.lean` (claims; orders n from the computed values).
* C121: `Sparse/LinSolver.lean` (`compute` on the front-ends of C18; soundness of the three libraries is a hypothesis about the arrays handed over, in exact arithmetic; `new` returning an error for lack of memory is not modelled; `C121_ideal` shows that the hypotheses can be met and that `compute` then solves every solvable system).
* C122: `Lab/Stopwatch.lean` (the readings of the clock are inputs; sequences of calls).
* C123: `Nonlin/Logger.lean` (what is printed, the buffer and the file as state; formats of numbers and outcomes of file operations are inputs). `C123_columns`: columns are counted as a terminal shows them, with two for an icon.
* C56: maxima and sums by loop invariants; the BLAS kernels by definition.


## Modelling conventions added on the way

* Fixed-size arrays (`[[f64; N]; N]`, work matrices of known size) are functions `Nat → Nat → α` with checked access
  (`Arr2`, `Arr1`); contents before the first write are arbitrary.
* A Rust callback `FnMut(f64, &mut A) -> Result<f64, _>` is `Callback α A := α → A → Res (α × A)`. `Evaluates f g D` says
  that on the domain `D` it returns `g x` and records `x`; outside of `D` it may do anything (also panic). A theorem with
  a smaller `D` therefore proves that only points of `D` are evaluated.
* Loops with `break` and an iteration limit are recursion on the remaining iterations. `while` loops get fuel whose
  exhaustion is `panic`; the theorem that the function does not panic is then the termination proof.
* The linear solver called by the finite difference method is a parameter `Coo → List → Res List` with the contract `Solves`: a returned
  vector solves the system. Theorems about `solve_sps`/`solve_lmm` hold for every such solver.
* A call history is a list of operations (`EOp`, `EOp1`, …) run in order; "side s has an essential condition" is stated on the list
  (`Ess`, `Per`), not on the fields.

* russell_nonlin: f64 is ℝ with a predicate `fin` deciding which numbers are finite (arbitrary); a NaN stepsize (power of a negative number)
  is an error. The sparse linear solver is a parameter (`LinSol`: factorize, solve), exact where stated. Logging, stopwatch and the writing of
  matrix files are left out (the errors around the latter are kept). User functions thread a state `A` and may fail.
* Tensors: f64 is ℝ and the decimal constants (SQRT_2, SQRT_3, ...) are the exact roots. The default build without the feature `heap` is
  modelled, where the array has nine components for every representation; those beyond the dimension are kept as they were.
* Fourth order tensors: as above with 9×9 coefficients; the hand-expanded products of operations_mix2.rs were translated entry by entry, and
  both the expanded and the `use_loops` versions are modelled.

## Where the code differs from what it should do

Each of these is a theorem (`..._counterexample`, or an explicit clause of a theorem) unless marked *(read)*.

* `small_mat_inv`: documented to overwrite only the leading n×n block of the result, but it interchanges whole rows (C26).
  The inverse inside the block is right.
* CSR/CSC `new`: pointers beyond the index array panic; a first pointer different from zero is accepted (C06, C08, C13).
* `NumMatrix::get/set`: a row index out of range aliases another entry of the array (C23).
* `sort_vec_mat`: for n = 0 the loop bound underflows (C28).
* `MinBracketing`: the documented strict inequality fails for equal probes (C36).
* `solve_cubic`: inside the cut-off on the discriminant the returned values are not roots (C38).
* `Bspline::calc_basis`: for unclamped knots values below the first parametric knot are accepted and extrapolated (C33).
* `Histogram::count`: NaN is counted in the first bin (C41).
* `Frechet`/`Lognormal`: density and distribution function are cut to zero below 1e-15, so the distribution function jumps there
  (C54 states the derivative away from the cut-off).
* `NaturalBcs2d::enabled_ij`: the branches for corners are unreachable, so a corner is enabled by its x side only (C47).
* `EssentialBcs1d::set`/`NaturalBcs1d::set` with a y side panic (C47).
* Matrix Market writer for complex matrices: the loop that writes tests `|im| < tol` where the loop that counts tests `|im| > tol`
  (C57); a matrix without kept entries is written but not accepted by the reader (C14).
* Matrix Market reader: panics without a line of dimensions, for the index i32::MIN, for an entry above the diagonal of a symmetric
  file, and for 2³⁰ entries with `MakeItFull`; Hermitian files are read as general ones (C15).
* `InterpLagrange::eval_deriv1/2`: x = -1 and x = 1 are taken as the first and last nodes for every grid, which is wrong for the
  Chebyshev-Gauss grid (C34). Closer than 2.2e-15 to a node the value is that at the node.
* `read_table`: with given labels, header columns missing at the end are not noticed; duplicate given labels merge columns; without labels
  the first row is the header although documented otherwise ("col0", ...) (C40).
* FDM `solve_sps`: no prescribed or no unknown equation panics (C48).
* FDM periodic conditions: the two ends of the line are different unknowns one spacing apart, so ϕ(xmin) = ϕ(xmax) is not enforced
  although documented (C55).
* `Fdm2d::get_vectors_*`: with one direction periodic the outflow at the corner nodes is halved and should not be (C55).
* ODE `set_dense_h_out` drops the last interior station when the step does not divide the interval (an `example` in Stations.lean); a step
  up to 1e-13 gives stations that do not increase (C50).
* ODE `solve`: when `n_step_max` is used up and stations are pending, the assertion in `Output::last` fails instead of the error being
  returned; the same for a station within 10 ε of x1 (C50). Reaching x1 exactly with the last step allowed is an error (C58).
* ODE `solve` with equal steps: in f64 the number of steps is computed from the rounded stepsize and may be one too many, so that the
  solution overshoots x1 by a whole step, e.g. [0, 1] with h_equal = 0.0205 (C58).
* ODE `Method::information`: the order of the estimator of Fehlberg7 is given as 8; it is min(7, 8) = 7 (C63).
* ODE dense output of DoPri8: where the right-hand side at the end of the step belongs, the stage k[11] is used, so the interpolated
  solution has kinks at the stations and loses order (C62).
* ODE `ExplicitRungeKutta::update_params` does not recompute the bounds of the stepsize and the exponent derived from the parameters by
  `new` (C61).
* ODE output: the numbers of the files are not reset for a second solution *(read)*.
* `Tensor2::to_std_matrix`: in 2D the out-of-plane entries of the given matrix are not cleared (C65). `sym_set_std` of an out-of-plane
  component of a 2D tensor has no effect in the default build (C65).
* `Tensor2::decompose`: the skew components of a given general `sym` are kept, so the result is symmetric only if they were zero (C66).
* `t1_dyad_t1` into a 2D tensor ignores the third components (C66).
* `invariant_sigma_t` is not √(2 J2) for non-symmetric tensors (C67).
* `Tensor4::to_std_array`: in 2D the out-of-plane entries of the given array are not cleared; `Tensor4::sym_set_std` of an out-of-plane
  component of a 2D tensor is accepted without effect in the default build (C69).
* `Tensor3::to_std_array` and `Tensor3::sym_set_std`: the same as for `Tensor4` in 2D (C73).
* `mat_eigen_sym_jacobi`: the tolerance 1e-15 is absolute: a matrix with elements below it is returned as if it were diagonal (C74).
* `LinElasticity::calc_compliance` returns an error for a mismatching representation where the documentation says panic; the tolerance 1e-15 of
  the inverse is absolute, so that E = 1e-15 (in some unit) is refused (C72).
* `small_mat_inv` for n >= 4 likewise refuses any matrix whose first column is within the tolerance (C26).
* russell_nonlin `solve`: Success is returned also when n_step_max steps were made without meeting the criterion; Stop::Steps(n) counts attempted
  steps and is missed when the n-th step is rejected; Rejection states are documented as results but never returned; after a precise stop
  the failure status of the last step is hidden; the trial state of the last failed step is not restored; `m_failure >= 1` validates; the PID
  controller cuts the stepsize by 1 - π/4 after a tiny change; with beta3 < 0 the stepsize may become NaN (C76).
* russell_nonlin natural method: a direction away from the target is not noticed; files are written at the first Jacobian for any positive nstep
  (C77). The Euler predictor's linear solution is not counted, and the first Jacobian is evaluated at (u0, λ1) *(read)*.
* russell_nonlin arclength method (C78): after a step with corrections the tangent vector belongs to the derivatives of the last correction,
  not to the accepted point; a step targeting a prescribed λ is predicted at l + 4 (l1 − l)(dλ/ds)²; θ = 0 is never reset during a run;
  a rejected step keeps the tangent vector of the rejected point; without bordering the option to write the matrix panics.
* russell_nonlin *(read)*: Stop::MaxNormU is not compared with the initial norm; with debug_predictor a rejection after a failed secondary
  update of the first predictor pops from an empty vector; disabling the analysis of the corrections also disables LargeDelta.
* russell_nonlin `check_ggu` evaluates the numerical derivative at λ = 0 instead of the given λ *(read)*.
* `NewtonSolver::solve`: the residual after the last allowed iteration is not examined, so with n iterations at most n - 1 steps can lead to
  success; a line search without sufficient decrease in twenty trials is accepted silently (C80).
* `num_jacobian`: documented to panic when the function fails, but it returns the error (C81).
* `BwEuler` with the modified Newton method: if the first step needs no iteration nothing is factorized and the next step fails with "the
  function factorize must be called before solve"; the residual after the last allowed iteration is not examined (C82).
* `Radau5` with equal steps accepts a step whose iterations have been flagged as diverging; a second call of `solve` starts with the
  Jacobian matrix of the first one (the flag survives); the last step, shortened to reach `x1`, may use matrices factorized for
  another stepsize; `m_max < 1` is accepted by the parameters and a rejected step is then repeated with a larger stepsize (C85).
* `Quadrature::integrate` with bounds that agree to about 47 binary digits: `n_bit - nib - 7` underflows before the check `lmx < 1`
  (C86).
* `InterpChebyshev`: `get_xy_data` after constant data returns `xb` and a value that was never set; the adaptive degree
  stops at a wrong polynomial when two consecutive trailing coefficients vanish; a failed `set_function` or `adapt_function` leaves a
  ready object with mixed data; an error of the function in the last step of `adapt_function` panics (C87).
* `RootFinder::chebyshev` with degree one does not move the root to the interval; `refine` accepts a point with vanishing derivative
  as a root and may leave the interval (C88).
* `mat_inverse` compares the determinant with the absolute tolerance 1e-15 up to order three, and refuses well-conditioned matrices with
  small entries (C89).
* `Metrics` refuses mappings with a squared Jacobian determinant up to 1e-15, e.g. squares of side 2e-4; `ell_coefficient_for_laplacian`
  panics exactly where its documentation asks for it to be used; second derivatives of wrong dimensions are accepted (C90).
* `Transfinite2d` accepts boundary curves that do not meet, and reports zero pure second derivatives of curved boundaries if the second
  derivatives of the curves are not given (C91).
* `Transfinite3d` accepts boundaries that do not meet, and reports wrong mixed second derivatives if the second derivatives of the
  boundaries are not given (C92).
* `SpcMap2d` with natural conditions on a side that the grid lines do not cross at a right angle imposes the flow along the grid line (scaled)
  instead of the normal flow: the term of the derivative along the side is missing (C95). It also panics (`unwrap`) where the mapping is singular.
* `Samples::brusselator_pde` with `second_book` treats the values at opposite sides as separate unknowns, so that the documented
  `v(t, 0, y) = v(t, 1, y)` holds at `t = 0` only (C96).
* `TransfiniteSamples::quarter_perforated_lozenge_2d` accepts a lozenge that cuts the circle (`a < b ≤ √2 a`); the mapping is then folded (C97).
* `ProblemSamples::d2_problem_04` documents `ana_nsum` as the number of terms; the loop adds `ana_nsum / 2` terms, none for 1 (C98).
* `Bspline`: the arrays of `calc_curve_derivs` keep the dimension of the first control points (panic for a larger one); `get_curve_deriv` returns stale values above the last order; `calc_curve_derivs` does not update the span used by `get_basis` (C99).
* `System::check_ggu` (russell_nonlin) compares the matrix at `l_at` with the numerical derivative at λ = 0 and panics instead of returning an error; `bspline_problem_1` returns a nonzero λ-derivative outside of [0, 1] (C100).
* `mat_mat_mul`, `mat_t_mat_mul`, `mat_vec_mul_update` with an empty inner dimension give 0 instead of `β c`, `β v`; `mat_sym_rank_op`, `complex_mat_herm_rank_op`, `vec_outer` pass a leading dimension of zero (illegal for BLAS) if the matrix has no rows (C101).
* `complex_mat_gen_eigen_lr` passes `C_FALSE` for the left eigenvectors, so `u` is never computed (C102).
* `mat_gen_eigen`, `mat_gen_eigen_lr` return the compact form of LAPACK: for a complex pair the columns of `v` are not the documented eigenvectors (C102).
* `mat_pseudo_inverse` drops singular values up to `1e-15` times the largest, so `a ai a = a` fails for `diag(1, 1e-16)`; it refuses `0 × n` matrices (C102).
* `approx_eq` and its relatives accept every pair of finite numbers if the tolerance is NaN (C104).
* `vec_fmt_scientific` panics if a component is not finite (its text has no `e`); `mat_to_numpy`, `mat_to_mathematica`, `mat_to_static_array` write unbalanced brackets for matrices without rows or columns, `vec_to_static_array` a lone comma for the empty vector (C105).
* `Ordering::from` has no entry for `BtfColamd`: the name selects `Auto` (C106).
* `is_memory_error` claims to cover all solvers but does not recognise the failed workspace allocations of MUMPS, codes -5, -7, -13, -78
  (C106).
* `elliptic_f` and `elliptic_pi` return `Inf` for `m sin²φ = 1` with `φ < π/2`, where the integrals converge, and for `m sin²φ` within `10ε` of 1 (C107, C108).
* `bessel_jn(n, x)` for `n > x` is normalised by `bessel_j0(x)`: at a zero of `J₀` it returns 0 although `Jₙ(x) > 0` (C110).
* `bessel_kn` with a negative order (not documented) returns `K₁` (C109).
* `ln_gamma` switches to the polynomial around 1 at `Y_MIN - 0.27` where its comments (and the original `lgamma`) have `Y_MIN - 0.23`: errors up to 5e-15 for x in
  [0.1916, 0.2316) and [1.1916, 1.2316) (C112).
* `ln_beta` multiplies the logarithm by the sign of Γ(b) in the asymptotic branch (wrong sign at (2e6, -0.5)) and returns -Inf for |B| < 10ε; `beta(-1, -2)` and
  `beta(-2, -1)` are infinities of opposite signs (C113).
* `complex_mat_inverse` refuses regular matrices of order at most three whose determinant is at most 1e-15 in modulus, as `mat_inverse` does (C114).
* `erfc_inv(x)` is `erf_inv(1 - x)`: every positive `x` up to `2^-54` gives `+Inf`, although the documentation reserves it for `x = 0`
  (`C116_erfc_inv_small_counterexample`).
* `bessel_i0(±Inf)` and `bessel_i1(±Inf)` return NaN (an infinite factor times a zero one); the limits are infinite. The documentation is silent.
* `float_split(±Inf)` returns (±Inf, ±0), the documentation announces (±Inf, NaN) (C103).
* `float_compose` adds exponents in `i32` without care: `float_compose(2.0, i32::MAX)` overflows instead of giving infinity (C103).
* `i_pow_n(i32::MIN)` and `x_times_i_pow_n(x, i32::MIN)` overflow at `-n` (C103).
* `Spc2d::solve_sps` panics on problems that `validate` accepts if no side is essential, or all nodes carry values (C94).
* `Spc1d::solve_sps` panics on problems that `validate` accepts if flows are prescribed on both ends, or two nodes carry values (C93).
* A Newton tolerance given to `Params::set_tolerances` is not checked; `m_min = 0.5` passes although the message requires `m_min < 0.5` (C83).
* `numerical_jacobian`: when the function fails the perturbed component of `y` is not restored (C17).
* `VerifyLinSys`: `max_abs_a` is the largest triplet, not the largest entry, so with duplicates the relative error is off; a complex
  solution with NaN is reported with zero error because the comparison with NaN is false (C16).
* Sparse solvers, after a failed re-factorization: `factorized` stays true and `solve` is forwarded to the library (C18).
* `SolverMUMPS`: a second `factorize` passes nothing of the matrix to MUMPS, which reads the array of values of the *first* matrix
  object; with another object the old matrix is factorized again, with a dropped one the pointer dangles. The number of columns is not
  compared (C18).
* `SolverCUDSS`: a second `factorize` copies the values only; with other positions (same number of entries) another matrix is
  factorized (C18).
* Re-factorization uses the default parameters, so `compute_determinant` etc. of the first call are dropped (visible in C18).
