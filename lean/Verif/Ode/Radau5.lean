import Verif.Ode.BwEuler
import Mathlib.Data.Complex.Basic

/-!
# Model of the Radau IIA method of order 5 (C84, C85)

Model of russell_ode/src/radau5.rs. The work vectors that are written before they are read (`v*`, `k*`, `w*`, `dw*`, the
matrices `K`) are local variables here. The matrix files written with `write_matrix_after_nstep_and_stop` are left out, but
not the error returned afterwards. Messages of the debug mode and stopwatches are left out. A Jacobian or mass matrix in
triangular storage is represented by the full matrix.
-/

namespace Russell.Ode

open Russell Russell.Res
open Russell.Nonlin (Vec LinSol)

variable {n : Nat} {A : Type}

/-- a sparse direct solver for complex matrices: factorization and solution; the factors are opaque -/
structure CLinSol (m : Nat) where
  F : Type
  factorize : Matrix (Fin m) (Fin m) ℂ → Res F
  solve : F → (Fin m → ℂ) → Res (Fin m → ℂ)

/-- what is assumed of a solver: the returned vectors solve the linear system -/
def CLinSol.Exact {m : Nat} (C : CLinSol m) : Prop :=
  ∀ M f, C.factorize M = ok f → ∀ b x, C.solve f b = ok x → M.mulVec x = b

/-- `solve`, refused when nothing has been factorized (e.g. /repo/russell_sparse/src/complex_solver_umfpack.rs) -/
def CLinSol.run {m : Nat} (C : CLinSol m) (f : Option C.F) (b : Fin m → ℂ) : Res (Fin m → ℂ) :=
  match f with
  | none => err "the function factorize must be called before solve"
  | some f => C.solve f b

/-! ### Constants (/repo/russell_ode/src/radau5.rs:695-725) -/

namespace Rd

noncomputable def ALPHA : ℝ := 2.6810828736277521338957907432111121010270319565630
noncomputable def BETA : ℝ := 3.0504301992474105694263776247875679044407041991795
noncomputable def GAMMA : ℝ := 3.6378342527444957322084185135777757979459360868739
noncomputable def E0 : ℝ := -2.7623054547485993983499285952820549558040707846130
noncomputable def E1 : ℝ := 0.37993559825272887786874736408712686858426119657697
noncomputable def E2 : ℝ := -0.091629609865225789249276201199804926431531138001387
noncomputable def MU1 : ℝ := 0.15505102572168219018027159252941086080340525193433
noncomputable def MU2 : ℝ := 0.64494897427831780981972840747058913919659474806567
noncomputable def MU3 : ℝ := -0.84494897427831780981972840747058913919659474806567
noncomputable def MU4 : ℝ := -0.35505102572168219018027159252941086080340525193433
noncomputable def MU5 : ℝ := -0.48989794855663561963945681494117827839318949613133

/-- `SQRT_6` (/repo/russell_lab/src/math/constants.rs:24-26) -/
noncomputable def SQRT_6 : ℝ :=
  2.44948974278317809819728407470589139196594748065667012843269256725096037745731502653985943310464023

noncomputable def C : Fin 3 → ℝ := ![(4.0 - SQRT_6) / 10.0, (4.0 + SQRT_6) / 10.0, 1.0]

noncomputable def T : Fin 3 → Fin 3 → ℝ := ![
  ![9.1232394870892942792e-02, -0.14125529502095420843, -3.0029194105147424492e-02],
  ![0.24171793270710701896, 0.20412935229379993199, 0.38294211275726193779],
  ![0.96604818261509293619, 1.0, 0.0]]

noncomputable def TI : Fin 3 → Fin 3 → ℝ := ![
  ![4.3255798900631553510, 0.33919925181580986954, 0.54177053993587487119],
  ![-4.1787185915519047273, -0.32768282076106238708, 0.47662355450055045196],
  ![-0.50287263494578687595, 2.5719269498556054292, -0.59603920482822492497]]

end Rd

/-- the parameters read by `Radau5` (/repo/russell_ode/src/params.rs); `concurrent` is `radau5.concurrent && newton.genie !=
Genie::Mumps` (/repo/russell_ode/src/radau5.rs:343) -/
structure RdParams where
  tol_abs : ℝ
  tol_rel : ℝ
  tol_newton : ℝ
  n_iteration_max : Nat
  use_numerical_jacobian : Bool
  write_matrix_after_nstep_and_stop : Option Nat
  m_min : ℝ
  m_max : ℝ
  m_safety : ℝ
  zero_trial : Bool
  theta_max : ℝ
  c1h : ℝ
  c2h : ℝ
  concurrent : Bool
  use_pred_control : Bool

/-- three vectors, one for each stage -/
abbrev Stages (n : Nat) := Fin 3 → Vec n

/-- `Radau5` (/repo/russell_ode/src/radau5.rs:28-120): what is kept between the calls; `fr` and `fc` are the factors held by
the linear solvers -/
structure Radau (n : Nat) (F G : Type) where
  jj : Matrix (Fin n) (Fin n) ℝ
  fr : Option F
  fc : Option G
  reuse_jacobian : Bool
  reuse_jacobian_kk_and_fact : Bool
  jacobian_computed : Bool
  eta : ℝ
  theta : ℝ
  k_accepted : Vec n
  scaling : Vec n
  z : Stages n
  yc : Stages n

/-- `Radau5::new` (/repo/russell_ode/src/radau5.rs:124-183) -/
noncomputable def Radau.new (P : RdParams) (n : Nat) (F G : Type) : Radau n F G :=
  ⟨0, none, none, false, false, false, 1, P.theta_max, 0, 0, 0, 0⟩

/-- `M v`, where no mass matrix means the identity (/repo/russell_ode/src/radau5.rs:422-430) -/
def massMul (mass : Option (Matrix (Fin n) (Fin n) ℝ)) (v : Vec n) : Vec n :=
  match mass with
  | some m => m.mulVec v
  | none => v

/-- `K_real = (γ/h) M - J` (/repo/russell_ode/src/radau5.rs:223-239) -/
noncomputable def rdReal (mass : Option (Matrix (Fin n) (Fin n) ℝ)) (jj : Matrix (Fin n) (Fin n) ℝ) (h : ℝ) :
    Matrix (Fin n) (Fin n) ℝ :=
  match mass with
  | some m => fun i j => -1 * jj i j + Rd.GAMMA / h * m i j
  | none => fun i j => -1 * jj i j + if i = j then Rd.GAMMA / h else 0

/-- `K_comp = ((α + β i)/h) M - J` (/repo/russell_ode/src/radau5.rs:223-239) -/
noncomputable def rdComp (mass : Option (Matrix (Fin n) (Fin n) ℝ)) (jj : Matrix (Fin n) (Fin n) ℝ) (h : ℝ) :
    Matrix (Fin n) (Fin n) ℂ :=
  match mass with
  | some m => fun i j => ⟨-1 * jj i j + Rd.ALPHA / h * m i j, 0 * jj i j + Rd.BETA / h * m i j⟩
  | none => fun i j => ⟨-1 * jj i j + if i = j then Rd.ALPHA / h else 0, if i = j then Rd.BETA / h else 0⟩

/-- `initialize` (/repo/russell_ode/src/radau5.rs:186-192) -/
def Radau.initialize (P : RdParams) (sys : ImpSys n A) {F G : Type} (m : Radau n F G) (work : Workspace ℝ) (x : ℝ) (y : Vec n)
    (a : A) : Res (Radau n F G × Workspace ℝ × A) := do
  let (k, a) ← sys.f x y a
  ok ({ m with scaling := fun i => P.tol_abs + P.tol_rel * |y i|, k_accepted := k },
    { work with stats := { work.stats with n_function := work.stats.n_function + 1 } }, a)

/-- the Jacobian matrix (/repo/russell_ode/src/radau5.rs:202-220) -/
noncomputable def Radau.updateJacobian (P : RdParams) (sys : ImpSys n A) {F G : Type} (m : Radau n F G) (work : Workspace ℝ)
    (x : ℝ) (y : Vec n) (a : A) : Res (Radau n F G × Workspace ℝ × A) :=
  if m.reuse_jacobian then ok ({ m with reuse_jacobian := false }, work, a)
  else if m.jacobian_computed then ok (m, work, a)
  else do
    let (jj, a, nf) ← sys.jacobian P.use_numerical_jacobian 1 x y a
    ok ({ m with jj := jj, jacobian_computed := true },
      { work with stats := { work.stats with
        n_jacobian := work.stats.n_jacobian + 1
        n_function := work.stats.n_function + nf } }, a)

/-- the end of `assemble`, when the matrices are to be written (/repo/russell_ode/src/radau5.rs:242-255) -/
def writeStop (P : RdParams) (work : Workspace ℝ) : Res Unit :=
  match P.write_matrix_after_nstep_and_stop with
  | some nstep => if work.stats.n_accepted > nstep then err "MATRIX FILES GENERATED in /tmp/russell_ode/" else ok ()
  | none => ok ()

/-- two results obtained one after the other, or in two threads that panic upon failure; the messages are those of the second
case -/
def both {α β : Type} (concurrent : Bool) (m12 m1 m2 : String) (r : Res α) (c : Res β) : Res (α × β) :=
  if concurrent then
    match r, c with
    | ok a, ok b => ok (a, b)
    | ok _, _ => err m2
    | _, ok _ => err m1
    | _, _ => err m12
  else do
    let a ← r
    let b ← c
    ok (a, b)

/-- `factorize` and `factorize_concurrently` (/repo/russell_ode/src/radau5.rs:260-296) -/
def rdFactorize (P : RdParams) (L : LinSol n) (Q : CLinSol n) (kr : Matrix (Fin n) (Fin n) ℝ) (kc : Matrix (Fin n) (Fin n) ℂ) :
    Res (L.F × Q.F) :=
  both P.concurrent "real and complex factorizations failed" "real factorizations failed" "complex factorizations failed"
    (L.factorize kr) (Q.factorize kc)

/-- `solve_lin_sys` and `solve_lin_sys_concurrently` (/repo/russell_ode/src/radau5.rs:299-326) -/
def rdSolve (P : RdParams) (L : LinSol n) (Q : CLinSol n) (fr : Option L.F) (fc : Option Q.F) (v : Vec n) (v12 : Fin n → ℂ) :
    Res (Vec n × (Fin n → ℂ)) :=
  both P.concurrent "real and complex solutions failed" "real solution failed" "complex solution failed"
    (L.run fr v) (Q.run fc v12)

/-- the state of the method for given linear solvers -/
abbrev RadauS {n : Nat} (L : LinSol n) (Q : CLinSol n) := Radau n L.F Q.F

/-- assembly and factorization (/repo/russell_ode/src/radau5.rs:195-257, 347-359) -/
noncomputable def Radau.prepare (P : RdParams) (sys : ImpSys n A) (L : LinSol n) (Q : CLinSol n) (m : RadauS L Q)
    (work : Workspace ℝ) (x : ℝ) (y : Vec n) (h : ℝ) (a : A) : Res (RadauS L Q × Workspace ℝ × A) :=
  if m.reuse_jacobian_kk_and_fact then ok ({ m with reuse_jacobian_kk_and_fact := false }, work, a)
  else do
    let (m, work, a) ← m.updateJacobian P sys work x y a
    writeStop P work
    let (fr, fc) ← rdFactorize P L Q (rdReal sys.mass m.jj h) (rdComp sys.mass m.jj h)
    ok ({ m with fr := some fr, fc := some fc },
      { work with stats := { work.stats with n_factor := work.stats.n_factor + 1 } }, a)

/-- `TI` applied to three vectors (/repo/russell_ode/src/radau5.rs:386-388) -/
noncomputable def rdTI (z : Stages n) : Stages n := fun i m => Rd.TI i 0 * z 0 m + Rd.TI i 1 * z 1 m + Rd.TI i 2 * z 2 m

/-- `T` applied to three vectors (/repo/russell_ode/src/radau5.rs:458-460) -/
noncomputable def rdT (w : Stages n) : Stages n := fun i m => Rd.T i 0 * w 0 m + Rd.T i 1 * w 1 m + Rd.T i 2 * w 2 m

/-- the polynomial through the collocation points (/repo/russell_ode/src/radau5.rs:383-385, 673) -/
noncomputable def rdPoly (yc : Stages n) (s : ℝ) : Vec n := fun m =>
  s * (yc 0 m + (s - Rd.MU4) * (yc 1 m + (s - Rd.MU3) * yc 2 m))

/-- the starting values of the iterations (/repo/russell_ode/src/radau5.rs:367-390) -/
noncomputable def rdTrial (P : RdParams) (work : Workspace ℝ) (yc : Stages n) (h : ℝ) : Stages n × Stages n :=
  if work.stats.n_accepted = 0 ∨ P.zero_trial = true then (0, 0)
  else
    let c3q := h / work.h_prev
    let z : Stages n := ![rdPoly yc (Rd.MU1 * c3q), rdPoly yc (Rd.MU2 * c3q), rdPoly yc c3q]
    (z, rdTI z)

/-- the right-hand sides (/repo/russell_ode/src/radau5.rs:394-396, 422-438) -/
noncomputable def rdRhs (mass : Option (Matrix (Fin n) (Fin n) ℝ)) (h : ℝ) (k w : Stages n) : Stages n :=
  ![fun m => rdTI k 0 m - Rd.GAMMA / h * massMul mass (w 0) m,
    fun m => rdTI k 1 m - Rd.ALPHA / h * massMul mass (w 1) m + Rd.BETA / h * massMul mass (w 2) m,
    fun m => rdTI k 2 m - Rd.BETA / h * massMul mass (w 1) m - Rd.ALPHA / h * massMul mass (w 2) m]

/-- the norm of the increments (/repo/russell_ode/src/radau5.rs:464-471) -/
noncomputable def rdNorm (scaling : Vec n) (d : Stages n) : ℝ :=
  Real.sqrt ((∑ m, (d 0 m / scaling m * (d 0 m / scaling m) + d 1 m / scaling m * (d 1 m / scaling m) +
    d 2 m / scaling m * (d 2 m / scaling m))) / (3 * n))

/-- the variables of the iterations -/
structure RdIter (n : Nat) where
  z : Stages n
  w : Stages n
  eta : ℝ
  theta : ℝ
  ldw_old : ℝ
  thq_old : ℝ

/-- the convergence check of an iteration: the new `eta`, `theta` and `thq_old`, and the stepsize multiplier if the iterations
diverge (/repo/russell_ode/src/radau5.rs:489-516). Divisions by zero do not occur: the previous norm is not zero, otherwise
the iterations would have ended. -/
noncomputable def rdCheck (P : RdParams) (newt : Nat) (ldw : ℝ) (t : RdIter n) : ℝ × ℝ × ℝ × Option ℝ :=
  if 1 < newt ∧ newt < P.n_iteration_max then
    let thq := ldw / t.ldw_old
    let theta := if newt = 2 then thq else Real.sqrt (thq * t.thq_old)
    if theta < 0.99 then
      let eta := theta / (1.0 - theta)
      let rel_err := eta * ldw * theta ^ ((P.n_iteration_max - 1 - newt : Nat) : ℝ) / P.tol_newton
      if 1.0 ≤ rel_err then
        (eta, theta, thq, some (0.8 * (max 1.0e-4 (min 20.0 rel_err)) ^ (-1.0 / ((4 + P.n_iteration_max - 1 - newt : Nat) : ℝ))))
      else (eta, theta, thq, none)
    else (t.eta, theta, thq, some 0.5)
  else (t.eta, t.theta, t.thq_old, none)

/-- three evaluations of the function are counted, and one iteration (/repo/russell_ode/src/radau5.rs:408, 416) -/
def rdCount (work : Workspace ℝ) : Workspace ℝ :=
  { work with stats := { work.stats with
      n_iterations := work.stats.n_iterations + 1
      n_function := work.stats.n_function + 3 } }

/-- the increments of the iteration (/repo/russell_ode/src/radau5.rs:410-451) -/
noncomputable def rdIncrement (P : RdParams) (sys : ImpSys n A) (L : LinSol n) (Q : CLinSol n) (fr : Option L.F)
    (fc : Option Q.F) (x : ℝ) (y : Vec n) (h : ℝ) (z w : Stages n) (a : A) : Res (Stages n × A) := do
  let (k0, a) ← sys.f (x + Rd.C 0 * h) (fun m => y m + z 0 m) a
  let (k1, a) ← sys.f (x + Rd.C 1 * h) (fun m => y m + z 1 m) a
  let (k2, a) ← sys.f (x + Rd.C 2 * h) (fun m => y m + z 2 m) a
  let r := rdRhs sys.mass h ![k0, k1, k2] w
  let (d0, d12) ← rdSolve P L Q fr fc (r 0) (fun m => ⟨r 1 m, r 2 m⟩)
  ok (![d0, fun m => (d12 m).re, fun m => (d12 m).im], a)

open Classical in
/-- the iterations (/repo/russell_ode/src/radau5.rs:406-528); the first argument counts the iterations left, the flag says that
the iterations diverge -/
noncomputable def rdLoop (P : RdParams) (sys : ImpSys n A) (L : LinSol n) (Q : CLinSol n) (fr : Option L.F) (fc : Option Q.F)
    (x : ℝ) (y scaling : Vec n) (h : ℝ) : Nat → RdIter n → Workspace ℝ → A → Res (RdIter n × Workspace ℝ × A × Bool)
  | 0, _, _, _ => err "Newton-Raphson method did not complete successfully"
  | k + 1, t, work, a => do
    let work := rdCount work
    let (d, a) ← rdIncrement P sys L Q fr fc x y h t.z t.w a
    let work := bwCountSol work
    let w : Stages n := fun i m => t.w i m + d i m
    let ldw := rdNorm scaling d
    match rdCheck P work.stats.n_iterations ldw t with
    | (eta, theta, thq, some mult) =>
      ok (⟨rdT w, w, eta, theta, t.ldw_old, thq⟩,
        { work with h_multiplier_diverging := mult, iterations_diverging := true }, a, true)
    | (eta, theta, thq, none) =>
      if eta * ldw < P.tol_newton then ok (⟨rdT w, w, eta, theta, ldw, thq⟩, work.updateIterMax, a, false)
      else rdLoop P sys L Q fr fc x y scaling h k ⟨rdT w, w, eta, theta, ldw, thq⟩ work a

/-- `rms_norm` (/repo/russell_ode/src/radau5.rs:684-693) -/
noncomputable def rmsNorm (e scaling : Vec n) : ℝ :=
  max 1e-10 (Real.sqrt ((∑ m, e m / scaling m * (e m / scaling m)) / n))

/-- the vector `(γ/h) M (e0 z0 + e1 z1 + e2 z2)` (/repo/russell_ode/src/radau5.rs:543-559) -/
noncomputable def rdMez (mass : Option (Matrix (Fin n) (Fin n) ℝ)) (h : ℝ) (z : Stages n) : Vec n :=
  match mass with
  | some m => fun i => Rd.GAMMA / h * m.mulVec (fun j => Rd.E0 * z 0 j + Rd.E1 * z 1 j + Rd.E2 * z 2 j) i
  | none => fun i => Rd.GAMMA / h * (Rd.E0 * z 0 i + Rd.E1 * z 1 i + Rd.E2 * z 2 i)

open Classical in
/-- the error estimate (/repo/russell_ode/src/radau5.rs:536-585) -/
noncomputable def Radau.estimate (sys : ImpSys n A) (L : LinSol n) {G : Type} (m : Radau n L.F G) (work : Workspace ℝ) (x : ℝ)
    (y : Vec n) (h : ℝ) (a : A) : Res (Workspace ℝ × A) := do
  let mez := rdMez sys.mass h m.z
  let e ← L.run m.fr (fun i => mez i + m.k_accepted i)
  let work := { work with rel_error := rmsNorm e m.scaling }
  if work.rel_error < 1 then ok (work, a)
  else if work.stats.n_accepted = 0 ∨ work.follows_reject_step = true then do
    let (fpe, a) ← sys.f x (fun i => y i + e i) a
    let e ← L.run m.fr (fun i => mez i + fpe i)
    ok ({ work with rel_error := rmsNorm e m.scaling, stats := { work.stats with n_function := work.stats.n_function + 1 } }, a)
  else ok (work, a)

/-- the iterations of a step with their starting values (/repo/russell_ode/src/radau5.rs:366-405) -/
noncomputable def Radau.iterate (P : RdParams) (sys : ImpSys n A) (L : LinSol n) (Q : CLinSol n) (m : RadauS L Q)
    (work : Workspace ℝ) (x : ℝ) (y : Vec n) (h : ℝ) (a : A) : Res (RdIter n × Workspace ℝ × A × Bool) :=
  let tr := rdTrial P work m.yc h
  rdLoop P sys L Q m.fr m.fc x y m.scaling h P.n_iteration_max
    ⟨tr.1, tr.2, (max m.eta (1 / 2 ^ 52)) ^ (0.8 : ℝ), P.theta_max, 0, 0⟩
    { work with iterations_diverging := false, stats := { work.stats with n_iterations := 0 } } a

/-- the initialization, the first time (/repo/russell_ode/src/radau5.rs:338-340) -/
def Radau.begin (P : RdParams) (sys : ImpSys n A) {F G : Type} (m : Radau n F G) (work : Workspace ℝ) (x : ℝ) (y : Vec n)
    (a : A) : Res (Radau n F G × Workspace ℝ × A) :=
  if work.stats.n_accepted = 0 then m.initialize P sys work x y a else ok (m, work, a)

/-- `Radau5::step` (/repo/russell_ode/src/radau5.rs:336-586) -/
noncomputable def Radau.step (P : RdParams) (sys : ImpSys n A) (L : LinSol n) (Q : CLinSol n) (m : RadauS L Q)
    (work : Workspace ℝ) (x : ℝ) (y : Vec n) (h : ℝ) (a : A) : Res (RadauS L Q × Workspace ℝ × A) := do
  let (m, work, a) ← m.begin P sys work x y a
  let (m, work, a) ← m.prepare P sys L Q work x y h a
  let (t, work, a, diverging) ← m.iterate P sys L Q work x y h a
  let m := { m with z := t.z, eta := t.eta, theta := t.theta }
  if diverging then ok (m, work, a)
  else do
    let (work, a) ← m.estimate sys L work x y h a
    ok (m, work, a)

/-- the divisor of the stepsize (/repo/russell_ode/src/radau5.rs:611-618, 657-664) -/
noncomputable def rdDiv (P : RdParams) (work : Workspace ℝ) : ℝ :=
  let num := P.m_safety * ((1 + 2 * P.n_iteration_max : Nat) : ℝ)
  let den := ((work.stats.n_iterations + 2 * P.n_iteration_max : Nat) : ℝ)
  let fac := min P.m_safety (num / den)
  max P.m_min (min P.m_max (work.rel_error ^ (0.25 : ℝ) / fac))

/-- the new stepsize proposed after an accepted step (/repo/russell_ode/src/radau5.rs:610-631) -/
noncomputable def rdNewStep (P : RdParams) (work : Workspace ℝ) (h : ℝ) : ℝ :=
  let div := rdDiv P work
  if P.use_pred_control = true ∧ 1 < work.stats.n_accepted then
    let r2 := work.rel_error * work.rel_error
    let fac := work.h_prev / h * (r2 / work.rel_error_prev) ^ (0.25 : ℝ) / P.m_safety
    let fac := max P.m_min (min P.m_max fac)
    h / max div fac
  else h / div

/-- the coefficients of the collocation polynomial (/repo/russell_ode/src/radau5.rs:605-607) -/
noncomputable def rdYc (z : Stages n) : Stages n :=
  let yc0 : Vec n := fun m => (z 1 m - z 2 m) / Rd.MU4
  let yc1 : Vec n := fun m => ((z 0 m - z 1 m) / Rd.MU5 - yc0 m) / Rd.MU3
  ![yc0, yc1, fun m => yc1 m - ((z 0 m - z 1 m) / Rd.MU5 - z 0 m / Rd.MU1) / Rd.MU2]

open Classical in
/-- `Radau5::accept` (/repo/russell_ode/src/radau5.rs:589-652) -/
noncomputable def Radau.accept (P : RdParams) (sys : ImpSys n A) {F G : Type} (m : Radau n F G) (work : Workspace ℝ) (x : ℝ)
    (y : Vec n) (h : ℝ) (a : A) : Res (Radau n F G × Workspace ℝ × ℝ × Vec n × A) := do
  let y : Vec n := fun i => y i + m.z 2 i
  let h_new := rdNewStep P work h
  let h_ratio := h_new / h
  let reuse : Bool := decide (m.theta ≤ P.theta_max ∧ P.c1h ≤ h_ratio ∧ h_ratio ≤ P.c2h)
  let m := { m with
    yc := rdYc m.z
    jacobian_computed := false
    reuse_jacobian_kk_and_fact := reuse
    reuse_jacobian := !reuse && decide (m.theta ≤ P.theta_max) }
  let work : Workspace ℝ := if reuse then work else { work with h_new := h_new }
  let (m, work, a) ← m.initialize P sys work (x + h) y a
  ok (m, work, x + h, y, a)

/-- `Radau5::reject` (/repo/russell_ode/src/radau5.rs:655-666) -/
noncomputable def Radau.reject (P : RdParams) (work : Workspace ℝ) (h : ℝ) : Workspace ℝ :=
  { work with h_new := h / rdDiv P work }

/-- `Radau5` as an `OdeSolverTrait` (/repo/russell_ode/src/radau5.rs:329-681) -/
noncomputable def radau5 (P : RdParams) (sys : ImpSys n A) (L : LinSol n) (Q : CLinSol n) : Stepper ℝ A (RadauS L Q) where
  enable_dense_output m := ok m
  step m work x y h a := do
    let y ← vecOf n y
    Radau.step P sys L Q m work x y h a
  accept m work x y h a := do
    let y ← vecOf n y
    let (m, work, x, y, a) ← m.accept P sys work x y h a
    ok (m, work, x, List.ofFn y, a)
  reject m work h := (m, Radau.reject P work h)
  dense_output m y_out x_out x y h :=
    if x - h ≤ x_out ∧ x_out ≤ x then do
      let y ← vecOf n y
      if y_out.length < n then panic
      else ok (List.ofFn (fun i => y i + rdPoly m.yc ((x_out - x) / h) i) ++ y_out.drop n)
    else panic

end Russell.Ode
