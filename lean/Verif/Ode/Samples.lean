import Verif.Pde.Fdm2dProps
import Mathlib.Analysis.SpecialFunctions.Pow.Real
import Mathlib.Analysis.SpecialFunctions.Trigonometric.Basic

/-!
# `System` and the sample problems: model (C96)

Model of /repo/russell_ode/src/system.rs and /repo/russell_ode/src/samples.rs. Numbers are real; the decimal constants have their decimal values. A
sequence of `put(..).unwrap()` is `putAll`. The reference results `y_ref` (numbers computed elsewhere) are left out.
-/

namespace Russell.Ode.Samples

open Russell Russell.Res Russell.Sparse Russell.Pde

/-- `NoArgs` (/repo/russell_ode/src/system.rs:7) -/
abbrev NoArgs := UInt8

/-- the type of the function of the system -/
abbrev FnF (σ : Type) := List ℝ → ℝ → List ℝ → σ → Res (List ℝ × σ)

/-- the type of the function computing the Jacobian: matrix, scaling factor, x, y, arguments -/
abbrev FnJ (σ : Type) := Coo ℝ → ℝ → ℝ → List ℝ → σ → Res (Coo ℝ × σ)

/-- the type of the function computing the mass matrix -/
abbrev FnM := Coo ℝ → Res (Coo ℝ)

/-- `System` (/repo/russell_ode/src/system.rs:64-92) -/
structure Sys (σ : Type) where
  ndim : Nat
  function : FnF σ
  jacobian : Option (FnJ σ)
  calc_mass : Option FnM
  jac_nnz : Nat
  mass_nnz : Nat
  sym_jac : Option Sym
  sym_mass : Option Sym
  symmetric : Sym

variable {σ : Type}

/-- `System::new` (/repo/russell_ode/src/system.rs:155-170) -/
def Sys.new (ndim : Nat) (function : FnF σ) : Sys σ :=
  { ndim, function, jacobian := none, calc_mass := none, jac_nnz := ndim * ndim, mass_nnz := 0, sym_jac := none, sym_mass := none, symmetric := Sym.no }

/-- the number of non-zero values (/repo/russell_ode/src/system.rs:209-217, 244-252) -/
def nnzOr (ndim : Nat) (nnz : Option Nat) (symmetric : Sym) : Nat :=
  match nnz with
  | some value => value
  | none => if symmetric.triangular then (ndim + ndim * ndim) / 2 else ndim * ndim

/-- `System::set_jacobian` (/repo/russell_ode/src/system.rs:198-222) -/
def Sys.setJacobian (s : Sys σ) (nnz : Option Nat) (symmetric : Sym) (callback : FnJ σ) : MRes (Sys σ) :=
  if s.sym_mass.isSome ∧ s.sym_mass ≠ some symmetric then
    .err s "the Jacobian matrix must have the same symmetric type as the mass matrix"
  else .ok { s with jac_nnz := nnzOr s.ndim nnz symmetric, sym_jac := some symmetric, symmetric := symmetric, jacobian := some callback }

/-- `System::set_mass` (/repo/russell_ode/src/system.rs:233-257) -/
def Sys.setMass (s : Sys σ) (nnz : Option Nat) (symmetric : Sym) (callback : FnM) : MRes (Sys σ) :=
  if s.sym_jac.isSome ∧ s.sym_jac ≠ some symmetric then
    .err s "the mass matrix must have the same symmetric type as the Jacobian matrix"
  else .ok { s with mass_nnz := nnzOr s.ndim nnz symmetric, sym_mass := some symmetric, symmetric := symmetric, calc_mass := some callback }

/-- `jj.put(i, j, v).unwrap()` for the given entries, one after the other -/
def putAll (jj : Coo ℝ) (es : List (Entry ℝ)) : Res (Coo ℝ) := forList es jj fun e jj => unwrapM (jj.put e.1 e.2.1 e.2.2)

/-- the result of the samples: system, initial x, initial y, arguments -/
structure Sample (σ : Type) where
  system : Sys σ
  x0 : ℝ
  y0 : List ℝ
  args : σ

/-- the type of `y_fn_x`: writes the solution at `x` -/
abbrev FnY := List ℝ → ℝ → Res (List ℝ)

/-- `Samples::simple_equation_constant` (/repo/russell_ode/src/samples.rs:44-84) -/
def simpleEquationConstant : Res (Sample NoArgs × FnY) := do
  let system := Sys.new 1 fun f _x _y a => do
    let f ← vset f 0 1
    ok (f, a)
  let system ← unwrapM (system.setJacobian (some 1) Sym.no fun jj alpha _x _y a => do
    let jj ← putAll jj.reset [(0, 0, 0 * alpha)]
    ok (jj, a))
  ok ({ system, x0 := 0, y0 := [0], args := 0 }, fun y x => vset y 0 x)

/-- `Samples::simple_system_with_mass_matrix` (/repo/russell_ode/src/samples.rs:152-222) -/
noncomputable def simpleSystemWithMassMatrix (symmetric : Bool) (genie : Genie) : Res (Sample NoArgs × FnY) := do
  let sym := genie.getSym symmetric
  let triangular := sym.triangular
  let system := Sys.new 3 fun f x y a => do
    let y0 ← vget y 0
    let y1 ← vget y 1
    let f ← vset f 0 (-y0 + y1)
    let f ← vset f 1 (y0 + y1)
    let f ← vset f 2 (1 / (1 + x))
    ok (f, a)
  let jac_nnz := if triangular then 3 else 4
  let system ← unwrapM (system.setJacobian (some jac_nnz) sym fun jj alpha _x _y a => do
    let jj ← putAll jj.reset ([(0, 0, alpha * (-1))] ++ (if triangular then [] else [(0, 1, alpha * 1)]) ++ [(1, 0, alpha * 1), (1, 1, alpha * 1)])
    ok (jj, a))
  let mass_nnz := if triangular then 4 else 5
  let system ← unwrapM (system.setMass (some mass_nnz) sym fun mm =>
    putAll mm ([(0, 0, 1)] ++ (if triangular then [] else [(0, 1, 1)]) ++ [(1, 0, 1), (1, 1, -1), (2, 2, 1)]))
  ok ({ system, x0 := 0, y0 := [1, 0, 0], args := 0 }, fun y x => do
    let y ← vset y 0 (Real.cos x)
    let y ← vset y 1 (-Real.sin x)
    vset y 2 (Real.log (1 + x)))

/-- `Samples::brusselator_ode` (/repo/russell_ode/src/samples.rs:263-306) -/
noncomputable def brusselatorOde : Res (Sample NoArgs) := do
  let system := Sys.new 2 fun f _x y a => do
    let y0 ← vget y 0
    let y1 ← vget y 1
    let f ← vset f 0 (1 - 4 * y0 + y0 * y0 * y1)
    let f ← vset f 1 (3 * y0 - y0 * y0 * y1)
    ok (f, a)
  let system ← unwrapM (system.setJacobian (some 4) Sym.no fun jj alpha _x y a => do
    let y0 ← vget y 0
    let y1 ← vget y 1
    let jj ← putAll jj.reset [(0, 0, alpha * (-4 + 2 * y0 * y1)), (0, 1, alpha * (y0 * y0)), (1, 0, alpha * (3 - 2 * y0 * y1)),
      (1, 1, alpha * (-y0 * y0))]
    ok (jj, a))
  ok { system, x0 := 0, y0 := [3 / 2, 3], args := 0 }

/-- `fdm.loop_over_molecule(m, |n, amn| ..)` (/repo/russell_pde/src/fdm_2d.rs:900-907, 944-979) -/
def loopOverMolecule {τ : Type} (F : Fdm2d ℝ) (m : Nat) (s : τ) (callback : Nat → ℝ → τ → Res τ) : Res τ :=
  loopBand (F.nn m) s fun b n s => do
    let v ← vget F.molecule b
    callback n v s

/-- the function of `brusselator_pde` (/repo/russell_ode/src/samples.rs:520-548) -/
noncomputable def brusselatorF (s : Nat) (second_book ignore_diffusion : Bool) : FnF (Fdm2d ℝ) := fun f t yy fdm => do
  let f ← forList fdm.grid.forEachCoord f fun mxy f => do
    let m := mxy.1
    let x := mxy.2.1
    let y := mxy.2.2
    let um ← vget yy m
    let vm ← vget yy (s + m)
    let um2 := um * um
    let f ← vset f m (1 - 4.4 * um + um2 * vm)
    let f ← vset f (s + m) (3.4 * um - um2 * vm)
    let f ← (if ignore_diffusion then ok f else loopOverMolecule fdm m f fun k amk f => do
      let uk ← vget yy k
      let vk ← vget yy (s + k)
      let f ← addAt f m (amk * uk)
      addAt f (s + m) (amk * vk))
    if second_book ∧ 1.1 ≤ t then
      let dx := x - 0.3
      let dy := y - 0.6
      addAt f m (if dx * dx + dy * dy ≤ 0.01 then 5 else 0)
    else ok f
  ok (f, fdm)

/-- the Jacobian of `brusselator_pde` (/repo/russell_ode/src/samples.rs:553-575) -/
noncomputable def brusselatorJ (s jac_nnz : Nat) (ignore_diffusion : Bool) : FnJ (Fdm2d ℝ) := fun jj aa _x yy fdm => do
  let (jj, nnz_count) ← forRange 0 s (jj.reset, 0) fun m st => do
    let um ← vget yy m
    let vm ← vget yy (s + m)
    let um2 := um * um
    let jj ← putAll st.1 [(m, m, aa * (-4.4 + 2 * um * vm)), (m, s + m, aa * um2), (s + m, m, aa * (3.4 - 2 * um * vm)), (s + m, s + m, aa * (-um2))]
    let st := (jj, st.2 + 4)
    if ignore_diffusion then ok st else loopOverMolecule fdm m st fun n amn st => do
      let jj ← putAll st.1 [(m, n, aa * amn), (s + m, s + n, aa * amn)]
      ok (jj, st.2 + 2)
  if nnz_count = jac_nnz then ok (jj, fdm) else Res.panic

/-- `Samples::brusselator_pde` (/repo/russell_ode/src/samples.rs:497-612); `eps` is `f64::EPSILON` (used by `get_dx_dy`) -/
noncomputable def brusselatorPde (eps alpha : ℝ) (npoint : Nat) (second_book ignore_diffusion : Bool) : Res (Sample (Fdm2d ℝ)) := do
  let kx := -alpha
  let ky := -alpha
  let s := npoint * npoint
  let ndim := 2 * s
  let band := 5
  let jac_nnz := if ignore_diffusion then 4 * s else 4 * s + 2 * s * band
  let system := Sys.new ndim (brusselatorF s second_book ignore_diffusion)
  let system ← unwrapM (system.setJacobian (some jac_nnz) Sym.no (brusselatorJ s jac_nnz ignore_diffusion))
  let grid ← (match Grid2d.newUniform (0 : ℝ) 1 0 1 npoint npoint with | .ok g => ok g | _ => Res.panic)
  let ebcs ← runE (if second_book then [.setPeriodic true true] else [])
  let nbcs ← runN (if second_book then [] else [(.Xmin, fun _ _ => 0), (.Xmax, fun _ _ => 0), (.Ymin, fun _ _ => 0), (.Ymax, fun _ _ => 0)])
  let fdm ← (match Fdm2d.new eps grid ebcs nbcs kx ky with | .ok g => ok g | _ => Res.panic)
  let yy0 ← forList fdm.grid.forEachCoord (List.replicate ndim 0) fun mxy yy0 => do
    let m := mxy.1
    let x := mxy.2.1
    let y := mxy.2.2
    if second_book then
      let yy0 ← vset yy0 m (22 * y * (1 - y) ^ (1.5 : ℝ))
      vset yy0 (s + m) (27 * x * (1 - x) ^ (1.5 : ℝ))
    else
      let yy0 ← vset yy0 m (0.5 + y)
      vset yy0 (s + m) (1 + 5 * x)
  ok { system, x0 := 0, y0 := yy0, args := fdm }

/-- `MU` of `arenstorf` (/repo/russell_ode/src/samples.rs:666) -/
noncomputable def MU : ℝ := 0.012277471

/-- `MD` of `arenstorf` (/repo/russell_ode/src/samples.rs:667) -/
noncomputable def MD : ℝ := 1 - MU

/-- `Samples::arenstorf` (/repo/russell_ode/src/samples.rs:664-743); also returns the final x -/
noncomputable def arenstorf : Res (Sample NoArgs × ℝ) := do
  let system := Sys.new 4 fun f _x y a => do
    let y0 ← vget y 0
    let y1 ← vget y 1
    let y2 ← vget y 2
    let y3 ← vget y 3
    let t0 := (y0 + MU) * (y0 + MU) + y1 * y1
    let t1 := (y0 - MD) * (y0 - MD) + y1 * y1
    let d0 := t0 * Real.sqrt t0
    let d1 := t1 * Real.sqrt t1
    let f ← vset f 0 y2
    let f ← vset f 1 y3
    let f ← vset f 2 (y0 + 2 * y3 - MD * (y0 + MU) / d0 - MU * (y0 - MD) / d1)
    let f ← vset f 3 (y1 - 2 * y2 - MD * y1 / d0 - MU * y1 / d1)
    ok (f, a)
  let system ← unwrapM (system.setJacobian (some 8) Sym.no fun jj alpha _x y ar => do
    let y0 ← vget y 0
    let y1 ← vget y 1
    let t0 := (y0 + MU) * (y0 + MU) + y1 * y1
    let t1 := (y0 - MD) * (y0 - MD) + y1 * y1
    let s0 := Real.sqrt t0
    let s1 := Real.sqrt t1
    let d0 := t0 * s0
    let d1 := t1 * s1
    let dd0 := d0 * d0
    let dd1 := d1 * d1
    let a := y0 + MU
    let b := y0 - MD
    let c := -MD / d0 - MU / d1
    let dj00 := 3 * a * s0
    let dj01 := 3 * y1 * s0
    let dj10 := 3 * b * s1
    let dj11 := 3 * y1 * s1
    let jj ← putAll jj.reset [(0, 2, 1 * alpha), (1, 3, 1 * alpha), (2, 0, (1 + a * dj00 * MD / dd0 + b * dj10 * MU / dd1 + c) * alpha),
      (2, 1, (a * dj01 * MD / dd0 + b * dj11 * MU / dd1) * alpha), (2, 3, 2 * alpha),
      (3, 0, (dj00 * y1 * MD / dd0 + dj10 * y1 * MU / dd1) * alpha), (3, 1, (1 + dj01 * y1 * MD / dd0 + dj11 * y1 * MU / dd1 + c) * alpha),
      (3, 2, -2 * alpha)]
    ok (jj, ar))
  ok ({ system, x0 := 0, y0 := [0.994, 0, 0, -2.00158510637908252240537862224], args := 0 }, 17.0652165601579625588917206249)

/-- `Samples::hairer_wanner_eq1` (/repo/russell_ode/src/samples.rs:781-824) -/
noncomputable def hairerWannerEq1 : Res (Sample NoArgs × FnY) := do
  let L : ℝ := -50
  let system := Sys.new 1 fun f x y a => do
    let y0 ← vget y 0
    let f ← vset f 0 (L * (y0 - Real.cos x))
    ok (f, a)
  let system ← unwrapM (system.setJacobian (some 1) Sym.no fun jj alpha _x _y a => do
    let jj ← putAll jj.reset [(0, 0, alpha * L)]
    ok (jj, a))
  ok ({ system, x0 := 0, y0 := [0], args := 0 }, fun y x =>
    vset y 0 (-L * (Real.sin x - L * Real.cos x + L * Real.exp (L * x)) / (L * L + 1)))

/-- `Samples::robertson` (/repo/russell_ode/src/samples.rs:855-892) -/
noncomputable def robertson : Res (Sample NoArgs) := do
  let system := Sys.new 3 fun f _x y a => do
    let y0 ← vget y 0
    let y1 ← vget y 1
    let y2 ← vget y 2
    let f ← vset f 0 (-0.04 * y0 + 1.0e4 * y1 * y2)
    let f ← vset f 1 (0.04 * y0 - 1.0e4 * y1 * y2 - 3.0e7 * y1 * y1)
    let f ← vset f 2 (3.0e7 * y1 * y1)
    ok (f, a)
  let system ← unwrapM (system.setJacobian (some 7) Sym.no fun jj alpha _x y a => do
    let y1 ← vget y 1
    let y2 ← vget y 2
    let jj ← putAll jj.reset [(0, 0, -0.04 * alpha), (0, 1, 1.0e4 * y2 * alpha), (0, 2, 1.0e4 * y1 * alpha), (1, 0, 0.04 * alpha),
      (1, 1, (-1.0e4 * y2 - 6.0e7 * y1) * alpha), (1, 2, (-1.0e4 * y1) * alpha), (2, 1, 6.0e7 * y1 * alpha)]
    ok (jj, a))
  ok { system, x0 := 0, y0 := [1, 0, 0], args := 0 }

/-- `Samples::van_der_pol` (/repo/russell_ode/src/samples.rs:931-974); also returns the final x -/
noncomputable def vanDerPol (epsilon : ℝ) (stationary : Bool) : Res (Sample NoArgs × ℝ) := do
  let y0 : List ℝ := if stationary then [2.00861986087484313650940188, 0] else [2, -0.6]
  let x1 : ℝ := if stationary then 6.6632868593231301896996820305 else 2
  let eps : ℝ := if stationary then 1 else epsilon
  let system := Sys.new 2 fun f _x y a => do
    let y0 ← vget y 0
    let y1 ← vget y 1
    let f ← vset f 0 y1
    let f ← vset f 1 (((1 - y0 * y0) * y1 - y0) / eps)
    ok (f, a)
  let system ← unwrapM (system.setJacobian (some 3) Sym.no fun jj alpha _x y a => do
    let y0 ← vget y 0
    let y1 ← vget y 1
    let jj ← putAll jj.reset [(0, 1, 1 * alpha), (1, 0, alpha * (-2 * y0 * y1 - 1) / eps), (1, 1, alpha * (1 - y0 * y0) / eps)]
    ok (jj, a))
  ok ({ system, x0 := 0, y0, args := 0 }, x1)

/-- `Samples::amplifier1t` (/repo/russell_ode/src/samples.rs:1051-1126) -/
noncomputable def amplifier1t : Res (Sample NoArgs) := do
  let ALPHA : ℝ := 0.99
  let GAMMA : ℝ := 1 - ALPHA
  let BETA : ℝ := 1e-6
  let A : ℝ := 0.4
  let OM : ℝ := 200 * Real.pi
  let UB : ℝ := 6
  let UF : ℝ := 0.026
  let R : ℝ := 1000
  let S : ℝ := 9000
  let system := Sys.new 5 fun f x y a => do
    let y0 ← vget y 0
    let y1 ← vget y 1
    let y2 ← vget y 2
    let y3 ← vget y 3
    let y4 ← vget y 4
    let ue := A * Real.sin (OM * x)
    let g12 := BETA * (Real.exp ((y1 - y2) / UF) - 1)
    let f ← vset f 0 ((y0 - ue) / R)
    let f ← vset f 1 ((2 * y1 - UB) / S + GAMMA * g12)
    let f ← vset f 2 (y2 / S - g12)
    let f ← vset f 3 ((y3 - UB) / S + ALPHA * g12)
    let f ← vset f 4 (y4 / S)
    ok (f, a)
  let system ← unwrapM (system.setJacobian (some 9) Sym.no fun jj aa _x y a => do
    let y1 ← vget y 1
    let y2 ← vget y 2
    let h12 := BETA * Real.exp ((y1 - y2) / UF) / UF
    let jj ← putAll jj.reset [(0, 0, aa * (1 / R)), (1, 1, aa * (2 / S + GAMMA * h12)), (1, 2, aa * (-GAMMA * h12)), (2, 1, aa * (-h12)),
      (2, 2, aa * (1 / S + h12)), (3, 1, aa * (ALPHA * h12)), (3, 2, aa * (-ALPHA * h12)), (3, 3, aa * (1 / S)), (4, 4, aa * (1 / S))]
    ok (jj, a))
  let C1 : ℝ := 1e-6
  let C2 : ℝ := 2e-6
  let C3 : ℝ := 3e-6
  let system ← unwrapM (system.setMass (some 9) Sym.no fun mm =>
    putAll mm [(0, 0, -C1), (0, 1, C1), (1, 0, C1), (1, 1, -C1), (2, 2, -C2), (3, 3, -C3), (3, 4, C3), (4, 3, C3), (4, 4, -C3)])
  ok { system, x0 := 0, y0 := [0, UB / 2, UB / 2, UB, 0], args := 0 }

/-- `Samples::kreyszig_eq6_page902` (/repo/russell_ode/src/samples.rs:1151-1191) -/
noncomputable def kreyszigEq6 : Res (Sample NoArgs × FnY) := do
  let system := Sys.new 1 fun f x y a => do
    let y0 ← vget y 0
    let f ← vset f 0 (x + y0)
    ok (f, a)
  let system ← unwrapM (system.setJacobian (some 1) Sym.no fun jj alpha _x _y a => do
    let jj ← putAll jj.reset [(0, 0, 1 * alpha)]
    ok (jj, a))
  ok ({ system, x0 := 0, y0 := [0], args := 0 }, fun y x => vset y 0 (Real.exp x - x - 1))

/-- `Samples::kreyszig_ex4_page920` (/repo/russell_ode/src/samples.rs:1227-1271) -/
noncomputable def kreyszigEx4 : Res (Sample NoArgs × FnY) := do
  let system := Sys.new 2 fun f x y a => do
    let y0 ← vget y 0
    let y1 ← vget y 1
    let f ← vset f 0 y1
    let f ← vset f 1 (-10 * y0 - 11 * y1 + 10 * x + 11)
    ok (f, a)
  let system ← unwrapM (system.setJacobian (some 3) Sym.no fun jj alpha _x _y a => do
    let jj ← putAll jj.reset [(0, 1, 1 * alpha), (1, 0, -10 * alpha), (1, 1, -11 * alpha)]
    ok (jj, a))
  ok ({ system, x0 := 0, y0 := [2, -10], args := 0 }, fun y x => do
    let y ← vset y 0 (Real.exp (-x) + Real.exp (-10 * x) + x)
    vset y 1 (-Real.exp (-x) - 10 * Real.exp (-10 * x) + 1))

end Russell.Ode.Samples
