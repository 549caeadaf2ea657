import Verif.Lab.InterpChebyshev
import Mathlib.LinearAlgebra.Matrix.Charpoly.Basic
import Mathlib.Analysis.Complex.Polynomial.Basic
import Mathlib.Data.List.Sort

/-!
# Model of the root finder (C88)

Model of russell_lab/src/algo/root_finder.rs (`chebyshev` and `refine`) with real numbers; exact arithmetic. The eigenvalue routine
of LAPACK is a parameter whose contract is `EigContract`. The statistics are not modelled.
-/

namespace Russell.Lab

open Russell Russell.Res

noncomputable section

/-- `RootFinder` (/repo/russell_lab/src/algo/root_finder.rs:7-62) -/
structure RootFinder where
  tol_zero_an : ℝ
  tol_abs_imaginary : ℝ
  tol_abs_boundary : ℝ
  newton_tol_zero_dx : ℝ
  newton_tol_zero_fx : ℝ
  newton_max_iterations : Nat
  h_osd : ℝ
  h_cen : ℝ

namespace RootFinder

/-- `RootFinder::new` (/repo/russell_lab/src/algo/root_finder.rs:66-80) -/
def new : RootFinder where
  tol_zero_an := 1e-13
  tol_abs_imaginary := 1.0e-7
  tol_abs_boundary := tolRange / 10
  newton_tol_zero_dx := 1e-13
  newton_tol_zero_fx := 1e-13
  newton_max_iterations := 15
  h_osd := (1 / 2 ^ 52 : ℝ) ^ (1 / 2 : ℝ)
  h_cen := (1 / 2 ^ 52 : ℝ) ^ (1 / 3 : ℝ)

/-- `aa.set(i, j, v)` -/
def set2 (aa : Nat → Nat → ℝ) (i j : Nat) (v : ℝ) : Nat → Nat → ℝ := fun i' j' => if i' = i ∧ j' = j then v else aa i' j'

/-- the companion matrix (/repo/russell_lab/src/algo/root_finder.rs:183-192); all indices are below `nn ≥ 2` -/
def companion (a : Nat → ℝ) (nn : Nat) : Nat → Nat → ℝ :=
  let aa := set2 (fun _ _ => 0) 0 1 1
  let aa := (List.range' 1 (nn - 1 - 1)).foldl (fun aa r => set2 (set2 aa r (r + 1) (1 / 2)) r (r - 1) (1 / 2)) aa
  let aa := (List.range nn).foldl (fun aa k => set2 aa (nn - 1) k (-(1 / 2) * a k / a nn)) aa
  set2 aa (nn - 1) (nn - 2) (aa (nn - 1) (nn - 2) + 1 / 2)

/-- an eigenvalue routine: the order, the matrix; the real and imaginary parts of the eigenvalues -/
abbrev Eig := Nat → (Nat → Nat → ℝ) → Res (List (ℝ × ℝ))

/-- the matrix with complex entries -/
def toMat (n : Nat) (aa : Nat → Nat → ℝ) : Matrix (Fin n) (Fin n) ℂ := fun i j => (aa i j : ℂ)

/-- what is assumed about `mat_eigenvalues` (/repo/russell_lab/src/matrix/mat_eigenvalues.rs:88-137): if it succeeds, it returns the
roots of the characteristic polynomial with their multiplicities -/
def EigContract (eig : Eig) : Prop :=
  ∀ n aa l, eig n aa = ok l → ((l.map fun p => (⟨p.1, p.2⟩ : ℂ) : List ℂ) : Multiset ℂ) = (toMat n aa).charpoly.roots

open Classical in
/-- `RootFinder::chebyshev` (/repo/russell_lab/src/algo/root_finder.rs:151-215) -/
def chebyshev (rf : RootFinder) (eig : Eig) (interp : InterpChebyshev) : Res (List ℝ) :=
  if interp.ready then
    let nn := interp.nn
    if nn = 0 then ok []
    else
      let a := interp.a
      if |a nn| < rf.tol_zero_an then err "the trailing Chebyshev coefficient vanishes; try a smaller degree N"
      else if nn = 1 then
        let z := -a 0 / a 1
        if |z| ≤ 1 + rf.tol_abs_boundary then ok [(interp.xb + interp.xa + interp.dx * z) / 2] else ok []
      else
        match eig nn (companion a nn) with
        | ok l =>
          ok ((l.filterMap fun p =>
            if |p.2| < rf.tol_abs_imaginary then
              if |p.1| ≤ 1 + rf.tol_abs_boundary then
                some (max interp.xa (min interp.xb ((interp.xb + interp.xa + interp.dx * p.1) / 2)))
              else none
            else none).insertionSort (· ≤ ·))
        | _ => Res.panic
  else err "the interpolant must initialized first"

section
variable {A : Type}

open Classical in
/-- the derivative of `refine` (/repo/russell_lab/src/algo/root_finder.rs:282-291) -/
def slope (rf : RootFinder) (xa xb : ℝ) (f : Callback ℝ A) (x : ℝ) (args : A) : Res (ℝ × A) :=
  if x - rf.h_cen ≤ xa then do
    let (f1, args) ← f (x + rf.h_osd) args
    let (f0, args) ← f x args
    ok ((f1 - f0) / rf.h_osd, args)
  else if x + rf.h_cen ≥ xb then do
    let (f1, args) ← f x args
    let (f0, args) ← f (x - rf.h_osd) args
    ok ((f1 - f0) / rf.h_osd, args)
  else do
    let (f1, args) ← f (x + rf.h_cen) args
    let (f0, args) ← f (x - rf.h_cen) args
    ok ((f1 - f0) / (rf.h_cen * 2), args)

open Classical in
/-- the iterations for one root (/repo/russell_lab/src/algo/root_finder.rs:273-306); no value if they have not converged -/
def newtonLoop (rf : RootFinder) (xa xb : ℝ) (f : Callback ℝ A) : (n : Nat) → ℝ → A → Res (Option ℝ × A)
  | 0, _, args => ok (none, args)
  | n + 1, x, args => do
    let (fx, args) ← f x args
    if |fx| < rf.newton_tol_zero_fx then ok (some x, args)
    else do
      let (dfdx, args) ← rf.slope xa xb f x args
      if |dfdx| < rf.newton_tol_zero_fx then ok (some x, args)
      else do
        let (fx, args) ← f x args
        let dx := -fx / dfdx
        if |dx| < rf.newton_tol_zero_dx then ok (some x, args)
        else newtonLoop rf xa xb f n (x + dx) args

/-- the loop over the roots (/repo/russell_lab/src/algo/root_finder.rs:270-311): the roots are replaced one after the other -/
def refineLoop (rf : RootFinder) (xa xb : ℝ) (f : Callback ℝ A) : List ℝ → A → MRes (List ℝ × A)
  | [], args => MRes.ok ([], args)
  | x :: t, args =>
    match rf.newtonLoop xa xb f rf.newton_max_iterations x args with
    | ok (some y, args) =>
      match refineLoop rf xa xb f t args with
      | MRes.ok (l, args) => MRes.ok (y :: l, args)
      | MRes.err (l, args) m => MRes.err (y :: l, args) m
      | MRes.panic => MRes.panic
    | ok (none, args) => MRes.err (x :: t, args) "Newton's method did not converge"
    | err m => MRes.err (x :: t, args) m
    | Res.panic => MRes.panic

/-- `RootFinder::refine` (/repo/russell_lab/src/algo/root_finder.rs:258-313) -/
def refine (rf : RootFinder) (roots : List ℝ) (xa xb : ℝ) (args : A) (f : Callback ℝ A) : MRes (List ℝ × A) :=
  if roots.length < 1 then MRes.err (roots, args) "at least one root is required"
  else rf.refineLoop xa xb f roots args

end

end RootFinder

end

end Russell.Lab
