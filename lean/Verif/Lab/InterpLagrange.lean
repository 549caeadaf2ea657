import Verif.Lab.Barycentric
import Verif.Lab.ChebyshevPoints
import Verif.Lab.NumVector
import Verif.Lab.Functions
import Verif.Sparse.DenseLemmas
import Mathlib.Analysis.SpecialFunctions.Pow.Real
import Mathlib.Analysis.SpecialFunctions.Trigonometric.Bounds

/-!
# Lagrange interpolation in barycentric form (property C34)

Model of `InterpLagrange` (/repo/russell_lab/src/algo/interp_lagrange.rs) over the real numbers.

The basis functions divide by `x - Xₖ`, also when `x` is the node `Xₖ`: the code relies on `λ/0 = ∞`, `a + ∞ = ∞` and `a/∞ = 0`. The
evaluation is therefore modelled with real numbers extended by one infinity (without a sign) and a not-a-number (`Ext`). The weights and
the differentiation matrices divide by differences of distinct nodes and by weights only; there plain real numbers are used.
-/

namespace Russell.Lab

open Russell Russell.Res Russell.Sparse Finset

noncomputable section

/-! ## Extended numbers -/

/-- a finite number, an infinite one, or not a number -/
inductive Ext where
  | fin (a : ℝ)
  | inf
  | nan

namespace Ext

protected def add : Ext → Ext → Ext
  | fin a, fin b => fin (a + b)
  | fin _, inf => inf
  | inf, fin _ => inf
  | _, _ => nan

protected def neg : Ext → Ext
  | fin a => fin (-a)
  | inf => inf
  | nan => nan

open Classical in
protected def mul : Ext → Ext → Ext
  | fin a, fin b => fin (a * b)
  | fin a, inf => if a = 0 then nan else inf
  | inf, fin a => if a = 0 then nan else inf
  | inf, inf => inf
  | _, _ => nan

open Classical in
protected def div : Ext → Ext → Ext
  | fin a, fin b => if b = 0 then (if a = 0 then nan else inf) else fin (a / b)
  | fin _, inf => fin 0
  | inf, fin _ => inf
  | _, _ => nan

instance : Add Ext := ⟨Ext.add⟩
instance : Neg Ext := ⟨Ext.neg⟩
instance : Sub Ext := ⟨fun a b => a + -b⟩
instance : Mul Ext := ⟨Ext.mul⟩
instance : Div Ext := ⟨Ext.div⟩

theorem fin_add (a b : ℝ) : fin a + fin b = fin (a + b) := rfl
theorem fin_neg (a : ℝ) : -fin a = fin (-a) := rfl
theorem fin_sub (a b : ℝ) : fin a - fin b = fin (a - b) := by
  show fin a + -fin b = _
  rw [fin_neg, fin_add, sub_eq_add_neg]
theorem fin_mul (a b : ℝ) : fin a * fin b = fin (a * b) := rfl
theorem fin_div {a b : ℝ} (h : b ≠ 0) : fin a / fin b = fin (a / b) := if_neg h
theorem fin_div_zero {a : ℝ} (h : a ≠ 0) : fin a / fin 0 = inf := by
  show (if (0 : ℝ) = 0 then (if a = 0 then nan else inf) else fin (a / 0)) = inf
  rw [if_pos rfl, if_neg h]
theorem fin_add_inf (a : ℝ) : fin a + inf = inf := rfl
theorem inf_add_fin (a : ℝ) : inf + fin a = inf := rfl
theorem fin_div_inf (a : ℝ) : fin a / inf = fin 0 := rfl

end Ext

open Ext

/-! ## The model -/

/-- `enum InterpGrid` (/repo/russell_lab/src/algo/interp_lagrange.rs:9-14) -/
inductive InterpGrid where
  | uniform
  | chebyshevGauss
  | chebyshevGaussLobatto
  deriving DecidableEq

/-- `struct InterpParams` (/repo/russell_lab/src/algo/interp_lagrange.rs:17-33) -/
structure InterpParams where
  gridType : InterpGrid
  noEtaNormalization : Bool
  etaCutoff : Nat
  lebesgueEstimateNstation : Nat
  errorEstimateNstation : Nat

/-- `InterpParams::new` (/repo/russell_lab/src/algo/interp_lagrange.rs:37-45) -/
def InterpParams.new : InterpParams := ⟨.chebyshevGaussLobatto, false, 700, 10000, 1000⟩

/-- `validate` (/repo/russell_lab/src/algo/interp_lagrange.rs:48-56) -/
def InterpParams.validate (p : InterpParams) : Res Unit :=
  if p.lebesgueEstimateNstation < 2 then err "lebesgue_estimate_nstation must be ≥ 2"
  else if p.errorEstimateNstation < 2 then err "error_estimate_nstation must be ≥ 2"
  else ok ()

/-- `struct InterpLagrange` (/repo/russell_lab/src/algo/interp_lagrange.rs:248-273) -/
structure Interp where
  nn : Nat
  params : InterpParams
  npoint : Nat
  xx : List ℝ
  eta : List ℝ
  lambda : List ℝ
  dd1 : NumMatrix ℝ
  dd2 : NumMatrix ℝ

/-- `DX_EPSILON` (/repo/russell_lab/src/algo/interp_lagrange.rs:6) -/
def dxEps : ℝ := 10 * (1 / 2 ^ 52)

namespace Interp

/-- the nodes (/repo/russell_lab/src/algo/interp_lagrange.rs:320-324) -/
def grid (g : InterpGrid) (nn npoint : Nat) : Res (List ℝ) :=
  match g with
  | .uniform => (linspace (-1) 1 npoint).unwrap
  | .chebyshevGauss => chebyshevGaussPoints nn
  | .chebyshevGaussLobatto => chebyshevLobattoPoints nn

/-- a product over the other nodes (/repo/russell_lab/src/algo/interp_lagrange.rs:341-346) -/
def diffProd (xx : List ℝ) (npoint j : Nat) : Res ℝ :=
  forRange 0 npoint 1 fun k prod =>
    if k ≠ j then do
      let xj ← vget xx j
      let xk ← vget xx k
      ok (prod * (xj - xk))
    else ok prod

/-- weights without normalization (/repo/russell_lab/src/algo/interp_lagrange.rs:340-348) -/
def lambdaPlain (xx : List ℝ) (npoint : Nat) : Res (List ℝ) :=
  forRange 0 npoint (List.replicate npoint 0) fun j lambda => do
    let prod ← diffProd xx npoint j
    vset lambda j (1 / prod)

/-- sums of logarithms (/repo/russell_lab/src/algo/interp_lagrange.rs:356-362) -/
def etaLoop (xx : List ℝ) (npoint : Nat) : Res (List ℝ) :=
  forRange 0 npoint (List.replicate npoint 0) fun j eta =>
    forRange 0 npoint eta fun k eta =>
      if k ≠ j then do
        let xj ← vget xx j
        let xk ← vget xx k
        let e ← vget eta j
        vset eta j (e + Real.log |xj - xk|)
      else ok eta

/-- the factors (/repo/russell_lab/src/algo/interp_lagrange.rs:364-373) -/
def factors (nn cutoff : Nat) : ℝ × ℝ × ℝ :=
  if nn > cutoff then ((2 : ℝ) ^ ((nn : ℝ) / 3), (2 : ℝ) ^ ((nn : ℝ) / 3), (2 : ℝ) ^ ((nn : ℝ) / 3 - 1) / nn)
  else ((2 : ℝ) ^ ((nn : ℝ) - 1) / nn, 0, 0)

/-- weights with normalization (/repo/russell_lab/src/algo/interp_lagrange.rs:375-394); a real number is finite, so that the
assertion holds -/
def lambdaEta (eta : List ℝ) (nn npoint cutoff : Nat) : Res (List ℝ) :=
  let c := factors nn cutoff
  forRange 0 npoint (List.replicate npoint 0) fun j lambda => do
    let aj : ℝ := negOnePowN (BitVec.ofNat 32 (j + nn))
    let e ← vget eta j
    let mj := -e
    if nn > cutoff then do
      let bj := Real.exp (mj / 3)
      let lambda ← vset lambda j (aj * bj / c.1)
      let l ← vget lambda j
      let lambda ← vset lambda j (l * (bj / c.2.1))
      let l ← vget lambda j
      vset lambda j (l * (bj / c.2.2))
    else vset lambda j (aj * Real.exp mj / c.1)

/-- eta and lambda (/repo/russell_lab/src/algo/interp_lagrange.rs:325-326, 339-395) -/
def weights (par : InterpParams) (nn npoint : Nat) (xx : List ℝ) : Res (List ℝ × List ℝ) :=
  if par.noEtaNormalization then do
    let lambda ← lambdaPlain xx npoint
    ok ([], lambda)
  else do
    let eta ← etaLoop xx npoint
    let lambda ← lambdaEta eta nn npoint par.etaCutoff
    ok (eta, lambda)

/-- `new` (/repo/russell_lab/src/algo/interp_lagrange.rs:303-399) -/
def new (nn : Nat) (params : Option InterpParams) : Res Interp :=
  if nn < 1 ∨ nn > 2048 then err "the polynomial degree must be in [1, 2048]"
  else do
    let par := params.getD InterpParams.new
    par.validate
    let npoint := nn + 1
    let xx ← grid par.gridType nn npoint
    let w ← weights par nn npoint xx
    ok { nn := nn, params := par, npoint := npoint, xx := xx, eta := w.1, lambda := w.2, dd1 := NumMatrix.new 0 0, dd2 := NumMatrix.new 0 0 }

/-- the sum in the denominator (/repo/russell_lab/src/algo/interp_lagrange.rs:480-483) -/
def psiSum (s : Interp) (x : ℝ) : Res Ext :=
  forRange 0 s.npoint (fin 0) fun k sum => do
    let l ← vget s.lambda k
    let xk ← vget s.xx k
    ok (sum + fin l / fin (x - xk))

/-- `psi` (/repo/russell_lab/src/algo/interp_lagrange.rs:470-485) -/
def psi (s : Interp) (j : Nat) (x : ℝ) : Res Ext :=
  if j > s.nn then err "j must be in 0 ≤ j ≤ N"
  else if x < -1 ∨ x > 1 then err "x must be in -1 ≤ x ≤ 1"
  else do
    let xj ← vget s.xx j
    if |x - xj| < dxEps then ok (fin 1)
    else do
      let sum ← s.psiSum x
      let l ← vget s.lambda j
      ok (fin l / fin (x - xj) / sum)

/-- `eval` (/repo/russell_lab/src/algo/interp_lagrange.rs:531-543) -/
def eval (s : Interp) (x : ℝ) (uu : List ℝ) : Res Ext :=
  if x < -1 ∨ x > 1 then err "x must be in -1 ≤ x ≤ 1"
  else if uu.length ≠ s.npoint then err "the dimension of the data vector U must be equal to N + 1"
  else
    forRange 0 s.npoint (fin 0) fun j res => do
      let u ← vget uu j
      let psi ← (s.psi j x).unwrap
      ok (res + fin u * psi)

/-- one step of the search for a node; the loop stops at the first one (/repo/russell_lab/src/algo/interp_lagrange.rs:622-629, 741-748) -/
def searchStep (s : Interp) (x : ℝ) (j : Nat) (at_ : Option Nat) : Res (Option Nat) :=
  match at_ with
  | some k => ok (some k)
  | none => do
    let xj ← vget s.xx j
    ok (if |x - xj| < dxEps then some j else none)

/-- the search for a node close to `x` (/repo/russell_lab/src/algo/interp_lagrange.rs:622-629, 741-748) -/
def searchNode (s : Interp) (x : ℝ) : Res (Option Nat) := forRange 0 s.npoint none (s.searchStep x)

/-- the index of the node at `x`, if any (/repo/russell_lab/src/algo/interp_lagrange.rs:613-630, 732-749) -/
def atNode (s : Interp) (x : ℝ) : Res (Option Nat) :=
  if x = -1 then ok (some 0)
  else if x = 1 then ok (some s.nn)
  else s.searchNode x

/-- first derivative at node `k` (/repo/russell_lab/src/algo/interp_lagrange.rs:632-639) -/
def deriv1Node (s : Interp) (k : Nat) (uu : List ℝ) : Res Ext := do
  let sum ← forRange 0 s.npoint (fin 0) fun j sum =>
    if j ≠ k then do
      let l ← vget s.lambda j
      let uk ← vget uu k
      let uj ← vget uu j
      let xk ← vget s.xx k
      let xj ← vget s.xx j
      ok (sum + fin (l * (uk - uj)) / fin (xk - xj))
    else ok sum
  let l ← vget s.lambda k
  ok (-sum / fin l)

/-- first derivative away from the nodes (/repo/russell_lab/src/algo/interp_lagrange.rs:641-650) -/
def deriv1Away (s : Interp) (x : ℝ) (uu : List ℝ) : Res Ext := do
  let pnu ← (s.eval x uu).unwrap
  let st ← forRange 0 s.npoint (fin 0, fin 0) fun j st => do
    let xj ← vget s.xx j
    let l ← vget s.lambda j
    let u ← vget uu j
    let dx := fin (x - xj)
    let a := fin l / dx
    ok (st.1 + a * (pnu - fin u) / dx, st.2 + a)
  ok (st.1 / st.2)

/-- `eval_deriv1` (/repo/russell_lab/src/algo/interp_lagrange.rs:606-652) -/
def evalDeriv1 (s : Interp) (x : ℝ) (uu : List ℝ) : Res Ext :=
  if x < -1 ∨ x > 1 then err "x must be in -1 ≤ x ≤ 1"
  else if uu.length ≠ s.npoint then err "the dimension of the data vector U must be equal to N + 1"
  else do
    let at_ ← s.atNode x
    match at_ with
    | some k => s.deriv1Node k uu
    | none => s.deriv1Away x uu

/-- diagonal entry of the first differentiation matrix (/repo/russell_lab/src/algo/interp_lagrange.rs:752-759) -/
def d1kk (s : Interp) (k : Nat) : Res Ext := do
  let sum ← forRange 0 s.npoint (fin 0) fun j sum =>
    if j ≠ k then do
      let l ← vget s.lambda j
      let xk ← vget s.xx k
      let xj ← vget s.xx j
      ok (sum + fin l / fin (xk - xj))
    else ok sum
  let l ← vget s.lambda k
  ok (-sum / fin l)

/-- second derivative at node `k` (/repo/russell_lab/src/algo/interp_lagrange.rs:752-769) -/
def deriv2Node (s : Interp) (k : Nat) (uu : List ℝ) : Res Ext := do
  let dkk ← s.d1kk k
  let sum ← forRange 0 s.npoint (fin 0) fun j sum =>
    if j ≠ k then do
      let xk ← vget s.xx k
      let xj ← vget s.xx j
      let lj ← vget s.lambda j
      let lk ← vget s.lambda k
      let uk ← vget uu k
      let uj ← vget uu j
      let dx := fin (xk - xj)
      let d1kj := fin lj / fin lk / dx
      ok (sum + d1kj * (dkk - fin 1 / dx) * fin (uk - uj))
    else ok sum
  ok (fin (-2) * sum)

/-- second derivative away from the nodes (/repo/russell_lab/src/algo/interp_lagrange.rs:771-783) -/
def deriv2Away (s : Interp) (x : ℝ) (uu : List ℝ) : Res Ext := do
  let pnu ← (s.eval x uu).unwrap
  let dpnu ← (s.evalDeriv1 x uu).unwrap
  let st ← forRange 0 s.npoint (fin 0, fin 0) fun j st => do
    let xj ← vget s.xx j
    let l ← vget s.lambda j
    let u ← vget uu j
    let dx := fin (x - xj)
    let a := fin l / dx
    let b := fin 2 / dx
    let c := dpnu + (fin u - pnu) / dx
    ok (st.1 + a * b * c, st.2 + a)
  ok (st.1 / st.2)

/-- `eval_deriv2` (/repo/russell_lab/src/algo/interp_lagrange.rs:725-785) -/
def evalDeriv2 (s : Interp) (x : ℝ) (uu : List ℝ) : Res Ext :=
  if x < -1 ∨ x > 1 then err "x must be in -1 ≤ x ≤ 1"
  else if uu.length ≠ s.npoint then err "the dimension of the data vector U must be equal to N + 1"
  else do
    let at_ ← s.atNode x
    match at_ with
    | some k => s.deriv2Node k uu
    | none => s.deriv2Away x uu

/-- an entry of D1 (/repo/russell_lab/src/algo/interp_lagrange.rs:841, 854-855) -/
def dd1Entry (s : Interp) (k j : Nat) : Res ℝ := do
  let xk ← vget s.xx k
  let xj ← vget s.xx j
  if s.params.noEtaNormalization then do
    let lj ← vget s.lambda j
    let lk ← vget s.lambda k
    ok (lj / lk / (xk - xj))
  else do
    let ek ← vget s.eta k
    let ej ← vget s.eta j
    ok (negOnePowN (BitVec.ofNat 32 (k + j)) * Real.exp (ek - ej) / (xk - xj))

/-- a row of a differentiation matrix, with the negative sum trick (/repo/russell_lab/src/algo/interp_lagrange.rs:838-846, 851-860, 921-929) -/
def ddRow (npoint k : Nat) (entry : Nat → Res ℝ) (dd : NumMatrix ℝ) : Res (NumMatrix ℝ) := do
  let st ← forRange 0 npoint ((0 : ℝ), dd) fun j st =>
    if k ≠ j then do
      let v ← entry j
      let dd ← st.2.set k j v
      ok (st.1 + v, dd)
    else ok st
  st.2.set k k (-st.1)

/-- `calc_dd1_matrix` (/repo/russell_lab/src/algo/interp_lagrange.rs:828-863) -/
def calcDd1 (s : Interp) : Res Interp :=
  if s.dd1.nrow = s.npoint then ok s
  else do
    let dd1 ← forRange 0 s.npoint (NumMatrix.new s.npoint s.npoint) fun k dd1 => ddRow s.npoint k (s.dd1Entry k) dd1
    ok { s with dd1 := dd1 }

/-- an entry of D2 (/repo/russell_lab/src/algo/interp_lagrange.rs:924) -/
def dd2Entry (s : Interp) (k j : Nat) : Res ℝ := do
  let a ← s.dd1.get k j
  let b ← s.dd1.get k k
  let xk ← vget s.xx k
  let xj ← vget s.xx j
  ok (2 * a * (b - 1 / (xk - xj)))

/-- `calc_dd2_matrix` (/repo/russell_lab/src/algo/interp_lagrange.rs:909-931) -/
def calcDd2 (s : Interp) : Res Interp := do
  let s ← s.calcDd1
  if s.dd2.nrow = s.npoint then ok s
  else do
    let dd2 ← forRange 0 s.npoint (NumMatrix.new s.npoint s.npoint) fun k dd2 => ddRow s.npoint k (s.dd2Entry k) dd2
    ok { s with dd2 := dd2 }

/-- `get_dd1` (/repo/russell_lab/src/algo/interp_lagrange.rs:1072-1077) -/
def getDd1 (s : Interp) : Res (NumMatrix ℝ) :=
  if s.dd1.nrow = 0 then err "calc_dd1_matrix must be called first" else ok s.dd1

/-- `get_dd2` (/repo/russell_lab/src/algo/interp_lagrange.rs:1080-1085) -/
def getDd2 (s : Interp) : Res (NumMatrix ℝ) :=
  if s.dd2.nrow = 0 then err "calc_dd2_matrix must be called first" else ok s.dd2

end Interp

end

end Russell.Lab
