import Verif.Lab.Bspline
import Mathlib.Algebra.Polynomial.Derivative
import Mathlib.Data.Nat.Factorial.Basic
import Mathlib.Analysis.Calculus.Deriv.Polynomial
import Mathlib.Analysis.Calculus.ContDiff.Polynomial
import Mathlib.Analysis.Calculus.IteratedDeriv.Lemmas

/-!
# Derivatives of B-splines (property C99)

Model of `calc_basis_and_derivs`, `get_basis_deriv`, `calc_curve_derivs`, `get_curve_deriv` and `get_elements` of `Bspline`
(/repo/russell_lab/src/algo/bspline.rs) over an ordered field.
-/

namespace Russell.Lab

open Russell Res Polynomial

variable {α : Type} [Field α] [LinearOrder α]

/-- a nested vector `n1 × n2` -/
structure Grid2 (α : Type) where
  n1 : Nat
  n2 : Nat
  v : Nat → Nat → α

/-- a nested vector `n1 × n2 × n3` -/
structure Grid3 (α : Type) where
  n1 : Nat
  n2 : Nat
  n3 : Nat
  v : Nat → Nat → Nat → α

def Grid2.get (g : Grid2 α) (i j : Nat) : Res α := if i < g.n1 ∧ j < g.n2 then ok (g.v i j) else panic
def Grid2.put (g : Grid2 α) (i j : Nat) (x : α) : Grid2 α := { g with v := fun r c => if r = i ∧ c = j then x else g.v r c }
def Grid2.set (g : Grid2 α) (i j : Nat) (x : α) : Res (Grid2 α) := if i < g.n1 ∧ j < g.n2 then ok (g.put i j x) else panic
/-- `g[i].fill(0.0)` -/
def Grid2.zeroRow (g : Grid2 α) (i : Nat) : Res (Grid2 α) :=
  if i < g.n1 then ok { g with v := fun r c => if r = i then 0 else g.v r c } else panic
def Grid3.get (g : Grid3 α) (i j k : Nat) : Res α := if i < g.n1 ∧ j < g.n2 ∧ k < g.n3 then ok (g.v i j k) else panic
def Grid3.set (g : Grid3 α) (i j k : Nat) (x : α) : Res (Grid3 α) :=
  if i < g.n1 ∧ j < g.n2 ∧ k < g.n3 then ok { g with v := fun r c t => if r = i ∧ c = j ∧ t = k then x else g.v r c t } else panic

/-- `Bspline` with the fields that are used for the derivatives (/repo/russell_lab/src/algo/bspline.rs:77-142): `ders` is a
`(p+1) × (p+1)` array and `a` a `2 × (p+1)` array -/
structure BsplineD (α : Type) extends Bspline α where
  ders : Arr2 α
  a : Arr2 α
  ccDers : Grid2 α
  ppDers : Grid3 α

/-- `Bspline::new` (/repo/russell_lab/src/algo/bspline.rs:151-189) -/
def BsplineD.new (p : Nat) (uu : List α) : Res (BsplineD α) := do
  let b ← Bspline.new p uu
  ok { toBspline := b, ders := fun _ _ => 0, a := fun _ _ => 0, ccDers := ⟨0, 0, fun _ _ => 0⟩, ppDers := ⟨0, 0, 0, fun _ _ _ => 0⟩ }

/-- `set_control_points` (/repo/russell_lab/src/algo/bspline.rs:205-226) -/
def BsplineD.setControlPoints (b : BsplineD α) (pp : List (List α)) (ndim : Nat) : Res (BsplineD α) := do
  let c ← b.toBspline.setControlPoints pp ndim
  ok { b with toBspline := c }

/-- body of the second step of `ders_basis_funs` (/repo/russell_lab/src/algo/bspline.rs:552-554); the state is `(a, d)` -/
def dersInner (p : Nat) (ndu : Arr2 α) (r k pk s1 s2 j : Nat) (s : Arr2 α × α) : Res (Arr2 α × α) := do
  let rkj ← subUsize (r + j) k
  let x ← Arr2.get 2 (p + 1) s.1 s1 j
  let j1 ← subUsize j 1
  let y ← Arr2.get 2 (p + 1) s.1 s1 j1
  let z ← Arr2.get (p + 1) (p + 1) ndu (pk + 1) rkj
  let a ← Arr2.set 2 (p + 1) s.1 s2 j ((x - y) / z)
  let x ← Arr2.get 2 (p + 1) a s2 j
  let y ← Arr2.get (p + 1) (p + 1) ndu rkj pk
  ok (a, s.2 + x * y)

/-- the local state of the loop over `k` -/
structure DersState (α : Type) where
  a : Arr2 α
  ders : Arr2 α
  s1 : Nat
  s2 : Nat

/-- first step of the computation of the `k`-th derivative (/repo/russell_lab/src/algo/bspline.rs:538-545); returns `(a, d)` -/
def dersFirst (p : Nat) (ndu : Arr2 α) (r k pk s1 s2 : Nat) (a : Arr2 α) : Res (Arr2 α × α) :=
  if r ≥ k then do
    let x ← Arr2.get 2 (p + 1) a s1 0
    let rk ← subUsize r k
    let y ← Arr2.get (p + 1) (p + 1) ndu (pk + 1) rk
    let a ← Arr2.set 2 (p + 1) a s2 0 (x / y)
    let x ← Arr2.get 2 (p + 1) a s2 0
    let y ← Arr2.get (p + 1) (p + 1) ndu rk pk
    ok (a, x * y)
  else ok (a, 0)

/-- third step of the computation of the `k`-th derivative (/repo/russell_lab/src/algo/bspline.rs:558-561); the state is `(a, d)` -/
def dersThird (p : Nat) (ndu : Arr2 α) (r k pk s1 s2 : Nat) (t : Arr2 α × α) : Res (Arr2 α × α) :=
  if r ≤ pk then do
    let k1 ← subUsize k 1
    let x ← Arr2.get 2 (p + 1) t.1 s1 k1
    let y ← Arr2.get (p + 1) (p + 1) ndu (pk + 1) r
    let a ← Arr2.set 2 (p + 1) t.1 s2 k (-x / y)
    let x ← Arr2.get 2 (p + 1) a s2 k
    let y ← Arr2.get (p + 1) (p + 1) ndu r pk
    ok (a, t.2 + x * y)
  else ok t

/-- `j1` (/repo/russell_lab/src/algo/bspline.rs:548) -/
def dersJ1 (r k : Nat) : Res Nat := do
  let k1 ← subUsize k 1
  if r ≥ k1 then ok 1 else subUsize k r

/-- `j2` (/repo/russell_lab/src/algo/bspline.rs:549) -/
def dersJ2 (p r k pk : Nat) : Res Nat := if r ≤ pk + 1 then subUsize k 1 else subUsize p r

/-- body of the loop over `k` of `ders_basis_funs` (/repo/russell_lab/src/algo/bspline.rs:537-565) -/
def dersStep (p : Nat) (ndu : Arr2 α) (r k : Nat) (st : DersState α) : Res (DersState α) := do
  let pk ← subUsize p k
  let t ← dersFirst p ndu r k pk st.s1 st.s2 st.a
  let j1 ← dersJ1 r k
  let j2 ← dersJ2 p r k pk
  let t ← forRange j1 (j2 + 1) t (dersInner p ndu r k pk st.s1 st.s2)
  let t ← dersThird p ndu r k pk st.s1 st.s2 t
  let ders ← Arr2.set (p + 1) (p + 1) st.ders k r t.2
  ok ⟨t.1, ders, st.s2, st.s1⟩

/-- body of the loop over `r` of `ders_basis_funs` (/repo/russell_lab/src/algo/bspline.rs:530-566); the state is `(a, ders)` -/
def dersRow (p : Nat) (ndu : Arr2 α) (upto r : Nat) (s : Arr2 α × Arr2 α) : Res (Arr2 α × Arr2 α) := do
  let a ← Arr2.set 2 (p + 1) s.1 0 0 1
  let st ← forRange 1 (upto + 1) ⟨a, s.2, 0, 1⟩ (dersStep p ndu r)
  ok (st.a, st.ders)

/-- multiplication by the factors (/repo/russell_lab/src/algo/bspline.rs:569-575); the state is `(ders, d)` -/
def dersScale (p : Nat) (k : Nat) (s : Arr2 α × α) : Res (Arr2 α × α) := do
  let ders ← forRange 0 (p + 1) s.1 fun j ders => do
    let x ← Arr2.get (p + 1) (p + 1) ders k j
    Arr2.set (p + 1) (p + 1) ders k j (x * s.2)
  let pk ← subUsize p k
  ok (ders, s.2 * (pk : α))

/-- `ders_basis_funs` (/repo/russell_lab/src/algo/bspline.rs:511-576) -/
def BsplineD.dersBasisFuns (b : BsplineD α) (u : α) (span upto : Nat) : Res (BsplineD α) := do
  let c ← b.toBspline.basisFuns u span
  let ders ← forRange 0 (b.p + 1) b.ders fun j ders => do
    let x ← Arr2.get (b.p + 1) (b.p + 1) c.ndu j b.p
    Arr2.set (b.p + 1) (b.p + 1) ders 0 j x
  let s ← forRange 0 (b.p + 1) (b.a, ders) (dersRow b.p c.ndu upto)
  let t ← forRange 1 (upto + 1) (s.2, (b.p : α)) (dersScale b.p)
  ok { b with toBspline := c, a := s.1, ders := t.1 }

/-- `calc_basis_and_derivs` (/repo/russell_lab/src/algo/bspline.rs:243-254) -/
def BsplineD.calcBasisAndDerivs (b : BsplineD α) (u : α) (upto : Nat) : Res (BsplineD α) :=
  if u < b.uMin ∨ u > b.uMax then err "u is out of range"
  else if upto > b.p then err "upto must be in [0, p]"
  else do
    let span ← findSpan b.p b.uu u
    let b := { b with span }
    b.dersBasisFuns u b.span upto

/-- `get_basis_deriv` (/repo/russell_lab/src/algo/bspline.rs:278-285) -/
def BsplineD.getBasisDeriv (b : BsplineD α) (i degree : Nat) : Res α :=
  if i + b.p ≥ b.span ∧ i ≤ b.span then Arr2.get (b.p + 1) (b.p + 1) b.ders degree (i + b.p - b.span)
  else ok 0

/-- the assertions and the allocation at the beginning of `curve_derivs_alg1` and `curve_derivs_alg2`
(/repo/russell_lab/src/algo/bspline.rs:584-590, 653-659); returns `ndim` -/
def BsplineD.prepareCurve (b : BsplineD α) (upto : Nat) : Res (Nat × Grid2 α) :=
  if b.pp.length ≠ b.numBasis then panic
  else do
    let p0 ← vget b.pp 0
    if p0.length = 0 then panic
    else if upto > b.p then panic
    else ok (p0.length, if b.ccDers.n1 ≠ b.p + 1 then ⟨b.p + 1, p0.length, fun _ _ => 0⟩ else b.ccDers)

/-- `curve_derivs_alg1` (/repo/russell_lab/src/algo/bspline.rs:583-603) -/
def BsplineD.curveDerivsAlg1 (b : BsplineD α) (u : α) (upto : Nat) : Res (BsplineD α) := do
  let (ndim, cc) ← b.prepareCurve upto
  let span ← findSpan b.p b.uu u
  let b ← b.dersBasisFuns u span upto
  let cc ← forRange 0 (upto + 1) cc fun k cc => do
    let cc ← cc.zeroRow k
    forRange 0 (b.p + 1) cc fun j cc => do
      let s ← subUsize span b.p
      forRange 0 ndim cc fun l cc => do
        let c ← cc.get k l
        let w ← Arr2.get (b.p + 1) (b.p + 1) b.ders k j
        let row ← vget b.pp (s + j)
        let x ← vget row l
        cc.set k l (c + w * x)
  ok { b with ccDers := cc }

/-- `curve_deriv_cpts` (/repo/russell_lab/src/algo/bspline.rs:614-643); returns the new `pp_ders` -/
def BsplineD.curveDerivCpts (b : BsplineD α) (upto r1 r2 : Nat) : Res (Grid3 α) :=
  if b.pp.length ≠ b.numBasis then panic
  else do
    let p0 ← vget b.pp 0
    if p0.length = 0 then panic
    else if upto > b.p then panic
    else if r1 > r2 then panic
    else do
      let ndim := p0.length
      let npp := b.pp.length
      let g : Grid3 α := if b.ppDers.n1 ≠ b.p + 1 then ⟨b.p + 1, npp, ndim, fun _ _ _ => 0⟩ else b.ppDers
      let r ← subUsize r2 r1
      let g ← forRange 0 (r + 1) g fun i g => forRange 0 ndim g fun l g => do
        let row ← vget b.pp (r1 + i)
        let x ← vget row l
        g.set 0 i l x
      forRange 1 (upto + 1) g fun k g => do
        let pk ← subUsize b.p k
        let tmp : α := ((pk + 1 : Nat) : α)
        let rk ← subUsize r k
        forRange 0 (rk + 1) g fun i g => forRange 0 ndim g fun l g => do
          let k1 ← subUsize k 1
          let x ← g.get k1 (i + 1) l
          let y ← g.get k1 i l
          let ua ← vget b.uu (r1 + i + b.p + 1)
          let ub ← vget b.uu (r1 + i + k)
          g.set k i l (tmp * (x - y) / (ua - ub))

/-- `curve_derivs_alg2` (/repo/russell_lab/src/algo/bspline.rs:652-672) -/
def BsplineD.curveDerivsAlg2 (b : BsplineD α) (u : α) (upto : Nat) : Res (BsplineD α) := do
  let (ndim, cc) ← b.prepareCurve upto
  let span ← findSpan b.p b.uu u
  let b ← b.dersBasisFuns u span upto
  let s ← subUsize span b.p
  let g ← b.curveDerivCpts upto s span
  let cc ← forRange 0 (upto + 1) cc fun k cc => do
    let cc ← cc.zeroRow k
    let pk ← subUsize b.p k
    forRange 0 (pk + 1) cc fun j cc => forRange 0 ndim cc fun l cc => do
      let c ← cc.get k l
      let w ← Arr2.get (b.p + 1) (b.p + 1) b.ndu j pk
      let x ← g.get k j l
      cc.set k l (c + w * x)
  ok { b with ccDers := cc, ppDers := g }

/-- `calc_curve_derivs` (/repo/russell_lab/src/algo/bspline.rs:381-388) -/
def BsplineD.calcCurveDerivs (b : BsplineD α) (u : α) (upto : Nat) (use_control : Bool) : Res (BsplineD α) :=
  let upto := min upto b.p
  if use_control then b.curveDerivsAlg2 u upto else b.curveDerivsAlg1 u upto

/-- `get_curve_deriv` (/repo/russell_lab/src/algo/bspline.rs:397-405) -/
def BsplineD.getCurveDeriv (b : BsplineD α) (cck : List α) (k : Nat) : Res (List α) :=
  if k > b.p then ok (List.replicate cck.length 0)
  else forRange 0 cck.length cck fun l cck => do
    let x ← b.ccDers.get k l
    vset cck l x

/-- `get_elements` (/repo/russell_lab/src/algo/bspline.rs:352-361) -/
def Bspline.getElements (b : Bspline α) (tolerance : α) : Res (List (Nat × Nat)) := do
  let n ← subUsize b.uu.length 1
  forRange 0 n [] fun i spans => do
    let x ← vget b.uu (i + 1)
    let y ← vget b.uu i
    ok (if |x - y| > tolerance then spans ++ [(i, i + 1)] else spans)

/-! ## The derivatives of the polynomial pieces -/

/-- the polynomial piece of the `i`-th B-spline of degree `k` on the knot span `s` -/
noncomputable def pieceP (U : Nat → α) (s : Nat) : (k i : Nat) → α[X]
  | 0, i => if i = s then 1 else 0
  | k + 1, i => C ((U (i + k + 1) - U i)⁻¹) * (X - C (U i)) * pieceP U s k i +
      C ((U (i + k + 2) - U (i + 1))⁻¹) * (C (U (i + k + 2)) - X) * pieceP U s k (i + 1)

omit [LinearOrder α] in
theorem pieceP_eval (U : Nat → α) (s : Nat) (u : α) : ∀ (k i : Nat), (pieceP U s k i).eval u = piece U s u k i
  | 0, i => by
    rw [pieceP, piece]
    split <;> simp
  | k + 1, i => by
    rw [pieceP, piece]
    simp only [eval_add, eval_mul, eval_C, eval_sub, eval_X, pieceP_eval U s u k]
    rw [div_eq_mul_inv, div_eq_mul_inv]
    ring

omit [LinearOrder α] in
theorem pieceP_zero (U : Nat → α) (s : Nat) : ∀ (k i : Nat), (s < i ∨ i + k < s) → pieceP U s k i = 0
  | 0, i, h => if_neg (by omega)
  | k + 1, i, h => by
    rw [pieceP, pieceP_zero U s k i (by omega), pieceP_zero U s k (i + 1) (by omega)]; simp

/-- knots on both sides of the span differ -/
def SpanOk (U : Nat → α) (s L : Nat) : Prop := ∀ i j, i ≤ s → s < j → j < L → U j - U i ≠ 0

omit [LinearOrder α] in
/-- the derivative of a piece in terms of the pieces of the lower degree -/
theorem pieceP_deriv {U : Nat → α} {s L : Nat} (hU : SpanOk U s L) : ∀ (k i : Nat), i + k + 2 < L →
    derivative (pieceP U s (k + 1) i) = (k + 1 : α[X]) * (C ((U (i + k + 1) - U i)⁻¹) * pieceP U s k i -
      C ((U (i + k + 2) - U (i + 1))⁻¹) * pieceP U s k (i + 1))
  | 0, i, _ => by
    rw [pieceP.eq_2]
    have h : ∀ j, derivative (pieceP U s 0 j) = 0 := fun j => by rw [pieceP]; split <;> simp
    simp only [derivative_add, derivative_mul, derivative_C, derivative_X, derivative_sub, h]
    push_cast
    ring
  | k + 1, i, hL => by
    have key : ∀ a b, a ≤ i + 1 → i + 1 + k < b → b < L → C ((U b - U a)⁻¹) * (C (U b) - C (U a)) * pieceP U s k (i + 1) = pieceP U s k (i + 1) := by
      intro a b h1 h2 h3
      by_cases hz : s < i + 1 ∨ i + 1 + k < s
      · rw [pieceP_zero _ _ _ _ hz, mul_zero]
      · rw [← C_sub, ← C_mul, inv_mul_cancel₀ (hU a b (by omega) (by omega) h3), C_1, one_mul]
    have e1 := key i (i + (k + 1) + 1) (by omega) (by omega) (by omega)
    have e2 := key (i + 1) (i + (k + 1) + 2) (by omega) (by omega) (by omega)
    rw [pieceP]
    simp only [derivative_add, derivative_mul, derivative_C, derivative_X, derivative_sub]
    rw [pieceP_deriv hU k i (by omega), pieceP_deriv hU k (i + 1) (by omega)]
    rw [show pieceP U s (k + 1) i = C ((U (i + k + 1) - U i)⁻¹) * (X - C (U i)) * pieceP U s k i +
      C ((U (i + k + 2) - U (i + 1))⁻¹) * (C (U (i + k + 2)) - X) * pieceP U s k (i + 1) from rfl,
      show pieceP U s (k + 1) (i + 1) = C ((U (i + 1 + k + 1) - U (i + 1))⁻¹) * (X - C (U (i + 1))) * pieceP U s k (i + 1) +
      C ((U (i + 1 + k + 2) - U (i + 1 + 1))⁻¹) * (C (U (i + 1 + k + 2)) - X) * pieceP U s k (i + 1 + 1) from rfl]
    rw [show i + (k + 1) + 1 = i + k + 2 by omega, show i + (k + 1) + 2 = i + k + 3 by omega] at *
    rw [show i + 1 + k + 1 = i + k + 2 by omega, show i + 1 + k + 2 = i + k + 3 by omega]
    push_cast
    linear_combination (k + 1 : α[X]) * C ((U (i + k + 2) - U (i + 1))⁻¹) * (e2 - e1)

/-- the coefficients of Eq. (2.9) of The NURBS Book: the `k`-th derivative of the `i`-th B-spline of degree `p` in terms of the
B-splines of degree `p - k` -/
def dcoef (U : Nat → α) (p i : Nat) : (k j : Nat) → α
  | 0, j => if j = 0 then 1 else 0
  | k + 1, 0 => dcoef U p i k 0 / (U (i + (p - k)) - U i)
  | k + 1, j + 1 => (dcoef U p i k (j + 1) - dcoef U p i k j) / (U (i + (j + 1) + (p - k)) - U (i + (j + 1)))

omit [LinearOrder α] in
theorem dcoef_zero (U : Nat → α) (p i : Nat) : ∀ k j, k < j → dcoef U p i k j = 0
  | 0, j, h => if_neg (by omega)
  | k + 1, 0, h => by omega
  | k + 1, j + 1, h => by
    rw [dcoef, dcoef_zero U p i k (j + 1) (by omega), dcoef_zero U p i k j (by omega)]; simp

omit [LinearOrder α] in
theorem iterate_deriv_piece {U : Nat → α} {s L : Nat} (hU : SpanOk U s L) {p i : Nat} (hi : i + p + 1 < L) : ∀ k, k ≤ p →
    derivative^[k] (pieceP U s p i) = (p.descFactorial k : α[X]) * ∑ j ∈ Finset.range (k + 1), C (dcoef U p i k j) * pieceP U s (p - k) (i + j)
  | 0, _ => by simp [dcoef]
  | k + 1, hk => by
    rw [Function.iterate_succ', Function.comp_apply, iterate_deriv_piece hU hi k (by omega)]
    obtain ⟨m, hm⟩ : ∃ m, p - k = m + 1 := ⟨p - k - 1, by omega⟩
    have hm' : p - (k + 1) = m := by omega
    rw [hm, hm', derivative_mul, derivative_natCast, zero_mul, zero_add, derivative_sum, Nat.descFactorial_succ, hm]
    have hd : ∀ j ∈ Finset.range (k + 1), derivative (C (dcoef U p i k j) * pieceP U s (m + 1) (i + j)) = (m + 1 : α[X]) *
        (C (dcoef U p i k j) * C ((U (i + j + m + 1) - U (i + j))⁻¹) * pieceP U s m (i + j) -
          C (dcoef U p i k j) * C ((U (i + (j + 1) + m + 1) - U (i + (j + 1)))⁻¹) * pieceP U s m (i + (j + 1))) := by
      intro j hj
      have := Finset.mem_range.1 hj
      rw [derivative_mul, derivative_C, zero_mul, zero_add, pieceP_deriv hU m (i + j) (by omega)]
      rw [show i + j + m + 2 = i + (j + 1) + m + 1 by omega, show i + j + 1 = i + (j + 1) by omega]
      ring
    rw [Finset.sum_congr rfl hd, ← Finset.mul_sum, Finset.sum_sub_distrib]
    have hs : ∑ j ∈ Finset.range (k + 1 + 1), C (dcoef U p i (k + 1) j) * pieceP U s m (i + j) =
        ∑ j ∈ Finset.range (k + 1), C (dcoef U p i k j) * C ((U (i + j + m + 1) - U (i + j))⁻¹) * pieceP U s m (i + j) -
        ∑ j ∈ Finset.range (k + 1), C (dcoef U p i k j) * C ((U (i + (j + 1) + m + 1) - U (i + (j + 1)))⁻¹) * pieceP U s m (i + (j + 1)) := by
      have h1 : ∑ j ∈ Finset.range (k + 1), C (dcoef U p i k j) * C ((U (i + j + m + 1) - U (i + j))⁻¹) * pieceP U s m (i + j) =
          ∑ j ∈ Finset.range (k + 1 + 1), C (dcoef U p i k j) * C ((U (i + j + m + 1) - U (i + j))⁻¹) * pieceP U s m (i + j) := by
        rw [Finset.sum_range_succ _ (k + 1), dcoef_zero U p i k (k + 1) (by omega)]
        simp
      rw [h1, Finset.sum_range_succ', Finset.sum_range_succ' (fun j => C (dcoef U p i k j) * C ((U (i + j + m + 1) - U (i + j))⁻¹) * pieceP U s m (i + j)),
        add_sub_right_comm, ← Finset.sum_sub_distrib]
      congr 1
      · refine Finset.sum_congr rfl fun j _ => ?_
        rw [dcoef, hm, div_eq_mul_inv, C_mul, C_sub, show i + (j + 1) + (m + 1) = i + (j + 1) + m + 1 by omega]
        ring
      · rw [dcoef, hm, div_eq_mul_inv, C_mul]
        simp only [Nat.add_zero]
        rw [show i + (m + 1) = i + m + 1 by omega]
    rw [hs]
    push_cast
    ring

/-! ## ders_basis_funs -/

theorem subUsize_of {a b : Nat} (h : b ≤ a) : subUsize a b = ok (a - b) := by simp [subUsize, h]

/-- the term of Eq. (2.9) -/
def dterm (U : Nat → α) (p s : Nat) (u : α) (r k j : Nat) : α :=
  dcoef U p (s - p + r) k j * piece U s u (p - k) (s - p + r + j)

omit [LinearOrder α] in
theorem dterm_zero {U : Nat → α} {p s : Nat} {u : α} {r k j : Nat} (hps : p ≤ s) (hkp : k ≤ p) (h : r + j < k ∨ p < r + j) :
    dterm U p s u r k j = 0 := by
  rw [dterm, piece_zero _ _ _ _ _ (by omega), mul_zero]

/-- contents of the row of `a` after the coefficients of index `< n` of the derivative `k` have been computed -/
def RowOk (U : Nat → α) (p s r k n : Nat) (row : Nat → α) : Prop :=
  ∀ j, j < n → j ≤ k → k ≤ r + j → r + j ≤ p → row j = dcoef U p (s - p + r) k j

section Steps

variable {U : Nat → α} {p s r k s1 s2 : Nat} {u : α} {ndu : Arr2 α}

omit [LinearOrder α] in
theorem dersFirst_spec (hn : NduOk U s u (p + 1) ndu) (hps : p ≤ s) (hk : 1 ≤ k) (hkp : k ≤ p) (hrp : r ≤ p) (h12 : s1 ≠ s2)
    (h1 : s1 < 2) (h2 : s2 < 2) {a : Arr2 α} (ha : RowOk U p s r (k - 1) k (a s1)) {j1 : Nat} (hj : j1 = if r ≥ k - 1 then 1 else k - r) :
    ∃ t, dersFirst p ndu r k (p - k) s1 s2 a = ok t ∧ t.1 s1 = a s1 ∧ RowOk U p s r k j1 (t.1 s2) ∧
      t.2 = ∑ j ∈ Finset.range j1, dterm U p s u r k j := by
  unfold dersFirst
  by_cases h : r ≥ k
  · rw [if_pos h, Arr2.get_ok h1 (by omega), ok_bind, subUsize_of h, ok_bind, Arr2.get_ok (by omega) (by omega), ok_bind,
      Arr2.set_ok h2 (by omega), ok_bind, Arr2.get_ok h2 (by omega), ok_bind, Arr2.get_ok (by omega) (by omega), ok_bind]
    have e1 : j1 = 1 := by rw [hj, if_pos (by omega)]
    have ea : a s1 0 / ndu (p - k + 1) (r - k) = dcoef U p (s - p + r) k 0 := by
      obtain ⟨m, rfl⟩ : ∃ m, k = m + 1 := ⟨k - 1, by omega⟩
      rw [dcoef, ha 0 (by omega) (by omega) (by omega) (by omega), hn.dif _ _ (by omega) (by omega), Nat.add_sub_cancel,
        show s + (r - (m + 1)) + 1 = s - p + r + (p - m) by omega, show s - (p - (m + 1) + 1) + (r - (m + 1)) + 1 = s - p + r by omega]
    refine ⟨_, rfl, ?_, ?_, ?_⟩
    · funext j; exact if_neg (by omega)
    · intro j hj' _ _ _
      obtain rfl : j = 0 := by omega
      exact (if_pos ⟨rfl, rfl⟩).trans ea
    · subst e1
      rw [Finset.sum_range_one, dterm]
      simp only [Arr2.put]
      rw [if_pos (by simp), ea, hn.val _ _ (by omega) (by omega), show s - (p - k) + (r - k) = s - p + r + 0 by omega]
  · rw [if_neg h]
    refine ⟨_, rfl, rfl, ?_, ?_⟩
    · intro j h3 h4 h5 h6
      split at hj <;> omega
    · refine (Finset.sum_eq_zero fun j hj' => dterm_zero hps hkp ?_).symm
      have := Finset.mem_range.1 hj'
      split at hj <;> omega

omit [LinearOrder α] in
theorem dersInner_spec (hn : NduOk U s u (p + 1) ndu) (hps : p ≤ s) (hk : 1 ≤ k) (hkp : k ≤ p) (h12 : s1 ≠ s2)
    (h1 : s1 < 2) (h2 : s2 < 2) {j : Nat} (hj1 : 1 ≤ j) (hjk : j < k) (hj2 : k ≤ r + j) (hj3 : r + j ≤ p) {t : Arr2 α × α}
    (ha : RowOk U p s r (k - 1) k (t.1 s1)) (hb : RowOk U p s r k j (t.1 s2)) (hd : t.2 = ∑ i ∈ Finset.range j, dterm U p s u r k i) :
    ∃ t', dersInner p ndu r k (p - k) s1 s2 j t = ok t' ∧ t'.1 s1 = t.1 s1 ∧ RowOk U p s r k (j + 1) (t'.1 s2) ∧
      t'.2 = ∑ i ∈ Finset.range (j + 1), dterm U p s u r k i := by
  unfold dersInner
  rw [subUsize_of hj2, ok_bind, Arr2.get_ok h1 (by omega), ok_bind, subUsize_of hj1, ok_bind, Arr2.get_ok h1 (by omega), ok_bind,
    Arr2.get_ok (by omega) (by omega), ok_bind, Arr2.set_ok h2 (by omega), ok_bind, Arr2.get_ok h2 (by omega), ok_bind,
    Arr2.get_ok (by omega) (by omega), ok_bind]
  have ea : (t.1 s1 j - t.1 s1 (j - 1)) / ndu (p - k + 1) (r + j - k) = dcoef U p (s - p + r) k j := by
    rw [ha j (by omega) (by omega) (by omega) (by omega), ha (j - 1) (by omega) (by omega) (by omega) (by omega),
      hn.dif _ _ (by omega) (by omega)]
    obtain ⟨m, rfl⟩ : ∃ m, k = m + 1 := ⟨k - 1, by omega⟩
    obtain ⟨i, rfl⟩ : ∃ i, j = i + 1 := ⟨j - 1, by omega⟩
    rw [dcoef, Nat.add_sub_cancel, Nat.add_sub_cancel, show s + (r + (i + 1) - (m + 1)) + 1 = s - p + r + (i + 1) + (p - m) by omega,
      show s - (p - (m + 1) + 1) + (r + (i + 1) - (m + 1)) + 1 = s - p + r + (i + 1) by omega]
  refine ⟨_, rfl, ?_, ?_, ?_⟩
  · funext i; exact if_neg (by omega)
  · intro i g1 g2 g3 g4
    simp only [Arr2.put]
    by_cases hij : i = j
    · rw [if_pos ⟨trivial, hij⟩, hij, ea]
    · rw [if_neg (by omega)]
      exact hb i (by omega) g2 g3 g4
  · rw [Finset.sum_range_succ, hd, show dterm U p s u r k j = dcoef U p (s - p + r) k j * piece U s u (p - k) (s - p + r + j) from rfl]
    simp only [Arr2.put]
    rw [if_pos (by simp), ea, hn.val _ _ (by omega) (by omega), show s - (p - k) + (r + j - k) = s - p + r + j by omega]

omit [LinearOrder α] in
theorem dersThird_spec (hn : NduOk U s u (p + 1) ndu) (hps : p ≤ s) (hk : 1 ≤ k) (hkp : k ≤ p) (hrp : r ≤ p) (h12 : s1 ≠ s2)
    (h1 : s1 < 2) (h2 : s2 < 2) {j2 : Nat} (hj : j2 = if r ≤ p - k + 1 then k - 1 else p - r) {t : Arr2 α × α}
    (ha : RowOk U p s r (k - 1) k (t.1 s1)) (hb : RowOk U p s r k (j2 + 1) (t.1 s2))
    (hd : t.2 = ∑ i ∈ Finset.range (j2 + 1), dterm U p s u r k i) :
    ∃ t', dersThird p ndu r k (p - k) s1 s2 t = ok t' ∧ RowOk U p s r k (k + 1) (t'.1 s2) ∧
      t'.2 = ∑ i ∈ Finset.range (k + 1), dterm U p s u r k i := by
  unfold dersThird
  by_cases h : r ≤ p - k
  · have ej : j2 + 1 = k := by rw [hj, if_pos (by omega)]; omega
    rw [ej] at hb hd
    rw [if_pos h, subUsize_of hk, ok_bind, Arr2.get_ok h1 (by omega), ok_bind, Arr2.get_ok (by omega) (by omega), ok_bind,
      Arr2.set_ok h2 (by omega), ok_bind, Arr2.get_ok h2 (by omega), ok_bind, Arr2.get_ok (by omega) (by omega), ok_bind]
    have ea : -t.1 s1 (k - 1) / ndu (p - k + 1) r = dcoef U p (s - p + r) k k := by
      rw [ha (k - 1) (by omega) (by omega) (by omega) (by omega), hn.dif _ _ (by omega) (by omega)]
      obtain ⟨m, rfl⟩ : ∃ m, k = m + 1 := ⟨k - 1, by omega⟩
      rw [dcoef, Nat.add_sub_cancel, dcoef_zero _ _ _ m (m + 1) (by omega), zero_sub,
        show s + r + 1 = s - p + r + (m + 1) + (p - m) by omega, show s - (p - (m + 1) + 1) + r + 1 = s - p + r + (m + 1) by omega]
    refine ⟨_, rfl, ?_, ?_⟩
    · intro i g1 g2 g3 g4
      simp only [Arr2.put]
      by_cases hij : i = k
      · rw [if_pos ⟨trivial, hij⟩, hij, ea]
      · rw [if_neg (by omega)]
        exact hb i (by omega) g2 g3 g4
    · rw [Finset.sum_range_succ, hd, show dterm U p s u r k k = dcoef U p (s - p + r) k k * piece U s u (p - k) (s - p + r + k) from rfl]
      simp only [Arr2.put]
      rw [if_pos (by simp), ea, hn.val _ _ (by omega) (by omega), show s - (p - k) + r = s - p + r + k by omega]
  · rw [if_neg h]
    have hle : j2 + 1 ≤ k ∧ p < r + (j2 + 1) := by split at hj <;> omega
    refine ⟨t, rfl, ?_, ?_⟩
    · intro i g1 g2 g3 g4
      exact hb i (by omega) g2 g3 g4
    · rw [hd]
      refine Finset.sum_subset (Finset.range_subset_range.2 (by omega)) fun i _ hi => dterm_zero hps hkp (Or.inr ?_)
      have := Finset.mem_range.not.1 hi
      omega

omit [LinearOrder α] in
theorem dersStep_spec (hn : NduOk U s u (p + 1) ndu) (hps : p ≤ s) (hk : 1 ≤ k) (hkp : k ≤ p) (hrp : r ≤ p) {st : DersState α}
    (h12 : st.s1 ≠ st.s2) (h1 : st.s1 < 2) (h2 : st.s2 < 2) (ha : RowOk U p s r (k - 1) k (st.a st.s1)) :
    ∃ a', dersStep p ndu r k st = ok ⟨a', st.ders.put k r (∑ i ∈ Finset.range (k + 1), dterm U p s u r k i), st.s2, st.s1⟩ ∧
      RowOk U p s r k (k + 1) (a' st.s2) := by
  unfold dersStep
  rw [subUsize_of hkp, ok_bind]
  obtain ⟨t1, e1, b1, c1, d1⟩ := dersFirst_spec (j1 := if r ≥ k - 1 then 1 else k - r) hn hps hk hkp hrp h12 h1 h2 ha rfl
  rw [e1, ok_bind]
  have hj1 : dersJ1 r k = ok (if r ≥ k - 1 then 1 else k - r) := by
    rw [dersJ1, subUsize_of hk, ok_bind]
    split
    · rfl
    · exact subUsize_of (by omega)
  have hj2 : dersJ2 p r k (p - k) = ok (if r ≤ p - k + 1 then k - 1 else p - r) := by
    rw [dersJ2, subUsize_of hk]
    split
    · rfl
    · exact subUsize_of hrp
  rw [hj1, ok_bind, hj2, ok_bind]
  generalize hJ1 : (if r ≥ k - 1 then 1 else k - r) = j1 at *
  generalize hJ2 : (if r ≤ p - k + 1 then k - 1 else p - r) = j2 at *
  obtain ⟨t2, e2, b2, c2, d2⟩ := forRange_spec (f := dersInner p ndu r k (p - k) st.s1 st.s2)
    (fun j (t : Arr2 α × α) => t.1 st.s1 = st.a st.s1 ∧ RowOk U p s r k j (t.1 st.s2) ∧ t.2 = ∑ i ∈ Finset.range j, dterm U p s u r k i)
    (lo := j1) (hi := j2 + 1) (by split at hJ1 <;> split at hJ2 <;> omega) (s := t1) ⟨b1, c1, d1⟩
    (by
      rintro j t hl hh ⟨g1, g2, g3⟩
      obtain ⟨t', f1, f2, f3, f4⟩ := dersInner_spec hn hps hk hkp h12 h1 h2 (j := j) (by split at hJ1 <;> omega) (by split at hJ2 <;> omega)
        (by split at hJ1 <;> omega) (by split at hJ2 <;> omega) (t := t) (by rw [g1]; exact ha) g2 g3
      exact ⟨t', f1, f2.trans g1, f3, f4⟩)
  obtain ⟨t3, e3, c3, d3⟩ := dersThird_spec hn hps hk hkp hrp h12 h1 h2 hJ2.symm (t := t2) (by rw [b2]; exact ha) c2 d2
  rw [e2, ok_bind, e3, ok_bind, Arr2.set_ok (by omega) (by omega), ok_bind, d3]
  exact ⟨_, rfl, c3⟩

/-- the unscaled derivative -/
def derSum (U : Nat → α) (p s : Nat) (u : α) (r k : Nat) : α := ∑ i ∈ Finset.range (k + 1), dterm U p s u r k i

omit [LinearOrder α] in
theorem dersRow_spec (hn : NduOk U s u (p + 1) ndu) (hps : p ≤ s) {upto : Nat} (hup : upto ≤ p) (hrp : r ≤ p) (t : Arr2 α × Arr2 α) :
    ∃ t', dersRow p ndu upto r t = ok t' ∧
      ∀ k c, t'.2 k c = if 1 ≤ k ∧ k ≤ upto ∧ c = r then derSum U p s u r k else t.2 k c := by
  unfold dersRow
  rw [Arr2.set_ok (by omega) (by omega), ok_bind]
  obtain ⟨st, e, h1, h2, h3, h4, h5⟩ := forRange_spec (f := dersStep p ndu r)
    (fun k (st : DersState α) => st.s1 ≠ st.s2 ∧ st.s1 < 2 ∧ st.s2 < 2 ∧ RowOk U p s r (k - 1) k (st.a st.s1) ∧
      ∀ k' c, st.ders k' c = if 1 ≤ k' ∧ k' < k ∧ c = r then derSum U p s u r k' else t.2 k' c)
    (lo := 1) (hi := upto + 1) (by omega) (s := ⟨t.1.put 0 0 1, t.2, 0, 1⟩)
    ⟨by simp, by simp, by simp, by
      intro j g1 _ _ _
      obtain rfl : j = 0 := by omega
      simp [Arr2.put, dcoef], fun k' c => by rw [if_neg (by omega)]⟩
    (by
      rintro k st hl hh ⟨g1, g2, g3, g4, g5⟩
      obtain ⟨a', e, f⟩ := dersStep_spec hn hps hl (by omega) hrp g1 g2 g3 g4
      refine ⟨_, e, g1.symm, g3, g2, f, fun k' c => ?_⟩
      dsimp only [Arr2.put]
      by_cases hkc : k' = k ∧ c = r
      · rw [if_pos hkc, if_pos (by omega), hkc.1]; rfl
      · rw [if_neg hkc, g5]
        by_cases hc : 1 ≤ k' ∧ k' < k ∧ c = r
        · rw [if_pos hc, if_pos (by omega)]
        · rw [if_neg hc, if_neg (by omega)])
  rw [e, ok_bind]
  refine ⟨_, rfl, fun k c => ?_⟩
  dsimp only
  rw [h5]
  by_cases hc : 1 ≤ k ∧ k ≤ upto ∧ c = r
  · rw [if_pos hc, if_pos (by omega)]
  · rw [if_neg hc, if_neg (by omega)]

omit [LinearOrder α] in
theorem dersScale_spec {k : Nat} (hkp : k ≤ p) (t : Arr2 α × α) :
    ∃ t', dersScale p k t = ok t' ∧ t'.2 = t.2 * ((p - k : Nat) : α) ∧
      ∀ k' c, t'.1 k' c = if k' = k ∧ c ≤ p then t.1 k' c * t.2 else t.1 k' c := by
  unfold dersScale
  obtain ⟨d, e, h⟩ := forRange_spec (f := fun j ders => do
      let x ← Arr2.get (p + 1) (p + 1) ders k j
      Arr2.set (p + 1) (p + 1) ders k j (x * t.2))
    (fun j (d : Arr2 α) => ∀ k' c, d k' c = if k' = k ∧ c < j then t.1 k' c * t.2 else t.1 k' c)
    (Nat.zero_le (p + 1)) (s := t.1) (fun k' c => by simp)
    (by
      intro j d _ hj hd
      rw [Arr2.get_ok (by omega) hj, ok_bind, Arr2.set_ok (by omega) hj]
      refine ⟨_, rfl, fun k' c => ?_⟩
      simp only [Arr2.put]
      by_cases hkc : k' = k ∧ c = j
      · rw [if_pos hkc, if_pos (by omega), hkc.1, hkc.2, hd, if_neg (by omega)]
      · rw [if_neg hkc, hd]
        by_cases hc : k' = k ∧ c < j
        · rw [if_pos hc, if_pos (by omega)]
        · rw [if_neg hc, if_neg (by omega)])
  rw [e, ok_bind, subUsize_of hkp, ok_bind]
  refine ⟨_, rfl, rfl, fun k' c => ?_⟩
  dsimp only
  rw [h]
  simp only [Nat.lt_succ_iff]

end Steps

/-- `ders_basis_funs` computes the derivatives of the pieces of the B-splines that do not vanish on the span, whatever the arrays
contained before -/
theorem dersBasisFuns_spec (b : BsplineD α) (u : α) {s upto : Nat} (h1 : b.p ≤ s) (h2 : s + b.p + 1 < b.uu.length) (hup : upto ≤ b.p)
    (hU : SpanOk (knot b.uu) s b.uu.length) :
    ∃ ndu left right a ders, b.dersBasisFuns u s upto = ok { b with ndu, left, right, a, ders } ∧ NduOk (knot b.uu) s u (b.p + 1) ndu ∧
      ∀ k c, k ≤ upto → c ≤ b.p → ders k c = (derivative^[k] (pieceP (knot b.uu) s b.p (s - b.p + c))).eval u := by
  obtain ⟨ndu, left, right, e0, hn⟩ := basisFuns_spec b.toBspline u h1 (by omega)
  unfold BsplineD.dersBasisFuns
  rw [e0, ok_bind]
  obtain ⟨d0, e1, hd0⟩ := forRange_spec (f := fun j ders => do
      let x ← Arr2.get (b.p + 1) (b.p + 1) ndu j b.p
      Arr2.set (b.p + 1) (b.p + 1) ders 0 j x)
    (fun j (d : Arr2 α) => ∀ c, c < j → d 0 c = ndu c b.p)
    (Nat.zero_le (b.p + 1)) (s := b.ders) (fun c h => by omega)
    (by
      intro j d _ hj hd
      rw [Arr2.get_ok hj (by omega), ok_bind, Arr2.set_ok (by omega) hj]
      refine ⟨_, rfl, fun c hc => ?_⟩
      simp only [Arr2.put]
      by_cases hcj : c = j
      · rw [if_pos ⟨trivial, hcj⟩, hcj]
      · rw [if_neg (by omega)]; exact hd c (by omega))
  dsimp only
  rw [e1, ok_bind]
  obtain ⟨t1, e2, g1, g2⟩ := forRange_spec (f := dersRow b.p ndu upto)
    (fun r (t : Arr2 α × Arr2 α) => (∀ c, c ≤ b.p → t.2 0 c = ndu c b.p) ∧
      ∀ k c, 1 ≤ k → k ≤ upto → c < r → t.2 k c = derSum (knot b.uu) b.p s u c k)
    (Nat.zero_le (b.p + 1)) (s := (b.a, d0)) ⟨fun c hc => hd0 c (by omega), fun k c _ _ h => by omega⟩
    (by
      rintro r t _ hr ⟨g1, g2⟩
      obtain ⟨t', e, f⟩ := dersRow_spec hn h1 hup (by omega : r ≤ b.p) t
      refine ⟨t', e, fun c hc => ?_, fun k c hk1 hk2 hc => ?_⟩
      · rw [f, if_neg (by omega)]; exact g1 c hc
      · rw [f]
        by_cases hcr : c = r
        · rw [if_pos ⟨hk1, hk2, hcr⟩, hcr]
        · rw [if_neg (by omega)]; exact g2 k c hk1 hk2 (by omega))
  rw [e2, ok_bind]
  obtain ⟨t2, e3, f1, f2, f3⟩ := forRange_spec (f := dersScale (α := α) b.p)
    (fun k (t : Arr2 α × α) => t.2 = (b.p.descFactorial k : α) ∧ (∀ k' c, k' < k → c ≤ b.p → t.1 k' c = (b.p.descFactorial k' : α) * t1.2 k' c) ∧
      ∀ k' c, k ≤ k' → t.1 k' c = t1.2 k' c)
    (lo := 1) (hi := upto + 1) (by omega) (s := (t1.2, (b.p : α)))
    ⟨by simp, fun k' c hk _ => by obtain rfl : k' = 0 := by omega
                                  simp, fun _ _ _ => rfl⟩
    (by
      rintro k t hl hh ⟨f1, f2, f3⟩
      obtain ⟨t', e, q1, q2⟩ := dersScale_spec (p := b.p) (k := k) (by omega) t
      refine ⟨t', e, ?_, fun k' c hk hc => ?_, fun k' c hk => ?_⟩
      · rw [q1, f1, Nat.descFactorial_succ]; push_cast; ring
      · rw [q2]
        by_cases hkk : k' = k
        · rw [if_pos ⟨hkk, hc⟩, hkk, f3 k c (le_refl _), f1, mul_comm]
        · rw [if_neg (by omega)]; exact f2 k' c (by omega) hc
      · rw [q2, if_neg (by omega)]; exact f3 k' c (by omega))
  rw [e3, ok_bind]
  refine ⟨ndu, left, right, t1.1, t2.1, rfl, hn, fun k c hk hc => ?_⟩
  have hraw : t1.2 k c = derSum (knot b.uu) b.p s u c k := by
    by_cases hk0 : k = 0
    · subst hk0
      rw [g1 c hc, hn.val _ _ (by omega) hc]
      simp [derSum, dterm, dcoef]
    · exact g2 k c (by omega) hk (by omega)
  rw [f2 k c (by omega) hc, hraw, iterate_deriv_piece hU (by omega) k (by omega), derSum]
  rw [eval_mul, eval_natCast, eval_finsetSum]
  congr 1
  refine Finset.sum_congr rfl fun j _ => ?_
  rw [eval_mul, eval_C, pieceP_eval, dterm]

/-! ## The derivatives of a curve -/

/-- the loops `for j { for l { v[k][l] += W(j, l) } }` -/
theorem grid_acc {n ndim k N1 : Nat} {B : Nat → Grid2 α → Res (Grid2 α)} {F : Nat → Nat → Grid2 α → Res (Grid2 α)} {W : Nat → Nat → α}
    (hB : ∀ j cc, j < n → B j cc = forRange 0 ndim cc (F j))
    (hF : ∀ j l (cc : Grid2 α), j < n → l < ndim → cc.n1 = N1 → cc.n2 = ndim → F j l cc = ok (cc.put k l (cc.v k l + W j l)))
    {cc : Grid2 α} (h1 : cc.n1 = N1) (h2 : cc.n2 = ndim) :
    ∃ cc', forRange 0 n cc B = ok cc' ∧ cc'.n1 = N1 ∧ cc'.n2 = ndim ∧
      ∀ r c, cc'.v r c = if r = k ∧ c < ndim then cc.v r c + ∑ j ∈ Finset.range n, W j c else cc.v r c := by
  obtain ⟨cc', e, h⟩ := forRange_spec (f := B)
    (fun j (g : Grid2 α) => g.n1 = N1 ∧ g.n2 = ndim ∧
      ∀ r c, g.v r c = if r = k ∧ c < ndim then cc.v r c + ∑ j ∈ Finset.range j, W j c else cc.v r c)
    (Nat.zero_le n) (s := cc) ⟨h1, h2, fun r c => by simp⟩
    (by
      rintro j g _ hj ⟨g1, g2, g3⟩
      rw [hB j g hj]
      obtain ⟨g', e, f1, f2, f3⟩ := forRange_spec (f := F j)
        (fun l (q : Grid2 α) => q.n1 = N1 ∧ q.n2 = ndim ∧ ∀ r c, q.v r c = if r = k ∧ c < l then g.v r c + W j c else g.v r c)
        (Nat.zero_le ndim) (s := g) ⟨g1, g2, fun r c => by simp⟩
        (by
          rintro l q _ hl ⟨q1, q2, q3⟩
          rw [hF j l q hj hl q1 q2]
          refine ⟨_, rfl, q1, q2, fun r c => ?_⟩
          simp only [Grid2.put]
          by_cases hc : r = k ∧ c = l
          · rw [if_pos hc, if_pos (by omega), hc.1, hc.2, q3, if_neg (by omega)]
          · rw [if_neg hc, q3]
            by_cases hd : r = k ∧ c < l
            · rw [if_pos hd, if_pos (by omega)]
            · rw [if_neg hd, if_neg (by omega)])
      refine ⟨g', e, f1, f2, fun r c => ?_⟩
      rw [f3, g3]
      by_cases hc : r = k ∧ c < ndim
      · rw [if_pos hc, if_pos hc, if_pos hc, Finset.sum_range_succ, add_assoc]
      · rw [if_neg hc, if_neg hc, if_neg hc])
  exact ⟨cc', e, h⟩

/-- a loop that computes the rows one after the other -/
theorem grid_rows {n ndim N1 : Nat} {B : Nat → Grid2 α → Res (Grid2 α)} {S : Nat → Nat → α}
    (hB : ∀ k (cc : Grid2 α), k < n → cc.n1 = N1 → cc.n2 = ndim → ∃ cc', B k cc = ok cc' ∧ cc'.n1 = N1 ∧ cc'.n2 = ndim ∧
      (∀ c, c < ndim → cc'.v k c = S k c) ∧ ∀ r c, r ≠ k → cc'.v r c = cc.v r c)
    {cc : Grid2 α} (h1 : cc.n1 = N1) (h2 : cc.n2 = ndim) :
    ∃ cc', forRange 0 n cc B = ok cc' ∧ cc'.n1 = N1 ∧ cc'.n2 = ndim ∧ ∀ r c, r < n → c < ndim → cc'.v r c = S r c := by
  exact forRange_spec (f := B)
    (fun k (g : Grid2 α) => g.n1 = N1 ∧ g.n2 = ndim ∧ ∀ r c, r < k → c < ndim → g.v r c = S r c)
    (Nat.zero_le n) (s := cc) ⟨h1, h2, fun r c h => by omega⟩
    (by
      rintro k g _ hk ⟨g1, g2, g3⟩
      obtain ⟨g', e, f1, f2, f3, f4⟩ := hB k g hk g1 g2
      refine ⟨g', e, f1, f2, fun r c hr hc => ?_⟩
      by_cases hrk : r = k
      · rw [hrk]; exact f3 c hc
      · rw [f4 r c hrk]; exact g3 r c (by omega) hc)

theorem zeroRow_acc {n ndim k N1 : Nat} {B : Nat → Grid2 α → Res (Grid2 α)} {F : Nat → Nat → Grid2 α → Res (Grid2 α)} {W : Nat → Nat → α}
    (hB : ∀ j cc, j < n → B j cc = forRange 0 ndim cc (F j)) (hk : k < N1)
    (hF : ∀ j l (cc : Grid2 α), j < n → l < ndim → cc.n1 = N1 → cc.n2 = ndim → F j l cc = ok (cc.put k l (cc.v k l + W j l)))
    {cc : Grid2 α} (h1 : cc.n1 = N1) (h2 : cc.n2 = ndim) :
    ∃ cc0 cc', cc.zeroRow k = ok cc0 ∧ forRange 0 n cc0 B = ok cc' ∧ cc'.n1 = N1 ∧ cc'.n2 = ndim ∧
      (∀ c, c < ndim → cc'.v k c = ∑ j ∈ Finset.range n, W j c) ∧ ∀ r c, r ≠ k → cc'.v r c = cc.v r c := by
  obtain ⟨cc', e, f1, f2, f3⟩ := grid_acc hB hF (cc := { cc with v := fun r c => if r = k then 0 else cc.v r c }) h1 h2
  refine ⟨_, cc', by rw [Grid2.zeroRow, if_pos (by omega)], e, f1, f2, fun c hc => ?_, fun r c hr => ?_⟩
  · rw [f3, if_pos ⟨rfl, hc⟩]; simp
  · rw [f3, if_neg (by omega)]; simp [hr]

/-- the control points and the arrays for the results have the right dimensions (`BsplineD.new` and `set_control_points` make it so;
a change of the dimension of the control points breaks it) -/
structure BsplineD.Ready (b : BsplineD α) (ndim : Nat) (P : Nat → Nat → α) : Prop where
  wf : b.toBspline.WF
  pos : 0 < ndim
  len : b.pp.length = b.numBasis
  rows : ∀ i, i < b.numBasis → ∃ row, b.pp[(i : Nat)]? = some row ∧ IsVec row ndim (P i)
  cc : b.ccDers.n1 = b.p + 1 → b.ccDers.n2 = ndim
  pd : b.ppDers.n1 = b.p + 1 → b.ppDers.n2 = b.numBasis ∧ b.ppDers.n3 = ndim

theorem prepareCurve_spec {b : BsplineD α} {ndim : Nat} {P : Nat → Nat → α} (hr : b.Ready ndim P) {upto : Nat} (hup : upto ≤ b.p) :
    ∃ cc, b.prepareCurve upto = ok (ndim, cc) ∧ cc.n1 = b.p + 1 ∧ cc.n2 = ndim := by
  have hl := hr.wf.len
  have hnb : 0 < b.numBasis := by unfold Bspline.numBasis; omega
  obtain ⟨p0, hp0, hv0⟩ := hr.rows 0 hnb
  have := hr.pos
  unfold BsplineD.prepareCurve
  rw [if_neg (by simpa using hr.len), vget_of hp0, ok_bind, hv0.len, if_neg (by omega), if_neg (by omega)]
  refine ⟨_, rfl, ?_⟩
  by_cases hc : b.ccDers.n1 = b.p + 1
  · rw [if_neg (by simpa using hc)]; exact ⟨hc, hr.cc hc⟩
  · rw [if_pos hc]; exact ⟨rfl, rfl⟩

theorem alg1_spec {b : BsplineD α} {ndim : Nat} {P : Nat → Nat → α} (hr : b.Ready ndim P) {u : α} {s upto : Nat} (hup : upto ≤ b.p)
    (hs : findSpan b.p b.uu u = ok s) (h1 : b.p ≤ s) (h2 : s < b.numBasis) (hU : SpanOk (knot b.uu) s b.uu.length) :
    ∃ b', b.curveDerivsAlg1 u upto = ok b' ∧ b'.Ready ndim P ∧ b'.p = b.p ∧ b'.uu = b.uu ∧ b'.ccDers.n1 = b.p + 1 ∧ b'.ccDers.n2 = ndim ∧
      ∀ k l, k ≤ upto → l < ndim → b'.ccDers.v k l =
        ∑ j ∈ Finset.range (b.p + 1), (derivative^[k] (pieceP (knot b.uu) s b.p (s - b.p + j))).eval u * P (s - b.p + j) l := by
  have hl := hr.wf.len
  have hnb : b.numBasis = b.uu.length - 1 - b.p := rfl
  obtain ⟨cc, e0, g1, g2⟩ := prepareCurve_spec hr hup
  obtain ⟨ndu, left, right, a, ders, e1, hn, hd⟩ := dersBasisFuns_spec b u h1 (by omega) hup hU
  unfold BsplineD.curveDerivsAlg1
  rw [e0, ok_bind]
  dsimp only
  rw [hs, ok_bind, e1, ok_bind]
  dsimp only
  obtain ⟨cc', e2, f1, f2, f3⟩ := grid_rows (n := upto + 1) (N1 := b.p + 1) (ndim := ndim)
    (S := fun k l => ∑ j ∈ Finset.range (b.p + 1), ders k j * P (s - b.p + j) l)
    (B := fun k cc => do
      let cc ← cc.zeroRow k
      forRange 0 (b.p + 1) cc fun j cc => do
        let s ← subUsize s b.p
        forRange 0 ndim cc fun l cc => do
          let c ← cc.get k l
          let w ← Arr2.get (b.p + 1) (b.p + 1) ders k j
          let row ← vget b.pp (s + j)
          let x ← vget row l
          cc.set k l (c + w * x)) (fun k cc hk q1 q2 => by
      obtain ⟨cc0, cc', e, e', rest⟩ := zeroRow_acc (n := b.p + 1) (ndim := ndim) (k := k) (N1 := b.p + 1) (cc := cc)
        (B := fun j cc => do
          let s ← subUsize s b.p
          forRange 0 ndim cc fun l cc => do
            let c ← cc.get k l
            let w ← Arr2.get (b.p + 1) (b.p + 1) ders k j
            let row ← vget b.pp (s + j)
            let x ← vget row l
            cc.set k l (c + w * x))
        (W := fun j l => ders k j * P (s - b.p + j) l)
        (fun j cc hj => by rw [subUsize_of h1, ok_bind]) (by omega) (fun j l cc hj hl' p1 p2 => by
          obtain ⟨row, hrow, hv⟩ := hr.rows (s - b.p + j) (by omega)
          rw [Grid2.get, if_pos (by omega), ok_bind, Arr2.get_ok (by omega) hj, ok_bind, vget_of hrow, ok_bind, hv.vget hl', ok_bind,
            Grid2.set, if_pos (by omega)]) q1 q2
      rw [e, ok_bind, e']
      exact ⟨cc', rfl, rest⟩) g1 g2
  rw [e2, ok_bind]
  refine ⟨_, rfl, ⟨⟨hr.wf.deg, hr.wf.len, hr.wf.min_le, hr.wf.le_max, hr.wf.min_mem, hr.wf.max_mem⟩, hr.pos, hr.len, hr.rows, fun _ => f2, hr.pd⟩,
    rfl, rfl, f1, f2, fun k l hk hl' => ?_⟩
  dsimp only
  rw [f3 k l (by omega) hl']
  refine Finset.sum_congr rfl fun j hj => ?_
  rw [hd k j hk (by have := Finset.mem_range.1 hj; omega)]

/-- the control points of the derivatives (Eq. (3.8) of The NURBS Book), counted from the first one that matters for the span -/
def dpoint (U : Nat → α) (p s : Nat) (P : Nat → α) : (k i : Nat) → α
  | 0, i => P (s - p + i)
  | k + 1, i => ((p - k : Nat) : α) * (dpoint U p s P k (i + 1) - dpoint U p s P k i) / (U (s + i + 1) - U (s - p + i + (k + 1)))

omit [LinearOrder α] in
theorem iterate_deriv_curve {U : Nat → α} {s L p : Nat} (hU : SpanOk U s L) (hps : p ≤ s) (hL : s + p + 1 < L) (P : Nat → α) : ∀ k, k ≤ p →
    derivative^[k] (∑ j ∈ Finset.range (p + 1), C (P (s - p + j)) * pieceP U s p (s - p + j)) =
      ∑ i ∈ Finset.range (p - k + 1), C (dpoint U p s P k i) * pieceP U s (p - k) (s - (p - k) + i)
  | 0, _ => by simp [dpoint]
  | k + 1, hk => by
    rw [Function.iterate_succ', Function.comp_apply, iterate_deriv_curve hU hps hL P k (by omega)]
    obtain ⟨m, hm⟩ : ∃ m, p - k = m + 1 := ⟨p - k - 1, by omega⟩
    have hm' : p - (k + 1) = m := by omega
    rw [hm, hm', derivative_sum]
    have hd : ∀ i ∈ Finset.range (m + 1 + 1), derivative (C (dpoint U p s P k i) * pieceP U s (m + 1) (s - (m + 1) + i)) = 
        (m + 1 : α[X]) * (C (dpoint U p s P k i) * C ((U (s + i) - U (s - (m + 1) + i))⁻¹) * pieceP U s m (s - (m + 1) + i) -
          C (dpoint U p s P k i) * C ((U (s + i + 1) - U (s - m + i))⁻¹) * pieceP U s m (s - m + i)) := by
      intro i hi
      have := Finset.mem_range.1 hi
      rw [derivative_mul, derivative_C, zero_mul, zero_add, pieceP_deriv hU m _ (by omega)]
      rw [show s - (m + 1) + i + m + 2 = s + i + 1 by omega, show s - (m + 1) + i + m + 1 = s + i by omega,
        show s - (m + 1) + i + 1 = s - m + i by omega]
      ring
    rw [Finset.sum_congr rfl hd, ← Finset.mul_sum, Finset.sum_sub_distrib, Finset.sum_range_succ', Finset.sum_range_succ _ (m + 1)]
    rw [pieceP_zero U s m (s - (m + 1) + 0) (by omega), pieceP_zero U s m (s - m + (m + 1)) (by omega), mul_zero, mul_zero, add_zero, add_zero,
      ← Finset.sum_sub_distrib, Finset.mul_sum]
    refine Finset.sum_congr rfl fun i hi => ?_
    rw [dpoint, hm, div_eq_mul_inv, C_mul, C_mul, C_sub, show s - (m + 1) + (i + 1) = s - m + i by omega,
      show s - p + i + (k + 1) = s - m + i by omega, show s + (i + 1) = s + i + 1 by omega]
    push_cast
    rw [C_add, C_1, Polynomial.C_eq_natCast]
    ring

theorem cpts_first {ndim r N2 : Nat} {F : Nat → Nat → Grid3 α → Res (Grid3 α)} {k : Nat} {W : Nat → Nat → α} {N1 : Nat} {g : Grid3 α}
    (hF : ∀ i l (q : Grid3 α), i < r → l < ndim → q.n1 = N1 → q.n2 = N2 → q.n3 = ndim → (∀ k' i l, k' ≠ k → q.v k' i l = g.v k' i l) →
      F i l q = ok { q with v := fun r c t => if r = k ∧ c = i ∧ t = l then W i l else q.v r c t })
    (h1 : g.n1 = N1) (h2 : g.n2 = N2) (h3 : g.n3 = ndim) :
    ∃ g', forRange 0 r g (fun i g => forRange 0 ndim g (F i)) = ok g' ∧ g'.n1 = N1 ∧ g'.n2 = N2 ∧ g'.n3 = ndim ∧
      (∀ k' i l, k' ≠ k → g'.v k' i l = g.v k' i l) ∧ ∀ i l, i < r → l < ndim → g'.v k i l = W i l := by
  exact forRange_spec (f := fun i g => forRange 0 ndim g (F i))
    (fun i (q : Grid3 α) => q.n1 = N1 ∧ q.n2 = N2 ∧ q.n3 = ndim ∧ (∀ k' i l, k' ≠ k → q.v k' i l = g.v k' i l) ∧
      ∀ i' l, i' < i → l < ndim → q.v k i' l = W i' l)
    (Nat.zero_le r) (s := g) ⟨h1, h2, h3, fun _ _ _ _ => rfl, fun i l h => by omega⟩
    (by
      rintro i q _ hi ⟨a1, a2, a3, a4, a5⟩
      obtain ⟨q', e, b1, b2, b3, b4, b5, b6⟩ := forRange_spec (f := F i)
        (fun l (w : Grid3 α) => w.n1 = N1 ∧ w.n2 = N2 ∧ w.n3 = ndim ∧ (∀ k' i l, k' ≠ k → w.v k' i l = g.v k' i l) ∧
          (∀ i' l, i' < i → l < ndim → w.v k i' l = W i' l) ∧ ∀ l', l' < l → w.v k i l' = W i l')
        (Nat.zero_le ndim) (s := q) ⟨a1, a2, a3, a4, a5, fun l h => by omega⟩
        (by
          rintro l w _ hl ⟨c1, c2, c3, c4, c5, c6⟩
          rw [hF i l w hi hl c1 c2 c3 c4]
          refine ⟨_, rfl, c1, c2, c3, fun k' i' l' hk => ?_, fun i' l' hi' hl' => ?_, fun l' hl' => ?_⟩
          · dsimp only; rw [if_neg (by omega)]; exact c4 k' i' l' hk
          · dsimp only; rw [if_neg (by omega)]; exact c5 i' l' hi' hl'
          · dsimp only
            by_cases hll : l' = l
            · rw [if_pos ⟨rfl, rfl, hll⟩, hll]
            · rw [if_neg (by omega)]; exact c6 l' (by omega))
      refine ⟨q', e, b1, b2, b3, b4, fun i' l hi' hl => ?_⟩
      by_cases hii : i' = i
      · rw [hii]; exact b6 l hl
      · exact b5 i' l (by omega) hl)

theorem curveDerivCpts_spec {b : BsplineD α} {ndim : Nat} {P : Nat → Nat → α} (hr : b.Ready ndim P) {s upto : Nat} (hup : upto ≤ b.p)
    (h1 : b.p ≤ s) (h2 : s < b.numBasis) :
    ∃ g, b.curveDerivCpts upto (s - b.p) s = ok g ∧ g.n1 = b.p + 1 ∧ g.n2 = b.numBasis ∧ g.n3 = ndim ∧
      ∀ k i l, k ≤ upto → i ≤ b.p - k → l < ndim → g.v k i l = dpoint (knot b.uu) b.p s (fun i => P i l) k i := by
  have hl := hr.wf.len
  have hnb : b.numBasis = b.uu.length - 1 - b.p := rfl
  obtain ⟨p0, hp0, hv0⟩ := hr.rows 0 (by omega)
  have hpos := hr.pos
  unfold BsplineD.curveDerivCpts
  rw [if_neg (by simpa using hr.len), vget_of hp0, ok_bind, hv0.len, if_neg (by omega), if_neg (by omega), if_neg (by omega)]
  dsimp only
  rw [subUsize_of (by omega), ok_bind, show s - (s - b.p) = b.p by omega]
  obtain ⟨g0, hg0, d1, d2, d3⟩ : ∃ g0 : Grid3 α, (if b.ppDers.n1 ≠ b.p + 1 then ⟨b.p + 1, b.pp.length, ndim, fun _ _ _ => 0⟩ else b.ppDers) = g0 ∧
      g0.n1 = b.p + 1 ∧ g0.n2 = b.numBasis ∧ g0.n3 = ndim := by
    refine ⟨_, rfl, ?_⟩
    by_cases hc : b.ppDers.n1 = b.p + 1
    · rw [if_neg (by simpa using hc)]; exact ⟨hc, hr.pd hc⟩
    · rw [if_pos hc]; exact ⟨rfl, hr.len, rfl⟩
  rw [hg0]
  obtain ⟨g1, e1, f1, f2, f3, _, f5⟩ := cpts_first (k := 0) (r := b.p + 1) (ndim := ndim) (g := g0)
    (F := fun i l g => do
      let row ← vget b.pp (s - b.p + i)
      let x ← vget row l
      g.set 0 i l x) (W := fun i l => P (s - b.p + i) l) (fun i l q hi hl' q1 q2 q3 _ => by
      obtain ⟨row, hrow, hv⟩ := hr.rows (s - b.p + i) (by omega)
      rw [vget_of hrow, ok_bind, hv.vget hl', ok_bind, Grid3.set, if_pos (by omega)]) d1 d2 d3
  rw [e1, ok_bind]
  obtain ⟨g, e, c1, c2, c3, c4⟩ := forRange_spec (f := fun k g => do
      let pk ← subUsize b.p k
      let tmp : α := ((pk + 1 : Nat) : α)
      let rk ← subUsize b.p k
      forRange 0 (rk + 1) g fun i g => forRange 0 ndim g fun l g => do
        let k1 ← subUsize k 1
        let x ← g.get k1 (i + 1) l
        let y ← g.get k1 i l
        let ua ← vget b.uu (s - b.p + i + b.p + 1)
        let ub ← vget b.uu (s - b.p + i + k)
        g.set k i l (tmp * (x - y) / (ua - ub)))
    (fun k (q : Grid3 α) => q.n1 = b.p + 1 ∧ q.n2 = b.numBasis ∧ q.n3 = ndim ∧
      ∀ k' i l, k' < k → i ≤ b.p - k' → l < ndim → q.v k' i l = dpoint (knot b.uu) b.p s (fun i => P i l) k' i)
    (lo := 1) (hi := upto + 1) (by omega) (s := g1) ⟨f1, f2, f3, fun k' i l hk hi hl' => by
      obtain rfl : k' = 0 := by omega
      rw [f5 i l (by omega) hl', dpoint]⟩
    (by
      rintro k q hk1 hk2 ⟨c1, c2, c3, c4⟩
      rw [subUsize_of (by omega), ok_bind]
      dsimp only
      rw [ok_bind]
      obtain ⟨q', e, b1, b2, b3, b4, b5⟩ := cpts_first (k := k) (r := b.p - k + 1) (ndim := ndim) (g := q)
        (F := fun i l g => do
          let k1 ← subUsize k 1
          let x ← g.get k1 (i + 1) l
          let y ← g.get k1 i l
          let ua ← vget b.uu (s - b.p + i + b.p + 1)
          let ub ← vget b.uu (s - b.p + i + k)
          g.set k i l (((b.p - k + 1 : Nat) : α) * (x - y) / (ua - ub)))
        (W := fun i l => dpoint (knot b.uu) b.p s (fun i => P i l) k i)
        (fun i l w hi hl' w1 w2 w3 w4 => by
          rw [subUsize_of hk1, ok_bind, Grid3.get, if_pos (by omega), ok_bind, Grid3.get, if_pos (by omega), ok_bind, knot_vget (by omega), ok_bind,
            knot_vget (by omega), ok_bind, Grid3.set, if_pos (by omega), w4 _ _ _ (by omega), w4 _ _ _ (by omega),
            c4 (k - 1) (i + 1) l (by omega) (by omega) hl', c4 (k - 1) i l (by omega) (by omega) hl']
          obtain ⟨m, rfl⟩ : ∃ m, k = m + 1 := ⟨k - 1, by omega⟩
          rw [dpoint, Nat.add_sub_cancel, show b.p - (m + 1) + 1 = b.p - m by omega, show s - b.p + i + b.p + 1 = s + i + 1 by omega]) c1 c2 c3
      refine ⟨q', e, b1, b2, b3, fun k' i l hk' hi hl' => ?_⟩
      by_cases hkk : k' = k
      · subst hkk; exact b5 i l (by omega) hl'
      · rw [b4 k' i l hkk]; exact c4 k' i l (by omega) hi hl')
  rw [e]
  exact ⟨g, rfl, c1, c2, c3, fun k i l hk hi hl' => c4 k i l (by omega) hi hl'⟩

theorem alg2_spec {b : BsplineD α} {ndim : Nat} {P : Nat → Nat → α} (hr : b.Ready ndim P) {u : α} {s upto : Nat} (hup : upto ≤ b.p)
    (hs : findSpan b.p b.uu u = ok s) (h1 : b.p ≤ s) (h2 : s < b.numBasis) (hU : SpanOk (knot b.uu) s b.uu.length) :
    ∃ b', b.curveDerivsAlg2 u upto = ok b' ∧ b'.Ready ndim P ∧ b'.p = b.p ∧ b'.uu = b.uu ∧ b'.ccDers.n1 = b.p + 1 ∧ b'.ccDers.n2 = ndim ∧
      ∀ k l, k ≤ upto → l < ndim → b'.ccDers.v k l =
        (derivative^[k] (∑ j ∈ Finset.range (b.p + 1), C (P (s - b.p + j) l) * pieceP (knot b.uu) s b.p (s - b.p + j))).eval u := by
  have hl := hr.wf.len
  have hnb : b.numBasis = b.uu.length - 1 - b.p := rfl
  obtain ⟨cc, e0, g1, g2⟩ := prepareCurve_spec hr hup
  obtain ⟨ndu, left, right, a, ders, e1, hn, hd⟩ := dersBasisFuns_spec b u h1 (by omega) hup hU
  have hr1 : BsplineD.Ready { b with ndu, left, right, a, ders } ndim P :=
    ⟨⟨hr.wf.deg, hr.wf.len, hr.wf.min_le, hr.wf.le_max, hr.wf.min_mem, hr.wf.max_mem⟩, hr.pos, hr.len, hr.rows, hr.cc, hr.pd⟩
  obtain ⟨g, e3, q1, q2, q3, q4⟩ := curveDerivCpts_spec hr1 hup h1 h2
  have q1' : g.n1 = b.p + 1 := q1
  have q2' : g.n2 = b.numBasis := q2
  unfold BsplineD.curveDerivsAlg2
  rw [e0, ok_bind]
  dsimp only
  rw [hs, ok_bind, e1, ok_bind]
  dsimp only at e3 ⊢
  rw [subUsize_of h1, ok_bind, e3, ok_bind]
  obtain ⟨cc', e2, f1, f2, f3⟩ := grid_rows (n := upto + 1) (N1 := b.p + 1) (ndim := ndim)
    (S := fun k l => ∑ j ∈ Finset.range (b.p - k + 1), ndu j (b.p - k) * g.v k j l)
    (B := fun k cc => do
      let cc ← cc.zeroRow k
      let pk ← subUsize b.p k
      forRange 0 (pk + 1) cc fun j cc => forRange 0 ndim cc fun l cc => do
        let c ← cc.get k l
        let w ← Arr2.get (b.p + 1) (b.p + 1) ndu j pk
        let x ← g.get k j l
        cc.set k l (c + w * x)) (fun k cc hk p1 p2 => by
      obtain ⟨cc0, cc', e, e', rest⟩ := zeroRow_acc (n := b.p - k + 1) (ndim := ndim) (k := k) (N1 := b.p + 1) (cc := cc)
        (B := fun j cc => forRange 0 ndim cc fun l cc => do
            let c ← cc.get k l
            let w ← Arr2.get (b.p + 1) (b.p + 1) ndu j (b.p - k)
            let x ← g.get k j l
            cc.set k l (c + w * x))
        (W := fun j l => ndu j (b.p - k) * g.v k j l)
        (fun j cc hj => rfl) (by omega) (fun j l cc hj hl' p1 p2 => by
          rw [Grid2.get, if_pos (by omega), ok_bind, Arr2.get_ok (by omega) (by omega), ok_bind, Grid3.get, if_pos (by omega), ok_bind, Grid2.set, if_pos (by omega)]) p1 p2
      rw [e, ok_bind, subUsize_of (by omega), ok_bind, e']
      exact ⟨cc', rfl, rest⟩) g1 g2
  rw [e2, ok_bind]
  refine ⟨_, rfl, ⟨⟨hr.wf.deg, hr.wf.len, hr.wf.min_le, hr.wf.le_max, hr.wf.min_mem, hr.wf.max_mem⟩, hr.pos, hr.len, hr.rows, fun _ => f2,
    fun _ => ⟨q2, q3⟩⟩, rfl, rfl, f1, f2, fun k l hk hl' => ?_⟩
  dsimp only
  rw [f3 k l (by omega) hl', iterate_deriv_curve hU h1 (by omega) (fun i => P i l) k (by omega), eval_finsetSum]
  refine Finset.sum_congr rfl fun j hj => ?_
  have hj' := Finset.mem_range.1 hj
  rw [hn.val _ _ (by omega) (by omega), q4 k j l hk (show j ≤ b.p - k by omega) hl', eval_mul, eval_C, pieceP_eval, mul_comm]

/-! ## Properties -/

/-- the parameter lies in the parametric range `[U_p, U_nb]`, the first and the last span of which are not empty -/
structure Bspline.InRange (b : Bspline α) (u : α) : Prop where
  lo : knot b.uu b.p ≤ u
  hi : u ≤ knot b.uu b.numBasis
  first : knot b.uu b.p < knot b.uu (b.p + 1)
  last : knot b.uu (b.numBasis - 1) < knot b.uu b.numBasis

section Props

variable [IsStrictOrderedRing α]

theorem span_spec {b : Bspline α} (hw : b.WF) {u : α} (hu : b.InRange u) :
    ∃ s, findSpan b.p b.uu u = ok s ∧ b.p ≤ s ∧ s < b.numBasis ∧ knot b.uu s < knot b.uu (s + 1) ∧ knot b.uu s ≤ u ∧ u ≤ knot b.uu (s + 1) ∧
      (u < knot b.uu b.numBasis → u < knot b.uu (s + 1)) := by
  have hlen := hw.len
  have hnb : b.numBasis = b.uu.length - 1 - b.p := rfl
  rcases lt_or_eq_of_le hu.hi with h | h
  · have h1' : knot b.uu b.p < u ∨ (u = knot b.uu b.p ∧ u < knot b.uu (b.p + 1)) := by
      rcases lt_or_eq_of_le hu.lo with h | h
      · exact Or.inl h
      · right; rw [← h]; exact ⟨rfl, hu.first⟩
    obtain ⟨s, e, g1, g2, g3, g4⟩ := C33_find_span hlen h1' h
    exact ⟨s, e, g1, g2, g3.trans_lt g4, g3, g4.le, fun _ => g4⟩
  · have e := C33_find_span_end hlen (h.ge : knot b.uu (b.uu.length - 1 - b.p) ≤ u)
    have hsucc : b.uu.length - 1 - b.p - 1 + 1 = b.numBasis := by omega
    refine ⟨_, e, by omega, by omega, ?_, ?_, ?_, ?_⟩
    · rw [hsucc]; exact hu.last
    · rw [h]; exact hu.last.le
    · rw [hsucc, h]
    · intro hc; exact absurd hc (by rw [h]; exact lt_irrefl _)

omit [IsStrictOrderedRing α] in
theorem spanOk_of {uu : List α} [IsStrictOrderedRing α] (hs : SortedKnots uu) {s : Nat} (h : knot uu s < knot uu (s + 1)) : SpanOk (knot uu) s uu.length := by
  intro i j hi hj hl
  have h1 := hs i s hi (by omega)
  have h2 := hs (s + 1) j hj hl
  exact (sub_pos.2 (h1.trans_lt (h.trans_le h2))).ne'

/-- C99: `calc_basis_and_derivs` succeeds for every parameter in the range (including the right end) and every order up to the degree;
`get_basis_deriv` then returns, for every basis function, the derivatives at `u` of the polynomial with which the B-spline agrees on the
knot span that contains `u` (the last span at the right end), and `get_basis` returns the value of this polynomial. -/
theorem C99_basis_deriv {b : BsplineD α} (hw : b.WF) (hs : SortedKnots b.uu) {u : α} (hu : b.InRange u) {upto : Nat} (hup : upto ≤ b.p) :
    ∃ (b' : BsplineD α) (s : Nat), b.calcBasisAndDerivs u upto = ok b' ∧ b'.WF ∧ b'.p = b.p ∧ b'.uu = b.uu ∧ b'.pp = b.pp ∧
      knot b.uu s ≤ u ∧ u ≤ knot b.uu (s + 1) ∧ knot b.uu s < knot b.uu (s + 1) ∧ (u < knot b.uu b.numBasis → u < knot b.uu (s + 1)) ∧
      ∀ i, i < b.numBasis → ∃ Q : α[X], (∀ x, knot b.uu s ≤ x → x < knot b.uu (s + 1) → coxDeBoor (knot b.uu) x b.p i = Q.eval x) ∧
        b'.getBasis i = ok (Q.eval u) ∧ ∀ k, k ≤ upto → b'.getBasisDeriv i k = ok ((derivative^[k] Q).eval u) := by
  obtain ⟨s, e, g1, g2, g3, g4, g5, g6⟩ := span_spec hw hu
  have hlen := hw.len
  have hnb : b.numBasis = b.uu.length - 1 - b.p := rfl
  have hU := spanOk_of hs g3
  obtain ⟨ndu, left, right, a, ders, e1, hn, hd⟩ := dersBasisFuns_spec { b with span := s } u g1 (by show s + b.p + 1 < b.uu.length; omega) hup hU
  have hu1 : b.uMin ≤ u := (hw.min_le _ (knot_mem (by omega : b.p < b.uu.length))).trans hu.lo
  have hu2 : u ≤ b.uMax := hu.hi.trans (hw.le_max _ (knot_mem (by omega)))
  refine ⟨{ b with span := s, ndu, left, right, a, ders }, s, ?_, ?_, ?_, ?_, ?_, g4, g5, g3, g6, ?_⟩
  · unfold BsplineD.calcBasisAndDerivs
    rw [if_neg (by rintro (h | h) <;> [exact absurd h (not_lt.2 hu1); exact absurd h (not_lt.2 hu2)]), if_neg (by omega), e, ok_bind]
    exact e1
  · exact ⟨hw.deg, hw.len, hw.min_le, hw.le_max, hw.min_mem, hw.max_mem⟩
  · rfl
  · rfl
  · rfl
  · intro i hi
    refine ⟨pieceP (knot b.uu) s b.p i, fun x hx1 hx2 => ?_, ?_, fun k hk => ?_⟩
    · rw [pieceP_eval]
      exact coxDeBoor_eq_piece hs hx1 hx2 (by omega) b.p i (by omega)
    · rw [pieceP_eval]
      exact getBasis_eq (b := { b.toBspline with span := s, ndu, left, right }) g1 hn i
    · unfold BsplineD.getBasisDeriv
      dsimp only
      by_cases hc : i + b.p ≥ s ∧ i ≤ s
      · rw [if_pos hc, Arr2.get_ok (by omega) (by omega), hd k (i + b.p - s) hk (show i + b.p - s ≤ b.p by omega)]
        dsimp only
        rw [show s - b.p + (i + b.p - s) = i by omega]
      · rw [if_neg hc, pieceP_zero _ _ _ _ (by omega)]
        simp

omit [IsStrictOrderedRing α] in
/-- C99: a parameter outside of the range of the knots and an order above the degree are reported. -/
theorem C99_basis_deriv_errors (b : BsplineD α) (u : α) (upto : Nat) :
    ((u < b.uMin ∨ b.uMax < u) → b.calcBasisAndDerivs u upto = err "u is out of range") ∧
    (¬ (u < b.uMin ∨ b.uMax < u) → b.p < upto → b.calcBasisAndDerivs u upto = err "upto must be in [0, p]") := by
  unfold BsplineD.calcBasisAndDerivs
  exact ⟨fun h => if_pos h, fun h1 h2 => by rw [if_neg h1, if_pos h2]⟩

omit [IsStrictOrderedRing α] [LinearOrder α] in
theorem pieceP_degree (U : Nat → α) (s : Nat) : ∀ k i, (pieceP U s k i).natDegree ≤ k
  | 0, i => by rw [pieceP]; split <;> simp
  | k + 1, i => by
    rw [pieceP]
    refine natDegree_add_le_of_degree_le ?_ ?_
    · refine natDegree_mul_le.trans ?_
      have h1 : (C ((U (i + k + 1) - U i)⁻¹) * (X - C (U i))).natDegree ≤ 1 := (natDegree_C_mul_le _ _).trans (natDegree_X_sub_C_le _)
      have h2 := pieceP_degree U s k i
      omega
    · refine natDegree_mul_le.trans ?_
      have h1 : (C ((U (i + k + 2) - U (i + 1))⁻¹) * (C (U (i + k + 2)) - X)).natDegree ≤ 1 := by
        refine (natDegree_C_mul_le _ _).trans ((natDegree_sub_le _ _).trans ?_)
        simp
      have h2 := pieceP_degree U s k (i + 1)
      omega

/-- the curve on the span, as a polynomial -/
noncomputable def curveP (uu : List α) (p s : Nat) (P : Nat → α) : α[X] :=
  ∑ j ∈ Finset.range (p + 1), C (P (s - p + j)) * pieceP (knot uu) s p (s - p + j)

omit [IsStrictOrderedRing α] in
theorem curveP_eval {uu : List α} (hs : SortedKnots uu) {p s : Nat} (hps : p ≤ s) (hl : s + p + 1 < uu.length) (P : Nat → α) {x : α}
    (h1 : knot uu s ≤ x) (h2 : x < knot uu (s + 1)) :
    ∑ i ∈ Finset.range (uu.length - 1 - p), coxDeBoor (knot uu) x p i * P i = (curveP uu p s P).eval x := by
  rw [curveP, eval_finsetSum]
  have h : ∀ i ∈ Finset.range (uu.length - 1 - p), coxDeBoor (knot uu) x p i * P i = piece (knot uu) s x p i * P i := by
    intro i hi
    rw [coxDeBoor_eq_piece hs h1 h2 (by omega) p i (by have := Finset.mem_range.1 hi; omega)]
  rw [Finset.sum_congr rfl h]
  have hz : ∑ i ∈ Finset.range (s - p), piece (knot uu) s x p i * P i = 0 :=
    Finset.sum_eq_zero fun i hi => by rw [piece_zero _ _ _ _ _ (by have := Finset.mem_range.1 hi; omega), zero_mul]
  have h2 : ∑ i ∈ Finset.range (uu.length - 1 - p), piece (knot uu) s x p i * P i = ∑ i ∈ Finset.range (s - p + (p + 1)), piece (knot uu) s x p i * P i := by
    refine (Finset.sum_subset (Finset.range_subset_range.2 (by omega)) fun i _ hi => ?_).symm
    rw [piece_zero _ _ _ _ _ (by have := Finset.mem_range.not.1 hi; omega), zero_mul]
  rw [h2, Finset.sum_range_add, hz, zero_add]
  refine Finset.sum_congr rfl fun j _ => ?_
  rw [eval_mul, eval_C, pieceP_eval, mul_comm]

/-- the derivatives of the curve, in terms of the polynomial piece -/
theorem curve_deriv_core {b : BsplineD α} {ndim : Nat} {P : Nat → Nat → α} (hr : b.Ready ndim P) (hs : SortedKnots b.uu) {u : α}
    {s : Nat} (e : findSpan b.p b.uu u = ok s) (g1 : b.p ≤ s) (g2 : s < b.numBasis) (g3 : knot b.uu s < knot b.uu (s + 1)) (upto : Nat) (use_control : Bool) :
    ∃ b', b.calcCurveDerivs u upto use_control = ok b' ∧ b'.Ready ndim P ∧ b'.p = b.p ∧ b'.uu = b.uu ∧
      ∀ k, (k ≤ upto ∨ b.p < k) → ∀ cck : List α, cck.length = ndim → ∃ cck', b'.getCurveDeriv cck k = ok cck' ∧
        IsVec cck' ndim (fun l => (derivative^[k] (curveP b.uu b.p s (fun i => P i l))).eval u) := by
  have hU := spanOk_of hs g3
  obtain ⟨b', e1, f1, f2, f3, f4, f5, f6⟩ : ∃ b', b.calcCurveDerivs u upto use_control = ok b' ∧ b'.Ready ndim P ∧ b'.p = b.p ∧ b'.uu = b.uu ∧
      b'.ccDers.n1 = b.p + 1 ∧ b'.ccDers.n2 = ndim ∧
      ∀ k l, k ≤ min upto b.p → l < ndim → b'.ccDers.v k l = (derivative^[k] (curveP b.uu b.p s (fun i => P i l))).eval u := by
    unfold BsplineD.calcCurveDerivs
    dsimp only
    cases use_control with
    | true => exact alg2_spec hr (Nat.min_le_right _ _) e g1 g2 hU
    | false =>
      obtain ⟨b', e1, f1, f2, f3, f4, f5, f6⟩ := alg1_spec hr (Nat.min_le_right upto b.p) e g1 g2 hU
      refine ⟨b', e1, f1, f2, f3, f4, f5, fun k l hk hl => ?_⟩
      rw [f6 k l hk hl, curveP, iterate_derivative_sum, eval_finsetSum]
      refine Finset.sum_congr rfl fun j _ => ?_
      rw [iterate_derivative_C_mul, eval_mul, eval_C, mul_comm]
  refine ⟨b', e1, f1, f2, f3, fun k hk cck hc => ?_⟩
  unfold BsplineD.getCurveDeriv
  by_cases hkp : k > b'.p
  · rw [if_pos hkp, hc]
    refine ⟨_, rfl, (isVec_replicate ndim (0 : α)).congr fun l _ => ?_⟩
    rw [iterate_derivative_eq_zero, eval_zero]
    refine lt_of_le_of_lt (natDegree_sum_le_of_forall_le (n := b.p) _ _ fun j _ => ?_) (by omega)
    exact (natDegree_C_mul_le _ _).trans (pieceP_degree _ _ _ _)
  · rw [if_neg hkp]
    have hself : IsVec cck ndim (fun i => cck.getD i 0) := by rw [← hc]; exact isVec_self cck 0
    obtain ⟨cck', e2, h2⟩ := fillVec (g := fun l => (derivative^[k] (curveP b.uu b.p s (fun i => P i l))).eval u) hself (le_refl ndim) (lo := 0)
      (body := fun l cck => do
        let x ← b'.ccDers.get k l
        vset cck l x) (fun l q f' hl hl' _ _ => by
          rw [Grid2.get, if_pos (by omega), ok_bind, f6 k l (by omega) hl'])
    rw [hc, e2]
    refine ⟨cck', rfl, h2.congr fun l hl => ?_⟩
    simp [hl]

/-- C99: `calc_curve_derivs` succeeds with both algorithms and `get_curve_deriv` then returns, for every order up to the requested one and
for every order above the degree, the derivatives at `u` of the polynomials with which the coordinates of the curve agree on the knot span
of `u`. The structure stays ready for further calls. -/
theorem C99_curve_deriv {b : BsplineD α} {ndim : Nat} {P : Nat → Nat → α} (hr : b.Ready ndim P) (hs : SortedKnots b.uu) {u : α}
    (hu : b.InRange u) (upto : Nat) (use_control : Bool) :
    ∃ (b' : BsplineD α) (s : Nat) (Q : Nat → α[X]), b.calcCurveDerivs u upto use_control = ok b' ∧ b'.Ready ndim P ∧ b'.p = b.p ∧ b'.uu = b.uu ∧
      knot b.uu s ≤ u ∧ u ≤ knot b.uu (s + 1) ∧ knot b.uu s < knot b.uu (s + 1) ∧ (u < knot b.uu b.numBasis → u < knot b.uu (s + 1)) ∧
      (∀ l, l < ndim → ∀ x, knot b.uu s ≤ x → x < knot b.uu (s + 1) →
        ∑ i ∈ Finset.range b.numBasis, coxDeBoor (knot b.uu) x b.p i * P i l = (Q l).eval x) ∧
      ∀ k, (k ≤ upto ∨ b.p < k) → ∀ cck : List α, cck.length = ndim → ∃ cck', b'.getCurveDeriv cck k = ok cck' ∧
        IsVec cck' ndim (fun l => (derivative^[k] (Q l)).eval u) := by
  obtain ⟨s, e, g1, g2, g3, g4, g5, g6⟩ := span_spec hr.wf hu
  have hlen := hr.wf.len
  have hnb : b.numBasis = b.uu.length - 1 - b.p := rfl
  obtain ⟨b', e1, f1, f2, f3, f4⟩ := curve_deriv_core hr hs e g1 g2 g3 upto use_control
  exact ⟨b', s, fun l => curveP b.uu b.p s (fun i => P i l), e1, f1, f2, f3, g4, g5, g3, g6,
    fun l _ x h1 h2 => curveP_eval hs g1 (by omega) (fun i => P i l) h1 h2, f4⟩

/-- C99: both algorithms give the same derivatives. -/
theorem C99_algorithms_agree {b : BsplineD α} {ndim : Nat} {P : Nat → Nat → α} (hr : b.Ready ndim P) (hs : SortedKnots b.uu) {u : α}
    (hu : b.InRange u) {upto k : Nat} (hk : k ≤ upto) {cck : List α} (hc : cck.length = ndim) :
    (do let b' ← b.calcCurveDerivs u upto false; b'.getCurveDeriv cck k) = (do let b' ← b.calcCurveDerivs u upto true; b'.getCurveDeriv cck k) := by
  obtain ⟨s, e, g1, g2, g3, g4, g5, g6⟩ := span_spec hr.wf hu
  obtain ⟨b1, e1, _, _, _, f1⟩ := curve_deriv_core hr hs e g1 g2 g3 upto false
  obtain ⟨b2, e2, _, _, _, f2⟩ := curve_deriv_core hr hs e g1 g2 g3 upto true
  obtain ⟨c1, d1, h1⟩ := f1 k (Or.inl hk) cck hc
  obtain ⟨c2, d2, h2⟩ := f2 k (Or.inl hk) cck hc
  rw [e1, e2, ok_bind, ok_bind, d1, d2, h1.unique h2]

/-- C99: a new B-spline with its control points is ready, and stays so when the control points are replaced by points of the same
dimension. -/
theorem C99_ready {ndim : Nat} {P : Nat → Nat → α} (hpos : 0 < ndim) {pp : List (List α)} :
    (∀ (p : Nat) (uu : List α), 1 ≤ p → 2 * (p + 1) ≤ uu.length → pp.length = uu.length - 1 - p →
      (∀ i, i < pp.length → ∃ row, pp[(i : Nat)]? = some row ∧ IsVec row ndim (P i)) →
      ∃ b b', BsplineD.new p uu = ok b ∧ b.setControlPoints pp ndim = ok b' ∧ b'.Ready ndim P ∧ b'.p = p ∧ b'.uu = uu) ∧
    (∀ (b : BsplineD α) (P' : Nat → Nat → α), b.Ready ndim P' → pp.length = b.numBasis →
      (∀ i, i < pp.length → ∃ row, pp[(i : Nat)]? = some row ∧ IsVec row ndim (P i)) →
      ∃ b', b.setControlPoints pp ndim = ok b' ∧ b'.Ready ndim P ∧ b'.p = b.p ∧ b'.uu = b.uu) := by
  constructor
  · intro p uu h1 h2 hl hrow
    obtain ⟨b, e, hw, hp, hu, _⟩ := (C33_new p uu).1 ⟨h1, h2⟩
    refine ⟨_, (⟨{ b with pp := pp }, fun _ _ => 0, fun _ _ => 0, ⟨0, 0, fun _ _ => 0⟩, ⟨0, 0, 0, fun _ _ _ => 0⟩⟩ : BsplineD α), by rw [BsplineD.new, e, ok_bind], ?_, ?_, ?_, ?_⟩
    · unfold BsplineD.setControlPoints Bspline.setControlPoints
      rw [if_neg (by simp only [Bspline.numBasis, hp, hu]; simpa using hl), if_neg (by omega), ok_bind]
    · refine ⟨⟨hw.deg, hw.len, hw.min_le, hw.le_max, hw.min_mem, hw.max_mem⟩, hpos, ?_, ?_, ?_, ?_⟩
      · simp only [Bspline.numBasis, hp, hu]; exact hl
      · intro i hi
        simp only [Bspline.numBasis, hp, hu] at hi
        exact hrow i (by omega)
      · intro h; simp at h
      · intro h; simp at h
    · exact hp
    · exact hu
  · intro b P' hr hl hrow
    refine ⟨{ b with pp }, ?_, ⟨⟨hr.wf.deg, hr.wf.len, hr.wf.min_le, hr.wf.le_max, hr.wf.min_mem, hr.wf.max_mem⟩, hpos, hl,
      fun i hi => hrow i (by rw [hl]; exact hi), hr.cc, hr.pd⟩, rfl, rfl⟩
    unfold BsplineD.setControlPoints Bspline.setControlPoints
    rw [if_neg (by simpa using hl), if_neg (by omega), ok_bind]

omit [IsStrictOrderedRing α] in
/-- C99: `get_elements` returns exactly the spans that are longer than the tolerance, in increasing order. -/
theorem C99_get_elements {b : Bspline α} (hw : b.WF) (tolerance : α) :
    b.getElements tolerance = ok (((List.range (b.uu.length - 1)).filter (fun i => decide (tolerance < |knot b.uu (i + 1) - knot b.uu i|))).map
      fun i => (i, i + 1)) := by
  have hl := hw.len
  unfold Bspline.getElements
  rw [subUsize_of (by omega), ok_bind]
  obtain ⟨l, e, h⟩ := forRange_spec (f := fun i spans => do
      let x ← vget b.uu (i + 1)
      let y ← vget b.uu i
      ok (if |x - y| > tolerance then spans ++ [(i, i + 1)] else spans))
    (fun n (l : List (Nat × Nat)) => l = ((List.range n).filter (fun i => decide (tolerance < |knot b.uu (i + 1) - knot b.uu i|))).map fun i => (i, i + 1))
    (Nat.zero_le (b.uu.length - 1)) (s := []) (by simp)
    (by
      intro i l _ hi hh
      rw [knot_vget (by omega), ok_bind, knot_vget (by omega), ok_bind]
      refine ⟨_, rfl, ?_⟩
      rw [List.range_succ, List.filter_append, List.map_append, ← hh]
      by_cases hc : tolerance < |knot b.uu (i + 1) - knot b.uu i|
      · simp [hc]
      · simp [hc])
  rw [e, h]

/-- C99: for sorted knots and the tolerance zero, every parameter lies in exactly one of the elements. -/
theorem C99_elements_partition {b : Bspline α} (hw : b.WF) (hs : SortedKnots b.uu) {u : α} (h1 : knot b.uu 0 ≤ u) (h2 : u < knot b.uu (b.uu.length - 1)) :
    ∃ l, b.getElements 0 = ok l ∧ ∃! e, e ∈ l ∧ knot b.uu e.1 ≤ u ∧ u < knot b.uu e.2 := by
  have hl := hw.len
  refine ⟨_, C99_get_elements hw 0, ?_⟩
  obtain ⟨s, hs1, hs2, hs3⟩ : ∃ s, s < b.uu.length - 1 ∧ knot b.uu s ≤ u ∧ u < knot b.uu (s + 1) := by
    by_contra hc
    push Not at hc
    have : ∀ n, n ≤ b.uu.length - 1 → knot b.uu n ≤ u := by
      intro n
      induction n with
      | zero => intro _; exact h1
      | succ n ih => intro hn; exact hc n (by omega) (ih (by omega))
    exact absurd (this _ (le_refl _)) (not_le.2 h2)
  refine ⟨(s, s + 1), ⟨?_, hs2, hs3⟩, ?_⟩
  · rw [List.mem_map]
    refine ⟨s, List.mem_filter.2 ⟨List.mem_range.2 hs1, decide_eq_true ?_⟩, rfl⟩
    exact abs_pos.2 (sub_pos.2 (hs2.trans_lt hs3)).ne'
  · rintro ⟨i, j⟩ ⟨hm, g1, g2⟩
    obtain ⟨i', hi', he⟩ := List.mem_map.1 hm
    obtain ⟨rfl, rfl⟩ := Prod.mk.inj he
    have hi'' := List.mem_range.1 (List.mem_filter.1 hi').1
    have : i' = s := by
      rcases Nat.lt_trichotomy i' s with h | h | h
      · have := hs (i' + 1) s h (by omega)
        exact absurd (g2.trans_le this) (not_lt.2 hs2)
      · exact h
      · have := hs (s + 1) i' h (by omega)
        exact absurd (hs3.trans_le this) (not_lt.2 g1)
    rw [this]

end Props

/-! ### The derivatives over the reals -/

theorem iteratedDeriv_poly (Q : ℝ[X]) : ∀ k, iteratedDeriv k (fun x => Q.eval x) = fun x => (derivative^[k] Q).eval x
  | 0 => by simp
  | k + 1 => by
    rw [iteratedDeriv_succ, iteratedDeriv_poly Q k, Function.iterate_succ', Function.comp_apply]
    funext x
    exact Polynomial.deriv _

/-- C99: over the reals, `get_basis_deriv` gives the derivatives from the right of the B-splines at every parameter before the right end,
and the (two-sided) derivatives at every parameter that is not a knot. -/
theorem C99_basis_deriv_real {b : BsplineD ℝ} (hw : b.WF) (hs : SortedKnots b.uu) {u : ℝ} (hu : b.InRange u) (hlt : u < knot b.uu b.numBasis)
    {upto : Nat} (hup : upto ≤ b.p) :
    ∃ b', b.calcBasisAndDerivs u upto = ok b' ∧ ∀ i k, i < b.numBasis → k ≤ upto →
      b'.getBasisDeriv i k = ok (iteratedDerivWithin k (fun x => coxDeBoor (knot b.uu) x b.p i) (Set.Ici u) u) ∧
      (u ∉ b.uu → b'.getBasisDeriv i k = ok (iteratedDeriv k (fun x => coxDeBoor (knot b.uu) x b.p i) u)) := by
  obtain ⟨b', s, e, _, _, _, _, g1, g2, g3, g4, h⟩ := C99_basis_deriv hw hs hu hup
  have g5 := g4 hlt
  refine ⟨b', e, fun i k hi hk => ?_⟩
  obtain ⟨Q, hQ, _, hd⟩ := h i hi
  constructor
  · rw [hd k hk]
    have h1 : (fun x => coxDeBoor (knot b.uu) x b.p i) =ᶠ[nhdsWithin u (Set.Ici u)] fun x => Q.eval x := by
      filter_upwards [Ico_mem_nhdsGE g5] with x hx
      exact hQ x (g1.trans hx.1) hx.2
    rw [h1.iteratedDerivWithin_eq (hQ u g1 g5),
      iteratedDerivWithin_eq_iteratedDeriv (uniqueDiffOn_Ici u) (ContDiff.contDiffAt (by simpa using Polynomial.contDiff_aeval (𝕜 := ℝ) Q k)) (Set.mem_Ici.2 le_rfl), iteratedDeriv_poly]
  · intro hk'
    have hsl : s < b.uu.length := by
      by_contra hc
      have e1 : knot b.uu s = 0 := by simp [knot, Nat.not_lt.1 hc]
      have e2 : knot b.uu (s + 1) = 0 := by simp [knot, Nat.le_succ_of_le (Nat.not_lt.1 hc)]
      rw [e1, e2] at g3
      exact lt_irrefl _ g3
    have hne : knot b.uu s < u := lt_of_le_of_ne g1 fun he => hk' (he ▸ knot_mem hsl)
    rw [hd k hk]
    have h1 : (fun x => coxDeBoor (knot b.uu) x b.p i) =ᶠ[nhds u] fun x => Q.eval x := by
      filter_upwards [Ioo_mem_nhds hne g5] with x hx
      exact hQ x hx.1.le hx.2
    rw [h1.iteratedDeriv_eq, iteratedDeriv_poly]

/-- degree 2, knots 0, 0, 0, 1, 2, 2, 2: the second derivative of the first basis function is 2, at every parameter of the first span -/
example : (do
    let b ← BsplineD.new 2 ([0, 0, 0, 1, 2, 2, 2] : List ℚ)
    let b ← b.calcBasisAndDerivs (1/2) 2
    let x ← b.getBasisDeriv 0 1
    let y ← b.getBasisDeriv 0 2
    let z ← b.getBasisDeriv 1 1
    ok (x, y, z) : Res (ℚ × ℚ × ℚ)) = ok (-1, 2, 1/2) := by
  decide +kernel

/-- both algorithms on a quadratic curve in the plane, at an interior knot -/
example : (do
    let b ← BsplineD.new 2 ([0, 0, 0, 1, 2, 2, 2] : List ℚ)
    let b ← b.setControlPoints [[0, 0], [1, 2], [3, 2], [4, 0]] 2
    let c ← b.calcCurveDerivs 1 2 false
    let x ← c.getCurveDeriv [0, 0] 1
    let c ← c.calcCurveDerivs 1 7 true
    let y ← c.getCurveDeriv [0, 0] 1
    let z ← c.getCurveDeriv [0, 0] 3
    ok (x, y, z) : Res (List ℚ × List ℚ × List ℚ)) = ok ([2, 0], [2, 0], [0, 0]) := by
  decide +kernel

/-- The arrays for the derivatives are allocated only once: replacing the control points by points of a larger dimension makes the next
calculation of the derivatives panic, with both algorithms. -/
theorem C99_dimension_counterexample (use_control : Bool) :
    (do
      let b ← BsplineD.new 1 ([0, 0, 1, 1] : List ℚ)
      let b ← b.setControlPoints [[0], [1]] 1
      let b ← b.calcCurveDerivs 0 1 use_control
      let b ← b.setControlPoints [[0, 0], [1, 1]] 2
      let _ ← b.calcCurveDerivs 0 1 use_control
      ok () : Res Unit) = Res.panic := by
  cases use_control <;> decide +kernel

/-- The derivatives above the order of the last calculation are those of an earlier calculation: degree 2, knots 0, 0, 0, 1, 1, 1 and the
control points 0, 0, 1 (the curve is `u ↦ u²`); after a calculation at `u = 1` up to the first order and one at `u = 0` up to the order
zero, the first derivative is reported as 2 although it is 0 at `u = 0`. -/
theorem C99_stale_counterexample :
    (do
      let b ← BsplineD.new 2 ([0, 0, 0, 1, 1, 1] : List ℚ)
      let b ← b.setControlPoints [[0], [0], [1]] 1
      let b ← b.calcCurveDerivs 1 1 false
      let b ← b.calcCurveDerivs 0 0 false
      b.getCurveDeriv [0] 1 : Res (List ℚ)) = ok [2] := by
  decide +kernel

/-- `calc_curve_derivs` overwrites the table of the basis functions but not the span: afterwards `get_basis` mixes two parameters. Degree
1, knots 0, 0, 1, 2, 2: after `calc_basis(1/2)` and `calc_curve_derivs(7/4)`, the basis function 0 is reported as 1/4; its value is 1/2 at
`u = 1/2` and 0 at `u = 7/4`. -/
theorem C99_span_counterexample :
    (do
      let b ← BsplineD.new 1 ([0, 0, 1, 2, 2] : List ℚ)
      let b ← b.setControlPoints [[0], [0], [1]] 1
      let b ← b.calcBasisAndDerivs (1/2) 1
      let b ← b.calcCurveDerivs (7/4) 1 false
      b.getBasis 0 : Res ℚ) = ok (1/4) ∧
    coxDeBoor (knot ([0, 0, 1, 2, 2] : List ℚ)) (1/2) 1 0 = 1/2 ∧ coxDeBoor (knot ([0, 0, 1, 2, 2] : List ℚ)) (7/4) 1 0 = 0 := by
  decide +kernel

/-- The documentation says that `get_basis_deriv` panics for an index out of range: it returns zero. -/
theorem C99_index_counterexample :
    (do
      let b ← BsplineD.new 1 ([0, 0, 1, 1] : List ℚ)
      let b ← b.calcBasisAndDerivs 0 1
      b.getBasisDeriv 100 1 : Res ℚ) = ok 0 := by
  decide +kernel

end Russell.Lab
