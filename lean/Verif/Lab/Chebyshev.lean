import Verif.Lab.Dense
import Mathlib.Analysis.SpecialFunctions.Trigonometric.Chebyshev.Basic
import Mathlib.Analysis.SpecialFunctions.Arcosh
import Mathlib.Analysis.SpecialFunctions.Trigonometric.Inverse
import Mathlib.Analysis.SpecialFunctions.Pow.Real
import Mathlib.Algebra.Polynomial.Roots
import Mathlib.Tactic.LinearCombination

/-!
# Chebyshev polynomials and points (properties C32 and C52)

Models of /repo/russell_lab/src/math/chebyshev.rs and chebyshev_u.rs over the real numbers: `f64::cos`, `f64::acos`,
`f64::cosh`, `f64::acosh`, `f64::sqrt`, … are the real functions, `PI` is π and decimal literals are exact. The polynomials
themselves are Mathlib's `Polynomial.Chebyshev.T` and `U` (defined by their recurrences).
-/

namespace Russell.Lab

open Russell Russell.Res Polynomial Polynomial.Chebyshev

noncomputable section

/-- `chebyshev_tn` (/repo/russell_lab/src/math/chebyshev.rs:35-54) -/
def chebyshevTn (n : Nat) (x : ℝ) : ℝ :=
  if n = 0 then 1
  else if n = 1 then x
  else if x < -1 then
    if n &&& 1 = 0 then Real.cosh (n * Real.arcosh (-x)) else -Real.cosh (n * Real.arcosh (-x))
  else if x > 1 then Real.cosh (n * Real.arcosh x)
  else Real.cos (n * Real.arccos x)

/-- `chebyshev_tn_deriv1` (/repo/russell_lab/src/math/chebyshev.rs:89-112); `powf(-1, n)` is `(-1)^n` -/
def chebyshevTnDeriv1 (n : Nat) (x : ℝ) : ℝ :=
  let p : ℝ := n
  if x > -1 ∧ x < 1 then
    let t := Real.arccos x
    let d1 := -p * Real.sin (p * t)
    let s := Real.sin t;
    -d1 / s
  else if x = 1 then p * p
  else if x = -1 then if n &&& 1 = 0 then -p * p else p * p
  else if x < -1 then -(-1) ^ n * (p * Real.sinh (p * Real.arcosh (-x))) / Real.sqrt (x * x - 1)
  else (p * Real.sinh (p * Real.arcosh x)) / Real.sqrt (x * x - 1)

/-- `chebyshev_tn_deriv2` (/repo/russell_lab/src/math/chebyshev.rs:149-181) -/
def chebyshevTnDeriv2 (n : Nat) (x : ℝ) : ℝ :=
  let p : ℝ := n
  let pp := p * p
  let t := Real.arccos x
  if x > -1 ∧ x < 1 then
    let d1 := -p * Real.sin (p * t)
    let d2 := -pp * Real.cos (p * t)
    let c := Real.cos t
    let s := Real.sin t
    (s * d2 - c * d1) / (s * s * s)
  else if x = -1 then if n &&& 1 ≠ 0 then -(pp * pp - pp) / 3 else (pp * pp - pp) / 3
  else if x = 1 then (pp * pp - pp) / 3
  else
    let d := x * x - 1
    if x < -1 then
      let r := (pp * Real.cosh (p * Real.arcosh (-x))) / d +
        (p * x * Real.sinh (p * Real.arcosh (-x))) / d ^ (1.5 : ℝ)
      if n &&& 1 = 0 then r else -r
    else
      (pp * Real.cosh (p * Real.arcosh x)) / d - (p * x * Real.sinh (p * Real.arcosh x)) / d ^ (1.5 : ℝ)

/-- `chebyshev_un` (/repo/russell_lab/src/math/chebyshev_u.rs:35-62) -/
def chebyshevUn (n : Nat) (x : ℝ) : ℝ :=
  if n = 0 then 1
  else if n = 1 then 2 * x
  else
    let m : ℝ := (n + 1 : Nat)
    if x < -1 then
      let a := Real.arcosh (-x)
      let v := Real.sinh (m * a) / Real.sinh a
      if n % 2 = 0 then v else -v
    else if x > 1 then
      let a := Real.arcosh x
      Real.sinh (m * a) / Real.sinh a
    else if |x - 1| < 1e-12 then m
    else if |x + 1| < 1e-12 then if n % 2 = 0 then m else -m
    else
      let a := Real.arccos x
      Real.sin (m * a) / Real.sin a

/-- `chebyshev_un_deriv1` (/repo/russell_lab/src/math/chebyshev_u.rs:95-121) -/
def chebyshevUnDeriv1 (n : Nat) (x : ℝ) : ℝ :=
  if n = 0 then 0
  else
    let nf : ℝ := n
    let m := nf + 1
    if |x - 1| < 1e-12 then nf * (nf + 1) * (nf + 2) / 3
    else if |x + 1| < 1e-12 then
      let d := nf * (nf + 1) * (nf + 2) / 3
      if n % 2 = 0 then -d else d
    else
      let u := chebyshevUn n x
      let t := chebyshevTn (n + 1) x
      let denom := 1 - x * x
      (x * u - m * t) / denom

/-- `chebyshev_un_deriv2` (/repo/russell_lab/src/math/chebyshev_u.rs:154-185) -/
def chebyshevUnDeriv2 (n : Nat) (x : ℝ) : ℝ :=
  if n = 0 ∨ n = 1 then 0
  else
    let nf : ℝ := n
    let m := nf + 1
    if |x - 1| < 1e-12 then nf * (nf - 1) * (nf + 1) * (nf + 2) * (nf + 3) / 15
    else if |x + 1| < 1e-12 then
      let d := nf * (nf - 1) * (nf + 1) * (nf + 2) * (nf + 3) / 15
      if n % 2 = 0 then d else -d
    else
      let u := chebyshevUn n x
      let u' := chebyshevUnDeriv1 n x
      let t := chebyshevTn (n + 1) x
      let t' := chebyshevTnDeriv1 (n + 1) x
      let denom := 1 - x * x
      let num1 := (u + x * u' - m * t') * denom
      let num2 := 2 * x * (x * u - m * t)
      (num1 + num2) / (denom * denom)

/-! ## Proofs for the polynomials -/

theorem and_one_eq_zero (n : Nat) : n &&& 1 = 0 ↔ Even n := by
  rw [Nat.and_one_is_mod, Nat.even_iff]

theorem mod_two_eq_zero (n : Nat) : n % 2 = 0 ↔ Even n := (Nat.even_iff).symm

theorem negOnePow_even {n : Nat} (h : Even n) : (((n : ℤ).negOnePow : ℤ) : ℝ) = 1 := by
  rw [Int.negOnePow_even _ (by exact_mod_cast h)]; simp

theorem negOnePow_odd {n : Nat} (h : ¬ Even n) : (((n : ℤ).negOnePow : ℤ) : ℝ) = -1 := by
  rw [Int.negOnePow_odd _ (by exact_mod_cast Nat.not_even_iff_odd.1 h)]; simp

/-- **C32** `chebyshev_tn(n, x)` is the value of the Chebyshev polynomial of the first kind, for every `n` and every real
`x` (all branches). -/
theorem C32_tn (n : Nat) (x : ℝ) : chebyshevTn n x = (T ℝ n).eval x := by
  unfold chebyshevTn
  by_cases h0 : n = 0
  · subst h0; simp
  by_cases h1 : n = 1
  · subst h1; simp
  rw [if_neg h0, if_neg h1]
  by_cases hl : x < -1
  · rw [if_pos hl]
    have e := T_real_cosh (Real.arcosh (-x)) n
    rw [Real.cosh_arcosh (by linarith), T_eval_neg] at e
    by_cases he : n &&& 1 = 0
    · rw [if_pos he]
      rw [negOnePow_even ((and_one_eq_zero n).1 he)] at e
      simp only [Int.cast_natCast, one_mul] at e; exact e.symm
    · rw [if_neg he]
      rw [negOnePow_odd (fun h => he ((and_one_eq_zero n).2 h))] at e
      simp only [Int.cast_natCast] at e; rw [← e]; ring
  rw [if_neg hl]
  by_cases hr : x > 1
  · rw [if_pos hr]
    have e := T_real_cosh (Real.arcosh x) n
    rw [Real.cosh_arcosh hr.le] at e
    simpa using e.symm
  · rw [if_neg hr]
    have e := T_real_cos (Real.arccos x) n
    rw [Real.cos_arccos (by linarith) (by linarith)] at e
    simpa using e.symm

theorem T_deriv_mul_sin (n : Nat) (θ : ℝ) :
    (derivative (T ℝ n)).eval (Real.cos θ) * Real.sin θ = n * Real.sin (n * θ) := by
  rw [T_derivative_eq_U, eval_mul, mul_assoc, U_real_cos]
  simp

theorem T_deriv_mul_sinh (n : Nat) (θ : ℝ) :
    (derivative (T ℝ n)).eval (Real.cosh θ) * Real.sinh θ = n * Real.sinh (n * θ) := by
  rw [T_derivative_eq_U, eval_mul, mul_assoc, U_real_cosh]
  simp

/-- parity of the derivatives -/
theorem deriv_eval_neg {p : ℝ[X]} {c : ℝ} (h : ∀ x, p.eval (-x) = c * p.eval x) (x : ℝ) :
    (derivative p).eval (-x) = -c * (derivative p).eval x := by
  have e : p.comp (-X) = C c * p := by
    apply Polynomial.funext
    intro y
    rw [eval_comp]
    simp [h y]
  have e2 := congrArg derivative e
  rw [derivative_comp] at e2
  have e3 := congrArg (Polynomial.eval x) e2
  simp only [derivative_neg, derivative_X, eval_mul, eval_neg, eval_one, eval_comp, eval_X, derivative_mul, derivative_C,
    zero_mul, zero_add, eval_C] at e3
  linarith

theorem T_neg (n : Nat) (x : ℝ) : (T ℝ n).eval (-x) = (((n : ℤ).negOnePow : ℤ) : ℝ) * (T ℝ n).eval x := T_eval_neg _ _ _

/-- **C32** `chebyshev_tn_deriv1(n, x)` is the value of the derivative of the polynomial, for every `n` and `x`. -/
theorem C32_tn_deriv1 (n : Nat) (x : ℝ) : chebyshevTnDeriv1 n x = (derivative (T ℝ n)).eval x := by
  have hneg := deriv_eval_neg (T_neg n)
  simp only [chebyshevTnDeriv1]
  by_cases h : x > -1 ∧ x < 1
  · rw [if_pos h]
    have e := T_deriv_mul_sin n (Real.arccos x)
    rw [Real.cos_arccos h.1.le h.2.le] at e
    have hs : Real.sin (Real.arccos x) ≠ 0 := by
      rw [Real.sin_arccos]
      exact (Real.sqrt_pos.2 (by nlinarith [h.1, h.2])).ne'
    rw [div_eq_iff hs]; linarith
  rw [if_neg h]
  by_cases h1 : x = 1
  · subst h1
    rw [if_pos rfl, derivative_T_eval_one]; push_cast; ring
  rw [if_neg h1]
  by_cases h2 : x = -1
  · subst h2
    rw [if_pos rfl, hneg 1, derivative_T_eval_one]
    by_cases he : n &&& 1 = 0
    · rw [if_pos he, negOnePow_even ((and_one_eq_zero n).1 he)]; push_cast; ring
    · rw [if_neg he, negOnePow_odd (fun h => he ((and_one_eq_zero n).2 h))]; push_cast; ring
  rw [if_neg h2]
  by_cases h3 : x < -1
  · rw [if_pos h3]
    have e := T_deriv_mul_sinh n (Real.arcosh (-x))
    rw [Real.cosh_arcosh (by linarith), Real.sinh_arcosh (by linarith), hneg x] at e
    have hpos : 0 < Real.sqrt (x * x - 1) := Real.sqrt_pos.2 (by nlinarith)
    have hsq : (-x) ^ 2 - 1 = x * x - 1 := by ring
    rw [hsq] at e
    rw [div_eq_iff hpos.ne', ← e]
    rcases Nat.even_or_odd n with he | ho
    · rw [negOnePow_even he, he.neg_one_pow]; ring
    · rw [negOnePow_odd (Nat.not_even_iff_odd.2 ho), ho.neg_one_pow]; ring
  · rw [if_neg h3]
    have hx1 : 1 < x := by
      rcases lt_or_gt_of_ne h1 with h4 | h4
      · exact absurd ⟨lt_of_le_of_ne (not_lt.1 h3) (Ne.symm h2), h4⟩ h
      · exact h4
    have e := T_deriv_mul_sinh n (Real.arcosh x)
    rw [Real.cosh_arcosh hx1.le, Real.sinh_arcosh hx1.le] at e
    have hpos : 0 < Real.sqrt (x * x - 1) := Real.sqrt_pos.2 (by nlinarith)
    have hsq : x ^ 2 - 1 = x * x - 1 := by ring
    rw [hsq] at e
    rw [div_eq_iff hpos.ne', e]

theorem T_ode (n : Nat) (x : ℝ) :
    (1 - x ^ 2) * (derivative^[2] (T ℝ n)).eval x = x * (derivative (T ℝ n)).eval x - n ^ 2 * (T ℝ n).eval x := by
  have e := congrArg (Polynomial.eval x) (one_sub_X_sq_mul_derivative_derivative_T_eq_poly_in_T (R := ℝ) (n : ℤ))
  simpa using e

theorem rpow_three_half {d : ℝ} (hd : 0 < d) : d ^ (1.5 : ℝ) = d * Real.sqrt d := by
  rw [show (1.5 : ℝ) = 1 + 1 / 2 by norm_num, Real.rpow_add hd, Real.rpow_one, Real.sqrt_eq_rpow]

/-- **C32** `chebyshev_tn_deriv2(n, x)` is the value of the second derivative of the polynomial, for every `n` and `x`. -/
theorem C32_tn_deriv2 (n : Nat) (x : ℝ) : chebyshevTnDeriv2 n x = (derivative^[2] (T ℝ n)).eval x := by
  have hneg1 := deriv_eval_neg (T_neg n)
  have hneg : ∀ y, (derivative^[2] (T ℝ n)).eval (-y) = (((n : ℤ).negOnePow : ℤ) : ℝ) * (derivative^[2] (T ℝ n)).eval y := by
    intro y
    have := deriv_eval_neg hneg1 y
    simpa using this
  have hone : (derivative^[2] (T ℝ n)).eval 1 = ((n : ℝ) * n * (n * n) - n * n) / 3 := by
    rw [iterate_derivative_T_eval_one_eq_div]
    simp [Finset.prod_range_succ]
    ring
  have hode := T_ode n
  simp only [chebyshevTnDeriv2]
  by_cases h : x > -1 ∧ x < 1
  · rw [if_pos h]
    have e1 := T_deriv_mul_sin n (Real.arccos x)
    have e0 := T_real_cos (Real.arccos x) n
    rw [Real.cos_arccos h.1.le h.2.le] at e0 e1 ⊢
    have hs : Real.sin (Real.arccos x) ≠ 0 := by
      rw [Real.sin_arccos]
      exact (Real.sqrt_pos.2 (by nlinarith [h.1, h.2])).ne'
    have hs2 : Real.sin (Real.arccos x) ^ 2 = 1 - x ^ 2 := by
      have := Real.sin_sq_add_cos_sq (Real.arccos x)
      rw [Real.cos_arccos h.1.le h.2.le] at this; linarith
    have e2 := hode x
    rw [← hs2, e0] at e2
    rw [div_eq_iff (by simpa using hs)]
    simp only [Int.cast_natCast] at e2
    linear_combination (Real.sin (Real.arccos x)) * -e2 + -x * e1
  rw [if_neg h]
  by_cases h2 : x = -1
  · subst h2
    rw [if_pos rfl, hneg 1, hone]
    by_cases he : n &&& 1 = 0
    · rw [if_neg (by simpa using he), negOnePow_even ((and_one_eq_zero n).1 he)]; ring
    · rw [if_pos (by simpa using he), negOnePow_odd (fun h => he ((and_one_eq_zero n).2 h))]; ring
  rw [if_neg h2]
  by_cases h1 : x = 1
  · subst h1
    rw [if_pos rfl, hone]
  rw [if_neg h1]
  -- the formula for y > 1
  have big : ∀ y : ℝ, 1 < y → (derivative^[2] (T ℝ n)).eval y =
      ((n : ℝ) * n * Real.cosh (n * Real.arcosh y)) / (y * y - 1) -
        (n * y * Real.sinh (n * Real.arcosh y)) / (y * y - 1) ^ (1.5 : ℝ) := by
    intro y hy
    have hd : 0 < y * y - 1 := by nlinarith
    have hs : 0 < Real.sqrt (y * y - 1) := Real.sqrt_pos.2 hd
    have e1 := T_deriv_mul_sinh n (Real.arcosh y)
    have e0 := T_real_cosh (Real.arcosh y) n
    have hsq : y ^ 2 - 1 = y * y - 1 := by ring
    rw [Real.cosh_arcosh hy.le, Real.sinh_arcosh hy.le, hsq] at e1
    rw [Real.cosh_arcosh hy.le] at e0
    have e2 := hode y
    rw [e0] at e2
    simp only [Int.cast_natCast] at e2
    rw [rpow_three_half hd, div_sub_div _ _ hd.ne' (by positivity), eq_div_iff (by positivity)]
    have : (1 - y ^ 2) = -(y * y - 1) := by ring
    rw [this] at e2
    linear_combination (y * y - 1) * Real.sqrt (y * y - 1) * -e2 - y * (y * y - 1) * e1
  by_cases h3 : x < -1
  · rw [if_pos h3]
    have e := big (-x) (by linarith)
    rw [hneg x] at e
    have hsq : -x * -x - 1 = x * x - 1 := by ring
    rw [hsq] at e
    by_cases he : n &&& 1 = 0
    · rw [if_pos he]
      rw [negOnePow_even ((and_one_eq_zero n).1 he), one_mul] at e
      rw [e]; ring
    · rw [if_neg he]
      rw [negOnePow_odd (fun h => he ((and_one_eq_zero n).2 h))] at e
      linear_combination e
  · rw [if_neg h3]
    have hx1 : 1 < x := by
      rcases lt_or_gt_of_ne h1 with h4 | h4
      · exact absurd ⟨lt_of_le_of_ne (not_lt.1 h3) (Ne.symm h2), h4⟩ h
      · exact h4
    rw [big x hx1]

/-- `x` is not in one of the punctured neighbourhoods of ±1 in which the code uses the value at the end point -/
def Regular (x : ℝ) : Prop := (|x - 1| < 1e-12 → x = 1) ∧ (|x + 1| < 1e-12 → x = -1)

theorem U_neg' (n : Nat) (x : ℝ) : (U ℝ n).eval (-x) = (((n : ℤ).negOnePow : ℤ) : ℝ) * (U ℝ n).eval x := U_eval_neg _ _ _

/-- **C32** `chebyshev_un(n, x)` is the value of the Chebyshev polynomial of the second kind for every `n` and every real `x`
outside the punctured neighbourhoods `0 < |x ∓ 1| < 1e-12`. -/
theorem C32_un (n : Nat) (x : ℝ) (hx : Regular x) : chebyshevUn n x = (U ℝ n).eval x := by
  unfold chebyshevUn
  by_cases h0 : n = 0
  · subst h0; simp
  by_cases h1 : n = 1
  · subst h1; simp
  rw [if_neg h0, if_neg h1]
  have big : ∀ y : ℝ, 1 < y → Real.sinh (((n + 1 : Nat) : ℝ) * Real.arcosh y) / Real.sinh (Real.arcosh y) = (U ℝ n).eval y := by
    intro y hy
    have e := U_real_cosh (Real.arcosh y) n
    have hs : 0 < Real.sinh (Real.arcosh y) := Real.sinh_pos_iff.2 (Real.arcosh_pos hy)
    rw [Real.cosh_arcosh hy.le] at e
    rw [div_eq_iff hs.ne', e]; push_cast; rfl
  by_cases hl : x < -1
  · rw [if_pos hl]
    have e := big (-x) (by linarith)
    rw [U_neg'] at e
    simp only [e]
    by_cases he : n % 2 = 0
    · rw [if_pos he, negOnePow_even ((mod_two_eq_zero n).1 he), one_mul]
    · rw [if_neg he, negOnePow_odd (fun h => he ((mod_two_eq_zero n).2 h))]; ring
  rw [if_neg hl]
  by_cases hr : x > 1
  · rw [if_pos hr]; exact big x hr
  rw [if_neg hr]
  by_cases hp : |x - 1| < 1e-12
  · have := hx.1 hp; subst this
    rw [if_pos hp, U_eval_one]; push_cast; rfl
  rw [if_neg hp]
  by_cases hm : |x + 1| < 1e-12
  · have := hx.2 hm; subst this
    rw [if_pos hm, U_neg', U_eval_one]
    by_cases he : n % 2 = 0
    · rw [if_pos he, negOnePow_even ((mod_two_eq_zero n).1 he)]; push_cast; ring
    · rw [if_neg he, negOnePow_odd (fun h => he ((mod_two_eq_zero n).2 h))]; push_cast; ring
  rw [if_neg hm]
  have hne1 : x ≠ 1 := by rintro rfl; norm_num at hp
  have hne2 : x ≠ -1 := by rintro rfl; norm_num at hm
  have hlt : x < 1 := lt_of_le_of_ne (not_lt.1 hr) hne1
  have hgt : -1 < x := lt_of_le_of_ne (not_lt.1 hl) (Ne.symm hne2)
  have e := U_real_cos (Real.arccos x) n
  rw [Real.cos_arccos hgt.le hlt.le] at e
  have hs : Real.sin (Real.arccos x) ≠ 0 := by
    rw [Real.sin_arccos]
    exact (Real.sqrt_pos.2 (by nlinarith)).ne'
  simp only []
  rw [div_eq_iff hs, e]; push_cast; rfl

/-- **C32** `chebyshev_un_deriv1(n, x)` is the value of the derivative of the polynomial of the second kind (same `x`). -/
theorem C32_un_deriv1 (n : Nat) (x : ℝ) (hx : Regular x) : chebyshevUnDeriv1 n x = (derivative (U ℝ n)).eval x := by
  have hone : (derivative (U ℝ n)).eval 1 = (n : ℝ) * (n + 1) * (n + 2) / 3 := by
    rw [derivative_U_eval_one_eq_div]; push_cast; ring
  unfold chebyshevUnDeriv1
  by_cases h0 : n = 0
  · subst h0; simp
  rw [if_neg h0]
  simp only []
  by_cases hp : |x - 1| < 1e-12
  · have := hx.1 hp; subst this
    rw [if_pos hp, hone]
  rw [if_neg hp]
  by_cases hm : |x + 1| < 1e-12
  · have := hx.2 hm; subst this
    rw [if_pos hm, deriv_eval_neg (U_neg' n), hone]
    by_cases he : n % 2 = 0
    · rw [if_pos he, negOnePow_even ((mod_two_eq_zero n).1 he)]; ring
    · rw [if_neg he, negOnePow_odd (fun h => he ((mod_two_eq_zero n).2 h))]; ring
  rw [if_neg hm, C32_un n x hx, C32_tn]
  have hd : 1 - x * x ≠ 0 := by
    intro hd
    have : (x - 1) * (x + 1) = 0 := by linarith
    rcases mul_eq_zero.1 this with h | h
    · rw [h] at hp; norm_num at hp
    · rw [h] at hm; norm_num at hm
  have e := congrArg (Polynomial.eval x) (add_one_mul_T_eq_poly_in_U (R := ℝ) (n : ℤ))
  simp only [eval_mul, eval_add, eval_sub, eval_X, eval_one, eval_pow, Int.cast_natCast] at e
  rw [div_eq_iff hd]
  push_cast
  simp only [eval_natCast] at e
  linear_combination -e

/-- **C32** `chebyshev_un_deriv2(n, x)` is the value of the second derivative (same `x`). -/
theorem C32_un_deriv2 (n : Nat) (x : ℝ) (hx : Regular x) : chebyshevUnDeriv2 n x = (derivative^[2] (U ℝ n)).eval x := by
  have hone : (derivative^[2] (U ℝ n)).eval 1 = (n : ℝ) * (n - 1) * (n + 1) * (n + 2) * (n + 3) / 15 := by
    rw [iterate_derivative_U_eval_one_eq_div]
    simp [Finset.prod_range_succ]
    ring
  unfold chebyshevUnDeriv2
  by_cases h01 : n = 0 ∨ n = 1
  · rw [if_pos h01]
    rcases h01 with rfl | rfl
    · simp
    · simp [derivative_mul]
  rw [if_neg h01]
  simp only []
  by_cases hp : |x - 1| < 1e-12
  · have := hx.1 hp; subst this
    rw [if_pos hp, hone]
  rw [if_neg hp]
  by_cases hm : |x + 1| < 1e-12
  · have := hx.2 hm; subst this
    have := deriv_eval_neg (deriv_eval_neg (U_neg' n)) 1
    rw [if_pos hm, Function.iterate_succ, Function.iterate_one, Function.comp_apply, this]
    rw [Function.iterate_succ, Function.iterate_one, Function.comp_apply] at hone
    rw [hone]
    by_cases he : n % 2 = 0
    · rw [if_pos he, negOnePow_even ((mod_two_eq_zero n).1 he)]; ring
    · rw [if_neg he, negOnePow_odd (fun h => he ((mod_two_eq_zero n).2 h))]; ring
  rw [if_neg hm, C32_un n x hx, C32_tn, C32_un_deriv1 n x hx, C32_tn_deriv1]
  have hd : 1 - x * x ≠ 0 := by
    intro hd
    have : (x - 1) * (x + 1) = 0 := by linarith
    rcases mul_eq_zero.1 this with h | h
    · rw [h] at hp; norm_num at hp
    · rw [h] at hm; norm_num at hm
  have e := congrArg (Polynomial.eval x) (add_one_mul_T_eq_poly_in_U (R := ℝ) (n : ℤ))
  have e' := congrArg (fun p => Polynomial.eval x (derivative p)) (add_one_mul_T_eq_poly_in_U (R := ℝ) (n : ℤ))
  simp only [derivative_mul, derivative_add, derivative_sub, derivative_X, derivative_one, derivative_intCast,
    derivative_X_pow, eval_mul, eval_add, eval_sub, eval_X, eval_one, eval_pow, eval_intCast, Int.cast_natCast,
    eval_natCast, zero_add, add_zero, zero_mul, zero_sub, one_mul, eval_neg, eval_C, map_natCast, derivative_natCast,
    eval_zero, Nat.cast_ofNat] at e e'
  rw [div_eq_iff (mul_ne_zero hd hd), Function.iterate_succ, Function.iterate_one, Function.comp_apply]
  push_cast
  linear_combination -(1 - x * x) * e' - 2 * x * e

/-- all end points and all points at distance at least 1e-12 are regular -/
example : Regular 1 ∧ Regular (-1) ∧ Regular 0 ∧ Regular 3 ∧ Regular (-7 / 3) := by
  refine ⟨⟨fun _ => rfl, fun h => ?_⟩, ⟨fun h => ?_, fun _ => rfl⟩, ⟨fun h => ?_, fun h => ?_⟩, ⟨fun h => ?_, fun h => ?_⟩,
    ⟨fun h => ?_, fun h => ?_⟩⟩ <;> rw [abs_lt] at h <;> norm_num at h

example : chebyshevTn 3 2 = 26 := by
  rw [C32_tn, show ((3 : Nat) : ℤ) = 1 + 2 by norm_num, T_add_two]
  simp [show (1 + 1 : ℤ) = 2 by norm_num, T_two]
  norm_num

end

end Russell.Lab
