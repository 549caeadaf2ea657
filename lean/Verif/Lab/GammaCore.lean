import Verif.Lab.Stirling
import Verif.Lab.Bernstein
import Mathlib.Analysis.Convex.Deriv

/-!
# `ln_gamma` on [2, 3] (background of the properties C111 and C112)

The rational approximation used by `ln_gamma` for 2 ≤ x < 3 is compared with the logarithm of the Gamma function by way of its second derivative.
-/

namespace Russell.Lab

open Real Set

/-- numerator in `ln_gamma` for `2 ≤ x < 8`, `y` the fractional part (ln_gamma.rs:316 with LS, 122-130) -/
noncomputable def lgP (y : ℝ) : ℝ := y * (-7.72156649015328655494e-02 + y * (2.14982415960608852501e-01 + y * (3.25778796408930981787e-01 + y * (1.46350472652464452805e-01 + y * (2.66422703033638609560e-02 + y * (1.84028451407337715652e-03 + y * (3.19475326584100867617e-05)))))))

/-- denominator (ln_gamma.rs:317 with LR, 112-120) -/
noncomputable def lgQ (y : ℝ) : ℝ := 1 + y * (1.39200533467621045958e+00 + y * (7.21935547567138069525e-01 + y * (1.71933865632803078993e-01 + y * (1.86459191715652901344e-02 + y * (7.77942496381893596434e-04 + y * (7.32668430744625636189e-06))))))

/-- `0.5 y + p / q` (ln_gamma.rs:318) -/
noncomputable def lgCore (y : ℝ) : ℝ := 0.5 * y + lgP y / lgQ y

/-- numerator and denominator of `lgCore` with integer coefficients -/
def lgU : List ℤ := [0, 84556867019693426890120000, 182197016659742816458200000, 137349314038500003309900000, 46463481093773198460300000, 7193045977829301204640000, 445851152452864790947400, 7122174962426642988529]
def lgW : List ℤ := [200000000000000000000000000, 278401066935242091916000000, 144387109513427613905000000, 34386773126560615798600000, 3729183834313058026880000, 155588499276378719286800, 1465336861489251272378]

theorem lgW_pos {y : ℝ} (hy : 0 ≤ y) : 0 < polyEval lgW y := by
  simp only [lgW, polyEval]
  push_cast
  positivity

theorem lgCore_eq {y : ℝ} (hy : 0 ≤ y) : lgCore y = polyEval lgU y / polyEval lgW y := by
  have h1 := lgW_pos hy
  have e : lgQ y = polyEval lgW y / (2 * 10 ^ 26) := by
    simp only [lgQ, lgW, polyEval]
    push_cast
    ring
  have h2 : lgQ y ≠ 0 := by rw [e]; positivity
  have e2 : polyEval lgU y = 2 * 10 ^ 26 * (0.5 * y * lgQ y + lgP y) := by
    simp only [lgQ, lgP, lgU, polyEval]
    push_cast
    ring
  have e3 : polyEval lgW y = 2 * 10 ^ 26 * lgQ y := by rw [e]; ring
  rw [e2, e3, lgCore]
  field_simp

/-- rational functions as pairs of coefficient lists -/
abbrev RF := List ℤ × List ℤ

noncomputable def rfEval (f : RF) (x : ℝ) : ℝ := polyEval f.1 x / polyEval f.2 x

def rfSub (f g : RF) : RF := (addL (mulL f.1 g.2) (smulL (-1) (mulL g.1 f.2)), mulL f.2 g.2)

/-- the derivative of a quotient `u / wⁿ` as a quotient with the denominator `wⁿ⁺¹`; `n` is a factor of the numerator only -/
def quotD (n : ℤ) (u w : List ℤ) : List ℤ := addL (mulL (derivL u) w) (smulL (-n) (mulL u (derivL w)))

theorem rfSub_eval {f g : RF} {x : ℝ} (hf : 0 < polyEval f.2 x) (hg : 0 < polyEval g.2 x) :
    rfEval (rfSub f g) x = rfEval f x - rfEval g x ∧ 0 < polyEval (rfSub f g).2 x := by
  simp only [rfSub, rfEval, polyEval_add, polyEval_mul, polyEval_smul]
  refine ⟨?_, by positivity⟩
  push_cast
  field_simp
  ring

theorem quotD_deriv (n : ℕ) (u w : List ℤ) {x : ℝ} (hw : 0 < polyEval w x) :
    HasDerivAt (fun x => polyEval u x / polyEval w x ^ (n + 1)) (polyEval (quotD (n + 1) u w) x / polyEval w x ^ (n + 2)) x := by
  have h := (polyEval_deriv u x).div ((polyEval_deriv w x).pow (n + 1)) (pow_ne_zero _ hw.ne')
  refine h.congr_deriv ?_
  simp only [quotD, polyEval_add, polyEval_mul, polyEval_smul, Pi.pow_apply, Nat.add_sub_cancel]
  push_cast
  have := hw.ne'
  field_simp
  ring

/-- bounds of a rational function by kernel evaluation -/
theorem rf_bound (f : RF) (a b d p : ℤ) (r : List ℤ) (hr : r ≠ []) (hd : 0 < d) (hb : 0 < b)
    (h1 : chkChain (addL (smulL a f.2) (smulL (-b) f.1)) d p r = true) (h2 : chkChain (addL (smulL a f.2) (smulL b f.1)) d p r = true)
    {x : ℝ} (hp : 0 < polyEval f.2 x) (hx1 : (p : ℝ) / d ≤ x) (hx2 : x ≤ ((r.getLast hr : ℤ) : ℝ) / d) : |rfEval f x| ≤ a / b := by
  have e1 := chkChain_sound hd p r hr h1 hx1 hx2
  have e2 := chkChain_sound hd p r hr h2 hx1 hx2
  simp only [polyEval_add, polyEval_smul] at e1 e2
  push_cast at e1 e2
  have hb' : (0 : ℝ) < b := by exact_mod_cast hb
  rw [rfEval, abs_le]
  constructor
  · rw [neg_le_iff_add_nonneg, div_add_div _ _ hp.ne' hb'.ne']
    exact div_nonneg (by linarith) (by positivity)
  · rw [div_le_div_iff₀ hp hb']
    linarith

/-- a function with small second derivative is close to the chord -/
theorem chord_bound {f f' f'' : ℝ → ℝ} {η : ℝ} (d1 : ∀ y ∈ Icc (0 : ℝ) 1, HasDerivAt f (f' y) y) (d2 : ∀ y ∈ Icc (0 : ℝ) 1, HasDerivAt f' (f'' y) y)
    (hb : ∀ y ∈ Icc (0 : ℝ) 1, |f'' y| ≤ η) {y : ℝ} (hy : y ∈ Icc (0 : ℝ) 1) : |f y - ((1 - y) * f 0 + y * f 1)| ≤ η / 8 := by
  have key : ∀ σ : ℝ, (σ = 1 ∨ σ = -1) → σ * (f y - ((1 - y) * f 0 + y * f 1)) ≤ η / 8 := by
    intro σ hσ
    have hc : ConvexOn ℝ (Icc (0 : ℝ) 1) (fun y => σ * f y + η / 2 * y ^ 2) := by
      apply convexOn_of_hasDerivWithinAt2_nonneg (convex_Icc 0 1) (f' := fun y => σ * f' y + η * y) (f'' := fun y => σ * f'' y + η)
      · intro z hz
        have : HasDerivAt (fun y => σ * f y + η / 2 * y ^ 2) _ z := ((d1 z hz).const_mul σ).add ((hasDerivAt_pow 2 z).const_mul (η / 2))
        exact this.continuousAt.continuousWithinAt
      · intro z hz
        have hz' := interior_subset hz
        have := ((d1 z hz').const_mul σ).add ((hasDerivAt_pow 2 z).const_mul (η / 2))
        refine HasDerivAt.hasDerivWithinAt (this.congr_deriv ?_)
        push_cast; ring
      · intro z hz
        have hz' := interior_subset hz
        have := ((d2 z hz').const_mul σ).add ((hasDerivAt_id z).const_mul η)
        refine HasDerivAt.hasDerivWithinAt (this.congr_deriv ?_)
        simp
      · intro z hz
        have h := abs_le.1 (hb z (interior_subset hz))
        rcases hσ with rfl | rfl <;> linarith
    have h := hc.2 (show (0 : ℝ) ∈ Icc (0 : ℝ) 1 by simp) (show (1 : ℝ) ∈ Icc (0 : ℝ) 1 by simp) (show 0 ≤ 1 - y by linarith [hy.2]) hy.1 (by ring)
    simp only [smul_eq_mul, mul_zero, mul_one, zero_add] at h
    have hη : 0 ≤ η := (abs_nonneg _).trans (hb y hy)
    nlinarith [sq_nonneg (2 * y - 1)]
  rw [abs_le]
  have h1 := key 1 (Or.inl rfl)
  have h2 := key (-1) (Or.inr rfl)
  constructor <;> linarith

/-! ### Shifted Stirling series -/

/-- the sum of the logarithms of `y + k`, `k₀ ≤ k < k₀ + n`, and its derivatives -/
noncomputable def logSum : ℕ → ℕ → ℝ → ℝ
  | 0, _, _ => 0
  | n + 1, k, y => log (y + k) + logSum n (k + 1) y

noncomputable def logSum' : ℕ → ℕ → ℝ → ℝ
  | 0, _, _ => 0
  | n + 1, k, y => 1 / (y + k) + logSum' n (k + 1) y

noncomputable def logSum'' : ℕ → ℕ → ℝ → ℝ
  | 0, _, _ => 0
  | n + 1, k, y => -(1 / (y + k) ^ 2) + logSum'' n (k + 1) y

theorem logSum_deriv (n k : ℕ) (hk : 0 < k) {y : ℝ} (hy : 0 ≤ y) : HasDerivAt (logSum n k) (logSum' n k y) y := by
  induction n generalizing k with
  | zero => exact hasDerivAt_const y 0
  | succ n ih =>
    have h : HasDerivAt (fun y : ℝ => y + (k : ℝ)) 1 y := (hasDerivAt_id y).add_const _
    have hk' : (0 : ℝ) < k := by exact_mod_cast hk
    exact (h.log (by positivity)).add (ih (k + 1) (by omega))

theorem logSum'_deriv (n k : ℕ) (hk : 0 < k) {y : ℝ} (hy : 0 ≤ y) : HasDerivAt (logSum' n k) (logSum'' n k y) y := by
  induction n generalizing k with
  | zero => exact hasDerivAt_const y 0
  | succ n ih =>
    have h : HasDerivAt (fun y : ℝ => y + (k : ℝ)) 1 y := (hasDerivAt_id y).add_const _
    have hk' : (0 : ℝ) < k := by exact_mod_cast hk
    have h2 : HasDerivAt (fun y : ℝ => 1 / (y + (k : ℝ))) (-(1 / (y + k) ^ 2)) y := by
      have := h.inv (by positivity : y + (k : ℝ) ≠ 0)
      refine (this.congr_of_eventuallyEq (Filter.Eventually.of_forall fun z => by simp)).congr_deriv ?_
      ring
    exact h2.add (ih (k + 1) (by omega))

theorem logSum_Gamma (n k : ℕ) (hk : 0 < k) {y : ℝ} (hy : 0 ≤ y) : log (Gamma (y + k + n)) = log (Gamma (y + k)) + logSum n k y := by
  induction n generalizing k with
  | zero => simp [logSum]
  | succ n ih =>
    have hk' : (0 : ℝ) < k := by exact_mod_cast hk
    have hp : 0 < y + k := by positivity
    have := ih (k + 1) (by omega)
    rw [show y + ((k + 1 : ℕ) : ℝ) = y + k + 1 by push_cast; ring, Gamma_add_one hp.ne', log_mul hp.ne' (Gamma_pos_of_pos hp).ne'] at this
    rw [show y + k + ((n + 1 : ℕ) : ℝ) = y + k + 1 + n by push_cast; ring, this, logSum]
    ring

/-- the sum of the squares as rational function -/
def logSumRF (f : RF) : ℕ → ℕ → RF
  | 0, _ => f
  | n + 1, k => logSumRF (rfSub f ([1], powL [(k : ℤ), 1] 2)) n (k + 1)

theorem logSumRF_eval (f : RF) (n k : ℕ) (hk : 0 < k) {y : ℝ} (hy : 0 ≤ y) (hf : 0 < polyEval f.2 y) :
    rfEval (logSumRF f n k) y = rfEval f y + logSum'' n k y ∧ 0 < polyEval (logSumRF f n k).2 y := by
  induction n generalizing f k with
  | zero => exact ⟨by simp [logSumRF, logSum''], hf⟩
  | succ n ih =>
    have hk' : (0 : ℝ) < k := by exact_mod_cast hk
    have e : polyEval (powL [(k : ℤ), 1] 2) y = (y + k) ^ 2 := by
      rw [polyEval_pow]; simp [polyEval]; ring
    have h1 := rfSub_eval (g := ([1], powL [(k : ℤ), 1] 2)) hf (by simp only []; rw [e]; positivity)
    have h2 := ih (rfSub f ([1], powL [(k : ℤ), 1] 2)) (k + 1) (by omega) h1.2
    refine ⟨?_, h2.2⟩
    rw [logSumRF, h2.1, h1.1, logSum'']
    have e2 : rfEval ([1], powL [(k : ℤ), 1] 2) y = 1 / (y + k) ^ 2 := by
      rw [rfEval]; simp only []; rw [e]; simp [polyEval]
    rw [e2]
    ring

/-- Stirling's formula with nine terms of the series, and its derivatives -/
noncomputable def stirA (x : ℝ) : ℝ := (x - 1 / 2) * log x - x + log (2 * π) / 2 + invSum (stirCoef.take 9) 0 x

noncomputable def stirA' (x : ℝ) : ℝ := log x - 1 / (2 * x) + invSum' (stirCoef.take 9) 0 x

noncomputable def stirA'' (x : ℝ) : ℝ := 1 / x + 1 / (2 * x ^ 2) + invSum'' (stirCoef.take 9) 0 x

theorem stirA_deriv {x : ℝ} (hx : 0 < x) : HasDerivAt stirA (stirA' x) x := by
  have h1 := (((((hasDerivAt_id x).sub_const (1 / 2)).mul (hasDerivAt_log hx.ne')).sub (hasDerivAt_id x)).add_const (log (2 * π) / 2)).add
    (invSum_deriv (stirCoef.take 9) 0 hx)
  refine h1.congr_deriv ?_
  simp only [id, stirA']
  field_simp
  ring

theorem stirA'_deriv {x : ℝ} (hx : 0 < x) : HasDerivAt stirA' (stirA'' x) x := by
  have h0 : HasDerivAt (fun x : ℝ => 1 / (2 * x)) (-(1 / (2 * x ^ 2))) x := by
    have := (hasDerivAt_inv hx.ne').const_mul (1 / 2 : ℝ)
    refine (this.congr_of_eventuallyEq (Filter.Eventually.of_forall fun z => ?_)).congr_deriv ?_
    · simp only []; rw [one_div, mul_inv]; ring
    · field_simp
  have h1 := ((hasDerivAt_log hx.ne').sub h0).add (invSum'_deriv (stirCoef.take 9) 0 hx)
  refine h1.congr_deriv ?_
  simp only [stirA'']
  ring

theorem stirA_error {x : ℝ} (hx : 10 ≤ x) : 0 ≤ stirA x - log (Gamma x) ∧ stirA x - log (Gamma x) ≤ 14 / 10 ^ 20 := by
  have hx0 : 0 < x := by linarith
  have h1 := stirMu_lt_9 hx0
  have h2 := stirMu_gt_10 hx0
  have e : invSum (stirCoef.take 10) 0 x = invSum (stirCoef.take 9) 0 x - 174611 / 125400 * (x⁻¹) ^ 19 := by
    simp only [stirCoef, List.take, invSum]; ring
  have h3 : (x⁻¹) ^ 19 ≤ (1 / 10) ^ 19 := by
    apply pow_le_pow_left₀ (by positivity)
    rw [← one_div]
    exact one_div_le_one_div_of_le (by norm_num) hx
  have e2 : stirA x - log (Gamma x) = invSum (stirCoef.take 9) 0 x - stirMu x := by unfold stirA stirMu; ring
  rw [e2]
  constructor
  · linarith
  · rw [e] at h2
    have h4 : 174611 / 125400 * (x⁻¹) ^ 19 ≤ 174611 / 125400 * (1 / 10 : ℝ) ^ 19 := mul_le_mul_of_nonneg_left h3 (by norm_num)
    have h5 : 174611 / 125400 * (1 / 10 : ℝ) ^ 19 ≤ 14 / 10 ^ 20 := by norm_num
    linarith

/-- the rational part of the second derivative of `stirA (y + 10)` -/
def stirRF : RF := (
  addL (smulL 9699690 (powL [10, 1] 18)) (addL (smulL 4849845 (powL [10, 1] 17)) (addL (smulL 1616615 (powL [10, 1] 16))
    (addL (smulL (-323323) (powL [10, 1] 14)) (addL (smulL 230945 (powL [10, 1] 12)) (addL (smulL (-323323) (powL [10, 1] 10))
    (addL (smulL 734825 (powL [10, 1] 8)) (addL (smulL (-2455123) (powL [10, 1] 6)) (addL (smulL 11316305 (powL [10, 1] 4))
    (addL (smulL (-68791723) (powL [10, 1] 2)) [533203385])))))))))
  , smulL 9699690 (powL [10, 1] 19))

theorem stirRF_eval {y : ℝ} (hy : 0 ≤ y) : rfEval stirRF y = stirA'' (y + 10) ∧ 0 < polyEval stirRF.2 y := by
  have e : polyEval [10, 1] y = y + 10 := by simp [polyEval]; ring
  have hp : 0 < y + 10 := by linarith
  constructor
  · simp only [rfEval, stirRF, polyEval_add, polyEval_smul, polyEval_pow, e]
    simp only [stirA'', stirCoef, List.take, invSum'', polyEval]
    generalize y + 10 = x at *
    push_cast
    field_simp
    ring
  · simp only [stirRF, polyEval_smul, polyEval_pow, e]
    push_cast
    positivity

/-! ### The error of `lgCore` -/

/-- `lgCore` minus the logarithm of the Gamma function, up to the remainder of the series -/
noncomputable def lgErr (y : ℝ) : ℝ := polyEval lgU y / polyEval lgW y ^ 1 + logSum 8 2 y - stirA (y + 10)

noncomputable def lgErr' (y : ℝ) : ℝ := polyEval (quotD 1 lgU lgW) y / polyEval lgW y ^ 2 + logSum' 8 2 y - stirA' (y + 10)

noncomputable def lgErr'' (y : ℝ) : ℝ := polyEval (quotD 2 (quotD 1 lgU lgW) lgW) y / polyEval lgW y ^ 3 + logSum'' 8 2 y - stirA'' (y + 10)

theorem lgErr_deriv {y : ℝ} (hy : 0 ≤ y) : HasDerivAt lgErr (lgErr' y) y := by
  have h1 := quotD_deriv 0 lgU lgW (lgW_pos hy)
  have h3 : HasDerivAt (fun y => stirA (y + 10)) (stirA' (y + 10)) y := HasDerivAt.comp_add_const y 10 (stirA_deriv (by linarith))
  have := (h1.add (logSum_deriv 8 2 (by norm_num) hy)).sub h3
  refine this.congr_deriv ?_
  rw [lgErr']
  norm_num

theorem lgErr'_deriv {y : ℝ} (hy : 0 ≤ y) : HasDerivAt lgErr' (lgErr'' y) y := by
  have h1 := quotD_deriv 1 (quotD 1 lgU lgW) lgW (lgW_pos hy)
  have h3 : HasDerivAt (fun y => stirA' (y + 10)) (stirA'' (y + 10)) y := HasDerivAt.comp_add_const y 10 (stirA'_deriv (by linarith))
  have := (h1.add (logSum'_deriv 8 2 (by norm_num) hy)).sub h3
  refine this.congr_deriv ?_
  rw [lgErr'']
  norm_num

def lgErrRF : RF := rfSub (logSumRF (quotD 2 (quotD 1 lgU lgW) lgW, powL lgW 3) 8 2) stirRF

theorem lgErr_chk : chkChain (addL (smulL 35 lgErrRF.2) (smulL (-10 ^ 17) lgErrRF.1)) 1 0 [1] = true
    ∧ chkChain (addL (smulL 35 lgErrRF.2) (smulL (10 ^ 17) lgErrRF.1)) 1 0 [1] = true := by
  decide +kernel

theorem lgErr''_bound {y : ℝ} (hy : y ∈ Icc (0 : ℝ) 1) : |lgErr'' y| ≤ 35 / 10 ^ 17 := by
  have hw := lgW_pos hy.1
  have h1 := logSumRF_eval (quotD 2 (quotD 1 lgU lgW) lgW, powL lgW 3) 8 2 (by norm_num) hy.1 (by simp only [polyEval_pow]; positivity)
  have h2 := stirRF_eval hy.1
  have h3 := rfSub_eval h1.2 h2.2
  have e : lgErr'' y = rfEval lgErrRF y := by
    rw [lgErrRF, h3.1, h1.1, h2.1, lgErr'']
    simp only [rfEval, polyEval_pow]
  rw [e]
  have := rf_bound lgErrRF 35 (10 ^ 17) 1 0 [1] (by simp) (by norm_num) (by norm_num) lgErr_chk.1 lgErr_chk.2 h3.2
    (by simpa using hy.1) (by simpa using hy.2)
  norm_num at this ⊢
  exact this

/-- the logarithm of 2 to 20 digits -/
theorem log_two_near : |log 2 - 69314718055994530941723 / 10 ^ 23| ≤ 1 / 10 ^ 21 := by
  have h := abs_log_sub_add_sum_range_le (x := 1 / 2) (by rw [abs_of_pos] <;> norm_num) 75
  rw [show (1 : ℝ) - 1 / 2 = 2⁻¹ by norm_num, log_inv, abs_of_pos (by norm_num : (0 : ℝ) < 1 / 2)] at h
  have e : (∑ i ∈ Finset.range 75, (1 / 2 : ℝ) ^ (i + 1) / (i + 1)) = ((∑ i ∈ Finset.range 75, (1 / 2 : ℚ) ^ (i + 1) / (i + 1) : ℚ) : ℝ) := by push_cast; rfl
  have e2 : |(∑ i ∈ Finset.range 75, (1 / 2 : ℚ) ^ (i + 1) / (i + 1)) - 69314718055994530941723 / 10 ^ 23| ≤ 1 / (2 * 10 ^ 21) := by decide +kernel
  have e3 : |((∑ i ∈ Finset.range 75, (1 / 2 : ℚ) ^ (i + 1) / (i + 1) : ℚ) : ℝ) - 69314718055994530941723 / 10 ^ 23| ≤ 1 / (2 * 10 ^ 21) := by
    have e4 := (Rat.cast_le (K := ℝ)).2 e2
    rw [Rat.cast_abs] at e4
    push_cast at e4 ⊢
    exact e4
  rw [e] at h
  have h2 : (1 / 2 : ℝ) ^ (75 + 1) / (1 - 1 / 2) ≤ 1 / (2 * 10 ^ 21) := by norm_num
  rw [abs_le] at *
  constructor <;> norm_num at * <;> linarith

theorem lgCore_one : |lgCore 1 - log 2| ≤ 5 / 10 ^ 18 := by
  have h := abs_le.1 log_two_near
  have e : |lgCore 1 - 69314718055994530941723 / 10 ^ 23| ≤ 42 / 10 ^ 19 := by
    rw [lgCore, lgP, lgQ, abs_le]; norm_num
  have h2 := abs_le.1 e
  rw [abs_le]
  constructor <;> norm_num at * <;> linarith

/-- the rational approximation of `ln_gamma` on [2, 3] has an error of at most `5e-17` -/
theorem lgCore_accurate {y : ℝ} (h0 : 0 ≤ y) (h1 : y ≤ 1) : |lgCore y - log (Gamma (2 + y))| ≤ 5 / 10 ^ 17 := by
  have hc := chord_bound (f := lgErr) (f' := lgErr') (f'' := lgErr'') (fun y hy => lgErr_deriv hy.1) (fun y hy => lgErr'_deriv hy.1)
    (fun y hy => lgErr''_bound hy) ⟨h0, h1⟩
  have hrel : ∀ z : ℝ, 0 ≤ z → lgErr z = lgCore z - log (Gamma (2 + z)) - (stirA (z + 10) - log (Gamma (z + 10))) := by
    intro z hz
    have := logSum_Gamma 8 2 (by norm_num) hz
    rw [show z + ((2 : ℕ) : ℝ) + ((8 : ℕ) : ℝ) = z + 10 by push_cast; ring, show z + ((2 : ℕ) : ℝ) = 2 + z by push_cast; ring] at this
    rw [lgErr, lgCore_eq hz, this, pow_one]
    ring
  obtain ⟨b01, b02⟩ := stirA_error (x := 0 + 10) (by norm_num)
  obtain ⟨b11, b12⟩ := stirA_error (x := 1 + 10) (by norm_num)
  obtain ⟨by1, by2⟩ := stirA_error (x := y + 10) (by linarith)
  have e0 := hrel 0 le_rfl
  have e1 := hrel 1 zero_le_one
  have ey := hrel y h0
  have g0 : lgCore 0 - log (Gamma (2 + 0)) = 0 := by simp [lgCore, lgP]
  have g1 : Gamma (2 + 1) = 2 := by
    rw [Gamma_add_one (by norm_num), Gamma_two]; norm_num
  rw [g0] at e0
  rw [g1] at e1
  obtain ⟨l1, l2⟩ := abs_le.1 lgCore_one
  obtain ⟨hc1, hc2⟩ := abs_le.1 hc
  generalize stirA (0 + 10) - log (Gamma (0 + 10)) = v0 at *
  generalize stirA (1 + 10) - log (Gamma (1 + 10)) = v1 at *
  generalize stirA (y + 10) - log (Gamma (y + 10)) = v at *
  have t1 : |(1 - y) * lgErr 0| ≤ (1 - y) * (14 / 10 ^ 20) := by
    rw [abs_mul, abs_of_nonneg (by linarith)]
    refine mul_le_mul_of_nonneg_left ?_ (by linarith)
    rw [abs_le]; constructor <;> linarith
  have t2 : |y * lgErr 1| ≤ y * (5 / 10 ^ 18 + 14 / 10 ^ 20) := by
    rw [abs_mul, abs_of_nonneg h0]
    refine mul_le_mul_of_nonneg_left ?_ h0
    rw [abs_le]; constructor <;> linarith
  obtain ⟨t11, t12⟩ := abs_le.1 t1
  obtain ⟨t21, t22⟩ := abs_le.1 t2
  have hs : (35 : ℝ) / 10 ^ 17 / 8 + 5 / 10 ^ 18 + 14 / 10 ^ 20 + 14 / 10 ^ 20 ≤ 5 / 10 ^ 17 := by norm_num
  have hy5 : y * (5 / 10 ^ 18 + 14 / 10 ^ 20 : ℝ) + (1 - y) * (14 / 10 ^ 20) ≤ 5 / 10 ^ 18 + 14 / 10 ^ 20 := by nlinarith
  rw [abs_le]
  constructor <;> linarith

end Russell.Lab
