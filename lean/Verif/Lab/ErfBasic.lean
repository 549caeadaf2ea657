import Verif.Lab.LnGammaCore
import Mathlib.Analysis.SpecialFunctions.Gaussian.GaussianIntegral
import Mathlib.Analysis.Calculus.Deriv.MeanValue
import Mathlib.MeasureTheory.Integral.IntervalIntegral.FundThmCalculus
import Mathlib.MeasureTheory.Integral.IntegralEqImproper

/-!
# The error function (background of the properties C115 and C116)

Definition by the integral, derivative, symmetry, limit at infinity, partial sums of the power series and comparison of tails.
-/

namespace Russell.Lab

open Real Set Filter Topology MeasureTheory

/-- the error function -/
noncomputable def erfR (x : ℝ) : ℝ := 2 / √π * ∫ t in (0 : ℝ)..x, exp (-t ^ 2)

theorem erfR_cont : Continuous fun t : ℝ => exp (-t ^ 2) := by fun_prop

theorem erfR_deriv (x : ℝ) : HasDerivAt erfR (2 / √π * exp (-x ^ 2)) x :=
  (intervalIntegral.integral_hasDerivAt_right (erfR_cont.intervalIntegrable _ _) (erfR_cont.stronglyMeasurableAtFilter _ _)
    erfR_cont.continuousAt).const_mul _

theorem erfR_zero : erfR 0 = 0 := by simp [erfR]

theorem erfR_neg (x : ℝ) : erfR (-x) = -erfR x := by
  have h := intervalIntegral.integral_comp_neg (a := 0) (b := x) (fun t : ℝ => exp (-t ^ 2))
  simp only [neg_sq, neg_zero] at h
  unfold erfR
  rw [h, intervalIntegral.integral_symm]
  ring

theorem erfR_strictMono : StrictMono erfR := by
  refine strictMono_of_deriv_pos fun x => ?_
  rw [(erfR_deriv x).deriv]
  have := sqrt_pos.2 pi_pos
  positivity

theorem erfR_tendsto : Tendsto erfR atTop (𝓝 1) := by
  have hi : IntegrableOn (fun t : ℝ => exp (-t ^ 2)) (Ioi 0) := by
    have := (integrable_exp_neg_mul_sq (b := 1) one_pos).integrableOn (s := Ioi (0 : ℝ))
    simpa using this
  have h := intervalIntegral_tendsto_integral_Ioi (0 : ℝ) hi tendsto_id
  have e : ∫ t in Ioi (0 : ℝ), exp (-t ^ 2) = √π / 2 := by
    have := integral_gaussian_Ioi 1
    simpa using this
  rw [e] at h
  have h2 := h.const_mul (2 / √π)
  have hp := sqrt_pos.2 pi_pos
  rw [show 2 / √π * (√π / 2) = 1 by field_simp] at h2
  exact h2

theorem erfR_lt_one (x : ℝ) : erfR x < 1 :=
  (erfR_strictMono (lt_add_one x)).trans_le (erfR_strictMono.monotone.ge_of_tendsto erfR_tendsto _)

theorem erfR_nonneg {x : ℝ} (h : 0 ≤ x) : 0 ≤ erfR x := by rw [← erfR_zero]; exact erfR_strictMono.monotone h

/-- two functions that vanish at infinity are ordered opposite to their derivatives -/
theorem tail_compare {u v u' v' : ℝ → ℝ} {a : ℝ} (hu : ∀ x, a ≤ x → HasDerivAt u (u' x) x) (hv : ∀ x, a ≤ x → HasDerivAt v (v' x) x)
    (tu : Tendsto u atTop (𝓝 0)) (tv : Tendsto v atTop (𝓝 0)) (h : ∀ x, a ≤ x → u' x ≤ v' x) {x : ℝ} (hx : a ≤ x) : v x ≤ u x := by
  have hm : MonotoneOn (fun x => v x - u x) (Ici a) := by
    refine monotoneOn_of_deriv_nonneg (convex_Ici a) (fun y hy => ((hv y hy).sub (hu y hy)).continuousAt.continuousWithinAt)
      (fun y hy => ?_) fun y hy => ?_
    · rw [interior_Ici] at hy
      exact ((hv y (mem_Ioi.1 hy).le).sub (hu y (mem_Ioi.1 hy).le)).differentiableAt.differentiableWithinAt
    · rw [interior_Ici] at hy
      have e : deriv (fun x => v x - u x) y = v' y - u' y := ((hv y (mem_Ioi.1 hy).le).sub (hu y (mem_Ioi.1 hy).le)).deriv
      rw [e]
      exact sub_nonneg.2 (h y (mem_Ioi.1 hy).le)
  have ht : Tendsto (fun x => v x - u x) atTop (𝓝 0) := by simpa using tv.sub tu
  have : v x - u x ≤ 0 := ge_of_tendsto ht (by
    filter_upwards [eventually_ge_atTop x] with y hy
    exact hm hx (hx.trans hy) hy)
  linarith

/-- the same on an interval whose right end is known -/
theorem seg_compare {u v u' v' : ℝ → ℝ} {a b : ℝ} (hu : ∀ x ∈ Icc a b, HasDerivAt u (u' x) x) (hv : ∀ x ∈ Icc a b, HasDerivAt v (v' x) x)
    (hb : v b ≤ u b) (h : ∀ x ∈ Icc a b, u' x ≤ v' x) {x : ℝ} (hx : x ∈ Icc a b) : v x ≤ u x := by
  have hm : MonotoneOn (fun x => v x - u x) (Icc a b) := by
    refine monotoneOn_of_deriv_nonneg (convex_Icc a b) (fun y hy => ((hv y hy).sub (hu y hy)).continuousAt.continuousWithinAt)
      (fun y hy => ?_) fun y hy => ?_
    · have hy := interior_subset hy
      exact ((hv y hy).sub (hu y hy)).differentiableAt.differentiableWithinAt
    · have hy := interior_subset hy
      have e : deriv (fun x => v x - u x) y = v' y - u' y := ((hv y hy).sub (hu y hy)).deriv
      rw [e]
      exact sub_nonneg.2 (h y hy)
  have : v x - u x ≤ v b - u b := hm hx ⟨hx.1.trans hx.2, le_rfl⟩ hx.2
  linarith

/-! ## Power series -/

/-- the remainder of the series of `exp (-t)` is enclosed by zero and its first term -/
theorem exp_neg_series (N : ℕ) {t : ℝ} (ht : 0 ≤ t) :
    0 ≤ (-1) ^ N * (exp (-t) - ∑ k ∈ Finset.range N, (-t) ^ k / k.factorial) ∧
    (-1) ^ N * (exp (-t) - ∑ k ∈ Finset.range N, (-t) ^ k / k.factorial) ≤ t ^ N / N.factorial := by
  have low : ∀ N : ℕ, ∀ t : ℝ, 0 ≤ t → 0 ≤ (-1 : ℝ) ^ N * (exp (-t) - ∑ k ∈ Finset.range N, (-t) ^ k / k.factorial) := by
    intro N
    induction N with
    | zero => intro t _; simpa using (exp_pos (-t)).le
    | succ N ih =>
      intro t ht
      have hd : ∀ y : ℝ, HasDerivAt (fun y => (-1 : ℝ) ^ (N + 1) * (exp (-y) - ∑ k ∈ Finset.range (N + 1), (-y) ^ k / k.factorial))
          ((-1 : ℝ) ^ N * (exp (-y) - ∑ k ∈ Finset.range N, (-y) ^ k / k.factorial)) y := by
        intro y
        have h1 : HasDerivAt (fun y : ℝ => exp (-y)) (-exp (-y)) y := by
          simpa using (hasDerivAt_neg y).exp
        have h2 : HasDerivAt (fun y : ℝ => ∑ k ∈ Finset.range (N + 1), (-y) ^ k / (k.factorial : ℝ))
            (∑ k ∈ Finset.range (N + 1), -((k : ℝ) * (-y) ^ (k - 1)) / k.factorial) y := by
          refine HasDerivAt.fun_sum fun k _ => ?_
          have := ((hasDerivAt_neg y).fun_pow k).div_const (k.factorial : ℝ)
          refine this.congr_deriv ?_
          ring
        refine ((h1.sub h2).const_mul _).congr_deriv ?_
        rw [Finset.sum_range_succ']
        have : ∀ k : ℕ, -(((k + 1 : ℕ) : ℝ) * (-y) ^ (k + 1 - 1)) / (k + 1).factorial = -((-y) ^ k / k.factorial) := by
          intro k
          have h3 : ((k : ℝ) + 1) ≠ 0 := by positivity
          have h4 : (k.factorial : ℝ) ≠ 0 := by positivity
          rw [Nat.factorial_succ]
          push_cast
          field_simp
        rw [Finset.sum_congr rfl fun k _ => this k, Finset.sum_neg_distrib, pow_succ]
        simp
        ring
      have hm := monotoneOn_of_deriv_nonneg (f := fun y => (-1 : ℝ) ^ (N + 1) * (exp (-y) - ∑ k ∈ Finset.range (N + 1), (-y) ^ k / k.factorial))
        (convex_Ici (0 : ℝ)) (fun y _ => (hd y).continuousAt.continuousWithinAt) (fun y _ => (hd y).differentiableAt.differentiableWithinAt)
        (fun y hy => by rw [(hd y).deriv]; rw [interior_Ici] at hy; exact ih y (mem_Ioi.1 hy).le)
      have := hm (mem_Ici.2 le_rfl) (mem_Ici.2 ht) ht
      refine le_trans (le_of_eq ?_) this
      simp [Finset.sum_range_succ']
  refine ⟨low N t ht, ?_⟩
  have h := low (N + 1) t ht
  rw [Finset.sum_range_succ] at h
  have e : (-1 : ℝ) ^ (N + 1) * (exp (-t) - (∑ k ∈ Finset.range N, (-t) ^ k / k.factorial + (-t) ^ N / N.factorial)) =
      -((-1) ^ N * (exp (-t) - ∑ k ∈ Finset.range N, (-t) ^ k / k.factorial)) + ((-1) ^ N * (-1) ^ N) * t ^ N / N.factorial := by
    rw [neg_pow t N]; ring
  rw [e, ← mul_pow] at h
  norm_num at h
  linarith

/-- partial sum of the power series of `√π/2 erf` -/
noncomputable def erfSum (N : ℕ) (x : ℝ) : ℝ := ∑ k ∈ Finset.range N, (-1) ^ k * x ^ (2 * k + 1) / (k.factorial * (2 * k + 1))

theorem erf_series (N : ℕ) {x : ℝ} (hx : 0 ≤ x) : |erfR x - 2 / √π * erfSum N x| ≤ 2 / √π * (x ^ (2 * N + 1) / (N.factorial * (2 * N + 1))) := by
  have hp := sqrt_pos.2 pi_pos
  have hS : ∀ y : ℝ, HasDerivAt (erfSum N) (∑ k ∈ Finset.range N, (-y ^ 2) ^ k / k.factorial) y := by
    intro y
    refine HasDerivAt.fun_sum fun k _ => ?_
    have := ((hasDerivAt_pow (2 * k + 1) y).const_mul ((-1 : ℝ) ^ k)).div_const ((k.factorial : ℝ) * (2 * k + 1))
    refine this.congr_deriv ?_
    have h3 : (2 * (k : ℝ) + 1) ≠ 0 := by positivity
    rw [Nat.add_sub_cancel, neg_pow (y ^ 2) k, ← pow_mul]
    push_cast
    field_simp
  have hT : ∀ y : ℝ, HasDerivAt (fun y : ℝ => y ^ (2 * N + 1) / ((N.factorial : ℝ) * (2 * N + 1))) ((y ^ 2) ^ N / N.factorial) y := by
    intro y
    have := (hasDerivAt_pow (2 * N + 1) y).div_const ((N.factorial : ℝ) * (2 * N + 1))
    refine this.congr_deriv ?_
    have h3 : (2 * (N : ℝ) + 1) ≠ 0 := by positivity
    rw [Nat.add_sub_cancel, ← pow_mul]
    push_cast
    field_simp
  have key : ∀ y ∈ Icc (0 : ℝ) x, |exp (-y ^ 2) - ∑ k ∈ Finset.range N, (-y ^ 2) ^ k / k.factorial| ≤ (y ^ 2) ^ N / N.factorial := by
    intro y _
    have h := exp_neg_series N (sq_nonneg y)
    have e : |exp (-y ^ 2) - ∑ k ∈ Finset.range N, (-y ^ 2) ^ k / k.factorial| =
        |(-1) ^ N * (exp (-y ^ 2) - ∑ k ∈ Finset.range N, (-y ^ 2) ^ k / (k.factorial : ℝ))| := by
      rw [abs_mul, abs_pow, abs_neg, abs_one, one_pow, one_mul]
    rw [e, abs_of_nonneg h.1]
    exact h.2
  have zs : erfSum N 0 = 0 := by
    refine Finset.sum_eq_zero fun k _ => ?_
    simp
  have up : ∀ c : ℝ, |c| = 1 → c * (erfR x - 2 / √π * erfSum N x) ≤ 2 / √π * (x ^ (2 * N + 1) / (N.factorial * (2 * N + 1))) := by
    intro c hc
    have hm := monotoneOn_of_deriv_nonneg (f := fun y => 2 / √π * (y ^ (2 * N + 1) / ((N.factorial : ℝ) * (2 * N + 1))) - c * (erfR y - 2 / √π * erfSum N y))
      (convex_Icc 0 x)
      (fun y _ => (((hT y).const_mul (2 / √π)).sub (((erfR_deriv y).sub ((hS y).const_mul (2 / √π))).const_mul c)).continuousAt.continuousWithinAt)
      (fun y _ => (((hT y).const_mul (2 / √π)).sub (((erfR_deriv y).sub ((hS y).const_mul (2 / √π))).const_mul c)).differentiableAt.differentiableWithinAt)
      (fun y hy => by
        have e := (((hT y).const_mul (2 / √π)).sub (((erfR_deriv y).sub ((hS y).const_mul (2 / √π))).const_mul c)).deriv
        refine le_of_le_of_eq ?_ e.symm
        have k := key y (interior_subset hy)
        have k2 : c * (exp (-y ^ 2) - ∑ k ∈ Finset.range N, (-y ^ 2) ^ k / k.factorial) ≤ (y ^ 2) ^ N / N.factorial := by
          refine (le_abs_self _).trans ?_
          rw [abs_mul, hc, one_mul]
          exact k
        have : 0 ≤ 2 / √π * ((y ^ 2) ^ N / N.factorial - c * (exp (-y ^ 2) - ∑ k ∈ Finset.range N, (-y ^ 2) ^ k / k.factorial)) :=
          mul_nonneg (by positivity) (by linarith)
        linarith)
    have := hm (left_mem_Icc.2 hx) (right_mem_Icc.2 hx) hx
    simp only [erfR_zero, zs] at this
    simp at this
    linarith
  have h1 := up 1 (by simp)
  have h2 := up (-1) (by simp)
  rw [abs_le]
  constructor <;> linarith

end Russell.Lab
