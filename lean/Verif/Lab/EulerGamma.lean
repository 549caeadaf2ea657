import Verif.Lab.GammaCore
import Mathlib.NumberTheory.Harmonic.EulerMascheroni
import Mathlib.Analysis.Calculus.Deriv.MeanValue
import Mathlib.Analysis.SpecialFunctions.Log.Deriv

/-!
# Twenty digits of Euler's constant (background of property C118)

The harmonic numbers minus the first terms of their asymptotic series are monotone sequences with the limit `γ`.
-/

namespace Russell.Lab

open Real Set Filter Topology

/-- the first terms of the asymptotic series of the harmonic numbers without `γ` -/
noncomputable def egG (b x : ℝ) : ℝ := log x + (1 / 2 * (1 / x ^ (0 + 1)) - 1 / 12 * (1 / x ^ (1 + 1)) + 1 / 120 * (1 / x ^ (3 + 1)) - 1 / 252 * (1 / x ^ (5 + 1)) + b / 240 * (1 / x ^ (7 + 1)))

theorem eg_inv_deriv (k : ℕ) {x : ℝ} (hx : 0 < x) : HasDerivAt (fun x : ℝ => 1 / x ^ (k + 1)) (-((k : ℝ) + 1) / x ^ (k + 2)) x := by
  have := ((hasDerivAt_id x).pow (k + 1)).inv (pow_ne_zero _ hx.ne')
  refine (this.congr_of_eventuallyEq (Filter.Eventually.of_forall fun y => by simp)).congr_deriv ?_
  simp only [id_eq, Pi.pow_apply, Nat.add_sub_cancel]
  push_cast
  field_simp
  ring

theorem egG_deriv (b : ℝ) {x : ℝ} (hx : 0 < x) :
    HasDerivAt (egG b) (1 / x - 1 / (2 * x ^ 2) + 1 / (6 * x ^ 3) - 1 / (30 * x ^ 5) + 1 / (42 * x ^ 7) - b / (30 * x ^ 9)) x := by
  have h := (hasDerivAt_log hx.ne').add ((((((eg_inv_deriv 0 hx).const_mul (1 / 2)).sub ((eg_inv_deriv 1 hx).const_mul (1 / 12))).add
    ((eg_inv_deriv 3 hx).const_mul (1 / 120))).sub ((eg_inv_deriv 5 hx).const_mul (1 / 252))).add ((eg_inv_deriv 7 hx).const_mul (b / 240)))
  refine HasDerivAt.congr_deriv (f := egG b) h ?_
  push_cast
  field_simp
  ring

/-- increments of the sequence `H_n - g(n)` -/
noncomputable def egE (b x : ℝ) : ℝ := 1 / (x + 1) - egG b (x + 1) + egG b x

theorem egE_deriv (b : ℝ) {x : ℝ} (hx : 0 < x) : HasDerivAt (egE b) (-1 / (x + 1) ^ 2 -
    (1 / (x + 1) - 1 / (2 * (x + 1) ^ 2) + 1 / (6 * (x + 1) ^ 3) - 1 / (30 * (x + 1) ^ 5) + 1 / (42 * (x + 1) ^ 7) - b / (30 * (x + 1) ^ 9)) +
    (1 / x - 1 / (2 * x ^ 2) + 1 / (6 * x ^ 3) - 1 / (30 * x ^ 5) + 1 / (42 * x ^ 7) - b / (30 * x ^ 9))) x := by
  have h1 : HasDerivAt (fun x : ℝ => 1 / (x + 1)) (-1 / (x + 1) ^ 2) x := by
    have := ((hasDerivAt_id x).add_const 1).inv (show id x + 1 ≠ 0 by simp; linarith)
    refine (this.congr_of_eventuallyEq (Filter.Eventually.of_forall fun y => by simp)).congr_deriv (by simp)
  exact (h1.sub ((egG_deriv b (show 0 < x + 1 by linarith)).comp_add_const x 1)).add (egG_deriv b hx)

theorem egE_deriv_zero {x : ℝ} (hx : 0 < x) : 0 ≤ deriv (egE 0) x := by
  rw [(egE_deriv 0 hx).deriv]
  have h1 : 0 < x + 1 := by linarith
  have e : -1 / (x + 1) ^ 2 -
    (1 / (x + 1) - 1 / (2 * (x + 1) ^ 2) + 1 / (6 * (x + 1) ^ 3) - 1 / (30 * (x + 1) ^ 5) + 1 / (42 * (x + 1) ^ 7) - 0 / (30 * (x + 1) ^ 9)) +
    (1 / x - 1 / (2 * x ^ 2) + 1 / (6 * x ^ 3) - 1 / (30 * x ^ 5) + 1 / (42 * x ^ 7) - 0 / (30 * x ^ 9)) =
    (1 / 42 + x / 6 + 7 / 15 * x ^ 2 + 3 / 5 * x ^ 3 + 3 / 10 * x ^ 4) / (x ^ 7 * (x + 1) ^ 7) := by
    field_simp
    ring
  rw [e]
  positivity

theorem egE_deriv_one {x : ℝ} (hx : 0 < x) : deriv (egE 1) x ≤ 0 := by
  rw [(egE_deriv 1 hx).deriv]
  have h1 : 0 < x + 1 := by linarith
  have e : -1 / (x + 1) ^ 2 -
    (1 / (x + 1) - 1 / (2 * (x + 1) ^ 2) + 1 / (6 * (x + 1) ^ 3) - 1 / (30 * (x + 1) ^ 5) + 1 / (42 * (x + 1) ^ 7) - 1 / (30 * (x + 1) ^ 9)) +
    (1 / x - 1 / (2 * x ^ 2) + 1 / (6 * x ^ 3) - 1 / (30 * x ^ 5) + 1 / (42 * x ^ 7) - 1 / (30 * x ^ 9)) =
    -((1 / 30 + 3 / 10 * x + 247 / 210 * x ^ 2 + 181 / 70 * x ^ 3 + 709 / 210 * x ^ 4 + 5 / 2 * x ^ 5 + 5 / 6 * x ^ 6) / (x ^ 9 * (x + 1) ^ 9)) := by
    field_simp
    ring
  rw [e]
  have : 0 ≤ (1 / 30 + 3 / 10 * x + 247 / 210 * x ^ 2 + 181 / 70 * x ^ 3 + 709 / 210 * x ^ 4 + 5 / 2 * x ^ 5 + 5 / 6 * x ^ 6) / (x ^ 9 * (x + 1) ^ 9) := by positivity
  linarith

theorem eg_inv_zero (k : ℕ) : Tendsto (fun x : ℝ => 1 / x ^ (k + 1)) atTop (𝓝 0) := by
  refine (tendsto_pow_atTop (α := ℝ) (n := k + 1) (by omega)).inv_tendsto_atTop.congr fun x => ?_
  simp

theorem egG_tail (b : ℝ) : Tendsto (fun x => egG b x - log x) atTop (𝓝 0) := by
  have h := (((((eg_inv_zero 0).const_mul (1 / 2)).sub ((eg_inv_zero 1).const_mul (1 / 12))).add
    ((eg_inv_zero 3).const_mul (1 / 120))).sub ((eg_inv_zero 5).const_mul (1 / 252))).add ((eg_inv_zero 7).const_mul (b / 240))
  simp only [mul_zero, sub_zero, add_zero] at h
  refine h.congr fun x => ?_
  unfold egG
  ring

theorem egE_tendsto (b : ℝ) : Tendsto (egE b) atTop (𝓝 0) := by
  have t1 : Tendsto (fun x : ℝ => x + 1) atTop atTop := tendsto_atTop_add_const_right _ _ tendsto_id
  have h1 : Tendsto (fun x : ℝ => 1 / (x + 1)) atTop (𝓝 0) := by
    have := (eg_inv_zero 0).comp t1
    refine this.congr fun x => ?_
    simp
  have h := ((h1.sub ((egG_tail b).comp t1)).add (egG_tail b)).sub (tendsto_log_comp_add_sub_log 1)
  simp only [sub_zero, add_zero] at h
  refine h.congr fun x => ?_
  unfold egE
  simp only [Function.comp]
  ring

theorem egE_zero_nonpos {x : ℝ} (hx : 0 < x) : egE 0 x ≤ 0 := by
  have hm : MonotoneOn (egE 0) (Ici x) := by
    refine monotoneOn_of_deriv_nonneg (convex_Ici x) (fun y hy => (egE_deriv 0 (hx.trans_le hy)).continuousAt.continuousWithinAt) (fun y hy => ?_) fun y hy => ?_
    all_goals rw [interior_Ici] at hy
    · exact (egE_deriv 0 (hx.trans hy)).differentiableAt.differentiableWithinAt
    · exact egE_deriv_zero (hx.trans hy)
  exact ge_of_tendsto (egE_tendsto 0) (eventually_atTop.2 ⟨x, fun y hy => hm self_mem_Ici hy hy⟩)

theorem egE_one_nonneg {x : ℝ} (hx : 0 < x) : 0 ≤ egE 1 x := by
  have hm : AntitoneOn (egE 1) (Ici x) := by
    refine antitoneOn_of_deriv_nonpos (convex_Ici x) (fun y hy => (egE_deriv 1 (hx.trans_le hy)).continuousAt.continuousWithinAt) (fun y hy => ?_) fun y hy => ?_
    all_goals rw [interior_Ici] at hy
    · exact (egE_deriv 1 (hx.trans hy)).differentiableAt.differentiableWithinAt
    · exact egE_deriv_one (hx.trans hy)
  exact le_of_tendsto (egE_tendsto 1) (eventually_atTop.2 ⟨x, fun y hy => hm self_mem_Ici hy hy⟩)

theorem egSeq_tendsto (b : ℝ) : Tendsto (fun n : ℕ => (harmonic (n + 1) : ℝ) - egG b ((n + 1 : ℕ) : ℝ)) atTop (𝓝 eulerMascheroniConstant) := by
  have h := tendsto_harmonic_sub_log.sub ((egG_tail b).comp tendsto_natCast_atTop_atTop)
  rw [sub_zero] at h
  refine ((tendsto_add_atTop_iff_nat 1).2 h).congr fun n => ?_
  simp only [Function.comp]
  ring

theorem egSeq_step (b : ℝ) (n : ℕ) : ((harmonic (n + 1 + 1) : ℝ) - egG b ((n + 1 + 1 : ℕ) : ℝ)) - ((harmonic (n + 1) : ℝ) - egG b ((n + 1 : ℕ) : ℝ)) = egE b ((n + 1 : ℕ) : ℝ) := by
  rw [harmonic_succ]
  unfold egE
  push_cast
  ring

/-- Euler's constant lies between two expressions in any harmonic number -/
theorem euler_bracket (n : ℕ) : (harmonic (n + 1) : ℝ) - egG 1 ((n + 1 : ℕ) : ℝ) ≤ eulerMascheroniConstant ∧ eulerMascheroniConstant ≤ (harmonic (n + 1) : ℝ) - egG 0 ((n + 1 : ℕ) : ℝ) := by
  constructor
  · refine Monotone.ge_of_tendsto (monotone_nat_of_le_succ fun m => ?_) (egSeq_tendsto 1) n
    have := egSeq_step 1 m
    have := egE_one_nonneg (x := ((m + 1 : ℕ) : ℝ)) (by positivity)
    linarith
  · refine Antitone.le_of_tendsto (antitone_nat_of_succ_le fun m => ?_) (egSeq_tendsto 0) n
    have := egSeq_step 0 m
    have := egE_zero_nonpos (x := ((m + 1 : ℕ) : ℝ)) (by positivity)
    linarith

theorem harmonic_128 : |harmonic 128 - 5433147092589172376795647 / 10 ^ 24| ≤ 1 / 10 ^ 20 := by
  rw [harmonic]
  simp only [Finset.sum_range_succ, Finset.sum_range_zero]
  norm_num [abs_le]

theorem euler_near : |eulerMascheroniConstant - 577215664901532860606512 / 10 ^ 24| ≤ 1 / 10 ^ 18 := by
  obtain ⟨h1, h2⟩ := euler_bracket 127
  have hh := abs_le.1 harmonic_128
  have e1 : (harmonic 128 : ℝ) - 5433147092589172376795647 / 10 ^ 24 ≤ 1 / 10 ^ 20 := by
    have := (Rat.cast_le (K := ℝ)).2 hh.2
    push_cast at this
    exact this
  have e2 : -(1 / 10 ^ 20) ≤ (harmonic 128 : ℝ) - 5433147092589172376795647 / 10 ^ 24 := by
    have := (Rat.cast_le (K := ℝ)).2 hh.1
    push_cast at this
    exact this
  have hl := abs_le.1 log_two_near
  have e3 : log 128 = 7 * log 2 := by
    rw [show (128 : ℝ) = 2 ^ 7 by norm_num, log_pow]
    norm_num
  norm_num only [egG] at h1 h2
  rw [e3] at h1 h2
  generalize (harmonic 128 : ℝ) = H at *
  generalize log 2 = L at *
  generalize eulerMascheroniConstant = G at *
  norm_num at h1 h2 e1 e2 hl
  rw [abs_le]
  constructor <;> norm_num <;> linarith [hl.1, hl.2]

end Russell.Lab
