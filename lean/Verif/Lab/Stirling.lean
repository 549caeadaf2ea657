import Mathlib.Analysis.SpecialFunctions.Stirling
import Mathlib.Analysis.SpecialFunctions.Gamma.BohrMollerup
import Mathlib.Analysis.Calculus.MeanValue
import Mathlib.Analysis.SpecialFunctions.Log.Deriv
import Mathlib.Analysis.SpecialFunctions.Complex.LogBounds

/-!
# Stirling's series for the Gamma function

Background of the properties C111 and C112: for every real `x > 0` the partial sums of Stirling's series enclose
`log Γ(x) - ((x - 1/2) log x - x + log(2π)/2)`.
-/

namespace Russell.Lab

open Real Filter Topology Set

/-- the remainder of Stirling's formula -/
noncomputable def stirMu (x : ℝ) : ℝ := log (Gamma x) - ((x - 1 / 2) * log x - x + log (2 * π) / 2)

theorem stirMu_sub {x : ℝ} (hx : 0 < x) : stirMu x - stirMu (x + 1) = (x + 1 / 2) * (log (x + 1) - log x) - 1 := by
  unfold stirMu
  rw [Gamma_add_one hx.ne', log_mul hx.ne' (Gamma_pos_of_pos hx).ne']
  ring

theorem log_Gamma_add_nat {x : ℝ} (hx : 0 < x) (n : ℕ) : log (Gamma (x + n)) = log (Gamma x) + ∑ m ∈ Finset.range n, log (x + m) := by
  induction n with
  | zero => simp
  | succ n ih =>
    have hp : 0 < x + n := by positivity
    rw [show x + ((n + 1 : ℕ) : ℝ) = x + n + 1 by push_cast; ring, Gamma_add_one hp.ne', log_mul hp.ne' (Gamma_pos_of_pos hp).ne', ih, Finset.sum_range_succ]
    ring

theorem tendsto_log_factorial : Tendsto (fun n : ℕ => log (n.factorial : ℝ) - ((n + 1 / 2) * log n - n + log (2 * π) / 2)) atTop (𝓝 0) := by
  have h := (Stirling.tendsto_stirlingSeq_sqrt_pi).log (by positivity)
  have h2 : Tendsto (fun n : ℕ => log (Stirling.stirlingSeq n) - log √π) atTop (𝓝 0) := by simpa using h.sub_const (log √π)
  refine h2.congr' ?_
  filter_upwards [eventually_gt_atTop 0] with n hn
  have hn' : (0 : ℝ) < n := by exact_mod_cast hn
  rw [Stirling.log_stirlingSeq_formula, log_sqrt pi_pos.le, log_mul (by norm_num) pi_pos.ne', log_mul (by norm_num) hn'.ne',
    log_div hn'.ne' (exp_pos 1).ne', log_exp]
  ring

theorem tendsto_mul_log_one_add {a : ℝ} (b : ℝ) : Tendsto (fun n : ℕ => ((n : ℝ) + b) * log (1 + a / n)) atTop (𝓝 a) := by
  have h1 : Tendsto (fun n : ℕ => (n : ℝ) * log (1 + a / n)) atTop (𝓝 a) := (tendsto_mul_log_one_add_div_atTop a).comp tendsto_natCast_atTop_atTop
  have h2 : Tendsto (fun n : ℕ => log (1 + a / n)) atTop (𝓝 0) := by
    have : Tendsto (fun n : ℕ => 1 + a / (n : ℝ)) atTop (𝓝 1) := by simpa using (tendsto_const_div_atTop_nhds_zero_nat a).const_add 1
    simpa using this.log one_ne_zero
  have h3 := h1.add (h2.const_mul b)
  simp only [mul_zero, add_zero] at h3
  exact h3.congr fun n => by ring

theorem stirMu_tendsto {x : ℝ} (hx : 0 < x) : Tendsto (fun n : ℕ => stirMu (x + n)) atTop (𝓝 0) := by
  rw [← tendsto_add_atTop_iff_nat 1]
  have h1 : Tendsto (fun n : ℕ => log (Gamma x) - BohrMollerup.logGammaSeq x n) atTop (𝓝 0) := by
    simpa using (BohrMollerup.tendsto_log_gamma hx).const_sub (log (Gamma x))
  have h2 := tendsto_log_factorial
  have h3 : Tendsto (fun n : ℕ => (x + 1) - ((n : ℝ) + (x + 1 / 2)) * log (1 + (x + 1) / n)) atTop (𝓝 0) := by
    simpa using (tendsto_mul_log_one_add (a := x + 1) (x + 1 / 2)).const_sub (x + 1)
  have h := (h1.add h2).add h3
  simp only [add_zero] at h
  refine h.congr' ?_
  filter_upwards [eventually_gt_atTop 0] with n hn
  have hn' : (0 : ℝ) < n := by exact_mod_cast hn
  unfold stirMu BohrMollerup.logGammaSeq
  rw [log_Gamma_add_nat hx]
  have e : 1 + (x + 1) / (n : ℝ) = (x + ((n + 1 : ℕ) : ℝ)) / n := by push_cast; field_simp; ring
  rw [e, log_div (by positivity) hn'.ne']
  push_cast
  ring

/-- a function that decreases by every step and tends to 0 is nonnegative -/
theorem nonneg_of_step {D : ℝ → ℝ} (hs : ∀ x, 0 < x → D (x + 1) ≤ D x) {x : ℝ} (hx : 0 < x) (hl : Tendsto (fun n : ℕ => D (x + n)) atTop (𝓝 0)) :
    0 ≤ D x := by
  refine le_of_tendsto hl (Eventually.of_forall fun n => ?_)
  induction n with
  | zero => simp
  | succ n ih =>
    have := hs (x + n) (by positivity)
    rw [show x + ((n + 1 : ℕ) : ℝ) = x + n + 1 by push_cast; ring]
    linarith

/-- a function with nonnegative second derivative, which tends to 0 together with its derivative, is nonnegative -/
theorem nonneg_of_deriv2 {h h' h'' : ℝ → ℝ} (d1 : ∀ x, 0 < x → HasDerivAt h (h' x) x) (d2 : ∀ x, 0 < x → HasDerivAt h' (h'' x) x)
    (hp : ∀ x, 0 < x → 0 ≤ h'' x) (l0 : Tendsto h atTop (𝓝 0)) (l1 : Tendsto h' atTop (𝓝 0)) {x : ℝ} (hx : 0 < x) : 0 ≤ h x := by
  have m1 : MonotoneOn h' (Ioi 0) := by
    apply monotoneOn_of_deriv_nonneg (convex_Ioi 0) (fun y hy => (d2 y hy).continuousAt.continuousWithinAt)
    · rw [interior_Ioi]; exact fun y hy => (d2 y hy).differentiableAt.differentiableWithinAt
    · rw [interior_Ioi]; intro y hy; rw [(d2 y hy).deriv]; exact hp y hy
  have n1 : ∀ y, 0 < y → h' y ≤ 0 := fun y hy =>
    ge_of_tendsto l1 (by filter_upwards [eventually_ge_atTop y] with z hz using m1 hy (lt_of_lt_of_le hy hz) hz)
  have m0 : AntitoneOn h (Ioi 0) := by
    apply antitoneOn_of_deriv_nonpos (convex_Ioi 0) (fun y hy => (d1 y hy).continuousAt.continuousWithinAt)
    · rw [interior_Ioi]; exact fun y hy => (d1 y hy).differentiableAt.differentiableWithinAt
    · rw [interior_Ioi]; intro y hy; rw [(d1 y hy).deriv]; exact n1 y hy
  exact le_of_tendsto l0 (by filter_upwards [eventually_ge_atTop x] with z hz using m0 hx (lt_of_lt_of_le hx hz) hz)

/-- a finite sum of multiples of `x⁻ᵐ⁻¹`, from `m = k` in steps of 2 -/
noncomputable def invSum : List ℝ → ℕ → ℝ → ℝ
  | [], _, _ => 0
  | c :: l, k, x => c * (x⁻¹) ^ (k + 1) + invSum l (k + 2) x

noncomputable def invSum' : List ℝ → ℕ → ℝ → ℝ
  | [], _, _ => 0
  | c :: l, k, x => -(c * (k + 1) * (x⁻¹) ^ (k + 2)) + invSum' l (k + 2) x

noncomputable def invSum'' : List ℝ → ℕ → ℝ → ℝ
  | [], _, _ => 0
  | c :: l, k, x => c * (k + 1) * (k + 2) * (x⁻¹) ^ (k + 3) + invSum'' l (k + 2) x

theorem inv_pow_deriv (k : ℕ) {x : ℝ} (hx : 0 < x) : HasDerivAt (fun x : ℝ => (x⁻¹) ^ (k + 1)) (-((k + 1) * (x⁻¹) ^ (k + 2))) x := by
  have := (hasDerivAt_inv hx.ne').pow (k + 1)
  refine this.congr_deriv ?_
  push_cast
  rw [inv_pow, show (x⁻¹) ^ (k + 2) = x⁻¹ ^ k * (x⁻¹ ^ 2) by ring]
  simp
  ring

theorem invSum_deriv (l : List ℝ) (k : ℕ) {x : ℝ} (hx : 0 < x) : HasDerivAt (invSum l k) (invSum' l k x) x := by
  induction l generalizing k with
  | nil => exact hasDerivAt_const x 0
  | cons c l ih =>
    have := ((inv_pow_deriv k hx).const_mul c).add (ih (k + 2))
    refine this.congr_deriv ?_
    rw [invSum']; ring

theorem invSum'_deriv (l : List ℝ) (k : ℕ) {x : ℝ} (hx : 0 < x) : HasDerivAt (invSum' l k) (invSum'' l k x) x := by
  induction l generalizing k with
  | nil => exact hasDerivAt_const x 0
  | cons c l ih =>
    have := ((inv_pow_deriv (k + 1) hx).const_mul (-(c * (k + 1)))).add (ih (k + 2))
    have h2 : HasDerivAt (invSum' (c :: l) k) _ x := this.congr_of_eventuallyEq (Eventually.of_forall fun y => by
      show -(c * (k + 1) * (y⁻¹) ^ (k + 2)) + invSum' l (k + 2) y = -(c * (k + 1)) * (y⁻¹) ^ (k + 1 + 1) + invSum' l (k + 2) y
      ring)
    refine h2.congr_deriv ?_
    rw [invSum'']; push_cast; ring

theorem inv_pow_tendsto (k : ℕ) : Tendsto (fun x : ℝ => (x⁻¹) ^ (k + 1)) atTop (𝓝 0) := by
  simpa using (tendsto_inv_atTop_zero (𝕜 := ℝ)).pow (k + 1)

theorem invSum_tendsto (l : List ℝ) (k : ℕ) : Tendsto (invSum l k) atTop (𝓝 0) := by
  induction l generalizing k with
  | nil => exact tendsto_const_nhds
  | cons c l ih => simpa [invSum] using ((inv_pow_tendsto k).const_mul c).add (ih (k + 2))

theorem invSum'_tendsto (l : List ℝ) (k : ℕ) : Tendsto (invSum' l k) atTop (𝓝 0) := by
  induction l generalizing k with
  | nil => exact tendsto_const_nhds
  | cons c l ih => simpa [invSum'] using (((inv_pow_tendsto (k + 1)).const_mul (c * (k + 1))).neg).add (ih (k + 2))

/-- the decrement of `stirMu` and its derivatives -/
noncomputable def stirG (x : ℝ) : ℝ := (x + 1 / 2) * (log (x + 1) - log x) - 1

noncomputable def stirG' (x : ℝ) : ℝ := log (x + 1) - log x + (x + 1 / 2) * ((x + 1)⁻¹ - x⁻¹)

theorem stirG_deriv {x : ℝ} (hx : 0 < x) : HasDerivAt stirG (stirG' x) x := by
  have h1 : HasDerivAt (fun x : ℝ => x + 1) 1 x := (hasDerivAt_id x).add_const 1
  have h2 := (h1.log (by positivity)).sub (hasDerivAt_log hx.ne')
  have h3 := (((hasDerivAt_id x).add_const (1 / 2)).mul h2).sub_const 1
  refine h3.congr_deriv ?_
  simp only [id, stirG', one_div, Pi.sub_apply]
  ring

theorem stirG'_deriv {x : ℝ} (hx : 0 < x) : HasDerivAt stirG' (1 / (2 * x ^ 2 * (x + 1) ^ 2)) x := by
  have h1 : HasDerivAt (fun x : ℝ => x + 1) 1 x := (hasDerivAt_id x).add_const 1
  have hx1 : x + 1 ≠ 0 := by positivity
  have h2 := (h1.log hx1).sub (hasDerivAt_log hx.ne')
  have h3 := (h1.inv hx1).sub (hasDerivAt_inv hx.ne')
  have h4 := h2.add (((hasDerivAt_id x).add_const (1 / 2)).mul h3)
  refine h4.congr_deriv ?_
  simp only [id, Pi.sub_apply, Pi.inv_apply]
  field_simp
  ring

theorem log_diff_tendsto : Tendsto (fun x : ℝ => log (x + 1) - log x) atTop (𝓝 0) := by
  have : Tendsto (fun x : ℝ => log (1 + 1 / x)) atTop (𝓝 0) := by
    have h : Tendsto (fun x : ℝ => 1 + 1 / x) atTop (𝓝 1) := by simpa using tendsto_inv_atTop_zero.const_add (1 : ℝ)
    simpa using h.log one_ne_zero
  refine this.congr' ?_
  filter_upwards [eventually_gt_atTop 0] with x hx
  rw [← log_div (by positivity) hx.ne']
  congr 1
  field_simp

theorem stirG_tendsto : Tendsto stirG atTop (𝓝 0) := by
  have h1 : Tendsto (fun x : ℝ => x * log (1 + 1 / x)) atTop (𝓝 1) := tendsto_mul_log_one_add_div_atTop 1
  have h2 := (h1.add (log_diff_tendsto.const_mul (1 / 2))).sub_const 1
  simp only [mul_zero, add_zero, sub_self] at h2
  refine h2.congr' ?_
  filter_upwards [eventually_gt_atTop 0] with x hx
  rw [stirG, show 1 + 1 / x = (x + 1) / x by field_simp, log_div (by positivity) hx.ne']
  ring

theorem stirG'_tendsto : Tendsto stirG' atTop (𝓝 0) := by
  have h1 : Tendsto (fun x : ℝ => (x + 1)⁻¹) atTop (𝓝 0) := tendsto_inv_atTop_zero.comp (tendsto_atTop_add_const_right atTop 1 tendsto_id)
  have h2 := (log_diff_tendsto.add (h1.const_mul (-1 / 2))).add (tendsto_inv_atTop_zero.const_mul (-1 / 2 : ℝ))
  simp only [mul_zero, add_zero] at h2
  refine h2.congr' ?_
  filter_upwards [eventually_gt_atTop 0] with x hx
  rw [stirG']
  field_simp
  ring

theorem shift_tendsto {f : ℝ → ℝ} (h : Tendsto f atTop (𝓝 0)) : Tendsto (fun x => f (x + 1)) atTop (𝓝 0) :=
  h.comp (tendsto_atTop_add_const_right atTop 1 tendsto_id)

theorem shift_deriv {f : ℝ → ℝ} {f' x : ℝ} (h : HasDerivAt f f' (x + 1)) : HasDerivAt (fun x => f (x + 1)) f' x := HasDerivAt.comp_add_const x 1 h

/-- the enclosing property of a partial sum, from the sign of a rational function -/
theorem stirMu_enclose (l : List ℝ) (σ : ℝ)
    (hr : ∀ x, 0 < x → 0 ≤ σ * (1 / (2 * x ^ 2 * (x + 1) ^ 2) - invSum'' l 0 x + invSum'' l 0 (x + 1))) {x : ℝ} (hx : 0 < x) :
    0 ≤ σ * (stirMu x - invSum l 0 x) := by
  refine nonneg_of_step (D := fun x => σ * (stirMu x - invSum l 0 x)) ?_ hx ?_
  · intro x hx
    have hh : 0 ≤ σ * (stirG x - invSum l 0 x + invSum l 0 (x + 1)) := by
      refine nonneg_of_deriv2 (h := fun x => σ * (stirG x - invSum l 0 x + invSum l 0 (x + 1)))
        (h' := fun x => σ * (stirG' x - invSum' l 0 x + invSum' l 0 (x + 1))) ?_ ?_ hr ?_ ?_ hx
      · intro y hy
        exact (((stirG_deriv hy).sub (invSum_deriv l 0 hy)).add (shift_deriv (invSum_deriv l 0 (by positivity)))).const_mul σ
      · intro y hy
        exact (((stirG'_deriv hy).sub (invSum'_deriv l 0 hy)).add (shift_deriv (invSum'_deriv l 0 (by positivity)))).const_mul σ
      · simpa using ((stirG_tendsto.sub (invSum_tendsto l 0)).add (shift_tendsto (invSum_tendsto l 0))).const_mul σ
      · simpa using ((stirG'_tendsto.sub (invSum'_tendsto l 0)).add (shift_tendsto (invSum'_tendsto l 0))).const_mul σ
    have e := stirMu_sub hx
    unfold stirG at hh
    rw [← e] at hh
    nlinarith
  · have h1 := stirMu_tendsto hx
    have h2 : Tendsto (fun n : ℕ => invSum l 0 (x + n)) atTop (𝓝 0) :=
      (invSum_tendsto l 0).comp (tendsto_atTop_add_const_left atTop x tendsto_natCast_atTop_atTop)
    simpa using (h1.sub h2).const_mul σ

/-- the coefficients `B₂ₖ / (2k (2k-1))` -/
noncomputable def stirCoef : List ℝ := [1 / 12, -1 / 360, 1 / 1260, -1 / 1680, 1 / 1188, -691 / 360360, 1 / 156, -3617 / 122400, 43867 / 244188, -174611 / 125400]

theorem stirMu_lt_5 {x : ℝ} (hx : 0 < x) : stirMu x ≤ invSum (stirCoef.take 5) 0 x := by
  have := stirMu_enclose (stirCoef.take 5) (-1) (fun x hx => ?_) hx
  · linarith
  · have e : (-1) * (1 / (2 * x ^ 2 * (x + 1) ^ 2) - invSum'' (stirCoef.take 5) 0 x + invSum'' (stirCoef.take 5) 0 (x + 1))
        = (5/66 * x ^ 0 + 5/6 * x ^ 1 + 62/15 * x ^ 2 + 182/15 * x ^ 3 + 487/21 * x ^ 4 + 625/21 * x ^ 5 + 2654/105 * x ^ 6 + 1382/105 * x ^ 7 + 691/210 * x ^ 8) / (x ^ 11 * (x + 1) ^ 11) := by
      simp only [stirCoef, List.take, invSum'']
      push_cast
      field_simp
      ring
    rw [e]
    positivity

theorem stirMu_gt_6 {x : ℝ} (hx : 0 < x) : invSum (stirCoef.take 6) 0 x ≤ stirMu x := by
  have := stirMu_enclose (stirCoef.take 6) 1 (fun x hx => ?_) hx
  · linarith
  · have e : 1 * (1 / (2 * x ^ 2 * (x + 1) ^ 2) - invSum'' (stirCoef.take 6) 0 x + invSum'' (stirCoef.take 6) 0 (x + 1))
        = (691/2730 * x ^ 0 + 691/210 * x ^ 1 + 45431/2310 * x ^ 2 + 164947/2310 * x ^ 3 + 202241/1155 * x ^ 4 + 6395/21 * x ^ 5 + 40189/105 * x ^ 6 + 5191/15 * x ^ 7 + 6533/30 * x ^ 8 + 175/2 * x ^ 9 + 35/2 * x ^ 10) / (x ^ 13 * (x + 1) ^ 13) := by
      simp only [stirCoef, List.take, invSum'']
      push_cast
      field_simp
      ring
    rw [e]
    positivity

theorem stirMu_lt_9 {x : ℝ} (hx : 0 < x) : stirMu x ≤ invSum (stirCoef.take 9) 0 x := by
  have := stirMu_enclose (stirCoef.take 9) (-1) (fun x hx => ?_) hx
  · linarith
  · have e : (-1) * (1 / (2 * x ^ 2 * (x + 1) ^ 2) - invSum'' (stirCoef.take 9) 0 x + invSum'' (stirCoef.take 9) 0 (x + 1))
        = (43867/798 * x ^ 0 + 43867/42 * x ^ 1 + 16766468/1785 * x ^ 2 + 94841192/1785 * x ^ 3 + 378164198/1785 * x ^ 4 + 66397246/105 * x ^ 5 + 1998616684/1365 * x ^ 6 + 524266432/195 * x ^ 7 + 59562792761/15015 * x ^ 8 + 23694120693/5005 * x ^ 9 + 22886733516/5005 * x ^ 10 + 3559143464/1001 * x ^ 11 + 10992621294/5005 * x ^ 12 + 57821946/55 * x ^ 13 + 20483048/55 * x ^ 14 + 4889108/55 * x ^ 15 + 1222277/110 * x ^ 16) / (x ^ 19 * (x + 1) ^ 19) := by
      simp only [stirCoef, List.take, invSum'']
      push_cast
      field_simp
      ring
    rw [e]
    positivity

theorem stirMu_gt_10 {x : ℝ} (hx : 0 < x) : invSum (stirCoef.take 10) 0 x ≤ stirMu x := by
  have := stirMu_enclose (stirCoef.take 10) 1 (fun x hx => ?_) hx
  · linarith
  · have e : 1 * (1 / (2 * x ^ 2 * (x + 1) ^ 2) - invSum'' (stirCoef.take 10) 0 x + invSum'' (stirCoef.take 10) 0 (x + 1))
        = (174611/330 * x ^ 0 + 1222277/110 * x ^ 1 + 974894509/8778 * x ^ 2 + 881036383/1254 * x ^ 3 + 168160207154/53295 * x ^ 4 + 5999438614/561 * x ^ 5 + 79619598434/2805 * x ^ 6 + 33894142594/561 * x ^ 7 + 26733044503391/255255 * x ^ 8 + 149425488165/1001 * x ^ 9 + 75427818467/429 * x ^ 10 + 11132821603/65 * x ^ 11 + 8938647158/65 * x ^ 12 + 1173071462/13 * x ^ 13 + 4335812326/91 * x ^ 14 + 1793868990/91 * x ^ 15 + 1109433053/182 * x ^ 16 + 2563539/2 * x ^ 17 + 854513/6 * x ^ 18) / (x ^ 21 * (x + 1) ^ 21) := by
      simp only [stirCoef, List.take, invSum'']
      push_cast
      field_simp
      ring
    rw [e]
    positivity

end Russell.Lab
