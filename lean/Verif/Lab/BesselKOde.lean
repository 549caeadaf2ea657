import Verif.Lab.BesselK
import Verif.Lab.BesselIOde
import Mathlib.Analysis.Calculus.ParametricIntegral
import Mathlib.Analysis.SpecialFunctions.Trigonometric.Series
import Mathlib.Analysis.SpecialFunctions.Gaussian.GaussianIntegral
import Mathlib.Analysis.SpecialFunctions.Trigonometric.DerivHyp
import Mathlib.MeasureTheory.Integral.DominatedConvergence

/-!
# Modified Bessel functions of the second kind: differential equations and limits (for property C120)
-/

namespace Russell.Lab

open Russell Real Set Filter Topology MeasureTheory

theorem besselK_deriv_int (n : ℕ) {x : ℝ} (hx : 0 < x) :
    HasDerivAt (besselK n) (∫ t in Ioi (0 : ℝ), exp (-x * cosh t) * (-(cosh t * cosh (n * t)))) x := by
  have hb : ∀ t, 0 ≤ t → |cosh t * cosh (n * t)| ≤ exp ((n + 1 : ℕ) * t) := by
    intro t ht
    rw [abs_mul, abs_of_pos (cosh_pos t), abs_of_pos (cosh_pos _)]
    refine (mul_le_mul (cosh_le_exp ht) (cosh_le_exp (by positivity : 0 ≤ (n : ℝ) * t)) (cosh_pos _).le (exp_pos _).le).trans (le_of_eq ?_)
    rw [← exp_add]
    congr 1
    push_cast
    ring
  have h := hasDerivAt_integral_of_dominated_loc_of_deriv_le (μ := volume.restrict (Ioi (0 : ℝ))) (F := fun x t => exp (-x * cosh t) * cosh (n * t))
    (F' := fun x t => exp (-x * cosh t) * (-(cosh t * cosh (n * t)))) (x₀ := x) (s := Ioi (x / 2)) (bound := fun t => exp (-(x / 2) * cosh t) * (cosh t * cosh (n * t)))
    (Ioi_mem_nhds (by linarith))
    (Eventually.of_forall fun y => (by fun_prop : Continuous fun t => exp (-y * cosh t) * cosh (n * t)).aestronglyMeasurable)
    (kn_integrable hx n _ (by fun_prop) fun t ht => abs_cosh_le n ht)
    (by fun_prop : Continuous fun t => exp (-x * cosh t) * (-(cosh t * cosh (n * t)))).aestronglyMeasurable
    (Eventually.of_forall fun t y hy => by
      rw [norm_eq_abs, abs_mul, abs_exp, abs_neg, abs_of_pos (mul_pos (cosh_pos _) (cosh_pos _))]
      refine mul_le_mul_of_nonneg_right (exp_le_exp.2 ?_) (mul_pos (cosh_pos _) (cosh_pos _)).le
      have := mul_le_mul_of_nonneg_right (le_of_lt (show x / 2 < y from hy)) (cosh_pos t).le
      linarith)
    (kn_integrable (by linarith : 0 < x / 2) (n + 1) _ (by fun_prop) hb)
    (Eventually.of_forall fun t y _ => by
      have h1 : HasDerivAt (fun y : ℝ => -y * cosh t) (-cosh t) y := by simpa using ((hasDerivAt_id y).neg.mul_const (cosh t))
      refine (h1.exp.mul_const (cosh (n * t))).congr_deriv ?_
      ring)
  exact h.2

theorem besselK_zero_deriv {x : ℝ} (hx : 0 < x) : HasDerivAt (besselK 0) (-besselK 1 x) x := by
  refine (besselK_deriv_int 0 hx).congr_deriv ?_
  unfold besselK
  rw [← integral_neg]
  congr 1
  ext t
  simp

theorem besselK_one_deriv {x : ℝ} (hx : 0 < x) : HasDerivAt (besselK 1) (-besselK 0 x - besselK 1 x * (1 / x)) x := by
  refine (besselK_deriv_int 1 hx).congr_deriv ?_
  have hi : ∀ k : ℕ, IntegrableOn (fun t => exp (-x * cosh t) * cosh (k * t)) (Ioi 0) := fun k =>
    kn_integrable hx k _ (by fun_prop) fun t ht => abs_cosh_le k ht
  have e : (∫ t in Ioi (0 : ℝ), exp (-x * cosh t) * (-(cosh t * cosh ((1 : ℕ) * t)))) = -(1 / 2) * (besselK 2 x + besselK 0 x) := by
    unfold besselK
    rw [← integral_add (hi 2) (hi 0), ← integral_const_mul]
    congr 1
    ext t
    push_cast
    rw [one_mul, zero_mul, cosh_zero, cosh_two_mul, cosh_sq]
    have := cosh_sq t
    linear_combination (-(exp (-x * cosh t))) * (this)
  rw [e, besselK_rec hx 0]
  push_cast
  field_simp
  ring

/-- `√x eˣ Kₙ(x)` -/
noncomputable def kW (n : ℕ) (x : ℝ) : ℝ := √x * exp x * besselK n x

theorem kG_deriv {x : ℝ} (hx : 0 < x) : HasDerivAt (fun x => √x * exp x) (√x * exp x * (1 + 1 / (2 * x))) x := by
  have hs : 0 < √x := sqrt_pos.2 hx
  refine ((hasDerivAt_sqrt hx.ne').mul (hasDerivAt_exp x)).congr_deriv ?_
  have e : x = √x * √x := (mul_self_sqrt hx.le).symm
  have : 1 / (2 * √x) = √x * (1 / (2 * x)) := by
    nth_rewrite 3 [e]
    field_simp
  rw [this]
  ring

noncomputable def kP0 (x : ℝ) : ℝ := kW 0 x - kW 1 x + kW 0 x * (1 / (2 * x))
noncomputable def kP1 (x : ℝ) : ℝ := kW 1 x - kW 0 x - kW 1 x * (1 / (2 * x))

theorem kW0_deriv {x : ℝ} (hx : 0 < x) : HasDerivAt (kW 0) (kP0 x) x := by
  refine ((kG_deriv hx).mul (besselK_zero_deriv hx)).congr_deriv ?_
  unfold kP0 kW
  ring

theorem kW1_deriv {x : ℝ} (hx : 0 < x) : HasDerivAt (kW 1) (kP1 x) x := by
  refine ((kG_deriv hx).mul (besselK_one_deriv hx)).congr_deriv ?_
  unfold kP1 kW
  field_simp
  ring

theorem kHalfInv_deriv {x : ℝ} (hx : 0 < x) : HasDerivAt (fun x : ℝ => 1 / (2 * x)) (-(1 / (2 * x)) * (1 / x)) x := by
  have h := (inv_deriv' hx).const_mul (1 / 2)
  refine (h.congr_of_eventuallyEq (Eventually.of_forall fun y => ?_)).congr_deriv ?_
  · show 1 / (2 * y) = 1 / 2 * (1 / y)
    rw [one_div_mul_one_div]
  · field_simp

theorem kP0_deriv {x : ℝ} (hx : 0 < x) : HasDerivAt kP0 (2 * kP0 x + (1 / x) ^ 2 * (-(1 / 4) * kW 0 x)) x := by
  refine (((kW0_deriv hx).sub (kW1_deriv hx)).add ((kW0_deriv hx).mul (kHalfInv_deriv hx))).congr_deriv ?_
  unfold kP0 kP1
  field_simp
  ring

theorem kP1_deriv {x : ℝ} (hx : 0 < x) : HasDerivAt kP1 (2 * kP1 x + (1 / x) ^ 2 * (3 / 4 * kW 1 x)) x := by
  refine (((kW1_deriv hx).sub (kW0_deriv hx)).sub ((kW1_deriv hx).mul (kHalfInv_deriv hx))).congr_deriv ?_
  unfold kP0 kP1
  field_simp
  ring

/-! ## The limits -/

theorem cosh_sub_one_ge (u : ℝ) : u ^ 2 / 2 ≤ cosh u - 1 := by
  have h1 : cosh u = 1 + 2 * sinh (u / 2) ^ 2 := by
    have := cosh_two_mul (u / 2)
    rw [show 2 * (u / 2) = u by ring] at this
    rw [this, cosh_sq]; ring
  have h2 : |u / 2| ≤ |sinh (u / 2)| := by
    rw [abs_sinh]
    exact self_le_sinh_iff.2 (abs_nonneg _)
  have h3 : (u / 2) ^ 2 ≤ sinh (u / 2) ^ 2 := sq_le_sq.2 h2
  nlinarith

theorem cosh_sub_one_le (u : ℝ) : cosh u - 1 ≤ u ^ 2 / 2 * exp (u ^ 2 / 2) := by
  have h1 := cosh_le_exp_half_sq u
  have h2 := add_one_le_exp (-(u ^ 2 / 2))
  have h3 := mul_le_mul_of_nonneg_right h2 (exp_pos (u ^ 2 / 2)).le
  rw [← exp_add, neg_add_cancel, exp_zero] at h3
  linarith

theorem kW_eq (n : ℕ) {x : ℝ} (hx : 0 < x) :
    kW n x = ∫ s in Ioi (0 : ℝ), exp (-x * (cosh (s / √x) - 1)) * cosh (n * (s / √x)) := by
  have hs : 0 < √x := sqrt_pos.2 hx
  have h := integral_comp_mul_left_Ioi (fun t => exp (-x * (cosh t - 1)) * cosh (n * t)) 0 (inv_pos.2 hs)
  rw [mul_zero, inv_inv, smul_eq_mul] at h
  have e : ∀ s : ℝ, s / √x = (√x)⁻¹ * s := fun s => by rw [div_eq_inv_mul]
  simp only [e]
  rw [h]
  unfold kW besselK
  rw [mul_assoc, ← integral_const_mul]
  congr 2
  ext t
  rw [← mul_assoc, ← exp_add]
  congr 2
  ring

theorem kW_tendsto {n : ℕ} (hn : n ≤ 1) : Tendsto (kW n) atTop (𝓝 √(π / 2)) := by
  have hg : (∫ s in Ioi (0 : ℝ), exp (-(1 / 2) * s ^ 2)) = √(π / 2) := by
    rw [integral_gaussian_Ioi]
    rw [show π / (1 / 2) = 2 ^ 2 * (π / 2) by ring, sqrt_mul (by positivity), sqrt_sq (by norm_num)]
    ring
  rw [← hg]
  have hlim : Tendsto (fun x => ∫ s in Ioi (0 : ℝ), exp (-x * (cosh (s / √x) - 1)) * cosh (n * (s / √x))) atTop (𝓝 (∫ s in Ioi (0 : ℝ), exp (-(1 / 2) * s ^ 2))) := by
    refine tendsto_integral_filter_of_dominated_convergence (fun s => exp (-(1 / 4) * s ^ 2)) ?_ ?_ ?_ ?_
    · exact Eventually.of_forall fun x => (by fun_prop : Continuous fun s => exp (-x * (cosh (s / √x) - 1)) * cosh (n * (s / √x))).aestronglyMeasurable
    · filter_upwards [eventually_ge_atTop 2] with x hx
      refine Eventually.of_forall fun s => ?_
      have hx0 : 0 < x := by linarith
      have hu : (s / √x) ^ 2 = s ^ 2 / x := by rw [div_pow, sq_sqrt hx0.le]
      rw [norm_eq_abs, abs_mul, abs_exp, abs_of_pos (cosh_pos _)]
      have c1 : cosh (n * (s / √x)) ≤ exp (1 / 4 * s ^ 2) := by
        refine (cosh_le_exp_half_sq _).trans (exp_le_exp.2 ?_)
        have hn2 : ((n : ℝ)) ^ 2 ≤ 1 := by
          have : (n : ℝ) ≤ 1 := by exact_mod_cast hn
          nlinarith [Nat.cast_nonneg (α := ℝ) n]
        rw [mul_pow, hu]
        have : s ^ 2 / x ≤ s ^ 2 / 2 := div_le_div_of_nonneg_left (sq_nonneg s) (by norm_num) hx
        have h0 : 0 ≤ s ^ 2 / x := by positivity
        nlinarith
      have c2 : exp (-x * (cosh (s / √x) - 1)) ≤ exp (-(1 / 2) * s ^ 2) := by
        refine exp_le_exp.2 ?_
        have := mul_le_mul_of_nonneg_left (cosh_sub_one_ge (s / √x)) hx0.le
        rw [hu, show x * (s ^ 2 / x / 2) = s ^ 2 / 2 by field_simp] at this
        linarith
      refine (mul_le_mul c2 c1 (cosh_pos _).le (exp_pos _).le).trans (le_of_eq ?_)
      rw [← exp_add]
      congr 1
      ring
    · exact (integrable_exp_neg_mul_sq (by norm_num)).integrableOn
    · refine Eventually.of_forall fun s => ?_
      have hq : Tendsto (fun x : ℝ => s / √x) atTop (𝓝 0) := tendsto_const_nhds.div_atTop tendsto_sqrt_atTop
      have h1 : Tendsto (fun x : ℝ => cosh (n * (s / √x))) atTop (𝓝 1) := by
        have h := (continuous_cosh.tendsto ((n : ℝ) * 0)).comp (hq.const_mul (n : ℝ))
        rw [mul_zero, cosh_zero] at h
        exact h
      have h2 : Tendsto (fun x : ℝ => x * (cosh (s / √x) - 1)) atTop (𝓝 (s ^ 2 / 2)) := by
        have hup : Tendsto (fun x : ℝ => s ^ 2 / 2 * exp ((s / √x) ^ 2 / 2)) atTop (𝓝 (s ^ 2 / 2)) := by
          have := (((hq.pow 2).div_const 2).rexp).const_mul (s ^ 2 / 2)
          simpa using this
        refine tendsto_of_tendsto_of_tendsto_of_le_of_le' tendsto_const_nhds hup ?_ ?_
        · filter_upwards [eventually_gt_atTop 0] with x hx
          have hu : (s / √x) ^ 2 = s ^ 2 / x := by rw [div_pow, sq_sqrt hx.le]
          have := mul_le_mul_of_nonneg_left (cosh_sub_one_ge (s / √x)) hx.le
          rwa [hu, show x * (s ^ 2 / x / 2) = s ^ 2 / 2 by field_simp] at this
        · filter_upwards [eventually_gt_atTop 0] with x hx
          have hu : (s / √x) ^ 2 = s ^ 2 / x := by rw [div_pow, sq_sqrt hx.le]
          have := mul_le_mul_of_nonneg_left (cosh_sub_one_le (s / √x)) hx.le
          rw [← mul_assoc] at this
          nth_rewrite 1 [hu] at this
          rwa [show x * (s ^ 2 / x / 2) = s ^ 2 / 2 by field_simp] at this
      have h3 := (h2.neg.rexp).mul h1
      rw [mul_one, show -(s ^ 2 / 2) = -(1 / 2) * s ^ 2 by ring] at h3
      refine h3.congr fun x => ?_
      rw [neg_mul]
  refine hlim.congr' ?_
  filter_upwards [eventually_gt_atTop 0] with x hx
  rw [kW_eq n hx]

theorem inv_tendsto : Tendsto (fun x : ℝ => 1 / x) atTop (𝓝 0) := by simpa using tendsto_inv_atTop_zero (𝕜 := ℝ)

theorem kP0_tendsto : Tendsto kP0 atTop (𝓝 0) := by
  have h0 := kW_tendsto (n := 0) (by norm_num)
  have h1 := kW_tendsto (n := 1) le_rfl
  have ht : Tendsto (fun x : ℝ => 1 / (2 * x)) atTop (𝓝 0) := by
    have := inv_tendsto.const_mul (1 / 2)
    rw [mul_zero] at this
    refine this.congr fun x => ?_
    rw [one_div_mul_one_div]
  have h := (h0.sub h1).add (h0.mul ht)
  rw [sub_self, mul_zero, add_zero] at h
  exact h

theorem kP1_tendsto : Tendsto kP1 atTop (𝓝 0) := by
  have h0 := kW_tendsto (n := 0) (by norm_num)
  have h1 := kW_tendsto (n := 1) le_rfl
  have ht : Tendsto (fun x : ℝ => 1 / (2 * x)) atTop (𝓝 0) := by
    have := inv_tendsto.const_mul (1 / 2)
    rw [mul_zero] at this
    refine this.congr fun x => ?_
    rw [one_div_mul_one_div]
  have h := (h1.sub h0).sub (h1.mul ht)
  rw [sub_self, mul_zero, sub_zero] at h
  exact h

/-! ## Errors -/

/-- the difference from a solution that is recessive at infinity is controlled by the residual and the difference at infinity -/
theorem damp_back {e p γ H H1 J : ℝ → ℝ} {c E : ℝ} (he : ∀ x, 1 ≤ x → HasDerivAt e (p x) x)
    (hp : ∀ x, 1 ≤ x → HasDerivAt p (2 * p x + (1 / x) ^ 2 * (c * e x + γ x)) x) (hc : |c| ≤ 3 / 4) (hE : Tendsto e atTop (𝓝 E)) (hp0 : Tendsto p atTop (𝓝 0))
    (hH : ∀ t, HasDerivAt H (H1 t) t) (hJ : ∀ t, HasDerivAt J (H t) t) (hH0 : ∀ t, 0 ≤ t → t ≤ 1 → 0 ≤ H t)
    (hγ : ∀ x, 1 ≤ x → |γ x| ≤ 2 * (1 + 1 / x) * H (1 / x) + (1 / x) ^ 2 * H1 (1 / x)) {X : ℝ} (hX : 1 ≤ X) : |e X| ≤ 8 / 5 * (|E| + (J 1 - J 0)) := by
  have ht : ∀ x : ℝ, 1 ≤ x → 0 < 1 / x ∧ 1 / x ≤ 1 := fun x hx => ⟨by positivity, by rw [div_le_one (by linarith)]; exact hx⟩
  have ce : ContinuousOn e (Ici 1) := fun x hx => (he x hx).continuousAt.continuousWithinAt
  -- the largest value
  have hbd : BddAbove ((fun x => |e x|) '' Ici 1) := by
    obtain ⟨Y, hY⟩ := eventually_atTop.1 ((hE.abs).eventually (gt_mem_nhds (show |E| < |E| + 1 by linarith)))
    obtain ⟨B, hB⟩ := (isCompact_Icc (a := (1 : ℝ)) (b := max 1 Y)).bddAbove_image ((ce.mono Icc_subset_Ici_self).abs)
    refine ⟨max B (|E| + 1), ?_⟩
    rintro _ ⟨x, hx, rfl⟩
    by_cases h : x ≤ max 1 Y
    · exact le_max_of_le_left (hB ⟨x, ⟨hx, h⟩, rfl⟩)
    · exact le_max_of_le_right (hY x (le_of_max_le_right (not_le.1 h).le)).le
  obtain ⟨m, hm⟩ : ∃ m, m = sSup ((fun x => |e x|) '' Ici 1) := ⟨_, rfl⟩
  have hme : ∀ x, 1 ≤ x → |e x| ≤ m := fun x hx => hm ▸ le_csSup hbd ⟨x, hx, rfl⟩
  have hm0 : 0 ≤ m := (abs_nonneg _).trans (hme 1 le_rfl)
  obtain ⟨q, hq⟩ : ∃ q, q = 3 / 8 * m := ⟨_, rfl⟩
  have hq0 : 0 ≤ q := by rw [hq]; positivity
  have hce : ∀ x, 1 ≤ x → |c * e x + γ x| ≤ 2 * q + (2 * (1 + 1 / x) * H (1 / x) + (1 / x) ^ 2 * H1 (1 / x)) := by
    intro x hx
    refine (abs_add_le _ _).trans (add_le_add ?_ (hγ x hx))
    rw [abs_mul, hq]
    refine (mul_le_mul hc (hme x hx) (abs_nonneg _) (by norm_num)).trans (le_of_eq (by ring))
  have hinv : ∀ x : ℝ, 1 ≤ x → HasDerivAt (fun x : ℝ => 1 / x) (-(1 / x) ^ 2) x := fun x hx => inv_deriv' (by linarith)
  -- the derivative
  have hpb : ∀ s : ℝ, (s = 1 ∨ s = -1) → ∀ x, 1 ≤ x → s * p x ≤ (1 / x) ^ 2 * (q + H (1 / x)) := by
    intro s hs x hx
    obtain ⟨f, hf⟩ : ∃ f : ℝ → ℝ, f = fun x => exp (-2 * x) * (s * p x - (1 / x) ^ 2 * (q + H (1 / x))) := ⟨_, rfl⟩
    have df : ∀ y, 1 ≤ y → HasDerivAt f (exp (-2 * y) * ((1 / y) ^ 2 * (s * (c * e y + γ y) + 2 * (q + H (1 / y)) + 2 * (1 / y) * (q + H (1 / y)) + (1 / y) ^ 2 * H1 (1 / y)))) y := by
      intro y hy
      have d1 : HasDerivAt (fun y : ℝ => exp (-2 * y)) (exp (-2 * y) * -2) y := by
        have := ((hasDerivAt_id y).const_mul (-2)).exp
        simpa using this
      have d2 : HasDerivAt (fun y : ℝ => H (1 / y)) (H1 (1 / y) * -(1 / y) ^ 2) y := (hH (1 / y)).comp y (hinv y hy)
      have d3 := d1.mul (((hp y hy).const_mul s).sub (((hinv y hy).pow 2).mul (d2.const_add q)))
      rw [hf]
      refine HasDerivAt.congr_deriv d3 ?_
      simp only [Pi.sub_apply, Pi.mul_apply, Pi.pow_apply, Pi.add_apply]
      push_cast
      ring
    have mono : MonotoneOn f (Ici 1) := by
      refine monotoneOn_of_deriv_nonneg (convex_Ici 1) (fun y hy => (df y hy).continuousAt.continuousWithinAt)
        (fun y hy => (df y (interior_subset hy)).differentiableAt.differentiableWithinAt) fun y hy => ?_
      have hy' : 1 ≤ y := interior_subset hy
      rw [(df y hy').deriv]
      have h1 := abs_le.1 (hce y hy')
      have h2 := (ht y hy').1
      have h3 : -(2 * q + (2 * (1 + 1 / y) * H (1 / y) + (1 / y) ^ 2 * H1 (1 / y))) ≤ s * (c * e y + γ y) := by
        rcases hs with rfl | rfl
        · linarith [h1.1]
        · linarith [h1.2]
      have h4 : 0 ≤ 2 * (1 / y) * q := by positivity
      refine mul_nonneg (exp_pos _).le (mul_nonneg (sq_nonneg _) ?_)
      linarith
    have lim : Tendsto f atTop (𝓝 0) := by
      have l1 : Tendsto (fun y : ℝ => exp (-2 * y)) atTop (𝓝 0) := by
        have := tendsto_exp_neg_atTop_nhds_zero.comp (tendsto_id.const_mul_atTop (show (0 : ℝ) < 2 by norm_num))
        refine this.congr fun y => ?_
        simp
      have l2 : Tendsto (fun y : ℝ => H (1 / y)) atTop (𝓝 (H 0)) := ((hH 0).continuousAt.tendsto).comp inv_tendsto
      have := l1.mul ((hp0.const_mul s).sub ((inv_tendsto.pow 2).mul (l2.const_add q)))
      rw [zero_mul] at this
      rw [hf]
      exact this
    have hle : f x ≤ 0 := by
      refine ge_of_tendsto lim ?_
      filter_upwards [eventually_ge_atTop x] with y hy
      exact mono hx (hx.trans hy) hy
    rw [hf] at hle
    have := nonpos_of_mul_nonpos_right hle (exp_pos _)
    linarith
  -- the function
  have heb : ∀ s : ℝ, (s = 1 ∨ s = -1) → ∀ x, 1 ≤ x → s * e x ≤ s * E + (q + (J 1 - J 0)) := by
    intro s hs x hx
    obtain ⟨f, hf⟩ : ∃ f : ℝ → ℝ, f = fun x => s * e x - (q * (1 / x) + J (1 / x)) := ⟨_, rfl⟩
    have df : ∀ y, 1 ≤ y → HasDerivAt f (s * p y + (1 / y) ^ 2 * (q + H (1 / y))) y := by
      intro y hy
      have d2 : HasDerivAt (fun y : ℝ => J (1 / y)) (H (1 / y) * -(1 / y) ^ 2) y := (hJ (1 / y)).comp y (hinv y hy)
      have d3 := ((he y hy).const_mul s).sub (((hinv y hy).const_mul q).add d2)
      rw [hf]
      refine HasDerivAt.congr_deriv d3 ?_
      ring
    have mono : MonotoneOn f (Ici 1) := by
      refine monotoneOn_of_deriv_nonneg (convex_Ici 1) (fun y hy => (df y hy).continuousAt.continuousWithinAt)
        (fun y hy => (df y (interior_subset hy)).differentiableAt.differentiableWithinAt) fun y hy => ?_
      have hy' : 1 ≤ y := interior_subset hy
      rw [(df y hy').deriv]
      have := hpb (-s) (by rcases hs with rfl | rfl <;> simp) y hy'
      linarith
    have lim : Tendsto f atTop (𝓝 (s * E - J 0)) := by
      have l2 : Tendsto (fun y : ℝ => J (1 / y)) atTop (𝓝 (J 0)) := ((hJ 0).continuousAt.tendsto).comp inv_tendsto
      have := (hE.const_mul s).sub ((inv_tendsto.const_mul q).add l2)
      rw [mul_zero, zero_add] at this
      rw [hf]
      exact this
    have hle : f x ≤ s * E - J 0 := by
      refine ge_of_tendsto lim ?_
      filter_upwards [eventually_ge_atTop x] with y hy
      exact mono hx (hx.trans hy) hy
    have hJ1 : J (1 / x) ≤ J 1 := by
      have mJ : MonotoneOn J (Icc 0 1) := by
        refine monotoneOn_of_deriv_nonneg (convex_Icc 0 1) (fun y _ => (hJ y).continuousAt.continuousWithinAt)
          (fun y _ => (hJ y).differentiableAt.differentiableWithinAt) fun y hy => ?_
        rw [(hJ y).deriv]
        exact hH0 y (interior_subset hy).1 (interior_subset hy).2
      exact mJ ⟨(ht x hx).1.le, (ht x hx).2⟩ ⟨zero_le_one, le_rfl⟩ (ht x hx).2
    have hq1 : q * (1 / x) ≤ q := mul_le_of_le_one_right hq0 (ht x hx).2
    rw [hf] at hle
    have hle : s * e x - (q * (1 / x) + J (1 / x)) ≤ s * E - J 0 := hle
    linarith
  have hfin : ∀ x, 1 ≤ x → |e x| ≤ |E| + (q + (J 1 - J 0)) := by
    intro x hx
    have h1 := heb 1 (Or.inl rfl) x hx
    have h2 := heb (-1) (Or.inr rfl) x hx
    have h3 := le_abs_self E
    have h4 := neg_abs_le E
    rw [abs_le]
    constructor <;> linarith
  have hm2 : m ≤ |E| + (q + (J 1 - J 0)) := by
    rw [hm]
    refine csSup_le ⟨_, 1, self_mem_Ici, rfl⟩ ?_
    rintro _ ⟨x, hx, rfl⟩
    exact hfin x hx
  have := hme X hX
  rw [hq] at hm2
  linarith

end Russell.Lab
