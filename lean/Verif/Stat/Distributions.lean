import Verif.Prelude
import Mathlib.Analysis.SpecialFunctions.Pow.Deriv
import Mathlib.Analysis.SpecialFunctions.Pow.Asymptotics
import Mathlib.Analysis.SpecialFunctions.ExpDeriv
import Mathlib.Analysis.SpecialFunctions.Log.Deriv
import Mathlib.Analysis.SpecialFunctions.Integrals.Basic
import Mathlib.NumberTheory.Harmonic.EulerMascheroni
import Mathlib.Probability.Distributions.Gaussian.Real

/-!
# Probability distributions (property C54)

Model of the density, the distribution function, the mean and the variance in /repo/russell_stat/src/distribution_*.rs over the reals.
The constants `PI`, `SQRT_2`, `SQRT_6`, `SQRT_PI` and `EULER` are exact.  The error function (a rational approximation in the code) is a
parameter of which only the derivative is assumed.  The samplers (crate rand_distr) are not modelled.
-/

namespace Russell.Stat

open Russell Res Real Filter Topology

/-! ## Uniform -/

/-- `DistributionUniform` (/repo/russell_stat/src/distribution_uniform.rs:10-15) -/
structure Uniform where
  xmin : ℝ
  xmax : ℝ

/-- `pdf` (/repo/russell_stat/src/distribution_uniform.rs:50-58) -/
noncomputable def Uniform.pdf (d : Uniform) (x : ℝ) : ℝ :=
  if x < d.xmin then 0 else if x > d.xmax then 0 else 1 / (d.xmax - d.xmin)

/-- `cdf` (/repo/russell_stat/src/distribution_uniform.rs:73-81) -/
noncomputable def Uniform.cdf (d : Uniform) (x : ℝ) : ℝ :=
  if x < d.xmin then 0 else if x > d.xmax then 1 else (x - d.xmin) / (d.xmax - d.xmin)

/-- `mean` (/repo/russell_stat/src/distribution_uniform.rs:96-98) -/
noncomputable def Uniform.mean (d : Uniform) : ℝ := (d.xmin + d.xmax) / 2

/-- `variance` (/repo/russell_stat/src/distribution_uniform.rs:113-115) -/
noncomputable def Uniform.variance (d : Uniform) : ℝ := (d.xmax - d.xmin) * (d.xmax - d.xmin) / 12

/-! ## Gumbel -/

/-- `DistributionGumbel` (/repo/russell_stat/src/distribution_gumbel.rs:13-18) -/
structure Gumbel where
  location : ℝ
  scale : ℝ

/-- `new_from_mu_sig` (/repo/russell_stat/src/distribution_gumbel.rs:41-49) -/
noncomputable def Gumbel.newFromMuSig (mu sig : ℝ) : Gumbel :=
  let scale := sig * √6 / π
  { location := mu - eulerMascheroniConstant * scale, scale }

/-- `pdf` (/repo/russell_stat/src/distribution_gumbel.rs:71-74) -/
noncomputable def Gumbel.pdf (d : Gumbel) (x : ℝ) : ℝ :=
  let mz := (d.location - x) / d.scale
  exp mz * exp (-exp mz) / d.scale

/-- `cdf` (/repo/russell_stat/src/distribution_gumbel.rs:94-97) -/
noncomputable def Gumbel.cdf (d : Gumbel) (x : ℝ) : ℝ :=
  let mz := (d.location - x) / d.scale
  exp (-exp mz)

/-- `mean` (/repo/russell_stat/src/distribution_gumbel.rs:113-115) -/
noncomputable def Gumbel.mean (d : Gumbel) : ℝ := d.location + eulerMascheroniConstant * d.scale

/-- `variance` (/repo/russell_stat/src/distribution_gumbel.rs:133-135) -/
noncomputable def Gumbel.variance (d : Gumbel) : ℝ := d.scale * d.scale * π * π / 6

/-! ## Fréchet -/

/-- `DistributionFrechet` (/repo/russell_stat/src/distribution_frechet.rs:15-21) -/
structure Frechet where
  location : ℝ
  scale : ℝ
  shape : ℝ

/-- `FRECHET_MIN_DELTA_X` (/repo/russell_stat/src/distribution_frechet.rs:6) -/
noncomputable def frechetMinDeltaX : ℝ := 1e-15

/-- `pdf` (/repo/russell_stat/src/distribution_frechet.rs:57-63) -/
noncomputable def Frechet.pdf (d : Frechet) (x : ℝ) : ℝ :=
  if x - d.location < frechetMinDeltaX then 0
  else
    let z := (x - d.location) / d.scale
    exp (-z ^ (-d.shape)) * z ^ (-1 - d.shape) * d.shape / d.scale

/-- `cdf` (/repo/russell_stat/src/distribution_frechet.rs:84-90) -/
noncomputable def Frechet.cdf (d : Frechet) (x : ℝ) : ℝ :=
  if x - d.location < frechetMinDeltaX then 0
  else
    let z := (x - d.location) / d.scale
    exp (-z ^ (-d.shape))

/-! ## Normal -/

/-- `DistributionNormal` (/repo/russell_stat/src/distribution_normal.rs:11-18) -/
structure Normal where
  mu : ℝ
  sig : ℝ
  a : ℝ
  b : ℝ

/-- `new` (/repo/russell_stat/src/distribution_normal.rs:27-35) -/
noncomputable def Normal.new (mu sig : ℝ) : Normal := { mu, sig, a := 1 / (sig * √2 * √π), b := -1 / (2 * sig * sig) }

/-- `pdf` (/repo/russell_stat/src/distribution_normal.rs:53-55) -/
noncomputable def Normal.pdf (d : Normal) (x : ℝ) : ℝ := d.a * exp (d.b * (x - d.mu) ^ 2)

/-- `cdf` (/repo/russell_stat/src/distribution_normal.rs:71-73) -/
noncomputable def Normal.cdf (erf : ℝ → ℝ) (d : Normal) (x : ℝ) : ℝ := (1 + erf ((x - d.mu) / (d.sig * √2))) / 2

/-- `mean` (/repo/russell_stat/src/distribution_normal.rs:88-90) -/
def Normal.mean (d : Normal) : ℝ := d.mu

/-- `variance` (/repo/russell_stat/src/distribution_normal.rs:105-107) -/
def Normal.variance (d : Normal) : ℝ := d.sig * d.sig

/-! ## Lognormal -/

/-- `DistributionLognormal` (/repo/russell_stat/src/distribution_lognormal.rs:13-20) -/
structure Lognormal where
  mu_logx : ℝ
  sig_logx : ℝ
  a : ℝ
  b : ℝ

/-- `LOGNORMAL_MIN_X` (/repo/russell_stat/src/distribution_lognormal.rs:6) -/
noncomputable def lognormalMinX : ℝ := 1e-15

/-- `new` (/repo/russell_stat/src/distribution_lognormal.rs:29-37) -/
noncomputable def Lognormal.new (mu_logx sig_logx : ℝ) : Lognormal :=
  { mu_logx, sig_logx, a := 1 / (sig_logx * √2 * √π), b := -1 / (2 * sig_logx * sig_logx) }

/-- `new_from_mu_sig` (/repo/russell_stat/src/distribution_lognormal.rs:47-59) -/
noncomputable def Lognormal.newFromMuSig (mu sig : ℝ) : Lognormal :=
  let d := sig / mu
  let v := log (1 + d * d)
  let sig_logx := √v
  let mu_logx := log mu - v / 2
  { mu_logx, sig_logx, a := 1 / (sig_logx * √2 * √π), b := -1 / (2 * sig_logx * sig_logx) }

/-- `pdf` (/repo/russell_stat/src/distribution_lognormal.rs:78-83) -/
noncomputable def Lognormal.pdf (d : Lognormal) (x : ℝ) : ℝ :=
  if x < lognormalMinX then 0 else d.a * exp (d.b * (log x - d.mu_logx) ^ 2) / x

/-- `cdf` (/repo/russell_stat/src/distribution_lognormal.rs:100-105) -/
noncomputable def Lognormal.cdf (erf : ℝ → ℝ) (d : Lognormal) (x : ℝ) : ℝ :=
  if x < lognormalMinX then 0 else (1 + erf ((log x - d.mu_logx) / (d.sig_logx * √2))) / 2

/-- `mean` (/repo/russell_stat/src/distribution_lognormal.rs:122-124) -/
noncomputable def Lognormal.mean (d : Lognormal) : ℝ := exp (d.mu_logx + d.sig_logx * d.sig_logx / 2)

/-- `variance` (/repo/russell_stat/src/distribution_lognormal.rs:141-144) -/
noncomputable def Lognormal.variance (d : Lognormal) : ℝ :=
  let ss := d.sig_logx * d.sig_logx
  (exp ss - 1) * exp (2 * d.mu_logx + ss)

/-! ## Properties -/

/-- what makes `F` a distribution function: monotone, between 0 and 1, with these limits -/
structure IsCdf (F : ℝ → ℝ) : Prop where
  mono : Monotone F
  range : ∀ x, 0 ≤ F x ∧ F x ≤ 1
  bot : Tendsto F atBot (𝓝 0)
  top : Tendsto F atTop (𝓝 1)

/-- C54: the uniform distribution function. -/
theorem C54_uniform_cdf {d : Uniform} (h : d.xmin < d.xmax) :
    IsCdf d.cdf ∧ (∀ x, 0 ≤ d.pdf x) ∧ (∀ x, x ≠ d.xmin → x ≠ d.xmax → HasDerivAt d.cdf (d.pdf x) x) := by
  have hp : 0 < d.xmax - d.xmin := sub_pos.2 h
  refine ⟨⟨?_, ?_, ?_, ?_⟩, ?_, ?_⟩
  · intro x y hxy
    unfold Uniform.cdf
    split_ifs with h1 h2 h3 h4 h5 h6 h7 <;> try linarith
    · exact div_nonneg (by linarith) hp.le
    · rw [div_le_one hp]; linarith
    · exact div_le_div_of_nonneg_right (by linarith) hp.le
  · intro x
    unfold Uniform.cdf
    split_ifs with h1 h2
    · norm_num
    · norm_num
    constructor
    · exact div_nonneg (by linarith) hp.le
    · rw [div_le_one hp]; linarith
  · refine tendsto_const_nhds.congr' ?_
    filter_upwards [eventually_lt_atBot d.xmin] with x hx
    unfold Uniform.cdf
    rw [if_pos hx]
  · refine tendsto_const_nhds.congr' ?_
    filter_upwards [eventually_gt_atTop d.xmax] with x hx
    unfold Uniform.cdf
    rw [if_neg (by linarith), if_pos hx]
  · intro x
    unfold Uniform.pdf
    split_ifs
    · exact le_refl _
    · exact le_refl _
    · exact (one_div_pos.2 hp).le
  · intro x h1 h2
    rcases lt_or_gt_of_ne h1 with h1 | h1
    · have : d.pdf x = 0 := by unfold Uniform.pdf; rw [if_pos h1]
      rw [this]
      refine (hasDerivAt_const x (0 : ℝ)).congr_of_eventuallyEq ?_
      filter_upwards [eventually_lt_nhds h1] with y hy
      unfold Uniform.cdf; rw [if_pos hy]
    rcases lt_or_gt_of_ne h2 with h2 | h2
    · have : d.pdf x = 1 / (d.xmax - d.xmin) := by unfold Uniform.pdf; rw [if_neg (by linarith), if_neg (by linarith)]
      rw [this]
      refine (((hasDerivAt_id x).sub_const d.xmin).div_const (d.xmax - d.xmin)).congr_of_eventuallyEq ?_
      filter_upwards [eventually_lt_nhds h2, eventually_gt_nhds h1] with y hy hy'
      unfold Uniform.cdf; rw [if_neg (by linarith), if_neg (by linarith)]; rfl
    · have : d.pdf x = 0 := by unfold Uniform.pdf; rw [if_neg (by linarith), if_pos h2]
      rw [this]
      refine (hasDerivAt_const x (1 : ℝ)).congr_of_eventuallyEq ?_
      filter_upwards [eventually_gt_nhds h2] with y hy
      unfold Uniform.cdf; rw [if_neg (by linarith), if_pos hy]

/-- C54: mean and variance of the uniform distribution are the moments of the density. -/
theorem C54_uniform_moments {d : Uniform} (h : d.xmin < d.xmax) :
    ∫ x in d.xmin..d.xmax, d.pdf x = 1 ∧ ∫ x in d.xmin..d.xmax, x * d.pdf x = d.mean ∧
    ∫ x in d.xmin..d.xmax, (x - d.mean) ^ 2 * d.pdf x = d.variance := by
  have hp : d.xmax - d.xmin ≠ 0 := (sub_pos.2 h).ne'
  have hpdf : ∀ x ∈ Set.uIcc d.xmin d.xmax, d.pdf x = 1 / (d.xmax - d.xmin) := by
    intro x hx
    rw [Set.uIcc_of_le h.le] at hx
    unfold Uniform.pdf
    rw [if_neg (not_lt.2 hx.1), if_neg (not_lt.2 hx.2)]
  refine ⟨?_, ?_, ?_⟩
  · rw [intervalIntegral.integral_congr hpdf]
    simp
    field_simp
  · rw [intervalIntegral.integral_congr (g := fun x => x * (1 / (d.xmax - d.xmin))) (fun x hx => by dsimp only; rw [hpdf x hx]), intervalIntegral.integral_mul_const, integral_id]
    unfold Uniform.mean
    field_simp
    ring
  · rw [intervalIntegral.integral_congr (g := fun x => (x - d.mean) ^ 2 * (1 / (d.xmax - d.xmin))) (fun x hx => by dsimp only; rw [hpdf x hx]), intervalIntegral.integral_mul_const,
      intervalIntegral.integral_comp_sub_right (fun x => x ^ 2), integral_pow]
    unfold Uniform.mean Uniform.variance
    field_simp
    ring

/-- C54: the Gumbel distribution function. -/
theorem C54_gumbel_cdf {d : Gumbel} (h : 0 < d.scale) :
    IsCdf d.cdf ∧ (∀ x, 0 < d.pdf x) ∧ (∀ x, HasDerivAt d.cdf (d.pdf x) x) := by
  refine ⟨⟨?_, ?_, ?_, ?_⟩, ?_, ?_⟩
  · intro x y hxy
    unfold Gumbel.cdf
    exact exp_le_exp.2 (neg_le_neg (exp_le_exp.2 (div_le_div_of_nonneg_right (by linarith) h.le)))
  · intro x
    unfold Gumbel.cdf
    refine ⟨(exp_pos _).le, ?_⟩
    rw [exp_le_one_iff]
    linarith [exp_pos ((d.location - x) / d.scale)]
  · unfold Gumbel.cdf
    have h1 : Tendsto (fun x : ℝ => (d.location - x) / d.scale) atBot atTop := by
      apply Tendsto.atTop_div_const h
      exact tendsto_atTop_add_const_left _ _ (tendsto_neg_atBot_atTop) |>.congr (fun x => by ring)
    exact tendsto_exp_atBot.comp (tendsto_neg_atTop_atBot.comp (tendsto_exp_atTop.comp h1))
  · unfold Gumbel.cdf
    have h1 : Tendsto (fun x : ℝ => (d.location - x) / d.scale) atTop atBot := by
      apply Tendsto.atBot_div_const h
      exact tendsto_atBot_add_const_left _ _ (tendsto_neg_atTop_atBot) |>.congr (fun x => by ring)
    have h2 := (tendsto_exp_atBot.comp h1).neg
    rw [neg_zero] at h2
    have := (continuous_exp.tendsto 0).comp h2
    rw [exp_zero] at this
    exact this
  · intro x
    unfold Gumbel.pdf
    positivity
  · intro x
    have h1 : HasDerivAt (fun x : ℝ => (d.location - x) / d.scale) (-1 / d.scale) x :=
      ((hasDerivAt_id x).const_sub d.location).div_const d.scale
    have h2 : HasDerivAt (fun x : ℝ => -exp ((d.location - x) / d.scale)) (-(exp ((d.location - x) / d.scale) * (-1 / d.scale))) x := h1.exp.neg
    have := h2.exp
    unfold Gumbel.pdf Gumbel.cdf
    convert this using 1
    field_simp

/-- C54: a Gumbel distribution made from a mean and a standard deviation reports them. -/
theorem C54_gumbel_mu_sig (mu sig : ℝ) : (Gumbel.newFromMuSig mu sig).mean = mu ∧ (Gumbel.newFromMuSig mu sig).variance = sig ^ 2 := by
  unfold Gumbel.newFromMuSig Gumbel.mean Gumbel.variance
  dsimp only
  refine ⟨by ring, ?_⟩
  have h6 : √(6 : ℝ) ^ 2 = 6 := Real.sq_sqrt (by norm_num)
  have := pi_ne_zero
  field_simp
  linear_combination sig ^ 2 * h6

/-- C54: the Fréchet distribution function; the jump at the cut-off is part of the claim. -/
theorem C54_frechet_cdf {d : Frechet} (h : 0 < d.scale) (hs : 0 < d.shape) :
    IsCdf d.cdf ∧ (∀ x, 0 ≤ d.pdf x) ∧ (∀ x, x ≠ d.location + 1e-15 → HasDerivAt d.cdf (d.pdf x) x) := by
  have heps : (0 : ℝ) < frechetMinDeltaX := by unfold frechetMinDeltaX; norm_num
  have hz : ∀ x, ¬ x - d.location < frechetMinDeltaX → 0 < (x - d.location) / d.scale := fun x hx =>
    div_pos (by linarith [not_lt.1 hx]) h
  refine ⟨⟨?_, ?_, ?_, ?_⟩, ?_, ?_⟩
  · intro x y hxy
    unfold Frechet.cdf
    split_ifs with h1 h2 h2
    · exact le_refl _
    · exact (exp_pos _).le
    · exfalso; linarith
    · apply exp_le_exp.2 (neg_le_neg _)
      exact rpow_le_rpow_of_nonpos (hz x h1) (div_le_div_of_nonneg_right (by linarith) h.le) (by linarith)
  · intro x
    unfold Frechet.cdf
    split_ifs with h1
    · norm_num
    · refine ⟨(exp_pos _).le, exp_le_one_iff.2 (neg_nonpos.2 (rpow_nonneg (hz x h1).le _))⟩
  · refine tendsto_const_nhds.congr' ?_
    filter_upwards [eventually_lt_atBot (d.location + frechetMinDeltaX)] with x hx
    unfold Frechet.cdf
    rw [if_pos (by linarith)]
  · have h1 : Tendsto (fun x : ℝ => (x - d.location) / d.scale) atTop atTop := by
      apply Tendsto.atTop_div_const h
      exact tendsto_atTop_add_const_right _ (-d.location) tendsto_id |>.congr (fun x => by simp [sub_eq_add_neg])
    have h2 := ((tendsto_rpow_neg_atTop hs).comp h1).neg
    rw [neg_zero] at h2
    have h3 := (continuous_exp.tendsto 0).comp h2
    rw [exp_zero] at h3
    refine h3.congr' ?_
    filter_upwards [eventually_gt_atTop (d.location + frechetMinDeltaX)] with x hx
    unfold Frechet.cdf
    rw [if_neg (by linarith)]
    rfl
  · intro x
    unfold Frechet.pdf
    split_ifs with h1
    · exact le_refl _
    · have := hz x h1
      positivity
  · intro x hx
    have hx' : x ≠ d.location + frechetMinDeltaX := hx
    rcases lt_or_gt_of_ne hx' with h1 | h1
    · have : d.pdf x = 0 := by unfold Frechet.pdf; rw [if_pos (by linarith)]
      rw [this]
      refine (hasDerivAt_const x (0 : ℝ)).congr_of_eventuallyEq ?_
      filter_upwards [eventually_lt_nhds h1] with y hy
      unfold Frechet.cdf; rw [if_pos (by linarith)]
    · have hn : ¬ x - d.location < frechetMinDeltaX := by linarith
      have hzx := hz x hn
      have h2 : HasDerivAt (fun x : ℝ => (x - d.location) / d.scale) (1 / d.scale) x := ((hasDerivAt_id x).sub_const d.location).div_const d.scale
      have h3' : HasDerivAt (fun x : ℝ => -((x - d.location) / d.scale) ^ (-d.shape))
          (-(1 / d.scale * -d.shape * ((x - d.location) / d.scale) ^ (-d.shape - 1))) x := (h2.rpow_const (p := -d.shape) (Or.inl hzx.ne')).neg
      have h3 := h3'.exp
      have : d.pdf x = exp (-((x - d.location) / d.scale) ^ (-d.shape)) *
          -(1 / d.scale * -d.shape * ((x - d.location) / d.scale) ^ (-d.shape - 1)) := by
        unfold Frechet.pdf
        rw [if_neg hn]
        dsimp only
        rw [show -1 - d.shape = -d.shape - 1 by ring]
        field_simp
      rw [this]
      refine h3.congr_of_eventuallyEq ?_
      filter_upwards [eventually_gt_nhds h1] with y hy
      unfold Frechet.cdf; rw [if_neg (by linarith)]

/-- the derivative of the error function -/
def IsErf (erf : ℝ → ℝ) : Prop := ∀ x, HasDerivAt erf (2 / √π * exp (-x ^ 2)) x

/-- C54: the density of the normal distribution is the Gaussian one (of Mathlib), and the distribution function is its antiderivative
provided that `erf` is the error function. -/
theorem C54_normal {mu sig : ℝ} (h : 0 < sig) :
    (∀ x, (Normal.new mu sig).pdf x = ProbabilityTheory.gaussianPDFReal mu (NNReal.mk (sig ^ 2) (sq_nonneg sig)) x) ∧
    ∀ erf, IsErf erf → ∀ x, HasDerivAt ((Normal.new mu sig).cdf erf) ((Normal.new mu sig).pdf x) x := by
  have hpi := Real.sqrt_pos.2 pi_pos
  have h2 := Real.sqrt_pos.2 (zero_lt_two (α := ℝ))
  have hs2 : √(2 : ℝ) ^ 2 = 2 := Real.sq_sqrt (by norm_num)
  constructor
  · intro x
    unfold Normal.pdf Normal.new ProbabilityTheory.gaussianPDFReal
    have e1 : √(2 * π * sig ^ 2) = sig * √2 * √π := by
      rw [Real.sqrt_mul (by positivity), Real.sqrt_sq h.le, Real.sqrt_mul (by norm_num)]; ring
    rw [NNReal.coe_mk, e1, one_div]
    congr 2
    field_simp
  · intro erf he x
    have d1 : HasDerivAt (fun x : ℝ => (x - mu) / (sig * √2)) (1 / (sig * √2)) x := ((hasDerivAt_id x).sub_const mu).div_const _
    have d2 := (((he ((x - mu) / (sig * √2))).comp x d1).const_add 1).div_const 2
    have e : -((x - mu) / (sig * √2)) ^ 2 = -1 / (2 * sig * sig) * (x - mu) ^ 2 := by
      rw [div_pow, mul_pow, hs2]; field_simp
    have : (Normal.new mu sig).pdf x = 2 / √π * exp (-((x - mu) / (sig * √2)) ^ 2) * (1 / (sig * √2)) / 2 := by
      unfold Normal.pdf Normal.new
      rw [e]
      dsimp only
      field_simp
    rw [this]
    exact d2

/-- C54: mean and variance of the normal distribution are those of the Gaussian law. -/
theorem C54_normal_moments {mu sig : ℝ} (h : 0 < sig) :
    ∫ x, (Normal.new mu sig).pdf x = 1 ∧
    ∫ x, x ∂(ProbabilityTheory.gaussianReal mu (NNReal.mk (sig ^ 2) (sq_nonneg sig))) = (Normal.new mu sig).mean ∧
    ProbabilityTheory.variance id (ProbabilityTheory.gaussianReal mu (NNReal.mk (sig ^ 2) (sq_nonneg sig))) = (Normal.new mu sig).variance := by
  have hv : (NNReal.mk (sig ^ 2) (sq_nonneg sig)) ≠ 0 := by
    intro h0
    have := congrArg NNReal.toReal h0
    simp at this
    exact h.ne' this
  refine ⟨?_, ProbabilityTheory.integral_id_gaussianReal, ?_⟩
  · rw [show (Normal.new mu sig).pdf = ProbabilityTheory.gaussianPDFReal mu (NNReal.mk (sig ^ 2) (sq_nonneg sig)) from funext (C54_normal h).1]
    exact ProbabilityTheory.integral_gaussianPDFReal_eq_one mu hv
  · rw [ProbabilityTheory.variance_id_gaussianReal]
    unfold Normal.variance Normal.new
    rw [NNReal.coe_mk]
    ring

/-- C54: the distribution function of the lognormal distribution is the antiderivative of its density (away from the cut-off). -/
theorem C54_lognormal {mu sig : ℝ} (h : 0 < sig) : (∀ x, 0 ≤ (Lognormal.new mu sig).pdf x) ∧
    ∀ erf, IsErf erf → ∀ x, x ≠ 1e-15 → HasDerivAt ((Lognormal.new mu sig).cdf erf) ((Lognormal.new mu sig).pdf x) x := by
  have hpi := Real.sqrt_pos.2 pi_pos
  have h2 := Real.sqrt_pos.2 (zero_lt_two (α := ℝ))
  have hs2 : √(2 : ℝ) ^ 2 = 2 := Real.sq_sqrt (by norm_num)
  have heps : (0 : ℝ) < lognormalMinX := by unfold lognormalMinX; norm_num
  constructor
  · intro x
    unfold Lognormal.pdf Lognormal.new
    split_ifs with h1
    · exact le_refl _
    · have : 0 < x := by linarith
      positivity
  · intro erf he x hx
    have hx' : x ≠ lognormalMinX := hx
    rcases lt_or_gt_of_ne hx' with h1 | h1
    · have : (Lognormal.new mu sig).pdf x = 0 := by unfold Lognormal.pdf; rw [if_pos h1]
      rw [this]
      refine (hasDerivAt_const x (0 : ℝ)).congr_of_eventuallyEq ?_
      filter_upwards [eventually_lt_nhds h1] with y hy
      unfold Lognormal.cdf; rw [if_pos hy]
    · have hpos : 0 < x := by linarith
      have d1 : HasDerivAt (fun x : ℝ => (log x - mu) / (sig * √2)) (x⁻¹ / (sig * √2)) x :=
        ((hasDerivAt_log hpos.ne').sub_const mu).div_const _
      have d2 := (((he ((log x - mu) / (sig * √2))).comp x d1).const_add 1).div_const 2
      have e : -((log x - mu) / (sig * √2)) ^ 2 = -1 / (2 * sig * sig) * (log x - mu) ^ 2 := by
        rw [div_pow, mul_pow, hs2]; field_simp
      have : (Lognormal.new mu sig).pdf x = 2 / √π * exp (-((log x - mu) / (sig * √2)) ^ 2) * (x⁻¹ / (sig * √2)) / 2 := by
        unfold Lognormal.pdf Lognormal.new
        rw [if_neg (by linarith), e]
        dsimp only
        field_simp
      rw [this]
      refine d2.congr_of_eventuallyEq ?_
      filter_upwards [eventually_gt_nhds h1] with y hy
      unfold Lognormal.cdf Lognormal.new; rw [if_neg (by linarith)]; rfl

/-- C54: mean and variance of the lognormal distribution are the moments of `exp(X)` for the Gaussian `X`. -/
theorem C54_lognormal_moments {mu sig : ℝ} :
    ∫ x, exp x ∂(ProbabilityTheory.gaussianReal mu (NNReal.mk (sig ^ 2) (sq_nonneg sig))) = (Lognormal.new mu sig).mean ∧
    ∫ x, exp x ^ 2 ∂(ProbabilityTheory.gaussianReal mu (NNReal.mk (sig ^ 2) (sq_nonneg sig))) - (Lognormal.new mu sig).mean ^ 2 =
      (Lognormal.new mu sig).variance := by
  have hm := ProbabilityTheory.mgf_id_gaussianReal (μ := mu) (v := (NNReal.mk (sig ^ 2) (sq_nonneg sig)))
  have h1 := congrFun hm 1
  have h2 := congrFun hm 2
  unfold ProbabilityTheory.mgf at h1 h2
  simp only [id, one_mul, NNReal.coe_mk] at h1 h2
  have e1 : ∫ x, exp x ∂(ProbabilityTheory.gaussianReal mu (NNReal.mk (sig ^ 2) (sq_nonneg sig))) = (Lognormal.new mu sig).mean := by
    rw [h1]
    unfold Lognormal.mean Lognormal.new
    congr 1
    ring
  refine ⟨e1, ?_⟩
  have e2 : (fun x : ℝ => exp x ^ 2) = fun x => exp (2 * x) := by
    funext x
    rw [← exp_nat_mul]
    norm_num
  rw [e2, h2]
  unfold Lognormal.mean Lognormal.variance Lognormal.new
  dsimp only
  rw [sub_mul, one_mul, ← exp_add, ← exp_nat_mul]
  congr 1
  · congr 1; ring
  · congr 1; push_cast; ring

/-- C54: a lognormal distribution made from a positive mean and a standard deviation reports them. -/
theorem C54_lognormal_mu_sig {mu : ℝ} (h : 0 < mu) (sig : ℝ) :
    (Lognormal.newFromMuSig mu sig).mean = mu ∧ (Lognormal.newFromMuSig mu sig).variance = sig ^ 2 := by
  unfold Lognormal.newFromMuSig Lognormal.mean Lognormal.variance
  dsimp only
  have h1 : (1 : ℝ) ≤ 1 + sig / mu * (sig / mu) := by nlinarith [mul_self_nonneg (sig / mu)]
  have hv := log_nonneg h1
  rw [Real.mul_self_sqrt hv, sub_add_cancel, exp_log h]
  refine ⟨rfl, ?_⟩
  rw [exp_log (by linarith), show 2 * (log mu - log (1 + sig / mu * (sig / mu)) / 2) + log (1 + sig / mu * (sig / mu)) = log mu + log mu by ring,
    exp_add, exp_log h]
  field_simp
  ring

/-- the hypotheses are met -/
example : (0 : ℝ) < (Gumbel.newFromMuSig 1 2).scale := by
  unfold Gumbel.newFromMuSig
  have := pi_pos
  positivity

end Russell.Stat
