import Mathlib.MeasureTheory.Integral.IntegralEqImproper
import Mathlib.MeasureTheory.Integral.ExpDecay
import Mathlib.Analysis.SpecialFunctions.Trigonometric.DerivHyp
import Mathlib.Data.EReal.Basic

/-!
Property C109, second part: `bessel_kn` of russell_lab (bessel_mod.rs:263-287).

`Kₙ` is specified by its integral `∫₀^∞ exp(-x cosh t) cosh(nt) dt`, from which the recurrence used by the code is derived.
-/

namespace Russell.Lab

open MeasureTheory Set Real Filter Topology

/-- the modified Bessel function of the second kind of order `n` -/
noncomputable def besselK (n : ℕ) (x : ℝ) : ℝ := ∫ t in Ioi (0 : ℝ), exp (-x * cosh t) * cosh (n * t)

/-- the loop of `bessel_kn` (bessel_mod.rs:281-285), `k` steps beginning with `j` -/
noncomputable def knLoop (tox : ℝ) : ℕ → ℕ → ℝ → ℝ → ℝ
  | 0, _, _, bk => bk
  | k + 1, j, bkm, bk => knLoop tox k (j + 1) bk (bkm + (j : ℝ) * tox * bk)

/-- `bessel_kn` (bessel_mod.rs:263-287) for finite `x`; `none` is NaN, `k0`, `k1` are the values of `bessel_k0` and `bessel_k1` for positive arguments -/
noncomputable def besselKn (k0 k1 : ℝ → ℝ) (n : ℤ) (x : ℝ) : Option EReal :=
  if x < 0 then none
  else if x = 0 then some ⊤
  else if n = 0 then some (k0 x : EReal)
  else if n = 1 then some (k1 x : EReal)
  else some (knLoop (2 / x) (n - 1).toNat 1 (k0 x) (k1 x) : EReal)

theorem cosh_le_exp {t : ℝ} (ht : 0 ≤ t) : cosh t ≤ exp t := by
  rw [cosh_eq]
  have : exp (-t) ≤ exp t := exp_le_exp.2 (by linarith)
  linarith

theorem sq_le_cosh {t : ℝ} : t ^ 2 / 2 ≤ cosh t := by
  have h1 : cosh t = 1 + 2 * sinh (t / 2) ^ 2 := by
    have := cosh_two_mul (t / 2)
    rw [show 2 * (t / 2) = t by ring] at this
    rw [this, cosh_sq]; ring
  have h2 : |t / 2| ≤ |sinh (t / 2)| := by
    rw [abs_sinh]
    exact self_le_sinh_iff.2 (abs_nonneg _)
  have h3 : (t / 2) ^ 2 ≤ sinh (t / 2) ^ 2 := sq_le_sq.2 h2
  nlinarith

/-- the exponent beats every order -/
theorem exp_cosh_bound {x : ℝ} (hx : 0 < x) (n : ℕ) {t : ℝ} (_ : 0 ≤ t) :
    exp (-x * cosh t) * exp (n * t) ≤ exp ((n + 1) ^ 2 / (2 * x)) * exp (-1 * t) := by
  rw [← exp_add, ← exp_add, exp_le_exp]
  have h1 := sq_le_cosh (t := t)
  have h2 : x * (t ^ 2 / 2) ≤ x * cosh t := mul_le_mul_of_nonneg_left h1 hx.le
  have h3 : ((n : ℝ) + 1) * t ≤ x * (t ^ 2 / 2) + (n + 1) ^ 2 / (2 * x) := by
    have : 0 ≤ (x * t - (n + 1)) ^ 2 / (2 * x) := by positivity
    have e : (x * t - ((n : ℝ) + 1)) ^ 2 / (2 * x) = x * (t ^ 2 / 2) + (n + 1) ^ 2 / (2 * x) - (n + 1) * t := by field_simp; ring
    linarith
  linarith

theorem kn_integrable {x : ℝ} (hx : 0 < x) (n : ℕ) (f : ℝ → ℝ) (hf : Continuous f) (hb : ∀ t, 0 ≤ t → |f t| ≤ exp (n * t)) :
    IntegrableOn (fun t => exp (-x * cosh t) * f t) (Ioi 0) := by
  apply integrable_of_isBigO_exp_neg (b := 1) one_pos
  · exact (by fun_prop : Continuous fun t => exp (-x * cosh t) * f t).continuousOn
  · apply Asymptotics.IsBigO.of_bound (exp ((n + 1) ^ 2 / (2 * x)))
    filter_upwards [eventually_ge_atTop 0] with t ht
    rw [norm_eq_abs, norm_eq_abs, abs_mul, abs_exp, abs_exp]
    exact (mul_le_mul_of_nonneg_left (hb t ht) (exp_pos _).le).trans (exp_cosh_bound hx n ht)

theorem abs_cosh_le (n : ℕ) {t : ℝ} (ht : 0 ≤ t) : |cosh (n * t)| ≤ exp (n * t) := by
  rw [abs_of_pos (cosh_pos _)]
  exact cosh_le_exp (by positivity)

theorem abs_sinh_le (n : ℕ) {t : ℝ} (ht : 0 ≤ t) : |sinh (n * t)| ≤ exp (n * t) := by
  rw [abs_of_nonneg (sinh_nonneg_iff.2 (by positivity))]
  exact (sinh_lt_cosh _).le.trans (cosh_le_exp (by positivity))

/-- the recurrence, by partial integration -/
theorem besselK_rec {x : ℝ} (hx : 0 < x) (n : ℕ) : besselK (n + 2) x = besselK n x + (n + 1) * (2 / x) * besselK (n + 1) x := by
  have hint : ∀ k : ℕ, IntegrableOn (fun t => exp (-x * cosh t) * cosh (k * t)) (Ioi 0) := fun k =>
    kn_integrable hx k _ (by fun_prop) fun t ht => abs_cosh_le k ht
  have hd : ∀ t ∈ Ici (0 : ℝ), HasDerivAt (fun t => exp (-x * cosh t) * sinh ((n + 1 : ℕ) * t))
      (((n + 1 : ℕ) : ℝ) * (exp (-x * cosh t) * cosh ((n + 1 : ℕ) * t))
        - x / 2 * (exp (-x * cosh t) * cosh ((n + 2 : ℕ) * t) - exp (-x * cosh t) * cosh ((n : ℕ) * t))) t := by
    intro t _
    have h1 : HasDerivAt (fun t => exp (-x * cosh t)) (exp (-x * cosh t) * (-x * sinh t)) t := ((hasDerivAt_cosh t).const_mul (-x)).exp
    have h2 : HasDerivAt (fun t : ℝ => ((n + 1 : ℕ) : ℝ) * t) ((n + 1 : ℕ) : ℝ) t := by simpa using (hasDerivAt_id t).const_mul (((n + 1 : ℕ) : ℝ))
    have h3 := h1.mul h2.sinh
    refine h3.congr_deriv ?_
    have e1 : (((n + 2 : ℕ) : ℝ)) * t = ((n + 1 : ℕ) : ℝ) * t + t := by push_cast; ring
    have e2 : ((n : ℝ)) * t = ((n + 1 : ℕ) : ℝ) * t - t := by push_cast; ring
    rw [e1, e2, cosh_add, cosh_sub]
    ring
  have hsub : IntegrableOn (fun t => exp (-x * cosh t) * cosh ((n + 2 : ℕ) * t) - exp (-x * cosh t) * cosh ((n : ℕ) * t)) (Ioi 0) :=
    (hint (n + 2)).sub (hint n)
  have hi : IntegrableOn (fun t => ((n + 1 : ℕ) : ℝ) * (exp (-x * cosh t) * cosh ((n + 1 : ℕ) * t))
        - x / 2 * (exp (-x * cosh t) * cosh ((n + 2 : ℕ) * t) - exp (-x * cosh t) * cosh ((n : ℕ) * t))) (Ioi 0) :=
    ((hint (n + 1)).const_mul _).sub (hsub.const_mul _)
  have ht : Tendsto (fun t => exp (-x * cosh t) * sinh ((n + 1 : ℕ) * t)) atTop (𝓝 0) := by
    have hlim : Tendsto (fun t : ℝ => exp ((((n + 1 : ℕ) : ℝ) + 1) ^ 2 / (2 * x)) * exp (-1 * t)) atTop (𝓝 0) := by
      have : Tendsto (fun t : ℝ => exp (-1 * t)) atTop (𝓝 0) := by
        simpa using tendsto_exp_neg_atTop_nhds_zero
      simpa using this.const_mul (exp ((((n + 1 : ℕ) : ℝ) + 1) ^ 2 / (2 * x)))
    refine squeeze_zero_norm' ?_ hlim
    filter_upwards [eventually_ge_atTop 0] with t ht
    rw [norm_eq_abs, abs_mul, abs_exp]
    exact (mul_le_mul_of_nonneg_left (abs_sinh_le (n + 1) ht) (exp_pos _).le).trans (exp_cosh_bound hx (n + 1) ht)
  have key := integral_Ioi_of_hasDerivAt_of_tendsto' hd hi ht
  rw [integral_sub ((hint (n + 1)).const_mul _) (hsub.const_mul _), integral_const_mul, integral_const_mul, integral_sub (hint (n + 2)) (hint n)] at key
  change ((n + 1 : ℕ) : ℝ) * besselK (n + 1) x - x / 2 * (besselK (n + 2) x - besselK n x) = _ at key
  simp only [mul_zero, sinh_zero, sub_zero] at key
  push_cast at key
  field_simp
  linarith

theorem knLoop_spec {x : ℝ} (hx : 0 < x) (k i : ℕ) : knLoop (2 / x) k (i + 1) (besselK i x) (besselK (i + 1) x) = besselK (i + 1 + k) x := by
  induction k generalizing i with
  | zero => rfl
  | succ k ih =>
    rw [knLoop]
    have : besselK i x + ((i + 1 : ℕ) : ℝ) * (2 / x) * besselK (i + 1) x = besselK (i + 1 + 1) x := by
      rw [besselK_rec hx i]; push_cast; ring
    rw [this, ih]
    congr 1
    omega

/-- C109: `bessel_kn(n, x)` is `Kₙ(x)` for all orders `n ≥ 0` and `x > 0`, provided that `bessel_k0` and `bessel_k1` are for the orders 0 and 1 -/
theorem C109_kn_exact (k0 k1 : ℝ → ℝ) (x : ℝ) (hx : 0 < x) (h0 : k0 x = besselK 0 x) (h1 : k1 x = besselK 1 x) (n : ℕ) :
    besselKn k0 k1 n x = some (besselK n x : EReal) := by
  unfold besselKn
  rw [if_neg (not_lt.2 hx.le), if_neg hx.ne', h0, h1]
  by_cases hn : n = 0
  · subst hn; simp
  by_cases hn1 : n = 1
  · subst hn1; simp
  rw [if_neg (by omega), if_neg (by omega)]
  have := knLoop_spec hx (n - 1) 0
  simp only [zero_add] at this
  rw [show ((n : ℤ) - 1).toNat = n - 1 by omega, this]
  congr 3
  omega

/-- the errors of `bessel_k0` and `bessel_k1` are not amplified: a common relative error bound is inherited by all orders -/
theorem knLoop_error {x : ℝ} (hx : 0 < x) {δ : ℝ} (k i : ℕ) (a b : ℝ) (ha : |a - besselK i x| ≤ δ * besselK i x)
    (hb : |b - besselK (i + 1) x| ≤ δ * besselK (i + 1) x) :
    |knLoop (2 / x) k (i + 1) a b - besselK (i + 1 + k) x| ≤ δ * besselK (i + 1 + k) x := by
  induction k generalizing i a b with
  | zero => simpa [knLoop] using hb
  | succ k ih =>
    rw [knLoop]
    have := ih (i + 1) b (a + ((i + 1 : ℕ) : ℝ) * (2 / x) * b) hb (by
      rw [besselK_rec hx i]
      have hc : 0 < ((i + 1 : ℕ) : ℝ) * (2 / x) := by positivity
      have e : a + ((i + 1 : ℕ) : ℝ) * (2 / x) * b - (besselK i x + ((i : ℝ) + 1) * (2 / x) * besselK (i + 1) x)
          = (a - besselK i x) + ((i + 1 : ℕ) : ℝ) * (2 / x) * (b - besselK (i + 1) x) := by push_cast; ring
      rw [e]
      refine (abs_add_le _ _).trans ?_
      rw [abs_mul, abs_of_pos hc]
      have := mul_le_mul_of_nonneg_left hb hc.le
      push_cast at *
      linarith)
    rwa [show i + 1 + 1 + k = i + 1 + (k + 1) by omega] at this

/-- C109: relative errors `≤ δ` of `bessel_k0` and `bessel_k1` give a relative error `≤ δ` for every order -/
theorem C109_kn_stable (k0 k1 : ℝ → ℝ) (x : ℝ) (hx : 0 < x) (δ : ℝ) (h0 : |k0 x - besselK 0 x| ≤ δ * besselK 0 x)
    (h1 : |k1 x - besselK 1 x| ≤ δ * besselK 1 x) (n : ℕ) :
    ∃ v : ℝ, besselKn k0 k1 n x = some (v : EReal) ∧ |v - besselK n x| ≤ δ * besselK n x := by
  unfold besselKn
  rw [if_neg (not_lt.2 hx.le), if_neg hx.ne']
  by_cases hn : n = 0
  · subst hn; exact ⟨k0 x, by simp, h0⟩
  by_cases hn1 : n = 1
  · subst hn1; exact ⟨k1 x, by simp, h1⟩
  rw [if_neg (by omega), if_neg (by omega)]
  refine ⟨_, rfl, ?_⟩
  have := knLoop_error hx (n - 1) 0 (k0 x) (k1 x) h0 h1
  simp only [zero_add] at this
  rwa [show 1 + (n - 1) = n by omega, show n - 1 = ((n : ℤ) - 1).toNat by omega] at this

theorem besselK_pos {x : ℝ} (hx : 0 < x) (n : ℕ) : 0 < besselK n x := by
  have hi := kn_integrable hx n (fun t => cosh (n * t)) (by fun_prop) fun t ht => abs_cosh_le n ht
  unfold besselK
  rw [setIntegral_pos_iff_support_of_nonneg_ae]
  · have : Function.support (fun t : ℝ => exp (-x * cosh t) * cosh (n * t)) = univ := by
      ext t
      simp [(cosh_pos _).ne']
    rw [this, univ_inter]
    simp
  · exact Eventually.of_forall fun t => (mul_pos (exp_pos _) (cosh_pos _)).le
  · exact hi

example : |(1 + 1 / 2 ^ 50) * besselK 0 2 - besselK 0 2| ≤ 1 / 2 ^ 50 * besselK 0 2 := by
  have := besselK_pos (x := 2) (by norm_num) 0
  rw [show (1 + 1 / 2 ^ 50) * besselK 0 2 - besselK 0 2 = 1 / 2 ^ 50 * besselK 0 2 by ring, abs_of_pos (by positivity)]

/-- C109: the documented special cases of `bessel_kn` -/
theorem C109_kn_special (k0 k1 : ℝ → ℝ) (n : ℤ) : (∀ x < 0, besselKn k0 k1 n x = none) ∧ besselKn k0 k1 n 0 = some ⊤ :=
  ⟨fun x hx => by simp [besselKn, hx], by simp [besselKn]⟩

/-- negative orders, for which the function is not documented, give `K₁` instead of `K₋ₙ = Kₙ` -/
theorem C109_kn_negative_counterexample (k0 k1 : ℝ → ℝ) (x : ℝ) (hx : 0 < x) (h1 : k1 x = besselK 1 x) :
    besselKn k0 k1 (-2) x = some (besselK 1 x : EReal) ∧ besselK 1 x < besselK 2 x := by
  constructor
  · unfold besselKn
    rw [if_neg (not_lt.2 hx.le), if_neg hx.ne', if_neg (by norm_num), if_neg (by norm_num), h1]
    rfl
  · have hi : ∀ k : ℕ, IntegrableOn (fun t => exp (-x * cosh t) * cosh (k * t)) (Ioi 0) := fun k =>
      kn_integrable hx k _ (by fun_prop) fun t ht => abs_cosh_le k ht
    have hpos : 0 < ∫ t in Ioi (0 : ℝ), (exp (-x * cosh t) * cosh ((2 : ℕ) * t) - exp (-x * cosh t) * cosh ((1 : ℕ) * t)) := by
      have hlt : ∀ t ∈ Ioi (0 : ℝ), 0 < exp (-x * cosh t) * cosh ((2 : ℕ) * t) - exp (-x * cosh t) * cosh ((1 : ℕ) * t) := by
        intro t ht
        have ht' : 0 < t := ht
        rw [← mul_sub]
        refine mul_pos (exp_pos _) (sub_pos.2 (cosh_lt_cosh.2 ?_))
        rw [abs_of_pos (by push_cast; linarith), abs_of_pos (by push_cast; linarith)]
        push_cast; linarith
      rw [setIntegral_pos_iff_support_of_nonneg_ae]
      · refine lt_of_lt_of_le (b := volume (Ioi (0 : ℝ))) (by simp) (measure_mono fun t ht => ⟨(hlt t ht).ne', ht⟩)
      · exact (ae_restrict_iff' measurableSet_Ioi).2 (Eventually.of_forall fun t ht => (hlt t ht).le)
      · exact (hi 2).sub (hi 1)
    rw [integral_sub (hi 2) (hi 1)] at hpos
    exact sub_pos.1 hpos

end Russell.Lab
