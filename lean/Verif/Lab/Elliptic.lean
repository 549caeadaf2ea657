import Verif.Lab.CarlsonConv
import Mathlib.Analysis.SpecialFunctions.Trigonometric.Deriv
import Mathlib.Analysis.SpecialFunctions.Trigonometric.Inverse
import Mathlib.MeasureTheory.Integral.IntervalIntegral.Basic
import Mathlib.Analysis.Real.Pi.Bounds

/-!
# Elliptic integrals `elliptic_f` and `elliptic_e` (property C107)

Model of russell_lab/src/math/elliptic.rs:54-151 in exact real arithmetic, with the constant `PI` taken as the number `π`.
-/

namespace Russell.Lab

open MeasureTheory Set Real Russell Russell.Res

/-- Legendre's integral of the first kind, as documented at elliptic.rs:7-13 -/
noncomputable def legendreF (φ m : ℝ) : ℝ := ∫ θ in (0 : ℝ)..φ, 1 / √(1 - m * sin θ ^ 2)

/-- Legendre's integral of the second kind, as documented at elliptic.rs:83-89 -/
noncomputable def legendreE (φ m : ℝ) : ℝ := ∫ θ in (0 : ℝ)..φ, √(1 - m * sin θ ^ 2)

/-- `elliptic_f` (elliptic.rs:54-78); `⊤` is `f64::INFINITY` -/
noncomputable def ellipticF (phi m : ℝ) : Res (WithTop ℝ) :=
  if phi < 0 ∨ m < 0 then .err "phi and m must be non-negative"
  else if phi > π / 2 + f64Epsilon then .err "phi must be in 0 ≤ phi ≤ π/2"
  else if phi < f64MinPos then .ok ((0 : ℝ) : WithTop ℝ)
  else if m < f64MinPos then .ok (phi : WithTop ℝ)
  else
    let s := sin phi
    let mss := m * s * s
    if mss > 1 then .err "m must satisfy: 0 ≤ m·sin²(φ) ≤ 1"
    else if |mss - 1| < 10 * f64Epsilon then .ok ⊤
    else
      let c := cos phi
      let cc := c * c
      let q := 1 - mss
      (rf cc q 1).bind fun v => .ok ((s * v : ℝ) : WithTop ℝ)

/-- `elliptic_e` (elliptic.rs:128-151) -/
noncomputable def ellipticE (phi m : ℝ) : Res ℝ :=
  if phi < 0 ∨ m < 0 then .err "phi and m must be non-negative"
  else if phi > π / 2 + f64Epsilon then .err "phi must be in 0 ≤ phi ≤ π/2"
  else if phi < f64MinPos then .ok 0
  else if m < f64MinPos then .ok phi
  else
    let s := sin phi
    let c := cos phi
    let cc := c * c
    let mss := m * s * s
    if mss > 1 then .err "m must satisfy: 0 ≤ m·sin²(φ) ≤ 1"
    else
      let q := 1 - mss
      (rf cc q 1).bind fun v => (rd cc q 1).bind fun w => .ok (s * (v - mss * w / 3))

/-! ## From Legendre's to Carlson's integrals -/

/-- the substitution `t = sin²φ / sin²θ - 1` -/
noncomputable def legMap (φ θ : ℝ) : ℝ := sin φ ^ 2 / sin θ ^ 2 - 1

theorem sin_pos_of_mem {φ θ : ℝ} (hφ : φ ≤ π / 2) (h : θ ∈ Ioo 0 φ) : 0 < sin θ :=
  sin_pos_of_pos_of_lt_pi h.1 (by linarith [h.2, pi_pos])

theorem cos_pos_of_mem {φ θ : ℝ} (hφ : φ ≤ π / 2) (h : θ ∈ Ioo 0 φ) : 0 < cos θ :=
  cos_pos_of_mem_Ioo ⟨by linarith [h.1, pi_pos], by linarith [h.2]⟩

theorem sin_lt_of_mem {φ θ : ℝ} (hφ : φ ≤ π / 2) (h : θ ∈ Ioo 0 φ) : sin θ < sin φ :=
  sin_lt_sin_of_lt_of_le_pi_div_two (by linarith [h.1, pi_pos]) hφ h.2

theorem legMap_deriv {φ θ : ℝ} (hφ : φ ≤ π / 2) (h : θ ∈ Ioo 0 φ) :
    HasDerivAt (legMap φ) (-(2 * sin φ ^ 2 * cos θ / sin θ ^ 3)) θ := by
  have hs := sin_pos_of_mem hφ h
  have h1 := ((hasDerivAt_sin θ).pow 2)
  have h2 := ((hasDerivAt_const θ (sin φ ^ 2)).div h1 (by simp only [Pi.pow_apply]; positivity)).sub_const 1
  refine h2.congr_deriv ?_
  simp only [Pi.pow_apply]
  field_simp
  ring

theorem legMap_image {φ : ℝ} (h0 : 0 < φ) (hφ : φ ≤ π / 2) : legMap φ '' Ioo 0 φ = Ioi 0 := by
  have hs : 0 < sin φ := sin_pos_of_pos_of_lt_pi h0 (by linarith [pi_pos])
  ext t
  constructor
  · rintro ⟨θ, h, rfl⟩
    have h1 := sin_pos_of_mem hφ h
    have h2 := sin_lt_of_mem hφ h
    show 0 < sin φ ^ 2 / sin θ ^ 2 - 1
    have : 1 < sin φ ^ 2 / sin θ ^ 2 := by
      rw [one_lt_div (by positivity)]
      gcongr
    linarith
  · intro ht
    have ht : (0 : ℝ) < t := ht
    have hq : 1 < √(t + 1) := by
      rw [Real.lt_sqrt (by norm_num)]; linarith
    have ha : 0 < sin φ / √(t + 1) := by positivity
    have hb : sin φ / √(t + 1) < sin φ := div_lt_self hs hq
    have hc := sin_le_one φ
    refine ⟨arcsin (sin φ / √(t + 1)), ⟨arcsin_pos.2 ha, ?_⟩, ?_⟩
    · have := strictMonoOn_arcsin ⟨by linarith, by linarith⟩ ⟨by linarith, hc⟩ hb
      rwa [arcsin_sin (by linarith [pi_pos]) hφ] at this
    · unfold legMap
      rw [sin_arcsin (by linarith) (by linarith), div_pow, Real.sq_sqrt (by linarith)]
      field_simp
      ring

theorem legMap_inj {φ : ℝ} (hφ : φ ≤ π / 2) : InjOn (legMap φ) (Ioo 0 φ) := by
  intro a ha b hb h
  have h1 := sin_pos_of_mem hφ ha
  have h2 := sin_pos_of_mem hφ hb
  have h3 := sin_lt_of_mem hφ ha
  unfold legMap at h
  have h4 : sin φ ^ 2 / sin a ^ 2 = sin φ ^ 2 / sin b ^ 2 := by linarith
  have h5 : 0 < sin φ := by linarith
  have h6 : sin a ^ 2 = sin b ^ 2 := by
    field_simp at h4
    exact h4.symm
  have h7 : sin a = sin b := by
    have := (sq_eq_sq₀ h1.le h2.le).1 h6
    exact this
  exact injOn_sin ⟨by linarith [ha.1, pi_pos], by linarith [ha.2]⟩ ⟨by linarith [hb.1, pi_pos], by linarith [hb.2]⟩ h7

theorem leg_subst {φ : ℝ} (h0 : 0 < φ) (hφ : φ ≤ π / 2) (g : ℝ → ℝ) :
    ∫ t in Ioi (0 : ℝ), g t = ∫ θ in Ioo 0 φ, 2 * sin φ ^ 2 * cos θ / sin θ ^ 3 * g (legMap φ θ) := by
  have h := integral_image_eq_integral_abs_deriv_smul measurableSet_Ioo (fun θ hθ => (legMap_deriv hφ hθ).hasDerivWithinAt) (legMap_inj hφ) g
  rw [legMap_image h0 hφ] at h
  rw [h]
  refine setIntegral_congr_fun measurableSet_Ioo fun θ hθ => ?_
  have := sin_pos_of_mem hφ hθ
  have := cos_pos_of_mem hφ hθ
  show |_| • _ = _
  rw [abs_neg, abs_of_nonneg (by positivity), smul_eq_mul]

theorem leg_integrable {φ : ℝ} (h0 : 0 < φ) (hφ : φ ≤ π / 2) (g : ℝ → ℝ) (hg : IntegrableOn g (Ioi 0)) :
    IntegrableOn (fun θ => 2 * sin φ ^ 2 * cos θ / sin θ ^ 3 * g (legMap φ θ)) (Ioo 0 φ) := by
  have h := (integrableOn_image_iff_integrableOn_abs_deriv_smul measurableSet_Ioo (fun θ hθ => (legMap_deriv hφ hθ).hasDerivWithinAt) (legMap_inj hφ) g)
  rw [legMap_image h0 hφ] at h
  refine (integrableOn_congr_fun ?_ measurableSet_Ioo).1 (h.1 hg)
  intro θ hθ
  have := sin_pos_of_mem hφ hθ
  have := cos_pos_of_mem hφ hθ
  show |_| • _ = _
  rw [abs_neg, abs_of_nonneg (by positivity), smul_eq_mul]

/-- the three factors in terms of the angle -/
theorem leg_factors {φ θ m : ℝ} (hφ : φ ≤ π / 2) (h : θ ∈ Ioo 0 φ) :
    legMap φ θ + 1 = sin φ ^ 2 / sin θ ^ 2 ∧
    √((legMap φ θ + cos φ * cos φ) * (legMap φ θ + (1 - m * sin φ * sin φ)) * (legMap φ θ + 1)) =
      sin φ ^ 3 * cos θ / sin θ ^ 3 * √(1 - m * sin θ ^ 2) := by
  have h1 := sin_pos_of_mem hφ h
  have h2 := cos_pos_of_mem hφ h
  have h3 := sin_lt_of_mem hφ h
  have h4 : 0 < sin φ := by linarith
  have e1 : legMap φ θ + 1 = sin φ ^ 2 / sin θ ^ 2 := by unfold legMap; ring
  have hc1 : cos θ ^ 2 = 1 - sin θ ^ 2 := by linarith [sin_sq_add_cos_sq θ]
  have hc2 : cos φ * cos φ = 1 - sin φ ^ 2 := by nlinarith [sin_sq_add_cos_sq φ]
  have e2 : legMap φ θ + cos φ * cos φ = sin φ ^ 2 * cos θ ^ 2 / sin θ ^ 2 := by
    rw [hc2, hc1]; unfold legMap; field_simp; ring
  have e3 : legMap φ θ + (1 - m * sin φ * sin φ) = sin φ ^ 2 * (1 - m * sin θ ^ 2) / sin θ ^ 2 := by
    unfold legMap; field_simp; ring
  refine ⟨e1, ?_⟩
  rw [e1, e2, e3]
  have e4 : sin φ ^ 2 * cos θ ^ 2 / sin θ ^ 2 * (sin φ ^ 2 * (1 - m * sin θ ^ 2) / sin θ ^ 2) * (sin φ ^ 2 / sin θ ^ 2) =
      (sin φ ^ 3 * cos θ / sin θ ^ 3) ^ 2 * (1 - m * sin θ ^ 2) := by
    field_simp
  rw [e4, Real.sqrt_mul (by positivity), Real.sqrt_sq (by positivity)]

theorem leg_arg_pos {φ θ m : ℝ} (hφ : φ ≤ π / 2) (h : θ ∈ Ioo 0 φ) (hm : 0 ≤ m) (hmss : m * sin φ * sin φ ≤ 1) : 0 < 1 - m * sin θ ^ 2 := by
  have h1 := sin_pos_of_mem hφ h
  have h3 := sin_lt_of_mem hφ h
  rcases hm.eq_or_lt with rfl | hm'
  · norm_num
  · have : m * sin θ ^ 2 < m * sin φ ^ 2 := by gcongr
    nlinarith

theorem legendreF_Ioo {φ m : ℝ} (h0 : 0 < φ) : legendreF φ m = ∫ θ in Ioo 0 φ, 1 / √(1 - m * sin θ ^ 2) := by
  unfold legendreF
  rw [intervalIntegral.integral_of_le h0.le, integral_Ioc_eq_integral_Ioo]

theorem legendreE_Ioo {φ m : ℝ} (h0 : 0 < φ) : legendreE φ m = ∫ θ in Ioo 0 φ, √(1 - m * sin θ ^ 2) := by
  unfold legendreE
  rw [intervalIntegral.integral_of_le h0.le, integral_Ioc_eq_integral_Ioo]

/-- Legendre's integral of the first kind in terms of Carlson's -/
theorem legendreF_eq {φ m : ℝ} (h0 : 0 < φ) (hφ : φ ≤ π / 2) (hm : 0 ≤ m) (hmss : m * sin φ * sin φ ≤ 1) :
    sin φ * carlsonRF (cos φ * cos φ) (1 - m * sin φ * sin φ) 1 = legendreF φ m := by
  rw [legendreF_Ioo h0, carlsonRF, leg_subst h0 hφ, ← integral_const_mul, ← integral_const_mul]
  refine setIntegral_congr_fun measurableSet_Ioo fun θ hθ => ?_
  have ha := leg_arg_pos hφ hθ hm hmss
  obtain ⟨-, e⟩ := leg_factors (m := m) hφ hθ
  have h1 := sin_pos_of_mem hφ hθ
  have h2 := cos_pos_of_mem hφ hθ
  have h3 : 0 < sin φ := h1.trans (sin_lt_of_mem hφ hθ)
  have h4 : 0 < √(1 - m * sin θ ^ 2) := Real.sqrt_pos.2 ha
  rw [e]
  field_simp

theorem rd_integrand_integrable {x y z : ℝ} (hx : 0 ≤ x) (hy : 0 ≤ y) (hz : 0 < z) (hxy : 0 < x + y) :
    IntegrableOn (fun t => 1 / (√((t + x) * (t + y) * (t + z)) * (t + z))) (Ioi 0) := by
  refine (integrableOn_congr_fun ?_ measurableSet_Ioi).1 ((dupDiff_integrable hx hy hz).add (dupRest_integrable hx hy hz hxy))
  intro t ht
  have ht' : (0 : ℝ) < t := ht
  have px : 0 < t + x := by linarith
  have py : 0 < t + y := by linarith
  have pz : 0 < t + z := by linarith
  have qx : 0 < √(t + x) := Real.sqrt_pos.2 px
  have qy : 0 < √(t + y) := Real.sqrt_pos.2 py
  have qz : 0 < √(t + z) := Real.sqrt_pos.2 pz
  have e2 : √((t + x) * (t + y) * (t + z)) = √(t + x) * √(t + y) * √(t + z) := by
    rw [Real.sqrt_mul (by positivity), Real.sqrt_mul (by positivity)]
  have e3 := Real.mul_self_sqrt pz.le
  have e4 : 1 / (√((t + x) * (t + y) * (t + z)) * (t + z)) = 1 / (√(t + x) * √(t + y) * √(t + z) * (√(t + z) * √(t + z))) := by
    rw [e2, e3]
  refine Eq.trans ?_ e4.symm
  show dupDiff x y z t + dupRest x y z t = _
  unfold dupRest dupDiff lamAt
  generalize √(t + x) = X at *
  generalize √(t + y) = Y at *
  generalize √(t + z) = Z at *
  field_simp
  ring

theorem leg_rd_pointwise {φ θ m : ℝ} (hφ : φ ≤ π / 2) (hθ : θ ∈ Ioo 0 φ) (hm : 0 ≤ m) (hmss : m * sin φ * sin φ ≤ 1) :
    2 * sin φ ^ 2 * cos θ / sin θ ^ 3 * (1 / (√((legMap φ θ + cos φ * cos φ) * (legMap φ θ + (1 - m * sin φ * sin φ)) * (legMap φ θ + 1)) * (legMap φ θ + 1))) =
      2 / sin φ ^ 3 * (sin θ ^ 2 / √(1 - m * sin θ ^ 2)) := by
  have ha := leg_arg_pos hφ hθ hm hmss
  obtain ⟨e1, e⟩ := leg_factors (m := m) hφ hθ
  have h1 := sin_pos_of_mem hφ hθ
  have h2 := cos_pos_of_mem hφ hθ
  have h3 : 0 < sin φ := h1.trans (sin_lt_of_mem hφ hθ)
  have h4 : 0 < √(1 - m * sin θ ^ 2) := Real.sqrt_pos.2 ha
  rw [e, e1]
  field_simp

/-- the hypothesis that not both first arguments of Carlson's integrals vanish -/
theorem leg_sum_pos {φ m : ℝ} (h0 : 0 < φ) (hmss : m * sin φ * sin φ ≤ 1) (h : φ < π / 2 ∨ m * sin φ * sin φ < 1) :
    0 < cos φ * cos φ + (1 - m * sin φ * sin φ) := by
  rcases h with h | h
  · have : 0 < cos φ := cos_pos_of_mem_Ioo ⟨by linarith [pi_pos], h⟩
    have := mul_pos this this
    linarith
  · nlinarith [mul_self_nonneg (cos φ)]

theorem leg_sq_integrable {φ m : ℝ} (h0 : 0 < φ) (hφ : φ ≤ π / 2) (hm : 0 ≤ m) (hmss : m * sin φ * sin φ ≤ 1) (h : φ < π / 2 ∨ m * sin φ * sin φ < 1) :
    IntegrableOn (fun θ => sin θ ^ 2 / √(1 - m * sin θ ^ 2)) (Ioo 0 φ) := by
  have hi := leg_integrable h0 hφ _ (rd_integrand_integrable (mul_self_nonneg (cos φ)) (sub_nonneg.2 hmss) one_pos (leg_sum_pos h0 hmss h))
  have hs : 0 < sin φ := sin_pos_of_pos_of_lt_pi h0 (by linarith [pi_pos])
  have h2 := (integrableOn_congr_fun (fun θ hθ => leg_rd_pointwise hφ hθ hm hmss) measurableSet_Ioo).1 hi
  have h3 := h2.const_mul (sin φ ^ 3 / 2)
  refine h3.congr (Filter.Eventually.of_forall fun θ => ?_)
  simp only []
  field_simp

/-- the integrand of the first kind is integrable, also for `m sin²φ = 1` if `φ < π/2` -/
theorem leg_integrable_F {φ m : ℝ} (h0 : 0 < φ) (hφ : φ ≤ π / 2) (hm : 0 ≤ m) (hmss : m * sin φ * sin φ ≤ 1) (h : φ < π / 2 ∨ m * sin φ * sin φ < 1) :
    IntegrableOn (fun θ => 1 / √(1 - m * sin θ ^ 2)) (Ioo 0 φ) := by
  have hi := (leg_sq_integrable h0 hφ hm hmss h).const_mul (2 * m)
  have hc : IntegrableOn (fun _ : ℝ => (2 : ℝ)) (Ioo 0 φ) := integrableOn_const (by simp)
  refine Integrable.mono' (hc.add hi) ?_ ?_
  · refine Measurable.aestronglyMeasurable ?_
    fun_prop
  · refine (ae_restrict_iff' measurableSet_Ioo).2 (Filter.Eventually.of_forall fun θ hθ => ?_)
    have ha := leg_arg_pos hφ hθ hm hmss
    have h4 : 0 < √(1 - m * sin θ ^ 2) := Real.sqrt_pos.2 ha
    have hsq := Real.sq_sqrt ha.le
    rw [Real.norm_of_nonneg (by positivity)]
    show 1 / √(1 - m * sin θ ^ 2) ≤ 2 + 2 * m * (sin θ ^ 2 / √(1 - m * sin θ ^ 2))
    rw [show (2 : ℝ) + 2 * m * (sin θ ^ 2 / √(1 - m * sin θ ^ 2)) = (2 * √(1 - m * sin θ ^ 2) + 2 * (m * sin θ ^ 2)) / √(1 - m * sin θ ^ 2) by field_simp]
    gcongr
    generalize √(1 - m * sin θ ^ 2) = w at *
    have hms : 0 ≤ m * sin θ ^ 2 := by positivity
    have hw : w ≤ 1 := by nlinarith
    nlinarith [mul_nonneg h4.le (sub_nonneg.2 hw)]

/-- Legendre's integral of the second kind in terms of Carlson's -/
theorem legendreE_eq {φ m : ℝ} (h0 : 0 < φ) (hφ : φ ≤ π / 2) (hm : 0 ≤ m) (hmss : m * sin φ * sin φ ≤ 1) (h : φ < π / 2 ∨ m * sin φ * sin φ < 1) :
    sin φ * (m * sin φ * sin φ * carlsonRD (cos φ * cos φ) (1 - m * sin φ * sin φ) 1 / 3) = legendreF φ m - legendreE φ m := by
  have hs : 0 < sin φ := sin_pos_of_pos_of_lt_pi h0 (by linarith [pi_pos])
  have hF := leg_integrable_F h0 hφ hm hmss h
  have hS := leg_sq_integrable h0 hφ hm hmss h
  have e1 : carlsonRD (cos φ * cos φ) (1 - m * sin φ * sin φ) 1 = 3 / sin φ ^ 3 * ∫ θ in Ioo 0 φ, sin θ ^ 2 / √(1 - m * sin θ ^ 2) := by
    rw [carlsonRD, leg_subst h0 hφ, setIntegral_congr_fun measurableSet_Ioo (fun θ hθ => leg_rd_pointwise hφ hθ hm hmss), integral_const_mul]
    ring
  have e2 : legendreE φ m = ∫ θ in Ioo 0 φ, (1 / √(1 - m * sin θ ^ 2) - m * (sin θ ^ 2 / √(1 - m * sin θ ^ 2))) := by
    rw [legendreE_Ioo h0]
    refine setIntegral_congr_fun measurableSet_Ioo fun θ hθ => ?_
    have ha := leg_arg_pos hφ hθ hm hmss
    have h4 : 0 < √(1 - m * sin θ ^ 2) := Real.sqrt_pos.2 ha
    have hsq := Real.sq_sqrt ha.le
    field_simp
    linarith
  rw [e1, e2, legendreF_Ioo h0, integral_sub hF (hS.const_mul m), integral_const_mul]
  field_simp
  ring

/-! ## Bounds of the constants -/

theorem f64Max_ge : (2 : ℝ) ^ 1023 ≤ f64Max := by
  unfold f64Max
  have h1 : (1 : ℝ) ≤ 2 - 1 / 2 ^ 52 := by norm_num
  have h2 : (0 : ℝ) ≤ 2 ^ 1023 := by positivity
  generalize (2 : ℝ) ^ 1023 = T at *
  generalize (1 : ℝ) / 2 ^ 52 = e at *
  nlinarith

theorem f64Max_ge_5 : (10 : ℝ) ≤ f64Max := by
  refine le_trans ?_ f64Max_ge
  calc (10 : ℝ) ≤ 2 ^ 4 := by norm_num
    _ ≤ 2 ^ 1023 := pow_le_pow_right₀ (by norm_num) (by norm_num)

theorem rf_big : (1 : ℝ) ≤ 0.2 * f64Max := by
  have := f64Max_ge_5
  norm_num only
  linarith

theorem f64MinPos_le (k : ℕ) (hk : k ≤ 1022) : f64MinPos ≤ 1 / 2 ^ k := by
  unfold f64MinPos
  apply one_div_le_one_div_of_le (by positivity)
  exact pow_le_pow_right₀ (by norm_num) hk

theorem rd_tiny : 2 * f64Max ^ (-2 / 3 : ℝ) ≤ 1 / 10 ^ 60 := by
  have h1 : f64Max ^ (-2 / 3 : ℝ) ≤ ((2 : ℝ) ^ 1023) ^ (-2 / 3 : ℝ) :=
    Real.rpow_le_rpow_of_nonpos (by positivity) f64Max_ge (by norm_num)
  have h2 : ((2 : ℝ) ^ 1023) ^ (-2 / 3 : ℝ) = 1 / 2 ^ 682 := by
    rw [← Real.rpow_natCast, ← Real.rpow_mul (by norm_num), one_div, ← Real.rpow_natCast 2 682, ← Real.rpow_neg (by norm_num)]
    norm_num
  rw [h2] at h1
  have h3 : (1 : ℝ) / 2 ^ 682 ≤ 1 / 2 ^ 250 :=
    one_div_le_one_div_of_le (by positivity) (pow_le_pow_right₀ (by norm_num) (by norm_num))
  have h4 : 2 * ((1 : ℝ) / 2 ^ 250) ≤ 1 / 10 ^ 60 := by norm_num
  have h5 := h1.trans h3
  clear h1 h2 h3
  linarith

theorem rd_big : (1 : ℝ) ≤ 0.1 * 0.0015 * f64MinPos ^ (-2 / 3 : ℝ) := by
  have h1 : f64MinPos ^ (-2 / 3 : ℝ) = (2 : ℝ) ^ (2044 / 3 : ℝ) := by
    unfold f64MinPos
    rw [one_div, ← Real.rpow_natCast, ← Real.rpow_neg (by norm_num), ← Real.rpow_mul (by norm_num)]
    norm_num
  have h2 : (2 : ℝ) ^ (20 : ℝ) ≤ (2 : ℝ) ^ (2044 / 3 : ℝ) := Real.rpow_le_rpow_of_exponent_le (by norm_num) (by norm_num)
  have h3 : (2 : ℝ) ^ (20 : ℝ) = 2 ^ 20 := by
    rw [← Real.rpow_natCast]; norm_num
  rw [h1]
  rw [h3] at h2
  norm_num at h2 ⊢
  linarith

/-! ## The properties -/

/-- C107: whatever `rf` returns is the integral `½ ∫₀^∞ dt/√((t+x)(t+y)(t+z))` to a relative accuracy of `2⁻⁵⁴` -/
theorem C107_rf_accurate {x y z v : ℝ} (h : rf x y z = .ok v) :
    |v - 1 / 2 * ∫ t in Ioi (0 : ℝ), 1 / √((t + x) * (t + y) * (t + z))| ≤ 1 / 2 ^ 54 * (1 / 2 * ∫ t in Ioi (0 : ℝ), 1 / √((t + x) * (t + y) * (t + z))) :=
  (rf_accurate h).1

/-- C107: whatever `rd` returns is the integral `3/2 ∫₀^∞ dt/(√((t+x)(t+y)(t+z)) (t+z))` to a relative accuracy of `2⁻⁵⁴` -/
theorem C107_rd_accurate {x y z v : ℝ} (h : rd x y z = .ok v) :
    |v - 3 / 2 * ∫ t in Ioi (0 : ℝ), 1 / (√((t + x) * (t + y) * (t + z)) * (t + z))| ≤
      1 / 2 ^ 54 * (3 / 2 * ∫ t in Ioi (0 : ℝ), 1 / (√((t + x) * (t + y) * (t + z)) * (t + z))) :=
  (rd_accurate h).1

/-- C107: eleven iterations suffice for `rf` unless the second largest argument is smaller than the largest by a factor of about `10⁸⁴` -/
theorem C107_rf_converges {x y z : ℝ} (hx : 0 ≤ x) (hy : 0 ≤ y) (hz : 0 ≤ z) (h1 : 5 * f64MinPos ≤ x + y) (h2 : 5 * f64MinPos ≤ x + z)
    (h3 : 5 * f64MinPos ≤ y + z) (b1 : x ≤ 0.2 * f64Max) (b2 : y ≤ 0.2 * f64Max) (b3 : z ≤ 0.2 * f64Max)
    (r : max (max x y) z ^ 2 ≤ 10 ^ 84 * (x * y + x * z + y * z)) : ∃ v, rf x y z = .ok v := by
  have e : (10 : ℝ) ^ 84 = (10 ^ 42) ^ 2 := by norm_num
  rw [e] at r
  refine rf_ok hx hy hz h1 h2 h3 b1 b2 b3 ?_ ?_ ?_ <;> refine le_trans ?_ r <;> gcongr
  · exact (le_max_left _ _).trans (le_max_left _ _)
  · exact (le_max_right _ _).trans (le_max_left _ _)
  · exact le_max_right _ _

example : ∃ v, rf 0 2 1 = .ok v := by
  have h := f64MinPos_le 3 (by norm_num)
  have hb := f64Max_ge_5
  have hp := f64MinPos_pos
  apply C107_rf_converges <;> norm_num at * <;> linarith

/-- C107: the same for `rd` and a factor of about `10⁶⁶` -/
theorem C107_rd_converges {x y z : ℝ} (hx : 0 ≤ x) (hy : 0 ≤ y) (h1 : 2 * f64Max ^ (-2 / 3 : ℝ) ≤ x + y) (h2 : 2 * f64Max ^ (-2 / 3 : ℝ) ≤ z)
    (b1 : x ≤ 0.1 * 0.0015 * f64MinPos ^ (-2 / 3 : ℝ)) (b2 : y ≤ 0.1 * 0.0015 * f64MinPos ^ (-2 / 3 : ℝ)) (b3 : z ≤ 0.1 * 0.0015 * f64MinPos ^ (-2 / 3 : ℝ))
    (r : max (max x y) z ^ 2 ≤ 10 ^ 66 * (x * y + x * z + y * z)) : ∃ v, rd x y z = .ok v := by
  have hm : 0 < f64Max ^ (-2 / 3 : ℝ) := Real.rpow_pos_of_pos f64Max_pos _
  have hz : 0 ≤ z := by linarith
  have e : (10 : ℝ) ^ 66 = (10 ^ 33) ^ 2 := by norm_num
  rw [e] at r
  refine rd_ok hx hy h1 h2 b1 b2 b3 ?_ ?_ ?_ <;> refine le_trans ?_ r <;> gcongr
  · exact (le_max_left _ _).trans (le_max_left _ _)
  · exact (le_max_right _ _).trans (le_max_left _ _)
  · exact le_max_right _ _

example : ∃ v, rd 0 1 1 = .ok v := by
  have h := rd_tiny
  have hb := rd_big
  have h4 : (1 : ℝ) / 10 ^ 60 ≤ 1 := by norm_num
  apply C107_rd_converges
  · norm_num
  · norm_num
  · linarith
  · linarith
  · linarith
  · exact hb
  · exact hb
  · norm_num

theorem legendreF_nonneg {φ : ℝ} (m : ℝ) (h0 : 0 ≤ φ) : 0 ≤ legendreF φ m :=
  intervalIntegral.integral_nonneg h0 fun θ _ => by positivity

/-- small `m`: the integrals are the angle up to a relative deviation of `m` -/
theorem legendreF_small {φ m : ℝ} (h0 : 0 < φ) (hm : 0 ≤ m) (h1 : m ≤ 1 / 100) : φ ≤ legendreF φ m ∧ legendreF φ m ≤ φ * (1 + m) := by
  have hb : ∀ θ : ℝ, 0 ≤ m * sin θ ^ 2 ∧ m * sin θ ^ 2 ≤ m := fun θ => by
    refine ⟨by positivity, ?_⟩
    have := sin_sq_le_one θ
    nlinarith
  have hcont : Continuous fun θ : ℝ => 1 / √(1 - m * sin θ ^ 2) := by
    refine Continuous.div continuous_const (by fun_prop) fun θ => ?_
    have := (hb θ).2
    exact (Real.sqrt_pos.2 (by linarith)).ne'
  have hi := hcont.intervalIntegrable (μ := volume) 0 φ
  unfold legendreF
  constructor
  · have := intervalIntegral.integral_mono_on h0.le (continuous_const.intervalIntegrable (μ := volume) 0 φ : IntervalIntegrable (fun _ => (1 : ℝ)) volume 0 φ) hi (fun θ _ => by
      have h2 := hb θ
      have h3 : 0 < √(1 - m * sin θ ^ 2) := Real.sqrt_pos.2 (by linarith)
      show (1 : ℝ) ≤ 1 / √(1 - m * sin θ ^ 2)
      rw [one_le_div h3]
      exact Real.sqrt_le_iff.2 ⟨by norm_num, by linarith⟩)
    simpa using this
  · have := intervalIntegral.integral_mono_on h0.le hi (continuous_const.intervalIntegrable (μ := volume) 0 φ : IntervalIntegrable (fun _ => (1 + m : ℝ)) volume 0 φ) (fun θ _ => by
      have h2 := hb θ
      have h3 : 0 < √(1 - m * sin θ ^ 2) := Real.sqrt_pos.2 (by linarith)
      show 1 / √(1 - m * sin θ ^ 2) ≤ 1 + m
      rw [div_le_iff₀ h3, ← div_le_iff₀' (by linarith)]
      apply Real.le_sqrt_of_sq_le
      rw [div_pow, div_le_iff₀ (by positivity)]
      nlinarith [mul_nonneg (sub_nonneg.2 h2.2) (sq_nonneg (1 + m)), mul_nonneg hm (show 0 ≤ 1 - m - m ^ 2 by nlinarith)])
    rw [intervalIntegral.integral_const, sub_zero, smul_eq_mul] at this
    exact this

theorem legendreE_small {φ m : ℝ} (h0 : 0 < φ) (hm : 0 ≤ m) (h1 : m ≤ 1 / 100) : φ * (1 - m) ≤ legendreE φ m ∧ legendreE φ m ≤ φ := by
  have hb : ∀ θ : ℝ, 0 ≤ m * sin θ ^ 2 ∧ m * sin θ ^ 2 ≤ m := fun θ => by
    refine ⟨by positivity, ?_⟩
    have := sin_sq_le_one θ
    nlinarith
  have hcont : Continuous fun θ : ℝ => √(1 - m * sin θ ^ 2) := by fun_prop
  have hi := hcont.intervalIntegrable (μ := volume) 0 φ
  unfold legendreE
  constructor
  · have := intervalIntegral.integral_mono_on h0.le (continuous_const.intervalIntegrable (μ := volume) 0 φ : IntervalIntegrable (fun _ => (1 - m : ℝ)) volume 0 φ) hi (fun θ _ => by
      have h2 := hb θ
      show 1 - m ≤ √(1 - m * sin θ ^ 2)
      apply Real.le_sqrt_of_sq_le
      nlinarith)
    rw [intervalIntegral.integral_const, sub_zero, smul_eq_mul] at this
    exact this
  · have := intervalIntegral.integral_mono_on h0.le hi (continuous_const.intervalIntegrable (μ := volume) 0 φ : IntervalIntegrable (fun _ => (1 : ℝ)) volume 0 φ) (fun θ _ => by
      have h2 := hb θ
      exact Real.sqrt_le_iff.2 ⟨by norm_num, by linarith⟩)
    simpa using this

theorem cos_mul_le (φ : ℝ) : cos φ * cos φ ≤ 1 := by nlinarith [sin_sq_add_cos_sq φ, sq_nonneg (sin φ)]

/-- C107: `elliptic_f` succeeds for every angle in `[2⁻¹⁰²², π/2]` and `m` with `m sin²φ ≤ 1 - 10ε` and returns `∫₀^φ dθ/√(1 - m sin²θ)` to a relative
accuracy of `2⁻⁵⁴` -/
theorem C107_elliptic_f {φ m : ℝ} (h0 : f64MinPos ≤ φ) (hφ : φ ≤ π / 2) (hm : 0 ≤ m) (hmss : m * sin φ ^ 2 ≤ 1 - 10 * f64Epsilon) :
    ∃ v : ℝ, ellipticF φ m = .ok (v : WithTop ℝ) ∧
      |v - ∫ θ in (0 : ℝ)..φ, 1 / √(1 - m * sin θ ^ 2)| ≤ 1 / 2 ^ 54 * ∫ θ in (0 : ℝ)..φ, 1 / √(1 - m * sin θ ^ 2) := by
  have hp := f64MinPos_pos
  have hφ0 : 0 < φ := by linarith
  have he : 0 < f64Epsilon := by unfold f64Epsilon; positivity
  have hmss' : m * sin φ * sin φ ≤ 1 - 10 * f64Epsilon := by rw [mul_assoc, ← pow_two]; exact hmss
  have hs : 0 < sin φ := sin_pos_of_pos_of_lt_pi hφ0 (by linarith [pi_pos])
  unfold ellipticF
  rw [if_neg (by rintro (h | h) <;> linarith), if_neg (by linarith), if_neg (by linarith)]
  change ∃ v : ℝ, _ ∧ |v - legendreF φ m| ≤ 1 / 2 ^ 54 * legendreF φ m
  by_cases hms : m < f64MinPos
  · rw [if_pos hms]
    refine ⟨φ, rfl, ?_⟩
    have h54 := f64MinPos_le 54 (by norm_num)
    obtain ⟨l1, l2⟩ := legendreF_small hφ0 hm (by have : (1 : ℝ) / 2 ^ 54 ≤ 1 / 100 := by norm_num
                                                  linarith)
    rw [abs_sub_comm, abs_of_nonneg (by linarith)]
    nlinarith
  · rw [if_neg hms]
    simp only []
    rw [if_neg (by linarith), if_neg (by rw [abs_sub_comm, abs_of_nonneg (by linarith)]; linarith)]
    have hq : 10 * f64Epsilon ≤ 1 - m * sin φ * sin φ := by linarith
    have hq1 : 1 - m * sin φ * sin φ ≤ 1 := by
      have : 0 ≤ m * sin φ * sin φ := by positivity
      linarith
    have hc0 := mul_self_nonneg (cos φ)
    have hc1 := cos_mul_le φ
    have ht := f64MinPos_le 60 (by norm_num)
    have ht2 : 5 * ((1 : ℝ) / 2 ^ 60) ≤ 10 * f64Epsilon := by unfold f64Epsilon; norm_num
    have ht3 : 5 * ((1 : ℝ) / 2 ^ 60) ≤ 1 := by norm_num
    have hbig := rf_big
    have he2 : (1 : ℝ) ≤ 10 ^ 84 * (10 * f64Epsilon) := by unfold f64Epsilon; norm_num
    obtain ⟨v, hv⟩ := C107_rf_converges hc0 (by linarith : 0 ≤ 1 - m * sin φ * sin φ) zero_le_one (by linarith) (by linarith) (by linarith) (by linarith) (by linarith) hbig (by
      have e : max (max (cos φ * cos φ) (1 - m * sin φ * sin φ)) 1 = 1 := max_eq_right (max_le hc1 hq1)
      rw [e]
      have h1 : 0 ≤ cos φ * cos φ * (1 - m * sin φ * sin φ) := mul_nonneg hc0 (by linarith)
      calc (1 : ℝ) ^ 2 = 1 := by norm_num
        _ ≤ 10 ^ 84 * (10 * f64Epsilon) := he2
        _ ≤ _ := by gcongr; linarith)
    rw [hv]
    refine ⟨sin φ * v, rfl, ?_⟩
    have ha := (rf_accurate hv).1
    rw [← legendreF_eq hφ0 hφ hm (by linarith), ← mul_sub, abs_mul, abs_of_pos hs, mul_left_comm]
    exact mul_le_mul_of_nonneg_left ha hs.le

/-- the complete integral for `m = 1/2` and an angle below `π/2` with `m > 1` -/
example : f64MinPos ≤ π / 2 ∧ (1 / 2 : ℝ) * sin (π / 2) ^ 2 ≤ 1 - 10 * f64Epsilon ∧ f64MinPos ≤ π / 6 ∧ 2 * sin (π / 6) ^ 2 ≤ 1 - 10 * f64Epsilon := by
  have h := f64MinPos_le 3 (by norm_num)
  have := pi_gt_three
  refine ⟨by norm_num at h; linarith, ?_, by norm_num at h; linarith, ?_⟩
  · rw [sin_pi_div_two]; unfold f64Epsilon; norm_num
  · rw [sin_pi_div_six]; unfold f64Epsilon; norm_num

/-- C107: `elliptic_e` succeeds for every angle in `[2⁻¹⁰²², π/2]` and `m` with `m sin²φ ≤ 1`, unless `cos²φ` and `1 - m sin²φ` are both
below `10⁻⁶⁰`, and returns `∫₀^φ √(1 - m sin²θ) dθ` with an error of at most `2⁻⁵³` times the integral of the first kind -/
theorem C107_elliptic_e {φ m : ℝ} (h0 : f64MinPos ≤ φ) (hφ : φ ≤ π / 2) (hm : 0 ≤ m) (hmss : m * sin φ ^ 2 ≤ 1)
    (hsep : 1 / 10 ^ 60 ≤ cos φ ^ 2 + (1 - m * sin φ ^ 2)) :
    ∃ v : ℝ, ellipticE φ m = .ok v ∧
      |v - ∫ θ in (0 : ℝ)..φ, √(1 - m * sin θ ^ 2)| ≤ 1 / 2 ^ 53 * ∫ θ in (0 : ℝ)..φ, 1 / √(1 - m * sin θ ^ 2) := by
  have hp := f64MinPos_pos
  have hφ0 : 0 < φ := by linarith
  have he : 0 < f64Epsilon := by unfold f64Epsilon; positivity
  have eq1 : m * sin φ ^ 2 = m * sin φ * sin φ := by ring
  rw [eq1] at hmss hsep
  rw [pow_two (cos φ)] at hsep
  have hs : 0 < sin φ := sin_pos_of_pos_of_lt_pi hφ0 (by linarith [pi_pos])
  unfold ellipticE
  rw [if_neg (by rintro (h | h) <;> linarith), if_neg (by linarith), if_neg (by linarith)]
  change ∃ v : ℝ, _ ∧ |v - legendreE φ m| ≤ 1 / 2 ^ 53 * legendreF φ m
  by_cases hms : m < f64MinPos
  · rw [if_pos hms]
    refine ⟨φ, rfl, ?_⟩
    have h54 := f64MinPos_le 53 (by norm_num)
    have h100 : m ≤ 1 / 100 := by
      have : (1 : ℝ) / 2 ^ 53 ≤ 1 / 100 := by norm_num
      linarith
    obtain ⟨l1, l2⟩ := legendreF_small hφ0 hm h100
    obtain ⟨k1, k2⟩ := legendreE_small hφ0 hm h100
    rw [abs_of_nonneg (by linarith)]
    nlinarith
  · rw [if_neg hms]
    simp only []
    rw [if_neg (by linarith)]
    have hq0 : 0 ≤ 1 - m * sin φ * sin φ := by linarith
    have hq1 : 1 - m * sin φ * sin φ ≤ 1 := by
      have : 0 ≤ m * sin φ * sin φ := by positivity
      linarith
    have hc0 := mul_self_nonneg (cos φ)
    have hc1 := cos_mul_le φ
    have ht := f64MinPos_le 240 (by norm_num)
    have ht2 : 5 * ((1 : ℝ) / 2 ^ 240) ≤ 1 / 10 ^ 60 := by norm_num
    have ht3 : (1 : ℝ) / 10 ^ 60 ≤ 1 := by norm_num
    have hbig := rf_big
    have hbig2 := rd_big
    have htiny := rd_tiny
    have e : max (max (cos φ * cos φ) (1 - m * sin φ * sin φ)) 1 = 1 := max_eq_right (max_le hc1 hq1)
    have h1 : 0 ≤ cos φ * cos φ * (1 - m * sin φ * sin φ) := mul_nonneg hc0 hq0
    obtain ⟨v, hv⟩ := C107_rf_converges hc0 hq0 zero_le_one (by linarith) (by linarith) (by linarith) (by linarith) (by linarith) hbig (by
      rw [e]
      calc (1 : ℝ) ^ 2 ≤ 10 ^ 84 * (1 / 10 ^ 60) := by norm_num
        _ ≤ _ := by gcongr; linarith)
    obtain ⟨w, hw⟩ := C107_rd_converges hc0 hq0 (by linarith) (by linarith) (by linarith) (by linarith) hbig2 (by
      rw [e]
      calc (1 : ℝ) ^ 2 ≤ 10 ^ 66 * (1 / 10 ^ 60) := by norm_num
        _ ≤ _ := by gcongr; linarith)
    rw [hv, hw]
    refine ⟨sin φ * (v - m * sin φ * sin φ * w / 3), rfl, ?_⟩
    have ha := (rf_accurate hv).1
    have hb := (rd_accurate hw).1
    have hcase : φ < π / 2 ∨ m * sin φ * sin φ < 1 := by
      by_contra hn
      rw [not_or, not_lt, not_lt] at hn
      have : φ = π / 2 := le_antisymm hφ hn.1
      rw [this, cos_pi_div_two] at hsep
      rw [this] at hn
      have : (0 : ℝ) < 1 / 10 ^ 60 := by positivity
      linarith [hn.2]
    have eF := legendreF_eq hφ0 hφ hm hmss
    have eE := legendreE_eq hφ0 hφ hm hmss hcase
    have hE0 : 0 ≤ legendreE φ m := intervalIntegral.integral_nonneg hφ0.le fun θ _ => by positivity
    set RF := carlsonRF (cos φ * cos φ) (1 - m * sin φ * sin φ) 1
    set RD := carlsonRD (cos φ * cos φ) (1 - m * sin φ * sin φ) 1
    have hk : 0 ≤ sin φ * (m * sin φ * sin φ / 3) := by positivity
    have e3 : sin φ * (v - m * sin φ * sin φ * w / 3) - legendreE φ m = sin φ * (v - RF) - sin φ * (m * sin φ * sin φ / 3) * (w - RD) := by
      linear_combination eF - eE
    rw [e3]
    calc |sin φ * (v - RF) - sin φ * (m * sin φ * sin φ / 3) * (w - RD)|
        ≤ |sin φ * (v - RF)| + |sin φ * (m * sin φ * sin φ / 3) * (w - RD)| := abs_sub _ _
      _ = sin φ * |v - RF| + sin φ * (m * sin φ * sin φ / 3) * |w - RD| := by
          rw [abs_mul, abs_mul (sin φ * (m * sin φ * sin φ / 3)), abs_of_pos hs, abs_of_nonneg hk]
      _ ≤ sin φ * (1 / 2 ^ 54 * RF) + sin φ * (m * sin φ * sin φ / 3) * (1 / 2 ^ 54 * RD) := by gcongr
      _ = 1 / 2 ^ 54 * (sin φ * RF) + 1 / 2 ^ 54 * (sin φ * (m * sin φ * sin φ * RD / 3)) := by ring
      _ = 1 / 2 ^ 54 * (2 * legendreF φ m) - 1 / 2 ^ 54 * legendreE φ m := by rw [eF, eE]; ring
      _ ≤ 1 / 2 ^ 53 * legendreF φ m := by
          have : (0 : ℝ) ≤ 1 / 2 ^ 54 * legendreE φ m := by positivity
          have e4 : (1 : ℝ) / 2 ^ 53 = 1 / 2 ^ 54 * 2 := by norm_num
          rw [e4]
          linarith

/-- an angle below `π/2` with `m sin²φ = 1` -/
example : f64MinPos ≤ π / 6 ∧ 4 * sin (π / 6) ^ 2 ≤ 1 ∧ 1 / 10 ^ 60 ≤ cos (π / 6) ^ 2 + (1 - 4 * sin (π / 6) ^ 2) := by
  have h := f64MinPos_le 3 (by norm_num)
  have := pi_gt_three
  refine ⟨by norm_num at h; linarith, ?_, ?_⟩
  · rw [sin_pi_div_six]; norm_num
  · rw [sin_pi_div_six, cos_pi_div_six, div_pow, Real.sq_sqrt (by norm_num)]; norm_num

/-- C107: the arguments outside the documented domain are rejected -/
theorem C107_elliptic_domain (phi m : ℝ) (h : phi < 0 ∨ m < 0 ∨ π / 2 + f64Epsilon < phi ∨ (f64MinPos ≤ phi ∧ 1 < m * sin phi ^ 2)) :
    (∃ e, ellipticF phi m = .err e) ∧ (∃ e, ellipticE phi m = .err e) := by
  have hp := f64MinPos_pos
  unfold ellipticF ellipticE
  by_cases h1 : phi < 0 ∨ m < 0
  · rw [if_pos h1, if_pos h1]; exact ⟨⟨_, rfl⟩, ⟨_, rfl⟩⟩
  · rw [if_neg h1, if_neg h1]
    by_cases h2 : phi > π / 2 + f64Epsilon
    · rw [if_pos h2, if_pos h2]; exact ⟨⟨_, rfl⟩, ⟨_, rfl⟩⟩
    · rw [if_neg h2, if_neg h2]
      have h3 : f64MinPos ≤ phi ∧ 1 < m * sin phi ^ 2 := by
        rcases h with h | h | h | h
        · exact absurd (Or.inl h) h1
        · exact absurd (Or.inr h) h1
        · exact absurd h h2
        · exact h
      have h4 : ¬ m < f64MinPos := by
        intro hm
        have := f64MinPos_le 1 (by norm_num)
        have h5 := sin_sq_le_one phi
        rw [not_or, not_lt, not_lt] at h1
        have : m * sin phi ^ 2 ≤ m := by nlinarith [h1.2]
        norm_num at *
        linarith [h3.2]
      have h6 : m * sin phi * sin phi > 1 := by
        have := h3.2
        rw [pow_two, ← mul_assoc] at this
        exact this
      rw [if_neg (not_lt.2 h3.1), if_neg (not_lt.2 h3.1), if_neg h4, if_neg h4]
      simp only []
      rw [if_pos h6, if_pos h6]
      exact ⟨⟨_, rfl⟩, ⟨_, rfl⟩⟩

example : f64MinPos ≤ π / 2 ∧ 1 < 2 * sin (π / 2) ^ 2 := by
  have h := f64MinPos_le 3 (by norm_num)
  have := pi_gt_three
  refine ⟨by norm_num at h; linarith, ?_⟩
  rw [sin_pi_div_two]; norm_num

/-- C107: the documented special cases `F(0, m) = E(0, m) = 0` and `F(φ, 0) = E(φ, 0) = φ` hold exactly -/
theorem C107_elliptic_special (phi m : ℝ) (hm : 0 ≤ m) (h0 : f64MinPos ≤ phi) (h1 : phi ≤ π / 2) :
    ellipticF 0 m = .ok ((∫ θ in (0 : ℝ)..0, 1 / √(1 - m * sin θ ^ 2) : ℝ) : WithTop ℝ) ∧ ellipticE 0 m = .ok (∫ θ in (0 : ℝ)..0, √(1 - m * sin θ ^ 2)) ∧
    ellipticF phi 0 = .ok ((∫ θ in (0 : ℝ)..phi, 1 / √(1 - 0 * sin θ ^ 2) : ℝ) : WithTop ℝ) ∧ ellipticE phi 0 = .ok (∫ θ in (0 : ℝ)..phi, √(1 - 0 * sin θ ^ 2)) := by
  have hp := f64MinPos_pos
  have he : 0 < f64Epsilon := by unfold f64Epsilon; positivity
  have hpi := pi_pos
  refine ⟨?_, ?_, ?_, ?_⟩
  · unfold ellipticF
    rw [if_neg (by rintro (h | h) <;> linarith), if_neg (by linarith), if_pos hp]; simp
  · unfold ellipticE
    rw [if_neg (by rintro (h | h) <;> linarith), if_neg (by linarith), if_pos hp]; simp
  · unfold ellipticF
    rw [if_neg (by rintro (h | h) <;> linarith), if_neg (by linarith), if_neg (by linarith), if_pos hp]; simp
  · unfold ellipticE
    rw [if_neg (by rintro (h | h) <;> linarith), if_neg (by linarith), if_neg (by linarith), if_pos hp]; simp

/-- `elliptic_f` is infinite although the integral converges: `φ = π/6`, `m = 4`, where `m sin²φ = 1` at an end point below `π/2` -/
theorem C107_elliptic_f_endpoint_counterexample :
    ellipticF (π / 6) 4 = .ok ⊤ ∧ IntervalIntegrable (fun θ => 1 / √(1 - 4 * sin θ ^ 2)) volume 0 (π / 6) := by
  have h := f64MinPos_le 3 (by norm_num)
  have hp := f64MinPos_pos
  have he : 0 < f64Epsilon := by unfold f64Epsilon; positivity
  have hpi := pi_gt_three
  norm_num at h
  have e : (4 : ℝ) * sin (π / 6) * sin (π / 6) = 1 := by rw [sin_pi_div_six]; norm_num
  constructor
  · unfold ellipticF
    rw [if_neg (by rintro (h | h) <;> linarith), if_neg (by linarith), if_neg (by linarith), if_neg (by linarith)]
    simp only []
    rw [if_neg (by rw [e]; norm_num), if_pos (by rw [e]; norm_num; exact he)]
  · rw [intervalIntegrable_iff_integrableOn_Ioo_of_le (by positivity)]
    exact leg_integrable_F (by positivity) (by linarith) (by norm_num) (by rw [e]) (Or.inl (by linarith))

/-- `elliptic_f` is infinite although the integral converges: the complete integral with `m = 1 - 2⁻⁵²`, a number different from 1 -/
theorem C107_elliptic_f_near_one_counterexample :
    ellipticF (π / 2) (1 - f64Epsilon) = .ok ⊤ ∧ (1 - f64Epsilon) * sin (π / 2) ^ 2 ≠ 1 ∧
    IntervalIntegrable (fun θ => 1 / √(1 - (1 - f64Epsilon) * sin θ ^ 2)) volume 0 (π / 2) := by
  have h := f64MinPos_le 3 (by norm_num)
  have hp := f64MinPos_pos
  have he : 0 < f64Epsilon := by unfold f64Epsilon; positivity
  have he1 : f64Epsilon ≤ 1 / 2 := by unfold f64Epsilon; norm_num
  have hpi := pi_gt_three
  norm_num at h
  have e : (1 - f64Epsilon) * sin (π / 2) * sin (π / 2) = 1 - f64Epsilon := by rw [sin_pi_div_two]; ring
  refine ⟨?_, ?_, ?_⟩
  · unfold ellipticF
    rw [if_neg (by rintro (h | h) <;> linarith), if_neg (by linarith), if_neg (by linarith), if_neg (by linarith)]
    simp only []
    rw [if_neg (by rw [e]; linarith), if_pos (by rw [e, sub_sub_cancel_left, abs_neg, abs_of_pos he]; linarith)]
  · rw [sin_pi_div_two]; intro hc; linarith
  · rw [intervalIntegrable_iff_integrableOn_Ioo_of_le (by positivity)]
    exact leg_integrable_F (by positivity) le_rfl (by linarith) (by rw [e]; linarith) (Or.inr (by rw [e]; linarith))

end Russell.Lab
