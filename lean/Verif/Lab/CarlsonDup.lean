import Mathlib.MeasureTheory.Function.JacobianOneDim
import Mathlib.Analysis.SpecialFunctions.ImproperIntegrals
import Mathlib.Analysis.SpecialFunctions.Sqrt
import Mathlib.Analysis.SpecialFunctions.Pow.Deriv
import Mathlib.MeasureTheory.Integral.IntegralEqImproper
import Mathlib.Tactic.FieldSimp
import Mathlib.Tactic.Positivity
import Mathlib.Tactic.Linarith

/-!
# Carlson's elliptic integrals: definitions and the duplication theorem (property C107)

`carlsonRF x y z = ½ ∫₀^∞ dt / √((t+x)(t+y)(t+z))` does not change when `x`, `y`, `z` are replaced by `(x+λ)/4`, `(y+λ)/4`, `(z+λ)/4` with
`λ = √x√y + √x√z + √y√z`. This is the step of the loop of `rf` (russell_lab/src/math/elliptic.rs:264-280).
-/

namespace Russell.Lab

open MeasureTheory Set Real

/-- Carlson's integral of the first kind -/
noncomputable def carlsonRF (x y z : ℝ) : ℝ := 1 / 2 * ∫ t in Ioi (0 : ℝ), 1 / √((t + x) * (t + y) * (t + z))

/-- Carlson's integral of the second kind -/
noncomputable def carlsonRD (x y z : ℝ) : ℝ := 3 / 2 * ∫ t in Ioi (0 : ℝ), 1 / (√((t + x) * (t + y) * (t + z)) * (t + z))

/-- `λ` at the point `t` -/
noncomputable def lamAt (x y z t : ℝ) : ℝ := √(t + x) * (√(t + y) + √(t + z)) + √(t + y) * √(t + z)

/-- the substitution of the duplication theorem -/
noncomputable def dupMap (x y z t : ℝ) : ℝ := (t + lamAt x y z t - lamAt x y z 0) / 4

variable {x y z : ℝ}

theorem lamAt_mono {s t : ℝ} (h : s ≤ t) : lamAt x y z s ≤ lamAt x y z t := by
  unfold lamAt
  have a : √(s + x) ≤ √(t + x) := Real.sqrt_le_sqrt (by linarith)
  have b : √(s + y) ≤ √(t + y) := Real.sqrt_le_sqrt (by linarith)
  have c : √(s + z) ≤ √(t + z) := Real.sqrt_le_sqrt (by linarith)
  gcongr

theorem dupMap_strictMono : StrictMono (dupMap x y z) := by
  intro s t h
  have := lamAt_mono (x := x) (y := y) (z := z) h.le
  unfold dupMap
  linarith

theorem dupMap_zero : dupMap x y z 0 = 0 := by simp [dupMap]

theorem dupMap_continuous : Continuous (dupMap x y z) := by
  unfold dupMap lamAt
  fun_prop

theorem dupMap_image : dupMap x y z '' Ioi 0 = Ioi 0 := by
  ext s
  constructor
  · rintro ⟨t, ht, rfl⟩
    have := dupMap_strictMono (x := x) (y := y) (z := z) (show (0 : ℝ) < t from ht)
    rwa [dupMap_zero] at this
  · intro hs
    have hs' : (0 : ℝ) < s := hs
    have h4 : s ≤ dupMap x y z (4 * s) := by
      have := lamAt_mono (x := x) (y := y) (z := z) (show (0 : ℝ) ≤ 4 * s by linarith)
      unfold dupMap; linarith
    obtain ⟨t, ht, e⟩ := intermediate_value_Icc (show (0 : ℝ) ≤ 4 * s by linarith)
      (dupMap_continuous (x := x) (y := y) (z := z)).continuousOn ⟨by rw [dupMap_zero]; exact hs'.le, h4⟩
    refine ⟨t, ?_, e⟩
    rcases eq_or_lt_of_le ht.1 with h | h
    · rw [← h, dupMap_zero] at e; linarith
    · exact h

theorem sqrt_shift_deriv {a t : ℝ} (h : 0 < t + a) : HasDerivAt (fun t => √(t + a)) (1 / (2 * √(t + a))) t := by
  have h1 : HasDerivAt (fun t : ℝ => t + a) 1 t := (hasDerivAt_id t).add_const a
  have := h1.sqrt h.ne'
  simpa using this

theorem dupMap_deriv (hx : 0 ≤ x) (hy : 0 ≤ y) (hz : 0 ≤ z) {t : ℝ} (ht : 0 < t) :
    HasDerivAt (dupMap x y z) ((√(t + x) + √(t + y)) * (√(t + y) + √(t + z)) * (√(t + z) + √(t + x)) /
      (8 * (√(t + x) * √(t + y) * √(t + z)))) t := by
  have px : 0 < t + x := by linarith
  have py : 0 < t + y := by linarith
  have pz : 0 < t + z := by linarith
  have dx := sqrt_shift_deriv px
  have dy := sqrt_shift_deriv py
  have dz := sqrt_shift_deriv pz
  have h : HasDerivAt (dupMap x y z) ((1 + (1 / (2 * √(t + x)) * (√(t + y) + √(t + z)) +
      √(t + x) * (1 / (2 * √(t + y)) + 1 / (2 * √(t + z))) +
      (1 / (2 * √(t + y)) * √(t + z) + √(t + y) * (1 / (2 * √(t + z)))))) / 4) t := by
    have hl : HasDerivAt (lamAt x y z) _ t := (dx.mul (dy.add dz)).add (dy.mul dz)
    exact (((hasDerivAt_id t).add hl).sub_const _).div_const 4
  convert h using 1
  have qx : √(t + x) ≠ 0 := (Real.sqrt_pos.2 px).ne'
  have qy : √(t + y) ≠ 0 := (Real.sqrt_pos.2 py).ne'
  have qz : √(t + z) ≠ 0 := (Real.sqrt_pos.2 pz).ne'
  field_simp
  ring

/-- the shifted arguments along the substitution -/
theorem dupMap_add (a b c : ℝ) (ha : 0 ≤ a) {t : ℝ} (ht : 0 < t) (lam : ℝ) (hl : lam = lamAt a b c t) :
    t + lam + a = (√(t + a) + √(t + b)) * (√(t + a) + √(t + c)) := by
  have h := Real.mul_self_sqrt (show 0 ≤ t + a by linarith)
  rw [hl, lamAt]
  linear_combination -h

theorem lamAt_perm1 (t : ℝ) : lamAt y x z t = lamAt x y z t := by unfold lamAt; ring

theorem lamAt_perm2 (t : ℝ) : lamAt z y x t = lamAt x y z t := by unfold lamAt; ring

/-- substitution in integrals of the form of Carlson's -/
theorem carlson_subst (hx : 0 ≤ x) (hy : 0 ≤ y) (hz : 0 ≤ z) (g : ℝ → ℝ) :
    ∫ s in Ioi (0 : ℝ), g s = ∫ t in Ioi (0 : ℝ), (√(t + x) + √(t + y)) * (√(t + y) + √(t + z)) * (√(t + z) + √(t + x)) /
      (8 * (√(t + x) * √(t + y) * √(t + z))) * g (dupMap x y z t) := by
  have key := integral_image_eq_integral_abs_deriv_smul (s := Ioi (0 : ℝ)) measurableSet_Ioi
    (fun t ht => (dupMap_deriv hx hy hz (show (0 : ℝ) < t from ht)).hasDerivWithinAt)
    (dupMap_strictMono (x := x) (y := y) (z := z)).injective.injOn g
  rw [dupMap_image] at key
  rw [key]
  refine setIntegral_congr_fun measurableSet_Ioi fun t ht => ?_
  have ht' : (0 : ℝ) < t := ht
  simp only [smul_eq_mul]
  rw [abs_of_nonneg (by positivity)]

/-- the duplication theorem of the integral of the first kind -/
theorem carlsonRF_dup (hx : 0 ≤ x) (hy : 0 ≤ y) (hz : 0 ≤ z) (lam : ℝ) (hl : lam = √x * (√y + √z) + √y * √z) :
    carlsonRF (1 / 4 * (x + lam)) (1 / 4 * (y + lam)) (1 / 4 * (z + lam)) = carlsonRF x y z := by
  unfold carlsonRF
  congr 1
  rw [carlson_subst hx hy hz]
  refine setIntegral_congr_fun measurableSet_Ioi fun t ht => ?_
  have ht' : (0 : ℝ) < t := ht
  have l0 : lamAt x y z 0 = lam := by simp [lamAt, hl]
  have ex : dupMap x y z t + 1 / 4 * (x + lam) = 1 / 4 * ((√(t + x) + √(t + y)) * (√(t + x) + √(t + z))) := by
    rw [← dupMap_add x y z hx ht' _ rfl, dupMap, l0]; ring
  have ey : dupMap x y z t + 1 / 4 * (y + lam) = 1 / 4 * ((√(t + y) + √(t + x)) * (√(t + y) + √(t + z))) := by
    rw [← dupMap_add y x z hy ht' _ rfl, dupMap, l0, lamAt_perm1]; ring
  have ez : dupMap x y z t + 1 / 4 * (z + lam) = 1 / 4 * ((√(t + z) + √(t + y)) * (√(t + z) + √(t + x))) := by
    rw [← dupMap_add z y x hz ht' _ rfl, dupMap, l0, lamAt_perm2]; ring
  have qx : 0 < √(t + x) := Real.sqrt_pos.2 (by linarith)
  have qy : 0 < √(t + y) := Real.sqrt_pos.2 (by linarith)
  have qz : 0 < √(t + z) := Real.sqrt_pos.2 (by linarith)
  rw [ex, ey, ez]
  have e1 : √(1 / 4 * ((√(t + x) + √(t + y)) * (√(t + x) + √(t + z))) * (1 / 4 * ((√(t + y) + √(t + x)) * (√(t + y) + √(t + z)))) *
      (1 / 4 * ((√(t + z) + √(t + y)) * (√(t + z) + √(t + x))))) =
      (√(t + x) + √(t + y)) * (√(t + y) + √(t + z)) * (√(t + z) + √(t + x)) / 8 := by
    rw [Real.sqrt_eq_iff_mul_self_eq (by positivity) (by positivity)]
    ring
  have e2 : √((t + x) * (t + y) * (t + z)) = √(t + x) * √(t + y) * √(t + z) := by
    rw [Real.sqrt_mul (by positivity), Real.sqrt_mul (by positivity)]
  rw [e1, e2]
  field_simp

/-! ## The integral of the second kind -/

/-- the antiderivative of the difference of the two integrands -/
theorem dup_antideriv (hx : 0 ≤ x) (hy : 0 ≤ y) (hz : 0 ≤ z) {t : ℝ} (ht : 0 < t) :
    HasDerivAt (fun t => -2 / (√(t + z) * ((√(t + z) + √(t + x)) * (√(t + z) + √(t + y)))))
      (lamAt x y z t / (√(t + x) * √(t + y) * (√(t + z) * √(t + z) * √(t + z)) * ((√(t + z) + √(t + x)) * (√(t + z) + √(t + y))))) t := by
  have px : 0 < t + x := by linarith
  have py : 0 < t + y := by linarith
  have pz : 0 < t + z := by linarith
  have dx := sqrt_shift_deriv px
  have dy := sqrt_shift_deriv py
  have dz := sqrt_shift_deriv pz
  have qx : 0 < √(t + x) := Real.sqrt_pos.2 px
  have qy : 0 < √(t + y) := Real.sqrt_pos.2 py
  have qz : 0 < √(t + z) := Real.sqrt_pos.2 pz
  have h := (hasDerivAt_const t (-2 : ℝ)).div (dz.mul ((dz.add dx).mul (dz.add dy))) (by simp only [Pi.mul_apply, Pi.add_apply]; positivity)
  refine h.congr_deriv ?_
  simp only [Pi.mul_apply, Pi.add_apply, lamAt]
  generalize √(t + x) = X at *
  generalize √(t + y) = Y at *
  generalize √(t + z) = Z at *
  field_simp
  ring

theorem dup_tendsto : Filter.Tendsto (fun t : ℝ => -2 / (√(t + z) * ((√(t + z) + √(t + x)) * (√(t + z) + √(t + y)))))
    Filter.atTop (nhds 0) := by
  have h0 : ∀ a : ℝ, Filter.Tendsto (fun t : ℝ => √(t + a)) Filter.atTop Filter.atTop := fun a =>
    Real.tendsto_sqrt_atTop.comp (Filter.tendsto_atTop_add_const_right _ a Filter.tendsto_id)
  have h1 := (h0 z).atTop_add_atTop (h0 x)
  have h2 := (h0 z).atTop_add_atTop (h0 y)
  exact Filter.Tendsto.const_div_atTop ((h0 z).atTop_mul_atTop₀ (h1.atTop_mul_atTop₀ h2)) _

/-- the difference of the two integrands -/
noncomputable def dupDiff (x y z t : ℝ) : ℝ :=
  lamAt x y z t / (√(t + x) * √(t + y) * (√(t + z) * √(t + z) * √(t + z)) * ((√(t + z) + √(t + x)) * (√(t + z) + √(t + y))))

theorem dupDiff_nonneg (t : ℝ) : 0 ≤ dupDiff x y z t := by
  unfold dupDiff lamAt; positivity

theorem dup_cont (hz : 0 < z) : ContinuousWithinAt (fun t => -2 / (√(t + z) * ((√(t + z) + √(t + x)) * (√(t + z) + √(t + y)))))
    (Ici 0) 0 := by
  have qz : 0 < √(0 + z) := Real.sqrt_pos.2 (by linarith)
  apply ContinuousAt.continuousWithinAt
  apply ContinuousAt.div continuousAt_const
  · fun_prop
  · have := Real.sqrt_nonneg (0 + x)
    have := Real.sqrt_nonneg (0 + y)
    positivity

theorem dupDiff_integrable (hx : 0 ≤ x) (hy : 0 ≤ y) (hz : 0 < z) : IntegrableOn (dupDiff x y z) (Ioi 0) :=
  integrableOn_Ioi_deriv_of_nonneg (dup_cont hz) (fun _ ht => dup_antideriv hx hy hz.le ht) (fun t _ => dupDiff_nonneg t) dup_tendsto

theorem dupDiff_integral (hx : 0 ≤ x) (hy : 0 ≤ y) (hz : 0 < z) (lam : ℝ) (hl : lam = √x * (√y + √z) + √y * √z) :
    ∫ t in Ioi (0 : ℝ), dupDiff x y z t = 2 / (√z * (z + lam)) := by
  have h := integral_Ioi_of_hasDerivAt_of_nonneg (dup_cont (x := x) (y := y) hz) (fun _ ht => dup_antideriv hx hy hz.le ht)
    (fun t _ => dupDiff_nonneg t) dup_tendsto
  unfold dupDiff
  rw [h]
  have e := Real.mul_self_sqrt hz.le
  simp only [zero_add]
  rw [hl]
  have : (√z + √x) * (√z + √y) = z + (√x * (√y + √z) + √y * √z) := by linear_combination e
  rw [this]
  ring

/-- the transformed integrand -/
noncomputable def dupRest (x y z t : ℝ) : ℝ :=
  1 / (√(t + x) * √(t + y) * √(t + z) * ((√(t + z) + √(t + x)) * (√(t + z) + √(t + y))))

theorem dupRest_integrable (hx : 0 ≤ x) (hy : 0 ≤ y) (hz : 0 < z) (hxy : 0 < x + y) : IntegrableOn (dupRest x y z) (Ioi 0) := by
  set C : ℝ := 1 + z / (x + y) with hC
  have hC1 : 1 ≤ C := by rw [hC]; have := div_nonneg hz.le hxy.le; linarith
  have hC0 : 0 ≤ C := by linarith
  refine Integrable.mono' ((dupDiff_integrable hx hy hz).const_mul (√C)) ?_ ?_
  · refine Measurable.aestronglyMeasurable ?_
    unfold dupRest
    fun_prop
  · refine (ae_restrict_iff' measurableSet_Ioi).2 (Filter.Eventually.of_forall fun t ht => ?_)
    have ht' : (0 : ℝ) < t := ht
    have px : 0 < t + x := by linarith
    have py : 0 < t + y := by linarith
    have pz : 0 < t + z := by linarith
    have qx : 0 < √(t + x) := Real.sqrt_pos.2 px
    have qy : 0 < √(t + y) := Real.sqrt_pos.2 py
    have qz : 0 < √(t + z) := Real.sqrt_pos.2 pz
    have hZ : √(t + z) ≤ √C * (√(t + x) + √(t + y)) := by
      apply Real.sqrt_le_iff.2
      refine ⟨by positivity, ?_⟩
      rw [mul_pow, Real.sq_sqrt hC0]
      have e1 := Real.sq_sqrt px.le
      have e2 := Real.sq_sqrt py.le
      have h1 : t + x + (t + y) ≤ (√(t + x) + √(t + y)) ^ 2 := by nlinarith
      have h2 : t + z ≤ C * (t + x + (t + y)) := by
        have h3 : z / (x + y) * (x + y) = z := div_mul_cancel₀ _ hxy.ne'
        have h4 : 0 ≤ z / (x + y) := div_nonneg hz.le hxy.le
        rw [hC]
        nlinarith
      exact h2.trans (by gcongr)
    rw [Real.norm_of_nonneg (by unfold dupRest; positivity)]
    have hl : √(t + z) * √(t + z) ≤ √C * lamAt x y z t := by
      have hc := Real.sqrt_nonneg C
      calc √(t + z) * √(t + z) ≤ √(t + z) * (√C * (√(t + x) + √(t + y))) := by gcongr
        _ ≤ √C * lamAt x y z t := by
          unfold lamAt
          have : 0 ≤ √C * (√(t + x) * √(t + y)) := by positivity
          nlinarith
    unfold dupRest dupDiff
    rw [← mul_div_assoc, div_le_div_iff₀ (by positivity) (by positivity)]
    calc 1 * (√(t + x) * √(t + y) * (√(t + z) * √(t + z) * √(t + z)) * ((√(t + z) + √(t + x)) * (√(t + z) + √(t + y))))
        = (√(t + z) * √(t + z)) * (√(t + x) * √(t + y) * √(t + z) * ((√(t + z) + √(t + x)) * (√(t + z) + √(t + y)))) := by ring
      _ ≤ (√C * lamAt x y z t) * (√(t + x) * √(t + y) * √(t + z) * ((√(t + z) + √(t + x)) * (√(t + z) + √(t + y)))) := by gcongr

/-- the duplication theorem of the integral of the second kind -/
theorem carlsonRD_dup (hx : 0 ≤ x) (hy : 0 ≤ y) (hz : 0 < z) (hxy : 0 < x + y) (lam : ℝ) (hl : lam = √x * (√y + √z) + √y * √z) :
    carlsonRD x y z =
      3 * (1 / (√z * (z + lam))) + 1 / 4 * carlsonRD (1 / 4 * (x + lam)) (1 / 4 * (y + lam)) (1 / 4 * (z + lam)) := by
  have h1 : ∫ t in Ioi (0 : ℝ), 1 / (√((t + 1 / 4 * (x + lam)) * (t + 1 / 4 * (y + lam)) * (t + 1 / 4 * (z + lam))) * (t + 1 / 4 * (z + lam))) =
      ∫ t in Ioi (0 : ℝ), 4 * dupRest x y z t := by
    rw [carlson_subst hx hy hz.le]
    refine setIntegral_congr_fun measurableSet_Ioi fun t ht => ?_
    have ht' : (0 : ℝ) < t := ht
    have l0 : lamAt x y z 0 = lam := by simp [lamAt, hl]
    have ex : dupMap x y z t + 1 / 4 * (x + lam) = 1 / 4 * ((√(t + x) + √(t + y)) * (√(t + x) + √(t + z))) := by
      rw [← dupMap_add x y z hx ht' _ rfl, dupMap, l0]; ring
    have ey : dupMap x y z t + 1 / 4 * (y + lam) = 1 / 4 * ((√(t + y) + √(t + x)) * (√(t + y) + √(t + z))) := by
      rw [← dupMap_add y x z hy ht' _ rfl, dupMap, l0, lamAt_perm1]; ring
    have ez : dupMap x y z t + 1 / 4 * (z + lam) = 1 / 4 * ((√(t + z) + √(t + y)) * (√(t + z) + √(t + x))) := by
      rw [← dupMap_add z y x hz.le ht' _ rfl, dupMap, l0, lamAt_perm2]; ring
    have qx : 0 < √(t + x) := Real.sqrt_pos.2 (by linarith)
    have qy : 0 < √(t + y) := Real.sqrt_pos.2 (by linarith)
    have qz : 0 < √(t + z) := Real.sqrt_pos.2 (by linarith)
    rw [ex, ey, ez]
    have e1 : √(1 / 4 * ((√(t + x) + √(t + y)) * (√(t + x) + √(t + z))) * (1 / 4 * ((√(t + y) + √(t + x)) * (√(t + y) + √(t + z)))) *
        (1 / 4 * ((√(t + z) + √(t + y)) * (√(t + z) + √(t + x))))) =
        (√(t + x) + √(t + y)) * (√(t + y) + √(t + z)) * (√(t + z) + √(t + x)) / 8 := by
      rw [Real.sqrt_eq_iff_mul_self_eq (by positivity) (by positivity)]
      ring
    rw [e1]
    unfold dupRest
    field_simp
  have h2 : ∫ t in Ioi (0 : ℝ), 1 / (√((t + x) * (t + y) * (t + z)) * (t + z)) =
      ∫ t in Ioi (0 : ℝ), (dupDiff x y z t + dupRest x y z t) := by
    refine setIntegral_congr_fun measurableSet_Ioi fun t ht => ?_
    have ht' : (0 : ℝ) < t := ht
    have px : 0 < t + x := by linarith
    have py : 0 < t + y := by linarith
    have pz : 0 < t + z := by linarith
    have qx : 0 < √(t + x) := Real.sqrt_pos.2 px
    have qy : 0 < √(t + y) := Real.sqrt_pos.2 py
    have qz : 0 < √(t + z) := Real.sqrt_pos.2 pz
    have e2 : √((t + x) * (t + y) * (t + z)) = √(t + x) * √(t + y) * √(t + z) := by
      rw [Real.sqrt_mul (by positivity), Real.sqrt_mul (by positivity)]
    have e3 := Real.mul_self_sqrt pz.le
    have e4 : 1 / (√((t + x) * (t + y) * (t + z)) * (t + z)) = 1 / (√(t + x) * √(t + y) * √(t + z) * (√(t + z) * √(t + z))) := by
      rw [e2, e3]
    refine e4.trans ?_
    unfold dupRest dupDiff lamAt
    generalize √(t + x) = X at *
    generalize √(t + y) = Y at *
    generalize √(t + z) = Z at *
    field_simp
    ring
  unfold carlsonRD
  rw [h1, h2, integral_add (dupDiff_integrable hx hy hz) (dupRest_integrable hx hy hz hxy), dupDiff_integral hx hy hz lam hl,
    integral_const_mul]
  ring

end Russell.Lab
