import Verif.Lab.BesselAcc
import Verif.Lab.EulerGamma
import Mathlib.Analysis.SpecialFunctions.Log.Deriv

/-!
# The Bessel functions `Y₀` and `Y₁` (background of property C118)

The functions are defined by their series with harmonic numbers. They satisfy the same equations as `J₀` and `J₁`. Nothing here refers to the code.
-/

namespace Russell.Lab

open Nat (factorial)
open scoped Nat
open Real Set

/-- terms of a Bessel series with weights -/
noncomputable def wTerm (w : ℕ → ℝ) (n : ℕ) (h : ℝ) (m : ℕ) : ℝ := w m * besTerm (-1) n h m

theorem wTerm_abs_le {w : ℕ → ℝ} (hw : ∀ m, |w m| ≤ 2 ^ m) (n : ℕ) (h : ℝ) (m : ℕ) : |wTerm w n h m| ≤ |h| ^ n / (n ! : ℝ) * ((2 * h ^ 2) ^ m / (m ! : ℝ)) := by
  have h1 := besTerm_abs_le (-1) n h m
  rw [abs_neg, abs_one, one_mul] at h1
  unfold wTerm
  rw [abs_mul]
  calc |w m| * |besTerm (-1) n h m| ≤ 2 ^ m * (|h| ^ n / (n ! : ℝ) * ((h ^ 2) ^ m / (m ! : ℝ))) := by gcongr; exact hw m
    _ = _ := by rw [mul_pow]; ring

theorem wTerm_summable {w : ℕ → ℝ} (hw : ∀ m, |w m| ≤ 2 ^ m) (n : ℕ) (h : ℝ) : Summable (wTerm w n h) :=
  Summable.of_norm_bounded ((Real.summable_pow_div_factorial (2 * h ^ 2)).mul_left (|h| ^ n / (n ! : ℝ))) (wTerm_abs_le hw n h)

theorem wTerm_bound_ball {w : ℕ → ℝ} (hw : ∀ m, |w m| ≤ 2 ^ m) (n : ℕ) {x R : ℝ} (hx : x ∈ Ioo (-R) R) (m : ℕ) :
    |wTerm w n (x / 2) m| ≤ |R / 2| ^ n / (n ! : ℝ) * ((2 * (R / 2) ^ 2) ^ m / (m ! : ℝ)) := by
  refine (wTerm_abs_le hw n (x / 2) m).trans ?_
  have h2 : |x / 2| ≤ |R / 2| := by
    rw [abs_div, abs_div]
    have := (abs_lt.2 hx).le.trans (le_abs_self R)
    gcongr
  have h3 : (x / 2) ^ 2 ≤ (R / 2) ^ 2 := sq_le_sq.2 h2
  gcongr

/-- harmonic numbers -/
noncomputable def hW (m : ℕ) : ℝ := (harmonic m : ℝ)
noncomputable def hW' (m : ℕ) : ℝ := hW (m + 1)
/-- averages of two consecutive harmonic numbers -/
noncomputable def hA (m : ℕ) : ℝ := (hW m + hW (m + 1)) / 2

theorem hW_succ (m : ℕ) : hW (m + 1) = hW m + 1 / ((m : ℝ) + 1) := by
  unfold hW
  rw [harmonic_succ]
  push_cast
  ring

theorem hW_zero : hW 0 = 0 := by simp [hW]

theorem hW_nonneg (m : ℕ) : 0 ≤ hW m := by
  induction m with
  | zero => rw [hW_zero]
  | succ m ih => rw [hW_succ]; positivity

theorem hW_le (m : ℕ) : hW m ≤ m := by
  induction m with
  | zero => simp [hW_zero]
  | succ m ih =>
    rw [hW_succ]
    push_cast
    have : 1 / ((m : ℝ) + 1) ≤ 1 := by rw [div_le_one (by positivity)]; linarith [Nat.cast_nonneg (α := ℝ) m]
    linarith

theorem hW'_bound (m : ℕ) : |hW' m| ≤ 2 ^ m := by
  rw [hW', abs_of_nonneg (hW_nonneg _)]
  refine (hW_le (m + 1)).trans ?_
  exact_mod_cast Nat.lt_two_pow_self (n := m)

theorem hW_bound (m : ℕ) : |hW m| ≤ 2 ^ m := by
  refine le_trans ?_ (hW'_bound m)
  rw [abs_of_nonneg (hW_nonneg _), hW', abs_of_nonneg (hW_nonneg _), hW_succ]
  have : 0 ≤ 1 / ((m : ℝ) + 1) := by positivity
  linarith

theorem hA_bound (m : ℕ) : |hA m| ≤ 2 ^ m := by
  have h1 := abs_le.1 (hW_bound m)
  have h2 := abs_le.1 (hW'_bound m)
  unfold hA
  unfold hW' at h2
  rw [abs_le]
  constructor <;> linarith [h1.1, h1.2, h2.1, h2.2]

theorem besTerm_one_eq (h : ℝ) (m : ℕ) : besTerm (-1) 1 h m = h / ((m : ℝ) + 1) * besTerm (-1) 0 h m := by
  have hm : ((m ! : ℕ) : ℝ) ≠ 0 := by positivity
  have hm1 : ((m : ℝ) + 1) ≠ 0 := by positivity
  simp only [besTerm, add_zero, Nat.factorial_succ, pow_succ]
  push_cast
  field_simp

theorem besTerm_zero_succ (h : ℝ) (m : ℕ) : besTerm (-1) 0 h (m + 1) = -(h / ((m : ℝ) + 1)) * besTerm (-1) 1 h m := by
  have hm : ((m ! : ℕ) : ℝ) ≠ 0 := by positivity
  have hm1 : ((m : ℝ) + 1) ≠ 0 := by positivity
  simp only [besTerm, add_zero, Nat.factorial_succ, pow_succ, mul_add, mul_one]
  push_cast
  field_simp

/-- the series in `Y₀` and `Y₁` -/
noncomputable def yS0 (x : ℝ) : ℝ := ∑' m, wTerm hW 0 (x / 2) m
noncomputable def yS1 (x : ℝ) : ℝ := ∑' m, wTerm hA 1 (x / 2) m

theorem yS0_deriv (x : ℝ) : HasDerivAt yS0 (-∑' m, wTerm hW' 1 (x / 2) m) x := by
  obtain ⟨R, hR⟩ : ∃ R, |x| < R := exists_gt _
  have hx := abs_lt.1 hR
  have h0 : (0 : ℝ) ∈ Ioo (-R) R := by have := (abs_nonneg x).trans_lt hR; constructor <;> linarith
  have h := hasDerivAt_tsum_of_isPreconnected (u := fun m => |R / 2| ^ 1 / (1 ! : ℝ) * ((2 * (R / 2) ^ 2) ^ m / (m ! : ℝ)))
    ((Real.summable_pow_div_factorial _).mul_left _) isOpen_Ioo isPreconnected_Ioo (g := fun m x => wTerm hW 0 (x / 2) (m + 1))
    (g' := fun m x => -wTerm hW' 1 (x / 2) m) (fun m y _ => by
      refine ((besTerm_zero_deriv m y).const_mul (hW (m + 1))).congr_deriv ?_
      unfold wTerm hW'
      ring)
    (fun m y hy => by rw [norm_neg]; exact wTerm_bound_ball hW'_bound 1 hy m) h0 ((summable_nat_add_iff 1).2 (wTerm_summable hW_bound 0 (0 / 2))) (show x ∈ Ioo (-R) R from hx)
  have e : yS0 = fun x => ∑' m, wTerm hW 0 (x / 2) (m + 1) := by
    funext y
    rw [yS0, (wTerm_summable hW_bound 0 (y / 2)).tsum_eq_zero_add]
    simp [wTerm, hW_zero]
  rw [e]
  refine h.congr_deriv ?_
  rw [tsum_neg]

theorem mul_yS1_deriv (x : ℝ) : HasDerivAt (fun x => x * yS1 x) (x * ∑' m, wTerm hA 0 (x / 2) m) x := by
  obtain ⟨R, hR⟩ : ∃ R, |x| < R := exists_gt _
  have hx := abs_lt.1 hR
  have h0 : (0 : ℝ) ∈ Ioo (-R) R := by have := (abs_nonneg x).trans_lt hR; constructor <;> linarith
  have h := hasDerivAt_tsum_of_isPreconnected (u := fun m => |R| * (|R / 2| ^ 0 / (0 ! : ℝ) * ((2 * (R / 2) ^ 2) ^ m / (m ! : ℝ))))
    (((Real.summable_pow_div_factorial _).mul_left _).mul_left _) isOpen_Ioo isPreconnected_Ioo (g := fun m x => x * wTerm hA 1 (x / 2) m)
    (g' := fun m x => x * wTerm hA 0 (x / 2) m) (fun m y _ => by
      have := (mul_besTerm_one_deriv m y).const_mul (hA m)
      refine (this.congr_of_eventuallyEq (Filter.Eventually.of_forall fun z => ?_)).congr_deriv ?_
      · simp only [wTerm]; ring
      · simp only [wTerm]; ring)
    (fun m y hy => by
      rw [norm_mul]
      have h1 := wTerm_bound_ball hA_bound 0 hy m
      have h2 : |y| ≤ |R| := (abs_lt.2 hy).le.trans (le_abs_self R)
      simp only [Real.norm_eq_abs]
      gcongr) h0 ((wTerm_summable hA_bound 1 (0 / 2)).mul_left 0) (show x ∈ Ioo (-R) R from hx)
  simp only [tsum_mul_left] at h
  exact h

/-- the Bessel functions of the second kind of the orders 0 and 1 (for `x > 0`) by their series, and of higher orders by the recurrence -/
noncomputable def besselY : ℕ → ℝ → ℝ
  | 0, x => 2 / π * ((log (x / 2) + eulerMascheroniConstant) * besselJ 0 x - yS0 x)
  | 1, x => 2 / π * ((log (x / 2) + eulerMascheroniConstant) * besselJ 1 x - 1 / x - yS1 x)
  | n + 2, x => 2 * (n + 1) / x * besselY (n + 1) x - besselY n x

theorem yS_rel0 {x : ℝ} (hx : 0 < x) : besselJ 0 x / x + ∑' m, wTerm hW' 1 (x / 2) m = 1 / x + yS1 x := by
  have hj : besselJ 0 x = 1 + ∑' m, besTerm (-1) 0 (x / 2) (m + 1) := by
    rw [besselJ, bes, (besTerm_summable (-1) 0 (x / 2)).tsum_eq_zero_add]
    simp [besTerm]
  have e1 : ∀ m, besTerm (-1) 0 (x / 2) (m + 1) / x + wTerm hW' 1 (x / 2) m = wTerm hA 1 (x / 2) m := by
    intro m
    rw [besTerm_zero_succ]
    unfold wTerm hA hW'
    rw [hW_succ]
    have hm1 : ((m : ℝ) + 1) ≠ 0 := by positivity
    field_simp
    ring
  have s0 := ((summable_nat_add_iff 1).2 (besTerm_summable (-1) 0 (x / 2))).div_const x
  rw [hj, add_div, add_assoc, ← tsum_div_const, ← s0.tsum_add (wTerm_summable hW'_bound 1 (x / 2)), yS1]
  simp only [e1]

theorem yS_rel1 (x : ℝ) : x * ∑' m, wTerm hA 0 (x / 2) m = besselJ 1 x + x * yS0 x := by
  have e1 : ∀ m, x * wTerm hA 0 (x / 2) m = besTerm (-1) 1 (x / 2) m + x * wTerm hW 0 (x / 2) m := by
    intro m
    rw [besTerm_one_eq]
    unfold wTerm hA
    rw [hW_succ]
    have hm1 : ((m : ℝ) + 1) ≠ 0 := by positivity
    field_simp
    ring
  rw [← tsum_mul_left]
  simp only [e1]
  rw [(besTerm_summable (-1) 1 (x / 2)).tsum_add ((wTerm_summable hW_bound 0 (x / 2)).mul_left x), tsum_mul_left]
  rfl

theorem log_half_deriv {x : ℝ} (hx : 0 < x) : HasDerivAt (fun x => log (x / 2) + eulerMascheroniConstant) (1 / x) x := by
  have := (((hasDerivAt_id x).div_const 2).log (show id x / 2 ≠ 0 by simp; exact hx.ne')).add_const eulerMascheroniConstant
  refine this.congr_deriv ?_
  simp only [id_eq]
  field_simp

theorem besselY_zero_deriv {x : ℝ} (hx : 0 < x) : HasDerivAt (besselY 0) (-besselY 1 x) x := by
  have h := (((log_half_deriv hx).mul (besselJ_zero_deriv x)).sub (yS0_deriv x)).const_mul (2 / π)
  refine HasDerivAt.congr_deriv (f := besselY 0) h ?_
  have := yS_rel0 hx
  simp only [besselY]
  linear_combination 2 / π * this

theorem mul_besselY_one_deriv {x : ℝ} (hx : 0 < x) : HasDerivAt (fun x => x * besselY 1 x) (x * besselY 0 x) x := by
  have h := ((((log_half_deriv hx).mul (mul_besselJ_one_deriv x)).sub_const 1).sub (mul_yS1_deriv x)).const_mul (2 / π)
  have h2 : HasDerivAt (fun x => x * besselY 1 x) _ x := h.congr_of_eventuallyEq (by
    filter_upwards [lt_mem_nhds hx] with y hy
    simp only [besselY, Pi.mul_apply, Pi.sub_apply]
    have := hy.ne'
    field_simp)
  refine h2.congr_deriv ?_
  rw [yS_rel1]
  simp only [besselY]
  field_simp
  ring

theorem besselY_one_deriv {x : ℝ} (hx : 0 < x) : HasDerivAt (besselY 1) (besselY 0 x - besselY 1 x / x) x := by
  have h := (mul_besselY_one_deriv hx).div (hasDerivAt_id x) hx.ne'
  have h2 : HasDerivAt (besselY 1) _ x := h.congr_of_eventuallyEq (by
    filter_upwards [lt_mem_nhds hx] with y hy
    simp only [Pi.div_apply, id_eq]
    field_simp)
  refine h2.congr_deriv ?_
  simp only [id_eq]
  field_simp

theorem besselY_pair : BessPair besselY := ⟨fun _ hx => besselY_zero_deriv hx, fun _ hx => besselY_one_deriv hx⟩

/-- the Wronskian, which shows that `Y₀` and `Y₁` are independent of `J₀` and `J₁` and fixes their scale -/
theorem besselY_wronskian {x : ℝ} (hx : 0 < x) : besselJ 1 x * besselY 0 x - besselJ 0 x * besselY 1 x = 2 / (π * x) := by
  have hd : ∀ y : ℝ, 0 < y → HasDerivAt (fun y => besselJ 0 y - y * besselJ 1 y * yS0 y + besselJ 0 y * (y * yS1 y)) 0 y := by
    intro y hy
    refine (((besselJ_zero_deriv y).sub ((mul_besselJ_one_deriv y).mul (yS0_deriv y))).add ((besselJ_zero_deriv y).mul (mul_yS1_deriv y))).congr_deriv ?_
    rw [yS_rel1]
    have h := yS_rel0 hy
    have h2 : y * ∑' m, wTerm hW' 1 (y / 2) m = 1 + y * yS1 y - besselJ 0 y := by
      have : ∑' m, wTerm hW' 1 (y / 2) m = 1 / y + yS1 y - besselJ 0 y / y := by linarith
      rw [this]
      field_simp
    linear_combination besselJ 1 y * h2
  have hc : ContinuousOn (fun y => besselJ 0 y - y * besselJ 1 y * yS0 y + besselJ 0 y * (y * yS1 y)) (Icc 0 x) := by
    intro y _
    exact ((((besselJ_zero_deriv y).continuousAt.sub ((mul_besselJ_one_deriv y).continuousAt.mul (yS0_deriv y).continuousAt)).add
      ((besselJ_zero_deriv y).continuousAt.mul (mul_yS1_deriv y).continuousAt))).continuousWithinAt
  obtain ⟨c, _, h⟩ := exists_hasDerivAt_eq_slope _ (fun _ => 0) hx hc (fun y hy => hd y hy.1)
  have hJ : besselJ 0 0 = 1 := by
    unfold besselJ bes
    rw [tsum_eq_single 0 (fun m hm => by simp [besTerm, hm])]
    simp [besTerm]
  rw [sub_zero, eq_comm, div_eq_zero_iff, or_iff_left hx.ne'] at h
  simp only [hJ, zero_mul, mul_zero, sub_zero, add_zero] at h
  simp only [besselY]
  have hp := pi_pos.ne'
  field_simp
  linear_combination h

end Russell.Lab
