import Verif.Lab.GammaTv
import Mathlib.Analysis.Real.Pi.Bounds

/-!
# The Stirling branch of `gamma` (background of property C111)
-/

namespace Russell.Lab

open Real Set

/-- `w` in `stirling` (gamma.rs:72-73 with GS, 47-53), as a function of `1/x` -/
noncomputable def gsPoly (w : ℝ) : ℝ :=
  1 + w * ((((7.87311395793093628397e-04 * w + (-2.29549961613378126380e-04)) * w + (-2.68132617805781232825e-03)) * w + 3.47222221605458667310e-03) * w + 8.33333333333482257126e-02)

def gsPl : List ℤ := [1000000000000000000000000, 83333333333348225712600, 3472222216054586673100, -2681326178057812328250, -229549961613378126380, 787311395793093628397]

/-- `166320` times the first five terms of Stirling's series -/
def gsSl : List ℤ := [0, 13860, 0, -462, 0, 132, 0, -99, 0, 140]

theorem gsPoly_eq (w : ℝ) : gsPoly w = polyEval gsPl w / 10 ^ 24 := by
  simp only [gsPoly, gsPl, polyEval]
  push_cast
  ring

theorem gsSl_eq (x : ℝ) : invSum (stirCoef.take 5) 0 x = polyEval gsSl x⁻¹ / 166320 := by
  simp only [stirCoef, List.take_succ_cons, List.take_zero, invSum, gsSl, polyEval]
  push_cast
  ring

theorem gsPl_pos {w : ℝ} (hw : w ∈ Icc (0 : ℝ) 1) : 0 < polyEval gsPl w := by
  have h : chkChain (addL gsPl [-1]) 1 0 [1] = true := by decide +kernel
  have := chkChain_sound (by norm_num) 0 [1] (by simp) h (by simpa using hw.1) (by simpa using hw.2)
  rw [polyEval_add] at this
  simp only [polyEval] at this
  push_cast at this
  linarith

def gsRF : RF := rfSub (derivL gsPl, gsPl) (derivL gsSl, [166320])

def gsTv : List (ℤ × ℤ) := [(1, 15137), (2, 5696), (3, 2555), (4, 3439), (5, 3543), (6, 3240), (7, 2480), (8, 1538), (9, 604), (10, 586), (11, 794), (12, 794), (13, 747), (14, 518), (15, 210), (16, 418), (17, 623), (18, 682), (19, 682), (20, 604), (21, 405), (22, 210), (23, 518), (24, 725), (25, 794), (26, 794), (27, 662), (28, 316), (29, 725), (30, 1106), (31, 1175), (32, 1041)]

theorem gsTv_chk : tvChk gsRF 1056 (10 ^ 18) 0 gsTv = true := by decide +kernel

noncomputable def gsErr (w : ℝ) : ℝ := log (polyEval gsPl w) - polyEval gsSl w / 166320

theorem gsErr_deriv {w : ℝ} (hw : w ∈ Icc (0 : ℝ) 1) : 0 < polyEval gsRF.2 w ∧ HasDerivAt gsErr (rfEval gsRF w) w := by
  have hp := gsPl_pos hw
  have h1 := rfSub_eval (f := (derivL gsPl, gsPl)) (g := (derivL gsSl, [166320])) (x := w) hp (by simp [polyEval])
  refine ⟨h1.2, ?_⟩
  have d := ((polyEval_deriv gsPl w).log hp.ne').sub ((polyEval_deriv gsSl w).div_const 166320)
  refine d.congr_deriv ?_
  rw [gsRF, h1.1]
  simp [rfEval, polyEval]

theorem gsErr_zero : gsErr 0 = log (10 ^ 24) := by
  simp only [gsErr, gsPl, gsSl, polyEval]
  norm_num

theorem gsErr_bound {w : ℝ} (h0 : 0 ≤ w) (h1 : w ≤ 1 / 33) : |gsErr w - log (10 ^ 24)| ≤ 51 / 10 ^ 18 := by
  have e64 : tvEnd 0 gsTv = 32 := by decide +kernel
  have es : tvSum 0 gsTv = 53361 := by decide +kernel
  have z : (((0 : ℤ) : ℝ) / ((1056 : ℤ) : ℝ)) = 0 := by norm_num
  have o : (((tvEnd 0 gsTv : ℤ) : ℝ) / ((1056 : ℤ) : ℝ)) = 1 / 33 := by rw [e64]; norm_num
  have := tvChk_sound (f := gsRF) (d := 1056) (b := 10 ^ 18) (by norm_num) (by norm_num) gsTv 0 gsTv_chk (F := gsErr)
    (by rw [z, o]; exact fun x hx => gsErr_deriv ⟨hx.1, hx.2.trans (by norm_num)⟩) (x := w) (by rw [z, o]; exact ⟨h0, h1⟩)
  rw [es, z, gsErr_zero] at this
  refine (le_add_of_nonneg_right (abs_nonneg _)).trans (this.trans ?_)
  norm_num

/-- the value of `SQRT_TWO_PI` (gamma.rs:55) -/
theorem sqrtTwoPi_near : |log 2.506628274631000502417 - log (2 * π) / 2| ≤ 1 / 10 ^ 20 := by
  have p1 := Real.pi_gt_d20
  have p2 := Real.pi_lt_d20
  have hp := Real.pi_pos
  have e : log 2.506628274631000502417 - log (2 * π) / 2 = log (2.506628274631000502417 ^ 2 / (2 * π)) / 2 := by
    rw [log_div (by norm_num) (by positivity), log_pow]
    push_cast
    ring
  have h := abs_log_le (t := 2.506628274631000502417 ^ 2 / (2 * π)) (e := 1 / 10 ^ 20) (by norm_num) (by
    rw [abs_le, neg_le_sub_iff_le_add, sub_le_iff_le_add, div_le_iff₀ (by positivity : 0 < 2 * π)]
    refine ⟨?_, ?_⟩
    · have : 1 - 1 / 10 ^ 20 ≤ 2.506628274631000502417 ^ 2 / (2 * π) := by
        rw [le_div_iff₀ (by positivity)]
        norm_num at *
        linarith
      linarith
    · norm_num at *
      linarith)
  rw [e, abs_div, abs_two]
  linarith

theorem gsGap {x : ℝ} (hx : 33 ≤ x) : |invSum (stirCoef.take 5) 0 x - stirMu x| ≤ 1 / 10 ^ 18 := by
  have h0 : 0 < x := by linarith
  have h1 := stirMu_lt_5 h0
  have h2 := stirMu_gt_6 h0
  have e : invSum (stirCoef.take 5) 0 x - invSum (stirCoef.take 6) 0 x = 691 / 360360 * x⁻¹ ^ 11 := by
    simp only [stirCoef, List.take_succ_cons, List.take_zero, invSum]
    ring
  have h3 : x⁻¹ ^ 11 ≤ (33 : ℝ)⁻¹ ^ 11 := by gcongr
  rw [abs_of_nonneg (by linarith)]
  norm_num at *
  linarith

/-- the value of `stirling` for `x ≤ 200`, the product of the two results -/
noncomputable def gsVal (x : ℝ) : ℝ := x ^ (x - 0.5) / exp x * (2.506628274631000502417 * gsPoly (1 / x))

theorem gsVal_accurate {x : ℝ} (hx : 33 ≤ x) : |gsVal x - Gamma x| ≤ 1 / 10 ^ 16 * Gamma x := by
  have h0 : 0 < x := by linarith
  have hG : 0 < Gamma x := Gamma_pos_of_pos h0
  have hw0 : 0 ≤ x⁻¹ := by positivity
  have hw1 : x⁻¹ ≤ 1 / 33 := by rw [← one_div]; exact one_div_le_one_div_of_le (by norm_num) hx
  have hp := gsPl_pos (w := x⁻¹) ⟨hw0, hw1.trans (by norm_num)⟩
  have hpp : 0 < gsPoly (1 / x) := by rw [one_div, gsPoly_eq]; positivity
  have hv : 0 < gsVal x := by unfold gsVal; positivity
  have hl : log (gsVal x / Gamma x) = (gsErr x⁻¹ - log (10 ^ 24)) + (log 2.506628274631000502417 - log (2 * π) / 2) + (invSum (stirCoef.take 5) 0 x - stirMu x) := by
    rw [log_div hv.ne' hG.ne', gsVal, log_mul (by positivity) (by positivity), log_div (by positivity) (by positivity), log_exp, log_rpow h0,
      log_mul (by norm_num) hpp.ne', one_div, gsPoly_eq, log_div hp.ne' (by norm_num), gsErr, gsSl_eq, stirMu]
    norm_num
    ring
  have hb : |log (gsVal x / Gamma x)| ≤ 99 / 10 ^ 18 := by
    rw [hl]
    have a1 := gsErr_bound hw0 hw1
    have a2 := sqrtTwoPi_near
    have a3 := gsGap hx
    have := abs_add_three (gsErr x⁻¹ - log (10 ^ 24)) (log 2.506628274631000502417 - log (2 * π) / 2) (invSum (stirCoef.take 5) 0 x - stirMu x)
    refine this.trans ((add_le_add (add_le_add a1 a2) a3).trans ?_)
    norm_num
  have ht : 0 < gsVal x / Gamma x := by positivity
  generalize hτ : gsVal x / Gamma x = t at *
  have e2 : gsVal x = t * Gamma x := by rw [← hτ]; field_simp
  rw [e2, ← sub_one_mul, abs_mul, abs_of_pos hG]
  refine mul_le_mul_of_nonneg_right ?_ hG.le
  have h4 := Real.abs_exp_sub_one_sub_id_le (x := log t) (hb.trans (by norm_num))
  rw [exp_log ht] at h4
  have h5 : (log t) ^ 2 ≤ (99 / 10 ^ 18) ^ 2 := sq_le_sq' (by linarith [(abs_le.1 hb).1]) (abs_le.1 hb).2
  have h6 : |t - 1| ≤ |t - 1 - log t| + |log t| := by
    have := abs_add_le (t - 1 - log t) (log t)
    rwa [sub_add_cancel] at this
  norm_num at *
  linarith

end Russell.Lab
