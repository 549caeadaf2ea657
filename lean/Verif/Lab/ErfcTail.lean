import Verif.Lab.ErfTail
import Verif.Lab.LnGamma

/-!
# Accuracy of the tails of `erfc` (background of property C115)
-/

namespace Russell.Lab

open Real Set Filter Topology

theorem log_sqrt_pi_near : |log √π - 57236494292470008707 / 10 ^ 20| ≤ 6 / 10 ^ 19 := by
  have h1 := abs_le.1 log_two_pi_near
  have h2 := abs_le.1 log_two_near
  have e : log √π = (log (2 * π) - log 2) / 2 := by
    rw [log_sqrt pi_pos.le, log_mul (by norm_num) pi_pos.ne']; ring
  rw [e, abs_le]
  generalize log (2 * π) = a at *
  generalize log 2 = b at *
  norm_num at h1 h2 ⊢
  constructor <;> linarith [h1.1, h1.2, h2.1, h2.2]

theorem etB_zero : |etH rBl sBl 0 + etK| ≤ 14 / 10 ^ 18 := by
  have hl := abs_le.1 log_sqrt_pi_near
  have e : etH rBl sBl 0 + etK = polyEval rBl 0 / polyEval sBl 0 - 0.5625 + log √π := by
    have e1 : polyEval (etN rBl sBl) 0 = 2 * (polyEval sBl 0) ^ 2 := by
      rw [nBl_lit]; simp only [nBl, sBl, polyEval]; norm_num
    have hs := sBl_pos (y := 0) le_rfl (by norm_num)
    rw [etH, etK, e1, log_mul (by norm_num) (by positivity), log_pow, pow_one]
    push_cast
    ring
  rw [e]
  simp only [rBl, sBl, polyEval]
  generalize log √π = a at *
  rw [abs_le]
  norm_num at hl ⊢
  constructor <;> linarith [hl.1, hl.2]

theorem etB_bound {y : ℝ} (h0 : 0 ≤ y) (h1 : y ≤ 49 / 400) : |etH rBl sBl y + etK| ≤ 114 / 10 ^ 18 := by
  have h := etB_var h0 h1
  have hz := etB_zero
  have e : etH rBl sBl y + etK = (etH rBl sBl 0 + etK) + (etH rBl sBl y - etH rBl sBl 0) := by ring
  have := abs_add_le (etH rBl sBl 0 + etK) (etH rBl sBl y - etH rBl sBl 0)
  rw [← e] at this
  have := abs_nonneg (etH rBl sBl (49 / 400) - etH rBl sBl y)
  norm_num at h hz ⊢
  linarith

theorem etA_start : |etH rAl sAl (49 / 400) + etK| ≤ 180 / 10 ^ 18 := by
  have hB := etB_bound (y := 49 / 400) (by norm_num) le_rfl
  have sB := sBl_pos (y := 49 / 400) (by norm_num) le_rfl
  have sA := sAl_pos (y := 49 / 400) le_rfl (by norm_num)
  have nB := nBl_pos (y := 49 / 400) (by norm_num) le_rfl
  have nA := nAl_pos (y := 49 / 400) le_rfl (by norm_num)
  obtain ⟨t, ht⟩ : ∃ t, t = polyEval nAl (49 / 400) / polyEval sAl (49 / 400) ^ 2 / (polyEval nBl (49 / 400) / polyEval sBl (49 / 400) ^ 2) := ⟨_, rfl⟩
  have e : etH rAl sAl (49 / 400) + etK = (etH rBl sBl (49 / 400) + etK) +
      (polyEval rAl (49 / 400) / polyEval sAl (49 / 400) - polyEval rBl (49 / 400) / polyEval sBl (49 / 400)) + log t := by
    rw [ht, log_div (by positivity) (by positivity), log_div nA.ne' (by positivity), log_div nB.ne' (by positivity), log_pow, log_pow, etH, etH,
      nAl_lit, nBl_lit, pow_one, pow_one]
    push_cast
    ring
  have h2 : |log t| ≤ 2 * (32 / 10 ^ 18) := by
    refine abs_log_le (by norm_num) ?_
    rw [ht, abs_le]
    simp only [nAl, nBl, sAl, sBl, polyEval]
    norm_num
  have h3 : |polyEval rAl (49 / 400) / polyEval sAl (49 / 400) - polyEval rBl (49 / 400) / polyEval sBl (49 / 400)| ≤ 15 / 10 ^ 19 := by
    rw [abs_le]
    simp only [rAl, rBl, sAl, sBl, polyEval]
    norm_num
  have := abs_add_three (etH rBl sBl (49 / 400) + etK)
    (polyEval rAl (49 / 400) / polyEval sAl (49 / 400) - polyEval rBl (49 / 400) / polyEval sBl (49 / 400)) (log t)
  rw [← e] at this
  norm_num at hB h2 h3 ⊢
  linarith

theorem etA_bound {y : ℝ} (h0 : 49 / 400 ≤ y) (h1 : y ≤ 16 / 25) : |etH rAl sAl y + etK| ≤ 529 / 10 ^ 18 := by
  have h := etA_var h0 h1
  have hz := etA_start
  have e : etH rAl sAl y + etK = (etH rAl sAl (49 / 400) + etK) + (etH rAl sAl y - etH rAl sAl (49 / 400)) := by ring
  have := abs_add_le (etH rAl sAl (49 / 400) + etK) (etH rAl sAl y - etH rAl sAl (49 / 400))
  rw [← e] at this
  have := abs_nonneg (etH rAl sAl (16 / 25) - etH rAl sAl y)
  norm_num at h hz ⊢
  linarith

theorem exp_sub_one_le {h e : ℝ} (hh : |h| ≤ e) (he : e ≤ 1 / 10 ^ 10) : |exp h - 1| ≤ e + e / 10 ^ 10 := by
  have h1 := abs_exp_sub_one_sub_id_le (x := h) (hh.trans (he.trans (by norm_num)))
  have h2 := abs_add_le (exp h - 1 - h) h
  have e0 : 0 ≤ e := (abs_nonneg h).trans hh
  have h3 : h ^ 2 ≤ e / 10 ^ 10 := by
    rw [← sq_abs]
    calc |h| ^ 2 ≤ e ^ 2 := by gcongr
      _ = e * e := sq e
      _ ≤ e * (1 / 10 ^ 10) := by gcongr
      _ = e / 10 ^ 10 := by ring
  rw [sub_add_cancel] at h2
  linarith

theorem erfc_tendsto : Tendsto (fun x => 1 - erfR x) atTop (𝓝 0) := by
  have := erfR_tendsto.const_sub 1
  simpa using this

theorem erfc_deriv (c x : ℝ) : HasDerivAt (fun x => c * (1 - erfR x)) (c * -(2 / √π * exp (-x ^ 2))) x := ((erfR_deriv x).const_sub 1).const_mul c

theorem inv_sq_mem {x a b : ℝ} (ha : 0 < a) (h : a ≤ x) (hb : 1 / a ^ 2 ≤ b) : 0 ≤ 1 / x ^ 2 ∧ 1 / x ^ 2 ≤ b := by
  have : 0 < x := by linarith
  refine ⟨by positivity, le_trans ?_ hb⟩
  gcongr

theorem etGB_tendsto : Tendsto (etG rBl sBl) atTop (𝓝 0) := by
  refine squeeze_zero' ?_ ?_ (tendsto_inv_atTop_zero)
  · filter_upwards [eventually_ge_atTop (20 / 7)] with x hx
    have : 0 < x := by linarith
    rw [etG]; positivity
  · filter_upwards [eventually_ge_atTop (20 / 7)] with x hx
    have hx0 : 0 < x := by linarith
    have hy := inv_sq_mem (a := 20 / 7) (b := 49 / 400) (by norm_num) hx (by norm_num)
    have hs := sBl_pos hy.1 hy.2
    have hr : polyEval rBl (1 / x ^ 2) ≤ 0 := by
      obtain ⟨y, e⟩ : ∃ y, y = 1 / x ^ 2 := ⟨_, rfl⟩
      rw [← e] at hy ⊢
      have h0 := hy.1
      have : 0 ≤ polyEval (smulL (-1) rBl) y := by
        simp only [rBl, smulL, List.map, polyEval]
        push_cast
        positivity
      rw [polyEval_smul] at this
      push_cast at this
      linarith
    have : exp (-x ^ 2 - 0.5625 + polyEval rBl (1 / x ^ 2) / polyEval sBl (1 / x ^ 2)) ≤ 1 := by
      rw [exp_le_one_iff]
      have := div_nonpos_of_nonpos_of_nonneg hr hs.le
      nlinarith [sq_nonneg x]
    rw [etG, inv_eq_one_div]
    gcongr

theorem etB_accurate {x : ℝ} (hx : 20 / 7 ≤ x) : |etG rBl sBl x - (1 - erfR x)| ≤ 115 / 10 ^ 18 * (1 - erfR x) := by
  have hd : ∀ z, 20 / 7 ≤ z → HasDerivAt (etG rBl sBl) (-(2 / √π * exp (-z ^ 2)) * exp (etH rBl sBl (1 / z ^ 2) + etK)) z := fun z hz => by
    have hy := inv_sq_mem (a := 20 / 7) (b := 49 / 400) (by norm_num) hz (by norm_num)
    exact etG_deriv (by linarith) (sBl_pos hy.1 hy.2) (by rw [nBl_lit]; exact nBl_pos hy.1 hy.2)
  have hH : ∀ z, 20 / 7 ≤ z → |exp (etH rBl sBl (1 / z ^ 2) + etK) - 1| ≤ 115 / 10 ^ 18 := fun z hz => by
    have hy := inv_sq_mem (a := 20 / 7) (b := 49 / 400) (by norm_num) hz (by norm_num)
    refine (exp_sub_one_le (etB_bound hy.1 hy.2) (by norm_num)).trans (by norm_num)
  have hp := sqrt_pos.2 pi_pos
  have up := tail_compare (u := fun x => (1 + 115 / 10 ^ 18) * (1 - erfR x)) (v := etG rBl sBl) (fun z _ => erfc_deriv _ z) hd
    (by simpa using erfc_tendsto.const_mul (1 + 115 / 10 ^ 18)) etGB_tendsto (fun z hz => by
      have h := (abs_le.1 (hH z hz)).2
      have h0 : 0 < 2 / √π * exp (-z ^ 2) := by positivity
      nlinarith) hx
  have low := tail_compare (v := fun x => (1 - 115 / 10 ^ 18) * (1 - erfR x)) (u := etG rBl sBl) hd (fun z _ => erfc_deriv _ z) etGB_tendsto
    (by simpa using erfc_tendsto.const_mul (1 - 115 / 10 ^ 18)) (fun z hz => by
      have h := (abs_le.1 (hH z hz)).1
      have h0 : 0 < 2 / √π * exp (-z ^ 2) := by positivity
      nlinarith) hx
  rw [abs_le]
  constructor <;> linarith

theorem etA_end : |etG rAl sAl (20 / 7) - (1 - erfR (20 / 7))| ≤ 119 / 10 ^ 18 * (1 - erfR (20 / 7)) := by
  have hB := etB_accurate (x := 20 / 7) le_rfl
  have h3 : |polyEval rAl (49 / 400) / polyEval sAl (49 / 400) - polyEval rBl (49 / 400) / polyEval sBl (49 / 400)| ≤ 15 / 10 ^ 19 := by
    rw [abs_le]
    simp only [rAl, rBl, sAl, sBl, polyEval]
    norm_num
  have e : etG rAl sAl (20 / 7) = etG rBl sBl (20 / 7) *
      exp (polyEval rAl (49 / 400) / polyEval sAl (49 / 400) - polyEval rBl (49 / 400) / polyEval sBl (49 / 400)) := by
    rw [etG, etG, show (1 : ℝ) / (20 / 7) ^ 2 = 49 / 400 by norm_num, div_mul_eq_mul_div, ← exp_add]
    congr 2
    ring
  have h4 := exp_sub_one_le h3 (by norm_num)
  rw [e]
  generalize exp _ = r at *
  have hc := erfR_lt_one (20 / 7)
  generalize erfR (20 / 7) = a at *
  generalize etG rBl sBl (20 / 7) = g at *
  have b1 := abs_le.1 hB
  have b2 : |g| ≤ 2 * (1 - a) := by
    rw [abs_le]; constructor <;> linarith
  have e2 : g * r - (1 - a) = (g - (1 - a)) + g * (r - 1) := by ring
  rw [e2]
  refine (abs_add_le _ _).trans ?_
  rw [abs_mul]
  have := mul_le_mul b2 h4 (abs_nonneg _) (by linarith)
  norm_num at hB this ⊢
  linarith

theorem etA_accurate {x : ℝ} (hx : 5 / 4 ≤ x) (hx1 : x ≤ 20 / 7) : |etG rAl sAl x - (1 - erfR x)| ≤ 530 / 10 ^ 18 * (1 - erfR x) := by
  have hr : ∀ z ∈ Icc (5 / 4 : ℝ) (20 / 7), 49 / 400 ≤ 1 / z ^ 2 ∧ 1 / z ^ 2 ≤ 16 / 25 := fun z hz => by
    refine ⟨?_, (inv_sq_mem (a := 5 / 4) (by norm_num) hz.1 (by norm_num)).2⟩
    have h1 : 0 < z := by linarith [hz.1]
    rw [le_div_iff₀ (by positivity)]
    nlinarith [hz.2]
  have hd : ∀ z ∈ Icc (5 / 4 : ℝ) (20 / 7),
      HasDerivAt (etG rAl sAl) (-(2 / √π * exp (-z ^ 2)) * exp (etH rAl sAl (1 / z ^ 2) + etK)) z := fun z hz => by
    have hy := hr z hz
    exact etG_deriv (by linarith [hz.1]) (sAl_pos hy.1 hy.2) (by rw [nAl_lit]; exact nAl_pos hy.1 hy.2)
  have hH : ∀ z ∈ Icc (5 / 4 : ℝ) (20 / 7), |exp (etH rAl sAl (1 / z ^ 2) + etK) - 1| ≤ 530 / 10 ^ 18 := fun z hz => by
    have hy := hr z hz
    refine (exp_sub_one_le (etA_bound hy.1 hy.2) (by norm_num)).trans (by norm_num)
  have hp := sqrt_pos.2 pi_pos
  have he := abs_le.1 etA_end
  have hc := erfR_lt_one (20 / 7)
  have up := seg_compare (u := fun x => (1 + 530 / 10 ^ 18) * (1 - erfR x)) (v := etG rAl sAl) (fun z _ => erfc_deriv _ z) hd
    (by linarith) (fun z hz => by
      have h := (abs_le.1 (hH z hz)).2
      have h0 : 0 < 2 / √π * exp (-z ^ 2) := by positivity
      nlinarith) (x := x) ⟨hx, hx1⟩
  have low := seg_compare (v := fun x => (1 - 530 / 10 ^ 18) * (1 - erfR x)) (u := etG rAl sAl) hd (fun z _ => erfc_deriv _ z)
    (by linarith) (fun z hz => by
      have h := (abs_le.1 (hH z hz)).1
      have h0 : 0 < 2 / √π * exp (-z ^ 2) := by positivity
      nlinarith) (x := x) ⟨hx, hx1⟩
  rw [abs_le]
  constructor <;> linarith

end Russell.Lab
