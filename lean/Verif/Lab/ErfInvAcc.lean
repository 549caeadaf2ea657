import Verif.Lab.ErfInvCore
import Verif.Lab.ErfCore
import Verif.Lab.ErfcTail

/-!
# Accuracy of the approximations of `erf_inv` (background of property C116)
-/

namespace Russell.Lab

open Real Set Filter Topology

/-- the constant of the central range -/
noncomputable def ivK : ℝ := log (2 / √π) - log 100000

/-- the approximation in the central range -/
noncomputable def ivE (n d : List ℤ) (x : ℝ) : ℝ := x * (polyEval n (289 / 1600 - x ^ 2 / 4) / polyEval d (289 / 1600 - x ^ 2 / 4))

theorem ivE_deriv {n d : List ℤ} {x : ℝ} (hd : 0 < polyEval d (289 / 1600 - x ^ 2 / 4)) (hp : 0 < polyEval (ivP n d) (289 / 1600 - x ^ 2 / 4)) :
    HasDerivAt (fun x => erfR (ivE n d x)) (exp (ivH n d (289 / 1600 - x ^ 2 / 4) + ivK)) x := by
  have hr : HasDerivAt (fun x : ℝ => 289 / 1600 - x ^ 2 / 4) (-x / 2) x := by
    refine (((hasDerivAt_pow 2 x).div_const 4).const_sub (289 / 1600)).congr_deriv ?_
    norm_num; ring
  have hq := (quotD_deriv 0 n d hd).comp x hr
  have hE := (hasDerivAt_id x).mul hq
  have hE' : HasDerivAt (ivE n d) _ x := hE.congr_of_eventuallyEq (Eventually.of_forall fun z => by
    simp [ivE])
  have h := (erfR_deriv (ivE n d x)).comp x hE'
  refine h.congr_deriv ?_
  have hs := sqrt_pos.2 pi_pos
  obtain ⟨r, er⟩ : ∃ r, r = 289 / 1600 - x ^ 2 / 4 := ⟨_, rfl⟩
  rw [← er] at hd hp ⊢
  have eP : polyEval (ivP n d) r = 100000 * (polyEval n r * polyEval d r - x ^ 2 / 2 * polyEval (quotD 1 n d) r) := by
    simp only [ivP, polyEval_add, polyEval_smul, polyEval_mul, polyEval]
    push_cast
    rw [er]
    ring
  have eH : exp (ivH n d r + ivK) = polyEval (ivP n d) r / polyEval d r ^ 2 * exp (-(ivE n d x) ^ 2) * (2 / √π) / 100000 := by
    have e1 : ivH n d r + ivK = (log (polyEval (ivP n d) r) - log (polyEval d r ^ 2)) + -(ivE n d x) ^ 2 + log (2 / √π) - log 100000 := by
      rw [ivH, ivK, log_pow, ivE, ← er]
      simp only [polyEval_mul, polyEval]
      push_cast
      have : x ^ 2 = 7225 / 10000 - 4 * r := by rw [er]; ring
      rw [mul_pow, this]
      field_simp
      ring
    rw [e1, exp_sub, exp_add, exp_add, exp_sub, exp_log hp, exp_log (by positivity), exp_log (by positivity), exp_log (by norm_num)]
  rw [eH, eP]
  generalize exp (-(ivE n d x) ^ 2) = z
  simp only [Function.comp_apply, id]
  rw [← er]
  norm_num
  generalize polyEval (quotD 1 n d) r = q
  have := hd.ne'
  field_simp
  ring

/-- the constant of the tails -/
noncomputable def itK : ℝ := log 5 - log √π

theorem itF_deriv {n d : List ℤ} {t : ℤ} {s : ℝ} (hd : 0 < polyEval d s) (hq : 0 < polyEval (quotD 1 n d) s) (hw : 0 < polyEval [t, 10] s) :
    HasDerivAt (fun s => 1 - erfR (polyEval n s / polyEval d s))
      (-(4 * (polyEval [t, 10] s / 10) * exp (-(polyEval [t, 10] s / 10) ^ 2)) * exp (itH n d [t, 10] s + itK)) s := by
  have h1 := quotD_deriv 0 n d hd
  have h := ((erfR_deriv (polyEval n s / polyEval d s ^ (0 + 1))).comp s h1).const_sub 1
  have h' : HasDerivAt (fun s => 1 - erfR (polyEval n s / polyEval d s)) _ s := h.congr_of_eventuallyEq (Eventually.of_forall fun z => by simp)
  refine h'.congr_deriv ?_
  have hs := sqrt_pos.2 pi_pos
  have eH : exp (itH n d [t, 10] s + itK) = exp ((polyEval [t, 10] s / 10) ^ 2) * exp (-(polyEval n s / polyEval d s) ^ 2) *
      (polyEval (quotD 1 n d) s / polyEval d s ^ 2 / polyEval [t, 10] s) * (5 / √π) := by
    have e1 : itH n d [t, 10] s + itK = (polyEval [t, 10] s / 10) ^ 2 + -(polyEval n s / polyEval d s) ^ 2 +
        (log (polyEval (quotD 1 n d) s) - log (polyEval d s ^ 2) - log (polyEval [t, 10] s)) + (log 5 - log √π) := by
      rw [itH, itK, log_pow, polyEval_mul]
      push_cast
      ring
    rw [e1, exp_add, exp_add, exp_add, exp_sub, exp_sub, exp_sub, exp_log hq, exp_log (by positivity), exp_log hw, exp_log (by norm_num), exp_log hs]
  have e2 : exp (-(polyEval [t, 10] s / 10) ^ 2) * exp ((polyEval [t, 10] s / 10) ^ 2) = 1 := by rw [← exp_add]; simp
  rw [eH]
  simp only [zero_add, pow_one]
  generalize exp (-(polyEval n s / polyEval d s) ^ 2) = z
  generalize exp ((polyEval [t, 10] s / 10) ^ 2) = u at *
  generalize exp (-(polyEval [t, 10] s / 10) ^ 2) = v at *
  norm_num
  generalize polyEval (quotD 1 n d) s = q at *
  generalize polyEval [t, 10] s = w at *
  have := hd.ne'
  have := hw.ne'
  rw [show 4 * (w / 10) * v * (u * z * (q / polyEval d s ^ 2 / w) * (5 / √π)) = (v * u) * (4 * (w / 10) * (z * (q / polyEval d s ^ 2 / w) * (5 / √π))) by ring,
    e2]
  field_simp
  ring

/-- a logarithm by means of an exponential -/
theorem anchor {ρ ρ0 v l δ : ℝ} (hl : l ≤ exp (-ρ0)) (h1 : |ρ - ρ0| ≤ 1 / 10 ^ 20) (hv : |v - exp (-ρ0)| ≤ δ) (hl0 : 0 < l) (hδ : δ ≤ l / 100) :
    |ρ + log v| ≤ 1 / 10 ^ 20 + 100 / 99 * (δ / l) := by
  have hE := exp_pos (-ρ0)
  have hv0 : 0 < v := by
    have := (abs_le.1 hv).1
    linarith
  have e : ρ + log v = (ρ - ρ0) + log (v / exp (-ρ0)) := by
    rw [log_div hv0.ne' hE.ne', log_exp]; ring
  have hδ0 : 0 ≤ δ := (abs_nonneg _).trans hv
  have h2 : |v / exp (-ρ0) - 1| ≤ δ / l := by
    rw [div_sub_one hE.ne', abs_div, abs_of_pos hE]
    exact div_le_div₀ hδ0 hv hl0 hl
  have hδ1 : δ / l ≤ 1 / 100 := by rw [div_le_iff₀ hl0]; linarith
  have h3 : |log (v / exp (-ρ0))| ≤ 100 / 99 * (δ / l) := by
    have ht : 0 < v / exp (-ρ0) := by positivity
    have l1 := log_le_sub_one_of_pos ht
    have l2 := one_sub_inv_le_log_of_pos ht
    generalize v / exp (-ρ0) = t at *
    generalize δ / l = e at *
    have h2 := abs_le.1 h2
    have he : 0 ≤ e := by linarith [h2.1, h2.2]
    have l3 : t⁻¹ ≤ 1 + 100 / 99 * e := by
      rw [inv_le_iff_one_le_mul₀ ht]
      have : (1 + 100 / 99 * e) * (1 - e) ≤ (1 + 100 / 99 * e) * t := mul_le_mul_of_nonneg_left (by linarith [h2.1]) (by linarith)
      nlinarith
    rw [abs_le]
    constructor <;> linarith [h2.1, h2.2]
  rw [e]
  exact (abs_add_le _ _).trans (add_le_add h1 h3)

theorem it2_exp : |exp (-(15469133958702965249757 / 10 ^ 22)) - 2129041113968192958927 / 10 ^ 22| ≤ 1 / 10 ^ 19 := by
  have h := exp_neg_series 27 (t := 15469133958702965249757 / 10 ^ 22) (by norm_num)
  generalize exp (-(15469133958702965249757 / 10 ^ 22)) = e at *
  simp only [Finset.sum_range_succ, Finset.sum_range_zero, Nat.factorial] at h
  rw [abs_le]
  norm_num at h ⊢
  constructor <;> linarith [h.1, h.2]

theorem it3_exp : |exp (-(28361528790232201105297 / 10 ^ 22)) - 586508694844506909683 / 10 ^ 22| ≤ 1 / 10 ^ 19 := by
  have h := exp_neg_series 34 (t := 28361528790232201105297 / 10 ^ 22) (by norm_num)
  generalize exp (-(28361528790232201105297 / 10 ^ 22)) = e at *
  simp only [Finset.sum_range_succ, Finset.sum_range_zero, Nat.factorial] at h
  rw [abs_le]
  norm_num at h ⊢
  constructor <;> linarith [h.1, h.2]

theorem it2_endexp : |exp (-(22423784072366883482957 / 10 ^ 22)) - 1062056035718033627468 / 10 ^ 22| ≤ 1 / 10 ^ 19 := by
  have h := exp_neg_series 31 (t := 22423784072366883482957 / 10 ^ 22) (by norm_num)
  generalize exp (-(22423784072366883482957 / 10 ^ 22)) = e at *
  simp only [Finset.sum_range_succ, Finset.sum_range_zero, Nat.factorial] at h
  rw [abs_le]
  norm_num at h ⊢
  constructor <;> linarith [h.1, h.2]

theorem it3_endexp : |exp (-(24622588476237815903847 / 10 ^ 22)) - 852421842286498841693 / 10 ^ 22| ≤ 1 / 10 ^ 19 := by
  have h := exp_neg_series 32 (t := 24622588476237815903847 / 10 ^ 22) (by norm_num)
  generalize exp (-(24622588476237815903847 / 10 ^ 22)) = e at *
  simp only [Finset.sum_range_succ, Finset.sum_range_zero, Nat.factorial] at h
  rw [abs_le]
  norm_num at h ⊢
  constructor <;> linarith [h.1, h.2]

theorem iv1_end : |ivH iAl iBl (289 / 1600) + ivK| ≤ 2 / 10 ^ 16 := by
  have hc := abs_le.1 two_div_sqrt_pi_near
  have hp := sqrt_pos.2 pi_pos
  have hA := iAl_pos (y := 289 / 1600) (by norm_num) le_rfl
  have hB := iBl_pos (y := 289 / 1600) (by norm_num) le_rfl
  have eP : polyEval (ivP iAl iBl) (289 / 1600) = 100000 * (polyEval iAl (289 / 1600) * polyEval iBl (289 / 1600)) := by
    simp only [ivP, polyEval_add, polyEval_smul, polyEval_mul, polyEval]
    push_cast
    ring
  have e : ivH iAl iBl (289 / 1600) + ivK = log (polyEval iAl (289 / 1600) / polyEval iBl (289 / 1600) * (2 / √π)) := by
    rw [log_mul (by positivity) (by positivity), log_div hA.ne' hB.ne', ivH, ivK, eP, log_mul (by norm_num) (by positivity), log_mul hA.ne' hB.ne',
      polyEval_mul [7225, -40000], show polyEval [7225, -40000] (289 / 1600) = 0 by norm_num [polyEval]]
    ring
  rw [e]
  refine (abs_log_le (e := 8 / 10 ^ 17) (by norm_num) ?_).trans (by norm_num)
  generalize 2 / √π = c at *
  simp only [iAl, iBl, polyEval]
  rw [abs_le]
  norm_num at hc ⊢
  constructor <;> linarith [hc.1, hc.2]

theorem iv1_bound {r : ℝ} (h0 : 0 ≤ r) (h1 : r ≤ 289 / 1600) : |ivH iAl iBl r + ivK| ≤ 2375 / 10 ^ 16 := by
  have h := iv1_var h0 h1
  have hz := iv1_end
  have := abs_add_le (ivH iAl iBl (289 / 1600) + ivK) (-(ivH iAl iBl (289 / 1600) - ivH iAl iBl r))
  rw [show ivH iAl iBl (289 / 1600) + ivK + -(ivH iAl iBl (289 / 1600) - ivH iAl iBl r) = ivH iAl iBl r + ivK by ring, abs_neg] at this
  have := abs_nonneg (ivH iAl iBl r - ivH iAl iBl 0)
  norm_num at h hz ⊢
  linarith

/-- in the central range the error function of the approximation is the argument with a relative error of at most `2.38e-13` -/
theorem iv1_accurate {x : ℝ} (h0 : 0 ≤ x) (h1 : x ≤ 17 / 20) : |erfR (ivE iAl iBl x) - x| ≤ 238 / 10 ^ 15 * x := by
  have hr : ∀ z ∈ Icc (0 : ℝ) (17 / 20), 0 ≤ 289 / 1600 - z ^ 2 / 4 ∧ 289 / 1600 - z ^ 2 / 4 ≤ 289 / 1600 := fun z hz => by
    have : z ^ 2 ≤ (17 / 20) ^ 2 := by have := hz.1; have := hz.2; gcongr
    constructor
    · norm_num at this; linarith
    · linarith [sq_nonneg z]
  have hd : ∀ z ∈ Icc (0 : ℝ) (17 / 20), HasDerivAt (fun x => erfR (ivE iAl iBl x) - x) (exp (ivH iAl iBl (289 / 1600 - z ^ 2 / 4) + ivK) - 1) z :=
    fun z hz => (ivE_deriv (iBl_pos (hr z hz).1 (hr z hz).2) (by rw [iPl_lit]; exact iPl_pos (hr z hz).1 (hr z hz).2)).sub (hasDerivAt_id z)
  have hH : ∀ z ∈ Icc (0 : ℝ) (17 / 20), ‖exp (ivH iAl iBl (289 / 1600 - z ^ 2 / 4) + ivK) - 1‖ ≤ 238 / 10 ^ 15 := fun z hz => by
    rw [Real.norm_eq_abs]
    exact (exp_sub_one_le (iv1_bound (hr z hz).1 (hr z hz).2) (by norm_num)).trans (by norm_num)
  have := Convex.norm_image_sub_le_of_norm_hasDerivWithin_le (fun z hz => (hd z hz).hasDerivWithinAt) hH (convex_Icc _ _)
    (x := 0) (y := x) ⟨le_rfl, by norm_num⟩ ⟨h0, h1⟩
  rw [Real.norm_eq_abs, Real.norm_eq_abs] at this
  simpa [ivE, erfR_zero, abs_of_nonneg h0] using this

theorem it2_start : |itH iCl iDl [16, 10] 0 + itK| ≤ 41 / 10 ^ 16 := by
  have hc := abs_le.1 two_div_sqrt_pi_near
  have hx := abs_le.1 it2_exp
  have hp := sqrt_pos.2 pi_pos
  have hq := iQ2l_pos (y := 0) le_rfl (by norm_num)
  have hd := iDl_pos (y := 0) le_rfl (by norm_num)
  have e : itH iCl iDl [16, 10] 0 + itK = (((16 : ℝ) / 10) ^ 2 - (polyEval iCl 0 / polyEval iDl 0) ^ 2) +
      log (polyEval iQ2l 0 / (polyEval iDl 0 ^ 2 * 16) * (5 / 2) * (2 / √π)) := by
    rw [show polyEval iQ2l 0 / (polyEval iDl 0 ^ 2 * 16) * (5 / 2) * (2 / √π) = polyEval iQ2l 0 * 5 / (polyEval iDl 0 ^ 2 * 16 * √π) by
      field_simp, log_div (by positivity) (by positivity), log_mul hq.ne' (by norm_num), log_mul (by positivity) hp.ne', log_mul (by positivity) (by norm_num),
      log_pow, itH, itK, iQ2l_lit, polyEval_mul, show polyEval [16, 10] 0 = 16 by simp [polyEval]]
    push_cast
    ring
  rw [e]
  refine (anchor (ρ0 := 15469133958702965249757 / 10 ^ 22) (δ := 41 / 10 ^ 16 * (98 / 100) * (21279 / 100000)) (l := 21279 / 100000) ?_ ?_ ?_ (by norm_num) (by norm_num)).trans ?_
  · generalize exp (-(15469133958702965249757 / 10 ^ 22 : ℝ)) = z at *
    norm_num at hx ⊢
    linarith [hx.1]
  · simp only [iCl, iDl, polyEval]
    rw [abs_le]
    norm_num
  · generalize 2 / √π = c at *
    generalize exp (-(15469133958702965249757 / 10 ^ 22 : ℝ)) = z at *
    simp only [iQ2l, iDl, polyEval]
    rw [abs_le]
    norm_num at hc hx ⊢
    constructor <;> linarith [hc.1, hc.2, hx.1, hx.2]
  · norm_num

theorem it3_start : |itH iEl iFl [50, 10] 0 + itK| ≤ 81 / 10 ^ 16 := by
  have hc := abs_le.1 two_div_sqrt_pi_near
  have hx := abs_le.1 it3_exp
  have hp := sqrt_pos.2 pi_pos
  have hq := iQ3l_pos (y := 0) le_rfl (by norm_num)
  have hd := iFl_pos (y := 0) le_rfl (by norm_num)
  have e : itH iEl iFl [50, 10] 0 + itK = (((50 : ℝ) / 10) ^ 2 - (polyEval iEl 0 / polyEval iFl 0) ^ 2) +
      log (polyEval iQ3l 0 / (polyEval iFl 0 ^ 2 * 50) * (5 / 2) * (2 / √π)) := by
    rw [show polyEval iQ3l 0 / (polyEval iFl 0 ^ 2 * 50) * (5 / 2) * (2 / √π) = polyEval iQ3l 0 * 5 / (polyEval iFl 0 ^ 2 * 50 * √π) by
      field_simp, log_div (by positivity) (by positivity), log_mul hq.ne' (by norm_num), log_mul (by positivity) hp.ne', log_mul (by positivity) (by norm_num),
      log_pow, itH, itK, iQ3l_lit, polyEval_mul, show polyEval [50, 10] 0 = 50 by simp [polyEval]]
    push_cast
    ring
  rw [e]
  refine (anchor (ρ0 := 28361528790232201105297 / 10 ^ 22) (δ := 81 / 10 ^ 16 * (98 / 100) * (5862 / 100000)) (l := 5862 / 100000) ?_ ?_ ?_ (by norm_num) (by norm_num)).trans ?_
  · generalize exp (-(28361528790232201105297 / 10 ^ 22 : ℝ)) = z at *
    norm_num at hx ⊢
    linarith [hx.1]
  · simp only [iEl, iFl, polyEval]
    rw [abs_le]
    norm_num
  · generalize 2 / √π = c at *
    generalize exp (-(28361528790232201105297 / 10 ^ 22 : ℝ)) = z at *
    simp only [iQ3l, iFl, polyEval]
    rw [abs_le]
    norm_num at hc hx ⊢
    constructor <;> linarith [hc.1, hc.2, hx.1, hx.2]
  · norm_num

theorem it2_end : |1 - erfR (polyEval iCl (17 / 5) / polyEval iDl (17 / 5)) - 2 * exp (-(5) ^ 2)| ≤ 15 / 10 ^ 16 * (2 * exp (-(5) ^ 2)) := by
  have hx := abs_le.1 it2_endexp
  obtain ⟨g, hg⟩ : ∃ g, g = polyEval iCl (17 / 5) / polyEval iDl (17 / 5) := ⟨_, rfl⟩
  rw [← hg]
  have hg1 : 20 / 7 ≤ g := by
    rw [hg]; simp only [iCl, iDl, polyEval]; norm_num
  have hg0 : 0 < g := by linarith
  have hB := etB_accurate hg1
  have ht := abs_le.1 (anchor (ρ := (5) ^ 2 - g ^ 2 - 0.5625 + polyEval rBl (1 / g ^ 2) / polyEval sBl (1 / g ^ 2)) (v := 1 / (2 * g))
    (ρ0 := 22423784072366883482957 / 10 ^ 22) (δ := 8 / 10 ^ 16 * (10615 / 100000)) (l := 10615 / 100000) (by
      generalize exp (-(22423784072366883482957 / 10 ^ 22 : ℝ)) = z at *
      norm_num at hx ⊢
      linarith [hx.1]) (by
      rw [hg]; simp only [iCl, iDl, rBl, sBl, polyEval]
      rw [abs_le]
      norm_num) (by
      generalize exp (-(22423784072366883482957 / 10 ^ 22 : ℝ)) = z at *
      rw [hg]; simp only [iCl, iDl, polyEval]
      rw [abs_le]
      norm_num at hx ⊢
      constructor <;> linarith [hx.1, hx.2]) (by norm_num) (by norm_num))
  have e : etG rBl sBl g = 2 * exp (-(5) ^ 2) * exp ((5) ^ 2 - g ^ 2 - 0.5625 + polyEval rBl (1 / g ^ 2) / polyEval sBl (1 / g ^ 2) + log (1 / (2 * g))) := by
    rw [exp_add _ (log (1 / (2 * g))), exp_log (by positivity), ← mul_assoc, mul_assoc 2 (exp _) (exp _), ← exp_add, etG,
      show -(5 : ℝ) ^ 2 + ((5) ^ 2 - g ^ 2 - 0.5625 + polyEval rBl (1 / g ^ 2) / polyEval sBl (1 / g ^ 2)) =
        -g ^ 2 - 0.5625 + polyEval rBl (1 / g ^ 2) / polyEval sBl (1 / g ^ 2) by ring]
    field_simp
  have h4 := abs_le.1 (exp_sub_one_le (abs_le.2 ht) (by norm_num))
  rw [e] at hB
  generalize exp ((5) ^ 2 - g ^ 2 - 0.5625 + polyEval rBl (1 / g ^ 2) / polyEval sBl (1 / g ^ 2) + log (1 / (2 * g))) = z at *
  have hu : 0 < 2 * exp (-(5 : ℝ) ^ 2) := by positivity
  generalize 2 * exp (-(5 : ℝ) ^ 2) = u at *
  have hc := erfR_lt_one g
  generalize erfR g = a at *
  have hB := abs_le.1 hB
  have b1 : u * z ≤ u * (1 + 13 / 10 ^ 16) := by
    refine mul_le_mul_of_nonneg_left ?_ hu.le
    norm_num at h4 ⊢; linarith [h4.2]
  have b2 : u * (1 - 13 / 10 ^ 16) ≤ u * z := by
    refine mul_le_mul_of_nonneg_left ?_ hu.le
    norm_num at h4 ⊢; linarith [h4.1]
  rw [abs_le]
  norm_num at hB b1 b2 ⊢
  constructor <;> linarith [hB.1, hB.2]

theorem it3_end : |1 - erfR (polyEval iEl (28 / 25) / polyEval iFl (28 / 25)) - 2 * exp (-(153 / 25) ^ 2)| ≤ 15 / 10 ^ 16 * (2 * exp (-(153 / 25) ^ 2)) := by
  have hx := abs_le.1 it3_endexp
  obtain ⟨g, hg⟩ : ∃ g, g = polyEval iEl (28 / 25) / polyEval iFl (28 / 25) := ⟨_, rfl⟩
  rw [← hg]
  have hg1 : 20 / 7 ≤ g := by
    rw [hg]; simp only [iEl, iFl, polyEval]; norm_num
  have hg0 : 0 < g := by linarith
  have hB := etB_accurate hg1
  have ht := abs_le.1 (anchor (ρ := (153 / 25) ^ 2 - g ^ 2 - 0.5625 + polyEval rBl (1 / g ^ 2) / polyEval sBl (1 / g ^ 2)) (v := 1 / (2 * g))
    (ρ0 := 24622588476237815903847 / 10 ^ 22) (δ := 8 / 10 ^ 16 * (8519 / 100000)) (l := 8519 / 100000) (by
      generalize exp (-(24622588476237815903847 / 10 ^ 22 : ℝ)) = z at *
      norm_num at hx ⊢
      linarith [hx.1]) (by
      rw [hg]; simp only [iEl, iFl, rBl, sBl, polyEval]
      rw [abs_le]
      norm_num) (by
      generalize exp (-(24622588476237815903847 / 10 ^ 22 : ℝ)) = z at *
      rw [hg]; simp only [iEl, iFl, polyEval]
      rw [abs_le]
      norm_num at hx ⊢
      constructor <;> linarith [hx.1, hx.2]) (by norm_num) (by norm_num))
  have e : etG rBl sBl g = 2 * exp (-(153 / 25) ^ 2) * exp ((153 / 25) ^ 2 - g ^ 2 - 0.5625 + polyEval rBl (1 / g ^ 2) / polyEval sBl (1 / g ^ 2) + log (1 / (2 * g))) := by
    rw [exp_add _ (log (1 / (2 * g))), exp_log (by positivity), ← mul_assoc, mul_assoc 2 (exp _) (exp _), ← exp_add, etG,
      show -(153 / 25 : ℝ) ^ 2 + ((153 / 25) ^ 2 - g ^ 2 - 0.5625 + polyEval rBl (1 / g ^ 2) / polyEval sBl (1 / g ^ 2)) =
        -g ^ 2 - 0.5625 + polyEval rBl (1 / g ^ 2) / polyEval sBl (1 / g ^ 2) by ring]
    field_simp
  have h4 := abs_le.1 (exp_sub_one_le (abs_le.2 ht) (by norm_num))
  rw [e] at hB
  generalize exp ((153 / 25) ^ 2 - g ^ 2 - 0.5625 + polyEval rBl (1 / g ^ 2) / polyEval sBl (1 / g ^ 2) + log (1 / (2 * g))) = z at *
  have hu : 0 < 2 * exp (-(153 / 25 : ℝ) ^ 2) := by positivity
  generalize 2 * exp (-(153 / 25 : ℝ) ^ 2) = u at *
  have hc := erfR_lt_one g
  generalize erfR g = a at *
  have hB := abs_le.1 hB
  have b1 : u * z ≤ u * (1 + 13 / 10 ^ 16) := by
    refine mul_le_mul_of_nonneg_left ?_ hu.le
    norm_num at h4 ⊢; linarith [h4.2]
  have b2 : u * (1 - 13 / 10 ^ 16) ≤ u * z := by
    refine mul_le_mul_of_nonneg_left ?_ hu.le
    norm_num at h4 ⊢; linarith [h4.1]
  rw [abs_le]
  norm_num at hB b1 b2 ⊢
  constructor <;> linarith [hB.1, hB.2]

theorem it2_bound {s : ℝ} (h0 : 0 ≤ s) (h1 : s ≤ 17 / 5) : |itH iCl iDl [16, 10] s + itK| ≤ 46 / 10 ^ 15 + 9 / 10 ^ 16 := by
  have h := it2_var h0 h1
  have hz := it2_start
  have := abs_add_le (itH iCl iDl [16, 10] 0 + itK) (itH iCl iDl [16, 10] s - itH iCl iDl [16, 10] 0)
  rw [show itH iCl iDl [16, 10] 0 + itK + (itH iCl iDl [16, 10] s - itH iCl iDl [16, 10] 0) = itH iCl iDl [16, 10] s + itK by ring] at this
  have := abs_nonneg (itH iCl iDl [16, 10] (17 / 5) - itH iCl iDl [16, 10] s)
  norm_num at h hz ⊢
  linarith

/-- in terms of `s = r - 8 / 5` the complementary error function of the approximation is `2 exp(-r²)` with a relative error of at most `47e-15` -/
theorem it2_accurate {s : ℝ} (h0 : 0 ≤ s) (h1 : s ≤ 17 / 5) :
    |1 - erfR (polyEval iCl s / polyEval iDl s) - 2 * exp (-(s + 8 / 5) ^ 2)| ≤ 47 / 10 ^ 15 * (2 * exp (-(s + 8 / 5) ^ 2)) := by
  have hd : ∀ z ∈ Icc (0 : ℝ) (17 / 5), HasDerivAt (fun s => 1 - erfR (polyEval iCl s / polyEval iDl s))
      (-(4 * (z + 8 / 5) * exp (-(z + 8 / 5) ^ 2)) * exp (itH iCl iDl [16, 10] z + itK)) z := fun z hz => by
    have := itF_deriv (n := iCl) (d := iDl) (t := 16) (iDl_pos hz.1 hz.2) (by rw [iQ2l_lit]; exact iQ2l_pos hz.1 hz.2) (by
      simp only [polyEval]; push_cast; linarith [hz.1])
    rwa [show polyEval [16, 10] z / 10 = z + 8 / 5 by simp only [polyEval]; push_cast; ring] at this
  have hu : ∀ c z : ℝ, HasDerivAt (fun s => c * (2 * exp (-(s + 8 / 5) ^ 2))) (c * -(4 * (z + 8 / 5) * exp (-(z + 8 / 5) ^ 2))) z := fun c z => by
    have h := ((((((hasDerivAt_id z).add_const (8 / 5)).pow 2).neg).exp).const_mul 2).const_mul c
    refine h.congr_deriv ?_
    show c * (2 * (exp (-(z + 8 / 5) ^ 2) * -(((2 : ℕ) : ℝ) * (z + 8 / 5) ^ (2 - 1) * 1))) = _
    push_cast
    ring
  have hH : ∀ z ∈ Icc (0 : ℝ) (17 / 5), |exp (itH iCl iDl [16, 10] z + itK) - 1| ≤ 47 / 10 ^ 15 := fun z hz => by
    refine (exp_sub_one_le (it2_bound hz.1 hz.2) (by norm_num)).trans (by norm_num)
  have he := abs_le.1 it2_end
  rw [show (5 : ℝ) = 17 / 5 + 8 / 5 by norm_num] at he
  have hpos : 0 < 2 * exp (-((17 / 5 : ℝ) + 8 / 5) ^ 2) := by positivity
  have up := seg_compare (u := fun s => (1 + 47 / 10 ^ 15) * (2 * exp (-(s + 8 / 5) ^ 2))) (v := fun s => 1 - erfR (polyEval iCl s / polyEval iDl s))
    (fun z _ => hu _ z) hd (by
      generalize 2 * exp (-((17 / 5 : ℝ) + 8 / 5) ^ 2) = u at *
      norm_num at he ⊢; linarith [he.2]) (fun z hz => by
      have h := (abs_le.1 (hH z hz)).2
      have h0 : 0 < 4 * (z + 8 / 5) * exp (-(z + 8 / 5) ^ 2) := by
        have : 0 < z + 8 / 5 := by linarith [hz.1]
        positivity
      nlinarith) (x := s) ⟨h0, h1⟩
  have low := seg_compare (v := fun s => (1 - 47 / 10 ^ 15) * (2 * exp (-(s + 8 / 5) ^ 2))) (u := fun s => 1 - erfR (polyEval iCl s / polyEval iDl s))
    hd (fun z _ => hu _ z) (by
      generalize 2 * exp (-((17 / 5 : ℝ) + 8 / 5) ^ 2) = u at *
      norm_num at he ⊢; linarith [he.1]) (fun z hz => by
      have h := (abs_le.1 (hH z hz)).1
      have h0 : 0 < 4 * (z + 8 / 5) * exp (-(z + 8 / 5) ^ 2) := by
        have : 0 < z + 8 / 5 := by linarith [hz.1]
        positivity
      nlinarith) (x := s) ⟨h0, h1⟩
  rw [abs_le]
  constructor <;> linarith

theorem it3_bound {s : ℝ} (h0 : 0 ≤ s) (h1 : s ≤ 28 / 25) : |itH iEl iFl [50, 10] s + itK| ≤ 34 / 10 ^ 15 + 9 / 10 ^ 16 := by
  have h := it3_var h0 h1
  have hz := it3_start
  have := abs_add_le (itH iEl iFl [50, 10] 0 + itK) (itH iEl iFl [50, 10] s - itH iEl iFl [50, 10] 0)
  rw [show itH iEl iFl [50, 10] 0 + itK + (itH iEl iFl [50, 10] s - itH iEl iFl [50, 10] 0) = itH iEl iFl [50, 10] s + itK by ring] at this
  have := abs_nonneg (itH iEl iFl [50, 10] (28 / 25) - itH iEl iFl [50, 10] s)
  norm_num at h hz ⊢
  linarith

/-- in terms of `s = r - 5` the complementary error function of the approximation is `2 exp(-r²)` with a relative error of at most `35e-15` -/
theorem it3_accurate {s : ℝ} (h0 : 0 ≤ s) (h1 : s ≤ 28 / 25) :
    |1 - erfR (polyEval iEl s / polyEval iFl s) - 2 * exp (-(s + 5) ^ 2)| ≤ 35 / 10 ^ 15 * (2 * exp (-(s + 5) ^ 2)) := by
  have hd : ∀ z ∈ Icc (0 : ℝ) (28 / 25), HasDerivAt (fun s => 1 - erfR (polyEval iEl s / polyEval iFl s))
      (-(4 * (z + 5) * exp (-(z + 5) ^ 2)) * exp (itH iEl iFl [50, 10] z + itK)) z := fun z hz => by
    have := itF_deriv (n := iEl) (d := iFl) (t := 50) (iFl_pos hz.1 hz.2) (by rw [iQ3l_lit]; exact iQ3l_pos hz.1 hz.2) (by
      simp only [polyEval]; push_cast; linarith [hz.1])
    rwa [show polyEval [50, 10] z / 10 = z + 5 by simp only [polyEval]; push_cast; ring] at this
  have hu : ∀ c z : ℝ, HasDerivAt (fun s => c * (2 * exp (-(s + 5) ^ 2))) (c * -(4 * (z + 5) * exp (-(z + 5) ^ 2))) z := fun c z => by
    have h := ((((((hasDerivAt_id z).add_const (5)).pow 2).neg).exp).const_mul 2).const_mul c
    refine h.congr_deriv ?_
    show c * (2 * (exp (-(z + 5) ^ 2) * -(((2 : ℕ) : ℝ) * (z + 5) ^ (2 - 1) * 1))) = _
    push_cast
    ring
  have hH : ∀ z ∈ Icc (0 : ℝ) (28 / 25), |exp (itH iEl iFl [50, 10] z + itK) - 1| ≤ 35 / 10 ^ 15 := fun z hz => by
    refine (exp_sub_one_le (it3_bound hz.1 hz.2) (by norm_num)).trans (by norm_num)
  have he := abs_le.1 it3_end
  rw [show (153 / 25 : ℝ) = 28 / 25 + 5 by norm_num] at he
  have hpos : 0 < 2 * exp (-((28 / 25 : ℝ) + 5) ^ 2) := by positivity
  have up := seg_compare (u := fun s => (1 + 35 / 10 ^ 15) * (2 * exp (-(s + 5) ^ 2))) (v := fun s => 1 - erfR (polyEval iEl s / polyEval iFl s))
    (fun z _ => hu _ z) hd (by
      generalize 2 * exp (-((28 / 25 : ℝ) + 5) ^ 2) = u at *
      norm_num at he ⊢; linarith [he.2]) (fun z hz => by
      have h := (abs_le.1 (hH z hz)).2
      have h0 : 0 < 4 * (z + 5) * exp (-(z + 5) ^ 2) := by
        have : 0 < z + 5 := by linarith [hz.1]
        positivity
      nlinarith) (x := s) ⟨h0, h1⟩
  have low := seg_compare (v := fun s => (1 - 35 / 10 ^ 15) * (2 * exp (-(s + 5) ^ 2))) (u := fun s => 1 - erfR (polyEval iEl s / polyEval iFl s))
    hd (fun z _ => hu _ z) (by
      generalize 2 * exp (-((28 / 25 : ℝ) + 5) ^ 2) = u at *
      norm_num at he ⊢; linarith [he.1]) (fun z hz => by
      have h := (abs_le.1 (hH z hz)).1
      have h0 : 0 < 4 * (z + 5) * exp (-(z + 5) ^ 2) := by
        have : 0 < z + 5 := by linarith [hz.1]
        positivity
      nlinarith) (x := s) ⟨h0, h1⟩
  rw [abs_le]
  constructor <;> linarith

end Russell.Lab
