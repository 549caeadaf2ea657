import Verif.Lab.ErfInvAcc
import Verif.Lab.Erf
import Verif.Lab.Checks

/-!
# Inverse of the error function (property C116)

/repo/russell_lab/src/math/erf_inv.rs. Arithmetic, `ln` and `sqrt` are the real ones; `LN2` is `log 2`. In `erfcInvBits` the subtraction is
the one of IEEE 754.
-/

namespace Russell.Lab

open Real Set Filter Topology

/-- the polynomial with the coefficients A0…A7 (erf_inv.rs:17-24, 118) -/
noncomputable def eipA (r : ℝ) : ℝ := ((((((8.8709406962545514830200e2 * r + 1.1819493347062294404278e4) * r + 2.3782041382114385731252e4) * r + 1.6235862515167575384252e4) * r + 4.8548868893843886794648e3) * r + 6.9706266534389598238465e2) * r + 4.7072688112383978012285e1) * r + 1.1975323115670912564578e0

/-- the polynomial with the coefficients B0…B7 (erf_inv.rs:25-32, 119) -/
noncomputable def eipB (r : ℝ) : ℝ := ((((((5.2264952788528545610e3 * r + 2.8729085735721942674e4) * r + 3.9307895800092710610e4) * r + 2.1213794301586595867e4) * r + 5.3941960214247511077e3) * r + 6.8718700749205790830e2) * r + 4.2313330701600911252e1) * r + 1.0000000000000000000e0

/-- the polynomial with the coefficients C0…C7 (erf_inv.rs:35-42, 126) -/
noncomputable def eipC (r : ℝ) : ℝ := ((((((7.74545014278341407640e-4 * r + 2.27238449892691845833e-2) * r + 2.41780725177450611770e-1) * r + 1.27045825245236838258e0) * r + 3.64784832476320460504e0) * r + 5.76949722146069140550e0) * r + 4.63033784615654529590e0) * r + 1.42343711074968357734e0

/-- the polynomial with the coefficients D0…D7 (erf_inv.rs:43-50, 127) -/
noncomputable def eipD (r : ℝ) : ℝ := ((((((1.4859850019840355905497876e-9 * r + 7.7441459065157709165577218e-4) * r + 2.1494160384252876777097297e-2) * r + 2.0945065210512749128288442e-1) * r + 9.7547832001787427186894837e-1) * r + 2.3707661626024532365971225e0) * r + 2.9036514445419946173133295e0) * r + 1.4142135623730950488016887e0

/-- the polynomial with the coefficients E0…E7 (erf_inv.rs:53-60, 132) -/
noncomputable def eipE (r : ℝ) : ℝ := ((((((2.01033439929228813265e-7 * r + 2.71155556874348757815e-5) * r + 1.24266094738807843860e-3) * r + 2.65321895265761230930e-2) * r + 2.96560571828504891230e-1) * r + 1.78482653991729133580e0) * r + 5.46378491116411436990e0) * r + 6.65790464350110377720e0

/-- the polynomial with the coefficients F0…F7 (erf_inv.rs:61-68, 133) -/
noncomputable def eipF (r : ℝ) : ℝ := ((((((2.891024605872965461538222e-15 * r + 2.010321207683943062279931e-7) * r + 2.611088405080593625138020e-5) * r + 1.112800997078859844711555e-3) * r + 2.103693768272068968719679e-2) * r + 1.936480946950659106176712e-1) * r + 8.482908416595164588112026e-1) * r + 1.414213562373095048801689e0

/-- the branches for `0 ≤ xx < 1` (erf_inv.rs:115-137) -/
noncomputable def erfInvBody (xx : ℝ) : ℝ :=
  if xx ≤ 0.85 then
    (xx * eipA (0.180625 - 0.25 * xx * xx)) / eipB (0.180625 - 0.25 * xx * xx)
  else if √(log 2 - log (1 - xx)) ≤ 5 then
    eipC (√(log 2 - log (1 - xx)) - 1.6) / eipD (√(log 2 - log (1 - xx)) - 1.6)
  else eipE (√(log 2 - log (1 - xx)) - 5) / eipF (√(log 2 - log (1 - xx)) - 5)

/-- `erf_inv` (erf_inv.rs:96-143) -/
noncomputable def erfInvF : FArg → FArg
  | .nan => .nan
  | .posInf => .nan
  | .negInf => .nan
  | .negZero => .negZero
  | .fin x =>
    if x = -1 then .negInf
    else if x = 1 then .posInf
    else if x < -1 ∨ 1 < x then .nan
    else if x < 0 then .fin (-erfInvBody (-x))
    else .fin (erfInvBody x)

/-- `erfc_inv` (erf_inv.rs:170-172) -/
noncomputable def erfcInvF : FArg → FArg
  | .nan => erfInvF .nan
  | .posInf => erfInvF .negInf
  | .negInf => erfInvF .posInf
  | .negZero => erfInvF (.fin 1)
  | .fin x => erfInvF (.fin (1 - x))

/-- the argument with these bits -/
noncomputable def argOfBits (x : Nat) : FArg :=
  if Ieee.isNan x then .nan
  else if Ieee.isInf x then (if Ieee.sgn x = 0 then .posInf else .negInf)
  else if x = 2 ^ 63 then .negZero
  else .fin (Ieee.val x / Ieee.uone)

/-- `erfc_inv` with the subtraction of IEEE 754 (erf_inv.rs:170-172) -/
noncomputable def erfcInvBits (x : Nat) : FArg := erfInvF (argOfBits (Ieee.fsubX 0x3ff0000000000000 x))

/-! ## Proofs -/

theorem eipA_eq (r : ℝ) : polyEval iAl r = 10 ^ 22 * eipA r := by
  simp only [iAl, polyEval, eipA]; push_cast; norm_num only; ring

theorem eipB_eq (r : ℝ) : polyEval iBl r = 10 ^ 22 * eipB r := by
  simp only [iBl, polyEval, eipB]; push_cast; norm_num only; ring

theorem eipC_eq (r : ℝ) : polyEval iCl r = 10 ^ 34 * eipC r := by
  simp only [iCl, polyEval, eipC]; push_cast; norm_num only; ring

theorem eipD_eq (r : ℝ) : polyEval iDl r = 10 ^ 34 * eipD r := by
  simp only [iDl, polyEval, eipD]; push_cast; norm_num only; ring

theorem eipE_eq (r : ℝ) : polyEval iEl r = 10 ^ 39 * eipE r := by
  simp only [iEl, polyEval, eipE]; push_cast; norm_num only; ring

theorem eipF_eq (r : ℝ) : polyEval iFl r = 10 ^ 39 * eipF r := by
  simp only [iFl, polyEval, eipF]; push_cast; norm_num only; ring

theorem iCl_q (r : ℝ) : polyEval iCl r / polyEval iDl r = eipC r / eipD r := by
  rw [eipC_eq, eipD_eq, mul_div_mul_left _ _ (by norm_num)]

theorem iEl_q (r : ℝ) : polyEval iEl r / polyEval iFl r = eipE r / eipF r := by
  rw [eipE_eq, eipF_eq, mul_div_mul_left _ _ (by norm_num)]

theorem erfInvBody_central {x : ℝ} (h : x ≤ 17 / 20) : erfInvBody x = ivE iAl iBl x := by
  unfold erfInvBody ivE
  rw [if_pos (by norm_num; linarith), eipA_eq, eipB_eq, mul_div_mul_left _ _ (by norm_num), ← mul_div_assoc,
    show (0.180625 - 0.25 * x * x : ℝ) = 289 / 1600 - x ^ 2 / 4 by norm_num; ring]

theorem exp_lim : exp (64 / 25) ≤ 40 / 3 := by
  have h : exp (64 / 25) ^ 25 ≤ (40 / 3) ^ 25 := by
    rw [← exp_nat_mul, show ((25 : ℕ) : ℝ) * (64 / 25) = ((64 : ℕ) : ℝ) * 1 by norm_num, exp_nat_mul]
    calc exp 1 ^ 64 ≤ (2.7182818286 : ℝ) ^ 64 := by
          have := exp_one_lt_d9.le
          gcongr
      _ ≤ _ := by norm_num
  exact le_of_pow_le_pow_left₀ (by norm_num) (by norm_num) h

/-- the square root in the tails -/
theorem eir_facts {x : ℝ} (h : 17 / 20 < x) (h1 : (1 / 2) ^ 53 ≤ 1 - x) :
    8 / 5 ≤ √(log 2 - log (1 - x)) ∧ √(log 2 - log (1 - x)) ≤ 153 / 25 ∧ 2 * exp (-√(log 2 - log (1 - x)) ^ 2) = 1 - x := by
  have hx : 0 < 1 - x := lt_of_lt_of_le (by norm_num) h1
  have l1 : 64 / 25 ≤ log 2 - log (1 - x) := by
    rw [← log_div (by norm_num) hx.ne', le_log_iff_exp_le (by positivity)]
    refine exp_lim.trans ?_
    rw [le_div_iff₀ hx]; linarith
  have l2 : log 2 - log (1 - x) ≤ (153 / 25) ^ 2 := by
    have : log ((1 / 2) ^ 53) ≤ log (1 - x) := log_le_log (by norm_num) h1
    rw [log_pow, one_div, log_inv] at this
    have := log_two_lt_d9
    push_cast at *
    norm_num at this ⊢
    linarith
  refine ⟨?_, ?_, ?_⟩
  · rw [le_sqrt (by norm_num) (by linarith)]; norm_num at l1 ⊢; linarith
  · rw [sqrt_le_left (by norm_num)]; exact l2
  · rw [sq_sqrt (by linarith), neg_sub, exp_sub, exp_log hx, exp_log (by norm_num)]; ring

theorem erfInvBody_tail {x : ℝ} (h : 17 / 20 < x) (h1 : (1 / 2) ^ 53 ≤ 1 - x) :
    (√(log 2 - log (1 - x)) ≤ 5 ∧ ∃ s, s = √(log 2 - log (1 - x)) - 8 / 5 ∧ erfInvBody x = polyEval iCl s / polyEval iDl s ∧ 0 ≤ s ∧ s ≤ 17 / 5 ∧ 2 * exp (-(s + 8 / 5) ^ 2) = 1 - x) ∨
    (5 < √(log 2 - log (1 - x)) ∧ ∃ s, s = √(log 2 - log (1 - x)) - 5 ∧ erfInvBody x = polyEval iEl s / polyEval iFl s ∧ 0 ≤ s ∧ s ≤ 28 / 25 ∧ 2 * exp (-(s + 5) ^ 2) = 1 - x) := by
  obtain ⟨f1, f2, f3⟩ := eir_facts h h1
  by_cases h5 : √(log 2 - log (1 - x)) ≤ 5
  · refine .inl ⟨h5, _, rfl, ?_, by linarith, by linarith, by rw [sub_add_cancel]; exact f3⟩
    unfold erfInvBody
    rw [if_neg (by norm_num; linarith), if_pos h5, iCl_q, show (1.6 : ℝ) = 8 / 5 by norm_num]
  · refine .inr ⟨not_le.1 h5, _, rfl, ?_, by linarith, by linarith, by rw [sub_add_cancel]; exact f3⟩
    unfold erfInvBody
    rw [if_neg (by norm_num; linarith), if_neg h5, iEl_q]

theorem erfInvBody_tail_acc {x : ℝ} (h : 17 / 20 < x) (h1 : (1 / 2) ^ 53 ≤ 1 - x) :
    |erfR (erfInvBody x) - x| ≤ 47 / 10 ^ 15 * (1 - x) := by
  have hx : 0 < 1 - x := lt_of_lt_of_le (by norm_num) h1
  rcases erfInvBody_tail h h1 with ⟨-, s, -, e, s0, s1, s2⟩ | ⟨-, s, -, e, s0, s1, s2⟩
  · have := it2_accurate s0 s1
    rw [s2, ← e] at this
    rw [abs_sub_comm, show x - erfR (erfInvBody x) = 1 - erfR (erfInvBody x) - (1 - x) by ring]
    exact this
  · have := it3_accurate s0 s1
    rw [s2, ← e] at this
    rw [abs_sub_comm, show x - erfR (erfInvBody x) = 1 - erfR (erfInvBody x) - (1 - x) by ring]
    refine this.trans ?_
    gcongr
    norm_num

theorem erfInvBody_acc {x : ℝ} (h0 : 0 ≤ x) (h1 : (1 / 2) ^ 53 ≤ 1 - x) :
    |erfR (erfInvBody x) - x| ≤ 238 / 10 ^ 15 * x := by
  by_cases h : x ≤ 17 / 20
  · rw [erfInvBody_central h]; exact iv1_accurate h0 h
  · have h := not_le.1 h
    refine (erfInvBody_tail_acc h h1).trans ?_
    linarith

theorem erfInvF_pos {x : ℝ} (h0 : 0 ≤ x) (h1 : x < 1) : erfInvF (.fin x) = .fin (erfInvBody x) := by
  simp only [erfInvF]
  rw [if_neg (by linarith), if_neg (by linarith), if_neg (by rintro (h | h) <;> linarith), if_neg (by linarith)]

theorem erfInvF_neg {x : ℝ} (h0 : x < 0) (h1 : -1 < x) : erfInvF (.fin x) = .fin (-erfInvBody (-x)) := by
  simp only [erfInvF]
  rw [if_neg (by linarith), if_neg (by linarith), if_neg (by rintro (h | h) <;> linarith), if_pos h0]

theorem half53 : (0 : ℝ) < (1 / 2) ^ 53 := by norm_num

/-- Mills' bound -/
theorem erfc_mills {x : ℝ} (hx : 0 < x) : 1 - erfR x ≤ exp (-x ^ 2) / (√π * x) := by
  have hs := sqrt_pos.2 pi_pos
  refine tail_compare (a := x) (u := fun x => exp (-x ^ 2) / (√π * x)) (v := fun x => 1 - erfR x)
    (u' := fun x => (-(2 * x) * exp (-x ^ 2) * (√π * x) - exp (-x ^ 2) * √π) / (√π * x) ^ 2) (v' := fun x => -(2 / √π * exp (-x ^ 2)))
    (fun z hz => ?_) (fun z _ => (erfR_deriv z).const_sub 1) ?_ erfc_tendsto (fun z hz => ?_) le_rfl
  · have hz0 : 0 < z := by linarith
    have h1 : HasDerivAt (fun x : ℝ => exp (-x ^ 2)) (-(2 * z) * exp (-z ^ 2)) z := by
      refine (((hasDerivAt_pow 2 z).neg).exp).congr_deriv ?_
      norm_num; ring
    have h2 : HasDerivAt (fun x : ℝ => √π * x) (√π) z := by simpa using (hasDerivAt_id z).const_mul (√π)
    exact h1.div h2 (by positivity)
  · have t1 : Tendsto (fun x : ℝ => 1 / (√π * x)) atTop (𝓝 0) := (tendsto_id.const_mul_atTop hs).const_div_atTop 1
    refine squeeze_zero' ?_ ?_ t1
    · filter_upwards [eventually_gt_atTop 0] with z hz
      positivity
    · filter_upwards [eventually_gt_atTop 0] with z hz
      gcongr
      rw [exp_le_one_iff]; nlinarith
  · have hz0 : 0 < z := by linarith
    have he := exp_pos (-z ^ 2)
    generalize exp (-z ^ 2) = e at *
    rw [← sub_nonneg]
    have : -(2 / √π * e) - (-(2 * z) * e * (√π * z) - e * √π) / (√π * z) ^ 2 = e / (√π * z ^ 2) := by
      field_simp
      ring
    rw [this]
    positivity

/-- the scaled complementary error function decreases -/
theorem erfcx_anti {a b : ℝ} (ha : 0 < a) (hab : a ≤ b) : (1 - erfR b) * exp (b ^ 2) ≤ (1 - erfR a) * exp (a ^ 2) := by
  have hd : ∀ z, HasDerivAt (fun z => (1 - erfR z) * exp (z ^ 2)) (-(2 / √π * exp (-z ^ 2)) * exp (z ^ 2) + (1 - erfR z) * (2 * z * exp (z ^ 2))) z := fun z => by
    have h1 : HasDerivAt (fun x : ℝ => exp (x ^ 2)) (2 * z * exp (z ^ 2)) z := by
      refine ((hasDerivAt_pow 2 z).exp).congr_deriv ?_
      norm_num; ring
    exact ((erfR_deriv z).const_sub 1).mul h1
  have hm : AntitoneOn (fun z => (1 - erfR z) * exp (z ^ 2)) (Ici a) := by
    refine antitoneOn_of_deriv_nonpos (convex_Ici a) (fun y _ => (hd y).continuousAt.continuousWithinAt)
      (fun y _ => (hd y).differentiableAt.differentiableWithinAt) fun y hy => ?_
    rw [interior_Ici] at hy
    have hy0 : 0 < y := ha.trans hy
    rw [(hd y).deriv]
    have h := erfc_mills hy0
    have hs := sqrt_pos.2 pi_pos
    have he := exp_pos (y ^ 2)
    have : (1 - erfR y) * (2 * y * exp (y ^ 2)) ≤ exp (-y ^ 2) / (√π * y) * (2 * y * exp (y ^ 2)) := by gcongr
    have e : exp (-y ^ 2) / (√π * y) * (2 * y * exp (y ^ 2)) = 2 / √π * exp (-y ^ 2) * exp (y ^ 2) := by
      field_simp
    linarith
  exact hm (mem_Ici.2 le_rfl) (mem_Ici.2 hab) hab

/-- a relative change of the complementary error function bounds the change of the square of the argument -/
theorem erfc_sq {a b e : ℝ} (ha : 0 < a) (hab : a ≤ b) (he1 : e ≤ 1 / 2) (h : (1 - e) * (1 - erfR a) ≤ 1 - erfR b) : b ^ 2 - a ^ 2 ≤ e / (1 - e) := by
  have h1 := erfcx_anti ha hab
  have hA : 0 < 1 - erfR a := by linarith [erfR_lt_one a]
  have h2 : (1 - e) * exp (b ^ 2 - a ^ 2) ≤ 1 := by
    rw [exp_sub, ← mul_div_assoc, div_le_one (exp_pos _)]
    have : (1 - e) * (1 - erfR a) * exp (b ^ 2) ≤ (1 - erfR b) * exp (b ^ 2) := by gcongr
    have h3 : (1 - erfR a) * ((1 - e) * exp (b ^ 2)) ≤ (1 - erfR a) * exp (a ^ 2) := by linarith
    exact le_of_mul_le_mul_left h3 hA
  have h4 := add_one_le_exp (b ^ 2 - a ^ 2)
  have h5 : (1 - e) * (b ^ 2 - a ^ 2 + 1) ≤ 1 := le_trans (by gcongr; linarith) h2
  rw [le_div_iff₀ (by linarith)]
  linarith

/-- forward error in the tail -/
theorem erfInvBody_tail_fwd {t : ℝ} (h : 17 / 20 < erfR t) (h1 : (1 / 2) ^ 53 ≤ 1 - erfR t) :
    |erfInvBody (erfR t) ^ 2 - t ^ 2| ≤ 48 / 10 ^ 15 ∧ 27 / 32 < t ∧ 27 / 32 < erfInvBody (erfR t) := by
  have hx : 0 < 1 - erfR t := lt_of_lt_of_le (by norm_num) h1
  have hb := erfInvBody_tail_acc h h1
  have hlo := erfR_at_lo
  obtain ⟨y, hy⟩ : ∃ y, y = erfInvBody (erfR t) := ⟨_, rfl⟩
  rw [← hy] at hb ⊢
  have ht : 27 / 32 < t := by
    rw [← erfR_strictMono.lt_iff_lt]; linarith
  have hb := abs_le.1 hb
  have hyl : 27 / 32 < y := by
    rw [← erfR_strictMono.lt_iff_lt]; linarith
  refine ⟨?_, ht, hyl⟩
  rcases le_total t y with hc | hc
  · have := erfc_sq (e := 47 / 10 ^ 15) (by linarith) hc (by norm_num) (by linarith)
    rw [abs_of_nonneg (by nlinarith)]
    exact this.trans (by norm_num)
  · have := erfc_sq (e := 475 / 10 ^ 16) (a := y) (b := t) (by linarith) hc (by norm_num) (by
      linarith)
    rw [abs_of_nonpos (by nlinarith), neg_sub]
    exact this.trans (by norm_num)

/-- slope of the error function -/
theorem erfR_slope {a b : ℝ} (ha : 0 ≤ a) (hab : a ≤ b) (hb : b ≤ 5 / 4) : 23 / 100 * (b - a) ≤ erfR b - erfR a := by
  have hm : MonotoneOn (fun z => erfR z - 23 / 100 * z) (Icc 0 (5 / 4)) := by
    have hd : ∀ z, HasDerivAt (fun z => erfR z - 23 / 100 * z) (2 / √π * exp (-z ^ 2) - 23 / 100) z := fun z => by
      have := (erfR_deriv z).sub ((hasDerivAt_id z).const_mul (23 / 100))
      exact this.congr_deriv (by ring)
    refine monotoneOn_of_deriv_nonneg (convex_Icc _ _) (fun y _ => (hd y).continuousAt.continuousWithinAt)
      (fun y _ => (hd y).differentiableAt.differentiableWithinAt) fun y hy => ?_
    have hy := interior_subset hy
    rw [(hd y).deriv]
    have hc := (abs_le.1 two_div_sqrt_pi_near).1
    have h2 : exp (-(25 / 16)) ≤ exp (-y ^ 2) := by
      rw [exp_le_exp]
      have : y ^ 2 ≤ (5 / 4) ^ 2 := by have := hy.1; have := hy.2; gcongr
      norm_num at this; linarith
    have h3 : 1 / 5 + 9 / 1000 ≤ exp (-(25 / 16)) := by
      have h := (exp_neg_series 12 (t := 25 / 16) (by norm_num)).1
      simp only [Finset.sum_range_succ, Finset.sum_range_zero, Nat.factorial] at h
      generalize exp (-(25 / 16)) = e at *
      norm_num at h ⊢
      linarith
    have h4 : (1128 / 1000 : ℝ) * (1 / 5 + 9 / 1000) ≤ 2 / √π * exp (-y ^ 2) := by
      refine mul_le_mul ?_ (h3.trans h2) (by norm_num) (by positivity)
      generalize 2 / √π = c at *
      norm_num at hc ⊢; linarith
    norm_num at h4 ⊢
    linarith
  have := hm (a := a) (b := b) ⟨ha, hab.trans hb⟩ ⟨ha.trans hab, hb⟩ hab
  simp only at this
  linarith

theorem erfInvBody_central_fwd {t : ℝ} (ht : 0 ≤ t) (h : erfR t ≤ 17 / 20) : |erfInvBody (erfR t) - t| ≤ 12 / 10 ^ 13 * t := by
  have h0 := erfR_nonneg ht
  have hb := abs_le.1 (erfInvBody_acc h0 (by linarith [show (1 / 2 : ℝ) ^ 53 ≤ 1 / 100 by norm_num]))
  have hu := erfR_le_mul ht
  have hc := (abs_le.1 two_div_sqrt_pi_near).2
  have hu2 : erfR t ≤ 1129 / 1000 * t := by
    refine hu.trans (mul_le_mul_of_nonneg_right ?_ ht)
    generalize 2 / √π = c at *
    norm_num at hc ⊢; linarith
  have hhi := erfR_at_hi
  obtain ⟨y, hy⟩ : ∃ y, y = erfInvBody (erfR t) := ⟨_, rfl⟩
  rw [← hy] at hb ⊢
  have t1 : t ≤ 5 / 4 := by
    rw [← erfR_strictMono.le_iff_le]; linarith
  have y1 : y ≤ 5 / 4 := by
    rw [← erfR_strictMono.le_iff_le]; linarith
  have y0 : 0 ≤ y := by
    rw [← erfR_strictMono.le_iff_le, erfR_zero]; linarith
  rcases le_total t y with hc | hc
  · have := erfR_slope ht hc y1
    rw [abs_of_nonneg (by linarith)]
    linarith
  · have := erfR_slope y0 hc t1
    rw [abs_of_nonpos (by linarith)]
    linarith

theorem erfInvBody_fwd {t : ℝ} (ht : 0 ≤ t) (h1 : (1 / 2) ^ 53 ≤ 1 - erfR t) : |erfInvBody (erfR t) - t| ≤ 12 / 10 ^ 13 * t := by
  by_cases h : erfR t ≤ 17 / 20
  · exact erfInvBody_central_fwd ht h
  · obtain ⟨f1, f2, f3⟩ := erfInvBody_tail_fwd (not_le.1 h) h1
    generalize erfInvBody (erfR t) = y at *
    have : |y - t| * (y + t) ≤ 48 / 10 ^ 15 := by
      rw [← abs_of_pos (show 0 < y + t by linarith), ← abs_mul, show (y - t) * (y + t) = y ^ 2 - t ^ 2 by ring]
      exact f1
    have h0 := abs_nonneg (y - t)
    have : |y - t| * 1 ≤ |y - t| * (y + t) := mul_le_mul_of_nonneg_left (by linarith) h0
    linarith

/-- every number of the range is a value of the error function -/
theorem erfR_surj {x : ℝ} (h0 : 0 ≤ x) (h1 : x < 1) : ∃ t, 0 ≤ t ∧ erfR t = x := by
  obtain ⟨b, hb0, hb⟩ : ∃ b, 0 ≤ b ∧ x < erfR b := ((eventually_ge_atTop (0 : ℝ)).and (erfR_tendsto.eventually (eventually_gt_nhds h1))).exists
  obtain ⟨t, ht, e⟩ := intermediate_value_Icc hb0 (f := erfR) (fun z _ => (erfR_deriv z).continuousAt.continuousWithinAt) (show x ∈ Icc (erfR 0) (erfR b) from ⟨by rw [erfR_zero]; exact h0, hb.le⟩)
  exact ⟨t, ht.1, e⟩

/-! ## Property C116 -/

/-- the error function of the result is the argument: relative error at most `2.38e-13`, in the tails `4.7e-14` of the distance to one -/
theorem C116_erf_inv_accurate {x : ℝ} (hx : (1 / 2) ^ 53 ≤ 1 - |x|) :
    ∃ y, erfInvF (.fin x) = .fin y ∧ |2 / √π * (∫ t in (0 : ℝ)..y, exp (-t ^ 2)) - x| ≤ 238 / 10 ^ 15 * |x| ∧
      (0.85 < |x| → |2 / √π * (∫ t in (0 : ℝ)..y, exp (-t ^ 2)) - x| ≤ 47 / 10 ^ 15 * (1 - |x|)) := by
  change ∃ y, _ ∧ |erfR y - x| ≤ _ ∧ (_ → |erfR y - x| ≤ _)
  have h1 := half53
  rcases lt_or_ge x 0 with h | h
  · rw [abs_of_neg h] at hx ⊢
    refine ⟨_, erfInvF_neg h (by linarith), ?_, fun hc => ?_⟩
    · have := erfInvBody_acc (x := -x) (by linarith) hx
      rw [erfR_neg, abs_sub_comm]
      rwa [show x - -erfR (erfInvBody (-x)) = erfR (erfInvBody (-x)) - -x by ring]
    · have := erfInvBody_tail_acc (x := -x) (by norm_num at hc; linarith) hx
      rw [erfR_neg, abs_sub_comm]
      rwa [show x - -erfR (erfInvBody (-x)) = erfR (erfInvBody (-x)) - -x by ring]
  · rw [abs_of_nonneg h] at hx ⊢
    exact ⟨_, erfInvF_pos h (by linarith), erfInvBody_acc h hx, fun hc => erfInvBody_tail_acc (by norm_num at hc; linarith) hx⟩

example : ∃ y, erfInvF (.fin (-(9 / 10))) = .fin y ∧ |2 / √π * (∫ t in (0 : ℝ)..y, exp (-t ^ 2)) - -(9 / 10)| ≤ 47 / 10 ^ 16 := by
  obtain ⟨y, h1, -, h3⟩ := C116_erf_inv_accurate (x := -(9 / 10)) (by rw [abs_neg, abs_of_pos (by norm_num)]; norm_num)
  refine ⟨y, h1, (h3 (by rw [abs_neg, abs_of_pos (by norm_num)]; norm_num)).trans ?_⟩
  rw [abs_neg, abs_of_pos (by norm_num)]
  norm_num

/-- the result is the inverse: `erf_inv(erf(t))` is `t` -/
theorem C116_inverse {t : ℝ} (ht : (1 / 2) ^ 53 ≤ 1 - |2 / √π * ∫ z in (0 : ℝ)..t, exp (-z ^ 2)|) :
    ∃ y, erfInvF (.fin (2 / √π * ∫ z in (0 : ℝ)..t, exp (-z ^ 2))) = .fin y ∧ |y - t| ≤ 12 / 10 ^ 13 * |t| ∧
      (0.85 < |2 / √π * ∫ z in (0 : ℝ)..t, exp (-z ^ 2)| → |y - t| * (|y| + |t|) ≤ 48 / 10 ^ 15) := by
  change (1 / 2) ^ 53 ≤ 1 - |erfR t| at ht
  change ∃ y, erfInvF (.fin (erfR t)) = .fin y ∧ _ ∧ (0.85 < |erfR t| → _)
  have h1 := half53
  have key : ∀ t : ℝ, 0 ≤ t → (1 / 2) ^ 53 ≤ 1 - erfR t → 0.85 < erfR t → |erfInvBody (erfR t) - t| * (|erfInvBody (erfR t)| + |t|) ≤ 48 / 10 ^ 15 := by
    intro t ht h1 h
    obtain ⟨f1, f2, f3⟩ := erfInvBody_tail_fwd (by norm_num at h; linarith) h1
    rw [abs_of_pos (show 0 < t by linarith), abs_of_pos (show 0 < erfInvBody (erfR t) by linarith)]
    generalize erfInvBody (erfR t) = y at *
    rw [← abs_of_pos (show 0 < y + t by linarith), ← abs_mul, show (y - t) * (y + t) = y ^ 2 - t ^ 2 by ring]
    exact f1
  rcases lt_or_ge t 0 with h | h
  · have hn : erfR t < 0 := by
      rw [← erfR_zero]; exact erfR_strictMono h
    rw [abs_of_neg hn] at ht ⊢
    rw [← erfR_neg] at ht ⊢
    refine ⟨_, erfInvF_neg hn (by rw [erfR_neg] at ht; linarith), ?_, fun hc => ?_⟩
    · rw [abs_of_neg h, ← erfR_neg, show -erfInvBody (erfR (-t)) - t = -(erfInvBody (erfR (-t)) - -t) by ring, abs_neg]
      exact erfInvBody_fwd (by linarith) ht
    · have := key (-t) (by linarith) ht hc
      rw [← erfR_neg, show -erfInvBody (erfR (-t)) - t = -(erfInvBody (erfR (-t)) - -t) by ring, abs_neg, abs_neg]
      rwa [abs_neg] at this
  · have hn := erfR_nonneg h
    rw [abs_of_nonneg hn] at ht ⊢
    refine ⟨_, erfInvF_pos hn (by linarith), ?_, fun hc => key t h ht hc⟩
    rw [abs_of_nonneg h]
    exact erfInvBody_fwd h ht

example : ∃ y, erfInvF (.fin (2 / √π * ∫ z in (0 : ℝ)..(5 / 4), exp (-z ^ 2))) = .fin y ∧ |y - 5 / 4| * (|y| + 5 / 4) ≤ 48 / 10 ^ 15 := by
  have h := erfR_at_hi
  obtain ⟨y, h1, -, h3⟩ := C116_inverse (t := 5 / 4) (by
    change _ ≤ 1 - |erfR (5 / 4)|
    rw [abs_of_pos (by linarith)]; norm_num; linarith)
  refine ⟨y, h1, ?_⟩
  rw [show |(5 / 4 : ℝ)| = 5 / 4 from abs_of_pos (by norm_num)] at h3
  refine h3 ?_
  change _ < |erfR (5 / 4)|
  rw [abs_of_pos (by linarith)]; norm_num; linarith

/-- `erf(erf_inv(x))` is `x` -/
theorem C116_round_trip (tr : ℝ → ℝ) {x : ℝ} (hx : (1 / 2) ^ 53 ≤ 1 - |x|) :
    ∃ y, ∃ z : ℝ, erfInvF (.fin x) = .fin y ∧ erfF tr (.fin y) = some z ∧ |z - x| ≤ 239 / 10 ^ 15 * |x| := by
  obtain ⟨y, h1, h2, -⟩ := C116_erf_inv_accurate hx
  obtain ⟨z, h3, h4⟩ := C115_erf_accurate tr y
  refine ⟨y, z, h1, h3, ?_⟩
  generalize 2 / √π * ∫ t in (0 : ℝ)..y, exp (-t ^ 2) = w at *
  have a1 := abs_add_le (z - w) (w - x)
  rw [sub_add_sub_cancel] at a1
  have a2 : |w| ≤ |w - x| + |x| := by
    have := abs_add_le (w - x) x
    rwa [sub_add_cancel] at this
  have := abs_nonneg x
  norm_num at h2 h4 ⊢
  linarith

example : ∃ y, ∃ z : ℝ, erfInvF (.fin (1 / 2)) = .fin y ∧ erfF id (.fin y) = some z ∧ |z - 1 / 2| ≤ 239 / 10 ^ 15 * |1 / 2| :=
  C116_round_trip id (by rw [abs_of_pos (by norm_num)]; norm_num)

/-- the result is odd in the argument and has its sign -/
theorem C116_odd_sign {x : ℝ} (hx : (1 / 2) ^ 53 ≤ 1 - |x|) :
    ∃ y, erfInvF (.fin x) = .fin y ∧ erfInvF (.fin (-x)) = .fin (-y) ∧ (0 < x → 0 < y) ∧ (x < 0 → y < 0) ∧ (x = 0 → y = 0) := by
  obtain ⟨y, h1, h2, -⟩ := C116_erf_inv_accurate hx
  change |erfR y - x| ≤ _ at h2
  have h53 := half53
  have hs : ∀ c : ℝ, y ≤ c → erfR y ≤ erfR c := fun c h => erfR_mono h
  have hs' : ∀ c : ℝ, c ≤ y → erfR c ≤ erfR y := fun c h => erfR_mono h
  refine ⟨y, h1, ?_, fun h => ?_, fun h => ?_, fun h => ?_⟩
  · rcases lt_trichotomy x 0 with h | h | h
    · rw [abs_of_neg h] at hx
      rw [erfInvF_neg h (by linarith)] at h1
      rw [erfInvF_pos (by linarith) (by linarith), ← FArg.fin.inj h1, neg_neg]
    · subst h
      rw [erfInvF_pos le_rfl one_pos] at h1
      rw [neg_zero, erfInvF_pos le_rfl one_pos, h1, ← FArg.fin.inj h1]
      norm_num [erfInvBody]
    · rw [abs_of_pos h] at hx
      rw [erfInvF_pos h.le (by linarith)] at h1
      rw [erfInvF_neg (by linarith) (by linarith), neg_neg, FArg.fin.inj h1]
  · by_contra hc
    have := hs 0 (not_lt.1 hc)
    rw [erfR_zero] at this
    rw [abs_of_pos h] at h2
    have := (abs_le.1 h2).1
    linarith
  · by_contra hc
    have := hs' 0 (not_lt.1 hc)
    rw [erfR_zero] at this
    rw [abs_of_neg h] at h2
    have := (abs_le.1 h2).2
    linarith
  · subst h
    have : erfR y = erfR 0 := by
      rw [erfR_zero]
      simpa using h2
    exact erfR_strictMono.injective this

example : ∃ y, erfInvF (.fin (1 / 2)) = .fin y ∧ erfInvF (.fin (-(1 / 2))) = .fin (-y) ∧ 0 < y := by
  obtain ⟨y, h1, h2, h3, -⟩ := C116_odd_sign (x := 1 / 2) (by rw [abs_of_pos (by norm_num)]; norm_num)
  exact ⟨y, h1, h2, h3 (by norm_num)⟩

/-- the results increase with the argument on each of the ranges of the approximations -/
theorem C116_increasing {x x' : ℝ} (h : x < x') (hr : (-0.85 ≤ x ∧ x' ≤ 0.85) ∨ (0.85 < x ∧ x' ≤ 1 - 2 * exp (-25)) ∨ (1 - 2 * exp (-25) < x ∧ (1 / 2) ^ 53 ≤ 1 - x')) :
    ∃ y y', erfInvF (.fin x) = .fin y ∧ erfInvF (.fin x') = .fin y' ∧ y < y' := by
  have h53 := half53
  have he25 : (1 / 2 : ℝ) ^ 53 ≤ 2 * exp (-25) ∧ 2 * exp (-25) < 1 / 100 := by
    have e1 := exp_one_lt_d9
    have e2 := exp_one_gt_d9
    have e3 : exp (-25) = 1 / exp 1 ^ 25 := by
      rw [one_div, ← exp_nat_mul, ← exp_neg]; norm_num
    rw [e3, ← mul_div_assoc]
    constructor
    · rw [le_div_iff₀ (by positivity)]
      calc (1 / 2 : ℝ) ^ 53 * exp 1 ^ 25 ≤ (1 / 2) ^ 53 * 2.7182818286 ^ 25 := by gcongr
        _ ≤ 2 * 1 := by norm_num
    · rw [div_lt_iff₀ (by positivity)]
      calc (2 * 1 : ℝ) < 1 / 100 * 2.7182818283 ^ 25 := by norm_num
        _ ≤ 1 / 100 * exp 1 ^ 25 := by gcongr
  have hcent : StrictMonoOn (fun x => ivE iAl iBl x) (Icc 0 (17 / 20)) := by
    have hm : StrictMonoOn (fun x => erfR (ivE iAl iBl x)) (Icc 0 (17 / 20)) := by
      have hd : ∀ z ∈ Icc (0 : ℝ) (17 / 20), HasDerivAt (fun x => erfR (ivE iAl iBl x)) (exp (ivH iAl iBl (289 / 1600 - z ^ 2 / 4) + ivK)) z := fun z hz => by
        have : z ^ 2 ≤ (17 / 20) ^ 2 := by have := hz.1; have := hz.2; gcongr
        have r0 : 0 ≤ 289 / 1600 - z ^ 2 / 4 := by norm_num at this; linarith
        have r1 : 289 / 1600 - z ^ 2 / 4 ≤ 289 / 1600 := by linarith [sq_nonneg z]
        exact ivE_deriv (iBl_pos r0 r1) (by rw [iPl_lit]; exact iPl_pos r0 r1)
      refine strictMonoOn_of_deriv_pos (convex_Icc _ _) (fun z hz => (hd z hz).continuousAt.continuousWithinAt) fun z hz => ?_
      rw [(hd z (interior_subset hz)).deriv]
      exact exp_pos _
    exact fun a ha b hb hab => erfR_strictMono.lt_iff_lt.1 (hm ha hb hab)
  have hneg : ∀ z : ℝ, 0 ≤ z → z ≤ 17 / 20 → 0 ≤ erfInvBody z ∧ (0 < z → 0 < erfInvBody z) := fun z h0 h1 => by
    have hmem : (0 : ℝ) ∈ Icc (0 : ℝ) (17 / 20) := ⟨le_rfl, by norm_num⟩
    have e0 : ivE iAl iBl 0 = 0 := by simp [ivE]
    rw [erfInvBody_central h1]
    have m1 : ivE iAl iBl 0 ≤ ivE iAl iBl z := hcent.monotoneOn hmem ⟨h0, h1⟩ h0
    exact ⟨by rwa [e0] at m1, fun hp => by
      have m2 : ivE iAl iBl 0 < ivE iAl iBl z := hcent hmem ⟨h0, h1⟩ hp
      rwa [e0] at m2⟩
  have hroot : ∀ a b : ℝ, a < b → b < 1 → 0 < a → √(log 2 - log (1 - a)) < √(log 2 - log (1 - b)) := fun a b hab hb ha => by
    have : log (1 - b) < log (1 - a) := log_lt_log (by linarith) (by linarith)
    have h2 := log_two_gt_d9
    have : log (1 - a) ≤ 0 := log_nonpos (by linarith) (by linarith)
    exact sqrt_lt_sqrt (by linarith) (by linarith)
  have htail : ∀ (n d : List ℤ) (t : ℤ) (hi : ℝ), 0 < t → (∀ z, 0 ≤ z → z ≤ hi → 0 < polyEval d z) → (∀ z, 0 ≤ z → z ≤ hi → 0 < polyEval (quotD 1 n d) z) →
      StrictMonoOn (fun s => polyEval n s / polyEval d s) (Icc 0 hi) := fun n d t hi ht hd hq => by
    have hm : StrictAntiOn (fun s => 1 - erfR (polyEval n s / polyEval d s)) (Icc 0 hi) := by
      have hw : ∀ z : ℝ, 0 ≤ z → 0 < polyEval [t, 10] z := fun z hz => by
        simp only [polyEval]; push_cast
        have : (0 : ℝ) < t := by exact_mod_cast ht
        linarith
      have hD := fun z (hz : z ∈ Icc 0 hi) => itF_deriv (hd z hz.1 hz.2) (hq z hz.1 hz.2) (hw z hz.1)
      refine strictAntiOn_of_deriv_neg (convex_Icc _ _) (fun z hz => (hD z hz).continuousAt.continuousWithinAt) fun z hz => ?_
      have hz := interior_subset hz
      rw [(hD z hz).deriv]
      have := hw z hz.1
      have h4 : 0 < 4 * (polyEval [t, 10] z / 10) * exp (-(polyEval [t, 10] z / 10) ^ 2) * exp (itH n d [t, 10] z + itK) := by positivity
      linarith
    exact fun a ha b hb hab => erfR_strictMono.lt_iff_lt.1 (by have := hm ha hb hab; simp only at this; linarith)
  have hside : ∀ z : ℝ, 17 / 20 < z → (1 / 2) ^ 53 ≤ 1 - z → (√(log 2 - log (1 - z)) ≤ 5 ↔ z ≤ 1 - 2 * exp (-25)) := fun z hz h1 => by
    have hp : 0 < 1 - z := by linarith
    rw [sqrt_le_left (by norm_num), show ((5 : ℝ) ^ 2) = 25 by norm_num, ← log_div (by norm_num) hp.ne', log_le_iff_le_exp (by positivity), div_le_iff₀ hp]
    have e : exp 25 * exp (-25) = 1 := by rw [← exp_add]; simp
    have e0 := exp_pos 25
    constructor
    · intro h
      have : exp 25 * (2 * exp (-25)) ≤ exp 25 * (1 - z) := by linarith
      have := le_of_mul_le_mul_left this e0
      linarith
    · intro h
      have : exp 25 * (2 * exp (-25)) ≤ exp 25 * (1 - z) := mul_le_mul_of_nonneg_left (by linarith) e0.le
      linarith
  rcases hr with ⟨h1, h2⟩ | ⟨h1, h2⟩ | ⟨h1, h2⟩
  · norm_num at h1 h2
    rcases lt_or_ge x 0 with hx | hx
    · rcases lt_or_ge x' 0 with hx' | hx'
      · refine ⟨_, _, erfInvF_neg hx (by linarith), erfInvF_neg hx' (by linarith), ?_⟩
        rw [neg_lt_neg_iff, erfInvBody_central (by linarith), erfInvBody_central (by linarith)]
        exact hcent ⟨by linarith, by linarith⟩ ⟨by linarith, by linarith⟩ (by linarith)
      · refine ⟨_, _, erfInvF_neg hx (by linarith), erfInvF_pos hx' (by linarith), ?_⟩
        have := (hneg (-x) (by linarith) (by linarith)).2 (by linarith)
        have := (hneg x' hx' (by linarith)).1
        linarith
    · refine ⟨_, _, erfInvF_pos hx (by linarith), erfInvF_pos (by linarith) (by linarith), ?_⟩
      rw [erfInvBody_central (by linarith), erfInvBody_central (by linarith)]
      exact hcent ⟨by linarith, by linarith⟩ ⟨by linarith, by linarith⟩ h
  · norm_num at h1
    have b1 : (1 / 2 : ℝ) ^ 53 ≤ 1 - x' := by linarith
    have b2 : (1 / 2 : ℝ) ^ 53 ≤ 1 - x := by linarith
    have hrt := hroot x x' h (by linarith) (by linarith)
    refine ⟨_, _, erfInvF_pos (by linarith) (by linarith), erfInvF_pos (by linarith) (by linarith), ?_⟩
    rcases erfInvBody_tail h1 b2 with ⟨-, s, es, e, s0, s1, -⟩ | ⟨q, -⟩
    · rcases erfInvBody_tail (h1.trans h) b1 with ⟨-, s', es', e', s0', s1', -⟩ | ⟨q, -⟩
      · rw [e, e']
        exact htail iCl iDl 16 (17 / 5) (by norm_num) (fun z => iDl_pos) (fun z a b => by rw [iQ2l_lit]; exact iQ2l_pos a b) ⟨s0, s1⟩ ⟨s0', s1'⟩ (by rw [es, es']; linarith)
      · exact absurd ((hside x' (h1.trans h) b1).2 h2) (not_le.2 q)
    · exact absurd ((hside x h1 b2).2 (by linarith)) (not_le.2 q)
  · have c1 : 17 / 20 < x := by linarith [he25.2]
    have b2 : (1 / 2 : ℝ) ^ 53 ≤ 1 - x := by linarith
    have hrt := hroot x x' h (by linarith) (by linarith)
    refine ⟨_, _, erfInvF_pos (by linarith) (by linarith), erfInvF_pos (by linarith) (by linarith), ?_⟩
    rcases erfInvBody_tail c1 b2 with ⟨q, -⟩ | ⟨-, s, es, e, s0, s1, -⟩
    · exact absurd ((hside x c1 b2).1 q) (not_le.2 h1)
    · rcases erfInvBody_tail (c1.trans h) h2 with ⟨q, -⟩ | ⟨-, s', es', e', s0', s1', -⟩
      · exact absurd ((hside x' (c1.trans h) h2).1 q) (not_le.2 (h1.trans h))
      · rw [e, e']
        exact htail iEl iFl 50 (28 / 25) (by norm_num) (fun z => iFl_pos) (fun z a b => by rw [iQ3l_lit]; exact iQ3l_pos a b) ⟨s0, s1⟩ ⟨s0', s1'⟩ (by rw [es, es']; linarith)

example : ∃ y y', erfInvF (.fin (-(1 / 2))) = .fin y ∧ erfInvF (.fin (17 / 20)) = .fin y' ∧ y < y' :=
  C116_increasing (by norm_num) (.inl ⟨by norm_num, by norm_num⟩)

/-- the special values of the documentation -/
theorem C116_special :
    erfInvF .nan = .nan ∧ erfInvF (.fin (-1)) = .negInf ∧ erfInvF (.fin 1) = .posInf ∧ (∀ x : ℝ, x < -1 ∨ 1 < x → erfInvF (.fin x) = .nan) ∧
    erfInvF .posInf = .nan ∧ erfInvF .negInf = .nan ∧ erfInvF (.fin 0) = .fin 0 ∧ erfInvF .negZero = .negZero ∧
    erfcInvF .nan = .nan ∧ erfcInvF (.fin 0) = .posInf ∧ erfcInvF .negZero = .posInf ∧ erfcInvF (.fin 2) = .negInf ∧ erfcInvF (.fin 1) = .fin 0 ∧
    (∀ x : ℝ, x < 0 ∨ 2 < x → erfcInvF (.fin x) = .nan) ∧ erfcInvF .posInf = .nan ∧ erfcInvF .negInf = .nan := by
  have hz : erfInvF (.fin 0) = .fin 0 := by
    rw [erfInvF_pos le_rfl one_pos]
    norm_num [erfInvBody]
  have hn : ∀ x : ℝ, x < -1 ∨ 1 < x → erfInvF (.fin x) = .nan := fun x hx => by
    simp only [erfInvF]
    rw [if_neg (by rcases hx with h | h <;> linarith), if_neg (by rcases hx with h | h <;> linarith), if_pos hx]
  refine ⟨rfl, by simp [erfInvF], ?_, hn, rfl, rfl, hz, rfl, rfl, ?_, ?_, ?_, ?_, fun x hx => hn _ ?_, rfl, rfl⟩
  · simp only [erfInvF]; rw [if_neg (by norm_num), if_pos trivial]
  · simp only [erfcInvF, erfInvF]; rw [if_neg (by norm_num), if_pos (by norm_num)]
  · simp only [erfcInvF, erfInvF]; rw [if_neg (by norm_num), if_pos trivial]
  · simp only [erfcInvF, erfInvF]; rw [if_pos (by norm_num)]
  · simp only [erfcInvF, sub_self]; exact hz
  · rcases hx with h | h
    · right; linarith
    · left; linarith

/-- in exact arithmetic `erfc_inv` inverts the complementary error function -/
theorem C116_erfc_inv {t : ℝ} (ht : (1 / 2) ^ 53 ≤ 1 - |2 / √π * ∫ z in (0 : ℝ)..t, exp (-z ^ 2)|) :
    ∃ y, erfcInvF (.fin (1 - 2 / √π * ∫ z in (0 : ℝ)..t, exp (-z ^ 2))) = .fin y ∧ |y - t| ≤ 12 / 10 ^ 13 * |t| := by
  obtain ⟨y, h1, h2, -⟩ := C116_inverse ht
  refine ⟨y, ?_, h2⟩
  simp only [erfcInvF, sub_sub_cancel]
  exact h1

example : ∃ y, erfcInvF (.fin (1 - 2 / √π * ∫ z in (0 : ℝ)..(5 / 4), exp (-z ^ 2))) = .fin y ∧ |y - 5 / 4| ≤ 12 / 10 ^ 13 * |5 / 4| := by
  refine C116_erfc_inv ?_
  have h := erfR_at_hi
  change _ ≤ 1 - |erfR (5 / 4)|
  rw [abs_of_pos (by linarith)]; norm_num; linarith

/-- one minus a number of at most `2^-54` rounds to one -/
theorem fsub_one_small {x : Nat} (h0 : Ieee.sgn x = 0) (hp : 0 < x) (h1 : x ≤ 969 * 2 ^ 52) : Ieee.fsub 0x3ff0000000000000 x = 0x3ff0000000000000 := by
  have hub : Ieee.ub x = x := by
    have := Ieee.split_bits x
    rw [h0] at this; omega
  obtain ⟨e, he⟩ : ∃ e, e = 1020 := ⟨_, rfl⟩
  have hm0 : 0 < Ieee.mag x := by
    rw [Nat.pos_iff_ne_zero, Ne, Ieee.mag_eq_zero]; omega
  have hm : Ieee.mag x ≤ 2 ^ e := by
    refine (Ieee.mag_strictMono.monotone h1).trans ?_
    rw [show 969 * 2 ^ 52 = 968 * 2 ^ 52 + 2 ^ 52 by norm_num, Ieee.mag_enc le_rfl (by norm_num), ← Nat.pow_add]
    exact (Nat.pow_le_pow_right (by norm_num) (by omega))
  have hone : Ieee.mag 0x3ff0000000000000 = 2 ^ 54 * 2 ^ e := by
    rw [show 0x3ff0000000000000 = 1022 * 2 ^ 52 + 2 ^ 52 by norm_num, Ieee.mag_enc le_rfl (by norm_num), ← Nat.pow_add, ← Nat.pow_add, he]
  have hv1 : Ieee.val 0x3ff0000000000000 = ((2 ^ 54 * 2 ^ e : Nat) : Int) := by
    rw [Ieee.val, if_pos (by decide +kernel), ← hone]
    rfl
  have hv2 : Ieee.val x = (Ieee.mag x : Int) := by
    rw [Ieee.val, if_pos h0, hub]
  have hpe : 0 < 2 ^ e := Nat.two_pow_pos e
  have hd : Ieee.val 0x3ff0000000000000 - Ieee.val x = ((2 ^ 54 * 2 ^ e - Ieee.mag x : Nat) : Int) := by
    rw [hv1, hv2]
    omega
  have hr : Ieee.rmag (2 ^ 54 * 2 ^ e - Ieee.mag x) 0 = 0x3ff0000000000000 := by
    apply le_antisymm
    · refine Ieee.rmag_le_of_le ?_
      rw [hone]; omega
    · refine le_trans ?_ (Ieee.C104_round_mono (show (2 ^ 54 - 1) * 2 ^ e ≤ 2 ^ 54 * 2 ^ e - Ieee.mag x by omega))
      have hlog : Nat.log 2 ((2 ^ 54 - 1) * 2 ^ e) = 53 + e := by
        rw [Nat.log_eq_iff (.inl (by omega))]
        constructor
        · rw [Nat.pow_add]; exact Nat.mul_le_mul_right _ (by norm_num)
        · rw [show 53 + e + 1 = 54 + e by omega, Nat.pow_add]; exact Nat.mul_lt_mul_of_pos_right (by norm_num) hpe
      unfold Ieee.rmag
      simp only [Nat.pow_zero, Nat.div_one]
      rw [hlog, show 53 + e - 52 = e + 1 by omega, zero_add]
      have e1 : (2 ^ 54 - 1) * 2 ^ e = 2 ^ e + 2 ^ (e + 1) * (2 ^ 53 - 1) := by
        rw [Nat.pow_succ]; omega
      have hlt : 2 ^ e < 2 ^ (e + 1) := Nat.pow_lt_pow_right (by norm_num) (by omega)
      have hq : (2 ^ 54 - 1) * 2 ^ e / 2 ^ (e + 1) = 2 ^ 53 - 1 := by
        rw [e1, Nat.add_mul_div_left _ _ (by positivity), Nat.div_eq_of_lt hlt, zero_add]
      have hmod : (2 ^ 54 - 1) * 2 ^ e % 2 ^ (e + 1) = 2 ^ e := by
        rw [e1, Nat.add_mul_mod_self_left, Nat.mod_eq_of_lt hlt]
      have h2 : 2 * 2 ^ e = 2 ^ (e + 1) := by rw [Nat.pow_succ]; omega
      unfold Ieee.rhe
      rw [hmod, hq, h2, if_neg (lt_irrefl _), if_neg (lt_irrefl _), he]
      decide
  rw [Ieee.fsub, hd, if_neg (by omega), if_neg (by omega), Int.natAbs_natCast, hr]

/-- with the subtraction of IEEE 754 every positive argument up to `2^-54` gives infinity, although the inverse is finite -/
theorem C116_erfc_inv_small_counterexample {x : Nat} (h0 : Ieee.sgn x = 0) (hp : 0 < x) (h1 : x ≤ 969 * 2 ^ 52) :
    erfcInvBits x = .posInf ∧ ∃ t : ℝ, 0 ≤ t ∧ argOfBits x = .fin (1 - 2 / √π * ∫ z in (0 : ℝ)..t, exp (-z ^ 2)) := by
  have hub : Ieee.ub x = x := by
    have := Ieee.split_bits x
    rw [h0] at this; omega
  have hu : (0 : ℝ) < Ieee.uone := by exact_mod_cast Ieee.uone_pos
  obtain ⟨e, he⟩ : ∃ e, e = 1022 := ⟨_, rfl⟩
  have hone : Ieee.mag 0x3ff0000000000000 = Ieee.uone := by
    rw [show 0x3ff0000000000000 = e * 2 ^ 52 + 2 ^ 52 by omega, Ieee.mag_enc le_rfl (by norm_num)]
    exact Ieee.uone_eq _ _ (by omega)
  have hv1 : Ieee.val 0x3ff0000000000000 = (Ieee.uone : Int) := by
    rw [Ieee.val, if_pos (by decide +kernel), ← hone]
    rfl
  have fx : Ieee.isFin x := by
    unfold Ieee.isFin Ieee.infBits; rw [hub]; omega
  have f1 : Ieee.isFin 0x3ff0000000000000 := by decide +kernel
  constructor
  · unfold erfcInvBits
    rw [Ieee.fsubX_fin f1 fx, fsub_one_small h0 hp h1, argOfBits, if_neg (Ieee.fin_iff.1 f1).1, if_neg (Ieee.fin_iff.1 f1).2, if_neg (by norm_num), hv1,
      Int.cast_natCast, div_self hu.ne']
    exact C116_special.2.2.1
  · have hm : Ieee.mag x < Ieee.uone := by
      rw [← hone]
      exact Ieee.mag_strictMono (lt_of_le_of_lt h1 (by norm_num))
    have hv2 : Ieee.val x = (Ieee.mag x : Int) := by
      rw [Ieee.val, if_pos h0, hub]
    have hm0 : 0 < Ieee.mag x := by
      rw [Nat.pos_iff_ne_zero, Ne, Ieee.mag_eq_zero]; omega
    have hq0 : (0 : ℝ) < Ieee.mag x / Ieee.uone := by
      exact div_pos (Nat.cast_pos.2 hm0) hu
    have hq1 : (Ieee.mag x : ℝ) / Ieee.uone < 1 := by
      rw [div_lt_one hu]; exact_mod_cast hm
    obtain ⟨t, ht, e⟩ := erfR_surj (x := 1 - (Ieee.mag x : ℝ) / Ieee.uone) (by linarith) (by linarith)
    refine ⟨t, ht, ?_⟩
    change _ = FArg.fin (1 - erfR t)
    rw [argOfBits, if_neg (Ieee.fin_iff.1 fx).1, if_neg (Ieee.fin_iff.1 fx).2, if_neg (by omega), hv2, Int.cast_natCast, e, sub_sub_cancel]

example : erfcInvBits (960 * 2 ^ 52) = .posInf := (C116_erfc_inv_small_counterexample (by decide +kernel) (by norm_num) (by norm_num)).1

/-- the hypothesis of the accuracy theorems holds for every `f64` with an absolute value below one -/
theorem C116_domain {x : Nat} (h : Ieee.ub x < 1023 * 2 ^ 52) : (1 / 2 : ℝ) ^ 53 ≤ 1 - |(Ieee.val x : ℝ) / Ieee.uone| := by
  have hu : (0 : ℝ) < Ieee.uone := by exact_mod_cast Ieee.uone_pos
  obtain ⟨e, he⟩ : ∃ e, e = 1021 := ⟨_, rfl⟩
  have hm : Ieee.mag (Ieee.ub x) ≤ (2 ^ 53 - 1) * 2 ^ e := by
    refine (Ieee.mag_strictMono.monotone (show Ieee.ub x ≤ e * 2 ^ 52 + (2 ^ 53 - 1) by omega)).trans ?_
    rw [Ieee.mag_enc (by norm_num) (by norm_num)]
  have hone : Ieee.uone = 2 ^ 53 * 2 ^ e := (Ieee.uone_eq 53 e (by omega)).symm
  have ha : |(Ieee.val x : ℝ)| = Ieee.mag (Ieee.ub x) := by
    unfold Ieee.val
    split <;> simp
  have hr : (Ieee.mag (Ieee.ub x) : ℝ) ≤ (2 ^ 53 - 1) * 2 ^ e := by
    have : ((Ieee.mag (Ieee.ub x) : ℕ) : ℝ) ≤ (((2 ^ 53 - 1) * 2 ^ e : ℕ) : ℝ) := by exact_mod_cast hm
    refine this.trans (le_of_eq ?_)
    push_cast
    norm_num
  rw [abs_div, ha, abs_of_pos hu, hone]
  push_cast
  have hp : (0 : ℝ) < 2 ^ e := by positivity
  rw [le_sub_comm, div_le_iff₀ (by positivity)]
  refine hr.trans (le_of_eq ?_)
  generalize (2 : ℝ) ^ e = z
  ring

example : (1 / 2 : ℝ) ^ 53 ≤ 1 - |(Ieee.val (1022 * 2 ^ 52 + 5) : ℝ) / Ieee.uone| := C116_domain (by decide +kernel)

end Russell.Lab
