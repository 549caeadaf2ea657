import Verif.Lab.ErfCore
import Verif.Lab.ErfcTail

/-!
# The error function and its complement (property C115)

Model of russell_lab/src/math/erf.rs over the real numbers: exact arithmetic, the sign of a zero is not kept. The truncation of the argument to
its upper 32 bits in the tails is an arbitrary function `tr`, since it cancels.
-/

namespace Russell.Lab

open Real Set

/-- `temp` of `erf` for `|x| < 0.84375` (/repo/russell_lab/src/math/erf.rs:236-252 with SMALL, VERY_TINY, EFX, EFX8) -/
noncomputable def erfTemp (x : ℝ) : ℝ :=
  if x < 3.7252902984619140625000000000000000000000000000000e-9 then
    if x < 2.848094538889218e-306 then 0.125 * (8 * x + 1.02703333676410069053 * x) else x + 1.28379167095512586316e-01 * x
  else
    let z := x * x
    x + x * erY z

/-- `r / x` in the tails (/repo/russell_lab/src/math/erf.rs:275-292, 371-391) -/
noncomputable def erfTailF (tr : ℝ → ℝ) (x : ℝ) : ℝ :=
  let s := 1 / (x * x)
  let q :=
    if x < 1 / 0.35 then
      ((-9.86494403484714822705e-03) + s * ((-6.93858572707181764372e-01) + s * ((-1.05586262253232909814e01) + s * ((-6.23753324503260060396e01) + s * ((-1.62396669462573470355e02) + s * ((-1.84605092906711035994e02) + s * ((-8.12874355063065934246e01) + s * (-9.81432934416914548592e00)))))))) /
      (1 + s * (1.96512716674392571292e01 + s * (1.37657754143519042600e02 + s * (4.34565877475229228821e02 + s * (6.45387271733267880336e02 + s * (4.29008140027567833386e02 + s * (1.08635005541779435134e02 + s * (6.57024977031928170135e00 + s * (-6.04244152148580987438e-02)))))))))
    else
      ((-9.86494292470009928597e-03) + s * ((-7.99283237680523006574e-01) + s * ((-1.77579549177547519889e01) + s * ((-1.60636384855821916062e02) + s * ((-6.37566443368389627722e02) + s * ((-1.02509513161107724954e03) + s * (-4.83519191608651397019e02))))))) /
      (1 + s * (3.03380607434824582924e01 + s * (3.25792512996573918826e02 + s * (1.53672958608443695994e03 + s * (3.19985821950859553908e03 + s * (2.55305040643316442583e03 + s * (4.74528541206955367215e02 + s * (-2.24409524465858183362e01))))))))
  let z := tr x
  let r := exp (-z * z - 0.5625) * exp ((z - x) * (z + x) + q)
  r / x

/-- `ERX` -/
noncomputable def erfERX : ℝ := 8.45062911510467529297e-01

/-- the branches of `erf` (/repo/russell_lab/src/math/erf.rs:236-292) for the absolute value and the sign of the argument -/
noncomputable def erfBody (tr : ℝ → ℝ) (sign : Bool) (x : ℝ) : ℝ :=
  if x < 0.84375 then
    if sign then -erfTemp x else erfTemp x
  else if x < 1.25 then
    if sign then -erfERX - erA (x - 1) else erfERX + erA (x - 1)
  else if 6 ≤ x then
    if sign then -1 else 1
  else if sign then erfTailF tr x - 1 else 1 - erfTailF tr x

/-- `temp` of `erfc` for `|x| < 0.84375` (/repo/russell_lab/src/math/erf.rs:336-353 with TINY) -/
noncomputable def erfcTemp (x : ℝ) : ℝ :=
  if x < 1.3877787807814456755295395851135253906250000000000e-17 then x
  else
    let z := x * x
    if x < 0.25 then x + x * erY z else 0.5 + (x * erY z + (x - 0.5))

/-- the branches of `erfc` (/repo/russell_lab/src/math/erf.rs:336-396) -/
noncomputable def erfcBody (tr : ℝ → ℝ) (sign : Bool) (x : ℝ) : ℝ :=
  if x < 0.84375 then
    if sign then 1 + erfcTemp x else 1 - erfcTemp x
  else if x < 1.25 then
    if sign then 1 + erfERX + erA (x - 1) else 1 - erfERX - erA (x - 1)
  else if x < 28 then
    if ¬x < 1 / 0.35 ∧ sign = true ∧ 6 < x then 2
    else if sign then 2 - erfTailF tr x else erfTailF tr x
  else if sign then 2 else 0

/-- `erf` (/repo/russell_lab/src/math/erf.rs:221-293); `none` is NaN -/
noncomputable def erfF (tr : ℝ → ℝ) : FArg → Option ℝ
  | .nan => none
  | .posInf => some 1
  | .negInf => some (-1)
  | .negZero => some (erfBody tr false 0)
  | .fin x => some (if x < 0 then erfBody tr true (-x) else erfBody tr false x)

/-- `erfc` (/repo/russell_lab/src/math/erf.rs:321-397); `none` is NaN -/
noncomputable def erfcF (tr : ℝ → ℝ) : FArg → Option ℝ
  | .nan => none
  | .posInf => some 0
  | .negInf => some 2
  | .negZero => some (erfcBody tr false 0)
  | .fin x => some (if x < 0 then erfcBody tr true (-x) else erfcBody tr false x)

/-! ## Proofs -/

theorem rA_quot (s : ℝ) : polyEval rAl s / polyEval sAl s = ((-9.86494403484714822705e-03) + s * ((-6.93858572707181764372e-01) + s * ((-1.05586262253232909814e01) + s * ((-6.23753324503260060396e01) + s * ((-1.62396669462573470355e02) + s * ((-1.84605092906711035994e02) + s * ((-8.12874355063065934246e01) + s * (-9.81432934416914548592e00)))))))) /
      (1 + s * (1.96512716674392571292e01 + s * (1.37657754143519042600e02 + s * (4.34565877475229228821e02 + s * (6.45387271733267880336e02 + s * (4.29008140027567833386e02 + s * (1.08635005541779435134e02 + s * (6.57024977031928170135e00 + s * (-6.04244152148580987438e-02))))))))) := by
  have e1 : polyEval rAl s = 10 ^ 23 * ((-9.86494403484714822705e-03) + s * ((-6.93858572707181764372e-01) + s * ((-1.05586262253232909814e01) + s * ((-6.23753324503260060396e01) + s * ((-1.62396669462573470355e02) + s * ((-1.84605092906711035994e02) + s * ((-8.12874355063065934246e01) + s * (-9.81432934416914548592e00)))))))) := by
    simp only [rAl, polyEval]; push_cast; ring
  have e2 : polyEval sAl s = 10 ^ 23 * (1 + s * (1.96512716674392571292e01 + s * (1.37657754143519042600e02 + s * (4.34565877475229228821e02 + s * (6.45387271733267880336e02 + s * (4.29008140027567833386e02 + s * (1.08635005541779435134e02 + s * (6.57024977031928170135e00 + s * (-6.04244152148580987438e-02))))))))) := by
    simp only [sAl, polyEval]; push_cast; ring
  rw [e1, e2, mul_div_mul_left _ _ (by norm_num)]

theorem rB_quot (s : ℝ) : polyEval rBl s / polyEval sBl s = ((-9.86494292470009928597e-03) + s * ((-7.99283237680523006574e-01) + s * ((-1.77579549177547519889e01) + s * ((-1.60636384855821916062e02) + s * ((-6.37566443368389627722e02) + s * ((-1.02509513161107724954e03) + s * (-4.83519191608651397019e02))))))) /
      (1 + s * (3.03380607434824582924e01 + s * (3.25792512996573918826e02 + s * (1.53672958608443695994e03 + s * (3.19985821950859553908e03 + s * (2.55305040643316442583e03 + s * (4.74528541206955367215e02 + s * (-2.24409524465858183362e01)))))))) := by
  have e1 : polyEval rBl s = 10 ^ 23 * ((-9.86494292470009928597e-03) + s * ((-7.99283237680523006574e-01) + s * ((-1.77579549177547519889e01) + s * ((-1.60636384855821916062e02) + s * ((-6.37566443368389627722e02) + s * ((-1.02509513161107724954e03) + s * (-4.83519191608651397019e02))))))) := by
    simp only [rBl, polyEval]; push_cast; ring
  have e2 : polyEval sBl s = 10 ^ 23 * (1 + s * (3.03380607434824582924e01 + s * (3.25792512996573918826e02 + s * (1.53672958608443695994e03 + s * (3.19985821950859553908e03 + s * (2.55305040643316442583e03 + s * (4.74528541206955367215e02 + s * (-2.24409524465858183362e01)))))))) := by
    simp only [sBl, polyEval]; push_cast; ring
  rw [e1, e2, mul_div_mul_left _ _ (by norm_num)]

/-- the truncation cancels -/
theorem erfTailF_eq (tr : ℝ → ℝ) (x : ℝ) : erfTailF tr x = if x < 20 / 7 then etG rAl sAl x else etG rBl sBl x := by
  have e : ∀ q : ℝ, exp (-(tr x) * tr x - 0.5625) * exp ((tr x - x) * (tr x + x) + q) = exp (-x ^ 2 - 0.5625 + q) := fun q => by
    rw [← exp_add]; congr 1; ring
  unfold erfTailF
  dsimp only
  rw [e, show (1 : ℝ) / 0.35 = 20 / 7 by norm_num, show x * x = x ^ 2 by ring]
  split
  · rw [etG, rA_quot]
  · rw [etG, rB_quot]

/-- the tails have a relative error of at most `5.3e-16` -/
theorem erfTailF_accurate (tr : ℝ → ℝ) {x : ℝ} (hx : 5 / 4 ≤ x) : |erfTailF tr x - (1 - erfR x)| ≤ 530 / 10 ^ 18 * (1 - erfR x) := by
  rw [erfTailF_eq]
  split
  · next h => exact etA_accurate hx h.le
  · next h =>
    refine (etB_accurate (not_lt.1 h)).trans ?_
    have := erfR_lt_one x
    have h0 : 0 ≤ 1 - erfR x := by linarith
    gcongr
    norm_num

theorem erfTailF_pos (tr : ℝ → ℝ) {x : ℝ} (hx : 0 < x) : 0 < erfTailF tr x := by
  unfold erfTailF
  dsimp only
  positivity

theorem erfR_le_mul {x : ℝ} (hx : 0 ≤ x) : erfR x ≤ 2 / √π * x := by
  have h := (abs_le.1 (erf_series 0 hx)).2
  simp [erfSum] at h
  simpa using h

theorem erfR_cubic {x : ℝ} (hx : 0 ≤ x) : |erfR x - 2 / √π * x| ≤ 2 / √π * (x ^ 3 / 3) := by
  have h := erf_series 1 hx
  simp [erfSum] at h
  norm_num at h
  exact h

theorem erfR_ge_mul {x : ℝ} (hx : 0 ≤ x) (h1 : x ≤ 27 / 32) : 86 / 100 * x ≤ erfR x := by
  have h := (abs_le.1 (erfR_cubic hx)).1
  have hc := abs_le.1 two_div_sqrt_pi_near
  generalize 2 / √π = c at *
  have h2 : x ^ 3 ≤ 729 / 1024 * x := by
    have h5 : x * x ≤ 729 / 1024 := by nlinarith
    have h6 : x ^ 3 = (x * x) * x := by ring
    rw [h6]
    gcongr
  have h3 : 0 ≤ c := by norm_num at hc; linarith [hc.1]
  have h4 : 112 / 100 ≤ c := by norm_num at hc; linarith [hc.1]
  nlinarith

/-- the first approximation -/
theorem erfY_abs {x : ℝ} (hx : 0 ≤ x) (h1 : x ≤ 27 / 32) : |x + x * erY (x * x) - erfR x| ≤ 160 / 10 ^ 19 * x := by
  have h2 : x * x ≤ 729 / 1024 := by nlinarith
  have hn := erY_near (mul_self_nonneg x) h2
  have hs := erf_series 18 hx
  have hc := two_div_sqrt_pi_near
  have hs0 := erT1_eq x
  rw [show x ^ 2 = x * x by ring] at hs0
  generalize polyEval erT1 (x * x) / 484186730172033208320000 = T at *
  have hc' := abs_le.1 hc
  have hle := erfR_le_mul hx
  have hge := erfR_nonneg hx
  rw [hs0] at hs
  generalize 2 / √π = c at *
  generalize erY (x * x) = y at *
  generalize erfR x = e at *
  have hcl : 112 / 100 ≤ c := by norm_num at hc'; linarith [hc'.1]
  have hcu : c ≤ 113 / 100 := by norm_num at hc'; linarith [hc'.2]
  have hrem : x ^ (2 * 18 + 1) / ((18 : ℕ).factorial * (2 * (18 : ℕ) + 1)) ≤ 1 / 10 ^ 19 * x := by
    have e1 : x ^ (2 * 18 + 1) = (x * x) ^ 18 * x := by ring
    have e2 : (x * x) ^ 18 ≤ (729 / 1024) ^ 18 := by gcongr
    have e3 : (x * x) ^ 18 ≤ 3 / 1000 := e2.trans (by norm_num)
    rw [e1, div_le_iff₀ (by positivity)]
    norm_num [Nat.factorial]
    nlinarith [mul_le_mul_of_nonneg_right e3 hx]
  have hrem2 : c * (x ^ (2 * 18 + 1) / ((18 : ℕ).factorial * (2 * (18 : ℕ) + 1))) ≤ 113 / 100 * (1 / 10 ^ 19 * x) :=
    mul_le_mul hcu hrem (by positivity) (by norm_num)
  have hs' := hs.trans hrem2
  have hT : |x * T| ≤ 2 * x := by
    have := abs_le.1 hs'
    rw [abs_le]
    constructor <;> nlinarith
  have ee : x + x * y - e = x * (1 + y - 112837916709551257390 / 10 ^ 20 * T) - (c - 112837916709551257390 / 10 ^ 20) * (x * T) - (e - c * (x * T)) := by ring
  rw [ee]
  have b1 : |x * (1 + y - 112837916709551257390 / 10 ^ 20 * T)| ≤ x * (155 / 10 ^ 19) := by
    rw [abs_mul, abs_of_nonneg hx]; gcongr
  have b2 : |(c - 112837916709551257390 / 10 ^ 20) * (x * T)| ≤ 1 / 10 ^ 19 * (2 * x) := by
    rw [abs_mul]; gcongr
  have b3 := abs_sub (x * (1 + y - 112837916709551257390 / 10 ^ 20 * T)) ((c - 112837916709551257390 / 10 ^ 20) * (x * T))
  have b4 := abs_sub (x * (1 + y - 112837916709551257390 / 10 ^ 20 * T) - (c - 112837916709551257390 / 10 ^ 20) * (x * T)) (e - c * (x * T))
  norm_num at b1 b2 b3 b4 hs' ⊢
  linarith

theorem erfTemp_accurate {x : ℝ} (hx : 0 ≤ x) (h1 : x ≤ 27 / 32) : |erfTemp x - erfR x| ≤ 22 / 10 ^ 18 * erfR x := by
  have hg := erfR_ge_mul hx h1
  have small : ∀ k : ℝ, |k - 128379167095512586316 / 10 ^ 21| ≤ 1 / 10 ^ 20 → x < 3.7252902984619140625000000000000000000000000000000e-9 → |x * (1 + k) - erfR x| ≤ 22 / 10 ^ 18 * erfR x := by
    intro k hk hs
    have h := erfR_cubic hx
    have hc := abs_le.1 two_div_sqrt_pi_near
    have hk := abs_le.1 hk
    generalize 2 / √π = c at *
    have hcl : 112 / 100 ≤ c := by norm_num at hc; linarith [hc.1]
    have hcu : c ≤ 113 / 100 := by norm_num at hc; linarith [hc.2]
    have hx2 : x * x ≤ 1 / 2 ^ 56 := by
      have : x ≤ 1 / 2 ^ 28 := by norm_num at hs ⊢; linarith
      calc x * x ≤ (1 / 2 ^ 28) * (1 / 2 ^ 28) := by gcongr
        _ = 1 / 2 ^ 56 := by norm_num
    have hx3 : x ^ 3 / 3 ≤ 1 / 2 ^ 56 / 3 * x := by
      have : x ^ 3 = (x * x) * x := by ring
      rw [this]
      nlinarith
    have hr : c * (x ^ 3 / 3) ≤ 113 / 100 * (1 / 2 ^ 56 / 3 * x) := mul_le_mul hcu hx3 (by positivity) (by norm_num)
    have e : x * (1 + k) - erfR x = x * (1 + k - c) - (erfR x - c * x) := by ring
    have b1 : |x * (1 + k - c)| ≤ x * (126 / 10 ^ 19) := by
      rw [abs_mul, abs_of_nonneg hx]
      gcongr
      rw [abs_le]
      norm_num at hc hk ⊢
      constructor <;> linarith [hc.1, hc.2, hk.1, hk.2]
    have b2 := abs_sub (x * (1 + k - c)) (erfR x - c * x)
    rw [e]
    norm_num at b1 b2 hr h ⊢
    linarith
  unfold erfTemp
  split
  · next hs =>
    split
    · have := small (1.02703333676410069053 / 8) (by rw [abs_le]; norm_num) hs
      rwa [show 0.125 * (8 * x + 1.02703333676410069053 * x) = x * (1 + 1.02703333676410069053 / 8) by ring]
    · have := small 1.28379167095512586316e-01 (by rw [abs_le]; norm_num) hs
      rwa [show x + 1.28379167095512586316e-01 * x = x * (1 + 1.28379167095512586316e-01) by ring]
  · have := erfY_abs hx h1
    dsimp only
    norm_num at this ⊢
    linarith

/-- the second approximation -/
theorem erfA_abs {x : ℝ} (h0 : 27 / 32 ≤ x) (h1 : x ≤ 5 / 4) : |erfERX + erA (x - 1) - erfR x| ≤ 35 / 10 ^ 19 := by
  have hx : 0 ≤ x := by linarith
  have hn := erA_near h0 h1
  have hs := erf_series 23 hx
  have hc := two_div_sqrt_pi_near
  have hc' := abs_le.1 hc
  have hl := erfR_lt_one x
  have hge := erfR_nonneg hx
  rw [erfERX]
  generalize erfSum 23 x = T at *
  generalize 2 / √π = c at *
  generalize erA (x - 1) = y at *
  generalize erfR x = e at *
  have hcl : 112 / 100 ≤ c := by norm_num at hc'; linarith [hc'.1]
  have hcu : c ≤ 113 / 100 := by norm_num at hc'; linarith [hc'.2]
  have hrem : x ^ (2 * 23 + 1) / ((23 : ℕ).factorial * (2 * (23 : ℕ) + 1)) ≤ 1 / 10 ^ 19 := by
    have e2 : x ^ (2 * 23 + 1) ≤ (5 / 4) ^ (2 * 23 + 1) := by gcongr
    have e3 : x ^ (2 * 23 + 1) ≤ 40000 := e2.trans (by norm_num)
    rw [div_le_iff₀ (by positivity)]
    norm_num [Nat.factorial] at e3 ⊢
    linarith
  have hrem2 : c * (x ^ (2 * 23 + 1) / ((23 : ℕ).factorial * (2 * (23 : ℕ) + 1))) ≤ 113 / 100 * (1 / 10 ^ 19) :=
    mul_le_mul hcu hrem (by positivity) (by norm_num)
  have hs' := hs.trans hrem2
  have hT : |T| ≤ 1 := by
    have := abs_le.1 hs'
    rw [abs_le]
    constructor <;> nlinarith
  have ee : 8.45062911510467529297e-01 + y - e = (8.45062911510467529297e-01 + y - 112837916709551257390 / 10 ^ 20 * T) - (c - 112837916709551257390 / 10 ^ 20) * T - (e - c * T) := by ring
  rw [ee]
  have b2 : |(c - 112837916709551257390 / 10 ^ 20) * T| ≤ 1 / 10 ^ 19 * 1 := by
    rw [abs_mul]; gcongr
  have b3 := abs_sub (8.45062911510467529297e-01 + y - 112837916709551257390 / 10 ^ 20 * T) ((c - 112837916709551257390 / 10 ^ 20) * T)
  have b4 := abs_sub (8.45062911510467529297e-01 + y - 112837916709551257390 / 10 ^ 20 * T - (c - 112837916709551257390 / 10 ^ 20) * T) (e - c * T)
  norm_num at hn b2 b3 b4 hs' ⊢
  linarith

theorem erfR_at_lo : 766 / 1000 ≤ erfR (27 / 32) ∧ erfR (27 / 32) ≤ 768 / 1000 := by
  have h := abs_le.1 (erfA_abs (x := 27 / 32) le_rfl (by norm_num))
  have e : 767 / 1000 ≤ erfERX + erA (27 / 32 - 1) ∧ erfERX + erA (27 / 32 - 1) ≤ 7673 / 10000 := by
    norm_num [erfERX, erA]
  norm_num at h
  constructor <;> linarith [h.1, h.2, e.1, e.2]

theorem erfR_at_hi : 922 / 1000 ≤ erfR (5 / 4) ∧ erfR (5 / 4) ≤ 924 / 1000 := by
  have h := abs_le.1 (erfA_abs (x := 5 / 4) (by norm_num) le_rfl)
  have e : 9229 / 10000 ≤ erfERX + erA (5 / 4 - 1) ∧ erfERX + erA (5 / 4 - 1) ≤ 923 / 1000 := by
    norm_num [erfERX, erA]
  norm_num at h
  constructor <;> linarith [h.1, h.2, e.1, e.2]

theorem etGB_le {x : ℝ} (hx : 20 / 7 ≤ x) : etG rBl sBl x ≤ exp (-x ^ 2) / x := by
  have hx0 : 0 < x := by linarith
  have hy := inv_sq_mem (a := 20 / 7) (b := 49 / 400) (by norm_num) hx (by norm_num)
  have hs := sBl_pos hy.1 hy.2
  have hr : polyEval rBl (1 / x ^ 2) ≤ 0 := by
    obtain ⟨y, e⟩ : ∃ y, y = 1 / x ^ 2 := ⟨_, rfl⟩
    rw [← e] at hy ⊢
    have h0 := hy.1
    have : 0 ≤ polyEval (smulL (-1) rBl) y := by
      simp only [rBl, smulL, List.map, polyEval]
      push_cast
      positivity
    rw [polyEval_smul] at this
    push_cast at this
    linarith
  have := div_nonpos_of_nonpos_of_nonneg hr hs.le
  rw [etG]
  gcongr
  linarith

/-- a simple bound of the tail -/
theorem erfc_le {x : ℝ} (hx : 20 / 7 ≤ x) : 1 - erfR x ≤ 2 * (exp (-x ^ 2) / x) := by
  have h := (abs_le.1 (etB_accurate hx)).1
  have := etGB_le hx
  have := erfR_lt_one x
  linarith

theorem erfc_six : 1 - erfR 6 ≤ 4 / 10 ^ 17 := by
  have h := (abs_le.1 (etB_accurate (x := 6) (by norm_num))).1
  have h' := etGB_le (x := 6) (by norm_num)
  have hl := erfR_lt_one 6
  have e1 : exp (-6 ^ 2) ≤ 235 / 10 ^ 18 := by
    have h3 : (2.718 : ℝ) ≤ exp 1 := by linarith [exp_one_gt_d9]
    have h4 : exp (6 ^ 2 : ℝ) = exp 1 ^ 36 := by rw [← exp_nat_mul]; norm_num
    have h5 : (2.718 : ℝ) ^ 36 ≤ exp 1 ^ 36 := by gcongr
    have h6 : 1 ≤ (235 / 10 ^ 18 : ℝ) * exp 1 ^ 36 := le_trans (by norm_num) (mul_le_mul_of_nonneg_left h5 (by norm_num))
    rw [exp_neg, h4, inv_eq_one_div, div_le_iff₀ (by positivity)]
    exact h6
  norm_num at h h' e1 ⊢
  linarith

theorem erfR_mono {x y : ℝ} (h : x ≤ y) : erfR x ≤ erfR y := erfR_strictMono.monotone h

/-- the branches on the positive axis -/
theorem erfBody_accurate (tr : ℝ → ℝ) {x : ℝ} (hx : 0 ≤ x) :
    |erfBody tr false x - erfR x| ≤ 5 / 10 ^ 17 * erfR x := by
  have h0 := erfR_nonneg hx
  unfold erfBody
  norm_num only
  simp only [Bool.false_eq_true, if_false]
  split
  · next h =>
    refine (erfTemp_accurate hx h.le).trans ?_
    norm_num
    linarith
  · next h =>
    have h := not_lt.1 h
    have hlo := erfR_mono h
    have hl := erfR_at_lo.1
    split
    · next h2 =>
      refine (erfA_abs h h2.le).trans ?_
      norm_num
      linarith
    · next h2 =>
      have h2 := not_lt.1 h2
      have hhi := erfR_mono h2
      have hh := erfR_at_hi.1
      have hu := erfR_lt_one x
      split
      · next h3 =>
        have h6 := erfR_mono h3
        have := erfc_six
        rw [abs_of_nonneg (by linarith)]
        norm_num at this ⊢
        linarith
      · have := erfTailF_accurate tr h2
        rw [show 1 - erfTailF tr x - erfR x = -(erfTailF tr x - (1 - erfR x)) by ring, abs_neg]
        refine this.trans ?_
        norm_num
        linarith

theorem erfBody_true (tr : ℝ → ℝ) (x : ℝ) : erfBody tr true x = -erfBody tr false x := by
  unfold erfBody
  simp only [Bool.false_eq_true, if_false, if_true]
  split_ifs <;> ring

theorem erfcTemp_accurate {x : ℝ} (hx : 0 ≤ x) (h1 : x ≤ 27 / 32) : |erfcTemp x - erfR x| ≤ 20 / 10 ^ 18 := by
  have hY := erfY_abs hx h1
  unfold erfcTemp
  split
  · next h =>
    have hc := abs_le.1 two_div_sqrt_pi_near
    have ha := erfR_le_mul hx
    have hb := erfR_ge_mul hx h1
    generalize 2 / √π = c at *
    have hcu : c ≤ 113 / 100 := by norm_num at hc; linarith [hc.2]
    have h2 : c * x ≤ 113 / 100 * x := by gcongr
    rw [abs_le]
    norm_num at h ⊢
    constructor <;> linarith
  · dsimp only
    rw [show 0.5 + (x * erY (x * x) + (x - 0.5)) = x + x * erY (x * x) by ring, ite_self]
    refine hY.trans ?_
    norm_num
    linarith

/-- `erfc` on the positive axis -/
theorem erfcBody_accurate (tr : ℝ → ℝ) {x : ℝ} (hx : 0 ≤ x) (h28 : x < 28) :
    |erfcBody tr false x - (1 - erfR x)| ≤ 530 / 10 ^ 18 * (1 - erfR x) := by
  have hu := erfR_lt_one x
  unfold erfcBody
  norm_num only
  simp only [Bool.false_eq_true, if_false, false_and, and_false]
  split
  · next h =>
    have hlo := erfR_mono h.le
    have hl := erfR_at_lo.2
    have := erfcTemp_accurate hx h.le
    rw [show 1 - erfcTemp x - (1 - erfR x) = -(erfcTemp x - erfR x) by ring, abs_neg]
    refine this.trans ?_
    norm_num
    linarith
  · next h =>
    have h := not_lt.1 h
    split
    · next h2 =>
      have hhi := erfR_mono h2.le
      have hh := erfR_at_hi.2
      have := erfA_abs h h2.le
      rw [show 1 - erfERX - erA (x - 1) - (1 - erfR x) = -(erfERX + erA (x - 1) - erfR x) by ring, abs_neg]
      refine this.trans ?_
      norm_num
      linarith
    · next h2 =>
      have := erfTailF_accurate tr (not_lt.1 h2)
      norm_num at this ⊢
      exact this

/-- `erfc` on the negative axis, relative to a value in `[1, 2]` -/
theorem erfcBody_true_accurate (tr : ℝ → ℝ) {x : ℝ} (hx : 0 ≤ x) :
    |erfcBody tr true x - (1 + erfR x)| ≤ 5 / 10 ^ 17 := by
  have hu := erfR_lt_one x
  have h0 := erfR_nonneg hx
  have big : 6 ≤ x → |2 - (1 + erfR x)| ≤ 5 / 10 ^ 17 := fun h => by
    have h6 := erfR_mono h
    have := erfc_six
    rw [abs_of_nonneg (by linarith)]
    norm_num at this ⊢
    linarith
  unfold erfcBody
  norm_num only
  simp only [if_true, true_and]
  split
  · next h =>
    have := erfcTemp_accurate hx h.le
    rw [show 1 + erfcTemp x - (1 + erfR x) = erfcTemp x - erfR x by ring]
    refine this.trans ?_
    norm_num
  · next h =>
    have h := not_lt.1 h
    split
    · next h2 =>
      have := erfA_abs h h2.le
      rw [show 1 + erfERX + erA (x - 1) - (1 + erfR x) = erfERX + erA (x - 1) - erfR x by ring]
      refine this.trans ?_
      norm_num
    · next h2 =>
      have h2 := not_lt.1 h2
      split
      · split
        · next h3 => exact (big h3.2.le).trans (by norm_num)
        · have := erfTailF_accurate tr h2
          have hhi := erfR_mono h2
          have hh := erfR_at_hi.1
          rw [show 2 - erfTailF tr x - (1 + erfR x) = -(erfTailF tr x - (1 - erfR x)) by ring, abs_neg]
          refine this.trans ?_
          norm_num
          linarith
      · next h3 => exact (big (by linarith [not_lt.1 h3])).trans (by norm_num)

/-! ## The claims -/

/-- `erf` has a relative error of at most `5e-17` at every real number (before rounding), however the argument is truncated in the tails -/
theorem C115_erf_accurate (tr : ℝ → ℝ) (x : ℝ) :
    ∃ y, erfF tr (.fin x) = some y ∧ |y - 2 / √π * ∫ t in (0 : ℝ)..x, exp (-t ^ 2)| ≤
      5 / 10 ^ 17 * |2 / √π * ∫ t in (0 : ℝ)..x, exp (-t ^ 2)| := by
  refine ⟨_, rfl, ?_⟩
  change |_ - erfR x| ≤ _ * |erfR x|
  split
  · next h =>
    have := erfBody_accurate tr (x := -x) (by linarith)
    rw [erfR_neg] at this
    rw [erfBody_true, ← abs_neg]
    have h0 := erfR_nonneg (x := -x) (by linarith)
    rw [erfR_neg] at h0
    rw [abs_of_nonpos (a := erfR x) (by linarith)]
    convert this using 2
    ring
  · next h =>
    have := erfBody_accurate tr (not_lt.1 h)
    rwa [abs_of_nonneg (a := erfR x) (erfR_nonneg (not_lt.1 h))]

example : ∃ y, erfF id (.fin (-3)) = some y ∧ |y - 2 / √π * ∫ t in (0 : ℝ)..(-3), exp (-t ^ 2)| ≤
      5 / 10 ^ 17 * |2 / √π * ∫ t in (0 : ℝ)..(-3), exp (-t ^ 2)| := C115_erf_accurate id (-3)

/-- `erfc` has a relative error of at most `5.3e-16` below 28, also far out in the tail -/
theorem C115_erfc_accurate (tr : ℝ → ℝ) {x : ℝ} (hx : x < 28) :
    ∃ y, erfcF tr (.fin x) = some y ∧ |y - (1 - 2 / √π * ∫ t in (0 : ℝ)..x, exp (-t ^ 2))| ≤
      53 / 10 ^ 17 * (1 - 2 / √π * ∫ t in (0 : ℝ)..x, exp (-t ^ 2)) := by
  refine ⟨_, rfl, ?_⟩
  change |_ - (1 - erfR x)| ≤ _ * (1 - erfR x)
  split
  · next h =>
    have := erfcBody_true_accurate tr (x := -x) (by linarith)
    have h0 := erfR_nonneg (x := -x) (by linarith)
    rw [erfR_neg] at this h0
    rw [show 1 - erfR x = 1 + -erfR x by ring]
    norm_num at this ⊢
    linarith
  · next h =>
    have := erfcBody_accurate tr (not_lt.1 h) hx
    norm_num at this ⊢
    exact this

example : ∃ y, erfcF id (.fin 27) = some y ∧ |y - (1 - 2 / √π * ∫ t in (0 : ℝ)..27, exp (-t ^ 2))| ≤
      53 / 10 ^ 17 * (1 - 2 / √π * ∫ t in (0 : ℝ)..27, exp (-t ^ 2)) := C115_erfc_accurate id (by norm_num)

/-- from 28 on `erfc` returns zero, and the true value is positive but below half of the smallest positive `f64` -/
theorem C115_erfc_underflow (tr : ℝ → ℝ) {x : ℝ} (hx : 28 ≤ x) :
    erfcF tr (.fin x) = some 0 ∧ 0 < 1 - 2 / √π * ∫ t in (0 : ℝ)..x, exp (-t ^ 2) ∧
      1 - 2 / √π * ∫ t in (0 : ℝ)..x, exp (-t ^ 2) < (1 / 2) ^ 1075 := by
  change _ ∧ 0 < 1 - erfR x ∧ 1 - erfR x < _
  refine ⟨?_, by linarith [erfR_lt_one x], ?_⟩
  · unfold erfcF erfcBody
    norm_num only
    simp only [Bool.false_eq_true, if_false]
    rw [if_neg (by linarith), if_neg (by linarith), if_neg (by linarith), if_neg (by linarith)]
  · have h := erfc_le (x := 28) (by norm_num)
    have hm := erfR_mono hx
    have e1 : exp (-28 ^ 2) ≤ (1 / 2) ^ 1120 := by
      have h3 : (2.718 : ℝ) ≤ exp 1 := by linarith [exp_one_gt_d9]
      have h4 : exp (-28 ^ 2 : ℝ) = ((exp 1 ^ 7)⁻¹) ^ 112 := by
        rw [← exp_nat_mul, ← exp_neg, ← exp_nat_mul]; norm_num
      have h5 : (2 : ℝ) ^ 10 ≤ exp 1 ^ 7 := le_trans (by norm_num) (pow_le_pow_left₀ (by norm_num) h3 7)
      have h6 : (exp 1 ^ 7)⁻¹ ≤ (1 / 2 : ℝ) ^ 10 := by
        rw [one_div, inv_pow]; exact inv_anti₀ (by norm_num) h5
      have h7 : (1 / 2 : ℝ) ^ 1120 = ((1 / 2) ^ 10) ^ 112 := by rw [← pow_mul]
      rw [h4, h7]
      exact pow_le_pow_left₀ (by positivity) h6 112
    have e2 : (1 / 2 : ℝ) ^ 1120 = (1 / 2) ^ 45 * (1 / 2) ^ 1075 := by rw [← pow_add]
    have e3 : 0 < (1 / 2 : ℝ) ^ 1075 := by positivity
    generalize (1 / 2 : ℝ) ^ 1120 = a at *
    generalize (1 / 2 : ℝ) ^ 1075 = b at *
    generalize exp (-28 ^ 2) = u at *
    norm_num at e2
    linarith

example : erfcF id (.fin 30) = some 0 := (C115_erfc_underflow id (by norm_num)).1

/-- `erf(-x) = -erf(x)` -/
theorem C115_erf_odd (tr : ℝ → ℝ) (x : ℝ) :
    erfF tr (.fin (-x)) = (erfF tr (.fin x)).map (fun y => -y) := by
  simp only [erfF, Option.map_some, Option.some.injEq]
  rcases lt_trichotomy x 0 with h | h | h
  · rw [if_neg (by linarith), if_pos h, erfBody_true, neg_neg]
  · subst h
    norm_num [erfBody, erfTemp]
  · rw [if_pos (by linarith), if_neg (by linarith), neg_neg, erfBody_true]

/-- `erfc(-x) = 2 - erfc(x)`, up to six and from 28 on -/
theorem C115_erfc_reflect (tr : ℝ → ℝ) {x : ℝ} (hx : |x| ≤ 6 ∨ 28 ≤ |x|) :
    erfcF tr (.fin (-x)) = (erfcF tr (.fin x)).map (fun y => 2 - y) := by
  have key : ∀ z : ℝ, z ≤ 6 ∨ 28 ≤ z → erfcBody tr true z = 2 - erfcBody tr false z := by
    intro z hz
    unfold erfcBody
    simp only [Bool.false_eq_true, if_false, if_true, false_and, and_false, true_and]
    split_ifs with h1 h2 h3 h4
    · ring
    · ring
    · exfalso
      rcases hz with hz | hz
      · linarith [h4.2]
      · linarith
    · ring
    · ring
  simp only [erfcF, Option.map_some, Option.some.injEq]
  rcases lt_trichotomy x 0 with h | h | h
  · rw [abs_of_neg h] at hx
    rw [if_neg (by linarith), if_pos h, key _ hx]
    ring
  · subst h
    norm_num [erfcBody, erfcTemp]
  · rw [abs_of_pos h] at hx
    rw [if_pos (by linarith), if_neg (by linarith), neg_neg, key _ hx]

/-- `erf` and `erfc` of the same argument are complementary up to `1.11e-15` -/
theorem C115_complement (tr : ℝ → ℝ) {x : ℝ} (hx : x < 28) :
    ∃ y z, erfF tr (.fin x) = some y ∧ erfcF tr (.fin x) = some z ∧ |y + z - 1| ≤ 111 / 10 ^ 17 := by
  obtain ⟨y, h1, h2⟩ := C115_erf_accurate tr x
  obtain ⟨z, h3, h4⟩ := C115_erfc_accurate tr hx
  refine ⟨y, z, h1, h3, ?_⟩
  change |_ - erfR x| ≤ _ * |erfR x| at h2
  change |_ - (1 - erfR x)| ≤ _ * (1 - erfR x) at h4
  have a1 := erfR_lt_one x
  have a2 := erfR_lt_one (-x)
  rw [erfR_neg] at a2
  have a3 : |erfR x| ≤ 1 := abs_le.2 ⟨by linarith, a1.le⟩
  have a4 := abs_add_le (y - erfR x) (z - (1 - erfR x))
  rw [show y + z - 1 = (y - erfR x) + (z - (1 - erfR x)) by ring]
  norm_num at h2 h4 ⊢
  linarith

example : |(5 : ℝ)| ≤ 6 ∨ 28 ≤ |(5 : ℝ)| := by norm_num

/-- `erf` stays in `[-1, 1]` and has the sign of its argument -/
theorem C115_erf_range (tr : ℝ → ℝ) (x : ℝ) : ∃ y, erfF tr (.fin x) = some y ∧ |y| ≤ 1 ∧ (0 < x → 0 < y) ∧ (x < 0 → y < 0) ∧ (x = 0 → y = 0) := by
  have key : ∀ z : ℝ, 0 ≤ z → erfBody tr false z ≤ 1 ∧ 0 ≤ erfBody tr false z ∧ (0 < z → 0 < erfBody tr false z) := by
    intro z hz
    have h := abs_le.1 (erfBody_accurate tr hz)
    have h0 := erfR_nonneg hz
    have hp : 0 < z → 0 < erfR z := fun h => by
      have := erfR_strictMono h
      rwa [erfR_zero] at this
    refine ⟨?_, ?_, fun hz => ?_⟩
    · by_cases h2 : z < 5 / 4
      · have h3 := erfR_mono h2.le
        have h4 := erfR_at_hi.2
        norm_num at h
        linarith [h.2]
      · have h2 := not_lt.1 h2
        unfold erfBody
        norm_num only
        simp only [Bool.false_eq_true, if_false]
        rw [if_neg (by linarith), if_neg (by linarith)]
        split
        · exact le_rfl
        · linarith [erfTailF_pos tr (x := z) (by linarith)]
    · norm_num at h
      linarith [h.1]
    · have := hp hz
      norm_num at h
      linarith [h.1]
  refine ⟨_, rfl, ?_⟩
  rcases lt_trichotomy x 0 with h | h | h
  · have k := key (-x) (by linarith)
    rw [if_pos h, erfBody_true, abs_neg, abs_of_nonneg k.2.1]
    exact ⟨k.1, fun h' => by linarith, fun _ => by linarith [k.2.2 (by linarith)], fun h' => by linarith⟩
  · subst h
    norm_num [erfBody, erfTemp]
  · have k := key x h.le
    rw [if_neg (by linarith), abs_of_nonneg k.2.1]
    exact ⟨k.1, fun _ => k.2.2 h, fun h' => by linarith, fun h' => by linarith⟩

/-- `erfc` stays in `[0, 2]`; it is positive below 28 -/
theorem C115_erfc_range (tr : ℝ → ℝ) (x : ℝ) : ∃ y, erfcF tr (.fin x) = some y ∧ 0 ≤ y ∧ y ≤ 2 ∧ (0 < y ↔ x < 28) := by
  by_cases hx : x < 28
  · obtain ⟨y, h1, h2⟩ := C115_erfc_accurate tr hx
    change |_ - (1 - erfR x)| ≤ _ * (1 - erfR x) at h2
    have h3 := abs_le.1 h2
    have a1 := erfR_lt_one x
    have a2 := erfR_lt_one (-x)
    rw [erfR_neg] at a2
    norm_num at h3
    have hp : 0 < y := by linarith [h3.1]
    refine ⟨y, h1, hp.le, ?_, fun _ => hx, fun _ => hp⟩
    by_cases h4 : -(5 / 4) < x
    · have h5 := erfR_mono h4.le
      rw [erfR_neg] at h5
      have h6 := erfR_at_hi.2
      linarith [h3.2]
    · have h4 := not_lt.1 h4
      simp only [erfcF, Option.some.injEq] at h1
      rw [← h1, if_pos (by linarith)]
      unfold erfcBody
      norm_num only
      simp only [if_true, true_and]
      rw [if_neg (by linarith), if_neg (by linarith)]
      have := erfTailF_pos tr (x := -x) (by linarith)
      split_ifs <;> linarith
  · exact ⟨0, (C115_erfc_underflow tr (not_lt.1 hx)).1, le_rfl, by norm_num, fun h => absurd h (lt_irrefl 0), fun h => absurd h hx⟩

/-- the documented special values -/
theorem C115_special (tr : ℝ → ℝ) : erfF tr .nan = none ∧ erfF tr .posInf = some 1 ∧ erfF tr .negInf = some (-1) ∧
    erfcF tr .nan = none ∧ erfcF tr .posInf = some 0 ∧ erfcF tr .negInf = some 2 ∧
    erfF tr (.fin 0) = some 0 ∧ erfF tr .negZero = some 0 ∧ erfcF tr (.fin 0) = some 1 ∧ erfcF tr .negZero = some 1 := by
  norm_num [erfF, erfcF, erfBody, erfcBody, erfTemp, erfcTemp]

end Russell.Lab
