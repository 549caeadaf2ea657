import Verif.Lab.Stirling

/-!
The asymptotic expansion of `ln Γ(a) - ln Γ(a + b)` used by `ln_beta_asymptotic` of russell_lab (property C113).
-/

namespace Russell.Lab

open Real Set

/-- the terms that `ln_beta_asymptotic` adds to `ln_gamma(b)` (/repo/russell_lab/src/math/beta.rs:314-318) -/
noncomputable def betaAsyTerms (a b : ℝ) : ℝ :=
  -(b * log a) + b * (1 - b) / (2 * a) + b * (1 - b) * (1 - 2 * b) / (12 * a * a) + -b * b * (1 - b) * (1 - b) / (12 * a * a * a)

theorem stirMu_one_term {x : ℝ} (hx : 1000 ≤ x) : |stirMu x - 1 / (12 * x)| ≤ 1 / 350 * (x⁻¹) ^ 3 := by
  have hx0 : 0 < x := by linarith
  have h5 := stirMu_lt_5 hx0
  have h6 := stirMu_gt_6 hx0
  obtain ⟨w, hw⟩ : ∃ w, w = x⁻¹ := ⟨_, rfl⟩
  have hw0 : 0 < w := by rw [hw]; positivity
  have hw1 : w ≤ 1 / 1000 := by rw [hw, inv_le_comm₀ hx0 (by norm_num)]; norm_num; linarith
  have e : 1 / (12 * x) = w / 12 := by rw [hw]; field_simp
  simp only [stirCoef, List.take, invSum, ← hw] at h5 h6
  rw [e, ← hw, abs_le]
  have w2 : w ^ 2 ≤ 1 / 10 ^ 6 := by nlinarith
  have w3 : 0 < w ^ 3 := by positivity
  have p5 : w ^ 5 ≤ 1 / 10 ^ 6 * w ^ 3 := by rw [show w ^ 5 = w ^ 2 * w ^ 3 by ring]; exact mul_le_mul_of_nonneg_right w2 w3.le
  have p7 : w ^ 7 ≤ 1 / 10 ^ 6 * w ^ 5 := by rw [show w ^ 7 = w ^ 2 * w ^ 5 by ring]; exact mul_le_mul_of_nonneg_right w2 (by positivity)
  have p9 : w ^ 9 ≤ 1 / 10 ^ 6 * w ^ 7 := by rw [show w ^ 9 = w ^ 2 * w ^ 7 by ring]; exact mul_le_mul_of_nonneg_right w2 (by positivity)
  have p11 : w ^ 11 ≤ 1 / 10 ^ 6 * w ^ 9 := by rw [show w ^ 11 = w ^ 2 * w ^ 9 by ring]; exact mul_le_mul_of_nonneg_right w2 (by positivity)
  have q5 : 0 < w ^ 5 := by positivity
  have q7 : 0 < w ^ 7 := by positivity
  have q9 : 0 < w ^ 9 := by positivity
  have q11 : 0 < w ^ 11 := by positivity
  norm_num at h5 h6 p5 p7 p9 p11
  constructor <;> linarith

/-- **the expansion**: the error is at most `1e-20 + 2e-24 |b|` -/
theorem betaAsyTerms_acc {a b : ℝ} (h1 : 10 ^ 6 < a) (h2 : 10 ^ 6 * |b| < a) :
    |betaAsyTerms a b - (log (Gamma a) - log (Gamma (a + b)))| ≤ 1 / 10 ^ 20 + 2 / 10 ^ 24 * |b| := by
  have ha : 0 < a := by linarith
  obtain ⟨u, hu⟩ : ∃ u, u = b / a := ⟨_, rfl⟩
  have hb : b = a * u := by rw [hu]; field_simp
  have hau : |b| = a * |u| := by rw [hb, abs_mul, abs_of_pos ha]
  have hu6 : |u| < 1 / 10 ^ 6 := by
    rw [hau] at h2
    by_contra hc
    push Not at hc
    have := mul_le_mul_of_nonneg_left hc ha.le
    norm_num at *
    linarith
  obtain ⟨u1, u2⟩ := abs_lt.1 hu6
  have hv1 : 0 < 1 + u := by norm_num at *; linarith
  have hab : a + b = a * (1 + u) := by rw [hb]; ring
  have hab0 : 0 < a + b := by rw [hab]; positivity
  have hab1 : 999999 / 10 ^ 6 * a ≤ a + b := by
    rw [hab, mul_comm]; exact mul_le_mul_of_nonneg_left (by norm_num at *; linarith) ha.le
  have hlog : log (a + b) = log a + log (1 + u) := by rw [hab, log_mul ha.ne' hv1.ne']
  have hT := abs_log_sub_add_sum_range_le (x := -u) (by rw [abs_neg]; exact hu6.trans (by norm_num)) 4
  rw [abs_neg, sub_neg_eq_add] at hT
  simp only [Finset.sum_range_succ, Finset.sum_range_zero] at hT
  obtain ⟨ρ, hρ⟩ : ∃ ρ, log (1 + u) = u - u ^ 2 / 2 + u ^ 3 / 3 - u ^ 4 / 4 + ρ := ⟨log (1 + u) - (u - u ^ 2 / 2 + u ^ 3 / 3 - u ^ 4 / 4), by ring⟩
  have hU := abs_nonneg u
  have hρb : |ρ| ≤ 101 / 100 * |u| ^ 5 := by
    rw [hρ] at hT
    have e : 0 + (-u) ^ (0 + 1) / ((0 : ℕ) + 1 : ℝ) + (-u) ^ (1 + 1) / ((1 : ℕ) + 1 : ℝ) + (-u) ^ (2 + 1) / ((2 : ℕ) + 1 : ℝ) + (-u) ^ (3 + 1) / ((3 : ℕ) + 1 : ℝ)
        + (u - u ^ 2 / 2 + u ^ 3 / 3 - u ^ 4 / 4 + ρ) = ρ := by push_cast; ring
    rw [e] at hT
    refine hT.trans ?_
    rw [div_le_iff₀ (by norm_num at *; linarith)]
    have : |u| ^ 5 * 1 ≤ |u| ^ 5 * (101 / 100 * (1 - |u|)) := mul_le_mul_of_nonneg_left (by norm_num at *; linarith) (by positivity)
    norm_num at *
    linarith
  have hu4 : |u| ^ 4 ≤ 1 / 10 ^ 24 := by
    calc |u| ^ 4 ≤ (1 / 10 ^ 6) ^ 4 := pow_le_pow_left₀ hU hu6.le 4
      _ = _ := by norm_num
  have hu3 : |u| ^ 3 ≤ 1 / 10 ^ 18 := by
    calc |u| ^ 3 ≤ (1 / 10 ^ 6) ^ 3 := pow_le_pow_left₀ hU hu6.le 3
      _ = _ := by norm_num
  have hau5 : a * |u| ^ 5 ≤ 1 / 10 ^ 24 * |b| := by
    rw [hau]
    calc a * |u| ^ 5 = |u| ^ 4 * (a * |u|) := by ring
      _ ≤ _ := mul_le_mul_of_nonneg_right hu4 (by positivity)
  have inv3 : ∀ {x : ℝ}, 999999 ≤ x → 1 / 350 * (x⁻¹) ^ 3 ≤ 3 / 10 ^ 21 := by
    intro x hx
    have hx0 : 0 < x := by linarith
    have : x⁻¹ ≤ 1 / 999999 := by rw [inv_le_comm₀ hx0 (by norm_num)]; norm_num; linarith
    have := pow_le_pow_left₀ (by positivity) this 3
    norm_num at *
    linarith
  have hba : 999999 ≤ a + b := by norm_num at *; linarith
  have m1 := (stirMu_one_term (x := a) (by norm_num at *; linarith)).trans (inv3 (by norm_num at *; linarith))
  have m2 := (stirMu_one_term (x := a + b) (by linarith)).trans (inv3 hba)
  obtain ⟨v, hv⟩ : ∃ v, v = 1 / (1 + u) := ⟨_, rfl⟩
  have e12 : 1 / (12 * (a + b)) = v / (12 * a) := by rw [hv, hab]; field_simp
  have hvu : v * (1 + u) = 1 := by rw [hv]; field_simp
  have hv2 : |v| ≤ 2 := by
    rw [hv, abs_of_pos (by positivity), div_le_iff₀ hv1]
    norm_num at *; linarith
  rw [e12] at m2
  have key : betaAsyTerms a b - (log (Gamma a) - log (Gamma (a + b))) = -(a * u ^ 5 / 4) + u ^ 4 / 8 + (a + b - 1 / 2) * ρ + -(u ^ 3 * v / (12 * a))
      - (stirMu a - 1 / (12 * a)) + (stirMu (a + b) - v / (12 * a)) := by
    have hvv : v = 1 - u + u ^ 2 - u ^ 3 * v := by linear_combination (1 - u + u ^ 2) * hvu
    unfold stirMu betaAsyTerms
    rw [hlog, hρ]
    generalize log (Gamma a) = g1
    generalize log (Gamma (a + b)) = g2
    generalize log (2 * π) = l2
    generalize log a = L
    have t1 : b * (1 - b) / (2 * a) = u / 2 - a * u ^ 2 / 2 := by rw [hb]; field_simp
    have t2 : b * (1 - b) * (1 - 2 * b) / (12 * a * a) = u / (12 * a) - u ^ 2 / 4 + a * u ^ 3 / 6 := by rw [hb]; field_simp; ring
    have t3 : -b * b * (1 - b) * (1 - b) / (12 * a * a * a) = -(u ^ 2 / (12 * a)) + u ^ 3 / 6 - a * u ^ 4 / 12 := by rw [hb]; field_simp; ring
    have t4 : u ^ 3 * v / (12 * a) + v / (12 * a) = 1 / (12 * a) - u / (12 * a) + u ^ 2 / (12 * a) := by
      rw [← add_div, show u ^ 3 * v + v = 1 - u + u ^ 2 by linear_combination hvv]; ring
    rw [t1, t2, t3]
    rw [hb]
    linear_combination (1 : ℝ) * t4
  rw [key]
  have ta : |-(a * u ^ 5 / 4)| ≤ 1 / 4 * (1 / 10 ^ 24 * |b|) := by
    rw [abs_neg, abs_div, abs_mul, abs_of_pos ha, abs_pow, abs_of_pos (by norm_num : (0 : ℝ) < 4)]; linarith
  have tb : |u ^ 4 / 8| ≤ 1 / 10 ^ 24 := by
    rw [abs_div, abs_pow, abs_of_pos (by norm_num : (0 : ℝ) < 8)]; linarith [pow_nonneg hU 4]
  have tc : |(a + b - 1 / 2) * ρ| ≤ 5 / 4 * (1 / 10 ^ 24 * |b|) := by
    rw [abs_mul, abs_of_pos (by linarith)]
    have hle : a + b - 1 / 2 ≤ 11 / 10 * a := by
      have := le_abs_self b
      norm_num at *
      linarith
    calc (a + b - 1 / 2) * |ρ| ≤ (11 / 10 * a) * (101 / 100 * |u| ^ 5) := mul_le_mul hle hρb (abs_nonneg _) (by positivity)
      _ = 1111 / 1000 * (a * |u| ^ 5) := by ring
      _ ≤ _ := by linarith [mul_nonneg ha.le (pow_nonneg hU 5)]
  have td : |-(u ^ 3 * v / (12 * a))| ≤ 1 / 10 ^ 23 := by
    rw [abs_neg, abs_div, abs_mul, abs_pow, abs_of_pos (by positivity : 0 < 12 * a), div_le_iff₀ (by positivity)]
    calc |u| ^ 3 * |v| ≤ 1 / 10 ^ 18 * 2 := mul_le_mul hu3 hv2 (abs_nonneg _) (by norm_num)
      _ ≤ _ := by norm_num at *; linarith
  have hb0 := abs_nonneg b
  generalize -(a * u ^ 5 / 4) = A at *
  generalize u ^ 4 / 8 = B at *
  generalize (a + b - 1 / 2) * ρ = C at *
  generalize -(u ^ 3 * v / (12 * a)) = D at *
  generalize stirMu a - 1 / (12 * a) = E at *
  generalize stirMu (a + b) - v / (12 * a) = F at *
  have := abs_le.1 ta
  have := abs_le.1 tb
  have := abs_le.1 tc
  have := abs_le.1 td
  have := abs_le.1 m1
  have := abs_le.1 m2
  rw [abs_le]
  generalize |b| = β at *
  norm_num at *
  constructor <;> linarith

end Russell.Lab
