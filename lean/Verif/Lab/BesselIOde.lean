import Verif.Lab.BesselPos
import Mathlib.Analysis.Calculus.SmoothSeries
import Mathlib.Analysis.Calculus.Deriv.MeanValue
import Mathlib.Analysis.SpecialFunctions.Sqrt
import Mathlib.Analysis.Calculus.Deriv.Inv
import Mathlib.Analysis.SpecialFunctions.ExpDeriv

/-!
# The differential equations of `I₀` and `I₁` and a stability estimate (background of property C119)

`I₀' = I₁` and `I₁' = I₀ - I₁ / x`, so `w = √x e⁻ˣ Iₙ` satisfies `w'' + 2 w' = (n² - 1/4) w / x²`. The error of an approximation to `w` is bounded by the
residual in this equation for all `x ≥ 15`. Nothing here refers to the code.
-/

namespace Russell.Lab

open Nat (factorial)
open scoped Nat
open Real Set

theorem besTermI_zero_deriv (m : ℕ) (x : ℝ) : HasDerivAt (fun x => besTerm 1 0 (x / 2) (m + 1)) (besTerm 1 1 (x / 2) m) x := by
  have h := ((((hasDerivAt_id x).div_const 2).pow (2 * (m + 1) + 0)).const_mul ((1 : ℝ) ^ (m + 1))).div_const ((((m + 1)! : ℕ) : ℝ) * ((m + 1 + 0)! : ℝ))
  refine HasDerivAt.congr_deriv (f := fun x => besTerm 1 0 (x / 2) (m + 1)) h ?_
  have hm : ((m ! : ℕ) : ℝ) ≠ 0 := by positivity
  have hm1 : ((m : ℝ) + 1) ≠ 0 := by positivity
  simp only [besTerm, add_zero, Nat.factorial_succ, id_eq, show 2 * (m + 1) - 1 = 2 * m + 1 by omega]
  push_cast
  field_simp
  ring

theorem mul_besTermI_one_deriv (m : ℕ) (x : ℝ) : HasDerivAt (fun x => x * besTerm 1 1 (x / 2) m) (x * besTerm 1 0 (x / 2) m) x := by
  have h := (hasDerivAt_id x).mul (((((hasDerivAt_id x).div_const 2).pow (2 * m + 1)).const_mul ((1 : ℝ) ^ m)).div_const (((m ! : ℕ) : ℝ) * ((m + 1)! : ℝ)))
  refine HasDerivAt.congr_deriv (f := fun x => x * besTerm 1 1 (x / 2) m) h ?_
  have hm : ((m ! : ℕ) : ℝ) ≠ 0 := by positivity
  have hm1 : ((m : ℝ) + 1) ≠ 0 := by positivity
  simp only [besTerm, add_zero, Nat.factorial_succ, id_eq, Nat.add_sub_cancel, Pi.pow_apply, pow_succ]
  push_cast
  field_simp
  ring

theorem besTermI_bound_ball (n : ℕ) {x R : ℝ} (hx : x ∈ Ioo (-R) R) (m : ℕ) :
    |besTerm 1 n (x / 2) m| ≤ |R / 2| ^ n / (n ! : ℝ) * ((|(1 : ℝ)| * (R / 2) ^ 2) ^ m / (m ! : ℝ)) := by
  refine (besTerm_abs_le 1 n (x / 2) m).trans ?_
  have h2 : |x / 2| ≤ |R / 2| := by
    rw [abs_div, abs_div]
    have := (abs_lt.2 hx).le.trans (le_abs_self R)
    gcongr
  have h3 : (x / 2) ^ 2 ≤ (R / 2) ^ 2 := sq_le_sq.2 h2
  gcongr

theorem besselI_zero_deriv (x : ℝ) : HasDerivAt (besselI 0) (besselI 1 x) x := by
  obtain ⟨R, hR⟩ : ∃ R, |x| < R := exists_gt _
  have hx := abs_lt.1 hR
  have h0 : (0 : ℝ) ∈ Ioo (-R) R := by have := (abs_nonneg x).trans_lt hR; constructor <;> linarith
  have h := hasDerivAt_tsum_of_isPreconnected (u := fun m => |R / 2| ^ 1 / (1 ! : ℝ) * ((|(1 : ℝ)| * (R / 2) ^ 2) ^ m / (m ! : ℝ)))
    ((Real.summable_pow_div_factorial _).mul_left _) isOpen_Ioo isPreconnected_Ioo (g := fun m x => besTerm 1 0 (x / 2) (m + 1))
    (g' := fun m x => besTerm 1 1 (x / 2) m) (fun m y _ => besTermI_zero_deriv m y)
    (fun m y hy => by exact besTermI_bound_ball 1 hy m) h0 ((summable_nat_add_iff 1).2 (besTerm_summable 1 0 (0 / 2))) (show x ∈ Ioo (-R) R from hx)
  have e : besselI 0 = fun x => 1 + ∑' m, besTerm 1 0 (x / 2) (m + 1) := by
    funext y
    rw [besselI, bes, (besTerm_summable 1 0 (y / 2)).tsum_eq_zero_add]
    simp [besTerm]
  rw [e]
  refine (h.const_add 1).congr_deriv ?_
  rfl

theorem mul_besselI_one_deriv (x : ℝ) : HasDerivAt (fun x => x * besselI 1 x) (x * besselI 0 x) x := by
  obtain ⟨R, hR⟩ : ∃ R, |x| < R := exists_gt _
  have hx := abs_lt.1 hR
  have h0 : (0 : ℝ) ∈ Ioo (-R) R := by have := (abs_nonneg x).trans_lt hR; constructor <;> linarith
  have h := hasDerivAt_tsum_of_isPreconnected (u := fun m => |R| * (|R / 2| ^ 0 / (0 ! : ℝ) * ((|(1 : ℝ)| * (R / 2) ^ 2) ^ m / (m ! : ℝ))))
    (((Real.summable_pow_div_factorial _).mul_left _).mul_left _) isOpen_Ioo isPreconnected_Ioo (g := fun m x => x * besTerm 1 1 (x / 2) m)
    (g' := fun m x => x * besTerm 1 0 (x / 2) m) (fun m y _ => mul_besTermI_one_deriv m y)
    (fun m y hy => by
      rw [norm_mul]
      have h1 := besTermI_bound_ball 0 hy m
      have h2 : |y| ≤ |R| := (abs_lt.2 hy).le.trans (le_abs_self R)
      simp only [Real.norm_eq_abs]
      gcongr) h0 ((besTerm_summable 1 1 (0 / 2)).mul_left 0) (show x ∈ Ioo (-R) R from hx)
  simp only [tsum_mul_left] at h
  exact h

theorem besselI_one_deriv {x : ℝ} (hx : 0 < x) : HasDerivAt (besselI 1) (besselI 0 x - besselI 1 x / x) x := by
  have h := (mul_besselI_one_deriv x).div (hasDerivAt_id x) hx.ne'
  have h2 : HasDerivAt (besselI 1) _ x := h.congr_of_eventuallyEq (by
    filter_upwards [lt_mem_nhds hx] with y hy
    simp only [Pi.div_apply, id_eq]
    field_simp)
  refine h2.congr_deriv ?_
  simp only [id_eq]
  field_simp

/-- `√x e⁻ˣ` -/
noncomputable def besG (x : ℝ) : ℝ := √x * exp (-x)

theorem besG_deriv {x : ℝ} (hx : 0 < x) : HasDerivAt besG (besG x * (1 / (2 * x) - 1)) x := by
  have h := (hasDerivAt_sqrt hx.ne').mul ((hasDerivAt_neg x).exp)
  refine HasDerivAt.congr_deriv (f := besG) h ?_
  have hs := sqrt_pos.2 hx
  have e : √x * √x = x := mul_self_sqrt hx.le
  unfold besG
  have : 1 / (2 * √x) = √x * (1 / (2 * x)) := by
    rw [eq_comm]
    nth_rewrite 2 [← e]
    field_simp
  rw [this]
  ring

/-- derivatives of `√x e⁻ˣ Iₙ` -/
noncomputable def besP0 (x : ℝ) : ℝ := besG x * (besselI 1 x - besselI 0 x + besselI 0 x * (1 / (2 * x)))
noncomputable def besP1 (x : ℝ) : ℝ := besG x * (besselI 0 x - besselI 1 x - besselI 1 x * (1 / (2 * x)))

theorem half_inv_deriv {x : ℝ} (hx : 0 < x) : HasDerivAt (fun x : ℝ => 1 / (2 * x)) (-(1 / (2 * x ^ 2))) x := by
  have h := ((hasDerivAt_id x).const_mul 2).inv (by simp only [id_eq]; positivity)
  refine (h.congr_of_eventuallyEq (Filter.Eventually.of_forall fun y => by simp [one_div])).congr_deriv ?_
  simp only [id_eq]
  field_simp

theorem besW0_deriv {x : ℝ} (hx : 0 < x) : HasDerivAt (fun x => besG x * besselI 0 x) (besP0 x) x := by
  refine ((besG_deriv hx).mul (besselI_zero_deriv x)).congr_deriv ?_
  unfold besP0
  ring

theorem besW1_deriv {x : ℝ} (hx : 0 < x) : HasDerivAt (fun x => besG x * besselI 1 x) (besP1 x) x := by
  refine ((besG_deriv hx).mul (besselI_one_deriv hx)).congr_deriv ?_
  unfold besP1
  field_simp
  ring

theorem besP0_deriv {x : ℝ} (hx : 0 < x) : HasDerivAt besP0 (-2 * besP0 x + (1 / x) ^ 2 * (-(1 / 4) * (besG x * besselI 0 x))) x := by
  refine HasDerivAt.congr_deriv (f := besP0) ((besG_deriv hx).mul (((besselI_one_deriv hx).sub (besselI_zero_deriv x)).add ((besselI_zero_deriv x).mul (half_inv_deriv hx)))) ?_
  simp only [besP0]
  field_simp
  ring

theorem besP1_deriv {x : ℝ} (hx : 0 < x) : HasDerivAt besP1 (-2 * besP1 x + (1 / x) ^ 2 * (3 / 4 * (besG x * besselI 1 x))) x := by
  refine HasDerivAt.congr_deriv (f := besP1) ((besG_deriv hx).mul (((besselI_zero_deriv x).sub (besselI_one_deriv hx)).sub ((besselI_one_deriv hx).mul (half_inv_deriv hx)))) ?_
  simp only [besP1]
  field_simp
  ring

theorem inv_deriv' {x : ℝ} (hx : 0 < x) : HasDerivAt (fun x : ℝ => 1 / x) (-(1 / x) ^ 2) x := by
  refine ((hasDerivAt_inv hx.ne').congr_of_eventuallyEq (Filter.Eventually.of_forall fun y => by simp [one_div])).congr_deriv ?_
  rw [one_div, inv_pow]

/-- the error bound: `e'' + 2 e' = (c e + γ) / x²` for `x ≥ 15` -/
theorem damp_bound {e p γ : ℝ → ℝ} {c α β η X : ℝ} (hX : 15 ≤ X) (he : ∀ x, 15 ≤ x → HasDerivAt e (p x) x)
    (hp : ∀ x, 15 ≤ x → HasDerivAt p (-2 * p x + (1 / x) ^ 2 * (c * e x + γ x)) x) (hc : |c| ≤ 3 / 4) (hα : 0 ≤ α) (hβ : 0 ≤ β)
    (hγ : ∀ x, 15 ≤ x → |γ x| ≤ α + β * (30 * (1 / x) - 1) ^ 8) (h15 : |e 15| + |p 15| ≤ η) :
    |e X| ≤ 26 / 25 * (η + (α / 15 + β / 135) / 2 + (α + β) / 900) := by
  have hcont : ContinuousOn (fun x => |e x|) (Icc 15 X) := fun x hx => ((he x hx.1).continuousAt.abs).continuousWithinAt
  obtain ⟨Y, hY, hmax⟩ := isCompact_Icc.exists_isMaxOn (nonempty_Icc.2 hX) hcont
  obtain ⟨A, hA⟩ : ∃ A, A = |e Y| := ⟨_, rfl⟩
  have hA0 : 0 ≤ A := hA ▸ abs_nonneg _
  have hle : ∀ x ∈ Icc 15 Y, |e x| ≤ A := fun x hx => hA ▸ hmax ⟨hx.1, hx.2.trans hY.2⟩
  have hpos : ∀ x ∈ Icc (15 : ℝ) Y, 0 < x := fun x hx => by linarith [hx.1]
  have hce : ∀ x ∈ Icc 15 Y, |c * e x + γ x| ≤ 3 / 4 * A + (α + β * (30 * (1 / x) - 1) ^ 8) := by
    intro x hx
    refine (abs_add_le _ _).trans (add_le_add ?_ (hγ x hx.1))
    rw [abs_mul]
    exact mul_le_mul hc (hle x hx) (abs_nonneg _) (by norm_num)
  -- the slow part
  obtain ⟨Ph, hPh⟩ : ∃ Ph : ℝ → ℝ, Ph = fun x => (3 / 4 * A * (1 / x) + α * (1 / x) + β * (30 * (1 / x) - 1) ^ 9 / 270) / 2 := ⟨_, rfl⟩
  have dPh : ∀ x, 0 < x → HasDerivAt Ph (-((1 / x) ^ 2 * (3 / 4 * A + (α + β * (30 * (1 / x) - 1) ^ 8)) / 2)) x := by
    intro x hx
    have hi := inv_deriv' hx
    have h := ((((hi.const_mul (3 / 4 * A)).add (hi.const_mul α)).add (((((hi.const_mul 30).sub_const 1).pow 9).const_mul β).div_const 270)).div_const 2)
    rw [hPh]
    refine HasDerivAt.congr_deriv h ?_
    simp only [Nat.add_one_sub_one]
    push_cast
    ring
  have dm : ∀ x, 15 ≤ x → HasDerivAt (fun x => e x + p x / 2) ((1 / x) ^ 2 * (c * e x + γ x) / 2) x := by
    intro x hx
    refine ((he x hx).add ((hp x hx).div_const 2)).congr_deriv ?_
    ring
  have anti : ∀ s : ℝ, (s = 1 ∨ s = -1) → s * (e Y + p Y / 2) + Ph Y ≤ s * (e 15 + p 15 / 2) + Ph 15 := by
    intro s hs
    have hd : ∀ x ∈ Icc 15 Y, HasDerivAt (fun x => s * (e x + p x / 2) + Ph x) (s * ((1 / x) ^ 2 * (c * e x + γ x) / 2) + -((1 / x) ^ 2 * (3 / 4 * A + (α + β * (30 * (1 / x) - 1) ^ 8)) / 2)) x :=
      fun x hx => ((dm x hx.1).const_mul s).add (dPh x (hpos x hx))
    refine antitoneOn_of_deriv_nonpos (convex_Icc 15 Y) (f := fun x => s * (e x + p x / 2) + Ph x) (fun x hx => (hd x hx).continuousAt.continuousWithinAt)
      (fun x hx => (hd x (interior_subset hx)).differentiableAt.differentiableWithinAt) (fun x hx => ?_) (left_mem_Icc.2 hY.1) (right_mem_Icc.2 hY.1) hY.1
    have hx' := interior_subset hx
    rw [(hd x hx').deriv]
    have h1 := abs_le.1 (hce x hx')
    have h2 : 0 ≤ (1 / x) ^ 2 := sq_nonneg _
    rcases hs with rfl | rfl
    · nlinarith [mul_le_mul_of_nonneg_left h1.2 h2]
    · nlinarith [mul_le_mul_of_nonneg_left h1.1 h2]
  have hYp : 0 < Y := by linarith [hY.1]
  have hphi : Ph 15 - Ph Y ≤ (3 / 4 * A / 15 + α / 15 + β / 135) / 2 := by
    have h1 : 0 ≤ 1 / Y := by positivity
    have h2 : -1 ≤ (30 * (1 / Y) - 1) ^ 9 := by
      have : (-1 : ℝ) ^ 9 ≤ (30 * (1 / Y) - 1) ^ 9 := (Odd.strictMono_pow (by decide : Odd 9)).monotone (by linarith)
      norm_num at this ⊢
      linarith
    rw [hPh]
    norm_num
    have h3 : 0 ≤ A * (1 / Y) := mul_nonneg hA0 h1
    have h4 : 0 ≤ α * (1 / Y) := mul_nonneg hα h1
    have h5 : -β ≤ β * (30 * (1 / Y) - 1) ^ 9 := by nlinarith
    rw [one_div] at h3 h4 h5
    linarith
  -- the fast part
  obtain ⟨K, hK⟩ : ∃ K, K = 3 / 4 * A + (α + β) := ⟨_, rfl⟩
  have hK0 : 0 ≤ K := by rw [hK]; positivity
  have hKe : ∀ x ∈ Icc 15 Y, |(1 / x) ^ 2 * (c * e x + γ x)| ≤ K / 225 := by
    intro x hx
    have hx0 := hpos x hx
    have ht : 1 / x ≤ 1 / 15 := one_div_le_one_div_of_le (by norm_num) hx.1
    have ht0 : 0 ≤ 1 / x := by positivity
    have h8 : (30 * (1 / x) - 1) ^ 8 ≤ 1 := by
      have : |30 * (1 / x) - 1| ≤ 1 := by rw [abs_le]; constructor <;> linarith
      have := pow_le_one₀ (n := 8) (abs_nonneg _) this
      rwa [Even.pow_abs (by decide)] at this
    have h1 : |c * e x + γ x| ≤ K := (hce x hx).trans (by rw [hK]; nlinarith)
    rw [abs_mul, abs_of_nonneg (sq_nonneg _)]
    have h2 : (1 / x) ^ 2 ≤ 1 / 225 := by nlinarith
    calc (1 / x) ^ 2 * |c * e x + γ x| ≤ 1 / 225 * K := by gcongr
      _ = _ := by ring
  have fast : ∀ s : ℝ, (s = 1 ∨ s = -1) → s * p Y ≤ K / 450 + |p 15| := by
    intro s hs
    have hd : ∀ x ∈ Icc 15 Y, HasDerivAt (fun x => exp (2 * x) * (s * p x - K / 450)) (exp (2 * x) * (s * ((1 / x) ^ 2 * (c * e x + γ x)) - K / 225)) x := by
      intro x hx
      refine ((((hasDerivAt_id x).const_mul 2).exp).mul (((hp x hx.1).const_mul s).sub_const (K / 450))).congr_deriv ?_
      simp only [id_eq]
      ring
    have h := antitoneOn_of_deriv_nonpos (convex_Icc 15 Y) (f := fun x => exp (2 * x) * (s * p x - K / 450)) (fun x hx => (hd x hx).continuousAt.continuousWithinAt)
      (fun x hx => (hd x (interior_subset hx)).differentiableAt.differentiableWithinAt) (fun x hx => by
        have hx' := interior_subset hx
        rw [(hd x hx').deriv]
        have h1 := abs_le.1 (hKe x hx')
        refine mul_nonpos_of_nonneg_of_nonpos (exp_pos _).le ?_
        rcases hs with rfl | rfl <;> linarith [h1.1, h1.2]) (left_mem_Icc.2 hY.1) (right_mem_Icc.2 hY.1) hY.1
    simp only at h
    by_contra hcon
    have hg : |p 15| < s * p Y - K / 450 := by linarith [not_le.1 hcon]
    have hb : s * p 15 - K / 450 ≤ |p 15| := by
      rcases hs with rfl | rfl
      · linarith [le_abs_self (p 15)]
      · linarith [neg_le_abs (p 15)]
    have h1 : exp (2 * 15) ≤ exp (2 * Y) := exp_le_exp.2 (by linarith [hY.1])
    have h2 : exp (2 * 15) * (s * p 15 - K / 450) ≤ exp (2 * 15) * |p 15| := mul_le_mul_of_nonneg_left hb (exp_pos _).le
    have h3 : exp (2 * 15) * |p 15| ≤ exp (2 * Y) * |p 15| := mul_le_mul_of_nonneg_right h1 (abs_nonneg _)
    have h4 := mul_lt_mul_of_pos_left hg (exp_pos (2 * Y))
    exact absurd (h4.trans_le (h.trans (h2.trans h3))) (lt_irrefl _)
  have f1 := fast 1 (.inl rfl)
  have f2 := fast (-1) (.inr rfl)
  have a1 := anti 1 (.inl rfl)
  have a2 := anti (-1) (.inr rfl)
  have e1 := abs_le.1 (le_refl |e 15|)
  have p1 := abs_le.1 (le_refl |p 15|)
  have hAA : A ≤ |e 15| + |p 15| + (3 / 4 * A / 15 + α / 15 + β / 135) / 2 + K / 900 := by
    rw [hA]
    refine abs_le.2 ⟨?_, ?_⟩ <;> rw [← hA] <;> linarith [e1.1, e1.2, p1.1, p1.2]
  have hXA : |e X| ≤ A := hA ▸ hmax (right_mem_Icc.2 hX)
  rw [hK] at hAA
  linarith

end Russell.Lab
