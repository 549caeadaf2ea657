import Mathlib.Analysis.SpecialFunctions.Exponential
import Mathlib.Analysis.SpecificLimits.Normed
import Mathlib.Tactic

/-!
# The power series of the Bessel functions

`bes σ n x = ∑ₘ σᵐ (x/2)^(2m+n) / (m! (m+n)!)` is the Bessel function of the first kind `Jₙ` for `σ = -1` and the modified one `Iₙ` for `σ = 1`
(Abramowitz and Stegun 9.1.10, 9.6.10). Nothing here refers to the code.
-/

namespace Russell.Lab

open Nat (factorial)
open scoped Nat

/-- the terms of the power series, `h = x/2` -/
noncomputable def besTerm (σ : ℝ) (n : ℕ) (h : ℝ) (m : ℕ) : ℝ := σ ^ m * h ^ (2 * m + n) / ((m ! : ℝ) * ((m + n)! : ℝ))

/-- the power series of `Jₙ` (`σ = -1`) and `Iₙ` (`σ = 1`) -/
noncomputable def bes (σ : ℝ) (n : ℕ) (x : ℝ) : ℝ := ∑' m, besTerm σ n (x / 2) m

/-- the Bessel function of the first kind -/
noncomputable def besselJ (n : ℕ) (x : ℝ) : ℝ := bes (-1) n x

/-- the modified Bessel function of the first kind -/
noncomputable def besselI (n : ℕ) (x : ℝ) : ℝ := bes 1 n x

theorem besTerm_abs_le (σ : ℝ) (n : ℕ) (h : ℝ) (m : ℕ) : |besTerm σ n h m| ≤ |h| ^ n / (n ! : ℝ) * ((|σ| * h ^ 2) ^ m / (m ! : ℝ)) := by
  unfold besTerm
  have hm : (0 : ℝ) < (m ! : ℝ) := by positivity
  have hn : (0 : ℝ) < (n ! : ℝ) := by positivity
  have hmn : (0 : ℝ) < ((m + n)! : ℝ) := by positivity
  have hle : (n ! : ℝ) ≤ ((m + n)! : ℝ) := by exact_mod_cast Nat.factorial_le (Nat.le_add_left n m)
  rw [abs_div, abs_mul, abs_mul, abs_pow, abs_pow, abs_of_pos hm, abs_of_pos hmn, ← sq_abs h, mul_pow, ← pow_mul, pow_add, div_mul_div_comm]
  calc |σ| ^ m * (|h| ^ (2 * m) * |h| ^ n) / ((m ! : ℝ) * ((m + n)! : ℝ)) ≤ |σ| ^ m * (|h| ^ (2 * m) * |h| ^ n) / ((m ! : ℝ) * (n ! : ℝ)) := by gcongr
    _ = _ := by ring

theorem besTerm_summable (σ : ℝ) (n : ℕ) (h : ℝ) : Summable (besTerm σ n h) :=
  Summable.of_norm_bounded ((Real.summable_pow_div_factorial (|σ| * h ^ 2)).mul_left (|h| ^ n / (n ! : ℝ))) (besTerm_abs_le σ n h)

/-- the three-term recurrence -/
theorem bes_recurrence (σ : ℝ) (n : ℕ) (x : ℝ) : x / 2 * (bes σ n x - σ * bes σ (n + 2) x) = (n + 1) * bes σ (n + 1) x := by
  unfold bes
  generalize x / 2 = h
  have s0 := besTerm_summable σ n h
  have s1 := besTerm_summable σ (n + 1) h
  have s2 := besTerm_summable σ (n + 2) h
  -- the series of `h σ B_{n+2}`, shifted
  have e : ∑' m, h * (σ * besTerm σ (n + 2) h m) = ∑' m : ℕ, (m : ℝ) * (σ ^ m * h ^ (2 * m + (n + 1)) / ((m ! : ℝ) * ((m + (n + 1))! : ℝ))) := by
    have hs : ∀ m : ℕ, ((m + 1 : ℕ) : ℝ) * (σ ^ (m + 1) * h ^ (2 * (m + 1) + (n + 1)) / (((m + 1)! : ℝ) * ((m + 1 + (n + 1))! : ℝ))) = h * (σ * besTerm σ (n + 2) h m) := by
      intro m
      unfold besTerm
      have hm : (m ! : ℝ) ≠ 0 := by positivity
      have h2 : ((m + (n + 2))! : ℝ) ≠ 0 := by positivity
      have h3 : ((m : ℝ) + 1) ≠ 0 := by positivity
      rw [Nat.factorial_succ, show m + 1 + (n + 1) = m + (n + 2) by ring, show 2 * (m + 1) + (n + 1) = 2 * m + (n + 2) + 1 by ring]
      push_cast
      field_simp
      ring
    have hsum : Summable (fun m : ℕ => (m : ℝ) * (σ ^ m * h ^ (2 * m + (n + 1)) / ((m ! : ℝ) * ((m + (n + 1))! : ℝ)))) := by
      rw [← summable_nat_add_iff 1]
      simp only [hs]
      exact (s2.mul_left σ).mul_left h
    rw [hsum.tsum_eq_zero_add]
    simp only [hs]
    simp
  rw [mul_sub, ← tsum_mul_left, ← tsum_mul_left, ← tsum_mul_left, ← tsum_mul_left, e]
  have hsum : Summable (fun m : ℕ => (m : ℝ) * (σ ^ m * h ^ (2 * m + (n + 1)) / ((m ! : ℝ) * ((m + (n + 1))! : ℝ)))) := by
    rw [← summable_nat_add_iff 1]
    refine ((s2.mul_left σ).mul_left h).congr fun m => ?_
    unfold besTerm
    have hm : (m ! : ℝ) ≠ 0 := by positivity
    have h2 : ((m + (n + 2))! : ℝ) ≠ 0 := by positivity
    have h3 : ((m : ℝ) + 1) ≠ 0 := by positivity
    rw [Nat.factorial_succ, show m + 1 + (n + 1) = m + (n + 2) by ring, show 2 * (m + 1) + (n + 1) = 2 * m + (n + 2) + 1 by ring]
    push_cast
    field_simp
    ring
  rw [← (s0.mul_left h).tsum_sub hsum]
  refine tsum_congr fun m => ?_
  unfold besTerm
  have hm : (m ! : ℝ) ≠ 0 := by positivity
  have h2 : ((m + n)! : ℝ) ≠ 0 := by positivity
  have h3 : ((m : ℝ) + n + 1) ≠ 0 := by positivity
  rw [show m + (n + 1) = (m + n) + 1 by ring, Nat.factorial_succ, show 2 * m + (n + 1) = 2 * m + n + 1 by ring]
  push_cast
  field_simp
  ring

/-- parity -/
theorem bes_neg (σ : ℝ) (n : ℕ) (x : ℝ) : bes σ n (-x) = (-1) ^ n * bes σ n x := by
  unfold bes
  rw [← tsum_mul_left]
  refine tsum_congr fun m => ?_
  unfold besTerm
  rw [neg_div, neg_pow (x / 2), pow_add, pow_mul]
  norm_num
  ring

theorem besTerm_zero (σ : ℝ) (n : ℕ) (h : ℝ) : besTerm σ n h 0 = h ^ n / (n ! : ℝ) := by
  simp [besTerm]

/-- the ratio of neighbouring terms -/
theorem besTerm_succ (σ : ℝ) (n : ℕ) (h : ℝ) (m : ℕ) : besTerm σ n h (m + 1) = besTerm σ n h m * (σ * h ^ 2 / ((m + 1) * (m + n + 1))) := by
  unfold besTerm
  rw [show m + 1 + n = (m + n) + 1 by ring, Nat.factorial_succ, Nat.factorial_succ, show 2 * (m + 1) + n = 2 * m + n + 2 by ring]
  have hm : (m ! : ℝ) ≠ 0 := by positivity
  have h2 : ((m + n)! : ℝ) ≠ 0 := by positivity
  have h3 : ((m : ℝ) + n + 1) ≠ 0 := by positivity
  have h4 : ((m : ℝ) + 1) ≠ 0 := by positivity
  push_cast
  field_simp
  ring

/-! ## Modified Bessel functions -/

theorem besselI_pos (n : ℕ) {x : ℝ} (hx : 0 < x) : 0 < besselI n x := by
  unfold besselI bes
  refine (besTerm_summable 1 n (x / 2)).tsum_pos (fun m => ?_) 0 ?_
  · unfold besTerm; positivity
  · unfold besTerm; positivity

theorem besselI_rec (n : ℕ) {x : ℝ} (hx : 0 < x) : besselI n x = besselI (n + 2) x + (n + 1) * (2 / x) * besselI (n + 1) x := by
  have := bes_recurrence 1 n x
  unfold besselI
  field_simp at this ⊢
  linear_combination this

theorem besselI_ratio (n : ℕ) {x : ℝ} (hx : 0 < x) : besselI (n + 1) x ≤ x / (2 * (n + 1)) * besselI n x := by
  have h := besselI_rec n hx
  have h2 := besselI_pos (n + 2) hx
  have h3 : (0 : ℝ) < n + 1 := by positivity
  rw [h]
  have : x / (2 * (n + 1)) * (besselI (n + 2) x + (n + 1) * (2 / x) * besselI (n + 1) x) = x / (2 * (n + 1)) * besselI (n + 2) x + besselI (n + 1) x := by
    field_simp
  rw [this]
  have : 0 ≤ x / (2 * (n + 1)) * besselI (n + 2) x := by positivity
  linarith

/-- the modified Bessel functions decrease with the order -/
theorem besselI_succ_le (n : ℕ) {x : ℝ} (hx : 0 < x) : besselI (n + 1) x ≤ besselI n x := by
  unfold besselI bes
  have hh : 0 < x / 2 := by positivity
  generalize x / 2 = h at hh
  have s0 := besTerm_summable 1 n h
  have s1 := besTerm_summable 1 (n + 1) h
  -- `2 t'ₘ ≤ (m+1)/(m+n+1) tₘ + tₘ₊₁`
  have key : ∀ m, 2 * besTerm 1 (n + 1) h m ≤ besTerm 1 n h m + besTerm 1 n h (m + 1) := by
    intro m
    rw [besTerm_succ]
    have e : besTerm 1 (n + 1) h m = besTerm 1 n h m * (h / (m + n + 1)) := by
      unfold besTerm
      rw [show m + (n + 1) = (m + n) + 1 by ring, Nat.factorial_succ, show 2 * m + (n + 1) = 2 * m + n + 1 by ring]
      have hm : (m ! : ℝ) ≠ 0 := by positivity
      have h2 : ((m + n)! : ℝ) ≠ 0 := by positivity
      have h3 : ((m : ℝ) + n + 1) ≠ 0 := by positivity
      push_cast
      field_simp
      ring
    have ht : 0 ≤ besTerm 1 n h m := by unfold besTerm; positivity
    rw [e]
    have h3 : (0 : ℝ) < (m : ℝ) + n + 1 := by positivity
    have h4 : (0 : ℝ) < (m : ℝ) + 1 := by positivity
    have hn : (0 : ℝ) ≤ n := by positivity
    have : 2 * (h / (m + n + 1)) ≤ 1 + 1 * h ^ 2 / ((m + 1) * (m + n + 1)) := by
      rw [← sub_nonneg]
      have e2 : 1 + 1 * h ^ 2 / ((m + 1) * (m + n + 1)) - 2 * (h / (m + n + 1)) = ((h - (m + 1)) ^ 2 + (m + 1) * n) / (((m : ℝ) + 1) * (m + n + 1)) := by
        field_simp
        ring
      rw [e2]
      positivity
    nlinarith
  have s0' : Summable (fun m => besTerm 1 n h (m + 1)) := (summable_nat_add_iff 1).2 s0
  have h1 : 2 * ∑' m, besTerm 1 (n + 1) h m ≤ ∑' m, besTerm 1 n h m + ∑' m, besTerm 1 n h (m + 1) := by
    rw [← tsum_mul_left, ← s0.tsum_add s0']
    exact (s1.mul_left 2).tsum_le_tsum key (s0.add s0')
  have h2 : ∑' m, besTerm 1 n h (m + 1) ≤ ∑' m, besTerm 1 n h m := by
    rw [s0.tsum_eq_zero_add]
    have : 0 ≤ besTerm 1 n h 0 := by unfold besTerm; positivity
    linarith
  linarith

theorem besselI_anti {m n : ℕ} (h : m ≤ n) {x : ℝ} (hx : 0 < x) : besselI n x ≤ besselI m x := by
  induction n, h using Nat.le_induction with
  | base => exact le_rfl
  | succ n _ ih => exact (besselI_succ_le n hx).trans ih

/-- geometric decay above the argument -/
theorem besselI_decay {m : ℕ} {x : ℝ} (hx : 0 < x) (hm : x ≤ m + 1) (k : ℕ) : besselI (m + k) x ≤ (1 / 2) ^ k * besselI m x := by
  induction k with
  | zero => simp
  | succ k ih =>
    have h := besselI_ratio (m + k) hx
    have hp := besselI_pos (m + k) hx
    rw [show m + (k + 1) = m + k + 1 by ring]
    have hr : x / (2 * (((m + k : ℕ) : ℝ) + 1)) ≤ 1 / 2 := by
      rw [div_le_div_iff₀ (by positivity) (by norm_num)]
      push_cast
      have : (0 : ℝ) ≤ k := by positivity
      linarith
    calc besselI (m + k + 1) x ≤ x / (2 * (((m + k : ℕ) : ℝ) + 1)) * besselI (m + k) x := h
      _ ≤ 1 / 2 * ((1 / 2) ^ k * besselI m x) := by gcongr
      _ = _ := by ring

/-- the leading term dominates for small arguments -/
theorem bes_lead {σ : ℝ} (hσ : |σ| = 1) (n : ℕ) {x : ℝ} (hx : (x / 2) ^ 2 ≤ 1) :
    |bes σ n x - (x / 2) ^ n / (n ! : ℝ)| ≤ 2 * (x / 2) ^ 2 / (n + 1) * (|x / 2| ^ n / (n ! : ℝ)) := by
  unfold bes
  generalize x / 2 = h at *
  have s0 := besTerm_summable σ n h
  rw [s0.tsum_eq_zero_add, besTerm_zero, add_sub_cancel_left]
  have hb : ∀ m, |besTerm σ n h (m + 1)| ≤ (|h| ^ n / (n ! : ℝ) * (h ^ 2 / (n + 1))) * (1 / 2) ^ m := by
    intro m
    induction m with
    | zero =>
      rw [besTerm_succ, besTerm_zero, abs_mul, abs_div, abs_div, abs_mul, hσ, abs_pow, abs_pow, sq_abs]
      simp only [Nat.cast_zero, zero_add, one_mul, pow_zero, mul_one]
      rw [abs_of_pos (by positivity : (0 : ℝ) < (n : ℝ) + 1), abs_of_pos (by positivity : (0 : ℝ) < (n ! : ℝ))]
    | succ m ih =>
      rw [besTerm_succ, abs_mul]
      have : |σ * h ^ 2 / ((((m + 1 : ℕ) : ℝ) + 1) * (((m + 1 : ℕ) : ℝ) + n + 1))| ≤ 1 / 2 := by
        rw [abs_div, abs_mul, hσ, one_mul, abs_of_nonneg (sq_nonneg h), abs_of_pos (by positivity), div_le_div_iff₀ (by positivity) (by norm_num)]
        push_cast
        have h1 : (0 : ℝ) ≤ m := by positivity
        have h2 : (0 : ℝ) ≤ n := by positivity
        nlinarith [mul_nonneg h1 h2]
      calc _ ≤ (|h| ^ n / (n ! : ℝ) * (h ^ 2 / (n + 1))) * (1 / 2) ^ m * (1 / 2) := by gcongr
        _ = _ := by ring
  have hg : Summable (fun m : ℕ => (|h| ^ n / (n ! : ℝ) * (h ^ 2 / (n + 1))) * (1 / 2 : ℝ) ^ m) := summable_geometric_two.mul_left _
  have := tsum_of_norm_bounded (f := fun m => besTerm σ n h (m + 1)) hg.hasSum hb
  rw [Real.norm_eq_abs, tsum_mul_left, tsum_geometric_two] at this
  refine this.trans (le_of_eq ?_)
  ring

end Russell.Lab
