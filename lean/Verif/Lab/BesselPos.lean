import Verif.Lab.Bessel
import Mathlib.Analysis.SpecificLimits.Normed
import Mathlib.Topology.Algebra.InfiniteSum.Order

/-!
# Positivity of the Bessel functions `Jₙ(x)` for orders above the argument, and the sign of `J₀` at 2 and 3
-/

namespace Russell.Lab

open Filter Topology
open scoped Nat

theorem besselJ_rec (n : ℕ) {x : ℝ} (hx : x ≠ 0) : besselJ (n + 2) x = 2 * (n + 1) / x * besselJ (n + 1) x - besselJ n x := by
  have := bes_recurrence (-1) n x
  unfold besselJ
  field_simp at this ⊢
  linear_combination this

theorem besselJ_neg (n : ℕ) (x : ℝ) : besselJ n (-x) = (-1) ^ n * besselJ n x := bes_neg (-1) n x

/-- the Bessel functions tend to zero with growing order -/
theorem besselJ_tendsto (x : ℝ) : Tendsto (fun n => besselJ n x) atTop (𝓝 0) := by
  obtain ⟨C, hC⟩ : ∃ C : ℝ, C = ∑' m : ℕ, (|(-1 : ℝ)| * (x / 2) ^ 2) ^ m / (m ! : ℝ) := ⟨_, rfl⟩
  have hb : ∀ n, |besselJ n x| ≤ |x / 2| ^ n / (n ! : ℝ) * C := by
    intro n
    have hs := (Real.summable_pow_div_factorial (|(-1 : ℝ)| * (x / 2) ^ 2)).mul_left (|x / 2| ^ n / (n ! : ℝ))
    have := tsum_of_norm_bounded (f := besTerm (-1) n (x / 2)) hs.hasSum (besTerm_abs_le (-1) n (x / 2))
    rw [tsum_mul_left, ← hC] at this
    exact this
  have h0 : Tendsto (fun n : ℕ => |x / 2| ^ n / (n ! : ℝ) * C) atTop (𝓝 0) := by
    simpa using (Real.summable_pow_div_factorial (|x / 2|)).tendsto_atTop_zero.mul_const C
  exact squeeze_zero_norm hb h0

/-- the tail of the series is at most twice its first term -/
theorem bes_tail {σ : ℝ} (hσ : |σ| = 1) (n M : ℕ) {h : ℝ} (hh : 2 * h ^ 2 ≤ (M + 1) * (M + n + 1)) :
    |∑' m, besTerm σ n h (m + M)| ≤ 2 * |besTerm σ n h M| := by
  have hb : ∀ m, |besTerm σ n h (m + M)| ≤ |besTerm σ n h M| * (1 / 2) ^ m := by
    intro m
    induction m with
    | zero => simp
    | succ m ih =>
      rw [show m + 1 + M = (m + M) + 1 by ring, besTerm_succ, abs_mul]
      have : |σ * h ^ 2 / ((((m + M : ℕ) : ℝ) + 1) * (((m + M : ℕ) : ℝ) + n + 1))| ≤ 1 / 2 := by
        rw [abs_div, abs_mul, hσ, one_mul, abs_of_nonneg (sq_nonneg h), abs_of_pos (by positivity), div_le_div_iff₀ (by positivity) (by norm_num)]
        push_cast
        have h1 : (0 : ℝ) ≤ m := by positivity
        have h2 : (0 : ℝ) ≤ n := by positivity
        have h3 : (0 : ℝ) ≤ M := by positivity
        nlinarith [mul_nonneg h1 h2, mul_nonneg h1 h3, mul_nonneg h1 h1]
      calc _ ≤ |besTerm σ n h M| * (1 / 2) ^ m * (1 / 2) := by gcongr
        _ = _ := by ring
  have hg : Summable (fun m : ℕ => |besTerm σ n h M| * (1 / 2 : ℝ) ^ m) := summable_geometric_two.mul_left _
  have := tsum_of_norm_bounded (f := fun m => besTerm σ n h (m + M)) hg.hasSum hb
  rw [Real.norm_eq_abs, tsum_mul_left, tsum_geometric_two] at this
  linarith

/-- positivity for orders above the square of the argument -/
theorem besselJ_pos_large (n : ℕ) {x : ℝ} (hx : 0 < x) (hn : x ^ 2 ≤ n + 1) : 0 < besselJ n x := by
  unfold besselJ bes
  have hh : 0 < x / 2 := by positivity
  have hs := besTerm_summable (-1) n (x / 2)
  rw [hs.tsum_eq_zero_add]
  have hn0 : (0 : ℝ) ≤ n := by positivity
  have ht := bes_tail (σ := -1) (by simp) n 1 (h := x / 2) (by push_cast; nlinarith)
  have e : besTerm (-1) n (x / 2) 1 = besTerm (-1) n (x / 2) 0 * (-1 * (x / 2) ^ 2 / ((0 + 1) * (0 + n + 1))) := by
    have := besTerm_succ (-1) n (x / 2) 0
    simpa using this
  have h0 : 0 < besTerm (-1) n (x / 2) 0 := by rw [besTerm_zero]; positivity
  have h1 : |besTerm (-1) n (x / 2) 1| ≤ 1 / 4 * besTerm (-1) n (x / 2) 0 := by
    rw [e, abs_mul, abs_of_pos h0, mul_comm]
    gcongr
    rw [abs_div, abs_mul, abs_neg, abs_one, one_mul, abs_of_nonneg (sq_nonneg _), abs_of_pos (by positivity), div_le_div_iff₀ (by positivity) (by norm_num)]
    nlinarith
  have h2 := neg_abs_le (∑' m, besTerm (-1) n (x / 2) (m + 1))
  linarith

/-- for orders above the argument the moduli decrease -/
theorem besselJ_abs_lt {n : ℕ} {x : ℝ} (hx : 0 < x) (hn : x ≤ n + 1) (h0 : besselJ (n + 1) x ≠ 0) : |besselJ (n + 1) x| < |besselJ n x| := by
  by_contra hc
  rw [not_lt] at hc
  have grow : ∀ k, |besselJ (n + k) x| ≤ |besselJ (n + k + 1) x| := by
    intro k
    induction k with
    | zero => simpa using hc
    | succ k ih =>
      have hr := besselJ_rec (n + k) hx.ne'
      rw [show n + (k + 1) + 1 = n + k + 2 by ring, show n + (k + 1) = n + k + 1 by ring, hr]
      have h2 : 2 ≤ 2 * (((n + k : ℕ) : ℝ) + 1) / x := by
        rw [le_div_iff₀ hx]
        have : (0 : ℝ) ≤ k := by positivity
        push_cast; linarith
      have h3 := abs_sub_abs_le_abs_sub (2 * (((n + k : ℕ) : ℝ) + 1) / x * besselJ (n + k + 1) x) (besselJ (n + k) x)
      rw [abs_mul, abs_of_pos (by linarith : 0 < 2 * (((n + k : ℕ) : ℝ) + 1) / x)] at h3
      have := abs_nonneg (besselJ (n + k + 1) x)
      nlinarith
  have hge : ∀ k, |besselJ (n + 1) x| ≤ |besselJ (n + 1 + k) x| := by
    intro k
    induction k with
    | zero => simp
    | succ k ih =>
      have := grow (k + 1)
      rw [show n + (k + 1) = n + 1 + k by ring] at this
      exact ih.trans this
  have hl := ((besselJ_tendsto x).comp (tendsto_add_atTop_nat (n + 1))).abs
  have hl2 : |besselJ (n + 1) x| ≤ |(0 : ℝ)| := by
    refine ge_of_tendsto hl (Eventually.of_forall fun k => ?_)
    have := hge k
    simp only [Function.comp]
    rwa [add_comm k]
  rw [abs_zero] at hl2
  exact h0 (abs_eq_zero.1 (le_antisymm hl2 (abs_nonneg _)))

/-- positivity for orders above the argument -/
theorem besselJ_pos {n : ℕ} {x : ℝ} (hx : 0 < x) (hn : x ≤ n + 1) : 0 < besselJ n x := by
  obtain ⟨K, hK⟩ := exists_nat_ge (x ^ 2)
  have key : ∀ k, ∀ j, n ≤ j → j + k = n + K + 1 → 0 < besselJ j x ∧ 0 < besselJ (j + 1) x := by
    intro k
    induction k with
    | zero =>
      intro j hj e
      have h1 : (K : ℝ) ≤ j := by exact_mod_cast (show K ≤ j by omega)
      exact ⟨besselJ_pos_large j hx (by linarith), besselJ_pos_large (j + 1) hx (by push_cast; linarith)⟩
    | succ k ih =>
      intro j hj e
      obtain ⟨p1, p2⟩ := ih (j + 1) (by omega) (by omega)
      refine ⟨?_, p1⟩
      have hj' : (n : ℝ) ≤ j := by exact_mod_cast hj
      have hlt := besselJ_abs_lt (n := j + 1) hx (by push_cast; linarith) p2.ne'
      rw [abs_of_pos p1, abs_of_pos p2] at hlt
      have hr := besselJ_rec j hx.ne'
      have h2 : 2 ≤ 2 * ((j : ℝ) + 1) / x := by
        rw [le_div_iff₀ hx]; linarith
      rw [show j + 1 + 1 = j + 2 by ring] at hlt
      nlinarith
  exact (key (K + 1) n le_rfl (by ring)).1

theorem besselJ_lt {n : ℕ} {x : ℝ} (hx : 0 < x) (hn : x ≤ n + 1) : besselJ (n + 1) x < besselJ n x := by
  have p1 := besselJ_pos (n := n + 1) hx (by push_cast; linarith)
  have := besselJ_abs_lt hx hn p1.ne'
  rwa [abs_of_pos p1, abs_of_pos (besselJ_pos hx hn)] at this

/-! ## A zero of `J₀` -/

theorem besselJ_zero_two : 0 < besselJ 0 2 := by
  unfold besselJ bes
  have hs := besTerm_summable (-1) 0 (2 / 2)
  rw [← hs.sum_add_tsum_nat_add 3]
  have ht := bes_tail (σ := -1) (by simp) 0 3 (h := 2 / 2) (by norm_num)
  have h2 := neg_abs_le (∑' m, besTerm (-1) 0 (2 / 2) (m + 3))
  have e : |besTerm (-1) 0 (2 / 2) 3| = 1 / 36 := by unfold besTerm; norm_num [Nat.factorial]
  have e2 : ∑ i ∈ Finset.range 3, besTerm (-1) 0 (2 / 2) i = 1 / 4 := by simp [Finset.sum_range_succ, besTerm, Nat.factorial]; norm_num
  rw [e] at ht
  rw [e2]
  linarith

theorem besselJ_zero_three : besselJ 0 3 < 0 := by
  unfold besselJ bes
  have hs := besTerm_summable (-1) 0 (3 / 2)
  rw [← hs.sum_add_tsum_nat_add 4]
  have ht := bes_tail (σ := -1) (by simp) 0 4 (h := 3 / 2) (by norm_num)
  have h2 := le_abs_self (∑' m, besTerm (-1) 0 (3 / 2) (m + 4))
  have e : |besTerm (-1) 0 (3 / 2) 4| ≤ 1 / 20 := by unfold besTerm; norm_num [Nat.factorial]
  have e2 : ∑ i ∈ Finset.range 4, besTerm (-1) 0 (3 / 2) i ≤ -3 / 10 := by simp [Finset.sum_range_succ, besTerm, Nat.factorial]; norm_num
  linarith

theorem besselJ_continuousOn (n : ℕ) (R : ℝ) : ContinuousOn (besselJ n) (Set.Icc 0 R) := by
  unfold besselJ bes
  refine continuousOn_tsum (u := fun m => |R / 2| ^ n / (n ! : ℝ) * ((|(-1 : ℝ)| * (R / 2) ^ 2) ^ m / (m ! : ℝ))) (fun m => ?_) ?_ ?_
  · unfold besTerm; fun_prop
  · exact (Real.summable_pow_div_factorial _).mul_left _
  · intro m x hx
    refine (besTerm_abs_le (-1) n (x / 2) m).trans ?_
    have h0 := hx.1
    have h1 : x / 2 ≤ R / 2 := by linarith [hx.2]
    have h2 : |x / 2| ≤ |R / 2| := by rw [abs_of_nonneg (by linarith), abs_of_nonneg (by linarith)]; exact h1
    have h3 : (x / 2) ^ 2 ≤ (R / 2) ^ 2 := by apply pow_le_pow_left₀ <;> linarith
    gcongr

theorem besselJ_zero_exists : ∃ x, 2 < x ∧ x < 3 ∧ besselJ 0 x = 0 := by
  have hc : ContinuousOn (besselJ 0) (Set.Icc 2 3) := (besselJ_continuousOn 0 3).mono (Set.Icc_subset_Icc (by norm_num) le_rfl)
  obtain ⟨x, hx, h⟩ := intermediate_value_Ioo' (by norm_num : (2 : ℝ) ≤ 3) hc ⟨besselJ_zero_three, besselJ_zero_two⟩
  exact ⟨x, hx.1, hx.2, h⟩

end Russell.Lab
