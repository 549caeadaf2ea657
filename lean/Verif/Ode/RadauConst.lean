import Verif.Ode.Radau5
import Mathlib.Analysis.SpecialFunctions.Integrals.Basic
import Mathlib.Tactic.FinCases
import Mathlib.Tactic.LinearCombination

/-!
# The numbers of the Radau IIA method of order 5 (C84)

The tableau of the method is written with the exact square root of six; the decimals of the code are compared with it.
-/

namespace Russell.Ode

open Russell Russell.Res
open Russell.Nonlin (Vec LinSol)

namespace Radau2A

/-- the nodes of the Radau IIA method with three stages -/
noncomputable def c : Fin 3 → ℝ := ![(4 - √6) / 10, (4 + √6) / 10, 1]

/-- its matrix -/
noncomputable def a : Fin 3 → Fin 3 → ℝ := ![
  ![(88 - 7 * √6) / 360, (296 - 169 * √6) / 1800, (-2 + 3 * √6) / 225],
  ![(296 + 169 * √6) / 1800, (88 + 7 * √6) / 360, (-2 - 3 * √6) / 225],
  ![(16 - √6) / 36, (16 + √6) / 36, 1 / 9]]

/-- the weights of the error estimate, without the factor: `γ₀ ê` of the book -/
noncomputable def d : Fin 3 → ℝ := ![-(13 + 7 * √6) / 3, (-13 + 7 * √6) / 3, -1 / 3]

theorem sq6 : √6 * √6 = (6 : ℝ) := Real.mul_self_sqrt (by norm_num)

/-- The tableau is that of the collocation method of order five: the stages integrate polynomials of degree two exactly, the
last stage, which is the new solution, those of degree four. The weights of the error estimate give zero for cubic solutions. -/
theorem tableau : (∀ i, ∑ j, a i j = c i) ∧ (∀ i, ∑ j, a i j * c j = c i ^ 2 / 2) ∧ (∀ i, ∑ j, a i j * c j ^ 2 = c i ^ 3 / 3) ∧
    ∑ j, a 2 j * c j ^ 3 = 1 / 4 ∧ ∑ j, a 2 j * c j ^ 4 = 1 / 5 ∧
    ∑ j, d j * c j = -1 ∧ ∑ j, d j * c j ^ 2 = 0 ∧ ∑ j, d j * c j ^ 3 = 0 := by
  have h := sq6
  have h3 : √6 ^ 3 = 6 * √6 := by rw [pow_succ, pow_two, h]
  have h2 : √6 ^ 2 = (6 : ℝ) := by rw [pow_two, h]
  have h4 : √6 ^ 4 = (36 : ℝ) := by rw [show √6 ^ 4 = (√6 ^ 2) ^ 2 by ring, h2]; norm_num
  have h5 : √6 ^ 5 = 36 * √6 := by rw [pow_succ, h4]
  refine ⟨fun i => ?_, fun i => ?_, fun i => ?_, ?_, ?_, ?_, ?_, ?_⟩
  · fin_cases i <;> simp [Fin.sum_univ_three, a, c] <;> ring
  · fin_cases i <;> simp [Fin.sum_univ_three, a, c] <;> ring_nf <;> simp only [h2, h3] <;> ring
  · fin_cases i <;> simp [Fin.sum_univ_three, a, c] <;> ring_nf <;> simp only [h2, h3] <;> ring
  · simp [Fin.sum_univ_three, a, c]; ring_nf; simp only [h2, h3, h4]; ring
  · simp [Fin.sum_univ_three, a, c]; ring_nf; simp only [h2, h3, h4, h5]; ring
  · simp [Fin.sum_univ_three, d, c]; ring_nf; simp only [h2, h3]; ring
  · simp [Fin.sum_univ_three, d, c]; ring_nf; simp only [h2, h3]; ring
  · simp [Fin.sum_univ_three, d, c]; ring_nf; simp only [h2, h3, h4]; ring

theorem sqrt_bounds : Rd.SQRT_6 ≤ √6 ∧ √6 ≤ Rd.SQRT_6 + 1 / 10 ^ 98 := by
  unfold Rd.SQRT_6
  constructor
  · apply Real.le_sqrt_of_sq_le; norm_num
  · rw [Real.sqrt_le_left (by norm_num)]; norm_num

end Radau2A

open Radau2A

/-- **C84**: the decimals of the nodes, also of those used by the collocation polynomial. -/
theorem C84_nodes : (∀ i, |Rd.C i - c i| ≤ 1 / 10 ^ 98) ∧ |Rd.MU1 - c 0| ≤ 1 / 10 ^ 50 ∧ |Rd.MU2 - c 1| ≤ 1 / 10 ^ 50 ∧
    |Rd.MU3 - (c 0 - 1)| ≤ 1 / 10 ^ 50 ∧ |Rd.MU4 - (c 1 - 1)| ≤ 1 / 10 ^ 50 ∧ |Rd.MU5 - (c 0 - c 1)| ≤ 1 / 10 ^ 50 := by
  obtain ⟨h1, h2⟩ := sqrt_bounds
  refine ⟨fun i => ?_, ?_, ?_, ?_, ?_, ?_⟩
  · fin_cases i <;> simp [Rd.C, c] <;> rw [abs_le] <;> constructor <;> norm_num at * <;> linarith
  all_goals
    simp only [c, Rd.MU1, Rd.MU2, Rd.MU3, Rd.MU4, Rd.MU5, Matrix.cons_val_zero, Matrix.cons_val_one, abs_le]
    unfold Rd.SQRT_6 at h1 h2
    constructor <;> norm_num at * <;> linarith

/-- the matrix `Λ` of the transformed system: a real number and a two by two block -/
noncomputable def rdLambda : Fin 3 → Fin 3 → ℝ := ![![Rd.GAMMA, 0, 0], ![0, Rd.ALPHA, -Rd.BETA], ![0, Rd.BETA, Rd.ALPHA]]

/-- its inverse -/
noncomputable def rdLambdaInv : Fin 3 → Fin 3 → ℝ := ![![1 / Rd.GAMMA, 0, 0],
  ![0, Rd.ALPHA / (Rd.ALPHA ^ 2 + Rd.BETA ^ 2), Rd.BETA / (Rd.ALPHA ^ 2 + Rd.BETA ^ 2)],
  ![0, -Rd.BETA / (Rd.ALPHA ^ 2 + Rd.BETA ^ 2), Rd.ALPHA / (Rd.ALPHA ^ 2 + Rd.BETA ^ 2)]]

/-- the matrix of the method that is solved by the code: `T Λ⁻¹ TI` -/
noncomputable def rdA (i j : Fin 3) : ℝ := ∑ k, ∑ l, Rd.T i k * rdLambdaInv k l * Rd.TI l j

/-- **C84**: the transformation. `T` and `TI` are inverse to each other up to `10⁻¹⁹`, and the matrix of the method that the
transformed linear systems stand for is that of the tableau, up to `10⁻²⁰` in each entry. -/
theorem C84_transformation : (∀ i j, |∑ k, Rd.T i k * Rd.TI k j - if i = j then 1 else 0| ≤ 1 / 10 ^ 19) ∧
    (∀ i j, |∑ k, Rd.TI i k * Rd.T k j - if i = j then 1 else 0| ≤ 1 / 10 ^ 19) ∧
    (∀ i j, ∑ k, rdLambda i k * rdLambdaInv k j = if i = j then 1 else 0) ∧ ∀ i j, |rdA i j - a i j| ≤ 1 / 10 ^ 20 := by
  refine ⟨fun i j => ?_, fun i j => ?_, fun i j => ?_, fun i j => ?_⟩
  · fin_cases i <;> fin_cases j <;> simp [Fin.sum_univ_three, Rd.T, Rd.TI] <;> rw [abs_le] <;> norm_num
  · fin_cases i <;> fin_cases j <;> simp [Fin.sum_univ_three, Rd.T, Rd.TI] <;> rw [abs_le] <;> norm_num
  · fin_cases i <;> fin_cases j <;> simp [Fin.sum_univ_three, rdLambda, rdLambdaInv, Rd.ALPHA, Rd.BETA, Rd.GAMMA] <;> norm_num
  · obtain ⟨h1, h2⟩ := sqrt_bounds
    unfold Rd.SQRT_6 at h1 h2
    fin_cases i <;> fin_cases j <;>
      simp [rdA, a, Fin.sum_univ_three, Rd.T, Rd.TI, rdLambdaInv, Rd.ALPHA, Rd.BETA, Rd.GAMMA] <;> rw [abs_le] <;>
      constructor <;> norm_num at * <;> linarith

/-- **C84**: the decimals of the error estimate are the weights that vanish for cubic solutions. -/
theorem C84_estimator : |Rd.GAMMA * Rd.E0 - d 0| ≤ 1 / 10 ^ 48 ∧ |Rd.GAMMA * Rd.E1 - d 1| ≤ 1 / 10 ^ 48 ∧
    |Rd.GAMMA * Rd.E2 - d 2| ≤ 1 / 10 ^ 48 := by
  obtain ⟨h1, h2⟩ := sqrt_bounds
  unfold Rd.SQRT_6 at h1 h2
  refine ⟨?_, ?_, ?_⟩ <;> simp [d, Rd.GAMMA, Rd.E0, Rd.E1, Rd.E2] <;> rw [abs_le] <;> constructor <;> norm_num at * <;> linarith

end Russell.Ode
