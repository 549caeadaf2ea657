import Verif.Tensor.Mix2
import Verif.Tensor.Kelvin4

/-! # Lemmas on the entries of `t2_odyad_t2` -/

namespace Russell.Tensor
open Russell Russell.Res

set_option maxHeartbeats 4000000
set_option linter.all false

theorem odyad9_eq (s : ℝ) (a b : Fin 9 → ℝ) : odyadMat9 s a b = comp4 fun i j k l => s * (mat9 a i k * mat9 b j l) := by
  funext m
  fin_cases m
  all_goals
    funext n
    simp [odyadMat9, -mul_eq_mul_left_iff, -mul_eq_mul_right_iff]
    simp only [comp4, comp_explicit, Matrix.of_apply, mat9]
    simp [-mul_eq_mul_left_iff, -mul_eq_mul_right_iff]
  all_goals
    fin_cases n <;> simp [-mul_eq_mul_left_iff, -mul_eq_mul_right_iff] <;> first | kelvin | ring

theorem odyad6_eq (s : ℝ) (a b : Fin 9 → ℝ) : odyadMat6 s a b = odyadMat9 s (cut .Symmetric a) (cut .Symmetric b) := by
  funext m
  fin_cases m
  all_goals
    funext n
    simp [odyadMat6, odyadMat9, -mul_eq_mul_left_iff, -mul_eq_mul_right_iff]
  all_goals
    fin_cases n <;> simp [cut, -mul_eq_mul_left_iff, -mul_eq_mul_right_iff] <;> first | kelvin | ring

theorem odyad4_eq (s : ℝ) (a b : Fin 9 → ℝ) : odyadMat4 s a b = odyadMat9 s (cut .Symmetric2D a) (cut .Symmetric2D b) := by
  funext m
  fin_cases m
  all_goals
    funext n
    simp [odyadMat4, odyadMat9, -mul_eq_mul_left_iff, -mul_eq_mul_right_iff]
  all_goals
    fin_cases n <;> simp [cut, -mul_eq_mul_left_iff, -mul_eq_mul_right_iff] <;> first | kelvin | ring

end Russell.Tensor
