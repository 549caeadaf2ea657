import Verif.Tensor.Mix2
import Verif.Tensor.Kelvin4

/-! # Lemmas on the entries of `t2_udyad_t2` -/

namespace Russell.Tensor
open Russell Russell.Res

set_option maxHeartbeats 4000000
set_option linter.all false

theorem udyad9_eq (s : ℝ) (a b : Fin 9 → ℝ) : udyadMat9 s a b = comp4 fun i j k l => s * (mat9 a i l * mat9 b j k) := by
  funext m
  fin_cases m
  all_goals
    funext n
    simp [udyadMat9, -mul_eq_mul_left_iff, -mul_eq_mul_right_iff]
    simp only [comp4, comp_explicit, Matrix.of_apply, mat9]
    simp [-mul_eq_mul_left_iff, -mul_eq_mul_right_iff]
  all_goals
    fin_cases n <;> simp [-mul_eq_mul_left_iff, -mul_eq_mul_right_iff] <;> first | kelvin | ring

theorem udyad6_eq (s : ℝ) (a b : Fin 9 → ℝ) : udyadMat6 s a b = udyadMat9 s (cut .Symmetric a) (cut .Symmetric b) := by
  funext m
  fin_cases m
  all_goals
    funext n
    simp [udyadMat6, udyadMat9, -mul_eq_mul_left_iff, -mul_eq_mul_right_iff]
  all_goals
    fin_cases n <;> simp [cut, -mul_eq_mul_left_iff, -mul_eq_mul_right_iff] <;> first | kelvin | ring

theorem udyad4_eq (s : ℝ) (a b : Fin 9 → ℝ) : udyadMat4 s a b = udyadMat9 s (cut .Symmetric2D a) (cut .Symmetric2D b) := by
  funext m
  fin_cases m
  all_goals
    funext n
    simp [udyadMat4, udyadMat9, -mul_eq_mul_left_iff, -mul_eq_mul_right_iff]
  all_goals
    fin_cases n <;> simp [cut, -mul_eq_mul_left_iff, -mul_eq_mul_right_iff] <;> first | kelvin | ring

end Russell.Tensor
