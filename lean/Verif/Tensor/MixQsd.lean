import Verif.Tensor.Mix2
import Verif.Tensor.Kelvin4

/-! # Lemmas on the entries of `t2_ssd` and `t2_qsd_t2` -/

namespace Russell.Tensor
open Russell Russell.Res

set_option maxHeartbeats 4000000
set_option linter.all false

theorem ssd9_eq (o : Fin 9 → Fin 9 → ℝ) (s : ℝ) (a : Fin 9 → ℝ) (m n : Fin 9) (hm : m.val < 6) (hn : n.val < 6) :
    ssdMat9 o s a m n = comp4 (fun i j k l => s * (mat9 a i k * mat9 a j l + mat9 a i l * mat9 a j k)) m n := by
  fin_cases m
  all_goals first
    | (simp at hm; done)
    | (simp [ssdMat9, -mul_eq_mul_left_iff, -mul_eq_mul_right_iff]
       simp only [comp4, comp_explicit, Matrix.of_apply, mat9]
       simp [-mul_eq_mul_left_iff, -mul_eq_mul_right_iff]
       fin_cases n
       all_goals first
         | (simp at hn; done)
         | (simp [-mul_eq_mul_left_iff, -mul_eq_mul_right_iff] <;> first | kelvin | ring))

theorem ssd6_eq (o : Fin 9 → Fin 9 → ℝ) (s : ℝ) (a : Fin 9 → ℝ) : ssdMat6 o s a = ssdMat9 o s (cut .Symmetric a) := by
  funext m
  fin_cases m
  all_goals
    funext n
    simp [ssdMat6, ssdMat9, -mul_eq_mul_left_iff, -mul_eq_mul_right_iff]
  all_goals
    fin_cases n <;> simp [cut, -mul_eq_mul_left_iff, -mul_eq_mul_right_iff] <;> first | kelvin | ring

theorem ssd4_eq (o : Fin 9 → Fin 9 → ℝ) (s : ℝ) (a : Fin 9 → ℝ) : ssdMat4 o s a = ssdMat9 o s (cut .Symmetric2D a) := by
  funext m
  fin_cases m
  all_goals
    funext n
    simp [ssdMat4, ssdMat9, -mul_eq_mul_left_iff, -mul_eq_mul_right_iff]
  all_goals
    fin_cases n <;> simp [cut, -mul_eq_mul_left_iff, -mul_eq_mul_right_iff] <;> first | kelvin | ring

theorem qsd9_eq (o : Fin 9 → Fin 9 → ℝ) (s : ℝ) (a b : Fin 9 → ℝ) (m n : Fin 9) (hm : m.val < 6) (hn : n.val < 6) :
    qsdMat9 o s a b m n = comp4 (fun i j k l => s * (mat9 a i k * mat9 b j l + mat9 a i l * mat9 b j k + mat9 b i k * mat9 a j l + mat9 b i l * mat9 a j k)) m n := by
  fin_cases m
  all_goals first
    | (simp at hm; done)
    | (simp [qsdMat9, -mul_eq_mul_left_iff, -mul_eq_mul_right_iff]
       simp only [comp4, comp_explicit, Matrix.of_apply, mat9]
       simp [-mul_eq_mul_left_iff, -mul_eq_mul_right_iff]
       fin_cases n
       all_goals first
         | (simp at hn; done)
         | (simp [-mul_eq_mul_left_iff, -mul_eq_mul_right_iff] <;> first | kelvin | ring))

theorem qsd6_eq (o : Fin 9 → Fin 9 → ℝ) (s : ℝ) (a b : Fin 9 → ℝ) : qsdMat6 o s a b = qsdMat9 o s (cut .Symmetric a) (cut .Symmetric b) := by
  funext m
  fin_cases m
  all_goals
    funext n
    simp [qsdMat6, qsdMat9, -mul_eq_mul_left_iff, -mul_eq_mul_right_iff]
  all_goals
    fin_cases n <;> simp [cut, -mul_eq_mul_left_iff, -mul_eq_mul_right_iff] <;> first | kelvin | ring

theorem qsd4_eq (o : Fin 9 → Fin 9 → ℝ) (s : ℝ) (a b : Fin 9 → ℝ) : qsdMat4 o s a b = qsdMat9 o s (cut .Symmetric2D a) (cut .Symmetric2D b) := by
  funext m
  fin_cases m
  all_goals
    funext n
    simp [qsdMat4, qsdMat9, -mul_eq_mul_left_iff, -mul_eq_mul_right_iff]
  all_goals
    fin_cases n <;> simp [cut, -mul_eq_mul_left_iff, -mul_eq_mul_right_iff] <;> first | kelvin | ring

end Russell.Tensor
