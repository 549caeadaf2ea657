import Verif.Tensor.Tensor4
import Verif.Tensor.AlgebraProps

/-!
# Fourth-order tensors: specification

The tensor for which the 9×9 components stand, and lemmas on the Kelvin–Mandel basis.
-/

namespace Russell.Tensor
open Russell Russell.Res

/-- Arrays of 3×3×3×3 numbers. -/
abbrev Array4 := Fin 3 → Fin 3 → Fin 3 → Fin 3 → ℝ

/-- The tensor for which `t` stands, in the standard orthonormal basis: `Σ mat_mn E_m ⊗ E_n` over the components in use. -/
noncomputable def Tensor4.std (t : Tensor4) : Array4 := fun i j k l =>
  ∑ m : Fin 9, ∑ n : Fin 9, if m.val < t.rep.dim ∧ n.val < t.rep.dim then t.mat m n * basis m i j * basis n k l else 0

/-- Double contraction with a second-order tensor. -/
def contr (d : Array4) (a : Matrix (Fin 3) (Fin 3) ℝ) : Matrix (Fin 3) (Fin 3) ℝ := Matrix.of fun i j => ∑ k, ∑ l, d i j k l * a k l

/-- Double contraction of two fourth-order tensors. -/
def contr4 (c d : Array4) : Array4 := fun i j k l => ∑ p, ∑ q, c i j p q * d p q k l

/-- The components in use, then zeros. -/
def cut2 (r : Rep) (f : Fin 9 → Fin 9 → ℝ) : Fin 9 → Fin 9 → ℝ := fun m n => if m.val < r.dim ∧ n.val < r.dim then f m n else 0

/-- The tensor of general components. -/
noncomputable def mat99 (f : Fin 9 → Fin 9 → ℝ) : Array4 := fun i j k l => ∑ m, ∑ n, f m n * basis m i j * basis n k l

theorem std4_eq (t : Tensor4) : t.std = mat99 (cut2 t.rep t.mat) := by
  funext i j k l
  simp only [Tensor4.std, mat99, cut2]
  refine Finset.sum_congr rfl fun m _ => Finset.sum_congr rfl fun n _ => ?_
  split <;> simp

theorem mat9_sum (a : Fin 9 → ℝ) (i j : Fin 3) : mat9 a i j = ∑ m, a m * basis m i j := by
  rw [← basis_sum, Matrix.sum_apply]
  rfl

/-- Components of a matrix. -/
noncomputable def comp (M : Matrix (Fin 3) (Fin 3) ℝ) (m : Fin 9) : ℝ := ∑ i, ∑ j, basis m i j * M i j

theorem comp_explicit (M : Matrix (Fin 3) (Fin 3) ℝ) : comp M = ![M 0 0, M 1 1, M 2 2, (M 0 1 + M 1 0) / SQRT_2, (M 1 2 + M 2 1) / SQRT_2,
    (M 0 2 + M 2 0) / SQRT_2, (M 0 1 - M 1 0) / SQRT_2, (M 1 2 - M 2 1) / SQRT_2, (M 0 2 - M 2 0) / SQRT_2] := by
  have h : ∀ m, comp M m = ∑ i, ∑ j, M i j * mat9 (fun n => if n = m then 1 else 0) i j := by
    intro m
    simp only [comp, mat9_sum]
    exact Finset.sum_congr rfl fun i _ => Finset.sum_congr rfl fun j _ => by simp [mul_comm]
  funext m
  rw [h]
  fin_cases m <;> simp [mat9, Fin.sum_univ_three] <;> ring

theorem comp_mat9 (a : Fin 9 → ℝ) : comp (mat9 a) = a := by
  rw [comp_explicit]
  funext m
  fin_cases m <;> simp [mat9] <;> kelvin

theorem mat9_comp (M : Matrix (Fin 3) (Fin 3) ℝ) : mat9 (comp M) = M := by
  rw [comp_explicit]
  ext i j
  fin_cases i <;> fin_cases j <;> simp [mat9] <;> kelvin

theorem mat99_eq (f : Fin 9 → Fin 9 → ℝ) (i j k l : Fin 3) : mat99 f i j k l = mat9 (fun m => mat9 (f m) k l) i j := by
  rw [mat9_sum, mat99]
  refine Finset.sum_congr rfl fun m _ => ?_
  rw [mat9_sum, Finset.sum_mul]
  exact Finset.sum_congr rfl fun n _ => by ring

/-- Components of an array. -/
noncomputable def comp4 (d : Array4) (m n : Fin 9) : ℝ := comp (Matrix.of fun i j => comp (Matrix.of fun k l => d i j k l) n) m

theorem comp4_mat99 (f : Fin 9 → Fin 9 → ℝ) : comp4 (mat99 f) = f := by
  funext m n
  have h : ∀ i j, comp (Matrix.of fun k l => mat99 f i j k l) n = mat9 (fun m => f m n) i j := by
    intro i j
    have e : (Matrix.of fun k l => mat99 f i j k l) = mat9 fun n => mat9 (fun m => f m n) i j := by
      ext k l
      rw [Matrix.of_apply, mat9_sum, mat99, Finset.sum_comm]
      refine Finset.sum_congr rfl fun n _ => ?_
      rw [mat9_sum, Finset.sum_mul]
    rw [e, comp_mat9]
  rw [comp4]
  simp only [h]
  exact congrFun (comp_mat9 fun m => f m n) m

theorem mat99_comp4 (d : Array4) : mat99 (comp4 d) = d := by
  funext i j k l
  rw [mat99_eq]
  have h : ∀ m, mat9 (comp4 d m) k l = comp (Matrix.of fun i j => d i j k l) m := by
    intro m
    have : comp4 d m = fun n => ∑ i, ∑ j, basis m i j * comp (Matrix.of fun k l => d i j k l) n := rfl
    rw [mat9_sum, this]
    have e : ∀ i j, ∑ n, comp (Matrix.of fun k l => d i j k l) n * basis n k l = d i j k l := by
      intro i j
      rw [← mat9_sum, mat9_comp, Matrix.of_apply]
    simp only [comp, Matrix.of_apply]
    simp only [Finset.sum_mul]
    rw [Finset.sum_comm]
    refine Finset.sum_congr rfl fun i _ => ?_
    rw [Finset.sum_comm]
    refine Finset.sum_congr rfl fun j _ => ?_
    have := e i j
    simp only [comp, Matrix.of_apply] at this
    rw [← this, Finset.mul_sum]
    refine Finset.sum_congr rfl fun n _ => ?_
    rw [mul_assoc]
  simp only [h]
  rw [mat9_comp, Matrix.of_apply]

theorem mat99_inj {f g : Fin 9 → Fin 9 → ℝ} (h : mat99 f = mat99 g) : f = g := by
  rw [← comp4_mat99 f, h, comp4_mat99]

theorem sum_mat9_mul (a : Fin 9 → ℝ) (M : Matrix (Fin 3) (Fin 3) ℝ) : ∑ i, ∑ j, mat9 a i j * M i j = ∑ m, a m * comp M m := by
  simp only [mat9_sum, Finset.sum_mul, comp, Finset.mul_sum]
  rw [Finset.sum_congr rfl fun i _ => Finset.sum_comm, Finset.sum_comm]
  exact Finset.sum_congr rfl fun m _ => Finset.sum_congr rfl fun i _ => Finset.sum_congr rfl fun j _ => by ring

theorem contr_mat99 (f : Fin 9 → Fin 9 → ℝ) (v : Fin 9 → ℝ) : contr (mat99 f) (mat9 v) = mat9 fun m => ∑ n, f m n * v n := by
  ext i j
  rw [contr, Matrix.of_apply]
  have h : ∀ k l, mat99 f i j k l = mat9 (fun n => ∑ m, f m n * basis m i j) k l := by
    intro k l
    rw [mat9_sum, mat99, Finset.sum_comm]
    exact Finset.sum_congr rfl fun n _ => by rw [Finset.sum_mul]
  simp only [h]
  rw [sum_mat9_mul, comp_mat9, mat9_sum]
  simp only [Finset.sum_mul]
  rw [Finset.sum_comm]
  exact Finset.sum_congr rfl fun m _ => Finset.sum_congr rfl fun n _ => by ring

theorem contr4_mat99 (f g : Fin 9 → Fin 9 → ℝ) : contr4 (mat99 f) (mat99 g) = mat99 fun m n => ∑ p, f m p * g p n := by
  funext i j k l
  rw [contr4, mat99_eq]
  have h : (Matrix.of fun p q => mat99 g p q k l) = mat9 fun m => mat9 (g m) k l := by
    ext p q
    rw [Matrix.of_apply, mat99_eq]
  have := congrFun (congrFun (contr_mat99 f fun m => mat9 (g m) k l) i) j
  rw [← h, contr, Matrix.of_apply] at this
  simp only [Matrix.of_apply] at this
  rw [this]
  congr 1
  funext m
  rw [mat9_sum]
  simp only [mat9_sum, Finset.sum_mul, Finset.mul_sum]
  rw [Finset.sum_comm]
  exact Finset.sum_congr rfl fun m _ => Finset.sum_congr rfl fun n _ => by ring

theorem cut2_eq (r : Rep) (f : Fin 9 → Fin 9 → ℝ) : cut2 r f = fun m n => cut r (fun m => cut r (f m) n) m := by
  funext m n
  rw [cut2, cut_eq, cut_eq]
  by_cases h1 : m.val < r.dim <;> by_cases h2 : n.val < r.dim <;> simp [h1, h2]

theorem std4_std (t : Tensor4) (i j k l : Fin 3) :
    t.std i j k l = Tensor2.std ⟨t.rep, fun m => Tensor2.std ⟨t.rep, t.mat m⟩ k l⟩ i j := by
  rw [std4_eq, mat99_eq, std_eq, cut2_eq]
  congr 2
  funext m
  simp only [std_eq]
  rw [cut_eq, mat9_sum]
  split
  · rename_i h
    rw [mat9_sum]
    exact Finset.sum_congr rfl fun n _ => by rw [cut_eq, if_pos h]
  · rename_i h
    exact Finset.sum_eq_zero fun n _ => by rw [cut_eq, if_neg h, zero_mul]

end Russell.Tensor
