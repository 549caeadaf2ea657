import Verif.Tensor.Algebra
import Mathlib.LinearAlgebra.Matrix.Determinant.Basic
import Mathlib.Data.Matrix.Mul

/-!
# The Kelvin–Mandel basis

Specification: the tensor that the components `vec` stand for, as a 3×3 matrix, and the tactic used for the proofs.
-/

namespace Russell.Tensor
open Russell Russell.Res

/-- The matrix with one entry 1. -/
def unit (i j : Fin 3) : Matrix (Fin 3) (Fin 3) ℝ := fun r c => if r = i ∧ c = j then 1 else 0

/-- The Kelvin–Mandel basis. -/
noncomputable def basis : Fin 9 → Matrix (Fin 3) (Fin 3) ℝ := fun m =>
  ![unit 0 0, unit 1 1, unit 2 2,
    (1 / √2) • (unit 0 1 + unit 1 0), (1 / √2) • (unit 1 2 + unit 2 1), (1 / √2) • (unit 0 2 + unit 2 0),
    (1 / √2) • (unit 0 1 - unit 1 0), (1 / √2) • (unit 1 2 - unit 2 1), (1 / √2) • (unit 0 2 - unit 2 0)] m

/-- The tensor for which `t` stands, in the standard orthonormal basis: the first `dim` components refer to the Kelvin–Mandel basis. -/
noncomputable def Tensor2.std (t : Tensor2) : Matrix (Fin 3) (Fin 3) ℝ :=
  ∑ m : Fin 9, if m.val < t.rep.dim then t.vec m • basis m else 0

theorem sq2_sq : SQRT_2 ^ 2 = 2 := by simp [SQRT_2]

theorem sq2_mul : SQRT_2 * SQRT_2 = 2 := by rw [← sq, sq2_sq]

theorem sq2_pos : 0 < SQRT_2 := by simp [SQRT_2]

theorem sq2_ne : SQRT_2 ≠ 0 := sq2_pos.ne'

theorem sq2_inv : SQRT_2⁻¹ = SQRT_2 / 2 :=
  inv_eq_of_mul_eq_one_right (by rw [← mul_div_assoc, sq2_mul]; norm_num)

theorem sq2_pow3 : SQRT_2 ^ 3 = 2 * SQRT_2 := by rw [pow_succ, sq2_sq]

theorem sq2_pow4 : SQRT_2 ^ 4 = 4 := by rw [pow_succ, sq2_pow3, mul_assoc, sq2_mul]; norm_num

theorem sq2_pow5 : SQRT_2 ^ 5 = 4 * SQRT_2 := by rw [pow_succ, sq2_pow4]

theorem sq2_pow6 : SQRT_2 ^ 6 = 8 := by rw [pow_succ, sq2_pow5, mul_assoc, sq2_mul]; norm_num

theorem sq2_pow7 : SQRT_2 ^ 7 = 8 * SQRT_2 := by rw [pow_succ, sq2_pow6]

theorem sq2_pow8 : SQRT_2 ^ 8 = 16 := by rw [pow_succ, sq2_pow7, mul_assoc, sq2_mul]; norm_num

/-- Identities between polynomials with coefficients in `ℚ(√2)`. -/
macro "kelvin" : tactic => `(tactic| (
  simp only [div_eq_mul_inv, mul_inv, sq2_inv]
  try ring_nf
  try simp only [sq2_sq, sq2_pow3, sq2_pow4, sq2_pow5, sq2_pow6, sq2_pow7, sq2_pow8]
  try ring_nf))

/-- The matrix of general components. -/
noncomputable def mat9 (a : Fin 9 → ℝ) : Matrix (Fin 3) (Fin 3) ℝ :=
  !![a 0, (a 3 + a 6) / SQRT_2, (a 5 + a 8) / SQRT_2;
     (a 3 - a 6) / SQRT_2, a 1, (a 4 + a 7) / SQRT_2;
     (a 5 - a 8) / SQRT_2, (a 4 - a 7) / SQRT_2, a 2]

/-- The first components, then zeros. -/
def cut : Rep → (Fin 9 → ℝ) → Fin 9 → ℝ
  | .General, a => a
  | .Symmetric, a => ![a 0, a 1, a 2, a 3, a 4, a 5, 0, 0, 0]
  | .Symmetric2D, a => ![a 0, a 1, a 2, a 3, 0, 0, 0, 0, 0]

theorem basis_sum (a : Fin 9 → ℝ) : ∑ m : Fin 9, a m • basis m = mat9 a := by
  simp only [basis, Fin.sum_univ_succ, mat9]
  ext i j
  fin_cases i <;> fin_cases j <;> simp [unit, SQRT_2] <;> ring

theorem cut_eq (r : Rep) (a : Fin 9 → ℝ) (m : Fin 9) : cut r a m = if m.val < r.dim then a m else 0 := by
  cases r <;> fin_cases m <;> simp [cut, Rep.dim]

theorem std_eq (t : Tensor2) : t.std = mat9 (cut t.rep t.vec) := by
  rw [← basis_sum, Tensor2.std]
  refine Finset.sum_congr rfl fun m _ => ?_
  rw [cut_eq]
  split <;> simp

theorem mat9_inj {a b : Fin 9 → ℝ} (h : mat9 a = mat9 b) : a = b := by
  have e := fun i j => congrFun (congrFun h i) j
  have h00 := e 0 0; have h01 := e 0 1; have h02 := e 0 2; have h10 := e 1 0; have h11 := e 1 1
  have h12 := e 1 2; have h20 := e 2 0; have h21 := e 2 1; have h22 := e 2 2
  simp [mat9] at h00 h01 h02 h10 h11 h12 h20 h21 h22
  have hs := sq2_ne
  rw [div_left_inj' hs] at h01 h02 h10 h12 h20 h21
  ext m
  fin_cases m <;> simp <;> linarith

end Russell.Tensor
