import Verif.Tensor.Tensor4

/-!
# Products of second-order tensors (russell_tensor/src/operations_mix2.rs)

The coefficient matrices are those of the source, entry by entry; `o` is the coefficient matrix before the operation.
-/

namespace Russell.Tensor
open Russell Russell.Res

/-- `t2_odyad_t2`, dimension 4 (operations_mix2.rs:44-132). -/
noncomputable def odyadMat4 (s : ℝ) (a b : Fin 9 → ℝ) : Fin 9 → Fin 9 → ℝ :=
  let tsq2 := 2 * SQRT_2
  ![
    ![s * a 0 * b 0,
      s * (a 3 * b 3) / 2,
      0,
      s * (a 3 * b 0 + a 0 * b 3) / 2,
      0,
      0,
      s * (-(a 3 * b 0) + a 0 * b 3) / 2,
      0,
      0],
    ![s * (a 3 * b 3) / 2,
      s * a 1 * b 1,
      0,
      s * (a 3 * b 1 + a 1 * b 3) / 2,
      0,
      0,
      s * (a 3 * b 1 - a 1 * b 3) / 2,
      0,
      0],
    ![0,
      0,
      s * a 2 * b 2,
      0,
      0,
      0,
      0,
      0,
      0],
    ![s * (a 3 * b 0 + a 0 * b 3) / 2,
      s * (a 3 * b 1 + a 1 * b 3) / 2,
      0,
      s * (a 1 * b 0 + a 0 * b 1 + a 3 * b 3) / 2,
      0,
      0,
      s * (-(a 1 * b 0) + a 0 * b 1) / 2,
      0,
      0],
    ![0,
      0,
      0,
      0,
      s * (a 2 * b 1 + a 1 * b 2) / 2,
      s * (a 3 * b 2 + a 2 * b 3) / tsq2,
      0,
      s * (-(a 2 * b 1) + a 1 * b 2) / 2,
      s * (a 3 * b 2 - a 2 * b 3) / tsq2],
    ![0,
      0,
      0,
      0,
      s * (a 3 * b 2 + a 2 * b 3) / tsq2,
      s * (a 2 * b 0 + a 0 * b 2) / 2,
      0,
      s * (a 3 * b 2 - a 2 * b 3) / tsq2,
      s * (-(a 2 * b 0) + a 0 * b 2) / 2],
    ![s * (-(a 3 * b 0) + a 0 * b 3) / 2,
      s * (a 3 * b 1 - a 1 * b 3) / 2,
      0,
      s * (-(a 1 * b 0) + a 0 * b 1) / 2,
      0,
      0,
      s * (a 1 * b 0 + a 0 * b 1 - a 3 * b 3) / 2,
      0,
      0],
    ![0,
      0,
      0,
      0,
      s * (-(a 2 * b 1) + a 1 * b 2) / 2,
      s * (a 3 * b 2 - a 2 * b 3) / tsq2,
      0,
      s * (a 2 * b 1 + a 1 * b 2) / 2,
      s * (a 3 * b 2 + a 2 * b 3) / tsq2],
    ![0,
      0,
      0,
      0,
      s * (a 3 * b 2 - a 2 * b 3) / tsq2,
      s * (-(a 2 * b 0) + a 0 * b 2) / 2,
      0,
      s * (a 3 * b 2 + a 2 * b 3) / tsq2,
      s * (a 2 * b 0 + a 0 * b 2) / 2]]

/-- `t2_odyad_t2`, dimension 6 (operations_mix2.rs:134-222). -/
noncomputable def odyadMat6 (s : ℝ) (a b : Fin 9 → ℝ) : Fin 9 → Fin 9 → ℝ :=
  let tsq2 := 2 * SQRT_2
  ![
    ![s * a 0 * b 0,
      s * (a 3 * b 3) / 2,
      s * (a 5 * b 5) / 2,
      s * (a 3 * b 0 + a 0 * b 3) / 2,
      s * (a 5 * b 3 + a 3 * b 5) / tsq2,
      s * (a 5 * b 0 + a 0 * b 5) / 2,
      s * (-(a 3 * b 0) + a 0 * b 3) / 2,
      s * (-(a 5 * b 3) + a 3 * b 5) / tsq2,
      s * (-(a 5 * b 0) + a 0 * b 5) / 2],
    ![s * (a 3 * b 3) / 2,
      s * a 1 * b 1,
      s * (a 4 * b 4) / 2,
      s * (a 3 * b 1 + a 1 * b 3) / 2,
      s * (a 4 * b 1 + a 1 * b 4) / 2,
      s * (a 4 * b 3 + a 3 * b 4) / tsq2,
      s * (a 3 * b 1 - a 1 * b 3) / 2,
      s * (-(a 4 * b 1) + a 1 * b 4) / 2,
      s * (-(a 4 * b 3) + a 3 * b 4) / tsq2],
    ![s * (a 5 * b 5) / 2,
      s * (a 4 * b 4) / 2,
      s * a 2 * b 2,
      s * (a 5 * b 4 + a 4 * b 5) / tsq2,
      s * (a 4 * b 2 + a 2 * b 4) / 2,
      s * (a 5 * b 2 + a 2 * b 5) / 2,
      s * (a 5 * b 4 - a 4 * b 5) / tsq2,
      s * (a 4 * b 2 - a 2 * b 4) / 2,
      s * (a 5 * b 2 - a 2 * b 5) / 2],
    ![s * (a 3 * b 0 + a 0 * b 3) / 2,
      s * (a 3 * b 1 + a 1 * b 3) / 2,
      s * (a 5 * b 4 + a 4 * b 5) / tsq2,
      s * (a 1 * b 0 + a 0 * b 1 + a 3 * b 3) / 2,
      s * (SQRT_2 * a 5 * b 1 + a 4 * b 3 + a 3 * b 4 + SQRT_2 * a 1 * b 5) / 4,
      s * (SQRT_2 * a 4 * b 0 + a 5 * b 3 + SQRT_2 * a 0 * b 4 + a 3 * b 5) / 4,
      s * (-(a 1 * b 0) + a 0 * b 1) / 2,
      s * (-(SQRT_2 * a 5 * b 1) - a 4 * b 3 + a 3 * b 4 + SQRT_2 * a 1 * b 5) / 4,
      s * (-(SQRT_2 * a 4 * b 0) - a 5 * b 3 + SQRT_2 * a 0 * b 4 + a 3 * b 5) / 4],
    ![s * (a 5 * b 3 + a 3 * b 5) / tsq2,
      s * (a 4 * b 1 + a 1 * b 4) / 2,
      s * (a 4 * b 2 + a 2 * b 4) / 2,
      s * (SQRT_2 * a 5 * b 1 + a 4 * b 3 + a 3 * b 4 + SQRT_2 * a 1 * b 5) / 4,
      s * (a 2 * b 1 + a 1 * b 2 + a 4 * b 4) / 2,
      s * (SQRT_2 * a 3 * b 2 + SQRT_2 * a 2 * b 3 + a 5 * b 4 + a 4 * b 5) / 4,
      s * (SQRT_2 * a 5 * b 1 - a 4 * b 3 + a 3 * b 4 - SQRT_2 * a 1 * b 5) / 4,
      s * (-(a 2 * b 1) + a 1 * b 2) / 2,
      s * (SQRT_2 * a 3 * b 2 - SQRT_2 * a 2 * b 3 + a 5 * b 4 - a 4 * b 5) / 4],
    ![s * (a 5 * b 0 + a 0 * b 5) / 2,
      s * (a 4 * b 3 + a 3 * b 4) / tsq2,
      s * (a 5 * b 2 + a 2 * b 5) / 2,
      s * (SQRT_2 * a 4 * b 0 + a 5 * b 3 + SQRT_2 * a 0 * b 4 + a 3 * b 5) / 4,
      s * (SQRT_2 * a 3 * b 2 + SQRT_2 * a 2 * b 3 + a 5 * b 4 + a 4 * b 5) / 4,
      s * (a 2 * b 0 + a 0 * b 2 + a 5 * b 5) / 2,
      s * (-(SQRT_2 * a 4 * b 0) + a 5 * b 3 + SQRT_2 * a 0 * b 4 - a 3 * b 5) / 4,
      s * (SQRT_2 * a 3 * b 2 - SQRT_2 * a 2 * b 3 - a 5 * b 4 + a 4 * b 5) / 4,
      s * (-(a 2 * b 0) + a 0 * b 2) / 2],
    ![s * (-(a 3 * b 0) + a 0 * b 3) / 2,
      s * (a 3 * b 1 - a 1 * b 3) / 2,
      s * (a 5 * b 4 - a 4 * b 5) / tsq2,
      s * (-(a 1 * b 0) + a 0 * b 1) / 2,
      s * (SQRT_2 * a 5 * b 1 - a 4 * b 3 + a 3 * b 4 - SQRT_2 * a 1 * b 5) / 4,
      s * (-(SQRT_2 * a 4 * b 0) + a 5 * b 3 + SQRT_2 * a 0 * b 4 - a 3 * b 5) / 4,
      s * (a 1 * b 0 + a 0 * b 1 - a 3 * b 3) / 2,
      s * (-(SQRT_2 * a 5 * b 1) + a 4 * b 3 + a 3 * b 4 - SQRT_2 * a 1 * b 5) / 4,
      s * (SQRT_2 * a 4 * b 0 - a 5 * b 3 + SQRT_2 * a 0 * b 4 - a 3 * b 5) / 4],
    ![s * (-(a 5 * b 3) + a 3 * b 5) / tsq2,
      s * (-(a 4 * b 1) + a 1 * b 4) / 2,
      s * (a 4 * b 2 - a 2 * b 4) / 2,
      s * (-(SQRT_2 * a 5 * b 1) - a 4 * b 3 + a 3 * b 4 + SQRT_2 * a 1 * b 5) / 4,
      s * (-(a 2 * b 1) + a 1 * b 2) / 2,
      s * (SQRT_2 * a 3 * b 2 - SQRT_2 * a 2 * b 3 - a 5 * b 4 + a 4 * b 5) / 4,
      s * (-(SQRT_2 * a 5 * b 1) + a 4 * b 3 + a 3 * b 4 - SQRT_2 * a 1 * b 5) / 4,
      s * (a 2 * b 1 + a 1 * b 2 - a 4 * b 4) / 2,
      s * (SQRT_2 * a 3 * b 2 + SQRT_2 * a 2 * b 3 - a 5 * b 4 - a 4 * b 5) / 4],
    ![s * (-(a 5 * b 0) + a 0 * b 5) / 2,
      s * (-(a 4 * b 3) + a 3 * b 4) / tsq2,
      s * (a 5 * b 2 - a 2 * b 5) / 2,
      s * (-(SQRT_2 * a 4 * b 0) - a 5 * b 3 + SQRT_2 * a 0 * b 4 + a 3 * b 5) / 4,
      s * (SQRT_2 * a 3 * b 2 - SQRT_2 * a 2 * b 3 + a 5 * b 4 - a 4 * b 5) / 4,
      s * (-(a 2 * b 0) + a 0 * b 2) / 2,
      s * (SQRT_2 * a 4 * b 0 - a 5 * b 3 + SQRT_2 * a 0 * b 4 - a 3 * b 5) / 4,
      s * (SQRT_2 * a 3 * b 2 + SQRT_2 * a 2 * b 3 - a 5 * b 4 - a 4 * b 5) / 4,
      s * (a 2 * b 0 + a 0 * b 2 - a 5 * b 5) / 2]]

/-- `t2_odyad_t2`, dimension 9 (operations_mix2.rs:224-312). -/
noncomputable def odyadMat9 (s : ℝ) (a b : Fin 9 → ℝ) : Fin 9 → Fin 9 → ℝ :=
  let tsq2 := 2 * SQRT_2
  ![
    ![s * a 0 * b 0,
      s * ((a 3 + a 6) * (b 3 + b 6)) / 2,
      s * ((a 5 + a 8) * (b 5 + b 8)) / 2,
      s * (a 3 * b 0 + a 6 * b 0 + a 0 * (b 3 + b 6)) / 2,
      s * ((a 5 + a 8) * (b 3 + b 6) + (a 3 + a 6) * (b 5 + b 8)) / tsq2,
      s * (a 5 * b 0 + a 8 * b 0 + a 0 * (b 5 + b 8)) / 2,
      s * (-(a 3 * b 0) - a 6 * b 0 + a 0 * (b 3 + b 6)) / 2,
      s * (-((a 5 + a 8) * (b 3 + b 6)) + (a 3 + a 6) * (b 5 + b 8)) / tsq2,
      s * (-(a 5 * b 0) - a 8 * b 0 + a 0 * (b 5 + b 8)) / 2],
    ![s * ((a 3 - a 6) * (b 3 - b 6)) / 2,
      s * a 1 * b 1,
      s * ((a 4 + a 7) * (b 4 + b 7)) / 2,
      s * (a 3 * b 1 - a 6 * b 1 + a 1 * (b 3 - b 6)) / 2,
      s * (a 4 * b 1 + a 7 * b 1 + a 1 * (b 4 + b 7)) / 2,
      s * ((a 4 + a 7) * (b 3 - b 6) + (a 3 - a 6) * (b 4 + b 7)) / tsq2,
      s * (a 3 * b 1 - a 6 * b 1 + a 1 * (-b 3 + b 6)) / 2,
      s * (-(a 4 * b 1) - a 7 * b 1 + a 1 * (b 4 + b 7)) / 2,
      s * (-((a 4 + a 7) * (b 3 - b 6)) + (a 3 - a 6) * (b 4 + b 7)) / tsq2],
    ![s * ((a 5 - a 8) * (b 5 - b 8)) / 2,
      s * ((a 4 - a 7) * (b 4 - b 7)) / 2,
      s * a 2 * b 2,
      s * ((a 5 - a 8) * (b 4 - b 7) + (a 4 - a 7) * (b 5 - b 8)) / tsq2,
      s * (a 4 * b 2 - a 7 * b 2 + a 2 * (b 4 - b 7)) / 2,
      s * (a 5 * b 2 - a 8 * b 2 + a 2 * (b 5 - b 8)) / 2,
      s * ((a 5 - a 8) * (b 4 - b 7) - (a 4 - a 7) * (b 5 - b 8)) / tsq2,
      s * (a 4 * b 2 - a 7 * b 2 + a 2 * (-b 4 + b 7)) / 2,
      s * (a 5 * b 2 - a 8 * b 2 + a 2 * (-b 5 + b 8)) / 2],
    ![s * (a 3 * b 0 - a 6 * b 0 + a 0 * (b 3 - b 6)) / 2,
      s * (a 3 * b 1 + a 6 * b 1 + a 1 * (b 3 + b 6)) / 2,
      s * ((a 5 + a 8) * (b 4 + b 7) + (a 4 + a 7) * (b 5 + b 8)) / tsq2,
      s * (a 1 * b 0 + a 0 * b 1 + a 3 * b 3 - a 6 * b 6) / 2,
      s * (SQRT_2 * (a 5 + a 8) * b 1 + (a 4 + a 7) * (b 3 + b 6) + (a 3 + a 6) * (b 4 + b 7) + SQRT_2 * a 1 * (b 5 + b 8)) / 4,
      s * (SQRT_2 * (a 4 + a 7) * b 0 + (a 5 + a 8) * (b 3 - b 6) + SQRT_2 * a 0 * (b 4 + b 7) + (a 3 - a 6) * (b 5 + b 8)) / 4,
      s * (-(a 1 * b 0) + a 0 * b 1 - a 6 * b 3 + a 3 * b 6) / 2,
      s * (-(SQRT_2 * (a 5 + a 8) * b 1) - (a 4 + a 7) * (b 3 + b 6) + (a 3 + a 6) * (b 4 + b 7) + SQRT_2 * a 1 * (b 5 + b 8)) / 4,
      s * (-(SQRT_2 * (a 4 + a 7) * b 0) - (a 5 + a 8) * (b 3 - b 6) + SQRT_2 * a 0 * (b 4 + b 7) + (a 3 - a 6) * (b 5 + b 8)) / 4],
    ![s * ((a 5 - a 8) * (b 3 - b 6) + (a 3 - a 6) * (b 5 - b 8)) / tsq2,
      s * (a 4 * b 1 - a 7 * b 1 + a 1 * (b 4 - b 7)) / 2,
      s * (a 4 * b 2 + a 7 * b 2 + a 2 * (b 4 + b 7)) / 2,
      s * (SQRT_2 * (a 5 - a 8) * b 1 + (a 4 - a 7) * (b 3 - b 6) + (a 3 - a 6) * (b 4 - b 7) + SQRT_2 * a 1 * (b 5 - b 8)) / 4,
      s * (a 2 * b 1 + a 1 * b 2 + a 4 * b 4 - a 7 * b 7) / 2,
      s * (SQRT_2 * (a 3 - a 6) * b 2 + SQRT_2 * a 2 * (b 3 - b 6) + (a 5 - a 8) * (b 4 + b 7) + (a 4 + a 7) * (b 5 - b 8)) / 4,
      s * (SQRT_2 * (a 5 - a 8) * b 1 - (a 4 - a 7) * (b 3 - b 6) + (a 3 - a 6) * (b 4 - b 7) - SQRT_2 * a 1 * (b 5 - b 8)) / 4,
      s * (-(a 2 * b 1) + a 1 * b 2 - a 7 * b 4 + a 4 * b 7) / 2,
      s * (SQRT_2 * (a 3 - a 6) * b 2 - SQRT_2 * a 2 * (b 3 - b 6) + (a 5 - a 8) * (b 4 + b 7) - (a 4 + a 7) * (b 5 - b 8)) / 4],
    ![s * (a 5 * b 0 - a 8 * b 0 + a 0 * (b 5 - b 8)) / 2,
      s * ((a 4 - a 7) * (b 3 + b 6) + (a 3 + a 6) * (b 4 - b 7)) / tsq2,
      s * (a 5 * b 2 + a 8 * b 2 + a 2 * (b 5 + b 8)) / 2,
      s * (SQRT_2 * (a 4 - a 7) * b 0 + (a 5 - a 8) * (b 3 + b 6) + SQRT_2 * a 0 * (b 4 - b 7) + (a 3 + a 6) * (b 5 - b 8)) / 4,
      s * (SQRT_2 * (a 3 + a 6) * b 2 + SQRT_2 * a 2 * (b 3 + b 6) + (a 5 + a 8) * (b 4 - b 7) + (a 4 - a 7) * (b 5 + b 8)) / 4,
      s * (a 2 * b 0 + a 0 * b 2 + a 5 * b 5 - a 8 * b 8) / 2,
      s * (-(SQRT_2 * (a 4 - a 7) * b 0) + (a 5 - a 8) * (b 3 + b 6) + SQRT_2 * a 0 * (b 4 - b 7) - (a 3 + a 6) * (b 5 - b 8)) / 4,
      s * (SQRT_2 * (a 3 + a 6) * b 2 - SQRT_2 * a 2 * (b 3 + b 6) - (a 5 + a 8) * (b 4 - b 7) + (a 4 - a 7) * (b 5 + b 8)) / 4,
      s * (-(a 2 * b 0) + a 0 * b 2 - a 8 * b 5 + a 5 * b 8) / 2],
    ![s * (-(a 3 * b 0) + a 6 * b 0 + a 0 * (b 3 - b 6)) / 2,
      s * (a 3 * b 1 + a 6 * b 1 - a 1 * (b 3 + b 6)) / 2,
      s * ((a 5 + a 8) * (b 4 + b 7) - (a 4 + a 7) * (b 5 + b 8)) / tsq2,
      s * (-(a 1 * b 0) + a 0 * b 1 + a 6 * b 3 - a 3 * b 6) / 2,
      s * (SQRT_2 * (a 5 + a 8) * b 1 - (a 4 + a 7) * (b 3 + b 6) + (a 3 + a 6) * (b 4 + b 7) - SQRT_2 * a 1 * (b 5 + b 8)) / 4,
      s * (-(SQRT_2 * (a 4 + a 7) * b 0) + (a 5 + a 8) * (b 3 - b 6) + SQRT_2 * a 0 * (b 4 + b 7) - (a 3 - a 6) * (b 5 + b 8)) / 4,
      s * (a 1 * b 0 + a 0 * b 1 - a 3 * b 3 + a 6 * b 6) / 2,
      s * (-(SQRT_2 * (a 5 + a 8) * b 1) + (a 4 + a 7) * (b 3 + b 6) + (a 3 + a 6) * (b 4 + b 7) - SQRT_2 * a 1 * (b 5 + b 8)) / 4,
      s * (SQRT_2 * (a 4 + a 7) * b 0 - (a 5 + a 8) * (b 3 - b 6) + SQRT_2 * a 0 * (b 4 + b 7) - (a 3 - a 6) * (b 5 + b 8)) / 4],
    ![s * (-((a 5 - a 8) * (b 3 - b 6)) + (a 3 - a 6) * (b 5 - b 8)) / tsq2,
      s * (-(a 4 * b 1) + a 7 * b 1 + a 1 * (b 4 - b 7)) / 2,
      s * (a 4 * b 2 + a 7 * b 2 - a 2 * (b 4 + b 7)) / 2,
      s * (-(SQRT_2 * (a 5 - a 8) * b 1) - (a 4 - a 7) * (b 3 - b 6) + (a 3 - a 6) * (b 4 - b 7) + SQRT_2 * a 1 * (b 5 - b 8)) / 4,
      s * (-(a 2 * b 1) + a 1 * b 2 + a 7 * b 4 - a 4 * b 7) / 2,
      s * (SQRT_2 * (a 3 - a 6) * b 2 - SQRT_2 * a 2 * (b 3 - b 6) - (a 5 - a 8) * (b 4 + b 7) + (a 4 + a 7) * (b 5 - b 8)) / 4,
      s * (-(SQRT_2 * (a 5 - a 8) * b 1) + (a 4 - a 7) * (b 3 - b 6) + (a 3 - a 6) * (b 4 - b 7) - SQRT_2 * a 1 * (b 5 - b 8)) / 4,
      s * (a 2 * b 1 + a 1 * b 2 - a 4 * b 4 + a 7 * b 7) / 2,
      s * (SQRT_2 * (a 3 - a 6) * b 2 + SQRT_2 * a 2 * (b 3 - b 6) - (a 5 - a 8) * (b 4 + b 7) - (a 4 + a 7) * (b 5 - b 8)) / 4],
    ![s * (-(a 5 * b 0) + a 8 * b 0 + a 0 * (b 5 - b 8)) / 2,
      s * (-((a 4 - a 7) * (b 3 + b 6)) + (a 3 + a 6) * (b 4 - b 7)) / tsq2,
      s * (a 5 * b 2 + a 8 * b 2 - a 2 * (b 5 + b 8)) / 2,
      s * (-(SQRT_2 * (a 4 - a 7) * b 0) - (a 5 - a 8) * (b 3 + b 6) + SQRT_2 * a 0 * (b 4 - b 7) + (a 3 + a 6) * (b 5 - b 8)) / 4,
      s * (SQRT_2 * (a 3 + a 6) * b 2 - SQRT_2 * a 2 * (b 3 + b 6) + (a 5 + a 8) * (b 4 - b 7) - (a 4 - a 7) * (b 5 + b 8)) / 4,
      s * (-(a 2 * b 0) + a 0 * b 2 + a 8 * b 5 - a 5 * b 8) / 2,
      s * (SQRT_2 * (a 4 - a 7) * b 0 - (a 5 - a 8) * (b 3 + b 6) + SQRT_2 * a 0 * (b 4 - b 7) - (a 3 + a 6) * (b 5 - b 8)) / 4,
      s * (SQRT_2 * (a 3 + a 6) * b 2 + SQRT_2 * a 2 * (b 3 + b 6) - (a 5 + a 8) * (b 4 - b 7) - (a 4 - a 7) * (b 5 + b 8)) / 4,
      s * (a 2 * b 0 + a 0 * b 2 - a 5 * b 5 + a 8 * b 8) / 2]]

/-- `t2_odyad_t2` (operations_mix2.rs:36-314). -/
noncomputable def t2OdyadT2 (dd : Tensor4) (s : ℝ) (aa bb : Tensor2) : Res Tensor4 :=
  if dd.rep ≠ .General then panic
  else if bb.rep ≠ aa.rep then panic
  else if aa.dim = 4 then ok ⟨dd.rep, odyadMat4 s aa.vec bb.vec, dd.useLoops⟩
  else if aa.dim = 6 then ok ⟨dd.rep, odyadMat6 s aa.vec bb.vec, dd.useLoops⟩
  else ok ⟨dd.rep, odyadMat9 s aa.vec bb.vec, dd.useLoops⟩

/-- `t2_udyad_t2`, dimension 4 (operations_mix2.rs:356-444). -/
noncomputable def udyadMat4 (s : ℝ) (a b : Fin 9 → ℝ) : Fin 9 → Fin 9 → ℝ :=
  let tsq2 := 2 * SQRT_2
  ![
    ![s * a 0 * b 0,
      s * (a 3 * b 3) / 2,
      0,
      s * (a 3 * b 0 + a 0 * b 3) / 2,
      0,
      0,
      s * (a 3 * b 0 - a 0 * b 3) / 2,
      0,
      0],
    ![s * (a 3 * b 3) / 2,
      s * a 1 * b 1,
      0,
      s * (a 3 * b 1 + a 1 * b 3) / 2,
      0,
      0,
      s * (-(a 3 * b 1) + a 1 * b 3) / 2,
      0,
      0],
    ![0,
      0,
      s * a 2 * b 2,
      0,
      0,
      0,
      0,
      0,
      0],
    ![s * (a 3 * b 0 + a 0 * b 3) / 2,
      s * (a 3 * b 1 + a 1 * b 3) / 2,
      0,
      s * (a 1 * b 0 + a 0 * b 1 + a 3 * b 3) / 2,
      0,
      0,
      s * (a 1 * b 0 - a 0 * b 1) / 2,
      0,
      0],
    ![0,
      0,
      0,
      0,
      s * (a 2 * b 1 + a 1 * b 2) / 2,
      s * (a 3 * b 2 + a 2 * b 3) / tsq2,
      0,
      s * (a 2 * b 1 - a 1 * b 2) / 2,
      s * (-(a 3 * b 2) + a 2 * b 3) / tsq2],
    ![0,
      0,
      0,
      0,
      s * (a 3 * b 2 + a 2 * b 3) / tsq2,
      s * (a 2 * b 0 + a 0 * b 2) / 2,
      0,
      s * (-(a 3 * b 2) + a 2 * b 3) / tsq2,
      s * (a 2 * b 0 - a 0 * b 2) / 2],
    ![s * (-(a 3 * b 0) + a 0 * b 3) / 2,
      s * (a 3 * b 1 - a 1 * b 3) / 2,
      0,
      s * (-(a 1 * b 0) + a 0 * b 1) / 2,
      0,
      0,
      s * (-(a 1 * b 0) - a 0 * b 1 + a 3 * b 3) / 2,
      0,
      0],
    ![0,
      0,
      0,
      0,
      s * (-(a 2 * b 1) + a 1 * b 2) / 2,
      s * (a 3 * b 2 - a 2 * b 3) / tsq2,
      0,
      s * (-(a 2 * b 1) - a 1 * b 2) / 2,
      s * (-(a 3 * b 2 + a 2 * b 3) / tsq2)],
    ![0,
      0,
      0,
      0,
      s * (a 3 * b 2 - a 2 * b 3) / tsq2,
      s * (-(a 2 * b 0) + a 0 * b 2) / 2,
      0,
      s * (-(a 3 * b 2 + a 2 * b 3) / tsq2),
      s * (-(a 2 * b 0) - a 0 * b 2) / 2]]

/-- `t2_udyad_t2`, dimension 6 (operations_mix2.rs:446-534). -/
noncomputable def udyadMat6 (s : ℝ) (a b : Fin 9 → ℝ) : Fin 9 → Fin 9 → ℝ :=
  let tsq2 := 2 * SQRT_2
  ![
    ![s * a 0 * b 0,
      s * (a 3 * b 3) / 2,
      s * (a 5 * b 5) / 2,
      s * (a 3 * b 0 + a 0 * b 3) / 2,
      s * (a 5 * b 3 + a 3 * b 5) / tsq2,
      s * (a 5 * b 0 + a 0 * b 5) / 2,
      s * (a 3 * b 0 - a 0 * b 3) / 2,
      s * (a 5 * b 3 - a 3 * b 5) / tsq2,
      s * (a 5 * b 0 - a 0 * b 5) / 2],
    ![s * (a 3 * b 3) / 2,
      s * a 1 * b 1,
      s * (a 4 * b 4) / 2,
      s * (a 3 * b 1 + a 1 * b 3) / 2,
      s * (a 4 * b 1 + a 1 * b 4) / 2,
      s * (a 4 * b 3 + a 3 * b 4) / tsq2,
      s * (-(a 3 * b 1) + a 1 * b 3) / 2,
      s * (a 4 * b 1 - a 1 * b 4) / 2,
      s * (a 4 * b 3 - a 3 * b 4) / tsq2],
    ![s * (a 5 * b 5) / 2,
      s * (a 4 * b 4) / 2,
      s * a 2 * b 2,
      s * (a 5 * b 4 + a 4 * b 5) / tsq2,
      s * (a 4 * b 2 + a 2 * b 4) / 2,
      s * (a 5 * b 2 + a 2 * b 5) / 2,
      s * (-(a 5 * b 4) + a 4 * b 5) / tsq2,
      s * (-(a 4 * b 2) + a 2 * b 4) / 2,
      s * (-(a 5 * b 2) + a 2 * b 5) / 2],
    ![s * (a 3 * b 0 + a 0 * b 3) / 2,
      s * (a 3 * b 1 + a 1 * b 3) / 2,
      s * (a 5 * b 4 + a 4 * b 5) / tsq2,
      s * (a 1 * b 0 + a 0 * b 1 + a 3 * b 3) / 2,
      s * (SQRT_2 * a 5 * b 1 + a 4 * b 3 + a 3 * b 4 + SQRT_2 * a 1 * b 5) / 4,
      s * (SQRT_2 * a 4 * b 0 + a 5 * b 3 + SQRT_2 * a 0 * b 4 + a 3 * b 5) / 4,
      s * (a 1 * b 0 - a 0 * b 1) / 2,
      s * (SQRT_2 * a 5 * b 1 + a 4 * b 3 - a 3 * b 4 - SQRT_2 * a 1 * b 5) / 4,
      s * (SQRT_2 * a 4 * b 0 + a 5 * b 3 - SQRT_2 * a 0 * b 4 - a 3 * b 5) / 4],
    ![s * (a 5 * b 3 + a 3 * b 5) / tsq2,
      s * (a 4 * b 1 + a 1 * b 4) / 2,
      s * (a 4 * b 2 + a 2 * b 4) / 2,
      s * (SQRT_2 * a 5 * b 1 + a 4 * b 3 + a 3 * b 4 + SQRT_2 * a 1 * b 5) / 4,
      s * (a 2 * b 1 + a 1 * b 2 + a 4 * b 4) / 2,
      s * (SQRT_2 * a 3 * b 2 + SQRT_2 * a 2 * b 3 + a 5 * b 4 + a 4 * b 5) / 4,
      s * (-(SQRT_2 * a 5 * b 1) + a 4 * b 3 - a 3 * b 4 + SQRT_2 * a 1 * b 5) / 4,
      s * (a 2 * b 1 - a 1 * b 2) / 2,
      s * (-(SQRT_2 * a 3 * b 2) + SQRT_2 * a 2 * b 3 - a 5 * b 4 + a 4 * b 5) / 4],
    ![s * (a 5 * b 0 + a 0 * b 5) / 2,
      s * (a 4 * b 3 + a 3 * b 4) / tsq2,
      s * (a 5 * b 2 + a 2 * b 5) / 2,
      s * (SQRT_2 * a 4 * b 0 + a 5 * b 3 + SQRT_2 * a 0 * b 4 + a 3 * b 5) / 4,
      s * (SQRT_2 * a 3 * b 2 + SQRT_2 * a 2 * b 3 + a 5 * b 4 + a 4 * b 5) / 4,
      s * (a 2 * b 0 + a 0 * b 2 + a 5 * b 5) / 2,
      s * (SQRT_2 * a 4 * b 0 - a 5 * b 3 - SQRT_2 * a 0 * b 4 + a 3 * b 5) / 4,
      s * (-(SQRT_2 * a 3 * b 2) + SQRT_2 * a 2 * b 3 + a 5 * b 4 - a 4 * b 5) / 4,
      s * (a 2 * b 0 - a 0 * b 2) / 2],
    ![s * (-(a 3 * b 0) + a 0 * b 3) / 2,
      s * (a 3 * b 1 - a 1 * b 3) / 2,
      s * (a 5 * b 4 - a 4 * b 5) / tsq2,
      s * (-(a 1 * b 0) + a 0 * b 1) / 2,
      s * (SQRT_2 * a 5 * b 1 - a 4 * b 3 + a 3 * b 4 - SQRT_2 * a 1 * b 5) / 4,
      s * (-(SQRT_2 * a 4 * b 0) + a 5 * b 3 + SQRT_2 * a 0 * b 4 - a 3 * b 5) / 4,
      s * (-(a 1 * b 0) - a 0 * b 1 + a 3 * b 3) / 2,
      s * (SQRT_2 * a 5 * b 1 - a 4 * b 3 - a 3 * b 4 + SQRT_2 * a 1 * b 5) / 4,
      s * (-(SQRT_2 * a 4 * b 0) + a 5 * b 3 - SQRT_2 * a 0 * b 4 + a 3 * b 5) / 4],
    ![s * (-(a 5 * b 3) + a 3 * b 5) / tsq2,
      s * (-(a 4 * b 1) + a 1 * b 4) / 2,
      s * (a 4 * b 2 - a 2 * b 4) / 2,
      s * (-(SQRT_2 * a 5 * b 1) - a 4 * b 3 + a 3 * b 4 + SQRT_2 * a 1 * b 5) / 4,
      s * (-(a 2 * b 1) + a 1 * b 2) / 2,
      s * (SQRT_2 * a 3 * b 2 - SQRT_2 * a 2 * b 3 - a 5 * b 4 + a 4 * b 5) / 4,
      s * (SQRT_2 * a 5 * b 1 - a 4 * b 3 - a 3 * b 4 + SQRT_2 * a 1 * b 5) / 4,
      s * (-(a 2 * b 1) - a 1 * b 2 + a 4 * b 4) / 2,
      s * (-(SQRT_2 * a 3 * b 2) - SQRT_2 * a 2 * b 3 + a 5 * b 4 + a 4 * b 5) / 4],
    ![s * (-(a 5 * b 0) + a 0 * b 5) / 2,
      s * (-(a 4 * b 3) + a 3 * b 4) / tsq2,
      s * (a 5 * b 2 - a 2 * b 5) / 2,
      s * (-(SQRT_2 * a 4 * b 0) - a 5 * b 3 + SQRT_2 * a 0 * b 4 + a 3 * b 5) / 4,
      s * (SQRT_2 * a 3 * b 2 - SQRT_2 * a 2 * b 3 + a 5 * b 4 - a 4 * b 5) / 4,
      s * (-(a 2 * b 0) + a 0 * b 2) / 2,
      s * (-(SQRT_2 * a 4 * b 0) + a 5 * b 3 - SQRT_2 * a 0 * b 4 + a 3 * b 5) / 4,
      s * (-(SQRT_2 * a 3 * b 2) - SQRT_2 * a 2 * b 3 + a 5 * b 4 + a 4 * b 5) / 4,
      s * (-(a 2 * b 0) - a 0 * b 2 + a 5 * b 5) / 2]]

/-- `t2_udyad_t2`, dimension 9 (operations_mix2.rs:536-624). -/
noncomputable def udyadMat9 (s : ℝ) (a b : Fin 9 → ℝ) : Fin 9 → Fin 9 → ℝ :=
  let tsq2 := 2 * SQRT_2
  ![
    ![s * a 0 * b 0,
      s * ((a 3 + a 6) * (b 3 + b 6)) / 2,
      s * ((a 5 + a 8) * (b 5 + b 8)) / 2,
      s * (a 3 * b 0 + a 6 * b 0 + a 0 * (b 3 + b 6)) / 2,
      s * ((a 5 + a 8) * (b 3 + b 6) + (a 3 + a 6) * (b 5 + b 8)) / tsq2,
      s * (a 5 * b 0 + a 8 * b 0 + a 0 * (b 5 + b 8)) / 2,
      s * (a 3 * b 0 + a 6 * b 0 - a 0 * (b 3 + b 6)) / 2,
      s * ((a 5 + a 8) * (b 3 + b 6) - (a 3 + a 6) * (b 5 + b 8)) / tsq2,
      s * (a 5 * b 0 + a 8 * b 0 - a 0 * (b 5 + b 8)) / 2],
    ![s * ((a 3 - a 6) * (b 3 - b 6)) / 2,
      s * a 1 * b 1,
      s * ((a 4 + a 7) * (b 4 + b 7)) / 2,
      s * (a 3 * b 1 - a 6 * b 1 + a 1 * (b 3 - b 6)) / 2,
      s * (a 4 * b 1 + a 7 * b 1 + a 1 * (b 4 + b 7)) / 2,
      s * ((a 4 + a 7) * (b 3 - b 6) + (a 3 - a 6) * (b 4 + b 7)) / tsq2,
      s * (-(a 3 * b 1) + a 6 * b 1 + a 1 * (b 3 - b 6)) / 2,
      s * (a 4 * b 1 + a 7 * b 1 - a 1 * (b 4 + b 7)) / 2,
      s * ((a 4 + a 7) * (b 3 - b 6) - (a 3 - a 6) * (b 4 + b 7)) / tsq2],
    ![s * ((a 5 - a 8) * (b 5 - b 8)) / 2,
      s * ((a 4 - a 7) * (b 4 - b 7)) / 2,
      s * a 2 * b 2,
      s * ((a 5 - a 8) * (b 4 - b 7) + (a 4 - a 7) * (b 5 - b 8)) / tsq2,
      s * (a 4 * b 2 - a 7 * b 2 + a 2 * (b 4 - b 7)) / 2,
      s * (a 5 * b 2 - a 8 * b 2 + a 2 * (b 5 - b 8)) / 2,
      s * (-((a 5 - a 8) * (b 4 - b 7)) + (a 4 - a 7) * (b 5 - b 8)) / tsq2,
      s * (-(a 4 * b 2) + a 7 * b 2 + a 2 * (b 4 - b 7)) / 2,
      s * (-(a 5 * b 2) + a 8 * b 2 + a 2 * (b 5 - b 8)) / 2],
    ![s * (a 3 * b 0 - a 6 * b 0 + a 0 * (b 3 - b 6)) / 2,
      s * (a 3 * b 1 + a 6 * b 1 + a 1 * (b 3 + b 6)) / 2,
      s * ((a 5 + a 8) * (b 4 + b 7) + (a 4 + a 7) * (b 5 + b 8)) / tsq2,
      s * (a 1 * b 0 + a 0 * b 1 + a 3 * b 3 - a 6 * b 6) / 2,
      s * (SQRT_2 * (a 5 + a 8) * b 1 + (a 4 + a 7) * (b 3 + b 6) + (a 3 + a 6) * (b 4 + b 7) + SQRT_2 * a 1 * (b 5 + b 8)) / 4,
      s * (SQRT_2 * (a 4 + a 7) * b 0 + (a 5 + a 8) * (b 3 - b 6) + SQRT_2 * a 0 * (b 4 + b 7) + (a 3 - a 6) * (b 5 + b 8)) / 4,
      s * (a 1 * b 0 - a 0 * b 1 + a 6 * b 3 - a 3 * b 6) / 2,
      s * (SQRT_2 * (a 5 + a 8) * b 1 + (a 4 + a 7) * (b 3 + b 6) - (a 3 + a 6) * (b 4 + b 7) - SQRT_2 * a 1 * (b 5 + b 8)) / 4,
      s * (SQRT_2 * (a 4 + a 7) * b 0 + (a 5 + a 8) * (b 3 - b 6) - SQRT_2 * a 0 * (b 4 + b 7) - (a 3 - a 6) * (b 5 + b 8)) / 4],
    ![s * ((a 5 - a 8) * (b 3 - b 6) + (a 3 - a 6) * (b 5 - b 8)) / tsq2,
      s * (a 4 * b 1 - a 7 * b 1 + a 1 * (b 4 - b 7)) / 2,
      s * (a 4 * b 2 + a 7 * b 2 + a 2 * (b 4 + b 7)) / 2,
      s * (SQRT_2 * (a 5 - a 8) * b 1 + (a 4 - a 7) * (b 3 - b 6) + (a 3 - a 6) * (b 4 - b 7) + SQRT_2 * a 1 * (b 5 - b 8)) / 4,
      s * (a 2 * b 1 + a 1 * b 2 + a 4 * b 4 - a 7 * b 7) / 2,
      s * (SQRT_2 * (a 3 - a 6) * b 2 + SQRT_2 * a 2 * (b 3 - b 6) + (a 5 - a 8) * (b 4 + b 7) + (a 4 + a 7) * (b 5 - b 8)) / 4,
      s * (-(SQRT_2 * (a 5 - a 8) * b 1) + (a 4 - a 7) * (b 3 - b 6) - (a 3 - a 6) * (b 4 - b 7) + SQRT_2 * a 1 * (b 5 - b 8)) / 4,
      s * (a 2 * b 1 - a 1 * b 2 + a 7 * b 4 - a 4 * b 7) / 2,
      s * (-(SQRT_2 * (a 3 - a 6) * b 2) + SQRT_2 * a 2 * (b 3 - b 6) - (a 5 - a 8) * (b 4 + b 7) + (a 4 + a 7) * (b 5 - b 8)) / 4],
    ![s * (a 5 * b 0 - a 8 * b 0 + a 0 * (b 5 - b 8)) / 2,
      s * ((a 4 - a 7) * (b 3 + b 6) + (a 3 + a 6) * (b 4 - b 7)) / tsq2,
      s * (a 5 * b 2 + a 8 * b 2 + a 2 * (b 5 + b 8)) / 2,
      s * (SQRT_2 * (a 4 - a 7) * b 0 + (a 5 - a 8) * (b 3 + b 6) + SQRT_2 * a 0 * (b 4 - b 7) + (a 3 + a 6) * (b 5 - b 8)) / 4,
      s * (SQRT_2 * (a 3 + a 6) * b 2 + SQRT_2 * a 2 * (b 3 + b 6) + (a 5 + a 8) * (b 4 - b 7) + (a 4 - a 7) * (b 5 + b 8)) / 4,
      s * (a 2 * b 0 + a 0 * b 2 + a 5 * b 5 - a 8 * b 8) / 2,
      s * (SQRT_2 * (a 4 - a 7) * b 0 - (a 5 - a 8) * (b 3 + b 6) - SQRT_2 * a 0 * (b 4 - b 7) + (a 3 + a 6) * (b 5 - b 8)) / 4,
      s * (-(SQRT_2 * (a 3 + a 6) * b 2) + SQRT_2 * a 2 * (b 3 + b 6) + (a 5 + a 8) * (b 4 - b 7) - (a 4 - a 7) * (b 5 + b 8)) / 4,
      s * (a 2 * b 0 - a 0 * b 2 + a 8 * b 5 - a 5 * b 8) / 2],
    ![s * (-(a 3 * b 0) + a 6 * b 0 + a 0 * (b 3 - b 6)) / 2,
      s * (a 3 * b 1 + a 6 * b 1 - a 1 * (b 3 + b 6)) / 2,
      s * ((a 5 + a 8) * (b 4 + b 7) - (a 4 + a 7) * (b 5 + b 8)) / tsq2,
      s * (-(a 1 * b 0) + a 0 * b 1 + a 6 * b 3 - a 3 * b 6) / 2,
      s * (SQRT_2 * (a 5 + a 8) * b 1 - (a 4 + a 7) * (b 3 + b 6) + (a 3 + a 6) * (b 4 + b 7) - SQRT_2 * a 1 * (b 5 + b 8)) / 4,
      s * (-(SQRT_2 * (a 4 + a 7) * b 0) + (a 5 + a 8) * (b 3 - b 6) + SQRT_2 * a 0 * (b 4 + b 7) - (a 3 - a 6) * (b 5 + b 8)) / 4,
      s * (-(a 1 * b 0) - a 0 * b 1 + a 3 * b 3 - a 6 * b 6) / 2,
      s * (SQRT_2 * (a 5 + a 8) * b 1 - (a 4 + a 7) * (b 3 + b 6) - (a 3 + a 6) * (b 4 + b 7) + SQRT_2 * a 1 * (b 5 + b 8)) / 4,
      s * (-(SQRT_2 * (a 4 + a 7) * b 0) + (a 5 + a 8) * (b 3 - b 6) - SQRT_2 * a 0 * (b 4 + b 7) + (a 3 - a 6) * (b 5 + b 8)) / 4],
    ![s * (-((a 5 - a 8) * (b 3 - b 6)) + (a 3 - a 6) * (b 5 - b 8)) / tsq2,
      s * (-(a 4 * b 1) + a 7 * b 1 + a 1 * (b 4 - b 7)) / 2,
      s * (a 4 * b 2 + a 7 * b 2 - a 2 * (b 4 + b 7)) / 2,
      s * (-(SQRT_2 * (a 5 - a 8) * b 1) - (a 4 - a 7) * (b 3 - b 6) + (a 3 - a 6) * (b 4 - b 7) + SQRT_2 * a 1 * (b 5 - b 8)) / 4,
      s * (-(a 2 * b 1) + a 1 * b 2 + a 7 * b 4 - a 4 * b 7) / 2,
      s * (SQRT_2 * (a 3 - a 6) * b 2 - SQRT_2 * a 2 * (b 3 - b 6) - (a 5 - a 8) * (b 4 + b 7) + (a 4 + a 7) * (b 5 - b 8)) / 4,
      s * (SQRT_2 * (a 5 - a 8) * b 1 - (a 4 - a 7) * (b 3 - b 6) - (a 3 - a 6) * (b 4 - b 7) + SQRT_2 * a 1 * (b 5 - b 8)) / 4,
      s * (-(a 2 * b 1) - a 1 * b 2 + a 4 * b 4 - a 7 * b 7) / 2,
      s * (-(SQRT_2 * (a 3 - a 6) * b 2) - SQRT_2 * a 2 * (b 3 - b 6) + (a 5 - a 8) * (b 4 + b 7) + (a 4 + a 7) * (b 5 - b 8)) / 4],
    ![s * (-(a 5 * b 0) + a 8 * b 0 + a 0 * (b 5 - b 8)) / 2,
      s * (-((a 4 - a 7) * (b 3 + b 6)) + (a 3 + a 6) * (b 4 - b 7)) / tsq2,
      s * (a 5 * b 2 + a 8 * b 2 - a 2 * (b 5 + b 8)) / 2,
      s * (-(SQRT_2 * (a 4 - a 7) * b 0) - (a 5 - a 8) * (b 3 + b 6) + SQRT_2 * a 0 * (b 4 - b 7) + (a 3 + a 6) * (b 5 - b 8)) / 4,
      s * (SQRT_2 * (a 3 + a 6) * b 2 - SQRT_2 * a 2 * (b 3 + b 6) + (a 5 + a 8) * (b 4 - b 7) - (a 4 - a 7) * (b 5 + b 8)) / 4,
      s * (-(a 2 * b 0) + a 0 * b 2 + a 8 * b 5 - a 5 * b 8) / 2,
      s * (-(SQRT_2 * (a 4 - a 7) * b 0) + (a 5 - a 8) * (b 3 + b 6) - SQRT_2 * a 0 * (b 4 - b 7) + (a 3 + a 6) * (b 5 - b 8)) / 4,
      s * (-(SQRT_2 * (a 3 + a 6) * b 2) - SQRT_2 * a 2 * (b 3 + b 6) + (a 5 + a 8) * (b 4 - b 7) + (a 4 - a 7) * (b 5 + b 8)) / 4,
      s * (-(a 2 * b 0) - a 0 * b 2 + a 5 * b 5 - a 8 * b 8) / 2]]

/-- `t2_udyad_t2` (operations_mix2.rs:348-626). -/
noncomputable def t2UdyadT2 (dd : Tensor4) (s : ℝ) (aa bb : Tensor2) : Res Tensor4 :=
  if dd.rep ≠ .General then panic
  else if bb.rep ≠ aa.rep then panic
  else if aa.dim = 4 then ok ⟨dd.rep, udyadMat4 s aa.vec bb.vec, dd.useLoops⟩
  else if aa.dim = 6 then ok ⟨dd.rep, udyadMat6 s aa.vec bb.vec, dd.useLoops⟩
  else ok ⟨dd.rep, udyadMat9 s aa.vec bb.vec, dd.useLoops⟩

/-- `t2_ssd`, dimension 4 (operations_mix2.rs:683-723). -/
noncomputable def ssdMat4 (o : Fin 9 → Fin 9 → ℝ) (s : ℝ) (a : Fin 9 → ℝ) : Fin 9 → Fin 9 → ℝ :=
  ![
    ![s * (2 * a 0 * a 0),
      s * (a 3 * a 3),
      0,
      s * (2 * a 0 * a 3),
      0,
      0,
      o 0 6,
      o 0 7,
      o 0 8],
    ![s * (a 3 * a 3),
      s * (2 * a 1 * a 1),
      0,
      s * (2 * a 1 * a 3),
      0,
      0,
      o 1 6,
      o 1 7,
      o 1 8],
    ![0,
      0,
      s * (2 * a 2 * a 2),
      0,
      0,
      0,
      o 2 6,
      o 2 7,
      o 2 8],
    ![s * (2 * a 0 * a 3),
      s * (2 * a 1 * a 3),
      0,
      s * (2 * a 0 * a 1 + a 3 * a 3),
      0,
      0,
      o 3 6,
      o 3 7,
      o 3 8],
    ![0,
      0,
      0,
      0,
      s * (2 * a 1 * a 2),
      s * (SQRT_2 * a 2 * a 3),
      o 4 6,
      o 4 7,
      o 4 8],
    ![0,
      0,
      0,
      0,
      s * (SQRT_2 * a 2 * a 3),
      s * (2 * a 0 * a 2),
      o 5 6,
      o 5 7,
      o 5 8],
    ![o 6 0, o 6 1, o 6 2, o 6 3, o 6 4, o 6 5, o 6 6, o 6 7, o 6 8],
    ![o 7 0, o 7 1, o 7 2, o 7 3, o 7 4, o 7 5, o 7 6, o 7 7, o 7 8],
    ![o 8 0, o 8 1, o 8 2, o 8 3, o 8 4, o 8 5, o 8 6, o 8 7, o 8 8]]

/-- `t2_ssd`, dimension 6 (operations_mix2.rs:725-765). -/
noncomputable def ssdMat6 (o : Fin 9 → Fin 9 → ℝ) (s : ℝ) (a : Fin 9 → ℝ) : Fin 9 → Fin 9 → ℝ :=
  ![
    ![s * (2 * a 0 * a 0),
      s * (a 3 * a 3),
      s * (a 5 * a 5),
      s * (2 * a 0 * a 3),
      s * (SQRT_2 * a 3 * a 5),
      s * (2 * a 0 * a 5),
      o 0 6,
      o 0 7,
      o 0 8],
    ![s * (a 3 * a 3),
      s * (2 * a 1 * a 1),
      s * (a 4 * a 4),
      s * (2 * a 1 * a 3),
      s * (2 * a 1 * a 4),
      s * (SQRT_2 * a 3 * a 4),
      o 1 6,
      o 1 7,
      o 1 8],
    ![s * (a 5 * a 5),
      s * (a 4 * a 4),
      s * (2 * a 2 * a 2),
      s * (SQRT_2 * a 4 * a 5),
      s * (2 * a 2 * a 4),
      s * (2 * a 2 * a 5),
      o 2 6,
      o 2 7,
      o 2 8],
    ![s * (2 * a 0 * a 3),
      s * (2 * a 1 * a 3),
      s * (SQRT_2 * a 4 * a 5),
      s * (2 * a 0 * a 1 + a 3 * a 3),
      s * (a 3 * a 4 + SQRT_2 * a 1 * a 5),
      s * (SQRT_2 * a 0 * a 4 + a 3 * a 5),
      o 3 6,
      o 3 7,
      o 3 8],
    ![s * (SQRT_2 * a 3 * a 5),
      s * (2 * a 1 * a 4),
      s * (2 * a 2 * a 4),
      s * (a 3 * a 4 + SQRT_2 * a 1 * a 5),
      s * (2 * a 1 * a 2 + a 4 * a 4),
      s * (SQRT_2 * a 2 * a 3 + a 4 * a 5),
      o 4 6,
      o 4 7,
      o 4 8],
    ![s * (2 * a 0 * a 5),
      s * (SQRT_2 * a 3 * a 4),
      s * (2 * a 2 * a 5),
      s * (SQRT_2 * a 0 * a 4 + a 3 * a 5),
      s * (SQRT_2 * a 2 * a 3 + a 4 * a 5),
      s * (2 * a 0 * a 2 + a 5 * a 5),
      o 5 6,
      o 5 7,
      o 5 8],
    ![o 6 0, o 6 1, o 6 2, o 6 3, o 6 4, o 6 5, o 6 6, o 6 7, o 6 8],
    ![o 7 0, o 7 1, o 7 2, o 7 3, o 7 4, o 7 5, o 7 6, o 7 7, o 7 8],
    ![o 8 0, o 8 1, o 8 2, o 8 3, o 8 4, o 8 5, o 8 6, o 8 7, o 8 8]]

/-- `t2_ssd`, dimension 9 (operations_mix2.rs:767-807). -/
noncomputable def ssdMat9 (o : Fin 9 → Fin 9 → ℝ) (s : ℝ) (a : Fin 9 → ℝ) : Fin 9 → Fin 9 → ℝ :=
  ![
    ![s * (2 * a 0 * a 0),
      s * ((a 3 + a 6) * (a 3 + a 6)),
      s * ((a 5 + a 8) * (a 5 + a 8)),
      s * (2 * a 0 * (a 3 + a 6)),
      s * (SQRT_2 * (a 3 + a 6) * (a 5 + a 8)),
      s * (2 * a 0 * (a 5 + a 8)),
      o 0 6,
      o 0 7,
      o 0 8],
    ![s * ((a 3 - a 6) * (a 3 - a 6)),
      s * (2 * a 1 * a 1),
      s * ((a 4 + a 7) * (a 4 + a 7)),
      s * (2 * a 1 * (a 3 - a 6)),
      s * (2 * a 1 * (a 4 + a 7)),
      s * (SQRT_2 * (a 3 - a 6) * (a 4 + a 7)),
      o 1 6,
      o 1 7,
      o 1 8],
    ![s * ((a 5 - a 8) * (a 5 - a 8)),
      s * ((a 4 - a 7) * (a 4 - a 7)),
      s * (2 * a 2 * a 2),
      s * (SQRT_2 * (a 4 - a 7) * (a 5 - a 8)),
      s * (2 * a 2 * (a 4 - a 7)),
      s * (2 * a 2 * (a 5 - a 8)),
      o 2 6,
      o 2 7,
      o 2 8],
    ![s * (2 * a 0 * (a 3 - a 6)),
      s * (2 * a 1 * (a 3 + a 6)),
      s * (SQRT_2 * (a 4 + a 7) * (a 5 + a 8)),
      s * (2 * a 0 * a 1 + a 3 * a 3 - a 6 * a 6),
      s * ((a 3 + a 6) * (a 4 + a 7) + SQRT_2 * a 1 * (a 5 + a 8)),
      s * (SQRT_2 * a 0 * (a 4 + a 7) + (a 3 - a 6) * (a 5 + a 8)),
      o 3 6,
      o 3 7,
      o 3 8],
    ![s * (SQRT_2 * (a 3 - a 6) * (a 5 - a 8)),
      s * (2 * a 1 * (a 4 - a 7)),
      s * (2 * a 2 * (a 4 + a 7)),
      s * ((a 3 - a 6) * (a 4 - a 7) + SQRT_2 * a 1 * (a 5 - a 8)),
      s * (2 * a 1 * a 2 + a 4 * a 4 - a 7 * a 7),
      s * (SQRT_2 * a 2 * (a 3 - a 6) + (a 4 + a 7) * (a 5 - a 8)),
      o 4 6,
      o 4 7,
      o 4 8],
    ![s * (2 * a 0 * (a 5 - a 8)),
      s * (SQRT_2 * (a 3 + a 6) * (a 4 - a 7)),
      s * (2 * a 2 * (a 5 + a 8)),
      s * (SQRT_2 * a 0 * (a 4 - a 7) + (a 3 + a 6) * (a 5 - a 8)),
      s * (SQRT_2 * a 2 * (a 3 + a 6) + (a 4 - a 7) * (a 5 + a 8)),
      s * (2 * a 0 * a 2 + a 5 * a 5 - a 8 * a 8),
      o 5 6,
      o 5 7,
      o 5 8],
    ![o 6 0, o 6 1, o 6 2, o 6 3, o 6 4, o 6 5, o 6 6, o 6 7, o 6 8],
    ![o 7 0, o 7 1, o 7 2, o 7 3, o 7 4, o 7 5, o 7 6, o 7 7, o 7 8],
    ![o 8 0, o 8 1, o 8 2, o 8 3, o 8 4, o 8 5, o 8 6, o 8 7, o 8 8]]

/-- `t2_ssd`, the loops (operations_mix2.rs:663-681). -/
noncomputable def ssdLoops (s : ℝ) (aa : Tensor2) (m n : Fin 9) : ℝ :=
  let i := (mToIj m).1
  let j := (mToIj m).2
  let k := (mToIj n).1
  let l := (mToIj n).2
  let fm := if i = j then 1 else SQRT_2
  let fn := if k = l then 1 else SQRT_2
  let dijkl := aa.getStd i k * aa.getStd j l + aa.getStd i l * aa.getStd j k
  s * fm * fn * dijkl

/-- `t2_ssd` (operations_mix2.rs:659-809). -/
noncomputable def t2Ssd (dd : Tensor4) (s : ℝ) (aa : Tensor2) : Res Tensor4 :=
  if dd.rep ≠ .Symmetric then panic
  else if dd.useLoops then ok ⟨dd.rep, upto2 6 (ssdLoops s aa) (upto2 dd.dim (fun _ _ => 0) dd.mat), dd.useLoops⟩
  else if aa.dim = 4 then ok ⟨dd.rep, ssdMat4 dd.mat s aa.vec, dd.useLoops⟩
  else if aa.dim = 6 then ok ⟨dd.rep, ssdMat6 dd.mat s aa.vec, dd.useLoops⟩
  else ok ⟨dd.rep, ssdMat9 dd.mat s aa.vec, dd.useLoops⟩

/-- `t2_qsd_t2`, dimension 4 (operations_mix2.rs:871-911). -/
noncomputable def qsdMat4 (o : Fin 9 → Fin 9 → ℝ) (s : ℝ) (a b : Fin 9 → ℝ) : Fin 9 → Fin 9 → ℝ :=
  ![
    ![s * (4 * a 0 * b 0),
      s * (2 * a 3 * b 3),
      0,
      s * (2 * (a 3 * b 0 + a 0 * b 3)),
      0,
      0,
      o 0 6,
      o 0 7,
      o 0 8],
    ![s * (2 * a 3 * b 3),
      s * (4 * a 1 * b 1),
      0,
      s * (2 * (a 3 * b 1 + a 1 * b 3)),
      0,
      0,
      o 1 6,
      o 1 7,
      o 1 8],
    ![0,
      0,
      s * (4 * a 2 * b 2),
      0,
      0,
      0,
      o 2 6,
      o 2 7,
      o 2 8],
    ![s * (2 * (a 3 * b 0 + a 0 * b 3)),
      s * (2 * (a 3 * b 1 + a 1 * b 3)),
      0,
      s * (2 * (a 1 * b 0 + a 0 * b 1 + a 3 * b 3)),
      0,
      0,
      o 3 6,
      o 3 7,
      o 3 8],
    ![0,
      0,
      0,
      0,
      s * (2 * (a 2 * b 1 + a 1 * b 2)),
      s * (SQRT_2 * (a 3 * b 2 + a 2 * b 3)),
      o 4 6,
      o 4 7,
      o 4 8],
    ![0,
      0,
      0,
      0,
      s * (SQRT_2 * (a 3 * b 2 + a 2 * b 3)),
      s * (2 * (a 2 * b 0 + a 0 * b 2)),
      o 5 6,
      o 5 7,
      o 5 8],
    ![o 6 0, o 6 1, o 6 2, o 6 3, o 6 4, o 6 5, o 6 6, o 6 7, o 6 8],
    ![o 7 0, o 7 1, o 7 2, o 7 3, o 7 4, o 7 5, o 7 6, o 7 7, o 7 8],
    ![o 8 0, o 8 1, o 8 2, o 8 3, o 8 4, o 8 5, o 8 6, o 8 7, o 8 8]]

/-- `t2_qsd_t2`, dimension 6 (operations_mix2.rs:913-953). -/
noncomputable def qsdMat6 (o : Fin 9 → Fin 9 → ℝ) (s : ℝ) (a b : Fin 9 → ℝ) : Fin 9 → Fin 9 → ℝ :=
  ![
    ![s * (4 * a 0 * b 0),
      s * (2 * a 3 * b 3),
      s * (2 * a 5 * b 5),
      s * (2 * (a 3 * b 0 + a 0 * b 3)),
      s * (SQRT_2 * (a 5 * b 3 + a 3 * b 5)),
      s * (2 * (a 5 * b 0 + a 0 * b 5)),
      o 0 6,
      o 0 7,
      o 0 8],
    ![s * (2 * a 3 * b 3),
      s * (4 * a 1 * b 1),
      s * (2 * a 4 * b 4),
      s * (2 * (a 3 * b 1 + a 1 * b 3)),
      s * (2 * (a 4 * b 1 + a 1 * b 4)),
      s * (SQRT_2 * (a 4 * b 3 + a 3 * b 4)),
      o 1 6,
      o 1 7,
      o 1 8],
    ![s * (2 * a 5 * b 5),
      s * (2 * a 4 * b 4),
      s * (4 * a 2 * b 2),
      s * (SQRT_2 * (a 5 * b 4 + a 4 * b 5)),
      s * (2 * (a 4 * b 2 + a 2 * b 4)),
      s * (2 * (a 5 * b 2 + a 2 * b 5)),
      o 2 6,
      o 2 7,
      o 2 8],
    ![s * (2 * (a 3 * b 0 + a 0 * b 3)),
      s * (2 * (a 3 * b 1 + a 1 * b 3)),
      s * (SQRT_2 * (a 5 * b 4 + a 4 * b 5)),
      s * (2 * (a 1 * b 0 + a 0 * b 1 + a 3 * b 3)),
      s * (SQRT_2 * a 5 * b 1 + a 4 * b 3 + a 3 * b 4 + SQRT_2 * a 1 * b 5),
      s * (SQRT_2 * a 4 * b 0 + a 5 * b 3 + SQRT_2 * a 0 * b 4 + a 3 * b 5),
      o 3 6,
      o 3 7,
      o 3 8],
    ![s * (SQRT_2 * (a 5 * b 3 + a 3 * b 5)),
      s * (2 * (a 4 * b 1 + a 1 * b 4)),
      s * (2 * (a 4 * b 2 + a 2 * b 4)),
      s * (SQRT_2 * a 5 * b 1 + a 4 * b 3 + a 3 * b 4 + SQRT_2 * a 1 * b 5),
      s * (2 * (a 2 * b 1 + a 1 * b 2 + a 4 * b 4)),
      s * (SQRT_2 * a 3 * b 2 + SQRT_2 * a 2 * b 3 + a 5 * b 4 + a 4 * b 5),
      o 4 6,
      o 4 7,
      o 4 8],
    ![s * (2 * (a 5 * b 0 + a 0 * b 5)),
      s * (SQRT_2 * (a 4 * b 3 + a 3 * b 4)),
      s * (2 * (a 5 * b 2 + a 2 * b 5)),
      s * (SQRT_2 * a 4 * b 0 + a 5 * b 3 + SQRT_2 * a 0 * b 4 + a 3 * b 5),
      s * (SQRT_2 * a 3 * b 2 + SQRT_2 * a 2 * b 3 + a 5 * b 4 + a 4 * b 5),
      s * (2 * (a 2 * b 0 + a 0 * b 2 + a 5 * b 5)),
      o 5 6,
      o 5 7,
      o 5 8],
    ![o 6 0, o 6 1, o 6 2, o 6 3, o 6 4, o 6 5, o 6 6, o 6 7, o 6 8],
    ![o 7 0, o 7 1, o 7 2, o 7 3, o 7 4, o 7 5, o 7 6, o 7 7, o 7 8],
    ![o 8 0, o 8 1, o 8 2, o 8 3, o 8 4, o 8 5, o 8 6, o 8 7, o 8 8]]

/-- `t2_qsd_t2`, dimension 9 (operations_mix2.rs:955-995). -/
noncomputable def qsdMat9 (o : Fin 9 → Fin 9 → ℝ) (s : ℝ) (a b : Fin 9 → ℝ) : Fin 9 → Fin 9 → ℝ :=
  ![
    ![s * (4 * a 0 * b 0),
      s * (2 * (a 3 + a 6) * (b 3 + b 6)),
      s * (2 * (a 5 + a 8) * (b 5 + b 8)),
      s * (2 * (a 3 * b 0 + a 6 * b 0 + a 0 * (b 3 + b 6))),
      s * (SQRT_2 * ((a 5 + a 8) * (b 3 + b 6) + (a 3 + a 6) * (b 5 + b 8))),
      s * (2 * (a 5 * b 0 + a 8 * b 0 + a 0 * (b 5 + b 8))),
      o 0 6,
      o 0 7,
      o 0 8],
    ![s * (2 * (a 3 - a 6) * (b 3 - b 6)),
      s * (4 * a 1 * b 1),
      s * (2 * (a 4 + a 7) * (b 4 + b 7)),
      s * (2 * (a 3 * b 1 - a 6 * b 1 + a 1 * (b 3 - b 6))),
      s * (2 * (a 4 * b 1 + a 7 * b 1 + a 1 * (b 4 + b 7))),
      s * (SQRT_2 * ((a 4 + a 7) * (b 3 - b 6) + (a 3 - a 6) * (b 4 + b 7))),
      o 1 6,
      o 1 7,
      o 1 8],
    ![s * (2 * (a 5 - a 8) * (b 5 - b 8)),
      s * (2 * (a 4 - a 7) * (b 4 - b 7)),
      s * (4 * a 2 * b 2),
      s * (SQRT_2 * ((a 5 - a 8) * (b 4 - b 7) + (a 4 - a 7) * (b 5 - b 8))),
      s * (2 * (a 4 * b 2 - a 7 * b 2 + a 2 * (b 4 - b 7))),
      s * (2 * (a 5 * b 2 - a 8 * b 2 + a 2 * (b 5 - b 8))),
      o 2 6,
      o 2 7,
      o 2 8],
    ![s * (2 * (a 3 * b 0 - a 6 * b 0 + a 0 * (b 3 - b 6))),
      s * (2 * (a 3 * b 1 + a 6 * b 1 + a 1 * (b 3 + b 6))),
      s * (SQRT_2 * ((a 5 + a 8) * (b 4 + b 7) + (a 4 + a 7) * (b 5 + b 8))),
      s * (2 * (a 1 * b 0 + a 0 * b 1 + a 3 * b 3 - a 6 * b 6)),
      s * (SQRT_2 * (a 5 + a 8) * b 1 + (a 4 + a 7) * (b 3 + b 6) + (a 3 + a 6) * (b 4 + b 7) + SQRT_2 * a 1 * (b 5 + b 8)),
      s * (SQRT_2 * (a 4 + a 7) * b 0 + (a 5 + a 8) * (b 3 - b 6) + SQRT_2 * a 0 * (b 4 + b 7) + (a 3 - a 6) * (b 5 + b 8)),
      o 3 6,
      o 3 7,
      o 3 8],
    ![s * (SQRT_2 * ((a 5 - a 8) * (b 3 - b 6) + (a 3 - a 6) * (b 5 - b 8))),
      s * (2 * (a 4 * b 1 - a 7 * b 1 + a 1 * (b 4 - b 7))),
      s * (2 * (a 4 * b 2 + a 7 * b 2 + a 2 * (b 4 + b 7))),
      s * (SQRT_2 * (a 5 - a 8) * b 1 + (a 4 - a 7) * (b 3 - b 6) + (a 3 - a 6) * (b 4 - b 7) + SQRT_2 * a 1 * (b 5 - b 8)),
      s * (2 * (a 2 * b 1 + a 1 * b 2 + a 4 * b 4 - a 7 * b 7)),
      s * (SQRT_2 * (a 3 - a 6) * b 2 + SQRT_2 * a 2 * (b 3 - b 6) + (a 5 - a 8) * (b 4 + b 7) + (a 4 + a 7) * (b 5 - b 8)),
      o 4 6,
      o 4 7,
      o 4 8],
    ![s * (2 * (a 5 * b 0 - a 8 * b 0 + a 0 * (b 5 - b 8))),
      s * (SQRT_2 * ((a 4 - a 7) * (b 3 + b 6) + (a 3 + a 6) * (b 4 - b 7))),
      s * (2 * (a 5 * b 2 + a 8 * b 2 + a 2 * (b 5 + b 8))),
      s * (SQRT_2 * (a 4 - a 7) * b 0 + (a 5 - a 8) * (b 3 + b 6) + SQRT_2 * a 0 * (b 4 - b 7) + (a 3 + a 6) * (b 5 - b 8)),
      s * (SQRT_2 * (a 3 + a 6) * b 2 + SQRT_2 * a 2 * (b 3 + b 6) + (a 5 + a 8) * (b 4 - b 7) + (a 4 - a 7) * (b 5 + b 8)),
      s * (2 * (a 2 * b 0 + a 0 * b 2 + a 5 * b 5 - a 8 * b 8)),
      o 5 6,
      o 5 7,
      o 5 8],
    ![o 6 0, o 6 1, o 6 2, o 6 3, o 6 4, o 6 5, o 6 6, o 6 7, o 6 8],
    ![o 7 0, o 7 1, o 7 2, o 7 3, o 7 4, o 7 5, o 7 6, o 7 7, o 7 8],
    ![o 8 0, o 8 1, o 8 2, o 8 3, o 8 4, o 8 5, o 8 6, o 8 7, o 8 8]]

/-- `t2_qsd_t2`, the loops (operations_mix2.rs:850-869). -/
noncomputable def qsdLoops (s : ℝ) (aa bb : Tensor2) (m n : Fin 9) : ℝ :=
  let i := (mToIj m).1
  let j := (mToIj m).2
  let k := (mToIj n).1
  let l := (mToIj n).2
  let fm := if i = j then 1 else SQRT_2
  let fn := if k = l then 1 else SQRT_2
  let dijkl := aa.getStd i k * bb.getStd j l + aa.getStd i l * bb.getStd j k + bb.getStd i k * aa.getStd j l + bb.getStd i l * aa.getStd j k
  s * fm * fn * dijkl

/-- `t2_qsd_t2` (operations_mix2.rs:844-997). -/
noncomputable def t2QsdT2 (dd : Tensor4) (s : ℝ) (aa bb : Tensor2) : Res Tensor4 :=
  if dd.rep ≠ .Symmetric then panic
  else if bb.rep ≠ aa.rep then panic
  else if dd.useLoops then ok ⟨dd.rep, upto2 6 (qsdLoops s aa bb) (upto2 dd.dim (fun _ _ => 0) dd.mat), dd.useLoops⟩
  else if aa.dim = 4 then ok ⟨dd.rep, qsdMat4 dd.mat s aa.vec bb.vec, dd.useLoops⟩
  else if aa.dim = 6 then ok ⟨dd.rep, qsdMat6 dd.mat s aa.vec bb.vec, dd.useLoops⟩
  else ok ⟨dd.rep, qsdMat9 dd.mat s aa.vec bb.vec, dd.useLoops⟩

end Russell.Tensor
