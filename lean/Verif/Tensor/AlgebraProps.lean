import Verif.Tensor.Represent
import Mathlib.LinearAlgebra.Matrix.Trace
import Mathlib.Data.Matrix.Mul
import Mathlib.LinearAlgebra.Matrix.Adjugate
import Mathlib.LinearAlgebra.Matrix.NonsingularInverse
import Mathlib.LinearAlgebra.Matrix.Symmetric

/-!
# C66: the algebra of second-order tensors
-/

namespace Russell.Tensor
open Russell Russell.Res

theorem C66_determinant (t : Tensor2) : t.determinant = t.std.det := by
  rw [std_eq, Matrix.det_fin_three]
  unfold Tensor2.determinant
  cases t.rep <;> simp [mat9, cut] <;> kelvin

theorem C66_transpose (t at' : Tensor2) (h : at'.rep = t.rep) :
    ∃ r, t.transpose at' = ok r ∧ r.rep = t.rep ∧ r.std = t.std.transpose := by
  refine ⟨_, by unfold Tensor2.transpose; exact if_neg (by simp [h]), by exact h, ?_⟩
  rw [std_eq, std_eq]
  simp only [Tensor2.dim, h, cut_byDim]
  ext i j
  cases t.rep <;> fin_cases i <;> fin_cases j <;> simp [mat9, cut] <;> kelvin

theorem C66_trace (t : Tensor2) : t.trace = t.std.trace := by
  rw [std_eq, Matrix.trace]
  simp only [Fin.sum_univ_three, Matrix.diag]
  cases h : t.rep <;> simp [mat9, cut, Tensor2.trace]

/-- The sum of the squares of the components. -/
def sqSum (a : Matrix (Fin 3) (Fin 3) ℝ) : ℝ := ∑ i, ∑ j, a i j ^ 2

theorem sqSum_mat9 (a : Fin 9 → ℝ) : sqSum (mat9 a) = ∑ m, a m ^ 2 := by
  simp only [sqSum, Fin.sum_univ_three, Fin.sum_univ_succ]
  simp [mat9]
  kelvin

theorem C66_norm (t : Tensor2) : t.norm = √(sqSum t.std) := by
  rw [std_eq, sqSum_mat9]
  unfold Tensor2.norm Tensor2.dim
  cases t.rep <;> simp [cut, Rep.dim, Fin.sum_univ_succ] <;> ring_nf

theorem C66_squared (t a2 : Tensor2) (h : a2.rep = t.rep) :
    ∃ r, t.squared a2 = ok r ∧ r.rep = t.rep ∧ r.std = t.std * t.std := by
  refine ⟨_, by unfold Tensor2.squared; exact if_neg (by simp [h]), by exact h, ?_⟩
  rw [std_eq, std_eq]
  simp only [h]
  unfold Tensor2.squaredVec
  ext i j
  rw [Matrix.mul_apply, Fin.sum_univ_three]
  cases t.rep <;> fin_cases i <;> fin_cases j <;> simp [mat9, cut] <;> kelvin

/-- The deviatoric part. -/
noncomputable def devOf (a : Matrix (Fin 3) (Fin 3) ℝ) : Matrix (Fin 3) (Fin 3) ℝ := a - (a.trace / 3) • (1 : Matrix (Fin 3) (Fin 3) ℝ)

theorem deviatorFix_eq (a d : Fin 9 → ℝ) (h0 : d 0 = a 0 - (a 0 + a 1 + a 2) / 3) (h1 : d 1 = a 1 - (a 0 + a 1 + a 2) / 3)
    (h2 : d 2 = a 2 - (a 0 + a 1 + a 2) / 3) : deviatorFix a d = d := by
  unfold deviatorFix
  rw [if_neg]
  rw [h0, h1, h2]
  ring_nf
  norm_num

theorem C66_deviator (t dev : Tensor2) (h : dev.rep = t.rep) :
    ∃ r, t.deviator dev = ok r ∧ r.rep = t.rep ∧ r.std = devOf t.std := by
  refine ⟨_, by unfold Tensor2.deviator; exact if_neg (by simp [h]), by exact h, ?_⟩
  rw [devOf, ← C66_trace, std_eq, std_eq, deviatorFix_eq _ _ (by simp [byDim]) (by simp [byDim]) (by simp [byDim])]
  simp only [Tensor2.dim, h, cut_byDim]
  ext i j
  cases t.rep <;> fin_cases i <;> fin_cases j <;> simp [mat9, cut, Tensor2.trace]

theorem devOf_eq (t : Tensor2) : ∃ v, devOf t.std = mat9 v ∧ v = fun m => cut t.rep t.vec m - if m.val < 3 then t.trace / 3 else 0 := by
  refine ⟨_, ?_, rfl⟩
  rw [devOf, ← C66_trace, std_eq]
  ext i j
  fin_cases i <;> fin_cases j <;> simp [mat9]

theorem C66_deviator_norm (t : Tensor2) : t.deviatorNorm = √(sqSum (devOf t.std)) := by
  obtain ⟨v, h, hv⟩ := devOf_eq t
  rw [h, sqSum_mat9, hv]
  unfold Tensor2.deviatorNorm Tensor2.dim Tensor2.trace
  cases t.rep <;> simp [cut, Rep.dim, Fin.sum_univ_succ] <;> ring_nf

theorem C66_deviator_determinant (t : Tensor2) : t.deviatorDeterminant = (devOf t.std).det := by
  obtain ⟨v, h, hv⟩ := devOf_eq t
  rw [h, hv, Matrix.det_fin_three]
  unfold Tensor2.deviatorDeterminant Tensor2.trace
  cases t.rep <;> simp [mat9, cut] <;> kelvin

theorem inverse_det (t ai : Tensor2) (tol : ℝ) (h : ai.rep = t.rep) :
    t.inverse ai tol = if |t.std.det| > tol then ok ({ ai with vec := t.inverseVec ai t.std.det }, some t.std.det) else ok (ai, none) := by
  rw [← C66_determinant]
  unfold Tensor2.inverse Tensor2.determinant
  rw [if_neg (by simp [h])]

theorem inverseVec_adjugate (t ai : Tensor2) (h : ai.rep = t.rep) (d : ℝ) :
    Tensor2.std { ai with vec := t.inverseVec ai d } = d⁻¹ • t.std.adjugate := by
  rw [std_eq, std_eq, Matrix.adjugate_fin_three]
  simp only [h]
  unfold Tensor2.inverseVec
  ext i j
  cases t.rep <;> fin_cases i <;> fin_cases j <;> simp [mat9, cut] <;> kelvin

theorem inverseVec_spec (t ai : Tensor2) (h : ai.rep = t.rep) (hd : t.std.det ≠ 0) :
    t.std * Tensor2.std { ai with vec := t.inverseVec ai t.std.det } = 1 := by
  rw [inverseVec_adjugate t ai h, mul_smul_comm, Matrix.mul_adjugate, smul_smul, inv_mul_cancel₀ hd, one_smul]

/-- `inverse`: the inverse and the determinant if the determinant is larger than the tolerance, otherwise nothing. -/
theorem C66_inverse (t ai : Tensor2) (tol : ℝ) (h : ai.rep = t.rep) (ht : 0 ≤ tol) :
    (|t.std.det| > tol → ∃ r, t.inverse ai tol = ok (r, some t.std.det) ∧ r.rep = t.rep ∧ t.std * r.std = 1 ∧ r.std * t.std = 1) ∧
      (|t.std.det| ≤ tol → t.inverse ai tol = ok (ai, none)) := by
  rw [inverse_det t ai tol h]
  constructor
  · intro hd
    have hd' : t.std.det ≠ 0 := fun e => by rw [e, abs_zero] at hd; exact absurd ht (not_le.2 hd)
    have e := inverseVec_spec t ai h hd'
    exact ⟨_, if_pos hd, h, e, mul_eq_one_comm.1 e⟩
  · intro hd
    exact if_neg (not_lt.2 hd)

theorem C66_decompose (t sym skw : Tensor2) (h1 : sym.rep = t.rep) (h2 : skw.rep = t.rep)
    (h0 : t.rep = .General → sym.vec 6 = 0 ∧ sym.vec 7 = 0 ∧ sym.vec 8 = 0) :
    ∃ s w, t.decompose sym skw = ok (s, w) ∧ s.std = (1 / 2 : ℝ) • (t.std + t.std.transpose) ∧
      w.std = (1 / 2 : ℝ) • (t.std - t.std.transpose) := by
  unfold Tensor2.decompose Tensor2.dim
  rw [if_neg (by simp [h1]), if_neg (by simp [h2])]
  by_cases hr : t.rep = .General
  · obtain ⟨a, b, c⟩ := h0 hr
    rw [if_pos hr]
    refine ⟨_, _, rfl, ?_, ?_⟩ <;> rw [std_eq, std_eq] <;> simp only [h1, h2, hr] <;> ext i j <;> fin_cases i <;> fin_cases j <;>
      simp [mat9, cut, upto, a, b, c] <;> try (first | ring | kelvin)
  · rw [if_neg hr]
    refine ⟨_, _, rfl, ?_, ?_⟩ <;> rw [std_eq, std_eq] <;> simp only [h1, h2, cut_upto] <;> ext i j <;> cases h : t.rep <;>
      first
        | exact absurd h hr
        | (fin_cases i <;> fin_cases j <;> simp [mat9, cut] <;> try (first | ring | kelvin))

/-- For a general tensor, the skew components of the given tensor `sym` are kept: the result is not the symmetric part. -/
theorem C66_decompose_counterexample : ∃ (t sym skw s w : Tensor2), t.decompose sym skw = ok (s, w) ∧
    s.std ≠ (1 / 2 : ℝ) • (t.std + t.std.transpose) ∧ s.std ≠ s.std.transpose := by
  refine ⟨Tensor2.new .General, ⟨.General, fun _ => 1⟩, Tensor2.new .General, _, _, rfl, ?_, ?_⟩ <;> intro h <;>
    have e := congrFun (congrFun h 0) 1 <;> rw [std_eq] at e <;> simp [Tensor2.new, std_eq, mat9, cut, upto] at e
  · exact sq2_ne e
  · have := sq2_pos
    rw [neg_div, inv_eq_one_div] at e
    have : 0 < 1 / SQRT_2 := by positivity
    linarith

/-- `axial_vector`: the vector ω with `skw(A) u = ω × u` for all `u`. -/
theorem C66_axial_vector (t : Tensor2) (u : Tensor1) :
    ((1 / 2 : ℝ) • (t.std - t.std.transpose)).mulVec u = Tensor1.cross t.axialVector u := by
  rw [std_eq]
  unfold Tensor2.axialVector
  ext i
  rw [Matrix.mulVec, dotProduct, Fin.sum_univ_three]
  cases t.rep <;> fin_cases i <;> simp [mat9, cut, Tensor1.cross] <;> kelvin

theorem C66_t2_add (c a b : Tensor2) (alpha beta : ℝ) (h1 : b.rep = a.rep) (h2 : c.rep = a.rep) :
    ∃ r, t2Add c alpha a beta b = ok r ∧ r.rep = a.rep ∧ r.std = alpha • a.std + beta • b.std := by
  refine ⟨_, by unfold t2Add; rw [if_neg (by simp [h1])]; exact if_neg (by simp [h2]), by exact h2, ?_⟩
  rw [std_eq, std_eq, std_eq]
  simp only [Tensor2.dim, h1, h2, cut_upto, cut_map₂ _ (fun x y => alpha * x + beta * y) (by simp), mat9_add, mat9_smul]

theorem C66_ddot (a b : Tensor2) (h : a.rep = b.rep) : t2DdotT2 a b = ok (∑ i, ∑ j, a.std i j * b.std i j) := by
  rw [std_eq, std_eq, ← h]
  unfold t2DdotT2
  rw [if_neg (by simp [h])]
  simp only [Fin.sum_univ_three]
  cases a.rep <;> simp [mat9, cut] <;> kelvin

theorem C66_dot (c a b : Tensor2) (h1 : c.rep = .General) (h2 : b.rep = a.rep) :
    ∃ r, t2DotT2 c a b = ok r ∧ r.rep = .General ∧ r.std = a.std * b.std := by
  refine ⟨_, by unfold t2DotT2; rw [if_neg (by simp [h1])]; exact if_neg (by simp [h2]), by exact h1, ?_⟩
  rw [std_eq, std_eq, std_eq, h2]
  simp only [h1, t2DotT2Vec]
  ext i j
  rw [Matrix.mul_apply, Fin.sum_univ_three]
  cases a.rep <;> fin_cases i <;> fin_cases j <;> simp [mat9, cut] <;> kelvin

theorem C66_t2_dot_t1 (alpha : ℝ) (a : Tensor2) (u : Tensor1) : t2DotT1 alpha a u = alpha • a.std.mulVec u := by
  ext i
  simp only [Pi.smul_apply, Matrix.mulVec, dotProduct, Fin.sum_univ_three, t2DotT1, C65_get_std]
  fin_cases i <;> simp

theorem C66_t1_dot_t2 (alpha : ℝ) (u : Tensor1) (a : Tensor2) : t1DotT2 alpha u a = alpha • a.std.vecMul u := by
  ext i
  simp only [Pi.smul_apply, Matrix.vecMul, dotProduct, Fin.sum_univ_three, t1DotT2, C65_get_std]
  fin_cases i <;> simp

theorem vecMulVec_symm (u v : Tensor1) :
    (Matrix.vecMulVec u v).IsSymm ↔ u 0 * v 1 = u 1 * v 0 ∧ u 1 * v 2 = u 2 * v 1 ∧ u 0 * v 2 = u 2 * v 0 := by
  rw [Matrix.IsSymm.ext_iff]
  simp only [Matrix.vecMulVec_apply, Fin.forall_fin_succ, Fin.forall_fin_zero]
  simp
  constructor
  · rintro ⟨⟨a, b⟩, ⟨c, d⟩, -⟩
    exact ⟨c, d.symm, b.symm⟩
  · rintro ⟨a, b, c⟩
    simp [a, b, c]

/-- `t1_dyad_t1`: α u ⊗ v, or an error if the tensor is symmetric and `u ⊗ v` is not; in 2D, for vectors in the plane. -/
theorem C66_dyad (a : Tensor2) (alpha : ℝ) (u v : Tensor1) (h2 : a.rep = .Symmetric2D → u 2 = 0 ∧ v 2 = 0) :
    ((a.rep = .General ∨ (Matrix.vecMulVec u v).IsSymm) →
        ∃ r, t1DyadT1 a alpha u v = ok r ∧ r.rep = a.rep ∧ r.std = alpha • Matrix.vecMulVec u v) ∧
      (¬ (a.rep = .General ∨ (Matrix.vecMulVec u v).IsSymm) → ∃ msg, t1DyadT1 a alpha u v = err msg) := by
  rw [vecMulVec_symm]
  unfold t1DyadT1 Tensor2.dim
  have key : ∀ w : Fin 9 → ℝ, cut a.rep w = (fun m => stdComponent (alpha • Matrix.vecMulVec u v) m 0) →
      Tensor2.std ⟨a.rep, w⟩ = alpha • Matrix.vecMulVec u v := by
    intro w hw
    rw [std_eq]
    simp only [hw]
    exact mat9_stdComponent _ fun _ => 0
  cases hr : a.rep <;> rw [hr] at key
  · refine ⟨fun _ => ⟨_, rfl, rfl, key _ ?_⟩, fun h => absurd (Or.inl rfl) h⟩
    funext m
    fin_cases m <;> simp [cut, stdComponent, mToIj, Matrix.vecMulVec] <;> ring
  · refine ⟨fun h => ?_, fun h => ?_⟩
    · simp only [reduceCtorEq, false_or] at h
      obtain ⟨x, y, z⟩ := h
      refine ⟨_, by rw [if_neg (show ¬ Rep.dim .Symmetric = 4 by simp [Rep.dim]), if_pos (show Rep.dim .Symmetric = 6 from rfl), if_neg (by simp [x, y, z])], rfl, key _ ?_⟩
      funext m
      fin_cases m <;> simp [cut, stdComponent, mToIj, Matrix.vecMulVec, x, y, z] <;> ring_nf
    · exact ⟨_, by rw [if_neg (show ¬ Rep.dim .Symmetric = 4 by simp [Rep.dim]), if_pos (show Rep.dim .Symmetric = 6 from rfl), if_pos (by tauto)]⟩
  · obtain ⟨hu, hv⟩ := h2 hr
    simp only [hu, hv]
    refine ⟨fun h => ?_, fun h => ?_⟩
    · simp only [reduceCtorEq, false_or] at h
      obtain ⟨x, y, z⟩ := h
      refine ⟨_, by rw [if_pos (show Rep.dim .Symmetric2D = 4 from rfl), if_neg (by simp [x])], rfl, key _ ?_⟩
      funext m
      fin_cases m <;> simp [cut, stdComponent, mToIj, Matrix.vecMulVec, x, hu, hv] <;> ring_nf
    · exact ⟨_, by rw [if_pos (show Rep.dim .Symmetric2D = 4 from rfl), if_pos (by simp at h; tauto)]⟩

/-- In 2D, the third components of the vectors are ignored: the result is not α u ⊗ v, though that tensor can be represented. -/
theorem C66_dyad_counterexample : ∃ (a r : Tensor2) (u v : Tensor1), Representable a.rep (Matrix.vecMulVec u v) ∧
    t1DyadT1 a 1 u v = ok r ∧ r.std ≠ Matrix.vecMulVec u v := by
  refine ⟨Tensor2.new .Symmetric2D, ⟨.Symmetric2D, fun _ => 0⟩, ![0, 0, 1], ![0, 0, 1],
    (representable_iff _ _).2 (by simp [Matrix.vecMulVec]), ?_, ?_⟩
  · unfold t1DyadT1
    rw [if_pos (by rfl), if_neg (by simp)]
    simp only [Tensor2.new]
    congr 2
    funext m
    fin_cases m <;> simp
  · intro h
    have e := congrFun (congrFun h 2) 2
    rw [std_eq] at e
    simp [cut, mat9, Matrix.vecMulVec] at e

/-- Tensors of different representations (or, for the single dot product, a result that is not general) are refused. -/
theorem C66_mismatch (a b c : Tensor2) (α β tol : ℝ) :
    (b.rep ≠ a.rep → a.transpose b = Res.panic ∧ a.inverse b tol = Res.panic ∧ a.squared b = Res.panic ∧ a.deviator b = Res.panic ∧
      a.decompose b c = Res.panic ∧ a.decompose c b = Res.panic ∧ t2Add c α a β b = Res.panic ∧ t2Add b α a β c = Res.panic ∧
      t2DdotT2 a b = Res.panic ∧ t2DotT2 c a b = Res.panic ∧ a.setTensor α b = Res.panic ∧ a.update α b = Res.panic) ∧
    (c.rep ≠ .General → t2DotT2 c a b = Res.panic) := by
  refine ⟨fun h => ⟨?_, ?_, ?_, ?_, ?_, ?_, ?_, ?_, ?_, ?_, ?_, ?_⟩, fun h => ?_⟩
  · simp [Tensor2.transpose, h]
  · simp [Tensor2.inverse, h]
  · simp [Tensor2.squared, h]
  · simp [Tensor2.deviator, h]
  · simp [Tensor2.decompose, h]
  · simp [Tensor2.decompose, h]
  · simp [t2Add, h]
  · simp [t2Add, h]
  · simp [t2DdotT2, Ne.symm h]
  · simp [t2DotT2, h]
  · simp [Tensor2.setTensor, Ne.symm h]
  · simp [Tensor2.update, Ne.symm h]
  · simp [t2DotT2, h]

theorem C66_tensor1 (u v : Tensor1) : Tensor1.dot u v = u ⬝ᵥ v ∧ Tensor1.dot u (Tensor1.cross u v) = 0 ∧
    Tensor1.dot v (Tensor1.cross u v) = 0 ∧
    Tensor1.dot (Tensor1.cross u v) (Tensor1.cross u v) + Tensor1.dot u v ^ 2 = Tensor1.dot u u * Tensor1.dot v v := by
  refine ⟨?_, ?_, ?_, ?_⟩
  · simp [Tensor1.dot, dotProduct, Fin.sum_univ_three]
  all_goals simp [Tensor1.dot, Tensor1.cross]; ring

/-! ### Cases -/

/-- The tensor of a case. -/
noncomputable def caseTensor (tt : Matrix (Fin 3) (Fin 3) ℝ) (rep : Rep) : Tensor2 := ⟨rep, fun m => stdComponent tt m 0⟩

theorem caseTensor_std (tt : Matrix (Fin 3) (Fin 3) ℝ) (rep : Rep) (h : Representable rep tt) : (caseTensor tt rep).std = tt := by
  obtain ⟨v, hv⟩ := h
  rw [← hv, caseTensor, std_eq, std_eq]
  simp only [stdComponent_mat9, cut_cut]

theorem caseG_std : (caseTensor caseMatrixG .General).std = caseMatrixG :=
  caseTensor_std _ _ ((representable_iff _ _).2 (by simp))

theorem case_std : (caseTensor caseMatrix .Symmetric).std = caseMatrix :=
  caseTensor_std _ _ ((representable_iff _ _).2 (by simp [caseMatrix]))

theorem case2d_std : (caseTensor caseMatrix2d .Symmetric2D).std = caseMatrix2d :=
  caseTensor_std _ _ ((representable_iff _ _).2 (by simp [caseMatrix2d]))

example : (caseTensor caseMatrix .Symmetric).determinant = -1 ∧ (caseTensor caseMatrix2d .Symmetric2D).determinant = 0 ∧
    (caseTensor caseMatrixG .General).determinant = 0 ∧ (caseTensor caseMatrixG .General).trace = 15 := by
  refine ⟨?_, ?_, ?_, ?_⟩
  · rw [C66_determinant, case_std, Matrix.det_fin_three]; simp [caseMatrix]; norm_num
  · rw [C66_determinant, case2d_std, Matrix.det_fin_three]; simp [caseMatrix2d]; norm_num
  · rw [C66_determinant, caseG_std, Matrix.det_fin_three]; simp [caseMatrixG]; norm_num
  · rw [C66_trace, caseG_std, Matrix.trace]; simp [Fin.sum_univ_three, caseMatrixG]; norm_num

/-- The inverse of the symmetric case; the 2D case is singular. -/
example : ∃ r, (caseTensor caseMatrix .Symmetric).inverse (Tensor2.new .Symmetric) 1e-10 = ok (r, some (-1)) ∧
    r.std = !![1, -3, 2; -3, 3, -1; 2, -1, 0] := by
  have hd : (caseTensor caseMatrix .Symmetric).std.det = -1 := by
    rw [case_std, Matrix.det_fin_three]; simp [caseMatrix]; norm_num
  obtain ⟨r, h1, h2, h3, h4⟩ := (C66_inverse (caseTensor caseMatrix .Symmetric) (Tensor2.new .Symmetric) 1e-10 rfl (by norm_num)).1
    (by rw [hd]; norm_num)
  refine ⟨r, by rw [h1, hd], ?_⟩
  have e : caseMatrix * !![1, -3, 2; -3, 3, -1; 2, -1, 0] = 1 := by
    ext i j
    rw [Matrix.mul_apply, Fin.sum_univ_three]
    fin_cases i <;> fin_cases j <;> simp [caseMatrix] <;> norm_num
  rw [case_std] at h4
  calc r.std = r.std * (caseMatrix * !![1, -3, 2; -3, 3, -1; 2, -1, 0]) := by rw [e, mul_one]
    _ = _ := by rw [← mul_assoc, h4, one_mul]

example : (caseTensor caseMatrix2d .Symmetric2D).inverse (Tensor2.new .Symmetric2D) 1e-10 = ok (Tensor2.new .Symmetric2D, none) :=
  (C66_inverse (caseTensor caseMatrix2d .Symmetric2D) (Tensor2.new .Symmetric2D) 1e-10 rfl (by norm_num)).2 (by
    rw [case2d_std, Matrix.det_fin_three]; simp [caseMatrix2d]; try norm_num)

example : ∃ r, t2DotT2 (Tensor2.new .General) (caseTensor caseMatrix .Symmetric) (caseTensor caseMatrix .Symmetric) = ok r ∧
    r.std = caseMatrix * caseMatrix := by
  obtain ⟨r, h1, -, h3⟩ := C66_dot (Tensor2.new .General) (caseTensor caseMatrix .Symmetric) (caseTensor caseMatrix .Symmetric) rfl rfl
  exact ⟨r, h1, by rw [h3, case_std]⟩

example : ∃ r, (caseTensor caseMatrixG .General).squared (Tensor2.new .General) = ok r ∧ r.std 0 1 = 36 := by
  obtain ⟨r, h1, -, h3⟩ := C66_squared (caseTensor caseMatrixG .General) (Tensor2.new .General) rfl
  refine ⟨r, h1, ?_⟩
  rw [h3, caseG_std, Matrix.mul_apply, Fin.sum_univ_three]
  simp [caseMatrixG]; norm_num

example : ∃ s w, (caseTensor caseMatrixG .General).decompose (Tensor2.new .General) (Tensor2.new .General) = ok (s, w) ∧
    s.std 0 1 = 3 ∧ w.std 0 1 = -1 := by
  obtain ⟨s, w, h1, h2, h3⟩ := C66_decompose (caseTensor caseMatrixG .General) (Tensor2.new .General) (Tensor2.new .General) rfl rfl
    (by simp [Tensor2.new])
  refine ⟨s, w, h1, ?_, ?_⟩
  · rw [h2, caseG_std]; simp [caseMatrixG]; norm_num
  · rw [h3, caseG_std]; simp [caseMatrixG]; norm_num

/-- `u ⊗ u` is symmetric, `u ⊗ v` is not. -/
example : (∃ r, t1DyadT1 (Tensor2.new .Symmetric) 2 ![1, 2, 3] ![1, 2, 3] = ok r ∧ r.std 1 2 = 12) ∧
    (∃ msg, t1DyadT1 (Tensor2.new .Symmetric) 2 ![1, 2, 3] ![3, 2, 1] = err msg) ∧
    (∃ r, t1DyadT1 (Tensor2.new .General) 2 ![1, 2, 3] ![3, 2, 1] = ok r ∧ r.std 1 2 = 4) ∧
    (∃ r, t1DyadT1 (Tensor2.new .Symmetric2D) 2 ![1, 2, 0] ![2, 4, 0] = ok r ∧ r.std 0 1 = 8) := by
  refine ⟨?_, ?_, ?_, ?_⟩
  · obtain ⟨r, h1, -, h3⟩ := (C66_dyad (Tensor2.new .Symmetric) 2 ![1, 2, 3] ![1, 2, 3] (by simp [Tensor2.new])).1
      (Or.inr ((vecMulVec_symm _ _).2 (by simp; try norm_num)))
    exact ⟨r, h1, by rw [h3]; simp [Matrix.vecMulVec]; norm_num⟩
  · exact (C66_dyad (Tensor2.new .Symmetric) 2 ![1, 2, 3] ![3, 2, 1] (by simp [Tensor2.new])).2
      (by rw [vecMulVec_symm]; simp [Tensor2.new]; try norm_num)
  · obtain ⟨r, h1, -, h3⟩ := (C66_dyad (Tensor2.new .General) 2 ![1, 2, 3] ![3, 2, 1] (by simp [Tensor2.new])).1 (Or.inl rfl)
    exact ⟨r, h1, by rw [h3]; simp [Matrix.vecMulVec]; norm_num⟩
  · obtain ⟨r, h1, -, h3⟩ := (C66_dyad (Tensor2.new .Symmetric2D) 2 ![1, 2, 0] ![2, 4, 0] (by simp)).1
      (Or.inr ((vecMulVec_symm _ _).2 (by simp; try norm_num)))
    exact ⟨r, h1, by rw [h3]; simp [Matrix.vecMulVec]; norm_num⟩

example : ∃ r, (caseTensor caseMatrix .Symmetric).deviator (Tensor2.new .Symmetric) = ok r ∧ r.std 0 0 = -8 / 3 ∧ r.std 0 1 = 2 := by
  obtain ⟨r, h1, -, h3⟩ := C66_deviator (caseTensor caseMatrix .Symmetric) (Tensor2.new .Symmetric) rfl
  refine ⟨r, h1, ?_, ?_⟩ <;> rw [h3, devOf, case_std, Matrix.trace] <;> simp [Fin.sum_univ_three, caseMatrix]; norm_num

end Russell.Tensor
