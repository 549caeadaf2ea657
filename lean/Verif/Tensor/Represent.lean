import Verif.Tensor.Kelvin

/-!
# C65: the representation of second-order tensors
-/

namespace Russell.Tensor
open Russell Russell.Res

/-- Some components of the representation stand for the matrix. -/
def Representable (rep : Rep) (tt : Matrix (Fin 3) (Fin 3) ℝ) : Prop := ∃ v, Tensor2.std ⟨rep, v⟩ = tt

theorem cut_upto (r : Rep) (f old : Fin 9 → ℝ) : cut r (upto r.dim f old) = cut r f := by
  funext m
  simp only [cut_eq, upto]
  split <;> rfl

theorem cut_byDim (r : Rep) (f old : Fin 9 → ℝ) : cut r (byDim r.dim f old) = cut r f := by
  funext m
  cases r <;> fin_cases m <;> simp [cut, byDim, Rep.dim]

theorem cut_cut (r : Rep) (a : Fin 9 → ℝ) : cut r (cut r a) = cut r a := by
  cases r <;> simp [cut]

theorem stdComponent_mat9 (a : Fin 9 → ℝ) (m : Fin 9) (o : ℝ) : stdComponent (mat9 a) m o = a m := by
  fin_cases m <;> simp [stdComponent, mToIj, mat9] <;> kelvin

theorem mat9_stdComponent (tt : Matrix (Fin 3) (Fin 3) ℝ) (o : Fin 9 → ℝ) : mat9 (fun m => stdComponent tt m (o m)) = tt := by
  ext i j
  fin_cases i <;> fin_cases j <;> simp [stdComponent, mToIj, mat9] <;> kelvin

/-- Symmetric matrices, with zeros in 2D, are those that can be represented. -/
theorem representable_iff (rep : Rep) (tt : Matrix (Fin 3) (Fin 3) ℝ) :
    Representable rep tt ↔ (rep ≠ .General → tt 1 0 = tt 0 1 ∧ tt 2 1 = tt 1 2 ∧ tt 2 0 = tt 0 2) ∧
      (rep = .Symmetric2D → tt 1 2 = 0 ∧ tt 0 2 = 0) := by
  constructor
  · rintro ⟨v, rfl⟩
    rw [std_eq]
    cases rep <;> simp [cut, mat9]
  · intro ⟨h1, h2⟩
    refine ⟨fun m => stdComponent tt m 0, ?_⟩
    rw [std_eq]
    conv_rhs => rw [← mat9_stdComponent tt fun _ => 0]
    congr 1
    funext m
    cases rep
    · rfl
    · obtain ⟨a, b, c⟩ := h1 (by simp)
      fin_cases m <;> simp [cut, stdComponent, mToIj, a, b, c]
    · obtain ⟨a, b, c⟩ := h1 (by simp)
      obtain ⟨d, e⟩ := h2 rfl
      fin_cases m <;> simp [cut, stdComponent, mToIj, a, b, c, d, e]

/-- The standard components determine the Kelvin components in use. -/
theorem C65_unique {t u : Tensor2} (h : t.std = u.std) (hr : t.rep = u.rep) : ∀ m : Fin 9, m.val < t.dim → t.vec m = u.vec m := by
  intro m hm
  rw [Tensor2.dim] at hm
  rw [std_eq, std_eq] at h
  have := congrFun (mat9_inj h) m
  rw [cut_eq, cut_eq, if_pos hm, if_pos (by rw [← hr]; exact hm)] at this
  exact this

/-- `set_std_matrix` accepts exactly the matrices that the representation can hold, and the tensor then is that matrix. -/
theorem C65_set_std_matrix (t : Tensor2) (tt : Matrix (Fin 3) (Fin 3) ℝ) :
    (Representable t.rep tt → ∃ t', t.setStdMatrix tt = ok t' ∧ t'.rep = t.rep ∧ t'.std = tt) ∧
      (¬ Representable t.rep tt → ∃ msg, t.setStdMatrix tt = err msg) := by
  constructor
  · intro h
    have h' := (representable_iff _ _).1 h
    have e : t.setStdMatrix tt = ok { t with vec := upto t.dim (fun m => stdComponent tt m (t.vec m)) t.vec } := by
      unfold Tensor2.setStdMatrix Tensor2.dim
      cases hr : t.rep <;> simp [hr, Rep.dim] at h' ⊢
      · exact h'
      · rw [if_neg (by simp [h']), if_neg (by simp [h'])]
    refine ⟨_, e, rfl, ?_⟩
    obtain ⟨v, hv⟩ := h
    rw [std_eq] at hv
    simp only [std_eq, Tensor2.dim, cut_upto]
    rw [← hv]
    simp only [stdComponent_mat9, cut_cut]
  · intro h
    rw [representable_iff] at h
    unfold Tensor2.setStdMatrix Tensor2.dim
    cases hr : t.rep <;> simp [hr, Rep.dim] at h ⊢
    · exact ⟨_, if_pos (by tauto)⟩
    · by_cases hs : tt 1 0 = tt 0 1 → tt 2 1 = tt 1 2 → ¬tt 2 0 = tt 0 2
      · exact ⟨_, if_pos (by tauto)⟩
      · rw [if_neg (by tauto), if_pos (by tauto)]
        exact ⟨_, rfl⟩

theorem C65_from_std_matrix (rep : Rep) (tt : Matrix (Fin 3) (Fin 3) ℝ) :
    (Representable rep tt → ∃ t, Tensor2.fromStdMatrix tt rep = ok t ∧ t.rep = rep ∧ t.std = tt) ∧
      (¬ Representable rep tt → ∃ msg, Tensor2.fromStdMatrix tt rep = err msg) :=
  C65_set_std_matrix (Tensor2.new rep) tt

/-- `get_std` returns the standard components. -/
theorem C65_get_std (t : Tensor2) (i j : Fin 3) : t.getStd i j = t.std i j := by
  rw [std_eq]
  unfold Tensor2.getStd
  cases t.rep <;> fin_cases i <;> fin_cases j <;> simp [cut, mat9, ijToM, ijToMSym]

/-- `to_std_matrix`: all components for a symmetric or general tensor, and for a 2D tensor if the out-of-plane entries of the given matrix are
zero. -/
theorem C65_to_std_matrix (t : Tensor2) (mat : Matrix (Fin 3) (Fin 3) ℝ)
    (h : t.rep = .Symmetric2D → mat 0 2 = 0 ∧ mat 2 0 = 0 ∧ mat 1 2 = 0 ∧ mat 2 1 = 0) : t.toStdMatrix mat = t.std := by
  have hg := C65_get_std t
  have hs := std_eq t
  unfold Tensor2.toStdMatrix Tensor2.dim
  cases hr : t.rep
  · rw [if_neg (by simp [Rep.dim])]
    ext i j; exact hg i j
  · rw [if_pos (by simp [Rep.dim])]
    have : (List.finRange 9).take (Rep.dim .Symmetric) = [0, 1, 2, 3, 4, 5] := by decide
    rw [this]
    rw [hr] at hs
    ext i j
    fin_cases i <;> fin_cases j <;> simp [Tensor2.toStdBody, mToIj, hg, hs, mat9, cut]
  · rw [if_pos (by simp [Rep.dim])]
    have : (List.finRange 9).take (Rep.dim .Symmetric2D) = [0, 1, 2, 3] := by decide
    rw [this]
    rw [hr] at hs
    obtain ⟨a, b, c, d⟩ := h hr
    ext i j
    fin_cases i <;> fin_cases j <;> simp [Tensor2.toStdBody, mToIj, hg, hs, mat9, cut, a, b, c, d]

theorem C65_as_std_matrix (t : Tensor2) : t.asStdMatrix = t.std := C65_to_std_matrix t 0 (by simp)

/-- The code keeps the out-of-plane entries of the given matrix: the result for a 2D tensor is not the matrix of the tensor. -/
theorem C65_to_std_matrix_counterexample : ∃ (t : Tensor2) (mat : Matrix (Fin 3) (Fin 3) ℝ), t.toStdMatrix mat ≠ t.std := by
  refine ⟨Tensor2.new .Symmetric2D, Matrix.of fun _ _ => 1, fun h => ?_⟩
  have := congrFun (congrFun h 0) 2
  rw [std_eq] at this
  have e : (List.finRange 9).take 4 = [0, 1, 2, 3] := by decide
  simp [Tensor2.toStdMatrix, Tensor2.dim, Tensor2.new, e, Rep.dim, Tensor2.toStdBody, mToIj, cut, mat9] at this

/-- `as_std_matrix_2d`: the component 22 and the in-plane components. -/
theorem C65_as_std_matrix_2d (t : Tensor2) (h : t.rep = .Symmetric2D) :
    t.asStdMatrix2d = ok (t.std 2 2, !![t.std 0 0, t.std 0 1; t.std 1 0, t.std 1 1]) := by
  simp [Tensor2.asStdMatrix2d, h, C65_get_std]

/-- `as_general` is the same tensor, in general representation. -/
theorem C65_as_general (t : Tensor2) : t.asGeneral.rep = .General ∧ t.asGeneral.std = t.std := by
  refine ⟨rfl, ?_⟩
  rw [std_eq, std_eq]
  unfold Tensor2.asGeneral Tensor2.dim
  cases t.rep <;> simp [cut, Rep.dim]
  congr 1
  funext m
  fin_cases m <;> rfl

theorem C65_sym2d_as_symmetric (t : Tensor2) (h : t.rep = .Symmetric2D) :
    ∃ t', t.sym2dAsSymmetric = ok t' ∧ t'.rep = .Symmetric ∧ t'.std = t.std := by
  refine ⟨_, by simp only [Tensor2.sym2dAsSymmetric, h]; rfl, rfl, ?_⟩
  rw [std_eq, std_eq, h]
  simp [cut]

theorem C65_identity (rep : Rep) : (Tensor2.identity rep).std = 1 := by
  rw [std_eq]
  ext i j
  cases rep <;> fin_cases i <;> fin_cases j <;> simp [Tensor2.identity, cut, mat9]

theorem C65_clear (t : Tensor2) : t.clear.rep = t.rep ∧ t.clear.std = 0 := by
  refine ⟨rfl, ?_⟩
  simp [Tensor2.clear, Tensor2.std]

/-- The component is one of the representation: in 2D, the components 02 and 12 are not. -/
def InPlane (rep : Rep) (i j : Fin 3) : Prop := rep = .Symmetric2D → i = j ∨ (i ≠ 2 ∧ j ≠ 2)

/-- `sym_set_std` sets the components `ij` and `ji`, and no other. -/
theorem C65_sym_set_std (t : Tensor2) (i j : Fin 3) (value : ℝ) (h : t.rep ≠ .General) (hp : InPlane t.rep i j) :
    ∃ t', t.symSetStd i j value = ok t' ∧ t'.rep = t.rep ∧
      t'.std = Matrix.of fun r c => if (r = i ∧ c = j) ∨ (r = j ∧ c = i) then value else t.std r c := by
  refine ⟨_, by simp only [Tensor2.symSetStd, h]; rfl, by split <;> rfl, ?_⟩
  rw [std_eq, std_eq]
  have hs := sq2_ne
  obtain ⟨r, v⟩ := t
  cases r
  · exact absurd rfl h
  all_goals
    ext r c
    fin_cases i <;> fin_cases j <;> first
      | (simp [InPlane] at hp; done)
      | (fin_cases r <;> fin_cases c <;> simp [Tensor2.set, cut, mat9, ijToMSym, hs])

/-- `sym_add_std` adds to the components `ij` and `ji`, and to no other. -/
theorem C65_sym_add_std (t : Tensor2) (i j : Fin 3) (alpha value : ℝ) (h : t.rep ≠ .General) (hp : InPlane t.rep i j) (hij : i ≤ j) :
    ∃ t', t.symAddStd i j alpha value = ok t' ∧ t'.rep = t.rep ∧
      t'.std = Matrix.of fun r c => if (r = i ∧ c = j) ∨ (r = j ∧ c = i) then t.std r c + alpha * value else t.std r c := by
  refine ⟨_, by simp only [Tensor2.symAddStd, h, hij]; rfl, by split <;> rfl, ?_⟩
  rw [std_eq, std_eq]
  have hs := sq2_ne
  obtain ⟨r, v⟩ := t
  cases r
  · exact absurd rfl h
  all_goals
    ext r c
    fin_cases i <;> fin_cases j <;> first
      | (simp [InPlane] at hp; done)
      | (simp at hij; done)
      | (fin_cases r <;> fin_cases c <;> simp [Tensor2.set, cut, mat9, ijToMSym, hs, add_div, mul_div_assoc])

/-- The components that a 2D tensor does not have are accepted by `sym_set_std`, and the value is lost. -/
theorem C65_sym_set_std_counterexample : ∃ (t t' : Tensor2), t.symSetStd 0 2 1 = ok t' ∧ t'.std 0 2 ≠ 1 := by
  refine ⟨Tensor2.new .Symmetric2D, _, rfl, ?_⟩
  rw [std_eq]
  simp [Tensor2.set, Tensor2.new, cut, mat9]

theorem mat9_smul (c : ℝ) (a : Fin 9 → ℝ) : mat9 (fun m => c * a m) = c • mat9 a := by
  ext i j
  fin_cases i <;> fin_cases j <;> simp [mat9] <;> ring

theorem mat9_add (a b : Fin 9 → ℝ) : mat9 (fun m => a m + b m) = mat9 a + mat9 b := by
  ext i j
  fin_cases i <;> fin_cases j <;> simp [mat9] <;> ring

theorem cut_map (r : Rep) (f : ℝ → ℝ) (h : f 0 = 0) (a : Fin 9 → ℝ) : cut r (fun m => f (a m)) = fun m => f (cut r a m) := by
  funext m
  simp only [cut_eq]
  split <;> simp [h]

theorem cut_map₂ (r : Rep) (f : ℝ → ℝ → ℝ) (h : f 0 0 = 0) (a b : Fin 9 → ℝ) :
    cut r (fun m => f (a m) (b m)) = fun m => f (cut r a m) (cut r b m) := by
  funext m
  simp only [cut_eq]
  split <;> simp [h]

/-- `set_vector`: α times the given Kelvin components. -/
theorem C65_set_vector (t : Tensor2) (alpha : ℝ) (other : List ℝ) (h : other.length = t.dim) :
    ∃ t', t.setVector alpha other = ok t' ∧ t'.rep = t.rep ∧
      t'.std = alpha • ∑ m : Fin 9, other.getD m 0 • basis m := by
  refine ⟨_, by unfold Tensor2.setVector; exact if_neg (by simp [h]), by rfl, ?_⟩
  rw [std_eq, basis_sum]
  simp only [Tensor2.dim, cut_byDim]
  rw [← mat9_smul]
  congr 1
  funext m
  rw [cut_eq]
  split
  · rfl
  · rename_i hm
    have : other.getD m.val 0 = 0 := by
      rw [List.getD, List.getElem?_eq_none (by rw [h]; exact not_lt.1 hm)]; rfl
    rw [this, mul_zero]

/-- `set_tensor`: α times the other tensor. -/
theorem C65_set_tensor (t other : Tensor2) (alpha : ℝ) (h : t.rep = other.rep) :
    ∃ t', t.setTensor alpha other = ok t' ∧ t'.rep = t.rep ∧ t'.std = alpha • other.std := by
  refine ⟨_, by unfold Tensor2.setTensor; exact if_neg (by simp [h]), by rfl, ?_⟩
  rw [std_eq, std_eq]
  simp only [Tensor2.dim, cut_byDim, cut_map _ (alpha * ·) (mul_zero _), mat9_smul, h]

/-- `update`: α times the other tensor is added. -/
theorem C65_update (t other : Tensor2) (alpha : ℝ) (h : t.rep = other.rep) :
    ∃ t', t.update alpha other = ok t' ∧ t'.rep = t.rep ∧ t'.std = t.std + alpha • other.std := by
  refine ⟨_, by unfold Tensor2.update; exact if_neg (by simp [h]), by rfl, ?_⟩
  rw [std_eq, std_eq, std_eq]
  simp only [Tensor2.dim, cut_byDim, cut_map₂ _ (fun x y => x + alpha * y) (by simp), mat9_add, mat9_smul, h]

/-! ### Cases -/

/-- A symmetric matrix that is not in a plane. -/
def caseMatrix : Matrix (Fin 3) (Fin 3) ℝ := !![1, 2, 3; 2, 4, 5; 3, 5, 6]

/-- A symmetric matrix in a plane. -/
def caseMatrix2d : Matrix (Fin 3) (Fin 3) ℝ := !![1, 2, 0; 2, 4, 0; 0, 0, 6]

/-- A matrix that is not symmetric. -/
def caseMatrixG : Matrix (Fin 3) (Fin 3) ℝ := !![1, 2, 3; 4, 5, 6; 7, 8, 9]

example : ∃ t, Tensor2.fromStdMatrix caseMatrix .Symmetric = ok t ∧ t.rep = .Symmetric ∧ t.std = caseMatrix :=
  (C65_from_std_matrix _ _).1 ((representable_iff _ _).2 (by simp [caseMatrix]))

example : ∃ msg, Tensor2.fromStdMatrix caseMatrix .Symmetric2D = err msg :=
  (C65_from_std_matrix _ _).2 (fun h => by have := (representable_iff _ _).1 h; simp [caseMatrix] at this)

example : ∃ msg, (Tensor2.identity .Symmetric).setStdMatrix caseMatrixG = err msg :=
  (C65_set_std_matrix _ _).2 (fun h => by have := (representable_iff _ _).1 h; exact absurd (this.1 (by simp [Tensor2.identity])).1 (by norm_num [caseMatrixG]))

/-- The tensor of the 2D case. -/
example : ∃ t, Tensor2.fromStdMatrix caseMatrix2d .Symmetric2D = ok t ∧ t.getStd 0 1 = 2 ∧ t.getStd 1 2 = 0 ∧
    t.asStdMatrix2d = ok (6, !![1, 2; 2, 4]) ∧ (∃ u, t.sym2dAsSymmetric = ok u ∧ u.rep = .Symmetric ∧ u.std = caseMatrix2d) ∧
    ∃ v, t.symSetStd 0 1 7 = ok v ∧ v.std = !![1, 7, 0; 7, 4, 0; 0, 0, 6] := by
  obtain ⟨t, ht, hr, hs⟩ := (C65_from_std_matrix .Symmetric2D caseMatrix2d).1 ((representable_iff _ _).2 (by simp [caseMatrix2d]))
  refine ⟨t, ht, by simp [C65_get_std, hs, caseMatrix2d], by simp [C65_get_std, hs, caseMatrix2d], ?_, ?_, ?_⟩
  · rw [C65_as_std_matrix_2d t hr, hs]; simp [caseMatrix2d]
  · obtain ⟨u, h1, h2, h3⟩ := C65_sym2d_as_symmetric t hr
    exact ⟨u, h1, h2, by rw [h3, hs]⟩
  · obtain ⟨v, h1, h2, h3⟩ := C65_sym_set_std t 0 1 7 (by simp [hr]) (by simp [InPlane])
    refine ⟨v, h1, ?_⟩
    rw [h3, hs]
    ext i j
    fin_cases i <;> fin_cases j <;> simp [caseMatrix2d]

/-- `2 I + 3 (I + e01 + e10)`, and a component added. -/
example : ∃ a b c d, Tensor2.fromStdMatrix !![1, 1, 0; 1, 1, 0; 0, 0, 1] .Symmetric = ok a ∧
    (Tensor2.new .Symmetric).setTensor 2 (Tensor2.identity .Symmetric) = ok b ∧ b.update 3 a = ok c ∧ c.symAddStd 0 2 2 (-1) = ok d ∧
    d.std = !![5, 3, -2; 3, 5, 0; -2, 0, 5] := by
  obtain ⟨a, h1, h2, h3⟩ := (C65_from_std_matrix .Symmetric !![1, 1, 0; 1, 1, 0; 0, 0, 1]).1
    ((representable_iff _ _).2 (by simp))
  obtain ⟨b, g1, g2, g3⟩ := C65_set_tensor (Tensor2.new .Symmetric) (Tensor2.identity .Symmetric) 2 rfl
  have hb : b.rep = .Symmetric := g2
  obtain ⟨c, f1, f2, f3⟩ := C65_update b a 3 (by rw [h2, hb])
  obtain ⟨d, e1, e2, e3⟩ := C65_sym_add_std c 0 2 2 (-1) (by simp [f2, hb]) (by simp [InPlane, f2, hb]) (by decide)
  refine ⟨a, b, c, d, h1, g1, f1, e1, ?_⟩
  rw [e3, f3, g3, h3, C65_identity]
  ext i j
  fin_cases i <;> fin_cases j <;> simp <;> norm_num

example : ∃ t, (Tensor2.new .Symmetric2D).setVector 2 [1, 2, 3, √2] = ok t ∧ t.std = !![2, 2, 0; 2, 4, 0; 0, 0, 6] := by
  obtain ⟨t, h1, -, h3⟩ := C65_set_vector (Tensor2.new .Symmetric2D) 2 [1, 2, 3, √2] rfl
  refine ⟨t, h1, ?_⟩
  rw [h3, basis_sum]
  ext i j
  fin_cases i <;> fin_cases j <;> simp [mat9, SQRT_2] <;> norm_num

end Russell.Tensor
