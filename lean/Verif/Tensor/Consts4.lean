import Verif.Tensor.Represent4
import Verif.Lab.SmallAccept

namespace Russell.Tensor
open Russell Russell.Res

/-! ### Constant tensors (C69)

Each constant tensor is stated by its action on all 3×3 matrices, which determines its components (`contr_inj`). -/

theorem contr_of {t : Tensor4} {A B : Matrix (Fin 3) (Fin 3) ℝ} (h : ∀ m, ∑ n, cut2 t.rep t.mat m n * comp A n = comp B m) :
    contr t.std A = B := by
  rw [contr_std, funext h, mat9_comp]

theorem C69_constant_ii (A : Matrix (Fin 3) (Fin 3) ℝ) : contr Tensor4.constantIi.std A = A := by
  apply contr_of
  intro m
  rw [comp_explicit]
  fin_cases m <;> simp [Fin.sum_univ_succ, cut2, Tensor4.constantIi, Tensor4.set, Tensor4.new, Rep.dim, List.finRange_succ]

theorem C69_constant_tt (A : Matrix (Fin 3) (Fin 3) ℝ) : contr Tensor4.constantTt.std A = A.transpose := by
  apply contr_of
  intro m
  rw [comp_explicit, comp_explicit]
  fin_cases m <;> simp [Fin.sum_univ_succ, cut2, Tensor4.constantTt, Tensor4.sets, Tensor4.set, Tensor4.new, Rep.dim] <;> ring

theorem C69_constant_jj (b : Bool) (A : Matrix (Fin 3) (Fin 3) ℝ) : contr (Tensor4.constantJj b).std A = A.trace • 1 := by
  apply contr_of
  intro m
  rw [comp_explicit, comp_explicit]
  cases b <;> fin_cases m <;> simp [Fin.sum_univ_succ, cut2, Tensor4.constantJj, Tensor4.sets, Tensor4.set, Tensor4.new, Rep.dim, Matrix.trace] <;> ring

theorem C69_constant_pp_iso (b : Bool) (A : Matrix (Fin 3) (Fin 3) ℝ) : contr (Tensor4.constantPpIso b).std A = (A.trace / 3) • 1 := by
  apply contr_of
  intro m
  rw [comp_explicit, comp_explicit]
  cases b <;> fin_cases m <;> simp [Fin.sum_univ_succ, cut2, Tensor4.constantPpIso, Tensor4.sets, Tensor4.set, Tensor4.new, Rep.dim, Matrix.trace] <;> ring

theorem C69_constant_pp_sym (b : Bool) (A : Matrix (Fin 3) (Fin 3) ℝ) :
    contr (Tensor4.constantPpSym b).std A = (1 / 2 : ℝ) • (A + A.transpose) := by
  apply contr_of
  intro m
  rw [comp_explicit, comp_explicit]
  cases b <;> fin_cases m <;> simp [Fin.sum_univ_succ, cut2, Tensor4.constantPpSym, Tensor4.sets, Tensor4.set, Tensor4.new, Rep.dim] <;> ring

theorem C69_constant_pp_skew (A : Matrix (Fin 3) (Fin 3) ℝ) :
    contr Tensor4.constantPpSkew.std A = (1 / 2 : ℝ) • (A - A.transpose) := by
  apply contr_of
  intro m
  rw [comp_explicit, comp_explicit]
  fin_cases m <;> simp [Fin.sum_univ_succ, cut2, Tensor4.constantPpSkew, Tensor4.sets, Tensor4.set, Tensor4.new, Rep.dim] <;> ring

theorem C69_constant_pp_dev (A : Matrix (Fin 3) (Fin 3) ℝ) :
    contr Tensor4.constantPpDev.std A = A - (A.trace / 3) • 1 := by
  apply contr_of
  intro m
  rw [comp_explicit, comp_explicit]
  fin_cases m <;> simp [Fin.sum_univ_succ, cut2, Tensor4.constantPpDev, Tensor4.sets, Tensor4.set, Tensor4.new, Rep.dim, Matrix.trace] <;> ring

theorem C69_constant_pp_symdev (b : Bool) (A : Matrix (Fin 3) (Fin 3) ℝ) :
    contr (Tensor4.constantPpSymdev b).std A = (1 / 2 : ℝ) • (A + A.transpose) - (A.trace / 3) • 1 := by
  apply contr_of
  intro m
  rw [comp_explicit, comp_explicit]
  cases b <;> fin_cases m <;>
    simp [Fin.sum_univ_succ, cut2, Tensor4.constantPpSymdev, Tensor4.sets, Tensor4.set, Tensor4.new, Rep.dim, Matrix.trace] <;> ring

/-- `set_pp_symdev` forgets what the tensor was; in 2D the statement is about the matrices of the plane. -/
theorem C69_set_pp_symdev (t : Tensor4) (A : Matrix (Fin 3) (Fin 3) ℝ) (h : ∀ i j, ¬ InPlane t.rep i j → A i j = 0) :
    t.setPpSymdev.rep = t.rep ∧ contr t.setPpSymdev.std A = (1 / 2 : ℝ) • (A + A.transpose) - (A.trace / 3) • 1 := by
  refine ⟨by cases hr : t.rep <;> simp [Tensor4.setPpSymdev, Tensor4.dim, Tensor4.sets, Tensor4.set, hr, Rep.dim], ?_⟩
  apply contr_of
  intro m
  rw [comp_explicit, comp_explicit]
  obtain ⟨r, f, u⟩ := t
  cases r
  · fin_cases m <;>
      simp [Fin.sum_univ_succ, cut2, Tensor4.setPpSymdev, upto2, Tensor4.sets, Tensor4.set, Tensor4.dim, Rep.dim, Matrix.trace] <;> ring
  · fin_cases m <;>
      simp [Fin.sum_univ_succ, cut2, Tensor4.setPpSymdev, upto2, Tensor4.sets, Tensor4.set, Tensor4.dim, Rep.dim, Matrix.trace] <;> ring
  · have h02 := h 0 2 (by simp [InPlane])
    have h20 := h 2 0 (by simp [InPlane])
    have h12 := h 1 2 (by simp [InPlane])
    have h21 := h 2 1 (by simp [InPlane])
    fin_cases m <;>
      simp [Fin.sum_univ_succ, cut2, Tensor4.setPpSymdev, upto2, Tensor4.sets, Tensor4.set, Tensor4.dim, Rep.dim, Matrix.trace, h02, h20, h12, h21] <;> ring

/-! ### Inverse -/

theorem arr_fin (f : Fin 9 → Fin 9 → ℝ) (m n : Fin 9) : arr f m n = f m n := by simp [arr, m.2, n.2]

/-- Product of the matrices of two tensors over the first `d` indices. -/
theorem sum_block (r : Rep) (f : Fin 9 → Fin 9 → ℝ) (g : Lab.Arr2 ℝ) (H : Lab.blockOf r.dim (arr f) * Lab.blockOf r.dim g = 1) (m n : Fin 9) :
    ∑ p, cut2 r f m p * cut2 r (fun m n => g m n) p n = if m = n ∧ m.val < r.dim then 1 else 0 := by
  have h9 : r.dim ≤ 9 := by cases r <;> simp [Rep.dim]
  by_cases hm : m.val < r.dim <;> by_cases hn : n.val < r.dim
  · have := congrFun (congrFun H ⟨m, hm⟩) ⟨n, hn⟩
    rw [Matrix.mul_apply, Matrix.one_apply] at this
    simp only [Lab.blockOf, Fin.mk.injEq, Fin.val_inj] at this
    simp only [hm, and_true]
    rw [← this]
    have e1 : ∑ p : Fin 9, cut2 r f m p * cut2 r (fun m n => g m n) p n =
        ∑ p ∈ Finset.range 9, if p < r.dim then arr f m p * g p n else 0 := by
      rw [← Fin.sum_univ_eq_sum_range (fun p => if p < r.dim then arr f m p * g p n else 0)]
      refine Finset.sum_congr rfl fun p _ => ?_
      simp only [cut2, hm, hn, true_and, and_true, arr_fin]
      split <;> simp
    have e2 : ∑ p : Fin r.dim, arr f m p * g p n = ∑ p ∈ Finset.range r.dim, arr f m p * g p n :=
      Fin.sum_univ_eq_sum_range (fun p => arr f m p * g p n) r.dim
    rw [e1, e2, ← Finset.sum_filter]
    congr 1
    ext p
    simp only [Finset.mem_filter, Finset.mem_range]
    omega
  · rw [if_neg (by rintro ⟨rfl, _⟩; exact hn hm)]
    exact Finset.sum_eq_zero fun p _ => by simp [cut2, hn]
  all_goals
    rw [if_neg (by tauto)]
    exact Finset.sum_eq_zero fun p _ => by simp [cut2, hm]

theorem contr_inverse (r : Rep) (f g : Fin 9 → Fin 9 → ℝ) (u v : Bool) (h : ∀ m n, ∑ p, cut2 r f m p * cut2 r g p n = if m = n ∧ m.val < r.dim then 1 else 0)
    (A : Matrix (Fin 3) (Fin 3) ℝ) (hA : Representable r A) : contr (Tensor4.mk r f u).std (contr (Tensor4.mk r g v).std A) = A := by
  obtain ⟨w, rfl⟩ := hA
  rw [std_eq, std4_eq, std4_eq, contr_mat99, contr_mat99]
  congr 1
  funext m
  simp only [Finset.mul_sum]
  rw [Finset.sum_comm]
  simp only [← mul_assoc, ← Finset.sum_mul, h]
  by_cases hm : m.val < r.dim
  · simp only [hm, and_true, ite_mul, one_mul, zero_mul, Finset.sum_ite_eq, Finset.mem_univ, if_true]
  · simp [hm, cut_eq]

/-- `calc_inverse` refuses the tensor, or gives its two-sided inverse on the tensors of the representation, and the determinant of the
coefficient matrix. -/
theorem C69_calc_inverse (t inv : Tensor4) (h : inv.rep = t.rep) :
    t.calcInverse inv = err "matrix is singular" ∨
      ∃ det inv', t.calcInverse inv = ok (det, inv') ∧ inv'.rep = t.rep ∧ det = (Lab.blockOf t.dim (arr t.mat)).det ∧ det ≠ 0 ∧
        ∀ A, Representable t.rep A → contr t.std (contr inv'.std A) = A ∧ contr inv'.std (contr t.std A) = A := by
  have h9 : t.dim ≤ 9 := by rw [Tensor4.dim]; cases t.rep <;> simp [Rep.dim]
  rw [Tensor4.calcInverse, if_neg (by simp [h])]
  rcases Lab.C26_small_mat_inv h9 (tol := (1e-15 : ℝ)) (by norm_num) (arr inv.mat) (arr t.mat) with e | ⟨det, ai, e, h1, h2, h3⟩
  · left
    rw [e]
    rfl
  · right
    refine ⟨det, ⟨inv.rep, fun m n => ai m n, inv.useLoops⟩, by rw [e]; rfl, h, h3, ?_, fun A hA => ?_⟩
    · rw [h3]
      intro h0
      have := congrArg Matrix.det h1
      rw [Matrix.det_mul, h0, zero_mul, Matrix.det_one] at this
      exact zero_ne_one this
    · have k1 := sum_block t.rep t.mat ai h1
      have e0 : arr (fun m n => ai m n) = fun m n => if m < 9 ∧ n < 9 then ai m n else 0 := by
        funext m n
        simp only [arr]
        split <;> rfl
      have hb : ∀ f : Lab.Arr2 ℝ, Lab.blockOf t.rep.dim (fun m n => if m < 9 ∧ n < 9 then f m n else 0) = Lab.blockOf t.rep.dim f := by
        intro f
        funext i j
        have := i.2
        have := j.2
        rw [Tensor4.dim] at h9
        exact if_pos ⟨by omega, by omega⟩
      have k2 := sum_block t.rep (fun m n => ai m n) (arr t.mat) (by rw [e0, hb]; exact h2)
      simp only [arr_fin] at k2
      obtain ⟨r, f, u⟩ := t
      simp only at h
      subst h
      exact ⟨contr_inverse _ _ _ _ _ k1 A hA, contr_inverse _ _ _ _ _ k2 A hA⟩

theorem sum_range_fin (d : Nat) (h9 : d ≤ 9) (F : Nat → ℝ) : ∑ k ∈ Finset.range d, F k = ∑ p : Fin 9, if p.val < d then F p else 0 := by
  rw [Fin.sum_univ_eq_sum_range (fun p => if p < d then F p else 0), ← Finset.sum_filter]
  congr 1
  ext p
  simp only [Finset.mem_filter, Finset.mem_range]
  omega

/-- A tensor with an inverse `c` is accepted, and `c` is the result, if the absolute row sums of the coefficients of `c` are below 10¹⁵. -/
theorem C69_calc_inverse_accepts (t inv c : Tensor4) (h : inv.rep = t.rep) (hc : c.rep = t.rep)
    (hi : ∀ A, Representable t.rep A → contr c.std (contr t.std A) = A)
    (hs : ∀ m : Fin 9, m.val < t.dim → (∑ n : Fin 9, if n.val < t.dim then |c.mat m n| else 0) * 1e-15 < 1) :
    ∃ det inv', t.calcInverse inv = ok (det, inv') ∧ inv'.rep = t.rep ∧ inv'.std = c.std := by
  have h9 : t.dim ≤ 9 := by rw [Tensor4.dim]; cases t.rep <;> simp [Rep.dim]
  have h4 : 4 ≤ t.dim := by rw [Tensor4.dim]; cases t.rep <;> simp [Rep.dim]
  have key : ∀ m n : Fin 9, m.val < t.dim → n.val < t.dim → ∑ p, cut2 t.rep c.mat m p * cut2 t.rep t.mat p n = if m = n then 1 else 0 := by
    intro m n hm hn
    have hv : cut t.rep (fun q => if q = n then 1 else 0) = fun q => if q = n then (1 : ℝ) else 0 := by
      funext q
      rw [cut_eq]
      by_cases hq : q = n
      · rw [if_pos (by rw [hq]; exact hn)]
      · simp [hq]
    have := hi (mat9 fun q => if q = n then 1 else 0) ⟨fun q => if q = n then 1 else 0, by rw [std_eq]; simp only; rw [hv]⟩
    rw [std4_eq, std4_eq, contr_mat99, contr_mat99, hc] at this
    have := congrFun (mat9_inj this) m
    simpa using this
  obtain ⟨ai', e1, e2⟩ := Lab.C26_accepts h9 h4 (tol := (1e-15 : ℝ)) (by norm_num) (arr inv.mat) (arr t.mat) (Lab.blockOf t.dim (arr c.mat)) (by
    ext i j
    have := key ⟨i, by omega⟩ ⟨j, by omega⟩ i.2 j.2
    rw [Matrix.mul_apply, Matrix.one_apply]
    simp only [Fin.mk.injEq, Fin.val_inj] at this
    simp only [Lab.blockOf]
    rw [← this, ← Finset.sum_range (fun p => arr c.mat i p * arr t.mat p j), sum_range_fin t.dim h9]
    refine Finset.sum_congr rfl fun p _ => ?_
    have hi' : i.val < t.rep.dim := i.2
    have hj' : j.val < t.rep.dim := j.2
    simp only [cut2, Tensor4.dim, hi', hj', true_and, and_true]
    by_cases hp : p.val < t.rep.dim
    · simp only [hp, if_true]
      exact congrArg₂ (· * ·) (arr_fin c.mat ⟨i, by omega⟩ p) (arr_fin t.mat p ⟨j, by omega⟩)
    · simp [hp]) (fun i => by
    have := hs ⟨i, by omega⟩ i.2
    refine lt_of_eq_of_lt ?_ this
    congr 1
    simp only [Lab.blockOf]
    rw [← Finset.sum_range (fun p => |arr c.mat i p|), sum_range_fin t.dim h9]
    refine Finset.sum_congr rfl fun p _ => ?_
    rw [← arr_fin c.mat ⟨i, by omega⟩ p])
  refine ⟨_, ⟨inv.rep, fun m n => ai' m n, inv.useLoops⟩, by rw [Tensor4.calcInverse, if_neg (by simp [h]), e1]; rfl, h, ?_⟩
  rw [std4_eq, std4_eq]
  congr 1
  funext m n
  simp only [cut2, h, hc]
  split
  · next hmn =>
    have := congrFun (congrFun e2 ⟨m, hmn.1⟩) ⟨n, hmn.2⟩
    simp only [Lab.blockOf] at this
    rw [this, arr_fin]
  · rfl

/-- A tensor that is not invertible is refused. -/
theorem C69_calc_inverse_singular (t inv : Tensor4) (h : inv.rep = t.rep) (A : Matrix (Fin 3) (Fin 3) ℝ) (hA : Representable t.rep A) (h0 : A ≠ 0)
    (hs : contr t.std A = 0) : t.calcInverse inv = err "matrix is singular" := by
  rcases C69_calc_inverse t inv h with e | ⟨det, inv', -, -, -, -, hi⟩
  · exact e
  · have := (hi A hA).2
    rw [hs] at this
    refine absurd ?_ h0
    rw [← this]
    ext i j
    simp [contr]

theorem C69_calc_inverse_mismatch (t inv : Tensor4) (h : inv.rep ≠ t.rep) :
    t.calcInverse inv = err "the representation of the inverse tensor and this tensor must equal each other" := if_pos h

/-! ### Refusals and cases -/

theorem C69_update_mismatch (t other : Tensor4) (alpha : ℝ) (h : t.rep ≠ other.rep) : t.update alpha other = panic ∧ t.setTensor alpha other = panic := by
  simp [Tensor4.update, Tensor4.setTensor, h, Ne.symm h]

theorem C69_sym_set_std_general (t : Tensor4) (i j k l : Fin 3) (value : ℝ) (h : t.rep = .General) : t.symSetStd i j k l value = panic := if_pos h

/-- In 2D a component out of the plane is accepted and lost. -/
theorem C69_sym_set_std_counterexample : ∃ (t t' : Tensor4) (value : ℝ), t.symSetStd 0 2 0 0 value = ok t' ∧ t'.std 0 2 0 0 ≠ value := by
  have e : (Tensor4.new .Symmetric2D).symSetStd 0 2 0 0 1 = ok ((Tensor4.new .Symmetric2D).set 5 0 (1 * SQRT_2)) := by
    simp [Tensor4.symSetStd, Tensor4.new, ijklToMnSym]
  refine ⟨_, _, 1, e, ?_⟩
  rw [← C69_get_std]
  simp [Tensor4.getStd, Tensor4.set, Tensor4.new, ijklToMnSym]

/-- `C69_calc_inverse_accepts`: the identity tensor is accepted, and is its own inverse. -/
example (inv : Tensor4) (h : inv.rep = .General) : ∃ det inv', Tensor4.constantIi.calcInverse inv = ok (det, inv') ∧
    inv'.std = Tensor4.constantIi.std := by
  have hr : Tensor4.constantIi.rep = .General := by simp [Tensor4.constantIi, Tensor4.set, Tensor4.new, List.finRange_succ]
  obtain ⟨det, inv', h1, -, h3⟩ := C69_calc_inverse_accepts Tensor4.constantIi inv Tensor4.constantIi (by rw [h, hr]) rfl
    (fun A _ => by rw [C69_constant_ii, C69_constant_ii]) (fun m _ => by
      fin_cases m <;>
        (simp [Fin.sum_univ_succ, Tensor4.constantIi, Tensor4.set, Tensor4.new, List.finRange_succ, Tensor4.dim, Rep.dim]; norm_num))
  exact ⟨det, inv', h1, h3⟩

/-- `C69_calc_inverse_singular`: the deviator of the identity is zero. -/
example (inv : Tensor4) (h : inv.rep = .General) : Tensor4.constantPpDev.calcInverse inv = err "matrix is singular" := by
  have hr : Tensor4.constantPpDev.rep = .General := by simp [Tensor4.constantPpDev, Tensor4.sets, Tensor4.set, Tensor4.new]
  refine C69_calc_inverse_singular _ _ (by rw [h, hr]) 1 ?_ one_ne_zero ?_
  · rw [hr, representable_iff]
    simp [InPlane]
  · rw [C69_constant_pp_dev]
    ext i j
    fin_cases i <;> fin_cases j <;> simp [Matrix.trace, Fin.sum_univ_succ] <;> norm_num

/-- `C69_update`, `C69_set_tensor`: 2 · I + 3 · T on a matrix. -/
example : ∃ t t', (Tensor4.new .General).setTensor 2 Tensor4.constantIi = ok t ∧ t.update 3 Tensor4.constantTt = ok t' ∧
    contr t'.std !![0, 1, 0; 0, 0, 0; 0, 0, 0] = !![0, 2, 0; 3, 0, 0; 0, 0, 0] := by
  have h1 : Tensor4.constantIi.rep = .General := by simp [Tensor4.constantIi, Tensor4.set, Tensor4.new, List.finRange_succ]
  have h2 : Tensor4.constantTt.rep = .General := by simp [Tensor4.constantTt, Tensor4.sets, Tensor4.set, Tensor4.new]
  obtain ⟨t, e, hr, hs⟩ := C69_set_tensor (Tensor4.new .General) Tensor4.constantIi 2 (by rw [h1]; rfl)
  obtain ⟨t', e', -, hs'⟩ := C69_update t Tensor4.constantTt 3 (by rw [h2, hr]; rfl)
  refine ⟨t, t', e, e', ?_⟩
  have h3 : ∀ A, contr t'.std A = (2 : ℝ) • contr Tensor4.constantIi.std A + (3 : ℝ) • contr Tensor4.constantTt.std A := by
    intro A
    ext i j
    simp only [contr, hs', hs, Matrix.of_apply, Matrix.add_apply, Matrix.smul_apply, smul_eq_mul, Finset.mul_sum, ← Finset.sum_add_distrib]
    exact Finset.sum_congr rfl fun k _ => Finset.sum_congr rfl fun l _ => by ring
  rw [h3, C69_constant_ii, C69_constant_tt]
  ext i j
  fin_cases i <;> fin_cases j <;> simp

/-- `C69_sym_set_std` in the plane. -/
example : ∃ t', (Tensor4.new .Symmetric2D).symSetStd 0 1 2 2 7 = ok t' ∧ t'.std 1 0 2 2 = 7 ∧ t'.std 0 0 2 2 = 0 := by
  obtain ⟨t', e, -, h⟩ := C69_sym_set_std (Tensor4.new .Symmetric2D) 0 1 2 2 7 (by simp [Tensor4.new]) (by simp [InPlane]) (by simp [InPlane])
  refine ⟨t', e, by rw [h]; simp, ?_⟩
  rw [h, if_neg (by simp), ← C69_get_std]
  simp [Tensor4.getStd, Tensor4.new, ijklToMnSym]

/-- `C69_to_std_array` for an array of zeros, and `C69_set_pp_symdev` in 2D. -/
example (t : Tensor4) (h : t.rep = .Symmetric2D) :
    contr t.setPpSymdev.asStdArray !![3, 1, 0; 1, 0, 0; 0, 0, 0] = !![2, 1, 0; 1, -1, 0; 0, 0, -1] := by
  rw [C69_as_std_array, (C69_set_pp_symdev t _ _).2]
  · ext i j
    fin_cases i <;> fin_cases j <;> simp [Matrix.trace, Fin.sum_univ_succ] <;> norm_num
  · rw [h]
    intro i j
    fin_cases i <;> fin_cases j <;> simp [InPlane]

/-- `C69_set_std_array`: the components δ_ij δ_kl are those of a symmetric tensor, δ_ik δ_jl are not. -/
example : (∃ t, Tensor4.fromStdArray (fun i j k l => if i = j ∧ k = l then 1 else 0) .Symmetric = ok t ∧ t.std 0 0 2 2 = 1) ∧
    ∃ msg, Tensor4.fromStdArray (fun i j k l => if i = k ∧ j = l then 1 else 0) .Symmetric = err msg := by
  constructor
  · obtain ⟨t, e, -, h⟩ := (C69_from_std_array .Symmetric (fun i j k l => if i = j ∧ k = l then 1 else 0)).1 (by
      rw [representable4_iff]
      refine ⟨fun _ i j k l => ⟨by simp only [eq_comm], by simp only [eq_comm]⟩, fun i j k l hp => ?_⟩
      simp [InPlane] at hp)
    exact ⟨t, e, by rw [h]; simp⟩
  · refine (C69_from_std_array .Symmetric _).2 ?_
    rw [representable4_iff]
    intro h
    have := (h.1 (by simp) 0 1 0 1).1
    simp at this

end Russell.Tensor
