import Verif.Lab.Lapack
import Verif.Lab.MatInverse
import Mathlib.Analysis.Complex.Norm
import Mathlib.LinearAlgebra.Matrix.NonsingularInverse

/-!
# Dense linear systems and the inverse of a complex matrix (property C114)

Model of russell_lab/src/matvec/{solve_lin_sys, complex_solve_lin_sys}.rs and russell_lab/src/matrix/complex_mat_inverse.rs; exact
arithmetic. The routine `gesv` of LAPACK checks its arguments and accesses its arrays as published; its numerical part is a parameter with a
contract. The content of `a`, `b` and `ai` after an error is not modelled.
-/

namespace Russell.Lab

open Russell Russell.Res Russell.Sparse

section model
variable {κ : Type}

/-- the numerical part of `gesv`: from the order, the number of right-hand sides and the entries of both matrices, the factors, the pivots
(1-based), the solution and `info` -/
structure GesvOut (κ : Type) where
  lu : Arr2 κ
  ipiv : Nat → Nat
  x : Arr2 κ
  info : Int

/-- `dgesv`, `zgesv`: `ipiv` is represented by its length; returned are `a`, `b` and `info` -/
def gesv [Zero κ] (num : Nat → Nat → Arr2 κ → Arr2 κ → GesvOut κ) (n nrhs : Int) (a : List κ) (lda : Int) (ipiv : Nat) (b : List κ) (ldb : Int) :
    Res (List κ × List κ × Int) :=
  if n < 0 ∨ nrhs < 0 ∨ lda < max 1 n ∨ ldb < max 1 n then ok (a, b, -1)
  else if ¬(InArray a lda.toNat n.toNat n.toNat ∧ n.toNat ≤ ipiv ∧ InArray b ldb.toNat n.toNat nrhs.toNat) then panic
  else
    let r := num n.toNat nrhs.toNat (entries a lda.toNat) (entries b ldb.toNat)
    ok (putMat lda.toNat n.toNat n.toNat r.lu a, putMat ldb.toNat n.toNat nrhs.toNat r.x b, r.info)

/-- `solve_lin_sys`, `complex_solve_lin_sys` (/repo/russell_lab/src/matvec/solve_lin_sys.rs:74-111, complex_solve_lin_sys.rs:88-125); the
result is `b` and `a` -/
def solveLinSys [Zero κ] (num : Nat → Nat → Arr2 κ → Arr2 κ → GesvOut κ) (b : List κ) (a : NumMatrix κ) : Res (List κ × NumMatrix κ) :=
  let m := a.nrow
  let n := a.ncol
  if m ≠ n then err "matrix must be square"
  else if b.length ≠ m then err "vector has wrong dimension"
  else if m = 0 then ok (b, a)
  else do
    let ipiv := m
    let m_i32 ← toI32 m
    let nrhs := 1
    let lda ← toI32 m
    let ldb := lda
    let o ← gesv num m_i32 nrhs a.data lda ipiv b ldb
    if o.2.2 < 0 then err "LAPACK ERROR (dgesv): An argument had an illegal value"
    else if o.2.2 > 0 then err "LAPACK ERROR (dgesv): The factorization has been completed, but the factor U is exactly singular"
    else ok (o.2.1, { a with data := o.1 })

/-- `complex_mat_inverse` (/repo/russell_lab/src/matrix/complex_mat_inverse.rs:90-209) for an `m × n` matrix `a` and an `mi × ni` matrix `ai`;
`tol` is `ZERO_DETERMINANT_NORM` -/
noncomputable def complexMatInverse (lp : Lapack ℂ) (tol : ℝ) (mi ni : Nat) (ai : Arr2 ℂ) (m n : Nat) (a : Arr2 ℂ) : Res (ℂ × Arr2 ℂ) :=
  if m ≠ n then err "matrix must be square"
  else if mi ≠ m ∨ ni ≠ n then err "matrices are incompatible"
  else if m = 0 then ok (0, ai)
  else if m = 1 then
    let det := a 0 0
    if ‖det‖ ≤ tol then err "cannot compute inverse due to zero determinant" else ok (det, ai.put 0 0 (1 / det))
  else if m = 2 then
    let det := a 0 0 * a 1 1 - a 0 1 * a 1 0
    if ‖det‖ ≤ tol then err "cannot compute inverse due to zero determinant"
    else ok (det, (((ai.put 0 0 (a 1 1 / det)).put 0 1 (-a 0 1 / det)).put 1 0 (-a 1 0 / det)).put 1 1 (a 0 0 / det))
  else if m = 3 then
    let det := a 0 0 * (a 1 1 * a 2 2 - a 1 2 * a 2 1) - a 0 1 * (a 1 0 * a 2 2 - a 1 2 * a 2 0)
      + a 0 2 * (a 1 0 * a 2 1 - a 1 1 * a 2 0)
    if ‖det‖ ≤ tol then err "cannot compute inverse due to zero determinant"
    else
      let ai := ai.put 0 0 ((a 1 1 * a 2 2 - a 1 2 * a 2 1) / det)
      let ai := ai.put 0 1 ((a 0 2 * a 2 1 - a 0 1 * a 2 2) / det)
      let ai := ai.put 0 2 ((a 0 1 * a 1 2 - a 0 2 * a 1 1) / det)
      let ai := ai.put 1 0 ((a 1 2 * a 2 0 - a 1 0 * a 2 2) / det)
      let ai := ai.put 1 1 ((a 0 0 * a 2 2 - a 0 2 * a 2 0) / det)
      let ai := ai.put 1 2 ((a 0 2 * a 1 0 - a 0 0 * a 1 2) / det)
      let ai := ai.put 2 0 ((a 1 0 * a 2 1 - a 1 1 * a 2 0) / det)
      let ai := ai.put 2 1 ((a 0 1 * a 2 0 - a 0 0 * a 2 1) / det)
      let ai := ai.put 2 2 ((a 0 0 * a 1 1 - a 0 1 * a 1 0) / det)
      ok (det, ai)
  else
    let (lu, ipiv, info) := lp.getrf m a
    if info < 0 then err "LAPACK ERROR (dgetrf): An argument had an illegal value"
    else if info > 0 then
      err "LAPACK ERROR (dgetrf): The factorization has been completed, but the factor U is exactly singular"
    else
      let det := (List.range m).foldl (fun det i => if ipiv i - 1 = i then det * lu i i else -det * lu i i) 1
      ok (det, lp.getri m lu ipiv)

end model

section systems
variable {κ : Type} [Field κ]

/-- what the manual of `gesv` promises for given data: `A = P L U` with the interchanges `P`; `info` is zero, or the 1-based position of an
exactly zero diagonal entry of `U`; if it is zero, `A X = B` -/
structure GesvContract (num : Nat → Nat → Arr2 κ → Arr2 κ → GesvOut κ) (n nrhs : Nat) (a b : Arr2 κ) : Prop where
  factors : blockOf n a = interchanges n (num n nrhs a b).ipiv * (lowerOf n (num n nrhs a b).lu * upperOf n (num n nrhs a b).lu)
  pivots : ∀ i < n, i + 1 ≤ (num n nrhs a b).ipiv i ∧ (num n nrhs a b).ipiv i ≤ n
  info : ((num n nrhs a b).info = 0 ∧ ∀ i < n, (num n nrhs a b).lu i i ≠ 0) ∨
    ∃ k : Nat, k < n ∧ (num n nrhs a b).info = k + 1 ∧ (num n nrhs a b).lu k k = 0
  solution : (num n nrhs a b).info = 0 → ∀ i j, i < n → j < nrhs → ∑ k ∈ Finset.range n, a i k * (num n nrhs a b).x k j = b i j

/-- **C114 (shapes).** Matrices that are not square and right-hand sides of another length are refused; the empty system is left alone. -/
theorem C114_system_shapes (num : Nat → Nat → Arr2 κ → Arr2 κ → GesvOut κ) (b : List κ) (a : NumMatrix κ) :
    (a.nrow ≠ a.ncol → solveLinSys num b a = err "matrix must be square") ∧
    (a.nrow = a.ncol → b.length ≠ a.nrow → solveLinSys num b a = err "vector has wrong dimension") ∧
    (a.nrow = 0 → a.ncol = 0 → b.length = 0 → solveLinSys num b a = ok (b, a)) := by
  refine ⟨fun h => ?_, fun h h' => ?_, fun h h' h'' => ?_⟩
  · unfold solveLinSys; rw [if_pos h]
  · unfold solveLinSys; rw [if_neg (by rw [not_not]; exact h), if_pos h']
  · unfold solveLinSys; rw [if_neg (by omega), if_neg (by omega), if_pos h]

/-- **C114 (dense linear systems).** For a square matrix whose order fits into `i32` the call does not panic. If the determinant is not
zero, it succeeds, `b` then holds the solution, which is the only one, and `a` holds the factors of `A = P L U`; if the determinant is
zero, the call reports a singular factor. -/
theorem C114_solve {num : Nat → Nat → Arr2 κ → Arr2 κ → GesvOut κ} {n : Nat} (hn : 0 < n) (hs : n < 2147483648) {a : NumMatrix κ} {A : Nat → Nat → κ}
    (ha : IsDense a n n A) {b : List κ} {B : Nat → κ} (hb : IsVec b n B)
    (hc : GesvContract num n 1 (entries a.data n) (entries b n)) :
    ((blockOf n A).det ≠ 0 ∧ ∃ x a' X LU, solveLinSys num b a = ok (x, a') ∧ IsVec x n X ∧ IsDense a' n n LU ∧
      (∀ i < n, ∑ k ∈ Finset.range n, A i k * X k = B i) ∧
      (∀ Y : Nat → κ, (∀ i < n, ∑ k ∈ Finset.range n, A i k * Y k = B i) → ∀ i < n, Y i = X i) ∧
      ∃ ipiv : Nat → Nat, (∀ i < n, i + 1 ≤ ipiv i ∧ ipiv i ≤ n) ∧ blockOf n A = interchanges n ipiv * (lowerOf n LU * upperOf n LU)) ∨
    ((blockOf n A).det = 0 ∧
      solveLinSys num b a = err "LAPACK ERROR (dgesv): The factorization has been completed, but the factor U is exactly singular") := by
  obtain ⟨r, hr⟩ : ∃ r, r = num n 1 (entries a.data n) (entries b n) := ⟨_, rfl⟩
  have eA : ∀ i j, i < n → j < n → entries a.data n i j = A i j := fun i j hi hj => by rw [entries, ha.getD' hi hj]
  have eB : ∀ i, i < n → entries b n i 0 = B i := fun i hi => by
    rw [entries, Nat.zero_mul, Nat.add_zero, List.getD_eq_getElem?_getD, hb.get i hi]; rfl
  have bA : blockOf n (entries a.data n) = blockOf n A := by
    ext i j; exact eA i j i.2 j.2
  have hf := hc.factors
  have hp := hc.pivots
  have hi := hc.info
  have hx := hc.solution
  rw [← hr] at hf hp hi hx
  rw [bA] at hf
  have inB : InArray b n n 1 := Or.inr (Or.inr (by rw [hb.len]; omega))
  have run : solveLinSys num b a = (if r.info < 0 then err "LAPACK ERROR (dgesv): An argument had an illegal value"
      else if r.info > 0 then err "LAPACK ERROR (dgesv): The factorization has been completed, but the factor U is exactly singular"
      else ok (putMat n n 1 r.x b, { a with data := putMat n n n r.lu a.data })) := by
    unfold solveLinSys gesv
    dsimp only
    rw [ha.nrow, ha.ncol, hb.len, if_neg (by simp), if_neg (by simp), if_neg (by omega), toI32_lt hs]
    simp only [ok_bind]
    rw [if_neg (by omega)]
    simp only [Int.toNat_natCast, Int.toNat_one]
    rw [if_neg (by rw [not_not]; exact ⟨ha.inArray, le_rfl, inB⟩)]
    simp only [ok_bind, ← hr]
  have d : (blockOf n A).det = (∏ i ∈ Finset.range n, if r.ipiv i - 1 = i then (1 : κ) else -1) * ∏ i ∈ Finset.range n, r.lu i i := by
    rw [hf, Matrix.det_mul, Matrix.det_mul, det_interchanges n hp, det_lower, det_upper, one_mul]
  rcases hi with ⟨h0, hz⟩ | ⟨k, hk, he, hz⟩
  · left
    have dn : (blockOf n A).det ≠ 0 := by
      rw [d]
      refine mul_ne_zero (Finset.prod_ne_zero_iff.2 fun i _ => ?_) (Finset.prod_ne_zero_iff.2 fun i hi => hz i (Finset.mem_range.1 hi))
      split_ifs <;> simp
    have sol : ∀ i < n, ∑ k ∈ Finset.range n, A i k * r.x k 0 = B i := by
      intro i hi
      rw [← eB i hi, ← hx h0 i 0 hi (by omega)]
      exact Finset.sum_congr rfl fun k hk => by rw [eA i k hi (Finset.mem_range.1 hk)]
    refine ⟨dn, _, _, fun i => r.x i 0, r.lu, by rw [run, if_neg (by omega), if_neg (by omega)], ?_, putMat_dense ha _, sol, ?_, r.ipiv, hp, hf⟩
    · refine isVec_mapIdx hb _ fun i hi => ?_
      rw [Nat.mod_eq_of_lt hi, Nat.div_eq_of_lt hi, if_pos ⟨hi, by omega⟩]
    · intro Y hY i hi
      have mv : ∀ Z : Nat → κ, (∀ i < n, ∑ k ∈ Finset.range n, A i k * Z k = B i) →
          (blockOf n A).mulVec (fun i : Fin n => Z i) = fun i : Fin n => B i := by
        intro Z hZ
        funext i
        rw [← hZ i i.2, ← Fin.sum_univ_eq_sum_range (fun k => A i k * Z k) n]
        rfl
      have inj := Matrix.mulVec_injective_of_isUnit ((Matrix.isUnit_iff_isUnit_det _).2 (isUnit_iff_ne_zero.2 dn))
      exact congrFun (inj ((mv Y hY).trans (mv _ sol).symm)) ⟨i, hi⟩
  · right
    refine ⟨?_, by rw [run, if_neg (by omega), if_pos (by omega)]⟩
    rw [d, Finset.prod_eq_zero (f := fun i => r.lu i i) (Finset.mem_range.2 hk) hz, mul_zero]

/-- **C114 (overflow).** If the order does not fit into `i32` the call panics. -/
theorem C114_solve_overflow (num : Nat → Nat → Arr2 κ → Arr2 κ → GesvOut κ) {n : Nat} (hs : 2147483648 ≤ n) {a : NumMatrix κ}
    {A : Nat → Nat → κ} (ha : IsDense a n n A) {b : List κ} {B : Nat → κ} (hb : IsVec b n B) : solveLinSys num b a = panic := by
  unfold solveLinSys
  dsimp only
  rw [ha.nrow, ha.ncol, hb.len, if_neg (by simp), if_neg (by simp), if_neg (by omega), toI32_ge hs]
  rfl

/-- the system `y = 5`, `2 x + y = 7`, for which the rows are interchanged -/
example : ∃ num : Nat → Nat → Arr2 ℚ → Arr2 ℚ → GesvOut ℚ, GesvContract num 2 1 (entries [0, 2, 1, 1] 2) (entries [5, 7] 2) := by
  refine ⟨fun _ _ _ _ => ⟨fun i j => if i = 0 then (if j = 0 then 2 else 1) else if j = 0 then 0 else 1, fun _ => 2,
    fun i _ => if i = 0 then 1 else 5, 0⟩, ?_, ?_, Or.inl ⟨rfl, ?_⟩, ?_⟩
  · have h : (interchanges 2 (fun _ => 2) : Matrix (Fin 2) (Fin 2) ℚ) = (Equiv.swap 0 1).permMatrix ℚ := by
      have e : List.finRange 2 = [0, 1] := by decide
      unfold interchanges
      rw [e]
      simp
    show _ = interchanges 2 (fun _ => 2) * _
    rw [h]
    ext i j
    fin_cases i <;> fin_cases j <;>
      simp [Matrix.mul_apply, Fin.sum_univ_two, lowerOf, upperOf, blockOf, entries, PEquiv.toMatrix_apply]
  · intro i hi
    show i + 1 ≤ 2 ∧ 2 ≤ 2
    omega
  · intro i hi
    have : i = 0 ∨ i = 1 := by omega
    rcases this with rfl | rfl <;> simp
  · intro _ i j hi hj
    have : i = 0 ∨ i = 1 := by omega
    have : j = 0 := by omega
    subst this
    rcases ‹i = 0 ∨ i = 1› with rfl | rfl <;> norm_num [Finset.sum_range_succ, entries]

end systems

section complex

theorem blockOf_eq {n : Nat} {a : Arr2 ℂ} {M : Matrix (Fin n) (Fin n) ℂ} (h : ∀ i j : Fin n, a i j = M i j) : blockOf n a = M := by
  ext i j; exact h i j

/-- **C114 (complex_mat_inverse).** Wrong dimensions are errors; otherwise the call returns the determinant and the two-sided inverse, or it
fails and then the determinant is zero, or not larger than the tolerance if the order is at most three. There is no panic. -/
theorem C114_complex_inverse {lp : Lapack ℂ} {tol : ℝ} (ht : 0 ≤ tol) {n : Nat} (hn : 0 < n) (ai a : Arr2 ℂ)
    (hl : 4 ≤ n → LapackContract lp n a) :
    (∃ det ai', complexMatInverse lp tol n n ai n n a = ok (det, ai') ∧ blockOf n a * blockOf n ai' = 1 ∧ blockOf n ai' * blockOf n a = 1 ∧
      det = (blockOf n a).det ∧ det ≠ 0) ∨
    ((complexMatInverse lp tol n n ai n n a = err "cannot compute inverse due to zero determinant" ∧ n ≤ 3 ∧ ‖(blockOf n a).det‖ ≤ tol) ∨
     (complexMatInverse lp tol n n ai n n a =
        err "LAPACK ERROR (dgetrf): The factorization has been completed, but the factor U is exactly singular" ∧
        4 ≤ n ∧ (blockOf n a).det = 0)) := by
  have key : ∀ {m : Nat} {ai' : Arr2 ℂ}, blockOf m a * blockOf m ai' = 1 → blockOf m ai' * blockOf m a = 1 :=
    fun h => mul_eq_one_comm.1 h
  have nz : ∀ {x : ℂ}, ¬‖x‖ ≤ tol → x ≠ 0 := by
    intro x h h0; rw [h0, norm_zero] at h; exact h ht
  unfold complexMatInverse
  rw [if_neg (by simp), if_neg (by simp), if_neg (by omega)]
  split
  · next h =>
    subst h
    have d : (blockOf 1 a).det = a 0 0 := by simp [blockOf]
    by_cases h : ‖a 0 0‖ ≤ tol
    · right; left; exact ⟨by simp only [if_pos h], by omega, by rw [d]; exact h⟩
    · left
      refine ⟨_, _, by simp only [if_neg h]; rfl, ?_⟩
      have h0 := nz h
      have hm : blockOf 1 a * blockOf 1 (ai.put 0 0 (1 / a 0 0)) = 1 := by
        ext i j
        fin_cases i; fin_cases j
        simp [Matrix.mul_apply, blockOf, Arr2.put, h0]
      exact ⟨hm, key hm, d.symm, h0⟩
  split
  · next h =>
    subst h
    set det := a 0 0 * a 1 1 - a 0 1 * a 1 0 with hdet
    have d : (blockOf 2 a).det = det := by rw [Matrix.det_fin_two]; simp [blockOf, hdet]
    by_cases h : ‖det‖ ≤ tol
    · right; left; exact ⟨by simp only [if_pos h], by omega, by rw [d]; exact h⟩
    · left
      refine ⟨_, _, by simp only [if_neg h]; rfl, ?_⟩
      have h0 := nz h
      have hm : ∀ ai', (∀ i j : Fin 2, ai' i j = (!![a 1 1 / det, -a 0 1 / det; -a 1 0 / det, a 0 0 / det] : Matrix (Fin 2) (Fin 2) ℂ) i j) →
          blockOf 2 a * blockOf 2 ai' = 1 := by
        intro ai' h
        rw [blockOf_eq h]
        ext i j
        fin_cases i <;> fin_cases j <;> simp [Matrix.mul_apply, Fin.sum_univ_two, blockOf] <;> field_simp <;> (try rw [hdet]) <;> ring
      exact ⟨hm _ (by intro i j; fin_cases i <;> fin_cases j <;> simp [Arr2.put]),
        key (hm _ (by intro i j; fin_cases i <;> fin_cases j <;> simp [Arr2.put])), d.symm, h0⟩
  split
  · next h =>
    subst h
    set det := a 0 0 * (a 1 1 * a 2 2 - a 1 2 * a 2 1) - a 0 1 * (a 1 0 * a 2 2 - a 1 2 * a 2 0) + a 0 2 * (a 1 0 * a 2 1 - a 1 1 * a 2 0)
      with hdet
    have d : (blockOf 3 a).det = det := by rw [Matrix.det_fin_three]; simp [blockOf, hdet]; ring
    by_cases h : ‖det‖ ≤ tol
    · right; left; exact ⟨by simp only [if_pos h], by omega, by rw [d]; exact h⟩
    · left
      refine ⟨_, _, by simp only [if_neg h]; rfl, ?_⟩
      have h0 := nz h
      have hm : ∀ ai', (∀ i j : Fin 3, ai' i j = (!![(a 1 1 * a 2 2 - a 1 2 * a 2 1) / det, (a 0 2 * a 2 1 - a 0 1 * a 2 2) / det,
            (a 0 1 * a 1 2 - a 0 2 * a 1 1) / det;
          (a 1 2 * a 2 0 - a 1 0 * a 2 2) / det, (a 0 0 * a 2 2 - a 0 2 * a 2 0) / det, (a 0 2 * a 1 0 - a 0 0 * a 1 2) / det;
          (a 1 0 * a 2 1 - a 1 1 * a 2 0) / det, (a 0 1 * a 2 0 - a 0 0 * a 2 1) / det, (a 0 0 * a 1 1 - a 0 1 * a 1 0) / det] :
          Matrix (Fin 3) (Fin 3) ℂ) i j) → blockOf 3 a * blockOf 3 ai' = 1 := by
        intro ai' h
        rw [blockOf_eq h]
        ext i j
        fin_cases i <;> fin_cases j <;> simp [Matrix.mul_apply, Fin.sum_univ_three, blockOf] <;> field_simp <;> rw [hdet] <;> ring
      exact ⟨hm _ (by intro i j; fin_cases i <;> fin_cases j <;> simp [Arr2.put]),
        key (hm _ (by intro i j; fin_cases i <;> fin_cases j <;> simp [Arr2.put])), d.symm, h0⟩
  · have h4 : 4 ≤ n := by omega
    have hl := hl h4
    have hp := hl.pivots
    have hf := hl.factors
    have hi := hl.info
    have hv := hl.inverse
    rcases hg : lp.getrf n a with ⟨lu, ipiv, info⟩
    rw [hg] at hp hf hi hv
    simp only at hp hf hi hv
    have d : (blockOf n a).det = (∏ i ∈ Finset.range n, if ipiv i - 1 = i then (1 : ℂ) else -1) * ∏ i ∈ Finset.range n, lu i i := by
      rw [hf, Matrix.det_mul, Matrix.det_mul, det_interchanges n hp, det_lower, det_upper, one_mul]
    simp only
    rcases hi with ⟨h0, hz⟩ | ⟨k, hk, he, hz⟩
    · left
      rw [if_neg (by omega), if_neg (by omega)]
      refine ⟨_, _, rfl, hv hz, key (hv hz), ?_, ?_⟩
      · rw [det_loop, Finset.prod_mul_distrib, d]
      · rw [det_loop]
        refine Finset.prod_ne_zero_iff.2 fun i hi => mul_ne_zero ?_ (hz i (Finset.mem_range.1 hi))
        split_ifs <;> simp
    · right; right
      rw [if_neg (by omega), if_pos (by omega)]
      refine ⟨rfl, h4, ?_⟩
      rw [d, Finset.prod_eq_zero (f := fun i => lu i i) (Finset.mem_range.2 hk) hz, mul_zero]

/-- **C114 (dimensions).** The matrices must be square and of the same order; the determinant of the empty matrix is returned as zero. -/
theorem C114_complex_dimensions (lp : Lapack ℂ) (tol : ℝ) (mi ni m n : Nat) (ai a : Arr2 ℂ) :
    (m ≠ n → complexMatInverse lp tol mi ni ai m n a = err "matrix must be square") ∧
    (m = n → (mi ≠ m ∨ ni ≠ n) → complexMatInverse lp tol mi ni ai m n a = err "matrices are incompatible") ∧
    complexMatInverse lp tol 0 0 ai 0 0 a = ok (0, ai) := by
  refine ⟨fun h => ?_, fun h h' => ?_, rfl⟩
  · unfold complexMatInverse; rw [if_pos h]
  · unfold complexMatInverse; rw [if_neg (by simp [h]), if_pos h']

/-- **C114 (accepted).** Up to order three the call succeeds exactly if the determinant is larger than the tolerance. -/
theorem C114_complex_accepts (lp : Lapack ℂ) {tol : ℝ} (ht : 0 ≤ tol) {n : Nat} (hn : 0 < n) (h3 : n ≤ 3) (ai a : Arr2 ℂ) :
    (∃ r, complexMatInverse lp tol n n ai n n a = ok r) ↔ tol < ‖(blockOf n a).det‖ := by
  have c : tol < ‖(blockOf n a).det‖ → ∃ r, complexMatInverse lp tol n n ai n n a = ok r := by
    intro h
    rcases C114_complex_inverse (lp := lp) ht hn ai a (fun h => by omega) with ⟨det, ai', e, _⟩ | ⟨_, _, h'⟩ | ⟨_, h4, _⟩
    · exact ⟨_, e⟩
    · exact absurd h (not_lt.2 h')
    · omega
  refine ⟨fun ⟨r, e⟩ => ?_, c⟩
  by_contra hc
  have hc := not_lt.1 hc
  have : n = 1 ∨ n = 2 ∨ n = 3 := by omega
  rcases this with rfl | rfl | rfl
  · have d : (blockOf 1 a).det = a 0 0 := by simp [blockOf]
    rw [d] at hc
    simp [complexMatInverse, if_pos hc] at e
  · have d : (blockOf 2 a).det = a 0 0 * a 1 1 - a 0 1 * a 1 0 := by rw [Matrix.det_fin_two]; simp [blockOf]
    rw [d] at hc
    simp [complexMatInverse, if_pos hc] at e
  · have d : (blockOf 3 a).det = a 0 0 * (a 1 1 * a 2 2 - a 1 2 * a 2 1) - a 0 1 * (a 1 0 * a 2 2 - a 1 2 * a 2 0)
        + a 0 2 * (a 1 0 * a 2 1 - a 1 1 * a 2 0) := by rw [Matrix.det_fin_three]; simp [blockOf]; ring
    rw [d] at hc
    simp [complexMatInverse, if_pos hc] at e

/-- **C114 (accepted, from order four on).** The call succeeds exactly if the matrix is not singular. -/
theorem C114_complex_accepts_large {lp : Lapack ℂ} {tol : ℝ} (ht : 0 ≤ tol) {n : Nat} (h4 : 4 ≤ n) (ai a : Arr2 ℂ)
    (hl : LapackContract lp n a) :
    (∃ r, complexMatInverse lp tol n n ai n n a = ok r) ↔ (blockOf n a).det ≠ 0 := by
  rcases C114_complex_inverse ht (by omega : 0 < n) ai a (fun _ => hl) with ⟨det, ai', e, _, _, h1, h2⟩ | ⟨_, h3, _⟩ | ⟨e, _, h0⟩
  · exact ⟨fun _ => h1 ▸ h2, fun _ => ⟨_, e⟩⟩
  · omega
  · refine ⟨fun h => ?_, fun h => absurd h0 h⟩
    obtain ⟨r, e'⟩ := h
    rw [e] at e'; cases e'

/-- a complex matrix of order two that is inverted: its determinant is `1` -/
example (lp : Lapack ℂ) (ai : Arr2 ℂ) :
    ∃ r, complexMatInverse lp 1e-15 2 2 ai 2 2 (fun i j => if i = j then (if i = 0 then Complex.I else -Complex.I) else 0) = ok r := by
  rw [C114_complex_accepts lp (by norm_num) (by norm_num) (by norm_num)]
  rw [Matrix.det_fin_two]
  norm_num [blockOf]

/-- **C114 (refused although regular).** The matrix `1e-8 i I` of order two is refused, although its determinant is not zero. -/
theorem C114_small_determinant_counterexample (lp : Lapack ℂ) (ai : Arr2 ℂ) :
    complexMatInverse lp 1e-15 2 2 ai 2 2 (fun i j => if i = j then 1e-8 * Complex.I else 0) =
      err "cannot compute inverse due to zero determinant" ∧
    (blockOf 2 (fun i j => if i = j then (1e-8 * Complex.I : ℂ) else 0)).det ≠ 0 := by
  have d : (blockOf 2 (fun i j => if i = j then (1e-8 * Complex.I : ℂ) else 0)).det = (1e-8 * Complex.I) * (1e-8 * Complex.I) := by
    rw [Matrix.det_fin_two]; simp [blockOf]
  refine ⟨?_, by rw [d]; norm_num⟩
  rcases C114_complex_inverse (lp := lp) (tol := 1e-15) (by norm_num) (n := 2) (by norm_num) ai
    (fun i j => if i = j then 1e-8 * Complex.I else 0) (fun h => by omega) with ⟨det, ai', e, _⟩ | ⟨h, _⟩ | ⟨_, h4, _⟩
  · exfalso
    have := (C114_complex_accepts lp (tol := 1e-15) (by norm_num) (n := 2) (by norm_num) (by norm_num) ai
      (fun i j => if i = j then 1e-8 * Complex.I else 0)).1 ⟨_, e⟩
    rw [d] at this
    norm_num at this
  · exact h
  · omega

end complex

end Russell.Lab
