import Verif.Lab.Small
import Mathlib.LinearAlgebra.Matrix.Permutation
import Mathlib.LinearAlgebra.Matrix.Block

/-!
# Inverse and determinant of a matrix (C89)

Model of russell_lab/src/matrix/mat_inverse.rs over an ordered field; exact arithmetic. The LAPACK routines used from order four on are
parameters with contracts. The content of `ai` after an error is not modelled.
-/

namespace Russell.Lab

open Russell Russell.Res

section model
variable {α : Type} [Field α] [LinearOrder α]

/-- the LAPACK routines: `getrf n a` returns the factors, the pivots (1-based) and `info`; `getri n lu ipiv` returns the inverse -/
structure Lapack (α : Type) where
  getrf : Nat → Arr2 α → Arr2 α × (Nat → Nat) × Int
  getri : Nat → Arr2 α → (Nat → Nat) → Arr2 α

/-- `mat_inverse` (/repo/russell_lab/src/matrix/mat_inverse.rs:95-202) for an `m × n` matrix `a` and an `mi × ni` matrix `ai`;
`tol` is `ZERO_DETERMINANT` -/
def matInverse (lp : Lapack α) (tol : α) (mi ni : Nat) (ai : Arr2 α) (m n : Nat) (a : Arr2 α) : Res (α × Arr2 α) :=
  if m ≠ n then err "matrix must be square"
  else if mi ≠ m ∨ ni ≠ n then err "matrices are incompatible"
  else if m = 0 then ok (0, ai)
  else if m = 1 then
    let det := a 0 0
    if |det| ≤ tol then err "cannot compute inverse due to zero determinant" else ok (det, ai.put 0 0 (1 / det))
  else if m = 2 then
    let det := a 0 0 * a 1 1 - a 0 1 * a 1 0
    if |det| ≤ tol then err "cannot compute inverse due to zero determinant"
    else ok (det, (((ai.put 0 0 (a 1 1 / det)).put 0 1 (-a 0 1 / det)).put 1 0 (-a 1 0 / det)).put 1 1 (a 0 0 / det))
  else if m = 3 then
    let det := a 0 0 * (a 1 1 * a 2 2 - a 1 2 * a 2 1) - a 0 1 * (a 1 0 * a 2 2 - a 1 2 * a 2 0)
      + a 0 2 * (a 1 0 * a 2 1 - a 1 1 * a 2 0)
    if |det| ≤ tol then err "cannot compute inverse due to zero determinant"
    else
      let ai := ai.put 0 0 ((a 1 1 * a 2 2 - a 1 2 * a 2 1) / det)
      let ai := ai.put 0 1 ((a 0 2 * a 2 1 - a 0 1 * a 2 2) / det)
      let ai := ai.put 0 2 ((a 0 1 * a 1 2 - a 0 2 * a 1 1) / det)
      let ai := ai.put 1 0 ((a 1 2 * a 2 0 - a 1 0 * a 2 2) / det)
      let ai := ai.put 1 1 ((a 0 0 * a 2 2 - a 0 2 * a 2 0) / det)
      let ai := ai.put 1 2 ((a 0 2 * a 1 0 - a 0 0 * a 1 2) / det)
      let ai := ai.put 2 0 ((a 1 0 * a 2 1 - a 1 1 * a 2 0) / det)
      let ai := ai.put 2 1 ((a 0 1 * a 2 0 - a 0 0 * a 2 1) / det)
      let ai := ai.put 2 2 ((a 0 0 * a 1 1 - a 0 1 * a 1 0) / det)
      ok (det, ai)
  else
    let (lu, ipiv, info) := lp.getrf m a
    if info < 0 then err "LAPACK ERROR (dgetrf): An argument had an illegal value"
    else if info > 0 then
      err "LAPACK ERROR (dgetrf): The factorization has been completed, but the factor U is exactly singular"
    else
      let det := (List.range m).foldl (fun det i => if ipiv i - 1 = i then det * lu i i else -det * lu i i) 1
      ok (det, lp.getri m lu ipiv)

end model

section props
variable {α : Type} [Field α] [LinearOrder α]

/-- the unit lower triangular factor stored below the diagonal -/
def lowerOf (n : Nat) (lu : Arr2 α) : Matrix (Fin n) (Fin n) α := fun i j => if j < i then lu i j else if i = j then 1 else 0

/-- the upper triangular factor -/
def upperOf (n : Nat) (lu : Arr2 α) : Matrix (Fin n) (Fin n) α := fun i j => if i ≤ j then lu i j else 0

/-- the interchanges of the rows `i` and `ipiv i − 1`, for all `i` one after the other -/
def interchanges (n : Nat) (ipiv : Nat → Nat) : Matrix (Fin n) (Fin n) α :=
  ((List.finRange n).map fun i : Fin n => if h : ipiv i - 1 < n then (Equiv.swap i ⟨ipiv i - 1, h⟩).permMatrix α else 1).prod

/-- what the LAPACK documentation promises: `A = P L U` with the interchanges `P`; `info` is zero, or the 1-based position of an exactly
zero diagonal entry of `U`; the inverse is that of `P L U` if no diagonal entry vanishes -/
structure LapackContract (lp : Lapack α) (n : Nat) (a : Arr2 α) : Prop where
  factors : blockOf n a = interchanges n (lp.getrf n a).2.1 * (lowerOf n (lp.getrf n a).1 * upperOf n (lp.getrf n a).1)
  pivots : ∀ i < n, i + 1 ≤ (lp.getrf n a).2.1 i ∧ (lp.getrf n a).2.1 i ≤ n
  info : ((lp.getrf n a).2.2 = 0 ∧ ∀ i < n, (lp.getrf n a).1 i i ≠ 0) ∨
    ∃ k : Nat, k < n ∧ (lp.getrf n a).2.2 = k + 1 ∧ (lp.getrf n a).1 k k = 0
  inverse : (∀ i < n, (lp.getrf n a).1 i i ≠ 0) →
    blockOf n a * blockOf n (lp.getri n (lp.getrf n a).1 (lp.getrf n a).2.1) = 1

omit [LinearOrder α] in
theorem det_lower (n : Nat) (lu : Arr2 α) : (lowerOf n lu).det = 1 := by
  rw [Matrix.det_of_isLowerTriangular]
  · exact Finset.prod_eq_one fun i _ => by simp [lowerOf]
  · intro i j h
    have h : i < j := h
    simp [lowerOf, not_lt.2 h.le, h.ne]

omit [LinearOrder α] in
theorem det_upper (n : Nat) (lu : Arr2 α) : (upperOf n lu).det = ∏ i ∈ Finset.range n, lu i i := by
  rw [Matrix.det_of_isUpperTriangular, ← Fin.prod_univ_eq_prod_range (fun i => lu i i) n]
  · exact Finset.prod_congr rfl fun i _ => by simp [upperOf]
  · intro i j h
    have h : j < i := h
    simp [upperOf, not_le.2 h]

omit [LinearOrder α] in
theorem det_interchanges (n : Nat) {ipiv : Nat → Nat} (h : ∀ i < n, i + 1 ≤ ipiv i ∧ ipiv i ≤ n) :
    (interchanges n ipiv : Matrix (Fin n) (Fin n) α).det = ∏ i ∈ Finset.range n, if ipiv i - 1 = i then (1 : α) else -1 := by
  unfold interchanges
  rw [← Matrix.coe_detMonoidHom, map_list_prod, List.map_map, ← Fin.prod_univ_eq_prod_range (fun i => if ipiv i - 1 = i then (1 : α) else -1) n,
    ← List.ofFn_eq_map, List.prod_ofFn]
  refine Finset.prod_congr rfl fun i _ => ?_
  have hi := h i i.2
  have h' : ipiv i - 1 < n := by omega
  simp only [Function.comp, dif_pos h', Matrix.coe_detMonoidHom, Matrix.det_permutation]
  by_cases e : ipiv i - 1 = i
  · have : (⟨ipiv i - 1, h'⟩ : Fin n) = i := Fin.ext e
    rw [this, if_pos e, Equiv.swap_self]; simp
  · rw [if_neg e, Equiv.Perm.sign_swap (fun c => e (congrArg Fin.val c).symm)]; simp

omit [LinearOrder α] in
theorem det_loop (ipiv : Nat → Nat) (lu : Arr2 α) : ∀ n : Nat,
    (List.range n).foldl (fun det i => if ipiv i - 1 = i then det * lu i i else -det * lu i i) 1 =
      ∏ i ∈ Finset.range n, ((if ipiv i - 1 = i then (1 : α) else -1) * lu i i)
  | 0 => by simp
  | n + 1 => by
    rw [List.range_succ, List.foldl_append, det_loop ipiv lu n, Finset.prod_range_succ]
    simp only [List.foldl_cons, List.foldl_nil]
    split_ifs <;> ring

variable [IsStrictOrderedRing α]

/-- **C89 (mat_inverse).** Wrong dimensions are errors; otherwise the call returns the determinant and the two-sided inverse, or it
fails and then the determinant is zero, or not larger than the tolerance if the order is at most three. There is no panic. -/
theorem C89_mat_inverse {lp : Lapack α} {tol : α} (ht : 0 ≤ tol) {n : Nat} (hn : 0 < n) (ai a : Arr2 α)
    (hl : 4 ≤ n → LapackContract lp n a) :
    (∃ det ai', matInverse lp tol n n ai n n a = ok (det, ai') ∧ blockOf n a * blockOf n ai' = 1 ∧ blockOf n ai' * blockOf n a = 1 ∧
      det = (blockOf n a).det ∧ det ≠ 0) ∨
    ((matInverse lp tol n n ai n n a = err "cannot compute inverse due to zero determinant" ∧ n ≤ 3 ∧ |(blockOf n a).det| ≤ tol) ∨
     (matInverse lp tol n n ai n n a =
        err "LAPACK ERROR (dgetrf): The factorization has been completed, but the factor U is exactly singular" ∧
        4 ≤ n ∧ (blockOf n a).det = 0)) := by
  have key : ∀ {m : Nat} {ai' : Arr2 α}, blockOf m a * blockOf m ai' = 1 → blockOf m ai' * blockOf m a = 1 :=
    fun h => mul_eq_one_comm.1 h
  have nz : ∀ {x : α}, ¬|x| ≤ tol → x ≠ 0 := by
    intro x h h0; rw [h0, abs_zero] at h; exact h ht
  unfold matInverse
  rw [if_neg (by simp), if_neg (by simp), if_neg (by omega)]
  split
  · next h =>
    subst h
    have d : (blockOf 1 a).det = a 0 0 := by simp [blockOf]
    by_cases h : |a 0 0| ≤ tol
    · right; left; exact ⟨by simp only [if_pos h], by omega, by rw [d]; exact h⟩
    · left
      refine ⟨_, _, by simp only [if_neg h]; rfl, ?_⟩
      have h0 := nz h
      have hm : blockOf 1 a * blockOf 1 (ai.put 0 0 (1 / a 0 0)) = 1 := by
        ext i j
        fin_cases i; fin_cases j
        simp [Matrix.mul_apply, blockOf, Arr2.put, h0]
      exact ⟨hm, key hm, d.symm, h0⟩
  split
  · next h =>
    subst h
    set det := a 0 0 * a 1 1 - a 0 1 * a 1 0 with hdet
    have d : (blockOf 2 a).det = det := by rw [Matrix.det_fin_two]; simp [blockOf, hdet]
    by_cases h : |det| ≤ tol
    · right; left; exact ⟨by simp only [if_pos h], by omega, by rw [d]; exact h⟩
    · left
      refine ⟨_, _, by simp only [if_neg h]; rfl, ?_⟩
      have h0 := nz h
      have hm : ∀ ai', (∀ i j : Fin 2, ai' i j = (!![a 1 1 / det, -a 0 1 / det; -a 1 0 / det, a 0 0 / det] : Matrix (Fin 2) (Fin 2) α) i j) →
          blockOf 2 a * blockOf 2 ai' = 1 := by
        intro ai' h
        rw [blockOf_ext.2 h]
        ext i j
        fin_cases i <;> fin_cases j <;> simp [Matrix.mul_apply, Fin.sum_univ_two, blockOf] <;> field_simp <;> (try rw [hdet]) <;> ring
      exact ⟨hm _ (by intro i j; fin_cases i <;> fin_cases j <;> simp [Arr2.put]),
        key (hm _ (by intro i j; fin_cases i <;> fin_cases j <;> simp [Arr2.put])), d.symm, h0⟩
  split
  · next h =>
    subst h
    set det := a 0 0 * (a 1 1 * a 2 2 - a 1 2 * a 2 1) - a 0 1 * (a 1 0 * a 2 2 - a 1 2 * a 2 0) + a 0 2 * (a 1 0 * a 2 1 - a 1 1 * a 2 0)
      with hdet
    have d : (blockOf 3 a).det = det := by rw [Matrix.det_fin_three]; simp [blockOf, hdet]; ring
    by_cases h : |det| ≤ tol
    · right; left; exact ⟨by simp only [if_pos h], by omega, by rw [d]; exact h⟩
    · left
      refine ⟨_, _, by simp only [if_neg h]; rfl, ?_⟩
      have h0 := nz h
      have hm : ∀ ai', (∀ i j : Fin 3, ai' i j = (!![(a 1 1 * a 2 2 - a 1 2 * a 2 1) / det, (a 0 2 * a 2 1 - a 0 1 * a 2 2) / det,
            (a 0 1 * a 1 2 - a 0 2 * a 1 1) / det;
          (a 1 2 * a 2 0 - a 1 0 * a 2 2) / det, (a 0 0 * a 2 2 - a 0 2 * a 2 0) / det, (a 0 2 * a 1 0 - a 0 0 * a 1 2) / det;
          (a 1 0 * a 2 1 - a 1 1 * a 2 0) / det, (a 0 1 * a 2 0 - a 0 0 * a 2 1) / det, (a 0 0 * a 1 1 - a 0 1 * a 1 0) / det] :
          Matrix (Fin 3) (Fin 3) α) i j) → blockOf 3 a * blockOf 3 ai' = 1 := by
        intro ai' h
        rw [blockOf_ext.2 h]
        ext i j
        fin_cases i <;> fin_cases j <;> simp [Matrix.mul_apply, Fin.sum_univ_three, blockOf] <;> field_simp <;> rw [hdet] <;> ring
      exact ⟨hm _ (by intro i j; fin_cases i <;> fin_cases j <;> simp [Arr2.put]),
        key (hm _ (by intro i j; fin_cases i <;> fin_cases j <;> simp [Arr2.put])), d.symm, h0⟩
  · have h4 : 4 ≤ n := by omega
    have hl := hl h4
    have hp := hl.pivots
    have hf := hl.factors
    have hi := hl.info
    have hv := hl.inverse
    rcases hg : lp.getrf n a with ⟨lu, ipiv, info⟩
    rw [hg] at hp hf hi hv
    simp only at hp hf hi hv
    have d : (blockOf n a).det = (∏ i ∈ Finset.range n, if ipiv i - 1 = i then (1 : α) else -1) * ∏ i ∈ Finset.range n, lu i i := by
      rw [hf, Matrix.det_mul, Matrix.det_mul, det_interchanges n hp, det_lower, det_upper, one_mul]
    simp only
    rcases hi with ⟨h0, hz⟩ | ⟨k, hk, he, hz⟩
    · left
      rw [if_neg (by omega), if_neg (by omega)]
      refine ⟨_, _, rfl, hv hz, key (hv hz), ?_, ?_⟩
      · rw [det_loop, Finset.prod_mul_distrib, d]
      · rw [det_loop]
        refine Finset.prod_ne_zero_iff.2 fun i hi => mul_ne_zero ?_ (hz i (Finset.mem_range.1 hi))
        split_ifs <;> simp
    · right; right
      rw [if_neg (by omega), if_pos (by omega)]
      refine ⟨rfl, h4, ?_⟩
      rw [d, Finset.prod_eq_zero (f := fun i => lu i i) (Finset.mem_range.2 hk) hz, mul_zero]

omit [IsStrictOrderedRing α] in
/-- **C89 (dimensions).** The matrices must be square and of the same order; the determinant of the empty matrix is returned as zero. -/
theorem C89_dimensions (lp : Lapack α) (tol : α) (mi ni m n : Nat) (ai a : Arr2 α) :
    (m ≠ n → matInverse lp tol mi ni ai m n a = err "matrix must be square") ∧
    (m = n → (mi ≠ m ∨ ni ≠ n) → matInverse lp tol mi ni ai m n a = err "matrices are incompatible") ∧
    matInverse lp tol 0 0 ai 0 0 a = ok (0, ai) := by
  refine ⟨fun h => ?_, fun h h' => ?_, rfl⟩
  · unfold matInverse; rw [if_pos h]
  · unfold matInverse; rw [if_neg (by simp [h]), if_pos h']

/-- **C89 (accepted).** Up to order three the call succeeds exactly if the determinant is larger than the tolerance. -/
theorem C89_accepts (lp : Lapack α) {tol : α} (ht : 0 ≤ tol) {n : Nat} (hn : 0 < n) (h3 : n ≤ 3) (ai a : Arr2 α) :
    (∃ r, matInverse lp tol n n ai n n a = ok r) ↔ tol < |(blockOf n a).det| := by
  have c : tol < |(blockOf n a).det| → ∃ r, matInverse lp tol n n ai n n a = ok r := by
    intro h
    rcases C89_mat_inverse (lp := lp) ht hn ai a (fun h => by omega) with ⟨det, ai', e, _⟩ | ⟨_, _, h'⟩ | ⟨_, h4, _⟩
    · exact ⟨_, e⟩
    · exact absurd h (not_lt.2 h')
    · omega
  refine ⟨fun ⟨r, e⟩ => ?_, c⟩
  by_contra hc
  have hc := not_lt.1 hc
  have : n = 1 ∨ n = 2 ∨ n = 3 := by omega
  rcases this with rfl | rfl | rfl
  · have d : (blockOf 1 a).det = a 0 0 := by simp [blockOf]
    rw [d] at hc
    simp [matInverse, if_pos hc] at e
  · have d : (blockOf 2 a).det = a 0 0 * a 1 1 - a 0 1 * a 1 0 := by rw [Matrix.det_fin_two]; simp [blockOf]
    rw [d] at hc
    simp [matInverse, if_pos hc] at e
  · have d : (blockOf 3 a).det = a 0 0 * (a 1 1 * a 2 2 - a 1 2 * a 2 1) - a 0 1 * (a 1 0 * a 2 2 - a 1 2 * a 2 0)
        + a 0 2 * (a 1 0 * a 2 1 - a 1 1 * a 2 0) := by rw [Matrix.det_fin_three]; simp [blockOf]; ring
    rw [d] at hc
    simp [matInverse, if_pos hc] at e

/-- **C89 (accepted, from order four on).** The call succeeds exactly if the matrix is not singular. -/
theorem C89_accepts_large {lp : Lapack α} {tol : α} (ht : 0 ≤ tol) {n : Nat} (h4 : 4 ≤ n) (ai a : Arr2 α)
    (hl : LapackContract lp n a) :
    (∃ r, matInverse lp tol n n ai n n a = ok r) ↔ (blockOf n a).det ≠ 0 := by
  rcases C89_mat_inverse ht (by omega : 0 < n) ai a (fun _ => hl) with ⟨det, ai', e, _, _, h1, h2⟩ | ⟨_, h3, _⟩ | ⟨e, _, h0⟩
  · exact ⟨fun _ => h1 ▸ h2, fun _ => ⟨_, e⟩⟩
  · omega
  · refine ⟨fun h => ?_, fun h => absurd h0 h⟩
    obtain ⟨r, e'⟩ := h
    rw [e] at e'; cases e'

/-- a permutation of four rows: the second pivot is found in the last row -/
example : ∃ lp : Lapack ℚ, LapackContract lp 4 (fun i j => if (i = 1 ∧ j = 3) ∨ (i = 3 ∧ j = 1) ∨ (i = j ∧ (i = 0 ∨ i = 2)) then 1 else 0) := by
  refine ⟨⟨fun _ _ => (fun i j => if i = j then 1 else 0, fun i => if i = 1 then 4 else i + 1, 0), fun _ _ _ =>
    fun i j => if (i = 1 ∧ j = 3) ∨ (i = 3 ∧ j = 1) ∨ (i = j ∧ (i = 0 ∨ i = 2)) then 1 else 0⟩, ?_, ?_, Or.inl ⟨rfl, ?_⟩, fun _ => ?_⟩
  · have h : (interchanges 4 (fun i => if i = 1 then 4 else i + 1) : Matrix (Fin 4) (Fin 4) ℚ) = (Equiv.swap 1 3).permMatrix ℚ := by
      have e : List.finRange 4 = [0, 1, 2, 3] := by decide
      unfold interchanges
      rw [e]
      simp only [List.map_cons, List.map_nil, List.prod_cons, List.prod_nil]
      have e0 : (⟨0, by omega⟩ : Fin 4) = 0 := rfl
      have e2 : (⟨2, by omega⟩ : Fin 4) = 2 := rfl
      have e3 : (⟨3, by omega⟩ : Fin 4) = 3 := rfl
      simp [e2, e3]
    show _ = interchanges 4 (fun i => if i = 1 then 4 else i + 1) * _
    rw [h]
    ext i j
    fin_cases i <;> fin_cases j <;>
      simp [Matrix.mul_apply, Fin.sum_univ_four, lowerOf, upperOf, blockOf, PEquiv.toMatrix_apply, Equiv.swap_apply_def]
  · intro i hi
    have : i = 0 ∨ i = 1 ∨ i = 2 ∨ i = 3 := by omega
    rcases this with rfl | rfl | rfl | rfl <;> simp
  · intro i hi
    simp
  · ext i j
    fin_cases i <;> fin_cases j <;> simp [Matrix.mul_apply, Fin.sum_univ_four, blockOf]

/-- the same for the matrix below -/
example : ∃ lp : Lapack ℚ, LapackContract lp 4 (fun i j => if i = j then 1e-8 else 0) := by
  refine ⟨⟨fun _ _ => (fun i j => if i = j then 1e-8 else 0, fun i => i + 1, 0), fun _ _ _ =>
    fun i j => if i = j then 1e8 else 0⟩, ?_, ?_, Or.inl ⟨rfl, ?_⟩, fun _ => ?_⟩
  · have h : (interchanges 4 (fun i => i + 1) : Matrix (Fin 4) (Fin 4) ℚ) = 1 := by
      unfold interchanges
      refine List.prod_eq_one fun x hx => ?_
      obtain ⟨i, _, rfl⟩ := List.mem_map.1 hx
      simp
    show _ = interchanges 4 (fun i => i + 1) * _
    rw [h, one_mul]
    ext i j
    fin_cases i <;> fin_cases j <;> simp [Matrix.mul_apply, Fin.sum_univ_four, lowerOf, upperOf, blockOf]
  · intro i hi
    constructor
    · exact le_rfl
    · exact hi
  · intro i hi
    norm_num
  · ext i j
    fin_cases i <;> fin_cases j <;> norm_num [Matrix.mul_apply, Fin.sum_univ_four, blockOf]

/-- **C89 (refused although regular).** The matrix `1e-8 I` of order two is refused, while the one of order four is inverted. -/
theorem C89_small_determinant_counterexample {lp : Lapack ℚ} (ai : Arr2 ℚ)
    (hl : LapackContract lp 4 (fun i j => if i = j then 1e-8 else 0)) :
    matInverse lp 1e-15 2 2 ai 2 2 (fun i j => if i = j then 1e-8 else 0) = err "cannot compute inverse due to zero determinant" ∧
    (blockOf 2 (fun i j => if i = j then (1e-8 : ℚ) else 0)).det ≠ 0 ∧
    ∃ r, matInverse lp 1e-15 4 4 ai 4 4 (fun i j => if i = j then 1e-8 else 0) = ok r := by
  refine ⟨?_, ?_, ?_⟩
  · norm_num [matInverse]
  · rw [Matrix.det_fin_two]; norm_num [blockOf]
  · rw [C89_accepts_large (by norm_num) le_rfl _ _ hl]
    have : blockOf 4 (fun i j => if i = j then (1e-8 : ℚ) else 0) = Matrix.diagonal fun _ => 1e-8 := by
      ext i j
      simp only [blockOf, Matrix.diagonal_apply, Fin.ext_iff]
    rw [this, Matrix.det_diagonal]
    norm_num

end props

end Russell.Lab
