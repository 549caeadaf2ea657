import Verif.Lab.Kernels
import Verif.Lab.Norms
import Mathlib.Algebra.BigOperators.Group.Finset.Basic
import Mathlib.Algebra.BigOperators.Ring.Finset
import Mathlib.Algebra.BigOperators.Fin
import Mathlib.Algebra.Order.BigOperators.Group.Finset

/-!
# Dense operations on top of BLAS (property C101)

Models of the functions of russell_lab that check dimensions and then call a BLAS routine on column-major data. The routines are modelled
by their published contract on flat arrays with a leading dimension: a parameter that the contract forbids and an access outside of an
array both give `panic` (the library reports an illegal argument, or the behaviour is undefined). Exact arithmetic; an old value that is
multiplied by zero counts as zero.
-/

namespace Russell.Lab

open Russell Russell.Res Russell.Sparse

variable {α : Type}

/-! ## The routines of the library -/

/-- `CBLAS_COL_MAJOR`, `CBLAS_NO_TRANS`, `CBLAS_TRANS`, `CBLAS_CONJ_TRANS`, `CBLAS_UPPER`, `CBLAS_LOWER`
(/repo/russell_lab/src/internal/constants.rs:29-34) -/
def colMajor : Int := 102
def noTrans : Int := 111
def trans : Int := 112
def conjTrans : Int := 113
def cblasUpper : Int := 121
def cblasLower : Int := 122

/-- a `rows × cols` block with leading dimension `ld` lies inside of the array -/
def InArray (a : List α) (ld rows cols : Nat) : Prop := rows = 0 ∨ cols = 0 ∨ rows + (cols - 1) * ld ≤ a.length

instance (a : List α) (ld rows cols : Nat) : Decidable (InArray a ld rows cols) := by unfold InArray; infer_instance

/-- entry `(i, l)` of `op(A)`; `cj` is the conjugation (the identity for real numbers) -/
def opEntry [Zero α] (cj : α → α) (tr : Int) (a : List α) (ld i l : Nat) : α :=
  if tr = noTrans then a.getD (i + l * ld) 0
  else if tr = trans then a.getD (l + i * ld) 0
  else cj (a.getD (l + i * ld) 0)

/-- the transposition codes known to the library -/
def IsTrans (tr : Int) : Prop := tr = noTrans ∨ tr = trans ∨ tr = conjTrans

instance (tr : Int) : Decidable (IsTrans tr) := by unfold IsTrans; infer_instance

/-- `cblas_dgemv`, `cblas_zgemv`: `y := α op(A) x + β y` with unit increments -/
def gemv [CommSemiring α] (cj : α → α) (layout tr m n : Int) (alpha : α) (a : List α) (lda : Int) (x : List α) (incx : Int) (beta : α)
    (y : List α) (incy : Int) : Res (List α) :=
  if layout ≠ colMajor ∨ ¬ IsTrans tr ∨ m < 0 ∨ n < 0 ∨ lda < max 1 m ∨ incx ≠ 1 ∨ incy ≠ 1 then panic
  else
    let leny := (if tr = noTrans then m else n).toNat
    let lenx := (if tr = noTrans then n else m).toNat
    if m = 0 ∨ n = 0 then ok y
    else if ¬ (InArray a lda.toNat m.toNat n.toNat ∧ leny ≤ y.length ∧ lenx ≤ x.length) then panic
    else ok (y.mapIdx fun i yi =>
      if i < leny then alpha * ∑ l ∈ Finset.range lenx, opEntry cj tr a lda.toNat i l * x.getD l 0 + beta * yi else yi)

/-- `cblas_dger`: `A := α x yᵀ + A` with unit increments -/
def ger [CommSemiring α] (layout m n : Int) (alpha : α) (x : List α) (incx : Int) (y : List α) (incy : Int) (a : List α) (lda : Int) :
    Res (List α) :=
  if layout ≠ colMajor ∨ m < 0 ∨ n < 0 ∨ lda < max 1 m ∨ incx ≠ 1 ∨ incy ≠ 1 then panic
  else if m = 0 ∨ n = 0 then ok a
  else if ¬ (InArray a lda.toNat m.toNat n.toNat ∧ m.toNat ≤ x.length ∧ n.toNat ≤ y.length) then panic
  else ok (a.mapIdx fun p v =>
    if p % lda.toNat < m.toNat ∧ p / lda.toNat < n.toNat then alpha * (x.getD (p % lda.toNat) 0 * y.getD (p / lda.toNat) 0) + v else v)

/-- `cblas_dgemm`, `cblas_zgemm`: `C := α op(A) op(B) + β C` -/
def gemm [CommSemiring α] (cj : α → α) (layout ta tb m n k : Int) (alpha : α) (a : List α) (lda : Int) (b : List α) (ldb : Int) (beta : α)
    (c : List α) (ldc : Int) : Res (List α) :=
  let nrowa := if ta = noTrans then m else k
  let ncola := if ta = noTrans then k else m
  let nrowb := if tb = noTrans then k else n
  let ncolb := if tb = noTrans then n else k
  if layout ≠ colMajor ∨ ¬ IsTrans ta ∨ ¬ IsTrans tb ∨ m < 0 ∨ n < 0 ∨ k < 0 ∨ lda < max 1 nrowa ∨ ldb < max 1 nrowb ∨ ldc < max 1 m then
    panic
  else if m = 0 ∨ n = 0 then ok c
  else if ¬ (InArray a lda.toNat nrowa.toNat ncola.toNat ∧ InArray b ldb.toNat nrowb.toNat ncolb.toNat ∧
      InArray c ldc.toNat m.toNat n.toNat) then panic
  else ok (c.mapIdx fun p v =>
    if p % ldc.toNat < m.toNat ∧ p / ldc.toNat < n.toNat then
      alpha * ∑ l ∈ Finset.range k.toNat, opEntry cj ta a lda.toNat (p % ldc.toNat) l * opEntry cj tb b ldb.toNat l (p / ldc.toNat) + beta * v
    else v)

/-- the indices of the triangle given by `uplo` -/
def InUplo (uplo : Int) (i j : Nat) : Prop := if uplo = cblasUpper then i ≤ j else j ≤ i

instance (uplo : Int) (i j : Nat) : Decidable (InUplo uplo i j) := by unfold InUplo; infer_instance

/-- `cblas_dsyrk`, `cblas_zsyrk`: `C := α A Aᵀ + β C` or `C := α Aᵀ A + β C` in one triangle of `C` -/
def syrk [CommSemiring α] (layout uplo tr n k : Int) (alpha : α) (a : List α) (lda : Int) (beta : α) (c : List α) (ldc : Int) :
    Res (List α) :=
  let nrowa := if tr = noTrans then n else k
  let ncola := if tr = noTrans then k else n
  if layout ≠ colMajor ∨ ¬ (uplo = cblasUpper ∨ uplo = cblasLower) ∨ ¬ (tr = noTrans ∨ tr = trans) ∨ n < 0 ∨ k < 0 ∨ lda < max 1 nrowa ∨
      ldc < max 1 n then panic
  else if n = 0 then ok c
  else if ¬ (InArray a lda.toNat nrowa.toNat ncola.toNat ∧ InArray c ldc.toNat n.toNat n.toNat) then panic
  else ok (c.mapIdx fun p v =>
    if p % ldc.toNat < n.toNat ∧ p / ldc.toNat < n.toNat ∧ InUplo uplo (p % ldc.toNat) (p / ldc.toNat) then
      alpha * ∑ l ∈ Finset.range k.toNat, opEntry id tr a lda.toNat (p % ldc.toNat) l * opEntry id tr a lda.toNat (p / ldc.toNat) l + beta * v
    else v)

/-- `cblas_zherk`: `C := α A Aᴴ + β C` or `C := α Aᴴ A + β C` in one triangle of `C`, `α` and `β` real; the imaginary parts of the
diagonal of `C` are taken as zero and set to zero. `cj` is the conjugation and `re` the real part. -/
def herk [CommSemiring α] (cj re : α → α) (layout uplo tr n k : Int) (alpha : α) (a : List α) (lda : Int) (beta : α) (c : List α)
    (ldc : Int) : Res (List α) :=
  let nrowa := if tr = noTrans then n else k
  let ncola := if tr = noTrans then k else n
  if layout ≠ colMajor ∨ ¬ (uplo = cblasUpper ∨ uplo = cblasLower) ∨ ¬ (tr = noTrans ∨ tr = conjTrans) ∨ n < 0 ∨ k < 0 ∨
      lda < max 1 nrowa ∨ ldc < max 1 n then panic
  else if n = 0 then ok c
  else if ¬ (InArray a lda.toNat nrowa.toNat ncola.toNat ∧ InArray c ldc.toNat n.toNat n.toNat) then panic
  else ok (c.mapIdx fun p v =>
    if p % ldc.toNat < n.toNat ∧ p / ldc.toNat < n.toNat ∧ InUplo uplo (p % ldc.toNat) (p / ldc.toNat) then
      alpha * ∑ l ∈ Finset.range k.toNat, opEntry cj tr a lda.toNat (p % ldc.toNat) l * cj (opEntry cj tr a lda.toNat (p / ldc.toNat) l) +
        beta * (if p % ldc.toNat = p / ldc.toNat then re v else v)
    else v)

/-! ## Functions of the crate -/

section ops

variable [CommSemiring α]

/-- `mat_vec_mul` and `complex_mat_vec_mul` (/repo/russell_lab/src/matvec/mat_vec_mul.rs:63-98, complex_mat_vec_mul.rs:64-104) -/
def matVecMul (cj : α → α) (v : List α) (alpha : α) (a : NumMatrix α) (u : List α) : Res (List α) :=
  let m := v.length
  let n := u.length
  if m ≠ a.nrow ∨ n ≠ a.ncol then err "matrix and vectors are incompatible"
  else if m = 0 then ok v
  else if n = 0 then ok (v.map fun _ => 0)
  else do
    let m_i32 ← toI32 m
    let n_i32 ← toI32 n
    gemv cj colMajor noTrans m_i32 n_i32 alpha a.data m_i32 u 1 0 v 1

/-- `mat_vec_mul_update` (/repo/russell_lab/src/matvec/mat_vec_mul_update.rs:63-97) -/
def matVecMulUpdate (cj : α → α) (v : List α) (alpha : α) (a : NumMatrix α) (u : List α) (beta : α) : Res (List α) :=
  let m := v.length
  let n := u.length
  if m ≠ a.nrow ∨ n ≠ a.ncol then err "matrix and vectors are incompatible"
  else if m = 0 then ok v
  else if n = 0 then ok (v.map fun _ => 0)
  else do
    let m_i32 ← toI32 m
    let n_i32 ← toI32 n
    gemv cj colMajor noTrans m_i32 n_i32 alpha a.data m_i32 u 1 beta v 1

/-- `vec_mat_mul` and `complex_vec_mat_mul` (/repo/russell_lab/src/matvec/vec_mat_mul.rs:69-104, complex_vec_mat_mul.rs:71-111) -/
def vecMatMul (cj : α → α) (v : List α) (alpha : α) (u : List α) (a : NumMatrix α) : Res (List α) :=
  let n := v.length
  let m := u.length
  if m ≠ a.nrow ∨ n ≠ a.ncol then err "matrix and vectors are incompatible"
  else if n = 0 then ok v
  else if m = 0 then ok (v.map fun _ => 0)
  else do
    let m_i32 ← toI32 m
    let n_i32 ← toI32 n
    gemv cj colMajor trans m_i32 n_i32 alpha a.data m_i32 u 1 0 v 1

/-- `vec_outer` (/repo/russell_lab/src/matvec/vec_outer.rs:55-80) -/
def vecOuter (a : NumMatrix α) (alpha : α) (u v : List α) : Res (NumMatrix α) :=
  let m := u.length
  let n := v.length
  if a.nrow ≠ m ∨ a.ncol ≠ n then err "matrix and vectors are incompatible"
  else do
    let m_i32 ← toI32 m
    let n_i32 ← toI32 n
    let a := a.fill 0
    let d ← ger colMajor m_i32 n_i32 alpha u 1 v 1 a.data m_i32
    ok { a with data := d }

/-- `vec_outer_update` (/repo/russell_lab/src/matvec/vec_outer_update.rs:59-83) -/
def vecOuterUpdate (a : NumMatrix α) (alpha : α) (u v : List α) : Res (NumMatrix α) :=
  let m := u.length
  let n := v.length
  if a.nrow ≠ m ∨ a.ncol ≠ n then err "matrix and vectors are incompatible"
  else do
    let m_i32 ← toI32 m
    let n_i32 ← toI32 n
    let d ← ger colMajor m_i32 n_i32 alpha u 1 v 1 a.data m_i32
    ok { a with data := d }

/-- `mat_sum_cols` (/repo/russell_lab/src/matvec/mat_sum_cols.rs:51-63) -/
def matSumCols (v : List α) (a : NumMatrix α) : Res (List α) :=
  if v.length ≠ a.nrow then err "vector is incompatible"
  else forRange 0 a.nrow v fun i v => do
    let v ← vset v i 0
    forRange 0 a.ncol v fun j v => do
      let x ← vget v i
      let y ← a.get i j
      vset v i (x + y)

/-- `mat_sum_rows` (/repo/russell_lab/src/matvec/mat_sum_rows.rs:53-65) -/
def matSumRows (v : List α) (a : NumMatrix α) : Res (List α) :=
  if v.length ≠ a.ncol then err "vector is incompatible"
  else forRange 0 a.ncol v fun j v => do
    let v ← vset v j 0
    forRange 0 a.nrow v fun i v => do
      let x ← vget v j
      let y ← a.get i j
      vset v j (x + y)

/-- `mat_mat_mul` and `complex_mat_mat_mul` (/repo/russell_lab/src/matrix/mat_mat_mul.rs:62-99, complex_mat_mat_mul.rs:66-110) -/
def matMatMul (cj : α → α) (c : NumMatrix α) (alpha : α) (a b : NumMatrix α) (beta : α) : Res (NumMatrix α) :=
  let m := c.nrow
  let n := c.ncol
  let k := a.ncol
  if a.nrow ≠ m ∨ b.nrow ≠ k ∨ b.ncol ≠ n then err "matrices are incompatible"
  else if m = 0 ∨ n = 0 then ok c
  else if k = 0 then ok (c.fill 0)
  else do
    let m_i32 ← toI32 m
    let n_i32 ← toI32 n
    let k_i32 ← toI32 k
    let lda := m_i32
    let ldb := k_i32
    let d ← gemm cj colMajor noTrans noTrans m_i32 n_i32 k_i32 alpha a.data lda b.data ldb beta c.data m_i32
    ok { c with data := d }

/-- `mat_t_mat_mul` and `complex_mat_t_mat_mul` (/repo/russell_lab/src/matrix/mat_t_mat_mul.rs:60-97, complex_mat_t_mat_mul.rs:66-110) -/
def matTMatMul (cj : α → α) (c : NumMatrix α) (alpha : α) (a b : NumMatrix α) (beta : α) : Res (NumMatrix α) :=
  let m := c.nrow
  let n := c.ncol
  let k := a.nrow
  if a.ncol ≠ m ∨ b.nrow ≠ k ∨ b.ncol ≠ n then err "matrices are incompatible"
  else if m = 0 ∨ n = 0 then ok c
  else if k = 0 then ok (c.fill 0)
  else do
    let m_i32 ← toI32 m
    let n_i32 ← toI32 n
    let k_i32 ← toI32 k
    let lda := k_i32
    let ldb := k_i32
    let d ← gemm cj colMajor trans noTrans m_i32 n_i32 k_i32 alpha a.data lda b.data ldb beta c.data m_i32
    ok { c with data := d }

/-- the choice of `(lda, k, trans)` in `mat_sym_rank_op` (/repo/russell_lab/src/matrix/mat_sym_rank_op.rs:103-117) and in the complex
versions, where `tcode` is `CBLAS_TRANS` or `CBLAS_CONJ_TRANS` -/
def rankArgs (tcode : Int) (n row col : Nat) (second_case : Bool) : Res (Nat × Nat × Int) :=
  if !second_case then if row ≠ n then err "[a] matrix is incompatible" else ok (row, col, noTrans)
  else if col ≠ n then err "[a] matrix is incompatible" else ok (row, row, tcode)

/-- `mat_sym_rank_op` and `complex_mat_sym_rank_op` (/repo/russell_lab/src/matrix/mat_sym_rank_op.rs:90-138,
complex_mat_sym_rank_op.rs:94-142) -/
def matSymRankOp (c a : NumMatrix α) (alpha beta : α) (upper second_case : Bool) : Res (NumMatrix α) :=
  let m := c.nrow
  let n := c.ncol
  if m ≠ n then err "[c] matrix must be square"
  else do
    let (lda, k, tr) ← rankArgs trans n a.nrow a.ncol second_case
    let uplo := if upper then cblasUpper else cblasLower
    let n_i32 ← toI32 n
    let k_i32 ← toI32 k
    let ldc := n_i32
    let lda_i32 ← toI32 lda
    let d ← syrk colMajor uplo tr n_i32 k_i32 alpha a.data lda_i32 beta c.data ldc
    ok { c with data := d }

/-- `complex_mat_herm_rank_op` (/repo/russell_lab/src/matrix/complex_mat_herm_rank_op.rs:92-140) -/
def matHermRankOp (cj re : α → α) (c a : NumMatrix α) (alpha beta : α) (upper second_case : Bool) : Res (NumMatrix α) :=
  let m := c.nrow
  let n := c.ncol
  if m ≠ n then err "[c] matrix must be square"
  else do
    let (lda, k, tr) ← rankArgs conjTrans n a.nrow a.ncol second_case
    let uplo := if upper then cblasUpper else cblasLower
    let n_i32 ← toI32 n
    let k_i32 ← toI32 k
    let ldc := n_i32
    let lda_i32 ← toI32 lda
    let d ← herk cj re colMajor uplo tr n_i32 k_i32 alpha a.data lda_i32 beta c.data ldc
    ok { c with data := d }

/-- `mat_copy`, `complex_mat_copy` (/repo/russell_lab/src/matrix/mat_copy.rs:41-51) -/
def matCopy (b a : NumMatrix α) : Res (NumMatrix α) :=
  if a.nrow ≠ b.nrow ∨ a.ncol ≠ b.ncol then err "matrices are incompatible"
  else do
    let _ ← toI32 (b.nrow * b.ncol)
    ok { b with data := blasCopy (b.nrow * b.ncol) a.data b.data }

/-- `mat_scale`, `complex_mat_scale` (/repo/russell_lab/src/matrix/mat_scale.rs:39-45) -/
def matScale (a : NumMatrix α) (alpha : α) : Res (NumMatrix α) := do
  let _ ← toI32 (a.nrow * a.ncol)
  ok { a with data := blasScal (a.nrow * a.ncol) alpha a.data }

/-- `mat_update`, `complex_mat_update` (/repo/russell_lab/src/matrix/mat_update.rs:43-53) -/
def matUpdate (b : NumMatrix α) (alpha : α) (a : NumMatrix α) : Res (NumMatrix α) :=
  if a.nrow ≠ b.nrow ∨ a.ncol ≠ b.ncol then err "matrices are incompatible"
  else do
    let _ ← toI32 (b.nrow * b.ncol)
    ok { b with data := blasAxpy (b.nrow * b.ncol) alpha a.data b.data }

/-- `mat_add`, `complex_mat_add` (/repo/russell_lab/src/matrix/mat_add.rs:36-42) -/
def matAdd (c : NumMatrix α) (alpha : α) (a : NumMatrix α) (beta : α) (b : NumMatrix α) : Res (NumMatrix α) :=
  if a.nrow ≠ c.nrow ∨ a.ncol ≠ c.ncol ∨ b.nrow ≠ c.nrow ∨ b.ncol ≠ c.ncol then err "matrices are incompatible"
  else do
    let d ← arrayOpx c.data alpha a.data beta b.data
    ok { c with data := d }

/-- `mat_plus` and `mat_minus` with `op` the addition or subtraction (/repo/russell_lab/src/matrix/mat_plus.rs:34-40, mat_minus.rs:34-40,
complex_mat_plus.rs:34-40, complex_mat_minus.rs:34-40) -/
def matOp (op : α → α → α) (c a b : NumMatrix α) : Res (NumMatrix α) :=
  if a.nrow ≠ c.nrow ∨ a.ncol ≠ c.ncol ∨ b.nrow ≠ c.nrow ∨ b.ncol ≠ c.ncol then err "matrices are incompatible"
  else do
    let d ← arrayOp op c.data a.data b.data
    ok { c with data := d }

/-- `vec_copy`, `complex_vec_copy` (/repo/russell_lab/src/vector/vec_copy.rs:36-46) -/
def vecCopy (v u : List α) : Res (List α) :=
  if u.length ≠ v.length then err "vectors are incompatible"
  else do
    let _ ← toI32 v.length
    ok (blasCopy v.length u v)

/-- `vec_scale`, `complex_vec_scale` (/repo/russell_lab/src/vector/vec_scale.rs:34-39) -/
def vecScale (v : List α) (alpha : α) : Res (List α) := do
  let _ ← toI32 v.length
  ok (blasScal v.length alpha v)

/-- `vec_update`, `complex_vec_update` (/repo/russell_lab/src/vector/vec_update.rs:38-48) -/
def vecUpdate (v : List α) (alpha : α) (u : List α) : Res (List α) :=
  if u.length ≠ v.length then err "vectors are incompatible"
  else do
    let _ ← toI32 v.length
    ok (blasAxpy v.length alpha u v)

/-- `vec_copy_scaled` (/repo/russell_lab/src/vector/vec_copy_scaled.rs:45-61): `n % 4` single steps, then blocks of four; the operation of
the kernel ignores its second argument -/
def vecCopyScaled (v : List α) (alpha : α) (u : List α) : Res (List α) :=
  if u.length ≠ v.length then err "vectors are incompatible"
  else do
    let m := v.length % 4
    let v' ← forRange 0 m v (kassign (fun x _ => alpha * x) u u)
    kblocks (fun x _ => alpha * x) u u m v.length v'

/-- `small_vec_add` (/repo/russell_lab/src/small/small_vec_add.rs:42-56); arrays of length `N` -/
def smallVecAdd (w : List α) (alpha : α) (u : List α) (beta : α) (v : List α) (n : Nat) : Res (List α) :=
  if ¬ n ≤ w.length then panic
  else forRange 0 n w fun i w => do
    let x ← vget u i
    let y ← vget v i
    vset w i (alpha * x + beta * y)

/-- `small_vec_update` (/repo/russell_lab/src/small/small_vec_update.rs:39-47) -/
def smallVecUpdate (v : List α) (alpha : α) (u : List α) (n : Nat) : Res (List α) :=
  if ¬ n ≤ v.length then panic
  else forRange 0 n v fun i v => do
    let x ← vget v i
    let y ← vget u i
    vset v i (x + alpha * y)

end ops

/-! ## Proofs -/

theorem _root_.Russell.Sparse.IsDense.getD' [Zero α] {a : NumMatrix α} {m n : Nat} {f : Nat → Nat → α} (h : IsDense a m n f) {i j : Nat} (hi : i < m) (hj : j < n) :
    a.data.getD (i + j * m) 0 = f i j := by
  have e := h.get i j hi hj
  rw [NumMatrix.get, h.nrow, vget_eq_ok] at e
  rw [List.getD_eq_getElem?_getD, e]
  rfl

theorem _root_.Russell.Sparse.IsDense.inArray {a : NumMatrix α} {m n : Nat} {f : Nat → Nat → α} (h : IsDense a m n f) : InArray a.data m m n := by
  rcases Nat.eq_zero_or_pos n with h0 | h0
  · exact Or.inr (Or.inl h0)
  · refine Or.inr (Or.inr ?_)
    rw [h.len]
    obtain ⟨k, rfl⟩ : ∃ k, n = k + 1 := ⟨n - 1, by omega⟩
    simp only [Nat.add_sub_cancel, Nat.mul_succ]
    rw [Nat.mul_comm]; omega

theorem isDense_of {c : NumMatrix α} {m n : Nat} {f g : Nat → Nat → α} (hc : IsDense c m n g) {l : List α} (hl : l.length = m * n)
    (h : ∀ i j, i < m → j < n → l[i + j * m]? = some (f i j)) : IsDense { c with data := l } m n f :=
  ⟨hc.nrow, hc.ncol, hl, fun i j hi hj => by rw [NumMatrix.get]; dsimp only; rw [hc.nrow]; exact vget_of (h i j hi hj)⟩

theorem _root_.Russell.Sparse.IsDense.entry {a : NumMatrix α} {m n : Nat} {f : Nat → Nat → α} (h : IsDense a m n f) {i j : Nat} (hi : i < m) (hj : j < n) :
    a.data[i + j * m]? = some (f i j) := by
  have e := h.get i j hi hj
  rwa [NumMatrix.get, h.nrow, vget_eq_ok] at e

theorem lin_mod {m i j : Nat} (hi : i < m) : (i + j * m) % m = i ∧ (i + j * m) / m = j := by
  refine ⟨by rw [Nat.add_mul_mod_self_right, Nat.mod_eq_of_lt hi], ?_⟩
  rw [Nat.add_mul_div_right _ _ (by omega : 0 < m), Nat.div_eq_of_lt hi]; omega

theorem isDense_mapIdx {c : NumMatrix α} {m n : Nat} {f : Nat → Nat → α} (hc : IsDense c m n f) (g : Nat → α → α) (f' : Nat → Nat → α)
    (h : ∀ i j, i < m → j < n → g (i + j * m) (f i j) = f' i j) : IsDense { c with data := c.data.mapIdx g } m n f' := by
  exact isDense_of hc (by rw [List.length_mapIdx, hc.len]) (fun i j hi hj => by
    rw [List.getElem?_mapIdx, hc.entry hi hj, Option.map_some, h i j hi hj])

theorem isVec_mapIdx {v : List α} {n : Nat} {f f' : Nat → α} (hv : IsVec v n f) (g : Nat → α → α) (h : ∀ i, i < n → g i (f i) = f' i) :
    IsVec (v.mapIdx g) n f' := by
  refine ⟨by rw [List.length_mapIdx, hv.len], fun i hi => ?_⟩
  rw [List.getElem?_mapIdx, hv.get i hi, Option.map_some, h i hi]

theorem IsVec.getD' [Zero α] {v : List α} {n : Nat} {f : Nat → α} (h : IsVec v n f) {i : Nat} (hi : i < n) : v.getD i 0 = f i := by
  rw [List.getD_eq_getElem?_getD, h.get i hi]; rfl

theorem isVec_zero [Zero α] {v : List α} {n : Nat} {f : Nat → α} (h : IsVec v n f) : IsVec (v.map fun _ => (0 : α)) n (fun _ => 0) := by
  refine ⟨by rw [List.length_map, h.len], fun i hi => ?_⟩
  rw [List.getElem?_map, h.get i hi]; rfl

theorem isDense_fill {c : NumMatrix α} {m n : Nat} {f : Nat → Nat → α} (hc : IsDense c m n f) (x : α) :
    IsDense (c.fill x) m n (fun _ _ => x) := by
  exact isDense_of hc (by rw [List.length_map, hc.len]) (fun i j hi hj => by rw [List.getElem?_map, hc.entry hi hj]; rfl)

section products

variable [CommSemiring α]

theorem gemv_plain (cj : α → α) {m n : Nat} (hm : 0 < m) (hn : 0 < n) (alpha beta : α) {a : NumMatrix α} {A : Nat → Nat → α}
    (ha : IsDense a m n A) {u v : List α} {U V : Nat → α} (hu : IsVec u n U) (hv : IsVec v m V) :
    ∃ w, gemv cj colMajor noTrans m n alpha a.data m u 1 beta v 1 = ok w ∧
      IsVec w m fun i => alpha * ∑ j ∈ Finset.range n, A i j * U j + beta * V i := by
  refine ⟨_, ?_, isVec_mapIdx hv (fun i yi =>
      if i < m then alpha * ∑ l ∈ Finset.range n, opEntry cj noTrans a.data m i l * u.getD l 0 + beta * yi else yi) ?_⟩
  · unfold gemv
    rw [if_neg (by simp [IsTrans]; omega)]
    simp only [if_true, Int.toNat_natCast]
    rw [if_neg (by omega), if_neg (by simp [ha.inArray, hu.len, hv.len])]
  · intro i hi
    rw [if_pos hi]
    congr 2
    refine Finset.sum_congr rfl fun l hl => ?_
    rw [Finset.mem_range] at hl
    rw [opEntry, if_pos rfl, ha.getD' hi hl, hu.getD' hl]

theorem gemv_trans (cj : α → α) {m n : Nat} (hm : 0 < m) (hn : 0 < n) (alpha beta : α) {a : NumMatrix α} {A : Nat → Nat → α}
    (ha : IsDense a m n A) {u v : List α} {U V : Nat → α} (hu : IsVec u m U) (hv : IsVec v n V) :
    ∃ w, gemv cj colMajor trans m n alpha a.data m u 1 beta v 1 = ok w ∧
      IsVec w n fun j => alpha * ∑ i ∈ Finset.range m, U i * A i j + beta * V j := by
  refine ⟨_, ?_, isVec_mapIdx hv (fun i yi =>
      if i < n then alpha * ∑ l ∈ Finset.range m, opEntry cj trans a.data m i l * u.getD l 0 + beta * yi else yi) ?_⟩
  · unfold gemv
    rw [if_neg (by simp [IsTrans]; omega)]
    have e : ¬ trans = noTrans := by decide
    simp only [if_neg e, Int.toNat_natCast]
    rw [if_neg (by omega), if_neg (by simp [ha.inArray, hu.len, hv.len])]
  · intro j hj
    rw [if_pos hj]
    congr 2
    refine Finset.sum_congr rfl fun l hl => ?_
    rw [Finset.mem_range] at hl
    rw [opEntry, if_neg (by decide), if_pos rfl, ha.getD' hl hj, hu.getD' hl, mul_comm]

theorem gemm_dense (cj : α → α) (ta : Int) (hta : ta = noTrans ∨ ta = trans) {m n k : Nat} (hm : 0 < m) (hn : 0 < n) (hk : 0 < k)
    (alpha beta : α) {a b c : NumMatrix α} {A B C : Nat → Nat → α} (ha : IsDense a (if ta = noTrans then m else k) (if ta = noTrans then k else m) A)
    (hb : IsDense b k n B) (hc : IsDense c m n C) :
    ∃ d, gemm cj colMajor ta noTrans m n k alpha a.data (if ta = noTrans then (m : Int) else k) b.data k beta c.data m = ok d ∧
      IsDense { c with data := d } m n fun i j =>
        alpha * ∑ l ∈ Finset.range k, (if ta = noTrans then A i l else A l i) * B l j + beta * C i j := by
  refine ⟨_, ?_, isDense_mapIdx hc (fun p v =>
    if p % m < m ∧ p / m < n then
      alpha * ∑ l ∈ Finset.range k, opEntry cj ta a.data (if ta = noTrans then m else k) (p % m) l * opEntry cj noTrans b.data k l (p / m) +
        beta * v else v) _ ?_⟩
  · unfold gemm
    have hld : (if ta = noTrans then (m : Int) else k).toNat = if ta = noTrans then m else k := by split <;> simp
    have hl2 : (if ta = noTrans then (k : Int) else m).toNat = if ta = noTrans then k else m := by split <;> simp
    simp only [if_true, hld, hl2, Int.toNat_natCast]
    rw [if_neg (by simp [IsTrans]; split <;> omega), if_neg (by omega), if_neg (by
      simp only [not_not]
      exact ⟨ha.inArray, hb.inArray, hc.inArray⟩)]
  · intro i j hi hj
    obtain ⟨e1, e2⟩ := lin_mod (j := j) hi
    simp only [e1, e2]
    rw [if_pos ⟨hi, hj⟩]
    congr 2
    refine Finset.sum_congr rfl fun l hl => ?_
    rw [Finset.mem_range] at hl
    have eb : opEntry cj noTrans b.data k l j = B l j := by rw [opEntry, if_pos rfl, hb.getD' hl hj]
    rw [eb]
    rcases hta with h | h
    · subst h
      simp only [if_true] at ha ⊢
      rw [opEntry, if_pos rfl, ha.getD' hi hl]
    · subst h
      have e : ¬ trans = noTrans := by decide
      simp only [if_neg e] at ha ⊢
      rw [opEntry, if_neg e, if_pos rfl, ha.getD' hl hi]

/-! ## The theorems -/

/-- **C101** `mat_vec_mul` computes `v := α a u`, for an empty `u` too; `mat_vec_mul_update` computes `v := α a u + β v` if `u` is not
empty. They succeed exactly for matching dimensions, without access outside of the arrays (the numbers of rows and columns must fit in
`i32`). -/
theorem C101_mat_vec_mul (cj : α → α) {m n : Nat} (hm : m < 2147483648) (hn : n < 2147483648) (alpha beta : α) {a : NumMatrix α}
    {A : Nat → Nat → α} (ha : IsDense a m n A) {u v : List α} {U V : Nat → α} (hu : IsVec u n U) (hv : IsVec v m V) :
    (∃ w, matVecMul cj v alpha a u = ok w ∧ IsVec w m fun i => alpha * ∑ j ∈ Finset.range n, A i j * U j) ∧
    (0 < n → ∃ w, matVecMulUpdate cj v alpha a u beta = ok w ∧
      IsVec w m fun i => alpha * ∑ j ∈ Finset.range n, A i j * U j + beta * V i) := by
  constructor
  · unfold matVecMul
    simp only [hu.len, hv.len, ha.nrow, ha.ncol]
    rw [if_neg (by simp)]
    by_cases h0 : m = 0
    · subst h0; rw [if_pos rfl]; exact ⟨v, rfl, hv.congr fun i hi => absurd hi (by omega)⟩
    rw [if_neg h0]
    by_cases h1 : n = 0
    · subst h1; rw [if_pos rfl]
      exact ⟨_, rfl, (isVec_zero hv).congr fun i hi => by simp⟩
    rw [if_neg h1, toI32_lt hm, ok_bind, toI32_lt hn, ok_bind]
    obtain ⟨w, e, hw⟩ := gemv_plain cj (by omega) (by omega) alpha 0 ha hu hv
    exact ⟨w, e, hw.congr fun i hi => by simp⟩
  · intro h1
    unfold matVecMulUpdate
    simp only [hu.len, hv.len, ha.nrow, ha.ncol]
    rw [if_neg (by simp)]
    by_cases h0 : m = 0
    · subst h0; rw [if_pos rfl]; exact ⟨v, rfl, hv.congr fun i hi => absurd hi (by omega)⟩
    rw [if_neg h0, if_neg (by omega), toI32_lt hm, ok_bind, toI32_lt hn, ok_bind]
    exact gemv_plain cj (by omega) (by omega) alpha beta ha hu hv

/-- **C101** `vec_mat_mul` computes `v := α uᵀ a`. -/
theorem C101_vec_mat_mul (cj : α → α) {m n : Nat} (hm : m < 2147483648) (hn : n < 2147483648) (alpha : α) {a : NumMatrix α}
    {A : Nat → Nat → α} (ha : IsDense a m n A) {u v : List α} {U V : Nat → α} (hu : IsVec u m U) (hv : IsVec v n V) :
    ∃ w, vecMatMul cj v alpha u a = ok w ∧ IsVec w n fun j => alpha * ∑ i ∈ Finset.range m, U i * A i j := by
  unfold vecMatMul
  simp only [hu.len, hv.len, ha.nrow, ha.ncol]
  rw [if_neg (by simp)]
  by_cases h0 : n = 0
  · subst h0; rw [if_pos rfl]; exact ⟨v, rfl, hv.congr fun i hi => absurd hi (by omega)⟩
  rw [if_neg h0]
  by_cases h1 : m = 0
  · subst h1; rw [if_pos rfl]
    exact ⟨_, rfl, (isVec_zero hv).congr fun i hi => by simp⟩
  rw [if_neg h1, toI32_lt hm, ok_bind, toI32_lt hn, ok_bind]
  obtain ⟨w, e, hw⟩ := gemv_trans cj (by omega) (by omega) alpha 0 ha hu hv
  exact ⟨w, e, hw.congr fun i hi => by simp⟩

/-- **C101** `mat_mat_mul` computes `c := α a b + β c` and `mat_t_mat_mul` computes `c := α aᵀ b + β c`, if the inner dimension is not
zero. -/
theorem C101_mat_mat_mul (cj : α → α) {m n k : Nat} (hm : m < 2147483648) (hn : n < 2147483648) (hk : k < 2147483648) (h0 : 0 < k)
    (alpha beta : α) {a a' b c : NumMatrix α} {A A' B C : Nat → Nat → α} (ha : IsDense a m k A) (ha' : IsDense a' k m A')
    (hb : IsDense b k n B) (hc : IsDense c m n C) :
    (∃ d, matMatMul cj c alpha a b beta = ok d ∧ IsDense d m n fun i j => alpha * ∑ l ∈ Finset.range k, A i l * B l j + beta * C i j) ∧
    (∃ d, matTMatMul cj c alpha a' b beta = ok d ∧ IsDense d m n fun i j => alpha * ∑ l ∈ Finset.range k, A' l i * B l j + beta * C i j) := by
  have triv : m = 0 ∨ n = 0 → ∀ D, IsDense c m n D := fun h D => ⟨hc.nrow, hc.ncol, hc.len, fun i j hi hj => by omega⟩
  constructor
  · unfold matMatMul
    simp only [ha.nrow, ha.ncol, hb.nrow, hb.ncol, hc.nrow, hc.ncol]
    rw [if_neg (by simp)]
    by_cases h1 : m = 0 ∨ n = 0
    · rw [if_pos h1]; exact ⟨c, rfl, triv h1 _⟩
    rw [if_neg h1, if_neg (by omega), toI32_lt hm, ok_bind, toI32_lt hn, ok_bind, toI32_lt hk, ok_bind]
    obtain ⟨d, e, hd⟩ := gemm_dense cj noTrans (Or.inl rfl) (m := m) (n := n) (k := k) (by omega) (by omega) h0 alpha beta
      (by simpa using ha) hb hc
    simp only [if_true] at e hd
    refine ⟨{ c with data := d }, ?_, hd⟩
    rw [e, ok_bind, hc.nrow, hc.ncol]
  · unfold matTMatMul
    simp only [ha'.nrow, ha'.ncol, hb.nrow, hb.ncol, hc.nrow, hc.ncol]
    rw [if_neg (by simp)]
    by_cases h1 : m = 0 ∨ n = 0
    · rw [if_pos h1]; exact ⟨c, rfl, triv h1 _⟩
    rw [if_neg h1, if_neg (by omega), toI32_lt hm, ok_bind, toI32_lt hn, ok_bind, toI32_lt hk, ok_bind]
    have ne : ¬ trans = noTrans := by decide
    obtain ⟨d, e, hd⟩ := gemm_dense cj trans (Or.inr rfl) (m := m) (n := n) (k := k) (by omega) (by omega) h0 alpha beta
      (by simpa [if_neg ne] using ha') hb hc
    simp only [if_neg ne] at e hd
    refine ⟨{ c with data := d }, ?_, hd⟩
    rw [e, ok_bind, hc.nrow, hc.ncol]

theorem syrk_dense {uplo tr : Int} (hu : uplo = cblasUpper ∨ uplo = cblasLower) (ht : tr = noTrans ∨ tr = trans) {n k : Nat} (hn : 0 < n)
    (hk : tr = trans → 0 < k) (alpha beta : α) {a c : NumMatrix α} {A C : Nat → Nat → α}
    (ha : IsDense a (if tr = noTrans then n else k) (if tr = noTrans then k else n) A) (hc : IsDense c n n C) :
    ∃ d, syrk colMajor uplo tr n k alpha a.data (if tr = noTrans then (n : Int) else k) beta c.data n = ok d ∧
      IsDense { c with data := d } n n fun i j => if InUplo uplo i j then
        alpha * ∑ l ∈ Finset.range k, (if tr = noTrans then A i l * A j l else A l i * A l j) + beta * C i j else C i j := by
  refine ⟨_, ?_, isDense_mapIdx hc (fun p v =>
    if p % n < n ∧ p / n < n ∧ InUplo uplo (p % n) (p / n) then
      alpha * ∑ l ∈ Finset.range k, opEntry id tr a.data (if tr = noTrans then n else k) (p % n) l *
        opEntry id tr a.data (if tr = noTrans then n else k) (p / n) l + beta * v else v) _ ?_⟩
  · unfold syrk
    have hld : (if tr = noTrans then (n : Int) else k).toNat = if tr = noTrans then n else k := by split <;> simp
    have hl2 : (if tr = noTrans then (k : Int) else n).toNat = if tr = noTrans then k else n := by split <;> simp
    have hpos : (1 : Int) ≤ if tr = noTrans then (n : Int) else k := by
      rcases ht with h | h
      · rw [if_pos h]; omega
      · rw [if_neg (by rw [h]; decide)]; have := hk h; omega
    simp only [hld, hl2, Int.toNat_natCast]
    rw [if_neg (by simp [hu, ht]; omega), if_neg (by omega), if_neg (by
      simp only [not_not]
      exact ⟨ha.inArray, hc.inArray⟩)]
  · intro i j hi hj
    obtain ⟨e1, e2⟩ := lin_mod (j := j) hi
    simp only [e1, e2]
    by_cases hin : InUplo uplo i j
    · rw [if_pos ⟨hi, hj, hin⟩, if_pos hin]
      congr 2
      refine Finset.sum_congr rfl fun l hl => ?_
      rw [Finset.mem_range] at hl
      rcases ht with h | h
      · subst h
        simp only [if_true] at ha ⊢
        rw [opEntry, if_pos rfl, ha.getD' hi hl, opEntry, if_pos rfl, ha.getD' hj hl]
      · subst h
        have e : ¬ trans = noTrans := by decide
        simp only [if_neg e] at ha ⊢
        rw [opEntry, if_neg e, if_pos rfl, ha.getD' hl hi, opEntry, if_neg e, if_pos rfl, ha.getD' hl hj]
    · rw [if_neg (by tauto), if_neg hin]

theorem herk_dense (cj re : α → α) {uplo tr : Int} (hu : uplo = cblasUpper ∨ uplo = cblasLower) (ht : tr = noTrans ∨ tr = conjTrans)
    {n k : Nat} (hn : 0 < n) (hk : tr = conjTrans → 0 < k) (alpha beta : α) {a c : NumMatrix α} {A C : Nat → Nat → α}
    (ha : IsDense a (if tr = noTrans then n else k) (if tr = noTrans then k else n) A) (hc : IsDense c n n C) :
    ∃ d, herk cj re colMajor uplo tr n k alpha a.data (if tr = noTrans then (n : Int) else k) beta c.data n = ok d ∧
      IsDense { c with data := d } n n fun i j => if InUplo uplo i j then
        alpha * ∑ l ∈ Finset.range k, (if tr = noTrans then A i l * cj (A j l) else cj (A l i) * cj (cj (A l j))) +
          beta * (if i = j then re (C i j) else C i j) else C i j := by
  refine ⟨_, ?_, isDense_mapIdx hc (fun p v =>
    if p % n < n ∧ p / n < n ∧ InUplo uplo (p % n) (p / n) then
      alpha * ∑ l ∈ Finset.range k, opEntry cj tr a.data (if tr = noTrans then n else k) (p % n) l *
        cj (opEntry cj tr a.data (if tr = noTrans then n else k) (p / n) l) + beta * (if p % n = p / n then re v else v) else v) _ ?_⟩
  · unfold herk
    have hld : (if tr = noTrans then (n : Int) else k).toNat = if tr = noTrans then n else k := by split <;> simp
    have hl2 : (if tr = noTrans then (k : Int) else n).toNat = if tr = noTrans then k else n := by split <;> simp
    have hpos : (1 : Int) ≤ if tr = noTrans then (n : Int) else k := by
      rcases ht with h | h
      · rw [if_pos h]; omega
      · rw [if_neg (by rw [h]; decide)]; have := hk h; omega
    simp only [hld, hl2, Int.toNat_natCast]
    rw [if_neg (by simp [hu, ht]; omega), if_neg (by omega), if_neg (by
      simp only [not_not]
      exact ⟨ha.inArray, hc.inArray⟩)]
  · intro i j hi hj
    obtain ⟨e1, e2⟩ := lin_mod (j := j) hi
    simp only [e1, e2]
    by_cases hin : InUplo uplo i j
    · rw [if_pos ⟨hi, hj, hin⟩, if_pos hin]
      congr 2
      refine Finset.sum_congr rfl fun l hl => ?_
      rw [Finset.mem_range] at hl
      rcases ht with h | h
      · subst h
        simp only [if_true] at ha ⊢
        rw [opEntry, if_pos rfl, ha.getD' hi hl, opEntry, if_pos rfl, ha.getD' hj hl]
      · subst h
        have e : ¬ conjTrans = noTrans := by decide
        have e' : ¬ conjTrans = trans := by decide
        simp only [if_neg e] at ha ⊢
        rw [opEntry, if_neg e, if_neg e', ha.getD' hl hi, opEntry, if_neg e, if_neg e', ha.getD' hl hj]
    · rw [if_neg (by tauto), if_neg hin]

/-- the triangle that the caller asks for -/
def Wanted (upper : Bool) (i j : Nat) : Prop := if upper then i ≤ j else j ≤ i

instance (upper : Bool) (i j : Nat) : Decidable (Wanted upper i j) := by unfold Wanted; infer_instance

theorem inUplo_wanted (upper : Bool) (i j : Nat) : InUplo (if upper then cblasUpper else cblasLower) i j ↔ Wanted upper i j := by
  cases upper
  · rw [if_neg (by simp), InUplo, if_neg (by decide)]; rfl
  · rw [if_pos rfl, InUplo, if_pos rfl]; rfl

/-- **C101** `mat_sym_rank_op` computes `c := α a aᵀ + β c` (first case) or `c := α aᵀ a + β c` (second case) in the requested triangle of
`c` and leaves the other entries as they are. In the second case `a` must have at least one row. -/
theorem C101_sym_rank_op {n k : Nat} (hn : n < 2147483648) (hk : k < 2147483648) (hn0 : 0 < n) (alpha beta : α) (upper : Bool)
    {a a' c : NumMatrix α} {A A' C : Nat → Nat → α} (ha : IsDense a n k A) (ha' : IsDense a' k n A') (hc : IsDense c n n C) :
    (∃ d, matSymRankOp c a alpha beta upper false = ok d ∧ IsDense d n n fun i j => if Wanted upper i j then
      alpha * ∑ l ∈ Finset.range k, A i l * A j l + beta * C i j else C i j) ∧
    (0 < k → ∃ d, matSymRankOp c a' alpha beta upper true = ok d ∧ IsDense d n n fun i j => if Wanted upper i j then
      alpha * ∑ l ∈ Finset.range k, A' l i * A' l j + beta * C i j else C i j) := by
  have hu : (if upper then cblasUpper else cblasLower) = cblasUpper ∨ (if upper then cblasUpper else cblasLower) = cblasLower := by
    cases upper <;> simp
  have et : ¬ trans = noTrans := by decide
  constructor
  · obtain ⟨d, e, h⟩ := syrk_dense hu (Or.inl rfl) hn0 (k := k) (fun h => absurd h.symm et) alpha beta (by simpa using ha) hc
    simp only [if_true, inUplo_wanted] at e h
    refine ⟨_, ?_, h⟩
    unfold matSymRankOp
    simp only [hc.nrow, hc.ncol, ha.nrow, ha.ncol, rankArgs]
    simp [toI32_lt hn, toI32_lt hk, e]
  · intro h0
    obtain ⟨d, e, h⟩ := syrk_dense hu (Or.inr rfl) hn0 (k := k) (fun _ => h0) alpha beta (by simpa [if_neg et] using ha') hc
    simp only [if_neg et, inUplo_wanted] at e h
    refine ⟨_, ?_, h⟩
    unfold matSymRankOp
    simp only [hc.nrow, hc.ncol, ha'.nrow, ha'.ncol, rankArgs]
    simp [toI32_lt hn, toI32_lt hk, e]

/-- **C101** `complex_mat_herm_rank_op` computes `c := α a aᴴ + β c` (first case) or `c := α aᴴ a + β c` (second case) in the requested
triangle if the diagonal of `c` is real, and leaves the other entries as they are; `cj` is any conjugation. -/
theorem C101_herm_rank_op {cj re : α → α} (hcj : ∀ x, cj (cj x) = x) {n k : Nat} (hn : n < 2147483648) (hk : k < 2147483648)
    (hn0 : 0 < n) (alpha beta : α) (upper : Bool) {a a' c : NumMatrix α} {A A' C : Nat → Nat → α} (ha : IsDense a n k A)
    (ha' : IsDense a' k n A') (hc : IsDense c n n C) (hre : ∀ i < n, re (C i i) = C i i) :
    (∃ d, matHermRankOp cj re c a alpha beta upper false = ok d ∧ IsDense d n n fun i j => if Wanted upper i j then
      alpha * ∑ l ∈ Finset.range k, A i l * cj (A j l) + beta * C i j else C i j) ∧
    (0 < k → ∃ d, matHermRankOp cj re c a' alpha beta upper true = ok d ∧ IsDense d n n fun i j => if Wanted upper i j then
      alpha * ∑ l ∈ Finset.range k, cj (A' l i) * A' l j + beta * C i j else C i j) := by
  have hu : (if upper then cblasUpper else cblasLower) = cblasUpper ∨ (if upper then cblasUpper else cblasLower) = cblasLower := by
    cases upper <;> simp
  have et : ¬ conjTrans = noTrans := by decide
  have cong : ∀ (d : NumMatrix α) (f g : Nat → Nat → α), IsDense d n n f → (∀ i j, i < n → j < n → f i j = g i j) → IsDense d n n g :=
    fun d f g h e => ⟨h.nrow, h.ncol, h.len, fun i j hi hj => by rw [h.get i j hi hj, e i j hi hj]⟩
  have hdiag : ∀ i j, i < n → (if i = j then re (C i j) else C i j) = C i j := by
    intro i j hi
    by_cases h : i = j
    · subst h; rw [if_pos rfl, hre i hi]
    · rw [if_neg h]
  constructor
  · obtain ⟨d, e, h⟩ := herk_dense cj re hu (Or.inl rfl) hn0 (k := k) (fun h => absurd h.symm et) alpha beta (by simpa using ha) hc
    simp only [if_true, inUplo_wanted] at e h
    refine ⟨_, ?_, cong _ _ _ h fun i j hi hj => by rw [hdiag i j hi]⟩
    unfold matHermRankOp
    simp only [hc.nrow, hc.ncol, ha.nrow, ha.ncol, rankArgs]
    simp [toI32_lt hn, toI32_lt hk, e]
  · intro h0
    obtain ⟨d, e, h⟩ := herk_dense cj re hu (Or.inr rfl) hn0 (k := k) (fun _ => h0) alpha beta (by simpa [if_neg et] using ha') hc
    simp only [if_neg et, inUplo_wanted, hcj] at e h
    refine ⟨_, ?_, cong _ _ _ h fun i j hi hj => by rw [hdiag i j hi]⟩
    unfold matHermRankOp
    simp only [hc.nrow, hc.ncol, ha'.nrow, ha'.ncol, rankArgs]
    simp [toI32_lt hn, toI32_lt hk, e]

/-- **C101** `vec_outer` computes `a := α u vᵀ` and `vec_outer_update` computes `a := α u vᵀ + a`, for vectors that are not empty. -/
theorem C101_vec_outer {m n : Nat} (hm : m < 2147483648) (hn : n < 2147483648) (hm0 : 0 < m) (alpha : α) {a : NumMatrix α}
    {A : Nat → Nat → α} (ha : IsDense a m n A) {u v : List α} {U V : Nat → α} (hu : IsVec u m U) (hv : IsVec v n V) :
    (∃ d, vecOuter a alpha u v = ok d ∧ IsDense d m n fun i j => alpha * (U i * V j)) ∧
    (∃ d, vecOuterUpdate a alpha u v = ok d ∧ IsDense d m n fun i j => alpha * (U i * V j) + A i j) := by
  have key : ∀ (b : NumMatrix α) (B : Nat → Nat → α), IsDense b m n B →
      ∃ d, ger colMajor m n alpha u 1 v 1 b.data m = ok d ∧ IsDense { b with data := d } m n fun i j => alpha * (U i * V j) + B i j := by
    intro b B hb
    by_cases hn0 : n = 0
    · refine ⟨b.data, ?_, hb.nrow, hb.ncol, hb.len, fun i j hi hj => by omega⟩
      unfold ger
      rw [if_neg (by simp; omega), if_pos (by right; omega)]
    · refine ⟨_, ?_, isDense_mapIdx hb (fun p x =>
        if p % m < m ∧ p / m < n then alpha * (u.getD (p % m) 0 * v.getD (p / m) 0) + x else x) _ ?_⟩
      · unfold ger
        simp only [Int.toNat_natCast]
        rw [if_neg (by simp; omega), if_neg (by omega), if_neg (by simp [hb.inArray, hu.len, hv.len])]
      · intro i j hi hj
        obtain ⟨e1, e2⟩ := lin_mod (j := j) hi
        simp only [e1, e2]
        rw [if_pos ⟨hi, hj⟩, hu.getD' hi, hv.getD' hj]
  constructor
  · obtain ⟨d, e, h⟩ := key _ _ (isDense_fill ha 0)
    refine ⟨_, ?_, h.nrow, h.ncol, h.len, fun i j hi hj => by rw [h.get i j hi hj, add_zero]⟩
    unfold vecOuter
    simp only [hu.len, hv.len, ha.nrow, ha.ncol]
    simp [toI32_lt hm, toI32_lt hn, e]
  · obtain ⟨d, e, h⟩ := key _ _ ha
    refine ⟨_, ?_, h⟩
    unfold vecOuterUpdate
    simp only [hu.len, hv.len, ha.nrow, ha.ncol]
    simp [toI32_lt hm, toI32_lt hn, e]

/-- **C101** `mat_sum_cols` gives the sums of the rows' entries and `mat_sum_rows` the sums of the columns' entries, whatever the vector
held. -/
theorem C101_sums {m n : Nat} {a : NumMatrix α} {A : Nat → Nat → α} (ha : IsDense a m n A) {u v : List α} {U V : Nat → α}
    (hu : IsVec u m U) (hv : IsVec v n V) :
    (∃ w, matSumCols u a = ok w ∧ IsVec w m fun i => ∑ j ∈ Finset.range n, A i j) ∧
    (∃ w, matSumRows v a = ok w ∧ IsVec w n fun j => ∑ i ∈ Finset.range m, A i j) := by
  have key : ∀ (p q : Nat) (get : Nat → Nat → Res α) (f : Nat → Nat → α), (∀ i j, i < p → j < q → get i j = ok (f i j)) →
      ∀ (x : List α) (X : Nat → α), IsVec x p X → ∃ w, (forRange 0 p x fun i v => do
        let v ← vset v i 0
        forRange 0 q v fun j v => do
          let x ← vget v i
          let y ← get i j
          vset v i (x + y)) = ok w ∧ IsVec w p fun i => ∑ j ∈ Finset.range q, f i j := by
    intro p q get f hget x X hx
    obtain ⟨w, e, h⟩ := forRange_spec (f := fun i v => do
        let v ← vset v i 0
        forRange 0 q v fun j v => do
          let x ← vget v i
          let y ← get i j
          vset v i (x + y)) (fun t w => IsVec w p fun i => if i < t then ∑ j ∈ Finset.range q, f i j else X i) (Nat.zero_le p)
      (hx.congr fun i _ => by simp) (by
        intro i v _ hi hv
        obtain ⟨v1, e1, h1⟩ := hv.vset hi 0
        rw [e1, ok_bind]
        obtain ⟨v2, e2, h2⟩ := forRange_spec (f := fun j v => do
            let x ← vget v i
            let y ← get i j
            vset v i (x + y))
          (fun t w => IsVec w p fun r => if r = i then ∑ j ∈ Finset.range t, f i j else if r < i then ∑ j ∈ Finset.range q, f r j else X r)
          (Nat.zero_le q) (h1.congr fun r _ => by
            by_cases hr : r = i
            · rw [if_pos hr, if_pos hr]; simp
            · rw [if_neg hr, if_neg hr]) (by
            intro j v _ hj hv
            rw [hv.vget hi, ok_bind, hget i j hi hj, ok_bind, if_pos rfl]
            obtain ⟨v', e', h'⟩ := hv.vset hi (∑ j ∈ Finset.range j, f i j + f i j)
            refine ⟨v', e', h'.congr fun r _ => ?_⟩
            by_cases hr : r = i
            · rw [if_pos hr, if_pos hr, Finset.sum_range_succ]
            · rw [if_neg hr, if_neg hr, if_neg hr])
        refine ⟨v2, e2, h2.congr fun r _ => ?_⟩
        by_cases hr : r = i
        · subst hr; rw [if_pos rfl, if_pos (by omega)]
        · rw [if_neg hr]
          by_cases h3 : r < i
          · rw [if_pos h3, if_pos (by omega)]
          · rw [if_neg h3, if_neg (by omega)])
    exact ⟨w, e, h.congr fun i hi => by rw [if_pos hi]⟩
  constructor
  · unfold matSumCols
    rw [hu.len, ha.nrow, ha.ncol, if_neg (by simp)]
    exact key m n _ A (fun i j hi hj => ha.get i j hi hj) u U hu
  · unfold matSumRows
    rw [hv.len, ha.nrow, ha.ncol, if_neg (by simp)]
    exact key n m (fun j i => a.get i j) (fun j i => A i j) (fun j i hj hi => ha.get i j hi hj) v V hv

/-- **C101** Vectors of equal length: `vec_copy` copies, `vec_scale` gives `α v`, `vec_update` gives `v + α u`, `vec_copy_scaled` gives
`α u`; vectors of different lengths are rejected. -/
theorem C101_vectors (alpha : α) (u v : List α) (hv : v.length < 2147483648) :
    vecScale v alpha = ok (v.map (alpha * ·)) ∧
    (u.length = v.length → vecCopy v u = ok u ∧ vecUpdate v alpha u = ok (List.zipWith (fun x y => alpha * x + y) u v) ∧
      vecCopyScaled v alpha u = ok (u.map (alpha * ·))) ∧
    (u.length ≠ v.length → vecCopy v u = err "vectors are incompatible" ∧ vecUpdate v alpha u = err "vectors are incompatible" ∧
      vecCopyScaled v alpha u = err "vectors are incompatible") := by
  refine ⟨?_, fun h => ⟨?_, ?_, ?_⟩, fun h => ⟨if_pos h, if_pos h, if_pos h⟩⟩
  · unfold vecScale blasScal
    simp [toI32_lt hv]
  · unfold vecCopy blasCopy
    rw [if_neg (by simp [h]), toI32_lt hv, ok_bind, List.take_of_length_le (by omega), List.drop_of_length_le (by omega), List.append_nil]
  · unfold vecUpdate blasAxpy
    rw [if_neg (by simp [h]), toI32_lt hv, ok_bind, List.take_of_length_le (by omega), List.take_of_length_le (by omega),
      List.drop_of_length_le (by omega), List.append_nil]
  · unfold vecCopyScaled
    rw [if_neg (by simp [h])]
    dsimp only
    have hu' := isVec_self u 0
    have hv' := isVec_self v 0
    rw [h] at hu'
    have hm : v.length % 4 ≤ v.length := Nat.mod_le _ _
    obtain ⟨w, e, hw⟩ := forRange_spec (f := kassign (fun x _ => alpha * x) u u)
      (fun t w => IsVec w v.length (Upto (fun x _ => alpha * x) (fun i => u.getD i 0) (fun i => u.getD i 0) (fun i => v.getD i 0) t))
      (Nat.zero_le (v.length % 4)) (s := v) (hv'.congr fun i _ => by simp [Upto]) (fun i w _ hi hw =>
        kassign_upto hu' hu' hw (by omega))
    rw [e, ok_bind]
    obtain ⟨w', e', hw'⟩ := kblocks_upto (op := fun x _ => alpha * x) (W := fun i => v.getD i 0) hu' hu' (v.length / 4) (v.length % 4) w
      hw (by omega)
    rw [e']
    congr 1
    refine hw'.unique ⟨by simp [h], fun i hi => ?_⟩
    rw [List.getElem?_map, hu'.get i hi, Upto, if_pos hi]; rfl

/-- **C101** `small_vec_add` and `small_vec_update` change the first `n` entries only; `n` must not exceed the capacity. -/
theorem C101_small_vectors (alpha beta : α) (n : Nat) {N : Nat} {u v w : List α} {U V W : Nat → α} (hu : IsVec u N U) (hv : IsVec v N V)
    (hw : IsVec w N W) :
    (n ≤ N → (∃ x, smallVecAdd w alpha u beta v n = ok x ∧ IsVec x N fun i => if i < n then alpha * U i + beta * V i else W i) ∧
      (∃ x, smallVecUpdate v alpha u n = ok x ∧ IsVec x N fun i => if i < n then V i + alpha * U i else V i)) ∧
    (N < n → smallVecAdd w alpha u beta v n = Res.panic ∧ smallVecUpdate v alpha u n = Res.panic) := by
  refine ⟨fun h => ⟨?_, ?_⟩, fun h => ⟨?_, ?_⟩⟩
  · unfold smallVecAdd
    rw [hw.len, if_neg (by simpa using h)]
    obtain ⟨x, e, hx⟩ := forRange_spec (f := fun i w => do
        let x ← vget u i
        let y ← vget v i
        vset w i (alpha * x + beta * y)) (fun t x => IsVec x N fun i => if i < t then alpha * U i + beta * V i else W i)
      (Nat.zero_le n) (hw.congr fun i _ => by simp) (by
        intro t x _ ht hx
        have htN : t < N := by omega
        rw [hu.vget htN, ok_bind, hv.vget htN, ok_bind]
        obtain ⟨x', e, hx'⟩ := hx.vset htN (alpha * U t + beta * V t)
        refine ⟨x', e, hx'.congr fun i _ => ?_⟩
        by_cases hi : i = t
        · subst hi; rw [if_pos rfl, if_pos (by omega)]
        · rw [if_neg hi]
          by_cases h2 : i < t
          · rw [if_pos h2, if_pos (by omega)]
          · rw [if_neg h2, if_neg (by omega)])
    exact ⟨x, e, hx⟩
  · unfold smallVecUpdate
    rw [hv.len, if_neg (by simpa using h)]
    obtain ⟨x, e, hx⟩ := forRange_spec (f := fun i v => do
        let x ← vget v i
        let y ← vget u i
        vset v i (x + alpha * y)) (fun t x => IsVec x N fun i => if i < t then V i + alpha * U i else V i)
      (Nat.zero_le n) (hv.congr fun i _ => by simp) (by
        intro t x _ ht hx
        have htN : t < N := by omega
        rw [hx.vget htN, ok_bind, hu.vget htN, ok_bind, if_neg (by omega)]
        obtain ⟨x', e, hx'⟩ := hx.vset htN (V t + alpha * U t)
        refine ⟨x', e, hx'.congr fun i _ => ?_⟩
        by_cases hi : i = t
        · subst hi; rw [if_pos rfl, if_pos (by omega)]
        · rw [if_neg hi]
          by_cases h2 : i < t
          · rw [if_pos h2, if_pos (by omega)]
          · rw [if_neg h2, if_neg (by omega)])
    exact ⟨x, e, hx⟩
  · unfold smallVecAdd; rw [hw.len, if_pos (by omega)]
  · unfold smallVecUpdate; rw [hv.len, if_pos (by omega)]

/-- **C101** Matrices of equal dimensions: `mat_copy` copies, `mat_scale` gives `α a`, `mat_update` gives `b + α a`, `mat_add` gives
`α a + β b`, `mat_plus` and `mat_minus` combine the entries. -/
theorem C101_matrices {m n : Nat} (hmn : m * n < 2147483648) (alpha beta : α) (op : α → α → α) {a b c : NumMatrix α}
    {A B C : Nat → Nat → α} (ha : IsDense a m n A) (hb : IsDense b m n B) (hc : IsDense c m n C) :
    (∃ d, matCopy c a = ok d ∧ IsDense d m n A) ∧ (∃ d, matScale a alpha = ok d ∧ IsDense d m n fun i j => alpha * A i j) ∧
    (∃ d, matUpdate b alpha a = ok d ∧ IsDense d m n fun i j => alpha * A i j + B i j) ∧
    (∃ d, matAdd c alpha a beta b = ok d ∧ IsDense d m n fun i j => alpha * A i j + beta * B i j) ∧
    (∃ d, matOp op c a b = ok d ∧ IsDense d m n fun i j => op (A i j) (B i j)) := by
  have zip : ∀ (f : α → α → α) (d : NumMatrix α) (D : Nat → Nat → α), IsDense d m n D →
      IsDense { d with data := List.zipWith f a.data b.data } m n fun i j => f (A i j) (B i j) := fun f d D hd =>
    isDense_of hd (by rw [List.length_zipWith, ha.len, hb.len, min_self]) fun i j hi hj => by
      rw [List.getElem?_zipWith, ha.entry hi hj, hb.entry hi hj]
  refine ⟨⟨{ c with data := a.data }, ?_, isDense_of hc ha.len fun i j hi hj => ha.entry hi hj⟩,
    ⟨{ a with data := a.data.map (alpha * ·) }, ?_, isDense_of ha (by rw [List.length_map, ha.len]) fun i j hi hj => by
      rw [List.getElem?_map, ha.entry hi hj]; rfl⟩,
    ⟨_, ?_, zip (fun x y => alpha * x + y) b B hb⟩, ⟨_, ?_, zip (fun x y => alpha * x + beta * y) c C hc⟩, ⟨_, ?_, zip op c C hc⟩⟩
  · unfold matCopy blasCopy
    rw [if_neg (by simp [ha.nrow, ha.ncol, hc.nrow, hc.ncol]), hc.nrow, hc.ncol, toI32_lt hmn, ok_bind,
      List.take_of_length_le (by rw [ha.len]), List.drop_of_length_le (by rw [hc.len]), List.append_nil]
  · unfold matScale blasScal
    rw [ha.nrow, ha.ncol, toI32_lt hmn, ok_bind, List.take_of_length_le (by rw [ha.len]), List.drop_of_length_le (by rw [ha.len]),
      List.append_nil]
  · unfold matUpdate blasAxpy
    rw [if_neg (by simp [ha.nrow, ha.ncol, hb.nrow, hb.ncol]), hb.nrow, hb.ncol, toI32_lt hmn, ok_bind,
      List.take_of_length_le (by rw [ha.len]), List.take_of_length_le (by rw [hb.len]), List.drop_of_length_le (by rw [hb.len]),
      List.append_nil]
  · unfold matAdd
    rw [if_neg (by simp [ha.nrow, ha.ncol, hb.nrow, hb.ncol, hc.nrow, hc.ncol]),
      (C29_array_opx c.data alpha a.data beta b.data).1 (by rw [ha.len, hc.len]) (by rw [hb.len, hc.len]) (by rw [hc.len]; exact hmn), ok_bind]
  · unfold matOp
    rw [if_neg (by simp [ha.nrow, ha.ncol, hb.nrow, hb.ncol, hc.nrow, hc.ncol]),
      (C29_array_op op c.data a.data b.data).1 (by rw [ha.len, hc.len]) (by rw [hb.len, hc.len]), ok_bind]

/-- **C101** Wrong dimensions give an error in every operation. -/
theorem C101_dimensions (cj re : α → α) (op : α → α → α) (alpha beta : α) (upper : Bool) (a b c : NumMatrix α) (u v : List α) :
    (¬ (v.length = a.nrow ∧ u.length = a.ncol) → matVecMul cj v alpha a u = err "matrix and vectors are incompatible" ∧
      matVecMulUpdate cj v alpha a u beta = err "matrix and vectors are incompatible") ∧
    (¬ (u.length = a.nrow ∧ v.length = a.ncol) → vecMatMul cj v alpha u a = err "matrix and vectors are incompatible" ∧
      vecOuter a alpha u v = err "matrix and vectors are incompatible" ∧
      vecOuterUpdate a alpha u v = err "matrix and vectors are incompatible") ∧
    (v.length ≠ a.nrow → matSumCols v a = err "vector is incompatible") ∧ (v.length ≠ a.ncol → matSumRows v a = err "vector is incompatible") ∧
    (¬ (a.nrow = c.nrow ∧ b.nrow = a.ncol ∧ b.ncol = c.ncol) → matMatMul cj c alpha a b beta = err "matrices are incompatible") ∧
    (¬ (a.ncol = c.nrow ∧ b.nrow = a.nrow ∧ b.ncol = c.ncol) → matTMatMul cj c alpha a b beta = err "matrices are incompatible") ∧
    (c.nrow ≠ c.ncol → ∀ case2, matSymRankOp c a alpha beta upper case2 = err "[c] matrix must be square" ∧
      matHermRankOp cj re c a alpha beta upper case2 = err "[c] matrix must be square") ∧
    (c.nrow = c.ncol → ∀ case2, (if case2 then a.ncol else a.nrow) ≠ c.ncol →
      matSymRankOp c a alpha beta upper case2 = err "[a] matrix is incompatible" ∧
      matHermRankOp cj re c a alpha beta upper case2 = err "[a] matrix is incompatible") ∧
    (¬ (a.nrow = b.nrow ∧ a.ncol = b.ncol) → matCopy b a = err "matrices are incompatible" ∧
      matUpdate b alpha a = err "matrices are incompatible") ∧
    (¬ (a.nrow = c.nrow ∧ a.ncol = c.ncol ∧ b.nrow = c.nrow ∧ b.ncol = c.ncol) →
      matAdd c alpha a beta b = err "matrices are incompatible" ∧ matOp op c a b = err "matrices are incompatible") := by
  refine ⟨fun h => ⟨if_pos (by tauto), if_pos (by tauto)⟩, fun h => ⟨if_pos (by tauto), if_pos (by tauto), if_pos (by tauto)⟩,
    fun h => if_pos h, fun h => if_pos h, fun h => if_pos (by tauto), fun h => if_pos (by tauto), fun h _ => ⟨if_pos h, if_pos h⟩, ?_,
    fun h => ⟨if_pos (by tauto), if_pos (by tauto)⟩, fun h => ⟨if_pos (by tauto), if_pos (by tauto)⟩⟩
  intro h case2 hd
  unfold matSymRankOp matHermRankOp rankArgs
  cases case2
  · simp only [Bool.false_eq_true, if_false] at hd
    simp [h, hd]
  · simp only [if_true] at hd
    simp [h, hd]

/-- **C101** With an empty inner dimension `mat_mat_mul`, `mat_t_mat_mul` and `mat_vec_mul_update` give zero instead of `β c` or `β v`: -/
theorem C101_empty_inner (cj : α → α) {m n : Nat} (hm : 0 < m) (hn : 0 < n) (alpha beta : α) {a a' b c : NumMatrix α}
    {A A' B C : Nat → Nat → α} (ha : IsDense a m 0 A) (ha' : IsDense a' 0 m A') (hb : IsDense b 0 n B) (hc : IsDense c m n C) {v : List α}
    {V : Nat → α} (hv : IsVec v m V) :
    (∃ d, matMatMul cj c alpha a b beta = ok d ∧ IsDense d m n fun _ _ => 0) ∧
    (∃ d, matTMatMul cj c alpha a' b beta = ok d ∧ IsDense d m n fun _ _ => 0) ∧
    (∃ w, matVecMulUpdate cj v alpha a [] beta = ok w ∧ IsVec w m fun _ => 0) := by
  refine ⟨⟨_, ?_, isDense_fill hc 0⟩, ⟨_, ?_, isDense_fill hc 0⟩, ⟨_, ?_, isVec_zero hv⟩⟩
  · unfold matMatMul
    simp only [ha.nrow, ha.ncol, hb.nrow, hb.ncol, hc.nrow, hc.ncol]
    rw [if_neg (by simp), if_neg (by omega), if_pos trivial]
  · unfold matTMatMul
    simp only [ha'.nrow, ha'.ncol, hb.nrow, hb.ncol, hc.nrow, hc.ncol]
    rw [if_neg (by simp), if_neg (by omega), if_pos trivial]
  · unfold matVecMulUpdate
    simp only [ha.nrow, ha.ncol, hv.len, List.length_nil]
    rw [if_neg (by simp), if_neg (by omega), if_pos trivial]

end products

/-- **C101** so the documented `c := α a b + β c` fails for an `1 × 0` times `0 × 1` product with `β = 1`, and likewise for
`mat_vec_mul_update`. -/
theorem C101_empty_inner_counterexample :
    matMatMul id (⟨1, 1, [5]⟩ : NumMatrix ℚ) 1 ⟨1, 0, []⟩ ⟨0, 1, []⟩ 1 = ok ⟨1, 1, [0]⟩ ∧
    matTMatMul id (⟨1, 1, [5]⟩ : NumMatrix ℚ) 1 ⟨0, 1, []⟩ ⟨0, 1, []⟩ 1 = ok ⟨1, 1, [0]⟩ ∧
    matVecMulUpdate id [(5 : ℚ)] 1 ⟨1, 0, []⟩ [] 1 = ok [0] := ⟨rfl, rfl, rfl⟩

/-- **C101** The rank operation passes a leading dimension of zero, which the library forbids, if `a` has no rows: the second case does not
give `β c`. -/
theorem C101_rank_op_empty_counterexample :
    matSymRankOp (⟨1, 1, [5]⟩ : NumMatrix ℚ) ⟨0, 1, []⟩ 1 2 true true = Res.panic ∧
    matSymRankOp (⟨1, 1, [5]⟩ : NumMatrix ℚ) ⟨1, 0, []⟩ 1 2 true false = ok ⟨1, 1, [10]⟩ := by
  constructor
  · rfl
  · decide +kernel

/-- a 2×3 matrix times a vector, and the transposed product -/
example : IsDense (⟨2, 3, [1, 4, 2, 5, 3, 6]⟩ : NumMatrix ℚ) 2 3 (fun i j => 3 * i + j + 1) ∧
    matVecMulUpdate id [(1 : ℚ), 1] 2 ⟨2, 3, [1, 4, 2, 5, 3, 6]⟩ [1, 0, 2] (-1) = ok [13, 31] ∧
    vecMatMul id [(0 : ℚ), 0, 0] 1 [1, -1] ⟨2, 3, [1, 4, 2, 5, 3, 6]⟩ = ok [-3, -3, -3] := by
  refine ⟨⟨rfl, rfl, rfl, ?_⟩, by decide +kernel, by decide +kernel⟩
  intro r c hr hc
  have h1 : r = 0 ∨ r = 1 := by omega
  have h2 : c = 0 ∨ c = 1 ∨ c = 2 := by omega
  rcases h1 with rfl | rfl <;> rcases h2 with rfl | rfl | rfl <;> simp [NumMatrix.get, vget] <;> norm_num

/-- products, rank operation (both triangles come from one), outer products -/
example : matMatMul id (⟨2, 2, [1, 1, 1, 1]⟩ : NumMatrix ℚ) 2 ⟨2, 1, [1, 2]⟩ ⟨1, 2, [3, 4]⟩ (-1) = ok ⟨2, 2, [5, 11, 7, 15]⟩ ∧
    matTMatMul id (⟨2, 2, [1, 1, 1, 1]⟩ : NumMatrix ℚ) 2 ⟨1, 2, [1, 2]⟩ ⟨1, 2, [3, 4]⟩ (-1) = ok ⟨2, 2, [5, 11, 7, 15]⟩ ∧
    matSymRankOp (⟨2, 2, [1, 1, 1, 1]⟩ : NumMatrix ℚ) ⟨2, 1, [1, 2]⟩ 1 2 true false = ok ⟨2, 2, [3, 1, 4, 6]⟩ ∧
    vecOuter (⟨2, 2, [1, 1, 1, 1]⟩ : NumMatrix ℚ) 2 [1, 2] [3, 4] = ok ⟨2, 2, [6, 12, 8, 16]⟩ := by
  refine ⟨by decide +kernel, by decide +kernel, by decide +kernel, by decide +kernel⟩

end Russell.Lab
