import Verif.Lab.NumMatrix

/-!
# Model of the COO matrix (russell_sparse/src/coo_matrix.rs)

Values are of an abstract type; index arrays hold `i32` (as `Int`), exactly as in the code, and keep their stale tail
beyond `nnz`.
-/

namespace Russell.Sparse

open Russell Russell.Res Russell.Lab


/-- `enum Sym` (/repo/russell_sparse/src/enums.rs:26-39) -/
inductive Sym where
  | no
  | yesFull
  | yesLower
  | yesUpper
  deriving DecidableEq, Repr

/-- `Sym::triangular` (/repo/russell_sparse/src/enums.rs:370-376) -/
def Sym.triangular : Sym → Bool
  | .yesLower => true
  | .yesUpper => true
  | _ => false

/-- `struct NumCooMatrix` (/repo/russell_sparse/src/coo_matrix.rs:21-73) -/
structure Coo (α : Type) where
  symmetric : Sym
  nrow : Nat
  ncol : Nat
  nnz : Nat
  maxNnz : Nat
  indicesI : List Int
  indicesJ : List Int
  values : List α
  deriving DecidableEq, Repr

namespace Coo

variable {α : Type}

/-- `new` (/repo/russell_sparse/src/coo_matrix.rs:173-196) -/
def new [Zero α] (nrow ncol maxNnz : Nat) (symmetric : Sym) : Res (Coo α) :=
  if nrow < 1 then err "nrow must be ≥ 1"
  else if ncol < 1 then err "ncol must be ≥ 1"
  else if maxNnz < 1 then err "max_nnz must be ≥ 1"
  else if symmetric ≠ Sym.no ∧ nrow ≠ ncol then err "symmetric storage requires a square matrix"
  else ok {
    symmetric, nrow, ncol, nnz := 0, maxNnz
    indicesI := List.replicate maxNnz 0
    indicesJ := List.replicate maxNnz 0
    values := List.replicate maxNnz 0 }

/-- `from` (/repo/russell_sparse/src/coo_matrix.rs:246-290) -/
def fromTriplets (nrow ncol : Nat) (rowIndices colIndices : List Int) (values : List α) (symmetric : Sym) :
    Res (Coo α) :=
  if nrow < 1 then err "nrow must be ≥ 1"
  else if ncol < 1 then err "ncol must be ≥ 1"
  else
    let nnz := rowIndices.length
    if nnz < 1 then err "nnz must be ≥ 1"
    else if colIndices.length ≠ nnz then err "col_indices.len() must be = nnz"
    else if values.length ≠ nnz then err "values.len() must be = nnz"
    else do
      let m ← toI32 nrow
      let n ← toI32 ncol
      forRange 0 nnz () fun k _ => do
        let i ← vget rowIndices k
        if i < 0 ∨ i ≥ m then err "row index is out-of-range"
        else do
          let j ← vget colIndices k
          if j < 0 ∨ j ≥ n then err "col index is out-of-range"
          else ok ()
      ok { symmetric, nrow, ncol, nnz, maxNnz := nnz,
           indicesI := rowIndices, indicesJ := colIndices, values }

/-- The part of `put` after the checks (/repo/russell_sparse/src/coo_matrix.rs:346-353) -/
def putCore (c : Coo α) (i j : Nat) (aij : α) : Res (Coo α) := do
  let ii ← toI32 i
  let jj ← toI32 j
  let indicesI ← vset c.indicesI c.nnz ii
  let indicesJ ← vset c.indicesJ c.nnz jj
  let values ← vset c.values c.nnz aij
  ok { c with indicesI, indicesJ, values, nnz := c.nnz + 1 }

/-- `put` (/repo/russell_sparse/src/coo_matrix.rs:324-354) -/
def put (c : Coo α) (i j : Nat) (aij : α) : MRes (Coo α) :=
  if i ≥ c.nrow then .err c "COO matrix: index of row is outside range"
  else if j ≥ c.ncol then .err c "COO matrix: index of column is outside range"
  else if c.nnz ≥ c.maxNnz then .err c "COO matrix: max number of items has been reached"
  else if c.symmetric = Sym.yesLower ∧ j > i then
    .err c "COO matrix: j > i is incorrect for lower triangular storage"
  else if c.symmetric = Sym.yesUpper ∧ j < i then
    .err c "COO matrix: j < i is incorrect for upper triangular storage"
  else
    match c.putCore i j aij with
    | .ok c' => .ok c'
    | _ => .panic

/-- `reset` (/repo/russell_sparse/src/coo_matrix.rs:388-390) -/
def reset (c : Coo α) : Coo α := { c with nnz := 0 }

/-- The loop body shared by the three `to_dense` functions: `a.add(i, j, x)` and the mirrored `a.add(j, i, x)`
(/repo/russell_sparse/src/coo_matrix.rs:478-481, csr_matrix.rs:686-689, csc_matrix.rs:712-715) -/
def addMirror [Add α] (mirror : Bool) (a : NumMatrix α) (i j : Nat) (x : α) : Res (NumMatrix α) := do
  let a ← a.add i j x
  if mirror ∧ i ≠ j then a.add j i x else ok a

/-- `to_dense` (/repo/russell_sparse/src/coo_matrix.rs:468-484) -/
def toDense [Zero α] [Add α] (c : Coo α) (a : NumMatrix α) : Res (NumMatrix α) :=
  if a.nrow ≠ c.nrow ∨ a.ncol ≠ c.ncol then err "wrong matrix dimensions"
  else
    let mirror := c.symmetric.triangular
    forRange 0 c.nnz (a.fill 0) fun p a => do
      let i ← vget c.indicesI p
      let j ← vget c.indicesJ p
      let x ← vget c.values p
      addMirror mirror a (asUsize i) (asUsize j) x

/-- `as_dense` (/repo/russell_sparse/src/coo_matrix.rs:423-427) -/
def asDense [Zero α] [Add α] (c : Coo α) : Res (NumMatrix α) :=
  (c.toDense (NumMatrix.new c.nrow c.ncol)).unwrap

/-- The loop body shared by all matrix-vector products: `v[i] += alpha * x * u[j]` and, mirrored,
`v[j] += alpha * x * u[i]` (/repo/russell_sparse/src/coo_matrix.rs:560-563) -/
def mulMirror [Add α] [Mul α] (mirror : Bool) (alpha : α) (u v : List α) (i j : Nat) (x : α) : Res (List α) := do
  let uj ← vget u j
  let vi ← vget v i
  let v ← vset v i (vi + alpha * x * uj)
  if mirror ∧ i ≠ j then do
    let ui ← vget u i
    let vj ← vget v j
    vset v j (vj + alpha * x * ui)
  else ok v

/-- `mat_vec_mul` (/repo/russell_sparse/src/coo_matrix.rs:547-566) -/
def matVecMul [Zero α] [Add α] [Mul α] (c : Coo α) (v : List α) (alpha : α) (u : List α) : Res (List α) :=
  if u.length < c.ncol then err "u.dim() must be ≥ the number of columns of the matrix"
  else if v.length < c.nrow then err "v.dim() must be ≥ the number of rows of the matrix"
  else
    let mirror := c.symmetric.triangular
    forRange 0 c.nnz (v.map fun _ => 0) fun p v => do
      let i ← vget c.indicesI p
      let j ← vget c.indicesJ p
      let x ← vget c.values p
      mulMirror mirror alpha u v (asUsize i) (asUsize j) x

/-- `mat_vec_mul_update` (/repo/russell_sparse/src/coo_matrix.rs:629-647) -/
def matVecMulUpdate [Add α] [Mul α] (c : Coo α) (v : List α) (alpha : α) (u : List α) : Res (List α) :=
  if u.length < c.ncol then err "u.dim() must be ≥ the number of columns of the matrix"
  else if v.length < c.nrow then err "v.dim() must be ≥ the number of rows of the matrix"
  else
    let mirror := c.symmetric.triangular
    forRange 0 c.nnz v fun p v => do
      let i ← vget c.indicesI p
      let j ← vget c.indicesJ p
      let x ← vget c.values p
      mulMirror mirror alpha u v (asUsize i) (asUsize j) x

/-- `mat_t_vec_mul` (/repo/russell_sparse/src/coo_matrix.rs:708-727); note that `j` is read from the row indices and `i`
from the column indices. -/
def matTVecMul [Zero α] [Add α] [Mul α] (c : Coo α) (v : List α) (alpha : α) (u : List α) : Res (List α) :=
  if u.length < c.nrow then err "u.dim() must be ≥ the number of rows of the matrix"
  else if v.length < c.ncol then err "v.dim() must be ≥ the number of columns of the matrix"
  else
    let mirror := c.symmetric.triangular
    forRange 0 c.nnz (v.map fun _ => 0) fun p v => do
      let j ← vget c.indicesI p
      let i ← vget c.indicesJ p
      let x ← vget c.values p
      mulMirror mirror alpha u v (asUsize i) (asUsize j) x

/-- The loop body of `assign` and `add`: `self.put(i, j, alpha * other.values[p])?`
(/repo/russell_sparse/src/coo_matrix.rs:749-753, 789-793) -/
def putScaled [Mul α] (alpha : α) (other : Coo α) (p : Nat) (c : Coo α) : MRes (Coo α) :=
  match vget other.indicesI p, vget other.indicesJ p, vget other.values p with
  | .ok i, .ok j, .ok x => c.put (asUsize i) (asUsize j) (alpha * x)
  | _, _, _ => .panic

/-- `assign` (/repo/russell_sparse/src/coo_matrix.rs:738-755) -/
def assign [Mul α] (c : Coo α) (alpha : α) (other : Coo α) : MRes (Coo α) :=
  if other.nrow ≠ c.nrow then .err c "matrices must have the same nrow"
  else if other.ncol ≠ c.ncol then .err c "matrices must have the same ncol"
  else if other.symmetric ≠ c.symmetric then .err c "matrices must have the same symmetric type"
  else forMut other.nnz 0 c.reset (putScaled alpha other)

/-- `add` (/repo/russell_sparse/src/coo_matrix.rs:779-795) -/
def add [Mul α] (c : Coo α) (alpha : α) (other : Coo α) : MRes (Coo α) :=
  if other.nrow > c.nrow then .err c "other.nrow must be ≤ this.nrow"
  else if other.ncol > c.ncol then .err c "other.ncol must be ≤ this.ncol"
  else if other.symmetric ≠ c.symmetric then .err c "matrices must have the same symmetric type"
  else forMut other.nnz 0 c (putScaled alpha other)

/-- The loop bodies of `put_lagrange_block` (/repo/russell_sparse/src/coo_matrix.rs:833-855) -/
def putLagrangeEntry (bb : Coo α) (p : Nat) (c : Coo α) : MRes (Coo α) :=
  match vget bb.indicesI p, vget bb.indicesJ p, vget bb.values p with
  | .ok i, .ok j, .ok x =>
    let i := asUsize i
    let j := asUsize j
    if c.symmetric = Sym.yesLower then c.put (bb.ncol + i) j x
    else if c.symmetric = Sym.yesUpper then c.put j (bb.ncol + i) x
    else (c.put (bb.ncol + i) j x).andThen fun c => c.put j (bb.ncol + i) x
  | _, _, _ => .panic

/-- `put_lagrange_block` (/repo/russell_sparse/src/coo_matrix.rs:823-857) -/
def putLagrangeBlock (c : Coo α) (bb : Coo α) : MRes (Coo α) :=
  if bb.symmetric ≠ Sym.no then .err c "the Lagrange block must not be symmetric"
  else if bb.ncol + bb.nrow > c.nrow then .err c "ncol(B) + nrow(B) must be ≤ nrow(A)"
  else if bb.ncol + bb.nrow > c.ncol then .err c "ncol(B) + nrow(B) must be ≤ ncol(A)"
  else forMut bb.nnz 0 c (putLagrangeEntry bb)

/-- `get_actual_nnz` (/repo/russell_sparse/src/coo_matrix.rs:872-887) -/
def getActualNnz (c : Coo α) : Res Nat :=
  if c.symmetric.triangular then
    forRange 0 c.nnz 0 fun p n => do
      let i ← vget c.indicesI p
      let j ← vget c.indicesJ p
      if asUsize i ≠ asUsize j then ok (n + 1 + 1) else ok (n + 1)
  else ok c.nnz

/-- `get_row_indices` (/repo/russell_sparse/src/coo_matrix.rs:932-934) -/
def getRowIndices (c : Coo α) : Res (List Int) := vslice c.indicesI 0 c.nnz

/-- `get_col_indices` (/repo/russell_sparse/src/coo_matrix.rs:941-943) -/
def getColIndices (c : Coo α) : Res (List Int) := vslice c.indicesJ 0 c.nnz

/-- `get_values` (/repo/russell_sparse/src/coo_matrix.rs:950-952) -/
def getValues (c : Coo α) : Res (List α) := vslice c.values 0 c.nnz

end Coo

end Russell.Sparse
