import Verif.Prelude

/-!
# Model of `NumMatrix` (russell_lab/src/matrix/num_matrix.rs)

Column-major storage, entry `(i,j)` at `i + j * nrow`. As in the code, only the linear index is range-checked.
-/

namespace Russell.Lab

open Russell Russell.Res


/-- `struct NumMatrix` (/repo/russell_lab/src/matrix/num_matrix.rs:166-174) -/
structure NumMatrix (α : Type) where
  nrow : Nat
  ncol : Nat
  data : List α
  deriving DecidableEq, Repr

namespace NumMatrix

variable {α : Type}

/-- `new` (/repo/russell_lab/src/matrix/num_matrix.rs:194-200) -/
def new [Zero α] (nrow ncol : Nat) : NumMatrix α :=
  { nrow, ncol, data := List.replicate (nrow * ncol) 0 }

/-- `filled` (/repo/russell_lab/src/matrix/num_matrix.rs:242-248) -/
def filled (m n : Nat) (value : α) : NumMatrix α :=
  { nrow := m, ncol := n, data := List.replicate (m * n) value }

/-- `get` (/repo/russell_lab/src/matrix/num_matrix.rs:756-758) -/
def get (a : NumMatrix α) (i j : Nat) : Res α := vget a.data (i + j * a.nrow)

/-- `set` (/repo/russell_lab/src/matrix/num_matrix.rs:782-784) -/
def set (a : NumMatrix α) (i j : Nat) (value : α) : Res (NumMatrix α) := do
  let d ← vset a.data (i + j * a.nrow) value
  ok { a with data := d }

/-- `add` (/repo/russell_lab/src/matrix/num_matrix.rs:812-814) -/
def add [Add α] (a : NumMatrix α) (i j : Nat) (value : α) : Res (NumMatrix α) := do
  let x ← vget a.data (i + j * a.nrow)
  let d ← vset a.data (i + j * a.nrow) (x + value)
  ok { a with data := d }

/-- `mul` (/repo/russell_lab/src/matrix/num_matrix.rs:842-844) -/
def mul [Mul α] (a : NumMatrix α) (i j : Nat) (value : α) : Res (NumMatrix α) := do
  let x ← vget a.data (i + j * a.nrow)
  let d ← vset a.data (i + j * a.nrow) (x * value)
  ok { a with data := d }

/-- `fill` (/repo/russell_lab/src/matrix/num_matrix.rs:671-673) -/
def fill (a : NumMatrix α) (value : α) : NumMatrix α :=
  { a with data := a.data.map (fun _ => value) }

end NumMatrix

end Russell.Lab
