import Verif.Sparse.Csr

/-!
# Specification vocabulary for the sparse matrices

Independent of the model's helper functions: matrices are described by lists of triplets `(i, j, x)` and by functions
`(r, c) ↦ value`.
-/

namespace Russell.Sparse

open Russell Russell.Res Russell.Lab

variable {α : Type}

/-- A stored entry: row, column, value. -/
abbrev Entry (α : Type) := Nat × Nat × α

/-- Entry `e` contributes to position `(r,c)` of the full matrix: it is stored there, or (triangular storage) it is stored
at the mirrored position. -/
def Hits (sym : Sym) (e : Entry α) (r c : Nat) : Prop :=
  (e.1 = r ∧ e.2.1 = c) ∨ ((sym = Sym.yesLower ∨ sym = Sym.yesUpper) ∧ e.1 = c ∧ e.2.1 = r)

instance (sym : Sym) (e : Entry α) (r c : Nat) : Decidable (Hits sym e r c) := by unfold Hits; infer_instance

/-- The value at `(r,c)` of the matrix given by a list of entries: the contributions are added one by one, in the order of
the list, starting from zero. (For exact arithmetic the order is irrelevant; for floating point it is not.) -/
def denseOf [Zero α] [Add α] (sym : Sym) (es : List (Entry α)) (r c : Nat) : α :=
  es.foldl (fun acc e => if Hits sym e r c then acc + e.2.2 else acc) 0

/-- `a` is the `m × n` dense matrix with entries `f`. -/
structure IsDense (a : NumMatrix α) (m n : Nat) (f : Nat → Nat → α) : Prop where
  nrow : a.nrow = m
  ncol : a.ncol = n
  len : a.data.length = m * n
  get : ∀ r c, r < m → c < n → a.get r c = ok (f r c)

/-- Position `(i,j)` belongs to the triangle stored for the given kind. -/
def InTriangle (sym : Sym) (i j : Nat) : Prop :=
  (sym = Sym.yesLower → j ≤ i) ∧ (sym = Sym.yesUpper → i ≤ j)

instance (sym : Sym) (i j : Nat) : Decidable (InTriangle sym i j) := by unfold InTriangle; infer_instance

/-- The COO matrix `c` is well formed and stores exactly the entries `es`, in this order. -/
structure Coo.Rep (c : Coo α) (es : List (Entry α)) : Prop where
  lenI : c.indicesI.length = c.maxNnz
  lenJ : c.indicesJ.length = c.maxNnz
  lenX : c.values.length = c.maxNnz
  nnz : c.nnz = es.length
  le : es.length ≤ c.maxNnz
  entI : ∀ k (h : k < es.length), c.indicesI[k]? = some ((es[k].1 : Nat) : Int)
  entJ : ∀ k (h : k < es.length), c.indicesJ[k]? = some ((es[k].2.1 : Nat) : Int)
  entX : ∀ k (h : k < es.length), c.values[k]? = some es[k].2.2
  rangeI : ∀ e ∈ es, e.1 < c.nrow
  rangeJ : ∀ e ∈ es, e.2.1 < c.ncol
  fitsI : c.nrow < 2147483648
  fitsJ : c.ncol < 2147483648
  square : c.symmetric.triangular = true → c.nrow = c.ncol

end Russell.Sparse
