import Verif.Sparse.Coo

/-!
# Models of the CSR and CSC matrices (russell_sparse/src/csr_matrix.rs, csc_matrix.rs)

Literal transcription, including the internal workspaces which survive between calls of `update_from_coo`.
-/

namespace Russell.Sparse

open Russell Russell.Res Russell.Lab

/-- `struct NumCsrMatrix` (/repo/russell_sparse/src/csr_matrix.rs:55-108) -/
structure Csr (α : Type) where
  symmetric : Sym
  nrow : Nat
  ncol : Nat
  rowPointers : List Int
  colIndices : List Int
  values : List α
  tempRp : List Int
  tempRjx : List (Int × α)
  tempRc : List Nat
  tempW : List Int
  deriving DecidableEq, Repr

/-- `struct NumCscMatrix` (/repo/russell_sparse/src/csc_matrix.rs:55-112) -/
structure Csc (α : Type) where
  symmetric : Sym
  nrow : Nat
  ncol : Nat
  colPointers : List Int
  rowIndices : List Int
  values : List α
  tempRp : List Int
  tempRj : List Int
  tempRx : List α
  tempRc : List Nat
  tempW : List Int
  deriving DecidableEq, Repr

/-! ## Steps shared by the two `update_from_coo` functions -/

/-- Count the entries in each row (/repo/russell_sparse/src/csr_matrix.rs:408-413, csc_matrix.rs:416-421) -/
def countRows (nnz : Nat) (ai : List Int) (w : List Int) : Res (List Int) :=
  forRange 0 nnz w fun k w => do
    let i ← vget ai k
    let x ← vget w (asUsize i)
    let y ← addI32 x 1
    vset w (asUsize i) y

/-- Compute the row pointers, `rp[0] = 0` included
(/repo/russell_sparse/src/csr_matrix.rs:415-420, csc_matrix.rs:423-428) -/
def rowPtrs (nrow : Nat) (rp w : List Int) : Res (List Int × List Int) := do
  let rp ← vset rp 0 0
  forRange 0 nrow (rp, w) fun i (rp, w) => do
    let r ← vget rp i
    let x ← vget w i
    let s ← addI32 r x
    let rp ← vset rp (i + 1) s
    let r ← vget rp i
    let w ← vset w i r
    ok (rp, w)

/-- `for j in 0..n { w[j] = value; }`
(/repo/russell_sparse/src/csr_matrix.rs:399-401, 433-435, csc_matrix.rs:406-408, 441-443, 471-473) -/
def fillFirst (n : Nat) (value : Int) (w : List Int) : Res (List Int) :=
  forRange 0 n w fun j w => vset w j value

namespace Csr

variable {α : Type}

/-- `new` (/repo/russell_sparse/src/csr_matrix.rs:193-260) -/
def new (nrow ncol : Nat) (rowPointers colIndices : List Int) (values : List α) (symmetric : Sym) : Res (Csr α) :=
  if nrow < 1 then err "nrow must be ≥ 1"
  else if ncol < 1 then err "ncol must be ≥ 1"
  else if rowPointers.length ≠ nrow + 1 then err "row_pointers.len() must be = nrow + 1"
  else do
    let nnz ← vget rowPointers nrow
    if nnz < 1 then err "nnz = row_pointers[nrow] must be ≥ 1"
    else if colIndices.length < asUsize nnz then err "col_indices.len() must be ≥ nnz"
    else if values.length < asUsize nnz then err "values.len() must be ≥ nnz"
    else if symmetric ≠ Sym.no ∧ nrow ≠ ncol then err "symmetric storage requires a square matrix"
    else do
      let n ← toI32 ncol
      forRange 0 nrow () fun i _ => do
        let a ← vget rowPointers i
        if a < 0 then err "row pointers must be ≥ 0"
        else do
          let b ← vget rowPointers (i + 1)
          if a > b then err "row pointers must be sorted in ascending order"
          else do
            let start := asUsize a
            let stop := asUsize b
            forRange start stop () fun p _ => do
              let j ← vget colIndices p
              if j < 0 then err "column indices must be ≥ 0"
              else if j ≥ n then err "column indices must be < ncol"
              else if p > start then do
                let j' ← vget colIndices (p - 1)
                if j' > j then err "column indices must be sorted in ascending order (within their row)"
                else ok ()
              else ok ()
      ok { symmetric, nrow, ncol, rowPointers, colIndices, values,
           tempRp := [], tempRjx := [], tempRc := [], tempW := [] }

/-- Construct the row form with unsorted values (/repo/russell_sparse/src/csr_matrix.rs:422-429) -/
def scatter (nnz : Nat) (ai aj : List Int) (ax : List α) (rjx : List (Int × α)) (w : List Int) :
    Res (List (Int × α) × List Int) :=
  forRange 0 nnz (rjx, w) fun k (rjx, w) => do
    let i ← vget ai k
    let p ← vget w (asUsize i)
    let j ← vget aj k
    let x ← vget ax k
    let rjx ← vset rjx (asUsize p) (j, x)
    let p' ← addI32 p 1
    let w ← vset w (asUsize i) p'
    ok (rjx, w)

/-- Sum the duplicates of one row (/repo/russell_sparse/src/csr_matrix.rs:437-457) -/
def dedupRow [Add α] (p1 p2 : Nat) (rjx : List (Int × α)) (w : List Int) :
    Res (List (Int × α) × List Int × Nat) :=
  forRange p1 p2 (rjx, w, p1) fun p (rjx, w, dest) => do
    let (jj, x) ← vget rjx p
    let j := asUsize jj
    let wj ← vget w j
    if wj ≥ asI32 p1 then do
      -- j is already in row i, position pj
      let pj := asUsize wj
      let (j0, x0) ← vget rjx pj
      let rjx ← vset rjx pj (j0, x0 + x)
      ok (rjx, w, dest)
    else do
      -- keep the entry
      let w ← vset w j (asI32 dest)
      if dest ≠ p then do
        let rjx ← vset rjx dest (asI32 j, x)
        ok (rjx, w, dest + 1)
      else ok (rjx, w, dest + 1)

/-- Sum duplicates; `w` must have been filled with `EMPTY` (/repo/russell_sparse/src/csr_matrix.rs:436-459) -/
def dedup [Add α] (nrow : Nat) (rp : List Int) (rjx : List (Int × α)) (rc : List Nat) (w : List Int) :
    Res (List (Int × α) × List Nat × List Int) :=
  forRange 0 nrow (rjx, rc, w) fun i (rjx, rc, w) => do
    let a ← vget rp i
    let b ← vget rp (i + 1)
    let p1 := asUsize a
    let (rjx, w, dest) ← dedupRow p1 (asUsize b) rjx w
    let cnt ← subUsize dest p1
    let rc ← vset rc i cnt
    ok (rjx, rc, w)

/-- Fix the row pointers (/repo/russell_sparse/src/csr_matrix.rs:461-465) -/
def fixPtrs (nrow : Nat) (rc : List Nat) (bp : List Int) : Res (List Int) := do
  let bp ← vset bp 0 0
  forRange 0 nrow bp fun i bp => do
    let b ← vget bp i
    let c ← vget rc i
    let s ← addI32 b (asI32 c)
    vset bp (i + 1) s

/-- `rjx[p1..p2].sort_by(|a, b| a.0.partial_cmp(&b.0).unwrap())`: a stable sort of the slice by column
(/repo/russell_sparse/src/csr_matrix.rs:472). `i32` comparison is total, the inner `unwrap` cannot fail. -/
def sortSlice (rjx : List (Int × α)) (p1 p2 : Nat) : Res (List (Int × α)) :=
  if p1 ≤ p2 ∧ p2 ≤ rjx.length then
    ok (rjx.take p1 ++ ((rjx.drop p1).take (p2 - p1)).mergeSort (fun a b => a.1 ≤ b.1) ++ rjx.drop p2)
  else panic

/-- Construct the row form with sorted values (/repo/russell_sparse/src/csr_matrix.rs:467-478) -/
def compress (nrow : Nat) (rp : List Int) (rc : List Nat) (rjx : List (Int × α)) (bj : List Int) (bx : List α) :
    Res (List (Int × α) × List Int × List α × Nat) :=
  forRange 0 nrow (rjx, bj, bx, 0) fun i (rjx, bj, bx, k) => do
    let a ← vget rp i
    let c ← vget rc i
    let p1 := asUsize a
    let p2 := p1 + c
    let rjx ← sortSlice rjx p1 p2
    let sl ← vslice rjx p1 p2
    let (bj, bx, k) ← forList sl (bj, bx, k) fun (j, x) (bj, bx, k) => do
      let bj ← vset bj k j
      let bx ← vset bx k x
      ok (bj, bx, k + 1)
    ok (rjx, bj, bx, k)

/-- Allocate the workspaces or clear the part of `w` that is used (/repo/russell_sparse/src/csr_matrix.rs:392-402) -/
def workspaces [Zero α] (s : Csr α) (nrow ncol nnz : Nat) : Res (List Int × List (Int × α) × List Nat × List Int) :=
  if s.tempW.length = 0 then
    ok (List.replicate (nrow + 1) (0 : Int), List.replicate nnz ((0 : Int), (0 : α)), List.replicate nrow 0,
      List.replicate (Nat.max nrow ncol) (0 : Int))
  else do
    let w ← fillFirst nrow 0 s.tempW
    ok (s.tempRp, s.tempRjx, s.tempRc, w)

/-- The body of `update_from_coo` after the checks (/repo/russell_sparse/src/csr_matrix.rs:376-479) -/
def updateCore [Zero α] [Add α] (s : Csr α) (coo : Coo α) : Res (Csr α) := do
  let nrow := coo.nrow
  let ncol := coo.ncol
  let nnz := coo.nnz
  let (rp, rjx, rc, w) ← s.workspaces nrow ncol nnz
  let w ← countRows nnz coo.indicesI w
  let (rp, w) ← rowPtrs nrow rp w
  let (rjx, w) ← scatter nnz coo.indicesI coo.indicesJ coo.values rjx w
  let w ← fillFirst ncol (-1) w
  let (rjx, rc, w) ← dedup nrow rp rjx rc w
  let bp ← fixPtrs nrow rc s.rowPointers
  let (rjx, bj, bx, _) ← compress nrow rp rc rjx s.colIndices s.values
  ok { s with rowPointers := bp, colIndices := bj, values := bx,
              tempRp := rp, tempRjx := rjx, tempRc := rc, tempW := w }

/-- `update_from_coo` (/repo/russell_sparse/src/csr_matrix.rs:359-480) -/
def updateFromCoo [Zero α] [Add α] (s : Csr α) (coo : Coo α) : MRes (Csr α) :=
  if coo.symmetric ≠ s.symmetric then .err s "coo.symmetric must be equal to csr.symmetric"
  else if coo.nrow ≠ s.nrow then .err s "coo.nrow must be equal to csr.nrow"
  else if coo.ncol ≠ s.ncol then .err s "coo.ncol must be equal to csr.ncol"
  else if coo.nnz ≠ s.values.length then
    .err s "coo.nnz must be equal to nnz(dup) = self.col_indices.len() = csr.values.len()"
  else
    match s.updateCore coo with
    | .ok s' => .ok s'
    | _ => .panic

/-- `from_coo` (/repo/russell_sparse/src/csr_matrix.rs:332-350) -/
def fromCoo [Zero α] [Add α] (coo : Coo α) : Res (Csr α) :=
  if coo.nnz < 1 then err "COO to CSR requires nnz > 0"
  else
    let csr : Csr α := {
      symmetric := coo.symmetric, nrow := coo.nrow, ncol := coo.ncol
      rowPointers := List.replicate (coo.nrow + 1) 0
      colIndices := List.replicate coo.nnz 0
      values := List.replicate coo.nnz 0
      tempRp := [], tempRjx := [], tempRc := [], tempW := [] }
    match csr.updateFromCoo coo with
    | .ok csr => ok csr
    | _ => panic

/-- `to_dense` (/repo/russell_sparse/src/csr_matrix.rs:676-693). The range `a..b` over `i32` is empty when `b ≤ a`; its
elements are then cast to `usize` (negative pointers would panic when indexing). -/
def toDense [Zero α] [Add α] (s : Csr α) (a : NumMatrix α) : Res (NumMatrix α) :=
  if a.nrow ≠ s.nrow ∨ a.ncol ≠ s.ncol then err "wrong matrix dimensions"
  else
    let mirror := s.symmetric.triangular
    forRange 0 s.nrow (a.fill 0) fun i a => do
      let lo ← vget s.rowPointers i
      let hi ← vget s.rowPointers (i + 1)
      forRange 0 (hi - lo).toNat a fun t a => do
        let p := asUsize (lo + t)
        let j ← vget s.colIndices p
        let x ← vget s.values p
        Coo.addMirror mirror a i (asUsize j) x

/-- `as_dense` (/repo/russell_sparse/src/csr_matrix.rs:613-617) -/
def asDense [Zero α] [Add α] (s : Csr α) : Res (NumMatrix α) :=
  (s.toDense (NumMatrix.new s.nrow s.ncol)).unwrap

/-- `mat_vec_mul` (/repo/russell_sparse/src/csr_matrix.rs:709-729) -/
def matVecMul [Zero α] [Add α] [Mul α] (s : Csr α) (v : List α) (alpha : α) (u : List α) : Res (List α) :=
  if u.length ≠ s.ncol then err "u vector is incompatible"
  else if v.length ≠ s.nrow then err "v vector is incompatible"
  else
    let mirror := s.symmetric.triangular
    forRange 0 s.nrow (v.map fun _ => 0) fun i v => do
      let lo ← vget s.rowPointers i
      let hi ← vget s.rowPointers (i + 1)
      forRange 0 (hi - lo).toNat v fun t v => do
        let p := asUsize (lo + t)
        let j ← vget s.colIndices p
        let x ← vget s.values p
        Coo.mulMirror mirror alpha u v i (asUsize j) x

/-- `get_row_pointers` (/repo/russell_sparse/src/csr_matrix.rs:777-779) -/
def getRowPointers (s : Csr α) : List Int := s.rowPointers

/-- `get_col_indices` (/repo/russell_sparse/src/csr_matrix.rs:787-790) -/
def getColIndices (s : Csr α) : Res (List Int) := do
  let nnz ← vget s.rowPointers s.nrow
  vslice s.colIndices 0 (asUsize nnz)

/-- `get_values` (/repo/russell_sparse/src/csr_matrix.rs:798-801) -/
def getValues (s : Csr α) : Res (List α) := do
  let nnz ← vget s.rowPointers s.nrow
  vslice s.values 0 (asUsize nnz)

end Csr

namespace Csc

variable {α : Type}

/-- `new` (/repo/russell_sparse/src/csc_matrix.rs:197-265) -/
def new (nrow ncol : Nat) (colPointers rowIndices : List Int) (values : List α) (symmetric : Sym) : Res (Csc α) :=
  if nrow < 1 then err "nrow must be ≥ 1"
  else if ncol < 1 then err "ncol must be ≥ 1"
  else if colPointers.length ≠ ncol + 1 then err "col_pointers.len() must be = ncol + 1"
  else do
    let nnz ← vget colPointers ncol
    if nnz < 1 then err "nnz = col_pointers[ncol] must be ≥ 1"
    else if rowIndices.length < asUsize nnz then err "row_indices.len() must be ≥ nnz"
    else if values.length < asUsize nnz then err "values.len() must be ≥ nnz"
    else if symmetric ≠ Sym.no ∧ nrow ≠ ncol then err "symmetric storage requires a square matrix"
    else do
      let m ← toI32 nrow
      forRange 0 ncol () fun j _ => do
        let a ← vget colPointers j
        if a < 0 then err "col pointers must be ≥ 0"
        else do
          let b ← vget colPointers (j + 1)
          if a > b then err "col pointers must be sorted in ascending order"
          else do
            let start := asUsize a
            let stop := asUsize b
            forRange start stop () fun p _ => do
              let i ← vget rowIndices p
              if i < 0 then err "row indices must be ≥ 0"
              else if i ≥ m then err "row indices must be < nrow"
              else if p > start then do
                let i' ← vget rowIndices (p - 1)
                if i' > i then err "row indices must be sorted in ascending order (within their column)"
                else ok ()
              else ok ()
      ok { symmetric, nrow, ncol, colPointers, rowIndices, values,
           tempRp := [], tempRj := [], tempRx := [], tempRc := [], tempW := [] }

/-- Construct the row form with unsorted values (/repo/russell_sparse/src/csc_matrix.rs:430-437) -/
def scatter (nnz : Nat) (ai aj : List Int) (ax : List α) (rj : List Int) (rx : List α) (w : List Int) :
    Res (List Int × List α × List Int) :=
  forRange 0 nnz (rj, rx, w) fun k (rj, rx, w) => do
    let i ← vget ai k
    let p ← vget w (asUsize i)
    let j ← vget aj k
    let rj ← vset rj (asUsize p) j
    let x ← vget ax k
    let rx ← vset rx (asUsize p) x
    let p' ← addI32 p 1
    let w ← vset w (asUsize i) p'
    ok (rj, rx, w)

/-- Sum the duplicates of one row (/repo/russell_sparse/src/csc_matrix.rs:445-466) -/
def dedupRow [Add α] (p1 p2 : Nat) (rj : List Int) (rx : List α) (w : List Int) :
    Res (List Int × List α × List Int × Nat) :=
  forRange p1 p2 (rj, rx, w, p1) fun p (rj, rx, w, dest) => do
    let jj ← vget rj p
    let j := asUsize jj
    let wj ← vget w j
    if wj ≥ asI32 p1 then do
      let pj := asUsize wj
      let x ← vget rx p
      let x0 ← vget rx pj
      let rx ← vset rx pj (x0 + x)
      ok (rj, rx, w, dest)
    else do
      let w ← vset w j (asI32 dest)
      if dest ≠ p then do
        let rj ← vset rj dest (asI32 j)
        let x ← vget rx p
        let rx ← vset rx dest x
        ok (rj, rx, w, dest + 1)
      else ok (rj, rx, w, dest + 1)

/-- Sum duplicates; `w` must have been filled with `EMPTY` (/repo/russell_sparse/src/csc_matrix.rs:444-468) -/
def dedup [Add α] (nrow : Nat) (rp : List Int) (rj : List Int) (rx : List α) (rc : List Nat) (w : List Int) :
    Res (List Int × List α × List Nat × List Int) :=
  forRange 0 nrow (rj, rx, rc, w) fun i (rj, rx, rc, w) => do
    let a ← vget rp i
    let b ← vget rp (i + 1)
    let p1 := asUsize a
    let (rj, rx, w, dest) ← dedupRow p1 (asUsize b) rj rx w
    let cnt ← subUsize dest p1
    let rc ← vset rc i cnt
    ok (rj, rx, rc, w)

/-- Count the entries in each column (/repo/russell_sparse/src/csc_matrix.rs:474-481) -/
def countCols (nrow : Nat) (rp : List Int) (rc : List Nat) (rj w : List Int) : Res (List Int) :=
  forRange 0 nrow w fun i w => do
    let a ← vget rp i
    let c ← vget rc i
    let p1 := asUsize a
    forRange p1 (p1 + c) w fun p w => do
      let j ← vget rj p
      let x ← vget w (asUsize j)
      let y ← addI32 x 1
      vset w (asUsize j) y

/-- Create the column pointers (/repo/russell_sparse/src/csc_matrix.rs:483-490) -/
def colPtrs (ncol : Nat) (bp w : List Int) : Res (List Int × List Int) := do
  let bp ← vset bp 0 0
  let bp ← forRange 0 ncol bp fun j bp => do
    let b ← vget bp j
    let x ← vget w j
    let s ← addI32 b x
    vset bp (j + 1) s
  let w ← forRange 0 ncol w fun j w => do
    let b ← vget bp j
    vset w j b
  ok (bp, w)

/-- Construct the column form (/repo/russell_sparse/src/csc_matrix.rs:492-503) -/
def columnForm (nrow : Nat) (rp : List Int) (rc : List Nat) (rj : List Int) (rx : List α)
    (bi : List Int) (bx : List α) (w : List Int) : Res (List Int × List α × List Int) :=
  forRange 0 nrow (bi, bx, w) fun i (bi, bx, w) => do
    let a ← vget rp i
    let c ← vget rc i
    let p1 := asUsize a
    forRange p1 (p1 + c) (bi, bx, w) fun p (bi, bx, w) => do
      let j ← vget rj p
      let cp ← vget w (asUsize j)
      let bi ← vset bi (asUsize cp) (asI32 i)
      let x ← vget rx p
      let bx ← vset bx (asUsize cp) x
      let cp' ← addI32 cp 1
      let w ← vset w (asUsize j) cp'
      ok (bi, bx, w)

/-- Allocate the workspaces or clear the part of `w` that is used (/repo/russell_sparse/src/csc_matrix.rs:398-410) -/
def workspaces [Zero α] (s : Csc α) (nrow ncol nnz : Nat) :
    Res (List Int × List Int × List α × List Nat × List Int) :=
  if s.tempW.length = 0 then
    ok (List.replicate (nrow + 1) (0 : Int), List.replicate nnz (0 : Int), List.replicate nnz (0 : α),
      List.replicate nrow 0, List.replicate (Nat.max nrow ncol) (0 : Int))
  else do
    let w ← fillFirst nrow 0 s.tempW
    ok (s.tempRp, s.tempRj, s.tempRx, s.tempRc, w)

/-- The body of `update_from_coo` after the checks (/repo/russell_sparse/src/csc_matrix.rs:382-504) -/
def updateCore [Zero α] [Add α] (s : Csc α) (coo : Coo α) : Res (Csc α) := do
  let nrow := coo.nrow
  let ncol := coo.ncol
  let nnz := coo.nnz
  let (rp, rj, rx, rc, w) ← s.workspaces nrow ncol nnz
  let w ← countRows nnz coo.indicesI w
  let (rp, w) ← rowPtrs nrow rp w
  let (rj, rx, w) ← scatter nnz coo.indicesI coo.indicesJ coo.values rj rx w
  let w ← fillFirst ncol (-1) w
  let (rj, rx, rc, w) ← dedup nrow rp rj rx rc w
  let w ← fillFirst ncol 0 w
  let w ← countCols nrow rp rc rj w
  let (bp, w) ← colPtrs ncol s.colPointers w
  let (bi, bx, w) ← columnForm nrow rp rc rj rx s.rowIndices s.values w
  ok { s with colPointers := bp, rowIndices := bi, values := bx,
              tempRp := rp, tempRj := rj, tempRx := rx, tempRc := rc, tempW := w }

/-- `update_from_coo` (/repo/russell_sparse/src/csc_matrix.rs:365-505) -/
def updateFromCoo [Zero α] [Add α] (s : Csc α) (coo : Coo α) : MRes (Csc α) :=
  if coo.symmetric ≠ s.symmetric then .err s "coo.symmetric must be equal to csc.symmetric"
  else if coo.nrow ≠ s.nrow then .err s "coo.nrow must be equal to csc.nrow"
  else if coo.ncol ≠ s.ncol then .err s "coo.ncol must be equal to csc.ncol"
  else if coo.nnz ≠ s.values.length then
    .err s "coo.nnz must be equal to nnz(dup) = csc.row_indices.len() = csc.values.len()"
  else
    match s.updateCore coo with
    | .ok s' => .ok s'
    | _ => .panic

/-- `from_coo` (/repo/russell_sparse/src/csc_matrix.rs:337-356) -/
def fromCoo [Zero α] [Add α] (coo : Coo α) : Res (Csc α) :=
  if coo.nnz < 1 then err "COO to CSC requires nnz > 0"
  else
    let csc : Csc α := {
      symmetric := coo.symmetric, nrow := coo.nrow, ncol := coo.ncol
      colPointers := List.replicate (coo.ncol + 1) 0
      rowIndices := List.replicate coo.nnz 0
      values := List.replicate coo.nnz 0
      tempRp := [], tempRj := [], tempRx := [], tempRc := [], tempW := [] }
    match csc.updateFromCoo coo with
    | .ok csc => ok csc
    | _ => panic

/-- `to_dense` (/repo/russell_sparse/src/csc_matrix.rs:702-719) -/
def toDense [Zero α] [Add α] (s : Csc α) (a : NumMatrix α) : Res (NumMatrix α) :=
  if a.nrow ≠ s.nrow ∨ a.ncol ≠ s.ncol then err "wrong matrix dimensions"
  else
    let mirror := s.symmetric.triangular
    forRange 0 s.ncol (a.fill 0) fun j a => do
      let lo ← vget s.colPointers j
      let hi ← vget s.colPointers (j + 1)
      forRange 0 (hi - lo).toNat a fun t a => do
        let p := asUsize (lo + t)
        let i ← vget s.rowIndices p
        let x ← vget s.values p
        Coo.addMirror mirror a (asUsize i) j x

/-- `as_dense` (/repo/russell_sparse/src/csc_matrix.rs:639-643) -/
def asDense [Zero α] [Add α] (s : Csc α) : Res (NumMatrix α) :=
  (s.toDense (NumMatrix.new s.nrow s.ncol)).unwrap

/-- `mat_vec_mul` (/repo/russell_sparse/src/csc_matrix.rs:735-755) -/
def matVecMul [Zero α] [Add α] [Mul α] (s : Csc α) (v : List α) (alpha : α) (u : List α) : Res (List α) :=
  if u.length ≠ s.ncol then err "u vector is incompatible"
  else if v.length ≠ s.nrow then err "v vector is incompatible"
  else
    let mirror := s.symmetric.triangular
    forRange 0 s.ncol (v.map fun _ => 0) fun j v => do
      let lo ← vget s.colPointers j
      let hi ← vget s.colPointers (j + 1)
      forRange 0 (hi - lo).toNat v fun t v => do
        let p := asUsize (lo + t)
        let i ← vget s.rowIndices p
        let x ← vget s.values p
        Coo.mulMirror mirror alpha u v (asUsize i) j x

/-- `get_col_pointers` (/repo/russell_sparse/src/csc_matrix.rs:803-805) -/
def getColPointers (s : Csc α) : List Int := s.colPointers

/-- `get_row_indices` (/repo/russell_sparse/src/csc_matrix.rs:813-816) -/
def getRowIndices (s : Csc α) : Res (List Int) := do
  let nnz ← vget s.colPointers s.ncol
  vslice s.rowIndices 0 (asUsize nnz)

/-- `get_values` (/repo/russell_sparse/src/csc_matrix.rs:824-827) -/
def getValues (s : Csc α) : Res (List α) := do
  let nnz ← vget s.colPointers s.ncol
  vslice s.values 0 (asUsize nnz)

end Csc

/-! ## The counting transposition (SciPy's `csr_tocsc`) used by both direct conversions -/

/-- Number of entries per target row/column (/repo/russell_sparse/src/csc_matrix.rs:550-552, csr_matrix.rs:524-526) -/
def trCount (nnz : Nat) (aj bp : List Int) : Res (List Int) :=
  forRange 0 nnz bp fun k bp => do
    let j ← vget aj k
    let x ← vget bp (asUsize j)
    let y ← addI32 x 1
    vset bp (asUsize j) y

/-- Cumulative sum (/repo/russell_sparse/src/csc_matrix.rs:554-560, csr_matrix.rs:528-534) -/
def trCumsum (ncol : Nat) (bp : List Int) : Res (List Int × Int) :=
  forRange 0 ncol (bp, (0 : Int)) fun j (bp, sum) => do
    let temp ← vget bp j
    let bp ← vset bp j sum
    let sum ← addI32 sum temp
    ok (bp, sum)

/-- Write the entries, using `bp` as workspace (/repo/russell_sparse/src/csc_matrix.rs:563-572, csr_matrix.rs:537-546) -/
def trWrite {α : Type} (nrow : Nat) (ap aj : List Int) (ax : List α) (bp bi : List Int) (bx : List α) :
    Res (List Int × List Int × List α) :=
  forRange 0 nrow (bp, bi, bx) fun i (bp, bi, bx) => do
    let lo ← vget ap i
    let hi ← vget ap (i + 1)
    forRange 0 (hi - lo).toNat (bp, bi, bx) fun t (bp, bi, bx) => do
      let p := asUsize (lo + t)
      let j ← vget aj p
      let dest ← vget bp (asUsize j)
      let ii ← toI32 i
      let bi ← vset bi (asUsize dest) ii
      let x ← vget ax p
      let bx ← vset bx (asUsize dest) x
      let d ← vget bp (asUsize j)
      let d' ← addI32 d 1
      let bp ← vset bp (asUsize j) d'
      ok (bp, bi, bx)

/-- Shift the pointers back (/repo/russell_sparse/src/csc_matrix.rs:574-580, csr_matrix.rs:548-554) -/
def trShift (ncol : Nat) (bp : List Int) : Res (List Int × Int) :=
  forRange 0 (ncol + 1) (bp, (0 : Int)) fun j (bp, last) => do
    let temp ← vget bp j
    let bp ← vset bp j last
    ok (bp, temp)

/-- The whole transposition: from `nrow` lists given by `ap/aj/ax` to `ncol` lists `bp/bi/bx`
(/repo/russell_sparse/src/csc_matrix.rs:518-583, csr_matrix.rs:494-557) -/
def transposeArrays {α : Type} [Zero α] (nrow ncol : Nat) (ap aj : List Int) (ax : List α) :
    Res (List Int × List Int × List α) := do
  let nn ← vget ap nrow
  let nnz := asUsize nn
  let bp := List.replicate (ncol + 1) (0 : Int)
  let bi := List.replicate nnz (0 : Int)
  let bx := List.replicate nnz (0 : α)
  let bp ← trCount nnz aj bp
  let (bp, _) ← trCumsum ncol bp
  let nn' ← toI32 nnz
  let bp ← vset bp ncol nn'
  let (bp, bi, bx) ← trWrite nrow ap aj ax bp bi bx
  let (bp, _) ← trShift ncol bp
  ok (bp, bi, bx)

/-- `CscMatrix::from_csr` (/repo/russell_sparse/src/csc_matrix.rs:508-584) -/
def Csc.fromCsr {α : Type} [Zero α] (csr : Csr α) : Res (Csc α) := do
  let (bp, bi, bx) ← transposeArrays csr.nrow csr.ncol csr.rowPointers csr.colIndices csr.values
  ok { symmetric := csr.symmetric, nrow := csr.nrow, ncol := csr.ncol,
       colPointers := bp, rowIndices := bi, values := bx,
       tempRp := [], tempRj := [], tempRx := [], tempRc := [], tempW := [] }

/-- `CsrMatrix::from_csc` (/repo/russell_sparse/src/csr_matrix.rs:483-558): the same function with rows and columns
swapped. -/
def Csr.fromCsc {α : Type} [Zero α] (csc : Csc α) : Res (Csr α) := do
  let (bp, bj, bx) ← transposeArrays csc.ncol csc.nrow csc.colPointers csc.rowIndices csc.values
  ok { symmetric := csc.symmetric, nrow := csc.nrow, ncol := csc.ncol,
       rowPointers := bp, colIndices := bj, values := bx,
       tempRp := [], tempRjx := [], tempRc := [], tempW := [] }

end Russell.Sparse
