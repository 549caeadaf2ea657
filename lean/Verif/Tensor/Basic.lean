import Mathlib.Analysis.SpecialFunctions.Pow.Real
import Mathlib.Data.Matrix.Basic
import Mathlib.LinearAlgebra.Matrix.Notation
import Mathlib.Tactic.FinCases
import Verif.Prelude

/-!
# Second-order tensors: representation (russell_tensor/src/enums.rs, constants.rs, tensor1.rs, tensor2.rs)

Numbers are real; `SQRT_2` etc. are the exact roots (the constants of the code are their decimals). The array `[f64; 9]` (default
feature, without `heap`) is a function on `Fin 9`; entries beyond the dimension of the representation are kept as they are.
-/

namespace Russell.Tensor
open Russell Russell.Res

/-- `Rep` (enums.rs:24-139). -/
inductive Rep where
  | General | Symmetric | Symmetric2D
  deriving DecidableEq

/-- `Rep::dim` (enums.rs:152-158). -/
def Rep.dim : Rep → Nat
  | .General => 9
  | .Symmetric => 6
  | .Symmetric2D => 4

/-- `Rep::symmetric` (enums.rs:172-174). -/
def Rep.symmetric (r : Rep) : Bool := r ≠ .General

/-- `SQRT_2` (constants.rs:3). -/
noncomputable def SQRT_2 : ℝ := √2

/-- `SQRT_3` (constants.rs:7). -/
noncomputable def SQRT_3 : ℝ := √3

/-- `SQRT_6` (constants.rs:10). -/
noncomputable def SQRT_6 : ℝ := √6

/-- `SQRT_2_BY_3` (constants.rs:14). -/
noncomputable def SQRT_2_BY_3 : ℝ := √(2 / 3)

/-- `SQRT_3_BY_2` (constants.rs:18). -/
noncomputable def SQRT_3_BY_2 : ℝ := √(3 / 2)

/-- `Tensor1` (tensor1.rs:8-20). -/
abbrev Tensor1 := Fin 3 → ℝ

/-- `Tensor2` (tensor2.rs:70-99); `use_loops` is not used. -/
structure Tensor2 where
  rep : Rep
  vec : Fin 9 → ℝ

/-- `Tensor2::dim` (tensor2.rs:264-266). -/
def Tensor2.dim (t : Tensor2) : Nat := t.rep.dim

/-- `M_TO_IJ` (constants.rs:386-399). -/
def mToIj : Fin 9 → Fin 3 × Fin 3 := ![(0, 0), (1, 1), (2, 2), (0, 1), (1, 2), (0, 2), (1, 0), (2, 1), (2, 0)]

/-- `IJ_TO_M` (constants.rs:426-430). -/
def ijToM : Fin 3 → Fin 3 → Fin 9 := ![![0, 3, 5], ![6, 1, 4], ![8, 7, 2]]

/-- `IJ_TO_M_SYM` (constants.rs:454-458). -/
def ijToMSym : Fin 3 → Fin 3 → Fin 9 := ![![0, 3, 5], ![3, 1, 4], ![5, 4, 2]]

/-- A loop `for m in 0..n { vec[m] = f(m) }`. -/
def upto (n : Nat) (f old : Fin 9 → ℝ) : Fin 9 → ℝ := fun m => if m.val < n then f m else old m

/-- `Tensor2::new` (tensor2.rs:130-150). -/
def Tensor2.new (rep : Rep) : Tensor2 := ⟨rep, fun _ => 0⟩

/-- `Tensor2::new_sym` (tensor2.rs:153-159). -/
def Tensor2.newSym (two_dim : Bool) : Tensor2 := if two_dim then Tensor2.new .Symmetric2D else Tensor2.new .Symmetric

/-- The value of a component (tensor2.rs:383-392). -/
noncomputable def stdComponent (tt : Fin 3 → Fin 3 → ℝ) (m : Fin 9) (old : ℝ) : ℝ :=
  let (i, j) := mToIj m
  if i = j then tt i j
  else if i < j then (tt i j + tt j i) / SQRT_2
  else if i > j then (tt j i - tt i j) / SQRT_2
  else old

/-- `Tensor2::set_std_matrix` (tensor2.rs:368-395), for an array with at least three rows and columns. -/
noncomputable def Tensor2.setStdMatrix (t : Tensor2) (tt : Fin 3 → Fin 3 → ℝ) : Res Tensor2 :=
  if (t.dim = 4 ∨ t.dim = 6) ∧ (tt 1 0 ≠ tt 0 1 ∨ tt 2 1 ≠ tt 1 2 ∨ tt 2 0 ≠ tt 0 2) then
    err "cannot set symmetric Tensor2 with non-symmetric data"
  else if (t.dim = 4 ∨ t.dim = 6) ∧ t.dim = 4 ∧ (tt 1 2 ≠ 0 ∨ tt 0 2 ≠ 0) then
    err "cannot set Symmetric2D Tensor2 with non-zero off-diagonal data"
  else ok { t with vec := upto t.dim (fun m => stdComponent tt m (t.vec m)) t.vec }

/-- `Tensor2::from_std_matrix` (tensor2.rs:487-494). -/
noncomputable def Tensor2.fromStdMatrix (tt : Fin 3 → Fin 3 → ℝ) (rep : Rep) : Res Tensor2 := (Tensor2.new rep).setStdMatrix tt

/-- `Tensor2::identity` (tensor2.rs:521-527). -/
def Tensor2.identity (rep : Rep) : Tensor2 := ⟨rep, ![1, 1, 1, 0, 0, 0, 0, 0, 0]⟩

/-- `Tensor2::get_std` (tensor2.rs:559-588), for indices in range. -/
noncomputable def Tensor2.getStd (t : Tensor2) (i j : Fin 3) : ℝ :=
  match t.rep with
  | .Symmetric2D =>
    let m := ijToMSym i j
    if m.val > 3 then 0 else if i = j then t.vec m else t.vec m / SQRT_2
  | .Symmetric =>
    let m := ijToMSym i j
    if i = j then t.vec m else t.vec m / SQRT_2
  | .General =>
    let m := ijToM i j
    if i = j then t.vec m
    else if i < j then (t.vec m + t.vec (ijToM j i)) / SQRT_2
    else (t.vec (ijToM j i) - t.vec m) / SQRT_2

/-- One turn of the loop of `to_std_matrix` for symmetric tensors (tensor2.rs:661-665). -/
noncomputable def Tensor2.toStdBody (t : Tensor2) (mat : Matrix (Fin 3) (Fin 3) ℝ) (m : Fin 9) : Matrix (Fin 3) (Fin 3) ℝ :=
  let (i, j) := mToIj m
  let mat : Matrix (Fin 3) (Fin 3) ℝ := Matrix.of fun r c => if r = i ∧ c = j then t.getStd i j else mat r c
  if i ≠ j then Matrix.of fun r c => if r = j ∧ c = i then mat i j else mat r c else mat

/-- `Tensor2::to_std_matrix` (tensor2.rs:657-674), for a 3×3 matrix. -/
noncomputable def Tensor2.toStdMatrix (t : Tensor2) (mat : Matrix (Fin 3) (Fin 3) ℝ) : Matrix (Fin 3) (Fin 3) ℝ :=
  if t.dim < 9 then ((List.finRange 9).take t.dim).foldl t.toStdBody mat
  else Matrix.of t.getStd

/-- `Tensor2::as_std_matrix` (tensor2.rs:616-620). -/
noncomputable def Tensor2.asStdMatrix (t : Tensor2) : Matrix (Fin 3) (Fin 3) ℝ := t.toStdMatrix 0

/-- `Tensor2::as_std_matrix_2d` (tensor2.rs:710-718). -/
noncomputable def Tensor2.asStdMatrix2d (t : Tensor2) : Res (ℝ × Matrix (Fin 2) (Fin 2) ℝ) :=
  if t.rep ≠ .Symmetric2D then panic
  else ok (t.getStd 2 2, !![t.getStd 0 0, t.getStd 0 1; t.getStd 1 0, t.getStd 1 1])

/-- `Tensor2::as_general` (tensor2.rs:766-782). -/
def Tensor2.asGeneral (t : Tensor2) : Tensor2 :=
  ⟨.General, ![t.vec 0, t.vec 1, t.vec 2, t.vec 3,
    if t.dim > 4 then t.vec 4 else 0, if t.dim > 4 then t.vec 5 else 0,
    if t.dim > 6 then t.vec 6 else 0, if t.dim > 6 then t.vec 7 else 0, if t.dim > 6 then t.vec 8 else 0]⟩

/-- `Tensor2::sym2d_as_symmetric` (tensor2.rs:831-839). -/
def Tensor2.sym2dAsSymmetric (t : Tensor2) : Res Tensor2 :=
  if t.rep ≠ .Symmetric2D then panic
  else ok ⟨.Symmetric, ![t.vec 0, t.vec 1, t.vec 2, t.vec 3, 0, 0, 0, 0, 0]⟩

/-- `Tensor2::clear` (tensor2.rs:842-844). -/
def Tensor2.clear (t : Tensor2) : Tensor2 := { t with vec := fun _ => 0 }

/-- `vec[m] = value` (tensor2.rs:284-286). -/
def Tensor2.set (t : Tensor2) (m : Fin 9) (value : ℝ) : Tensor2 := { t with vec := fun k => if k = m then value else t.vec k }

/-- `Tensor2::sym_set_std` (tensor2.rs:900-908), for indices in range. -/
noncomputable def Tensor2.symSetStd (t : Tensor2) (i j : Fin 3) (value : ℝ) : Res Tensor2 :=
  if t.rep = .General then panic
  else
    let m := ijToMSym i j
    ok (if i = j then t.set m value else t.set m (value * SQRT_2))

/-- `Tensor2::sym_add_std` (tensor2.rs:953-962), for indices in range. -/
noncomputable def Tensor2.symAddStd (t : Tensor2) (i j : Fin 3) (alpha value : ℝ) : Res Tensor2 :=
  if t.rep = .General then panic
  else if ¬ i ≤ j then panic
  else
    let m := ijToMSym i j
    ok (if i = j then t.set m (t.vec m + alpha * value) else t.set m (t.vec m + alpha * value * SQRT_2))

/-- The pattern `vec[0..4] = f; if dim > 4 { vec[4..6] = f }; if dim > 6 { vec[6..9] = f }` of `set_vector`, `set_tensor`, `update`,
`transpose` and others. -/
def byDim (dim : Nat) (f old : Fin 9 → ℝ) : Fin 9 → ℝ :=
  ![f 0, f 1, f 2, f 3, if dim > 4 then f 4 else old 4, if dim > 4 then f 5 else old 5,
    if dim > 6 then f 6 else old 6, if dim > 6 then f 7 else old 7, if dim > 6 then f 8 else old 8]

/-- `Tensor2::set_vector` (tensor2.rs:1011-1026). -/
def Tensor2.setVector (t : Tensor2) (alpha : ℝ) (other : List ℝ) : Res Tensor2 :=
  if t.dim ≠ other.length then panic
  else ok { t with vec := byDim t.dim (fun m => alpha * other.getD m 0) t.vec }

/-- `Tensor2::set_tensor` (tensor2.rs:1068-1083). -/
def Tensor2.setTensor (t : Tensor2) (alpha : ℝ) (other : Tensor2) : Res Tensor2 :=
  if t.rep ≠ other.rep then panic
  else ok { t with vec := byDim t.dim (fun m => alpha * other.vec m) t.vec }

/-- `Tensor2::update` (tensor2.rs:1125-1140). -/
def Tensor2.update (t : Tensor2) (alpha : ℝ) (other : Tensor2) : Res Tensor2 :=
  if t.rep ≠ other.rep then panic
  else ok { t with vec := byDim t.dim (fun m => t.vec m + alpha * other.vec m) t.vec }

end Russell.Tensor
