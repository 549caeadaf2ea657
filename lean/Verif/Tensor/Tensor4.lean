import Verif.Tensor.Algebra
import Verif.Lab.Small

/-!
# Fourth-order tensors (russell_tensor/src/tensor4.rs, operations_t4.rs, operations_mix1.rs)

As for `Tensor2`: numbers are real, the roots are exact, and the default build is modelled, where the matrix has 9×9 components for every
representation and those beyond the dimension are kept. Indices are of type `Fin`: an index out of range is a panic of the Rust code and is
not a case here.
-/

namespace Russell.Tensor
open Russell Russell.Res

/-- `MN_TO_IJKL` (constants.rs:740-750). -/
def mnToIjkl : Fin 9 → Fin 9 → Fin 3 × Fin 3 × Fin 3 × Fin 3 :=
  ![
  ![(0, 0, 0, 0), (0, 0, 1, 1), (0, 0, 2, 2), (0, 0, 0, 1), (0, 0, 1, 2), (0, 0, 0, 2), (0, 0, 1, 0), (0, 0, 2, 1), (0, 0, 2, 0)], 
  ![(1, 1, 0, 0), (1, 1, 1, 1), (1, 1, 2, 2), (1, 1, 0, 1), (1, 1, 1, 2), (1, 1, 0, 2), (1, 1, 1, 0), (1, 1, 2, 1), (1, 1, 2, 0)], 
  ![(2, 2, 0, 0), (2, 2, 1, 1), (2, 2, 2, 2), (2, 2, 0, 1), (2, 2, 1, 2), (2, 2, 0, 2), (2, 2, 1, 0), (2, 2, 2, 1), (2, 2, 2, 0)], 
  ![(0, 1, 0, 0), (0, 1, 1, 1), (0, 1, 2, 2), (0, 1, 0, 1), (0, 1, 1, 2), (0, 1, 0, 2), (0, 1, 1, 0), (0, 1, 2, 1), (0, 1, 2, 0)], 
  ![(1, 2, 0, 0), (1, 2, 1, 1), (1, 2, 2, 2), (1, 2, 0, 1), (1, 2, 1, 2), (1, 2, 0, 2), (1, 2, 1, 0), (1, 2, 2, 1), (1, 2, 2, 0)], 
  ![(0, 2, 0, 0), (0, 2, 1, 1), (0, 2, 2, 2), (0, 2, 0, 1), (0, 2, 1, 2), (0, 2, 0, 2), (0, 2, 1, 0), (0, 2, 2, 1), (0, 2, 2, 0)], 
  ![(1, 0, 0, 0), (1, 0, 1, 1), (1, 0, 2, 2), (1, 0, 0, 1), (1, 0, 1, 2), (1, 0, 0, 2), (1, 0, 1, 0), (1, 0, 2, 1), (1, 0, 2, 0)], 
  ![(2, 1, 0, 0), (2, 1, 1, 1), (2, 1, 2, 2), (2, 1, 0, 1), (2, 1, 1, 2), (2, 1, 0, 2), (2, 1, 1, 0), (2, 1, 2, 1), (2, 1, 2, 0)], 
  ![(2, 0, 0, 0), (2, 0, 1, 1), (2, 0, 2, 2), (2, 0, 0, 1), (2, 0, 1, 2), (2, 0, 0, 2), (2, 0, 1, 0), (2, 0, 2, 1), (2, 0, 2, 0)]]

/-- `IJKL_TO_MN` (constants.rs:779-795). -/
def ijklToMn : Fin 3 → Fin 3 → Fin 3 → Fin 3 → Fin 9 × Fin 9 :=
  ![
  ![
      ![![(0, 0), (0, 3), (0, 5)], ![(0, 6), (0, 1), (0, 4)], ![(0, 8), (0, 7), (0, 2)]], 
      ![![(3, 0), (3, 3), (3, 5)], ![(3, 6), (3, 1), (3, 4)], ![(3, 8), (3, 7), (3, 2)]], 
      ![![(5, 0), (5, 3), (5, 5)], ![(5, 6), (5, 1), (5, 4)], ![(5, 8), (5, 7), (5, 2)]]],
  ![
      ![![(6, 0), (6, 3), (6, 5)], ![(6, 6), (6, 1), (6, 4)], ![(6, 8), (6, 7), (6, 2)]], 
      ![![(1, 0), (1, 3), (1, 5)], ![(1, 6), (1, 1), (1, 4)], ![(1, 8), (1, 7), (1, 2)]], 
      ![![(4, 0), (4, 3), (4, 5)], ![(4, 6), (4, 1), (4, 4)], ![(4, 8), (4, 7), (4, 2)]]],
  ![
      ![![(8, 0), (8, 3), (8, 5)], ![(8, 6), (8, 1), (8, 4)], ![(8, 8), (8, 7), (8, 2)]], 
      ![![(7, 0), (7, 3), (7, 5)], ![(7, 6), (7, 1), (7, 4)], ![(7, 8), (7, 7), (7, 2)]], 
      ![![(2, 0), (2, 3), (2, 5)], ![(2, 6), (2, 1), (2, 4)], ![(2, 8), (2, 7), (2, 2)]]]]

/-- `IJKL_TO_MN_SYM` (constants.rs:820-836). -/
def ijklToMnSym : Fin 3 → Fin 3 → Fin 3 → Fin 3 → Fin 9 × Fin 9 :=
  ![
  ![
      ![![(0, 0), (0, 3), (0, 5)], ![(0, 3), (0, 1), (0, 4)], ![(0, 5), (0, 4), (0, 2)]], 
      ![![(3, 0), (3, 3), (3, 5)], ![(3, 3), (3, 1), (3, 4)], ![(3, 5), (3, 4), (3, 2)]], 
      ![![(5, 0), (5, 3), (5, 5)], ![(5, 3), (5, 1), (5, 4)], ![(5, 5), (5, 4), (5, 2)]]],
  ![
      ![![(3, 0), (3, 3), (3, 5)], ![(3, 3), (3, 1), (3, 4)], ![(3, 5), (3, 4), (3, 2)]], 
      ![![(1, 0), (1, 3), (1, 5)], ![(1, 3), (1, 1), (1, 4)], ![(1, 5), (1, 4), (1, 2)]], 
      ![![(4, 0), (4, 3), (4, 5)], ![(4, 3), (4, 1), (4, 4)], ![(4, 5), (4, 4), (4, 2)]]],
  ![
      ![![(5, 0), (5, 3), (5, 5)], ![(5, 3), (5, 1), (5, 4)], ![(5, 5), (5, 4), (5, 2)]], 
      ![![(4, 0), (4, 3), (4, 5)], ![(4, 3), (4, 1), (4, 4)], ![(4, 5), (4, 4), (4, 2)]], 
      ![![(2, 0), (2, 3), (2, 5)], ![(2, 3), (2, 1), (2, 4)], ![(2, 5), (2, 4), (2, 2)]]]]

/-- `Tensor4` (tensor4.rs:123-150). The field `dim` is `rep.dim()`. -/
structure Tensor4 where
  rep : Rep
  mat : Fin 9 → Fin 9 → ℝ
  useLoops : Bool

/-- The field `dim`. -/
def Tensor4.dim (t : Tensor4) : Nat := t.rep.dim

/-- `Tensor4::new` (tensor4.rs:175-195). -/
def Tensor4.new (rep : Rep) : Tensor4 := ⟨rep, fun _ _ => 0, false⟩

/-- `Tensor4::new_sym`, `new_sym_ndim` (tensor4.rs:198-215). -/
def Tensor4.newSym (two_dim : Bool) : Tensor4 := if two_dim then Tensor4.new .Symmetric2D else Tensor4.new .Symmetric

/-- `Tensor4::set` (tensor4.rs:287-296). -/
def Tensor4.set (t : Tensor4) (m n : Fin 9) (value : ℝ) : Tensor4 :=
  ⟨t.rep, fun p q => if p = m ∧ q = n then value else t.mat p q, t.useLoops⟩

/-- All `(i, j, k, l)` in the order of the four loops. -/
def allIjkl : List (Fin 3 × Fin 3 × Fin 3 × Fin 3) :=
  (List.finRange 3).flatMap fun i => (List.finRange 3).flatMap fun j => (List.finRange 3).flatMap fun k =>
    (List.finRange 3).map fun l => (i, j, k, l)

/-- Loops that may return early with an error. -/
def forAll {ι σ : Type} (l : List ι) (f : ι → σ → Res σ) (s : σ) : Res σ :=
  match l with
  | [] => ok s
  | x :: l => do
    let s ← f x s
    forAll l f s

open Classical in
/-- Body of the loops for symmetric representations (tensor4.rs:311-335). -/
noncomputable def Tensor4.setStdSym (max : Nat) (inp : Fin 3 → Fin 3 → Fin 3 → Fin 3 → ℝ) (x : Fin 3 × Fin 3 × Fin 3 × Fin 3)
    (t : Tensor4) : Res Tensor4 :=
  let i := x.1
  let j := x.2.1
  let k := x.2.2.1
  let l := x.2.2.2
  if i > j ∨ k > l then
    if inp i j k l ≠ inp j i k l ∨ inp i j k l ≠ inp i j l k ∨ inp i j k l ≠ inp j i l k then
      err "the input data does not correspond to a minor-symmetric tensor"
    else ok t
  else
    let m := (ijklToMn i j k l).1
    let n := (ijklToMn i j k l).2
    if m.val > max ∨ n.val > max then
      if inp i j k l ≠ 0 then err "the input data does not correspond to a 2D minor-symmetric tensor" else ok t
    else if m.val < 3 ∧ n.val < 3 then ok (t.set m n (inp i j k l))
    else if m.val > 2 ∧ n.val > 2 then ok (t.set m n (2 * inp i j k l))
    else ok (t.set m n (SQRT_2 * inp i j k l))

/-- The value set in the loops for general tensors (tensor4.rs:345-392). -/
noncomputable def Tensor4.setStdValue (inp : Fin 3 → Fin 3 → Fin 3 → Fin 3 → ℝ) (i j k l : Fin 3) : ℝ :=
  if i = j ∧ k = l then inp i j k l
  else if i = j ∧ k < l then (inp i j k l + inp i j l k) / SQRT_2
  else if i = j ∧ k > l then (inp i j l k - inp i j k l) / SQRT_2
  else if i < j ∧ k = l then (inp i j k l + inp j i k l) / SQRT_2
  else if i < j ∧ k < l then (inp i j k l + inp i j l k + inp j i k l + inp j i l k) / 2
  else if i < j ∧ k > l then (inp i j l k - inp i j k l + inp j i l k - inp j i k l) / 2
  else if i > j ∧ k = l then (inp j i k l - inp i j k l) / SQRT_2
  else if i > j ∧ k < l then (inp j i k l + inp j i l k - inp i j k l - inp i j l k) / 2
  else (inp j i l k - inp j i k l - inp i j l k + inp i j k l) / 2

/-- `Tensor4::set_std_array` (tensor4.rs:303-399). The components set before an error are not modelled. -/
noncomputable def Tensor4.setStdArray (t : Tensor4) (inp : Fin 3 → Fin 3 → Fin 3 → Fin 3 → ℝ) : Res Tensor4 :=
  let dim := t.rep.dim
  if dim = 4 ∨ dim = 6 then
    let max := if dim = 4 then 3 else 6
    forAll allIjkl (Tensor4.setStdSym max inp) t
  else
    forAll allIjkl (fun x t => ok (t.set (ijklToMn x.1 x.2.1 x.2.2.1 x.2.2.2).1 (ijklToMn x.1 x.2.1 x.2.2.1 x.2.2.2).2
      (Tensor4.setStdValue inp x.1 x.2.1 x.2.2.1 x.2.2.2))) t

/-- `Tensor4::from_std_array` (tensor4.rs:442-446). -/
noncomputable def Tensor4.fromStdArray (inp : Fin 3 → Fin 3 → Fin 3 → Fin 3 → ℝ) (rep : Rep) : Res Tensor4 :=
  (Tensor4.new rep).setStdArray inp

/-- `Tensor4::set_std_matrix` (tensor4.rs:458-560): the statements are those of `set_std_array` with `inp.at(IJKL_TO_MN[i][j][k][l])` in
place of `inp[i][j][k][l]`. The matrix is 9×9 (a smaller one is a panic). -/
noncomputable def Tensor4.setStdMatrix (t : Tensor4) (inp : Fin 9 → Fin 9 → ℝ) : Res Tensor4 :=
  t.setStdArray fun i j k l => inp (ijklToMn i j k l).1 (ijklToMn i j k l).2

/-- `Tensor4::from_std_matrix` (tensor4.rs:605-612). -/
noncomputable def Tensor4.fromStdMatrix (inp : Fin 9 → Fin 9 → ℝ) (rep : Rep) : Res Tensor4 := (Tensor4.new rep).setStdMatrix inp

/-- `Tensor4::get_std` (tensor4.rs:643-735). -/
noncomputable def Tensor4.getStd (t : Tensor4) (i j k l : Fin 3) : ℝ :=
  match t.rep with
  | .Symmetric2D =>
    let m := (ijklToMnSym i j k l).1
    let n := (ijklToMnSym i j k l).2
    if m.val > 3 ∨ n.val > 3 then 0
    else if m.val < 3 ∧ n.val < 3 then t.mat m n
    else if m.val > 2 ∧ n.val > 2 then t.mat m n / 2
    else t.mat m n / SQRT_2
  | .Symmetric =>
    let m := (ijklToMnSym i j k l).1
    let n := (ijklToMnSym i j k l).2
    if m.val < 3 ∧ n.val < 3 then t.mat m n
    else if m.val > 2 ∧ n.val > 2 then t.mat m n / 2
    else t.mat m n / SQRT_2
  | .General =>
    let val := t.mat (ijklToMn i j k l).1 (ijklToMn i j k l).2
    let pq := t.mat (ijklToMn i j l k).1 (ijklToMn i j l k).2
    let rs := t.mat (ijklToMn j i k l).1 (ijklToMn j i k l).2
    let uv := t.mat (ijklToMn j i l k).1 (ijklToMn j i l k).2
    if i = j ∧ k = l then val
    else if i = j ∧ k < l then (val + pq) / SQRT_2
    else if i = j ∧ k > l then (pq - val) / SQRT_2
    else if i < j ∧ k = l then (val + rs) / SQRT_2
    else if i < j ∧ k < l then (val + pq + rs + uv) / 2
    else if i < j ∧ k > l then (pq - val + uv - rs) / 2
    else if i > j ∧ k = l then (rs - val) / SQRT_2
    else if i > j ∧ k < l then (rs + uv - val - pq) / 2
    else (uv - rs - pq + val) / 2

/-- The loops over `m, n < dim`. -/
def upto2 (d : Nat) (f old : Fin 9 → Fin 9 → ℝ) : Fin 9 → Fin 9 → ℝ := fun m n => if m.val < d ∧ n.val < d then f m n else old m n

/-- `Tensor4::update` (tensor4.rs:783-790). -/
def Tensor4.update (t : Tensor4) (alpha : ℝ) (other : Tensor4) : Res Tensor4 :=
  if other.rep ≠ t.rep then panic
  else ok ⟨t.rep, upto2 t.dim (fun m n => t.mat m n + alpha * other.mat m n) t.mat, t.useLoops⟩

/-- `Tensor4::set_tensor` (tensor4.rs:1095-1102). -/
def Tensor4.setTensor (t : Tensor4) (alpha : ℝ) (other : Tensor4) : Res Tensor4 :=
  if other.rep ≠ t.rep then panic
  else ok ⟨t.rep, upto2 t.dim (fun m n => alpha * other.mat m n) t.mat, t.useLoops⟩

/-- The components as an array of the functions for small matrices. -/
def arr (f : Fin 9 → Fin 9 → ℝ) : Lab.Arr2 ℝ := fun m n => if h : m < 9 ∧ n < 9 then f ⟨m, h.1⟩ ⟨n, h.2⟩ else 0

/-- `Tensor4::calc_inverse` (tensor4.rs:797-809), default build; `small_mat_inv` is the model of C26 (`ZERO_DETERMINANT` is 1e-15). -/
noncomputable def Tensor4.calcInverse (t inv : Tensor4) : Res (ℝ × Tensor4) :=
  if inv.rep ≠ t.rep then err "the representation of the inverse tensor and this tensor must equal each other"
  else do
    let r ← Lab.smallMatInv 9 (1e-15 : ℝ) (arr inv.mat) (arr t.mat) t.dim
    ok (r.1, ⟨inv.rep, fun m n => r.2 m n, inv.useLoops⟩)

/-- Body of the loops of `to_std_array` for symmetric representations (tensor4.rs:887-893). -/
noncomputable def Tensor4.toStdBody (t : Tensor4) (dd : Fin 3 → Fin 3 → Fin 3 → Fin 3 → ℝ) (m n : Fin 9) :
    Fin 3 → Fin 3 → Fin 3 → Fin 3 → ℝ :=
  let i := (mnToIjkl m n).1
  let j := (mnToIjkl m n).2.1
  let k := (mnToIjkl m n).2.2.1
  let l := (mnToIjkl m n).2.2.2
  let put := fun (d : Fin 3 → Fin 3 → Fin 3 → Fin 3 → ℝ) (a b c e : Fin 3) (v : ℝ) (p q r s : Fin 3) =>
    if p = a ∧ q = b ∧ r = c ∧ s = e then v else d p q r s
  let dd := put dd i j k l (t.getStd i j k l)
  if i ≠ j ∨ k ≠ l then
    let dd := put dd j i k l (dd i j k l)
    let dd := put dd i j l k (dd i j k l)
    put dd j i l k (dd i j k l)
  else dd

/-- `Tensor4::to_std_array` (tensor4.rs:882-907); `dd` is 3×3×3×3. -/
noncomputable def Tensor4.toStdArray (t : Tensor4) (dd : Fin 3 → Fin 3 → Fin 3 → Fin 3 → ℝ) : Fin 3 → Fin 3 → Fin 3 → Fin 3 → ℝ :=
  if t.dim < 9 then
    ((List.finRange 9).filter fun m => decide (m.val < t.dim)).foldl (fun dd m =>
      ((List.finRange 9).filter fun n => decide (n.val < t.dim)).foldl (fun dd n => t.toStdBody dd m n) dd) dd
  else fun i j k l => t.getStd i j k l

/-- `Tensor4::as_std_array` (tensor4.rs:841-845). -/
noncomputable def Tensor4.asStdArray (t : Tensor4) : Fin 3 → Fin 3 → Fin 3 → Fin 3 → ℝ := t.toStdArray fun _ _ _ _ => 0

/-- `Tensor4::to_std_matrix` (tensor4.rs:994-1002) and `as_std_matrix` (tensor4.rs:944-948); the matrix is 9×9 and every entry is set. -/
noncomputable def Tensor4.asStdMatrix (t : Tensor4) : Fin 9 → Fin 9 → ℝ := fun m n =>
  t.getStd (mnToIjkl m n).1 (mnToIjkl m n).2.1 (mnToIjkl m n).2.2.1 (mnToIjkl m n).2.2.2

/-- `Tensor4::sym_set_std` (tensor4.rs:1046-1056). -/
noncomputable def Tensor4.symSetStd (t : Tensor4) (i j k l : Fin 3) (value : ℝ) : Res Tensor4 :=
  if t.rep = .General then panic
  else
    let m := (ijklToMnSym i j k l).1
    let n := (ijklToMnSym i j k l).2
    if m.val < 3 ∧ n.val < 3 then ok (t.set m n value)
    else if m.val > 2 ∧ n.val > 2 then ok (t.set m n (value * 2))
    else ok (t.set m n (value * SQRT_2))

/-- A sequence of calls of `set`. -/
def Tensor4.sets (t : Tensor4) (l : List (Fin 9 × Fin 9 × ℝ)) : Tensor4 := l.foldl (fun t x => t.set x.1 x.2.1 x.2.2) t

/-- `Tensor4::constant_ii` (tensor4.rs:1128-1134). -/
noncomputable def Tensor4.constantIi : Tensor4 :=
  (List.finRange 9).foldl (fun t m => t.set m m 1) (Tensor4.new .General)

/-- `Tensor4::constant_tt` (tensor4.rs:1161-1173). -/
noncomputable def Tensor4.constantTt : Tensor4 :=
  (Tensor4.new .General).sets [(0, 0, 1), (1, 1, 1), (2, 2, 1), (3, 3, 1), (4, 4, 1), (5, 5, 1), (6, 6, -1), (7, 7, -1), (8, 8, -1)]

/-- `Tensor4::constant_jj` (tensor4.rs:1199-1215). -/
noncomputable def Tensor4.constantJj (reduced_6x6 : Bool) : Tensor4 :=
  (if reduced_6x6 then Tensor4.new .Symmetric else Tensor4.new .General).sets [(0, 0, 1), (0, 1, 1), (0, 2, 1), (1, 0, 1), (1, 1, 1), (1, 2, 1), (2, 0, 1), (2, 1, 1), (2, 2, 1)]

/-- `Tensor4::constant_pp_iso` (tensor4.rs:1241-1257). -/
noncomputable def Tensor4.constantPpIso (reduced_6x6 : Bool) : Tensor4 :=
  (if reduced_6x6 then Tensor4.new .Symmetric else Tensor4.new .General).sets [(0, 0, 1 / 3), (0, 1, 1 / 3), (0, 2, 1 / 3), (1, 0, 1 / 3), (1, 1, 1 / 3), (1, 2, 1 / 3), (2, 0, 1 / 3),
    (2, 1, 1 / 3), (2, 2, 1 / 3)]

/-- `Tensor4::constant_pp_sym` (tensor4.rs:1284-1297). -/
noncomputable def Tensor4.constantPpSym (reduced_6x6 : Bool) : Tensor4 :=
  (if reduced_6x6 then Tensor4.new .Symmetric else Tensor4.new .General).sets [(0, 0, 1), (1, 1, 1), (2, 2, 1), (3, 3, 1), (4, 4, 1), (5, 5, 1)]

/-- `Tensor4::constant_pp_skew` (tensor4.rs:1324-1330). -/
noncomputable def Tensor4.constantPpSkew : Tensor4 :=
  (Tensor4.new .General).sets [(6, 6, 1), (7, 7, 1), (8, 8, 1)]

/-- `Tensor4::constant_pp_dev` (tensor4.rs:1356-1374). -/
noncomputable def Tensor4.constantPpDev : Tensor4 :=
  (Tensor4.new .General).sets [(0, 0, 2 / 3), (0, 1, -(1 / 3)), (0, 2, -(1 / 3)), (1, 0, -(1 / 3)), (1, 1, 2 / 3), (1, 2, -(1 / 3)),
    (2, 0, -(1 / 3)), (2, 1, -(1 / 3)), (2, 2, 2 / 3), (3, 3, 1), (4, 4, 1), (5, 5, 1), (6, 6, 1), (7, 7, 1), (8, 8, 1)]

/-- `Tensor4::constant_pp_symdev` (tensor4.rs:1401-1420). -/
noncomputable def Tensor4.constantPpSymdev (reduced_6x6 : Bool) : Tensor4 :=
  (if reduced_6x6 then Tensor4.new .Symmetric else Tensor4.new .General).sets [(0, 0, 2 / 3), (0, 1, -(1 / 3)), (0, 2, -(1 / 3)), (1, 0, -(1 / 3)), (1, 1, 2 / 3), (1, 2, -(1 / 3)),
    (2, 0, -(1 / 3)), (2, 1, -(1 / 3)), (2, 2, 2 / 3), (3, 3, 1), (4, 4, 1), (5, 5, 1)]

/-- `Tensor4::set_pp_symdev` (tensor4.rs:1447-1467). -/
noncomputable def Tensor4.setPpSymdev (t : Tensor4) : Tensor4 :=
  let t := Tensor4.mk t.rep (upto2 t.dim (fun _ _ => 0) t.mat) t.useLoops
  let t := t.sets [(0, 0, 2 / 3), (0, 1, -(1 / 3)), (0, 2, -(1 / 3)), (1, 0, -(1 / 3)), (1, 1, 2 / 3), (1, 2, -(1 / 3)),
    (2, 0, -(1 / 3)), (2, 1, -(1 / 3)), (2, 2, 2 / 3), (3, 3, 1)]
  if t.dim > 4 then t.sets [(4, 4, 1), (5, 5, 1)] else t

/-! ### Operations -/

/-- `t4_add` (operations_t4.rs:21-33) with `small_mat_add` (C26). -/
def t4Add (c : Tensor4) (alpha : ℝ) (a : Tensor4) (beta : ℝ) (b : Tensor4) : Res Tensor4 :=
  if b.rep ≠ a.rep then panic
  else if c.rep ≠ a.rep then panic
  else do
    let r ← Lab.smallMatAdd 9 (arr c.mat) alpha (arr a.mat) beta (arr b.mat) c.dim
    ok ⟨c.rep, fun m n => r m n, c.useLoops⟩

/-- `t4_ddot_t4_update` (operations_t4.rs:174-186) with `small_mat_mat_mul` (C26). -/
def t4DdotT4Update (ee : Tensor4) (alpha : ℝ) (cc dd : Tensor4) (beta : ℝ) : Res Tensor4 :=
  if cc.rep ≠ dd.rep then panic
  else if ee.rep ≠ dd.rep then panic
  else do
    let r ← Lab.smallMatMatMul 9 (arr ee.mat) alpha (arr cc.mat) (arr dd.mat) beta ee.dim
    ok ⟨ee.rep, fun m n => r m n, ee.useLoops⟩

/-- `t4_ddot_t4` (operations_t4.rs:124-136). -/
def t4DdotT4 (ee : Tensor4) (alpha : ℝ) (cc dd : Tensor4) : Res Tensor4 :=
  if cc.rep ≠ dd.rep then panic
  else if ee.rep ≠ dd.rep then panic
  else do
    let r ← Lab.smallMatMatMul 9 (arr ee.mat) alpha (arr cc.mat) (arr dd.mat) 0 ee.dim
    ok ⟨ee.rep, fun m n => r m n, ee.useLoops⟩

/-- Sums over `0..d`. -/
def sumTo (d : Nat) (f : Fin 9 → ℝ) : ℝ := ((List.finRange 9).filter fun n => decide (n.val < d)).foldl (fun s n => s + f n) 0

/-- `t2_dyad_t2` (operations_mix1.rs:76-85). -/
def t2DyadT2 (dd : Tensor4) (alpha : ℝ) (a b : Tensor2) : Res Tensor4 :=
  if a.rep ≠ dd.rep then panic
  else if b.rep ≠ dd.rep then panic
  else ok ⟨dd.rep, upto2 dd.dim (fun m n => alpha * a.vec m * b.vec n) dd.mat, dd.useLoops⟩

/-- `t2_dyad_t2_update` (operations_mix1.rs:163-172). -/
def t2DyadT2Update (dd : Tensor4) (alpha : ℝ) (a b : Tensor2) : Res Tensor4 :=
  if a.rep ≠ dd.rep then panic
  else if b.rep ≠ dd.rep then panic
  else ok ⟨dd.rep, upto2 dd.dim (fun m n => dd.mat m n + alpha * a.vec m * b.vec n) dd.mat, dd.useLoops⟩

/-- `t4_ddot_t2` (operations_mix1.rs:246-257). -/
def t4DdotT2 (b : Tensor2) (alpha : ℝ) (dd : Tensor4) (a : Tensor2) : Res Tensor2 :=
  if a.rep ≠ dd.rep then panic
  else if b.rep ≠ dd.rep then panic
  else ok ⟨b.rep, upto b.dim (fun m => alpha * sumTo b.dim fun n => dd.mat m n * a.vec n) b.vec⟩

/-- `t4_ddot_t2_update` (operations_mix1.rs:338-349). -/
def t4DdotT2Update (b : Tensor2) (alpha : ℝ) (dd : Tensor4) (a : Tensor2) (beta : ℝ) : Res Tensor2 :=
  if a.rep ≠ dd.rep then panic
  else if b.rep ≠ dd.rep then panic
  else ok ⟨b.rep, upto b.dim (fun m => alpha * (sumTo b.dim fun n => dd.mat m n * a.vec n) + beta * b.vec m) b.vec⟩

/-- `t2_ddot_t4` (operations_mix1.rs:418-429). -/
def t2DdotT4 (b : Tensor2) (alpha : ℝ) (a : Tensor2) (dd : Tensor4) : Res Tensor2 :=
  if a.rep ≠ dd.rep then panic
  else if b.rep ≠ dd.rep then panic
  else ok ⟨b.rep, upto b.dim (fun n => alpha * sumTo b.dim fun m => a.vec m * dd.mat m n) b.vec⟩

/-- `t2_ddot_t4_ddot_t2` (operations_mix1.rs:468-479); the two loops add to one variable, which is the folds below. -/
def t2DdotT4DdotT2 (a : Tensor2) (dd : Tensor4) (b : Tensor2) : Res ℝ :=
  if a.rep ≠ dd.rep then panic
  else if b.rep ≠ dd.rep then panic
  else ok (((List.finRange 9).filter fun m => decide (m.val < a.dim)).foldl (fun s m =>
    ((List.finRange 9).filter fun n => decide (n.val < a.dim)).foldl (fun s n => s + a.vec m * dd.mat m n * b.vec n) s) 0)

/-- `t4_ddot_t2_dyad_t2_ddot_t4` (operations_mix1.rs:520-539). -/
def t4DdotT2DyadT2DdotT4 (ee : Tensor4) (alpha : ℝ) (dd : Tensor4) (beta : ℝ) (a b : Tensor2) : Res Tensor4 :=
  if a.rep ≠ dd.rep then panic
  else if b.rep ≠ dd.rep then panic
  else if ee.rep ≠ dd.rep then panic
  else ok ⟨ee.rep, upto2 a.dim (fun m n =>
    ((List.finRange 9).filter fun p => decide (p.val < a.dim)).foldl (fun s p =>
      ((List.finRange 9).filter fun q => decide (q.val < a.dim)).foldl (fun s q =>
        s + beta * dd.mat m p * a.vec p * b.vec q * dd.mat q n) s) (alpha * dd.mat m n)) ee.mat, ee.useLoops⟩

end Russell.Tensor
