import Verif.Tensor.Tensor4

/-!
# Third-order tensors (russell_tensor/src/tensor3.rs, operations_t3.rs)

As for `Tensor2` and `Tensor4`: numbers are real, the roots are exact, and the default build is modelled, where the matrix has 9×9 components
for every representation and those beyond the dimensions are kept. Indices are of type `Fin`: an index out of range is a panic of the Rust
code and is not a case here.
-/

namespace Russell.Tensor
open Russell Russell.Res

/-- `MN_TO_IJK_CASE_A` (constants.rs:493-503). -/
def mnToIjkA : Fin 9 → Fin 3 → Fin 3 × Fin 3 × Fin 3 :=
  ![
    ![(0, 0, 0), (0, 0, 1), (0, 0, 2)],
    ![(1, 1, 0), (1, 1, 1), (1, 1, 2)],
    ![(2, 2, 0), (2, 2, 1), (2, 2, 2)],
    ![(0, 1, 0), (0, 1, 1), (0, 1, 2)],
    ![(1, 2, 0), (1, 2, 1), (1, 2, 2)],
    ![(0, 2, 0), (0, 2, 1), (0, 2, 2)],
    ![(1, 0, 0), (1, 0, 1), (1, 0, 2)],
    ![(2, 1, 0), (2, 1, 1), (2, 1, 2)],
    ![(2, 0, 0), (2, 0, 1), (2, 0, 2)]]

/-- `MN_TO_IJK_CASE_B` (constants.rs:528-532). -/
def mnToIjkB : Fin 3 → Fin 9 → Fin 3 × Fin 3 × Fin 3 :=
  ![
    ![(0, 0, 0), (0, 1, 1), (0, 2, 2), (0, 0, 1), (0, 1, 2), (0, 0, 2), (0, 1, 0), (0, 2, 1), (0, 2, 0)],
    ![(1, 0, 0), (1, 1, 1), (1, 2, 2), (1, 0, 1), (1, 1, 2), (1, 0, 2), (1, 1, 0), (1, 2, 1), (1, 2, 0)],
    ![(2, 0, 0), (2, 1, 1), (2, 2, 2), (2, 0, 1), (2, 1, 2), (2, 0, 2), (2, 1, 0), (2, 2, 1), (2, 2, 0)]]

/-- `IJK_TO_MN_CASE_A` (constants.rs:563-579). -/
def ijkToMnA : Fin 3 → Fin 3 → Fin 3 → Fin 9 × Fin 9 :=
  ![
    ![![(0, 0), (0, 1), (0, 2)], ![(3, 0), (3, 1), (3, 2)], ![(5, 0), (5, 1), (5, 2)]],
    ![![(6, 0), (6, 1), (6, 2)], ![(1, 0), (1, 1), (1, 2)], ![(4, 0), (4, 1), (4, 2)]],
    ![![(8, 0), (8, 1), (8, 2)], ![(7, 0), (7, 1), (7, 2)], ![(2, 0), (2, 1), (2, 2)]]]

/-- `IJK_TO_MN_CASE_B` (constants.rs:604-620). -/
def ijkToMnB : Fin 3 → Fin 3 → Fin 3 → Fin 9 × Fin 9 :=
  ![
    ![![(0, 0), (0, 3), (0, 5)], ![(0, 6), (0, 1), (0, 4)], ![(0, 8), (0, 7), (0, 2)]],
    ![![(1, 0), (1, 3), (1, 5)], ![(1, 6), (1, 1), (1, 4)], ![(1, 8), (1, 7), (1, 2)]],
    ![![(2, 0), (2, 3), (2, 5)], ![(2, 6), (2, 1), (2, 4)], ![(2, 8), (2, 7), (2, 2)]]]

/-- `IJK_TO_MN_SYM_CASE_A` (constants.rs:649-665). -/
def ijkToMnSymA : Fin 3 → Fin 3 → Fin 3 → Fin 9 × Fin 9 :=
  ![
    ![![(0, 0), (0, 1), (0, 2)], ![(3, 0), (3, 1), (3, 2)], ![(5, 0), (5, 1), (5, 2)]],
    ![![(3, 0), (3, 1), (3, 2)], ![(1, 0), (1, 1), (1, 2)], ![(4, 0), (4, 1), (4, 2)]],
    ![![(5, 0), (5, 1), (5, 2)], ![(4, 0), (4, 1), (4, 2)], ![(2, 0), (2, 1), (2, 2)]]]

/-- `IJK_TO_MN_SYM_CASE_B` (constants.rs:691-707). -/
def ijkToMnSymB : Fin 3 → Fin 3 → Fin 3 → Fin 9 × Fin 9 :=
  ![
    ![![(0, 0), (0, 3), (0, 5)], ![(0, 3), (0, 1), (0, 4)], ![(0, 5), (0, 4), (0, 2)]],
    ![![(1, 0), (1, 3), (1, 5)], ![(1, 3), (1, 1), (1, 4)], ![(1, 5), (1, 4), (1, 2)]],
    ![![(2, 0), (2, 3), (2, 5)], ![(2, 3), (2, 1), (2, 4)], ![(2, 5), (2, 4), (2, 2)]]]

/-- `Tensor3` (tensor3.rs:198-249). The fields `nrow` and `ncol` are `dims`. -/
structure Tensor3 where
  rep : Rep
  caseA : Bool
  mat : Fin 9 → Fin 9 → ℝ
  useLoops : Bool

/-- The fields `nrow` and `ncol` (tensor3.rs:276) and `Tensor3::dims` (tensor3.rs:335-337). -/
def Tensor3.dims (t : Tensor3) : Nat × Nat := if t.caseA then (t.rep.dim, 3) else (3, t.rep.dim)

/-- `Tensor3::new` (tensor3.rs:275-299). -/
def Tensor3.new (rep : Rep) (case_a : Bool) : Tensor3 := ⟨rep, case_a, fun _ _ => 0, false⟩

/-- `Tensor3::new_sym` (tensor3.rs:302-308). -/
def Tensor3.newSym (two_dim case_a : Bool) : Tensor3 :=
  if two_dim then Tensor3.new .Symmetric2D case_a else Tensor3.new .Symmetric case_a

/-- `Tensor3::new_sym_ndim` (tensor3.rs:313-319). -/
def Tensor3.newSymNdim (space_ndim : Nat) (case_a : Bool) : Tensor3 :=
  if space_ndim = 2 then Tensor3.new .Symmetric2D case_a else Tensor3.new .Symmetric case_a

/-- `Tensor3::set` (tensor3.rs:397-406). -/
def Tensor3.set (t : Tensor3) (m n : Fin 9) (value : ℝ) : Tensor3 :=
  ⟨t.rep, t.caseA, fun p q => if p = m ∧ q = n then value else t.mat p q, t.useLoops⟩

/-- All `(i, j, k)` in the order of the three loops. -/
def allIjk : List (Fin 3 × Fin 3 × Fin 3) :=
  (List.finRange 3).flatMap fun i => (List.finRange 3).flatMap fun j => (List.finRange 3).map fun k => (i, j, k)

open Classical in
/-- Body of the loops of case A for symmetric representations (tensor3.rs:421-440). -/
noncomputable def Tensor3.setStdSymA (max : Nat) (inp : Fin 3 → Fin 3 → Fin 3 → ℝ) (x : Fin 3 × Fin 3 × Fin 3) (t : Tensor3) : Res Tensor3 :=
  let i := x.1
  let j := x.2.1
  let k := x.2.2
  if i > j then
    if inp i j k ≠ inp j i k then err "the input data does not correspond to a minor-symmetric tensor" else ok t
  else
    let m := (ijkToMnA i j k).1
    let n := (ijkToMnA i j k).2
    if m.val > max then
      if inp i j k ≠ 0 then err "the input data does not correspond to a 2D minor-symmetric tensor" else ok t
    else if m.val < 3 then ok (t.set m n (inp i j k))
    else ok (t.set m n (SQRT_2 * inp i j k))

open Classical in
/-- Body of the loops of case B for symmetric representations (tensor3.rs:469-488). -/
noncomputable def Tensor3.setStdSymB (max : Nat) (inp : Fin 3 → Fin 3 → Fin 3 → ℝ) (x : Fin 3 × Fin 3 × Fin 3) (t : Tensor3) : Res Tensor3 :=
  let i := x.1
  let j := x.2.1
  let k := x.2.2
  if j > k then
    if inp i j k ≠ inp i k j then err "the input data does not correspond to a minor-symmetric tensor" else ok t
  else
    let m := (ijkToMnB i j k).1
    let n := (ijkToMnB i j k).2
    if n.val > max then
      if inp i j k ≠ 0 then err "the input data does not correspond to a 2D minor-symmetric tensor" else ok t
    else if n.val < 3 then ok (t.set m n (inp i j k))
    else ok (t.set m n (SQRT_2 * inp i j k))

/-- Body of the loops of case A for general tensors (tensor3.rs:448-458); of the three conditions one holds. -/
noncomputable def Tensor3.setStdGenA (inp : Fin 3 → Fin 3 → Fin 3 → ℝ) (x : Fin 3 × Fin 3 × Fin 3) (t : Tensor3) : Res Tensor3 :=
  let i := x.1
  let j := x.2.1
  let k := x.2.2
  let m := (ijkToMnA i j k).1
  let n := (ijkToMnA i j k).2
  if i = j then ok (t.set m n (inp i j k))
  else if i < j then ok (t.set m n ((inp i j k + inp j i k) / SQRT_2))
  else ok (t.set m n ((inp j i k - inp i j k) / SQRT_2))

/-- Body of the loops of case B for general tensors (tensor3.rs:496-506); of the three conditions one holds. -/
noncomputable def Tensor3.setStdGenB (inp : Fin 3 → Fin 3 → Fin 3 → ℝ) (x : Fin 3 × Fin 3 × Fin 3) (t : Tensor3) : Res Tensor3 :=
  let i := x.1
  let j := x.2.1
  let k := x.2.2
  let m := (ijkToMnB i j k).1
  let n := (ijkToMnB i j k).2
  if j = k then ok (t.set m n (inp i j k))
  else if j < k then ok (t.set m n ((inp i j k + inp i k j) / SQRT_2))
  else ok (t.set m n ((inp i k j - inp i j k) / SQRT_2))

/-- `Tensor3::set_std_array` (tensor3.rs:413-513). The components set before an error are not modelled. -/
noncomputable def Tensor3.setStdArray (t : Tensor3) (inp : Fin 3 → Fin 3 → Fin 3 → ℝ) : Res Tensor3 :=
  let dim := t.rep.dim
  let max := if dim = 4 then 3 else 6
  if t.caseA then
    if dim = 4 ∨ dim = 6 then forAll allIjk (Tensor3.setStdSymA max inp) t
    else forAll allIjk (Tensor3.setStdGenA inp) t
  else
    if dim = 4 ∨ dim = 6 then forAll allIjk (Tensor3.setStdSymB max inp) t
    else forAll allIjk (Tensor3.setStdGenB inp) t

/-- `Tensor3::from_std_array` (tensor3.rs:555-559). -/
noncomputable def Tensor3.fromStdArray (inp : Fin 3 → Fin 3 → Fin 3 → ℝ) (rep : Rep) (case_a : Bool) : Res Tensor3 :=
  (Tensor3.new rep case_a).setStdArray inp

/-- `Tensor3::set_std_matrix` (tensor3.rs:574-683): the statements are those of `set_std_array` with `inp.at(m, n)` in place of
`inp[i][j][k]`, where `(m, n)` is given by `IJK_TO_MN_CASE_A` or `IJK_TO_MN_CASE_B`. The matrix is 9×3 or 3×9: entries beyond are not read
(a smaller one is a panic). -/
noncomputable def Tensor3.setStdMatrix (t : Tensor3) (inp : Fin 9 → Fin 9 → ℝ) : Res Tensor3 :=
  t.setStdArray fun i j k =>
    if t.caseA then inp (ijkToMnA i j k).1 (ijkToMnA i j k).2 else inp (ijkToMnB i j k).1 (ijkToMnB i j k).2

/-- `Tensor3::from_std_matrix` (tensor3.rs:732-739). -/
noncomputable def Tensor3.fromStdMatrix (inp : Fin 9 → Fin 9 → ℝ) (rep : Rep) (case_a : Bool) : Res Tensor3 :=
  (Tensor3.new rep case_a).setStdMatrix inp

/-- `Tensor3::get_std` (tensor3.rs:770-842). -/
noncomputable def Tensor3.getStd (t : Tensor3) (i j k : Fin 3) : ℝ :=
  if t.caseA then
    match t.rep with
    | .Symmetric2D =>
      let m := (ijkToMnSymA i j k).1
      let n := (ijkToMnSymA i j k).2
      if m.val > 3 then 0 else if m.val < 3 then t.mat m n else t.mat m n / SQRT_2
    | .Symmetric =>
      let m := (ijkToMnSymA i j k).1
      let n := (ijkToMnSymA i j k).2
      if m.val < 3 then t.mat m n else t.mat m n / SQRT_2
    | .General =>
      let val := t.mat (ijkToMnA i j k).1 (ijkToMnA i j k).2
      let other := t.mat (ijkToMnA j i k).1 (ijkToMnA j i k).2
      if i = j then val else if i < j then (val + other) / SQRT_2 else (other - val) / SQRT_2
  else
    match t.rep with
    | .Symmetric2D =>
      let m := (ijkToMnSymB i j k).1
      let n := (ijkToMnSymB i j k).2
      if n.val > 3 then 0 else if n.val < 3 then t.mat m n else t.mat m n / SQRT_2
    | .Symmetric =>
      let m := (ijkToMnSymB i j k).1
      let n := (ijkToMnSymB i j k).2
      if n.val < 3 then t.mat m n else t.mat m n / SQRT_2
    | .General =>
      let val := t.mat (ijkToMnB i j k).1 (ijkToMnB i j k).2
      let other := t.mat (ijkToMnB i k j).1 (ijkToMnB i k j).2
      if j = k then val else if j < k then (val + other) / SQRT_2 else (other - val) / SQRT_2

/-- The loops over `m < nrow, n < ncol`. -/
def upto3 (d : Nat × Nat) (f old : Fin 9 → Fin 9 → ℝ) : Fin 9 → Fin 9 → ℝ := fun m n => if m.val < d.1 ∧ n.val < d.2 then f m n else old m n

/-- `Tensor3::update` (tensor3.rs:890-898). -/
def Tensor3.update (t : Tensor3) (alpha : ℝ) (other : Tensor3) : Res Tensor3 :=
  if other.rep ≠ t.rep then panic
  else if other.caseA ≠ t.caseA then panic
  else ok ⟨t.rep, t.caseA, upto3 t.dims (fun m n => t.mat m n + alpha * other.mat m n) t.mat, t.useLoops⟩

/-- `Tensor3::set_tensor` (tensor3.rs:1226-1234). -/
def Tensor3.setTensor (t : Tensor3) (alpha : ℝ) (other : Tensor3) : Res Tensor3 :=
  if other.rep ≠ t.rep then panic
  else if other.caseA ≠ t.caseA then panic
  else ok ⟨t.rep, t.caseA, upto3 t.dims (fun m n => alpha * other.mat m n) t.mat, t.useLoops⟩

/-- `dd[i][j][k] = v`. -/
def put3 (d : Fin 3 → Fin 3 → Fin 3 → ℝ) (i j k : Fin 3) (v : ℝ) : Fin 3 → Fin 3 → Fin 3 → ℝ :=
  fun p q r => if p = i ∧ q = j ∧ r = k then v else d p q r

/-- Body of the loops of `to_std_array`, case A, for symmetric representations (tensor3.rs:986-990). -/
noncomputable def Tensor3.toStdBodyA (t : Tensor3) (dd : Fin 3 → Fin 3 → Fin 3 → ℝ) (m : Fin 9) (n : Fin 3) : Fin 3 → Fin 3 → Fin 3 → ℝ :=
  let i := (mnToIjkA m n).1
  let j := (mnToIjkA m n).2.1
  let k := (mnToIjkA m n).2.2
  let dd := put3 dd i j k (t.getStd i j k)
  if i ≠ j then put3 dd j i k (dd i j k) else dd

/-- Body of the loops of `to_std_array`, case B, for symmetric representations (tensor3.rs:1008-1012). -/
noncomputable def Tensor3.toStdBodyB (t : Tensor3) (dd : Fin 3 → Fin 3 → Fin 3 → ℝ) (m : Fin 3) (n : Fin 9) : Fin 3 → Fin 3 → Fin 3 → ℝ :=
  let i := (mnToIjkB m n).1
  let j := (mnToIjkB m n).2.1
  let k := (mnToIjkB m n).2.2
  let dd := put3 dd i j k (t.getStd i j k)
  if j ≠ k then put3 dd i k j (dd i j k) else dd

/-- `Tensor3::to_std_array` (tensor3.rs:971-1017); `dd` is 3×3×3. -/
noncomputable def Tensor3.toStdArray (t : Tensor3) (dd : Fin 3 → Fin 3 → Fin 3 → ℝ) : Fin 3 → Fin 3 → Fin 3 → ℝ :=
  if t.caseA then
    if t.rep.dim = 9 then fun i j k => t.getStd i j k
    else ((List.finRange 9).filter fun m => decide (m.val < t.rep.dim)).foldl (fun dd m =>
      (List.finRange 3).foldl (fun dd n => t.toStdBodyA dd m n) dd) dd
  else
    if t.rep.dim = 9 then fun i j k => t.getStd i j k
    else (List.finRange 3).foldl (fun dd m =>
      ((List.finRange 9).filter fun n => decide (n.val < t.rep.dim)).foldl (fun dd n => t.toStdBodyB dd m n) dd) dd

/-- `Tensor3::as_std_array` (tensor3.rs:930-934). -/
noncomputable def Tensor3.asStdArray (t : Tensor3) : Fin 3 → Fin 3 → Fin 3 → ℝ := t.toStdArray fun _ _ _ => 0

/-- `Tensor3::to_std_matrix` (tensor3.rs:1108-1126), for a matrix of the dimensions `dims`; every entry is set. -/
noncomputable def Tensor3.toStdMatrix (t : Tensor3) (dims : Nat × Nat) : Res (Fin dims.1 → Fin dims.2 → ℝ) :=
  if t.caseA then
    if h : dims = (9, 3) then ok fun m n =>
      let x := mnToIjkA (m.cast (by rw [h])) (n.cast (by rw [h]))
      t.getStd x.1 x.2.1 x.2.2
    else panic
  else
    if h : dims = (3, 9) then ok fun m n =>
      let x := mnToIjkB (m.cast (by rw [h])) (n.cast (by rw [h]))
      t.getStd x.1 x.2.1 x.2.2
    else panic

/-- `Tensor3::as_std_matrix` (tensor3.rs:1054-1062). -/
noncomputable def Tensor3.asStdMatrix (t : Tensor3) : Res ((d : Nat × Nat) × (Fin d.1 → Fin d.2 → ℝ)) :=
  let dims : Nat × Nat := if t.caseA then (9, 3) else (3, 9)
  do
    let mat ← t.toStdMatrix dims
    ok ⟨dims, mat⟩

/-- `Tensor3::sym_set_std` (tensor3.rs:1170-1187). -/
noncomputable def Tensor3.symSetStd (t : Tensor3) (i j k : Fin 3) (value : ℝ) : Res Tensor3 :=
  if t.rep = .General then panic
  else if t.caseA then
    let m := (ijkToMnSymA i j k).1
    let n := (ijkToMnSymA i j k).2
    if m.val < 3 then ok (t.set m n value) else ok (t.set m n (value * SQRT_2))
  else
    let m := (ijkToMnSymB i j k).1
    let n := (ijkToMnSymB i j k).2
    if n.val < 3 then ok (t.set m n value) else ok (t.set m n (value * SQRT_2))

/-- `Tensor3::constant_permutation` (tensor3.rs:1239-1250); `unwrap` of an error is a panic. -/
noncomputable def Tensor3.constantPermutation (case_a : Bool) : Res Tensor3 :=
  let std_array : Fin 3 → Fin 3 → Fin 3 → ℝ := fun _ _ _ => 0
  let std_array := [((0 : Fin 3), (1 : Fin 3), (2 : Fin 3)), (1, 2, 0), (2, 0, 1)].foldl (fun d x => put3 d x.1 x.2.1 x.2.2 1) std_array
  let std_array := [((0 : Fin 3), (2 : Fin 3), (1 : Fin 3)), (1, 0, 2), (2, 1, 0)].foldl (fun d x => put3 d x.1 x.2.1 x.2.2 (-1)) std_array
  match Tensor3.fromStdArray std_array .General case_a with
  | ok t => ok t
  | _ => panic

/-! ### Operations -/

/-- `t3_add` (operations_t3.rs:15-25). -/
def t3Add (c : Tensor3) (alpha : ℝ) (a : Tensor3) (beta : ℝ) (b : Tensor3) : Res Tensor3 :=
  if b.rep ≠ a.rep then panic
  else if c.rep ≠ a.rep then panic
  else if b.caseA ≠ a.caseA then panic
  else if c.caseA ≠ a.caseA then panic
  else ok ⟨c.rep, c.caseA, upto3 a.dims (fun i j => alpha * a.mat i j + beta * b.mat i j) c.mat, c.useLoops⟩

/-- `t3_dot_t1` (operations_t3.rs:64-70). -/
def t3DotT1 (tt : Tensor2) (alpha : ℝ) (hh : Tensor3) (u : Tensor1) : Res Tensor2 :=
  if ¬ hh.caseA then panic
  else if tt.rep ≠ hh.rep then panic
  else ok ⟨tt.rep, upto hh.dims.1 (fun m => alpha * (hh.mat m 0 * u 0 + hh.mat m 1 * u 1 + hh.mat m 2 * u 2)) tt.vec⟩

/-- `t3_ddot_t2` (operations_t3.rs:108-119). -/
def t3DdotT2 (alpha : ℝ) (hh : Tensor3) (tt : Tensor2) : Res Tensor1 :=
  if hh.caseA then panic
  else if tt.rep ≠ hh.rep then panic
  else ok (((List.finRange 9).filter fun n => decide (n.val < hh.dims.2)).foldl (fun u n =>
    ![u 0 + alpha * hh.mat 0 n * tt.vec n, u 1 + alpha * hh.mat 1 n * tt.vec n, u 2 + alpha * hh.mat 2 n * tt.vec n]) ![0, 0, 0])

end Russell.Tensor
