import Verif.Tensor.Basic

/-!
# Second-order tensors: algebra (russell_tensor/src/tensor2.rs, operations_t2.rs)
-/

namespace Russell.Tensor
open Russell Russell.Res

/-- `Tensor2::determinant` (tensor2.rs:1161-1182). -/
noncomputable def Tensor2.determinant (t : Tensor2) : ℝ :=
  let a := t.vec
  match t.rep with
  | .Symmetric2D => a 0 * a 1 * a 2 - (a 2 * a 3 * a 3) / 2
  | .Symmetric => a 0 * a 1 * a 2 - (a 2 * a 3 * a 3) / 2 - (a 0 * a 4 * a 4) / 2 + (a 3 * a 4 * a 5) / SQRT_2 - (a 1 * a 5 * a 5) / 2
  | .General =>
    a 0 * a 1 * a 2 - (a 2 * a 3 * a 3) / 2 - (a 0 * a 4 * a 4) / 2 + (a 3 * a 4 * a 5) / SQRT_2 - (a 1 * a 5 * a 5) / 2
        + (a 2 * a 6 * a 6) / 2 + (a 5 * a 6 * a 7) / SQRT_2 + (a 0 * a 7 * a 7) / 2 - (a 4 * a 6 * a 8) / SQRT_2
        - (a 3 * a 7 * a 8) / SQRT_2 + (a 1 * a 8 * a 8) / 2

/-- `Tensor2::transpose` (tensor2.rs:1225-1242). -/
def Tensor2.transpose (t at' : Tensor2) : Res Tensor2 :=
  if at'.rep ≠ t.rep then panic
  else ok { at' with vec := byDim t.dim ![t.vec 0, t.vec 1, t.vec 2, t.vec 3, t.vec 4, t.vec 5, -t.vec 6, -t.vec 7, -t.vec 8] at'.vec }

/-- The components of the inverse, for the determinant `det` (tensor2.rs:1307-1310, 1319-1324, 1339-1347). -/
noncomputable def Tensor2.inverseVec (t ai : Tensor2) (det : ℝ) : Fin 9 → ℝ :=
  let a := t.vec
  let o := ai.vec
  match t.rep with
  | .Symmetric2D =>
      ![(a 1 * a 2) / det,
        (a 0 * a 2) / det,
        (a 0 * a 1 - a 3 * a 3 / 2) / det,
        -((a 2 * a 3) / det),
        o 4,
        o 5,
        o 6,
        o 7,
        o 8]
  | .Symmetric =>
      ![(a 1 * a 2 - a 4 * a 4 / 2) / det,
        (a 0 * a 2 - a 5 * a 5 / 2) / det,
        (a 0 * a 1 - a 3 * a 3 / 2) / det,
        (-2 * a 2 * a 3 + SQRT_2 * a 4 * a 5) / (2 * det),
        (-2 * a 0 * a 4 + SQRT_2 * a 3 * a 5) / (2 * det),
        (SQRT_2 * a 3 * a 4 - 2 * a 1 * a 5) / (2 * det),
        o 6,
        o 7,
        o 8]
  | .General =>
      ![(2 * a 1 * a 2 - a 4 * a 4 + a 7 * a 7) / (2 * det),
        (2 * a 0 * a 2 - a 5 * a 5 + a 8 * a 8) / (2 * det),
        (2 * a 0 * a 1 - a 3 * a 3 + a 6 * a 6) / (2 * det),
        -((SQRT_2 * a 2 * a 3 - a 4 * a 5 + a 7 * a 8) / (SQRT_2 * det)),
        -((SQRT_2 * a 0 * a 4 - a 3 * a 5 + a 6 * a 8) / (SQRT_2 * det)),
        (a 3 * a 4 - SQRT_2 * a 1 * a 5 + a 6 * a 7) / (SQRT_2 * det),
        -((SQRT_2 * a 2 * a 6 + a 5 * a 7 - a 4 * a 8) / (SQRT_2 * det)),
        -((a 5 * a 6 + SQRT_2 * a 0 * a 7 - a 3 * a 8) / (SQRT_2 * det)),
        (a 4 * a 6 + a 3 * a 7 - SQRT_2 * a 1 * a 8) / (SQRT_2 * det)]

/-- `Tensor2::inverse` (tensor2.rs:1300-1353); the determinant is computed by the expressions of `determinant` (lines 1305, 1315-1317,
1329-1337). Returns `ai` and the result. -/
noncomputable def Tensor2.inverse (t ai : Tensor2) (tolerance : ℝ) : Res (Tensor2 × Option ℝ) :=
  if ai.rep ≠ t.rep then panic
  else
    let a := t.vec
    let det := match t.rep with
      | .Symmetric2D => a 0 * a 1 * a 2 - (a 2 * a 3 * a 3) / 2
      | .Symmetric => a 0 * a 1 * a 2 - (a 2 * a 3 * a 3) / 2 - (a 0 * a 4 * a 4) / 2 + (a 3 * a 4 * a 5) / SQRT_2 - (a 1 * a 5 * a 5) / 2
      | .General =>
        a 0 * a 1 * a 2 - (a 2 * a 3 * a 3) / 2 - (a 0 * a 4 * a 4) / 2 + (a 3 * a 4 * a 5) / SQRT_2 - (a 1 * a 5 * a 5) / 2
        + (a 2 * a 6 * a 6) / 2 + (a 5 * a 6 * a 7) / SQRT_2 + (a 0 * a 7 * a 7) / 2 - (a 4 * a 6 * a 8) / SQRT_2
        - (a 3 * a 7 * a 8) / SQRT_2 + (a 1 * a 8 * a 8) / 2
    if |det| > tolerance then ok ({ ai with vec := t.inverseVec ai det }, some det) else ok (ai, none)

/-- The components of the square (tensor2.rs:1398-1457). -/
noncomputable def Tensor2.squaredVec (t a2 : Tensor2) : Fin 9 → ℝ :=
  let a := t.vec
  let o := a2.vec
  match t.rep with
  | .Symmetric2D =>
      ![a 0 * a 0 + a 3 * a 3 / 2,
        a 1 * a 1 + a 3 * a 3 / 2,
        a 2 * a 2,
        (SQRT_2 * a 0 * a 3 + SQRT_2 * a 1 * a 3) / SQRT_2,
        o 4,
        o 5,
        o 6,
        o 7,
        o 8]
  | .Symmetric =>
      ![a 0 * a 0 + a 3 * a 3 / 2 + a 5 * a 5 / 2,
        a 1 * a 1 + a 3 * a 3 / 2 + a 4 * a 4 / 2,
        a 2 * a 2 + a 4 * a 4 / 2 + a 5 * a 5 / 2,
        a 0 * a 3 + a 1 * a 3 + a 4 * a 5 / SQRT_2,
        a 1 * a 4 + a 2 * a 4 + a 3 * a 5 / SQRT_2,
        a 0 * a 5 + a 2 * a 5 + a 3 * a 4 / SQRT_2,
        o 6,
        o 7,
        o 8]
  | .General =>
      ![a 0 * a 0 + ((a 3 - a 6) * (a 3 + a 6)) / 2 + ((a 5 - a 8) * (a 5 + a 8)) / 2,
        a 1 * a 1 + ((a 3 - a 6) * (a 3 + a 6)) / 2 + ((a 4 - a 7) * (a 4 + a 7)) / 2,
        a 2 * a 2 + ((a 4 - a 7) * (a 4 + a 7)) / 2 + ((a 5 - a 8) * (a 5 + a 8)) / 2,
        ((a 0 * (a 3 - a 6)) / SQRT_2 + (a 1 * (a 3 - a 6)) / SQRT_2 + (a 0 * (a 3 + a 6)) / SQRT_2 + (a 1 * (a 3
          + a 6)) / SQRT_2 + ((a 4 + a 7) * (a 5 - a 8)) / 2 + ((a 4 - a 7) * (a 5 + a 8)) / 2) / SQRT_2,
        ((a 1 * (a 4 - a 7)) / SQRT_2 + (a 2 * (a 4 - a 7)) / SQRT_2 + (a 1 * (a 4 + a 7)) / SQRT_2 + (a 2 * (a 4
          + a 7)) / SQRT_2 + ((a 3 + a 6) * (a 5 - a 8)) / 2 + ((a 3 - a 6) * (a 5 + a 8)) / 2) / SQRT_2,
        ((a 0 * (a 5 + a 8)) / SQRT_2 + (a 2 * (a 5 + a 8)) / SQRT_2 + (a 0 * (a 5 - a 8)) / SQRT_2 + (a 2 * (a 5
          - a 8)) / SQRT_2 + ((a 3 - a 6) * (a 4 - a 7)) / 2 + ((a 3 + a 6) * (a 4 + a 7)) / 2) / SQRT_2,
        (-(a 0 * (a 3 - a 6)) / SQRT_2 - (a 1 * (a 3 - a 6)) / SQRT_2 + (a 0 * (a 3 + a 6)) / SQRT_2 + (a 1 * (a 3
          + a 6)) / SQRT_2 - ((a 4 + a 7) * (a 5 - a 8)) / 2 + ((a 4 - a 7) * (a 5 + a 8)) / 2) / SQRT_2,
        (-(a 1 * (a 4 - a 7)) / SQRT_2 - (a 2 * (a 4 - a 7)) / SQRT_2 + (a 1 * (a 4 + a 7)) / SQRT_2 + (a 2 * (a 4
          + a 7)) / SQRT_2 - ((a 3 + a 6) * (a 5 - a 8)) / 2 + ((a 3 - a 6) * (a 5 + a 8)) / 2) / SQRT_2,
        (-(a 0 * (a 5 - a 8)) / SQRT_2 - (a 2 * (a 5 - a 8)) / SQRT_2 + (a 0 * (a 5 + a 8)) / SQRT_2 + (a 2 * (a 5
          + a 8)) / SQRT_2 - ((a 3 - a 6) * (a 4 - a 7)) / 2 + ((a 3 + a 6) * (a 4 + a 7)) / 2) / SQRT_2]

/-- `Tensor2::squared` (tensor2.rs:1395-1458). -/
noncomputable def Tensor2.squared (t a2 : Tensor2) : Res Tensor2 :=
  if a2.rep ≠ t.rep then panic else ok { a2 with vec := t.squaredVec a2 }

/-- `Tensor2::trace` (tensor2.rs:1483-1485). -/
def Tensor2.trace (t : Tensor2) : ℝ := t.vec 0 + t.vec 1 + t.vec 2

/-- `Tensor2::norm` (tensor2.rs:1510-1522). -/
noncomputable def Tensor2.norm (t : Tensor2) : ℝ :=
  let sm := t.vec 0 * t.vec 0 + t.vec 1 * t.vec 1 + t.vec 2 * t.vec 2 + t.vec 3 * t.vec 3
  let sm := if t.dim > 4 then sm + (t.vec 4 * t.vec 4 + t.vec 5 * t.vec 5) else sm
  let sm := if t.dim > 6 then sm + (t.vec 6 * t.vec 6 + t.vec 7 * t.vec 7 + t.vec 8 * t.vec 8) else sm
  √sm

/-- `sort3` (russell_lab/src/sort/sort3.rs), the largest entry of which is used: the entries in ascending order. -/
noncomputable def sort3 (v : ℝ × ℝ × ℝ) : ℝ × ℝ × ℝ :=
  let v := if v.2.1 < v.1 then (v.2.1, v.1, v.2.2) else v
  let v := if v.2.2 < v.2.1 then (v.1, v.2.2, v.2.1) else v
  if v.2.1 < v.1 then (v.2.1, v.1, v.2.2) else v

/-- The correction for large magnitudes (tensor2.rs:1582-1592). -/
noncomputable def deviatorFix (a d : Fin 9 → ℝ) : Fin 9 → ℝ :=
  if |d 0 + d 1 + d 2| > 1e-10 then
    let v := sort3 (|a 0|, |a 1|, |a 2|)
    let s := max 1 v.2.2
    let m := (a 0 / s + a 1 / s + a 2 / s) / 3
    ![(a 0 / s - m) * s, (a 1 / s - m) * s, (a 2 / s - m) * s, d 3, d 4, d 5, d 6, d 7, d 8]
  else d

/-- `Tensor2::deviator` (tensor2.rs:1566-1593). -/
noncomputable def Tensor2.deviator (t dev : Tensor2) : Res Tensor2 :=
  if dev.rep ≠ t.rep then panic
  else
    let a := t.vec
    let m := (a 0 + a 1 + a 2) / 3
    ok ⟨dev.rep, deviatorFix a
      (byDim t.dim ![a 0 - m, a 1 - m, a 2 - m, a 3, a 4, a 5, a 6, a 7, a 8] dev.vec)⟩

/-- `Tensor2::deviator_norm` (tensor2.rs:1641-1654). -/
noncomputable def Tensor2.deviatorNorm (t : Tensor2) : ℝ :=
  let a := t.vec
  let s := a 3 * a 3 + (a 0 - a 1) * (a 0 - a 1) / 3 + (a 1 - a 2) * (a 1 - a 2) / 3 + (a 2 - a 0) * (a 2 - a 0) / 3
  let s := if t.dim > 4 then s + (a 4 * a 4 + a 5 * a 5) else s
  let s := if t.dim > 6 then s + (a 6 * a 6 + a 7 * a 7 + a 8 * a 8) else s
  √s

/-- `Tensor2::deviator_determinant` (tensor2.rs:1693-1714). -/
noncomputable def Tensor2.deviatorDeterminant (t : Tensor2) : ℝ :=
  let a := t.vec
  let m := (a 0 + a 1 + a 2) / 3
  match t.rep with
  | .Symmetric2D => (a 2 - m) * (m * m + a 0 * a 1 - m * (a 0 + a 1) - a 3 * a 3 / 2)
  | .Symmetric =>
    (2 * m * m * (a 0 + a 1 + a 2) - a 2 * a 3 * a 3 + a 0 * (2 * a 1 * a 2 - a 4 * a 4)
      - 2 * m * m * m
      + SQRT_2 * a 3 * a 4 * a 5
      - a 1 * a 5 * a 5
      + m * (-2 * a 1 * a 2 - 2 * a 0 * (a 1 + a 2) + a 3 * a 3 + a 4 * a 4 + a 5 * a 5))
      / 2
  | .General =>
    (2 * (a 2 - m)
      * (2 * m * m + 2 * a 0 * a 1 - 2 * m * (a 0 + a 1) - a 3 * a 3 + a 6 * a 6)
      + SQRT_2 * (a 5 - a 8) * ((a 3 + a 6) * (a 4 + a 7) + SQRT_2 * (m - a 1) * (a 5 + a 8))
      + SQRT_2 * (a 4 - a 7) * ((a 3 - a 6) * (a 5 + a 8) + SQRT_2 * (m - a 0) * (a 4 + a 7)))
      / 4

/-- `Tensor2::decompose` (tensor2.rs:1731-1753); returns `(sym, skw)`. -/
def Tensor2.decompose (t sym skw : Tensor2) : Res (Tensor2 × Tensor2) :=
  if sym.rep ≠ t.rep then panic
  else if skw.rep ≠ t.rep then panic
  else if t.rep = .General then
    ok ({ sym with vec := upto 6 t.vec sym.vec },
      { skw with vec := ![0, 0, 0, 0, 0, 0, t.vec 6, t.vec 7, t.vec 8] })
  else
    ok ({ sym with vec := upto t.dim t.vec sym.vec }, { skw with vec := upto t.dim (fun _ => 0) skw.vec })

/-- `Tensor2::axial_vector` (tensor2.rs:1771-1788). -/
noncomputable def Tensor2.axialVector (t : Tensor2) : Tensor1 :=
  if t.rep = .General then ![-t.vec 7 / SQRT_2, t.vec 8 / SQRT_2, -t.vec 6 / SQRT_2] else ![0, 0, 0]

/-- `t2_add` (operations_t2.rs:14-44). -/
def t2Add (c : Tensor2) (alpha : ℝ) (a : Tensor2) (beta : ℝ) (b : Tensor2) : Res Tensor2 :=
  if b.rep ≠ a.rep then panic
  else if c.rep ≠ a.rep then panic
  else ok { c with vec := upto a.dim (fun m => alpha * a.vec m + beta * b.vec m) c.vec }

/-- `t2_ddot_t2` (operations_t2.rs:106-130). -/
def t2DdotT2 (a b : Tensor2) : Res ℝ :=
  if a.rep ≠ b.rep then panic
  else match a.rep with
  | .Symmetric2D => ok (a.vec 0 * b.vec 0 + a.vec 1 * b.vec 1 + a.vec 2 * b.vec 2 + a.vec 3 * b.vec 3)
  | .Symmetric =>
    ok (a.vec 0 * b.vec 0 + a.vec 1 * b.vec 1 + a.vec 2 * b.vec 2 + a.vec 3 * b.vec 3 + a.vec 4 * b.vec 4 + a.vec 5 * b.vec 5)
  | .General =>
    ok (a.vec 0 * b.vec 0 + a.vec 1 * b.vec 1 + a.vec 2 * b.vec 2 + a.vec 3 * b.vec 3 + a.vec 4 * b.vec 4 + a.vec 5 * b.vec 5
      + a.vec 6 * b.vec 6 + a.vec 7 * b.vec 7 + a.vec 8 * b.vec 8)

/-- The components of the single dot product (operations_t2.rs:199-234). -/
noncomputable def t2DotT2Vec (rep : Rep) (a b : Fin 9 → ℝ) : Fin 9 → ℝ :=
  let tsq2 := 2 * SQRT_2
  match rep with
  | .Symmetric2D =>
      ![a 0 * b 0 + (a 3 * b 3) / 2,
        a 1 * b 1 + (a 3 * b 3) / 2,
        a 2 * b 2,
        (a 3 * (b 0 + b 1) + (a 0 + a 1) * b 3) / 2,
        0,
        0,
        (a 3 * (-b 0 + b 1) + (a 0 - a 1) * b 3) / 2,
        0,
        0]
  | .Symmetric =>
      ![(2 * a 0 * b 0 + a 3 * b 3 + a 5 * b 5) / 2,
        (2 * a 1 * b 1 + a 3 * b 3 + a 4 * b 4) / 2,
        (2 * a 2 * b 2 + a 4 * b 4 + a 5 * b 5) / 2,
        (SQRT_2 * a 3 * (b 0 + b 1) + SQRT_2 * a 0 * b 3 + SQRT_2 * a 1 * b 3 + a 5 * b 4 + a 4 * b 5) / tsq2,
        (SQRT_2 * a 4 * (b 1 + b 2) + a 5 * b 3 + SQRT_2 * a 1 * b 4 + SQRT_2 * a 2 * b 4 + a 3 * b 5) / tsq2,
        (SQRT_2 * a 5 * (b 0 + b 2) + a 4 * b 3 + a 3 * b 4 + SQRT_2 * a 0 * b 5 + SQRT_2 * a 2 * b 5) / tsq2,
        (SQRT_2 * a 3 * (-b 0 + b 1) + SQRT_2 * a 0 * b 3 - SQRT_2 * a 1 * b 3 + a 5 * b 4 - a 4 * b 5) / tsq2,
        (SQRT_2 * a 4 * (-b 1 + b 2) - a 5 * b 3 + SQRT_2 * a 1 * b 4 - SQRT_2 * a 2 * b 4 + a 3 * b 5) / tsq2,
        (SQRT_2 * a 5 * (-b 0 + b 2) - a 4 * b 3 + a 3 * b 4 + SQRT_2 * a 0 * b 5 - SQRT_2 * a 2 * b 5) / tsq2]
  | .General =>
      ![(2 * a 0 * b 0 + (a 3 + a 6) * (b 3 - b 6) + (a 5 + a 8) * (b 5 - b 8)) / 2,
        (2 * a 1 * b 1 + (a 3 - a 6) * (b 3 + b 6) + (a 4 + a 7) * (b 4 - b 7)) / 2,
        (2 * a 2 * b 2 + (a 4 - a 7) * (b 4 + b 7) + (a 5 - a 8) * (b 5 + b 8)) / 2,
        (2 * (a 3 - a 6) * b 0 + 2 * (a 3 + a 6) * b 1 + 2 * a 1 * (b 3 - b 6) + 2 * a 0 * (b 3 + b 6) + SQRT_2 * (a 5
          + a 8) * (b 4 - b 7) + SQRT_2 * (a 4 + a 7) * (b 5 - b 8)) / 4,
        (2 * (a 4 - a 7) * b 1 + 2 * (a 4 + a 7) * b 2 + SQRT_2 * (a 5 - a 8) * (b 3 + b 6) + 2 * a 2 * (b 4 - b 7)
          + 2 * a 1 * (b 4 + b 7) + SQRT_2 * (a 3 - a 6) * (b 5 + b 8)) / 4,
        (2 * (a 5 - a 8) * b 0 + 2 * (a 5 + a 8) * b 2 + SQRT_2 * (a 4 - a 7) * (b 3 - b 6) + SQRT_2 * (a 3 + a 6) * (b 4 + b 7)
          + 2 * a 2 * (b 5 - b 8) + 2 * a 0 * (b 5 + b 8)) / 4,
        (-2 * (a 3 - a 6) * b 0 + 2 * (a 3 + a 6) * b 1 - 2 * a 1 * (b 3 - b 6) + 2 * a 0 * (b 3 + b 6) + SQRT_2 * (a 5
          + a 8) * (b 4 - b 7) - SQRT_2 * (a 4 + a 7) * (b 5 - b 8)) / 4,
        (-2 * (a 4 - a 7) * b 1 + 2 * (a 4 + a 7) * b 2 - SQRT_2 * (a 5 - a 8) * (b 3 + b 6) - 2 * a 2 * (b 4 - b 7)
          + 2 * a 1 * (b 4 + b 7) + SQRT_2 * (a 3 - a 6) * (b 5 + b 8)) / 4,
        (-2 * (a 5 - a 8) * b 0 + 2 * (a 5 + a 8) * b 2 - SQRT_2 * (a 4 - a 7) * (b 3 - b 6) + SQRT_2 * (a 3 + a 6) * (b 4
          + b 7) - 2 * a 2 * (b 5 - b 8) + 2 * a 0 * (b 5 + b 8)) / 4]

/-- `t2_dot_t2` (operations_t2.rs:196-235). -/
noncomputable def t2DotT2 (c a b : Tensor2) : Res Tensor2 :=
  if c.rep ≠ .General then panic
  else if b.rep ≠ a.rep then panic
  else ok { c with vec := t2DotT2Vec a.rep a.vec b.vec }

/-- `t2_dot_t1` (operations_t2.rs:289-302). -/
noncomputable def t2DotT1 (alpha : ℝ) (a : Tensor2) (u : Tensor1) : Tensor1 :=
  ![alpha * (a.getStd 0 0 * u 0 + a.getStd 0 1 * u 1 + a.getStd 0 2 * u 2),
    alpha * (a.getStd 1 0 * u 0 + a.getStd 1 1 * u 1 + a.getStd 1 2 * u 2),
    alpha * (a.getStd 2 0 * u 0 + a.getStd 2 1 * u 1 + a.getStd 2 2 * u 2)]

/-- `t1_dot_t2` (operations_t2.rs:356-369). -/
noncomputable def t1DotT2 (alpha : ℝ) (u : Tensor1) (a : Tensor2) : Tensor1 :=
  ![alpha * (u 0 * a.getStd 0 0 + u 1 * a.getStd 1 0 + u 2 * a.getStd 2 0),
    alpha * (u 0 * a.getStd 0 1 + u 1 * a.getStd 1 1 + u 2 * a.getStd 2 1),
    alpha * (u 0 * a.getStd 0 2 + u 1 * a.getStd 1 2 + u 2 * a.getStd 2 2)]

/-- `t1_dyad_t1` (operations_t2.rs:422-452); the tensor written when an error is returned is not part of the model. -/
noncomputable def t1DyadT1 (a : Tensor2) (alpha : ℝ) (u v : Tensor1) : Res Tensor2 :=
  let o := a.vec
  if a.dim = 4 then
    if u 0 * v 1 ≠ u 1 * v 0 then err "dyadic product between u and v does not generate a symmetric tensor"
    else ok ⟨a.rep, ![alpha * u 0 * v 0, alpha * u 1 * v 1, 0, alpha * (u 0 * v 1 + u 1 * v 0) / SQRT_2,
      o 4, o 5, o 6, o 7, o 8]⟩
  else if a.dim = 6 then
    if u 0 * v 1 ≠ u 1 * v 0 ∨ u 1 * v 2 ≠ u 2 * v 1 ∨ u 0 * v 2 ≠ u 2 * v 0 then
      err "dyadic product between u and v does not generate a symmetric tensor"
    else ok ⟨a.rep, ![alpha * u 0 * v 0, alpha * u 1 * v 1, alpha * u 2 * v 2,
      alpha * (u 0 * v 1 + u 1 * v 0) / SQRT_2, alpha * (u 1 * v 2 + u 2 * v 1) / SQRT_2,
      alpha * (u 0 * v 2 + u 2 * v 0) / SQRT_2, o 6, o 7, o 8]⟩
  else ok ⟨a.rep, ![alpha * u 0 * v 0, alpha * u 1 * v 1, alpha * u 2 * v 2,
      alpha * (u 0 * v 1 + u 1 * v 0) / SQRT_2, alpha * (u 1 * v 2 + u 2 * v 1) / SQRT_2,
      alpha * (u 0 * v 2 + u 2 * v 0) / SQRT_2, alpha * (u 0 * v 1 - u 1 * v 0) / SQRT_2,
      alpha * (u 1 * v 2 - u 2 * v 1) / SQRT_2, alpha * (u 0 * v 2 - u 2 * v 0) / SQRT_2]⟩

/-- `Tensor1::cross` (tensor1.rs:100-104). -/
def Tensor1.cross (u v : Tensor1) : Tensor1 :=
  ![u 1 * v 2 - u 2 * v 1, u 2 * v 0 - u 0 * v 2, u 0 * v 1 - u 1 * v 0]

/-- `Tensor1::dot` (tensor1.rs:111-113). -/
def Tensor1.dot (u v : Tensor1) : ℝ := u 0 * v 0 + u 1 * v 1 + u 2 * v 2

end Russell.Tensor
