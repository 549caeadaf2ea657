import Verif.Pde.Bcs
import Verif.Pde.Line

/-!
# Finite differences in one and two dimensions: models

`Fdm1d` and `Fdm2d` (/repo/russell_pde/src/fdm_1d.rs, /repo/russell_pde/src/fdm_2d.rs).  The fields `genie` and `symmetric` only select the storage
of the matrices (`Genie::get_sym`, modelled by `Genie.getSym`); the linear solver called by `solve_sps` and `solve_lmm` is a parameter.
-/

namespace Russell.Pde

open Russell Res Russell.Sparse

/-- `Genie` (/repo/russell_sparse/src/enums.rs:5-20) -/
inductive Genie where
  | Cudss | Mumps | Umfpack
  deriving DecidableEq, Repr

/-- `Genie::get_sym` (/repo/russell_sparse/src/enums.rs:355-365) -/
def Genie.getSym (g : Genie) (symmetric : Bool) : Sym :=
  if symmetric then
    match g with
    | .Cudss => Sym.yesLower
    | .Mumps => Sym.yesLower
    | .Umfpack => Sym.yesFull
  else Sym.no

section Model

variable {α : Type} [Field α] [LinearOrder α]

/-- `v[i] += x` -/
def addAt (v : List α) (i : Nat) (x : α) : Res (List α) := do
  let y ← vget v i
  vset v i (y + x)

/-! ### One dimension -/

/-- `Fdm1d` (/repo/russell_pde/src/fdm_1d.rs:207-252) -/
structure Fdm1d (α : Type) where
  grid : Grid1d α
  ebcs : EssentialBcs1d α
  nbcs : NaturalBcs1d α
  equations : EquationHandler
  molecule : List α
  dx : α

/-- what `Fdm1d::new` does after `get_dx` (/repo/russell_pde/src/fdm_1d.rs:282-304) -/
def Fdm1d.build (grid : Grid1d α) (ebcs : EssentialBcs1d α) (nbcs : NaturalBcs1d α) (kx dx : α) : Res (Fdm1d α) := do
  let neq := grid.nx
  let nodes ← ebcs.getNodes grid.nx
  let equations ← (EquationHandler.new neq).recompute nodes
  let dx2 := dx * dx
  let alpha := 2 * kx / dx2
  let beta := -kx / dx2
  ok { grid, ebcs, nbcs, equations, molecule := [alpha, beta, beta], dx }

/-- `Fdm1d::new` (/repo/russell_pde/src/fdm_1d.rs:275-305); `get_dx` gives minus infinity when the loop is empty, which does not occur for grids
with two points -/
def Fdm1d.new (eps : α) (grid : Grid1d α) (ebcs : EssentialBcs1d α) (nbcs : NaturalBcs1d α) (kx : α) : Res (Fdm1d α) := do
  let r ← grid.getDx eps
  match r with
  | some (some dx) => Fdm1d.build grid ebcs nbcs kx dx
  | some none => Res.panic
  | none => err "grid must have uniform spacing"

/-- the neighbours in `loop_over_bandwidth` (/repo/russell_pde/src/fdm_1d.rs:843-855) -/
def Fdm1d.nn (F : Fdm1d α) (m : Nat) : List Nat :=
  let fin_x := F.grid.nx - 1
  if F.ebcs.periodic_along_x then
    [m, if m ≠ 0 then m - 1 else m + fin_x, if m ≠ fin_x then m + 1 else m - fin_x]
  else
    [m, if m ≠ 0 then m - 1 else m + 1, if m ≠ fin_x then m + 1 else m - 1]

/-- the value computed by the callback (/repo/russell_pde/src/fdm_1d.rs:554-560) -/
def Fdm1d.val (F : Fdm1d α) (alpha : α) (m b n : Nat) : Res α := do
  let v ← vget F.molecule b
  let v := if m = n then v + alpha else v
  ok (if !F.ebcs.periodic_along_x && (m == 0 || m == F.grid.nx - 1) then v / 2 else v)

/-- `get_matrices_sps` (/repo/russell_pde/src/fdm_1d.rs:538-578) -/
def Fdm1d.getMatricesSps (F : Fdm1d α) (alpha : α) (extra_nnz : Nat) (sym : Sym) : Res (Coo α × Option (Coo α)) :=
  matricesSps F.equations F.nn (F.val alpha) 2 3 2 extra_nnz sym

/-- `get_matrices_lmm` (/repo/russell_pde/src/fdm_1d.rs:608-664) -/
def Fdm1d.getMatricesLmm (F : Fdm1d α) (alpha : α) (extra_nnz : Nat) (get_constraints_mat : Bool) (sym : Sym) : Res (Coo α × Option (Coo α)) :=
  matricesLmm F.equations F.nn (F.val alpha) 2 3 extra_nnz get_constraints_mat sym

/-- `let wn = functions[k](x); f[i] += -wn / dx; den *= 2.0` (/repo/russell_pde/src/fdm_1d.rs:695-697) -/
def addFlux1 (fs : List (α → α)) (k : Nat) (x d : α) (i : Nat) (s : List α × α) : Res (List α × α) := do
  let w ← vget fs k
  let f ← addAt s.1 i (-(w x) / d)
  ok (f, s.2 * 2)

/-- the contribution of the boundary to entry `i` (/repo/russell_pde/src/fdm_1d.rs:693-703, 767-777) -/
def Fdm1d.flux (F : Fdm1d α) (m : Nat) (x : α) (i : Nat) (s : List α × α) : Res (List α × α) :=
  if !F.ebcs.periodic_along_x then
    if F.grid.isXmin m then addFlux1 F.nbcs.functions 0 x F.dx i s
    else if F.grid.isXmax m then addFlux1 F.nbcs.functions 1 x F.dx i s
    else ok s
  else ok s

/-- the right-hand side of node `m` put at position `i` (/repo/russell_pde/src/fdm_1d.rs:691-704, 765-778) -/
def Fdm1d.rhs (F : Fdm1d α) (source : α → α) (m : Nat) (x : α) (i : Nat) (f : List α) : Res (List α) := do
  let s ← F.flux m x i (f, 1)
  addAt s.1 i (source x / s.2)

/-- the prescribed values are put from position `off` on (/repo/russell_pde/src/fdm_1d.rs:706-714, 780-788) -/
def Fdm1d.prescribed (F : Fdm1d α) (off : Nat) (v : List α) : Res (List α) :=
  forRange 0 2 v fun index v => do
    let b ← vget F.ebcs.sides index
    if b then do
      let m := if index = 0 then 0 else F.grid.nx - 1
      let ip ← F.equations.ip m
      let x ← F.grid.coord m
      let f ← vget F.ebcs.functions index
      vset v (off + ip) (f x)
    else ok v

/-- `get_vectors_sps` (/repo/russell_pde/src/fdm_1d.rs:680-716) -/
def Fdm1d.getVectorsSps (F : Fdm1d α) (source : α → α) : Res (List α × List α × List α) := do
  let nu := F.equations.nu
  let np := F.equations.np
  let f_bar ← forList F.equations.unknown (List.replicate nu 0) fun m f => do
    let iu ← F.equations.iu m
    let x ← F.grid.coord m
    F.rhs source m x iu f
  let a_check ← F.prescribed 0 (List.replicate np 0)
  ok (List.replicate nu 0, a_check, f_bar)

/-- `get_vectors_lmm` (/repo/russell_pde/src/fdm_1d.rs:758-790) -/
def Fdm1d.getVectorsLmm (F : Fdm1d α) (source : α → α) : Res (List α × List α) := do
  let neq := F.equations.neq
  let ndim := neq + F.equations.np
  let ff ← forRange 0 F.grid.coords.length (List.replicate ndim 0) fun m f => do
    let x ← F.grid.coord m
    F.rhs source m x m f
  let ff ← F.prescribed neq ff
  ok (List.replicate ndim 0, ff)

/-- `solve_sps` (/repo/russell_pde/src/fdm_1d.rs:363-386) -/
def Fdm1d.solveSps (F : Fdm1d α) (solver : Coo α → List α → Res (List α)) (sym : Sym) (alpha : α) (source : α → α) : Res (List α) := do
  F.ebcs.validate F.nbcs
  let (kk_bar, kk_check) ← F.getMatricesSps alpha 0 sym
  let (_, a_check, f_bar) ← F.getVectorsSps source
  match kk_check with
  | none => Res.panic
  | some kk_check => do
    let f_bar ← kk_check.matVecMulUpdate f_bar (-1) a_check
    let a_bar ← solver kk_bar f_bar
    joinedVectorSps F.equations a_bar a_check

/-- `solve_lmm` (/repo/russell_pde/src/fdm_1d.rs:431-453) -/
def Fdm1d.solveLmm (F : Fdm1d α) (solver : Coo α → List α → Res (List α)) (sym : Sym) (alpha : α) (source : α → α) : Res (List α) := do
  F.ebcs.validate F.nbcs
  let (mm, _) ← F.getMatricesLmm alpha F.equations.neq false sym
  let (_, ff) ← F.getVectorsLmm source
  let aa ← solver mm ff
  vslice aa 0 F.equations.neq

/-! ### Two dimensions -/

/-- `Fdm2d` (/repo/russell_pde/src/fdm_2d.rs:279-331) -/
structure Fdm2d (α : Type) where
  grid : Grid2d α
  ebcs : EssentialBcs2d α
  nbcs : NaturalBcs2d α
  equations : EquationHandler
  molecule : List α
  dx : α
  dy : α

/-- what `Fdm2d::new` does after `get_dx_dy` (/repo/russell_pde/src/fdm_2d.rs:368-391) -/
def Fdm2d.build (grid : Grid2d α) (ebcs : EssentialBcs2d α) (nbcs : NaturalBcs2d α) (kx ky dx dy : α) : Res (Fdm2d α) := do
  let neq := grid.size
  let nodes ← ebcs.getNodes grid
  let equations ← (EquationHandler.new neq).recompute nodes
  let dx2 := dx * dx
  let dy2 := dy * dy
  let alpha := 2 * (kx / dx2 + ky / dy2)
  let beta := -kx / dx2
  let gamma := -ky / dy2
  ok { grid, ebcs, nbcs, equations, molecule := [alpha, beta, beta, gamma, gamma], dx, dy }

/-- `Fdm2d::new` (/repo/russell_pde/src/fdm_2d.rs:355-392) -/
def Fdm2d.new (eps : α) (grid : Grid2d α) (ebcs : EssentialBcs2d α) (nbcs : NaturalBcs2d α) (kx ky : α) : Res (Fdm2d α) := do
  let r ← grid.getDxDy eps
  match r with
  | some (some dx, some dy) => Fdm2d.build grid ebcs nbcs kx ky dx dy
  | some _ => Res.panic
  | none => err "grid must have uniform spacing"

/-- the neighbours in `loop_over_bandwidth` (/repo/russell_pde/src/fdm_2d.rs:949-973) -/
def Fdm2d.nn (F : Fdm2d α) (m : Nat) : List Nat :=
  let nx := F.grid.nx
  let ny := F.grid.ny
  let fin_x := nx - 1
  let fin_y := ny - 1
  let i := m % nx
  let j := m / nx
  let l := if F.ebcs.periodic_along_x then (if i ≠ 0 then m - 1 else m + fin_x) else (if i ≠ 0 then m - 1 else m + 1)
  let r := if F.ebcs.periodic_along_x then (if i ≠ fin_x then m + 1 else m - fin_x) else (if i ≠ fin_x then m + 1 else m - 1)
  let b := if F.ebcs.periodic_along_y then (if j ≠ 0 then m - nx else m + fin_y * nx) else (if j ≠ 0 then m - nx else m + nx)
  let t := if F.ebcs.periodic_along_y then (if j ≠ fin_y then m + nx else m - fin_y * nx) else (if j ≠ fin_y then m + nx else m - nx)
  [m, l, r, b, t]

/-- the value computed by the callback (/repo/russell_pde/src/fdm_2d.rs:621-631) -/
def Fdm2d.val (F : Fdm2d α) (alpha : α) (m b n : Nat) : Res α := do
  let v ← vget F.molecule b
  let v := if m = n then v + alpha else v
  let (i, j) := F.grid.getIJ m
  let v := if !F.ebcs.periodic_along_x && (i == 0 || i == F.grid.nx - 1) then v / 2 else v
  ok (if !F.ebcs.periodic_along_y && (j == 0 || j == F.grid.ny - 1) then v / 2 else v)

/-- `get_matrices_sps` (/repo/russell_pde/src/fdm_2d.rs:603-649) -/
def Fdm2d.getMatricesSps (F : Fdm2d α) (alpha : α) (extra_nnz : Nat) (sym : Sym) : Res (Coo α × Option (Coo α)) :=
  matricesSps F.equations F.nn (F.val alpha) 3 5 4 extra_nnz sym

/-- `get_matrices_lmm` (/repo/russell_pde/src/fdm_2d.rs:672-734) -/
def Fdm2d.getMatricesLmm (F : Fdm2d α) (alpha : α) (extra_nnz : Nat) (get_constraints_mat : Bool) (sym : Sym) : Res (Coo α × Option (Coo α)) :=
  matricesLmm F.equations F.nn (F.val alpha) 3 5 extra_nnz get_constraints_mat sym

/-- `let wn = functions[k](x, y); f[i] += -cf * wn / d; den *= 2.0` (/repo/russell_pde/src/fdm_2d.rs:766-768) -/
def addFlux2 (fs : List (α → α → α)) (k : Nat) (x y cf d : α) (i : Nat) (s : List α × α) : Res (List α × α) := do
  let w ← vget fs k
  let f ← addAt s.1 i (-cf * (w x y) / d)
  ok (f, s.2 * 2)

/-- one axis in `get_vectors_sps` (/repo/russell_pde/src/fdm_2d.rs:764-774) -/
def axisSps (per lo hi : Bool) (fs : List (α → α → α)) (k : Nat) (x y cf d : α) (i : Nat) (s : List α × α) : Res (List α × α) :=
  if !per then
    if lo then addFlux2 fs k x y cf d i s
    else if hi then addFlux2 fs (k + 1) x y cf d i s
    else ok s
  else ok s

/-- one axis in `get_vectors_lmm` (/repo/russell_pde/src/fdm_2d.rs:851-862) -/
def axisLmm (per lo hi : Bool) (fs : List (α → α → α)) (k : Nat) (x y cf d : α) (i : Nat) (s : List α × α) : Res (List α × α) :=
  if !per then do
    let s ← if lo then addFlux2 fs k x y cf d i s else ok s
    if hi then addFlux2 fs (k + 1) x y cf d i s else ok s
  else ok s

/-- the right-hand side of node `m` put at position `i` (/repo/russell_pde/src/fdm_2d.rs:762-786, 849-875) -/
def Fdm2d.rhs (F : Fdm2d α) (axis : Bool → Bool → Bool → List (α → α → α) → Nat → α → α → α → α → Nat → List α × α → Res (List α × α))
    (source : α → α → α) (m : Nat) (x y : α) (i : Nat) (f : List α) : Res (List α) := do
  let cf : α := if F.grid.isCorner m then 1 / 2 else 1
  let s ← axis F.ebcs.periodic_along_x (F.grid.isXmin m) (F.grid.isXmax m) F.nbcs.functions 0 x y cf F.dx i (f, 1)
  let s ← axis F.ebcs.periodic_along_y (F.grid.isYmin m) (F.grid.isYmax m) F.nbcs.functions 2 x y cf F.dy i s
  addAt s.1 i (source x y / s.2)

/-- the prescribed values are put from position `off` on (/repo/russell_pde/src/fdm_2d.rs:788-797, 877-886) -/
def Fdm2d.prescribed (F : Fdm2d α) (off : Nat) (v : List α) : Res (List α) :=
  forRange 0 4 v fun index v => do
    let b ← vget F.ebcs.sides index
    if b then do
      let side ← Side.fromIndex index
      forList (F.grid.getNodesOnSide side) v fun m v => do
        let ip ← F.equations.ip m
        let p ← F.grid.coord m
        let f ← vget F.ebcs.functions index
        vset v (off + ip) (f p.1 p.2)
    else ok v

/-- `get_vectors_sps` (/repo/russell_pde/src/fdm_2d.rs:750-799) -/
def Fdm2d.getVectorsSps (F : Fdm2d α) (source : α → α → α) : Res (List α × List α × List α) := do
  let nu := F.equations.nu
  let np := F.equations.np
  let f_bar ← forList F.equations.unknown (List.replicate nu 0) fun m f => do
    let iu ← F.equations.iu m
    let p ← F.grid.coord m
    F.rhs axisSps source m p.1 p.2 iu f
  let a_check ← F.prescribed 0 (List.replicate np 0)
  ok (List.replicate nu 0, a_check, f_bar)

/-- `get_vectors_lmm` (/repo/russell_pde/src/fdm_2d.rs:841-888) -/
def Fdm2d.getVectorsLmm (F : Fdm2d α) (source : α → α → α) : Res (List α × List α) := do
  let neq := F.equations.neq
  let ndim := neq + F.equations.np
  let ff ← forList F.grid.forEachCoord (List.replicate ndim 0) fun p f => F.rhs axisLmm source p.1 p.2.1 p.2.2 p.1 f
  let ff ← F.prescribed neq ff
  ok (List.replicate ndim 0, ff)

/-- `solve_sps` (/repo/russell_pde/src/fdm_2d.rs:439-462) -/
def Fdm2d.solveSps (F : Fdm2d α) (solver : Coo α → List α → Res (List α)) (sym : Sym) (alpha : α) (source : α → α → α) : Res (List α) := do
  F.ebcs.validate F.nbcs
  let (kk_bar, kk_check) ← F.getMatricesSps alpha 0 sym
  let (_, a_check, f_bar) ← F.getVectorsSps source
  match kk_check with
  | none => Res.panic
  | some kk_check => do
    let f_bar ← (kk_check.matVecMulUpdate f_bar (-1) a_check).unwrap
    let a_bar ← solver kk_bar f_bar
    joinedVectorSps F.equations a_bar a_check

/-- `solve_lmm` (/repo/russell_pde/src/fdm_2d.rs:497-517) -/
def Fdm2d.solveLmm (F : Fdm2d α) (solver : Coo α → List α → Res (List α)) (sym : Sym) (alpha : α) (source : α → α → α) : Res (List α) := do
  F.ebcs.validate F.nbcs
  let (mm, _) ← F.getMatricesLmm alpha 0 false sym
  let (_, ff) ← F.getVectorsLmm source
  let aa ← solver mm ff
  vslice aa 0 F.equations.neq

end Model

end Russell.Pde
