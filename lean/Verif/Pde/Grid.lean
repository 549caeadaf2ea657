import Verif.Lab.ChebyshevPoints
import Verif.Lab.Small
import Mathlib.Algebra.Order.Field.Basic
import Mathlib.Algebra.Order.Field.Rat
import Mathlib.Tactic.Linarith
import Mathlib.Tactic.FieldSimp

/-!
# One and two dimensional grids (property C46)

Models of `Grid1d` and `Grid2d` (/repo/russell_pde/src/grid_1d.rs, /repo/russell_pde/src/grid_2d.rs) over an ordered field.
`f64::EPSILON` in `get_dx`/`get_dx_dy` is a parameter `eps`.  The initial `f64::NEG_INFINITY` of the step sizes is `none`.
-/

namespace Russell.Pde

open Russell Res

/-- `Side` (/repo/russell_pde/src/enums.rs:3-8) -/
inductive Side where
  | Xmin | Xmax | Ymin | Ymax
  deriving DecidableEq, Repr

/-- `side as usize` (/repo/russell_pde/src/enums.rs:3-8) -/
def Side.index : Side → Nat
  | .Xmin => 0 | .Xmax => 1 | .Ymin => 2 | .Ymax => 3

/-- `Side::from_index` (/repo/russell_pde/src/enums.rs:16-24) -/
def Side.fromIndex : Nat → Res Side
  | 0 => ok .Xmin | 1 => ok .Xmax | 2 => ok .Ymin | 3 => ok .Ymax | _ => panic

section Model

variable {α : Type} [Field α] [LinearOrder α]

/-- `Grid1d` (/repo/russell_pde/src/grid_1d.rs:56-82) -/
structure Grid1d (α : Type) where
  nx : Nat
  coords : List α
  nodes_xmin : List Nat
  nodes_xmax : List Nat
  deriving DecidableEq, Repr

/-- `for i in 1..n { if xx[i] <= xx[i-1] { return Err } }` (/repo/russell_pde/src/grid_1d.rs:127-131) -/
def checkIncreasing (msg : String) (xx : List α) : Res Unit :=
  forRange 1 xx.length () fun i _ => do
    let a ← vget xx i
    let b ← vget xx (i - 1)
    if a ≤ b then err msg else ok ()

/-- `Grid1d::new` (/repo/russell_pde/src/grid_1d.rs:122-138) -/
def Grid1d.new (xx : List α) : Res (Grid1d α) :=
  let nx := xx.length
  if nx < 2 then err "nx must be ≥ 2"
  else do
    checkIncreasing "xx must be strictly increasing" xx
    ok { nx, coords := xx, nodes_xmin := [0], nodes_xmax := [nx - 1] }

/-- `Grid1d::new_uniform` (/repo/russell_pde/src/grid_1d.rs:182-201) -/
def Grid1d.newUniform (xmin xmax : α) (nx : Nat) : Res (Grid1d α) :=
  if nx < 2 then err "nx must be ≥ 2"
  else if xmax ≤ xmin then err "xmax must be > xmin"
  else do
    let dx := (xmax - xmin) / ((nx - 1 : Nat) : α)
    let coords ← forRange 0 nx (List.replicate nx 0) fun i c => vset c i (xmin + (i : α) * dx)
    ok { nx, coords, nodes_xmin := [0], nodes_xmax := [nx - 1] }

/-- `Grid1d::new_chebyshev_gauss_lobatto` (/repo/russell_pde/src/grid_1d.rs:241-254) -/
noncomputable def Grid1d.newCgl (nx : Nat) : Res (Grid1d ℝ) :=
  if nx < 2 then err "nx must be ≥ 2"
  else do
    let coords ← Lab.chebyshevLobattoPoints (nx - 1)
    ok { nx, coords, nodes_xmin := [0], nodes_xmax := [nx - 1] }

/-- `is_xmin` (/repo/russell_pde/src/grid_1d.rs:274-276) -/
def Grid1d.isXmin (_ : Grid1d α) (m : Nat) : Bool := m == 0

/-- `is_xmax` (/repo/russell_pde/src/grid_1d.rs:287-289) -/
def Grid1d.isXmax (g : Grid1d α) (m : Nat) : Bool := m == g.nx - 1

/-- `on_boundary` (/repo/russell_pde/src/grid_1d.rs:302-304) -/
def Grid1d.onBoundary (g : Grid1d α) (m : Nat) : Bool := m == 0 || m == g.nx - 1

/-- `get_nodes_on_side` (/repo/russell_pde/src/grid_1d.rs:324-330) -/
def Grid1d.getNodesOnSide (g : Grid1d α) : Side → Res (List Nat)
  | .Xmin => ok g.nodes_xmin
  | .Xmax => ok g.nodes_xmax
  | _ => panic

/-- one iteration of `get_dx` (/repo/russell_pde/src/grid_1d.rs:362-371); `return None` is an `err` -/
def stepDx (eps x xl : α) (dx : Option α) : Res (Option α) :=
  match dx with
  | none => if x - xl > 0 then ok (some (x - xl)) else panic
  | some d => if |x - xl - d| > 10 * eps then err "non-uniform" else ok (some d)

/-- `get_dx` (/repo/russell_pde/src/grid_1d.rs:360-373) -/
def Grid1d.getDx (eps : α) (g : Grid1d α) : Res (Option (Option α)) :=
  match forRange 1 g.nx none fun i dx => do
      let x ← vget g.coords i
      let xl ← vget g.coords (i - 1)
      stepDx eps x xl dx with
  | ok d => ok (some d)
  | err _ => ok none
  | Res.panic => Res.panic

/-- `coord` (/repo/russell_pde/src/grid_1d.rs:405-407) -/
def Grid1d.coord (g : Grid1d α) (m : Nat) : Res α := vget g.coords m

/-- `Grid2d` (/repo/russell_pde/src/grid_2d.rs:88-144) -/
structure Grid2d (α : Type) where
  xmin : α
  xmax : α
  ymin : α
  ymax : α
  nx : Nat
  ny : Nat
  npoint : Nat
  coords : List (α × α)
  nodes_xmin : List Nat
  nodes_xmax : List Nat
  nodes_ymin : List Nat
  nodes_ymax : List Nat
  cgl : Bool
  deriving DecidableEq, Repr

/-- `do_allocate` (/repo/russell_pde/src/grid_2d.rs:148-173); called with `nx, ny ≥ 2` only, hence the subtractions do not underflow -/
def Grid2d.doAllocate (xmin xmax ymin ymax : α) (nx ny : Nat) (coords : List (α × α)) (cgl : Bool) : Grid2d α :=
  { xmin, xmax, ymin, ymax, nx, ny, npoint := nx * ny, coords,
    nodes_xmin := (List.range ny).map fun j => j * nx,
    nodes_xmax := (List.range ny).map fun j => j * nx + (nx - 1),
    nodes_ymin := List.range nx,
    nodes_ymax := (List.range nx).map fun i => (ny - 1) * nx + i,
    cgl }

/-- the check in the loop over `j` (/repo/russell_pde/src/grid_2d.rs:242-244) -/
def checkY (yy : List α) (j : Nat) : Res Unit :=
  if j > 0 then do
    let a ← vget yy j
    let b ← vget yy (j - 1)
    if a ≤ b then err "yy must be strictly increasing" else ok ()
  else ok ()

/-- `Grid2d::new` (/repo/russell_pde/src/grid_2d.rs:222-250) -/
def Grid2d.new (xx yy : List α) : Res (Grid2d α) :=
  let nx := xx.length
  let ny := yy.length
  if nx < 2 then err "nx must be ≥ 2"
  else if ny < 2 then err "ny must be ≥ 2"
  else do
    let xmin ← vget xx 0
    let xmax ← vget xx (nx - 1)
    let ymin ← vget yy 0
    let ymax ← vget yy (ny - 1)
    checkIncreasing "xx must be strictly increasing" xx
    let coords ← forRange 0 ny [] fun j acc => do
      checkY yy j
      forRange 0 nx acc fun i acc => do
        let x ← vget xx i
        let y ← vget yy j
        ok (acc ++ [(x, y)])
    ok (Grid2d.doAllocate xmin xmax ymin ymax nx ny coords false)

/-- `Grid2d::new_uniform` (/repo/russell_pde/src/grid_2d.rs:310-334) -/
def Grid2d.newUniform (xmin xmax ymin ymax : α) (nx ny : Nat) : Res (Grid2d α) :=
  if nx < 2 then err "nx must be ≥ 2"
  else if ny < 2 then err "ny must be ≥ 2"
  else if xmax ≤ xmin then err "xmax must be > xmin"
  else if ymax ≤ ymin then err "ymax must be > ymin"
  else do
    let dx := (xmax - xmin) / ((nx - 1 : Nat) : α)
    let dy := (ymax - ymin) / ((ny - 1 : Nat) : α)
    let coords ← forRange 0 ny [] fun j acc =>
      let y := ymin + (j : α) * dy
      forRange 0 nx acc fun i acc =>
        let x := xmin + (i : α) * dx
        ok (acc ++ [(x, y)])
    ok (Grid2d.doAllocate xmin xmax ymin ymax nx ny coords false)

/-- `Grid2d::new_chebyshev_gauss_lobatto` (/repo/russell_pde/src/grid_2d.rs:383-405) -/
noncomputable def Grid2d.newCgl (nx ny : Nat) : Res (Grid2d ℝ) :=
  if nx < 2 then err "nx must be ≥ 2"
  else if ny < 2 then err "ny must be ≥ 2"
  else do
    let uu ← Lab.chebyshevLobattoPoints (nx - 1)
    let vv ← Lab.chebyshevLobattoPoints (ny - 1)
    let coords ← forRange 0 ny [] fun j acc =>
      forRange 0 nx acc fun i acc => do
        let x ← vget uu i
        let y ← vget vv j
        ok (acc ++ [(x, y)])
    ok (Grid2d.doAllocate (-1) 1 (-1) 1 nx ny coords true)

/-- `size` (/repo/russell_pde/src/grid_2d.rs:454-456) -/
def Grid2d.size (g : Grid2d α) : Nat := g.npoint

/-- `get_m` (/repo/russell_pde/src/grid_2d.rs:477-479) -/
def Grid2d.getM (g : Grid2d α) (i j : Nat) : Nat := i + j * g.nx

/-- `get_ij` (/repo/russell_pde/src/grid_2d.rs:501-505) -/
def Grid2d.getIJ (g : Grid2d α) (m : Nat) : Nat × Nat := (m % g.nx, m / g.nx)

/-- `is_xmin` (/repo/russell_pde/src/grid_2d.rs:516-518) -/
def Grid2d.isXmin (g : Grid2d α) (m : Nat) : Bool := m % g.nx == 0

/-- `is_xmax` (/repo/russell_pde/src/grid_2d.rs:529-531) -/
def Grid2d.isXmax (g : Grid2d α) (m : Nat) : Bool := m % g.nx == g.nx - 1

/-- `is_ymin` (/repo/russell_pde/src/grid_2d.rs:542-544) -/
def Grid2d.isYmin (g : Grid2d α) (m : Nat) : Bool := m / g.nx == 0

/-- `is_ymax` (/repo/russell_pde/src/grid_2d.rs:555-557) -/
def Grid2d.isYmax (g : Grid2d α) (m : Nat) : Bool := m / g.nx == g.ny - 1

/-- `on_boundary` (/repo/russell_pde/src/grid_2d.rs:573-577) -/
def Grid2d.onBoundary (g : Grid2d α) (m : Nat) : Bool :=
  let i := m % g.nx
  let j := m / g.nx
  i == 0 || i == g.nx - 1 || j == 0 || j == g.ny - 1

/-- `get_nodes_on_side` (/repo/russell_pde/src/grid_2d.rs:596-603) -/
def Grid2d.getNodesOnSide (g : Grid2d α) : Side → List Nat
  | .Xmin => g.nodes_xmin
  | .Xmax => g.nodes_xmax
  | .Ymin => g.nodes_ymin
  | .Ymax => g.nodes_ymax

/-- `is_corner` (/repo/russell_pde/src/grid_2d.rs:636-644) -/
def Grid2d.isCorner (g : Grid2d α) (m : Nat) : Bool :=
  if m == 0 || m == g.npoint - 1 then true
  else
    let i := m % g.nx
    let j := m / g.nx
    (i == 0 && j == g.ny - 1) || (i == g.nx - 1 && j == 0)

/-- `get_dx_dy` (/repo/russell_pde/src/grid_2d.rs:659-685) -/
def Grid2d.getDxDy (eps : α) (g : Grid2d α) : Res (Option (Option α × Option α)) :=
  match forRange 1 g.ny ((none, none) : Option α × Option α) fun j s =>
      forRange 1 g.nx s fun i s => do
        let m := i + j * g.nx
        let l := m - 1
        let b := m - g.nx
        let p ← vget g.coords m
        let q ← vget g.coords l
        let r ← vget g.coords b
        let dx ← stepDx eps p.1 q.1 s.1
        let dy ← stepDx eps p.2 r.2 s.2
        ok (dx, dy) with
  | ok d => ok (some d)
  | err _ => ok none
  | Res.panic => Res.panic

/-- `coord` (/repo/russell_pde/src/grid_2d.rs:720-722) -/
def Grid2d.coord (g : Grid2d α) (m : Nat) : Res (α × α) := vget g.coords m

/-- the calls `f(m, x, y)` made by `for_each_coord` (/repo/russell_pde/src/grid_2d.rs:752-756) -/
def Grid2d.forEachCoord (g : Grid2d α) : List (Nat × α × α) := g.coords.zipIdx.map fun p => (p.2, p.1.1, p.1.2)

end Model

/-! ## Loops pushing coordinates -/

theorem pushRow {β : Type} {F : Nat → β} {body : Nat → List β → Res (List β)} (nx : Nat)
    (hb : ∀ i acc, i < nx → body i acc = ok (acc ++ [F i])) (acc : List β) :
    forRange 0 nx acc body = ok (acc ++ (List.range nx).map F) := by
  induction nx with
  | zero => simp [forRange_empty]
  | succ n ih =>
    rw [forRange_succ_right (Nat.zero_le _), ih (fun i acc hi => hb i acc (by omega)), ok_bind, hb n _ (by omega), List.range_succ]
    simp

theorem pushGrid {β : Type} {nx : Nat} {F : Nat → Nat → β} {body : Nat → List β → Res (List β)} (ny : Nat)
    (hb : ∀ j acc, j < ny → body j acc = ok (acc ++ (List.range nx).map (F j))) (acc : List β) :
    forRange 0 ny acc body = ok (acc ++ (List.range ny).flatMap fun j => (List.range nx).map (F j)) := by
  induction ny with
  | zero => simp [forRange_empty]
  | succ n ih =>
    rw [forRange_succ_right (Nat.zero_le _), ih (fun i acc hi => hb i acc (by omega)), ok_bind, hb n _ (by omega), List.range_succ]
    simp

/-- the coordinates in the order of the nodes -/
def gridList {β : Type} (nx ny : Nat) (F : Nat → Nat → β) : List β := (List.range ny).flatMap fun j => (List.range nx).map (F j)

theorem gridList_length {β : Type} (nx ny : Nat) (F : Nat → Nat → β) : (gridList nx ny F).length = nx * ny := by
  unfold gridList
  induction ny with
  | zero => simp
  | succ n ih => rw [List.range_succ, List.flatMap_append, List.length_append, ih]; simp [Nat.mul_succ]

theorem gridList_get {β : Type} {nx ny : Nat} (F : Nat → Nat → β) {i j : Nat} (hi : i < nx) (hj : j < ny) :
    (gridList nx ny F)[i + j * nx]? = some (F j i) := by
  induction ny with
  | zero => omega
  | succ n ih =>
    have hl := gridList_length nx n F
    unfold gridList at ih hl ⊢
    rw [List.range_succ, List.flatMap_append]
    by_cases h : j < n
    · rw [List.getElem?_append_left, ih h]
      rw [hl]
      have : (j + 1) * nx ≤ n * nx := Nat.mul_le_mul_right _ (by omega)
      rw [Nat.mul_comm nx n]
      rw [Nat.succ_mul] at this
      omega
    · have : j = n := by omega
      subst this
      rw [List.getElem?_append_right (by rw [hl, Nat.mul_comm]; omega), hl, Nat.mul_comm j nx, Nat.add_sub_cancel]
      simp [hi]

/-- what the three constructors give: `X i`, `Y j` are the coordinates along the axes -/
structure Grid2d.Is {α : Type} (g : Grid2d α) (nx ny : Nat) (X Y : Nat → α) : Prop where
  hx : 2 ≤ nx
  hy : 2 ≤ ny
  enx : g.nx = nx
  eny : g.ny = ny
  size : g.npoint = nx * ny
  coords : g.coords = gridList nx ny fun j i => (X i, Y j)
  xmin : g.nodes_xmin = (List.range ny).map fun j => j * nx
  xmax : g.nodes_xmax = (List.range ny).map fun j => j * nx + (nx - 1)
  ymin : g.nodes_ymin = List.range nx
  ymax : g.nodes_ymax = (List.range nx).map fun i => (ny - 1) * nx + i
  box : g.xmin = X 0 ∧ g.xmax = X (nx - 1) ∧ g.ymin = Y 0 ∧ g.ymax = Y (ny - 1)

section Props

variable {α : Type} [Field α] [LinearOrder α]

/-- coordinates as a function -/
def nth (xx : List α) (i : Nat) : α := xx.getD i 0

omit [LinearOrder α] in
theorem vget_nth {xx : List α} {i : Nat} (h : i < xx.length) : vget xx i = ok (nth xx i) := by
  rw [vget_lt h]; simp [nth, h]

theorem checkIncreasing_ok {msg : String} {xx : List α} : checkIncreasing msg xx = ok () ↔ ∀ i, i + 1 < xx.length → nth xx i < nth xx (i + 1) := by
  unfold checkIncreasing
  constructor
  · intro h i hi
    have := forRange_ok (f := fun (i : Nat) (_ : Unit) => (do
        let a ← vget xx i
        let b ← vget xx (i - 1)
        if a ≤ b then err msg else ok ())) (fun k _ => ∀ i, i + 1 < k → nth xx i < nth xx (i + 1)) (by omega) (by intro i hi; omega) (by
        intro k s s' h1 h2 h3 h4 i hi
        by_cases hk : i + 1 = k
        · subst hk
          rw [vget_nth h2, ok_bind, vget_nth (by omega), ok_bind, Nat.add_sub_cancel] at h4
          by_contra hn
          rw [if_pos (not_lt.1 hn)] at h4
          cases h4
        · exact h3 i (by omega)) h
    exact this i hi
  · intro h
    by_cases hl : 1 ≤ xx.length
    · obtain ⟨s, e, _⟩ := forRange_spec (f := fun (i : Nat) (_ : Unit) => (do
          let a ← vget xx i
          let b ← vget xx (i - 1)
          if a ≤ b then err msg else ok ())) (fun _ _ => True) (lo := 1) (hi := xx.length) (s := ()) hl trivial (by
          intro k s h1 h2 _
          refine ⟨(), ?_, trivial⟩
          rw [vget_nth h2, ok_bind, vget_nth (by omega), ok_bind, if_neg]
          have := h (k - 1) (by omega)
          rw [Nat.sub_add_cancel h1] at this
          exact not_le.2 this)
      exact e
    · rw [forRange_empty (by omega)]

theorem checkIncreasing_err {msg : String} {xx : List α} : checkIncreasing msg xx = ok () ∨ checkIncreasing msg xx = err msg := by
  unfold checkIncreasing
  by_cases hl : 1 ≤ xx.length
  · rcases Lab.forRange_err_or (msg := msg) (f := fun (i : Nat) (_ : Unit) => (do
        let a ← vget xx i
        let b ← vget xx (i - 1)
        if a ≤ b then err msg else ok ())) (fun _ _ => True) (lo := 1) (hi := xx.length) (s := ()) hl trivial (by
        intro k s h1 h2 _
        rw [vget_nth h2, ok_bind, vget_nth (by omega), ok_bind]
        by_cases h : nth xx k ≤ nth xx (k - 1)
        · left; rw [if_pos h]
        · right; exact ⟨(), by rw [if_neg h], trivial⟩) with h | ⟨s, e, _⟩
    · exact Or.inr h
    · exact Or.inl e
  · left; rw [forRange_empty (by omega)]

/-- **C46** `Grid1d::new` accepts exactly the strictly increasing coordinates with at least two points. -/
theorem C46_new_1d (xx : List α) :
    (2 ≤ xx.length ∧ (∀ i, i + 1 < xx.length → nth xx i < nth xx (i + 1)) ∧
      Grid1d.new xx = ok { nx := xx.length, coords := xx, nodes_xmin := [0], nodes_xmax := [xx.length - 1] }) ∨
    ((xx.length < 2 ∨ ∃ i, i + 1 < xx.length ∧ nth xx (i + 1) ≤ nth xx i) ∧ ∃ m, Grid1d.new xx = err m) := by
  unfold Grid1d.new
  dsimp only
  by_cases h2 : xx.length < 2
  · right; rw [if_pos h2]; exact ⟨Or.inl h2, _, rfl⟩
  · rw [if_neg h2]
    rcases checkIncreasing_err (msg := "xx must be strictly increasing") (xx := xx) with h | h
    · left; rw [h]; exact ⟨by omega, checkIncreasing_ok.1 h, rfl⟩
    · right
      rw [h]
      refine ⟨Or.inr ?_, _, rfl⟩
      by_contra hn
      push Not at hn
      have := (checkIncreasing_ok (msg := "xx must be strictly increasing")).2 hn
      rw [this] at h
      cases h

theorem checkY_iff (yy : List α) {j : Nat} (hj : j < yy.length) :
    checkY yy j = if 0 < j ∧ nth yy j ≤ nth yy (j - 1) then err "yy must be strictly increasing" else ok () := by
  unfold checkY
  by_cases h0 : j > 0
  · rw [if_pos h0, vget_nth hj, ok_bind, vget_nth (by omega), ok_bind]
    by_cases h : nth yy j ≤ nth yy (j - 1) <;> simp [h, h0]
  · rw [if_neg h0, if_neg (by tauto)]

/-- **C46** `Grid2d::new` accepts exactly the strictly increasing coordinates with at least two points per direction; the nodes are
the points `(x_i, y_j)`. -/
theorem C46_new_2d (xx yy : List α) :
    (2 ≤ xx.length ∧ 2 ≤ yy.length ∧ (∀ i, i + 1 < xx.length → nth xx i < nth xx (i + 1)) ∧ (∀ i, i + 1 < yy.length → nth yy i < nth yy (i + 1)) ∧
      ∃ g, Grid2d.new xx yy = ok g ∧ g.Is xx.length yy.length (nth xx) (nth yy)) ∨
    ((xx.length < 2 ∨ yy.length < 2 ∨ (∃ i, i + 1 < xx.length ∧ nth xx (i + 1) ≤ nth xx i) ∨ (∃ i, i + 1 < yy.length ∧ nth yy (i + 1) ≤ nth yy i)) ∧
      ∃ m, Grid2d.new xx yy = err m) := by
  unfold Grid2d.new
  dsimp only
  by_cases h2 : xx.length < 2
  · right; rw [if_pos h2]; exact ⟨Or.inl h2, _, rfl⟩
  rw [if_neg h2]
  by_cases h3 : yy.length < 2
  · right; rw [if_pos h3]; exact ⟨Or.inr (Or.inl h3), _, rfl⟩
  rw [if_neg h3, vget_nth (by omega), ok_bind, vget_nth (by omega), ok_bind, vget_nth (by omega), ok_bind, vget_nth (by omega), ok_bind]
  rcases checkIncreasing_err (msg := "xx must be strictly increasing") (xx := xx) with h | h
  swap
  · right
    rw [h]
    refine ⟨Or.inr (Or.inr (Or.inl ?_)), _, rfl⟩
    by_contra hn
    push Not at hn
    have := (checkIncreasing_ok (msg := "xx must be strictly increasing")).2 hn
    rw [this] at h
    cases h
  rw [h, ok_bind]
  have hrow : ∀ j acc, j < yy.length → (forRange 0 xx.length acc fun i acc => (do
        let x ← vget xx i
        let y ← vget yy j
        ok (acc ++ [(x, y)]))) = ok (acc ++ (List.range xx.length).map fun i => (nth xx i, nth yy j)) := by
    intro j acc hj
    apply pushRow
    intro i acc hi
    rw [vget_nth hi, ok_bind, vget_nth hj, ok_bind]
  by_cases hy : ∀ i, i + 1 < yy.length → nth yy i < nth yy (i + 1)
  · left
    refine ⟨by omega, by omega, checkIncreasing_ok.1 h, hy, ?_⟩
    rw [pushGrid (nx := xx.length) (F := fun j i => (nth xx i, nth yy j)) yy.length (by
      intro j acc hj
      rw [checkY_iff yy hj, if_neg, ok_bind, hrow j acc hj]
      rintro ⟨a, b⟩
      have := hy (j - 1) (by omega)
      rw [Nat.sub_add_cancel a] at this
      exact absurd b (not_le.2 this)) [], ok_bind]
    exact ⟨_, rfl, by omega, by omega, rfl, rfl, rfl, rfl, rfl, rfl, rfl, rfl, rfl, rfl, rfl, rfl⟩
  · right
    push Not at hy
    refine ⟨Or.inr (Or.inr (Or.inr hy)), ?_⟩
    obtain ⟨i, hi, hle⟩ := hy
    rcases Lab.forRange_err_or (msg := "yy must be strictly increasing") (f := fun j acc => (do
        checkY yy j
        forRange 0 xx.length acc fun i acc => do
          let x ← vget xx i
          let y ← vget yy j
          ok (acc ++ [(x, y)]))) (fun k _ => k ≤ i + 1) (lo := 0) (hi := yy.length) (s := []) (Nat.zero_le _) (by omega) (by
        intro k s _ hk hI
        rw [checkY_iff yy hk]
        by_cases hc : 0 < k ∧ nth yy k ≤ nth yy (k - 1)
        · left; rw [if_pos hc]; rfl
        · right
          rw [if_neg hc, ok_bind, hrow k s hk]
          refine ⟨_, rfl, ?_⟩
          by_contra hn
          have : k = i + 1 := by omega
          subst this
          exact hc ⟨by omega, hle⟩) with h | ⟨s, e, hI⟩
    · rw [h]; exact ⟨_, rfl⟩
    · omega

variable [IsStrictOrderedRing α]

/-- **C46** `new_uniform` gives equally spaced points from `xmin` to `xmax`. -/
theorem C46_uniform_1d {xmin xmax : α} {nx : Nat} (h2 : 2 ≤ nx) (h : xmin < xmax) :
    ∃ g, Grid1d.newUniform xmin xmax nx = ok g ∧ g.nx = nx ∧
      Lab.IsVec g.coords nx (fun i => xmin + i * ((xmax - xmin) / (nx - 1))) ∧ g.coord 0 = ok xmin ∧ g.coord (nx - 1) = ok xmax ∧
      g.nodes_xmin = [0] ∧ g.nodes_xmax = [nx - 1] := by
  unfold Grid1d.newUniform
  rw [if_neg (by omega), if_neg (not_le.2 h)]
  dsimp only
  have hn : ((nx - 1 : Nat) : α) = nx - 1 := by push_cast [Nat.cast_sub (by omega : 1 ≤ nx)]; ring
  have hpos : (nx : α) - 1 ≠ 0 := by
    rw [← hn]
    exact_mod_cast (by omega : nx - 1 ≠ 0)
  obtain ⟨c, e, hv⟩ := Lab.fillVec (lo := 0) (hi := nx) (g := fun i => xmin + (i : α) * ((xmax - xmin) / ((nx - 1 : Nat) : α)))
    (Lab.isVec_replicate nx (0 : α)) (le_refl _) (body := fun i c => vset c i (xmin + (i : α) * ((xmax - xmin) / ((nx - 1 : Nat) : α))))
    (fun k l f' _ _ _ _ => rfl)
  rw [e, ok_bind]
  have hv' : Lab.IsVec c nx (fun i => xmin + i * ((xmax - xmin) / (nx - 1))) := hv.congr (fun i hi => by rw [if_pos ⟨by omega, hi⟩, hn])
  refine ⟨_, rfl, rfl, hv', ?_, ?_, rfl, rfl⟩
  · unfold Grid1d.coord
    rw [hv'.vget (by omega)]
    simp
  · unfold Grid1d.coord
    rw [hv'.vget (by omega), hn]
    congr 1
    field_simp
    ring

/-- **C46** `Grid2d::new_uniform` gives equally spaced points. -/
theorem C46_uniform_2d {xmin xmax ymin ymax : α} {nx ny : Nat} (hx2 : 2 ≤ nx) (hy2 : 2 ≤ ny) (hx : xmin < xmax) (hy : ymin < ymax) :
    ∃ g, Grid2d.newUniform xmin xmax ymin ymax nx ny = ok g ∧
      g.Is nx ny (fun i => xmin + i * ((xmax - xmin) / (nx - 1))) (fun j => ymin + j * ((ymax - ymin) / (ny - 1))) ∧
      g.xmin = xmin ∧ g.xmax = xmax ∧ g.ymin = ymin ∧ g.ymax = ymax := by
  unfold Grid2d.newUniform
  rw [if_neg (by omega), if_neg (by omega), if_neg (not_le.2 hx), if_neg (not_le.2 hy)]
  dsimp only
  have hn : ∀ {n : Nat}, 2 ≤ n → ((n - 1 : Nat) : α) = n - 1 := fun {n} h => by push_cast [Nat.cast_sub (by omega : 1 ≤ n)]; ring
  have hp : ∀ {n : Nat}, 2 ≤ n → (n : α) - 1 ≠ 0 := fun {n} h => by
    rw [← hn h]
    exact_mod_cast (by omega : n - 1 ≠ 0)
  rw [hn hx2, hn hy2]
  rw [pushGrid (nx := nx) (F := fun j i => (xmin + (i : α) * ((xmax - xmin) / (nx - 1)), ymin + (j : α) * ((ymax - ymin) / (ny - 1)))) ny (by
    intro j acc hj
    apply pushRow
    intro i acc hi
    rfl) [], ok_bind]
  have e1 := hp hx2
  have e2 := hp hy2
  refine ⟨_, rfl, ⟨hx2, hy2, rfl, rfl, rfl, rfl, rfl, rfl, rfl, rfl, ?_, ?_, ?_, ?_⟩, rfl, rfl, rfl, rfl⟩
  · simp [Grid2d.doAllocate]
  · rw [hn hx2]; unfold Grid2d.doAllocate; dsimp only; field_simp; ring
  · simp [Grid2d.doAllocate]
  · rw [hn hy2]; unfold Grid2d.doAllocate; dsimp only; field_simp; ring

/-- **C46** The Chebyshev-Gauss-Lobatto grid has the nodes `(-cos(iπ/(nx-1)), -cos(jπ/(ny-1)))`. -/
theorem C46_cgl_2d {nx ny : Nat} (hx2 : 2 ≤ nx) (hy2 : 2 ≤ ny) :
    ∃ g, Grid2d.newCgl nx ny = ok g ∧
      g.Is nx ny (fun i => -Real.cos (i * Real.pi / ((nx - 1 : Nat) : ℝ))) (fun j => -Real.cos (j * Real.pi / ((ny - 1 : Nat) : ℝ))) := by
  unfold Grid2d.newCgl
  rw [if_neg (by omega), if_neg (by omega)]
  obtain ⟨u, eu, lu, hu, u0, u1, _⟩ := Lab.C52_lobatto_points (nn := nx - 1) (by omega)
  obtain ⟨v, ev, lv, hv, v0, v1, _⟩ := Lab.C52_lobatto_points (nn := ny - 1) (by omega)
  rw [eu, ok_bind, ev, ok_bind]
  rw [pushGrid (nx := nx) (F := fun j i => (-Real.cos (i * Real.pi / ((nx - 1 : Nat) : ℝ)), -Real.cos (j * Real.pi / ((ny - 1 : Nat) : ℝ)))) ny (by
    intro j acc hj
    apply pushRow
    intro i acc hi
    rw [vget_of (hu i (by omega)), ok_bind, vget_of (hv j (by omega)), ok_bind]) [], ok_bind]
  have a0 := hu 0 (by omega)
  rw [u0] at a0
  have a1 := hu (nx - 1) (le_refl _)
  rw [u1] at a1
  have b0 := hv 0 (by omega)
  rw [v0] at b0
  have b1 := hv (ny - 1) (le_refl _)
  rw [v1] at b1
  exact ⟨_, rfl, hx2, hy2, rfl, rfl, rfl, rfl, rfl, rfl, rfl, rfl, Option.some.inj a0, Option.some.inj a1, Option.some.inj b0, Option.some.inj b1⟩

omit [Field α] [LinearOrder α] [IsStrictOrderedRing α] in
/-- **C46** `get_m` and `get_ij` are inverse to each other, and `coord` gives the point of the node. -/
theorem C46_indexing {g : Grid2d α} {nx ny : Nat} {X Y : Nat → α} (hg : g.Is nx ny X Y) :
    (∀ i j, i < nx → j < ny → g.getM i j < g.size ∧ g.getIJ (g.getM i j) = (i, j) ∧ g.coord (g.getM i j) = ok (X i, Y j)) ∧
    (∀ m, m < g.size → (g.getIJ m).1 < nx ∧ (g.getIJ m).2 < ny ∧ g.getM (g.getIJ m).1 (g.getIJ m).2 = m) ∧
    (∀ m, g.size ≤ m → g.coord m = panic) := by
  have hx := hg.hx
  unfold Grid2d.getM Grid2d.getIJ Grid2d.size Grid2d.coord
  rw [hg.enx, hg.size, hg.coords]
  refine ⟨?_, ?_, ?_⟩
  · intro i j hi hj
    refine ⟨?_, ?_, vget_of (gridList_get _ hi hj)⟩
    · have : (j + 1) * nx ≤ ny * nx := Nat.mul_le_mul_right _ (by omega)
      rw [Nat.succ_mul] at this
      rw [Nat.mul_comm nx ny]
      omega
    · rw [Nat.add_mul_mod_self_right, Nat.mod_eq_of_lt hi, Nat.add_mul_div_right _ _ (by omega), Nat.div_eq_of_lt hi, Nat.zero_add]
  · intro m hm
    refine ⟨Nat.mod_lt _ (by omega), Nat.div_lt_of_lt_mul hm, ?_⟩
    have := Nat.div_add_mod m nx
    rw [Nat.mul_comm] at this
    dsimp only
    omega
  · intro m hm
    exact vget_ge (by rw [gridList_length]; exact hm)

/-- whether node `m` is on a side -/
def Grid2d.onSide (g : Grid2d α) : Side → Nat → Bool
  | .Xmin => g.isXmin
  | .Xmax => g.isXmax
  | .Ymin => g.isYmin
  | .Ymax => g.isYmax

omit [Field α] [LinearOrder α] [IsStrictOrderedRing α] in
/-- **C46** The nodes on a side are exactly those for which the predicate of the side holds, in increasing order; being on the
boundary and being a corner follow from the predicates. -/
theorem C46_sides {g : Grid2d α} {nx ny : Nat} {X Y : Nat → α} (hg : g.Is nx ny X Y) :
    (∀ s m, m ∈ g.getNodesOnSide s ↔ m < g.size ∧ g.onSide s m = true) ∧ (∀ s, (g.getNodesOnSide s).Pairwise (· < ·)) ∧
    (∀ m, g.onBoundary m = true ↔ ∃ s, g.onSide s m = true) ∧
    (∀ m, m < g.size → (g.isCorner m = true ↔ (g.isXmin m = true ∨ g.isXmax m = true) ∧ (g.isYmin m = true ∨ g.isYmax m = true))) ∧
    (∀ i j, i < nx → j < ny → (g.isXmin (g.getM i j) = true ↔ i = 0) ∧ (g.isXmax (g.getM i j) = true ↔ i = nx - 1) ∧
      (g.isYmin (g.getM i j) = true ↔ j = 0) ∧ (g.isYmax (g.getM i j) = true ↔ j = ny - 1)) := by
  have hx := hg.hx
  have hy := hg.hy
  have key : ∀ m, m < nx * ny ↔ ∃ i j, i < nx ∧ j < ny ∧ m = i + j * nx := by
    intro m
    constructor
    · intro hm
      refine ⟨m % nx, m / nx, Nat.mod_lt _ (by omega), Nat.div_lt_of_lt_mul hm, ?_⟩
      rw [Nat.mul_comm]; exact (Nat.mod_add_div m nx).symm
    · rintro ⟨i, j, hi, hj, rfl⟩
      have : (j + 1) * nx ≤ ny * nx := Nat.mul_le_mul_right _ (by omega)
      rw [Nat.succ_mul] at this
      rw [Nat.mul_comm nx ny]
      omega
  have dm : ∀ i j, i < nx → (i + j * nx) % nx = i ∧ (i + j * nx) / nx = j := by
    intro i j hi
    rw [Nat.add_mul_mod_self_right, Nat.mod_eq_of_lt hi, Nat.add_mul_div_right _ _ (by omega), Nat.div_eq_of_lt hi, Nat.zero_add]
    exact ⟨rfl, rfl⟩
  refine ⟨?_, ?_, ?_, ?_, ?_⟩
  · intro s m
    unfold Grid2d.size
    rw [hg.size]
    cases s <;> unfold Grid2d.getNodesOnSide Grid2d.onSide <;> dsimp only
    · rw [hg.xmin, List.mem_map]
      unfold Grid2d.isXmin
      rw [hg.enx, beq_iff_eq]
      constructor
      · rintro ⟨j, hj, rfl⟩
        exact ⟨(key _).2 ⟨0, j, by omega, List.mem_range.1 hj, by omega⟩, Nat.mul_mod_left _ _⟩
      · rintro ⟨hm, h0⟩
        obtain ⟨i, j, hi, hj, rfl⟩ := (key m).1 hm
        rw [(dm i j hi).1] at h0
        exact ⟨j, List.mem_range.2 hj, by omega⟩
    · rw [hg.xmax, List.mem_map]
      unfold Grid2d.isXmax
      rw [hg.enx, beq_iff_eq]
      constructor
      · rintro ⟨j, hj, rfl⟩
        rw [Nat.add_comm]
        exact ⟨(key _).2 ⟨nx - 1, j, by omega, List.mem_range.1 hj, rfl⟩, (dm _ j (by omega)).1⟩
      · rintro ⟨hm, h0⟩
        obtain ⟨i, j, hi, hj, rfl⟩ := (key m).1 hm
        rw [(dm i j hi).1] at h0
        exact ⟨j, List.mem_range.2 hj, by omega⟩
    · rw [hg.ymin, List.mem_range]
      unfold Grid2d.isYmin
      rw [hg.enx, beq_iff_eq]
      constructor
      · intro h
        exact ⟨(key _).2 ⟨m, 0, h, by omega, by omega⟩, Nat.div_eq_of_lt h⟩
      · rintro ⟨hm, h0⟩
        exact (Nat.div_eq_zero_iff_lt (by omega)).1 h0
    · rw [hg.ymax, List.mem_map]
      unfold Grid2d.isYmax
      rw [hg.enx, hg.eny, beq_iff_eq]
      constructor
      · rintro ⟨i, hi, rfl⟩
        have hi := List.mem_range.1 hi
        rw [Nat.add_comm]
        exact ⟨(key _).2 ⟨i, ny - 1, hi, by omega, rfl⟩, (dm i _ hi).2⟩
      · rintro ⟨hm, h0⟩
        obtain ⟨i, j, hi, hj, rfl⟩ := (key m).1 hm
        rw [(dm i j hi).2] at h0
        subst h0
        exact ⟨i, List.mem_range.2 hi, by omega⟩
  · intro s
    cases s <;> unfold Grid2d.getNodesOnSide <;> dsimp only
    · rw [hg.xmin, List.pairwise_map]
      exact List.pairwise_lt_range.imp (fun h => Nat.mul_lt_mul_of_pos_right h (by omega))
    · rw [hg.xmax, List.pairwise_map]
      exact List.pairwise_lt_range.imp (fun h => Nat.add_lt_add_right (Nat.mul_lt_mul_of_pos_right h (by omega)) _)
    · rw [hg.ymin]; exact List.pairwise_lt_range
    · rw [hg.ymax, List.pairwise_map]
      exact List.pairwise_lt_range.imp (fun h => Nat.add_lt_add_left h _)
  · intro m
    unfold Grid2d.onBoundary
    constructor
    · intro h
      simp only [Bool.or_eq_true, beq_iff_eq] at h
      rcases h with ((h | h) | h) | h
      · exact ⟨.Xmin, by simp [Grid2d.onSide, Grid2d.isXmin, h]⟩
      · exact ⟨.Xmax, by simp [Grid2d.onSide, Grid2d.isXmax, h]⟩
      · exact ⟨.Ymin, by simpa [Grid2d.onSide, Grid2d.isYmin] using h⟩
      · exact ⟨.Ymax, by simp [Grid2d.onSide, Grid2d.isYmax, h]⟩
    · rintro ⟨s, h⟩
      simp only [Bool.or_eq_true, beq_iff_eq]
      cases s <;> unfold Grid2d.onSide at h <;> dsimp only at h
      · unfold Grid2d.isXmin at h; rw [beq_iff_eq] at h; tauto
      · unfold Grid2d.isXmax at h; rw [beq_iff_eq] at h; tauto
      · unfold Grid2d.isYmin at h; rw [beq_iff_eq] at h; tauto
      · unfold Grid2d.isYmax at h; rw [beq_iff_eq] at h; tauto
  · intro m hm
    unfold Grid2d.size at hm
    rw [hg.size] at hm
    obtain ⟨i, j, hi, hj, rfl⟩ := (key m).1 hm
    unfold Grid2d.isCorner Grid2d.isXmin Grid2d.isXmax Grid2d.isYmin Grid2d.isYmax
    rw [hg.enx, hg.eny, hg.size]
    dsimp only
    rw [(dm i j hi).1, (dm i j hi).2]
    have h0 : i + j * nx = 0 ↔ i = 0 ∧ j = 0 := by
      constructor
      · intro h
        have := Nat.eq_zero_of_add_eq_zero h
        exact ⟨this.1, by rcases Nat.mul_eq_zero.1 this.2 with h | h <;> omega⟩
      · rintro ⟨rfl, rfl⟩; simp
    have h1 : i + j * nx = nx * ny - 1 ↔ i = nx - 1 ∧ j = ny - 1 := by
      have e : nx * ny - 1 = (nx - 1) + (ny - 1) * nx := by
        obtain ⟨b, rfl⟩ : ∃ b, ny = b + 1 := ⟨ny - 1, by omega⟩
        rw [Nat.mul_succ, Nat.add_sub_cancel, Nat.mul_comm nx b]
        omega
      rw [e]
      constructor
      · intro h
        have a := dm i j hi
        have b := dm (nx - 1) (ny - 1) (by omega)
        rw [h] at a
        exact ⟨a.1.symm.trans b.1, a.2.symm.trans b.2⟩
      · rintro ⟨rfl, rfl⟩; rfl
    simp only [Bool.or_eq_true, beq_iff_eq]
    by_cases hc : i + j * nx = 0 ∨ i + j * nx = nx * ny - 1
    · rw [if_pos hc]
      rw [h0, h1] at hc
      simp only [true_iff]
      tauto
    · rw [if_neg hc]
      rw [h0, h1] at hc
      simp only [Bool.or_eq_true, Bool.and_eq_true, beq_iff_eq]
      tauto
  · intro i j hi hj
    unfold Grid2d.isXmin Grid2d.isXmax Grid2d.isYmin Grid2d.isYmax Grid2d.getM
    rw [hg.enx, hg.eny, (dm i j hi).1, (dm i j hi).2]
    simp only [beq_iff_eq, and_self]

omit [Field α] [LinearOrder α] [IsStrictOrderedRing α] in
/-- **C46** `for_each_coord` visits every node once, in order, with its point. -/
theorem C46_for_each_coord {g : Grid2d α} {nx ny : Nat} {X Y : Nat → α} (hg : g.Is nx ny X Y) :
    g.forEachCoord.map Prod.fst = List.range g.size ∧ ∀ m x y, (m, x, y) ∈ g.forEachCoord ↔ g.coord m = ok (x, y) := by
  unfold Grid2d.forEachCoord Grid2d.size Grid2d.coord
  constructor
  · rw [List.map_map, show (Prod.fst ∘ fun p : (α × α) × Nat => (p.2, p.1.1, p.1.2)) = Prod.snd from rfl, List.zipIdx_map_snd,
      hg.coords, gridList_length, hg.size, List.range'_eq_map_range]
    simp
  · intro m x y
    rw [vget_eq_ok, List.mem_map]
    constructor
    · rintro ⟨⟨⟨a, b⟩, k⟩, hp, he⟩
      cases he
      exact List.mem_zipIdx_iff_getElem?.1 hp
    · intro h
      exact ⟨((x, y), m), List.mem_zipIdx_iff_getElem?.2 h, rfl⟩

/-! ### Uniform spacing -/

theorem stepDx_none {eps x xl : α} (h : xl < x) : stepDx eps x xl none = ok (some (x - xl)) := by
  unfold stepDx
  dsimp only
  rw [if_pos (sub_pos.2 h)]

/-- **C46** `get_dx_dy` on a grid with increasing coordinates: it gives the first spacings exactly when all spacings agree with them
up to the tolerance; otherwise it gives `None`. -/
theorem C46_get_dx_dy {g : Grid2d α} {nx ny : Nat} {X Y : Nat → α} (hg : g.Is nx ny X Y) (hX : X 0 < X 1) (hY : Y 0 < Y 1) {eps : α} (he : 0 ≤ eps) :
    ((∀ i, 1 ≤ i → i < nx → |X i - X (i - 1) - (X 1 - X 0)| ≤ 10 * eps) ∧ (∀ j, 1 ≤ j → j < ny → |Y j - Y (j - 1) - (Y 1 - Y 0)| ≤ 10 * eps) ∧
      g.getDxDy eps = ok (some (some (X 1 - X 0), some (Y 1 - Y 0)))) ∨
    (((∃ i, 1 ≤ i ∧ i < nx ∧ 10 * eps < |X i - X (i - 1) - (X 1 - X 0)|) ∨ (∃ j, 1 ≤ j ∧ j < ny ∧ 10 * eps < |Y j - Y (j - 1) - (Y 1 - Y 0)|)) ∧
      g.getDxDy eps = ok none) := by
  have hx := hg.hx
  have hy := hg.hy
  set body : Nat → Nat → (Option α × Option α) → Res (Option α × Option α) := fun j i s => (do
        let m := i + j * g.nx
        let l := m - 1
        let b := m - g.nx
        let p ← vget g.coords m
        let q ← vget g.coords l
        let r ← vget g.coords b
        let dx ← stepDx eps p.1 q.1 s.1
        let dy ← stepDx eps p.2 r.2 s.2
        ok (dx, dy)) with hbody
  have hdef : g.getDxDy eps = match forRange 1 g.ny ((none, none) : Option α × Option α) fun j s => forRange 1 g.nx s (body j) with
      | ok d => ok (some d)
      | err _ => ok none
      | Res.panic => Res.panic := rfl
  have e10 : (0 : α) ≤ 10 * eps := mul_nonneg (by norm_num) he
  have hb : ∀ j i s, 1 ≤ j → j < ny → 1 ≤ i → i < nx → body j i s = (do
      let dx ← stepDx eps (X i) (X (i - 1)) s.1
      let dy ← stepDx eps (Y j) (Y (j - 1)) s.2
      ok (dx, dy)) := by
    intro j i s hj1 hj hi1 hi
    rw [hbody]
    dsimp only
    rw [hg.enx, hg.coords, show i + j * nx - 1 = (i - 1) + j * nx by omega]
    have : i + j * nx - nx = i + (j - 1) * nx := by
      obtain ⟨b, rfl⟩ : ∃ b, j = b + 1 := ⟨j - 1, by omega⟩
      rw [Nat.succ_mul, Nat.add_sub_cancel]
      omega
    rw [this, vget_of (gridList_get _ hi hj), ok_bind, vget_of (gridList_get _ (by omega : i - 1 < nx) hj), ok_bind,
      vget_of (gridList_get _ hi (by omega : j - 1 < ny)), ok_bind]
  -- the value of one step after the first
  set dX := X 1 - X 0 with hdX
  set dY := Y 1 - Y 0 with hdY
  have hstep : ∀ j i s, 1 ≤ j → j < ny → 1 ≤ i → i < nx → (s = (some dX, some dY) ∨ (s = (none, none) ∧ i = 1 ∧ j = 1)) →
      (body j i s = err "non-uniform" ∧ (10 * eps < |X i - X (i - 1) - dX| ∨ 10 * eps < |Y j - Y (j - 1) - dY|)) ∨
      (body j i s = ok (some dX, some dY) ∧ |X i - X (i - 1) - dX| ≤ 10 * eps ∧ |Y j - Y (j - 1) - dY| ≤ 10 * eps) := by
    intro j i s hj1 hj hi1 hi hs
    rw [hb j i s hj1 hj hi1 hi]
    rcases hs with rfl | ⟨rfl, rfl, rfl⟩
    · unfold stepDx
      dsimp only
      by_cases h1 : |X i - X (i - 1) - dX| > 10 * eps
      · left; rw [if_pos h1]; exact ⟨rfl, Or.inl h1⟩
      · rw [if_neg h1, ok_bind]
        by_cases h2 : |Y j - Y (j - 1) - dY| > 10 * eps
        · left; rw [if_pos h2]; exact ⟨rfl, Or.inr h2⟩
        · right; rw [if_neg h2, ok_bind]; exact ⟨rfl, not_lt.1 h1, not_lt.1 h2⟩
    · right
      dsimp only
      rw [Nat.sub_self, stepDx_none hX, ok_bind, stepDx_none hY, ok_bind, ← hdX, ← hdY, sub_self, sub_self, abs_zero]
      exact ⟨rfl, e10, e10⟩
  by_cases hall : (∀ i, 1 ≤ i → i < nx → |X i - X (i - 1) - dX| ≤ 10 * eps) ∧ (∀ j, 1 ≤ j → j < ny → |Y j - Y (j - 1) - dY| ≤ 10 * eps)
  · left
    refine ⟨hall.1, hall.2, ?_⟩
    rw [hdef, hg.enx, hg.eny]
    obtain ⟨s, e, hI⟩ := forRange_spec (f := fun j s => forRange 1 nx s (body j)) (lo := 1) (hi := ny) (s := ((none, none) : Option α × Option α))
      (fun k s => (k = 1 ∧ s = (none, none)) ∨ (1 < k ∧ s = (some dX, some dY))) (by omega) (Or.inl ⟨rfl, rfl⟩) (by
        intro j s hj1 hj hI
        obtain ⟨s', e', hI'⟩ := forRange_spec (f := body j) (lo := 1) (hi := nx) (s := s)
          (fun k s => s = (some dX, some dY) ∨ (s = (none, none) ∧ k = 1 ∧ j = 1)) (by omega) (by
            rcases hI with ⟨a, b⟩ | ⟨a, b⟩
            · exact Or.inr ⟨b, rfl, a⟩
            · exact Or.inl b) (by
            intro i s hi1 hi hs
            rcases hstep j i s hj1 hj hi1 hi hs with ⟨_, h⟩ | ⟨h, _⟩
            · exfalso
              rcases h with h | h
              · exact absurd (hall.1 i hi1 hi) (not_le.2 h)
              · exact absurd (hall.2 j hj1 hj) (not_le.2 h)
            · exact ⟨_, h, Or.inl rfl⟩)
        refine ⟨s', e', Or.inr ⟨by omega, ?_⟩⟩
        rcases hI' with h | ⟨_, h, _⟩
        · exact h
        · omega)
    rw [e]
    rcases hI with ⟨h, _⟩ | ⟨_, h⟩
    · omega
    · rw [h]
  · right
    have hex : (∃ i, 1 ≤ i ∧ i < nx ∧ 10 * eps < |X i - X (i - 1) - dX|) ∨ (∃ j, 1 ≤ j ∧ j < ny ∧ 10 * eps < |Y j - Y (j - 1) - dY|) := by
      by_contra hn
      push Not at hn
      exact hall ⟨fun i a b => hn.1 i a b, fun j a b => hn.2 j a b⟩
    refine ⟨hex, ?_⟩
    rw [hdef, hg.enx, hg.eny]
    -- run: every completed iteration had agreeing spacings
    rcases Lab.forRange_err_or (msg := "non-uniform") (f := fun j s => forRange 1 nx s (body j)) (lo := 1) (hi := ny)
      (s := ((none, none) : Option α × Option α))
      (fun k s => ((k = 1 ∧ s = (none, none)) ∨ (1 < k ∧ s = (some dX, some dY) ∧ (∀ i, 1 ≤ i → i < nx → |X i - X (i - 1) - dX| ≤ 10 * eps))) ∧
        (∀ j, 1 ≤ j → j < k → |Y j - Y (j - 1) - dY| ≤ 10 * eps)) (by omega) ⟨Or.inl ⟨rfl, rfl⟩, by intro j a b; omega⟩ (by
        rintro j s hj1 hj ⟨hI, hJ⟩
        rcases Lab.forRange_err_or (msg := "non-uniform") (f := body j) (lo := 1) (hi := nx) (s := s)
          (fun k s => (s = (some dX, some dY) ∨ (s = (none, none) ∧ k = 1 ∧ j = 1)) ∧ (∀ i, 1 ≤ i → i < k → |X i - X (i - 1) - dX| ≤ 10 * eps) ∧
            (1 < k → |Y j - Y (j - 1) - dY| ≤ 10 * eps)) (by omega) (by
            refine ⟨?_, by intro i a b; omega, by intro h; omega⟩
            rcases hI with ⟨a, b⟩ | ⟨a, b, _⟩
            · exact Or.inr ⟨b, rfl, a⟩
            · exact Or.inl b) (by
            rintro i s hi1 hi ⟨hs, hs2, _⟩
            rcases hstep j i s hj1 hj hi1 hi hs with ⟨h, _⟩ | ⟨h, h1, h2⟩
            · exact Or.inl h
            · refine Or.inr ⟨_, h, Or.inl rfl, ?_, fun _ => h2⟩
              intro i' a b
              by_cases hii : i' = i
              · subst hii; exact h1
              · exact hs2 i' a (by omega)) with h | ⟨s', e', h1, h2, h3⟩
        · exact Or.inl h
        · refine Or.inr ⟨s', e', Or.inr ⟨by omega, ?_, h2⟩, ?_⟩
          · rcases h1 with h | ⟨_, h, _⟩
            · exact h
            · omega
          · intro j' a b
            by_cases hjj : j' = j
            · subst hjj; exact h3 (by omega)
            · exact hJ j' a (by omega)) with h | ⟨s, e, hI, hJ⟩
    · rw [h]
    · exfalso
      rcases hI with ⟨a, _⟩ | ⟨_, _, b⟩
      · omega
      · exact hall ⟨b, hJ⟩

end Props

/-- a 3x2 grid: corner and sides -/
example : ∃ g, Grid2d.new ([0, 1, 3] : List ℚ) [0, 2] = ok g ∧ g.getNodesOnSide .Xmax = [2, 5] ∧ g.coord 4 = ok (1, 2) ∧
    g.isCorner 3 = true ∧ g.isCorner 4 = false ∧ g.getDxDy 0 = ok none := by
  refine ⟨_, rfl, ?_⟩
  decide +kernel

/-- a uniform one gives its spacings -/
example : ∃ g, Grid2d.newUniform (0 : ℚ) 1 0 3 3 4 = ok g ∧ g.getDxDy 0 = ok (some (some (1 / 2), some 1)) := by
  refine ⟨_, rfl, ?_⟩
  decide +kernel

end Russell.Pde
