import Verif.Pde.Spc
import Verif.Pde.Fdm1dProps
import Verif.Lab.InterpLagrangeNew
import Mathlib.LinearAlgebra.Lagrange
import Mathlib.RingTheory.Polynomial.DegreeLT
import Mathlib.LinearAlgebra.FiniteDimensional.Lemmas

/-!
# Spectral collocation in one dimension (C93)

Model of `Spc1d` (/repo/russell_pde/src/spc_1d.rs) over the real numbers.  The linear solver is a parameter.
-/

namespace Russell.Pde

open Russell Res Russell.Sparse Polynomial

/-- `enabled_m` (/repo/russell_pde/src/natural_bcs_1d.rs:203-214) -/
def NaturalBcs1d.enabledM {α : Type} (n : NaturalBcs1d α) (m : Nat) (g : Grid1d α) : Res Bool :=
  if m = 0 then vget n.sides 0 else if m = g.nx - 1 then vget n.sides 1 else ok false

/-- `Spc1d` (/repo/russell_pde/src/spc_1d.rs:113-157); the solver kind is left out -/
structure Spc1d where
  xmin : ℝ
  xmax : ℝ
  grid : Grid1d ℝ
  ebcs : EssentialBcs1d ℝ
  nbcs : NaturalBcs1d ℝ
  mkx : ℝ
  equations : EquationHandler
  interp : Lab.Interp

noncomputable section

/-- `Spc1d::new` (/repo/russell_pde/src/spc_1d.rs:186-235) -/
def Spc1d.new (xmin xmax : ℝ) (nx : Nat) (ebcs : EssentialBcs1d ℝ) (nbcs : NaturalBcs1d ℝ) (kx : ℝ) : Res Spc1d :=
  if nx < 2 then err "nx must be ≥ 2"
  else
    let nn := nx - 1
    if nn > 2048 then err "the maximum allowed polynomial degree is 2048"
    else do
      let grid ← (Grid1d.newCgl nx).unwrap
      if ebcs.periodic_along_x then err "essential BCs cannot be periodic"
      else do
        let neq := grid.nx
        let nodes ← ebcs.getNodes grid.nx
        let equations ← (EquationHandler.new neq).recompute nodes
        let interp_x ← (Lab.Interp.new nn none).unwrap
        let interp_x ← interp_x.calcDd1
        let interp_x ← interp_x.calcDd2
        ok { xmin, xmax, grid, ebcs, nbcs, mkx := -kx, equations, interp := interp_x }

/-- `map_coord` (/repo/russell_pde/src/spc_1d.rs:803-805) -/
def Spc1d.mapCoord (S : Spc1d) (r : ℝ) : ℝ := (S.xmax + S.xmin + (S.xmax - S.xmin) * r) / 2

/-- the entry of row `m` and column `n` (/repo/russell_pde/src/spc_1d.rs:475-505, /repo/russell_pde/src/spc_1d.rs:554-584); the matrices of the interpolator
are fetched here rather than once before the loops -/
def Spc1d.val (S : Spc1d) (alpha : ℝ) (m n : Nat) : Res ℝ := do
  let d1r ← S.interp.getDd1.unwrap
  let d2r ← S.interp.getDd2.unwrap
  let dr_dx := 2 / (S.xmax - S.xmin)
  let cx := dr_dx * dr_dx
  let on ← S.nbcs.enabledM m S.grid
  if on then do
    let v ← if m = 0 then do
        let d ← d1r.get m n
        ok (0 + -S.mkx * d * dr_dx)
      else ok 0
    if m = S.grid.nx - 1 then do
      let d ← d1r.get m n
      ok (v + S.mkx * d * dr_dx)
    else ok v
  else do
    let d ← d2r.get m n
    let v := S.mkx * d * cx
    if m = n then ok (v + alpha) else ok v

/-- what the assembly of the vectors reads -/
def Spc1d.data (S : Spc1d) : SpcData ℝ ℝ where
  h := S.equations
  npoint := S.grid.coords.length
  nside := 2
  sides := S.ebcs.sides
  ess := S.ebcs.functions
  nat := S.nbcs.functions
  nodesOn index := S.grid.getNodesOnSide (if index = 0 then .Xmin else .Xmax)
  isOn s m := if s = 0 then S.grid.isXmin m else S.grid.isXmax m
  onBoundary := S.grid.onBoundary
  coord m := do
    let r ← S.grid.coord m
    ok (S.mapCoord r)

/-- `get_matrices_sps` (/repo/russell_pde/src/spc_1d.rs:464-509) -/
def Spc1d.getMatricesSps (S : Spc1d) (alpha : ℝ) (extra : Nat) : Res (Coo ℝ × Coo ℝ) :=
  spcMatricesSps S.equations (S.grid.nx * S.grid.nx) S.grid.nx (S.val alpha) extra

/-- `get_matrices_lmm` (/repo/russell_pde/src/spc_1d.rs:541-605) -/
def Spc1d.getMatricesLmm (S : Spc1d) (alpha : ℝ) (extra : Nat) (getc : Bool) : Res (Coo ℝ × Option (Coo ℝ)) :=
  spcMatricesLmm S.equations (S.grid.nx * S.grid.nx) S.grid.nx (S.val alpha) extra getc

/-- `get_vectors_sps` (/repo/russell_pde/src/spc_1d.rs:630-672) -/
def Spc1d.getVectorsSps (S : Spc1d) (source : ℝ → ℝ) : Res (List ℝ × List ℝ × List ℝ) := S.data.getVectorsSps source

/-- `get_vectors_lmm` (/repo/russell_pde/src/spc_1d.rs:731-769) -/
def Spc1d.getVectorsLmm (S : Spc1d) (source : ℝ → ℝ) : Res (List ℝ × List ℝ) := S.data.getVectorsLmm source

/-- `solve_sps` (/repo/russell_pde/src/spc_1d.rs:275-296) -/
def Spc1d.solveSps (S : Spc1d) (solver : Coo ℝ → List ℝ → Res (List ℝ)) (alpha : ℝ) (source : ℝ → ℝ) : Res (List ℝ) := do
  S.ebcs.validate S.nbcs
  spcFinishSps S.equations (S.getMatricesSps alpha 0) (S.getVectorsSps source) solver

/-- `solve_lmm` (/repo/russell_pde/src/spc_1d.rs:327-346) -/
def Spc1d.solveLmm (S : Spc1d) (solver : Coo ℝ → List ℝ → Res (List ℝ)) (alpha : ℝ) (source : ℝ → ℝ) : Res (List ℝ) := do
  S.ebcs.validate S.nbcs
  spcFinishLmm S.equations (S.getMatricesLmm alpha 0 false) (S.getVectorsLmm source) solver

/-- `calculate_flow_vectors` (/repo/russell_pde/src/spc_1d.rs:371-387) -/
def Spc1d.calculateFlowVectors (S : Spc1d) (a : List ℝ) : Res (List ℝ) :=
  let neq := S.equations.neq
  if a.length ≠ neq then err "a.dim() must equal the number of equations"
  else do
    let d1r ← S.interp.getDd1.unwrap
    let dr_dx := 2 / (S.xmax - S.xmin)
    forRange 0 neq (List.replicate neq 0) fun m wwx => do
      let wx ← forRange 0 neq 0 fun n wx => do
        let d ← d1r.get m n
        let x ← vget a n
        ok (wx + S.mkx * d * dr_dx * x)
      vset wwx m wx

end

/-! ### The object -/

/-- the nodes: the Chebyshev-Gauss-Lobatto points mapped to the interval from `a` to `b` -/
noncomputable def cglNode (a b : ℝ) (nx m : Nat) : ℝ := (b + a + (b - a) * -Real.cos (m * Real.pi / ((nx - 1 : Nat) : ℝ))) / 2

/-- an `Spc1d` obtained with the public functions -/
structure SpcSetup1 (xmin xmax : ℝ) (nx : Nat) (eops : List (EOp1 ℝ)) (nops : List (Side × (ℝ → ℝ))) (kx : ℝ) (S : Spc1d) : Prop where
  he : ∀ s f, EOp1.set s f ∈ eops → s.isX = true
  hn : ∀ o ∈ nops, o.1.isX = true
  made : ∃ e n, runE1 eops = ok e ∧ runN1 nops = ok n ∧ Spc1d.new xmin xmax nx e n kx = ok S

/-- what is known about an `Spc1d` -/
structure Spc1d.Is (S : Spc1d) (a b : ℝ) (nx : Nat) (s0 s1 t0 t1 : Bool) (f0 f1 g0 g1 : ℝ → ℝ) (kx : ℝ) (P : List Nat) (d1 d2 : Nat → Nat → ℝ) : Prop where
  hx : 2 ≤ nx
  hx2 : nx ≤ 2049
  xmin : S.xmin = a
  xmax : S.xmax = b
  enx : S.grid.nx = nx
  nmin : S.grid.nodes_xmin = [0]
  nmax : S.grid.nodes_xmax = [nx - 1]
  coords : Lab.IsVec S.grid.coords nx (fun m => -Real.cos (m * Real.pi / ((nx - 1 : Nat) : ℝ)))
  per : S.ebcs.periodic_along_x = false
  sides : S.ebcs.sides = [s0, s1]
  nsides : S.nbcs.sides = [t0, t1]
  funs : S.ebcs.functions = [f0, f1]
  nat : S.nbcs.functions = [g0, g1]
  mkx : S.mkx = -kx
  canon : Canon S.equations nx P
  hP : ∀ m, m ∈ P ↔ (m = 0 ∧ s0 = true) ∨ (m = nx - 1 ∧ s1 = true)
  dd1 : ∃ D, S.interp.getDd1 = ok D ∧ IsDense D nx nx d1
  dd2 : ∃ D, S.interp.getDd2 = ok D ∧ IsDense D nx nx d2
  diff1 : ∀ p : ℝ[X], p.degree < nx → ∀ k, k < nx →
    ∑ j ∈ Finset.range nx, d1 k j * p.eval (-Real.cos (j * Real.pi / ((nx - 1 : Nat) : ℝ))) = p.derivative.eval (-Real.cos (k * Real.pi / ((nx - 1 : Nat) : ℝ)))
  diff2 : ∀ p : ℝ[X], p.degree < nx → ∀ k, k < nx →
    ∑ j ∈ Finset.range nx, d2 k j * p.eval (-Real.cos (j * Real.pi / ((nx - 1 : Nat) : ℝ))) =
      p.derivative.derivative.eval (-Real.cos (k * Real.pi / ((nx - 1 : Nat) : ℝ)))

theorem newCgl_1d {nx : Nat} (hx : 2 ≤ nx) : ∃ c, Grid1d.newCgl nx = ok { nx, coords := c, nodes_xmin := [0], nodes_xmax := [nx - 1] } ∧
    Lab.IsVec c nx (fun m => -Real.cos (m * Real.pi / ((nx - 1 : Nat) : ℝ))) := by
  unfold Grid1d.newCgl
  rw [if_neg (by omega)]
  obtain ⟨u, eu, lu, hu, _⟩ := Lab.C52_lobatto_points (nn := nx - 1) (by omega)
  rw [eu, ok_bind]
  exact ⟨u, rfl, by omega, fun i hi => hu i (by omega)⟩

theorem degree_lt_iff {nx : Nat} (hx : 1 ≤ nx) (p : ℝ[X]) : p.degree < nx ↔ p.degree ≤ ((nx - 1 : Nat) : WithBot ℕ) := by
  rw [Polynomial.degree_lt_iff_coeff_zero, Polynomial.degree_le_iff_coeff_zero]
  constructor
  · intro h m hm
    have : nx - 1 < m := by exact_mod_cast hm
    exact h m (by omega)
  · intro h m hm
    exact h m (by exact_mod_cast (by omega : nx - 1 < m))

theorem interp_none {nx : Nat} (h1 : 2 ≤ nx) (h2 : nx ≤ 2049) : ∃ s t u d1 d2, Lab.Interp.new (nx - 1) none = ok s ∧ s.calcDd1 = ok t ∧ t.calcDd2 = ok u ∧
    (∃ D, u.getDd1 = ok D ∧ IsDense D nx nx d1) ∧ (∃ D, u.getDd2 = ok D ∧ IsDense D nx nx d2) ∧
    (∀ p : ℝ[X], p.degree < nx → ∀ k, k < nx →
      ∑ j ∈ Finset.range nx, d1 k j * p.eval (-Real.cos (j * Real.pi / ((nx - 1 : Nat) : ℝ))) = p.derivative.eval (-Real.cos (k * Real.pi / ((nx - 1 : Nat) : ℝ)))) ∧
    (∀ p : ℝ[X], p.degree < nx → ∀ k, k < nx →
      ∑ j ∈ Finset.range nx, d2 k j * p.eval (-Real.cos (j * Real.pi / ((nx - 1 : Nat) : ℝ))) =
        p.derivative.derivative.eval (-Real.cos (k * Real.pi / ((nx - 1 : Nat) : ℝ)))) := by
  obtain ⟨s, u, e1, e2, _, r1, _, r2⟩ := Lab.Interp.C34_matrices (nn := nx - 1) (params := none) (by omega) (by omega)
    (by simp [Lab.InterpParams.new]) (by simp [Lab.InterpParams.new]) [false, true]
  simp only [Lab.Interp.run, Bool.false_eq_true, if_false, if_true] at e2
  rw [bind_eq_ok] at e2
  obtain ⟨t, et, e2⟩ := e2
  rw [bind_eq_ok] at e2
  obtain ⟨u', eu, e2⟩ := e2
  cases e2
  obtain ⟨D, eD, d1, hd1, q1⟩ := r1 (by simp)
  obtain ⟨D', eD', d2, hd2, q2⟩ := r2 (by simp)
  rw [Nat.sub_add_cancel (by omega)] at hd1 hd2 q1 q2
  exact ⟨s, t, u, d1, d2, e1, et, eu, ⟨D, eD, hd1⟩, ⟨D', eD', hd2⟩,
    fun p hp k hk => q1 p ((degree_lt_iff (by omega) p).1 hp) k (by omega), fun p hp k hk => q2 p ((degree_lt_iff (by omega) p).1 hp) k (by omega)⟩

/-- what `new` does -/
theorem spc1_new (a b : ℝ) {nx : Nat} (hx : 2 ≤ nx) (hx2 : nx ≤ 2049) {eops : List (EOp1 ℝ)} {nops : List (Side × (ℝ → ℝ))}
    (he : ∀ s f, EOp1.set s f ∈ eops → s.isX = true) (hn : ∀ o ∈ nops, o.1.isX = true) (kx : ℝ) :
    ∃ e n, runE1 eops = ok e ∧ runN1 nops = ok n ∧
    ((Per1 eops ∧ ∃ m, Spc1d.new a b nx e n kx = err m) ∨
      (¬ Per1 eops ∧ ∃ S s0 s1 t0 t1 f0 f1 g0 g1 P d1 d2, Spc1d.new a b nx e n kx = ok S ∧ S.ebcs = e ∧ S.nbcs = n ∧
        S.Is a b nx s0 s1 t0 t1 f0 f1 g0 g1 kx P d1 d2 ∧
        (s0 = true ↔ Ess1 eops .Xmin) ∧ (s1 = true ↔ Ess1 eops .Xmax) ∧
        (t0 = true ↔ ∃ o ∈ nops, o.1 = Side.Xmin) ∧ (t1 = true ↔ ∃ o ∈ nops, o.1 = Side.Xmax))) := by
  obtain ⟨e, ee, es⟩ := runE1_state eops he
  obtain ⟨n, en, hlen, t0, t1, hab, ht0, ht1⟩ := runN1_state nops hn
  obtain ⟨e', nodes, ee', hnodes, _, hmem, _⟩ := C47_get_nodes_1d eops he hx
  rw [ee] at ee'; cases ee'
  refine ⟨e, n, ee, en, ?_⟩
  obtain ⟨c, ec, hc⟩ := newCgl_1d hx
  obtain ⟨s0, s1, hs, h0, h1⟩ := es.sides
  obtain ⟨f0, f1, hf, _, _⟩ := es.funs
  obtain ⟨g0, g1, hg⟩ : ∃ g0 g1, n.functions = [g0, g1] := by
    match n.functions, hlen with
    | [x, y], _ => exact ⟨x, y, rfl⟩
  have hlt : ∀ p ∈ nodes, p < (EquationHandler.new nx).neq := by
    intro p hp
    rw [hmem] at hp
    show p < nx
    omega
  obtain ⟨h', er, hcan⟩ := recompute_canon (canon_new nx).isp (canon_new nx).iu (canon_new nx).ip hlt
  obtain ⟨s, t, u, d1, d2, i1, i2, i3, i4, i5, i6, i7⟩ := interp_none hx hx2
  unfold Spc1d.new
  rw [if_neg (by omega)]
  dsimp only
  rw [if_neg (by omega), ec, unwrap_ok, ok_bind]
  by_cases hp : e.periodic_along_x = true
  · left
    rw [if_pos hp]
    exact ⟨es.px.1 hp, _, rfl⟩
  · right
    rw [if_neg hp]
    refine ⟨fun h => hp (es.px.2 h), ?_⟩
    dsimp only
    rw [hnodes, ok_bind, er, ok_bind, i1, unwrap_ok, ok_bind, i2, ok_bind, i3, ok_bind]
    refine ⟨_, s0, s1, t0, t1, f0, f1, g0, g1, nodes, d1, d2, rfl, rfl, rfl, ⟨hx, hx2, rfl, rfl, rfl, rfl, rfl, hc, by simpa using hp, hs, hab, hf, hg, rfl, hcan,
      ?_, i4, i5, i6, i7⟩, h0, h1, ht0, ht1⟩
    intro m
    rw [hmem, h0, h1]

/-- **C93** `Spc1d::new` for any history of boundary conditions naming Xmin and Xmax only: fewer than two points, more than 2049 points, or a periodic
condition are errors; everything else is accepted. -/
theorem C93_new (a b : ℝ) (nx : Nat) {eops : List (EOp1 ℝ)} {nops : List (Side × (ℝ → ℝ))}
    (he : ∀ s f, EOp1.set s f ∈ eops → s.isX = true) (hn : ∀ o ∈ nops, o.1.isX = true) (kx : ℝ) :
    ∃ e n, runE1 eops = ok e ∧ runN1 nops = ok n ∧
      (2 ≤ nx ∧ nx ≤ 2049 ∧ ¬ Per1 eops →
        ∃ S, Spc1d.new a b nx e n kx = ok S ∧
          (∀ m, m ∈ S.equations.prescribed ↔ (m = 0 ∧ Ess1 eops .Xmin) ∨ (m = nx - 1 ∧ Ess1 eops .Xmax)) ∧
          ∀ m, m ∈ S.equations.unknown ↔ m < nx ∧ m ∉ S.equations.prescribed) ∧
      (¬ (2 ≤ nx ∧ nx ≤ 2049 ∧ ¬ Per1 eops) → ∃ msg, Spc1d.new a b nx e n kx = err msg) := by
  by_cases hx : 2 ≤ nx ∧ nx ≤ 2049
  · obtain ⟨e, n, ee, en, h⟩ := spc1_new a b hx.1 hx.2 he hn kx
    refine ⟨e, n, ee, en, ?_⟩
    rcases h with ⟨hp, m, hm⟩ | ⟨hp, S, s0, s1, t0, t1, f0, f1, g0, g1, P, d1, d2, eS, _, _, H, h0, h1, _, _⟩
    · exact ⟨fun h => absurd hp h.2.2, fun _ => ⟨m, hm⟩⟩
    · refine ⟨fun _ => ?_, fun h => absurd ⟨hx.1, hx.2, hp⟩ h⟩
      obtain ⟨l1, l2, _, _⟩ := H.canon.lists
      refine ⟨S, eS, ?_, ?_⟩
      · intro m
        rw [l2, mem_presc, H.hP, ← h0, ← h1]
        constructor
        · exact fun h => h.2
        · intro h; exact ⟨by omega, h⟩
      · intro m
        rw [l1, l2, mem_unkn, mem_presc]
        tauto
  · obtain ⟨e, ee, _⟩ := runE1_state eops he
    obtain ⟨n, en, _⟩ := runN1_state nops hn
    refine ⟨e, n, ee, en, ?_⟩
    refine ⟨fun h => absurd ⟨h.1, h.2.1⟩ hx, fun _ => ?_⟩
    unfold Spc1d.new
    by_cases h2 : nx < 2
    · rw [if_pos h2]; exact ⟨_, rfl⟩
    · rw [if_neg h2]
      dsimp only
      rw [if_pos (by omega)]
      exact ⟨_, rfl⟩

theorem spc_setup1_is {a b : ℝ} {nx : Nat} {eops : List (EOp1 ℝ)} {nops : List (Side × (ℝ → ℝ))} {kx : ℝ} {S : Spc1d}
    (H : SpcSetup1 a b nx eops nops kx S) : ∃ s0 s1 t0 t1 f0 f1 g0 g1 P d1 d2, S.Is a b nx s0 s1 t0 t1 f0 f1 g0 g1 kx P d1 d2 ∧
      ¬ Per1 eops ∧ (s0 = true ↔ Ess1 eops .Xmin) ∧ (s1 = true ↔ Ess1 eops .Xmax) ∧
      (t0 = true ↔ ∃ o ∈ nops, o.1 = Side.Xmin) ∧ (t1 = true ↔ ∃ o ∈ nops, o.1 = Side.Xmax) := by
  obtain ⟨e, n, ee, en, hS⟩ := H.made
  have hx : 2 ≤ nx ∧ nx ≤ 2049 := by
    unfold Spc1d.new at hS
    by_contra hx
    by_cases h2 : nx < 2
    · rw [if_pos h2] at hS; cases hS
    · rw [if_neg h2] at hS
      dsimp only at hS
      rw [if_pos (by omega)] at hS
      cases hS
  obtain ⟨e', n', ee', en', h⟩ := spc1_new a b hx.1 hx.2 H.he H.hn kx
  rw [ee] at ee'; cases ee'
  rw [en] at en'; cases en'
  rcases h with ⟨hp, m, hm⟩ | ⟨hp, S', s0, s1, t0, t1, f0, f1, g0, g1, P, d1, d2, eS, _, _, H, h⟩
  · rw [hm] at hS; cases hS
  · rw [eS] at hS; cases hS
    exact ⟨s0, s1, t0, t1, f0, f1, g0, g1, P, d1, d2, H, hp, h⟩

/-! ### Rows -/

section Rows

variable {S : Spc1d} {a b : ℝ} {nx : Nat} {s0 s1 t0 t1 : Bool} {f0 f1 g0 g1 : ℝ → ℝ} {kx : ℝ} {P : List Nat} {d1 d2 : Nat → Nat → ℝ}

/-- entries of the matrix -/
noncomputable def spcV1 (a b : ℝ) (nx : Nat) (t0 t1 : Bool) (kx alpha : ℝ) (d1 d2 : Nat → Nat → ℝ) (m n : Nat) : ℝ :=
  if m = 0 ∧ t0 = true then kx * (d1 m n * (2 / (b - a))) else if m ≠ 0 ∧ m = nx - 1 ∧ t1 = true then -kx * (d1 m n * (2 / (b - a)))
  else -kx * (d2 m n * (2 / (b - a)) * (2 / (b - a))) + if m = n then alpha else 0

theorem spc1_val (H : S.Is a b nx s0 s1 t0 t1 f0 f1 g0 g1 kx P d1 d2) (alpha : ℝ) {m n : Nat} (hm : m < nx) (hn : n < nx) :
    S.val alpha m n = ok (spcV1 a b nx t0 t1 kx alpha d1 d2 m n) := by
  have hx := H.hx
  obtain ⟨D, eD, hD⟩ := H.dd1
  obtain ⟨D', eD', hD'⟩ := H.dd2
  unfold Spc1d.val NaturalBcs1d.enabledM spcV1
  rw [eD, unwrap_ok, ok_bind, eD', unwrap_ok, ok_bind, H.nsides, H.enx, H.xmin, H.xmax, H.mkx]
  simp only [hD.get m n hm hn, hD'.get m n hm hn, ok_bind]
  have inner : (if m = n then (ok (-kx * d2 m n * (2 / (b - a) * (2 / (b - a))) + alpha) : Res ℝ) else ok (-kx * d2 m n * (2 / (b - a) * (2 / (b - a))))) =
      ok (-kx * (d2 m n * (2 / (b - a)) * (2 / (b - a))) + if m = n then alpha else 0) := by
    by_cases h : m = n
    · rw [if_pos h, if_pos h]; congr 1; ring
    · rw [if_neg h, if_neg h]; congr 1; ring
  by_cases h0 : m = 0
  · have hl : ¬ m = nx - 1 := by omega
    have c1 : ¬ (m ≠ 0 ∧ m = nx - 1 ∧ t1 = true) := fun h => h.1 h0
    rw [if_pos h0, if_pos h0, if_neg hl, if_neg c1]
    simp only [vget, List.getElem?_cons_zero, ok_bind]
    cases t0 with
    | true =>
      rw [if_pos rfl, if_pos ⟨h0, rfl⟩]
      congr 1; ring
    | false =>
      have c2 : ¬ (m = 0 ∧ false = true) := fun h => Bool.false_ne_true h.2
      rw [if_neg (by simp), if_neg c2]
      exact inner
  · have c2 : ¬ (m = 0 ∧ t0 = true) := fun h => h0 h.1
    rw [if_neg h0, if_neg h0, if_neg c2]
    by_cases hl : m = nx - 1
    · rw [if_pos hl]
      simp only [vget, List.getElem?_cons_succ, List.getElem?_cons_zero, ok_bind]
      cases t1 with
      | true =>
        rw [if_pos rfl, if_pos hl, if_pos ⟨h0, hl, rfl⟩]
        congr 1; ring
      | false =>
        have c1 : ¬ (m ≠ 0 ∧ m = nx - 1 ∧ false = true) := fun h => Bool.false_ne_true h.2.2
        rw [if_neg (by simp), if_neg c1]
        exact inner
    · have c1 : ¬ (m ≠ 0 ∧ m = nx - 1 ∧ t1 = true) := fun h => hl h.2.1
      rw [if_neg hl, ok_bind, if_neg (by simp), if_neg c1]
      exact inner

/-- the data of the vectors -/
theorem spc1_data (H : S.Is a b nx s0 s1 t0 t1 f0 f1 g0 g1 kx P d1 d2) :
    S.data.Is nx P (fun s => if s = 0 then s0 else s1) (fun s => if s = 0 then [0] else [nx - 1]) (fun s => if s = 0 then f0 else f1)
      (fun s => if s = 0 then g0 else g1) (cglNode a b nx) := by
  have hx := H.hx
  have two : ∀ {β : Type} (u v : β), Lab.IsVec [u, v] 2 (fun s => if s = 0 then u else v) := by
    intro β u v
    refine ⟨rfl, ?_⟩
    intro i hi
    match i, hi with
    | 0, _ => rfl
    | 1, _ => rfl
  refine ⟨H.canon, H.coords.len, ?_, ?_, ?_, ?_, ?_, ?_, ?_, ?_⟩
  · show Lab.IsVec S.ebcs.sides 2 _
    rw [H.sides]; exact two _ _
  · show Lab.IsVec S.ebcs.functions 2 _
    rw [H.funs]; exact two _ _
  · show Lab.IsVec S.nbcs.functions 2 _
    rw [H.nat]; exact two _ _
  · intro s hs
    show S.grid.getNodesOnSide _ = _
    by_cases h0 : s = 0
    · rw [if_pos h0, if_pos h0, ← H.nmin]; rfl
    · rw [if_neg h0, if_neg h0, ← H.nmax]; rfl
  · intro s _
    split <;> simp
  · intro s _ m hm
    split at hm <;> simp at hm <;> omega
  · intro m hm
    show (S.grid.coord m >>= fun r => ok (S.mapCoord r)) = _
    unfold Grid1d.coord Spc1d.mapCoord
    rw [H.coords.vget hm, ok_bind, H.xmin, H.xmax]
    rfl
  · intro m
    rw [H.hP]
    constructor
    · rintro (⟨h1, h2⟩ | ⟨h1, h2⟩)
      · exact ⟨0, by show 0 < 2; omega, by simpa using h2, by simpa using h1⟩
      · exact ⟨1, by show 1 < 2; omega, by simpa using h2, by simpa using h1⟩
    · rintro ⟨s, hs, h1, h2⟩
      by_cases h0 : s = 0
      · rw [if_pos h0] at h1 h2; left; exact ⟨by simpa using h2, h1⟩
      · rw [if_neg h0] at h1 h2; right; exact ⟨by simpa using h2, h1⟩

end Rows

/-! ### Polynomials -/

/-- the polynomial `p` satisfies the collocation equations: the differential equation at the inner nodes and at every end the value, or else the flow -/
def SpcColl1 (a b : ℝ) (nx : Nat) (kx alpha : ℝ) (source : ℝ → ℝ) (E0 E1 : Prop) (f0 f1 g0 g1 : ℝ → ℝ) (p : ℝ[X]) : Prop :=
  (∀ m, 0 < m → m < nx - 1 → -kx * p.derivative.derivative.eval (cglNode a b nx m) + alpha * p.eval (cglNode a b nx m) = source (cglNode a b nx m)) ∧
  (E0 → p.eval a = f0 a) ∧ (¬ E0 → kx * p.derivative.eval a = g0 a) ∧ (E1 → p.eval b = f1 b) ∧ (¬ E1 → -kx * p.derivative.eval b = g1 b)

theorem cglNode_zero (a b : ℝ) (nx : Nat) : cglNode a b nx 0 = a := by
  unfold cglNode
  rw [Nat.cast_zero, zero_mul, zero_div, Real.cos_zero]
  ring

theorem cglNode_last (a b : ℝ) {nx : Nat} (hx : 2 ≤ nx) : cglNode a b nx (nx - 1) = b := by
  unfold cglNode
  have : ((nx - 1 : Nat) : ℝ) ≠ 0 := by exact_mod_cast (by omega : nx - 1 ≠ 0)
  rw [mul_div_cancel_left₀ _ this, Real.cos_pi]
  ring

theorem cglNode_inj {a b : ℝ} (hab : a ≠ b) {nx : Nat} (hx : 2 ≤ nx) {m n : Nat} (hm : m < nx) (hn : n < nx) (h : cglNode a b nx m = cglNode a b nx n) : m = n := by
  have hd : b - a ≠ 0 := sub_ne_zero.2 (Ne.symm hab)
  have hN : (0 : ℝ) < ((nx - 1 : Nat) : ℝ) := by exact_mod_cast (by omega : 0 < nx - 1)
  unfold cglNode at h
  have hc : Real.cos (m * Real.pi / ((nx - 1 : Nat) : ℝ)) = Real.cos (n * Real.pi / ((nx - 1 : Nat) : ℝ)) := by
    have : (b - a) * (-Real.cos (m * Real.pi / ((nx - 1 : Nat) : ℝ))) = (b - a) * (-Real.cos (n * Real.pi / ((nx - 1 : Nat) : ℝ))) := by linarith
    exact neg_injective (mul_left_cancel₀ hd this)
  have hmem : ∀ k : Nat, k < nx → (k : ℝ) * Real.pi / ((nx - 1 : Nat) : ℝ) ∈ Set.Icc (0 : ℝ) Real.pi := by
    intro k hk
    have : (k : ℝ) ≤ ((nx - 1 : Nat) : ℝ) := by exact_mod_cast (by omega : k ≤ nx - 1)
    constructor
    · positivity
    · rw [div_le_iff₀ hN, mul_comm]
      exact mul_le_mul_of_nonneg_left this Real.pi_pos.le
  have := Real.injOn_cos (hmem m hm) (hmem n hn) hc
  rw [div_left_inj' hN.ne'] at this
  have := mul_right_cancel₀ Real.pi_pos.ne' this
  exact_mod_cast this

/-- pulling back to the reference interval -/
noncomputable def pull (a b : ℝ) (p : ℝ[X]) : ℝ[X] := p.comp (C ((b - a) / 2) * Polynomial.X + C ((b + a) / 2))

theorem pull_degree {a b : ℝ} {nx : Nat} (hx : 1 ≤ nx) {p : ℝ[X]} (hp : p.degree < nx) : (pull a b p).degree < nx := by
  rw [degree_lt_iff hx, ← Polynomial.natDegree_le_iff_degree_le] at hp ⊢
  unfold pull
  refine le_trans Polynomial.natDegree_comp_le ?_
  calc p.natDegree * (C ((b - a) / 2) * Polynomial.X + C ((b + a) / 2)).natDegree ≤ p.natDegree * 1 := Nat.mul_le_mul_left _ Polynomial.natDegree_linear_le
    _ ≤ nx - 1 := by omega

theorem pull_eval (a b : ℝ) (p : ℝ[X]) (r : ℝ) : (pull a b p).eval r = p.eval ((b + a + (b - a) * r) / 2) := by
  unfold pull
  rw [Polynomial.eval_comp]
  congr 1
  simp
  ring

theorem pull_derivative (a b : ℝ) (p : ℝ[X]) : (pull a b p).derivative = C ((b - a) / 2) * pull a b p.derivative := by
  unfold pull
  rw [Polynomial.derivative_comp]
  simp

section Coll

variable {S : Spc1d} {a b : ℝ} {nx : Nat} {s0 s1 t0 t1 : Bool} {f0 f1 g0 g1 : ℝ → ℝ} {kx : ℝ} {P : List Nat} {d1 d2 : Nat → Nat → ℝ}

theorem spc1_sum1 (H : S.Is a b nx s0 s1 t0 t1 f0 f1 g0 g1 kx P d1 d2) (hab : a ≠ b) {p : ℝ[X]} (hp : p.degree < nx) {k : Nat} (hk : k < nx) :
    ∑ j ∈ Finset.range nx, d1 k j * (2 / (b - a)) * p.eval (cglNode a b nx j) = p.derivative.eval (cglNode a b nx k) := by
  have hd : b - a ≠ 0 := sub_ne_zero.2 (Ne.symm hab)
  have := H.diff1 (pull a b p) (pull_degree (by have := H.hx; omega) hp) k hk
  rw [pull_derivative, Polynomial.eval_mul, Polynomial.eval_C, pull_eval] at this
  simp only [pull_eval] at this
  change ∑ j ∈ Finset.range nx, d1 k j * p.eval (cglNode a b nx j) = (b - a) / 2 * p.derivative.eval (cglNode a b nx k) at this
  rw [show p.derivative.eval (cglNode a b nx k) = 2 / (b - a) * ((b - a) / 2 * p.derivative.eval (cglNode a b nx k)) by field_simp, ← this, Finset.mul_sum]
  exact Finset.sum_congr rfl fun j _ => by ring

theorem spc1_sum2 (H : S.Is a b nx s0 s1 t0 t1 f0 f1 g0 g1 kx P d1 d2) (hab : a ≠ b) {p : ℝ[X]} (hp : p.degree < nx) {k : Nat} (hk : k < nx) :
    ∑ j ∈ Finset.range nx, d2 k j * (2 / (b - a)) * (2 / (b - a)) * p.eval (cglNode a b nx j) = p.derivative.derivative.eval (cglNode a b nx k) := by
  have hd : b - a ≠ 0 := sub_ne_zero.2 (Ne.symm hab)
  have := H.diff2 (pull a b p) (pull_degree (by have := H.hx; omega) hp) k hk
  rw [pull_derivative, Polynomial.derivative_C_mul, pull_derivative, Polynomial.eval_mul, Polynomial.eval_mul, Polynomial.eval_C, pull_eval] at this
  simp only [pull_eval] at this
  change ∑ j ∈ Finset.range nx, d2 k j * p.eval (cglNode a b nx j) = (b - a) / 2 * ((b - a) / 2 * p.derivative.derivative.eval (cglNode a b nx k)) at this
  rw [show p.derivative.derivative.eval (cglNode a b nx k) =
    2 / (b - a) * (2 / (b - a)) * ((b - a) / 2 * ((b - a) / 2 * p.derivative.derivative.eval (cglNode a b nx k))) by field_simp, ← this, Finset.mul_sum]
  exact Finset.sum_congr rfl fun j _ => by ring

/-- one row applied to the nodal values of a polynomial -/
theorem spc1_row (H : S.Is a b nx s0 s1 t0 t1 f0 f1 g0 g1 kx P d1 d2) (hab : a ≠ b) (alpha : ℝ) {p : ℝ[X]} (hp : p.degree < nx) {m : Nat} (hm : m < nx) :
    ∑ n ∈ Finset.range nx, spcV1 a b nx t0 t1 kx alpha d1 d2 m n * p.eval (cglNode a b nx n) =
      if m = 0 ∧ t0 = true then kx * p.derivative.eval a else if m ≠ 0 ∧ m = nx - 1 ∧ t1 = true then -kx * p.derivative.eval b
      else -kx * p.derivative.derivative.eval (cglNode a b nx m) + alpha * p.eval (cglNode a b nx m) := by
  unfold spcV1
  by_cases h0 : m = 0 ∧ t0 = true
  · simp only [if_pos h0]
    have : a = cglNode a b nx m := by rw [h0.1, cglNode_zero]
    conv_rhs => rw [this]
    rw [← spc1_sum1 H hab hp hm, Finset.mul_sum]
    exact Finset.sum_congr rfl fun n _ => by ring
  · simp only [if_neg h0]
    by_cases h1 : m ≠ 0 ∧ m = nx - 1 ∧ t1 = true
    · simp only [if_pos h1]
      have : b = cglNode a b nx m := by rw [h1.2.1, cglNode_last a b H.hx]
      conv_rhs => rw [this]
      rw [← spc1_sum1 H hab hp hm, Finset.mul_sum]
      exact Finset.sum_congr rfl fun n _ => by ring
    · simp only [if_neg h1]
      rw [← spc1_sum2 H hab hp hm, Finset.mul_sum]
      have : ∑ n ∈ Finset.range nx, (if m = n then alpha else 0) * p.eval (cglNode a b nx n) = alpha * p.eval (cglNode a b nx m) := by
        rw [Finset.sum_eq_single m]
        · rw [if_pos rfl]
        · intro n _ hn; rw [if_neg (Ne.symm hn), zero_mul]
        · intro h; exact absurd (Finset.mem_range.2 hm) h
      rw [← this, ← Finset.sum_add_distrib]
      exact Finset.sum_congr rfl fun n _ => by ring

/-- data of the nodes -/
noncomputable def collR (a b : ℝ) (nx : Nat) (g0 g1 source : ℝ → ℝ) (m : Nat) : ℝ :=
  if m = 0 then g0 a else if m = nx - 1 then g1 b else source (cglNode a b nx m)

/-- values of the nodes -/
noncomputable def collD (a b : ℝ) (nx : Nat) (f0 f1 : ℝ → ℝ) (m : Nat) : ℝ := if m = nx - 1 then f1 b else f0 a

theorem spc1_coll (H : S.Is a b nx s0 s1 t0 t1 f0 f1 g0 g1 kx P d1 d2) (hab : a ≠ b) (h0 : t0 = !s0) (h1 : t1 = !s1) (alpha : ℝ)
    (F0 F1 G0 G1 source : ℝ → ℝ) {p : ℝ[X]} (hp : p.degree < nx) :
    IsColl nx P (spcV1 a b nx t0 t1 kx alpha d1 d2) (collR a b nx G0 G1 source) (collD a b nx F0 F1) (fun m => p.eval (cglNode a b nx m)) ↔
      SpcColl1 a b nx kx alpha source (s0 = true) (s1 = true) F0 F1 G0 G1 p := by
  have hx := H.hx
  unfold IsColl
  have hrow : ∀ m, m < nx → _ := fun m hm => spc1_row H hab alpha hp hm
  constructor
  · rintro ⟨q1, q2⟩
    refine ⟨?_, ?_, ?_, ?_, ?_⟩
    · intro m hm0 hm
      have := q1 m (by omega) (by rw [H.hP]; omega)
      rw [hrow m (by omega)] at this
      unfold collR at this
      rwa [if_neg (by omega), if_neg (by omega), if_neg (by omega), if_neg (by omega)] at this
    · intro hs
      have := q2 0 ((H.hP 0).2 (Or.inl ⟨rfl, hs⟩))
      unfold collD at this
      dsimp only at this
      rwa [cglNode_zero, if_neg (by omega)] at this
    · intro hs
      have hs : s0 = false := by simpa using hs
      subst hs
      have := q1 0 (by omega) (by rw [H.hP]; simp; omega)
      rw [hrow 0 (by omega)] at this
      unfold collR at this
      rwa [if_pos ⟨rfl, h0⟩, if_pos rfl] at this
    · intro hs
      have := q2 (nx - 1) ((H.hP _).2 (Or.inr ⟨rfl, hs⟩))
      unfold collD at this
      dsimp only at this
      rwa [cglNode_last a b hx, if_pos rfl] at this
    · intro hs
      have hs : s1 = false := by simpa using hs
      subst hs
      have := q1 (nx - 1) (by omega) (by rw [H.hP]; simp; omega)
      rw [hrow (nx - 1) (by omega)] at this
      unfold collR at this
      rwa [if_neg (by omega), if_pos ⟨by omega, rfl, h1⟩, if_neg (by omega), if_pos rfl] at this
  · rintro ⟨q1, q2, q3, q4, q5⟩
    refine ⟨?_, ?_⟩
    · intro m hm hmP
      rw [hrow m hm]
      rw [H.hP] at hmP
      unfold collR
      by_cases hm0 : m = 0
      · have hs : ¬ s0 = true := fun h => hmP (Or.inl ⟨hm0, h⟩)
        rw [if_pos ⟨hm0, by rw [h0]; simpa using hs⟩, if_pos hm0]
        exact q3 hs
      · by_cases hm1 : m = nx - 1
        · have hs : ¬ s1 = true := fun h => hmP (Or.inr ⟨hm1, h⟩)
          rw [if_neg (by omega), if_pos ⟨hm0, hm1, by rw [h1]; simpa using hs⟩, if_neg hm0, if_pos hm1]
          exact q5 hs
        · rw [if_neg (by omega), if_neg (by omega), if_neg hm0, if_neg hm1]
          exact q1 m (by omega) (by omega)
    · intro m hmP
      rw [H.hP] at hmP
      unfold collD
      dsimp only
      by_cases hm1 : m = nx - 1
      · subst hm1
        rw [if_pos rfl, cglNode_last a b hx]
        exact q4 (by
          rcases hmP with ⟨h, _⟩ | ⟨_, h⟩
          · omega
          · exact h)
      · rcases hmP with ⟨h, hs⟩ | ⟨h, _⟩
        · subst h
          rw [if_neg hm1, cglNode_zero]
          exact q2 hs
        · exact absurd h hm1

/-- the data read by the program -/
theorem spc1_RD (H : S.Is a b nx s0 s1 t0 t1 f0 f1 g0 g1 kx P d1 d2) (source : ℝ → ℝ) {V : Nat → Nat → ℝ} {W : Nat → ℝ} :
    IsColl nx P V (S.data.R (fun s => if s = 0 then g0 else g1) (cglNode a b nx) source)
      (dval (fun s => if s = 0 then s0 else s1) (fun s => if s = 0 then [0] else [nx - 1]) (fun s => if s = 0 then f0 else f1) (cglNode a b nx) S.data.nside) W ↔
    IsColl nx P V (collR a b nx g0 g1 source) (collD a b nx f0 f1) W := by
  have hx := H.hx
  apply IsColl.congr
  · intro p hp; rw [H.hP] at hp; omega
  · intro m hm _
    unfold SpcData.R collR
    show (if S.grid.onBoundary m = true then ∑ s ∈ Finset.range 2, (if (if s = 0 then S.grid.isXmin m else S.grid.isXmax m) = true then _ else 0) else _) = _
    unfold Grid1d.onBoundary Grid1d.isXmin Grid1d.isXmax
    rw [H.enx, Finset.sum_range_succ, Finset.sum_range_one]
    by_cases h0 : m = 0
    · subst h0
      rw [if_pos (by simp), if_pos (by simp), if_neg (by simp; omega), if_pos rfl, cglNode_zero, add_zero]
      rfl
    · by_cases h1 : m = nx - 1
      · rw [if_pos (by simp [h1]), if_neg (by simp [h0]), if_pos (by simp [h1]), if_neg h0, if_pos h1, h1, cglNode_last a b hx, zero_add]
        rfl
      · rw [if_neg (by simp [h0, h1]), if_neg h0, if_neg h1]
  · intro p hp
    rw [H.hP] at hp
    show dval _ _ _ _ 2 p = _
    unfold dval dval collD
    simp only [one_ne_zero, if_false, if_true, List.mem_singleton]
    by_cases h1 : p = nx - 1
    · rcases hp with ⟨h, _⟩ | ⟨_, h⟩
      · omega
      · rw [if_pos ⟨h, h1⟩, if_pos h1, h1, cglNode_last a b hx]
    · rcases hp with ⟨h, hs⟩ | ⟨h, _⟩
      · rw [if_neg (fun h => h1 h.2), if_neg h1, if_pos ⟨hs, h⟩, h, cglNode_zero]
      · exact absurd h h1

/-- nodal values belong to a polynomial -/
theorem cgl_interp {a b : ℝ} (hab : a ≠ b) {nx : Nat} (hx : 2 ≤ nx) (W : Nat → ℝ) : ∃ p : ℝ[X], p.degree < nx ∧ ∀ m, m < nx → p.eval (cglNode a b nx m) = W m := by
  have hinj : Set.InjOn (cglNode a b nx) (Finset.range nx) := by
    intro m hm n hn h
    exact cglNode_inj hab hx (Finset.mem_range.1 hm) (Finset.mem_range.1 hn) h
  refine ⟨Lagrange.interpolate (Finset.range nx) (cglNode a b nx) W, ?_, ?_⟩
  · have := Lagrange.degree_interpolate_lt W hinj
    rwa [Finset.card_range] at this
  · intro m hm
    exact Lagrange.eval_interpolate_at_node W hinj (Finset.mem_range.2 hm)

theorem isColl_congr_W {neq : Nat} {P : List Nat} {V : Nat → Nat → ℝ} {R D W W' : Nat → ℝ} (hP : ∀ p ∈ P, p < neq) (h : ∀ m, m < neq → W m = W' m) :
    IsColl neq P V R D W ↔ IsColl neq P V R D W' := by
  unfold IsColl
  have h1 : ∀ m, ∑ n ∈ Finset.range neq, V m n * W n = ∑ n ∈ Finset.range neq, V m n * W' n :=
    fun m => Finset.sum_congr rfl fun n hn => by rw [h n (Finset.mem_range.1 hn)]
  constructor
  · rintro ⟨q1, q2⟩
    exact ⟨fun m hm hmP => by rw [← h1]; exact q1 m hm hmP, fun p hp => by rw [← h p (hP p hp)]; exact q2 p hp⟩
  · rintro ⟨q1, q2⟩
    exact ⟨fun m hm hmP => by rw [h1]; exact q1 m hm hmP, fun p hp => by rw [h p (hP p hp)]; exact q2 p hp⟩

theorem validate1 (H : S.Is a b nx s0 s1 t0 t1 f0 f1 g0 g1 kx P d1 d2) : S.ebcs.validate S.nbcs = ok () ↔ t0 = (!s0) ∧ t1 = !s1 := by
  unfold EssentialBcs1d.validate
  rw [H.sides, H.nsides, H.per]
  simp only [vget, List.getElem?_cons_succ, List.getElem?_cons_zero, ok_bind]
  cases s0 <;> cases s1 <;> cases t0 <;> cases t1 <;> simp [notBoth, axisTest] <;> rfl

theorem spc1_P (H : S.Is a b nx s0 s1 t0 t1 f0 f1 g0 g1 kx P d1 d2) : ∀ p ∈ P, p < nx := by
  intro p hp
  have := H.hx
  rw [H.hP] at hp
  omega

end Coll

/-! ### The theorems -/

section Main

variable {S : Spc1d} {a b : ℝ} {nx : Nat} {eops : List (EOp1 ℝ)} {nops : List (Side × (ℝ → ℝ))} {kx : ℝ}

theorem spc1_pp {s0 s1 t0 t1 : Bool} {f0 f1 g0 g1 : ℝ → ℝ} {P : List Nat} {d1 d2 : Nat → Nat → ℝ}
    (H : S.Is a b nx s0 s1 t0 t1 f0 f1 g0 g1 kx P d1 d2) :
    (pp P nx = 0 ↔ s0 = false ∧ s1 = false) ∧ (pu P nx = 0 ↔ nx = 2 ∧ s0 = true ∧ s1 = true) := by
  have hx := H.hx
  constructor
  · rw [pp_eq_zero (spc1_P H), List.eq_nil_iff_forall_not_mem]
    constructor
    · intro h
      constructor
      · rw [← Bool.not_eq_true]; exact fun hs => h 0 ((H.hP 0).2 (Or.inl ⟨rfl, hs⟩))
      · rw [← Bool.not_eq_true]; exact fun hs => h (nx - 1) ((H.hP _).2 (Or.inr ⟨rfl, hs⟩))
    · rintro ⟨rfl, rfl⟩ m hm
      rw [H.hP] at hm
      simp at hm
  · constructor
    · intro h
      have hall : ∀ m, m < nx → m ∈ P := by
        intro m hm
        by_contra hmP
        have := pu_lt hm hmP
        omega
      have h2 : nx = 2 := by
        by_contra h2
        have := (H.hP 1).1 (hall 1 (by omega))
        omega
      refine ⟨h2, ?_, ?_⟩
      · rcases (H.hP 0).1 (hall 0 (by omega)) with h | h
        · exact h.2
        · omega
      · rcases (H.hP (nx - 1)).1 (hall (nx - 1) (by omega)) with h | h
        · omega
        · exact h.2
    · rintro ⟨h2, h0, h1⟩
      by_contra hne
      obtain ⟨m, hm, hmP, _⟩ := pu_surj (P := P) (n := nx) (i := 0) (by omega)
      rcases (by omega : m = 0 ∨ m = nx - 1) with h | h
      · exact hmP ((H.hP m).2 (Or.inl ⟨h, h0⟩))
      · exact hmP ((H.hP m).2 (Or.inr ⟨h, h1⟩))

/-- **C93** What the two strategies return, for any linear solver that returns solutions only: the values, at the mapped Chebyshev-Gauss-Lobatto nodes, of a
polynomial of degree less than the number of nodes that satisfies the differential equation at the inner nodes and at each end either the prescribed value or
the prescribed flow. -/
theorem C93_solve (H : SpcSetup1 a b nx eops nops kx S) (hab : a ≠ b) {solver : Coo ℝ → List ℝ → Res (List ℝ)} (hsol : Solves solver) {alpha : ℝ}
    {source : ℝ → ℝ} {r : List ℝ} (hr : S.solveSps solver alpha source = ok r ∨ S.solveLmm solver alpha source = ok r) :
    ∃ f0 f1 g0 g1, S.ebcs.functions = [f0, f1] ∧ S.nbcs.functions = [g0, g1] ∧ ∃ p : ℝ[X], p.degree < nx ∧ r.length = nx ∧
      (∀ m, m < nx → r[m]? = some (p.eval (cglNode a b nx m))) ∧
      SpcColl1 a b nx kx alpha source (Ess1 eops .Xmin) (Ess1 eops .Xmax) f0 f1 g0 g1 p := by
  obtain ⟨s0, s1, t0, t1, f0, f1, g0, g1, P, d1, d2, I, _, h0, h1, _, _⟩ := spc_setup1_is H
  have hx := I.hx
  have hx2 := I.hx2
  refine ⟨f0, f1, g0, g1, I.funs, I.nat, ?_⟩
  have hval : S.ebcs.validate S.nbcs = ok () := by
    cases hv : S.ebcs.validate S.nbcs with
    | ok u => rfl
    | err m => rcases hr with hr | hr <;> (first | unfold Spc1d.solveSps at hr | unfold Spc1d.solveLmm at hr) <;> rw [hv] at hr <;> cases hr
    | panic => rcases hr with hr | hr <;> (first | unfold Spc1d.solveSps at hr | unfold Spc1d.solveLmm at hr) <;> rw [hv] at hr <;> cases hr
  obtain ⟨v0, v1⟩ := (validate1 I).1 hval
  have hW : ∃ W, Lab.IsVec r nx W ∧ IsColl nx P (spcV1 a b nx t0 t1 kx alpha d1 d2) (collR a b nx g0 g1 source) (collD a b nx f0 f1) W := by
    rcases hr with hr | hr
    · unfold Spc1d.solveSps Spc1d.getMatricesSps Spc1d.getVectorsSps at hr
      rw [hval, ok_bind, I.enx] at hr
      by_cases hz : S.equations.nu = 0 ∨ S.equations.np = 0
      · rw [spcSps_panic _ _ _ _ _ hz] at hr; cases hr
      · obtain ⟨_, _, l3, l4⟩ := I.canon.lists
        rw [l3, l4] at hz
        obtain ⟨ac, fb, ev, v⟩ := (spc1_data I).vectorsSps (by omega) source
        rw [ev] at hr
        rcases spcSps_sol I.canon (spc1_P I) (by omega) (fun m n hm hn => spc1_val I alpha hm hn) (by omega) (by omega) 0 v hsol with ⟨kk, fb', h⟩ | ⟨r', W, e, q1, q2⟩
        · exfalso
          rcases h with ⟨_, m, hm⟩ | ⟨_, hm⟩ <;> rw [hm] at hr <;> cases hr
        · rw [e] at hr; cases hr
          exact ⟨W, q1, (spc1_RD I source).1 q2⟩
    · unfold Spc1d.solveLmm Spc1d.getMatricesLmm Spc1d.getVectorsLmm at hr
      rw [hval, ok_bind, I.enx] at hr
      obtain ⟨ff, ev, v⟩ := (spc1_data I).vectorsLmm (by omega) source
      rw [ev] at hr
      rcases spcLmm_sol I.canon (spc1_P I) (by omega) (by omega) (fun m n hm hn => spc1_val I alpha hm hn) 0 v hsol with ⟨kk, h⟩ | ⟨r', W, e, q1, q2⟩
      · exfalso
        rcases h with ⟨_, m, hm⟩ | ⟨_, hm⟩ <;> rw [hm] at hr <;> cases hr
      · rw [e] at hr; cases hr
        exact ⟨W, q1, (spc1_RD I source).1 q2⟩
  obtain ⟨W, hW, hc⟩ := hW
  obtain ⟨p, hp, hpW⟩ := cgl_interp hab hx W
  refine ⟨p, hp, hW.len, ?_, ?_⟩
  · intro m hm
    rw [hW.get m hm, hpW m hm]
  · rw [← h0, ← h1]
    exact (spc1_coll I hab v0 v1 alpha f0 f1 g0 g1 source hp).1 ((isColl_congr_W (spc1_P I) (fun m hm => (hpW m hm).symm)).1 hc)

/-- **C93** The two systems, for any polynomial of degree less than the number of nodes: its values at the unknown nodes solve the partitioned system and its values at the
other nodes are the prescribed ones exactly when it satisfies the collocation equations; and this is also when its nodal values are the first part of a solution of
the system with multipliers. -/
theorem C93_systems (H : SpcSetup1 a b nx eops nops kx S) (hab : a ≠ b) (hval : S.ebcs.validate S.nbcs = ok ()) (alpha : ℝ) (source : ℝ → ℝ) (extra : Nat) :
    ∃ f0 f1 g0 g1 z ac fb z' ff, S.ebcs.functions = [f0, f1] ∧ S.nbcs.functions = [g0, g1] ∧
      S.getVectorsSps source = ok (z, ac, fb) ∧ S.getVectorsLmm source = ok (z', ff) ∧
    (S.equations.nu ≠ 0 → S.equations.np ≠ 0 → ∃ kk kc A α Bm β, S.getMatricesSps alpha extra = ok (kk, kc) ∧
      kk.asDense = ok A ∧ IsDense A S.equations.nu S.equations.nu α ∧ kc.asDense = ok Bm ∧ IsDense Bm S.equations.nu S.equations.np β ∧
      ∀ p : ℝ[X], p.degree < nx →
        (((∀ i, i < S.equations.nu → ∑ j ∈ Finset.range S.equations.nu, α i j * p.eval (cglNode a b nx (S.equations.unknown.getD j 0)) +
          ∑ j ∈ Finset.range S.equations.np, β i j * ac.getD j 0 = fb.getD i 0) ∧
        ∀ j, j < S.equations.np → p.eval (cglNode a b nx (S.equations.prescribed.getD j 0)) = ac.getD j 0) ↔
        SpcColl1 a b nx kx alpha source (Ess1 eops .Xmin) (Ess1 eops .Xmax) f0 f1 g0 g1 p)) ∧
    ∃ mm M μ, S.getMatricesLmm alpha extra false = ok (mm, none) ∧
      mm.asDense = ok M ∧ IsDense M (nx + S.equations.np) (nx + S.equations.np) μ ∧
      ∀ p : ℝ[X], p.degree < nx →
        ((∃ y : Nat → ℝ, (∀ m, m < nx → y m = p.eval (cglNode a b nx m)) ∧ ∀ i, i < nx + S.equations.np →
          ∑ j ∈ Finset.range (nx + S.equations.np), μ i j * y j = ff.getD i 0) ↔
        SpcColl1 a b nx kx alpha source (Ess1 eops .Xmin) (Ess1 eops .Xmax) f0 f1 g0 g1 p) := by
  obtain ⟨s0, s1, t0, t1, f0, f1, g0, g1, P, d1, d2, I, _, h0, h1, _, _⟩ := spc_setup1_is H
  have hx := I.hx
  have hx2 := I.hx2
  obtain ⟨v0, v1⟩ := (validate1 I).1 hval
  obtain ⟨ac, fb, ev, v⟩ := (spc1_data I).vectorsSps (by omega) source
  obtain ⟨ff, ev', v'⟩ := (spc1_data I).vectorsLmm (by omega) source
  refine ⟨f0, f1, g0, g1, _, ac, fb, _, ff, I.funs, I.nat, ev, ev', ?_⟩
  obtain ⟨r1, r2⟩ := spc_systems I.canon (spc1_P I) (by omega) (by omega) (fun m n hm hn => spc1_val I alpha hm hn) extra v v'
  obtain ⟨_, _, l3, l4⟩ := I.canon.lists
  unfold Spc1d.getMatricesSps Spc1d.getMatricesLmm
  rw [I.enx, ← h0, ← h1]
  constructor
  · intro hu hp
    obtain ⟨kk, kc, A, α, Bm, β, e1, e2, e3, e4, e5, e6⟩ := r1 (by rw [← l3]; omega) (by rw [← l4]; omega)
    refine ⟨kk, kc, A, α, Bm, β, e1, e2, e3, e4, e5, ?_⟩
    intro p hp
    rw [← spc1_coll I hab v0 v1 alpha f0 f1 g0 g1 source hp, ← spc1_RD I source]
    exact e6 (fun m => p.eval (cglNode a b nx m))
  · obtain ⟨mm, M, μ, e1, e2, e3, e4⟩ := r2
    refine ⟨mm, M, μ, e1, e2, e3, ?_⟩
    intro p hp
    rw [← spc1_coll I hab v0 v1 alpha f0 f1 g0 g1 source hp, ← spc1_RD I source]
    exact e4 (fun m => p.eval (cglNode a b nx m))

theorem degree_deriv2 {nx : Nat} {p : ℝ[X]} (hp : p.degree < nx) : p.derivative.derivative.degree < ((nx - 2 : Nat) : WithBot ℕ) := by
  rw [Polynomial.degree_lt_iff_coeff_zero] at hp ⊢
  intro m hm
  rw [Polynomial.coeff_derivative, Polynomial.coeff_derivative, hp (m + 1 + 1) (by omega)]
  simp

/-- without the term `α ϕ` and with at least one prescribed value the collocation equations have one solution at most -/
theorem coll1_unique (hx : 2 ≤ nx) (hab : a ≠ b) (hk : kx ≠ 0) {source f0 f1 g0 g1 : ℝ → ℝ} {E0 E1 : Prop} (hE : E0 ∨ E1) {p q : ℝ[X]} (hp : p.degree < nx) (hq : q.degree < nx)
    (cp : SpcColl1 a b nx kx 0 source E0 E1 f0 f1 g0 g1 p) (cq : SpcColl1 a b nx kx 0 source E0 E1 f0 f1 g0 g1 q) : p = q := by
  obtain ⟨p1, p2, p3, p4, p5⟩ := cp
  obtain ⟨q1, q2, q3, q4, q5⟩ := cq
  have he : (p - q).degree < nx := lt_of_le_of_lt (Polynomial.degree_sub_le p q) (max_lt hp hq)
  have h2 : (p - q).derivative.derivative = 0 := by
    refine Polynomial.eq_zero_of_degree_lt_of_eval_index_eq_zero (s := Finset.Ioo 0 (nx - 1)) (v := cglNode a b nx) ?_ ?_ ?_
    · intro m hm n hn h
      rw [Finset.mem_coe, Finset.mem_Ioo] at hm hn
      exact cglNode_inj hab hx (by omega) (by omega) h
    · rw [Nat.card_Ioo, show nx - 1 - 0 - 1 = nx - 2 by omega]
      exact degree_deriv2 he
    · intro m hm
      rw [Finset.mem_Ioo] at hm
      have e1 := p1 m hm.1 hm.2
      have e2 := q1 m hm.1 hm.2
      rw [← e2] at e1
      have : kx * (p.derivative.derivative.eval (cglNode a b nx m) - q.derivative.derivative.eval (cglNode a b nx m)) = 0 := by linarith
      simpa [hk] using this
  have hc := Polynomial.derivative_eq_zero.1 h2
  rw [Polynomial.natDegree_eq_zero] at hc
  obtain ⟨c, hc⟩ := hc
  have h3 : (p - q - C c * Polynomial.X).derivative = 0 := by
    rw [Polynomial.derivative_sub, ← hc]; simp
  have hd := Polynomial.derivative_eq_zero.1 h3
  rw [Polynomial.natDegree_eq_zero] at hd
  obtain ⟨d, hd⟩ := hd
  have hpq : p - q = C d + C c * Polynomial.X := by rw [hd]; ring
  have ev : ∀ x, p.eval x - q.eval x = d + c * x := by
    intro x
    rw [← Polynomial.eval_sub, hpq]; simp
  have ev' : ∀ x, p.derivative.eval x - q.derivative.eval x = c := by
    intro x
    rw [← Polynomial.eval_sub, ← Polynomial.derivative_sub, ← hc]; simp
  have hd' : a - b ≠ 0 := sub_ne_zero.2 hab
  have fin : c = 0 → d = 0 → p = q := by
    intro h1 h2
    rw [h1, h2] at hpq
    exact sub_eq_zero.1 (by rw [hpq]; simp)
  by_cases h0 : E0
  · have e0 : d + c * a = 0 := by rw [← ev, p2 h0, q2 h0, sub_self]
    have hc0 : c = 0 := by
      by_cases h1 : E1
      · have e1 : d + c * b = 0 := by rw [← ev, p4 h1, q4 h1, sub_self]
        have : c * (a - b) = 0 := by linear_combination e0 - e1
        exact (mul_eq_zero.1 this).resolve_right hd'
      · have : kx * c = 0 := by rw [← ev' b]; linear_combination q5 h1 - p5 h1
        exact (mul_eq_zero.1 this).resolve_left hk
    refine fin hc0 ?_
    rw [hc0] at e0; linarith
  · have h1 : E1 := hE.resolve_left h0
    have e1 : d + c * b = 0 := by rw [← ev, p4 h1, q4 h1, sub_self]
    have hc0 : c = 0 := by
      have : kx * c = 0 := by rw [← ev' a]; linear_combination p3 h0 - q3 h0
      exact (mul_eq_zero.1 this).resolve_left hk
    refine fin hc0 ?_
    rw [hc0] at e1; linarith

theorem coll1_zero {alpha : ℝ} {E0 E1 : Prop} : SpcColl1 a b nx kx alpha (fun _ => 0) E0 E1 (fun _ => 0) (fun _ => 0) (fun _ => 0) (fun _ => 0) (0 : ℝ[X]) := by
  refine ⟨?_, ?_, ?_, ?_, ?_⟩ <;> simp

/-- **C93** If a polynomial satisfies the collocation equations and the linear solver finds a solution whenever there is one, `solve_lmm` succeeds, and so does `solve_sps`
if there are unknown and prescribed nodes. -/
theorem C93_complete (H : SpcSetup1 a b nx eops nops kx S) (hab : a ≠ b) (hval : S.ebcs.validate S.nbcs = ok ()) {alpha : ℝ} {source : ℝ → ℝ}
    {f0 f1 g0 g1 : ℝ → ℝ} (hf : S.ebcs.functions = [f0, f1]) (hg : S.nbcs.functions = [g0, g1]) {p : ℝ[X]} (hp : p.degree < nx)
    (hc : SpcColl1 a b nx kx alpha source (Ess1 eops .Xmin) (Ess1 eops .Xmax) f0 f1 g0 g1 p) {solver : Coo ℝ → List ℝ → Res (List ℝ)} (hsol : Solves solver)
    (hcomp : Complete solver) :
    (∃ r, S.solveLmm solver alpha source = ok r) ∧ (S.equations.nu ≠ 0 → S.equations.np ≠ 0 → ∃ r, S.solveSps solver alpha source = ok r) := by
  obtain ⟨s0, s1, t0, t1, f0', f1', g0', g1', P, d1, d2, I, _, h0, h1, _, _⟩ := spc_setup1_is H
  have hx := I.hx
  have hx2 := I.hx2
  obtain ⟨v0, v1⟩ := (validate1 I).1 hval
  have hf' := I.funs
  have hg' := I.nat
  rw [hf] at hf'; cases hf'
  rw [hg] at hg'; cases hg'
  rw [← h0, ← h1, ← spc1_coll I hab v0 v1 alpha f0 f1 g0 g1 source hp, ← spc1_RD I source] at hc
  constructor
  · obtain ⟨ff, ev, v⟩ := (spc1_data I).vectorsLmm (by omega) source
    obtain ⟨r, er⟩ := spcLmm_complete I.canon (spc1_P I) (by omega) (by omega) (fun m n hm hn => spc1_val I alpha hm hn) 0 (z := List.replicate (nx + pp P nx) 0) v hsol hcomp hc
    refine ⟨r, ?_⟩
    unfold Spc1d.solveLmm Spc1d.getMatricesLmm Spc1d.getVectorsLmm
    rw [hval, ok_bind, I.enx, ev, er]
  · intro hu hpp
    obtain ⟨_, _, l3, l4⟩ := I.canon.lists
    obtain ⟨ac, fb, ev, v⟩ := (spc1_data I).vectorsSps (by omega) source
    obtain ⟨r, er⟩ := spcSps_complete I.canon (spc1_P I) (by omega) (fun m n hm hn => spc1_val I alpha hm hn) (by omega) (by omega) 0 (z := List.replicate (pu P nx) 0)
      v hsol hcomp hc
    refine ⟨r, ?_⟩
    unfold Spc1d.solveSps Spc1d.getMatricesSps Spc1d.getVectorsSps
    rw [hval, ok_bind, I.enx, ev, er]

/-- **C93** The Poisson problem (`α = 0`, nonzero conductivity) with a prescribed value on at least one end: the collocation equations have one polynomial solution, and both
strategies return its nodal values if the linear solver finds a solution whenever there is one (the partitioned strategy needs an unknown node). -/
theorem C93_poisson (H : SpcSetup1 a b nx eops nops kx S) (hab : a ≠ b) (hk : kx ≠ 0) (hval : S.ebcs.validate S.nbcs = ok ())
    (hE : Ess1 eops .Xmin ∨ Ess1 eops .Xmax) (source : ℝ → ℝ) :
    ∃ f0 f1 g0 g1, S.ebcs.functions = [f0, f1] ∧ S.nbcs.functions = [g0, g1] ∧
      (∃! p : ℝ[X], p.degree < nx ∧ SpcColl1 a b nx kx 0 source (Ess1 eops .Xmin) (Ess1 eops .Xmax) f0 f1 g0 g1 p) ∧
      ∀ p : ℝ[X], p.degree < nx → SpcColl1 a b nx kx 0 source (Ess1 eops .Xmin) (Ess1 eops .Xmax) f0 f1 g0 g1 p →
      ∀ solver, Solves solver → Complete solver →
        S.solveLmm solver 0 source = ok ((List.range nx).map fun m => p.eval (cglNode a b nx m)) ∧
        (S.equations.nu ≠ 0 → S.solveSps solver 0 source = ok ((List.range nx).map fun m => p.eval (cglNode a b nx m))) := by
  obtain ⟨s0, s1, t0, t1, f0, f1, g0, g1, P, d1, d2, I, _, h0, h1, _, _⟩ := spc_setup1_is H
  have hx := I.hx
  have hx2 := I.hx2
  obtain ⟨v0, v1⟩ := (validate1 I).1 hval
  refine ⟨f0, f1, g0, g1, I.funs, I.nat, ?_, ?_⟩
  · have hu : ∀ q : ℝ[X], ∀ p : ℝ[X], (p.degree < nx ∧ SpcColl1 a b nx kx 0 source (Ess1 eops .Xmin) (Ess1 eops .Xmax) f0 f1 g0 g1 p) →
        (q.degree < nx ∧ SpcColl1 a b nx kx 0 source (Ess1 eops .Xmin) (Ess1 eops .Xmax) f0 f1 g0 g1 q) → q = p :=
      fun q p hp hq => coll1_unique hx hab hk hE hq.1 hp.1 hq.2 hp.2
    obtain ⟨W, hW⟩ := isColl_exists (V := spcV1 a b nx t0 t1 kx 0 d1 d2) (spc1_P I) (by
      intro W hW m hm
      obtain ⟨p, hp, hpW⟩ := cgl_interp hab hx W
      have hc := (spc1_coll I hab v0 v1 0 (fun _ => 0) (fun _ => 0) (fun _ => 0) (fun _ => 0) (fun _ => 0) hp).1 (by
        rw [isColl_congr_W (spc1_P I) hpW]
        refine (IsColl.congr (spc1_P I) ?_ ?_).1 hW
        · intro m _ _; unfold collR; simp
        · intro m _; unfold collD; simp)
      have := coll1_unique hx hab hk (by rw [h0, h1]; exact hE) hp (by rw [Polynomial.degree_zero]; exact WithBot.bot_lt_coe _) hc coll1_zero
      rw [← hpW m hm, this]; simp) (collR a b nx g0 g1 source) (collD a b nx f0 f1)
    obtain ⟨p, hp, hpW⟩ := cgl_interp hab hx W
    have hc := (spc1_coll I hab v0 v1 0 f0 f1 g0 g1 source hp).1 ((isColl_congr_W (spc1_P I) (fun m hm => (hpW m hm).symm)).1 hW)
    rw [h0, h1] at hc
    exact ⟨p, ⟨hp, hc⟩, fun q hq => hu q p ⟨hp, hc⟩ hq⟩
  · intro p hp hc solver hsol hcomp
    have hlist : ∀ r, (S.solveSps solver 0 source = ok r ∨ S.solveLmm solver 0 source = ok r) → r = (List.range nx).map fun m => p.eval (cglNode a b nx m) := by
      intro r hr
      obtain ⟨f0', f1', g0', g1', ef, eg, q, hq, hl, hg, hcq⟩ := C93_solve H hab hsol hr
      rw [I.funs] at ef
      rw [I.nat] at eg
      cases ef
      cases eg
      have := coll1_unique hx hab hk hE hq hp hcq hc
      subst this
      apply List.ext_getElem?
      intro m
      by_cases hm : m < nx
      · rw [hg m hm]; simp [hm]
      · rw [List.getElem?_eq_none (by omega)]; simp; omega
    obtain ⟨⟨r, hr⟩, hr2⟩ := C93_complete H hab hval I.funs I.nat hp hc hsol hcomp
    refine ⟨by rw [hr, hlist r (Or.inr hr)], ?_⟩
    intro hu
    have hpp : S.equations.np ≠ 0 := by
      rw [I.canon.lists.2.2.2, Ne, (spc1_pp I).1]
      rintro ⟨e0, e1⟩
      rw [← h0, ← h1, e0, e1] at hE
      simp at hE
    obtain ⟨r, hr⟩ := hr2 hu hpp
    rw [hr, hlist r (Or.inl hr)]

/-- **C93** If the exact solution of the Poisson problem is a polynomial of degree less than the number of nodes, every result is this solution at the nodes. -/
theorem C93_exact (H : SpcSetup1 a b nx eops nops kx S) (hab : a ≠ b) (hk : kx ≠ 0) (hE : Ess1 eops .Xmin ∨ Ess1 eops .Xmax) {solver : Coo ℝ → List ℝ → Res (List ℝ)}
    (hsol : Solves solver) {source : ℝ → ℝ} {r : List ℝ} (hr : S.solveSps solver 0 source = ok r ∨ S.solveLmm solver 0 source = ok r)
    {f0 f1 g0 g1 : ℝ → ℝ} (hf : S.ebcs.functions = [f0, f1]) (hg : S.nbcs.functions = [g0, g1]) {u : ℝ[X]} (hu : u.degree < nx)
    (hpde : ∀ x, -kx * u.derivative.derivative.eval x = source x) (hb0 : Ess1 eops .Xmin → u.eval a = f0 a) (hn0 : ¬ Ess1 eops .Xmin → kx * u.derivative.eval a = g0 a)
    (hb1 : Ess1 eops .Xmax → u.eval b = f1 b) (hn1 : ¬ Ess1 eops .Xmax → -kx * u.derivative.eval b = g1 b) :
    r.length = nx ∧ ∀ m, m < nx → r[m]? = some (u.eval (cglNode a b nx m)) := by
  obtain ⟨f0', f1', g0', g1', ef, eg, q, hq, hl, hgr, hcq⟩ := C93_solve H hab hsol hr
  obtain ⟨_, _, _, _, _, _, _, _, _, _, _, I, _⟩ := spc_setup1_is H
  rw [hf] at ef; cases ef
  rw [hg] at eg; cases eg
  have := coll1_unique I.hx hab hk hE hq hu hcq ⟨fun m _ _ => by rw [zero_mul, add_zero]; exact hpde _, hb0, hn0, hb1, hn1⟩
  subst this
  exact ⟨hl, hgr⟩

/-- **C93** The flow computed from the nodal values of a polynomial of degree less than the number of nodes is `-k` times its derivative; a vector of the wrong length is an error. -/
theorem C93_flow (H : SpcSetup1 a b nx eops nops kx S) (hab : a ≠ b) :
    (∀ v : List ℝ, v.length ≠ nx → ∃ m, S.calculateFlowVectors v = err m) ∧
    ∀ p : ℝ[X], p.degree < nx → S.calculateFlowVectors ((List.range nx).map fun m => p.eval (cglNode a b nx m)) =
      ok ((List.range nx).map fun m => -kx * p.derivative.eval (cglNode a b nx m)) := by
  obtain ⟨s0, s1, t0, t1, f0, f1, g0, g1, P, d1, d2, I, _⟩ := spc_setup1_is H
  have hx := I.hx
  unfold Spc1d.calculateFlowVectors
  dsimp only
  rw [I.canon.hneq]
  constructor
  · intro v hv
    rw [if_pos hv]; exact ⟨_, rfl⟩
  · intro p hp
    rw [if_neg (by simp)]
    obtain ⟨D, eD, hD⟩ := I.dd1
    rw [eD, unwrap_ok, ok_bind, I.xmin, I.xmax, I.mkx]
    have hv : Lab.IsVec ((List.range nx).map fun m => p.eval (cglNode a b nx m)) nx (fun m => p.eval (cglNode a b nx m)) :=
      ⟨by simp, by intro i hi; simp [hi]⟩
    generalize (List.range nx).map (fun m => p.eval (cglNode a b nx m)) = v at hv
    obtain ⟨w, ew, hw⟩ := forRange_spec (lo := 0) (hi := nx) (s := List.replicate nx (0 : ℝ))
      (f := fun m wwx => do
        let wx ← forRange 0 nx 0 fun n wx => do
          let d ← D.get m n
          let x ← vget v n
          ok (wx + -kx * d * (2 / (b - a)) * x)
        vset wwx m wx)
      (I := fun t w => Lab.IsVec w nx (fun m => if m < t then -kx * p.derivative.eval (cglNode a b nx m) else 0)) (Nat.zero_le _) (by
        apply (Lab.isVec_replicate nx (0 : ℝ)).congr
        intro i _; simp) (by
        intro m w _ hm hw
        obtain ⟨wx, e1, h1⟩ := forRange_spec (lo := 0) (hi := nx) (s := (0 : ℝ))
          (f := fun n wx => do
            let d ← D.get m n
            let x ← vget v n
            ok (wx + -kx * d * (2 / (b - a)) * x))
          (I := fun t wx => wx = ∑ n ∈ Finset.range t, -kx * (d1 m n * (2 / (b - a)) * p.eval (cglNode a b nx n))) (Nat.zero_le _) (by simp) (by
            intro n wx _ hn hwx
            refine ⟨_, by rw [hD.get m n hm hn, ok_bind, hv.vget hn, ok_bind], ?_⟩
            rw [Finset.sum_range_succ, hwx]; ring)
        rw [e1, ok_bind]
        obtain ⟨w', e2, h2⟩ := hw.vset hm wx
        refine ⟨w', e2, h2.congr ?_⟩
        intro i hi
        by_cases him : i = m
        · subst him
          rw [if_pos rfl, if_pos (by omega), h1, ← Finset.mul_sum, spc1_sum1 I hab hp hm]
        · by_cases hlt : i < m
          · rw [if_neg him, if_pos hlt, if_pos (by omega)]
          · rw [if_neg him, if_neg hlt, if_neg (by omega)])
    rw [ew]
    congr 1
    apply List.ext_getElem?
    intro m
    by_cases hm : m < nx
    · rw [hw.get m hm, if_pos hm]; simp [hm]
    · rw [List.getElem?_eq_none (by rw [hw.len]; omega)]; simp; omega

/-- **C93** Consistent boundary conditions and a linear solver that does not panic: `solve_lmm` does not panic, and `solve_sps` panics exactly when no end has a prescribed
value, or when there are two nodes and both have one. -/
theorem C93_panics (H : SpcSetup1 a b nx eops nops kx S) (hval : S.ebcs.validate S.nbcs = ok ()) {solver : Coo ℝ → List ℝ → Res (List ℝ)} (hsol : Solves solver)
    (hnp : ∀ A v, solver A v ≠ Res.panic) (alpha : ℝ) (source : ℝ → ℝ) :
    S.solveLmm solver alpha source ≠ Res.panic ∧ (S.solveSps solver alpha source = Res.panic ↔
      (¬ Ess1 eops .Xmin ∧ ¬ Ess1 eops .Xmax) ∨ (nx = 2 ∧ Ess1 eops .Xmin ∧ Ess1 eops .Xmax)) := by
  obtain ⟨s0, s1, t0, t1, f0, f1, g0, g1, P, d1, d2, I, _, h0, h1, _, _⟩ := spc_setup1_is H
  have hx := I.hx
  have hx2 := I.hx2
  obtain ⟨_, _, l3, l4⟩ := I.canon.lists
  constructor
  · unfold Spc1d.solveLmm Spc1d.getMatricesLmm Spc1d.getVectorsLmm
    rw [hval, ok_bind, I.enx]
    obtain ⟨ff, ev, v⟩ := (spc1_data I).vectorsLmm (by omega) source
    rw [ev]
    rcases spcLmm_sol I.canon (spc1_P I) (by omega) (by omega) (fun m n hm hn => spc1_val I alpha hm hn) 0 v hsol with ⟨kk, h⟩ | ⟨r', W, e, _⟩
    · rcases h with ⟨_, m, hm⟩ | ⟨hm, _⟩
      · rw [hm]; simp
      · exact absurd hm (hnp _ _)
    · rw [e]; simp
  · unfold Spc1d.solveSps Spc1d.getMatricesSps Spc1d.getVectorsSps
    rw [hval, ok_bind, I.enx]
    have hz : (S.equations.nu = 0 ∨ S.equations.np = 0) ↔ (¬ Ess1 eops .Xmin ∧ ¬ Ess1 eops .Xmax) ∨ (nx = 2 ∧ Ess1 eops .Xmin ∧ Ess1 eops .Xmax) := by
      rw [l3, l4, (spc1_pp I).1, (spc1_pp I).2, ← h0, ← h1, Bool.not_eq_true, Bool.not_eq_true]
      tauto
    rw [← hz]
    by_cases hn : S.equations.nu = 0 ∨ S.equations.np = 0
    · rw [spcSps_panic _ _ _ _ _ hn]
      exact ⟨fun _ => hn, fun _ => rfl⟩
    · refine ⟨fun h => ?_, fun h => absurd h hn⟩
      exfalso
      rw [l3, l4] at hn
      obtain ⟨ac, fb, ev, v⟩ := (spc1_data I).vectorsSps (by omega) source
      rw [ev] at h
      rcases spcSps_sol I.canon (spc1_P I) (by omega) (fun m n hm hn => spc1_val I alpha hm hn) (by omega) (by omega) 0 v hsol with ⟨kk, fb', h'⟩ | ⟨r', W, e, _⟩
      · rcases h' with ⟨_, m, hm⟩ | ⟨hm, _⟩
        · rw [hm] at h; cases h
        · exact hnp _ _ hm
      · rw [e] at h; cases h

end Main

/-! ### Examples -/

theorem since_single {ω : Type} (A B : ω → Prop) (o : ω) : Since A B [o] ↔ A o := by
  have := since_append A B [] o
  rw [List.nil_append] at this
  rw [this]
  have := since_nil A B
  tauto

theorem cgl3 : cglNode 0 1 3 0 = 0 ∧ cglNode 0 1 3 1 = 1 / 2 ∧ cglNode 0 1 3 2 = 1 := by
  refine ⟨cglNode_zero 0 1 3, ?_, cglNode_last 0 1 (nx := 3) (by omega)⟩
  unfold cglNode
  have : (((1 : Nat) : ℝ) * Real.pi / ((3 - 1 : Nat) : ℝ)) = Real.pi / 2 := by norm_num
  rw [this, Real.cos_pi_div_two]
  norm_num

/-- an `Spc1d` on the interval from 0 to 1 -/
theorem spcSetup3 (nx : Nat) (h1 : 2 ≤ nx) (h2 : nx ≤ 2049) {eops : List (EOp1 ℝ)} {nops : List (Side × (ℝ → ℝ))}
    (he : ∀ s f, EOp1.set s f ∈ eops → s.isX = true) (hn : ∀ o ∈ nops, o.1.isX = true) (hp : ¬ Per1 eops)
    (hv : ∀ s : Side, s.isX = true → ((Ess1 eops s ∧ ¬ ∃ o ∈ nops, o.1 = s) ∨ (¬ Ess1 eops s ∧ ∃ o ∈ nops, o.1 = s))) :
    ∃ S, SpcSetup1 0 1 nx eops nops 1 S ∧ S.ebcs.validate S.nbcs = ok () ∧ runE1 eops = ok S.ebcs ∧ runN1 nops = ok S.nbcs := by
  obtain ⟨e, n, ee, en, h⟩ := spc1_new 0 1 h1 h2 he hn 1
  rcases h with ⟨h, _⟩ | ⟨_, S, s0, s1, t0, t1, f0, f1, g0, g1, P, d1, d2, eS, rfl, rfl, I, i0, i1, j0, j1⟩
  · exact absurd h hp
  · refine ⟨S, ⟨he, hn, _, _, ee, en, eS⟩, ?_, ee, en⟩
    rw [validate1 I]
    have a0 := hv .Xmin rfl
    have a1 := hv .Xmax rfl
    rw [← i0, ← j0] at a0
    rw [← i1, ← j1] at a1
    cases s0 <;> cases s1 <;> cases t0 <;> cases t1 <;> simp_all

/-- `-u'' = -2`, `u(0) = 0`, outflow `-u'(1) = -2`; solved by `u = x²` -/
example : ∃ S, SpcSetup1 0 1 3 [.set .Xmin fun _ => 0] [(.Xmax, fun _ => -2)] 1 S ∧
    S.solveLmm chooseSolver 0 (fun _ => -2) = ok [0, 1 / 4, 1] ∧ S.solveSps chooseSolver 0 (fun _ => -2) = ok [0, 1 / 4, 1] ∧
    S.calculateFlowVectors [0, 1 / 4, 1] = ok [0, -1, -2] := by
  have hE0 : Ess1 ([.set .Xmin fun _ => 0] : List (EOp1 ℝ)) .Xmin := (since_single _ _ _).2 (by simp [EOp1.sets])
  have hE1 : ¬ Ess1 ([.set .Xmin fun _ => 0] : List (EOp1 ℝ)) .Xmax := fun h => by
    have := (since_single _ _ _).1 h
    simp [EOp1.sets] at this
  obtain ⟨S, H, hval, ee, en⟩ := spcSetup3 3 (by omega) (by omega) (eops := [.set .Xmin fun _ => 0]) (nops := [(.Xmax, fun _ => -2)]) (by simp [Side.isX]) (by simp [Side.isX])
    (fun h => by
      have := (since_single _ _ _).1 h
      simp [EOp1.makesPeriodic] at this) (by
      intro s hs
      cases s <;> simp [Side.isX] at hs
      · left; exact ⟨hE0, by simp⟩
      · right; exact ⟨hE1, by simp⟩)
  refine ⟨S, H, ?_⟩
  obtain ⟨c0, c1, c2⟩ := cgl3
  have hfun : S.ebcs.functions = [fun _ => 0, fun _ => 0] ∧ S.nbcs.functions = [fun _ => 0, fun _ => -2] := by
    unfold runE1 at ee
    unfold runN1 at en
    rw [← Res.ok.inj ee, ← Res.ok.inj en]
    exact ⟨rfl, rfl⟩
  obtain ⟨f0, f1, g0, g1, hf, hg, _, hall⟩ := C93_poisson H (by norm_num) (by norm_num) hval (Or.inl hE0) (fun _ => -2)
  rw [hfun.1] at hf
  rw [hfun.2] at hg
  cases hf
  cases hg
  have hdeg : (Polynomial.X ^ 2 : ℝ[X]).degree < (3 : Nat) := by rw [Polynomial.degree_X_pow]; exact_mod_cast (by omega : 2 < 3)
  have hl : (List.range 3).map (fun m => (Polynomial.X ^ 2 : ℝ[X]).eval (cglNode 0 1 3 m)) = [0, 1 / 4, 1] := by
    simp [List.range_succ, c0, c1, c2]; norm_num
  have hfl : (List.range 3).map (fun m => -1 * (Polynomial.X ^ 2 : ℝ[X]).derivative.eval (cglNode 0 1 3 m)) = [0, -1, -2] := by
    simp [List.range_succ, c0, c1, c2]; norm_num
  obtain ⟨r1, r2⟩ := hall (Polynomial.X ^ 2) hdeg ⟨by intro m _ _; simp; norm_num, by simp, fun h => absurd hE0 h, fun h => absurd h hE1, by intro _; simp; norm_num⟩
    chooseSolver chooseSolver_solves.1 chooseSolver_solves.2
  rw [hl] at r1 r2
  refine ⟨r1, r2 ?_, ?_⟩
  · obtain ⟨s0, s1, t0, t1, f0, f1, g0, g1, P, d1, d2, I, _, h0, h1, _, _⟩ := spc_setup1_is H
    rw [I.canon.lists.2.2.1, Ne, (spc1_pp I).2]
    omega
  · have := (C93_flow H (by norm_num)).2 (Polynomial.X ^ 2) hdeg
    rw [hl, hfl] at this
    exact this

/-- **C93** "Solves the problem using the System Partitioning Strategy" (/repo/russell_pde/src/spc_1d.rs:237-296): with flows prescribed on both ends, a problem that
`validate` accepts and `solve_lmm` solves, `solve_sps` panics. -/
theorem C93_natural_counterexample : ∃ S, SpcSetup1 0 1 3 [] [(.Xmin, fun _ => 0), (.Xmax, fun _ => 0)] 1 S ∧ S.ebcs.validate S.nbcs = ok () ∧
    S.solveSps chooseSolver 1 (fun _ => 1) = Res.panic ∧ ∃ r, S.solveLmm chooseSolver 1 (fun _ => 1) = ok r := by
  have hE : ∀ s, ¬ Ess1 ([] : List (EOp1 ℝ)) s := fun s => since_nil _ _
  obtain ⟨S, H, hval, ee, en⟩ := spcSetup3 3 (by omega) (by omega) (eops := []) (nops := [(.Xmin, fun _ => 0), (.Xmax, fun _ => 0)]) (by simp) (by simp [Side.isX])
    (since_nil _ _) (by
      intro s hs
      right
      refine ⟨hE s, ?_⟩
      cases s <;> simp [Side.isX] at hs <;> simp)
  refine ⟨S, H, hval, ?_, ?_⟩
  · rw [(C93_panics H hval chooseSolver_solves.1 (by
      intro A v
      unfold chooseSolver
      split <;> simp) 1 _).2]
    exact Or.inl ⟨hE _, hE _⟩
  · have hfun : S.ebcs.functions = [fun _ => 0, fun _ => 0] ∧ S.nbcs.functions = [fun _ => 0, fun _ => 0] := by
      unfold runE1 at ee
      unfold runN1 at en
      rw [← Res.ok.inj ee, ← Res.ok.inj en]
      exact ⟨rfl, rfl⟩
    refine (C93_complete H (by norm_num) hval hfun.1 hfun.2 (p := 1) ?_ ⟨?_, ?_, ?_, ?_, ?_⟩ chooseSolver_solves.1 chooseSolver_solves.2).1
    · rw [Polynomial.degree_one]; exact_mod_cast (by omega : 0 < 3)
    · intro m _ _; simp
    · intro h; exact absurd h (hE _)
    · intro _; simp
    · intro h; exact absurd h (hE _)
    · intro _; simp

end Russell.Pde
