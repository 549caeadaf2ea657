import Verif.Pde.Spc2
import Mathlib.Analysis.Calculus.Deriv.Polynomial

/-!
# Spectral collocation in two dimensions (C94)

Model of `Spc2d` (/repo/russell_pde/src/spc_2d.rs) over the real numbers.  The linear solver is a parameter.
-/

namespace Russell.Pde

open Russell Res Russell.Sparse Polynomial

/-- `Spc2d` (/repo/russell_pde/src/spc_2d.rs:130-190); the solver kind is left out -/
structure Spc2d where
  xmin : ℝ
  xmax : ℝ
  ymin : ℝ
  ymax : ℝ
  grid : Grid2d ℝ
  ebcs : EssentialBcs2d ℝ
  nbcs : NaturalBcs2d ℝ
  mkx : ℝ
  mky : ℝ
  equations : EquationHandler
  interp_x : Lab.Interp
  interp_y : Lab.Interp

/-- `if c { v += t }` -/
noncomputable def addIf (c : Prop) [Decidable c] (t : Res ℝ) (v : ℝ) : Res ℝ := if c then do let d ← t; ok (v + d) else ok v

noncomputable section

/-- `Spc2d::new` (/repo/russell_pde/src/spc_2d.rs:221-285) -/
def Spc2d.new (xmin xmax ymin ymax : ℝ) (nx ny : Nat) (ebcs : EssentialBcs2d ℝ) (nbcs : NaturalBcs2d ℝ) (kx ky : ℝ) : Res Spc2d :=
  if nx < 2 then err "nx must be ≥ 2"
  else if ny < 2 then err "ny must be ≥ 2"
  else
    let nn_x := nx - 1
    let nn_y := ny - 1
    if nn_x > 2048 ∨ nn_y > 2048 then err "the maximum allowed polynomial degree is 2048"
    else do
      let grid ← (Grid2d.newCgl nx ny).unwrap
      if ebcs.periodic_along_x ∨ ebcs.periodic_along_y then err "essential BCs cannot be periodic"
      else do
        let neq := grid.size
        let nodes ← ebcs.getNodes grid
        let equations ← (EquationHandler.new neq).recompute nodes
        let interp_x ← (Lab.Interp.new nn_x none).unwrap
        let interp_y ← (Lab.Interp.new nn_y none).unwrap
        let interp_x ← interp_x.calcDd1
        let interp_y ← interp_y.calcDd1
        let interp_x ← interp_x.calcDd2
        let interp_y ← interp_y.calcDd2
        ok { xmin, xmax, ymin, ymax, grid, ebcs, nbcs, mkx := -kx, mky := -ky, equations, interp_x, interp_y }

/-- `map_coord` (/repo/russell_pde/src/spc_2d.rs:930-934) -/
def Spc2d.mapCoord (S : Spc2d) (rs : ℝ × ℝ) : ℝ × ℝ :=
  ((S.xmax + S.xmin + (S.xmax - S.xmin) * rs.1) / 2, (S.ymax + S.ymin + (S.ymax - S.ymin) * rs.2) / 2)

/-- the entry of row `m` and column `n` (/repo/russell_pde/src/spc_2d.rs:543-604, /repo/russell_pde/src/spc_2d.rs:655-714); the matrices of the interpolators are fetched here
rather than once before the loops; in `get_matrices_lmm` the column is computed anew as `k + l nx`, which is `n` -/
def Spc2d.val (S : Spc2d) (alpha : ℝ) (m n : Nat) : Res ℝ := do
  let nx := S.grid.nx
  let ny := S.grid.ny
  let d1r ← S.interp_x.getDd1.unwrap
  let d1s ← S.interp_y.getDd1.unwrap
  let d2r ← S.interp_x.getDd2.unwrap
  let d2s ← S.interp_y.getDd2.unwrap
  let dr_dx := 2 / (S.xmax - S.xmin)
  let ds_dy := 2 / (S.ymax - S.ymin)
  let cx := dr_dx * dr_dx
  let cy := ds_dy * ds_dy
  let (i, j) := S.grid.getIJ m
  let on ← S.nbcs.enabledIJ i j S.grid
  let (k, l) := S.grid.getIJ n
  if on then do
    let v ← addIf (i = 0 ∧ j = l) (do let d ← d1r.get i k; ok (-S.mkx * d * dr_dx)) 0
    let v ← addIf (i = nx - 1 ∧ j = l) (do let d ← d1r.get i k; ok (S.mkx * d * dr_dx)) v
    let v ← addIf (j = 0 ∧ i = k) (do let d ← d1s.get j l; ok (-S.mky * d * ds_dy)) v
    addIf (j = ny - 1 ∧ i = k) (do let d ← d1s.get j l; ok (S.mky * d * ds_dy)) v
  else do
    let v ← addIf (j = l) (do let d ← d2r.get i k; ok (S.mkx * d * cx)) 0
    let v ← addIf (i = k) (do let d ← d2s.get j l; ok (S.mky * d * cy)) v
    addIf (m = n) (ok alpha) v

/-- what the assembly of the vectors reads -/
def Spc2d.data (S : Spc2d) : SpcData (ℝ × ℝ) ℝ := spcData2 S.grid S.ebcs S.nbcs S.equations fun rs => ok (S.mapCoord rs)

/-- `get_matrices_sps` (/repo/russell_pde/src/spc_2d.rs:531-607) -/
def Spc2d.getMatricesSps (S : Spc2d) (alpha : ℝ) (extra : Nat) : Res (Coo ℝ × Coo ℝ) :=
  spcMatricesSps S.equations (S.grid.nx * S.grid.nx * S.grid.ny * S.grid.ny) S.equations.neq (S.val alpha) extra

/-- `get_matrices_lmm` (/repo/russell_pde/src/spc_2d.rs:639-734) -/
def Spc2d.getMatricesLmm (S : Spc2d) (alpha : ℝ) (extra : Nat) (getc : Bool) : Res (Coo ℝ × Option (Coo ℝ)) :=
  spcMatricesLmm S.equations (S.grid.nx * S.grid.nx * S.grid.ny * S.grid.ny) S.equations.neq (S.val alpha) extra getc

/-- `get_vectors_sps` (/repo/russell_pde/src/spc_2d.rs:750-800) -/
def Spc2d.getVectorsSps (S : Spc2d) (source : ℝ → ℝ → ℝ) : Res (List ℝ × List ℝ × List ℝ) := S.data.getVectorsSps (Function.uncurry source)

/-- `get_vectors_lmm` (/repo/russell_pde/src/spc_2d.rs:842-888) -/
def Spc2d.getVectorsLmm (S : Spc2d) (source : ℝ → ℝ → ℝ) : Res (List ℝ × List ℝ) := S.data.getVectorsLmm (Function.uncurry source)

/-- `solve_sps` (/repo/russell_pde/src/spc_2d.rs:326-347) -/
def Spc2d.solveSps (S : Spc2d) (solver : Coo ℝ → List ℝ → Res (List ℝ)) (alpha : ℝ) (source : ℝ → ℝ → ℝ) : Res (List ℝ) := do
  S.ebcs.validate S.nbcs
  spcFinishSps S.equations (S.getMatricesSps alpha 0) (S.getVectorsSps source) solver

/-- `solve_lmm` (/repo/russell_pde/src/spc_2d.rs:379-398) -/
def Spc2d.solveLmm (S : Spc2d) (solver : Coo ℝ → List ℝ → Res (List ℝ)) (alpha : ℝ) (source : ℝ → ℝ → ℝ) : Res (List ℝ) := do
  S.ebcs.validate S.nbcs
  spcFinishLmm S.equations (S.getMatricesLmm alpha 0 false) (S.getVectorsLmm source) solver

/-- `calculate_flow_vectors` (/repo/russell_pde/src/spc_2d.rs:425-454) -/
def Spc2d.calculateFlowVectors (S : Spc2d) (a : List ℝ) : Res (List ℝ × List ℝ) :=
  let neq := S.equations.neq
  if a.length ≠ neq then err "a.dim() must equal the number of equations"
  else do
    let d1r ← S.interp_x.getDd1.unwrap
    let d1s ← S.interp_y.getDd1.unwrap
    let dr_dx := 2 / (S.xmax - S.xmin)
    let ds_dy := 2 / (S.ymax - S.ymin)
    forRange 0 neq (List.replicate neq 0, List.replicate neq 0) fun m ww => do
      let (i, j) := S.grid.getIJ m
      let w ← forRange 0 neq ((0 : ℝ), (0 : ℝ)) fun n w => do
        let (k, l) := S.grid.getIJ n
        let akl ← vget a n
        let w0 ← addIf (j = l) (do let d ← d1r.get i k; ok (S.mkx * d * dr_dx * akl)) w.1
        let w1 ← addIf (i = k) (do let d ← d1s.get j l; ok (S.mky * d * ds_dy * akl)) w.2
        ok (w0, w1)
      let wwx ← vset ww.1 m w.1
      let wwy ← vset ww.2 m w.2
      ok (wwx, wwy)

end

/-! ### Polynomials in two variables -/

/-- `u` is a polynomial of degree less than `nx` in the first and less than `ny` in the second variable -/
def BiPoly (nx ny : Nat) (u : ℝ → ℝ → ℝ) : Prop := ∃ c : Nat → Nat → ℝ, ∀ x y, u x y = ∑ k ∈ Finset.range nx, ∑ l ∈ Finset.range ny, c k l * x ^ k * y ^ l

/-- partial derivatives -/
noncomputable def ux (u : ℝ → ℝ → ℝ) (x y : ℝ) : ℝ := deriv (fun x => u x y) x
/-- partial derivatives -/
noncomputable def uy (u : ℝ → ℝ → ℝ) (x y : ℝ) : ℝ := deriv (fun y => u x y) y
/-- partial derivatives -/
noncomputable def uxx (u : ℝ → ℝ → ℝ) (x y : ℝ) : ℝ := deriv (fun x => ux u x y) x
/-- partial derivatives -/
noncomputable def uyy (u : ℝ → ℝ → ℝ) (x y : ℝ) : ℝ := deriv (fun y => uy u x y) y

section Poly

variable {nx ny : Nat} {u : ℝ → ℝ → ℝ}

theorem poly_of_coeffs (n : Nat) (c : Nat → ℝ) : ∃ p : ℝ[X], p.degree < n ∧ ∀ x, p.eval x = ∑ k ∈ Finset.range n, c k * x ^ k := by
  refine ⟨∑ k : Fin n, C (c k) * Polynomial.X ^ (k : Nat), Polynomial.degree_sum_fin_lt _, ?_⟩
  intro x
  rw [Polynomial.eval_finset_sum, Finset.sum_range]
  simp

theorem BiPoly.x (hu : BiPoly nx ny u) (y : ℝ) : ∃ p : ℝ[X], p.degree < nx ∧ ∀ x, u x y = p.eval x := by
  obtain ⟨c, hc⟩ := hu
  obtain ⟨p, hp, he⟩ := poly_of_coeffs nx (fun k => ∑ l ∈ Finset.range ny, c k l * y ^ l)
  refine ⟨p, hp, ?_⟩
  intro x
  rw [he, hc]
  refine Finset.sum_congr rfl fun k _ => ?_
  rw [Finset.sum_mul]
  exact Finset.sum_congr rfl fun l _ => by ring

theorem BiPoly.y (hu : BiPoly nx ny u) (x : ℝ) : ∃ p : ℝ[X], p.degree < ny ∧ ∀ y, u x y = p.eval y := by
  obtain ⟨c, hc⟩ := hu
  obtain ⟨p, hp, he⟩ := poly_of_coeffs ny (fun l => ∑ k ∈ Finset.range nx, c k l * x ^ k)
  refine ⟨p, hp, ?_⟩
  intro y
  rw [he, hc, Finset.sum_comm]
  refine Finset.sum_congr rfl fun k _ => ?_
  rw [Finset.sum_mul]

theorem ux_poly {p : ℝ[X]} {y : ℝ} (h : ∀ x, u x y = p.eval x) (x : ℝ) : ux u x y = p.derivative.eval x := by
  unfold ux
  rw [show (fun x => u x y) = fun x => p.eval x from funext h]
  exact p.deriv

theorem uxx_poly {p : ℝ[X]} {y : ℝ} (h : ∀ x, u x y = p.eval x) (x : ℝ) : uxx u x y = p.derivative.derivative.eval x := by
  unfold uxx
  rw [show (fun x => ux u x y) = fun x => p.derivative.eval x from funext (ux_poly h)]
  exact p.derivative.deriv

theorem uy_poly {p : ℝ[X]} {x : ℝ} (h : ∀ y, u x y = p.eval y) (y : ℝ) : uy u x y = p.derivative.eval y := by
  unfold uy
  rw [show (fun y => u x y) = fun y => p.eval y from funext h]
  exact p.deriv

theorem uyy_poly {p : ℝ[X]} {x : ℝ} (h : ∀ y, u x y = p.eval y) (y : ℝ) : uyy u x y = p.derivative.derivative.eval y := by
  unfold uyy
  rw [show (fun y => uy u x y) = fun y => p.derivative.eval y from funext (uy_poly h)]
  exact p.derivative.deriv

theorem biPoly_sum {ι : Type} (s : Finset ι) (f : ι → ℝ → ℝ → ℝ) (h : ∀ i ∈ s, BiPoly nx ny (f i)) : BiPoly nx ny (fun x y => ∑ i ∈ s, f i x y) := by
  classical
  induction s using Finset.induction_on with
  | empty => exact ⟨fun _ _ => 0, by intro x y; simp⟩
  | insert a s ha ih =>
    obtain ⟨c, hc⟩ := ih (fun i hi => h i (Finset.mem_insert_of_mem hi))
    obtain ⟨d, hd⟩ := h a (Finset.mem_insert_self a s)
    refine ⟨fun k l => d k l + c k l, ?_⟩
    intro x y
    dsimp only at hc ⊢
    rw [Finset.sum_insert ha, hc, hd, ← Finset.sum_add_distrib]
    refine Finset.sum_congr rfl fun k _ => ?_
    rw [← Finset.sum_add_distrib]
    exact Finset.sum_congr rfl fun l _ => by ring

theorem eval_range {n : Nat} {p : ℝ[X]} (hp : p.degree < n) (x : ℝ) : p.eval x = ∑ k ∈ Finset.range n, p.coeff k * x ^ k := by
  by_cases h0 : n = 0
  · subst h0
    have : p = 0 := by
      rw [← Polynomial.degree_eq_bot]
      exact Nat.WithBot.lt_zero_iff.1 (by exact_mod_cast hp)
    simp [this]
  · refine Polynomial.eval_eq_sum_range' ?_ x
    by_cases hp0 : p = 0
    · rw [hp0]; simp; omega
    · exact (Polynomial.natDegree_lt_iff_degree_lt hp0).2 hp

theorem biPoly_mul {p q : ℝ[X]} (hp : p.degree < nx) (hq : q.degree < ny) (r : ℝ) : BiPoly nx ny (fun x y => r * p.eval x * q.eval y) := by
  refine ⟨fun k l => r * p.coeff k * q.coeff l, ?_⟩
  intro x y
  dsimp only
  rw [eval_range hp, eval_range hq, Finset.mul_sum (Finset.range nx), Finset.sum_mul]
  refine Finset.sum_congr rfl fun k _ => ?_
  rw [Finset.mul_sum]
  exact Finset.sum_congr rfl fun l _ => by ring

theorem BiPoly.sub {v : ℝ → ℝ → ℝ} (hu : BiPoly nx ny u) (hv : BiPoly nx ny v) : BiPoly nx ny (fun x y => u x y - v x y) := by
  obtain ⟨c, hc⟩ := hu
  obtain ⟨d, hd⟩ := hv
  refine ⟨fun k l => c k l - d k l, ?_⟩
  intro x y
  dsimp only
  rw [hc, hd, ← Finset.sum_sub_distrib]
  refine Finset.sum_congr rfl fun k _ => ?_
  rw [← Finset.sum_sub_distrib]
  exact Finset.sum_congr rfl fun l _ => by ring

variable {a b c d : ℝ}

/-- nodal values belong to a polynomial -/
theorem cgl_interp2 (hab : a ≠ b) (hcd : c ≠ d) (hx : 2 ≤ nx) (hy : 2 ≤ ny) (W : Nat → Nat → ℝ) :
    ∃ u, BiPoly nx ny u ∧ ∀ i j, i < nx → j < ny → u (cglNode a b nx i) (cglNode c d ny j) = W i j := by
  have hinj : Set.InjOn (cglNode a b nx) (Finset.range nx) := by
    intro m hm n hn h
    exact cglNode_inj hab hx (Finset.mem_range.1 hm) (Finset.mem_range.1 hn) h
  have hinj' : Set.InjOn (cglNode c d ny) (Finset.range ny) := by
    intro m hm n hn h
    exact cglNode_inj hcd hy (Finset.mem_range.1 hm) (Finset.mem_range.1 hn) h
  choose q hq he using fun (i : Nat) => cgl_interp hcd hy (W i)
  choose p hp hp' using fun (i : Nat) => cgl_interp hab hx (fun k => if k = i then (1 : ℝ) else 0)
  refine ⟨fun x y => ∑ i ∈ Finset.range nx, 1 * (p i).eval x * (q i).eval y, biPoly_sum _ _ (fun i _ => biPoly_mul (hp i) (hq i) 1), ?_⟩
  intro i j hi hj
  dsimp only
  rw [Finset.sum_eq_single i]
  · rw [hp' i i hi, if_pos rfl, he i j hj]; ring
  · intro k _ hk
    rw [hp' k i hi, if_neg (Ne.symm hk)]; ring
  · intro hn; exact absurd (Finset.mem_range.2 hi) hn

theorem poly_zero_of_nodes (hab : a ≠ b) (hx : 2 ≤ nx) {p : ℝ[X]} (hp : p.degree < nx) (h : ∀ i, i < nx → p.eval (cglNode a b nx i) = 0) : p = 0 := by
  refine Polynomial.eq_zero_of_degree_lt_of_eval_index_eq_zero (s := Finset.range nx) (v := cglNode a b nx) ?_ ?_ ?_
  · intro m hm n hn h
    exact cglNode_inj hab hx (Finset.mem_range.1 hm) (Finset.mem_range.1 hn) h
  · rw [Finset.card_range]; exact hp
  · intro m hm; exact h m (Finset.mem_range.1 hm)

/-- a polynomial is determined by its nodal values -/
theorem biPoly_zero (hab : a ≠ b) (hcd : c ≠ d) (hx : 2 ≤ nx) (hy : 2 ≤ ny) (hu : BiPoly nx ny u)
    (h : ∀ i j, i < nx → j < ny → u (cglNode a b nx i) (cglNode c d ny j) = 0) (x y : ℝ) : u x y = 0 := by
  have h1 : ∀ j, j < ny → ∀ x, u x (cglNode c d ny j) = 0 := by
    intro j hj x
    obtain ⟨p, hp, e⟩ := hu.x (cglNode c d ny j)
    have : p = 0 := poly_zero_of_nodes hab hx hp (fun i hi => by rw [← e]; exact h i j hi hj)
    rw [e, this]; simp
  obtain ⟨p, hp, e⟩ := hu.y x
  have : p = 0 := poly_zero_of_nodes hcd hy hp (fun j hj => by rw [← e]; exact h1 j hj x)
  rw [e, this]; simp

end Poly

/-! ### Differentiation matrices -/

/-- the matrix differentiates polynomials of degree less than the number of nodes -/
def Diff1 (nx : Nat) (d1 : Nat → Nat → ℝ) : Prop := ∀ p : ℝ[X], p.degree < nx → ∀ k, k < nx →
  ∑ j ∈ Finset.range nx, d1 k j * p.eval (cgl nx j) = p.derivative.eval (cgl nx k)

/-- the matrix gives second derivatives of polynomials of degree less than the number of nodes -/
def Diff2 (nx : Nat) (d2 : Nat → Nat → ℝ) : Prop := ∀ p : ℝ[X], p.degree < nx → ∀ k, k < nx →
  ∑ j ∈ Finset.range nx, d2 k j * p.eval (cgl nx j) = p.derivative.derivative.eval (cgl nx k)

section Diff

variable {a b : ℝ} {nx : Nat} {d1 d2 : Nat → Nat → ℝ}

theorem Diff1.mapped (D : Diff1 nx d1) (hx : 2 ≤ nx) (hab : a ≠ b) {p : ℝ[X]} (hp : p.degree < nx) {k : Nat} (hk : k < nx) :
    ∑ j ∈ Finset.range nx, d1 k j * (2 / (b - a)) * p.eval (cglNode a b nx j) = p.derivative.eval (cglNode a b nx k) := by
  have hd : b - a ≠ 0 := sub_ne_zero.2 (Ne.symm hab)
  have := D (pull a b p) (pull_degree (by omega) hp) k hk
  rw [pull_derivative, Polynomial.eval_mul, Polynomial.eval_C, pull_eval] at this
  simp only [pull_eval] at this
  change ∑ j ∈ Finset.range nx, d1 k j * p.eval (cglNode a b nx j) = (b - a) / 2 * p.derivative.eval (cglNode a b nx k) at this
  rw [show p.derivative.eval (cglNode a b nx k) = 2 / (b - a) * ((b - a) / 2 * p.derivative.eval (cglNode a b nx k)) by field_simp, ← this, Finset.mul_sum]
  exact Finset.sum_congr rfl fun j _ => by ring

theorem Diff2.mapped (D : Diff2 nx d2) (hx : 2 ≤ nx) (hab : a ≠ b) {p : ℝ[X]} (hp : p.degree < nx) {k : Nat} (hk : k < nx) :
    ∑ j ∈ Finset.range nx, d2 k j * (2 / (b - a)) * (2 / (b - a)) * p.eval (cglNode a b nx j) = p.derivative.derivative.eval (cglNode a b nx k) := by
  have hd : b - a ≠ 0 := sub_ne_zero.2 (Ne.symm hab)
  have := D (pull a b p) (pull_degree (by omega) hp) k hk
  rw [pull_derivative, Polynomial.derivative_C_mul, pull_derivative, Polynomial.eval_mul, Polynomial.eval_mul, Polynomial.eval_C, pull_eval] at this
  simp only [pull_eval] at this
  change ∑ j ∈ Finset.range nx, d2 k j * p.eval (cglNode a b nx j) = (b - a) / 2 * ((b - a) / 2 * p.derivative.derivative.eval (cglNode a b nx k)) at this
  rw [show p.derivative.derivative.eval (cglNode a b nx k) =
    2 / (b - a) * (2 / (b - a)) * ((b - a) / 2 * ((b - a) / 2 * p.derivative.derivative.eval (cglNode a b nx k))) by field_simp, ← this, Finset.mul_sum]
  exact Finset.sum_congr rfl fun j _ => by ring

end Diff

/-! ### The object -/

/-- an `Spc2d` obtained with the public functions -/
structure SpcSetup2 (xmin xmax ymin ymax : ℝ) (nx ny : Nat) (eops : List (EOp ℝ)) (nops : List (Side × (ℝ → ℝ → ℝ))) (kx ky : ℝ) (S : Spc2d) : Prop where
  made : ∃ e n, runE eops = ok e ∧ runN nops = ok n ∧ Spc2d.new xmin xmax ymin ymax nx ny e n kx ky = ok S

/-- what is known about an `Spc2d` -/
structure Spc2d.Is (S : Spc2d) (a b c d : ℝ) (nx ny : Nat) (T N : Nat → Bool) (eF nF : Nat → ℝ → ℝ → ℝ) (kx ky : ℝ) (P : List Nat)
    (d1x d2x d1y d2y : Nat → Nat → ℝ) : Prop where
  base : Spc2Is S.grid S.ebcs S.nbcs S.equations nx ny T N eF nF P
  xmin : S.xmin = a
  xmax : S.xmax = b
  ymin : S.ymin = c
  ymax : S.ymax = d
  mkx : S.mkx = -kx
  mky : S.mky = -ky
  dd1x : ∃ D, S.interp_x.getDd1 = ok D ∧ IsDense D nx nx d1x
  dd2x : ∃ D, S.interp_x.getDd2 = ok D ∧ IsDense D nx nx d2x
  dd1y : ∃ D, S.interp_y.getDd1 = ok D ∧ IsDense D ny ny d1y
  dd2y : ∃ D, S.interp_y.getDd2 = ok D ∧ IsDense D ny ny d2y
  diff1x : Diff1 nx d1x
  diff2x : Diff2 nx d2x
  diff1y : Diff1 ny d1y
  diff2y : Diff2 ny d2y

/-- what `new` does -/
theorem spc2d_new (a b c d : ℝ) {nx ny : Nat} (hx : 2 ≤ nx) (hx2 : nx ≤ 2049) (hy : 2 ≤ ny) (hy2 : ny ≤ 2049) (eops : List (EOp ℝ))
    (nops : List (Side × (ℝ → ℝ → ℝ))) (kx ky : ℝ) :
    ∃ e n, runE eops = ok e ∧ runN nops = ok n ∧
    (((Per eops .Xmin ∨ Per eops .Ymin) ∧ ∃ m, Spc2d.new a b c d nx ny e n kx ky = err m) ∨
      (¬ Per eops .Xmin ∧ ¬ Per eops .Ymin ∧ ∃ S T N eF nF P d1x d2x d1y d2y, Spc2d.new a b c d nx ny e n kx ky = ok S ∧ S.ebcs = e ∧ S.nbcs = n ∧
        S.Is a b c d nx ny T N eF nF kx ky P d1x d2x d1y d2y ∧
        (∀ s : Side, T s.index = true ↔ Ess eops s) ∧ (∀ s : Side, N s.index = true ↔ Nat' nops s))) := by
  have pre : ∀ (e : EssentialBcs2d ℝ) (n : NaturalBcs2d ℝ) (g : Grid2d ℝ), Grid2d.newCgl nx ny = ok g → Spc2d.new a b c d nx ny e n kx ky =
      (if e.periodic_along_x ∨ e.periodic_along_y then err "essential BCs cannot be periodic"
      else do
        let nodes ← e.getNodes g
        let equations ← (EquationHandler.new g.size).recompute nodes
        let interp_x ← (Lab.Interp.new (nx - 1) none).unwrap
        let interp_y ← (Lab.Interp.new (ny - 1) none).unwrap
        let interp_x ← interp_x.calcDd1
        let interp_y ← interp_y.calcDd1
        let interp_x ← interp_x.calcDd2
        let interp_y ← interp_y.calcDd2
        ok { xmin := a, xmax := b, ymin := c, ymax := d, grid := g, ebcs := e, nbcs := n, mkx := -kx, mky := -ky, equations := equations, interp_x := interp_x, interp_y := interp_y }) := by
    intro e n g hg
    unfold Spc2d.new
    rw [if_neg (by omega), if_neg (by omega)]
    dsimp only
    rw [if_neg (by omega), hg, unwrap_ok, ok_bind]
  by_cases hp : ¬ Per eops .Xmin ∧ ¬ Per eops .Ymin
  · obtain ⟨g, e, n, nodes, h, T, N, eF, nF, eg, ee, en, e1, e2, B, hT, hN⟩ := spc2_make hx hx2 hy hy2 eops nops hp.1 hp.2
    obtain ⟨s, t, u, d1x, d2x, i1, i2, i3, i4, i5, i6, i7⟩ := interp_none hx hx2
    obtain ⟨s', t', u', d1y, d2y, j1, j2, j3, j4, j5, j6, j7⟩ := interp_none hy hy2
    refine ⟨e, n, ee, en, Or.inr ⟨hp.1, hp.2, ?_⟩⟩
    rw [pre e n g eg, B.px, B.py, if_neg (by simp), e1, ok_bind, e2, ok_bind, i1, unwrap_ok, ok_bind, j1, unwrap_ok, ok_bind, i2, ok_bind, j2, ok_bind, i3, ok_bind,
      j3, ok_bind]
    exact ⟨_, T, N, eF, nF, nodes, d1x, d2x, d1y, d2y, rfl, rfl, rfl, ⟨B, rfl, rfl, rfl, rfl, rfl, rfl, i4, i5, j4, j5, i6, i7, j6, j7⟩, hT, hN⟩
  · obtain ⟨e, ee, es⟩ := runE_state eops
    obtain ⟨n, en, _⟩ := runN_state nops
    obtain ⟨g, eg, _⟩ := C46_cgl_2d hx hy
    have hor : Per eops .Xmin ∨ Per eops .Ymin := by tauto
    refine ⟨e, n, ee, en, Or.inl ⟨hor, ?_⟩⟩
    rw [pre e n g eg, if_pos (by rw [es.px, es.py]; exact hor)]
    exact ⟨_, rfl⟩

/-- **C94** `Spc2d::new` for any history of boundary conditions: fewer than two or more than 2049 points along an axis, and periodic conditions, are errors; everything else is accepted,
and the prescribed nodes are those on essential sides. -/
theorem C94_new (a b c d : ℝ) (nx ny : Nat) (eops : List (EOp ℝ)) (nops : List (Side × (ℝ → ℝ → ℝ))) (kx ky : ℝ) :
    ∃ e n, runE eops = ok e ∧ runN nops = ok n ∧
      (2 ≤ nx ∧ nx ≤ 2049 ∧ 2 ≤ ny ∧ ny ≤ 2049 ∧ ¬ Per eops .Xmin ∧ ¬ Per eops .Ymin →
        ∃ S, Spc2d.new a b c d nx ny e n kx ky = ok S ∧
          (∀ m, m ∈ S.equations.prescribed ↔ ∃ i j s, i < nx ∧ j < ny ∧ m = i + j * nx ∧ Ess eops s ∧ On nx ny s i j) ∧
          ∀ m, m ∈ S.equations.unknown ↔ m < nx * ny ∧ m ∉ S.equations.prescribed) ∧
      (¬ (2 ≤ nx ∧ nx ≤ 2049 ∧ 2 ≤ ny ∧ ny ≤ 2049 ∧ ¬ Per eops .Xmin ∧ ¬ Per eops .Ymin) → ∃ msg, Spc2d.new a b c d nx ny e n kx ky = err msg) := by
  by_cases hx : 2 ≤ nx ∧ nx ≤ 2049 ∧ 2 ≤ ny ∧ ny ≤ 2049
  · obtain ⟨x1, x2, x3, x4⟩ := hx
    obtain ⟨e, n, ee, en, h⟩ := spc2d_new a b c d x1 x2 x3 x4 eops nops kx ky
    refine ⟨e, n, ee, en, ?_⟩
    rcases h with ⟨hp, m, hm⟩ | ⟨hp, hp', S, T, N, eF, nF, P, d1x, d2x, d1y, d2y, eS, _, _, H, hT, _⟩
    · exact ⟨fun h => absurd hp (by tauto), fun _ => ⟨m, hm⟩⟩
    · refine ⟨fun _ => ?_, fun h => absurd ⟨x1, x2, x3, x4, hp, hp'⟩ h⟩
      obtain ⟨l1, l2, _, _⟩ := H.base.canon.lists
      refine ⟨S, eS, ?_, ?_⟩
      · intro m
        rw [l2, mem_presc]
        constructor
        · rintro ⟨hm, hmP⟩
          obtain ⟨i, j, hi, hj, rfl⟩ := ij_of x1 hm
          obtain ⟨s, hs, ho⟩ := (H.base.mem hi hj).1 hmP
          exact ⟨i, j, s, hi, hj, rfl, (hT s).1 hs, ho⟩
        · rintro ⟨i, j, s, hi, hj, rfl, hs, ho⟩
          exact ⟨ij_lt hi hj, (H.base.mem hi hj).2 ⟨s, (hT s).2 hs, ho⟩⟩
      · intro m
        rw [l1, l2, mem_unkn, mem_presc]
        tauto
  · obtain ⟨e, ee, _⟩ := runE_state eops
    obtain ⟨n, en, _⟩ := runN_state nops
    refine ⟨e, n, ee, en, ?_⟩
    refine ⟨fun h => absurd ⟨h.1, h.2.1, h.2.2.1, h.2.2.2.1⟩ hx, fun _ => ?_⟩
    unfold Spc2d.new
    by_cases h2 : nx < 2
    · rw [if_pos h2]; exact ⟨_, rfl⟩
    · rw [if_neg h2]
      by_cases h3 : ny < 2
      · rw [if_pos h3]; exact ⟨_, rfl⟩
      · rw [if_neg h3]
        dsimp only
        rw [if_pos (by omega)]
        exact ⟨_, rfl⟩

theorem spc_setup2_is {a b c d : ℝ} {nx ny : Nat} {eops : List (EOp ℝ)} {nops : List (Side × (ℝ → ℝ → ℝ))} {kx ky : ℝ} {S : Spc2d}
    (H : SpcSetup2 a b c d nx ny eops nops kx ky S) : ∃ T N eF nF P d1x d2x d1y d2y, S.Is a b c d nx ny T N eF nF kx ky P d1x d2x d1y d2y ∧
      (∀ s : Side, T s.index = true ↔ Ess eops s) ∧ (∀ s : Side, N s.index = true ↔ Nat' nops s) := by
  obtain ⟨e, n, ee, en, hS⟩ := H.made
  have hx : 2 ≤ nx ∧ nx ≤ 2049 ∧ 2 ≤ ny ∧ ny ≤ 2049 := by
    unfold Spc2d.new at hS
    by_contra hx
    by_cases h2 : nx < 2
    · rw [if_pos h2] at hS; cases hS
    · rw [if_neg h2] at hS
      by_cases h3 : ny < 2
      · rw [if_pos h3] at hS; cases hS
      · rw [if_neg h3] at hS
        dsimp only at hS
        rw [if_pos (by omega)] at hS
        cases hS
  obtain ⟨e', n', ee', en', h⟩ := spc2d_new a b c d hx.1 hx.2.1 hx.2.2.1 hx.2.2.2 eops nops kx ky
  rw [ee] at ee'; cases ee'
  rw [en] at en'; cases en'
  rcases h with ⟨hp, m, hm⟩ | ⟨_, _, S', T, N, eF, nF, P, d1x, d2x, d1y, d2y, eS, _, _, H, h⟩
  · rw [hm] at hS; cases hS
  · rw [eS] at hS; cases hS
    exact ⟨T, N, eF, nF, P, d1x, d2x, d1y, d2y, H, h⟩

/-! ### Rows -/

theorem addIf_ok {c : Prop} [Decidable c] {t : Res ℝ} {d : ℝ} (h : t = ok d) (v : ℝ) : addIf c t v = ok (v + if c then d else 0) := by
  unfold addIf
  by_cases hc : c
  · rw [if_pos hc, if_pos hc, h, ok_bind]
  · rw [if_neg hc, if_neg hc, add_zero]

section Rows

variable {S : Spc2d} {a b c d : ℝ} {nx ny : Nat} {T N : Nat → Bool} {eF nF : Nat → ℝ → ℝ → ℝ} {kx ky : ℝ} {P : List Nat} {d1x d2x d1y d2y : Nat → Nat → ℝ}

/-- entries of the flow rows -/
noncomputable def flowV2 (a b c d kx ky : ℝ) (d1x d1y : Nat → Nat → ℝ) (i j k l : Nat) : Side → ℝ
  | .Xmin => if j = l then kx * (d1x i k * (2 / (b - a))) else 0
  | .Xmax => if j = l then -kx * (d1x i k * (2 / (b - a))) else 0
  | .Ymin => if i = k then ky * (d1y j l * (2 / (d - c))) else 0
  | .Ymax => if i = k then -ky * (d1y j l * (2 / (d - c))) else 0

/-- entries of the matrix -/
noncomputable def spcV2 (a b c d : ℝ) (nx ny : Nat) (N : Nat → Bool) (kx ky alpha : ℝ) (d1x d2x d1y d2y : Nat → Nat → ℝ) (m n : Nat) : ℝ :=
  if enB N nx ny (m % nx) (m / nx) = true then sumOn nx ny (m % nx) (m / nx) (flowV2 a b c d kx ky d1x d1y (m % nx) (m / nx) (n % nx) (n / nx))
  else (if m / nx = n / nx then -kx * (d2x (m % nx) (n % nx) * (2 / (b - a)) * (2 / (b - a))) else 0) +
    (if m % nx = n % nx then -ky * (d2y (m / nx) (n / nx) * (2 / (d - c)) * (2 / (d - c))) else 0) + if m = n then alpha else 0

theorem ite_and_mul {p q : Prop} [Decidable p] [Decidable q] (x : ℝ) : (if p ∧ q then x else 0) = if p then (if q then x else 0) else 0 := by
  by_cases hp : p <;> by_cases hq : q <;> simp [hp, hq]

theorem spc2_val (H : S.Is a b c d nx ny T N eF nF kx ky P d1x d2x d1y d2y) (alpha : ℝ) {m n : Nat} (hm : m < nx * ny) (hn : n < nx * ny) :
    S.val alpha m n = ok (spcV2 a b c d nx ny N kx ky alpha d1x d2x d1y d2y m n) := by
  have hx := H.base.grid.hx
  obtain ⟨D1, e1, h1⟩ := H.dd1x
  obtain ⟨D2, e2, h2⟩ := H.dd2x
  obtain ⟨D3, e3, h3⟩ := H.dd1y
  obtain ⟨D4, e4, h4⟩ := H.dd2y
  obtain ⟨i, j, hi, hj, rfl⟩ := ij_of hx hm
  obtain ⟨k, l, hk, hl, rfl⟩ := ij_of hx hn
  unfold Spc2d.val Grid2d.getIJ
  dsimp only
  rw [H.base.grid.enx, H.base.grid.eny, e1, unwrap_ok, ok_bind, e3, unwrap_ok, ok_bind, e2, unwrap_ok, ok_bind, e4, unwrap_ok, ok_bind,
    mod_ij hi, mod_ij hk, div_ij hi, div_ij hk, H.base.enabled, ok_bind, H.mkx, H.mky, H.xmin, H.xmax, H.ymin, H.ymax]
  unfold spcV2
  rw [mod_ij hi, mod_ij hk, div_ij hi, div_ij hk]
  by_cases hb : enB N nx ny i j = true
  · rw [if_pos hb, if_pos hb, addIf_ok (d := kx * (d1x i k * (2 / (b - a)))) (by rw [h1.get i k hi hk, ok_bind]; congr 1; ring), ok_bind,
      addIf_ok (d := -kx * (d1x i k * (2 / (b - a)))) (by rw [h1.get i k hi hk, ok_bind]; congr 1; ring), ok_bind,
      addIf_ok (d := ky * (d1y j l * (2 / (d - c)))) (by rw [h3.get j l hj hl, ok_bind]; congr 1; ring), ok_bind,
      addIf_ok (d := -ky * (d1y j l * (2 / (d - c)))) (by rw [h3.get j l hj hl, ok_bind]; congr 1; ring)]
    congr 1
    unfold sumOn flowV2
    rw [zero_add, ite_and_mul, ite_and_mul, ite_and_mul, ite_and_mul]
  · rw [if_neg hb, if_neg hb, addIf_ok (d := -kx * (d2x i k * (2 / (b - a)) * (2 / (b - a)))) (by rw [h2.get i k hi hk, ok_bind]; congr 1; ring), ok_bind,
      addIf_ok (d := -ky * (d2y j l * (2 / (d - c)) * (2 / (d - c)))) (by rw [h4.get j l hj hl, ok_bind]; congr 1; ring), ok_bind,
      addIf_ok (d := alpha) rfl, zero_add]

/-- the flow leaving through a side -/
noncomputable def flow2 (kx ky : ℝ) (u : ℝ → ℝ → ℝ) (x y : ℝ) : Side → ℝ
  | .Xmin => kx * ux u x y
  | .Xmax => -kx * ux u x y
  | .Ymin => ky * uy u x y
  | .Ymax => -ky * uy u x y

variable {u : ℝ → ℝ → ℝ}

theorem sumOn_add (i j : Nat) (f f' : Side → ℝ) : sumOn nx ny i j f + sumOn nx ny i j f' = sumOn nx ny i j (fun s => f s + f' s) := by
  unfold sumOn
  split_ifs <;> ring

theorem sumOn_sum (i j : Nat) (s : Finset Nat) (f : Nat → Side → ℝ) (w : Nat → ℝ) :
    ∑ k ∈ s, sumOn nx ny i j (f k) * w k = sumOn nx ny i j (fun t => ∑ k ∈ s, f k t * w k) := by
  classical
  induction s using Finset.induction_on with
  | empty => simp [sumOn]
  | insert x s hx ih =>
    rw [Finset.sum_insert hx, ih]
    unfold sumOn
    simp only [Finset.sum_insert hx]
    split_ifs <;> ring

/-- sums along a grid line -/
theorem sum_line_x {i j : Nat} (hi : i < nx) (hj : j < ny) (A : Nat → Nat → ℝ) (W : Nat → ℝ) :
    ∑ n ∈ Finset.range (nx * ny), (if j = n / nx then A i (n % nx) else 0) * W n = ∑ k ∈ Finset.range nx, A i k * W (k + j * nx) := by
  rw [sum_grid, Finset.sum_eq_single j]
  · refine Finset.sum_congr rfl fun k hk => ?_
    rw [div_ij (Finset.mem_range.1 hk), mod_ij (Finset.mem_range.1 hk), if_pos rfl]
  · intro l _ hl
    refine Finset.sum_eq_zero fun k hk => ?_
    rw [div_ij (Finset.mem_range.1 hk), if_neg (Ne.symm hl), zero_mul]
  · intro h; exact absurd (Finset.mem_range.2 hj) h

theorem sum_line_y {i j : Nat} (hi : i < nx) (A : Nat → Nat → ℝ) (W : Nat → ℝ) :
    ∑ n ∈ Finset.range (nx * ny), (if i = n % nx then A j (n / nx) else 0) * W n = ∑ l ∈ Finset.range ny, A j l * W (i + l * nx) := by
  rw [sum_grid]
  refine Finset.sum_congr rfl fun l _ => ?_
  rw [Finset.sum_eq_single i]
  · rw [mod_ij hi, div_ij hi, if_pos rfl]
  · intro k hk hne
    rw [mod_ij (Finset.mem_range.1 hk), if_neg (Ne.symm hne), zero_mul]
  · intro h; exact absurd (Finset.mem_range.2 hi) h

/-- nodal values -/
noncomputable def nodal2 (a b c d : ℝ) (nx ny : Nat) (u : ℝ → ℝ → ℝ) (m : Nat) : ℝ := u (cglNode a b nx (m % nx)) (cglNode c d ny (m / nx))

theorem nodal2_ij (a b c d : ℝ) (ny : Nat) (u : ℝ → ℝ → ℝ) {i j : Nat} (hi : i < nx) :
    nodal2 a b c d nx ny u (i + j * nx) = u (cglNode a b nx i) (cglNode c d ny j) := by
  unfold nodal2
  rw [mod_ij hi, div_ij hi]

/-- one row applied to the nodal values of a polynomial -/
theorem spc2_row (H : S.Is a b c d nx ny T N eF nF kx ky P d1x d2x d1y d2y) (hab : a ≠ b) (hcd : c ≠ d) (alpha : ℝ) (hu : BiPoly nx ny u) {i j : Nat} (hi : i < nx)
    (hj : j < ny) :
    ∑ n ∈ Finset.range (nx * ny), spcV2 a b c d nx ny N kx ky alpha d1x d2x d1y d2y (i + j * nx) n * nodal2 a b c d nx ny u n =
      if enB N nx ny i j = true then sumOn nx ny i j (flow2 kx ky u (cglNode a b nx i) (cglNode c d ny j))
      else -kx * uxx u (cglNode a b nx i) (cglNode c d ny j) - ky * uyy u (cglNode a b nx i) (cglNode c d ny j) +
        alpha * u (cglNode a b nx i) (cglNode c d ny j) := by
  have hx := H.base.grid.hx
  have hy := H.base.grid.hy
  obtain ⟨p, hp, ep⟩ := hu.x (cglNode c d ny j)
  obtain ⟨q, hq, eq⟩ := hu.y (cglNode a b nx i)
  unfold spcV2
  rw [mod_ij hi, div_ij hi]
  have sx : ∀ A : Nat → Nat → ℝ, ∑ n ∈ Finset.range (nx * ny), (if j = n / nx then A i (n % nx) else 0) * nodal2 a b c d nx ny u n =
      ∑ k ∈ Finset.range nx, A i k * p.eval (cglNode a b nx k) := by
    intro A
    rw [sum_line_x hi hj]
    refine Finset.sum_congr rfl fun k hk => ?_
    rw [nodal2_ij a b c d ny u (Finset.mem_range.1 hk), ep]
  have sy : ∀ A : Nat → Nat → ℝ, ∑ n ∈ Finset.range (nx * ny), (if i = n % nx then A j (n / nx) else 0) * nodal2 a b c d nx ny u n =
      ∑ l ∈ Finset.range ny, A j l * q.eval (cglNode c d ny l) := by
    intro A
    rw [sum_line_y hi]
    refine Finset.sum_congr rfl fun l _ => ?_
    rw [nodal2_ij a b c d ny u hi, eq]
  by_cases hb : enB N nx ny i j = true
  · simp only [if_pos hb]
    rw [sumOn_sum]
    congr 1
    funext s
    cases s
    · show ∑ n ∈ _, (if j = n / nx then kx * (d1x i (n % nx) * (2 / (b - a))) else 0) * _ = _
      rw [sx (fun i k => kx * (d1x i k * (2 / (b - a))))]
      show _ = kx * ux u _ _
      rw [ux_poly ep, ← H.diff1x.mapped hx hab hp hi, Finset.mul_sum]
      exact Finset.sum_congr rfl fun k _ => by ring
    · show ∑ n ∈ _, (if j = n / nx then -kx * (d1x i (n % nx) * (2 / (b - a))) else 0) * _ = _
      rw [sx (fun i k => -kx * (d1x i k * (2 / (b - a))))]
      show _ = -kx * ux u _ _
      rw [ux_poly ep, ← H.diff1x.mapped hx hab hp hi, Finset.mul_sum]
      exact Finset.sum_congr rfl fun k _ => by ring
    · show ∑ n ∈ _, (if i = n % nx then ky * (d1y j (n / nx) * (2 / (d - c))) else 0) * _ = _
      rw [sy (fun j l => ky * (d1y j l * (2 / (d - c))))]
      show _ = ky * uy u _ _
      rw [uy_poly eq, ← H.diff1y.mapped hy hcd hq hj, Finset.mul_sum]
      exact Finset.sum_congr rfl fun k _ => by ring
    · show ∑ n ∈ _, (if i = n % nx then -ky * (d1y j (n / nx) * (2 / (d - c))) else 0) * _ = _
      rw [sy (fun j l => -ky * (d1y j l * (2 / (d - c))))]
      show _ = -ky * uy u _ _
      rw [uy_poly eq, ← H.diff1y.mapped hy hcd hq hj, Finset.mul_sum]
      exact Finset.sum_congr rfl fun k _ => by ring
  · simp only [if_neg hb, add_mul, Finset.sum_add_distrib]
    rw [sx (fun i k => -kx * (d2x i k * (2 / (b - a)) * (2 / (b - a)))), sy (fun j l => -ky * (d2y j l * (2 / (d - c)) * (2 / (d - c)))),
      uxx_poly ep, uyy_poly eq, ← H.diff2x.mapped hx hab hp hi, ← H.diff2y.mapped hy hcd hq hj]
    have : ∑ n ∈ Finset.range (nx * ny), (if i + j * nx = n then alpha else 0) * nodal2 a b c d nx ny u n = alpha * u (cglNode a b nx i) (cglNode c d ny j) := by
      rw [Finset.sum_eq_single (i + j * nx)]
      · rw [if_pos rfl, nodal2_ij a b c d ny u hi]
      · intro n _ hn; rw [if_neg (Ne.symm hn), zero_mul]
      · intro h; exact absurd (Finset.mem_range.2 (ij_lt hi hj)) h
    rw [this, sub_eq_add_neg (_ * _), ← neg_mul ky, Finset.mul_sum, Finset.mul_sum]
    congr 2
    · exact Finset.sum_congr rfl fun k _ => by ring
    · exact Finset.sum_congr rfl fun k _ => by ring

end Rows

/-! ### Properties -/

/-- the collocation equations for a function `u` on `[a, b] × [c, d]`: `-kx ∂²u/∂x² - ky ∂²u/∂y² + α u = source` at the inner nodes; see `Coll2` for the boundary -/
def SpcColl2 (a b c d : ℝ) (nx ny : Nat) (kx ky alpha : ℝ) (source : ℝ → ℝ → ℝ) (E : Side → Prop) (ess nat : Side → ℝ → ℝ → ℝ) (u : ℝ → ℝ → ℝ) : Prop :=
  Coll2 nx ny E (fun i j => u (cglNode a b nx i) (cglNode c d ny j))
    (fun i j => -kx * uxx u (cglNode a b nx i) (cglNode c d ny j) - ky * uyy u (cglNode a b nx i) (cglNode c d ny j) + alpha * u (cglNode a b nx i) (cglNode c d ny j))
    (fun i j => source (cglNode a b nx i) (cglNode c d ny j)) (fun s i j => ess s (cglNode a b nx i) (cglNode c d ny j))
    (fun s i j => flow2 kx ky u (cglNode a b nx i) (cglNode c d ny j) s) (fun s i j => nat s (cglNode a b nx i) (cglNode c d ny j))

section Main

variable {a b c d : ℝ} {nx ny : Nat} {eops : List (EOp ℝ)} {nops : List (Side × (ℝ → ℝ → ℝ))} {kx ky : ℝ} {S : Spc2d}
  {T N : Nat → Bool} {eF nF : Nat → ℝ → ℝ → ℝ} {P : List Nat} {d1x d2x d1y d2y : Nat → Nat → ℝ}

/-- the right hand side of the collocation equations -/
noncomputable def spc2R (S : Spc2d) (a b c d : ℝ) (nx ny : Nat) (nF : Nat → ℝ → ℝ → ℝ) (source : ℝ → ℝ → ℝ) : Nat → ℝ :=
  S.data.R (fun s x => nF s x.1 x.2) (fun m => (fun i j => ((cglNode a b nx i, cglNode c d ny j) : ℝ × ℝ)) (m % nx) (m / nx)) (Function.uncurry source)

/-- the prescribed values -/
noncomputable def spc2D (a b c d : ℝ) (nx ny : Nat) (T : Nat → Bool) (eF : Nat → ℝ → ℝ → ℝ) : Nat → ℝ :=
  dval T (sideNodes nx ny) (fun s (x : ℝ × ℝ) => eF s x.1 x.2) (fun m => (fun i j => ((cglNode a b nx i, cglNode c d ny j) : ℝ × ℝ)) (m % nx) (m / nx)) 4

theorem spc2_map (H : S.Is a b c d nx ny T N eF nF kx ky P d1x d2x d1y d2y) (i j : Nat) :
    (ok (S.mapCoord (cgl nx i, cgl ny j)) : Res (ℝ × ℝ)) = ok (cglNode a b nx i, cglNode c d ny j) := by
  unfold Spc2d.mapCoord
  rw [H.xmin, H.xmax, H.ymin, H.ymax]
  rfl

/-- the collocation equations in terms of the matrix -/
theorem spc2d_coll (H : S.Is a b c d nx ny T N eF nF kx ky P d1x d2x d1y d2y) (hab : a ≠ b) (hcd : c ≠ d) (hv : ∀ s : Side, N s.index = !(T s.index)) (alpha : ℝ)
    (source : ℝ → ℝ → ℝ) {u : ℝ → ℝ → ℝ} (hu : BiPoly nx ny u) :
    IsColl (nx * ny) P (spcV2 a b c d nx ny N kx ky alpha d1x d2x d1y d2y) (spc2R S a b c d nx ny nF source) (spc2D a b c d nx ny T eF) (nodal2 a b c d nx ny u) ↔
    SpcColl2 a b c d nx ny kx ky alpha source (fun s => T s.index = true) (fun s => eF s.index) (fun s => nF s.index) u := by
  have hx := H.base.grid.hx
  unfold spc2R spc2D Spc2d.data
  rw [spc2_coll H.base (Function.uncurry source) (z := fun i j => (cglNode a b nx i, cglNode c d ny j)) (W := nodal2 a b c d nx ny u)
    (pde := fun i j => -kx * uxx u (cglNode a b nx i) (cglNode c d ny j) - ky * uyy u (cglNode a b nx i) (cglNode c d ny j) + alpha * u (cglNode a b nx i) (cglNode c d ny j))
    (flow := fun s i j => flow2 kx ky u (cglNode a b nx i) (cglNode c d ny j) s) (by
      intro i j hi hj hs
      rw [spc2_row H hab hcd alpha hu hi hj]
      have := enB_iff hv hs
      by_cases ho : ∃ s, On nx ny s i j
      · rw [if_pos ho, if_pos (this.2 ho)]
      · rw [if_neg ho, if_neg (fun hh => ho (this.1 hh))])]
  unfold SpcColl2
  constructor
  · rintro ⟨h1, h2, h3⟩
    refine ⟨h1, ?_, h3⟩
    intro i j hi hj s hs ho hl
    have := h2 i j hi hj s hs ho hl
    rwa [nodal2_ij a b c d ny u hi] at this
  · rintro ⟨h1, h2, h3⟩
    refine ⟨h1, ?_, h3⟩
    intro i j hi hj s hs ho hl
    rw [nodal2_ij a b c d ny u hi]
    exact h2 i j hi hj s hs ho hl

theorem nodal2_of {W : Nat → ℝ} {u : ℝ → ℝ → ℝ} (hx : 2 ≤ nx) (h : ∀ i j, i < nx → j < ny → u (cglNode a b nx i) (cglNode c d ny j) = W (i + j * nx)) :
    ∀ m, m < nx * ny → nodal2 a b c d nx ny u m = W m := by
  intro m hm
  obtain ⟨i, j, hi, hj, rfl⟩ := ij_of hx hm
  rw [nodal2_ij a b c d ny u hi, h i j hi hj]

theorem spc2_solve_eq (H : S.Is a b c d nx ny T N eF nF kx ky P d1x d2x d1y d2y) (solver : Coo ℝ → List ℝ → Res (List ℝ)) (alpha : ℝ) (source : ℝ → ℝ → ℝ) :
    S.solveSps solver alpha source = spc2SolveSps S.grid S.ebcs S.nbcs (spcMatricesSps S.equations (nx * nx * ny * ny) (nx * ny) (S.val alpha) 0) S.equations
      (fun rs => ok (S.mapCoord rs)) solver (Function.uncurry source) ∧
    S.solveLmm solver alpha source = spc2SolveLmm S.grid S.ebcs S.nbcs (spcMatricesLmm S.equations (nx * nx * ny * ny) (nx * ny) (S.val alpha) 0 false) S.equations
      (fun rs => ok (S.mapCoord rs)) solver (Function.uncurry source) := by
  unfold Spc2d.solveSps Spc2d.solveLmm Spc2d.getMatricesSps Spc2d.getMatricesLmm Spc2d.getVectorsSps Spc2d.getVectorsLmm Spc2d.data spc2SolveSps spc2SolveLmm
  rw [H.base.grid.enx, H.base.grid.eny, H.base.canon.hneq]
  exact ⟨rfl, rfl⟩

theorem spc2_funs (H : S.Is a b c d nx ny T N eF nF kx ky P d1x d2x d1y d2y) :
    (∀ s : Side, vget S.ebcs.functions s.index = ok (eF s.index)) ∧ ∀ s : Side, vget S.nbcs.functions s.index = ok (nF s.index) :=
  ⟨fun s => H.base.funs.vget (by cases s <;> decide), fun s => H.base.nat.vget (by cases s <;> decide)⟩

/-- **C94** The results of `solve_sps` and `solve_lmm` are the nodal values of a polynomial (of degree less than `nx` in `x` and less than `ny` in `y`) that satisfies the collocation
equations with the boundary functions kept by the objects given. -/
theorem C94_solve (H : SpcSetup2 a b c d nx ny eops nops kx ky S) (hab : a ≠ b) (hcd : c ≠ d) {solver : Coo ℝ → List ℝ → Res (List ℝ)} (hsol : Solves solver) {alpha : ℝ}
    {source : ℝ → ℝ → ℝ} {r : List ℝ} (hr : S.solveSps solver alpha source = ok r ∨ S.solveLmm solver alpha source = ok r) :
    ∃ ess nat : Side → ℝ → ℝ → ℝ, (∀ s, vget S.ebcs.functions s.index = ok (ess s)) ∧ (∀ s, vget S.nbcs.functions s.index = ok (nat s)) ∧ ∃ u, BiPoly nx ny u ∧
      r.length = nx * ny ∧ (∀ i j, i < nx → j < ny → r[i + j * nx]? = some (u (cglNode a b nx i) (cglNode c d ny j))) ∧
      SpcColl2 a b c d nx ny kx ky alpha source (Ess eops) ess nat u := by
  obtain ⟨T, N, eF, nF, P, d1x, d2x, d1y, d2y, I, hT, hN⟩ := spc_setup2_is H
  have hx := I.base.grid.hx
  have hy := I.base.grid.hy
  obtain ⟨f1, f2⟩ := spc2_funs I
  refine ⟨_, _, f1, f2, ?_⟩
  rw [(spc2_solve_eq I solver alpha source).1, (spc2_solve_eq I solver alpha source).2] at hr
  obtain ⟨hval, W, hW, hc⟩ := spc2_solve I.base (mp := fun rs => ok (S.mapCoord rs)) (z := fun i j => (cglNode a b nx i, cglNode c d ny j)) (fun i j _ _ => spc2_map I i j) (fun m k hm hk => spc2_val I alpha hm hk) hsol hr
  have hv := I.base.validate.1 hval
  obtain ⟨u, hu, hW'⟩ := cgl_interp2 hab hcd hx hy (fun i j => W (i + j * nx))
  refine ⟨u, hu, hW.len, ?_, ?_⟩
  · intro i j hi hj
    rw [hW.get _ (ij_lt hi hj), hW' i j hi hj]
  · have := (spc2d_coll I hab hcd hv alpha source hu).1 ((isColl_congr_W I.base.lt (fun m hm => (nodal2_of hx hW' m hm).symm)).1 hc)
    rwa [show (fun s : Side => T s.index = true) = Ess eops from funext fun s => propext (hT s)] at this

/-- **C94** If a polynomial satisfies the collocation equations and the linear solver finds a solution whenever there is one, `solve_lmm` succeeds, and so does `solve_sps`
if there are unknown and prescribed nodes. -/
theorem C94_complete (H : SpcSetup2 a b c d nx ny eops nops kx ky S) (hab : a ≠ b) (hcd : c ≠ d) (hval : S.ebcs.validate S.nbcs = ok ()) {alpha : ℝ} {source : ℝ → ℝ → ℝ}
    {ess nat : Side → ℝ → ℝ → ℝ} (hf : ∀ s, vget S.ebcs.functions s.index = ok (ess s)) (hg : ∀ s, vget S.nbcs.functions s.index = ok (nat s))
    {u : ℝ → ℝ → ℝ} (hu : BiPoly nx ny u) (hc : SpcColl2 a b c d nx ny kx ky alpha source (Ess eops) ess nat u)
    {solver : Coo ℝ → List ℝ → Res (List ℝ)} (hsol : Solves solver) (hcomp : Complete solver) :
    (∃ r, S.solveLmm solver alpha source = ok r) ∧ (S.equations.nu ≠ 0 → S.equations.np ≠ 0 → ∃ r, S.solveSps solver alpha source = ok r) := by
  obtain ⟨T, N, eF, nF, P, d1x, d2x, d1y, d2y, I, hT, hN⟩ := spc_setup2_is H
  have hv := I.base.validate.1 hval
  obtain ⟨f1, f2⟩ := spc2_funs I
  have e1 : ess = fun s : Side => eF s.index := funext fun s => by have := hf s; rw [f1 s] at this; exact (Res.ok.inj this).symm
  have e2 : nat = fun s : Side => nF s.index := funext fun s => by have := hg s; rw [f2 s] at this; exact (Res.ok.inj this).symm
  rw [e1, e2, ← show (fun s : Side => T s.index = true) = Ess eops from funext fun s => propext (hT s), ← spc2d_coll I hab hcd hv alpha source hu] at hc
  rw [(spc2_solve_eq I solver alpha source).1, (spc2_solve_eq I solver alpha source).2]
  exact spc2_complete I.base (mp := fun rs => ok (S.mapCoord rs)) (z := fun i j => (cglNode a b nx i, cglNode c d ny j)) (fun i j _ _ => spc2_map I i j) (fun m k hm hk => spc2_val I alpha hm hk) hval hsol hcomp hc

/-- **C94** Consistent boundary conditions and a linear solver that does not panic: `solve_lmm` does not panic, and `solve_sps` panics exactly when no side is essential or
every node is on an essential side. -/
theorem C94_panics (H : SpcSetup2 a b c d nx ny eops nops kx ky S) (hval : S.ebcs.validate S.nbcs = ok ()) {solver : Coo ℝ → List ℝ → Res (List ℝ)} (hsol : Solves solver)
    (hnp : ∀ A v, solver A v ≠ Res.panic) (alpha : ℝ) (source : ℝ → ℝ → ℝ) :
    S.solveLmm solver alpha source ≠ Res.panic ∧ (S.solveSps solver alpha source = Res.panic ↔
      (∀ s, ¬ Ess eops s) ∨ ∀ i j, i < nx → j < ny → ∃ s, Ess eops s ∧ On nx ny s i j) := by
  obtain ⟨T, N, eF, nF, P, d1x, d2x, d1y, d2y, I, hT, hN⟩ := spc_setup2_is H
  rw [(spc2_solve_eq I solver alpha source).1, (spc2_solve_eq I solver alpha source).2]
  have := spc2_panics I.base (mp := fun rs => ok (S.mapCoord rs)) (z := fun i j => (cglNode a b nx i, cglNode c d ny j)) (fun i j _ _ => spc2_map I i j) (fun m k hm hk => spc2_val I alpha hm hk) hval hsol hnp (Function.uncurry source)
  refine ⟨this.1, this.2.trans ?_⟩
  simp only [← hT, Bool.not_eq_true]

/-- **C94** The two systems, for any polynomial: its values at the unknown nodes solve the partitioned system and its values at the other nodes are the prescribed ones exactly
when it satisfies the collocation equations; and this is also when its nodal values are the first part of a solution of the system with multipliers. -/
theorem C94_systems (H : SpcSetup2 a b c d nx ny eops nops kx ky S) (hab : a ≠ b) (hcd : c ≠ d) (hval : S.ebcs.validate S.nbcs = ok ()) (alpha : ℝ) (source : ℝ → ℝ → ℝ)
    (extra : Nat) :
    ∃ (ess nat : Side → ℝ → ℝ → ℝ) (z ac fb z' ff : List ℝ), (∀ s, vget S.ebcs.functions s.index = ok (ess s)) ∧ (∀ s, vget S.nbcs.functions s.index = ok (nat s)) ∧
      S.getVectorsSps source = ok (z, ac, fb) ∧ S.getVectorsLmm source = ok (z', ff) ∧
    (S.equations.nu ≠ 0 → S.equations.np ≠ 0 → ∃ kk kc A α Bm β, S.getMatricesSps alpha extra = ok (kk, kc) ∧
      kk.asDense = ok A ∧ IsDense A S.equations.nu S.equations.nu α ∧ kc.asDense = ok Bm ∧ IsDense Bm S.equations.nu S.equations.np β ∧
      ∀ u, BiPoly nx ny u →
        (((∀ i, i < S.equations.nu → ∑ j ∈ Finset.range S.equations.nu, α i j * nodal2 a b c d nx ny u (S.equations.unknown.getD j 0) +
          ∑ j ∈ Finset.range S.equations.np, β i j * ac.getD j 0 = fb.getD i 0) ∧
        ∀ j, j < S.equations.np → nodal2 a b c d nx ny u (S.equations.prescribed.getD j 0) = ac.getD j 0) ↔
        SpcColl2 a b c d nx ny kx ky alpha source (Ess eops) ess nat u)) ∧
    ∃ mm M μ, S.getMatricesLmm alpha extra false = ok (mm, none) ∧
      mm.asDense = ok M ∧ IsDense M (nx * ny + S.equations.np) (nx * ny + S.equations.np) μ ∧
      ∀ u, BiPoly nx ny u →
        ((∃ y : Nat → ℝ, (∀ m, m < nx * ny → y m = nodal2 a b c d nx ny u m) ∧ ∀ i, i < nx * ny + S.equations.np →
          ∑ j ∈ Finset.range (nx * ny + S.equations.np), μ i j * y j = ff.getD i 0) ↔
        SpcColl2 a b c d nx ny kx ky alpha source (Ess eops) ess nat u) := by
  obtain ⟨T, N, eF, nF, P, d1x, d2x, d1y, d2y, I, hT, hN⟩ := spc_setup2_is H
  have hv := I.base.validate.1 hval
  obtain ⟨hs1, hs2⟩ := I.base.size
  obtain ⟨f1, f2⟩ := spc2_funs I
  have hd := spc2_data I.base (mp := fun rs => ok (S.mapCoord rs)) (z := fun i j => (cglNode a b nx i, cglNode c d ny j)) (fun i j _ _ => spc2_map I i j)
  obtain ⟨ac, fb, ev, v⟩ := hd.vectorsSps (by omega) (Function.uncurry source)
  obtain ⟨ff, ev', v'⟩ := hd.vectorsLmm (by omega) (Function.uncurry source)
  refine ⟨_, _, _, ac, fb, _, ff, f1, f2, ev, ev', ?_⟩
  obtain ⟨r1, r2⟩ := spc_systems I.base.canon I.base.lt (by omega) (by omega) (fun m n hm hn => spc2_val I alpha hm hn) extra v v'
  obtain ⟨_, _, l3, l4⟩ := I.base.canon.lists
  have hcoll : ∀ u, BiPoly nx ny u → (IsColl (nx * ny) P (spcV2 a b c d nx ny N kx ky alpha d1x d2x d1y d2y) (spc2R S a b c d nx ny nF source)
      (spc2D a b c d nx ny T eF) (nodal2 a b c d nx ny u) ↔ SpcColl2 a b c d nx ny kx ky alpha source (Ess eops) (fun s => eF s.index) (fun s => nF s.index) u) := by
    intro u hu
    rw [← show (fun s : Side => T s.index = true) = Ess eops from funext fun s => propext (hT s)]
    exact spc2d_coll I hab hcd hv alpha source hu
  unfold Spc2d.getMatricesSps Spc2d.getMatricesLmm
  rw [I.base.grid.enx, I.base.grid.eny, I.base.canon.hneq, spc2_nnz]
  constructor
  · intro hu hp
    obtain ⟨kk, kc, A, α, Bm, β, e1, e2, e3, e4, e5, e6⟩ := r1 (by rw [← l3]; omega) (by rw [← l4]; omega)
    refine ⟨kk, kc, A, α, Bm, β, e1, e2, e3, e4, e5, ?_⟩
    intro u hu
    rw [← hcoll u hu]
    exact e6 (nodal2 a b c d nx ny u)
  · obtain ⟨mm, M, μ, e1, e2, e3, e4⟩ := r2
    refine ⟨mm, M, μ, e1, e2, e3, ?_⟩
    intro u hu
    rw [← hcoll u hu]
    exact e4 (nodal2 a b c d nx ny u)

/-- **C94** The flow vectors computed from the nodal values of a polynomial are `-kx ∂u/∂x` and `-ky ∂u/∂y`; a vector of the wrong length is an error. -/
theorem C94_flow (H : SpcSetup2 a b c d nx ny eops nops kx ky S) (hab : a ≠ b) (hcd : c ≠ d) :
    (∀ v : List ℝ, v.length ≠ nx * ny → ∃ m, S.calculateFlowVectors v = err m) ∧
    ∀ u, BiPoly nx ny u → S.calculateFlowVectors ((List.range (nx * ny)).map (nodal2 a b c d nx ny u)) =
      ok ((List.range (nx * ny)).map (nodal2 a b c d nx ny fun x y => -kx * ux u x y), (List.range (nx * ny)).map (nodal2 a b c d nx ny fun x y => -ky * uy u x y)) := by
  obtain ⟨T, N, eF, nF, P, d1x, d2x, d1y, d2y, I, hT, hN⟩ := spc_setup2_is H
  have hx := I.base.grid.hx
  have hy := I.base.grid.hy
  unfold Spc2d.calculateFlowVectors
  dsimp only
  rw [I.base.canon.hneq]
  constructor
  · intro v hv
    rw [if_pos hv]; exact ⟨_, rfl⟩
  · intro u hu
    rw [if_neg (by simp)]
    obtain ⟨D, eD, hD⟩ := I.dd1x
    obtain ⟨D', eD', hD'⟩ := I.dd1y
    rw [eD, unwrap_ok, ok_bind, eD', unwrap_ok, ok_bind, I.xmin, I.xmax, I.ymin, I.ymax, I.mkx, I.mky]
    have hv : Lab.IsVec ((List.range (nx * ny)).map (nodal2 a b c d nx ny u)) (nx * ny) (nodal2 a b c d nx ny u) :=
      ⟨by simp, by intro i hi; simp [hi]⟩
    generalize (List.range (nx * ny)).map (nodal2 a b c d nx ny u) = v at hv
    unfold Grid2d.getIJ
    rw [I.base.grid.enx]
    obtain ⟨w, ew, hw1, hw2⟩ := forRange_spec (lo := 0) (hi := nx * ny) (s := (List.replicate (nx * ny) (0 : ℝ), List.replicate (nx * ny) (0 : ℝ)))
      (f := fun m ww => do
        let w ← forRange 0 (nx * ny) ((0 : ℝ), (0 : ℝ)) fun n w => do
          let akl ← vget v n
          let w0 ← addIf (m / nx = n / nx) (do let d ← D.get (m % nx) (n % nx); ok (-kx * d * (2 / (b - a)) * akl)) w.1
          let w1 ← addIf (m % nx = n % nx) (do let e ← D'.get (m / nx) (n / nx); ok (-ky * e * (2 / (d - c)) * akl)) w.2
          ok (w0, w1)
        let wwx ← vset ww.1 m w.1
        let wwy ← vset ww.2 m w.2
        ok (wwx, wwy))
      (I := fun t w => Lab.IsVec w.1 (nx * ny) (fun m => if m < t then nodal2 a b c d nx ny (fun x y => -kx * ux u x y) m else 0) ∧
        Lab.IsVec w.2 (nx * ny) (fun m => if m < t then nodal2 a b c d nx ny (fun x y => -ky * uy u x y) m else 0)) (Nat.zero_le _) (by
        constructor
        · apply (Lab.isVec_replicate _ (0 : ℝ)).congr
          intro i _; simp
        · apply (Lab.isVec_replicate _ (0 : ℝ)).congr
          intro i _; simp) (by
        intro m w _ hm hw
        obtain ⟨i, j, hi, hj, rfl⟩ := ij_of hx hm
        rw [mod_ij hi, div_ij hi]
        obtain ⟨wx, e1, h1, h2⟩ := forRange_spec (lo := 0) (hi := nx * ny) (s := ((0 : ℝ), (0 : ℝ)))
          (f := fun n w => do
            let akl ← vget v n
            let w0 ← addIf (j = n / nx) (do let d ← D.get i (n % nx); ok (-kx * d * (2 / (b - a)) * akl)) w.1
            let w1 ← addIf (i = n % nx) (do let e ← D'.get j (n / nx); ok (-ky * e * (2 / (d - c)) * akl)) w.2
            ok (w0, w1))
          (I := fun t w => w.1 = ∑ n ∈ Finset.range t, (if j = n / nx then -kx * (d1x i (n % nx) * (2 / (b - a))) else 0) * nodal2 a b c d nx ny u n ∧
            w.2 = ∑ n ∈ Finset.range t, (if i = n % nx then -ky * (d1y j (n / nx) * (2 / (d - c))) else 0) * nodal2 a b c d nx ny u n) (Nat.zero_le _) (by simp) (by
            intro n w _ hn hw
            obtain ⟨k, l, hk, hl, rfl⟩ := ij_of hx hn
            rw [mod_ij hk, div_ij hk, hv.vget hn, ok_bind,
              addIf_ok (d := -kx * (d1x i k * (2 / (b - a))) * nodal2 a b c d nx ny u (k + l * nx)) (by rw [hD.get i k hi hk, ok_bind]; congr 1; ring), ok_bind,
              addIf_ok (d := -ky * (d1y j l * (2 / (d - c))) * nodal2 a b c d nx ny u (k + l * nx)) (by rw [hD'.get j l hj hl, ok_bind]; congr 1; ring), ok_bind]
            refine ⟨_, rfl, ?_, ?_⟩
            · rw [Finset.sum_range_succ, hw.1, mod_ij hk, div_ij hk, ite_mul, zero_mul]
            · rw [Finset.sum_range_succ, hw.2, mod_ij hk, div_ij hk, ite_mul, zero_mul])
        rw [e1, ok_bind]
        obtain ⟨w1, e2, g1⟩ := hw.1.vset hm wx.1
        obtain ⟨w2, e3, g2⟩ := hw.2.vset hm wx.2
        rw [e2, ok_bind, e3, ok_bind]
        obtain ⟨p, hp, ep⟩ := hu.x (cglNode c d ny j)
        obtain ⟨q, hq, eq⟩ := hu.y (cglNode a b nx i)
        refine ⟨_, rfl, g1.congr ?_, g2.congr ?_⟩
        · intro k hk
          by_cases him : k = i + j * nx
          · subst him
            rw [if_pos rfl, if_pos (by omega), h1, sum_line_x hi hj (fun i k => -kx * (d1x i k * (2 / (b - a)))), nodal2_ij a b c d ny _ hi, ux_poly ep,
              ← I.diff1x.mapped hx hab hp hi, Finset.mul_sum]
            refine Finset.sum_congr rfl fun k hk => ?_
            rw [nodal2_ij a b c d ny u (Finset.mem_range.1 hk), ep]; ring
          · by_cases hlt : k < i + j * nx
            · rw [if_neg him, if_pos hlt, if_pos (by omega)]
            · rw [if_neg him, if_neg hlt, if_neg (by omega)]
        · intro k hk
          by_cases him : k = i + j * nx
          · subst him
            rw [if_pos rfl, if_pos (by omega), h2, sum_line_y hi (fun j l => -ky * (d1y j l * (2 / (d - c)))), nodal2_ij a b c d ny _ hi, uy_poly eq,
              ← I.diff1y.mapped hy hcd hq hj, Finset.mul_sum]
            refine Finset.sum_congr rfl fun l _ => ?_
            rw [nodal2_ij a b c d ny u hi, eq]; ring
          · by_cases hlt : k < i + j * nx
            · rw [if_neg him, if_pos hlt, if_pos (by omega)]
            · rw [if_neg him, if_neg hlt, if_neg (by omega)])
    rw [ew]
    have fin : ∀ (w : List ℝ) (f : Nat → ℝ), Lab.IsVec w (nx * ny) (fun m => if m < nx * ny then f m else 0) → w = (List.range (nx * ny)).map f := by
      intro w f hw
      apply List.ext_getElem?
      intro m
      by_cases hm : m < nx * ny
      · rw [hw.get m hm, if_pos hm]; simp [hm]
      · rw [List.getElem?_eq_none (by rw [hw.len]; omega)]; simp; omega
    rw [← fin _ _ hw1, ← fin _ _ hw2]

end Main

end Russell.Pde
