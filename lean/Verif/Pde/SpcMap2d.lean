import Verif.Pde.MapCalc

/-!
# Spectral collocation on mapped domains (C95)

Model of `SpcMap2d` (/repo/russell_pde/src/spc_map_2d.rs) over the real numbers.  The linear solver is a parameter, and so is LAPACK, which the metrics would use for larger
dimensions.
-/

namespace Russell.Pde

open Russell Res Russell.Sparse Russell.Lab Polynomial Filter Topology

/-- `SpcMap2d` (/repo/russell_pde/src/spc_map_2d.rs:159-238); the solver kind and the vectors for intermediate results are left out -/
structure SpcMap2d where make ::
  grid : Grid2d ℝ
  ebcs : EssentialBcs2d ℝ
  nbcs : NaturalBcs2d ℝ
  mk : ℝ
  equations : EquationHandler
  interp_r : Lab.Interp
  interp_s : Lab.Interp
  metrics : Metrics ℝ
  map : Transfinite2d

noncomputable section

/-- `ZERO_DETERMINANT` (/repo/russell_lab/src/matrix/mat_inverse.rs:23) -/
def zeroDet : ℝ := 1e-15

/-- `SpcMap2d::new` (/repo/russell_pde/src/spc_map_2d.rs:268-335) -/
def SpcMap2d.new (map : Transfinite2d) (nr ns : Nat) (ebcs : EssentialBcs2d ℝ) (nbcs : NaturalBcs2d ℝ) (k : ℝ) : Res SpcMap2d :=
  if nr < 2 then err "nr must be ≥ 2"
  else if ns < 2 then err "ns must be ≥ 2"
  else
    let nn_r := nr - 1
    let nn_s := ns - 1
    if nn_r > 2048 ∨ nn_s > 2048 then err "the maximum allowed polynomial degree is 2048"
    else do
      let grid ← (Grid2d.newCgl nr ns).unwrap
      if ebcs.periodic_along_x ∨ ebcs.periodic_along_y then err "essential BCs cannot be periodic"
      else do
        let neq := grid.size
        let nodes ← ebcs.getNodes grid
        let equations ← (EquationHandler.new neq).recompute nodes
        let interp_r ← (Lab.Interp.new nn_r none).unwrap
        let interp_s ← (Lab.Interp.new nn_s none).unwrap
        let interp_r ← interp_r.calcDd1
        let interp_s ← interp_s.calcDd1
        let interp_r ← interp_r.calcDd2
        let interp_s ← interp_s.calcDd2
        ok { grid, ebcs, nbcs, mk := -k, equations, interp_r, interp_s, metrics := Metrics.new 2 false, map }

/-- `calculate_metrics` (/repo/russell_pde/src/spc_map_2d.rs:972-995).  The coefficients computed earlier are overwritten, so they are computed from the initial object each time.
`point_and_derivs` leaves the second derivatives unchanged only if an argument is missing; this does not happen (`x2_some`). -/
def SpcMap2d.calculateMetrics (S : SpcMap2d) (lp : Lapack ℝ) (m : Nat) : Res (Metrics ℝ) := do
  let (r, s) ← S.grid.coord m
  let d := S.map.pointAndDerivs true true true r s
  match d.second with
  | none => panic
  | some (rr, ss, rs) =>
    match S.metrics.calculate2d lp zeroDet (List.ofFn d.dr) (List.ofFn d.ds) (some (List.ofFn rr)) (some (List.ofFn ss)) (some (List.ofFn rs)) with
    | (me, ok _) => ok me
    | _ => panic

/-- the contravariant base vector -/
def gCtr (me : Metrics ℝ) (k : Nat) : List ℝ := [me.g_ctr k 0, me.g_ctr k 1]

/-- `calc_unit_normal` (/repo/russell_pde/src/spc_map_2d.rs:944-954) -/
def calcUnitNormal (me : Metrics ℝ) (side : Side) : List ℝ :=
  let un := match side with
    | .Xmin => (gCtr me 0).map fun x => -1 * x
    | .Xmax => (gCtr me 0).map fun x => 1 * x
    | .Ymin => (gCtr me 1).map fun x => -1 * x
    | .Ymax => (gCtr me 1).map fun x => 1 * x
  let norm_u := Real.sqrt ((un.map fun x => x * x).sum)
  un.map fun x => x / norm_u

/-- `delta` (/repo/russell_pde/src/util.rs:3-5) -/
def delta (i j : Nat) : ℝ := if i = j then 1 else 0

/-- the entry of row `m` and column `n` (/repo/russell_pde/src/spc_map_2d.rs:580-641, /repo/russell_pde/src/spc_map_2d.rs:681-740); the metrics and the matrices of the interpolators are
fetched here rather than once per row -/
def SpcMap2d.val (S : SpcMap2d) (lp : Lapack ℝ) (alpha : ℝ) (m n : Nat) : Res ℝ := do
  let nr := S.grid.nx
  let ns := S.grid.ny
  let (i, j) := S.grid.getIJ m
  let me ← S.calculateMetrics lp m
  let g11 := me.gg_mat 0 0
  let g22 := me.gg_mat 1 1
  let g12 := me.gg_mat 0 1
  let ll1 ← me.ell 0
  let ll2 ← me.ell 1
  let dd1r ← S.interp_r.getDd1.unwrap
  let dd1s ← S.interp_s.getDd1.unwrap
  let dd2r ← S.interp_r.getDd2.unwrap
  let dd2s ← S.interp_s.getDd2.unwrap
  let on ← S.nbcs.enabledIJ i j S.grid
  let (k, l) := S.grid.getIJ n
  if on then do
    let v ← addIf (i = 0 ∧ j = l) (do let d ← dd1r.get i k; ok (S.mk * d * innerProd (calcUnitNormal me .Xmin) (gCtr me 0))) 0
    let v ← addIf (i = nr - 1 ∧ j = l) (do let d ← dd1r.get i k; ok (S.mk * d * innerProd (calcUnitNormal me .Xmax) (gCtr me 0))) v
    let v ← addIf (j = 0 ∧ i = k) (do let d ← dd1s.get j l; ok (S.mk * d * innerProd (calcUnitNormal me .Ymin) (gCtr me 1))) v
    addIf (j = ns - 1 ∧ i = k) (do let d ← dd1s.get j l; ok (S.mk * d * innerProd (calcUnitNormal me .Ymax) (gCtr me 1))) v
  else do
    let d2r ← dd2r.get i k
    let d2s ← dd2s.get j l
    let d1r ← dd1r.get i k
    let d1s ← dd1s.get j l
    let v := 0 + d2r * delta j l * g11 + delta i k * d2s * g22 + d1r * d1s * 2 * g12 - d1r * delta j l * ll1 - delta i k * d1s * ll2
    let v := v * S.mk
    addIf (m = n) (ok alpha) v

/-- the mapping of the coordinates (/repo/russell_pde/src/spc_map_2d.rs:789-790, /repo/russell_pde/src/spc_map_2d.rs:819-820) -/
def SpcMap2d.mapCoord (S : SpcMap2d) (rs : ℝ × ℝ) : ℝ × ℝ := (S.map.point rs.1 rs.2 0, S.map.point rs.1 rs.2 1)

/-- what the assembly of the vectors reads -/
def SpcMap2d.data (S : SpcMap2d) : SpcData (ℝ × ℝ) ℝ := spcData2 S.grid S.ebcs S.nbcs S.equations fun rs => ok (S.mapCoord rs)

/-- `get_matrices_sps` (/repo/russell_pde/src/spc_map_2d.rs:568-646) -/
def SpcMap2d.getMatricesSps (S : SpcMap2d) (lp : Lapack ℝ) (alpha : ℝ) (extra : Nat) : Res (Coo ℝ × Coo ℝ) :=
  spcMatricesSps S.equations (S.grid.nx * S.grid.nx * S.grid.ny * S.grid.ny) S.equations.neq (S.val lp alpha) extra

/-- `get_matrices_lmm` (/repo/russell_pde/src/spc_map_2d.rs:666-762) -/
def SpcMap2d.getMatricesLmm (S : SpcMap2d) (lp : Lapack ℝ) (alpha : ℝ) (extra : Nat) (getc : Bool) : Res (Coo ℝ × Option (Coo ℝ)) :=
  spcMatricesLmm S.equations (S.grid.nx * S.grid.nx * S.grid.ny * S.grid.ny) S.equations.neq (S.val lp alpha) extra getc

/-- `get_vectors_sps` (/repo/russell_pde/src/spc_map_2d.rs:778-828) -/
def SpcMap2d.getVectorsSps (S : SpcMap2d) (source : ℝ → ℝ → ℝ) : Res (List ℝ × List ℝ × List ℝ) := S.data.getVectorsSps (Function.uncurry source)

/-- `get_vectors_lmm` (/repo/russell_pde/src/spc_map_2d.rs:870-916) -/
def SpcMap2d.getVectorsLmm (S : SpcMap2d) (source : ℝ → ℝ → ℝ) : Res (List ℝ × List ℝ) := S.data.getVectorsLmm (Function.uncurry source)

/-- `solve_sps` (/repo/russell_pde/src/spc_map_2d.rs:378-399) -/
def SpcMap2d.solveSps (S : SpcMap2d) (lp : Lapack ℝ) (solver : Coo ℝ → List ℝ → Res (List ℝ)) (alpha : ℝ) (source : ℝ → ℝ → ℝ) : Res (List ℝ) := do
  S.ebcs.validate S.nbcs
  spcFinishSps S.equations (S.getMatricesSps lp alpha 0) (S.getVectorsSps source) solver

/-- `solve_lmm` (/repo/russell_pde/src/spc_map_2d.rs:432-451) -/
def SpcMap2d.solveLmm (S : SpcMap2d) (lp : Lapack ℝ) (solver : Coo ℝ → List ℝ → Res (List ℝ)) (alpha : ℝ) (source : ℝ → ℝ → ℝ) : Res (List ℝ) := do
  S.ebcs.validate S.nbcs
  spcFinishLmm S.equations (S.getMatricesLmm lp alpha 0 false) (S.getVectorsLmm source) solver

/-- `calculate_flow_vectors` (/repo/russell_pde/src/spc_map_2d.rs:466-492) -/
def SpcMap2d.calculateFlowVectors (S : SpcMap2d) (lp : Lapack ℝ) (a : List ℝ) : Res (List ℝ × List ℝ) :=
  let neq := S.equations.neq
  if a.length ≠ neq then err "a.dim() must equal the number of equations"
  else
    forRange 0 neq (List.replicate neq 0, List.replicate neq 0) fun m ww => do
      let me ← S.calculateMetrics lp m
      let (i, j) := S.grid.getIJ m
      let w ← forRange 0 neq ((0 : ℝ), (0 : ℝ)) fun n w => do
        let (k, l) := S.grid.getIJ n
        let akl ← vget a n
        let dd1r ← S.interp_r.getDd1.unwrap
        let dd1s ← S.interp_s.getDd1.unwrap
        let d1r ← dd1r.get i k
        let d1s ← dd1s.get j l
        ok (w.1 + S.mk * (d1r * delta j l * me.g_ctr 0 0 + delta i k * d1s * me.g_ctr 1 0) * akl,
          w.2 + S.mk * (d1r * delta j l * me.g_ctr 0 1 + delta i k * d1s * me.g_ctr 1 1) * akl)
      let wwx ← vset ww.1 m w.1
      let wwy ← vset ww.2 m w.2
      ok (wwx, wwy)

/-! ### Geometry -/

/-- inner product of the plane -/
def dot (v w : Pl) : ℝ := v 0 * w 0 + v 1 * w 1

/-- the tangents of the grid lines -/
def tanR (m : Transfinite2d) (r s : ℝ) : Pl := fun i => deriv (fun t => m.point t s i) r
/-- the tangents of the grid lines -/
def tanS (m : Transfinite2d) (r s : ℝ) : Pl := fun i => deriv (fun t => m.point r t i) s

/-- the tangent of the side -/
def along (m : Transfinite2d) (side : Side) (r s : ℝ) : Pl :=
  match side with | .Xmin => tanS m r s | .Xmax => tanS m r s | .Ymin => tanR m r s | .Ymax => tanR m r s

/-- the tangent of the grid line crossing the side -/
def cross (m : Transfinite2d) (side : Side) (r s : ℝ) : Pl :=
  match side with | .Xmin => tanR m r s | .Xmax => tanR m r s | .Ymin => tanS m r s | .Ymax => tanS m r s

/-- whether the grid line leaves (`1`) or enters (`-1`) the domain through the side -/
def outward : Side → ℝ
  | .Xmin => -1
  | .Xmax => 1
  | .Ymin => -1
  | .Ymax => 1

/-- the Jacobian determinant is not considered zero -/
def Regular (m : Transfinite2d) (r s : ℝ) : Prop := 1e-15 < (tanR m r s 0 * tanS m r s 1 - tanS m r s 0 * tanR m r s 1) ^ 2

/-- the outward unit normal of a side -/
structure IsNormal (m : Transfinite2d) (side : Side) (r s : ℝ) (n : Pl) : Prop where
  one : dot n n = 1
  orth : dot n (along m side r s) = 0
  out : 0 < outward side * dot n (cross m side r s)

variable {m : Transfinite2d} {r s : ℝ} {me : Metrics ℝ}

theorem tan_eq (H : MapOk m) (r s : ℝ) (i : Fin 2) : tanR m r s i = xr m i ![r, s] ∧ tanS m r s i = xs m i ![r, s] :=
  ⟨((map_hasP2 H i).first.along_r r s).deriv, ((map_hasP2 H i).first.along_s r s).deriv⟩

theorem jac_det (H : MapOk m) (r s : ℝ) : (jac2 (List.ofFn fun i => xr m i ![r, s]) (List.ofFn fun i => xs m i ![r, s])).det =
    tanR m r s 0 * tanS m r s 1 - tanS m r s 0 * tanR m r s 1 := by
  rw [Matrix.det_fin_two, (tan_eq H r s 0).1, (tan_eq H r s 0).2, (tan_eq H r s 1).1, (tan_eq H r s 1).2]
  simp [jac2]

/-- the contravariant base vectors are dual to the tangents -/
theorem ctr_dot (H : MapOk m) (h : MetricsAt m r s me) :
    me.g_ctr 0 0 * tanR m r s 0 + me.g_ctr 0 1 * tanR m r s 1 = 1 ∧ me.g_ctr 0 0 * tanS m r s 0 + me.g_ctr 0 1 * tanS m r s 1 = 0 ∧
    me.g_ctr 1 0 * tanR m r s 0 + me.g_ctr 1 1 * tanR m r s 1 = 0 ∧ me.g_ctr 1 0 * tanS m r s 0 + me.g_ctr 1 1 * tanS m r s 1 = 1 := by
  have h0 := h.1.ctr.1
  have e := fun i j => congrFun (congrFun h0 i) j
  simp only [Matrix.mul_apply, Fin.sum_univ_two, blockOf, jac2] at e
  rw [(tan_eq H r s 0).1, (tan_eq H r s 0).2, (tan_eq H r s 1).1, (tan_eq H r s 1).2]
  have e00 := e 0 0
  have e01 := e 0 1
  have e10 := e 1 0
  have e11 := e 1 1
  simp at e00 e01 e10 e11
  exact ⟨e00, e01, e10, e11⟩

theorem normal_alg {a0 a1 b0 b1 g0 g1 σ : ℝ} (hσ : σ * σ = 1) (ga : g0 * a0 + g1 * a1 = 1) (gb : g0 * b0 + g1 * b1 = 0) (hdet : a0 * b1 - b0 * a1 ≠ 0) :
    (∀ n0 n1 : ℝ, n0 * n0 + n1 * n1 = 1 → n0 * b0 + n1 * b1 = 0 → 0 < σ * (n0 * a0 + n1 * a1) →
      σ * g0 / Real.sqrt (σ * g0 * (σ * g0) + σ * g1 * (σ * g1)) * g0 + σ * g1 / Real.sqrt (σ * g0 * (σ * g0) + σ * g1 * (σ * g1)) * g1 = 1 / (n0 * a0 + n1 * a1)) ∧
    ∃ n0 n1 : ℝ, n0 * n0 + n1 * n1 = 1 ∧ n0 * b0 + n1 * b1 = 0 ∧ 0 < σ * (n0 * a0 + n1 * a1) := by
  have hx : σ * g0 * (σ * g0) + σ * g1 * (σ * g1) = g0 * g0 + g1 * g1 := by linear_combination (g0 * g0 + g1 * g1) * hσ
  rw [hx]
  have hpos : 0 < g0 * g0 + g1 * g1 := by
    by_contra hn
    have h0 : g0 = 0 := by nlinarith [mul_self_nonneg g0, mul_self_nonneg g1]
    have h1 : g1 = 0 := by nlinarith [mul_self_nonneg g0, mul_self_nonneg g1]
    rw [h0, h1] at ga
    norm_num at ga
  constructor
  · intro n0 n1 nn nb hp
    have e0 : n0 = (n0 * a0 + n1 * a1) * g0 := by
      apply mul_left_cancel₀ hdet
      linear_combination (-b1 * (n0 * a0 + n1 * a1)) * ga - a1 * nb + a1 * (n0 * a0 + n1 * a1) * gb
    have e1 : n1 = (n0 * a0 + n1 * a1) * g1 := by
      apply mul_left_cancel₀ hdet
      linear_combination (b0 * (n0 * a0 + n1 * a1)) * ga + a0 * nb - a0 * (n0 * a0 + n1 * a1) * gb
    generalize n0 * a0 + n1 * a1 = p at *
    have hp0 : p ≠ 0 := by rintro rfl; simp at hp
    have hsq : Real.sqrt (g0 * g0 + g1 * g1) = 1 / (σ * p) := by
      rw [Real.sqrt_eq_iff_mul_self_eq hpos.le (by positivity)]
      rw [e0, e1] at nn
      have hs0 : σ ≠ 0 := by rintro rfl; simp at hσ
      field_simp
      linear_combination nn + p ^ 2 * (g0 ^ 2 + g1 ^ 2) * hσ
    rw [hsq]
    rw [e0, e1] at nn
    have hs0 : σ ≠ 0 := by rintro rfl; simp at hσ
    field_simp
    linear_combination nn + p ^ 2 * (g0 ^ 2 + g1 ^ 2) * hσ
  · have hN : 0 < Real.sqrt (g0 * g0 + g1 * g1) := Real.sqrt_pos.2 hpos
    have hN2 := Real.mul_self_sqrt hpos.le
    generalize Real.sqrt (g0 * g0 + g1 * g1) = N at hN hN2
    refine ⟨σ * g0 / N, σ * g1 / N, ?_, ?_, ?_⟩
    · field_simp
      linear_combination (g0 * g0 + g1 * g1) * hσ - hN2
    · field_simp
      linear_combination σ * gb
    · have : σ * (σ * g0 / N * a0 + σ * g1 / N * a1) = 1 / N := by
        field_simp
        linear_combination ga + (g0 * a0 + g1 * a1) * hσ
      rw [this]
      positivity

/-- the factor in the rows of natural conditions -/
def nfac (me : Metrics ℝ) : Side → ℝ
  | .Xmin => innerProd (calcUnitNormal me .Xmin) (gCtr me 0)
  | .Xmax => innerProd (calcUnitNormal me .Xmax) (gCtr me 0)
  | .Ymin => innerProd (calcUnitNormal me .Ymin) (gCtr me 1)
  | .Ymax => innerProd (calcUnitNormal me .Ymax) (gCtr me 1)

theorem det_ne (H : MapOk m) (h : MetricsAt m r s me) : tanR m r s 0 * tanS m r s 1 - tanS m r s 0 * tanR m r s 1 ≠ 0 := by
  obtain ⟨h1, h2, h3, h4⟩ := ctr_dot H h
  intro h0
  have : (me.g_ctr 0 0 * me.g_ctr 1 1 - me.g_ctr 0 1 * me.g_ctr 1 0) * (tanR m r s 0 * tanS m r s 1 - tanS m r s 0 * tanR m r s 1) = 1 := by
    linear_combination (me.g_ctr 1 0 * tanS m r s 0 + me.g_ctr 1 1 * tanS m r s 1) * h1 + h4 - (me.g_ctr 1 0 * tanR m r s 0 + me.g_ctr 1 1 * tanR m r s 1) * h2
  rw [h0] at this
  norm_num at this

theorem nfac_eq (H : MapOk m) (h : MetricsAt m r s me) (side : Side) : (∀ n, IsNormal m side r s n → nfac me side = 1 / dot n (cross m side r s)) ∧ ∃ n, IsNormal m side r s n := by
  obtain ⟨h1, h2, h3, h4⟩ := ctr_dot H h
  have hd := det_ne H h
  have hd' : tanS m r s 0 * tanR m r s 1 - tanR m r s 0 * tanS m r s 1 ≠ 0 := fun hh => hd (by linear_combination -hh)
  have wrap : ∀ {P : ℝ → ℝ → Prop}, (∃ n0 n1, P n0 n1) → ∃ n : Pl, P (n 0) (n 1) := by
    rintro P ⟨a, b, hab⟩
    exact ⟨![a, b], hab⟩
  cases side
  · obtain ⟨q1, q2⟩ := normal_alg (σ := -1) (by norm_num) h1 h2 hd
    refine ⟨fun n hn => ?_, ?_⟩
    · rw [show dot n (cross m .Xmin r s) = n 0 * tanR m r s 0 + n 1 * tanR m r s 1 from rfl, ← q1 (n 0) (n 1) hn.one hn.orth hn.out]
      simp only [nfac, calcUnitNormal, gCtr, innerProd, List.map_cons, List.map_nil, List.zip_cons_cons, List.zip_nil_right, List.sum_cons, List.sum_nil, add_zero]
    · obtain ⟨n, n1, n2, n3⟩ := wrap q2
      exact ⟨n, n1, n2, n3⟩
  · obtain ⟨q1, q2⟩ := normal_alg (σ := 1) (by norm_num) h1 h2 hd
    refine ⟨fun n hn => ?_, ?_⟩
    · rw [show dot n (cross m .Xmax r s) = n 0 * tanR m r s 0 + n 1 * tanR m r s 1 from rfl, ← q1 (n 0) (n 1) hn.one hn.orth hn.out]
      simp only [nfac, calcUnitNormal, gCtr, innerProd, List.map_cons, List.map_nil, List.zip_cons_cons, List.zip_nil_right, List.sum_cons, List.sum_nil, add_zero]
    · obtain ⟨n, n1, n2, n3⟩ := wrap q2
      exact ⟨n, n1, n2, n3⟩
  · obtain ⟨q1, q2⟩ := normal_alg (σ := -1) (by norm_num) h4 h3 hd'
    refine ⟨fun n hn => ?_, ?_⟩
    · rw [show dot n (cross m .Ymin r s) = n 0 * tanS m r s 0 + n 1 * tanS m r s 1 from rfl, ← q1 (n 0) (n 1) hn.one hn.orth hn.out]
      simp only [nfac, calcUnitNormal, gCtr, innerProd, List.map_cons, List.map_nil, List.zip_cons_cons, List.zip_nil_right, List.sum_cons, List.sum_nil, add_zero]
    · obtain ⟨n, n1, n2, n3⟩ := wrap q2
      exact ⟨n, n1, n2, n3⟩
  · obtain ⟨q1, q2⟩ := normal_alg (σ := 1) (by norm_num) h4 h3 hd'
    refine ⟨fun n hn => ?_, ?_⟩
    · rw [show dot n (cross m .Ymax r s) = n 0 * tanS m r s 0 + n 1 * tanS m r s 1 from rfl, ← q1 (n 0) (n 1) hn.one hn.orth hn.out]
      simp only [nfac, calcUnitNormal, gCtr, innerProd, List.map_cons, List.map_nil, List.zip_cons_cons, List.zip_nil_right, List.sum_cons, List.sum_nil, add_zero]
    · obtain ⟨n, n1, n2, n3⟩ := wrap q2
      exact ⟨n, n1, n2, n3⟩

/-- the derivative along a vector -/
theorem fderiv_dot (φ : Pl → ℝ) (x v : Pl) : fderiv ℝ φ x v = v 0 * fderiv ℝ φ x (unit 0) + v 1 * fderiv ℝ φ x (unit 1) := by
  have : v = v 0 • unit 0 + v 1 • unit 1 := by
    ext i
    fin_cases i <;> simp [unit]
  conv_lhs => rw [this]
  rw [map_add, map_smul, map_smul]
  rfl

/-- derivatives along the grid lines -/
theorem fderiv_tan (H : MapOk m) (hm : MetricsAt m r s me) {nx ny : Nat} {u : ℝ → ℝ → ℝ} (hu : BiPoly nx ny u) {φ : Pl → ℝ} (hφ : Phys m u r s φ) :
    fderiv ℝ φ (m.point r s) (tanR m r s) = ux u r s ∧ fderiv ℝ φ (m.point r s) (tanS m r s) = uy u r s := by
  obtain ⟨g, _⟩ := phys_derivs H hm hu hφ
  obtain ⟨h1, h2, h3, h4⟩ := ctr_dot H hm
  have g0 := g 0
  have g1 := g 1
  simp only [Fin.isValue, Fin.val_zero, Fin.val_one] at g0 g1
  constructor
  · rw [fderiv_dot, g0, g1]
    linear_combination ux u r s * h1 + uy u r s * h3
  · rw [fderiv_dot, g0, g1]
    linear_combination ux u r s * h2 + uy u r s * h4

/-! ### Polynomials -/

section Poly
variable {nx ny : Nat} {u : ℝ → ℝ → ℝ}

theorem BiPoly.uy_x (hu : BiPoly nx ny u) (y : ℝ) : ∃ p : ℝ[X], p.degree < nx ∧ ∀ x, uy u x y = p.eval x := by
  obtain ⟨c, hc⟩ := hu
  obtain ⟨p, hp, he⟩ := poly_of_coeffs nx (fun k => ∑ l ∈ Finset.range ny, c k l * ((l : ℝ) * y ^ (l - 1)))
  refine ⟨p, hp, ?_⟩
  intro x
  have h : HasDerivAt (fun y => ∑ k ∈ Finset.range nx, ∑ l ∈ Finset.range ny, c k l * x ^ k * y ^ l)
      (∑ k ∈ Finset.range nx, ∑ l ∈ Finset.range ny, c k l * x ^ k * ((l : ℝ) * y ^ (l - 1))) y :=
    HasDerivAt.fun_sum fun k _ => HasDerivAt.fun_sum fun l _ => (hasDerivAt_pow l y).const_mul _
  unfold uy
  rw [show (fun y => u x y) = fun y => ∑ k ∈ Finset.range nx, ∑ l ∈ Finset.range ny, c k l * x ^ k * y ^ l from funext fun y => hc x y, h.deriv, he]
  refine Finset.sum_congr rfl fun k _ => ?_
  rw [Finset.sum_mul]
  exact Finset.sum_congr rfl fun l _ => by ring

theorem uxy_poly {p : ℝ[X]} {y : ℝ} (h : ∀ x, uy u x y = p.eval x) (x : ℝ) : uxy u x y = p.derivative.eval x := by
  unfold uxy
  rw [show (fun x => uy u x y) = fun x => p.eval x from funext h]
  exact p.deriv

/-- nodal values -/
def nodalM (nx ny : Nat) (u : ℝ → ℝ → ℝ) (m : Nat) : ℝ := u (cgl nx (m % nx)) (cgl ny (m / nx))

theorem nodalM_ij (ny : Nat) (u : ℝ → ℝ → ℝ) {i j : Nat} (hi : i < nx) : nodalM nx ny u (i + j * nx) = u (cgl nx i) (cgl ny j) := by
  unfold nodalM
  rw [mod_ij hi, div_ij hi]

theorem cglNode_ref (n j : Nat) : cglNode (-1) 1 n j = cgl n j := by
  rw [cglNode_eq]; ring

theorem cgl_interpM (hx : 2 ≤ nx) (hy : 2 ≤ ny) (W : Nat → Nat → ℝ) : ∃ u, BiPoly nx ny u ∧ ∀ i j, i < nx → j < ny → u (cgl nx i) (cgl ny j) = W i j := by
  obtain ⟨u, hu, h⟩ := cgl_interp2 (a := -1) (b := 1) (c := -1) (d := 1) (by norm_num) (by norm_num) hx hy W
  refine ⟨u, hu, fun i j hi hj => ?_⟩
  rw [← h i j hi hj, cglNode_ref, cglNode_ref]

variable {d1r d2r d1s d2s : Nat → Nat → ℝ} {i j : Nat}

theorem sumM_r1 (D : Diff1 nx d1r) (hu : BiPoly nx ny u) (hi : i < nx) (hj : j < ny) :
    ∑ n ∈ Finset.range (nx * ny), (if j = n / nx then d1r i (n % nx) else 0) * nodalM nx ny u n = ux u (cgl nx i) (cgl ny j) := by
  obtain ⟨p, hp, ep⟩ := hu.x (cgl ny j)
  rw [sum_line_x hi hj, ux_poly ep, ← D p hp i hi]
  refine Finset.sum_congr rfl fun k hk => ?_
  rw [nodalM_ij ny u (Finset.mem_range.1 hk), ep]

theorem sumM_r2 (D : Diff2 nx d2r) (hu : BiPoly nx ny u) (hi : i < nx) (hj : j < ny) :
    ∑ n ∈ Finset.range (nx * ny), (if j = n / nx then d2r i (n % nx) else 0) * nodalM nx ny u n = uxx u (cgl nx i) (cgl ny j) := by
  obtain ⟨p, hp, ep⟩ := hu.x (cgl ny j)
  rw [sum_line_x hi hj, uxx_poly ep, ← D p hp i hi]
  refine Finset.sum_congr rfl fun k hk => ?_
  rw [nodalM_ij ny u (Finset.mem_range.1 hk), ep]

theorem sumM_s1 (D : Diff1 ny d1s) (hu : BiPoly nx ny u) (hi : i < nx) (hj : j < ny) :
    ∑ n ∈ Finset.range (nx * ny), (if i = n % nx then d1s j (n / nx) else 0) * nodalM nx ny u n = uy u (cgl nx i) (cgl ny j) := by
  obtain ⟨q, hq, eq⟩ := hu.y (cgl nx i)
  rw [sum_line_y hi, uy_poly eq, ← D q hq j hj]
  refine Finset.sum_congr rfl fun l _ => ?_
  rw [nodalM_ij ny u hi, eq]

theorem sumM_s2 (D : Diff2 ny d2s) (hu : BiPoly nx ny u) (hi : i < nx) (hj : j < ny) :
    ∑ n ∈ Finset.range (nx * ny), (if i = n % nx then d2s j (n / nx) else 0) * nodalM nx ny u n = uyy u (cgl nx i) (cgl ny j) := by
  obtain ⟨q, hq, eq⟩ := hu.y (cgl nx i)
  rw [sum_line_y hi, uyy_poly eq, ← D q hq j hj]
  refine Finset.sum_congr rfl fun l _ => ?_
  rw [nodalM_ij ny u hi, eq]

theorem sumM_rs (D : Diff1 nx d1r) (D' : Diff1 ny d1s) (hu : BiPoly nx ny u) (hi : i < nx) (hj : j < ny) :
    ∑ n ∈ Finset.range (nx * ny), d1r i (n % nx) * d1s j (n / nx) * nodalM nx ny u n = uxy u (cgl nx i) (cgl ny j) := by
  obtain ⟨p, hp, ep⟩ := hu.uy_x (cgl ny j)
  rw [uxy_poly ep, ← D p hp i hi, sum_grid, Finset.sum_comm]
  refine Finset.sum_congr rfl fun k hk => ?_
  have hk := Finset.mem_range.1 hk
  obtain ⟨q, hq, eq⟩ := hu.y (cgl nx k)
  rw [← ep, uy_poly eq, ← D' q hq j hj, Finset.mul_sum]
  refine Finset.sum_congr rfl fun l _ => ?_
  rw [mod_ij hk, div_ij hk, nodalM_ij ny u hk, eq]
  ring

end Poly

end

end Russell.Pde
