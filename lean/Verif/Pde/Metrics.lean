import Verif.Lab.MatInverse
import Mathlib.Analysis.Calculus.FDeriv.Symmetric

/-!
# Metric coefficients of a mapping (C90)

Model of russell_pde/src/metrics.rs over an ordered field; exact arithmetic. Vectors are lists; the base vectors, the matrices and the
symbols are represented by functions, of which only the entries below `ndim` are written. The entries of each array are computed
independently of each other, hence the loops are written as functions of the indices.
-/

namespace Russell.Pde

open Russell Russell.Res Russell.Lab

section model
variable {α : Type} [Field α] [LinearOrder α]

/-- `Metrics` (/repo/russell_pde/src/metrics.rs:20-58); the first index of `g_cov` and `g_ctr` is the number of the vector -/
structure Metrics (α : Type) where
  ndim : Nat
  homogeneous : Bool
  g_cov : Arr2 α
  g_ctr : Arr2 α
  g_mat : Arr2 α
  gg_mat : Arr2 α
  christoffel_second : Nat → Nat → Nat → α

/-- `Metrics::new` (/repo/russell_pde/src/metrics.rs:66-82). The symbols are only allocated if `homogeneous` is false, see
`Metrics.ell`. -/
def Metrics.new (ndim : Nat) (homogeneous : Bool) : Metrics α :=
  ⟨ndim, homogeneous, fun _ _ => 0, fun _ _ => 0, fun _ _ => 0, fun _ _ => 0, fun _ _ _ => 0⟩

/-- `vec_inner` (/repo/russell_lab/src/vector/vec_inner.rs:31-65): the smaller of the two lengths is used -/
def innerProd (u v : List α) : α := ((u.zip v).map fun p => p.1 * p.2).sum

/-- the Christoffel vectors (/repo/russell_pde/src/metrics.rs:281-301), including the `unwrap` of the arguments -/
def Metrics.vectors (m : Metrics α) (rr ss tt rs rt st : Option (List α)) : Res (Nat → Nat → List α) :=
  match rr, ss, rs with
  | some rr, some ss, some rs =>
    let zero := List.replicate m.ndim 0
    if m.ndim = 2 then
      ok fun i j => ([[rr, rs, zero], [rs, ss, zero], [zero, zero, zero]].getD i []).getD j []
    else
      match tt, rt, st with
      | some tt, some rt, some st => ok fun i j => ([[rr, rs, rt], [rs, ss, st], [rt, st, tt]].getD i []).getD j []
      | _, _, _ => panic
  | _, _, _ => panic

/-- the second part of `Metrics::calculate` (/repo/russell_pde/src/metrics.rs:255-314), after the assignment of `g_cov`; `gg_mat` after a
failed inversion is not modelled. `tol` is the tolerance of `mat_inverse`. -/
def Metrics.finish (lp : Lapack α) (tol : α) (m : Metrics α) (rr ss tt rs rt st : Option (List α)) : Metrics α × Res α :=
  let n := m.ndim
  let m := { m with g_mat := fun i j =>
    if i < n ∧ j < n then (List.range n).foldl (fun s d => s + m.g_cov i d * m.g_cov j d) 0 else m.g_mat i j }
  match matInverse lp tol n n m.gg_mat n n m.g_mat with
  | ok (g, gg) =>
    let m := { m with gg_mat := gg }
    let m := { m with g_ctr := fun i d =>
      if i < n ∧ d < n then (List.range n).foldl (fun s j => s + m.gg_mat i j * m.g_cov j d) 0 else m.g_ctr i d }
    if m.homogeneous then (m, ok g)
    else
      match m.vectors rr ss tt rs rt st with
      | ok cc =>
        ({ m with christoffel_second := fun k i j =>
            if k < n ∧ i < n ∧ j < n then innerProd (cc i j) ((List.range n).map (m.g_ctr k)) else m.christoffel_second k i j }, ok g)
      | err e => (m, err e)
      | Res.panic => (m, panic)
  | err e => (m, err e)
  | Res.panic => (m, panic)

/-- `Metrics::calculate` (/repo/russell_pde/src/metrics.rs:231-315); the lengths of the first derivatives have been checked -/
def Metrics.calculate (lp : Lapack α) (tol : α) (m : Metrics α) (dr ds : List α) (dt : Option (List α))
    (rr ss tt rs rt st : Option (List α)) : Metrics α × Res α :=
  let n := m.ndim
  let m := { m with g_cov := fun i d =>
    if d < n then (if i = 0 then dr.getD d 0 else if i = 1 then ds.getD d 0 else m.g_cov i d) else m.g_cov i d }
  if n = 3 then
    match dt with
    | none => (m, panic)
    | some dt =>
      let m := { m with g_cov := fun i d => if i = 2 ∧ d < n then dt.getD d 0 else m.g_cov i d }
      m.finish lp tol rr ss tt rs rt st
  else m.finish lp tol rr ss tt rs rt st

/-- `Metrics::calculate_2d` (/repo/russell_pde/src/metrics.rs:105-144) -/
def Metrics.calculate2d (lp : Lapack α) (tol : α) (m : Metrics α) (dr ds : List α) (rr ss rs : Option (List α)) :
    Metrics α × Res α :=
  if m.ndim ≠ 2 then (m, err "calculate_2d only works for ndim = 2")
  else if dr.length ≠ 2 then (m, err "dx_dr must have dimension 2")
  else if ds.length ≠ 2 then (m, err "dx_ds must have dimension 2")
  else if m.homogeneous = false ∧ rr.isNone then (m, err "d2x_dr2 must be provided for non-homogeneous metrics")
  else if m.homogeneous = false ∧ ss.isNone then (m, err "d2x_ds2 must be provided for non-homogeneous metrics")
  else if m.homogeneous = false ∧ rs.isNone then (m, err "d2x_drs must be provided for non-homogeneous metrics")
  else m.calculate lp tol dr ds none rr ss none rs none none

/-- `Metrics::calculate_3d` (/repo/russell_pde/src/metrics.rs:171-226) -/
def Metrics.calculate3d (lp : Lapack α) (tol : α) (m : Metrics α) (dr ds dt : List α) (rr ss tt rs rt st : Option (List α)) :
    Metrics α × Res α :=
  if m.ndim ≠ 3 then (m, err "calculate_3d only works for ndim = 3")
  else if dr.length ≠ 3 then (m, err "dx_dr must have dimension 3")
  else if ds.length ≠ 3 then (m, err "dx_ds must have dimension 3")
  else if dt.length ≠ 3 then (m, err "dx_dt must have dimension 3")
  else if m.homogeneous = false ∧ rr.isNone then (m, err "d2x_dr2 must be provided for non-homogeneous metrics")
  else if m.homogeneous = false ∧ ss.isNone then (m, err "d2x_ds2 must be provided for non-homogeneous metrics")
  else if m.homogeneous = false ∧ tt.isNone then (m, err "d2x_dt2 must be provided for non-homogeneous metrics")
  else if m.homogeneous = false ∧ rs.isNone then (m, err "d2x_drs must be provided for non-homogeneous metrics")
  else if m.homogeneous = false ∧ rt.isNone then (m, err "d2x_drt must be provided for non-homogeneous metrics")
  else if m.homogeneous = false ∧ st.isNone then (m, err "d2x_dst must be provided for non-homogeneous metrics")
  else m.calculate lp tol dr ds (some dt) rr ss tt rs rt st

/-- `Metrics::ell_coefficient_for_laplacian` (/repo/russell_pde/src/metrics.rs:330-338); the array of the symbols is empty if
`homogeneous` is true, and has `ndim` entries otherwise -/
def Metrics.ell (m : Metrics α) (k : Nat) : Res α :=
  if m.ndim = 0 then ok 0
  else if m.homogeneous = true ∨ ¬ k < m.ndim then panic
  else ok ((List.range m.ndim).foldl (fun s i =>
    (List.range m.ndim).foldl (fun s j => s + m.christoffel_second k i j * m.gg_mat i j) s) 0)

end model

section props
variable {α : Type} [Field α] [LinearOrder α]

/-- the metric coefficients of a mapping with the derivatives `J d i = ∂x_d/∂ξ_i` and `C i j d = ∂²x_d/∂ξ_i∂ξ_j`: the base vectors,
the inverse of the mapping, the metric tensor and its inverse, and the symbols, which are the components of the derivatives of the
base vectors -/
structure IsMetrics (n : Nat) (J : Matrix (Fin n) (Fin n) α) (C : Fin n → Fin n → Fin n → α) (m : Metrics α) : Prop where
  ndim : m.ndim = n
  cov : ∀ i d : Fin n, m.g_cov i d = J d i
  ctr : blockOf n m.g_ctr * J = 1 ∧ J * blockOf n m.g_ctr = 1
  mat : blockOf n m.g_mat = J.transpose * J
  inv : blockOf n m.gg_mat * blockOf n m.g_mat = 1 ∧ blockOf n m.g_mat * blockOf n m.gg_mat = 1
  gamma : m.homogeneous = false → ∀ i j d : Fin n, C i j d = ∑ k : Fin n, m.christoffel_second k i j * J d k

omit [LinearOrder α] in
theorem foldl_sum {β : Type} (f : β → α) : ∀ (l : List β) (s : α), l.foldl (fun s d => s + f d) s = s + (l.map f).sum
  | [], s => by simp
  | a :: l, s => by rw [List.foldl_cons, foldl_sum f l, List.map_cons, List.sum_cons, add_assoc]

omit [LinearOrder α] in
theorem foldl_range_sum (f : Nat → α) (n : Nat) : (List.range n).foldl (fun s d => s + f d) 0 = ∑ d : Fin n, f d := by
  rw [foldl_sum, zero_add, ← List.sum_ofFn, List.ofFn_eq_map, ← List.map_coe_finRange_eq_range, List.map_map]
  rfl

omit [LinearOrder α] in
theorem innerProd_eq : ∀ (n : Nat) (u : List α) (f : Nat → α), innerProd u ((List.range n).map f) = ∑ d : Fin n, u.getD d 0 * f d := by
  intro n
  induction n with
  | zero => intro u f; simp [innerProd]
  | succ n ih =>
    intro u f
    cases u with
    | nil => simp [innerProd]
    | cons a u =>
      have := ih u (fun d => f (d + 1))
      rw [List.range_succ_eq_map, List.map_cons, List.map_map, Fin.sum_univ_succ]
      unfold innerProd at this ⊢
      rw [List.zip_cons_cons, List.map_cons, List.sum_cons]
      simp only [Fin.val_zero, Fin.val_succ, List.getD_cons_zero, List.getD_cons_succ]
      rw [← this]
      rfl

variable [IsStrictOrderedRing α]

/-- the second part, for the derivatives `J` and `C` -/
theorem finish_spec {lp : Lapack α} {tol : α} (ht : 0 ≤ tol) {n : Nat} (h0 : 0 < n) (h3 : n ≤ 3) {m : Metrics α} (hn : m.ndim = n)
    {J : Matrix (Fin n) (Fin n) α} (hJ : ∀ i d : Fin n, m.g_cov i d = J d i) {rr ss tt rs rt st : Option (List α)}
    {C : Fin n → Fin n → Fin n → α}
    (hC : m.homogeneous = false → ∃ cc, (∀ m' : Metrics α, m'.ndim = n → m'.vectors rr ss tt rs rt st = ok cc) ∧
      ∀ i j d : Fin n, C i j d = (cc i j).getD d 0) :
    (tol < J.det ^ 2 ∧ ∃ m', m.finish lp tol rr ss tt rs rt st = (m', ok (J.det ^ 2)) ∧ IsMetrics n J C m' ∧
      m'.homogeneous = m.homogeneous) ∨
    (J.det ^ 2 ≤ tol ∧ (m.finish lp tol rr ss tt rs rt st).2 = err "cannot compute inverse due to zero determinant") := by
  subst hn
  set gm : Arr2 α := fun i j =>
    if i < m.ndim ∧ j < m.ndim then (List.range m.ndim).foldl (fun s d => s + m.g_cov i d * m.g_cov j d) 0 else m.g_mat i j with hgm
  have hg : blockOf m.ndim gm = J.transpose * J := by
    ext i j
    simp only [blockOf, hgm, i.2, j.2, and_self, if_true, Matrix.mul_apply, Matrix.transpose_apply]
    rw [foldl_range_sum (fun d => m.g_cov i d * m.g_cov j d)]
    exact Finset.sum_congr rfl fun d _ => by rw [hJ, hJ]
  have hdet : (blockOf m.ndim gm).det = J.det ^ 2 := by rw [hg, Matrix.det_mul, Matrix.det_transpose, sq]
  have hsq : |J.det ^ 2| = J.det ^ 2 := abs_of_nonneg (sq_nonneg _)
  have hacc := C89_accepts lp ht h0 h3 m.gg_mat gm
  rcases C89_mat_inverse (lp := lp) ht h0 m.gg_mat gm (fun h => by omega) with ⟨det, gg, e, i1, i2, hd, _⟩ | ⟨e, _, hle⟩ | ⟨_, h4, _⟩
  · left
    rw [hdet] at hd hacc
    rw [hsq] at hacc
    refine ⟨hacc.1 ⟨_, e⟩, ?_⟩
    subst hd
    have hctr : ∀ gc : Arr2 α, gc = (fun i d => if i < m.ndim ∧ d < m.ndim then
        (List.range m.ndim).foldl (fun s j => s + gg i j * m.g_cov j d) 0 else m.g_ctr i d) →
        blockOf m.ndim gc = blockOf m.ndim gg * J.transpose := by
      intro gc hgc
      ext i d
      simp only [blockOf, hgc, i.2, d.2, and_self, if_true, Matrix.mul_apply, Matrix.transpose_apply]
      rw [foldl_range_sum (fun j => gg i j * m.g_cov j d)]
      exact Finset.sum_congr rfl fun j _ => by rw [hJ]
    have hleft : ∀ gc : Arr2 α, blockOf m.ndim gc = blockOf m.ndim gg * J.transpose → blockOf m.ndim gc * J = 1 := by
      intro gc h
      rw [h, Matrix.mul_assoc, ← hg, i2]
    unfold Metrics.finish
    simp only
    rw [← hgm]
    simp only [e]
    by_cases hh : m.homogeneous = true
    · rw [if_pos hh]
      refine ⟨_, rfl, ⟨rfl, hJ, ⟨hleft _ (hctr _ rfl), mul_eq_one_comm.1 (hleft _ (hctr _ rfl))⟩, hg, ⟨i2, i1⟩, ?_⟩, rfl⟩
      intro h
      rw [show m.homogeneous = false from h] at hh
      cases hh
    · rw [if_neg hh]
      obtain ⟨cc, hcc, hC⟩ := hC (by simpa using hh)
      simp only [hcc]
      refine ⟨_, rfl, ⟨rfl, hJ, ⟨hleft _ (hctr _ rfl), mul_eq_one_comm.1 (hleft _ (hctr _ rfl))⟩, hg, ⟨i2, i1⟩, ?_⟩, rfl⟩
      intro _ i j d
      set gc : Arr2 α := fun i d => if i < m.ndim ∧ d < m.ndim then
        (List.range m.ndim).foldl (fun s j => s + gg i j * m.g_cov j d) 0 else m.g_ctr i d with hgc
      have hr : J * blockOf m.ndim gc = 1 := mul_eq_one_comm.1 (hleft _ (hctr _ hgc))
      have hk : ∀ k : Fin m.ndim, (if (k : Nat) < m.ndim ∧ (i : Nat) < m.ndim ∧ (j : Nat) < m.ndim then
          innerProd (cc i j) ((List.range m.ndim).map (gc k)) else m.christoffel_second k i j) = ∑ e : Fin m.ndim, C i j e * gc k e := by
        intro k
        rw [if_pos ⟨k.2, i.2, j.2⟩, innerProd_eq]
        exact Finset.sum_congr rfl fun e _ => by rw [hC]
      have : ∀ e : Fin m.ndim, ∑ k : Fin m.ndim, J d k * gc k e = if d = e then 1 else 0 := by
        intro e
        have := congrFun (congrFun hr d) e
        rw [Matrix.mul_apply, Matrix.one_apply] at this
        exact this
      refine Eq.trans (b := ∑ k : Fin m.ndim, (∑ e : Fin m.ndim, C i j e * gc k e) * J d k) ?_ ?_
      swap
      · exact Finset.sum_congr rfl fun k _ => by rw [← hk k]
      calc C i j d = ∑ e, C i j e * (if d = e then 1 else 0) := by simp
        _ = ∑ e, C i j e * ∑ k : Fin m.ndim, J d k * gc k e := by simp only [this]
        _ = ∑ k : Fin m.ndim, (∑ e : Fin m.ndim, C i j e * gc k e) * J d k := by
          simp only [Finset.mul_sum, Finset.sum_mul]
          rw [Finset.sum_comm]
          exact Finset.sum_congr rfl fun _ _ => Finset.sum_congr rfl fun _ _ => by ring
  · right
    rw [hdet, hsq] at hle
    refine ⟨hle, ?_⟩
    unfold Metrics.finish
    simp only
    rw [← hgm]
    simp only [e]
  · omega

/-- the matrix of the first derivatives in two dimensions -/
def jac2 (dr ds : List α) : Matrix (Fin 2) (Fin 2) α := fun d i => (![dr, ds] i).getD d 0

/-- the matrix of the first derivatives in three dimensions -/
def jac3 (dr ds dt : List α) : Matrix (Fin 3) (Fin 3) α := fun d i => (![dr, ds, dt] i).getD d 0

/-- the second derivatives in two dimensions -/
def hes2 (rr ss rs : List α) : Fin 2 → Fin 2 → Fin 2 → α := fun i j d => (![![rr, rs], ![rs, ss]] i j).getD d 0

/-- the second derivatives in three dimensions -/
def hes3 (rr ss tt rs rt st : List α) : Fin 3 → Fin 3 → Fin 3 → α := fun i j d =>
  (![![rr, rs, rt], ![rs, ss, st], ![rt, st, tt]] i j).getD d 0

/-- **C90 (two dimensions).** For vectors of the right dimensions, and second derivatives unless the metrics is homogeneous,
`calculate_2d` succeeds exactly if the squared Jacobian determinant exceeds the tolerance of the inversion, returns the squared
determinant and sets the metric coefficients. -/
theorem C90_metrics_2d {lp : Lapack α} {tol : α} (ht : 0 ≤ tol) {m : Metrics α} (hn : m.ndim = 2) {dr ds : List α}
    (hr : dr.length = 2) (hs : ds.length = 2) {rr ss rs : List α} {orr oss ors : Option (List α)}
    (hh : m.homogeneous = false → orr = some rr ∧ oss = some ss ∧ ors = some rs) :
    (tol < (jac2 dr ds).det ^ 2 ∧ ∃ m', m.calculate2d lp tol dr ds orr oss ors = (m', ok ((jac2 dr ds).det ^ 2)) ∧
      IsMetrics 2 (jac2 dr ds) (hes2 rr ss rs) m' ∧ m'.homogeneous = m.homogeneous) ∨
    ((jac2 dr ds).det ^ 2 ≤ tol ∧
      (m.calculate2d lp tol dr ds orr oss ors).2 = err "cannot compute inverse due to zero determinant") := by
  have e : m.calculate2d lp tol dr ds orr oss ors = m.calculate lp tol dr ds none orr oss none ors none none := by
    unfold Metrics.calculate2d
    have : ∀ o : Option (List α), (m.homogeneous = false → ∃ a, o = some a) → ¬ (m.homogeneous = false ∧ o.isNone = true) := by
      rintro o h ⟨h1, h2⟩
      obtain ⟨a, rfl⟩ := h h1
      cases h2
    rw [if_neg (by simp [hn]), if_neg (by simp [hr]), if_neg (by simp [hs]), if_neg (this _ fun h => ⟨_, (hh h).1⟩),
      if_neg (this _ fun h => ⟨_, (hh h).2.1⟩), if_neg (this _ fun h => ⟨_, (hh h).2.2⟩)]
  rw [e]
  unfold Metrics.calculate
  simp only
  rw [if_neg (by omega)]
  have hcov : ∀ i d : Fin 2, (if (d : Nat) < m.ndim then (if (i : Nat) = 0 then dr.getD d 0 else if (i : Nat) = 1 then ds.getD d 0
      else m.g_cov i d) else m.g_cov i d) = jac2 dr ds d i := by
    intro i d
    have hd : (d : Nat) < m.ndim := by rw [hn]; exact d.2
    simp only [if_pos hd, jac2]
    fin_cases i <;> simp
  generalize hm1 : ({ m with g_cov := _ } : Metrics α) = m1
  have hn1 : m1.ndim = 2 := by rw [← hm1]; exact hn
  have hh1 : m1.homogeneous = m.homogeneous := by rw [← hm1]
  rw [← hh1]
  rw [← hh1] at hh
  refine finish_spec ht (by norm_num) (by norm_num) hn1 ?_ ?_
  · rw [← hm1]; exact hcov
  · intro h
    obtain ⟨rfl, rfl, rfl⟩ := hh h
    refine ⟨fun i j => ([[rr, rs, List.replicate 2 0], [rs, ss, List.replicate 2 0],
      [List.replicate 2 0, List.replicate 2 0, List.replicate 2 0]].getD i []).getD j [], fun m' hm => ?_, ?_⟩
    · simp only [Metrics.vectors, hm, if_true]
    · intro i j d
      unfold hes2
      fin_cases i <;> fin_cases j <;> simp

/-- **C90 (three dimensions).** The same for `calculate_3d`. -/
theorem C90_metrics_3d {lp : Lapack α} {tol : α} (ht : 0 ≤ tol) {m : Metrics α} (hn : m.ndim = 3) {dr ds dt : List α}
    (hr : dr.length = 3) (hs : ds.length = 3) (h't : dt.length = 3) {rr ss tt rs rt st : List α}
    {orr oss ott ors ort ost : Option (List α)}
    (hh : m.homogeneous = false → orr = some rr ∧ oss = some ss ∧ ott = some tt ∧ ors = some rs ∧ ort = some rt ∧ ost = some st) :
    (tol < (jac3 dr ds dt).det ^ 2 ∧
      ∃ m', m.calculate3d lp tol dr ds dt orr oss ott ors ort ost = (m', ok ((jac3 dr ds dt).det ^ 2)) ∧
        IsMetrics 3 (jac3 dr ds dt) (hes3 rr ss tt rs rt st) m' ∧ m'.homogeneous = m.homogeneous) ∨
    ((jac3 dr ds dt).det ^ 2 ≤ tol ∧
      (m.calculate3d lp tol dr ds dt orr oss ott ors ort ost).2 = err "cannot compute inverse due to zero determinant") := by
  have e : m.calculate3d lp tol dr ds dt orr oss ott ors ort ost = m.calculate lp tol dr ds (some dt) orr oss ott ors ort ost := by
    unfold Metrics.calculate3d
    have : ∀ o : Option (List α), (m.homogeneous = false → ∃ a, o = some a) → ¬ (m.homogeneous = false ∧ o.isNone = true) := by
      rintro o h ⟨h1, h2⟩
      obtain ⟨a, rfl⟩ := h h1
      cases h2
    rw [if_neg (by simp [hn]), if_neg (by simp [hr]), if_neg (by simp [hs]), if_neg (by simp [h't]), if_neg (this _ fun h => ⟨_, (hh h).1⟩),
      if_neg (this _ fun h => ⟨_, (hh h).2.1⟩), if_neg (this _ fun h => ⟨_, (hh h).2.2.1⟩), if_neg (this _ fun h => ⟨_, (hh h).2.2.2.1⟩),
      if_neg (this _ fun h => ⟨_, (hh h).2.2.2.2.1⟩), if_neg (this _ fun h => ⟨_, (hh h).2.2.2.2.2⟩)]
  rw [e]
  unfold Metrics.calculate
  simp only
  rw [if_pos hn]
  have hcov : ∀ i d : Fin 3, (if (i : Nat) = 2 ∧ (d : Nat) < m.ndim then dt.getD d 0 else
      if (d : Nat) < m.ndim then (if (i : Nat) = 0 then dr.getD d 0 else if (i : Nat) = 1 then ds.getD d 0
      else m.g_cov i d) else m.g_cov i d) = jac3 dr ds dt d i := by
    intro i d
    have hd : (d : Nat) < m.ndim := by rw [hn]; exact d.2
    simp only [jac3, hd, and_true]
    fin_cases i <;> simp
  generalize hm1 : ({ m with g_cov := _ } : Metrics α) = m1
  have hn1 : m1.ndim = 3 := by rw [← hm1]; exact hn
  have hh1 : m1.homogeneous = m.homogeneous := by rw [← hm1]
  rw [← hh1]
  rw [← hh1] at hh
  refine finish_spec ht (by norm_num) (by norm_num) hn1 ?_ ?_
  · rw [← hm1]; exact hcov
  · intro h
    obtain ⟨rfl, rfl, rfl, rfl, rfl, rfl⟩ := hh h
    refine ⟨fun i j => ([[rr, rs, rt], [rs, ss, st], [rt, st, tt]].getD i []).getD j [], fun m' hm => ?_, ?_⟩
    · simp only [Metrics.vectors, hm]
      rfl
    · intro i j d
      unfold hes3
      fin_cases i <;> fin_cases j <;> simp

/-- a sheared and curved mapping -/
example : (0 : ℚ) ≤ 1e-15 ∧ (Metrics.new 3 false : Metrics ℚ).ndim = 3 ∧ (1e-15 : ℚ) < (jac3 [1, 0, 0] [1, 2, 0] [0, 1, 3]).det ^ 2 ∧
    hes3 ([1, 0, 0] : List ℚ) [0, 2, 0] [0, 0, 3] [1, 1, 0] [0, 1, 1] [1, 0, 1] ≠ 0 := by
  refine ⟨by norm_num, rfl, ?_, ?_⟩
  · rw [Matrix.det_fin_three]
    norm_num [jac3, show (![[1, 0, 0], [1, 2, 0], [0, 1, 3]] : Fin 3 → List ℚ) 2 = [0, 1, 3] from rfl]
  · intro h
    have := congrFun (congrFun (congrFun h 0) 0) 0
    simp [hes3] at this

omit [IsStrictOrderedRing α] in
/-- **C90 (refused arguments).** -/
theorem C90_checks (lp : Lapack α) (tol : α) (m : Metrics α) (dr ds dt : List α) (rr ss tt rs rt st : Option (List α)) :
    (m.ndim ≠ 2 → m.calculate2d lp tol dr ds rr ss rs = (m, err "calculate_2d only works for ndim = 2")) ∧
    (m.ndim = 2 → dr.length ≠ 2 ∨ ds.length ≠ 2 ∨ (m.homogeneous = false ∧ (rr = none ∨ ss = none ∨ rs = none)) →
      ∃ e, m.calculate2d lp tol dr ds rr ss rs = (m, err e)) ∧
    (m.ndim ≠ 3 → m.calculate3d lp tol dr ds dt rr ss tt rs rt st = (m, err "calculate_3d only works for ndim = 3")) ∧
    (m.ndim = 3 → dr.length ≠ 3 ∨ ds.length ≠ 3 ∨ dt.length ≠ 3 ∨
      (m.homogeneous = false ∧ (rr = none ∨ ss = none ∨ tt = none ∨ rs = none ∨ rt = none ∨ st = none)) →
      ∃ e, m.calculate3d lp tol dr ds dt rr ss tt rs rt st = (m, err e)) := by
  refine ⟨fun h => by unfold Metrics.calculate2d; rw [if_pos h], fun hn h => ?_, fun h => by unfold Metrics.calculate3d; rw [if_pos h],
    fun hn h => ?_⟩
  · unfold Metrics.calculate2d
    iterate 6 (split; · exact ⟨_, rfl⟩)
    exfalso
    rcases h with h | h | ⟨hh, rfl | rfl | rfl⟩ <;> simp_all
  · unfold Metrics.calculate3d
    iterate 10 (split; · exact ⟨_, rfl⟩)
    exfalso
    rcases h with h | h | h | ⟨hh, rfl | rfl | rfl | rfl | rfl | rfl⟩ <;> simp_all

omit [LinearOrder α] [IsStrictOrderedRing α] in
/-- the coefficients of the Laplacian operator -/
theorem ell_eq {n : Nat} {m : Metrics α} (hn : m.ndim = n) (h0 : 0 < n) (hh : m.homogeneous = false) (k : Fin n) :
    m.ell k = ok (∑ i : Fin n, ∑ j : Fin n, m.christoffel_second k i j * m.gg_mat i j) := by
  subst hn
  unfold Metrics.ell
  rw [if_neg (by omega), if_neg (by simp [hh])]
  congr 1
  have : ∀ (s : α) (i : Nat), (List.range m.ndim).foldl (fun s j => s + m.christoffel_second k i j * m.gg_mat i j) s =
      s + ∑ j : Fin m.ndim, m.christoffel_second k i j * m.gg_mat i j := by
    intro s i
    rw [foldl_sum, ← foldl_range_sum (fun j => m.christoffel_second k i j * m.gg_mat i j), foldl_sum, zero_add]
  simp only [this]
  rw [foldl_range_sum (fun i => ∑ j : Fin m.ndim, m.christoffel_second k i j * m.gg_mat i j)]

omit [LinearOrder α] [IsStrictOrderedRing α] in
/-- **C90 (no coefficients of a homogeneous metrics).** The method panics if `homogeneous` is true, in contrast to its documentation, which
demands this and announces the panic for `homogeneous = false`; and if the index is too large. -/
theorem C90_ell_counterexample (m : Metrics α) (h0 : 0 < m.ndim) (k : Nat) :
    (m.homogeneous = true → m.ell k = panic) ∧ (m.ndim ≤ k → m.ell k = panic) := by
  constructor <;> intro h
  · unfold Metrics.ell; rw [if_neg (by omega), if_pos (Or.inl h)]
  · unfold Metrics.ell; rw [if_neg (by omega), if_pos (Or.inr (by omega))]

end props

section laplacian
open Filter Topology

/-- the unit vector -/
def unit {n : Nat} (i : Fin n) : Fin n → ℝ := Pi.single i 1

/-- **C90 (gradient and Laplacian).** Let `X` be a twice differentiable mapping with the metric coefficients `m` at `ξ`, and `φ` a
function that is twice differentiable at `X ξ`. The derivatives of `φ` follow from those of `φ ∘ X` and the metric coefficients: the
gradient by the contravariant base vectors, and the Laplacian by the contravariant matrix and the coefficients
`ell_coefficient_for_laplacian`. -/
theorem C90_laplacian {n : Nat} (h0 : 0 < n) {m : Metrics ℝ} {X : (Fin n → ℝ) → Fin n → ℝ} {X' : (Fin n → ℝ) → (Fin n → ℝ) →L[ℝ] Fin n → ℝ}
    {X'' : (Fin n → ℝ) →L[ℝ] (Fin n → ℝ) →L[ℝ] Fin n → ℝ} {ξ : Fin n → ℝ}
    (hX : ∀ᶠ η in 𝓝 ξ, HasFDerivAt X (X' η) η) (hX2 : HasFDerivAt X' X'' ξ)
    (hm : IsMetrics n (fun d i => X' ξ (unit i) d) (fun i j d => X'' (unit i) (unit j) d) m) (hh : m.homogeneous = false)
    {φ : (Fin n → ℝ) → ℝ} {φ' : (Fin n → ℝ) → (Fin n → ℝ) →L[ℝ] ℝ} {φ'' : (Fin n → ℝ) →L[ℝ] (Fin n → ℝ) →L[ℝ] ℝ}
    (hφ : ∀ᶠ x in 𝓝 (X ξ), HasFDerivAt φ (φ' x) x) (hφ2 : HasFDerivAt φ' φ'' (X ξ))
    {ψ' : (Fin n → ℝ) → (Fin n → ℝ) →L[ℝ] ℝ} {ψ'' : (Fin n → ℝ) →L[ℝ] (Fin n → ℝ) →L[ℝ] ℝ}
    (hψ : ∀ᶠ η in 𝓝 ξ, HasFDerivAt (fun η => φ (X η)) (ψ' η) η) (hψ2 : HasFDerivAt ψ' ψ'' ξ) :
    (∀ d, φ' (X ξ) (unit d) = ∑ i : Fin n, ψ' ξ (unit i) * m.g_ctr i d) ∧
    ∃ ell : Fin n → ℝ, (∀ k : Fin n, m.ell k = ok (ell k)) ∧
      ∑ d, φ'' (unit d) (unit d) =
        (∑ i : Fin n, ∑ j : Fin n, m.gg_mat i j * ψ'' (unit i) (unit j)) - ∑ k, ell k * ψ' ξ (unit k) := by
  have hchain : ∀ᶠ η in 𝓝 ξ, ψ' η = (φ' (X η)).comp (X' η) := by
    have hc : Tendsto X (𝓝 ξ) (𝓝 (X ξ)) := (hX.self_of_nhds).continuousAt
    filter_upwards [hX, hψ, hc.eventually hφ] with η a b c
    exact b.unique (c.comp η a)
  have h1 : ψ' ξ = (φ' (X ξ)).comp (X' ξ) := hchain.self_of_nhds
  have h2 : ∀ v w, ψ'' v w = φ'' (X' ξ v) (X' ξ w) + φ' (X ξ) (X'' v w) := by
    have hd : HasFDerivAt (fun η => (φ' (X η)).comp (X' η)) ψ'' ξ := hψ2.congr_of_eventuallyEq (hchain.mono fun _ h => h.symm)
    have hd' := (hφ2.comp ξ hX.self_of_nhds).clm_comp hX2
    have := hd.unique hd'
    intro v w
    rw [this]
    simp [add_comm]
  set J : Matrix (Fin n) (Fin n) ℝ := fun d i => X' ξ (unit i) d with hJ
  set C : Fin n → Fin n → Fin n → ℝ := fun i j d => X'' (unit i) (unit j) d with hC
  have lin : ∀ (L : (Fin n → ℝ) →L[ℝ] ℝ) (v : Fin n → ℝ), L v = ∑ d, v d * L (unit d) := by
    intro L v
    conv_lhs => rw [pi_eq_sum_univ v]
    rw [map_sum]
    refine Finset.sum_congr rfl fun d _ => ?_
    rw [map_smul, smul_eq_mul]
    congr 2
    funext i
    simp [unit, Pi.single_apply, eq_comm]
  have p1 : ∀ i, ψ' ξ (unit i) = ∑ d, J d i * φ' (X ξ) (unit d) := by
    intro i
    rw [h1, ContinuousLinearMap.comp_apply, lin (φ' (X ξ))]
  have p2 : ∀ i j, ψ'' (unit i) (unit j) = (∑ d, ∑ e, J d i * (J e j * φ'' (unit d) (unit e))) + ∑ d, C i j d * φ' (X ξ) (unit d) := by
    intro i j
    rw [h2, lin (φ' (X ξ)), lin (φ'' (X' ξ (unit i)))]
    congr 1
    rw [Finset.sum_comm]
    refine Finset.sum_congr rfl fun e _ => ?_
    have := lin ((ContinuousLinearMap.apply ℝ ℝ (unit e)).comp φ'') (X' ξ (unit i))
    simp only [ContinuousLinearMap.comp_apply, ContinuousLinearMap.apply_apply] at this
    rw [this, Finset.mul_sum]
    exact Finset.sum_congr rfl fun d _ => by simp only [hJ]; ring
  have hr : ∀ d e : Fin n, ∑ k : Fin n, J d k * m.g_ctr k e = if d = e then 1 else 0 := by
    intro d e
    have := congrFun (congrFun hm.ctr.2 d) e
    rw [Matrix.mul_apply, Matrix.one_apply] at this
    exact this
  have hgg : ∀ d e : Fin n, ∑ i : Fin n, ∑ j : Fin n, J d i * m.gg_mat i j * J e j = if d = e then 1 else 0 := by
    intro d e
    have e1 : blockOf n m.gg_mat = blockOf n m.g_ctr * (blockOf n m.g_ctr).transpose := by
      have t : (blockOf n m.g_ctr).transpose * J.transpose = 1 := by rw [← Matrix.transpose_mul, hm.ctr.2, Matrix.transpose_one]
      have : blockOf n m.g_mat * (blockOf n m.g_ctr * (blockOf n m.g_ctr).transpose) = 1 := by
        rw [hm.mat, Matrix.mul_assoc, ← Matrix.mul_assoc J, hm.ctr.2, Matrix.one_mul, mul_eq_one_comm.1 t]
      calc blockOf n m.gg_mat = blockOf n m.gg_mat * (blockOf n m.g_mat * (blockOf n m.g_ctr * (blockOf n m.g_ctr).transpose)) := by
            rw [this, Matrix.mul_one]
        _ = _ := by rw [← Matrix.mul_assoc, hm.inv.1, Matrix.one_mul]
    have e2 : J * blockOf n m.gg_mat * J.transpose = 1 := by
      rw [e1, ← Matrix.mul_assoc, hm.ctr.2, Matrix.one_mul, ← Matrix.transpose_mul, hm.ctr.2, Matrix.transpose_one]
    have := congrFun (congrFun e2 d) e
    rw [Matrix.mul_apply, Matrix.one_apply] at this
    rw [← this, Finset.sum_comm]
    refine Finset.sum_congr rfl fun j _ => ?_
    rw [Matrix.mul_apply, Finset.sum_mul]
    rfl
  refine ⟨fun d => ?_, _, fun k => ell_eq hm.ndim h0 hh k, ?_⟩
  · simp only [p1, Finset.sum_mul]
    rw [Finset.sum_comm]
    calc φ' (X ξ) (unit d) = ∑ e, (if e = d then 1 else 0) * φ' (X ξ) (unit e) := by simp
      _ = _ := Finset.sum_congr rfl fun e _ => by
        rw [← hr, Finset.sum_mul]
        exact Finset.sum_congr rfl fun _ _ => by ring
  · have t1 : ∑ d, φ'' (unit d) (unit d) = ∑ d, ∑ e, (if d = e then 1 else 0) * φ'' (unit d) (unit e) := by simp
    have t2 : ∀ i j : Fin n, ∑ d, C i j d * φ' (X ξ) (unit d) = ∑ k : Fin n, m.christoffel_second k i j * ψ' ξ (unit k) := by
      intro i j
      simp only [hm.gamma hh i j, p1, Finset.sum_mul, Finset.mul_sum]
      rw [Finset.sum_comm]
      exact Finset.sum_congr rfl fun _ _ => Finset.sum_congr rfl fun _ _ => by ring
    have t3 : ∑ i : Fin n, ∑ j : Fin n, m.gg_mat i j * ∑ k : Fin n, m.christoffel_second k i j * ψ' ξ (unit k) =
        ∑ k : Fin n, (∑ i : Fin n, ∑ j : Fin n, m.christoffel_second k i j * m.gg_mat i j) * ψ' ξ (unit k) := by
      simp only [Finset.mul_sum, Finset.sum_mul]
      rw [Finset.sum_congr rfl (fun i _ => Finset.sum_comm), Finset.sum_comm]
      exact Finset.sum_congr rfl fun _ _ => Finset.sum_congr rfl fun _ _ => Finset.sum_congr rfl fun _ _ => by ring
    rw [t1]
    simp only [p2, mul_add, Finset.sum_add_distrib, t2, t3, add_sub_cancel_right]
    simp only [← hgg, Finset.sum_mul, Finset.mul_sum]
    symm
    rw [Finset.sum_congr rfl (fun i _ => Finset.sum_comm), Finset.sum_comm]
    refine Finset.sum_congr rfl fun d _ => ?_
    rw [Finset.sum_congr rfl (fun i _ => Finset.sum_comm), Finset.sum_comm]
    exact Finset.sum_congr rfl fun _ _ => Finset.sum_congr rfl fun _ _ => Finset.sum_congr rfl fun _ _ => by ring

/-- **C90 (metrics of a mapping, two dimensions).** Given the first and second derivatives of a mapping, `calculate_2d` returns the squared
Jacobian determinant, if it exceeds the tolerance, and the metric coefficients of the mapping, to which `C90_laplacian` applies. -/
theorem C90_mapping_2d {X : (Fin 2 → ℝ) → Fin 2 → ℝ} {X' : (Fin 2 → ℝ) → (Fin 2 → ℝ) →L[ℝ] Fin 2 → ℝ}
    {X'' : (Fin 2 → ℝ) →L[ℝ] (Fin 2 → ℝ) →L[ℝ] Fin 2 → ℝ} {ξ : Fin 2 → ℝ}
    (hX : ∀ᶠ η in 𝓝 ξ, HasFDerivAt X (X' η) η) (hX2 : HasFDerivAt X' X'' ξ)
    {lp : Lapack ℝ} {tol : ℝ} (ht : 0 ≤ tol) (hd : tol < (Matrix.of fun d i => X' ξ (unit i) d).det ^ 2) :
    ∃ m', (Metrics.new 2 false).calculate2d lp tol (List.ofFn (X' ξ (unit 0))) (List.ofFn (X' ξ (unit 1)))
      (some (List.ofFn (X'' (unit 0) (unit 0)))) (some (List.ofFn (X'' (unit 1) (unit 1)))) (some (List.ofFn (X'' (unit 0) (unit 1)))) =
        (m', ok ((Matrix.of fun d i => X' ξ (unit i) d).det ^ 2)) ∧
      IsMetrics 2 (fun d i => X' ξ (unit i) d) (fun i j d => X'' (unit i) (unit j) d) m' ∧ m'.homogeneous = false := by
  have hJ : jac2 (List.ofFn (X' ξ (unit 0))) (List.ofFn (X' ξ (unit 1))) = Matrix.of fun d i => X' ξ (unit i) d := by
    ext d i
    unfold jac2
    fin_cases i <;> fin_cases d <;> simp
  have hC : hes2 (List.ofFn (X'' (unit 0) (unit 0))) (List.ofFn (X'' (unit 1) (unit 1))) (List.ofFn (X'' (unit 0) (unit 1))) =
      fun i j d => X'' (unit i) (unit j) d := by
    have sym := second_derivative_symmetric_of_eventually_of_real hX hX2
    funext i j d
    unfold hes2
    fin_cases i <;> fin_cases j <;> fin_cases d <;> simp <;> rw [sym]
  rcases C90_metrics_2d (lp := lp) ht (m := Metrics.new 2 false) rfl (List.length_ofFn (f := X' ξ (unit 0)))
    (List.length_ofFn (f := X' ξ (unit 1))) (fun _ => ⟨rfl, rfl, rfl⟩) with ⟨_, m', e, hm, hh⟩ | ⟨h, _⟩
  · rw [hJ] at e hm
    rw [hC] at hm
    exact ⟨m', e, hm, hh⟩
  · rw [hJ] at h
    exact absurd hd (not_lt.2 h)

/-- **C90 (metrics of a mapping, three dimensions).** The same for `calculate_3d`. -/
theorem C90_mapping_3d {X : (Fin 3 → ℝ) → Fin 3 → ℝ} {X' : (Fin 3 → ℝ) → (Fin 3 → ℝ) →L[ℝ] Fin 3 → ℝ}
    {X'' : (Fin 3 → ℝ) →L[ℝ] (Fin 3 → ℝ) →L[ℝ] Fin 3 → ℝ} {ξ : Fin 3 → ℝ}
    (hX : ∀ᶠ η in 𝓝 ξ, HasFDerivAt X (X' η) η) (hX2 : HasFDerivAt X' X'' ξ)
    {lp : Lapack ℝ} {tol : ℝ} (ht : 0 ≤ tol) (hd : tol < (Matrix.of fun d i => X' ξ (unit i) d).det ^ 2) :
    ∃ m', (Metrics.new 3 false).calculate3d lp tol (List.ofFn (X' ξ (unit 0))) (List.ofFn (X' ξ (unit 1))) (List.ofFn (X' ξ (unit 2)))
      (some (List.ofFn (X'' (unit 0) (unit 0)))) (some (List.ofFn (X'' (unit 1) (unit 1)))) (some (List.ofFn (X'' (unit 2) (unit 2))))
      (some (List.ofFn (X'' (unit 0) (unit 1)))) (some (List.ofFn (X'' (unit 0) (unit 2)))) (some (List.ofFn (X'' (unit 1) (unit 2)))) =
        (m', ok ((Matrix.of fun d i => X' ξ (unit i) d).det ^ 2)) ∧
      IsMetrics 3 (fun d i => X' ξ (unit i) d) (fun i j d => X'' (unit i) (unit j) d) m' ∧ m'.homogeneous = false := by
  have hJ : jac3 (List.ofFn (X' ξ (unit 0))) (List.ofFn (X' ξ (unit 1))) (List.ofFn (X' ξ (unit 2))) =
      Matrix.of fun d i => X' ξ (unit i) d := by
    ext d i
    unfold jac3
    fin_cases i <;> fin_cases d <;> simp
  have hC : hes3 (List.ofFn (X'' (unit 0) (unit 0))) (List.ofFn (X'' (unit 1) (unit 1))) (List.ofFn (X'' (unit 2) (unit 2)))
      (List.ofFn (X'' (unit 0) (unit 1))) (List.ofFn (X'' (unit 0) (unit 2))) (List.ofFn (X'' (unit 1) (unit 2))) =
      fun i j d => X'' (unit i) (unit j) d := by
    have sym := second_derivative_symmetric_of_eventually_of_real hX hX2
    funext i j d
    unfold hes3
    fin_cases i <;> fin_cases j <;> fin_cases d <;> simp <;> rw [sym]
  rcases C90_metrics_3d (lp := lp) ht (m := Metrics.new 3 false) rfl (List.length_ofFn (f := X' ξ (unit 0)))
    (List.length_ofFn (f := X' ξ (unit 1))) (List.length_ofFn (f := X' ξ (unit 2))) (fun _ => ⟨rfl, rfl, rfl, rfl, rfl, rfl⟩)
    with ⟨_, m', e, hm, hh⟩ | ⟨h, _⟩
  · rw [hJ] at e hm
    rw [hC] at hm
    exact ⟨m', e, hm, hh⟩
  · rw [hJ] at h
    exact absurd hd (not_lt.2 h)

/-- the mapping `x = (ξ₁ + ξ₁²/2, ξ₂)` and the function `x₁²/2` at the origin -/
example : ∃ (X : (Fin 2 → ℝ) → Fin 2 → ℝ) (X' : (Fin 2 → ℝ) → (Fin 2 → ℝ) →L[ℝ] Fin 2 → ℝ)
    (X'' : (Fin 2 → ℝ) →L[ℝ] (Fin 2 → ℝ) →L[ℝ] Fin 2 → ℝ) (φ : (Fin 2 → ℝ) → ℝ) (φ' ψ' : (Fin 2 → ℝ) → (Fin 2 → ℝ) →L[ℝ] ℝ)
    (φ'' ψ'' : (Fin 2 → ℝ) →L[ℝ] (Fin 2 → ℝ) →L[ℝ] ℝ),
    (∀ᶠ η in 𝓝 (0 : Fin 2 → ℝ), HasFDerivAt X (X' η) η) ∧ HasFDerivAt X' X'' (0 : Fin 2 → ℝ) ∧
    (1e-15 : ℝ) < (Matrix.of fun d i => X' 0 (unit i) d).det ^ 2 ∧ X'' (unit 0) (unit 0) ≠ 0 ∧
    (∀ᶠ x in 𝓝 (X 0), HasFDerivAt φ (φ' x) x) ∧ HasFDerivAt φ' φ'' (X 0) ∧ φ'' (unit 0) (unit 0) ≠ 0 ∧
    (∀ᶠ η in 𝓝 0, HasFDerivAt (fun η => φ (X η)) (ψ' η) η) ∧ HasFDerivAt ψ' ψ'' 0 := by
  let p : (Fin 2 → ℝ) →L[ℝ] ℝ := ContinuousLinearMap.proj 0
  let B : (Fin 2 → ℝ) →L[ℝ] (Fin 2 → ℝ) →L[ℝ] Fin 2 → ℝ := p.smulRight (p.smulRight (unit 0))
  have hp : ∀ η : Fin 2 → ℝ, HasFDerivAt (fun η : Fin 2 → ℝ => η 0) p η := fun η => p.hasFDerivAt
  have hX : ∀ η : Fin 2 → ℝ, HasFDerivAt (fun η : Fin 2 → ℝ => η + (η 0 ^ 2 / 2) • unit 0)
      (ContinuousLinearMap.id ℝ _ + B η) η := by
    intro η
    have h1 : HasFDerivAt (fun η : Fin 2 → ℝ => η 0 ^ 2 / 2) (η 0 • p) η := by
      have := ((hp η).pow 2).mul_const (1 / 2 : ℝ)
      refine (this.congr_fderiv ?_).congr_of_eventuallyEq (Eventually.of_forall fun x => ?_)
      · ext v; simp; ring
      · simp; ring
    refine ((hasFDerivAt_id η).add (h1.smul_const (unit 0))).congr_fderiv ?_
    ext v d
    simp [B, p, mul_assoc]
  have hX2 : HasFDerivAt (fun η => ContinuousLinearMap.id ℝ (Fin 2 → ℝ) + B η) B (0 : Fin 2 → ℝ) := B.hasFDerivAt.const_add _
  have hφ : ∀ x : Fin 2 → ℝ, HasFDerivAt (fun x : Fin 2 → ℝ => x 0 ^ 2 / 2) ((p.smulRight p) x) x := by
    intro x
    have := ((hp x).pow 2).mul_const (1 / 2 : ℝ)
    refine (this.congr_fderiv ?_).congr_of_eventuallyEq (Eventually.of_forall fun x => ?_)
    · ext v; simp [p]; ring
    · simp; ring
  refine ⟨_, _, B, _, _, fun η => ((p.smulRight p) (η + (η 0 ^ 2 / 2) • unit 0)).comp (ContinuousLinearMap.id ℝ _ + B η), p.smulRight p,
    _, Eventually.of_forall hX, hX2, ?_, ?_, Eventually.of_forall hφ, (p.smulRight p).hasFDerivAt, ?_,
    Eventually.of_forall fun η => (hφ _).comp η (hX η), HasFDerivAt.clm_comp ((p.smulRight p).hasFDerivAt.comp 0 (hX 0)) hX2⟩
  · rw [Matrix.det_fin_two]
    norm_num [unit, B, p]
  · intro h
    have := congrFun h 0
    simp [unit, B, p] at this
  · simp [unit, p]

/-- **C90 (a small domain is refused).** The mapping of the reference square to a square of side 2e-4, for which the metric is a multiple
of the identity, is refused. -/
theorem C90_small_domain_counterexample (lp : Lapack ℝ) :
    ((Metrics.new 2 true).calculate2d lp 1e-15 [1e-4, 0] [0, 1e-4] none none none).2 =
      err "cannot compute inverse due to zero determinant" := by
  rcases C90_metrics_2d (lp := lp) (tol := 1e-15) (by norm_num) (m := Metrics.new 2 true) rfl (dr := [1e-4, 0]) (ds := [0, 1e-4]) rfl rfl
    (rr := []) (ss := []) (rs := []) (orr := none) (oss := none) (ors := none) (fun h => by cases h) with ⟨h, _⟩ | ⟨_, h⟩
  · exfalso
    rw [Matrix.det_fin_two] at h
    norm_num [jac2] at h
  · exact h

/-- **C90 (dimensions of the second derivatives).** In contrast to the first derivatives, second derivatives of a wrong dimension are
accepted; missing components count as zero and additional ones are ignored. -/
theorem C90_second_dimension_counterexample (lp : Lapack ℝ) :
    ∃ m1 m2, (Metrics.new 2 false).calculate2d lp 1e-15 [1, 0] [0, 1] (some [1, 2, 3]) (some []) (some [4]) = (m1, ok 1) ∧
      (Metrics.new 2 false).calculate2d lp 1e-15 [1, 0] [0, 1] (some [1, 2]) (some [0, 0]) (some [4, 0]) = (m2, ok 1) ∧
      ∀ i j k : Fin 2, m1.christoffel_second k i j = m2.christoffel_second k i j := by
  have hJ : jac2 ([1, 0] : List ℝ) [0, 1] = 1 := by
    ext d i
    unfold jac2
    fin_cases i <;> fin_cases d <;> simp
  rcases C90_metrics_2d (lp := lp) (tol := 1e-15) (by norm_num) (m := Metrics.new 2 false) rfl (dr := [1, 0]) (ds := [0, 1]) rfl rfl
    (rr := [1, 2, 3]) (ss := []) (rs := [4]) (fun _ => ⟨rfl, rfl, rfl⟩) with ⟨_, m1, e1, h1, g1⟩ | ⟨h, _⟩
  · rcases C90_metrics_2d (lp := lp) (tol := 1e-15) (by norm_num) (m := Metrics.new 2 false) rfl (dr := [1, 0]) (ds := [0, 1]) rfl rfl
      (rr := [1, 2]) (ss := [0, 0]) (rs := [4, 0]) (fun _ => ⟨rfl, rfl, rfl⟩) with ⟨_, m2, e2, h2, g2⟩ | ⟨h, _⟩
    · rw [hJ] at e1 e2 h1 h2
      rw [Matrix.det_one, one_pow] at e1 e2
      refine ⟨m1, m2, e1, e2, fun i j k => ?_⟩
      have a1 := h1.gamma g1 i j k
      have a2 := h2.gamma g2 i j k
      simp only [Matrix.one_apply, mul_ite, mul_one, mul_zero, Finset.sum_ite_eq, Finset.mem_univ, if_true] at a1 a2
      rw [← a1, ← a2]
      unfold hes2
      fin_cases i <;> fin_cases j <;> fin_cases k <;> simp
    · exfalso
      rw [hJ, Matrix.det_one] at h
      norm_num at h
  · exfalso
    rw [hJ, Matrix.det_one] at h
    norm_num at h

end laplacian

end Russell.Pde
