import Verif.Pde.Fdm1dProps

/-!
# Properties of the finite difference method in two dimensions

C48, C49 and C55.
-/

namespace Russell.Pde

open Russell Res Russell.Sparse

section Props

variable {α : Type} [Field α] [LinearOrder α] [IsStrictOrderedRing α]

/-- what is known about an `Fdm2d` -/
structure Fdm2d.Is (F : Fdm2d α) (nx ny : Nat) (X Y : Nat → α) (px py : Bool) (S : Nat → Bool) (eF nF : Nat → α → α → α) (kx ky : α) (P : List Nat) : Prop where
  grid : F.grid.Is nx ny X Y
  epx : F.ebcs.periodic_along_x = px
  epy : F.ebcs.periodic_along_y = py
  sides : Lab.IsVec F.ebcs.sides 4 S
  funs : Lab.IsVec F.ebcs.functions 4 eF
  nat : Lab.IsVec F.nbcs.functions 4 nF
  canon : Canon F.equations (nx * ny) P
  hP : ∀ m, m ∈ P ↔ m < nx * ny ∧ ∃ s : Side, S s.index = true ∧ F.grid.onSide s m = true
  mol : F.molecule = [2 * (kx / ((X 1 - X 0) * (X 1 - X 0)) + ky / ((Y 1 - Y 0) * (Y 1 - Y 0))), -kx / ((X 1 - X 0) * (X 1 - X 0)),
    -kx / ((X 1 - X 0) * (X 1 - X 0)), -ky / ((Y 1 - Y 0) * (Y 1 - Y 0)), -ky / ((Y 1 - Y 0) * (Y 1 - Y 0))]
  dx : F.dx = X 1 - X 0
  dy : F.dy = Y 1 - Y 0
  posx : X 0 < X 1
  posy : Y 0 < Y 1
  exclx : px = true → S 0 = false ∧ S 1 = false
  excly : py = true → S 2 = false ∧ S 3 = false

/-- an `Fdm2d` obtained with the public functions: a grid, any history of boundary conditions, and `new` -/
structure Setup2 (eps : α) (g : Grid2d α) (nx ny : Nat) (X Y : Nat → α) (eops : List (EOp α)) (nops : List (Side × (α → α → α))) (kx ky : α)
    (F : Fdm2d α) : Prop where
  grid : g.Is nx ny X Y
  posx : X 0 < X 1
  posy : Y 0 < Y 1
  heps : 0 ≤ eps
  made : ∃ e n, runE eops = ok e ∧ runN nops = ok n ∧ Fdm2d.new eps g e n kx ky = ok F

theorem build2 {g : Grid2d α} {nx ny : Nat} {X Y : Nat → α} (hg : g.Is nx ny X Y) (eops : List (EOp α)) {e : EssentialBcs2d α} (ee : runE eops = ok e) :
    ∃ nodes h', e.getNodes g = ok nodes ∧ (∀ m, m ∈ nodes ↔ m < nx * ny ∧ ∃ s, Ess eops s ∧ g.onSide s m = true) ∧
      (EquationHandler.new (nx * ny)).recompute nodes = ok h' ∧ Canon h' (nx * ny) nodes := by
  obtain ⟨e', nodes, ee', hnodes, _, hmem⟩ := C47_get_nodes_2d eops hg
  rw [ee] at ee'; cases ee'
  rw [show g.size = nx * ny from hg.size] at hmem
  have hlt : ∀ p ∈ nodes, p < (EquationHandler.new (nx * ny)).neq := by
    intro p hp
    rw [hmem] at hp
    exact hp.1
  obtain ⟨h', er, hc⟩ := recompute_canon (canon_new (nx * ny)).isp (canon_new (nx * ny)).iu (canon_new (nx * ny)).ip hlt
  exact ⟨nodes, h', hnodes, hmem, er, hc⟩

theorem setup2_is {eps : α} {g : Grid2d α} {nx ny : Nat} {X Y : Nat → α} {eops : List (EOp α)} {nops : List (Side × (α → α → α))} {kx ky : α}
    {F : Fdm2d α} (S : Setup2 eps g nx ny X Y eops nops kx ky F) : ∃ px py T eF nF P, F.Is nx ny X Y px py T eF nF kx ky P ∧ F.grid = g ∧
      (px = true ↔ Per eops .Xmin) ∧ (py = true ↔ Per eops .Ymin) ∧ (∀ s : Side, T s.index = true ↔ Ess eops s) := by
  obtain ⟨e, n, ee, en, hF⟩ := S.made
  obtain ⟨e', ee', es⟩ := runE_state eops
  rw [ee] at ee'; cases ee'
  obtain ⟨n', en', _, nF, hnF, _⟩ := runN_state nops
  rw [en] at en'; cases en'
  obtain ⟨nodes, h', hnodes, hmem, er, hc⟩ := build2 S.grid eops ee
  obtain ⟨T, hT, hT'⟩ := es.sides
  obtain ⟨eF, heF, _⟩ := es.funs
  unfold Fdm2d.new at hF
  rcases C46_get_dx_dy S.grid S.posx S.posy S.heps with ⟨_, _, hdx⟩ | ⟨_, hdx⟩
  · rw [hdx, ok_bind] at hF
    dsimp only at hF
    unfold Fdm2d.build at hF
    rw [show g.size = nx * ny from S.grid.size, hnodes, ok_bind] at hF
    dsimp only at hF
    rw [er, ok_bind] at hF
    cases hF
    refine ⟨e.periodic_along_x, e.periodic_along_y, T, eF, nF, nodes,
      ⟨S.grid, rfl, rfl, hT, heF, hnF, hc, ?_, rfl, rfl, rfl, S.posx, S.posy, ?_, ?_⟩, rfl, es.px, es.py, hT'⟩
    · intro m
      rw [hmem]
      simp only [hT']
    · intro hp
      rw [es.px] at hp
      constructor
      · rw [← Bool.not_eq_true, show (0 : Nat) = Side.Xmin.index from rfl, hT']; exact fun h => es.excl _ ⟨h, hp⟩
      · rw [← Bool.not_eq_true, show (1 : Nat) = Side.Xmax.index from rfl, hT']; exact fun h => es.excl _ ⟨h, hp⟩
    · intro hp
      rw [es.py] at hp
      constructor
      · rw [← Bool.not_eq_true, show (2 : Nat) = Side.Ymin.index from rfl, hT']; exact fun h => es.excl _ ⟨h, hp⟩
      · rw [← Bool.not_eq_true, show (3 : Nat) = Side.Ymax.index from rfl, hT']; exact fun h => es.excl _ ⟨h, hp⟩
  · rw [hdx] at hF
    cases hF

/-- **C48** `Fdm2d::new` accepts exactly the grids with uniform spacing along both axes. -/
theorem C48_new_2d {eps : α} {g : Grid2d α} {nx ny : Nat} {X Y : Nat → α} (eops : List (EOp α)) (nops : List (Side × (α → α → α))) (kx ky : α)
    (hg : g.Is nx ny X Y) (hx : X 0 < X 1) (hy : Y 0 < Y 1) (heps : 0 ≤ eps) :
    ∃ e n, runE eops = ok e ∧ runN nops = ok n ∧
      (((∀ i, 1 ≤ i → i < nx → |X i - X (i - 1) - (X 1 - X 0)| ≤ 10 * eps) ∧ (∀ j, 1 ≤ j → j < ny → |Y j - Y (j - 1) - (Y 1 - Y 0)| ≤ 10 * eps) ∧
        ∃ F, Fdm2d.new eps g e n kx ky = ok F) ∨
       (((∃ i, 1 ≤ i ∧ i < nx ∧ 10 * eps < |X i - X (i - 1) - (X 1 - X 0)|) ∨ (∃ j, 1 ≤ j ∧ j < ny ∧ 10 * eps < |Y j - Y (j - 1) - (Y 1 - Y 0)|)) ∧
        ∃ m, Fdm2d.new eps g e n kx ky = err m)) := by
  obtain ⟨n, en, _⟩ := runN_state nops
  obtain ⟨e, ee, _⟩ := runE_state eops
  obtain ⟨nodes, h', hnodes, hmem, er, hc⟩ := build2 hg eops ee
  refine ⟨e, n, ee, en, ?_⟩
  unfold Fdm2d.new
  rcases C46_get_dx_dy hg hx hy heps with ⟨h1, h2, hdx⟩ | ⟨hu, hdx⟩
  · left
    refine ⟨h1, h2, ?_⟩
    rw [hdx, ok_bind]
    dsimp only
    unfold Fdm2d.build
    rw [show g.size = nx * ny from hg.size, hnodes, ok_bind]
    dsimp only
    rw [er, ok_bind]
    exact ⟨_, rfl⟩
  · right
    refine ⟨hu, ?_⟩
    rw [hdx]
    exact ⟨_, rfl⟩

/-! ### The stencil -/

/-- the node and its neighbours -/
def N2 (px py : Bool) (nx ny m b : Nat) : Nat :=
  if b = 0 then m else if b = 1 then lef px nx (m % nx) + m / nx * nx else if b = 2 then rig px nx (m % nx) + m / nx * nx
  else if b = 3 then m % nx + lef py ny (m / nx) * nx else m % nx + rig py ny (m / nx) * nx

/-- the coefficients -/
def V2 (px py : Bool) (nx ny : Nat) (c0 c1 c2 : α) (m b : Nat) : α :=
  half px nx (m % nx) * half py ny (m / nx) * if b = 0 then c0 else if b = 1 ∨ b = 2 then c1 else c2

theorem ij_of {nx ny m : Nat} (hx : 2 ≤ nx) (hm : m < nx * ny) : ∃ i j, i < nx ∧ j < ny ∧ m = i + j * nx := by
  refine ⟨m % nx, m / nx, Nat.mod_lt _ (by omega), Nat.div_lt_of_lt_mul hm, ?_⟩
  have := Nat.div_add_mod m nx
  rw [Nat.mul_comm] at this
  omega

theorem mod_ij {nx i j : Nat} (hi : i < nx) : (i + j * nx) % nx = i := by
  rw [Nat.add_mul_mod_self_right, Nat.mod_eq_of_lt hi]

theorem div_ij {nx i j : Nat} (hi : i < nx) : (i + j * nx) / nx = j := by
  rw [Nat.add_mul_div_right _ _ (by omega), Nat.div_eq_of_lt hi, Nat.zero_add]

theorem ij_inj {nx i j k l : Nat} (hi : i < nx) (hk : k < nx) : i + j * nx = k + l * nx ↔ i = k ∧ j = l := by
  constructor
  · intro h
    constructor
    · have := congrArg (· % nx) h; simpa only [mod_ij hi, mod_ij hk] using this
    · have := congrArg (· / nx) h; simpa only [div_ij hi, div_ij hk] using this
  · rintro ⟨rfl, rfl⟩; rfl

theorem ij_lt {nx ny i j : Nat} (hi : i < nx) (hj : j < ny) : i + j * nx < nx * ny := by
  have : (j + 1) * nx ≤ ny * nx := Nat.mul_le_mul_right _ (by omega)
  rw [Nat.succ_mul] at this
  rw [Nat.mul_comm nx ny]
  omega

omit [LinearOrder α] [IsStrictOrderedRing α] in
theorem sum_V2 (px py : Bool) {nx ny i j : Nat} (hi : i < nx) (c0 c1 c2 : α) (w : Nat → α) :
    ∑ b ∈ Finset.range 5, V2 px py nx ny c0 c1 c2 (i + j * nx) b * w (N2 px py nx ny (i + j * nx) b) =
      half px nx i * half py ny j * (c0 * w (i + j * nx) + c1 * (w (lef px nx i + j * nx) + w (rig px nx i + j * nx)) +
        c2 * (w (i + lef py ny j * nx) + w (i + rig py ny j * nx))) := by
  simp only [Finset.sum_range_succ, Finset.sum_range_zero, V2, N2, mod_ij hi, div_ij hi]
  norm_num
  ring

omit [LinearOrder α] [IsStrictOrderedRing α] in
theorem stMat_V2 (px py : Bool) {nx ny i j k l : Nat} (hx : 2 ≤ nx) (hi : i < nx) (hk : k < nx) (c0 c1 c2 : α) :
    stMat 5 (N2 px py nx ny) (V2 px py nx ny c0 c1 c2) (i + j * nx) (k + l * nx) =
      (if i = k ∧ j = l then half px nx i * half py ny j * c0 else 0) +
      c1 * ((if j = l then half py ny j else 0) * (half px nx i * ((if lef px nx i = k then 1 else 0) + (if rig px nx i = k then 1 else 0)))) +
      c2 * ((if i = k then half px nx i else 0) * (half py ny j * ((if lef py ny j = l then 1 else 0) + (if rig py ny j = l then 1 else 0)))) := by
  unfold stMat
  have e1 := ij_inj (j := j) (l := l) hi hk
  have e2 := ij_inj (j := j) (l := l) (lef_lt (per := px) hx hi) hk
  have e3 := ij_inj (j := j) (l := l) (rig_lt (per := px) hx hi) hk
  have e4 := ij_inj (j := lef py ny j) (l := l) hi hk
  have e5 := ij_inj (j := rig py ny j) (l := l) hi hk
  simp only [Finset.sum_range_succ, Finset.sum_range_zero, V2, N2, mod_ij hi, div_ij hi]
  norm_num
  rw [if_congr e1 rfl rfl, if_congr e2 rfl rfl, if_congr e3 rfl rfl, if_congr e4 rfl rfl, if_congr e5 rfl rfl]
  have cut : ∀ (p q : Prop) [Decidable p] [Decidable q] (x : α), (if p ∧ q then x else 0) = (if p then (if q then x else 0) else 0) := by
    intro p q _ _ x; by_cases p <;> by_cases q <;> simp [*]
  rw [cut, cut, cut, cut, cut]
  by_cases hjl : j = l
  · by_cases hik : i = k
    · simp only [hjl, hik, if_true]
      split_ifs <;> ring
    · simp only [hjl, hik, if_true, if_false]
      split_ifs <;> ring
  · by_cases hik : i = k
    · simp only [hjl, hik, if_true, if_false]
      split_ifs <;> ring
    · simp only [hjl, hik, if_false]
      split_ifs <;> ring

theorem nn2 {F : Fdm2d α} {nx ny : Nat} {X Y : Nat → α} {px py : Bool} {S : Nat → Bool} {eF nF : Nat → α → α → α} {kx ky : α} {P : List Nat}
    (H : F.Is nx ny X Y px py S eF nF kx ky P) {i j : Nat} (hi : i < nx) (hj : j < ny) :
    F.nn (i + j * nx) = [i + j * nx, lef px nx i + j * nx, rig px nx i + j * nx, i + lef py ny j * nx, i + rig py ny j * nx] := by
  have hx := H.grid.hx
  have hy := H.grid.hy
  unfold Fdm2d.nn
  rw [H.epx, H.epy, H.grid.enx, H.grid.eny]
  dsimp only
  rw [mod_ij hi, div_ij hi]
  have hl : (if px then (if i ≠ 0 then i + j * nx - 1 else i + j * nx + (nx - 1)) else (if i ≠ 0 then i + j * nx - 1 else i + j * nx + 1)) = lef px nx i + j * nx := by
    unfold lef
    cases px <;> by_cases h : i = 0 <;> simp [h] <;> omega
  have hr : (if px then (if i ≠ nx - 1 then i + j * nx + 1 else i + j * nx - (nx - 1)) else (if i ≠ nx - 1 then i + j * nx + 1 else i + j * nx - 1)) = rig px nx i + j * nx := by
    unfold rig
    cases px <;> by_cases h : i = nx - 1 <;> simp [h] <;> omega
  have hb : (if py then (if j ≠ 0 then i + j * nx - nx else i + j * nx + (ny - 1) * nx) else (if j ≠ 0 then i + j * nx - nx else i + j * nx + nx)) = i + lef py ny j * nx := by
    unfold lef
    by_cases h : j = 0
    · subst h; cases py <;> simp
    · have : j * nx - nx = (j - 1) * nx := by rw [Nat.sub_mul, Nat.one_mul]
      have hle : nx ≤ j * nx := Nat.le_mul_of_pos_left nx (by omega)
      cases py <;> simp [h] <;> omega
  have ht : (if py then (if j ≠ ny - 1 then i + j * nx + nx else i + j * nx - (ny - 1) * nx) else (if j ≠ ny - 1 then i + j * nx + nx else i + j * nx - nx)) = i + rig py ny j * nx := by
    unfold rig
    by_cases h : j = ny - 1
    · have : (ny - 1) * nx - nx = (ny - 2) * nx := by rw [show ny - 2 = ny - 1 - 1 by omega, Nat.sub_mul (ny - 1) 1 nx, Nat.one_mul]
      have hle : nx ≤ (ny - 1) * nx := Nat.le_mul_of_pos_left nx (by omega)
      subst h; cases py <;> simp <;> omega
    · have : (j + 1) * nx = j * nx + nx := Nat.succ_mul j nx
      cases py <;> simp [h] <;> omega
  simp only [hl, hr, hb, ht]

/-- number of entries of the lower triangle -/
theorem count2_lower (px py : Bool) {nx ny : Nat} (hx : 2 ≤ nx) (hy : 2 ≤ ny) (Q : List Nat) (V : Nat → Nat → α) :
    (barE Q Sym.yesLower 5 (N2 px py nx ny) V (unkn Q (nx * ny))).length ≤ 3 * pu Q (nx * ny) := by
  rw [barE_count, pu_count, sum_grid, sum_grid]
  have h1 : ∑ j ∈ Finset.range ny, ∑ i ∈ Finset.range nx, uu Q (i + j * nx) *
      ((if lef px nx i ≤ i then uu Q (lef px nx i + j * nx) else 0) + (if rig px nx i ≤ i then uu Q (rig px nx i + j * nx) else 0)) ≤
      ∑ j ∈ Finset.range ny, ∑ i ∈ Finset.range nx, uu Q (i + j * nx) :=
    Finset.sum_le_sum fun j _ => line_lower px hx (fun i => uu Q (i + j * nx)) (fun i => uu_le Q _)
  have h2 : ∑ j ∈ Finset.range ny, ∑ i ∈ Finset.range nx, uu Q (i + j * nx) *
      ((if lef py ny j ≤ j then uu Q (i + lef py ny j * nx) else 0) + (if rig py ny j ≤ j then uu Q (i + rig py ny j * nx) else 0)) ≤
      ∑ j ∈ Finset.range ny, ∑ i ∈ Finset.range nx, uu Q (i + j * nx) := by
    rw [Finset.sum_comm, Finset.sum_comm (s := Finset.range ny) (t := Finset.range nx) (f := fun j i => uu Q (i + j * nx))]
    exact Finset.sum_le_sum fun i _ => line_lower py hy (fun j => uu Q (i + j * nx)) (fun j => uu_le Q _)
  have h3 : ∑ j ∈ Finset.range ny, ∑ i ∈ Finset.range nx, uu Q (i + j * nx) *
      (∑ b ∈ Finset.range 5, if Skip Sym.yesLower (i + j * nx) (N2 px py nx ny (i + j * nx) b) then 0 else uu Q (N2 px py nx ny (i + j * nx) b)) ≤
      ∑ j ∈ Finset.range ny, ∑ i ∈ Finset.range nx, (uu Q (i + j * nx) + (uu Q (i + j * nx) *
      ((if lef px nx i ≤ i then uu Q (lef px nx i + j * nx) else 0) + (if rig px nx i ≤ i then uu Q (rig px nx i + j * nx) else 0)) + uu Q (i + j * nx) *
      ((if lef py ny j ≤ j then uu Q (i + lef py ny j * nx) else 0) + (if rig py ny j ≤ j then uu Q (i + rig py ny j * nx) else 0)))) := by
    apply Finset.sum_le_sum; intro j _
    apply Finset.sum_le_sum; intro i hi
    have hi := Finset.mem_range.1 hi
    rw [← Nat.mul_add, show ∀ u x : Nat, u + u * x = u * (1 + x) from fun u x => by ring]
    apply Nat.mul_le_mul_left
    have := uu_le Q (i + j * nx)
    simp only [Finset.sum_range_succ, Finset.sum_range_zero, N2, Skip, mod_ij hi, div_ij hi]
    norm_num [show ¬ Sym.yesLower = Sym.yesUpper from by simp]
    have sw : ∀ (a b x : Nat), (if a < b then 0 else x) = if b ≤ a then x else 0 := by
      intro a b x; by_cases h : a < b
      · rw [if_pos h, if_neg (by omega)]
      · rw [if_neg h, if_pos (by omega)]
    rw [sw, sw, if_congr (show (j * nx < lef py ny j * nx) ↔ j < lef py ny j from Nat.mul_lt_mul_right (by omega)) rfl rfl,
      if_congr (show (j * nx < rig py ny j * nx) ↔ j < rig py ny j from Nat.mul_lt_mul_right (by omega)) rfl rfl, sw, sw]
    omega
  simp only [Finset.sum_add_distrib] at h3
  omega

/-- number of entries of the upper triangle -/
theorem count2_upper (px py : Bool) {nx ny : Nat} (hx : 2 ≤ nx) (hy : 2 ≤ ny) (Q : List Nat) (V : Nat → Nat → α) :
    (barE Q Sym.yesUpper 5 (N2 px py nx ny) V (unkn Q (nx * ny))).length ≤ 3 * pu Q (nx * ny) := by
  rw [barE_count, pu_count, sum_grid, sum_grid]
  have h1 : ∑ j ∈ Finset.range ny, ∑ i ∈ Finset.range nx, uu Q (i + j * nx) *
      ((if i ≤ lef px nx i then uu Q (lef px nx i + j * nx) else 0) + (if i ≤ rig px nx i then uu Q (rig px nx i + j * nx) else 0)) ≤
      ∑ j ∈ Finset.range ny, ∑ i ∈ Finset.range nx, uu Q (i + j * nx) :=
    Finset.sum_le_sum fun j _ => line_upper px hx (fun i => uu Q (i + j * nx)) (fun i => uu_le Q _)
  have h2 : ∑ j ∈ Finset.range ny, ∑ i ∈ Finset.range nx, uu Q (i + j * nx) *
      ((if j ≤ lef py ny j then uu Q (i + lef py ny j * nx) else 0) + (if j ≤ rig py ny j then uu Q (i + rig py ny j * nx) else 0)) ≤
      ∑ j ∈ Finset.range ny, ∑ i ∈ Finset.range nx, uu Q (i + j * nx) := by
    rw [Finset.sum_comm, Finset.sum_comm (s := Finset.range ny) (t := Finset.range nx) (f := fun j i => uu Q (i + j * nx))]
    exact Finset.sum_le_sum fun i _ => line_upper py hy (fun j => uu Q (i + j * nx)) (fun j => uu_le Q _)
  have h3 : ∑ j ∈ Finset.range ny, ∑ i ∈ Finset.range nx, uu Q (i + j * nx) *
      (∑ b ∈ Finset.range 5, if Skip Sym.yesUpper (i + j * nx) (N2 px py nx ny (i + j * nx) b) then 0 else uu Q (N2 px py nx ny (i + j * nx) b)) ≤
      ∑ j ∈ Finset.range ny, ∑ i ∈ Finset.range nx, (uu Q (i + j * nx) + (uu Q (i + j * nx) *
      ((if i ≤ lef px nx i then uu Q (lef px nx i + j * nx) else 0) + (if i ≤ rig px nx i then uu Q (rig px nx i + j * nx) else 0)) + uu Q (i + j * nx) *
      ((if j ≤ lef py ny j then uu Q (i + lef py ny j * nx) else 0) + (if j ≤ rig py ny j then uu Q (i + rig py ny j * nx) else 0)))) := by
    apply Finset.sum_le_sum; intro j _
    apply Finset.sum_le_sum; intro i hi
    have hi := Finset.mem_range.1 hi
    rw [← Nat.mul_add, show ∀ u x : Nat, u + u * x = u * (1 + x) from fun u x => by ring]
    apply Nat.mul_le_mul_left
    have := uu_le Q (i + j * nx)
    simp only [Finset.sum_range_succ, Finset.sum_range_zero, N2, Skip, mod_ij hi, div_ij hi]
    norm_num [show ¬ Sym.yesUpper = Sym.yesLower from by simp]
    have sw : ∀ (a b x : Nat), (if a < b then 0 else x) = if b ≤ a then x else 0 := by
      intro a b x; by_cases h : a < b
      · rw [if_pos h, if_neg (by omega)]
      · rw [if_neg h, if_pos (by omega)]
    rw [sw, sw, if_congr (show (lef py ny j * nx < j * nx) ↔ lef py ny j < j from Nat.mul_lt_mul_right (by omega)) rfl rfl,
      if_congr (show (rig py ny j * nx < j * nx) ↔ rig py ny j < j from Nat.mul_lt_mul_right (by omega)) rfl rfl, sw, sw]
    omega
  simp only [Finset.sum_add_distrib] at h3
  omega


variable {F : Fdm2d α} {nx ny : Nat} {X Y : Nat → α} {px py : Bool} {S : Nat → Bool} {eF nF : Nat → α → α → α} {kx ky : α} {P : List Nat}

theorem sides2 {g : Grid2d α} (hg : g.Is nx ny X Y) {i j : Nat} (hi : i < nx) (hj : j < ny) :
    (g.isXmin (i + j * nx) = true ↔ i = 0) ∧ (g.isXmax (i + j * nx) = true ↔ i = nx - 1) ∧
      (g.isYmin (i + j * nx) = true ↔ j = 0) ∧ (g.isYmax (i + j * nx) = true ↔ j = ny - 1) := by
  have := (C46_sides hg).2.2.2.2 i j hi hj
  unfold Grid2d.getM at this
  rwa [hg.enx] at this

theorem hP2 (H : F.Is nx ny X Y px py S eF nF kx ky P) {i j : Nat} (hi : i < nx) (hj : j < ny) :
    i + j * nx ∈ P ↔ (S 0 = true ∧ i = 0) ∨ (S 1 = true ∧ i = nx - 1) ∨ (S 2 = true ∧ j = 0) ∨ (S 3 = true ∧ j = ny - 1) := by
  obtain ⟨a, b, c, d⟩ := sides2 H.grid hi hj
  rw [H.hP]
  constructor
  · rintro ⟨_, s, hs, ho⟩
    cases s
    · exact Or.inl ⟨hs, a.1 ho⟩
    · exact Or.inr (Or.inl ⟨hs, b.1 ho⟩)
    · exact Or.inr (Or.inr (Or.inl ⟨hs, c.1 ho⟩))
    · exact Or.inr (Or.inr (Or.inr ⟨hs, d.1 ho⟩))
  · intro h
    refine ⟨ij_lt hi hj, ?_⟩
    rcases h with ⟨h, h'⟩ | ⟨h, h'⟩ | ⟨h, h'⟩ | ⟨h, h'⟩
    · exact ⟨.Xmin, h, a.2 h'⟩
    · exact ⟨.Xmax, h, b.2 h'⟩
    · exact ⟨.Ymin, h, c.2 h'⟩
    · exact ⟨.Ymax, h, d.2 h'⟩

/-- couplings between unknown and prescribed nodes -/
theorem count2_check (H : F.Is nx ny X Y px py S eF nF kx ky P) (V : Nat → Nat → α) :
    (chkE P 5 (N2 px py nx ny) V (unkn P (nx * ny))).length ≤ 4 * pp P (nx * ny) := by
  have hx := H.grid.hx
  have hy := H.grid.hy
  rw [chkE_count, pp_count, sum_grid, sum_grid]
  have isp : ∀ i j, pr P (i + j * nx) ≠ 0 → i + j * nx ∈ P := by
    intro i j hne
    unfold pr at hne
    by_contra h; rw [if_neg h] at hne; exact hne rfl
  have u0 : ∀ i j, i + j * nx ∈ P → uu P (i + j * nx) = 0 := by
    intro i j h; unfold uu; rw [if_pos h]
  have h1 : ∑ j ∈ Finset.range ny, ∑ i ∈ Finset.range nx, uu P (i + j * nx) * (pr P (lef px nx i + j * nx) + pr P (rig px nx i + j * nx)) ≤
      ∑ j ∈ Finset.range ny, 2 * ∑ i ∈ Finset.range nx, pr P (i + j * nx) := by
    apply Finset.sum_le_sum
    intro j hj
    have hj := Finset.mem_range.1 hj
    refine line_check px hx (fun i => uu P (i + j * nx)) (fun i => pr P (i + j * nx)) (fun i => uu_le P _) ?_
    by_cases hrow : (S 2 = true ∧ j = 0) ∨ (S 3 = true ∧ j = ny - 1)
    · left
      intro i hi
      apply u0
      rw [hP2 H hi hj]
      tauto
    · right
      intro i hi hne
      have hm := (hP2 H hi hj).1 (isp i j hne)
      have hm' : (S 0 = true ∧ i = 0) ∨ (S 1 = true ∧ i = nx - 1) := by tauto
      constructor
      · cases hp : px with
        | false => rfl
        | true => have := H.exclx hp; rw [this.1, this.2] at hm'; simp at hm'
      · rcases hm' with h | h
        · exact Or.inl h.2
        · exact Or.inr h.2
  have h2 : ∑ j ∈ Finset.range ny, ∑ i ∈ Finset.range nx, uu P (i + j * nx) * (pr P (i + lef py ny j * nx) + pr P (i + rig py ny j * nx)) ≤
      ∑ i ∈ Finset.range nx, 2 * ∑ j ∈ Finset.range ny, pr P (i + j * nx) := by
    rw [Finset.sum_comm]
    apply Finset.sum_le_sum
    intro i hi
    have hi := Finset.mem_range.1 hi
    refine line_check py hy (fun j => uu P (i + j * nx)) (fun j => pr P (i + j * nx)) (fun j => uu_le P _) ?_
    by_cases hcol : (S 0 = true ∧ i = 0) ∨ (S 1 = true ∧ i = nx - 1)
    · left
      intro j hj
      apply u0
      rw [hP2 H hi hj]
      tauto
    · right
      intro j hj hne
      have hm := (hP2 H hi hj).1 (isp i j hne)
      have hm' : (S 2 = true ∧ j = 0) ∨ (S 3 = true ∧ j = ny - 1) := by tauto
      constructor
      · cases hp : py with
        | false => rfl
        | true => have := H.excly hp; rw [this.1, this.2] at hm'; simp at hm'
      · rcases hm' with h | h
        · exact Or.inl h.2
        · exact Or.inr h.2
  rw [← Finset.mul_sum] at h1 h2
  rw [Finset.sum_comm (s := Finset.range nx)] at h2
  have h3 : ∑ j ∈ Finset.range ny, ∑ i ∈ Finset.range nx, uu P (i + j * nx) * ∑ b ∈ Finset.range 5, pr P (N2 px py nx ny (i + j * nx) b) =
      ∑ j ∈ Finset.range ny, ∑ i ∈ Finset.range nx, (uu P (i + j * nx) * (pr P (lef px nx i + j * nx) + pr P (rig px nx i + j * nx)) +
        uu P (i + j * nx) * (pr P (i + lef py ny j * nx) + pr P (i + rig py ny j * nx))) := by
    apply Finset.sum_congr rfl; intro j _
    apply Finset.sum_congr rfl; intro i hi
    have hi := Finset.mem_range.1 hi
    have h0 : uu P (i + j * nx) * pr P (i + j * nx) = 0 := by unfold uu pr; split_ifs <;> rfl
    simp only [Finset.sum_range_succ, Finset.sum_range_zero, N2, mod_ij hi, div_ij hi]
    norm_num
    rw [← Nat.mul_add, Nat.add_assoc, Nat.add_assoc, Nat.add_assoc, Nat.mul_add, h0, Nat.zero_add, ← Nat.add_assoc, ← Nat.add_assoc]
  rw [h3]
  simp only [Finset.sum_add_distrib]
  omega

theorem N2_lt (px py : Bool) {nx ny : Nat} (hx : 2 ≤ nx) (hy : 2 ≤ ny) {m b : Nat} (hm : m < nx * ny) : N2 px py nx ny m b < nx * ny := by
  obtain ⟨i, j, hi, hj, rfl⟩ := ij_of hx hm
  unfold N2
  rw [mod_ij hi, div_ij hi]
  split
  · exact hm
  · split
    · exact ij_lt (lef_lt hx hi) hj
    · split
      · exact ij_lt (rig_lt hx hi) hj
      · split
        · exact ij_lt hi (lef_lt hy hj)
        · exact ij_lt hi (rig_lt hy hj)

theorem scheme2 (H : F.Is nx ny X Y px py S eF nF kx ky P) (alpha : α) :
    Scheme F.equations (nx * ny) 5 P F.nn (F.val alpha) (N2 px py nx ny)
      (V2 px py nx ny (2 * (kx / ((X 1 - X 0) * (X 1 - X 0)) + ky / ((Y 1 - Y 0) * (Y 1 - Y 0))) + alpha) (-kx / ((X 1 - X 0) * (X 1 - X 0)))
        (-ky / ((Y 1 - Y 0) * (Y 1 - Y 0)))) 3 5 4 := by
  have hx := H.grid.hx
  have hy := H.grid.hy
  have k1 : ∀ (Q : List Nat) (sym : Sym) (V : Nat → Nat → α),
      (barE Q sym 5 (N2 px py nx ny) V (unkn Q (nx * ny))).length ≤ (if sym.triangular then 3 else 5) * pu Q (nx * ny) := by
    intro Q sym V
    cases sym with
    | no => exact barE_full Q 5 _ _ _
    | yesFull => exact barE_full Q 5 _ _ _
    | yesLower => exact count2_lower px py hx hy Q V
    | yesUpper => exact count2_upper px py hx hy Q V
  refine ⟨H.canon, ?_, ⟨?_, ?_, ?_⟩, ?_, by omega, fun sym => k1 P sym _, count2_check H _, ?_⟩
  · intro p hp; exact ((H.hP p).1 hp).1
  · intro m hm
    obtain ⟨i, j, hi, hj, rfl⟩ := ij_of hx hm
    rw [nn2 H hi hj]
    refine ⟨rfl, ?_⟩
    intro b hb
    unfold N2
    rw [mod_ij hi, div_ij hi]
    match b, hb with
    | 0, _ => rfl
    | 1, _ => rfl
    | 2, _ => rfl
    | 3, _ => rfl
    | 4, _ => rfl
  · intro m b hm hb
    exact N2_lt px py hx hy hm
  · intro m b hm hb
    obtain ⟨i, j, hi, hj, rfl⟩ := ij_of hx hm
    have hv : ∀ (per : Bool) (n k : Nat) (v : α), (if !per && (k == 0 || k == n - 1) then v / 2 else v) = half per n k * v := by
      intro per n k v
      unfold half
      by_cases h : per = false ∧ (k = 0 ∨ k = n - 1)
      · rw [if_pos h, if_pos (by simpa using h)]; ring
      · rw [if_neg h, if_neg (by simpa using h), one_mul]
    unfold Fdm2d.val Grid2d.getIJ
    rw [H.mol, H.epx, H.epy, H.grid.enx, H.grid.eny]
    dsimp only
    simp only [hv, mod_ij hi, div_ij hi]
    have e1 : ¬ i + j * nx = lef px nx i + j * nx := fun h => lef_ne (per := px) (n := nx) (i := i) hx (by omega)
    have e2 : ¬ i + j * nx = rig px nx i + j * nx := fun h => rig_ne (per := px) (n := nx) (i := i) hx (by omega)
    have e3 : ¬ i + j * nx = i + lef py ny j * nx := fun h => lef_ne (per := py) (n := ny) (i := j) hy ((ij_inj hi hi).1 h).2.symm
    have e4 : ¬ i + j * nx = i + rig py ny j * nx := fun h => rig_ne (per := py) (n := ny) (i := j) hy ((ij_inj hi hi).1 h).2.symm
    unfold N2 V2
    rw [mod_ij hi, div_ij hi]
    have fin : ∀ a b c : α, a * (b * c) = b * a * c := fun a b c => by ring
    match b, hb with
    | 0, _ => simp only [vget, List.getElem?_cons_zero, ok_bind, if_true, fin]
    | 1, _ => simp only [vget, List.getElem?_cons_succ, List.getElem?_cons_zero, ok_bind, one_ne_zero, if_false, if_true, e1, fin, true_or]
    | 2, _ => simp only [vget, List.getElem?_cons_succ, List.getElem?_cons_zero, ok_bind, show ((2 : Nat) = 0) = False by simp, show ((2 : Nat) = 1) = False by simp, show ((2 : Nat) = 3) = False by simp, if_false, if_true, or_true, or_false, e2, fin]
    | 3, _ => simp only [vget, List.getElem?_cons_succ, List.getElem?_cons_zero, ok_bind, show ((3 : Nat) = 0) = False by simp, show ((3 : Nat) = 1) = False by simp, show ((3 : Nat) = 2) = False by simp, if_false, if_true, or_true, or_false, e3, fin]
    | 4, _ => simp only [vget, List.getElem?_cons_succ, List.getElem?_cons_zero, ok_bind, show ((4 : Nat) = 0) = False by simp, show ((4 : Nat) = 1) = False by simp, show ((4 : Nat) = 2) = False by simp, show ((4 : Nat) = 3) = False by simp, if_false, if_true, or_true, or_false, e4, fin]
  · intro m n hm hn
    obtain ⟨i, j, hi, hj, rfl⟩ := ij_of hx hm
    obtain ⟨k, l, hk, hl, rfl⟩ := ij_of hx hn
    rw [stMat_V2 px py hx hi hk, stMat_V2 px py hx hk hi, line_symm px hx hi hk, line_symm py hy hj hl]
    have a1 : (i = k ∧ j = l) ↔ (k = i ∧ l = j) := by constructor <;> (rintro ⟨rfl, rfl⟩; exact ⟨rfl, rfl⟩)
    have a2 : ∀ (per : Bool) (n a b : Nat), (if a = b then half per n a else 0 : α) = if b = a then half per n b else 0 := by
      intro per n a b
      by_cases h : a = b
      · subst h; rfl
      · rw [if_neg h, if_neg (fun e => h e.symm)]
    rw [a2 py ny j l, a2 px nx i k]
    congr 2
    by_cases h : i = k ∧ j = l
    · rw [if_pos h, if_pos (a1.1 h), h.1, h.2]
    · rw [if_neg h, if_neg (fun e => h (a1.2 e))]
  · intro sym
    rw [lmmE_eq]
    have := k1 [] sym (V2 px py nx ny (2 * (kx / ((X 1 - X 0) * (X 1 - X 0)) + ky / ((Y 1 - Y 0) * (Y 1 - Y 0))) + alpha)
      (-kx / ((X 1 - X 0) * (X 1 - X 0))) (-ky / ((Y 1 - Y 0) * (Y 1 - Y 0))))
    rwa [show pu [] (nx * ny) = nx * ny by unfold pu; rw [unkn_nil, List.length_range]] at this


/-! ### Vectors -/

/-- outflow at the ends of a line -/
def flux2 (per : Bool) (n : Nat) (g0 g1 : α) (i : Nat) : α := if per = false ∧ i = 0 then g0 else if per = false ∧ i = n - 1 then g1 else 0

/-- right-hand side of node `(i, j)` -/
def R2 (px py : Bool) (nx ny : Nat) (nF : Nat → α → α → α) (dx dy : α) (X Y : Nat → α) (source : α → α → α) (i j : Nat) : α :=
  half px nx i * half py ny j * source (X i) (Y j) -
    (if (i = 0 ∨ i = nx - 1) ∧ (j = 0 ∨ j = ny - 1) then 1 / 2 else 1) * flux2 px nx (nF 0 (X i) (Y j)) (nF 1 (X i) (Y j)) i / dx -
    (if (i = 0 ∨ i = nx - 1) ∧ (j = 0 ∨ j = ny - 1) then 1 / 2 else 1) * flux2 py ny (nF 2 (X i) (Y j)) (nF 3 (X i) (Y j)) j / dy

/-- prescribed value of node `(i, j)`: the last of the sides Xmin, Xmax, Ymin, Ymax counts -/
def D2 (nx ny : Nat) (S : Nat → Bool) (eF : Nat → α → α → α) (X Y : Nat → α) (i j : Nat) : α :=
  if S 3 = true ∧ j = ny - 1 then eF 3 (X i) (Y j) else if S 2 = true ∧ j = 0 then eF 2 (X i) (Y j)
  else if S 1 = true ∧ i = nx - 1 then eF 1 (X i) (Y j) else eF 0 (X i) (Y j)

omit [LinearOrder α] [IsStrictOrderedRing α] in
theorem axisLmm_eq {per lo hi : Bool} (h : ¬ (lo = true ∧ hi = true)) (fs : List (α → α → α)) (k : Nat) (x y cf d : α) (i : Nat) (s : List α × α) :
    axisLmm per lo hi fs k x y cf d i s = axisSps per lo hi fs k x y cf d i s := by
  unfold axisLmm axisSps
  cases per with
  | true => rfl
  | false =>
    cases lo with
    | false => rfl
    | true =>
      cases hi with
      | true => exact absurd ⟨rfl, rfl⟩ h
      | false =>
        show (addFlux2 fs k x y cf d i s >>= fun s => ok s) = addFlux2 fs k x y cf d i s
        cases addFlux2 fs k x y cf d i s <;> rfl

omit [LinearOrder α] [IsStrictOrderedRing α] in
theorem axis_spec {per lo hi : Bool} {nl t : Nat} (hlo : lo = true ↔ t = 0) (hhi : hi = true ↔ t = nl - 1) {fs : List (α → α → α)} {nF : Nat → α → α → α}
    (hf : Lab.IsVec fs 4 nF) {k : Nat} (hk : k + 1 < 4) (x y cf d : α) {i n : Nat} (hi' : i < n) {v : List α} {G : Nat → α} (hv : Lab.IsVec v n G) (den : α) :
    ∃ v', axisSps per lo hi fs k x y cf d i (v, den) = ok (v', if per = false ∧ (t = 0 ∨ t = nl - 1) then den * 2 else den) ∧
      Lab.IsVec v' n (fun q => if q = i then G q - cf * flux2 per nl (nF k x y) (nF (k + 1) x y) t / d else G q) := by
  unfold axisSps flux2
  cases per with
  | true =>
    rw [if_neg (by simp)]
    refine ⟨v, by simp, hv.congr ?_⟩
    intro q _
    simp
  | false =>
    rw [if_pos (by simp)]
    have add : ∀ k, k < 4 → ∃ v', addFlux2 fs k x y cf d i (v, den) = ok (v', den * 2) ∧
        Lab.IsVec v' n (fun q => if q = i then G q - cf * nF k x y / d else G q) := by
      intro k hk
      unfold addFlux2
      rw [hf.vget hk, ok_bind]
      obtain ⟨v', e, h'⟩ := addAt_spec hv hi' (-cf * nF k x y / d)
      rw [e, ok_bind]
      refine ⟨v', rfl, h'.congr ?_⟩
      intro q _
      split
      · ring
      · rfl
    by_cases h0 : t = 0
    · rw [if_pos (hlo.2 h0), if_pos ⟨rfl, Or.inl h0⟩, if_pos ⟨rfl, h0⟩]
      exact add k (by omega)
    · rw [if_neg (fun h => h0 (hlo.1 h))]
      by_cases h1 : t = nl - 1
      · rw [if_pos (hhi.2 h1), if_pos ⟨rfl, Or.inr h1⟩, if_neg (fun h => h0 h.2), if_pos ⟨rfl, h1⟩]
        exact add (k + 1) hk
      · rw [if_neg (fun h => h1 (hhi.1 h)), if_neg (by rintro ⟨_, h⟩; omega), if_neg (fun h => h0 h.2), if_neg (fun h => h1 h.2)]
        refine ⟨v, rfl, hv.congr ?_⟩
        intro q _
        simp

theorem rhs2 (H : F.Is nx ny X Y px py S eF nF kx ky P)
    {axis : Bool → Bool → Bool → List (α → α → α) → Nat → α → α → α → α → Nat → List α × α → Res (List α × α)} (hax : axis = axisSps ∨ axis = axisLmm)
    (source : α → α → α) {a b : Nat} (ha : a < nx) (hb : b < ny) {i n : Nat} (hi : i < n) {v : List α} {G : Nat → α}
    (hv : Lab.IsVec v n G) : ∃ v', F.rhs axis source (a + b * nx) (X a) (Y b) i v = ok v' ∧
      Lab.IsVec v' n (fun k => if k = i then G k + R2 px py nx ny nF (X 1 - X 0) (Y 1 - Y 0) X Y source a b else G k) := by
  have hx := H.grid.hx
  have hy := H.grid.hy
  obtain ⟨q1, q2, q3, q4⟩ := sides2 H.grid ha hb
  have hcor : F.grid.isCorner (a + b * nx) = true ↔ (a = 0 ∨ a = nx - 1) ∧ (b = 0 ∨ b = ny - 1) := by
    rw [(C46_sides H.grid).2.2.2.1 _ (by unfold Grid2d.size; rw [H.grid.size]; exact ij_lt ha hb), q1, q2, q3, q4]
  have hn1 : ¬ (F.grid.isXmin (a + b * nx) = true ∧ F.grid.isXmax (a + b * nx) = true) := by rw [q1, q2]; omega
  have hn2 : ¬ (F.grid.isYmin (a + b * nx) = true ∧ F.grid.isYmax (a + b * nx) = true) := by rw [q3, q4]; omega
  unfold Fdm2d.rhs
  have hax1 : ∀ cf d i s, axis F.ebcs.periodic_along_x (F.grid.isXmin (a + b * nx)) (F.grid.isXmax (a + b * nx)) F.nbcs.functions 0 (X a) (Y b) cf d i s =
      axisSps F.ebcs.periodic_along_x (F.grid.isXmin (a + b * nx)) (F.grid.isXmax (a + b * nx)) F.nbcs.functions 0 (X a) (Y b) cf d i s := by
    intro cf d i s
    rcases hax with rfl | rfl
    · rfl
    · exact axisLmm_eq hn1 _ _ _ _ _ _ _ _
  have hax2 : ∀ cf d i s, axis F.ebcs.periodic_along_y (F.grid.isYmin (a + b * nx)) (F.grid.isYmax (a + b * nx)) F.nbcs.functions 2 (X a) (Y b) cf d i s =
      axisSps F.ebcs.periodic_along_y (F.grid.isYmin (a + b * nx)) (F.grid.isYmax (a + b * nx)) F.nbcs.functions 2 (X a) (Y b) cf d i s := by
    intro cf d i s
    rcases hax with rfl | rfl
    · rfl
    · exact axisLmm_eq hn2 _ _ _ _ _ _ _ _
  dsimp only
  rw [hax1, H.dx, H.dy, H.epx]
  obtain ⟨v1, e1, h1⟩ := axis_spec (per := px) (nl := nx) (t := a) q1 q2 H.nat (k := 0) (by omega) (X a) (Y b) (if F.grid.isCorner (a + b * nx) then 1 / 2 else 1)
    (X 1 - X 0) hi hv 1
  rw [e1, ok_bind, hax2, H.epy]
  obtain ⟨v2, e2, h2⟩ := axis_spec (per := py) (nl := ny) (t := b) q3 q4 H.nat (k := 2) (by omega) (X a) (Y b) (if F.grid.isCorner (a + b * nx) then 1 / 2 else 1)
    (Y 1 - Y 0) hi h1 (if px = false ∧ (a = 0 ∨ a = nx - 1) then 1 * 2 else 1)
  rw [e2, ok_bind]
  obtain ⟨v3, e3, h3⟩ := addAt_spec h2 hi (source (X a) (Y b) / (if py = false ∧ (b = 0 ∨ b = ny - 1) then
    (if px = false ∧ (a = 0 ∨ a = nx - 1) then 1 * 2 else 1) * 2 else if px = false ∧ (a = 0 ∨ a = nx - 1) then 1 * 2 else 1))
  refine ⟨v3, e3, h3.congr ?_⟩
  intro k _
  by_cases hk : k = i
  · rw [if_pos hk, if_pos hk, if_pos hk, if_pos hk]
    unfold R2 half
    rw [if_congr hcor rfl rfl]
    have dn : (source (X a) (Y b) / (if py = false ∧ (b = 0 ∨ b = ny - 1) then
      (if px = false ∧ (a = 0 ∨ a = nx - 1) then 1 * 2 else 1) * 2 else if px = false ∧ (a = 0 ∨ a = nx - 1) then 1 * 2 else 1)) =
      (if px = false ∧ (a = 0 ∨ a = nx - 1) then 1 / 2 else 1) * (if py = false ∧ (b = 0 ∨ b = ny - 1) then 1 / 2 else 1) * source (X a) (Y b) := by
      split_ifs <;> ring
    rw [dn]
    ring
  · rw [if_neg hk, if_neg hk, if_neg hk, if_neg hk]

omit [IsStrictOrderedRing α] in
theorem coord2 (H : F.Is nx ny X Y px py S eF nF kx ky P) {i j : Nat} (hi : i < nx) (hj : j < ny) : F.grid.coord (i + j * nx) = ok (X i, Y j) := by
  have := ((C46_indexing H.grid).1 i j hi hj).2.2
  unfold Grid2d.getM at this
  rwa [H.grid.enx] at this

omit [Field α] [LinearOrder α] [IsStrictOrderedRing α] in
theorem forRange_four {σ : Type} (s : σ) (f : Nat → σ → Res σ) : forRange 0 4 s f = (do let s ← f 0 s; let s ← f 1 s; let s ← f 2 s; f 3 s) := by
  rw [forRange_succ_right (by omega), forRange_succ_right (by omega), forRange_succ_right (by omega), forRange_succ_right (le_refl 0), forRange_empty (le_refl 0)]
  show (((f 0 s >>= f 1) >>= f 2) >>= f 3) = _
  cases f 0 s with
  | ok s1 =>
    rw [ok_bind, ok_bind]
    cases f 1 s1 with
    | ok s2 => rw [ok_bind, ok_bind]
    | err m => rfl
    | panic => rfl
  | err m => rfl
  | panic => rfl

theorem prescribedSide (H : F.Is nx ny X Y px py S eF nF kx ky P) (hlt : nx * ny < 2147483648) {off : Nat} (s : Side) {v : List α} {G : Nat → α}
    (hv : Lab.IsVec v (off + pp P (nx * ny)) G) :
      ∃ v' G', (do
        let b ← vget F.ebcs.sides s.index
        if b then do
          let side ← Side.fromIndex s.index
          forList (F.grid.getNodesOnSide side) v fun m v => do
            let ip ← F.equations.ip m
            let p ← F.grid.coord m
            let f ← vget F.ebcs.functions s.index
            vset v (off + ip) (f p.1 p.2)
        else ok v) = ok v' ∧ Lab.IsVec v' (off + pp P (nx * ny)) G' ∧
        (∀ p ∈ P, G' (off + pp P p) = if S s.index = true ∧ F.grid.onSide s p = true then eF s.index (X (p % nx)) (Y (p / nx)) else G (off + pp P p)) ∧
        ∀ i, i < off → G' i = G i := by
  have hx := H.grid.hx
  rw [H.sides.vget (index_lt s), ok_bind]
  cases hS : S s.index with
  | false =>
    rw [if_neg (by simp)]
    exact ⟨v, G, rfl, hv, fun p _ => by rw [if_neg (by simp)], fun _ _ => rfl⟩
  | true =>
    rw [if_pos rfl, show Side.fromIndex s.index = ok s by cases s <;> rfl, ok_bind]
    obtain ⟨m1, m2, _⟩ := C46_sides H.grid
    have hmem : ∀ m, m ∈ F.grid.getNodesOnSide s ↔ m < nx * ny ∧ F.grid.onSide s m = true := by
      intro m
      rw [m1, show F.grid.size = nx * ny from H.grid.size]
    have hinP : ∀ m, m ∈ F.grid.getNodesOnSide s → m ∈ P := by
      intro m hm
      rw [hmem] at hm
      exact (H.hP m).2 ⟨hm.1, s, hS, hm.2⟩
    obtain ⟨v', G', e, hG', q1, q2⟩ := forList_fill (pos := fun m => off + pp P m) (upd := fun m _ => eF s.index (X (m % nx)) (Y (m / nx)))
      (n := off + pp P (nx * ny)) (F.grid.getNodesOnSide s) v G (body := fun m v => do
          let ip ← F.equations.ip m
          let p ← F.grid.coord m
          let f ← vget F.ebcs.functions s.index
          vset v (off + ip) (f p.1 p.2)) ((m2 s).imp (fun h => Nat.ne_of_lt h)) (by
            intro a ha b hb h
            have h : off + pp P a = off + pp P b := h
            exact (pp_inj (hinP a ha) (hinP b hb)).1 (by omega)) hv (by
            intro m hm v G hv
            have hmP := hinP m hm
            have hmn := ((hmem m).1 hm).1
            rw [H.canon.get_ip hlt hmn hmP, ok_bind]
            have hc : F.grid.coord m = ok (X (m % nx), Y (m / nx)) := by
              obtain ⟨i, j, hi, hj, rfl⟩ := ij_of hx hmn
              rw [coord2 H hi hj, mod_ij hi, div_ij hi]
            rw [hc, ok_bind, H.funs.vget (index_lt s), ok_bind]
            exact hv.vset (by have := pp_lt hmn hmP; omega) _)
    refine ⟨v', G', e, hG', ?_, ?_⟩
    · intro p hp
      by_cases ho : F.grid.onSide s p = true
      · rw [if_pos ⟨rfl, ho⟩]
        exact q1 p ((hmem p).2 ⟨((H.hP p).1 hp).1, ho⟩)
      · rw [if_neg (fun h => ho h.2)]
        apply q2
        intro m hm h
        have := (pp_inj (hinP m hm) hp).1 (by omega)
        subst this
        exact ho ((hmem m).1 hm).2
    · intro i hi
      apply q2
      intro m _
      omega

theorem prescribed2 (H : F.Is nx ny X Y px py S eF nF kx ky P) (hlt : nx * ny < 2147483648) {off : Nat} {v : List α} {G : Nat → α}
    (hv : Lab.IsVec v (off + pp P (nx * ny)) G) : ∃ v' G', F.prescribed off v = ok v' ∧ Lab.IsVec v' (off + pp P (nx * ny)) G' ∧
      (∀ p ∈ P, G' (off + pp P p) = D2 nx ny S eF X Y (p % nx) (p / nx)) ∧ ∀ i, i < off → G' i = G i := by
  have hx := H.grid.hx
  have hy := H.grid.hy
  unfold Fdm2d.prescribed
  rw [forRange_four]
  obtain ⟨v0, G0, e0, h0, q0, z0⟩ := prescribedSide H hlt .Xmin hv
  obtain ⟨v1, G1, e1, h1, q1, z1⟩ := prescribedSide H hlt .Xmax h0
  obtain ⟨v2, G2, e2, h2, q2, z2⟩ := prescribedSide H hlt .Ymin h1
  obtain ⟨v3, G3, e3, h3, q3, z3⟩ := prescribedSide H hlt .Ymax h2
  refine ⟨v3, G3, ?_, h3, ?_, ?_⟩
  · rw [show (0 : Nat) = Side.Xmin.index from rfl, e0, ok_bind]
    rw [show (1 : Nat) = Side.Xmax.index from rfl, e1, ok_bind]
    rw [show (2 : Nat) = Side.Ymin.index from rfl, e2, ok_bind]
    rw [show (3 : Nat) = Side.Ymax.index from rfl, e3]
  · intro p hp
    have hpn := ((H.hP p).1 hp).1
    rw [q3 p hp, q2 p hp, q1 p hp, q0 p hp]
    obtain ⟨i, j, hi, hj, rfl⟩ := ij_of hx hpn
    have hor := (hP2 H hi hj).1 hp
    obtain ⟨a, b, c, d⟩ := sides2 H.grid hi hj
    rw [mod_ij hi, div_ij hi]
    unfold D2
    dsimp only [Grid2d.onSide, Side.index]
    simp only [a, b, c, d]
    by_cases t3 : S 3 = true ∧ j = ny - 1
    · rw [if_pos t3, if_pos t3]
    · rw [if_neg t3, if_neg t3]
      by_cases t2 : S 2 = true ∧ j = 0
      · rw [if_pos t2, if_pos t2]
      · rw [if_neg t2, if_neg t2]
        by_cases t1 : S 1 = true ∧ i = nx - 1
        · rw [if_pos t1, if_pos t1]
        · rw [if_neg t1, if_neg t1, if_pos]
          rcases hor with h | h | h | h
          · exact h
          · exact absurd h t1
          · exact absurd h t2
          · exact absurd h t3
  · intro i hi
    rw [z3 i hi, z2 i hi, z1 i hi, z0 i hi]

omit [Field α] [LinearOrder α] [IsStrictOrderedRing α] in
theorem forList_map {β γ σ : Type} (l : List β) (f : β → γ) (body : γ → σ → Res σ) : ∀ s, forList (l.map f) s body = forList l s (fun b => body (f b)) := by
  induction l with
  | nil => intro s; rfl
  | cons a l ih =>
    intro s
    show (body (f a) s >>= fun s => forList (l.map f) s body) = (body (f a) s >>= fun s => forList l s (fun b => body (f b)))
    congr 1
    funext s
    exact ih s

theorem forEach_eq (H : F.Is nx ny X Y px py S eF nF kx ky P) :
    F.grid.forEachCoord = (List.range (nx * ny)).map fun m => (m, X (m % nx), Y (m / nx)) := by
  obtain ⟨h1, h2⟩ := C46_for_each_coord H.grid
  rw [show F.grid.size = nx * ny from H.grid.size] at h1
  rw [← h1, List.map_map]
  conv_lhs => rw [← List.map_id F.grid.forEachCoord]
  apply List.map_congr_left
  rintro ⟨m, x, y⟩ hm
  have hc := (h2 m x y).1 hm
  have hml : m ∈ List.range (nx * ny) := by rw [← h1]; exact List.mem_map.2 ⟨_, hm, rfl⟩
  obtain ⟨i, j, hi, hj, rfl⟩ := ij_of H.grid.hx (List.mem_range.1 hml)
  rw [coord2 H hi hj] at hc
  cases hc
  show _ = (i + j * nx, X ((i + j * nx) % nx), Y ((i + j * nx) / nx))
  rw [mod_ij hi, div_ij hi]
  rfl

theorem vectorsSps2 (H : F.Is nx ny X Y px py S eF nF kx ky P) (hlt : nx * ny < 2147483648) (source : α → α → α) :
    ∃ ac fb, F.getVectorsSps source = ok (List.replicate (pu P (nx * ny)) 0, ac, fb) ∧
      SpsVecs (nx * ny) P (fun m => R2 px py nx ny nF (X 1 - X 0) (Y 1 - Y 0) X Y source (m % nx) (m / nx))
        (fun m => D2 nx ny S eF X Y (m % nx) (m / nx)) ac fb := by
  have hx := H.grid.hx
  unfold Fdm2d.getVectorsSps
  dsimp only
  obtain ⟨l1, l2, l3, l4⟩ := H.canon.lists
  rw [l1, l3, l4]
  obtain ⟨fb, G, e, hG, q, _⟩ := forList_fill (pos := pu P)
    (upd := fun m y => y + R2 px py nx ny nF (X 1 - X 0) (Y 1 - Y 0) X Y source (m % nx) (m / nx)) (n := pu P (nx * ny)) (unkn P (nx * ny))
    (List.replicate (pu P (nx * ny)) (0 : α)) (fun _ => 0) (body := fun m f => do
      let iu ← F.equations.iu m
      let p ← F.grid.coord m
      F.rhs axisSps source m p.1 p.2 iu f) (unkn_nodup P _) (by
        intro a ha b hb h
        exact (pu_inj (mem_unkn.1 ha).2 (mem_unkn.1 hb).2).1 h) (Lab.isVec_replicate _ _) (by
        intro m hm v G hv
        obtain ⟨hm, hmP⟩ := mem_unkn.1 hm
        rw [H.canon.get_iu hlt hm hmP, ok_bind]
        obtain ⟨i, j, hi, hj, rfl⟩ := ij_of hx hm
        rw [coord2 H hi hj, ok_bind, mod_ij hi, div_ij hi]
        exact rhs2 H (Or.inl rfl) source hi hj (pu_lt hm hmP) hv)
  rw [e, ok_bind]
  obtain ⟨ac, G', e', hG', q', _⟩ := prescribed2 H hlt (off := 0) (v := List.replicate (pp P (nx * ny)) (0 : α)) (G := fun _ => 0) (by
    rw [Nat.zero_add]; exact Lab.isVec_replicate _ _)
  rw [e', ok_bind]
  refine ⟨ac, fb, rfl, ?_, ?_⟩
  · rw [Nat.zero_add] at hG'
    apply hG'.congr
    intro i hi
    obtain ⟨p, hp, hpP, rfl⟩ := pp_surj hi
    have := q' p hpP
    rw [Nat.zero_add] at this
    rw [this, presc_get hp hpP]
  · apply hG.congr
    intro i hi
    obtain ⟨m, hm, hmP, rfl⟩ := pu_surj hi
    rw [q m (mem_unkn.2 ⟨hm, hmP⟩), unkn_get hm hmP, zero_add]

theorem vectorsLmm2 (H : F.Is nx ny X Y px py S eF nF kx ky P) (hlt : nx * ny < 2147483648) (source : α → α → α) :
    ∃ ff, F.getVectorsLmm source = ok (List.replicate (nx * ny + pp P (nx * ny)) 0, ff) ∧
      LmmVec (nx * ny) P (fun m => R2 px py nx ny nF (X 1 - X 0) (Y 1 - Y 0) X Y source (m % nx) (m / nx))
        (fun m => D2 nx ny S eF X Y (m % nx) (m / nx)) ff := by
  have hx := H.grid.hx
  unfold Fdm2d.getVectorsLmm
  dsimp only
  rw [H.canon.hneq, H.canon.lists.2.2.2, forEach_eq H, forList_map]
  obtain ⟨fb, G, e, hG, q, _⟩ := forList_fill (pos := id)
    (upd := fun m y => y + R2 px py nx ny nF (X 1 - X 0) (Y 1 - Y 0) X Y source (m % nx) (m / nx)) (n := nx * ny + pp P (nx * ny)) (List.range (nx * ny))
    (List.replicate (nx * ny + pp P (nx * ny)) (0 : α)) (fun _ => 0) (body := fun m f => F.rhs axisLmm source m (X (m % nx)) (Y (m / nx)) m f)
    List.nodup_range (fun a _ b _ h => h) (Lab.isVec_replicate _ _) (by
        intro m hm v G hv
        have hm := List.mem_range.1 hm
        obtain ⟨i, j, hi, hj, rfl⟩ := ij_of hx hm
        rw [mod_ij hi, div_ij hi]
        exact rhs2 H (Or.inr rfl) source hi hj (by omega) hv)
  rw [e, ok_bind]
  obtain ⟨ff, G', e', hG', q', q2⟩ := prescribed2 H hlt (off := nx * ny) hG
  rw [e', ok_bind]
  refine ⟨ff, rfl, hG'.congr ?_⟩
  intro i hi
  by_cases hin : i < nx * ny
  · rw [if_pos hin, q2 i hin]
    have := q i (List.mem_range.2 hin)
    rw [id] at this
    rw [this, zero_add]
  · rw [if_neg hin]
    obtain ⟨p, hp, hpP, e⟩ := pp_surj (P := P) (n := nx * ny) (i := i - nx * ny) (by omega)
    have : i = nx * ny + pp P p := by omega
    subst this
    rw [q' p hpP, Nat.add_sub_cancel_left, presc_get hp hpP]


/-! ### The theorems -/

/-- the discrete operator `-kx ∂²/∂x² - ky ∂²/∂y² + α` at node `m` -/
def Lap2 (px py : Bool) (nx ny : Nat) (kx ky alpha dx dy : α) (w : Nat → α) (m : Nat) : α :=
  alpha * w m - kx * (w (lef px nx (m % nx) + m / nx * nx) - 2 * w m + w (rig px nx (m % nx) + m / nx * nx)) / (dx * dx) -
    ky * (w (m % nx + lef py ny (m / nx) * nx) - 2 * w m + w (m % nx + rig py ny (m / nx) * nx)) / (dy * dy)

/-- factor of the equation of node `m` -/
def half2 (px py : Bool) (nx ny m : Nat) : α := half px nx (m % nx) * half py ny (m / nx)

omit [LinearOrder α] [IsStrictOrderedRing α] in
theorem sum_lap2 (px py : Bool) {nx ny : Nat} (hx : 2 ≤ nx) (kx ky alpha dx dy : α) {m : Nat} (hm : m < nx * ny) (w : Nat → α) :
    ∑ b ∈ Finset.range 5, V2 px py nx ny (2 * (kx / (dx * dx) + ky / (dy * dy)) + alpha) (-kx / (dx * dx)) (-ky / (dy * dy)) m b * w (N2 px py nx ny m b) =
      half2 px py nx ny m * Lap2 px py nx ny kx ky alpha dx dy w m := by
  obtain ⟨i, j, hi, hj, rfl⟩ := ij_of hx hm
  rw [sum_V2 px py hi]
  unfold Lap2 half2
  rw [mod_ij hi, div_ij hi]
  ring

variable {eps : α} {g : Grid2d α} {eops : List (EOp α)} {nops : List (Side × (α → α → α))}

/-- prescribed are the nodes on the sides with essential conditions -/
theorem setup2_lists (Q : Setup2 eps g nx ny X Y eops nops kx ky F) :
    (∀ m, m ∈ F.equations.prescribed ↔ m < nx * ny ∧ ∃ s, Ess eops s ∧ g.onSide s m = true) ∧
    (∀ m, m ∈ F.equations.unknown ↔ m < nx * ny ∧ m ∉ F.equations.prescribed) := by
  obtain ⟨px, py, S, eF, nF, P, H, hg, _, _, hS⟩ := setup2_is Q
  obtain ⟨l1, l2, _, _⟩ := H.canon.lists
  rw [l1, l2]
  refine ⟨?_, ?_⟩
  · intro m
    rw [mem_presc, H.hP, hg]
    simp only [hS]
    tauto
  · intro m
    rw [mem_unkn, mem_presc]
    tauto

/-- **C48** The matrices of the partitioned system in two dimensions: no error, symmetric, the rows are the finite-difference equations of the unknown
nodes (halved for each non-periodic direction in which the node is an end). -/
theorem C48_sps_2d (Q : Setup2 eps g nx ny X Y eops nops kx ky F) (hlt : nx * ny < 2147483648) {px py : Bool} (hpx : px = true ↔ Per eops .Xmin)
    (hpy : py = true ↔ Per eops .Ymin) (hu : F.equations.nu ≠ 0) (alpha : α) (extra : Nat) (sym : Sym) :
    (∀ m, m ∈ F.equations.prescribed ↔ m < nx * ny ∧ ∃ s, Ess eops s ∧ g.onSide s m = true) ∧
    (∀ m, m ∈ F.equations.unknown ↔ m < nx * ny ∧ m ∉ F.equations.prescribed) ∧
    ∃ kk kc, F.getMatricesSps alpha extra sym = ok (kk, if F.equations.np = 0 then none else some kc) ∧
      kk.nrow = F.equations.nu ∧ kk.ncol = F.equations.nu ∧ kk.symmetric = sym ∧
      ∃ A a, kk.asDense = ok A ∧ IsDense A F.equations.nu F.equations.nu a ∧ (∀ i j, i < F.equations.nu → j < F.equations.nu → a i j = a j i) ∧
      ∃ b, (F.equations.np ≠ 0 → kc.nrow = F.equations.nu ∧ kc.ncol = F.equations.np ∧ ∃ Bm, kc.asDense = ok Bm ∧ IsDense Bm F.equations.nu F.equations.np b) ∧
      ∀ i, i < F.equations.nu → ∀ w : Nat → α,
        ∑ j ∈ Finset.range F.equations.nu, a i j * w (F.equations.unknown.getD j 0) +
          ∑ j ∈ Finset.range F.equations.np, b i j * w (F.equations.prescribed.getD j 0) =
        half2 px py nx ny (F.equations.unknown.getD i 0) * Lap2 px py nx ny kx ky alpha (X 1 - X 0) (Y 1 - Y 0) w (F.equations.unknown.getD i 0) := by
  refine ⟨(setup2_lists Q).1, (setup2_lists Q).2, ?_⟩
  obtain ⟨px', py', S, eF, nF, P, H, hg, hpx', hpy', hS⟩ := setup2_is Q
  obtain rfl : px = px' := by rw [Bool.eq_iff_iff, hpx, hpx']
  obtain rfl : py = py' := by rw [Bool.eq_iff_iff, hpy, hpy']
  obtain ⟨kk, kc, e, d1, d2, d3, A, a, eA, hA, hsy, b, hb, hrow⟩ := sps_api (scheme2 H alpha) hlt hu extra sym
  refine ⟨kk, kc, e, d1, d2, d3, A, a, eA, hA, hsy, b, hb, ?_⟩
  intro i hi w
  have hm : F.equations.unknown.getD i 0 < nx * ny := by
    rw [H.canon.lists.2.2.1] at hi
    rw [H.canon.lists.1]
    obtain ⟨m, h1, h2, rfl⟩ := pu_surj hi
    rwa [unkn_get h1 h2]
  rw [hrow i hi w, sum_lap2 px py H.grid.hx kx ky alpha _ _ hm]

/-- **C48** The matrix with multipliers in two dimensions, and the constraint matrix. -/
theorem C48_lmm_2d (Q : Setup2 eps g nx ny X Y eops nops kx ky F) (hlt : 2 * (nx * ny) < 2147483648) {px py : Bool} (hpx : px = true ↔ Per eops .Xmin)
    (hpy : py = true ↔ Per eops .Ymin) (alpha : α) (extra : Nat) (getc : Bool) (sym : Sym) :
    ∃ mm cc, F.getMatricesLmm alpha extra getc sym = ok (mm, if getc = true ∧ F.equations.np ≠ 0 then some cc else none) ∧
      mm.nrow = nx * ny + F.equations.np ∧ mm.ncol = nx * ny + F.equations.np ∧ mm.symmetric = sym ∧
      (∃ A a, mm.asDense = ok A ∧ IsDense A (nx * ny + F.equations.np) (nx * ny + F.equations.np) a ∧ (∀ i j, a i j = a j i) ∧
        (∀ m, m < nx * ny → m ∉ F.equations.prescribed → ∀ w : Nat → α, ∑ j ∈ Finset.range (nx * ny + F.equations.np), a m j * w j =
          half2 px py nx ny m * Lap2 px py nx ny kx ky alpha (X 1 - X 0) (Y 1 - Y 0) w m) ∧
        (∀ i, i < F.equations.np → ∀ w : Nat → α, ∑ j ∈ Finset.range (nx * ny + F.equations.np), a (F.equations.prescribed.getD i 0) j * w j =
          half2 px py nx ny (F.equations.prescribed.getD i 0) *
            Lap2 px py nx ny kx ky alpha (X 1 - X 0) (Y 1 - Y 0) w (F.equations.prescribed.getD i 0) + w (nx * ny + i)) ∧
        (∀ i, i < F.equations.np → ∀ w : Nat → α,
          ∑ j ∈ Finset.range (nx * ny + F.equations.np), a (nx * ny + i) j * w j = w (F.equations.prescribed.getD i 0))) ∧
      (getc = true ∧ F.equations.np ≠ 0 → ∃ D d, cc.asDense = ok D ∧ IsDense D F.equations.np (nx * ny) d ∧
        ∀ i, i < F.equations.np → ∀ k, k < nx * ny → d i k = if k = F.equations.prescribed.getD i 0 then 1 else 0) := by
  obtain ⟨px', py', S, eF, nF, P, H, hg, hpx', hpy', hS⟩ := setup2_is Q
  obtain rfl : px = px' := by rw [Bool.eq_iff_iff, hpx, hpx']
  obtain rfl : py = py' := by rw [Bool.eq_iff_iff, hpy, hpy']
  have hx := H.grid.hx
  have hy := H.grid.hy
  have h11 : 1 ≤ nx * ny := Nat.mul_pos (by omega) (by omega)
  obtain ⟨mm, cc, e, d1, d2, d3, ⟨A, a, eA, hA, hsy, h1, h2, h3⟩, h4⟩ := lmm_api (scheme2 H alpha) hlt h11 extra getc sym
  refine ⟨mm, cc, e, d1, d2, d3, ⟨A, a, eA, hA, hsy, ?_, ?_, h3⟩, h4⟩
  · intro m hm hmP w; rw [h1 m hm hmP w, sum_lap2 px py hx kx ky alpha _ _ hm]
  · intro i hi w
    have hm : F.equations.prescribed.getD i 0 < nx * ny := by
      rw [H.canon.lists.2.2.2] at hi
      rw [H.canon.lists.2.1]
      obtain ⟨m, h1, h2, rfl⟩ := pp_surj hi
      rwa [presc_get h1 h2]
    rw [h2 i hi w, sum_lap2 px py hx kx ky alpha _ _ hm]

/-- **C48** Without unknown nodes the assembly panics. -/
theorem C48_no_unknown_2d (F : Fdm2d α) (hu : F.equations.nu = 0) (alpha : α) (extra : Nat) (sym : Sym) : F.getMatricesSps alpha extra sym = panic :=
  matricesSps_no_unknown sym hu

/-- **C48** The vectors in two dimensions: source minus outflow at the unknown nodes, and the prescribed values; where sides meet, the value of the last
of Xmin, Xmax, Ymin, Ymax is prescribed. -/
theorem C48_vectors_2d (Q : Setup2 eps g nx ny X Y eops nops kx ky F) (hlt : nx * ny < 2147483648) {px py : Bool} (hpx : px = true ↔ Per eops .Xmin)
    (hpy : py = true ↔ Per eops .Ymin) {S : Nat → Bool} (hS : ∀ s : Side, S s.index = true ↔ Ess eops s) (source : α → α → α) :
    ∃ eF nF, Lab.IsVec F.ebcs.functions 4 eF ∧ Lab.IsVec F.nbcs.functions 4 nF ∧
    ∃ zb zl ac fb ff, F.getVectorsSps source = ok (zb, ac, fb) ∧ F.getVectorsLmm source = ok (zl, ff) ∧
      Lab.IsVec ac F.equations.np (fun i => (fun m => D2 nx ny S eF X Y (m % nx) (m / nx)) (F.equations.prescribed.getD i 0)) ∧
      Lab.IsVec fb F.equations.nu (fun i => (fun m => R2 px py nx ny nF (X 1 - X 0) (Y 1 - Y 0) X Y source (m % nx) (m / nx)) (F.equations.unknown.getD i 0)) ∧
      Lab.IsVec ff (nx * ny + F.equations.np) (fun i => if i < nx * ny then R2 px py nx ny nF (X 1 - X 0) (Y 1 - Y 0) X Y source (i % nx) (i / nx) else
        (fun m => D2 nx ny S eF X Y (m % nx) (m / nx)) (F.equations.prescribed.getD (i - nx * ny) 0)) := by
  obtain ⟨px', py', S', eF, nF, P, H, hg, hpx', hpy', hS'⟩ := setup2_is Q
  obtain rfl : px = px' := by rw [Bool.eq_iff_iff, hpx, hpx']
  obtain rfl : py = py' := by rw [Bool.eq_iff_iff, hpy, hpy']
  have hSS : ∀ s : Side, S s.index = S' s.index := fun s => by rw [Bool.eq_iff_iff, hS, hS']
  have hD : ∀ (eF : Nat → α → α → α) i j, D2 nx ny S eF X Y i j = D2 nx ny S' eF X Y i j := by
    intro eF i j
    unfold D2
    rw [show S 3 = S' 3 from hSS .Ymax, show S 2 = S' 2 from hSS .Ymin, show S 1 = S' 1 from hSS .Xmax]
  simp only [hD]
  obtain ⟨ac, fb, e1, v⟩ := vectorsSps2 H hlt source
  obtain ⟨ff, e2, v'⟩ := vectorsLmm2 H hlt source
  obtain ⟨l1, l2, l3, l4⟩ := H.canon.lists
  rw [l1, l2, l3, l4]
  exact ⟨eF, nF, H.funs, H.nat, _, _, ac, fb, ff, e1, e2, v.ac, v.fb, v'⟩

/-- **C49** The two systems assembled in two dimensions have the same solutions. -/
theorem C49_systems_2d (Q : Setup2 eps g nx ny X Y eops nops kx ky F) (hlt : 2 * (nx * ny) < 2147483648) (hu : F.equations.nu ≠ 0)
    (hp : F.equations.np ≠ 0) (alpha : α) (source : α → α → α) (extra extra' : Nat) (sym sym' : Sym) :
    ∃ kk kc mm A a Bm b Mm M zb zl ac fb ff, F.getMatricesSps alpha extra sym = ok (kk, some kc) ∧ F.getMatricesLmm alpha extra' false sym' = ok (mm, none) ∧
      F.getVectorsSps source = ok (zb, ac, fb) ∧ F.getVectorsLmm source = ok (zl, ff) ∧
      kk.asDense = ok A ∧ IsDense A F.equations.nu F.equations.nu a ∧ kc.asDense = ok Bm ∧ IsDense Bm F.equations.nu F.equations.np b ∧
      mm.asDense = ok Mm ∧ IsDense Mm (nx * ny + F.equations.np) (nx * ny + F.equations.np) M ∧
      (∀ x : Nat → α, (∀ i, i < F.equations.nu → ∑ j ∈ Finset.range F.equations.nu, a i j * x j +
            ∑ j ∈ Finset.range F.equations.np, b i j * ac.getD j 0 = fb.getD i 0) →
        ∃ y : Nat → α, (∀ i, i < nx * ny + F.equations.np → ∑ j ∈ Finset.range (nx * ny + F.equations.np), M i j * y j = ff.getD i 0) ∧
          (∀ i, i < F.equations.nu → y (F.equations.unknown.getD i 0) = x i) ∧ ∀ i, i < F.equations.np → y (F.equations.prescribed.getD i 0) = ac.getD i 0) ∧
      (∀ y : Nat → α, (∀ i, i < nx * ny + F.equations.np → ∑ j ∈ Finset.range (nx * ny + F.equations.np), M i j * y j = ff.getD i 0) →
        (∀ i, i < F.equations.nu → ∑ j ∈ Finset.range F.equations.nu, a i j * y (F.equations.unknown.getD j 0) +
            ∑ j ∈ Finset.range F.equations.np, b i j * ac.getD j 0 = fb.getD i 0) ∧
          ∀ i, i < F.equations.np → y (F.equations.prescribed.getD i 0) = ac.getD i 0) := by
  obtain ⟨px, py, S, eF, nF, P, H, _⟩ := setup2_is Q
  obtain ⟨ac, fb, e1, v⟩ := vectorsSps2 H (by omega) source
  obtain ⟨ff, e2, v'⟩ := vectorsLmm2 H (by omega) source
  obtain ⟨kk, kc, mm, A, a, Bm, b, Mm, M, h1, h2, h3, h4, h5, h6, h7, h8, h9, h10⟩ := strategies_api (scheme2 H alpha) hlt hu hp extra extra' sym sym' v v'
  exact ⟨kk, kc, mm, A, a, Bm, b, Mm, M, _, _, ac, fb, ff, h1, h2, e1, e2, h3, h4, h5, h6, h7, h8, h9, h10⟩

/-- what a result of `solve_sps` satisfies -/
theorem sps_sol2 (H : F.Is nx ny X Y px py S eF nF kx ky P) (hlt : nx * ny < 2147483648) {solver : Coo α → List α → Res (List α)} (hsol : Solves solver)
    {sym : Sym} {alpha : α} {source : α → α → α} {r : List α} (e : F.solveSps solver sym alpha source = ok r) :
    P ≠ [] ∧ ∃ W, Lab.IsVec r (nx * ny) W ∧ IsSol (nx * ny) 5 P (N2 px py nx ny) (V2 px py nx ny (2 * (kx / ((X 1 - X 0) * (X 1 - X 0)) + ky / ((Y 1 - Y 0) * (Y 1 - Y 0))) + alpha) (-kx / ((X 1 - X 0) * (X 1 - X 0)))
        (-ky / ((Y 1 - Y 0) * (Y 1 - Y 0))))
      (fun m => R2 px py nx ny nF (X 1 - X 0) (Y 1 - Y 0) X Y source (m % nx) (m / nx)) (fun m => D2 nx ny S eF X Y (m % nx) (m / nx)) W := by
  obtain ⟨ac, fb, e1, v⟩ := vectorsSps2 H hlt source
  unfold Fdm2d.solveSps at e
  rw [bind_eq_ok] at e
  obtain ⟨_, _, e⟩ := e
  obtain ⟨l1, l2, l3, l4⟩ := H.canon.lists
  have hu : 1 ≤ pu P (nx * ny) := by
    by_contra hu
    rw [C48_no_unknown_2d F (by rw [l3]; omega)] at e
    cases e
  by_cases hne : P = []
  · exfalso
    obtain ⟨kk, kc, em, _⟩ := sps_api (scheme2 H alpha) hlt (by rw [l3]; omega) 0 sym
    rw [if_pos (by rw [l4, pp_eq_zero (scheme2 H alpha).hP]; exact hne)] at em
    rw [show F.getMatricesSps alpha 0 sym = _ from em, e1] at e
    cases e
  · refine ⟨hne, ?_⟩
    obtain ⟨kk, kc, fb', em, ef, hab⟩ := sps_finish (scheme2 H alpha) hlt hu hne 0 sym v hsol
    rw [show F.getMatricesSps alpha 0 sym = _ from em, e1] at e
    simp only [ok_bind] at e
    rw [ef, show (ok fb' : Res (List α)).unwrap = ok fb' from rfl, ok_bind, bind_eq_ok] at e
    obtain ⟨ab, h1, h2⟩ := e
    obtain ⟨r', W, h3, h4, h5⟩ := hab ab h1
    rw [h3] at h2
    cases h2
    exact ⟨W, h4, h5⟩

theorem lmm_sol2 (H : F.Is nx ny X Y px py S eF nF kx ky P) (hlt : 2 * (nx * ny) < 2147483648) {solver : Coo α → List α → Res (List α)} (hsol : Solves solver)
    {sym : Sym} {alpha : α} {source : α → α → α} {r : List α} (e : F.solveLmm solver sym alpha source = ok r) :
    ∃ W, Lab.IsVec r (nx * ny) W ∧ IsSol (nx * ny) 5 P (N2 px py nx ny) (V2 px py nx ny (2 * (kx / ((X 1 - X 0) * (X 1 - X 0)) + ky / ((Y 1 - Y 0) * (Y 1 - Y 0))) + alpha) (-kx / ((X 1 - X 0) * (X 1 - X 0)))
        (-ky / ((Y 1 - Y 0) * (Y 1 - Y 0))))
      (fun m => R2 px py nx ny nF (X 1 - X 0) (Y 1 - Y 0) X Y source (m % nx) (m / nx)) (fun m => D2 nx ny S eF X Y (m % nx) (m / nx)) W := by
  have hx := H.grid.hx
  have hy := H.grid.hy
  have h11 : 1 ≤ nx * ny := Nat.mul_pos (by omega) (by omega)
  obtain ⟨ff, e1, v⟩ := vectorsLmm2 H (by omega) source
  unfold Fdm2d.solveLmm at e
  rw [bind_eq_ok] at e
  obtain ⟨_, _, e⟩ := e
  obtain ⟨mm, em, haa⟩ := lmm_finish (scheme2 H alpha) hlt h11 0 sym v hsol
  rw [show F.getMatricesLmm alpha 0 false sym = _ from em, e1] at e
  simp only [ok_bind] at e
  rw [bind_eq_ok] at e
  obtain ⟨aa, h1, h2⟩ := e
  obtain ⟨r', W, h3, h4, h5⟩ := haa aa h1
  rw [H.canon.hneq, h3] at h2
  cases h2
  exact ⟨W, h4, h5⟩

/-- **C48** What the two strategies return, for any linear solver that returns solutions only: the finite-difference equations hold at the unknown nodes
and the prescribed values at the others. -/
theorem C48_solve_2d (Q : Setup2 eps g nx ny X Y eops nops kx ky F) (hlt : 2 * (nx * ny) < 2147483648) {px py : Bool} (hpx : px = true ↔ Per eops .Xmin)
    (hpy : py = true ↔ Per eops .Ymin) {S : Nat → Bool} (hS : ∀ s : Side, S s.index = true ↔ Ess eops s)
    {solver : Coo α → List α → Res (List α)} (hsol : Solves solver) {sym : Sym} {alpha : α} {source : α → α → α} {r : List α}
    (hr : F.solveSps solver sym alpha source = ok r ∨ F.solveLmm solver sym alpha source = ok r) :
    ∃ eF nF, Lab.IsVec F.ebcs.functions 4 eF ∧ Lab.IsVec F.nbcs.functions 4 nF ∧ ∃ W, Lab.IsVec r (nx * ny) W ∧
      (∀ m, m ∈ F.equations.unknown → half2 px py nx ny m * Lap2 px py nx ny kx ky alpha (X 1 - X 0) (Y 1 - Y 0) W m =
        R2 px py nx ny nF (X 1 - X 0) (Y 1 - Y 0) X Y source (m % nx) (m / nx)) ∧
      ∀ m, m ∈ F.equations.prescribed → W m = D2 nx ny S eF X Y (m % nx) (m / nx) := by
  obtain ⟨px', py', S', eF, nF, P, H, hg, hpx', hpy', hS'⟩ := setup2_is Q
  obtain rfl : px = px' := by rw [Bool.eq_iff_iff, hpx, hpx']
  obtain rfl : py = py' := by rw [Bool.eq_iff_iff, hpy, hpy']
  have hSS : ∀ s : Side, S s.index = S' s.index := fun s => by rw [Bool.eq_iff_iff, hS, hS']
  have hD : ∀ (eF : Nat → α → α → α) i j, D2 nx ny S eF X Y i j = D2 nx ny S' eF X Y i j := by
    intro eF i j
    unfold D2
    rw [show S 3 = S' 3 from hSS .Ymax, show S 2 = S' 2 from hSS .Ymin, show S 1 = S' 1 from hSS .Xmax]
  simp only [hD]
  obtain ⟨W, hW, hs, hd⟩ : ∃ W, Lab.IsVec r (nx * ny) W ∧ IsSol (nx * ny) 5 P (N2 px py nx ny) (V2 px py nx ny (2 * (kx / ((X 1 - X 0) * (X 1 - X 0)) + ky / ((Y 1 - Y 0) * (Y 1 - Y 0))) + alpha) (-kx / ((X 1 - X 0) * (X 1 - X 0)))
        (-ky / ((Y 1 - Y 0) * (Y 1 - Y 0))))
      (fun m => R2 px py nx ny nF (X 1 - X 0) (Y 1 - Y 0) X Y source (m % nx) (m / nx)) (fun m => D2 nx ny S' eF X Y (m % nx) (m / nx)) W := by
    rcases hr with h | h
    · exact (sps_sol2 H (by omega) hsol h).2
    · exact lmm_sol2 H hlt hsol h
  refine ⟨eF, nF, H.funs, H.nat, W, hW, ?_, ?_⟩
  · intro m hm
    rw [H.canon.lists.1, mem_unkn] at hm
    rw [← sum_lap2 px py H.grid.hx kx ky alpha _ _ hm.1]
    exact hs m hm.1 hm.2
  · intro m hm
    rw [H.canon.lists.2.1, mem_presc] at hm
    exact hd m hm.2

/-- **C48** With at least one unknown and one prescribed node and consistent boundary conditions, the strategies succeed whenever the linear solver does. -/
theorem C48_solve_ok_2d (Q : Setup2 eps g nx ny X Y eops nops kx ky F) (hlt : 2 * (nx * ny) < 2147483648) {solver : Coo α → List α → Res (List α)}
    (hsol : Solves solver) (htot : ∀ A b, ∃ x, solver A b = ok x) (hval : F.ebcs.validate F.nbcs = ok ()) (sym : Sym) (alpha : α) (source : α → α → α) :
    (F.equations.nu ≠ 0 → F.equations.np ≠ 0 → ∃ r, F.solveSps solver sym alpha source = ok r) ∧ ∃ r, F.solveLmm solver sym alpha source = ok r := by
  obtain ⟨px, py, S, eF, nF, P, H, _⟩ := setup2_is Q
  have hx := H.grid.hx
  have hy := H.grid.hy
  have h11 : 1 ≤ nx * ny := Nat.mul_pos (by omega) (by omega)
  obtain ⟨ac, fb, e1, v⟩ := vectorsSps2 H (by omega) source
  obtain ⟨ff, e2, v'⟩ := vectorsLmm2 H (by omega) source
  obtain ⟨l1, l2, l3, l4⟩ := H.canon.lists
  constructor
  · intro hu hp
    rw [l3] at hu
    rw [l4] at hp
    obtain ⟨kk, kc, fb', em, ef, hab⟩ := sps_finish (scheme2 H alpha) (by omega) (by omega) (fun e => hp ((pp_eq_zero (scheme2 H alpha).hP).2 e)) 0 sym v hsol
    obtain ⟨ab, hx⟩ := htot kk fb'
    obtain ⟨r, W, hj, _⟩ := hab ab hx
    refine ⟨r, ?_⟩
    unfold Fdm2d.solveSps
    rw [hval, ok_bind, show F.getMatricesSps alpha 0 sym = _ from em, e1]
    simp only [ok_bind]
    rw [ef, show (ok fb' : Res (List α)).unwrap = ok fb' from rfl, ok_bind, hx, ok_bind, hj]
  · obtain ⟨mm, em, haa⟩ := lmm_finish (scheme2 H alpha) hlt h11 0 sym v' hsol
    obtain ⟨aa, hx⟩ := htot mm ff
    obtain ⟨r, W, hj, _⟩ := haa aa hx
    refine ⟨r, ?_⟩
    unfold Fdm2d.solveLmm
    rw [hval, ok_bind, show F.getMatricesLmm alpha 0 false sym = _ from em, e2]
    simp only [ok_bind]
    rw [hx, ok_bind, H.canon.hneq, hj]

/-! ### Uniqueness -/

theorem half2_pos (px py : Bool) (nx ny m : Nat) : (0 : α) < half2 px py nx ny m := mul_pos (half_pos' _ _ _) (half_pos' _ _ _)

theorem positive2 {px py : Bool} {nx ny : Nat} (hx : 2 ≤ nx) (hy : 2 ≤ ny) {kx ky alpha dx dy : α} (hkx : 0 < kx) (hky : 0 < ky) (ha : 0 ≤ alpha)
    (hdx : 0 < dx) (hdy : 0 < dy) :
    Positive (nx * ny) 5 (N2 px py nx ny) (V2 px py nx ny (2 * (kx / (dx * dx) + ky / (dy * dy)) + alpha) (-kx / (dx * dx)) (-ky / (dy * dy))) ∧
      (0 < alpha → ∀ m, m < nx * ny → 0 < ∑ b ∈ Finset.range 5,
        V2 px py nx ny (2 * (kx / (dx * dx) + ky / (dy * dy)) + alpha) (-kx / (dx * dx)) (-ky / (dy * dy)) m b) := by
  have hrow : ∀ m, m < nx * ny → ∑ b ∈ Finset.range 5,
      V2 px py nx ny (2 * (kx / (dx * dx) + ky / (dy * dy)) + alpha) (-kx / (dx * dx)) (-ky / (dy * dy)) m b = half2 px py nx ny m * alpha := by
    intro m hm
    have := sum_lap2 px py hx kx ky alpha dx dy hm (fun _ => 1)
    simp only [mul_one] at this
    rw [this]
    unfold Lap2
    ring
  refine ⟨⟨by omega, ?_, fun m _ => rfl, ?_, ?_, ?_⟩, ?_⟩
  · intro m b hm hb
    exact N2_lt px py hx hy hm
  · intro m b _ hb _
    unfold V2
    rw [if_neg (by omega)]
    apply mul_neg_of_pos_of_neg (half2_pos px py nx ny m)
    split
    · exact div_neg_of_neg_of_pos (by linarith) (mul_pos hdx hdx)
    · exact div_neg_of_neg_of_pos (by linarith) (mul_pos hdy hdy)
  · intro m hm
    rw [hrow m hm]
    exact mul_nonneg (le_of_lt (half2_pos px py nx ny m)) ha
  · intro M hM m hm hMm k hk
    obtain ⟨i, j, hi, hj, rfl⟩ := ij_of hx hm
    obtain ⟨a, b, ha', hb', rfl⟩ := ij_of hx hk
    have n1 : ∀ i, i < nx → N2 px py nx ny (i + j * nx) 1 = lef px nx i + j * nx := by
      intro i hi; unfold N2; rw [mod_ij hi, div_ij hi]; rfl
    have n2 : ∀ i, i < nx → N2 px py nx ny (i + j * nx) 2 = rig px nx i + j * nx := by
      intro i hi; unfold N2; rw [mod_ij hi, div_ij hi]; rfl
    have n3 : ∀ l, N2 px py nx ny (a + l * nx) 3 = a + lef py ny l * nx := by
      intro l; unfold N2; rw [mod_ij ha', div_ij ha']; rfl
    have n4 : ∀ l, N2 px py nx ny (a + l * nx) 4 = a + rig py ny l * nx := by
      intro l; unfold N2; rw [mod_ij ha', div_ij ha']; rfl
    have hrow1 : M (a + j * nx) := by
      refine line_connected (per := px) (M := fun i => M (i + j * nx)) hx (fun i hi h => ?_) (fun i hi h => ?_) hi hMm a ha'
      · have := hM (i + j * nx) 1 (ij_lt hi hj) (by omega) h; rwa [n1 i hi] at this
      · have := hM (i + j * nx) 2 (ij_lt hi hj) (by omega) h; rwa [n2 i hi] at this
    refine line_connected (per := py) (M := fun l => M (a + l * nx)) hy (fun l hl h => ?_) (fun l hl h => ?_) hj hrow1 b hb'
    · have := hM (a + l * nx) 3 (ij_lt ha' hl) (by omega) h; rwa [n3 l] at this
    · have := hM (a + l * nx) 4 (ij_lt ha' hl) (by omega) h; rwa [n4 l] at this
  · intro hα m hm
    rw [hrow m hm]
    exact mul_pos (half2_pos px py nx ny m) hα

/-- **C49** For diffusion coefficients that are positive and `α ≥ 0`, the two strategies return the same vector, whatever correct linear solvers and
storage kinds they use. -/
theorem C49_solve_2d (Q : Setup2 eps g nx ny X Y eops nops kx ky F) (hlt : 2 * (nx * ny) < 2147483648) {solver solver' : Coo α → List α → Res (List α)}
    (hsol : Solves solver) (hsol' : Solves solver') {sym sym' : Sym} {alpha : α} (hkx : 0 < kx) (hky : 0 < ky) (ha : 0 ≤ alpha) {source : α → α → α}
    {r r' : List α} (hr : F.solveSps solver sym alpha source = ok r) (hr' : F.solveLmm solver' sym' alpha source = ok r') : r = r' := by
  obtain ⟨px, py, S, eF, nF, P, H, _⟩ := setup2_is Q
  obtain ⟨hne, W, hW, hs⟩ := sps_sol2 H (by omega) hsol hr
  obtain ⟨W', hW', hs'⟩ := lmm_sol2 H hlt hsol' hr'
  have hu := sol_unique (positive2 H.grid.hx H.grid.hy hkx hky ha (sub_pos.2 H.posx) (sub_pos.2 H.posy)).1 (scheme2 H alpha).hP (Or.inl hne) hs hs'
  exact hW.unique (hW'.congr fun m hm => (hu m hm).symm)


/-! ### Exactness -/

/-- derivative sign at the ends of a line -/
def sgn (n i : Nat) : α := if i = 0 then 1 else if i = n - 1 then -1 else 0

/-- second difference of a quadratic along a line that is not periodic -/
theorem diff_quad {n : Nat} (hn : 2 ≤ n) {T : Nat → α} {d : α} (hT : ∀ i, i + 1 < n → T (i + 1) = T i + d) (a0 a1 a2 : α) {i : Nat} (hi : i < n) :
    (a0 + a1 * T (lef false n i) + a2 * T (lef false n i) ^ 2) - 2 * (a0 + a1 * T i + a2 * T i ^ 2) +
      (a0 + a1 * T (rig false n i) + a2 * T (rig false n i) ^ 2) = 2 * a2 * d ^ 2 + 2 * d * (sgn n i * (a1 + 2 * a2 * T i)) := by
  unfold sgn
  by_cases h0 : i = 0
  · subst h0
    have e1 : lef false n 0 = 1 := rfl
    have e2 : rig false n 0 = 1 := by unfold rig; rw [if_pos (by omega)]
    rw [e1, e2, if_pos rfl, show T 1 = T 0 + d from hT 0 (by omega)]
    ring
  · have e1 : lef false n i = i - 1 := by unfold lef; rw [if_pos h0]
    have hTi : T (i - 1) = T i - d := by
      have := hT (i - 1) (by omega)
      rw [show i - 1 + 1 = i by omega] at this
      rw [this]; ring
    rw [if_neg h0]
    by_cases h1 : i = n - 1
    · have e2 : rig false n i = i - 1 := by unfold rig; rw [if_neg (by simpa using h1), if_neg (by simp)]; omega
      rw [e1, e2, if_pos h1, hTi]
      ring
    · have e2 : rig false n i = i + 1 := by unfold rig; rw [if_pos h1]
      rw [e1, e2, if_neg h1, hTi, hT i (by omega)]
      ring

/-- `u = c0 + c1 x + c2 y + c3 x² + c4 x y + c5 y²` -/
def quad (c0 c1 c2 c3 c4 c5 x y : α) : α := c0 + c1 * x + c2 * y + c3 * x ^ 2 + c4 * (x * y) + c5 * y ^ 2

theorem exact2 {kx ky alpha dx dy c0 c1 c2 c3 c4 c5 : α} (hx : 2 ≤ nx) (hy : 2 ≤ ny) (hdx : dx ≠ 0) (hdy : dy ≠ 0)
    (hX : ∀ i, i + 1 < nx → X (i + 1) = X i + dx) (hY : ∀ j, j + 1 < ny → Y (j + 1) = Y j + dy) {source : α → α → α}
    (hsrc : ∀ x y, source x y = -kx * (2 * c3) - ky * (2 * c5) + alpha * quad c0 c1 c2 c3 c4 c5 x y) {i j : Nat} (hi : i < nx) (hj : j < ny)
    (h0 : i = 0 → nF 0 (X i) (Y j) = kx * (c1 + 2 * c3 * X i + c4 * Y j)) (h1 : i = nx - 1 → nF 1 (X i) (Y j) = -(kx * (c1 + 2 * c3 * X i + c4 * Y j)))
    (h2 : j = 0 → nF 2 (X i) (Y j) = ky * (c2 + c4 * X i + 2 * c5 * Y j)) (h3 : j = ny - 1 → nF 3 (X i) (Y j) = -(ky * (c2 + c4 * X i + 2 * c5 * Y j))) :
    half2 false false nx ny (i + j * nx) * Lap2 false false nx ny kx ky alpha dx dy (fun m => quad c0 c1 c2 c3 c4 c5 (X (m % nx)) (Y (m / nx))) (i + j * nx) =
      R2 false false nx ny nF dx dy X Y source i j := by
  have qx := diff_quad hx hX (c0 + c2 * Y j + c5 * Y j ^ 2) (c1 + c4 * Y j) c3 hi
  have qy := diff_quad hy hY (c0 + c1 * X i + c3 * X i ^ 2) (c2 + c4 * X i) c5 hj
  have rx : ∀ x, quad c0 c1 c2 c3 c4 c5 x (Y j) = (c0 + c2 * Y j + c5 * Y j ^ 2) + (c1 + c4 * Y j) * x + c3 * x ^ 2 := by intro x; unfold quad; ring
  have ry : ∀ y, quad c0 c1 c2 c3 c4 c5 (X i) y = (c0 + c1 * X i + c3 * X i ^ 2) + (c2 + c4 * X i) * y + c5 * y ^ 2 := by intro y; unfold quad; ring
  have fx : flux2 false nx (nF 0 (X i) (Y j)) (nF 1 (X i) (Y j)) i = sgn nx i * (kx * (c1 + 2 * c3 * X i + c4 * Y j)) := by
    unfold flux2 sgn
    by_cases a0 : i = 0
    · rw [if_pos ⟨rfl, a0⟩, if_pos a0, h0 a0]; ring
    · rw [if_neg (fun h => a0 h.2), if_neg a0]
      by_cases a1 : i = nx - 1
      · rw [if_pos ⟨rfl, a1⟩, if_pos a1, h1 a1]; ring
      · rw [if_neg (fun h => a1 h.2), if_neg a1]; ring
  have fy : flux2 false ny (nF 2 (X i) (Y j)) (nF 3 (X i) (Y j)) j = sgn ny j * (ky * (c2 + c4 * X i + 2 * c5 * Y j)) := by
    unfold flux2 sgn
    by_cases a0 : j = 0
    · rw [if_pos ⟨rfl, a0⟩, if_pos a0, h2 a0]; ring
    · rw [if_neg (fun h => a0 h.2), if_neg a0]
      by_cases a1 : j = ny - 1
      · rw [if_pos ⟨rfl, a1⟩, if_pos a1, h3 a1]; ring
      · rw [if_neg (fun h => a1 h.2), if_neg a1]; ring
  have hh : ∀ (n i : Nat), (half false n i : α) = if i = 0 ∨ i = n - 1 then 1 / 2 else 1 := by
    intro n i; unfold half
    exact if_congr (by simp) rfl rfl
  unfold half2 Lap2 R2
  dsimp only
  rw [fx, fy, hsrc, mod_ij hi, div_ij hi, mod_ij (lef_lt hx hi), div_ij (lef_lt hx hi), mod_ij (rig_lt hx hi), div_ij (rig_lt hx hi), mod_ij hi, mod_ij hi, div_ij hi,
    div_ij hi]
  have cx : quad c0 c1 c2 c3 c4 c5 (X (lef false nx i)) (Y j) - 2 * quad c0 c1 c2 c3 c4 c5 (X i) (Y j) + quad c0 c1 c2 c3 c4 c5 (X (rig false nx i)) (Y j) =
      2 * c3 * dx ^ 2 + 2 * dx * (sgn nx i * ((c1 + c4 * Y j) + 2 * c3 * X i)) := by rw [rx, rx, rx]; exact qx
  have cy : quad c0 c1 c2 c3 c4 c5 (X i) (Y (lef false ny j)) - 2 * quad c0 c1 c2 c3 c4 c5 (X i) (Y j) + quad c0 c1 c2 c3 c4 c5 (X i) (Y (rig false ny j)) =
      2 * c5 * dy ^ 2 + 2 * dy * (sgn ny j * ((c2 + c4 * X i) + 2 * c5 * Y j)) := by rw [ry, ry, ry]; exact qy
  rw [cx, cy, hh, hh]
  generalize quad c0 c1 c2 c3 c4 c5 (X i) (Y j) = u
  have sz : ∀ n i : Nat, ¬ (i = 0 ∨ i = n - 1) → (sgn n i : α) = 0 := by
    intro n i h; unfold sgn; rw [if_neg (fun e => h (Or.inl e)), if_neg (fun e => h (Or.inr e))]
  by_cases a : i = 0 ∨ i = nx - 1
  · by_cases b : j = 0 ∨ j = ny - 1
    · have ab : (i = 0 ∨ i = nx - 1) ∧ (j = 0 ∨ j = ny - 1) := ⟨a, b⟩
      simp only [if_pos a, if_pos b, if_pos ab]
      field_simp
      ring
    · have ab : ¬ ((i = 0 ∨ i = nx - 1) ∧ (j = 0 ∨ j = ny - 1)) := fun h => b h.2
      simp only [if_pos a, if_neg b, if_neg ab, sz ny j b]
      field_simp
      ring
  · have ab : ¬ ((i = 0 ∨ i = nx - 1) ∧ (j = 0 ∨ j = ny - 1)) := fun h => a h.1
    by_cases b : j = 0 ∨ j = ny - 1
    · simp only [if_neg a, if_pos b, if_neg ab, sz nx i a]
      field_simp
      ring
    · simp only [if_neg a, if_neg b, if_neg ab, sz nx i a, sz ny j b]
      field_simp
      ring

/-- **C55** In two dimensions on a grid uniform in both directions and not periodic, both strategies return the nodal values of the exact solution
whenever it is a quadratic polynomial `u`: source `-kx uxx - ky uyy + α u`, prescribed values of `u` on the sides with essential conditions, outflows
`-k ∂u/∂n` on the others. -/
theorem C55_exact_2d (Q : Setup2 eps g nx ny X Y eops nops kx ky F) (hlt : 2 * (nx * ny) < 2147483648)
    (hX : ∀ i, i + 1 < nx → X (i + 1) = X i + (X 1 - X 0)) (hY : ∀ j, j + 1 < ny → Y (j + 1) = Y j + (Y 1 - Y 0))
    (hpx : ¬ Per eops .Xmin) (hpy : ¬ Per eops .Ymin) {solver : Coo α → List α → Res (List α)} (hsol : Solves solver) {sym : Sym} {alpha : α}
    (hkx : 0 < kx) (hky : 0 < ky) (ha : 0 ≤ alpha) (hpos : F.equations.np ≠ 0 ∨ 0 < alpha) {c0 c1 c2 c3 c4 c5 : α} {source : α → α → α}
    (hsrc : ∀ x y, source x y = -kx * (2 * c3) - ky * (2 * c5) + alpha * quad c0 c1 c2 c3 c4 c5 x y)
    (he : ∀ s, Ess eops s → ∀ f, vget F.ebcs.functions s.index = ok f → ∀ x y, f x y = quad c0 c1 c2 c3 c4 c5 x y)
    (hn0 : ¬ Ess eops .Xmin → ∀ f, vget F.nbcs.functions 0 = ok f → ∀ j, j < ny → f (X 0) (Y j) = kx * (c1 + 2 * c3 * X 0 + c4 * Y j))
    (hn1 : ¬ Ess eops .Xmax → ∀ f, vget F.nbcs.functions 1 = ok f → ∀ j, j < ny → f (X (nx - 1)) (Y j) = -(kx * (c1 + 2 * c3 * X (nx - 1) + c4 * Y j)))
    (hn2 : ¬ Ess eops .Ymin → ∀ f, vget F.nbcs.functions 2 = ok f → ∀ i, i < nx → f (X i) (Y 0) = ky * (c2 + c4 * X i + 2 * c5 * Y 0))
    (hn3 : ¬ Ess eops .Ymax → ∀ f, vget F.nbcs.functions 3 = ok f → ∀ i, i < nx → f (X i) (Y (ny - 1)) = -(ky * (c2 + c4 * X i + 2 * c5 * Y (ny - 1))))
    {r : List α} (hr : F.solveSps solver sym alpha source = ok r ∨ F.solveLmm solver sym alpha source = ok r) :
    Lab.IsVec r (nx * ny) (fun m => quad c0 c1 c2 c3 c4 c5 (X (m % nx)) (Y (m / nx))) := by
  obtain ⟨px, py, S, eF, nF, P, H, hg, hpx', hpy', hS⟩ := setup2_is Q
  have hx := H.grid.hx
  have hy := H.grid.hy
  obtain rfl : px = false := by rw [← Bool.not_eq_true, hpx']; exact hpx
  obtain rfl : py = false := by rw [← Bool.not_eq_true, hpy']; exact hpy
  obtain ⟨W, hW, hs⟩ : ∃ W, Lab.IsVec r (nx * ny) W ∧ IsSol (nx * ny) 5 P (N2 false false nx ny) (V2 false false nx ny (2 * (kx / ((X 1 - X 0) * (X 1 - X 0)) + ky / ((Y 1 - Y 0) * (Y 1 - Y 0))) + alpha) (-kx / ((X 1 - X 0) * (X 1 - X 0)))
        (-ky / ((Y 1 - Y 0) * (Y 1 - Y 0))))
      (fun m => R2 false false nx ny nF (X 1 - X 0) (Y 1 - Y 0) X Y source (m % nx) (m / nx)) (fun m => D2 nx ny S eF X Y (m % nx) (m / nx)) W := by
    rcases hr with h | h
    · exact (sps_sol2 H (by omega) hsol h).2
    · exact lmm_sol2 H hlt hsol h
  have hpos' := positive2 (px := false) (py := false) hx hy hkx hky ha (sub_pos.2 H.posx) (sub_pos.2 H.posy)
  have hex : IsSol (nx * ny) 5 P (N2 false false nx ny) (V2 false false nx ny (2 * (kx / ((X 1 - X 0) * (X 1 - X 0)) + ky / ((Y 1 - Y 0) * (Y 1 - Y 0))) + alpha) (-kx / ((X 1 - X 0) * (X 1 - X 0)))
        (-ky / ((Y 1 - Y 0) * (Y 1 - Y 0))))
      (fun m => R2 false false nx ny nF (X 1 - X 0) (Y 1 - Y 0) X Y source (m % nx) (m / nx)) (fun m => D2 nx ny S eF X Y (m % nx) (m / nx)) (fun m => quad c0 c1 c2 c3 c4 c5 (X (m % nx)) (Y (m / nx))) := by
    constructor
    · intro m hm hmP
      rw [sum_lap2 false false hx kx ky alpha _ _ hm (fun m => quad c0 c1 c2 c3 c4 c5 (X (m % nx)) (Y (m / nx)))]
      obtain ⟨i, j, hi, hj, rfl⟩ := ij_of hx hm
      dsimp only
      rw [mod_ij hi, div_ij hi]
      rw [hP2 H hi hj] at hmP
      push Not at hmP
      obtain ⟨t0, t1, t2, t3⟩ := hmP
      apply exact2 hx hy (ne_of_gt (sub_pos.2 H.posx)) (ne_of_gt (sub_pos.2 H.posy)) hX hY hsrc hi hj
      · intro h
        have := hn0 (fun h' => t0 ((hS .Xmin).2 h') h) (nF 0) (H.nat.vget (by omega)) j hj
        rw [h]; exact this
      · intro h
        have := hn1 (fun h' => t1 ((hS .Xmax).2 h') h) (nF 1) (H.nat.vget (by omega)) j hj
        rw [h]; exact this
      · intro h
        have := hn2 (fun h' => t2 ((hS .Ymin).2 h') h) (nF 2) (H.nat.vget (by omega)) i hi
        rw [h]; exact this
      · intro h
        have := hn3 (fun h' => t3 ((hS .Ymax).2 h') h) (nF 3) (H.nat.vget (by omega)) i hi
        rw [h]; exact this
    · intro p hpP
      have hpn := ((H.hP p).1 hpP).1
      obtain ⟨i, j, hi, hj, rfl⟩ := ij_of hx hpn
      have hor := (hP2 H hi hj).1 hpP
      have hq : ∀ s : Side, S s.index = true → ∀ x y, eF s.index x y = quad c0 c1 c2 c3 c4 c5 x y := fun s hs =>
        he s ((hS s).1 hs) (eF s.index) (H.funs.vget (index_lt s))
      dsimp only
      rw [mod_ij hi, div_ij hi]
      unfold D2
      split_ifs with t3 t2 t1
      · exact (hq .Ymax t3.1 _ _).symm
      · exact (hq .Ymin t2.1 _ _).symm
      · exact (hq .Xmax t1.1 _ _).symm
      · refine (hq .Xmin ?_ _ _).symm
        rcases hor with h | h | h | h
        · exact h.1
        · exact absurd h t1
        · exact absurd h t2
        · exact absurd h t3
  have hu := sol_unique hpos'.1 (scheme2 H alpha).hP (by
    rcases hpos with h | h
    · left; rw [H.canon.lists.2.2.2] at h; exact fun e => h ((pp_eq_zero (scheme2 H alpha).hP).2 e)
    · right; exact hpos'.2 h) hs hex
  exact hW.congr hu

end Props

/-! ### Examples -/

/-- `Fdm2d` on a grid with given coordinates -/
def mkFdm (xx yy : List ℚ) (eops : List (EOp ℚ)) (nops : List (Side × (ℚ → ℚ → ℚ))) : Res (Fdm2d ℚ) := do
  let g ← Grid2d.new xx yy
  let e ← runE eops
  let n ← runN nops
  Fdm2d.new 0 g e n 1 1

theorem setupRat {xx yy : List ℚ} {eops : List (EOp ℚ)} {nops : List (Side × (ℚ → ℚ → ℚ))} {F : Fdm2d ℚ} (h : mkFdm xx yy eops nops = ok F) :
    ∃ g, Grid2d.new xx yy = ok g ∧ Setup2 0 g xx.length yy.length (nth xx) (nth yy) eops nops 1 1 F := by
  unfold mkFdm at h
  rw [bind_eq_ok] at h
  obtain ⟨g, hg, h⟩ := h
  rw [bind_eq_ok] at h
  obtain ⟨e, he, h⟩ := h
  rw [bind_eq_ok] at h
  obtain ⟨n, hn, h⟩ := h
  rcases C46_new_2d xx yy with ⟨lx, ly, ix, iy, g', hg', hI⟩ | ⟨_, m, hm⟩
  · rw [hg] at hg'
    cases hg'
    exact ⟨g, hg, hI, ix 0 (by omega), iy 0 (by omega), le_refl _, e, n, he, hn, h⟩
  · rw [hg] at hm
    cases hm

/-- values on the left, outflows elsewhere: `-uxx - uyy + u = x² + y² - 4` on `[0, 1] × [0, 2]`, solved by `u = x² + y²` -/
example : ∃ F g, Setup2 (0 : ℚ) g 2 3 (nth [0, 1]) (nth [0, 1, 2]) [.set .Xmin fun _ y => y ^ 2] [(.Xmax, fun _ _ => -2), (.Ymin, fun _ _ => 0), (.Ymax, fun _ _ => -4)] 1 1 F ∧
    F.equations.nu = 3 ∧ F.equations.np = 3 ∧
    F.solveSps (checkSolver [1, 2, 5]) Sym.yesLower 1 (fun x y => x ^ 2 + y ^ 2 - 4) = ok [0, 1, 1, 2, 4, 5] ∧
    F.solveLmm (checkSolver [0, 1, 1, 2, 4, 5, 0, 0, 0]) Sym.yesUpper 1 (fun x y => x ^ 2 + y ^ 2 - 4) = ok [0, 1, 1, 2, 4, 5] := by
  have hall : (do
      let F ← mkFdm [0, 1] [0, 1, 2] [.set .Xmin fun _ y => y ^ 2] [(.Xmax, fun _ _ => -2), (.Ymin, fun _ _ => 0), (.Ymax, fun _ _ => -4)]
      let a ← F.solveSps (checkSolver [1, 2, 5]) Sym.yesLower 1 (fun x y => x ^ 2 + y ^ 2 - 4)
      let b ← F.solveLmm (checkSolver [0, 1, 1, 2, 4, 5, 0, 0, 0]) Sym.yesUpper 1 (fun x y => x ^ 2 + y ^ 2 - 4)
      ok (F.equations.nu, F.equations.np, a, b)) = ok (3, 3, [0, 1, 1, 2, 4, 5], [0, 1, 1, 2, 4, 5]) := by decide +kernel
  rw [bind_eq_ok] at hall
  obtain ⟨F, hF, hall⟩ := hall
  rw [bind_eq_ok] at hall
  obtain ⟨a, ea, hall⟩ := hall
  rw [bind_eq_ok] at hall
  obtain ⟨b, eb, hall⟩ := hall
  simp only [Res.ok.injEq, Prod.mk.injEq] at hall
  obtain ⟨h1, h2, rfl, rfl⟩ := hall
  obtain ⟨g, _, hS⟩ := setupRat hF
  exact ⟨F, g, hS, h1, h2, ea, eb⟩

/-- **C55** With one direction periodic the outflow at the corner nodes is halved although the equations of these nodes are not halved for that
direction (/repo/russell_pde/src/fdm_2d.rs:763, 850): for `-uxx - uyy = 0` on the unit square, periodic along y, `u = 1` at x = 1 and outflow 1 at x = 0,
the exact solution is `u = x`, which a second-order scheme reproduces; the values returned at x = 0 are 1/2. -/
theorem C55_corner_counterexample : ∃ F g, Setup2 (0 : ℚ) g 2 2 (nth [0, 1]) (nth [0, 1]) [.setPeriodic false true, .set .Xmax fun _ _ => 1] [(.Xmin, fun _ _ => 1)] 1 1 F ∧
    ∃ solver solver' : Coo ℚ → List ℚ → Res (List ℚ), Solves solver ∧ Solves solver' ∧
      F.solveSps solver Sym.no 0 (fun _ _ => 0) = ok [1 / 2, 1, 1 / 2, 1] ∧ F.solveLmm solver' Sym.no 0 (fun _ _ => 0) = ok [1 / 2, 1, 1 / 2, 1] := by
  have hall : (do
      let F ← mkFdm [0, 1] [0, 1] [.setPeriodic false true, .set .Xmax fun _ _ => 1] [(.Xmin, fun _ _ => 1)]
      let a ← F.solveSps (checkSolver [1 / 2, 1 / 2]) Sym.no 0 (fun _ _ => 0)
      let b ← F.solveLmm (checkSolver [1 / 2, 1, 1 / 2, 1, -1 / 2, -1 / 2]) Sym.no 0 (fun _ _ => 0)
      ok (a, b)) = ok ([1 / 2, 1, 1 / 2, 1], [1 / 2, 1, 1 / 2, 1]) := by decide +kernel
  rw [bind_eq_ok] at hall
  obtain ⟨F, hF, hall⟩ := hall
  rw [bind_eq_ok] at hall
  obtain ⟨a, ea, hall⟩ := hall
  rw [bind_eq_ok] at hall
  obtain ⟨b, eb, hall⟩ := hall
  simp only [Res.ok.injEq, Prod.mk.injEq] at hall
  obtain ⟨rfl, rfl⟩ := hall
  obtain ⟨g, _, hS⟩ := setupRat hF
  exact ⟨F, g, hS, _, _, checkSolver_solves _, checkSolver_solves _, ea, eb⟩

end Russell.Pde
