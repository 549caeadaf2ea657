import Verif.Pde.Spc1d
import Verif.Pde.Fdm2dProps

/-!
# Collocation in two dimensions: the part shared by `Spc2d` and `SpcMap2d`

/repo/russell_pde/src/spc_2d.rs and /repo/russell_pde/src/spc_map_2d.rs: grid, boundary conditions, and vectors.
-/

namespace Russell.Pde

open Russell Res Russell.Sparse Polynomial

section Model

/-- the tests of the sides in `get_vectors_*` (/repo/russell_pde/src/spc_2d.rs:768-783, /repo/russell_pde/src/spc_map_2d.rs:796-811), by number of side -/
def Grid2d.isOn {α : Type} (g : Grid2d α) (s m : Nat) : Bool :=
  if s = 0 then g.isXmin m else if s = 1 then g.isXmax m else if s = 2 then g.isYmin m else g.isYmax m

/-- what the assembly of the vectors reads (/repo/russell_pde/src/spc_2d.rs:750-888, /repo/russell_pde/src/spc_map_2d.rs:778-916); `mp` is the mapping of the coordinates -/
def spcData2 (g : Grid2d ℝ) (e : EssentialBcs2d ℝ) (n : NaturalBcs2d ℝ) (h : EquationHandler) (mp : ℝ × ℝ → Res (ℝ × ℝ)) : SpcData (ℝ × ℝ) ℝ where
  h := h
  npoint := g.coords.length
  nside := 4
  sides := e.sides
  ess := e.functions.map Function.uncurry
  nat := n.functions.map Function.uncurry
  nodesOn index := do
    let s ← Side.fromIndex index
    ok (g.getNodesOnSide s)
  isOn := g.isOn
  onBoundary := g.onBoundary
  coord m := do
    let rs ← g.coord m
    mp rs

/-- `solve_sps` (/repo/russell_pde/src/spc_2d.rs:326-347, /repo/russell_pde/src/spc_map_2d.rs:378-399) -/
noncomputable def spc2SolveSps (g : Grid2d ℝ) (e : EssentialBcs2d ℝ) (n : NaturalBcs2d ℝ) (mats : Res (Coo ℝ × Coo ℝ)) (h : EquationHandler)
    (mp : ℝ × ℝ → Res (ℝ × ℝ)) (solver : Coo ℝ → List ℝ → Res (List ℝ)) (source : ℝ × ℝ → ℝ) : Res (List ℝ) := do
  e.validate n
  spcFinishSps h mats ((spcData2 g e n h mp).getVectorsSps source) solver

/-- `solve_lmm` (/repo/russell_pde/src/spc_2d.rs:379-398, /repo/russell_pde/src/spc_map_2d.rs:432-451) -/
noncomputable def spc2SolveLmm (g : Grid2d ℝ) (e : EssentialBcs2d ℝ) (n : NaturalBcs2d ℝ) (mats : Res (Coo ℝ × Option (Coo ℝ))) (h : EquationHandler)
    (mp : ℝ × ℝ → Res (ℝ × ℝ)) (solver : Coo ℝ → List ℝ → Res (List ℝ)) (source : ℝ × ℝ → ℝ) : Res (List ℝ) := do
  e.validate n
  spcFinishLmm h mats ((spcData2 g e n h mp).getVectorsLmm source) solver

end Model

/-- the Chebyshev-Gauss-Lobatto nodes of the reference interval -/
noncomputable def cgl (nx m : Nat) : ℝ := -Real.cos (m * Real.pi / ((nx - 1 : Nat) : ℝ))

theorem cglNode_eq (a b : ℝ) (nx m : Nat) : cglNode a b nx m = (b + a + (b - a) * cgl nx m) / 2 := rfl

/-- node `(i, j)` is on a side -/
def On (nx ny : Nat) : Side → Nat → Nat → Prop
  | .Xmin, i, _ => i = 0
  | .Xmax, i, _ => i = nx - 1
  | .Ymin, _, j => j = 0
  | .Ymax, _, j => j = ny - 1

instance (nx ny : Nat) (s : Side) (i j : Nat) : Decidable (On nx ny s i j) := by
  cases s <;> unfold On <;> infer_instance

theorem exists_on {nx ny i j : Nat} : (∃ s, On nx ny s i j) ↔ i = 0 ∨ i = nx - 1 ∨ j = 0 ∨ j = ny - 1 := by
  constructor
  · rintro ⟨s, hs⟩
    cases s
    · exact Or.inl hs
    · exact Or.inr (Or.inl hs)
    · exact Or.inr (Or.inr (Or.inl hs))
    · exact Or.inr (Or.inr (Or.inr hs))
  · rintro (hs | hs | hs | hs)
    · exact ⟨.Xmin, hs⟩
    · exact ⟨.Xmax, hs⟩
    · exact ⟨.Ymin, hs⟩
    · exact ⟨.Ymax, hs⟩

instance (nx ny i j : Nat) : Decidable (∃ s, On nx ny s i j) := decidable_of_iff _ exists_on.symm

/-- the sum over the sides a node is on -/
def sumOn (nx ny i j : Nat) (f : Side → ℝ) : ℝ :=
  (if i = 0 then f .Xmin else 0) + (if i = nx - 1 then f .Xmax else 0) + (if j = 0 then f .Ymin else 0) + (if j = ny - 1 then f .Ymax else 0)

/-- nodal values `w` satisfy the collocation equations.  Inner nodes: the differential equation `pde = source`.  Nodes on essential sides: the value given by the last of these sides
(in the order Xmin, Xmax, Ymin, Ymax).  Other nodes: the sum of the flows leaving through the sides the node is on is the sum of the given flows. -/
structure Coll2 (nx ny : Nat) (E : Side → Prop) (w pde source : Nat → Nat → ℝ) (ess flow nat : Side → Nat → Nat → ℝ) : Prop where
  inner : ∀ i j, 0 < i → i < nx - 1 → 0 < j → j < ny - 1 → pde i j = source i j
  value : ∀ i j, i < nx → j < ny → ∀ s, E s → On nx ny s i j → (∀ t, E t → On nx ny t i j → t.index ≤ s.index) → w i j = ess s i j
  flow : ∀ i j, i < nx → j < ny → (∃ s, On nx ny s i j) → (∀ s, E s → ¬ On nx ny s i j) →
    sumOn nx ny i j (fun s => flow s i j) = sumOn nx ny i j (fun s => nat s i j)

/-- what is known about grid, boundary conditions and equations -/
structure Spc2Is (g : Grid2d ℝ) (e : EssentialBcs2d ℝ) (n : NaturalBcs2d ℝ) (h : EquationHandler) (nx ny : Nat) (S N : Nat → Bool) (eF nF : Nat → ℝ → ℝ → ℝ)
    (P : List Nat) : Prop where
  hx2 : nx ≤ 2049
  hy2 : ny ≤ 2049
  grid : g.Is nx ny (cgl nx) (cgl ny)
  px : e.periodic_along_x = false
  py : e.periodic_along_y = false
  sides : Lab.IsVec e.sides 4 S
  nsides : Lab.IsVec n.sides 4 N
  funs : Lab.IsVec e.functions 4 eF
  nat : Lab.IsVec n.functions 4 nF
  canon : Canon h (nx * ny) P
  hP : ∀ m, m ∈ P ↔ m < nx * ny ∧ ∃ s : Side, S s.index = true ∧ g.onSide s m = true

/-- construction -/
theorem spc2_make {nx ny : Nat} (hx : 2 ≤ nx) (hx2 : nx ≤ 2049) (hy : 2 ≤ ny) (hy2 : ny ≤ 2049) (eops : List (EOp ℝ)) (nops : List (Side × (ℝ → ℝ → ℝ)))
    (hpx : ¬ Per eops .Xmin) (hpy : ¬ Per eops .Ymin) : ∃ g e n nodes h S N eF nF,
      Grid2d.newCgl nx ny = ok g ∧ runE eops = ok e ∧ runN nops = ok n ∧ e.getNodes g = ok nodes ∧ (EquationHandler.new g.size).recompute nodes = ok h ∧
      Spc2Is g e n h nx ny S N eF nF nodes ∧ (∀ s : Side, S s.index = true ↔ Ess eops s) ∧ (∀ s : Side, N s.index = true ↔ Nat' nops s) := by
  obtain ⟨g, eg, hg⟩ := C46_cgl_2d hx hy
  obtain ⟨e, ee, es⟩ := runE_state eops
  obtain ⟨n, en, ⟨N, hN, hN'⟩, nF, hnF, _⟩ := runN_state nops
  obtain ⟨nodes, h, hnodes, hmem, er, hc⟩ := build2 hg eops ee
  obtain ⟨S, hS, hS'⟩ := es.sides
  obtain ⟨eF, heF, _⟩ := es.funs
  refine ⟨g, e, n, nodes, h, S, N, eF, nF, eg, ee, en, hnodes, ?_, ⟨hx2, hy2, hg, ?_, ?_, hS, hN, heF, hnF, hc, ?_⟩, hS', hN'⟩
  · rw [show g.size = nx * ny from hg.size]; exact er
  · rw [← Bool.not_eq_true, es.px]; exact hpx
  · rw [← Bool.not_eq_true, es.py]; exact hpy
  · intro m
    rw [hmem]
    simp only [hS']

section Props

variable {g : Grid2d ℝ} {e : EssentialBcs2d ℝ} {n : NaturalBcs2d ℝ} {h : EquationHandler} {nx ny : Nat} {S N : Nat → Bool} {eF nF : Nat → ℝ → ℝ → ℝ} {P : List Nat}

theorem onSide_iff (B : Spc2Is g e n h nx ny S N eF nF P) {i j : Nat} (hi : i < nx) (hj : j < ny) (s : Side) :
    g.onSide s (i + j * nx) = true ↔ On nx ny s i j := by
  obtain ⟨a, b, c, d⟩ := sides2 B.grid hi hj
  cases s
  · exact a
  · exact b
  · exact c
  · exact d

theorem Spc2Is.mem (B : Spc2Is g e n h nx ny S N eF nF P) {i j : Nat} (hi : i < nx) (hj : j < ny) :
    i + j * nx ∈ P ↔ ∃ s : Side, S s.index = true ∧ On nx ny s i j := by
  rw [B.hP]
  constructor
  · rintro ⟨_, s, hs, ho⟩
    exact ⟨s, hs, (onSide_iff B hi hj s).1 ho⟩
  · rintro ⟨s, hs, ho⟩
    exact ⟨ij_lt hi hj, s, hs, (onSide_iff B hi hj s).2 ho⟩

theorem Spc2Is.lt (B : Spc2Is g e n h nx ny S N eF nF P) : ∀ p ∈ P, p < nx * ny := fun p hp => ((B.hP p).1 hp).1

theorem Spc2Is.size (B : Spc2Is g e n h nx ny S N eF nF P) : 4 ≤ nx * ny ∧ nx * ny ≤ 4198401 :=
  ⟨Nat.mul_le_mul B.grid.hx B.grid.hy, Nat.mul_le_mul B.hx2 B.hy2⟩

/-- `validate` -/
theorem Spc2Is.validate (B : Spc2Is g e n h nx ny S N eF nF P) : e.validate n = ok () ↔ ∀ s : Side, N s.index = !(S s.index) := by
  unfold EssentialBcs2d.validate
  rw [B.px, B.py, B.sides.vget (i := 0) (by omega), B.sides.vget (i := 1) (by omega), B.sides.vget (i := 2) (by omega), B.sides.vget (i := 3) (by omega),
    B.nsides.vget (i := 0) (by omega), B.nsides.vget (i := 1) (by omega), B.nsides.vget (i := 2) (by omega), B.nsides.vget (i := 3) (by omega)]
  simp only [ok_bind]
  have key : (∀ s : Side, N s.index = !(S s.index)) ↔ N 0 = !(S 0) ∧ N 1 = !(S 1) ∧ N 2 = !(S 2) ∧ N 3 = !(S 3) := by
    constructor
    · intro hh; exact ⟨hh .Xmin, hh .Xmax, hh .Ymin, hh .Ymax⟩
    · rintro ⟨h0, h1, h2, h3⟩ s; cases s <;> assumption
  rw [key]
  generalize S 0 = s0, S 1 = s1, S 2 = s2, S 3 = s3, N 0 = n0, N 1 = n1, N 2 = n2, N 3 = n3
  cases s0 <;> cases n0 <;> first | (simp [notBoth]; done) | skip
  all_goals cases s1 <;> cases n1 <;> first | (simp [notBoth, axisTest]; done) | skip
  all_goals cases s2 <;> cases n2 <;> first | (simp [notBoth, axisTest]; done) | skip
  all_goals cases s3 <;> cases n3 <;> first | (simp [notBoth, axisTest]; done) | (simp [notBoth, axisTest]; rfl)

/-- the result of `enabled_ij` -/
def enB (N : Nat → Bool) (nx ny i j : Nat) : Bool :=
  if i = 0 then N 0 else if i = nx - 1 then N 1 else if j = 0 then N 2 else if j = ny - 1 then N 3 else false

theorem Spc2Is.enabled (B : Spc2Is g e n h nx ny S N eF nF P) (i j : Nat) : n.enabledIJ i j g = ok (enB N nx ny i j) := by
  unfold NaturalBcs2d.enabledIJ enB
  rw [B.grid.enx, B.grid.eny, B.nsides.vget (i := 0) (by omega), B.nsides.vget (i := 1) (by omega), B.nsides.vget (i := 2) (by omega), B.nsides.vget (i := 3) (by omega)]
  by_cases h0 : i = 0
  · rw [if_pos h0, if_pos h0]
  rw [if_neg h0, if_neg h0]
  by_cases h1 : i = nx - 1
  · rw [if_pos h1, if_pos h1]
  rw [if_neg h1, if_neg h1]
  by_cases h2 : j = 0
  · rw [if_pos h2, if_pos h2]
  rw [if_neg h2, if_neg h2]
  by_cases h3 : j = ny - 1
  · rw [if_pos h3, if_pos h3]
  rw [if_neg h3, if_neg h3, if_neg (fun hh => h0 hh.1), if_neg (fun hh => h0 hh.1), if_neg (fun hh => h1 hh.1), if_neg (fun hh => h1 hh.1)]

/-- `enabled_ij` at nodes without prescribed values: the nodes of the boundary -/
theorem enB_iff (hv : ∀ s : Side, N s.index = !(S s.index)) {i j : Nat} (hu : ∀ s : Side, S s.index = true → ¬ On nx ny s i j) :
    enB N nx ny i j = true ↔ ∃ s, On nx ny s i j := by
  have step : ∀ s : Side, On nx ny s i j → N s.index = true := by
    intro s hs
    have : ¬ S s.index = true := fun hh => hu s hh hs
    rw [hv s]
    simpa using this
  unfold enB
  by_cases h0 : i = 0
  · rw [if_pos h0]; exact ⟨fun _ => ⟨.Xmin, h0⟩, fun _ => step .Xmin h0⟩
  rw [if_neg h0]
  by_cases h1 : i = nx - 1
  · rw [if_pos h1]; exact ⟨fun _ => ⟨.Xmax, h1⟩, fun _ => step .Xmax h1⟩
  rw [if_neg h1]
  by_cases h2 : j = 0
  · rw [if_pos h2]; exact ⟨fun _ => ⟨.Ymin, h2⟩, fun _ => step .Ymin h2⟩
  rw [if_neg h2]
  by_cases h3 : j = ny - 1
  · rw [if_pos h3]; exact ⟨fun _ => ⟨.Ymax, h3⟩, fun _ => step .Ymax h3⟩
  rw [if_neg h3, exists_on]
  simp [h0, h1, h2, h3]

/-! ### Vectors -/

/-- nodes of a side -/
def sideNodes (nx ny s : Nat) : List Nat :=
  if s = 0 then (List.range ny).map (fun j => j * nx) else if s = 1 then (List.range ny).map (fun j => j * nx + (nx - 1))
  else if s = 2 then List.range nx else (List.range nx).map fun i => (ny - 1) * nx + i

theorem side_cases {s : Nat} (hs : s < 4) : ∃ t : Side, t.index = s := by
  match s, hs with
  | 0, _ => exact ⟨.Xmin, rfl⟩
  | 1, _ => exact ⟨.Xmax, rfl⟩
  | 2, _ => exact ⟨.Ymin, rfl⟩
  | 3, _ => exact ⟨.Ymax, rfl⟩

theorem mem_sideNodes (B : Spc2Is g e n h nx ny S N eF nF P) {i j : Nat} (hi : i < nx) (hj : j < ny) (s : Side) :
    i + j * nx ∈ sideNodes nx ny s.index ↔ On nx ny s i j := by
  have hx := B.grid.hx
  have hy := B.grid.hy
  cases s
  · show _ ∈ List.map _ _ ↔ i = 0
    simp only [List.mem_map, List.mem_range]
    constructor
    · rintro ⟨j', _, e'⟩
      exact ((ij_inj (i := i) (j := j) (k := 0) (l := j') hi (by omega)).1 (by omega)).1
    · rintro rfl; exact ⟨j, hj, by omega⟩
  · show _ ∈ List.map _ _ ↔ i = nx - 1
    simp only [List.mem_map, List.mem_range]
    constructor
    · rintro ⟨j', _, e'⟩
      exact ((ij_inj (i := i) (j := j) (k := nx - 1) (l := j') hi (by omega)).1 (by omega)).1
    · rintro rfl; exact ⟨j, hj, by omega⟩
  · show _ ∈ List.range nx ↔ j = 0
    simp only [List.mem_range]
    constructor
    · intro hlt
      by_contra hj0
      have : nx ≤ j * nx := Nat.le_mul_of_pos_left nx (by omega)
      omega
    · rintro rfl; omega
  · show _ ∈ List.map _ _ ↔ j = ny - 1
    simp only [List.mem_map, List.mem_range]
    constructor
    · rintro ⟨i', hi', e'⟩
      exact ((ij_inj (i := i) (j := j) (k := i') (l := ny - 1) hi hi').1 (by omega)).2
    · rintro rfl; exact ⟨i, hi, by omega⟩

/-- coordinates of the nodes -/
theorem spc2_coord (B : Spc2Is g e n h nx ny S N eF nF P) {i j : Nat} (hi : i < nx) (hj : j < ny) : g.coord (i + j * nx) = ok (cgl nx i, cgl ny j) := by
  unfold Grid2d.coord
  rw [B.grid.coords]
  exact vget_of (gridList_get (fun j i => (cgl nx i, cgl ny j)) hi hj)

variable {mp : ℝ × ℝ → Res (ℝ × ℝ)} {z : Nat → Nat → ℝ × ℝ}

theorem isVec_map {β γ : Type} {l : List β} {k : Nat} {f : Nat → β} (hl : Lab.IsVec l k f) (q : β → γ) : Lab.IsVec (l.map q) k (fun i => q (f i)) := by
  refine ⟨by rw [List.length_map, hl.len], ?_⟩
  intro i hi
  rw [List.getElem?_map, hl.get i hi]
  rfl

theorem spc2_data (B : Spc2Is g e n h nx ny S N eF nF P) (hz : ∀ i j, i < nx → j < ny → mp (cgl nx i, cgl ny j) = ok (z i j)) :
    (spcData2 g e n h mp).Is (nx * ny) P S (sideNodes nx ny) (fun s x => eF s x.1 x.2) (fun s x => nF s x.1 x.2) (fun m => z (m % nx) (m / nx)) := by
  have hx := B.grid.hx
  have hy := B.grid.hy
  refine ⟨B.canon, ?_, B.sides, isVec_map B.funs _, isVec_map B.nat _, ?_, ?_, ?_, ?_, ?_⟩
  · show g.coords.length = _
    rw [B.grid.coords, gridList_length]
  · intro s hs
    show (Side.fromIndex s >>= fun t => ok (g.getNodesOnSide t)) = _
    match s, hs with
    | 0, _ => exact congrArg ok B.grid.xmin
    | 1, _ => exact congrArg ok B.grid.xmax
    | 2, _ => exact congrArg ok B.grid.ymin
    | 3, _ => exact congrArg ok B.grid.ymax
  · intro s _
    unfold sideNodes
    split
    · apply List.Nodup.map _ List.nodup_range
      intro a b hab
      exact Nat.eq_of_mul_eq_mul_right (by omega : 0 < nx) hab
    · split
      · apply List.Nodup.map _ List.nodup_range
        intro a b hab
        have hab : a * nx + (nx - 1) = b * nx + (nx - 1) := hab
        exact Nat.eq_of_mul_eq_mul_right (by omega : 0 < nx) (by omega)
      · split
        · exact List.nodup_range
        · apply List.Nodup.map _ List.nodup_range
          intro a b hab
          have hab : (ny - 1) * nx + a = (ny - 1) * nx + b := hab
          omega
  · intro s hs m hm
    have hrow : ∀ i j, i < nx → j < ny → i + j * nx < nx * ny := fun i j a b => ij_lt a b
    unfold sideNodes at hm
    split at hm
    · obtain ⟨j, hj, rfl⟩ := List.mem_map.1 hm
      have := hrow 0 j (by omega) (List.mem_range.1 hj); omega
    · split at hm
      · obtain ⟨j, hj, rfl⟩ := List.mem_map.1 hm
        have := hrow (nx - 1) j (by omega) (List.mem_range.1 hj); omega
      · split at hm
        · have := hrow m 0 (List.mem_range.1 hm) (by omega); omega
        · obtain ⟨i, hi, rfl⟩ := List.mem_map.1 hm
          have := hrow i (ny - 1) (List.mem_range.1 hi) (by omega); omega
  · intro m hm
    obtain ⟨i, j, hi, hj, rfl⟩ := ij_of hx hm
    show (g.coord (i + j * nx) >>= mp) = _
    rw [spc2_coord B hi hj, ok_bind, hz i j hi hj, mod_ij hi, div_ij hi]
  · intro m
    constructor
    · intro hm
      have hlt := B.lt m hm
      obtain ⟨i, j, hi, hj, rfl⟩ := ij_of hx hlt
      obtain ⟨s, hs, ho⟩ := (B.mem hi hj).1 hm
      exact ⟨s.index, index_lt s, hs, (mem_sideNodes B hi hj s).2 ho⟩
    · rintro ⟨s, hs, hb, hm⟩
      obtain ⟨t, rfl⟩ := side_cases hs
      have hlt : m < nx * ny := by
        have hrow : ∀ i j, i < nx → j < ny → i + j * nx < nx * ny := fun i j a b => ij_lt a b
        cases t
        · obtain ⟨j, hj, rfl⟩ := List.mem_map.1 (show m ∈ List.map _ _ from hm)
          have := hrow 0 j (by omega) (List.mem_range.1 hj); omega
        · obtain ⟨j, hj, rfl⟩ := List.mem_map.1 (show m ∈ List.map _ _ from hm)
          have := hrow (nx - 1) j (by omega) (List.mem_range.1 hj); omega
        · have := hrow m 0 (List.mem_range.1 (show m ∈ List.range nx from hm)) (by omega); omega
        · obtain ⟨i, hi, rfl⟩ := List.mem_map.1 (show m ∈ List.map _ _ from hm)
          have := hrow i (ny - 1) (List.mem_range.1 hi) (by omega); omega
      obtain ⟨i, j, hi, hj, rfl⟩ := ij_of hx hlt
      exact (B.mem hi hj).2 ⟨t, hb, (mem_sideNodes B hi hj t).1 hm⟩

/-- right-hand side at a node -/
theorem spc2_R (B : Spc2Is g e n h nx ny S N eF nF P) (source : ℝ × ℝ → ℝ) {i j : Nat} (hi : i < nx) (hj : j < ny) :
    (spcData2 g e n h mp).R (fun s x => nF s x.1 x.2) (fun m => z (m % nx) (m / nx)) source (i + j * nx) =
      if ∃ s, On nx ny s i j then sumOn nx ny i j (fun s => nF s.index (z i j).1 (z i j).2) else source (z i j) := by
  obtain ⟨a, b, c, d⟩ := sides2 B.grid hi hj
  have hb : g.onBoundary (i + j * nx) = true ↔ ∃ s, On nx ny s i j := by
    have : g.onBoundary (i + j * nx) = (g.isXmin (i + j * nx) || g.isXmax (i + j * nx) || g.isYmin (i + j * nx) || g.isYmax (i + j * nx)) := rfl
    rw [this]
    simp only [Bool.or_eq_true, a, b, c, d]
    constructor
    · rintro (((h0 | h0) | h0) | h0)
      · exact ⟨.Xmin, h0⟩
      · exact ⟨.Xmax, h0⟩
      · exact ⟨.Ymin, h0⟩
      · exact ⟨.Ymax, h0⟩
    · rintro ⟨s, hs⟩
      cases s
      · exact Or.inl (Or.inl (Or.inl hs))
      · exact Or.inl (Or.inl (Or.inr hs))
      · exact Or.inl (Or.inr hs)
      · exact Or.inr hs
  unfold SpcData.R
  show (if g.onBoundary (i + j * nx) = true then ∑ s ∈ Finset.range 4, (if g.isOn s (i + j * nx) = true then _ else 0) else _) = _
  dsimp only
  rw [mod_ij hi, div_ij hi]
  by_cases hs : ∃ s, On nx ny s i j
  · rw [if_pos hs, if_pos (hb.2 hs)]
    simp only [Finset.sum_range_succ, Finset.sum_range_zero, zero_add]
    unfold sumOn
    congr 1
    · congr 1
      · congr 1
        · exact if_congr a rfl rfl
        · exact if_congr b rfl rfl
      · exact if_congr c rfl rfl
    · exact if_congr d rfl rfl
  · rw [if_neg hs, if_neg (fun hh => hs (hb.1 hh))]

/-- prescribed value at a node -/
theorem spc2_D (B : Spc2Is g e n h nx ny S N eF nF P) {i j : Nat} (hi : i < nx) (hj : j < ny) {s : Side} (hs : S s.index = true) (ho : On nx ny s i j)
    (hl : ∀ t : Side, S t.index = true → On nx ny t i j → t.index ≤ s.index) :
    dval S (sideNodes nx ny) (fun s (x : ℝ × ℝ) => eF s x.1 x.2) (fun m => z (m % nx) (m / nx)) 4 (i + j * nx) = eF s.index (z i j).1 (z i j).2 := by
  have key : ∀ k, k ≤ 4 → s.index < k → dval S (sideNodes nx ny) (fun s (x : ℝ × ℝ) => eF s x.1 x.2) (fun m => z (m % nx) (m / nx)) k (i + j * nx) =
      eF s.index (z i j).1 (z i j).2 := by
    intro k
    induction k with
    | zero => intro _ h0; omega
    | succ k ih =>
      intro hk hsk
      unfold dval
      obtain ⟨t, rfl⟩ := side_cases (by omega : k < 4)
      by_cases hc : S t.index = true ∧ i + j * nx ∈ sideNodes nx ny t.index
      · rw [if_pos hc]
        have := hl t hc.1 ((mem_sideNodes B hi hj t).1 hc.2)
        rw [show t.index = s.index by omega, mod_ij hi, div_ij hi]
      · rw [if_neg hc]
        apply ih (by omega)
        by_contra hn
        have : t.index = s.index := by omega
        rw [index_inj] at this
        subst this
        exact hc ⟨hs, (mem_sideNodes B hi hj t).2 ho⟩
  exact key 4 (le_refl _) (index_lt s)

/-- the last essential side -/
theorem last_side {i j : Nat} (hex : ∃ s : Side, S s.index = true ∧ On nx ny s i j) :
    ∃ s : Side, S s.index = true ∧ On nx ny s i j ∧ ∀ t : Side, S t.index = true → On nx ny t i j → t.index ≤ s.index := by
  by_cases h3 : S Side.Ymax.index = true ∧ On nx ny .Ymax i j
  · exact ⟨.Ymax, h3.1, h3.2, fun t _ _ => by have := index_lt t; simp [Side.index] at this ⊢; omega⟩
  by_cases h2 : S Side.Ymin.index = true ∧ On nx ny .Ymin i j
  · refine ⟨.Ymin, h2.1, h2.2, fun t h1 h1' => ?_⟩
    cases t
    · simp [Side.index]
    · simp [Side.index]
    · simp
    · exact absurd ⟨h1, h1'⟩ h3
  by_cases h1 : S Side.Xmax.index = true ∧ On nx ny .Xmax i j
  · refine ⟨.Xmax, h1.1, h1.2, fun t hh hh' => ?_⟩
    cases t
    · simp [Side.index]
    · simp
    · exact absurd ⟨hh, hh'⟩ h2
    · exact absurd ⟨hh, hh'⟩ h3
  · obtain ⟨s, hs, ho⟩ := hex
    cases s
    · refine ⟨.Xmin, hs, ho, fun t hh hh' => ?_⟩
      cases t
      · simp
      · exact absurd ⟨hh, hh'⟩ h1
      · exact absurd ⟨hh, hh'⟩ h2
      · exact absurd ⟨hh, hh'⟩ h3
    · exact absurd ⟨hs, ho⟩ h1
    · exact absurd ⟨hs, ho⟩ h2
    · exact absurd ⟨hs, ho⟩ h3

theorem inner_iff {i j : Nat} (hi : i < nx) (hj : j < ny) : (¬ ∃ s, On nx ny s i j) ↔ 0 < i ∧ i < nx - 1 ∧ 0 < j ∧ j < ny - 1 := by
  constructor
  · intro hn
    have h0 : ¬ i = 0 := fun hh => hn ⟨.Xmin, hh⟩
    have h1 : ¬ i = nx - 1 := fun hh => hn ⟨.Xmax, hh⟩
    have h2 : ¬ j = 0 := fun hh => hn ⟨.Ymin, hh⟩
    have h3 : ¬ j = ny - 1 := fun hh => hn ⟨.Ymax, hh⟩
    omega
  · rintro ⟨h0, h1, h2, h3⟩ ⟨s, hs⟩
    cases s <;> simp only [On] at hs <;> omega

/-- the algebraic equations are the collocation equations -/
theorem spc2_coll (B : Spc2Is g e n h nx ny S N eF nF P) (source : ℝ × ℝ → ℝ) {V : Nat → Nat → ℝ} {W : Nat → ℝ} {pde : Nat → Nat → ℝ}
    {flow : Side → Nat → Nat → ℝ}
    (hrow : ∀ i j, i < nx → j < ny → (∀ s : Side, S s.index = true → ¬ On nx ny s i j) → ∑ k ∈ Finset.range (nx * ny), V (i + j * nx) k * W k =
      if ∃ s, On nx ny s i j then sumOn nx ny i j (fun s => flow s i j) else pde i j) :
    IsColl (nx * ny) P V ((spcData2 g e n h mp).R (fun s x => nF s x.1 x.2) (fun m => z (m % nx) (m / nx)) source)
      (dval S (sideNodes nx ny) (fun s (x : ℝ × ℝ) => eF s x.1 x.2) (fun m => z (m % nx) (m / nx)) 4) W ↔
    Coll2 nx ny (fun s => S s.index = true) (fun i j => W (i + j * nx)) pde (fun i j => source (z i j)) (fun s i j => eF s.index (z i j).1 (z i j).2) flow
      (fun s i j => nF s.index (z i j).1 (z i j).2) := by
  have hx := B.grid.hx
  have hnot : ∀ i j, i < nx → j < ny → (i + j * nx ∉ P ↔ ∀ s : Side, S s.index = true → ¬ On nx ny s i j) := by
    intro i j hi hj
    rw [B.mem hi hj]
    push Not
    rfl
  constructor
  · rintro ⟨q1, q2⟩
    refine ⟨?_, ?_, ?_⟩
    · intro i j h0 h1 h2 h3
      have hi : i < nx := by omega
      have hj : j < ny := by omega
      have hin : ¬ ∃ s, On nx ny s i j := (inner_iff hi hj).2 ⟨h0, h1, h2, h3⟩
      have hu : ∀ s : Side, S s.index = true → ¬ On nx ny s i j := fun s _ ho => hin ⟨s, ho⟩
      have := q1 (i + j * nx) (ij_lt hi hj) ((hnot i j hi hj).2 hu)
      rwa [hrow i j hi hj hu, spc2_R B source hi hj, if_neg hin, if_neg hin] at this
    · intro i j hi hj s hs ho hl
      have := q2 (i + j * nx) ((B.mem hi hj).2 ⟨s, hs, ho⟩)
      rwa [spc2_D B hi hj hs ho hl] at this
    · intro i j hi hj hb hu
      have := q1 (i + j * nx) (ij_lt hi hj) ((hnot i j hi hj).2 hu)
      rwa [hrow i j hi hj hu, spc2_R B source hi hj, if_pos hb, if_pos hb] at this
  · intro C
    refine ⟨?_, ?_⟩
    · intro m hm hmP
      obtain ⟨i, j, hi, hj, rfl⟩ := ij_of hx hm
      have hu := (hnot i j hi hj).1 hmP
      rw [hrow i j hi hj hu, spc2_R B source hi hj]
      by_cases hb : ∃ s, On nx ny s i j
      · rw [if_pos hb, if_pos hb]
        exact C.flow i j hi hj hb hu
      · rw [if_neg hb, if_neg hb]
        obtain ⟨h0, h1, h2, h3⟩ := (inner_iff hi hj).1 hb
        exact C.inner i j h0 h1 h2 h3
    · intro m hmP
      obtain ⟨i, j, hi, hj, rfl⟩ := ij_of hx (B.lt m hmP)
      obtain ⟨s, hs, ho, hl⟩ := last_side ((B.mem hi hj).1 hmP)
      rw [spc2_D B hi hj hs ho hl]
      exact C.value i j hi hj s hs ho hl

/-! ### Solutions -/

theorem spc2_nnz (nx ny : Nat) : nx * nx * ny * ny = nx * ny * (nx * ny) := by ring

theorem spc2_counts (B : Spc2Is g e n h nx ny S N eF nF P) :
    (pp P (nx * ny) = 0 ↔ ∀ s : Side, S s.index = false) ∧
    (pu P (nx * ny) = 0 ↔ ∀ i j, i < nx → j < ny → ∃ s : Side, S s.index = true ∧ On nx ny s i j) := by
  have hx := B.grid.hx
  have hy := B.grid.hy
  constructor
  · rw [pp_eq_zero B.lt, List.eq_nil_iff_forall_not_mem]
    constructor
    · intro hh s
      rw [← Bool.not_eq_true]
      intro hs
      cases s
      · exact hh _ ((B.mem (i := 0) (j := 0) (by omega) (by omega)).2 ⟨.Xmin, hs, rfl⟩)
      · exact hh _ ((B.mem (i := nx - 1) (j := 0) (by omega) (by omega)).2 ⟨.Xmax, hs, rfl⟩)
      · exact hh _ ((B.mem (i := 0) (j := 0) (by omega) (by omega)).2 ⟨.Ymin, hs, rfl⟩)
      · exact hh _ ((B.mem (i := 0) (j := ny - 1) (by omega) (by omega)).2 ⟨.Ymax, hs, rfl⟩)
    · intro hh m hm
      obtain ⟨_, s, hs, _⟩ := (B.hP m).1 hm
      rw [hh s] at hs
      cases hs
  · constructor
    · intro hh i j hi hj
      rw [← B.mem hi hj]
      by_contra hmP
      have := pu_lt (ij_lt hi hj) hmP
      omega
    · intro hh
      by_contra hne
      obtain ⟨m, hm, hmP, _⟩ := pu_surj (P := P) (n := nx * ny) (i := 0) (by omega)
      obtain ⟨i, j, hi, hj, rfl⟩ := ij_of hx hm
      exact hmP ((B.mem hi hj).2 (hh i j hi hj))

variable {val V : Nat → Nat → ℝ} {vl : Nat → Nat → Res ℝ}

/-- what the two strategies return -/
theorem spc2_solve (B : Spc2Is g e n h nx ny S N eF nF P) (hz : ∀ i j, i < nx → j < ny → mp (cgl nx i, cgl ny j) = ok (z i j))
    (hv : ∀ m k, m < nx * ny → k < nx * ny → vl m k = ok (V m k)) {solver : Coo ℝ → List ℝ → Res (List ℝ)} (hsol : Solves solver) {source : ℝ × ℝ → ℝ} {r : List ℝ}
    (hr : spc2SolveSps g e n (spcMatricesSps h (nx * nx * ny * ny) (nx * ny) vl 0) h mp solver source = ok r ∨
      spc2SolveLmm g e n (spcMatricesLmm h (nx * nx * ny * ny) (nx * ny) vl 0 false) h mp solver source = ok r) :
    e.validate n = ok () ∧ ∃ W, Lab.IsVec r (nx * ny) W ∧
      IsColl (nx * ny) P V ((spcData2 g e n h mp).R (fun s x => nF s x.1 x.2) (fun m => z (m % nx) (m / nx)) source)
        (dval S (sideNodes nx ny) (fun s (x : ℝ × ℝ) => eF s x.1 x.2) (fun m => z (m % nx) (m / nx)) 4) W := by
  obtain ⟨hs1, hs2⟩ := B.size
  have hval : e.validate n = ok () := by
    cases hv : e.validate n with
    | ok u => rfl
    | err m => rcases hr with hr | hr <;> (first | unfold spc2SolveSps at hr | unfold spc2SolveLmm at hr) <;> rw [hv] at hr <;> cases hr
    | panic => rcases hr with hr | hr <;> (first | unfold spc2SolveSps at hr | unfold spc2SolveLmm at hr) <;> rw [hv] at hr <;> cases hr
  refine ⟨hval, ?_⟩
  rw [spc2_nnz] at hr
  rcases hr with hr | hr
  · unfold spc2SolveSps at hr
    rw [hval, ok_bind] at hr
    by_cases hz0 : h.nu = 0 ∨ h.np = 0
    · rw [spcSps_panic _ _ _ _ _ hz0] at hr; cases hr
    · obtain ⟨_, _, l3, l4⟩ := B.canon.lists
      rw [l3, l4] at hz0
      obtain ⟨ac, fb, ev, v⟩ := (spc2_data B hz).vectorsSps (by omega) source
      rw [ev] at hr
      rcases spcSps_sol B.canon B.lt (by omega) hv (by omega) (by omega) 0 v hsol with ⟨kk, fb', h⟩ | ⟨r', W, e, q1, q2⟩
      · exfalso
        rcases h with ⟨_, m, hm⟩ | ⟨_, hm⟩ <;> rw [hm] at hr <;> cases hr
      · rw [e] at hr; cases hr
        exact ⟨W, q1, q2⟩
  · unfold spc2SolveLmm at hr
    rw [hval, ok_bind] at hr
    obtain ⟨ff, ev, v⟩ := (spc2_data B hz).vectorsLmm (by omega) source
    rw [ev] at hr
    rcases spcLmm_sol B.canon B.lt (by omega) (by omega) hv 0 v hsol with ⟨kk, h⟩ | ⟨r', W, e, q1, q2⟩
    · exfalso
      rcases h with ⟨_, m, hm⟩ | ⟨_, hm⟩ <;> rw [hm] at hr <;> cases hr
    · rw [e] at hr; cases hr
      exact ⟨W, q1, q2⟩

/-- solutions are found -/
theorem spc2_complete (B : Spc2Is g e n h nx ny S N eF nF P) (hz : ∀ i j, i < nx → j < ny → mp (cgl nx i, cgl ny j) = ok (z i j))
    (hv : ∀ m k, m < nx * ny → k < nx * ny → vl m k = ok (V m k)) (hval : e.validate n = ok ()) {solver : Coo ℝ → List ℝ → Res (List ℝ)} (hsol : Solves solver)
    (hcomp : Complete solver) {source : ℝ × ℝ → ℝ} {W : Nat → ℝ}
    (hc : IsColl (nx * ny) P V ((spcData2 g e n h mp).R (fun s x => nF s x.1 x.2) (fun m => z (m % nx) (m / nx)) source)
        (dval S (sideNodes nx ny) (fun s (x : ℝ × ℝ) => eF s x.1 x.2) (fun m => z (m % nx) (m / nx)) 4) W) :
    (∃ r, spc2SolveLmm g e n (spcMatricesLmm h (nx * nx * ny * ny) (nx * ny) vl 0 false) h mp solver source = ok r) ∧
    (h.nu ≠ 0 → h.np ≠ 0 → ∃ r, spc2SolveSps g e n (spcMatricesSps h (nx * nx * ny * ny) (nx * ny) vl 0) h mp solver source = ok r) := by
  obtain ⟨hs1, hs2⟩ := B.size
  rw [spc2_nnz]
  constructor
  · obtain ⟨ff, ev, v⟩ := (spc2_data B hz).vectorsLmm (by omega) source
    obtain ⟨r, er⟩ := spcLmm_complete B.canon B.lt (by omega) (by omega) hv 0 (z := List.replicate (nx * ny + pp P (nx * ny)) 0) v hsol hcomp hc
    refine ⟨r, ?_⟩
    unfold spc2SolveLmm
    rw [hval, ok_bind, ev, er]
  · intro hu hp
    obtain ⟨_, _, l3, l4⟩ := B.canon.lists
    obtain ⟨ac, fb, ev, v⟩ := (spc2_data B hz).vectorsSps (by omega) source
    obtain ⟨r, er⟩ := spcSps_complete B.canon B.lt (by omega) hv (by omega) (by omega) 0 (z := List.replicate (pu P (nx * ny)) 0) v hsol hcomp hc
    refine ⟨r, ?_⟩
    unfold spc2SolveSps
    rw [hval, ok_bind, ev, er]

/-- panics -/
theorem spc2_panics (B : Spc2Is g e n h nx ny S N eF nF P) (hz : ∀ i j, i < nx → j < ny → mp (cgl nx i, cgl ny j) = ok (z i j))
    (hv : ∀ m k, m < nx * ny → k < nx * ny → vl m k = ok (V m k)) (hval : e.validate n = ok ()) {solver : Coo ℝ → List ℝ → Res (List ℝ)} (hsol : Solves solver)
    (hnp : ∀ A v, solver A v ≠ Res.panic) (source : ℝ × ℝ → ℝ) :
    spc2SolveLmm g e n (spcMatricesLmm h (nx * nx * ny * ny) (nx * ny) vl 0 false) h mp solver source ≠ Res.panic ∧
    (spc2SolveSps g e n (spcMatricesSps h (nx * nx * ny * ny) (nx * ny) vl 0) h mp solver source = Res.panic ↔
      (∀ s : Side, S s.index = false) ∨ ∀ i j, i < nx → j < ny → ∃ s : Side, S s.index = true ∧ On nx ny s i j) := by
  obtain ⟨hs1, hs2⟩ := B.size
  obtain ⟨c1, c2⟩ := spc2_counts B
  rw [spc2_nnz, ← c1, ← c2]
  constructor
  · unfold spc2SolveLmm
    rw [hval, ok_bind]
    obtain ⟨ff, ev, v⟩ := (spc2_data B hz).vectorsLmm (by omega) source
    rw [ev]
    rcases spcLmm_sol B.canon B.lt (by omega) (by omega) hv 0 (z := List.replicate (nx * ny + pp P (nx * ny)) 0) v hsol with ⟨kk, h⟩ | ⟨r', W, e, q1, q2⟩
    · rcases h with ⟨_, m, hm⟩ | ⟨hm, _⟩
      · rw [hm]; simp
      · exact absurd hm (hnp _ _)
    · rw [e]; simp
  · unfold spc2SolveSps
    rw [hval, ok_bind]
    obtain ⟨_, _, l3, l4⟩ := B.canon.lists
    by_cases hz0 : h.nu = 0 ∨ h.np = 0
    · rw [spcSps_panic _ _ _ _ _ hz0]
      rw [l3, l4] at hz0
      exact ⟨fun _ => hz0.symm, fun _ => rfl⟩
    · rw [l3, l4] at hz0
      obtain ⟨ac, fb, ev, v⟩ := (spc2_data B hz).vectorsSps (by omega) source
      rw [ev]
      refine ⟨fun hh => ?_, fun hh => absurd hh.symm hz0⟩
      exfalso
      rcases spcSps_sol B.canon B.lt (by omega) hv (by omega) (by omega) 0 (z := List.replicate (pu P (nx * ny)) 0) v hsol with ⟨kk, fb', h⟩ | ⟨r', W, e, q1, q2⟩
      · rcases h with ⟨_, m, hm⟩ | ⟨hm, _⟩
        · rw [hm] at hh; cases hh
        · exact absurd hm (hnp _ _)
      · rw [e] at hh; cases hh

end Props

end Russell.Pde
