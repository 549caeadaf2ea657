import Verif.Pde.SchemeAux

/-!
# Properties of the finite difference method in one dimension

C48, C49 and C55.
-/

namespace Russell.Pde

open Russell Res Russell.Sparse

section Props

variable {α : Type} [Field α] [LinearOrder α] [IsStrictOrderedRing α]

/-- a one-dimensional grid with coordinates `X 0, …, X (nx - 1)` -/
structure Grid1d.Is (g : Grid1d α) (nx : Nat) (X : Nat → α) : Prop where
  hx : 2 ≤ nx
  enx : g.nx = nx
  coords : Lab.IsVec g.coords nx X

/-- **C46** `get_dx` gives the first spacing exactly when all spacings agree with it up to the tolerance; otherwise it gives `None`. -/
theorem C46_get_dx_1d {g : Grid1d α} {nx : Nat} {X : Nat → α} (hg : g.Is nx X) (hX : X 0 < X 1) {eps : α} (he : 0 ≤ eps) :
    ((∀ i, 1 ≤ i → i < nx → |X i - X (i - 1) - (X 1 - X 0)| ≤ 10 * eps) ∧ g.getDx eps = ok (some (some (X 1 - X 0)))) ∨
    ((∃ i, 1 ≤ i ∧ i < nx ∧ 10 * eps < |X i - X (i - 1) - (X 1 - X 0)|) ∧ g.getDx eps = ok none) := by
  have hx := hg.hx
  have e10 : (0 : α) ≤ 10 * eps := mul_nonneg (by norm_num) he
  set dX := X 1 - X 0 with hdX
  unfold Grid1d.getDx
  rw [hg.enx]
  have hstep : ∀ i s, 1 ≤ i → i < nx → (s = some dX ∨ (s = none ∧ i = 1)) →
      ((do let x ← vget g.coords i
           let xl ← vget g.coords (i - 1)
           stepDx eps x xl s : Res (Option α)) = err "non-uniform" ∧ 10 * eps < |X i - X (i - 1) - dX|) ∨
      ((do let x ← vget g.coords i
           let xl ← vget g.coords (i - 1)
           stepDx eps x xl s : Res (Option α)) = ok (some dX) ∧ |X i - X (i - 1) - dX| ≤ 10 * eps) := by
    intro i s hi1 hi hs
    rw [hg.coords.vget hi, ok_bind, hg.coords.vget (by omega), ok_bind]
    rcases hs with rfl | ⟨rfl, rfl⟩
    · unfold stepDx
      dsimp only
      by_cases h1 : |X i - X (i - 1) - dX| > 10 * eps
      · left; rw [if_pos h1]; exact ⟨rfl, h1⟩
      · right; rw [if_neg h1]; exact ⟨rfl, not_lt.1 h1⟩
    · right
      rw [Nat.sub_self, stepDx_none hX, ← hdX, sub_self, abs_zero]
      exact ⟨rfl, e10⟩
  rcases Lab.forRange_err_or (msg := "non-uniform") (lo := 1) (hi := nx) (s := (none : Option α)) (f := fun i dx => do
        let x ← vget g.coords i
        let xl ← vget g.coords (i - 1)
        stepDx eps x xl dx)
      (fun k s => (s = some dX ∨ (s = none ∧ k = 1)) ∧ ∀ i, 1 ≤ i → i < k → |X i - X (i - 1) - dX| ≤ 10 * eps) (by omega)
      ⟨Or.inr ⟨rfl, rfl⟩, by intro i a b; omega⟩ (by
        rintro i s hi1 hi ⟨hs, hs2⟩
        rcases hstep i s hi1 hi hs with ⟨h, _⟩ | ⟨h, h1⟩
        · exact Or.inl h
        · refine Or.inr ⟨_, h, Or.inl rfl, ?_⟩
          intro i' a b
          by_cases hii : i' = i
          · subst hii; exact h1
          · exact hs2 i' a (by omega)) with h | ⟨s, e, hI, hJ⟩
  · right
    rw [h]
    refine ⟨?_, rfl⟩
    by_contra hn
    push Not at hn
    obtain ⟨s', e', _⟩ := forRange_spec (lo := 1) (hi := nx) (s := (none : Option α)) (f := fun i dx => do
        let x ← vget g.coords i
        let xl ← vget g.coords (i - 1)
        stepDx eps x xl dx) (fun k s => s = some dX ∨ (s = none ∧ k = 1)) (by omega) (Or.inr ⟨rfl, rfl⟩) (by
          intro i s hi1 hi hs
          rcases hstep i s hi1 hi hs with ⟨_, h⟩ | ⟨h, _⟩
          · exact absurd (hn i hi1 hi) (not_le.2 h)
          · exact ⟨_, h, Or.inl rfl⟩)
    rw [e'] at h
    cases h
  · left
    rw [e]
    refine ⟨hJ, ?_⟩
    rcases hI with rfl | ⟨_, h⟩
    · rfl
    · omega

/-! ### The solver object -/

/-- what is known about an `Fdm1d` -/
structure Fdm1d.Is (F : Fdm1d α) (nx : Nat) (X : Nat → α) (per s0 s1 : Bool) (f0 f1 g0 g1 : α → α) (kx : α) (P : List Nat) : Prop where
  grid : F.grid.Is nx X
  eper : F.ebcs.periodic_along_x = per
  sides : F.ebcs.sides = [s0, s1]
  funs : F.ebcs.functions = [f0, f1]
  nat : F.nbcs.functions = [g0, g1]
  canon : Canon F.equations nx P
  hP : ∀ m, m ∈ P ↔ (m = 0 ∧ s0 = true) ∨ (m = nx - 1 ∧ s1 = true)
  mol : F.molecule = [2 * kx / ((X 1 - X 0) * (X 1 - X 0)), -kx / ((X 1 - X 0) * (X 1 - X 0)), -kx / ((X 1 - X 0) * (X 1 - X 0))]
  dx : F.dx = X 1 - X 0
  pos : X 0 < X 1
  excl : per = true → s0 = false ∧ s1 = false

/-- an `Fdm1d` obtained with the public functions: a grid, any history of boundary conditions naming Xmin and Xmax only, and `new` -/
structure Setup1 (eps : α) (g : Grid1d α) (nx : Nat) (X : Nat → α) (eops : List (EOp1 α)) (nops : List (Side × (α → α))) (kx : α) (F : Fdm1d α) : Prop where
  grid : g.Is nx X
  pos : X 0 < X 1
  heps : 0 ≤ eps
  he : ∀ s f, EOp1.set s f ∈ eops → s.isX = true
  hn : ∀ o ∈ nops, o.1.isX = true
  made : ∃ e n, runE1 eops = ok e ∧ runN1 nops = ok n ∧ Fdm1d.new eps g e n kx = ok F

theorem setup1_is {eps : α} {g : Grid1d α} {nx : Nat} {X : Nat → α} {eops : List (EOp1 α)} {nops : List (Side × (α → α))} {kx : α} {F : Fdm1d α}
    (S : Setup1 eps g nx X eops nops kx F) : ∃ per s0 s1 f0 f1 g0 g1 P, F.Is nx X per s0 s1 f0 f1 g0 g1 kx P ∧
      (per = true ↔ Per1 eops) ∧ (s0 = true ↔ Ess1 eops .Xmin) ∧ (s1 = true ↔ Ess1 eops .Xmax) := by
  obtain ⟨e, n, ee, en, hF⟩ := S.made
  obtain ⟨e', ee', es⟩ := runE1_state eops S.he
  rw [ee] at ee'; cases ee'
  obtain ⟨n', en', hlen, a, b, hab, _, _⟩ := runN1_state nops S.hn
  rw [en] at en'; cases en'
  obtain ⟨e', nodes, ee', hnodes, _, hmem, _⟩ := C47_get_nodes_1d eops S.he S.grid.hx
  rw [ee] at ee'; cases ee'
  obtain ⟨s0, s1, hs, h0, h1⟩ := es.sides
  obtain ⟨f0, f1, hf, _, _⟩ := es.funs
  obtain ⟨g0, g1, hg⟩ : ∃ g0 g1, n.functions = [g0, g1] := by
    match n.functions, hlen with
    | [x, y], _ => exact ⟨x, y, rfl⟩
  have hx := S.grid.hx
  have hlt : ∀ p ∈ nodes, p < (EquationHandler.new nx).neq := by
    intro p hp
    rw [hmem] at hp
    show p < nx
    omega
  obtain ⟨h', er, hc⟩ := recompute_canon (canon_new nx).isp (canon_new nx).iu (canon_new nx).ip hlt
  unfold Fdm1d.new at hF
  rcases C46_get_dx_1d S.grid S.pos S.heps with ⟨_, hdx⟩ | ⟨_, hdx⟩
  · rw [hdx, ok_bind] at hF
    dsimp only at hF
    unfold Fdm1d.build at hF
    rw [S.grid.enx, hnodes, ok_bind] at hF
    dsimp only at hF
    rw [er, ok_bind] at hF
    cases hF
    refine ⟨e.periodic_along_x, s0, s1, f0, f1, g0, g1, nodes, ⟨S.grid, rfl, hs, hf, hg, hc, ?_, rfl, rfl, S.pos, ?_⟩, es.px, h0, h1⟩
    · intro m; rw [hmem, h0, h1]
    · intro hp
      rw [es.px] at hp
      constructor
      · rw [← Bool.not_eq_true, h0]; exact fun h => es.excl _ ⟨h, hp⟩
      · rw [← Bool.not_eq_true, h1]; exact fun h => es.excl _ ⟨h, hp⟩
  · rw [hdx] at hF
    cases hF

/-- **C48** `Fdm1d::new` accepts exactly the grids with uniform spacing. -/
theorem C48_new_1d {eps : α} {g : Grid1d α} {nx : Nat} {X : Nat → α} {eops : List (EOp1 α)} {nops : List (Side × (α → α))} (kx : α)
    (hg : g.Is nx X) (hpos : X 0 < X 1) (heps : 0 ≤ eps) (he : ∀ s f, EOp1.set s f ∈ eops → s.isX = true) (hn : ∀ o ∈ nops, o.1.isX = true) :
    ∃ e n, runE1 eops = ok e ∧ runN1 nops = ok n ∧
      (((∀ i, 1 ≤ i → i < nx → |X i - X (i - 1) - (X 1 - X 0)| ≤ 10 * eps) ∧ ∃ F, Fdm1d.new eps g e n kx = ok F) ∨
       ((∃ i, 1 ≤ i ∧ i < nx ∧ 10 * eps < |X i - X (i - 1) - (X 1 - X 0)|) ∧ ∃ m, Fdm1d.new eps g e n kx = err m)) := by
  obtain ⟨n, en, _⟩ := runN1_state nops hn
  obtain ⟨e, nodes, ee, hnodes, _, hmem, _⟩ := C47_get_nodes_1d eops he hg.hx
  refine ⟨e, n, ee, en, ?_⟩
  have hx := hg.hx
  have hlt : ∀ p ∈ nodes, p < (EquationHandler.new nx).neq := by
    intro p hp
    rw [hmem] at hp
    show p < nx
    omega
  obtain ⟨h', er, hc⟩ := recompute_canon (canon_new nx).isp (canon_new nx).iu (canon_new nx).ip hlt
  unfold Fdm1d.new
  rcases C46_get_dx_1d hg hpos heps with ⟨hu, hdx⟩ | ⟨hu, hdx⟩
  · left
    refine ⟨hu, ?_⟩
    rw [hdx, ok_bind]
    dsimp only
    unfold Fdm1d.build
    rw [hg.enx, hnodes, ok_bind]
    dsimp only
    rw [er, ok_bind]
    exact ⟨_, rfl⟩
  · right
    refine ⟨hu, ?_⟩
    rw [hdx]
    exact ⟨_, rfl⟩

/-! ### The stencil -/

/-- the node and its neighbours -/
def N1 (per : Bool) (nx m b : Nat) : Nat := if b = 0 then m else if b = 1 then lef per nx m else rig per nx m

/-- the coefficients -/
def V1 (per : Bool) (nx : Nat) (c0 c1 : α) (m b : Nat) : α := half per nx m * if b = 0 then c0 else c1

omit [LinearOrder α] [IsStrictOrderedRing α] in
theorem sum_V1 (per : Bool) (nx : Nat) (c0 c1 : α) (m : Nat) (w : Nat → α) :
    ∑ b ∈ Finset.range 3, V1 per nx c0 c1 m b * w (N1 per nx m b) = half per nx m * (c0 * w m + c1 * (w (lef per nx m) + w (rig per nx m))) := by
  simp only [Finset.sum_range_succ, Finset.sum_range_zero, V1, N1]
  norm_num
  ring

omit [LinearOrder α] [IsStrictOrderedRing α] in
theorem stMat_V1 (per : Bool) (nx : Nat) (c0 c1 : α) (m n : Nat) :
    stMat 3 (N1 per nx) (V1 per nx c0 c1) m n =
      (if m = n then half per nx m * c0 else 0) + c1 * (half per nx m * ((if lef per nx m = n then 1 else 0) + (if rig per nx m = n then 1 else 0))) := by
  unfold stMat
  simp only [Finset.sum_range_succ, Finset.sum_range_zero, V1, N1]
  norm_num
  split_ifs <;> ring

/-- the factor is at least one half -/
theorem half_pos' (per : Bool) (n i : Nat) : (0 : α) < half per n i := by
  unfold half; split <;> norm_num

theorem scheme1 {F : Fdm1d α} {nx : Nat} {X : Nat → α} {per s0 s1 : Bool} {f0 f1 g0 g1 : α → α} {kx : α} {P : List Nat}
    (H : F.Is nx X per s0 s1 f0 f1 g0 g1 kx P) (alpha : α) :
    Scheme F.equations nx 3 P F.nn (F.val alpha) (N1 per nx)
      (V1 per nx (2 * kx / ((X 1 - X 0) * (X 1 - X 0)) + alpha) (-kx / ((X 1 - X 0) * (X 1 - X 0)))) 2 3 2 := by
  have hx := H.grid.hx
  have hN : ∀ m, m < nx → F.nn m = [m, lef per nx m, rig per nx m] := by
    intro m hm
    unfold Fdm1d.nn
    rw [H.eper, H.grid.enx]
    dsimp only
    cases per with
    | true =>
      rw [if_pos rfl]
      congr 2
      · unfold lef; by_cases h : m = 0 <;> simp [h]
      · congr 1
        unfold rig; by_cases h : m = nx - 1 <;> simp [h]
    | false =>
      rw [if_neg (by simp)]
      congr 2
      · unfold lef; by_cases h : m = 0 <;> simp [h]
      · congr 1
        unfold rig; by_cases h : m = nx - 1 <;> simp [h]
        omega
  have k1 : ∀ (Q : List Nat) (sym : Sym) (V : Nat → Nat → α), (barE Q sym 3 (N1 per nx) V (unkn Q nx)).length ≤ (if sym.triangular then 2 else 3) * pu Q nx := by
    intro Q sym V
    cases sym with
    | no => exact barE_full Q 3 _ _ nx
    | yesFull => exact barE_full Q 3 _ _ nx
    | yesLower =>
      rw [show (if Sym.yesLower.triangular then 2 else 3) = 2 from rfl, barE_count, pu_count, Nat.two_mul]
      have := line_lower per hx (uu Q) (uu_le Q)
      refine le_trans ?_ (Nat.add_le_add_left this _)
      rw [← Finset.sum_add_distrib]
      apply Finset.sum_le_sum
      intro m _
      have e1 : uu Q m + uu Q m * ((if lef per nx m ≤ m then uu Q (lef per nx m) else 0) + (if rig per nx m ≤ m then uu Q (rig per nx m) else 0)) =
          uu Q m * (1 + ((if lef per nx m ≤ m then uu Q (lef per nx m) else 0) + (if rig per nx m ≤ m then uu Q (rig per nx m) else 0))) := by ring
      rw [e1]
      apply Nat.mul_le_mul_left
      simp only [Finset.sum_range_succ, Finset.sum_range_zero, N1, Skip]
      have := uu_le Q m
      norm_num
      split_ifs <;> omega
    | yesUpper =>
      rw [show (if Sym.yesUpper.triangular then 2 else 3) = 2 from rfl, barE_count, pu_count, Nat.two_mul]
      have := line_upper per hx (uu Q) (uu_le Q)
      refine le_trans ?_ (Nat.add_le_add_left this _)
      rw [← Finset.sum_add_distrib]
      apply Finset.sum_le_sum
      intro m _
      have e1 : uu Q m + uu Q m * ((if m ≤ lef per nx m then uu Q (lef per nx m) else 0) + (if m ≤ rig per nx m then uu Q (rig per nx m) else 0)) =
          uu Q m * (1 + ((if m ≤ lef per nx m then uu Q (lef per nx m) else 0) + (if m ≤ rig per nx m then uu Q (rig per nx m) else 0))) := by ring
      rw [e1]
      apply Nat.mul_le_mul_left
      simp only [Finset.sum_range_succ, Finset.sum_range_zero, N1, Skip]
      have := uu_le Q m
      norm_num
      split_ifs <;> omega
  refine ⟨H.canon, ?_, ⟨?_, ?_, ?_⟩, ?_, by omega, fun sym => k1 P sym _, ?_, ?_⟩
  · intro p hp; rw [H.hP] at hp; omega
  · intro m hm
    rw [hN m hm]
    refine ⟨rfl, ?_⟩
    intro b hb
    match b, hb with
    | 0, _ => rfl
    | 1, _ => rfl
    | 2, _ => rfl
  · intro m b hm hb
    unfold N1
    split
    · exact hm
    · split
      · exact lef_lt hx hm
      · exact rig_lt hx hm
  · intro m b hm hb
    have hv : ∀ v : α, (if !per && (m == 0 || m == nx - 1) then v / 2 else v) = half per nx m * v := by
      intro v
      unfold half
      by_cases h : per = false ∧ (m = 0 ∨ m = nx - 1)
      · rw [if_pos h, if_pos (by simpa using h)]; ring
      · rw [if_neg h, if_neg (by simpa using h), one_mul]
    unfold Fdm1d.val
    rw [H.mol, H.eper, H.grid.enx]
    dsimp only
    simp only [hv]
    unfold N1 V1
    match b, hb with
    | 0, _ => simp [vget]
    | 1, _ => simp [vget, (lef_ne (per := per) (n := nx) (i := m) hx).symm]
    | 2, _ => simp [vget, (rig_ne (per := per) (n := nx) (i := m) hx).symm]
  · intro m n hm hn
    rw [stMat_V1, stMat_V1, line_symm per hx hm hn]
    congr 1
    by_cases h : m = n
    · subst h; rfl
    · rw [if_neg h, if_neg (fun e => h e.symm)]
  · rw [chkE_count, pp_count]
    have hl := line_check per hx (uu P) (pr P) (uu_le P) (Or.inr (by
      intro i hi hne
      unfold pr at hne
      have hiP : i ∈ P := by by_contra h; rw [if_neg h] at hne; exact hne rfl
      rw [H.hP] at hiP
      constructor
      · cases hp : per with
        | false => rfl
        | true => have := H.excl hp; rw [this.1, this.2] at hiP; simp at hiP
      · omega))
    refine le_trans (le_of_eq ?_) hl
    apply Finset.sum_congr rfl
    intro m _
    simp only [Finset.sum_range_succ, Finset.sum_range_zero, N1]
    norm_num
    unfold uu pr
    split_ifs <;> simp
  · intro sym
    rw [lmmE_eq]
    have := k1 [] sym (V1 per nx (2 * kx / ((X 1 - X 0) * (X 1 - X 0)) + alpha) (-kx / ((X 1 - X 0) * (X 1 - X 0))))
    rwa [show pu [] nx = nx by unfold pu; rw [unkn_nil, List.length_range]] at this

/-! ### Vectors -/

/-- outflow at the ends of the line, each divided by the spacing -/
def flux1 (per : Bool) (nx : Nat) (g0 g1 : α → α) (dx : α) (X : Nat → α) (m : Nat) : α :=
  if per = false ∧ m = 0 then g0 (X m) / dx else if per = false ∧ m = nx - 1 then g1 (X m) / dx else 0

/-- right-hand side of node `m` -/
def R1 (per : Bool) (nx : Nat) (g0 g1 : α → α) (dx : α) (X : Nat → α) (source : α → α) (m : Nat) : α :=
  half per nx m * source (X m) - flux1 per nx g0 g1 dx X m

/-- prescribed value of node `m` -/
def D1 (nx : Nat) (f0 f1 : α → α) (X : Nat → α) (m : Nat) : α := if m = nx - 1 then f1 (X m) else f0 (X m)

variable {F : Fdm1d α} {nx : Nat} {X : Nat → α} {per s0 s1 : Bool} {f0 f1 g0 g1 : α → α} {kx : α} {P : List Nat}

theorem rhs1 (H : F.Is nx X per s0 s1 f0 f1 g0 g1 kx P) (source : α → α) {m : Nat} (hm : m < nx) {i n : Nat} (hi : i < n) {v : List α} {G : Nat → α}
    (hv : Lab.IsVec v n G) : ∃ v', F.rhs source m (X m) i v = ok v' ∧
      Lab.IsVec v' n (fun k => if k = i then G k + R1 per nx g0 g1 (X 1 - X 0) X source m else G k) := by
  have hx := H.grid.hx
  have fin : ∀ (v1 : List α) (G1 : Nat → α) (den : α), Lab.IsVec v1 n G1 → (∀ k, (if k = i then G1 k + source (X m) / den else G1 k) =
      if k = i then G k + R1 per nx g0 g1 (X 1 - X 0) X source m else G k) →
      ∃ v', (do let s ← (ok (v1, den) : Res (List α × α)); addAt s.1 i (source (X m) / s.2)) = ok v' ∧
      Lab.IsVec v' n (fun k => if k = i then G k + R1 per nx g0 g1 (X 1 - X 0) X source m else G k) := by
    intro v1 G1 den h1 h2
    rw [ok_bind]
    obtain ⟨v', e, h'⟩ := addAt_spec h1 hi (source (X m) / den)
    exact ⟨v', e, h'.congr (fun k _ => h2 k)⟩
  unfold Fdm1d.rhs Fdm1d.flux Grid1d.isXmin Grid1d.isXmax
  rw [H.eper, H.grid.enx, H.nat, H.dx]
  cases per with
  | true =>
    rw [if_neg (by simp)]
    apply fin v G 1 hv
    intro k
    unfold R1 half flux1
    by_cases hk : k = i <;> simp [hk]
  | false =>
    rw [if_pos (by simp)]
    by_cases h0 : m = 0
    · rw [if_pos (by simpa using h0)]
      unfold addFlux1
      obtain ⟨v1, e1, h1⟩ := addAt_spec hv hi (-(g0 (X m)) / (X 1 - X 0))
      simp only [vget, List.getElem?_cons_zero, ok_bind]
      rw [e1, ok_bind]
      apply fin v1 _ _ h1
      intro k
      unfold R1 half flux1
      by_cases hk : k = i
      · simp only [if_pos hk, h0]
        norm_num
        ring
      · simp [hk]
    · rw [if_neg (by simpa using h0)]
      by_cases h1 : m = nx - 1
      · rw [if_pos (by simpa using h1)]
        unfold addFlux1
        obtain ⟨v1, e1, h1'⟩ := addAt_spec hv hi (-(g1 (X m)) / (X 1 - X 0))
        simp only [vget, List.getElem?_cons_succ, List.getElem?_cons_zero, ok_bind]
        rw [e1, ok_bind]
        apply fin v1 _ _ h1'
        intro k
        unfold R1 half flux1
        by_cases hk : k = i
        · rw [if_pos hk, if_pos hk, if_pos hk, if_pos ⟨rfl, Or.inr h1⟩, if_neg (by rintro ⟨_, h⟩; exact h0 h), if_pos ⟨rfl, h1⟩]
          ring
        · simp [hk]
      · rw [if_neg (by simpa using h1)]
        apply fin v G 1 hv
        intro k
        unfold R1 half flux1
        have a1 : ¬ (false = false ∧ (m = 0 ∨ m = nx - 1)) := by rintro ⟨_, h⟩; omega
        have a2 : ¬ (false = false ∧ m = 0) := fun h => h0 h.2
        have a3 : ¬ (false = false ∧ m = nx - 1) := fun h => h1 h.2
        rw [if_neg a1, if_neg a2, if_neg a3]
        simp

omit [Field α] [LinearOrder α] [IsStrictOrderedRing α] in
theorem forRange_two {σ : Type} (s : σ) (f : Nat → σ → Res σ) : forRange 0 2 s f = (f 0 s >>= f 1) := by
  rw [forRange_succ_right (by omega), forRange_succ_right (le_refl 0), forRange_empty (le_refl 0)]
  rfl

theorem prescribed1 (H : F.Is nx X per s0 s1 f0 f1 g0 g1 kx P) (hlt : nx < 2147483648) {off : Nat} {v : List α} {G : Nat → α}
    (hv : Lab.IsVec v (off + pp P nx) G) : ∃ v' G', F.prescribed off v = ok v' ∧ Lab.IsVec v' (off + pp P nx) G' ∧
      (∀ p ∈ P, G' (off + pp P p) = D1 nx f0 f1 X p) ∧ ∀ i, i < off → G' i = G i := by
  have hx := H.grid.hx
  unfold Fdm1d.prescribed
  rw [H.sides, H.funs, H.grid.enx, forRange_two]
  simp only [vget, List.getElem?_cons_succ, List.getElem?_cons_zero, ok_bind, zero_add, if_true, one_ne_zero, if_false]
  have step : ∀ (m : Nat) (val : α → α) (v : List α) (G : Nat → α), m < nx → m ∈ P → Lab.IsVec v (off + pp P nx) G →
      ∃ v', (do let ip ← F.equations.ip m; let x ← F.grid.coord m; vset v (off + ip) (val x)) = ok v' ∧
        Lab.IsVec v' (off + pp P nx) (fun k => if k = off + pp P m then val (X m) else G k) := by
    intro m val v G hm hmP hv
    rw [H.canon.get_ip hlt hm hmP, ok_bind, show F.grid.coord m = ok (X m) from H.grid.coords.vget hm, ok_bind]
    exact hv.vset (by have := pp_lt hm hmP; omega) _
  have h0 : s0 = true → 0 ∈ P := fun h => (H.hP 0).2 (Or.inl ⟨rfl, h⟩)
  have h1 : s1 = true → nx - 1 ∈ P := fun h => (H.hP _).2 (Or.inr ⟨rfl, h⟩)
  have hne : (0 : Nat) ≠ nx - 1 := by omega
  cases s0 with
  | false =>
    rw [if_neg (by simp), ok_bind]
    cases s1 with
    | false =>
      rw [if_neg (by simp)]
      refine ⟨v, G, rfl, hv, ?_, fun _ _ => rfl⟩
      intro p hp; rw [H.hP] at hp; simp at hp
    | true =>
      rw [if_pos rfl]
      obtain ⟨v', e, h'⟩ := step (nx - 1) f1 v G (by omega) (h1 rfl) hv
      rw [e]
      refine ⟨v', _, rfl, h', ?_, fun i hi => by rw [if_neg (by omega)]⟩
      intro p hp
      rw [H.hP] at hp
      have : p = nx - 1 := by simpa using hp
      subst this
      unfold D1
      simp
  | true =>
    rw [if_pos rfl]
    obtain ⟨v', e, h'⟩ := step 0 f0 v G (by omega) (h0 rfl) hv
    rw [e, ok_bind]
    cases s1 with
    | false =>
      rw [if_neg (by simp)]
      refine ⟨v', _, rfl, h', ?_, fun i hi => by rw [if_neg (by omega)]⟩
      intro p hp
      rw [H.hP] at hp
      have : p = 0 := by simpa using hp
      subst this
      unfold D1
      simp [hne]
    | true =>
      rw [if_pos rfl]
      obtain ⟨v'', e2, h''⟩ := step (nx - 1) f1 v' _ (by omega) (h1 rfl) h'
      rw [e2]
      refine ⟨v'', _, rfl, h'', ?_, fun i hi => by rw [if_neg (by omega), if_neg (by omega)]⟩
      intro p hp
      have hpm := (H.hP p).1 hp
      unfold D1
      by_cases hpl : p = nx - 1
      · subst hpl; simp
      · have hp0 : p = 0 := by simpa [hpl] using hpm
        subst hp0
        have hpp : pp P 0 ≠ pp P (nx - 1) := fun h => hne ((pp_inj (h0 rfl) (h1 rfl)).1 h)
        rw [if_neg hpl, if_neg (by omega), if_pos rfl]

theorem vectorsSps1 (H : F.Is nx X per s0 s1 f0 f1 g0 g1 kx P) (hlt : nx < 2147483648) (source : α → α) :
    ∃ ac fb, F.getVectorsSps source = ok (List.replicate (pu P nx) 0, ac, fb) ∧ SpsVecs nx P (R1 per nx g0 g1 (X 1 - X 0) X source) (D1 nx f0 f1 X) ac fb := by
  unfold Fdm1d.getVectorsSps
  dsimp only
  rw [show F.equations.unknown = unkn P nx from H.canon.u, show F.equations.nu = pu P nx by unfold EquationHandler.nu; rw [H.canon.u]; rfl,
    show F.equations.np = pp P nx by unfold EquationHandler.np; rw [H.canon.p]; rfl]
  obtain ⟨fb, G, e, hG, q, _⟩ := forList_fill (pos := pu P) (upd := fun m y => y + R1 per nx g0 g1 (X 1 - X 0) X source m) (n := pu P nx) (unkn P nx)
    (List.replicate (pu P nx) (0 : α)) (fun _ => 0) (body := fun m f => do
      let iu ← F.equations.iu m
      let x ← F.grid.coord m
      F.rhs source m x iu f) (unkn_nodup P nx) (by
        intro a ha b hb h
        exact (pu_inj (mem_unkn.1 ha).2 (mem_unkn.1 hb).2).1 h) (Lab.isVec_replicate _ _) (by
        intro m hm v G hv
        obtain ⟨hm, hmP⟩ := mem_unkn.1 hm
        rw [H.canon.get_iu hlt hm hmP, ok_bind, show F.grid.coord m = ok (X m) from H.grid.coords.vget hm, ok_bind]
        exact rhs1 H source hm (pu_lt hm hmP) hv)
  rw [e, ok_bind]
  obtain ⟨ac, G', e', hG', q', _⟩ := prescribed1 H hlt (off := 0) (v := List.replicate (pp P nx) (0 : α)) (G := fun _ => 0) (by
    rw [Nat.zero_add]; exact Lab.isVec_replicate _ _)
  rw [e', ok_bind]
  refine ⟨ac, fb, rfl, ?_, ?_⟩
  · rw [Nat.zero_add] at hG'
    apply hG'.congr
    intro i hi
    obtain ⟨p, hp, hpP, rfl⟩ := pp_surj hi
    have := q' p hpP
    rw [Nat.zero_add] at this
    rw [this, presc_get hp hpP]
  · apply hG.congr
    intro i hi
    obtain ⟨m, hm, hmP, rfl⟩ := pu_surj hi
    rw [q m (mem_unkn.2 ⟨hm, hmP⟩), unkn_get hm hmP, zero_add]

theorem vectorsLmm1 (H : F.Is nx X per s0 s1 f0 f1 g0 g1 kx P) (hlt : nx < 2147483648) (source : α → α) :
    ∃ ff, F.getVectorsLmm source = ok (List.replicate (nx + pp P nx) 0, ff) ∧ LmmVec nx P (R1 per nx g0 g1 (X 1 - X 0) X source) (D1 nx f0 f1 X) ff := by
  unfold Fdm1d.getVectorsLmm
  dsimp only
  rw [H.canon.hneq, show F.equations.np = pp P nx by unfold EquationHandler.np; rw [H.canon.p]; rfl, H.grid.coords.len, forRange_eq_forList]
  obtain ⟨fb, G, e, hG, q, _⟩ := forList_fill (pos := id) (upd := fun m y => y + R1 per nx g0 g1 (X 1 - X 0) X source m) (n := nx + pp P nx) (List.range nx)
    (List.replicate (nx + pp P nx) (0 : α)) (fun _ => 0) (body := fun m f => do
      let x ← F.grid.coord m
      F.rhs source m x m f) List.nodup_range (fun a _ b _ h => h) (Lab.isVec_replicate _ _) (by
        intro m hm v G hv
        have hm := List.mem_range.1 hm
        rw [show F.grid.coord m = ok (X m) from H.grid.coords.vget hm, ok_bind]
        exact rhs1 H source hm (by omega) hv)
  rw [e, ok_bind]
  obtain ⟨ff, G', e', hG', q', q2⟩ := prescribed1 H hlt (off := nx) hG
  rw [e', ok_bind]
  refine ⟨ff, rfl, hG'.congr ?_⟩
  intro i hi
  by_cases hin : i < nx
  · rw [if_pos hin, q2 i hin]
    have := q i (List.mem_range.2 hin)
    rw [id] at this
    rw [this, zero_add]
  · rw [if_neg hin]
    obtain ⟨p, hp, hpP, e⟩ := pp_surj (P := P) (n := nx) (i := i - nx) (by omega)
    have : i = nx + pp P p := by omega
    subst this
    rw [q' p hpP, Nat.add_sub_cancel_left, presc_get hp hpP]

/-! ### The theorems -/

/-- the discrete operator `-k ∂²/∂x² + α` at node `m` -/
def Lap1 (per : Bool) (nx : Nat) (kx alpha dx : α) (w : Nat → α) (m : Nat) : α :=
  alpha * w m - kx * (w (lef per nx m) - 2 * w m + w (rig per nx m)) / (dx * dx)

omit [LinearOrder α] [IsStrictOrderedRing α] in
theorem sum_lap1 (per : Bool) (nx : Nat) (kx alpha dx : α) (m : Nat) (w : Nat → α) :
    ∑ b ∈ Finset.range 3, V1 per nx (2 * kx / (dx * dx) + alpha) (-kx / (dx * dx)) m b * w (N1 per nx m b) = half per nx m * Lap1 per nx kx alpha dx w m := by
  rw [sum_V1]
  unfold Lap1
  ring

variable {eps : α} {g : Grid1d α} {eops : List (EOp1 α)} {nops : List (Side × (α → α))}

theorem setup1_lists (S : Setup1 eps g nx X eops nops kx F) :
    (∀ m, m ∈ F.equations.prescribed ↔ (m = 0 ∧ Ess1 eops .Xmin) ∨ (m = nx - 1 ∧ Ess1 eops .Xmax)) ∧
    (∀ m, m ∈ F.equations.unknown ↔ m < nx ∧ m ∉ F.equations.prescribed) := by
  obtain ⟨per, s0, s1, f0, f1, g0, g1, P, H, _, h0, h1⟩ := setup1_is S
  have hx := H.grid.hx
  obtain ⟨l1, l2, _, _⟩ := H.canon.lists
  rw [l1, l2]
  refine ⟨?_, ?_⟩
  · intro m
    rw [mem_presc, H.hP, ← h0, ← h1]
    constructor
    · exact fun h => h.2
    · intro h; exact ⟨by omega, h⟩
  · intro m
    rw [mem_unkn, mem_presc]
    tauto

/-- **C48** The matrices of the partitioned system in one dimension: no error, symmetric, the rows are the finite-difference equations of the unknown
nodes (those at the ends of a non-periodic line divided by two). -/
theorem C48_sps_1d (S : Setup1 eps g nx X eops nops kx F) (hlt : nx < 2147483648) {per : Bool} (hper : per = true ↔ Per1 eops)
    (hu : F.equations.nu ≠ 0) (alpha : α) (extra : Nat) (sym : Sym) :
    (∀ m, m ∈ F.equations.prescribed ↔ (m = 0 ∧ Ess1 eops .Xmin) ∨ (m = nx - 1 ∧ Ess1 eops .Xmax)) ∧
    (∀ m, m ∈ F.equations.unknown ↔ m < nx ∧ m ∉ F.equations.prescribed) ∧
    ∃ kk kc, F.getMatricesSps alpha extra sym = ok (kk, if F.equations.np = 0 then none else some kc) ∧
      kk.nrow = F.equations.nu ∧ kk.ncol = F.equations.nu ∧ kk.symmetric = sym ∧
      ∃ A a, kk.asDense = ok A ∧ IsDense A F.equations.nu F.equations.nu a ∧ (∀ i j, i < F.equations.nu → j < F.equations.nu → a i j = a j i) ∧
      ∃ b, (F.equations.np ≠ 0 → kc.nrow = F.equations.nu ∧ kc.ncol = F.equations.np ∧ ∃ Bm, kc.asDense = ok Bm ∧ IsDense Bm F.equations.nu F.equations.np b) ∧
      ∀ i, i < F.equations.nu → ∀ w : Nat → α,
        ∑ j ∈ Finset.range F.equations.nu, a i j * w (F.equations.unknown.getD j 0) +
          ∑ j ∈ Finset.range F.equations.np, b i j * w (F.equations.prescribed.getD j 0) =
        half per nx (F.equations.unknown.getD i 0) * Lap1 per nx kx alpha (X 1 - X 0) w (F.equations.unknown.getD i 0) := by
  refine ⟨(setup1_lists S).1, (setup1_lists S).2, ?_⟩
  obtain ⟨per', s0, s1, f0, f1, g0, g1, P, H, hper', _, _⟩ := setup1_is S
  obtain rfl : per = per' := by rw [Bool.eq_iff_iff, hper, hper']
  obtain ⟨kk, kc, e, d1, d2, d3, A, a, eA, hA, hsy, b, hb, hrow⟩ := sps_api (scheme1 H alpha) hlt hu extra sym
  refine ⟨kk, kc, e, d1, d2, d3, A, a, eA, hA, hsy, b, hb, ?_⟩
  intro i hi w
  rw [hrow i hi w, sum_lap1]

/-- **C48** The matrix with multipliers in one dimension, and the constraint matrix. -/
theorem C48_lmm_1d (S : Setup1 eps g nx X eops nops kx F) (hlt : 2 * nx < 2147483648) {per : Bool} (hper : per = true ↔ Per1 eops)
    (alpha : α) (extra : Nat) (getc : Bool) (sym : Sym) :
    ∃ mm cc, F.getMatricesLmm alpha extra getc sym = ok (mm, if getc = true ∧ F.equations.np ≠ 0 then some cc else none) ∧
      mm.nrow = nx + F.equations.np ∧ mm.ncol = nx + F.equations.np ∧ mm.symmetric = sym ∧
      (∃ A a, mm.asDense = ok A ∧ IsDense A (nx + F.equations.np) (nx + F.equations.np) a ∧ (∀ i j, a i j = a j i) ∧
        (∀ m, m < nx → m ∉ F.equations.prescribed → ∀ w : Nat → α, ∑ j ∈ Finset.range (nx + F.equations.np), a m j * w j =
          half per nx m * Lap1 per nx kx alpha (X 1 - X 0) w m) ∧
        (∀ i, i < F.equations.np → ∀ w : Nat → α, ∑ j ∈ Finset.range (nx + F.equations.np), a (F.equations.prescribed.getD i 0) j * w j =
          half per nx (F.equations.prescribed.getD i 0) * Lap1 per nx kx alpha (X 1 - X 0) w (F.equations.prescribed.getD i 0) + w (nx + i)) ∧
        (∀ i, i < F.equations.np → ∀ w : Nat → α, ∑ j ∈ Finset.range (nx + F.equations.np), a (nx + i) j * w j = w (F.equations.prescribed.getD i 0))) ∧
      (getc = true ∧ F.equations.np ≠ 0 → ∃ D d, cc.asDense = ok D ∧ IsDense D F.equations.np nx d ∧
        ∀ i, i < F.equations.np → ∀ k, k < nx → d i k = if k = F.equations.prescribed.getD i 0 then 1 else 0) := by
  obtain ⟨per', s0, s1, f0, f1, g0, g1, P, H, hper', _, _⟩ := setup1_is S
  obtain rfl : per = per' := by rw [Bool.eq_iff_iff, hper, hper']
  have hx := H.grid.hx
  obtain ⟨mm, cc, e, d1, d2, d3, ⟨A, a, eA, hA, hsy, h1, h2, h3⟩, h4⟩ := lmm_api (scheme1 H alpha) hlt (by omega) extra getc sym
  refine ⟨mm, cc, e, d1, d2, d3, ⟨A, a, eA, hA, hsy, ?_, ?_, h3⟩, h4⟩
  · intro m hm hmP w; rw [h1 m hm hmP w, sum_lap1]
  · intro i hi w; rw [h2 i hi w, sum_lap1]

/-- **C48** Without unknown nodes the assembly panics. -/
theorem C48_no_unknown_1d (F : Fdm1d α) (hu : F.equations.nu = 0) (alpha : α) (extra : Nat) (sym : Sym) : F.getMatricesSps alpha extra sym = panic :=
  matricesSps_no_unknown sym hu

/-- **C48** The vectors in one dimension: source (half of it at the ends of a non-periodic line) minus the outflow divided by the spacing at the unknown
nodes, and the prescribed values. -/
theorem C48_vectors_1d (S : Setup1 eps g nx X eops nops kx F) (hlt : nx < 2147483648) {per : Bool} (hper : per = true ↔ Per1 eops) (source : α → α) :
    ∃ e0 e1 n0 n1, F.ebcs.functions = [e0, e1] ∧ F.nbcs.functions = [n0, n1] ∧
    ∃ zb zl ac fb ff, F.getVectorsSps source = ok (zb, ac, fb) ∧ F.getVectorsLmm source = ok (zl, ff) ∧
      Lab.IsVec ac F.equations.np (fun i => D1 nx e0 e1 X (F.equations.prescribed.getD i 0)) ∧
      Lab.IsVec fb F.equations.nu (fun i => R1 per nx n0 n1 (X 1 - X 0) X source (F.equations.unknown.getD i 0)) ∧
      Lab.IsVec ff (nx + F.equations.np) (fun i => if i < nx then R1 per nx n0 n1 (X 1 - X 0) X source i else
        D1 nx e0 e1 X (F.equations.prescribed.getD (i - nx) 0)) := by
  obtain ⟨per', s0, s1, f0, f1, g0, g1, P, H, hper', _, _⟩ := setup1_is S
  obtain rfl : per = per' := by rw [Bool.eq_iff_iff, hper, hper']
  obtain ⟨ac, fb, e1, v⟩ := vectorsSps1 H hlt source
  obtain ⟨ff, e2, v'⟩ := vectorsLmm1 H hlt source
  obtain ⟨l1, l2, l3, l4⟩ := H.canon.lists
  rw [l1, l2, l3, l4]
  exact ⟨f0, f1, g0, g1, H.funs, H.nat, _, _, ac, fb, ff, e1, e2, v.ac, v.fb, v'⟩

/-- **C49** The two systems assembled in one dimension have the same solutions. -/
theorem C49_systems_1d (S : Setup1 eps g nx X eops nops kx F) (hlt : 2 * nx < 2147483648) (hu : F.equations.nu ≠ 0) (hp : F.equations.np ≠ 0)
    (alpha : α) (source : α → α) (extra extra' : Nat) (sym sym' : Sym) :
    ∃ kk kc mm A a Bm b Mm M zb zl ac fb ff, F.getMatricesSps alpha extra sym = ok (kk, some kc) ∧ F.getMatricesLmm alpha extra' false sym' = ok (mm, none) ∧
      F.getVectorsSps source = ok (zb, ac, fb) ∧ F.getVectorsLmm source = ok (zl, ff) ∧
      kk.asDense = ok A ∧ IsDense A F.equations.nu F.equations.nu a ∧ kc.asDense = ok Bm ∧ IsDense Bm F.equations.nu F.equations.np b ∧
      mm.asDense = ok Mm ∧ IsDense Mm (nx + F.equations.np) (nx + F.equations.np) M ∧
      (∀ x : Nat → α, (∀ i, i < F.equations.nu → ∑ j ∈ Finset.range F.equations.nu, a i j * x j +
            ∑ j ∈ Finset.range F.equations.np, b i j * ac.getD j 0 = fb.getD i 0) →
        ∃ y : Nat → α, (∀ i, i < nx + F.equations.np → ∑ j ∈ Finset.range (nx + F.equations.np), M i j * y j = ff.getD i 0) ∧
          (∀ i, i < F.equations.nu → y (F.equations.unknown.getD i 0) = x i) ∧ ∀ i, i < F.equations.np → y (F.equations.prescribed.getD i 0) = ac.getD i 0) ∧
      (∀ y : Nat → α, (∀ i, i < nx + F.equations.np → ∑ j ∈ Finset.range (nx + F.equations.np), M i j * y j = ff.getD i 0) →
        (∀ i, i < F.equations.nu → ∑ j ∈ Finset.range F.equations.nu, a i j * y (F.equations.unknown.getD j 0) +
            ∑ j ∈ Finset.range F.equations.np, b i j * ac.getD j 0 = fb.getD i 0) ∧
          ∀ i, i < F.equations.np → y (F.equations.prescribed.getD i 0) = ac.getD i 0) := by
  obtain ⟨per, s0, s1, f0, f1, g0, g1, P, H, _, _, _⟩ := setup1_is S
  obtain ⟨ac, fb, e1, v⟩ := vectorsSps1 H (by omega) source
  obtain ⟨ff, e2, v'⟩ := vectorsLmm1 H (by omega) source
  obtain ⟨kk, kc, mm, A, a, Bm, b, Mm, M, h1, h2, h3, h4, h5, h6, h7, h8, h9, h10⟩ := strategies_api (scheme1 H alpha) hlt hu hp extra extra' sym sym' v v'
  exact ⟨kk, kc, mm, A, a, Bm, b, Mm, M, _, _, ac, fb, ff, h1, h2, e1, e2, h3, h4, h5, h6, h7, h8, h9, h10⟩

theorem no_unknown_or {P : List Nat} {n : Nat} (h : Canon F.equations n P) : F.equations.nu = pu P n := h.lists.2.2.1

/-- what a result of `solve_sps` satisfies -/
theorem sps_sol1 (H : F.Is nx X per s0 s1 f0 f1 g0 g1 kx P) (hlt : nx < 2147483648) {solver : Coo α → List α → Res (List α)} (hsol : Solves solver)
    {sym : Sym} {alpha : α} {source : α → α} {r : List α} (e : F.solveSps solver sym alpha source = ok r) :
    P ≠ [] ∧ ∃ W, Lab.IsVec r nx W ∧ IsSol nx 3 P (N1 per nx) (V1 per nx (2 * kx / ((X 1 - X 0) * (X 1 - X 0)) + alpha) (-kx / ((X 1 - X 0) * (X 1 - X 0))))
      (R1 per nx g0 g1 (X 1 - X 0) X source) (D1 nx f0 f1 X) W := by
  obtain ⟨ac, fb, e1, v⟩ := vectorsSps1 H hlt source
  unfold Fdm1d.solveSps at e
  rw [bind_eq_ok] at e
  obtain ⟨_, _, e⟩ := e
  have hu : 1 ≤ pu P nx := by
    by_contra hu
    rw [C48_no_unknown_1d F (by rw [no_unknown_or H.canon]; omega)] at e
    cases e
  by_cases hne : P = []
  · exfalso
    obtain ⟨kk, kc, em, _⟩ := sps_api (scheme1 H alpha) hlt (by rw [no_unknown_or H.canon]; omega) 0 sym
    rw [if_pos (by rw [H.canon.lists.2.2.2, pp_eq_zero (scheme1 H alpha).hP]; exact hne)] at em
    rw [show F.getMatricesSps alpha 0 sym = _ from em, e1] at e
    cases e
  · refine ⟨hne, ?_⟩
    obtain ⟨kk, kc, fb', em, ef, hab⟩ := sps_finish (scheme1 H alpha) hlt hu hne 0 sym v hsol
    rw [show F.getMatricesSps alpha 0 sym = _ from em, e1] at e
    simp only [ok_bind] at e
    rw [ef, ok_bind, bind_eq_ok] at e
    obtain ⟨ab, h1, h2⟩ := e
    obtain ⟨r', W, h3, h4, h5⟩ := hab ab h1
    rw [h3] at h2
    cases h2
    exact ⟨W, h4, h5⟩

theorem lmm_sol1 (H : F.Is nx X per s0 s1 f0 f1 g0 g1 kx P) (hlt : 2 * nx < 2147483648) {solver : Coo α → List α → Res (List α)} (hsol : Solves solver)
    {sym : Sym} {alpha : α} {source : α → α} {r : List α} (e : F.solveLmm solver sym alpha source = ok r) :
    ∃ W, Lab.IsVec r nx W ∧ IsSol nx 3 P (N1 per nx) (V1 per nx (2 * kx / ((X 1 - X 0) * (X 1 - X 0)) + alpha) (-kx / ((X 1 - X 0) * (X 1 - X 0))))
      (R1 per nx g0 g1 (X 1 - X 0) X source) (D1 nx f0 f1 X) W := by
  have hx := H.grid.hx
  obtain ⟨ff, e1, v⟩ := vectorsLmm1 H (by omega) source
  unfold Fdm1d.solveLmm at e
  rw [bind_eq_ok] at e
  obtain ⟨_, _, e⟩ := e
  obtain ⟨mm, em, haa⟩ := lmm_finish (scheme1 H alpha) hlt (by omega) F.equations.neq sym v hsol
  rw [show F.getMatricesLmm alpha F.equations.neq false sym = _ from em, e1] at e
  simp only [ok_bind] at e
  rw [bind_eq_ok] at e
  obtain ⟨aa, h1, h2⟩ := e
  obtain ⟨r', W, h3, h4, h5⟩ := haa aa h1
  rw [H.canon.hneq, h3] at h2
  cases h2
  exact ⟨W, h4, h5⟩

/-- **C48** What the two strategies return, for any linear solver that returns solutions only: the finite-difference equations hold at the unknown nodes
and the prescribed values at the others. -/
theorem C48_solve_1d (S : Setup1 eps g nx X eops nops kx F) (hlt : 2 * nx < 2147483648) {per : Bool} (hper : per = true ↔ Per1 eops)
    {solver : Coo α → List α → Res (List α)} (hsol : Solves solver) {sym : Sym} {alpha : α} {source : α → α} {r : List α}
    (hr : F.solveSps solver sym alpha source = ok r ∨ F.solveLmm solver sym alpha source = ok r) :
    ∃ e0 e1 n0 n1, F.ebcs.functions = [e0, e1] ∧ F.nbcs.functions = [n0, n1] ∧ ∃ W, Lab.IsVec r nx W ∧
      (∀ m, m ∈ F.equations.unknown → half per nx m * Lap1 per nx kx alpha (X 1 - X 0) W m = R1 per nx n0 n1 (X 1 - X 0) X source m) ∧
      (Ess1 eops .Xmin → W 0 = e0 (X 0)) ∧ (Ess1 eops .Xmax → W (nx - 1) = e1 (X (nx - 1))) := by
  obtain ⟨per', s0, s1, f0, f1, g0, g1, P, H, hper', h0, h1⟩ := setup1_is S
  obtain rfl : per = per' := by rw [Bool.eq_iff_iff, hper, hper']
  have hx := H.grid.hx
  refine ⟨f0, f1, g0, g1, H.funs, H.nat, ?_⟩
  have hW : ∃ W, Lab.IsVec r nx W ∧ IsSol nx 3 P (N1 per nx) (V1 per nx (2 * kx / ((X 1 - X 0) * (X 1 - X 0)) + alpha) (-kx / ((X 1 - X 0) * (X 1 - X 0))))
      (R1 per nx g0 g1 (X 1 - X 0) X source) (D1 nx f0 f1 X) W := by
    rcases hr with h | h
    · exact (sps_sol1 H (by omega) hsol h).2
    · exact lmm_sol1 H hlt hsol h
  obtain ⟨W, hW, hs, hd⟩ := hW
  refine ⟨W, hW, ?_, ?_, ?_⟩
  · intro m hm
    rw [H.canon.lists.1, mem_unkn] at hm
    rw [← sum_lap1]
    exact hs m hm.1 hm.2
  · intro he
    rw [hd 0 ((H.hP 0).2 (Or.inl ⟨rfl, h0.2 he⟩))]
    unfold D1
    rw [if_neg (by omega)]
  · intro he
    rw [hd (nx - 1) ((H.hP _).2 (Or.inr ⟨rfl, h1.2 he⟩))]
    unfold D1
    rw [if_pos rfl]

/-- **C48** With at least one unknown and one prescribed node and consistent boundary conditions, the strategies succeed whenever the linear solver does. -/
theorem C48_solve_ok_1d (S : Setup1 eps g nx X eops nops kx F) (hlt : 2 * nx < 2147483648) {solver : Coo α → List α → Res (List α)}
    (hsol : Solves solver) (htot : ∀ A b, ∃ x, solver A b = ok x) (hval : F.ebcs.validate F.nbcs = ok ()) (sym : Sym) (alpha : α) (source : α → α) :
    (F.equations.nu ≠ 0 → F.equations.np ≠ 0 → ∃ r, F.solveSps solver sym alpha source = ok r) ∧ ∃ r, F.solveLmm solver sym alpha source = ok r := by
  obtain ⟨per, s0, s1, f0, f1, g0, g1, P, H, _, _, _⟩ := setup1_is S
  have hx := H.grid.hx
  obtain ⟨ac, fb, e1, v⟩ := vectorsSps1 H (by omega) source
  obtain ⟨ff, e2, v'⟩ := vectorsLmm1 H (by omega) source
  obtain ⟨l1, l2, l3, l4⟩ := H.canon.lists
  constructor
  · intro hu hp
    rw [l3] at hu
    rw [l4] at hp
    obtain ⟨kk, kc, fb', em, ef, hab⟩ := sps_finish (scheme1 H alpha) (by omega) (by omega) (fun e => hp ((pp_eq_zero (scheme1 H alpha).hP).2 e)) 0 sym v hsol
    obtain ⟨ab, hx⟩ := htot kk fb'
    obtain ⟨r, W, hj, _⟩ := hab ab hx
    refine ⟨r, ?_⟩
    unfold Fdm1d.solveSps
    rw [hval, ok_bind, show F.getMatricesSps alpha 0 sym = _ from em, e1]
    simp only [ok_bind]
    rw [ef, ok_bind, hx, ok_bind, hj]
  · obtain ⟨mm, em, haa⟩ := lmm_finish (scheme1 H alpha) hlt (by omega) F.equations.neq sym v' hsol
    obtain ⟨aa, hx⟩ := htot mm ff
    obtain ⟨r, W, hj, _⟩ := haa aa hx
    refine ⟨r, ?_⟩
    unfold Fdm1d.solveLmm
    rw [hval, ok_bind, show F.getMatricesLmm alpha F.equations.neq false sym = _ from em, e2]
    simp only [ok_bind]
    rw [hx, ok_bind, H.canon.hneq, hj]

/-! ### Uniqueness -/

theorem positive1 {per : Bool} {nx : Nat} (hx : 2 ≤ nx) {kx alpha dx : α} (hk : 0 < kx) (ha : 0 ≤ alpha) (hd : 0 < dx) :
    Positive nx 3 (N1 per nx) (V1 per nx (2 * kx / (dx * dx) + alpha) (-kx / (dx * dx))) ∧
      (0 < alpha → ∀ m, m < nx → 0 < ∑ b ∈ Finset.range 3, V1 per nx (2 * kx / (dx * dx) + alpha) (-kx / (dx * dx)) m b) := by
  have hrow : ∀ m, ∑ b ∈ Finset.range 3, V1 per nx (2 * kx / (dx * dx) + alpha) (-kx / (dx * dx)) m b = half per nx m * alpha := by
    intro m
    have := sum_lap1 per nx kx alpha dx m (fun _ => 1)
    simp only [mul_one] at this
    rw [this]
    unfold Lap1
    ring
  refine ⟨⟨by omega, ?_, fun m _ => rfl, ?_, ?_, ?_⟩, ?_⟩
  · intro m b hm hb
    unfold N1
    split
    · exact hm
    · split
      · exact lef_lt hx hm
      · exact rig_lt hx hm
  · intro m b _ hb _
    unfold V1
    rw [if_neg (by omega)]
    apply mul_neg_of_pos_of_neg (half_pos' per nx m)
    apply div_neg_of_neg_of_pos
    · linarith
    · exact mul_pos hd hd
  · intro m _
    rw [hrow]
    exact mul_nonneg (le_of_lt (half_pos' per nx m)) ha
  · intro M hM m hm hMm k hk
    refine line_connected (per := per) hx (fun i hi h => ?_) (fun i hi h => ?_) hm hMm k hk
    · exact hM i 1 hi (by omega) h
    · exact hM i 2 hi (by omega) h
  · intro hα m hm
    rw [hrow]
    exact mul_pos (half_pos' per nx m) hα

/-- **C49** For a diffusion coefficient that is positive and `α ≥ 0`, the two strategies return the same vector, whatever correct linear solvers and
storage kinds they use. -/
theorem C49_solve_1d (S : Setup1 eps g nx X eops nops kx F) (hlt : 2 * nx < 2147483648) {solver solver' : Coo α → List α → Res (List α)}
    (hsol : Solves solver) (hsol' : Solves solver') {sym sym' : Sym} {alpha : α} (hk : 0 < kx) (ha : 0 ≤ alpha) {source : α → α} {r r' : List α}
    (hr : F.solveSps solver sym alpha source = ok r) (hr' : F.solveLmm solver' sym' alpha source = ok r') : r = r' := by
  obtain ⟨per, s0, s1, f0, f1, g0, g1, P, H, _, _, _⟩ := setup1_is S
  obtain ⟨hne, W, hW, hs⟩ := sps_sol1 H (by omega) hsol hr
  obtain ⟨W', hW', hs'⟩ := lmm_sol1 H hlt hsol' hr'
  have hu := sol_unique (positive1 H.grid.hx hk ha (sub_pos.2 H.pos)).1 (scheme1 H alpha).hP (Or.inl hne) hs hs'
  exact hW.unique (hW'.congr fun m hm => (hu m hm).symm)

/-! ### Exactness -/

theorem exact1 {kx alpha dx c0 c1 c2 : α} (hx : 2 ≤ nx) (hd : dx ≠ 0) (hX : ∀ i, i + 1 < nx → X (i + 1) = X i + dx) {n0 n1 : α → α} {source : α → α}
    (hsrc : ∀ x, source x = -kx * (2 * c2) + alpha * (c0 + c1 * x + c2 * x ^ 2)) {m : Nat} (hm : m < nx)
    (h0 : m = 0 → n0 (X m) = kx * (c1 + 2 * c2 * X m)) (h1 : m = nx - 1 → n1 (X m) = -(kx * (c1 + 2 * c2 * X m))) :
    half false nx m * Lap1 false nx kx alpha dx (fun i => c0 + c1 * X i + c2 * X i ^ 2) m = R1 false nx n0 n1 dx X source m := by
  unfold Lap1 R1 flux1
  rw [hsrc]
  by_cases hm0 : m = 0
  · subst hm0
    have e1 : lef false nx 0 = 1 := rfl
    have e2 : rig false nx 0 = 1 := by unfold rig; rw [if_pos (by omega)]
    have e3 : (half false nx 0 : α) = 1 / 2 := by unfold half; rw [if_pos ⟨rfl, Or.inl rfl⟩]
    rw [e1, e2, e3, if_pos ⟨rfl, rfl⟩, h0 rfl]
    dsimp only
    rw [show X 1 = X 0 + dx from hX 0 (by omega)]
    field_simp
    ring
  · have e1 : lef false nx m = m - 1 := by unfold lef; rw [if_pos hm0]
    have hXm : X m = X (m - 1) + dx := by
      have := hX (m - 1) (by omega)
      rwa [show m - 1 + 1 = m by omega] at this
    have hXm' : X (m - 1) = X m - dx := by rw [hXm]; ring
    by_cases hmn : m = nx - 1
    · have e2 : rig false nx m = m - 1 := by unfold rig; rw [if_neg (by simpa using hmn), if_neg (by simp)]; omega
      have e3 : (half false nx m : α) = 1 / 2 := by unfold half; rw [if_pos ⟨rfl, Or.inr hmn⟩]
      rw [e1, e2, e3, if_neg (fun h => hm0 h.2), if_pos ⟨rfl, hmn⟩, h1 hmn]
      dsimp only
      rw [hXm']
      field_simp
      ring
    · have e2 : rig false nx m = m + 1 := by unfold rig; rw [if_pos hmn]
      have e3 : (half false nx m : α) = 1 := by unfold half; rw [if_neg (by rintro ⟨_, h⟩; omega)]
      rw [e1, e2, e3, if_neg (fun h => hm0 h.2), if_neg (fun h => hmn h.2)]
      dsimp only
      rw [hXm', hX m (by omega)]
      field_simp
      ring

/-- **C55** In one dimension on a uniform grid that is not periodic, both strategies return the nodal values of the exact solution whenever it is a
quadratic polynomial `u`: source `-k u'' + α u`, prescribed values of `u`, outflows `-k ∂u/∂n` (`k u'` at xmin, `-k u'` at xmax). -/
theorem C55_exact_1d (S : Setup1 eps g nx X eops nops kx F) (hlt : 2 * nx < 2147483648) (hX : ∀ i, i + 1 < nx → X (i + 1) = X i + (X 1 - X 0))
    (hper : ¬ Per1 eops) {solver : Coo α → List α → Res (List α)} (hsol : Solves solver) {sym : Sym} {alpha : α} (hk : 0 < kx) (ha : 0 ≤ alpha)
    (hpos : F.equations.np ≠ 0 ∨ 0 < alpha) {c0 c1 c2 : α} {source : α → α} (hsrc : ∀ x, source x = -kx * (2 * c2) + alpha * (c0 + c1 * x + c2 * x ^ 2))
    (he0 : Ess1 eops .Xmin → ∀ f, vget F.ebcs.functions 0 = ok f → f (X 0) = c0 + c1 * X 0 + c2 * X 0 ^ 2)
    (he1 : Ess1 eops .Xmax → ∀ f, vget F.ebcs.functions 1 = ok f → f (X (nx - 1)) = c0 + c1 * X (nx - 1) + c2 * X (nx - 1) ^ 2)
    (hn0 : ¬ Ess1 eops .Xmin → ∀ f, vget F.nbcs.functions 0 = ok f → f (X 0) = kx * (c1 + 2 * c2 * X 0))
    (hn1 : ¬ Ess1 eops .Xmax → ∀ f, vget F.nbcs.functions 1 = ok f → f (X (nx - 1)) = -(kx * (c1 + 2 * c2 * X (nx - 1))))
    {r : List α} (hr : F.solveSps solver sym alpha source = ok r ∨ F.solveLmm solver sym alpha source = ok r) :
    Lab.IsVec r nx (fun i => c0 + c1 * X i + c2 * X i ^ 2) := by
  obtain ⟨per, s0, s1, f0, f1, g0, g1, P, H, hp, h0, h1⟩ := setup1_is S
  have hx := H.grid.hx
  obtain rfl : per = false := by rw [← Bool.not_eq_true, hp]; exact hper
  have hW : ∃ W, Lab.IsVec r nx W ∧ IsSol nx 3 P (N1 false nx) (V1 false nx (2 * kx / ((X 1 - X 0) * (X 1 - X 0)) + alpha) (-kx / ((X 1 - X 0) * (X 1 - X 0))))
      (R1 false nx g0 g1 (X 1 - X 0) X source) (D1 nx f0 f1 X) W := by
    rcases hr with h | h
    · exact (sps_sol1 H (by omega) hsol h).2
    · exact lmm_sol1 H hlt hsol h
  obtain ⟨W, hW, hs⟩ := hW
  have hpos' := positive1 (per := false) hx hk ha (sub_pos.2 H.pos)
  have hex : IsSol nx 3 P (N1 false nx) (V1 false nx (2 * kx / ((X 1 - X 0) * (X 1 - X 0)) + alpha) (-kx / ((X 1 - X 0) * (X 1 - X 0))))
      (R1 false nx g0 g1 (X 1 - X 0) X source) (D1 nx f0 f1 X) (fun i => c0 + c1 * X i + c2 * X i ^ 2) := by
    constructor
    · intro m hm hmP
      rw [sum_lap1 false nx kx alpha (X 1 - X 0) m (fun i => c0 + c1 * X i + c2 * X i ^ 2)]
      apply exact1 hx (ne_of_gt (sub_pos.2 H.pos)) hX hsrc hm
      · rintro rfl
        apply hn0
        · rw [← h0]; exact fun h => hmP ((H.hP 0).2 (Or.inl ⟨rfl, h⟩))
        · rw [H.nat]; rfl
      · rintro rfl
        apply hn1
        · rw [← h1]; exact fun h => hmP ((H.hP _).2 (Or.inr ⟨rfl, h⟩))
        · rw [H.nat]; rfl
    · intro p hpP
      unfold D1
      have := (H.hP p).1 hpP
      by_cases hpl : p = nx - 1
      · rw [if_pos hpl]
        subst hpl
        have hs1 : s1 = true := by
          rcases this with h | h
          · omega
          · exact h.2
        exact (he1 (h1.1 hs1) f1 (by rw [H.funs]; rfl)).symm
      · rw [if_neg hpl]
        rcases this with h | h
        · rw [h.1]
          exact (he0 (h0.1 h.2) f0 (by rw [H.funs]; rfl)).symm
        · exact absurd h.1 hpl
  have hu := sol_unique hpos'.1 (scheme1 H alpha).hP (by
    rcases hpos with h | h
    · left; rw [H.canon.lists.2.2.2] at h; exact fun e => h ((pp_eq_zero (scheme1 H alpha).hP).2 e)
    · right; exact hpos'.2 h) hs hex
  exact hW.congr hu

end Props

/-! ### Examples -/

/-- the grid 0, 1, 2 -/
def grid3 : Grid1d ℚ := { nx := 3, coords := [0, 1, 2], nodes_xmin := [0], nodes_xmax := [2] }

theorem grid3_is : Grid1d.new ([0, 1, 2] : List ℚ) = ok grid3 ∧ grid3.Is 3 (fun i => (i : ℚ)) := by
  refine ⟨by decide +kernel, by omega, rfl, rfl, ?_⟩
  intro i hi
  match i, hi with
  | 0, _ => rfl
  | 1, _ => rfl
  | 2, _ => rfl

/-- `Fdm1d` on the grid 0, 1, 2 -/
def fdm3 (eops : List (EOp1 ℚ)) (nops : List (Side × (ℚ → ℚ))) : Res (Fdm1d ℚ) := do
  let e ← runE1 eops
  let n ← runN1 nops
  Fdm1d.new 0 grid3 e n 1

theorem setup3 {eops : List (EOp1 ℚ)} {nops : List (Side × (ℚ → ℚ))} (he : ∀ s f, EOp1.set s f ∈ eops → s.isX = true) (hn : ∀ o ∈ nops, o.1.isX = true) :
    ∃ F, fdm3 eops nops = ok F ∧ Setup1 0 grid3 3 (fun i => (i : ℚ)) eops nops 1 F := by
  obtain ⟨e, n, h1, h2, h⟩ := C48_new_1d (eps := (0 : ℚ)) (1 : ℚ) grid3_is.2 (by norm_num) (le_refl _) he hn
  rcases h with ⟨_, F, hF⟩ | ⟨⟨i, i1, i2, hi⟩, _⟩
  · refine ⟨F, ?_, grid3_is.2, by norm_num, le_refl _, he, hn, e, n, h1, h2, hF⟩
    unfold fdm3
    rw [h1, ok_bind, h2, ok_bind, hF]
  · exfalso
    match i, i1, i2 with
    | 1, _, _ => norm_num at hi
    | 2, _, _ => norm_num at hi

/-- a problem with a value on the left and an outflow on the right: `-u'' + u = x² - 2`, `u(0) = 0`, `u'(2) = 4`; solved by `u = x²` -/
example : ∃ F, Setup1 (0 : ℚ) grid3 3 (fun i => (i : ℚ)) [.set .Xmin fun _ => 0] [(.Xmax, fun _ => -4)] 1 F ∧ F.equations.nu = 2 ∧ F.equations.np = 1 ∧
    ¬ Per1 ([.set .Xmin fun _ => 0] : List (EOp1 ℚ)) ∧
    F.solveSps (checkSolver [1, 4]) Sym.yesLower 1 (fun x => x ^ 2 - 2) = ok [0, 1, 4] ∧
    F.solveLmm (checkSolver [0, 1, 4, 0]) Sym.no 1 (fun x => x ^ 2 - 2) = ok [0, 1, 4] := by
  obtain ⟨F, hF, hS⟩ := setup3 (eops := [.set .Xmin fun _ => 0]) (nops := [(.Xmax, fun _ => -4)]) (by simp [Side.isX]) (by simp [Side.isX])
  have hall : (do
      let F ← fdm3 [.set .Xmin fun _ => 0] [(.Xmax, fun _ => -4)]
      let a ← F.solveSps (checkSolver [1, 4]) Sym.yesLower 1 (fun x => x ^ 2 - 2)
      let b ← F.solveLmm (checkSolver [0, 1, 4, 0]) Sym.no 1 (fun x => x ^ 2 - 2)
      ok (F.equations.nu, F.equations.np, a, b)) = ok (2, 1, [0, 1, 4], [0, 1, 4]) := by decide +kernel
  rw [hF, ok_bind, bind_eq_ok] at hall
  obtain ⟨a, ea, hall⟩ := hall
  rw [bind_eq_ok] at hall
  obtain ⟨b, eb, hall⟩ := hall
  simp only [Res.ok.injEq, Prod.mk.injEq] at hall
  obtain ⟨h1, h2, rfl, rfl⟩ := hall
  refine ⟨F, hS, h1, h2, ?_, ea, eb⟩
  rintro ⟨pre, o, post, h, ho, _⟩
  rcases pre with _ | ⟨a, pre⟩
  · cases h; exact ho
  · have := congrArg List.length h; simp at this

/-- **C55** "When enabled, this enforces ϕ(xmin) = ϕ(xmax)" (/repo/russell_pde/src/essential_bcs_1d.rs:85): not so.  The last node is coupled to the first
as if it were one spacing away from it, and both have their own unknown. -/
theorem C55_periodic_counterexample : ∃ F, Setup1 (0 : ℚ) grid3 3 (fun i => (i : ℚ)) [.setPeriodic true] [] 1 F ∧ Per1 ([.setPeriodic true] : List (EOp1 ℚ)) ∧
    ∃ solver : Coo ℚ → List ℚ → Res (List ℚ), Solves solver ∧ F.solveLmm solver Sym.no 1 (fun x => if x = 0 then 1 else 0) = ok [1 / 2, 1 / 4, 1 / 4] := by
  obtain ⟨F, hF, hS⟩ := setup3 (eops := [.setPeriodic true]) (nops := []) (by simp) (by simp)
  refine ⟨F, hS, ⟨[], .setPeriodic true, [], rfl, rfl, by simp⟩, checkSolver [1 / 2, 1 / 4, 1 / 4], checkSolver_solves _, ?_⟩
  have hall : (do
      let F ← fdm3 [.setPeriodic true] []
      F.solveLmm (checkSolver [1 / 2, 1 / 4, 1 / 4]) Sym.no 1 (fun x => if x = 0 then 1 else 0)) = ok [1 / 2, 1 / 4, 1 / 4] := by decide +kernel
  rwa [hF, ok_bind] at hall

end Russell.Pde
