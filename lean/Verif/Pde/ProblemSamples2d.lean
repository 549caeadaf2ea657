import Verif.Pde.ProblemSamples1d

/-!
# Sample problems on rectangles: the analytical solutions (C98)
-/

namespace Russell.Pde

open Russell Russell.Res Real ProblemSamples

noncomputable section

/-- the rectangle, its sides in the order `Xmin, Xmax, Ymin, Ymax`, and the flow across a side -/
def Problem2.domain (p : Problem2) : Set (ℝ × ℝ) := Set.Icc p.xmin p.xmax ×ˢ Set.Icc p.ymin p.ymax

def Problem2.OnSide (p : Problem2) : Nat → ℝ → ℝ → Prop
  | 0, x, y => x = p.xmin ∧ y ∈ Set.Icc p.ymin p.ymax
  | 1, x, y => x = p.xmax ∧ y ∈ Set.Icc p.ymin p.ymax
  | 2, x, y => y = p.ymin ∧ x ∈ Set.Icc p.xmin p.xmax
  | _, x, y => y = p.ymax ∧ x ∈ Set.Icc p.xmin p.xmax

/-- `q` is the outward flow `-(k ∇φ)·n` at a point of a side -/
def Problem2.Flow (p : Problem2) (φ : ℝ → ℝ → ℝ) : Nat → ℝ → ℝ → ℝ → Prop
  | 0, x, y, q => ∃ d, HasDerivWithinAt (fun x => φ x y) d (Set.Icc p.xmin p.xmax) x ∧ q = -p.kx * d * (-1)
  | 1, x, y, q => ∃ d, HasDerivWithinAt (fun x => φ x y) d (Set.Icc p.xmin p.xmax) x ∧ q = -p.kx * d
  | 2, x, y, q => ∃ d, HasDerivWithinAt (fun y => φ x y) d (Set.Icc p.ymin p.ymax) y ∧ q = -p.ky * d * (-1)
  | _, x, y, q => ∃ d, HasDerivWithinAt (fun y => φ x y) d (Set.Icc p.ymin p.ymax) y ∧ q = -p.ky * d

/-- the conditions are accepted by the solvers: every side has exactly one, and the rectangle is not empty -/
structure Problem2.WellPosed (p : Problem2) : Prop where
  valid : p.ebcs.validate p.nbcs = ok ()
  notPeriodicX : p.ebcs.periodic_along_x = false
  notPeriodicY : p.ebcs.periodic_along_y = false
  intervalX : p.xmin < p.xmax
  intervalY : p.ymin < p.ymax

/-- `-kx φ_xx - ky φ_yy + alpha φ = source` inside; continuous up to the boundary -/
structure Problem2.Equation (p : Problem2) (alpha : ℝ) (φ : ℝ → ℝ → ℝ) : Prop where
  cont : ContinuousOn (fun q : ℝ × ℝ => φ q.1 q.2) p.domain
  smooth : ∀ x ∈ Set.Ioo p.xmin p.xmax, ∀ y ∈ Set.Ioo p.ymin p.ymax, Smooth2 φ x y
  eq : ∀ x ∈ Set.Ioo p.xmin p.xmax, ∀ y ∈ Set.Ioo p.ymin p.ymax,
    -p.kx * dx (dx φ) x y - p.ky * dy (dy φ) x y + alpha * φ x y = p.source x y

/-- the prescribed values -/
def Problem2.Values (p : Problem2) (φ : ℝ → ℝ → ℝ) : Prop :=
  ∀ k < 4, ∀ f, p.ebcs.sides[k]? = some true → p.ebcs.functions[k]? = some f → ∀ x y, p.OnSide k x y → φ x y = f x y

/-- the prescribed flows -/
def Problem2.Flows (p : Problem2) (φ : ℝ → ℝ → ℝ) : Prop :=
  ∀ k < 4, ∀ f, p.nbcs.sides[k]? = some true → p.nbcs.functions[k]? = some f → ∀ x y, p.OnSide k x y → p.Flow φ k x y (f x y)

/-- a classical solution -/
structure Problem2.Solution (p : Problem2) (alpha : ℝ) (φ : ℝ → ℝ → ℝ) : Prop where
  equation : p.Equation alpha φ
  values : p.Values φ
  flows : p.Flows φ

/-- explicit partial derivatives -/
structure Partials (φ φx φy φxx φyy : ℝ → ℝ → ℝ) : Prop where
  hx : ∀ x y, HasDerivAt (fun x => φ x y) (φx x y) x
  hy : ∀ x y, HasDerivAt (fun y => φ x y) (φy x y) y
  hxx : ∀ x y, HasDerivAt (fun x => φx x y) (φxx x y) x
  hyy : ∀ x y, HasDerivAt (fun y => φy x y) (φyy x y) y
  cont : Continuous fun q : ℝ × ℝ => φ q.1 q.2

variable {φ ψ φx φy φxx φyy : ℝ → ℝ → ℝ} {p : Problem2} {alpha : ℝ}

theorem Partials.dx_eq (h : Partials φ φx φy φxx φyy) : dx φ = φx := funext fun x => funext fun y => (h.hx x y).deriv
theorem Partials.dy_eq (h : Partials φ φx φy φxx φyy) : dy φ = φy := funext fun x => funext fun y => (h.hy x y).deriv
theorem Partials.dxx_eq (h : Partials φ φx φy φxx φyy) : dx (dx φ) = φxx := by
  rw [h.dx_eq]; exact funext fun x => funext fun y => (h.hxx x y).deriv
theorem Partials.dyy_eq (h : Partials φ φx φy φxx φyy) : dy (dy φ) = φyy := by
  rw [h.dy_eq]; exact funext fun x => funext fun y => (h.hyy x y).deriv
theorem Partials.smooth (h : Partials φ φx φy φxx φyy) (x y : ℝ) : Smooth2 φ x y :=
  ⟨Filter.Eventually.of_forall fun z => (h.hx z y).differentiableAt, Filter.Eventually.of_forall fun z => (h.hy x z).differentiableAt,
    by rw [h.dx_eq]; exact (h.hxx x y).differentiableAt, by rw [h.dy_eq]; exact (h.hyy x y).differentiableAt⟩

theorem Partials.equation (h : Partials φ φx φy φxx φyy) (he : ∀ x y, -p.kx * φxx x y - p.ky * φyy x y + alpha * φ x y = p.source x y) :
    p.Equation alpha φ :=
  ⟨h.cont.continuousOn, fun x _ y _ => h.smooth x y, fun x _ y _ => by rw [h.dxx_eq, h.dyy_eq]; exact he x y⟩

theorem Partials.flow0 (h : Partials φ φx φy φxx φyy) {x y q : ℝ} (hq : q = -p.kx * φx x y * (-1)) : p.Flow φ 0 x y q :=
  ⟨_, (h.hx x y).hasDerivWithinAt, hq⟩
theorem Partials.flow1 (h : Partials φ φx φy φxx φyy) {x y q : ℝ} (hq : q = -p.kx * φx x y) : p.Flow φ 1 x y q :=
  ⟨_, (h.hx x y).hasDerivWithinAt, hq⟩
theorem Partials.flow2 (h : Partials φ φx φy φxx φyy) {x y q : ℝ} (hq : q = -p.ky * φy x y * (-1)) : p.Flow φ 2 x y q :=
  ⟨_, (h.hy x y).hasDerivWithinAt, hq⟩
theorem Partials.flow3 (h : Partials φ φx φy φxx φyy) {x y q : ℝ} (hq : q = -p.ky * φy x y) : p.Flow φ 3 x y q :=
  ⟨_, (h.hy x y).hasDerivWithinAt, hq⟩

/-- the lists of conditions of a problem in terms of the four sides -/
theorem bcs4 {P : Nat → (ℝ → ℝ → ℝ) → Prop} {s0 s1 s2 s3 : Bool} {f0 f1 f2 f3 : ℝ → ℝ → ℝ} (h0 : s0 = true → P 0 f0) (h1 : s1 = true → P 1 f1)
    (h2 : s2 = true → P 2 f2) (h3 : s3 = true → P 3 f3) :
    ∀ k < 4, ∀ f, [s0, s1, s2, s3][k]? = some true → [f0, f1, f2, f3][k]? = some f → P k f := by
  intro k hk f a b
  have : k = 0 ∨ k = 1 ∨ k = 2 ∨ k = 3 := by omega
  rcases this with rfl | rfl | rfl | rfl
  · simp at a b; subst b; exact h0 a
  · simp at a b; subst b; exact h1 a
  · simp at a b; subst b; exact h2 a
  · simp at a b; subst b; exact h3 a

/-- all lists have four entries -/
structure Problem2.Four (p : Problem2) : Prop where
  es : p.ebcs.sides.length = 4
  ns : p.nbcs.sides.length = 4
  ef : p.ebcs.functions.length = 4
  nf : p.nbcs.functions.length = 4

/-- what `validate` says about the sides -/
theorem valid_sides (h : p.WellPosed) (hl : p.Four) : ∀ k < 4,
    (∃ f, p.ebcs.sides[k]? = some true ∧ p.ebcs.functions[k]? = some f) ∨ ∃ f, p.nbcs.sides[k]? = some true ∧ p.nbcs.functions[k]? = some f := by
  obtain ⟨hv, hp, hp', _, _⟩ := h
  obtain ⟨l1, l2, l3, l4⟩ := hl
  obtain ⟨_, _, _, _, _, _, ⟨per, per', fs, sides⟩, ⟨fs', sides'⟩, _, _⟩ := p
  simp only at hv hp hp' l1 l2 l3 l4 ⊢
  subst hp hp'
  match sides, sides', fs, fs', l1, l2, l3, l4 with
  | [e0, e1, e2, e3], [n0, n1, n2, n3], [f0, f1, f2, f3], [g0, g1, g2, g3], _, _, _, _ =>
    have hv : (do
      notBoth "Xmin side must not have both EBC and NBC" e0 n0
      notBoth "Xmax side must not have both EBC and NBC" e1 n1
      notBoth "Ymin side must not have both EBC and NBC" e2 n2
      notBoth "Ymax side must not have both EBC and NBC" e3 n3
      axisTest false e0 e1 n0 n1 "Periodic X does not allow NBC on Xmin or Xmax" "Xmin side is missing either EBC or NBC"
        "Xmax side is missing either EBC or NBC"
      axisTest false e2 e3 n2 n3 "Periodic Y does not allow NBC on Ymin or Ymax" "Ymin side is missing either EBC or NBC"
        "Ymax side is missing either EBC or NBC") = ok () := hv
    simp only [bind_eq_ok] at hv
    obtain ⟨_, _, _, _, _, _, _, _, _, h1, h2⟩ := hv
    have t1 : (e0 = true ∨ n0 = true) ∧ (e1 = true ∨ n1 = true) := by
      revert h1
      cases e0 <;> cases e1 <;> cases n0 <;> cases n1 <;> simp [axisTest]
    have t2 : (e2 = true ∨ n2 = true) ∧ (e3 = true ∨ n3 = true) := by
      revert h2
      cases e2 <;> cases e3 <;> cases n2 <;> cases n3 <;> simp [axisTest]
    intro k hk
    have : k = 0 ∨ k = 1 ∨ k = 2 ∨ k = 3 := by omega
    rcases this with rfl | rfl | rfl | rfl
    · simpa using t1.1
    · simpa using t1.2
    · simpa using t2.1
    · simpa using t2.2

theorem smooth_sub {x y : ℝ} (h : Smooth2 φ x y) (h' : Smooth2 ψ x y) : Smooth2 (fun x y => φ x y - ψ x y) x y ∧
    dx (dx fun x y => φ x y - ψ x y) x y = dx (dx φ) x y - dx (dx ψ) x y ∧ dy (dy fun x y => φ x y - ψ x y) x y = dy (dy φ) x y - dy (dy ψ) x y := by
  have ex : (fun z => dx (fun x y => φ x y - ψ x y) z y) =ᶠ[nhds x] fun z => dx φ z y - dx ψ z y := by
    filter_upwards [h.dx, h'.dx] with z h1 h2
    exact deriv_fun_sub h1 h2
  have ey : (fun z => dy (fun x y => φ x y - ψ x y) x z) =ᶠ[nhds y] fun z => dy φ x z - dy ψ x z := by
    filter_upwards [h.dy, h'.dy] with z h1 h2
    exact deriv_fun_sub h1 h2
  refine ⟨⟨(h.dx.and h'.dx).mono fun z hz => hz.1.sub hz.2, (h.dy.and h'.dy).mono fun z hz => hz.1.sub hz.2,
    ex.differentiableAt_iff.2 (h.dxx.sub h'.dxx), ey.differentiableAt_iff.2 (h.dyy.sub h'.dyy)⟩, ?_, ?_⟩
  · exact ex.deriv_eq.trans (deriv_fun_sub h.dxx h'.dxx)
  · exact ey.deriv_eq.trans (deriv_fun_sub h.dyy h'.dyy)

theorem ins_lo {f : ℝ → ℝ} {x0 x1 : ℝ} (h01 : x0 < x1) (h : HasDerivWithinAt f 0 (Set.Icc x0 x1) x0) :
    HasDerivWithinAt (fun t => f (x0 + t * 1)) 0 (Set.Ici 0) 0 := by
  have h := h.mono_of_mem_nhdsWithin (Icc_mem_nhdsGE h01)
  have hd : HasDerivWithinAt (fun t : ℝ => x0 + t * 1) 1 (Set.Ici 0) 0 := by
    simpa using (((hasDerivAt_id (0 : ℝ)).mul_const 1).const_add x0).hasDerivWithinAt
  have := HasDerivWithinAt.scomp_of_eq (0 : ℝ) h hd (fun t ht => by simpa using ht) (by simp)
  exact this.congr_deriv (by simp)

theorem ins_hi {f : ℝ → ℝ} {x0 x1 : ℝ} (h01 : x0 < x1) (h : HasDerivWithinAt f 0 (Set.Icc x0 x1) x1) :
    HasDerivWithinAt (fun t => f (x1 + t * (-1))) 0 (Set.Ici 0) 0 := by
  have h := h.mono_of_mem_nhdsWithin (Icc_mem_nhdsLE h01)
  have hd : HasDerivWithinAt (fun t : ℝ => x1 + t * (-1)) (-1) (Set.Ici 0) 0 := by
    simpa using (((hasDerivAt_id (0 : ℝ)).mul_const (-1)).const_add x1).hasDerivWithinAt
  have := HasDerivWithinAt.scomp_of_eq (0 : ℝ) h hd (fun t ht => by simpa using ht) (by simp)
  exact this.congr_deriv (by simp)

theorem in_lo {x0 x1 : ℝ} (h01 : x0 < x1) : ∀ᶠ t : ℝ in nhdsWithin 0 (Set.Ioi 0), x0 + t * 1 ∈ Set.Icc x0 x1 := by
  filter_upwards [Ioo_mem_nhdsGT (show (0 : ℝ) < x1 - x0 by linarith)] with t ht
  exact ⟨by linarith [ht.1], by linarith [ht.2]⟩

theorem in_hi {x0 x1 : ℝ} (h01 : x0 < x1) : ∀ᶠ t : ℝ in nhdsWithin 0 (Set.Ioi 0), x1 + t * (-1) ∈ Set.Icc x0 x1 := by
  filter_upwards [Ioo_mem_nhdsGT (show (0 : ℝ) < x1 - x0 by linarith)] with t ht
  exact ⟨by linarith [ht.2], by linarith [ht.1]⟩

/-- the quadratic function increases from the sides with prescribed flow into the rectangle -/
structure Problem2.Barrier (p : Problem2) (a b c d : ℝ) : Prop where
  pos : 0 < a + c
  s0 : p.nbcs.sides[0]? = some true → 0 < 2 * a * p.xmin + b
  s1 : p.nbcs.sides[1]? = some true → 2 * a * p.xmax + b < 0
  s2 : p.nbcs.sides[2]? = some true → 0 < 2 * c * p.ymin + d
  s3 : p.nbcs.sides[3]? = some true → 2 * c * p.ymax + d < 0

/-- two functions with the same source and the same flows differ at most by what they differ at the sides with prescribed values -/
theorem compare2 {a b c d M : ℝ} (h : p.WellPosed) (hl : p.Four) (hk : p.kx = p.ky) (hk0 : p.kx ≠ 0) (ha : 0 ≤ alpha / p.kx) (hM : 0 ≤ M)
    (hb : p.Barrier a b c d) (hφ : p.Equation alpha φ) (hψ : p.Equation alpha ψ) (fφ : p.Flows φ) (fψ : p.Flows ψ)
    (hv : ∀ k < 4, p.ebcs.sides[k]? = some true → ∀ x y, p.OnSide k x y → |ψ x y - φ x y| ≤ M) :
    ∀ x y, (x, y) ∈ p.domain → |ψ x y - φ x y| ≤ M := by
  have sides := valid_sides h hl
  have ix := h.intervalX
  have iy := h.intervalY
  refine fun x y hxy => max_principle2 (w := fun x y => ψ x y - φ x y) (b := b) (d := d) ha hM hb.pos (isCompact_Icc.prod isCompact_Icc)
    (hψ.cont.sub hφ.cont) (fun x y hxy => ?_) hxy
  obtain ⟨hx, hy⟩ := hxy
  simp only at hx hy
  -- what happens on a side
  have side : ∀ k < 4, p.OnSide k x y → |ψ x y - φ x y| ≤ M ∨ Insulated p.domain a b c d (fun x y => ψ x y - φ x y) x y := by
    intro k hk4 hs
    rcases sides k hk4 with ⟨f, e1, e2⟩ | ⟨f, e1, e2⟩
    · exact Or.inl (hv k hk4 e1 x y hs)
    · right
      have q1 := fφ k hk4 f e1 e2 x y hs
      have q2 := fψ k hk4 f e1 e2 x y hs
      have hk0' : p.ky ≠ 0 := hk ▸ hk0
      have : k = 0 ∨ k = 1 ∨ k = 2 ∨ k = 3 := by omega
      rcases this with rfl | rfl | rfl | rfl
      · obtain ⟨rfl, hy⟩ := hs
        obtain ⟨d1, g1, r1⟩ := q1
        obtain ⟨d2, g2, r2⟩ := q2
        have hd : d2 = d1 := mul_left_cancel₀ hk0 (by linarith)
        subst hd
        refine ⟨1, 0, (in_lo ix).mono fun t ht => ⟨ht, by simpa using hy⟩, ?_, ?_⟩
        · have := g2.sub g1
          rw [sub_self] at this
          simpa using ins_lo ix this
        · have := hb.s0 e1
          linarith
      · obtain ⟨rfl, hy⟩ := hs
        obtain ⟨d1, g1, r1⟩ := q1
        obtain ⟨d2, g2, r2⟩ := q2
        have hd : d2 = d1 := mul_left_cancel₀ hk0 (by linarith)
        subst hd
        refine ⟨-1, 0, (in_hi ix).mono fun t ht => ⟨ht, by simpa using hy⟩, ?_, ?_⟩
        · have := g2.sub g1
          rw [sub_self] at this
          simpa using ins_hi ix this
        · have := hb.s1 e1
          linarith
      · obtain ⟨rfl, hx⟩ := hs
        obtain ⟨d1, g1, r1⟩ := q1
        obtain ⟨d2, g2, r2⟩ := q2
        have hd : d2 = d1 := mul_left_cancel₀ hk0' (by linarith)
        subst hd
        refine ⟨0, 1, (in_lo iy).mono fun t ht => ⟨by simpa using hx, ht⟩, ?_, ?_⟩
        · have := g2.sub g1
          rw [sub_self] at this
          simpa using ins_lo iy this
        · have := hb.s2 e1
          linarith
      · obtain ⟨rfl, hx⟩ := hs
        obtain ⟨d1, g1, r1⟩ := q1
        obtain ⟨d2, g2, r2⟩ := q2
        have hd : d2 = d1 := mul_left_cancel₀ hk0' (by linarith)
        subst hd
        refine ⟨0, -1, (in_hi iy).mono fun t ht => ⟨by simpa using hx, ht⟩, ?_, ?_⟩
        · have := g2.sub g1
          rw [sub_self] at this
          simpa using ins_hi iy this
        · have := hb.s3 e1
          linarith
  have imp : ∀ k < 4, p.OnSide k x y → |ψ x y - φ x y| ≤ M ∨ Inner p.domain (alpha / p.kx) (fun x y => ψ x y - φ x y) x y ∨
      Insulated p.domain a b c d (fun x y => ψ x y - φ x y) x y := fun k hk hs => (side k hk hs).imp_right Or.inr
  rcases eq_or_lt_of_le hx.1 with h1 | h1
  · exact imp 0 (by norm_num) ⟨h1.symm, hy⟩
  rcases eq_or_lt_of_le hx.2 with h2 | h2
  · exact imp 1 (by norm_num) ⟨h2, hy⟩
  rcases eq_or_lt_of_le hy.1 with h3 | h3
  · exact imp 2 (by norm_num) ⟨h3.symm, hx⟩
  rcases eq_or_lt_of_le hy.2 with h4 | h4
  · exact imp 3 (by norm_num) ⟨h4, hx⟩
  obtain ⟨s1, s2, s3⟩ := smooth_sub (hψ.smooth x ⟨h1, h2⟩ y ⟨h3, h4⟩) (hφ.smooth x ⟨h1, h2⟩ y ⟨h3, h4⟩)
  refine Or.inr (Or.inl ⟨prod_mem_nhds (Icc_mem_nhds h1 h2) (Icc_mem_nhds h3 h4), s1, ?_⟩)
  rw [s2, s3]
  have e1 := hφ.eq x ⟨h1, h2⟩ y ⟨h3, h4⟩
  have e2 := hψ.eq x ⟨h1, h2⟩ y ⟨h3, h4⟩
  rw [← hk] at e1 e2
  field_simp
  linear_combination e1 - e2

theorem unique2 {a b c d : ℝ} (h : p.WellPosed) (hl : p.Four) (hk : p.kx = p.ky) (hk0 : p.kx ≠ 0) (ha : 0 ≤ alpha / p.kx)
    (hb : p.Barrier a b c d) (hφ : p.Solution alpha φ) (hψ : p.Solution alpha ψ) : ∀ x y, (x, y) ∈ p.domain → ψ x y = φ x y := by
  intro x y hxy
  have := compare2 h hl hk hk0 ha le_rfl hb hφ.equation hψ.equation hφ.flows hψ.flows (fun k hk4 hs x y hxy => ?_) x y hxy
  · exact sub_eq_zero.1 (abs_nonpos_iff.1 this)
  · obtain ⟨f, hf⟩ : ∃ f, p.ebcs.functions[k]? = some f := ⟨_, List.getElem?_eq_getElem (by rw [hl.ef]; exact hk4)⟩
    rw [hφ.values k hk4 f hs hf x y hxy, hψ.values k hk4 f hs hf x y hxy, sub_self, abs_zero]

end

end Russell.Pde
