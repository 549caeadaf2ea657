import Verif.Pde.ProblemSamples
import Verif.Pde.MaxPrinciple

/-!
# Sample problems in one dimension: the analytical solutions (C98)
-/

namespace Russell.Pde

open Russell Russell.Res Real ProblemSamples

noncomputable section

/-- the ends of the interval and the normals there -/
def Problem1.node (p : Problem1) (k : Nat) : ℝ := if k = 0 then p.xmin else p.xmax
def normal1 (k : Nat) : ℝ := if k = 0 then -1 else 1

/-- the conditions are accepted by the solvers: every end has exactly one, and the interval is not empty -/
structure Problem1.WellPosed (p : Problem1) : Prop where
  valid : p.ebcs.validate p.nbcs = ok ()
  notPeriodic : p.ebcs.periodic_along_x = false
  interval : p.xmin < p.xmax

/-- `φ` solves `-kx φ'' + alpha φ = source` in the interval, takes the prescribed values, and has the prescribed flow `-kx φ' n` -/
def Problem1.Solution (p : Problem1) (alpha : ℝ) (φ : ℝ → ℝ) : Prop :=
  ∃ φ' φ'' : ℝ → ℝ,
    (∀ x ∈ Set.Icc p.xmin p.xmax, HasDerivWithinAt φ (φ' x) (Set.Icc p.xmin p.xmax) x) ∧
    (∀ x ∈ Set.Icc p.xmin p.xmax, HasDerivWithinAt φ' (φ'' x) (Set.Icc p.xmin p.xmax) x) ∧
    (∀ x ∈ Set.Icc p.xmin p.xmax, -p.kx * φ'' x + alpha * φ x = p.source x) ∧
    (∀ k < 2, ∀ f, p.ebcs.sides[k]? = some true → p.ebcs.functions[k]? = some f → φ (p.node k) = f (p.node k)) ∧
    (∀ k < 2, ∀ f, p.nbcs.sides[k]? = some true → p.nbcs.functions[k]? = some f →
      -p.kx * φ' (p.node k) * normal1 k = f (p.node k))

theorem solution1_of {p : Problem1} {alpha : ℝ} {φ φ' φ'' : ℝ → ℝ} (h1 : ∀ x, HasDerivAt φ (φ' x) x) (h2 : ∀ x, HasDerivAt φ' (φ'' x) x)
    (he : ∀ x, -p.kx * φ'' x + alpha * φ x = p.source x)
    (hb : ∀ k < 2, ∀ f, p.ebcs.sides[k]? = some true → p.ebcs.functions[k]? = some f → φ (p.node k) = f (p.node k))
    (hn : ∀ k < 2, ∀ f, p.nbcs.sides[k]? = some true → p.nbcs.functions[k]? = some f →
      -p.kx * φ' (p.node k) * normal1 k = f (p.node k)) : p.Solution alpha φ :=
  ⟨φ', φ'', fun x _ => (h1 x).hasDerivWithinAt, fun x _ => (h2 x).hasDerivWithinAt, fun x _ => he x, hb, hn⟩

/-- the lists of conditions of a problem in terms of the two ends -/
theorem bcs1 {P : Nat → (ℝ → ℝ) → Prop} {s0 s1 : Bool} {f0 f1 : ℝ → ℝ} (h0 : s0 = true → P 0 f0) (h1 : s1 = true → P 1 f1) :
    ∀ k < 2, ∀ f, [s0, s1][k]? = some true → [f0, f1][k]? = some f → P k f := by
  intro k hk f a b
  have : k = 0 ∨ k = 1 := by omega
  rcases this with rfl | rfl
  · simp at a b; subst b; exact h0 a
  · simp at a b; subst b; exact h1 a

/-- what `validate` says about the ends -/
theorem valid_ends {p : Problem1} (h : p.WellPosed) (hl : p.ebcs.sides.length = 2) (hl' : p.nbcs.sides.length = 2)
    (hf : p.ebcs.functions.length = 2) (hf' : p.nbcs.functions.length = 2) : ∀ k < 2,
    (∃ f, p.ebcs.sides[k]? = some true ∧ p.ebcs.functions[k]? = some f) ∨ ∃ f, p.nbcs.sides[k]? = some true ∧ p.nbcs.functions[k]? = some f := by
  obtain ⟨hv, hp, _⟩ := h
  obtain ⟨_, _, _, ⟨per, fs, sides⟩, ⟨fs', sides'⟩, _, _⟩ := p
  simp only at hv hp hl hl' hf hf' ⊢
  subst hp
  match sides, sides', fs, fs', hl, hl', hf, hf' with
  | [e0, e1], [n0, n1], [f0, f1], [g0, g1], _, _, _, _ =>
    intro k hk
    have : k = 0 ∨ k = 1 := by omega
    revert hv
    rcases this with rfl | rfl <;> cases e0 <;> cases e1 <;> cases n0 <;> cases n1 <;>
      simp [EssentialBcs1d.validate, vget, notBoth, axisTest]

/-- two solutions are equal if `alpha / kx` is not negative and some end has a prescribed value -/
theorem unique1 {p : Problem1} {alpha : ℝ} (h : p.WellPosed) (hl : p.ebcs.sides.length = 2) (hl' : p.nbcs.sides.length = 2)
    (hf : p.ebcs.functions.length = 2) (hf' : p.nbcs.functions.length = 2) (hk : p.kx ≠ 0) (ha : 0 ≤ alpha / p.kx)
    {k : Nat} (hk2 : k < 2) (hess : p.ebcs.sides[k]? = some true) {φ ψ : ℝ → ℝ} (hφ : p.Solution alpha φ) (hψ : p.Solution alpha ψ) :
    ∀ x ∈ Set.Icc p.xmin p.xmax, ψ x = φ x := by
  obtain ⟨φ', φ'', a1, a2, a3, a4, a5⟩ := hφ
  obtain ⟨ψ', ψ'', b1, b2, b3, b4, b5⟩ := hψ
  have ends := valid_ends h hl hl' hf hf'
  have hz : ∀ k < 2, (ψ (p.node k) - φ (p.node k)) * (ψ' (p.node k) - φ' (p.node k)) = 0 := by
    intro k hk2
    rcases ends k hk2 with ⟨f, h1, h2⟩ | ⟨f, h1, h2⟩
    · rw [a4 k hk2 f h1 h2, b4 k hk2 f h1 h2, sub_self, zero_mul]
    · have e1 := a5 k hk2 f h1 h2
      have e2 := b5 k hk2 f h1 h2
      have hn : normal1 k ≠ 0 := by unfold normal1; split_ifs <;> norm_num
      have : p.kx * normal1 k * (ψ' (p.node k) - φ' (p.node k)) = 0 := by linarith
      rw [(mul_eq_zero.1 this).resolve_left (mul_ne_zero hk hn), mul_zero]
  have key := energy_line (w := fun x => ψ x - φ x) (w' := fun x => ψ' x - φ' x) (c := alpha / p.kx) ha h.interval.le
    (fun x hx => (b1 x hx).sub (a1 x hx)) (fun x hx => ((b2 x hx).sub (a2 x hx)).congr_deriv ?_) (hz 0 (by norm_num)) (hz 1 (by norm_num))
  · have hnode : p.node k ∈ Set.Icc p.xmin p.xmax := by
      unfold Problem1.node
      split_ifs
      · exact ⟨le_rfl, h.interval.le⟩
      · exact ⟨h.interval.le, le_rfl⟩
    obtain ⟨f, hff⟩ : ∃ f, p.ebcs.functions[k]? = some f := ⟨_, List.getElem?_eq_getElem (by omega)⟩
    have h0 : ψ (p.node k) - φ (p.node k) = ψ p.xmin - φ p.xmin := key _ hnode
    rw [a4 k hk2 f hess hff, b4 k hk2 f hess hff, sub_self] at h0
    intro x hx
    have : ψ x - φ x = ψ p.xmin - φ p.xmin := key x hx
    linarith
  · have e1 := a3 x hx
    have e2 := b3 x hx
    field_simp
    linarith

theorem and3_of {A B C : Prop} (a : A) (b : B) (c : A → B → C) : A ∧ B ∧ C := ⟨a, b, c a b⟩

/-- derivative of a linear function -/
theorem lin_d (p q s : ℝ) : HasDerivAt (fun s : ℝ => p + q * s) q s := by
  simpa using ((hasDerivAt_id s).const_mul q).const_add p

theorem exp_d {f : ℝ → ℝ} (a p q c s : ℝ) (hf : ∀ s, f s = a * exp (p + q * s)) (hc : c = a * exp (p + q * s) * q) : HasDerivAt f c s := by
  rw [show f = fun s => a * exp (p + q * s) from funext hf, hc]
  have h := ((lin_d p q s).exp).const_mul a
  exact h.congr_deriv (by ring)

theorem cosh_d {f : ℝ → ℝ} (a p q c s : ℝ) (hf : ∀ s, f s = a * cosh (p + q * s)) (hc : c = a * sinh (p + q * s) * q) : HasDerivAt f c s := by
  rw [show f = fun s => a * cosh (p + q * s) from funext hf, hc]
  have h := ((lin_d p q s).cosh).const_mul a
  exact h.congr_deriv (by ring)

theorem sinh_d {f : ℝ → ℝ} (a p q c s : ℝ) (hf : ∀ s, f s = a * sinh (p + q * s)) (hc : c = a * cosh (p + q * s) * q) : HasDerivAt f c s := by
  rw [show f = fun s => a * sinh (p + q * s) from funext hf, hc]
  have h := ((lin_d p q s).sinh).const_mul a
  exact h.congr_deriv (by ring)

/-- **C98 (1D problem 1).** The analytical solution is the only solution, and the flow function is its flow. -/
theorem C98_d1_problem_01 : ∃ p flow, d1Problem01 = ok (p, flow) ∧ p.WellPosed ∧ p.Solution 0 p.analytical ∧
    (∀ φ, p.Solution 0 φ → ∀ x ∈ Set.Icc p.xmin p.xmax, φ x = p.analytical x) ∧ ∀ x, flow x = -p.kx * deriv p.analytical x := by
  have d1 : ∀ x : ℝ, HasDerivAt (fun x : ℝ => (x - x ^ 3) / 6) ((1 - 3 * x ^ 2) / 6) x := fun x => by
    have := ((hasDerivAt_id x).sub (hasDerivAt_pow 3 x)).div_const 6
    exact this.congr_deriv (by norm_num)
  have d2 : ∀ x : ℝ, HasDerivAt (fun x : ℝ => (1 - 3 * x ^ 2) / 6) (-x) x := fun x => by
    have := (((hasDerivAt_pow 2 x).const_mul 3).const_sub 1).div_const 6
    exact this.congr_deriv (by norm_num; ring)
  refine ⟨_, _, rfl, and3_of ⟨rfl, rfl, zero_lt_one⟩ (solution1_of d1 d2 (fun x => ?_) (bcs1 ?_ ?_) (bcs1 ?_ ?_)) fun hw hs =>
    ⟨fun φ hφ => unique1 hw rfl rfl rfl rfl (by norm_num) (by norm_num) (k := 0) (by norm_num) rfl hs hφ, fun x => ?_⟩⟩
  · simp
  · intro _; norm_num [Problem1.node]
  · intro _; norm_num [Problem1.node]
  · intro h; cases h
  · intro h; cases h
  · simp only [(d1 x).deriv]; ring

/-- **C98 (1D problem 2).** The analytical solution is the only solution. -/
theorem C98_d1_problem_02 : ∃ p alpha, d1Problem02 = ok (p, alpha) ∧ p.WellPosed ∧ p.Solution alpha p.analytical ∧
    (∀ φ, p.Solution alpha φ → ∀ x ∈ Set.Icc p.xmin p.xmax, φ x = p.analytical x) := by
  obtain ⟨m, hm⟩ : ∃ m, m = √(2 * π / 0.01571) := ⟨_, rfl⟩
  have hm2 : m * m = 2 * π / 0.01571 := by rw [hm]; exact mul_self_sqrt (by positivity)
  have hm2 : m * m * 0.01571 = 2 * π := by rw [hm2]; norm_num
  have hc : cosh (m * 0.05) ≠ 0 := (cosh_pos _).ne'
  have d1 : ∀ x : ℝ, HasDerivAt (fun x : ℝ => 20 + (320 - 20) * cosh (m * (0.05 - x)) / cosh (m * 0.05))
      (-300 * m * sinh (m * (0.05 - x)) / cosh (m * 0.05)) x := fun x => by
    refine (cosh_d (300 / cosh (m * 0.05)) (m * 0.05) (-m) _ x (fun s => ?_) rfl).const_add 20 |>.congr_deriv ?_
    · rw [show m * (0.05 - s) = m * 0.05 + -m * s by ring]; ring
    · rw [show m * (0.05 - x) = m * 0.05 + -m * x by ring]; ring
  have d2 : ∀ x : ℝ, HasDerivAt (fun x : ℝ => -300 * m * sinh (m * (0.05 - x)) / cosh (m * 0.05))
      (300 * m * m * cosh (m * (0.05 - x)) / cosh (m * 0.05)) x := fun x => by
    refine sinh_d (-300 * m / cosh (m * 0.05)) (m * 0.05) (-m) _ x (fun s => ?_) ?_
    · rw [show m * (0.05 - s) = m * 0.05 + -m * s by ring]; ring
    · rw [show m * (0.05 - x) = m * 0.05 + -m * x by ring]; ring
  rw [hm] at d1 d2
  refine ⟨_, _, rfl, and3_of ⟨rfl, rfl, by norm_num⟩ (solution1_of d1 d2 (fun x => ?_) (bcs1 ?_ ?_) (bcs1 ?_ ?_)) fun hw hs =>
    fun φ hφ => unique1 hw rfl rfl rfl rfl (by norm_num) (by simp only; positivity) (k := 0) (by norm_num) rfl hs hφ⟩
  · simp only
    rw [← hm]
    linear_combination (-300 * cosh (m * (0.05 - x)) / cosh (m * 0.05)) * hm2
  · intro _
    simp only [Problem1.node, if_pos, ← hm, sub_zero]
    field_simp
    norm_num
  · intro h; cases h
  · intro h; cases h
  · intro _
    simp [Problem1.node, normal1]

/-- **C98 (1D problem 3).** The analytical solution is the only solution. -/
theorem C98_d1_problem_03 : ∃ p alpha, d1Problem03 = ok (p, alpha) ∧ p.WellPosed ∧ p.Solution alpha p.analytical ∧
    (∀ φ, p.Solution alpha φ → ∀ x ∈ Set.Icc p.xmin p.xmax, φ x = p.analytical x) := by
  have hc : cosh 1 ≠ 0 := (cosh_pos _).ne'
  have d1 : ∀ x : ℝ, HasDerivAt (fun x : ℝ => sinh x / cosh 1 + x * x + 2) (cosh x / cosh 1 + 2 * x) x := fun x =>
    ((((hasDerivAt_sinh x).div_const (cosh 1)).add ((hasDerivAt_id x).mul (hasDerivAt_id x))).add_const 2).congr_deriv (by simp; ring)
  have d2 : ∀ x : ℝ, HasDerivAt (fun x : ℝ => cosh x / cosh 1 + 2 * x) (sinh x / cosh 1 + 2) x := fun x =>
    ((((hasDerivAt_cosh x).div_const (cosh 1)).add ((hasDerivAt_id x).const_mul 2))).congr_deriv (by simp)
  refine ⟨_, _, rfl, and3_of ⟨rfl, rfl, by norm_num⟩ (solution1_of d1 d2 (fun x => ?_) (bcs1 ?_ ?_) (bcs1 ?_ ?_)) fun hw hs =>
    fun φ hφ => unique1 hw rfl rfl rfl rfl (by norm_num) (by norm_num) (k := 0) (by norm_num) rfl hs hφ⟩
  · simp; ring
  · intro _; simp [Problem1.node]
  · intro h; cases h
  · intro h; cases h
  · intro _
    simp only [Problem1.node, normal1]
    norm_num [hc]

/-- **C98 (1D problem 4a).** The analytical solution is the only solution. -/
theorem C98_d1_problem_04a : ∃ p, d1Problem04a = ok p ∧ p.WellPosed ∧ p.Solution 0 p.analytical ∧
    (∀ φ, p.Solution 0 φ → ∀ x ∈ Set.Icc p.xmin p.xmax, φ x = p.analytical x) := by
  have d1 : ∀ x : ℝ, HasDerivAt (fun x : ℝ => (exp (4 * x) - sinh 4 * x - cosh 4) / 16) ((4 * exp (4 * x) - sinh 4) / 16) x := fun x => by
    have := ((((exp_d (f := fun x => exp (4 * x)) 1 0 4 _ x (fun s => by simp) rfl).sub ((hasDerivAt_id x).const_mul (sinh 4))).sub_const (cosh 4)).div_const 16)
    exact this.congr_deriv (by simp; ring)
  have d2 : ∀ x : ℝ, HasDerivAt (fun x : ℝ => (4 * exp (4 * x) - sinh 4) / 16) (exp (4 * x)) x := fun x => by
    have := ((((exp_d (f := fun x => 4 * exp (4 * x)) 4 0 4 _ x (fun s => by simp) rfl).sub_const (sinh 4))).div_const 16)
    exact this.congr_deriv (by simp; ring)
  refine ⟨_, rfl, and3_of ⟨rfl, rfl, by norm_num⟩ (solution1_of d1 d2 (fun x => ?_) (bcs1 ?_ ?_) (bcs1 ?_ ?_)) fun hw hs =>
    fun φ hφ => unique1 hw rfl rfl rfl rfl (by norm_num) (by norm_num) (k := 0) (by norm_num) rfl hs hφ⟩
  · simp
  · intro _
    simp only [Problem1.node, if_pos]
    rw [sinh_eq, cosh_eq]
    norm_num
    ring
  · intro _
    simp only [Problem1.node]
    rw [sinh_eq, cosh_eq]
    norm_num
    ring
  · intro h; cases h
  · intro h; cases h

/-- **C98 (1D problem 4b).** The analytical solution is the only solution. -/
theorem C98_d1_problem_04b : ∃ p, d1Problem04b = ok p ∧ p.WellPosed ∧ p.Solution 0 p.analytical ∧
    (∀ φ, p.Solution 0 φ → ∀ x ∈ Set.Icc p.xmin p.xmax, φ x = p.analytical x) := by
  have d1 : ∀ x : ℝ, HasDerivAt (fun x : ℝ => (exp (4 * x) - 4 * exp (-4) * (x - 1) - exp 4) / 16) ((4 * exp (4 * x) - 4 * exp (-4)) / 16) x := fun x => by
    have := ((((exp_d (f := fun x => exp (4 * x)) 1 0 4 _ x (fun s => by simp) rfl).sub (((hasDerivAt_id x).sub_const 1).const_mul (4 * exp (-4)))).sub_const (exp 4)).div_const 16)
    exact this.congr_deriv (by simp; ring)
  have d2 : ∀ x : ℝ, HasDerivAt (fun x : ℝ => (4 * exp (4 * x) - 4 * exp (-4)) / 16) (exp (4 * x)) x := fun x => by
    have := ((((exp_d (f := fun x => 4 * exp (4 * x)) 4 0 4 _ x (fun s => by simp) rfl).sub_const (4 * exp (-4)))).div_const 16)
    exact this.congr_deriv (by simp; ring)
  refine ⟨_, rfl, and3_of ⟨rfl, rfl, by norm_num⟩ (solution1_of d1 d2 (fun x => ?_) (bcs1 ?_ ?_) (bcs1 ?_ ?_)) fun hw hs =>
    fun φ hφ => unique1 hw rfl rfl rfl rfl (by norm_num) (by norm_num) (k := 1) (by norm_num) rfl hs hφ⟩
  · simp
  · intro h; cases h
  · intro _
    norm_num [Problem1.node]
  · intro _
    norm_num [Problem1.node, normal1]
  · intro h; cases h

/-- **C98 (1D problem 5).** The analytical solution solves the Helmholtz equation with `alpha = β²`, it is the only solution, and the flow
function is its flow, provided that `β` and `cos(β L)` do not vanish. -/
theorem C98_d1_problem_05 {beta ll g0 phi_ll : ℝ} (hβ : beta ≠ 0) (hL : 0 < ll) (hc : cos (beta * ll) ≠ 0) :
    ∃ p flow, d1Problem05 beta ll g0 phi_ll = ok (p, flow) ∧ p.WellPosed ∧ p.Solution (beta ^ 2) p.analytical ∧
    (∀ φ, p.Solution (beta ^ 2) φ → ∀ x ∈ Set.Icc p.xmin p.xmax, φ x = p.analytical x) ∧ ∀ x, flow x = -p.kx * deriv p.analytical x := by
  obtain ⟨c1, hc1⟩ : ∃ c, c = g0 / beta := ⟨_, rfl⟩
  obtain ⟨c2, hc2⟩ : ∃ c, c = (phi_ll - c1 * sin (beta * ll)) / cos (beta * ll) := ⟨_, rfl⟩
  have d1 : ∀ x : ℝ, HasDerivAt (fun x : ℝ => c1 * sin (beta * x) + c2 * cos (beta * x)) (c1 * beta * cos (beta * x) - c2 * beta * sin (beta * x)) x :=
    fun x => ((sin_d (f := fun x => c1 * sin (beta * x)) c1 0 beta _ x (fun s => by simp) rfl).add
      (cos_d (f := fun x => c2 * cos (beta * x)) c2 0 beta _ x (fun s => by simp) rfl)).congr_deriv (by simp; ring)
  have d2 : ∀ x : ℝ, HasDerivAt (fun x : ℝ => c1 * beta * cos (beta * x) - c2 * beta * sin (beta * x))
      (-beta ^ 2 * (c1 * sin (beta * x) + c2 * cos (beta * x))) x :=
    fun x => ((cos_d (f := fun x => c1 * beta * cos (beta * x)) (c1 * beta) 0 beta _ x (fun s => by simp) rfl).sub
      (sin_d (f := fun x => c2 * beta * sin (beta * x)) (c2 * beta) 0 beta _ x (fun s => by simp) rfl)).congr_deriv (by simp; ring)
  rw [hc2, hc1] at d1 d2
  refine ⟨_, _, rfl, and3_of ⟨rfl, rfl, hL⟩ (solution1_of d1 d2 (fun x => ?_) (bcs1 ?_ ?_) (bcs1 ?_ ?_)) fun hw hs => ⟨?_, fun x => ?_⟩⟩
  · simp only; ring
  · intro h; cases h
  · intro _
    simp only [Problem1.node]
    norm_num
    field_simp
    ring
  · intro _
    simp only [Problem1.node, normal1]
    norm_num
    field_simp
  · intro h; cases h
  · rintro φ ⟨φ', φ'', b1, b2, b3, b4, b5⟩ x hx
    simp only at b1 b2 b3 hx ⊢
    have q1 : φ ll = phi_ll := b4 1 (by norm_num) (fun _ => phi_ll) rfl rfl
    have q0 : φ' 0 = g0 := by
      have := b5 0 (by norm_num) (fun _ => -g0) rfl rfl
      simp only [Problem1.node, normal1, if_pos] at this
      linarith
    have ds : ∀ x, HasDerivAt (fun x => sin (beta * x)) (cos (beta * x) * beta) x := fun x =>
      sin_d 1 0 beta _ x (fun s => by simp) (by simp)
    have dc : ∀ x, HasDerivAt (fun x => cos (beta * x)) (-sin (beta * x) * beta) x := fun x =>
      cos_d 1 0 beta _ x (fun s => by simp) (by simp)
    have const : ∀ f : ℝ → ℝ, (∀ x ∈ Set.Icc 0 ll, HasDerivWithinAt f 0 (Set.Icc 0 ll) x) → ∀ x ∈ Set.Icc 0 ll, f x = f 0 :=
      fun f hf => constant_of_derivWithin_zero (fun x hx => (hf x hx).differentiableWithinAt) fun x hx =>
        (hf x ⟨hx.1, hx.2.le⟩).derivWithin (uniqueDiffOn_Icc hL x ⟨hx.1, hx.2.le⟩)
    have e1 := const (fun x => φ' x * cos (beta * x) + beta * (φ x * sin (beta * x))) fun x hx =>
      (((b2 x hx).mul (dc x).hasDerivWithinAt).add (((b1 x hx).mul (ds x).hasDerivWithinAt).const_mul beta)).congr_deriv (by
        have := b3 x hx
        linear_combination cos (beta * x) * this)
    have e2 := const (fun x => φ' x * sin (beta * x) - beta * (φ x * cos (beta * x))) fun x hx =>
      (((b2 x hx).mul (ds x).hasDerivWithinAt).sub (((b1 x hx).mul (dc x).hasDerivWithinAt).const_mul beta)).congr_deriv (by
        have := b3 x hx
        linear_combination sin (beta * x) * this)
    simp only [mul_zero, cos_zero, sin_zero, mul_one, add_zero, zero_sub] at e1 e2
    have L0 : ll ∈ Set.Icc 0 ll := ⟨hL.le, le_rfl⟩
    have a1 := e1 ll L0
    have a2 := e2 ll L0
    have a3 := e1 x hx
    have a4 := e2 x hx
    rw [q1, q0] at a1
    rw [q1] at a2
    rw [q0] at a3
    have sc := sin_sq_add_cos_sq (beta * x)
    have sl := sin_sq_add_cos_sq (beta * ll)
    have p0 : φ 0 * beta * cos (beta * ll) = beta * phi_ll - g0 * sin (beta * ll) := by
      linear_combination cos (beta * ll) * a2 - sin (beta * ll) * a1 + beta * phi_ll * sl
    have px : beta * φ x = g0 * sin (beta * x) + beta * φ 0 * cos (beta * x) := by
      linear_combination (-cos (beta * x)) * a4 + sin (beta * x) * a3 - beta * φ x * sc
    field_simp
    linear_combination (cos (beta * ll)) * px + cos (beta * x) * p0
  · simp only [(d1 x).deriv]
    have : cos (beta * (ll - x)) = cos (beta * ll) * cos (beta * x) + sin (beta * ll) * sin (beta * x) := by
      rw [mul_sub, cos_sub]
    rw [this]
    field_simp
    ring

/-- the hypotheses hold for the parameters of the documentation, say -/
example : ∃ beta ll : ℝ, beta ≠ 0 ∧ 0 < ll ∧ cos (beta * ll) ≠ 0 := ⟨π, 1, pi_ne_zero, one_pos, by simp⟩

end

end Russell.Pde
