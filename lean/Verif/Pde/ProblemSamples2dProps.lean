import Verif.Pde.ProblemSamples2d

/-!
# Sample problems on rectangles: problems 1-3 and 5-7 (C98)
-/

namespace Russell.Pde

open Russell Russell.Res Real ProblemSamples

noncomputable section

/-- a product of functions of one variable each -/
theorem partials_mul {f f' f'' g g' g'' : ℝ → ℝ} (h1 : ∀ x, HasDerivAt f (f' x) x) (h2 : ∀ x, HasDerivAt f' (f'' x) x)
    (k1 : ∀ x, HasDerivAt g (g' x) x) (k2 : ∀ x, HasDerivAt g' (g'' x) x) {φ : ℝ → ℝ → ℝ} (h : ∀ x y, φ x y = f x * g y) :
    Partials φ (fun x y => f' x * g y) (fun x y => f x * g' y) (fun x y => f'' x * g y) (fun x y => f x * g'' y) := by
  have e : φ = fun x y => f x * g y := funext fun x => funext fun y => h x y
  subst e
  refine ⟨fun x y => (h1 x).mul_const _, fun x y => (k1 y).const_mul _, fun x y => (h2 x).mul_const _, fun x y => (k2 y).const_mul _, ?_⟩
  have c1 : Continuous f := continuous_iff_continuousAt.2 fun x => (h1 x).continuousAt
  have c2 : Continuous g := continuous_iff_continuousAt.2 fun x => (k1 x).continuousAt
  exact (c1.comp continuous_fst).mul (c2.comp continuous_snd)

theorem sin_pi_int (n : ℤ) (x : ℝ) (h : x = n * π) : sin x = 0 := by rw [h, sin_int_mul_pi]

/-- the derivatives of `x (x - 1) exp x` and `y (y - 1) exp (-y)` -/
theorem p1x (x : ℝ) : HasDerivAt (fun x : ℝ => x * (x - 1) * exp x) ((x * x + x - 1) * exp x) x :=
  (((hasDerivAt_id x).mul ((hasDerivAt_id x).sub_const 1)).mul (hasDerivAt_exp x)).congr_deriv (by simp; ring)
theorem p1xx (x : ℝ) : HasDerivAt (fun x : ℝ => (x * x + x - 1) * exp x) ((x * x + 3 * x) * exp x) x :=
  (((((hasDerivAt_id x).mul (hasDerivAt_id x)).add (hasDerivAt_id x)).sub_const 1).mul (hasDerivAt_exp x)).congr_deriv (by simp; ring)
theorem expn (y : ℝ) : HasDerivAt (fun y : ℝ => exp (-y)) (-exp (-y)) y := by
  simpa using (hasDerivAt_neg y).exp
theorem p1y (y : ℝ) : HasDerivAt (fun y : ℝ => y * (y - 1) * exp (-y)) ((-(y * y) + 3 * y - 1) * exp (-y)) y :=
  (((hasDerivAt_id y).mul ((hasDerivAt_id y).sub_const 1)).mul (expn y)).congr_deriv (by simp; ring)
theorem p1yy (y : ℝ) : HasDerivAt (fun y : ℝ => (-(y * y) + 3 * y - 1) * exp (-y)) ((y * y - 5 * y + 4) * exp (-y)) y :=
  ((((((hasDerivAt_id y).mul (hasDerivAt_id y)).neg).add ((hasDerivAt_id y).const_mul 3)).sub_const 1).mul (expn y)).congr_deriv (by simp; ring)

/-- the partial derivatives of the analytical solution are the flow -/
def Problem2.IsFlow (p : Problem2) (flow : ℝ → ℝ → ℝ × ℝ) : Prop :=
  ∀ x y, flow x y = (-p.kx * dx p.analytical x y, -p.ky * dy p.analytical x y)

/-- **C98 (2D problem 1).** In both cases the analytical solution is the only solution, and the flow function is its flow. -/
theorem C98_d2_problem_01 (case_a : Bool) : ∃ p flow, d2Problem01 case_a = ok (p, flow) ∧ p.WellPosed ∧ p.Solution 0 p.analytical ∧
    (∀ φ, p.Solution 0 φ → ∀ x y, (x, y) ∈ p.domain → φ x y = p.analytical x y) ∧ p.IsFlow flow := by
  have hP := partials_mul (φ := fun x y => x * y * (x - 1) * (y - 1) * exp (x - y)) p1x p1xx p1y p1yy fun x y => by
    rw [sub_eq_add_neg x y, exp_add]; ring
  have hS : ∀ x y : ℝ, -1 * ((x * x + 3 * x) * exp x * (y * (y - 1) * exp (-y))) - 1 * (x * (x - 1) * exp x * ((y * y - 5 * y + 4) * exp (-y))) +
      0 * (x * y * (x - 1) * (y - 1) * exp (x - y)) = 2 * x * (1 - y) * (y - 2 * x + x * y + 2) * exp (x - y) := by
    intro x y
    rw [sub_eq_add_neg x y, exp_add]
    ring
  have hF : ∀ x y : ℝ, (-1 * exp (x - y) * (x * x + x - 1) * (y - 1) * y, -1 * exp (x - y) * (y * y - 3 * y + 1) * (1 - x) * x) =
      (-1 * dx (fun x y => x * y * (x - 1) * (y - 1) * exp (x - y)) x y, -1 * dy (fun x y => x * y * (x - 1) * (y - 1) * exp (x - y)) x y) := by
    intro x y
    rw [hP.dx_eq, hP.dy_eq]
    simp only [sub_eq_add_neg x y, exp_add]
    ext <;> simp only <;> ring
  cases case_a
  · refine ⟨_, _, rfl, and3_of ⟨rfl, rfl, rfl, zero_lt_one, zero_lt_one⟩ ⟨hP.equation hS, bcs4 ?_ ?_ ?_ ?_, bcs4 ?_ ?_ ?_ ?_⟩ fun hw hs =>
      ⟨fun φ hφ => unique2 hw ⟨rfl, rfl, rfl, rfl⟩ rfl one_ne_zero (by simp) (a := 1) (b := 1) (c := 1) (d := 1) ⟨?_, ?_, ?_, ?_, ?_⟩ hs hφ, hF⟩⟩
    · intro h; cases h
    · rintro _ x y ⟨rfl, _⟩; simp
    · intro h; cases h
    · rintro _ x y ⟨rfl, _⟩; simp
    · rintro _ x y ⟨rfl, _⟩
      refine hP.flow0 ?_
      simp
      ring
    · intro h; cases h
    · rintro _ x y ⟨rfl, _⟩
      refine hP.flow2 ?_
      simp
      ring
    · intro h; cases h
    · norm_num
    · intro _; norm_num
    · intro h; cases h
    · intro _; norm_num
    · intro h; cases h
  · refine ⟨_, _, rfl, and3_of ⟨rfl, rfl, rfl, zero_lt_one, zero_lt_one⟩ ⟨hP.equation hS, bcs4 ?_ ?_ ?_ ?_, bcs4 ?_ ?_ ?_ ?_⟩ fun hw hs =>
      ⟨fun φ hφ => unique2 hw ⟨rfl, rfl, rfl, rfl⟩ rfl one_ne_zero (by simp) (a := 1) (b := 1) (c := 1) (d := 1) ⟨?_, ?_, ?_, ?_, ?_⟩ hs hφ, hF⟩⟩
    · rintro _ x y ⟨rfl, _⟩; simp
    · rintro _ x y ⟨rfl, _⟩; simp
    · rintro _ x y ⟨rfl, _⟩; simp
    · rintro _ x y ⟨rfl, _⟩; simp
    all_goals first | (intro h; cases h; done) | (intro _; norm_num; done) | (norm_num; done)

/-- **C98 (2D problem 2).** The analytical solution is the only solution. -/
theorem C98_d2_problem_02 : ∃ p, d2Problem02 = ok p ∧ p.WellPosed ∧ p.Solution 0 p.analytical ∧
    (∀ φ, p.Solution 0 φ → ∀ x y, (x, y) ∈ p.domain → φ x y = p.analytical x y) := by
  have s1 : ∀ x : ℝ, HasDerivAt (fun x => sin (π * x)) (π * cos (π * x)) x := fun x =>
    sin_d 1 0 π _ x (fun s => by simp) (by simp; ring)
  have s2 : ∀ x : ℝ, HasDerivAt (fun x => π * cos (π * x)) (-π * π * sin (π * x)) x := fun x =>
    cos_d π 0 π _ x (fun s => by simp) (by simp; ring)
  have hP := partials_mul (φ := fun x y => y * sin (π * x)) s1 s2 hasDerivAt_id (fun y => hasDerivAt_const y 1) fun x y => by simp; ring
  refine ⟨_, rfl, and3_of ⟨rfl, rfl, rfl, zero_lt_one, zero_lt_one⟩ ⟨hP.equation ?_, bcs4 ?_ ?_ ?_ ?_, bcs4 ?_ ?_ ?_ ?_⟩ fun hw hs =>
    fun φ hφ => unique2 hw ⟨rfl, rfl, rfl, rfl⟩ rfl (by norm_num) (by simp) (a := 1) (b := 1) (c := 1) (d := 1) ⟨?_, ?_, ?_, ?_, ?_⟩ hs hφ⟩
  · intro x y
    simp
    ring
  · rintro _ x y ⟨rfl, _⟩; simp
  · rintro _ x y ⟨rfl, _⟩; simp
  · rintro _ x y ⟨rfl, _⟩; simp
  · rintro _ x y ⟨rfl, _⟩; simp
  all_goals first | (intro h; cases h; done) | (intro _; norm_num; done) | (norm_num; done)

/-- **C98 (2D problem 5).** The analytical solution is the only solution. -/
theorem C98_d2_problem_05 : ∃ p, d2Problem05 = ok p ∧ p.WellPosed ∧ p.Solution 0 p.analytical ∧
    (∀ φ, p.Solution 0 φ → ∀ x y, (x, y) ∈ p.domain → φ x y = p.analytical x y) := by
  have s1 : ∀ x : ℝ, HasDerivAt (fun x => 1 + x ^ 3) (3 * x ^ 2) x := fun x => by simpa using (hasDerivAt_pow 3 x).const_add 1
  have s2 : ∀ x : ℝ, HasDerivAt (fun x => 3 * x ^ 2) (6 * x) x := fun x => ((hasDerivAt_pow 2 x).const_mul 3).congr_deriv (by simp; ring)
  have hP := partials_mul (φ := fun x _ => 1 + x ^ 3) s1 s2 (fun y => hasDerivAt_const y 1) (fun y => hasDerivAt_const y 0) fun x y => by simp
  refine ⟨_, rfl, and3_of ⟨rfl, rfl, rfl, by norm_num, by norm_num⟩ ⟨hP.equation ?_, bcs4 ?_ ?_ ?_ ?_, bcs4 ?_ ?_ ?_ ?_⟩ fun hw hs =>
    fun φ hφ => unique2 hw ⟨rfl, rfl, rfl, rfl⟩ rfl (by norm_num) (by simp) (a := 2) (b := 0) (c := -1) (d := 0) ⟨?_, ?_, ?_, ?_, ?_⟩ hs hφ⟩
  · intro x y
    simp
  · rintro _ x y ⟨rfl, _⟩; norm_num
  · rintro _ x y ⟨rfl, _⟩; norm_num
  · intro h; cases h
  · intro h; cases h
  · intro h; cases h
  · intro h; cases h
  · rintro _ x y ⟨rfl, _⟩; exact hP.flow2 (by simp)
  · rintro _ x y ⟨rfl, _⟩; exact hP.flow3 (by simp)
  all_goals first | (intro h; cases h; done) | (intro _; norm_num; done) | (norm_num; done)

theorem tanh_d {f : ℝ → ℝ} (p q s c : ℝ) (hf : ∀ s, f s = tanh (p + q * s)) (hc : c = q / cosh (p + q * s) ^ 2) : HasDerivAt f c s := by
  have e : f = fun s => sinh (p + q * s) / cosh (p + q * s) := funext fun s => by rw [hf s, tanh_eq_sinh_div_cosh]
  have hn : cosh (p + q * s) ≠ 0 := (cosh_pos _).ne'
  have hs := (lin_d p q s).sinh
  have hc' := (lin_d p q s).cosh
  rw [e, hc]
  refine (hs.div hc' hn).congr_deriv ?_
  have := cosh_sq (p + q * s)
  field_simp
  linear_combination q * this

theorem sech2_d {f : ℝ → ℝ} (k p q s c : ℝ) (hf : ∀ s, f s = k / cosh (p + q * s) ^ 2) (hc : c = -2 * k * q * tanh (p + q * s) / cosh (p + q * s) ^ 2) :
    HasDerivAt f c s := by
  have e : f = fun s => k / cosh (p + q * s) ^ 2 := funext hf
  have hn : cosh (p + q * s) ≠ 0 := (cosh_pos _).ne'
  have hc' := ((lin_d p q s).cosh).pow 2
  rw [e, hc, tanh_eq_sinh_div_cosh]
  refine ((hasDerivAt_const s k).div hc' (pow_ne_zero 2 hn)).congr_deriv ?_
  simp only [Nat.cast_ofNat, Nat.add_one_sub_one, pow_one, zero_mul, zero_sub, Pi.pow_apply]
  field_simp

/-- **C98 (2D problem 6).** The analytical solution is the only solution. -/
theorem C98_d2_problem_06 : ∃ p, d2Problem06 = ok p ∧ p.WellPosed ∧ p.Solution 0 p.analytical ∧
    (∀ φ, p.Solution 0 φ → ∀ x y, (x, y) ∈ p.domain → φ x y = p.analytical x y) := by
  have hP : Partials (fun x y => tanh (1 - x + y)) (fun x y => -1 / cosh (1 - x + y) ^ 2) (fun x y => 1 / cosh (1 - x + y) ^ 2)
      (fun x y => -2 * tanh (1 - x + y) / cosh (1 - x + y) ^ 2) (fun x y => -2 * tanh (1 - x + y) / cosh (1 - x + y) ^ 2) := by
    have ex : ∀ x y : ℝ, 1 - x + y = 1 + y + -1 * x := fun x y => by ring
    have ey : ∀ x y : ℝ, 1 - x + y = 1 - x + 1 * y := fun x y => by ring
    refine ⟨fun x y => ?_, fun x y => ?_, fun x y => ?_, fun x y => ?_, ?_⟩
    · exact tanh_d (1 + y) (-1) x _ (fun s => by rw [ex]) (by rw [ex])
    · exact tanh_d (1 - x) 1 y _ (fun s => by rw [ey]) (by rw [ey])
    · exact sech2_d (-1) (1 + y) (-1) x _ (fun s => by rw [ex]) (by rw [ex]; ring)
    · exact sech2_d 1 (1 - x) 1 y _ (fun s => by rw [ey]) (by rw [ey]; ring)
    · have : (fun q : ℝ × ℝ => tanh (1 - q.1 + q.2)) = fun q => sinh (1 - q.1 + q.2) / cosh (1 - q.1 + q.2) :=
        funext fun q => tanh_eq_sinh_div_cosh _
      rw [this]
      exact (continuous_sinh.comp (by fun_prop)).div (continuous_cosh.comp (by fun_prop)) fun q => (cosh_pos _).ne'
  refine ⟨_, rfl, and3_of ⟨rfl, rfl, rfl, by norm_num, by norm_num⟩ ⟨hP.equation ?_, bcs4 ?_ ?_ ?_ ?_, bcs4 ?_ ?_ ?_ ?_⟩ fun hw hs =>
    fun φ hφ => unique2 hw ⟨rfl, rfl, rfl, rfl⟩ rfl (by norm_num) (by simp) (a := 1) (b := -3) (c := 1) (d := 0) ⟨?_, ?_, ?_, ?_, ?_⟩ hs hφ⟩
  · intro x y
    simp only
    ring
  · rintro _ x y ⟨rfl, _⟩; norm_num
  · intro h; cases h
  · rintro _ x y ⟨rfl, _⟩
    have e : tanh (1 - x + -1) = -tanh x := by rw [show 1 - x + -1 = -x by ring, tanh_neg]
    exact e
  · rintro _ x y ⟨rfl, _⟩
    have e : tanh (1 - x + 1) = tanh (2 - x) := by rw [show 1 - x + 1 = 2 - x by ring]
    exact e
  · intro h; cases h
  · rintro _ x y ⟨rfl, _⟩; exact hP.flow1 (by
    show 1 / cosh y ^ 2 = -1 * (-1 / cosh (1 - 1 + y) ^ 2)
    rw [sub_self, zero_add]; ring)
  · intro h; cases h
  · intro h; cases h
  all_goals first | (intro h; cases h; done) | (intro _; norm_num; done) | (norm_num; done)

theorem trig_x (a b : ℝ) : (∀ x : ℝ, HasDerivAt (fun x => a * sin (b * x)) (a * b * cos (b * x)) x) ∧
    ∀ x : ℝ, HasDerivAt (fun x => a * cos (b * x)) (-(a * b) * sin (b * x)) x :=
  ⟨fun x => sin_d a 0 b _ x (fun s => by simp) (by simp; ring), fun x => cos_d a 0 b _ x (fun s => by simp) (by simp; ring)⟩

/-- **C98 (2D problem 7).** The analytical solution is the only solution. -/
theorem C98_d2_problem_07 : ∃ p, d2Problem07 = ok p ∧ p.WellPosed ∧ p.Solution 0 p.analytical ∧
    (∀ φ, p.Solution 0 φ → ∀ x y, (x, y) ∈ p.domain → φ x y = p.analytical x y) := by
  have hP := partials_mul (φ := fun x y => cos (2 * π * x) * sin (2 * π * y)) (trig_x 1 (2 * π)).2 (trig_x _ (2 * π)).1 (trig_x 1 (2 * π)).1
    (trig_x _ (2 * π)).2 fun x y => by simp
  refine ⟨_, rfl, and3_of ⟨rfl, rfl, rfl, by norm_num, by norm_num⟩ ⟨hP.equation ?_, bcs4 ?_ ?_ ?_ ?_, bcs4 ?_ ?_ ?_ ?_⟩ fun hw hs =>
    fun φ hφ => unique2 hw ⟨rfl, rfl, rfl, rfl⟩ rfl (by norm_num) (by simp) (a := 1) (b := 1) (c := 1) (d := 1) ⟨?_, ?_, ?_, ?_, ?_⟩ hs hφ⟩
  · intro x y
    simp only
    ring
  · rintro _ x y ⟨rfl, _⟩; simp
  · rintro _ x y ⟨rfl, _⟩; simp
  · rintro _ x y ⟨rfl, _⟩; simp
  · rintro _ x y ⟨rfl, _⟩; simp
  all_goals first | (intro h; cases h; done) | (intro _; norm_num; done) | (norm_num; done)

/-- the claim about a keyword of problem 3 -/
def Keyword (k alpha : ℝ) (bc : List Char) : Prop :=
  ∃ p flow, d2Problem03 k alpha bc = ok (p, flow) ∧ p.WellPosed ∧ p.Solution alpha p.analytical ∧
    (k ≠ 0 → 0 ≤ alpha / k → ∀ φ, p.Solution alpha φ → ∀ x y, (x, y) ∈ p.domain → φ x y = p.analytical x y) ∧ p.IsFlow flow ∧
    p.kx = k ∧ p.ky = k ∧
    p.ebcs.sides = [decide (bc[2]? = some 'D'), decide (bc[0]? = some 'D'), decide (bc[3]? = some 'D'), decide (bc[1]? = some 'D')]

theorem p3 : Partials (fun x y => sin (2 * π * x) * cos (2 * π * y)) (fun x y => 2 * π * cos (2 * π * x) * cos (2 * π * y))
    (fun x y => -(2 * π) * sin (2 * π * x) * sin (2 * π * y)) (fun x y => -(2 * π) * (2 * π) * sin (2 * π * x) * cos (2 * π * y))
    (fun x y => -(2 * π) * (2 * π) * sin (2 * π * x) * cos (2 * π * y)) := by
  have := partials_mul (φ := fun x y => sin (2 * π * x) * cos (2 * π * y)) (trig_x 1 (2 * π)).1 (trig_x _ (2 * π)).2 (trig_x 1 (2 * π)).2
    (trig_x _ (2 * π)).1 fun x y => by simp
  convert this using 3 <;> ring

theorem p3_source (k alpha x y : ℝ) : -k * (-(2 * π) * (2 * π) * sin (2 * π * x) * cos (2 * π * y)) -
    k * (-(2 * π) * (2 * π) * sin (2 * π * x) * cos (2 * π * y)) + alpha * (sin (2 * π * x) * cos (2 * π * y)) =
    (8 * k * π * π + alpha) * sin (2 * π * x) * cos (2 * π * y) := by ring

theorem p3_flow (k x y : ℝ) : (-k * 2 * π * cos (2 * π * x) * cos (2 * π * y), -k * 2 * π * sin (2 * π * x) * sin (2 * π * y) * (-1)) =
    (-k * dx (fun x y => sin (2 * π * x) * cos (2 * π * y)) x y, -k * dy (fun x y => sin (2 * π * x) * cos (2 * π * y)) x y) := by
  rw [p3.dx_eq, p3.dy_eq]
  ext <;> simp only <;> ring

theorem p3_e0 (y : ℝ) : sin (2 * π * 0) * cos (2 * π * y) = 0 := by simp
theorem p3_e1 (y : ℝ) : sin (2 * π * 1) * cos (2 * π * y) = 0 := by simp
theorem p3_e2 (x : ℝ) : sin (2 * π * x) * cos (2 * π * 0) = sin (2 * π * x) := by simp
theorem p3_e3 (x : ℝ) : sin (2 * π * x) * cos (2 * π * 1) = sin (2 * π * x) := by simp
theorem p3_n0 (k y : ℝ) : -k * (-2) * π * cos (2 * π * y) = -k * (2 * π * cos (2 * π * 0) * cos (2 * π * y)) * (-1) := by
  rw [mul_zero, cos_zero]; ring
theorem p3_n1 (k y : ℝ) : -k * 2 * π * cos (2 * π * y) = -k * (2 * π * cos (2 * π * 1) * cos (2 * π * y)) := by
  rw [mul_one, cos_two_pi]; ring
theorem p3_n2 (k x : ℝ) : 0 = -k * (-(2 * π) * sin (2 * π * x) * sin (2 * π * 0)) * (-1) := by simp
theorem p3_n3 (k x : ℝ) : 0 = -k * (-(2 * π) * sin (2 * π * x) * sin (2 * π * 1)) := by simp

theorem keyword_NNDD (k alpha : ℝ) : Keyword k alpha "NNDD".toList := by
  refine ⟨_, _, rfl, and3_of ⟨rfl, rfl, rfl, zero_lt_one, zero_lt_one⟩ ⟨p3.equation (p3_source k alpha), bcs4
    (fun _ x y h => by obtain ⟨rfl, _⟩ := h; exact p3_e0 y) (fun h => by cases h)
    (fun _ x y h => by obtain ⟨rfl, _⟩ := h; exact p3_e2 x) (fun h => by cases h), bcs4
    (fun h => by cases h) (fun _ x y h => by obtain ⟨rfl, _⟩ := h; exact p3.flow1 (p3_n1 k y))
    (fun h => by cases h) (fun _ x y h => by obtain ⟨rfl, _⟩ := h; exact p3.flow3 (p3_n3 k x))⟩ fun hw hs =>
    ⟨fun hk ha φ hφ => unique2 hw ⟨rfl, rfl, rfl, rfl⟩ rfl hk ha (a := 1) (b := -3) (c := 1) (d := -3)
      ⟨by norm_num, (fun h => by cases h), (fun _ => by norm_num), (fun h => by cases h), (fun _ => by norm_num)⟩ hs hφ, p3_flow k, rfl, rfl, rfl⟩⟩

theorem keyword_NDND (k alpha : ℝ) : Keyword k alpha "NDND".toList := by
  refine ⟨_, _, rfl, and3_of ⟨rfl, rfl, rfl, zero_lt_one, zero_lt_one⟩ ⟨p3.equation (p3_source k alpha), bcs4
    (fun h => by cases h) (fun h => by cases h)
    (fun _ x y h => by obtain ⟨rfl, _⟩ := h; exact p3_e2 x) (fun _ x y h => by obtain ⟨rfl, _⟩ := h; exact p3_e3 x), bcs4
    (fun _ x y h => by obtain ⟨rfl, _⟩ := h; exact p3.flow0 (p3_n0 k y)) (fun _ x y h => by obtain ⟨rfl, _⟩ := h; exact p3.flow1 (p3_n1 k y))
    (fun h => by cases h) (fun h => by cases h)⟩ fun hw hs =>
    ⟨fun hk ha φ hφ => unique2 hw ⟨rfl, rfl, rfl, rfl⟩ rfl hk ha (a := -1) (b := 1) (c := 2) (d := 0)
      ⟨by norm_num, (fun _ => by norm_num), (fun _ => by norm_num), (fun h => by cases h), (fun h => by cases h)⟩ hs hφ, p3_flow k, rfl, rfl, rfl⟩⟩

theorem keyword_DNND (k alpha : ℝ) : Keyword k alpha "DNND".toList := by
  refine ⟨_, _, rfl, and3_of ⟨rfl, rfl, rfl, zero_lt_one, zero_lt_one⟩ ⟨p3.equation (p3_source k alpha), bcs4
    (fun h => by cases h) (fun _ x y h => by obtain ⟨rfl, _⟩ := h; exact p3_e1 y)
    (fun _ x y h => by obtain ⟨rfl, _⟩ := h; exact p3_e2 x) (fun h => by cases h), bcs4
    (fun _ x y h => by obtain ⟨rfl, _⟩ := h; exact p3.flow0 (p3_n0 k y)) (fun h => by cases h)
    (fun h => by cases h) (fun _ x y h => by obtain ⟨rfl, _⟩ := h; exact p3.flow3 (p3_n3 k x))⟩ fun hw hs =>
    ⟨fun hk ha φ hφ => unique2 hw ⟨rfl, rfl, rfl, rfl⟩ rfl hk ha (a := 1) (b := 1) (c := 1) (d := -3)
      ⟨by norm_num, (fun _ => by norm_num), (fun h => by cases h), (fun h => by cases h), (fun _ => by norm_num)⟩ hs hφ, p3_flow k, rfl, rfl, rfl⟩⟩

theorem keyword_DDNN (k alpha : ℝ) : Keyword k alpha "DDNN".toList := by
  refine ⟨_, _, rfl, and3_of ⟨rfl, rfl, rfl, zero_lt_one, zero_lt_one⟩ ⟨p3.equation (p3_source k alpha), bcs4
    (fun h => by cases h) (fun _ x y h => by obtain ⟨rfl, _⟩ := h; exact p3_e1 y)
    (fun h => by cases h) (fun _ x y h => by obtain ⟨rfl, _⟩ := h; exact p3_e3 x), bcs4
    (fun _ x y h => by obtain ⟨rfl, _⟩ := h; exact p3.flow0 (p3_n0 k y)) (fun h => by cases h)
    (fun _ x y h => by obtain ⟨rfl, _⟩ := h; exact p3.flow2 (p3_n2 k x)) (fun h => by cases h)⟩ fun hw hs =>
    ⟨fun hk ha φ hφ => unique2 hw ⟨rfl, rfl, rfl, rfl⟩ rfl hk ha (a := 1) (b := 1) (c := 1) (d := 1)
      ⟨by norm_num, (fun _ => by norm_num), (fun h => by cases h), (fun _ => by norm_num), (fun h => by cases h)⟩ hs hφ, p3_flow k, rfl, rfl, rfl⟩⟩

theorem keyword_DDDD (k alpha : ℝ) : Keyword k alpha "DDDD".toList := by
  refine ⟨_, _, rfl, and3_of ⟨rfl, rfl, rfl, zero_lt_one, zero_lt_one⟩ ⟨p3.equation (p3_source k alpha), bcs4
    (fun _ x y h => by obtain ⟨rfl, _⟩ := h; exact p3_e0 y) (fun _ x y h => by obtain ⟨rfl, _⟩ := h; exact p3_e1 y)
    (fun _ x y h => by obtain ⟨rfl, _⟩ := h; exact p3_e2 x) (fun _ x y h => by obtain ⟨rfl, _⟩ := h; exact p3_e3 x), bcs4
    (fun h => by cases h) (fun h => by cases h)
    (fun h => by cases h) (fun h => by cases h)⟩ fun hw hs =>
    ⟨fun hk ha φ hφ => unique2 hw ⟨rfl, rfl, rfl, rfl⟩ rfl hk ha (a := 1) (b := 1) (c := 1) (d := 1)
      ⟨by norm_num, (fun h => by cases h), (fun h => by cases h), (fun h => by cases h), (fun h => by cases h)⟩ hs hφ, p3_flow k, rfl, rfl, rfl⟩⟩

/-- **C98 (2D problem 3).** For the five keywords the analytical solution is a solution with the given `k` and `alpha`, the only one if
`alpha / k` is not negative, and the flow function is its flow. The sides with prescribed values are those with the letter `D`, in the
order right, top, left, bottom. Other keywords panic. -/
theorem C98_d2_problem_03 (k alpha : ℝ) (bc : List Char) (hbc : bc ∈ ["NNDD".toList, "NDND".toList, "DNND".toList, "DDNN".toList, "DDDD".toList]) :
    ∃ p flow, d2Problem03 k alpha bc = ok (p, flow) ∧ p.WellPosed ∧ p.Solution alpha p.analytical ∧
    (k ≠ 0 → 0 ≤ alpha / k → ∀ φ, p.Solution alpha φ → ∀ x y, (x, y) ∈ p.domain → φ x y = p.analytical x y) ∧ p.IsFlow flow ∧
    p.kx = k ∧ p.ky = k ∧
    p.ebcs.sides = [decide (bc[2]? = some 'D'), decide (bc[0]? = some 'D'), decide (bc[3]? = some 'D'), decide (bc[1]? = some 'D')] := by
  simp only [List.mem_cons, List.not_mem_nil, or_false] at hbc
  rcases hbc with rfl | rfl | rfl | rfl | rfl
  · exact keyword_NNDD k alpha
  · exact keyword_NDND k alpha
  · exact keyword_DNND k alpha
  · exact keyword_DDNN k alpha
  · exact keyword_DDDD k alpha

/-- **C98 (2D problem 3, keywords).** -/
theorem C98_d2_problem_03_keywords (k alpha : ℝ) (bc : List Char) :
    d2Problem03 k alpha bc = panic ↔ bc ∉ ["NNDD".toList, "NDND".toList, "DNND".toList, "DDNN".toList, "DDDD".toList] := by
  constructor
  · intro h hm
    obtain ⟨p, flow, e, _⟩ := C98_d2_problem_03 k alpha bc hm
    rw [h] at e
    cases e
  · intro h
    unfold d2Problem03
    rw [if_neg]
    intro hn
    exact h (by simpa using hn)

/-- the hypotheses hold for the parameters of the tests -/
example : ((1 : ℝ) ≠ 0) ∧ (0 : ℝ) ≤ 3 / 1 := by norm_num

end

end Russell.Pde
