import Verif.Pde.ProblemSamples2dProps
import Mathlib.NumberTheory.ZetaValues

/-!
# Sample problem 4: the truncated series (C98)
-/

namespace Russell.Pde

open Russell Russell.Res Real ProblemSamples

noncomputable section

/-- the terms of the series -/
def term4 (k : ℝ) (x y : ℝ) : ℝ := sin (k * π * (1 + x) / 2) * (sinh (k * π * (1 + y) / 2) + sinh (k * π * (1 - y) / 2)) / (k ^ 3 * sinh (k * π))

theorem step4 (x y sum : ℝ) (k : Nat) : d2Problem04Step x y sum k = sum + term4 k x y := by
  unfold d2Problem04Step term4
  simp only
  split_ifs with h
  · push_cast
    ring
  · simp only [ne_eq, not_not] at h
    rw [h]
    simp

theorem foldl4 (x y : ℝ) (l : List Nat) (s : ℝ) : l.foldl (d2Problem04Step x y) s = s + (l.map fun k : Nat => term4 (k : ℝ) x y).sum := by
  induction l generalizing s with
  | nil => simp
  | cons k l ih => rw [List.foldl_cons, ih, step4, List.map_cons, List.sum_cons]; ring

theorem sum4 (x y : ℝ) (n : Nat) : (odds n).foldl (d2Problem04Step x y) 0 = ∑ i ∈ Finset.range (n / 2), term4 (2 * i + 1) x y := by
  rw [foldl4, zero_add, odds, List.map_map]
  induction n / 2 with
  | zero => simp
  | succ m ih => rw [List.range_succ, List.map_append, List.sum_append, ih, Finset.sum_range_succ]; simp

/-- the partial derivatives of the truncated solution -/
theorem partials4 (m : Nat) : ∃ φx φy φxx φyy, Partials (fun x y => (1 - x * x) / 2 - 16 * (∑ i ∈ Finset.range m, term4 (2 * i + 1) x y) / (π * π * π))
    φx φy φxx φyy ∧ ∀ x y, -1 * φxx x y - 1 * φyy x y + 0 * ((1 - x * x) / 2 - 16 * (∑ i ∈ Finset.range m, term4 (2 * i + 1) x y) / (π * π * π)) = 1 := by
  have sx : ∀ k x : ℝ, HasDerivAt (fun x => sin (k * π * (1 + x) / 2)) (k * π / 2 * cos (k * π * (1 + x) / 2)) x := fun k x =>
    sin_d 1 (k * π / 2) (k * π / 2) _ x (fun s => by rw [one_mul]; congr 1; ring) (by rw [one_mul, mul_comm]; congr 2; ring)
  have sxx : ∀ k x : ℝ, HasDerivAt (fun x => k * π / 2 * cos (k * π * (1 + x) / 2)) (-(k * π / 2) * (k * π / 2) * sin (k * π * (1 + x) / 2)) x := fun k x =>
    cos_d (k * π / 2) (k * π / 2) (k * π / 2) _ x (fun s => by congr 2; ring) (by
      rw [show k * π / 2 + k * π / 2 * x = k * π * (1 + x) / 2 by ring]; ring)
  have hs : ∀ a k y : ℝ, HasDerivAt (fun y => a * sinh (k * π * (1 + y) / 2)) (a * (k * π / 2) * cosh (k * π * (1 + y) / 2)) y := fun a k y =>
    sinh_d a (k * π / 2) (k * π / 2) _ y (fun s => by congr 2; ring) (by
      rw [show k * π / 2 + k * π / 2 * y = k * π * (1 + y) / 2 by ring]; ring)
  have hs' : ∀ a k y : ℝ, HasDerivAt (fun y => a * sinh (k * π * (1 - y) / 2)) (-(a * (k * π / 2)) * cosh (k * π * (1 - y) / 2)) y := fun a k y =>
    sinh_d a (k * π / 2) (-(k * π / 2)) _ y (fun s => by congr 2; ring) (by
      rw [show k * π / 2 + -(k * π / 2) * y = k * π * (1 - y) / 2 by ring]; ring)
  have hc : ∀ a k y : ℝ, HasDerivAt (fun y => a * cosh (k * π * (1 + y) / 2)) (a * (k * π / 2) * sinh (k * π * (1 + y) / 2)) y := fun a k y =>
    cosh_d a (k * π / 2) (k * π / 2) _ y (fun s => by congr 2; ring) (by
      rw [show k * π / 2 + k * π / 2 * y = k * π * (1 + y) / 2 by ring]; ring)
  have hc' : ∀ a k y : ℝ, HasDerivAt (fun y => a * cosh (k * π * (1 - y) / 2)) (-(a * (k * π / 2)) * sinh (k * π * (1 - y) / 2)) y := fun a k y =>
    cosh_d a (k * π / 2) (-(k * π / 2)) _ y (fun s => by congr 2; ring) (by
      rw [show k * π / 2 + -(k * π / 2) * y = k * π * (1 - y) / 2 by ring]; ring)
  induction m with
  | zero =>
    refine ⟨fun x _ => -x, fun _ _ => 0, fun _ _ => -1, fun _ _ => 0, ⟨fun x y => ?_, fun x y => ?_, fun x y => ?_, fun x y => ?_, ?_⟩, fun x y => ?_⟩
    · simp only [Finset.range_zero, Finset.sum_empty, mul_zero, zero_div, sub_zero]
      exact ((((hasDerivAt_id x).mul (hasDerivAt_id x)).const_sub 1).div_const 2).congr_deriv (by simp)
    · simp only [Finset.range_zero, Finset.sum_empty]
      exact hasDerivAt_const y _
    · exact hasDerivAt_neg x
    · exact hasDerivAt_const y _
    · simp only [Finset.range_zero, Finset.sum_empty, mul_zero, zero_div, sub_zero]
      fun_prop
    · simp
  | succ m ih =>
    obtain ⟨φx, φy, φxx, φyy, ⟨h1, h2, h3, h4, h5⟩, he⟩ := ih
    obtain ⟨k, hk⟩ : ∃ k : ℝ, k = 2 * m + 1 := ⟨_, rfl⟩
    obtain ⟨c, hc0⟩ : ∃ c : ℝ, c = 16 / (π * π * π) / (k ^ 3 * sinh (k * π)) := ⟨_, rfl⟩
    have hP := partials_mul (φ := fun x y => 16 * term4 k x y / (π * π * π)) (sx k) (sxx k)
      (fun y => (hs c k y).fun_add (hs' c k y)) (fun y => (hc (c * (k * π / 2)) k y).fun_add (hc' (-(c * (k * π / 2))) k y)) (fun x y => by
        rw [hc0, term4]; field_simp)
    have hf : (fun x y => (1 - x * x) / 2 - 16 * (∑ i ∈ Finset.range (m + 1), term4 (2 * i + 1) x y) / (π * π * π)) =
        fun x y => ((1 - x * x) / 2 - 16 * (∑ i ∈ Finset.range m, term4 (2 * i + 1) x y) / (π * π * π)) - 16 * term4 k x y / (π * π * π) := by
      funext x y
      rw [Finset.sum_range_succ, hk]
      ring
    rw [hf]
    refine ⟨_, _, _, _, ⟨fun x y => (h1 x y).sub (hP.hx x y), fun x y => (h2 x y).sub (hP.hy x y), fun x y => (h3 x y).sub (hP.hxx x y),
      fun x y => (h4 x y).sub (hP.hyy x y), h5.sub hP.cont⟩, fun x y => ?_⟩
    have := he x y
    rw [Finset.sum_range_succ]
    simp only [zero_mul, add_zero] at this ⊢
    linear_combination this

/-- the Bernoulli polynomial of degree three -/
theorem bernoulli3 (t : ℝ) : (Polynomial.map (algebraMap ℚ ℝ) (Polynomial.bernoulli 3)).eval t = t ^ 3 - 3 / 2 * t ^ 2 + t / 2 := by
  simp_rw [Polynomial.bernoulli, Finset.sum_range_succ, Polynomial.map_add, Polynomial.eval_add, Polynomial.map_monomial, Polynomial.eval_monomial]
  rw [Finset.sum_range_zero, Polynomial.map_zero, Polynomial.eval_zero, zero_add, _root_.bernoulli_one]
  rw [bernoulli_eq_bernoulli'_of_ne_one zero_ne_one, bernoulli'_zero,
    bernoulli_eq_bernoulli'_of_ne_one (by decide : 2 ≠ 1), bernoulli'_two,
    bernoulli_eq_bernoulli'_of_ne_one (by decide : 3 ≠ 1), bernoulli'_three]
  norm_num
  ring

theorem fourier3 {t : ℝ} (h : t ∈ Set.Icc (0 : ℝ) 1) :
    HasSum (fun n : ℕ => 1 / (n : ℝ) ^ 3 * sin (2 * π * n * t)) (2 * π ^ 3 / 3 * (t ^ 3 - 3 / 2 * t ^ 2 + t / 2)) := by
  have := hasSum_one_div_nat_pow_mul_sin one_ne_zero h
  rw [show 2 * 1 + 1 = 3 from rfl, bernoulli3] at this
  have e : (-1 : ℝ) ^ (1 + 1) * (2 * π) ^ 3 / 2 / ((Nat.factorial 3 : Nat) : ℝ) * (t ^ 3 - 3 / 2 * t ^ 2 + t / 2) =
      2 * π ^ 3 / 3 * (t ^ 3 - 3 / 2 * t ^ 2 + t / 2) := by
    rw [show Nat.factorial 3 = 6 from rfl]
    push_cast
    ring
  rw [e] at this
  exact this

/-- the series on the sides `y = ±1` -/
theorem fourier_odd {x : ℝ} (h : x ∈ Set.Icc (-1 : ℝ) 1) :
    HasSum (fun i : ℕ => sin ((2 * (i : ℝ) + 1) * π * (1 + x) / 2) / (2 * (i : ℝ) + 1) ^ 3) (π ^ 3 * (1 - x * x) / 32) := by
  have h1 := fourier3 (t := (1 + x) / 4) ⟨by linarith [h.1], by linarith [h.2]⟩
  have h2 := fourier3 (t := (1 + x) / 2) ⟨by linarith [h.1], by linarith [h.2]⟩
  obtain ⟨F, hF⟩ : ∃ F : ℕ → ℝ, F = fun n : ℕ => 1 / (n : ℝ) ^ 3 * sin (2 * π * n * ((1 + x) / 4)) := ⟨_, rfl⟩
  rw [← hF] at h1
  have he : HasSum (fun i : ℕ => F (2 * i)) (2 * π ^ 3 / 3 * (((1 + x) / 2) ^ 3 - 3 / 2 * ((1 + x) / 2) ^ 2 + ((1 + x) / 2) / 2) / 8) := by
    have e : (fun i : ℕ => F (2 * i)) = fun i : ℕ => 1 / (i : ℝ) ^ 3 * sin (2 * π * i * ((1 + x) / 2)) / 8 := by
      funext i
      rw [hF]
      push_cast
      rw [show 2 * π * (2 * (i : ℝ)) * ((1 + x) / 4) = 2 * π * i * ((1 + x) / 2) by ring, mul_pow, one_div, mul_inv]
      ring
    rw [e]
    exact h2.div_const 8
  have ho : Summable (fun i : ℕ => F (2 * i + 1)) := h1.summable.comp_injective fun a b hab => by simpa using hab
  have hu := (he.even_add_odd ho.hasSum).unique h1
  have e1 : (fun i : ℕ => sin ((2 * (i : ℝ) + 1) * π * (1 + x) / 2) / (2 * (i : ℝ) + 1) ^ 3) = fun i => F (2 * i + 1) := by
    funext i
    rw [hF]
    push_cast
    rw [show 2 * π * (2 * (i : ℝ) + 1) * ((1 + x) / 4) = (2 * (i : ℝ) + 1) * π * (1 + x) / 2 by ring]
    ring
  have e2 : π ^ 3 * (1 - x * x) / 32 = ∑' i : ℕ, F (2 * i + 1) := by
    linear_combination -hu
  rw [e1, e2]
  exact ho.hasSum

/-- the remainder of the series -/
theorem tail4 {x : ℝ} (h : x ∈ Set.Icc (-1 : ℝ) 1) {m : Nat} (hm : 0 < m) :
    |π ^ 3 * (1 - x * x) / 32 - ∑ i ∈ Finset.range m, sin ((2 * (i : ℝ) + 1) * π * (1 + x) / 2) / (2 * (i : ℝ) + 1) ^ 3| ≤ 1 / (16 * (m : ℝ) ^ 2) := by
  have hs := (fourier_odd h).tendsto_sum_nat
  have step : ∀ d : Nat, |∑ i ∈ Finset.range (m + d), sin ((2 * (i : ℝ) + 1) * π * (1 + x) / 2) / (2 * (i : ℝ) + 1) ^ 3 -
      ∑ i ∈ Finset.range m, sin ((2 * (i : ℝ) + 1) * π * (1 + x) / 2) / (2 * (i : ℝ) + 1) ^ 3| ≤ 1 / (16 * (m : ℝ) ^ 2) - 1 / (16 * ((m + d : Nat) : ℝ) ^ 2) := by
    intro d
    induction d with
    | zero => simp
    | succ d ih =>
      rw [← Nat.add_assoc, Finset.sum_range_succ, add_sub_right_comm]
      refine (abs_add_le _ _).trans ?_
      obtain ⟨k, hk⟩ : ∃ k : ℝ, k = ((m + d : Nat) : ℝ) := ⟨_, rfl⟩
      have hk0 : 0 < k := by rw [hk]; exact_mod_cast Nat.add_pos_left hm d
      rw [Nat.cast_succ, ← hk]
      rw [← hk] at ih
      have h1 : |sin ((2 * k + 1) * π * (1 + x) / 2) / (2 * k + 1) ^ 3| ≤ 1 / (2 * k + 1) ^ 3 := by
        rw [abs_div, abs_of_pos (show 0 < (2 * k + 1) ^ 3 by positivity)]
        exact div_le_div_of_nonneg_right (abs_sin_le_one _) (by positivity)
      have h2 : 1 / (2 * k + 1) ^ 3 ≤ 1 / (16 * k ^ 2) - 1 / (16 * (k + 1) ^ 2) := by
        rw [div_sub_div _ _ (by positivity) (by positivity), div_le_div_iff₀ (by positivity) (by positivity)]
        have : 0 ≤ (2 * k + 1) * (16 * ((2 * k + 1) ^ 4 - 16 * k ^ 2 * (k + 1) ^ 2)) := by
          have : (2 * k + 1) ^ 4 - 16 * k ^ 2 * (k + 1) ^ 2 = 8 * k ^ 2 + 8 * k + 1 := by ring
          rw [this]
          positivity
        nlinarith [pow_pos hk0 2, pow_pos hk0 3, pow_pos hk0 4, pow_pos hk0 5]
      linarith
  have hs' := (hs.comp (Filter.tendsto_add_atTop_nat m)).sub_const (∑ i ∈ Finset.range m, sin ((2 * (i : ℝ) + 1) * π * (1 + x) / 2) / (2 * (i : ℝ) + 1) ^ 3)
  refine le_of_tendsto hs'.abs (Filter.Eventually.of_forall fun d => ?_)
  have := step d
  rw [Nat.add_comm m d] at this
  have h0 : 0 ≤ 1 / (16 * ((d + m : Nat) : ℝ) ^ 2) := by positivity
  simp only [Function.comp]
  linarith

/-- **C98 (2D problem 4).** The truncated series satisfies the equation, it vanishes at `x = ±1`, and it differs by at most
`1 / (π³ m²)`, `m = ana_nsum / 2`, from zero at `y = ±1` and hence from the solution of the problem, if `ana_nsum` is at least two. -/
theorem C98_d2_problem_04 (n : Nat) (hn : 2 ≤ n) : ∃ p, d2Problem04 n = ok p ∧ p.WellPosed ∧ p.Equation 0 p.analytical ∧
    (∀ y, p.analytical p.xmin y = 0 ∧ p.analytical p.xmax y = 0) ∧
    (∀ x ∈ Set.Icc p.xmin p.xmax, |p.analytical x p.ymin| ≤ 1 / (π ^ 3 * ((n / 2 : Nat) : ℝ) ^ 2) ∧
      |p.analytical x p.ymax| ≤ 1 / (π ^ 3 * ((n / 2 : Nat) : ℝ) ^ 2)) ∧
    (∀ φ, p.Solution 0 φ → ∀ x y, (x, y) ∈ p.domain → |φ x y - p.analytical x y| ≤ 1 / (π ^ 3 * ((n / 2 : Nat) : ℝ) ^ 2)) := by
  obtain ⟨m, hm⟩ : ∃ m, m = n / 2 := ⟨_, rfl⟩
  have hm0 : 0 < m := by omega
  have hana : (fun x y : ℝ => (1 - x * x) / 2 - 16 * (odds n).foldl (d2Problem04Step x y) 0 / (π * π * π)) =
      fun x y => (1 - x * x) / 2 - 16 * (∑ i ∈ Finset.range m, term4 (2 * i + 1) x y) / (π * π * π) := by
    funext x y
    rw [sum4, hm]
  obtain ⟨φx, φy, φxx, φyy, hP, he⟩ := partials4 m
  have x0 : ∀ y : ℝ, (1 - (-1 : ℝ) * (-1)) / 2 - 16 * (∑ i ∈ Finset.range m, term4 (2 * i + 1) (-1) y) / (π * π * π) = 0 := by
    intro y
    rw [Finset.sum_eq_zero fun i _ => by simp [term4]]
    norm_num
  have x1 : ∀ y : ℝ, (1 - (1 : ℝ) * 1) / 2 - 16 * (∑ i ∈ Finset.range m, term4 (2 * i + 1) 1 y) / (π * π * π) = 0 := by
    intro y
    rw [Finset.sum_eq_zero fun i _ => ?_]
    · norm_num
    · unfold term4
      rw [sin_pi_int (2 * i + 1) _ (by push_cast; ring)]
      simp
  have ends : ∀ k x : ℝ, 0 < k → term4 k x (-1) = sin (k * π * (1 + x) / 2) / k ^ 3 ∧ term4 k x 1 = sin (k * π * (1 + x) / 2) / k ^ 3 := by
    intro k x hk
    have : sinh (k * π) ≠ 0 := by
      rw [Ne, sinh_eq_zero]
      positivity
    unfold term4
    constructor
    · rw [show k * π * (1 + -1) / 2 = 0 by ring, show k * π * (1 - -1) / 2 = k * π by ring, sinh_zero]
      field_simp
      ring
    · rw [show k * π * (1 - 1) / 2 = 0 by ring, show k * π * (1 + 1) / 2 = k * π by ring, sinh_zero]
      field_simp
      ring
  have ybound : ∀ x ∈ Set.Icc (-1 : ℝ) 1, |(1 - x * x) / 2 - 16 * (∑ i ∈ Finset.range m, term4 (2 * i + 1) x (-1)) / (π * π * π)| ≤ 1 / (π ^ 3 * (m : ℝ) ^ 2) ∧
      |(1 - x * x) / 2 - 16 * (∑ i ∈ Finset.range m, term4 (2 * i + 1) x 1) / (π * π * π)| ≤ 1 / (π ^ 3 * (m : ℝ) ^ 2) := by
    intro x hx
    have t := tail4 hx hm0
    have e : ∀ S : ℝ, (1 - x * x) / 2 - 16 * S / (π * π * π) = 16 / π ^ 3 * (π ^ 3 * (1 - x * x) / 32 - S) := by
      intro S
      field_simp
      ring
    have key : |(1 - x * x) / 2 - 16 * (∑ i ∈ Finset.range m, sin ((2 * (i : ℝ) + 1) * π * (1 + x) / 2) / (2 * (i : ℝ) + 1) ^ 3) / (π * π * π)| ≤
        1 / (π ^ 3 * (m : ℝ) ^ 2) := by
      rw [e, abs_mul, abs_of_pos (by positivity)]
      refine (mul_le_mul_of_nonneg_left t (by positivity)).trans_eq ?_
      have : (m : ℝ) ≠ 0 := by positivity
      field_simp
    have s0 : ∀ y : ℝ, y = -1 ∨ y = 1 → ∑ i ∈ Finset.range m, term4 (2 * i + 1) x y =
        ∑ i ∈ Finset.range m, sin ((2 * (i : ℝ) + 1) * π * (1 + x) / 2) / (2 * (i : ℝ) + 1) ^ 3 := by
      intro y hy
      refine Finset.sum_congr rfl fun i _ => ?_
      have := ends (2 * (i : ℝ) + 1) x (by positivity)
      rcases hy with rfl | rfl
      · exact this.1
      · exact this.2
    rw [s0 _ (Or.inl rfl), s0 _ (Or.inr rfl)]
    exact ⟨key, key⟩
  have hd : d2Problem04 n = ok ⟨-1, 1, -1, 1, 1, 1, _, _, fun _ _ => 1, fun x y => (1 - x * x) / 2 - 16 * (odds n).foldl (d2Problem04Step x y) 0 / (π * π * π)⟩ := rfl
  rw [hana] at hd
  rw [← hm]
  refine ⟨_, hd, and3_of ⟨rfl, rfl, rfl, by norm_num, by norm_num⟩ (hP.equation he) fun hw hs =>
    and3_of (fun y => ⟨x0 y, x1 y⟩) ybound fun hx hy => fun φ hφ => ?_⟩
  refine compare2 (a := 1) (b := 1) (c := 1) (d := 1) hw ⟨rfl, rfl, rfl, rfl⟩ rfl (by norm_num) (by simp) (by positivity)
    ⟨by norm_num, (fun h => by cases h), (fun h => by cases h), (fun h => by cases h), (fun h => by cases h)⟩ hs hφ.equation ?_ hφ.flows ?_
  · intro k hk4 f hf
    have : k = 0 ∨ k = 1 ∨ k = 2 ∨ k = 3 := by omega
    rcases this with rfl | rfl | rfl | rfl <;> cases hf
  · intro k hk4 hf x y hside
    have hpos : (0 : ℝ) ≤ 1 / (π ^ 3 * (m : ℝ) ^ 2) := by positivity
    have : k = 0 ∨ k = 1 ∨ k = 2 ∨ k = 3 := by omega
    rcases this with rfl | rfl | rfl | rfl
    · rw [hφ.values 0 hk4 (fun _ _ => 0) rfl rfl x y hside]
      obtain ⟨rfl, _⟩ := hside
      have := hx y
      rw [this.1]
      simpa using hpos
    · rw [hφ.values 1 hk4 (fun _ _ => 0) rfl rfl x y hside]
      obtain ⟨rfl, _⟩ := hside
      rw [(hx y).2]
      simpa using hpos
    · rw [hφ.values 2 hk4 (fun _ _ => 0) rfl rfl x y hside]
      obtain ⟨rfl, h⟩ := hside
      rw [zero_sub, abs_neg]
      exact (hy x h).1
    · rw [hφ.values 3 hk4 (fun _ _ => 0) rfl rfl x y hside]
      obtain ⟨rfl, h⟩ := hside
      rw [zero_sub, abs_neg]
      exact (hy x h).2

example := C98_d2_problem_04 100 (by norm_num)

/-- **C98 (2D problem 4, deviation).** The documentation calls `ana_nsum` the number of terms of the sum. The loop runs over the odd
numbers below it: there are only `ana_nsum / 2` terms, and none at all for `ana_nsum = 1`. -/
theorem C98_terms_counterexample : (∀ n, (odds n).length = n / 2) ∧ ∃ p, d2Problem04 1 = ok p ∧ ∀ x y, p.analytical x y = (1 - x * x) / 2 := by
  refine ⟨fun n => by simp [odds], _, rfl, fun x y => ?_⟩
  simp [odds]

end

end Russell.Pde
