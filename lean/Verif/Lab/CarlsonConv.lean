import Verif.Lab.CarlsonLoop

/-!
# Convergence of the loops of `rf` and `rd` within eleven iterations (property C107)
-/

namespace Russell.Lab

open MeasureTheory Set Real Russell Russell.Res

/-- bounds of the ratio of the largest to the smallest argument from which `k` steps lead below `1 + τ` -/
def ratioInv (τ : ℚ) : ℕ → ℚ
  | 0 => 1 + τ
  | k + 1 => (2 * ratioInv τ k - 1) ^ 2

theorem ratioInv_ge {τ : ℚ} (hτ : 0 ≤ τ) (k : ℕ) : 1 ≤ ratioInv τ k := by
  induction k with
  | zero => simp [ratioInv, hτ]
  | succ k ih => rw [ratioInv]; nlinarith

/-- all pairwise ratios are at most `r` -/
def RatioLe (x y z r : ℝ) : Prop := x ≤ r * y ∧ x ≤ r * z ∧ y ≤ r * x ∧ y ≤ r * z ∧ z ≤ r * x ∧ z ≤ r * y

theorem ratio_core {x y z r : ℝ} (hx : 0 < x) (hy : 0 < y) (hxz : x ≤ z) (hr : 1 ≤ r) (h : y ≤ r ^ 2 * x) :
    y + (√x * (√y + √z) + √y * √z) ≤ (1 + r) / 2 * (x + (√x * (√y + √z) + √y * √z)) := by
  have ex := Real.sq_sqrt hx.le
  have ey := Real.sq_sqrt hy.le
  have qx : 0 < √x := Real.sqrt_pos.2 hx
  have qy : 0 < √y := Real.sqrt_pos.2 hy
  have qz : √x ≤ √z := Real.sqrt_le_sqrt hxz
  have hyx : √y ≤ r * √x := by
    apply Real.sqrt_le_iff.2
    refine ⟨by positivity, ?_⟩
    rw [mul_pow, ex]; exact h
  generalize √x = X at *
  generalize √y = Y at *
  generalize √z = Z at *
  rw [← ex, ← ey]
  have h1 : X ^ 2 + 2 * (X * Y) ≤ X * (Y + Z) + Y * Z := by nlinarith
  have h2 : 0 ≤ (r * X - Y) * (X + Y) := mul_nonneg (by linarith) (by linarith)
  nlinarith

theorem ratio_pair {x y z r : ℝ} (hx : 0 < x) (hy : 0 < y) (hz : 0 < z) (hr : 1 ≤ r) (h1 : y ≤ r ^ 2 * x) (h2 : y ≤ r ^ 2 * z) :
    y + (√x * (√y + √z) + √y * √z) ≤ (1 + r) / 2 * (x + (√x * (√y + √z) + √y * √z)) := by
  rcases le_total x z with h | h
  · exact ratio_core hx hy h hr h1
  · have := ratio_core hz hy h hr h2
    have e : √z * (√y + √x) + √y * √x = √x * (√y + √z) + √y * √z := by ring
    rw [e] at this
    refine this.trans ?_
    have : 0 ≤ (1 + r) / 2 := by linarith
    gcongr

/-- one step reduces the ratio from `(2r - 1)²` to `r` -/
theorem ratio_step {x y z r : ℝ} (hx : 0 < x) (hy : 0 < y) (hz : 0 < z) (hr : 1 ≤ r) (h : RatioLe x y z ((2 * r - 1) ^ 2))
    (lam : ℝ) (hl : lam = √x * (√y + √z) + √y * √z) : RatioLe (1 / 4 * (x + lam)) (1 / 4 * (y + lam)) (1 / 4 * (z + lam)) r := by
  obtain ⟨xy, xz, yx, yz, zx, zy⟩ := h
  have hr' : 1 ≤ 2 * r - 1 := by linarith
  have e : (1 + (2 * r - 1)) / 2 = r := by ring
  have p1 := ratio_pair hy hx hz hr' xy xz
  have p2 := ratio_pair hz hx hy hr' xz xy
  have p3 := ratio_pair hx hy hz hr' yx yz
  have p4 := ratio_pair hz hy hx hr' yz yx
  have p5 := ratio_pair hx hz hy hr' zx zy
  have p6 := ratio_pair hy hz hx hr' zy zx
  rw [e] at p1 p2 p3 p4 p5 p6
  rw [show √y * (√x + √z) + √x * √z = lam by rw [hl]; ring] at p1
  rw [show √z * (√x + √y) + √x * √y = lam by rw [hl]; ring] at p2
  rw [← hl] at p3
  rw [show √z * (√y + √x) + √y * √x = lam by rw [hl]; ring] at p4
  rw [show √x * (√z + √y) + √z * √y = lam by rw [hl]; ring] at p5
  rw [show √y * (√z + √x) + √z * √x = lam by rw [hl]; ring] at p6
  exact ⟨by linarith, by linarith, by linarith, by linarith, by linarith, by linarith⟩

/-- after the first step the ratio is bounded by the largest argument over `λ`, even if one argument vanishes -/
theorem ratio_first {x y z r lam : ℝ} (hx : 0 ≤ x) (hy : 0 ≤ y) (hz : 0 ≤ z) (hr : 1 ≤ r)
    (h1 : x ≤ (r - 1) * lam) (h2 : y ≤ (r - 1) * lam) (h3 : z ≤ (r - 1) * lam) :
    RatioLe (1 / 4 * (x + lam)) (1 / 4 * (y + lam)) (1 / 4 * (z + lam)) r := by
  have ax : 0 ≤ r * x := by positivity
  have ay : 0 ≤ r * y := by positivity
  have az : 0 ≤ r * z := by positivity
  exact ⟨by linarith, by linarith, by linarith, by linarith, by linarith, by linarith⟩

/-- the relative deviation from a weighted mean is bounded by the ratio -/
theorem dev_le {a A r : ℝ} (ha : 0 < a) (hr : 1 ≤ r) (h1 : a ≤ r * A) (h2 : A ≤ r * a) : |(A - a) / A| ≤ r - 1 := by
  have hA : 0 < A := by
    by_contra hn
    have : r * A ≤ 0 := mul_nonpos_of_nonneg_of_nonpos (by linarith) (by linarith)
    linarith
  rw [abs_le]
  constructor
  · rw [le_div_iff₀ hA]; linarith
  · rw [div_le_iff₀ hA]
    nlinarith [mul_nonneg (sub_nonneg.2 hr) (sub_nonneg.2 hr)]

theorem rfLoop_conv {τ : ℚ} (hτ0 : 0 ≤ τ) (hτ : τ < 25 / 10000) (k : ℕ) {x y z : ℝ} (hx : 0 < x) (hy : 0 < y) (hz : 0 < z)
    (h : RatioLe x y z (ratioInv τ (k + 1))) : ∃ o, rfLoop (k + 1) x y z = some o := by
  induction k generalizing x y z with
  | zero =>
    have hr : (1 : ℝ) ≤ (ratioInv τ 0 : ℚ) := by exact_mod_cast ratioInv_ge hτ0 0
    rw [ratioInv] at h
    push_cast at h
    obtain ⟨xy, xz, yx, yz, zx, zy⟩ := ratio_step hx hy hz hr h _ rfl
    have hl := lam_pos hx.le hy.le hz.le (by linarith) (by linarith) (by linarith)
    simp only [rfLoop]
    set lam := √x * (√y + √z) + √y * √z
    have e0 : ((ratioInv τ 0 : ℚ) : ℝ) - 1 < 0.0025 := by
      have : ((τ : ℚ) : ℝ) < ((25 / 10000 : ℚ) : ℝ) := Rat.cast_lt.2 hτ
      push_cast at this
      rw [ratioInv]; push_cast; norm_num; linarith
    generalize ((ratioInv τ 0 : ℚ) : ℝ) = r at *
    have px : 0 < 1 / 4 * (x + lam) := by positivity
    have py : 0 < 1 / 4 * (y + lam) := by positivity
    have pz : 0 < 1 / 4 * (z + lam) := by positivity
    generalize 1 / 4 * (x + lam) = x' at *
    generalize 1 / 4 * (y + lam) = y' at *
    generalize 1 / 4 * (z + lam) = z' at *
    have ax : x' ≤ r * x' := by nlinarith
    have ay : y' ≤ r * y' := by nlinarith
    have az : z' ≤ r * z' := by nlinarith
    rw [if_pos]
    · exact ⟨_, rfl⟩
    · refine max_lt (max_lt ?_ ?_) ?_ <;> refine lt_of_le_of_lt (dev_le (r := r) (by assumption) hr (by linarith) (by linarith)) e0
  | succ k ih =>
    have hr : (1 : ℝ) ≤ (ratioInv τ (k + 1) : ℚ) := by exact_mod_cast ratioInv_ge hτ0 (k + 1)
    have h' := h
    rw [ratioInv] at h'
    push_cast at h'
    have hs := ratio_step hx hy hz hr h' _ rfl
    have hl := lam_pos hx.le hy.le hz.le (by linarith) (by linarith) (by linarith)
    rw [rfLoop]
    split_ifs
    · exact ⟨_, rfl⟩
    · exact ih (by positivity) (by positivity) (by positivity) hs

theorem rdLoop_conv {τ : ℚ} (hτ0 : 0 ≤ τ) (hτ : τ < 15 / 10000) (k : ℕ) {x y z sum fac : ℝ} (hx : 0 < x) (hy : 0 < y) (hz : 0 < z)
    (h : RatioLe x y z (ratioInv τ (k + 1))) : ∃ o, rdLoop (k + 1) sum fac x y z = some o := by
  induction k generalizing x y z sum fac with
  | zero =>
    have hr : (1 : ℝ) ≤ (ratioInv τ 0 : ℚ) := by exact_mod_cast ratioInv_ge hτ0 0
    rw [ratioInv] at h
    push_cast at h
    obtain ⟨xy, xz, yx, yz, zx, zy⟩ := ratio_step hx hy hz hr h _ rfl
    have hl := lam_pos hx.le hy.le hz.le (by linarith) (by linarith) (by linarith)
    simp only [rdLoop]
    set lam := √x * (√y + √z) + √y * √z
    have e0 : ((ratioInv τ 0 : ℚ) : ℝ) - 1 < 0.0015 := by
      have : ((τ : ℚ) : ℝ) < ((15 / 10000 : ℚ) : ℝ) := Rat.cast_lt.2 hτ
      push_cast at this
      rw [ratioInv]; push_cast; norm_num; linarith
    generalize ((ratioInv τ 0 : ℚ) : ℝ) = r at *
    have px : 0 < 1 / 4 * (x + lam) := by positivity
    have py : 0 < 1 / 4 * (y + lam) := by positivity
    have pz : 0 < 1 / 4 * (z + lam) := by positivity
    generalize 1 / 4 * (x + lam) = x' at *
    generalize 1 / 4 * (y + lam) = y' at *
    generalize 1 / 4 * (z + lam) = z' at *
    have ax : x' ≤ r * x' := by nlinarith
    have ay : y' ≤ r * y' := by nlinarith
    have az : z' ≤ r * z' := by nlinarith
    rw [if_pos]
    · exact ⟨_, rfl⟩
    · norm_num only
      refine max_lt (max_lt ?_ ?_) ?_ <;> refine lt_of_le_of_lt (dev_le (r := r) (by assumption) hr (by linarith) (by linarith)) (lt_of_lt_of_eq e0 (by norm_num))
  | succ k ih =>
    have hr : (1 : ℝ) ≤ (ratioInv τ (k + 1) : ℚ) := by exact_mod_cast ratioInv_ge hτ0 (k + 1)
    have h' := h
    rw [ratioInv] at h'
    push_cast at h'
    have hs := ratio_step hx hy hz hr h' _ rfl
    have hl := lam_pos hx.le hy.le hz.le (by linarith) (by linarith) (by linarith)
    rw [rdLoop]
    split_ifs
    · exact ⟨_, rfl⟩
    · exact ih (by positivity) (by positivity) (by positivity) hs

theorem ratioInv_rf : (10 : ℚ) ^ 42 + 1 ≤ ratioInv (249 / 100000) 10 := by
  norm_num [ratioInv]

theorem ratioInv_rd : (10 : ℚ) ^ 33 + 1 ≤ ratioInv (149 / 100000) 10 := by
  norm_num [ratioInv]

theorem lam_sq_ge {x y z : ℝ} (hx : 0 ≤ x) (hy : 0 ≤ y) (hz : 0 ≤ z) :
    x * y + x * z + y * z ≤ (√x * (√y + √z) + √y * √z) ^ 2 := by
  have ex := Real.sq_sqrt hx
  have ey := Real.sq_sqrt hy
  have ez := Real.sq_sqrt hz
  have qx := Real.sqrt_nonneg x
  have qy := Real.sqrt_nonneg y
  have qz := Real.sqrt_nonneg z
  generalize √x = X at *
  generalize √y = Y at *
  generalize √z = Z at *
  rw [← ex, ← ey, ← ez]
  have : 0 ≤ 2 * (X * Y * Z * (X + Y + Z)) := by positivity
  nlinarith

/-- bound of an argument by a multiple of `λ` -/
theorem le_lam {a C S lam : ℝ} (ha : 0 ≤ a) (hC : 0 ≤ C) (hl : 0 ≤ lam) (hS : S ≤ lam ^ 2) (h : a ^ 2 ≤ C ^ 2 * S) : a ≤ C * lam := by
  refine (sq_le_sq₀ ha (by positivity)).1 ?_
  rw [mul_pow]
  exact h.trans (by gcongr)

/-- `rf` converges whenever the square of the largest argument is at most `10⁸⁴` times the sum of the pairwise products -/
theorem rf_ok {x y z : ℝ} (hx : 0 ≤ x) (hy : 0 ≤ y) (hz : 0 ≤ z) (h1 : 5 * f64MinPos ≤ x + y) (h2 : 5 * f64MinPos ≤ x + z)
    (h3 : 5 * f64MinPos ≤ y + z) (b1 : x ≤ 0.2 * f64Max) (b2 : y ≤ 0.2 * f64Max) (b3 : z ≤ 0.2 * f64Max)
    (r1 : x ^ 2 ≤ (10 ^ 42) ^ 2 * (x * y + x * z + y * z)) (r2 : y ^ 2 ≤ (10 ^ 42) ^ 2 * (x * y + x * z + y * z))
    (r3 : z ^ 2 ≤ (10 ^ 42) ^ 2 * (x * y + x * z + y * z)) : ∃ v, rf x y z = .ok v := by
  have hm := f64MinPos_pos
  have hl := lam_pos hx hy hz (by linarith) (by linarith) (by linarith)
  have hS := lam_sq_ge hx hy hz
  have hloop : ∃ o, rfLoop 11 x y z = some o := by
    rw [rfLoop]
    set lam := √x * (√y + √z) + √y * √z
    have q : (10 : ℝ) ^ 42 ≤ ((ratioInv (249 / 100000) 10 : ℚ) : ℝ) - 1 := by
      have := ratioInv_rf
      have : ((10 : ℚ) ^ 42 + 1 : ℝ) ≤ ((ratioInv (249 / 100000) 10 : ℚ) : ℝ) := by exact_mod_cast this
      push_cast at this
      linarith
    have f : ∀ a, 0 ≤ a → a ^ 2 ≤ (10 ^ 42) ^ 2 * (x * y + x * z + y * z) → a ≤ (((ratioInv (249 / 100000) 10 : ℚ) : ℝ) - 1) * lam := fun a ha h =>
      (le_lam ha (by positivity) hl.le hS h).trans (by gcongr)
    have hr : (1 : ℝ) ≤ ((ratioInv (249 / 100000) 10 : ℚ) : ℝ) := by exact_mod_cast ratioInv_ge (by norm_num) 10
    have hR := ratio_first hx hy hz hr (f x hx r1) (f y hy r2) (f z hz r3)
    split_ifs
    · exact ⟨_, rfl⟩
    · exact rfLoop_conv (by norm_num) (by norm_num) 9 (by positivity) (by positivity) (by positivity) hR
  obtain ⟨o, ho⟩ := hloop
  unfold rf
  simp only []
  rw [if_neg]
  · rw [ho]; exact ⟨_, rfl⟩
  · rw [not_or, not_or, not_lt, not_lt, not_lt]
    exact ⟨le_min (le_min hx hy) hz, le_min (le_min h1 h2) h3, max_le (max_le b1 b2) b3⟩

/-- `rd` converges whenever the square of the largest argument is at most `10⁶⁶` times the sum of the pairwise products -/
theorem rd_ok {x y z : ℝ} (hx : 0 ≤ x) (hy : 0 ≤ y) (h1 : 2 * f64Max ^ (-2 / 3 : ℝ) ≤ x + y) (h2 : 2 * f64Max ^ (-2 / 3 : ℝ) ≤ z)
    (b1 : x ≤ 0.1 * 0.0015 * f64MinPos ^ (-2 / 3 : ℝ)) (b2 : y ≤ 0.1 * 0.0015 * f64MinPos ^ (-2 / 3 : ℝ)) (b3 : z ≤ 0.1 * 0.0015 * f64MinPos ^ (-2 / 3 : ℝ))
    (r1 : x ^ 2 ≤ (10 ^ 33) ^ 2 * (x * y + x * z + y * z)) (r2 : y ^ 2 ≤ (10 ^ 33) ^ 2 * (x * y + x * z + y * z))
    (r3 : z ^ 2 ≤ (10 ^ 33) ^ 2 * (x * y + x * z + y * z)) : ∃ v, rd x y z = .ok v := by
  have hm : 0 < f64Max ^ (-2 / 3 : ℝ) := Real.rpow_pos_of_pos f64Max_pos _
  have hz : 0 ≤ z := by linarith
  have hl := lam_pos hx hy hz (by linarith) (by linarith) (by linarith)
  have hS := lam_sq_ge hx hy hz
  have hloop : ∃ o, rdLoop 11 0 1 x y z = some o := by
    rw [rdLoop]
    set lam := √x * (√y + √z) + √y * √z
    have q : (10 : ℝ) ^ 33 ≤ ((ratioInv (149 / 100000) 10 : ℚ) : ℝ) - 1 := by
      have := ratioInv_rd
      have : ((10 : ℚ) ^ 33 + 1 : ℝ) ≤ ((ratioInv (149 / 100000) 10 : ℚ) : ℝ) := by exact_mod_cast this
      push_cast at this
      linarith
    have f : ∀ a, 0 ≤ a → a ^ 2 ≤ (10 ^ 33) ^ 2 * (x * y + x * z + y * z) → a ≤ (((ratioInv (149 / 100000) 10 : ℚ) : ℝ) - 1) * lam := fun a ha h =>
      (le_lam ha (by positivity) hl.le hS h).trans (by gcongr)
    have hr : (1 : ℝ) ≤ ((ratioInv (149 / 100000) 10 : ℚ) : ℝ) := by exact_mod_cast ratioInv_ge (by norm_num) 10
    have hR := ratio_first hx hy hz hr (f x hx r1) (f y hy r2) (f z hz r3)
    split_ifs
    · exact ⟨_, rfl⟩
    · exact rdLoop_conv (by norm_num) (by norm_num) 9 (by positivity) (by positivity) (by positivity) hR
  obtain ⟨o, ho⟩ := hloop
  unfold rd
  simp only []
  rw [if_neg]
  · rw [ho]; exact ⟨_, rfl⟩
  · rw [not_or, not_or, not_lt, not_lt, not_lt]
    exact ⟨le_min hx hy, le_min h1 h2, max_le (max_le b1 b2) b3⟩

end Russell.Lab
