import Verif.Lab.CarlsonRJ

/-!
# The elliptic integral of the third kind `elliptic_pi` (property C108)

Model of russell_lab/src/math/elliptic.rs:207-235 in exact real arithmetic.
-/

namespace Russell.Lab

open MeasureTheory Set Real Russell Russell.Res

/-! ## Convergence of `rc` -/

theorem rcLoop_conv {τ : ℚ} (hτ0 : 0 ≤ τ) (hτ : τ < 12 / 10000) (k : ℕ) {x y : ℝ} (hx : 0 < x) (hy : 0 < y)
    (h : RatioLe x y y (ratioInv τ (k + 1))) : ∃ o, rcLoop (k + 1) x y = some o := by
  induction k generalizing x y with
  | zero =>
    have hr : (1 : ℝ) ≤ (ratioInv τ 0 : ℚ) := by exact_mod_cast ratioInv_ge hτ0 0
    rw [ratioInv] at h
    push_cast at h
    obtain ⟨xy, -, yx, -, -, -⟩ := ratio_step hx hy hy hr h (2 * √x * √y + y) (by
      have := Real.mul_self_sqrt hy.le
      linear_combination -this)
    simp only [rcLoop]
    have hl : 0 < 2 * √x * √y + y := by positivity
    set lam := 2 * √x * √y + y
    have e0 : ((ratioInv τ 0 : ℚ) : ℝ) - 1 < 0.0012 := by
      have : ((τ : ℚ) : ℝ) < ((12 / 10000 : ℚ) : ℝ) := Rat.cast_lt.2 hτ
      push_cast at this
      rw [ratioInv]; push_cast; norm_num; linarith
    generalize ((ratioInv τ 0 : ℚ) : ℝ) = r at *
    have px : 0 < 1 / 4 * (x + lam) := by positivity
    have py : 0 < 1 / 4 * (y + lam) := by positivity
    generalize 1 / 4 * (x + lam) = x' at *
    generalize 1 / 4 * (y + lam) = y' at *
    have ax : x' ≤ r * x' := by nlinarith
    have ay : y' ≤ r * y' := by nlinarith
    rw [if_pos]
    · exact ⟨_, rfl⟩
    · rw [← abs_neg, ← neg_div, neg_sub]
      refine lt_of_le_of_lt (dev_le (r := r) py hr (by linarith) (by linarith)) e0
  | succ k ih =>
    have hr : (1 : ℝ) ≤ (ratioInv τ (k + 1) : ℚ) := by exact_mod_cast ratioInv_ge hτ0 (k + 1)
    have h' := h
    rw [ratioInv] at h'
    push_cast at h'
    have hs := ratio_step hx hy hy hr h' (2 * √x * √y + y) (by
      have := Real.mul_self_sqrt hy.le
      linear_combination -this)
    rw [rcLoop]
    split_ifs
    · exact ⟨_, rfl⟩
    · exact ih (by positivity) (by positivity) hs

theorem ratioInv_rc : (10 : ℚ) ^ 60 ≤ ratioInv (119 / 100000) 11 := by
  norm_num [ratioInv]

/-- `rc` converges for positive arguments with a ratio of up to `10⁶⁰` -/
theorem rc_ok {x y : ℝ} (hx : 0 < x) (hy : 0 < y) (h1 : 5 * f64MinPos ≤ x + y) (h2 : x + y ≤ 0.2 * f64Max)
    (r1 : x ≤ 10 ^ 60 * y) (r2 : y ≤ 10 ^ 60 * x) : ∃ v, rc x y = .ok v := by
  have q : (10 : ℝ) ^ 60 ≤ ((ratioInv (119 / 100000) 11 : ℚ) : ℝ) := by exact_mod_cast ratioInv_rc
  have q1 : (1 : ℝ) ≤ ((ratioInv (119 / 100000) 11 : ℚ) : ℝ) := by exact_mod_cast ratioInv_ge (by norm_num) 11
  obtain ⟨⟨ave, s⟩, ho⟩ := rcLoop_conv (τ := 119 / 100000) (by norm_num) (by norm_num) 10 hx hy
    ⟨r1.trans (by gcongr), r1.trans (by gcongr), r2.trans (by gcongr), by nlinarith, r2.trans (by gcongr), by nlinarith⟩
  have hc : 0 ≤ 2.236 / √(5 * f64MinPos) := by positivity
  unfold rc
  simp only []
  rw [if_neg, if_pos hy]
  · simp only []
    rw [ho]
    exact ⟨_, rfl⟩
  · rw [abs_of_pos hy]
    rintro (h | h | h | h | ⟨h, -⟩) <;> linarith

/-! ## Convergence of `rj` -/

/-- the degenerate integrals needed in one step of `rj` -/
theorem rj_rc_ok {x y z p : ℝ} (hz : 1 / 10 ^ 19 ≤ z) (hp : 1 / 10 ^ 19 ≤ p) (hx1 : x ≤ 1) (hy1 : y ≤ 1) (hz1 : z ≤ 1) (hp1 : p ≤ 1)
    (lam : ℝ) (hl : lam = √x * (√y + √z) + √y * √z) :
    ∃ c, rc ((p * (√x + √y + √z) + √x * √y * √z) ^ 2) (p * (p + lam) ^ 2) = .ok c := by
  have hμ : (0 : ℝ) < 1 / 10 ^ 19 := by positivity
  obtain ⟨μ, hμe⟩ : ∃ μ : ℝ, μ = 1 / 10 ^ 19 := ⟨_, rfl⟩
  rw [← hμe] at hz hp hμ
  have sx := Real.sqrt_nonneg x
  have sy := Real.sqrt_nonneg y
  have sz := Real.sqrt_nonneg z
  have sx1 : √x ≤ 1 := Real.sqrt_le_one.2 hx1
  have sy1 : √y ≤ 1 := Real.sqrt_le_one.2 hy1
  have sz1 : √z ≤ 1 := Real.sqrt_le_one.2 hz1
  have ezz := Real.sq_sqrt (show 0 ≤ z by linarith)
  have hl0 : 0 ≤ lam := by rw [hl]; positivity
  have hl3 : lam ≤ 3 := by
    rw [hl]
    have h1 : √x * (√y + √z) ≤ 1 * (1 + 1) := by gcongr
    have h2 : √y * √z ≤ 1 * 1 := by gcongr
    linarith
  have hp0 : 0 < p := by linarith
  -- bounds of the first argument
  have a1 : p * √z ≤ p * (√x + √y + √z) + √x * √y * √z := by
    have : 0 ≤ √x * √y * √z := by positivity
    nlinarith
  have a2 : p * (√x + √y + √z) + √x * √y * √z ≤ 4 := by
    have h1 : p * (√x + √y + √z) ≤ 1 * (1 + 1 + 1) := by gcongr
    have h2 : √x * √y * √z ≤ 1 * 1 * 1 := by gcongr
    linarith
  have a0 : 0 ≤ p * √z := by positivity
  have hα1 : μ ^ 3 ≤ (p * (√x + √y + √z) + √x * √y * √z) ^ 2 := by
    calc μ ^ 3 = μ ^ 2 * μ := by ring
      _ ≤ p ^ 2 * √z ^ 2 := by rw [ezz]; gcongr
      _ = (p * √z) ^ 2 := by ring
      _ ≤ _ := by gcongr
  have hα2 : (p * (√x + √y + √z) + √x * √y * √z) ^ 2 ≤ 16 := by
    calc (p * (√x + √y + √z) + √x * √y * √z) ^ 2 ≤ 4 ^ 2 := by gcongr
      _ = 16 := by norm_num
  have hβ1 : μ ^ 3 ≤ p * (p + lam) ^ 2 := by
    calc μ ^ 3 = μ * μ ^ 2 := by ring
      _ ≤ p * (p + lam) ^ 2 := by gcongr; linarith
  have hβ2 : p * (p + lam) ^ 2 ≤ 16 := by
    calc p * (p + lam) ^ 2 ≤ 1 * (1 + 3) ^ 2 := by gcongr
      _ = 16 := by norm_num
  have hμ3 : 0 < μ ^ 3 := by positivity
  have hnum : (16 : ℝ) ≤ 10 ^ 60 * μ ^ 3 := by rw [hμe]; norm_num
  have ht := f64MinPos_le 240 (by norm_num)
  have ht2 : 5 * ((1 : ℝ) / 2 ^ 240) ≤ μ ^ 3 := by rw [hμe]; norm_num
  have hb : (32 : ℝ) ≤ 0.2 * f64Max := by
    have : (160 : ℝ) ≤ f64Max := by
      refine le_trans ?_ f64Max_ge
      calc (160 : ℝ) ≤ 2 ^ 8 := by norm_num
        _ ≤ 2 ^ 1023 := pow_le_pow_right₀ (by norm_num) (by norm_num)
    norm_num only
    linarith
  refine rc_ok (by linarith) (by linarith) (by linarith) (by linarith) ?_ ?_
  · calc _ ≤ (16 : ℝ) := hα2
      _ ≤ 10 ^ 60 * μ ^ 3 := hnum
      _ ≤ _ := by gcongr
  · calc _ ≤ (16 : ℝ) := hβ2
      _ ≤ 10 ^ 60 * μ ^ 3 := hnum
      _ ≤ _ := by gcongr

/-- the fourth variable of `rj` does not enter `λ` -/
theorem ratio_p {x y z p r : ℝ} (hx : 0 < x) (hy : 0 < y) (hz : 0 < z) (hp : 0 < p) (hr : 1 ≤ r)
    (h1 : z ≤ r ^ 2 * x) (h2 : z ≤ r ^ 2 * y) (h3 : z ≤ r ^ 2 * p) :
    z + (√x * (√y + √z) + √y * √z) ≤ (1 + r) / 2 * (p + (√x * (√y + √z) + √y * √z)) := by
  have hg : 0 ≤ (1 + r) / 2 := by linarith
  rcases le_total x p with h | h
  · have := ratio_pair hx hz hy hr h1 h2
    rw [show √x * (√z + √y) + √z * √y = √x * (√y + √z) + √y * √z by ring] at this
    exact this.trans (by gcongr)
  · rcases le_total y p with h' | h'
    · have := ratio_pair hy hz hx hr h2 h1
      rw [show √y * (√z + √x) + √z * √x = √x * (√y + √z) + √y * √z by ring] at this
      exact this.trans (by gcongr)
    · have ez := Real.sq_sqrt hz.le
      have ep := Real.sq_sqrt hp.le
      have qp : 0 < √p := Real.sqrt_pos.2 hp
      have qz : 0 < √z := Real.sqrt_pos.2 hz
      have qx : √p ≤ √x := Real.sqrt_le_sqrt h
      have qy : √p ≤ √y := Real.sqrt_le_sqrt h'
      have hzp : √z ≤ r * √p := by
        apply Real.sqrt_le_iff.2
        refine ⟨by positivity, ?_⟩
        rw [mul_pow, ep]; exact h3
      have hl : 2 * (√p * √z) + √p ^ 2 ≤ √x * (√y + √z) + √y * √z := by
        have b1 : √p * √p ≤ √x * √y := by gcongr
        have b2 : √p * √z ≤ √x * √z := by gcongr
        have b3 : √p * √z ≤ √y * √z := by gcongr
        nlinarith
      generalize √x * (√y + √z) + √y * √z = L at *
      generalize √p = P at *
      generalize √z = Z at *
      rw [← ez, ← ep]
      have h2 : 0 ≤ (r * P - Z) * (P + Z) := mul_nonneg (by linarith) (by linarith)
      nlinarith

/-- the invariant of the convergence proof -/
structure RjInv (x y z p r : ℝ) : Prop where
  mx : 1 / 10 ^ 19 ≤ x
  my : 1 / 10 ^ 19 ≤ y
  mp : 1 / 10 ^ 19 ≤ p
  xz : x ≤ z
  yz : y ≤ z
  pz : p ≤ z
  z1 : z ≤ 1
  zx : z ≤ r * x
  zy : z ≤ r * y
  zp : z ≤ r * p

theorem rjInv_step {x y z p r : ℝ} (hr : 1 ≤ r) (h : RjInv x y z p ((2 * r - 1) ^ 2)) (lam : ℝ) (hl : lam = √x * (√y + √z) + √y * √z) :
    RjInv (1 / 4 * (x + lam)) (1 / 4 * (y + lam)) (1 / 4 * (z + lam)) (1 / 4 * (p + lam)) r := by
  have hμ : (0 : ℝ) < 1 / 10 ^ 19 := by positivity
  obtain ⟨μ, hμe⟩ : ∃ μ : ℝ, μ = 1 / 10 ^ 19 := ⟨_, rfl⟩
  obtain ⟨mx, my, mp, xz, yz, pz, z1, zx, zy, zp⟩ := h
  rw [← hμe] at mx my mp hμ
  have hx : 0 < x := by linarith
  have hy : 0 < y := by linarith
  have hz : 0 < z := by linarith
  have hp : 0 < p := by linarith
  have hr' : 1 ≤ 2 * r - 1 := by linarith
  have e : (1 + (2 * r - 1)) / 2 = r := by ring
  have p1 := ratio_pair hx hz hy hr' zx zy
  have p2 := ratio_pair hy hz hx hr' zy zx
  have p3 := ratio_p hx hy hz hp hr' zx zy zp
  rw [e] at p1 p2 p3
  rw [show √x * (√z + √y) + √z * √y = lam by rw [hl]; ring] at p1
  rw [show √y * (√z + √x) + √z * √x = lam by rw [hl]; ring] at p2
  rw [← hl] at p3
  have sm : √μ * √μ = μ := Real.mul_self_sqrt hμ.le
  have szz : √z * √z = z := Real.mul_self_sqrt hz.le
  have qx : √μ ≤ √x := Real.sqrt_le_sqrt mx
  have qy : √μ ≤ √y := Real.sqrt_le_sqrt my
  have qz : √μ ≤ √z := Real.sqrt_le_sqrt (by linarith)
  have ux : √x ≤ √z := Real.sqrt_le_sqrt xz
  have uy : √y ≤ √z := Real.sqrt_le_sqrt yz
  have hlow : 3 * μ ≤ lam := by
    have h1 : √μ * (√μ + √μ) ≤ √x * (√y + √z) := by gcongr
    have h2 : √μ * √μ ≤ √y * √z := by gcongr
    rw [hl]; nlinarith
  have hup : lam ≤ 3 * z := by
    have h1 : √x * (√y + √z) ≤ √z * (√z + √z) := by gcongr
    have h2 : √y * √z ≤ √z * √z := by gcongr
    rw [hl]; nlinarith
  exact ⟨by rw [← hμe]; linarith, by rw [← hμe]; linarith, by rw [← hμe]; linarith, by linarith, by linarith, by linarith, by linarith, by linarith, by linarith, by linarith⟩

theorem rjInv_rc {x y z p r : ℝ} (h : RjInv x y z p r) (lam : ℝ) (hl : lam = √x * (√y + √z) + √y * √z) :
    ∃ c, rc ((p * (√x + √y + √z) + √x * √y * √z) ^ 2) (p * (p + lam) ^ 2) = .ok c := by
  have hμ : (0 : ℝ) < 1 / 10 ^ 19 := by positivity
  exact rj_rc_ok (by linarith [h.mx, h.xz]) h.mp (by linarith [h.xz, h.z1]) (by linarith [h.yz, h.z1]) h.z1
    (by linarith [h.pz, h.z1]) lam hl

theorem rjLoop_conv {τ : ℚ} (hτ0 : 0 ≤ τ) (hτ : τ < 15 / 10000) (k : ℕ) {x y z p sum fac : ℝ}
    (h : RjInv x y z p (ratioInv τ (k + 1))) : ∃ o, rjLoop (k + 1) sum fac x y z p = .ok (some o) := by
  induction k generalizing x y z p sum fac with
  | zero =>
    have hr : (1 : ℝ) ≤ (ratioInv τ 0 : ℚ) := by exact_mod_cast ratioInv_ge hτ0 0
    obtain ⟨c, hc⟩ := rjInv_rc h _ rfl
    rw [ratioInv] at h
    push_cast at h
    obtain ⟨mx, my, mp, xz, yz, pz, z1, zx, zy, zp⟩ := rjInv_step hr h _ rfl
    have hμ : (0 : ℝ) < 1 / 10 ^ 19 := by positivity
    simp only [rjLoop]
    rw [hc, ok_bind]
    set lam := √x * (√y + √z) + √y * √z
    have e0 : ((ratioInv τ 0 : ℚ) : ℝ) - 1 < 0.0015 := by
      have : ((τ : ℚ) : ℝ) < ((15 / 10000 : ℚ) : ℝ) := Rat.cast_lt.2 hτ
      push_cast at this
      rw [ratioInv]; push_cast; norm_num; linarith
    generalize ((ratioInv τ 0 : ℚ) : ℝ) = r at *
    generalize 1 / 4 * (x + lam) = x' at *
    generalize 1 / 4 * (y + lam) = y' at *
    generalize 1 / 4 * (z + lam) = z' at *
    generalize 1 / 4 * (p + lam) = p' at *
    generalize (1 : ℝ) / 10 ^ 19 = μ at *
    have px : 0 < x' := by linarith
    have py : 0 < y' := by linarith
    have pp : 0 < p' := by linarith
    have pz' : 0 < z' := by linarith
    have az : z' ≤ r * z' := by nlinarith
    rw [if_pos]
    · exact ⟨_, rfl⟩
    · norm_num only
      refine max_lt (max_lt ?_ ?_) (max_lt ?_ ?_) <;> refine lt_of_le_of_lt (dev_le (r := r) (by assumption) hr (by linarith) (by linarith)) (lt_of_lt_of_eq e0 (by norm_num))
  | succ k ih =>
    have hr : (1 : ℝ) ≤ (ratioInv τ (k + 1) : ℚ) := by exact_mod_cast ratioInv_ge hτ0 (k + 1)
    obtain ⟨c, hc⟩ := rjInv_rc h _ rfl
    have h' := h
    rw [ratioInv] at h'
    push_cast at h'
    have hs := rjInv_step hr h' _ rfl
    rw [rjLoop]
    simp only []
    rw [hc, ok_bind]
    split_ifs
    · exact ⟨_, rfl⟩
    · exact ih hs

theorem rj_tiny : (5 * f64MinPos) ^ (1 / 3 : ℝ) ≤ 1 / 10 ^ 19 := by
  have h := f64MinPos_le 240 (by norm_num)
  have h0 := f64MinPos_pos
  have h1 : 5 * f64MinPos ≤ (1 / 10 ^ 19 : ℝ) ^ (3 : ℝ) := by
    have e : (1 / 10 ^ 19 : ℝ) ^ (3 : ℝ) = (1 / 10 ^ 19) ^ 3 := by rw [← Real.rpow_natCast]; norm_num
    rw [e]
    have : 5 * ((1 : ℝ) / 2 ^ 240) ≤ (1 / 10 ^ 19) ^ 3 := by norm_num
    linarith
  calc (5 * f64MinPos) ^ (1 / 3 : ℝ) ≤ ((1 / 10 ^ 19 : ℝ) ^ (3 : ℝ)) ^ (1 / 3 : ℝ) := Real.rpow_le_rpow (by linarith) h1 (by norm_num)
    _ = 1 / 10 ^ 19 := by rw [← Real.rpow_mul (by positivity)]; norm_num

theorem rj_big : (1 : ℝ) ≤ 0.3 * (0.2 * f64Max) ^ (1 / 3 : ℝ) := by
  have h : (64 : ℝ) ≤ 0.2 * f64Max := by
    have : (320 : ℝ) ≤ f64Max := by
      refine le_trans ?_ f64Max_ge
      calc (320 : ℝ) ≤ 2 ^ 9 := by norm_num
        _ ≤ 2 ^ 1023 := pow_le_pow_right₀ (by norm_num) (by norm_num)
    norm_num only
    linarith
  have h2 : (4 : ℝ) ≤ (0.2 * f64Max) ^ (1 / 3 : ℝ) := by
    calc (4 : ℝ) = ((4 : ℝ) ^ (3 : ℝ)) ^ (1 / 3 : ℝ) := by rw [← Real.rpow_mul (by norm_num)]; norm_num
      _ = (64 : ℝ) ^ (1 / 3 : ℝ) := by norm_num
      _ ≤ _ := Real.rpow_le_rpow (by norm_num) h (by norm_num)
  norm_num only at h2 ⊢
  linarith

/-- `rj` converges for arguments in `[0, 1]`, the third equal to 1, the second and the fourth at least `10⁻¹⁵` -/
theorem rj_ok {x y p : ℝ} (hx : 0 ≤ x) (hx1 : x ≤ 1) (hy : 1 / 10 ^ 15 ≤ y) (hy1 : y ≤ 1) (hp : 1 / 10 ^ 15 ≤ p) (hp1 : p ≤ 1) : ∃ v, rj x y 1 p = .ok v := by
  have h15 : (1 : ℝ) / 10 ^ 19 ≤ 1 / 10 ^ 15 := by norm_num
  have hμ : (0 : ℝ) < 1 / 10 ^ 15 := by positivity
  have hp0 : 0 < p := by linarith
  have hy0 : 0 < y := by linarith
  have hloop : ∃ o, rjLoop 11 0 1 x y 1 p = .ok (some o) := by
    obtain ⟨c, hc⟩ := rj_rc_ok (by norm_num : (1 : ℝ) / 10 ^ 19 ≤ 1) (by linarith) hx1 hy1 le_rfl hp1 _ rfl
    rw [rjLoop]
    simp only []
    rw [hc, ok_bind]
    have hl0 := lam_pos hx hy0.le zero_le_one (by linarith) (by linarith) (by linarith)
    have hlow : 1 / 10 ^ 8 ≤ √x * (√y + √1) + √y * √1 := by
      have h1 : (1 : ℝ) / 10 ^ 8 ≤ √y := by
        apply Real.le_sqrt_of_sq_le
        refine le_trans ?_ hy
        norm_num
      have h2 : 0 ≤ √x * (√y + √1) := by positivity
      rw [Real.sqrt_one] at *
      linarith
    have hup : √x * (√y + √1) + √y * √1 ≤ 3 := by
      have h1 : √x ≤ 1 := Real.sqrt_le_one.2 hx1
      have h2 : √y ≤ 1 := Real.sqrt_le_one.2 hy1
      rw [Real.sqrt_one]
      have h3 : √x * (√y + 1) ≤ 1 * (1 + 1) := by gcongr
      linarith
    set lam := √x * (√y + √1) + √y * √1
    have q : (10 : ℝ) ^ 33 ≤ ((ratioInv (149 / 100000) 10 : ℚ) : ℝ) - 1 := by
      have := ratioInv_rd
      have : ((10 : ℚ) ^ 33 + 1 : ℝ) ≤ ((ratioInv (149 / 100000) 10 : ℚ) : ℝ) := by exact_mod_cast this
      push_cast at this
      linarith
    have hr : (1 : ℝ) ≤ ((ratioInv (149 / 100000) 10 : ℚ) : ℝ) := by exact_mod_cast ratioInv_ge (by norm_num) 10
    generalize hR : ((ratioInv (149 / 100000) 10 : ℚ) : ℝ) = R at *
    have hRl : 1 ≤ (R - 1) * lam := by
      calc (1 : ℝ) ≤ 10 ^ 33 * (1 / 10 ^ 8) := by norm_num
        _ ≤ _ := by gcongr
    have hinv : RjInv (1 / 4 * (x + lam)) (1 / 4 * (y + lam)) (1 / 4 * (1 + lam)) (1 / 4 * (p + lam)) R := by
      have h8 : (1 : ℝ) / 10 ^ 19 ≤ 1 / 4 * (1 / 10 ^ 8) := by norm_num
      have ax : 0 ≤ R * x := by positivity
      have ay : 0 ≤ R * y := by positivity
      have ap : 0 ≤ R * p := by positivity
      exact ⟨by linarith, by linarith, by linarith, by linarith, by linarith, by linarith, by linarith, by linarith, by linarith, by linarith⟩
    split_ifs
    · exact ⟨_, rfl⟩
    · exact rjLoop_conv (τ := 149 / 100000) (by norm_num) (by norm_num) 9 (by rw [hR]; exact hinv)
  obtain ⟨o, ho⟩ := hloop
  have ht := rj_tiny
  have hb := rj_big
  have h1 : (1 : ℝ) / 10 ^ 15 ≤ 1 := by norm_num
  unfold rj
  simp only []
  rw [if_neg, if_pos hp0, ho, ok_bind]
  · exact ⟨_, rfl⟩
  · rw [abs_of_pos hp0, not_or, not_or, not_lt, not_lt, not_lt]
    exact ⟨le_min (le_min hx hy0.le) zero_le_one, le_min (le_min (by linarith) (by linarith)) (le_min (by linarith) (by linarith)),
      max_le (max_le (by linarith) (by linarith)) (max_le (by linarith) (by linarith))⟩

/-! ## `elliptic_pi` -/

/-- Legendre's integral of the third kind, as documented at elliptic.rs:155-163 -/
noncomputable def legendrePi (n φ m : ℝ) : ℝ := ∫ θ in (0 : ℝ)..φ, 1 / ((1 - n * sin θ ^ 2) * √(1 - m * sin θ ^ 2))

/-- `elliptic_pi` (elliptic.rs:207-235); `⊤` is `f64::INFINITY` -/
noncomputable def ellipticPi (n phi m : ℝ) : Res (WithTop ℝ) :=
  if phi < 0 ∨ m < 0 then .err "phi and m must be non-negative"
  else if phi > π / 2 + f64Epsilon then .err "phi must be in 0 ≤ phi ≤ π/2"
  else if phi < f64MinPos then .ok ((0 : ℝ) : WithTop ℝ)
  else
    let s := sin phi
    let mss := m * s * s
    if mss > 1 then .err "m must satisfy: 0 ≤ m·sin²(φ) ≤ 1"
    else if |mss - 1| < 10 * f64Epsilon then .ok ⊤
    else
      let nss := n * s * s
      if |nss - 1| < 10 * f64Epsilon then .ok ⊤
      else
        let c := cos phi
        let cc := c * c
        let q := 1 - mss
        let p := 1 - nss
        rf cc q 1 >>= fun v => rj cc q 1 p >>= fun w => .ok ((s * (v + nss * w / 3) : ℝ) : WithTop ℝ)

theorem leg_rj_pointwise {φ θ m n : ℝ} (hφ : φ ≤ π / 2) (hθ : θ ∈ Ioo 0 φ) (hm : 0 ≤ m) (hmss : m * sin φ * sin φ ≤ 1) :
    2 * sin φ ^ 2 * cos θ / sin θ ^ 3 * (1 / (√((legMap φ θ + cos φ * cos φ) * (legMap φ θ + (1 - m * sin φ * sin φ)) * (legMap φ θ + 1)) * (legMap φ θ + (1 - n * sin φ * sin φ)))) =
      2 / sin φ ^ 3 * (sin θ ^ 2 / ((1 - n * sin θ ^ 2) * √(1 - m * sin θ ^ 2))) := by
  have ha := leg_arg_pos hφ hθ hm hmss
  obtain ⟨e1, e⟩ := leg_factors (m := m) hφ hθ
  have h1 := sin_pos_of_mem hφ hθ
  have h2 := cos_pos_of_mem hφ hθ
  have h3 : 0 < sin φ := h1.trans (sin_lt_of_mem hφ hθ)
  have h4 : 0 < √(1 - m * sin θ ^ 2) := Real.sqrt_pos.2 ha
  have e3 : legMap φ θ + (1 - n * sin φ * sin φ) = sin φ ^ 2 * (1 - n * sin θ ^ 2) / sin θ ^ 2 := by
    unfold legMap; field_simp; ring
  rw [e, e3]
  by_cases hn : 1 - n * sin θ ^ 2 = 0
  · rw [hn]; simp
  · field_simp

theorem leg_n_pos {φ θ n : ℝ} (hφ : φ ≤ π / 2) (h : θ ∈ Ioo 0 φ) (hn : n * sin φ * sin φ < 1) : 0 < 1 - n * sin θ ^ 2 := by
  have h1 := sin_pos_of_mem hφ h
  have h3 := sin_lt_of_mem hφ h
  rcases le_total n 0 with hn0 | hn0
  · have : n * sin θ ^ 2 ≤ 0 := mul_nonpos_of_nonpos_of_nonneg hn0 (sq_nonneg _)
    linarith
  · have : n * sin θ ^ 2 ≤ n * sin φ ^ 2 := by gcongr
    nlinarith

/-- Legendre's integral of the third kind in terms of Carlson's -/
theorem legendrePi_eq {φ m n : ℝ} (h0 : 0 < φ) (hφ : φ ≤ π / 2) (hm : 0 ≤ m) (hmss : m * sin φ * sin φ < 1) (hn : n * sin φ * sin φ < 1) :
    sin φ * (n * sin φ * sin φ * carlsonRJ (cos φ * cos φ) (1 - m * sin φ * sin φ) 1 (1 - n * sin φ * sin φ) / 3) = legendrePi n φ m - legendreF φ m := by
  have hs : 0 < sin φ := sin_pos_of_pos_of_lt_pi h0 (by linarith [pi_pos])
  have hF := leg_integrable_F h0 hφ hm hmss.le (Or.inr hmss)
  have hcc := mul_self_nonneg (cos φ)
  have hi := leg_integrable h0 hφ _ (rj_integrable_of (p := 1 - n * sin φ * sin φ) hcc (sub_nonneg.2 hmss.le) one_pos (leg_sum_pos h0 hmss.le (Or.inr hmss)) (by linarith))
  have hS : IntegrableOn (fun θ => sin θ ^ 2 / ((1 - n * sin θ ^ 2) * √(1 - m * sin θ ^ 2))) (Ioo 0 φ) := by
    have h2 := (integrableOn_congr_fun (fun θ hθ => leg_rj_pointwise (n := n) hφ hθ hm hmss.le) measurableSet_Ioo).1 hi
    have h3 := h2.const_mul (sin φ ^ 3 / 2)
    refine h3.congr (Filter.Eventually.of_forall fun θ => ?_)
    simp only []
    field_simp
  have e1 : carlsonRJ (cos φ * cos φ) (1 - m * sin φ * sin φ) 1 (1 - n * sin φ * sin φ) = 3 / sin φ ^ 3 * ∫ θ in Ioo 0 φ, sin θ ^ 2 / ((1 - n * sin θ ^ 2) * √(1 - m * sin θ ^ 2)) := by
    rw [carlsonRJ, leg_subst h0 hφ, setIntegral_congr_fun measurableSet_Ioo (fun θ hθ => leg_rj_pointwise (n := n) hφ hθ hm hmss.le), integral_const_mul]
    ring
  have e2 : legendrePi n φ m = ∫ θ in Ioo 0 φ, (1 / √(1 - m * sin θ ^ 2) + n * (sin θ ^ 2 / ((1 - n * sin θ ^ 2) * √(1 - m * sin θ ^ 2)))) := by
    unfold legendrePi
    rw [intervalIntegral.integral_of_le h0.le, integral_Ioc_eq_integral_Ioo]
    refine setIntegral_congr_fun measurableSet_Ioo fun θ hθ => ?_
    have ha := leg_arg_pos hφ hθ hm hmss.le
    have hb := leg_n_pos hφ hθ hn
    have h4 : 0 < √(1 - m * sin θ ^ 2) := Real.sqrt_pos.2 ha
    field_simp
    ring
  rw [e1, e2, legendreF_Ioo h0, integral_add hF (hS.const_mul n), integral_const_mul, add_sub_cancel_left]
  generalize (∫ θ in Ioo 0 φ, sin θ ^ 2 / ((1 - n * sin θ ^ 2) * √(1 - m * sin θ ^ 2))) = I
  have hs' := hs.ne'
  field_simp

/-- C108: whatever `rc` returns for `y > 0` is `½ ∫₀^∞ dt/(√(t+x) (t+y))` to a relative accuracy of `2⁻⁵⁴` -/
theorem C108_rc_accurate {x y v : ℝ} (hy : 0 < y) (h : rc x y = .ok v) :
    |v - 1 / 2 * ∫ t in Ioi (0 : ℝ), 1 / (√(t + x) * (t + y))| ≤ 1 / 2 ^ 54 * (1 / 2 * ∫ t in Ioi (0 : ℝ), 1 / (√(t + x) * (t + y))) :=
  (rc_accurate hy h).1

/-- C108: `rc` converges for positive arguments of a ratio up to `10⁶⁰` -/
theorem C108_rc_converges {x y : ℝ} (hx : 0 < x) (hy : 0 < y) (h1 : 5 * f64MinPos ≤ x + y) (h2 : x + y ≤ 0.2 * f64Max)
    (r1 : x ≤ 10 ^ 60 * y) (r2 : y ≤ 10 ^ 60 * x) : ∃ v, rc x y = .ok v := rc_ok hx hy h1 h2 r1 r2

example : ∃ v, rc 1 (1 / 2) = .ok v := by
  have h := f64MinPos_le 3 (by norm_num)
  have hb := f64Max_ge_5
  have hp := f64MinPos_pos
  apply C108_rc_converges <;> norm_num at * <;> linarith

/-- C108: whatever `rj` returns for `p > 0` is `3/2 ∫₀^∞ dt/(√((t+x)(t+y)(t+z)) (t+p))` to a relative accuracy of `2⁻⁵⁴` -/
theorem C108_rj_accurate {x y z p v : ℝ} (hp : 0 < p) (h : rj x y z p = .ok v) :
    |v - 3 / 2 * ∫ t in Ioi (0 : ℝ), 1 / (√((t + x) * (t + y) * (t + z)) * (t + p))| ≤
      1 / 2 ^ 54 * (3 / 2 * ∫ t in Ioi (0 : ℝ), 1 / (√((t + x) * (t + y) * (t + z)) * (t + p))) :=
  rj_accurate hp h

example : ∃ v, rj 0 (1 / 2) 1 (1 / 3) = .ok v := by
  apply rj_ok <;> norm_num

/-- C108: whatever finite value `elliptic_pi` returns for `n sin²φ < 1` is `∫₀^φ dθ/((1 - n sin²θ)√(1 - m sin²θ))` up to `2⁻⁵⁴` times the sum of
the integral of the first kind and the modulus of the difference of the integrals of the third and the first kind -/
theorem C108_elliptic_pi_accurate {n φ m v : ℝ} (h0 : f64MinPos ≤ φ) (hφ : φ ≤ π / 2) (hn : n * sin φ ^ 2 < 1)
    (h : ellipticPi n φ m = .ok (v : WithTop ℝ)) :
    |v - ∫ θ in (0 : ℝ)..φ, 1 / ((1 - n * sin θ ^ 2) * √(1 - m * sin θ ^ 2))| ≤
      1 / 2 ^ 54 * ((∫ θ in (0 : ℝ)..φ, 1 / √(1 - m * sin θ ^ 2)) +
        |(∫ θ in (0 : ℝ)..φ, 1 / ((1 - n * sin θ ^ 2) * √(1 - m * sin θ ^ 2))) - ∫ θ in (0 : ℝ)..φ, 1 / √(1 - m * sin θ ^ 2)|) := by
  have hp := f64MinPos_pos
  have hφ0 : 0 < φ := by linarith
  have hs : 0 < sin φ := sin_pos_of_pos_of_lt_pi hφ0 (by linarith [pi_pos])
  have he : 0 < f64Epsilon := by unfold f64Epsilon; positivity
  change |v - legendrePi n φ m| ≤ 1 / 2 ^ 54 * (legendreF φ m + |legendrePi n φ m - legendreF φ m|)
  have hn' : n * sin φ * sin φ < 1 := by rw [mul_assoc, ← pow_two]; exact hn
  unfold ellipticPi at h
  split_ifs at h with c1 c2 c3
  · linarith
  simp only [] at h
  split_ifs at h with c4 c5 c6
  · simp at h
  · simp at h
  · rw [not_or, not_lt, not_lt] at c1
    rw [bind_eq_ok] at h
    obtain ⟨f, hf, h⟩ := h
    rw [bind_eq_ok] at h
    obtain ⟨w, hw, h⟩ := h
    simp only [Res.ok.injEq, WithTop.coe_inj] at h
    have hmss : m * sin φ * sin φ < 1 := by
      rcases lt_or_eq_of_le (not_lt.1 c4) with h | h
      · exact h
      · exfalso; apply c5; rw [h]; simp [he]
    have ha := (rf_accurate hf).1
    have hb := rj_accurate (by linarith) hw
    have eF := legendreF_eq hφ0 hφ c1.2 hmss.le
    have eP := legendrePi_eq hφ0 hφ c1.2 hmss hn'
    set RF := carlsonRF (cos φ * cos φ) (1 - m * sin φ * sin φ) 1
    have hJ0 := carlsonRJ_nonneg (cos φ * cos φ) (1 - m * sin φ * sin φ) 1 (show 0 ≤ 1 - n * sin φ * sin φ by linarith)
    set RJ := carlsonRJ (cos φ * cos φ) (1 - m * sin φ * sin φ) 1 (1 - n * sin φ * sin φ)
    have e3 : v - legendrePi n φ m = sin φ * (f - RF) + sin φ * (n * sin φ * sin φ / 3) * (w - RJ) := by
      rw [← h]; linear_combination eF + eP
    have e4 : |legendrePi n φ m - legendreF φ m| = |sin φ * (n * sin φ * sin φ / 3)| * RJ := by
      rw [← eP, ← abs_of_nonneg hJ0, abs_of_nonneg hJ0, ← abs_of_nonneg hJ0, ← abs_mul, abs_of_nonneg hJ0]
      congr 1; ring
    rw [e3, e4, ← eF]
    calc |sin φ * (f - RF) + sin φ * (n * sin φ * sin φ / 3) * (w - RJ)|
        ≤ |sin φ * (f - RF)| + |sin φ * (n * sin φ * sin φ / 3) * (w - RJ)| := abs_add_le _ _
      _ = sin φ * |f - RF| + |sin φ * (n * sin φ * sin φ / 3)| * |w - RJ| := by
          rw [abs_mul, abs_mul (sin φ * (n * sin φ * sin φ / 3)), abs_of_pos hs]
      _ ≤ sin φ * (1 / 2 ^ 54 * RF) + |sin φ * (n * sin φ * sin φ / 3)| * (1 / 2 ^ 54 * RJ) := by gcongr
      _ = _ := by ring

/-- C108: for `n ≥ 0`, `n sin²φ ≤ 1 - 10ε` and `m sin²φ ≤ 1 - 10ε` `elliptic_pi` succeeds, and its relative error is at most `2⁻⁵⁴` -/
theorem C108_elliptic_pi {n φ m : ℝ} (h0 : f64MinPos ≤ φ) (hφ : φ ≤ π / 2) (hm : 0 ≤ m) (hmss : m * sin φ ^ 2 ≤ 1 - 10 * f64Epsilon)
    (hn0 : 0 ≤ n) (hn : n * sin φ ^ 2 ≤ 1 - 10 * f64Epsilon) :
    ∃ v : ℝ, ellipticPi n φ m = .ok (v : WithTop ℝ) ∧
      |v - ∫ θ in (0 : ℝ)..φ, 1 / ((1 - n * sin θ ^ 2) * √(1 - m * sin θ ^ 2))| ≤
        1 / 2 ^ 54 * ∫ θ in (0 : ℝ)..φ, 1 / ((1 - n * sin θ ^ 2) * √(1 - m * sin θ ^ 2)) := by
  have hp := f64MinPos_pos
  have hφ0 : 0 < φ := by linarith
  have he : 0 < f64Epsilon := by unfold f64Epsilon; positivity
  have hmss' : m * sin φ * sin φ ≤ 1 - 10 * f64Epsilon := by rw [mul_assoc, ← pow_two]; exact hmss
  have hn' : n * sin φ * sin φ ≤ 1 - 10 * f64Epsilon := by rw [mul_assoc, ← pow_two]; exact hn
  have hs : 0 < sin φ := sin_pos_of_pos_of_lt_pi hφ0 (by linarith [pi_pos])
  have hq1 : 1 - m * sin φ * sin φ ≤ 1 := by
    have : 0 ≤ m * sin φ * sin φ := by positivity
    linarith
  have hp1 : 1 - n * sin φ * sin φ ≤ 1 := by
    have : 0 ≤ n * sin φ * sin φ := by positivity
    linarith
  have hc0 := mul_self_nonneg (cos φ)
  have hc1 := cos_mul_le φ
  have ht := f64MinPos_le 60 (by norm_num)
  have ht2 : 5 * ((1 : ℝ) / 2 ^ 60) ≤ 10 * f64Epsilon := by unfold f64Epsilon; norm_num
  have ht3 : 5 * ((1 : ℝ) / 2 ^ 60) ≤ 1 := by norm_num
  have h15 : (1 : ℝ) / 10 ^ 15 ≤ 10 * f64Epsilon := by unfold f64Epsilon; norm_num
  have hbig := rf_big
  have he2 : (1 : ℝ) ≤ 10 ^ 84 * (10 * f64Epsilon) := by unfold f64Epsilon; norm_num
  obtain ⟨v, hv⟩ := C107_rf_converges hc0 (by linarith : 0 ≤ 1 - m * sin φ * sin φ) zero_le_one (by linarith) (by linarith) (by linarith) (by linarith) (by linarith) hbig (by
    have e : max (max (cos φ * cos φ) (1 - m * sin φ * sin φ)) 1 = 1 := max_eq_right (max_le hc1 hq1)
    rw [e]
    have h1 : 0 ≤ cos φ * cos φ * (1 - m * sin φ * sin φ) := mul_nonneg hc0 (by linarith)
    calc (1 : ℝ) ^ 2 = 1 := by norm_num
      _ ≤ 10 ^ 84 * (10 * f64Epsilon) := he2
      _ ≤ _ := by gcongr; linarith)
  obtain ⟨w, hw⟩ := rj_ok hc0 hc1 (by linarith : 1 / 10 ^ 15 ≤ 1 - m * sin φ * sin φ) hq1 (by linarith : 1 / 10 ^ 15 ≤ 1 - n * sin φ * sin φ) hp1
  have hval : ellipticPi n φ m = .ok ((sin φ * (v + n * sin φ * sin φ * w / 3) : ℝ) : WithTop ℝ) := by
    unfold ellipticPi
    rw [if_neg (by rintro (h | h) <;> linarith), if_neg (by linarith), if_neg (by linarith)]
    simp only []
    rw [if_neg (by linarith), if_neg (by rw [abs_sub_comm, abs_of_nonneg (by linarith)]; linarith),
      if_neg (by rw [abs_sub_comm, abs_of_nonneg (by linarith)]; linarith), hv, ok_bind, hw, ok_bind]
  refine ⟨_, hval, ?_⟩
  have h := C108_elliptic_pi_accurate h0 hφ (by linarith) hval
  have hge : (∫ θ in (0 : ℝ)..φ, 1 / √(1 - m * sin θ ^ 2)) ≤ ∫ θ in (0 : ℝ)..φ, 1 / ((1 - n * sin θ ^ 2) * √(1 - m * sin θ ^ 2)) := by
    have eP := legendrePi_eq hφ0 hφ hm (by linarith) (show n * sin φ * sin φ < 1 by linarith)
    have hJ0 := carlsonRJ_nonneg (cos φ * cos φ) (1 - m * sin φ * sin φ) 1 (show 0 ≤ 1 - n * sin φ * sin φ by linarith)
    have : 0 ≤ sin φ * (n * sin φ * sin φ * carlsonRJ (cos φ * cos φ) (1 - m * sin φ * sin φ) 1 (1 - n * sin φ * sin φ) / 3) := by positivity
    change legendreF φ m ≤ legendrePi n φ m
    linarith
  rw [abs_of_nonneg (sub_nonneg.2 hge), add_sub_cancel] at h
  exact h

/-- the complete integral of the third kind for `n = m = 1/2` -/
example : f64MinPos ≤ π / 2 ∧ (1 / 2 : ℝ) * sin (π / 2) ^ 2 ≤ 1 - 10 * f64Epsilon := by
  have h := f64MinPos_le 3 (by norm_num)
  have := pi_gt_three
  refine ⟨by norm_num at h; linarith, ?_⟩
  rw [sin_pi_div_two]; unfold f64Epsilon; norm_num

/-- C108: the arguments outside the documented domain are rejected -/
theorem C108_elliptic_pi_domain (n phi m : ℝ) (h : phi < 0 ∨ m < 0 ∨ π / 2 + f64Epsilon < phi ∨ (f64MinPos ≤ phi ∧ 1 < m * sin phi ^ 2)) :
    ∃ e, ellipticPi n phi m = .err e := by
  unfold ellipticPi
  by_cases h1 : phi < 0 ∨ m < 0
  · rw [if_pos h1]; exact ⟨_, rfl⟩
  · rw [if_neg h1]
    by_cases h2 : phi > π / 2 + f64Epsilon
    · rw [if_pos h2]; exact ⟨_, rfl⟩
    · rw [if_neg h2]
      have h3 : f64MinPos ≤ phi ∧ 1 < m * sin phi ^ 2 := by
        rcases h with h | h | h | h
        · exact absurd (Or.inl h) h1
        · exact absurd (Or.inr h) h1
        · exact absurd h h2
        · exact h
      have h6 : m * sin phi * sin phi > 1 := by
        have := h3.2
        rw [pow_two, ← mul_assoc] at this
        exact this
      rw [if_neg (not_lt.2 h3.1)]
      simp only []
      rw [if_pos h6]
      exact ⟨_, rfl⟩

/-- C108: the documented special cases -/
theorem C108_elliptic_pi_special (n m : ℝ) (hm : 0 ≤ m) :
    ellipticPi n 0 m = .ok ((0 : ℝ) : WithTop ℝ) ∧
    (∀ phi, f64MinPos ≤ phi → phi ≤ π / 2 → m * sin phi ^ 2 = 1 → ellipticPi n phi m = .ok ⊤) ∧
    ∀ phi, f64MinPos ≤ phi → phi ≤ π / 2 → m * sin phi ^ 2 ≤ 1 → n * sin phi ^ 2 = 1 → ellipticPi n phi m = .ok ⊤ := by
  have hp := f64MinPos_pos
  have he : 0 < f64Epsilon := by unfold f64Epsilon; positivity
  have hpi := pi_pos
  refine ⟨?_, fun phi h1 h2 h3 => ?_, fun phi h1 h2 h3 h4 => ?_⟩
  · unfold ellipticPi
    rw [if_neg (by rintro (h | h) <;> linarith), if_neg (by linarith), if_pos hp]
  · rw [pow_two, ← mul_assoc] at h3
    unfold ellipticPi
    rw [if_neg (by rintro (h | h) <;> linarith), if_neg (by linarith), if_neg (by linarith)]
    simp only []
    rw [if_neg (by linarith), if_pos (by rw [h3, sub_self, abs_zero]; linarith)]
  · rw [pow_two, ← mul_assoc] at h3 h4
    unfold ellipticPi
    rw [if_neg (by rintro (h | h) <;> linarith), if_neg (by linarith), if_neg (by linarith)]
    simp only []
    rw [if_neg (by linarith)]
    split_ifs with c1 c2
    · rfl
    · rfl
    · exact absurd (by rw [h4, sub_self, abs_zero]; linarith) c2

/-- `elliptic_pi` is infinite although the integral converges: `φ = π/6`, `m = 4`, `n = 1` -/
theorem C108_elliptic_pi_endpoint_counterexample :
    ellipticPi 1 (π / 6) 4 = .ok ⊤ ∧ IntervalIntegrable (fun θ => 1 / ((1 - 1 * sin θ ^ 2) * √(1 - 4 * sin θ ^ 2))) volume 0 (π / 6) := by
  have h := f64MinPos_le 3 (by norm_num)
  have hpi := pi_gt_three
  norm_num at h
  have e : (4 : ℝ) * sin (π / 6) * sin (π / 6) = 1 := by rw [sin_pi_div_six]; norm_num
  refine ⟨(C108_elliptic_pi_special 1 4 (by norm_num)).2.1 _ (by linarith) (by linarith) (by rw [sin_pi_div_six]; norm_num), ?_⟩
  have hF : IntegrableOn (fun θ => 1 / √(1 - 4 * sin θ ^ 2)) (Ioo 0 (π / 6)) :=
    leg_integrable_F (by positivity) (by linarith) (by norm_num) (by rw [e]) (Or.inl (by linarith))
  have hI : IntervalIntegrable (fun θ => 1 / √(1 - 4 * sin θ ^ 2)) volume 0 (π / 6) :=
    (intervalIntegrable_iff_integrableOn_Ioo_of_le (by positivity)).2 hF
  have hc : ContinuousOn (fun θ : ℝ => 1 / (1 - 1 * sin θ ^ 2)) (uIcc 0 (π / 6)) := by
    refine ContinuousOn.div continuousOn_const (by fun_prop) fun θ hθ => ?_
    rw [uIcc_of_le (by positivity)] at hθ
    have : 0 < cos θ := cos_pos_of_mem_Ioo ⟨by linarith [hθ.1], by linarith [hθ.2]⟩
    rw [one_mul, ← cos_sq']
    positivity
  refine (hI.continuousOn_mul hc).congr ?_
  intro θ _
  simp only []
  rw [div_mul_div_comm, one_mul]

/-- C108: the loop of `rj` leaves the value of the integral of the first kind unchanged, so that `rf` may be called after the loop for `p ≤ 0` -/
theorem C108_rj_loop_rf {k : ℕ} {x y z p sum fac : ℝ} (hx : 0 ≤ x) (hy : 0 ≤ y) (hz : 0 ≤ z) (h1 : 0 < x + y) (h2 : 0 < x + z) (h3 : 0 < y + z)
    (hp : 0 < p) (hs : 0 ≤ sum) (hf : 0 < fac) {o : RjOut} (h : rjLoop k sum fac x y z p = .ok (some o)) :
    (∫ t in Ioi (0 : ℝ), 1 / √((t + o.xt) * (t + o.yt) * (t + o.zt))) = ∫ t in Ioi (0 : ℝ), 1 / √((t + x) * (t + y) * (t + z)) := by
  have he : |sum - sum| ≤ 1 / 2 ^ 54 * sum := by rw [sub_self, abs_zero]; positivity
  obtain ⟨pt, ex', -, -, -, -, -, -, -, hF, -⟩ := rjLoop_spec k hx hy hz h1 h2 h3 hp hf he h
  unfold carlsonRF at hF
  linarith

end Russell.Lab
