import Verif.Lab.Elliptic

/-!
# Carlson's algorithms `rc` and `rj`, elliptic integral of the third kind (property C108)

Model of russell_lab/src/math/elliptic.rs:207-235 and 363-498 in exact real arithmetic.
-/

namespace Russell.Lab

open MeasureTheory Set Real Russell Russell.Res

/-- Carlson's integral of the third kind -/
noncomputable def carlsonRJ (x y z p : ℝ) : ℝ := 3 / 2 * ∫ t in Ioi (0 : ℝ), 1 / (√((t + x) * (t + y) * (t + z)) * (t + p))

/-- Carlson's degenerate integral -/
noncomputable def carlsonRC (x y : ℝ) : ℝ := 1 / 2 * ∫ t in Ioi (0 : ℝ), 1 / (√(t + x) * (t + y))

theorem carlsonRC_eq {x y : ℝ} (hx : 0 ≤ x) (hy : 0 ≤ y) : carlsonRC x y = carlsonRF x y y := by
  unfold carlsonRC carlsonRF
  congr 1
  refine setIntegral_congr_fun measurableSet_Ioi fun t ht => ?_
  have ht' : (0 : ℝ) < t := ht
  show 1 / (√(t + x) * (t + y)) = 1 / √((t + x) * (t + y) * (t + y))
  rw [mul_assoc, Real.sqrt_mul (by linarith), Real.sqrt_mul_self (by linarith)]

/-! ## The duplication theorem of the integral of the third kind -/

/-- the square root of the first argument of the degenerate integral along the path -/
noncomputable def rjA (x y z p t : ℝ) : ℝ := (t + p) * (√(t + x) + √(t + y) + √(t + z)) + √(t + x) * √(t + y) * √(t + z)

/-- the substitution that turns the difference of the integrands into the degenerate integral -/
noncomputable def rjMap (x y z p t : ℝ) : ℝ := rjA x y z p t ^ 2 - rjA x y z p 0 ^ 2

variable {x y z p : ℝ}

theorem rjA_pos (hx : 0 ≤ x) (hp : 0 < p) {t : ℝ} (ht : 0 < t) : 0 < rjA x y z p t := by
  have : 0 < √(t + x) := Real.sqrt_pos.2 (by linarith)
  unfold rjA
  positivity

theorem rjA_nonneg (hp : 0 < p) : 0 ≤ rjA x y z p 0 := by
  unfold rjA
  positivity

theorem rjA_strict (hx : 0 ≤ x) (hp : 0 < p) {s t : ℝ} (hs : 0 ≤ s) (h : s < t) : rjA x y z p s < rjA x y z p t := by
  have a : √(s + x) < √(t + x) := Real.sqrt_lt_sqrt (by linarith) (by linarith)
  have b : √(s + y) ≤ √(t + y) := Real.sqrt_le_sqrt (by linarith)
  have c : √(s + z) ≤ √(t + z) := Real.sqrt_le_sqrt (by linarith)
  have h1 : (s + p) * (√(s + x) + √(s + y) + √(s + z)) < (t + p) * (√(t + x) + √(t + y) + √(t + z)) := by
    apply mul_lt_mul' (by linarith) (by linarith) (by positivity) (by linarith)
  have h2 : √(s + x) * √(s + y) * √(s + z) ≤ √(t + x) * √(t + y) * √(t + z) := by gcongr
  unfold rjA
  linarith

theorem rjMap_cont : Continuous (rjMap x y z p) := by
  unfold rjMap rjA
  fun_prop

theorem rjMap_image (hx : 0 ≤ x) (hp : 0 < p) : rjMap x y z p '' Ioi 0 = Ioi 0 := by
  have hA0 := rjA_nonneg (x := x) (y := y) (z := z) hp
  ext s
  constructor
  · rintro ⟨t, ht, rfl⟩
    have := rjA_strict (y := y) (z := z) hx hp le_rfl (show (0 : ℝ) < t from ht)
    show 0 < rjA x y z p t ^ 2 - rjA x y z p 0 ^ 2
    nlinarith
  · intro hs
    have hs' : (0 : ℝ) < s := hs
    -- a point where the map exceeds `s`
    obtain ⟨T, hT0, hT⟩ : ∃ T : ℝ, 0 ≤ T ∧ s ≤ rjMap x y z p T := by
      set B := rjA x y z p 0
      refine ⟨s + B ^ 2 + 1, by positivity, ?_⟩
      set T := s + B ^ 2 + 1
      have hT1 : 1 ≤ T := by have := sq_nonneg B; show 1 ≤ s + B ^ 2 + 1; linarith
      have h1 : 1 ≤ √(T + x) := Real.one_le_sqrt.2 (by linarith)
      have h2 : T ≤ rjA x y z p T := by
        unfold rjA
        have h3 : T * 1 ≤ (T + p) * (√(T + x) + √(T + y) + √(T + z)) := by
          apply mul_le_mul (by linarith) _ (by norm_num) (by linarith)
          have := Real.sqrt_nonneg (T + y)
          have := Real.sqrt_nonneg (T + z)
          linarith
        have : 0 ≤ √(T + x) * √(T + y) * √(T + z) := by positivity
        linarith
      have h4 : T ≤ rjA x y z p T ^ 2 := by nlinarith
      show s ≤ rjA x y z p T ^ 2 - B ^ 2
      have : T = s + B ^ 2 + 1 := rfl
      linarith
    have h0 : rjMap x y z p 0 = 0 := by simp [rjMap]
    obtain ⟨t, ht, e⟩ := intermediate_value_Icc hT0 (rjMap_cont (x := x) (y := y) (z := z) (p := p)).continuousOn ⟨by rw [h0]; exact hs'.le, hT⟩
    refine ⟨t, ?_, e⟩
    rcases eq_or_lt_of_le ht.1 with h | h
    · rw [← h, h0] at e; linarith
    · exact h

theorem rjMap_inj (hx : 0 ≤ x) (hp : 0 < p) : InjOn (rjMap x y z p) (Ioi 0) := by
  have hm : StrictMonoOn (rjMap x y z p) (Ioi 0) := by
    intro s hs t ht h
    have hs' : (0 : ℝ) < s := hs
    have h1 := rjA_strict (y := y) (z := z) hx hp hs'.le h
    have h2 := rjA_pos (y := y) (z := z) hx hp hs'
    show rjA x y z p s ^ 2 - _ < rjA x y z p t ^ 2 - _
    nlinarith
  exact hm.injOn

theorem rjMap_deriv (hx : 0 ≤ x) (hy : 0 ≤ y) (hz : 0 ≤ z) {t : ℝ} (ht : 0 < t) :
    HasDerivAt (rjMap x y z p)
      (rjA x y z p t * (lamAt x y z t * (t + p + lamAt x y z t)) / (√(t + x) * √(t + y) * √(t + z))) t := by
  have px : 0 < t + x := by linarith
  have py : 0 < t + y := by linarith
  have pz : 0 < t + z := by linarith
  have dx := sqrt_shift_deriv px
  have dy := sqrt_shift_deriv py
  have dz := sqrt_shift_deriv pz
  have dp : HasDerivAt (fun t : ℝ => t + p) 1 t := (hasDerivAt_id t).add_const p
  have qx : 0 < √(t + x) := Real.sqrt_pos.2 px
  have qy : 0 < √(t + y) := Real.sqrt_pos.2 py
  have qz : 0 < √(t + z) := Real.sqrt_pos.2 pz
  have hA : HasDerivAt (rjA x y z p) _ t := (dp.mul ((dx.add dy).add dz)).add ((dx.mul dy).mul dz)
  have h := (hA.pow 2).sub_const (rjA x y z p 0 ^ 2)
  refine h.congr_deriv ?_
  simp only [Pi.mul_apply, Pi.add_apply, lamAt]
  generalize rjA x y z p t = A at *
  generalize √(t + x) = X at *
  generalize √(t + y) = Y at *
  generalize √(t + z) = Z at *
  field_simp
  ring

/-- the second argument of the degenerate integral along the path -/
theorem rj_beta (hx : 0 ≤ x) (hy : 0 ≤ y) (hz : 0 ≤ z) {t : ℝ} (ht : 0 ≤ t) :
    (t + p) * (t + p + lamAt x y z t) ^ 2 - rjA x y z p t ^ 2 = (p - x) * (p - y) * (p - z) := by
  have ex := Real.sq_sqrt (show 0 ≤ t + x by linarith)
  have ey := Real.sq_sqrt (show 0 ≤ t + y by linarith)
  have ez := Real.sq_sqrt (show 0 ≤ t + z by linarith)
  unfold rjA lamAt
  have e1 : x = √(t + x) ^ 2 - t := by linarith
  have e2 : y = √(t + y) ^ 2 - t := by linarith
  have e3 : z = √(t + z) ^ 2 - t := by linarith
  generalize √(t + x) = X at *
  generalize √(t + y) = Y at *
  generalize √(t + z) = Z at *
  rw [e1, e2, e3]
  ring

/-- the integrand of the third kind is integrable -/
theorem rj_integrable_of (hx : 0 ≤ x) (hy : 0 ≤ y) (hz : 0 < z) (hxy : 0 < x + y) (hp : 0 < p) :
    IntegrableOn (fun t => 1 / (√((t + x) * (t + y) * (t + z)) * (t + p))) (Ioi 0) := by
  set C : ℝ := 1 + z / p with hC
  have hC1 : 0 ≤ z / p := by positivity
  refine Integrable.mono' ((rd_integrand_integrable hx hy hz hxy).const_mul C) ?_ ?_
  · refine Measurable.aestronglyMeasurable ?_
    fun_prop
  · refine (ae_restrict_iff' measurableSet_Ioi).2 (Filter.Eventually.of_forall fun t ht => ?_)
    have ht' : (0 : ℝ) < t := ht
    have q : 0 < √((t + x) * (t + y) * (t + z)) := Real.sqrt_pos.2 (by positivity)
    rw [Real.norm_of_nonneg (by positivity), mul_one_div, div_le_div_iff₀ (by positivity) (by positivity)]
    have h1 : t + z ≤ C * (t + p) := by
      have : z / p * p = z := div_mul_cancel₀ _ hp.ne'
      rw [hC]; nlinarith
    nlinarith

theorem carlsonRJ_perm : carlsonRJ z y x p = carlsonRJ x y z p := by
  unfold carlsonRJ
  congr 2
  funext t
  congr 3
  ring

theorem rj_integrable (hx : 0 ≤ x) (hy : 0 ≤ y) (hz : 0 ≤ z) (h1 : 0 < x + y) (h2 : 0 < x + z) (h3 : 0 < y + z) (hp : 0 < p) :
    IntegrableOn (fun t => 1 / (√((t + x) * (t + y) * (t + z)) * (t + p))) (Ioi 0) := by
  rcases hz.eq_or_lt with h | h
  · have hx' : 0 < x := by linarith
    have := rj_integrable_of hz hy hx' (by linarith) hp
    refine this.congr (Filter.Eventually.of_forall fun t => ?_)
    show 1 / (√((t + z) * (t + y) * (t + x)) * (t + p)) = 1 / (√((t + x) * (t + y) * (t + z)) * (t + p))
    congr 3
    ring
  · exact rj_integrable_of hx hy h h1 hp

/-- the duplication theorem of the integral of the third kind -/
theorem carlsonRJ_dup (hx : 0 ≤ x) (hy : 0 ≤ y) (hz : 0 ≤ z) (h1 : 0 < x + y) (h2 : 0 < x + z) (h3 : 0 < y + z) (hp : 0 < p)
    (lam : ℝ) (hl : lam = √x * (√y + √z) + √y * √z) :
    carlsonRJ x y z p = 3 * carlsonRC ((p * (√x + √y + √z) + √x * √y * √z) ^ 2) (p * (p + lam) ^ 2) +
      1 / 4 * carlsonRJ (1 / 4 * (x + lam)) (1 / 4 * (y + lam)) (1 / 4 * (z + lam)) (1 / 4 * (p + lam)) := by
  have l0 : lamAt x y z 0 = lam := by simp [lamAt, hl]
  have hlp := lam_pos hx hy hz h1 h2 h3
  rw [← hl] at hlp
  -- the transformed integrand
  have e1 : ∫ t in Ioi (0 : ℝ), 1 / (√((t + 1 / 4 * (x + lam)) * (t + 1 / 4 * (y + lam)) * (t + 1 / 4 * (z + lam))) * (t + 1 / 4 * (p + lam))) =
      ∫ t in Ioi (0 : ℝ), 4 * (1 / (√((t + x) * (t + y) * (t + z)) * (t + p + lamAt x y z t))) := by
    rw [carlson_subst hx hy hz]
    refine setIntegral_congr_fun measurableSet_Ioi fun t ht => ?_
    have ht' : (0 : ℝ) < t := ht
    have ex : dupMap x y z t + 1 / 4 * (x + lam) = 1 / 4 * ((√(t + x) + √(t + y)) * (√(t + x) + √(t + z))) := by
      rw [← dupMap_add x y z hx ht' _ rfl, dupMap, l0]; ring
    have ey : dupMap x y z t + 1 / 4 * (y + lam) = 1 / 4 * ((√(t + y) + √(t + x)) * (√(t + y) + √(t + z))) := by
      rw [← dupMap_add y x z hy ht' _ rfl, dupMap, l0, lamAt_perm1]; ring
    have ez : dupMap x y z t + 1 / 4 * (z + lam) = 1 / 4 * ((√(t + z) + √(t + y)) * (√(t + z) + √(t + x))) := by
      rw [← dupMap_add z y x hz ht' _ rfl, dupMap, l0, lamAt_perm2]; ring
    have ep : dupMap x y z t + 1 / 4 * (p + lam) = 1 / 4 * (t + p + lamAt x y z t) := by
      rw [dupMap, l0]; ring
    have qx : 0 < √(t + x) := Real.sqrt_pos.2 (by linarith)
    have qy : 0 < √(t + y) := Real.sqrt_pos.2 (by linarith)
    have qz : 0 < √(t + z) := Real.sqrt_pos.2 (by linarith)
    have ql : 0 < t + p + lamAt x y z t := by unfold lamAt; positivity
    rw [ex, ey, ez, ep]
    have e1 : √(1 / 4 * ((√(t + x) + √(t + y)) * (√(t + x) + √(t + z))) * (1 / 4 * ((√(t + y) + √(t + x)) * (√(t + y) + √(t + z)))) *
        (1 / 4 * ((√(t + z) + √(t + y)) * (√(t + z) + √(t + x))))) =
        (√(t + x) + √(t + y)) * (√(t + y) + √(t + z)) * (√(t + z) + √(t + x)) / 8 := by
      rw [Real.sqrt_eq_iff_mul_self_eq (by positivity) (by positivity)]
      ring
    have e2 : √((t + x) * (t + y) * (t + z)) = √(t + x) * √(t + y) * √(t + z) := by
      rw [Real.sqrt_mul (by positivity), Real.sqrt_mul (by positivity)]
    rw [e1, e2]
    field_simp
  -- the degenerate integral
  have hA0 : rjA x y z p 0 = p * (√x + √y + √z) + √x * √y * √z := by simp [rjA]
  have e2 : ∫ s in Ioi (0 : ℝ), 1 / (√(s + (p * (√x + √y + √z) + √x * √y * √z) ^ 2) * (s + p * (p + lam) ^ 2)) =
      ∫ t in Ioi (0 : ℝ), (1 / (√((t + x) * (t + y) * (t + z)) * (t + p)) - 1 / (√((t + x) * (t + y) * (t + z)) * (t + p + lamAt x y z t))) := by
    have key := integral_image_eq_integral_abs_deriv_smul (s := Ioi (0 : ℝ)) measurableSet_Ioi
      (fun t ht => (rjMap_deriv (p := p) hx hy hz (show (0 : ℝ) < t from ht)).hasDerivWithinAt) (rjMap_inj (y := y) (z := z) hx hp)
      (fun s => 1 / (√(s + (p * (√x + √y + √z) + √x * √y * √z) ^ 2) * (s + p * (p + lam) ^ 2)))
    rw [rjMap_image hx hp] at key
    rw [key]
    refine setIntegral_congr_fun measurableSet_Ioi fun t ht => ?_
    have ht' : (0 : ℝ) < t := ht
    have px : 0 < t + x := by linarith
    have py : 0 < t + y := by linarith
    have pz : 0 < t + z := by linarith
    have qx : 0 < √(t + x) := Real.sqrt_pos.2 px
    have qy : 0 < √(t + y) := Real.sqrt_pos.2 py
    have qz : 0 < √(t + z) := Real.sqrt_pos.2 pz
    have hA := rjA_pos (y := y) (z := z) hx hp ht'
    have hL : 0 < lamAt x y z t := by unfold lamAt; positivity
    have s1 : rjMap x y z p t + (p * (√x + √y + √z) + √x * √y * √z) ^ 2 = rjA x y z p t ^ 2 := by
      rw [rjMap, hA0]; ring
    have s2 : rjMap x y z p t + p * (p + lam) ^ 2 = (t + p) * (t + p + lamAt x y z t) ^ 2 := by
      have b1 := rj_beta (p := p) hx hy hz ht'.le
      have b0 := rj_beta (p := p) hx hy hz le_rfl
      rw [zero_add, l0] at b0
      rw [rjMap]
      linarith
    have e2 : √((t + x) * (t + y) * (t + z)) = √(t + x) * √(t + y) * √(t + z) := by
      rw [Real.sqrt_mul (by positivity), Real.sqrt_mul (by positivity)]
    have hq : 0 < t + p := by linarith
    simp only [smul_eq_mul]
    rw [s1, s2, e2, Real.sqrt_sq hA.le, abs_of_pos (by positivity)]
    generalize rjA x y z p t = A at *
    generalize lamAt x y z t = L at *
    generalize √(t + x) = X at *
    generalize √(t + y) = Y at *
    generalize √(t + z) = Z at *
    generalize t + p = q at *
    field_simp
    ring
  have hI := rj_integrable hx hy hz h1 h2 h3 hp
  have hR : IntegrableOn (fun t => 1 / (√((t + x) * (t + y) * (t + z)) * (t + p + lamAt x y z t))) (Ioi 0) := by
    refine Integrable.mono' hI ?_ ?_
    · refine Measurable.aestronglyMeasurable ?_
      unfold lamAt
      fun_prop
    · refine (ae_restrict_iff' measurableSet_Ioi).2 (Filter.Eventually.of_forall fun t ht => ?_)
      have ht' : (0 : ℝ) < t := ht
      have hL : 0 ≤ lamAt x y z t := by unfold lamAt; positivity
      have q : 0 < √((t + x) * (t + y) * (t + z)) := Real.sqrt_pos.2 (by positivity)
      rw [Real.norm_of_nonneg (by positivity)]
      apply one_div_le_one_div_of_le (by positivity)
      exact mul_le_mul_of_nonneg_left (by linarith) q.le
  unfold carlsonRJ carlsonRC
  rw [e1, e2, integral_sub hI hR, integral_const_mul]
  ring

/-! ## `rc` -/

/-- the loop of `rc` (elliptic.rs:482-493): the mean and the deviation when it is left by `break` -/
noncomputable def rcLoop : ℕ → ℝ → ℝ → Option (ℝ × ℝ)
  | 0, _, _ => none
  | k + 1, xt, yt =>
    let lam := 2 * √xt * √yt + yt
    let xt := 1 / 4 * (xt + lam)
    let yt := 1 / 4 * (yt + lam)
    let ave := 1 / 3 * (xt + yt + yt)
    let s := (yt - ave) / ave
    if |s| < 0.0012 then some (ave, s) else rcLoop k xt yt

/-- `rc` (elliptic.rs:461-498, constants 528-532) -/
noncomputable def rc (x y : ℝ) : Res ℝ :=
  let tiny := 5 * f64MinPos
  let big := 0.2 * f64Max
  let comp1 := 2.236 / √tiny
  let comp2 := (tiny * big) ^ 2 / 25
  if x < 0 ∨ y = 0 ∨ x + |y| < tiny ∨ x + |y| > big ∨ (y < -comp1 ∧ x > 0 ∧ x < comp2) then
    .err "x must be non-negative. y must not be zero"
  else
    let (xt, yt, w) := if y > 0 then (x, y, (1 : ℝ)) else (x - y, -y, √x / √(x - y))
    match rcLoop 11 xt yt with
    | none => .err "rc failed to converge"
    | some (ave, s) => .ok (w * (1 + s * s * (0.3 + s * (1 / 7 + s * (0.375 + s * (9 / 22))))) / √ave)

theorem carlsonRC_dup {x y : ℝ} (hx : 0 ≤ x) (hy : 0 < y) (lam : ℝ) (hl : lam = 2 * √x * √y + y) :
    carlsonRC (1 / 4 * (x + lam)) (1 / 4 * (y + lam)) = carlsonRC x y := by
  have hl0 : 0 ≤ lam := by rw [hl]; positivity
  rw [carlsonRC_eq (by positivity) (by positivity), carlsonRC_eq hx hy.le]
  refine carlsonRF_dup hx hy.le hy.le lam ?_
  rw [hl]
  have := Real.mul_self_sqrt hy.le
  linear_combination -this

theorem rcLoop_spec (k : ℕ) {x y : ℝ} (hx : 0 ≤ x) (hy : 0 < y) {ave s : ℝ} (h : rcLoop k x y = some (ave, s)) :
    ∃ xt yt, 0 < xt ∧ 0 < yt ∧ carlsonRC xt yt = carlsonRC x y ∧ ave = 1 / 3 * (xt + yt + yt) ∧ s = (yt - ave) / ave ∧ |s| < 0.0012 := by
  induction k generalizing x y with
  | zero => simp [rcLoop] at h
  | succ k ih =>
    have hl : 0 < 2 * √x * √y + y := by positivity
    have hdup := carlsonRC_dup hx hy _ rfl
    simp only [rcLoop] at h
    set lam := 2 * √x * √y + y with hlam
    split_ifs at h with hc
    · simp only [Option.some.injEq, Prod.mk.injEq] at h
      obtain ⟨rfl, rfl⟩ := h
      exact ⟨1 / 4 * (x + lam), 1 / 4 * (y + lam), by positivity, by positivity, hdup, rfl, rfl, hc⟩
    · obtain ⟨xt, yt, a1, a2, a3, a4⟩ := ih (by positivity) (by positivity) h
      exact ⟨xt, yt, a1, a2, a3.trans hdup, a4⟩

/-- for a positive second argument `rc` returns the integral to a relative accuracy of `2⁻⁵⁴` -/
theorem rc_accurate {x y v : ℝ} (hy : 0 < y) (h : rc x y = .ok v) :
    |v - carlsonRC x y| ≤ 1 / 2 ^ 54 * carlsonRC x y ∧ 0 ≤ x := by
  unfold rc at h
  simp only [] at h
  split_ifs at h with hc
  rw [not_or, not_lt] at hc
  have hx := hc.1
  refine ⟨?_, hx⟩
  simp only [] at h
  cases hL : rcLoop 11 x y with
  | none => rw [hL] at h; simp at h
  | some o =>
    obtain ⟨ave, s⟩ := o
    rw [hL] at h
    simp only [Res.ok.injEq] at h
    obtain ⟨xt, yt, px, py, hI, hA, hs, bs⟩ := rcLoop_spec 11 hx hy hL
    have hA0 : 0 < ave := by rw [hA]; positivity
    have ey : -s = (ave - yt) / ave := by rw [hs]; ring
    have ex : 2 * s = (ave - xt) / ave := by
      rw [hs]; field_simp; rw [hA]; ring
    have b1 : |2 * s| ≤ 1 / 400 := by
      rw [abs_mul, abs_two]
      have : |s| ≤ 12 / 10000 := bs.le.trans (by norm_num)
      linarith
    have b2 : |-s| ≤ 1 / 400 := by
      rw [abs_neg]
      have : |s| ≤ 12 / 10000 := bs.le.trans (by norm_num)
      linarith
    have hn := rf_near px py py (by rw [hA]) ex ey ey b1 b2 b2
    rw [← hI, ← h, carlsonRC_eq px.le py.le]
    have e : 1 * (1 + s * s * (0.3 + s * (1 / 7 + s * (0.375 + s * (9 / 22))))) = rfPoly (2 * s * -s - -s * -s) (2 * s * -s * -s) := by
      unfold rfPoly; norm_num; ring
    rw [e]; exact hn

/-! ## `rj` -/

/-- the variables of `rj` after the loop was left by `break` -/
structure RjOut where
  xt : ℝ
  yt : ℝ
  zt : ℝ
  sum : ℝ
  fac : ℝ
  ave : ℝ
  dx : ℝ
  dy : ℝ
  dz : ℝ
  dp : ℝ

/-- the loop of `rj` (elliptic.rs:401-428) -/
noncomputable def rjLoop : ℕ → ℝ → ℝ → ℝ → ℝ → ℝ → ℝ → Res (Option RjOut)
  | 0, _, _, _, _, _, _ => .ok none
  | k + 1, sum, fac, xt, yt, zt, pt =>
    let sqx := √xt
    let sqy := √yt
    let sqz := √zt
    let lam := sqx * (sqy + sqz) + sqy * sqz
    let alpha := (pt * (sqx + sqy + sqz) + sqx * sqy * sqz) ^ 2
    let beta := pt * (pt + lam) ^ 2
    rc alpha beta >>= fun c =>
      let sum := sum + fac * c
      let fac := 1 / 4 * fac
      let xt := 1 / 4 * (xt + lam)
      let yt := 1 / 4 * (yt + lam)
      let zt := 1 / 4 * (zt + lam)
      let pt := 1 / 4 * (pt + lam)
      let ave := 0.2 * (xt + yt + zt + pt + pt)
      let dx := (ave - xt) / ave
      let dy := (ave - yt) / ave
      let dz := (ave - zt) / ave
      let dp := (ave - pt) / ave
      if max (max |dx| |dy|) (max |dz| |dp|) < 0.0015 then .ok (some ⟨xt, yt, zt, sum, fac, ave, dx, dy, dz, dp⟩)
      else rjLoop k sum fac xt yt zt pt

/-- the expression at the end of `rj` (elliptic.rs:432-445, constants 518-526) -/
noncomputable def rjEnd (o : RjOut) : ℝ :=
  let c1 := 3 / 14
  let c2 := 1 / 3
  let c3 := 3 / 22
  let c4 := 3 / 26
  let c5 := 0.75 * c3
  let c6 := 1.5 * c4
  let c7 := 0.5 * c2
  let c8 := c3 + c3
  let ea := o.dx * (o.dy + o.dz) + o.dy * o.dz
  let eb := o.dx * o.dy * o.dz
  let ec := o.dp * o.dp
  let ed := ea - 3 * ec
  let ee := eb + 2 * o.dp * (ea - ec)
  3 * o.sum + o.fac * (1 + ed * (-c1 + c5 * ed - c6 * ee) + eb * (c7 + o.dp * (-c8 + o.dp * c4)) + o.dp * ea * (c2 - o.dp * c3) - c2 * o.dp * ec) / (o.ave * √o.ave)

/-- `rj` (elliptic.rs:363-450) -/
noncomputable def rj (x y z p : ℝ) : Res ℝ :=
  let tiny := (5 * f64MinPos) ^ (1 / 3 : ℝ)
  let big := 0.3 * (0.2 * f64Max) ^ (1 / 3 : ℝ)
  if min (min x y) z < 0 ∨ min (min (x + y) (x + z)) (min (y + z) |p|) < tiny ∨ max (max x y) (max z |p|) > big then
    .err "(x,y,z) must be non-negative and at most one can be zero. p must be nonzero"
  else if p > 0 then
    rjLoop 11 0 1 x y z p >>= fun r =>
      match r with
      | none => .err "rj failed to converge"
      | some o => .ok (rjEnd o)
  else
    let xt := min (min x y) z
    let zt := max (max x y) z
    let yt := x + y + z - xt - zt
    let a := 1 / (yt - p)
    let b := a * (zt - yt) * (yt - xt)
    let pt := yt + b
    let rho := xt * zt / yt
    let tau := p * pt / yt
    rc rho tau >>= fun rcx =>
      rjLoop 11 0 1 xt yt zt pt >>= fun r =>
        match r with
        | none => .err "rj failed to converge"
        | some o => rf o.xt o.yt o.zt >>= fun f => .ok (a * (b * rjEnd o + 3 * (rcx - f)))

theorem carlsonRC_nonneg {x y : ℝ} (hy : 0 ≤ y) : 0 ≤ carlsonRC x y := by
  unfold carlsonRC
  refine mul_nonneg (by norm_num) (setIntegral_nonneg measurableSet_Ioi fun t ht => ?_)
  have : (0 : ℝ) < t := ht
  positivity

theorem carlsonRJ_nonneg (x y z : ℝ) {p : ℝ} (hp : 0 ≤ p) : 0 ≤ carlsonRJ x y z p := by
  unfold carlsonRJ
  refine mul_nonneg (by norm_num) (setIntegral_nonneg measurableSet_Ioi fun t ht => ?_)
  have : (0 : ℝ) < t := ht
  positivity

/-- what the loop of `rj` establishes: `ex` is the exact value of the sum of degenerate integrals -/
theorem rjLoop_spec (k : ℕ) {x y z p sum fac ex : ℝ} (hx : 0 ≤ x) (hy : 0 ≤ y) (hz : 0 ≤ z) (h1 : 0 < x + y) (h2 : 0 < x + z) (h3 : 0 < y + z)
    (hp : 0 < p) (hf : 0 < fac) (hsum : |sum - ex| ≤ 1 / 2 ^ 54 * ex) {o : RjOut} (h : rjLoop k sum fac x y z p = .ok (some o)) :
    ∃ pt ex', 0 < o.xt ∧ 0 < o.yt ∧ 0 < o.zt ∧ 0 < pt ∧ 0 < o.fac ∧ |o.sum - ex'| ≤ 1 / 2 ^ 54 * ex' ∧
    3 * ex' + o.fac * carlsonRJ o.xt o.yt o.zt pt = 3 * ex + fac * carlsonRJ x y z p ∧ carlsonRF o.xt o.yt o.zt = carlsonRF x y z ∧
    o.ave = 0.2 * (o.xt + o.yt + o.zt + pt + pt) ∧
    o.dx = (o.ave - o.xt) / o.ave ∧ o.dy = (o.ave - o.yt) / o.ave ∧ o.dz = (o.ave - o.zt) / o.ave ∧ o.dp = (o.ave - pt) / o.ave ∧
    |o.dx| < 0.0015 ∧ |o.dy| < 0.0015 ∧ |o.dz| < 0.0015 ∧ |o.dp| < 0.0015 := by
  induction k generalizing x y z p sum fac ex with
  | zero => simp [rjLoop] at h
  | succ k ih =>
    have hl := lam_pos hx hy hz h1 h2 h3
    have hdup := carlsonRJ_dup hx hy hz h1 h2 h3 hp _ rfl
    have hdupF := carlsonRF_dup hx hy hz _ rfl
    simp only [rjLoop] at h
    set lam := √x * (√y + √z) + √y * √z with hlam
    rw [bind_eq_ok] at h
    obtain ⟨c, hc, h⟩ := h
    have hb : 0 < p * (p + lam) ^ 2 := by positivity
    obtain ⟨hca, -⟩ := rc_accurate hb hc
    set RC := carlsonRC ((p * (√x + √y + √z) + √x * √y * √z) ^ 2) (p * (p + lam) ^ 2) with hRC
    have hsum' : |sum + fac * c - (ex + fac * RC)| ≤ 1 / 2 ^ 54 * (ex + fac * RC) := by
      have e : sum + fac * c - (ex + fac * RC) = (sum - ex) + fac * (c - RC) := by ring
      rw [e]
      calc |(sum - ex) + fac * (c - RC)| ≤ |sum - ex| + |fac * (c - RC)| := abs_add_le _ _
        _ = |sum - ex| + fac * |c - RC| := by rw [abs_mul, abs_of_pos hf]
        _ ≤ 1 / 2 ^ 54 * ex + fac * (1 / 2 ^ 54 * RC) := by gcongr
        _ = _ := by ring
    split_ifs at h with hd
    · simp only [Res.ok.injEq, Option.some.injEq] at h
      subst h
      obtain ⟨ha, hb⟩ := max_lt_iff.1 hd
      obtain ⟨d1, d2⟩ := max_lt_iff.1 ha
      obtain ⟨d3, d4⟩ := max_lt_iff.1 hb
      refine ⟨1 / 4 * (p + lam), ex + fac * RC, by simp only []; positivity, by simp only []; positivity, by simp only []; positivity, by positivity, by simp only []; positivity,
        hsum', ?_, hdupF, rfl, rfl, rfl, rfl, rfl, d1, d2, d3, d4⟩
      simp only []; rw [hdup]; ring
    · obtain ⟨pt, ex', a1, a2, a3, a4, a5, a6, a7, a8, a9⟩ := ih (by positivity) (by positivity) (by positivity) (by positivity) (by positivity) (by positivity)
        (by positivity) (by positivity) hsum' h
      refine ⟨pt, ex', a1, a2, a3, a4, a5, a6, ?_, a8.trans hdupF, a9⟩
      rw [a7, hdup]; ring

/-- for `p > 0` `rj` returns the integral to a relative accuracy of `2⁻⁵⁴` -/
theorem rj_accurate {x y z p v : ℝ} (hp : 0 < p) (h : rj x y z p = .ok v) :
    |v - carlsonRJ x y z p| ≤ 1 / 2 ^ 54 * carlsonRJ x y z p := by
  unfold rj at h
  simp only [] at h
  split_ifs at h with hc
  rw [not_or, not_or, not_lt, not_lt, not_lt] at hc
  obtain ⟨c1, c2, -⟩ := hc
  have ht : 0 < (5 * f64MinPos) ^ (1 / 3 : ℝ) := Real.rpow_pos_of_pos (by have := f64MinPos_pos; positivity) _
  obtain ⟨c11, hz⟩ := le_min_iff.1 c1
  obtain ⟨hx, hy⟩ := le_min_iff.1 c11
  obtain ⟨c21, c22⟩ := le_min_iff.1 c2
  obtain ⟨h1, h2⟩ := le_min_iff.1 c21
  obtain ⟨h3, -⟩ := le_min_iff.1 c22
  rw [bind_eq_ok] at h
  obtain ⟨r, hr, h⟩ := h
  cases r with
  | none => simp at h
  | some o =>
    simp only [Res.ok.injEq] at h
    obtain ⟨pt, ex', px, py, pz, pp, pf, hs, hI, -, hA, ex, ey, ez, ep, bx, by_, bz, bp⟩ := rjLoop_spec 11 (ex := 0) hx hy hz (by linarith) (by linarith) (by linarith) hp one_pos
      (by norm_num) hr
    have hn := rj_near px py pz pp (by rw [hA]; norm_num; ring) ex ey ez ep (bx.le.trans (by norm_num)) (by_.le.trans (by norm_num)) (bz.le.trans (by norm_num)) (bp.le.trans (by norm_num))
    change |_ - carlsonRJ o.xt o.yt o.zt pt| ≤ 1 / 2 ^ 54 * carlsonRJ o.xt o.yt o.zt pt at hn
    have hI' : carlsonRJ x y z p = 3 * ex' + o.fac * carlsonRJ o.xt o.yt o.zt pt := by linarith
    set RJ := carlsonRJ o.xt o.yt o.zt pt with hRJ
    set P := rjPoly (o.dx * o.dy + o.dx * o.dz + o.dy * o.dz - 3 * o.dp ^ 2) (o.dx * o.dy * o.dz + 2 * o.dp * (o.dx * o.dy + o.dx * o.dz + o.dy * o.dz - o.dp ^ 2))
        (2 * o.dp * (o.dx * o.dy * o.dz) + o.dp ^ 2 * (o.dx * o.dy + o.dx * o.dz + o.dy * o.dz)) (o.dp ^ 2 * (o.dx * o.dy * o.dz)) / (o.ave * √o.ave) with hP
    have e : v = 3 * o.sum + o.fac * P := by
      rw [← h, hP, rjEnd]
      unfold rjPoly
      norm_num
      ring
    rw [e, hI']
    have e2 : 3 * o.sum + o.fac * P - (3 * ex' + o.fac * RJ) = 3 * (o.sum - ex') + o.fac * (P - RJ) := by ring
    rw [e2]
    calc |3 * (o.sum - ex') + o.fac * (P - RJ)| ≤ |3 * (o.sum - ex')| + |o.fac * (P - RJ)| := abs_add_le _ _
      _ = 3 * |o.sum - ex'| + o.fac * |P - RJ| := by rw [abs_mul, abs_mul, abs_of_pos pf, abs_of_pos (by norm_num : (0 : ℝ) < 3)]
      _ ≤ 3 * (1 / 2 ^ 54 * ex') + o.fac * (1 / 2 ^ 54 * RJ) := by gcongr
      _ = _ := by ring

end Russell.Lab
