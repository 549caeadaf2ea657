import Verif.Lab.CarlsonDup

/-!
# Truncated series of Carlson's integrals (property C107)

Near the diagonal the integrals are expanded in the elementary symmetric functions of the relative deviations from the mean. This file proves the
error bounds of the polynomials used at the end of `rf` and `rd` (russell_lab/src/math/elliptic.rs:284-286, 340-348).
-/

namespace Russell.Lab

open MeasureTheory Set Real

/-- scaling and shift of the variable of integration -/
theorem carlson_scale {A : ℝ} (hA : 0 < A) (g : ℝ → ℝ) :
    ∫ t in Ioi (0 : ℝ), g t = ∫ u in Ioi (1 : ℝ), A * g (A * (u - 1)) := by
  have himg : (fun u : ℝ => A * (u - 1)) '' Ioi 1 = Ioi 0 := by
    ext s
    constructor
    · rintro ⟨u, hu, rfl⟩
      have : (1 : ℝ) < u := hu
      exact mul_pos hA (by linarith)
    · intro hs
      refine ⟨s / A + 1, ?_, ?_⟩
      · have := div_pos (show (0 : ℝ) < s from hs) hA
        exact show (1 : ℝ) < s / A + 1 by linarith
      · show A * (s / A + 1 - 1) = s
        rw [add_sub_cancel_right, mul_div_cancel₀ _ hA.ne']
  have hd : ∀ u ∈ Ioi (1 : ℝ), HasDerivWithinAt (fun u : ℝ => A * (u - 1)) A (Ioi 1) u := by
    intro u _
    have := ((hasDerivAt_id u).sub_const 1).const_mul A
    simpa using this.hasDerivWithinAt
  have hinj : InjOn (fun u : ℝ => A * (u - 1)) (Ioi 1) := by
    intro a _ b _ h
    have := mul_left_cancel₀ hA.ne' h
    linarith
  have h := integral_image_eq_integral_abs_deriv_smul measurableSet_Ioi hd hinj g
  rw [himg] at h
  rw [h]
  simp only [abs_of_pos hA, smul_eq_mul]

/-- the power integrals -/
theorem carlson_pow (b : ℝ) (hb : 1 < b) (k : ℕ) :
    IntegrableOn (fun u : ℝ => u ^ (-b) * (u⁻¹) ^ k) (Ioi 1) ∧ ∫ u in Ioi (1 : ℝ), u ^ (-b) * (u⁻¹) ^ k = 1 / (b - 1 + k) := by
  have hk : (0 : ℝ) ≤ k := Nat.cast_nonneg k
  have e : EqOn (fun u : ℝ => u ^ (-b) * (u⁻¹) ^ k) (fun u => u ^ (-b - k)) (Ioi 1) := by
    intro u hu
    have hu : (1 : ℝ) < u := hu
    have h0 : 0 < u := by linarith
    show u ^ (-b) * (u⁻¹) ^ k = u ^ (-b - k)
    rw [Real.rpow_sub h0, Real.rpow_natCast, inv_pow, div_eq_mul_inv]
  constructor
  · exact (integrableOn_congr_fun e measurableSet_Ioi).2 (integrableOn_Ioi_rpow_of_lt (by linarith) one_pos)
  · rw [setIntegral_congr_fun measurableSet_Ioi e, integral_Ioi_rpow_of_lt (by linarith) one_pos, Real.one_rpow]
    rw [neg_div, ← div_neg]
    congr 1
    ring

/-- the integral of a function close to a polynomial in `1/u` times a power -/
theorem carlson_close (b : ℝ) (hb : 1 < b) (f : ℝ → ℝ) (hf : Measurable f) (c2 c3 c4 c5 K : ℝ)
    (h : ∀ u : ℝ, 1 < u → |f u - u ^ (-b) * (1 + c2 * u⁻¹ ^ 2 + c3 * u⁻¹ ^ 3 + c4 * u⁻¹ ^ 4 + c5 * u⁻¹ ^ 5)| ≤ K * (u ^ (-b) * u⁻¹ ^ 6)) :
    |(∫ u in Ioi (1 : ℝ), f u) - (1 / (b - 1) + c2 / (b - 1 + 2) + c3 / (b - 1 + 3) + c4 / (b - 1 + 4) + c5 / (b - 1 + 5))| ≤ K / (b - 1 + 6) := by
  have p0 := carlson_pow b hb 0
  have p2 := carlson_pow b hb 2
  have p3 := carlson_pow b hb 3
  have p4 := carlson_pow b hb 4
  have p5 := carlson_pow b hb 5
  have p6 := carlson_pow b hb 6
  set P : ℝ → ℝ := fun u => u ^ (-b) * u⁻¹ ^ 0 + (c2 * (u ^ (-b) * u⁻¹ ^ 2) + (c3 * (u ^ (-b) * u⁻¹ ^ 3) +
    (c4 * (u ^ (-b) * u⁻¹ ^ 4) + c5 * (u ^ (-b) * u⁻¹ ^ 5)))) with hP
  have i5 := p5.1.const_mul c5
  have i4 := (p4.1.const_mul c4).add i5
  have i3 := (p3.1.const_mul c3).add i4
  have i2 := (p2.1.const_mul c2).add i3
  have iP : IntegrableOn P (Ioi 1) := p0.1.add i2
  have vP : ∫ u in Ioi (1 : ℝ), P u = 1 / (b - 1) + c2 / (b - 1 + 2) + c3 / (b - 1 + 3) + c4 / (b - 1 + 4) + c5 / (b - 1 + 5) := by
    have e1 := integral_add p0.1 i2
    have e2 := integral_add (p2.1.const_mul c2) i3
    have e3 := integral_add (p3.1.const_mul c3) i4
    have e4 := integral_add (p4.1.const_mul c4) i5
    simp only [Pi.add_apply, integral_const_mul, p0.2, p2.2, p3.2, p4.2, p5.2] at e1 e2 e3 e4
    rw [hP]
    simp only [] at e1 e2 e3 e4 ⊢
    rw [e1, e2, e3, e4]
    push_cast
    ring
  have hdiff : ∀ u : ℝ, 1 < u → |f u - P u| ≤ K * (u ^ (-b) * u⁻¹ ^ 6) := by
    intro u hu
    have e : P u = u ^ (-b) * (1 + c2 * u⁻¹ ^ 2 + c3 * u⁻¹ ^ 3 + c4 * u⁻¹ ^ 4 + c5 * u⁻¹ ^ 5) := by
      rw [hP]; ring
    rw [e]; exact h u hu
  have iD : IntegrableOn (fun u => f u - P u) (Ioi 1) := by
    refine Integrable.mono' (p6.1.const_mul K) ?_ ?_
    · exact hf.aestronglyMeasurable.sub iP.aestronglyMeasurable
    · exact (ae_restrict_iff' measurableSet_Ioi).2 (Filter.Eventually.of_forall fun u hu => by
        rw [Real.norm_eq_abs]; exact hdiff u hu)
  have iF : IntegrableOn f (Ioi 1) := by
    have := iD.add iP
    refine this.congr (Filter.Eventually.of_forall fun u => ?_)
    simp
  rw [← vP, ← integral_sub iF iP]
  calc |∫ u in Ioi (1 : ℝ), (f u - P u)| ≤ ∫ u in Ioi (1 : ℝ), K * (u ^ (-b) * u⁻¹ ^ 6) := by
        rw [← Real.norm_eq_abs]
        refine norm_integral_le_of_norm_le (p6.1.const_mul K) ?_
        exact (ae_restrict_iff' measurableSet_Ioi).2 (Filter.Eventually.of_forall fun u hu => by
          rw [Real.norm_eq_abs]; exact hdiff u hu)
    _ = K / (b - 1 + 6) := by
        rw [integral_const_mul, p6.2]; push_cast; ring

/-- the reciprocal square root near 1 -/
theorem inv_sqrt_close {w : ℝ} (hw : |w| ≤ 1 / 100) : |1 / √(1 + w) - (1 - w / 2 + 3 / 8 * w ^ 2)| ≤ 1 / 3 * |w| ^ 3 := by
  obtain ⟨h1, h2⟩ := abs_le.1 hw
  have hp : 0 < 1 + w := by linarith
  have hs := Real.sq_sqrt hp.le
  have hs0 : 0 < √(1 + w) := Real.sqrt_pos.2 hp
  have hs1 : √(1 + w) ≤ 1.01 := Real.sqrt_le_iff.2 ⟨by norm_num, by nlinarith⟩
  set r := 1 / √(1 + w) with hr
  have hr1 : 0.99 ≤ r := by
    rw [hr, le_div_iff₀ hs0]; nlinarith
  have hrr : r ^ 2 * (1 + w) = 1 := by
    rw [hr, div_pow, hs]; field_simp
  set p := 1 - w / 2 + 3 / 8 * w ^ 2 with hpdef
  have hp1 : 0.99 ≤ p := by rw [hpdef]; nlinarith [sq_nonneg w]
  have key : (r - p) * ((r + p) * (1 + w)) = -(w ^ 3 * (5 / 8 - 15 / 64 * w + 9 / 64 * w ^ 2)) := by
    have : (r - p) * ((r + p) * (1 + w)) = r ^ 2 * (1 + w) - p ^ 2 * (1 + w) := by ring
    rw [this, hrr, hpdef]; ring
  have hq : 1.95 ≤ (r + p) * (1 + w) := by nlinarith
  have hc : |5 / 8 - 15 / 64 * w + 9 / 64 * w ^ 2| ≤ 0.63 := by
    rw [abs_le]; constructor <;> nlinarith [sq_nonneg w]
  have habs : |r - p| * ((r + p) * (1 + w)) = |w| ^ 3 * |5 / 8 - 15 / 64 * w + 9 / 64 * w ^ 2| := by
    rw [← abs_of_pos (show 0 < (r + p) * (1 + w) by linarith), ← abs_mul, key, abs_neg, abs_mul, abs_pow]
  have h3 : 0 ≤ |w| ^ 3 := by positivity
  have h4 : |r - p| * 1.95 ≤ |w| ^ 3 * 0.63 := by
    calc |r - p| * 1.95 ≤ |r - p| * ((r + p) * (1 + w)) := by gcongr
      _ = _ := habs
      _ ≤ _ := by gcongr
  nlinarith

/-- the power in the factorisation of the integrand -/
theorem sqrt_cube {u : ℝ} (hu : 0 < u) : √(u ^ 3) = u ^ (3 / 2 : ℝ) := by
  rw [Real.sqrt_eq_rpow, ← Real.rpow_natCast, ← Real.rpow_mul hu.le]
  norm_num

/-- the polynomial at the end of `rf` -/
noncomputable def rfPoly (e2 e3 : ℝ) : ℝ := 1 - e2 / 10 + e3 / 14 + e2 ^ 2 / 24 - 3 / 44 * (e2 * e3)

theorem rf_sym_bounds {dx dy dz τ : ℝ} (hx : |dx| ≤ τ) (hy : |dy| ≤ τ) (hz : |dz| ≤ τ) (hs : dx + dy + dz = 0) :
    |dx * dy - dz ^ 2| ≤ 3 / 2 * τ ^ 2 ∧ |dx * dy * dz| ≤ τ ^ 3 := by
  have hτ : 0 ≤ τ := (abs_nonneg dx).trans hx
  have sx : dx ^ 2 ≤ τ ^ 2 := sq_le_sq' (abs_le.1 hx).1 (abs_le.1 hx).2
  have sy : dy ^ 2 ≤ τ ^ 2 := sq_le_sq' (abs_le.1 hy).1 (abs_le.1 hy).2
  have sz : dz ^ 2 ≤ τ ^ 2 := sq_le_sq' (abs_le.1 hz).1 (abs_le.1 hz).2
  constructor
  · have hz' : dz = -dx - dy := by linarith
    have e : dx * dy - dz ^ 2 = -((dx ^ 2 + dy ^ 2 + dz ^ 2) / 2) := by rw [hz']; ring
    rw [e, abs_neg, abs_of_nonneg (by positivity)]
    linarith
  · rw [abs_mul, abs_mul]
    calc |dx| * |dy| * |dz| ≤ τ * τ * τ := by gcongr
      _ = τ ^ 3 := by ring

/-- truncation error of the integral of the first kind near the diagonal -/
theorem rf_series {dx dy dz : ℝ} (hx : |dx| ≤ 1 / 400) (hy : |dy| ≤ 1 / 400) (hz : |dz| ≤ 1 / 400) (hs : dx + dy + dz = 0) :
    |1 / 2 * (∫ u in Ioi (1 : ℝ), 1 / √((u - dx) * (u - dy) * (u - dz))) - rfPoly (dx * dy - dz * dz) (dx * dy * dz)| ≤ 3 / 10 ^ 17 := by
  obtain ⟨b2, b3⟩ := rf_sym_bounds hx hy hz hs
  rw [← pow_two]
  set e2 := dx * dy - dz ^ 2 with he2
  set e3 := dx * dy * dz with he3
  have hz' : dz = -dx - dy := by linarith
  have hclose := carlson_close (3 / 2) (by norm_num) (fun u => 1 / √((u - dx) * (u - dy) * (u - dz)))
    (by fun_prop) (-e2 / 2) (e3 / 2) (3 / 8 * e2 ^ 2) (-(3 / 4 * (e2 * e3))) (151 / 100 * (1 / 400) ^ 6) ?_
  · have e : rfPoly e2 e3 = 1 / 2 * (1 / (3 / 2 - 1) + -e2 / 2 / (3 / 2 - 1 + 2) + e3 / 2 / (3 / 2 - 1 + 3) + 3 / 8 * e2 ^ 2 / (3 / 2 - 1 + 4) +
        -(3 / 4 * (e2 * e3)) / (3 / 2 - 1 + 5)) := by
      unfold rfPoly; ring
    rw [e, ← mul_sub, abs_mul, abs_of_pos (by norm_num : (0 : ℝ) < 1 / 2)]
    refine (mul_le_mul_of_nonneg_left hclose (by norm_num)).trans ?_
    norm_num
  · intro u hu
    have h0 : 0 < u := by linarith
    set v := u⁻¹ with hv
    have huv : u * v = 1 := mul_inv_cancel₀ h0.ne'
    have hv0 : 0 < v := inv_pos.2 h0
    have hv1 : v ≤ 1 := inv_le_one_of_one_le₀ hu.le
    set w := e2 * v ^ 2 - e3 * v ^ 3 with hw
    have hwabs : |w| ≤ (3 / 2 * (1 / 400) ^ 2 + (1 / 400) ^ 3) * v ^ 2 := by
      have h3 : v ^ 3 ≤ v ^ 2 := pow_le_pow_of_le_one hv0.le hv1 (by norm_num)
      calc |w| ≤ |e2 * v ^ 2| + |e3 * v ^ 3| := abs_sub _ _
        _ = |e2| * v ^ 2 + |e3| * v ^ 3 := by rw [abs_mul, abs_mul, abs_of_nonneg (by positivity : 0 ≤ v ^ 2), abs_of_nonneg (by positivity : 0 ≤ v ^ 3)]
        _ ≤ 3 / 2 * (1 / 400) ^ 2 * v ^ 2 + (1 / 400) ^ 3 * v ^ 2 := by gcongr
        _ = _ := by ring
    have hw1 : |w| ≤ 1 / 100 := by
      have : v ^ 2 ≤ 1 := pow_le_one₀ hv0.le hv1
      refine hwabs.trans ?_
      calc _ ≤ (3 / 2 * (1 / 400) ^ 2 + (1 / 400) ^ 3) * (1 : ℝ) := by gcongr
        _ ≤ _ := by norm_num
    have hfac : (u - dx) * (u - dy) * (u - dz) = u ^ 3 * (1 + w) := by
      have e1 : u - dx = u * (1 - dx * v) := by linear_combination dx * huv
      have e2' : u - dy = u * (1 - dy * v) := by linear_combination dy * huv
      have e3' : u - dz = u * (1 - dz * v) := by linear_combination dz * huv
      rw [e1, e2', e3', hw, he2, he3, hz']; ring
    have hsq : 1 / √((u - dx) * (u - dy) * (u - dz)) = u ^ (-(3 / 2 : ℝ)) * (1 / √(1 + w)) := by
      rw [hfac, Real.sqrt_mul (by positivity), sqrt_cube h0, Real.rpow_neg h0.le]
      field_simp
    rw [hsq, ← mul_sub, abs_mul, abs_of_pos (Real.rpow_pos_of_pos h0 _), mul_left_comm (151 / 100 * (1 / 400) ^ 6 : ℝ)]
    refine mul_le_mul_of_nonneg_left ?_ (Real.rpow_pos_of_pos h0 _).le
    have hi := inv_sqrt_close hw1
    have hsplit : 1 / √(1 + w) - (1 + -e2 / 2 * v ^ 2 + e3 / 2 * v ^ 3 + 3 / 8 * e2 ^ 2 * v ^ 4 + -(3 / 4 * (e2 * e3)) * v ^ 5) =
        (1 / √(1 + w) - (1 - w / 2 + 3 / 8 * w ^ 2)) + 3 / 8 * e3 ^ 2 * v ^ 6 := by
      rw [hw]; ring
    rw [hsplit]
    have hw3 : |w| ^ 3 ≤ (3 / 2 * (1 / 400) ^ 2 + (1 / 400) ^ 3) ^ 3 * v ^ 6 := by
      calc |w| ^ 3 ≤ ((3 / 2 * (1 / 400) ^ 2 + (1 / 400) ^ 3) * v ^ 2) ^ 3 := by gcongr
        _ = _ := by ring
    have he33 : e3 ^ 2 ≤ ((1 / 400) ^ 3) ^ 2 := by
      rw [← sq_abs]; gcongr
    have hv6 : 0 ≤ v ^ 6 := by positivity
    calc |(1 / √(1 + w) - (1 - w / 2 + 3 / 8 * w ^ 2)) + 3 / 8 * e3 ^ 2 * v ^ 6|
        ≤ |1 / √(1 + w) - (1 - w / 2 + 3 / 8 * w ^ 2)| + |3 / 8 * e3 ^ 2 * v ^ 6| := abs_add_le _ _
      _ ≤ 1 / 3 * ((3 / 2 * (1 / 400) ^ 2 + (1 / 400) ^ 3) ^ 3 * v ^ 6) + 3 / 8 * ((1 / 400) ^ 3) ^ 2 * v ^ 6 := by
          rw [abs_of_nonneg (by positivity : 0 ≤ 3 / 8 * e3 ^ 2 * v ^ 6)]
          have := hi.trans (mul_le_mul_of_nonneg_left hw3 (by norm_num : (0 : ℝ) ≤ 1 / 3))
          gcongr
      _ ≤ 151 / 100 * (1 / 400) ^ 6 * v ^ 6 := by
          rw [← mul_assoc, ← add_mul]
          gcongr
          norm_num

/-- the polynomial at the end of `rd` and `rj`, in the elementary symmetric functions of the five deviations -/
noncomputable def rjPoly (e2 e3 e4 e5 : ℝ) : ℝ :=
  1 - 3 / 14 * e2 + e3 / 6 + 9 / 88 * e2 ^ 2 - 3 / 22 * e4 - 9 / 52 * (e2 * e3) + 3 / 26 * e5

theorem sqrt_fifth {u : ℝ} (hu : 0 < u) : √(u ^ 3) * u = u ^ (5 / 2 : ℝ) := by
  rw [sqrt_cube hu]
  nth_rewrite 2 [← Real.rpow_one u]
  rw [← Real.rpow_add hu]
  norm_num

/-- truncation error of the integrals of the second and third kind near the diagonal -/
theorem rj_series {dx dy dz dp : ℝ} (hx : |dx| ≤ 3 / 2000) (hy : |dy| ≤ 3 / 2000) (hz : |dz| ≤ 3 / 2000) (hp : |dp| ≤ 3 / 2000)
    (hs : dx + dy + dz + 2 * dp = 0) :
    |3 / 2 * (∫ u in Ioi (1 : ℝ), 1 / (√((u - dx) * (u - dy) * (u - dz)) * (u - dp))) -
      rjPoly (dx * dy + dx * dz + dy * dz - 3 * dp ^ 2) (dx * dy * dz + 2 * dp * (dx * dy + dx * dz + dy * dz - dp ^ 2))
        (2 * dp * (dx * dy * dz) + dp ^ 2 * (dx * dy + dx * dz + dy * dz)) (dp ^ 2 * (dx * dy * dz))| ≤ 4 / 10 ^ 17 := by
  obtain ⟨τ, hτ⟩ : ∃ τ : ℝ, τ = 3 / 2000 := ⟨_, rfl⟩
  rw [← hτ] at hx hy hz hp
  have hτ0 : (0 : ℝ) ≤ τ := by norm_num [hτ]
  have sx : dx ^ 2 ≤ τ ^ 2 := sq_le_sq' (abs_le.1 hx).1 (abs_le.1 hx).2
  have sy : dy ^ 2 ≤ τ ^ 2 := sq_le_sq' (abs_le.1 hy).1 (abs_le.1 hy).2
  have sz : dz ^ 2 ≤ τ ^ 2 := sq_le_sq' (abs_le.1 hz).1 (abs_le.1 hz).2
  have sp : dp ^ 2 ≤ τ ^ 2 := sq_le_sq' (abs_le.1 hp).1 (abs_le.1 hp).2
  have hz' : dz = -dx - dy - 2 * dp := by linarith
  have bxyz : |dx * dy * dz| ≤ τ ^ 3 := by
    rw [abs_mul, abs_mul]
    calc |dx| * |dy| * |dz| ≤ τ * τ * τ := by gcongr
      _ = τ ^ 3 := by ring
  have bea : |dx * dy + dx * dz + dy * dz| ≤ 3 * τ ^ 2 := by
    have a1 : |dx * dy| ≤ τ * τ := by rw [abs_mul]; gcongr
    have a2 : |dx * dz| ≤ τ * τ := by rw [abs_mul]; gcongr
    have a3 : |dy * dz| ≤ τ * τ := by rw [abs_mul]; gcongr
    have := abs_add_three (dx * dy) (dx * dz) (dy * dz)
    nlinarith
  have b2 : |dx * dy + dx * dz + dy * dz - 3 * dp ^ 2| ≤ 5 / 2 * τ ^ 2 := by
    have e : dx * dy + dx * dz + dy * dz - 3 * dp ^ 2 = -((dx ^ 2 + dy ^ 2 + dz ^ 2 + 2 * dp ^ 2) / 2) := by rw [hz']; ring
    rw [e, abs_neg, abs_of_nonneg (by positivity)]
    linarith
  have cube : ∀ d : ℝ, |d| ≤ τ → |d ^ 3| ≤ τ ^ 3 := fun d hd => by rw [abs_pow]; gcongr
  have b3 : |dx * dy * dz + 2 * dp * (dx * dy + dx * dz + dy * dz - dp ^ 2)| ≤ 5 / 3 * τ ^ 3 := by
    have e : dx * dy * dz + 2 * dp * (dx * dy + dx * dz + dy * dz - dp ^ 2) = (dx ^ 3 + dy ^ 3 + dz ^ 3 + 2 * dp ^ 3) / 3 := by rw [hz']; ring
    rw [e]
    have c1 := abs_le.1 (cube dx hx)
    have c2 := abs_le.1 (cube dy hy)
    have c3 := abs_le.1 (cube dz hz)
    have c4 := abs_le.1 (cube dp hp)
    rw [abs_le]
    constructor <;> linarith [c1.1, c1.2, c2.1, c2.2, c3.1, c3.2, c4.1, c4.2]
  have b4 : |2 * dp * (dx * dy * dz) + dp ^ 2 * (dx * dy + dx * dz + dy * dz)| ≤ 5 * τ ^ 4 := by
    have a1 : |2 * dp * (dx * dy * dz)| ≤ 2 * τ * τ ^ 3 := by
      rw [abs_mul, abs_mul, abs_two]; gcongr
    have a2 : |dp ^ 2 * (dx * dy + dx * dz + dy * dz)| ≤ τ ^ 2 * (3 * τ ^ 2) := by
      rw [abs_mul, abs_pow]; gcongr
    have := abs_add_le (2 * dp * (dx * dy * dz)) (dp ^ 2 * (dx * dy + dx * dz + dy * dz))
    nlinarith
  have b5 : |dp ^ 2 * (dx * dy * dz)| ≤ τ ^ 5 := by
    rw [abs_mul, abs_pow]
    calc |dp| ^ 2 * |dx * dy * dz| ≤ τ ^ 2 * τ ^ 3 := by gcongr
      _ = τ ^ 5 := by ring
  set e2 := dx * dy + dx * dz + dy * dz - 3 * dp ^ 2 with he2
  set e3 := dx * dy * dz + 2 * dp * (dx * dy + dx * dz + dy * dz - dp ^ 2) with he3
  set e4 := 2 * dp * (dx * dy * dz) + dp ^ 2 * (dx * dy + dx * dz + dy * dz) with he4
  set e5 := dp ^ 2 * (dx * dy * dz) with he5
  have hclose := carlson_close (5 / 2) (by norm_num) (fun u => 1 / (√((u - dx) * (u - dy) * (u - dz)) * (u - dp)))
    (by fun_prop) (-e2 / 2) (e3 / 2) (3 / 8 * e2 ^ 2 - e4 / 2) (e5 / 2 - 3 / 4 * (e2 * e3)) (16 * τ ^ 6) ?_
  · have e : rjPoly e2 e3 e4 e5 = 3 / 2 * (1 / (5 / 2 - 1) + -e2 / 2 / (5 / 2 - 1 + 2) + e3 / 2 / (5 / 2 - 1 + 3) +
        (3 / 8 * e2 ^ 2 - e4 / 2) / (5 / 2 - 1 + 4) + (e5 / 2 - 3 / 4 * (e2 * e3)) / (5 / 2 - 1 + 5)) := by
      unfold rjPoly; ring
    rw [e, ← mul_sub, abs_mul, abs_of_pos (by norm_num : (0 : ℝ) < 3 / 2)]
    refine (mul_le_mul_of_nonneg_left hclose (by norm_num)).trans ?_
    rw [hτ]
    norm_num
  · intro u hu
    have h0 : 0 < u := by linarith
    set v := u⁻¹ with hv
    have huv : u * v = 1 := mul_inv_cancel₀ h0.ne'
    have hv0 : 0 < v := inv_pos.2 h0
    have hv1 : v ≤ 1 := inv_le_one_of_one_le₀ hu.le
    have hvk : ∀ j k : ℕ, j ≤ k → v ^ k ≤ v ^ j := fun j k h => pow_le_pow_of_le_one hv0.le hv1 h
    have hvn : ∀ k : ℕ, 0 ≤ v ^ k := fun k => by positivity
    have habs : ∀ (a : ℝ) (B : ℝ) (j k : ℕ), |a| ≤ B → j ≤ k → |a * v ^ k| ≤ B * v ^ j := fun a B j k ha h => by
      have hB : 0 ≤ B := (abs_nonneg a).trans ha
      rw [abs_mul, abs_of_nonneg (hvn k)]
      exact mul_le_mul ha (hvk j k h) (hvn k) hB
    set w := e2 * v ^ 2 - e3 * v ^ 3 + e4 * v ^ 4 - e5 * v ^ 5 with hw
    have hwabs : |w| ≤ 251 / 100 * τ ^ 2 * v ^ 2 := by
      have a2 := habs e2 _ 2 2 b2 le_rfl
      have a3 := habs e3 _ 2 3 b3 (by norm_num)
      have a4 := habs e4 _ 2 4 b4 (by norm_num)
      have a5 := habs e5 _ 2 5 b5 (by norm_num)
      have hsum : |w| ≤ |e2 * v ^ 2| + |e3 * v ^ 3| + |e4 * v ^ 4| + |e5 * v ^ 5| := by
        rw [abs_le]
        constructor <;> rw [hw] <;>
          linarith [neg_abs_le (e2 * v ^ 2), neg_abs_le (e3 * v ^ 3), neg_abs_le (e4 * v ^ 4), neg_abs_le (e5 * v ^ 5),
            le_abs_self (e2 * v ^ 2), le_abs_self (e3 * v ^ 3), le_abs_self (e4 * v ^ 4), le_abs_self (e5 * v ^ 5)]
      have hnum : 5 / 2 * τ ^ 2 + 5 / 3 * τ ^ 3 + 5 * τ ^ 4 + τ ^ 5 ≤ 251 / 100 * τ ^ 2 := by rw [hτ]; norm_num
      calc |w| ≤ 5 / 2 * τ ^ 2 * v ^ 2 + 5 / 3 * τ ^ 3 * v ^ 2 + 5 * τ ^ 4 * v ^ 2 + τ ^ 5 * v ^ 2 := by linarith
        _ = (5 / 2 * τ ^ 2 + 5 / 3 * τ ^ 3 + 5 * τ ^ 4 + τ ^ 5) * v ^ 2 := by ring
        _ ≤ _ := by gcongr
    have hw1 : |w| ≤ 1 / 100 := by
      have : v ^ 2 ≤ 1 := pow_le_one₀ hv0.le hv1
      refine hwabs.trans ?_
      calc _ ≤ 251 / 100 * τ ^ 2 * (1 : ℝ) := by gcongr
        _ ≤ _ := by rw [hτ]; norm_num
    have hwp : 0 < 1 + w := by linarith [(abs_le.1 hw1).1]
    have f1 : u - dx = u * (1 - dx * v) := by linear_combination dx * huv
    have f2 : u - dy = u * (1 - dy * v) := by linear_combination dy * huv
    have f3 : u - dz = u * (1 - dz * v) := by linear_combination dz * huv
    have f4 : u - dp = u * (1 - dp * v) := by linear_combination dp * huv
    have small : ∀ d : ℝ, |d| ≤ τ → 0 < 1 - d * v := fun d hd => by
      have h1 : d * v ≤ τ * 1 := by
        calc d * v ≤ |d| * v := by gcongr; exact le_abs_self d
          _ ≤ τ * 1 := by gcongr
      have : τ < 1 := by rw [hτ]; norm_num
      linarith
    have gx := small dx hx
    have gy := small dy hy
    have gz := small dz hz
    have gp := small dp hp
    have hfac : (1 - dx * v) * (1 - dy * v) * (1 - dz * v) * (1 - dp * v) ^ 2 = 1 + w := by
      rw [hw, he2, he3, he4, he5, hz']; ring
    have hsq : 1 / (√((u - dx) * (u - dy) * (u - dz)) * (u - dp)) = u ^ (-(5 / 2 : ℝ)) * (1 / √(1 + w)) := by
      have e1 : √(1 + w) = √((1 - dx * v) * (1 - dy * v) * (1 - dz * v)) * (1 - dp * v) := by
        rw [← hfac, Real.sqrt_mul (by positivity), Real.sqrt_sq gp.le]
      have e2 : √((u - dx) * (u - dy) * (u - dz)) = √(u ^ 3) * √((1 - dx * v) * (1 - dy * v) * (1 - dz * v)) := by
        rw [← Real.sqrt_mul (by positivity), f1, f2, f3]
        congr 1
        ring
      have hu0 : 0 < √(u ^ 3) := Real.sqrt_pos.2 (by positivity)
      have hq0 : 0 < √((1 - dx * v) * (1 - dy * v) * (1 - dz * v)) := Real.sqrt_pos.2 (by positivity)
      rw [Real.rpow_neg h0.le, ← sqrt_fifth h0, e1, e2, f4]
      field_simp
    rw [hsq, ← mul_sub, abs_mul, abs_of_pos (Real.rpow_pos_of_pos h0 _), mul_left_comm (16 * τ ^ 6 : ℝ)]
    refine mul_le_mul_of_nonneg_left ?_ (Real.rpow_pos_of_pos h0 _).le
    have hi := inv_sqrt_close hw1
    have hsplit : 1 / √(1 + w) - (1 + -e2 / 2 * v ^ 2 + e3 / 2 * v ^ 3 + (3 / 8 * e2 ^ 2 - e4 / 2) * v ^ 4 + (e5 / 2 - 3 / 4 * (e2 * e3)) * v ^ 5) =
        (1 / √(1 + w) - (1 - w / 2 + 3 / 8 * w ^ 2)) +
          3 / 8 * ((e3 * e3) * v ^ 6 + (2 * (e2 * e4)) * v ^ 6 - (2 * (e2 * e5)) * v ^ 7 - (2 * (e3 * e4)) * v ^ 7 + (e4 * e4) * v ^ 8 +
            (2 * (e3 * e5)) * v ^ 8 - (2 * (e4 * e5)) * v ^ 9 + (e5 * e5) * v ^ 10) := by
      rw [hw]; ring
    rw [hsplit]
    have hw3 : |w| ^ 3 ≤ (251 / 100 * τ ^ 2) ^ 3 * v ^ 6 := by
      calc |w| ^ 3 ≤ (251 / 100 * τ ^ 2 * v ^ 2) ^ 3 := by gcongr
        _ = _ := by ring
    have prod : ∀ a b A B : ℝ, |a| ≤ A → |b| ≤ B → |a * b| ≤ A * B := fun a b A B ha hb => by
      rw [abs_mul]; exact mul_le_mul ha hb (abs_nonneg _) ((abs_nonneg _).trans ha)
    have prod2 : ∀ a b A B : ℝ, |a| ≤ A → |b| ≤ B → |2 * (a * b)| ≤ 2 * (A * B) := fun a b A B ha hb => by
      rw [abs_mul, abs_two]; exact mul_le_mul_of_nonneg_left (prod a b A B ha hb) (by norm_num)
    have t1 := abs_le.1 (habs _ _ 6 6 (prod _ _ _ _ b3 b3) le_rfl)
    have t2 := abs_le.1 (habs _ _ 6 6 (prod2 _ _ _ _ b2 b4) le_rfl)
    have t3 := abs_le.1 (habs _ _ 6 7 (prod2 _ _ _ _ b2 b5) (by norm_num))
    have t4 := abs_le.1 (habs _ _ 6 7 (prod2 _ _ _ _ b3 b4) (by norm_num))
    have t5 := abs_le.1 (habs _ _ 6 8 (prod _ _ _ _ b4 b4) (by norm_num))
    have t6 := abs_le.1 (habs _ _ 6 8 (prod2 _ _ _ _ b3 b5) (by norm_num))
    have t7 := abs_le.1 (habs _ _ 6 9 (prod2 _ _ _ _ b4 b5) (by norm_num))
    have t8 := abs_le.1 (habs _ _ 6 10 (prod _ _ _ _ b5 b5) (by norm_num))
    have hi' := abs_le.1 (hi.trans (mul_le_mul_of_nonneg_left hw3 (by norm_num : (0 : ℝ) ≤ 1 / 3)))
    have hnum : 1 / 3 * (251 / 100 * τ ^ 2) ^ 3 + 3 / 8 * (5 / 3 * τ ^ 3 * (5 / 3 * τ ^ 3) + 2 * (5 / 2 * τ ^ 2 * (5 * τ ^ 4)) +
        2 * (5 / 2 * τ ^ 2 * τ ^ 5) + 2 * (5 / 3 * τ ^ 3 * (5 * τ ^ 4)) + 5 * τ ^ 4 * (5 * τ ^ 4) + 2 * (5 / 3 * τ ^ 3 * τ ^ 5) +
        2 * (5 * τ ^ 4 * τ ^ 5) + τ ^ 5 * τ ^ 5) ≤ 16 * τ ^ 6 := by rw [hτ]; norm_num
    have hfin := mul_le_mul_of_nonneg_right hnum (hvn 6)
    rw [add_mul, mul_assoc (3 / 8 : ℝ)] at hfin
    simp only [add_mul] at hfin
    rw [abs_le]
    constructor
    · linarith [hi'.1, t1.1, t2.1, t3.2, t4.2, t5.1, t6.1, t7.2, t8.1]
    · linarith [hi'.2, t1.2, t2.2, t3.1, t4.1, t5.2, t6.2, t7.1, t8.2]

end Russell.Lab
