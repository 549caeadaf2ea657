import Verif.Tensor.Invariants
import Mathlib.Analysis.Calculus.Deriv.Mul
import Mathlib.Analysis.Calculus.Deriv.Pow
import Mathlib.Analysis.SpecialFunctions.Sqrt
import Mathlib.Analysis.SpecialFunctions.Pow.Deriv

/-!
# C68: first derivatives of the invariants (russell_tensor/src/derivatives_t2.rs)
-/

namespace Russell.Tensor
open Russell Russell.Res

/-- `for m in 0..d1.dim() { d1.vec[m] = f(m) }`. -/
def Tensor2.mapDim (t : Tensor2) (f : Fin 9 → ℝ) : Tensor2 := ⟨t.rep, upto t.dim f t.vec⟩

/-- `deriv1_norm` (derivatives_t2.rs:27-38); returns `d1` and the result. -/
noncomputable def deriv1Norm (d1 sigma : Tensor2) : Res (Tensor2 × Option ℝ) :=
  if d1.rep ≠ sigma.rep then panic
  else
    let nrm := sigma.norm
    if nrm > 0 then do
      let d1 ← d1.setTensor 1 sigma
      ok (d1.mapDim fun m => d1.vec m / nrm, some nrm)
    else ok (d1, none)

/-- `deriv1_invariant_jj2` (derivatives_t2.rs:65-69). -/
noncomputable def deriv1Jj2 (d1 sigma : Tensor2) : Res Tensor2 :=
  if ¬ sigma.rep.symmetric then panic
  else if d1.rep ≠ sigma.rep then panic
  else sigma.deviator d1

/-- `deriv1_invariant_jj3` (derivatives_t2.rs:97-107); `TWO_BY_3` is 2/3. Returns `(d1, s)`. -/
noncomputable def deriv1Jj3 (d1 s sigma : Tensor2) : Res (Tensor2 × Tensor2) :=
  if ¬ sigma.rep.symmetric then panic
  else if d1.rep ≠ sigma.rep then panic
  else if s.rep ≠ sigma.rep then panic
  else do
    let jj2 := sigma.jj2
    let s ← sigma.deviator s
    let d1 ← s.squared d1
    ok (⟨d1.rep, fun m => if m.val < 3 then d1.vec m - 2 / 3 * jj2 else d1.vec m⟩, s)

/-- `deriv1_invariant_sigma_s` (derivatives_t2.rs:128-136). -/
noncomputable def deriv1SigmaS (d1 sigma : Tensor2) : Res Tensor2 :=
  if d1.rep ≠ sigma.rep then panic
  else ok (d1.mapDim fun m => if m.val < 3 then 1 / SQRT_3 else 0)

/-- `deriv1_invariant_sigma_t` (derivatives_t2.rs:163-176). -/
noncomputable def deriv1SigmaT (d1 sigma : Tensor2) : Res (Tensor2 × Option ℝ) :=
  if ¬ sigma.rep.symmetric then panic
  else if d1.rep ≠ sigma.rep then panic
  else
    let jj2 := sigma.jj2
    if jj2 > TOL_J2 then do
      let a := 1 / √(2 * jj2)
      let d1 ← deriv1Jj2 d1 sigma
      ok (d1.mapDim fun m => d1.vec m * a, some jj2)
    else ok (d1, none)

/-- `deriv1_invariant_p` (derivatives_t2.rs:197-205); `ONE_BY_3` is 1/3. -/
noncomputable def deriv1P (d1 sigma : Tensor2) : Res Tensor2 :=
  if d1.rep ≠ sigma.rep then panic
  else ok (d1.mapDim fun m => if m.val < 3 then 1 / 3 else 0)

/-- `deriv1_invariant_q` (derivatives_t2.rs:232-245). -/
noncomputable def deriv1Q (d1 sigma : Tensor2) : Res (Tensor2 × Option ℝ) :=
  if ¬ sigma.rep.symmetric then panic
  else if d1.rep ≠ sigma.rep then panic
  else
    let jj2 := sigma.jj2
    if jj2 > TOL_J2 then do
      let a := 0.5 * SQRT_3 / √jj2
      let d1 ← deriv1Jj2 d1 sigma
      ok (d1.mapDim fun m => d1.vec m * a, some jj2)
    else ok (d1, none)

/-- `deriv1_invariant_lode` (derivatives_t2.rs:281-297). -/
noncomputable def deriv1Lode (d1 s sigma : Tensor2) : Res (Tensor2 × Tensor2 × Option ℝ) :=
  if ¬ sigma.rep.symmetric then panic
  else if d1.rep ≠ sigma.rep then panic
  else if s.rep ≠ sigma.rep then panic
  else
    let jj2 := sigma.jj2
    if jj2 > TOL_J2 then do
      let (d1, s) ← deriv1Jj3 d1 s sigma
      let jj3 := sigma.jj3
      let a := 1.5 * SQRT_3 / jj2 ^ (1.5 : ℝ)
      let b := 2.25 * SQRT_3 / jj2 ^ (2.5 : ℝ)
      ok (d1.mapDim fun m => a * d1.vec m - b * jj3 * s.vec m, s, some jj2)
    else ok (d1, s, none)

/-! ### Derivatives with respect to a tensor -/

/-- A curve of tensors through `t` with velocity `H`. -/
structure Curve (c : ℝ → Tensor2) (t : Tensor2) (H : Matrix (Fin 3) (Fin 3) ℝ) : Prop where
  start : (c 0).std = t.std
  velocity : ∀ i j, HasDerivAt (fun ε => (c ε).std i j) (H i j) 0

/-- `D` is the derivative of `f` at `t`: along every curve of tensors of the same representation, the derivative is `D : H`. -/
def IsGrad (f : Tensor2 → ℝ) (t : Tensor2) (D : Matrix (Fin 3) (Fin 3) ℝ) : Prop :=
  ∀ c H, (∀ ε, (c ε).rep = t.rep) → Curve c t H → HasDerivAt (fun ε => f (c ε)) (∑ i, ∑ j, D i j * H i j) 0

/-- Derivatives of polynomials of the components, by the rules. -/
macro "deriv_rules" h:ident : tactic => `(tactic| (
  repeat' first
    | exact $h _ _
    | exact hasDerivAt_const _ _
    | apply HasDerivAt.fun_add
    | apply HasDerivAt.fun_sub
    | apply HasDerivAt.fun_pow
    | apply HasDerivAt.fun_mul
    | apply HasDerivAt.div_const
    | apply HasDerivAt.fun_neg))

section
variable {A : ℝ → Matrix (Fin 3) (Fin 3) ℝ} {H : Matrix (Fin 3) (Fin 3) ℝ} (h : ∀ i j, HasDerivAt (fun ε => A ε i j) (H i j) 0)
include h

theorem deriv_trace : HasDerivAt (fun ε => (A ε).trace) H.trace 0 := by
  simp only [Matrix.trace, Matrix.diag, Fin.sum_univ_three]
  deriv_rules h

theorem deriv_dev (i j : Fin 3) : HasDerivAt (fun ε => devOf (A ε) i j) (devOf H i j) 0 := by
  simp only [devOf, Matrix.sub_apply, Matrix.smul_apply, smul_eq_mul]
  have ht := deriv_trace h
  exact (h i j).fun_sub ((ht.div_const 3).mul_const _)

theorem deriv_sqSum : HasDerivAt (fun ε => sqSum (A ε)) (∑ i, ∑ j, 2 * A 0 i j * H i j) 0 := by
  simp only [sqSum, Fin.sum_univ_three]
  refine HasDerivAt.congr_deriv (by deriv_rules h) ?_
  ring

theorem deriv_trSq : HasDerivAt (fun ε => (A ε * A ε).trace) (∑ i, ∑ j, 2 * A 0 j i * H i j) 0 := by
  simp only [Matrix.trace, Matrix.diag, Matrix.mul_apply, Fin.sum_univ_three]
  refine HasDerivAt.congr_deriv (by deriv_rules h) ?_
  ring

theorem deriv_det : HasDerivAt (fun ε => (A ε).det) (∑ i, ∑ j, (A 0).adjugate j i * H i j) 0 := by
  simp only [Matrix.det_fin_three, Matrix.adjugate_fin_three, Fin.sum_univ_three]
  refine HasDerivAt.congr_deriv (by deriv_rules h) ?_
  simp
  ring
end

theorem mapDim_smul (t : Tensor2) (k : ℝ) (f : Fin 9 → ℝ) (hf : ∀ m, f m = k * t.vec m) : (t.mapDim f).std = k • t.std := by
  rw [std_eq, std_eq, Tensor2.mapDim]
  simp only [Tensor2.dim, cut_upto]
  rw [show f = fun m => k * t.vec m from funext hf, cut_map _ (k * ·) (mul_zero _), mat9_smul]

theorem sum_smul (k : ℝ) (D H : Matrix (Fin 3) (Fin 3) ℝ) : ∑ i, ∑ j, (k • D) i j * H i j = k * ∑ i, ∑ j, D i j * H i j := by
  simp only [Matrix.smul_apply, smul_eq_mul, Finset.mul_sum, mul_assoc]

/-- `D : dev H = D : H` for a deviator `D`. -/
theorem sum_dev (D H : Matrix (Fin 3) (Fin 3) ℝ) (hD : D.trace = 0) : ∑ i, ∑ j, D i j * devOf H i j = ∑ i, ∑ j, D i j * H i j := by
  simp only [Matrix.trace, Matrix.diag, Fin.sum_univ_three] at hD
  simp only [devOf, Fin.sum_univ_three]
  simp
  linear_combination (-(H.trace / 3)) * hD

theorem trace_dev (A : Matrix (Fin 3) (Fin 3) ℝ) : (devOf A).trace = 0 := by
  rw [devOf, Matrix.trace_sub, Matrix.trace_smul, Matrix.trace_one]
  simp

/-- `deriv1_norm`: the derivative of the norm, unless the tensor is zero. -/
theorem C68_norm (d1 sigma : Tensor2) (hr : d1.rep = sigma.rep) :
    (sigma.std ≠ 0 → ∃ r, deriv1Norm d1 sigma = ok (r, some sigma.norm) ∧ r.rep = sigma.rep ∧ IsGrad Tensor2.norm sigma r.std) ∧
      (sigma.std = 0 → deriv1Norm d1 sigma = ok (d1, none)) := by
  have h0 : 0 ≤ sqSum sigma.std := Finset.sum_nonneg fun i _ => Finset.sum_nonneg fun j _ => sq_nonneg _
  unfold deriv1Norm
  rw [if_neg (by simp [hr])]
  constructor
  · intro hn
    have hpos : 0 < sqSum sigma.std := by
      refine lt_of_le_of_ne h0 fun e => hn ?_
      ext i j
      have := (Finset.sum_eq_zero_iff_of_nonneg (fun i _ => Finset.sum_nonneg fun j _ => sq_nonneg (sigma.std i j))).1 e.symm i (Finset.mem_univ i)
      have := (Finset.sum_eq_zero_iff_of_nonneg (fun j _ => sq_nonneg (sigma.std i j))).1 this j (Finset.mem_univ j)
      simpa using this
    have hnp : sigma.norm > 0 := by rw [C66_norm]; exact Real.sqrt_pos.2 hpos
    obtain ⟨t, h1, h2, h3⟩ := C65_set_tensor d1 sigma 1 hr
    refine ⟨_, by rw [if_pos hnp, h1]; rfl, by exact h2.trans hr, ?_⟩
    rw [mapDim_smul t sigma.norm⁻¹ _ (fun m => by rw [div_eq_inv_mul]), h3, one_smul]
    intro c H hc hH
    have hd := deriv_sqSum hH.velocity
    rw [hH.start] at hd
    have hs := hd.sqrt (by rw [hH.start]; exact hpos.ne')
    simp only [← C66_norm] at hs
    refine hs.congr_deriv ?_
    rw [sum_smul]
    have : (c 0).norm = sigma.norm := by rw [C66_norm, C66_norm, hH.start]
    rw [this, div_eq_inv_mul, mul_inv, mul_comm (2 : ℝ)⁻¹, mul_assoc]
    congr 1
    simp only [Finset.mul_sum]
    refine Finset.sum_congr rfl fun i _ => Finset.sum_congr rfl fun j _ => ?_
    ring
  · intro h
    rw [if_neg]
    rw [C66_norm, h]
    simp [sqSum]

theorem isGrad_jj2 (sigma : Tensor2) (hs : sigma.std.IsSymm) : IsGrad Tensor2.jj2 sigma (devOf sigma.std) := by
  intro c H hc hH
  have hd := (deriv_trSq (deriv_dev hH.velocity)).div_const 2
  simp only [← jj2_eq] at hd
  refine hd.congr_deriv ?_
  rw [hH.start]
  have hsy := devOf_symm hs
  rw [← sum_dev _ _ (trace_dev _), Finset.sum_div]
  refine Finset.sum_congr rfl fun i _ => ?_
  rw [Finset.sum_div]
  refine Finset.sum_congr rfl fun j _ => ?_
  rw [hsy.apply]
  ring

theorem C68_jj2 (d1 sigma : Tensor2) (hs : sigma.rep ≠ .General) (hr : d1.rep = sigma.rep) :
    ∃ r, deriv1Jj2 d1 sigma = ok r ∧ r.rep = sigma.rep ∧ IsGrad Tensor2.jj2 sigma r.std := by
  obtain ⟨r, h1, h2, h3⟩ := C66_deviator sigma d1 hr
  refine ⟨r, ?_, h2, ?_⟩
  · rw [deriv1Jj2, if_neg (by simp [Rep.symmetric, hs]), if_neg (by simp [hr]), h1]
  · rw [h3]
    exact isGrad_jj2 sigma (std_symm _ hs)

/-- `s² - (2/3) J2 I`, the derivative of `J3`. -/
noncomputable def gradJj3 (t : Tensor2) : Matrix (Fin 3) (Fin 3) ℝ :=
  devOf t.std * devOf t.std - (2 / 3 * t.jj2) • (1 : Matrix (Fin 3) (Fin 3) ℝ)

theorem adjugate_dev {S : Matrix (Fin 3) (Fin 3) ℝ} (hS : S.trace = 0) (i j : Fin 3) :
    S.adjugate i j = (S * S) i j - ((S * S).trace / 2) * (1 : Matrix (Fin 3) (Fin 3) ℝ) i j := by
  simp only [Matrix.trace, Matrix.diag, Fin.sum_univ_three] at hS
  have e : S 2 2 = -S 0 0 - S 1 1 := by linarith
  rw [Matrix.adjugate_fin_three]
  simp only [Matrix.trace, Matrix.diag, Matrix.mul_apply, Fin.sum_univ_three]
  fin_cases i <;> fin_cases j <;> simp [e] <;> ring

theorem isGrad_jj3 (sigma : Tensor2) (hs : sigma.std.IsSymm) : IsGrad Tensor2.jj3 sigma (gradJj3 sigma) := by
  intro c H hc hH
  have hd := deriv_det (deriv_dev hH.velocity)
  have e : (fun ε => (c ε).jj3) = fun ε => (devOf (c ε).std).det := by
    funext ε; rw [Tensor2.jj3, C66_deviator_determinant]
  rw [e]
  refine hd.congr_deriv ?_
  rw [hH.start]
  have ht := trace_dev sigma.std
  have hsy := devOf_symm hs
  have hj := jj2_eq sigma
  set S := devOf sigma.std with hS
  have e1 : ∀ i j, S.adjugate j i = gradJj3 sigma i j - (1 / 3 * sigma.jj2) * (1 : Matrix (Fin 3) (Fin 3) ℝ) i j := by
    intro i j
    rw [adjugate_dev ht, gradJj3, ← hS, ← hj, Matrix.sub_apply, Matrix.smul_apply, smul_eq_mul, Matrix.mul_apply, Matrix.mul_apply]
    have : ∑ k, S j k * S k i = ∑ k, S i k * S k j := Finset.sum_congr rfl fun k _ => by rw [hsy.apply j k, hsy.apply k i, mul_comm]
    rw [this, show (1 : Matrix (Fin 3) (Fin 3) ℝ) j i = (1 : Matrix (Fin 3) (Fin 3) ℝ) i j by
      rw [Matrix.one_apply, Matrix.one_apply]; simp only [eq_comm]]
    ring
  have htg : (gradJj3 sigma).trace = 0 := by
    rw [gradJj3, Matrix.trace_sub, Matrix.trace_smul, Matrix.trace_one, hj]
    simp
    ring
  rw [← sum_dev _ _ htg]
  have htd := trace_dev H
  simp only [e1, sub_mul, Finset.sum_sub_distrib]
  simp only [Matrix.trace, Matrix.diag, Fin.sum_univ_three] at htd ⊢
  simp
  first
    | linear_combination (-(1 / 3) * sigma.jj2) * htd
    | linear_combination ((1 / 3) * sigma.jj2) * htd

theorem squared_sub (d1 : Tensor2) (k : ℝ) : Tensor2.std ⟨d1.rep, fun m => if m.val < 3 then d1.vec m - k else d1.vec m⟩ =
    d1.std - k • (1 : Matrix (Fin 3) (Fin 3) ℝ) := by
  rw [std_eq, std_eq]
  obtain ⟨r, v⟩ := d1
  ext i j
  cases r <;> fin_cases i <;> fin_cases j <;> simp [mat9, cut]

theorem deriv1Jj3_spec (d1 s sigma : Tensor2) (hs : sigma.rep ≠ .General) (hr : d1.rep = sigma.rep) (hr' : s.rep = sigma.rep) :
    ∃ r s', deriv1Jj3 d1 s sigma = ok (r, s') ∧ r.rep = sigma.rep ∧ s'.rep = sigma.rep ∧ s'.std = devOf sigma.std ∧ r.std = gradJj3 sigma := by
  obtain ⟨s', h1, h2, h3⟩ := C66_deviator sigma s hr'
  obtain ⟨r, g1, g2, g3⟩ := C66_squared s' d1 (hr.trans h2.symm)
  refine ⟨_, s', by
    rw [deriv1Jj3, if_neg (by simp [Rep.symmetric, hs]), if_neg (by simp [hr]), if_neg (by simp [hr']), h1]
    simp only [Res.ok_bind, g1]; rfl, by exact g2.trans h2, h2, h3, ?_⟩
  rw [squared_sub, g3, h3, gradJj3]

theorem C68_jj3 (d1 s sigma : Tensor2) (hs : sigma.rep ≠ .General) (hr : d1.rep = sigma.rep) (hr' : s.rep = sigma.rep) :
    ∃ r s', deriv1Jj3 d1 s sigma = ok (r, s') ∧ r.rep = sigma.rep ∧ s'.std = devOf sigma.std ∧ IsGrad Tensor2.jj3 sigma r.std := by
  obtain ⟨r, s', h1, h2, h3, h4, h5⟩ := deriv1Jj3_spec d1 s sigma hs hr hr'
  exact ⟨r, s', h1, h2, h4, by rw [h5]; exact isGrad_jj3 sigma (std_symm _ hs)⟩

theorem mapDim_const (t : Tensor2) (k : ℝ) : (t.mapDim fun m => if m.val < 3 then k else 0).std = k • (1 : Matrix (Fin 3) (Fin 3) ℝ) := by
  rw [std_eq, Tensor2.mapDim]
  simp only [Tensor2.dim, cut_upto]
  ext i j
  cases t.rep <;> fin_cases i <;> fin_cases j <;> simp [mat9, cut]

theorem isGrad_trace (t : Tensor2) (k : ℝ) : IsGrad (fun t => t.trace * k) t (k • (1 : Matrix (Fin 3) (Fin 3) ℝ)) := by
  intro c H hc hH
  have hd := (deriv_trace hH.velocity).mul_const k
  simp only [← C66_trace] at hd
  refine hd.congr_deriv ?_
  simp only [Matrix.trace, Matrix.diag, Fin.sum_univ_three]
  simp
  ring

theorem C68_sigma_s (d1 sigma : Tensor2) (hr : d1.rep = sigma.rep) :
    ∃ r, deriv1SigmaS d1 sigma = ok r ∧ r.rep = sigma.rep ∧ IsGrad Tensor2.sigmaS sigma r.std := by
  refine ⟨_, by rw [deriv1SigmaS, if_neg (by simp [hr])], by exact hr, ?_⟩
  rw [mapDim_const]
  have := isGrad_trace sigma (1 / SQRT_3)
  simp only [← div_eq_mul_one_div] at this
  exact this

theorem C68_p (d1 sigma : Tensor2) (hr : d1.rep = sigma.rep) :
    ∃ r, deriv1P d1 sigma = ok r ∧ r.rep = sigma.rep ∧ IsGrad Tensor2.invP sigma r.std := by
  refine ⟨_, by rw [deriv1P, if_neg (by simp [hr])], by exact hr, ?_⟩
  rw [mapDim_const]
  have := isGrad_trace sigma (1 / 3)
  simp only [← div_eq_mul_one_div] at this
  exact this

theorem isGrad_devNorm (sigma : Tensor2) (hs : sigma.std.IsSymm) (hj : 0 < sigma.jj2) (k : ℝ) :
    IsGrad (fun t => t.deviatorNorm * k) sigma ((k / √(2 * sigma.jj2)) • devOf sigma.std) := by
  intro c H hc hH
  have hq := sqSum_dev sigma hs
  have hd := deriv_sqSum (deriv_dev hH.velocity)
  rw [hH.start] at hd
  have hsq := (hd.sqrt (by rw [hH.start, hq]; positivity)).mul_const k
  simp only [← C66_deviator_norm] at hsq
  refine hsq.congr_deriv ?_
  rw [sum_smul, ← sum_dev _ _ (trace_dev _)]
  have : (c 0).deviatorNorm = √(2 * sigma.jj2) := by rw [C66_deviator_norm, hH.start, hq]
  rw [this]
  have e : ∑ i, ∑ j, 2 * devOf sigma.std i j * devOf H i j = 2 * ∑ i, ∑ j, devOf sigma.std i j * devOf H i j := by
    simp only [Finset.mul_sum, mul_assoc]
  rw [e]
  have : √(2 * sigma.jj2) ≠ 0 := by positivity
  field_simp

theorem C68_refused (d1 s sigma : Tensor2) :
    (sigma.rep = .General → deriv1Jj2 d1 sigma = Res.panic ∧ deriv1Jj3 d1 s sigma = Res.panic ∧ deriv1SigmaT d1 sigma = Res.panic ∧
      deriv1Q d1 sigma = Res.panic ∧ deriv1Lode d1 s sigma = Res.panic) ∧
    (d1.rep ≠ sigma.rep → deriv1Norm d1 sigma = Res.panic ∧ deriv1Jj2 d1 sigma = Res.panic ∧ deriv1Jj3 d1 s sigma = Res.panic ∧
      deriv1SigmaS d1 sigma = Res.panic ∧ deriv1SigmaT d1 sigma = Res.panic ∧ deriv1P d1 sigma = Res.panic ∧
      deriv1Q d1 sigma = Res.panic ∧ deriv1Lode d1 s sigma = Res.panic) ∧
    (s.rep ≠ sigma.rep → deriv1Jj3 d1 s sigma = Res.panic ∧ deriv1Lode d1 s sigma = Res.panic) := by
  refine ⟨fun h => ?_, fun h => ?_, fun h => ?_⟩
  · simp [deriv1Jj2, deriv1Jj3, deriv1SigmaT, deriv1Q, deriv1Lode, h, Rep.symmetric]
  · simp [deriv1Norm, deriv1Jj2, deriv1Jj3, deriv1SigmaS, deriv1SigmaT, deriv1P, deriv1Q, deriv1Lode, h]
  · simp [deriv1Jj3, deriv1Lode, h]

theorem tol_pos : (0 : ℝ) < TOL_J2 := by norm_num [TOL_J2]

theorem C68_sigma_t (d1 sigma : Tensor2) (hs : sigma.rep ≠ .General) (hr : d1.rep = sigma.rep) :
    (sigma.jj2 > 1e-9 → ∃ r, deriv1SigmaT d1 sigma = ok (r, some sigma.jj2) ∧ r.rep = sigma.rep ∧ IsGrad Tensor2.sigmaT sigma r.std) ∧
      (sigma.jj2 ≤ 1e-9 → deriv1SigmaT d1 sigma = ok (d1, none)) := by
  unfold deriv1SigmaT
  rw [if_neg (by simp [Rep.symmetric, hs]), if_neg (by simp [hr])]
  constructor
  · intro hj
    obtain ⟨t, h1, h2, h3⟩ := C66_deviator sigma d1 hr
    refine ⟨_, by
      rw [if_pos (show sigma.jj2 > TOL_J2 from hj), deriv1Jj2, if_neg (by simp [Rep.symmetric, hs]), if_neg (by simp [hr]), h1]; rfl, by exact h2, ?_⟩
    rw [mapDim_smul t (1 / √(2 * sigma.jj2)) _ (fun m => mul_comm _ _), h3]
    have := isGrad_devNorm sigma (std_symm _ hs) (tol_pos.trans hj) 1
    simp only [mul_one] at this
    exact this
  · intro hj
    exact if_neg (not_lt.2 hj)

theorem C68_q (d1 sigma : Tensor2) (hs : sigma.rep ≠ .General) (hr : d1.rep = sigma.rep) :
    (sigma.jj2 > 1e-9 → ∃ r, deriv1Q d1 sigma = ok (r, some sigma.jj2) ∧ r.rep = sigma.rep ∧ IsGrad Tensor2.invQ sigma r.std) ∧
      (sigma.jj2 ≤ 1e-9 → deriv1Q d1 sigma = ok (d1, none)) := by
  unfold deriv1Q
  rw [if_neg (by simp [Rep.symmetric, hs]), if_neg (by simp [hr])]
  constructor
  · intro hj
    have hj0 := tol_pos.trans hj
    obtain ⟨t, h1, h2, h3⟩ := C66_deviator sigma d1 hr
    refine ⟨_, by
      rw [if_pos (show sigma.jj2 > TOL_J2 from hj), deriv1Jj2, if_neg (by simp [Rep.symmetric, hs]), if_neg (by simp [hr]), h1]; rfl, by exact h2, ?_⟩
    rw [mapDim_smul t (0.5 * SQRT_3 / √sigma.jj2) _ (fun m => mul_comm _ _), h3]
    have := isGrad_devNorm sigma (std_symm _ hs) hj0 SQRT_3_BY_2
    have e : SQRT_3_BY_2 / √(2 * sigma.jj2) = 0.5 * SQRT_3 / √sigma.jj2 := by
      rw [SQRT_3_BY_2, SQRT_3, Real.sqrt_div (by norm_num), Real.sqrt_mul (by norm_num), div_div, ← mul_assoc, Real.mul_self_sqrt (by norm_num)]
      have : √sigma.jj2 ≠ 0 := by positivity
      field_simp
      norm_num
    rw [e] at this
    exact this
  · intro hj
    exact if_neg (not_lt.2 hj)

/-- The Lode invariant as a number. -/
noncomputable def lodeValue (t : Tensor2) : ℝ := 1.5 * SQRT_3 * t.jj3 / t.jj2 ^ (1.5 : ℝ)

theorem isGrad_lode (sigma : Tensor2) (hs : sigma.std.IsSymm) (hj : 0 < sigma.jj2) : IsGrad lodeValue sigma
    ((1.5 * SQRT_3 / sigma.jj2 ^ (1.5 : ℝ)) • gradJj3 sigma - (2.25 * SQRT_3 / sigma.jj2 ^ (2.5 : ℝ) * sigma.jj3) • devOf sigma.std) := by
  intro c H hc hH
  have h3 := isGrad_jj3 sigma hs c H hc hH
  have h2 := isGrad_jj2 sigma hs c H hc hH
  have e2 : (c 0).jj2 = sigma.jj2 := by rw [jj2_eq, jj2_eq, hH.start]
  have e3 : (c 0).jj3 = sigma.jj3 := by
    rw [Tensor2.jj3, Tensor2.jj3, C66_deviator_determinant, C66_deviator_determinant, hH.start]
  have hp := h2.rpow_const (p := (1.5 : ℝ)) (Or.inl (by rw [e2]; exact hj.ne'))
  have hd := (h3.const_mul (1.5 * SQRT_3)).fun_div hp (by rw [e2]; positivity)
  refine hd.congr_deriv ?_
  rw [e2, e3]
  simp only [Matrix.sub_apply, sub_mul, Finset.sum_sub_distrib, sum_smul]
  set X := ∑ i, ∑ j, gradJj3 sigma i j * H i j
  set Y := ∑ i, ∑ j, devOf sigma.std i j * H i j
  have p1 : sigma.jj2 ^ (2.5 : ℝ) = sigma.jj2 ^ (1.5 : ℝ) * sigma.jj2 := by
    rw [← Real.rpow_add_one hj.ne']; norm_num
  have p2 : sigma.jj2 ^ (1.5 : ℝ) = sigma.jj2 ^ (1.5 - 1 : ℝ) * sigma.jj2 := by
    rw [← Real.rpow_add_one hj.ne']; norm_num
  rw [p1, p2]
  have hq : sigma.jj2 ^ (1.5 - 1 : ℝ) ≠ 0 := by positivity
  field_simp
  ring

theorem lode_eq {t : Tensor2} (h : t.jj2 > TOL_J2) : t.lode = some (lodeValue t) := if_pos h

/-- `deriv1_invariant_lode`: near the tensor the Lode invariant is defined, and this is its derivative. -/
theorem C68_lode (d1 s sigma : Tensor2) (hs : sigma.rep ≠ .General) (hr : d1.rep = sigma.rep) (hr' : s.rep = sigma.rep) :
    (sigma.jj2 > 1e-9 → ∃ r s', deriv1Lode d1 s sigma = ok (r, s', some sigma.jj2) ∧ r.rep = sigma.rep ∧
        ∃ f : Tensor2 → ℝ, (∀ t, t.jj2 > 1e-9 → t.lode = some (f t)) ∧ IsGrad f sigma r.std) ∧
      (sigma.jj2 ≤ 1e-9 → deriv1Lode d1 s sigma = ok (d1, s, none)) := by
  unfold deriv1Lode
  rw [if_neg (by simp [Rep.symmetric, hs]), if_neg (by simp [hr]), if_neg (by simp [hr'])]
  constructor
  · intro hj
    obtain ⟨r, s', h1, h2, h3, h4, h5⟩ := deriv1Jj3_spec d1 s sigma hs hr hr'
    refine ⟨_, s', by rw [if_pos (show sigma.jj2 > TOL_J2 from hj), h1]; rfl, by exact h2, lodeValue, fun t ht => lode_eq ht, ?_⟩
    have hg := isGrad_lode sigma (std_symm _ hs) (tol_pos.trans hj)
    rw [← h5, ← h4] at hg
    convert hg using 1
    rw [std_eq, std_eq, std_eq, Tensor2.mapDim, h3, h2]
    simp only [Tensor2.dim, h2, cut_upto]
    rw [cut_map₂ _ (fun x y => 1.5 * SQRT_3 / sigma.jj2 ^ (1.5 : ℝ) * x - 2.25 * SQRT_3 / sigma.jj2 ^ (2.5 : ℝ) * sigma.jj3 * y) (by simp)]
    ext i j
    fin_cases i <;> fin_cases j <;> simp [mat9] <;> ring
  · intro hj
    exact if_neg (not_lt.2 hj)

/-! ### Cases -/

/-- Straight curves. -/
theorem line_curve (t : Tensor2) (h : Fin 9 → ℝ) : Curve (fun ε => ⟨t.rep, fun m => t.vec m + ε * h m⟩) t (Tensor2.std ⟨t.rep, h⟩) := by
  have e : ∀ ε, Tensor2.std ⟨t.rep, fun m => t.vec m + ε * h m⟩ = t.std + ε • Tensor2.std ⟨t.rep, h⟩ := by
    intro ε
    rw [std_eq, std_eq, std_eq]
    simp only [cut_map₂ _ (fun x y => x + ε * y) (by simp), mat9_add, mat9_smul]
  refine ⟨by simp [e], fun i j => ?_⟩
  simp only [e, Matrix.add_apply, Matrix.smul_apply, smul_eq_mul]
  have := ((hasDerivAt_id (0 : ℝ)).mul_const (Tensor2.std ⟨t.rep, h⟩ i j)).const_add (t.std i j)
  simpa using this

/-- The derivatives at `diag(3, 0, 0)` in the direction of the first diagonal entry: `dJ2 = 2`, `dJ3 = 2`. -/
example : ∃ r, deriv1Jj2 (Tensor2.new .Symmetric) caseUniaxial = ok r ∧
    HasDerivAt (fun ε : ℝ => Tensor2.jj2 ⟨.Symmetric, fun m => caseUniaxial.vec m + ε * ![1, 0, 0, 0, 0, 0, 0, 0, 0] m⟩) 2 0 := by
  obtain ⟨r, h1, h2, h3⟩ := C68_jj2 (Tensor2.new .Symmetric) caseUniaxial (by simp [caseUniaxial]) rfl
  obtain ⟨r', g1, g2, g3⟩ := C66_deviator caseUniaxial (Tensor2.new .Symmetric) rfl
  have : r = r' := by
    have : deriv1Jj2 (Tensor2.new .Symmetric) caseUniaxial = caseUniaxial.deviator (Tensor2.new .Symmetric) := by
      simp [deriv1Jj2, caseUniaxial, Rep.symmetric, Tensor2.new]
    rw [this, g1] at h1
    exact (Res.ok.inj h1).symm
  refine ⟨r, h1, ?_⟩
  refine (h3 _ _ (fun ε => by rfl) (line_curve caseUniaxial ![1, 0, 0, 0, 0, 0, 0, 0, 0])).congr_deriv ?_
  rw [this, g3, devOf, std_eq, std_eq]
  simp [Fin.sum_univ_three, Matrix.trace, mat9, cut, caseUniaxial]
  norm_num

example : ∃ r s', deriv1Jj3 (Tensor2.new .Symmetric) (Tensor2.new .Symmetric) caseUniaxial = ok (r, s') ∧
    IsGrad Tensor2.jj3 caseUniaxial r.std := by
  obtain ⟨r, s', h1, -, -, h4⟩ := C68_jj3 (Tensor2.new .Symmetric) (Tensor2.new .Symmetric) caseUniaxial (by simp [caseUniaxial]) rfl rfl
  exact ⟨r, s', h1, h4⟩

theorem caseUniaxial_jj2 : caseUniaxial.jj2 = 3 := by simp [caseUniaxial, Tensor2.jj2]; norm_num

example : ∃ r, deriv1SigmaT (Tensor2.new .Symmetric) caseUniaxial = ok (r, some 3) ∧ IsGrad Tensor2.sigmaT caseUniaxial r.std := by
  obtain ⟨r, h1, -, h3⟩ := (C68_sigma_t (Tensor2.new .Symmetric) caseUniaxial (by simp [caseUniaxial]) rfl).1
    (by rw [caseUniaxial_jj2]; norm_num)
  exact ⟨r, by rw [h1, caseUniaxial_jj2], h3⟩

example : ∃ r, deriv1Q (Tensor2.new .Symmetric) caseUniaxial = ok (r, some 3) ∧ IsGrad Tensor2.invQ caseUniaxial r.std := by
  obtain ⟨r, h1, -, h3⟩ := (C68_q (Tensor2.new .Symmetric) caseUniaxial (by simp [caseUniaxial]) rfl).1
    (by rw [caseUniaxial_jj2]; norm_num)
  exact ⟨r, by rw [h1, caseUniaxial_jj2], h3⟩

example : ∃ r s', deriv1Lode (Tensor2.new .Symmetric) (Tensor2.new .Symmetric) caseUniaxial = ok (r, s', some 3) := by
  obtain ⟨r, s', h1, -, -⟩ := (C68_lode (Tensor2.new .Symmetric) (Tensor2.new .Symmetric) caseUniaxial (by simp [caseUniaxial]) rfl rfl).1
    (by rw [caseUniaxial_jj2]; norm_num)
  exact ⟨r, s', by rw [h1, caseUniaxial_jj2]⟩

/-- The zero tensor. -/
example : deriv1Norm (Tensor2.identity .General) (Tensor2.new .General) = ok (Tensor2.identity .General, none) :=
  (C68_norm (Tensor2.identity .General) (Tensor2.new .General) rfl).2 (by simp [Tensor2.new, Tensor2.std])

example : ∃ r, deriv1Norm (Tensor2.new .General) (caseTensor caseMatrixG .General) =
    ok (r, some (caseTensor caseMatrixG .General).norm) ∧ IsGrad Tensor2.norm (caseTensor caseMatrixG .General) r.std := by
  obtain ⟨r, h1, -, h3⟩ := (C68_norm (Tensor2.new .General) (caseTensor caseMatrixG .General) rfl).1 (by
    rw [caseG_std]; intro h; have := congrFun (congrFun h 0) 0; simp [caseMatrixG] at this)
  exact ⟨r, h1, h3⟩

end Russell.Tensor
