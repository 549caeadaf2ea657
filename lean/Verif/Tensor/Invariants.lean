import Verif.Tensor.AlgebraProps
import Mathlib.Analysis.Matrix.Spectrum
import Mathlib.LinearAlgebra.Matrix.IsDiag
import Mathlib.Analysis.SpecialFunctions.Trigonometric.Inverse
import Mathlib.Analysis.SpecialFunctions.Trigonometric.Bounds

/-!
# C67: invariants of second-order tensors (russell_tensor/src/tensor2.rs)
-/

namespace Russell.Tensor
open Russell Russell.Res

/-- `Tensor2::invariant_ii1` (tensor2.rs:1814-1816). -/
def Tensor2.ii1 (t : Tensor2) : ℝ := t.trace

/-- `Tensor2::invariant_ii2` (tensor2.rs:1840-1850). -/
noncomputable def Tensor2.ii2 (t : Tensor2) : ℝ :=
  let a := t.vec
  let s := a 0 * a 1 + a 0 * a 2 + a 1 * a 2 - a 3 * a 3 / 2
  let s := if t.dim > 4 then s - (a 4 * a 4 + a 5 * a 5) / 2 else s
  if t.dim > 6 then s + (a 6 * a 6 + a 7 * a 7 + a 8 * a 8) / 2 else s

/-- `Tensor2::invariant_ii3` (tensor2.rs:1874-1876). -/
noncomputable def Tensor2.ii3 (t : Tensor2) : ℝ := t.determinant

/-- `Tensor2::invariant_jj2` (tensor2.rs:1916-1935). -/
noncomputable def Tensor2.jj2 (t : Tensor2) : ℝ :=
  let a := t.vec
  match t.rep with
  | .Symmetric2D => (2 * (a 0 * a 0 + a 1 * a 1 - a 1 * a 2 + a 2 * a 2 - a 0 * (a 1 + a 2)) + 3 * a 3 * a 3) / 6
  | .Symmetric =>
    (2 * (a 0 * a 0 + a 1 * a 1 - a 1 * a 2 + a 2 * a 2 - a 0 * (a 1 + a 2)) + 3 * (a 3 * a 3 + a 4 * a 4 + a 5 * a 5)) / 6
  | .General =>
    (2 * (a 0 * a 0 + a 1 * a 1 - a 1 * a 2 + a 2 * a 2 - a 0 * (a 1 + a 2))
      + 3 * (a 3 * a 3 + a 4 * a 4 + a 5 * a 5 - a 6 * a 6 - a 7 * a 7 - a 8 * a 8)) / 6

/-- `Tensor2::invariant_jj3` (tensor2.rs:1961-1963). -/
noncomputable def Tensor2.jj3 (t : Tensor2) : ℝ := t.deviatorDeterminant

/-- `Tensor2::invariant_sigma_s`, `invariant_eps_s` (tensor2.rs:1989-1991, 2100-2102). -/
noncomputable def Tensor2.sigmaS (t : Tensor2) : ℝ := t.trace / SQRT_3

/-- `Tensor2::invariant_sigma_t`, `invariant_eps_t` (tensor2.rs:2015-2017, 2128-2130). -/
noncomputable def Tensor2.sigmaT (t : Tensor2) : ℝ := t.deviatorNorm

/-- `Tensor2::invariant_p` (tensor2.rs:2043-2045). -/
noncomputable def Tensor2.invP (t : Tensor2) : ℝ := t.trace / 3

/-- `Tensor2::invariant_q` (tensor2.rs:2074-2076). -/
noncomputable def Tensor2.invQ (t : Tensor2) : ℝ := t.deviatorNorm * SQRT_3_BY_2

/-- `Tensor2::invariant_eps_v` (tensor2.rs:2154-2156). -/
def Tensor2.epsV (t : Tensor2) : ℝ := t.trace

/-- `Tensor2::invariant_eps_d` (tensor2.rs:2180-2182). -/
noncomputable def Tensor2.epsD (t : Tensor2) : ℝ := t.deviatorNorm * SQRT_2_BY_3

/-- `TOL_J2` (constants.rs:40). -/
noncomputable def TOL_J2 : ℝ := 1e-9

/-- `Tensor2::invariant_lode` (tensor2.rs:2214-2222). -/
noncomputable def Tensor2.lode (t : Tensor2) : Option ℝ :=
  if t.jj2 > TOL_J2 then some (1.5 * SQRT_3 * t.jj3 / t.jj2 ^ (1.5 : ℝ)) else none

/-- `Tensor2::invariants_octahedral` (tensor2.rs:2245-2250). -/
noncomputable def Tensor2.octahedral (t : Tensor2) : ℝ × ℝ × Option ℝ := (t.ii1 / SQRT_3, t.deviatorNorm, t.lode)

/-- The diagonal tensor from the coordinates on the octahedral plane (tensor2.rs:208-211, 249-252). -/
noncomputable def fromStar (star1 star2 star3 : ℝ) (two_dim : Bool) : Tensor2 :=
  ⟨(Tensor2.newSym two_dim).rep, ![(SQRT_2 * star1 + star2) / SQRT_3, -star1 / SQRT_6 + star2 / SQRT_3 - star3 / SQRT_2,
    -star1 / SQRT_6 + star2 / SQRT_3 + star3 / SQRT_2, 0, 0, 0, 0, 0, 0]⟩

/-- `Tensor2::new_from_octahedral` (tensor2.rs:200-213). -/
noncomputable def newFromOctahedral (distance radius lode : ℝ) (two_dim : Bool) : Res Tensor2 :=
  if lode < -1 ∨ lode > 1 then err "lode invariant must be in -1 ≤ lode ≤ 1"
  else
    let theta := Real.arccos lode / 3
    ok (fromStar (radius * Real.cos theta) distance (radius * Real.sin theta) two_dim)

/-- `Tensor2::new_from_octahedral_alpha` (tensor2.rs:242-254). -/
noncomputable def newFromOctahedralAlpha (distance radius alpha : ℝ) (two_dim : Bool) : Res Tensor2 :=
  if alpha < -Real.pi ∨ alpha > Real.pi then err "alpha must be in -π ≤ alpha ≤ π"
  else ok (fromStar (radius * Real.sin alpha) distance (radius * Real.cos alpha) two_dim)

/-! ### Properties -/

/-- The principal invariants are the coefficients of the characteristic polynomial. -/
theorem C67_principal (t : Tensor2) (x : ℝ) : (x • (1 : Matrix (Fin 3) (Fin 3) ℝ) - t.std).det = x ^ 3 - t.ii1 * x ^ 2 + t.ii2 * x - t.ii3 := by
  rw [Tensor2.ii3, C66_determinant, Tensor2.ii1, Tensor2.ii2, std_eq, Matrix.det_fin_three, Matrix.det_fin_three]
  obtain ⟨r, v⟩ := t
  cases r <;> simp [mat9, cut, Rep.dim, Tensor2.dim, Tensor2.trace] <;> kelvin

/-- The invariants of the deviator are the coefficients of its characteristic polynomial. -/
theorem C67_deviatoric (t : Tensor2) (x : ℝ) : (x • (1 : Matrix (Fin 3) (Fin 3) ℝ) - devOf t.std).det = x ^ 3 - t.jj2 * x - t.jj3 := by
  rw [Tensor2.jj3, C66_deviator_determinant, Tensor2.jj2]
  obtain ⟨v, h, hv⟩ := devOf_eq t
  rw [h, hv, Matrix.det_fin_three, Matrix.det_fin_three]
  simp only [Tensor2.trace]
  cases t.rep <;> simp [mat9, cut] <;> kelvin

theorem jj2_eq (t : Tensor2) : t.jj2 = (devOf t.std * devOf t.std).trace / 2 := by
  rw [Tensor2.jj2]
  obtain ⟨v, h, hv⟩ := devOf_eq t
  rw [h, hv, Matrix.trace]
  simp only [Matrix.diag, Matrix.mul_apply, Fin.sum_univ_three, Tensor2.trace]
  cases t.rep <;> simp [mat9, cut] <;> kelvin

/-- `J2 = tr(s²)/2` and `J3 = det s`; for a symmetric tensor the norms are the roots of `J2` as documented. -/
theorem C67_jj (t : Tensor2) : t.jj2 = (devOf t.std * devOf t.std).trace / 2 ∧ t.jj3 = (devOf t.std).det ∧
    t.jj2 = t.ii1 ^ 2 / 3 - t.ii2 := by
  refine ⟨jj2_eq t, C66_deviator_determinant t, ?_⟩
  unfold Tensor2.jj2 Tensor2.ii1 Tensor2.ii2 Tensor2.trace Tensor2.dim
  cases t.rep <;> simp [Rep.dim] <;> ring

theorem std_symm (t : Tensor2) (h : t.rep ≠ .General) : t.std.IsSymm := by
  rw [std_eq, Matrix.IsSymm.ext_iff]
  intro i j
  cases hr : t.rep <;> simp [hr] at h <;> fin_cases i <;> fin_cases j <;> simp [mat9, cut]

theorem devOf_symm {a : Matrix (Fin 3) (Fin 3) ℝ} (h : a.IsSymm) : (devOf a).IsSymm := by
  rw [devOf]
  exact h.sub (Matrix.isSymm_one.smul _)

theorem sqSum_eq_trace (a : Matrix (Fin 3) (Fin 3) ℝ) : sqSum a = (a * a.transpose).trace := by
  simp only [sqSum, Matrix.trace, Matrix.diag, Matrix.mul_apply, Matrix.transpose_apply, sq]

theorem sqSum_dev (t : Tensor2) (h : t.std.IsSymm) : sqSum (devOf t.std) = 2 * t.jj2 := by
  rw [sqSum_eq_trace, devOf_symm h, jj2_eq]
  ring

/-- The stress and strain invariants. -/
theorem C67_stress_strain (t : Tensor2) : t.sigmaS = t.std.trace / √3 ∧ t.sigmaT = √(sqSum (devOf t.std)) ∧ t.invP = t.std.trace / 3 ∧
    t.invQ = √(3 / 2) * √(sqSum (devOf t.std)) ∧ t.epsV = t.std.trace ∧ t.epsD = √(2 / 3) * √(sqSum (devOf t.std)) := by
  refine ⟨?_, C66_deviator_norm t, ?_, ?_, C66_trace t, ?_⟩
  · rw [Tensor2.sigmaS, C66_trace, SQRT_3]
  · rw [Tensor2.invP, C66_trace]
  · rw [Tensor2.invQ, C66_deviator_norm, mul_comm, SQRT_3_BY_2]
  · rw [Tensor2.epsD, C66_deviator_norm, mul_comm, SQRT_2_BY_3]

/-- For a symmetric tensor: `J2 ≥ 0`, `σt = √(2 J2)`, `q = √(3 J2)`, `εd = √(4 J2 / 3)`. -/
theorem C67_symmetric (t : Tensor2) (h : t.std.IsSymm) : 0 ≤ t.jj2 ∧ t.sigmaT = √(2 * t.jj2) ∧ t.invQ = √(3 * t.jj2) ∧
    t.epsD = √(4 / 3 * t.jj2) := by
  have e := sqSum_dev t h
  have h0 : 0 ≤ sqSum (devOf t.std) := Finset.sum_nonneg fun i _ => Finset.sum_nonneg fun j _ => sq_nonneg _
  refine ⟨by linarith, ?_, ?_, ?_⟩
  · rw [Tensor2.sigmaT, C66_deviator_norm, e]
  · rw [Tensor2.invQ, C66_deviator_norm, e, SQRT_3_BY_2, ← Real.sqrt_mul (by linarith)]; ring_nf
  · rw [Tensor2.epsD, C66_deviator_norm, e, SQRT_2_BY_3, ← Real.sqrt_mul (by linarith)]; ring_nf

/-- The tensor is not symmetric: `σt` is not the root of `2 J2` (as documented). -/
theorem C67_sigma_t_counterexample : ∃ t : Tensor2, t.sigmaT ≠ √(2 * t.jj2) := by
  refine ⟨⟨.General, ![0, 0, 0, 0, 0, 0, 1, 0, 0]⟩, ?_⟩
  have h : Tensor2.jj2 ⟨.General, ![0, 0, 0, 0, 0, 0, 1, 0, 0]⟩ = -1 / 2 := by
    simp [Tensor2.jj2]
    norm_num
  rw [h, Real.sqrt_eq_zero_of_nonpos (x := 2 * (-1 / 2)) (by norm_num)]
  simp [Tensor2.sigmaT, Tensor2.deviatorNorm, Tensor2.dim, Rep.dim]

/-- Invariance: a rotation (or reflection) of the tensor leaves the invariants as they are. -/
theorem C67_rotation (t u : Tensor2) (R : Matrix (Fin 3) (Fin 3) ℝ) (hR : R * R.transpose = 1) (h : u.std = R * t.std * R.transpose) :
    u.ii1 = t.ii1 ∧ u.ii2 = t.ii2 ∧ u.ii3 = t.ii3 ∧ u.jj2 = t.jj2 ∧ u.jj3 = t.jj3 ∧ u.norm = t.norm ∧ u.sigmaS = t.sigmaS ∧
      u.sigmaT = t.sigmaT ∧ u.invP = t.invP ∧ u.invQ = t.invQ ∧ u.epsV = t.epsV ∧ u.epsD = t.epsD ∧ u.lode = t.lode := by
  have hR' : R.transpose * R = 1 := mul_eq_one_comm.1 hR
  have htr : u.std.trace = t.std.trace := by
    rw [h, Matrix.trace_mul_comm, ← mul_assoc, hR', one_mul]
  have hdev : devOf u.std = R * devOf t.std * R.transpose := by
    rw [devOf, devOf, htr, h, mul_sub, sub_mul, mul_smul_comm, smul_mul_assoc, mul_one, hR]
  have hdet : ∀ a : Matrix (Fin 3) (Fin 3) ℝ, (R * a * R.transpose).det = a.det := by
    intro a
    rw [Matrix.det_mul, Matrix.det_mul, mul_right_comm, ← Matrix.det_mul, hR, Matrix.det_one, one_mul]
  have hsq : ∀ a : Matrix (Fin 3) (Fin 3) ℝ, sqSum (R * a * R.transpose) = sqSum a := by
    intro a
    have : R * a * R.transpose * (R * a * R.transpose).transpose = R * (a * a.transpose) * R.transpose := by
      rw [Matrix.transpose_mul, Matrix.transpose_mul, Matrix.transpose_transpose]
      calc R * a * R.transpose * (R * (a.transpose * R.transpose)) = R * a * (R.transpose * R) * (a.transpose * R.transpose) := by
            simp only [mul_assoc]
        _ = _ := by rw [hR', mul_one]; simp only [mul_assoc]
    rw [sqSum_eq_trace, sqSum_eq_trace, this, Matrix.trace_mul_comm, ← mul_assoc, hR', one_mul]
  have h1 : u.ii1 = t.ii1 := by rw [Tensor2.ii1, Tensor2.ii1, C66_trace, C66_trace, htr]
  have h3 : u.ii3 = t.ii3 := by rw [Tensor2.ii3, Tensor2.ii3, C66_determinant, C66_determinant, h, hdet]
  have hj2 : u.jj2 = t.jj2 := by
    rw [jj2_eq, jj2_eq, hdev]
    have : R * devOf t.std * R.transpose * (R * devOf t.std * R.transpose) = R * (devOf t.std * devOf t.std) * R.transpose := by
      calc R * devOf t.std * R.transpose * (R * devOf t.std * R.transpose)
          = R * devOf t.std * (R.transpose * R) * (devOf t.std * R.transpose) := by simp only [mul_assoc]
        _ = _ := by rw [hR', mul_one]; simp only [mul_assoc]
    rw [this, Matrix.trace_mul_comm, ← mul_assoc, hR', one_mul]
  have hj3 : u.jj3 = t.jj3 := by
    rw [Tensor2.jj3, Tensor2.jj3, C66_deviator_determinant, C66_deviator_determinant, hdev, hdet]
  have hdn : u.deviatorNorm = t.deviatorNorm := by rw [C66_deviator_norm, C66_deviator_norm, hdev, hsq]
  have h2 : u.ii2 = t.ii2 := by
    have a := (C67_jj u).2.2
    have b := (C67_jj t).2.2
    rw [hj2, h1] at a
    linarith
  have htr' : u.trace = t.trace := h1
  refine ⟨h1, h2, h3, hj2, hj3, ?_, ?_, hdn, ?_, ?_, h1, ?_, ?_⟩
  · rw [C66_norm, C66_norm, h, hsq]
  · rw [Tensor2.sigmaS, Tensor2.sigmaS, htr']
  · rw [Tensor2.invP, Tensor2.invP, htr']
  · rw [Tensor2.invQ, Tensor2.invQ, hdn]
  · rw [Tensor2.epsD, Tensor2.epsD, hdn]
  · rw [Tensor2.lode, Tensor2.lode, hj2, hj3]

/-- The principal values of the deviator of a symmetric tensor. -/
theorem dev_roots (t : Tensor2) (h : t.std.IsSymm) : ∃ a b c : ℝ, a + b + c = 0 ∧ t.jj2 = -(a * b + b * c + c * a) ∧ t.jj3 = a * b * c := by
  have hs : (devOf t.std).IsHermitian := by
    rw [Matrix.IsHermitian, Matrix.conjTranspose_eq_transpose_of_trivial]
    exact devOf_symm h
  have key : ∀ x : ℝ, (x - hs.eigenvalues 0) * (x - hs.eigenvalues 1) * (x - hs.eigenvalues 2) = x ^ 3 - t.jj2 * x - t.jj3 := by
    intro x
    rw [← C67_deviatoric]
    have e := congrArg (Polynomial.eval x) hs.charpoly_eq
    rw [Matrix.eval_charpoly, Polynomial.eval_prod, Fin.prod_univ_three] at e
    simp at e
    rw [← e]
    congr 1
    ext i j
    fin_cases i <;> fin_cases j <;> simp
  have h0 := key 0
  have h1 := key 1
  have h2 := key (-1)
  refine ⟨hs.eigenvalues 0, hs.eigenvalues 1, hs.eigenvalues 2, ?_, ?_, ?_⟩ <;> linarith

/-- `27 J3² ≤ 4 J2³` for a symmetric tensor. -/
theorem jj_bound (t : Tensor2) (h : t.std.IsSymm) : 27 * t.jj3 ^ 2 ≤ 4 * t.jj2 ^ 3 := by
  obtain ⟨a, b, c, h0, h2, h3⟩ := dev_roots t h
  have hc : c = -a - b := by linarith
  rw [h2, h3, hc]
  have := sq_nonneg ((a - b) * (b - (-a - b)) * ((-a - b) - a))
  linarith

theorem rpow_three_half_sq {x : ℝ} (h : 0 ≤ x) : (x ^ (1.5 : ℝ)) ^ 2 = x ^ 3 := by
  rw [← Real.rpow_natCast, ← Real.rpow_mul h, ← Real.rpow_natCast]
  norm_num

/-- The Lode invariant of a symmetric tensor is in `[-1, 1]`. -/
theorem C67_lode_range (t : Tensor2) (h : t.std.IsSymm) (l : ℝ) (hl : t.lode = some l) : -1 ≤ l ∧ l ≤ 1 := by
  unfold Tensor2.lode at hl
  split at hl
  · rename_i hj
    have hj0 : 0 < t.jj2 := lt_trans (by norm_num [TOL_J2]) hj
    simp only [Option.some.injEq] at hl
    rw [← abs_le, ← sq_le_one_iff_abs_le_one, ← hl, div_pow, rpow_three_half_sq hj0.le, div_le_one (by positivity), mul_pow, mul_pow,
      SQRT_3, Real.sq_sqrt (by norm_num)]
    have := jj_bound t h
    norm_num
    linarith
  · cases hl

/-- The principal values, by the Lode angle `θ = arccos(l)/3`. -/
theorem C67_lode_principal (t : Tensor2) (h : t.std.IsSymm) (l : ℝ) (hl : t.lode = some l) (x : ℝ) :
    (x • (1 : Matrix (Fin 3) (Fin 3) ℝ) - t.std).det =
      (x - (t.invP + 2 / 3 * t.invQ * Real.cos (Real.arccos l / 3))) *
      (x - (t.invP + 2 / 3 * t.invQ * Real.cos (Real.arccos l / 3 - 2 * Real.pi / 3))) *
      (x - (t.invP + 2 / 3 * t.invQ * Real.cos (Real.arccos l / 3 + 2 * Real.pi / 3))) := by
  obtain ⟨hl1, hl2⟩ := C67_lode_range t h l hl
  have hx : x • (1 : Matrix (Fin 3) (Fin 3) ℝ) - t.std = (x - t.invP) • (1 : Matrix (Fin 3) (Fin 3) ℝ) - devOf t.std := by
    rw [devOf, Tensor2.invP, C66_trace, sub_smul]
    abel
  rw [hx, C67_deviatoric]
  obtain ⟨hj0, -, hq, -⟩ := C67_symmetric t h
  have hq2 : t.invQ ^ 2 = 3 * t.jj2 := by rw [hq, Real.sq_sqrt (by linarith)]
  have hq0 : 0 ≤ t.invQ := by rw [hq]; positivity
  have h3 : Real.cos (3 * (Real.arccos l / 3)) = l := by rw [mul_div_cancel₀ _ (by norm_num)]; exact Real.cos_arccos hl1 hl2
  rw [Real.cos_three_mul] at h3
  have hj3 : 2 * t.invQ ^ 3 * l = 27 * t.jj3 := by
    unfold Tensor2.lode at hl
    split at hl
    · rename_i hj
      have hj1 : 0 < t.jj2 := lt_trans (by norm_num [TOL_J2]) hj
      simp only [Option.some.injEq] at hl
      have e : t.invQ = √3 * √t.jj2 := by rw [hq, Real.sqrt_mul (by norm_num)]
      have e2 : t.jj2 ^ (1.5 : ℝ) = t.jj2 * √t.jj2 := by
        rw [show (1.5 : ℝ) = 1 + 1 / 2 by norm_num, Real.rpow_add hj1, Real.rpow_one, Real.sqrt_eq_rpow]
      have s3 : √(3 : ℝ) ^ 2 = 3 := Real.sq_sqrt (by norm_num)
      have sj : √t.jj2 ^ 2 = t.jj2 := Real.sq_sqrt hj1.le
      have p : 0 < √t.jj2 := Real.sqrt_pos.2 hj1
      have e3 : (√3 * √t.jj2) ^ 3 = 3 * √3 * (t.jj2 * √t.jj2) := by
        rw [mul_pow, pow_succ √3 2, s3, pow_succ √t.jj2 2, sj]
      have hp : t.jj2 * √t.jj2 ≠ 0 := by positivity
      rw [← hl, e, e2, SQRT_3, e3]
      generalize t.jj2 * √t.jj2 = P at hp
      have : 2 * (3 * √3 * P) * (1.5 * √3 * t.jj3 / P) = 9 * √3 ^ 2 * t.jj3 * (P / P) := by ring
      rw [this, s3, div_self hp]
      ring
    · cases hl
  set c := Real.cos (Real.arccos l / 3)
  have hs := Real.sin_sq_add_cos_sq (Real.arccos l / 3)
  rw [Real.cos_sub, Real.cos_add]
  have c1 : Real.cos (2 * Real.pi / 3) = -(1 / 2) := by
    rw [show 2 * Real.pi / 3 = Real.pi - Real.pi / 3 by ring, Real.cos_pi_sub, Real.cos_pi_div_three]
  have s1 : Real.sin (2 * Real.pi / 3) = √3 / 2 := by
    rw [show 2 * Real.pi / 3 = Real.pi - Real.pi / 3 by ring, Real.sin_pi_sub, Real.sin_pi_div_three]
  rw [c1, s1]
  set s := Real.sin (Real.arccos l / 3)
  have s3 : √(3 : ℝ) ^ 2 = 3 := Real.sq_sqrt (by norm_num)
  have hj2 : t.jj2 = t.invQ ^ 2 / 3 := by linarith
  have hj3' : t.jj3 = 2 * t.invQ ^ 3 * (4 * c ^ 3 - 3 * c) / 27 := by rw [h3]; linarith
  have hs' : s ^ 2 = 1 - c ^ 2 := by linarith
  rw [hj2, hj3']
  have e : (√3 * s) ^ 2 = 3 * (1 - c ^ 2) := by rw [mul_pow, s3, hs']
  linear_combination (x - t.invP - 2 * t.invQ * c / 3) * (t.invQ ^ 2 / 9) * e

theorem fromStar_vec (s1 d s3 : ℝ) (two_dim : Bool) : (fromStar s1 d s3 two_dim).vec =
    ![√3 * d / 3 + √2 * √3 * s1 / 3, √3 * d / 3 - √2 * √3 * s1 / 6 - √2 * s3 / 2,
      √3 * d / 3 - √2 * √3 * s1 / 6 + √2 * s3 / 2, 0, 0, 0, 0, 0, 0] := by
  have h2 : (√2 : ℝ)⁻¹ = √2 / 2 := inv_eq_of_mul_eq_one_right (by rw [← mul_div_assoc, Real.mul_self_sqrt (by norm_num)]; norm_num)
  have h3 : (√3 : ℝ)⁻¹ = √3 / 3 := inv_eq_of_mul_eq_one_right (by rw [← mul_div_assoc, Real.mul_self_sqrt (by norm_num)]; norm_num)
  have h6 : (√6 : ℝ) = √2 * √3 := by rw [← Real.sqrt_mul (by norm_num)]; norm_num
  funext m
  fin_cases m <;> simp [fromStar, SQRT_2, SQRT_3, SQRT_6, h6, div_eq_mul_inv, h2, h3] <;> ring

theorem fromStar_rep (s1 d s3 : ℝ) (two_dim : Bool) :
    (fromStar s1 d s3 two_dim).rep = if two_dim then .Symmetric2D else .Symmetric := by
  cases two_dim <;> rfl

theorem fromStar_diag (s1 d s3 : ℝ) (two_dim : Bool) : (fromStar s1 d s3 two_dim).std.IsDiag := by
  rw [std_eq, fromStar_rep, fromStar_vec]
  intro i j hij
  cases two_dim <;> fin_cases i <;> fin_cases j <;> simp [mat9, cut] at hij ⊢

theorem fromStar_inv (r d θ : ℝ) (two_dim : Bool) :
    (fromStar (r * Real.cos θ) d (r * Real.sin θ) two_dim).trace = √3 * d ∧
    (fromStar (r * Real.cos θ) d (r * Real.sin θ) two_dim).jj2 = r ^ 2 / 2 ∧
    (fromStar (r * Real.cos θ) d (r * Real.sin θ) two_dim).jj3 = √2 * √3 * r ^ 3 * Real.cos (3 * θ) / 18 := by
  have x2 : (√2 : ℝ) ^ 2 = 2 := Real.sq_sqrt (by norm_num)
  have y2 : (√3 : ℝ) ^ 2 = 3 := Real.sq_sqrt (by norm_num)
  have x3 : (√2 : ℝ) ^ 3 = 2 * √2 := by rw [pow_succ, x2]
  have y3 : (√3 : ℝ) ^ 3 = 3 * √3 := by rw [pow_succ, y2]
  have hs : Real.sin θ ^ 2 = 1 - Real.cos θ ^ 2 := by rw [← Real.sin_sq_add_cos_sq θ]; ring
  refine ⟨?_, ?_, ?_⟩
  · rw [Tensor2.trace, fromStar_vec]
    simp
    ring
  · rw [Tensor2.jj2, fromStar_rep, fromStar_vec]
    cases two_dim <;> simp <;> ring_nf <;> simp only [x2, y2, hs] <;> ring
  · rw [Tensor2.jj3, Tensor2.deviatorDeterminant, fromStar_rep, fromStar_vec, Real.cos_three_mul]
    cases two_dim <;> simp <;> ring_nf <;> simp only [x2, y2, x3, y3, hs] <;> ring

theorem fromStar_octahedral (r d θ : ℝ) (two_dim : Bool) (hr : 0 ≤ r) :
    (fromStar (r * Real.cos θ) d (r * Real.sin θ) two_dim).octahedral =
      (d, r, if r ^ 2 / 2 > 1e-9 then some (Real.cos (3 * θ)) else none) := by
  obtain ⟨h1, h2, h3⟩ := fromStar_inv r d θ two_dim
  have hsym : (fromStar (r * Real.cos θ) d (r * Real.sin θ) two_dim).std.IsSymm :=
    std_symm _ (by rw [fromStar_rep]; cases two_dim <;> simp)
  rw [Tensor2.octahedral, Tensor2.ii1, h1]
  refine Prod.ext ?_ (Prod.ext ?_ ?_)
  · simp [SQRT_3]
  · have := (C67_symmetric _ hsym).2.1
    rw [Tensor2.sigmaT, h2] at this
    simp only [this]
    rw [show 2 * (r ^ 2 / 2) = r ^ 2 by ring, Real.sqrt_sq hr]
  · simp only [Tensor2.lode, h2, h3, TOL_J2]
    split
    · rename_i hp
      congr 1
      have hr' : 0 < r := lt_of_le_of_ne hr (by rintro rfl; norm_num at hp)
      have e : (r ^ 2 / 2) ^ (1.5 : ℝ) = r ^ 3 * √2 / 4 := by
        have hpos : (0 : ℝ) < r ^ 2 / 2 := by positivity
        rw [show (1.5 : ℝ) = 1 + 1 / 2 by norm_num, Real.rpow_add hpos, Real.rpow_one, ← Real.sqrt_eq_rpow, Real.sqrt_div' _ (by norm_num),
          Real.sqrt_sq hr]
        have : (√2 : ℝ)⁻¹ = √2 / 2 := inv_eq_of_mul_eq_one_right (by rw [← mul_div_assoc, Real.mul_self_sqrt (by norm_num)]; norm_num)
        rw [div_eq_mul_inv r, this]
        ring
      rw [e, SQRT_3]
      have y2 : (√3 : ℝ) ^ 2 = 3 := Real.sq_sqrt (by norm_num)
      have : (√2 : ℝ) ≠ 0 := by simp
      rw [div_eq_iff (by positivity)]
      ring_nf
      rw [y2]
      ring
    · rfl

/-- The tensor from octahedral components has these components; it is diagonal. -/
theorem C67_from_octahedral (d r l : ℝ) (two_dim : Bool) (hr : 0 ≤ r) :
    (-1 ≤ l ∧ l ≤ 1 → ∃ t, newFromOctahedral d r l two_dim = ok t ∧ t.rep = (if two_dim then .Symmetric2D else .Symmetric) ∧
      t.std.IsDiag ∧ t.octahedral = (d, r, if r ^ 2 / 2 > 1e-9 then some l else none)) ∧
    (¬ (-1 ≤ l ∧ l ≤ 1) → ∃ msg, newFromOctahedral d r l two_dim = err msg) := by
  unfold newFromOctahedral
  constructor
  · rintro ⟨h1, h2⟩
    refine ⟨_, if_neg (by push Not; exact ⟨h1, h2⟩), fromStar_rep _ _ _ _, fromStar_diag _ _ _ _, ?_⟩
    rw [fromStar_octahedral _ _ _ _ hr, mul_div_cancel₀ _ (by norm_num), Real.cos_arccos h1 h2]
  · intro h
    exact ⟨_, if_pos (by by_contra hc; push Not at hc; exact h hc)⟩

/-- The same with the angle α: the Lode invariant is `-sin(3α)`. -/
theorem C67_from_octahedral_alpha (d r α : ℝ) (two_dim : Bool) (hr : 0 ≤ r) :
    (-Real.pi ≤ α ∧ α ≤ Real.pi → ∃ t, newFromOctahedralAlpha d r α two_dim = ok t ∧
      t.rep = (if two_dim then .Symmetric2D else .Symmetric) ∧
      t.std.IsDiag ∧ t.octahedral = (d, r, if r ^ 2 / 2 > 1e-9 then some (-Real.sin (3 * α)) else none)) ∧
    (¬ (-Real.pi ≤ α ∧ α ≤ Real.pi) → ∃ msg, newFromOctahedralAlpha d r α two_dim = err msg) := by
  unfold newFromOctahedralAlpha
  constructor
  · rintro ⟨h1, h2⟩
    refine ⟨_, if_neg (by push Not; exact ⟨h1, h2⟩), fromStar_rep _ _ _ _, fromStar_diag _ _ _ _, ?_⟩
    rw [← Real.cos_pi_div_two_sub α, ← Real.sin_pi_div_two_sub α, fromStar_octahedral _ _ _ _ hr]
    congr 4
    rw [show 3 * (Real.pi / 2 - α) = Real.pi - (3 * α - Real.pi / 2) by ring, Real.cos_pi_sub, Real.cos_sub_pi_div_two]
  · intro h
    exact ⟨_, if_pos (by by_contra hc; push Not at hc; exact h hc)⟩

/-! ### Cases -/

/-- Uniaxial: `diag(3, 0, 0)`. -/
noncomputable def caseUniaxial : Tensor2 := ⟨.Symmetric, ![3, 0, 0, 0, 0, 0, 0, 0, 0]⟩

theorem caseUniaxial_lode : caseUniaxial.lode = some 1 := by
  have h2 : caseUniaxial.jj2 = 3 := by simp [caseUniaxial, Tensor2.jj2]; norm_num
  have h3 : caseUniaxial.jj3 = 2 := by simp [caseUniaxial, Tensor2.jj3, Tensor2.deviatorDeterminant]; norm_num
  have e : (3 : ℝ) ^ (1.5 : ℝ) = 3 * √3 := by
    rw [show (1.5 : ℝ) = 1 + 1 / 2 by norm_num, Real.rpow_add (by norm_num), Real.rpow_one, ← Real.sqrt_eq_rpow]
  rw [Tensor2.lode, h2, h3, if_pos (by norm_num [TOL_J2]), e, SQRT_3]
  have : (√3 : ℝ) ≠ 0 := by simp
  congr 1
  rw [div_eq_one_iff_eq (by positivity)]
  ring

/-- The principal values of the uniaxial case: 3, 0 and 0. -/
example (x : ℝ) : (x • (1 : Matrix (Fin 3) (Fin 3) ℝ) - caseUniaxial.std).det =
    (x - (caseUniaxial.invP + 2 / 3 * caseUniaxial.invQ * Real.cos (Real.arccos 1 / 3))) *
    (x - (caseUniaxial.invP + 2 / 3 * caseUniaxial.invQ * Real.cos (Real.arccos 1 / 3 - 2 * Real.pi / 3))) *
    (x - (caseUniaxial.invP + 2 / 3 * caseUniaxial.invQ * Real.cos (Real.arccos 1 / 3 + 2 * Real.pi / 3))) :=
  C67_lode_principal _ (std_symm _ (by simp [caseUniaxial])) 1 caseUniaxial_lode x

example : caseUniaxial.invP = 1 ∧ caseUniaxial.invQ = 3 := by
  obtain ⟨-, -, h, -⟩ := C67_symmetric caseUniaxial (std_symm _ (by simp [caseUniaxial]))
  have h2 : caseUniaxial.jj2 = 3 := by simp [caseUniaxial, Tensor2.jj2]; norm_num
  refine ⟨by simp [caseUniaxial, Tensor2.invP, Tensor2.trace], ?_⟩
  rw [h, h2, show (3 * 3 : ℝ) = 3 ^ 2 by norm_num, Real.sqrt_sq (by norm_num)]

/-- A permutation of the axes. -/
example : (⟨.Symmetric, ![0, 3, 0, 0, 0, 0, 0, 0, 0]⟩ : Tensor2).lode = some 1 := by
  rw [← caseUniaxial_lode]
  refine (C67_rotation caseUniaxial ⟨.Symmetric, ![0, 3, 0, 0, 0, 0, 0, 0, 0]⟩ !![0, 0, 1; 1, 0, 0; 0, 1, 0] ?_ ?_).2.2.2.2.2.2.2.2.2.2.2.2
  · ext i j
    rw [Matrix.mul_apply, Fin.sum_univ_three]
    fin_cases i <;> fin_cases j <;> simp
  · rw [std_eq, std_eq]
    ext i j
    rw [Matrix.mul_apply, Fin.sum_univ_three]
    simp only [Matrix.mul_apply, Fin.sum_univ_three]
    fin_cases i <;> fin_cases j <;> simp [caseUniaxial, cut, mat9]

example : ∃ t, newFromOctahedral 1 2 (1 / 2) false = ok t ∧ t.octahedral = (1, 2, some (1 / 2)) := by
  obtain ⟨t, h1, -, -, h4⟩ := (C67_from_octahedral 1 2 (1 / 2) false (by norm_num)).1 (by norm_num)
  exact ⟨t, h1, by rw [h4, if_pos (by norm_num)]⟩

example : ∃ t, newFromOctahedralAlpha 1 2 (Real.pi / 2) true = ok t ∧ t.octahedral = (1, 2, some 1) := by
  have hp := Real.pi_pos
  obtain ⟨t, h1, -, -, h4⟩ := (C67_from_octahedral_alpha 1 2 (Real.pi / 2) true (by norm_num)).1 ⟨by linarith, by linarith⟩
  refine ⟨t, h1, ?_⟩
  rw [h4, if_pos (by norm_num), show 3 * (Real.pi / 2) = Real.pi / 2 + Real.pi by ring, Real.sin_add_pi, Real.sin_pi_div_two, neg_neg]

end Russell.Tensor
