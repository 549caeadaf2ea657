import Verif.Tensor.Ops4

/-!
# Derivatives yielding fourth-order tensors (russell_tensor/src/derivatives_t4.rs)
-/

namespace Russell.Tensor
open Russell Russell.Res

/-- `deriv_inverse_tensor` (derivatives_t4.rs:39-43). -/
noncomputable def derivInverse (dai_da : Tensor4) (ai : Tensor2) : Res Tensor4 := do
  let ai_t ← ai.transpose ai
  t2OdyadT2 dai_da (-1) ai ai_t

/-- `deriv_inverse_tensor_sym` (derivatives_t4.rs:75-79). -/
noncomputable def derivInverseSym (dai_da : Tensor4) (ai : Tensor2) : Res Tensor4 :=
  if dai_da.rep ≠ .Symmetric then panic
  else if ¬ ai.rep.symmetric then panic
  else t2Ssd dai_da (-0.5) ai

/-- `ii.clear(); ii.vec[0] = 1.0; ii.vec[1] = 1.0; ii.vec[2] = 1.0` (derivatives_t4.rs:117-120, 175-178). -/
def setIdentity (ii : Tensor2) : Tensor2 := ((ii.clear.set 0 1).set 1 1).set 2 1

/-- `deriv_squared_tensor` (derivatives_t4.rs:112-137); returns `(da2_da, ii)`. -/
noncomputable def derivSquared (da2_da : Tensor4) (ii a : Tensor2) : Res (Tensor4 × Tensor2) :=
  if da2_da.rep ≠ .General then panic
  else if ii.rep ≠ a.rep then panic
  else do
    let ii := setIdentity ii
    let da2_da ← t2OdyadT2 da2_da 1 a ii
    let at' ← a.transpose a
    let ii_odyad_at ← t2OdyadT2 (Tensor4.new .General) 1 ii at'
    ok (⟨da2_da.rep, fun m n => da2_da.mat m n + ii_odyad_at.mat m n, da2_da.useLoops⟩, ii)

/-- `deriv_squared_tensor_sym` (derivatives_t4.rs:171-180); returns `(da2_da, ii)`. -/
noncomputable def derivSquaredSym (da2_da : Tensor4) (ii a : Tensor2) : Res (Tensor4 × Tensor2) :=
  if da2_da.rep ≠ .Symmetric then panic
  else if ¬ a.rep.symmetric then panic
  else if ii.rep ≠ a.rep then panic
  else do
    let ii := setIdentity ii
    let da2_da ← t2QsdT2 da2_da 0.5 a ii
    ok (da2_da, ii)

/-- `deriv2_invariant_jj2` (derivatives_t4.rs:203-223); `ONE_BY_3` is 1/3, `TWO_BY_3` is 2/3. -/
noncomputable def deriv2Jj2 (d2 : Tensor4) (sigma : Tensor2) : Res Tensor4 :=
  if d2.rep ≠ .Symmetric then panic
  else if ¬ sigma.rep.symmetric then panic
  else ok ((Tensor4.mk d2.rep (upto2 d2.dim (fun _ _ => 0) d2.mat) d2.useLoops).sets
    [(0, 0, 2 / 3), (0, 1, -(1 / 3)), (0, 2, -(1 / 3)), (1, 0, -(1 / 3)), (1, 1, 2 / 3), (1, 2, -(1 / 3)),
      (2, 0, -(1 / 3)), (2, 1, -(1 / 3)), (2, 2, 2 / 3), (3, 3, 1), (4, 4, 1), (5, 5, 1)])

/-- The tensor that the functions below work with: `sigma.sym2d_as_symmetric()` if `sigma` is 2D, otherwise `sigma`
(derivatives_t4.rs:284-289, 368-375, 427-434, 537-548). -/
def Tensor2.as3d (sigma : Tensor2) : Res Tensor2 :=
  if sigma.rep = .Symmetric2D then sigma.sym2dAsSymmetric else ok sigma

/-- `AuxDeriv2InvariantJ3` (derivatives_t4.rs:226-241). -/
structure AuxJ3 where
  s : Tensor2
  ii : Tensor2
  psd : Tensor4
  aa : Tensor4
  bb : Tensor4

/-- `AuxDeriv2InvariantJ3::new` (derivatives_t4.rs:245-253). -/
noncomputable def AuxJ3.new : AuxJ3 :=
  ⟨Tensor2.new .Symmetric, Tensor2.identity .Symmetric, Tensor4.constantPpSymdev true, Tensor4.new .Symmetric, Tensor4.new .Symmetric⟩

/-- `small_mat_update` on the coefficients. -/
def smallUpdate (d2 : Tensor4) (alpha : ℝ) (m : Tensor4) : Res Tensor4 := do
  let r ← Lab.smallMatUpdate 9 (arr d2.mat) alpha (arr m.mat) d2.dim
  ok ⟨d2.rep, fun i j => r i j, d2.useLoops⟩

/-- `deriv2_invariant_jj3` (derivatives_t4.rs:281-311), default build; returns `(d2, aux)`. -/
noncomputable def deriv2Jj3 (d2 : Tensor4) (aux : AuxJ3) (sigma : Tensor2) : Res (Tensor4 × AuxJ3) :=
  if d2.rep ≠ .Symmetric then panic
  else if ¬ sigma.rep.symmetric then panic
  else do
    let sig3d ← sigma.as3d
    let s ← sig3d.deviator aux.s
    let aa ← t2QsdT2 ⟨aux.aa.rep, aux.aa.mat, d2.useLoops⟩ 0.5 s aux.ii
    let bb ← t2DyadT2 aux.bb (-(2 / 3)) aux.ii s
    let r ← Lab.smallMatMatMul 9 (arr d2.mat) 1 (arr aa.mat) (arr aux.psd.mat) 0 d2.dim
    let d2 ← smallUpdate ⟨d2.rep, fun i j => r i j, d2.useLoops⟩ 1 bb
    ok (d2, ⟨s, aux.ii, aux.psd, aa, bb⟩)

/-- `AuxDeriv2InvariantSigmaT` (derivatives_t4.rs:314-320). -/
structure AuxST where
  d1_jj2 : Tensor2
  d2_jj2 : Tensor4

/-- `AuxDeriv2InvariantSigmaT::new` (derivatives_t4.rs:324-329). -/
def AuxST.new : AuxST := ⟨Tensor2.new .Symmetric, Tensor4.new .Symmetric⟩

/-- `deriv2_invariant_sigma_t` (derivatives_t4.rs:361-389) for `k = SQRT_2` and `deriv2_invariant_q` (420-448) for `k = SQRT_3`, which differ in
this factor only; returns `(d2, aux, result)`. -/
noncomputable def deriv2Scaled (k : ℝ) (d2 : Tensor4) (aux : AuxST) (sigma : Tensor2) : Res (Tensor4 × AuxST × Option ℝ) :=
  if d2.rep ≠ .Symmetric then panic
  else if ¬ sigma.rep.symmetric then panic
  else
    let jj2 := sigma.jj2
    if jj2 > TOL_J2 then do
      let a := 0.5 * k / jj2 ^ (0.5 : ℝ)
      let b := 0.25 * k / jj2 ^ (1.5 : ℝ)
      let sig3d ← sigma.as3d
      let d1_jj2 ← deriv1Jj2 aux.d1_jj2 sig3d
      let d2_jj2 ← deriv2Jj2 aux.d2_jj2 sig3d
      let d2 ← t2DyadT2 d2 (-b) d1_jj2 d1_jj2
      let d2 ← smallUpdate d2 a d2_jj2
      ok (d2, ⟨d1_jj2, d2_jj2⟩, some jj2)
    else ok (d2, aux, none)

noncomputable def deriv2SigmaT := deriv2Scaled SQRT_2
noncomputable def deriv2Q := deriv2Scaled SQRT_3

/-- `AuxDeriv2InvariantLode` (derivatives_t4.rs:451-478). -/
structure AuxLode where
  aux_jj3 : AuxJ3
  s : Tensor2
  d1_jj2 : Tensor2
  d1_jj3 : Tensor2
  d2_jj2 : Tensor4
  d2_jj3 : Tensor4
  d22 : Tensor4
  d23 : Tensor4
  d32 : Tensor4

/-- `AuxDeriv2InvariantLode::new` (derivatives_t4.rs:482-494). -/
noncomputable def AuxLode.new : AuxLode :=
  ⟨AuxJ3.new, Tensor2.new .Symmetric, Tensor2.new .Symmetric, Tensor2.new .Symmetric, Tensor4.new .Symmetric, Tensor4.new .Symmetric,
    Tensor4.new .Symmetric, Tensor4.new .Symmetric, Tensor4.new .Symmetric⟩

/-- `deriv2_invariant_lode` (derivatives_t4.rs:527-589), default build; returns `(d2, aux, result)`. -/
noncomputable def deriv2Lode (d2 : Tensor4) (aux : AuxLode) (sigma : Tensor2) : Res (Tensor4 × AuxLode × Option ℝ) :=
  if d2.rep ≠ .Symmetric then panic
  else if ¬ sigma.rep.symmetric then panic
  else
    let jj2 := sigma.jj2
    if jj2 > TOL_J2 then do
      let jj3 := sigma.jj3
      let a := 1.5 * SQRT_3 / jj2 ^ (1.5 : ℝ)
      let b := 2.25 * SQRT_3 / jj2 ^ (2.5 : ℝ)
      let c := 5.625 * SQRT_3 / jj2 ^ (3.5 : ℝ)
      let d2_jj3 : Tensor4 := ⟨aux.d2_jj3.rep, aux.d2_jj3.mat, d2.useLoops⟩
      let sig3d ← sigma.as3d
      let d1_jj2 ← deriv1Jj2 aux.d1_jj2 sig3d
      let d1s ← deriv1Jj3 aux.d1_jj3 aux.s sig3d
      let d2_jj2 ← deriv2Jj2 aux.d2_jj2 sig3d
      let d2a ← deriv2Jj3 d2_jj3 aux.aux_jj3 sig3d
      let d22 ← t2DyadT2 aux.d22 1 d1_jj2 d1_jj2
      let d23 ← t2DyadT2 aux.d23 1 d1_jj2 d1s.1
      let d32 ← t2DyadT2 aux.d32 1 d1s.1 d1_jj2
      let r ← Lab.smallMatAdd 9 (arr d2.mat) a (arr d2a.1.mat) (-b * jj3) (arr d2_jj2.mat) d2.dim
      let d2 ← smallUpdate ⟨d2.rep, fun i j => r i j, d2.useLoops⟩ (-b) d32
      let d2 ← smallUpdate d2 (-b) d23
      let d2 ← smallUpdate d2 (c * jj3) d22
      ok (d2, ⟨d2a.2, d1s.2, d1_jj2, d1s.1, d2_jj2, d2a.1, d22, d23, d32⟩, some jj2)
    else ok (d2, aux, none)

/-! ### Derivatives of functions with tensors as values -/

/-- `D` is the derivative of `G` at `t`: along every curve of tensors of the same representation, the derivative is `D : H`. -/
def IsGradT (G : Tensor2 → Matrix (Fin 3) (Fin 3) ℝ) (t : Tensor2) (D : Array4) : Prop :=
  ∀ c H, (∀ ε, (c ε).rep = t.rep) → Curve c t H → ∀ i j, HasDerivAt (fun ε => G (c ε) i j) (contr D H i j) 0

/-- `D` is the second derivative of `f` at `t`: the curves through `t` are within `dom` near `t`, on `dom` the symmetric tensor `G` is the
derivative of `f`, and `D` is the derivative of `G`. -/
def IsHess (f : Tensor2 → ℝ) (dom : Tensor2 → Prop) (t : Tensor2) (D : Array4) : Prop :=
  (∀ c H, (∀ ε, (c ε).rep = t.rep) → Curve c t H → ∀ᶠ ε in nhds 0, dom (c ε)) ∧
    ∃ G, (∀ u, u.rep = t.rep → dom u → (G u).IsSymm ∧ IsGrad f u (G u)) ∧ IsGradT G t D

/-- The velocity of a curve of symmetric tensors. -/
theorem Curve.symm {c : ℝ → Tensor2} {t : Tensor2} {H : Matrix (Fin 3) (Fin 3) ℝ} (hr : ∀ ε, (c ε).rep = t.rep) (hs : t.rep ≠ .General)
    (h : Curve c t H) : H.IsSymm := by
  ext i j
  rw [Matrix.transpose_apply]
  have h1 := h.velocity j i
  have e : (fun ε => (c ε).std j i) = fun ε => (c ε).std i j := by
    funext ε
    exact (std_symm (c ε) (by rw [hr]; exact hs)).apply i j
  rw [e] at h1
  exact h1.unique (h.velocity i j)

theorem deriv_mul {A B : ℝ → Matrix (Fin 3) (Fin 3) ℝ} {H K : Matrix (Fin 3) (Fin 3) ℝ} (h : ∀ i j, HasDerivAt (fun ε => A ε i j) (H i j) 0)
    (k : ∀ i j, HasDerivAt (fun ε => B ε i j) (K i j) 0) (i j : Fin 3) : HasDerivAt (fun ε => (A ε * B ε) i j) ((H * B 0 + A 0 * K) i j) 0 := by
  simp only [Matrix.mul_apply, Matrix.add_apply, ← Finset.sum_add_distrib]
  exact HasDerivAt.fun_sum fun p _ => (h i p).fun_mul (k p j)

theorem deriv_adjugate {A : ℝ → Matrix (Fin 3) (Fin 3) ℝ} {H : Matrix (Fin 3) (Fin 3) ℝ} (h : ∀ i j, HasDerivAt (fun ε => A ε i j) (H i j) 0)
    (i j : Fin 3) : ∃ d, HasDerivAt (fun ε => (A ε).adjugate i j) d 0 := by
  simp only [Matrix.adjugate_fin_three]
  fin_cases i <;> fin_cases j <;> simp <;> exact ⟨_, by deriv_rules h⟩

/-- Derivative of the inverse matrix. -/
theorem deriv_inv {A : ℝ → Matrix (Fin 3) (Fin 3) ℝ} {H : Matrix (Fin 3) (Fin 3) ℝ} (h : ∀ i j, HasDerivAt (fun ε => A ε i j) (H i j) 0)
    (h0 : (A 0).det ≠ 0) (i j : Fin 3) : HasDerivAt (fun ε => (A ε)⁻¹ i j) ((-((A 0)⁻¹ * H * (A 0)⁻¹)) i j) 0 := by
  have hd := deriv_det h
  have hinv : ∀ i j, ∃ d, HasDerivAt (fun ε => (A ε)⁻¹ i j) d 0 := by
    intro i j
    obtain ⟨d, hadj⟩ := deriv_adjugate h i j
    refine ⟨_, ((hd.fun_inv h0).fun_mul hadj).congr_of_eventuallyEq (Filter.Eventually.of_forall fun ε => ?_)⟩
    simp only [Matrix.inv_def, Matrix.smul_apply, smul_eq_mul, Ring.inverse_eq_inv']
  choose K hK using hinv
  have hK' : ∀ i j, HasDerivAt (fun ε => (A ε)⁻¹ i j) (Matrix.of K i j) 0 := hK
  have hev : ∀ᶠ ε in nhds (0 : ℝ), (A ε).det ≠ 0 := hd.continuousAt.eventually_ne h0
  have hprod : Matrix.of K * A 0 + (A 0)⁻¹ * H = 0 := by
    ext p q
    have h1 := deriv_mul hK' h p q
    have h2 : HasDerivAt (fun ε => ((A ε)⁻¹ * A ε) p q) 0 0 := by
      refine (hasDerivAt_const (0 : ℝ) ((1 : Matrix (Fin 3) (Fin 3) ℝ) p q)).congr_of_eventuallyEq ?_
      filter_upwards [hev] with ε hε
      rw [Matrix.nonsing_inv_mul _ (isUnit_iff_ne_zero.2 hε)]
    exact h1.unique h2
  have : Matrix.of K = -((A 0)⁻¹ * H * (A 0)⁻¹) := by
    have h1 : Matrix.of K * A 0 = -((A 0)⁻¹ * H) := eq_neg_of_add_eq_zero_left hprod
    calc Matrix.of K = Matrix.of K * A 0 * (A 0)⁻¹ := by rw [Matrix.mul_assoc, Matrix.mul_nonsing_inv _ (isUnit_iff_ne_zero.2 h0), Matrix.mul_one]
      _ = _ := by rw [h1, Matrix.neg_mul]
  rw [← this]
  exact hK' i j

end Russell.Tensor
