import Verif.Tensor.Deriv2

/-!
# C71: second derivatives of the invariants, derivatives of the inverse and of the square (russell_tensor/src/derivatives_t4.rs)
-/

namespace Russell.Tensor
open Russell Russell.Res

/-! ### Lemmas -/

theorem contr_contr4 (c d : Array4) (A : Matrix (Fin 3) (Fin 3) ℝ) : contr (contr4 c d) A = contr c (contr d A) := by
  ext i j
  simp only [contr, contr4, Matrix.of_apply, Finset.sum_mul, Finset.mul_sum]
  simp only [Fin.sum_univ_three]
  ring

theorem contr_add (c d : Array4) (A : Matrix (Fin 3) (Fin 3) ℝ) : contr (c + d) A = contr c A + contr d A := by
  ext i j
  simp [contr, add_mul, Finset.sum_add_distrib]

theorem contr_smul (k : ℝ) (c : Array4) (A : Matrix (Fin 3) (Fin 3) ℝ) : contr (k • c) A = k • contr c A := by
  ext i j
  simp [contr, Finset.mul_sum, mul_assoc]

theorem contr_odyad (d : Array4) (s : ℝ) (A B H : Matrix (Fin 3) (Fin 3) ℝ) (h : ∀ i j k l, d i j k l = s * (A i k * B j l)) :
    contr d H = s • (A * H * B.transpose) := by
  ext i j
  simp only [contr, Matrix.of_apply, h, Matrix.smul_apply, Matrix.mul_apply, Matrix.transpose_apply, Fin.sum_univ_three, smul_eq_mul]
  ring

theorem contr_dyad (d : Array4) (s : ℝ) (A B H : Matrix (Fin 3) (Fin 3) ℝ) (h : ∀ i j k l, d i j k l = s * (A i j * B k l)) :
    contr d H = (s * ∑ k, ∑ l, B k l * H k l) • A := by
  ext i j
  simp only [contr, Matrix.of_apply, h, Matrix.smul_apply, Fin.sum_univ_three, smul_eq_mul]
  ring

theorem contr_ssd (d : Array4) (s : ℝ) (A H : Matrix (Fin 3) (Fin 3) ℝ) (hA : A.IsSymm) (hH : H.IsSymm)
    (h : ∀ i j k l, d i j k l = s * (A i k * A j l + A i l * A j k)) : contr d H = (2 * s) • (A * H * A) := by
  ext i j
  have e : ∀ k, A k j = A j k := fun k => hA.apply j k
  simp only [contr, Matrix.of_apply, h, Matrix.smul_apply, Matrix.mul_apply, Fin.sum_univ_three, smul_eq_mul, e]
  rw [hH.apply 0 1, hH.apply 0 2, hH.apply 1 2]
  ring

theorem contr_qsd (d : Array4) (s : ℝ) (A B H : Matrix (Fin 3) (Fin 3) ℝ) (hA : A.IsSymm) (hB : B.IsSymm) (hH : H.IsSymm)
    (h : ∀ i j k l, d i j k l = s * (A i k * B j l + A i l * B j k + B i k * A j l + B i l * A j k)) :
    contr d H = (2 * s) • (A * H * B + B * H * A) := by
  ext i j
  have e : ∀ k, A k j = A j k := fun k => hA.apply j k
  have e' : ∀ k, B k j = B j k := fun k => hB.apply j k
  simp only [contr, Matrix.of_apply, h, Matrix.smul_apply, Matrix.add_apply, Matrix.mul_apply, Fin.sum_univ_three, smul_eq_mul, e, e']
  rw [hH.apply 0 1, hH.apply 0 2, hH.apply 1 2]
  ring

theorem smallUpdate_spec (d2 m : Tensor4) (alpha : ℝ) (h : m.rep = d2.rep) :
    ∃ r, smallUpdate d2 alpha m = ok r ∧ r.rep = d2.rep ∧ r.std = d2.std + alpha • m.std := by
  have h9 : d2.dim ≤ 9 := by rw [Tensor4.dim]; cases d2.rep <;> simp [Rep.dim]
  refine ⟨_, by unfold smallUpdate; rw [Lab.C53_small_mat_update h9]; rfl, by rfl, ?_⟩
  funext i j k l
  simp only [Pi.add_apply, Pi.smul_apply, smul_eq_mul]
  have := mat99_lin 1 alpha (cut2 d2.rep d2.mat) (cut2 d2.rep m.mat) i j k l
  rw [one_mul] at this
  rw [std4_eq, std4_eq, std4_eq, h, ← this, ← cut2_lin]
  rw [cut2_of d2.rep (g := fun p q => 1 * d2.mat p q + alpha * m.mat p q)]
  intro p q hp hq
  simp only [Tensor4.dim, hp, hq, and_self, if_true, arr_fin, one_mul]

theorem setIdentity_spec (ii : Tensor2) : (setIdentity ii).rep = ii.rep ∧ (setIdentity ii).std = 1 := by
  refine ⟨rfl, ?_⟩
  rw [std_eq]
  obtain ⟨r, v⟩ := ii
  ext i j
  cases r <;> fin_cases i <;> fin_cases j <;> simp [setIdentity, Tensor2.set, Tensor2.clear, cut, mat9]

/-! ### The inverse and the square -/

/-- `deriv_inverse_tensor`: with `A⁻¹` given, the derivative of the inverse. -/
theorem C71_inverse (dai_da : Tensor4) (a ai : Tensor2) (hd : dai_da.rep = .General) (hi : ai.std * a.std = 1) :
    ∃ r, derivInverse dai_da ai = ok r ∧ r.rep = .General ∧ IsGradT (fun u => u.std⁻¹) a r.std ∧
      ∀ H, contr r.std H = -(ai.std * H * ai.std) := by
  obtain ⟨at', h1, h2, h3⟩ := C66_transpose ai ai rfl
  obtain ⟨r, g1, g2, g3⟩ := C70_t2_odyad_t2 dai_da (-1) ai at' hd h2
  have hc : ∀ H, contr r.std H = -(ai.std * H * ai.std) := by
    intro H
    rw [contr_odyad _ _ _ _ H g3, h3, Matrix.transpose_transpose, neg_one_smul]
  refine ⟨r, by rw [derivInverse, h1]; exact g1, g2, fun c H hr hH i j => ?_, hc⟩
  have hinv : a.std⁻¹ = ai.std := Matrix.inv_eq_left_inv hi
  have h0 : a.std.det ≠ 0 := fun e => by
    have := congrArg Matrix.det hi
    rw [Matrix.det_mul, e, mul_zero, Matrix.det_one] at this
    exact zero_ne_one this
  have := deriv_inv hH.velocity (by rw [hH.start]; exact h0) i j
  rw [hH.start, hinv] at this
  rw [hc]
  exact this

/-- `deriv_inverse_tensor_sym`. -/
theorem C71_inverse_sym (dai_da : Tensor4) (a ai : Tensor2) (hd : dai_da.rep = .Symmetric) (ha : a.rep ≠ .General) (hr : ai.rep = a.rep)
    (hi : ai.std * a.std = 1) :
    ∃ r, derivInverseSym dai_da ai = ok r ∧ r.rep = .Symmetric ∧ IsGradT (fun u => u.std⁻¹) a r.std ∧
      ∀ H : Matrix (Fin 3) (Fin 3) ℝ, H.IsSymm → contr r.std H = -(ai.std * H * ai.std) := by
  obtain ⟨r, g1, g2, g3⟩ := C70_t2_ssd dai_da (-0.5) ai hd
  have hs : ai.std.IsSymm := std_symm _ (by rw [hr]; exact ha)
  have hc : ∀ H : Matrix (Fin 3) (Fin 3) ℝ, H.IsSymm → contr r.std H = -(ai.std * H * ai.std) := by
    intro H hH
    rw [contr_ssd _ _ _ H hs hH g3]
    norm_num
  refine ⟨r, by rw [derivInverseSym, if_neg (by simp [hd]), if_neg (by simp [Rep.symmetric, hr, ha])]; exact g1, g2, fun c H hrc hH i j => ?_, hc⟩
  have hinv : a.std⁻¹ = ai.std := Matrix.inv_eq_left_inv hi
  have h0 : a.std.det ≠ 0 := fun e => by
    have := congrArg Matrix.det hi
    rw [Matrix.det_mul, e, mul_zero, Matrix.det_one] at this
    exact zero_ne_one this
  have := deriv_inv hH.velocity (by rw [hH.start]; exact h0) i j
  rw [hH.start, hinv] at this
  rw [hc H (hH.symm hrc ha)]
  exact this

/-- `deriv_squared_tensor`. -/
theorem C71_squared (da2_da : Tensor4) (ii a : Tensor2) (hd : da2_da.rep = .General) (hr : ii.rep = a.rep) :
    ∃ r ii', derivSquared da2_da ii a = ok (r, ii') ∧ r.rep = .General ∧ IsGradT (fun u => u.std * u.std) a r.std ∧
      ∀ H, contr r.std H = a.std * H + H * a.std := by
  obtain ⟨hI, hI1⟩ := setIdentity_spec ii
  obtain ⟨r, g1, g2, g3⟩ := C70_t2_odyad_t2 da2_da 1 a (setIdentity ii) hd (hI.trans hr)
  obtain ⟨at', h1, h2, h3⟩ := C66_transpose a a rfl
  obtain ⟨q, k1, k2, k3⟩ := C70_t2_odyad_t2 (Tensor4.new .General) 1 (setIdentity ii) at' rfl (h2.trans (hr.symm.trans hI.symm))
  have hstd : Tensor4.std ⟨r.rep, fun m n => r.mat m n + q.mat m n, r.useLoops⟩ = r.std + q.std := by
    funext i j k l
    have := mat99_lin 1 1 r.mat q.mat i j k l
    simp only [one_mul] at this
    rw [Pi.add_apply, Pi.add_apply, Pi.add_apply, Pi.add_apply, std4_eq, std4_eq, std4_eq]
    simp only [g2, k2, cut2_general]
    exact this
  have hc : ∀ H, contr (Tensor4.std ⟨r.rep, fun m n => r.mat m n + q.mat m n, r.useLoops⟩) H = a.std * H + H * a.std := by
    intro H
    rw [hstd, contr_add, contr_odyad _ _ _ _ H g3, contr_odyad _ _ _ _ H k3, hI1, h3]
    simp
  refine ⟨_, setIdentity ii, by
    unfold derivSquared
    rw [if_neg (by simp [hd]), if_neg (by simp [hr])]
    simp only [g1, h1, k1, Res.ok_bind], by exact g2, fun c H hrc hH i j => ?_, hc⟩
  have := deriv_mul hH.velocity hH.velocity i j
  rw [hH.start] at this
  rw [hc, add_comm]
  exact this

/-- `deriv_squared_tensor_sym`. -/
theorem C71_squared_sym (da2_da : Tensor4) (ii a : Tensor2) (hd : da2_da.rep = .Symmetric) (ha : a.rep ≠ .General) (hr : ii.rep = a.rep) :
    ∃ r ii', derivSquaredSym da2_da ii a = ok (r, ii') ∧ r.rep = .Symmetric ∧ IsGradT (fun u => u.std * u.std) a r.std ∧
      ∀ H : Matrix (Fin 3) (Fin 3) ℝ, H.IsSymm → contr r.std H = a.std * H + H * a.std := by
  obtain ⟨hI, hI1⟩ := setIdentity_spec ii
  obtain ⟨r, g1, g2, g3⟩ := C70_t2_qsd_t2 da2_da 0.5 a (setIdentity ii) hd (hI.trans hr)
  have hc : ∀ H : Matrix (Fin 3) (Fin 3) ℝ, H.IsSymm → contr r.std H = a.std * H + H * a.std := by
    intro H hH
    rw [contr_qsd _ _ _ _ H (std_symm _ ha) (by rw [hI1]; exact Matrix.isSymm_one) hH g3, hI1]
    norm_num
  refine ⟨r, setIdentity ii, by
    unfold derivSquaredSym
    rw [if_neg (by simp [hd]), if_neg (by simp [Rep.symmetric, ha]), if_neg (by simp [hr])]
    simp only [g1, Res.ok_bind], g2, fun c H hrc hH i j => ?_, hc⟩
  have := deriv_mul hH.velocity hH.velocity i j
  rw [hH.start] at this
  rw [hc H (hH.symm hrc ha), add_comm]
  exact this

/-! ### Invariants -/

theorem deriv2Jj2_spec (d2 : Tensor4) (sigma : Tensor2) (hd : d2.rep = .Symmetric) (hs : sigma.rep ≠ .General) :
    ∃ r, deriv2Jj2 d2 sigma = ok r ∧ r.rep = .Symmetric ∧ ∀ H : Matrix (Fin 3) (Fin 3) ℝ, H.IsSymm → contr r.std H = devOf H := by
  obtain ⟨rp, f, u⟩ := d2
  simp only at hd
  subst hd
  refine ⟨_, by unfold deriv2Jj2; rw [if_neg (by simp)]; exact if_neg (by simp [Rep.symmetric, hs]), by simp [Tensor4.sets, Tensor4.set], ?_⟩
  intro H hH
  apply contr_of
  intro m
  rw [comp_explicit, comp_explicit]
  have h1 := hH.apply 0 1
  have h2 := hH.apply 0 2
  have h3 := hH.apply 1 2
  fin_cases m <;>
    simp [Fin.sum_univ_succ, cut2, upto2, Tensor4.sets, Tensor4.set, Tensor4.dim, Rep.dim, Matrix.trace, devOf, h1, h2, h3] <;> ring

theorem isGradT_dev (t : Tensor2) (hs : t.rep ≠ .General) (D : Array4) (h : ∀ H : Matrix (Fin 3) (Fin 3) ℝ, H.IsSymm → contr D H = devOf H) :
    IsGradT (fun u => devOf u.std) t D := by
  intro c H hc hH i j
  rw [h H (hH.symm hc hs)]
  exact deriv_dev hH.velocity i j

theorem jj2_std {t u : Tensor2} (h : t.std = u.std) : t.jj2 = u.jj2 := by rw [jj2_eq, jj2_eq, h]

theorem jj3_std {t u : Tensor2} (h : t.std = u.std) : t.jj3 = u.jj3 := by
  rw [Tensor2.jj3, Tensor2.jj3, C66_deviator_determinant, C66_deviator_determinant, h]

/-- `deriv2_invariant_jj2`; a 2D tensor is taken as the same tensor in 3D. -/
theorem C71_jj2 (d2 : Tensor4) (sigma : Tensor2) (hd : d2.rep = .Symmetric) (hs : sigma.rep ≠ .General) :
    ∃ r, deriv2Jj2 d2 sigma = ok r ∧ r.rep = .Symmetric ∧
      ∀ sig3 : Tensor2, sig3.rep = .Symmetric → sig3.std = sigma.std → IsHess Tensor2.jj2 (fun _ => True) sig3 r.std := by
  obtain ⟨r, h1, h2, h3⟩ := deriv2Jj2_spec d2 sigma hd hs
  refine ⟨r, h1, h2, fun t ht _ => ⟨fun _ _ _ _ => by simp, fun u => devOf u.std, fun u hu _ => ?_, isGradT_dev t (by simp [ht]) _ h3⟩⟩
  have := std_symm u (by simp [hu, ht])
  exact ⟨devOf_symm this, isGrad_jj2 u this⟩

/-- The auxiliary data as `new` makes it and the calls keep it. -/
structure AuxJ3.Ok (aux : AuxJ3) : Prop where
  s : aux.s.rep = .Symmetric
  ii : aux.ii.rep = .Symmetric
  one : aux.ii.std = 1
  psd : aux.psd.rep = .Symmetric
  proj : ∀ A : Matrix (Fin 3) (Fin 3) ℝ, contr aux.psd.std A = (1 / 2 : ℝ) • (A + A.transpose) - (A.trace / 3) • 1
  aa : aux.aa.rep = .Symmetric
  bb : aux.bb.rep = .Symmetric

theorem C71_aux_jj3_new : AuxJ3.new.Ok :=
  ⟨rfl, rfl, C65_identity _, by simp [AuxJ3.new, Tensor4.constantPpSymdev, Tensor4.sets, Tensor4.set, Tensor4.new], fun A => C69_constant_pp_symdev true A, rfl, rfl⟩

theorem psd_symm {H : Matrix (Fin 3) (Fin 3) ℝ} (hH : H.IsSymm) : (1 / 2 : ℝ) • (H + H.transpose) - (H.trace / 3) • 1 = devOf H := by
  rw [hH.eq, devOf, ← two_smul ℝ H, smul_smul]
  norm_num

theorem gradJj3_symm {t : Tensor2} (h : t.std.IsSymm) : (gradJj3 t).IsSymm := by
  have hd := devOf_symm h
  rw [gradJj3, Matrix.IsSymm, Matrix.transpose_sub, Matrix.transpose_smul, Matrix.transpose_one, Matrix.transpose_mul, hd.eq]

/-- The tensor used for 2D. -/
theorem sig3_spec (sigma : Tensor2) (hs : sigma.rep ≠ .General) :
    ∃ t, sigma.as3d = ok t ∧ t.rep = .Symmetric ∧ t.std = sigma.std := by
  unfold Tensor2.as3d
  by_cases h : sigma.rep = .Symmetric2D
  · obtain ⟨t, e1, e2, e3⟩ := C65_sym2d_as_symmetric sigma h
    exact ⟨t, by rw [if_pos h, e1], e2, e3⟩
  · exact ⟨sigma, if_neg h, by cases hr : sigma.rep <;> simp_all, rfl⟩

theorem deriv2Jj3_spec (d2 : Tensor4) (aux : AuxJ3) (sigma : Tensor2) (hd : d2.rep = .Symmetric) (ha : aux.Ok) (hs : sigma.rep ≠ .General) :
    ∃ r aux', deriv2Jj3 d2 aux sigma = ok (r, aux') ∧ r.rep = .Symmetric ∧ aux'.Ok ∧
      ∀ H : Matrix (Fin 3) (Fin 3) ℝ, H.IsSymm → contr r.std H =
        devOf sigma.std * devOf H + devOf H * devOf sigma.std - (2 / 3 * ∑ k, ∑ l, devOf sigma.std k l * H k l) • 1 := by
  obtain ⟨t, t1, t2, t3⟩ := sig3_spec sigma hs
  obtain ⟨s, h1, h2, h3⟩ := C66_deviator t aux.s (ha.s.trans t2.symm)
  rw [t2] at h2
  rw [t3] at h3
  obtain ⟨aa, a1, a2, a3⟩ := C70_t2_qsd_t2 ⟨aux.aa.rep, aux.aa.mat, d2.useLoops⟩ 0.5 s aux.ii ha.aa (ha.ii.trans h2.symm)
  obtain ⟨bb, b1, b2, b3⟩ := C70_t2_dyad_t2 aux.bb aux.ii s (-(2 / 3)) (ha.ii.trans ha.bb.symm) (h2.trans ha.bb.symm)
  obtain ⟨p, p1, p2, p3⟩ := C70_t4_ddot_t4_update d2 aa aux.psd 1 0 (a2.trans ha.psd.symm) (hd.trans ha.psd.symm)
  obtain ⟨r, r1, r2, r3⟩ := smallUpdate_spec p bb 1 (by rw [b2, p2, ha.bb, ha.psd])
  have hp : ∃ q, Lab.smallMatMatMul 9 (arr d2.mat) 1 (arr aa.mat) (arr aux.psd.mat) 0 d2.dim = ok q ∧
      p = ⟨d2.rep, fun i j => q i j, d2.useLoops⟩ := by
    unfold t4DdotT4Update at p1
    rw [if_neg (by simp [a2, ha.psd]), if_neg (by simp [hd, a2, ha.psd])] at p1
    obtain ⟨q, q1, q2⟩ := Res.bind_eq_ok.1 p1
    exact ⟨q, q1, (Res.ok.inj q2).symm⟩
  obtain ⟨q, q1, q2⟩ := hp
  refine ⟨r, ⟨s, aux.ii, aux.psd, aa, bb⟩, ?_, by rw [r2, p2, ha.psd], ⟨h2, ha.ii, ha.one, ha.psd, ha.proj, a2, b2.trans ha.bb⟩, fun H hH => ?_⟩
  · unfold deriv2Jj3
    rw [if_neg (by simp [hd]), if_neg (by simp [Rep.symmetric, hs]), t1]
    simp only [Res.ok_bind, h1, a1, b1, q1]
    rw [← q2, r1]
    rfl
  · have hS := devOf_symm (std_symm sigma hs)
    rw [r3, p3, contr_add, contr_smul, contr_add, contr_smul, contr_smul, contr_contr4, ha.proj, psd_symm hH,
      contr_qsd _ _ _ _ _ (by rw [h3]; exact hS) (by rw [ha.one]; exact Matrix.isSymm_one) (devOf_symm hH) a3, contr_dyad _ _ _ _ H b3, ha.one, h3]
    norm_num
    rw [sub_eq_add_neg, ← neg_smul]

theorem isGradT_gradJj3 (t : Tensor2) (hs : t.rep ≠ .General) (D : Array4) (h : ∀ H : Matrix (Fin 3) (Fin 3) ℝ, H.IsSymm → contr D H =
    devOf t.std * devOf H + devOf H * devOf t.std - (2 / 3 * ∑ k, ∑ l, devOf t.std k l * H k l) • 1) : IsGradT gradJj3 t D := by
  intro c H hc hH i j
  have h1 := deriv_mul (deriv_dev hH.velocity) (deriv_dev hH.velocity) i j
  have h2 := ((isGrad_jj2 t (std_symm t hs) c H hc hH).const_mul (2 / 3)).mul_const ((1 : Matrix (Fin 3) (Fin 3) ℝ) i j)
  rw [h H (hH.symm hc hs)]
  refine (h1.fun_sub h2).congr_deriv ?_
  rw [hH.start]
  simp only [Matrix.sub_apply, Matrix.add_apply, Matrix.smul_apply, smul_eq_mul]
  ring

/-- `deriv2_invariant_jj3`. -/
theorem C71_jj3 (d2 : Tensor4) (aux : AuxJ3) (sigma : Tensor2) (hd : d2.rep = .Symmetric) (ha : aux.Ok) (hs : sigma.rep ≠ .General) :
    ∃ r aux', deriv2Jj3 d2 aux sigma = ok (r, aux') ∧ r.rep = .Symmetric ∧ aux'.Ok ∧
      ∀ sig3 : Tensor2, sig3.rep = .Symmetric → sig3.std = sigma.std → IsHess Tensor2.jj3 (fun _ => True) sig3 r.std := by
  obtain ⟨r, aux', h1, h2, h3, h4⟩ := deriv2Jj3_spec d2 aux sigma hd ha hs
  refine ⟨r, aux', h1, h2, h3, fun t ht hts => ⟨fun _ _ _ _ => by simp, gradJj3, fun u hu _ => ?_,
    isGradT_gradJj3 t (by simp [ht]) _ (by rw [hts]; exact h4)⟩⟩
  have := std_symm u (by simp [hu, ht])
  exact ⟨gradJj3_symm this, isGrad_jj3 u this⟩

theorem jj2_near (t : Tensor2) (hs : t.rep ≠ .General) (hj : 0 < t.jj2) (c : ℝ → Tensor2) (H : Matrix (Fin 3) (Fin 3) ℝ)
    (hc : ∀ ε, (c ε).rep = t.rep) (hH : Curve c t H) : ∀ᶠ ε in nhds (0 : ℝ), 0 < (c ε).jj2 :=
  (isGrad_jj2 t (std_symm t hs) c H hc hH).continuousAt.eventually (lt_mem_nhds (show 0 < (c 0).jj2 by rw [jj2_std hH.start]; exact hj))

/-- Auxiliary data of `deriv2_invariant_sigma_t` and `deriv2_invariant_q`. -/
structure AuxST.Ok (aux : AuxST) : Prop where
  d1 : aux.d1_jj2.rep = .Symmetric
  d2 : aux.d2_jj2.rep = .Symmetric

theorem C71_aux_sigma_t_new : AuxST.new.Ok := ⟨rfl, rfl⟩

theorem deriv1Jj2_spec (d1 sigma : Tensor2) (hs : sigma.rep ≠ .General) (hr : d1.rep = sigma.rep) :
    ∃ r, deriv1Jj2 d1 sigma = ok r ∧ r.rep = sigma.rep ∧ r.std = devOf sigma.std := by
  obtain ⟨r, h1, h2, h3⟩ := C66_deviator sigma d1 hr
  exact ⟨r, by rw [deriv1Jj2, if_neg (by simp [Rep.symmetric, hs]), if_neg (by simp [hr]), h1], h2, h3⟩

theorem deriv2Scaled_spec (k : ℝ) (f : Tensor2 → ℝ)
    (hf : ∀ u : Tensor2, u.std.IsSymm → 0 < u.jj2 → IsGrad f u ((0.5 * k / u.jj2 ^ (0.5 : ℝ)) • devOf u.std))
    (d2 : Tensor4) (aux : AuxST) (sigma : Tensor2) (hd : d2.rep = .Symmetric) (ha : aux.Ok) (hs : sigma.rep ≠ .General) :
    (sigma.jj2 > 1e-9 → ∃ r aux', deriv2Scaled k d2 aux sigma = ok (r, aux', some sigma.jj2) ∧ r.rep = .Symmetric ∧ aux'.Ok ∧
      ∀ sig3 : Tensor2, sig3.rep = .Symmetric → sig3.std = sigma.std → IsHess f (fun u => 0 < u.jj2) sig3 r.std) ∧
    (sigma.jj2 ≤ 1e-9 → deriv2Scaled k d2 aux sigma = ok (d2, aux, none)) := by
  unfold deriv2Scaled
  rw [if_neg (by simp [hd]), if_neg (by simp [Rep.symmetric, hs])]
  refine ⟨fun hj => ?_, fun hj => if_neg (not_lt.2 hj)⟩
  have hj0 : 0 < sigma.jj2 := tol_pos.trans hj
  obtain ⟨t, t1, t2, t3⟩ := sig3_spec sigma hs
  obtain ⟨g, g1, g2, g3⟩ := deriv1Jj2_spec aux.d1_jj2 t (by simp [t2]) (ha.d1.trans t2.symm)
  obtain ⟨e, e1, e2, e3⟩ := deriv2Jj2_spec aux.d2_jj2 t ha.d2 (by simp [t2])
  rw [t3] at g3
  rw [t2] at g2
  obtain ⟨p, p1, p2, p3⟩ := C70_t2_dyad_t2 d2 g g (-(0.25 * k / sigma.jj2 ^ (1.5 : ℝ))) (g2.trans hd.symm) (g2.trans hd.symm)
  obtain ⟨r, r1, r2, r3⟩ := smallUpdate_spec p e (0.5 * k / sigma.jj2 ^ (0.5 : ℝ)) (by rw [e2, p2, hd])
  refine ⟨r, ⟨g, e⟩, ?_, by rw [r2, p2, hd], ⟨g2, e2⟩, fun u hu hus => ⟨?_, fun u => (0.5 * k / u.jj2 ^ (0.5 : ℝ)) • devOf u.std, ?_, ?_⟩⟩
  · rw [if_pos (show sigma.jj2 > TOL_J2 from hj), t1]
    simp only [Res.ok_bind, g1, e1, p1, r1]
  · exact fun c H hc hH => jj2_near u (by simp [hu]) (by rw [jj2_std hus]; exact hj0) c H hc hH
  · intro v hv hv0
    have := std_symm v (by simp [hv, hu])
    exact ⟨(devOf_symm this).smul _, hf v this hv0⟩
  · intro c H hc hH i j
    have hsy := hH.symm hc (by simp [hu])
    have e0 : (c 0).jj2 = sigma.jj2 := jj2_std (hH.start.trans hus)
    have h1 := isGrad_jj2 u (std_symm u (by simp [hu])) c H hc hH
    have hp := h1.rpow_const (p := (0.5 : ℝ)) (Or.inl (by rw [e0]; exact hj0.ne'))
    have hq := ((hasDerivAt_const (0 : ℝ) (0.5 * k)).fun_div hp (by rw [e0]; positivity)).fun_mul (deriv_dev hH.velocity i j)
    refine hq.congr_deriv ?_
    rw [r3, contr_add, contr_smul, contr_dyad _ _ _ _ H p3, e3 H hsy, e0, hH.start, hus, g3]
    simp only [Matrix.add_apply, Matrix.smul_apply, smul_eq_mul]
    set X := ∑ k, ∑ l, devOf sigma.std k l * H k l
    have q1 : sigma.jj2 ^ (1.5 : ℝ) = sigma.jj2 ^ (0.5 : ℝ) * sigma.jj2 := by rw [← Real.rpow_add_one hj0.ne']; norm_num
    have q2 : sigma.jj2 ^ (0.5 : ℝ) = sigma.jj2 ^ (0.5 - 1 : ℝ) * sigma.jj2 := by rw [← Real.rpow_add_one hj0.ne']; norm_num
    rw [q1, q2]
    have hq : sigma.jj2 ^ (0.5 - 1 : ℝ) ≠ 0 := by positivity
    field_simp
    ring

/-- `deriv2_invariant_sigma_t`. -/
theorem C71_sigma_t (d2 : Tensor4) (aux : AuxST) (sigma : Tensor2) (hd : d2.rep = .Symmetric) (ha : aux.Ok) (hs : sigma.rep ≠ .General) :
    (sigma.jj2 > 1e-9 → ∃ r aux', deriv2SigmaT d2 aux sigma = ok (r, aux', some sigma.jj2) ∧ r.rep = .Symmetric ∧ aux'.Ok ∧
      ∀ sig3 : Tensor2, sig3.rep = .Symmetric → sig3.std = sigma.std → IsHess Tensor2.sigmaT (fun u => 0 < u.jj2) sig3 r.std) ∧
    (sigma.jj2 ≤ 1e-9 → deriv2SigmaT d2 aux sigma = ok (d2, aux, none)) := by
  refine deriv2Scaled_spec SQRT_2 Tensor2.sigmaT (fun u hu hj => ?_) d2 aux sigma hd ha hs
  have := isGrad_devNorm u hu hj 1
  simp only [mul_one] at this
  have e : 1 / √(2 * u.jj2) = 0.5 * SQRT_2 / u.jj2 ^ (0.5 : ℝ) := by
    rw [show (0.5 : ℝ) = 1 / 2 by norm_num, ← Real.sqrt_eq_rpow, SQRT_2, Real.sqrt_mul (by norm_num)]
    have h2 : √(2 : ℝ) * √2 = 2 := Real.mul_self_sqrt (by norm_num)
    have : √u.jj2 ≠ 0 := by positivity
    field_simp
    linarith
  rw [e] at this
  exact this

/-- `deriv2_invariant_q`. -/
theorem C71_q (d2 : Tensor4) (aux : AuxST) (sigma : Tensor2) (hd : d2.rep = .Symmetric) (ha : aux.Ok) (hs : sigma.rep ≠ .General) :
    (sigma.jj2 > 1e-9 → ∃ r aux', deriv2Q d2 aux sigma = ok (r, aux', some sigma.jj2) ∧ r.rep = .Symmetric ∧ aux'.Ok ∧
      ∀ sig3 : Tensor2, sig3.rep = .Symmetric → sig3.std = sigma.std → IsHess Tensor2.invQ (fun u => 0 < u.jj2) sig3 r.std) ∧
    (sigma.jj2 ≤ 1e-9 → deriv2Q d2 aux sigma = ok (d2, aux, none)) := by
  refine deriv2Scaled_spec SQRT_3 Tensor2.invQ (fun u hu hj => ?_) d2 aux sigma hd ha hs
  have := isGrad_devNorm u hu hj SQRT_3_BY_2
  have e : SQRT_3_BY_2 / √(2 * u.jj2) = 0.5 * SQRT_3 / u.jj2 ^ (0.5 : ℝ) := by
    rw [show u.jj2 ^ (0.5 : ℝ) = √u.jj2 by rw [Real.sqrt_eq_rpow]; norm_num]
    rw [SQRT_3_BY_2, SQRT_3, Real.sqrt_div (by norm_num), Real.sqrt_mul (by norm_num), div_div, ← mul_assoc, Real.mul_self_sqrt (by norm_num)]
    have : √u.jj2 ≠ 0 := by positivity
    field_simp
    norm_num
  rw [e] at this
  exact this

/-- Auxiliary data of `deriv2_invariant_lode`. -/
structure AuxLode.Ok (aux : AuxLode) : Prop where
  aux_jj3 : aux.aux_jj3.Ok
  s : aux.s.rep = .Symmetric
  d1_jj2 : aux.d1_jj2.rep = .Symmetric
  d1_jj3 : aux.d1_jj3.rep = .Symmetric
  d2_jj2 : aux.d2_jj2.rep = .Symmetric
  d2_jj3 : aux.d2_jj3.rep = .Symmetric
  d22 : aux.d22.rep = .Symmetric
  d23 : aux.d23.rep = .Symmetric
  d32 : aux.d32.rep = .Symmetric

theorem C71_aux_lode_new : AuxLode.new.Ok := ⟨C71_aux_jj3_new, rfl, rfl, rfl, rfl, rfl, rfl, rfl, rfl⟩

theorem gradJj3_std {t u : Tensor2} (h : t.std = u.std) : gradJj3 t = gradJj3 u := by rw [gradJj3, gradJj3, h, jj2_std h]

/-- `deriv2_invariant_lode`. -/
theorem C71_lode (d2 : Tensor4) (aux : AuxLode) (sigma : Tensor2) (hd : d2.rep = .Symmetric) (ha : aux.Ok) (hs : sigma.rep ≠ .General) :
    (sigma.jj2 > 1e-9 → ∃ r aux', deriv2Lode d2 aux sigma = ok (r, aux', some sigma.jj2) ∧ r.rep = .Symmetric ∧ aux'.Ok ∧
      ∃ f : Tensor2 → ℝ, (∀ t, t.jj2 > 1e-9 → t.lode = some (f t)) ∧
        ∀ sig3 : Tensor2, sig3.rep = .Symmetric → sig3.std = sigma.std → IsHess f (fun u => u.jj2 > 1e-9) sig3 r.std) ∧
    (sigma.jj2 ≤ 1e-9 → deriv2Lode d2 aux sigma = ok (d2, aux, none)) := by
  unfold deriv2Lode
  rw [if_neg (by simp [hd]), if_neg (by simp [Rep.symmetric, hs])]
  refine ⟨fun hj => ?_, fun hj => if_neg (not_lt.2 hj)⟩
  have hj0 : 0 < sigma.jj2 := tol_pos.trans hj
  have h9 : d2.dim ≤ 9 := by rw [Tensor4.dim]; cases d2.rep <;> simp [Rep.dim]
  obtain ⟨t, t1, t2, t3⟩ := sig3_spec sigma hs
  have tg : t.rep ≠ .General := by simp [t2]
  obtain ⟨g, g1, g2, g3⟩ := deriv1Jj2_spec aux.d1_jj2 t tg (ha.d1_jj2.trans t2.symm)
  obtain ⟨w, s', w1, w2, w3, w4, w5⟩ := deriv1Jj3_spec aux.d1_jj3 aux.s t tg (ha.d1_jj3.trans t2.symm) (ha.s.trans t2.symm)
  obtain ⟨e, e1, e2, e3⟩ := deriv2Jj2_spec aux.d2_jj2 t ha.d2_jj2 tg
  obtain ⟨q, qa, q1, q2, q3, q4⟩ := deriv2Jj3_spec ⟨aux.d2_jj3.rep, aux.d2_jj3.mat, d2.useLoops⟩ aux.aux_jj3 t ha.d2_jj3 ha.aux_jj3 tg
  rw [t3] at g3 q4
  rw [t2] at g2 w2 w3
  rw [gradJj3_std t3] at w5
  obtain ⟨x, x1, x2, x3⟩ := C70_t2_dyad_t2 aux.d22 g g 1 (g2.trans ha.d22.symm) (g2.trans ha.d22.symm)
  obtain ⟨y, y1, y2, y3⟩ := C70_t2_dyad_t2 aux.d23 g w 1 (g2.trans ha.d23.symm) (w2.trans ha.d23.symm)
  obtain ⟨z, z1, z2, z3⟩ := C70_t2_dyad_t2 aux.d32 w g 1 (w2.trans ha.d32.symm) (g2.trans ha.d32.symm)
  rw [ha.d22] at x2
  rw [ha.d23] at y2
  rw [ha.d32] at z2
  set a := 1.5 * SQRT_3 / sigma.jj2 ^ (1.5 : ℝ) with hadef
  set b := 2.25 * SQRT_3 / sigma.jj2 ^ (2.5 : ℝ) with hbdef
  set k := 5.625 * SQRT_3 / sigma.jj2 ^ (3.5 : ℝ) with hkdef
  obtain ⟨p, p1, p2, p3⟩ := C70_t4_add d2 q e a (-b * sigma.jj3) (e2.trans q2.symm) (hd.trans q2.symm)
  have hp : ∃ v, Lab.smallMatAdd 9 (arr d2.mat) a (arr q.mat) (-b * sigma.jj3) (arr e.mat) d2.dim = ok v ∧
      p = ⟨d2.rep, fun i j => v i j, d2.useLoops⟩ := by
    unfold t4Add at p1
    rw [if_neg (by simp [e2, q2]), if_neg (by simp [hd, q2])] at p1
    obtain ⟨v, v1, v2⟩ := Res.bind_eq_ok.1 p1
    exact ⟨v, v1, (Res.ok.inj v2).symm⟩
  obtain ⟨v, v1, v2⟩ := hp
  rw [q2] at p2
  obtain ⟨r1, a1, b1, c1⟩ := smallUpdate_spec p z (-b) (by rw [z2, p2])
  obtain ⟨r2, a2, b2, c2⟩ := smallUpdate_spec r1 y (-b) (by rw [y2, b1, p2])
  obtain ⟨r3, a3, b3, c3⟩ := smallUpdate_spec r2 x (k * sigma.jj3) (by rw [x2, b2, b1, p2])
  refine ⟨r3, ⟨qa, s', g, w, e, q, x, y, z⟩, ?_, by rw [b3, b2, b1, p2], ⟨q3, w3, g2, w2, e2, q2, x2, y2, z2⟩, lodeValue, fun t ht => lode_eq ht,
    fun u hu hus => ⟨?_, fun u => (1.5 * SQRT_3 / u.jj2 ^ (1.5 : ℝ)) • gradJj3 u - (2.25 * SQRT_3 / u.jj2 ^ (2.5 : ℝ) * u.jj3) • devOf u.std, ?_, ?_⟩⟩
  · rw [if_pos (show sigma.jj2 > TOL_J2 from hj), t1]
    simp only [Res.ok_bind, g1, w1, e1, q1, x1, y1, z1, ← hadef, ← hbdef, ← hkdef, v1]
    rw [← v2, a1]
    simp only [Res.ok_bind, a2, a3]
  · intro c H hc hH
    exact (isGrad_jj2 u (std_symm u (by simp [hu])) c H hc hH).continuousAt.eventually
      (lt_mem_nhds (show 1e-9 < (c 0).jj2 by rw [jj2_std hH.start, jj2_std hus]; exact hj))
  · intro o ho ho0
    have := std_symm o (by simp [ho, hu])
    exact ⟨((gradJj3_symm this).smul _).sub ((devOf_symm this).smul _), isGrad_lode o this (tol_pos.trans ho0)⟩
  · intro c H hc hH i j
    have hsu := std_symm u (by simp [hu])
    have hsy := hH.symm hc (by simp [hu])
    have f2 : (c 0).jj2 = sigma.jj2 := jj2_std (hH.start.trans hus)
    have f3 : (c 0).jj3 = sigma.jj3 := jj3_std (hH.start.trans hus)
    have fg : gradJj3 (c 0) = gradJj3 sigma := gradJj3_std (hH.start.trans hus)
    have h2 := isGrad_jj2 u hsu c H hc hH
    have h3 := isGrad_jj3 u hsu c H hc hH
    rw [hus] at h2
    rw [gradJj3_std hus] at h3
    have hg := isGradT_gradJj3 u (by simp [hu]) q.std (by rw [hus]; exact q4) c H hc hH i j
    have hdv := deriv_dev hH.velocity i j
    have k1 := h2.rpow_const (p := (1.5 : ℝ)) (Or.inl (by rw [f2]; exact hj0.ne'))
    have k2 := h2.rpow_const (p := (2.5 : ℝ)) (Or.inl (by rw [f2]; exact hj0.ne'))
    have m1 := ((hasDerivAt_const (0 : ℝ) (1.5 * SQRT_3)).fun_div k1 (by rw [f2]; positivity)).fun_mul hg
    have m2 := (((hasDerivAt_const (0 : ℝ) (2.25 * SQRT_3)).fun_div k2 (by rw [f2]; positivity)).fun_mul h3).fun_mul hdv
    refine (m1.fun_sub m2).congr_deriv ?_
    rw [c3, c2, c1, p3, contr_add, contr_add, contr_add, contr_add, contr_smul, contr_smul, contr_smul, contr_smul, contr_smul,
      contr_dyad _ _ _ _ H x3, contr_dyad _ _ _ _ H y3, contr_dyad _ _ _ _ H z3, e3 H hsy, f2, f3, fg, hH.start, hus, g3, w5]
    simp only [Matrix.add_apply, Matrix.smul_apply, smul_eq_mul, one_mul]
    set X := ∑ k, ∑ l, devOf sigma.std k l * H k l
    set Y := ∑ k, ∑ l, gradJj3 sigma k l * H k l
    set Q := contr q.std H i j
    rw [hadef, hbdef, hkdef]
    have n3 : sigma.jj2 ^ (3.5 : ℝ) = sigma.jj2 ^ (0.5 : ℝ) * sigma.jj2 ^ 3 := by rw [← Real.rpow_add_natCast hj0.ne']; norm_num
    have n2 : sigma.jj2 ^ (2.5 : ℝ) = sigma.jj2 ^ (0.5 : ℝ) * sigma.jj2 ^ 2 := by rw [← Real.rpow_add_natCast hj0.ne']; norm_num
    have n1 : sigma.jj2 ^ (1.5 : ℝ) = sigma.jj2 ^ (0.5 : ℝ) * sigma.jj2 := by rw [← Real.rpow_add_one hj0.ne']; norm_num
    rw [show (1.5 - 1 : ℝ) = 0.5 by norm_num, show (2.5 - 1 : ℝ) = 1.5 by norm_num, n3, n2, n1]
    have hq : sigma.jj2 ^ (0.5 : ℝ) ≠ 0 := by positivity
    field_simp
    ring

/-- Results that are not symmetric (general for the first ones) and general tensors are refused. -/
theorem C71_refused (d2 : Tensor4) (a1 : AuxJ3) (a2 : AuxST) (a3 : AuxLode) (ii sigma : Tensor2) :
    ((d2.rep ≠ .Symmetric ∨ sigma.rep = .General) → derivInverseSym d2 sigma = panic ∧ derivSquaredSym d2 ii sigma = panic ∧
      deriv2Jj2 d2 sigma = panic ∧ deriv2Jj3 d2 a1 sigma = panic ∧ deriv2SigmaT d2 a2 sigma = panic ∧ deriv2Q d2 a2 sigma = panic ∧
      deriv2Lode d2 a3 sigma = panic) ∧
    (d2.rep ≠ .General → derivInverse d2 sigma = panic ∧ derivSquared d2 ii sigma = panic) ∧
    (ii.rep ≠ sigma.rep → derivSquared d2 ii sigma = panic ∧ derivSquaredSym d2 ii sigma = panic) := by
  refine ⟨fun h => ?_, fun h => ?_, fun h => ?_⟩
  · by_cases h1 : d2.rep = .Symmetric
    · have h2 : sigma.rep = .General := by tauto
      simp [derivInverseSym, derivSquaredSym, deriv2Jj2, deriv2Jj3, deriv2SigmaT, deriv2Q, deriv2Scaled, deriv2Lode, h1, h2, Rep.symmetric]
    · simp [derivInverseSym, derivSquaredSym, deriv2Jj2, deriv2Jj3, deriv2SigmaT, deriv2Q, deriv2Scaled, deriv2Lode, h1]
  · obtain ⟨at', e, -, -⟩ := C66_transpose sigma sigma rfl
    refine ⟨?_, by simp [derivSquared, h]⟩
    rw [derivInverse, e]
    simp [t2OdyadT2, h]
  · simp [derivSquared, derivSquaredSym, h]

/-! ### Cases -/

/-- `[2 1; 0 4] ⊕ 5`, a general tensor, and its inverse. -/
noncomputable def caseInvertible : Tensor2 := ⟨.General, comp !![2, 1, 0; 0, 4, 0; 0, 0, 5]⟩
noncomputable def caseInvertibleInv : Tensor2 := ⟨.General, comp !![1 / 2, -1 / 8, 0; 0, 1 / 4, 0; 0, 0, 1 / 5]⟩

theorem caseInvertible_std : caseInvertible.std = !![2, 1, 0; 0, 4, 0; 0, 0, 5] := by
  rw [std_eq, caseInvertible, cut_general, mat9_comp]

theorem caseInvertibleInv_std : caseInvertibleInv.std = !![1 / 2, -1 / 8, 0; 0, 1 / 4, 0; 0, 0, 1 / 5] := by
  rw [std_eq, caseInvertibleInv, cut_general, mat9_comp]

/-- The inverse changes by `-A⁻¹ H A⁻¹`: for a unit change of the entry 10, the entry 01 by `-1/64`. -/
example : ∃ r, derivInverse (Tensor4.new .General) caseInvertibleInv = ok r ∧ IsGradT (fun u => u.std⁻¹) caseInvertible r.std ∧
    contr r.std !![0, 0, 0; 1, 0, 0; 0, 0, 0] 0 1 = -1 / 64 := by
  obtain ⟨r, h1, -, h3, h4⟩ := C71_inverse (Tensor4.new .General) caseInvertible caseInvertibleInv rfl (by
    rw [caseInvertible_std, caseInvertibleInv_std]
    ext i j
    fin_cases i <;> fin_cases j <;> simp [Matrix.mul_apply, Fin.sum_univ_three] <;> norm_num)
  refine ⟨r, h1, h3, ?_⟩
  rw [h4, caseInvertibleInv_std]
  simp [Matrix.mul_apply, Fin.sum_univ_three]
  norm_num

/-- `diag(2, 4, 5)` in 2D. -/
example : ∃ r, derivInverseSym (Tensor4.new .Symmetric) ⟨.Symmetric2D, ![1 / 2, 1 / 4, 1 / 5, 0, 0, 0, 0, 0, 0]⟩ = ok r ∧
    IsGradT (fun u => u.std⁻¹) ⟨.Symmetric2D, ![2, 4, 5, 0, 0, 0, 0, 0, 0]⟩ r.std := by
  obtain ⟨r, h1, -, h3, -⟩ := C71_inverse_sym (Tensor4.new .Symmetric) ⟨.Symmetric2D, ![2, 4, 5, 0, 0, 0, 0, 0, 0]⟩
    ⟨.Symmetric2D, ![1 / 2, 1 / 4, 1 / 5, 0, 0, 0, 0, 0, 0]⟩ rfl (by simp) rfl (by
    rw [std_eq, std_eq]
    ext i j
    fin_cases i <;> fin_cases j <;> simp [Matrix.mul_apply, Fin.sum_univ_three, mat9, cut])
  exact ⟨r, h1, h3⟩

/-- For a unit change of the entry 10, the entry 00 of the square by 1. -/
example : ∃ r ii', derivSquared (Tensor4.new .General) (Tensor2.new .General) caseInvertible = ok (r, ii') ∧
    contr r.std !![0, 0, 0; 1, 0, 0; 0, 0, 0] 0 0 = 1 := by
  obtain ⟨r, ii', h1, -, -, h4⟩ := C71_squared (Tensor4.new .General) (Tensor2.new .General) caseInvertible rfl rfl
  refine ⟨r, ii', h1, ?_⟩
  rw [h4, caseInvertible_std]
  simp [Matrix.mul_apply, Fin.sum_univ_three]

example : ∃ r ii', derivSquaredSym (Tensor4.new .Symmetric) (Tensor2.new .Symmetric) caseUniaxial = ok (r, ii') ∧
    contr r.std 1 0 0 = 6 := by
  obtain ⟨r, ii', h1, -, -, h4⟩ := C71_squared_sym (Tensor4.new .Symmetric) (Tensor2.new .Symmetric) caseUniaxial rfl (by simp [caseUniaxial]) rfl
  refine ⟨r, ii', h1, ?_⟩
  rw [h4 1 Matrix.isSymm_one, std_eq]
  simp [mat9, cut, caseUniaxial]
  norm_num

example : ∃ r, deriv2Jj2 (Tensor4.new .Symmetric) caseUniaxial = ok r ∧ IsHess Tensor2.jj2 (fun _ => True) caseUniaxial r.std := by
  obtain ⟨r, h1, -, h3⟩ := C71_jj2 (Tensor4.new .Symmetric) caseUniaxial rfl (by simp [caseUniaxial])
  exact ⟨r, h1, h3 _ rfl rfl⟩

/-- Two calls with the same auxiliary data: first for a 2D tensor. -/
example : ∃ r a r' a', deriv2Jj3 (Tensor4.new .Symmetric) AuxJ3.new ⟨.Symmetric2D, ![2, 4, 5, 1, 0, 0, 0, 0, 0]⟩ = ok (r, a) ∧
    deriv2Jj3 r a caseUniaxial = ok (r', a') ∧ IsHess Tensor2.jj3 (fun _ => True) caseUniaxial r'.std := by
  obtain ⟨r, a, h1, h2, h3, -⟩ := C71_jj3 (Tensor4.new .Symmetric) AuxJ3.new ⟨.Symmetric2D, ![2, 4, 5, 1, 0, 0, 0, 0, 0]⟩ rfl C71_aux_jj3_new (by simp)
  obtain ⟨r', a', g1, -, -, g4⟩ := C71_jj3 r a caseUniaxial h2 h3 (by simp [caseUniaxial])
  exact ⟨r, a, r', a', h1, g1, g4 _ rfl rfl⟩

example : ∃ r a, deriv2SigmaT (Tensor4.new .Symmetric) AuxST.new caseUniaxial = ok (r, a, some 3) ∧
    IsHess Tensor2.sigmaT (fun u => 0 < u.jj2) caseUniaxial r.std := by
  obtain ⟨r, a, h1, -, -, h4⟩ := (C71_sigma_t (Tensor4.new .Symmetric) AuxST.new caseUniaxial rfl C71_aux_sigma_t_new (by simp [caseUniaxial])).1
    (by rw [caseUniaxial_jj2]; norm_num)
  exact ⟨r, a, by rw [h1, caseUniaxial_jj2], h4 _ rfl rfl⟩

example : ∃ r a, deriv2Q (Tensor4.new .Symmetric) AuxST.new caseUniaxial = ok (r, a, some 3) ∧
    IsHess Tensor2.invQ (fun u => 0 < u.jj2) caseUniaxial r.std := by
  obtain ⟨r, a, h1, -, -, h4⟩ := (C71_q (Tensor4.new .Symmetric) AuxST.new caseUniaxial rfl C71_aux_sigma_t_new (by simp [caseUniaxial])).1
    (by rw [caseUniaxial_jj2]; norm_num)
  exact ⟨r, a, by rw [h1, caseUniaxial_jj2], h4 _ rfl rfl⟩

example : ∃ r a, deriv2Lode (Tensor4.new .Symmetric) AuxLode.new caseUniaxial = ok (r, a, some 3) ∧ a.Ok := by
  obtain ⟨r, a, h1, -, h3, -⟩ := (C71_lode (Tensor4.new .Symmetric) AuxLode.new caseUniaxial rfl C71_aux_lode_new (by simp [caseUniaxial])).1
    (by rw [caseUniaxial_jj2]; norm_num)
  exact ⟨r, a, by rw [h1, caseUniaxial_jj2], h3⟩

/-- Without deviator there is no result. -/
example : deriv2Lode (Tensor4.new .Symmetric) AuxLode.new (Tensor2.identity .Symmetric) = ok (Tensor4.new .Symmetric, AuxLode.new, none) :=
  (C71_lode (Tensor4.new .Symmetric) AuxLode.new (Tensor2.identity .Symmetric) rfl C71_aux_lode_new (by simp [Tensor2.identity])).2 (by
    rw [jj2_eq, C65_identity]
    simp [devOf, Matrix.trace_one]
    norm_num)

end Russell.Tensor
