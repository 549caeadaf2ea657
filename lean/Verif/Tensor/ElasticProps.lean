import Verif.Tensor.Elastic

/-!
# C72: theorems on linear elasticity
-/

namespace Russell.Tensor
open Russell Russell.Res LinElasticity

theorem std_representable (t : Tensor2) : Representable t.rep t.std := ⟨t.vec, rfl⟩

theorem LinElasticity.Reach.sym {e : LinElasticity} (h : Reach e) : e.dd.rep ≠ .General := by
  rcases h.rep with h | h <;> simp [h]

/-- The representation, and the parameters, after `new` and after the setters. -/
theorem C72_new (young poisson : ℝ) (two_dim plane_stress : Bool) :
    (LinElasticity.new young poisson two_dim plane_stress).rep = (if two_dim || plane_stress then .Symmetric2D else .Symmetric) ∧
    (LinElasticity.new young poisson two_dim plane_stress).getYoungPoisson = (young, poisson) ∧
    (LinElasticity.new young poisson two_dim plane_stress).planeStress = plane_stress := by
  refine ⟨?_, rfl, rfl⟩
  simp only [LinElasticity.new, LinElasticity.rep, calcRigidity_rep, Tensor4.new]

theorem C72_set (e : LinElasticity) (x y : ℝ) :
    (e.setYoungPoisson x y).rep = e.rep ∧ (e.setYoungPoisson x y).getYoungPoisson = (x, y) ∧ (e.setYoungPoisson x y).planeStress = e.planeStress ∧
    (e.setBulkShear x y).rep = e.rep ∧ (e.setBulkShear x y).planeStress = e.planeStress := by
  refine ⟨?_, rfl, rfl, ?_, rfl⟩
  · simp only [LinElasticity.setYoungPoisson, LinElasticity.rep, calcRigidity_rep]
  · simp only [LinElasticity.setBulkShear, LinElasticity.rep, calcRigidity_rep]

/-- `calc_stress` is the law of Hooke in the constants of Lamé, in 3D and in plane strain, whatever setters were called before. -/
theorem C72_stress {e : LinElasticity} (h : Reach e) (hp : e.planeStress = false) (h1 : 1 + e.poisson ≠ 0) (h2 : 1 - 2 * e.poisson ≠ 0)
    (stress strain : Tensor2) (hs : stress.rep = e.rep) (hr : strain.rep = e.rep) :
    ∃ s, e.calcStress stress strain = ok s ∧ s.rep = e.rep ∧
      s.std = (e.young * e.poisson / ((1 + e.poisson) * (1 - 2 * e.poisson)) * strain.std.trace) • (1 : Matrix (Fin 3) (Fin 3) ℝ) +
        (2 * (e.young / (2 * (1 + e.poisson)))) • strain.std := by
  obtain ⟨s, a, b, c⟩ := C70_t4_ddot_t2 stress strain e.dd 1 hr hs
  refine ⟨s, a, b, ?_⟩
  rw [c, one_smul]
  refine iso_hooke e.dd.rep h.sym _ _ e.dd rfl (h.iso hp h1 h2) _ ?_
  have := std_representable strain
  rwa [hr] at this

theorem C72_stress_mismatch (e : LinElasticity) (stress strain : Tensor2) (h : stress.rep ≠ e.rep ∨ strain.rep ≠ e.rep) :
    e.calcStress stress strain = panic := by
  simp only [LinElasticity.calcStress, t4DdotT2, LinElasticity.rep] at h ⊢
  by_cases h' : strain.rep = e.dd.rep
  · rw [if_neg (by simp [h']), if_pos (h.resolve_right fun c => c h')]
  · rw [if_pos h']

/-- The constants of `get_bulk_shear` are the ones of the volumetric and of the deviatoric part of the stress. -/
theorem C72_bulk_shear {e : LinElasticity} (h : Reach e) (hp : e.planeStress = false) (h1 : 1 + e.poisson ≠ 0) (h2 : 1 - 2 * e.poisson ≠ 0)
    (stress strain s : Tensor2) (hs : stress.rep = e.rep) (hr : strain.rep = e.rep) (hc : e.calcStress stress strain = ok s) :
    s.std.trace / 3 = e.getBulkShear.1 * strain.std.trace ∧
    s.std - (s.std.trace / 3) • (1 : Matrix (Fin 3) (Fin 3) ℝ) =
      (2 * e.getBulkShear.2) • (strain.std - (strain.std.trace / 3) • (1 : Matrix (Fin 3) (Fin 3) ℝ)) := by
  obtain ⟨s', a, -, c⟩ := C72_stress h hp h1 h2 stress strain hs hr
  obtain rfl := Res.ok.inj (hc.symm.trans a)
  have ht : s.std.trace = 3 * (e.young * e.poisson / ((1 + e.poisson) * (1 - 2 * e.poisson)) * strain.std.trace) +
      2 * (e.young / (2 * (1 + e.poisson))) * strain.std.trace := by
    rw [c, Matrix.trace_add, Matrix.trace_smul, Matrix.trace_smul, Matrix.trace_one, Fintype.card_fin, smul_eq_mul, smul_eq_mul]
    push_cast
    ring
  have k : s.std.trace / 3 = e.getBulkShear.1 * strain.std.trace := by
    rw [ht]
    simp only [LinElasticity.getBulkShear]
    have h2' : 1 - e.poisson * 2 ≠ 0 := by rwa [mul_comm]
    field_simp
    ring
  refine ⟨k, ?_⟩
  rw [ht, c]
  ext i j
  simp only [Matrix.sub_apply, Matrix.add_apply, Matrix.smul_apply, smul_eq_mul, LinElasticity.getBulkShear]
  ring

/-- `set_bulk_shear` sets the bulk and the shear modulus. -/
theorem C72_set_bulk_shear (e : LinElasticity) (bulk shear : ℝ) (hb : bulk ≠ 0) (hg : shear ≠ 0) (hs : 3 * bulk + shear ≠ 0) :
    (e.setBulkShear bulk shear).getBulkShear = (bulk, shear) ∧
    1 + (e.setBulkShear bulk shear).poisson ≠ 0 ∧ 1 - 2 * (e.setBulkShear bulk shear).poisson ≠ 0 := by
  have h6 : 6 * bulk + 2 * shear ≠ 0 := by
    rw [show 6 * bulk + 2 * shear = 2 * (3 * bulk + shear) by ring]
    exact mul_ne_zero two_ne_zero hs
  have h6' : bulk * 6 + 2 * shear ≠ 0 := by rwa [mul_comm bulk]
  have hs' : bulk * 3 + shear ≠ 0 := by rwa [mul_comm bulk]
  have e1 : 1 + (3 * bulk - 2 * shear) / (6 * bulk + 2 * shear) = 9 * bulk / (6 * bulk + 2 * shear) := by
    field_simp
    ring
  have e2 : 1 - 2 * ((3 * bulk - 2 * shear) / (6 * bulk + 2 * shear)) = 6 * shear / (6 * bulk + 2 * shear) := by
    field_simp
    ring
  simp only [LinElasticity.setBulkShear, LinElasticity.getBulkShear, calcRigidity, e1, e2]
  refine ⟨Prod.ext ?_ ?_, div_ne_zero (mul_ne_zero (by norm_num) hb) h6, div_ne_zero (mul_ne_zero (by norm_num) hg) h6⟩
  · simp only
    rw [show 6 * bulk + 2 * shear = 2 * (3 * bulk + shear) by ring]
    field_simp
    try ring
  · simp only
    rw [show 6 * bulk + 2 * shear = 2 * (3 * bulk + shear) by ring]
    field_simp
    try ring

/-- `get_bulk_shear` then `set_bulk_shear` gives the same Young's modulus and Poisson's coefficient. -/
theorem C72_get_bulk_shear (e e' : LinElasticity) (hy : e.young ≠ 0) (h1 : 1 + e.poisson ≠ 0) (h2 : 1 - 2 * e.poisson ≠ 0) :
    (e'.setBulkShear e.getBulkShear.1 e.getBulkShear.2).getYoungPoisson = e.getYoungPoisson := by
  obtain ⟨y, nu, ps, dd⟩ := e
  simp only at hy h1 h2
  have h2' : 1 - nu * 2 ≠ 0 := by rwa [mul_comm]
  have e1 : 3 * (y / (3 * (1 - 2 * nu))) + y / (2 * (1 + nu)) = 3 * y / (2 * (1 + nu) * (1 - 2 * nu)) := by
    field_simp
    ring
  have e2 : 6 * (y / (3 * (1 - 2 * nu))) + 2 * (y / (2 * (1 + nu))) = 3 * y / ((1 + nu) * (1 - 2 * nu)) := by
    field_simp
    ring
  simp only [LinElasticity.setBulkShear, LinElasticity.getBulkShear, LinElasticity.getYoungPoisson, calcRigidity, e1, e2]
  refine Prod.ext ?_ ?_
  · simp only
    field_simp
    ring
  · simp only
    field_simp
    ring

theorem mat_zero_of (A : Matrix (Fin 3) (Fin 3) ℝ) (m1 : (A 0 0 + A 1 1 + A 2 2) ^ 2 = 0)
    (m2 : ((A 0 0 - A 1 1) ^ 2 + (A 1 1 - A 2 2) ^ 2 + (A 2 2 - A 0 0) ^ 2) / 3 + (A 0 1 ^ 2 + A 1 0 ^ 2 + A 0 2 ^ 2 + A 2 0 ^ 2 + A 1 2 ^ 2 + A 2 1 ^ 2) = 0) :
    A = 0 := by
  have q : ∀ x : ℝ, x ^ 2 ≤ 0 → x = 0 := fun x hx => pow_eq_zero_iff two_ne_zero |>.1 (le_antisymm hx (sq_nonneg x))
  have g1 := sq_nonneg (A 0 0 - A 1 1)
  have g2 := sq_nonneg (A 1 1 - A 2 2)
  have g3 := sq_nonneg (A 2 2 - A 0 0)
  have g4 := sq_nonneg (A 0 1)
  have g5 := sq_nonneg (A 1 0)
  have g6 := sq_nonneg (A 0 2)
  have g7 := sq_nonneg (A 2 0)
  have g8 := sq_nonneg (A 1 2)
  have g9 := sq_nonneg (A 2 1)
  have a3 := q _ m1.le
  clear m1
  have a1 := q (A 0 0 - A 1 1) (by linarith)
  have a2 := q (A 1 1 - A 2 2) (by linarith)
  have b1 := q (A 0 1) (by linarith)
  have b2 := q (A 1 0) (by linarith)
  have b3 := q (A 0 2) (by linarith)
  have b4 := q (A 2 0) (by linarith)
  have b5 := q (A 1 2) (by linarith)
  have b6 := q (A 2 1) (by linarith)
  have c0 : A 0 0 = 0 := by linarith
  have c1 : A 1 1 = 0 := by linarith
  have c2 : A 2 2 = 0 := by linarith
  ext i j
  fin_cases i <;> fin_cases j <;> assumption

/-- The strain energy is positive for E > 0 and −1 < ν < 1/2. -/
theorem C72_energy {e : LinElasticity} (h : Reach e) (hp : e.planeStress = false) (hy : 0 < e.young) (h1 : -1 < e.poisson) (h2 : e.poisson < 1 / 2)
    (strain : Tensor2) (hr : strain.rep = e.rep) (h0 : strain.std ≠ 0) : ∃ w, t2DdotT4DdotT2 strain e.dd strain = ok w ∧ 0 < w := by
  have h1' : 0 < 1 + e.poisson := by linarith
  have h2' : 0 < 1 - 2 * e.poisson := by linarith
  refine ⟨_, C70_t2_ddot_t4_ddot_t2 strain strain e.dd hr hr, ?_⟩
  have hh := iso_hooke e.dd.rep h.sym _ _ e.dd rfl (h.iso hp h1'.ne' h2'.ne') strain.std (by
    have := std_representable strain
    rwa [hr] at this)
  rw [hh]
  generalize strain.std = A at h0
  have hk : 0 < e.young / (3 * (1 - 2 * e.poisson)) := by positivity
  have hg : 0 < e.young / (2 * (1 + e.poisson)) := by positivity
  have el : e.young * e.poisson / ((1 + e.poisson) * (1 - 2 * e.poisson)) = e.young / (3 * (1 - 2 * e.poisson)) - 2 / 3 * (e.young / (2 * (1 + e.poisson))) := by
    have h2'' : 1 - e.poisson * 2 ≠ 0 := by rw [mul_comm]; exact h2'.ne'
    field_simp
    ring
  rw [el]
  generalize e.young / (3 * (1 - 2 * e.poisson)) = K at *
  generalize e.young / (2 * (1 + e.poisson)) = G at *
  have key : ∑ i, ∑ j, A i j * (((K - 2 / 3 * G) * A.trace) • (1 : Matrix (Fin 3) (Fin 3) ℝ) + (2 * G) • A) i j =
      K * (A 0 0 + A 1 1 + A 2 2) ^ 2 + 2 * G * (((A 0 0 - A 1 1) ^ 2 + (A 1 1 - A 2 2) ^ 2 + (A 2 2 - A 0 0) ^ 2) / 3 +
        (A 0 1 ^ 2 + A 1 0 ^ 2 + A 0 2 ^ 2 + A 2 0 ^ 2 + A 1 2 ^ 2 + A 2 1 ^ 2)) := by
    simp [Fin.sum_univ_three, Matrix.trace]
    ring
  rw [key]
  by_contra hn
  apply h0
  have n1 : 0 ≤ K * (A 0 0 + A 1 1 + A 2 2) ^ 2 := by positivity
  have n2 : 0 ≤ ((A 0 0 - A 1 1) ^ 2 + (A 1 1 - A 2 2) ^ 2 + (A 2 2 - A 0 0) ^ 2) / 3 + (A 0 1 ^ 2 + A 1 0 ^ 2 + A 0 2 ^ 2 + A 2 0 ^ 2 + A 1 2 ^ 2 + A 2 1 ^ 2) := by
    positivity
  have n3 := mul_nonneg (mul_nonneg zero_le_two hg.le) n2
  have m1 : (A 0 0 + A 1 1 + A 2 2) ^ 2 = 0 := by
    have : K * (A 0 0 + A 1 1 + A 2 2) ^ 2 = 0 := by linarith
    rcases mul_eq_zero.1 this with h | h
    · linarith
    · exact h
  have m2 : ((A 0 0 - A 1 1) ^ 2 + (A 1 1 - A 2 2) ^ 2 + (A 2 2 - A 0 0) ^ 2) / 3 + (A 0 1 ^ 2 + A 1 0 ^ 2 + A 0 2 ^ 2 + A 2 0 ^ 2 + A 1 2 ^ 2 + A 2 1 ^ 2) = 0 := by
    have : 2 * G * (((A 0 0 - A 1 1) ^ 2 + (A 1 1 - A 2 2) ^ 2 + (A 2 2 - A 0 0) ^ 2) / 3 + (A 0 1 ^ 2 + A 1 0 ^ 2 + A 0 2 ^ 2 + A 2 0 ^ 2 + A 1 2 ^ 2 + A 2 1 ^ 2)) = 0 := by
      linarith
    rcases mul_eq_zero.1 this with h | h
    · linarith
    · exact h
  exact mat_zero_of A m1 m2

/-! ### Plane stress -/

/-- The coefficients of plane stress. -/
def planeMat (c nu : ℝ) : Fin 9 → Fin 9 → ℝ := fun m n =>
  if (m = 0 ∧ n = 0) ∨ (m = 1 ∧ n = 1) then c else if (m = 0 ∧ n = 1) ∨ (m = 1 ∧ n = 0) then c * nu else if m = 3 ∧ n = 3 then c * (1 - nu) else 0

theorem LinElasticity.Reach.planeMat {e : LinElasticity} (h : Reach e) (hp : e.planeStress = true) :
    e.dd.rep = .Symmetric2D ∧ cut2 .Symmetric2D e.dd.mat = cut2 .Symmetric2D (planeMat (e.young / (1 - e.poisson * e.poisson)) e.poisson) := by
  obtain ⟨e0, h0, rfl⟩ := h.calc
  have hr : e0.calcRigidity.dd.rep = .Symmetric2D := by
    rcases h.rep with h | h
    · exact h
    · rw [h.2] at hp; exact absurd hp (by simp)
  refine ⟨hr, ?_⟩
  have hz := h0.zero
  have hpl := h0.plane hp
  obtain ⟨y, nu, ps, ⟨r, f, u⟩⟩ := e0
  have hp : ps = true := hp
  subst hp
  rw [calcRigidity_rep] at hr
  simp only at hr hz hpl
  subst hr
  simp only [calcRigidity]
  generalize y / (1 - nu * nu) = c
  have e3 : ∀ n, n ≠ 3 → f 3 n = 0 ∧ f n 3 = 0 := fun n hn => ⟨hz 3 n (by simp) (Ne.symm hn), hz n 3 (by simp) hn⟩
  funext m n
  by_cases hm : m.val < 4
  · by_cases hn : n.val < 4
    · have am : m = 0 ∨ m = 1 ∨ m = 2 ∨ m = 3 := by omega
      have an : n = 0 ∨ n = 1 ∨ n = 2 ∨ n = 3 := by omega
      rcases am with rfl | rfl | rfl | rfl <;> rcases an with rfl | rfl | rfl | rfl <;>
        simp [cut2, Tensor4.sets, Tensor4.set, Tensor4.dim, Rep.dim, Russell.Tensor.planeMat, hpl, e3]
    · simp [cut2, Rep.dim, hn]
  · simp [cut2, Rep.dim, hm]

/-- The modulus of plane stress on a matrix of the plane. -/
theorem plane_hooke {e : LinElasticity} (h : Reach e) (hp : e.planeStress = true) (A : Matrix (Fin 3) (Fin 3) ℝ) (hA : Representable .Symmetric2D A) :
    contr e.dd.std A = (e.young / (1 - e.poisson * e.poisson)) •
      !![A 0 0 + e.poisson * A 1 1, (1 - e.poisson) * A 0 1, 0; (1 - e.poisson) * A 0 1, e.poisson * A 0 0 + A 1 1, 0; 0, 0, 0] := by
  rw [representable_iff] at hA
  obtain ⟨s1, s2, s3⟩ := hA.1 (by simp)
  obtain ⟨s4, s5⟩ := hA.2 rfl
  obtain ⟨hr, hm⟩ := h.planeMat hp
  apply contr_of
  intro m
  rw [hr, hm, comp_explicit, comp_explicit]
  fin_cases m <;> simp [Fin.sum_univ_succ, cut2, planeMat, Rep.dim, s1, s2, s3, s4, s5] <;> ring

theorem diag_std (t : Tensor2) : t.vec 0 = t.std 0 0 ∧ t.vec 1 = t.std 1 1 ∧ t.vec 2 = t.std 2 2 := by
  rw [std_eq]
  cases t.rep <;> simp [mat9, cut]

/-- In plane stress the stress out of the plane is zero, and the stress and the strain completed with the result of `out_of_plane_strain` satisfy
the law of Hooke in 3D. -/
theorem C72_plane_stress {e : LinElasticity} (h : Reach e) (hp : e.planeStress = true) (hy : e.young ≠ 0) (h1 : 1 + e.poisson ≠ 0) (h2 : 1 - e.poisson ≠ 0)
    (h3 : 1 - 2 * e.poisson ≠ 0) (stress strain : Tensor2) (hs : stress.rep = e.rep) (hr : strain.rep = e.rep) :
    ∃ s z, e.calcStress stress strain = ok s ∧ s.rep = e.rep ∧ e.outOfPlaneStrain s = ok z ∧
      (∀ i, s.std i 2 = 0 ∧ s.std 2 i = 0) ∧
      ∀ full, full = (Matrix.of fun i j => if i = 2 ∧ j = 2 then z else strain.std i j) →
        s.std = (e.young * e.poisson / ((1 + e.poisson) * (1 - 2 * e.poisson)) * full.trace) • (1 : Matrix (Fin 3) (Fin 3) ℝ) +
          (2 * (e.young / (2 * (1 + e.poisson)))) • full := by
  obtain ⟨s, a, b, c⟩ := C70_t4_ddot_t2 stress strain e.dd 1 hr hs
  have hrr : strain.rep = .Symmetric2D := by rw [hr]; exact (h.planeMat hp).1
  have hA := std_representable strain
  rw [hrr] at hA
  rw [one_smul, plane_hooke h hp _ hA] at c
  rw [representable_iff] at hA
  obtain ⟨s1, s2, s3⟩ := hA.1 (by simp)
  obtain ⟨s4, s5⟩ := hA.2 rfl
  refine ⟨s, _, a, b, by simp only [LinElasticity.outOfPlaneStrain, hp]; rfl, ?_, ?_⟩
  · intro i
    rw [c]
    fin_cases i <;> simp
  · rintro full rfl
    have hne : 1 - e.poisson * e.poisson = (1 + e.poisson) * (1 - e.poisson) := by ring
    have h3' : 1 - e.poisson * 2 ≠ 0 := by rwa [mul_comm]
    obtain ⟨d0, d1, -⟩ := diag_std s
    rw [d0, d1, c, hne]
    generalize strain.std = A at *
    obtain ⟨y, nu, ps, dd⟩ := e
    simp only at *
    ext i j
    fin_cases i <;> fin_cases j <;> simp [Matrix.trace, Fin.sum_univ_three, s1, s2, s3, s4, s5] <;> field_simp <;> ring

theorem C72_out_of_plane_refused (e : LinElasticity) (hp : e.planeStress = false) (s : Tensor2) :
    e.outOfPlaneStrain s = err "out-of-plane strain works with plane-stress only" := by
  simp [LinElasticity.outOfPlaneStrain, hp]

/-! ### Compliance -/

theorem representable_smul_add {r : Rep} {A : Matrix (Fin 3) (Fin 3) ℝ} (hA : Representable r A) (x y : ℝ) :
    Representable r (x • (1 : Matrix (Fin 3) (Fin 3) ℝ) + y • A) := by
  rw [representable_iff] at hA ⊢
  refine ⟨fun h => ?_, fun h => ?_⟩
  · obtain ⟨a, b, c⟩ := hA.1 h
    simp [a, b, c]
  · obtain ⟨a, b⟩ := hA.2 h
    simp [a, b]

/-- The modulus on the strain of the law of Hooke solved for the strain. -/
theorem hooke_solved {nu y : ℝ} (hy : y ≠ 0) (h1 : 1 + nu ≠ 0) (h2 : 1 - 2 * nu ≠ 0) (S : Matrix (Fin 3) (Fin 3) ℝ) :
    (y * nu / ((1 + nu) * (1 - 2 * nu)) * ((-(nu / y) * S.trace) • (1 : Matrix (Fin 3) (Fin 3) ℝ) + ((1 + nu) / y) • S).trace) •
      (1 : Matrix (Fin 3) (Fin 3) ℝ) + (2 * (y / (2 * (1 + nu)))) • ((-(nu / y) * S.trace) • (1 : Matrix (Fin 3) (Fin 3) ℝ) + ((1 + nu) / y) • S) = S := by
  have h2' : 1 - nu * 2 ≠ 0 := by rwa [mul_comm]
  rw [Matrix.trace_add, Matrix.trace_smul, Matrix.trace_smul, Matrix.trace_one, Fintype.card_fin, smul_eq_mul, smul_eq_mul]
  ext i j
  simp only [Matrix.add_apply, Matrix.smul_apply, smul_eq_mul]
  push_cast
  field_simp
  ring

/-- If `calc_compliance` gives a tensor, it maps the stress to the strain of the law of Hooke. -/
theorem C72_compliance_inverse {e : LinElasticity} (h : Reach e) (h1 : 1 + e.poisson ≠ 0) (h2 : 1 - 2 * e.poisson ≠ 0) (cc c : Tensor4)
    (hc : e.calcCompliance cc = ok c) : c.rep = e.rep ∧ e.young ≠ 0 ∧ ∀ S, Representable e.rep S →
      contr c.std S = (-(e.poisson / e.young) * S.trace) • (1 : Matrix (Fin 3) (Fin 3) ℝ) + ((1 + e.poisson) / e.young) • S := by
  have hp : e.planeStress = false := by
    by_contra hn
    rw [LinElasticity.calcCompliance, if_pos (by simpa using hn)] at hc
    cases hc
  rw [LinElasticity.calcCompliance, if_neg (by simp [hp])] at hc
  have hr : cc.rep = e.dd.rep := by
    by_contra hn
    rw [C69_calc_inverse_mismatch _ _ hn] at hc
    cases hc
  rcases C69_calc_inverse e.dd cc hr with k | ⟨det, inv', k, k1, -, -, k2⟩
  · rw [k] at hc
    cases hc
  rw [k] at hc
  obtain rfl := Res.ok.inj hc
  have hh := fun A hA => iso_hooke e.dd.rep h.sym _ _ e.dd rfl (h.iso hp h1 h2) A hA
  have hy : e.young ≠ 0 := by
    intro h0
    have hone : Representable e.dd.rep (1 : Matrix (Fin 3) (Fin 3) ℝ) := by
      rw [representable_iff]
      simp
    have := (k2 1 hone).2
    rw [hh 1 hone, h0] at this
    have e0 : contr inv'.std 0 = 0 := by
      ext i j
      simp [contr]
    simp [e0] at this
  refine ⟨k1, hy, fun S hS => ?_⟩
  have hA := representable_smul_add hS (-(e.poisson / e.young) * S.trace) ((1 + e.poisson) / e.young)
  have := (k2 _ hA).2
  rwa [hh _ hA, hooke_solved hy h1 h2] at this

/-- For −1 < ν < 1/2 and a Young's modulus above 3·10⁻¹⁵ the compliance is calculated. -/
theorem C72_compliance {e : LinElasticity} (h : Reach e) (hp : e.planeStress = false) (hy : 3e-15 < e.young) (h1 : -1 < e.poisson) (h2 : e.poisson < 1 / 2)
    (cc : Tensor4) (hr : cc.rep = e.rep) : ∃ c, e.calcCompliance cc = ok c := by
  have hy0 : 0 < e.young := lt_trans (by norm_num) hy
  have h1' : 0 < 1 + e.poisson := by linarith
  have h2' : 0 < 1 - 2 * e.poisson := by linarith
  obtain ⟨det, inv', k, -⟩ := C69_calc_inverse_accepts e.dd cc ⟨e.dd.rep, iso (-(e.poisson / e.young)) ((1 + e.poisson) / e.young / 2), false⟩ hr rfl
    (fun A hA => by
      have hA' := representable_smul_add hA (e.young * e.poisson / ((1 + e.poisson) * (1 - 2 * e.poisson)) * A.trace) (2 * (e.young / (2 * (1 + e.poisson))))
      rw [iso_hooke e.dd.rep h.sym _ _ e.dd rfl (h.iso hp h1'.ne' h2'.ne') A hA,
        iso_hooke e.dd.rep h.sym _ _ ⟨e.dd.rep, iso (-(e.poisson / e.young)) ((1 + e.poisson) / e.young / 2), false⟩ rfl rfl _ hA']
      obtain ⟨y, nu, ps, dd⟩ := e
      simp only at *
      have hyn := hy0.ne'
      have h1n := h1'.ne'
      have h2n := h2'.ne'
      have h2n' : 1 - nu * 2 ≠ 0 := by rwa [mul_comm]
      rw [Matrix.trace_add, Matrix.trace_smul, Matrix.trace_smul, Matrix.trace_one, Fintype.card_fin, smul_eq_mul, smul_eq_mul]
      ext i j
      simp only [Matrix.add_apply, Matrix.smul_apply, smul_eq_mul]
      push_cast
      field_simp
      ring)
    (fun m hm => by
      have ha : |-(e.poisson / e.young)| = |e.poisson| / e.young := by rw [abs_neg, abs_div, abs_of_pos hy0]
      have hb : |2 * ((1 + e.poisson) / e.young / 2)| = (1 + e.poisson) / e.young := by
        rw [show 2 * ((1 + e.poisson) / e.young / 2) = (1 + e.poisson) / e.young by ring]
        exact abs_of_pos (div_pos h1' hy0)
      have hle : ∀ n : Fin 9, (if n.val < e.dd.dim then |iso (-(e.poisson / e.young)) ((1 + e.poisson) / e.young / 2) m n| else 0) ≤
          (if n.val < 3 then |e.poisson| / e.young else 0) + if m = n then (1 + e.poisson) / e.young else 0 := by
        intro n
        have p1 : 0 ≤ |e.poisson| / e.young := div_nonneg (abs_nonneg _) hy0.le
        have p2 : 0 ≤ (1 + e.poisson) / e.young := (div_pos h1' hy0).le
        split
        · refine (abs_add_le _ _).trans (add_le_add ?_ ?_)
          · by_cases hn : n.val < 3
            · rw [if_pos hn]
              split
              · exact ha.le
              · rw [abs_zero]; exact p1
            · rw [if_neg hn, if_neg (fun c => hn c.2), abs_zero]
          · split
            · exact hb.le
            · rw [abs_zero]
        · split <;> split <;> linarith
      have hsum := Finset.sum_le_sum fun n (_ : n ∈ Finset.univ) => hle n
      have hval : ∑ n : Fin 9, ((if n.val < 3 then |e.poisson| / e.young else 0) + if m = n then (1 + e.poisson) / e.young else 0) =
          (3 * |e.poisson| + 1 + e.poisson) / e.young := by
        rw [Finset.sum_add_distrib, Finset.sum_ite_eq, if_pos (Finset.mem_univ _)]
        simp [Fin.sum_univ_succ]
        ring
      rw [hval] at hsum
      have h3 : 3 * |e.poisson| + 1 + e.poisson < 3 := by
        rcases abs_cases e.poisson with ⟨q, -⟩ | ⟨q, -⟩ <;> rw [q] <;> linarith
      refine lt_of_le_of_lt (mul_le_mul_of_nonneg_right hsum (by norm_num)) ?_
      rw [div_mul_eq_mul_div, div_lt_one hy0]
      refine lt_of_le_of_lt ?_ hy
      linarith)
  refine ⟨inv', ?_⟩
  rw [LinElasticity.calcCompliance, if_neg (by simp [hp]), k]

theorem C72_compliance_plane_stress (e : LinElasticity) (hp : e.planeStress = true) (cc : Tensor4) :
    e.calcCompliance cc = err "The compliance modulus is not available for plane-stress" := by
  rw [LinElasticity.calcCompliance, if_pos hp]

/-- The documentation says that a panic occurs if `cc` has a different representation; an error is returned. -/
theorem C72_compliance_mismatch_counterexample : ∃ (e : LinElasticity) (cc : Tensor4), Reach e ∧ cc.rep ≠ e.rep ∧
    e.calcCompliance cc = err "cannot invert the rigidity modulus D" := by
  have hr : (LinElasticity.new 1 0 false false).rep = .Symmetric := (C72_new 1 0 false false).1
  refine ⟨LinElasticity.new 1 0 false false, Tensor4.new .General, .new _ _ _ _, by rw [hr]; simp [Tensor4.new], ?_⟩
  rw [LinElasticity.calcCompliance, if_neg (by rw [(C72_new 1 0 false false).2.2]; simp),
    C69_calc_inverse_mismatch _ _ (by
      show Rep.General ≠ (LinElasticity.new 1 0 false false).rep
      rw [hr]
      simp)]

/-- The tolerance of the inverse is absolute: with E = 10⁻¹⁵ (in some unit) the compliance is refused, although it exists. -/
theorem C72_compliance_counterexample : ∃ e : LinElasticity, Reach e ∧ e.planeStress = false ∧ 0 < e.young ∧ -1 < e.poisson ∧ e.poisson < 1 / 2 ∧
    ∀ cc, cc.rep = e.rep → e.calcCompliance cc = err "cannot invert the rigidity modulus D" := by
  have hR : Reach (LinElasticity.new 1e-15 0 false false) := .new _ _ _ _
  have hp : (LinElasticity.new 1e-15 0 false false).planeStress = false := rfl
  have hy : (LinElasticity.new 1e-15 0 false false).young = 1e-15 := rfl
  have hn : (LinElasticity.new 1e-15 0 false false).poisson = 0 := rfl
  have hr : (LinElasticity.new 1e-15 0 false false).rep = .Symmetric := (C72_new _ _ false false).1
  refine ⟨_, hR, hp, by rw [hy]; norm_num, by rw [hn]; norm_num, by rw [hn]; norm_num, fun cc hcc => ?_⟩
  have hi := hR.iso hp (by rw [hn]; norm_num) (by rw [hn]; norm_num)
  rw [LinElasticity.calcCompliance, if_neg (by simp [hp])]
  rw [LinElasticity.rep] at hr hcc
  have : (LinElasticity.new 1e-15 0 false false).dd.calcInverse cc = err "matrix is singular" := by
    rw [Tensor4.calcInverse, if_neg (by simp [hcc]), Lab.C26_refuses_small_column (by rw [Tensor4.dim, hr]; simp [Rep.dim]) (by rw [Tensor4.dim, hr]; simp [Rep.dim])]
    · rfl
    · intro i hi'
      rw [Tensor4.dim, hr] at hi'
      have hi' : i < 6 := hi'
      have := congrFun (congrFun hi ⟨i, by omega⟩) 0
      rw [hr, hy, hn] at this
      simp only [cut2, Rep.dim, hi', Fin.val_zero, Nat.ofNat_pos, and_self, if_true] at this
      have ea : arr (LinElasticity.new 1e-15 0 false false).dd.mat i 0 = (LinElasticity.new 1e-15 0 false false).dd.mat ⟨i, by omega⟩ 0 := by
        simp only [arr]
        rw [dif_pos ⟨by omega, by omega⟩]
        rfl
      rw [ea, this, LinElasticity.iso]
      split <;> split <;> norm_num
  rw [this]

/-! ### Cases -/

/-- The strain of the example of the documentation of `calc_stress` (E = 900, ν = 1/4). -/
example (stress strain : Tensor2) (hs : stress.rep = .Symmetric) (hr : strain.rep = .Symmetric) (he : strain.std = !![1, 1, 1; 1, 1, 1; 1, 1, 1]) :
    ∃ s, (LinElasticity.new 900 (1 / 4) false false).calcStress stress strain = ok s ∧ s.std = !![1800, 720, 720; 720, 1800, 720; 720, 720, 1800] := by
  have h0 := C72_new 900 (1 / 4) false false
  have hn : (LinElasticity.new 900 (1 / 4) false false).poisson = 1 / 4 := rfl
  have hy : (LinElasticity.new 900 (1 / 4) false false).young = 900 := rfl
  obtain ⟨s, a, -, c⟩ := C72_stress (.new 900 (1 / 4) false false) rfl (by rw [hn]; norm_num) (by rw [hn]; norm_num) stress strain
    (by rw [h0.1, hs]; rfl) (by rw [h0.1, hr]; rfl)
  refine ⟨s, a, ?_⟩
  rw [c, he, hn, hy]
  ext i j
  fin_cases i <;> fin_cases j <;> simp [Matrix.trace, Fin.sum_univ_three] <;> norm_num

/-- Plane stress after the setters: E = 2000 and ν = 1/4 do not matter. -/
example (stress strain : Tensor2) (hs : stress.rep = .Symmetric2D) (hr : strain.rep = .Symmetric2D) (he : strain.std = !![1, 0, 0; 0, 1, 0; 0, 0, 5]) :
    ∃ s, ((LinElasticity.new 2000 (1 / 4) false true).setYoungPoisson 400 0).calcStress stress strain = ok s ∧ s.std = !![400, 0, 0; 0, 400, 0; 0, 0, 0] := by
  have h0 := C72_new 2000 (1 / 4) false true
  have h1 := C72_set (LinElasticity.new 2000 (1 / 4) false true) 400 0
  have hn : ((LinElasticity.new 2000 (1 / 4) false true).setYoungPoisson 400 0).poisson = 0 := rfl
  have hy : ((LinElasticity.new 2000 (1 / 4) false true).setYoungPoisson 400 0).young = 400 := rfl
  have hrep : ((LinElasticity.new 2000 (1 / 4) false true).setYoungPoisson 400 0).rep = .Symmetric2D := by rw [h1.1, h0.1]; rfl
  obtain ⟨s, z, a, -, b, -, c⟩ := C72_plane_stress (.setYoungPoisson _ 400 0 (.new 2000 (1 / 4) false true)) rfl (by rw [hy]; norm_num)
    (by rw [hn]; norm_num) (by rw [hn]; norm_num) (by rw [hn]; norm_num) stress strain (by rw [hs, hrep]) (by rw [hr, hrep])
  refine ⟨s, a, ?_⟩
  have hz : z = 0 := by
    rw [LinElasticity.outOfPlaneStrain, if_neg (by simp; rfl), hn] at b
    have := Res.ok.inj b
    rw [← this]
    simp
  rw [c _ rfl, he, hn, hy, hz]
  ext i j
  fin_cases i <;> fin_cases j <;> simp [Matrix.trace, Fin.sum_univ_three] <;> norm_num

/-- `C72_bulk_shear`, `C72_set_bulk_shear`: K = 1/3 and G = 1/2. -/
example (stress strain s : Tensor2) (hs : stress.rep = .Symmetric) (hr : strain.rep = .Symmetric)
    (hc : ((LinElasticity.new 2000 (1 / 4) false false).setBulkShear (1 / 3) (1 / 2)).calcStress stress strain = ok s) : s.std = strain.std := by
  have h0 := C72_new 2000 (1 / 4) false false
  have h1 := C72_set (LinElasticity.new 2000 (1 / 4) false false) (1 / 3) (1 / 2)
  have hrep : ((LinElasticity.new 2000 (1 / 4) false false).setBulkShear (1 / 3) (1 / 2)).rep = .Symmetric := by rw [h1.2.2.2.1, h0.1]; rfl
  obtain ⟨g, g1, g2⟩ := C72_set_bulk_shear (LinElasticity.new 2000 (1 / 4) false false) (1 / 3) (1 / 2) (by norm_num) (by norm_num) (by norm_num)
  obtain ⟨a, b⟩ := C72_bulk_shear (.setBulkShear _ (1 / 3) (1 / 2) (.new 2000 (1 / 4) false false)) rfl g1 g2 stress strain s (by rw [hs, hrep]) (by rw [hr, hrep]) hc
  rw [g] at a b
  rw [a] at b
  have := sub_eq_iff_eq_add.1 b
  rw [this]
  ext i j
  simp only [Matrix.add_apply, Matrix.sub_apply, Matrix.smul_apply, smul_eq_mul]
  ring

/-- `C72_energy` and `C72_compliance` for a steel. -/
example (strain : Tensor2) (hr : strain.rep = .Symmetric) (h0 : strain.std = 1) : (∃ w, t2DdotT4DdotT2 strain (LinElasticity.new 210000 (3 / 10) false false).dd strain = ok w ∧ 0 < w) ∧
    ∃ c, (LinElasticity.new 210000 (3 / 10) false false).calcCompliance (Tensor4.new .Symmetric) = ok c ∧ contr c.std 1 = (4 / 2100000 : ℝ) • (1 : Matrix (Fin 3) (Fin 3) ℝ) := by
  have hR : Reach (LinElasticity.new 210000 (3 / 10) false false) := .new _ _ _ _
  have hn : (LinElasticity.new 210000 (3 / 10) false false).poisson = 3 / 10 := rfl
  have hy : (LinElasticity.new 210000 (3 / 10) false false).young = 210000 := rfl
  have hrep : (LinElasticity.new 210000 (3 / 10) false false).rep = .Symmetric := (C72_new _ _ false false).1
  refine ⟨C72_energy hR rfl (by rw [hy]; norm_num) (by rw [hn]; norm_num) (by rw [hn]; norm_num) strain (by rw [hr, hrep]) (by rw [h0]; exact one_ne_zero), ?_⟩
  obtain ⟨c, hc⟩ := C72_compliance hR rfl (by rw [hy]; norm_num) (by rw [hn]; norm_num) (by rw [hn]; norm_num) (Tensor4.new .Symmetric) (by rw [hrep]; rfl)
  refine ⟨c, hc, ?_⟩
  have := (C72_compliance_inverse hR (by rw [hn]; norm_num) (by rw [hn]; norm_num) _ c hc).2.2 1 (by rw [representable_iff]; simp)
  rw [this, hn, hy, Matrix.trace_one, Fintype.card_fin, ← add_smul]
  norm_num

end Russell.Tensor
