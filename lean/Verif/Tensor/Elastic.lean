import Verif.Tensor.Ops4

/-!
# C72: linear elasticity (russell_tensor/src/lin_elasticity.rs)
-/

namespace Russell.Tensor
open Russell Russell.Res

/-- `LinElasticity` (lin_elasticity.rs:4-22). -/
structure LinElasticity where
  young : ℝ
  poisson : ℝ
  planeStress : Bool
  dd : Tensor4

namespace LinElasticity

/-- `calc_rigidity` (lin_elasticity.rs:400-426). -/
noncomputable def calcRigidity (e : LinElasticity) : LinElasticity :=
  let nu := e.poisson
  let dd := if e.planeStress then
      let c := e.young / (1 - nu * nu)
      e.dd.sets [(0, 0, c), (0, 1, c * nu), (1, 0, c * nu), (1, 1, c), (3, 3, c * (1 - nu))]
    else
      let c := e.young / ((1 + nu) * (1 - 2 * nu))
      e.dd.sets [(0, 0, c * (1 - nu)), (0, 1, c * nu), (0, 2, c * nu), (1, 0, c * nu), (1, 1, c * (1 - nu)), (1, 2, c * nu),
        (2, 0, c * nu), (2, 1, c * nu), (2, 2, c * (1 - nu)), (3, 3, c * (1 - 2 * nu))]
  let dd := if dd.dim > 4 then
      let g := dd.mat 3 3
      dd.sets [(4, 4, g), (5, 5, g)]
    else dd
  { e with dd := dd }

/-- `LinElasticity::new` (lin_elasticity.rs:94-108). -/
noncomputable def new (young poisson : ℝ) (two_dim plane_stress : Bool) : LinElasticity :=
  calcRigidity ⟨young, poisson, plane_stress, Tensor4.new (if two_dim || plane_stress then .Symmetric2D else .Symmetric)⟩

/-- `LinElasticity::rep` (lin_elasticity.rs:111-113). -/
def rep (e : LinElasticity) : Rep := e.dd.rep

/-- `set_young_poisson` (lin_elasticity.rs:141-145). -/
noncomputable def setYoungPoisson (e : LinElasticity) (young poisson : ℝ) : LinElasticity :=
  calcRigidity { e with young := young, poisson := poisson }

/-- `set_bulk_shear` (lin_elasticity.rs:148-152). -/
noncomputable def setBulkShear (e : LinElasticity) (bulk shear : ℝ) : LinElasticity :=
  calcRigidity { e with young := 9 * bulk * shear / (3 * bulk + shear), poisson := (3 * bulk - 2 * shear) / (6 * bulk + 2 * shear) }

/-- `get_young_poisson` (lin_elasticity.rs:157-159). -/
def getYoungPoisson (e : LinElasticity) : ℝ × ℝ := (e.young, e.poisson)

/-- `get_bulk_shear` (lin_elasticity.rs:164-169). -/
noncomputable def getBulkShear (e : LinElasticity) : ℝ × ℝ := (e.young / (3 * (1 - 2 * e.poisson)), e.young / (2 * (1 + e.poisson)))

/-- `calc_stress` (lin_elasticity.rs:307-309). -/
def calcStress (e : LinElasticity) (stress strain : Tensor2) : Res Tensor2 := t4DdotT2 stress 1 e.dd strain

/-- `out_of_plane_strain` (lin_elasticity.rs:343-349). -/
noncomputable def outOfPlaneStrain (e : LinElasticity) (stress : Tensor2) : Res ℝ :=
  if ¬ e.planeStress then err "out-of-plane strain works with plane-stress only"
  else ok (-(stress.vec 0 + stress.vec 1) * e.poisson / e.young)

/-- `calc_compliance` (lin_elasticity.rs:389-397); any error of `calc_inverse` is replaced. -/
noncomputable def calcCompliance (e : LinElasticity) (cc : Tensor4) : Res Tensor4 :=
  if e.planeStress then err "The compliance modulus is not available for plane-stress"
  else match e.dd.calcInverse cc with
    | .ok r => ok r.2
    | .err _ => err "cannot invert the rigidity modulus D"
    | .panic => panic

/-- The objects that a program can have: `new`, then any calls of the setters. -/
inductive Reach : LinElasticity → Prop
  | new (young poisson : ℝ) (two_dim plane_stress : Bool) : Reach (new young poisson two_dim plane_stress)
  | setYoungPoisson (e : LinElasticity) (young poisson : ℝ) : Reach e → Reach (e.setYoungPoisson young poisson)
  | setBulkShear (e : LinElasticity) (bulk shear : ℝ) : Reach e → Reach (e.setBulkShear bulk shear)

/-- The coefficients outside the ones that `calc_rigidity` sets. -/
structure Clean (e : LinElasticity) : Prop where
  rep : e.dd.rep = .Symmetric2D ∨ (e.dd.rep = .Symmetric ∧ e.planeStress = false)
  zero : ∀ m n : Fin 9, ¬ (m.val < 3 ∧ n.val < 3) → m ≠ n → e.dd.mat m n = 0
  plane : e.planeStress = true → ∀ m : Fin 9, e.dd.mat m 2 = 0 ∧ e.dd.mat 2 m = 0

theorem sets_rep (t : Tensor4) (l : List (Fin 9 × Fin 9 × ℝ)) : (t.sets l).rep = t.rep := by
  induction l generalizing t with
  | nil => rfl
  | cons x l ih => rw [Tensor4.sets, List.foldl_cons]; exact ih (t.set x.1 x.2.1 x.2.2)

theorem calcRigidity_rep (e : LinElasticity) : e.calcRigidity.dd.rep = e.dd.rep := by
  simp only [calcRigidity]
  split <;> split <;> simp only [sets_rep]

theorem sets_other (t : Tensor4) (l : List (Fin 9 × Fin 9 × ℝ)) (m n : Fin 9) (h : ∀ x ∈ l, ¬ (x.1 = m ∧ x.2.1 = n)) : (t.sets l).mat m n = t.mat m n := by
  induction l generalizing t with
  | nil => rfl
  | cons x l ih =>
    rw [Tensor4.sets, List.foldl_cons]
    have := ih (t.set x.1 x.2.1 x.2.2) fun y hy => h y (by simp [hy])
    rw [Tensor4.sets] at this
    rw [this]
    simp only [Tensor4.set]
    rw [if_neg]
    rintro ⟨rfl, rfl⟩
    exact h x (by simp) ⟨rfl, rfl⟩

theorem Clean.calc {e : LinElasticity} (h : e.Clean) : e.calcRigidity.Clean := by
  refine ⟨by rw [calcRigidity_rep]; exact h.rep, fun m n h1 h2 => ?_, fun hp m => ?_⟩
  · rw [← h.zero m n h1 h2]
    simp only [calcRigidity]
    have k1 : ∀ (t : Tensor4) g, (t.sets [(4, 4, g), (5, 5, g)]).mat m n = t.mat m n := fun t g => by
      refine sets_other _ _ _ _ fun x hx => ?_
      simp only [List.mem_cons, List.not_mem_nil, or_false] at hx
      rcases hx with rfl | rfl <;> rintro ⟨rfl, rfl⟩ <;> exact h2 rfl
    have k2 : ∀ (t : Tensor4), (if t.dim > 4 then t.sets [(4, 4, t.mat 3 3), (5, 5, t.mat 3 3)] else t).mat m n = t.mat m n := fun t => by
      split
      · exact k1 _ _
      · rfl
    rw [k2]
    split
    · refine sets_other _ _ _ _ fun x hx => ?_
      simp only [List.mem_cons, List.not_mem_nil, or_false] at hx
      rcases hx with rfl | rfl | rfl | rfl | rfl <;> rintro ⟨rfl, rfl⟩ <;> simp at h1 h2
    · refine sets_other _ _ _ _ fun x hx => ?_
      simp only [List.mem_cons, List.not_mem_nil, or_false] at hx
      rcases hx with rfl | rfl | rfl | rfl | rfl | rfl | rfl | rfl | rfl | rfl <;> rintro ⟨rfl, rfl⟩ <;> simp at h1 h2
  · have hp : e.planeStress = true := hp
    have hr : e.dd.rep = .Symmetric2D := by
      rcases h.rep with h | h
      · exact h
      · rw [h.2] at hp; exact absurd hp (by simp)
    obtain ⟨a, b⟩ := h.plane hp m
    simp only [calcRigidity, hp, if_true]
    rw [if_neg (by rw [Tensor4.dim, sets_rep, hr]; simp [Rep.dim])]
    constructor
    · rw [← a]
      refine sets_other _ _ _ _ fun x hx => ?_
      simp only [List.mem_cons, List.not_mem_nil, or_false] at hx
      rcases hx with rfl | rfl | rfl | rfl | rfl <;> simp
    · rw [← b]
      refine sets_other _ _ _ _ fun x hx => ?_
      simp only [List.mem_cons, List.not_mem_nil, or_false] at hx
      rcases hx with rfl | rfl | rfl | rfl | rfl <;> simp

/-- An object as some `calc_rigidity` leaves it. -/
theorem Reach.calc {e : LinElasticity} (h : Reach e) : ∃ e0 : LinElasticity, e0.Clean ∧ e = e0.calcRigidity := by
  induction h with
  | new young poisson two_dim plane_stress =>
    refine ⟨_, ⟨?_, fun _ _ _ _ => rfl, fun _ _ => ⟨rfl, rfl⟩⟩, rfl⟩
    cases two_dim <;> cases plane_stress <;> simp [Tensor4.new]
  | setYoungPoisson e y p _ ih =>
    obtain ⟨e0, h0, rfl⟩ := ih
    have := h0.calc
    exact ⟨{ e0.calcRigidity with young := y, poisson := p }, ⟨this.rep, this.zero, this.plane⟩, rfl⟩
  | setBulkShear e b s _ ih =>
    obtain ⟨e0, h0, rfl⟩ := ih
    have := h0.calc
    exact ⟨{ e0.calcRigidity with young := 9 * b * s / (3 * b + s), poisson := (3 * b - 2 * s) / (6 * b + 2 * s) },
      ⟨this.rep, this.zero, this.plane⟩, rfl⟩

theorem Reach.rep {e : LinElasticity} (h : Reach e) : e.dd.rep = .Symmetric2D ∨ (e.dd.rep = .Symmetric ∧ e.planeStress = false) := by
  obtain ⟨e0, h0, rfl⟩ := h.calc
  exact h0.calc.rep

/-- The coefficients of the isotropic tensor λ I ⊗ I + 2G P_sym. -/
def iso (la g : ℝ) : Fin 9 → Fin 9 → ℝ := fun m n => (if m.val < 3 ∧ n.val < 3 then la else 0) + if m = n then 2 * g else 0

/-- The coefficients of the modulus. -/
theorem Reach.iso {e : LinElasticity} (h : Reach e) (hp : e.planeStress = false) (h1 : 1 + e.poisson ≠ 0) (h2 : 1 - 2 * e.poisson ≠ 0) :
    cut2 e.dd.rep e.dd.mat = cut2 e.dd.rep (iso (e.young * e.poisson / ((1 + e.poisson) * (1 - 2 * e.poisson))) (e.young / (2 * (1 + e.poisson)))) := by
  obtain ⟨e0, h0, rfl⟩ := h.calc
  have hz := h0.calc.zero
  obtain ⟨y, nu, ps, ⟨r, f, u⟩⟩ := e0
  have hp : ps = false := hp
  subst hp
  have hr : r = .Symmetric2D ∨ r = .Symmetric := by
    rcases h0.rep with h | h
    · exact Or.inl h
    · exact Or.inr h.1
  have h1' : 1 + nu ≠ 0 := h1
  have h2' : 1 - 2 * nu ≠ 0 := h2
  have ela : y * nu / ((1 + nu) * (1 - 2 * nu)) = y / ((1 + nu) * (1 - 2 * nu)) * nu := by ring
  have eg : y / (2 * (1 + nu)) = y / ((1 + nu) * (1 - 2 * nu)) * (1 - 2 * nu) / 2 := by
    rw [div_mul_eq_mul_div, mul_comm (1 + nu), mul_comm y, mul_div_mul_left _ _ h2', div_div, mul_comm 2]
  simp only [calcRigidity] at hz ⊢
  rw [ela, eg]
  generalize y / ((1 + nu) * (1 - 2 * nu)) = c at hz ⊢
  funext m n
  by_cases hmn : ¬ (m.val < 3 ∧ n.val < 3) ∧ m ≠ n
  · have := hz m n hmn.1 hmn.2
    simp only [cut2, this, LinElasticity.iso, hmn.1, hmn.2, if_false, add_zero]
  · clear hz h0 h hp h1 h2
    have cs : (m.val < 3 ∧ n.val < 3) ∨ m = n := by tauto
    clear hmn
    rcases hr with rfl | rfl
    · rcases cs with ⟨c1, c2⟩ | rfl
      · have : m = 0 ∨ m = 1 ∨ m = 2 := by omega
        have : n = 0 ∨ n = 1 ∨ n = 2 := by omega
        rcases ‹m = 0 ∨ m = 1 ∨ m = 2› with rfl | rfl | rfl <;> rcases ‹n = 0 ∨ n = 1 ∨ n = 2› with rfl | rfl | rfl <;>
          simp [cut2, calcRigidity, Tensor4.sets, Tensor4.set, Tensor4.dim, Rep.dim, LinElasticity.iso] <;> ring
      · fin_cases m <;> simp [cut2, calcRigidity, Tensor4.sets, Tensor4.set, Tensor4.dim, Rep.dim, LinElasticity.iso] <;> ring
    · rcases cs with ⟨c1, c2⟩ | rfl
      · have : m = 0 ∨ m = 1 ∨ m = 2 := by omega
        have : n = 0 ∨ n = 1 ∨ n = 2 := by omega
        rcases ‹m = 0 ∨ m = 1 ∨ m = 2› with rfl | rfl | rfl <;> rcases ‹n = 0 ∨ n = 1 ∨ n = 2› with rfl | rfl | rfl <;>
          simp [cut2, calcRigidity, Tensor4.sets, Tensor4.set, Tensor4.dim, Rep.dim, LinElasticity.iso] <;> ring
      · fin_cases m <;> simp [cut2, calcRigidity, Tensor4.sets, Tensor4.set, Tensor4.dim, Rep.dim, LinElasticity.iso] <;> ring

/-- The isotropic tensor acts as the law of Hooke. -/
theorem iso_hooke (r : Rep) (hr : r ≠ .General) (la g : ℝ) (t : Tensor4) (ht : t.rep = r) (h : cut2 r t.mat = cut2 r (iso la g))
    (A : Matrix (Fin 3) (Fin 3) ℝ) (hA : Representable r A) : contr t.std A = (la * A.trace) • (1 : Matrix (Fin 3) (Fin 3) ℝ) + (2 * g) • A := by
  rw [representable_iff] at hA
  obtain ⟨hs, hpl⟩ := hA
  apply contr_of
  intro m
  rw [ht, h, comp_explicit, comp_explicit]
  obtain ⟨s1, s2, s3⟩ := hs hr
  cases r
  · exact absurd rfl hr
  · fin_cases m <;> simp [Fin.sum_univ_succ, cut2, LinElasticity.iso, Rep.dim, Matrix.trace, s1, s2, s3] <;> ring
  · obtain ⟨s4, s5⟩ := hpl rfl
    fin_cases m <;> simp [Fin.sum_univ_succ, cut2, LinElasticity.iso, Rep.dim, Matrix.trace, s1, s2, s3, s4, s5] <;> ring

end LinElasticity
end Russell.Tensor
