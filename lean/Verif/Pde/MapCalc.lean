import Verif.Pde.Spc2d
import Verif.Pde.Metrics
import Verif.Pde.Transfinite2d
import Mathlib.Analysis.Calculus.InverseFunctionTheorem.ContDiff
import Mathlib.Analysis.Calculus.ContDiff.Deriv
import Mathlib.Analysis.Calculus.FDeriv.Pi
import Mathlib.Analysis.Calculus.Deriv.Prod
import Mathlib.Topology.Algebra.Module.FiniteDimension

/-!
# Functions of the mapped domain (C95)

Derivatives of functions on the domain of a transfinite mapping in terms of derivatives with respect to the reference coordinates.
-/

namespace Russell.Pde

open Russell Russell.Res Russell.Lab Filter Topology

noncomputable section

/-- plane -/
abbrev Pl := Fin 2 → ℝ

/-- the coordinates as linear functions -/
def pr0 : Pl →L[ℝ] ℝ := ContinuousLinearMap.proj 0
/-- the coordinates as linear functions -/
def pr1 : Pl →L[ℝ] ℝ := ContinuousLinearMap.proj 1

theorem pr0_apply (v : Pl) : pr0 v = v 0 := rfl
theorem pr1_apply (v : Pl) : pr1 v = v 1 := rfl

/-- `Fr` and `Fs` are the partial derivatives of `F` -/
def HasP (F Fr Fs : Pl → ℝ) : Prop := ∀ η, HasFDerivAt F (Fr η • pr0 + Fs η • pr1) η

/-- first and second partial derivatives -/
structure HasP2 (F Fr Fs Frr Frs Fss : Pl → ℝ) : Prop where
  first : HasP F Fr Fs
  r : HasP Fr Frr Frs
  s : HasP Fs Frs Fss

variable {F Fr Fs Frr Frs Fss G Gr Gs Grr Grs Gss : Pl → ℝ}

theorem HasP.add (h : HasP F Fr Fs) (k : HasP G Gr Gs) : HasP (fun η => F η + G η) (fun η => Fr η + Gr η) (fun η => Fs η + Gs η) := by
  intro η
  refine ((h η).add (k η)).congr_fderiv ?_
  ext v; simp; ring

theorem HasP2.add (h : HasP2 F Fr Fs Frr Frs Fss) (k : HasP2 G Gr Gs Grr Grs Gss) :
    HasP2 (fun η => F η + G η) (fun η => Fr η + Gr η) (fun η => Fs η + Gs η) (fun η => Frr η + Grr η) (fun η => Frs η + Grs η) (fun η => Fss η + Gss η) :=
  ⟨h.first.add k.first, h.r.add k.r, h.s.add k.s⟩

theorem HasP.zero : HasP (fun _ => 0) (fun _ => 0) (fun _ => 0) := by
  intro η
  refine (hasFDerivAt_const (0 : ℝ) η).congr_fderiv ?_
  ext v; simp

/-- a product of functions of one coordinate each -/
theorem hasP_mul {f f' g g' : ℝ → ℝ} (hf : ∀ t, HasDerivAt f (f' t) t) (hg : ∀ t, HasDerivAt g (g' t) t) :
    HasP (fun η => f (η 0) * g (η 1)) (fun η => f' (η 0) * g (η 1)) (fun η => f (η 0) * g' (η 1)) := by
  intro η
  have h0 : HasFDerivAt (fun η : Pl => f (η 0)) (f' (η 0) • pr0) η := (hf (η 0)).comp_hasFDerivAt η pr0.hasFDerivAt
  have h1 : HasFDerivAt (fun η : Pl => g (η 1)) (g' (η 1) • pr1) η := (hg (η 1)).comp_hasFDerivAt η pr1.hasFDerivAt
  refine (h0.mul h1).congr_fderiv ?_
  ext v
  simp
  ring

theorem hasP2_mul {f f' f'' g g' g'' : ℝ → ℝ} (hf : ∀ t, HasDerivAt f (f' t) t) (hf' : ∀ t, HasDerivAt f' (f'' t) t) (hg : ∀ t, HasDerivAt g (g' t) t)
    (hg' : ∀ t, HasDerivAt g' (g'' t) t) :
    HasP2 (fun η => f (η 0) * g (η 1)) (fun η => f' (η 0) * g (η 1)) (fun η => f (η 0) * g' (η 1)) (fun η => f'' (η 0) * g (η 1)) (fun η => f' (η 0) * g' (η 1))
      (fun η => f (η 0) * g'' (η 1)) := ⟨hasP_mul hf hg, hasP_mul hf' hg, hasP_mul hf hg'⟩

theorem hasP2_sum {ι : Type} (t : Finset ι) {F Fr Fs Frr Frs Fss : ι → Pl → ℝ} (h : ∀ i ∈ t, HasP2 (F i) (Fr i) (Fs i) (Frr i) (Frs i) (Fss i)) :
    HasP2 (fun η => ∑ i ∈ t, F i η) (fun η => ∑ i ∈ t, Fr i η) (fun η => ∑ i ∈ t, Fs i η) (fun η => ∑ i ∈ t, Frr i η) (fun η => ∑ i ∈ t, Frs i η)
      (fun η => ∑ i ∈ t, Fss i η) := by
  classical
  induction t using Finset.induction_on with
  | empty =>
    simp only [Finset.sum_empty]
    exact ⟨HasP.zero, HasP.zero, HasP.zero⟩
  | insert a t ha ih =>
    simp only [Finset.sum_insert ha]
    exact (h a (Finset.mem_insert_self a t)).add (ih fun i hi => h i (Finset.mem_insert_of_mem hi))

theorem HasP2.congr (h : HasP2 F Fr Fs Frr Frs Fss) (e : ∀ η, G η = F η) (er : ∀ η, Gr η = Fr η) (es : ∀ η, Gs η = Fs η) (err : ∀ η, Grr η = Frr η)
    (ers : ∀ η, Grs η = Frs η) (ess : ∀ η, Gss η = Fss η) : HasP2 G Gr Gs Grr Grs Gss := by
  rw [funext e, funext er, funext es, funext err, funext ers, funext ess]
  exact h

theorem HasP.along_r (h : HasP F Fr Fs) (r s : ℝ) : HasDerivAt (fun t => F ![t, s]) (Fr ![r, s]) r := by
  have h1 : HasDerivAt (fun t : ℝ => (![t, s] : Pl)) (unit 0) r := by
    rw [hasDerivAt_pi]
    intro i
    fin_cases i
    · exact (hasDerivAt_id r).congr_deriv (by simp [unit])
    · simpa [unit] using hasDerivAt_const r s
  refine ((h ![r, s]).comp_hasDerivAt r h1).congr_deriv ?_
  simp [unit, pr0_apply, pr1_apply]

theorem HasP.along_s (h : HasP F Fr Fs) (r s : ℝ) : HasDerivAt (fun t => F ![r, t]) (Fs ![r, s]) s := by
  have h1 : HasDerivAt (fun t : ℝ => (![r, t] : Pl)) (unit 1) s := by
    rw [hasDerivAt_pi]
    intro i
    fin_cases i
    · simpa [unit] using hasDerivAt_const s r
    · exact (hasDerivAt_id s).congr_deriv (by simp [unit])
  refine ((h ![r, s]).comp_hasDerivAt s h1).congr_deriv ?_
  simp [unit, pr0_apply, pr1_apply]

/-- the derivative -/
def dP (Fr Fs : Pl → ℝ) (η : Pl) : Pl →L[ℝ] ℝ := Fr η • pr0 + Fs η • pr1

/-- the second derivative -/
def ddP (Frr Frs Fss : Pl → ℝ) (η : Pl) : Pl →L[ℝ] Pl →L[ℝ] ℝ := (dP Frr Frs η).smulRight pr0 + (dP Frs Fss η).smulRight pr1

theorem HasP2.second (h : HasP2 F Fr Fs Frr Frs Fss) (η : Pl) : HasFDerivAt (dP Fr Fs) (ddP Frr Frs Fss η) η :=
  ((h.r η).smul_const pr0).add ((h.s η).smul_const pr1)

/-! ### The mapping -/

/-- the transfinite mapping -/
def mapX (m : Transfinite2d) (η : Pl) : Pl := m.point (η 0) (η 1)

/-- the functions of the mapping are what they are called: the derivatives are right (second derivatives that are not given count as zero), and the second derivatives are continuous -/
structure MapOk (m : Transfinite2d) : Prop where
  d1 : IsDerivs m.b m.d1
  d2 : IsDerivs m.d1 (m.d2.getD [])
  cont : ∀ k < 4, ∀ i, Continuous fun t => fnAt (m.d2.getD []) k t i

variable {m : Transfinite2d}

/-- the first derivatives as computed -/
def xr (m : Transfinite2d) (i : Fin 2) (η : Pl) : ℝ := (m.pointAndDerivs true true true (η 0) (η 1)).dr i
/-- the first derivatives as computed -/
def xs (m : Transfinite2d) (i : Fin 2) (η : Pl) : ℝ := (m.pointAndDerivs true true true (η 0) (η 1)).ds i
/-- the second derivatives as computed -/
def x2 (m : Transfinite2d) (η : Pl) : Pl × Pl × Pl := ((m.pointAndDerivs true true true (η 0) (η 1)).second).getD 0

theorem x2_some (m : Transfinite2d) (r s : ℝ) : (m.pointAndDerivs true true true r s).second = some (x2 m ![r, s]) := by
  unfold x2
  simp only [Matrix.cons_val_zero, Matrix.cons_val_one]
  simp only [Transfinite2d.pointAndDerivs]
  cases m.d2 <;> rfl

theorem map_hasP2 (H : MapOk m) (i : Fin 2) :
    HasP2 (fun η => mapX m η i) (xr m i) (xs m i) (fun η => (x2 m η).1 i) (fun η => (x2 m η).2.2 i) (fun η => (x2 m η).2.1 i) := by
  have a : ∀ t : ℝ, HasDerivAt (fun r : ℝ => (1 - r) / 2) (-1 / 2) t := fun t => ((hasDerivAt_id t).const_sub 1).div_const 2
  have c : ∀ t : ℝ, HasDerivAt (fun r : ℝ => (1 + r) / 2) (1 / 2) t := fun t => ((hasDerivAt_id t).const_add 1).div_const 2
  have z : ∀ w t : ℝ, HasDerivAt (fun _ : ℝ => w) 0 t := fun w t => hasDerivAt_const t w
  have ac : ∀ w t : ℝ, HasDerivAt (fun r : ℝ => w * ((1 - r) / 2)) (w * (-1 / 2)) t := fun w t => (a t).const_mul w
  have cc : ∀ w t : ℝ, HasDerivAt (fun r : ℝ => w * ((1 + r) / 2)) (w * (1 / 2)) t := fun w t => (c t).const_mul w
  have b0 := fun t => H.d1 0 (by norm_num) t i
  have b1 := fun t => H.d1 1 (by norm_num) t i
  have b2 := fun t => H.d1 2 (by norm_num) t i
  have b3 := fun t => H.d1 3 (by norm_num) t i
  have e0 := fun t => H.d2 0 (by norm_num) t i
  have e1 := fun t => H.d2 1 (by norm_num) t i
  have e2 := fun t => H.d2 2 (by norm_num) t i
  have e3 := fun t => H.d2 3 (by norm_num) t i
  have key := (((((((hasP2_mul a (z _) b0 e0).add (hasP2_mul c (z _) b1 e1)).add (hasP2_mul b2 e2 a (z _))).add (hasP2_mul b3 e3 c (z _))).add
    (hasP2_mul (ac (-m.p0 i)) (z _) a (z _))).add (hasP2_mul (cc (-m.p1 i)) (z _) a (z _))).add (hasP2_mul (cc (-m.p2 i)) (z _) c (z _))).add
    (hasP2_mul (ac (-m.p3 i)) (z _) c (z _))
  refine key.congr ?_ ?_ ?_ ?_ ?_ ?_
  · intro η; simp only [mapX, Transfinite2d.point]; ring
  · intro η; simp only [xr, Transfinite2d.pointAndDerivs]; ring
  · intro η; simp only [xs, Transfinite2d.pointAndDerivs]; ring
  · intro η; simp only [x2, Transfinite2d.pointAndDerivs]
    cases m.d2 <;> simp [fnAt]; ring
  · intro η; simp only [x2, Transfinite2d.pointAndDerivs]
    cases m.d2 <;> simp <;> ring
  · intro η; simp only [x2, Transfinite2d.pointAndDerivs]
    cases m.d2 <;> simp [fnAt]; ring

/-- the derivative of the mapping -/
def mapD (m : Transfinite2d) (η : Pl) : Pl →L[ℝ] Pl := ContinuousLinearMap.pi fun i => dP (xr m i) (xs m i) η

/-- the second derivative of the mapping -/
def mapH (m : Transfinite2d) (η : Pl) : Pl →L[ℝ] Pl →L[ℝ] Pl :=
  ∑ i : Fin 2, (ContinuousLinearMap.compL ℝ Pl ℝ Pl (ContinuousLinearMap.single ℝ (fun _ : Fin 2 => ℝ) i)).comp
    (ddP (fun η => (x2 m η).1 i) (fun η => (x2 m η).2.2 i) (fun η => (x2 m η).2.1 i) η)

theorem map_first (H : MapOk m) (η : Pl) : HasFDerivAt (mapX m) (mapD m η) η :=
  hasFDerivAt_pi.2 fun i => (map_hasP2 H i).first η

theorem map_second (H : MapOk m) (η : Pl) : HasFDerivAt (mapD m) (mapH m η) η := by
  have e : mapD m = fun η => ∑ i : Fin 2, ContinuousLinearMap.compL ℝ Pl ℝ Pl (ContinuousLinearMap.single ℝ (fun _ : Fin 2 => ℝ) i) (dP (xr m i) (xs m i) η) := by
    funext η
    ext v i
    fin_cases i <;> simp [mapD, Pi.single_apply]
  rw [e]
  unfold mapH
  refine HasFDerivAt.fun_sum fun i _ => ?_
  exact (ContinuousLinearMap.hasFDerivAt _).comp η ((map_hasP2 H i).second η)

theorem mapD_unit (m : Transfinite2d) (η : Pl) (d : Fin 2) : mapD m η (unit 0) d = xr m d η ∧ mapD m η (unit 1) d = xs m d η := by
  simp [mapD, dP, unit, pr0_apply, pr1_apply]

theorem mapH_unit (m : Transfinite2d) (η : Pl) (d : Fin 2) : mapH m η (unit 0) (unit 0) d = (x2 m η).1 d ∧ mapH m η (unit 1) (unit 1) d = (x2 m η).2.1 d ∧
    mapH m η (unit 0) (unit 1) d = (x2 m η).2.2 d ∧ mapH m η (unit 1) (unit 0) d = (x2 m η).2.2 d := by
  simp only [mapH, ddP, dP, unit, Fin.sum_univ_two]
  fin_cases d <;> simp [pr0_apply, pr1_apply]

theorem contDiff_two_of {f f' f'' : ℝ → ℝ} (h : ∀ t, HasDerivAt f (f' t) t) (h' : ∀ t, HasDerivAt f' (f'' t) t) (hc : Continuous f'') : ContDiff ℝ 2 f := by
  have e : deriv f = f' := funext fun t => (h t).deriv
  have e' : deriv f' = f'' := funext fun t => (h' t).deriv
  have h1 : ContDiff ℝ 1 f' := contDiff_one_iff_deriv.2 ⟨fun t => (h' t).differentiableAt, by rw [e']; exact hc⟩
  have : ContDiff ℝ (1 + 1) f := by
    rw [contDiff_succ_iff_deriv]
    exact ⟨fun t => (h t).differentiableAt, by simp, by rw [e]; exact h1⟩
  simpa [one_add_one_eq_two] using this

theorem map_contDiff (H : MapOk m) : ContDiff ℝ 2 (mapX m) := by
  have h : ∀ k < 4, ∀ i, ContDiff ℝ 2 fun t => fnAt m.b k t i := fun k hk i =>
    contDiff_two_of (fun t => H.d1 k hk t i) (fun t => H.d2 k hk t i) (H.cont k hk i)
  rw [contDiff_pi]
  intro i
  have q0 : ContDiff ℝ 2 fun η : Pl => η 0 := contDiff_apply ℝ ℝ 0
  have q1 : ContDiff ℝ 2 fun η : Pl => η 1 := contDiff_apply ℝ ℝ 1
  have b0 : ContDiff ℝ 2 fun η : Pl => fnAt m.b 0 (η 1) i := (h 0 (by norm_num) i).comp q1
  have b1 : ContDiff ℝ 2 fun η : Pl => fnAt m.b 1 (η 1) i := (h 1 (by norm_num) i).comp q1
  have b2 : ContDiff ℝ 2 fun η : Pl => fnAt m.b 2 (η 0) i := (h 2 (by norm_num) i).comp q0
  have b3 : ContDiff ℝ 2 fun η : Pl => fnAt m.b 3 (η 0) i := (h 3 (by norm_num) i).comp q0
  unfold mapX Transfinite2d.point
  dsimp only
  fun_prop

/-! ### Functions on the domain -/

/-- the Laplacian of a function of the plane -/
def lap (φ : Pl → ℝ) (x : Pl) : ℝ := fderiv ℝ (fderiv ℝ φ) x (unit 0) (unit 0) + fderiv ℝ (fderiv ℝ φ) x (unit 1) (unit 1)

/-- `φ` is the function on the domain with the values `u(r, s)` near the point with the reference coordinates `(r, s)`, and it is twice continuously differentiable there -/
structure Phys (m : Transfinite2d) (u : ℝ → ℝ → ℝ) (r s : ℝ) (φ : Pl → ℝ) : Prop where
  smooth : ContDiffAt ℝ 2 φ (m.point r s)
  same : ∀ᶠ η in 𝓝 (![r, s] : Pl), φ (m.point (η 0) (η 1)) = u (η 0) (η 1)

/-- mixed derivative -/
def uxy (u : ℝ → ℝ → ℝ) (x y : ℝ) : ℝ := deriv (fun x => uy u x y) x

theorem biPoly_hasP2 {nx ny : Nat} {u : ℝ → ℝ → ℝ} (hu : BiPoly nx ny u) :
    HasP2 (fun η => u (η 0) (η 1)) (fun η => ux u (η 0) (η 1)) (fun η => uy u (η 0) (η 1)) (fun η => uxx u (η 0) (η 1)) (fun η => uxy u (η 0) (η 1))
      (fun η => uyy u (η 0) (η 1)) := by
  obtain ⟨c, hc⟩ := hu
  have hp : ∀ k t, HasDerivAt (fun t : ℝ => t ^ k) (((k : Nat) : ℝ) * t ^ (k - 1)) t := fun k t => hasDerivAt_pow k t
  have hp' : ∀ (k : Nat) (t : ℝ), HasDerivAt (fun t : ℝ => (k : ℝ) * t ^ (k - 1)) ((k : ℝ) * (((k - 1 : Nat) : ℝ) * t ^ (k - 1 - 1))) t :=
    fun k t => (hp (k - 1) t).const_mul _
  have key := hasP2_sum (Finset.range nx) (fun k _ => hasP2_sum (Finset.range ny) (fun l _ =>
    hasP2_mul (fun t => (hp k t).const_mul (c k l)) (fun t => (hp' k t).const_mul (c k l)) (hp l) (hp' l)))
  have hF : ∀ η : Pl, u (η 0) (η 1) = ∑ k ∈ Finset.range nx, ∑ l ∈ Finset.range ny, c k l * η 0 ^ k * η 1 ^ l := fun η => hc _ _
  have he : ∀ η : Pl, (![η 0, η 1] : Pl) = η := fun η => by ext i; fin_cases i <;> rfl
  have ev : ∀ {A : Pl → ℝ} {v : ℝ → ℝ → ℝ}, (∀ η, A η = v (η 0) (η 1)) → (∀ s, (fun t => A ![t, s]) = fun t => v t s) ∧ ∀ r, (fun t => A ![r, t]) = fun t => v r t := by
    intro A v h
    exact ⟨fun s => funext fun t => by rw [h]; rfl, fun r => funext fun t => by rw [h]; rfl⟩
  generalize hA : (fun η : Pl => ∑ k ∈ Finset.range nx, ∑ l ∈ Finset.range ny, c k l * η 0 ^ k * η 1 ^ l) = A at key
  have h0 : ∀ η, A η = u (η 0) (η 1) := fun η => by rw [← hA, hF]
  have gr : ∀ {A Ar As : Pl → ℝ} {v : ℝ → ℝ → ℝ}, HasP A Ar As → (∀ η, A η = v (η 0) (η 1)) → (∀ η, deriv (fun x => v x (η 1)) (η 0) = Ar η) ∧
      ∀ η, deriv (fun y => v (η 0) y) (η 1) = As η := by
    intro A Ar As v h e
    refine ⟨fun η => ?_, fun η => ?_⟩
    · rw [← (ev e).1 (η 1), (h.along_r (η 0) (η 1)).deriv, he]
    · rw [← (ev e).2 (η 0), (h.along_s (η 0) (η 1)).deriv, he]
  obtain ⟨e1, e2⟩ := gr key.first h0
  obtain ⟨e3, _⟩ := gr (v := ux u) key.r (fun η => (e1 η).symm)
  obtain ⟨e4, e5⟩ := gr (v := uy u) key.s (fun η => (e2 η).symm)
  exact key.congr (fun η => (h0 η).symm) e1 e2 e3 e4 e5

/-- the metric coefficients at a point -/
def MetricsAt (m : Transfinite2d) (r s : ℝ) (me : Metrics ℝ) : Prop :=
  IsMetrics 2 (jac2 (List.ofFn fun i => xr m i ![r, s]) (List.ofFn fun i => xs m i ![r, s]))
    (hes2 (List.ofFn (x2 m ![r, s]).1) (List.ofFn (x2 m ![r, s]).2.1) (List.ofFn (x2 m ![r, s]).2.2)) me ∧ me.homogeneous = false

theorem metricsAt_is {r s : ℝ} {me : Metrics ℝ} (h : MetricsAt m r s me) :
    IsMetrics 2 (fun d i => mapD m ![r, s] (unit i) d) (fun i j d => mapH m ![r, s] (unit i) (unit j) d) me := by
  have hJ : jac2 (List.ofFn fun i => xr m i ![r, s]) (List.ofFn fun i => xs m i ![r, s]) = fun d i => mapD m ![r, s] (unit i) d := by
    funext d i
    obtain ⟨a, b⟩ := mapD_unit m ![r, s] d
    unfold jac2
    fin_cases i
    · simp only [Fin.zero_eta, a]; fin_cases d <;> simp
    · simp only [Fin.mk_one, b]; fin_cases d <;> simp
  have hH : hes2 (List.ofFn (x2 m ![r, s]).1) (List.ofFn (x2 m ![r, s]).2.1) (List.ofFn (x2 m ![r, s]).2.2) =
      fun i j d => mapH m ![r, s] (unit i) (unit j) d := by
    funext i j d
    obtain ⟨a, b, c, e⟩ := mapH_unit m ![r, s] d
    unfold hes2
    fin_cases i <;> fin_cases j
    · simp only [Fin.zero_eta, a]; fin_cases d <;> simp
    · simp only [Fin.zero_eta, Fin.mk_one, c]; fin_cases d <;> simp
    · simp only [Fin.zero_eta, Fin.mk_one, e]; fin_cases d <;> simp
    · simp only [Fin.mk_one, b]; fin_cases d <;> simp
  have := h.1
  rwa [hJ, hH] at this

/-- the contravariant matrix is symmetric -/
theorem gg_symm {n : Nat} {J : Matrix (Fin n) (Fin n) ℝ} {C : Fin n → Fin n → Fin n → ℝ} {me : Metrics ℝ} (h : IsMetrics n J C me) (i j : Fin n) :
    me.gg_mat i j = me.gg_mat j i := by
  have ht : (blockOf n me.g_mat).transpose = blockOf n me.g_mat := by rw [h.mat]; simp
  have h1 : blockOf n me.g_mat * (blockOf n me.gg_mat).transpose = 1 := by
    have := congrArg Matrix.transpose h.inv.1
    rwa [Matrix.transpose_mul, ht, Matrix.transpose_one] at this
  have : (blockOf n me.gg_mat).transpose = blockOf n me.gg_mat := by
    calc (blockOf n me.gg_mat).transpose = blockOf n me.gg_mat * blockOf n me.g_mat * (blockOf n me.gg_mat).transpose := by rw [h.inv.1, Matrix.one_mul]
      _ = _ := by rw [Matrix.mul_assoc, h1, Matrix.mul_one]
  exact congrFun (congrFun this j) i

/-- gradient and Laplacian on the domain -/
theorem phys_derivs (H : MapOk m) {r s : ℝ} {me : Metrics ℝ} (hm : MetricsAt m r s me) {nx ny : Nat} {u : ℝ → ℝ → ℝ} (hu : BiPoly nx ny u) {φ : Pl → ℝ}
    (hφ : Phys m u r s φ) :
    (∀ d : Fin 2, fderiv ℝ φ (m.point r s) (unit d) = ux u r s * me.g_ctr 0 d + uy u r s * me.g_ctr 1 d) ∧
    ∃ l1 l2, me.ell 0 = ok l1 ∧ me.ell 1 = ok l2 ∧
      lap φ (m.point r s) = me.gg_mat 0 0 * uxx u r s + me.gg_mat 1 1 * uyy u r s + 2 * me.gg_mat 0 1 * uxy u r s - l1 * ux u r s - l2 * uy u r s := by
  have hP := biPoly_hasP2 hu
  have h1 : ∀ᶠ x in 𝓝 (mapX m ![r, s]), HasFDerivAt φ (fderiv ℝ φ x) x := by
    have : ∀ᶠ x in 𝓝 (m.point r s), ContDiffAt ℝ 2 φ x := hφ.smooth.eventually (by simp)
    exact this.mono fun x hx => (hx.differentiableAt (by norm_num)).hasFDerivAt
  have h2 : HasFDerivAt (fderiv ℝ φ) (fderiv ℝ (fderiv ℝ φ) (mapX m ![r, s])) (mapX m ![r, s]) := by
    have : ContDiffAt ℝ 1 (fderiv ℝ φ) (m.point r s) := hφ.smooth.fderiv_right (by norm_num [one_add_one_eq_two])
    exact (this.differentiableAt (by norm_num)).hasFDerivAt
  have h3 : ∀ᶠ η in 𝓝 (![r, s] : Pl), HasFDerivAt (fun η => φ (mapX m η)) (dP (fun η => ux u (η 0) (η 1)) (fun η => uy u (η 0) (η 1)) η) η := by
    have : ∀ᶠ η in 𝓝 (![r, s] : Pl), ∀ᶠ ζ in 𝓝 η, φ (m.point (ζ 0) (ζ 1)) = u (ζ 0) (ζ 1) := hφ.same.eventually_nhds
    exact this.mono fun η hη => (hP.first η).congr_of_eventuallyEq hη
  obtain ⟨g, ell, hl, hL⟩ := C90_laplacian (by norm_num) (Eventually.of_forall fun η => map_first H η) (map_second H ![r, s]) (metricsAt_is hm) hm.2 h1 h2 h3
    (hP.second ![r, s])
  refine ⟨fun d => ?_, ell 0, ell 1, hl 0, hl 1, ?_⟩
  · have := g d
    rw [Fin.sum_univ_two] at this
    refine this.trans ?_
    simp [dP, unit, pr0_apply, pr1_apply]
  · have hs := gg_symm hm.1 1 0
    rw [Fin.sum_univ_two, Fin.sum_univ_two, Fin.sum_univ_two] at hL
    simp only [Fin.sum_univ_two] at hL
    refine hL.trans ?_
    simp [dP, ddP, unit, pr0_apply, pr1_apply] at hs ⊢
    rw [hs]
    ring

/-- every polynomial belongs to a function on the domain -/
theorem phys_exists (H : MapOk m) {r s : ℝ} {me : Metrics ℝ} (hm : MetricsAt m r s me) {nx ny : Nat} {u : ℝ → ℝ → ℝ} (hu : BiPoly nx ny u) : ∃ φ, Phys m u r s φ := by
  have hI := metricsAt_is hm
  have mv : ∀ (A : Matrix (Fin 2) (Fin 2) ℝ), Continuous (Matrix.toLin' A) := fun A => (Matrix.toLin' A).continuous_of_finiteDimensional
  obtain ⟨J, eJ⟩ : ∃ J : Matrix (Fin 2) (Fin 2) ℝ, J = fun d i => mapD m ![r, s] (unit i) d := ⟨_, rfl⟩
  rw [← eJ] at hI
  have hJ : ∀ v, mapD m ![r, s] v = Matrix.mulVec J v := by
    intro v
    funext d
    obtain ⟨a, b⟩ := mapD_unit m ![r, s] d
    have : J.mulVec v d = J d 0 * v 0 + J d 1 * v 1 := by simp [Matrix.mulVec, dotProduct, Fin.sum_univ_two]
    rw [this, eJ]
    dsimp only
    rw [a, b]
    simp [mapD, dP, pr0_apply, pr1_apply]
  let g : Pl →L[ℝ] Pl := ⟨Matrix.toLin' (blockOf 2 me.g_ctr), mv _⟩
  have hg : ∀ v, g v = Matrix.mulVec (blockOf 2 me.g_ctr) v := fun v => rfl
  let E : Pl ≃L[ℝ] Pl := ContinuousLinearEquiv.equivOfInverse (mapD m ![r, s]) g
    (fun v => by rw [hg, hJ, Matrix.mulVec_mulVec, hI.ctr.1, Matrix.one_mulVec])
    (fun v => by rw [hg, hJ, Matrix.mulVec_mulVec, hI.ctr.2, Matrix.one_mulVec])
  have hE : HasFDerivAt (mapX m) (E : Pl →L[ℝ] Pl) ![r, s] := map_first H ![r, s]
  have hX : ContDiffAt ℝ 2 (mapX m) ![r, s] := (map_contDiff H).contDiffAt
  have hU : ContDiff ℝ 2 fun η : Pl => u (η 0) (η 1) := by
    obtain ⟨c, hc⟩ := hu
    simp only [hc]
    have q0 : ContDiff ℝ 2 fun η : Pl => η 0 := contDiff_apply ℝ ℝ 0
    have q1 : ContDiff ℝ 2 fun η : Pl => η 1 := contDiff_apply ℝ ℝ 1
    exact ContDiff.sum fun k _ => ContDiff.sum fun l _ => (contDiff_const.mul (q0.pow k)).mul (q1.pow l)
  refine ⟨fun x => u (hX.localInverse hE (by norm_num) x 0) (hX.localInverse hE (by norm_num) x 1), ?_, ?_⟩
  · exact hU.contDiffAt.comp _ (hX.to_localInverse hE (by norm_num))
  · have := (hX.hasStrictFDerivAt' hE (by norm_num)).eventually_left_inverse
    refine this.mono fun η hη => ?_
    have e : hX.localInverse hE (by norm_num) (m.point (η 0) (η 1)) = η := hη
    rw [e]

end

end Russell.Pde
