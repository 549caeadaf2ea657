import Verif.Ode.Trees
import Verif.Ode.ErkStep
import Mathlib.Algebra.Polynomial.AlgebraMap
import Mathlib.RingTheory.PowerSeries.Basic
import Mathlib.RingTheory.PowerSeries.Derivative

/-!
# The steps of the explicit Runge-Kutta methods as polynomials in the stepsize

For a system `y' = f(x, y)` with polynomial `f`, not necessarily autonomous, the result of a step is a polynomial in the stepsize;
its coefficients, and those of the solution, are sums over trees.
-/

namespace Russell.Ode

open Russell Russell.Res Russell.Lab

section
variable {K : Type} [Field K] {ι : Type}

open PowerSeries

/-- The series of the stages and of the solution in terms of elementary differentials. -/
theorem bseries [CharZero K] (f : ι → MvPolynomial ι K) (y0 : ι → K) : ∃ D : RTree → ι → K,
    (∀ {s : Nat} {a : Nat → Nat → K} {k : Nat → ι → K⟦X⟧}, (∀ i, i < s → ∀ m, k i m =
      MvPolynomial.aeval (fun n => C (y0 n) + X * ∑ j ∈ Finset.range s, C (a i j) * k j n) (f m)) →
      ∀ (b : Nat → K) (d : Nat) (m : ι), coeff (d + 1) (X * ∑ i ∈ Finset.range s, C (b i) * k i m) =
        treeSum (fun t => (∑ i ∈ Finset.range s, b i * stageCoeff s a t i) * D t m) d) ∧
    (∀ {Y : ι → K⟦X⟧}, (∀ i, constantCoeff (Y i) = y0 i) → (∀ i, derivative K (Y i) = MvPolynomial.aeval Y (f i)) →
      ∀ (d : Nat) (m : ι), coeff (d + 1) (Y m) = treeSum (fun t => exactCoeff t * D t m) d) ∧
    ∃ Y : ι → K⟦X⟧, (∀ i, constantCoeff (Y i) = y0 i) ∧ ∀ i, derivative K (Y i) = MvPolynomial.aeval Y (f i) := by
  choose L hL using fun m => exists_words (f m) y0
  refine ⟨elemDiff L, ?_, ?_, ?_⟩
  · intro s a k hk b d m
    have e1 : ∀ i, i < s → ∀ m, k i m = (L m).val (fun n => X * ∑ j ∈ Finset.range s, C (a i j) * k j n) := by
      intro i hi m
      rw [← hL m, hk i hi m]
      rfl
    rw [coeff_succ_X_mul, map_sum]
    have : ∀ j ∈ Finset.range s, coeff d (C (b j) * k j m) =
        treeSum (fun t => b j * (stageCoeff s a t j * elemDiff L t m)) d := by
      intro j hj
      rw [coeff_C_mul, coeff_stage e1 d j (Finset.mem_range.1 hj) m, treeSum_smul]
    rw [Finset.sum_congr rfl this, ← treeSum_sum]
    apply treeSum_congr
    intro t _
    rw [Finset.sum_mul]
    apply Finset.sum_congr rfl
    intro j _
    ring
  · intro Y h0 hode d m
    have e3 : ∀ i, derivative K (Y i - C (y0 i)) = (L i).val (fun n => Y n - C (y0 n)) := by
      intro i
      rw [map_sub, hode i, ← hL i]
      rw [show derivative K (C (y0 i)) = 0 from derivative_C, sub_zero]
      congr 2
      funext n
      exact (add_sub_cancel (C (y0 n)) (Y n)).symm
    have := coeff_exact (v := fun n => Y n - C (y0 n)) (by
      intro i
      rw [map_sub, coeff_zero_eq_constantCoeff_apply, h0]
      simp) e3 d m
    rw [← this, map_sub, coeff_C, if_neg (by omega), sub_zero]
  · let v : ι → K⟦X⟧ := fun m => PowerSeries.mk fun d => if d = 0 then 0 else treeSum (fun t => exactCoeff t * elemDiff L t m) (d - 1)
    have v0 : ∀ i, coeff 0 (v i) = 0 := fun i => by simp [v]
    have v1 : ∀ d i, coeff (d + 1) (v i) = treeSum (fun t => exactCoeff t * elemDiff L t i) d := fun d i => by simp [v]
    refine ⟨fun i => C (y0 i) + v i, ?_, ?_⟩
    · intro i
      rw [map_add, ← coeff_zero_eq_constantCoeff_apply (v i), v0]
      simp
    · intro i
      rw [map_add, show derivative K (C (y0 i)) = 0 from derivative_C, zero_add]
      have h2 := hL i v
      rw [show MvPolynomial.aeval (fun i => C (y0 i) + v i) (f i) = (L i).val v from h2]
      ext d
      rw [coeff_val (N := d) v0 (fun e _ j => v1 e j) i d le_rfl,
        show coeff d (derivative K (v i)) = coeff (d + 1) (v i) * (d + 1) from coeff_derivative _ _, v1, mul_comm, ← treeSum_smul]
      apply treeSum_congr
      intro t ht
      rw [hat_exactCoeff]
      unfold exactCoeff
      rw [ht]
      have hd : ((d : K) + 1) ≠ 0 := by exact_mod_cast Nat.succ_ne_zero d
      push_cast
      field_simp

end

section
variable {K : Type} [Field K] {n : Nat}

/-- A system `y' = f(x, y)` with polynomial right-hand sides; the variable `none` is `x`, the others are the components of `y`. -/
abbrev PolySystem (K : Type) [Field K] (n : Nat) := Fin n → MvPolynomial (Option (Fin n)) K

/-- The values of the variables. -/
def vars {R : Type} (x : R) (y : Fin n → R) : Option (Fin n) → R
  | none => x
  | some m => y m

/-- The right-hand sides as a function of `x` and `y`. -/
noncomputable def PolySystem.field (f : PolySystem K n) (x : K) (y : List K) : List K :=
  List.ofFn fun m => MvPolynomial.eval (vars x fun i => comp y i) (f m)

theorem comp_field (f : PolySystem K n) (x : K) (y : List K) (m : Fin n) :
    comp (f.field x y) m = MvPolynomial.eval (vars x fun i => comp y i) (f m) := by
  change (List.ofFn _).getD m 0 = _
  rw [getD_lt (by simp), List.getElem_ofFn]

open PowerSeries in
/-- `Y` is the Taylor series, in the distance from `x`, of a solution through `(x, y)`. -/
structure FormalSolution (f : PolySystem K n) (x : K) (y : List K) (Y : Fin n → K⟦X⟧) : Prop where
  start : ∀ m : Fin n, constantCoeff (Y m) = comp y m
  ode : ∀ m, derivative K (Y m) = MvPolynomial.aeval (vars (C x + X) Y) (f m)

open Polynomial in
/-- The stages as polynomials in the stepsize. -/
noncomputable def stagePoly (f : PolySystem K n) (a : Nat → Nat → K) (c : Nat → K) (x : K) (y : List K) (i : Nat) : Fin n → K[X] :=
  fun m => MvPolynomial.aeval
    (vars (C x + X * C (c i)) fun l => C (comp y l) + X * ∑ j : Fin i, C (a i j) * stagePoly f a c x y j l) (f m)
  termination_by i
  decreasing_by exact j.2

open Polynomial in
/-- The result of a step as a polynomial in the stepsize. -/
noncomputable def stepPoly (f : PolySystem K n) (s : Nat) (a : Nat → Nat → K) (b c : Nat → K) (x : K) (y : List K) (m : Fin n) : K[X] :=
  C (comp y m) + X * ∑ j ∈ Finset.range s, C (b j) * stagePoly f a c x y j m

open Polynomial in
theorem stagePoly_eval (f : PolySystem K n) {s : Nat} {a : Nat → Nat → K} {c : Nat → K} {x : K} {y : List K} {h : K}
    {k : Nat → List K} (hk : RkStages n s a c f.field x y h k) : ∀ i, i < s → ∀ m : Fin n,
    comp (k i) m = (stagePoly f a c x y i m).eval h := by
  intro i
  induction i using Nat.strong_induction_on with
  | _ i ih =>
    intro hi m
    rw [hk i hi, comp_field, stagePoly]
    have e := MvPolynomial.map_aeval (vars (C x + X * C (c i)) fun l => C (comp y l) +
      X * ∑ j : Fin i, C (a i j) * stagePoly f a c x y j l) (Polynomial.evalRingHom h) (f m)
    refine Eq.trans ?_ e.symm
    unfold MvPolynomial.eval
    congr 2
    · ext; simp
    · funext v
      cases v with
      | none => simp only [vars, Polynomial.coe_evalRingHom, eval_add, eval_C, eval_mul, eval_X]
      | some l =>
        simp only [vars, Polynomial.coe_evalRingHom]
        rw [comp_lin _ _ _ _ _ l.2, Finset.sum_range]
        simp only [eval_add, eval_C, eval_mul, eval_X, eval_finsetSum]
        congr 2
        apply Finset.sum_congr rfl
        intro j _
        rw [ih j j.2 (by omega) l]

open Polynomial in
theorem stepPoly_eval (f : PolySystem K n) {s : Nat} {a : Nat → Nat → K} {b c : Nat → K} {x : K} {y : List K} {h : K}
    {k : Nat → List K} (hk : RkStages n s a c f.field x y h k) (m : Fin n) :
    comp (lin n y h s b k) m = (stepPoly f s a b c x y m).eval h := by
  rw [comp_lin _ _ _ _ _ m.2]
  unfold stepPoly
  simp only [eval_add, eval_C, eval_mul, eval_X, eval_finsetSum]
  congr 2
  apply Finset.sum_congr rfl
  intro j hj
  rw [stagePoly_eval f hk j (Finset.mem_range.1 hj) m]

/-- The conditions on the matrix and the nodes: the method is explicit and the nodes are the row sums. -/
def Consistent (s : Nat) (a : Nat → Nat → K) (c : Nat → K) : Prop :=
  (∀ i, i < s → ∀ j, i ≤ j → a i j = 0) ∧ ∀ i, i < s → ∑ j ∈ Finset.range s, a i j = c i

/-- The system with `x` as a further unknown. -/
noncomputable def extended (f : PolySystem K n) : Option (Fin n) → MvPolynomial (Option (Fin n)) K
  | none => 1
  | some m => f m

open PowerSeries in
/-- **The series of the steps and of the solution**: with elementary differentials `D` that depend on the system and on `(x, y)`
only. -/
theorem step_series [CharZero K] (f : PolySystem K n) (x : K) (y : List K) : ∃ D : RTree → Fin n → K,
    (∀ {s : Nat} {a : Nat → Nat → K} {c : Nat → K}, Consistent s a c → ∀ (b : Nat → K) (d : Nat) (m : Fin n),
      (stepPoly f s a b c x y m).coeff (d + 1) =
        treeSum (fun t => (∑ i ∈ Finset.range s, b i * stageCoeff s a t i) * D t m) d) ∧
    (∀ {Y : Fin n → K⟦X⟧}, FormalSolution f x y Y → ∀ (d : Nat) (m : Fin n),
      coeff (d + 1) (Y m) = treeSum (fun t => exactCoeff t * D t m) d) ∧
    ∃ Y : Fin n → K⟦X⟧, FormalSolution f x y Y := by
  obtain ⟨D, h1, h2, Y, h3, h4⟩ := bseries (extended f) (vars x fun i => comp y i)
  refine ⟨fun t m => D t (some m), ?_, ?_, ?_⟩
  · intro s a c hc b d m
    let φ : Polynomial K →ₐ[K] K⟦X⟧ := Polynomial.coeToPowerSeries.algHom K
    have φC : ∀ r : K, φ (Polynomial.C r) = C r := fun r => by simp [φ]
    have φX : φ Polynomial.X = X := by simp [φ]
    have hk := h1 (s := s) (a := a) (k := fun i => vars 1 fun l => φ (stagePoly f a c x y i l)) (by
      intro i hi q
      cases q with
      | none => simp [vars, extended]
      | some q =>
        simp only [vars, extended]
        rw [stagePoly, ← AlgHom.comp_apply, MvPolynomial.comp_aeval]
        congr 2
        funext v
        cases v with
        | none =>
          simp only [vars, mul_one]
          rw [map_add, map_mul, φC, φC, φX, ← hc.2 i hi, map_sum]
        | some l =>
          simp only [vars]
          rw [map_add, map_mul, φC, φX, map_sum]
          congr 2
          simp only [map_mul, φC]
          rw [← Finset.sum_range (fun j => C (a i j) * φ (stagePoly f a c x y j l)),
            Finset.sum_subset (Finset.range_mono hi.le)]
          intro j _ hj
          rw [hc.1 i hi j (by simpa using hj), map_zero, zero_mul]) b d (some m)
    rw [← hk]
    simp only [vars]
    have e : φ (stepPoly f s a b c x y m) = C (comp y m) + X * ∑ j ∈ Finset.range s, C (b j) * φ (stagePoly f a c x y j m) := by
      unfold stepPoly
      rw [map_add, map_mul, φC, φX, map_sum]
      simp only [map_mul, φC]
    have e2 : (stepPoly f s a b c x y m).coeff (d + 1) = coeff (d + 1) (φ (stepPoly f s a b c x y m)) := by simp [φ]
    rw [e2, e, map_add, coeff_C, if_neg (by omega), zero_add]
  · intro Y hY d m
    refine h2 (Y := vars (C x + X) Y) ?_ ?_ d (some m)
    · rintro (_ | i)
      · simp [vars]
      · exact hY.start i
    · rintro (_ | i)
      · simp only [vars, extended, map_add, map_one]
        rw [show derivative K (C x) = 0 from derivative_C, show derivative K (X : K⟦X⟧) = 1 from derivative_X, zero_add]
      · exact hY.ode i
  · have hx : Y none = C x + X := by
      have hd := h4 none
      simp only [extended, map_one] at hd
      have h0 := h3 none
      ext d
      cases d with
      | zero => simpa [vars] using h0
      | succ d =>
        have h := congrArg (coeff d) hd
        rw [show coeff d (derivative K (Y none)) = coeff (d + 1) (Y none) * (d + 1) from coeff_derivative _ _] at h
        have hd : ((d : K) + 1) ≠ 0 := by exact_mod_cast Nat.succ_ne_zero d
        rw [map_add, coeff_C, if_neg (by omega), zero_add, coeff_X]
        rw [coeff_one] at h
        by_cases d0 : d = 0
        · subst d0; simpa using h
        · rw [if_neg d0] at h
          rw [if_neg (by omega)]
          exact (mul_eq_zero.1 h).resolve_right hd
    refine ⟨fun m => Y (some m), ⟨fun m => h3 (some m), fun m => ?_⟩⟩
    have := h4 (some m)
    rw [this]
    simp only [extended]
    congr 2
    funext v
    cases v with
    | none => exact hx
    | some l => rfl

/-- The series of the solution exists and is unique. -/
theorem formalSolution_exists [CharZero K] (f : PolySystem K n) (x : K) (y : List K) : ∃! Y, FormalSolution f x y Y := by
  obtain ⟨D, -, h2, Y, hY⟩ := step_series f x y
  refine ⟨Y, hY, ?_⟩
  intro Z hZ
  funext m
  ext d
  cases d with
  | zero =>
    rw [PowerSeries.coeff_zero_eq_constantCoeff_apply, PowerSeries.coeff_zero_eq_constantCoeff_apply, hY.start, hZ.start]
  | succ d => rw [h2 hY, h2 hZ]

theorem stepPoly_zero (f : PolySystem K n) (s : Nat) (a : Nat → Nat → K) (b c : Nat → K) (x : K) (y : List K) (m : Fin n) :
    (stepPoly f s a b c x y m).coeff 0 = comp y m := by
  unfold stepPoly
  simp

/-- Order conditions give the order. -/
theorem order_step [CharZero K] (f : PolySystem K n) {s : Nat} {a : Nat → Nat → K} {b c : Nat → K} {p : Nat} (hc : Consistent s a c)
    (hO : OrderConditions s a b p) (x : K) (y : List K) {Y : Fin n → PowerSeries K} (hY : FormalSolution f x y Y) :
    ∀ d, d ≤ p → ∀ m, (stepPoly f s a b c x y m).coeff d = PowerSeries.coeff d (Y m) := by
  obtain ⟨D, h1, h2, -⟩ := step_series f x y
  intro d hd m
  cases d with
  | zero => rw [stepPoly_zero, PowerSeries.coeff_zero_eq_constantCoeff_apply, hY.start]
  | succ d =>
    rw [h1 hc, h2 hY]
    apply treeSum_congr
    intro t ht
    rw [hO t (by omega)]

/-- The conditions for a continuous method at `θ`. -/
def DenseConditions (s : Nat) (a : Nat → Nat → K) (b : Nat → K) (θ : K) (p : Nat) : Prop :=
  ∀ t : RTree, t.size ≤ p → ∑ i ∈ Finset.range s, b i * stageCoeff s a t i = θ ^ t.size * exactCoeff t

/-- The order of a continuous method. -/
theorem order_dense [CharZero K] (f : PolySystem K n) {s : Nat} {a : Nat → Nat → K} {b c : Nat → K} {θ : K} {p : Nat}
    (hc : Consistent s a c) (hO : DenseConditions s a b θ p) (x : K) (y : List K) {Y : Fin n → PowerSeries K}
    (hY : FormalSolution f x y Y) :
    ∀ d, d ≤ p → ∀ m, (stepPoly f s a b c x y m).coeff d = θ ^ d * PowerSeries.coeff d (Y m) := by
  obtain ⟨D, h1, h2, -⟩ := step_series f x y
  intro d hd m
  cases d with
  | zero => rw [stepPoly_zero, PowerSeries.coeff_zero_eq_constantCoeff_apply, hY.start, pow_zero, one_mul]
  | succ d =>
    rw [h1 hc, h2 hY, ← treeSum_smul]
    apply treeSum_congr
    intro t ht
    rw [hO t (by omega), ht]
    ring

end

end Russell.Ode
