import Verif.Ode.OrderProps
import Mathlib.Algebra.Order.BigOperators.Group.List

/-!
# The order of DoPri8 (C60)

The coefficients of DoPri8 are given with 30 decimals: the order conditions hold approximately.
-/

namespace Russell.Ode

open Russell Russell.Res Russell.Lab

set_option linter.unusedSectionVars false

/-- The order conditions up to `p`, with the tolerance `ε`. -/
def checkApprox (A : List (List ℚ)) (b : List ℚ) (ε : ℚ) (p : Nat) : Bool :=
  (List.range p).all fun d => (trees d).all fun t => |dot b (stageVec A t) - exactHat t / t.size| ≤ ε

theorem doPri8_checks : checkApprox doPri8.aa doPri8.bb (3 / 10 ^ 29) 8 = true := by decide +kernel

variable {K : Type} [Field K] [LinearOrder K] [IsStrictOrderedRing K] [FloorSemiring K] {n : Nat}

/-- **C60**: DoPri8 satisfies the conditions of order 8 up to `3e-29`. -/
theorem C60_doPri8 (t : RTree) (ht : t.size ≤ Method.DoPri8.information.order) :
    |∑ i ∈ Finset.range 12, (doPri8.coefs (K := K)).b i * stageCoeff 12 (doPri8.coefs (K := K)).a t i - exactCoeff t| ≤ 3 / 10 ^ 29 := by
  have h := doPri8_checks
  unfold checkApprox at h
  simp only [List.all_eq_true, List.mem_range, decide_eq_true_iff] at h
  have hp := t.size_pos
  have h1 := h (t.size - 1) (by change t.size ≤ 8 at ht; omega) t (mem_trees.2 (by omega))
  have h2 := weights_cast (K := K) (A := doPri8.aa) (b := doPri8.bb) (by decide) (by decide) t
  change ∑ i ∈ Finset.range 12, (doPri8.coefs (K := K)).b i * stageCoeff 12 (doPri8.coefs (K := K)).a t i = _ at h2
  rw [h2, ← cast_exactCoeff t]
  have h3 : ((|dot doPri8.bb (stageVec doPri8.aa t) - exactCoeff t| : ℚ) : K) ≤ ((3 / 10 ^ 29 : ℚ) : K) := Rat.cast_le.2 h1
  push_cast at h3
  exact h3

/-- The nodes are the row sums up to `6e-29`, and the matrix is strictly lower triangular. -/
theorem C60_doPri8_nodes (i : Nat) (hi : i < 12) :
    |∑ j ∈ Finset.range 12, (doPri8.coefs (K := K)).a i j - (doPri8.coefs (K := K)).c i| ≤ 6 / 10 ^ 29 ∧
    ∀ j, i ≤ j → (doPri8.coefs (K := K)).a i j = 0 := by
  constructor
  · have h : ∀ i ∈ List.range 12, |∑ j ∈ Finset.range 12, (doPri8.aa.getD i []).getD j 0 - doPri8.cc.getD i 0| ≤ 6 / 10 ^ 29 := by
      decide +kernel
    have h1 := h i (List.mem_range.2 hi)
    have h2 : ((|∑ j ∈ Finset.range 12, (doPri8.aa.getD i []).getD j 0 - doPri8.cc.getD i 0| : ℚ) : K) ≤ ((6 / 10 ^ 29 : ℚ) : K) :=
      Rat.cast_le.2 h1
    push_cast at h2
    exact h2
  · intro j hj
    change (((doPri8.aa.getD i []).getD j 0 : ℚ) : K) = 0
    have h : ∀ i ∈ List.range 12, (doPri8.aa.getD i []).length = 12 ∧ ∀ j ∈ List.range 12, i ≤ j → (doPri8.aa.getD i []).getD j 0 = 0 := by
      decide +kernel
    obtain ⟨h1, h2⟩ := h i (List.mem_range.2 hi)
    by_cases hj2 : j < 12
    · rw [h2 j (List.mem_range.2 hj2) hj, Rat.cast_zero]
    · rw [List.getD_eq_default _ _ (by omega), Rat.cast_zero]

/-- An autonomous system. -/
noncomputable def autonomous (g : Fin n → MvPolynomial (Fin n) K) : PolySystem K n := fun i => MvPolynomial.rename some (g i)

theorem stagePoly_autonomous (g : Fin n → MvPolynomial (Fin n) K) (a : Nat → Nat → K) (c c' : Nat → K) (x : K) (y : List K) (i : Nat) :
    stagePoly (autonomous g) a c x y i = stagePoly (autonomous g) a c' x y i := by
  induction i using Nat.strong_induction_on with
  | _ i ih =>
    funext m
    rw [stagePoly, stagePoly]
    unfold autonomous
    rw [MvPolynomial.aeval_rename, MvPolynomial.aeval_rename]
    congr 2
    funext l
    simp only [Function.comp, vars]
    congr 2
    apply Finset.sum_congr rfl
    intro j _
    congr 1
    exact congrFun (ih j j.2) l

theorem treeSum_abs_le {φ : RTree → K} {ψ : RTree → K} {d : Nat} (h : ∀ t, t.size = d + 1 → |φ t| ≤ ψ t) :
    |treeSum φ d| ≤ treeSum ψ d := by
  unfold treeSum
  have : ∀ l : List RTree, (∀ t ∈ l, |φ t| ≤ ψ t) → |(l.map φ).sum| ≤ (l.map ψ).sum := by
    intro l
    induction l with
    | nil => simp
    | cons t l ih =>
      intro hl
      simp only [List.map_cons, List.sum_cons]
      exact (abs_add_le _ _).trans (add_le_add (hl t (by simp)) (ih fun u hu => hl u (by simp [hu])))
  exact this _ fun t ht => h t (mem_trees.1 ht)

/-- **C60**: a step of DoPri8, for autonomous polynomial systems. With the elementary differentials `D` of the system at `y`, which
give the Taylor series of the solution, the coefficients of the step up to `h^8` differ from those of the solution by no more than
`3e-29 Σ |D|`. -/
theorem C60_doPri8_step (g : Fin n → MvPolynomial (Fin n) K) (x : K) (y : List K) :
    ∃ (W : Fin n → Polynomial K) (D : RTree → Fin n → K),
      (∀ fns p h err e' y', ErkRelation fns n (autonomous g).field p doPri8 x y h err e' y' → ∀ i : Fin n, comp y' i = (W i).eval h) ∧
      ∀ Y, FormalSolution (autonomous g) x y Y → ∀ i, (W i).coeff 0 = PowerSeries.coeff 0 (Y i) ∧ ∀ d,
        PowerSeries.coeff (d + 1) (Y i) = treeSum (fun t => exactCoeff t * D t i) d ∧
        (d < 8 → |(W i).coeff (d + 1) - PowerSeries.coeff (d + 1) (Y i)| ≤ 3 / 10 ^ 29 * treeSum (fun t => |D t i|) d) := by
  obtain ⟨D, h1, h2, -⟩ := step_series (autonomous g) x y
  refine ⟨stepPoly (autonomous g) 12 doPri8.coefs.a doPri8.coefs.b doPri8.coefs.c x y, D, ?_, ?_⟩
  · rintro fns p h err e' y' ⟨k, k1, rfl, -⟩ i
    exact stepPoly_eval _ k1 i
  · intro Y hY i
    refine ⟨by rw [stepPoly_zero, PowerSeries.coeff_zero_eq_constantCoeff_apply, hY.start], ?_⟩
    intro d
    refine ⟨h2 hY d i, ?_⟩
    intro hd
    have e : stepPoly (autonomous g) 12 doPri8.coefs.a doPri8.coefs.b doPri8.coefs.c x y i =
        stepPoly (autonomous g) 12 doPri8.coefs.a doPri8.coefs.b
          (fun i => ∑ j ∈ Finset.range 12, (doPri8.coefs (K := K)).a i j) x y i := by
      unfold stepPoly
      congr 2
      apply Finset.sum_congr rfl
      intro j _
      rw [stagePoly_autonomous g doPri8.coefs.a doPri8.coefs.c (fun i => ∑ j ∈ Finset.range 12, (doPri8.coefs (K := K)).a i j)]
    rw [e, h1 ⟨fun i hi => (C60_doPri8_nodes i hi).2, fun i _ => rfl⟩, h2 hY]
    have e2 : ∀ φ ψ : RTree → K, treeSum φ d - treeSum ψ d = treeSum (fun t => φ t - ψ t) d := by
      intro φ ψ
      have := treeSum_add (fun t => φ t - ψ t) ψ d
      simp only [sub_add_cancel] at this
      rw [this]; ring
    rw [e2, ← treeSum_smul]
    apply treeSum_abs_le
    intro t ht
    rw [← sub_mul, abs_mul]
    exact mul_le_mul_of_nonneg_right (C60_doPri8 t (by change t.size ≤ 8; omega)) (abs_nonneg _)

/-! ## The estimators of DoPri8 (C63) -/

/-- The weights of the third order estimator (`coef3`) as a list. -/
def doPri8E3 : List ℚ := (List.range 12).map fun j =>
  doPri8.bb.getD j 0 - if j = 0 then doPri8Bhh1 else if j = 8 then doPri8Bhh2 else if j = 11 then doPri8Bhh3 else 0

/-- The weights annihilate the trees with at most `p` nodes, with the tolerance `ε`, and not all of those with `p + 1` nodes. -/
def checkVanish (A : List (List ℚ)) (e : List ℚ) (ε δ : ℚ) (p : Nat) : Bool :=
  (List.range p).all (fun d => (trees d).all fun t => |dot e (stageVec A t)| ≤ ε) && (trees p).all fun t => δ ≤ |dot e (stageVec A t)|

theorem doPri8_e5 : checkVanish doPri8.aa (doPri8.ee.getD []) (5 / 10 ^ 28) (1 / 10 ^ 5) 5 = true := by decide +kernel

theorem doPri8_e3 : checkVanish doPri8.aa doPri8E3 (5 / 10 ^ 28) (1 / 10 ^ 3) 3 = true := by decide +kernel

theorem vanish_cast {e : List ℚ} {p : Nat} {ε δ : ℚ} (h : checkVanish doPri8.aa e ε δ p = true) (he : e.length = 12) (t : RTree) :
    (t.size ≤ p → |∑ i ∈ Finset.range 12, ((e.getD i 0 : ℚ) : K) * stageCoeff 12 (doPri8.coefs (K := K)).a t i| ≤ (ε : K)) ∧
    (t.size = p + 1 → (δ : K) ≤ |∑ i ∈ Finset.range 12, ((e.getD i 0 : ℚ) : K) * stageCoeff 12 (doPri8.coefs (K := K)).a t i|) := by
  unfold checkVanish at h
  simp only [Bool.and_eq_true, List.all_eq_true, List.mem_range, decide_eq_true_iff] at h
  have hp := t.size_pos
  have h2 := weights_cast (K := K) (A := doPri8.aa) (b := e) (by decide) (by rw [he]; decide) t
  change ∑ i ∈ Finset.range 12, ((e.getD i 0 : ℚ) : K) * stageCoeff 12 (doPri8.coefs (K := K)).a t i = _ at h2
  rw [h2, ← Rat.cast_abs]
  exact ⟨fun ht => Rat.cast_le.2 (h.1 (t.size - 1) (by omega) t (mem_trees.2 (by omega))),
    fun ht => Rat.cast_le.2 (h.2 t (mem_trees.2 (by omega)))⟩

theorem coef3_cast (i : Nat) (hi : i < 12) : coef3 (doPri8.coefs (K := K)) i = ((doPri8E3.getD i 0 : ℚ) : K) := by
  have e : doPri8E3.getD i 0 = doPri8.bb.getD i 0 - if i = 0 then doPri8Bhh1 else if i = 8 then doPri8Bhh2 else if i = 11 then doPri8Bhh3 else 0 := by
    rw [doPri8E3, List.getD_eq_getElem _ _ (by simpa using hi)]
    simp
  rw [e]
  unfold coef3 Tableau.coefs
  push_cast
  split_ifs <;> simp [lit_eq]

/-- **C63**: the weights of the two estimators of DoPri8 annihilate all trees with at most 5 (3) nodes up to `5e-28`, and none of the trees with
6 (4) nodes: the estimators are of the fifth and of the third order. -/
theorem C63_doPri8_estimators (t : RTree) :
    (t.size ≤ 5 → |∑ i ∈ Finset.range 12, (doPri8.coefs (K := K)).e i * stageCoeff 12 (doPri8.coefs (K := K)).a t i| ≤ 5 / 10 ^ 28) ∧
    (t.size = 6 → 1 / 10 ^ 5 ≤ |∑ i ∈ Finset.range 12, (doPri8.coefs (K := K)).e i * stageCoeff 12 (doPri8.coefs (K := K)).a t i|) ∧
    (t.size ≤ 3 → |∑ i ∈ Finset.range 12, coef3 (doPri8.coefs (K := K)) i * stageCoeff 12 (doPri8.coefs (K := K)).a t i| ≤ 5 / 10 ^ 28) ∧
    (t.size = 4 → 1 / 10 ^ 3 ≤ |∑ i ∈ Finset.range 12, coef3 (doPri8.coefs (K := K)) i * stageCoeff 12 (doPri8.coefs (K := K)).a t i|) := by
  have h5 := vanish_cast (K := K) doPri8_e5 (by decide) t
  have h3 := vanish_cast (K := K) doPri8_e3 (by decide) t
  have e3 : ∑ i ∈ Finset.range 12, coef3 (doPri8.coefs (K := K)) i * stageCoeff 12 (doPri8.coefs (K := K)).a t i =
      ∑ i ∈ Finset.range 12, ((doPri8E3.getD i 0 : ℚ) : K) * stageCoeff 12 (doPri8.coefs (K := K)).a t i :=
    Finset.sum_congr rfl fun i hi => by rw [coef3_cast i (Finset.mem_range.1 hi)]
  rw [e3]
  push_cast at h5 h3
  exact ⟨h5.1, h5.2, h3.1, h3.2⟩

example : 1 / 10 ^ 5 ≤ |∑ i ∈ Finset.range 12, (doPri8.coefs (K := ℚ)).e i * stageCoeff 12 (doPri8.coefs (K := ℚ)).a (chainTree 5) i| :=
  (C63_doPri8_estimators (chainTree 5)).2.1 (by decide)

/-- **C63**: the two vectors from which DoPri8 estimates the error, for an autonomous polynomial system: their expansions in the stepsize vanish up
to the powers 5 and 3, within `5e-28` times the sum of the elementary differentials. -/
theorem C63_doPri8_estimate (g : Fin n → MvPolynomial (Fin n) K) (x : K) (y : List K) :
    ∃ (V W : Fin n → Polynomial K) (D : RTree → Fin n → K),
      (∀ h k, RkStages n 12 doPri8.coefs.a doPri8.coefs.c (autonomous g).field x y h k → ∀ i : Fin n,
        h * ∑ j ∈ Finset.range 12, (doPri8.coefs (K := K)).e j * comp (k j) i = (V i).eval h ∧
        h * ∑ j ∈ Finset.range 12, coef3 (doPri8.coefs (K := K)) j * comp (k j) i = (W i).eval h) ∧
      (∀ Y, FormalSolution (autonomous g) x y Y → ∀ d i, PowerSeries.coeff (d + 1) (Y i) = treeSum (fun t => exactCoeff t * D t i) d) ∧
      ∀ i, (V i).coeff 0 = 0 ∧ (W i).coeff 0 = 0 ∧
        (∀ d, d < 5 → |(V i).coeff (d + 1)| ≤ 5 / 10 ^ 28 * treeSum (fun t => |D t i|) d) ∧
        ∀ d, d < 3 → |(W i).coeff (d + 1)| ≤ 5 / 10 ^ 28 * treeSum (fun t => |D t i|) d := by
  obtain ⟨D, h1, h2, -⟩ := step_series (autonomous g) x y
  have ha : ∀ (e : Nat → K) i, stepPoly (autonomous g) 12 doPri8.coefs.a e doPri8.coefs.c x y i =
      stepPoly (autonomous g) 12 doPri8.coefs.a e (fun i => ∑ j ∈ Finset.range 12, (doPri8.coefs (K := K)).a i j) x y i := by
    intro e i
    unfold stepPoly
    congr 2
    apply Finset.sum_congr rfl
    intro j _
    rw [stagePoly_autonomous g doPri8.coefs.a doPri8.coefs.c (fun i => ∑ j ∈ Finset.range 12, (doPri8.coefs (K := K)).a i j)]
  have key : ∀ (e : Nat → K) (p : Nat), (∀ t : RTree, t.size ≤ p → |∑ i ∈ Finset.range 12, e i * stageCoeff 12 (doPri8.coefs (K := K)).a t i| ≤ 5 / 10 ^ 28) →
      ∀ i d, d < p → |(stepPoly (autonomous g) 12 doPri8.coefs.a e doPri8.coefs.c x y i - Polynomial.C (comp y i)).coeff (d + 1)| ≤
        5 / 10 ^ 28 * treeSum (fun t => |D t i|) d := by
    intro e p he i d hd
    rw [Polynomial.coeff_sub, Polynomial.coeff_C, if_neg (by omega), sub_zero, ha, h1 ⟨fun i hi => (C60_doPri8_nodes i hi).2, fun i _ => rfl⟩,
      ← treeSum_smul]
    apply treeSum_abs_le
    intro t ht
    rw [abs_mul]
    exact mul_le_mul_of_nonneg_right (he t (by omega)) (abs_nonneg _)
  refine ⟨fun i => stepPoly (autonomous g) 12 doPri8.coefs.a doPri8.coefs.e doPri8.coefs.c x y i - Polynomial.C (comp y i),
    fun i => stepPoly (autonomous g) 12 doPri8.coefs.a (coef3 doPri8.coefs) doPri8.coefs.c x y i - Polynomial.C (comp y i), D, ?_, ?_, ?_⟩
  · intro h k hk i
    constructor <;>
    · rw [Polynomial.eval_sub, ← stepPoly_eval _ hk i, comp_lin _ _ _ _ _ i.2, Polynomial.eval_C]
      ring
  · intro Y hY d i
    exact h2 hY d i
  · intro i
    refine ⟨by rw [Polynomial.coeff_sub, stepPoly_zero, Polynomial.coeff_C_zero, sub_self],
      by rw [Polynomial.coeff_sub, stepPoly_zero, Polynomial.coeff_C_zero, sub_self], ?_, ?_⟩
    · exact fun d hd => key _ 5 (fun t ht => (C63_doPri8_estimators t).1 ht) i d hd
    · exact fun d hd => key _ 3 (fun t ht => (C63_doPri8_estimators t).2.2.1 ht) i d hd

end Russell.Ode
