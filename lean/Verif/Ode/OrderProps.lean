import Verif.Ode.Order
import Verif.Ode.ErkSolve

/-!
# Order of the steps, of the error estimates and of the dense output (C60, C63)
-/

namespace Russell.Ode

open Russell Russell.Res Russell.Lab

set_option linter.unusedSectionVars false

variable {K : Type} [Field K] [LinearOrder K] [IsStrictOrderedRing K] [FloorSemiring K] {n : Nat}

/-! ### Nodes -/

/-- The matrix is strictly lower triangular and the nodes are the row sums. -/
def Tableau.checkNodes (t : Tableau) : Bool :=
  (List.range t.bb.length).all fun i => ((List.range t.bb.length).all fun j => j < i || (t.aa.getD i []).getD j 0 = 0) &&
    (t.aa.getD i []).sum = t.cc.getD i 0

theorem nodes_checks {m : Method} {t : Tableau} (h : m.tableau = some t) (hm : m ≠ .DoPri8) : t.checkNodes = true := by
  cases m
  case Radau5 => cases h
  case BwEuler => cases h
  case FwEuler => cases h
  case DoPri8 => exact absurd rfl hm
  all_goals
    cases h
    decide +kernel

theorem sum_getD : ∀ l : List ℚ, l.sum = ∑ j ∈ Finset.range l.length, l.getD j 0
  | [] => by simp
  | a :: l => by
    rw [List.length_cons, Finset.sum_range_succ', List.sum_cons, sum_getD l]
    simp [add_comm]

theorem consistent {m : Method} {t : Tableau} (h : m.tableau = some t) (hm : m ≠ .DoPri8) :
    Consistent t.bb.length (t.coefs (K := K)).a (t.coefs (K := K)).c := by
  obtain ⟨-, w1, w2, -⟩ := tableau_wellFormed h
  have hc := nodes_checks h hm
  unfold Tableau.checkNodes at hc
  simp only [List.all_eq_true, List.mem_range, Bool.and_eq_true, Bool.or_eq_true, decide_eq_true_iff] at hc
  have hr : ∀ i, i < t.bb.length → (t.aa.getD i []).length = t.bb.length := by
    intro i hi
    rw [getD_lt (by omega)]
    exact w2 _ (List.getElem_mem _)
  refine ⟨?_, ?_⟩
  · intro i hi j hj
    change (((t.aa.getD i []).getD j 0 : ℚ) : K) = 0
    by_cases hj2 : j < t.bb.length
    · rw [((hc i hi).1 j hj2).resolve_left (by omega), Rat.cast_zero]
    · rw [List.getD_eq_default _ _ (by rw [hr i hi]; omega), Rat.cast_zero]
  · intro i hi
    change ∑ j ∈ Finset.range t.bb.length, (((t.aa.getD i []).getD j 0 : ℚ) : K) = ((t.cc.getD i 0 : ℚ) : K)
    rw [← (hc i hi).2, sum_getD, hr i hi]
    push_cast
    rfl

/-! ### Steps -/

/-- **C60**: for all polynomial systems, every step of a method of the documented order `p` is, as a function of the stepsize `h`,
a polynomial that agrees with the Taylor series of the solution up to `h^p`. -/
theorem C60_step {m : Method} {t : Tableau} (h : m.tableau = some t) (hm : m ≠ .DoPri8) (f : PolySystem K n) (x : K) (y : List K) :
    ∃ W : Fin n → Polynomial K,
      (∀ fns p h err e' y', ErkRelation fns n f.field p t x y h err e' y' → ∀ i : Fin n, comp y' i = (W i).eval h) ∧
      ∀ Y, FormalSolution f x y Y → ∀ d, d ≤ m.information.order → ∀ i, (W i).coeff d = PowerSeries.coeff d (Y i) := by
  refine ⟨stepPoly f t.bb.length t.coefs.a t.coefs.b t.coefs.c x y, ?_, ?_⟩
  · rintro fns p h err e' y' ⟨k, k1, rfl, -⟩ i
    exact stepPoly_eval f k1 i
  · intro Y hY
    exact order_step f (consistent h hm) (C60_order h hm).1 x y hY

/-! ### Error estimates -/

theorem embedded_weights {m : Method} {t : Tableau} (h : m.tableau = some t) (he : m.information.embedded = true) :
    t.embedded.length = t.bb.length ∧ ∀ i, i < t.bb.length →
      ((t.embedded.getD i 0 : ℚ) : K) = (t.coefs (K := K)).b i - (t.coefs (K := K)).e i := by
  obtain ⟨-, -, -, -, -, w, -⟩ := tableau_wellFormed h
  obtain ⟨l, hl, hl2⟩ := w he
  unfold Tableau.embedded
  rw [hl]
  refine ⟨by simp [hl2], ?_⟩
  intro i hi
  rw [zipWith_sub_getD (by simpa using hl2) hi]
  unfold Tableau.coefs
  dsimp only
  rw [hl, Rat.cast_sub]

/-- **C63**: the order of the estimator given by `Method::information` is the smaller one of the orders of the two methods. (The one
of Fehlberg7 is not, see `C63_fehlberg7_counterexample`.) -/
theorem C63_estimator_partial {m : Method} {t : Tableau} (h : m.tableau = some t) (h7 : m ≠ .Fehlberg7) (h8 : m ≠ .DoPri8)
    (he : m.information.embedded = true) : ∃ q,
    HasOrder t.bb.length (t.coefs (K := K)).a (fun i => (t.coefs (K := K)).b i - (t.coefs (K := K)).e i) q ∧
      m.information.order_of_estimator = min m.information.order q := by
  obtain ⟨w1, w2⟩ := embedded_weights (K := K) h he
  refine ⟨embeddedOrder m, ((embedded_checks h h8 he).hasOrder (tableau_wellFormed h) w1).congr w2, ?_⟩
  cases m <;> first | rfl | (cases he; done) | (cases h; done) | exact absurd rfl h7 | exact absurd rfl h8

/-- The polynomial with the weights of the estimate vanishes up to the order of the estimator. -/
theorem estimate_vanishes (f : PolySystem K n) {s q : Nat} {a : Nat → Nat → K} {b c e : Nat → K} (hc : Consistent s a c)
    (h1 : OrderConditions s a b q) (h2 : OrderConditions s a (fun i => b i - e i) q) (x : K) (y : List K) :
    ∀ d, d ≤ q → ∀ i, (stepPoly f s a e c x y i - Polynomial.C (comp y i)).coeff d = 0 := by
  obtain ⟨D, hD, -⟩ := step_series f x y
  intro d hd i
  cases d with
  | zero => rw [Polynomial.coeff_sub, stepPoly_zero, Polynomial.coeff_C_zero, sub_self]
  | succ d =>
    rw [Polynomial.coeff_sub, hD hc, Polynomial.coeff_C, if_neg (by omega), sub_zero, ← treeSum_zero_fun (K := K) d]
    apply treeSum_congr
    intro t ht
    have e1 := h1 t (by omega)
    have e2 := h2 t (by omega)
    simp only [sub_mul, Finset.sum_sub_distrib] at e2
    have : ∑ j ∈ Finset.range s, e j * stageCoeff s a t j = 0 := by linear_combination e1 - e2
    rw [this, zero_mul]

theorem OrderConditions.mono {s : Nat} {a : Nat → Nat → K} {b : Nat → K} {p q : Nat} (h : OrderConditions s a b p) (hq : q ≤ p) :
    OrderConditions s a b q := fun t ht => h t (by omega)

/-- **C63**: for all polynomial systems the error vector `h Σ eⱼ kⱼ`, from which the error of a step is estimated, is a polynomial
in `h` without terms up to `h^q`, `q` being the documented order of the estimator. -/
theorem C63_estimate_partial {m : Method} {t : Tableau} (h : m.tableau = some t) (h7 : m ≠ .Fehlberg7) (h8 : m ≠ .DoPri8)
    (he : m.information.embedded = true) (f : PolySystem K n) (x : K) (y : List K) :
    ∃ W : Fin n → Polynomial K,
      (∀ h k, RkStages n t.bb.length t.coefs.a t.coefs.c f.field x y h k → ∀ i : Fin n,
        h * ∑ j ∈ Finset.range t.bb.length, t.coefs.e j * comp (k j) i = (W i).eval h) ∧
      ∀ d, d ≤ m.information.order_of_estimator → ∀ i, (W i).coeff d = 0 := by
  obtain ⟨q, hq, hmin⟩ := C63_estimator_partial (K := K) h h7 h8 he
  refine ⟨fun i => stepPoly f t.bb.length t.coefs.a t.coefs.e t.coefs.c x y i - Polynomial.C (comp y i), ?_, ?_⟩
  · intro h k hk i
    rw [Polynomial.eval_sub, ← stepPoly_eval f hk i, comp_lin _ _ _ _ _ i.2, Polynomial.eval_C]
    ring
  · intro d hd i
    exact estimate_vanishes f (consistent h h8) ((C60_order h h8).1.mono (min_le_left _ q)) (hq.1.mono (min_le_right _ _)) x y d
      (by omega) i

/-- The system `y' = y`. -/
noncomputable def growth : PolySystem K 1 := fun m => MvPolynomial.X (some m)

theorem coeff_growth {s : Nat} {a : Nat → Nat → K} {c : Nat → K} (hc : Consistent s a c) (x y : K) (d : Nat) : ∀ i, i < s →
    (stagePoly growth a c x [y] i 0).coeff d = y * stageCoeff s a (chainTree d) i := by
  induction d with
  | zero =>
    intro i _
    rw [stagePoly]
    simp [growth, vars, comp, chainTree, stageCoeff]
  | succ d ih =>
    intro i hi
    rw [stagePoly]
    simp only [growth, vars, MvPolynomial.aeval_X, Polynomial.coeff_add, Polynomial.coeff_C_succ, zero_add, Polynomial.coeff_X_mul,
      Polynomial.finsetSum_coeff, Polynomial.coeff_C_mul, chainTree, stageCoeff, one_mul]
    rw [← Finset.sum_range (fun j => a i j * (stagePoly growth a c x [y] j 0).coeff d), Finset.mul_sum,
      Finset.sum_subset (Finset.range_mono hi.le)]
    · apply Finset.sum_congr rfl
      intro j hj
      rw [ih j (Finset.mem_range.1 hj)]
      ring
    · intro j _ hj
      rw [hc.1 i hi j (by simpa using hj), zero_mul]

/-- **C63**, violated: the documented order of the estimator is `min(order(y1), order(ŷ1))` (enums.rs:7-12); the two methods of
Fehlberg7 have the orders 7 and 8, and `Method::information` says 8 (enums.rs:147). For `y' = y` the error vector has a term with
`h^8`. -/
theorem C63_fehlberg7_counterexample :
    HasOrder 13 (fehlberg7.coefs (K := K)).a (fehlberg7.coefs (K := K)).b 7 ∧
    HasOrder 13 (fehlberg7.coefs (K := K)).a (fun i => (fehlberg7.coefs (K := K)).b i - (fehlberg7.coefs (K := K)).e i) 8 ∧
    Method.Fehlberg7.information.order_of_estimator ≠ min 7 8 ∧
    ∃ W : Polynomial K, (∀ h k, RkStages 1 13 fehlberg7.coefs.a fehlberg7.coefs.c growth.field 0 [1] h k →
        h * ∑ j ∈ Finset.range 13, fehlberg7.coefs.e j * comp (k j) 0 = W.eval h) ∧
      W.coeff Method.Fehlberg7.information.order_of_estimator ≠ 0 := by
  have he : Method.Fehlberg7.information.embedded = true := rfl
  have ht : Method.Fehlberg7.tableau = some fehlberg7 := rfl
  obtain ⟨w1, w2⟩ := embedded_weights (K := K) ht he
  refine ⟨C60_order (K := K) ht (by decide), ((embedded_checks ht (by decide) he).hasOrder (tableau_wellFormed ht) w1).congr w2,
    by decide, ?_⟩
  refine ⟨stepPoly growth 13 fehlberg7.coefs.a fehlberg7.coefs.e fehlberg7.coefs.c 0 [1] 0 - 1, ?_, ?_⟩
  · intro h k hk
    have := stepPoly_eval growth hk (b := fehlberg7.coefs.e) 0
    rw [Polynomial.eval_sub, ← this, comp_lin _ _ _ _ _ (by decide), Polynomial.eval_one]
    simp [comp]
  · have hc : Consistent 13 (fehlberg7.coefs (K := K)).a (fehlberg7.coefs (K := K)).c := consistent ht (by decide)
    have e : (stepPoly (growth (K := K)) 13 fehlberg7.coefs.a fehlberg7.coefs.e fehlberg7.coefs.c 0 [1] 0 - 1).coeff 8 =
        ((dot (fehlberg7.ee.getD []) (stageVec fehlberg7.aa (chainTree 7)) : ℚ) : K) := by
      rw [Polynomial.coeff_sub, Polynomial.coeff_one, if_neg (by omega), sub_zero]
      unfold stepPoly
      rw [Polynomial.coeff_add, Polynomial.coeff_C, if_neg (by omega), zero_add, Polynomial.coeff_X_mul, Polynomial.finsetSum_coeff,
        ← weights_cast (K := K) (A := fehlberg7.aa) (b := fehlberg7.ee.getD []) (by decide) (by decide)]
      apply Finset.sum_congr rfl
      intro j hj
      rw [Polynomial.coeff_C_mul, coeff_growth hc 0 1 7 j (Finset.mem_range.1 hj), one_mul]
      rfl
    change (stepPoly (growth (K := K)) 13 fehlberg7.coefs.a fehlberg7.coefs.e fehlberg7.coefs.c 0 [1] 0 - 1).coeff 8 ≠ 0
    rw [e]
    have : dot (fehlberg7.ee.getD []) (stageVec fehlberg7.aa (chainTree 7)) ≠ 0 := by decide +kernel
    exact_mod_cast this

/-! ### Dense output of DoPri5 -/

/-- The coefficients of `θ, θ², θ³, θ⁴` in the weights of the interpolation. -/
def dense5Poly : Nat → List ℚ
  | 1 => (List.range 7).map fun j => if j = 0 then 1 else 0
  | 2 => (List.range 7).map fun j => 3 * doPri5.bb.getD j 0 - (2 * if j = 0 then 1 else 0) - (if j = 6 then 1 else 0) +
      (doPri5D.getD 0 []).getD j 0
  | 3 => (List.range 7).map fun j => -(2 * doPri5.bb.getD j 0) + (if j = 6 then 1 else 0) + (if j = 0 then 1 else 0) -
      2 * (doPri5D.getD 0 []).getD j 0
  | 4 => (List.range 7).map fun j => (doPri5D.getD 0 []).getD j 0
  | _ => []

theorem dense5_checks : ∀ d ∈ List.range 4, ∀ t ∈ trees d, ∀ q ∈ [1, 2, 3, 4],
    dot (dense5Poly q) (stageVec doPri5.aa t) = if q = t.size then (exactHat t : ℚ) / t.size else 0 := by decide +kernel

theorem dense5Weight_eq (θ : K) {j : Nat} (hj : j < 7) : dense5Weight doPri5.coefs.b θ j =
    θ * (((dense5Poly 1).getD j 0 : ℚ) : K) + θ ^ 2 * (((dense5Poly 2).getD j 0 : ℚ) : K) +
      θ ^ 3 * (((dense5Poly 3).getD j 0 : ℚ) : K) + θ ^ 4 * (((dense5Poly 4).getD j 0 : ℚ) : K) := by
  have hg : ∀ g : Nat → ℚ, ((List.range 7).map g).getD j 0 = g j := by
    intro g
    rw [getD_lt (by simpa using hj)]
    simp
  simp only [dense5Poly, dense5Weight, hg]
  have e : (coef doPri5D 0 j : K) = (((doPri5D.getD 0 []).getD j 0 : ℚ) : K) := lit_eq _
  rw [e, show (doPri5.coefs (K := K)).b j = ((doPri5.bb.getD j 0 : ℚ) : K) from rfl]
  split_ifs
  all_goals
    push_cast
    ring

/-- The interpolation of DoPri5 satisfies the conditions of order 4 for all `θ`. -/
theorem dense5_conditions (θ : K) :
    DenseConditions 7 (doPri5.coefs (K := K)).a (dense5Weight doPri5.coefs.b θ) θ 4 := by
  intro t ht
  have hp := t.size_pos
  have h := dense5_checks (t.size - 1) (by simp; omega) t (mem_trees.2 (by omega))
  have hw : ∀ q, (dense5Poly q).length = 7 → ∑ i ∈ Finset.range 7, (((dense5Poly q).getD i 0 : ℚ) : K) *
      stageCoeff 7 (doPri5.coefs (K := K)).a t i = ((dot (dense5Poly q) (stageVec doPri5.aa t) : ℚ) : K) :=
    fun q hq => weights_cast (A := doPri5.aa) (by decide) hq t
  have e : ∑ i ∈ Finset.range 7, dense5Weight doPri5.coefs.b θ i * stageCoeff 7 (doPri5.coefs (K := K)).a t i =
      θ * ((dot (dense5Poly 1) (stageVec doPri5.aa t) : ℚ) : K) + θ ^ 2 * ((dot (dense5Poly 2) (stageVec doPri5.aa t) : ℚ) : K) +
      θ ^ 3 * ((dot (dense5Poly 3) (stageVec doPri5.aa t) : ℚ) : K) + θ ^ 4 * ((dot (dense5Poly 4) (stageVec doPri5.aa t) : ℚ) : K) := by
    rw [← hw 1 rfl, ← hw 2 rfl, ← hw 3 rfl, ← hw 4 rfl, Finset.mul_sum, Finset.mul_sum, Finset.mul_sum, Finset.mul_sum,
      ← Finset.sum_add_distrib, ← Finset.sum_add_distrib, ← Finset.sum_add_distrib]
    apply Finset.sum_congr rfl
    intro i hi
    rw [dense5Weight_eq θ (Finset.mem_range.1 hi)]
    ring
  rw [e, h 1 (by simp), h 2 (by simp), h 3 (by simp), h 4 (by simp), ← cast_exactCoeff]
  have hs : t.size = 1 ∨ t.size = 2 ∨ t.size = 3 ∨ t.size = 4 := by omega
  unfold exactCoeff
  rcases hs with hs | hs | hs | hs <;> simp [hs]

/-- **C60**: for all polynomial systems, the dense output of DoPri5 at the fraction `θ` of an accepted step is a polynomial in the
stepsize `h` that agrees with the Taylor series of the solution at `x + θ h` up to `h^4`. -/
theorem C60_dense5 (f : PolySystem K n) (x : K) (y : List K) (θ : K) : ∃ W : Fin n → Polynomial K,
    (∀ fns p h err e' y' o aux r, ErkRelation fns n f.field p doPri5 x y h err e' y' → p.method = .DoPri5 → h ≠ 0 →
      e'.dense_out = some o → e'.denseOutput aux (x + θ * h) (x + h) y' h = ok r → ∀ i : Fin n, comp r i = (W i).eval h) ∧
    ∀ Y, FormalSolution f x y Y → ∀ d, d ≤ 4 → ∀ i, (W i).coeff d = θ ^ d * PowerSeries.coeff d (Y i) := by
  refine ⟨stepPoly f 7 doPri5.coefs.a (dense5Weight doPri5.coefs.b θ) doPri5.coefs.c x y, ?_, ?_⟩
  · intro fns p h err e' y' o aux r hR hm hh ho he i
    obtain ⟨k, k1, -, k2⟩ := C59_dense5 hR hm ho he
    rw [k2 i i.2, show (x + θ * h - x) / h = θ by field_simp; ring]
    exact stepPoly_eval f k1 i
  · intro Y hY
    exact order_dense f (consistent (m := .DoPri5) rfl (by decide)) (dense5_conditions θ) x y hY

end Russell.Ode
