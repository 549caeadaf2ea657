import Mathlib.LinearAlgebra.Lagrange
import Mathlib.Algebra.Polynomial.Div
import Mathlib.Algebra.Polynomial.Derivative
import Mathlib.Algebra.BigOperators.Field
import Mathlib.Tactic.FieldSimp
import Mathlib.Tactic.LinearCombination

/-!
# Barycentric formulas for polynomials

Facts about polynomials on the nodes `X 0, …, X N` with weights `W` proportional to `∏ₖ 1/(Xⱼ - Xₖ)`; no model of code here.
-/

namespace Russell.Lab

open Polynomial Finset

variable {F : Type} [Field F]

/-- the nodes are distinct and the weights are proportional to the barycentric weights -/
structure Bary (N : Nat) (X W : Nat → F) : Prop where
  inj : ∀ i j, i ≤ N → j ≤ N → X i = X j → i = j
  weight : ∃ c, c ≠ 0 ∧ ∀ j, j ≤ N → W j = c * Lagrange.nodalWeight (range (N + 1)) X j

variable {N : Nat} {X W : Nat → F}

theorem Bary.injOn (h : Bary N X W) : Set.InjOn X (range (N + 1) : Finset Nat) := by
  intro i hi j hj e
  simp only [coe_range, Set.mem_Iio] at hi hj
  exact h.inj i j (by omega) (by omega) e

theorem Bary.ne_zero (h : Bary N X W) {j : Nat} (hj : j ≤ N) : W j ≠ 0 := by
  obtain ⟨c, hc, hw⟩ := h.weight
  rw [hw j hj]
  exact mul_ne_zero hc (Lagrange.nodalWeight_ne_zero h.injOn (mem_range.2 (by omega)))

theorem Bary.sub_ne_zero (h : Bary N X W) {i j : Nat} (hi : i ≤ N) (hj : j ≤ N) (hij : i ≠ j) : X i - X j ≠ 0 :=
  _root_.sub_ne_zero.2 fun e => hij (h.inj i j hi hj e)

/-- the weighted sum of the values of a polynomial of degree less than `N` vanishes -/
theorem Bary.sum_zero (h : Bary N X W) {q : F[X]} (hq : q.degree < (N : WithBot ℕ)) : ∑ j ∈ range (N + 1), W j * q.eval (X j) = 0 := by
  obtain ⟨c, hc, hw⟩ := h.weight
  have hlt : q.degree < (#(range (N + 1)) : WithBot ℕ) := lt_trans hq (by rw [card_range]; exact_mod_cast Nat.lt_succ_self N)
  have := Lagrange.coeff_eq_sum h.injOn hlt
  rw [card_range, Nat.add_sub_cancel, coeff_eq_zero_of_degree_lt hq] at this
  have e : ∑ j ∈ range (N + 1), W j * q.eval (X j) =
      c * ∑ i ∈ range (N + 1), q.eval (X i) / ∏ j ∈ (range (N + 1)).erase i, (X i - X j) := by
    rw [mul_sum]
    refine sum_congr rfl fun j hj => ?_
    rw [hw j (by have := mem_range.1 hj; omega), Lagrange.nodalWeight, prod_inv_distrib]
    field_simp
  rw [e, ← this, mul_zero]

/-- the denominators of the barycentric formula do not vanish -/
theorem Bary.den_ne_zero (h : Bary N X W) {x : F} (hx : ∀ j, j ≤ N → x ≠ X j) : ∑ j ∈ range (N + 1), W j / (x - X j) ≠ 0 := by
  obtain ⟨c, hc, hw⟩ := h.weight
  have := Lagrange.sum_nodalWeight_mul_inv_sub_ne_zero (x := x) h.injOn (fun i hi => hx i (by have := mem_range.1 hi; omega)) ⟨0, by simp⟩
  have e : ∑ j ∈ range (N + 1), W j / (x - X j) = c * ∑ j ∈ range (N + 1), Lagrange.nodalWeight (range (N + 1)) X j * (x - X j)⁻¹ := by
    rw [mul_sum]
    refine sum_congr rfl fun j hj => ?_
    rw [hw j (by have := mem_range.1 hj; omega), div_eq_mul_inv, mul_assoc]
  rw [e]
  exact mul_ne_zero hc this

/-- the value of a basis polynomial away from the nodes -/
theorem Bary.eval_basis (h : Bary N X W) {x : F} (hx : ∀ j, j ≤ N → x ≠ X j) {j : Nat} (hj : j ≤ N) :
    (Lagrange.basis (range (N + 1)) X j).eval x = W j / (x - X j) / ∑ k ∈ range (N + 1), W k / (x - X k) := by
  have hden := h.den_ne_zero hx
  obtain ⟨c, hc, hw⟩ := h.weight
  have e : ∀ k, k ≤ N → (Lagrange.nodal (range (N + 1)) X).eval x * (W k / (x - X k)) =
      c * (Lagrange.basis (range (N + 1)) X k).eval x := by
    intro k hk
    rw [Lagrange.eval_basis_not_at_node (mem_range.2 (by omega)) (hx k hk), hw k hk]
    ring
  have e2 : (Lagrange.nodal (range (N + 1)) X).eval x * ∑ k ∈ range (N + 1), W k / (x - X k) = c := by
    rw [mul_sum, sum_congr rfl fun k hk => e k (by have := mem_range.1 hk; omega), ← mul_sum, ← eval_finsetSum,
      Lagrange.sum_basis h.injOn ⟨0, by simp⟩, eval_one, mul_one]
  have hn : (Lagrange.nodal (range (N + 1)) X).eval x ≠ 0 := by
    intro h0; rw [h0, zero_mul] at e2; exact hc e2.symm
  rw [eq_div_iff hden]
  apply mul_left_cancel₀ hc
  apply mul_left_cancel₀ hn
  have := e j hj
  have : c * ((Lagrange.basis (range (N + 1)) X j).eval x * ∑ k ∈ range (N + 1), W k / (x - X k)) =
      (Lagrange.nodal (range (N + 1)) X).eval x * (W j / (x - X j)) * ∑ k ∈ range (N + 1), W k / (x - X k) := by
    rw [this]; ring
  rw [this]
  linear_combination ((Lagrange.nodal (range (N + 1)) X).eval x * (W j / (x - X j))) * e2

/-- a polynomial of degree at most `N` in terms of its values at the nodes -/
theorem Bary.eval_sum (h : Bary N X W) {p : F[X]} (hp : p.degree ≤ (N : WithBot ℕ)) (x : F) :
    p.eval x = ∑ j ∈ range (N + 1), p.eval (X j) * (Lagrange.basis (range (N + 1)) X j).eval x := by
  have hlt : p.degree < (#(range (N + 1)) : WithBot ℕ) := lt_of_le_of_lt hp (by rw [card_range]; exact_mod_cast Nat.lt_succ_self N)
  conv_lhs => rw [Lagrange.eq_interpolate h.injOn hlt]
  rw [Lagrange.interpolate_apply, eval_finsetSum]
  exact sum_congr rfl fun j _ => by rw [eval_mul, eval_C]

/-- the second barycentric formula -/
theorem Bary.eval_quotient (h : Bary N X W) {p : F[X]} (hp : p.degree ≤ (N : WithBot ℕ)) {x : F} (hx : ∀ j, j ≤ N → x ≠ X j) :
    p.eval x = (∑ j ∈ range (N + 1), W j / (x - X j) * p.eval (X j)) / ∑ j ∈ range (N + 1), W j / (x - X j) := by
  rw [h.eval_sum hp x, sum_div]
  refine sum_congr rfl fun j hj => ?_
  rw [h.eval_basis hx (by have := mem_range.1 hj; omega)]
  ring

/-- division by `X - a` after subtraction of the value at `a` -/
theorem exists_quotient {N : Nat} (p : F[X]) (hp : p.degree ≤ ((N + 1 : Nat) : WithBot ℕ)) (a : F) :
    ∃ q : F[X], q.degree ≤ (N : WithBot ℕ) ∧ p = C (p.eval a) + (Polynomial.X - C a) * q := by
  refine ⟨(p - C (p.eval a)) /ₘ (Polynomial.X - C a), ?_, ?_⟩
  · have h1 : (p - C (p.eval a)).natDegree ≤ N + 1 := by
      rw [natDegree_le_iff_degree_le]
      refine le_trans (degree_sub_le _ _) (max_le hp (le_trans degree_C_le ?_))
      exact_mod_cast Nat.zero_le _
    rw [← natDegree_le_iff_degree_le, natDegree_divByMonic _ (monic_X_sub_C a), natDegree_X_sub_C]
    omega
  · have : (Polynomial.X - C a) * ((p - C (p.eval a)) /ₘ (Polynomial.X - C a)) = p - C (p.eval a) :=
      mul_divByMonic_eq_iff_isRoot.2 (by simp [IsRoot])
    rw [this]; ring

theorem quotient_eval {p q : F[X]} {a : F} (h : p = C (p.eval a) + (Polynomial.X - C a) * q) (y : F) :
    p.eval y - p.eval a = (y - a) * q.eval y := by
  conv_lhs => rw [h]
  simp

theorem quotient_deriv {p q : F[X]} {a : F} (h : p = C (p.eval a) + (Polynomial.X - C a) * q) :
    (derivative p).eval a = q.eval a ∧ (derivative (derivative p)).eval a = 2 * (derivative q).eval a := by
  generalize p.eval a = e at h
  subst h
  constructor
  · simp
  · simp; ring

/-- first derivative at a node -/
theorem Bary.deriv1_node (h : Bary N X W) {p : F[X]} (hp : p.degree ≤ (N : WithBot ℕ)) (hN : 1 ≤ N) {k : Nat} (hk : k ≤ N) :
    (derivative p).eval (X k) =
      -(∑ j ∈ range (N + 1) with j ≠ k, W j * (p.eval (X k) - p.eval (X j)) / (X k - X j)) / W k := by
  obtain ⟨M, rfl⟩ : ∃ M, N = M + 1 := ⟨N - 1, by omega⟩
  obtain ⟨q, hq, hpq⟩ := exists_quotient p hp (X k)
  have h0 := h.sum_zero (q := q) (lt_of_le_of_lt hq (by exact_mod_cast Nat.lt_succ_self M))
  rw [(quotient_deriv hpq).1, eq_div_iff (h.ne_zero hk)]
  rw [← sum_filter_add_sum_filter_not _ (fun j => j ≠ k)] at h0
  have e1 : ∑ j ∈ range (M + 1 + 1) with ¬ j ≠ k, W j * q.eval (X j) = W k * q.eval (X k) := by
    rw [sum_eq_single k]
    · intro b hb hbk; exact absurd hbk (mem_filter.1 hb).2
    · intro hb; exact absurd (mem_filter.2 ⟨mem_range.2 (by omega), by simp⟩) hb
  have e2 : ∑ j ∈ range (M + 1 + 1) with j ≠ k, W j * (p.eval (X k) - p.eval (X j)) / (X k - X j) =
      ∑ j ∈ range (M + 1 + 1) with j ≠ k, W j * q.eval (X j) := by
    refine sum_congr rfl fun j hj => ?_
    obtain ⟨h1, h2⟩ := mem_filter.1 hj
    have := h.sub_ne_zero hk (by have := mem_range.1 h1; omega : j ≤ M + 1) (Ne.symm h2)
    rw [div_eq_iff this]
    have := quotient_eval hpq (X j)
    linear_combination (-W j) * this
  rw [e2]
  rw [e1] at h0
  linear_combination h0

/-- entry of the differentiation matrix away from the diagonal -/
def bd (X W : Nat → F) (k j : Nat) : F := W j / W k / (X k - X j)

/-- diagonal entry -/
def bdd (N : Nat) (X W : Nat → F) (k : Nat) : F := -∑ j ∈ range (N + 1) with j ≠ k, bd X W k j

/-- first derivative at a node, with the differentiation matrix -/
theorem Bary.deriv1_matrix (h : Bary N X W) {p : F[X]} (hp : p.degree ≤ (N : WithBot ℕ)) (hN : 1 ≤ N) {k : Nat} (hk : k ≤ N) :
    (derivative p).eval (X k) = ∑ j ∈ range (N + 1) with j ≠ k, bd X W k j * p.eval (X j) + bdd N X W k * p.eval (X k) := by
  rw [h.deriv1_node hp hN hk, bdd, neg_mul, sum_mul, ← sub_eq_add_neg, ← sum_sub_distrib, neg_div, sum_div, ← sum_neg_distrib]
  refine sum_congr rfl fun j _ => ?_
  unfold bd
  ring

/-- second derivative at a node -/
theorem Bary.deriv2_node (h : Bary N X W) {p : F[X]} (hp : p.degree ≤ (N : WithBot ℕ)) (hN : 1 ≤ N) {k : Nat} (hk : k ≤ N) :
    (derivative (derivative p)).eval (X k) =
      -2 * ∑ j ∈ range (N + 1) with j ≠ k, bd X W k j * (bdd N X W k - 1 / (X k - X j)) * (p.eval (X k) - p.eval (X j)) := by
  obtain ⟨M, rfl⟩ : ∃ M, N = M + 1 := ⟨N - 1, by omega⟩
  obtain ⟨q, hq, hpq⟩ := exists_quotient p hp (X k)
  have h0 := h.sum_zero (q := q) (lt_of_le_of_lt hq (by exact_mod_cast Nat.lt_succ_self M))
  have h1 := h.deriv1_matrix (p := q) (le_trans hq (by exact_mod_cast Nat.le_succ M)) hN hk
  rw [(quotient_deriv hpq).2, h1]
  rw [← sum_filter_add_sum_filter_not _ (fun j => j ≠ k)] at h0
  have e1 : ∑ j ∈ range (M + 1 + 1) with ¬ j ≠ k, W j * q.eval (X j) = W k * q.eval (X k) := by
    rw [sum_eq_single k]
    · intro b hb hbk; exact absurd hbk (mem_filter.1 hb).2
    · intro hb; exact absurd (mem_filter.2 ⟨mem_range.2 (by omega), by simp⟩) hb
  rw [e1] at h0
  have e2 : ∑ j ∈ range (M + 1 + 1) with j ≠ k, bd X W k j * (bdd (M + 1) X W k - 1 / (X k - X j)) * (p.eval (X k) - p.eval (X j)) =
      bdd (M + 1) X W k / W k * ∑ j ∈ range (M + 1 + 1) with j ≠ k, W j * q.eval (X j) -
        ∑ j ∈ range (M + 1 + 1) with j ≠ k, bd X W k j * q.eval (X j) := by
    rw [mul_sum, ← sum_sub_distrib]
    refine sum_congr rfl fun j hj => ?_
    obtain ⟨g1, g2⟩ := mem_filter.1 hj
    have hd := h.sub_ne_zero hk (by have := mem_range.1 g1; omega : j ≤ M + 1) (Ne.symm g2)
    have hv : p.eval (X k) - p.eval (X j) = (X k - X j) * q.eval (X j) := by
      have := quotient_eval hpq (X j)
      linear_combination -this
    rw [hv]
    have hwk := h.ne_zero hk
    unfold bd
    field_simp
  rw [e2]
  have hwk := h.ne_zero hk
  have e3 : ∑ j ∈ range (M + 1 + 1) with j ≠ k, W j * q.eval (X j) = -(W k * q.eval (X k)) := by linear_combination h0
  rw [e3]
  field_simp
  ring

/-- first derivative away from the nodes -/
theorem Bary.deriv1_away (h : Bary N X W) {p : F[X]} (hp : p.degree ≤ (N : WithBot ℕ)) (hN : 1 ≤ N) {x : F} (hx : ∀ j, j ≤ N → x ≠ X j) :
    (derivative p).eval x =
      (∑ j ∈ range (N + 1), W j / (x - X j) * (p.eval x - p.eval (X j)) / (x - X j)) / ∑ j ∈ range (N + 1), W j / (x - X j) := by
  obtain ⟨M, rfl⟩ : ∃ M, N = M + 1 := ⟨N - 1, by omega⟩
  obtain ⟨q, hq, hpq⟩ := exists_quotient p hp x
  rw [(quotient_deriv hpq).1, h.eval_quotient (le_trans hq (by exact_mod_cast Nat.le_succ M)) hx]
  congr 1
  refine sum_congr rfl fun j hj => ?_
  have hd : x - X j ≠ 0 := _root_.sub_ne_zero.2 (hx j (by have := mem_range.1 hj; omega))
  have := quotient_eval hpq (X j)
  rw [eq_div_iff hd]
  linear_combination (W j / (x - X j)) * this

/-- second derivative away from the nodes -/
theorem Bary.deriv2_away (h : Bary N X W) {p : F[X]} (hp : p.degree ≤ (N : WithBot ℕ)) (hN : 1 ≤ N) {x : F} (hx : ∀ j, j ≤ N → x ≠ X j) :
    (derivative (derivative p)).eval x =
      (∑ j ∈ range (N + 1), W j / (x - X j) * (2 / (x - X j)) * ((derivative p).eval x + (p.eval (X j) - p.eval x) / (x - X j))) /
        ∑ j ∈ range (N + 1), W j / (x - X j) := by
  obtain ⟨M, rfl⟩ : ∃ M, N = M + 1 := ⟨N - 1, by omega⟩
  obtain ⟨q, hq, hpq⟩ := exists_quotient p hp x
  rw [(quotient_deriv hpq).2, (quotient_deriv hpq).1, h.deriv1_away (p := q) (le_trans hq (by exact_mod_cast Nat.le_succ M)) hN hx,
    mul_div_assoc', mul_sum]
  congr 1
  refine sum_congr rfl fun j hj => ?_
  have hd : x - X j ≠ 0 := _root_.sub_ne_zero.2 (hx j (by have := mem_range.1 hj; omega))
  have hv : p.eval (X j) - p.eval x = -((x - X j) * q.eval (X j)) := by
    have := quotient_eval hpq (X j)
    linear_combination this
  rw [hv]
  field_simp
  ring

end Russell.Lab
