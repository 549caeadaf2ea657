import Verif.Lab.InterpChebyshev
import Mathlib.LinearAlgebra.Lagrange

/-!
# Discrete orthogonality of the cosines and the polynomial of a Chebyshev series (C87, C88)
-/

namespace Russell.Lab.Cheb

open Russell Russell.Res Polynomial Polynomial.Chebyshev

open Russell.Lab.InterpChebyshev (qFactor)

noncomputable section

theorem dirichlet (θ : ℝ) (n : Nat) :
    2 * Real.sin (θ / 2) * (1 / 2 + ∑ j ∈ Finset.range n, Real.cos ((j + 1 : ℝ) * θ)) = Real.sin ((n + 1 / 2 : ℝ) * θ) := by
  induction n with
  | zero => simp; ring_nf
  | succ n ih =>
    rw [Finset.sum_range_succ, ← add_assoc, mul_add, ih]
    have h := Real.sin_sub_sin (((n + 1 : ℝ) + 1 / 2) * θ) ((n + 1 / 2) * θ)
    rw [show (((n + 1 : ℝ) + 1 / 2) * θ - (n + 1 / 2) * θ) / 2 = θ / 2 by ring,
      show (((n + 1 : ℝ) + 1 / 2) * θ + (n + 1 / 2) * θ) / 2 = (n + 1) * θ by ring] at h
    push_cast
    linarith

/-- sum with half weights at both ends -/
theorem sum_ends (N : Nat) (hN : 1 ≤ N) (F : Nat → ℝ) :
    ∑ j ∈ Finset.range (N + 1), F j / qFactor N j = F 0 / 2 + ∑ j ∈ Finset.range (N - 1), F (j + 1) + F N / 2 := by
  obtain ⟨M, rfl⟩ : ∃ M, N = M + 1 := ⟨N - 1, by omega⟩
  rw [Finset.sum_range_succ, Finset.sum_range_succ', Nat.add_sub_cancel, add_comm (F 0 / 2)]
  congr 1
  · congr 1
    · refine Finset.sum_congr rfl fun j hj => ?_
      have := Finset.mem_range.1 hj
      rw [qFactor, if_neg (by omega), div_one]
  · rw [qFactor, if_pos (Or.inr rfl)]

theorem cosSum {N : Nat} (hN : 1 ≤ N) (r : ℤ) :
    ∑ j ∈ Finset.range (N + 1), Real.cos ((j : ℝ) * (Real.pi * r / N)) / qFactor N j =
      if (2 * N : ℤ) ∣ r then (N : ℝ) else 0 := by
  have hN' : (N : ℝ) ≠ 0 := by positivity
  rw [sum_ends N hN fun j => Real.cos ((j : ℝ) * (Real.pi * r / N))]
  split_ifs with h
  · obtain ⟨c, rfl⟩ := h
    have e : ∀ j : Nat, Real.cos ((j : ℝ) * (Real.pi * ((2 * N * c : ℤ) : ℝ) / N)) = 1 := by
      intro j
      rw [show (j : ℝ) * (Real.pi * ((2 * N * c : ℤ) : ℝ) / N) = ((j * c : ℤ) : ℝ) * (2 * Real.pi) by push_cast; field_simp]
      exact Real.cos_int_mul_two_pi _
    simp only [e]
    rw [Finset.sum_const, Finset.card_range, nsmul_eq_mul]
    push_cast [Nat.cast_sub hN]
    ring
  · set θ := Real.pi * r / N with hθ
    have hs : Real.sin (θ / 2) ≠ 0 := by
      intro h0
      rw [Real.sin_eq_zero_iff] at h0
      obtain ⟨n, hn⟩ := h0
      apply h
      refine ⟨n, ?_⟩
      have : (r : ℝ) = 2 * N * n := by
        rw [hθ] at hn
        field_simp at hn
        linarith
      exact_mod_cast this
    have d := dirichlet θ (N - 1)
    have hsn : Real.sin (N * θ) = 0 := by
      rw [hθ, show (N : ℝ) * (Real.pi * r / N) = r * Real.pi by field_simp]
      exact Real.sin_int_mul_pi r
    have h2 : Real.sin (((N - 1 : Nat) + 1 / 2 : ℝ) * θ) = -Real.cos (N * θ) * Real.sin (θ / 2) := by
      rw [show ((N - 1 : Nat) + 1 / 2 : ℝ) * θ = N * θ - θ / 2 by push_cast [Nat.cast_sub hN]; ring, Real.sin_sub, hsn]
      ring
    rw [h2] at d
    have h3 : 2 * Real.sin (θ / 2) * (1 / 2 + ∑ j ∈ Finset.range (N - 1), Real.cos ((j + 1 : ℝ) * θ) + Real.cos (N * θ) / 2) = 0 := by
      rw [mul_add, d]; ring
    have h4 := (mul_eq_zero.1 h3).resolve_left (by simpa using hs)
    refine Eq.trans ?_ h4
    push_cast
    simp

theorem ortho {N k m : Nat} (hN : 1 ≤ N) (hk : k ≤ N) (hm : m ≤ N) :
    ∑ j ∈ Finset.range (N + 1), Real.cos (Real.pi * j * k / N) * Real.cos ((j : ℝ) * (Real.pi * m / N)) / qFactor N j =
      if k = m then N / 2 * qFactor N k else 0 := by
  have e : ∀ j : Nat, Real.cos (Real.pi * j * k / N) * Real.cos ((j : ℝ) * (Real.pi * m / N)) / qFactor N j =
      1 / 2 * (Real.cos ((j : ℝ) * (Real.pi * ((k - m : ℤ) : ℝ) / N)) / qFactor N j +
        Real.cos ((j : ℝ) * (Real.pi * ((k + m : ℤ) : ℝ) / N)) / qFactor N j) := by
    intro j
    have h1 := Real.cos_add (Real.pi * j * k / N) ((j : ℝ) * (Real.pi * m / N))
    have h2 := Real.cos_sub (Real.pi * j * k / N) ((j : ℝ) * (Real.pi * m / N))
    rw [show (j : ℝ) * (Real.pi * ((k - m : ℤ) : ℝ) / N) = Real.pi * j * k / N - (j : ℝ) * (Real.pi * m / N) by push_cast; ring,
      show (j : ℝ) * (Real.pi * ((k + m : ℤ) : ℝ) / N) = Real.pi * j * k / N + (j : ℝ) * (Real.pi * m / N) by push_cast; ring,
      h1, h2]
    ring
  simp only [e]
  rw [← Finset.mul_sum, Finset.sum_add_distrib, cosSum hN, cosSum hN]
  have d1 : (2 * N : ℤ) ∣ (k - m : ℤ) ↔ k = m := by
    constructor
    · rintro ⟨c, hc⟩
      have : c = 0 := by
        by_contra h
        rcases lt_or_gt_of_ne h with h | h <;> nlinarith
      subst this; omega
    · rintro rfl; simp
  have d2 : (2 * N : ℤ) ∣ (k + m : ℤ) ↔ k = m ∧ (k = 0 ∨ k = N) := by
    constructor
    · rintro ⟨c, hc⟩
      have h0 : 0 ≤ c := by by_contra h; push Not at h; nlinarith
      have h1 : c ≤ 1 := by by_contra h; push Not at h; nlinarith
      obtain rfl | rfl : c = 0 ∨ c = 1 := by omega
      · omega
      · omega
    · rintro ⟨rfl, rfl | rfl⟩
      · simp
      · exact ⟨1, by ring⟩
  simp only [d1, d2]
  by_cases hkm : k = m
  · subst hkm
    unfold qFactor
    by_cases hq : k = 0 ∨ k = N
    · simp [hq]; ring
    · simp [hq]; ring
  · simp [hkm]

/-- the coefficient `j` of the data `uu` -/
def coef (uu : Nat → ℝ) (N j : Nat) : ℝ :=
  ∑ k ∈ Finset.range (N + 1), uu k * 2 * Real.cos (Real.pi * j * k / N) / (qFactor N j * qFactor N k * N)

theorem qFactor_ne (N j : Nat) : qFactor N j ≠ 0 := by unfold qFactor; split_ifs <;> norm_num

theorem coef_interp (uu : Nat → ℝ) {N m : Nat} (hN : 1 ≤ N) (hm : m ≤ N) :
    ∑ j ∈ Finset.range (N + 1), coef uu N j * Real.cos ((j : ℝ) * (Real.pi * m / N)) = uu m := by
  have hN' : (N : ℝ) ≠ 0 := by positivity
  unfold coef
  simp only [Finset.sum_mul]
  rw [Finset.sum_comm]
  have e : ∀ k ∈ Finset.range (N + 1), ∑ j ∈ Finset.range (N + 1), uu k * 2 * Real.cos (Real.pi * j * k / N) /
      (qFactor N j * qFactor N k * N) * Real.cos ((j : ℝ) * (Real.pi * m / N)) = if k = m then uu m else 0 := by
    intro k hk
    have h := ortho hN (by have := Finset.mem_range.1 hk; omega : k ≤ N) hm
    have e1 : ∀ j ∈ Finset.range (N + 1), uu k * 2 * Real.cos (Real.pi * j * k / N) /
        (qFactor N j * qFactor N k * N) * Real.cos ((j : ℝ) * (Real.pi * m / N)) =
        uu k * 2 / (qFactor N k * N) * (Real.cos (Real.pi * j * k / N) * Real.cos ((j : ℝ) * (Real.pi * m / N)) / qFactor N j) := by
      intro j _
      have := qFactor_ne N j; have := qFactor_ne N k
      field_simp
    rw [Finset.sum_congr rfl e1, ← Finset.mul_sum, h]
    split_ifs with hkm
    · subst hkm
      have := qFactor_ne N k
      field_simp
    · ring
  rw [Finset.sum_congr rfl e, Finset.sum_ite_eq' , if_pos (Finset.mem_range.2 (by omega))]

/-- the polynomial of a series, in the coordinate between -1 and 1 -/
def series (a : Nat → ℝ) (N : Nat) : ℝ[X] := ∑ j ∈ Finset.range (N + 1), C (a j) * T ℝ (j : ℤ)

theorem series_eval (a : Nat → ℝ) (N : Nat) (z : ℝ) :
    (series a N).eval z = ∑ j ∈ Finset.range (N + 1), a j * (T ℝ (j : ℤ)).eval z := by
  unfold series; rw [eval_finsetSum]; simp

theorem series_degree (a : Nat → ℝ) (N : Nat) : (series a N).natDegree ≤ N := by
  unfold series
  refine natDegree_sum_le_of_forall_le _ _ fun j hj => ?_
  refine (natDegree_C_mul_le _ _).trans ?_
  rw [natDegree_T]
  have := Finset.mem_range.1 hj
  simp; omega

theorem series_congr {a b : Nat → ℝ} {N : Nat} (h : ∀ j ≤ N, a j = b j) : series a N = series b N :=
  Finset.sum_congr rfl fun j hj => by rw [h j (by have := Finset.mem_range.1 hj; omega)]

theorem series_node (uu : Nat → ℝ) {N m : Nat} (hN : 1 ≤ N) (hm : m ≤ N) :
    (series (coef uu N) N).eval (Real.cos (Real.pi * m / N)) = uu m := by
  rw [series_eval, ← coef_interp uu hN hm]
  refine Finset.sum_congr rfl fun j _ => ?_
  rw [T_real_cos]; simp

theorem node_inj {N : Nat} (hN : 1 ≤ N) :
    Set.InjOn (fun m : Nat => Real.cos (Real.pi * m / N)) (Finset.range (N + 1) : Set Nat) := by
  have hN' : (0 : ℝ) < N := by positivity
  intro i hi j hj h
  have hi' : i ≤ N := by have := Finset.mem_range.1 hi; omega
  have hj' : j ≤ N := by have := Finset.mem_range.1 hj; omega
  have mem : ∀ i : Nat, i ≤ N → Real.pi * i / N ∈ Set.Icc 0 Real.pi := by
    intro i hi
    have : (i : ℝ) ≤ N := by exact_mod_cast hi
    have := Real.pi_pos
    refine ⟨by positivity, ?_⟩
    rw [div_le_iff₀ hN']
    nlinarith
  have := Real.injOn_cos (mem i hi') (mem j hj') h
  have hp := Real.pi_pos.ne'
  field_simp at this
  exact_mod_cast this

/-- a polynomial of degree `≤ N` is determined by the values at the nodes -/
theorem series_unique {uu : Nat → ℝ} {N : Nat} (hN : 1 ≤ N) {p : ℝ[X]} (hp : p.natDegree ≤ N)
    (h : ∀ m ≤ N, p.eval (Real.cos (Real.pi * m / N)) = uu m) : series (coef uu N) N = p := by
  refine Polynomial.eq_of_degrees_lt_of_eval_index_eq (Finset.range (N + 1)) (node_inj hN) ?_ ?_ ?_
  · rw [Finset.card_range]
    exact lt_of_le_of_lt degree_le_natDegree (by exact_mod_cast Nat.lt_succ_of_le (series_degree _ N))
  · rw [Finset.card_range]
    exact lt_of_le_of_lt degree_le_natDegree (by exact_mod_cast Nat.lt_succ_of_le hp)
  · intro m hm
    have := Finset.mem_range.1 hm
    rw [series_node uu hN (by omega), h m (by omega)]

/-- the coefficient of a series of degree `N` for `x^N` -/
theorem series_lead (a : Nat → ℝ) {N : Nat} (hN : 1 ≤ N) : (series a N).coeff N = a N * 2 ^ (N - 1) := by
  obtain ⟨M, rfl⟩ : ∃ M, N = M + 1 := ⟨N - 1, by omega⟩
  unfold series
  rw [finsetSum_coeff, Finset.sum_range_succ, Finset.sum_eq_zero, zero_add]
  · rw [coeff_C_mul]
    have := leadingCoeff_T (R := ℝ) ((M + 1 : Nat) : ℤ)
    rw [leadingCoeff, natDegree_T] at this
    simp only [Int.natAbs_natCast] at this
    rw [this]
  · intro j hj
    have := Finset.mem_range.1 hj
    rw [coeff_C_mul, coeff_eq_zero_of_natDegree_lt, mul_zero]
    rw [natDegree_T]; simp; omega

/-- the last coefficient of polynomial data of lower degree vanishes -/
theorem coef_last_zero {uu : Nat → ℝ} {N : Nat} (hN : 1 ≤ N) {p : ℝ[X]} (hp : p.natDegree < N)
    (h : ∀ m ≤ N, p.eval (Real.cos (Real.pi * m / N)) = uu m) : coef uu N N = 0 := by
  have e := series_unique hN hp.le h
  have l := series_lead (coef uu N) hN
  rw [e, coeff_eq_zero_of_natDegree_lt hp] at l
  exact (mul_eq_zero.1 l.symm).resolve_right (by positivity)

theorem clenshaw_spec (a : Nat → ℝ) (z : ℝ) : ∀ (n : Nat) (b b1 : ℝ),
    (InterpChebyshev.clenshaw a (z * 2) n b b1).1 * z - (InterpChebyshev.clenshaw a (z * 2) n b b1).2 + a 0 =
      (series a n).eval z + b * (T ℝ ((n + 1 : Nat) : ℤ)).eval z - b1 * (T ℝ (n : ℤ)).eval z
  | 0, b, b1 => by
    simp [InterpChebyshev.clenshaw, series_eval]; ring
  | n + 1, b, b1 => by
    rw [InterpChebyshev.clenshaw, clenshaw_spec a z n]
    have h := congrArg (Polynomial.eval z) (T_add_two ℝ (n : ℤ))
    simp only [eval_sub, eval_mul, eval_X, eval_ofNat] at h
    rw [series_eval, series_eval, Finset.sum_range_succ (n := n + 1)]
    rw [show ((n + 1 + 1 : Nat) : ℤ) = (n : ℤ) + 2 by push_cast; ring, h, show ((n + 1 : Nat) : ℤ) = (n : ℤ) + 1 by push_cast; ring]
    ring

end

end Russell.Lab.Cheb
