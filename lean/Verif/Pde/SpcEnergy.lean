import Verif.Pde.Spc2d
import Mathlib.Analysis.SpecialFunctions.Trigonometric.Chebyshev.Basic

/-!
# Solvability of the collocation equations with prescribed values (C93, C94)

The second derivative at the Chebyshev-Gauss-Lobatto nodes is negative definite, with respect to the weights of the nodes, on polynomials that vanish at the ends.
-/

namespace Russell.Pde

open Russell Res Russell.Sparse Polynomial

/-! ### The trapezoidal sum over the nodes -/

/-- twice the trapezoidal sum -/
noncomputable def trap (N : Nat) (f : Nat → ℝ) : ℝ := ∑ i ∈ Finset.range N, (f i + f (i + 1))

theorem trap_add (N : Nat) (f g : Nat → ℝ) : trap N (fun i => f i + g i) = trap N f + trap N g := by
  unfold trap
  rw [← Finset.sum_add_distrib]
  exact Finset.sum_congr rfl fun i _ => by ring

theorem trap_mul (N : Nat) (c : ℝ) (f : Nat → ℝ) : trap N (fun i => c * f i) = c * trap N f := by
  unfold trap
  rw [Finset.mul_sum]
  exact Finset.sum_congr rfl fun i _ => by ring

theorem trap_congr {N : Nat} {f g : Nat → ℝ} (h : ∀ i, i ≤ N → f i = g i) : trap N f = trap N g := by
  unfold trap
  refine Finset.sum_congr rfl fun i hi => ?_
  rw [Finset.mem_range] at hi
  rw [h i (by omega), h (i + 1) (by omega)]

theorem trap_nonneg {N : Nat} {f : Nat → ℝ} (h : ∀ i, i ≤ N → 0 ≤ f i) : 0 ≤ trap N f := by
  refine Finset.sum_nonneg fun i hi => ?_
  rw [Finset.mem_range] at hi
  exact add_nonneg (h i (by omega)) (h (i + 1) (by omega))

theorem trap_zero {N : Nat} {f : Nat → ℝ} (hN : 0 < N) (h : ∀ i, i ≤ N → 0 ≤ f i) (h0 : trap N f = 0) : ∀ i, i ≤ N → f i = 0 := by
  have := (Finset.sum_eq_zero_iff_of_nonneg (fun i hi => by
    rw [Finset.mem_range] at hi
    exact add_nonneg (h i (by omega)) (h (i + 1) (by omega)))).1 h0
  intro i hi
  by_cases hl : i < N
  · have e := this i (Finset.mem_range.2 hl)
    have h1 := h i hi
    have h2 := h (i + 1) (by omega)
    linarith
  · have e := this (N - 1) (Finset.mem_range.2 (by omega))
    rw [show N - 1 + 1 = i by omega] at e
    have h1 := h i hi
    have h2 := h (N - 1) (by omega)
    linarith

theorem trap_comm (N M : Nat) (f : Nat → Nat → ℝ) : trap N (fun i => trap M (f i)) = trap M (fun j => trap N (fun i => f i j)) := by
  unfold trap
  simp only [← Finset.sum_add_distrib]
  rw [Finset.sum_comm]
  exact Finset.sum_congr rfl fun i _ => Finset.sum_congr rfl fun j _ => by ring

/-! ### Exactness -/

/-- the sum of a Chebyshev polynomial is zero -/
theorem trap_T {N k : Nat} (hk : 1 ≤ k) (hk2 : k < 2 * N) : trap N (fun i => (Chebyshev.T ℝ k).eval (cgl (N + 1) i)) = 0 := by
  have hN : (0 : ℝ) < N := by exact_mod_cast (by omega : 0 < N)
  have hang : ∀ i : Nat, cgl (N + 1) i = Real.cos (Real.pi - i * Real.pi / N) := by
    intro i
    unfold cgl
    rw [Real.cos_pi_sub, Nat.add_sub_cancel]
  have hc : ∀ i : Nat, (Chebyshev.T ℝ k).eval (cgl (N + 1) i) = Real.cos (k * (Real.pi - i * Real.pi / N)) := by
    intro i
    rw [hang, Chebyshev.T_real_cos]
    norm_cast
  unfold trap
  simp only [hc]
  set h : ℝ := k * (Real.pi / (2 * N)) with hh
  have hs : 0 < Real.sin h := by
    apply Real.sin_pos_of_pos_of_lt_pi
    · have : (0 : ℝ) < k := by exact_mod_cast hk
      positivity
    · have : (k : ℝ) < 2 * N := by exact_mod_cast hk2
      rw [hh, ← mul_div_assoc, div_lt_iff₀ (by positivity)]
      nlinarith [Real.pi_pos]
  have step : ∀ i : Nat, Real.sin h * (Real.cos (k * (Real.pi - i * Real.pi / N)) + Real.cos (k * (Real.pi - (i + 1 : Nat) * Real.pi / N))) =
      Real.cos h * (Real.sin (k * (Real.pi - i * Real.pi / N)) - Real.sin (k * (Real.pi - (i + 1 : Nat) * Real.pi / N))) := by
    intro i
    obtain ⟨m, e1, e2⟩ : ∃ m : ℝ, (k : ℝ) * (Real.pi - i * Real.pi / N) = m + h ∧ (k : ℝ) * (Real.pi - (i + 1 : Nat) * Real.pi / N) = m - h := by
      refine ⟨k * (Real.pi - i * Real.pi / N) - h, by ring, ?_⟩
      rw [hh]; push_cast; field_simp; ring
    rw [e1, e2, Real.cos_add, Real.cos_sub, Real.sin_add, Real.sin_sub]
    ring
  have tot : Real.sin h * ∑ i ∈ Finset.range N, (Real.cos (k * (Real.pi - i * Real.pi / N)) + Real.cos (k * (Real.pi - (i + 1 : Nat) * Real.pi / N))) = 0 := by
    rw [Finset.mul_sum, Finset.sum_congr rfl fun i _ => step i, ← Finset.mul_sum, Finset.sum_range_sub' (fun i : Nat => Real.sin (k * (Real.pi - i * Real.pi / N)))]
    have e1 : Real.sin (k * (Real.pi - ((0 : Nat) : ℝ) * Real.pi / N)) = 0 := by
      rw [Nat.cast_zero, zero_mul, zero_div, sub_zero]
      exact Real.sin_nat_mul_pi k
    have e2 : (Real.pi - (N : ℝ) * Real.pi / N) = 0 := by field_simp; ring
    rw [e1, e2]; simp
  exact (mul_eq_zero.1 tot).resolve_left hs.ne'

/-- "derivatives with respect to the angle" sum to zero -/
theorem trap_total {N : Nat} (n : Nat) (hn : n + 1 ≤ 2 * N) {r : ℝ[X]} (hr : r.degree < n) :
    trap N (fun i => (Polynomial.X * r - (1 - Polynomial.X ^ 2) * r.derivative).eval (cgl (N + 1) i)) = 0 := by
  induction n generalizing r with
  | zero =>
    have : r = 0 := by
      rw [← Polynomial.degree_eq_bot]
      exact Nat.WithBot.lt_zero_iff.1 (by exact_mod_cast hr)
    rw [this]
    simp [trap]
  | succ n ih =>
    have hU : (Chebyshev.U ℝ n).coeff n = 2 ^ n := by
      have := Chebyshev.leadingCoeff_U_natCast ℝ n
      rwa [Polynomial.leadingCoeff, Chebyshev.natDegree_U_natCast] at this
    have hd : (r - C (r.coeff n / 2 ^ n) * Chebyshev.U ℝ n).degree < n := by
      rw [Polynomial.degree_lt_iff_coeff_zero] at hr ⊢
      intro m hm
      rw [Polynomial.coeff_sub, Polynomial.coeff_C_mul]
      by_cases he : m = n
      · subst he
        rw [hU]
        field_simp
        ring
      · rw [hr m (by omega), Polynomial.coeff_eq_zero_of_natDegree_lt (p := Chebyshev.U ℝ n) (by rw [Chebyshev.natDegree_U_natCast]; omega)]
        ring
    have h1 := ih (by omega) hd
    have h2 : trap N (fun i => (r.coeff n / 2 ^ n) * ((n + 1) * (Chebyshev.T ℝ ((n + 1 : Nat) : ℤ)).eval (cgl (N + 1) i))) = 0 := by
      rw [trap_mul, trap_mul, trap_T (by omega) (by omega)]
      ring
    have hT := Chebyshev.add_one_mul_T_eq_poly_in_U (R := ℝ) (n : ℤ)
    have h3 : ∀ A B C : ℝ, A = B + C → B = 0 → C = 0 → A = 0 := by intro A B C h1 h2 h3; linarith
    refine h3 _ _ _ ?_ h1 h2
    rw [← trap_add]
    refine trap_congr fun i _ => ?_
    have e := congrArg (Polynomial.eval (cgl (N + 1) i)) hT
    simp only [Polynomial.eval_mul, Polynomial.eval_add, Polynomial.eval_sub, Polynomial.eval_pow, Polynomial.eval_X, Polynomial.eval_one, Int.cast_natCast,
      Polynomial.eval_natCast] at e
    simp only [Polynomial.eval_mul, Polynomial.eval_add, Polynomial.eval_sub, Polynomial.eval_pow, Polynomial.eval_X, Polynomial.eval_one, Polynomial.derivative_sub,
      Polynomial.derivative_C_mul, Polynomial.eval_C]
    push_cast
    rw [e]
    ring

/-! ### Definiteness -/

theorem cglNode_ref (nx i : Nat) : cglNode (-1) 1 nx i = cgl nx i := by
  rw [cglNode_eq]; ring

/-- the second derivative is negative definite on the reference interval -/
theorem second_neg {N : Nat} (hN : 1 ≤ N) {p : ℝ[X]} (hp : p.degree < (N + 1 : Nat)) (hm : p.eval (-1) = 0) (h1 : p.eval 1 = 0) :
    trap N (fun i => p.derivative.derivative.eval (cgl (N + 1) i) * p.eval (cgl (N + 1) i)) ≤ 0 ∧
    (trap N (fun i => p.derivative.derivative.eval (cgl (N + 1) i) * p.eval (cgl (N + 1) i)) = 0 → p = 0) := by
  by_cases hp0 : p = 0
  · subst hp0
    simp [trap]
  obtain ⟨p1, e1⟩ := Polynomial.dvd_iff_isRoot.2 (show p.IsRoot 1 from h1)
  have hm1 : p1.eval (-1) = 0 := by
    have := hm
    rw [e1, Polynomial.eval_mul] at this
    simp at this
    rcases this with h | h
    · norm_num at h
    · exact h
  obtain ⟨p2, e2⟩ := Polynomial.dvd_iff_isRoot.2 (show p1.IsRoot (-1) from hm1)
  have hpq : p = (1 - Polynomial.X ^ 2) * (-p2) := by
    rw [e1, e2]
    simp only [map_neg, map_one]
    ring
  generalize -p2 = q at hpq
  have hq0 : q ≠ 0 := fun h => hp0 (by rw [hpq, h, mul_zero])
  have hdeg : q.natDegree + 2 ≤ N := by
    have hs : (1 - Polynomial.X ^ 2 : ℝ[X]).natDegree = 2 := by compute_degree!
    have hs0 : (1 - Polynomial.X ^ 2 : ℝ[X]) ≠ 0 := fun h => by rw [h] at hs; simp at hs
    have := Polynomial.natDegree_mul hs0 hq0
    rw [← hpq, hs] at this
    have := (Polynomial.natDegree_lt_iff_degree_lt hp0).2 hp
    omega
  have hpd : p.derivative.natDegree ≤ N - 1 := by
    have := (Polynomial.natDegree_lt_iff_degree_lt hp0).2 hp
    have := Polynomial.natDegree_derivative_le p
    omega
  have hr : (q * p.derivative + C (1 / 2) * (Polynomial.X * q ^ 2)).degree < ((2 * N - 2 : Nat) : WithBot ℕ) := by
    refine lt_of_le_of_lt Polynomial.degree_le_natDegree ?_
    have hle : (q * p.derivative + C (1 / 2) * (Polynomial.X * q ^ 2)).natDegree ≤ 2 * N - 3 := by
      refine (Polynomial.natDegree_add_le _ _).trans (max_le ?_ ?_)
      · refine Polynomial.natDegree_mul_le.trans ?_
        omega
      · refine (Polynomial.natDegree_C_mul_le _ _).trans ?_
        refine Polynomial.natDegree_mul_le.trans ?_
        have := Polynomial.natDegree_pow_le (p := q) (n := 2)
        have := Polynomial.natDegree_X_le (R := ℝ)
        omega
    exact_mod_cast (by omega : (q * p.derivative + C (1 / 2) * (Polynomial.X * q ^ 2)).natDegree < 2 * N - 2)
  have htot := trap_total (N := N) (2 * N - 2) (by omega) hr
  have key : trap N (fun i => p.derivative.derivative.eval (cgl (N + 1) i) * p.eval (cgl (N + 1) i)) +
      (trap N (fun i => ((Polynomial.X * q - (1 - Polynomial.X ^ 2) * q.derivative).eval (cgl (N + 1) i)) ^ 2) + 1 / 2 * trap N (fun i => (q.eval (cgl (N + 1) i)) ^ 2)) = 0 := by
    have hz : trap N (fun _ => 0) = 0 := by simp [trap]
    rw [← trap_mul, ← trap_add, ← trap_add]
    have h2 : ∀ A B : ℝ, A + B = 0 → B = 0 → A = 0 := by intro A B h1 h2; linarith
    refine h2 _ _ ?_ htot
    rw [← trap_add, ← hz]
    refine trap_congr fun i _ => ?_
    generalize cgl (N + 1) i = x
    rw [hpq]
    simp only [Polynomial.eval_mul, Polynomial.eval_add, Polynomial.eval_sub, Polynomial.eval_pow, Polynomial.eval_X, Polynomial.eval_one, Polynomial.derivative_sub,
      Polynomial.derivative_C_mul, Polynomial.eval_C, Polynomial.derivative_mul, Polynomial.derivative_add, Polynomial.derivative_X, Polynomial.derivative_one,
      Polynomial.derivative_X_pow, Polynomial.derivative_pow, Polynomial.eval_natCast, Polynomial.eval_zero, Polynomial.derivative_C, Polynomial.derivative_natCast, map_natCast]
    norm_num
    ring
  have g1 : 0 ≤ trap N (fun i => ((Polynomial.X * q - (1 - Polynomial.X ^ 2) * q.derivative).eval (cgl (N + 1) i)) ^ 2) := trap_nonneg fun i _ => sq_nonneg _
  have g2 : 0 ≤ trap N (fun i => (q.eval (cgl (N + 1) i)) ^ 2) := trap_nonneg fun i _ => sq_nonneg _
  refine ⟨by linarith, ?_⟩
  intro h0
  exfalso
  have hz := trap_zero (N := N) (f := fun i => q.eval (cgl (N + 1) i) ^ 2) (by omega) (fun i _ => sq_nonneg (q.eval (cgl (N + 1) i))) (by linarith)
  refine hq0 (poly_zero_of_nodes (a := -1) (b := 1) (nx := N + 1) (by norm_num) (by omega) ?_ ?_)
  · refine lt_of_le_of_lt Polynomial.degree_le_natDegree ?_
    exact_mod_cast (by omega : q.natDegree < N + 1)
  · intro i hi
    rw [cglNode_ref]
    simpa using hz i (by omega)

/-- the second derivative is negative definite -/
theorem second_neg' {a b : ℝ} {nx : Nat} (hab : a ≠ b) (hx : 2 ≤ nx) {p : ℝ[X]} (hp : p.degree < nx) (ha : p.eval a = 0) (hb : p.eval b = 0) :
    trap (nx - 1) (fun i => p.derivative.derivative.eval (cglNode a b nx i) * p.eval (cglNode a b nx i)) ≤ 0 ∧
    (trap (nx - 1) (fun i => p.derivative.derivative.eval (cglNode a b nx i) * p.eval (cglNode a b nx i)) = 0 → p = 0) := by
  obtain ⟨N, rfl⟩ : ∃ N, nx = N + 1 := ⟨nx - 1, by omega⟩
  rw [Nat.add_sub_cancel]
  have hd : (b - a) / 2 ≠ 0 := div_ne_zero (sub_ne_zero.2 (Ne.symm hab)) two_ne_zero
  obtain ⟨h1, h2⟩ := second_neg (N := N) (p := pull a b p) (by omega) (pull_degree (by omega) hp) (by
    rw [pull_eval, show (b + a + (b - a) * -1) / 2 = a by ring, ha]) (by
    rw [pull_eval, show (b + a + (b - a) * 1) / 2 = b by ring, hb])
  have e : trap N (fun i => (pull a b p).derivative.derivative.eval (cgl (N + 1) i) * (pull a b p).eval (cgl (N + 1) i)) =
      ((b - a) / 2) ^ 2 * trap N (fun i => p.derivative.derivative.eval (cglNode a b (N + 1) i) * p.eval (cglNode a b (N + 1) i)) := by
    rw [← trap_mul]
    refine trap_congr fun i _ => ?_
    rw [pull_derivative, Polynomial.derivative_C_mul, pull_derivative, Polynomial.eval_mul, Polynomial.eval_mul, Polynomial.eval_C, pull_eval, pull_eval, cglNode_eq]
    ring
  rw [e] at h1 h2
  have hpos : 0 < ((b - a) / 2) ^ 2 := by positivity
  refine ⟨?_, ?_⟩
  · by_contra hh
    have := mul_pos hpos (not_le.1 hh)
    linarith
  · intro h0
    have hz := h2 (by rw [h0, mul_zero])
    refine poly_zero_of_nodes hab hx hp ?_
    intro i hi
    rw [cglNode_eq, ← pull_eval, hz, Polynomial.eval_zero]

/-! ### One dimension -/

/-- **C93** Values prescribed on both ends, `k > 0`, `α ≥ 0`: the collocation equations have one polynomial solution, and both strategies return its nodal values if
the linear solver finds a solution whenever there is one (the partitioned strategy needs an unknown node). -/
theorem C93_dirichlet {a b : ℝ} {nx : Nat} {eops : List (EOp1 ℝ)} {nops : List (Side × (ℝ → ℝ))} {kx : ℝ} {S : Spc1d}
    (H : SpcSetup1 a b nx eops nops kx S) (hab : a ≠ b) (hk : 0 < kx) (hval : S.ebcs.validate S.nbcs = ok ())
    (hE0 : Ess1 eops .Xmin) (hE1 : Ess1 eops .Xmax) {alpha : ℝ} (hal : 0 ≤ alpha) (source : ℝ → ℝ) :
    ∃ f0 f1 g0 g1, S.ebcs.functions = [f0, f1] ∧ S.nbcs.functions = [g0, g1] ∧
      (∃! p : ℝ[X], p.degree < nx ∧ SpcColl1 a b nx kx alpha source (Ess1 eops .Xmin) (Ess1 eops .Xmax) f0 f1 g0 g1 p) ∧
      ∀ p : ℝ[X], p.degree < nx → SpcColl1 a b nx kx alpha source (Ess1 eops .Xmin) (Ess1 eops .Xmax) f0 f1 g0 g1 p →
      ∀ solver, Solves solver → Complete solver →
        S.solveLmm solver alpha source = ok ((List.range nx).map fun m => p.eval (cglNode a b nx m)) ∧
        (S.equations.nu ≠ 0 → S.solveSps solver alpha source = ok ((List.range nx).map fun m => p.eval (cglNode a b nx m))) := by
  obtain ⟨s0, s1, t0, t1, f0, f1, g0, g1, P, d1, d2, I, _, h0, h1, _, _⟩ := spc_setup1_is H
  have hx := I.hx
  have hx2 := I.hx2
  obtain ⟨v0, v1⟩ := (validate1 I).1 hval
  have unique : ∀ {f0 f1 g0 g1 source : ℝ → ℝ} {p q : ℝ[X]}, p.degree < nx → q.degree < nx →
      SpcColl1 a b nx kx alpha source (Ess1 eops .Xmin) (Ess1 eops .Xmax) f0 f1 g0 g1 p →
      SpcColl1 a b nx kx alpha source (Ess1 eops .Xmin) (Ess1 eops .Xmax) f0 f1 g0 g1 q → p = q := by
    intro f0 f1 g0 g1 source p q hp hq cp cq
    obtain ⟨p1, p2, p3, p4, p5⟩ := cp
    obtain ⟨q1, q2, q3, q4, q5⟩ := cq
    have he : (p - q).degree < nx := lt_of_le_of_lt (Polynomial.degree_sub_le p q) (max_lt hp hq)
    have ea : (p - q).eval a = 0 := by rw [Polynomial.eval_sub, p2 hE0, q2 hE0, sub_self]
    have eb : (p - q).eval b = 0 := by rw [Polynomial.eval_sub, p4 hE1, q4 hE1, sub_self]
    obtain ⟨n1, n2⟩ := second_neg' hab hx he ea eb
    have hz : kx * trap (nx - 1) (fun i => (p - q).derivative.derivative.eval (cglNode a b nx i) * (p - q).eval (cglNode a b nx i)) =
        alpha * trap (nx - 1) (fun i => (p - q).eval (cglNode a b nx i) ^ 2) := by
      rw [← trap_mul, ← trap_mul]
      refine trap_congr fun i hi => ?_
      by_cases hi0 : i = 0
      · rw [hi0, cglNode_zero, ea]; ring
      by_cases hi1 : i = nx - 1
      · rw [hi1, cglNode_last a b hx, eb]; ring
      have r1 := p1 i (by omega) (by omega)
      have r2 := q1 i (by omega) (by omega)
      rw [← r2] at r1
      simp only [Polynomial.derivative_sub, Polynomial.eval_sub]
      linear_combination (-(p.eval (cglNode a b nx i) - q.eval (cglNode a b nx i))) * r1
    have hnn : 0 ≤ alpha * trap (nx - 1) (fun i => (p - q).eval (cglNode a b nx i) ^ 2) := mul_nonneg hal (trap_nonneg fun i _ => sq_nonneg _)
    refine sub_eq_zero.1 (n2 ?_)
    have : 0 ≤ trap (nx - 1) (fun i => (p - q).derivative.derivative.eval (cglNode a b nx i) * (p - q).eval (cglNode a b nx i)) := by
      by_contra hh
      have := mul_neg_of_pos_of_neg hk (not_le.1 hh)
      linarith
    linarith
  refine ⟨f0, f1, g0, g1, I.funs, I.nat, ?_, ?_⟩
  · obtain ⟨W, hW⟩ := isColl_exists (V := spcV1 a b nx t0 t1 kx alpha d1 d2) (spc1_P I) (by
      intro W hW m hm
      obtain ⟨p, hp, hpW⟩ := cgl_interp hab hx W
      have hc := (spc1_coll I hab v0 v1 alpha (fun _ => 0) (fun _ => 0) (fun _ => 0) (fun _ => 0) (fun _ => 0) hp).1 (by
        rw [isColl_congr_W (spc1_P I) hpW]
        refine (IsColl.congr (spc1_P I) ?_ ?_).1 hW
        · intro m _ _; unfold collR; simp
        · intro m _; unfold collD; simp)
      rw [h0, h1] at hc
      have := unique hp (by rw [Polynomial.degree_zero]; exact WithBot.bot_lt_coe _) hc coll1_zero
      rw [← hpW m hm, this]; simp) (collR a b nx g0 g1 source) (collD a b nx f0 f1)
    obtain ⟨p, hp, hpW⟩ := cgl_interp hab hx W
    have hc := (spc1_coll I hab v0 v1 alpha f0 f1 g0 g1 source hp).1 ((isColl_congr_W (spc1_P I) (fun m hm => (hpW m hm).symm)).1 hW)
    rw [h0, h1] at hc
    exact ⟨p, ⟨hp, hc⟩, fun q hq => unique hq.1 hp hq.2 hc⟩
  · intro p hp hc solver hsol hcomp
    have hlist : ∀ r, (S.solveSps solver alpha source = ok r ∨ S.solveLmm solver alpha source = ok r) → r = (List.range nx).map fun m => p.eval (cglNode a b nx m) := by
      intro r hr
      obtain ⟨f0', f1', g0', g1', ef, eg, q, hq, hl, hg, hcq⟩ := C93_solve H hab hsol hr
      rw [I.funs] at ef
      rw [I.nat] at eg
      cases ef
      cases eg
      have := unique hq hp hcq hc
      subst this
      apply List.ext_getElem?
      intro m
      by_cases hm : m < nx
      · rw [hg m hm]; simp [hm]
      · rw [List.getElem?_eq_none (by omega)]; simp; omega
    obtain ⟨⟨r, hr⟩, hr2⟩ := C93_complete H hab hval I.funs I.nat hp hc hsol hcomp
    refine ⟨by rw [hr, hlist r (Or.inr hr)], ?_⟩
    intro hu
    have hpp : S.equations.np ≠ 0 := by
      rw [I.canon.lists.2.2.2, Ne, (spc1_pp I).1]
      rintro ⟨e0, e1⟩
      rw [← h0, e0] at hE0
      simp at hE0
    obtain ⟨r, hr⟩ := hr2 hu hpp
    rw [hr, hlist r (Or.inl hr)]

/-! ### Two dimensions -/

section Two

variable {a b c d : ℝ} {nx ny : Nat} {kx ky alpha : ℝ}

theorem SpcColl2.sub {source : ℝ → ℝ → ℝ} {E : Side → Prop} {ess nat : Side → ℝ → ℝ → ℝ} {u v : ℝ → ℝ → ℝ} (hu : BiPoly nx ny u) (hv : BiPoly nx ny v)
    (cu : SpcColl2 a b c d nx ny kx ky alpha source E ess nat u) (cv : SpcColl2 a b c d nx ny kx ky alpha source E ess nat v) :
    SpcColl2 a b c d nx ny kx ky alpha (fun _ _ => 0) E (fun _ _ _ => 0) (fun _ _ _ => 0) (fun x y => u x y - v x y) := by
  have hx1 : ∀ x y, ux (fun x y => u x y - v x y) x y = ux u x y - ux v x y ∧ uxx (fun x y => u x y - v x y) x y = uxx u x y - uxx v x y := by
    intro x y
    obtain ⟨p, _, ep⟩ := hu.x y
    obtain ⟨q, _, eq⟩ := hv.x y
    have e : ∀ x, (fun x y => u x y - v x y) x y = (p - q).eval x := fun x => by dsimp only; rw [ep, eq, Polynomial.eval_sub]
    rw [ux_poly e, uxx_poly e, ux_poly ep, ux_poly eq, uxx_poly ep, uxx_poly eq]
    simp
  have hy1 : ∀ x y, uy (fun x y => u x y - v x y) x y = uy u x y - uy v x y ∧ uyy (fun x y => u x y - v x y) x y = uyy u x y - uyy v x y := by
    intro x y
    obtain ⟨p, _, ep⟩ := hu.y x
    obtain ⟨q, _, eq⟩ := hv.y x
    have e : ∀ y, (fun x y => u x y - v x y) x y = (p - q).eval y := fun y => by dsimp only; rw [ep, eq, Polynomial.eval_sub]
    rw [uy_poly e, uyy_poly e, uy_poly ep, uy_poly eq, uyy_poly ep, uyy_poly eq]
    simp
  obtain ⟨u1, u2, u3⟩ := cu
  obtain ⟨v1, v2, v3⟩ := cv
  refine ⟨?_, ?_, ?_⟩
  · intro i j h1 h2 h3 h4
    have e1 := u1 i j h1 h2 h3 h4
    have e2 := v1 i j h1 h2 h3 h4
    dsimp only at e1 e2 ⊢
    rw [(hx1 _ _).2, (hy1 _ _).2]
    linear_combination e1 - e2
  · intro i j hi hj s hs ho hl
    have e1 := u2 i j hi hj s hs ho hl
    have e2 := v2 i j hi hj s hs ho hl
    dsimp only at e1 e2 ⊢
    rw [e1, e2, sub_self]
  · intro i j hi hj hb hn
    have e1 := u3 i j hi hj hb hn
    have e2 := v3 i j hi hj hb hn
    dsimp only at e1 e2 ⊢
    have hf : (fun s => flow2 kx ky (fun x y => u x y - v x y) (cglNode a b nx i) (cglNode c d ny j) s) =
        fun s => flow2 kx ky u (cglNode a b nx i) (cglNode c d ny j) s + -1 * flow2 kx ky v (cglNode a b nx i) (cglNode c d ny j) s := by
      funext s
      cases s <;> simp only [flow2, (hx1 _ _).1, (hy1 _ _).1] <;> ring
    have hm : ∀ f : Side → ℝ, sumOn nx ny i j (fun s => -1 * f s) = -1 * sumOn nx ny i j f := by
      intro f
      unfold sumOn
      split_ifs <;> ring
    rw [hf, ← sumOn_add, hm, e1, e2]
    simp [sumOn]

/-- values prescribed on the whole boundary: the homogeneous equations have only the zero solution -/
theorem coll2_zero (hab : a ≠ b) (hcd : c ≠ d) (hx : 2 ≤ nx) (hy : 2 ≤ ny) (hkx : 0 < kx) (hky : 0 < ky) (hal : 0 ≤ alpha) {E : Side → Prop} (hE : ∀ s, E s)
    {nat : Side → ℝ → ℝ → ℝ} {u : ℝ → ℝ → ℝ} (hu : BiPoly nx ny u) (cu : SpcColl2 a b c d nx ny kx ky alpha (fun _ _ => 0) E (fun _ _ _ => 0) nat u) :
    ∀ x y, u x y = 0 := by
  have hz : ∀ i j, i < nx → j < ny → (i = 0 ∨ i = nx - 1 ∨ j = 0 ∨ j = ny - 1) → u (cglNode a b nx i) (cglNode c d ny j) = 0 := by
    intro i j hi hj hb
    obtain ⟨s, hs, ho, hl⟩ := last_side (S := fun _ => true) (nx := nx) (ny := ny) (i := i) (j := j) (by
      obtain ⟨s, hs⟩ := exists_on.2 hb
      exact ⟨s, rfl, hs⟩)
    exact cu.value i j hi hj s (hE s) ho (fun t _ ht => hl t rfl ht)
  have hza : ∀ j, j < ny → u a (cglNode c d ny j) = 0 ∧ u b (cglNode c d ny j) = 0 := by
    intro j hj
    have e1 := hz 0 j (by omega) hj (by omega)
    have e2 := hz (nx - 1) j (by omega) hj (by omega)
    rw [cglNode_zero] at e1
    rw [cglNode_last a b hx] at e2
    exact ⟨e1, e2⟩
  have hzc : ∀ i, i < nx → u (cglNode a b nx i) c = 0 ∧ u (cglNode a b nx i) d = 0 := by
    intro i hi
    have e1 := hz i 0 hi (by omega) (by omega)
    have e2 := hz i (ny - 1) hi (by omega) (by omega)
    rw [cglNode_zero] at e1
    rw [cglNode_last c d hy] at e2
    exact ⟨e1, e2⟩
  -- the two parts of the energy
  have ex : ∀ j, j < ny → trap (nx - 1) (fun i => uxx u (cglNode a b nx i) (cglNode c d ny j) * u (cglNode a b nx i) (cglNode c d ny j)) ≤ 0 ∧
      (trap (nx - 1) (fun i => uxx u (cglNode a b nx i) (cglNode c d ny j) * u (cglNode a b nx i) (cglNode c d ny j)) = 0 → ∀ x, u x (cglNode c d ny j) = 0) := by
    intro j hj
    obtain ⟨p, hp, ep⟩ := hu.x (cglNode c d ny j)
    obtain ⟨n1, n2⟩ := second_neg' hab hx hp (by rw [← ep]; exact (hza j hj).1) (by rw [← ep]; exact (hza j hj).2)
    simp only [uxx_poly ep, ep]
    exact ⟨n1, fun h x => by rw [n2 h]; simp⟩
  have ey : ∀ i, i < nx → trap (ny - 1) (fun j => uyy u (cglNode a b nx i) (cglNode c d ny j) * u (cglNode a b nx i) (cglNode c d ny j)) ≤ 0 := by
    intro i hi
    obtain ⟨p, hp, ep⟩ := hu.y (cglNode a b nx i)
    obtain ⟨n1, n2⟩ := second_neg' hcd hy hp (by rw [← ep]; exact (hzc i hi).1) (by rw [← ep]; exact (hzc i hi).2)
    simp only [uyy_poly ep, ep]
    exact n1
  have tot : trap (ny - 1) (fun j => trap (nx - 1) (fun i => kx * (uxx u (cglNode a b nx i) (cglNode c d ny j) * u (cglNode a b nx i) (cglNode c d ny j)) +
      (ky * (uyy u (cglNode a b nx i) (cglNode c d ny j) * u (cglNode a b nx i) (cglNode c d ny j)) + -alpha * u (cglNode a b nx i) (cglNode c d ny j) ^ 2))) = 0 := by
    rw [show (0 : ℝ) = trap (ny - 1) (fun _ => trap (nx - 1) fun _ => 0) by simp [trap]]
    refine trap_congr fun j hj => trap_congr fun i hi => ?_
    by_cases hb : i = 0 ∨ i = nx - 1 ∨ j = 0 ∨ j = ny - 1
    · rw [hz i j (by omega) (by omega) hb]; ring
    · have := cu.inner i j (by omega) (by omega) (by omega) (by omega)
      dsimp only at this
      linear_combination (-(u (cglNode a b nx i) (cglNode c d ny j))) * this
  simp only [trap_add, trap_mul] at tot
  rw [trap_comm (ny - 1) (nx - 1) (fun j i => uyy u (cglNode a b nx i) (cglNode c d ny j) * u (cglNode a b nx i) (cglNode c d ny j))] at tot
  have g1 : ∀ j, j ≤ ny - 1 → 0 ≤ -1 * trap (nx - 1) (fun i => uxx u (cglNode a b nx i) (cglNode c d ny j) * u (cglNode a b nx i) (cglNode c d ny j)) := by
    intro j hj
    have := (ex j (by omega)).1
    linarith
  have g1' := trap_nonneg g1
  have g2 : 0 ≤ trap (nx - 1) (fun i => -1 * trap (ny - 1) (fun j => uyy u (cglNode a b nx i) (cglNode c d ny j) * u (cglNode a b nx i) (cglNode c d ny j))) := by
    refine trap_nonneg fun i hi => ?_
    have := ey i (by omega)
    linarith
  have g3 : 0 ≤ trap (ny - 1) (fun j => trap (nx - 1) (fun i => u (cglNode a b nx i) (cglNode c d ny j) ^ 2)) := trap_nonneg fun j _ => trap_nonneg fun i _ => sq_nonneg _
  rw [trap_mul] at g1' g2
  have hsum : trap (ny - 1) (fun j => -1 * trap (nx - 1) (fun i => uxx u (cglNode a b nx i) (cglNode c d ny j) * u (cglNode a b nx i) (cglNode c d ny j))) = 0 := by
    rw [trap_mul]
    have h2 := mul_nonneg hky.le g2
    have h3 := mul_nonneg hal g3
    have h1 : kx * (-1 * trap (ny - 1) (fun j => trap (nx - 1) (fun i => uxx u (cglNode a b nx i) (cglNode c d ny j) * u (cglNode a b nx i) (cglNode c d ny j)))) ≤ 0 := by
      nlinarith
    have h1' := mul_nonneg hkx.le g1'
    have := le_antisymm h1 h1'
    exact (mul_eq_zero.1 this).resolve_left hkx.ne'
  have hall := trap_zero (by omega) g1 hsum
  refine biPoly_zero hab hcd hx hy hu ?_
  intro i j hi hj
  refine (ex j hj).2 ?_ _
  have := hall j (by omega)
  linarith

variable {eops : List (EOp ℝ)} {nops : List (Side × (ℝ → ℝ → ℝ))} {S : Spc2d}

/-- **C94** Values prescribed on all sides, `kx > 0`, `ky > 0`, `α ≥ 0`: the collocation equations have one polynomial solution, and both strategies return its nodal values if
the linear solver finds a solution whenever there is one (the partitioned strategy needs an unknown node). -/
theorem C94_dirichlet (H : SpcSetup2 a b c d nx ny eops nops kx ky S) (hab : a ≠ b) (hcd : c ≠ d) (hkx : 0 < kx) (hky : 0 < ky) (hal : 0 ≤ alpha)
    (hval : S.ebcs.validate S.nbcs = ok ()) (hE : ∀ s, Ess eops s) (source : ℝ → ℝ → ℝ) :
    ∃ ess nat : Side → ℝ → ℝ → ℝ, (∀ s, vget S.ebcs.functions s.index = ok (ess s)) ∧ (∀ s, vget S.nbcs.functions s.index = ok (nat s)) ∧
      (∃! u, BiPoly nx ny u ∧ SpcColl2 a b c d nx ny kx ky alpha source (Ess eops) ess nat u) ∧
      ∀ u, BiPoly nx ny u → SpcColl2 a b c d nx ny kx ky alpha source (Ess eops) ess nat u → ∀ solver, Solves solver → Complete solver →
        S.solveLmm solver alpha source = ok ((List.range (nx * ny)).map (nodal2 a b c d nx ny u)) ∧
        (S.equations.nu ≠ 0 → S.solveSps solver alpha source = ok ((List.range (nx * ny)).map (nodal2 a b c d nx ny u))) := by
  obtain ⟨T, N, eF, nF, P, d1x, d2x, d1y, d2y, I, hT, hN⟩ := spc_setup2_is H
  have hx := I.base.grid.hx
  have hy := I.base.grid.hy
  have hv := I.base.validate.1 hval
  obtain ⟨f1, f2⟩ := spc2_funs I
  have hTE : (fun s : Side => T s.index = true) = Ess eops := funext fun s => propext (hT s)
  have unique : ∀ {source : ℝ → ℝ → ℝ} {ess nat : Side → ℝ → ℝ → ℝ} {u v : ℝ → ℝ → ℝ}, BiPoly nx ny u → BiPoly nx ny v →
      SpcColl2 a b c d nx ny kx ky alpha source (Ess eops) ess nat u → SpcColl2 a b c d nx ny kx ky alpha source (Ess eops) ess nat v → u = v := by
    intro source ess nat u v hu hv' cu cv
    funext x y
    exact sub_eq_zero.1 (coll2_zero hab hcd hx hy hkx hky hal hE (hu.sub hv') (SpcColl2.sub hu hv' cu cv) x y)
  refine ⟨_, _, f1, f2, ?_, ?_⟩
  · obtain ⟨W, hW⟩ := isColl_exists (V := spcV2 a b c d nx ny N kx ky alpha d1x d2x d1y d2y) I.base.lt (by
      intro W hW m hm
      obtain ⟨u, hu, hW'⟩ := cgl_interp2 hab hcd hx hy (fun i j => W (i + j * nx))
      have hWm := nodal2_of hx hW'
      have hH : IsColl (nx * ny) P (spcV2 a b c d nx ny N kx ky alpha d1x d2x d1y d2y) (fun _ => 0) (fun _ => 0) (nodal2 a b c d nx ny u) :=
        (isColl_congr_W I.base.lt (fun m hm => (hWm m hm).symm)).1 hW
      have hc : SpcColl2 a b c d nx ny kx ky alpha (fun _ _ => 0) (Ess eops) (fun _ _ _ => 0) (fun _ _ _ => 0) u := by
        refine ⟨?_, ?_, ?_⟩
        · intro i j i1 i2 j1 j2
          have hi : i < nx := by omega
          have hj : j < ny := by omega
          have hno : ¬ ∃ s, On nx ny s i j := (inner_iff hi hj).2 ⟨i1, i2, j1, j2⟩
          have := hH.1 (i + j * nx) (ij_lt hi hj) (fun hh => by
            obtain ⟨s, _, ho⟩ := (I.base.mem hi hj).1 hh
            exact hno ⟨s, ho⟩)
          rw [spc2_row I hab hcd alpha hu hi hj, if_neg (fun hh => hno ((enB_iff hv (fun s _ ho => hno ⟨s, ho⟩)).1 hh))] at this
          exact this
        · intro i j hi hj s hs ho _
          have := hH.2 (i + j * nx) ((I.base.mem hi hj).2 ⟨s, (hT s).2 hs, ho⟩)
          rw [nodal2_ij a b c d ny u hi] at this
          exact this
        · rintro i j _ _ ⟨s, ho⟩ hn
          exact absurd ho (hn s (hE s))
      rw [← hWm m hm]
      exact coll2_zero hab hcd hx hy hkx hky hal hE hu hc _ _) (spc2R S a b c d nx ny nF source) (spc2D a b c d nx ny T eF)
    obtain ⟨u, hu, hW'⟩ := cgl_interp2 hab hcd hx hy (fun i j => W (i + j * nx))
    have hc := (spc2d_coll I hab hcd hv alpha source hu).1 ((isColl_congr_W I.base.lt (fun m hm => (nodal2_of hx hW' m hm).symm)).1 hW)
    rw [hTE] at hc
    exact ⟨u, ⟨hu, hc⟩, fun q hq => unique hq.1 hu hq.2 hc⟩
  · intro u hu hc solver hsol hcomp
    have hlist : ∀ r, (S.solveSps solver alpha source = ok r ∨ S.solveLmm solver alpha source = ok r) → r = (List.range (nx * ny)).map (nodal2 a b c d nx ny u) := by
      intro r hr
      obtain ⟨ess, nat, ef, eg, v, hv', hl, hg, hcq⟩ := C94_solve H hab hcd hsol hr
      have e1 : ess = fun s : Side => eF s.index := funext fun s => by have := ef s; rw [f1 s] at this; exact (Res.ok.inj this).symm
      have e2 : nat = fun s : Side => nF s.index := funext fun s => by have := eg s; rw [f2 s] at this; exact (Res.ok.inj this).symm
      rw [e1, e2] at hcq
      have := unique hv' hu hcq hc
      subst this
      apply List.ext_getElem?
      intro m
      by_cases hm : m < nx * ny
      · obtain ⟨i, j, hi, hj, rfl⟩ := ij_of hx hm
        rw [hg i j hi hj]
        simp [hm, nodal2_ij a b c d ny v hi]
      · rw [List.getElem?_eq_none (by omega)]; simp; omega
    obtain ⟨⟨r, hr⟩, hr2⟩ := C94_complete H hab hcd hval f1 f2 hu hc hsol hcomp
    refine ⟨by rw [hr, hlist r (Or.inr hr)], ?_⟩
    intro hnu
    have hpp : S.equations.np ≠ 0 := by
      rw [I.base.canon.lists.2.2.2, Ne, (spc2_counts I.base).1]
      intro hh
      have := (hT .Xmin).2 (hE _)
      rw [hh .Xmin] at this
      simp at this
    obtain ⟨r, hr⟩ := hr2 hnu hpp
    rw [hr, hlist r (Or.inl hr)]

end Two

/-! ### Examples -/

/-- an `Spc2d` on the unit square -/
theorem spcSetup22 (nx ny : Nat) (h1 : 2 ≤ nx) (h2 : nx ≤ 2049) (h3 : 2 ≤ ny) (h4 : ny ≤ 2049) {eops : List (EOp ℝ)} {nops : List (Side × (ℝ → ℝ → ℝ))}
    (hp : ¬ Per eops .Xmin) (hp' : ¬ Per eops .Ymin) (hv : ∀ s : Side, (Ess eops s ∧ ¬ Nat' nops s) ∨ (¬ Ess eops s ∧ Nat' nops s)) :
    ∃ S, SpcSetup2 0 1 0 1 nx ny eops nops 1 1 S ∧ S.ebcs.validate S.nbcs = ok () ∧ runE eops = ok S.ebcs ∧ runN nops = ok S.nbcs := by
  obtain ⟨e, n, ee, en, h⟩ := spc2d_new 0 1 0 1 h1 h2 h3 h4 eops nops 1 1
  rcases h with ⟨h, _⟩ | ⟨_, _, S, T, N, eF, nF, P, d1x, d2x, d1y, d2y, eS, rfl, rfl, I, hT, hN⟩
  · tauto
  · refine ⟨S, ⟨_, _, ee, en, eS⟩, ?_, ee, en⟩
    rw [I.base.validate]
    intro s
    have := hv s
    rw [← hT, ← hN] at this
    cases hTs : T s.index <;> cases hNs : N s.index <;> simp_all

/-- `x² + y²` -/
theorem biPoly_sq : BiPoly 3 3 (fun x y => x ^ 2 + y ^ 2) := by
  refine ⟨fun k l => if k = 2 ∧ l = 0 ∨ k = 0 ∧ l = 2 then 1 else 0, ?_⟩
  intro x y
  simp [Finset.sum_range_succ]
  ring

theorem sq_partials (x y : ℝ) : uxx (fun x y => x ^ 2 + y ^ 2) x y = 2 ∧ uyy (fun x y => x ^ 2 + y ^ 2) x y = 2 ∧ ux (fun x y => x ^ 2 + y ^ 2) x y = 2 * x ∧
    uy (fun x y => x ^ 2 + y ^ 2) x y = 2 * y := by
  have e1 : ∀ x, (fun x y : ℝ => x ^ 2 + y ^ 2) x y = (Polynomial.X ^ 2 + C (y ^ 2) : ℝ[X]).eval x := by intro x; simp
  have e2 : ∀ y, (fun x y : ℝ => x ^ 2 + y ^ 2) x y = (Polynomial.X ^ 2 + C (x ^ 2) : ℝ[X]).eval y := by intro y; simp; ring
  rw [uxx_poly (u := fun x y => x ^ 2 + y ^ 2) e1, uyy_poly (u := fun x y => x ^ 2 + y ^ 2) e2, ux_poly (u := fun x y => x ^ 2 + y ^ 2) e1,
    uy_poly (u := fun x y => x ^ 2 + y ^ 2) e2]
  generalize y ^ 2 = s
  generalize x ^ 2 = t
  simp
  norm_num

/-- the history that prescribes `f` on all sides -/
def allSides (f : ℝ → ℝ → ℝ) : List (EOp ℝ) := [.set .Xmin f, .set .Xmax f, .set .Ymin f, .set .Ymax f]

theorem allSides_ess (f : ℝ → ℝ → ℝ) (s : Side) : Ess (allSides f) s := by
  have base : Ess ([.set .Xmin f] : List (EOp ℝ)) .Xmin := (since_single _ _ _).2 (by simp [EOp.sets])
  unfold allSides
  rw [show ([.set .Xmin f, .set .Xmax f, .set .Ymin f, .set .Ymax f] : List (EOp ℝ)) = ((([] ++ [.set .Xmin f]) ++ [.set .Xmax f]) ++ [.set .Ymin f]) ++ [.set .Ymax f] from rfl]
  unfold Ess
  rw [since_append, since_append, since_append, since_append]
  cases s <;> simp [EOp.sets, EOp.makesPeriodic]

theorem allSides_per (f : ℝ → ℝ → ℝ) (s : Side) : ¬ Per (allSides f) s := by
  unfold allSides
  rw [show ([.set .Xmin f, .set .Xmax f, .set .Ymin f, .set .Ymax f] : List (EOp ℝ)) = ((([] ++ [.set .Xmin f]) ++ [.set .Xmax f]) ++ [.set .Ymin f]) ++ [.set .Ymax f] from rfl]
  unfold Per
  rw [since_append, since_append, since_append, since_append]
  have := since_nil (fun o : EOp ℝ => o.makesPeriodic s) (fun o : EOp ℝ => o.sets s)
  cases s <;> simp [EOp.makesPeriodic, since_nil]

/-- all nodal values of `x² + y²` on the 3 × 3 grid -/
theorem sq_nodal : (List.range (3 * 3)).map (nodal2 0 1 0 1 3 3 (fun x y => x ^ 2 + y ^ 2)) = [0, 1 / 4, 1, 1 / 4, 1 / 2, 5 / 4, 1, 5 / 4, 2] := by
  obtain ⟨c0, c1, c2⟩ := cgl3
  simp [List.range_succ, nodal2, c0, c1, c2]
  norm_num

/-- `-Δu = -4` with `u = x² + y²` prescribed on the boundary of the unit square -/
example : ∃ S, SpcSetup2 0 1 0 1 3 3 (allSides fun x y => x ^ 2 + y ^ 2) [] 1 1 S ∧
    S.solveLmm chooseSolver 0 (fun _ _ => -4) = ok [0, 1 / 4, 1, 1 / 4, 1 / 2, 5 / 4, 1, 5 / 4, 2] ∧
    S.solveSps chooseSolver 0 (fun _ _ => -4) = ok [0, 1 / 4, 1, 1 / 4, 1 / 2, 5 / 4, 1, 5 / 4, 2] ∧
    S.calculateFlowVectors [0, 1 / 4, 1, 1 / 4, 1 / 2, 5 / 4, 1, 5 / 4, 2] = ok ([0, -1, -2, 0, -1, -2, 0, -1, -2], [0, 0, 0, -1, -1, -1, -2, -2, -2]) := by
  obtain ⟨S, H, hval, ee, en⟩ := spcSetup22 3 3 (by omega) (by omega) (by omega) (by omega) (eops := allSides fun x y => x ^ 2 + y ^ 2) (nops := [])
    (allSides_per _ _) (allSides_per _ _) (fun s => Or.inl ⟨allSides_ess _ s, by simp [Nat']⟩)
  refine ⟨S, H, ?_⟩
  obtain ⟨ess, nat, hf, hg, _, hall⟩ := C94_dirichlet H (by norm_num) (by norm_num) (by norm_num) (by norm_num) le_rfl hval (allSides_ess _) (fun _ _ => -4)
  have hess : ∀ s, ess s = fun x y => x ^ 2 + y ^ 2 := by
    have he : S.ebcs.functions = [fun x y => x ^ 2 + y ^ 2, fun x y => x ^ 2 + y ^ 2, fun x y => x ^ 2 + y ^ 2, fun x y => x ^ 2 + y ^ 2] := by
      rw [← Res.ok.inj (show ok _ = ok S.ebcs from ee)]
      rfl
    intro s
    have := hf s
    rw [he] at this
    cases s <;> exact (Res.ok.inj this).symm
  obtain ⟨r1, r2⟩ := hall _ biPoly_sq ⟨by
      intro i j _ _ _ _
      dsimp only
      rw [(sq_partials _ _).1, (sq_partials _ _).2.1]
      norm_num, by
      intro i j _ _ s _ _ _
      dsimp only
      rw [hess s], by
      rintro i j _ _ ⟨s, ho⟩ hn
      exact absurd ho (hn s (allSides_ess _ s))⟩ chooseSolver chooseSolver_solves.1 chooseSolver_solves.2
  rw [sq_nodal] at r1 r2
  refine ⟨r1, r2 ?_, ?_⟩
  · obtain ⟨T, N, eF, nF, P, d1x, d2x, d1y, d2y, I, hT, hN⟩ := spc_setup2_is H
    rw [I.base.canon.lists.2.2.1, Ne, (spc2_counts I.base).2]
    intro hh
    obtain ⟨s, _, ho⟩ := hh 1 1 (by omega) (by omega)
    cases s <;> simp [On] at ho
  · obtain ⟨c0, c1, c2⟩ := cgl3
    have := (C94_flow H (by norm_num) (by norm_num)).2 _ biPoly_sq
    rw [sq_nodal] at this
    rw [this]
    simp [List.range_succ, nodal2, c0, c1, c2, (sq_partials _ _).2.2.1, (sq_partials _ _).2.2.2]

/-- natural conditions: `-Δu = -4`, `u = y²` on the left side and the flows of `x² + y²` through the others; the assumptions of `C94_complete` and `C94_solve` hold -/
example : ∃ S, SpcSetup2 0 1 0 1 3 3 [.set .Xmin fun _ y => y ^ 2] [(.Xmax, fun _ _ => -2), (.Ymin, fun _ _ => 0), (.Ymax, fun _ _ => -2)] 1 1 S ∧
    ∃ r, S.solveLmm chooseSolver 0 (fun _ _ => -4) = ok r := by
  have hE : ∀ s, Ess ([.set .Xmin fun _ y => y ^ 2] : List (EOp ℝ)) s ↔ s = .Xmin := by
    intro s
    refine (since_single _ _ _).trans ?_
    simp [EOp.sets, eq_comm]
  have hP : ∀ s, ¬ Per ([.set .Xmin fun _ y => y ^ 2] : List (EOp ℝ)) s := by
    intro s h
    have := (since_single _ _ _).1 h
    simp [EOp.makesPeriodic] at this
  obtain ⟨S, H, hval, ee, en⟩ := spcSetup22 3 3 (by omega) (by omega) (by omega) (by omega) (eops := [.set .Xmin fun _ y => y ^ 2])
    (nops := [(.Xmax, fun _ _ => -2), (.Ymin, fun _ _ => 0), (.Ymax, fun _ _ => -2)]) (hP _) (hP _) (by
      intro s
      rw [hE]
      cases s <;> simp [Nat'])
  refine ⟨S, H, ?_⟩
  obtain ⟨c0, c1, c2⟩ := cgl3
  have he : S.ebcs.functions = [fun _ y => y ^ 2, fun _ _ => 0, fun _ _ => 0, fun _ _ => 0] := by
    rw [← Res.ok.inj (show ok _ = ok S.ebcs from ee)]
    rfl
  have hn : S.nbcs.functions = [fun _ _ => 0, fun _ _ => -2, fun _ _ => 0, fun _ _ => -2] := by
    rw [← Res.ok.inj (show ok _ = ok S.nbcs from en)]; rfl
  refine (C94_complete H (by norm_num) (by norm_num) hval (ess := fun s => match s with | .Xmin => fun _ y => y ^ 2 | _ => fun _ _ => 0)
    (nat := fun s => match s with | .Xmin => fun _ _ => 0 | .Xmax => fun _ _ => -2 | .Ymin => fun _ _ => 0 | .Ymax => fun _ _ => -2)
    (by intro s; rw [he]; cases s <;> rfl) (by intro s; rw [hn]; cases s <;> rfl) biPoly_sq ⟨?_, ?_, ?_⟩ chooseSolver_solves.1 chooseSolver_solves.2).1
  · intro i j _ _ _ _
    dsimp only
    rw [(sq_partials _ _).1, (sq_partials _ _).2.1]
    norm_num
  · intro i j _ _ s hs ho _
    rw [hE] at hs
    subst hs
    have hi : i = 0 := ho
    dsimp only
    rw [hi, c0]; ring
  · intro i j hi hj hb hn
    have hi0 : i ≠ 0 := fun h => hn .Xmin ((hE _).2 rfl) h
    dsimp only
    unfold sumOn
    simp only [flow2, (sq_partials _ _).2.2.1, (sq_partials _ _).2.2.2]
    have hi' : i = 1 ∨ i = 2 := by omega
    have hj' : j = 0 ∨ j = 1 ∨ j = 2 := by omega
    rcases hi' with rfl | rfl <;> rcases hj' with rfl | rfl | rfl <;> simp [c0, c1, c2]

/-- **C94** "Solves the problem using the System Partitioning Strategy" (/repo/russell_pde/src/spc_2d.rs:287-347): with flows prescribed on all sides, a problem that
`validate` accepts and `solve_lmm` solves, `solve_sps` panics. -/
theorem C94_natural_counterexample : ∃ S, SpcSetup2 0 1 0 1 3 3 [] [(.Xmin, fun _ _ => 0), (.Xmax, fun _ _ => 0), (.Ymin, fun _ _ => 0), (.Ymax, fun _ _ => 0)] 1 1 S ∧
    S.ebcs.validate S.nbcs = ok () ∧ S.solveSps chooseSolver 1 (fun _ _ => 1) = Res.panic ∧ ∃ r, S.solveLmm chooseSolver 1 (fun _ _ => 1) = ok r := by
  have hE : ∀ s, ¬ Ess ([] : List (EOp ℝ)) s := fun s => since_nil _ _
  obtain ⟨S, H, hval, ee, en⟩ := spcSetup22 3 3 (by omega) (by omega) (by omega) (by omega) (eops := [])
    (nops := [(.Xmin, fun _ _ => 0), (.Xmax, fun _ _ => 0), (.Ymin, fun _ _ => 0), (.Ymax, fun _ _ => 0)]) (since_nil _ _) (since_nil _ _) (by
      intro s
      right
      refine ⟨hE s, ?_⟩
      cases s <;> simp [Nat'])
  refine ⟨S, H, hval, ?_, ?_⟩
  · rw [(C94_panics H hval chooseSolver_solves.1 (by
      intro A v
      unfold chooseSolver
      split <;> simp) 1 _).2]
    exact Or.inl hE
  · have he : S.ebcs.functions = [fun _ _ => 0, fun _ _ => 0, fun _ _ => 0, fun _ _ => 0] := by
      rw [← Res.ok.inj (show ok _ = ok S.ebcs from ee)]; rfl
    have hn : S.nbcs.functions = [fun _ _ => 0, fun _ _ => 0, fun _ _ => 0, fun _ _ => 0] := by
      rw [← Res.ok.inj (show ok _ = ok S.nbcs from en)]; rfl
    refine (C94_complete H (by norm_num) (by norm_num) hval (ess := fun _ _ _ => 0) (nat := fun _ _ _ => 0)
      (by intro s; rw [he]; cases s <;> rfl) (by intro s; rw [hn]; cases s <;> rfl) (u := fun _ _ => 1) ⟨fun k l => if k = 0 ∧ l = 0 then 1 else 0, ?_⟩ ⟨?_, ?_, ?_⟩
      chooseSolver_solves.1 chooseSolver_solves.2).1
    · intro x y
      simp [Finset.sum_range_succ]
    · intro i j _ _ _ _
      dsimp only
      rw [uxx_poly (u := fun _ _ => 1) (p := 1) (fun x => by simp), uyy_poly (u := fun _ _ => 1) (p := 1) (fun y => by simp)]
      simp
    · intro i j _ _ s hs
      exact absurd hs (hE s)
    · intro i j _ _ _ _
      unfold sumOn
      simp only [flow2]
      rw [ux_poly (u := fun _ _ => 1) (p := 1) (fun x => by simp), uy_poly (u := fun _ _ => 1) (p := 1) (fun y => by simp)]
      simp

/-- `C93_dirichlet`: `-u'' + u = x` with `u(0) = 0`, `u(1) = 1` -/
example : ∃ S, SpcSetup1 0 1 3 [.set .Xmin fun _ => 0, .set .Xmax fun _ => 1] [] 1 S ∧ S.solveLmm chooseSolver 1 (fun x => x) = ok [0, 1 / 2, 1] := by
  have hE : ∀ s : Side, s.isX = true → Ess1 ([.set .Xmin fun _ => 0, .set .Xmax fun _ => 1] : List (EOp1 ℝ)) s := by
    intro s hs
    rw [show ([.set .Xmin fun _ => 0, .set .Xmax fun _ => 1] : List (EOp1 ℝ)) = ([] ++ [.set .Xmin fun _ => 0]) ++ [.set .Xmax fun _ => 1] from rfl]
    unfold Ess1
    rw [since_append, since_append]
    cases s <;> simp [EOp1.sets, EOp1.makesPeriodic, Side.isX] at hs ⊢
  obtain ⟨S, H, hval, ee, en⟩ := spcSetup3 3 (by omega) (by omega) (eops := [.set .Xmin fun _ => 0, .set .Xmax fun _ => 1]) (nops := [])
    (by
      intro s f h
      simp only [List.mem_cons, EOp1.set.injEq, List.not_mem_nil, or_false] at h
      rcases h with ⟨rfl, _⟩ | ⟨rfl, _⟩ <;> rfl) (by simp)
    (by
      rw [show ([.set .Xmin fun _ => 0, .set .Xmax fun _ => 1] : List (EOp1 ℝ)) = ([] ++ [.set .Xmin fun _ => 0]) ++ [.set .Xmax fun _ => 1] from rfl]
      unfold Per1
      rw [since_append, since_append]
      simp [EOp1.makesPeriodic]) (fun s hs => Or.inl ⟨hE s hs, by simp⟩)
  refine ⟨S, H, ?_⟩
  obtain ⟨c0, c1, c2⟩ := cgl3
  obtain ⟨f0, f1, g0, g1, hf, hg, _, hall⟩ := C93_dirichlet H (by norm_num) (by norm_num) hval (hE .Xmin rfl) (hE .Xmax rfl) zero_le_one (fun x => x)
  unfold runE1 at ee
  rw [← Res.ok.inj ee] at hf
  have h0 : f0 = fun _ => 0 := (List.cons.inj hf).1.symm
  have h1 : f1 = fun _ => 1 := (List.cons.inj (List.cons.inj hf).2).1.symm
  have := (hall Polynomial.X (by rw [Polynomial.degree_X]; exact_mod_cast (by omega : 1 < 3)) ⟨by intro m _ _; simp, by intro _; simp [h0], by
    intro h; exact absurd (hE .Xmin rfl) h, by intro _; simp [h1], by intro h; exact absurd (hE .Xmax rfl) h⟩ chooseSolver chooseSolver_solves.1 chooseSolver_solves.2).1
  rw [this]
  simp [List.range_succ, c0, c1, c2]

end Russell.Pde
