import Verif.Lab.QuadratureProp
import Mathlib.Algebra.Polynomial.Eval.Degree
import Mathlib.Algebra.Polynomial.BigOperators
import Mathlib.Tactic.IntervalCases
import Mathlib.Topology.Algebra.Polynomial
import Mathlib.Analysis.Complex.ExponentialBounds

/-!
# Properties of the adaptive quadrature (C86)
-/

namespace Russell.Lab.Quad

open Russell Russell.Res MeasureTheory

/-! ### Moments of the rules -/

/-- the moment of order `k` of a rule over `[-1, 1]` -/
def moment (t : List (ℚ × ℚ)) (k : Nat) : ℚ := (t.map fun p => p.2 * ((-p.1) ^ k + p.1 ^ k)).sum

/-- the moments of the tables are exact to 16 digits up to the order `2 n - 1` -/
theorem moment_le {n : Nat} {t : List (ℚ × ℚ)} (h : gaussTable n = some t) {k : Nat} (hk : k < 2 * n) :
    |moment t k - (1 - (-1) ^ (k + 1)) / (k + 1)| ≤ 1e-16 := by
  unfold gaussTable at h
  split_ifs at h with h1 h1 h1 h1 h1 <;> subst h1 <;> cases h <;> norm_num at hk
  all_goals
    unfold moment
    simp only [gauss6, gauss8, gauss10, gauss12, gauss14, List.map_cons, List.map_nil, List.sum_cons, List.sum_nil]
    interval_cases k <;> norm_num [abs_le]

theorem gaussVal_pow (t : List (ℚ × ℚ)) (k : Nat) (x h : ℝ) :
    gaussVal t (fun y => y ^ k) x h = h * ∑ j ∈ Finset.range (k + 1), h ^ j * x ^ (k - j) * (k.choose j) * (moment t j : ℝ) := by
  unfold gaussVal
  congr 1
  induction t with
  | nil => simp [moment]
  | cons p t ih =>
    rw [List.map_cons, List.sum_cons, ih]
    have e1 : (x - p.1 * h) ^ k = ∑ j ∈ Finset.range (k + 1), h ^ j * x ^ (k - j) * (k.choose j) * (-(p.1 : ℝ)) ^ j := by
      rw [show x - p.1 * h = -p.1 * h + x by ring, add_pow]
      refine Finset.sum_congr rfl fun j _ => ?_
      rw [mul_pow]; ring
    have e2 : (x + p.1 * h) ^ k = ∑ j ∈ Finset.range (k + 1), h ^ j * x ^ (k - j) * (k.choose j) * (p.1 : ℝ) ^ j := by
      rw [show x + p.1 * h = p.1 * h + x by ring, add_pow]
      refine Finset.sum_congr rfl fun j _ => ?_
      rw [mul_pow]; ring
    beta_reduce
    rw [e1, e2, ← Finset.sum_add_distrib, Finset.mul_sum, ← Finset.sum_add_distrib]
    refine Finset.sum_congr rfl fun j _ => ?_
    rw [moment, moment, List.map_cons, List.sum_cons]
    push_cast
    ring

theorem integral_pow_shift (k : Nat) (x h : ℝ) :
    ∫ y in (x - h)..(x + h), y ^ k =
      h * ∑ j ∈ Finset.range (k + 1), h ^ j * x ^ (k - j) * (k.choose j) * ((1 - (-1) ^ (j + 1)) / (j + 1)) := by
  have := intervalIntegral.smul_integral_comp_add_mul (a := -1) (b := 1) (fun y : ℝ => y ^ k) h x
  rw [smul_eq_mul, show x + h * -1 = x - h by ring, show x + h * 1 = x + h by ring] at this
  rw [← this]
  congr 1
  have e : ∀ s : ℝ, (x + h * s) ^ k = ∑ j ∈ Finset.range (k + 1), h ^ j * x ^ (k - j) * (k.choose j) * s ^ j := by
    intro s
    rw [add_comm, add_pow]
    refine Finset.sum_congr rfl fun j _ => ?_
    rw [mul_pow]; ring
  simp only [e]
  rw [intervalIntegral.integral_finset_sum fun j _ => Continuous.intervalIntegrable (by fun_prop) _ _]
  refine Finset.sum_congr rfl fun j _ => ?_
  rw [intervalIntegral.integral_const_mul, integral_pow, one_pow]

theorem gauss_pow {n : Nat} {t : List (ℚ × ℚ)} (ht : gaussTable n = some t) {k : Nat} (hk : k < 2 * n) (x h : ℝ) :
    |gaussVal t (fun y => y ^ k) x h - ∫ y in (x - h)..(x + h), y ^ k| ≤ 1e-16 * |h| * (|x| + |h|) ^ k := by
  rw [gaussVal_pow, integral_pow_shift, ← mul_sub, ← Finset.sum_sub_distrib, abs_mul, mul_comm (1e-16 : ℝ), mul_assoc]
  refine mul_le_mul_of_nonneg_left ?_ (abs_nonneg _)
  refine (Finset.abs_sum_le_sum_abs _ _).trans ?_
  rw [add_comm |x|, add_pow, Finset.mul_sum]
  refine Finset.sum_le_sum fun j hj => ?_
  have hj' : j < 2 * n := by have := Finset.mem_range.1 hj; omega
  rw [← mul_sub, abs_mul, abs_mul, abs_mul, abs_pow, abs_pow, Nat.abs_cast, mul_comm]
  refine mul_le_mul_of_nonneg_right ?_ (by positivity)
  have := moment_le ht hj'
  have h2 : ((|moment t j - (1 - (-1) ^ (j + 1)) / (j + 1)| : ℚ) : ℝ) ≤ ((1e-16 : ℚ) : ℝ) := by exact_mod_cast this
  push_cast at h2
  refine le_trans (le_of_eq ?_) (h2.trans (le_of_eq (by norm_num)))
  congr 1

/-- the sum of the absolute values of the terms of a polynomial -/
noncomputable def polyAbs (p : Polynomial ℝ) (m : ℝ) : ℝ := ∑ k ∈ Finset.range (p.natDegree + 1), |p.coeff k| * m ^ k

theorem polyAbs_mono (p : Polynomial ℝ) {m m' : ℝ} (h0 : 0 ≤ m) (h : m ≤ m') : polyAbs p m ≤ polyAbs p m' :=
  Finset.sum_le_sum fun _ _ => mul_le_mul_of_nonneg_left (pow_le_pow_left₀ h0 h _) (abs_nonneg _)

theorem polyAbs_nonneg (p : Polynomial ℝ) {m : ℝ} (h0 : 0 ≤ m) : 0 ≤ polyAbs p m :=
  Finset.sum_nonneg fun _ _ => by positivity

theorem gaussVal_sum (t : List (ℚ × ℚ)) (s : Finset Nat) (c : Nat → ℝ) (G : Nat → ℝ → ℝ) (x h : ℝ) :
    gaussVal t (fun y => ∑ k ∈ s, c k * G k y) x h = ∑ k ∈ s, c k * gaussVal t (G k) x h := by
  unfold gaussVal
  induction t with
  | nil => simp
  | cons p t ih =>
    simp only [List.map_cons, List.sum_cons] at ih ⊢
    rw [mul_add, ih, ← Finset.sum_add_distrib, ← mul_assoc, Finset.mul_sum, ← Finset.sum_add_distrib]
    refine Finset.sum_congr rfl fun k _ => ?_
    ring

theorem gauss_poly {n : Nat} {t : List (ℚ × ℚ)} (ht : gaussTable n = some t) {p : Polynomial ℝ} (hp : p.natDegree < 2 * n)
    (x h : ℝ) :
    |gaussVal t (fun y => p.eval y) x h - ∫ y in (x - h)..(x + h), p.eval y| ≤ 1e-16 * |h| * polyAbs p (|x| + |h|) := by
  have e : (fun y => p.eval y) = fun y => ∑ k ∈ Finset.range (p.natDegree + 1), p.coeff k * y ^ k := by
    funext y; exact Polynomial.eval_eq_sum_range y
  rw [e]
  rw [gaussVal_sum, intervalIntegral.integral_finset_sum fun j _ => Continuous.intervalIntegrable (by fun_prop) _ _,
    ← Finset.sum_sub_distrib]
  refine (Finset.abs_sum_le_sum_abs _ _).trans ?_
  unfold polyAbs
  rw [Finset.mul_sum]
  refine Finset.sum_le_sum fun k hk => ?_
  rw [intervalIntegral.integral_const_mul, ← mul_sub, abs_mul]
  have := mul_le_mul_of_nonneg_left (gauss_pow ht (k := k) (by have := Finset.mem_range.1 hk; omega) x h) (abs_nonneg (p.coeff k))
  refine this.trans (le_of_eq (by ring))

theorem abs_add_abs_max (x h : ℝ) : |x| + |h| = max |x - h| |x + h| := by
  rcases abs_cases x with ⟨h1, h1'⟩ | ⟨h1, h1'⟩ <;> rcases abs_cases h with ⟨h2, h2'⟩ | ⟨h2, h2'⟩ <;>
    rcases abs_cases (x - h) with ⟨h3, h3'⟩ | ⟨h3, h3'⟩ <;> rcases abs_cases (x + h) with ⟨h4, h4'⟩ | ⟨h4, h4'⟩ <;>
    rw [h1, h2, h3, h4] <;> (rcases max_cases (x - h) (x + h) with ⟨h5, h5'⟩ | ⟨h5, h5'⟩) <;>
    rcases max_cases (-(x - h)) (x + h) with ⟨h6, h6'⟩ | ⟨h6, h6'⟩ <;>
    rcases max_cases (x - h) (-(x + h)) with ⟨h7, h7'⟩ | ⟨h7, h7'⟩ <;>
    rcases max_cases (-(x - h)) (-(x + h)) with ⟨h8, h8'⟩ | ⟨h8, h8'⟩ <;> linarith

/-- the points of a chain advance from one end to the other -/
theorem Chain.le {L : ℝ} (hL : 0 ≤ L) : ∀ {s : List (ℝ × Nat)} {u v : ℝ}, Chain L s u v → u ≤ v
  | [], _, _, h => le_of_eq h
  | p :: _, u, v, h => (by have : 0 ≤ L / 2 ^ p.2 := by positivity
                           linarith : u ≤ u + L / 2 ^ p.2).trans (Chain.le hL h.2)

theorem Chain.ge {L : ℝ} (hL : L ≤ 0) : ∀ {s : List (ℝ × Nat)} {u v : ℝ}, Chain L s u v → v ≤ u
  | [], _, _, h => le_of_eq h.symm
  | p :: _, u, v, h => (Chain.ge hL h.2).trans (by
      have : L / 2 ^ p.2 ≤ 0 := div_nonpos_of_nonpos_of_nonneg hL (by positivity)
      linarith : u + L / 2 ^ p.2 ≤ u)

/-- all points of a chain lie between its ends -/
theorem Chain.max {L : ℝ} {p : ℝ × Nat} {s : List (ℝ × Nat)} {u v m : ℝ} (h : Chain L (p :: s) u v) (hu : |u| ≤ m) (hv : |v| ≤ m) :
    |u + L / 2 ^ p.2| ≤ m := by
  obtain ⟨_, h2⟩ := h
  rw [abs_le] at *
  rcases le_total 0 L with hL | hL
  · have := Chain.le hL h2
    have : 0 ≤ L / 2 ^ p.2 := by positivity
    constructor <;> linarith
  · have := Chain.ge hL h2
    have : L / 2 ^ p.2 ≤ 0 := div_nonpos_of_nonpos_of_nonneg hL (by positivity)
    constructor <;> linarith

/-- the estimates over a partition of the integral of a polynomial -/
theorem Chain.poly {n : Nat} {t : List (ℚ × ℚ)} (ht : gaussTable n = some t) {p : Polynomial ℝ} (hp : p.natDegree < 2 * n)
    {L m : ℝ} : ∀ {s : List (ℝ × Nat)} {u v : ℝ}, Chain L s u v → |u| ≤ m → |v| ≤ m →
      |(s.map (Gd t (fun y => p.eval y) L)).sum - ∫ y in u..v, p.eval y| ≤ 1e-16 * (|v - u| / 2) * polyAbs p m
  | [], u, v, h, _, _ => by cases h; simp
  | q :: s, u, v, h, hu, hv => by
    have h0 : 0 ≤ m := (abs_nonneg _).trans hu
    have hw := Chain.max h hu hv
    have ih := Chain.poly ht hp h.2 hw hv
    set w := u + L / 2 ^ q.2 with hwd
    have hq : q.1 = u := h.1
    rw [List.map_cons, List.sum_cons, ← intervalIntegral.integral_add_adjacent_intervals (b := w)
      (p.continuous.intervalIntegrable _ _) (p.continuous.intervalIntegrable _ _)]
    have hhalf : L / 2 ^ (q.2 + 1) = (w - u) / 2 := by rw [hwd, pow_succ]; field_simp; ring
    have h1 := gauss_poly ht hp (u + L / 2 ^ (q.2 + 1)) (L / 2 ^ (q.2 + 1))
    rw [hhalf, abs_add_abs_max] at h1
    rw [show u + (w - u) / 2 - (w - u) / 2 = u by ring, show u + (w - u) / 2 + (w - u) / 2 = w by ring] at h1
    have h2 : polyAbs p (Max.max |u| |w|) ≤ polyAbs p m := polyAbs_mono p (le_max_of_le_left (abs_nonneg _)) (max_le hu hw)
    have h3 : Gd t (fun y => p.eval y) L q = gaussVal t (fun y => p.eval y) (u + (w - u) / 2) ((w - u) / 2) := by
      unfold Gd; rw [hq, hhalf]
    have hsum : |w - u| + |v - w| = |v - u| := by
      have hdir := h.2
      rcases le_total 0 L with hL | hL
      · have := Chain.le hL hdir
        have : 0 ≤ L / 2 ^ q.2 := by positivity
        rw [abs_of_nonneg (by linarith), abs_of_nonneg (by linarith), abs_of_nonneg (by linarith)]; ring
      · have := Chain.ge hL hdir
        have : L / 2 ^ q.2 ≤ 0 := div_nonpos_of_nonpos_of_nonneg hL (by positivity)
        rw [abs_of_nonpos (by linarith), abs_of_nonpos (by linarith), abs_of_nonpos (by linarith)]; ring
    rw [h3]
    have h4 : 1e-16 * |(w - u) / 2| * polyAbs p (Max.max |u| |w|) ≤ 1e-16 * (|w - u| / 2) * polyAbs p m := by
      rw [abs_div, abs_two]
      exact mul_le_mul_of_nonneg_left h2 (by positivity)
    rw [abs_le] at *
    rw [← hsum]
    constructor <;> nlinarith [h1.1, h1.2, ih.1, ih.2]

theorem gauss_total {A : Type} {n : Nat} {t : List (ℚ × ℚ)} (ht : gaussTable n = some t) (g : ℝ → ℝ) (x h : ℝ) (args : A) :
    gauss n x h args (fun y s => ok (g y, s)) = ok (gaussVal t g x h, args) := by
  have : ∀ (t : List (ℚ × ℚ)) (sum : ℝ), gaussSum (fun y (s : A) => ok (g y, s)) x h t sum args =
      ok (sum + (t.map fun q => (q.2 : ℝ) * (g (x - q.1 * h) + g (x + q.1 * h))).sum, args) := by
    intro t
    induction t with
    | nil => intro sum; simp [gaussSum]
    | cons q t ih =>
      intro sum
      simp only [gaussSum, ok_bind, ih, List.map_cons, List.sum_cons]
      congr 2; ring
  unfold gauss
  rw [ht]
  simp only [this, ok_bind, zero_add, gaussVal]

theorem gaussVal_affine (t : List (ℚ × ℚ)) (α β x h : ℝ) :
    gaussVal t (fun y => α * y + β) x h = h * (α * x + β) * (moment t 0 : ℝ) := by
  unfold gaussVal moment
  induction t with
  | nil => simp
  | cons p t ih =>
    simp only [List.map_cons, List.sum_cons, pow_zero] at ih ⊢
    push_cast at ih ⊢
    rw [mul_add, ih]; ring

theorem maxLevel_cases {a b : ℝ} (h : ¬ TooClose a b) :
    (∃ l, maxLevel a b = ok l) ∨ maxLevel a b = err "the lower and upper bounds must not be so close one from another" := by
  have := maxLevel_sat h
  cases hm : maxLevel a b with
  | ok l => exact Or.inl ⟨l, rfl⟩
  | err m => rw [hm] at this; exact Or.inr (by rw [show m = _ from this])
  | panic => rw [hm] at this; exact this.elim

/-- the first iteration, if both estimates agree -/
theorem qStep_first {A : Type} {q : Quadrature} (htol : 0 ≤ q.tol) {t : List (ℚ × ℚ)} (ht : gaussTable q.n_gauss = some t)
    (g : ℝ → ℝ) {a b est : ℝ} (l : Nat) (args : A)
    (he : est = gaussVal t g (a + (b - a) / 4) ((b - a) / 4) + gaussVal t g (a + 3 * ((b - a) / 4)) ((b - a) / 4)) :
    ∃ s', qStep q (fun y (s : A) => ok (g y, s)) (qStart q a b l est) args = ok ((s', some est), args) ∧ s'.mxl = false ∧
      s'.error = 0 ∧ s'.n_iterations = (if q.stats then 1 else 0) ∧ s'.n_function = if q.stats then 3 * q.n_gauss else 0 := by
  have ha1 : (qStart q a b l est).aa 1 = a := by simp [qStart]
  have hl1 : (qStart q a b l est).lr 1 = 1 := by simp [qStart]
  have hh1 : (qStart q a b l est).hh 1 = (b - a) / 4 := by simp [qStart]
  have hl : (qStart q a b l est).l = 1 := rfl
  have w1 : ∀ {β : Type} (v : Nat → β), wget v 1 = ok (v 1) := fun v => if_pos (by norm_num)
  have w2 : ∀ {β : Type} (v : Nat → β) (x : β), wset v 1 x = ok (Function.update v 1 x) := fun v x => if_pos (by norm_num)
  unfold qStep
  rw [hl]
  simp only [w1, w2, ok_bind, ha1, hh1, hl1]
  rw [gauss_total ht]
  simp only [ok_bind]
  rw [gauss_total ht]
  simp only [ok_bind]
  set gl := gaussVal t g (a + (b - a) / 4) ((b - a) / 4)
  set gr := gaussVal t g (a + 3 * ((b - a) / 4)) ((b - a) / 4)
  have hf : ¬ |(qStart q a b l est).est - (gl + gr)| * (qStart q a b l est).ef -
      max ((qStart q a b l est).eps * ((qStart q a b l est).area + (|gl| + |gr| - |(qStart q a b l est).est|))) (q.tol * |gl + gr|) > 0 := by
    rw [show (qStart q a b l est).est = gl + gr from he, sub_self, abs_zero, zero_mul, gt_iff_lt, not_lt, zero_sub, neg_nonpos]
    exact le_max_of_le_right (mul_nonneg htol (abs_nonneg _))
  rw [if_neg (fun h => hf h.1), if_pos (by decide)]
  simp only [qReturn, ok_bind]
  refine ⟨_, congrArg (fun z => ok ((_, some z), args)) he.symm, ?_, ?_, ?_, ?_⟩
  · show (false || decide _) = false
    simpa using hf
  · show 0 + (est - (gl + gr)) = 0
    rw [he]; ring
  · show 0 + q.inc 1 = _
    unfold Quadrature.inc; simp
  · show q.inc q.n_gauss + q.inc q.n_gauss + q.inc q.n_gauss = _
    unfold Quadrature.inc; split_ifs <;> ring

end Russell.Lab.Quad

namespace Russell.Lab

open Russell Russell.Res Russell.Lab.Quad MeasureTheory

/-- **C86 (rules).** The rule of each order has positive weights, and abscissae strictly between −1 and 1. Its estimate for a
polynomial of degree up to `2 n − 1` over any interval `[x − h, x + h]` is the integral, up to the 16 digits of the tables. -/
theorem C86_gauss {A : Type} {n : Nat} {t : List (ℚ × ℚ)} (ht : gaussTable n = some t) (p : Polynomial ℝ)
    (hp : p.natDegree < 2 * n) (x h : ℝ) (args : A) :
    (∀ q ∈ t, 0 < q.1 ∧ q.1 < 1 ∧ 0 < q.2) ∧ ∃ v, gauss n x h args (fun y s => ok (p.eval y, s)) = ok (v, args) ∧
      |v - ∫ y in (x - h)..(x + h), p.eval y| ≤ 1e-16 * |h| * polyAbs p (max |x - h| |x + h|) := by
  refine ⟨gaussTable_mem ht, gaussVal t (fun y => p.eval y) x h, ?_, ?_⟩
  · exact gauss_total ht _ x h args
  · rw [← abs_add_abs_max]
    exact gauss_poly ht hp x h

/-- **C86 (integrate).** The parameters are valid and the bounds are different (and not so close that the number of levels
underflows). The function is only called between the bounds, whatever it may do elsewhere. The method does not panic and ends
with one of its three messages, with an error of the function, or successfully. Upon success the integral is the sum of the Gauss
estimates over the halves of intervals that cover `[a, b]` exactly once, none of them shorter than `|b − a|/2³²`; each of them
meets the error criterion, or the total difference between the estimates is within three times the tolerance. The counters are
those of the intervals, and the number of iterations is bounded by the parameter. -/
theorem C86_integrate {A : Type} {q : Quadrature} (hq : Valid q) {f : Callback ℝ A} {g : ℝ → ℝ} {a b : ℝ} (hf : CallsOn f g a b)
    (hab : 10 / 2 ^ 52 ≤ |b - a|) (hc : ¬ TooClose a b) (args : A) :
    ∃ t, gaussTable q.n_gauss = some t ∧
      ((∃ r args', q.integrate a b args f = ok (r, args') ∧ ∃ D, Result q t g a b r D) ∨
        ∃ m, q.integrate a b args f = err m ∧ (m ∈ Messages ∨ FromF f a b m)) := by
  obtain ⟨t, ht⟩ := table_of hq
  refine ⟨t, ht, ?_⟩
  have := integrate_sat hq ht hf hab hc args
  cases h : q.integrate a b args f with
  | ok r => rw [h] at this; exact Or.inl ⟨r.1, r.2, rfl, this⟩
  | err m => rw [h] at this; exact Or.inr ⟨m, rfl, this⟩
  | panic => rw [h] at this; exact this.elim

/-- **C86 (polynomials).** If the function is a polynomial of degree up to `2 n − 1`, then the integral of a successful call is the
exact one, up to the 16 digits of the tables and whatever the tolerance is. -/
theorem C86_polynomial {A : Type} {q : Quadrature} (hq : Valid q) {f : Callback ℝ A} {p : Polynomial ℝ}
    (hp : p.natDegree < 2 * q.n_gauss) {a b : ℝ} (hf : CallsOn f (fun y => p.eval y) a b)
    (hab : 10 / 2 ^ 52 ≤ |b - a|) (hc : ¬ TooClose a b) {args args' : A} {r : QResult}
    (h : q.integrate a b args f = ok (r, args')) :
    |r.ans - ∫ y in a..b, p.eval y| ≤ 1e-16 * (|b - a| / 2) * polyAbs p (max |a| |b|) := by
  obtain ⟨t, ht⟩ := table_of hq
  have := integrate_sat hq ht hf hab hc args
  rw [h] at this
  obtain ⟨D, R⟩ := this
  have hr : r.ans = _ := R.ans
  rw [hr]
  exact Chain.poly ht hp R.chain.halves (le_max_left _ _) (le_max_right _ _)

/-- **C86 (success).** An affine function is integrated with a single iteration, unless the bounds are reported to be too close:
the result is the integral, up to the 16 digits of the tables, and `3 n` function evaluations are counted. -/
theorem C86_affine {A : Type} {q : Quadrature} (hq : Valid q) (α β : ℝ) {a b : ℝ} (hab : 10 / 2 ^ 52 ≤ |b - a|)
    (hc : ¬ TooClose a b) (args : A) :
    q.integrate a b args (fun y s => ok (α * y + β, s)) =
      err "the lower and upper bounds must not be so close one from another" ∨
    ∃ r, q.integrate a b args (fun y s => ok (α * y + β, s)) = ok (r, args) ∧
      |r.ans - (b - a) * (α * (a + b) / 2 + β)| ≤ 1e-16 * (|b - a| / 2) * |α * (a + b) / 2 + β| ∧
      r.n_iterations = (if q.stats then 1 else 0) ∧ r.n_function = (if q.stats then 3 * q.n_gauss else 0) ∧
      r.error_estimate = if q.stats then some 0 else none := by
  obtain ⟨t, ht⟩ := table_of hq
  unfold Quadrature.integrate
  rw [if_neg (by unfold f64Eps; push Not; linarith), (validate_iff q).2 hq]
  simp only [ok_bind]
  rcases maxLevel_cases hc with ⟨l, hl⟩ | hl
  · right
    rw [hl]
    simp only [ok_bind]
    rw [gauss_total ht]
    simp only [ok_bind]
    obtain ⟨n, hn⟩ : ∃ n, q.n_iteration_max = n + 1 := ⟨q.n_iteration_max - 1, by have := hq.1; omega⟩
    have htol : 0 ≤ q.tol := by unfold Quadrature.tol; positivity
    have e0 := gaussVal_affine t α β (a + 2 * ((b - a) / 4)) (2 * ((b - a) / 4))
    have e1 := gaussVal_affine t α β (a + (b - a) / 4) ((b - a) / 4)
    have e2 := gaussVal_affine t α β (a + 3 * ((b - a) / 4)) ((b - a) / 4)
    obtain ⟨s', hs, h1, h2, h3, h4⟩ := qStep_first htol ht (fun y => α * y + β) l args
      (est := gaussVal t (fun y => α * y + β) (a + 2 * ((b - a) / 4)) (2 * ((b - a) / 4))) (a := a) (b := b)
      (by rw [e0, e1, e2]; ring)
    rw [hn]
    unfold qLoop
    rw [hs]
    simp only [ok_bind]
    rw [if_neg (by rw [h1]; simp)]
    refine ⟨_, rfl, ?_, h3, ?_, ?_⟩
    · show |gaussVal t (fun y => α * y + β) _ _ - _| ≤ _
      rw [e0]
      have hm := moment_le ht (k := 0) (by have := hq.2.2; simp at this; omega)
      have h2 : ((|moment t 0 - (1 - (-1) ^ (0 + 1)) / ((0 : Nat) + 1)| : ℚ) : ℝ) ≤ ((1e-16 : ℚ) : ℝ) := by exact_mod_cast hm
      push_cast at h2
      rw [show 2 * ((b - a) / 4) * (α * (a + 2 * ((b - a) / 4)) + β) * (moment t 0 : ℝ) - (b - a) * (α * (a + b) / 2 + β) =
        ((moment t 0 : ℝ) - (1 - (-1) ^ (0 + 1)) / (0 + 1)) * ((b - a) / 2) * (α * (a + b) / 2 + β) by ring, abs_mul, abs_mul,
        abs_div, abs_two]
      refine mul_le_mul_of_nonneg_right (mul_le_mul_of_nonneg_right (h2.trans (le_of_eq (by norm_num))) (by positivity))
        (abs_nonneg _)
    · rw [h4]
    · rw [h2]
  · left; rw [hl]; rfl

/-- **C86 (parameters).** Equal bounds and invalid parameters are errors before the function is called. -/
theorem C86_validate {A : Type} (q : Quadrature) (a b : ℝ) (args : A) (f : Callback ℝ A) :
    (|b - a| < 10 / 2 ^ 52 → q.integrate a b args f = err "the lower and upper bounds must be different from each other") ∧
    (10 / 2 ^ 52 ≤ |b - a| → ¬ Valid q → ∃ m ∈ ["n_iteration_max must be ≥ 2", "the tolerance must be ≥ 10.0 * f64::EPSILON",
      "n_gauss must be 6, 8, 10, 12, or 14"], q.integrate a b args f = err m) := by
  constructor
  · intro h
    unfold Quadrature.integrate
    rw [if_pos (by unfold f64Eps; linarith)]
  · intro h hv
    have hn : q.validate ≠ ok () := fun h => hv ((validate_iff q).1 h)
    unfold Quadrature.integrate
    rw [if_neg (by unfold f64Eps; push Not; linarith)]
    unfold Quadrature.validate at *
    split_ifs at * <;> first | exact absurd rfl hn | exact ⟨_, by simp, rfl⟩

/-- **C86 (violated for close bounds).** The method promises an error if the bounds are too close to each other. If they agree to
about 46 binary digits and more, the subtraction of unsigned integers underflows instead (a panic in debug builds), whatever the
function is. -/
theorem C86_close_counterexample {A : Type} {q : Quadrature} (hq : Valid q) {a b : ℝ} (hab : 10 / 2 ^ 52 ≤ |b - a|)
    (hc : TooClose a b) (args : A) (f : Callback ℝ A) : q.integrate a b args f = Res.panic := by
  unfold Quadrature.integrate
  rw [if_neg (by unfold f64Eps; push Not; linarith), (validate_iff q).2 hq]
  simp only [ok_bind]
  rw [maxLevel_panic hc]
  rfl

theorem valid_new : Valid Quadrature.new := by
  refine ⟨by decide, ?_, by simp [Quadrature.new]⟩
  norm_num [Quadrature.new]

/-- bounds that are too close: 1 and 1 + 2⁻⁴⁷, more than ten times the machine precision apart -/
example : TooClose (1 : ℝ) (1 / (1 - 1 / 2 ^ 47)) ∧ 10 / 2 ^ 52 ≤ |(1 / (1 - 1 / 2 ^ 47) : ℝ) - 1| := by
  refine ⟨⟨by norm_num, ?_, ?_, ?_⟩, ?_⟩
  · rw [if_neg (by norm_num)]; norm_num
  · norm_num
  · rw [show |1 - 1 / (1 / (1 - 1 / 2 ^ 47) : ℝ)| = 2⁻¹ ^ 47 by norm_num, Real.log_pow, Real.log_inv]
    have h2 : (0.6931471803 : ℝ) < Real.log 2 := Real.log_two_gt_d9
    unfold LN2
    rw [le_sub_iff_add_le, ← le_sub_iff_add_le', div_le_iff₀ (by norm_num)]
    push_cast
    norm_num
    nlinarith
  · norm_num

/-- the hypotheses are met: the square over [0, 1] with the default parameters -/
example : Valid Quadrature.new ∧ CallsOn (fun y (s : Unit) => ok (y ^ 2, s)) (fun y => y ^ 2) 0 1 ∧ (10 : ℝ) / 2 ^ 52 ≤ |1 - 0| ∧
    ¬ TooClose 0 1 := by
  refine ⟨valid_new, fun t _ s => Or.inl ⟨s, rfl⟩, by norm_num, ?_⟩
  rintro ⟨_, h, _⟩
  norm_num at h

/-- a polynomial of degree 2 -/
example : (Polynomial.X ^ 2 : Polynomial ℝ).natDegree < 2 * Quadrature.new.n_gauss ∧ gaussTable Quadrature.new.n_gauss = some gauss10 := by
  refine ⟨?_, rfl⟩
  rw [Polynomial.natDegree_X_pow]; decide

/-- invalid parameters -/
example : ¬ Valid { Quadrature.new with n_gauss := 7 } := by
  rintro ⟨_, _, h⟩
  simp at h

end Russell.Lab
