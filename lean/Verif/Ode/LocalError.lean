import Verif.Ode.OrderProps
import Mathlib.Analysis.Calculus.MeanValue
import Mathlib.Analysis.Calculus.Deriv.Polynomial
import Mathlib.Analysis.Calculus.Deriv.Shift
import Mathlib.RingTheory.PowerSeries.Trunc
import Mathlib.Algebra.Polynomial.Div
import Mathlib.Topology.Algebra.Polynomial

/-!
# The local error of the explicit Runge-Kutta methods (C60)

The statements about the coefficients give bounds for the difference between the result of a step and a solution of the
differential equations in the real numbers.
-/

namespace Russell.Ode

open Russell Russell.Res Russell.Lab
open Asymptotics Filter Topology

/-- Values of a polynomial at close points are close. -/
theorem eval_isBigO {ι : Type} {φ : ℝ → ℝ} {a b : ι → ℝ → ℝ} (hab : ∀ i, (fun h => a i h - b i h) =O[𝓝 0] φ)
    (ha : ∀ i, a i =O[𝓝 0] (fun _ => (1 : ℝ))) (hb : ∀ i, b i =O[𝓝 0] (fun _ => (1 : ℝ))) (f : MvPolynomial ι ℝ) :
    (fun h => MvPolynomial.eval (fun i => a i h) f - MvPolynomial.eval (fun i => b i h) f) =O[𝓝 0] φ := by
  suffices hs : (fun h => MvPolynomial.eval (fun i => a i h) f) =O[𝓝 0] (fun _ => (1 : ℝ)) ∧
      (fun h => MvPolynomial.eval (fun i => a i h) f - MvPolynomial.eval (fun i => b i h) f) =O[𝓝 0] φ from hs.2
  induction f using MvPolynomial.induction_on with
  | C c =>
    simp only [MvPolynomial.eval_C, sub_self]
    exact ⟨isBigO_const_const c one_ne_zero _, isBigO_zero _ _⟩
  | add f g hf hg =>
    simp only [map_add]
    refine ⟨hf.1.add hg.1, (hf.2.add hg.2).congr_left fun h => by ring⟩
  | mul_X f i hf =>
    simp only [map_mul, MvPolynomial.eval_X]
    refine ⟨(hf.1.mul (ha i)).congr_right fun _ => by ring, ?_⟩
    have h1 := hf.1.mul (hab i)
    have h2 := hf.2.mul (hb i)
    simp only [one_mul, mul_one] at h1 h2
    exact (h1.add h2).congr_left fun h => by ring

/-- A polynomial without terms below `X^d` is `O(h^d)`. -/
theorem eval_isBigO_pow {P : Polynomial ℝ} {d : Nat} (h : ∀ e, e < d → P.coeff e = 0) :
    (fun x => P.eval x) =O[𝓝 0] (fun x : ℝ => x ^ d) := by
  obtain ⟨Q, rfl⟩ := Polynomial.X_pow_dvd_iff.2 h
  have hQ : (fun x => Q.eval x) =O[𝓝 0] (fun _ => (1 : ℝ)) := Q.continuous.continuousAt.isBigO_one ℝ
  have := (isBigO_refl (fun x : ℝ => x ^ d) (𝓝 0)).mul hQ
  simp only [mul_one] at this
  exact this.congr_left fun x => by simp

/-- Integration of a bound. -/
theorem isBigO_of_deriv {v v' : ℝ → ℝ} {d : Nat} (h0 : v 0 = 0) (hd : ∀ᶠ h in 𝓝 0, HasDerivAt v (v' h) h)
    (hb : v' =O[𝓝 0] (fun h : ℝ => h ^ d)) : v =O[𝓝 0] (fun h : ℝ => h ^ (d + 1)) := by
  obtain ⟨C, hC⟩ := hb.bound
  obtain ⟨δ, hδ, hball⟩ := Metric.eventually_nhds_iff.1 (hd.and hC)
  refine IsBigO.of_bound C ?_
  refine Metric.eventually_nhds_iff.2 ⟨δ, hδ, ?_⟩
  intro h hh
  have hmem : ∀ s ∈ Metric.closedBall (0 : ℝ) |h|, dist s 0 < δ ∧ |s| ≤ |h| := by
    intro s hs
    have h1 : |s| ≤ |h| := by simpa using hs
    have h2 : |h| < δ := by simpa using hh
    refine ⟨?_, h1⟩
    rw [Real.dist_eq, sub_zero]
    exact lt_of_le_of_lt h1 h2
  have hCn : 0 ≤ C * |h| ^ d := by
    have := (hball hh).2
    rw [norm_pow, Real.norm_eq_abs h] at this
    exact (norm_nonneg _).trans this
  have key := Convex.norm_image_sub_le_of_norm_hasDerivWithin_le (f := v) (f' := v') (C := C * |h| ^ d)
    (s := Metric.closedBall (0 : ℝ) |h|) (x := 0) (y := h)
    (fun s hs => (hball (hmem s hs).1).1.hasDerivWithinAt) (by
      intro s hs
      obtain ⟨s1, s2⟩ := hmem s hs
      have := (hball s1).2
      rw [norm_pow, Real.norm_eq_abs s] at this
      refine this.trans ?_
      by_cases hC0 : 0 ≤ C
      · exact mul_le_mul_of_nonneg_left (pow_le_pow_left₀ (abs_nonneg s) s2 d) hC0
      · push Not at hC0
        exact ((mul_nonpos_of_nonpos_of_nonneg hC0.le (by positivity)).trans hCn))
    (convex_closedBall 0 |h|) (by simp) (by simp)
  rw [h0, sub_zero, sub_zero, Real.norm_eq_abs h] at key
  rw [norm_pow, Real.norm_eq_abs h, pow_succ, ← mul_assoc]
  exact key

variable {n : Nat}

/-- Close series have close images. -/
theorem aeval_dvd {ι : Type} {d : Nat} {a b : ι → PowerSeries ℝ} (h : ∀ i, (PowerSeries.X : PowerSeries ℝ) ^ d ∣ a i - b i)
    (f : MvPolynomial ι ℝ) : (PowerSeries.X : PowerSeries ℝ) ^ d ∣ MvPolynomial.aeval a f - MvPolynomial.aeval b f := by
  induction f using MvPolynomial.induction_on with
  | C c => simp
  | add f g hf hg =>
    rw [map_add, map_add, add_sub_add_comm]
    exact dvd_add hf hg
  | mul_X f i hf =>
    rw [map_mul, map_mul, MvPolynomial.aeval_X, MvPolynomial.aeval_X]
    have := dvd_add (hf.mul_right (a i)) ((h i).mul_left (MvPolynomial.aeval b f))
    rwa [show (MvPolynomial.aeval a f - MvPolynomial.aeval b f) * a i + MvPolynomial.aeval b f * (a i - b i) =
      MvPolynomial.aeval a f * a i - MvPolynomial.aeval b f * b i by ring] at this

/-- A solution near `x`, as a function of the distance from `x`, agrees with the formal solution. -/
theorem taylor {f : PolySystem ℝ n} {x : ℝ} {y : List ℝ} {Y : Fin n → PowerSeries ℝ} (hY : FormalSolution f x y Y)
    {u : Fin n → ℝ → ℝ} (h0 : ∀ i, u i 0 = comp y i)
    (hode : ∀ i, ∀ᶠ h in 𝓝 0, HasDerivAt (u i) (MvPolynomial.eval (vars (x + h) fun l => u l h) (f i)) h) (d : Nat) :
    ∀ i, (fun h => u i h - (PowerSeries.trunc (d + 1) (Y i)).eval h) =O[𝓝 0] (fun h : ℝ => h ^ (d + 1)) := by
  have hu : ∀ i, (u i) =O[𝓝 0] (fun _ => (1 : ℝ)) := fun i => (hode i).self_of_nhds.continuousAt.isBigO_one ℝ
  induction d with
  | zero =>
    intro i
    have := (hode i).self_of_nhds.isBigO_sub
    refine (this.congr_left fun h => ?_).congr_right fun h => by simp
    have e : PowerSeries.trunc (0 + 1) (Y i) = Polynomial.C (comp y i) := by
      ext e
      rw [PowerSeries.coeff_trunc, Polynomial.coeff_C]
      by_cases he : e = 0
      · rw [if_pos he, if_pos (by omega), he, PowerSeries.coeff_zero_eq_constantCoeff_apply, hY.start]
      · rw [if_neg he, if_neg (by omega)]
    rw [h0, e, Polynomial.eval_C]
  | succ d ih =>
    intro i
    have hT : ∀ (i : Fin n) (e : Nat), (fun h => (PowerSeries.trunc e (Y i)).eval h) =O[𝓝 0] (fun _ => (1 : ℝ)) :=
      fun i e => (Polynomial.continuous _).continuousAt.isBigO_one ℝ
    have hX : (fun h : ℝ => x + h) =O[𝓝 0] (fun _ => (1 : ℝ)) := (continuous_const.add continuous_id).continuousAt.isBigO_one ℝ
    -- the right-hand side along the polynomial
    let Q : Polynomial ℝ := MvPolynomial.aeval
      (vars (Polynomial.C x + Polynomial.X) fun l => PowerSeries.trunc (d + 1) (Y l)) (f i)
    have hQ : ∀ h, Q.eval h = MvPolynomial.eval (vars (x + h) fun l => (PowerSeries.trunc (d + 1) (Y l)).eval h) (f i) := by
      intro h
      have e := MvPolynomial.map_aeval (vars (Polynomial.C x + Polynomial.X) fun l => PowerSeries.trunc (d + 1) (Y l))
        (Polynomial.evalRingHom h) (f i)
      refine Eq.trans e ?_
      unfold MvPolynomial.eval
      congr 2
      · ext; simp
      · funext v
        cases v with
        | none => simp only [vars, Polynomial.coe_evalRingHom, Polynomial.eval_add, Polynomial.eval_C, Polynomial.eval_X]
        | some l => rfl
    have h1 : (fun h => MvPolynomial.eval (vars (x + h) fun l => u l h) (f i) - Q.eval h) =O[𝓝 0] (fun h : ℝ => h ^ (d + 1)) := by
      have := eval_isBigO (φ := fun h : ℝ => h ^ (d + 1)) (a := fun v h => vars (x + h) (fun l => u l h) v)
        (b := fun v h => vars (x + h) (fun l => (PowerSeries.trunc (d + 1) (Y l)).eval h) v) (by
          rintro (_ | l)
          · simp only [vars, sub_self]; exact isBigO_zero _ _
          · exact ih l) (by
          rintro (_ | l)
          · exact hX
          · exact hu l) (by
          rintro (_ | l)
          · exact hX
          · exact hT l (d + 1)) (f i)
      exact this.congr_left fun h => by rw [hQ]
    have h2 : (fun h => (Q - (PowerSeries.trunc (d + 2) (Y i)).derivative).eval h) =O[𝓝 0] (fun h : ℝ => h ^ (d + 1)) := by
      apply eval_isBigO_pow
      let φ : Polynomial ℝ →ₐ[ℝ] PowerSeries ℝ := Polynomial.coeToPowerSeries.algHom ℝ
      have hφ : ∀ P : Polynomial ℝ, ∀ e, PowerSeries.coeff e (φ P) = P.coeff e := fun P e => by simp [φ]
      have hd := aeval_dvd (d := d + 1) (a := vars (PowerSeries.C x + PowerSeries.X) fun l => φ (PowerSeries.trunc (d + 1) (Y l)))
        (b := vars (PowerSeries.C x + PowerSeries.X) Y) (by
          rintro (_ | l)
          · simp [vars]
          · simp only [vars]
            rw [PowerSeries.X_pow_dvd_iff]
            intro e he
            rw [map_sub, hφ, PowerSeries.coeff_trunc, if_pos he, sub_self]) (f i)
      have hφQ : φ Q = MvPolynomial.aeval (vars (PowerSeries.C x + PowerSeries.X) fun l => φ (PowerSeries.trunc (d + 1) (Y l))) (f i) := by
        rw [← AlgHom.comp_apply, MvPolynomial.comp_aeval]
        congr 2
        funext v
        cases v with
        | none => simp [vars, φ]
        | some l => rfl
      rw [← hφQ, ← hY.ode i, PowerSeries.X_pow_dvd_iff] at hd
      intro e he
      have h3 := hd e he
      rw [map_sub, hφ, show PowerSeries.coeff e (PowerSeries.derivative ℝ (Y i)) = PowerSeries.coeff (e + 1) (Y i) * (e + 1) from
        PowerSeries.coeff_derivative _ _] at h3
      rw [Polynomial.coeff_sub, Polynomial.coeff_derivative, PowerSeries.coeff_trunc, if_pos (by omega)]
      exact h3
    refine isBigO_of_deriv (v' := fun h => MvPolynomial.eval (vars (x + h) fun l => u l h) (f i) -
      (PowerSeries.trunc (d + 2) (Y i)).derivative.eval h) ?_ ?_ ?_
    · rw [h0, ← Polynomial.coeff_zero_eq_eval_zero, PowerSeries.coeff_trunc, if_pos (by omega),
        PowerSeries.coeff_zero_eq_constantCoeff_apply, hY.start, sub_self]
    · filter_upwards [hode i] with h hh
      exact hh.sub (Polynomial.hasDerivAt _ _)
    · refine (h1.add h2).congr_left fun h => ?_
      rw [Polynomial.eval_sub]
      ring

/-- `u` is a solution near `x` with the value `y` at `x`. -/
structure SolutionAt (f : PolySystem ℝ n) (x : ℝ) (y : List ℝ) (u : ℝ → Fin n → ℝ) : Prop where
  start : ∀ i : Fin n, u x i = comp y i
  ode : ∀ i, ∀ᶠ ξ in 𝓝 x, HasDerivAt (fun ξ => u ξ i) (MvPolynomial.eval (vars ξ (u ξ)) (f i)) ξ

/-- Polynomials in the stepsize that agree with the formal solution at `x + θ h` up to `h^p` agree with a solution up to
`O(h^(p+1))`. -/
theorem local_error {f : PolySystem ℝ n} {x : ℝ} {y : List ℝ} {u : ℝ → Fin n → ℝ} (hu : SolutionAt f x y u) {W : Fin n → Polynomial ℝ}
    {p : Nat} {θ : ℝ}
    (hW : ∀ Y, FormalSolution f x y Y → ∀ d, d ≤ p → ∀ i, (W i).coeff d = θ ^ d * PowerSeries.coeff d (Y i)) (i : Fin n) :
    (fun h => (W i).eval h - u (x + θ * h) i) =O[𝓝 0] (fun h : ℝ => h ^ (p + 1)) := by
  obtain ⟨Y, hY, -⟩ := formalSolution_exists f x y
  have ht := taylor (u := fun i h => u (x + h) i) hY (fun i => by rw [add_zero]; exact hu.start i) (by
    intro i
    have hc : Tendsto (fun h : ℝ => x + h) (𝓝 0) (𝓝 x) := by
      have : ContinuousAt (fun h : ℝ => x + h) 0 := (continuous_const.add continuous_id).continuousAt
      simpa [ContinuousAt] using this
    filter_upwards [hc.eventually (hu.ode i)] with h hh
    exact hh.comp_const_add x h) p i
  have hθ : Tendsto (fun h : ℝ => θ * h) (𝓝 0) (𝓝 0) := by
    have : ContinuousAt (fun h : ℝ => θ * h) 0 := (continuous_const.mul continuous_id).continuousAt
    simpa [ContinuousAt] using this
  have h1 := ht.comp_tendsto hθ
  have h2 : ((fun h : ℝ => h ^ (p + 1)) ∘ fun h => θ * h) =O[𝓝 0] (fun h : ℝ => h ^ (p + 1)) := by
    refine IsBigO.of_bound (|θ| ^ (p + 1)) (Eventually.of_forall fun h => ?_)
    simp [mul_pow]
  have h3 : (fun h => (W i - (PowerSeries.trunc (p + 1) (Y i)).comp (Polynomial.C θ * Polynomial.X)).eval h) =O[𝓝 0]
      (fun h : ℝ => h ^ (p + 1)) := by
    apply eval_isBigO_pow
    intro e he
    rw [Polynomial.coeff_sub, Polynomial.comp_C_mul_X_coeff, PowerSeries.coeff_trunc, if_pos he, hW Y hY e (by omega) i]
    ring
  refine (h3.sub (h1.trans h2)).congr_left fun h => ?_
  simp only [Polynomial.eval_sub, Polynomial.eval_comp, Polynomial.eval_mul, Polynomial.eval_C, Polynomial.eval_X, Function.comp]
  ring

theorem isBigO_bound {v : ℝ → ℝ} {d : Nat} (h : v =O[𝓝 0] (fun h : ℝ => h ^ d)) :
    ∃ C δ : ℝ, 0 < δ ∧ ∀ s, |s| < δ → |v s| ≤ C * |s| ^ d := by
  obtain ⟨C, hC⟩ := h.bound
  obtain ⟨δ, hδ, hb⟩ := Metric.eventually_nhds_iff.1 hC
  refine ⟨C, δ, hδ, ?_⟩
  intro s hs
  have := hb (y := s) (by simpa using hs)
  rwa [norm_pow, Real.norm_eq_abs, Real.norm_eq_abs] at this

theorem bound_all {v : Fin n → ℝ → ℝ} {d : Nat} (h : ∀ i, v i =O[𝓝 0] (fun h : ℝ => h ^ d)) :
    ∃ C δ : ℝ, 0 < δ ∧ ∀ s, |s| < δ → ∀ i, |v i s| ≤ C * |s| ^ d := by
  choose C δ hδ hb using fun i => isBigO_bound (h i)
  by_cases hn : Nonempty (Fin n)
  · obtain ⟨i0, -, h0⟩ := Finset.exists_max_image Finset.univ C Finset.univ_nonempty
    obtain ⟨i1, -, h1⟩ := Finset.exists_min_image Finset.univ δ Finset.univ_nonempty
    refine ⟨C i0, δ i1, hδ i1, ?_⟩
    intro s hs i
    refine (hb i s (lt_of_lt_of_le hs (h1 i (Finset.mem_univ i)))).trans ?_
    exact mul_le_mul_of_nonneg_right (h0 i (Finset.mem_univ i)) (by positivity)
  · exact ⟨0, 1, one_pos, fun s _ i => absurd ⟨i⟩ hn⟩

/-- **C60**: the local error. For every polynomial system in the real numbers and every solution `u` through `(x, y)`, a step of a
method of the documented order `p` from `(x, y)` with the stepsize `h` differs from `u(x + h)` by no more than `C |h|^(p+1)`, for
all small `h`. -/
theorem C60_local_error {m : Method} {t : Tableau} (ht : m.tableau = some t) (hm : m ≠ .DoPri8) {f : PolySystem ℝ n} {x : ℝ}
    {y : List ℝ} {u : ℝ → Fin n → ℝ} (hu : SolutionAt f x y u) :
    ∃ C δ : ℝ, 0 < δ ∧ ∀ h, |h| < δ → ∀ fns p err e' y', ErkRelation fns n f.field p t x y h err e' y' →
      ∀ i : Fin n, |comp y' i - u (x + h) i| ≤ C * |h| ^ (m.information.order + 1) := by
  obtain ⟨W, h1, h2⟩ := C60_step ht hm f x y
  obtain ⟨C, δ, hδ, hb⟩ := bound_all (local_error (θ := 1) hu fun Y hY d hd i => by rw [h2 Y hY d hd i, one_pow, one_mul])
  refine ⟨C, δ, hδ, ?_⟩
  intro h hh fns p err e' y' hR i
  have := hb h hh i
  rw [one_mul] at this
  rw [h1 fns p h err e' y' hR i]
  exact this

/-- **C60**: the error of the dense output of DoPri5 at the fraction `θ` of a step is no more than `C |h|^5`. -/
theorem C60_dense5_error {f : PolySystem ℝ n} {x : ℝ} {y : List ℝ} {u : ℝ → Fin n → ℝ} (hu : SolutionAt f x y u) (θ : ℝ) :
    ∃ C δ : ℝ, 0 < δ ∧ ∀ h, |h| < δ → h ≠ 0 → ∀ fns p err e' y' o aux r,
      ErkRelation fns n f.field p doPri5 x y h err e' y' → p.method = .DoPri5 → e'.dense_out = some o →
      e'.denseOutput aux (x + θ * h) (x + h) y' h = ok r →
      ∀ i : Fin n, |comp r i - u (x + θ * h) i| ≤ C * |h| ^ 5 := by
  obtain ⟨W, h1, h2⟩ := C60_dense5 f x y θ
  obtain ⟨C, δ, hδ, hb⟩ := bound_all (local_error hu h2)
  refine ⟨C, δ, hδ, ?_⟩
  intro h hh h0 fns p err e' y' o aux r hR hm ho he i
  rw [h1 fns p h err e' y' o aux r hR hm h0 ho he i]
  exact hb h hh i

/-- **C63**: the error vector `h Σ eⱼ kⱼ` is no more than `C |h|^(q+1)`, `q` being the documented order of the estimator. -/
theorem C63_estimate_error_partial {m : Method} {t : Tableau} (ht : m.tableau = some t) (h7 : m ≠ .Fehlberg7) (h8 : m ≠ .DoPri8)
    (he : m.information.embedded = true) (f : PolySystem ℝ n) (x : ℝ) (y : List ℝ) :
    ∃ C δ : ℝ, 0 < δ ∧ ∀ h, |h| < δ → ∀ k, RkStages n t.bb.length t.coefs.a t.coefs.c f.field x y h k →
      ∀ i : Fin n, |h * ∑ j ∈ Finset.range t.bb.length, t.coefs.e j * comp (k j) i| ≤
        C * |h| ^ (m.information.order_of_estimator + 1) := by
  obtain ⟨W, h1, h2⟩ := C63_estimate_partial ht h7 h8 he f x y
  obtain ⟨C, δ, hδ, hb⟩ := bound_all (v := fun i h => (W i).eval h) (d := m.information.order_of_estimator + 1)
    fun i => eval_isBigO_pow fun e he => h2 e (by omega) i
  refine ⟨C, δ, hδ, ?_⟩
  intro h hh k hk i
  rw [h1 h k hk i]
  exact hb h hh i

end Russell.Ode
