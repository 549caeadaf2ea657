import Verif.Lab.Bracket
import Mathlib.Algebra.Order.Field.Basic
import Mathlib.Analysis.Calculus.Deriv.Comp
import Mathlib.Analysis.Calculus.Deriv.Mul
import Mathlib.Analysis.Calculus.Deriv.Pow
import Mathlib.Analysis.Calculus.Deriv.Slope
import Mathlib.Analysis.SpecificLimits.Basic
import Mathlib.Tactic.Linarith
import Mathlib.Tactic.Positivity
import Mathlib.Tactic.NormNum

/-!
# Backtracking line search (property C79)

Model of `LineSearcher` (/repo/russell_lab/src/algo/line_search.rs) over an ordered field; exact arithmetic.
-/

namespace Russell.Lab

open Russell Russell.Res

section model
variable {α : Type} [Field α] [LinearOrder α] {A : Type}

/-- `LineSearcher` (/repo/russell_lab/src/algo/line_search.rs:83-109) -/
structure LineSearcher (α : Type) where
  c1 : α
  rho : α
  minAlpha : α
  maxIterations : Nat

/-- `LineSearcher::new` (/repo/russell_lab/src/algo/line_search.rs:25-40, 113-120) -/
def LineSearcher.new : LineSearcher α :=
  { c1 := 1 / 10 ^ 4, rho := 1 / 2, minAlpha := 1 / 10 ^ 20, maxIterations := 20 }

/-- `LineSearcher::validate_params` (/repo/russell_lab/src/algo/line_search.rs:123-140) -/
def LineSearcher.validateParams (s : LineSearcher α) : Res Unit :=
  if s.c1 ≤ 0 ∨ s.c1 ≥ 1 then err "c1 must satisfy 0 < c1 < 1"
  else if s.rho ≤ 0 ∨ s.rho ≥ 1 then err "rho must satisfy 0 < rho < 1"
  else if s.minAlpha ≤ 0 then err "min_alpha must be > 0"
  else if s.minAlpha ≥ 1 then err "min_alpha must be < 1"
  else if s.maxIterations = 0 then err "max_iterations must be ≥ 1"
  else ok ()

/-- the loop of `search` (/repo/russell_lab/src/algo/line_search.rs:191-214); `n` is the number of iterations left -/
def lineLoop (s : LineSearcher α) (x p fx slope : α) (f : Callback α A) : (n nIter : Nat) → α → A → Res ((α × Nat) × A)
  | 0, _, _, _ => err "line search failed to converge"
  | n + 1, nIter, alpha, args => do
    let (fNew, args) ← f (x + alpha * p) args
    if fNew ≤ fx + s.c1 * alpha * slope then ok ((alpha, nIter + 1), args)
    else if alpha * s.rho < s.minAlpha then err "step size too small"
    else lineLoop s x p fx slope f n (nIter + 1) (alpha * s.rho) args

/-- `LineSearcher::search` (/repo/russell_lab/src/algo/line_search.rs:169-215) -/
def LineSearcher.search (s : LineSearcher α) (x p fx slope : α) (args : A) (f : Callback α A) : Res ((α × Nat) × A) := do
  s.validateParams
  if slope ≥ 0 then err "direction must be a descent direction (slope < 0)"
  else lineLoop s x p fx slope f s.maxIterations 0 1 args

/-- `line_search` (/repo/russell_lab/src/algo/line_search.rs:248-254) -/
def lineSearch (x p fx slope : α) (args : A) (f : Callback α A) : Res (α × A) := do
  let ((alpha, _), args) ← LineSearcher.new.search x p fx slope args f
  ok (alpha, args)

/-- `line_search_with_stats` (/repo/russell_lab/src/algo/line_search.rs:259-272) -/
def lineSearchWithStats (x p fx slope : α) (args : A) (f : Callback α A) : Res ((α × Nat) × A) :=
  LineSearcher.new.search x p fx slope args f

end model

section props
variable {α : Type} [Field α] [LinearOrder α] [IsStrictOrderedRing α] {A : Type}

/-- what `validate_params` demands, in mathematical terms -/
def LineParamsOk (s : LineSearcher α) : Prop :=
  (0 < s.c1 ∧ s.c1 < 1) ∧ (0 < s.rho ∧ s.rho < 1) ∧ (0 < s.minAlpha ∧ s.minAlpha < 1) ∧ 1 ≤ s.maxIterations

/-- the sufficient decrease (Armijo) condition for the step `t` -/
def Armijo (c1 x p fx slope : α) (g : α → α) (t : α) : Prop := g (x + t * p) ≤ fx + c1 * t * slope

omit [IsStrictOrderedRing α] in
theorem validateParams_ok {s : LineSearcher α} : s.validateParams = ok () ↔ LineParamsOk s := by
  unfold LineSearcher.validateParams LineParamsOk
  constructor
  · intro h
    split_ifs at h with h1 h2 h3 h4 h5
    push Not at h1 h2 h3 h4
    exact ⟨h1, h2, ⟨h3, h4⟩, by omega⟩
  · rintro ⟨⟨a, b⟩, ⟨c, d⟩, ⟨e, f⟩, g⟩
    rw [if_neg (by push Not; exact ⟨a, b⟩), if_neg (by push Not; exact ⟨c, d⟩), if_neg (not_le.2 e), if_neg (not_le.2 f),
      if_neg (by omega)]

/-- C79: the parameters are accepted exactly when they are in range; otherwise the search ends with an error before the
function is called. -/
theorem C79_validate (s : LineSearcher α) (x p fx slope : α) (args : A) (f : Callback α A) :
    (s.validateParams = ok () ↔ LineParamsOk s) ∧
    (¬ LineParamsOk s → ∃ m, ∀ f : Callback α A, s.search x p fx slope args f = err m) ∧
    (LineParamsOk s → 0 ≤ slope →
      s.search x p fx slope args f = err "direction must be a descent direction (slope < 0)") := by
  refine ⟨validateParams_ok, ?_, ?_⟩
  · intro h
    have : ∃ m, s.validateParams = err m := by
      unfold LineSearcher.validateParams LineParamsOk at *
      split_ifs with h1 h2 h3 h4 h5
      iterate 5 exact ⟨_, rfl⟩
      push Not at h1 h2 h3 h4
      exact absurd ⟨h1, h2, ⟨h3, h4⟩, by omega⟩ h
    obtain ⟨m, hm⟩ := this
    refine ⟨m, fun f => ?_⟩
    unfold LineSearcher.search
    rw [hm]; rfl
  · intro h hs
    unfold LineSearcher.search
    rw [validateParams_ok.2 h]
    exact if_pos hs

/-- the callback computes `g` (whatever it does with its extra arguments) -/
def Computes (f : Callback α A) (g : α → α) : Prop := ∀ t a v a', f t a = ok (v, a') → v = g t

omit [IsStrictOrderedRing α] in
theorem lineLoop_ok {s : LineSearcher α} {x p fx slope : α} {f : Callback α A} {g : α → α} (hf : Computes f g) :
    ∀ (n k : Nat) (args : A) (t : α) (m : Nat) (args' : A),
      (0 < k → s.minAlpha ≤ s.rho ^ k) →
      lineLoop s x p fx slope f n k (s.rho ^ k) args = ok ((t, m), args') →
      ∃ j, m = j + 1 ∧ k ≤ j ∧ j < k + n ∧ t = s.rho ^ j ∧ Armijo s.c1 x p fx slope g t ∧
        (∀ i, k ≤ i → i < j → ¬ Armijo s.c1 x p fx slope g (s.rho ^ i)) ∧ (0 < j → s.minAlpha ≤ s.rho ^ j)
  | 0, _, _, _, _, _, _, h => by cases h
  | n + 1, k, args, t, m, args', hk, h => by
    unfold lineLoop at h
    obtain ⟨⟨v, a⟩, h1, h2⟩ := Res.bind_eq_ok.1 h
    have hv := hf _ _ _ _ h1
    dsimp only at h2
    by_cases hc : v ≤ fx + s.c1 * s.rho ^ k * slope
    · rw [if_pos hc] at h2
      obtain ⟨⟨rfl, rfl⟩, rfl⟩ := by simpa using h2
      exact ⟨k, rfl, le_rfl, by omega, rfl, by rw [Armijo, ← hv]; exact hc, fun i a b => by omega, hk⟩
    · rw [if_neg hc] at h2
      by_cases hm : s.rho ^ k * s.rho < s.minAlpha
      · rw [if_pos hm] at h2; cases h2
      · rw [if_neg hm, ← pow_succ] at h2
        rw [← pow_succ] at hm
        obtain ⟨j, r1, r2, r3, r4, r5, r6, r7⟩ := lineLoop_ok hf n (k + 1) a t m args' (fun _ => not_lt.1 hm) h2
        refine ⟨j, r1, by omega, by omega, r4, r5, ?_, r7⟩
        intro i hi hij
        by_cases e : i = k
        · subst e; rw [Armijo, ← hv]; exact hc
        · exact r6 i (by omega) hij

/-- C79: a successful search returns `ρ^j` with the least `j` whose sufficient decrease condition holds; the second result
is the number of evaluations `j + 1`; the step lies in `[min_alpha, 1]`. -/
theorem C79_armijo {s : LineSearcher α} {x p fx slope : α} {args args' : A} {f : Callback α A} {g : α → α} {t : α} {m : Nat}
    (hf : Computes f g) (h : s.search x p fx slope args f = ok ((t, m), args')) :
    g (x + t * p) ≤ fx + s.c1 * t * slope ∧ g (x + t * p) < fx ∧ 1 ≤ m ∧ m ≤ s.maxIterations ∧ t = s.rho ^ (m - 1) ∧
    (∀ i, i + 1 < m → fx + s.c1 * s.rho ^ i * slope < g (x + s.rho ^ i * p)) ∧ s.minAlpha ≤ t ∧ t ≤ 1 := by
  unfold LineSearcher.search at h
  obtain ⟨u, hu, h⟩ := Res.bind_eq_ok.1 h
  obtain ⟨hc, hr, hm, hi⟩ := validateParams_ok.1 hu
  by_cases hs : slope ≥ 0
  · rw [if_pos hs] at h; cases h
  · rw [if_neg hs] at h
    rw [← pow_zero s.rho] at h
    obtain ⟨j, rfl, -, r3, r4, r5, r6, r7⟩ := lineLoop_ok hf _ 0 _ _ _ _ (by simp) h
    have ht : 0 < t := by rw [r4]; exact pow_pos hr.1 _
    have ht1 : t ≤ 1 := by rw [r4]; exact pow_le_one₀ hr.1.le hr.2.le
    refine ⟨r5, lt_of_le_of_lt r5 ?_, by omega, by omega, r4, ?_, ?_, ht1⟩
    · have : s.c1 * t * slope < 0 := mul_neg_of_pos_of_neg (mul_pos hc.1 ht) (not_le.1 hs)
      linarith
    · intro i hij
      exact not_le.1 (r6 i (Nat.zero_le _) (by omega))
    · rcases Nat.eq_zero_or_pos j with h0 | h0
      · subst h0; rw [r4, pow_zero]; exact hm.2.le
      · rw [r4]; exact r7 h0

theorem lineLoop_complete {s : LineSearcher α} {x p fx slope : α} {f : Callback α A} {g : α → α} (hf : Computes f g)
    (htot : ∀ t a, ∃ v a', f t a = ok (v, a')) (j : Nat) (hj : Armijo s.c1 x p fx slope g (s.rho ^ j))
    (hmin : ∀ i, i ≤ j → s.minAlpha ≤ s.rho ^ i) :
    ∀ (n k : Nat) (args : A), k ≤ j → j < k + n →
      ∃ t m args', lineLoop s x p fx slope f n k (s.rho ^ k) args = ok ((t, m), args')
  | 0, _, _, h1, h2 => by omega
  | n + 1, k, args, h1, h2 => by
    unfold lineLoop
    obtain ⟨v, a, he⟩ := htot (x + s.rho ^ k * p) args
    rw [he, Res.ok_bind]
    dsimp only
    have hv := hf _ _ _ _ he
    by_cases hc : v ≤ fx + s.c1 * s.rho ^ k * slope
    · rw [if_pos hc]; exact ⟨_, _, _, rfl⟩
    · rw [if_neg hc]
      have hkj : k ≠ j := by
        rintro rfl; exact hc (by rw [hv]; exact hj)
      rw [← pow_succ, if_neg (not_lt.2 (hmin (k + 1) (by omega)))]
      exact lineLoop_complete hf htot j hj hmin n (k + 1) a (by omega) (by omega)

/-- C79: if one of the steps `ρ^j` the search may try (`j < max_iterations`, `ρ^j ≥ min_alpha`) gives sufficient decrease,
the search succeeds. -/
theorem C79_complete {s : LineSearcher α} {x p fx slope : α} {args : A} {f : Callback α A} {g : α → α}
    (hp : LineParamsOk s) (hs : slope < 0) (hf : Computes f g) (htot : ∀ t a, ∃ v a', f t a = ok (v, a'))
    (j : Nat) (hj : j < s.maxIterations) (hm : s.minAlpha ≤ s.rho ^ j)
    (ha : g (x + s.rho ^ j * p) ≤ fx + s.c1 * s.rho ^ j * slope) :
    ∃ t m args', s.search x p fx slope args f = ok ((t, m), args') := by
  unfold LineSearcher.search
  rw [validateParams_ok.2 hp, Res.ok_bind, if_neg (not_le.2 hs)]
  have := lineLoop_complete (s := s) (fx := fx) (slope := slope) (x := x) (p := p) hf htot j ha
    (fun i hi => hm.trans (pow_le_pow_of_le_one hp.2.1.1.le hp.2.1.2.le hi)) s.maxIterations 0 args (Nat.zero_le _) (by omega)
  rwa [pow_zero] at this

theorem lineLoop_err {s : LineSearcher α} {x p fx slope : α} {f : Callback α A}
    (htot : ∀ t a, ∃ v a', f t a = ok (v, a')) :
    ∀ (n k : Nat) (args : A), (∀ i, i ≤ k + n → s.minAlpha ≤ s.rho ^ i) →
      lineLoop s x p fx slope f n k (s.rho ^ k) args ≠ err "step size too small"
  | 0, _, _, _ => by unfold lineLoop; intro h; injection h with h; revert h; decide
  | n + 1, k, args, hi => by
    unfold lineLoop
    obtain ⟨v, a, he⟩ := htot (x + s.rho ^ k * p) args
    rw [he, Res.ok_bind]
    dsimp only
    split_ifs with h1 h2
    · simp
    · rw [← pow_succ] at h2
      exact absurd h2 (not_lt.2 (hi _ (by omega)))
    · rw [← pow_succ]
      exact lineLoop_err htot n (k + 1) a (fun i h => hi i (by omega))

/-- C79: with the default parameters the lower limit of the step is never reached: twenty halvings give more than 1e-20, so
"step size too small" cannot be returned. -/
theorem C79_default_min_alpha (x p fx slope : α) (args : A) (f : Callback α A)
    (htot : ∀ t a, ∃ v a', f t a = ok (v, a')) :
    lineSearchWithStats x p fx slope args f ≠ err "step size too small" := by
  unfold lineSearchWithStats LineSearcher.search
  have hp : LineParamsOk (LineSearcher.new : LineSearcher α) := by
    unfold LineParamsOk LineSearcher.new
    norm_num
  rw [validateParams_ok.2 hp, Res.ok_bind]
  split_ifs with h1
  · intro h; injection h with h; revert h; decide
  · have := lineLoop_err (s := (LineSearcher.new : LineSearcher α)) (x := x) (p := p) (fx := fx) (slope := slope) htot
      20 0 args (fun i hi => by
        refine le_trans ?_ (pow_le_pow_of_le_one hp.2.1.1.le hp.2.1.2.le hi)
        unfold LineSearcher.new
        norm_num)
    rwa [pow_zero] at this

/-- C79: `line_search` is `line_search_with_stats` without the number of evaluations, and the default parameters are valid. -/
theorem C79_wrappers (x p fx slope : α) (args : A) (f : Callback α A) :
    LineParamsOk (LineSearcher.new : LineSearcher α) ∧
    (∀ t a', lineSearch x p fx slope args f = ok (t, a') ↔ ∃ m, lineSearchWithStats x p fx slope args f = ok ((t, m), a')) ∧
    (∀ m, lineSearch x p fx slope args f = err m ↔ lineSearchWithStats x p fx slope args f = err m) := by
  refine ⟨by unfold LineParamsOk LineSearcher.new; norm_num, ?_, ?_⟩
  · intro t a'
    unfold lineSearch lineSearchWithStats
    cases LineSearcher.new.search x p fx slope args f with
    | ok v => obtain ⟨⟨a, b⟩, c⟩ := v; simp
    | err m => simp
    | panic => simp
  · intro m
    unfold lineSearch lineSearchWithStats
    cases LineSearcher.new.search x p fx slope args f with
    | ok v => obtain ⟨⟨a, b⟩, c⟩ := v; simp
    | err m => simp
    | panic => simp

end props

section calculus
variable {A : Type}

/-- For a differentiable function and a true descent direction, all small enough steps satisfy the Armijo condition. -/
theorem armijo_small {g : ℝ → ℝ} {x p d c1 : ℝ} (hg : HasDerivAt g d x) (hd : d * p < 0) (hc : c1 < 1) :
    ∃ δ > 0, ∀ t, 0 < t → t < δ → Armijo c1 x p (g x) (d * p) g t := by
  have h1 : HasDerivAt (fun t => g (x + t * p)) (d * p) 0 := by
    have h2 : HasDerivAt (fun t : ℝ => x + t * p) p 0 := by
      simpa using ((hasDerivAt_id (0 : ℝ)).mul_const p).const_add x
    have h3 : HasDerivAt g d (x + 0 * p) := by simpa using hg
    exact h3.comp (0 : ℝ) h2
  have h4 : ∀ᶠ t in nhdsWithin 0 {0}ᶜ, slope (fun t => g (x + t * p)) 0 t < c1 * (d * p) := by
    have := hasDerivAt_iff_tendsto_slope.1 h1
    refine this.eventually (gt_mem_nhds ?_)
    nlinarith
  rw [eventually_nhdsWithin_iff, Metric.eventually_nhds_iff] at h4
  obtain ⟨δ, hδ, h⟩ := h4
  refine ⟨δ, hδ, fun t ht htd => ?_⟩
  have := h (y := t) (by simpa [abs_of_pos ht] using htd) (by simpa using ht.ne')
  rw [slope_def_field] at this
  unfold Armijo
  simp only [zero_mul, add_zero, sub_zero] at this
  rw [div_lt_iff₀ ht] at this
  linarith

/-- C79: for a differentiable function, with the true slope of a descent direction, the search succeeds as soon as enough
iterations and a small enough minimum step are allowed. -/
theorem C79_differentiable {g : ℝ → ℝ} {x p d c1 rho : ℝ} (hg : HasDerivAt g d x) (hd : d * p < 0)
    (hc : 0 < c1 ∧ c1 < 1) (hr : 0 < rho ∧ rho < 1) :
    ∃ N, ∀ (s : LineSearcher ℝ) (args : A) (f : Callback ℝ A), s.c1 = c1 → s.rho = rho → N ≤ s.maxIterations →
      0 < s.minAlpha → s.minAlpha ≤ rho ^ N → (∀ t a, ∃ a', f t a = ok (g t, a')) →
      ∃ t m args', s.search x p (g x) (d * p) args f = ok ((t, m), args') ∧ g (x + t * p) < g x := by
  obtain ⟨δ, hδ, h⟩ := armijo_small hg hd hc.2
  obtain ⟨j, hj⟩ := exists_pow_lt_of_lt_one hδ hr.2
  refine ⟨j + 1, fun s args f e1 e2 hN hm0 hm hf => ?_⟩
  have hcomp : Computes f g := by
    intro t a v a' e
    obtain ⟨b, hb⟩ := hf t a
    rw [hb] at e
    simpa using (congrArg Prod.fst (Res.ok.inj e)).symm
  have hj1 : rho ^ (j + 1) ≤ rho ^ j := pow_le_pow_of_le_one hr.1.le hr.2.le (Nat.le_succ _)
  have hp : LineParamsOk s := by
    refine ⟨by rw [e1]; exact hc, by rw [e2]; exact hr, ⟨hm0, ?_⟩, by omega⟩
    refine lt_of_le_of_lt hm ?_
    exact pow_lt_one₀ hr.1.le hr.2 (by omega)
  obtain ⟨t, m, args', hres⟩ := C79_complete (s := s) (x := x) (p := p) (fx := g x) (slope := d * p) (args := args)
    hp hd hcomp (fun t a => ⟨g t, hf t a⟩) j (by omega) (by rw [e2]; linarith) (by
      have := h (rho ^ j) (pow_pos hr.1 _) hj
      rw [e1, e2]; exact this)
  exact ⟨t, m, args', hres, (C79_armijo hcomp hres).2.1⟩

/-- The hypotheses of `C79_differentiable` can be met: `g(x) = x²` at `x = 1` in the direction `-1`. -/
example : HasDerivAt (fun x : ℝ => x ^ 2) 2 1 ∧ (2 : ℝ) * (-1) < 0 := by
  refine ⟨?_, by norm_num⟩
  simpa using (hasDerivAt_pow 2 (1 : ℝ))

end calculus

section cases

/-- a callback that counts its calls -/
def countedSquare : Callback ℚ Nat := fun t n => ok (t * t, n + 1)

/-- `g(x) = x²` at `x = 1` in the direction `-4` (slope `-8`): the full step and the half step fail, `1/4` succeeds. -/
example : lineSearchWithStats (1 : ℚ) (-4) 1 (-8) 0 countedSquare = ok ((1 / 4, 3), 3) := by
  simp [lineSearchWithStats, LineSearcher.search, LineSearcher.validateParams, LineSearcher.new, lineLoop, countedSquare]
  norm_num

/-- With a wrong slope the search fails after twenty trials: `g(x) = x` at `x = 0` in the direction `1`. -/
example : lineSearch (0 : ℚ) 1 0 (-1) (0 : Nat) (fun t n => ok (t, n + 1)) = err "line search failed to converge" := by
  simp [lineSearch, LineSearcher.search, LineSearcher.validateParams, LineSearcher.new, lineLoop]
  norm_num

end cases

end Russell.Lab
