import Verif.Ode.ErkAccept
import Mathlib.Tactic.Positivity
import Mathlib.Tactic.Linarith

/-!
# Solutions with the explicit Runge-Kutta methods (C59)
-/

namespace Russell.Ode

open Russell Russell.Res Russell.Lab

set_option linter.unusedSectionVars false

variable {K σ : Type} [Field K] [LinearOrder K] [FloorSemiring K]

/-- The coefficients of a tableau as numbers of `K`. -/
def Tableau.coefs (t : Tableau) : Coefs K where
  s := t.bb.length
  a i j := (((t.aa.getD i []).getD j 0 : ℚ) : K)
  b i := ((t.bb.getD i 0 : ℚ) : K)
  c i := ((t.cc.getD i 0 : ℚ) : K)
  e i := (((t.ee.getD []).getD i 0 : ℚ) : K)

/-- The tableau has the right sizes and the flags of the method hold. -/
def Tableau.WellFormed (t : Tableau) (m : Method) : Prop :=
  0 < t.bb.length ∧ t.aa.length = t.bb.length ∧ (∀ r ∈ t.aa, r.length = t.bb.length) ∧ t.cc.length = t.bb.length ∧
  t.cc.getD 0 0 = 0 ∧ (m.information.embedded = true → ∃ l, t.ee = some l ∧ l.length = t.bb.length) ∧
  (m.information.first_step_same_as_last = true → t.cc.getD (t.bb.length - 1) 0 = 1 ∧
    (∀ j, j < t.bb.length - 1 → (t.aa.getD (t.bb.length - 1) []).getD j 0 = t.bb.getD j 0) ∧
    t.bb.getD (t.bb.length - 1) 0 = 0) ∧
  (m = .DoPri5 → t.bb.length = 7) ∧
  (m = .DoPri8 → t.bb.length = 12 ∧ m.information.first_step_same_as_last = false)

/-- The tableaux of all the methods are well formed. -/
theorem tableau_wellFormed {m : Method} {t : Tableau} (h : m.tableau = some t) : t.WellFormed m := by
  cases m
  case Radau5 => cases h
  case BwEuler => cases h
  case FwEuler => cases h
  all_goals
    cases h
    refine ⟨by decide, by decide, by decide, by decide, by decide +kernel, ?_, ?_, ?_, ?_⟩
    · first
        | (intro h; cases h; done)
        | (intro _; exact ⟨_, rfl, by decide⟩)
    · first
        | (intro h; cases h; done)
        | (intro _; decide +kernel)
    · first
        | (intro h; cases h; done)
        | (intro _; decide)
    · first
        | (intro h; cases h; done)
        | (intro _; decide)

/-- `e` was made by `new` with the parameters `p`, and has been used since. -/
structure Erk.Made (e : Erk K) (n : Nat) (p : ErkParams K) (t : Tableau) : Prop where
  tab : p.method.tableau = some t
  holds : e.Holds n t.coefs
  params : e.params = p
  info : e.info = p.method.information
  lund : e.lund_factor = 1 / ((p.method.information.order_of_estimator : K) + 1) - p.lund_beta * p.lund_m
  d_min : e.d_min = 1 / p.m_min
  d_max : e.d_max = 1 / p.m_max

theorem vget_map_lit {l : List ℚ} {i : Nat} (h : i < l.length) :
    vget (l.map (lit : ℚ → K)) i = ok ((l.getD i 0 : ℚ) : K) := by
  apply vget_eq_ok.2
  rw [List.getElem?_map, List.getElem?_eq_getElem h, getD_lt h]
  simp [lit_eq]

theorem made_new {sys : System K σ} {p : ErkParams K} {e : Erk K} (he : Erk.new sys p = ok e) :
    ∃ t, e.Made sys.ndim p t ∧ e.dense_out = none := by
  unfold Erk.new at he
  split at he
  · cases he
  · rename_i t ht
    obtain ⟨w1, w2, w3, w4, w5, w6, w7, w8, w9⟩ := tableau_wellFormed ht
    dsimp only at he
    simp only [Res.ok.injEq] at he
    subst he
    refine ⟨t, ⟨ht, ?_, rfl, rfl, ?_, ?_, ?_⟩, rfl⟩
    · refine ⟨rfl, w1, ?_, ?_, ?_, ?_, ?_, ?_, w8, w9, ?_, ?_, ?_, ?_⟩
      · intro i j hi hj
        change i < t.bb.length at hi
        have hi' : i < t.aa.length := by omega
        have hr : (t.aa.getD i []).length = t.bb.length := by
          rw [getD_lt hi']; exact w3 _ (List.getElem_mem _)
        unfold get2
        dsimp only
        rw [show vget (t.aa.map fun r => r.map (lit : ℚ → K)) i = ok ((t.aa.getD i []).map lit) by
          apply vget_eq_ok.2; rw [List.getElem?_map, List.getElem?_eq_getElem hi', getD_lt hi']; rfl, ok_bind,
          vget_map_lit (by omega)]
        rfl
      · intro i hi; exact vget_map_lit hi
      · intro i hi; exact vget_map_lit (by change i < t.bb.length at hi; omega)
      · change ((t.cc.getD 0 0 : ℚ) : K) = 0
        rw [w5]; simp
      · intro hemb
        obtain ⟨l, hl1, hl2⟩ := w6 hemb
        refine ⟨l.map lit, ?_, ?_⟩
        · dsimp only at hemb ⊢; rw [if_pos hemb, hl1]; rfl
        · intro i hi
          change i < t.bb.length at hi
          rw [vget_map_lit (by omega)]
          unfold Tableau.coefs
          dsimp only
          rw [hl1]; rfl
      · intro hs
        obtain ⟨q1, q2, q3⟩ := w7 hs
        refine ⟨?_, ?_, ?_⟩
        · change ((t.cc.getD (t.bb.length - 1) 0 : ℚ) : K) = 1
          rw [q1]; simp
        · intro j hj
          change (((t.aa.getD (t.bb.length - 1) []).getD j 0 : ℚ) : K) = ((t.bb.getD j 0 : ℚ) : K)
          rw [q2 j hj]
        · change ((t.bb.getD (t.bb.length - 1) 0 : ℚ) : K) = 0
          rw [q3]; simp
      · intro o ho; cases ho
      · exact rows_replicate _ _ _
      · exact rows_replicate _ _ _
      · simp [zeros]
    · dsimp only; rw [lit_one, lit_eq]; simp
    · dsimp only; rw [lit_one]
    · dsimp only; rw [lit_one]

/-- Only these fields of the structure change. -/
theorem Erk.Made.change {e : Erk K} {n : Nat} {p : ErkParams K} {t : Tableau} (hM : e.Made n p t) {v k : List (List K)} {w : List K}
    {o : Option (ErkDense K)} (hH : ({ e with v := v, k := k, w := w, dense_out := o } : Erk K).Holds n t.coefs) :
    ({ e with v := v, k := k, w := w, dense_out := o } : Erk K).Made n p t :=
  ⟨hM.tab, hH, hM.params, hM.info, hM.lund, hM.d_min, hM.d_max⟩

theorem denseNew_holds {m : Method} {n : Nat} {o : ErkDense K} (he : ErkDense.new m n = ok o) : o.Holds n m := by
  unfold ErkDense.new at he
  split at he
  · rename_i h
    cases he
    exact ⟨rfl, rfl, fun _ => rows_replicate _ _ _, fun h' => (by rw [h] at h'; cases h')⟩
  · split at he
    · rename_i h
      cases he
      exact ⟨rfl, rfl, fun h' => (by rw [h] at h'; cases h'), fun _ => ⟨rows_replicate _ _ _, rows_replicate _ _ _, by simp [zeros]⟩⟩
    · cases he

theorem made_enable {sys : System K σ} {p : ErkParams K} {t : Tableau} {e e' : Erk K} (hM : e.Made sys.ndim p t)
    (he : e.enableDenseOutput sys = ok e') : e'.Made sys.ndim p t ∧ e'.dense_out.isSome = true := by
  unfold Erk.enableDenseOutput at he
  rw [bind_eq_ok] at he
  obtain ⟨o, ho, he⟩ := he
  cases he
  refine ⟨⟨hM.tab, ?_, hM.params, hM.info, hM.lund, hM.d_min, hM.d_max⟩, rfl⟩
  have hH := hM.holds
  exact ⟨hH.nstage, hH.pos, hH.aa, hH.bb, hH.cc, hH.c0, hH.ee, hH.same, hH.five, hH.eight,
    fun q hq => by cases hq; exact denseNew_holds ho, hH.k, hH.v, hH.w⟩

/-! ### The relation of a step -/

/-- The scaled square error: the sum over the components of `(Σ_j g_j k_j / (tol_abs + tol_rel max(|y|, |w|)))²`. -/
def squareError (n : Nat) (p : ErkParams K) (s : Nat) (g : Nat → K) (y w : List K) (k : Nat → List K) : K :=
  ∑ m ∈ Finset.range n, ((∑ j ∈ Finset.range s, g j * comp (k j) m) /
    (p.tol_abs + p.tol_rel * max |comp y m| |comp w m|)) ^ 2

/-- The error estimate of a step (Hairer, Nørsett and Wanner, eq. (4.11) of chapter II.4, and p. 255 for DoPri8), with the lower
bound `1e-10` of the code for the methods other than DoPri8. -/
def errorEstimate (fns : MathFns K) (n : Nat) (p : ErkParams K) (t : Coefs K) (y w : List K) (h : K) (k : Nat → List K) : K :=
  if p.method = .DoPri8 then
    let e5 := squareError n p t.s t.e y w k
    let den := e5 + 1 / 100 * squareError n p t.s (coef3 t) y w k
    |h| * e5 * fns.sqrt (1 / (n * if den ≤ 0 then 1 else den))
  else max (fns.sqrt (squareError n p t.s (fun j => h * t.e j) y w k / n)) (1 / 10000000000)

theorem fabs_eq [IsStrictOrderedRing K] (a : K) : fabs a = |a| := by
  unfold fabs
  rw [lit_zero]
  split
  · rename_i h; rw [abs_of_nonpos h]; simp
  · rename_i h; rw [abs_of_nonneg (le_of_not_ge h)]

theorem relError_eq [IsStrictOrderedRing K] {fns : MathFns K} {n : Nat} {e : Erk K} {t : Coefs K} {y : List K} {h : K}
    {k : List (List K)} {old : K} (hemb : e.info.embedded = true) :
    relError fns n e t y h k old =
      errorEstimate fns n e.params t y (lin n y h t.s t.b fun j => k.getD j []) h fun j => k.getD j [] := by
  have hsc : ∀ m, m < n → e.scale (comp y m) (newComp t y h k t.s m) =
      e.params.tol_abs + e.params.tol_rel * max |comp y m| |comp (lin n y h t.s t.b fun j => k.getD j []) m| := by
    intro m hm
    rw [scale_eq, comp_lin _ _ _ _ _ hm]; rfl
  have h8 : ∀ g : Nat → K, errSum8 e t g y h k n =
      squareError n e.params t.s g y (lin n y h t.s t.b fun j => k.getD j []) fun j => k.getD j [] := by
    intro g
    unfold errSum8 squareError
    apply Finset.sum_congr rfl
    intro m hm
    rw [hsc m (Finset.mem_range.1 hm)]
  unfold relError errorEstimate
  rw [if_pos hemb]
  split
  · rw [h8, h8, fabs_eq, lit_one, lit_zero]
    dsimp only
    rw [lit_eq, lit_eq]
    push_cast
    rfl
  · rw [fmax_eq, lit_eq, lit_eq]
    push_cast
    congr 3
    unfold errSum squareError
    apply Finset.sum_congr rfl
    intro m hm
    rw [hsc m (Finset.mem_range.1 hm)]
    unfold errComp
    rw [Finset.mul_sum]
    congr 2
    apply Finset.sum_congr rfl
    intro j _
    ring

variable {fns : MathFns K} {sys : System K σ} {F : K → List K → List K} {p : ErkParams K} {t : Tableau} {e : Erk K}

/-- What a solution with an explicit Runge-Kutta method does in an accepted step from `(x, y)` with the stepsize `h`: the stages
`k` are those of the tableau, the new solution `y'` and the error estimate `err` are computed from them, and so are the data of
the dense output. -/
def ErkRelation (fns : MathFns K) (n : Nat) (F : K → List K → List K) (p : ErkParams K) (t : Tableau) (x : K) (y : List K) (h err : K)
    (e' : Erk K) (y' : List K) : Prop :=
  ∃ k : Nat → List K, RkStages n t.bb.length t.coefs.a t.coefs.c F x y h k ∧
    y' = lin n y h t.bb.length t.coefs.b k ∧
    (p.method.information.embedded = true → err = errorEstimate fns n p t.coefs y y' h k) ∧
    ∀ o, e'.dense_out = some o → o.Holds n p.method ∧ DenseData n F x y h y' k o

/-- The contract of the explicit Runge-Kutta methods. -/
def erkContract (fns : MathFns K) (n : Nat) (F : K → List K → List K) (p : ErkParams K) (t : Tableau) : Contract K (Erk K) where
  J e nacc follows x y := e.Made n p t ∧ y.length = n ∧
    ((0 < nacc ∧ p.method.information.first_step_same_as_last = true) ∨ follows = true → e.k.getD 0 [] = F x y)
  P e x y h err _ := e.Made n p t ∧ Done n t.coefs F x y h e ∧
    (p.method.information.embedded = true →
      err = errorEstimate fns n p t.coefs y e.w h fun j => e.k.getD j [])
  Φ x y h err _ := ErkRelation fns n F p t x y h err
  U h z := p.method.information.embedded = true → z ≤ p.m_max * h

/-- The parameters are in the ranges checked by `Params::validate` (params.rs:302-316, 386-394). -/
structure ErkParams.Valid (p : ErkParams K) : Prop where
  min : 1 / 1000 ≤ p.m_min ∧ p.m_min ≤ 1 / 2 ∧ p.m_min < p.m_max
  max : 1 / 100 ≤ p.m_max ∧ p.m_max ≤ 20
  safety : 1 / 10 ≤ p.m_safety ∧ p.m_safety ≤ 1
  beta : 0 ≤ p.lund_beta ∧ p.lund_beta ≤ 1 / 10
  lm : 0 ≤ p.lund_m ∧ p.lund_m ≤ 1

/-- What is assumed of `powf`. -/
structure MathFns.Good (fns : MathFns K) : Prop where
  one_le : ∀ a b : K, 1 ≤ a → 0 ≤ b → 1 ≤ fns.powf a b
  nonneg : ∀ a b : K, 0 ≤ a → 0 ≤ fns.powf a b

section
variable [IsStrictOrderedRing K]

/-- The exponent of the stepsize control is positive. -/
theorem lund_pos (hp : p.Valid) (hM : e.Made sys.ndim p t) : 0 < e.lund_factor := by
  rw [hM.lund]
  have h1 : (p.method.information.order_of_estimator : K) ≤ 8 := by
    have : p.method.information.order_of_estimator ≤ 8 := by cases p.method <;> decide
    exact_mod_cast this
  have h2 : p.lund_beta * p.lund_m ≤ 1 / 10 := by
    have := mul_le_mul hp.beta.2 hp.lm.2 hp.lm.1 (by norm_num : (0 : K) ≤ 1 / 10)
    linarith
  have h3 : (1 : K) / 9 ≤ 1 / ((p.method.information.order_of_estimator : K) + 1) := by
    apply one_div_le_one_div_of_le
    · positivity
    · linarith
  have : (1 : K) / 10 < 1 / 9 := by norm_num
  linarith

/-- **C61**: after an accepted step the new stepsize is between `m_min h` and `m_max h`. -/
theorem C61_accepted_step (hp : p.Valid) (hM : e.Made sys.ndim p t) (work : Workspace K) {h : K} (hh : 0 < h) :
    p.m_min * h ≤ e.acceptedStep fns work h ∧ e.acceptedStep fns work h ≤ p.m_max * h := by
  have hm1 : 0 < p.m_min := lt_of_lt_of_le (by norm_num) hp.min.1
  have hm2 : 0 < p.m_max := lt_trans hm1 hp.min.2.2
  unfold Erk.acceptedStep
  dsimp only
  generalize (if lit 0 < e.params.lund_beta ∧ lit 0 < work.rel_error_prev then
    fns.powf work.rel_error e.lund_factor / fns.powf work.rel_error_prev e.params.lund_beta
      else fns.powf work.rel_error e.lund_factor) / e.params.m_safety = f
  rw [fmax_eq, fmin_eq, hM.d_min, hM.d_max]
  have hlt : 1 / p.m_max < 1 / p.m_min := one_div_lt_one_div_of_lt hm1 hp.min.2.2
  have h1 : 1 / p.m_max ≤ max (1 / p.m_max) (min (1 / p.m_min) f) := le_max_left _ _
  have h2 : max (1 / p.m_max) (min (1 / p.m_min) f) ≤ 1 / p.m_min := max_le hlt.le (min_le_left _ _)
  generalize max (1 / p.m_max) (min (1 / p.m_min) f) = g at h1 h2
  have hg : 0 < g := lt_of_lt_of_le (by positivity) h1
  refine ⟨?_, ?_⟩
  · rw [le_div_iff₀ hg]
    calc p.m_min * h * g ≤ p.m_min * h * (1 / p.m_min) := mul_le_mul_of_nonneg_left h2 (by positivity)
      _ = h := by field_simp
  · rw [div_le_iff₀ hg]
    calc h = p.m_max * h * (1 / p.m_max) := by field_simp
      _ ≤ p.m_max * h * g := mul_le_mul_of_nonneg_left h1 (by positivity)

/-- **C61**: after a rejected step the new stepsize is between `m_min h` and `h`; more precisely, it is at most
`max(m_min, m_safety) h`. -/
theorem C61_rejected_step (hf : fns.Good) (hp : p.Valid) (hM : e.Made sys.ndim p t) (work : Workspace K) {h : K} (hh : 0 < h)
    (herr : 1 ≤ work.rel_error) :
    p.m_min * h ≤ e.rejectedStep fns work h ∧ e.rejectedStep fns work h ≤ max p.m_min p.m_safety * h := by
  have hm1 : 0 < p.m_min := lt_of_lt_of_le (by norm_num) hp.min.1
  have hs : 0 < p.m_safety := lt_of_lt_of_le (by norm_num) hp.safety.1
  unfold Erk.rejectedStep
  dsimp only
  rw [fmin_eq, hM.d_min, hM.params]
  have hpow := hf.one_le _ _ herr (lund_pos hp hM).le
  have h1 : 1 / p.m_safety ≤ fns.powf work.rel_error e.lund_factor / p.m_safety :=
    div_le_div_of_nonneg_right hpow hs.le
  generalize fns.powf work.rel_error e.lund_factor / p.m_safety = f at h1
  have hmx : 0 < max p.m_min p.m_safety := lt_of_lt_of_le hm1 (le_max_left _ _)
  have hg1 : 1 / max p.m_min p.m_safety ≤ min (1 / p.m_min) f := by
    refine le_min (one_div_le_one_div_of_le hm1 (le_max_left _ _)) (le_trans ?_ h1)
    exact one_div_le_one_div_of_le hs (le_max_right _ _)
  have hg2 : min (1 / p.m_min) f ≤ 1 / p.m_min := min_le_left _ _
  generalize min (1 / p.m_min) f = g at hg1 hg2
  have hg : 0 < g := lt_of_lt_of_le (by positivity) hg1
  refine ⟨?_, ?_⟩
  · rw [le_div_iff₀ hg]
    calc p.m_min * h * g ≤ p.m_min * h * (1 / p.m_min) := mul_le_mul_of_nonneg_left hg2 (by positivity)
      _ = h := by field_simp
  · rw [div_le_iff₀ hg]
    calc h = max p.m_min p.m_safety * h * (1 / max p.m_min p.m_safety) := by field_simp
      _ ≤ max p.m_min p.m_safety * h * g := mul_le_mul_of_nonneg_left hg1 (by positivity)

/-- The explicit Runge-Kutta methods keep their contract. -/
theorem erk_meets (hf : fns.Good) (hF : Computes sys F) (hp : p.Valid) :
    (erk fns sys).Meets (erkContract fns sys.ndim F p t) where
  step := by
    rintro e w x y h a e' w' a' he ⟨hM, hy, hre⟩
    have hP := (step_post (fns := fns) hF hM.holds hy h (work := w) a (by
      rintro (⟨h1, h2⟩ | h1)
      · exact hre (Or.inl ⟨h1, by rw [← hM.info]; exact h2⟩)
      · exact hre (Or.inr h1))).of_ok he
    obtain ⟨q1, q2, ⟨v, k, u, q3⟩, q4⟩ := hP
    dsimp only at q1 q2 q3 q4
    have hM' : e'.Made sys.ndim p t := by
      have := hM.change (v := v) (k := k) (w := u) (o := e.dense_out) (by
        have h0 : e' = { e with v := v, k := k, w := u, dense_out := e.dense_out } := q3
        rw [← h0]; exact q1)
      rw [q3]; exact this
    refine ⟨⟨⟨hM', q2, ?_⟩, ?_⟩, ?_⟩
    · intro hemb
      rw [q4]
      dsimp only
      rw [relError_eq (by rw [hM.info]; exact hemb), hM.params, q2.w]
    · intro h1 h2
      rw [q4] at h2
      change w.iterations_diverging = true at h2
      rw [h1] at h2; cases h2
    · rw [q4]; exact ⟨rfl, rfl, rfl, rfl⟩
  accept := by
    rintro e w x y h a e' w' x' y' a' he hh ⟨hM, hD, herr⟩
    obtain ⟨q1, q2, q3, q4, ⟨k, o, q5, q6⟩, q7, ⟨n, q8⟩, q9, q10, q11⟩ := (accept_post (fns := fns) hF hM.holds hD w a).of_ok he
    dsimp only at q1 q2 q3 q4 q5 q6 q7 q8 q9 q10 q11
    subst q2 q3
    have hM' : e'.Made sys.ndim p t := by
      have := hM.change (v := e.v) (k := k) (w := e.w) (o := o) (by
        have h0 : e' = { e with v := e.v, k := k, w := e.w, dense_out := o } := q5
        rw [← h0]; exact q1)
      rw [q5]; exact this
    refine ⟨⟨rfl, ?_, ?_, ?_, q11⟩, ?_⟩
    · exact ⟨fun j => e.k.getD j [], hD.stages, hD.w, herr, fun o ho => ⟨by rw [← hM'.params]; exact q1.dense o ho, q7 o ho⟩⟩
    · intro n hn
      refine ⟨hM', hM.holds.w, ?_⟩
      rintro (⟨-, h1⟩ | h1)
      · exact q4 (by rw [hM.info]; exact h1)
      · cases h1
    · intro hemb
      rw [q10, hM.info, if_pos hemb]
      exact (C61_accepted_step hp hM w hh).2
    · rw [q8]; exact ⟨rfl, rfl, rfl, q9⟩
  reject := by
    rintro e w x y h hh herr ⟨hM, hD, -⟩
    refine ⟨⟨?_, ?_⟩, rfl, rfl, rfl, rfl, rfl⟩
    · intro n
      refine ⟨hM, hD.len, fun _ => ?_⟩
      have := hD.stages 0 hM.holds.pos
      dsimp only at this
      change e.k.getD 0 [] = _
      rw [this, hM.holds.c0, lin_zero hD.len]; simp
    · intro z hz hemb
      rw [not_lt, lit_one] at herr
      have h1 := (C61_rejected_step hf hp hM w hh herr).2
      have h2 : max p.m_min p.m_safety ≤ 1 := max_le (le_trans hp.min.2.1 (by norm_num)) hp.safety.2
      change e.rejectedStep fns w h ≤ _
      calc e.rejectedStep fns w h ≤ max p.m_min p.m_safety * h := h1
        _ ≤ 1 * h := mul_le_mul_of_nonneg_right h2 hh.le
        _ = h := one_mul h
        _ ≤ _ := hz hemb
  keep := by
    rintro e x y h err - ⟨hM, hD, -⟩ n
    refine ⟨hM, hD.len, fun _ => ?_⟩
    have := hD.stages 0 hM.holds.pos
    dsimp only at this
    rw [this, hM.holds.c0, lin_zero hD.len]; simp
  mono := by
    intro h z z' hz hle hemb
    exact hle.trans (hz hemb)

/-- A structure just made starts a solution, with or without dense output. -/
theorem erk_starts {out : Option (Output K σ)} {x0 : K} {y0 : List K} (he : Erk.new sys p = ok e) (hy : y0.length = sys.ndim) :
    ∃ t, p.method.tableau = some t ∧ StartsWith (erkContract fns sys.ndim F p t) (erk fns sys) e x0 y0 out := by
  obtain ⟨t, hM, -⟩ := made_new he
  refine ⟨t, hM.tab, ?_⟩
  have hno : ¬ ((0 < 0 ∧ p.method.information.first_step_same_as_last = true) ∨ false = true) := by
    rintro (⟨h, -⟩ | h)
    · omega
    · cases h
  unfold StartsWith
  split
  · exact ⟨hM, hy, fun h => absurd h hno⟩
  · intro m' hm
    unfold enableDense at hm
    split at hm
    · exact ⟨(made_enable hM hm).1, hy, fun h => absurd h hno⟩
    · cases hm
      exact ⟨hM, hy, fun h => absurd h hno⟩

end

end Russell.Ode
