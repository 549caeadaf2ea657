import Verif.Ode.RadauProp

/-!
# Cases for the Radau IIA method (C84, C85)
-/

namespace Russell.Ode

open Russell Russell.Res
open Russell.Nonlin (Vec LinSol)

/-- division as linear solver of dimension one -/
noncomputable def scalarCSol : CLinSol 1 where
  F := ℂ
  factorize M := if M 0 0 = 0 then err "singular" else ok (M 0 0)
  solve d b := ok (fun i => b i / d)

theorem scalarCSol_exact : scalarCSol.Exact := by
  intro M f hf b x hx
  unfold scalarCSol at hf hx
  dsimp only at hf hx
  split at hf
  · cases hf
  · rename_i h0
    cases hf
    cases hx
    funext i
    have : i = 0 := Subsingleton.elim _ _
    subst this
    simp [Matrix.mulVec, dotProduct]
    field_simp

/-- parameters of the method: the default ones (/repo/russell_ode/src/params.rs:261-271, 285-286, 375-383), simple tolerances -/
noncomputable def rdSample : RdParams where
  tol_abs := 1 / 10 ^ 4
  tol_rel := 1 / 10 ^ 4
  tol_newton := 1 / 100
  n_iteration_max := 7
  use_numerical_jacobian := false
  write_matrix_after_nstep_and_stop := none
  m_min := 1 / 8
  m_max := 5
  m_safety := 9 / 10
  zero_trial := false
  theta_max := 1 / 1000
  c1h := 1
  c2h := 6 / 5
  concurrent := true
  use_pred_control := true

/-- one equation `y' = F(x, y)` with its derivative -/
def scalarSys (F D : ℝ → ℝ → ℝ) : ImpSys 1 Unit where
  f x y _ := ok (fun i => F x (y i), ())
  jac := some fun alpha x y _ => ok (fun _ j => alpha * D x (y j), ())
  mass := none

theorem scalarSys_spec (F D : ℝ → ℝ → ℝ) :
    (scalarSys F D).Spec (fun x y i => F x (y i)) (fun x y _ j => D x (y j)) where
  f := by intro x y a r h; cases h; rfl
  j := by
    intro jj alpha x y a r h1 h2
    cases h1; cases h2
    rfl

theorem scalar_increment (P : RdParams) (F D : ℝ → ℝ → ℝ) (q : scalarSol.F) (p : scalarCSol.F) (x : ℝ) (y : Vec 1) (h : ℝ)
    (z w : Stages 1) :
    ∃ d, rdIncrement P (scalarSys F D) scalarSol scalarCSol (some q) (some p) x y h z w () = ok (d, ()) := by
  unfold rdIncrement scalarSys
  dsimp only
  simp only [ok_bind]
  unfold rdSolve both
  split <;> exact ⟨_, rfl⟩

/-- Increments that do not shrink: the iterations are flagged as diverging. -/
theorem rdLoop_two {n : Nat} {A : Type} {P : RdParams} {sys : ImpSys n A} {L : LinSol n} {Q : CLinSol n} {fr : Option L.F} {fc : Option Q.F}
    {x : ℝ} {y scaling : Vec n} {h : ℝ} {k : Nat} {t : RdIter n} {work : Workspace ℝ} {a a1 a2 : A} {d1 d2 : Stages n}
    (e1 : rdIncrement P sys L Q fr fc x y h t.z t.w a = ok (d1, a1))
    (e2 : rdIncrement P sys L Q fr fc x y h (rdT fun i m => t.w i m + d1 i m) (fun i m => t.w i m + d1 i m) a1 = ok (d2, a2))
    (hw : work.stats.n_iterations = 0) (hN : 2 < P.n_iteration_max) (h1 : ¬ t.eta * rdNorm scaling d1 < P.tol_newton)
    (h2 : 99 / 100 ≤ rdNorm scaling d2 / rdNorm scaling d1) :
    ∃ t' work', rdLoop P sys L Q fr fc x y scaling h (k + 2) t work a = ok (t', work', a2, true) ∧
      t'.z = rdT (t.w + d1 + d2) ∧ work'.iterations_diverging = true ∧ work'.stats.n_accepted = work.stats.n_accepted := by
  unfold rdLoop
  dsimp only
  rw [e1, ok_bind]
  dsimp only
  have c1 : rdCheck P (bwCountSol (rdCount work)).stats.n_iterations (rdNorm scaling d1) t = (t.eta, t.theta, t.thq_old, none) := by
    unfold rdCheck
    rw [if_neg]
    intro hh
    have := hh.1
    simp [bwCountSol, rdCount, hw] at this
  rw [c1]
  dsimp only
  rw [if_neg h1]
  unfold rdLoop
  dsimp only
  rw [e2, ok_bind]
  dsimp only
  have c2 : ∀ z w eta theta thq, rdCheck P (bwCountSol (rdCount (bwCountSol (rdCount work)))).stats.n_iterations (rdNorm scaling d2)
      (⟨z, w, eta, theta, rdNorm scaling d1, thq⟩ : RdIter n) =
        (eta, rdNorm scaling d2 / rdNorm scaling d1, rdNorm scaling d2 / rdNorm scaling d1, some 0.5) := by
    intro z w eta theta thq
    have hn : (bwCountSol (rdCount (bwCountSol (rdCount work)))).stats.n_iterations = 2 := by simp [bwCountSol, rdCount, hw]
    unfold rdCheck
    rw [hn, if_pos ⟨by norm_num, hN⟩]
    dsimp only
    rw [if_pos rfl, if_neg]
    intro hh
    norm_num at hh h2
    linarith
  rw [c2]
  exact ⟨_, _, rfl, rfl, rfl, rfl⟩

/-- The increments of one equation for `J = 0` and `g = h = 1`. -/
theorem scalar_newton {d r : Stages 1} (h : RdNewton (1 : Matrix (Fin 1) (Fin 1) ℝ) 0 1 d r) :
    d 0 0 = r 0 0 / Rd.GAMMA ∧ d 1 0 = (Rd.ALPHA * r 1 0 + Rd.BETA * r 2 0) / (Rd.ALPHA ^ 2 + Rd.BETA ^ 2) ∧
    d 2 0 = (Rd.ALPHA * r 2 0 - Rd.BETA * r 1 0) / (Rd.ALPHA ^ 2 + Rd.BETA ^ 2) := by
  have h0 := congrFun (h 0) 0
  have h1 := congrFun (h 1) 0
  have h2 := congrFun (h 2) 0
  simp [Fin.sum_univ_three, rdLambda] at h0 h1 h2
  have g : Rd.GAMMA ≠ 0 := by unfold Rd.GAMMA; norm_num
  have ab : Rd.ALPHA ^ 2 + Rd.BETA ^ 2 ≠ 0 := by unfold Rd.ALPHA Rd.BETA; norm_num
  refine ⟨?_, ?_, ?_⟩
  · rw [eq_div_iff g, ← h0]; ring
  · rw [eq_div_iff ab, ← h1, ← h2]; ring
  · rw [eq_div_iff ab, ← h1, ← h2]; ring

theorem scalar_norm {s : Vec 1} (hs : 0 < s 0) (d : Stages 1) :
    rdNorm s d = √((d 0 0 ^ 2 + d 1 0 ^ 2 + d 2 0 ^ 2) / 3) / s 0 := by
  unfold rdNorm
  have : (∑ m, (d 0 m / s m * (d 0 m / s m) + d 1 m / s m * (d 1 m / s m) + d 2 m / s m * (d 2 m / s m))) / (3 * ((1 : ℕ) : ℝ)) =
      (d 0 0 ^ 2 + d 1 0 ^ 2 + d 2 0 ^ 2) / 3 / s 0 ^ 2 := by
    simp
    field_simp
  rw [this, Real.sqrt_div (by positivity), Real.sqrt_sq hs.le]

/-- the equation `y' = -100 x y` -/
noncomputable def steepSys : ImpSys 1 Unit := scalarSys (fun x y => -(100 * x * y)) (fun x _ => -(100 * x))

/-- the increments of the first two iterations for `y' = -100 x y` -/
theorem steep_numbers {d e : Stages 1} (h1 : RdNewton (1 : Matrix (Fin 1) (Fin 1) ℝ) 0 1 d
      (rdResidual 1 1 (rdK (fun x y i => -(100 * x * y i)) 0 (fun _ => 1) 1 0) 0))
    (h2 : RdNewton (1 : Matrix (Fin 1) (Fin 1) ℝ) 0 1 e
      (rdResidual 1 1 (rdK (fun x y i => -(100 * x * y i)) 0 (fun _ => 1) 1 (rdT d)) d)) :
    3 ≤ d 0 0 ^ 2 + d 1 0 ^ 2 + d 2 0 ^ 2 ∧ d 0 0 ^ 2 + d 1 0 ^ 2 + d 2 0 ^ 2 ≤ e 0 0 ^ 2 + e 1 0 ^ 2 + e 2 0 ^ 2 ∧
      1000 < rdT (d + e) 2 0 := by
  obtain ⟨d0, d1, d2⟩ := scalar_newton h1
  obtain ⟨e0, e1, e2⟩ := scalar_newton h2
  simp [rdResidual, rdK, Fin.sum_univ_three, Rd.TI, Rd.C, Rd.SQRT_6, Rd.ALPHA, Rd.BETA, Rd.GAMMA] at d0 d1 d2
  norm_num at d0 d1 d2
  simp [rdResidual, rdK, rdLambda, rdT, d0, d1, d2, Fin.sum_univ_three, Rd.TI, Rd.T, Rd.C, Rd.SQRT_6, Rd.ALPHA, Rd.BETA, Rd.GAMMA] at e0 e1 e2
  norm_num at e0 e1 e2
  refine ⟨?_, ?_, ?_⟩
  · rw [d0, d1, d2]; norm_num
  · rw [d0, d1, d2, e0, e1, e2]; norm_num
  · simp [rdT, Rd.T, d0, d1, e0, e1]; norm_num

theorem prepare_fresh {n : Nat} {A : Type} {P : RdParams} {sys : ImpSys n A} {L : LinSol n} {Q : CLinSol n} {m : RadauS L Q}
    {work : Workspace ℝ} {x h : ℝ} {y : Vec n} {a a1 : A} (hw : P.write_matrix_after_nstep_and_stop = none)
    (h1 : m.reuse_jacobian_kk_and_fact = false) (h2 : m.reuse_jacobian = false) (h3 : m.jacobian_computed = false)
    {jj : Matrix (Fin n) (Fin n) ℝ} {nf : Nat} (hj : sys.jacobian P.use_numerical_jacobian 1 x y a = ok (jj, a1, nf)) {q : L.F} {p : Q.F}
    (hq : L.factorize (rdReal sys.mass jj h) = ok q) (hp : Q.factorize (rdComp sys.mass jj h) = ok p) :
    m.prepare P sys L Q work x y h a = ok ({ m with jj := jj, fr := some q, fc := some p, jacobian_computed := true },
      { work with stats := { work.stats with
          n_jacobian := work.stats.n_jacobian + 1, n_function := work.stats.n_function + nf, n_factor := work.stats.n_factor + 1 } }, a1) := by
  unfold Radau.prepare Radau.updateJacobian
  rw [if_neg (by rw [h1]; simp), if_neg (by rw [h2]; simp), if_neg (by rw [h3]; simp), hj, ok_bind]
  dsimp only
  rw [ok_bind]
  unfold writeStop
  rw [hw]
  dsimp only
  rw [ok_bind]
  unfold rdFactorize
  rw [(both_ok_iff _ _ _ _ _ _ (q, p)).2 ⟨hq, hp⟩, ok_bind]

theorem prepare_reuse {n : Nat} {A : Type} {P : RdParams} {sys : ImpSys n A} {L : LinSol n} {Q : CLinSol n} {m : RadauS L Q}
    {work : Workspace ℝ} {x h : ℝ} {y : Vec n} {a : A} (hw : P.write_matrix_after_nstep_and_stop = none)
    (h1 : m.reuse_jacobian_kk_and_fact = false) (h2 : m.reuse_jacobian = true) {q : L.F} {p : Q.F}
    (hq : L.factorize (rdReal sys.mass m.jj h) = ok q) (hp : Q.factorize (rdComp sys.mass m.jj h) = ok p) :
    m.prepare P sys L Q work x y h a = ok ({ m with fr := some q, fc := some p, reuse_jacobian := false },
      { work with stats := { work.stats with n_factor := work.stats.n_factor + 1 } }, a) := by
  unfold Radau.prepare Radau.updateJacobian
  rw [if_neg (by rw [h1]; simp), if_pos h2, ok_bind]
  unfold writeStop
  rw [hw]
  dsimp only
  rw [ok_bind]
  unfold rdFactorize
  rw [(both_ok_iff _ _ _ _ _ _ (q, p)).2 ⟨hq, hp⟩, ok_bind]

theorem scalar_real {j h : ℝ} (hh : 0 < h) (hj : j ≤ 0) : ∃ q, scalarSol.factorize (rdReal none (fun _ _ => j) h) = ok q := by
  unfold scalarSol rdReal
  dsimp only
  have : 0 < Rd.GAMMA / h := div_pos (by unfold Rd.GAMMA; norm_num) hh
  rw [if_neg (by simp; linarith)]
  exact ⟨_, rfl⟩

theorem scalar_comp {j h : ℝ} (hh : 0 < h) : ∃ q, scalarCSol.factorize (rdComp none (fun _ _ => j) h) = ok q := by
  unfold scalarCSol rdComp
  dsimp only
  have : 0 < Rd.BETA / h := div_pos (by unfold Rd.BETA; norm_num) hh
  rw [if_neg (by simp [Complex.ext_iff]; intro _; exact ⟨(by unfold Rd.BETA; norm_num), hh.ne'⟩)]
  exact ⟨_, rfl⟩

theorem steep_step {work : Workspace ℝ} (hw : work.stats.n_accepted = 0) :
    ∃ m' work', Radau.step rdSample steepSys scalarSol scalarCSol (Radau.new rdSample 1 scalarSol.F scalarCSol.F) work 0 (fun _ => 1) 1 () =
        ok (m', work', ()) ∧ work'.iterations_diverging = true ∧ 1000 < m'.z 2 0 ∧ work'.stats.n_accepted = 0 := by
  have hs : steepSys.Spec _ _ := scalarSys_spec (fun x y => -(100 * x * y)) (fun x _ => -(100 * x))
  obtain ⟨q, hq⟩ := scalar_real (j := 0) (h := 1) one_pos le_rfl
  obtain ⟨p, hp⟩ := scalar_comp (j := 0) (h := 1) one_pos
  unfold Radau.step Radau.begin
  rw [if_pos hw]
  unfold Radau.initialize
  rw [show steepSys.f 0 (fun _ => 1) () = ok (fun _ => -(100 * 0 * 1), ()) from rfl, ok_bind]
  dsimp only
  rw [ok_bind]
  dsimp only
  have hj : steepSys.jacobian rdSample.use_numerical_jacobian 1 0 (fun _ => 1) () = ok (fun _ _ => 0, (), 0) := by
    unfold ImpSys.jacobian steepSys scalarSys rdSample
    simp only [ok_bind]
    norm_num
    rfl
  rw [prepare_fresh rfl rfl rfl rfl hj hq hp, ok_bind]
  dsimp only
  unfold Radau.iterate
  dsimp only
  have htr : ∀ (w : Workspace ℝ) (yc : Stages 1), w.stats.n_accepted = 0 → rdTrial rdSample w yc 1 = (0, 0) := by
    intro w yc h
    unfold rdTrial
    rw [if_pos (Or.inl h)]
  simp only [htr, hw]
  obtain ⟨d, hd⟩ := scalar_increment rdSample (fun x y => -(100 * x * y)) (fun x _ => -(100 * x)) q p 0 (fun _ => 1) 1 0 0
  obtain ⟨e, he⟩ := scalar_increment rdSample (fun x y => -(100 * x * y)) (fun x _ => -(100 * x)) q p 0 (fun _ => 1) 1
    (rdT fun i m => (0 : Stages 1) i m + d i m) (fun i m => (0 : Stages 1) i m + d i m)
  have hf : Factored steepSys scalarSol scalarCSol (fun _ _ => 0) 1 (some q) (some p) := ⟨⟨q, rfl, hq⟩, ⟨p, rfl, hp⟩⟩
  have n1 := C84_increment scalarSol_exact scalarCSol_exact hs hf hd
  have n2 := C84_increment scalarSol_exact scalarCSol_exact hs hf he
  have hd0 : (fun i m => (0 : Stages 1) i m + d i m) = d := by funext i m; simp
  rw [hd0] at n2
  have hM : steepSys.massMatrix = 1 := rfl
  rw [hM] at n1 n2
  obtain ⟨s1, s2, s3⟩ := steep_numbers n1 n2
  have hsc : 0 < rdSample.tol_abs + rdSample.tol_rel * |(1 : ℝ)| ∧ rdSample.tol_abs + rdSample.tol_rel * |(1 : ℝ)| ≤ 1 := by
    unfold rdSample; norm_num
  have hr : 1 ≤ √((d 0 0 ^ 2 + d 1 0 ^ 2 + d 2 0 ^ 2) / 3) := Real.one_le_sqrt.2 (by linarith)
  have hn := scalar_norm (s := fun _ => rdSample.tol_abs + rdSample.tol_rel * |(1 : ℝ)|) hsc.1
  have hd1 : 1 ≤ rdNorm (fun _ => rdSample.tol_abs + rdSample.tol_rel * |(1 : ℝ)|) d := by
    rw [hn, le_div_iff₀ hsc.1, one_mul]; exact hsc.2.trans hr
  obtain ⟨t', w', g1, g2, g3, g4⟩ := rdLoop_two (P := rdSample) (sys := steepSys) (L := scalarSol) (Q := scalarCSol) (k := 5)
    (scaling := fun _ => rdSample.tol_abs + rdSample.tol_rel * |(1 : ℝ)|)
    (t := ⟨0, 0, (max (1 : ℝ) (1 / 2 ^ 52)) ^ (0.8 : ℝ), rdSample.theta_max, 0, 0⟩) (work := { work with
      iterations_diverging := false
      stats := { work.stats with
        n_function := work.stats.n_function + 1 + 0, n_jacobian := work.stats.n_jacobian + 1, n_factor := work.stats.n_factor + 1
        n_iterations := 0 } }) hd he rfl (by unfold rdSample; norm_num) (by
      dsimp only
      rw [max_eq_left (by norm_num), Real.one_rpow, one_mul, not_lt]
      refine le_trans ?_ hd1
      unfold rdSample; norm_num) (by
      rw [le_div_iff₀ (one_pos.trans_le hd1)]
      have : rdNorm (fun _ => rdSample.tol_abs + rdSample.tol_rel * |(1 : ℝ)|) d ≤
          rdNorm (fun _ => rdSample.tol_abs + rdSample.tol_rel * |(1 : ℝ)|) e := by
        rw [hn, hn]
        exact div_le_div_of_nonneg_right (Real.sqrt_le_sqrt (by linarith)) hsc.1.le
      exact (mul_le_of_le_one_left (zero_le_one.trans hd1) (by norm_num)).trans this)
  dsimp only at g1
  rw [hw] at g1
  erw [g1]
  rw [ok_bind]
  dsimp only
  rw [if_pos rfl]
  refine ⟨_, _, rfl, g3, ?_, g4.trans hw⟩
  dsimp only
  rw [g2, zero_add]
  exact s3

/-- **C85**: equal steps do not look at the flag of diverging iterations. For `y' = -100 x y`, `y(0) = 1`, whose solution
decreases, one step of size 1 is flagged as diverging after two iterations; nevertheless the solver accepts it, reports
success and returns a number above 1000. -/
theorem C85_equal_diverging_counterexample : ∃ r, solve (radau5 rdSample steepSys scalarSol scalarCSol) (plainParams ℝ 1)
      (fun _ => ok ()) (Radau.new rdSample 1 scalarSol.F scalarCSol.F) [1] 0 1 (some 1) () none = ok r ∧ r.stopped = false ∧
    r.state.x = 1 ∧ r.state.work.iterations_diverging = true ∧ r.state.work.stats.n_accepted = 1 ∧ ∃ v, r.state.y = [v] ∧ 1000 < v := by
  have hce : ceilU ((1 - 0) / 1 : ℝ) = 1 := by
    rw [ceilU_eq]; norm_num
  have hini : initialStep (plainParams ℝ 1) (0 : ℝ) 1 (some 1) = ok (true, 1) := by
    unfold initialStep
    dsimp only
    rw [if_neg (by rw [tenEps_eq]; norm_num), hce, lit_eq]
    norm_num
  have hvec : vecOf 1 [(1 : ℝ)] = ok (fun _ => 1) := by
    have : [(1 : ℝ)] = List.ofFn (fun _ => 1 : Vec 1) := by simp [List.ofFn_succ]
    rw [this, vecOf_ofFn]
  obtain ⟨m', w', e1, e2, e3, e4⟩ := steep_step (work := (Workspace.reset (1 : ℝ) (plainParams ℝ 1).rel_error_prev_min).addStep) rfl
  unfold solve
  rw [if_neg (by simp [plainParams]), if_neg (by norm_num), hini]
  simp only [ok_bind]
  rw [if_neg (by rw [lit_eq]; norm_num)]
  unfold firstOutput
  simp only [ok_bind, Bool.false_eq_true, if_false, if_true]
  rw [hce]
  unfold turns equalTurn
  dsimp only
  unfold radau5
  dsimp only
  rw [hvec]
  simp only [ok_bind]
  rw [e1]
  simp only [ok_bind]
  unfold Radau.accept Radau.initialize
  dsimp only
  rw [show ∀ (x : ℝ) (y : Vec 1), steepSys.f x y () = ok (fun i => -(100 * x * y i), ()) from fun _ _ => rfl]
  simp only [ok_bind]
  unfold runOutput
  simp only [ok_bind, Bool.false_eq_true, if_false]
  unfold turns finish runLast
  simp only [ok_bind, if_true]
  refine ⟨_, rfl, rfl, by norm_num, ?_, ?_, 1 + m'.z 2 0, by simp [List.ofFn_succ], by linarith⟩
  · split <;> exact e2
  · split <;> simp [Workspace.addAccepted, e4]

/-! ### Matrices that are used again -/

/-- **C85**: old matrices. For an equation `M y' = b(x)` an iteration with matrices for the stepsize `g` multiplies the residual by
`1 - g/h`. With `g = h` this is zero; with `g ≥ 2 h` the residual does not decrease. -/
theorem C85_old_matrices {n : Nat} {M : Matrix (Fin n) (Fin n) ℝ} {b : ℝ → Vec n} {x : ℝ} {y : Vec n} {g h : ℝ} (hg : g ≠ 0)
    {w d : Stages n} (hd : RdNewton M 0 g d (rdResidual M h (rdK (fun x _ => b x) x y h (rdT w)) w)) (i : Fin 3) :
    rdResidual M h (rdK (fun x _ => b x) x y h (rdT (w + d))) (w + d) i =
      (1 - g / h) • rdResidual M h (rdK (fun x _ => b x) x y h (rdT w)) w i := by
  have e : rdResidual M h (rdK (fun x _ => b x) x y h (rdT (w + d))) (w + d) i =
      rdResidual M h (rdK (fun x _ => b x) x y h (rdT w)) w i - ∑ l, (rdLambda i l / h) • M.mulVec (d l) := by
    simp only [rdResidual, rdK, Pi.add_apply, Matrix.mulVec_add, smul_add, Finset.sum_add_distrib]
    abel
  have e2 : ∑ l, (rdLambda i l / h) • M.mulVec (d l) = (g / h) • ∑ l, (rdLambda i l / g) • M.mulVec (d l) := by
    rw [Finset.smul_sum]
    refine Finset.sum_congr rfl fun l _ => ?_
    rw [smul_smul]
    congr 1
    field_simp
  have e3 := hd i
  rw [Matrix.zero_mulVec, sub_zero] at e3
  rw [e, e2, e3, sub_smul, one_smul]

/-- `y' = a y`, where `a` is given by the arguments -/
def ampSys : ImpSys 1 ℝ where
  f _ y a := ok (fun i => a * y i, a)
  jac := some fun alpha _ _ a => ok (fun _ _ => alpha * a, a)
  mass := none

/-- Iterations from zero stay there and end after the first one. -/
theorem amp_iterate {P : RdParams} (htol : 0 < P.tol_newton) (hN : 0 < P.n_iteration_max) {m : RadauS scalarSol scalarCSol}
    {q : scalarSol.F} {p : scalarCSol.F} (hq : m.fr = some q) (hp : m.fc = some p) (hyc : m.yc = 0) (work : Workspace ℝ) (x h a : ℝ) :
    ∃ t, m.iterate P ampSys scalarSol scalarCSol work x 0 h a = ok (t, Workspace.updateIterMax (bwCountSol (rdCount
        { work with iterations_diverging := false, stats := { work.stats with n_iterations := 0 } })), a, false) ∧
      t.z = 0 ∧ t.theta = P.theta_max := by
  obtain ⟨N, hN⟩ : ∃ N, P.n_iteration_max = N + 1 := ⟨P.n_iteration_max - 1, by omega⟩
  have hp0 : ∀ s : ℝ, rdPoly (0 : Stages 1) s = 0 := by intro s; funext i; simp [rdPoly]
  have htr : rdTrial P work m.yc h = (0, 0) := by
    rw [hyc]
    unfold rdTrial
    split
    · rfl
    · dsimp only
      simp only [hp0]
      have : (![0, 0, 0] : Stages 1) = 0 := by funext i; fin_cases i <;> rfl
      rw [this]
      congr 1
      funext i m; simp [rdTI]
  have hinc : rdIncrement P ampSys scalarSol scalarCSol (some q) (some p) x 0 h 0 0 a = ok (0, a) := by
    unfold rdIncrement ampSys
    dsimp only
    simp only [ok_bind]
    unfold rdSolve
    have hz : (![fun i => a * ((0 : Vec 1) i + (0 : Stages 1) 0 i), fun i => a * ((0 : Vec 1) i + (0 : Stages 1) 1 i),
        fun i => a * ((0 : Vec 1) i + (0 : Stages 1) 2 i)] : Stages 1) = 0 := by
      funext i m; fin_cases i <;> simp
    rw [hz]
    have hr : rdRhs (n := 1) none h 0 0 = 0 := by
      funext i m; fin_cases i <;> simp [rdRhs, rdTI, massMul]
    rw [hr, (both_ok_iff _ _ _ _ _ _ ((0 : Vec 1), (0 : Fin 1 → ℂ))).2 ⟨?_, ?_⟩, ok_bind]
    · dsimp only
      congr 2
      funext i m; fin_cases i <;> simp
    · unfold LinSol.run scalarSol
      dsimp only
      congr 1; funext i
      exact zero_div (G₀ := ℝ) q
    · unfold CLinSol.run scalarCSol
      dsimp only
      congr 1; funext i
      exact zero_div (G₀ := ℂ) p
  unfold Radau.iterate
  dsimp only
  rw [hq, hp, htr, hN]
  unfold rdLoop
  dsimp only
  rw [hinc, ok_bind]
  dsimp only
  rw [show rdCheck P (bwCountSol (rdCount { work with iterations_diverging := false, stats := { work.stats with n_iterations := 0 } })).stats.n_iterations
    (rdNorm m.scaling (0 : Stages 1)) ⟨0, 0, (max m.eta (1 / 2 ^ 52)) ^ (0.8 : ℝ), P.theta_max, 0, 0⟩ =
      ((max m.eta (1 / 2 ^ 52)) ^ (0.8 : ℝ), P.theta_max, 0, none) from ?_]
  · dsimp only
    rw [if_pos]
    · refine ⟨_, rfl, ?_, rfl⟩
      funext i m; simp [rdT]
    · simp [rdNorm, htol]
  · unfold rdCheck
    rw [if_neg]
    intro hh
    have := hh.1
    simp [bwCountSol, rdCount] at this

theorem amp_estimate {m : RadauS scalarSol scalarCSol} {q : scalarSol.F} (hq : m.fr = some q) (hz : m.z = 0) (hk : m.k_accepted = 0)
    (work : Workspace ℝ) (x h a : ℝ) :
    m.estimate ampSys scalarSol work x 0 h a = ok ({ work with rel_error := 1e-10 }, a) := by
  unfold Radau.estimate
  dsimp only
  rw [hq, hz, hk]
  have : scalarSol.run (some q) (fun i => rdMez ampSys.mass h (0 : Stages 1) i + (0 : Vec 1) i) = ok 0 := by
    unfold LinSol.run scalarSol ampSys rdMez
    dsimp only
    congr 1; funext i
    have : Rd.GAMMA / h * (Rd.E0 * (0 : Stages 1) 0 i + Rd.E1 * (0 : Stages 1) 1 i + Rd.E2 * (0 : Stages 1) 2 i) + (0 : Vec 1) i = 0 := by simp
    rw [this]
    exact zero_div (G₀ := ℝ) q
  rw [this, ok_bind]
  have hr : rmsNorm (0 : Vec 1) m.scaling = 1e-10 := by
    unfold rmsNorm
    simp
    norm_num
  rw [hr, if_pos (by norm_num)]

theorem amp_step {P : RdParams} (htol : 0 < P.tol_newton) (hN : 0 < P.n_iteration_max) {m m1 m2 : RadauS scalarSol scalarCSol}
    {work w1 w2 : Workspace ℝ} {x h a : ℝ} (hb : m.begin P ampSys work x 0 a = ok (m1, w1, a))
    (hpre : m1.prepare P ampSys scalarSol scalarCSol w1 x 0 h a = ok (m2, w2, a)) {q : scalarSol.F} {p : scalarCSol.F}
    (hq : m2.fr = some q) (hp : m2.fc = some p) (hyc : m2.yc = 0) (hk : m2.k_accepted = 0) :
    ∃ eta w, Radau.step P ampSys scalarSol scalarCSol m work x 0 h a = ok ({ m2 with z := 0, eta := eta, theta := P.theta_max }, w, a) ∧
      w.rel_error = 1e-10 ∧ w.iterations_diverging = false ∧ w.follows_reject_step = w2.follows_reject_step ∧ w.h_new = w2.h_new ∧
      w.stats.n_iterations = 1 ∧ w.stats.n_accepted = w2.stats.n_accepted ∧ w.stats.n_jacobian = w2.stats.n_jacobian ∧
      w.stats.n_factor = w2.stats.n_factor := by
  unfold Radau.step
  rw [hb, ok_bind]
  dsimp only
  rw [hpre, ok_bind]
  dsimp only
  obtain ⟨t, e1, e2, e3⟩ := amp_iterate htol hN hq hp hyc w2 x h a
  rw [e1, ok_bind]
  dsimp only
  rw [if_neg (by simp), amp_estimate (m := { m2 with z := t.z, eta := t.eta, theta := t.theta }) hq e2 hk, ok_bind, e2, e3]
  refine ⟨_, _, rfl, rfl, ?_⟩
  unfold Workspace.updateIterMax
  split <;> exact ⟨rfl, rfl, rfl, rfl, rfl, rfl, rfl⟩

theorem amp_accept {P : RdParams} {m : RadauS scalarSol scalarCSol} (hz : m.z = 0) (ht : m.theta = P.theta_max) (work : Workspace ℝ) (x h a : ℝ) :
    ∃ b, (b = true ↔ P.c1h ≤ rdNewStep P work h / h ∧ rdNewStep P work h / h ≤ P.c2h) ∧
    m.accept P ampSys work x 0 h a = ok ({ m with
        yc := 0, jacobian_computed := false, reuse_jacobian_kk_and_fact := b, reuse_jacobian := !b
        scaling := fun _ => P.tol_abs + P.tol_rel * |(0 : ℝ)|, k_accepted := 0 },
      { work with
        h_new := if b then work.h_new else rdNewStep P work h
        stats := { work.stats with n_function := work.stats.n_function + 1 } }, x + h, 0, a) := by
  have hy : (fun i => (0 : Vec 1) i + (0 : Stages 1) 2 i) = 0 := by funext i; simp
  have hyc : rdYc (0 : Stages 1) = 0 := by
    funext i m; fin_cases i <;> simp [rdYc]
  unfold Radau.accept
  dsimp only
  rw [hz, ht, hy, hyc]
  unfold Radau.initialize
  rw [show ampSys.f (x + h) 0 a = ok (0, a) by unfold ampSys; simp; rfl, ok_bind]
  by_cases hb : P.c1h ≤ rdNewStep P work h / h ∧ rdNewStep P work h / h ≤ P.c2h
  · refine ⟨true, by simp [hb], ?_⟩
    simp [hb]
  · refine ⟨false, by simp [hb], ?_⟩
    simp [hb]

/-- parameters of `solve` for one variable, initial stepsize 1 -/
noncomputable def ampParams : SolveParams ℝ := { plainParams ℝ 1 with embedded := true, h_ini := 1 }

theorem acceptTurn_plain {σ M : Type} {st : Stepper ℝ σ M} {p : SolveParams ℝ} {fin : List ℝ → Res Unit} {x1 : ℝ} {s : State ℝ σ M}
    (hout : s.out = none) {m : M} {w : Workspace ℝ} {x : ℝ} {y : List ℝ} {a : σ}
    (he : st.accept s.m s.work.addAccepted s.x s.y s.h s.args = ok (m, w, x, y, a)) (hfin : fin y = ok ()) (hf : w.follows_reject_step = false) :
    ∃ s' : State ℝ σ M, s' = { s with
        m := m, x := x, y := y, args := a
        work := { w with
          h_prev := s.h, rel_error_prev := fmax p.rel_error_prev_min w.rel_error, stats := { w.stats with h_accepted := w.h_new } } } ∧
      acceptTurn st p fin x1 s = ok (if s.last_step then .finished s' true
        else if x1 ≤ s'.x + s'.work.h_new then .next { s' with last_step := true } else .next s') := by
  refine ⟨_, rfl, ?_⟩
  unfold acceptTurn
  dsimp only
  rw [he, ok_bind]
  dsimp only
  rw [hfin, ok_bind, if_neg (by rw [hf]; simp)]
  unfold runOutput
  dsimp only
  rw [hout]
  dsimp only
  rw [ok_bind]
  dsimp only
  rw [if_neg (by simp)]
  cases w
  dsimp only at hf
  subst hf
  split
  · rfl
  · split <;> rfl

/-- what happens in a turn of `solve` with the zero solution -/
theorem amp_turn {P : RdParams} (htol : 0 < P.tol_newton) (hN : 0 < P.n_iteration_max) (hsaf : 0 ≤ P.m_safety)
    {s : State ℝ ℝ (RadauS scalarSol scalarCSol)}
    {m1 m2 : RadauS scalarSol scalarCSol} {w1 w2 : Workspace ℝ} {x1 h : ℝ} (hy : s.y = [0]) (hout : s.out = none)
    (hh : min s.work.h_new (x1 - s.x) = h) (h0 : 1 / 100 ≤ h)
    (hb : s.m.begin P ampSys s.work.addStep s.x 0 s.args = ok (m1, w1, s.args))
    (hpre : m1.prepare P ampSys scalarSol scalarCSol w1 s.x 0 h s.args = ok (m2, w2, s.args)) {q : scalarSol.F} {p : scalarCSol.F}
    (hq : m2.fr = some q) (hp : m2.fc = some p) (hyc : m2.yc = 0) (hk : m2.k_accepted = 0)
    (hw2 : w2.follows_reject_step = false ∧ w2.h_new = s.work.h_new) :
    ∃ s' : State ℝ ℝ (RadauS scalarSol scalarCSol), ∃ b : Bool, ∃ hn : ℝ,
      (w2.stats.n_accepted = 0 → hn = h / rdDivisor P 1 1e-10) ∧ (b = true ↔ P.c1h ≤ hn / h ∧ hn / h ≤ P.c2h) ∧
      (s'.y = [0] ∧ s'.x = s.x + h ∧ s'.out = none ∧ s'.args = s.args ∧ s'.h = h ∧ s'.last_step = s.last_step) ∧
      (s'.m.yc = 0 ∧ s'.m.k_accepted = 0 ∧ s'.m.jj = m2.jj ∧ s'.m.fr = m2.fr ∧ s'.m.fc = m2.fc) ∧
      (s'.m.reuse_jacobian_kk_and_fact = b ∧ s'.m.reuse_jacobian = !b ∧ s'.m.jacobian_computed = false) ∧
      (s'.work.follows_reject_step = false ∧ s'.work.h_new = if b then s.work.h_new else hn) ∧
      (s'.work.stats.n_accepted = w2.stats.n_accepted + 1 ∧ s'.work.stats.n_jacobian = w2.stats.n_jacobian ∧
        s'.work.stats.n_factor = w2.stats.n_factor) ∧
      variableTurn (radau5 P ampSys scalarSol scalarCSol) ampParams (fun _ => ok ()) x1 s =
        ok (if s.last_step then .finished s' true
          else if x1 ≤ s'.x + s'.work.h_new then .next { s' with last_step := true } else .next s') := by
  have hvec : vecOf 1 [(0 : ℝ)] = ok 0 := by
    have : [(0 : ℝ)] = List.ofFn (0 : Vec 1) := by simp [List.ofFn_succ]
    rw [this, vecOf_ofFn]
  obtain ⟨eta, w, e1, f1, f2, f3, f4, f5, f6, f7, f8⟩ := amp_step htol hN hb hpre hq hp hyc hk
  obtain ⟨b, e2, e3⟩ := amp_accept (P := P) (m := { m2 with z := 0, eta := eta, theta := P.theta_max }) rfl rfl
    w.addAccepted s.x h s.args
  have hdx : h ≤ x1 - s.x := hh ▸ min_le_right _ _
  have hmin : fmin s.work.h_new (x1 - s.x) = h := by rw [← hh]; unfold fmin; rw [min_def]
  have hstep : (radau5 P ampSys scalarSol scalarCSol).step s.m s.work.addStep s.x s.y h s.args =
      ok ({ m2 with z := 0, eta := eta, theta := P.theta_max }, w, s.args) := by
    unfold radau5
    dsimp only
    rw [hy, hvec, ok_bind, e1]
  obtain ⟨s', g1, g2⟩ := acceptTurn_plain (st := radau5 P ampSys scalarSol scalarCSol) (p := ampParams) (fin := fun _ => ok ()) (x1 := x1)
    (s := { s with m := { m2 with z := 0, eta := eta, theta := P.theta_max }, work := w, h := h, args := s.args }) hout
    (by
      unfold radau5
      dsimp only
      rw [hy, hvec, ok_bind, e3]
      rfl) rfl (by exact f3.trans hw2.1)
  refine ⟨s', b, rdNewStep P w.addAccepted h, ?_, e2, ?_, ?_, ?_, ?_, ?_, ?_⟩
  · intro hz
    unfold rdNewStep
    dsimp only
    rw [if_neg (by unfold Workspace.addAccepted; rw [f6, hz]; simp), rdDiv_eq hsaf]
    unfold Workspace.addAccepted
    rw [f5, f1]
  · rw [g1]
    exact ⟨by simp [List.ofFn_succ], rfl, hout, rfl, rfl, rfl⟩
  · rw [g1]
    exact ⟨rfl, rfl, rfl, rfl, rfl⟩
  · rw [g1]
    exact ⟨rfl, rfl, rfl⟩
  · rw [g1]
    refine ⟨f3.trans hw2.1, ?_⟩
    dsimp only
    rw [show w.addAccepted.h_new = s.work.h_new from f4.trans hw2.2]
  · rw [g1]
    exact ⟨congrArg (· + 1) f6, f7, f8⟩
  · unfold variableTurn
    dsimp only
    rw [if_neg (by rw [tenEps_eq, not_le]; norm_num; linarith), hmin, if_neg (by rw [tenEps_eq, not_le]; norm_num; linarith), hstep, ok_bind]
    dsimp only
    rw [f2, if_neg (by simp), if_pos (by rw [f1, lit_eq]; norm_num)]
    exact g2

theorem divisor_small {P : RdParams} (hm : 1 / 8 ≤ P.m_min) (h1 : P.m_min ≤ P.m_max) (hs : P.m_safety = 9 / 10) :
    rdDivisor P 1 1e-10 = P.m_min := by
  unfold rdDivisor clamp
  refine max_eq_left ((min_le_right _ _).trans ?_)
  have hN : (1 + 2 * (P.n_iteration_max : ℝ)) / (((1 : ℕ) : ℝ) + 2 * P.n_iteration_max) = 1 := by
    push_cast
    exact div_self (by positivity)
  rw [hN, min_self, hs]
  have : (1e-10 : ℝ) ^ (1 / 4 : ℝ) ≤ 1 / 100 := by
    calc (1e-10 : ℝ) ^ (1 / 4 : ℝ) ≤ ((1 / 100) ^ (4 : ℝ)) ^ (1 / 4 : ℝ) := by
          apply Real.rpow_le_rpow (by norm_num) _ (by norm_num)
          rw [show (4 : ℝ) = ((4 : ℕ) : ℝ) by norm_num, Real.rpow_natCast]; norm_num
      _ = 1 / 100 := by rw [← Real.rpow_mul (by norm_num)]; norm_num
  rw [div_le_iff₀ (by norm_num)]
  linarith

theorem amp_begin {P : RdParams} {m : RadauS scalarSol scalarCSol} {work : Workspace ℝ} (hw : work.stats.n_accepted = 0) (x a : ℝ) :
    m.begin P ampSys work x 0 a = ok ({ m with scaling := fun _ => P.tol_abs + P.tol_rel * |(0 : ℝ)|, k_accepted := 0 },
      { work with stats := { work.stats with n_function := work.stats.n_function + 1 } }, a) := by
  unfold Radau.begin
  rw [if_pos hw]
  unfold Radau.initialize
  rw [show ampSys.f x 0 a = ok (0, a) by unfold ampSys; simp; rfl, ok_bind]
  rfl

/-- the state of `solve` at the beginning -/
noncomputable def ampStart (m : RadauS scalarSol scalarCSol) (a : ℝ) : State ℝ ℝ (RadauS scalarSol scalarCSol) :=
  { m := m, work := Workspace.reset 1 ampParams.rel_error_prev_min, x := 0, y := [0], h := 1, last_step := false, out := none, args := a }

theorem amp_solve {P : RdParams} (m : RadauS scalarSol scalarCSol) {x1 : ℝ} (hx : 1 ≤ x1) (a : ℝ) :
    solve (radau5 P ampSys scalarSol scalarCSol) ampParams (fun _ => ok ()) m [0] 0 x1 none a none = (do
      let t ← turns (variableTurn (radau5 P ampSys scalarSol scalarCSol) ampParams (fun _ => ok ()) x1) false 100000 (ampStart m a)
      finish t) := by
  have hini : initialStep ampParams (0 : ℝ) x1 none = ok (false, 1) := by
    unfold initialStep ampParams plainParams
    dsimp only
    rw [if_pos rfl]
    unfold fmin
    rw [if_pos (by linarith)]
  unfold solve
  rw [if_neg (by simp [ampParams, plainParams]), if_neg (by linarith), hini]
  simp only [ok_bind]
  rw [if_neg (by rw [lit_eq]; norm_num)]
  unfold firstOutput
  simp only [ok_bind, Bool.false_eq_true, if_false]
  rfl

/-- **C85**: a second call of `solve` begins with the Jacobian matrix of the first problem. The equation is `y' = a y`, where `a` is
given by the arguments. After a successful solution with `a = -1` (default parameters) a solution with `a = -2` does not
compute any Jacobian matrix; all its iterations and error estimates use the derivative `-1` (here those of one step). -/
theorem C85_second_solve_counterexample : ∃ r1 r2,
    solve (radau5 rdSample ampSys scalarSol scalarCSol) ampParams (fun _ => ok ()) (Radau.new rdSample 1 scalarSol.F scalarCSol.F) [0] 0 1
      none (-1) none = ok r1 ∧ r1.stopped = false ∧ r1.state.work.stats.n_jacobian = 1 ∧
    solve (radau5 rdSample ampSys scalarSol scalarCSol) ampParams (fun _ => ok ()) r1.state.m [0] 0 1 none (-2) none = ok r2 ∧
      r2.stopped = false ∧ r2.state.work.stats.n_accepted = 1 ∧ r2.state.work.stats.n_jacobian = 0 ∧ r2.state.m.jj = fun _ _ => -1 := by
  have hdiv : rdDivisor rdSample 1 1e-10 = 1 / 8 := divisor_small (by unfold rdSample; norm_num) (by unfold rdSample; norm_num) rfl
  have htol : 0 < rdSample.tol_newton := by unfold rdSample; norm_num
  have hN : 0 < rdSample.n_iteration_max := by unfold rdSample; norm_num
  have hsaf : 0 ≤ rdSample.m_safety := by unfold rdSample; norm_num
  obtain ⟨q, hq⟩ := scalar_real (j := -1) (h := 1) one_pos (by norm_num)
  obtain ⟨p, hp⟩ := scalar_comp (j := -1) (h := 1) one_pos
  -- a turn that begins with a prepared method ends the solution
  have key : ∀ (m m2 : RadauS scalarSol scalarCSol) (a : ℝ) (nj : Nat),
      (∀ w : Workspace ℝ, ∃ w', Radau.prepare rdSample ampSys scalarSol scalarCSol
        { m with scaling := fun _ => rdSample.tol_abs + rdSample.tol_rel * |(0 : ℝ)|, k_accepted := 0 } w 0 0 1 a = ok (m2, w', a) ∧
        w'.follows_reject_step = w.follows_reject_step ∧ w'.h_new = w.h_new ∧ w'.stats.n_accepted = w.stats.n_accepted ∧
        w'.stats.n_jacobian = w.stats.n_jacobian + nj) →
      m2.fr = some q → m2.fc = some p → m2.yc = 0 → m2.k_accepted = 0 →
      ∃ r, solve (radau5 rdSample ampSys scalarSol scalarCSol) ampParams (fun _ => ok ()) m [0] 0 1 none a none = ok r ∧ r.stopped = false ∧
        r.state.work.stats.n_accepted = 1 ∧ r.state.work.stats.n_jacobian = nj ∧ r.state.m.jj = m2.jj ∧ r.state.m.yc = 0 ∧
        r.state.m.reuse_jacobian = true ∧ r.state.m.reuse_jacobian_kk_and_fact = false := by
    intro m m2 a nj hpre h1 h2 h3 h4
    obtain ⟨w2, p1, p2, p3, p4, p5⟩ := hpre { (ampStart m a).work.addStep with
      stats := { (ampStart m a).work.addStep.stats with n_function := (ampStart m a).work.addStep.stats.n_function + 1 } }
    obtain ⟨s', b, hn, t1, t2, ⟨a1, a2, a3, a4, a5, a6⟩, ⟨b1, b2, b3, b4, b5⟩, ⟨c1, c2, c3⟩, ⟨d1, d2⟩, ⟨n1, n2, n3⟩, ht⟩ :=
      amp_turn (s := ampStart m a) (x1 := 1) (h := 1) htol hN hsaf rfl rfl (by simp [ampStart, Workspace.reset]) (by norm_num)
        (amp_begin rfl _ _) p1 h1 h2 h3 h4 ⟨p2, p3⟩
    have hnv : hn = 8 := by
      rw [t1 (by rw [p4]; rfl), hdiv]; norm_num
    have hb : b = false := by
      rw [Bool.eq_false_iff]
      intro h
      have := (t2.1 h).2
      rw [hnv] at this
      unfold rdSample at this
      norm_num at this
    rw [amp_solve _ le_rfl]
    unfold turns
    rw [ht]
    have hx : s'.x = 1 := by rw [a2]; simp [ampStart]
    rw [if_neg (by simp [ampStart]), if_pos (by rw [hx, d2, hb, hnv]; simp)]
    simp only [ok_bind]
    unfold turns variableTurn
    dsimp only
    rw [if_pos (by rw [hx, tenEps_eq]; norm_num)]
    simp only [ok_bind]
    unfold finish runLast
    dsimp only
    rw [a3]
    simp only [ok_bind, if_true]
    refine ⟨_, rfl, rfl, ?_, ?_, b3, b1, ?_, ?_⟩
    · rw [n1, p4]; rfl
    · rw [n2, p5]; simp [ampStart, Workspace.reset, Workspace.addStep, Stats.reset]
    · rw [c2, hb]; rfl
    · rw [c1, hb]
  have hj : ampSys.jacobian rdSample.use_numerical_jacobian 1 0 0 (-1) = ok (fun _ _ => -1, -1, 0) := by
    unfold ImpSys.jacobian ampSys rdSample
    simp only [ok_bind]
    norm_num
    rfl
  obtain ⟨r1, e1, e2, e3, e4, e5, e6, e7, e8⟩ := key (Radau.new rdSample 1 scalarSol.F scalarCSol.F) _ (-1) 1
    (fun w => ⟨_, prepare_fresh rfl rfl rfl rfl hj hq hp, rfl, rfl, rfl, rfl⟩) rfl rfl rfl rfl
  obtain ⟨r2, f1, f2, f3, f4, f5, -⟩ := key r1.state.m { r1.state.m with
      scaling := fun _ => rdSample.tol_abs + rdSample.tol_rel * |(0 : ℝ)|, k_accepted := 0, fr := some q, fc := some p, reuse_jacobian := false }
    (-2) 0 (fun w => ⟨_, prepare_reuse (m := { r1.state.m with
      scaling := fun _ => rdSample.tol_abs + rdSample.tol_rel * |(0 : ℝ)|, k_accepted := 0 }) rfl e8 e7
      (by dsimp only; rw [e5]; exact hq) (by dsimp only; rw [e5]; exact hp), rfl, rfl, rfl, rfl⟩) rfl rfl e6 rfl
  exact ⟨r1, r2, e1, e2, e4, f1, f2, f3, f4, f5.trans e5⟩

/-- other parameters, also allowed (/repo/russell_ode/src/params.rs:304, 394) -/
noncomputable def rdWide : RdParams := { rdSample with m_min := 1 / 2, c2h := 2 }

/-- **C85**: the last step is shortened, but the matrices are used again as if it were not. For `y' = -y` from 0 to 1.25 with the
initial stepsize 1 there are two steps, of the sizes 1 and 0.25, and a single factorization: the matrix in use at the end is
`γ/h + 1` for `h = 1`. (For the convergence see `C85_old_matrices`.) -/
theorem C85_last_step_counterexample : ∃ r q, scalarSol.factorize (rdReal none (fun _ _ => -1) 1) = ok q ∧
    solve (radau5 rdWide ampSys scalarSol scalarCSol) ampParams (fun _ => ok ()) (Radau.new rdWide 1 scalarSol.F scalarCSol.F) [0] 0 (5 / 4)
      none (-1) none = ok r ∧ r.stopped = false ∧ r.state.x = 5 / 4 ∧ r.state.h = 1 / 4 ∧ r.state.work.stats.n_accepted = 2 ∧
      r.state.work.stats.n_factor = 1 ∧ r.state.m.fr = some q := by
  have hdiv : rdDivisor rdWide 1 1e-10 = 1 / 2 := divisor_small (by unfold rdWide; norm_num) (by unfold rdWide rdSample; norm_num) rfl
  have htol : 0 < rdWide.tol_newton := by unfold rdWide rdSample; norm_num
  have hN : 0 < rdWide.n_iteration_max := by unfold rdWide rdSample; norm_num
  have hsaf : 0 ≤ rdWide.m_safety := by unfold rdWide rdSample; norm_num
  obtain ⟨q, hq⟩ := scalar_real (j := -1) (h := 1) one_pos (by norm_num)
  obtain ⟨p, hp⟩ := scalar_comp (j := -1) (h := 1) one_pos
  have hj : ampSys.jacobian rdWide.use_numerical_jacobian 1 0 0 (-1) = ok (fun _ _ => -1, -1, 0) := by
    unfold ImpSys.jacobian ampSys rdWide rdSample
    simp only [ok_bind]
    norm_num
    rfl
  -- the first step
  obtain ⟨s', b, hn, t1, t2, ⟨a1, a2, a3, a4, a5, a6⟩, ⟨b1, b2, b3, b4, b5⟩, ⟨c1, c2, c3⟩, ⟨d1, d2⟩, ⟨n1, n2, n3⟩, ht⟩ :=
    amp_turn (s := ampStart (Radau.new rdWide 1 scalarSol.F scalarCSol.F) (-1)) (x1 := 5 / 4) (h := 1) htol hN hsaf rfl rfl
      (by simp [ampStart, Workspace.reset]; norm_num) (by norm_num) (amp_begin rfl _ _)
      (prepare_fresh rfl rfl rfl rfl hj hq hp) rfl rfl rfl rfl ⟨rfl, rfl⟩
  have hnv : hn = 2 := by rw [t1 rfl, hdiv]; norm_num
  have hb : b = true := by
    rw [t2, hnv]
    unfold rdWide rdSample
    norm_num
  subst hb
  have hx : s'.x = 1 := by rw [a2]; simp [ampStart]
  have hnew : s'.work.h_new = 1 := by rw [d2]; simp [ampStart, Workspace.reset]
  -- the second step
  have hbeg : s'.m.begin rdWide ampSys s'.work.addStep s'.x 0 s'.args = ok (s'.m, s'.work.addStep, s'.args) := by
    unfold Radau.begin
    rw [if_neg]
    change ¬ s'.work.stats.n_accepted = 0
    rw [n1]; omega
  have hpre : s'.m.prepare rdWide ampSys scalarSol scalarCSol s'.work.addStep s'.x 0 (1 / 4) s'.args =
      ok ({ s'.m with reuse_jacobian_kk_and_fact := false }, s'.work.addStep, s'.args) := by
    unfold Radau.prepare
    rw [if_pos c1]
  obtain ⟨s2, b', hn', -, -, ⟨a1', a2', a3', a4', a5', a6'⟩, ⟨b1', b2', b3', b4', b5'⟩, -, -, ⟨n1', n2', n3'⟩, ht'⟩ :=
    amp_turn (s := { s' with last_step := true }) (x1 := 5 / 4) (h := 1 / 4) htol hN hsaf a1 a3
      (by dsimp only; rw [hnew, hx]; norm_num) (by norm_num) hbeg hpre (q := q) (p := p) b4 b5 b1 b2 ⟨d1, rfl⟩
  rw [amp_solve _ (by norm_num)]
  unfold turns
  rw [ht, if_neg (by simp [ampStart]), if_pos (by rw [hx, hnew]; norm_num)]
  simp only [ok_bind]
  unfold turns
  rw [ht', if_pos rfl]
  simp only [ok_bind]
  unfold finish runLast
  dsimp only
  rw [a3']
  simp only [ok_bind, if_true]
  refine ⟨_, q, hq, rfl, rfl, ?_, a5', ?_, ?_, b4'.trans b4⟩
  · dsimp only at a2' ⊢; rw [a2', hx]; norm_num
  · rw [n1']; change s'.work.stats.n_accepted + 1 = 2; rw [n1]; rfl
  · rw [n3']; change s'.work.stats.n_factor = 1; rw [n3]; rfl

/-! ### Cases meeting the hypotheses of the theorems -/

/-- `C84_polynomial`: the cubic `(s + 1)³`, whose stages are the cubes of the nodes -/
example (s : ℝ) : |rdPoly (rdYc (![fun _ => Rd.MU1 ^ 3, fun _ => Rd.MU2 ^ 3, fun _ => 1] : Stages 1)) s 0 - ((s + 1) ^ 3 - 1)| ≤
    1 / 10 ^ 48 * (1 + |s|) ^ 3 * |Rd.MU1 ^ 3 - Rd.MU2 ^ 3| := by
  have := C84_polynomial ![1, 3, 3, 1] (![fun _ => Rd.MU1 ^ 3, fun _ => Rd.MU2 ^ 3, fun _ => 1] : Stages 1) 0
    (U := fun s => 1 + 3 * s + 3 * s ^ 2 + 1 * s ^ 3) (fun s => rfl) (by simp; ring) (by simp; ring) (by simp; norm_num) s
  have e : (s + 1) ^ 3 - 1 = 1 + 3 * s + 3 * s ^ 2 + 1 * s ^ 3 - (1 + 3 * 0 + 3 * 0 ^ 2 + 1 * 0 ^ 3) := by ring
  rw [e]
  exact this

/-- `C84_increment`, `C84_linear`, `C84_quadrature`, `C84_stationary`, `C85_old_matrices`: `y' = 2 x` from `y(0) = 5` with the
stepsize 1. The first iteration has increments `d`, the second one has none. -/
theorem line_iterations : ∃ q p d, Factored (scalarSys (fun x _ => 2 * x) 0) scalarSol scalarCSol 0 1 (some q) (some p) ∧
    rdIncrement rdSample (scalarSys (fun x _ => 2 * x) 0) scalarSol scalarCSol (some q) (some p) 0 (fun _ => 5) 1 (rdT 0) 0 () = ok (d, ()) ∧
    rdIncrement rdSample (scalarSys (fun x _ => 2 * x) 0) scalarSol scalarCSol (some q) (some p) 0 (fun _ => 5) 1 (rdT d) d () = ok (0, ()) ∧
    RdNewton (1 : Matrix (Fin 1) (Fin 1) ℝ) 0 1 d (rdResidual 1 1 (rdK (fun x _ _ => 2 * x) 0 (fun _ => 5) 1 (rdT 0)) 0) := by
  have hs := scalarSys_spec (fun x _ => 2 * x) 0
  obtain ⟨q, hq⟩ := scalar_real (j := 0) (h := 1) one_pos le_rfl
  obtain ⟨p, hp⟩ := scalar_comp (j := 0) (h := 1) one_pos
  obtain ⟨d, hd⟩ := scalar_increment rdSample (fun x _ => 2 * x) 0 q p 0 (fun _ => 5) 1 (rdT 0) 0
  obtain ⟨e, he⟩ := scalar_increment rdSample (fun x _ => 2 * x) 0 q p 0 (fun _ => 5) 1 (rdT d) d
  have hf : Factored (scalarSys (fun x _ => 2 * x) 0) scalarSol scalarCSol 0 1 (some q) (some p) := ⟨⟨q, rfl, hq⟩, ⟨p, rfl, hp⟩⟩
  have n1 : RdNewton (1 : Matrix (Fin 1) (Fin 1) ℝ) 0 1 d (rdResidual 1 1 (rdK (fun x _ _ => 2 * x) 0 (fun _ => 5) 1 (rdT 0)) 0) :=
    C84_increment scalarSol_exact scalarCSol_exact hs hf hd
  have n2 : RdNewton (1 : Matrix (Fin 1) (Fin 1) ℝ) 0 1 e (rdResidual 1 1 (rdK (fun x _ _ => 2 * x) 0 (fun _ => 5) 1 (rdT d)) d) :=
    C84_increment scalarSol_exact scalarCSol_exact hs hf he
  have hr : rdResidual 1 1 (rdK (fun x _ _ => 2 * x) 0 (fun _ => 5) 1 (rdT d)) d = (0 : Stages 1) := by
    funext i
    have := C85_old_matrices (b := fun x _ => 2 * x) one_ne_zero n1 i
    rw [zero_add] at this
    rw [this]
    simp
  rw [hr] at n2
  obtain ⟨e0, e1, e2⟩ := scalar_newton n2
  have : e = 0 := by
    funext i m
    have : m = 0 := Subsingleton.elim _ _
    subst this
    fin_cases i
    · simpa using e0
    · simpa using e1
    · simpa using e2
  subst this
  exact ⟨q, p, d, hf, hd, he, n1⟩

example : ∃ w : Stages 1, ∀ i, rdT w i = (1 : ℝ) • ∑ j, rdA i j • (fun _ => 2 * (0 + Rd.C j * 1) : Vec 1) := by
  obtain ⟨q, p, d, hf, -, he, -⟩ := line_iterations
  refine ⟨d, fun i => ?_⟩
  have := C84_stationary scalarSol_exact scalarCSol_exact (scalarSys_spec (fun x _ => 2 * x) 0) hf one_ne_zero he i
  rwa [show (scalarSys (fun x _ => 2 * x) 0).massMatrix = 1 from rfl, Matrix.one_mulVec] at this

example : ∃ d : Stages 1, ∀ i, rdT (0 + d) i = (1 : ℝ) • ∑ j, rdA i j • (fun _ => 2 * (0 + Rd.C j * 1) : Vec 1) := by
  obtain ⟨q, p, d, -, -, -, n1⟩ := line_iterations
  refine ⟨d, fun i => ?_⟩
  have := C84_quadrature (sys := scalarSys (fun x _ => 2 * x) 0) (b := fun x _ => 2 * x) one_ne_zero n1 i
  rwa [show (scalarSys (fun x _ => 2 * x) 0).massMatrix = 1 from rfl, Matrix.one_mulVec] at this

example : ∃ d : Stages 1, RdNewton (1 : Matrix (Fin 1) (Fin 1) ℝ) 0 1 d
    (rdResidual 1 1 (rdK (fun x y => (0 : Matrix (Fin 1) (Fin 1) ℝ).mulVec y + fun _ => 2 * x) 0 (fun _ => 5) 1 (rdT 0)) 0) := by
  obtain ⟨q, p, d, -, -, -, n1⟩ := line_iterations
  refine ⟨d, ?_⟩
  simpa only [Matrix.zero_mulVec, zero_add] using n1

/-- `C85_step`: the step of `y' = -100 x y` -/
example {work : Workspace ℝ} (hw : work.stats.n_accepted = 0) : ∃ m' work',
    RdReady rdSample steepSys scalarSol scalarCSol (fun x y i => -(100 * x * y i))
      (steepSys.matrix rdSample.use_numerical_jacobian (fun x y i => -(100 * x * y i)) (fun x _ _ _ => -(100 * x)))
      (Radau.new rdSample 1 scalarSol.F scalarCSol.F) work.stats.n_accepted 0 (fun _ => 1) ∧
    Radau.step rdSample steepSys scalarSol scalarCSol (Radau.new rdSample 1 scalarSol.F scalarCSol.F) work 0 (fun _ => 1) 1 () =
        ok (m', work', ()) := by
  obtain ⟨m', w', e, -⟩ := steep_step hw
  refine ⟨m', w', ?_, e⟩
  exact ⟨fun h => absurd h (by omega), fun h => (by cases h), fun h => (by rcases h with h | h <;> cases h), fun h => (by cases h)⟩

/-- the equation `y' = 2 x` -/
def lineSys : ImpSys 1 Unit := scalarSys (fun x _ => 2 * x) 0

/-- A second iteration without increments is the last one. -/
theorem rdLoop_exact {n : Nat} {A : Type} {P : RdParams} {sys : ImpSys n A} {L : LinSol n} {Q : CLinSol n} {fr : Option L.F} {fc : Option Q.F}
    {x : ℝ} {y scaling : Vec n} {h : ℝ} {k : Nat} {t : RdIter n} {work : Workspace ℝ} {a a1 a2 : A} {d1 : Stages n}
    (e1 : rdIncrement P sys L Q fr fc x y h t.z t.w a = ok (d1, a1))
    (e2 : rdIncrement P sys L Q fr fc x y h (rdT fun i m => t.w i m + d1 i m) (fun i m => t.w i m + d1 i m) a1 = ok (0, a2))
    (hw : work.stats.n_iterations = 0) (hN : 2 < P.n_iteration_max) (h1 : ¬ t.eta * rdNorm scaling d1 < P.tol_newton)
    (h2 : 0 < P.tol_newton) :
    ∃ t', rdLoop P sys L Q fr fc x y scaling h (k + 2) t work a =
        ok (t', (bwCountSol (rdCount (bwCountSol (rdCount work)))).updateIterMax, a2, false) ∧ t'.z = rdT (t.w + d1) ∧ t'.theta = 0 := by
  have hz : rdNorm scaling (0 : Stages n) = 0 := by simp [rdNorm]
  unfold rdLoop
  dsimp only
  rw [e1, ok_bind]
  dsimp only
  have c1 : rdCheck P (bwCountSol (rdCount work)).stats.n_iterations (rdNorm scaling d1) t = (t.eta, t.theta, t.thq_old, none) := by
    unfold rdCheck
    rw [if_neg]
    intro hh
    have := hh.1
    simp [bwCountSol, rdCount, hw] at this
  rw [c1]
  dsimp only
  rw [if_neg h1]
  unfold rdLoop
  dsimp only
  rw [e2, ok_bind]
  dsimp only
  have c2 : ∀ z w eta theta thq, rdCheck P (bwCountSol (rdCount (bwCountSol (rdCount work)))).stats.n_iterations (rdNorm scaling (0 : Stages n))
      (⟨z, w, eta, theta, rdNorm scaling d1, thq⟩ : RdIter n) = (0, 0, 0, none) := by
    intro z w eta theta thq
    have hn : (bwCountSol (rdCount (bwCountSol (rdCount work)))).stats.n_iterations = 2 := by simp [bwCountSol, rdCount, hw]
    unfold rdCheck
    rw [hn, if_pos ⟨by norm_num, hN⟩, hz]
    norm_num
  rw [c2]
  dsimp only
  rw [hz, mul_zero, if_pos h2]
  refine ⟨_, rfl, ?_, rfl⟩
  dsimp only
  congr 1
  funext i m
  simp

theorem line_numbers {d : Stages 1} (h1 : RdNewton (1 : Matrix (Fin 1) (Fin 1) ℝ) 0 1 d
      (rdResidual 1 1 (rdK (fun x _ _ => 2 * x) 0 (fun _ => 5) 1 (rdT 0)) 0)) :
    1 / 100 ≤ d 0 0 ^ 2 + d 1 0 ^ 2 + d 2 0 ^ 2 ∧ |rdT d 2 0 - 1| ≤ 1 / 10 ^ 15 ∧
      |Rd.E0 * rdT d 0 0 + Rd.E1 * rdT d 1 0 + Rd.E2 * rdT d 2 0| ≤ 1 / 10 ^ 10 := by
  obtain ⟨d0, d1, d2⟩ := scalar_newton h1
  simp [rdResidual, rdK, Fin.sum_univ_three, Rd.TI, Rd.C, Rd.SQRT_6, Rd.ALPHA, Rd.BETA, Rd.GAMMA] at d0 d1 d2
  norm_num at d0 d1 d2
  refine ⟨?_, ?_, ?_⟩
  · rw [d0, d1, d2]; norm_num
  · simp [rdT, Rd.T, d0, d1, d2, abs_le]; norm_num
  · simp [rdT, Rd.T, d0, d1, d2, Rd.E0, Rd.E1, Rd.E2, abs_le]; norm_num

theorem line_step {work : Workspace ℝ} (hw : work.stats.n_accepted = 0) :
    ∃ m' work', Radau.step rdSample lineSys scalarSol scalarCSol (Radau.new rdSample 1 scalarSol.F scalarCSol.F) work 0 (fun _ => 5) 1 () =
        ok (m', work', ()) ∧ work'.iterations_diverging = false ∧ work'.rel_error < 1 ∧ |m'.z 2 0 - 1| ≤ 1 / 10 ^ 15 ∧
        work'.follows_reject_step = work.follows_reject_step := by
  have hs : lineSys.Spec _ _ := scalarSys_spec (fun x _ => 2 * x) 0
  obtain ⟨q, p, d, hf, hd, he, hn⟩ := line_iterations
  obtain ⟨⟨q', e1, hq⟩, ⟨p', e2, hp⟩⟩ := hf
  cases e1; cases e2
  obtain ⟨s1, s2, s3⟩ := line_numbers hn
  unfold Radau.step Radau.begin
  rw [if_pos hw]
  unfold Radau.initialize
  rw [show lineSys.f 0 (fun _ => 5) () = ok (fun _ => 2 * 0, ()) from rfl, ok_bind]
  dsimp only
  rw [ok_bind]
  dsimp only
  have hj : lineSys.jacobian rdSample.use_numerical_jacobian 1 0 (fun _ => 5) () = ok (0, (), 0) := by
    unfold ImpSys.jacobian lineSys scalarSys rdSample
    simp only [ok_bind]
    norm_num
    rfl
  rw [prepare_fresh rfl rfl rfl rfl hj hq hp, ok_bind]
  dsimp only
  unfold Radau.iterate
  dsimp only
  have htr : ∀ (w : Workspace ℝ) (yc : Stages 1), w.stats.n_accepted = 0 → rdTrial rdSample w yc 1 = (0, 0) := by
    intro w yc h
    unfold rdTrial
    rw [if_pos (Or.inl h)]
  simp only [htr, hw]
  have hsc : 0 < rdSample.tol_abs + rdSample.tol_rel * |(5 : ℝ)| ∧ rdSample.tol_abs + rdSample.tol_rel * |(5 : ℝ)| ≤ 1 / 1000 := by
    unfold rdSample; norm_num
  have hr : 1 / 100 ≤ √((d 0 0 ^ 2 + d 1 0 ^ 2 + d 2 0 ^ 2) / 3) := Real.le_sqrt_of_sq_le (by linarith)
  have hd1 : 1 ≤ rdNorm (fun _ => rdSample.tol_abs + rdSample.tol_rel * |(5 : ℝ)|) d := by
    rw [scalar_norm (s := fun _ => rdSample.tol_abs + rdSample.tol_rel * |(5 : ℝ)|) hsc.1, le_div_iff₀ hsc.1]; linarith
  have hT : (rdT 0 : Stages 1) = 0 := by funext i m; simp [rdT]
  have h0 : (fun i m => (0 : Stages 1) i m + d i m) = d := by funext i m; simp
  obtain ⟨t', g1, g2, g3⟩ := rdLoop_exact (P := rdSample) (sys := lineSys) (L := scalarSol) (Q := scalarCSol) (k := 5)
    (scaling := fun _ => rdSample.tol_abs + rdSample.tol_rel * |(5 : ℝ)|) (d1 := d)
    (t := ⟨0, 0, (max (1 : ℝ) (1 / 2 ^ 52)) ^ (0.8 : ℝ), rdSample.theta_max, 0, 0⟩) (work := { work with
      iterations_diverging := false
      stats := { work.stats with
        n_function := work.stats.n_function + 1 + 0, n_jacobian := work.stats.n_jacobian + 1, n_factor := work.stats.n_factor + 1
        n_iterations := 0 } }) (by rw [hT] at hd; exact hd) (by dsimp only; rw [h0]; exact he) rfl (by unfold rdSample; norm_num) (by
      dsimp only
      rw [max_eq_left (by norm_num), Real.one_rpow, one_mul, not_lt]
      refine le_trans ?_ hd1
      unfold rdSample; norm_num) (by unfold rdSample; norm_num)
  dsimp only at g1
  rw [hw] at g1
  erw [g1]
  rw [ok_bind]
  dsimp only
  rw [if_neg (by simp)]
  rw [zero_add] at g2
  unfold Radau.estimate
  dsimp only
  rw [g2]
  have hrun : ∃ e : Vec 1, scalarSol.run (some q) (fun i => rdMez lineSys.mass 1 (rdT d) i + 2 * 0) = ok e := ⟨_, rfl⟩
  obtain ⟨e, hrun⟩ := hrun
  have hmul := scalarSol_exact _ _ hq _ _ hrun
  have he0 : |e 0| ≤ 1 / 10 ^ 10 := by
    have := congrFun hmul 0
    simp [Matrix.mulVec, dotProduct, rdReal, rdMez, lineSys, scalarSys] at this
    have hg : Rd.GAMMA ≠ 0 := by unfold Rd.GAMMA; norm_num
    rw [this.resolve_right hg]
    exact s3
  have hrms : rmsNorm e (fun _ => rdSample.tol_abs + rdSample.tol_rel * |(5 : ℝ)|) < 1 := by
    unfold rmsNorm
    refine max_lt (by norm_num) ?_
    have hs1 : (1 / 10000 : ℝ) ≤ rdSample.tol_abs + rdSample.tol_rel * |(5 : ℝ)| := by unfold rdSample; norm_num
    have : |e 0 / (rdSample.tol_abs + rdSample.tol_rel * |(5 : ℝ)|)| ≤ 1 / 2 := by
      rw [abs_div, abs_of_pos hsc.1, div_le_iff₀ hsc.1]
      linarith
    rw [Real.sqrt_lt' one_pos]
    simp
    have h2 := abs_le.1 this
    nlinarith [h2.1, h2.2]
  rw [hrun, ok_bind, if_pos hrms]
  refine ⟨_, _, rfl, ?_, hrms, s2, ?_⟩
  · unfold Workspace.updateIterMax
    split <;> rfl
  · unfold Workspace.updateIterMax
    split <;> rfl

/-- `C85_variable_steps`: `y' = 2 x` from `y(0) = 5` to `x = 1`, which is one step; the solution is 6 up to rounding of the
constants -/
theorem line_solve : ∃ r, solve (radau5 rdSample lineSys scalarSol scalarCSol) ampParams (fun _ => ok ())
      (Radau.new rdSample 1 scalarSol.F scalarCSol.F) [5] 0 1 none () none = ok r ∧ r.stopped = false ∧
    r.state.x = 1 ∧ ∃ v, r.state.y = [v] ∧ |v - 6| ≤ 1 / 10 ^ 15 := by
  have hini : initialStep ampParams (0 : ℝ) 1 none = ok (false, 1) := by
    unfold initialStep ampParams plainParams fmin
    norm_num
  have hvec : vecOf 1 [(5 : ℝ)] = ok (fun _ => 5) := by
    have : [(5 : ℝ)] = List.ofFn (fun _ => 5 : Vec 1) := by simp [List.ofFn_succ]
    rw [this, vecOf_ofFn]
  obtain ⟨m', w', e1, e2, e3, e4, e5⟩ := line_step (work := (Workspace.reset (1 : ℝ) ampParams.rel_error_prev_min).addStep) rfl
  unfold solve
  rw [if_neg (by simp [ampParams, plainParams]), if_neg (by norm_num), hini]
  simp only [ok_bind]
  rw [if_neg (by rw [lit_eq]; norm_num)]
  unfold firstOutput
  simp only [ok_bind, Bool.false_eq_true, if_false]
  have hmin : fmin (Workspace.reset (1 : ℝ) ampParams.rel_error_prev_min).h_new (1 - 0) = 1 := by
    simp [fmin, Workspace.reset]
  have hstep : (radau5 rdSample lineSys scalarSol scalarCSol).step (Radau.new rdSample 1 scalarSol.F scalarCSol.F)
      (Workspace.reset (1 : ℝ) ampParams.rel_error_prev_min).addStep 0 [5] 1 () = ok (m', w', ()) := by
    unfold radau5
    dsimp only
    rw [hvec, ok_bind, e1]
  have hacc : ∃ m2 w2, (radau5 rdSample lineSys scalarSol scalarCSol).accept m' w'.addAccepted 0 [5] 1 () =
      ok (m2, w2, 0 + 1, List.ofFn (fun i => 5 + m'.z 2 i : Vec 1), ()) ∧ w2.follows_reject_step = w'.follows_reject_step := by
    unfold radau5 Radau.accept Radau.initialize
    dsimp only
    rw [hvec, ok_bind, show ∀ (x : ℝ) (y : Vec 1), lineSys.f x y () = ok (fun i => 2 * x, ()) from fun _ _ => rfl]
    simp only [ok_bind]
    refine ⟨_, _, rfl, ?_⟩
    dsimp only
    split <;> rfl
  obtain ⟨m2, w2, ha, hfr⟩ := hacc
  obtain ⟨s', g1, g2⟩ := acceptTurn_plain (st := radau5 rdSample lineSys scalarSol scalarCSol) (p := ampParams) (fin := fun _ => ok ())
    (x1 := 1) (s := { m := m', work := w', x := 0, y := [5], h := 1, last_step := false, out := none, args := () }) rfl
    ha rfl (by rw [hfr, e5]; rfl)
  have hx : s'.x = 1 := by rw [g1]; norm_num
  have hy : s'.y = [5 + m'.z 2 0] := by rw [g1]; simp [List.ofFn_succ]
  have ho : s'.out = none := by rw [g1]
  have hend : ∀ b : Bool, variableTurn (radau5 rdSample lineSys scalarSol scalarCSol) ampParams (fun _ => ok ()) 1
      { s' with last_step := b } = ok (.finished { s' with last_step := b } true) := by
    intro b
    unfold variableTurn
    dsimp only
    rw [if_pos (by rw [hx, tenEps_eq]; norm_num)]
  have hturn : variableTurn (radau5 rdSample lineSys scalarSol scalarCSol) ampParams (fun _ => ok ()) 1
      { m := Radau.new rdSample 1 scalarSol.F scalarCSol.F, work := Workspace.reset 1 ampParams.rel_error_prev_min, x := 0, y := [5], h := 1,
        last_step := false, out := none, args := () } =
      ok (if 1 ≤ s'.x + s'.work.h_new then .next { s' with last_step := true } else .next s') := by
    unfold variableTurn
    dsimp only
    rw [if_neg (by rw [tenEps_eq]; norm_num), hmin, if_neg (by rw [tenEps_eq]; norm_num), hstep]
    simp only [ok_bind]
    rw [if_neg (by rw [e2]; simp), if_pos (by rw [lit_eq]; norm_num; exact e3), g2, if_neg (by simp)]
  have key : ∀ (N : Nat) (b : Bool), ∃ r, (do
      let t ← turns (variableTurn (radau5 rdSample lineSys scalarSol scalarCSol) ampParams (fun _ => ok ()) 1) false (N + 1) { s' with last_step := b }
      finish t) = ok r ∧ r.stopped = false ∧ r.state.x = 1 ∧ ∃ v, r.state.y = [v] ∧ |v - 6| ≤ 1 / 10 ^ 15 := by
    intro N b
    unfold turns
    rw [hend b]
    simp only [ok_bind]
    unfold finish runLast
    dsimp only
    rw [ho]
    simp only [ok_bind, if_true]
    refine ⟨_, rfl, rfl, hx, _, hy, ?_⟩
    convert e4 using 2
    ring
  obtain ⟨N, hN⟩ : ∃ N, ampParams.n_step_max = N + 1 + 1 := ⟨99998, by simp [ampParams, plainParams]⟩
  rw [hN]
  unfold turns
  rw [hturn]
  simp only [ok_bind]
  by_cases hc : 1 ≤ s'.x + s'.work.h_new
  · rw [if_pos hc]
    exact key N true
  · rw [if_neg hc]
    exact key N s'.last_step

example : ∃ r : Solved ℝ Unit (RadauS scalarSol scalarCSol), ∃ acc : List (Accepted ℝ (RadauS scalarSol scalarCSol)),
    Path (fun x y h e _ m' y' => ∃ u z, y = List.ofFn u ∧ RdStep rdSample lineSys (fun x _ _ => 2 * x) (fun _ _ => 0) x u h e false z ∧
      e < 1 ∧ y' = List.ofFn (u + z 2) ∧ m'.yc = rdYc z) 0 [5] acc 1 r.state.y := by
  obtain ⟨r, h1, h2, h3, -⟩ := line_solve
  obtain ⟨acc, -, h⟩ := C85_variable_steps scalarSol_exact scalarCSol_exact (scalarSys_spec (fun x _ => 2 * x) 0) rfl
    (fun o h => by cases h) h1 h2
  rw [h3] at h
  exact ⟨r, acc, h⟩

/-- `C85_equal_steps`: `y' = -100 x y` -/
example : ∃ r : Solved ℝ Unit (RadauS scalarSol scalarCSol), ∃ acc : List (Accepted ℝ (RadauS scalarSol scalarCSol)),
    Path (fun x y h e div m' y' => ∃ u z, y = List.ofFn u ∧ RdStep rdSample steepSys (fun x y i => -(100 * x * y i)) (fun x _ _ _ => -(100 * x))
      x u h e div z ∧ y' = List.ofFn (u + z 2) ∧ m'.yc = rdYc z) 0 [1] acc 1 r.state.y := by
  obtain ⟨r, h1, h2, -⟩ := C85_equal_diverging_counterexample
  obtain ⟨k, acc, -, -, -, -, h⟩ := C85_equal_steps scalarSol_exact scalarCSol_exact
    (scalarSys_spec (fun x y => -(100 * x * y)) (fun x _ => -(100 * x))) (fun o h => by cases h) h1 h2
  exact ⟨r, acc, h⟩

/-- `C85_reject`: after an error of 2 the stepsize is reduced -/
example (work : Workspace ℝ) : (Radau.reject rdSample { work with rel_error := 2 } 1).h_new < 1 :=
  (C85_reject (P := rdSample) (by unfold rdSample; norm_num) (by unfold rdSample; norm_num) (by unfold rdSample; norm_num)
    (by unfold rdSample; norm_num) { work with rel_error := 2 } one_pos (by unfold rdSample; norm_num)).2.2.2.2
    (by norm_num) (by unfold rdSample; norm_num) (Or.inr (by norm_num))

/-- `C85_reject_counterexample`: `m_max = 1/2`, an error of 2 -/
example (work : Workspace ℝ) : 1 < (Radau.reject { rdSample with m_max := 1 / 2 } { work with rel_error := 2 } 1).h_new :=
  C85_reject_counterexample (by unfold rdSample; norm_num) (by unfold rdSample; norm_num) (by norm_num) (by unfold rdSample; norm_num)
    _ one_pos

/-- `C85_dense`: the middle of a step -/
example : ∃ v, (radau5 rdSample ampSys scalarSol scalarCSol).dense_output
    { Radau.new rdSample 1 scalarSol.F scalarCSol.F with yc := rdYc fun i _ => Rd.C i } [0] (3 + 1 / 2 * 2) (3 + 2)
      (List.ofFn ((fun _ => 7 : Vec 1) + fun _ => Rd.C 2)) 2 = ok (List.ofFn (v : Vec 1)) := by
  obtain ⟨v, h, -⟩ := C85_dense (P := rdSample) (sys := ampSys) (L := scalarSol) (Q := scalarCSol)
    (m := { Radau.new rdSample 1 scalarSol.F scalarCSol.F with yc := rdYc fun i _ => Rd.C i }) (z := fun i _ => Rd.C i) rfl (fun _ => 7)
    (x := 3) (h := 2) two_pos (y_out := [0]) rfl (s := 1 / 2) (by norm_num) (by norm_num)
  exact ⟨v, h⟩

end Russell.Ode
