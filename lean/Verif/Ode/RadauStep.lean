import Verif.Ode.RadauStage

/-!
# The steps of the Radau IIA method (C85)
-/

namespace Russell.Ode

open Russell Russell.Res
open Russell.Nonlin (Vec LinSol)

variable {n : Nat} {A : Type}

/-- the rate of convergence estimated from the norms of the increments (the latest first) -/
noncomputable def rdRate : List ℝ → ℝ
  | [r1, r0] => r1 / r0
  | r2 :: r1 :: r0 :: _ => √(r2 / r1 * (r1 / r0))
  | _ => 0

/-- the factor of the last increment in the estimated error of the iterations, after the first and before the last iteration;
otherwise the old one -/
noncomputable def rdFactor (nit : Nat) (ρ : List ℝ) (eta : ℝ) : ℝ :=
  if 1 < ρ.length ∧ ρ.length < nit then rdRate ρ / (1 - rdRate ρ) else eta

/-- The iterations diverge, or are predicted to need too many iterations. -/
def RdDiverges (nit : Nat) (tol : ℝ) (ρ : List ℝ) : Prop :=
  1 < ρ.length ∧ ρ.length < nit ∧ (99 / 100 ≤ rdRate ρ ∨
    1 ≤ rdRate ρ / (1 - rdRate ρ) * ρ.headD 0 * rdRate ρ ^ ((nit - 1 - ρ.length : Nat) : ℝ) / tol)

/-- what stays the same during the iterations of a step: mass matrix, Jacobian matrix and stepsize of the factorized matrices,
function, station, solution, stepsize, number of iterations, tolerance and scaling -/
structure RdData (n : Nat) where
  M : Matrix (Fin n) (Fin n) ℝ
  J : Matrix (Fin n) (Fin n) ℝ
  g : ℝ
  F : ℝ → Vec n → Vec n
  x : ℝ
  y : Vec n
  h : ℝ
  nit : Nat
  tol : ℝ
  scaling : Vec n

/-- The increments `d` of an iteration from `(z, w)`. -/
def RdData.Newton (D : RdData n) (z w d : Stages n) : Prop :=
  RdNewton D.M D.J D.g d (rdResidual D.M D.h (rdK D.F D.x D.y D.h z) w)

/-- Iterations that neither converged nor diverged lead from `zt` to `z = T w`; the norms of the increments are `ρ`, the latest
first, and the factor is `eta`. -/
inductive RdPath (D : RdData n) (zt : Stages n) (eta0 : ℝ) : List ℝ → Stages n → Stages n → ℝ → Prop
  | start : RdPath D zt eta0 [] zt (rdTI zt) eta0
  | step {ρ z w eta d} : RdPath D zt eta0 ρ z w eta → D.Newton z w d →
      ¬ RdDiverges D.nit D.tol (rdNorm D.scaling d :: ρ) →
      ¬ rdFactor D.nit (rdNorm D.scaling d :: ρ) eta * rdNorm D.scaling d < D.tol →
      RdPath D zt eta0 (rdNorm D.scaling d :: ρ) (rdT (w + d)) (w + d) (rdFactor D.nit (rdNorm D.scaling d :: ρ) eta)

/-- The iterations end with `z`: either flagged as diverging, or converged, that is the estimated error of the iterations is
below the tolerance. There are `k + 1` iterations. -/
def RdRun (D : RdData n) (zt : Stages n) (eta0 : ℝ) (div : Bool) (k : Nat) (z : Stages n) : Prop :=
  ∃ ρ z0 w0 eta d, RdPath D zt eta0 ρ z0 w0 eta ∧ ρ.length = k ∧ k < D.nit ∧ D.Newton z0 w0 d ∧ z = rdT (w0 + d) ∧
    (div = true → RdDiverges D.nit D.tol (rdNorm D.scaling d :: ρ)) ∧
    (div = false → ¬ RdDiverges D.nit D.tol (rdNorm D.scaling d :: ρ) ∧
      rdFactor D.nit (rdNorm D.scaling d :: ρ) eta * rdNorm D.scaling d < D.tol)

/-- The variables of the loop agree with the history. -/
def RdIter.Tracks (t : RdIter n) (ρ : List ℝ) : Prop :=
  match ρ with
  | [] => True
  | [r] => t.ldw_old = r
  | r1 :: r0 :: _ => t.ldw_old = r1 ∧ t.thq_old = r1 / r0

theorem rdCheck_ok {P : RdParams} {ldw : ℝ} {t : RdIter n} {ρ : List ℝ} (ht : t.Tracks ρ) {newt : Nat} (hn : newt = ρ.length + 1)
    {eta theta thq : ℝ} {o : Option ℝ} (h : rdCheck P newt ldw t = (eta, theta, thq, o)) :
    (o.isSome = true ↔ RdDiverges P.n_iteration_max P.tol_newton (ldw :: ρ)) ∧
    (o = none → eta = rdFactor P.n_iteration_max (ldw :: ρ) t.eta) ∧
    (newt < P.n_iteration_max → ∀ z w, (⟨z, w, eta, theta, ldw, thq⟩ : RdIter n).Tracks (ldw :: ρ)) ∧
    (∀ mult, o = some mult → 0 < mult ∧ mult ≤ 4 / 5) := by
  subst hn
  unfold rdCheck at h
  unfold RdDiverges rdFactor
  by_cases hc : 1 < ρ.length + 1 ∧ ρ.length + 1 < P.n_iteration_max
  · rw [if_pos hc] at h
    dsimp only at h
    have hc' : 1 < (ldw :: ρ).length ∧ (ldw :: ρ).length < P.n_iteration_max := hc
    rw [if_pos hc']
    have hθ : (if ρ.length + 1 = 2 then ldw / t.ldw_old else √(ldw / t.ldw_old * t.thq_old)) = rdRate (ldw :: ρ) := by
      rcases ρ with _ | ⟨r, _ | ⟨r0, ρ⟩⟩
      · simp at hc
      · simp only [RdIter.Tracks] at ht
        simp [rdRate, ht]
      · simp only [RdIter.Tracks] at ht
        simp [rdRate, ht.1, ht.2]
    rw [hθ] at h
    have htr : ∀ e th : ℝ, ∀ z w, (⟨z, w, e, th, ldw, ldw / t.ldw_old⟩ : RdIter n).Tracks (ldw :: ρ) := by
      intro e th z w
      rcases ρ with _ | ⟨r, ρ⟩
      · simp at hc
      · rcases ρ with _ | ⟨r0, ρ⟩
        · simp only [RdIter.Tracks] at ht ⊢
          rw [ht]; simp
        · simp only [RdIter.Tracks] at ht ⊢
          rw [ht.1]; simp
    generalize rdRate (ldw :: ρ) = θ at h ⊢
    have hhd : (ldw :: ρ).headD 0 = ldw := rfl
    have hlen : (ldw :: ρ).length = ρ.length + 1 := rfl
    rw [hhd, hlen]
    by_cases h99 : θ < 0.99
    · rw [if_pos h99] at h
      have h99' : ¬ (99 / 100 : ℝ) ≤ θ := by rw [not_le]; norm_num at h99 ⊢; exact h99
      have h1 : (1.0 : ℝ) = 1 := by norm_num
      rw [h1] at h
      by_cases hr : 1 ≤ θ / (1 - θ) * ldw * θ ^ ((P.n_iteration_max - 1 - (ρ.length + 1) : Nat) : ℝ) / P.tol_newton
      · rw [if_pos hr] at h
        cases h
        refine ⟨iff_of_true rfl ⟨hc.1, hc.2, Or.inr hr⟩, fun h => (by cases h), fun _ => htr _ _, ?_⟩
        intro mult hm
        cases hm
        have hq : (1 : ℝ) ≤ max 1.0e-4 (min 20.0 (theta / (1 - theta) * ldw * theta ^ ((P.n_iteration_max - 1 - (ρ.length + 1) : Nat) : ℝ) / P.tol_newton)) :=
          le_max_of_le_right (le_min (by norm_num) hr)
        generalize max (1.0e-4 : ℝ) (min 20.0 (theta / (1 - theta) * ldw * theta ^ ((P.n_iteration_max - 1 - (ρ.length + 1) : Nat) : ℝ) / P.tol_newton)) = q at hq
        have hp : 0 < q ^ (-1 / ((4 + P.n_iteration_max - 1 - (ρ.length + 1) : Nat) : ℝ)) := Real.rpow_pos_of_pos (by linarith) _
        have hp1 : q ^ (-1 / ((4 + P.n_iteration_max - 1 - (ρ.length + 1) : Nat) : ℝ)) ≤ 1 := by
          apply Real.rpow_le_one_of_one_le_of_nonpos hq
          exact div_nonpos_of_nonpos_of_nonneg (by norm_num) (by positivity)
        rw [show (0.8 : ℝ) = 4 / 5 by norm_num]
        exact ⟨by positivity, by linarith⟩
      · rw [if_neg hr] at h
        cases h
        refine ⟨?_, fun _ => rfl, fun _ => htr _ _, fun _ h => by cases h⟩
        simp only [Option.isSome_none, Bool.false_eq_true, false_iff]
        rintro ⟨-, -, h | h⟩
        · exact h99' h
        · exact hr h
    · rw [if_neg h99] at h
      have h99' : (99 / 100 : ℝ) ≤ θ := by rw [not_lt] at h99; norm_num at h99 ⊢; exact h99
      cases h
      refine ⟨iff_of_true rfl ⟨hc.1, hc.2, Or.inl h99'⟩, fun h => (by cases h), fun _ => htr _ _, ?_⟩
      intro mult hm
      cases hm
      constructor <;> norm_num
  · rw [if_neg hc] at h
    cases h
    have hc' : ¬ (1 < (ldw :: ρ).length ∧ (ldw :: ρ).length < P.n_iteration_max) := hc
    rw [if_neg hc']
    refine ⟨?_, fun _ => rfl, ?_, fun _ h => by cases h⟩
    · simp only [Option.isSome_none, Bool.false_eq_true, false_iff]
      rintro ⟨h1, h2, -⟩
      exact hc' ⟨h1, h2⟩
    · intro hlt z w
      rcases ρ with _ | ⟨r, ρ⟩
      · simp [RdIter.Tracks]
      · exact absurd ⟨by simp, hlt⟩ hc

/-- what the iterations do to the workspace -/
theorem rdLoop_ok {P : RdParams} {sys : ImpSys n A} {L : LinSol n} {Q : CLinSol n} (hL : L.Exact) (hQ : Q.Exact)
    {F : ℝ → Vec n → Vec n} {J : ℝ → Vec n → Matrix (Fin n) (Fin n) ℝ} (hs : sys.Spec F J) {Jg : Matrix (Fin n) (Fin n) ℝ} {g : ℝ}
    {fr : Option L.F} {fc : Option Q.F} (hf : Factored sys L Q Jg g fr fc) {x : ℝ} {y scaling : Vec n} {h : ℝ} {zt : Stages n}
    {eta0 : ℝ} (D : RdData n)
    (hD : D = ⟨sys.massMatrix, Jg, g, F, x, y, h, P.n_iteration_max, P.tol_newton, scaling⟩) :
    ∀ (r : Nat) (t : RdIter n) (work : Workspace ℝ) (a : A) (ρ : List ℝ) {t' : RdIter n} {work' : Workspace ℝ} {a' : A} {div : Bool},
    rdLoop P sys L Q fr fc x y scaling h r t work a = ok (t', work', a', div) → ρ.length + r = P.n_iteration_max →
    RdPath D zt eta0 ρ t.z t.w t.eta → t.Tracks ρ → work.stats.n_iterations = ρ.length → work.iterations_diverging = false →
    ∃ k mult, RdRun D zt eta0 div k t'.z ∧ (div = true → 0 < mult ∧ mult ≤ 4 / 5) ∧
      work' = { work with
        iterations_diverging := div
        h_multiplier_diverging := if div then mult else work.h_multiplier_diverging
        stats := { work.stats with
          n_iterations := k + 1
          n_iterations_max := if div then work.stats.n_iterations_max else max work.stats.n_iterations_max (k + 1)
          n_function := work.stats.n_function + 3 * (k + 1 - ρ.length)
          n_lin_sol := work.stats.n_lin_sol + (k + 1 - ρ.length) } } ∧ ρ.length ≤ k
  | 0, _, _, _, _, _, _, _, _, he, _, _, _, _, _ => by cases he
  | r + 1, t, work, a, ρ, t', work', a', div, he, hlen, hp, ht, hw, hwd => by
    unfold rdLoop at he
    dsimp only at he
    rw [bind_eq_ok] at he
    obtain ⟨⟨d, a1⟩, e1, he⟩ := he
    dsimp only at he
    have hN : D.Newton t.z t.w d := by rw [hD]; exact C84_increment hL hQ hs hf e1
    have hni : (bwCountSol (rdCount work)).stats.n_iterations = ρ.length + 1 := by
      simp [bwCountSol, rdCount, hw]
    rw [hni] at he
    have hwd' : (fun i m => t.w i m + d i m : Stages n) = t.w + d := rfl
    rw [hwd'] at he
    have hDn : D.nit = P.n_iteration_max := by rw [hD]
    have hDt : D.tol = P.tol_newton := by rw [hD]
    have hDs : D.scaling = scaling := by rw [hD]
    rcases hck : rdCheck P (ρ.length + 1) (rdNorm scaling d) t with ⟨eta, theta, thq, o⟩
    obtain ⟨c1, c2, c3, c4⟩ := rdCheck_ok ht rfl hck
    rw [hck] at he
    rcases o with _ | mult
    · dsimp only at he
      have hnd : ¬ RdDiverges P.n_iteration_max P.tol_newton (rdNorm scaling d :: ρ) := by
        intro h; have := c1.2 h; simp at this
      have heta := c2 rfl
      by_cases hc : eta * rdNorm scaling d < P.tol_newton
      · rw [if_pos hc] at he
        cases he
        refine ⟨ρ.length, 0, ⟨ρ, t.z, t.w, t.eta, d, hp, rfl, by omega, hN, rfl, fun h => (by cases h), fun _ => ?_⟩, fun h => (by cases h), ?_, le_rfl⟩
        · rw [hDn, hDt, hDs]
          exact ⟨hnd, by rw [← heta]; exact hc⟩
        · unfold Workspace.updateIterMax
          rw [hni]
          split
          · rename_i hgt
            simp [bwCountSol, rdCount, hw, hwd] at hgt ⊢
            omega
          · rename_i hgt
            simp [bwCountSol, rdCount, hw, hwd] at hgt ⊢
            omega
      · rw [if_neg hc] at he
        cases r with
        | zero => cases he
        | succ r =>
          have hp' : RdPath D zt eta0 (rdNorm scaling d :: ρ) (rdT (t.w + d)) (t.w + d) eta := by
            have := RdPath.step hp hN (by rw [hDn, hDt, hDs]; exact hnd) (by rw [hDn, hDt, hDs, ← heta]; exact hc)
            rw [hDn, hDs, ← heta] at this
            exact this
          obtain ⟨k, mult, k1, k2, k3, k4⟩ := rdLoop_ok hL hQ hs hf D hD (r + 1) _ _ _ (rdNorm scaling d :: ρ) he (by simp; omega) hp'
            (c3 (by omega) _ _) (by simp [hni]) (by simp [bwCountSol, rdCount, hwd])
          refine ⟨k, mult, k1, k2, ?_, by simp at k4; omega⟩
          rw [k3]
          simp at k4
          simp [bwCountSol, rdCount]
          omega
    · dsimp only at he
      cases he
      have hd : RdDiverges P.n_iteration_max P.tol_newton (rdNorm scaling d :: ρ) := c1.1 rfl
      refine ⟨ρ.length, mult, ⟨ρ, t.z, t.w, t.eta, d, hp, rfl, by omega, hN, rfl, fun _ => ?_, fun h => (by cases h)⟩, fun _ => c4 mult rfl, ?_, le_rfl⟩
      · rw [hDn, hDt, hDs]; exact hd
      · simp [bwCountSol, rdCount, hw]

end Russell.Ode
