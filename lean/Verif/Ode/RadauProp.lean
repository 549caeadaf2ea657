import Verif.Ode.RadauStep

/-!
# Steps, error estimate and solution with the Radau IIA method (C85)
-/

namespace Russell.Ode

open Russell Russell.Res
open Russell.Nonlin (Vec LinSol)

variable {n : Nat} {A : Type}

/-- the scaling of the errors -/
def rdScaling (P : RdParams) (y : Vec n) : Vec n := fun i => P.tol_abs + P.tol_rel * |y i|

/-- the vector `d·z / h` of the error estimate, times the mass matrix -/
noncomputable def rdEz (M : Matrix (Fin n) (Fin n) ℝ) (h : ℝ) (z : Stages n) : Vec n :=
  (Rd.GAMMA / h) • M.mulVec (Rd.E0 • z 0 + Rd.E1 • z 1 + Rd.E2 • z 2)

/-- The error estimate `e` solves `(γ/g M - J) e = γ/h M (e·z) + f(x, y)`; if its norm is not below one, in the first step and
after a rejected step (`again`), it is computed once more with `f(x, y + e)`. -/
def RdEstimate (D : RdData n) (again : Prop) (z : Stages n) (e : ℝ) : Prop :=
  ∃ v, ((Rd.GAMMA / D.g) • D.M - D.J).mulVec v = rdEz D.M D.h z + D.F D.x D.y ∧
    ((rmsNorm v D.scaling < 1 ∨ ¬ again) ∧ e = rmsNorm v D.scaling ∨
      ¬ rmsNorm v D.scaling < 1 ∧ again ∧ ∃ v', ((Rd.GAMMA / D.g) • D.M - D.J).mulVec v' = rdEz D.M D.h z + D.F D.x (D.y + v) ∧
        e = rmsNorm v' D.scaling)

theorem rdMez_eq (sys : ImpSys n A) (h : ℝ) (z : Stages n) : rdMez sys.mass h z = rdEz sys.massMatrix h z := by
  have hv : (fun j => Rd.E0 * z 0 j + Rd.E1 * z 1 j + Rd.E2 * z 2 j) = Rd.E0 • z 0 + Rd.E1 • z 1 + Rd.E2 • z 2 := by
    funext j; simp
  unfold rdMez rdEz ImpSys.massMatrix
  cases sys.mass with
  | some m => dsimp only; rw [hv]; rfl
  | none => ext i; simp

theorem estimate_ok {P : RdParams} {sys : ImpSys n A} {L : LinSol n} {Q : CLinSol n} (hL : L.Exact)
    {F : ℝ → Vec n → Vec n} {J : ℝ → Vec n → Matrix (Fin n) (Fin n) ℝ} (hs : sys.Spec F J) {g : ℝ} {m : RadauS L Q}
    (hf : Factored sys L Q m.jj g m.fr m.fc) {x : ℝ} {y : Vec n} (hk : m.k_accepted = F x y) {h : ℝ} {work work' : Workspace ℝ}
    {a a' : A} (he : m.estimate sys L work x y h a = ok (work', a')) :
    ∃ e b, RdEstimate ⟨sys.massMatrix, m.jj, g, F, x, y, h, P.n_iteration_max, P.tol_newton, m.scaling⟩
      (work.stats.n_accepted = 0 ∨ work.follows_reject_step = true) m.z e ∧
      work' = { work with rel_error := e, stats := { work.stats with n_function := work.stats.n_function + b } } ∧ b ≤ 1 := by
  obtain ⟨⟨f, hfr, hf⟩, -⟩ := hf
  unfold Radau.estimate at he
  dsimp only at he
  rw [bind_eq_ok] at he
  obtain ⟨v, e1, he⟩ := he
  rw [hfr] at e1
  have g1 := hL _ _ hf _ _ e1
  rw [rdReal_eq, rdMez_eq, hk] at g1
  split at he
  · rename_i hlt
    cases he
    exact ⟨_, 0, ⟨v, g1, Or.inl ⟨Or.inl hlt, rfl⟩⟩, rfl, by omega⟩
  · rename_i hlt
    split at he
    · rename_i hag
      rw [bind_eq_ok] at he
      obtain ⟨⟨fpe, a1⟩, e2, he⟩ := he
      dsimp only at he
      rw [bind_eq_ok] at he
      obtain ⟨v', e3, he⟩ := he
      cases he
      rw [hfr] at e3
      have g2 := hs.f e2
      have g3 := hL _ _ hf _ _ e3
      dsimp only at g2
      rw [rdReal_eq, rdMez_eq, g2] at g3
      exact ⟨_, 1, ⟨v, g1, Or.inr ⟨hlt, hag, v', g3, rfl⟩⟩, rfl, le_rfl⟩
    · rename_i hag
      cases he
      exact ⟨_, 0, ⟨v, g1, Or.inl ⟨Or.inr hag, rfl⟩⟩, rfl, by omega⟩

/-- What is known of the method before a step from `(x, y)`, when the Jacobian matrices are `Jm`. -/
structure RdReady (P : RdParams) (sys : ImpSys n A) (L : LinSol n) (Q : CLinSol n) (F : ℝ → Vec n → Vec n)
    (Jm : ℝ → Vec n → Matrix (Fin n) (Fin n) ℝ) (m : RadauS L Q) (nacc : Nat) (x : ℝ) (y : Vec n) : Prop where
  point : 0 < nacc → m.scaling = rdScaling P y ∧ m.k_accepted = F x y
  fact : m.reuse_jacobian_kk_and_fact = true → ∃ g, Factored sys L Q m.jj g m.fr m.fc
  some : m.reuse_jacobian_kk_and_fact = true ∨ m.reuse_jacobian = true → ∃ xp yp, m.jj = Jm xp yp
  jac : m.jacobian_computed = true → m.jj = Jm x y

theorem prepare_ok {P : RdParams} {sys : ImpSys n A} {L : LinSol n} {Q : CLinSol n}
    {F : ℝ → Vec n → Vec n} {J : ℝ → Vec n → Matrix (Fin n) (Fin n) ℝ} (hs : sys.Spec F J) {m m' : RadauS L Q}
    {nacc : Nat} {x : ℝ} {y : Vec n} {h : ℝ} {work work' : Workspace ℝ} {a a' : A}
    (hR : RdReady P sys L Q F (sys.matrix P.use_numerical_jacobian F J) m nacc x y)
    (he : m.prepare P sys L Q work x y h a = ok (m', work', a')) :
    ∃ g, Factored sys L Q m'.jj g m'.fr m'.fc ∧ (m.reuse_jacobian_kk_and_fact = false → g = h) ∧
      (∃ xp yp, m'.jj = sys.matrix P.use_numerical_jacobian F J xp yp) ∧
      (m.reuse_jacobian_kk_and_fact = false → m.reuse_jacobian = false → m'.jj = sys.matrix P.use_numerical_jacobian F J x y) ∧
      (m'.jacobian_computed = true → m'.jj = sys.matrix P.use_numerical_jacobian F J x y) ∧
      m' = { m with
        jj := m'.jj, fr := m'.fr, fc := m'.fc, jacobian_computed := m'.jacobian_computed, reuse_jacobian_kk_and_fact := false
        reuse_jacobian := m.reuse_jacobian && m.reuse_jacobian_kk_and_fact } ∧
      (m.reuse_jacobian_kk_and_fact = true → m'.jj = m.jj ∧ Factored sys L Q m.jj g m.fr m.fc) ∧
      work' = { work with stats := { work.stats with
        n_jacobian := work.stats.n_jacobian + (if m.reuse_jacobian_kk_and_fact || m.reuse_jacobian || m.jacobian_computed then 0 else 1)
        n_factor := work.stats.n_factor + (if m.reuse_jacobian_kk_and_fact then 0 else 1)
        n_function := work.stats.n_function + (if m.reuse_jacobian_kk_and_fact || m.reuse_jacobian || m.jacobian_computed then 0 else
          if P.use_numerical_jacobian = true ∨ sys.jac = none then n else 0) } } := by
  unfold Radau.prepare at he
  by_cases hk : m.reuse_jacobian_kk_and_fact = true
  · rw [if_pos hk] at he
    cases he
    obtain ⟨g, hg⟩ := hR.fact hk
    refine ⟨g, hg, fun h => (by rw [hk] at h; cases h), hR.some (Or.inl hk), fun h => (by rw [hk] at h; cases h), hR.jac, ?_, fun _ => ⟨rfl, hg⟩, ?_⟩
    · rw [hk]; simp
    · rw [hk]; simp
  · have hk' : m.reuse_jacobian_kk_and_fact = false := by simpa using hk
    rw [if_neg hk, bind_eq_ok] at he
    obtain ⟨⟨m1, w1, a1⟩, e1, he⟩ := he
    dsimp only at he
    rw [bind_eq_ok] at he
    obtain ⟨-, -, he⟩ := he
    rw [bind_eq_ok] at he
    obtain ⟨⟨fr, fc⟩, e2, he⟩ := he
    cases he
    obtain ⟨h1, h2⟩ := both_ok e2
    dsimp only at h1 h2
    have hfac : Factored sys L Q m1.jj h (some fr) (some fc) := ⟨⟨fr, rfl, h1⟩, ⟨fc, rfl, h2⟩⟩
    unfold Radau.updateJacobian at e1
    by_cases hj : m.reuse_jacobian = true
    · rw [if_pos hj] at e1
      cases e1
      refine ⟨h, hfac, fun _ => rfl, hR.some (Or.inr hj), fun _ h => (by rw [hj] at h; cases h), hR.jac, ?_, fun h => (by rw [hk'] at h; cases h), ?_⟩
      · rw [hk']; simp
      · rw [hk', hj]; simp
    · have hj' : m.reuse_jacobian = false := by simpa using hj
      rw [if_neg hj] at e1
      by_cases hc : m.jacobian_computed = true
      · rw [if_pos hc] at e1
        cases e1
        refine ⟨h, hfac, fun _ => rfl, ⟨x, y, hR.jac hc⟩, fun _ _ => hR.jac hc, fun _ => hR.jac hc, ?_, fun h => (by rw [hk'] at h; cases h), ?_⟩
        · rw [hk', hj']; simp
        · rw [hk', hj', hc]; simp
      · have hc' : m.jacobian_computed = false := by simpa using hc
        rw [if_neg hc, bind_eq_ok] at e1
        obtain ⟨⟨jj, a2, nf⟩, e3, e1⟩ := e1
        cases e1
        obtain ⟨j1, j2⟩ := jacobian_ok hs e3
        dsimp only at j1 j2
        rw [one_smul] at j1
        refine ⟨h, hfac, fun _ => rfl, ⟨x, y, j1⟩, fun _ _ => j1, fun _ => j1, ?_, fun h => (by rw [hk'] at h; cases h), ?_⟩
        · rw [hk', hj']; simp
        · rw [hk', hj', hc', j2]; simp

theorem rdTrial_w (P : RdParams) (work : Workspace ℝ) (yc : Stages n) (h : ℝ) :
    (rdTrial P work yc h).2 = rdTI (rdTrial P work yc h).1 := by
  unfold rdTrial
  split
  · funext i m; simp [rdTI]
  · rfl

/-- **C85**: a step. The iterations start at zero or at the extrapolated polynomial and are Newton iterations with the matrices
for a Jacobian matrix computed at some point and a stepsize `g`; these are the current point and stepsize unless a previous
accepted step allowed to reuse them. The outcome is `RdRun`; without divergence the error is estimated. The counters tell
what has been done, and the diverging iterations ask for a reduction to at most 4/5 of the stepsize. -/
theorem C85_step {P : RdParams} {sys : ImpSys n A} {L : LinSol n} {Q : CLinSol n} (hL : L.Exact) (hQ : Q.Exact)
    {F : ℝ → Vec n → Vec n} {J : ℝ → Vec n → Matrix (Fin n) (Fin n) ℝ} (hs : sys.Spec F J) {m m' : RadauS L Q}
    {x : ℝ} {y : Vec n} {h : ℝ} {work work' : Workspace ℝ} {a a' : A}
    (hR : RdReady P sys L Q F (sys.matrix P.use_numerical_jacobian F J) m work.stats.n_accepted x y)
    (he : Radau.step P sys L Q m work x y h a = ok (m', work', a')) :
    ∃ g k b mult, Factored sys L Q m'.jj g m'.fr m'.fc ∧
      (∃ xp yp, m'.jj = sys.matrix P.use_numerical_jacobian F J xp yp) ∧
      (m.reuse_jacobian_kk_and_fact = false → g = h ∧
        (m.reuse_jacobian = false → m'.jj = sys.matrix P.use_numerical_jacobian F J x y)) ∧
      (m.reuse_jacobian_kk_and_fact = true → m'.jj = m.jj ∧ Factored sys L Q m.jj g m.fr m.fc) ∧
      RdRun ⟨sys.massMatrix, m'.jj, g, F, x, y, h, P.n_iteration_max, P.tol_newton, rdScaling P y⟩
        (rdTrial P work m.yc h).1 ((max m.eta (1 / 2 ^ 52)) ^ (0.8 : ℝ)) work'.iterations_diverging k m'.z ∧
      (work'.iterations_diverging = false →
        RdEstimate ⟨sys.massMatrix, m'.jj, g, F, x, y, h, P.n_iteration_max, P.tol_newton, rdScaling P y⟩
          (work.stats.n_accepted = 0 ∨ work.follows_reject_step = true) m'.z work'.rel_error) ∧
      (work'.iterations_diverging = true → 0 < mult ∧ mult ≤ 4 / 5 ∧ work'.h_multiplier_diverging = mult ∧
        work'.rel_error = work.rel_error) ∧
      (m'.reuse_jacobian_kk_and_fact = false ∧ m'.scaling = rdScaling P y ∧ m'.k_accepted = F x y ∧ m'.yc = m.yc ∧
        (m'.reuse_jacobian = true → m.reuse_jacobian_kk_and_fact = true) ∧
        (m'.jacobian_computed = true → m'.jj = sys.matrix P.use_numerical_jacobian F J x y)) ∧
      work'.stats = { work.stats with
        n_iterations := k + 1
        n_iterations_max := if work'.iterations_diverging then work.stats.n_iterations_max else max work.stats.n_iterations_max (k + 1)
        n_function := work.stats.n_function + (if work.stats.n_accepted = 0 then 1 else 0) +
          (if m.reuse_jacobian_kk_and_fact || m.reuse_jacobian || m.jacobian_computed then 0 else
            if P.use_numerical_jacobian = true ∨ sys.jac = none then n else 0) + 3 * (k + 1) + b
        n_jacobian := work.stats.n_jacobian +
          (if m.reuse_jacobian_kk_and_fact || m.reuse_jacobian || m.jacobian_computed then 0 else 1)
        n_factor := work.stats.n_factor + (if m.reuse_jacobian_kk_and_fact then 0 else 1)
        n_lin_sol := work.stats.n_lin_sol + (k + 1) } ∧ b ≤ 1 ∧
      (work'.follows_reject_step = work.follows_reject_step ∧ work'.h_new = work.h_new ∧ work'.h_prev = work.h_prev ∧
        work'.rel_error_prev = work.rel_error_prev) := by
  unfold Radau.step at he
  rw [bind_eq_ok] at he
  obtain ⟨⟨m1, w1, a1⟩, e1, he⟩ := he
  dsimp only at he
  have hb : m1 = { m with scaling := rdScaling P y, k_accepted := F x y } ∧
      w1 = { work with stats := { work.stats with n_function := work.stats.n_function + (if work.stats.n_accepted = 0 then 1 else 0) } } := by
    unfold Radau.begin at e1
    by_cases h0 : work.stats.n_accepted = 0
    · rw [if_pos h0] at e1
      unfold Radau.initialize at e1
      rw [bind_eq_ok] at e1
      obtain ⟨⟨k, a2⟩, e2, e1⟩ := e1
      cases e1
      have := hs.f e2
      dsimp only at this
      rw [if_pos h0, this]
      exact ⟨rfl, rfl⟩
    · rw [if_neg h0] at e1
      cases e1
      obtain ⟨p1, p2⟩ := hR.point (by omega)
      rw [if_neg h0, ← p1, ← p2]
      exact ⟨rfl, rfl⟩
  obtain ⟨rfl, rfl⟩ := hb
  rw [bind_eq_ok] at he
  obtain ⟨⟨m2, w2, a2⟩, e2, he⟩ := he
  dsimp only at he
  obtain ⟨g, hfac, hgh, hpt, hcur, hjc, hm2, hreuse, hw2⟩ := prepare_ok (nacc := work.stats.n_accepted) hs
    (m := { m with scaling := rdScaling P y, k_accepted := F x y }) ⟨fun _ => ⟨rfl, rfl⟩, hR.fact, hR.some, hR.jac⟩ e2
  have hsc : m2.scaling = rdScaling P y := by rw [hm2]
  have hka : m2.k_accepted = F x y := by rw [hm2]
  have hyc : m2.yc = m.yc := by rw [hm2]
  have heta : m2.eta = m.eta := by rw [hm2]
  have hrk : m2.reuse_jacobian_kk_and_fact = false := by rw [hm2]
  have hrj : m2.reuse_jacobian = (m.reuse_jacobian && m.reuse_jacobian_kk_and_fact) := by rw [hm2]
  dsimp only at hreuse hcur hgh hw2
  rw [bind_eq_ok] at he
  obtain ⟨⟨t, w3, a3, div⟩, e3, he⟩ := he
  dsimp only at he
  unfold Radau.iterate at e3
  dsimp only at e3
  have htr : rdTrial P w2 m2.yc h = rdTrial P work m.yc h := by
    rw [hyc, hw2]; rfl
  rw [htr, hsc, heta, rdTrial_w] at e3
  obtain ⟨k, mult, k1, k2, k3, -⟩ := rdLoop_ok hL hQ hs hfac _ rfl _ _ _ _ [] e3 (by simp) RdPath.start trivial rfl rfl
  have hw3 : w3.iterations_diverging = div := by rw [k3]
  cases div with
  | true =>
    rw [if_pos rfl] at he
    cases he
    refine ⟨g, k, 0, mult, hfac, hpt, fun h => ⟨hgh h, hcur h⟩, hreuse, by rw [hw3]; exact k1, fun h => ?_, fun _ => ?_, ?_, ?_, by omega, ?_⟩
    · rw [hw3] at h; cases h
    · exact ⟨(k2 rfl).1, (k2 rfl).2, by rw [k3]; rfl, by rw [k3, hw2]⟩
    · exact ⟨hrk, hsc, hka, hyc, fun h => (by change m2.reuse_jacobian = true at h; rw [hrj, Bool.and_eq_true] at h; exact h.2), hjc⟩
    · rw [k3, hw2]; simp
    · rw [k3, hw2]; exact ⟨rfl, rfl, rfl, rfl⟩
  | false =>
    rw [if_neg (by simp), bind_eq_ok] at he
    obtain ⟨⟨w4, a4⟩, e4, he⟩ := he
    cases he
    obtain ⟨e, b, q1, q2, q3⟩ := estimate_ok (P := P) (Q := Q) (g := g) hL hs (m := { m2 with z := t.z, eta := t.eta, theta := t.theta }) hfac hka e4
    have hw4 : w4.iterations_diverging = false := by rw [q2, k3]
    have hac : w3.stats.n_accepted = work.stats.n_accepted := by rw [k3, hw2]
    have hfo : w3.follows_reject_step = work.follows_reject_step := by rw [k3, hw2]
    rw [hac, hfo] at q1
    dsimp only at q1
    rw [hsc] at q1
    refine ⟨g, k, b, mult, hfac, hpt, fun h => ⟨hgh h, hcur h⟩, hreuse, by rw [hw4]; exact k1, fun _ => ?_, fun h => ?_, ?_, ?_, q3, ?_⟩
    · rw [show w4.rel_error = e by rw [q2]]; exact q1
    · rw [hw4] at h; cases h
    · exact ⟨hrk, hsc, hka, hyc, fun h => (by change m2.reuse_jacobian = true at h; rw [hrj, Bool.and_eq_true] at h; exact h.2), hjc⟩
    · rw [q2, k3, hw2]; simp
    · rw [q2, k3, hw2]; exact ⟨rfl, rfl, rfl, rfl⟩

/-- A step as seen by `solve`: `z` are its stages, `e` its error estimate, `div` the flag of diverging iterations. -/
def RdStep (P : RdParams) (sys : ImpSys n A) (F : ℝ → Vec n → Vec n) (J : ℝ → Vec n → Matrix (Fin n) (Fin n) ℝ) (x : ℝ) (y : Vec n)
    (h e : ℝ) (div : Bool) (z : Stages n) : Prop :=
  ∃ (D : RdData n) (xp : ℝ) (yp : Vec n) (zt : Stages n) (eta0 : ℝ) (k : Nat) (again : Prop),
    D = ⟨sys.massMatrix, sys.matrix P.use_numerical_jacobian F J xp yp, D.g, F, x, y, h, P.n_iteration_max, P.tol_newton, rdScaling P y⟩ ∧
    RdRun D zt eta0 div k z ∧ (div = false → RdEstimate D again z e)

/-- What the method promises to `solve`. -/
def rdContract (P : RdParams) (sys : ImpSys n A) (L : LinSol n) (Q : CLinSol n) (F : ℝ → Vec n → Vec n)
    (J : ℝ → Vec n → Matrix (Fin n) (Fin n) ℝ) : Contract ℝ (RadauS L Q) where
  J := fun m nacc _ x y => ∀ u, y = List.ofFn u → RdReady P sys L Q F (sys.matrix P.use_numerical_jacobian F J) m nacc x u
  P := fun m x y h e div => ∃ u g, y = List.ofFn u ∧ Factored sys L Q m.jj g m.fr m.fc ∧
    (∃ xp yp, m.jj = sys.matrix P.use_numerical_jacobian F J xp yp) ∧ m.reuse_jacobian_kk_and_fact = false ∧ m.scaling = rdScaling P u ∧
    m.k_accepted = F x u ∧ (m.jacobian_computed = true → m.jj = sys.matrix P.use_numerical_jacobian F J x u) ∧
    RdStep P sys F J x u h e div m.z
  Φ := fun x y h e div m' y' => ∃ u, y = List.ofFn u ∧ ∃ z, RdStep P sys F J x u h e div z ∧ y' = List.ofFn (u + z 2) ∧ m'.yc = rdYc z
  U := fun _ _ => True

theorem accept_ok {P : RdParams} {sys : ImpSys n A} {F G : Type} {f : ℝ → Vec n → Vec n}
    {J : ℝ → Vec n → Matrix (Fin n) (Fin n) ℝ} (hs : sys.Spec f J) {m m' : Radau n F G} {work work' : Workspace ℝ} {x x' h : ℝ}
    {y y' : Vec n} {a a' : A} (he : m.accept P sys work x y h a = ok (m', work', x', y', a')) :
    x' = x + h ∧ y' = y + m.z 2 ∧
    (m'.reuse_jacobian_kk_and_fact = true ↔ m.theta ≤ P.theta_max ∧ P.c1h ≤ rdNewStep P work h / h ∧ rdNewStep P work h / h ≤ P.c2h) ∧
    (m'.reuse_jacobian = true ↔ m.theta ≤ P.theta_max ∧ m'.reuse_jacobian_kk_and_fact = false) ∧
    m' = { m with
      yc := rdYc m.z, jacobian_computed := false, reuse_jacobian_kk_and_fact := m'.reuse_jacobian_kk_and_fact
      reuse_jacobian := m'.reuse_jacobian, scaling := rdScaling P y', k_accepted := f x' y' } ∧
    work' = { work with
      h_new := if m'.reuse_jacobian_kk_and_fact then work.h_new else rdNewStep P work h
      stats := { work.stats with n_function := work.stats.n_function + 1 } } := by
  unfold Radau.accept at he
  dsimp only at he
  rw [bind_eq_ok] at he
  obtain ⟨⟨m1, w1, a1⟩, e1, he⟩ := he
  cases he
  unfold Radau.initialize at e1
  rw [bind_eq_ok] at e1
  obtain ⟨⟨k, a2⟩, e2, e1⟩ := e1
  cases e1
  have hk := hs.f e2
  dsimp only at hk
  refine ⟨rfl, rfl, ?_, ?_, ?_, ?_⟩
  · simp
  · dsimp only
    by_cases h1 : m.theta ≤ P.theta_max ∧ P.c1h ≤ rdNewStep P work h / h ∧ rdNewStep P work h / h ≤ P.c2h
    · simp [h1]
    · simp only [h1, decide_false, Bool.not_false, Bool.true_and, decide_eq_true_eq, and_true]
  · dsimp only; rw [hk]; rfl
  · dsimp only
    split <;> simp_all

theorem radau5_meets {P : RdParams} {sys : ImpSys n A} {L : LinSol n} {Q : CLinSol n} (hL : L.Exact) (hQ : Q.Exact)
    {F : ℝ → Vec n → Vec n} {J : ℝ → Vec n → Matrix (Fin n) (Fin n) ℝ} (hs : sys.Spec F J) :
    (radau5 P sys L Q).Meets (rdContract P sys L Q F J) where
  step := by
    intro m w x y h a m' w' a' he hJ
    unfold radau5 at he
    dsimp only at he
    rw [bind_eq_ok] at he
    obtain ⟨u, hu, he⟩ := he
    have hy := vecOf_ok hu
    obtain ⟨g, k, b, mult, s1, ⟨xp, yp, s2⟩, -, -, s5, s6, s7, ⟨t1, t2, t3, t4, t5, t6⟩, s9, -, s10⟩ := C85_step hL hQ hs (hJ u hy) he
    refine ⟨⟨⟨u, g, hy, s1, ⟨xp, yp, s2⟩, t1, t2, t3, t6, ?_⟩, fun _ _ _ _ => trivial⟩, by rw [s9], by rw [s9], by rw [s9], s10.1⟩
    refine ⟨⟨sys.massMatrix, m'.jj, g, F, x, u, h, P.n_iteration_max, P.tol_newton, rdScaling P u⟩, xp, yp, _, _, k, _, ?_, s5, s6⟩
    rw [s2]
  accept := by
    intro m w x y h a m' w' x' y' a' he _ hP
    obtain ⟨u, g, hu, hfac, hpt, hrk, hsc, hka, hjc, hst⟩ := hP
    unfold radau5 at he
    dsimp only at he
    rw [bind_eq_ok] at he
    obtain ⟨v, hv, he⟩ := he
    have : u = v := List.ofFn_injective (hu.symm.trans (vecOf_ok hv))
    subst this
    rw [bind_eq_ok] at he
    obtain ⟨⟨m1, w1, x1, y1, a1⟩, e1, he⟩ := he
    cases he
    obtain ⟨q1, q2, q3, q4, q5, q6⟩ := accept_ok hs e1
    have hjj : m1.jj = m.jj := by rw [q5]
    have hfr : m1.fr = m.fr := by rw [q5]
    have hfc : m1.fc = m.fc := by rw [q5]
    refine ⟨⟨q1, ⟨u, hu, m.z, hst, by rw [q2], by rw [q5]⟩, ?_, trivial, by rw [q6]⟩, by rw [q6], by rw [q6], by rw [q6], by rw [q6]⟩
    intro k _ u' hu'
    have := List.ofFn_injective hu'
    subst this
    refine ⟨fun _ => ⟨by rw [q5], by rw [q5]⟩, fun _ => ⟨g, by rw [hjj, hfr, hfc]; exact hfac⟩, fun _ => by rw [hjj]; exact hpt, fun h => ?_⟩
    rw [q5] at h; cases h
  reject := by
    intro m w x y h _ _ hP
    obtain ⟨u, g, hu, hfac, hpt, hrk, hsc, hka, hjc, hst⟩ := hP
    refine ⟨⟨fun k u' hu' => ?_, fun _ _ => trivial⟩, rfl, rfl, rfl, rfl, rfl⟩
    have : u = u' := List.ofFn_injective (hu.symm.trans hu')
    subst this
    exact ⟨fun _ => ⟨hsc, hka⟩, fun _ => ⟨g, hfac⟩, fun _ => hpt, hjc⟩
  keep := by
    intro m x y h e div hP k u' hu'
    obtain ⟨u, g, hu, hfac, hpt, hrk, hsc, hka, hjc, hst⟩ := hP
    have : u = u' := List.ofFn_injective (hu.symm.trans hu')
    subst this
    exact ⟨fun _ => ⟨hsc, hka⟩, fun _ => ⟨g, hfac⟩, fun _ => hpt, hjc⟩
  mono _ _ := trivial

theorem radau5_starts {P : RdParams} {sys : ImpSys n A} {L : LinSol n} {Q : CLinSol n} {F : ℝ → Vec n → Vec n}
    {J : ℝ → Vec n → Matrix (Fin n) (Fin n) ℝ} {x0 : ℝ} {y0 : List ℝ} (out : Option (Output ℝ A)) :
    StartsWith (rdContract P sys L Q F J) (radau5 P sys L Q) (Radau.new P n L.F Q.F) x0 y0 out := by
  have h : (rdContract P sys L Q F J).J (Radau.new P n L.F Q.F) 0 false x0 y0 := by
    intro u _
    exact ⟨fun h => absurd h (by omega), fun h => (by cases h), fun h => (by rcases h with h | h <;> cases h), fun h => (by cases h)⟩
  unfold StartsWith
  split
  · exact h
  · intro m' hm'
    unfold enableDense radau5 at hm'
    dsimp only at hm'
    rw [ite_self] at hm'
    cases hm'
    exact h

/-- **C85**: the solution with variable steps. Every accepted step, from the previous accepted station, consists of Newton
iterations that converged, and its error estimate is below one; the new solution is the old one plus the last stage. -/
theorem C85_variable_steps {P : RdParams} {sys : ImpSys n A} {L : LinSol n} {Q : CLinSol n} (hL : L.Exact) (hQ : Q.Exact)
    {F : ℝ → Vec n → Vec n} {J : ℝ → Vec n → Matrix (Fin n) (Fin n) ℝ} (hs : sys.Spec F J) {p : SolveParams ℝ} (hp : p.embedded = true)
    {fin : List ℝ → Res Unit} {y0 : List ℝ} {x0 x1 : ℝ} {a : A} {out : Option (Output ℝ A)}
    (hS : ∀ o, out = some o → o.withDenseOutput = true → StationsSet o) {r : Solved ℝ A (RadauS L Q)}
    (he : solve (radau5 P sys L Q) p fin (Radau.new P n L.F Q.F) y0 x0 x1 none a out = ok r) (hstop : r.stopped = false) :
    ∃ acc : List (Accepted ℝ (RadauS L Q)), r.state.work.stats.n_accepted = acc.length ∧
      Path (fun x y h e _ m' y' => ∃ u z, y = List.ofFn u ∧ RdStep P sys F J x u h e false z ∧ e < 1 ∧ y' = List.ofFn (u + z 2) ∧ m'.yc = rdYc z)
        x0 y0 acc r.state.x r.state.y := by
  obtain ⟨acc, h1, -, -, h4, -, -, h7, -⟩ := C58_variable_steps he hstop (radau5_meets hL hQ hs) (radau5_starts out) hS hp
  refine ⟨acc, h4, ?_⟩
  clear h4 he
  generalize r.state.x = x at h1 ⊢
  generalize r.state.y = y at h1 ⊢
  induction h1 with
  | nil => exact Path.nil
  | snoc b hp hb hx hΦ ih =>
    refine (ih (fun c hc => h7 c (by simp [hc]))).snoc b hb hx ?_
    obtain ⟨b1, b2⟩ := h7 b (by simp)
    obtain ⟨u, hu, z, hst, hy, hyc⟩ := hΦ
    rw [b2] at hst
    exact ⟨u, z, hu, hst, b1, hy, hyc⟩

/-- **C85**: the solution with equal steps. The steps are as above, except that the error estimate is not looked at, and neither
is the flag of diverging iterations (see `C85_equal_diverging_counterexample`). -/
theorem C85_equal_steps {P : RdParams} {sys : ImpSys n A} {L : LinSol n} {Q : CLinSol n} (hL : L.Exact) (hQ : Q.Exact)
    {F : ℝ → Vec n → Vec n} {J : ℝ → Vec n → Matrix (Fin n) (Fin n) ℝ} (hs : sys.Spec F J) {p : SolveParams ℝ}
    {fin : List ℝ → Res Unit} {y0 : List ℝ} {x0 x1 h : ℝ} {a : A} {out : Option (Output ℝ A)}
    (hS : ∀ o, out = some o → o.withDenseOutput = true → StationsSet o) {r : Solved ℝ A (RadauS L Q)}
    (he : solve (radau5 P sys L Q) p fin (Radau.new P n L.F Q.F) y0 x0 x1 (some h) a out = ok r) (hstop : r.stopped = false) :
    ∃ (k : Nat) (acc : List (Accepted ℝ (RadauS L Q))), k = ⌈(x1 - x0) / h⌉₊ ∧ 0 < k ∧ acc.length = k ∧
      (∀ b ∈ acc, b.h = (x1 - x0) / k) ∧
      Path (fun x y h e div m' y' => ∃ u z, y = List.ofFn u ∧ RdStep P sys F J x u h e div z ∧ y' = List.ofFn (u + z 2) ∧ m'.yc = rdYc z)
        x0 y0 acc x1 r.state.y := by
  obtain ⟨k, acc, h1, h2, -, -, h3, h4, -, -, -, -, h5⟩ := C58_equal_steps he hstop (radau5_meets hL hQ hs) (radau5_starts out) hS (Or.inl rfl)
  refine ⟨k, acc, (h5 h rfl).1, h1, h3, h4, ?_⟩
  clear h3 h4 he
  generalize r.state.y = y at h2 ⊢
  generalize x1 = x at h2 ⊢
  induction h2 with
  | nil => exact Path.nil
  | snoc b hp hb hx hΦ ih =>
    obtain ⟨u, hu, z, hst, hy, hyc⟩ := hΦ
    exact ih.snoc b hb hx ⟨u, z, hu, hst, hy, hyc⟩

/-! ### Stepsize control -/

/-- a number brought into an interval -/
noncomputable def clamp (lo hi v : ℝ) : ℝ := max lo (min hi v)

/-- the divisor of the stepsize for the error estimate `e` after `k` iterations of at most `N`: the fourth root of the error, with
a safety factor that is smaller the more iterations have been needed -/
noncomputable def rdDivisor (P : RdParams) (k : Nat) (e : ℝ) : ℝ :=
  clamp P.m_min P.m_max (e ^ (1 / 4 : ℝ) / (P.m_safety * min 1 ((1 + 2 * (P.n_iteration_max : ℝ)) / (k + 2 * P.n_iteration_max))))

/-- the divisor of the predictive controller of Gustafsson -/
noncomputable def rdPredictive (P : RdParams) (h_prev h e e_prev : ℝ) : ℝ :=
  clamp P.m_min P.m_max (h_prev / h * (e ^ 2 / e_prev) ^ (1 / 4 : ℝ) / P.m_safety)

theorem rdDiv_eq {P : RdParams} (hs : 0 ≤ P.m_safety) (work : Workspace ℝ) :
    rdDiv P work = rdDivisor P work.stats.n_iterations work.rel_error := by
  unfold rdDiv rdDivisor clamp
  dsimp only
  rw [mul_min_of_nonneg _ _ hs, mul_one, ← mul_div_assoc]
  push_cast
  norm_num

theorem clamp_mem {lo hi v : ℝ} (h : lo ≤ hi) : lo ≤ clamp lo hi v ∧ clamp lo hi v ≤ hi :=
  ⟨le_max_left _ _, max_le h (min_le_left _ _)⟩

/-- **C85**: an accepted step. The solution is advanced by the last stage; the scaling and the function values are those of the new
point. The new stepsize is the old one divided by a number between `m_min` and `m_max`, namely the divisor of the error, or the
larger one of this and of the predictive controller from the third step on. If the iterations converged fast and the stepsize
would be changed by a factor between `c1h` and `c2h`, it is left as it is and the matrices will be used again. -/
theorem C85_accept {P : RdParams} {sys : ImpSys n A} {F G : Type} {f : ℝ → Vec n → Vec n}
    {J : ℝ → Vec n → Matrix (Fin n) (Fin n) ℝ} (hs : sys.Spec f J) (h0 : 0 < P.m_min) (h1 : P.m_min ≤ P.m_max) (h2 : 0 ≤ P.m_safety)
    {m m' : Radau n F G} {work work' : Workspace ℝ} {x x' h : ℝ} (hh : 0 < h)
    {y y' : Vec n} {a a' : A} (he : m.accept P sys work x y h a = ok (m', work', x', y', a')) :
    x' = x + h ∧ y' = y + m.z 2 ∧ m'.scaling = rdScaling P y' ∧ m'.k_accepted = f x' y' ∧ m'.yc = rdYc m.z ∧
      m'.jacobian_computed = false ∧ m'.jj = m.jj ∧ m'.fr = m.fr ∧ m'.fc = m.fc ∧
    ∃ div, (if P.use_pred_control = true ∧ 1 < work.stats.n_accepted then
        div = max (rdDivisor P work.stats.n_iterations work.rel_error) (rdPredictive P work.h_prev h work.rel_error work.rel_error_prev)
        else div = rdDivisor P work.stats.n_iterations work.rel_error) ∧
      P.m_min ≤ div ∧ div ≤ P.m_max ∧ h / P.m_max ≤ h / div ∧ h / div ≤ h / P.m_min ∧
      (m'.reuse_jacobian_kk_and_fact = true ↔ m.theta ≤ P.theta_max ∧ P.c1h * div ≤ 1 ∧ 1 ≤ P.c2h * div) ∧
      (m'.reuse_jacobian = true ↔ m.theta ≤ P.theta_max ∧ m'.reuse_jacobian_kk_and_fact = false) ∧
      work'.h_new = if m'.reuse_jacobian_kk_and_fact then work.h_new else h / div := by
  obtain ⟨q1, q2, q3, q4, q5, q6⟩ := accept_ok hs he
  refine ⟨q1, q2, by rw [q5], by rw [q5], by rw [q5], by rw [q5], by rw [q5], by rw [q5], by rw [q5], ?_⟩
  have key : ∃ div, rdNewStep P work h = h / div ∧ (if P.use_pred_control = true ∧ 1 < work.stats.n_accepted then
        div = max (rdDivisor P work.stats.n_iterations work.rel_error) (rdPredictive P work.h_prev h work.rel_error work.rel_error_prev)
        else div = rdDivisor P work.stats.n_iterations work.rel_error) := by
    unfold rdNewStep
    dsimp only
    rw [rdDiv_eq h2]
    split
    · refine ⟨_, rfl, ?_⟩
      unfold rdPredictive clamp
      rw [pow_two]
      norm_num
    · exact ⟨_, rfl, rfl⟩
  obtain ⟨div, e1, e2⟩ := key
  have hd : P.m_min ≤ div ∧ div ≤ P.m_max := by
    split at e2
    · rw [e2]
      exact ⟨le_max_of_le_left (clamp_mem h1).1, max_le (clamp_mem h1).2 (clamp_mem h1).2⟩
    · rw [e2]; exact clamp_mem h1
  have hp : 0 < div := h0.trans_le hd.1
  have hr : h / div / h = 1 / div := by field_simp
  refine ⟨div, e2, hd.1, hd.2, ?_, ?_, ?_, q4, ?_⟩
  · exact div_le_div_of_nonneg_left hh.le hp hd.2
  · exact div_le_div_of_nonneg_left hh.le h0 hd.1
  · rw [q3, e1, hr, le_div_iff₀ hp, div_le_iff₀ hp]
  · rw [q6, e1]

/-- **C85**: a rejected step. The new stepsize is the old one over the divisor of the error. It is not larger than the old one if
`m_max` is at least one, and smaller if there is a margin. -/
theorem C85_reject {P : RdParams} (h0 : 0 < P.m_min) (h1 : P.m_min ≤ P.m_max) (h2 : 0 < P.m_safety) (h3 : P.m_safety ≤ 1)
    (work : Workspace ℝ) {h : ℝ} (hh : 0 < h) (hN : 0 < P.n_iteration_max) :
    (Radau.reject P work h) = { work with h_new := h / rdDivisor P work.stats.n_iterations work.rel_error } ∧
    h / P.m_max ≤ (Radau.reject P work h).h_new ∧ (Radau.reject P work h).h_new ≤ h / P.m_min ∧
    (1 ≤ work.rel_error → 1 ≤ P.m_max → (Radau.reject P work h).h_new ≤ h) ∧
    (1 ≤ work.rel_error → 1 < P.m_max → P.m_safety < 1 ∨ 1 < work.rel_error → (Radau.reject P work h).h_new < h) := by
  have e : Radau.reject P work h = { work with h_new := h / rdDivisor P work.stats.n_iterations work.rel_error } := by
    unfold Radau.reject
    rw [rdDiv_eq h2.le]
  rw [e]
  have hd : P.m_min ≤ rdDivisor P work.stats.n_iterations work.rel_error ∧ rdDivisor P work.stats.n_iterations work.rel_error ≤ P.m_max :=
    clamp_mem h1
  have hp : 0 < rdDivisor P work.stats.n_iterations work.rel_error := h0.trans_le hd.1
  have hN' : (0 : ℝ) < P.n_iteration_max := by exact_mod_cast hN
  have hf : 0 < P.m_safety * min 1 ((1 + 2 * (P.n_iteration_max : ℝ)) / (work.stats.n_iterations + 2 * P.n_iteration_max)) := by positivity
  have hf1 : P.m_safety * min 1 ((1 + 2 * (P.n_iteration_max : ℝ)) / (work.stats.n_iterations + 2 * P.n_iteration_max)) ≤ P.m_safety :=
    mul_le_of_le_one_right h2.le (min_le_left _ _)
  refine ⟨rfl, div_le_div_of_nonneg_left hh.le hp hd.2, div_le_div_of_nonneg_left hh.le h0 hd.1, fun g1 g2 => ?_, fun g1 g2 g3 => ?_⟩
  · refine div_le_self hh.le (le_max_of_le_right (le_min g2 ?_))
    rw [le_div_iff₀ hf, one_mul]
    exact (hf1.trans h3).trans (Real.one_le_rpow g1 (by norm_num))
  · refine div_lt_self hh (lt_max_of_lt_right (lt_min g2 ?_))
    rw [lt_div_iff₀ hf, one_mul]
    rcases g3 with g3 | g3
    · exact (hf1.trans_lt g3).trans_le (Real.one_le_rpow g1 (by norm_num))
    · exact (hf1.trans h3).trans_lt (Real.one_lt_rpow g3 (by norm_num))

/-- **C85**: with `m_max` below one, which the parameters allow, a rejected step is repeated with a larger stepsize. -/
theorem C85_reject_counterexample {P : RdParams} (h0 : 0 < P.m_min) (h1 : P.m_min ≤ P.m_max) (h2 : P.m_max < 1) (h3 : 0 ≤ P.m_safety)
    (work : Workspace ℝ) {h : ℝ} (hh : 0 < h) : h < (Radau.reject P work h).h_new := by
  unfold Radau.reject
  rw [rdDiv_eq h3]
  have hd : P.m_min ≤ rdDivisor P work.stats.n_iterations work.rel_error ∧ rdDivisor P work.stats.n_iterations work.rel_error ≤ P.m_max :=
    clamp_mem h1
  dsimp only
  rw [lt_div_iff₀ (h0.trans_le hd.1)]
  nlinarith [hd.2]

/-- **C85**: dense output in the last accepted step, from `(x, u)` with the stages `z`: the new solution at the end of the step, and
(up to the last digits of the constants) the old solution at its beginning and the stages in between. -/
theorem C85_dense {P : RdParams} {sys : ImpSys n A} {L : LinSol n} {Q : CLinSol n} {m : RadauS L Q} {z : Stages n} (hm : m.yc = rdYc z)
    (u : Vec n) {x h : ℝ} (hh : 0 < h) {y_out : List ℝ} (hl : y_out.length = n) {s : ℝ} (h0 : 0 ≤ s) (h1 : s ≤ 1) :
    ∃ v : Vec n, (radau5 P sys L Q).dense_output m y_out (x + s * h) (x + h) (List.ofFn (u + z 2)) h = ok (List.ofFn v) ∧
      (s = 1 → v = u + z 2) ∧ (s = 0 → ∀ i, |v i - u i| ≤ 1 / 10 ^ 49 * |z 0 i - z 1 i|) ∧
      (s = 1 + Rd.MU3 → ∀ i, |v i - (u i + z 0 i)| ≤ 1 / 10 ^ 49 * |z 0 i - z 1 i|) ∧ (s = 1 + Rd.MU4 → v = u + z 1) := by
  have hs : (x + s * h - (x + h)) / h = s - 1 := by field_simp; ring
  refine ⟨fun i => (u + z 2) i + rdPoly (rdYc z) (s - 1) i, ?_, ?_, ?_, ?_, ?_⟩
  · unfold radau5
    dsimp only
    rw [if_pos ⟨by nlinarith, by nlinarith⟩, vecOf_ofFn, ok_bind, if_neg (by omega), hm, hs, List.drop_eq_nil_of_le hl.le, List.append_nil]
  · rintro rfl
    funext i
    rw [sub_self, (C84_interpolation z i).1, add_zero]
  · rintro rfl i
    have := (C84_interpolation z i).2.2.2
    rw [zero_sub]
    convert this using 2
    simp only [Pi.add_apply]; ring
  · rintro rfl i
    have := (C84_interpolation z i).2.2.1
    rw [add_sub_cancel_left]
    convert this using 2
    simp only [Pi.add_apply]; ring
  · rintro rfl
    funext i
    rw [add_sub_cancel_left, (C84_interpolation z i).2.1]
    simp only [Pi.add_apply]; ring

theorem both_ok_iff {α β : Type} (c : Bool) (s12 s1 s2 : String) (r : Res α) (q : Res β) (v : α × β) :
    both c s12 s1 s2 r q = ok v ↔ r = ok v.1 ∧ q = ok v.2 := by
  constructor
  · exact both_ok
  · rintro ⟨rfl, rfl⟩
    cases c <;> rfl

theorem rdIncrement_conc {P : RdParams} {sys : ImpSys n A} {L : LinSol n} {Q : CLinSol n} {fr : Option L.F} {fc : Option Q.F}
    {x : ℝ} {y : Vec n} {h : ℝ} {z w : Stages n} {a : A} (b : Bool) {v : Stages n × A}
    (he : rdIncrement P sys L Q fr fc x y h z w a = ok v) :
    rdIncrement { P with concurrent := b } sys L Q fr fc x y h z w a = ok v := by
  unfold rdIncrement at he ⊢
  rw [bind_eq_ok] at he
  obtain ⟨⟨k0, a0⟩, e0, he⟩ := he
  dsimp only at he
  rw [bind_eq_ok] at he
  obtain ⟨⟨k1, a1⟩, e1, he⟩ := he
  dsimp only at he
  rw [bind_eq_ok] at he
  obtain ⟨⟨k2, a2⟩, e2, he⟩ := he
  dsimp only at he
  rw [bind_eq_ok] at he
  obtain ⟨⟨d0, d1⟩, e3, he⟩ := he
  rw [e0, ok_bind]
  dsimp only
  rw [e1, ok_bind]
  dsimp only
  rw [e2, ok_bind]
  dsimp only
  unfold rdSolve at e3 ⊢
  rw [both_ok_iff] at e3
  rw [(both_ok_iff _ _ _ _ _ _ _).2 e3, ok_bind]
  exact he

theorem rdLoop_conc {P : RdParams} {sys : ImpSys n A} {L : LinSol n} {Q : CLinSol n} {fr : Option L.F} {fc : Option Q.F}
    {x : ℝ} {y scaling : Vec n} {h : ℝ} (b : Bool) (k : Nat) : ∀ {t : RdIter n} {work : Workspace ℝ} {a : A} {v},
    rdLoop P sys L Q fr fc x y scaling h k t work a = ok v →
    rdLoop { P with concurrent := b } sys L Q fr fc x y scaling h k t work a = ok v := by
  induction k with
  | zero => intro t work a v he; cases he
  | succ k ih =>
    intro t work a v he
    unfold rdLoop at he ⊢
    dsimp only at he ⊢
    rw [bind_eq_ok] at he
    obtain ⟨⟨d, a1⟩, e1, he⟩ := he
    rw [rdIncrement_conc b e1, ok_bind]
    dsimp only at he ⊢
    rw [show ∀ q r s, rdCheck (n := n) { P with concurrent := b } q r s = rdCheck P q r s from fun _ _ _ => rfl]
    split at he
    · exact he
    · split at he
      · rename_i hlt
        rw [if_pos hlt]
        exact he
      · rename_i hlt
        rw [if_neg hlt]
        exact ih he

/-- **C85**: threads. Computing the real and the complex factorization and solution in two threads changes nothing in a step that
succeeds. -/
theorem C85_concurrent {P : RdParams} {sys : ImpSys n A} {L : LinSol n} {Q : CLinSol n} {m : RadauS L Q} {work : Workspace ℝ}
    {x : ℝ} {y : Vec n} {h : ℝ} {a : A} {v : RadauS L Q × Workspace ℝ × A} :
    Radau.step { P with concurrent := true } sys L Q m work x y h a = ok v ↔
      Radau.step { P with concurrent := false } sys L Q m work x y h a = ok v := by
  have key : ∀ (P : RdParams) (b : Bool), Radau.step P sys L Q m work x y h a = ok v →
      Radau.step { P with concurrent := b } sys L Q m work x y h a = ok v := by
    intro P b he
    unfold Radau.step at he ⊢
    rw [bind_eq_ok] at he
    obtain ⟨⟨m1, w1, a1⟩, e1, he⟩ := he
    rw [show m.begin { P with concurrent := b } sys work x y a = m.begin P sys work x y a from rfl, e1, ok_bind]
    dsimp only at he ⊢
    rw [bind_eq_ok] at he
    obtain ⟨⟨m2, w2, a2⟩, e2, he⟩ := he
    have e2' : m1.prepare { P with concurrent := b } sys L Q w1 x y h a1 = ok (m2, w2, a2) := by
      unfold Radau.prepare at e2 ⊢
      by_cases hk : m1.reuse_jacobian_kk_and_fact = true
      · rw [if_pos hk] at e2 ⊢
        exact e2
      · rw [if_neg hk] at e2 ⊢
        rw [bind_eq_ok] at e2
        obtain ⟨⟨m3, w3, a3⟩, e3, e2⟩ := e2
        rw [show m1.updateJacobian { P with concurrent := b } sys w1 x y a1 = m1.updateJacobian P sys w1 x y a1 from rfl, e3, ok_bind]
        dsimp only at e2 ⊢
        rw [bind_eq_ok] at e2
        obtain ⟨⟨⟩, e4, e2⟩ := e2
        rw [show writeStop { P with concurrent := b } w3 = writeStop P w3 from rfl, e4, ok_bind]
        rw [bind_eq_ok] at e2
        obtain ⟨⟨f1, f2⟩, e5, e2⟩ := e2
        unfold rdFactorize at e5 ⊢
        rw [both_ok_iff] at e5
        rw [(both_ok_iff _ _ _ _ _ _ _).2 e5, ok_bind]
        exact e2
    rw [e2', ok_bind]
    dsimp only at he ⊢
    rw [bind_eq_ok] at he
    obtain ⟨v3, e3, he⟩ := he
    rw [show m2.iterate { P with concurrent := b } sys L Q w2 x y h a2 = ok v3 from rdLoop_conc b _ e3, ok_bind]
    exact he
  exact ⟨fun he => key { P with concurrent := true } false he, fun he => key { P with concurrent := false } true he⟩

end Russell.Ode
