import Verif.Ode.Implicit
import Mathlib.Analysis.SpecialFunctions.Pow.Real

/-!
# The backward Euler method (C82)

Model of russell_ode/src/euler_backward.rs. Work vectors that are overwritten before being read (`k`, `r`, `dy`) are left out;
so is the content of the matrix `kk`, which is filled anew before each factorization.
-/

namespace Russell.Ode

open Russell Russell.Res
open Russell.Nonlin (Vec LinSol)

variable {n : Nat} {A : Type}

/-- the parameters read by `EulerBackward` (/repo/russell_ode/src/params.rs:6-54, 148-151) -/
structure BwParams where
  n_iteration_max : Nat
  use_numerical_jacobian : Bool
  use_modified_newton : Bool
  tol_abs : ℝ
  tol_rel : ℝ
  tol_newton : ℝ

/-- `EulerBackward` (/repo/russell_ode/src/euler_backward.rs:7-33): the vector `w` and the factors held by the linear solver -/
structure BwEuler (n : Nat) (F : Type) where
  w : Vec n
  fact : Option F

/-- `EulerBackward::new` (/repo/russell_ode/src/euler_backward.rs:37-56) -/
def BwEuler.new (n : Nat) (F : Type) : BwEuler n F := ⟨0, none⟩

/-- `vec_rms_scaled(r, y, tol.abs, tol.rel)` (/repo/russell_lab/src/vector/vec_rms_scaled.rs:30-42) -/
noncomputable def rmsScaled (tol_abs tol_rel : ℝ) (r y : Vec n) : ℝ :=
  if n = 0 then 0
  else Real.sqrt ((∑ i, r i * r i / ((tol_abs + tol_rel * |y i|) * (tol_abs + tol_rel * |y i|))) / n)

/-- the residual (/repo/russell_ode/src/euler_backward.rs:88-90) -/
def bwResidual (y : Vec n) (h : ℝ) (k v : Vec n) : Vec n := fun i => v i - y i - h * k i

/-- the matrix `K = h J - I` and its factorization, in every iteration or, with the modified method, in the iterations made
before a step has been accepted (/repo/russell_ode/src/euler_backward.rs:100-129) -/
noncomputable def bwFactor (P : BwParams) (sys : ImpSys n A) (L : LinSol n) (h x_new : ℝ) (v : Vec n) (fact : Option L.F)
    (work : Workspace ℝ) (a : A) : Res (Option L.F × Workspace ℝ × A) :=
  if P.use_modified_newton = false ∨ work.stats.n_accepted = 0 then do
    let (kk, a, nf) ← sys.jacobian P.use_numerical_jacobian h x_new v a
    let kk := fun i j => kk i j + if i = j then -1 else 0
    let f ← L.factorize kk
    ok (some f, { work with stats := { work.stats with
      n_jacobian := work.stats.n_jacobian + 1
      n_function := work.stats.n_function + nf
      n_factor := work.stats.n_factor + 1 } }, a)
  else ok (fact, work, a)

/-- `stats.n_iterations += 1; stats.n_function += 1` -/
def bwCount (work : Workspace ℝ) : Workspace ℝ :=
  { work with stats := { work.stats with
      n_iterations := work.stats.n_iterations + 1
      n_function := work.stats.n_function + 1 } }

/-- `stats.n_lin_sol += 1` -/
def bwCountSol (work : Workspace ℝ) : Workspace ℝ :=
  { work with stats := { work.stats with n_lin_sol := work.stats.n_lin_sol + 1 } }

/-- `update_n_iterations_max` (/repo/russell_ode/src/stats.rs:158-162) -/
def Workspace.updateIterMax (work : Workspace ℝ) : Workspace ℝ :=
  if work.stats.n_iterations > work.stats.n_iterations_max then
    { work with stats := { work.stats with n_iterations_max := work.stats.n_iterations } }
  else work

open Classical in
/-- the iterations (/repo/russell_ode/src/euler_backward.rs:79-146); the first argument counts the iterations left -/
noncomputable def bwLoop (P : BwParams) (sys : ImpSys n A) (L : LinSol n) (x_new : ℝ) (y : Vec n) (h : ℝ) :
    Nat → Vec n → Option L.F → Workspace ℝ → A → Res (BwEuler n L.F × Workspace ℝ × A)
  | 0, _, _, _, _ => err "Newton-Raphson method did not complete successfully"
  | k + 1, v, fact, work, a => do
    let work := bwCount work
    let (kv, a) ← sys.f x_new v a
    let r := bwResidual y h kv v
    if rmsScaled P.tol_abs P.tol_rel r y < P.tol_newton then ok (⟨v, fact⟩, work.updateIterMax, a)
    else do
      let (fact, work, a) ← bwFactor P sys L h x_new v fact work a
      let dy ← L.run fact r
      bwLoop P sys L x_new y h k (fun i => v i + 1 * dy i) fact (bwCountSol work) a

/-- `EulerBackward::step` (/repo/russell_ode/src/euler_backward.rs:66-147) -/
noncomputable def BwEuler.step (P : BwParams) (sys : ImpSys n A) (L : LinSol n) (m : BwEuler n L.F) (work : Workspace ℝ)
    (x : ℝ) (y : Vec n) (h : ℝ) (a : A) : Res (BwEuler n L.F × Workspace ℝ × A) :=
  bwLoop P sys L (x + h) y h P.n_iteration_max y m.fact
    { work with stats := { work.stats with n_iterations := 0 } } a

/-- `EulerBackward` as an `OdeSolverTrait` (/repo/russell_ode/src/euler_backward.rs:59-173) -/
noncomputable def bwEuler (P : BwParams) (sys : ImpSys n A) (L : LinSol n) : Stepper ℝ A (BwEuler n L.F) where
  enable_dense_output _ := err "dense output is not available for the BwEuler method"
  step m work x y h a := do
    let y ← vecOf n y
    BwEuler.step P sys L m work x y h a
  accept m work x y h a := do
    let y ← copyInto y (List.ofFn m.w)
    ok (m, work, x + h, y, a)
  reject m work _ := (m, work)
  dense_output _ y_out _ _ _ _ := ok y_out

/-! ### Properties -/

/-- the equation of the method holds at `v` up to the tolerance -/
def BwSolved (P : BwParams) (F : ℝ → Vec n → Vec n) (x : ℝ) (y : Vec n) (h : ℝ) (v : Vec n) : Prop :=
  rmsScaled P.tol_abs P.tol_rel (v - (y + h • F (x + h) v)) y < P.tol_newton

/-- `k` Newton updates lead from `y` to `v`; none of the points left behind solves the equation. The matrix is `1 - h J` at
the current point, or, when it is not renewed, the matrix `K₀`. -/
inductive BwPath (P : BwParams) (F : ℝ → Vec n → Vec n) (J : ℝ → Vec n → Matrix (Fin n) (Fin n) ℝ) (renew : Prop)
    (K₀ : Matrix (Fin n) (Fin n) ℝ) (x : ℝ) (y : Vec n) (h : ℝ) : Nat → Vec n → Prop
  | start : BwPath P F J renew K₀ x y h 0 y
  | step {k v v' K} : BwPath P F J renew K₀ x y h k v → ¬ BwSolved P F x y h v → (renew → K = 1 - h • J (x + h) v) →
      (¬ renew → K = K₀) → K.mulVec (v' - v) = -(v - (y + h • F (x + h) v)) → BwPath P F J renew K₀ x y h (k + 1) v'

/-- the Jacobian and its factorization are computed in each iteration -/
def BwParams.Renews (P : BwParams) (work : Workspace ℝ) : Prop := P.use_modified_newton = false ∨ work.stats.n_accepted = 0

theorem bwResidual_eq (y : Vec n) (h : ℝ) (k v : Vec n) : bwResidual y h k v = v - (y + h • k) := by
  funext i; simp [bwResidual]; ring

theorem diag_eq (M : Matrix (Fin n) (Fin n) ℝ) : (fun i j => M i j + if i = j then (-1 : ℝ) else 0) = -((1 : Matrix (Fin n) (Fin n) ℝ) - M) := by
  ext i j
  by_cases h : i = j <;> simp [h, Matrix.one_apply]; ring

/-- what is added to the counters by `k` updates -/
def bwStats (P : BwParams) (sys : ImpSys n A) (renew : Prop) [Decidable renew] (k : Nat) (s : Stats ℝ) : Stats ℝ :=
  { s with
    n_iterations := s.n_iterations + (k + 1)
    n_function := s.n_function + (k + 1) +
      (if renew ∧ (P.use_numerical_jacobian = true ∨ sys.jac.isNone = true) then k * n else 0)
    n_jacobian := s.n_jacobian + (if renew then k else 0)
    n_factor := s.n_factor + (if renew then k else 0)
    n_lin_sol := s.n_lin_sol + k }

open Classical in
theorem bwLoop_spec {P : BwParams} {sys : ImpSys n A} {L : LinSol n} (hL : L.Exact) {F : ℝ → Vec n → Vec n}
    {J : ℝ → Vec n → Matrix (Fin n) (Fin n) ℝ} (hs : sys.Spec F J) {K₀ : Matrix (Fin n) (Fin n) ℝ} {x : ℝ} {y : Vec n} {h : ℝ}
    {renew : Prop} : ∀ (k j : Nat) (v : Vec n) (fact : Option L.F) (work work' : Workspace ℝ) (a a' : A) (m' : BwEuler n L.F),
    (renew ↔ P.Renews work) → (¬ renew → ∀ f, fact = some f → L.factorize (-K₀) = ok f) →
    BwPath P F (sys.matrix P.use_numerical_jacobian F J) renew K₀ x y h j v →
    bwLoop P sys L (x + h) y h k v fact work a = ok (m', work', a') →
    ∃ i, i < k ∧ BwPath P F (sys.matrix P.use_numerical_jacobian F J) renew K₀ x y h (j + i) m'.w ∧ BwSolved P F x y h m'.w ∧
      work' = Workspace.updateIterMax { work with stats := bwStats P sys renew i work.stats } ∧
      (¬ renew → m'.fact = fact) ∧ (i = 0 → m'.fact = fact) ∧
      (renew → 0 < i → ∃ z f, BwPath P F (sys.matrix P.use_numerical_jacobian F J) renew K₀ x y h (j + i - 1) z ∧
        m'.fact = some f ∧ L.factorize (-(1 - h • sys.matrix P.use_numerical_jacobian F J (x + h) z)) = ok f)
  | 0, _, _, _, _, _, _, _, _, _, _, _, he => by cases he
  | k + 1, j, v, fact, work, work', a, a', m', hr, hf, hp, he => by
    unfold bwLoop at he
    dsimp only at he
    rw [bind_eq_ok] at he
    obtain ⟨⟨kv, a1⟩, e1, he⟩ := he
    dsimp only at he
    have hk := hs.f e1
    dsimp only at hk
    rw [bwResidual_eq, hk] at he
    by_cases hc : rmsScaled P.tol_abs P.tol_rel (v - (y + h • F (x + h) v)) y < P.tol_newton
    · rw [if_pos hc] at he
      cases he
      refine ⟨0, by omega, hp, hc, ?_, fun _ => rfl, fun _ => rfl, fun _ h0 => by omega⟩
      congr 1
      simp [bwCount, bwStats]
    · rw [if_neg hc, bind_eq_ok] at he
      obtain ⟨⟨fact1, work1, a2⟩, e2, he⟩ := he
      dsimp only at he
      rw [bind_eq_ok] at he
      obtain ⟨dy, e3, he⟩ := he
      -- the factorization in use
      have key : ∃ f K, fact1 = some f ∧ L.factorize (-K) = ok f ∧
          (renew → K = 1 - h • sys.matrix P.use_numerical_jacobian F J (x + h) v) ∧ (¬ renew → K = K₀ ∧ fact1 = fact) ∧
          work1 = { bwCount work with stats := { (bwCount work).stats with
            n_jacobian := work.stats.n_jacobian + (if renew then 1 else 0)
            n_factor := work.stats.n_factor + (if renew then 1 else 0)
            n_function := work.stats.n_function + 1 +
              (if renew ∧ (P.use_numerical_jacobian = true ∨ sys.jac.isNone = true) then n else 0) } } := by
        unfold bwFactor at e2
        by_cases hren : renew
        · rw [if_pos (by exact hr.1 hren), bind_eq_ok] at e2
          obtain ⟨⟨kk, a3, nf⟩, e4, e2⟩ := e2
          dsimp only at e2
          obtain ⟨j1, j2⟩ := jacobian_ok hs e4
          dsimp only at j1 j2
          rw [diag_eq, j1, bind_eq_ok] at e2
          obtain ⟨f, e5, e2⟩ := e2
          cases e2
          refine ⟨f, _, rfl, e5, fun _ => rfl, fun hh => absurd hren hh, ?_⟩
          rw [j2]
          simp [hren, bwCount]
        · have hren' : ¬ (P.use_modified_newton = false ∨ (bwCount work).stats.n_accepted = 0) := fun hh => hren (hr.2 hh)
          rw [if_neg hren'] at e2
          cases e2
          rcases hfa : fact with _ | f
          · rw [hfa] at e3; cases e3
          · refine ⟨f, K₀, rfl, hf hren f hfa, fun hh => absurd hh hren, fun _ => ⟨rfl, rfl⟩, ?_⟩
            simp [hren, bwCount]
      obtain ⟨f, K, hf1, hfac, hK1, hK2, hw⟩ := key
      rw [hf1] at e3
      have hlin := hL _ _ hfac _ _ e3
      have hpath : BwPath P F (sys.matrix P.use_numerical_jacobian F J) renew K₀ x y h (j + 1) (fun i => v i + 1 * dy i) := by
        refine BwPath.step hp hc hK1 (fun hh => (hK2 hh).1) ?_
        rw [← hlin, Matrix.neg_mulVec, neg_neg]
        congr 1
        funext i; simp
      have hr1 : renew ↔ P.Renews (bwCountSol work1) := by
        rw [hr, hw]; rfl
      obtain ⟨i, h1, h2, h3, h4, h5, h6, h7⟩ := bwLoop_spec hL hs k (j + 1) _ fact1 (bwCountSol work1) work' a2 a' m' hr1
        (fun hh f' hf' => by rw [(hK2 hh).2] at hf'; exact hf hh f' hf') hpath he
      refine ⟨i + 1, by omega, by rw [← Nat.add_assoc, Nat.add_right_comm]; exact h2, h3, ?_, fun hh => by
        rw [h5 hh, (hK2 hh).2], by omega, ?_⟩
      · rw [h4]
        congr 1
        rw [hw]
        unfold bwStats bwCountSol bwCount
        dsimp only
        congr 1
        by_cases hren : renew
        · by_cases hn : P.use_numerical_jacobian = true ∨ sys.jac.isNone = true
          · simp only [hren, hn, and_self, if_true]
            congr 1 <;> ring
          · simp only [hren, hn, and_false, if_true, if_false]
            congr 1 <;> ring
        · simp only [hren, false_and, if_false]
          congr 1 <;> ring
      · intro hren _
        rcases Nat.eq_zero_or_pos i with h0 | h0
        · refine ⟨v, f, by rw [h0]; exact hp, by rw [h6 h0, hf1], by rw [← hK1 hren]; exact hfac⟩
        · obtain ⟨z, f', hz, r⟩ := h7 hren h0
          exact ⟨z, f', by rw [show j + (i + 1) - 1 = j + 1 + i - 1 by omega]; exact hz, r⟩

open Classical in
/-- **C82**: a successful step ends at a point where the equation `v = y + h f(x + h, v)` holds up to the tolerance (in the
norm scaled with the tolerances), reached from `y` by fewer than `n_iteration_max` Newton updates with the matrix
`1 - h J(x + h, ·)` at the current point, the Jacobian being the one of the user or made of difference quotients; or, with the
modified method after the first accepted step, with the matrix factorized last. The counters say what has been done, and
nothing else in the workspace changes. -/
theorem C82_step {P : BwParams} {sys : ImpSys n A} {L : LinSol n} (hL : L.Exact) {F : ℝ → Vec n → Vec n}
    {J : ℝ → Vec n → Matrix (Fin n) (Fin n) ℝ} (hs : sys.Spec F J) {m m' : BwEuler n L.F} {work work' : Workspace ℝ} {x : ℝ}
    {y : Vec n} {h : ℝ} {a a' : A} (he : BwEuler.step P sys L m work x y h a = ok (m', work', a'))
    {K₀ : Matrix (Fin n) (Fin n) ℝ} (hK : ¬ P.Renews work → ∀ f, m.fact = some f → L.factorize (-K₀) = ok f) :
    ∃ k, k < P.n_iteration_max ∧
      BwPath P F (sys.matrix P.use_numerical_jacobian F J) (P.Renews work) K₀ x y h k m'.w ∧ BwSolved P F x y h m'.w ∧
      work' = { work with stats := { work.stats with
        n_iterations := k + 1
        n_iterations_max := max work.stats.n_iterations_max (k + 1)
        n_function := work.stats.n_function + (k + 1) +
          (if P.Renews work ∧ (P.use_numerical_jacobian = true ∨ sys.jac.isNone = true) then k * n else 0)
        n_jacobian := work.stats.n_jacobian + (if P.Renews work then k else 0)
        n_factor := work.stats.n_factor + (if P.Renews work then k else 0)
        n_lin_sol := work.stats.n_lin_sol + k } } ∧
      (¬ P.Renews work ∨ k = 0 → m'.fact = m.fact) ∧
      (P.Renews work → 0 < k → ∃ z f, BwPath P F (sys.matrix P.use_numerical_jacobian F J) (P.Renews work) K₀ x y h (k - 1) z ∧
        m'.fact = some f ∧ L.factorize (-(1 - h • sys.matrix P.use_numerical_jacobian F J (x + h) z)) = ok f) := by
  obtain ⟨k, h1, h2, h3, h4, h5, h6, h7⟩ := bwLoop_spec hL hs (renew := P.Renews work) P.n_iteration_max 0 y m.fact
    { work with stats := { work.stats with n_iterations := 0 } } work' a a' m'
    (Iff.rfl) hK BwPath.start he
  rw [Nat.zero_add] at h2 h7
  refine ⟨k, h1, h2, h3, ?_, fun hh => hh.elim h5 h6, h7⟩
  rw [h4]
  unfold Workspace.updateIterMax bwStats
  dsimp only
  split
  · rename_i hlt
    rw [max_eq_right (by omega)]
    simp
  · rename_i hlt
    rw [max_eq_left (by omega)]
    simp

/-- The solver succeeds for nonsingular matrices. -/
def Complete (L : LinSol n) : Prop :=
  ∀ M : Matrix (Fin n) (Fin n) ℝ, IsUnit M.det → ∃ f, L.factorize M = ok f ∧ ∀ b, ∃ x, L.solve f b = ok x

theorem rmsScaled_zero (ta tr : ℝ) (y : Vec n) : rmsScaled ta tr 0 y = 0 := by
  unfold rmsScaled; simp

/-- **C82**: linear problems `y' = B y + b(x)` whose matrix `1 - h B` is not singular. When the Jacobian is computed in the
step, the step succeeds in one or two iterations; the result is exactly the one of the method unless the starting point
already satisfies the equation up to the tolerance (then the solution stays where it was). -/
theorem C82_affine {P : BwParams} {sys : ImpSys n A} {L : LinSol n} (hL : L.Exact) (hC : Complete L) (hT : sys.Total)
    {B : Matrix (Fin n) (Fin n) ℝ} {b : ℝ → Vec n} (hs : sys.Spec (fun x y => B.mulVec y + b x) (fun _ _ => B))
    (m : BwEuler n L.F) {work : Workspace ℝ} (hR : P.Renews work) (x : ℝ) (y : Vec n) {h : ℝ} (a : A)
    (hB : IsUnit (1 - h • B).det) (hit : 2 ≤ P.n_iteration_max) (htol : 0 < P.tol_newton) :
    ∃ m' work' a', BwEuler.step P sys L m work x y h a = ok (m', work', a') ∧
      ((m'.w = y ∧ BwSolved P (fun x y => B.mulVec y + b x) x y h y ∧ work'.stats.n_iterations = 1) ∨
        (m'.w = y + h • (B.mulVec m'.w + b (x + h)) ∧ ¬ BwSolved P (fun x y => B.mulVec y + b x) x y h y ∧
          work'.stats.n_iterations = 2)) := by
  have hM : ∀ z, sys.matrix P.use_numerical_jacobian (fun x y => B.mulVec y + b x) (fun _ _ => B) (x + h) z = B := by
    intro z
    unfold ImpSys.matrix
    split
    · exact diffQuot_affine (fun _ _ => rfl) _ _
    · rfl
  obtain ⟨q, hq⟩ : ∃ q, P.n_iteration_max = q + 2 := ⟨P.n_iteration_max - 2, by omega⟩
  unfold BwEuler.step
  rw [hq]
  unfold bwLoop
  obtain ⟨⟨kv, a1⟩, e1⟩ := hT.f (x + h) y a
  have hk := hs.f e1
  dsimp only at hk ⊢
  rw [e1, ok_bind]
  dsimp only
  rw [bwResidual_eq, hk]
  by_cases hc : rmsScaled P.tol_abs P.tol_rel (y - (y + h • (B.mulVec y + b (x + h)))) y < P.tol_newton
  · rw [if_pos hc]
    refine ⟨_, _, _, rfl, Or.inl ⟨rfl, hc, ?_⟩⟩
    unfold Workspace.updateIterMax bwCount
    dsimp only
    split <;> rfl
  · rw [if_neg hc]
    have hren : P.use_modified_newton = false ∨
      (bwCount { work with stats := { work.stats with n_iterations := 0 } }).stats.n_accepted = 0 := hR
    obtain ⟨⟨kk, a2, nf⟩, e2⟩ := jacobian_total hT P.use_numerical_jacobian h (x + h) y a1
    have hkk := (jacobian_ok hs e2).1
    dsimp only at hkk
    rw [hM] at hkk
    have hdet : IsUnit (-(1 - h • B)).det := by
      rw [Matrix.det_neg]
      exact IsUnit.mul (IsUnit.pow _ (isUnit_one.neg)) hB
    obtain ⟨f, e3, hsol⟩ := hC _ hdet
    obtain ⟨dy, e4⟩ := hsol (y - (y + h • (B.mulVec y + b (x + h))))
    have hlin := hL _ _ e3 _ _ e4
    unfold bwFactor
    rw [if_pos hren, e2]
    simp only [ok_bind]
    rw [diag_eq, hkk, e3]
    simp only [ok_bind]
    rw [show L.run (some f) (y - (y + h • (B.mulVec y + b (x + h)))) = L.solve f (y - (y + h • (B.mulVec y + b (x + h)))) from rfl,
      e4, ok_bind]
    have hz : (fun i => y i + 1 * dy i) = y + dy := by funext i; simp
    rw [hz]
    have heq : y + dy = y + h • (B.mulVec (y + dy) + b (x + h)) := by
      rw [Matrix.neg_mulVec, Matrix.sub_mulVec, Matrix.one_mulVec, Matrix.smul_mulVec] at hlin
      rw [Matrix.mulVec_add]
      funext i
      have := congrFun hlin i
      simp only [Pi.neg_apply, Pi.sub_apply, Pi.smul_apply, Pi.add_apply, smul_eq_mul] at this ⊢
      linarith
    unfold bwLoop
    dsimp only
    obtain ⟨⟨kv2, a3⟩, e5⟩ := hT.f (x + h) (y + dy) a2
    have hk2 := hs.f e5
    dsimp only at hk2
    rw [e5, ok_bind]
    dsimp only
    rw [bwResidual_eq, hk2, ← heq, sub_self, rmsScaled_zero, if_pos htol]
    refine ⟨_, _, _, rfl, Or.inr ⟨heq, hc, ?_⟩⟩
    unfold Workspace.updateIterMax bwCount bwCountSol
    dsimp only
    split <;> rfl

/-- What a step of the method promises: the old and the new solution satisfy the equation up to the tolerance. -/
def bwContract (P : BwParams) (F : ℝ → Vec n → Vec n) (G : Type) : Contract ℝ (BwEuler n G) where
  J := fun _ _ _ _ _ => True
  P := fun m x y h _ _ => ∃ u, y = List.ofFn u ∧ BwSolved P F x u h m.w
  Φ := fun x y h _ _ _ y' => ∃ u v : Vec n, y = List.ofFn u ∧ y' = List.ofFn v ∧ BwSolved P F x u h v
  U := fun _ _ => True

/-- the part of `C82_step` that needs no assumption about the linear solver -/
theorem bwLoop_basic {P : BwParams} {sys : ImpSys n A} {L : LinSol n} {F : ℝ → Vec n → Vec n}
    {J : ℝ → Vec n → Matrix (Fin n) (Fin n) ℝ} (hs : sys.Spec F J) {x : ℝ} {y : Vec n} {h : ℝ} :
    ∀ (k : Nat) (v : Vec n) (fact : Option L.F) (work work' : Workspace ℝ) (a a' : A) (m' : BwEuler n L.F),
    bwLoop P sys L (x + h) y h k v fact work a = ok (m', work', a') →
    BwSolved P F x y h m'.w ∧ work'.stats.n_accepted = work.stats.n_accepted ∧ work'.stats.n_steps = work.stats.n_steps ∧
      work'.stats.n_rejected = work.stats.n_rejected ∧ work'.follows_reject_step = work.follows_reject_step
  | 0, _, _, _, _, _, _, _, he => by cases he
  | k + 1, v, fact, work, work', a, a', m', he => by
    unfold bwLoop at he
    dsimp only at he
    rw [bind_eq_ok] at he
    obtain ⟨⟨kv, a1⟩, e1, he⟩ := he
    dsimp only at he
    have hk := hs.f e1
    dsimp only at hk
    rw [bwResidual_eq, hk] at he
    by_cases hc : rmsScaled P.tol_abs P.tol_rel (v - (y + h • F (x + h) v)) y < P.tol_newton
    · rw [if_pos hc] at he
      cases he
      refine ⟨hc, ?_⟩
      unfold Workspace.updateIterMax bwCount
      split <;> exact ⟨rfl, rfl, rfl, rfl⟩
    · rw [if_neg hc, bind_eq_ok] at he
      obtain ⟨⟨fact1, work1, a2⟩, e2, he⟩ := he
      dsimp only at he
      rw [bind_eq_ok] at he
      obtain ⟨dy, e3, he⟩ := he
      have hw : work1.stats.n_accepted = work.stats.n_accepted ∧ work1.stats.n_steps = work.stats.n_steps ∧
          work1.stats.n_rejected = work.stats.n_rejected ∧ work1.follows_reject_step = work.follows_reject_step := by
        unfold bwFactor at e2
        split at e2
        · rw [bind_eq_ok] at e2
          obtain ⟨⟨kk, a3, nf⟩, -, e2⟩ := e2
          dsimp only at e2
          rw [bind_eq_ok] at e2
          obtain ⟨f, -, e2⟩ := e2
          cases e2
          exact ⟨rfl, rfl, rfl, rfl⟩
        · cases e2
          exact ⟨rfl, rfl, rfl, rfl⟩
      obtain ⟨r0, r1, r2, r3, r4⟩ := bwLoop_basic hs k _ fact1 (bwCountSol work1) work' a2 a' m' he
      exact ⟨r0, r1.trans hw.1, r2.trans hw.2.1, r3.trans hw.2.2.1, r4.trans hw.2.2.2⟩

theorem bwEuler_meets {P : BwParams} {sys : ImpSys n A} {L : LinSol n} {F : ℝ → Vec n → Vec n}
    {J : ℝ → Vec n → Matrix (Fin n) (Fin n) ℝ} (hs : sys.Spec F J) : (bwEuler P sys L).Meets (bwContract P F L.F) where
  step := by
    intro m w x y h a m' w' a' he _
    unfold bwEuler at he
    dsimp only at he
    rw [bind_eq_ok] at he
    obtain ⟨u, hu, he⟩ := he
    obtain ⟨r0, r⟩ := bwLoop_basic hs _ _ _ _ _ _ _ _ he
    exact ⟨⟨⟨u, vecOf_ok hu, r0⟩, fun _ _ _ _ => trivial⟩, r⟩
  accept := by
    intro m w x y h a m' w' x' y' a' he _ hP
    obtain ⟨u, hu, hsol⟩ := hP
    unfold bwEuler at he
    dsimp only at he
    rw [bind_eq_ok] at he
    obtain ⟨y1, e1, he⟩ := he
    cases he
    unfold copyInto at e1
    split at e1
    · cases e1
    · cases e1
      exact ⟨⟨rfl, ⟨u, _, hu, rfl, hsol⟩, fun _ _ => trivial, trivial, rfl⟩, rfl, rfl, rfl, rfl⟩
  reject _ _ _ := ⟨⟨fun _ => trivial, fun _ _ => trivial⟩, rfl, rfl, rfl, rfl, rfl⟩
  keep _ _ := trivial
  mono _ _ := trivial

/-- a path with equal steps as a sequence of solutions -/
theorem Path.sequence {M : Type} {Φ : ℝ → List ℝ → ℝ → ℝ → Bool → M → List ℝ → Prop} {x0 : ℝ} {y0 : List ℝ} {h : ℝ}
    {acc : List (Accepted ℝ M)} {x : ℝ} {y : List ℝ} (hp : Path Φ x0 y0 acc x y) (hh : ∀ b ∈ acc, b.h = h) :
    ∃ Y : Nat → List ℝ, Y 0 = y0 ∧ Y acc.length = y ∧ x = x0 + acc.length * h ∧
      ∀ i, i < acc.length → ∃ e d m, Φ (x0 + i * h) (Y i) h e d m (Y (i + 1)) := by
  induction hp with
  | nil => exact ⟨fun _ => y0, rfl, rfl, by simp, fun i hi => by simp at hi⟩
  | @snoc l x y b hp hb hx hΦ ih =>
    obtain ⟨Y, h1, h2, h3, h4⟩ := ih (fun c hc => hh c (List.mem_append_left _ hc))
    have hbh : b.h = h := hh b (by simp)
    refine ⟨fun i => if i ≤ l.length then Y i else b.y, by simp [h1], by simp, ?_, ?_⟩
    · rw [hx, h3, hbh, List.length_append]; push_cast; simp; ring
    · intro i hi
      rw [List.length_append, List.length_singleton] at hi
      dsimp only
      rw [if_pos (by omega)]
      rcases Nat.lt_or_ge i l.length with hlt | hge
      · rw [if_pos (by omega)]; exact h4 i hlt
      · have : i = l.length := by omega
        subst this
        rw [if_neg (by omega)]
        exact ⟨b.err, b.div, b.m, by rw [h2, ← h3, ← hbh]; exact hΦ⟩

/-- **C82**: the solution of an initial value problem. The accepted steps lead from `y0` to the result, all with the same
stepsize (ten steps if none is given), and each step satisfies the equation of the method up to the tolerance. This needs no
assumption about the linear solver nor about the Jacobian. -/
theorem C82_solve {P : BwParams} {sys : ImpSys n A} {L : LinSol n} {F : ℝ → Vec n → Vec n}
    {J : ℝ → Vec n → Matrix (Fin n) (Fin n) ℝ} (hs : sys.Spec F J) {p : SolveParams ℝ} (hp : p.embedded = false)
    {fin : List ℝ → Res Unit} {m : BwEuler n L.F} {y0 : List ℝ} {x0 x1 : ℝ} {h_equal : Option ℝ} {a : A}
    {out : Option (Output ℝ A)} (hout : ∀ o, out = some o → o.withDenseOutput = false)
    {r : Solved ℝ A (BwEuler n L.F)} (he : solve (bwEuler P sys L) p fin m y0 x0 x1 h_equal a out = ok r)
    (hstop : r.stopped = false) :
    ∃ (k : Nat) (Y : Nat → Vec n), 0 < k ∧ (h_equal = none → k = 10) ∧
      (∀ h, h_equal = some h → k = ⌈(x1 - x0) / h⌉₊) ∧ y0 = List.ofFn (Y 0) ∧ r.state.y = List.ofFn (Y k) ∧ r.state.x = x1 ∧
      ∀ i, i < k → BwSolved P F (x0 + i * ((x1 - x0) / k)) (Y i) ((x1 - x0) / k) (Y (i + 1)) := by
  have hJ : StartsWith (bwContract P F L.F) (bwEuler P sys L) m x0 y0 out := by
    unfold StartsWith
    split
    · trivial
    · intros; trivial
  obtain ⟨k, acc, hk, hpath, hx, -, hlen, hall, -, -, -, h10, hce⟩ := C58_equal_steps he hstop (bwEuler_meets hs) hJ
    (fun o ho hd => by rw [hout o ho] at hd; cases hd) (Or.inr hp)
  obtain ⟨Y, h1, h2, -, h4⟩ := Path.sequence hpath hall
  rw [hlen] at h2 h4
  have hY : ∀ i, i ≤ k → ∃ u : Vec n, Y i = List.ofFn u := by
    intro i hi
    rcases Nat.lt_or_ge i k with hlt | hge
    · obtain ⟨-, -, -, u, v, hu, -⟩ := h4 i hlt
      exact ⟨u, hu⟩
    · obtain ⟨-, -, -, u, v, -, hv, -⟩ := h4 (k - 1) (by omega)
      rw [show k - 1 + 1 = i by omega] at hv
      exact ⟨v, hv⟩
  choose! Z hZ using hY
  refine ⟨k, Z, hk, h10, fun h hh => (hce h hh).1, by rw [← hZ 0 (by omega), h1], by rw [← hZ k le_rfl, h2], hx, fun i hi => ?_⟩
  obtain ⟨-, -, -, u, v, hu, hv, hsol⟩ := h4 i hi
  rw [hZ i (by omega)] at hu
  rw [hZ (i + 1) (by omega)] at hv
  rw [List.ofFn_injective hu, List.ofFn_injective hv]
  exact hsol

/-! ### Cases -/

/-- division as linear solver of dimension one -/
noncomputable def scalarSol : LinSol 1 where
  F := ℝ
  factorize M := if M 0 0 = 0 then err "singular" else ok (M 0 0)
  solve d b := ok (fun i => b i / d)

theorem scalarSol_exact : scalarSol.Exact := by
  intro M f hf b x hx
  unfold scalarSol at hf hx
  dsimp only at hf hx
  split at hf
  · cases hf
  · rename_i h0
    cases hf
    cases hx
    funext i
    have : i = 0 := Subsingleton.elim _ _
    subst this
    simp [Matrix.mulVec, dotProduct]
    field_simp

theorem scalarSol_complete : Complete scalarSol := by
  intro M hM
  have h0 : M 0 0 ≠ 0 := by
    rw [Matrix.det_fin_one] at hM; exact hM.ne_zero
  refine ⟨M 0 0, ?_, fun b => ⟨_, rfl⟩⟩
  change (if M 0 0 = 0 then err "singular" else ok (M 0 0)) = ok (M 0 0)
  rw [if_neg h0]

/-- `y' = q(x)`, one component, with its Jacobian (zero) -/
noncomputable def quadSys (q : ℝ → ℝ) : ImpSys 1 Unit where
  f x _ _ := ok (fun _ => q x, ())
  jac := some (fun _ _ _ _ => ok (0, ()))
  mass := none

theorem quadSys_spec (q : ℝ → ℝ) : (quadSys q).Spec (fun x y => (0 : Matrix (Fin 1) (Fin 1) ℝ).mulVec y + fun _ => q x) (fun _ _ => 0) where
  f := by
    intro x y a r h
    cases h
    funext i; simp
  j := by
    intro jj alpha x y a r hj h
    cases hj
    cases h
    simp

theorem quadSys_total (q : ℝ → ℝ) : (quadSys q).Total where
  f _ _ _ := ⟨_, rfl⟩
  j := by
    intro jj hj alpha x y a
    cases hj
    exact ⟨_, rfl⟩

/-- parameters like the default ones -/
noncomputable def bwSample (nit : Nat) (modified : Bool) : BwParams :=
  { n_iteration_max := nit, use_numerical_jacobian := false, use_modified_newton := modified, tol_abs := 1 / 10 ^ 4,
    tol_rel := 1 / 10 ^ 4, tol_newton := 1 / 100 }

/-- **C82**, a case of `C82_affine`: the hypotheses hold, for `y' = q(x)` and every stepsize. -/
example (q : ℝ → ℝ) (m : BwEuler 1 scalarSol.F) (work : Workspace ℝ) (x : ℝ) (y : Vec 1) (h : ℝ) :
    ∃ m' work' a', BwEuler.step (bwSample 7 false) (quadSys q) scalarSol m work x y h () = ok (m', work', a') ∧
      (m'.w = y ∨ m'.w = fun i => y i + h * q (x + h)) := by
  obtain ⟨m', work', a', e, hh⟩ := C82_affine (P := bwSample 7 false) scalarSol_exact scalarSol_complete (quadSys_total q)
    (quadSys_spec q) m (work := work) (Or.inl rfl) x y (h := h) () (by simp) (by unfold bwSample; norm_num)
    (by unfold bwSample; norm_num)
  refine ⟨m', work', a', e, hh.imp (fun hh => hh.1) (fun hh => ?_)⟩
  rw [hh.1]
  funext i
  simp

theorem rms_one {ta tr : ℝ} (r y : Vec 1) (h : 0 < ta + tr * |y 0|) : rmsScaled ta tr r y = |r 0| / (ta + tr * |y 0|) := by
  unfold rmsScaled
  simp only [one_ne_zero, if_false, Finset.univ_unique, Fin.default_eq_zero, Fin.isValue, Finset.sum_singleton, Nat.cast_one, div_one]
  rw [mul_div_mul_comm, ← sq, Real.sqrt_sq_eq_abs, abs_div, abs_of_pos h]

/-- the problem of the next theorem: nothing happens until `x = 1` -/
noncomputable def lateSys : ImpSys 1 Unit := quadSys (fun x => if x ≤ 1 then 0 else 1)

open Classical in
/-- **C82**, the code fails: with the modified method the matrix is computed and factorized only in the iterations made before
the first step is accepted. If the first step needs no iteration, there is no factorization, and a later step that needs one
fails with an error message of the linear solver, although the problem (`y' = 0` until `x = 1`, then `y' = 1`) is linear with
the matrix `1 - h J = 1` and the method with the usual Newton iterations solves it (`C82_affine`). -/
theorem C82_modified_newton_counterexample :
    solve (bwEuler (bwSample 7 true) lateSys scalarSol) (plainParams ℝ 1) (fun _ => ok ()) (BwEuler.new 1 scalarSol.F) [0] 0 2
      (some 1) () none = err "the function factorize must be called before solve" := by
  have hce : ceilU ((2 - 0) / 1 : ℝ) = 2 := by
    rw [ceilU_eq]; norm_num
  have hini : initialStep (plainParams ℝ 1) (0 : ℝ) 2 (some 1) = ok (true, 1) := by
    unfold initialStep
    dsimp only
    rw [if_neg (by rw [tenEps_eq]; norm_num), hce, lit_eq]
    norm_num
  have hvec : vecOf 1 [(0 : ℝ)] = ok 0 := by
    have : [(0 : ℝ)] = List.ofFn (0 : Vec 1) := by simp [List.ofFn_succ]
    rw [this, vecOf_ofFn]
  unfold solve
  rw [if_neg (by simp [plainParams]), if_neg (by norm_num), hini]
  simp only [ok_bind]
  rw [if_neg (by rw [lit_eq]; norm_num)]
  unfold firstOutput
  simp only [ok_bind, Bool.false_eq_true, if_false, if_true]
  have hce2 : ceilU ((2 - 0) / 1 : ℝ) = 2 := hce
  rw [hce2]
  have step1 : ∀ work : Workspace ℝ, work.stats.n_accepted = 0 →
      ∃ work', (bwEuler (bwSample 7 true) lateSys scalarSol).step (BwEuler.new 1 scalarSol.F) work 0 [0] 1 () =
        ok (⟨0, none⟩, work', ()) := by
    intro work _
    unfold bwEuler
    dsimp only
    rw [hvec, ok_bind]
    unfold BwEuler.step bwSample bwLoop
    dsimp only
    unfold lateSys quadSys
    simp only [ok_bind]
    rw [if_pos ?_]
    · exact ⟨_, rfl⟩
    · rw [rms_one _ _ (by simp)]
      simp [bwResidual]
  have step2 : ∀ work : Workspace ℝ, work.stats.n_accepted = 1 →
      (bwEuler (bwSample 7 true) lateSys scalarSol).step ⟨0, none⟩ work (0 + 1) [0] 1 () =
        err "the function factorize must be called before solve" := by
    intro work hw
    unfold bwEuler
    dsimp only
    rw [hvec, ok_bind]
    unfold BwEuler.step bwSample bwLoop
    dsimp only
    unfold lateSys quadSys
    simp only [ok_bind]
    rw [if_neg ?_]
    · unfold bwFactor bwCount
      rw [if_neg (by dsimp only; rw [hw]; simp)]
      rfl
    · rw [rms_one _ _ (by simp)]
      simp [bwResidual]
      norm_num
  have hacc : copyInto [(0 : ℝ)] (List.ofFn (0 : Vec 1)) = ok [0] := by simp [copyInto, List.ofFn_succ]
  obtain ⟨w1, e1⟩ := step1 (Workspace.reset 1 (plainParams ℝ 1).rel_error_prev_min).addStep rfl
  have hn := (bwEuler_meets (quadSys_spec _)).step e1 trivial
  have e2 := step2 w1.addAccepted.addStep (by
    change w1.stats.n_accepted + 1 = 1
    rw [hn.2.1]; rfl)
  unfold turns turns equalTurn
  dsimp only
  rw [e1]
  simp only [ok_bind]
  rw [show (bwEuler (bwSample 7 true) lateSys scalarSol).accept ⟨0, none⟩ w1.addAccepted 0 [0] 1 () =
    ok (⟨0, none⟩, w1.addAccepted, 0 + 1, [0], ()) from by
      unfold bwEuler; dsimp only; rw [hacc]; rfl]
  simp only [ok_bind, runOutput, Bool.false_eq_true, if_false]
  rw [e2]
  rfl

/-- **C82**, the code differs from the documentation of `n_iteration_max`: the point reached in the last iteration is not
examined. With one iteration allowed, a linear problem whose solution is found exactly by the first Newton update is reported
as not solved. -/
theorem C82_last_iteration_counterexample :
    BwEuler.step (bwSample 1 false) (quadSys fun _ => 1) scalarSol (BwEuler.new 1 scalarSol.F)
      (Workspace.reset 1 1) 0 0 1 () = err "Newton-Raphson method did not complete successfully" ∧
    (∃ m' work', BwEuler.step (bwSample 2 false) (quadSys fun _ => 1) scalarSol
      (BwEuler.new 1 scalarSol.F) (Workspace.reset 1 1) 0 0 1 () = ok (m', work', ()) ∧ m'.w = fun _ => 1) := by
  have hnot : ¬ BwSolved (bwSample 2 false) (fun x y => (0 : Matrix (Fin 1) (Fin 1) ℝ).mulVec y + fun _ => (1 : ℝ)) 0 0 1 0 := by
    unfold BwSolved
    rw [rms_one _ _ (by simp [bwSample])]
    simp [bwSample]
    norm_num
  constructor
  · unfold BwEuler.step
    rw [show (bwSample 1 false).n_iteration_max = 0 + 1 from rfl]
    unfold bwLoop
    dsimp only
    rw [show (quadSys fun _ => 1).f (0 + 1) 0 () = ok (fun _ => 1, ()) from rfl, ok_bind]
    dsimp only
    rw [if_neg ?_]
    · have hfac : ∀ (P : BwParams) (fact : Option scalarSol.F) (work : Workspace ℝ), P.use_modified_newton = false →
          P.use_numerical_jacobian = false → ∃ work',
          bwFactor P (quadSys fun _ => 1) scalarSol 1 (0 + 1) 0 fact work () = ok (some (-1 : ℝ), work', ()) := by
        intro P fact work h1 h2
        unfold bwFactor
        rw [if_pos (Or.inl h1), h2,
          show (quadSys fun _ => 1).jacobian false 1 (0 + 1) 0 () = ok (0, (), 0) from rfl, ok_bind]
        dsimp only
        rw [show scalarSol.factorize (fun i j => (0 : Matrix (Fin 1) (Fin 1) ℝ) i j + if i = j then -1 else 0) = ok (-1 : ℝ) from by
          simp [scalarSol]]
        exact ⟨_, rfl⟩
      obtain ⟨w1, e1⟩ := hfac (bwSample 1 false) (BwEuler.new 1 scalarSol.F).fact
        (bwCount { Workspace.reset (1 : ℝ) 1 with stats := { (Workspace.reset (1 : ℝ) 1).stats with n_iterations := 0 } }) rfl rfl
      rw [e1]
      rfl
    · intro hh
      refine hnot ?_
      unfold BwSolved
      rw [bwResidual_eq] at hh
      have hz : ((0 : Matrix (Fin 1) (Fin 1) ℝ).mulVec 0 + fun _ => (1 : ℝ)) = fun _ => 1 := by funext i; simp
      dsimp only
      rw [hz]
      exact hh
  · obtain ⟨m', work', a', e, hh⟩ := C82_affine (P := (bwSample 2 false)) scalarSol_exact
      scalarSol_complete (quadSys_total _) (quadSys_spec fun _ => 1) (BwEuler.new 1 scalarSol.F) (work := Workspace.reset 1 1)
      (Or.inl rfl) 0 0 (h := 1) () (by simp) le_rfl (by unfold bwSample; norm_num)
    refine ⟨m', work', e, ?_⟩
    rcases hh with hh | hh
    · exact absurd hh.2.1 hnot
    · rw [hh.1]; funext i; simp

end Russell.Ode
