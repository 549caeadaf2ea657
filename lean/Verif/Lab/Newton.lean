import Verif.Lab.Norms
import Verif.Lab.GaussJ
import Verif.Lab.BrentRoot
import Mathlib.Data.List.GetD

/-!
# Newton's method for nonlinear systems (property C80)

Model of `NewtonSolver` (/repo/russell_lab/src/algo/newton_solver.rs) over an ordered field; exact arithmetic. `dgesv` is a
parameter. The two callbacks are functions from the vector or matrix to be filled, the point and the extra arguments to the
filled vector or matrix and the new extra arguments, or an error, or a panic. The times are not modelled.
-/

namespace Russell.Lab

open Russell Russell.Res

section model
variable {α : Type} [Field α] [LinearOrder α] {A : Type}

/-- the parameters of `NewtonSolver` (/repo/russell_lab/src/algo/newton_solver.rs:22-65); `stats` is `stats.enabled` -/
structure NwParams (α : Type) where
  ndim : Nat
  maxIterations : Nat
  tolerance : α
  divergentTol : α
  useLineSearch : Bool
  initialAlpha : α
  stats : Bool

/-- the point, the vectors `r` and `p` and the matrix `jj` of the solver, the extra arguments, and the counters of `Stats` -/
structure NwState (α A : Type) where
  x : List α
  r : List α
  p : List α
  jj : Arr2 α
  args : A
  nFunction : Nat
  nJacobian : Nat
  nIterations : Nat

/-- `calc_f` -/
abbrev NwCalcF (α A : Type) := List α → List α → A → Res (List α × A)
/-- `calc_jj` -/
abbrev NwCalcJ (α A : Type) := Arr2 α → List α → A → Res (Arr2 α × A)
/-- `solve_lin_sys` (/repo/russell_lab/src/matvec/solve_lin_sys.rs:74-111) for an `ndim × ndim` matrix: the solution and what
is left in the matrix -/
abbrev NwLin (α : Type) := Arr2 α → List α → Res (List α × Arr2 α)

/-- `NewtonSolver::new` (/repo/russell_lab/src/algo/newton_solver.rs:69-85) -/
def NwParams.new (ndim : Nat) : Res (NwParams α) :=
  if ndim = 0 then err "ndim must be > 0"
  else ok { ndim, maxIterations := 20, tolerance := 1 / 10 ^ 10, divergentTol := 10 ^ 6, useLineSearch := false,
            initialAlpha := 1, stats := false }

/-- `validate_params` (/repo/russell_lab/src/algo/newton_solver.rs:88-102) -/
def NwParams.validate (P : NwParams α) : Res Unit :=
  if P.maxIterations < 1 then err "max_iterations must be >= 1"
  else if P.tolerance < 10 * f64Eps then err "tolerance must be >= 10 * f64::EPSILON"
  else if P.divergentTol < 1 then err "divergent_tol must be >= 1.0"
  else if P.initialAlpha ≤ 0 then err "initial_alpha must be > 0"
  else ok ()

/-- what the `inc_*` functions of `Stats` add (/repo/russell_lab/src/algo/stats.rs:71-91) -/
def NwParams.inc (P : NwParams α) : Nat := if P.stats then 1 else 0

/-- `calc_f(&mut self.r, &x, args)?; self.stats.inc_n_function(1)` (/repo/russell_lab/src/algo/newton_solver.rs:257-258,
303-304, 317-318) -/
def nwCallF (P : NwParams α) (calcF : NwCalcF α A) (s : NwState α A) : MRes (NwState α A) :=
  match calcF s.r s.x s.args with
  | ok (r, args) => MRes.ok { s with r := r, args := args, nFunction := s.nFunction + P.inc }
  | err m => MRes.err s m
  | Res.panic => MRes.panic

/-- `vec_norm(&self.r, Norm::Max)`; the square root is not used -/
def nwNorm (r : List α) : Res α := vecNorm (fun v => v) r .max

/-- the Jacobian and the step `p` (/repo/russell_lab/src/algo/newton_solver.rs:281-286). The loop `p[i] = -r[i]` is written
as a map: both vectors have the dimension `ndim`. -/
def nwDirection (P : NwParams α) (calcJ : NwCalcJ α A) (lin : NwLin α) (s : NwState α A) : MRes (NwState α A) :=
  match calcJ s.jj s.x s.args with
  | err m => MRes.err s m
  | Res.panic => MRes.panic
  | ok (jj, args) =>
    match lin jj (s.r.map fun v => -v) with
    | ok (p, jj') => MRes.ok { s with jj := jj', args := args, p := p, nJacobian := s.nJacobian + P.inc }
    | err m => MRes.err { s with jj := jj, args := args, nJacobian := s.nJacobian + P.inc } m
    | Res.panic => MRes.panic

/-- the merit function `0.5 * vec_inner(r, r)` (/repo/russell_lab/src/algo/newton_solver.rs:293, 305) -/
def nwMerit (r : List α) : α := 1 / 2 * (List.zipWith (fun a b => a * b) r r).sum

/-- `x[i] = x_base[i] + alpha * p[i]` -/
def nwMove (xBase p : List α) (alpha : α) : List α := List.zipWith (fun a b => a + alpha * b) xBase p

/-- the backtracking loop (/repo/russell_lab/src/algo/newton_solver.rs:299-311); `n` is the number of trials left -/
def nwLineLoop (P : NwParams α) (calcF : NwCalcF α A) (phiBase : α) (xBase : List α) : (n : Nat) → α → NwState α A →
    MRes (NwState α A)
  | 0, _, s => MRes.ok s
  | n + 1, alpha, s =>
    (nwCallF P calcF { s with x := nwMove xBase s.p alpha }).andThen fun s =>
      if nwMerit s.r ≤ phiBase + 1 / 10 ^ 4 * alpha * (-2 * phiBase) then MRes.ok s
      else nwLineLoop P calcF phiBase xBase n (alpha * (1 / 2)) s

/-- the update of the point (/repo/russell_lab/src/algo/newton_solver.rs:289-319) -/
def nwUpdate (P : NwParams α) (calcF : NwCalcF α A) (s : NwState α A) : MRes (NwState α A) :=
  if P.useLineSearch then nwLineLoop P calcF (nwMerit s.r) s.x 20 P.initialAlpha s
  else nwCallF P calcF { s with x := List.zipWith (fun a b => a + b) s.x s.p }

/-- the iterations (/repo/russell_lab/src/algo/newton_solver.rs:265-327); `n` is the number of iterations left and `norm` is
`residual_norm` -/
def nwLoop (P : NwParams α) (calcF : NwCalcF α A) (calcJ : NwCalcJ α A) (lin : NwLin α) (initialNorm : α) :
    (n it : Nat) → α → NwState α A → MRes (NwState α A)
  | 0, _, _, s => MRes.err s "Newton solver failed to converge"
  | n + 1, it, norm, s =>
    let s := { s with nIterations := s.nIterations + P.inc }
    if norm < P.tolerance then MRes.ok s
    else if 0 < it ∧ norm > P.divergentTol * initialNorm then MRes.err s "solution diverged"
    else
      (nwDirection P calcJ lin s).andThen fun s =>
      (nwUpdate P calcF s).andThen fun s =>
        match nwNorm s.r with
        | ok norm => nwLoop P calcF calcJ lin initialNorm n (it + 1) norm s
        | err m => MRes.err s m
        | Res.panic => MRes.panic

/-- `self.stats.reset()` (/repo/russell_lab/src/algo/stats.rs:58-67) -/
def nwReset (P : NwParams α) (s : NwState α A) : NwState α A :=
  if P.stats then { s with nFunction := 0, nJacobian := 0, nIterations := 0 } else s

/-- `NewtonSolver::solve` (/repo/russell_lab/src/algo/newton_solver.rs:236-328); the state holds the point and what the solver
keeps from an earlier call -/
def nwSolve (P : NwParams α) (calcF : NwCalcF α A) (calcJ : NwCalcJ α A) (lin : NwLin α) (s : NwState α A) :
    MRes (NwState α A) :=
  match P.validate with
  | err m => MRes.err s m
  | Res.panic => MRes.panic
  | ok () =>
    if s.x.length ≠ P.ndim then MRes.err s "dimension of x does not match solver dimension"
    else
      (nwCallF P calcF (nwReset P s)).andThen fun s =>
        match nwNorm s.r with
        | ok norm => nwLoop P calcF calcJ lin norm P.maxIterations 0 norm s
        | err m => MRes.err s m
        | Res.panic => MRes.panic

end model

section props
variable {α : Type} [Field α] [LinearOrder α] [IsStrictOrderedRing α] {A : Type}

/-- The callbacks compute the functions `F` and `J` or return an error, and the linear solver returns a solution or an error. -/
structure NwSpec (n : Nat) (calcF : NwCalcF α A) (calcJ : NwCalcJ α A) (lin : NwLin α) (F : List α → List α)
    (J : List α → Nat → Nat → α) : Prop where
  len : ∀ x, x.length = n → (F x).length = n
  f : ∀ r x a, x.length = n → (∃ a', calcF r x a = ok (F x, a')) ∨ ∃ m, calcF r x a = err m
  j : ∀ jj x a, x.length = n →
    (∃ jj' a', calcJ jj x a = ok (jj', a') ∧ ∀ i k, i < n → k < n → jj' i k = J x i k) ∨ ∃ m, calcJ jj x a = err m
  lin : ∀ jj b, b.length = n →
    (∃ p jj', lin jj b = ok (p, jj') ∧ p.length = n ∧ ∀ i, i < n → ∑ k ∈ Finset.range n, jj i k * p.getD k 0 = b.getD i 0) ∨
      ∃ m, lin jj b = err m

/-- the message comes from one of the callbacks, or from the linear solver called with the Jacobian at a point of `R` -/
def FromCallback (n : Nat) (calcF : NwCalcF α A) (calcJ : NwCalcJ α A) (lin : NwLin α) (J : List α → Nat → Nat → α)
    (R : List α → Prop) (m : String) : Prop :=
  (∃ r x a, x.length = n ∧ calcF r x a = err m) ∨ (∃ jj x a, R x ∧ calcJ jj x a = err m) ∨
    ∃ y jj b, R y ∧ (∀ i k, i < n → k < n → jj i k = J y i k) ∧ lin jj b = err m

/-- `p` is the Newton direction at `y`: `J(y) p = -F(y)` -/
def IsDirection (n : Nat) (F : List α → List α) (J : List α → Nat → Nat → α) (y p : List α) : Prop :=
  p.length = n ∧ ∀ i, i < n → ∑ k ∈ Finset.range n, J y i k * p.getD k 0 = -(F y).getD i 0

/-- half the sum of the squares -/
def halfSq (v : List α) : α := (v.map fun t => t ^ 2).sum / 2

/-- the point `y + t p` -/
def along (y p : List α) (t : α) : List α := List.zipWith (fun a b => a + t * b) y p

/-- sufficient decrease of the merit function between `y` and `y + t p` -/
def Decrease (F : List α → List α) (y p : List α) (t : α) : Prop :=
  halfSq (F (along y p t)) ≤ (1 - 2 * (1 / 10 ^ 4) * t) * halfSq (F y)

/-- one step of the method from `y` to `z`. Without line search: the full Newton step. With line search: the first of the
steps `α₀, α₀/2, …, α₀/2^19` with sufficient decrease, or the last one of them. -/
def NwStep (P : NwParams α) (F : List α → List α) (J : List α → Nat → Nat → α) (y z : List α) : Prop :=
  ∃ p, IsDirection P.ndim F J y p ∧
    ((P.useLineSearch = false ∧ z = along y p 1) ∨
     (P.useLineSearch = true ∧ ∃ k, k < 20 ∧ z = along y p (P.initialAlpha / 2 ^ k) ∧
        (∀ i, i < k → ¬ Decrease F y p (P.initialAlpha / 2 ^ i)) ∧ (Decrease F y p (P.initialAlpha / 2 ^ k) ∨ k = 19)))

/-- all components of the residual at `y` are below the tolerance -/
def Converged (P : NwParams α) (F : List α → List α) (y : List α) : Prop := ∀ v ∈ F y, |v| < P.tolerance

/-- some component of the residual at `y` is larger than `divergent_tol` times every component of the initial residual -/
def Diverged (P : NwParams α) (F : List α → List α) (x0 y : List α) : Prop :=
  ∃ v ∈ F y, ∀ w ∈ F x0, P.divergentTol * |w| < |v|

/-- a path of `m` steps; the points left behind are neither converged nor (but for the first) diverged -/
inductive NwPath (P : NwParams α) (F : List α → List α) (J : List α → Nat → Nat → α) (x0 : List α) : Nat → List α → Prop
  | start : NwPath P F J x0 0 x0
  | step {m y z} : NwPath P F J x0 m y → ¬ Converged P F y → (0 < m → ¬ Diverged P F x0 y) → NwStep P F J y z →
      NwPath P F J x0 (m + 1) z

omit [IsStrictOrderedRing α] in
theorem nwMerit_eq (r : List α) : nwMerit r = halfSq r := by
  unfold nwMerit halfSq
  have : List.zipWith (fun a b => a * b) r r = r.map fun t => t ^ 2 := by
    rw [List.zipWith_self]
    exact List.map_congr_left fun t _ => (sq t).symm
  rw [this]; ring

theorem nwNorm_spec {r : List α} (h0 : r ≠ []) (hn : r.length < 2147483648) :
    ∃ m, nwNorm r = ok m ∧ (∀ v ∈ r, |v| ≤ m) ∧ ∃ v ∈ r, |v| = m := by
  obtain ⟨m, h1, -, ⟨h2, h3⟩, h4⟩ := C56_norm_max (fun v => v) r hn
  refine ⟨m, h1, h2, ?_⟩
  rcases h3 with h3 | h3
  · obtain ⟨v, hv⟩ := List.exists_mem_of_ne_nil r h0
    refine ⟨v, hv, ?_⟩
    rw [h3] at h2 ⊢
    exact le_antisymm (h2 v hv) (abs_nonneg v)
  · exact h3

/-- the state agrees with the function: dimension, residual, and the counters of a run of `m` steps -/
structure NwInv (P : NwParams α) (F : List α → List α) (s : NwState α A) : Prop where
  len : s.x.length = P.ndim
  r : s.r = F s.x

variable {P : NwParams α} {calcF : NwCalcF α A} {calcJ : NwCalcJ α A} {lin : NwLin α} {F : List α → List α}
  {J : List α → Nat → Nat → α} {R : List α → Prop}

theorem nwCallF_cases (h : NwSpec P.ndim calcF calcJ lin F J) (s : NwState α A) (hx : s.x.length = P.ndim) :
    (∃ a, nwCallF P calcF s = MRes.ok { s with r := F s.x, args := a, nFunction := s.nFunction + P.inc }) ∨
    ∃ m, nwCallF P calcF s = MRes.err s m ∧ FromCallback P.ndim calcF calcJ lin J R m := by
  unfold nwCallF
  rcases h.f s.r s.x s.args hx with ⟨a, e⟩ | ⟨m, e⟩
  · left; rw [e]; exact ⟨a, rfl⟩
  · right; rw [e]; exact ⟨m, rfl, Or.inl ⟨_, _, _, hx, e⟩⟩

theorem nwDirection_cases (h : NwSpec P.ndim calcF calcJ lin F J) (s : NwState α A) (hs : NwInv P F s) (hR : R s.x) :
    (∃ p jj a, nwDirection P calcJ lin s = MRes.ok { s with jj := jj, args := a, p := p, nJacobian := s.nJacobian + P.inc } ∧
      IsDirection P.ndim F J s.x p) ∨
    ∃ s' m, nwDirection P calcJ lin s = MRes.err s' m ∧ s'.x = s.x ∧ FromCallback P.ndim calcF calcJ lin J R m := by
  unfold nwDirection
  rcases h.j s.jj s.x s.args hs.len with ⟨jj, a, e, hj⟩ | ⟨m, e⟩
  · rw [e]
    dsimp only
    have hr : s.r.length = P.ndim := by rw [hs.r]; exact h.len _ hs.len
    rcases h.lin jj (s.r.map fun v => -v) (by rw [List.length_map, hr]) with ⟨p, jj', e2, hp, hl⟩ | ⟨m, e2⟩
    · left; rw [e2]
      refine ⟨p, jj', a, rfl, hp, fun i hi => ?_⟩
      have := hl i hi
      rw [List.getD_eq_getElem _ _ (by rw [List.length_map, hr]; exact hi), List.getElem_map] at this
      rw [← hs.r, List.getD_eq_getElem _ _ (by rw [hr]; exact hi), ← this]
      exact Finset.sum_congr rfl fun k hk => by rw [hj i k hi (Finset.mem_range.1 hk)]
    · right; rw [e2]; exact ⟨_, m, rfl, rfl, Or.inr (Or.inr ⟨_, _, _, hR, hj, e2⟩)⟩
  · right; rw [e]; exact ⟨_, m, rfl, rfl, Or.inr (Or.inl ⟨_, _, _, hR, e⟩)⟩

omit [LinearOrder α] [IsStrictOrderedRing α] in
theorem along_length {y p : List α} {n : Nat} (hy : y.length = n) (hp : p.length = n) (t : α) : (along y p t).length = n := by
  unfold along; rw [List.length_zipWith, hy, hp, min_self]

theorem nwLineLoop_cases (h : NwSpec P.ndim calcF calcJ lin F J) (y p : List α) (hy : y.length = P.ndim)
    (hp : p.length = P.ndim) :
    ∀ (n k : Nat) (s : NwState α A), n + k = 20 → s.p = p →
      (k = 20 → s.x = along y p (P.initialAlpha / 2 ^ 19) ∧ s.r = F s.x) →
      (∀ i, i < k → ¬ Decrease F y p (P.initialAlpha / 2 ^ i)) →
      (∃ s' j, nwLineLoop P calcF (halfSq (F y)) y n (P.initialAlpha / 2 ^ k) s = MRes.ok s' ∧ NwInv P F s' ∧ j < 20 ∧
        s'.x = along y p (P.initialAlpha / 2 ^ j) ∧ (∀ i, i < j → ¬ Decrease F y p (P.initialAlpha / 2 ^ i)) ∧
        (Decrease F y p (P.initialAlpha / 2 ^ j) ∨ j = 19) ∧ s'.nJacobian = s.nJacobian ∧ s'.nIterations = s.nIterations) ∨
      ∃ s' m, nwLineLoop P calcF (halfSq (F y)) y n (P.initialAlpha / 2 ^ k) s = MRes.err s' m ∧
        s'.x.length = P.ndim ∧ FromCallback P.ndim calcF calcJ lin J R m
  | 0, k, s, hnk, hsp, h20, hd => by
    left
    obtain ⟨e1, e2⟩ := h20 (by omega)
    exact ⟨s, 19, rfl, ⟨by rw [e1]; exact along_length hy hp _, e2⟩, by omega, e1, fun i hi => hd i (by omega), Or.inr rfl,
      rfl, rfl⟩
  | n + 1, k, s, hnk, hsp, h20, hd => by
    unfold nwLineLoop
    have hlen : (nwMove y s.p (P.initialAlpha / 2 ^ k)).length = P.ndim := by
      rw [hsp]; exact along_length hy hp _
    rcases nwCallF_cases h { s with x := nwMove y s.p (P.initialAlpha / 2 ^ k) } hlen with ⟨a, e⟩ | ⟨m, e, hm⟩
    · rw [e, MRes.ok_andThen]
      dsimp only
      have hmv : nwMove y s.p (P.initialAlpha / 2 ^ k) = along y p (P.initialAlpha / 2 ^ k) := by rw [hsp]; rfl
      have hiff : (nwMerit (F (nwMove y s.p (P.initialAlpha / 2 ^ k))) ≤
          halfSq (F y) + 1 / 10 ^ 4 * (P.initialAlpha / 2 ^ k) * (-2 * halfSq (F y))) ↔
          Decrease F y p (P.initialAlpha / 2 ^ k) := by
        rw [nwMerit_eq, hmv]
        unfold Decrease
        rw [show (1 - 2 * (1 / 10 ^ 4) * (P.initialAlpha / 2 ^ k)) * halfSq (F y) =
          halfSq (F y) + 1 / 10 ^ 4 * (P.initialAlpha / 2 ^ k) * (-2 * halfSq (F y)) by ring]
      by_cases hc : Decrease F y p (P.initialAlpha / 2 ^ k)
      · rw [if_pos (hiff.2 hc)]
        left
        exact ⟨_, k, rfl, ⟨hlen, rfl⟩, by omega, hmv, hd, Or.inl hc, rfl, rfl⟩
      · rw [if_neg (fun hh => hc (hiff.1 hh))]
        have hhalf : P.initialAlpha / 2 ^ k * (1 / 2) = P.initialAlpha / 2 ^ (k + 1) := by
          rw [pow_succ]; ring
        rw [hhalf]
        rcases nwLineLoop_cases h y p hy hp n (k + 1)
          { s with x := nwMove y s.p (P.initialAlpha / 2 ^ k), r := F (nwMove y s.p (P.initialAlpha / 2 ^ k)), args := a,
                   nFunction := s.nFunction + P.inc } (by omega) hsp
          (fun hk => ⟨by dsimp only; rw [hmv, show k = 19 by omega], rfl⟩)
          (fun i hi => by
            by_cases hik : i = k
            · rw [hik]; exact hc
            · exact hd i (by omega)) with ⟨s', j, r⟩ | ⟨s', m, r⟩
        · left; exact ⟨s', j, r⟩
        · right; exact ⟨s', m, r⟩
    · right
      rw [e, MRes.err_andThen]
      exact ⟨_, m, rfl, hlen, hm⟩

theorem nwUpdate_cases (h : NwSpec P.ndim calcF calcJ lin F J) (s : NwState α A) (hs : NwInv P F s)
    (hp : IsDirection P.ndim F J s.x s.p) :
    (∃ s', nwUpdate P calcF s = MRes.ok s' ∧ NwInv P F s' ∧ NwStep P F J s.x s'.x ∧ s'.nJacobian = s.nJacobian ∧
      s'.nIterations = s.nIterations ∧ (P.useLineSearch = false → s'.nFunction = s.nFunction + P.inc)) ∨
    ∃ s' m, nwUpdate P calcF s = MRes.err s' m ∧ s'.x.length = P.ndim ∧ FromCallback P.ndim calcF calcJ lin J R m := by
  unfold nwUpdate
  by_cases hu : P.useLineSearch = true
  · rw [if_pos hu]
    have hb : nwMerit s.r = halfSq (F s.x) := by rw [nwMerit_eq, hs.r]
    rw [hb]
    have := nwLineLoop_cases (R := R) h s.x s.p hs.len hp.1 20 0 s (by omega) rfl (by omega) (by omega)
    rw [pow_zero, div_one] at this
    rcases this with ⟨s', j, r1, r2, r3, r4, r5, r6, r7, r8⟩ | ⟨s', m, r⟩
    · left
      exact ⟨s', r1, r2, ⟨s.p, hp, Or.inr ⟨hu, j, r3, r4, r5, r6⟩⟩, r7, r8, fun hf => by rw [hu] at hf; cases hf⟩
    · right; exact ⟨s', m, r⟩
  · rw [if_neg hu]
    have hmv : List.zipWith (fun a b => a + b) s.x s.p = along s.x s.p 1 := by
      unfold along; simp only [one_mul]
    have hlen : (List.zipWith (fun a b => a + b) s.x s.p).length = P.ndim := by
      rw [hmv]; exact along_length hs.len hp.1 _
    rcases nwCallF_cases h { s with x := List.zipWith (fun a b => a + b) s.x s.p } hlen with ⟨a, e⟩ | ⟨m, e, hm⟩
    · left; rw [e]
      exact ⟨_, rfl, ⟨hlen, rfl⟩, ⟨s.p, hp, Or.inl ⟨by simpa using hu, hmv⟩⟩, rfl, rfl, fun _ => rfl⟩
    · right; rw [e]; exact ⟨_, m, rfl, hlen, hm⟩

omit [IsStrictOrderedRing α] in
theorem conv_iff {y : List α} {norm : α}
    (hn : (∀ v ∈ F y, |v| ≤ norm) ∧ ∃ v ∈ F y, |v| = norm) : norm < P.tolerance ↔ Converged P F y := by
  constructor
  · intro hlt v hv
    exact lt_of_le_of_lt (hn.1 v hv) hlt
  · intro hc
    obtain ⟨v, hv, e⟩ := hn.2
    rw [← e]; exact hc v hv

theorem div_iff {x0 y : List α} {norm norm0 : α} (hd : 0 ≤ P.divergentTol)
    (hn0 : (∀ v ∈ F x0, |v| ≤ norm0) ∧ ∃ v ∈ F x0, |v| = norm0)
    (hn : (∀ v ∈ F y, |v| ≤ norm) ∧ ∃ v ∈ F y, |v| = norm) : norm > P.divergentTol * norm0 ↔ Diverged P F x0 y := by
  constructor
  · intro hlt
    obtain ⟨v, hv, e⟩ := hn.2
    refine ⟨v, hv, fun w hw => ?_⟩
    rw [e]
    exact lt_of_le_of_lt (mul_le_mul_of_nonneg_left (hn0.1 w hw) hd) hlt
  · rintro ⟨v, hv, hw⟩
    obtain ⟨w, hw0, e⟩ := hn0.2
    rw [← e]
    exact lt_of_lt_of_le (hw w hw0) (hn.1 v hv)

/-- what a run of the solver from the point `x0` may end with -/
def NwOutcome (P : NwParams α) (calcF : NwCalcF α A) (calcJ : NwCalcJ α A) (lin : NwLin α) (F : List α → List α)
    (J : List α → Nat → Nat → α) (x0 : List α) : MRes (NwState α A) → Prop
  | MRes.ok s => ∃ m, m < P.maxIterations ∧ NwPath P F J x0 m s.x ∧ Converged P F s.x ∧ s.r = F s.x ∧
      (P.stats = true → s.nIterations = m + 1 ∧ s.nJacobian = m ∧ (P.useLineSearch = false → s.nFunction = m + 1))
  | MRes.err s msg =>
      (msg = "Newton solver failed to converge" ∧ NwPath P F J x0 P.maxIterations s.x) ∨
      (msg = "solution diverged" ∧ ∃ m, 0 < m ∧ m < P.maxIterations ∧ NwPath P F J x0 m s.x ∧ ¬ Converged P F s.x ∧
        Diverged P F x0 s.x) ∨
      (FromCallback P.ndim calcF calcJ lin J (fun y => ∃ m, m < P.maxIterations ∧ NwPath P F J x0 m y) msg ∧ s.x.length = P.ndim)
  | MRes.panic => False

theorem nwLoop_cases (h : NwSpec P.ndim calcF calcJ lin F J) (h0 : P.ndim ≠ 0) (hbig : P.ndim < 2147483648)
    (hd : 0 ≤ P.divergentTol) {x0 : List α} {norm0 : α}
    (hn0 : (∀ v ∈ F x0, |v| ≤ norm0) ∧ ∃ v ∈ F x0, |v| = norm0) :
    ∀ (n it : Nat) (norm : α) (s : NwState α A), n + it = P.maxIterations → NwInv P F s → NwPath P F J x0 it s.x →
      ((∀ v ∈ F s.x, |v| ≤ norm) ∧ ∃ v ∈ F s.x, |v| = norm) →
      (P.stats = true → s.nIterations = it ∧ s.nJacobian = it ∧ (P.useLineSearch = false → s.nFunction = it + 1)) →
      NwOutcome P calcF calcJ lin F J x0 (nwLoop P calcF calcJ lin norm0 n it norm s)
  | 0, it, norm, s, hit, hs, hp, hn, hst => by
    unfold nwLoop NwOutcome
    left
    exact ⟨rfl, by rw [← hit, Nat.zero_add]; exact hp⟩
  | n + 1, it, norm, s, hit, hs, hp, hn, hst => by
    unfold nwLoop
    dsimp only
    by_cases hc : norm < P.tolerance
    · rw [if_pos hc]
      refine ⟨it, by omega, hp, (conv_iff hn).1 hc, hs.r, fun he => ?_⟩
      obtain ⟨a, b, c⟩ := hst he
      exact ⟨by dsimp only; rw [a, NwParams.inc, if_pos he], b, c⟩
    · rw [if_neg hc]
      have hnc : ¬ Converged P F s.x := fun hh => hc ((conv_iff hn).2 hh)
      by_cases hdv : 0 < it ∧ norm > P.divergentTol * norm0
      · rw [if_pos hdv]
        right; left
        exact ⟨rfl, it, hdv.1, by omega, hp, hnc, (div_iff hd hn0 hn).1 hdv.2⟩
      · rw [if_neg hdv]
        have hnd : 0 < it → ¬ Diverged P F x0 s.x := fun hi hh => hdv ⟨hi, (div_iff hd hn0 hn).2 hh⟩
        rcases nwDirection_cases (R := fun y => ∃ m, m < P.maxIterations ∧ NwPath P F J x0 m y) h
          { s with nIterations := s.nIterations + P.inc } ⟨hs.len, hs.r⟩ ⟨it, by omega, hp⟩ with
          ⟨p, jj, a, e, hdir⟩ | ⟨s', m, e, hx, hm⟩
        · rw [e, MRes.ok_andThen]
          rcases nwUpdate_cases h
            { s with nIterations := s.nIterations + P.inc, jj := jj, args := a, p := p, nJacobian := s.nJacobian + P.inc }
            ⟨hs.len, hs.r⟩ hdir with ⟨s', e2, hs', hstep, k1, k2, k3⟩ | ⟨s', m, e2, hx, hm⟩
          · rw [e2, MRes.ok_andThen]
            have hlen : (F s'.x).length = P.ndim := h.len _ hs'.len
            obtain ⟨norm', e3, hn'⟩ := nwNorm_spec (r := s'.r)
              (by rw [hs'.r]; intro hnil; rw [hnil] at hlen; exact h0 hlen.symm) (by rw [hs'.r, hlen]; exact hbig)
            rw [e3]
            dsimp only
            rw [hs'.r] at hn'
            refine nwLoop_cases h h0 hbig hd hn0 n (it + 1) norm' s' (by omega) hs' (NwPath.step hp hnc hnd hstep) hn' ?_
            intro he
            obtain ⟨a1, b1, c1⟩ := hst he
            dsimp only at k1 k2 k3
            have hi : P.inc = 1 := by rw [NwParams.inc, if_pos he]
            exact ⟨by rw [k2, a1, hi], by rw [k1, b1, hi], fun hf => by rw [k3 hf, c1 hf, hi]⟩
          · rw [e2, MRes.err_andThen]
            right; right
            exact ⟨hm, hx⟩
        · rw [e, MRes.err_andThen]
          right; right
          exact ⟨hm, by rw [hx]; exact hs.len⟩

/-- what `validate_params` demands, in mathematical terms -/
def NwParamsOk (P : NwParams α) : Prop :=
  1 ≤ P.maxIterations ∧ 10 / 2 ^ 52 ≤ P.tolerance ∧ 1 ≤ P.divergentTol ∧ 0 < P.initialAlpha

omit [IsStrictOrderedRing α] in
theorem nwValidate_ok : P.validate = ok () ↔ NwParamsOk P := by
  unfold NwParams.validate NwParamsOk f64Eps
  rw [show (10 : α) * (1 / 2 ^ 52) = 10 / 2 ^ 52 by ring]
  constructor
  · intro h
    split_ifs at h with h1 h2 h3 h4
    exact ⟨by omega, not_lt.1 h2, not_lt.1 h3, not_le.1 h4⟩
  · rintro ⟨a, b, c, d⟩
    rw [if_neg (by omega), if_neg (not_lt.2 b), if_neg (not_lt.2 c), if_neg (not_le.2 d)]

/-- C80: how a call of `solve` can end, for every pair of functions and every initial point. Success means that all components
of the residual at the returned point are below the tolerance, and that this point was reached by fewer than
`max_iterations` steps, each of them along the solution of `J(x) p = -F(x)`. -/
theorem C80_solve (h : NwSpec P.ndim calcF calcJ lin F J) (hp : NwParamsOk P) (h0 : P.ndim ≠ 0) (hbig : P.ndim < 2147483648)
    (s : NwState α A) (hx : s.x.length = P.ndim) :
    NwOutcome P calcF calcJ lin F J s.x (nwSolve P calcF calcJ lin s) := by
  unfold nwSolve
  rw [nwValidate_ok.2 hp]
  dsimp only
  rw [if_neg (by rw [hx]; simp)]
  have hrx : (nwReset P s).x = s.x := by unfold nwReset; split_ifs <;> rfl
  rcases nwCallF_cases h (nwReset P s) (by rw [hrx]; exact hx) with ⟨a, e⟩ | ⟨m, e, hm⟩
  · rw [e, MRes.ok_andThen]
    dsimp only
    have hlen : (F (nwReset P s).x).length = P.ndim := h.len _ (by rw [hrx]; exact hx)
    obtain ⟨norm, e3, hn⟩ := nwNorm_spec (r := F (nwReset P s).x)
      (by intro hnil; rw [hnil] at hlen; exact h0 hlen.symm) (by rw [hlen]; exact hbig)
    rw [e3]
    dsimp only
    refine nwLoop_cases h h0 hbig (le_trans zero_le_one hp.2.2.1) (by rw [← hrx]; exact hn) _ 0 norm _ (by omega)
      ⟨by dsimp only; rw [hrx]; exact hx, rfl⟩ (by dsimp only; rw [hrx]; exact NwPath.start) hn ?_
    intro he
    have hr : nwReset P s = { s with nFunction := 0, nJacobian := 0, nIterations := 0 } := by unfold nwReset; rw [if_pos he]
    rw [hr]
    exact ⟨rfl, rfl, fun _ => by dsimp only; rw [NwParams.inc, if_pos he]⟩
  · rw [e, MRes.err_andThen]
    right; right
    exact ⟨hm, by rw [hrx]; exact hx⟩

omit [IsStrictOrderedRing α] in
/-- C80: the parameters are accepted exactly when in range; a wrong parameter or a wrong dimension of the initial point ends
the call with an error before any function is called, and leaves everything as it was. -/
theorem C80_validate (s : NwState α A) :
    (P.validate = ok () ↔ NwParamsOk P) ∧
    (¬ NwParamsOk P → ∃ m, ∀ calcF calcJ lin, nwSolve P calcF calcJ lin s = MRes.err s m) ∧
    (NwParamsOk P → s.x.length ≠ P.ndim → ∀ calcF calcJ lin,
      nwSolve P calcF calcJ lin s = MRes.err s "dimension of x does not match solver dimension") := by
  refine ⟨nwValidate_ok, ?_, ?_⟩
  · intro h
    have : ∃ m, P.validate = err m := by
      rw [← nwValidate_ok] at h
      unfold NwParams.validate at *
      split_ifs with h1 h2 h3 h4
      iterate 4 exact ⟨_, rfl⟩
      simp [h1, h2, h3, h4] at h
    obtain ⟨m, hm⟩ := this
    refine ⟨m, fun calcF calcJ lin => ?_⟩
    unfold nwSolve; rw [hm]
  · intro h hx calcF calcJ lin
    unfold nwSolve
    rw [nwValidate_ok.2 h]
    exact if_pos hx

end props

end Russell.Lab
