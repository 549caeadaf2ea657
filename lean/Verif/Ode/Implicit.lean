import Verif.Ode.EulerForward
import Verif.Nonlin.Control
import Verif.Sparse.Jacobian
import Mathlib.LinearAlgebra.Matrix.NonsingularInverse

/-!
# What the implicit methods share (C82 to C85)

Model of the part of russell_ode/src/system.rs used by the implicit methods and of the Jacobian matrix they compute. Vectors
have the dimension `n` by type and the entries are real numbers. The callbacks fill the vector or matrix completely (the
Jacobian callbacks of the crate begin with `jj.reset()`); triangular storage is not modelled (a matrix stored by a triangle
is symmetric). Sparse direct solvers are parameters.
-/

namespace Russell.Ode

open Russell Russell.Res
open Russell.Nonlin (Vec LinSol)

variable {n : Nat} {A : Type}

/-- `System` (/repo/russell_ode/src/system.rs:64-92): function, Jacobian (with the scaling factor) and mass matrix -/
structure ImpSys (n : Nat) (A : Type) where
  f : ℝ → Vec n → A → Res (Vec n × A)
  jac : Option (ℝ → ℝ → Vec n → A → Res (Matrix (Fin n) (Fin n) ℝ × A))
  mass : Option (Matrix (Fin n) (Fin n) ℝ)

/-- one column of the numerical Jacobian (/repo/russell_sparse/src/numerical_jacobian.rs:172-187); see `Sparse.jacColumn` for
the storage -/
noncomputable def numColumn (s : ImpSys n A) (alpha x : ℝ) (y w1 : Vec n) (j : Nat)
    (t : Matrix (Fin n) (Fin n) ℝ × A) : Res (Matrix (Fin n) (Fin n) ℝ × A) :=
  if hj : j < n then do
    let d := Sparse.jacStep Real.sqrt (1 / 2 ^ 52) (1 / 10 ^ 5) (y ⟨j, hj⟩)
    let (w2, a) ← s.f x (Function.update y ⟨j, hj⟩ (y ⟨j, hj⟩ + d)) t.2
    ok (fun i k => if k.1 = j then alpha * (w2 i - w1 i) / d else t.1 i k, a)
  else panic

/-- `numerical_jacobian` (/repo/russell_sparse/src/numerical_jacobian.rs:129-189) -/
noncomputable def numJac (s : ImpSys n A) (alpha x : ℝ) (y : Vec n) (a : A) : Res (Matrix (Fin n) (Fin n) ℝ × A) := do
  let (w1, a) ← s.f x y a
  forRange 0 n ((0 : Matrix (Fin n) (Fin n) ℝ), a) (numColumn s alpha x y w1)

/-- the Jacobian matrix, scaled, numerical if asked for or if there is no callback; and the number added to `n_function`
(/repo/russell_ode/src/euler_backward.rs:107-114, /repo/russell_ode/src/radau5.rs:207-217) -/
noncomputable def ImpSys.jacobian (s : ImpSys n A) (numerical : Bool) (alpha x : ℝ) (y : Vec n) (a : A) :
    Res (Matrix (Fin n) (Fin n) ℝ × A × Nat) :=
  match numerical, s.jac with
  | false, some j => do
    let (m, a) ← j alpha x y a
    ok (m, a, 0)
  | _, _ => do
    let (m, a) ← numJac s alpha x y a
    ok (m, a, n)

/-- The callbacks, when they succeed, compute `F` and (scaled) `J`. -/
structure ImpSys.Spec (s : ImpSys n A) (F : ℝ → Vec n → Vec n) (J : ℝ → Vec n → Matrix (Fin n) (Fin n) ℝ) : Prop where
  f : ∀ {x y a r}, s.f x y a = ok r → r.1 = F x y
  j : ∀ {jj alpha x y a r}, s.jac = some jj → jj alpha x y a = ok r → r.1 = alpha • J x y

/-- The callbacks do not fail. -/
structure ImpSys.Total (s : ImpSys n A) : Prop where
  f : ∀ x y a, ∃ r, s.f x y a = ok r
  j : ∀ {jj}, s.jac = some jj → ∀ alpha x y a, ∃ r, jj alpha x y a = ok r

/-- the difference quotients used by `numerical_jacobian` -/
noncomputable def diffQuot (F : ℝ → Vec n → Vec n) (x : ℝ) (y : Vec n) : Matrix (Fin n) (Fin n) ℝ := fun i j =>
  (F x (Function.update y j (y j + Real.sqrt (1 / 2 ^ 52 * max (1 / 10 ^ 5) |y j|))) i - F x y i) /
    Real.sqrt (1 / 2 ^ 52 * max (1 / 10 ^ 5) |y j|)

/-- the stepsize of the difference quotients is positive -/
theorem diffStep_pos (v : ℝ) : 0 < Real.sqrt (1 / 2 ^ 52 * max (1 / 10 ^ 5) |v|) :=
  Real.sqrt_pos.2 (mul_pos (by positivity) (lt_max_of_lt_left (by positivity)))

theorem jacStep_real (v : ℝ) :
    Sparse.jacStep Real.sqrt (1 / 2 ^ 52) (1 / 10 ^ 5) v = Real.sqrt (1 / 2 ^ 52 * max (1 / 10 ^ 5) |v|) := rfl

theorem numColumn_ok {s : ImpSys n A} {F : ℝ → Vec n → Vec n} {J : ℝ → Vec n → Matrix (Fin n) (Fin n) ℝ}
    (hs : s.Spec F J) {alpha x : ℝ} {y : Vec n} {j : Nat} {t r : Matrix (Fin n) (Fin n) ℝ × A} (hj : j < n)
    (h : numColumn s alpha x y (F x y) j t = ok r) :
    ∀ i k, r.1 i k = if k.1 = j then (alpha • diffQuot F x y) i k else t.1 i k := by
  unfold numColumn at h
  rw [dif_pos hj, bind_eq_ok] at h
  obtain ⟨⟨w2, a⟩, e, h⟩ := h
  have hw := hs.f e
  dsimp only at h hw
  cases h
  intro i k
  dsimp only
  by_cases hk : k.1 = j
  · rw [if_pos hk, if_pos hk]
    have : k = ⟨j, hj⟩ := Fin.ext hk
    subst this
    rw [hw, jacStep_real, Matrix.smul_apply, smul_eq_mul, diffQuot, mul_div_assoc]
  · rw [if_neg hk, if_neg hk]

/-- the numerical Jacobian consists of the difference quotients -/
theorem numJac_ok {s : ImpSys n A} {F : ℝ → Vec n → Vec n} {J : ℝ → Vec n → Matrix (Fin n) (Fin n) ℝ}
    (hs : s.Spec F J) {alpha x : ℝ} {y : Vec n} {a : A} {r : Matrix (Fin n) (Fin n) ℝ × A}
    (h : numJac s alpha x y a = ok r) : r.1 = alpha • diffQuot F x y := by
  unfold numJac at h
  rw [bind_eq_ok] at h
  obtain ⟨⟨w1, a1⟩, e, h⟩ := h
  have hw := hs.f e
  dsimp only at h hw
  rw [hw] at h
  have key := forRange_ok (fun j (t : Matrix (Fin n) (Fin n) ℝ × A) => ∀ i k, k.1 < j → t.1 i k = (alpha • diffQuot F x y) i k)
    (Nat.zero_le n) (fun i k hk => by omega) (fun j t t' _ hj ht he => ?_) h
  · ext i k; exact key i k k.2
  · intro i k hk
    rw [numColumn_ok hs hj he]
    by_cases hkj : k.1 = j
    · rw [if_pos hkj]
    · rw [if_neg hkj]; exact ht i k (by omega)

theorem numJac_total {s : ImpSys n A} (hs : s.Total) (alpha x : ℝ) (y : Vec n) (a : A) :
    ∃ r, numJac s alpha x y a = ok r := by
  unfold numJac
  obtain ⟨⟨w1, a1⟩, e⟩ := hs.f x y a
  rw [e, ok_bind]
  dsimp only
  have hstep : ∀ j t, 0 ≤ j → j < n → True → ∃ t', numColumn s alpha x y w1 j t = ok t' ∧ True := by
    intro j t _ hj _
    unfold numColumn
    rw [dif_pos hj]
    dsimp only
    obtain ⟨⟨w2, a2⟩, e2⟩ := hs.f x (Function.update y ⟨j, hj⟩ (y ⟨j, hj⟩ +
      Sparse.jacStep Real.sqrt (1 / 2 ^ 52) (1 / 10 ^ 5) (y ⟨j, hj⟩))) t.2
    rw [e2, ok_bind]
    exact ⟨_, rfl, trivial⟩
  obtain ⟨r, h, -⟩ := forRange_spec (s := ((0 : Matrix (Fin n) (Fin n) ℝ), a1)) (fun _ _ => True) (Nat.zero_le n) trivial hstep
  exact ⟨r, h⟩

/-- the matrix computed: the difference quotients or the Jacobian given by the user -/
noncomputable def ImpSys.matrix (s : ImpSys n A) (numerical : Bool) (F : ℝ → Vec n → Vec n)
    (J : ℝ → Vec n → Matrix (Fin n) (Fin n) ℝ) (x : ℝ) (y : Vec n) : Matrix (Fin n) (Fin n) ℝ :=
  if numerical = true ∨ s.jac = none then diffQuot F x y else J x y

theorem jacobian_ok {s : ImpSys n A} {F : ℝ → Vec n → Vec n} {J : ℝ → Vec n → Matrix (Fin n) (Fin n) ℝ}
    (hs : s.Spec F J) {numerical : Bool} {alpha x : ℝ} {y : Vec n} {a : A} {r : Matrix (Fin n) (Fin n) ℝ × A × Nat}
    (h : s.jacobian numerical alpha x y a = ok r) :
    r.1 = alpha • s.matrix numerical F J x y ∧ r.2.2 = if numerical = true ∨ s.jac = none then n else 0 := by
  unfold ImpSys.jacobian at h
  unfold ImpSys.matrix
  rcases hj : s.jac with _ | jj
  · have h' : (numJac s alpha x y a >>= fun t => ok (t.1, t.2, n)) = ok r := by
      rw [hj] at h; cases numerical <;> exact h
    rw [bind_eq_ok] at h'
    obtain ⟨t, e, h'⟩ := h'
    cases h'
    simp only [or_true, if_true]
    exact ⟨numJac_ok hs e, trivial⟩
  · cases numerical
    · rw [hj] at h
      dsimp only at h
      rw [bind_eq_ok] at h
      obtain ⟨t, e, h⟩ := h
      cases h
      simp only [Bool.false_eq_true, reduceCtorEq, or_self, if_false]
      exact ⟨hs.j hj e, trivial⟩
    · rw [hj] at h
      dsimp only at h
      rw [bind_eq_ok] at h
      obtain ⟨t, e, h⟩ := h
      cases h
      simp only [true_or, if_true]
      exact ⟨numJac_ok hs e, trivial⟩

theorem jacobian_total {s : ImpSys n A} (hs : s.Total) (numerical : Bool) (alpha x : ℝ) (y : Vec n) (a : A) :
    ∃ r, s.jacobian numerical alpha x y a = ok r := by
  unfold ImpSys.jacobian
  obtain ⟨t, e⟩ := numJac_total hs alpha x y a
  rcases hj : s.jac with _ | jj
  · cases numerical <;> (dsimp only; rw [e, ok_bind]; exact ⟨_, rfl⟩)
  · cases numerical
    · obtain ⟨u, e2⟩ := hs.j hj alpha x y a
      dsimp only; rw [e2, ok_bind]; exact ⟨_, rfl⟩
    · dsimp only; rw [e, ok_bind]; exact ⟨_, rfl⟩

/-- the difference quotients of an affine function are its matrix -/
theorem diffQuot_affine {F : ℝ → Vec n → Vec n} {B : Matrix (Fin n) (Fin n) ℝ} {b : ℝ → Vec n}
    (hF : ∀ x y, F x y = B.mulVec y + b x) (x : ℝ) (y : Vec n) : diffQuot F x y = B := by
  ext i j
  unfold diffQuot
  rw [div_eq_iff (diffStep_pos (y j)).ne', hF, hF]
  generalize Real.sqrt (1 / 2 ^ 52 * max (1 / 10 ^ 5) |y j|) = d
  have : Function.update y j (y j + d) = y + Pi.single j d := by
    ext k
    by_cases hk : k = j
    · subst hk; simp
    · simp [hk]
  rw [this, Matrix.mulVec_add, Matrix.mulVec_single]
  simp [mul_comm]

/-- `y[i]` for all `i`: the wrong length panics -/
def vecOf (n : Nat) (y : List ℝ) : Res (Vec n) := if h : y.length = n then ok (fun i => y[i.1]'(by rw [h]; exact i.2)) else panic

theorem vecOf_ofFn (v : Vec n) : vecOf n (List.ofFn v) = ok v := by
  unfold vecOf
  rw [dif_pos (List.length_ofFn)]
  congr 1
  funext i
  simp

theorem vecOf_ok {y : List ℝ} {v : Vec n} (h : vecOf n y = ok v) : y = List.ofFn v := by
  unfold vecOf at h
  split at h
  · rename_i hl
    cases h
    apply List.ext_getElem
    · simp [hl]
    · intro i h1 h2; simp
  · cases h

end Russell.Ode
