import Verif.Prelude
import Mathlib.Algebra.Polynomial.Derivative
import Mathlib.Algebra.Polynomial.Roots
import Mathlib.Algebra.Order.Field.Basic
import Mathlib.Tactic.FieldSimp
import Mathlib.Tactic.LinearCombination
import Mathlib.Tactic.Linarith
import Mathlib.Data.Nat.Factorial.Basic

/-!
# Legendre polynomials (property C31)

Models of `legendre_pn`, `legendre_pn_deriv1` and `legendre_pn_deriv2` (/repo/russell_lab/src/math/legendre.rs) over an ordered
field.  The reference polynomial is given by the Rodrigues formula, not by the recurrence used in the code.
-/

namespace Russell.Lab

open Russell Polynomial

variable {α : Type} [Field α] [LinearOrder α]

/-- one pass of the loop of `legendre_pn` for `k` (/repo/russell_lab/src/math/legendre.rs:41-46) -/
def legendreLoop (x : α) : (fuel k : Nat) → (pPrev pCurr : α) → α
  | 0, _, _, pCurr => pCurr
  | fuel + 1, k, pPrev, pCurr =>
    let kf : α := k
    let pNext := ((2 * kf + 1) * x * pCurr - kf * pPrev) / (kf + 1)
    legendreLoop x fuel (k + 1) pCurr pNext

/-- `legendre_pn` (/repo/russell_lab/src/math/legendre.rs:32-48); the loop runs for k = 1 .. n-1 -/
def legendrePn (n : Nat) (x : α) : α :=
  if n = 0 then 1
  else if n = 1 then x
  else legendreLoop x (n - 1) 1 1 x

/-- `legendre_pn_deriv1` (/repo/russell_lab/src/math/legendre.rs:78-94) -/
def legendrePnDeriv1 (n : Nat) (x : α) : α :=
  if n = 0 then 0
  else if |x - 1| < 1e-15 then
    let nf : α := n
    nf * (nf + 1) / 2
  else if |x + 1| < 1e-15 then
    let nf : α := n
    let val := nf * (nf + 1) / 2
    if n % 2 = 0 then -val else val
  else
    let pn := legendrePn n x
    let pn1 := legendrePn (n - 1) x
    (n : α) * (x * pn - pn1) / (x * x - 1)

/-- `legendre_pn_deriv2` (/repo/russell_lab/src/math/legendre.rs:125-141) -/
def legendrePnDeriv2 (n : Nat) (x : α) : α :=
  if n ≤ 1 then 0
  else
    let nf : α := n
    let nn1 := nf * (nf + 1)
    if |x - 1| < 1e-15 then (nf - 1) * nf * (nf + 1) * (nf + 2) / 8
    else if |x + 1| < 1e-15 then
      let val := (nf - 1) * nf * (nf + 1) * (nf + 2) / 8
      if n % 2 = 0 then val else -val
    else
      let dpn := legendrePnDeriv1 n x
      let pn := legendrePn n x
      (2 * x * dpn - nn1 * pn) / (1 - x * x)

/-! ## The reference: Rodrigues' formula -/

section Rodrigues

variable {F : Type} [Field F]

/-- Legendre polynomial by Rodrigues' formula `P_n = 1/(2^n n!) dⁿ/dxⁿ (x² - 1)ⁿ` -/
noncomputable def rodrigues (F : Type) [Field F] (n : Nat) : F[X] :=
  C ((2 ^ n * (n.factorial : F))⁻¹) * derivative^[n] ((X ^ 2 - 1) ^ n)

theorem iter_X_mul (p : F[X]) (n : Nat) :
    derivative^[n + 1] (X * p) = X * derivative^[n + 1] p + (n + 1 : F[X]) * derivative^[n] p := by
  induction n with
  | zero => simp [derivative_mul]; ring
  | succ n ih =>
    rw [Function.iterate_succ_apply', ih]
    simp only [derivative_add, derivative_mul, derivative_X, Function.iterate_succ_apply', derivative_natCast, derivative_one]
    push_cast
    ring

theorem iter_w_succ (p : F[X]) (n : Nat) :
    derivative^[n + 2] ((X ^ 2 - 1) * p) =
      (X ^ 2 - 1) * derivative^[n + 2] p + 2 * (n + 2 : F[X]) * X * derivative^[n + 1] p +
        (n + 2 : F[X]) * (n + 1 : F[X]) * derivative^[n] p := by
  have h : (X ^ 2 - 1) * p = X * (X * p) - p := by ring
  rw [h, Polynomial.iterate_derivative_sub, iter_X_mul (X * p) (n + 1), iter_X_mul p (n + 1), iter_X_mul p n]
  push_cast
  ring

theorem deriv_w (n : Nat) : derivative ((X ^ 2 - 1 : F[X]) ^ (n + 1)) = (2 * (n + 1 : F[X])) * (X * (X ^ 2 - 1) ^ n) := by
  rw [derivative_pow]
  simp
  ring

theorem fact_inv [CharZero F] (n : Nat) : (2 ^ (n + 1) * ((n + 1).factorial : F))⁻¹ * (2 * (n + 1)) = (2 ^ n * (n.factorial : F))⁻¹ := by
  have h1 : ((n.factorial : F)) ≠ 0 := by exact_mod_cast n.factorial_ne_zero
  have h2 : ((n : F) + 1) ≠ 0 := by exact_mod_cast n.succ_ne_zero
  rw [Nat.factorial_succ, pow_succ]
  push_cast
  field_simp

theorem rodrigues_zero : rodrigues F 0 = 1 := by simp [rodrigues]

theorem C_two_nat (n : Nat) : (2 * (n + 1 : F[X])) = C (2 * ((n : F) + 1)) := by
  rw [C_mul, C_add, C_1, C_eq_natCast, C_ofNat]

/-- `P'_{n+1} = x P'_n + (n+1) P_n` -/
theorem rodrigues_deriv_succ [CharZero F] (n : Nat) :
    derivative (rodrigues F (n + 1)) = X * derivative (rodrigues F n) + (n + 1 : F[X]) * rodrigues F n := by
  unfold rodrigues
  rw [derivative_C_mul, ← Function.iterate_succ_apply' derivative, derivative_C_mul, ← Function.iterate_succ_apply' derivative]
  rw [Function.iterate_succ_apply, deriv_w, C_two_nat, iterate_derivative_C_mul, iter_X_mul, ← fact_inv n]
  simp only [C_mul]
  ring

/-- `(n+1) P_{n+1} = (n+1) x P_n + (x² - 1) P'_n` -/
theorem rodrigues_succ [CharZero F] (n : Nat) :
    (n + 1 : F[X]) * rodrigues F (n + 1) = (n + 1 : F[X]) * (X * rodrigues F n) + (X ^ 2 - 1) * derivative (rodrigues F n) := by
  cases n with
  | zero =>
    simp [rodrigues]
    rw [show ((1 + 1) * X : F[X]) = C 2 * X by rw [C_ofNat]; ring, ← mul_assoc, ← C_mul]
    simp
  | succ m =>
    have e1 : derivative^[m + 2] ((X ^ 2 - 1 : F[X]) ^ (m + 2)) =
        2 * (m + 2 : F[X]) * (X * derivative^[m + 1] ((X ^ 2 - 1) ^ (m + 1)) + (m + 1 : F[X]) * derivative^[m] ((X ^ 2 - 1) ^ (m + 1))) := by
      rw [Function.iterate_succ_apply, deriv_w, C_two_nat, iterate_derivative_C_mul, iter_X_mul]
      rw [← C_two_nat]
      push_cast
      ring
    have e2 : derivative^[m + 2] ((X ^ 2 - 1 : F[X]) ^ (m + 2)) =
        (X ^ 2 - 1) * derivative^[m + 2] ((X ^ 2 - 1) ^ (m + 1)) + 2 * (m + 2 : F[X]) * X * derivative^[m + 1] ((X ^ 2 - 1) ^ (m + 1)) +
        (m + 2 : F[X]) * (m + 1 : F[X]) * derivative^[m] ((X ^ 2 - 1) ^ (m + 1)) := by
      rw [pow_succ' _ (m + 1), iter_w_succ]
    have e3 : derivative^[m + 2] ((X ^ 2 - 1 : F[X]) ^ (m + 2)) = 2 * (m + 2 : F[X]) * (X * derivative^[m + 1] ((X ^ 2 - 1) ^ (m + 1))) +
        2 * ((X ^ 2 - 1) * derivative^[m + 2] ((X ^ 2 - 1) ^ (m + 1))) := by
      linear_combination (2 : F[X]) * e2 - e1
    unfold rodrigues
    rw [derivative_C_mul, ← Function.iterate_succ_apply' derivative, e3, ← fact_inv (m + 1)]
    have h2 : (C (2 * (((m + 1 : Nat) : F) + 1)) : F[X]) = 2 * (m + 2 : F[X]) := by
      rw [← C_two_nat]; push_cast; ring
    rw [C_mul (b := 2 * (((m + 1 : Nat) : F) + 1)), h2]
    push_cast
    ring

/-- `(x² - 1) P'_{n+1} = (n+1) (x P_{n+1} - P_n)` -/
theorem rodrigues_deriv [CharZero F] (n : Nat) :
    (X ^ 2 - 1) * derivative (rodrigues F (n + 1)) = (n + 1 : F[X]) * (X * rodrigues F (n + 1) - rodrigues F n) := by
  have h1 := rodrigues_deriv_succ (F := F) n
  have h2 := rodrigues_succ (F := F) n
  linear_combination (X ^ 2 - 1) * h1 - X * h2

/-- Bonnet's recurrence -/
theorem rodrigues_bonnet [CharZero F] (n : Nat) :
    (n + 2 : F[X]) * rodrigues F (n + 2) = (2 * n + 3 : F[X]) * X * rodrigues F (n + 1) - (n + 1 : F[X]) * rodrigues F n := by
  have h1 := rodrigues_succ (F := F) (n + 1)
  have h2 := rodrigues_deriv (F := F) n
  push_cast at h1
  linear_combination h1 + h2

/-- Legendre's differential equation -/
theorem rodrigues_ode [CharZero F] (n : Nat) :
    (X ^ 2 - 1) * derivative (derivative (rodrigues F n)) + 2 * X * derivative (rodrigues F n) = (n * (n + 1) : F[X]) * rodrigues F n := by
  have h1 := congrArg derivative (rodrigues_succ (F := F) n)
  simp only [derivative_add, derivative_mul, derivative_sub, derivative_natCast, derivative_one, derivative_X, derivative_pow] at h1
  have h2 := rodrigues_deriv_succ (F := F) n
  rw [h2] at h1
  have e : (C ((2 : Nat) : F) : F[X]) = 2 := C_ofNat 2
  rw [e] at h1
  norm_num at h1
  linear_combination -h1

theorem rodrigues_one [CharZero F] : rodrigues F 1 = X := by
  have := rodrigues_succ (F := F) 0
  rw [rodrigues_zero] at this
  simpa using this

theorem rodrigues_eval_one [CharZero F] (n : Nat) : (rodrigues F n).eval 1 = 1 := by
  induction n with
  | zero => simp [rodrigues_zero]
  | succ n ih =>
    have h := congrArg (eval 1) (rodrigues_succ (F := F) n)
    simp [ih] at h
    have h2 : ((n : F) + 1) ≠ 0 := by exact_mod_cast n.succ_ne_zero
    apply mul_left_cancel₀ h2
    rw [h, mul_one]

theorem rodrigues_neg [CharZero F] (n : Nat) : (rodrigues F n).comp (-X) = C ((-1) ^ n) * rodrigues F n := by
  induction n using Nat.twoStepInduction with
  | zero => simp [rodrigues_zero]
  | one => simp [rodrigues_one]
  | more n ih0 ih1 =>
    have h := congrArg (fun p => p.comp (-X)) (rodrigues_bonnet (F := F) n)
    simp [ih0, ih1] at h
    have h0 := rodrigues_bonnet (F := F) n
    have h2 : ((n : F[X]) + 2) ≠ 0 := by
      have : (((n + 2 : Nat) : F[X])) ≠ 0 := by exact_mod_cast (n + 1).succ_ne_zero
      simpa using this
    apply mul_left_cancel₀ h2
    rw [h]
    simp only [pow_succ, C_mul, C_neg, C_1, C_pow]
    linear_combination -((-1 : F[X]) ^ n * h0)

theorem rodrigues_eval_neg [CharZero F] (n : Nat) (x : F) : (rodrigues F n).eval (-x) = (-1) ^ n * (rodrigues F n).eval x := by
  have := congrArg (eval x) (rodrigues_neg (F := F) n)
  simpa [eval_comp] using this

theorem rodrigues_deriv_eval_neg [CharZero F] (n : Nat) (x : F) :
    (derivative (rodrigues F n)).eval (-x) = -((-1) ^ n * (derivative (rodrigues F n)).eval x) := by
  have := congrArg (fun p => eval x (derivative p)) (rodrigues_neg (F := F) n)
  simp only [derivative_comp, derivative_C_mul, eval_mul, eval_comp, eval_neg, eval_X, eval_C, derivative_neg, derivative_X, eval_one] at this
  rw [← this]; ring

theorem rodrigues_deriv2_eval_neg [CharZero F] (n : Nat) (x : F) :
    (derivative (derivative (rodrigues F n))).eval (-x) = (-1) ^ n * (derivative (derivative (rodrigues F n))).eval x := by
  have := congrArg (fun p => eval x (derivative (derivative p))) (rodrigues_neg (F := F) n)
  rw [derivative_C_mul, derivative_C_mul] at this
  simp only [derivative_comp, derivative_mul, eval_mul, eval_comp, eval_neg, eval_X, eval_C, derivative_neg, derivative_X,
    eval_one, eval_add, derivative_one, eval_zero, neg_zero, mul_zero, zero_mul, add_zero, zero_add] at this
  rw [← this]; ring

theorem rodrigues_deriv_one [CharZero F] (n : Nat) : (derivative (rodrigues F n)).eval 1 = (n : F) * (n + 1) / 2 := by
  have h := congrArg (eval 1) (rodrigues_ode (F := F) n)
  simp [rodrigues_eval_one] at h
  rw [← h]
  field_simp

theorem rodrigues_deriv2_one [CharZero F] (n : Nat) :
    (derivative (derivative (rodrigues F n))).eval 1 = ((n : F) - 1) * n * (n + 1) * (n + 2) / 8 := by
  have h := congrArg (fun p => eval 1 (derivative p)) (rodrigues_ode (F := F) n)
  simp [rodrigues_deriv_one, derivative_pow] at h
  have h8 : (8 : F) ≠ 0 := by norm_num
  rw [eq_div_iff h8]
  linear_combination 2 * h

end Rodrigues

/-! ## The code -/

variable [IsStrictOrderedRing α]

theorem legendreLoop_eq (x : α) (fuel k : Nat) :
    legendreLoop x fuel (k + 1) ((rodrigues α k).eval x) ((rodrigues α (k + 1)).eval x) = (rodrigues α (k + 1 + fuel)).eval x := by
  induction fuel generalizing k with
  | zero => rfl
  | succ f ih =>
    have h2 : ((k : α) + 2) ≠ 0 := by
      have : (((k + 2 : Nat) : α)) ≠ 0 := by exact_mod_cast (k + 1).succ_ne_zero
      simpa using this
    have hb := congrArg (eval x) (rodrigues_bonnet (F := α) k)
    simp at hb
    have : ((2 * ((k + 1 : Nat) : α) + 1) * x * (rodrigues α (k + 1)).eval x - ((k + 1 : Nat) : α) * (rodrigues α k).eval x) /
        (((k + 1 : Nat) : α) + 1) = (rodrigues α (k + 2)).eval x := by
      have h3 : (((k + 1 : Nat) : α) + 1) ≠ 0 := by push_cast; convert h2 using 1; ring
      rw [div_eq_iff h3]
      push_cast
      linear_combination -hb
    simp only [legendreLoop, this]
    have := ih (k + 1)
    rw [show k + 1 + 1 = k + 2 from rfl] at this
    rw [this]
    congr 2
    omega

/-- **C31** `legendre_pn(n, x)` is the value at `x` of the Legendre polynomial of Rodrigues' formula, for every `n` and `x`. -/
theorem C31_pn (n : Nat) (x : α) : legendrePn n x = (rodrigues α n).eval x := by
  unfold legendrePn
  split
  · next h => subst h; simp [rodrigues_zero]
  split
  · next h => subst h; simp [rodrigues_one]
  · next h0 h1 =>
    have := legendreLoop_eq x (n - 1) 0
    rw [show 0 + 1 + (n - 1) = n by omega, rodrigues_zero, show (0 + 1 : Nat) = 1 from rfl, rodrigues_one] at this
    simpa using this

/-- **C31** special values and parity of `legendre_pn` -/
theorem C31_pn_values (n : Nat) (x : α) :
    legendrePn n (1 : α) = 1 ∧ legendrePn n (-x) = (-1) ^ n * legendrePn n x := by
  simp only [C31_pn]
  exact ⟨rodrigues_eval_one n, rodrigues_eval_neg n x⟩

/-- `x` is not inside one of the neighbourhoods of the end points that the code replaces by the end point (the end points themselves
are allowed) -/
def LegRegular (x : α) : Prop := (|x - 1| < 1e-15 → x = 1) ∧ (|x + 1| < 1e-15 → x = -1)

theorem sq_sub_ne (x : α) (h1 : ¬|x - 1| < 1e-15) (h2 : ¬|x + 1| < 1e-15) : x * x - 1 ≠ 0 := by
  intro h
  have hp : (0 : α) < 1e-15 := by norm_num
  have : (x - 1) * (x + 1) = 0 := by linear_combination h
  rcases mul_eq_zero.1 this with h' | h'
  · rw [h'] at h1; simp only [abs_zero] at h1; exact h1 hp
  · rw [h'] at h2; simp only [abs_zero] at h2; exact h2 hp

/-- **C31** `legendre_pn_deriv1(n, x)` is the derivative of the Legendre polynomial at `x` -/
theorem C31_deriv1 (n : Nat) (x : α) (hx : LegRegular x) : legendrePnDeriv1 n x = (derivative (rodrigues α n)).eval x := by
  unfold legendrePnDeriv1
  split
  · next h => subst h; simp [rodrigues_zero]
  split
  · next h => rw [hx.1 h, rodrigues_deriv_one]
  split
  · next h =>
    rw [hx.2 h, rodrigues_deriv_eval_neg, rodrigues_deriv_one]
    rcases Nat.mod_two_eq_zero_or_one n with h2 | h2
    · rw [if_pos h2, (Nat.even_iff.2 h2).neg_one_pow, one_mul]
    · rw [if_neg (by omega), (Nat.odd_iff.2 h2).neg_one_pow]; ring
  · next h0 h1 h2 =>
    obtain ⟨m, rfl⟩ : ∃ m, n = m + 1 := ⟨n - 1, by omega⟩
    have hne := sq_sub_ne x h1 h2
    have e := congrArg (eval x) (rodrigues_deriv (F := α) m)
    simp at e
    simp only [C31_pn, Nat.add_sub_cancel]
    rw [div_eq_iff hne]
    push_cast
    linear_combination -e

/-- **C31** `legendre_pn_deriv2(n, x)` is the second derivative of the Legendre polynomial at `x` -/
theorem C31_deriv2 (n : Nat) (x : α) (hx : LegRegular x) :
    legendrePnDeriv2 n x = (derivative (derivative (rodrigues α n))).eval x := by
  unfold legendrePnDeriv2
  split
  · next h =>
    have : n = 0 ∨ n = 1 := by omega
    rcases this with rfl | rfl
    · simp [rodrigues_zero]
    · simp [rodrigues_one]
  split
  · next h => rw [hx.1 h, rodrigues_deriv2_one]
  split
  · next h =>
    rw [hx.2 h, rodrigues_deriv2_eval_neg, rodrigues_deriv2_one]
    rcases Nat.mod_two_eq_zero_or_one n with h2 | h2
    · rw [if_pos h2, (Nat.even_iff.2 h2).neg_one_pow, one_mul]
    · rw [if_neg (by omega), (Nat.odd_iff.2 h2).neg_one_pow]; ring
  · next h0 h1 h2 =>
    have hne := sq_sub_ne x h1 h2
    have hne' : 1 - x * x ≠ 0 := by intro h; apply hne; linear_combination -h
    have e := congrArg (eval x) (rodrigues_ode (F := α) n)
    simp at e
    simp only [C31_pn, C31_deriv1 n x hx]
    rw [div_eq_iff hne']
    linear_combination e

example : legendrePn 2 (3 : ℚ) = 13 ∧ legendrePnDeriv1 2 (3 : ℚ) = 9 ∧ legendrePnDeriv2 2 (3 : ℚ) = 3 := by
  refine ⟨by norm_num [legendrePn, legendreLoop], ?_, ?_⟩ <;>
    norm_num [legendrePn, legendreLoop, legendrePnDeriv1, legendrePnDeriv2, abs_of_pos]

/-- regular points exist: everything at distance 1/2 or more from the end points, and the end points -/
example : LegRegular (0 : ℚ) ∧ LegRegular (1 : ℚ) ∧ LegRegular (-1 : ℚ) := by
  refine ⟨⟨?_, ?_⟩, ⟨?_, ?_⟩, ⟨?_, ?_⟩⟩ <;> norm_num [abs_of_pos]

end Russell.Lab
