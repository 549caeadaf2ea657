import Verif.Lab.BrentRoot
import Verif.Lab.Small
import Mathlib.Data.List.GetD
import Mathlib.Algebra.Polynomial.Taylor
import Mathlib.Tactic.FieldSimp
import Mathlib.Tactic.Linarith
import Mathlib.Tactic.NormNum

/-!
# Finite-difference derivatives (property C81)

Models of the functions in /repo/russell_lab/src/check/deriv*.rs over an ordered field; exact arithmetic. `powf(v, 1/3)` is the
parameter `cbrt`.
-/

namespace Russell.Lab

open Russell Russell.Res

section model
variable {α : Type} [Field α] [LinearOrder α] {A : Type}

/-- the stepsize of all the formulas: 1e-3 (/repo/russell_lab/src/check/deriv1_central.rs:4, deriv1_forward.rs:4,
deriv1_backward.rs:4, deriv2_central.rs:4, deriv2_forward.rs:4, deriv2_backward.rs:4) -/
def fdStep : α := 1 / 10 ^ 3

/-- `deriv1_and_errors_central5` (/repo/russell_lab/src/check/deriv1_central.rs:36-58) -/
def deriv1AndErrorsCentral5 (x : α) (args : A) (h : α) (f : Callback α A) : Res ((α × α × α) × A) := do
  let (fm1, args) ← f (x - h) args
  let (fp1, args) ← f (x + h) args
  let (fmh, args) ← f (x - h / 2) args
  let (fph, args) ← f (x + h / 2) args
  let r3 := 1 / 2 * (fp1 - fm1)
  let r5 := 4 / 3 * (fph - fmh) - 1 / 3 * r3
  let dfdx := r5 / h
  let e3 := (|fp1| + |fm1|) * f64Eps
  let e5 := 2 * (|fph| + |fmh|) * f64Eps + e3
  let dy := max |r3 / h| |r5 / h| * (|x| / h) * f64Eps
  let absTruncErr := |(r5 - r3) / h|
  let absRoundErr := |e5 / h| + dy
  ok ((dfdx, absTruncErr, absRoundErr), args)

/-- `deriv1_central5` (/repo/russell_lab/src/check/deriv1_central.rs:110-146) -/
def deriv1Central5 (cbrt : α → α) (x : α) (args : A) (f : Callback α A) : Res (α × A) := do
  let h := fdStep
  let ((dfdx, terr, rerr), args) ← deriv1AndErrorsCentral5 x args h f
  let errTotal := terr + rerr
  if terr = 0 ∨ rerr = 0 then ok (dfdx, args)
  else if terr < rerr then ok (dfdx, args)
  else
    let hImprov := h * cbrt (rerr / (2 * terr))
    let ((dfdxImprov, errImprov, rerrImprov), args) ← deriv1AndErrorsCentral5 x args hImprov f
    if errImprov + rerrImprov > errTotal then ok (dfdx, args)
    else if |dfdxImprov - dfdx| > 4 * errTotal then ok (dfdx, args)
    else ok (dfdxImprov, args)

/-- `deriv1_forward7` (/repo/russell_lab/src/check/deriv1_forward.rs:6-37) -/
def deriv1Forward7 (x : α) (args : A) (f : Callback α A) : Res (α × A) := do
  let h := fdStep
  let (f0, args) ← f x args
  let (f1, args) ← f (x + h) args
  let (f2, args) ← f (x + 2 * h) args
  let (f3, args) ← f (x + 3 * h) args
  let (f4, args) ← f (x + 4 * h) args
  let (f5, args) ← f (x + 5 * h) args
  let (f6, args) ← f (x + 6 * h) args
  ok ((-49 / 20 * f0 + 6 * f1 + -15 / 2 * f2 + 20 / 3 * f3 + -15 / 4 * f4 + 6 / 5 * f5 + -1 / 6 * f6) / h, args)

/-- `deriv1_backward7` (/repo/russell_lab/src/check/deriv1_backward.rs:6-37) -/
def deriv1Backward7 (x : α) (args : A) (f : Callback α A) : Res (α × A) := do
  let h := fdStep
  let (f0, args) ← f x args
  let (f1, args) ← f (x - h) args
  let (f2, args) ← f (x - 2 * h) args
  let (f3, args) ← f (x - 3 * h) args
  let (f4, args) ← f (x - 4 * h) args
  let (f5, args) ← f (x - 5 * h) args
  let (f6, args) ← f (x - 6 * h) args
  ok ((49 / 20 * f0 + -6 * f1 + 15 / 2 * f2 + -20 / 3 * f3 + 15 / 4 * f4 + -6 / 5 * f5 + 1 / 6 * f6) / h, args)

/-- `deriv2_central9` (/repo/russell_lab/src/check/deriv2_central.rs:6-39) -/
def deriv2Central9 (x : α) (args : A) (f : Callback α A) : Res (α × A) := do
  let h := fdStep
  let hh := h * h
  let (fm4, args) ← f (x - 4 * h) args
  let (fm3, args) ← f (x - 3 * h) args
  let (fm2, args) ← f (x - 2 * h) args
  let (fm1, args) ← f (x - 1 * h) args
  let (fzz, args) ← f x args
  let (fp1, args) ← f (x + 1 * h) args
  let (fp2, args) ← f (x + 2 * h) args
  let (fp3, args) ← f (x + 3 * h) args
  let (fp4, args) ← f (x + 4 * h) args
  ok ((-1 / 560 * fm4 + 8 / 315 * fm3 + -1 / 5 * fm2 + 8 / 5 * fm1 + -205 / 72 * fzz + 8 / 5 * fp1 + -1 / 5 * fp2 +
    8 / 315 * fp3 + -1 / 560 * fp4) / hh, args)

/-- `deriv2_forward8` (/repo/russell_lab/src/check/deriv2_forward.rs:6-40) -/
def deriv2Forward8 (x : α) (args : A) (f : Callback α A) : Res (α × A) := do
  let h := fdStep
  let hh := h * h
  let (f0, args) ← f x args
  let (f1, args) ← f (x + h) args
  let (f2, args) ← f (x + 2 * h) args
  let (f3, args) ← f (x + 3 * h) args
  let (f4, args) ← f (x + 4 * h) args
  let (f5, args) ← f (x + 5 * h) args
  let (f6, args) ← f (x + 6 * h) args
  let (f7, args) ← f (x + 7 * h) args
  ok ((469 / 90 * f0 + -223 / 10 * f1 + 879 / 20 * f2 + -949 / 18 * f3 + 41 * f4 + -201 / 10 * f5 + 1019 / 180 * f6 +
    -7 / 10 * f7) / hh, args)

/-- `deriv2_backward8` (/repo/russell_lab/src/check/deriv2_backward.rs:6-40) -/
def deriv2Backward8 (x : α) (args : A) (f : Callback α A) : Res (α × A) := do
  let h := fdStep
  let hh := h * h
  let (f0, args) ← f x args
  let (f1, args) ← f (x - h) args
  let (f2, args) ← f (x - 2 * h) args
  let (f3, args) ← f (x - 3 * h) args
  let (f4, args) ← f (x - 4 * h) args
  let (f5, args) ← f (x - 5 * h) args
  let (f6, args) ← f (x - 6 * h) args
  let (f7, args) ← f (x - 7 * h) args
  ok ((469 / 90 * f0 + -223 / 10 * f1 + 879 / 20 * f2 + -949 / 18 * f3 + 41 * f4 + -201 / 10 * f5 + 1019 / 180 * f6 +
    -7 / 10 * f7) / hh, args)

/-- the closure that `num_jacobian` differentiates (/repo/russell_lab/src/algo/num_jacobian.rs:110-116); the state holds `extra.y`,
`extra.f` and the extra arguments of the function -/
def njClosure (function : List α → α → List α → A → Res (List α × A)) (x : α) (i j : Nat) :
    Callback α (List α × List α × A) := fun yj s => do
  let original ← vget s.1 j
  let y ← vset s.1 j yj
  let (f, args) ← function s.2.1 x y s.2.2
  let y ← vset y j original
  let v ← vget f i
  ok (v, (y, f, args))

/-- `num_jacobian` (/repo/russell_lab/src/algo/num_jacobian.rs:80-121); the matrix is square of dimension `ndim` -/
def numJacobianDense (cbrt : α → α) (ndim : Nat) (x : α) (y : List α) (alpha : α) (args : A)
    (function : List α → α → List α → A → Res (List α × A)) : Res (Arr2 α × A) := do
  let (jac, _, _, args) ← forRange 0 ndim ((fun _ _ => 0 : Arr2 α), y, List.replicate ndim (0 : α), args) fun i s =>
    forRange 0 ndim s fun j s => do
      let (res, extra) ← deriv1Central5 cbrt (← vget y j) s.2 (njClosure function x i j)
      ok (Arr2.put s.1 i j (res * alpha), extra)
  ok (jac, args)

/-- `deriv1_approx_eq`, `deriv1_approx_eq_fw`, `deriv1_approx_eq_bw`, `deriv2_approx_eq`, `deriv2_approx_eq_fw` and
`deriv2_approx_eq_bw` (/repo/russell_lab/src/check/deriv1_approx_eq.rs:20-47 and the others, lines 20-47) for the formula
`num`; NaN and infinities are outside of the model -/
def derivApproxEq (num : A → Callback α A → Res (α × A)) (d : α) (args : A) (tol : α) (f : Callback α A) : Res A := do
  let (dNum, args) ← (num args f).unwrap
  if |d - dNum| > tol then Res.panic else ok args

end model

section props
variable {α : Type} [Field α] [LinearOrder α] [IsStrictOrderedRing α] {A : Type}

/-- On the points of `D` the callback returns the value of `g`, and its extra arguments change by `upd`; outside of `D` it may
do anything. -/
def CallsTo (f : Callback α A) (g : α → α) (upd : α → A → A) (D : α → Prop) : Prop :=
  ∀ t, D t → ∀ a, f t a = ok (g t, upd t a)

/-- the extra arguments after calls at the given points in the given order -/
def after (upd : α → A → A) (a : A) (pts : List α) : A := pts.foldl (fun a t => upd t a) a

/-- `g` near `x` is a polynomial of degree below `N` with the coefficients `c`, up to a remainder `R` -/
def Expands (g : α → α) (x : α) (N : Nat) (c : Nat → α) (R : α → α) (D : α → Prop) : Prop :=
  ∀ u, D u → g (x + u) = ∑ i ∈ Finset.range N, c i * u ^ i + R u

omit [LinearOrder α] [IsStrictOrderedRing α] in
theorem expands_poly (q : Polynomial α) (x : α) {N : Nat} (hN : q.natDegree < N) :
    Expands (fun t => q.eval t) x N (fun i => (Polynomial.taylor x q).coeff i) (fun _ => 0) (fun _ => True) := by
  intro u _
  rw [add_zero, ← Polynomial.eval_eq_sum_range' (by rwa [Polynomial.natDegree_taylor]), Polynomial.taylor_eval, add_comm]

theorem fdStep_pos : (0 : α) < fdStep := by unfold fdStep; positivity

/-- the error bound from the values of the remainder -/
theorem bound_of {s h K M : α} {n : Nat} (hh : 0 < h) (hs : -(K * (M * h ^ (n + 1))) ≤ s ∧ s ≤ K * (M * h ^ (n + 1))) :
    |s / h| ≤ K * M * h ^ n := by
  rw [abs_div, abs_of_pos hh, div_le_iff₀ hh, show K * M * h ^ n * h = K * (M * h ^ (n + 1)) by ring]
  exact abs_le.2 hs

theorem bound_of2 {s h K M : α} {n : Nat} (hh : 0 < h) (hs : -(K * (M * h ^ (n + 2))) ≤ s ∧ s ≤ K * (M * h ^ (n + 2))) :
    |s / (h * h)| ≤ K * M * h ^ n := by
  rw [abs_div, abs_of_pos (mul_pos hh hh), div_le_iff₀ (mul_pos hh hh),
    show K * M * h ^ n * (h * h) = K * (M * h ^ (n + 2)) by ring]
  exact abs_le.2 hs

theorem rem_bound {R : α → α} {M h k : α} {n : Nat} (hk : 0 ≤ k * h) (h1 : |R (k * h)| ≤ M * |k * h| ^ n) :
    -(k ^ n * (M * h ^ n)) ≤ R (k * h) ∧ R (k * h) ≤ k ^ n * (M * h ^ n) := by
  rw [abs_of_nonneg hk, mul_pow, show M * (k ^ n * h ^ n) = k ^ n * (M * h ^ n) by ring] at h1
  exact abs_le.1 h1

theorem rem_bound_neg {R : α → α} {M h k : α} {n : Nat} (hk : 0 ≤ k * h) (h1 : |R (-(k * h))| ≤ M * |-(k * h)| ^ n) :
    -(k ^ n * (M * h ^ n)) ≤ R (-(k * h)) ∧ R (-(k * h)) ≤ k ^ n * (M * h ^ n) := by
  rw [abs_neg, abs_of_nonneg hk, mul_pow, show M * (k ^ n * h ^ n) = k ^ n * (M * h ^ n) by ring] at h1
  exact abs_le.1 h1

/-- C81: the forward formula evaluates the function at `x, x+h, …, x+6h` only (never to the left of `x`), in this order, and
its error is of order `h⁶`. -/
theorem C81_forward7 {f : Callback α A} {g : α → α} {upd : α → A → A} {x : α} (args : A)
    (hf : CallsTo f g upd (fun t => x ≤ t)) :
    ∃ d, deriv1Forward7 x args f = ok (d, after upd args ((List.range 7).map fun (i : Nat) => x + i * fdStep)) ∧
    ∀ (c : Nat → α) (R : α → α) (M : α), Expands g x 7 c R (fun u => 0 ≤ u ∧ u ≤ 6 * fdStep) →
      (∀ u, 0 ≤ u ∧ u ≤ 6 * fdStep → |R u| ≤ M * |u| ^ 7) → |d - c 1| ≤ 217392 * M * fdStep ^ 6 := by
  have hh : (0 : α) < fdStep := fdStep_pos
  unfold deriv1Forward7
  generalize (fdStep : α) = h at hh ⊢
  refine ⟨(-49 / 20 * g x + 6 * g (x + h) + -15 / 2 * g (x + 2 * h) + 20 / 3 * g (x + 3 * h) + -15 / 4 * g (x + 4 * h) + 6 / 5 * g (x + 5 * h) + -1 / 6 * g (x + 6 * h)) / h, ?_, ?_⟩
  · dsimp only
    rw [hf (x) (le_refl x), ok_bind]
    dsimp only
    rw [hf (x + h) (by linarith), ok_bind]
    dsimp only
    rw [hf (x + 2 * h) (by linarith), ok_bind]
    dsimp only
    rw [hf (x + 3 * h) (by linarith), ok_bind]
    dsimp only
    rw [hf (x + 4 * h) (by linarith), ok_bind]
    dsimp only
    rw [hf (x + 5 * h) (by linarith), ok_bind]
    dsimp only
    rw [hf (x + 6 * h) (by linarith), ok_bind]
    dsimp only
    simp [after, List.range, List.range.loop]
  · intro c R M he hR
    have e0 := he 0 ⟨by linarith, by linarith⟩
    have b0 : R 0 = 0 := abs_nonpos_iff.1 (by simpa using hR 0 ⟨by linarith, by linarith⟩)
    rw [add_zero] at e0
    have e1 := he (1 * h) ⟨by linarith, by linarith⟩
    have b1 := rem_bound (R := R) (M := M) (k := 1) (h := h) (n := 7) (by linarith) (hR (1 * h) ⟨by linarith, by linarith⟩)
    have e2 := he (2 * h) ⟨by linarith, by linarith⟩
    have b2 := rem_bound (R := R) (M := M) (k := 2) (h := h) (n := 7) (by linarith) (hR (2 * h) ⟨by linarith, by linarith⟩)
    have e3 := he (3 * h) ⟨by linarith, by linarith⟩
    have b3 := rem_bound (R := R) (M := M) (k := 3) (h := h) (n := 7) (by linarith) (hR (3 * h) ⟨by linarith, by linarith⟩)
    have e4 := he (4 * h) ⟨by linarith, by linarith⟩
    have b4 := rem_bound (R := R) (M := M) (k := 4) (h := h) (n := 7) (by linarith) (hR (4 * h) ⟨by linarith, by linarith⟩)
    have e5 := he (5 * h) ⟨by linarith, by linarith⟩
    have b5 := rem_bound (R := R) (M := M) (k := 5) (h := h) (n := 7) (by linarith) (hR (5 * h) ⟨by linarith, by linarith⟩)
    have e6 := he (6 * h) ⟨by linarith, by linarith⟩
    have b6 := rem_bound (R := R) (M := M) (k := 6) (h := h) (n := 7) (by linarith) (hR (6 * h) ⟨by linarith, by linarith⟩)
    rw [one_mul] at e1 b1
    rw [e0, e1, e2, e3, e4, e5, e6]
    clear e0 e1 e2 e3 e4 e5 e6 he hR
    generalize R 0 = R0, R h = R1, R (2 * h) = R2, R (3 * h) = R3, R (4 * h) = R4, R (5 * h) = R5, R (6 * h) = R6 at *
    subst b0
    have key : (-49 / 20 * (∑ i ∈ Finset.range 7, c i * 0 ^ i + 0) + 6 * (∑ i ∈ Finset.range 7, c i * h ^ i + R1) + -15 / 2 * (∑ i ∈ Finset.range 7, c i * (2 * h) ^ i + R2) + 20 / 3 * (∑ i ∈ Finset.range 7, c i * (3 * h) ^ i + R3) + -15 / 4 * (∑ i ∈ Finset.range 7, c i * (4 * h) ^ i + R4) + 6 / 5 * (∑ i ∈ Finset.range 7, c i * (5 * h) ^ i + R5) + -1 / 6 * (∑ i ∈ Finset.range 7, c i * (6 * h) ^ i + R6)) / h - c 1 = (6 * R1 + -15 / 2 * R2 + 20 / 3 * R3 + -15 / 4 * R4 + 6 / 5 * R5 + -1 / 6 * R6) / h := by
      simp only [Finset.sum_range_succ, Finset.sum_range_zero]
      field_simp
      ring
    rw [key]
    apply bound_of hh
    rw [show M * h ^ (6 + 1) = M * h ^ 7 from rfl]
    generalize M * h ^ 7 = B at *
    constructor <;> linarith

/-- C81: the backward formula evaluates the function at `x, x-h, …, x-6h` only (never to the right of `x`), in this order, and
its error is of order `h⁶`. -/
theorem C81_backward7 {f : Callback α A} {g : α → α} {upd : α → A → A} {x : α} (args : A)
    (hf : CallsTo f g upd (fun t => t ≤ x)) :
    ∃ d, deriv1Backward7 x args f = ok (d, after upd args ((List.range 7).map fun (i : Nat) => x - i * fdStep)) ∧
    ∀ (c : Nat → α) (R : α → α) (M : α), Expands g x 7 c R (fun u => -(6 * fdStep) ≤ u ∧ u ≤ 0) →
      (∀ u, -(6 * fdStep) ≤ u ∧ u ≤ 0 → |R u| ≤ M * |u| ^ 7) → |d - c 1| ≤ 217392 * M * fdStep ^ 6 := by
  have hh : (0 : α) < fdStep := fdStep_pos
  unfold deriv1Backward7
  generalize (fdStep : α) = h at hh ⊢
  refine ⟨(49 / 20 * g x + -6 * g (x - h) + 15 / 2 * g (x - 2 * h) + -20 / 3 * g (x - 3 * h) + 15 / 4 * g (x - 4 * h) + -6 / 5 * g (x - 5 * h) + 1 / 6 * g (x - 6 * h)) / h, ?_, ?_⟩
  · dsimp only
    rw [hf (x) (le_refl x), ok_bind]
    dsimp only
    rw [hf (x - h) (by linarith), ok_bind]
    dsimp only
    rw [hf (x - 2 * h) (by linarith), ok_bind]
    dsimp only
    rw [hf (x - 3 * h) (by linarith), ok_bind]
    dsimp only
    rw [hf (x - 4 * h) (by linarith), ok_bind]
    dsimp only
    rw [hf (x - 5 * h) (by linarith), ok_bind]
    dsimp only
    rw [hf (x - 6 * h) (by linarith), ok_bind]
    dsimp only
    simp [after, List.range, List.range.loop]
  · intro c R M he hR
    have e0 := he 0 ⟨by linarith, by linarith⟩
    have b0 : R 0 = 0 := abs_nonpos_iff.1 (by simpa using hR 0 ⟨by linarith, by linarith⟩)
    rw [add_zero] at e0
    have e1 := he (-(1 * h)) ⟨by linarith, by linarith⟩
    have b1 := rem_bound_neg (R := R) (M := M) (k := 1) (h := h) (n := 7) (by linarith) (hR (-(1 * h)) ⟨by linarith, by linarith⟩)
    rw [← sub_eq_add_neg] at e1
    have e2 := he (-(2 * h)) ⟨by linarith, by linarith⟩
    have b2 := rem_bound_neg (R := R) (M := M) (k := 2) (h := h) (n := 7) (by linarith) (hR (-(2 * h)) ⟨by linarith, by linarith⟩)
    rw [← sub_eq_add_neg] at e2
    have e3 := he (-(3 * h)) ⟨by linarith, by linarith⟩
    have b3 := rem_bound_neg (R := R) (M := M) (k := 3) (h := h) (n := 7) (by linarith) (hR (-(3 * h)) ⟨by linarith, by linarith⟩)
    rw [← sub_eq_add_neg] at e3
    have e4 := he (-(4 * h)) ⟨by linarith, by linarith⟩
    have b4 := rem_bound_neg (R := R) (M := M) (k := 4) (h := h) (n := 7) (by linarith) (hR (-(4 * h)) ⟨by linarith, by linarith⟩)
    rw [← sub_eq_add_neg] at e4
    have e5 := he (-(5 * h)) ⟨by linarith, by linarith⟩
    have b5 := rem_bound_neg (R := R) (M := M) (k := 5) (h := h) (n := 7) (by linarith) (hR (-(5 * h)) ⟨by linarith, by linarith⟩)
    rw [← sub_eq_add_neg] at e5
    have e6 := he (-(6 * h)) ⟨by linarith, by linarith⟩
    have b6 := rem_bound_neg (R := R) (M := M) (k := 6) (h := h) (n := 7) (by linarith) (hR (-(6 * h)) ⟨by linarith, by linarith⟩)
    rw [← sub_eq_add_neg] at e6
    rw [one_mul] at e1 b1
    rw [e0, e1, e2, e3, e4, e5, e6]
    clear e0 e1 e2 e3 e4 e5 e6 he hR
    generalize R 0 = R0, R (-h) = R1, R (-(2 * h)) = R2, R (-(3 * h)) = R3, R (-(4 * h)) = R4, R (-(5 * h)) = R5, R (-(6 * h)) = R6 at *
    subst b0
    have key : (49 / 20 * (∑ i ∈ Finset.range 7, c i * 0 ^ i + 0) + -6 * (∑ i ∈ Finset.range 7, c i * (-h) ^ i + R1) + 15 / 2 * (∑ i ∈ Finset.range 7, c i * (-(2 * h)) ^ i + R2) + -20 / 3 * (∑ i ∈ Finset.range 7, c i * (-(3 * h)) ^ i + R3) + 15 / 4 * (∑ i ∈ Finset.range 7, c i * (-(4 * h)) ^ i + R4) + -6 / 5 * (∑ i ∈ Finset.range 7, c i * (-(5 * h)) ^ i + R5) + 1 / 6 * (∑ i ∈ Finset.range 7, c i * (-(6 * h)) ^ i + R6)) / h - c 1 = (-6 * R1 + 15 / 2 * R2 + -20 / 3 * R3 + 15 / 4 * R4 + -6 / 5 * R5 + 1 / 6 * R6) / h := by
      simp only [Finset.sum_range_succ, Finset.sum_range_zero]
      field_simp
      ring
    rw [key]
    apply bound_of hh
    rw [show M * h ^ (6 + 1) = M * h ^ 7 from rfl]
    generalize M * h ^ 7 = B at *
    constructor <;> linarith

/-- C81: the forward formula for the second derivative evaluates the function at `x, x+h, …, x+7h` only, in this order, and its
error is of order `h⁶`. -/
theorem C81_second_forward8 {f : Callback α A} {g : α → α} {upd : α → A → A} {x : α} (args : A)
    (hf : CallsTo f g upd (fun t => x ≤ t)) :
    ∃ d, deriv2Forward8 x args f = ok (d, after upd args ((List.range 8).map fun (i : Nat) => x + i * fdStep)) ∧
    ∀ (c : Nat → α) (R : α → α) (M : α), Expands g x 8 c R (fun u => 0 ≤ u ∧ u ≤ 7 * fdStep) →
      (∀ u, 0 ≤ u ∧ u ≤ 7 * fdStep → |R u| ≤ M * |u| ^ 8) → |d - 2 * c 2| ≤ 24439576 * M * fdStep ^ 6 := by
  have hh : (0 : α) < fdStep := fdStep_pos
  unfold deriv2Forward8
  generalize (fdStep : α) = h at hh ⊢
  refine ⟨(469 / 90 * g x + -223 / 10 * g (x + h) + 879 / 20 * g (x + 2 * h) + -949 / 18 * g (x + 3 * h) + 41 * g (x + 4 * h) + -201 / 10 * g (x + 5 * h) + 1019 / 180 * g (x + 6 * h) + -7 / 10 * g (x + 7 * h)) / (h * h), ?_, ?_⟩
  · dsimp only
    rw [hf (x) (le_refl x), ok_bind]
    dsimp only
    rw [hf (x + h) (by linarith), ok_bind]
    dsimp only
    rw [hf (x + 2 * h) (by linarith), ok_bind]
    dsimp only
    rw [hf (x + 3 * h) (by linarith), ok_bind]
    dsimp only
    rw [hf (x + 4 * h) (by linarith), ok_bind]
    dsimp only
    rw [hf (x + 5 * h) (by linarith), ok_bind]
    dsimp only
    rw [hf (x + 6 * h) (by linarith), ok_bind]
    dsimp only
    rw [hf (x + 7 * h) (by linarith), ok_bind]
    dsimp only
    simp [after, List.range, List.range.loop]
  · intro c R M he hR
    have e0 := he 0 ⟨by linarith, by linarith⟩
    have b0 : R 0 = 0 := abs_nonpos_iff.1 (by simpa using hR 0 ⟨by linarith, by linarith⟩)
    rw [add_zero] at e0
    have e1 := he (1 * h) ⟨by linarith, by linarith⟩
    have b1 := rem_bound (R := R) (M := M) (k := 1) (h := h) (n := 8) (by linarith) (hR (1 * h) ⟨by linarith, by linarith⟩)
    have e2 := he (2 * h) ⟨by linarith, by linarith⟩
    have b2 := rem_bound (R := R) (M := M) (k := 2) (h := h) (n := 8) (by linarith) (hR (2 * h) ⟨by linarith, by linarith⟩)
    have e3 := he (3 * h) ⟨by linarith, by linarith⟩
    have b3 := rem_bound (R := R) (M := M) (k := 3) (h := h) (n := 8) (by linarith) (hR (3 * h) ⟨by linarith, by linarith⟩)
    have e4 := he (4 * h) ⟨by linarith, by linarith⟩
    have b4 := rem_bound (R := R) (M := M) (k := 4) (h := h) (n := 8) (by linarith) (hR (4 * h) ⟨by linarith, by linarith⟩)
    have e5 := he (5 * h) ⟨by linarith, by linarith⟩
    have b5 := rem_bound (R := R) (M := M) (k := 5) (h := h) (n := 8) (by linarith) (hR (5 * h) ⟨by linarith, by linarith⟩)
    have e6 := he (6 * h) ⟨by linarith, by linarith⟩
    have b6 := rem_bound (R := R) (M := M) (k := 6) (h := h) (n := 8) (by linarith) (hR (6 * h) ⟨by linarith, by linarith⟩)
    have e7 := he (7 * h) ⟨by linarith, by linarith⟩
    have b7 := rem_bound (R := R) (M := M) (k := 7) (h := h) (n := 8) (by linarith) (hR (7 * h) ⟨by linarith, by linarith⟩)
    rw [one_mul] at e1 b1
    rw [e0, e1, e2, e3, e4, e5, e6, e7]
    clear e0 e1 e2 e3 e4 e5 e6 e7 he hR
    generalize R 0 = R0, R h = R1, R (2 * h) = R2, R (3 * h) = R3, R (4 * h) = R4, R (5 * h) = R5, R (6 * h) = R6, R (7 * h) = R7 at *
    subst b0
    have key : (469 / 90 * (∑ i ∈ Finset.range 8, c i * 0 ^ i + 0) + -223 / 10 * (∑ i ∈ Finset.range 8, c i * h ^ i + R1) + 879 / 20 * (∑ i ∈ Finset.range 8, c i * (2 * h) ^ i + R2) + -949 / 18 * (∑ i ∈ Finset.range 8, c i * (3 * h) ^ i + R3) + 41 * (∑ i ∈ Finset.range 8, c i * (4 * h) ^ i + R4) + -201 / 10 * (∑ i ∈ Finset.range 8, c i * (5 * h) ^ i + R5) + 1019 / 180 * (∑ i ∈ Finset.range 8, c i * (6 * h) ^ i + R6) + -7 / 10 * (∑ i ∈ Finset.range 8, c i * (7 * h) ^ i + R7)) / (h * h) - 2 * c 2 = (-223 / 10 * R1 + 879 / 20 * R2 + -949 / 18 * R3 + 41 * R4 + -201 / 10 * R5 + 1019 / 180 * R6 + -7 / 10 * R7) / (h * h) := by
      simp only [Finset.sum_range_succ, Finset.sum_range_zero]
      field_simp
      ring
    rw [key]
    apply bound_of2 hh
    rw [show M * h ^ (6 + 2) = M * h ^ 8 from rfl]
    generalize M * h ^ 8 = B at *
    constructor <;> linarith

/-- C81: the backward formula for the second derivative evaluates the function at `x, x-h, …, x-7h` only, in this order, and its
error is of order `h⁶`. -/
theorem C81_second_backward8 {f : Callback α A} {g : α → α} {upd : α → A → A} {x : α} (args : A)
    (hf : CallsTo f g upd (fun t => t ≤ x)) :
    ∃ d, deriv2Backward8 x args f = ok (d, after upd args ((List.range 8).map fun (i : Nat) => x - i * fdStep)) ∧
    ∀ (c : Nat → α) (R : α → α) (M : α), Expands g x 8 c R (fun u => -(7 * fdStep) ≤ u ∧ u ≤ 0) →
      (∀ u, -(7 * fdStep) ≤ u ∧ u ≤ 0 → |R u| ≤ M * |u| ^ 8) → |d - 2 * c 2| ≤ 24439576 * M * fdStep ^ 6 := by
  have hh : (0 : α) < fdStep := fdStep_pos
  unfold deriv2Backward8
  generalize (fdStep : α) = h at hh ⊢
  refine ⟨(469 / 90 * g x + -223 / 10 * g (x - h) + 879 / 20 * g (x - 2 * h) + -949 / 18 * g (x - 3 * h) + 41 * g (x - 4 * h) + -201 / 10 * g (x - 5 * h) + 1019 / 180 * g (x - 6 * h) + -7 / 10 * g (x - 7 * h)) / (h * h), ?_, ?_⟩
  · dsimp only
    rw [hf (x) (le_refl x), ok_bind]
    dsimp only
    rw [hf (x - h) (by linarith), ok_bind]
    dsimp only
    rw [hf (x - 2 * h) (by linarith), ok_bind]
    dsimp only
    rw [hf (x - 3 * h) (by linarith), ok_bind]
    dsimp only
    rw [hf (x - 4 * h) (by linarith), ok_bind]
    dsimp only
    rw [hf (x - 5 * h) (by linarith), ok_bind]
    dsimp only
    rw [hf (x - 6 * h) (by linarith), ok_bind]
    dsimp only
    rw [hf (x - 7 * h) (by linarith), ok_bind]
    dsimp only
    simp [after, List.range, List.range.loop]
  · intro c R M he hR
    have e0 := he 0 ⟨by linarith, by linarith⟩
    have b0 : R 0 = 0 := abs_nonpos_iff.1 (by simpa using hR 0 ⟨by linarith, by linarith⟩)
    rw [add_zero] at e0
    have e1 := he (-(1 * h)) ⟨by linarith, by linarith⟩
    have b1 := rem_bound_neg (R := R) (M := M) (k := 1) (h := h) (n := 8) (by linarith) (hR (-(1 * h)) ⟨by linarith, by linarith⟩)
    rw [← sub_eq_add_neg] at e1
    have e2 := he (-(2 * h)) ⟨by linarith, by linarith⟩
    have b2 := rem_bound_neg (R := R) (M := M) (k := 2) (h := h) (n := 8) (by linarith) (hR (-(2 * h)) ⟨by linarith, by linarith⟩)
    rw [← sub_eq_add_neg] at e2
    have e3 := he (-(3 * h)) ⟨by linarith, by linarith⟩
    have b3 := rem_bound_neg (R := R) (M := M) (k := 3) (h := h) (n := 8) (by linarith) (hR (-(3 * h)) ⟨by linarith, by linarith⟩)
    rw [← sub_eq_add_neg] at e3
    have e4 := he (-(4 * h)) ⟨by linarith, by linarith⟩
    have b4 := rem_bound_neg (R := R) (M := M) (k := 4) (h := h) (n := 8) (by linarith) (hR (-(4 * h)) ⟨by linarith, by linarith⟩)
    rw [← sub_eq_add_neg] at e4
    have e5 := he (-(5 * h)) ⟨by linarith, by linarith⟩
    have b5 := rem_bound_neg (R := R) (M := M) (k := 5) (h := h) (n := 8) (by linarith) (hR (-(5 * h)) ⟨by linarith, by linarith⟩)
    rw [← sub_eq_add_neg] at e5
    have e6 := he (-(6 * h)) ⟨by linarith, by linarith⟩
    have b6 := rem_bound_neg (R := R) (M := M) (k := 6) (h := h) (n := 8) (by linarith) (hR (-(6 * h)) ⟨by linarith, by linarith⟩)
    rw [← sub_eq_add_neg] at e6
    have e7 := he (-(7 * h)) ⟨by linarith, by linarith⟩
    have b7 := rem_bound_neg (R := R) (M := M) (k := 7) (h := h) (n := 8) (by linarith) (hR (-(7 * h)) ⟨by linarith, by linarith⟩)
    rw [← sub_eq_add_neg] at e7
    rw [one_mul] at e1 b1
    rw [e0, e1, e2, e3, e4, e5, e6, e7]
    clear e0 e1 e2 e3 e4 e5 e6 e7 he hR
    generalize R 0 = R0, R (-h) = R1, R (-(2 * h)) = R2, R (-(3 * h)) = R3, R (-(4 * h)) = R4, R (-(5 * h)) = R5, R (-(6 * h)) = R6, R (-(7 * h)) = R7 at *
    subst b0
    have key : (469 / 90 * (∑ i ∈ Finset.range 8, c i * 0 ^ i + 0) + -223 / 10 * (∑ i ∈ Finset.range 8, c i * (-h) ^ i + R1) + 879 / 20 * (∑ i ∈ Finset.range 8, c i * (-(2 * h)) ^ i + R2) + -949 / 18 * (∑ i ∈ Finset.range 8, c i * (-(3 * h)) ^ i + R3) + 41 * (∑ i ∈ Finset.range 8, c i * (-(4 * h)) ^ i + R4) + -201 / 10 * (∑ i ∈ Finset.range 8, c i * (-(5 * h)) ^ i + R5) + 1019 / 180 * (∑ i ∈ Finset.range 8, c i * (-(6 * h)) ^ i + R6) + -7 / 10 * (∑ i ∈ Finset.range 8, c i * (-(7 * h)) ^ i + R7)) / (h * h) - 2 * c 2 = (-223 / 10 * R1 + 879 / 20 * R2 + -949 / 18 * R3 + 41 * R4 + -201 / 10 * R5 + 1019 / 180 * R6 + -7 / 10 * R7) / (h * h) := by
      simp only [Finset.sum_range_succ, Finset.sum_range_zero]
      field_simp
      ring
    rw [key]
    apply bound_of2 hh
    rw [show M * h ^ (6 + 2) = M * h ^ 8 from rfl]
    generalize M * h ^ 8 = B at *
    constructor <;> linarith

/-- C81: the central formula for the second derivative evaluates the function at `x-4h, …, x+4h` only, in this order, and its
error is of order `h⁸`. -/
theorem C81_second_central9 {f : Callback α A} {g : α → α} {upd : α → A → A} {x : α} (args : A)
    (hf : CallsTo f g upd (fun t => x - 4 * fdStep ≤ t ∧ t ≤ x + 4 * fdStep)) :
    ∃ d, deriv2Central9 x args f = ok (d, after upd args [x - 4 * fdStep, x - 3 * fdStep, x - 2 * fdStep, x - 1 * fdStep, x, x + 1 * fdStep, x + 2 * fdStep,
      x + 3 * fdStep, x + 4 * fdStep]) ∧
    ∀ (c : Nat → α) (R : α → α) (M : α), Expands g x 10 c R (fun u => -(4 * fdStep) ≤ u ∧ u ≤ 4 * fdStep) →
      (∀ u, -(4 * fdStep) ≤ u ∧ u ≤ 4 * fdStep → |R u| ≤ M * |u| ^ 10) → |d - 2 * c 2| ≤ 250496 / 35 * M * fdStep ^ 8 := by
  have hh : (0 : α) < fdStep := fdStep_pos
  unfold deriv2Central9
  generalize (fdStep : α) = h at hf hh ⊢
  refine ⟨(-1 / 560 * g (x - 4 * h) + 8 / 315 * g (x - 3 * h) + -1 / 5 * g (x - 2 * h) + 8 / 5 * g (x - 1 * h) + -205 / 72 * g x + 8 / 5 * g (x + 1 * h) + -1 / 5 * g (x + 2 * h) + 8 / 315 * g (x + 3 * h) + -1 / 560 * g (x + 4 * h)) / (h * h), ?_, ?_⟩
  · dsimp only
    rw [hf (x - 4 * h) (by constructor <;> linarith), ok_bind]
    dsimp only
    rw [hf (x - 3 * h) (by constructor <;> linarith), ok_bind]
    dsimp only
    rw [hf (x - 2 * h) (by constructor <;> linarith), ok_bind]
    dsimp only
    rw [hf (x - 1 * h) (by constructor <;> linarith), ok_bind]
    dsimp only
    rw [hf (x) (by constructor <;> linarith), ok_bind]
    dsimp only
    rw [hf (x + 1 * h) (by constructor <;> linarith), ok_bind]
    dsimp only
    rw [hf (x + 2 * h) (by constructor <;> linarith), ok_bind]
    dsimp only
    rw [hf (x + 3 * h) (by constructor <;> linarith), ok_bind]
    dsimp only
    rw [hf (x + 4 * h) (by constructor <;> linarith), ok_bind]
    dsimp only
    simp only [after, List.foldl_cons, List.foldl_nil]
  · intro c R M he hR
    have e0 := he (-(4 * h)) ⟨by linarith, by linarith⟩
    have b0 := rem_bound_neg (R := R) (M := M) (k := 4) (h := h) (n := 10) (by linarith) (hR (-(4 * h)) ⟨by linarith, by linarith⟩)
    rw [← sub_eq_add_neg] at e0
    have e1 := he (-(3 * h)) ⟨by linarith, by linarith⟩
    have b1 := rem_bound_neg (R := R) (M := M) (k := 3) (h := h) (n := 10) (by linarith) (hR (-(3 * h)) ⟨by linarith, by linarith⟩)
    rw [← sub_eq_add_neg] at e1
    have e2 := he (-(2 * h)) ⟨by linarith, by linarith⟩
    have b2 := rem_bound_neg (R := R) (M := M) (k := 2) (h := h) (n := 10) (by linarith) (hR (-(2 * h)) ⟨by linarith, by linarith⟩)
    rw [← sub_eq_add_neg] at e2
    have e3 := he (-(1 * h)) ⟨by linarith, by linarith⟩
    have b3 := rem_bound_neg (R := R) (M := M) (k := 1) (h := h) (n := 10) (by linarith) (hR (-(1 * h)) ⟨by linarith, by linarith⟩)
    rw [← sub_eq_add_neg] at e3
    have e4 := he 0 ⟨by linarith, by linarith⟩
    have b4 : R 0 = 0 := abs_nonpos_iff.1 (by simpa using hR 0 ⟨by linarith, by linarith⟩)
    rw [add_zero] at e4
    have e5 := he (1 * h) ⟨by linarith, by linarith⟩
    have b5 := rem_bound (R := R) (M := M) (k := 1) (h := h) (n := 10) (by linarith) (hR (1 * h) ⟨by linarith, by linarith⟩)
    have e6 := he (2 * h) ⟨by linarith, by linarith⟩
    have b6 := rem_bound (R := R) (M := M) (k := 2) (h := h) (n := 10) (by linarith) (hR (2 * h) ⟨by linarith, by linarith⟩)
    have e7 := he (3 * h) ⟨by linarith, by linarith⟩
    have b7 := rem_bound (R := R) (M := M) (k := 3) (h := h) (n := 10) (by linarith) (hR (3 * h) ⟨by linarith, by linarith⟩)
    have e8 := he (4 * h) ⟨by linarith, by linarith⟩
    have b8 := rem_bound (R := R) (M := M) (k := 4) (h := h) (n := 10) (by linarith) (hR (4 * h) ⟨by linarith, by linarith⟩)
    rw [e0, e1, e2, e3, e4, e5, e6, e7, e8]
    clear e0 e1 e2 e3 e4 e5 e6 e7 e8 he hR
    generalize R (-(4 * h)) = R0, R (-(3 * h)) = R1, R (-(2 * h)) = R2, R (-(1 * h)) = R3, R 0 = R4, R (1 * h) = R5, R (2 * h) = R6, R (3 * h) = R7, R (4 * h) = R8 at *
    subst b4
    have key : (-1 / 560 * (∑ i ∈ Finset.range 10, c i * (-(4 * h)) ^ i + R0) + 8 / 315 * (∑ i ∈ Finset.range 10, c i * (-(3 * h)) ^ i + R1) + -1 / 5 * (∑ i ∈ Finset.range 10, c i * (-(2 * h)) ^ i + R2) + 8 / 5 * (∑ i ∈ Finset.range 10, c i * (-(1 * h)) ^ i + R3) + -205 / 72 * (∑ i ∈ Finset.range 10, c i * 0 ^ i + 0) + 8 / 5 * (∑ i ∈ Finset.range 10, c i * (1 * h) ^ i + R5) + -1 / 5 * (∑ i ∈ Finset.range 10, c i * (2 * h) ^ i + R6) + 8 / 315 * (∑ i ∈ Finset.range 10, c i * (3 * h) ^ i + R7) + -1 / 560 * (∑ i ∈ Finset.range 10, c i * (4 * h) ^ i + R8)) / (h * h) - 2 * c 2 = (-1 / 560 * R0 + 8 / 315 * R1 + -1 / 5 * R2 + 8 / 5 * R3 + 8 / 5 * R5 + -1 / 5 * R6 + 8 / 315 * R7 + -1 / 560 * R8) / (h * h) := by
      simp only [Finset.sum_range_succ, Finset.sum_range_zero]
      field_simp
      ring
    rw [key]
    apply bound_of2 hh
    rw [show M * h ^ (8 + 2) = M * h ^ 10 from rfl]
    generalize M * h ^ 10 = B at *
    constructor <;> linarith

/-- C81: the three one-sided or central formulas are exact for polynomials: degree 6 for the first derivative, 7 for the
one-sided second derivative, 9 for the central second derivative. -/
theorem C81_exact {f : Callback α A} {upd : α → A → A} (q : Polynomial α) (x : α) (args : A)
    (hf : CallsTo f (fun t => q.eval t) upd (fun _ => True)) :
    (q.natDegree ≤ 6 → (∃ a, deriv1Forward7 x args f = ok (q.derivative.eval x, a)) ∧
      ∃ a, deriv1Backward7 x args f = ok (q.derivative.eval x, a)) ∧
    (q.natDegree ≤ 7 → (∃ a, deriv2Forward8 x args f = ok (q.derivative.derivative.eval x, a)) ∧
      ∃ a, deriv2Backward8 x args f = ok (q.derivative.derivative.eval x, a)) ∧
    (q.natDegree ≤ 9 → ∃ a, deriv2Central9 x args f = ok (q.derivative.derivative.eval x, a)) := by
  have hf' : ∀ D : α → Prop, CallsTo f (fun t => q.eval t) upd D := fun D t _ => hf t trivial
  have hc2 : 2 * (Polynomial.taylor x q).coeff 2 = q.derivative.derivative.eval x := by
    rw [Polynomial.taylor_coeff]
    have := congrArg (fun r => Polynomial.eval x (r q)) (Polynomial.factorial_smul_hasseDeriv (R := α) 2)
    simpa [Nat.factorial, nsmul_eq_mul] using this
  have hz : ∀ (n : Nat) (D : α → Prop), ∀ u, D u → |(fun _ : α => (0 : α)) u| ≤ 0 * |u| ^ n := by
    intro n D u _; simp
  have fin : ∀ {d c K : α} {n : Nat}, |d - c| ≤ K * 0 * fdStep ^ n → d = c := by
    intro d c K n h
    rw [mul_zero, zero_mul] at h
    exact sub_eq_zero.1 (abs_nonpos_iff.1 h)
  refine ⟨fun hq => ⟨?_, ?_⟩, fun hq => ⟨?_, ?_⟩, fun hq => ?_⟩
  · obtain ⟨d, h1, h2⟩ := C81_forward7 args (hf' fun t => x ≤ t)
    refine ⟨_, by rw [h1, fin (h2 _ _ 0 (fun u _ => expands_poly q x (by omega) u trivial) (hz 7 _)), Polynomial.taylor_coeff_one]⟩
  · obtain ⟨d, h1, h2⟩ := C81_backward7 args (hf' fun t => t ≤ x)
    refine ⟨_, by rw [h1, fin (h2 _ _ 0 (fun u _ => expands_poly q x (by omega) u trivial) (hz 7 _)), Polynomial.taylor_coeff_one]⟩
  · obtain ⟨d, h1, h2⟩ := C81_second_forward8 args (hf' fun t => x ≤ t)
    refine ⟨_, by rw [h1, fin (h2 _ _ 0 (fun u _ => expands_poly q x (by omega) u trivial) (hz 8 _)), hc2]⟩
  · obtain ⟨d, h1, h2⟩ := C81_second_backward8 args (hf' fun t => t ≤ x)
    refine ⟨_, by rw [h1, fin (h2 _ _ 0 (fun u _ => expands_poly q x (by omega) u trivial) (hz 8 _)), hc2]⟩
  · obtain ⟨d, h1, h2⟩ := C81_second_central9 args (hf' fun t => x - 4 * fdStep ≤ t ∧ t ≤ x + 4 * fdStep)
    refine ⟨_, by rw [h1, fin (h2 _ _ 0 (fun u _ => expands_poly q x (by omega) u trivial) (hz 10 _)), hc2]⟩

/-- On the points of `D` and from the states of `I`, the callback returns the value of `g` and changes the state by `upd`. -/
def CallsOn (f : Callback α A) (g : α → α) (upd : α → A → A) (D : α → Prop) (I : A → Prop) : Prop :=
  ∀ t, D t → ∀ a, I a → f t a = ok (g t, upd t a) ∧ I (upd t a)

/-- the central formula with five points for the step `h` -/
theorem central5_spec {f : Callback α A} {g : α → α} {upd : α → A → A} {I : A → Prop} {x : α} {args : A} {h : α} (hh : 0 < h)
    (hf : CallsOn f g upd (fun t => |t - x| ≤ h) I) (hi : I args) :
    ∃ d e re, deriv1AndErrorsCentral5 x args h f = ok ((d, e, re), after upd args [x - h, x + h, x - h / 2, x + h / 2]) ∧
      I (after upd args [x - h, x + h, x - h / 2, x + h / 2]) ∧ 0 ≤ e ∧ 0 ≤ re ∧
      ∀ (c : Nat → α) (R : α → α) (M : α), Expands g x 5 c R (fun u => |u| ≤ h) →
        (∀ u, |u| ≤ h → |R u| ≤ M * |u| ^ 5) → |d - c 1| ≤ 5 / 12 * M * h ^ 4 := by
  have hh2 : h / 2 ≤ h := by linarith
  have d1 : |x - h - x| ≤ h := by rw [show x - h - x = -h by ring, abs_neg, abs_of_pos hh]
  have d2 : |x + h - x| ≤ h := by rw [show x + h - x = h by ring, abs_of_pos hh]
  have d3 : |x - h / 2 - x| ≤ h := by rw [show x - h / 2 - x = -(h / 2) by ring, abs_neg, abs_of_pos (by linarith)]; exact hh2
  have d4 : |x + h / 2 - x| ≤ h := by rw [show x + h / 2 - x = h / 2 by ring, abs_of_pos (by linarith)]; exact hh2
  have i1 := hf _ d1 _ hi
  have i2 := hf _ d2 _ i1.2
  have i3 := hf _ d3 _ i2.2
  have i4 := hf _ d4 _ i3.2
  unfold deriv1AndErrorsCentral5
  refine ⟨(4 / 3 * (g (x + h / 2) - g (x - h / 2)) - 1 / 3 * (1 / 2 * (g (x + h) - g (x - h)))) / h, _, _,
    by rw [i1.1, ok_bind]; dsimp only; rw [i2.1, ok_bind]; dsimp only; rw [i3.1, ok_bind]; dsimp only
       rw [i4.1, ok_bind]; rfl, i4.2, abs_nonneg _, ?_, ?_⟩
  · have he : (0 : α) ≤ f64Eps := by unfold f64Eps; positivity
    have : 0 ≤ |x| / h := div_nonneg (abs_nonneg _) hh.le
    exact add_nonneg (abs_nonneg _) (mul_nonneg (mul_nonneg (le_max_of_le_left (abs_nonneg _)) this) he)
  · intro c R M he hR
    have e1 := he (-h) (by dsimp only; rw [abs_neg, abs_of_pos hh])
    have e2 := he h (by dsimp only; rw [abs_of_pos hh])
    have e3 := he (-(h / 2)) (by dsimp only; rw [abs_neg, abs_of_pos (by linarith)]; exact hh2)
    have e4 := he (h / 2) (by dsimp only; rw [abs_of_pos (by linarith)]; exact hh2)
    have b1 := hR (-h) (by rw [abs_neg, abs_of_pos hh])
    have b2 := hR h (by rw [abs_of_pos hh])
    have b3 := hR (-(h / 2)) (by rw [abs_neg, abs_of_pos (by linarith)]; exact hh2)
    have b4 := hR (h / 2) (by rw [abs_of_pos (by linarith)]; exact hh2)
    rw [abs_neg (h), abs_of_pos hh] at b1
    rw [abs_of_pos hh] at b2
    rw [abs_neg (h / 2), abs_of_pos (by linarith : 0 < h / 2), div_pow] at b3
    rw [abs_of_pos (by linarith : 0 < h / 2), div_pow] at b4
    rw [← sub_eq_add_neg] at e1 e3
    rw [e1, e2, e3, e4]
    generalize R (-h) = R1, R h = R2, R (-(h / 2)) = R3, R (h / 2) = R4 at *
    have key : (4 / 3 * (∑ i ∈ Finset.range 5, c i * (h / 2) ^ i + R4 - (∑ i ∈ Finset.range 5, c i * (-(h / 2)) ^ i + R3)) -
        1 / 3 * (1 / 2 * (∑ i ∈ Finset.range 5, c i * h ^ i + R2 - (∑ i ∈ Finset.range 5, c i * (-h) ^ i + R1)))) / h - c 1 =
        (4 / 3 * (R4 - R3) - 1 / 6 * (R2 - R1)) / h := by
      simp only [Finset.sum_range_succ, Finset.sum_range_zero]
      field_simp
      ring
    rw [key]
    apply bound_of hh
    rw [show M * (h ^ 5 / 2 ^ 5) = 1 / 32 * (M * h ^ 5) by ring] at b3 b4
    rw [show M * h ^ (4 + 1) = M * h ^ 5 from rfl]
    rw [abs_le] at b1 b2 b3 b4
    generalize M * h ^ 5 = B at *
    constructor <;> linarith

/-- the properties of the cube root that are used -/
def CbrtOk (cbrt : α → α) : Prop := ∀ v, 0 < v → v ≤ 1 → 0 < cbrt v ∧ cbrt v ≤ 1

/-- C81: `deriv1_central5` evaluates the function four or eight times, at points at most `h` away from `x` on both sides, and
its error is of order `h⁴`, whether or not the improved step is used. -/
theorem C81_central5 {cbrt : α → α} (hcb : CbrtOk cbrt) {f : Callback α A} {g : α → α} {upd : α → A → A} {I : A → Prop} {x : α}
    {args : A} (hf : CallsOn f g upd (fun t => |t - x| ≤ fdStep) I) (hi : I args) :
    ∃ d pts, deriv1Central5 cbrt x args f = ok (d, after upd args pts) ∧ I (after upd args pts) ∧
      (pts.length = 4 ∨ pts.length = 8) ∧ (∀ t ∈ pts, |t - x| ≤ fdStep) ∧
      ∀ (c : Nat → α) (R : α → α) (M : α), Expands g x 5 c R (fun u => |u| ≤ fdStep) →
        (∀ u, |u| ≤ fdStep → |R u| ≤ M * |u| ^ 5) → |d - c 1| ≤ 5 / 12 * M * fdStep ^ 4 := by
  have hh : (0 : α) < fdStep := fdStep_pos
  have hpts : ∀ k : α, 0 < k → k ≤ fdStep → ∀ t ∈ [x - k, x + k, x - k / 2, x + k / 2], |t - x| ≤ fdStep := by
    intro k hk hk2 t ht
    simp only [List.mem_cons, List.not_mem_nil, or_false] at ht
    rcases ht with rfl | rfl | rfl | rfl
    · rw [show x - k - x = -k by ring, abs_neg, abs_of_pos hk]; exact hk2
    · rw [show x + k - x = k by ring, abs_of_pos hk]; exact hk2
    · rw [show x - k / 2 - x = -(k / 2) by ring, abs_neg, abs_of_pos (by linarith)]; linarith
    · rw [show x + k / 2 - x = k / 2 by ring, abs_of_pos (by linarith)]; linarith
  obtain ⟨d, e, re, h1, h2, h3, h4, h5⟩ := central5_spec hh hf hi
  unfold deriv1Central5
  dsimp only
  rw [h1, ok_bind]
  dsimp only
  by_cases hz : e = 0 ∨ re = 0
  · rw [if_pos hz]
    exact ⟨d, _, rfl, h2, Or.inl rfl, hpts _ hh le_rfl, h5⟩
  rw [if_neg hz]
  by_cases hl : e < re
  · rw [if_pos hl]
    exact ⟨d, _, rfl, h2, Or.inl rfl, hpts _ hh le_rfl, h5⟩
  rw [if_neg hl]
  push Not at hz hl
  have he : 0 < e := lt_of_le_of_ne h3 (Ne.symm hz.1)
  have hre : 0 < re := lt_of_le_of_ne h4 (Ne.symm hz.2)
  obtain ⟨c1, c2⟩ := hcb (re / (2 * e)) (by positivity) (by rw [div_le_one (by positivity)]; linarith)
  generalize hk : (fdStep : α) * cbrt (re / (2 * e)) = k
  have hk0 : 0 < k := by rw [← hk]; positivity
  have hk1 : k ≤ fdStep := by rw [← hk]; nlinarith
  obtain ⟨d', e', re', g1, g2, g3, g4, g5⟩ := central5_spec hk0
    (fun t ht => hf t (le_trans ht hk1)) h2
  rw [g1, ok_bind]
  dsimp only
  have happ : after upd (after upd args [x - fdStep, x + fdStep, x - fdStep / 2, x + fdStep / 2])
      [x - k, x + k, x - k / 2, x + k / 2] =
      after upd args ([x - fdStep, x + fdStep, x - fdStep / 2, x + fdStep / 2] ++ [x - k, x + k, x - k / 2, x + k / 2]) := rfl
  rw [happ] at g2 ⊢
  have hmem : ∀ t ∈ [x - fdStep, x + fdStep, x - fdStep / 2, x + fdStep / 2] ++ [x - k, x + k, x - k / 2, x + k / 2],
      |t - x| ≤ fdStep := by
    intro t ht
    rcases List.mem_append.1 ht with ht | ht
    · exact hpts _ hh le_rfl t ht
    · exact hpts _ hk0 hk1 t ht
  split_ifs with q1 q2
  · exact ⟨d, _, rfl, g2, Or.inr rfl, hmem, h5⟩
  · exact ⟨d, _, rfl, g2, Or.inr rfl, hmem, h5⟩
  · refine ⟨d', _, rfl, g2, Or.inr rfl, hmem, ?_⟩
    intro c R M hex hR
    refine le_trans (g5 c R M (fun u hu => hex u (le_trans hu hk1)) (fun u hu => hR u (le_trans hu hk1))) ?_
    have hM : 0 ≤ M := by
      have := hR fdStep (by rw [abs_of_pos hh])
      rw [abs_of_pos hh] at this
      have h0 : 0 ≤ M * fdStep ^ 5 := le_trans (abs_nonneg _) this
      exact nonneg_of_mul_nonneg_left h0 (by positivity)
    have hk4 : k ^ 4 ≤ fdStep ^ 4 := pow_le_pow_left₀ hk0.le hk1 4
    have : 0 ≤ 5 / 12 * M := by positivity
    nlinarith

/-- C81: `deriv1_central5` is exact for polynomials of degree 4. -/
theorem C81_central5_exact {cbrt : α → α} (hcb : CbrtOk cbrt) {f : Callback α A} {upd : α → A → A} (q : Polynomial α)
    (hq : q.natDegree ≤ 4) (x : α) (args : A) (hf : CallsTo f (fun t => q.eval t) upd (fun t => |t - x| ≤ fdStep)) :
    ∃ a, deriv1Central5 cbrt x args f = ok (q.derivative.eval x, a) := by
  obtain ⟨d, pts, h1, -, -, -, h2⟩ := C81_central5 (I := fun _ => True) hcb (fun t ht a _ => ⟨hf t ht a, trivial⟩)
    (args := args) trivial
  have := h2 _ _ 0 (fun u _ => expands_poly q x (N := 5) (by omega) u trivial) (fun u _ => by simp)
  rw [mul_zero, zero_mul] at this
  refine ⟨_, by rw [h1, sub_eq_zero.1 (abs_nonpos_iff.1 this), Polynomial.taylor_coeff_one]⟩

/-- the central difference quotient -/
def centralQuotient (g : α → α) (x h : α) : α := (g (x + h) - g (x - h)) / (2 * h)

/-- Richardson's extrapolation of the central difference quotients for `h` and `h / 2` -/
def richardson (g : α → α) (x h : α) : α := (4 * centralQuotient g x (h / 2) - centralQuotient g x h) / 3

/-- the estimated truncation error -/
def truncation (g : α → α) (x h : α) : α := |richardson g x h - centralQuotient g x h|

/-- the estimated rounding error for functions with the relative error `f64Eps` -/
def rounding (g : α → α) (x h : α) : α :=
  ((|g (x + h)| + |g (x - h)| + 2 * (|g (x + h / 2)| + |g (x - h / 2)|)) +
    max |centralQuotient g x h| |richardson g x h| * |x|) / h * f64Eps

/-- C81: the errors estimated by the central formula are the difference of the extrapolated and of the plain quotient, and the
rounding errors of the function and of the argument divided by the step. -/
theorem C81_central5_estimates {f : Callback α A} {g : α → α} (hf : ∀ t a, ∃ a', f t a = ok (g t, a')) {x h : α} (hh : 0 < h) (args : A) :
    ∃ a', deriv1AndErrorsCentral5 x args h f = ok ((richardson g x h, truncation g x h, rounding g x h), a') := by
  obtain ⟨a1, e1⟩ := hf (x - h) args
  obtain ⟨a2, e2⟩ := hf (x + h) a1
  obtain ⟨a3, e3⟩ := hf (x - h / 2) a2
  obtain ⟨a4, e4⟩ := hf (x + h / 2) a3
  have hE : (0 : α) ≤ f64Eps := by unfold f64Eps; positivity
  have q : 1 / 2 * (g (x + h) - g (x - h)) / h = centralQuotient g x h := by unfold centralQuotient; field_simp
  have r : (4 / 3 * (g (x + h / 2) - g (x - h / 2)) - 1 / 3 * (1 / 2 * (g (x + h) - g (x - h)))) / h = richardson g x h := by
    unfold richardson centralQuotient; field_simp
  refine ⟨a4, ?_⟩
  unfold deriv1AndErrorsCentral5
  have t : ((4 / 3 * (g (x + h / 2) - g (x - h / 2)) - 1 / 3 * (1 / 2 * (g (x + h) - g (x - h)))) -
      1 / 2 * (g (x + h) - g (x - h))) / h = richardson g x h - centralQuotient g x h := by rw [sub_div, q, r]
  simp only [e1, e2, e3, e4, ok_bind, t, q, r]
  congr 3
  unfold truncation rounding
  congr 1
  rw [abs_of_nonneg (by positivity)]
  ring

/-- C81: if the truncation error is estimated larger than the rounding error, the derivative is computed again with the
step that balances them, and this one is returned if its total error is not larger and both derivatives agree within four times
the error; otherwise the first one is returned. -/
theorem C81_central5_selection {cbrt : α → α} (hcb : ∀ r, 0 < r → 0 < cbrt r) {f : Callback α A} {g : α → α}
    (hf : ∀ t a, ∃ a', f t a = ok (g t, a')) (x : α) (args : A) :
    let h := (1 / 1000 : α)
    let te := truncation g x h
    let re := rounding g x h
    let h' := h * cbrt (re / (2 * te))
    ∃ d a', deriv1Central5 cbrt x args f = ok (d, a') ∧
      (te = 0 ∨ re = 0 ∨ te < re → d = richardson g x h) ∧
      (te ≠ 0 → re ≠ 0 → re ≤ te →
        (truncation g x h' + rounding g x h' ≤ te + re → |richardson g x h' - richardson g x h| ≤ 4 * (te + re) → d = richardson g x h') ∧
        (te + re < truncation g x h' + rounding g x h' ∨ 4 * (te + re) < |richardson g x h' - richardson g x h| → d = richardson g x h)) := by
  intro h te re h'
  have hs : (fdStep : α) = h := by unfold fdStep; norm_num [h]
  have hh : 0 < h := by norm_num [h]
  have te0 : 0 ≤ te := abs_nonneg _
  have re0 : 0 ≤ re := by
    have hE : (0 : α) ≤ f64Eps := by unfold f64Eps; positivity
    have : 0 ≤ max |centralQuotient g x h| |richardson g x h| := le_max_of_le_left (abs_nonneg _)
    show 0 ≤ rounding g x h
    unfold rounding
    positivity
  obtain ⟨a1, e1⟩ := C81_central5_estimates hf hh (x := x) args
  unfold deriv1Central5
  rw [hs]
  simp only [e1, ok_bind]
  by_cases c1 : te = 0 ∨ re = 0
  · rw [if_pos c1]
    exact ⟨_, _, rfl, fun _ => rfl, fun h1 h2 => by rcases c1 with c | c; exacts [absurd c h1, absurd c h2]⟩
  · rw [if_neg c1]
    push Not at c1
    by_cases c2 : te < re
    · rw [if_pos c2]
      exact ⟨_, _, rfl, fun _ => rfl, fun _ _ h3 => absurd c2 (not_lt.2 h3)⟩
    · rw [if_neg c2]
      have hpos : 0 < re / (2 * te) := div_pos (lt_of_le_of_ne re0 (Ne.symm c1.2)) (by
        have := lt_of_le_of_ne te0 (Ne.symm c1.1); linarith)
      have hh' : 0 < h' := mul_pos hh (hcb _ hpos)
      obtain ⟨a2, e2⟩ := C81_central5_estimates hf hh' (x := x) a1
      simp only [show h * cbrt (rounding g x h / (2 * truncation g x h)) = h' from rfl, e2, ok_bind]
      have first : te = 0 ∨ re = 0 ∨ te < re → False := by
        rintro (c | c | c)
        exacts [c1.1 c, c1.2 c, c2 c]
      by_cases c3 : truncation g x h' + rounding g x h' > te + re
      · rw [if_pos c3]
        exact ⟨_, _, rfl, fun h => (first h).elim, fun _ _ _ => ⟨fun h1 => absurd c3 (not_lt.2 h1), fun _ => rfl⟩⟩
      · rw [if_neg c3]
        by_cases c4 : |richardson g x h' - richardson g x h| > 4 * (te + re)
        · rw [if_pos c4]
          exact ⟨_, _, rfl, fun h => (first h).elim, fun _ _ _ => ⟨fun _ h2 => absurd c4 (not_lt.2 h2), fun _ => rfl⟩⟩
        · rw [if_neg c4]
          exact ⟨_, _, rfl, fun h => (first h).elim, fun _ _ _ => ⟨fun _ _ => rfl, fun h => by
            rcases h with h | h
            exacts [absurd h c3, absurd h c4]⟩⟩

/-- the exponent-like function 1/(1+x) at zero needs the improved step -/
example : truncation (fun x : ℚ => 1 / (1 + x)) 0 (1 / 1000) ≠ 0 ∧ rounding (fun x : ℚ => 1 / (1 + x)) 0 (1 / 1000) ≠ 0 ∧
    rounding (fun x : ℚ => 1 / (1 + x)) 0 (1 / 1000) ≤ truncation (fun x : ℚ => 1 / (1 + x)) 0 (1 / 1000) := by
  norm_num [truncation, rounding, richardson, centralQuotient, f64Eps, abs_of_pos, abs_of_neg]

/-- C81: the checks `deriv*_approx_eq` pass exactly when the given derivative differs from the numerical one by at most the
tolerance; they panic otherwise, and when the function returns an error. -/
theorem C81_approx_eq (num : A → Callback α A → Res (α × A)) (d tol : α) (args : A) (f : Callback α A) :
    (∀ a, derivApproxEq num d args tol f = ok a ↔ ∃ dn, num args f = ok (dn, a) ∧ |d - dn| ≤ tol) ∧
    ((∃ a, derivApproxEq num d args tol f = ok a) ∨ derivApproxEq num d args tol f = Res.panic) ∧
    (∀ m, num args f = err m → derivApproxEq num d args tol f = Res.panic) := by
  unfold derivApproxEq
  cases hn : num args f with
  | ok v =>
    obtain ⟨dn, a'⟩ := v
    simp only [Res.unwrap_ok, Res.ok_bind]
    by_cases hc : |d - dn| > tol
    · rw [if_pos hc]
      refine ⟨fun a => ⟨(fun h => by cases h), ?_⟩, Or.inr rfl, (fun m h => by cases h)⟩
      rintro ⟨dn', e, hle⟩
      cases Res.ok.inj e
      exact absurd hle (not_le.2 hc)
    · rw [if_neg hc]
      refine ⟨fun a => ⟨fun h => ?_, ?_⟩, Or.inl ⟨_, rfl⟩, fun m h => by cases h⟩
      · cases Res.ok.inj h
        exact ⟨dn, rfl, not_lt.1 hc⟩
      · rintro ⟨dn', e, hle⟩
        cases Res.ok.inj e
        rfl
  | err m => simp
  | panic => simp

omit [LinearOrder α] [IsStrictOrderedRing α] in
/-- The closure differentiated by `num_jacobian` restores `extra.y` after every call. -/
theorem njClosure_on {function : List α → α → List α → A → Res (List α × A)} {G : List α → List α} {updA : List α → A → A}
    {x : α} {y : List α} {n i j : Nat} (hn : n ≤ y.length) (hi : i < n) (hj : j < n)
    (hG : ∀ yy, yy.length = y.length → (G yy).length = n)
    (hfun : ∀ fv yy a, yy.length = y.length → function fv x yy a = ok (G yy, updA yy a)) :
    CallsOn (njClosure function x i j) (fun t => (G (y.set j t)).getD i 0)
      (fun t s => (s.1, G (y.set j t), updA (y.set j t) s.2.2)) (fun _ => True) (fun s => s.1 = y) := by
  rintro t - ⟨yy, fv, a⟩ hyy
  dsimp only at hyy
  subst hyy
  refine ⟨?_, rfl⟩
  unfold njClosure
  dsimp only
  rw [vget_lt (show j < yy.length by omega), ok_bind, vset_lt _ (show j < yy.length by omega), ok_bind,
    hfun _ _ _ (by rw [List.length_set]), ok_bind]
  dsimp only
  rw [vset_lt _ (by rw [List.length_set]; omega), ok_bind, vget_lt (by rw [hG _ (by rw [List.length_set])]; exact hi), ok_bind,
    List.set_set, List.set_getElem_self, List.getD_eq_getElem _ _ (by rw [hG _ (by rw [List.length_set])]; exact hi)]

/-- C81: `num_jacobian` returns in row `i` and column `j` the derivative of the component `i` of the function with respect to
the component `j` of `y`, times `alpha`, with an error of order `h⁴`. -/
theorem C81_num_jacobian {cbrt : α → α} (hcb : CbrtOk cbrt) {function : List α → α → List α → A → Res (List α × A)}
    {G : List α → List α} {updA : List α → A → A} {x : α} {y : List α} {n : Nat} (alpha : α) (args : A) (hn : n ≤ y.length)
    (hG : ∀ yy, yy.length = y.length → (G yy).length = n)
    (hfun : ∀ fv yy a, yy.length = y.length → function fv x yy a = ok (G yy, updA yy a)) :
    ∃ jac a, numJacobianDense cbrt n x y alpha args function = ok (jac, a) ∧
      ∀ i j, i < n → j < n → ∀ (c : Nat → α) (R : α → α) (M : α),
        Expands (fun t => (G (y.set j t)).getD i 0) (y.getD j 0) 5 c R (fun u => |u| ≤ fdStep) →
        (∀ u, |u| ≤ fdStep → |R u| ≤ M * |u| ^ 5) → |jac i j - alpha * c 1| ≤ |alpha| * (5 / 12 * M * fdStep ^ 4) := by
  unfold numJacobianDense
  let Good : Arr2 α → Nat → Nat → Prop := fun jac i j => ∀ (c : Nat → α) (R : α → α) (M : α),
        Expands (fun t => (G (y.set j t)).getD i 0) (y.getD j 0) 5 c R (fun u => |u| ≤ fdStep) →
        (∀ u, |u| ≤ fdStep → |R u| ≤ M * |u| ^ 5) → |jac i j - alpha * c 1| ≤ |alpha| * (5 / 12 * M * fdStep ^ 4)
  have hput : ∀ (jac : Arr2 α) (a b i j : Nat) (v : α), (i, j) ≠ (a, b) → Good jac i j → Good (jac.put a b v) i j := by
    intro jac a b i j v hne hg c R M he hR
    have : jac.put a b v i j = jac i j := by
      unfold Arr2.put
      rw [if_neg]
      rintro ⟨rfl, rfl⟩
      exact hne rfl
    rw [this]; exact hg c R M he hR
  obtain ⟨s, hs, hI⟩ := forRange_spec (lo := 0) (hi := n)
    (s := ((fun _ _ => 0 : Arr2 α), y, List.replicate n (0 : α), args))
    (f := fun i s => forRange 0 n s fun j s => do
      let (res, extra) ← deriv1Central5 cbrt (← vget y j) s.2 (njClosure function x i j)
      ok (Arr2.put s.1 i j (res * alpha), extra))
    (fun k s => s.2.1 = y ∧ ∀ i j, i < k → j < n → Good s.1 i j) (Nat.zero_le _) ⟨rfl, fun i j h => by omega⟩ (by
      intro k s _ hk hks
      obtain ⟨s', h1, h2⟩ := forRange_spec (lo := 0) (hi := n) (s := s)
        (f := fun j s => do
          let (res, extra) ← deriv1Central5 cbrt (← vget y j) s.2 (njClosure function x k j)
          ok (Arr2.put s.1 k j (res * alpha), extra))
        (fun l s => s.2.1 = y ∧ (∀ i j, i < k → j < n → Good s.1 i j) ∧ ∀ j, j < l → Good s.1 k j) (Nat.zero_le _)
        ⟨hks.1, hks.2, fun j h => by omega⟩ (by
          intro l s _ hl hls
          obtain ⟨d, pts, e1, e2, -, -, e3⟩ := C81_central5 hcb (x := y.getD l 0)
            (fun t _ => njClosure_on hn hk hl hG hfun t trivial) (args := s.2) hls.1
          rw [vget_lt (show l < y.length by omega), ok_bind, ← List.getD_eq_getElem _ 0 (show l < y.length by omega), e1, ok_bind]
          refine ⟨_, rfl, e2, ?_, ?_⟩
          · intro i j hi hj
            exact hput _ _ _ _ _ _ (by intro h; cases h; omega) (hls.2.1 i j hi hj)
          · intro j hj
            by_cases hjl : j = l
            · subst hjl
              intro c R M he hR
              have : (Arr2.put s.1 k j (d * alpha)) k j = d * alpha := by unfold Arr2.put; rw [if_pos ⟨rfl, rfl⟩]
              dsimp only
              rw [this, show d * alpha - alpha * c 1 = alpha * (d - c 1) by ring, abs_mul]
              exact mul_le_mul_of_nonneg_left (e3 c R M he hR) (abs_nonneg _)
            · exact hput _ _ _ _ _ _ (by intro h; cases h; exact hjl rfl) (hls.2.2 j (by omega)))
      refine ⟨s', h1, h2.1, fun i j hi hj => ?_⟩
      by_cases hik : i = k
      · subst hik; exact h2.2.2 j hj
      · exact h2.2.1 i j (by omega) hj)
  obtain ⟨jac, yy, fv, a⟩ := s
  refine ⟨jac, a, ?_, fun i j hi hj => hI.2 i j hi hj⟩
  rw [hs, ok_bind]

/-- C81: an error of the function is returned by `num_jacobian` (it does not panic); a vector shorter than `ndim` makes it
panic. -/
theorem C81_num_jacobian_error {cbrt : α → α} {function : List α → α → List α → A → Res (List α × A)} {x : α} {y : List α}
    {n : Nat} (hn0 : 0 < n) (alpha : α) (args : A) :
    (∀ m, y ≠ [] → (∀ fv yy a, function fv x yy a = err m) → numJacobianDense cbrt n x y alpha args function = err m) ∧
    (y = [] → numJacobianDense cbrt n x y alpha args function = Res.panic) := by
  constructor
  · intro m hy hf
    have hy0 : 0 < y.length := List.length_pos_iff.2 hy
    unfold numJacobianDense
    rw [forRange_step hn0, forRange_step hn0]
    simp only [vget_lt hy0, ok_bind, deriv1Central5, deriv1AndErrorsCentral5, njClosure, vset_lt _ hy0, hf, err_bind]
  · rintro rfl
    unfold numJacobianDense
    rw [forRange_step hn0, forRange_step hn0]
    simp only [vget_ge (show ([] : List α).length ≤ 0 from le_rfl), panic_bind]

end props

section cases

/-- the polynomial `t⁴ - 2t`, recorded calls -/
def quartic : Callback ℚ (List ℚ) := fun t l => ok (t ^ 4 - 2 * t, l ++ [t])

/-- the function callbacks of `C81_forward7` and the others exist, and the expansion too -/
example : CallsTo quartic (fun t => t ^ 4 - 2 * t) (fun t l => l ++ [t]) (fun _ => True) ∧
    Expands (fun t : ℚ => t ^ 4 - 2 * t) 1 5 (fun i => [-1, 2, 6, 4, 1].getD i 0) (fun _ => 0) (fun _ => True) := by
  refine ⟨fun t _ l => rfl, fun u _ => ?_⟩
  simp [Finset.sum_range_succ]
  ring

/-- the forward formula at `x = 1` returns `4·1³ - 2 = 2` -/
example : ∃ a, deriv1Forward7 1 [] quartic = ok (2, a) := by
  obtain ⟨d, h1, h2⟩ := C81_forward7 (x := (1 : ℚ)) (f := quartic) (g := fun t => t ^ 4 - 2 * t) (upd := fun t l => l ++ [t]) []
    (fun t _ l => rfl)
  have := h2 (fun i => [-1, 2, 6, 4, 1].getD i 0) (fun _ => 0) 0 (fun u _ => by simp [Finset.sum_range_succ]; ring)
    (fun u _ => by simp)
  simp only [mul_zero, zero_mul, abs_nonpos_iff, sub_eq_zero] at this
  exact ⟨_, by rw [h1, this]; rfl⟩

/-- the real cube root satisfies `CbrtOk`; over the rationals the constant one does -/
example : CbrtOk (fun _ : ℚ => 1) := fun _ _ _ => ⟨by norm_num, le_rfl⟩

/-- `num_jacobian` for `f = (y₀ - y₁, y₀ y₁)` at `(3, 5)` with `alpha = 2` gives `2·[[1, -1], [5, 3]]` -/
example : ∃ jac a, numJacobianDense (fun _ : ℚ => 1) 2 0 [3, 5] 2 ()
    (fun _ _ y a => ok ([y.getD 0 0 - y.getD 1 0, y.getD 0 0 * y.getD 1 0], a)) = ok (jac, a) ∧
    jac 0 0 = 2 ∧ jac 0 1 = -2 ∧ jac 1 0 = 10 ∧ jac 1 1 = 6 := by
  obtain ⟨jac, a, h1, h2⟩ := C81_num_jacobian (cbrt := fun _ : ℚ => 1) (fun _ _ _ => ⟨by norm_num, le_rfl⟩) (n := 2) (x := 0)
    (y := [3, 5]) 2 () (G := fun y => [y.getD 0 0 - y.getD 1 0, y.getD 0 0 * y.getD 1 0]) (updA := fun _ a => a)
    (function := fun _ _ y a => ok ([y.getD 0 0 - y.getD 1 0, y.getD 0 0 * y.getD 1 0], a)) (by simp) (fun _ _ => rfl)
    (fun _ _ _ _ => rfl)
  have fin : ∀ {d c : ℚ} {K : ℚ}, |d - 2 * c| ≤ |2| * (5 / 12 * 0 * K) → d = 2 * c := by
    intro d c K h
    rw [mul_zero, zero_mul, mul_zero] at h
    exact sub_eq_zero.1 (abs_nonpos_iff.1 h)
  refine ⟨jac, a, h1, ?_, ?_, ?_, ?_⟩
  · rw [fin (h2 0 0 (by decide) (by decide) (fun i => [-2, 1].getD i 0) (fun _ => 0) 0
      (fun u _ => by simp [Finset.sum_range_succ]; ring) (fun u _ => by simp))]; norm_num
  · rw [fin (h2 0 1 (by decide) (by decide) (fun i => [-2, -1].getD i 0) (fun _ => 0) 0
      (fun u _ => by simp [Finset.sum_range_succ]; ring) (fun u _ => by simp))]; norm_num
  · rw [fin (h2 1 0 (by decide) (by decide) (fun i => [15, 5].getD i 0) (fun _ => 0) 0
      (fun u _ => by simp [Finset.sum_range_succ]; ring) (fun u _ => by simp))]; norm_num
  · rw [fin (h2 1 1 (by decide) (by decide) (fun i => [15, 3].getD i 0) (fun _ => 0) 0
      (fun u _ => by simp [Finset.sum_range_succ]; ring) (fun u _ => by simp))]; norm_num

end cases

end Russell.Lab
