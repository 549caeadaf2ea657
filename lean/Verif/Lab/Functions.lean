import Verif.Prelude
import Mathlib.Algebra.Order.Field.Basic
import Mathlib.Algebra.Order.AbsoluteValue.Basic
import Mathlib.Data.Nat.Factorial.Basic
import Mathlib.Data.Real.Basic
import Mathlib.Analysis.SpecialFunctions.Log.Deriv
import Mathlib.Analysis.SpecialFunctions.ExpDeriv
import Mathlib.Tactic.Linarith
import Mathlib.Tactic.FieldSimp
import Mathlib.Tactic.NormNum

/-!
# Elementary functions (/repo/russell_lab/src/math/functions.rs), properties C30 and C51
-/

namespace Russell.Lab

open Russell Russell.Res

section Exact

variable {α : Type}

/-- `neg_one_pow_n` (/repo/russell_lab/src/math/functions.rs:22-33); `n` is an `i32`, `n & 1` acts on its bits -/
def negOnePowN [One α] [Neg α] (n : BitVec 32) : α := if n &&& 1#32 = 0#32 then 1 else -1

variable [Field α] [LinearOrder α]

/-- `sign` (/repo/russell_lab/src/math/functions.rs:65-73), values of an ordered field -/
def sign (x : α) : α := if x < 0 then -1 else if x > 0 then 1 else 0

/-- `ramp` (/repo/russell_lab/src/math/functions.rs:109-111) -/
def ramp (x : α) : α := if x < 0 then 0 else x

/-- `heaviside` (/repo/russell_lab/src/math/functions.rs:139-147); the constant `0.5` is `1/2` -/
def heaviside (x : α) : α := if x < 0 then 0 else if x > 0 then 1 else 1 / 2

/-- `boxcar` (/repo/russell_lab/src/math/functions.rs:200-211) -/
def boxcar (x a b : α) : Res α :=
  if a ≥ b then panic
  else if x < a ∨ x > b then ok 0
  else if x > a ∧ x < b then ok 1
  else ok (1 / 2)

end Exact

/-- `FACTORIAL_22` (/repo/russell_lab/src/math/functions.rs:400-424); the literals are integers -/
def FACTORIAL_22 : List Nat := [
  1, 1, 2, 6, 24, 120, 720, 5040, 40320, 362880, 3628800, 39916800, 479001600, 6227020800, 87178291200, 1307674368000,
  20922789888000, 355687428096000, 6402373705728000, 121645100408832000, 2432902008176640000, 51090942171709440000,
  1124000727777607680000]

/-- `factorial_lookup_22` (/repo/russell_lab/src/math/functions.rs:455-460) -/
def factorialLookup22 (n : Nat) : Res Nat := if n > 22 then panic else vget FACTORIAL_22 n

/-- **C30** `factorial_lookup_22(n)` is `n!` for all `n ≤ 22` and panics for every larger `n`. Every value of the table is
exactly representable as a double (`m · 2^e` with `m < 2^53`), and 23! is not, so the table is as long as possible. -/
theorem C30_factorial :
    (∀ n, n ≤ 22 → factorialLookup22 n = ok n.factorial) ∧ (∀ n, 22 < n → factorialLookup22 n = panic) ∧
    (∀ n, n ≤ 22 → ∃ m e, n.factorial = m * 2 ^ e ∧ m < 2 ^ 53) ∧
    ¬ ∃ m e, Nat.factorial 23 = m * 2 ^ e ∧ m < 2 ^ 53 := by
  refine ⟨by decide, fun n h => by simp [factorialLookup22, h], ?_, ?_⟩
  · intro n hn
    refine ⟨n.factorial / 2 ^ (n.factorial.log2 - 52), n.factorial.log2 - 52, ?_, ?_⟩
    · revert n; decide
    · revert n; decide
  · rintro ⟨m, e, h, hm⟩
    have h23 : Nat.factorial 23 = 49308808782358125 * 2 ^ 19 := by decide
    by_cases he : e ≤ 19
    · obtain ⟨d, hd⟩ := Nat.exists_eq_add_of_le he
      rw [h23, hd, pow_add, ← mul_assoc, mul_right_comm] at h
      have := Nat.eq_of_mul_eq_mul_right (Nat.pos_of_ne_zero (by positivity)) h
      have h2 : 1 ≤ 2 ^ d := Nat.one_le_two_pow
      nlinarith
    · obtain ⟨d, hd⟩ := Nat.exists_eq_add_of_le (show 20 ≤ e by omega)
      rw [h23, hd, pow_add, show (2 : Nat) ^ 20 = 2 * 2 ^ 19 by norm_num] at h
      have h2 : 49308808782358125 * 2 ^ 19 = (m * 2 ^ d * 2) * 2 ^ 19 := by rw [h]; ring
      have := Nat.eq_of_mul_eq_mul_right (by norm_num) h2
      omega

/-- **C30** `neg_one_pow_n(n)` is `(-1)^n` for every `i32` value, negative ones included. -/
theorem C30_neg_one_pow {α : Type} [Field α] (n : BitVec 32) : (negOnePowN n : α) = (-1) ^ n.toInt := by
  have key : (n &&& 1#32 = 0#32) ↔ Even n.toInt := by
    rw [Int.even_iff]
    have h1 : (n &&& 1#32 = 0#32) ↔ n.toNat % 2 = 0 := by
      rw [← BitVec.toNat_inj]
      simp [BitVec.toNat_and, Nat.and_one_is_mod]
    rw [h1, BitVec.toInt_eq_toNat_cond]
    split <;> omega
  unfold negOnePowN
  by_cases h : n &&& 1#32 = 0#32
  · rw [if_pos h, Even.neg_one_zpow (key.1 h)]
  · rw [if_neg h, Odd.neg_one_zpow (Int.not_even_iff_odd.1 (fun e => h (key.2 e)))]

/-- **C30** `sign`, `ramp` and `heaviside` satisfy the documented identities for every value. -/
theorem C30_sign_ramp_heaviside {α : Type} [Field α] [LinearOrder α] [IsStrictOrderedRing α] (x : α) :
    (x < 0 → sign x = -1 ∧ heaviside x = 0 ∧ ramp x = 0) ∧ (x = 0 → sign x = 0 ∧ heaviside x = 1 / 2 ∧ ramp x = 0) ∧
    (0 < x → sign x = 1 ∧ heaviside x = 1 ∧ ramp x = x) ∧
    sign x * |x| = x ∧ sign x = 2 * heaviside x - 1 ∧ sign (-x) = -sign x ∧
    ramp x = max x 0 ∧ ramp x = (x + |x|) / 2 ∧ ramp x = x * heaviside x := by
  rcases lt_trichotomy x 0 with h | h | h
  · have h2 : ¬ 0 < x := not_lt.2 h.le
    have h3 : -x > 0 := neg_pos.2 h
    have h4 : ¬ -x < 0 := not_lt.2 h3.le
    simp only [sign, ramp, heaviside, h, if_true, abs_of_neg h, h3, h4, if_false]
    refine ⟨by simp, fun e => absurd e h.ne, fun e => absurd e h2, by ring, by ring, by ring, by rw [max_eq_right h.le],
      by ring, by ring⟩
  · subst h; simp [sign, ramp, heaviside]
  · have h2 : ¬ x < 0 := not_lt.2 h.le
    have h3 : -x < 0 := neg_lt_zero.2 h
    simp only [sign, ramp, heaviside, h, h2, if_true, abs_of_pos h, h3, if_false, gt_iff_lt]
    refine ⟨fun e => e.elim, fun e => absurd e h.ne', by simp, by ring, by ring, trivial, by rw [max_eq_left h.le], by ring,
      by ring⟩

/-- **C30** `boxcar(x; a, b)` panics exactly when `a ≥ b`; otherwise it is the documented piecewise function and equals
`heaviside(x - a) - heaviside(x - b)`. -/
theorem C30_boxcar {α : Type} [Field α] [LinearOrder α] [IsStrictOrderedRing α] (x a b : α) :
    (b ≤ a → boxcar x a b = panic) ∧
    (a < b → boxcar x a b = ok (heaviside (x - a) - heaviside (x - b)) ∧
      (x < a ∨ b < x → boxcar x a b = ok 0) ∧ (x = a ∨ x = b → boxcar x a b = ok (1 / 2)) ∧
      (a < x → x < b → boxcar x a b = ok 1)) := by
  refine ⟨fun h => by simp [boxcar, h], fun h => ?_⟩
  have hab : ¬ b ≤ a := not_le.2 h
  have e : boxcar x a b = ok (if x < a ∨ b < x then 0 else if a < x ∧ x < b then 1 else 1 / 2) := by
    simp only [boxcar, ge_iff_le, hab, if_false, gt_iff_lt]
    split
    · rfl
    · split <;> rfl
  rw [e]
  refine ⟨?_, ?_, ?_, ?_⟩
  · congr 1
    simp only [heaviside, sub_neg, gt_iff_lt, sub_pos]
    rcases lt_trichotomy x a with h1 | h1 | h1
    · have h2 : x < b := h1.trans h
      simp [h1, h2]
    · subst h1; simp [h, not_lt.2 h.le]
    · have h1' := not_lt.2 h1.le
      rcases lt_trichotomy x b with h2 | h2 | h2
      · simp [h1, h1', h2, not_lt.2 h2.le]
      · subst h2; simp [h1, h1']; norm_num
      · simp [h1, h1', h2, not_lt.2 h2.le]
  · intro h1; rw [if_pos h1]
  · rintro (rfl | rfl)
    · simp [not_lt.2 h.le]
    · simp [not_lt.2 h.le]
  · intro h1 h2
    rw [if_neg (by rintro (h3 | h3); exacts [lt_asymm h1 h3, lt_asymm h2 h3]), if_pos ⟨h1, h2⟩]

example : (negOnePowN (-3#32) : ℚ) = -1 ∧ (negOnePowN 6#32 : ℚ) = 1 := by constructor <;> rfl
example : boxcar (2 : ℚ) 1 2 = ok (1 / 2) := ((C30_boxcar (2 : ℚ) 1 2).2 (by norm_num)).2.2.1 (Or.inr rfl)

/-! ## Smooth functions (C51), over the real numbers -/

noncomputable section

/-- `logistic` (/repo/russell_lab/src/math/functions.rs:236-238) -/
def logistic (x : ℝ) : ℝ := 1 / (1 + Real.exp (-x))

/-- `logistic_deriv1` (/repo/russell_lab/src/math/functions.rs:256-259) -/
def logisticDeriv1 (x : ℝ) : ℝ := logistic x * (1 - logistic x)

/-- `smooth_ramp` (/repo/russell_lab/src/math/functions.rs:290-295) -/
def smoothRamp (x beta : ℝ) : ℝ :=
  if -beta * x > 500 then 0 else x + Real.log (1 + Real.exp (-beta * x)) / beta

/-- `smooth_ramp_deriv1` (/repo/russell_lab/src/math/functions.rs:313-318) -/
def smoothRampDeriv1 (x beta : ℝ) : ℝ :=
  if -beta * x > 500 then 0 else 1 / (1 + Real.exp (-beta * x))

/-- `smooth_ramp_deriv2` (/repo/russell_lab/src/math/functions.rs:336-341); `powf(·, 2.0)` is the square -/
def smoothRampDeriv2 (x beta : ℝ) : ℝ :=
  if beta * x > 500 then 0 else beta * Real.exp (beta * x) / (Real.exp (beta * x) + 1) ^ 2

/-- **C51** The logistic function takes values strictly between 0 and 1, satisfies `f(-x) = 1 - f(x)`, and
`logistic_deriv1` is its derivative at every point. -/
theorem C51_logistic (x : ℝ) :
    0 < logistic x ∧ logistic x < 1 ∧ logistic (-x) = 1 - logistic x ∧ HasDerivAt logistic (logisticDeriv1 x) x := by
  have hp : 0 < Real.exp (-x) := Real.exp_pos _
  refine ⟨by unfold logistic; positivity, ?_, ?_, ?_⟩
  · unfold logistic; rw [div_lt_one (by positivity)]; linarith
  · unfold logistic
    rw [neg_neg, eq_sub_iff_add_eq, Real.exp_neg]
    have := Real.exp_pos x
    field_simp
    ring
  · have h1 : HasDerivAt (fun y : ℝ => 1 + Real.exp (-y)) (-Real.exp (-x)) x := by
      have := ((hasDerivAt_neg x).exp).const_add 1
      simpa using this
    have h2 := h1.inv (by positivity)
    have e : (logistic : ℝ → ℝ) = (fun y : ℝ => 1 + Real.exp (-y))⁻¹ := by
      funext y; simp [logistic]
    rw [e]
    refine h2.congr_deriv ?_
    unfold logisticDeriv1 logistic
    field_simp
    ring

/-- **C51** `smooth_ramp_deriv1` is the derivative of `smooth_ramp` at every point except the cut-off `-β·x = 500`. -/
theorem C51_smooth_ramp_deriv1 (x beta : ℝ) (hb : beta ≠ 0) (hx : -beta * x ≠ 500) :
    HasDerivAt (fun y => smoothRamp y beta) (smoothRampDeriv1 x beta) x := by
  have hcont : Continuous fun y : ℝ => -beta * y := continuous_const.mul continuous_id
  rcases lt_or_gt_of_ne hx with h | h
  · have hev : (fun y => smoothRamp y beta) =ᶠ[nhds x] fun y => y + Real.log (1 + Real.exp (-beta * y)) / beta := by
      filter_upwards [hcont.continuousAt.eventually_lt continuousAt_const h] with y hy
      simp only [smoothRamp]; rw [if_neg (not_lt.2 hy.le)]
    refine HasDerivAt.congr_of_eventuallyEq ?_ hev
    have hp : 0 < Real.exp (-beta * x) := Real.exp_pos _
    have h1 : HasDerivAt (fun y : ℝ => -beta * y) (-beta) x := by simpa using (hasDerivAt_id x).const_mul (-beta)
    have h2 : HasDerivAt (fun y : ℝ => 1 + Real.exp (-beta * y)) (Real.exp (-beta * x) * -beta) x := h1.exp.const_add 1
    have h3 := (hasDerivAt_id x).add ((h2.log (by positivity)).div_const beta)
    refine h3.congr_deriv ?_
    simp only [smoothRampDeriv1]
    rw [if_neg (not_lt.2 h.le)]
    field_simp
    ring
  · have hev : (fun y => smoothRamp y beta) =ᶠ[nhds x] fun _ => (0 : ℝ) := by
      filter_upwards [continuousAt_const.eventually_lt hcont.continuousAt h] with y hy
      simp only [smoothRamp]; rw [if_pos hy]
    refine HasDerivAt.congr_of_eventuallyEq ?_ hev
    simp only [smoothRampDeriv1]
    rw [if_pos h]
    exact hasDerivAt_const x 0

/-- **C51** `smooth_ramp_deriv2` is the derivative of `smooth_ramp_deriv1` wherever neither cut-off is active
(`|β·x| < 500`). -/
theorem C51_smooth_ramp_deriv2 (x beta : ℝ) (hx : |beta * x| < 500) :
    HasDerivAt (fun y => smoothRampDeriv1 y beta) (smoothRampDeriv2 x beta) x := by
  obtain ⟨hl, hr⟩ := abs_lt.1 hx
  have h : -beta * x < 500 := by linarith
  have hcont : Continuous fun y : ℝ => -beta * y := continuous_const.mul continuous_id
  have hev : (fun y => smoothRampDeriv1 y beta) =ᶠ[nhds x] (fun y => 1 + Real.exp (-beta * y))⁻¹ := by
    filter_upwards [hcont.continuousAt.eventually_lt continuousAt_const h] with y hy
    simp only [smoothRampDeriv1, Pi.inv_apply]; rw [if_neg (not_lt.2 hy.le), one_div]
  refine HasDerivAt.congr_of_eventuallyEq ?_ hev
  have hp : 0 < Real.exp (-beta * x) := Real.exp_pos _
  have h1 : HasDerivAt (fun y : ℝ => -beta * y) (-beta) x := by simpa using (hasDerivAt_id x).const_mul (-beta)
  have h2 : HasDerivAt (fun y : ℝ => 1 + Real.exp (-beta * y)) (Real.exp (-beta * x) * -beta) x := h1.exp.const_add 1
  have h3 := h2.inv (by positivity)
  refine h3.congr_deriv ?_
  simp only [smoothRampDeriv2]
  rw [if_neg (not_lt.2 hr.le)]
  have e : Real.exp (-beta * x) = (Real.exp (beta * x))⁻¹ := by rw [← Real.exp_neg]; ring_nf
  have hq : 0 < Real.exp (beta * x) := Real.exp_pos _
  rw [e]
  field_simp

/-- **C51** The smooth ramp is within `ln 2 / β` of the ramp, never below it, for every `x` (cut-off included) and `β > 0`; its
first derivative lies in `[0, 1)`. -/
theorem C51_smooth_ramp_near (x beta : ℝ) (hb : 0 < beta) :
    ramp x ≤ smoothRamp x beta ∧ smoothRamp x beta ≤ ramp x + Real.log 2 / beta ∧
    0 ≤ smoothRampDeriv1 x beta ∧ smoothRampDeriv1 x beta < 1 := by
  have hlog2 : 0 < Real.log 2 := Real.log_pos (by norm_num)
  have hp : 0 < Real.exp (-beta * x) := Real.exp_pos _
  refine ⟨?_, ?_, ?_, ?_⟩
  · unfold smoothRamp ramp
    by_cases hc : -beta * x > 500
    · rw [if_pos hc, if_pos (by nlinarith)]
    · rw [if_neg hc]
      by_cases hx : x < 0
      · rw [if_pos hx]
        have h1 : Real.log (Real.exp (-beta * x)) ≤ Real.log (1 + Real.exp (-beta * x)) :=
          Real.log_le_log hp (by linarith)
        rw [Real.log_exp] at h1
        have h2 : -beta * x / beta ≤ Real.log (1 + Real.exp (-beta * x)) / beta := div_le_div_of_nonneg_right h1 hb.le
        have h3 : -beta * x / beta = -x := by field_simp
        linarith
      · rw [if_neg hx]
        have h1 : 0 ≤ Real.log (1 + Real.exp (-beta * x)) := Real.log_nonneg (by linarith)
        have h2 : 0 ≤ Real.log (1 + Real.exp (-beta * x)) / beta := div_nonneg h1 hb.le
        linarith
  · unfold smoothRamp ramp
    by_cases hc : -beta * x > 500
    · rw [if_pos hc, if_pos (by nlinarith)]
      have : 0 < Real.log 2 / beta := div_pos hlog2 hb
      linarith
    · rw [if_neg hc]
      by_cases hx : x < 0
      · rw [if_pos hx]
        have hge : 1 ≤ Real.exp (-beta * x) := by
          rw [Real.one_le_exp_iff]; nlinarith
        have h1 : Real.log (1 + Real.exp (-beta * x)) ≤ Real.log (2 * Real.exp (-beta * x)) :=
          Real.log_le_log (by linarith) (by linarith)
        rw [Real.log_mul (by norm_num) hp.ne', Real.log_exp] at h1
        have h2 : Real.log (1 + Real.exp (-beta * x)) / beta ≤ (Real.log 2 + -beta * x) / beta :=
          div_le_div_of_nonneg_right h1 hb.le
        have h3 : (Real.log 2 + -beta * x) / beta = Real.log 2 / beta - x := by field_simp; ring
        linarith
      · rw [if_neg hx]
        have hle : Real.exp (-beta * x) ≤ 1 := by
          rw [Real.exp_le_one_iff]
          have := not_lt.1 hx
          nlinarith
        have h1 : Real.log (1 + Real.exp (-beta * x)) ≤ Real.log 2 := Real.log_le_log (by linarith) (by linarith)
        have h2 : Real.log (1 + Real.exp (-beta * x)) / beta ≤ Real.log 2 / beta := div_le_div_of_nonneg_right h1 hb.le
        linarith
  · unfold smoothRampDeriv1; split
    · exact le_refl _
    · positivity
  · unfold smoothRampDeriv1; split
    · norm_num
    · rw [div_lt_one (by positivity)]; linarith

/-- the hypotheses are met away from the cut-offs, e.g. `β = 10`, `x = 2` -/
example : HasDerivAt (fun y => smoothRamp y 10) (smoothRampDeriv1 2 10) 2 ∧
    HasDerivAt (fun y => smoothRampDeriv1 y 10) (smoothRampDeriv2 2 10) 2 :=
  ⟨C51_smooth_ramp_deriv1 2 10 (by norm_num) (by norm_num),
   C51_smooth_ramp_deriv2 2 10 (by rw [abs_lt]; constructor <;> norm_num)⟩

end

end Russell.Lab
